/-!
# Go run-time conventions used by the model

Not a file of `/repo`: the vocabulary in which the Go functions are transcribed.
-/

namespace Modes

/-- How a Go call can fail: by returning a non-nil `error`, or by panicking. The texts of errors are in Model/Errors. -/
inductive Fail
  | err
  | panic
  deriving DecidableEq, Repr

/-- Result of a Go function `(T, error)`: a value, an error, or a panic. -/
abbrev Go (α : Type) := Except Fail α

instance {α : Type} [DecidableEq α] : DecidableEq (Except Fail α) := fun a b =>
  match a, b with
  | .ok x, .ok y => if h : x = y then isTrue (h ▸ rfl) else isFalse (fun e => h (Except.ok.inj e))
  | .error x, .error y => if h : x = y then isTrue (h ▸ rfl) else isFalse (fun e => h (Except.error.inj e))
  | .ok _, .error _ => isFalse (fun e => by cases e)
  | .error _, .ok _ => isFalse (fun e => by cases e)

/-- `return nil, errors.New(..)` -/
def fail {α : Type} : Go α := .error .err

/-- A run-time panic. -/
def goPanic {α : Type} : Go α := .error .panic

/-- `s[i]`: panics when `i` is out of range. -/
def idx {α : Type} (s : List α) (i : Nat) : Go α :=
  match s[i]? with
  | some x => .ok x
  | none => goPanic

/-- `s[:j]`. Simplification: the capacity of a slice is taken to be its length, so the call panics when `j > len(s)`. -/
def sliceTo {α : Type} (s : List α) (j : Nat) : Go (List α) :=
  if j ≤ s.length then .ok (s.take j) else goPanic

/-- `s[i:]`: panics when `i > len(s)`. -/
def sliceFrom {α : Type} (s : List α) (i : Nat) : Go (List α) :=
  if i ≤ s.length then .ok (s.drop i) else goPanic

/-- `s[i:j]`: panics unless `i ≤ j ≤ len(s)` (capacity taken to be the length). -/
def slice {α : Type} (s : List α) (i j : Nat) : Go (List α) :=
  if i ≤ j ∧ j ≤ s.length then .ok ((s.take j).drop i) else goPanic

/-- "the call does not panic" -/
def NoPanic {α : Type} (r : Go α) : Prop := r ≠ .error .panic

/-- "the call returns a value and no error" -/
def Succeeds {α : Type} (r : Go α) : Prop := ∃ a, r = .ok a

end Modes
