import Verif.Model.CommB
import Verif.Model.CRC
import Verif.Model.Bounds
/-!
# The Go functions of `pkg`, translated mechanically

Written by `tools/go2lean/generate.py` from the text of /repo; not edited by hand. Each definition is the Go function of the
same name: statements become `let`s, an `if` whose branch returns becomes `if … then … else …`, a returned error becomes
`fail` (the words of errors are in Model/Errors and Model/ReaderErrors), an index or slice expression may panic, loops with
constant bounds are unrolled and the others are folds over the values of the loop variable. The types are those of the
hand-written model (`tools/go2lean/config.py` gives the correspondence). Props/Translation proves that the hand-written model
and this translation agree.
-/
set_option linter.unusedVariables false
namespace Modes

/-- `a && b` where computing `b` may panic: `b` is not computed when `a` is false. -/
def andGo (a : Bool) (b : Go Bool) : Go Bool := if a then b else .ok false
/-- `a || b` where computing `b` may panic: `b` is not computed when `a` is true. -/
def orGo (a : Bool) (b : Go Bool) : Go Bool := if a then .ok true else b
/-- `s[i] = v` -/
def setIdx {α : Type} (s : List α) (i : Nat) (v : α) : Go (List α) := if i < s.length then .ok (s.set i v) else goPanic
/-- `s[i]` with an index of type `int` -/
def idxI {α : Type} (s : List α) (i : Int) : Go α := if i < 0 then goPanic else idx s i.toNat
/-- `s[:j]` with an index of type `int` -/
def sliceToI {α : Type} (s : List α) (j : Int) : Go (List α) := if j < 0 then goPanic else sliceTo s j.toNat
/-- `s[i:]` with an index of type `int` -/
def sliceFromI {α : Type} (s : List α) (i : Int) : Go (List α) := if i < 0 then goPanic else sliceFrom s i.toNat
/-- `s[i:j]` with indices of type `int` -/
def sliceI {α : Type} (s : List α) (i j : Int) : Go (List α) := if i < 0 ∨ j < 0 then goPanic else slice s i.toNat j.toNat
/-- `x >> n` for a byte -/
def shiftRight8 (x : UInt8) (n : Nat) : UInt8 := if n < 8 then x >>> (UInt8.ofNat n) else 0
/-- `uint(i)` -/
def uintOf (i : Int) : Nat := (i % 2 ^ 64).toNat
/-- A number and the sign it is printed with: where a zero can be negative (`ReadSelectedHeading`) the numbers are written so. -/
def signedOf (q : ℚ) : ℚ × Bool := (q, false)
/-- `-x` -/
def signedNeg (x : ℚ × Bool) : ℚ × Bool := (-x.1, !x.2)
/-- `x * y` in float32: the sign is negative when exactly one is. -/
def signedMul (x y : ℚ × Bool) : ℚ × Bool := (f32 (x.1 * y.1), x.2 != y.2)
/-- `x / y` in float32 -/
def signedDiv (x y : ℚ × Bool) : ℚ × Bool := (f32 (x.1 / y.1), x.2 != y.2)
/-- `m, err := f()` followed by a test of `err == nil`; a panic goes on. -/
def attempt {α : Type} (r : Go α) : Go (Option α) :=
  match r with
  | .ok a => .ok (some a)
  | .error .err => .ok none
  | .error .panic => .error .panic
/-- `f() == nil` for a function returning an error -/
def returnsNil (r : Go Unit) : Bool := match r with | .ok _ => true | .error _ => false

