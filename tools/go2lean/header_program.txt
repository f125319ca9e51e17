import Verif.Model.TranslationWords
import Verif.Model.TranslationTexts
import Verif.Model.Errors
/-!
# cmd/main.go, translated mechanically

Written by `tools/go2lean/program.py` from the text of /repo; not edited by hand. A procedure of the program is what it prints, and how it ends.
The readers it calls are those of Model/TranslationWords (`Said`), the texts those of Model/TranslationTexts (`Shown`).
Not translated, but taken from the model: `hex.DecodeString` of Go's library (`hexDecode`, with the error `hexadecimalError`).
The flags as `flag.Parse` leaves them, `os.Args` and `readFile` are parameters of `Ran.main`.
-/
set_option linter.unusedVariables false
namespace Modes

noncomputable section

/-- How a sequence of statements ends: by reaching its end, by `return`, or by a panic. -/
inductive Ended
  | reached
  | returned
  | panicked
  deriving DecidableEq

/-- What statements have printed, and how they end. -/
structure Printed where
  out : Txt
  ended : Ended

/-- No statement. -/
def Ran.nothing : Printed := ⟨[], .reached⟩
/-- `fmt.Printf` -/
def Ran.print (t : Txt) : Printed := ⟨t, .reached⟩
/-- `return` -/
def Ran.leave : Printed := ⟨[], .returned⟩
/-- `panic` -/
def Ran.panicking : Printed := ⟨[], .panicked⟩
/-- One statement after the other. -/
def Printed.andThen (p q : Printed) : Printed := match p.ended with
  | .reached => ⟨p.out ++ q.out, q.ended⟩
  | e => ⟨p.out, e⟩
@[inherit_doc] infixr:60 " ;; " => Printed.andThen
/-- A call of a procedure: its `return` ends it alone. -/
def Ran.call (p : Printed) : Printed := match p.ended with
  | .panicked => p
  | _ => ⟨p.out, .reached⟩
/-- The value of an expression that can panic, in the statements that follow. -/
def Ran.withValue {α : Type} (x : Go α) (f : α → Printed) : Printed := match x with
  | .ok a => f a
  | .error _ => panicking
/-- `x, err := f()`, then `if err != nil { … }` and what follows. -/
def Ran.handing {α : Type} (x : Saying α) (failed : Txt → Printed) (f : α → Printed) : Printed := match x with
  | .ok a => f a
  | .error (.err words) => failed words
  | .error .panic => panicking
/-- `for i, x := range l { … }`, from the index `i`. -/
def Ran.ranging {α : Type} (body : Nat → α → Printed) : Nat → List α → Printed
  | _, [] => nothing
  | i, x :: l => body i x ;; ranging body (i + 1) l
/-- `%X` of a byte -/
def hexOf (b : UInt8) : Txt := if b.toNat < 16 then [hexDigit b.toNat] else hex02 b
/-- `hex.DecodeString` of Go's library. -/
def hexDecodeString (s : List UInt8) : Saying (List UInt8) := match hexDecode s with
  | .ok f => .ok f
  | .error .err => say ((hexadecimalError s).getD [])
  | .error .panic => .error .panic

