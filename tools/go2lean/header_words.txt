import Verif.Model.Translation
import Verif.Model.Text
/-!
# The Go functions of `pkg` that return an error, translated mechanically with the words of the errors

Written by `tools/go2lean/words.py` from the text of /repo; not edited by hand. The translation is that of Model/Translation, but
a returned error keeps its text: `errors.New("…")` and `fmt.Errorf("…", x)` become `say (…)`. Functions that return no error
are those of Model/Translation.
-/
set_option linter.unusedVariables false
namespace Modes

/-- How a Go call can fail: by returning an error, with its text (`Error()`), or by panicking. -/
inductive Failing
  | err (words : Txt)
  | panic
  deriving DecidableEq

/-- Result of a Go function `(T, error)`: a value, an error with its words, or a panic. -/
abbrev Saying (α : Type) := Except Failing α

/-- A call of a function that returns no error. -/
def Saying.lift {α : Type} : Go α → Saying α
  | .ok a => .ok a
  | .error .err => .error (.err [])
  | .error .panic => .error .panic

instance : MonadLift Go Saying := ⟨Saying.lift⟩

/-- `return nil, errors.New(words)` -/
def say {α : Type} (words : Txt) : Saying α := .error (.err words)
/-- `x, err := f()`, then `return nil, errors.New(words)` when there is an error. -/
def saying {α : Type} (words : Txt) : Saying α → Saying α
  | .error (.err _) => .error (.err words)
  | r => r
/-- `m, err := f()` followed by a test of `err == nil`; a panic goes on. -/
def attemptSaid {α : Type} : Saying α → Saying (Option α)
  | .ok a => .ok (some a)
  | .error (.err _) => .ok none
  | .error .panic => .error .panic
/-- `m, err := f()` followed by a test of `err == nil` and, in the end, `return err`; a panic goes on. -/
def attemptWords {α : Type} : Saying α → Saying (Except Txt α)
  | .ok a => .ok (.ok a)
  | .error (.err words) => .ok (.error words)
  | .error .panic => .error .panic
/-- `f() == nil` for a function returning an error -/
def saysNothing (r : Saying Unit) : Bool := match r with | .ok _ => true | .error _ => false

