import Lean.Elab.Term
import Lean.ToExpr
import Verif.Model.Go
/-!
# Texts: what the `ToString` methods are made of

A string is its list of characters. `t! "abc"` is only notation for the list `['a', 'b', 'c']`, written out when the file is
elaborated.
-/
namespace Modes

/-- A Go string, as a list of characters. -/
abbrev Txt := List Char

open Lean Elab Term in
/-- `t! "abc"` stands for `['a', 'b', 'c']`. -/
elab "t! " s:str : term => return toExpr s.getString.toList

/-- `fmt.Sprintf("%v", n)` of an unsigned number: its decimal digits. -/
def dec (n : Nat) : Txt := Nat.toDigits 10 n

/-- `fmt.Sprintf("%v", n)` of a signed number. -/
def decInt : Int → Txt
  | .ofNat n => dec n
  | .negSucc n => '-' :: dec (n + 1)

/-- `fmt.Sprintf("%v", b)` of a flag. -/
def boolText (b : Bool) : Txt := if b then t! "true" else t! "false"

/-- A `ToString` of the usual form: `switch code { case k: return t ... default: return fmt.Sprintf("%v<suffix>", code) }`. -/
def tableText (table : List (Nat × Txt)) (suffix : Txt) (code : UInt8) : Txt :=
  match table.lookup code.toNat with
  | some t => t
  | none => dec code.toNat ++ suffix

/-- A text of several lines, `fmt.Sprintf("<label>%v\n<label>%v\n...", value, value, ...)`: each line is a label and a
value. -/
def linesText : List (Txt × Txt) → Txt
  | [] => []
  | [(l, v)] => l ++ v
  | (l, v) :: x :: r => l ++ v ++ '\n' :: linesText (x :: r)

end Modes
