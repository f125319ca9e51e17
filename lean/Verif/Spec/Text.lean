/-!
# Text: hexadecimal spelling of bytes, lines of a text

The specification used by Props/Main; it shares nothing with the model.
-/
namespace Spec

/-- The byte `c` is an ASCII hexadecimal digit of value `v`: `0`-`9`, `A`-`F` or `a`-`f`. -/
def HexDigit (c : UInt8) (v : Nat) : Prop :=
  (v < 10 ∧ c.toNat = 48 + v) ∨ (10 ≤ v ∧ v < 16 ∧ (c.toNat = 65 + (v - 10) ∨ c.toNat = 97 + (v - 10)))

/-- The text spells the bytes: two digits for each, the high one first. -/
inductive Spells : List UInt8 → List UInt8 → Prop
  | nil : Spells [] []
  | cons {a b n : UInt8} {x y : Nat} {s f : List UInt8} (ha : HexDigit a x) (hb : HexDigit b y) (hn : n.toNat = 16 * x + y)
      (h : Spells s f) : Spells (a :: b :: s) (n :: f)

/-- A text that consists of the given lines: each but the last is followed by a line break. -/
def textOfLines : List (List Char) → List Char
  | [] => []
  | [l] => l
  | l :: l' :: ls => l ++ '\n' :: textOfLines (l' :: ls)

end Spec
