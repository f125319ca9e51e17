import Verif.Spec.Bits
/-!
# Specification: a message as a sequence of fields

What a transmitter does with the values of the fields of a message: writes them one after the other, each in its number of bits.
-/
namespace Spec

/-- The number made of fields (width, value), first one most significant. -/
def pack (l : List (Nat × Nat)) : Nat := l.foldl (fun a p => a * 2 ^ p.1 + p.2) 0

/-- The number of bits of the fields. -/
def packWidth (l : List (Nat × Nat)) : Nat := (l.map Prod.fst).sum

/-- Every value fits in its field. -/
def Fits (l : List (Nat × Nat)) : Prop := ∀ p ∈ l, p.2 < 2 ^ p.1

instance (l : List (Nat × Nat)) : Decidable (Fits l) := by unfold Fits; infer_instance

/-- The fields in `n` bytes. -/
def packed (n : Nat) (l : List (Nat × Nat)) : List UInt8 := toBytes n (pack l)

end Spec
