/-!
# Bit-field vocabulary of the specification

Written from the ICAO conventions (bit 1 is the most significant bit of the first byte), independently of the code.
-/
namespace Spec

/-- The big-endian value of a byte string. -/
def beNat : List UInt8 → Nat
  | [] => 0
  | b :: l => b.toNat * 2 ^ (8 * l.length) + beNat l

/-- The unsigned number held in bits `first..last` (1-based, inclusive, most significant bit first). -/
def bits (d : List UInt8) (first last : Nat) : Nat :=
  beNat d / 2 ^ (8 * d.length - last) % 2 ^ (last + 1 - first)

/-- Is bit `i` set? -/
def bit (d : List UInt8) (i : Nat) : Bool := bits d i i == 1

/-- The two's-complement number whose sign bit is `first` and whose last bit is `last`. -/
def sbits (d : List UInt8) (first last : Nat) : Int :=
  if bit d first then (bits d first last : Int) - 2 ^ (last + 1 - first) else bits d first last

/-- The `n`-byte big-endian string of the number `v` (its low `8 n` bits). -/
def toBytes : Nat → Nat → List UInt8
  | 0, _ => []
  | n + 1, v => UInt8.ofNat (v / 256 ^ n) :: toBytes n v

end Spec
