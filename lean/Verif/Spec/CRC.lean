import Mathlib.Algebra.Polynomial.Basic
import Mathlib.Algebra.Polynomial.Div
import Mathlib.Data.ZMod.Basic
import Mathlib.Data.Nat.Size
import Verif.Spec.Bits
/-!
# The Mode S parity of ICAO Annex 10 vol. IV, 3.1.2.3.3, in `(ZMod 2)[X]`
-/
open Polynomial
namespace Spec

/-- The polynomial whose coefficients are the bits of a number. -/
noncomputable def polyOf (n : Nat) : (ZMod 2)[X] := ∑ i ∈ Finset.range n.size, if n.testBit i then X ^ i else 0

/-- The message polynomial of a byte string (last bit = constant term). -/
noncomputable def messagePoly (d : List UInt8) : (ZMod 2)[X] := polyOf (beNat d)

/-- The generator x^24 + x^23 + ... + x^12 + x^10 + x^3 + 1. -/
noncomputable def generator : (ZMod 2)[X] := X ^ 24 + (∑ i ∈ Finset.Icc 12 23, X ^ i) + X ^ 10 + X ^ 3 + 1

/-- The parity of a message: the remainder of M(x) x^24 by the generator. -/
noncomputable def parityPoly (d : List UInt8) : (ZMod 2)[X] := (messagePoly d * X ^ 24) %ₘ generator

end Spec
