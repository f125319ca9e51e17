import Mathlib.Data.Int.Log
import Mathlib.Data.Rat.Floor
import Mathlib.Data.Real.Archimedean
/-!
# IEEE 754 rounding

Not a file of `/repo`: how the `float32`/`float64` operations of the decoders are modelled. A finite floating-point number
is the rational it denotes, and each operation is the exact one followed by rounding to `p` significant bits, to nearest,
ties to even (`p = 24` for `float32`, `p = 53` for `float64`). The exponent is unbounded: overflow to infinity,
subnormals, NaN and the sign of zero are not modelled (the values of the decoders are between 2^-10 and 2^24).
-/
namespace Modes

variable {K : Type*} [Field K] [LinearOrder K] [IsStrictOrderedRing K] [FloorRing K]

/-- The nearest integer, ties to even. -/
def roundHalfEven (x : K) : ℤ :=
  let f := ⌊x⌋
  let r := x - f
  if r < 1 / 2 then f else if 1 / 2 < r then f + 1 else if f % 2 = 0 then f else f + 1

/-- Rounding of a (rational or real) number to `p` significant bits. -/
def rnd (p : ℕ) (x : K) : K :=
  if x = 0 then 0
  else
    let e : ℤ := Int.log 2 |x| - ((p : ℤ) - 1)
    roundHalfEven (x / 2 ^ e) * 2 ^ e

/-- The `float32` nearest to a number. -/
def f32 (x : ℚ) : ℚ := rnd 24 x
/-- The `float64` nearest to a number. -/
def f64 (x : ℚ) : ℚ := rnd 53 x
/-- The `float64` nearest to a real number (for the results of `math.Sqrt`). -/
noncomputable def f64R (x : ℝ) : ℝ := rnd 53 x

end Modes
