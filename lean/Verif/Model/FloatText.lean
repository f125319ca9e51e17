import Verif.Model.TextRegisters
/-!
# How Go prints floating point numbers

The verb `%v` of `fmt` prints a `float32` or `float64` with `strconv.FormatFloat(x, 'g', -1, size)`: the shortest decimal number that
reads back as the same floating point number, the nearest one if there are several (Go's library, `strconv/ftoa.go`, `roundShortest`: the
digits of the exact value are cut at the first position where rounding down, or up, stays among the decimals that read back as the number;
if both do, it is rounded to nearest, to even in the middle). That is what is modelled, for zero and for the numbers `x` with
`10^-4 ≤ |x| < 10^6`, which are printed without an exponent. The decoders produce no other: their numbers are below 10^4, and zero or a step
(at least 0.004, the Mach number) away from it (the layouts proved for each register; the smallest track that is not zero is about 0.01 degree).
Minus
zero, which is not a rational number, is printed `-0` (`fmtF` writes the sign bit); it is told apart where it may arise. Simplification: a rational that is not a floating point number, which the decoders never produce, is given a text of its own
(a fraction), so that the function is total.
-/
namespace Modes

/-- `k` decimal digits of a number. -/
def padDigits : Nat → Nat → Txt
  | 0, _ => []
  | k + 1, n => padDigits k (n / 10) ++ [Nat.digitChar (n % 10)]

/-- The decimal number `n / 10^k` (`%f` in Go's `fmtF`). -/
def decimalText (n k : Nat) : Txt := dec (n / 10 ^ k) ++ (if k = 0 then [] else '.' :: padDigits k n)

/-- The decimal with `k` digits after the point that stands for `x ≥ 0`, a floating point number of `p` bits; `none` if rounding the digits of
`x` down or up at this place gives decimals that read back as other numbers. -/
def shortStep (p : ℕ) (x : ℚ) (k : ℕ) : Option ℕ :=
  let down := ⌊x * 10 ^ k⌋₊
  let okDown := rnd p ((down : ℚ) / 10 ^ k) = x
  let okUp := rnd p (((down + 1 : ℕ) : ℚ) / 10 ^ k) = x
  if okDown ∧ okUp then some (roundHalfEven (x * 10 ^ k)).toNat
  else if okDown then some down
  else if okUp then some (down + 1)
  else none

/-- The first number of digits after the point that is enough, and the decimal. -/
def shortSearch (p : ℕ) (x : ℚ) : ℕ → ℕ → ℕ × ℕ
  | 0, k => (⌊x * 10 ^ k⌋₊, k)
  | fuel + 1, k =>
    match shortStep p x k with
    | some n => (n, k)
    | none => shortSearch p x fuel (k + 1)

/-- The text of a floating point number of `p` bits. A floating point number whose denominator is `2^j` has `j` decimals at most. -/
def shortText (p : ℕ) (x : ℚ) : Txt :=
  let r := shortSearch p |x| (x.den.log2 + 1) 0
  (if x < 0 then ['-'] else []) ++ decimalText r.1 r.2

/-- `fmt.Sprintf("%v", x)` of a floating point number of `p` bits. -/
def floatText (p : ℕ) (x : ℚ) : Txt := if rnd p x = x then shortText p x else decInt x.num ++ '/' :: dec x.den

open Classical in
/-- The texts of floating point numbers in Go. The real number given to `degrees` is a `float32`; `math.Atan2` is a parameter. -/
noncomputable def goFloats (atan2F : Bool → Bool → ℕ → ℕ → ℝ) : FloatTexts where
  float32 := floatText 24
  float64 := floatText 53
  degrees x := if h : ∃ q : ℚ, (q : ℝ) = rnd 24 x then floatText 24 (Classical.choose h) else []
  minusZero := t! "-0"
  atan2 := atan2F

end Modes
