import Verif.Model.CommBNum
import Verif.Model.BDS44
import Verif.Lemmas.Register
import Verif.Lemmas.Float
import Mathlib.Tactic.Linarith
import Mathlib.Tactic.Ring
import Mathlib.Tactic.FieldSimp
import Mathlib.Tactic.NormNum
import Mathlib.Tactic.IntervalCases
/-! Numbers of the Comm-B registers: two's complement fields and the exactness of their `float32` computations. -/
open Spec
namespace Modes

/-- A two's-complement field is its magnitude bits minus the weight of the sign bit. -/
theorem sbits_split (d : List UInt8) (f l : Nat) (h : f < l) (hl : l ≤ 8 * d.length) :
    sbits d f l = (bits d (f + 1) l : ℤ) - (if bit d f then 2 ^ (l - f) else 0) := by
  obtain ⟨k, rfl⟩ : ∃ k, l = f + k + 1 := ⟨l - f - 1, by omega⟩
  unfold sbits bit bits
  have e1 : f + k + 1 + 1 - f = (k + 1) + 1 := by omega
  have e2 : f + k + 1 + 1 - (f + 1) = k + 1 := by omega
  have e3 : f + 1 - f = 1 := by omega
  have e4 : 8 * d.length - f = (8 * d.length - (f + k + 1)) + (k + 1) := by omega
  have e5 : f + k + 1 - f = k + 1 := by omega
  rw [e1, e2, e3, e4, e5, pow_add 2 _ (k + 1), ← Nat.div_div_eq_div_mul]
  generalize beNat d / 2 ^ (8 * d.length - (f + k + 1)) = V
  rw [Nat.mod_pow_succ (b := 2) (k := k + 1)]
  have hb : V / 2 ^ (k + 1) % 2 < 2 := Nat.mod_lt _ (by decide)
  rw [pow_one]
  interval_cases hx : V / 2 ^ (k + 1) % 2
  · simp
  · simp only [beq_self_eq_true, if_true]; push_cast; ring

/-- Range of a two's-complement field. -/
theorem sbits_range (d : List UInt8) (f l : Nat) (h : f < l) (hl : l ≤ 8 * d.length) :
    -2 ^ (l - f) ≤ sbits d f l ∧ sbits d f l < 2 ^ (l - f) := by
  rw [sbits_split d f l h hl]
  have hb : bits d (f + 1) l < 2 ^ (l - f) := by
    unfold bits
    rw [show l + 1 - (f + 1) = l - f by omega]
    exact Nat.mod_lt _ (by positivity)
  have hb' : (bits d (f + 1) l : ℤ) < 2 ^ (l - f) := by exact_mod_cast hb
  split <;> constructor <;> omega

theorem bits_lt (d : List UInt8) (f l k : Nat) (hk : l + 1 - f = k) : bits d f l < 2 ^ k := by
  unfold bits; rw [hk]; exact Nat.mod_lt _ (by positivity)

attribute [bytenorm] UInt16.toNat_toUInt32 UInt32.toNat_mul UInt16.toNat_toUInt8

theorem f32_nat (n : ℕ) (hn : n ≤ 16777216) : f32 (n : ℚ) = n := by
  have := f32_int (n : ℤ) (by rw [abs_of_nonneg (by omega)]; omega)
  exact_mod_cast this

/-- `signedF32` is exact when its numbers fit in 24 bits. -/
theorem signedF32_eq (neg : Bool) (n N s : ℕ) (Bs : ℤ) (h1 : n * N ≤ 16777216) (h0 : n ≤ 16777216)
    (h2 : |(n : ℤ) * N - Bs * 2 ^ s| ≤ 16777216) :
    signedF32 neg n N (2 ^ s) Bs = ((n : ℚ) * N - (if neg then (Bs : ℚ) * 2 ^ s else 0)) / 2 ^ s := by
  unfold signedF32
  have e1 : f32 (n : ℚ) = n := f32_nat n h0
  have e2 : f32 ((n : ℚ) * N) = n * N := by
    have := f32_nat (n * N) h1; push_cast at this; exact this
  have e3 : f32 ((n : ℚ) * N / 2 ^ s) = n * N / 2 ^ s :=
    f32_exact _ ((n : ℤ) * N) s (by push_cast; rfl) (by rw [abs_of_nonneg (by positivity)]; exact_mod_cast h1)
  have e4 : f32 ((n : ℚ) * N / 2 ^ s - Bs) = n * N / 2 ^ s - Bs := by
    refine f32_exact _ ((n : ℤ) * N - Bs * 2 ^ s) s ?_ h2
    push_cast
    field_simp
  simp only [e1, e2, e3, e4]
  cases neg
  · simp
  · simp only [if_true]; field_simp

/-- `scaledF32` is exact when its numbers fit in 24 bits. -/
theorem scaledF32_eq (n N s : ℕ) (h1 : n * N ≤ 16777216) (h0 : n ≤ 16777216) :
    scaledF32 n N (2 ^ s) = (n : ℚ) * N / 2 ^ s := by
  unfold scaledF32
  have e2 : f32 ((n : ℚ) * N) = n * N := by
    have := f32_nat (n * N) h1; push_cast at this; exact this
  rw [f32_nat n h0, e2]
  exact f32_exact _ ((n : ℤ) * N) s (by push_cast; rfl) (by rw [abs_of_nonneg (by positivity)]; exact_mod_cast h1)

/-- `temperatureOf` is exact. -/
theorem temperatureOf_eq (neg : Bool) (n s : ℕ) (h0 : n ≤ 65536) (hs : s ≤ 8) :
    temperatureOf neg n (1 / 2 ^ s) = ((n : ℚ) - (if neg then 128 * 2 ^ s else 0)) / 2 ^ s := by
  unfold temperatureOf
  have e2 : f32 ((n : ℚ) * (1 / 2 ^ s)) = n / 2 ^ s := by
    rw [show (n : ℚ) * (1 / 2 ^ s) = n / 2 ^ s by ring]
    exact f32_exact _ (n : ℤ) s (by push_cast; rfl) (by rw [abs_of_nonneg (by positivity)]; omega)
  have hp : (2 : ℤ) ^ s ≤ 256 := by
    calc (2 : ℤ) ^ s ≤ 2 ^ 8 := pow_le_pow_right₀ (by norm_num) hs
      _ = 256 := by norm_num
  have hp0 : (0 : ℤ) < 2 ^ s := by positivity
  have e3 : f32 ((n : ℚ) / 2 ^ s - 128) = n / 2 ^ s - 128 := by
    refine f32_exact _ ((n : ℤ) - 128 * 2 ^ s) s (by push_cast; field_simp) ?_
    rw [abs_le]; constructor <;> omega
  rw [f32_nat n (by omega)]
  simp only [e2, e3]
  cases neg
  · simp
  · simp only [if_true]; field_simp

theorem u32_gt (x y : UInt32) : (x > y) = (y.toNat < x.toNat) := by rw [gt_iff_lt, UInt32.lt_iff_toNat_lt]

/-- A signed field computed by `signedF32` is its two's-complement number times the resolution. -/
theorem signedF32_field (d : List UInt8) (f l N s : ℕ) (Bs : ℤ) (num den base : ℚ) (h : f < l) (hl : l ≤ 8 * d.length)
    (e1 : num = N) (e2 : den = 2 ^ s) (e3 : base = Bs) (hB : Bs * 2 ^ s = N * 2 ^ (l - f))
    (hN : N * 2 ^ (l - f) ≤ 16777216) (hp : 2 ^ (l - f) ≤ 16777216) :
    signedF32 (bit d f) (bits d (f + 1) l) num den base = (sbits d f l : ℚ) * (num / den) := by
  subst e1 e2 e3
  have hb : bits d (f + 1) l < 2 ^ (l - f) := bits_lt d (f + 1) l (l - f) (by omega)
  have hs := sbits_split d f l h hl
  generalize bits d (f + 1) l = n at *
  have h1 : n * N ≤ N * 2 ^ (l - f) := by rw [mul_comm]; exact Nat.mul_le_mul_left _ hb.le
  rw [signedF32_eq (bit d f) n N s Bs (by omega) (by omega) ?_, hs]
  · have hB' : (Bs : ℚ) * 2 ^ s = N * 2 ^ (l - f) := by exact_mod_cast hB
    rw [hB']
    push_cast
    split <;> ring
  · rw [hB, abs_le]
    have h1' : (n : ℤ) * N ≤ N * 2 ^ (l - f) := by exact_mod_cast h1
    have hN' : (N : ℤ) * 2 ^ (l - f) ≤ 16777216 := by exact_mod_cast hN
    have : (0 : ℤ) ≤ (n : ℤ) * N := by positivity
    constructor <;> linarith

/-- A signed temperature field. -/
theorem temperature_field (d : List UInt8) (f l s : ℕ) (k : ℚ) (h : f < l) (hl : l ≤ 8 * d.length)
    (e1 : k = 1 / 2 ^ s) (hs' : s ≤ 8) (hB : l - f = s + 7) :
    temperatureOf (bit d f) (bits d (f + 1) l) k = (sbits d f l : ℚ) * k := by
  subst e1
  have hb : bits d (f + 1) l < 2 ^ (l - f) := bits_lt d (f + 1) l (l - f) (by omega)
  have hs := sbits_split d f l h hl
  have : 2 ^ (l - f) ≤ 2 ^ 15 := Nat.pow_le_pow_right (by norm_num) (by omega)
  generalize bits d (f + 1) l = n at *
  rw [temperatureOf_eq (bit d f) n s (by omega) hs', hs, hB, pow_add]
  push_cast
  split <;> ring

/-- A signed integer field. -/
theorem signedInt_field (d : List UInt8) (f l : ℕ) (k base : ℤ) (h : f < l) (hl : l ≤ 8 * d.length)
    (hB : base = k * 2 ^ (l - f)) :
    signedInt (bit d f) (bits d (f + 1) l) k base = sbits d f l * k := by
  subst hB
  rw [sbits_split d f l h hl]
  unfold signedInt
  split <;> ring

theorem roundHalfEven_near (x : ℚ) (m : ℤ) (h : |x - m| < 1 / 2) : roundHalfEven x = m := by
  have h1 := roundHalfEven_err x
  have : |((roundHalfEven x - m : ℤ) : ℚ)| < 1 := by
    push_cast
    calc |(roundHalfEven x : ℚ) - m| = |((roundHalfEven x : ℚ) - x) + (x - m)| := by ring_nf
      _ ≤ |(roundHalfEven x : ℚ) - x| + |x - m| := abs_add_le _ _
      _ < 1 := by linarith
  rw [← Int.cast_abs] at this
  have h2 : |roundHalfEven x - m| < 1 := by exact_mod_cast this
  have := Int.abs_lt_one_iff.1 h2
  omega

/-- Rounding to `p` bits of a number of known exponent, near `m * 2^k`. -/
theorem rnd_near (p : ℕ) (hp : 1 ≤ p) (x : ℚ) (m k : ℤ) (h1 : (2 : ℚ) ^ (p - 1 + k : ℤ) ≤ x) (h2 : x < (2 : ℚ) ^ (p + k : ℤ))
    (h3 : |x / 2 ^ k - m| < 1 / 2) : rnd p x = m * 2 ^ k := by
  have hx : 0 < x := lt_of_lt_of_le (by positivity) h1
  have hlog : Int.log 2 |x| = p - 1 + k := by
    rw [abs_of_pos hx]
    apply le_antisymm
    · have := (Int.lt_zpow_iff_log_lt (b := 2) (by norm_num) (x := p + k) hx).1 (by exact_mod_cast h2)
      omega
    · exact (Int.zpow_le_iff_le_log (b := 2) (by norm_num) hx).1 (by exact_mod_cast h1)
  unfold rnd
  rw [if_neg hx.ne', hlog, show (p : ℤ) - 1 + k - (p - 1) = k by ring]
  show (roundHalfEven (x / 2 ^ k) : ℚ) * 2 ^ k = _
  rw [roundHalfEven_near _ m h3]

/-- One check of a coherency function. -/
theorem ite_chain (c : Prop) [Decidable c] (b : Bool) : ((if c then false else b) = true) ↔ ¬ c ∧ b = true := by
  by_cases h : c <;> simp [h]

theorem ite_last (c : Prop) [Decidable c] : ((if c then false else true) = true) ↔ ¬ c := by
  by_cases h : c <;> simp [h]

theorem any3 (a b c : Bool) : ¬ ((!a) = true ∧ (!b) = true ∧ (!c) = true) ↔ (a = true ∨ b = true ∨ c = true) := by
  revert a b c; decide

theorem any5 (a b c d e : Bool) : ¬ ((!a) = true ∧ (!b) = true ∧ (!c) = true ∧ (!d) = true ∧ (!e) = true) ↔
    (a = true ∨ b = true ∨ c = true ∨ d = true ∨ e = true) := by
  revert a b c d e; decide

theorem any8 (a b c d e f g h : Bool) : ¬ ((!a) = true ∧ (!b) = true ∧ (!c) = true ∧ (!d) = true ∧ (!e) = true ∧
      (!f) = true ∧ (!g) = true ∧ (!h) = true) ↔
    (a = true ∨ b = true ∨ c = true ∨ d = true ∨ e = true ∨ f = true ∨ g = true ∨ h = true) := by
  simp only [Bool.not_eq_true', Bool.not_eq_false, not_and_or]

/-- "not available, and not zero" does not hold. -/
theorem avail_zero (a : Bool) (p : Prop) [Decidable p] : ¬ ((!a) = true ∧ ¬ p) ↔ (a = false → p) := by
  cases a <;> simp

end Modes
