import Verif.Model.Float
import Mathlib.Algebra.Order.Field.Power
import Mathlib.Tactic.Linarith
import Mathlib.Tactic.Positivity
import Mathlib.Tactic.Ring
import Mathlib.Tactic.NormNum
import Mathlib.Tactic.FieldSimp
/-! Exactness and error of the rounding operator. -/
namespace Modes

variable {K : Type*} [Field K] [LinearOrder K] [IsStrictOrderedRing K] [FloorRing K]

theorem roundHalfEven_int (n : ℤ) : roundHalfEven (n : K) = n := by
  unfold roundHalfEven
  simp

theorem roundHalfEven_err (x : K) : |(roundHalfEven x : K) - x| ≤ 1 / 2 := by
  unfold roundHalfEven
  have h1 := Int.floor_le x
  have h2 := Int.lt_floor_add_one x
  simp only
  split
  · rw [abs_le]; constructor <;> linarith
  · split
    · push_cast; rw [abs_le]; constructor <;> linarith
    · split
      · rw [abs_le]; constructor <;> linarith
      · push_cast; rw [abs_le]; constructor <;> linarith

theorem rnd_zero (p : ℕ) : rnd p (0 : K) = 0 := by simp [rnd]

theorem rnd_of_int (p : ℕ) (x : K) (m : ℤ) (h : x / 2 ^ (Int.log 2 |x| - ((p : ℤ) - 1)) = m) : rnd p x = x := by
  unfold rnd
  split
  · rename_i h0; exact h0.symm
  · simp only [h, roundHalfEven_int]
    rw [← h]
    field_simp

/-- Numbers of at most `p` bits times a power of two are not changed by rounding. -/
theorem rnd_exact (p : ℕ) (hp : 1 ≤ p) (n k : ℤ) (hn : |n| ≤ 2 ^ p) : rnd p ((n : K) * 2 ^ k) = n * 2 ^ k := by
  by_cases h0 : n = 0
  · subst h0; simp [rnd_zero]
  have hx : ((n : K) * 2 ^ k) ≠ 0 := mul_ne_zero (by exact_mod_cast h0) (by positivity)
  have hxa : 0 < |((n : K) * 2 ^ k)| := abs_pos.2 hx
  obtain ⟨L, hL⟩ : ∃ L, Int.log 2 |((n : K) * 2 ^ k)| = L := ⟨_, rfl⟩
  have hlow : (2 : K) ^ L ≤ |((n : K) * 2 ^ k)| := by
    rw [← hL]; exact_mod_cast Int.zpow_log_le_self (b := 2) (by decide) hxa
  rw [abs_mul, abs_of_pos (by positivity : (0 : K) < 2 ^ k)] at hlow
  have hnq : |(n : K)| ≤ 2 ^ p := by exact_mod_cast hn
  have hk2 : (2 : K) ^ L ≤ 2 ^ ((p : ℤ) + k) := by
    rw [zpow_add₀ (by norm_num), zpow_natCast]
    exact le_trans hlow (mul_le_mul_of_nonneg_right hnq (by positivity))
  have hLk : L ≤ p + k := (zpow_le_zpow_iff_right₀ (by norm_num)).1 hk2
  by_cases hc : L - ((p : ℤ) - 1) ≤ k
  · apply rnd_of_int p _ (n * 2 ^ (k - (L - ((p : ℤ) - 1))).toNat)
    rw [hL]
    push_cast
    rw [← zpow_natCast, Int.toNat_of_nonneg (by omega), mul_div_assoc, ← zpow_sub₀ (by norm_num)]
  · have hLe : L = p + k := by omega
    have habs : |(n : K)| = 2 ^ p := by
      apply le_antisymm hnq
      rw [hLe, zpow_add₀ (by norm_num), zpow_natCast] at hlow
      exact le_of_mul_le_mul_right hlow (by positivity)
    have hn' : |n| = 2 ^ p := by exact_mod_cast habs
    rcases abs_eq (by positivity : (0 : ℤ) ≤ 2 ^ p) |>.1 hn' with h | h
    · apply rnd_of_int p _ (2 ^ (p - 1))
      rw [hL, hLe, h]
      push_cast
      rw [div_eq_iff (by positivity), ← zpow_natCast, ← zpow_natCast, ← zpow_add₀ (by norm_num), ← zpow_add₀ (by norm_num)]
      congr 1
      omega
    · apply rnd_of_int p _ (-(2 ^ (p - 1)))
      rw [hL, hLe, h]
      push_cast
      rw [div_eq_iff (by positivity), ← zpow_natCast, ← zpow_natCast, neg_mul, neg_mul, ← zpow_add₀ (by norm_num),
        ← zpow_add₀ (by norm_num)]
      congr 2
      omega

/-- Rounding error: half a unit in the last place. -/
theorem rnd_err (p : ℕ) (x : K) : |rnd p x - x| ≤ |x| / 2 ^ p := by
  unfold rnd
  split
  · rename_i h; subst h; simp
  · rename_i hx
    have hxa : 0 < |x| := abs_pos.2 hx
    obtain ⟨L, hL⟩ : ∃ L, Int.log 2 |x| = L := ⟨_, rfl⟩
    have hlow : (2 : K) ^ L ≤ |x| := by
      rw [← hL]; exact_mod_cast Int.zpow_log_le_self (b := 2) (by decide) hxa
    simp only [hL]
    have h := roundHalfEven_err (x / 2 ^ (L - ((p : ℤ) - 1)))
    have hpos : (0 : K) < 2 ^ (L - ((p : ℤ) - 1)) := by positivity
    have e : (roundHalfEven (x / 2 ^ (L - ((p : ℤ) - 1))) : K) * 2 ^ (L - ((p : ℤ) - 1)) - x =
        ((roundHalfEven (x / 2 ^ (L - ((p : ℤ) - 1))) : K) - x / 2 ^ (L - ((p : ℤ) - 1))) * 2 ^ (L - ((p : ℤ) - 1)) := by
      field_simp
    rw [e, abs_mul, abs_of_pos hpos]
    have h2 : (2 : K) ^ (L - ((p : ℤ) - 1)) = 2 ^ L * 2 / 2 ^ p := by
      rw [show L - ((p : ℤ) - 1) = L + 1 - p by omega, zpow_sub₀ (by norm_num), zpow_add₀ (by norm_num), zpow_one,
        zpow_natCast]
    calc _ ≤ (1 / 2) * (2 : K) ^ (L - ((p : ℤ) - 1)) := mul_le_mul_of_nonneg_right h hpos.le
      _ = 2 ^ L / 2 ^ p := by rw [h2]; ring
      _ ≤ _ := div_le_div_of_nonneg_right hlow (by positivity)

/-- Exactness in the form used by the decoders: numerator and power-of-two denominator. -/
theorem f32_exact (x : ℚ) (n : ℤ) (s : ℕ) (hx : x = n / 2 ^ s) (hn : |n| ≤ 16777216) : f32 x = x := by
  unfold f32
  have := rnd_exact (K := ℚ) 24 (by decide) n (-(s : ℤ)) (by norm_num; exact hn)
  rw [zpow_neg, zpow_natCast, ← div_eq_mul_inv] at this
  rw [hx]; exact this

theorem f64_exact (x : ℚ) (n : ℤ) (s : ℕ) (hx : x = n / 2 ^ s) (hn : |n| ≤ 9007199254740992) : f64 x = x := by
  unfold f64
  have := rnd_exact (K := ℚ) 53 (by decide) n (-(s : ℤ)) (by norm_num; exact hn)
  rw [zpow_neg, zpow_natCast, ← div_eq_mul_inv] at this
  rw [hx]; exact this

/-- Integers are exact. -/
theorem f32_int (n : ℤ) (hn : |n| ≤ 16777216) : f32 (n : ℚ) = n := f32_exact _ n 0 (by simp) hn
theorem f64_int (n : ℤ) (hn : |n| ≤ 9007199254740992) : f64 (n : ℚ) = n := f64_exact _ n 0 (by simp) hn

end Modes
