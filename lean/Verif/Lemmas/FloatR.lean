import Verif.Lemmas.Float
/-! The rounding operator on real numbers: exactness, error, representable results. -/
namespace Modes

theorem f64R_exact (x : ℝ) (n : ℤ) (s : ℕ) (hx : x = n / 2 ^ s) (hn : |n| ≤ 9007199254740992) : f64R x = x := by
  unfold f64R
  have := rnd_exact (K := ℝ) 53 (by decide) n (-(s : ℤ)) (by norm_num; exact hn)
  rw [zpow_neg, zpow_natCast, ← div_eq_mul_inv] at this
  rw [hx]; exact this

theorem f64R_int (n : ℤ) (hn : |n| ≤ 9007199254740992) : f64R (n : ℝ) = n := f64R_exact _ n 0 (by simp) hn

/-- Multiples of 2^-17 below 2^36 are exact. -/
theorem f64R_grid (x : ℝ) (n : ℤ) (hx : x = n / 131072) (hn : |n| ≤ 9007199254740992) : f64R x = x :=
  f64R_exact x n 17 (by rw [hx]; norm_num) hn

theorem f64R_err (x : ℝ) : |f64R x - x| ≤ |x| / 9007199254740992 := by
  have := rnd_err (K := ℝ) 53 x
  norm_num at this ⊢
  exact this

theorem roundHalfEven_abs (x : ℝ) (n : ℤ) (h : |x| ≤ n) : |roundHalfEven x| ≤ n := by
  have e := roundHalfEven_err x
  rw [abs_le] at e h ⊢
  have h1 : ((roundHalfEven x : ℤ) : ℝ) < ((n + 1 : ℤ) : ℝ) := by push_cast; linarith [e.2, h.2]
  have h2 : ((-n - 1 : ℤ) : ℝ) < ((roundHalfEven x : ℤ) : ℝ) := by push_cast; linarith [e.1, h.1]
  have h1' : roundHalfEven x < n + 1 := by exact_mod_cast h1
  have h2' : -n - 1 < roundHalfEven x := by exact_mod_cast h2
  constructor <;> omega

/-- The result of a rounding is a number of at most 53 bits times a power of two. -/
theorem f64R_rep (x : ℝ) : ∃ n k : ℤ, |n| ≤ 9007199254740992 ∧ f64R x = n * 2 ^ k := by
  unfold f64R rnd
  split
  · exact ⟨0, 0, by norm_num, by simp⟩
  · rename_i hx
    refine ⟨_, _, ?_, rfl⟩
    apply roundHalfEven_abs
    have hxa : 0 < |x| := abs_pos.2 hx
    have h := Int.lt_zpow_succ_log_self (b := 2) (R := ℝ) (by decide) |x|
    rw [abs_div, abs_of_pos (by positivity : (0 : ℝ) < 2 ^ (Int.log 2 |x| - (((53 : ℕ) : ℤ) - 1))),
      div_le_iff₀ (by positivity)]
    have e : ((9007199254740992 : ℤ) : ℝ) * 2 ^ (Int.log 2 |x| - (((53 : ℕ) : ℤ) - 1)) = 2 ^ (Int.log 2 |x| + 1) := by
      rw [show ((9007199254740992 : ℤ) : ℝ) = 2 ^ (53 : ℤ) by norm_num, ← zpow_add₀ (by norm_num)]
      congr 1; push_cast; ring
    rw [e]
    push_cast at h
    exact h.le

/-- The subtraction of 360 from a `float64` between 128 and 360 is exact. -/
theorem f64R_sub360 (y : ℝ) (h1 : 128 ≤ f64R y) (h2 : f64R y ≤ 360) : f64R (f64R y - 360) = f64R y - 360 := by
  obtain ⟨n, k, hn, hx⟩ := f64R_rep y
  have hnr : (n : ℝ) ≤ 9007199254740992 := by
    have := (abs_le.1 hn).2; exact_mod_cast this
  have hk : -46 ≤ k := by
    by_contra hc
    have hc' : k ≤ -47 := by omega
    have : (2 : ℝ) ^ k ≤ 2 ^ (-47 : ℤ) := zpow_le_zpow_right₀ (by norm_num) hc'
    have h3 : (2 : ℝ) ^ (-47 : ℤ) = 1 / 140737488355328 := by norm_num
    have h4 : (0 : ℝ) < 2 ^ k := by positivity
    rw [h3] at this
    rw [hx] at h1
    have : (n : ℝ) * 2 ^ k ≤ 9007199254740992 * (1 / 140737488355328) := by
      calc (n : ℝ) * 2 ^ k ≤ 9007199254740992 * 2 ^ k := mul_le_mul_of_nonneg_right hnr h4.le
        _ ≤ _ := mul_le_mul_of_nonneg_left this (by norm_num)
    norm_num at this
    linarith
  -- everything is a multiple of 2^-46 ... 2^-45 suffices for the magnitude
  obtain ⟨q, hq⟩ : ∃ q : ℕ, k = -46 + q := ⟨(k + 46).toNat, by omega⟩
  have e : f64R y = ((n * 2 ^ q : ℤ) : ℝ) / 2 ^ 46 := by
    rw [hx, hq, zpow_add₀ (by norm_num), zpow_natCast]
    push_cast
    rw [zpow_neg]; norm_num; ring
  rcases Nat.eq_zero_or_pos q with h0 | h0
  · -- then y = n / 2^46 with n at most 2^53, so y is at most 128: y = 128
    have : f64R y = 128 := by
      apply le_antisymm _ h1
      rw [e, h0]; norm_num
      linarith
    rw [this]
    exact f64R_exact _ (-232) 0 (by norm_num) (by norm_num)
  · obtain ⟨r, rfl⟩ : ∃ r, q = r + 1 := ⟨q - 1, by omega⟩
    refine f64R_exact _ (n * 2 ^ r - 360 * 2 ^ 45) 45 ?_ ?_
    · rw [e]; push_cast; rw [pow_succ]; field_simp; ring
    · have e2 : f64R y = ((n * 2 ^ r : ℤ) : ℝ) / 2 ^ 45 := by
        rw [e]; push_cast; rw [pow_succ]; field_simp
      rw [e2] at h1 h2
      rw [le_div_iff₀ (by positivity)] at h1
      rw [div_le_iff₀ (by positivity)] at h2
      have h1' : 128 * 2 ^ 45 ≤ n * 2 ^ r := by exact_mod_cast h1
      have h2' : n * 2 ^ r ≤ 360 * 2 ^ 45 := by exact_mod_cast h2
      rw [abs_le]
      norm_num at h1' h2' ⊢
      constructor <;> omega

/-- Evaluation of a rounding on a number whose binade is known. -/
theorem f64R_eval (x : ℝ) (L n : ℤ) (h1 : (2 : ℝ) ^ L ≤ x) (h2 : x < 2 ^ (L + 1)) (h : |x / 2 ^ (L - 52) - n| < 1 / 2) :
    f64R x = n * 2 ^ (L - 52) := by
  have hx : 0 < x := lt_of_lt_of_le (by positivity) h1
  have hL : Int.log 2 |x| = L := by
    rw [abs_of_pos hx]
    apply le_antisymm
    · have := (Int.lt_zpow_iff_log_lt (b := 2) (R := ℝ) (by decide) hx (x := L + 1)).1 (by exact_mod_cast h2)
      omega
    · exact (Int.zpow_le_iff_le_log (b := 2) (R := ℝ) (by decide) hx).1 (by exact_mod_cast h1)
  unfold f64R rnd
  rw [if_neg hx.ne']
  simp only [hL]
  rw [show L - (((53 : ℕ) : ℤ) - 1) = L - 52 by norm_num]
  congr 2
  have e := roundHalfEven_err (x / 2 ^ (L - 52))
  rw [abs_le] at e
  rw [abs_lt] at h
  have h3 : ((roundHalfEven (x / 2 ^ (L - 52)) : ℤ) : ℝ) < ((n + 1 : ℤ) : ℝ) := by push_cast; linarith [e.2, h.2]
  have h4 : ((n - 1 : ℤ) : ℝ) < ((roundHalfEven (x / 2 ^ (L - 52)) : ℤ) : ℝ) := by push_cast; linarith [e.1, h.1]
  have h3' : roundHalfEven (x / 2 ^ (L - 52)) < n + 1 := by exact_mod_cast h3
  have h4' : n - 1 < roundHalfEven (x / 2 ^ (L - 52)) := by exact_mod_cast h4
  omega

end Modes
