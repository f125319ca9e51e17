import Verif.Lemmas.FloatR
/-! Rounding is monotone and odd. -/
namespace Modes

variable {K : Type*} [Field K] [LinearOrder K] [IsStrictOrderedRing K] [FloorRing K]

theorem roundHalfEven_bounds (x : K) : ⌊x⌋ ≤ roundHalfEven x ∧ roundHalfEven x ≤ ⌊x⌋ + 1 := by
  unfold roundHalfEven
  simp only
  split_ifs <;> omega

theorem roundHalfEven_mono {x y : K} (h : x ≤ y) : roundHalfEven x ≤ roundHalfEven y := by
  have hf : ⌊x⌋ ≤ ⌊y⌋ := Int.floor_le_floor h
  rcases lt_or_eq_of_le hf with hlt | heq
  · have := (roundHalfEven_bounds x).2
    have := (roundHalfEven_bounds y).1
    omega
  · unfold roundHalfEven
    simp only
    rw [heq]
    have : x - (⌊y⌋ : K) ≤ y - ⌊y⌋ := sub_le_sub_right h _
    split_ifs <;> first | omega | (exfalso; linarith)

theorem roundHalfEven_neg (x : K) : roundHalfEven (-x) = -roundHalfEven x := by
  have e := roundHalfEven_err x
  have e' := roundHalfEven_err (-x)
  by_cases hx : (⌊x⌋ : K) = x
  · rw [← hx]
    have : (-(⌊x⌋ : K)) = ((-⌊x⌋ : ℤ) : K) := by push_cast; ring
    rw [this, roundHalfEven_int, roundHalfEven_int]
  have hlt : (⌊x⌋ : K) < x := lt_of_le_of_ne (Int.floor_le x) hx
  have hlt' : x < ⌊x⌋ + 1 := Int.lt_floor_add_one x
  have hn : ⌊-x⌋ = -⌊x⌋ - 1 := by
    rw [Int.floor_eq_iff]
    push_cast
    constructor <;> linarith
  unfold roundHalfEven
  simp only
  rw [hn]
  have hr : -x - ((-⌊x⌋ - 1 : ℤ) : K) = 1 - (x - ⌊x⌋) := by push_cast; ring
  rw [hr]
  generalize hg : x - (⌊x⌋ : K) = r
  by_cases h1 : r < 1 / 2
  · rw [if_pos h1, if_neg (by linarith), if_pos (by linarith)]; ring
  by_cases h2 : 1 / 2 < r
  · rw [if_neg h1, if_pos h2, if_pos (by linarith)]; ring
  rw [if_neg h1, if_neg h2, if_neg (by linarith), if_neg (by linarith)]
  split_ifs <;> omega

theorem rnd_neg (p : ℕ) (x : K) : rnd p (-x) = -rnd p x := by
  unfold rnd
  by_cases hx : x = 0
  · simp [hx]
  · rw [if_neg hx, if_neg (by simpa using hx), abs_neg]
    simp only [neg_div, roundHalfEven_neg]
    push_cast; ring

theorem rnd_nonneg (p : ℕ) {x : K} (hx : 0 ≤ x) : 0 ≤ rnd p x := by
  unfold rnd
  split
  · exact le_refl _
  · apply mul_nonneg
    · have : (0 : ℤ) ≤ roundHalfEven (x / 2 ^ (Int.log 2 |x| - ((p : ℤ) - 1))) := by
        have := roundHalfEven_mono (div_nonneg hx (by positivity : (0 : K) ≤ 2 ^ (Int.log 2 |x| - ((p : ℤ) - 1))))
        rw [show (0 : K) = ((0 : ℤ) : K) by simp, roundHalfEven_int] at this
        exact this
      exact_mod_cast this
    · positivity

theorem rnd_mono_pos (p : ℕ) (hp : 1 ≤ p) {x y : K} (hx : 0 < x) (h : x ≤ y) : rnd p x ≤ rnd p y := by
  have hy : 0 < y := lt_of_lt_of_le hx h
  unfold rnd
  rw [if_neg hx.ne', if_neg hy.ne', abs_of_pos hx, abs_of_pos hy]
  simp only
  have hl : Int.log 2 x ≤ Int.log 2 y := Int.log_mono_right hx h
  rcases lt_or_eq_of_le hl with hlt | heq
  · have hxu : x < 2 ^ (Int.log 2 x + 1) := by
      have := Int.lt_zpow_succ_log_self (b := 2) (R := K) (by decide) x
      push_cast at this; exact this
    have hyl : 2 ^ Int.log 2 y ≤ y := by
      have := Int.zpow_log_le_self (b := 2) (R := K) (by decide) hy
      push_cast at this; exact this
    have two : (0 : K) < 2 := by norm_num
    have a1 : (roundHalfEven (x / 2 ^ (Int.log 2 x - ((p : ℤ) - 1))) : K) * 2 ^ (Int.log 2 x - ((p : ℤ) - 1)) ≤
        2 ^ (Int.log 2 x + 1) := by
      have : x / 2 ^ (Int.log 2 x - ((p : ℤ) - 1)) ≤ ((2 ^ p : ℤ) : K) := by
        rw [div_le_iff₀ (by positivity)]
        push_cast
        rw [← zpow_natCast, ← zpow_add₀ two.ne']
        refine hxu.le.trans (le_of_eq ?_)
        congr 1; ring
      have := roundHalfEven_mono this
      rw [roundHalfEven_int] at this
      have h2 : (roundHalfEven (x / 2 ^ (Int.log 2 x - ((p : ℤ) - 1))) : K) ≤ ((2 ^ p : ℤ) : K) := by exact_mod_cast this
      refine (mul_le_mul_of_nonneg_right h2 (by positivity)).trans (le_of_eq ?_)
      push_cast
      rw [← zpow_natCast, ← zpow_add₀ two.ne']
      congr 1; ring
    have a2 : 2 ^ Int.log 2 y ≤
        (roundHalfEven (y / 2 ^ (Int.log 2 y - ((p : ℤ) - 1))) : K) * 2 ^ (Int.log 2 y - ((p : ℤ) - 1)) := by
      have : ((2 ^ (p - 1) : ℤ) : K) ≤ y / 2 ^ (Int.log 2 y - ((p : ℤ) - 1)) := by
        rw [le_div_iff₀ (by positivity)]
        push_cast
        rw [← zpow_natCast, ← zpow_add₀ two.ne']
        refine le_trans (le_of_eq ?_) hyl
        congr 1; push_cast [Nat.cast_sub hp]; ring
      have := roundHalfEven_mono this
      rw [roundHalfEven_int] at this
      have h2 : ((2 ^ (p - 1) : ℤ) : K) ≤ (roundHalfEven (y / 2 ^ (Int.log 2 y - ((p : ℤ) - 1))) : K) := by exact_mod_cast this
      refine le_trans (le_of_eq ?_) (mul_le_mul_of_nonneg_right h2 (by positivity))
      push_cast
      rw [← zpow_natCast, ← zpow_add₀ two.ne']
      congr 1; push_cast [Nat.cast_sub hp]; ring
    exact a1.trans ((zpow_le_zpow_right₀ (by norm_num) (by omega)).trans a2)
  · rw [heq]
    refine mul_le_mul_of_nonneg_right ?_ (by positivity)
    have : roundHalfEven (x / 2 ^ (Int.log 2 y - ((p : ℤ) - 1))) ≤ roundHalfEven (y / 2 ^ (Int.log 2 y - ((p : ℤ) - 1))) :=
      roundHalfEven_mono (div_le_div_of_nonneg_right h (by positivity))
    exact_mod_cast this

/-- Rounding is monotone. -/
theorem rnd_mono (p : ℕ) (hp : 1 ≤ p) {x y : K} (h : x ≤ y) : rnd p x ≤ rnd p y := by
  rcases lt_or_ge 0 x with hx | hx
  · exact rnd_mono_pos p hp hx h
  rcases le_or_gt 0 y with hy | hy
  · have h1 : rnd p x ≤ 0 := by
      have := rnd_nonneg p (by linarith : 0 ≤ -x)
      rw [rnd_neg] at this; linarith
    exact h1.trans (rnd_nonneg p hy)
  · have := rnd_mono_pos p hp (by linarith : 0 < -y) (by linarith : -y ≤ -x)
    rw [rnd_neg, rnd_neg] at this
    linarith

theorem f64R_mono {x y : ℝ} (h : x ≤ y) : f64R x ≤ f64R y := rnd_mono 53 (by decide) h
theorem f64R_neg (x : ℝ) : f64R (-x) = -f64R x := rnd_neg 53 x
theorem f64R_nonneg {x : ℝ} (h : 0 ≤ x) : 0 ≤ f64R x := rnd_nonneg 53 h
theorem f64R_abs (x : ℝ) : |f64R x| = f64R |x| := by
  rcases le_total 0 x with h | h
  · rw [abs_of_nonneg h, abs_of_nonneg (f64R_nonneg h)]
  · rw [abs_of_nonpos h, f64R_neg, abs_of_nonpos]
    have := f64R_nonneg (by linarith : 0 ≤ -x)
    rw [f64R_neg] at this; linarith

/-- The relative form of the error. -/
theorem f64R_rel (x : ℝ) : ∃ δ : ℝ, |δ| ≤ 1 / 9007199254740992 ∧ f64R x = x * (1 + δ) := by
  by_cases hx : x = 0
  · refine ⟨0, by norm_num, ?_⟩
    rw [hx]; simp [f64R, rnd]
  · refine ⟨(f64R x - x) / x, ?_, by field_simp; ring⟩
    rw [abs_div, div_le_iff₀ (abs_pos.2 hx)]
    have := f64R_err x
    linarith

end Modes
