import Verif.Model.Geo
import Verif.Spec.CPR
/-!
# C54: the number of longitude zones
-/
open Spec
namespace Modes
namespace Geo

/-- `1 - cos(2π/n)` and `1 - cos(π/30)` as squared sines. -/
theorem one_sub_cos (x : ℝ) : 1 - Real.cos (2 * x) = 2 * Real.sin x ^ 2 := by
  rw [Real.cos_two_mul, Real.sin_sq]; ring

theorem sin60_pos : 0 < Real.sin (Real.pi / 60) := by
  apply Real.sin_pos_of_pos_of_lt_pi <;> linarith [Real.pi_pos]

theorem cos87 : Real.cos (Real.pi / 180 * 87) = Real.sin (Real.pi / 60) := by
  rw [← Real.cos_pi_div_two_sub]; congr 1; ring

theorem cos_lt_of_abs (x y : ℝ) (h : |x| < |y|) (hy : |y| ≤ 180) :
    Real.cos (Real.pi / 180 * y) < Real.cos (Real.pi / 180 * x) := by
  rw [← Real.cos_abs (Real.pi / 180 * y), ← Real.cos_abs (Real.pi / 180 * x), abs_mul, abs_mul]
  have hp := Real.pi_pos
  have : |Real.pi / 180| = Real.pi / 180 := abs_of_pos (by positivity)
  rw [this]
  apply Real.cos_lt_cos_of_nonneg_of_le_pi
  · positivity
  · have : Real.pi / 180 * |y| ≤ Real.pi / 180 * 180 := mul_le_mul_of_nonneg_left hy (by positivity)
    linarith
  · exact mul_lt_mul_of_pos_left h (by positivity)

/-- Under 87 degrees the cosine exceeds `sin(π/60)`. -/
theorem cos_gt (lat : ℝ) (h : |lat| < 87) : Real.sin (Real.pi / 60) < Real.cos (Real.pi / 180 * lat) := by
  rw [← cos87]
  apply cos_lt_of_abs
  · rw [abs_of_pos (by norm_num : (0 : ℝ) < 87)]; exact h
  · rw [abs_of_pos (by norm_num : (0 : ℝ) < 87)]; norm_num

theorem cos_abs_lat (lat : ℝ) : Real.cos (Real.pi / 180 * |lat|) = Real.cos (Real.pi / 180 * lat) := by
  rw [← Real.cos_abs (Real.pi / 180 * lat), abs_mul, abs_of_pos (by positivity : 0 < Real.pi / 180)]

/-- The argument given to `math.Acos`. -/
noncomputable def acosArg (lat : ℝ) : ℝ := 1 - (1 - Real.cos (Real.pi / (2 * nz))) / Real.cos (Real.pi / 180 * |lat|) ^ 2

theorem acosArg_eq (lat : ℝ) :
    acosArg lat = 1 - 2 * (Real.sin (Real.pi / 60) / Real.cos (Real.pi / 180 * lat)) ^ 2 := by
  unfold acosArg nz
  rw [show Real.pi / (2 * 15) = 2 * (Real.pi / 60) by ring, one_sub_cos, cos_abs_lat, div_pow]
  ring

/-- `math.Acos` is only called inside its domain: for every latitude under 87 degrees its argument is in (-1, 1). -/
theorem nl_domain (lat : ℝ) (h : |lat| < 87) : -1 < acosArg lat ∧ acosArg lat < 1 := by
  rw [acosArg_eq]
  have h1 := cos_gt lat h
  have h2 := sin60_pos
  have h3 : 0 < Real.sin (Real.pi / 60) / Real.cos (Real.pi / 180 * lat) := div_pos h2 (by linarith)
  have h4 : Real.sin (Real.pi / 60) / Real.cos (Real.pi / 180 * lat) < 1 := (div_lt_one (by linarith)).2 h1
  constructor <;> nlinarith

theorem nl_middle (lat : ℝ) (h0 : lat ≠ 0) (h : |lat| < 87) :
    getNumberOfLongitude lat = (⌊2 * Real.pi / Real.arccos (acosArg lat)⌋ : ℝ) := by
  unfold getNumberOfLongitude
  rw [if_neg h0, if_neg (by linarith : ¬ |lat| = 87), if_neg (by linarith : ¬ |lat| > 87)]
  rfl

theorem sin_pi_div_pos (k : ℕ) (hk : 2 ≤ k) : 0 < Real.sin (Real.pi / k) := by
  have hk' : (2 : ℝ) ≤ k := by exact_mod_cast hk
  apply Real.sin_pos_of_pos_of_lt_pi
  · have := Real.pi_pos; positivity
  · rw [div_lt_iff₀ (by linarith)]; nlinarith [Real.pi_pos]

/-- The computed number reaches `k` exactly when the sides of the `k`-gon are long enough. -/
theorem nl_floor (lat : ℝ) (h : |lat| < 87) (k : ℕ) (hk : 2 ≤ k) :
    (k : ℤ) ≤ ⌊2 * Real.pi / Real.arccos (acosArg lat)⌋ ↔
    Real.sin (Real.pi / 60) ≤ Real.cos (Real.pi / 180 * lat) * Real.sin (Real.pi / k) := by
  have hk' : (2 : ℝ) ≤ k := by exact_mod_cast hk
  have hp := Real.pi_pos
  obtain ⟨d1, d2⟩ := nl_domain lat h
  have hx : 0 < Real.arccos (acosArg lat) := Real.arccos_pos.2 d2
  have hc : 0 < Real.cos (Real.pi / 180 * lat) := by linarith [cos_gt lat h, sin60_pos]
  have hs := sin_pi_div_pos k hk
  have hs6 := sin60_pos
  rw [Int.le_floor, Int.cast_natCast, le_div_iff₀ hx, mul_comm, ← le_div_iff₀ (by linarith : (0 : ℝ) < k)]
  have hm0 : 0 ≤ 2 * Real.pi / k := by positivity
  have hm1 : 2 * Real.pi / k ≤ Real.pi := by rw [div_le_iff₀ (by linarith)]; nlinarith
  have e1 : Real.arccos (acosArg lat) ≤ 2 * Real.pi / k ↔ Real.cos (2 * Real.pi / k) ≤ acosArg lat := by
    constructor
    · intro h
      rw [← Real.cos_arccos d1.le d2.le]
      exact Real.cos_le_cos_of_nonneg_of_le_pi hx.le hm1 h
    · intro h
      rw [← Real.arccos_cos hm0 hm1]
      exact Real.arccos_le_arccos h
  rw [e1, acosArg_eq]
  have e2 : Real.cos (2 * Real.pi / k) = 1 - 2 * Real.sin (Real.pi / k) ^ 2 := by
    have := one_sub_cos (Real.pi / k)
    rw [show 2 * Real.pi / k = 2 * (Real.pi / k) by ring]; linarith
  rw [e2]
  have hq : 0 < Real.sin (Real.pi / 60) / Real.cos (Real.pi / 180 * lat) := div_pos hs6 hc
  rw [mul_comm (Real.cos _), ← div_le_iff₀ hc]
  constructor
  · intro h
    exact le_of_sq_le_sq (by linarith) hs.le
  · intro h
    have := pow_le_pow_left₀ hq.le h 2
    linarith

theorem sin_pi_div_anti {k l : ℕ} (hk : 2 ≤ k) (hl : k ≤ l) : Real.sin (Real.pi / l) ≤ Real.sin (Real.pi / k) := by
  have hk' : (2 : ℝ) ≤ k := by exact_mod_cast hk
  have hl' : (k : ℝ) ≤ l := by exact_mod_cast hl
  have hp := Real.pi_pos
  apply Real.sin_le_sin_of_le_of_le_pi_div_two
  · have : 0 ≤ Real.pi / l := by positivity
    linarith
  · rw [div_le_iff₀ (by linarith)]; nlinarith
  · exact div_le_div_of_nonneg_left hp.le (by linarith) hl'

/-- Counting the members of an initial segment. -/
theorem NL_of_iff (lat : ℝ) (n : ℕ) (hn : 1 ≤ n) (hn' : n ≤ 59)
    (h : ∀ k : ℕ, 2 ≤ k → k ≤ 59 →
      (k ≤ n ↔ Real.sin (Real.pi / 60) ≤ Real.cos (Real.pi / 180 * lat) * Real.sin (Real.pi / k))) : NL lat = n := by
  classical
  unfold NL
  have : (Finset.Icc 2 59).filter (fun k : ℕ =>
      Real.sin (Real.pi / 60) ≤ Real.cos (Real.pi / 180 * lat) * Real.sin (Real.pi / k)) = Finset.Icc 2 n := by
    ext k
    rw [Finset.mem_filter, Finset.mem_Icc, Finset.mem_Icc]
    constructor
    · rintro ⟨⟨h1, h2⟩, h3⟩; exact ⟨h1, (h k h1 h2).2 h3⟩
    · rintro ⟨h1, h2⟩; exact ⟨⟨h1, by omega⟩, (h k h1 (by omega)).1 h2⟩
  have e := congrArg Finset.card this
  rw [Nat.card_Icc] at e
  convert congrArg (· + 1) e using 1
  omega

/-- C54, the value: on the globe, the computed number of zones is the one of the specification. -/
theorem nl_spec (lat : ℝ) (h90 : |lat| ≤ 90) : getNumberOfLongitude lat = (NL lat : ℝ) := by
  have hs6 := sin60_pos
  rcases lt_trichotomy |lat| 87 with h | h | h
  · by_cases h0 : lat = 0
    · subst h0
      rw [NL_of_iff 0 59 (by norm_num) (by norm_num)]
      · unfold getNumberOfLongitude; rw [if_pos rfl]; norm_num
      · intro k hk hk'
        refine ⟨fun _ => ?_, fun _ => hk'⟩
        rw [mul_zero, Real.cos_zero, one_mul]
        have := sin_pi_div_anti hk (by omega : k ≤ 60)
        exact_mod_cast this
    · rw [nl_middle lat h0 h]
      set n := ⌊2 * Real.pi / Real.arccos (acosArg lat)⌋ with hn
      have h2 : (2 : ℤ) ≤ n := by
        refine (nl_floor lat h 2 le_rfl).2 ?_
        rw [show Real.pi / ((2 : ℕ) : ℝ) = Real.pi / 2 by norm_num, Real.sin_pi_div_two, mul_one]
        exact (cos_gt lat h).le
      have h60 : ¬ ((60 : ℕ) : ℤ) ≤ n := by
        intro hc
        have := (nl_floor lat h 60 (by norm_num)).1 hc
        have hlt : Real.cos (Real.pi / 180 * lat) < 1 := by
          have := cos_lt_of_abs 0 lat (by rw [abs_zero]; exact abs_pos.2 h0) (by linarith)
          rwa [mul_zero, Real.cos_zero] at this
        rw [show Real.pi / ((60 : ℕ) : ℝ) = Real.pi / 60 by norm_num] at this
        nlinarith
      have hz : n = ((n.toNat : ℕ) : ℤ) := by omega
      rw [NL_of_iff lat n.toNat (by omega) (by push Not at h60; omega)]
      · rw [← Int.cast_natCast, ← hz]
      · intro k hk _
        rw [← nl_floor lat h k hk, ← hn]; omega
  · rw [NL_of_iff lat 2 (by norm_num) (by norm_num)]
    · unfold getNumberOfLongitude
      rw [if_neg (by rintro rfl; norm_num at h), if_pos h]; norm_num
    · intro k hk hk'
      have hc : Real.cos (Real.pi / 180 * lat) = Real.sin (Real.pi / 60) := by rw [← cos_abs_lat, h, cos87]
      rw [hc]
      constructor
      · intro hk2
        have : k = 2 := by omega
        subst this
        rw [show Real.pi / ((2 : ℕ) : ℝ) = Real.pi / 2 by norm_num, Real.sin_pi_div_two, mul_one]
      · intro hle
        by_contra hgt
        have h3 := sin_pi_div_anti (by norm_num : 2 ≤ 3) (by omega : 3 ≤ k)
        have : Real.sin (Real.pi / ((3 : ℕ) : ℝ)) < 1 := by
          rw [show Real.pi / ((3 : ℕ) : ℝ) = Real.pi / 3 by norm_num, Real.sin_pi_div_three]
          have : Real.sqrt 3 < 2 := by rw [Real.sqrt_lt' (by norm_num)]; norm_num
          linarith
        nlinarith
  · rw [NL_of_iff lat 1 (by norm_num) (by norm_num)]
    · unfold getNumberOfLongitude
      rw [if_neg (by rintro rfl; norm_num at h), if_neg (by linarith : ¬ |lat| = 87), if_pos h]; norm_num
    · intro k hk hk'
      refine ⟨fun h => by omega, fun hle => ?_⟩
      exfalso
      have hc : Real.cos (Real.pi / 180 * lat) < Real.sin (Real.pi / 60) := by
        rw [← cos87]
        apply cos_lt_of_abs
        · rw [abs_of_pos (by norm_num : (0 : ℝ) < 87)]; exact h
        · linarith
      have h1 := Real.sin_le_one (Real.pi / k)
      have h2 := sin_pi_div_pos k hk
      nlinarith

theorem NL_range (lat : ℝ) : 1 ≤ NL lat ∧ NL lat ≤ 59 := by
  classical
  unfold NL
  refine ⟨by omega, ?_⟩
  have := Finset.card_filter_le (Finset.Icc 2 59) (fun k : ℕ =>
    Real.sin (Real.pi / 60) ≤ Real.cos (Real.pi / 180 * lat) * Real.sin (Real.pi / k))
  rw [Nat.card_Icc] at this
  convert Nat.succ_le_succ this using 1

theorem nl_far (lat : ℝ) (h : 87 < |lat|) : getNumberOfLongitude lat = 1 := by
  unfold getNumberOfLongitude
  rw [if_neg (by rintro rfl; norm_num at h), if_neg (by linarith : ¬ |lat| = 87), if_pos h]

/-- The result is a whole number between 1 and 59, for every number given. -/
theorem nl_nat (lat : ℝ) : ∃ n : ℕ, getNumberOfLongitude lat = n ∧ 1 ≤ n ∧ n ≤ 59 := by
  by_cases h : |lat| ≤ 90
  · exact ⟨NL lat, nl_spec lat h, NL_range lat⟩
  · exact ⟨1, by rw [nl_far lat (by push Not at h; linarith)]; norm_num, by norm_num, by norm_num⟩

/-- C54. The number of longitude zones is between 1 and 59, is the same for opposite latitudes, and never increases with the
distance to the equator, for all real latitudes. -/
theorem nl_properties (lat : ℝ) :
    (1 ≤ getNumberOfLongitude lat ∧ getNumberOfLongitude lat ≤ 59) ∧
    getNumberOfLongitude (-lat) = getNumberOfLongitude lat ∧
    ∀ lat', |lat| ≤ |lat'| → getNumberOfLongitude lat' ≤ getNumberOfLongitude lat := by
  obtain ⟨n, hn, h1, h59⟩ := nl_nat lat
  refine ⟨⟨?_, ?_⟩, ?_, fun lat' hl => ?_⟩
  · rw [hn]; exact_mod_cast h1
  · rw [hn]; exact_mod_cast h59
  · unfold getNumberOfLongitude
    simp only [neg_eq_zero, abs_neg]
  · by_cases h' : |lat'| ≤ 90
    · rw [nl_spec lat (by linarith), nl_spec lat' h', Nat.cast_le]
      classical
      unfold NL
      refine Nat.succ_le_succ (Finset.card_le_card ?_)
      intro k hk
      rw [Finset.mem_filter] at hk ⊢
      refine ⟨hk.1, hk.2.trans ?_⟩
      have hk2 : 2 ≤ k := (Finset.mem_Icc.1 hk.1).1
      refine mul_le_mul_of_nonneg_right ?_ (sin_pi_div_pos k hk2).le
      rcases hl.lt_or_eq with hlt | heq
      · exact (cos_lt_of_abs lat lat' hlt (by linarith)).le
      · rw [← cos_abs_lat lat, ← cos_abs_lat lat', heq]
    · rw [nl_far lat' (by push Not at h'; linarith), hn]
      exact_mod_cast h1

/-- The two ends and a latitude in between: the values 59, 2 and 1 are all taken. -/
example : getNumberOfLongitude 0 = 59 ∧ getNumberOfLongitude (-87) = 2 ∧ getNumberOfLongitude 88 = 1 := by
  refine ⟨by unfold getNumberOfLongitude; rw [if_pos rfl], ?_, nl_far 88 (by norm_num)⟩
  unfold getNumberOfLongitude
  norm_num

end Geo
end Modes
