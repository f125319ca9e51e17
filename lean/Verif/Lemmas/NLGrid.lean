import Verif.Lemmas.Taylor
import Verif.Props.GeoNL
import Mathlib.Analysis.Real.Pi.Bounds
import Mathlib.Data.Rat.Cast.Order
/-!
# The latitudes of messages are not near the limits of the longitude zones

Between two neighbouring latitudes that a message can carry, the number of zones changes where `cos(lat) sin(π/k) = sin(π/60)`. For each `k`
the table gives the last latitude before that limit, as a number of steps, for even and odd messages. All comparisons are made with rational
bounds of π, sine and cosine.
-/
namespace Modes
namespace Geo

/-- Terms `i, i+1, ...` of a series whose term `j+1` is `-x2 / (f j)` times term `j`: a partial sum of `n` terms. -/
def seriesQ (f : ℕ → ℚ) (x2 : ℚ) : ℕ → ℕ → ℚ → ℚ
  | 0, _, _ => 0
  | n + 1, i, t => t + seriesQ f x2 n (i + 1) (-(t * x2) / f i)

def cosQ (n : ℕ) (x : ℚ) : ℚ := seriesQ (fun i => (2 * i + 1) * (2 * i + 2)) (x * x) n 0 1
def sinQ (n : ℕ) (x : ℚ) : ℚ := seriesQ (fun i => (2 * i + 2) * (2 * i + 3)) (x * x) n 0 x

theorem cosQ_cast (n : ℕ) (x : ℚ) : ((cosQ n x : ℚ) : ℝ) = cosSum n x := by
  have h : ∀ (n i : ℕ) (t : ℚ), (t : ℝ) = (-1) ^ i * ((x : ℝ) ^ (2 * i) / (2 * i).factorial) →
      ((seriesQ (fun i => (2 * i + 1) * (2 * i + 2)) (x * x) n i t : ℚ) : ℝ) =
        ∑ j ∈ Finset.range n, (-1) ^ (i + j) * ((x : ℝ) ^ (2 * (i + j)) / (2 * (i + j)).factorial) := by
    intro n
    induction n with
    | zero => intro i t _; simp [seriesQ]
    | succ n ih =>
      intro i t ht
      rw [seriesQ, Finset.sum_range_succ']
      push_cast
      rw [ih (i + 1)]
      · rw [add_comm, ht, add_zero]
        congr 1
        apply Finset.sum_congr rfl
        intro j _
        rw [show i + 1 + j = i + (j + 1) by ring]
      · push_cast
        rw [ht, show 2 * (i + 1) = 2 * i + 1 + 1 by ring, Nat.factorial_succ, Nat.factorial_succ, pow_succ, pow_succ, pow_succ]
        have h1 : ((2 * i).factorial : ℝ) ≠ 0 := by positivity
        push_cast
        field_simp
        ring
  have := h n 0 1 (by simp)
  simpa [cosQ, cosSum] using this

theorem sinQ_cast (n : ℕ) (x : ℚ) : ((sinQ n x : ℚ) : ℝ) = sinSum n x := by
  have h : ∀ (n i : ℕ) (t : ℚ), (t : ℝ) = (-1) ^ i * ((x : ℝ) ^ (2 * i + 1) / (2 * i + 1).factorial) →
      ((seriesQ (fun i => (2 * i + 2) * (2 * i + 3)) (x * x) n i t : ℚ) : ℝ) =
        ∑ j ∈ Finset.range n, (-1) ^ (i + j) * ((x : ℝ) ^ (2 * (i + j) + 1) / (2 * (i + j) + 1).factorial) := by
    intro n
    induction n with
    | zero => intro i t _; simp [seriesQ]
    | succ n ih =>
      intro i t ht
      rw [seriesQ, Finset.sum_range_succ']
      push_cast
      rw [ih (i + 1)]
      · rw [add_comm, ht, add_zero]
        congr 1
        apply Finset.sum_congr rfl
        intro j _
        rw [show i + 1 + j = i + (j + 1) by ring]
      · push_cast
        rw [ht, show 2 * (i + 1) + 1 = 2 * i + 1 + 1 + 1 by ring, Nat.factorial_succ (2 * i + 1 + 1), Nat.factorial_succ (2 * i + 1), pow_succ _ (2 * i + 1 + 1),
          pow_succ _ (2 * i + 1), pow_succ _ i]
        have h1 : ((2 * i + 1).factorial : ℝ) ≠ 0 := by positivity
        push_cast
        field_simp
        ring
  have := h n 0 x (by simp)
  simpa [sinQ, sinSum] using this

def piLo : ℚ := 314159265358979323846 / 100000000000000000000
def piHi : ℚ := 314159265358979323847 / 100000000000000000000

theorem piLo_lt : ((piLo : ℚ) : ℝ) < Real.pi := by
  have := Real.pi_gt_d20
  unfold piLo; push_cast; norm_num at this ⊢; exact this
theorem lt_piHi : Real.pi < ((piHi : ℚ) : ℝ) := by
  have := Real.pi_lt_d20
  unfold piHi; push_cast; norm_num at this ⊢; exact this

/-- The margin: small for the limit of 60 zones, which is reached on the equator only. -/
def margin (k : ℕ) : ℚ := if k = 60 then 16 / 1000000000000000 else 1 / 1000000000000

/-- `cos(π T / den) sin(π / k)` exceeds `sin(π/60)` by the margin, computed with bounds. -/
def lowOK (den k T : ℕ) : Bool :=
  decide (sinQ 11 (piHi / 60) + margin k ≤ cosQ 14 (piHi * T / den) * sinQ 12 (piLo / k) ∧ 0 ≤ cosQ 14 (piHi * T / den))
/-- `cos(π (T + 1) / den) sin(π / k)` is below `sin(π/60)` by the margin. -/
def highOK (den k T : ℕ) : Bool :=
  decide (cosQ 13 (piLo * (T + 1) / den) * sinQ 11 (piHi / k) ≤ sinQ 12 (piLo / 60) - margin k)

/-- Number of steps from the equator to the pole: even and odd messages. -/
def den (i : ℕ) : ℕ := 2 * (60 - i) * 131072

/-- For each `k`: the last step at which there are at least `k` zones, for even and for odd messages. For `k = 2` this is the last step below
87 degrees. -/
def lastSteps : List (ℕ × ℕ × ℕ) := [
  (2, 7602175, 7475473), (3, 7561576, 7435549), (4, 7493422, 7368532), (5, 7417946, 7294314),
  (6, 7339309, 7216988), (7, 7258941, 7137959), (8, 7177465, 7057840), (9, 7095190, 6976937),
  (10, 7012284, 6895413), (11, 6928840, 6813359), (12, 6844906, 6730824), (13, 6760509, 6647834),
  (14, 6675658, 6564397), (15, 6590349, 6480510), (16, 6504573, 6396163), (17, 6418313, 6311342),
  (18, 6331550, 6226024), (19, 6244258, 6140187), (20, 6156409, 6053802), (21, 6067971, 5966838),
  (22, 5978912, 5879263), (23, 5889193, 5791039), (24, 5798774, 5702128), (25, 5707613, 5612486),
  (26, 5615663, 5522068), (27, 5522873, 5430825), (28, 5429191, 5338705), (29, 5334558, 5245649),
  (30, 5238912, 5151597), (31, 5142185, 5056481), (32, 5044303, 4960231), (33, 4945188, 4862768),
  (34, 4844751, 4764005), (35, 4742899, 4663850), (36, 4639526, 4562200), (37, 4534516, 4458941),
  (38, 4427743, 4353947), (39, 4319063, 4247079), (40, 4208319, 4138180), (41, 4095330, 4027074),
  (42, 3979893, 3913561), (43, 3861778, 3797415), (44, 3740719, 3678374), (45, 3616409, 3556135),
  (46, 3488487, 3430345), (47, 3356528, 3300586), (48, 3220024, 3166357), (49, 3078356, 3027050),
  (50, 2930764, 2881918), (51, 2776288, 2730016), (52, 2613694, 2570132), (53, 2441345, 2400656),
  (54, 2256994, 2219377), (55, 2057397, 2023107), (56, 1837576, 1806950), (57, 1589139, 1562654),
  (58, 1295705, 1274110), (59, 914923, 899675)]

set_option maxRecDepth 100000 in
theorem lastSteps_low : (lastSteps.all fun r => lowOK (den 0) r.1 r.2.1 && lowOK (den 1) r.1 r.2.2) = true := by decide +kernel
set_option maxRecDepth 100000 in
theorem lastSteps_high : (lastSteps.tail.all fun r => highOK (den 0) r.1 r.2.1 && highOK (den 1) r.1 r.2.2) = true := by decide +kernel
/-- 60 zones are never reached: already four steps from the equator. -/
theorem high60 : (highOK (den 0) 60 3 && highOK (den 1) 60 3) = true := by decide +kernel

theorem low_real (d k T : ℕ) (hk : 2 ≤ k) (hd : 0 < d) (h : lowOK d k T = true) (G : ℕ) (hG : G ≤ T) (hT : T ≤ d) :
    Real.sin (Real.pi / 60) + (margin k : ℝ) ≤ Real.cos (Real.pi * G / d) * Real.sin (Real.pi / k) := by
  unfold lowOK at h
  obtain ⟨h1, h2⟩ := of_decide_eq_true h
  have hp := Real.pi_pos
  have hlo := piLo_lt
  have hhi := lt_piHi
  have hlo0 : (0 : ℝ) < (piLo : ℚ) := by unfold piLo; norm_num
  have hk' : (2 : ℝ) ≤ k := by exact_mod_cast hk
  have hd' : (0 : ℝ) < d := by exact_mod_cast hd
  have hT' : (T : ℝ) ≤ d := by exact_mod_cast hT
  have hG' : (G : ℝ) ≤ T := by exact_mod_cast hG
  have h1' : ((sinQ 11 (piHi / 60) + margin k : ℚ) : ℝ) ≤ ((cosQ 14 (piHi * T / d) * sinQ 12 (piLo / k) : ℚ) : ℝ) := by exact_mod_cast h1
  have h2' : (0 : ℝ) ≤ ((cosQ 14 (piHi * T / d) : ℚ) : ℝ) := by exact_mod_cast h2
  rw [Rat.cast_add, Rat.cast_mul, sinQ_cast, cosQ_cast, sinQ_cast] at h1'
  rw [cosQ_cast] at h2'
  push_cast at h1' h2'
  have s60 : Real.sin (Real.pi / 60) ≤ sinSum 11 ((piHi : ℝ) / 60) := by
    refine le_trans ?_ (le_sinSum 5 _ (by linarith))
    apply Real.sin_le_sin_of_le_of_le_pi_div_two
    · linarith
    · have : (piHi : ℝ) < 4 := by unfold piHi; norm_num
      linarith [Real.pi_gt_three]
    · linarith
  have sk : sinSum 12 ((piLo : ℝ) / k) ≤ Real.sin (Real.pi / k) := by
    refine le_trans (sinSum_le 5 _ (by positivity)) ?_
    apply Real.sin_le_sin_of_le_of_le_pi_div_two
    · have : 0 ≤ (piLo : ℝ) / k := by positivity
      linarith
    · rw [div_le_iff₀ (by linarith)]; nlinarith
    · exact div_le_div_of_nonneg_right hlo.le (by linarith)
  have hang : Real.pi * G / d ≤ Real.pi * T / d := div_le_div_of_nonneg_right (mul_le_mul_of_nonneg_left hG' hp.le) hd'.le
  have hang2 : Real.pi * T / d ≤ (piHi : ℝ) * T / d :=
    div_le_div_of_nonneg_right (mul_le_mul_of_nonneg_right hhi.le (by positivity)) hd'.le
  have hTpi : Real.pi * T / d ≤ Real.pi := by rw [div_le_iff₀ hd']; exact mul_le_mul_of_nonneg_left hT' hp.le
  have c1 : cosSum 14 ((piHi : ℝ) * T / d) ≤ Real.cos (Real.pi * G / d) := by
    have c2 : Real.cos (Real.pi * T / d) ≤ Real.cos (Real.pi * G / d) :=
      Real.cos_le_cos_of_nonneg_of_le_pi (by positivity) hTpi hang
    refine le_trans ?_ c2
    have c3 := cosSum_le 6 ((piHi : ℝ) * T / d) (by have : (0 : ℝ) < piHi := by linarith
                                                    positivity)
    by_cases hh : (piHi : ℝ) * T / d ≤ Real.pi
    · exact le_trans c3 (Real.cos_le_cos_of_nonneg_of_le_pi (by positivity) hh hang2)
    · push Not at hh
      exfalso
      have : Real.cos ((piHi : ℝ) * T / d) < 0 := by
        apply Real.cos_neg_of_pi_div_two_lt_of_lt
        · linarith
        · have e1 : (piHi : ℝ) * T / d ≤ piHi := by
            rw [div_le_iff₀ hd']; exact mul_le_mul_of_nonneg_left hT' (by linarith)
          have : (piHi : ℝ) < 4 := by unfold piHi; norm_num
          linarith [Real.pi_gt_three]
      norm_num at c3
      linarith
  have skpos : 0 ≤ Real.sin (Real.pi / k) := (sin_pi_div_pos k hk).le
  calc Real.sin (Real.pi / 60) + (margin k : ℝ) ≤ sinSum 11 ((piHi : ℝ) / 60) + margin k := by linarith
    _ ≤ cosSum 14 ((piHi : ℝ) * T / d) * sinSum 12 ((piLo : ℝ) / k) := h1'
    _ ≤ cosSum 14 ((piHi : ℝ) * T / d) * Real.sin (Real.pi / k) := mul_le_mul_of_nonneg_left sk h2'
    _ ≤ _ := mul_le_mul_of_nonneg_right c1 skpos

theorem high_real (d k T : ℕ) (hk : 2 ≤ k) (hd : 0 < d) (h : highOK d k T = true) (G : ℕ) (hG : T + 1 ≤ G) (hGd : 2 * G ≤ d) :
    Real.cos (Real.pi * G / d) * Real.sin (Real.pi / k) ≤ Real.sin (Real.pi / 60) - (margin k : ℝ) := by
  unfold highOK at h
  have h1 := of_decide_eq_true h
  have hp := Real.pi_pos
  have hlo := piLo_lt
  have hhi := lt_piHi
  have hlo0 : (0 : ℝ) < (piLo : ℚ) := by unfold piLo; norm_num
  have hk' : (2 : ℝ) ≤ k := by exact_mod_cast hk
  have hd' : (0 : ℝ) < d := by exact_mod_cast hd
  have hG' : (T : ℝ) + 1 ≤ G := by exact_mod_cast hG
  have hGd' : 2 * (G : ℝ) ≤ d := by exact_mod_cast hGd
  have h1' : ((cosQ 13 (piLo * (T + 1) / d) * sinQ 11 (piHi / k) : ℚ) : ℝ) ≤ ((sinQ 12 (piLo / 60) - margin k : ℚ) : ℝ) := by exact_mod_cast h1
  rw [Rat.cast_sub, Rat.cast_mul, sinQ_cast, cosQ_cast, sinQ_cast] at h1'
  push_cast at h1'
  have s60 : sinSum 12 ((piLo : ℝ) / 60) ≤ Real.sin (Real.pi / 60) := by
    refine le_trans (sinSum_le 5 _ (by positivity)) ?_
    apply Real.sin_le_sin_of_le_of_le_pi_div_two <;> linarith
  have sk : Real.sin (Real.pi / k) ≤ sinSum 11 ((piHi : ℝ) / k) := by
    have e1 := le_sinSum 5 (Real.pi / k) (by positivity)
    by_cases hh : (piHi : ℝ) / k ≤ Real.pi / 2
    · refine le_trans ?_ (le_sinSum 5 ((piHi : ℝ) / k) (by have : (0 : ℝ) < piHi := by linarith
                                                           positivity))
      apply Real.sin_le_sin_of_le_of_le_pi_div_two
      · have : 0 ≤ Real.pi / k := by positivity
        linarith
      · exact hh
      · exact div_le_div_of_nonneg_right hhi.le (by linarith)
    · -- only for k = 2, where the sine is 1
      have hk2 : k = 2 := by
        by_contra hne
        apply hh
        have : (3 : ℝ) ≤ k := by exact_mod_cast (by omega : 3 ≤ k)
        have h4 : (piHi : ℝ) < 4 := by unfold piHi; norm_num
        rw [div_le_iff₀ (by linarith)]
        nlinarith [Real.pi_gt_three]
      subst hk2
      refine le_trans (Real.sin_le_one _) ?_
      have e : (1 : ℚ) ≤ sinQ 11 (piHi / 2) := by decide +kernel
      have e' : (1 : ℝ) ≤ ((sinQ 11 (piHi / 2) : ℚ) : ℝ) := by exact_mod_cast e
      rw [sinQ_cast] at e'
      push_cast at e' ⊢
      exact e'
  have hang : (piLo : ℝ) * (T + 1) / d ≤ Real.pi * G / d :=
    div_le_div_of_nonneg_right (mul_le_mul hlo.le hG' (by positivity) hp.le) hd'.le
  have hGpi : Real.pi * G / d ≤ Real.pi / 2 := by
    rw [div_le_iff₀ hd']; nlinarith
  have c1 : Real.cos (Real.pi * G / d) ≤ cosSum 13 ((piLo : ℝ) * (T + 1) / d) := by
    refine le_trans ?_ (le_cosSum 6 _ (by positivity))
    exact Real.cos_le_cos_of_nonneg_of_le_pi (by positivity) (by linarith) hang
  have c0 : 0 ≤ Real.cos (Real.pi * G / d) := by
    apply Real.cos_nonneg_of_neg_pi_div_two_le_of_le
    · have : 0 ≤ Real.pi * G / d := by positivity
      linarith
    · exact hGpi
  have skpos : 0 ≤ Real.sin (Real.pi / k) := (sin_pi_div_pos k hk).le
  calc _ ≤ cosSum 13 ((piLo : ℝ) * (T + 1) / d) * Real.sin (Real.pi / k) := mul_le_mul_of_nonneg_right c1 skpos
    _ ≤ cosSum 13 ((piLo : ℝ) * (T + 1) / d) * sinSum 11 ((piHi : ℝ) / k) := mul_le_mul_of_nonneg_left sk (le_trans c0 c1)
    _ ≤ sinSum 12 ((piLo : ℝ) / 60) - margin k := h1'
    _ ≤ _ := by linarith

/-- The last step below 87 degrees. -/
def last87 (i : ℕ) : ℕ := if i = 0 then 7602175 else 7475473

theorem lastSteps_keys : lastSteps.map (·.1) = List.range' 2 58 := by decide
theorem lastSteps_le : (lastSteps.all fun r => decide (r.2.1 ≤ 7864320) && decide (r.2.2 ≤ 7733248)) = true := by decide

/-- Every latitude of a message between 4 steps and 87 degrees keeps its distance from the limits of all zones. -/
theorem nl_margin (i : ℕ) (hi : i ≤ 1) (G : ℕ) (h4 : 4 ≤ G) (hG : G ≤ last87 i) (k : ℕ) (hk : 2 ≤ k) (hk' : k ≤ 60) :
    Real.sin (Real.pi / 60) + (margin k : ℝ) ≤ Real.cos (Real.pi * G / den i) * Real.sin (Real.pi / k) ∨
    Real.cos (Real.pi * G / den i) * Real.sin (Real.pi / k) ≤ Real.sin (Real.pi / 60) - (margin k : ℝ) := by
  have hi' : i = 0 ∨ i = 1 := by omega
  have hd : 0 < den i := by rcases hi' with rfl | rfl <;> decide
  have hGd : 2 * G ≤ den i := by
    rcases hi' with rfl | rfl
    · have : den 0 = 15728640 := by decide
      simp only [last87] at hG; norm_num at hG; omega
    · have : den 1 = 15466496 := by decide
      simp only [last87] at hG; norm_num at hG; omega
  by_cases h60 : k = 60
  · right
    subst h60
    have h := high60
    rw [Bool.and_eq_true] at h
    rcases hi' with rfl | rfl
    · exact high_real _ 60 3 hk hd h.1 G h4 hGd
    · exact high_real _ 60 3 hk hd h.2 G h4 hGd
  · have hmem : k ∈ lastSteps.map (·.1) := by rw [lastSteps_keys, List.mem_range'_1]; omega
    obtain ⟨r, hr, rfl⟩ := List.mem_map.1 hmem
    have hlow := List.all_eq_true.1 lastSteps_low r hr
    have hle := List.all_eq_true.1 lastSteps_le r hr
    rw [Bool.and_eq_true] at hlow hle
    have hle1 := of_decide_eq_true hle.1
    have hle2 := of_decide_eq_true hle.2
    have hcons : lastSteps = (2, 7602175, 7475473) :: lastSteps.tail := rfl
    rw [hcons, List.mem_cons] at hr
    rcases hr with rfl | hr
    · left
      rcases hi' with rfl | rfl
      · exact low_real _ _ _ hk hd hlow.1 G (by simpa [last87] using hG) (by decide)
      · exact low_real _ _ _ hk hd hlow.2 G (by simpa [last87] using hG) (by decide)
    · have hhigh := List.all_eq_true.1 lastSteps_high r hr
      rw [Bool.and_eq_true] at hhigh
      rcases hi' with rfl | rfl
      · have : den 0 = 15728640 := by decide
        rcases Nat.lt_or_ge r.2.1 G with h | h
        · right; exact high_real _ _ _ hk hd hhigh.1 G h hGd
        · left; exact low_real _ _ _ hk hd hlow.1 G h (by omega)
      · have : den 1 = 15466496 := by decide
        rcases Nat.lt_or_ge r.2.2 G with h | h
        · right; exact high_real _ _ _ hk hd hhigh.2 G h hGd
        · left; exact low_real _ _ _ hk hd hlow.2 G h (by omega)

end Geo
end Modes
