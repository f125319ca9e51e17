import Verif.Lemmas.NLGrid
import Verif.Props.GeoFloat
/-!
# Rounding in the number of longitude zones

If the cosine and the arccosine of the library are accurate to 2^-52 and 2^-49, the number of zones computed at a latitude decoded from a
message is the exact one.
-/
noncomputable section
namespace Modes
namespace Geo

/-- What is assumed of `math.Cos` and `math.Acos`: the cosine is within 2^-52 of the exact value, and the arccosine is within 2^-49 of the
exact arccosine of a number within 2^-52 of its argument (near -1 and 1 no more can be expected of `Pi/2 - Asin(x)`, where `Asin` computes
`Sqrt(1 - x*x)`). -/
structure Accurate (cosF acosF : ℝ → ℝ) : Prop where
  cos : ∀ x, |cosF x - Real.cos x| ≤ 1 / 2 ^ 52
  acos : ∀ x, -1 ≤ x → x ≤ 1 → ∃ z, -1 ≤ z ∧ z ≤ 1 ∧ |z - x| ≤ 1 / 2 ^ 52 ∧ |acosF x - Real.arccos z| ≤ 1 / 2 ^ 49

/-- Room needed by the last division, in units of 2^-53. -/
def room (k : ℕ) : ℝ := if k = 60 then 1 else 13

/-- Distance kept by the argument of the arccosine, in units of 2^-53. -/
def gap (k : ℕ) : ℝ := if k = 60 then 21 else 100

theorem room_mul (k : ℕ) (hk : 2 ≤ k) : 26 ≤ room k * k := by
  have hk' : (2 : ℝ) ≤ k := by exact_mod_cast hk
  unfold room
  split
  · rename_i h; subst h; norm_num
  · linarith

theorem gap_room (k : ℕ) : room k + 18 ≤ gap k := by unfold room gap; split <;> norm_num

theorem margin_cast (k : ℕ) : (margin k : ℝ) = if k = 60 then 16 / 1000000000000000 else 1 / 1000000000000 := by
  unfold margin; split <;> norm_num

theorem margin_pos (k : ℕ) : (0 : ℝ) < margin k := by rw [margin_cast]; split <;> norm_num

theorem gap_margin (k : ℕ) : gap k / 2 ^ 53 + 9 / 2 ^ 53 + 2 * (margin k : ℝ) ^ 2 ≤ 4 * (margin k : ℝ) * (523 / 10000) := by
  rw [margin_cast]; unfold gap; split <;> norm_num

theorem getNumberOfLongitudeF_exact : getNumberOfLongitudeF id Real.cos Real.arccos = getNumberOfLongitude := rfl

theorem sin60_bounds : (523 / 10000 : ℝ) < Real.sin (Real.pi / 60) ∧ Real.sin (Real.pi / 60) < 524 / 10000 := by
  have hp := Real.pi_pos
  constructor
  · have h := sinSum_le 0 (Real.pi / 60) (by positivity)
    simp [sinSum, Finset.sum_range_succ, Nat.factorial] at h
    nlinarith [Real.pi_gt_d2, Real.pi_lt_d2, mul_pos hp hp, mul_pos hp (mul_pos hp hp)]
  · have h := Real.sin_le (x := Real.pi / 60) (by positivity)
    linarith [Real.pi_lt_d4]

/-- Propagation of the errors to the argument of the arccosine. -/
theorem acosArg_err (s C a c b q y : ℝ) (hs : 523 / 10000 < s) (hs' : s < 524 / 10000) (hC : s ≤ C) (hC' : C ≤ 1)
    (ha : |a - 2 * s ^ 2| ≤ 11 / 5 / 2 ^ 53) (hc : |c - C| ≤ 25 / 2 ^ 53) (hb : |b - c ^ 2| ≤ c ^ 2 / 2 ^ 53)
    (hq : |q - a / b| ≤ |a / b| / 2 ^ 53) (hy : |y - (1 - q)| ≤ |1 - q| / 2 ^ 53) :
    |y - (1 - 2 * s ^ 2 / C ^ 2)| * C ^ 2 ≤ 9 / 2 ^ 53 := by
  have hC0 : 0 < C := by linarith
  have hC2 : 0 < C ^ 2 := by positivity
  have hC21 : C ^ 2 ≤ 1 := by nlinarith
  -- the square
  have h1 : |c ^ 2 - C ^ 2| ≤ 501 / 10 / 2 ^ 53 * C := by
    have e : c ^ 2 - C ^ 2 = (c - C) * (2 * C + (c - C)) := by ring
    rw [e, abs_mul]
    have : |2 * C + (c - C)| ≤ 2 * C + 25 / 2 ^ 53 := by
      refine le_trans (abs_add_le _ _) ?_
      rw [abs_of_pos (by linarith : (0 : ℝ) < 2 * C)]; linarith
    calc |c - C| * |2 * C + (c - C)| ≤ 25 / 2 ^ 53 * (2 * C + 25 / 2 ^ 53) :=
          mul_le_mul hc this (abs_nonneg _) (by positivity)
      _ ≤ _ := by norm_num; nlinarith
  have h1' := abs_le.1 h1
  have h2 : |b - C ^ 2| ≤ 512 / 10 / 2 ^ 53 * C := by
    have e : b - C ^ 2 = (b - c ^ 2) + (c ^ 2 - C ^ 2) := by ring
    rw [e]
    refine le_trans (abs_add_le _ _) ?_
    have : c ^ 2 ≤ 101 / 100 * C := by
      have : C ^ 2 ≤ C := by nlinarith
      norm_num at h1'
      nlinarith [h1'.2]
    have : c ^ 2 / 2 ^ 53 ≤ 101 / 100 * C / 2 ^ 53 := div_le_div_of_nonneg_right this (by positivity)
    norm_num at this hb h1 ⊢
    linarith
  have h2' := abs_le.1 h2
  have hb0 : 999 / 1000 * C ^ 2 ≤ b := by
    norm_num at h2'
    nlinarith [h2'.1]
  have hbpos : 0 < b := by nlinarith
  -- the quotient
  have h3 : |a / b - 2 * s ^ 2 / C ^ 2| * C ^ 2 ≤ 76 / 10 / 2 ^ 53 := by
    have e : (a / b - 2 * s ^ 2 / C ^ 2) = ((a - 2 * s ^ 2) + 2 * s ^ 2 * (C ^ 2 - b) / C ^ 2) / b := by field_simp; ring
    rw [e, abs_div, abs_of_pos hbpos, div_mul_eq_mul_div, div_le_iff₀ hbpos]
    have e2 : |2 * s ^ 2 * (C ^ 2 - b) / C ^ 2| ≤ 537 / 100 / 2 ^ 53 := by
      rw [abs_div, abs_of_pos hC2, div_le_iff₀ hC2, abs_mul, abs_of_pos (by positivity : 0 < 2 * s ^ 2), abs_sub_comm]
      calc 2 * s ^ 2 * |b - C ^ 2| ≤ 2 * s ^ 2 * (512 / 10 / 2 ^ 53 * C) := mul_le_mul_of_nonneg_left h2 (by positivity)
        _ = (2 * (512 / 10 / 2 ^ 53) * s) * (s * C) := by ring
        _ ≤ (2 * (512 / 10 / 2 ^ 53) * (524 / 10000)) * (C * C) := by
            apply mul_le_mul
            · exact mul_le_mul_of_nonneg_left hs'.le (by positivity)
            · exact mul_le_mul_of_nonneg_right hC hC0.le
            · positivity
            · positivity
        _ ≤ _ := by rw [← sq]; exact mul_le_mul_of_nonneg_right (by norm_num) hC2.le
    have e3 : |(a - 2 * s ^ 2) + 2 * s ^ 2 * (C ^ 2 - b) / C ^ 2| ≤ 757 / 100 / 2 ^ 53 := by
      refine le_trans (abs_add_le _ _) ?_
      norm_num at ha e2 ⊢
      linarith
    calc _ ≤ 757 / 100 / 2 ^ 53 * C ^ 2 := mul_le_mul_of_nonneg_right e3 hC2.le
      _ ≤ 76 / 10 / 2 ^ 53 * (999 / 1000 * C ^ 2) := by
          rw [← mul_assoc]; exact mul_le_mul_of_nonneg_right (by norm_num) hC2.le
      _ ≤ _ := mul_le_mul_of_nonneg_left hb0 (by positivity)
  have hr0 : 2 * s ^ 2 / C ^ 2 * C ^ 2 ≤ 55 / 10000 := by
    rw [div_mul_cancel₀ _ hC2.ne']; nlinarith
  have hr0' : 0 ≤ 2 * s ^ 2 / C ^ 2 := by positivity
  have hr2 : 2 * s ^ 2 / C ^ 2 ≤ 2 := by
    rw [div_le_iff₀ hC2]; nlinarith
  have h4 : |q - 2 * s ^ 2 / C ^ 2| * C ^ 2 ≤ 77 / 10 / 2 ^ 53 := by
    have e : q - 2 * s ^ 2 / C ^ 2 = (q - a / b) + (a / b - 2 * s ^ 2 / C ^ 2) := by ring
    have e1 : |a / b| * C ^ 2 ≤ 6 / 1000 := by
      have : |a / b| ≤ |a / b - 2 * s ^ 2 / C ^ 2| + 2 * s ^ 2 / C ^ 2 := by
        have := abs_add_le (a / b - 2 * s ^ 2 / C ^ 2) (2 * s ^ 2 / C ^ 2)
        rw [sub_add_cancel, abs_of_nonneg hr0'] at this; exact this
      calc |a / b| * C ^ 2 ≤ (|a / b - 2 * s ^ 2 / C ^ 2| + 2 * s ^ 2 / C ^ 2) * C ^ 2 := mul_le_mul_of_nonneg_right this hC2.le
        _ = |a / b - 2 * s ^ 2 / C ^ 2| * C ^ 2 + 2 * s ^ 2 / C ^ 2 * C ^ 2 := by ring
        _ ≤ 76 / 10 / 2 ^ 53 + 55 / 10000 := add_le_add h3 hr0
        _ ≤ _ := by norm_num
    have e2 : |q - a / b| * C ^ 2 ≤ 6 / 1000 / 2 ^ 53 := by
      calc |q - a / b| * C ^ 2 ≤ |a / b| / 2 ^ 53 * C ^ 2 := mul_le_mul_of_nonneg_right hq hC2.le
        _ = |a / b| * C ^ 2 / 2 ^ 53 := by ring
        _ ≤ _ := div_le_div_of_nonneg_right e1 (by positivity)
    rw [e]
    calc _ ≤ (|q - a / b| + |a / b - 2 * s ^ 2 / C ^ 2|) * C ^ 2 := mul_le_mul_of_nonneg_right (abs_add_le _ _) hC2.le
      _ = |q - a / b| * C ^ 2 + |a / b - 2 * s ^ 2 / C ^ 2| * C ^ 2 := by ring
      _ ≤ 6 / 1000 / 2 ^ 53 + 76 / 10 / 2 ^ 53 := add_le_add e2 h3
      _ ≤ _ := by norm_num
  have h5 : |1 - q| ≤ 101 / 100 := by
    have e : |q - 2 * s ^ 2 / C ^ 2| ≤ 1 / 100 := by
      by_contra hc'
      push Not at hc'
      have : 1 / 100 * (27 / 10000) ≤ |q - 2 * s ^ 2 / C ^ 2| * C ^ 2 :=
        mul_le_mul hc'.le (by nlinarith) (by norm_num) (abs_nonneg _)
      norm_num at h4 this
      linarith
    have e' := abs_le.1 e
    rw [abs_le]; constructor <;> linarith [e'.1, e'.2]
  have e : y - (1 - 2 * s ^ 2 / C ^ 2) = (y - (1 - q)) - (q - 2 * s ^ 2 / C ^ 2) := by ring
  rw [e]
  have e6 : |y - (1 - q)| * C ^ 2 ≤ 101 / 100 / 2 ^ 53 := by
    calc |y - (1 - q)| * C ^ 2 ≤ |y - (1 - q)| * 1 := mul_le_mul_of_nonneg_left hC21 (abs_nonneg _)
      _ ≤ |1 - q| / 2 ^ 53 := by rw [mul_one]; exact hy
      _ ≤ _ := div_le_div_of_nonneg_right h5 (by positivity)
  calc _ ≤ (|y - (1 - q)| + |q - 2 * s ^ 2 / C ^ 2|) * C ^ 2 := mul_le_mul_of_nonneg_right (abs_sub _ _) hC2.le
    _ = |y - (1 - q)| * C ^ 2 + |q - 2 * s ^ 2 / C ^ 2| * C ^ 2 := by ring
    _ ≤ 101 / 100 / 2 ^ 53 + 77 / 10 / 2 ^ 53 := add_le_add e6 h4
    _ ≤ _ := by norm_num

/-- The arccosine separates at least as much as its argument. -/
theorem arccos_gap (p q : ℝ) (hp : -1 ≤ p) (hpq : p ≤ q) (hq : q ≤ 1) : q - p ≤ Real.arccos p - Real.arccos q := by
  have h := Real.abs_cos_sub_cos_le (Real.arccos q) (Real.arccos p)
  rw [Real.cos_arccos (by linarith) hq, Real.cos_arccos hp (by linarith), abs_of_nonneg (by linarith : 0 ≤ q - p)] at h
  have h2 := Real.arccos_le_arccos hpq
  rw [abs_sub_comm, abs_of_nonneg (by linarith)] at h
  exact h

/-- The last division, when the arccosine is below the limit. -/
theorem quotient_ge (k : ℕ) (hk : 2 ≤ k) (ac P r : ℝ) (h0 : 0 < ac) (h : ac ≤ 2 * Real.pi / k - room k / 2 ^ 53)
    (hP : |P - 2 * Real.pi| ≤ 2 * Real.pi / 2 ^ 53) (hr : |r - P / ac| ≤ |P / ac| / 2 ^ 53) : (k : ℝ) ≤ r := by
  have hk' : (2 : ℝ) ≤ k := by exact_mod_cast hk
  have hp := Real.pi_lt_d2
  have hp0 := Real.pi_gt_three
  have hP' := abs_le.1 hP
  have hP1 : 0 < P := by norm_num at hP'; linarith [hP'.1]
  have hPa : 0 < P / ac := by positivity
  rw [abs_of_pos hPa] at hr
  have hr' := (abs_le.1 hr).1
  have hkac : k * ac ≤ 2 * Real.pi - 26 / 2 ^ 53 := by
    calc k * ac ≤ k * (2 * Real.pi / k - room k / 2 ^ 53) := mul_le_mul_of_nonneg_left h (by linarith)
      _ = 2 * Real.pi - room k * k / 2 ^ 53 := by field_simp
      _ ≤ _ := by have := room_mul k hk; norm_num; linarith
  have : (k : ℝ) ≤ P / ac * (1 - 1 / 2 ^ 53) := by
    rw [div_mul_eq_mul_div, le_div_iff₀ h0]
    norm_num at hP' hkac ⊢
    linarith [hP'.1]
  linarith

/-- The last division, when the arccosine is above the limit. -/
theorem quotient_lt (k : ℕ) (hk : 2 ≤ k) (ac P r : ℝ) (h : 2 * Real.pi / k + room k / 2 ^ 53 ≤ ac)
    (hP : |P - 2 * Real.pi| ≤ 2 * Real.pi / 2 ^ 53) (hr : |r - P / ac| ≤ |P / ac| / 2 ^ 53) : r < k := by
  have hk' : (2 : ℝ) ≤ k := by exact_mod_cast hk
  have hp := Real.pi_lt_d2
  have hp0 := Real.pi_gt_three
  have hP' := abs_le.1 hP
  have hP1 : 0 < P := by norm_num at hP'; linarith [hP'.1]
  have hroom : 0 ≤ room k := by unfold room; split <;> norm_num
  have h0 : 0 < ac := lt_of_lt_of_le (by positivity) h
  have hPa : 0 < P / ac := by positivity
  rw [abs_of_pos hPa] at hr
  have hr' := (abs_le.1 hr).2
  have hkac : 2 * Real.pi + 26 / 2 ^ 53 ≤ k * ac := by
    calc k * ac ≥ k * (2 * Real.pi / k + room k / 2 ^ 53) := mul_le_mul_of_nonneg_left h (by linarith)
      _ = 2 * Real.pi + room k * k / 2 ^ 53 := by field_simp
      _ ≥ _ := by have := room_mul k hk; norm_num; linarith
  have : P / ac * (1 + 1 / 2 ^ 53) < k := by
    rw [div_mul_eq_mul_div, div_lt_iff₀ h0]
    norm_num at hP' hkac ⊢
    linarith [hP'.2]
  linarith

/-- The angle of a latitude of a message. -/
theorem gridLatitude_angle (i : ℕ) (hi : i ≤ 1) (G : ℤ) :
    Real.pi / 180 * |gridLatitude i G| = Real.pi * G.natAbs / den i := by
  have hg : ((G.natAbs : ℕ) : ℝ) = |(G : ℝ)| := by rw [Nat.cast_natAbs, Int.cast_abs]
  rw [hg]
  unfold gridLatitude den
  rcases (by omega : i = 0 ∨ i = 1) with rfl | rfl
  · rw [abs_mul, abs_div _ (131072 : ℝ)]; norm_num; ring
  · rw [abs_mul, abs_div _ (131072 : ℝ)]; norm_num; ring

theorem gridLatitude_abs (i : ℕ) (hi : i ≤ 1) (G : ℤ) : |gridLatitude i G| = 180 * G.natAbs / den i := by
  have h := gridLatitude_angle i hi G
  have hp := Real.pi_pos
  have : Real.pi * |gridLatitude i G| = Real.pi * (180 * G.natAbs / den i) := by
    have e : Real.pi * |gridLatitude i G| = 180 * (Real.pi / 180 * |gridLatitude i G|) := by ring
    rw [e, h]; ring
  exact mul_left_cancel₀ hp.ne' this

theorem den_cast : (den 0 : ℝ) = 15728640 ∧ (den 1 : ℝ) = 15466496 := by
  constructor <;> · unfold den; norm_num

/-- The argument of the arccosine. -/
theorem nlF_arg (cosF acosF : ℝ → ℝ) (hF : Accurate cosF acosF) (x x' s C a t b q y : ℝ) (hx'87 : |x'| < 87)
    (hxx : |x' - x| ≤ 1 / 2 ^ 43) (hsdef : Real.sin (Real.pi / 60) = s) (hCdef : Real.cos (Real.pi / 180 * |x|) = C) (hCgt : s < C)
    (hadef : f64R (1 - cosF (f64R (Real.pi / (2 * nz)))) = a) (htdef : f64R (f64R (Real.pi / 180) * |x'|) = t)
    (hbdef : f64R (cosF t ^ 2) = b) (hqdef : f64R (a / b) = q) (hydef : f64R (1 - q) = y) :
    |y - (1 - 2 * s ^ 2 / C ^ 2)| * C ^ 2 ≤ 9 / 2 ^ 53 := by
  have hp3 := Real.pi_gt_three
  have hp4 := Real.pi_lt_d2
  obtain ⟨hs1, hs2⟩ := sin60_bounds
  rw [hsdef] at hs1 hs2
  have hC1 : C ≤ 1 := by rw [← hCdef]; exact Real.cos_le_one _
  have ha : |a - 2 * s ^ 2| ≤ 11 / 5 / 2 ^ 53 := by
    have hnz : Real.pi / (2 * nz) = Real.pi / 30 := by unfold nz; norm_num
    rw [hnz] at hadef
    have e1 := f64R_err (Real.pi / 30)
    rw [abs_of_pos (by positivity : 0 < Real.pi / 30)] at e1
    have e2 := hF.cos (f64R (Real.pi / 30))
    have e3 := Real.abs_cos_sub_cos_le (f64R (Real.pi / 30)) (Real.pi / 30)
    have e4 : 1 - Real.cos (Real.pi / 30) = 2 * s ^ 2 := by
      rw [← hsdef, ← one_sub_cos]; congr 2; ring
    have e5 : |cosF (f64R (Real.pi / 30)) - Real.cos (Real.pi / 30)| ≤ 2107 / 1000 / 2 ^ 53 := by
      have : cosF (f64R (Real.pi / 30)) - Real.cos (Real.pi / 30) =
        (cosF (f64R (Real.pi / 30)) - Real.cos (f64R (Real.pi / 30))) +
          (Real.cos (f64R (Real.pi / 30)) - Real.cos (Real.pi / 30)) := by ring
      rw [this]
      refine le_trans (abs_add_le _ _) ?_
      norm_num at e1 e2 e3 ⊢
      linarith
    have e6 := f64R_err (1 - cosF (f64R (Real.pi / 30)))
    rw [hadef] at e6
    have e5' := abs_le.1 e5
    have hs2' : s ^ 2 ≤ 28 / 10000 := by nlinarith
    have e7 : |1 - cosF (f64R (Real.pi / 30))| ≤ 1 / 100 := by
      rw [abs_le]; norm_num at e5'; constructor <;> nlinarith [e5'.1, e5'.2, sq_nonneg s]
    have e8 : a - 2 * s ^ 2 = (a - (1 - cosF (f64R (Real.pi / 30)))) - (cosF (f64R (Real.pi / 30)) - Real.cos (Real.pi / 30)) := by
      rw [← e4]; ring
    rw [e8]
    refine le_trans (abs_sub _ _) ?_
    norm_num at e6 e5 ⊢
    linarith
  have ht : |t - Real.pi / 180 * (|x|)| ≤ 22 / 2 ^ 53 := by
    have e1 := f64R_err (Real.pi / 180)
    rw [abs_of_pos (by positivity : 0 < Real.pi / 180)] at e1
    have e2 : |f64R (Real.pi / 180) * (|x'|) - Real.pi / 180 * (|x'|)| ≤ 16 / 10 / 2 ^ 53 := by
      rw [← sub_mul, abs_mul, abs_abs]
      calc _ ≤ Real.pi / 180 / 9007199254740992 * 87 := mul_le_mul e1 hx'87.le (abs_nonneg _) (by positivity)
        _ ≤ _ := by norm_num; linarith
    have e3 := f64R_err (f64R (Real.pi / 180) * |x'|)
    rw [htdef] at e3
    have e2' := abs_le.1 e2
    have e4 : |f64R (Real.pi / 180) * (|x'|)| ≤ 16 / 10 := by
      have h1 : 0 ≤ Real.pi / 180 * |x'| := by positivity
      have h2 : Real.pi / 180 * |x'| ≤ Real.pi / 180 * 87 := mul_le_mul_of_nonneg_left hx'87.le (by positivity)
      norm_num at e2'
      rw [abs_le]; constructor <;> linarith [e2'.1, e2'.2]
    have e5 : |Real.pi / 180 * (|x'|) - Real.pi / 180 * (|x|)| ≤ 18 / 2 ^ 53 := by
      rw [← mul_sub, abs_mul, abs_of_pos (by positivity : 0 < Real.pi / 180)]
      have := abs_abs_sub_abs_le_abs_sub x' x
      calc Real.pi / 180 * |(|x'| - |x|)| ≤ Real.pi / 180 * (1 / 2 ^ 43) :=
            mul_le_mul_of_nonneg_left (le_trans this hxx) (by positivity)
        _ ≤ _ := by norm_num; linarith
    have e6 : t - Real.pi / 180 * |x| = (t - f64R (Real.pi / 180) * |x'|) + (f64R (Real.pi / 180) * |x'| - Real.pi / 180 * |x'|) +
      (Real.pi / 180 * |x'| - Real.pi / 180 * |x|) := by ring
    rw [e6]
    refine le_trans (abs_add_three _ _ _) ?_
    have e3' := le_trans e3 (div_le_div_of_nonneg_right e4 (by norm_num))
    norm_num at e2 e3' e5 ⊢
    linarith
  have hc : |cosF t - C| ≤ 25 / 2 ^ 53 := by
    have e1 := hF.cos t
    have e2 := Real.abs_cos_sub_cos_le t (Real.pi / 180 * |x|)
    rw [hCdef] at e2
    have e3 : cosF t - C = (cosF t - Real.cos t) + (Real.cos t - C) := by ring
    rw [e3]
    refine le_trans (abs_add_le _ _) ?_
    norm_num at e1 ht ⊢
    linarith
  have hb : |b - cosF t ^ 2| ≤ cosF t ^ 2 / 2 ^ 53 := by
    have := f64R_err (cosF t ^ 2)
    rw [hbdef, abs_of_nonneg (sq_nonneg (cosF t))] at this
    norm_num at this ⊢; exact this
  have hq : |q - a / b| ≤ |a / b| / 2 ^ 53 := by
    have := f64R_err (a / b); rw [hqdef] at this; norm_num at this ⊢; exact this
  have hy : |y - (1 - q)| ≤ |1 - q| / 2 ^ 53 := by
    have := f64R_err (1 - q); rw [hydef] at this; norm_num at this ⊢; exact this
  exact acosArg_err s C a (cosF t) b q y hs1 hs2 hCgt.le hC1 ha hc hb hq hy

theorem cos_two_pi_div (k : ℕ) : Real.cos (2 * Real.pi / k) = 1 - 2 * Real.sin (Real.pi / k) ^ 2 := by
  have := one_sub_cos (Real.pi / k)
  rw [show 2 * Real.pi / k = 2 * (Real.pi / k) by ring]; linarith

theorem arg_ge (s C y y0 : ℝ) (k : ℕ) (hs1 : 523 / 10000 < s) (hC2 : 0 < C ^ 2) (hC21 : C ^ 2 ≤ 1)
    (hy0C : y0 * C ^ 2 = C ^ 2 - 2 * s ^ 2) (hy : -(9 / 2 ^ 53) ≤ (y - y0) * C ^ 2)
    (h : s + (margin k : ℝ) ≤ C * Real.sin (Real.pi / k)) : Real.cos (2 * Real.pi / k) + gap k / 2 ^ 53 ≤ y := by
  have hm0 := margin_pos k
  have hgm := gap_margin k
  have hg0 : 0 ≤ gap k / 2 ^ 53 := by unfold gap; split <;> norm_num
  rw [cos_two_pi_div]
  generalize Real.sin (Real.pi / k) = w at *
  generalize gap k / 2 ^ 53 = g at *
  generalize (margin k : ℝ) = mu at *
  have hw : (s + mu) ^ 2 ≤ C ^ 2 * w ^ 2 := by
    rw [← mul_pow]; exact pow_le_pow_left₀ (by linarith) h 2
  have h21 : g * C ^ 2 ≤ g := mul_le_of_le_one_right hg0 hC21
  have : (1 - 2 * w ^ 2 + g) * C ^ 2 ≤ y * C ^ 2 := by
    have e1 : (1 - 2 * w ^ 2 + g) * C ^ 2 = C ^ 2 - 2 * (C ^ 2 * w ^ 2) + g * C ^ 2 := by ring
    have e2 : y * C ^ 2 = (y - y0) * C ^ 2 + y0 * C ^ 2 := by ring
    have e3 : (s + mu) ^ 2 = s ^ 2 + 2 * mu * s + mu ^ 2 := by ring
    have e4 : 2 * mu * s ≥ 2 * mu * (523 / 10000) := mul_le_mul_of_nonneg_left hs1.le (by linarith)
    rw [e1, e2, hy0C]
    rw [e3] at hw
    linarith [sq_nonneg mu]
  exact le_of_mul_le_mul_right this hC2

theorem arg_le (s C y y0 : ℝ) (k : ℕ) (hk : 2 ≤ k) (hs1 : 523 / 10000 < s) (hC0 : 0 < C) (hC21 : C ^ 2 ≤ 1)
    (hy0C : y0 * C ^ 2 = C ^ 2 - 2 * s ^ 2) (hy : (y - y0) * C ^ 2 ≤ 9 / 2 ^ 53)
    (h : C * Real.sin (Real.pi / k) ≤ s - (margin k : ℝ)) : y ≤ Real.cos (2 * Real.pi / k) - gap k / 2 ^ 53 := by
  have hC2 : 0 < C ^ 2 := by positivity
  have hm0 := margin_pos k
  have hgm := gap_margin k
  have hg0 : 0 ≤ gap k / 2 ^ 53 := by unfold gap; split <;> norm_num
  rw [cos_two_pi_div]
  have hpos := sin_pi_div_pos k hk
  generalize Real.sin (Real.pi / k) = w at *
  generalize gap k / 2 ^ 53 = g at *
  generalize (margin k : ℝ) = mu at *
  have hw : C ^ 2 * w ^ 2 ≤ (s - mu) ^ 2 := by
    rw [← mul_pow]; exact pow_le_pow_left₀ (mul_nonneg hC0.le hpos.le) h 2
  have h21 : g * C ^ 2 ≤ g := mul_le_of_le_one_right hg0 hC21
  have : y * C ^ 2 ≤ (1 - 2 * w ^ 2 - g) * C ^ 2 := by
    have e1 : (1 - 2 * w ^ 2 - g) * C ^ 2 = C ^ 2 - 2 * (C ^ 2 * w ^ 2) - g * C ^ 2 := by ring
    have e2 : y * C ^ 2 = (y - y0) * C ^ 2 + y0 * C ^ 2 := by ring
    have e3 : (s - mu) ^ 2 = s ^ 2 - 2 * mu * s + mu ^ 2 := by ring
    have e4 : 2 * mu * s ≥ 2 * mu * (523 / 10000) := mul_le_mul_of_nonneg_left hs1.le (by linarith)
    rw [e1, e2, hy0C]
    rw [e3] at hw
    linarith
  exact le_of_mul_le_mul_right this hC2

/-- The numerical core: the float computation at a point with margins. -/
theorem nlF_floor (cosF acosF : ℝ → ℝ) (hF : Accurate cosF acosF) (x x' : ℝ) (hx0 : x ≠ 0) (hx : |x| < 87) (hx'0 : x' ≠ 0)
    (hx'87 : |x'| < 87) (hxx : |x' - x| ≤ 1 / 2 ^ 43)
    (hm : ∀ k : ℕ, 2 ≤ k → k ≤ 60 →
      Real.sin (Real.pi / 60) + (margin k : ℝ) ≤ Real.cos (Real.pi / 180 * |x|) * Real.sin (Real.pi / k) ∨
      Real.cos (Real.pi / 180 * |x|) * Real.sin (Real.pi / k) ≤ Real.sin (Real.pi / 60) - (margin k : ℝ)) :
    getNumberOfLongitudeF f64R cosF acosF x' = getNumberOfLongitude x := by
  have hp3 := Real.pi_gt_three
  have hp4 := Real.pi_lt_d2
  obtain ⟨hs1, hs2⟩ := sin60_bounds
  have hCgt := cos_gt x hx
  rw [nl_middle x hx0 hx]
  have hfloor := nl_floor x hx
  rw [← cos_abs_lat] at hCgt
  simp only [← cos_abs_lat x] at hfloor
  obtain ⟨hA1, hA2⟩ := nl_domain x hx
  have hAeq := acosArg_eq x
  rw [← cos_abs_lat x] at hAeq
  generalize hCdef : Real.cos (Real.pi / 180 * |x|) = C at *
  generalize hsdef : Real.sin (Real.pi / 60) = s at *
  have hC1 : C ≤ 1 := by rw [← hCdef]; exact Real.cos_le_one _
  have hC0 : 0 < C := by linarith
  have hC2 : 0 < C ^ 2 := by positivity
  have hC21 : C ^ 2 ≤ 1 := by nlinarith
  -- the errors of the steps
  unfold getNumberOfLongitudeF
  rw [if_neg hx'0, if_neg hx'87.ne, if_neg (by linarith : ¬ |x'| > 87)]
  generalize hadef : f64R (1 - cosF (f64R (Real.pi / (2 * nz)))) = a
  generalize htdef : f64R (f64R (Real.pi / 180) * |x'|) = t
  generalize hbdef : f64R (cosF t ^ 2) = b
  generalize hqdef : f64R (a / b) = q
  generalize hydef : f64R (1 - q) = y
  generalize hPdef : f64R (2 * Real.pi) = P
  generalize hrdef : f64R (P / acosF y) = r
  simp only [hadef, htdef, hbdef, hqdef, hydef, hPdef, hrdef]
  have hP : |P - 2 * Real.pi| ≤ 2 * Real.pi / 2 ^ 53 := by
    have := f64R_err (2 * Real.pi)
    rw [hPdef, abs_of_pos (by positivity : 0 < 2 * Real.pi)] at this
    norm_num at this ⊢; exact this
  have hr : |r - P / acosF y| ≤ |P / acosF y| / 2 ^ 53 := by
    have := f64R_err (P / acosF y); rw [hrdef] at this; norm_num at this ⊢; exact this
  have hyerr := nlF_arg cosF acosF hF x x' s C a t b q y hx'87 hxx hsdef hCdef hCgt hadef htdef hbdef hqdef hydef
  generalize hy0 : 1 - 2 * s ^ 2 / C ^ 2 = y0 at hyerr
  have hy0C : y0 * C ^ 2 = C ^ 2 - 2 * s ^ 2 := by rw [← hy0]; field_simp
  have hyerr' : -(9 / 2 ^ 53) ≤ (y - y0) * C ^ 2 ∧ (y - y0) * C ^ 2 ≤ 9 / 2 ^ 53 := by
    have e : |(y - y0) * C ^ 2| = |y - y0| * C ^ 2 := by rw [abs_mul, abs_of_pos hC2]
    rw [← e] at hyerr
    exact abs_le.1 hyerr
  -- comparison with the limit of `k` zones
  have hup (k : ℕ) (_ : 2 ≤ k) (h : s + (margin k : ℝ) ≤ C * Real.sin (Real.pi / k)) :
      Real.cos (2 * Real.pi / k) + gap k / 2 ^ 53 ≤ y :=
    arg_ge s C y y0 k hs1 hC2 hC21 hy0C hyerr'.1 h
  have hdown (k : ℕ) (hk : 2 ≤ k) (h : C * Real.sin (Real.pi / k) ≤ s - (margin k : ℝ)) :
      y ≤ Real.cos (2 * Real.pi / k) - gap k / 2 ^ 53 :=
    arg_le s C y y0 k hk hs1 hC0 hC21 hy0C hyerr'.2 h
  have hang (k : ℕ) (hk : 2 ≤ k) : 0 ≤ 2 * Real.pi / k ∧ 2 * Real.pi / k ≤ Real.pi := by
    have hk' : (2 : ℝ) ≤ k := by exact_mod_cast hk
    exact ⟨by positivity, by rw [div_le_iff₀ (by linarith)]; nlinarith⟩
  have h60 : C * Real.sin (Real.pi / (60 : ℕ)) ≤ s - (margin 60 : ℝ) := by
    rcases hm 60 (by norm_num) le_rfl with h | h
    · exfalso
      have : Real.sin (Real.pi / ((60 : ℕ) : ℝ)) = s := by rw [← hsdef]; norm_num
      rw [this] at h
      nlinarith [margin_pos 60]
    · exact h
  have hy1 : y ≤ 1 := by
    have := hdown 60 (by norm_num) h60
    have h1 := Real.cos_le_one (2 * Real.pi / (60 : ℕ))
    have hg : 0 ≤ gap 60 / 2 ^ 53 := by unfold gap; norm_num
    linarith
  have hym1 : -1 ≤ y := by
    rcases hm 2 le_rfl (by norm_num) with h | h
    · have := hup 2 le_rfl h
      have h1 := Real.neg_one_le_cos (2 * Real.pi / (2 : ℕ))
      have hg : 0 ≤ gap 2 / 2 ^ 53 := by unfold gap; norm_num
      norm_num at this h1 hg
      linarith
    · exfalso
      have : Real.sin (Real.pi / ((2 : ℕ) : ℝ)) = 1 := by
        rw [show ((2 : ℕ) : ℝ) = 2 by norm_num]; exact Real.sin_pi_div_two
      rw [this] at h
      linarith [margin_pos 2]
  obtain ⟨z, hz0, hz1, hzy, hac⟩ := hF.acos y hym1 hy1
  have hac' := abs_le.1 hac
  have hzy' := abs_le.1 hzy
  have hdownz (k : ℕ) (hk : 2 ≤ k) (h : C * Real.sin (Real.pi / k) ≤ s - (margin k : ℝ)) :
      z ≤ Real.cos (2 * Real.pi / k) - (room k + 16) / 2 ^ 53 := by
    have h1 := hdown k hk h
    have h2 := gap_room k
    norm_num at hzy' h1 ⊢
    linarith [hzy'.2]
  have hupz (k : ℕ) (hk : 2 ≤ k) (h : s + (margin k : ℝ) ≤ C * Real.sin (Real.pi / k)) :
      Real.cos (2 * Real.pi / k) + (room k + 16) / 2 ^ 53 ≤ z := by
    have h1 := hup k hk h
    have h2 := gap_room k
    norm_num at hzy' h1 ⊢
    linarith [hzy'.1]
  have hroom (k : ℕ) : 0 ≤ room k := by unfold room; split <;> norm_num
  -- the computed quotient against `k`
  have hlt (k : ℕ) (hk : 2 ≤ k) (h : C * Real.sin (Real.pi / k) ≤ s - (margin k : ℝ)) : r < k := by
    have h1 := hdownz k hk h
    have h0 := hroom k
    obtain ⟨a0, a1⟩ := hang k hk
    have h2 := arccos_gap z (Real.cos (2 * Real.pi / k)) hz0 (by norm_num at h1; linarith) (Real.cos_le_one _)
    rw [Real.arccos_cos a0 a1] at h2
    refine quotient_lt k hk (acosF y) P r ?_ hP hr
    norm_num at h1 hac' ⊢
    linarith [hac'.1]
  have hge (k : ℕ) (hk : 2 ≤ k) (h : s + (margin k : ℝ) ≤ C * Real.sin (Real.pi / k)) : (k : ℝ) ≤ r := by
    have h1 := hupz k hk h
    have h0 := hroom k
    obtain ⟨a0, a1⟩ := hang k hk
    have h2 := arccos_gap (Real.cos (2 * Real.pi / k)) z (Real.neg_one_le_cos _) (by norm_num at h1; linarith) hz1
    rw [Real.arccos_cos a0 a1] at h2
    have hpos : 0 < acosF y := by
      have h3 := hdownz 60 (by norm_num) h60
      have h00 := hroom 60
      obtain ⟨b0, b1⟩ := hang 60 (by norm_num)
      have h4 := arccos_gap z (Real.cos (2 * Real.pi / (60 : ℕ))) hz0 (by norm_num at h3 ⊢; linarith) (Real.cos_le_one _)
      rw [Real.arccos_cos b0 b1] at h4
      norm_num at h3 h4 hac'
      linarith [hac'.1]
    refine quotient_ge k hk (acosF y) P r hpos ?_ hP hr
    norm_num at h1 hac' ⊢
    linarith [hac'.2]
  -- conclusion
  generalize hn : ⌊2 * Real.pi / Real.arccos (acosArg x)⌋ = n at *
  have hn2 : (2 : ℤ) ≤ n := by
    refine (hfloor 2 le_rfl).2 ?_
    rw [show Real.pi / ((2 : ℕ) : ℝ) = Real.pi / 2 by norm_num, Real.sin_pi_div_two, mul_one]
    exact hCgt.le
  have hn60 : n < 60 := by
    by_contra hc'
    have := (hfloor 60 (by norm_num)).1 (by push_cast; omega)
    linarith [margin_pos 60]
  obtain ⟨N, rfl⟩ : ∃ N : ℕ, n = N := ⟨n.toNat, by omega⟩
  have hN2 : 2 ≤ N := by exact_mod_cast hn2
  have hN60 : N < 60 := by exact_mod_cast hn60
  have hfin : ⌊r⌋ = (N : ℤ) := by
    rw [Int.floor_eq_iff]
    constructor
    · have h1 := (hfloor N hN2).1 le_rfl
      rcases hm N hN2 (by omega) with h | h
      · exact_mod_cast hge N hN2 h
      · linarith [margin_pos N]
    · have h1 : ¬ ((N + 1 : ℕ) : ℤ) ≤ (N : ℤ) := by push_cast; omega
      rcases hm (N + 1) (by omega) (by omega) with h | h
      · exfalso
        refine h1 ((hfloor (N + 1) (by omega)).2 ?_)
        linarith [margin_pos (N + 1)]
      · have := hlt (N + 1) (by omega) h
        push_cast at this ⊢; exact this
  rw [hfin]

/-- C68. For every latitude a message can carry (save those of less than 5 metres from the equator, in surface messages), the number of
longitude zones computed in `float64` at the `float64` latitude is the exact number at the exact latitude, if the cosine and arccosine of
the library are accurate. -/
theorem nlF_agrees (cosF acosF : ℝ → ℝ) (hF : Accurate cosF acosF) : NLAgrees (getNumberOfLongitudeF f64R cosF acosF) := by
  intro i G x' hi hG hxx hex
  obtain ⟨hd0, hd1⟩ := den_cast
  have habs := gridLatitude_abs i hi G
  have hang := gridLatitude_angle i hi G
  have hz (h : x' = gridLatitude i G) (hs : G = 0 ∨ 87 ≤ |gridLatitude i G|) :
      getNumberOfLongitudeF f64R cosF acosF x' = getNumberOfLongitude (gridLatitude i G) := by
    rw [h]
    unfold getNumberOfLongitudeF getNumberOfLongitude
    rcases hs with hs | hs
    · have : gridLatitude i G = 0 := by rw [hs]; simp [gridLatitude]
      rw [if_pos this, if_pos this]
    · have : gridLatitude i G ≠ 0 := by intro h0; rw [h0, abs_zero] at hs; linarith
      rw [if_neg this, if_neg this]
      rcases eq_or_lt_of_le hs with hs | hs
      · rw [if_pos hs.symm, if_pos hs.symm]
      · rw [if_neg hs.ne', if_neg hs.ne', if_pos hs, if_pos hs]
  rcases hG with hG | hG
  · exact hz (hex (Or.inr hG)) (Or.inl hG)
  have hG4 : 4 ≤ G.natAbs := by rw [Int.abs_eq_natAbs] at hG; omega
  have hG4' : (4 : ℝ) ≤ G.natAbs := by exact_mod_cast hG4
  have hgpos : 1 / 25000 ≤ |gridLatitude i G| := by
    rw [habs]
    rcases (by omega : i = 0 ∨ i = 1) with rfl | rfl
    · rw [hd0, le_div_iff₀ (by norm_num)]; linarith
    · rw [hd1, le_div_iff₀ (by norm_num)]; linarith
  have hab := abs_abs_sub_abs_le_abs_sub x' (gridLatitude i G)
  have hab' := abs_le.1 (le_trans hab hxx)
  by_cases h87 : G.natAbs ≤ last87 i
  · have h87' : |gridLatitude i G| ≤ 87 - 1 / 10000000 := by
      rw [habs]
      rcases (by omega : i = 0 ∨ i = 1) with rfl | rfl
      · have : (G.natAbs : ℝ) ≤ 7602175 := by
          have : G.natAbs ≤ 7602175 := by simpa [last87] using h87
          exact_mod_cast this
        rw [hd0, div_le_iff₀ (by norm_num)]; linarith
      · have : (G.natAbs : ℝ) ≤ 7475473 := by
          have : G.natAbs ≤ 7475473 := by simpa [last87] using h87
          exact_mod_cast this
        rw [hd1, div_le_iff₀ (by norm_num)]; linarith
    have hx'0 : x' ≠ 0 := by
      intro h0; rw [h0, abs_zero] at hab'; norm_num at hab' hgpos; linarith [hab'.1]
    have hg0 : gridLatitude i G ≠ 0 := by
      intro h0; rw [h0, abs_zero] at hgpos; norm_num at hgpos
    refine nlF_floor cosF acosF hF _ x' hg0 (by linarith) hx'0 ?_ hxx ?_
    · norm_num at hab' h87' ⊢; linarith [hab'.2]
    · intro k hk hk'
      rw [hang]
      exact nl_margin i hi G.natAbs hG4 h87 k hk hk'
  · push Not at h87
    rcases (by omega : i = 0 ∨ i = 1) with rfl | rfl
    · have : (7602176 : ℝ) ≤ G.natAbs := by
        have : 7602176 ≤ G.natAbs := by simp [last87] at h87; omega
        exact_mod_cast this
      refine hz (hex (Or.inl rfl)) (Or.inr ?_)
      rw [habs, hd0, le_div_iff₀ (by norm_num)]; linarith
    · have : (7475474 : ℝ) ≤ G.natAbs := by
        have : 7475474 ≤ G.natAbs := by simp [last87] at h87; omega
        exact_mod_cast this
      have hgt : 87 + 1 / 100000 ≤ |gridLatitude 1 G| := by rw [habs, hd1, le_div_iff₀ (by norm_num)]; linarith
      have hx' : 87 < |x'| := by norm_num at hab' hgt ⊢; linarith [hab'.1]
      have n0 : gridLatitude 1 G ≠ 0 := by intro h0; rw [h0, abs_zero] at hgt; norm_num at hgt
      have n0' : x' ≠ 0 := by intro h0; rw [h0, abs_zero] at hx'; norm_num at hx'
      have hg87 : 87 < |gridLatitude 1 G| := by norm_num at hgt ⊢; linarith
      unfold getNumberOfLongitudeF getNumberOfLongitude
      rw [if_neg n0, if_neg n0', if_neg hg87.ne', if_neg hx'.ne', if_pos hg87, if_pos hx']

end Geo
end Modes
