import Verif.Lemmas.Near
import Verif.Lemmas.NLGrid
import Verif.Props.GeoDistance
/-!
# Errors in the computation of the ground distance
-/
noncomputable section
namespace Modes
namespace Geo
open Spec

/-- The double nearest to pi. -/
theorem f64R_pi : f64R Real.pi = 7074237752028440 / 2 ^ 51 := by
  have h1 := Real.pi_gt_d20
  have h2 := Real.pi_lt_d20
  rw [f64R_eval Real.pi 1 7074237752028440 (by norm_num; linarith) (by norm_num; linarith) (by
    rw [abs_lt]; norm_num; constructor <;> linarith)]
  norm_num

/-- Degrees to radians, as the code does it. -/
def convF (x : ℝ) : ℝ := f64R (f64R (x * f64R Real.pi) / 180)

theorem f64R_pi_nonneg : 0 ≤ f64R Real.pi := f64R_nonneg Real.pi_pos.le

theorem convF_neg (x : ℝ) : convF (-x) = -convF x := by
  unfold convF; rw [neg_mul, f64R_neg, neg_div, f64R_neg]

theorem convF_mono {x y : ℝ} (h : x ≤ y) : convF x ≤ convF y := by
  unfold convF
  exact f64R_mono (div_le_div_of_nonneg_right (f64R_mono (mul_le_mul_of_nonneg_right h f64R_pi_nonneg)) (by norm_num))

theorem convF_zero : convF 0 = 0 := by
  have := convF_neg 0; rw [neg_zero] at this; linarith

theorem convF_abs (x : ℝ) : |convF x| = convF |x| := by
  rcases le_total 0 x with h | h
  · rw [abs_of_nonneg h, abs_of_nonneg (by rw [← convF_zero]; exact convF_mono h)]
  · rw [abs_of_nonpos h, convF_neg, abs_of_nonpos (by rw [← convF_zero]; exact convF_mono h)]

theorem convF_180 : convF 180 = f64R Real.pi := by
  unfold convF
  rw [f64R_pi]
  rw [f64R_eval (180 * (7074237752028440 / 2 ^ 51)) 9 4974073419394997 (by norm_num) (by norm_num) (by
    rw [abs_lt]; norm_num)]
  rw [f64R_eval _ 1 7074237752028440 (by norm_num) (by norm_num) (by rw [abs_lt]; norm_num)]
  norm_num

theorem convF_90 : convF 90 = f64R Real.pi / 2 := by
  unfold convF
  rw [f64R_pi]
  rw [f64R_eval (90 * (7074237752028440 / 2 ^ 51)) 8 4974073419394997 (by norm_num) (by norm_num) (by
    rw [abs_lt]; norm_num)]
  rw [f64R_eval _ 0 7074237752028440 (by norm_num) (by norm_num) (by rw [abs_lt]; norm_num)]
  norm_num

theorem f64R_pi_lt : f64R Real.pi < Real.pi := by
  rw [f64R_pi]
  have h1 := Real.pi_gt_d20
  refine lt_trans ?_ h1
  norm_num

theorem convF_near {x : ℝ} (hx : 0 ≤ x) : Near (kap ^ 3) (convF x) (x * Real.pi / 180) := by
  unfold convF
  have h1 := (Near.refl hx 0).pmul (Near.fl Real.pi_pos.le)
  have h2 := h1.pfl.pmul (Near.refl (x := (1 / 180 : ℝ)) (by norm_num) 0)
  have h3 := h2.pfl
  rw [show x * Real.pi * (1 / 180) = x * Real.pi / 180 by ring] at h3
  rw [show f64R (x * f64R Real.pi) * (1 / 180) = f64R (x * f64R Real.pi) / 180 by ring] at h3
  exact h3

/-- The argument of a sine: half the difference of two angles. -/
def halfF (x y : ℝ) : ℝ := f64R (convF (f64R (y - x)) / 2)

theorem halfF_abs (x y : ℝ) : |halfF x y| = f64R (convF (f64R |y - x|) / 2) := by
  unfold halfF
  rw [f64R_abs, abs_div, convF_abs, f64R_abs]
  norm_num

theorem Near.pscale {n : ℕ} {x y : ℝ} (h : Near (kap ^ n) x y) {c : ℝ} (hc : 0 ≤ c) : Near (kap ^ n) (x * c) (y * c) := by
  have := h.pmul (Near.refl hc 0)
  rwa [add_zero] at this

theorem Near.pdiv {n : ℕ} {x y : ℝ} (h : Near (kap ^ n) x y) {c : ℝ} (hc : 0 ≤ c) : Near (kap ^ n) (x / c) (y / c) := by
  rw [div_eq_mul_inv, div_eq_mul_inv]; exact Near.pscale h (inv_nonneg.2 hc)

theorem halfF_near (x y : ℝ) : Near (kap ^ 5) |halfF x y| |(y - x) * Real.pi / 180 / 2| := by
  rw [halfF_abs]
  have h0 := abs_nonneg (y - x)
  have h1 := Near.pdiv (Near.pscale (Near.fl h0) Real.pi_pos.le) (c := 180) (by norm_num)
  have h2 := (convF_near (f64R_nonneg h0)).ptrans h1
  have h3 := (Near.pdiv h2 (c := 2) (by norm_num)).pfl
  have e : |(y - x) * Real.pi / 180 / 2| = |y - x| * Real.pi / 180 / 2 := by
    rw [abs_div, abs_div, abs_mul, abs_of_pos Real.pi_pos]; norm_num
  rw [e]
  exact h3

/-- Half of an angle of at most 180 degrees is computed as at most a right angle. -/
theorem halfF_le (x y : ℝ) (h : |y - x| ≤ 180) : |halfF x y| ≤ Real.pi / 2 := by
  rw [halfF_abs]
  have e : f64R (180 : ℝ) = 180 := by have := f64R_int 180 (by norm_num); exact_mod_cast this
  have h1 : convF (f64R |y - x|) ≤ f64R Real.pi := by
    rw [← convF_180, ← e]; rw [e]; exact convF_mono (by rw [← e]; exact f64R_mono h)
  have h2 := f64R_mono (div_le_div_of_nonneg_right h1 (by norm_num : (0 : ℝ) ≤ 2))
  have e2 : f64R (f64R Real.pi / 2) = f64R Real.pi / 2 :=
    f64R_exact _ 7074237752028440 52 (by rw [f64R_pi]; norm_num) (by norm_num)
  rw [e2] at h2
  linarith [f64R_pi_lt]

theorem convF_le {x : ℝ} (h : |x| ≤ 90) : |convF x| ≤ Real.pi / 2 := by
  rw [convF_abs]
  have := convF_mono h
  rw [convF_90] at this
  linarith [f64R_pi_lt]

/-! ## The angle from its squared sine -/

theorem sin_sq_holder (x y : ℝ) (hx0 : 0 ≤ x) (hx : x ≤ Real.pi / 2) (hy0 : 0 ≤ y) (hy : y ≤ Real.pi / 2) :
    (2 / Real.pi * |x - y|) ^ 2 ≤ |Real.sin x ^ 2 - Real.sin y ^ 2| := by
  have key : ∀ x y : ℝ, 0 ≤ y → y ≤ x → x ≤ Real.pi / 2 → (2 / Real.pi * (x - y)) ^ 2 ≤ Real.sin x ^ 2 - Real.sin y ^ 2 := by
    intro x y hy0 hyx hx
    have e : Real.sin x ^ 2 - Real.sin y ^ 2 = Real.sin (x + y) * Real.sin (x - y) := by
      rw [Real.sin_add, Real.sin_sub]
      have h1 := Real.sin_sq_add_cos_sq x
      have h2 := Real.sin_sq_add_cos_sq y
      have c1 : Real.cos x ^ 2 = 1 - Real.sin x ^ 2 := by linarith
      have c2 : Real.cos y ^ 2 = 1 - Real.sin y ^ 2 := by linarith
      have : (Real.sin x * Real.cos y + Real.cos x * Real.sin y) * (Real.sin x * Real.cos y - Real.cos x * Real.sin y) =
        Real.sin x ^ 2 * Real.cos y ^ 2 - Real.cos x ^ 2 * Real.sin y ^ 2 := by ring
      rw [this, c1, c2]; ring
    have hj := Real.mul_le_sin (by linarith : 0 ≤ x - y) (by linarith)
    have hpos : 0 ≤ 2 / Real.pi * (x - y) := mul_nonneg (by positivity) (by linarith)
    have hs : Real.sin (x - y) ≤ Real.sin (x + y) := by
      rcases le_total (x + y) (Real.pi / 2) with h | h
      · exact Real.sin_le_sin_of_le_of_le_pi_div_two (by linarith) h (by linarith)
      · rw [← Real.sin_pi_sub (x + y)]
        exact Real.sin_le_sin_of_le_of_le_pi_div_two (by linarith) (by linarith) (by linarith)
    rw [e, sq]
    exact mul_le_mul (hj.trans hs) hj hpos (by linarith)
  rcases le_total y x with h | h
  · have := key x y hy0 h hx
    rw [abs_of_nonneg (by linarith : 0 ≤ x - y)]
    exact this.trans (le_abs_self _)
  · have := key y x hx0 h hy
    rw [abs_of_nonpos (by linarith : x - y ≤ 0), neg_sub]
    exact this.trans (by rw [abs_sub_comm]; exact le_abs_self _)

theorem atan2_range (y x : ℝ) (hy : 0 ≤ y) (hx : 0 ≤ x) : 0 ≤ atan2 y x ∧ atan2 y x ≤ Real.pi / 2 := by
  unfold atan2
  rw [Complex.arg_of_re_nonneg hx]
  refine ⟨Real.arcsin_nonneg.2 (div_nonneg hy (norm_nonneg _)), Real.arcsin_le_pi_div_two _⟩

theorem sin_atan2_sq (y x : ℝ) (hx : 0 ≤ x) (h : 0 < x ^ 2 + y ^ 2) :
    Real.sin (atan2 y x) ^ 2 = y ^ 2 / (x ^ 2 + y ^ 2) := by
  unfold atan2
  have hn : ‖(⟨x, y⟩ : ℂ)‖ ≠ 0 := by
    intro h0
    have := Complex.sq_norm (⟨x, y⟩ : ℂ)
    rw [h0, Complex.normSq_mk] at this
    nlinarith
  rw [Complex.sin_arg, div_pow, Complex.sq_norm, Complex.normSq_mk]
  congr 1; ring

theorem atan2_pos_arctan (y x : ℝ) (hx : 0 < x) : atan2 y x = Real.arctan (y / x) := by
  unfold atan2
  rw [Complex.arg_of_re_nonneg hx.le, Real.arctan_eq_arcsin]
  congr 1
  have hn : ‖(⟨x, y⟩ : ℂ)‖ = x * Real.sqrt (1 + (y / x) ^ 2) := by
    rw [Complex.norm_def, Complex.normSq_mk]
    have e : x * x + y * y = x ^ 2 * (1 + (y / x) ^ 2) := by field_simp
    rw [e, Real.sqrt_mul (sq_nonneg x), Real.sqrt_sq hx.le]
  rw [hn, div_div]

end Geo
end Modes
