import Verif.Model.GeoFloat
import Verif.Lemmas.GeoErr
/-!
# C83: the ground distance computed in floating point

`groundDistanceF f64R` is `ComputeGroundDistance` with every operation rounded to a double. The standard library functions it calls are not
modelled: what is assumed of them is `AccurateTrig`, an accuracy of two units in the last place or so. The specification is the same
great-circle distance as C59.
-/
noncomputable section
namespace Modes
namespace Geo
open Spec

/-- What the theorems assume of `math.Sin`, `math.Cos` and `math.Atan2`: they are within `2⁻⁵¹` of the real function on the arguments met here
(relatively, for the sine of at most a right angle and for the arc tangent), and the cosine of at most a right angle is not negative. -/
structure AccurateTrig (sinF cosF : ℝ → ℝ) (atan2F : ℝ → ℝ → ℝ) : Prop where
  sin_abs : ∀ x, |x| ≤ 4 → |sinF x - Real.sin x| ≤ 1 / 2 ^ 51
  sin_rel : ∀ x, |x| ≤ Real.pi / 2 → |sinF x - Real.sin x| ≤ 1 / 2 ^ 51 * |Real.sin x|
  cos_abs : ∀ x, |x| ≤ Real.pi / 2 → |cosF x - Real.cos x| ≤ 1 / 2 ^ 51
  cos_nonneg : ∀ x, |x| ≤ Real.pi / 2 → 0 ≤ cosF x
  atan2_rel : ∀ y x, 0 ≤ y → 0 ≤ x → |atan2F y x - atan2 y x| ≤ 1 / 2 ^ 51 * atan2 y x

/-- The exact functions are accurate. -/
theorem accurateTrig_exact : AccurateTrig Real.sin Real.cos atan2 where
  sin_abs x _ := by rw [sub_self, abs_zero]; norm_num
  sin_rel x _ := by rw [sub_self, abs_zero]; positivity
  cos_abs x _ := by rw [sub_self, abs_zero]; norm_num
  cos_nonneg x h := by rw [abs_le] at h; exact Real.cos_nonneg_of_neg_pi_div_two_le_of_le (by linarith [h.1]) h.2
  atan2_rel y x hy hx := by rw [sub_self, abs_zero]; exact mul_nonneg (by norm_num) (atan2_range y x hy hx).1

/-- The functions rounded to the nearest double are accurate. -/
theorem accurateTrig_rounded :
    AccurateTrig (fun x => f64R (Real.sin x)) (fun x => f64R (Real.cos x)) (fun y x => f64R (atan2 y x)) where
  sin_abs x _ := by
    refine (f64R_err _).trans ?_
    have := Real.abs_sin_le_one x
    linarith
  sin_rel x _ := by
    refine (f64R_err _).trans ?_
    have := abs_nonneg (Real.sin x)
    linarith
  cos_abs x _ := by
    refine (f64R_err _).trans ?_
    have := Real.abs_cos_le_one x
    linarith
  cos_nonneg x h := by
    rw [abs_le] at h; exact f64R_nonneg (Real.cos_nonneg_of_neg_pi_div_two_le_of_le (by linarith [h.1]) h.2)
  atan2_rel y x hy hx := by
    refine (f64R_err _).trans ?_
    have := (atan2_range y x hy hx).1
    rw [abs_of_nonneg this]
    linarith

/-- With exact arithmetic, the computation is the one of C59. -/
theorem groundDistanceF_exact (lat1 lon1 lat2 lon2 : ℝ) :
    groundDistanceF id Real.sin Real.cos atan2 lat1 lon1 lat2 lon2 = some (greatCircle lat1 lon1 lat2 lon2) := by
  obtain ⟨h0, h1⟩ := hav_range lat1 lon1 lat2 lon2
  rw [← groundDistance_spec]
  have e : groundDistanceF id Real.sin Real.cos atan2 lat1 lon1 lat2 lon2 =
      if hav lat1 lon1 lat2 lon2 < 0 ∨ 1 - hav lat1 lon1 lat2 lon2 < 0 then none
      else some (computeGroundDistance lat1 lon1 lat2 lon2) := rfl
  rw [e, if_neg (by push Not; constructor <;> linarith)]

/-! ## The quantity under the square roots -/

/-- The rounded haversine. -/
def havF (sinF cosF : ℝ → ℝ) (lat1 lon1 lat2 lon2 : ℝ) : ℝ :=
  f64R (f64R (sinF (halfF lat1 lat2) ^ 2) + f64R (f64R (cosF (convF lat1) * cosF (convF lat2)) * f64R (sinF (halfF lon1 lon2) ^ 2)))

theorem groundDistanceF_eq (sinF cosF : ℝ → ℝ) (atan2F : ℝ → ℝ → ℝ) (lat1 lon1 lat2 lon2 : ℝ) :
    groundDistanceF f64R sinF cosF atan2F lat1 lon1 lat2 lon2 =
      if havF sinF cosF lat1 lon1 lat2 lon2 < 0 ∨ f64R (1 - havF sinF cosF lat1 lon1 lat2 lon2) < 0 then none
      else some (f64R (6371000 * f64R (2 * atan2F (f64R (Real.sqrt (havF sinF cosF lat1 lon1 lat2 lon2)))
        (f64R (Real.sqrt (f64R (1 - havF sinF cosF lat1 lon1 lat2 lon2))))))) := rfl

theorem havF_nonneg {sinF cosF : ℝ → ℝ} {atan2F : ℝ → ℝ → ℝ} (ht : AccurateTrig sinF cosF atan2F) (lat1 lon1 lat2 lon2 : ℝ)
    (h1 : |lat1| ≤ 90) (h2 : |lat2| ≤ 90) : 0 ≤ havF sinF cosF lat1 lon1 lat2 lon2 := by
  unfold havF
  have c1 := ht.cos_nonneg _ (convF_le h1)
  have c2 := ht.cos_nonneg _ (convF_le h2)
  refine f64R_nonneg (add_nonneg (f64R_nonneg (sq_nonneg _)) (f64R_nonneg (mul_nonneg (f64R_nonneg (mul_nonneg c1 c2)) (f64R_nonneg (sq_nonneg _)))))

/-- Absolute error of a sum, product and rounding, in units of `2⁻⁵³`. -/
def uu : ℝ := 1 / 9007199254740992

theorem f64R_abs_err {x y e b : ℝ} (h : |x - y| ≤ e) (hy : |y| ≤ b) : |f64R x - y| ≤ e + (b + e) * uu := by
  have h1 := f64R_err x
  have h2 : |x| ≤ b + e := by
    calc |x| = |(x - y) + y| := by ring_nf
      _ ≤ |x - y| + |y| := abs_add_le _ _
      _ ≤ _ := by linarith
  calc |f64R x - y| = |(f64R x - x) + (x - y)| := by ring_nf
    _ ≤ |f64R x - x| + |x - y| := abs_add_le _ _
    _ ≤ _ := by unfold uu; linarith

theorem mul_abs_err {x y z w e f : ℝ} (h1 : |x - y| ≤ e) (h2 : |z - w| ≤ f) (hy : |y| ≤ 1) (hw : |w| ≤ 1) :
    |x * z - y * w| ≤ e + f + e * f := by
  have he : 0 ≤ e := (abs_nonneg _).trans h1
  have e1 : x * z - y * w = (x - y) * w + y * (z - w) + (x - y) * (z - w) := by ring
  rw [e1]
  calc _ ≤ |(x - y) * w + y * (z - w)| + |(x - y) * (z - w)| := abs_add_le _ _
    _ ≤ |(x - y) * w| + |y * (z - w)| + |(x - y) * (z - w)| := by linarith [abs_add_le ((x - y) * w) (y * (z - w))]
    _ ≤ e * 1 + 1 * f + e * f := by
      rw [abs_mul, abs_mul, abs_mul]
      have a1 := mul_le_mul h1 hw (abs_nonneg _) he
      have a2 := mul_le_mul hy h2 (abs_nonneg _) (by norm_num)
      have a3 := mul_le_mul h1 h2 (abs_nonneg _) he
      linarith
    _ = _ := by ring

theorem abs_of_near {n : ℕ} {x y b : ℝ} (hn : n ≤ 100000000) (h : Near (kap ^ n) |x| |y|) (hxy : |x - y| = |(|x| - |y|)|) (hb : |y| ≤ b) :
    |x - y| ≤ 2.002 * n * b * uu := by
  rw [hxy]
  have := h.rel (kap_pow_ge n)
  have hk := kap_pow_le n hn
  have h0 := abs_nonneg y
  have hk1 := kap_pow_ge n
  calc _ ≤ (kap ^ n - 1) * |y| := this
    _ ≤ (1.001 * (n / 4503599627370496)) * b := mul_le_mul (by linarith) hb h0 (by positivity)
    _ = _ := by unfold uu; ring

theorem sin_lip (x y : ℝ) : |Real.sin x - Real.sin y| ≤ |x - y| := by
  have := Real.lipschitzWith_sin.dist_le_mul x y
  simpa [Real.dist_eq] using this

theorem cos_lip (x y : ℝ) : |Real.cos x - Real.cos y| ≤ |x - y| := by
  have := Real.lipschitzWith_cos.dist_le_mul x y
  simpa [Real.dist_eq] using this

theorem conv_diff (x : ℝ) : |convF x - x * Real.pi / 180| = |(|convF x| - |x * Real.pi / 180|)| := by
  have e : |x * Real.pi / 180| = |x| * Real.pi / 180 := by
    rw [abs_div, abs_mul, abs_of_pos Real.pi_pos]; norm_num
  rw [convF_abs, e]
  rcases le_total 0 x with h | h
  · rw [abs_of_nonneg h]
  · rw [abs_of_nonpos h, convF_neg, ← abs_neg]; congr 1; ring

theorem half_diff (x y : ℝ) : |halfF x y - (y - x) * Real.pi / 180 / 2| = |(|halfF x y| - |(y - x) * Real.pi / 180 / 2|)| := by
  have e : |(y - x) * Real.pi / 180 / 2| = |y - x| * Real.pi / 180 / 2 := by
    rw [abs_div, abs_div, abs_mul, abs_of_pos Real.pi_pos]; norm_num
  rw [halfF_abs, e]
  unfold halfF
  rcases le_total 0 (y - x) with h | h
  · rw [abs_of_nonneg h]
  · rw [abs_of_nonpos h, f64R_neg, convF_neg, neg_div, f64R_neg, ← abs_neg]; congr 1; ring

theorem cosF_err {sinF cosF : ℝ → ℝ} {atan2F : ℝ → ℝ → ℝ} (ht : AccurateTrig sinF cosF atan2F) (x : ℝ) (h : |x| ≤ 90) :
    |cosF (convF x) - Real.cos (x * Real.pi / 180)| ≤ 14 * uu := by
  have hpi := Real.pi_lt_d2
  have e : |x * Real.pi / 180| = |x| * Real.pi / 180 := by
    rw [abs_div, abs_mul, abs_of_pos Real.pi_pos]; norm_num
  have hn : Near (kap ^ 3) |convF x| |x * Real.pi / 180| := by
    rw [convF_abs, e]; exact convF_near (abs_nonneg x)
  have h1 := abs_of_near (b := 1.575) (by norm_num) hn (conv_diff x) (by rw [e]; nlinarith [abs_nonneg x, Real.pi_pos])
  have h2 := cos_lip (convF x) (x * Real.pi / 180)
  have h3 := ht.cos_abs _ (convF_le h)
  calc _ = |(cosF (convF x) - Real.cos (convF x)) + (Real.cos (convF x) - Real.cos (x * Real.pi / 180))| := by ring_nf
    _ ≤ _ := abs_add_le _ _
    _ ≤ 1 / 2 ^ 51 + 2.002 * (3 : ℕ) * 1.575 * uu := by linarith
    _ ≤ _ := by unfold uu; norm_num

theorem sinF_err {sinF cosF : ℝ → ℝ} {atan2F : ℝ → ℝ → ℝ} (ht : AccurateTrig sinF cosF atan2F) (x y : ℝ) (h : |y - x| ≤ 360) :
    |sinF (halfF x y) - Real.sin ((y - x) * Real.pi / 180 / 2)| ≤ 36 * uu := by
  have hpi := Real.pi_lt_d2
  have e : |(y - x) * Real.pi / 180 / 2| = |y - x| * Real.pi / 180 / 2 := by
    rw [abs_div, abs_div, abs_mul, abs_of_pos Real.pi_pos]; norm_num
  have hb : |(y - x) * Real.pi / 180 / 2| ≤ 3.15 := by rw [e]; nlinarith [abs_nonneg (y - x), Real.pi_pos]
  have h1 := abs_of_near (b := 3.15) (by norm_num) (halfF_near x y) (half_diff x y) hb
  have h2 := sin_lip (halfF x y) ((y - x) * Real.pi / 180 / 2)
  have h4 : |halfF x y| ≤ 4 := by
    calc |halfF x y| = |(halfF x y - (y - x) * Real.pi / 180 / 2) + (y - x) * Real.pi / 180 / 2| := by ring_nf
      _ ≤ _ := abs_add_le _ _
      _ ≤ 2.002 * (5 : ℕ) * 3.15 * uu + 3.15 := by linarith
      _ ≤ _ := by unfold uu; norm_num
  have h3 := ht.sin_abs _ h4
  calc _ = |(sinF (halfF x y) - Real.sin (halfF x y)) + (Real.sin (halfF x y) - Real.sin ((y - x) * Real.pi / 180 / 2))| := by ring_nf
    _ ≤ _ := abs_add_le _ _
    _ ≤ 1 / 2 ^ 51 + 2.002 * (5 : ℕ) * 3.15 * uu := by linarith
    _ ≤ _ := by unfold uu; norm_num

theorem uu_small : 0 ≤ uu ∧ uu * uu ≤ uu / 1000000 := by unfold uu; norm_num

theorem sq_err {s t : ℝ} (h : |s - t| ≤ 36 * uu) (ht : |t| ≤ 1) : |f64R (s ^ 2) - t ^ 2| ≤ 74 * uu := by
  have h1 := mul_abs_err h h ht ht
  rw [← sq, ← sq] at h1
  have h2 := f64R_abs_err (b := 1) h1 (by rw [abs_pow]; exact pow_le_one₀ (abs_nonneg t) ht)
  refine h2.trans ?_
  have := uu_small
  unfold uu at *; norm_num

/-- The rounded haversine is close to the real one. -/
theorem havF_err {sinF cosF : ℝ → ℝ} {atan2F : ℝ → ℝ → ℝ} (ht : AccurateTrig sinF cosF atan2F) (lat1 lon1 lat2 lon2 : ℝ)
    (h1 : |lat1| ≤ 90) (h2 : |lat2| ≤ 90) (h3 : |lon1| ≤ 180) (h4 : |lon2| ≤ 180) :
    |havF sinF cosF lat1 lon1 lat2 lon2 - hav lat1 lon1 lat2 lon2| ≤ 200 * uu := by
  have hlat : |lat2 - lat1| ≤ 360 := by rw [abs_le] at *; constructor <;> linarith [h1.1, h1.2, h2.1, h2.2]
  have hlon : |lon2 - lon1| ≤ 360 := by rw [abs_le] at *; constructor <;> linarith [h3.1, h3.2, h4.1, h4.2]
  have s1 := sq_err (sinF_err ht _ _ hlat) (Real.abs_sin_le_one _)
  have s2 := sq_err (sinF_err ht _ _ hlon) (Real.abs_sin_le_one _)
  have p1 := mul_abs_err (cosF_err ht _ h1) (cosF_err ht _ h2) (Real.abs_cos_le_one _) (Real.abs_cos_le_one _)
  have hc : |Real.cos (lat1 * Real.pi / 180) * Real.cos (lat2 * Real.pi / 180)| ≤ 1 := by
    rw [abs_mul]; exact mul_le_one₀ (Real.abs_cos_le_one _) (abs_nonneg _) (Real.abs_cos_le_one _)
  have hs : ∀ x, |Real.sin x ^ 2| ≤ 1 := fun x => by rw [abs_pow]; exact pow_le_one₀ (abs_nonneg _) (Real.abs_sin_le_one _)
  have p2 := f64R_abs_err p1 hc
  have p3 := mul_abs_err p2 s2 hc (hs _)
  have hq : |Real.cos (lat1 * Real.pi / 180) * Real.cos (lat2 * Real.pi / 180) * Real.sin ((lon2 - lon1) * Real.pi / 180 / 2) ^ 2| ≤ 1 := by
    rw [abs_mul]; exact mul_le_one₀ hc (abs_nonneg _) (hs _)
  have p4 := (f64R_abs_err p3 hq).trans (show _ ≤ 108 * uu by unfold uu; norm_num)
  obtain ⟨r0, r1⟩ := hav_range lat1 lon1 lat2 lon2
  have p5 : |f64R (sinF (halfF lat1 lat2) ^ 2) + f64R (f64R (cosF (convF lat1) * cosF (convF lat2)) * f64R (sinF (halfF lon1 lon2) ^ 2)) -
      hav lat1 lon1 lat2 lon2| ≤ 74 * uu + 108 * uu := by
    unfold hav
    rw [add_sub_add_comm]
    exact (abs_add_le _ _).trans (add_le_add s1 p4)
  have p6 := f64R_abs_err p5 (abs_le.2 ⟨by linarith, r1⟩)
  refine (show |havF sinF cosF lat1 lon1 lat2 lon2 - hav lat1 lon1 lat2 lon2| ≤ _ from p6).trans ?_
  unfold uu; norm_num

/-- The distance from the haversine. -/
theorem greatCircle_hav (lat1 lon1 lat2 lon2 : ℝ) : ∃ t, 0 ≤ t ∧ t ≤ Real.pi / 2 ∧ Real.sin t ^ 2 = hav lat1 lon1 lat2 lon2 ∧
    t = atan2 (Real.sqrt (hav lat1 lon1 lat2 lon2)) (Real.sqrt (1 - hav lat1 lon1 lat2 lon2)) ∧
    greatCircle lat1 lon1 lat2 lon2 = 6371000 * (2 * t) := by
  obtain ⟨r0, r1⟩ := hav_range lat1 lon1 lat2 lon2
  have hr := atan2_range _ _ (Real.sqrt_nonneg (hav lat1 lon1 lat2 lon2)) (Real.sqrt_nonneg (1 - hav lat1 lon1 lat2 lon2))
  refine ⟨_, hr.1, hr.2, ?_, rfl, ?_⟩
  · have e1 := Real.sq_sqrt r0
    have e2 := Real.sq_sqrt (by linarith : 0 ≤ 1 - hav lat1 lon1 lat2 lon2)
    rw [sin_atan2_sq _ _ (Real.sqrt_nonneg _) (by rw [e1, e2]; norm_num), e1, e2]
    norm_num
  · rw [← groundDistance_spec]; rfl

theorem one_sub_f64R_nonneg (a : ℝ) : (f64R (1 - a) < 0 ↔ 1 < a) := by
  constructor
  · intro h
    by_contra hc
    exact absurd (f64R_nonneg (by linarith : 0 ≤ 1 - a)) (by linarith)
  · intro h
    obtain ⟨d, hd, e⟩ := f64R_rel (1 - a)
    rw [abs_le] at hd
    rw [e]
    exact mul_neg_of_neg_of_pos (by linarith) (by norm_num at hd ⊢; linarith [hd.1])

theorem sq_factor {d u : ℝ} (h : |d| ≤ u) (hu : u ≤ 1 / 1000000) : 1 - 2.1 * u ≤ (1 + d) ^ 2 ∧ (1 + d) ^ 2 ≤ 1 + 2.1 * u := by
  rw [abs_le] at h
  have h0 : d ^ 2 ≤ u ^ 2 := sq_le_sq' h.1 h.2
  have h1 : 0 ≤ u := by linarith [h.1, h.2]
  constructor <;> nlinarith [h.1, h.2]

theorem mul_factor {d u k : ℝ} (h : |d| ≤ u) (hu : u ≤ 1 / 1000000) (hk : 1 - 2.1 * u ≤ k ∧ k ≤ 1 + 2.1 * u) :
    1 - 3.2 * u ≤ (1 + d) * k ∧ (1 + d) * k ≤ 1 + 3.2 * u := by
  rw [abs_le] at h
  have h1 : 0 ≤ u := by linarith [h.1, h.2]
  have e : |d * (k - 1)| ≤ u * (2.1 * u) := by
    rw [abs_mul]; exact mul_le_mul (abs_le.2 h) (by rw [abs_le]; constructor <;> linarith [hk.1, hk.2]) (abs_nonneg _) h1
  rw [abs_le] at e
  constructor <;> nlinarith [h.1, h.2, e.1, e.2, hk.1, hk.2]

/-- The effect of the roundings that follow the haversine, on the squared sine. -/
theorem tail_err (a : ℝ) (h0 : 0 ≤ a) (h1 : a ≤ 1) :
    |Real.sin (atan2 (f64R (Real.sqrt a)) (f64R (Real.sqrt (f64R (1 - a))))) ^ 2 - a| ≤ 3 * uu := by
  obtain ⟨d1, hd1, e1⟩ := f64R_rel (1 - a)
  obtain ⟨d2, hd2, e2⟩ := f64R_rel (Real.sqrt a)
  obtain ⟨d3, hd3, e3⟩ := f64R_rel (Real.sqrt (f64R (1 - a)))
  have hb : 0 ≤ f64R (1 - a) := f64R_nonneg (by linarith)
  have g2 : f64R (Real.sqrt a) ^ 2 = a * (1 + d2) ^ 2 := by rw [e2, mul_pow, Real.sq_sqrt h0]
  have g3 : f64R (Real.sqrt (f64R (1 - a))) ^ 2 = (1 - a) * (1 + d1) * (1 + d3) ^ 2 := by
    rw [e3, mul_pow, Real.sq_sqrt hb, e1]
  have hx : 0 ≤ f64R (Real.sqrt (f64R (1 - a))) := f64R_nonneg (Real.sqrt_nonneg _)
  have hu : uu ≤ 1 / 1000000 := by unfold uu; norm_num
  obtain ⟨k2, hk2, hk2', hk2''⟩ : ∃ k, k = (1 + d2) ^ 2 ∧ 1 - 2.1 * uu ≤ k ∧ k ≤ 1 + 2.1 * uu := ⟨_, rfl, sq_factor hd2 hu⟩
  obtain ⟨k3, hk3, hk3', hk3''⟩ : ∃ k, k = (1 + d3) ^ 2 ∧ 1 - 2.1 * uu ≤ k ∧ k ≤ 1 + 2.1 * uu := ⟨_, rfl, sq_factor hd3 hu⟩
  obtain ⟨k4, hk4, hk4', hk4''⟩ : ∃ k, k = (1 + d1) * k3 ∧ 1 - 3.2 * uu ≤ k ∧ k ≤ 1 + 3.2 * uu :=
    ⟨_, rfl, mul_factor hd1 hu ⟨hk3', hk3''⟩⟩
  rw [← hk2] at g2
  rw [← hk3, mul_assoc, ← hk4] at g3
  have hu0 : 0 < uu := by unfold uu; norm_num
  have hpos : 1 - 4 * uu ≤ (1 - a) * k4 + a * k2 := by nlinarith
  rw [sin_atan2_sq _ _ hx (by rw [g2, g3]; linarith), g2, g3]
  have hD : 0 < (1 - a) * k4 + a * k2 := by linarith
  have e : a * k2 / ((1 - a) * k4 + a * k2) - a = a * (1 - a) * (k2 - k4) / ((1 - a) * k4 + a * k2) := by
    field_simp; ring
  rw [e, abs_div, abs_of_pos hD, div_le_iff₀ hD, abs_mul, abs_of_nonneg (mul_nonneg h0 (by linarith))]
  have hq : a * (1 - a) ≤ 1 / 4 := by nlinarith [sq_nonneg (a - 1 / 2)]
  have hk : |k2 - k4| ≤ 6 * uu := by rw [abs_le]; constructor <;> linarith
  calc a * (1 - a) * |k2 - k4| ≤ 1 / 4 * (6 * uu) := mul_le_mul hq hk (abs_nonneg _) (by norm_num)
    _ ≤ _ := by nlinarith

/-- C83. In double arithmetic, with accurate standard functions, `ComputeGroundDistance` never misses the great-circle distance by more than four
metres when it returns a number, and it returns a number for every two positions that are not within four metres of being antipodal; for all
latitudes and longitudes of the globe. -/
theorem groundDistanceF_close {sinF cosF : ℝ → ℝ} {atan2F : ℝ → ℝ → ℝ} (ht : AccurateTrig sinF cosF atan2F) (lat1 lon1 lat2 lon2 : ℝ)
    (h1 : |lat1| ≤ 90) (h2 : |lat2| ≤ 90) (h3 : |lon1| ≤ 180) (h4 : |lon2| ≤ 180) :
    (∀ x, groundDistanceF f64R sinF cosF atan2F lat1 lon1 lat2 lon2 = some x → |x - greatCircle lat1 lon1 lat2 lon2| ≤ 4) ∧
    (greatCircle lat1 lon1 lat2 lon2 ≤ 6371000 * Real.pi - 4 →
      ∃ x, groundDistanceF f64R sinF cosF atan2F lat1 lon1 lat2 lon2 = some x) := by
  have hpi := Real.pi_gt_d2
  have hpi2 := Real.pi_lt_d2
  have hpi4 := Real.pi_lt_d4
  have hne := havF_nonneg ht lat1 lon1 lat2 lon2 h1 h2
  have herr := havF_err ht lat1 lon1 lat2 lon2 h1 h2 h3 h4
  obtain ⟨t, t0, t1, ts, -, hg⟩ := greatCircle_hav lat1 lon1 lat2 lon2
  simp only [groundDistanceF_eq, one_sub_f64R_nonneg]
  generalize havF sinF cosF lat1 lon1 lat2 lon2 = a at *
  rw [← ts] at herr
  rw [hg]
  constructor
  · intro x hx
    by_cases hc : a < 0 ∨ 1 < a
    · rw [if_pos hc] at hx; exact absurd hx (by simp)
    rw [if_neg hc] at hx
    push Not at hc
    have ex := Option.some.inj hx
    have htail := tail_err a hc.1 hc.2
    have hr := atan2_range (f64R (Real.sqrt a)) (f64R (Real.sqrt (f64R (1 - a)))) (f64R_nonneg (Real.sqrt_nonneg _))
      (f64R_nonneg (Real.sqrt_nonneg _))
    have hA := ht.atan2_rel (f64R (Real.sqrt a)) (f64R (Real.sqrt (f64R (1 - a)))) (f64R_nonneg (Real.sqrt_nonneg _))
      (f64R_nonneg (Real.sqrt_nonneg _))
    generalize atan2F (f64R (Real.sqrt a)) (f64R (Real.sqrt (f64R (1 - a)))) = v at *
    generalize atan2 (f64R (Real.sqrt a)) (f64R (Real.sqrt (f64R (1 - a)))) = w at *
    have hs := sin_sq_holder w t hr.1 hr.2 t0 t1
    have hd : |Real.sin w ^ 2 - Real.sin t ^ 2| ≤ 203 * uu := by
      calc _ = |(Real.sin w ^ 2 - a) + (a - Real.sin t ^ 2)| := by ring_nf
        _ ≤ _ := abs_add_le _ _
        _ ≤ _ := by linarith
    have hwt : |w - t| ≤ 2.5e-7 := by
      by_contra hcon
      push Not at hcon
      have h5 : 2 / Real.pi ≥ 0.63 := by rw [ge_iff_le, le_div_iff₀ Real.pi_pos]; linarith
      have h6 : (0.63 * 2.5e-7 : ℝ) ≤ 2 / Real.pi * |w - t| := mul_le_mul h5 hcon.le (by norm_num) (by linarith)
      have h7 : (0.63 * 2.5e-7 : ℝ) ^ 2 ≤ (2 / Real.pi * |w - t|) ^ 2 := pow_le_pow_left₀ (by norm_num) h6 2
      have h8 : (0.63 * 2.5e-7 : ℝ) ^ 2 > 203 * uu := by unfold uu; norm_num
      linarith
    have hv : |v - t| ≤ 2.6e-7 := by
      calc |v - t| = |(v - w) + (w - t)| := by ring_nf
        _ ≤ _ := abs_add_le _ _
        _ ≤ 1 / 2 ^ 51 * w + 2.5e-7 := by linarith
        _ ≤ 1 / 2 ^ 51 * 2 + 2.5e-7 := by
          have : w ≤ 2 := by linarith
          linarith
        _ ≤ _ := by norm_num
    have hv2 : |2 * v - 2 * t| ≤ 5.2e-7 := by
      rw [← mul_sub, abs_mul]; norm_num; linarith
    have hm := f64R_abs_err hv2 (b := 4) (by rw [abs_of_nonneg] <;> linarith)
    have hm' : |f64R (2 * v) - 2 * t| ≤ 5.3e-7 := hm.trans (by unfold uu; norm_num)
    have hm2 : |6371000 * f64R (2 * v) - 6371000 * (2 * t)| ≤ 3.4 := by
      rw [← mul_sub, abs_mul]; norm_num; linarith
    have hm3 := f64R_abs_err hm2 (b := 30000000) (by rw [abs_of_nonneg] <;> linarith)
    rw [← ex]
    exact hm3.trans (by unfold uu; norm_num)
  · intro h
    refine ⟨_, if_neg ?_⟩
    push Not
    refine ⟨hne, ?_⟩
    have hd : 2 / 6371000 ≤ Real.pi / 2 - t := by linarith
    have hj := Real.mul_le_sin (x := Real.pi / 2 - t) (by linarith) (by linarith)
    rw [Real.sin_pi_div_two_sub] at hj
    have h5 : 2 / Real.pi ≥ 0.63 := by rw [ge_iff_le, le_div_iff₀ Real.pi_pos]; linarith
    have h6 : (0.63 * (2 / 6371000) : ℝ) ≤ Real.cos t := le_trans (mul_le_mul h5 hd (by norm_num) (by linarith)) hj
    have h7 : (0.63 * (2 / 6371000) : ℝ) ^ 2 ≤ Real.cos t ^ 2 := pow_le_pow_left₀ (by norm_num) h6 2
    have h8 := Real.sin_sq_add_cos_sq t
    rw [abs_le] at herr
    have h9 : (0.63 * (2 / 6371000) : ℝ) ^ 2 > 200 * uu := by unfold uu; norm_num
    linarith [herr.2]

theorem sinF_near {sinF cosF : ℝ → ℝ} {atan2F : ℝ → ℝ → ℝ} (ht : AccurateTrig sinF cosF atan2F) (x y : ℝ) (h : |y - x| ≤ 180) :
    Near (kap ^ 17) (f64R (sinF (halfF x y) ^ 2)) (Real.sin ((y - x) * Real.pi / 180 / 2) ^ 2) := by
  have hpi := Real.pi_pos
  have e : |(y - x) * Real.pi / 180 / 2| = |y - x| * Real.pi / 180 / 2 := by
    rw [abs_div, abs_div, abs_mul, abs_of_pos Real.pi_pos]; norm_num
  have hx := halfF_le x y h
  have hy : |(y - x) * Real.pi / 180 / 2| ≤ Real.pi / 2 := by rw [e]; nlinarith
  have hs : ∀ z : ℝ, |z| ≤ Real.pi / 2 → Real.sin |z| = |Real.sin z| := fun z hz =>
    (Real.abs_sin_eq_sin_abs_of_abs_le_pi (by linarith)).symm
  have h1 := near_sin (halfF_near x y) hx hy
  rw [hs _ hx, hs _ hy] at h1
  have h2 : Near (kap ^ 3) |sinF (halfF x y)| |Real.sin (halfF x y)| :=
    Near.of_rel (abs_nonneg _) (e := 1 / 2 ^ 51) (by norm_num) (by norm_num) (by norm_num)
      ((abs_abs_sub_abs_le _ _).trans (ht.sin_rel _ hx))
  have h3 := h2.ptrans h1
  have h4 := (h3.pmul h3).pfl
  rw [abs_mul_abs_self, abs_mul_abs_self, ← sq, ← sq] at h4
  exact h4

theorem cos_ge {x : ℝ} (h : |x| ≤ 89) : 1 / 90 ≤ Real.cos (x * Real.pi / 180) := by
  have hpi := Real.pi_pos
  rw [← Real.cos_abs, abs_div, abs_mul, abs_of_pos hpi, ← Real.sin_pi_div_two_sub]
  have h180 : |(180 : ℝ)| = 180 := by norm_num
  rw [h180]
  have h0 := abs_nonneg x
  have := Real.mul_le_sin (x := Real.pi / 2 - |x| * Real.pi / 180) (by nlinarith) (by nlinarith)
  refine le_trans ?_ this
  have e : 2 / Real.pi * (Real.pi / 2 - |x| * Real.pi / 180) = 1 - |x| / 90 := by field_simp; ring
  rw [e]; linarith

theorem cosF_near {sinF cosF : ℝ → ℝ} {atan2F : ℝ → ℝ → ℝ} (ht : AccurateTrig sinF cosF atan2F) (x : ℝ) (h : |x| ≤ 89) :
    Near (kap ^ 840) (cosF (convF x)) (Real.cos (x * Real.pi / 180)) := by
  have h1 := cosF_err ht x (by linarith)
  have h2 := cos_ge h
  refine Near.of_rel (by linarith) (e := 1260 * uu) (by unfold uu; norm_num) (by unfold uu; norm_num) (by unfold uu; norm_num) (h1.trans ?_)
  have : 0 < uu := by unfold uu; norm_num
  nlinarith

theorem havF_near {sinF cosF : ℝ → ℝ} {atan2F : ℝ → ℝ → ℝ} (ht : AccurateTrig sinF cosF atan2F) (lat1 lon1 lat2 lon2 : ℝ)
    (h1 : |lat1| ≤ 89) (h2 : |lat2| ≤ 89) (h3 : |lon2 - lon1| ≤ 180) :
    Near (kap ^ 1700) (havF sinF cosF lat1 lon1 lat2 lon2) (hav lat1 lon1 lat2 lon2) := by
  have hlat : |lat2 - lat1| ≤ 180 := by rw [abs_le] at *; constructor <;> linarith [h1.1, h1.2, h2.1, h2.2]
  have p := ((cosF_near ht lat1 h1).pmul (cosF_near ht lat2 h2)).pfl
  have q := (p.pmul (sinF_near ht lon1 lon2 h3)).pfl
  exact (((sinF_near ht lat1 lat2 hlat).pmono (by norm_num)).add q).pfl

/-- C83, the relative accuracy. Up to 89 degrees of latitude, across at most 180 degrees of longitude and up to 19000 km, the result is within
one part in ten billion of the great-circle distance. In particular, it is exactly zero from a position to itself. -/
theorem groundDistanceF_accurate {sinF cosF : ℝ → ℝ} {atan2F : ℝ → ℝ → ℝ} (ht : AccurateTrig sinF cosF atan2F) (lat1 lon1 lat2 lon2 : ℝ)
    (h1 : |lat1| ≤ 89) (h2 : |lat2| ≤ 89) (h3 : |lon2 - lon1| ≤ 180) (h4 : greatCircle lat1 lon1 lat2 lon2 ≤ 19000000) :
    ∃ x, groundDistanceF f64R sinF cosF atan2F lat1 lon1 lat2 lon2 = some x ∧
      |x - greatCircle lat1 lon1 lat2 lon2| ≤ 1 / 10000000000 * greatCircle lat1 lon1 lat2 lon2 := by
  have hpi := Real.pi_gt_d4
  have hn := havF_near ht lat1 lon1 lat2 lon2 h1 h2 h3
  obtain ⟨t, t0, t1, ts, te, hg⟩ := greatCircle_hav lat1 lon1 lat2 lon2
  obtain ⟨r0, r1⟩ := hav_range lat1 lon1 lat2 lon2
  simp only [groundDistanceF_eq, one_sub_f64R_nonneg]
  generalize havF sinF cosF lat1 lon1 lat2 lon2 = a at *
  rw [hg] at h4 ⊢
  generalize hav lat1 lon1 lat2 lon2 = A at *
  have hb : 0.00256 ≤ 1 - A := by
    have hj := Real.mul_le_sin (x := Real.pi / 2 - t) (by linarith) (by linarith)
    rw [Real.sin_pi_div_two_sub] at hj
    have e : 2 / Real.pi * (Real.pi / 2 - t) = 1 - 2 * t / Real.pi := by field_simp
    have h5 : 2 * t / Real.pi ≤ 0.9494 := by rw [div_le_iff₀ Real.pi_pos]; linarith
    have h6 : (0.0506 : ℝ) ≤ Real.cos t := by rw [e] at hj; linarith
    have h7 : (0.0506 : ℝ) ^ 2 ≤ Real.cos t ^ 2 := pow_le_pow_left₀ (by norm_num) h6 2
    have h8 := Real.sin_sq_add_cos_sq t
    rw [ts] at h8
    norm_num at h7 ⊢
    linarith
  have hrel := hn.rel (kap_pow_ge _)
  have hk := kap_pow_le 1700 (by norm_num)
  have hd : |a - A| ≤ 3404 * uu := by
    refine hrel.trans ?_
    have : (kap ^ 1700 - 1) * A ≤ (1.001 * ((1700 : ℕ) / 4503599627370496)) * 1 :=
      mul_le_mul (by linarith) r1 r0 (by positivity)
    refine this.trans ?_
    unfold uu; norm_num
  have hu : 0 < uu := by unfold uu; norm_num
  have hB : Near (kap ^ 886500) (1 - a) (1 - A) := by
    refine Near.of_rel (by linarith) (e := 1329700 * uu) (by unfold uu; norm_num) (by unfold uu; norm_num) (by unfold uu; norm_num) ?_
    rw [show 1 - a - (1 - A) = -(a - A) by ring, abs_neg]
    refine hd.trans ?_
    nlinarith
  have ha1 : ¬ (a < 0 ∨ 1 < a) := by
    push Not
    exact ⟨hn.1, by linarith [hB.1]⟩
  rw [if_neg ha1]
  refine ⟨_, rfl, ?_⟩
  have hB2 : Near (kap ^ (2 * 443251)) (f64R (1 - a)) (1 - A) := hB.pfl.pmono (by norm_num)
  have hB3 : Near (kap ^ 443252) (f64R (Real.sqrt (f64R (1 - a)))) (Real.sqrt (1 - A)) := hB2.psqrt.pfl
  have hA2 : Near (kap ^ (2 * 850)) a A := hn
  have hA3 : Near (kap ^ 851) (f64R (Real.sqrt a)) (Real.sqrt A) := hA2.psqrt.pfl
  have hp : 0 < Real.sqrt (1 - A) := Real.sqrt_pos.2 (by linarith)
  have hq : 0 < f64R (Real.sqrt (f64R (1 - a))) := by
    by_contra hc
    have := hB3.2.2.2
    have h0 : f64R (Real.sqrt (f64R (1 - a))) = 0 := le_antisymm (by linarith) hB3.1
    rw [h0, mul_zero] at this
    linarith
  have hT := near_arctan (hA3.pmul (hB3.inv hq hp))
  rw [← div_eq_mul_inv, ← div_eq_mul_inv, ← atan2_pos_arctan _ _ hp, ← atan2_pos_arctan _ _ hq, ← te] at hT
  have hV : Near (kap ^ 3) (atan2F (f64R (Real.sqrt a)) (f64R (Real.sqrt (f64R (1 - a)))))
      (atan2 (f64R (Real.sqrt a)) (f64R (Real.sqrt (f64R (1 - a))))) :=
    Near.of_rel hT.1 (e := 1 / 2 ^ 51) (by norm_num) (by norm_num) (by norm_num) (ht.atan2_rel _ _ hA3.1 hB3.1)
  have hF := ((Near.refl (x := (6371000 : ℝ)) (by norm_num) 0).pmul
    (((Near.refl (x := (2 : ℝ)) (by norm_num) 0).pmul (hV.ptrans hT)).pfl)).pfl
  refine (hF.rel (kap_pow_ge _)).trans (mul_le_mul_of_nonneg_right ?_ (by linarith))
  have := kap_pow_le (0 + (0 + (3 + (851 + 443252)) + 1) + 1) (by norm_num)
  refine le_trans (sub_le_sub_right this 1) ?_
  norm_num

/-! ## Not a number -/

theorem sin_8deg : f64R (Real.sin (5030569068109113 / 2 ^ 55)) = 5014239404989977 / 2 ^ 55 := by
  have h1 := sinSum_le 3 (5030569068109113 / 2 ^ 55) (by norm_num)
  have h2 := le_sinSum 3 (5030569068109113 / 2 ^ 55) (by norm_num)
  norm_num [sinSum, Finset.sum_range_succ, Nat.factorial] at h1 h2
  rw [f64R_eval _ (-3) 5014239404989977 (by norm_num at h1 h2 ⊢; linarith) (by norm_num at h1 h2 ⊢; linarith) (by
    rw [abs_lt]; norm_num at h1 h2 ⊢; constructor <;> linarith)]
  norm_num

theorem cos_8deg : f64R (Real.cos (5030569068109113 / 2 ^ 55)) = 8919541810762874 / 2 ^ 53 := by
  have h1 := cosSum_le 3 (5030569068109113 / 2 ^ 55) (by norm_num)
  have h2 := le_cosSum 3 (5030569068109113 / 2 ^ 55) (by norm_num)
  norm_num [cosSum, Finset.sum_range_succ, Nat.factorial] at h1 h2
  rw [f64R_eval _ (-1) 8919541810762874 (by norm_num at h1 h2 ⊢; linarith) (by norm_num at h1 h2 ⊢; linarith) (by
    rw [abs_lt]; norm_num at h1 h2 ⊢; constructor <;> linarith)]
  norm_num

theorem sin_right : f64R (Real.sin (f64R Real.pi / 2)) = 1 := by
  have hl : f64R Real.pi / 2 ≤ Real.pi / 2 := by linarith [f64R_pi_lt]
  have h1 : Real.sin (f64R Real.pi / 2) = Real.cos (Real.pi / 2 - f64R Real.pi / 2) := (Real.cos_pi_div_two_sub _).symm
  have h2 := Real.one_sub_sq_div_two_le_cos (x := Real.pi / 2 - f64R Real.pi / 2)
  have h3 := Real.cos_le_one (Real.pi / 2 - f64R Real.pi / 2)
  have hd : Real.pi / 2 - f64R Real.pi / 2 ≤ 1 / 1000000000000000 := by
    rw [f64R_pi]; have := Real.pi_lt_d20; norm_num at this ⊢; linarith
  have h4 : (Real.pi / 2 - f64R Real.pi / 2) ^ 2 ≤ (1 / 1000000000000000) ^ 2 := pow_le_pow_left₀ (by linarith) hd 2
  rw [h1]
  generalize Real.cos (Real.pi / 2 - f64R Real.pi / 2) = c at *
  have h5 : 1 - 1 / 2000000000000000000000000000000 ≤ c := by norm_num at h4 ⊢; linarith
  apply le_antisymm
  · have := f64R_mono h3
    have e : f64R (1 : ℝ) = 1 := by have := f64R_int 1 (by norm_num); exact_mod_cast this
    rwa [e] at this
  · have e : f64R (1 - 1 / 2000000000000000000000000000000 : ℝ) = 1 := by
      rw [f64R_eval _ (-1) 9007199254740992 (by norm_num) (by norm_num) (by rw [abs_lt]; norm_num)]; norm_num
    rw [← e]; exact f64R_mono h5

/-- C83, refuted for some antipodal positions: the rounded haversine exceeds one, the square root of a negative number is taken, and the result is
NaN instead of half the circumference. Even standard functions rounded to the nearest double give it, from 8 degrees north on the Greenwich meridian to
8 degrees south on the opposite meridian. -/
theorem groundDistanceF_nan_refuted :
    groundDistanceF f64R (fun x => f64R (Real.sin x)) (fun x => f64R (Real.cos x)) (fun y x => f64R (atan2 y x)) 8 0 (-8) 180 = none := by
  have e8 : convF 8 = 5030569068109113 / 2 ^ 55 := by
    unfold convF; rw [f64R_pi]
    rw [f64R_eval (8 * (7074237752028440 / 2 ^ 51)) 4 7074237752028440 (by norm_num) (by norm_num) (by rw [abs_lt]; norm_num)]
    rw [f64R_eval _ (-3) 5030569068109113 (by norm_num) (by norm_num) (by rw [abs_lt]; norm_num)]
    norm_num
  have e16 : convF 16 = 5030569068109113 / 2 ^ 54 := by
    unfold convF; rw [f64R_pi]
    rw [f64R_eval (16 * (7074237752028440 / 2 ^ 51)) 5 7074237752028440 (by norm_num) (by norm_num) (by rw [abs_lt]; norm_num)]
    rw [f64R_eval _ (-2) 5030569068109113 (by norm_num) (by norm_num) (by rw [abs_lt]; norm_num)]
    norm_num
  have i16 : f64R (16 : ℝ) = 16 := by have := f64R_int 16 (by norm_num); exact_mod_cast this
  have i180 : f64R (180 : ℝ) = 180 := by have := f64R_int 180 (by norm_num); exact_mod_cast this
  have h1 : halfF 8 (-8) = -(5030569068109113 / 2 ^ 55) := by
    unfold halfF
    rw [show (-8 - 8 : ℝ) = -16 by norm_num, f64R_neg, i16, convF_neg, e16, neg_div, f64R_neg]
    rw [f64R_exact (5030569068109113 / 2 ^ 54 / 2) 5030569068109113 55 (by norm_num) (by norm_num)]
    norm_num
  have h2 : halfF 0 180 = f64R Real.pi / 2 := by
    unfold halfF
    rw [sub_zero, i180, convF_180]
    exact f64R_exact _ 7074237752028440 52 (by rw [f64R_pi]; norm_num) (by norm_num)
  have hH : havF (fun x => f64R (Real.sin x)) (fun x => f64R (Real.cos x)) 8 0 (-8) 180 = 1 + 1 / 2 ^ 52 := by
    unfold havF
    rw [h1, h2, convF_neg, e8]
    simp only [Real.sin_neg, Real.cos_neg, f64R_neg, sin_8deg, cos_8deg, sin_right]
    rw [f64R_eval ((-(5014239404989977 / 2 ^ 55)) ^ 2) (-6) 5582777975588868 (by norm_num) (by norm_num) (by rw [abs_lt]; norm_num)]
    rw [f64R_eval (8919541810762874 / 2 ^ 53 * (8919541810762874 / 2 ^ 53)) (-1) 8832737443003841 (by norm_num) (by norm_num)
      (by rw [abs_lt]; norm_num)]
    have e1 : f64R (1 ^ 2 : ℝ) = 1 := by have := f64R_int 1 (by norm_num); norm_num at this ⊢; exact this
    rw [e1, mul_one]
    rw [f64R_exact ((8832737443003841 : ℤ) * 2 ^ (-1 - 52 : ℤ) : ℝ) 8832737443003841 53 (by norm_num) (by norm_num)]
    rw [f64R_eval _ 0 4503599627370497 (by norm_num) (by norm_num) (by rw [abs_lt]; norm_num)]
    norm_num
  simp only [groundDistanceF_eq, one_sub_f64R_nonneg, hH]
  rw [if_pos]
  right; norm_num

/-- The positions of the refutation are antipodal: their distance is half the circumference. -/
theorem groundDistance_antipodal (lat lon : ℝ) : greatCircle lat lon (-lat) (lon + 180) = 6371000 * Real.pi := by
  rw [greatCircle, InnerProductGeometry.angle, spherePoint_inner, spherePoint_norm, spherePoint_norm]
  rw [show (lon + 180 - lon) * Real.pi / 180 = Real.pi by ring, Real.cos_pi, show -lat * Real.pi / 180 = -(lat * Real.pi / 180) by ring,
    Real.cos_neg, Real.sin_neg]
  have := Real.sin_sq_add_cos_sq (lat * Real.pi / 180)
  rw [show Real.cos (lat * Real.pi / 180) * Real.cos (lat * Real.pi / 180) * -1 +
    Real.sin (lat * Real.pi / 180) * -Real.sin (lat * Real.pi / 180) = -1 by linarith [sq (Real.sin (lat * Real.pi / 180)), sq (Real.cos (lat * Real.pi / 180))]]
  norm_num

/-- The hypotheses of the accuracy are met by rounded functions and a quarter of the equator, about 10000 km. -/
example : ∃ x, groundDistanceF f64R (fun x => f64R (Real.sin x)) (fun x => f64R (Real.cos x)) (fun y x => f64R (atan2 y x)) 0 0 0 90 = some x ∧
    |x - 6371000 * (Real.pi / 2)| ≤ 0.002 := by
  have hg : greatCircle 0 0 0 90 = 6371000 * (Real.pi / 2) := by
    rw [greatCircle, InnerProductGeometry.angle, spherePoint_inner, spherePoint_norm, spherePoint_norm]
    rw [show ((90 : ℝ) - 0) * Real.pi / 180 = Real.pi / 2 by ring]
    simp
  have hpi := Real.pi_lt_d2
  obtain ⟨x, hx, h⟩ := groundDistanceF_accurate accurateTrig_rounded 0 0 0 90 (by norm_num) (by norm_num) (by norm_num) (by rw [hg]; linarith)
  refine ⟨x, hx, ?_⟩
  rw [hg] at h
  refine h.trans ?_
  linarith

end Geo
end Modes
