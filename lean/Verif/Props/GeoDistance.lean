import Verif.Model.Geo
import Mathlib.Geometry.Euclidean.Angle.Unoriented.TriangleInequality
import Mathlib.Analysis.InnerProductSpace.PiL2
/-!
# C59: the ground distance

The specification is the great-circle distance: the earth radius times the angle between the two points seen from the center of
the sphere, as vectors of the three-dimensional Euclidean space.
-/
noncomputable section
namespace Spec

/-- The unit vector pointing to a latitude and longitude in degrees. -/
def spherePoint (lat lon : ℝ) : EuclideanSpace ℝ (Fin 3) :=
  !₂[Real.cos (lat * Real.pi / 180) * Real.cos (lon * Real.pi / 180),
    Real.cos (lat * Real.pi / 180) * Real.sin (lon * Real.pi / 180), Real.sin (lat * Real.pi / 180)]

/-- The great-circle distance in metres, for an earth radius of 6371 km. -/
def greatCircle (lat1 lon1 lat2 lon2 : ℝ) : ℝ :=
  6371000 * InnerProductGeometry.angle (spherePoint lat1 lon1) (spherePoint lat2 lon2)

end Spec
open Spec
namespace Modes
namespace Geo

theorem spherePoint_inner (lat1 lon1 lat2 lon2 : ℝ) :
    inner ℝ (spherePoint lat1 lon1) (spherePoint lat2 lon2) =
      Real.cos (lat1 * Real.pi / 180) * Real.cos (lat2 * Real.pi / 180) * Real.cos ((lon2 - lon1) * Real.pi / 180) +
      Real.sin (lat1 * Real.pi / 180) * Real.sin (lat2 * Real.pi / 180) := by
  rw [show (lon2 - lon1) * Real.pi / 180 = lon2 * Real.pi / 180 - lon1 * Real.pi / 180 by ring, Real.cos_sub]
  simp only [spherePoint, PiLp.inner_apply, RCLike.inner_apply, Fin.sum_univ_three, conj_trivial, Matrix.cons_val_zero,
    Matrix.cons_val_one, Matrix.cons_val]
  ring

theorem spherePoint_norm (lat lon : ℝ) : ‖spherePoint lat lon‖ = 1 := by
  have h := spherePoint_inner lat lon lat lon
  rw [sub_self, zero_mul, zero_div, Real.cos_zero, real_inner_self_eq_norm_sq] at h
  have h2 := Real.sin_sq_add_cos_sq (lat * Real.pi / 180)
  have : ‖spherePoint lat lon‖ ^ 2 = 1 := by rw [h]; nlinarith
  nlinarith [norm_nonneg (spherePoint lat lon)]

/-- The quantity under the square roots of the haversine formula. -/
def hav (lat1 lon1 lat2 lon2 : ℝ) : ℝ :=
  Real.sin ((lat2 - lat1) * Real.pi / 180 / 2) ^ 2 +
    Real.cos (lat1 * Real.pi / 180) * Real.cos (lat2 * Real.pi / 180) * Real.sin ((lon2 - lon1) * Real.pi / 180 / 2) ^ 2

theorem hav_eq (lat1 lon1 lat2 lon2 : ℝ) :
    hav lat1 lon1 lat2 lon2 = (1 - inner ℝ (spherePoint lat1 lon1) (spherePoint lat2 lon2)) / 2 := by
  rw [spherePoint_inner]
  unfold hav
  have e1 : Real.sin ((lat2 - lat1) * Real.pi / 180 / 2) ^ 2 = (1 - Real.cos ((lat2 - lat1) * Real.pi / 180)) / 2 := by
    have := Real.cos_two_mul ((lat2 - lat1) * Real.pi / 180 / 2)
    rw [show 2 * ((lat2 - lat1) * Real.pi / 180 / 2) = (lat2 - lat1) * Real.pi / 180 by ring] at this
    rw [Real.sin_sq]; linarith
  have e2 : Real.sin ((lon2 - lon1) * Real.pi / 180 / 2) ^ 2 = (1 - Real.cos ((lon2 - lon1) * Real.pi / 180)) / 2 := by
    have := Real.cos_two_mul ((lon2 - lon1) * Real.pi / 180 / 2)
    rw [show 2 * ((lon2 - lon1) * Real.pi / 180 / 2) = (lon2 - lon1) * Real.pi / 180 by ring] at this
    rw [Real.sin_sq]; linarith
  rw [e1, e2, show (lat2 - lat1) * Real.pi / 180 = lat2 * Real.pi / 180 - lat1 * Real.pi / 180 by ring, Real.cos_sub]
  ring

/-- The square roots are taken of numbers in [0,1] only, for all coordinates. -/
theorem hav_range (lat1 lon1 lat2 lon2 : ℝ) : 0 ≤ hav lat1 lon1 lat2 lon2 ∧ hav lat1 lon1 lat2 lon2 ≤ 1 := by
  have h := abs_real_inner_le_norm (spherePoint lat1 lon1) (spherePoint lat2 lon2)
  rw [spherePoint_norm, spherePoint_norm, abs_le] at h
  rw [hav_eq]
  constructor <;> linarith [h.1, h.2]

theorem atan2_sqrt (a : ℝ) (h0 : 0 ≤ a) (h1 : a ≤ 1) : 2 * atan2 (Real.sqrt a) (Real.sqrt (1 - a)) = Real.arccos (1 - 2 * a) := by
  have hs : Real.sqrt a ≤ 1 := Real.sqrt_le_one.2 h1
  have hs0 := Real.sqrt_nonneg a
  have e : atan2 (Real.sqrt a) (Real.sqrt (1 - a)) = Real.arcsin (Real.sqrt a) := by
    unfold atan2
    rw [Complex.arg_of_re_nonneg (Real.sqrt_nonneg _), Complex.norm_def]
    have : Complex.normSq ⟨Real.sqrt (1 - a), Real.sqrt a⟩ = 1 := by
      rw [Complex.normSq_mk, Real.mul_self_sqrt (by linarith), Real.mul_self_sqrt h0]; ring
    rw [this, Real.sqrt_one, div_one]
  rw [e]
  have hlo : 0 ≤ Real.arcsin (Real.sqrt a) := Real.arcsin_nonneg.2 hs0
  have hhi := Real.arcsin_le_pi_div_two (Real.sqrt a)
  rw [← Real.arccos_cos (by linarith : 0 ≤ 2 * Real.arcsin (Real.sqrt a)) (by linarith), Real.cos_two_mul, Real.cos_sq']
  rw [Real.sin_arcsin (by linarith) hs, Real.sq_sqrt h0]
  congr 1; ring

/-- C59, the value: the haversine formula computes the great-circle distance, for all coordinates. -/
theorem groundDistance_spec (lat1 lon1 lat2 lon2 : ℝ) :
    computeGroundDistance lat1 lon1 lat2 lon2 = greatCircle lat1 lon1 lat2 lon2 := by
  obtain ⟨h0, h1⟩ := hav_range lat1 lon1 lat2 lon2
  have e : computeGroundDistance lat1 lon1 lat2 lon2 =
      6371000 * (2 * atan2 (Real.sqrt (hav lat1 lon1 lat2 lon2)) (Real.sqrt (1 - hav lat1 lon1 lat2 lon2))) := rfl
  rw [e, atan2_sqrt _ h0 h1, hav_eq, greatCircle, InnerProductGeometry.angle, spherePoint_norm, spherePoint_norm]
  congr 2; ring

theorem spherePoint_periodic (lat lon : ℝ) (k : ℤ) : spherePoint lat (lon + 360 * k) = spherePoint lat lon := by
  unfold spherePoint
  have : (lon + 360 * k) * Real.pi / 180 = lon * Real.pi / 180 + k * (2 * Real.pi) := by ring
  rw [this, Real.cos_add_int_mul_two_pi, Real.sin_add_int_mul_two_pi]

/-- C59. The ground distance is non-negative, at most half the circumference, zero from a point to itself, symmetric, obeys the
triangle inequality, and does not change when turns are added to a longitude; for all coordinates. -/
theorem groundDistance_properties (lat1 lon1 lat2 lon2 : ℝ) :
    0 ≤ computeGroundDistance lat1 lon1 lat2 lon2 ∧
    computeGroundDistance lat1 lon1 lat2 lon2 ≤ 6371000 * Real.pi ∧
    computeGroundDistance lat1 lon1 lat1 lon1 = 0 ∧
    computeGroundDistance lat1 lon1 lat2 lon2 = computeGroundDistance lat2 lon2 lat1 lon1 ∧
    (∀ lat3 lon3, computeGroundDistance lat1 lon1 lat3 lon3 ≤
      computeGroundDistance lat1 lon1 lat2 lon2 + computeGroundDistance lat2 lon2 lat3 lon3) ∧
    (∀ k l : ℤ, computeGroundDistance lat1 (lon1 + 360 * k) lat2 (lon2 + 360 * l) =
      computeGroundDistance lat1 lon1 lat2 lon2) := by
  simp only [groundDistance_spec, greatCircle, spherePoint_periodic]
  refine ⟨?_, ?_, ?_, ?_, fun lat3 lon3 => ?_, fun k l => trivial⟩
  · exact mul_nonneg (by norm_num) (InnerProductGeometry.angle_nonneg _ _)
  · exact mul_le_mul_of_nonneg_left (InnerProductGeometry.angle_le_pi _ _) (by norm_num)
  · rw [InnerProductGeometry.angle_self, mul_zero]
    intro h; have := spherePoint_norm lat1 lon1; rw [h, norm_zero] at this; norm_num at this
  · rw [InnerProductGeometry.angle_comm]
  · rw [← mul_add]
    exact mul_le_mul_of_nonneg_left (InnerProductGeometry.angle_le_angle_add_angle _ _ _) (by norm_num)

/-- Distinct points of the sphere are at a positive distance. -/
theorem groundDistance_eq_zero (lat1 lon1 lat2 lon2 : ℝ) :
    computeGroundDistance lat1 lon1 lat2 lon2 = 0 ↔ spherePoint lat1 lon1 = spherePoint lat2 lon2 := by
  rw [groundDistance_spec, greatCircle, mul_eq_zero, or_iff_right (by norm_num)]
  constructor
  · intro h
    have hx := spherePoint_norm lat1 lon1
    have hy := spherePoint_norm lat2 lon2
    have hi : inner ℝ (spherePoint lat1 lon1) (spherePoint lat2 lon2) = 1 := by
      have := InnerProductGeometry.cos_angle_mul_norm_mul_norm (spherePoint lat1 lon1) (spherePoint lat2 lon2)
      rw [h, Real.cos_zero, hx, hy] at this
      linarith
    exact (inner_eq_one_iff_of_norm_eq_one hx hy).1 hi
  · intro h
    rw [h, InnerProductGeometry.angle_self]
    intro h'; have := spherePoint_norm lat2 lon2; rw [h', norm_zero] at this; norm_num at this

/-- A non-trivial value: a quarter of the circumference from the equator to the pole. -/
example : computeGroundDistance 0 0 90 0 = 6371000 * (Real.pi / 2) := by
  rw [groundDistance_spec, greatCircle, InnerProductGeometry.angle, spherePoint_inner, spherePoint_norm, spherePoint_norm]
  rw [show (90 : ℝ) * Real.pi / 180 = Real.pi / 2 by ring]
  simp

end Geo
end Modes
