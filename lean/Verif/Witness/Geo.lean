import Verif.Props.GeoAirborne
import Verif.Props.GeoSurface
import Verif.Props.GeoFloatNL
import Verif.Props.GeoFloatLocal
import Verif.Props.GeoFloatSurface
import Verif.Props.GeoFloatDistance
import Verif.Props.UnitTestsGeo

/-!
# Concrete cases for the theorems about positions

Aircraft at ordinary places (45 N 10 E and nearby, moving between the two messages), for which every hypothesis is discharged.
-/

namespace Modes
namespace Geo

open Spec UnitTests

/-! ### Latitudes on the encoding grid -/

theorem nl_at (lat : ℝ) (d T n : ℕ) (h : zonesOK d T n = true) (hl : |lat| = 180 * T / d) (h90 : |lat| ≤ 90) : NL lat = n := by
  have := zones_at lat d T n h hl
  rw [nl_spec lat h90] at this
  exact_mod_cast this

theorem rLat_even45 : rLat 17 0 45 = 45 := by
  have g : grid 17 (dLat 0) 45 = 983040 := by rw [dLat0]; unfold grid; rw [Int.floor_eq_iff]; norm_num
  rw [rLat_eq 0 (by norm_num), g, dLat0]; norm_num

theorem rLat_odd45 : rLat 17 1 45 = 45 := by
  have g : grid 17 (dLat 1) 45 = 966656 := by rw [dLat1]; unfold grid; rw [Int.floor_eq_iff]; norm_num
  rw [rLat_eq 1 (by norm_num), g, dLat1]; norm_num

theorem rLat_odd : rLat 17 1 45.01 = 360 / 59 * (966871 / 131072) := by
  have g : grid 17 (dLat 1) 45.01 = 966871 := by rw [dLat1]; unfold grid; rw [Int.floor_eq_iff]; norm_num
  rw [rLat_eq 1 (by norm_num), g, dLat1]; norm_num

theorem nl_even45 : NL (rLat 17 0 45) = 42 := by
  rw [rLat_even45]
  exact nl_at _ (2 * 60 * 131072) 3932160 42 (by decide +kernel) (by norm_num) (by norm_num)

theorem nl_odd : NL (rLat 17 1 45.01) = 42 := by
  rw [rLat_odd]
  exact nl_at _ (2 * 59 * 131072) (4 * 966871) 42 (by decide +kernel) (by norm_num) (by norm_num)

/-- Just south and just north of the change from 42 to 41 zones. -/
theorem nl_even_south : NL (rLat 17 0 45.5) = 42 := by
  have g : grid 17 (dLat 0) 45.5 = 993963 := by rw [dLat0]; unfold grid; rw [Int.floor_eq_iff]; norm_num
  rw [rLat_eq 0 (by norm_num), g, dLat0]
  exact nl_at _ (2 * 60 * 131072) (4 * 993963) 42 (by decide +kernel) (by norm_num) (by norm_num)

theorem nl_odd_north : NL (rLat 17 1 45.55) = 41 := by
  have g : grid 17 (dLat 1) 45.55 = 978471 := by rw [dLat1]; unfold grid; rw [Int.floor_eq_iff]; norm_num
  rw [rLat_eq 1 (by norm_num), g, dLat1]
  exact nl_at _ (2 * 59 * 131072) (4 * 978471) 41 (by decide +kernel) (by norm_num) (by norm_num)

/-! ### C54 -/

example : getNumberOfLongitude 45 = (NL 45 : ℝ) := nl_spec 45 (by norm_num)
example : -1 < acosArg 45 ∧ acosArg 45 < 1 := nl_domain 45 (by norm_num)

/-! ### C55, C58, C68: an aircraft that moves from 45 N 10 E to 45.01 N 10.02 E between the even and the odd message -/

theorem move_lon : (NL (rLat 17 0 45) : ℝ) * (NL (rLat 17 0 45) - 1) * |(10 : ℝ) - 10.02 - 360 * ((0 : ℤ) : ℝ)| ≤ 179 := by
  rw [nl_even45]; norm_num

example := airborne_global 45 10 45.01 10.02 true (by norm_num) (by norm_num) (by norm_num) (nl_even45.trans nl_odd.symm) 0 move_lon
example := airborne_global_fixed 45 10 true (by norm_num) (by rw [rLat_even45, rLat_odd45])
example := airborne_global_bands 45.5 10 45.55 10.02 true (by norm_num) (by norm_num) (by norm_num)
  (by rw [nl_even_south, nl_odd_north]; decide)

example := airborne_global_float64 _ _ accurate_rounded 45 10 45.01 10.02 true (by norm_num) (by norm_num) (by norm_num)
  (nl_even45.trans nl_odd.symm) 0 move_lon
example := airborne_global_bands_float64 _ _ accurate_rounded 45.5 10 45.55 10.02 true (by norm_num) (by norm_num) (by norm_num)
  (by rw [nl_even_south, nl_odd_north]; decide)
example := airborneGlobal_float _ (nlF_agrees _ _ accurate_rounded) 93000 51372 74158 50194 true (by decide) (by decide) (by decide)
  (by decide)
example := nlF_agrees _ _ accurate_rounded

/-- Two messages that are accepted: the position is on the globe. -/
example : ∃ lat lon, airborneGlobal (encodeLat 17 0 45) (encodeLon 17 0 45 10) (encodeLat 17 1 45.01) (encodeLon 17 1 45.01 10.02) true =
    .ok (lat, lon) ∧ -90 ≤ lat ∧ lat < 270 ∧ -180 < lon ∧ lon ≤ 180 := by
  obtain ⟨lat, lon, h, -⟩ := airborne_global 45 10 45.01 10.02 true (by norm_num) (by norm_num) (by norm_num)
    (nl_even45.trans nl_odd.symm) 0 move_lon
  exact ⟨lat, lon, h, globe_partial _ _ _ _ _ lat lon (encode_lt _ _ _) (encode_lt _ _ _) (encode_lt _ _ _)
    (encode_lt _ _ _) h⟩

/-! ### C56: local decoding, reference 1 degree and 2 degrees away -/

theorem dLon_45 : dLon 17 0 45 = 360 / 42 := by
  unfold dLon
  rw [nl_even45]; norm_num

example := airborne_local 45 10 44 12 false (by norm_num) (by simp only [Bool.false_eq_true, if_false]; rw [dLat0]; norm_num)
  (by simp only [Bool.false_eq_true, if_false]; rw [dLon_45]; norm_num)
example := airborne_local_float64 _ _ accurate_rounded 45 10 44 12 false (by norm_num) (by norm_num)
  (by simp only [Bool.false_eq_true, if_false]; rw [dLat0]; norm_num)
  (by simp only [Bool.false_eq_true, if_false]; rw [dLon_45]; norm_num)

/-! ### C57: surface, an aircraft taxiing from 45 N 10 E to 45.001 N 10.002 E, receiver at 44 N 12 E -/

theorem nl_surface_even : NL (rLat 19 0 45) = 42 := by
  have g : grid 17 (dLat 0 / 4) 45 = 3932160 := by rw [dLat0]; unfold grid; rw [Int.floor_eq_iff]; norm_num
  rw [rLat19_eq 0 (by norm_num), g, dLat0]
  exact nl_at _ (2 * 60 * 131072) 3932160 42 (by decide +kernel) (by norm_num) (by norm_num)

theorem nl_surface_odd : NL (rLat 19 1 45.001) = 42 := by
  have g : grid 17 (dLat 1 / 4) 45.001 = 3866710 := by rw [dLat1]; unfold grid; rw [Int.floor_eq_iff]; norm_num
  rw [rLat19_eq 1 (by norm_num), g, dLat1]
  exact nl_at _ (2 * 59 * 131072) 3866710 42 (by decide +kernel) (by norm_num) (by norm_num)

theorem dLon19_45 : dLon 19 0 45 = 360 / 42 := by
  unfold dLon
  rw [nl_surface_even]; norm_num

theorem surface_45 : ∃ lat' lon', surfaceGlobal (encodeLat 19 0 45) (encodeLon 19 0 45 10) (encodeLat 19 1 45.001)
    (encodeLon 19 1 45.001 10.002) true 44 12 = .ok (lat', lon') ∧ |lat' - 45| ≤ dLat 0 / 2 ^ 19 / 2 ∧
    |lon' - 10| ≤ dLon 19 0 45 / 2 ^ 19 / 2 := by
  have h := surface_global_partial 45 10 45.001 10.002 44 12 true (Or.inl ⟨by norm_num, by norm_num, by rw [dLat0]; norm_num⟩)
    (Or.inl ⟨by norm_num, by norm_num, by rw [dLat1]; norm_num⟩) (by norm_num) (nl_surface_even.trans nl_surface_odd.symm)
    (by rw [nl_surface_even]; norm_num)
  simp only [if_true] at h
  exact h (by norm_num) (by rw [dLon19_45]; norm_num) (by rw [dLon19_45]; norm_num)

example : ∃ lat lon, surfaceGlobal (encodeLat 19 0 45) (encodeLon 19 0 45 10) (encodeLat 19 1 45.001)
    (encodeLon 19 1 45.001 10.002) true 44 12 = .ok (lat, lon) ∧ -180 ≤ lon ∧ lon < 180 := by
  obtain ⟨lat, lon, h, -⟩ := surface_45
  exact ⟨lat, lon, h, (surface_nearest _ _ _ _ _ _ _ _ _ h).1, (surface_nearest _ _ _ _ _ _ _ _ _ h).2.1⟩

example := surface_noPanic_partial 115609 116941 39199 110269 false 51.990 4.375 (by norm_num)

/-! ### C83: from Paris to New York -/

example := groundDistanceF_close accurateTrig_rounded 48.85 2.35 40.71 (-74.01) (by norm_num) (by norm_num) (by norm_num) (by norm_num)

end Geo
end Modes
