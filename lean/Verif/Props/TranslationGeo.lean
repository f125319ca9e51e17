import Verif.Model.TranslationGeo
import Verif.Props.TranslationReaders
/-!
# The translated functions of `pkg/geo` are those of Model/GeoFloat
-/
set_option linter.unusedSimpArgs false
set_option linter.unusedVariables false
namespace Modes
open Geo

theorem four_nz : (4 * nz : ℝ) = 60 := by norm_num [nz]
theorem four_nz_lit : (4 * 15 : ℝ) = 60 := by norm_num
theorem four_nz_1 : (60 - 1 : ℝ) = 59 := by norm_num

/-- `mod`. -/
theorem same_geo_mod (fl : ℝ → ℝ) (x y : ℝ) : Gen.geo.mod fl x y = modF fl x y := rfl

/-- `getNumberOfLongitude`. -/
theorem same_geo_getNumberOfLongitude (fl cosF acosF : ℝ → ℝ) (lat : ℝ) :
    Gen.geo.getNumberOfLongitude fl cosF acosF lat = getNumberOfLongitudeF fl cosF acosF lat := rfl

/-- `GetCPRAirborneGlobalPosition`. -/
theorem same_geo_airborneGlobal (fl nl : ℝ → ℝ) (a b c d : UInt32) (e : Bool) :
    Gen.geo.GetCPRAirborneGlobalPosition fl nl a b c d e = airborneGlobalF fl nl a b c d e := by
  unfold Gen.geo.GetCPRAirborneGlobalPosition airborneGlobalF
  simp only [four_nz, four_nz_lit, four_nz_1]
  rfl

/-- `GetCPRAirborneLocalPosition`. -/
theorem same_geo_airborneLocal (fl nl : ℝ → ℝ) (a b : UInt32) (x y : ℝ) (o : Bool) :
    Gen.geo.GetCPRAirborneLocalPosition fl nl a b x y o = airborneLocalF fl nl a b x y o := by
  unfold Gen.geo.GetCPRAirborneLocalPosition airborneLocalF
  simp only [four_nz, four_nz_lit, four_nz_1]
  rfl

/-- `GetCPRSurfaceLocalPosition`. -/
theorem same_geo_surfaceLocal (fl nl : ℝ → ℝ) (a b : UInt32) (x y : ℝ) (o : Bool) :
    Gen.geo.GetCPRSurfaceLocalPosition fl nl a b x y o = surfaceLocalF fl nl a b x y o := by
  unfold Gen.geo.GetCPRSurfaceLocalPosition surfaceLocalF
  simp only [four_nz, four_nz_lit, four_nz_1]
  rfl

/-- The end of `GetCPRSurfaceGlobalPosition`, as translated: the choice of the longitude nearest to the reference. -/
noncomputable def genNearest (longitudesCorrected0 longitudesCorrected1 longitudesCorrected2 longitudesCorrected3
    distancesToRef0 distancesToRef1 distancesToRef2 distancesToRef3 : ℝ) : Go ℝ := do
  let smallestDistance : ℝ := 10000000
  let minIndex : Int := -1
  let distance := distancesToRef0
  let smallestDistance' := if distance < smallestDistance then distance else smallestDistance
  let minIndex' := if distance < smallestDistance then 0 else minIndex
  let smallestDistance := smallestDistance'
  let minIndex := minIndex'
  let distance := distancesToRef1
  let smallestDistance' := if distance < smallestDistance then distance else smallestDistance
  let minIndex' := if distance < smallestDistance then 1 else minIndex
  let smallestDistance := smallestDistance'
  let minIndex := minIndex'
  let distance := distancesToRef2
  let smallestDistance' := if distance < smallestDistance then distance else smallestDistance
  let minIndex' := if distance < smallestDistance then 2 else minIndex
  let smallestDistance := smallestDistance'
  let minIndex := minIndex'
  let distance := distancesToRef3
  let smallestDistance' := if distance < smallestDistance then distance else smallestDistance
  let minIndex' := if distance < smallestDistance then 3 else minIndex
  let smallestDistance := smallestDistance'
  let minIndex := minIndex'
  idxI [longitudesCorrected0, longitudesCorrected1, longitudesCorrected2, longitudesCorrected3] minIndex

/-- The choice of the nearest longitude, with the index -1 of the code written as no index. -/
theorem genNearest_eq (fl : ℝ → ℝ) (r c0 c1 c2 c3 : ℝ) :
    genNearest c0 c1 c2 c3 |fl (r - c0)| |fl (r - c1)| |fl (r - c2)| |fl (r - c3)| = nearestLongitudeF fl r [c0, c1, c2, c3] := by
  unfold genNearest nearestLongitudeF
  simp only [List.map_cons, List.map_nil, List.zipIdx_cons, List.zipIdx_nil, List.foldl_cons, List.foldl_nil, nearestStep]
  generalize |fl (r - c0)| = d0
  generalize |fl (r - c1)| = d1
  generalize |fl (r - c2)| = d2
  generalize |fl (r - c3)| = d3
  generalize (10000000 : ℝ) = k
  by_cases h0 : d0 < k <;> simp only [h0, if_true, if_false]
  · by_cases h1 : d1 < d0 <;> simp only [h1, if_true, if_false]
    · by_cases h2 : d2 < d1 <;> simp only [h2, if_true, if_false]
      · by_cases h3 : d3 < d2 <;> simp only [h3, if_true, if_false] <;> rfl
      · by_cases h3 : d3 < d1 <;> simp only [h3, if_true, if_false] <;> rfl
    · by_cases h2 : d2 < d0 <;> simp only [h2, if_true, if_false]
      · by_cases h3 : d3 < d2 <;> simp only [h3, if_true, if_false] <;> rfl
      · by_cases h3 : d3 < d0 <;> simp only [h3, if_true, if_false] <;> rfl
  · by_cases h1 : d1 < k <;> simp only [h1, if_true, if_false]
    · by_cases h2 : d2 < d1 <;> simp only [h2, if_true, if_false]
      · by_cases h3 : d3 < d2 <;> simp only [h3, if_true, if_false] <;> rfl
      · by_cases h3 : d3 < d1 <;> simp only [h3, if_true, if_false] <;> rfl
    · by_cases h2 : d2 < k <;> simp only [h2, if_true, if_false]
      · by_cases h3 : d3 < d2 <;> simp only [h3, if_true, if_false] <;> rfl
      · by_cases h3 : d3 < k <;> simp only [h3, if_true, if_false] <;> rfl

/-- `GetCPRSurfaceGlobalPosition`. -/
theorem same_geo_surfaceGlobal (fl nl : ℝ → ℝ) (a b c d : UInt32) (e : Bool) (x y : ℝ) :
    Gen.geo.GetCPRSurfaceGlobalPosition fl nl a b c d e x y = surfaceGlobalF fl nl a b c d e x y := by
  unfold Gen.geo.GetCPRSurfaceGlobalPosition surfaceGlobalF
  simp only [four_nz, four_nz_lit, four_nz_1, List.map_cons, List.map_nil, ← genNearest_eq]
  refine go_ite_congr Iff.rfl rfl ?_
  have hm : ∀ (r : Go ℝ) (l : ℝ), (match r with | .error f => .error f | .ok v => .ok (l, v) : Go (ℝ × ℝ)) =
      (r >>= fun v => pure (l, v)) := fun r l => by cases r <;> rfl
  exact Eq.trans rfl (hm _ _).symm

/-- `ComputeGroundDistance`. -/
theorem same_geo_groundDistance (fl sinF cosF : ℝ → ℝ) (atan2F : ℝ → ℝ → ℝ) (lat1 long1 lat2 long2 : ℝ) :
    Gen.geo.ComputeGroundDistance fl cosF sinF atan2F lat1 long1 lat2 long2 =
      groundDistanceF fl sinF cosF atan2F lat1 long1 lat2 long2 := by
  unfold Gen.geo.ComputeGroundDistance groundDistanceF sqrtGo
  simp only []
  generalize fl (fl (sinF _ ^ 2) + _) = a
  by_cases ha : a < 0
  · simp only [ha, if_true, true_or]; rfl
  · by_cases hb : fl (1 - a) < 0
    · simp only [ha, hb, if_true, if_false, or_true]; rfl
    · simp only [ha, hb, if_false, or_self]; rfl

/-! The same, as equalities of functions. -/
theorem same_geo_fn_getNumberOfLongitude : @Gen.geo.getNumberOfLongitude = @getNumberOfLongitudeF := by
  funext fl c a l; exact same_geo_getNumberOfLongitude fl c a l
theorem same_geo_fn_airborneGlobal : @Gen.geo.GetCPRAirborneGlobalPosition = @airborneGlobalF := by
  funext fl nl a b c d e; exact same_geo_airborneGlobal fl nl a b c d e
theorem same_geo_fn_airborneLocal : @Gen.geo.GetCPRAirborneLocalPosition = @airborneLocalF := by
  funext fl nl a b x y o; exact same_geo_airborneLocal fl nl a b x y o
theorem same_geo_fn_surfaceGlobal : @Gen.geo.GetCPRSurfaceGlobalPosition = @surfaceGlobalF := by
  funext fl nl a b c d e x y; exact same_geo_surfaceGlobal fl nl a b c d e x y
theorem same_geo_fn_surfaceLocal : @Gen.geo.GetCPRSurfaceLocalPosition = @surfaceLocalF := by
  funext fl nl a b x y o; exact same_geo_surfaceLocal fl nl a b x y o

end Modes
