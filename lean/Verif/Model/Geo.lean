import Verif.Model.Go
import Mathlib.Analysis.SpecialFunctions.Complex.Arg
import Mathlib.Analysis.SpecialFunctions.Trigonometric.Bounds
import Mathlib.Data.Real.Archimedean
/-!
# `pkg/geo`: compact position reporting and ground distance

Simplification: `float64` is modelled by the real numbers, `math.Cos`, `math.Acos`, `math.Sin`, `math.Sqrt`, `math.Atan2`,
`math.Floor`, `math.Abs`, `math.Max`, `math.Pow(x, 2)` by the exact functions; NaN and infinities do not exist in the model.
`math.Acos` is NaN outside [-1,1]; `nl_domain` (Props/GeoNL) proves that it is never called there.
-/
noncomputable section
namespace Modes
namespace Geo

/-- `Nz`, pkg/geo/cpr_common.go:5. -/
def nz : ℝ := 15

/-- `maxBinaryValue`, pkg/geo/cpr_common.go:8. -/
def maxBinaryValue : ℝ := 131072

/-- `mod`, pkg/geo/cpr_common.go:12-14. -/
def mod (x y : ℝ) : ℝ := x - y * ⌊x / y⌋

/-- `getNumberOfLongitude`, pkg/geo/cpr_common.go:22-38. -/
def getNumberOfLongitude (lat : ℝ) : ℝ :=
  if lat = 0 then 59
  else if |lat| = 87 then 2
  else if |lat| > 87 then 1
  else
    let a := 1 - Real.cos (Real.pi / (2 * nz))
    let b := Real.cos (Real.pi / 180 * |lat|) ^ 2
    let nl := 2 * Real.pi / Real.arccos (1 - a / b)
    (⌊nl⌋ : ℝ)

/-- `float64(x) / maxBinaryValue`. -/
def cpr (x : UInt32) : ℝ := (x.toNat : ℝ) / maxBinaryValue

/-- The correction to [-90,+90], pkg/geo/cpr_airborne_global_position.go:44-50. -/
def fixLatitude (latitude : ℝ) : ℝ := if latitude ≥ 270 then latitude - 360 else latitude

/-- The correction to [-180,180], pkg/geo/cpr_airborne_global_position.go:98-100. -/
def fixLongitude (longitude : ℝ) : ℝ := if longitude > 180 then longitude - 360 else longitude

/-- `GetCPRAirborneGlobalPosition`, pkg/geo/cpr_airborne_global_position.go:19-103. -/
def airborneGlobal (evenCPRLatitude evenCPRLongitude oddCPRLatitude oddCPRLongitude : UInt32)
    (evenDataReceivedAfterOddData : Bool) : Go (ℝ × ℝ) :=
  let cprLatitudeEven := cpr evenCPRLatitude
  let cprLongitudeEven := cpr evenCPRLongitude
  let cprLatitudeOdd := cpr oddCPRLatitude
  let cprLongitudeOdd := cpr oddCPRLongitude
  let dLatitudeEven := 360 / (4 * nz)
  let dLatitudeOdd := 360 / (4 * nz - 1)
  let j : ℝ := ⌊(4 * nz - 1) * cprLatitudeEven - (4 * nz) * cprLatitudeOdd + 1 / 2⌋
  let latitudeEven := fixLatitude (dLatitudeEven * (mod j (4 * nz) + cprLatitudeEven))
  let latitudeOdd := fixLatitude (dLatitudeOdd * (mod j (4 * nz - 1) + cprLatitudeOdd))
  let numberLongitudeEven := getNumberOfLongitude latitudeEven
  let numberLongitudeOdd := getNumberOfLongitude latitudeOdd
  if numberLongitudeEven ≠ numberLongitudeOdd then .error .err
  else
    let numberLongitude := numberLongitudeEven
    let latitude := if evenDataReceivedAfterOddData then latitudeEven else latitudeOdd
    let m : ℝ := ⌊cprLongitudeEven * (numberLongitude - 1) - cprLongitudeOdd * numberLongitude + 1 / 2⌋
    let nEven := max (numberLongitude - 0) 1
    let nOdd := max (numberLongitude - 1) 1
    let dLonEven := 360 / nEven
    let dLonOdd := 360 / nOdd
    let lonEven := dLonEven * (mod m nEven + cprLongitudeEven)
    let lonOdd := dLonOdd * (mod m nOdd + cprLongitudeOdd)
    let longitude := if evenDataReceivedAfterOddData then lonEven else lonOdd
    .ok (latitude, fixLongitude longitude)

/-- `i := 0.0; if isOdd { i = 1.0 }`, pkg/geo/cpr_airborne_local_position.go:22-25 and pkg/geo/cpr_surface_local_position.go:23-26. -/
def parity (isOdd : Bool) : ℝ := if isOdd then 1 else 0

/-- `GetCPRAirborneLocalPosition`, pkg/geo/cpr_airborne_local_position.go:15-50. -/
def airborneLocal (cprLatitude cprLongitude : UInt32) (referenceLatitude referenceLongitude : ℝ) (isOdd : Bool) : ℝ × ℝ :=
  let i := parity isOdd
  let latCPR := cpr cprLatitude
  let lonCPR := cpr cprLongitude
  let dLat := 360 / (4 * nz - i)
  let j : ℝ := ⌊referenceLatitude / dLat⌋ + ⌊mod referenceLatitude dLat / dLat - latCPR + 1 / 2⌋
  let latitude := dLat * (j + latCPR)
  let dLon := 360 / max (getNumberOfLongitude latitude - i) 1
  let m : ℝ := ⌊referenceLongitude / dLon⌋ + ⌊mod referenceLongitude dLon / dLon - lonCPR + 1 / 2⌋
  let longitude := dLon * (m + lonCPR)
  (latitude, longitude)

/-- One step of the search of the smallest distance, pkg/geo/cpr_surface_global_position.go:117-120. `best` is
`(smallestDistance, minIndex)`, `none` for the index -1. -/
def nearestStep (best : ℝ × Option ℕ) (i : ℕ) (distance : ℝ) : ℝ × Option ℕ :=
  if distance < best.1 then (distance, some i) else best

/-- The choice of the longitude nearest to the reference, pkg/geo/cpr_surface_global_position.go:109-123. Indexing with -1
panics. -/
def nearestLongitude (referenceLongitude : ℝ) (longitudesCorrected : List ℝ) : Go ℝ :=
  let distancesToRef := longitudesCorrected.map fun longitudeCorrected => |referenceLongitude - longitudeCorrected|
  let best := distancesToRef.zipIdx.foldl (fun best x => nearestStep best x.2 x.1) (10000000, none)
  match best.2 with
  | none => goPanic
  | some minIndex =>
    match longitudesCorrected[minIndex]? with
    | none => goPanic
    | some longitude => .ok longitude

/-- `GetCPRSurfaceGlobalPosition`, pkg/geo/cpr_surface_global_position.go:21-126. -/
def surfaceGlobal (evenCPRLatitude evenCPRLongitude oddCPRLatitude oddCPRLongitude : UInt32)
    (evenDataReceivedAfterOddData : Bool) (referenceLatitude referenceLongitude : ℝ) : Go (ℝ × ℝ) :=
  let cprLatitudeEven := cpr evenCPRLatitude
  let cprLongitudeEven := cpr evenCPRLongitude
  let cprLatitudeOdd := cpr oddCPRLatitude
  let cprLongitudeOdd := cpr oddCPRLongitude
  let latitudeIndex : ℝ := ⌊(4 * nz - 1) * cprLatitudeEven - (4 * nz) * cprLatitudeOdd + 1 / 2⌋
  let latitudeEven := 90 / (4 * nz) * (mod latitudeIndex (4 * nz) + cprLatitudeEven)
  let latitudeOdd := 90 / (4 * nz - 1) * (mod latitudeIndex (4 * nz - 1) + cprLatitudeOdd)
  let latitudeEvenFixed := if referenceLatitude < 0 then latitudeEven - 90 else latitudeEven
  let latitudeOddFixed := if referenceLatitude < 0 then latitudeOdd - 90 else latitudeOdd
  let numberLongitudeEven := getNumberOfLongitude latitudeEvenFixed
  let numberLongitudeOdd := getNumberOfLongitude latitudeOddFixed
  if numberLongitudeEven ≠ numberLongitudeOdd then .error .err
  else
    let numberLongitude := numberLongitudeEven
    let latitude := if evenDataReceivedAfterOddData then latitudeEvenFixed else latitudeOddFixed
    let m : ℝ := ⌊cprLongitudeEven * (numberLongitude - 1) - cprLongitudeOdd * numberLongitude + 1 / 2⌋
    let nEven := max (numberLongitude - 0) 1
    let nOdd := max (numberLongitude - 1) 1
    let lonEven := 90 / nEven * (mod m nEven + cprLongitudeEven)
    let lonOdd := 90 / nOdd * (mod m nOdd + cprLongitudeOdd)
    let quadrantLongitude := if evenDataReceivedAfterOddData then lonEven else lonOdd
    let longitudes := [quadrantLongitude, quadrantLongitude + 90, quadrantLongitude + 180, quadrantLongitude + 270]
    let longitudesCorrected := longitudes.map fun longitude => mod (longitude + 180) 360 - 180
    match nearestLongitude referenceLongitude longitudesCorrected with
    | .error f => .error f
    | .ok longitude => .ok (latitude, longitude)

/-- `GetCPRSurfaceLocalPosition`, pkg/geo/cpr_surface_local_position.go:15-51. -/
def surfaceLocal (cprLatitude cprLongitude : UInt32) (referenceLatitude referenceLongitude : ℝ) (isOdd : Bool) : ℝ × ℝ :=
  let i := parity isOdd
  let latCPR := cpr cprLatitude
  let lonCPR := cpr cprLongitude
  let dLat := 90 / (4 * nz - i)
  let j : ℝ := ⌊referenceLatitude / dLat⌋ + ⌊mod referenceLatitude dLat / dLat - latCPR + 1 / 2⌋
  let latitude := dLat * (j + latCPR)
  let dLon := 90 / max (getNumberOfLongitude latitude - i) 1
  let m : ℝ := ⌊referenceLongitude / dLon⌋ + ⌊mod referenceLongitude dLon / dLon - lonCPR + 1 / 2⌋
  let longitude := dLon * (m + lonCPR)
  (latitude, longitude)

/-- `math.Atan2(y, x)`: the argument of the point `(x, y)`. -/
def atan2 (y x : ℝ) : ℝ := Complex.arg ⟨x, y⟩

/-- `ComputeGroundDistance`, pkg/geo/ground_distance.go:16-32. -/
def computeGroundDistance (lat1 long1 lat2 long2 : ℝ) : ℝ :=
  let earthRadius := 6371000
  let phi1 := lat1 * Real.pi / 180
  let phi2 := lat2 * Real.pi / 180
  let deltaPhi := (lat2 - lat1) * Real.pi / 180
  let deltaLambda := (long2 - long1) * Real.pi / 180
  let a := Real.sin (deltaPhi / 2) ^ 2 + Real.cos phi1 * Real.cos phi2 * Real.sin (deltaLambda / 2) ^ 2
  let c := 2 * atan2 (Real.sqrt a) (Real.sqrt (1 - a))
  earthRadius * c

end Geo
end Modes
