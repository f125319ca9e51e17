import Verif.Model.Float
import Verif.Model.Geo
/-!
# `pkg/geo` with rounding

The functions of Model/Geo again, with the rounding of each `float64` operation written out: `fl` is applied to the result of
every addition, subtraction, multiplication, division and conversion, in the order of the Go expressions (no fused multiply-add).
Constant expressions of the source are computed exactly and rounded once. `nl` stands for the value of `getNumberOfLongitude`, whose
trigonometric functions are those of Go's library (`getNumberOfLongitudeF` has its own arithmetic). With `fl` the identity
these are the definitions of Model/Geo (Props/GeoFloat, `airborneGlobalF_exact` and others); with `fl` the rounding to 53 bits
(`f64R`) they are the `float64` computation. Not modelled here: NaN and infinite reference coordinates and overflow (see Model/GeoSpecial), subnormals.
-/
noncomputable section
namespace Modes
namespace Geo

/-- `getNumberOfLongitude`, pkg/geo/cpr_common.go:22-38. `math.Pi/(2*Nz)`, `math.Pi/180.0` and `2*math.Pi` are constants, taken to be the
rounded real numbers (the constant `math.Pi` has 62 decimals). `cosF` and `acosF` stand for `math.Cos` and `math.Acos`; `math.Pow(x, 2)` is one
rounded product. -/
def getNumberOfLongitudeF (fl cosF acosF : ℝ → ℝ) (lat : ℝ) : ℝ :=
  if lat = 0 then 59
  else if |lat| = 87 then 2
  else if |lat| > 87 then 1
  else
    let a := fl (1 - cosF (fl (Real.pi / (2 * nz))))
    let b := fl (cosF (fl (fl (Real.pi / 180) * |lat|)) ^ 2)
    let nl := fl (fl (2 * Real.pi) / acosF (fl (1 - fl (a / b))))
    (⌊nl⌋ : ℝ)

/-- `ComputeGroundDistance`, pkg/geo/ground_distance.go:16-32. `none` stands for NaN, which is what `math.Sqrt` returns for a negative
number (and then everything computed from it). `sinF`, `cosF` and `atan2F` stand for `math.Sin`, `math.Cos` and `math.Atan2`; `math.Sqrt` is the
rounded square root; `math.Pow(x, 2)` is one rounded product; `math.Pi` is the rounded constant. -/
def groundDistanceF (fl sinF cosF : ℝ → ℝ) (atan2F : ℝ → ℝ → ℝ) (lat1 long1 lat2 long2 : ℝ) : Option ℝ :=
  let earthRadius := 6371000
  let phi1 := fl (fl (lat1 * fl Real.pi) / 180)
  let phi2 := fl (fl (lat2 * fl Real.pi) / 180)
  let deltaPhi := fl (fl (fl (lat2 - lat1) * fl Real.pi) / 180)
  let deltaLambda := fl (fl (fl (long2 - long1) * fl Real.pi) / 180)
  let a := fl (fl (sinF (fl (deltaPhi / 2)) ^ 2) + fl (fl (cosF phi1 * cosF phi2) * fl (sinF (fl (deltaLambda / 2)) ^ 2)))
  let b := fl (1 - a)
  if a < 0 ∨ b < 0 then none
  else
    let c := fl (2 * atan2F (fl (Real.sqrt a)) (fl (Real.sqrt b)))
    some (fl (earthRadius * c))

variable (fl : ℝ → ℝ) (nl : ℝ → ℝ)

/-- `mod`, pkg/geo/cpr_common.go:12-14. `math.Floor` is exact. -/
def modF (x y : ℝ) : ℝ := fl (x - fl (y * ⌊fl (x / y)⌋))

/-- `float64(x) / maxBinaryValue`. -/
def cprF (x : UInt32) : ℝ := fl (fl (x.toNat : ℝ) / maxBinaryValue)

/-- pkg/geo/cpr_airborne_global_position.go:44-50. -/
def fixLatitudeF (latitude : ℝ) : ℝ := if latitude ≥ 270 then fl (latitude - 360) else latitude

/-- pkg/geo/cpr_airborne_global_position.go:98-100. -/
def fixLongitudeF (longitude : ℝ) : ℝ := if longitude > 180 then fl (longitude - 360) else longitude

/-- `GetCPRAirborneGlobalPosition`, pkg/geo/cpr_airborne_global_position.go:19-103. -/
def airborneGlobalF (evenCPRLatitude evenCPRLongitude oddCPRLatitude oddCPRLongitude : UInt32)
    (evenDataReceivedAfterOddData : Bool) : Go (ℝ × ℝ) :=
  let cprLatitudeEven := cprF fl evenCPRLatitude
  let cprLongitudeEven := cprF fl evenCPRLongitude
  let cprLatitudeOdd := cprF fl oddCPRLatitude
  let cprLongitudeOdd := cprF fl oddCPRLongitude
  let dLatitudeEven := fl (360 / (4 * nz))
  let dLatitudeOdd := fl (360 / (4 * nz - 1))
  let j : ℝ := ⌊fl (fl (fl ((4 * nz - 1) * cprLatitudeEven) - fl ((4 * nz) * cprLatitudeOdd)) + 1 / 2)⌋
  let latitudeEven := fixLatitudeF fl (fl (dLatitudeEven * fl (modF fl j (4 * nz) + cprLatitudeEven)))
  let latitudeOdd := fixLatitudeF fl (fl (dLatitudeOdd * fl (modF fl j (4 * nz - 1) + cprLatitudeOdd)))
  let numberLongitudeEven := nl latitudeEven
  let numberLongitudeOdd := nl latitudeOdd
  if numberLongitudeEven ≠ numberLongitudeOdd then .error .err
  else
    let numberLongitude := numberLongitudeEven
    let latitude := if evenDataReceivedAfterOddData then latitudeEven else latitudeOdd
    let m : ℝ := ⌊fl (fl (fl (cprLongitudeEven * fl (numberLongitude - 1)) - fl (cprLongitudeOdd * numberLongitude)) + 1 / 2)⌋
    let nEven := max (fl (numberLongitude - 0)) 1
    let nOdd := max (fl (numberLongitude - 1)) 1
    let dLonEven := fl (360 / nEven)
    let dLonOdd := fl (360 / nOdd)
    let lonEven := fl (dLonEven * fl (modF fl m nEven + cprLongitudeEven))
    let lonOdd := fl (dLonOdd * fl (modF fl m nOdd + cprLongitudeOdd))
    let longitude := if evenDataReceivedAfterOddData then lonEven else lonOdd
    .ok (latitude, fixLongitudeF fl longitude)

/-- The zone index of local decoding and the coordinate: `floor(ref/d) + floor(mod(ref,d)/d - cpr + 0.5)` and `d * (j + cpr)`,
pkg/geo/cpr_airborne_local_position.go:33-36, 43-46 and pkg/geo/cpr_surface_local_position.go:34-37, 44-47. -/
def localF (d reference cprValue : ℝ) : ℝ :=
  let j : ℝ := fl (⌊fl (reference / d)⌋ + ⌊fl (fl (fl (modF fl reference d / d) - cprValue) + 1 / 2)⌋)
  fl (d * fl (j + cprValue))

/-- `GetCPRAirborneLocalPosition`, pkg/geo/cpr_airborne_local_position.go:15-50. -/
def airborneLocalF (cprLatitude cprLongitude : UInt32) (referenceLatitude referenceLongitude : ℝ) (isOdd : Bool) : ℝ × ℝ :=
  let i := parity isOdd
  let latCPR := cprF fl cprLatitude
  let lonCPR := cprF fl cprLongitude
  let dLat := fl (360 / fl (4 * nz - i))
  let latitude := localF fl dLat referenceLatitude latCPR
  let dLon := fl (360 / max (fl (nl latitude - i)) 1)
  let longitude := localF fl dLon referenceLongitude lonCPR
  (latitude, longitude)

/-- `nearestLongitude` with the distances rounded, pkg/geo/cpr_surface_global_position.go:109-123. -/
def nearestLongitudeF (referenceLongitude : ℝ) (longitudesCorrected : List ℝ) : Go ℝ :=
  let distancesToRef := longitudesCorrected.map fun longitudeCorrected => |fl (referenceLongitude - longitudeCorrected)|
  let best := distancesToRef.zipIdx.foldl (fun best x => nearestStep best x.2 x.1) (10000000, none)
  match best.2 with
  | none => goPanic
  | some minIndex =>
    match longitudesCorrected[minIndex]? with
    | none => goPanic
    | some longitude => .ok longitude

/-- `GetCPRSurfaceGlobalPosition`, pkg/geo/cpr_surface_global_position.go:21-126. -/
def surfaceGlobalF (evenCPRLatitude evenCPRLongitude oddCPRLatitude oddCPRLongitude : UInt32)
    (evenDataReceivedAfterOddData : Bool) (referenceLatitude referenceLongitude : ℝ) : Go (ℝ × ℝ) :=
  let cprLatitudeEven := cprF fl evenCPRLatitude
  let cprLongitudeEven := cprF fl evenCPRLongitude
  let cprLatitudeOdd := cprF fl oddCPRLatitude
  let cprLongitudeOdd := cprF fl oddCPRLongitude
  let latitudeIndex : ℝ := ⌊fl (fl (fl ((4 * nz - 1) * cprLatitudeEven) - fl ((4 * nz) * cprLatitudeOdd)) + 1 / 2)⌋
  let latitudeEven := fl (fl (90 / (4 * nz)) * fl (modF fl latitudeIndex (4 * nz) + cprLatitudeEven))
  let latitudeOdd := fl (fl (90 / (4 * nz - 1)) * fl (modF fl latitudeIndex (4 * nz - 1) + cprLatitudeOdd))
  let latitudeEvenFixed := if referenceLatitude < 0 then fl (latitudeEven - 90) else latitudeEven
  let latitudeOddFixed := if referenceLatitude < 0 then fl (latitudeOdd - 90) else latitudeOdd
  let numberLongitudeEven := nl latitudeEvenFixed
  let numberLongitudeOdd := nl latitudeOddFixed
  if numberLongitudeEven ≠ numberLongitudeOdd then .error .err
  else
    let numberLongitude := numberLongitudeEven
    let latitude := if evenDataReceivedAfterOddData then latitudeEvenFixed else latitudeOddFixed
    let m : ℝ := ⌊fl (fl (fl (cprLongitudeEven * fl (numberLongitude - 1)) - fl (cprLongitudeOdd * numberLongitude)) + 1 / 2)⌋
    let nEven := max (fl (numberLongitude - 0)) 1
    let nOdd := max (fl (numberLongitude - 1)) 1
    let lonEven := fl (fl (90 / nEven) * fl (modF fl m nEven + cprLongitudeEven))
    let lonOdd := fl (fl (90 / nOdd) * fl (modF fl m nOdd + cprLongitudeOdd))
    let quadrantLongitude := if evenDataReceivedAfterOddData then lonEven else lonOdd
    let longitudes := [quadrantLongitude, fl (quadrantLongitude + 90), fl (quadrantLongitude + 180), fl (quadrantLongitude + 270)]
    let longitudesCorrected := longitudes.map fun longitude => fl (modF fl (fl (longitude + 180)) 360 - 180)
    match nearestLongitudeF fl referenceLongitude longitudesCorrected with
    | .error f => .error f
    | .ok longitude => .ok (latitude, longitude)

/-- `GetCPRSurfaceLocalPosition`, pkg/geo/cpr_surface_local_position.go:15-51. -/
def surfaceLocalF (cprLatitude cprLongitude : UInt32) (referenceLatitude referenceLongitude : ℝ) (isOdd : Bool) : ℝ × ℝ :=
  let i := parity isOdd
  let latCPR := cprF fl cprLatitude
  let lonCPR := cprF fl cprLongitude
  let dLat := fl (90 / fl (4 * nz - i))
  let latitude := localF fl dLat referenceLatitude latCPR
  let dLon := fl (90 / max (fl (nl latitude - i)) 1)
  let longitude := localF fl dLon referenceLongitude lonCPR
  (latitude, longitude)

end Geo
end Modes
