import Verif.Model.GeoFloat
import Verif.Model.Translation
/-!
# The functions of `pkg/geo`, translated mechanically

Written by `tools/go2lean/geo.py` from the text of /repo; not edited by hand. A `float64` is a real number and `fl` its rounding,
applied to the result of every operation and conversion; constant expressions are exact until they are used. `math.Floor`,
`math.Abs` and `math.Max` are exact, `math.Pow(x, 2)` is a rounded square, `math.Sqrt` is `sqrtGo`, the other functions of
package `math` are parameters, and so is `getNumberOfLongitude` where it is called. Loops over arrays are unrolled.
Props/TranslationGeo proves that Model/GeoFloat and this translation agree.
-/
set_option linter.unusedVariables false
noncomputable section
namespace Modes

/-- `math.Sqrt`: NaN (`none`) for a negative number, the rounded root otherwise. -/
def sqrtGo (fl : ℝ → ℝ) (x : ℝ) : Option ℝ := if x < 0 then none else some (fl (Real.sqrt x))

/-- `mod`, pkg/geo/cpr_common.go:12-14. -/
def Gen.geo.mod (fl : ℝ → ℝ) (x : ℝ) (y : ℝ) : ℝ :=
  fl (x - fl (y * (⌊fl (x / y)⌋ : ℝ)))

/-- `getNumberOfLongitude`, pkg/geo/cpr_common.go:22-38. -/
def Gen.geo.getNumberOfLongitude (fl : ℝ → ℝ) (cosF : ℝ → ℝ) (acosF : ℝ → ℝ) (lat : ℝ) : ℝ :=
  if lat = 0 then 59
  else
    if |lat| = 87 then 2
    else
      if |lat| > 87 then 1
      else
        let a : ℝ := fl (1 - cosF (fl (Real.pi / (2 * 15))))
        let b : ℝ := fl (cosF (fl (fl (Real.pi / 180) * |lat|)) ^ 2)
        let nl : ℝ := fl (fl (2 * Real.pi) / acosF (fl (1 - fl (a / b))))
        (⌊nl⌋ : ℝ)

/-- `GetCPRAirborneGlobalPosition`, pkg/geo/cpr_airborne_global_position.go:19-103. -/
def Gen.geo.GetCPRAirborneGlobalPosition (fl : ℝ → ℝ) (nl : ℝ → ℝ) (evenCPRLatitude : UInt32) (evenCPRLongitude : UInt32) (oddCPRLatitude : UInt32) (oddCPRLongitude : UInt32) (evenDataReceivedAfterOddData : Bool) : Go (ℝ × ℝ) := do
  let cprLatitudeEven : ℝ := fl (fl (evenCPRLatitude.toNat : ℝ) / 131072)
  let cprLongitudeEven : ℝ := fl (fl (evenCPRLongitude.toNat : ℝ) / 131072)
  let cprLatitudeOdd : ℝ := fl (fl (oddCPRLatitude.toNat : ℝ) / 131072)
  let cprLongitudeOdd : ℝ := fl (fl (oddCPRLongitude.toNat : ℝ) / 131072)
  let dLatitudeEven : ℝ := fl (360 / (4 * 15))
  let dLatitudeOdd : ℝ := fl (360 / ((4 * 15) - 1))
  let j : ℝ := (⌊fl (fl (fl (59 * cprLatitudeEven) - fl (60 * cprLatitudeOdd)) + (1 / 2))⌋ : ℝ)
  let latitudeEven : ℝ := fl (dLatitudeEven * fl (Gen.geo.mod fl j 60 + cprLatitudeEven))
  let latitudeOdd : ℝ := fl (dLatitudeOdd * fl (Gen.geo.mod fl j 59 + cprLatitudeOdd))
  let latitudeEven := if latitudeEven ≥ 270 then fl (latitudeEven - 360) else latitudeEven
  let latitudeOdd := if latitudeOdd ≥ 270 then fl (latitudeOdd - 360) else latitudeOdd
  let numberLongitudeEven : ℝ := nl latitudeEven
  let numberLongitudeOdd : ℝ := nl latitudeOdd
  if numberLongitudeEven ≠ numberLongitudeOdd then .error .err
  else
    let numberLongitude : ℝ := numberLongitudeEven
    let latitude : ℝ := 0
    let latitude := if evenDataReceivedAfterOddData then latitudeEven else latitudeOdd
    let m : ℝ := (⌊fl (fl (fl (cprLongitudeEven * fl (numberLongitude - 1)) - fl (cprLongitudeOdd * numberLongitude)) + (1 / 2))⌋ : ℝ)
    let nEven : ℝ := max (fl (numberLongitude - 0)) 1
    let nOdd : ℝ := max (fl (numberLongitude - 1)) 1
    let dLonEven : ℝ := fl (360 / nEven)
    let dLonOdd : ℝ := fl (360 / nOdd)
    let lonEven : ℝ := fl (dLonEven * fl (Gen.geo.mod fl m nEven + cprLongitudeEven))
    let lonOdd : ℝ := fl (dLonOdd * fl (Gen.geo.mod fl m nOdd + cprLongitudeOdd))
    let longitude : ℝ := 0
    let longitude := if evenDataReceivedAfterOddData then lonEven else lonOdd
    let longitude := if longitude > 180 then fl (longitude - 360) else longitude
    return (latitude, longitude)

/-- `GetCPRAirborneLocalPosition`, pkg/geo/cpr_airborne_local_position.go:15-50. -/
def Gen.geo.GetCPRAirborneLocalPosition (fl : ℝ → ℝ) (nl : ℝ → ℝ) (cprLatitude : UInt32) (cprLongitude : UInt32) (referenceLatitude : ℝ) (referenceLongitude : ℝ) (isOdd : Bool) : ℝ × ℝ :=
  let i : ℝ := 0
  let i := if isOdd then 1 else i
  let latCPR : ℝ := fl (fl (cprLatitude.toNat : ℝ) / 131072)
  let lonCPR : ℝ := fl (fl (cprLongitude.toNat : ℝ) / 131072)
  let dLat : ℝ := fl (360 / fl (60 - i))
  let j : ℝ := fl ((⌊fl (referenceLatitude / dLat)⌋ : ℝ) + (⌊fl (fl (fl (Gen.geo.mod fl referenceLatitude dLat / dLat) - latCPR) + (1 / 2))⌋ : ℝ))
  let latitude : ℝ := fl (dLat * fl (j + latCPR))
  let dLon : ℝ := fl (360 / max (fl (nl latitude - i)) 1)
  let m : ℝ := fl ((⌊fl (referenceLongitude / dLon)⌋ : ℝ) + (⌊fl (fl (fl (Gen.geo.mod fl referenceLongitude dLon / dLon) - lonCPR) + (1 / 2))⌋ : ℝ))
  let longitude : ℝ := fl (dLon * fl (m + lonCPR))
  (latitude, longitude)

/-- `GetCPRSurfaceGlobalPosition`, pkg/geo/cpr_surface_global_position.go:21-126. -/
def Gen.geo.GetCPRSurfaceGlobalPosition (fl : ℝ → ℝ) (nl : ℝ → ℝ) (evenCPRLatitude : UInt32) (evenCPRLongitude : UInt32) (oddCPRLatitude : UInt32) (oddCPRLongitude : UInt32) (evenDataReceivedAfterOddData : Bool) (referenceLatitude : ℝ) (referenceLongitude : ℝ) : Go (ℝ × ℝ) := do
  let cprLatitudeEven : ℝ := fl (fl (evenCPRLatitude.toNat : ℝ) / 131072)
  let cprLongitudeEven : ℝ := fl (fl (evenCPRLongitude.toNat : ℝ) / 131072)
  let cprLatitudeOdd : ℝ := fl (fl (oddCPRLatitude.toNat : ℝ) / 131072)
  let cprLongitudeOdd : ℝ := fl (fl (oddCPRLongitude.toNat : ℝ) / 131072)
  let latitudeIndex : ℝ := (⌊fl (fl (fl (59 * cprLatitudeEven) - fl (60 * cprLatitudeOdd)) + (1 / 2))⌋ : ℝ)
  let latitudeEven : ℝ := fl (fl (90 / (4 * 15)) * fl (Gen.geo.mod fl latitudeIndex 60 + cprLatitudeEven))
  let latitudeOdd : ℝ := fl (fl (90 / ((4 * 15) - 1)) * fl (Gen.geo.mod fl latitudeIndex 59 + cprLatitudeOdd))
  let latitudeEvenFixed : ℝ := latitudeEven
  let latitudeEvenFixed := if referenceLatitude < 0 then fl (latitudeEvenFixed - 90) else latitudeEvenFixed
  let latitudeOddFixed : ℝ := latitudeOdd
  let latitudeOddFixed := if referenceLatitude < 0 then fl (latitudeOddFixed - 90) else latitudeOddFixed
  let numberLongitudeEven : ℝ := nl latitudeEvenFixed
  let numberLongitudeOdd : ℝ := nl latitudeOddFixed
  if numberLongitudeEven ≠ numberLongitudeOdd then .error .err
  else
    let numberLongitude : ℝ := numberLongitudeEven
    let latitude : ℝ := 0
    let latitude := if evenDataReceivedAfterOddData then latitudeEvenFixed else latitudeOddFixed
    let m : ℝ := (⌊fl (fl (fl (cprLongitudeEven * fl (numberLongitude - 1)) - fl (cprLongitudeOdd * numberLongitude)) + (1 / 2))⌋ : ℝ)
    let nEven : ℝ := max (fl (numberLongitude - 0)) 1
    let nOdd : ℝ := max (fl (numberLongitude - 1)) 1
    let lonEven : ℝ := fl (fl (90 / nEven) * fl (Gen.geo.mod fl m nEven + cprLongitudeEven))
    let lonOdd : ℝ := fl (fl (90 / nOdd) * fl (Gen.geo.mod fl m nOdd + cprLongitudeOdd))
    let quadrantLongitude : ℝ := 0
    let quadrantLongitude := if evenDataReceivedAfterOddData then lonEven else lonOdd
    let longitudes0 := quadrantLongitude
    let longitudes1 := fl (quadrantLongitude + 90)
    let longitudes2 := fl (quadrantLongitude + 180)
    let longitudes3 := fl (quadrantLongitude + 270)
    let longitude := longitudes0
    let longitudesCorrected0 := fl (Gen.geo.mod fl (fl (longitude + 180)) 360 - 180)
    let longitude := longitudes1
    let longitudesCorrected1 := fl (Gen.geo.mod fl (fl (longitude + 180)) 360 - 180)
    let longitude := longitudes2
    let longitudesCorrected2 := fl (Gen.geo.mod fl (fl (longitude + 180)) 360 - 180)
    let longitude := longitudes3
    let longitudesCorrected3 := fl (Gen.geo.mod fl (fl (longitude + 180)) 360 - 180)
    let longitudeCorrected := longitudesCorrected0
    let distancesToRef0 := |fl (referenceLongitude - longitudeCorrected)|
    let longitudeCorrected := longitudesCorrected1
    let distancesToRef1 := |fl (referenceLongitude - longitudeCorrected)|
    let longitudeCorrected := longitudesCorrected2
    let distancesToRef2 := |fl (referenceLongitude - longitudeCorrected)|
    let longitudeCorrected := longitudesCorrected3
    let distancesToRef3 := |fl (referenceLongitude - longitudeCorrected)|
    let smallestDistance : ℝ := 10000000
    let minIndex : Int := -1
    let distance := distancesToRef0
    let smallestDistance' := if distance < smallestDistance then distance else smallestDistance
    let minIndex' := if distance < smallestDistance then 0 else minIndex
    let smallestDistance := smallestDistance'
    let minIndex := minIndex'
    let distance := distancesToRef1
    let smallestDistance' := if distance < smallestDistance then distance else smallestDistance
    let minIndex' := if distance < smallestDistance then 1 else minIndex
    let smallestDistance := smallestDistance'
    let minIndex := minIndex'
    let distance := distancesToRef2
    let smallestDistance' := if distance < smallestDistance then distance else smallestDistance
    let minIndex' := if distance < smallestDistance then 2 else minIndex
    let smallestDistance := smallestDistance'
    let minIndex := minIndex'
    let distance := distancesToRef3
    let smallestDistance' := if distance < smallestDistance then distance else smallestDistance
    let minIndex' := if distance < smallestDistance then 3 else minIndex
    let smallestDistance := smallestDistance'
    let minIndex := minIndex'
    let longitude ← idxI [longitudesCorrected0, longitudesCorrected1, longitudesCorrected2, longitudesCorrected3] minIndex
    return (latitude, longitude)

/-- `GetCPRSurfaceLocalPosition`, pkg/geo/cpr_surface_local_position.go:15-51. -/
def Gen.geo.GetCPRSurfaceLocalPosition (fl : ℝ → ℝ) (nl : ℝ → ℝ) (cprLatitude : UInt32) (cprLongitude : UInt32) (referenceLatitude : ℝ) (referenceLongitude : ℝ) (isOdd : Bool) : ℝ × ℝ :=
  let i : ℝ := 0
  let i := if isOdd then 1 else i
  let latCPR : ℝ := fl (fl (cprLatitude.toNat : ℝ) / 131072)
  let lonCPR : ℝ := fl (fl (cprLongitude.toNat : ℝ) / 131072)
  let dLat : ℝ := fl (90 / fl (60 - i))
  let j : ℝ := fl ((⌊fl (referenceLatitude / dLat)⌋ : ℝ) + (⌊fl (fl (fl (Gen.geo.mod fl referenceLatitude dLat / dLat) - latCPR) + (1 / 2))⌋ : ℝ))
  let latitude : ℝ := fl (dLat * fl (j + latCPR))
  let dLon : ℝ := fl (90 / max (fl (nl latitude - i)) 1)
  let m : ℝ := fl ((⌊fl (referenceLongitude / dLon)⌋ : ℝ) + (⌊fl (fl (fl (Gen.geo.mod fl referenceLongitude dLon / dLon) - lonCPR) + (1 / 2))⌋ : ℝ))
  let longitude : ℝ := fl (dLon * fl (m + lonCPR))
  (latitude, longitude)

/-- `ComputeGroundDistance`, pkg/geo/ground_distance.go:16-32. -/
def Gen.geo.ComputeGroundDistance (fl : ℝ → ℝ) (cosF : ℝ → ℝ) (sinF : ℝ → ℝ) (atan2F : ℝ → ℝ → ℝ) (lat1 : ℝ) (long1 : ℝ) (lat2 : ℝ) (long2 : ℝ) : Option ℝ := do
  let earthRadius : ℝ := 6371000
  let phi1 : ℝ := fl (fl (lat1 * fl (Real.pi)) / 180)
  let phi2 : ℝ := fl (fl (lat2 * fl (Real.pi)) / 180)
  let deltaPhi : ℝ := fl (fl (fl (lat2 - lat1) * fl (Real.pi)) / 180)
  let deltaLambda : ℝ := fl (fl (fl (long2 - long1) * fl (Real.pi)) / 180)
  let a : ℝ := fl (fl (sinF (fl (deltaPhi / 2)) ^ 2) + fl (fl (cosF phi1 * cosF phi2) * fl (sinF (fl (deltaLambda / 2)) ^ 2)))
  let root1 ← sqrtGo fl a
  let root2 ← sqrtGo fl (fl (1 - a))
  let c : ℝ := fl (2 * atan2F root1 root2)
  let metricDistance : ℝ := fl (earthRadius * c)
  return metricDistance

end Modes
