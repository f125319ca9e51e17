import Verif.Model.GeoFloat
/-!
# `pkg/geo` with the special values of `float64`

The functions of Model/GeoFloat that take `float64` arguments once more, on the values of IEEE 754: NaN, the infinities and the finite
numbers, with overflow. `fl` is the rounding of a real number to 53 bits with an unbounded exponent; a result beyond the largest
`float64` becomes an infinity. Simplifications: one zero (the sign of zero is never looked at: no division by a computed zero), no
subnormals, one NaN.
-/
noncomputable section
namespace Modes
namespace Geo
open Classical

/-- The values of `float64`. -/
inductive F64
  | nan
  | inf (negative : Bool)
  | num (x : ℝ)

namespace F64

/-- A finite number. -/
def Finite : F64 → Prop
  | num _ => True
  | _ => False

/-- `math.MaxFloat64`. -/
def largest : ℝ := (2 ^ 53 - 1) * 2 ^ 971

variable (fl : ℝ → ℝ)

/-- The rounded result of an operation on finite numbers, or an infinity. -/
def round (x : ℝ) : F64 := if |fl x| ≤ largest then num (fl x) else inf (decide (fl x < 0))

/-- `-x`. -/
def neg : F64 → F64
  | nan => nan
  | inf s => inf (!s)
  | num x => num (-x)

/-- `x + y`. -/
def add : F64 → F64 → F64
  | nan, _ => nan
  | _, nan => nan
  | inf s, inf t => if s = t then inf s else nan
  | inf s, num _ => inf s
  | num _, inf t => inf t
  | num x, num y => round fl (x + y)

/-- `x - y`. -/
def sub (x y : F64) : F64 := add fl x (neg y)

/-- `x * y`. -/
def mul : F64 → F64 → F64
  | nan, _ => nan
  | _, nan => nan
  | inf s, inf t => inf (s != t)
  | inf s, num y => if y = 0 then nan else inf (s != decide (y < 0))
  | num x, inf t => if x = 0 then nan else inf (t != decide (x < 0))
  | num x, num y => round fl (x * y)

/-- `x / y`. -/
def div : F64 → F64 → F64
  | nan, _ => nan
  | _, nan => nan
  | inf _, inf _ => nan
  | inf s, num y => inf (s != decide (y < 0))
  | num _, inf _ => num 0
  | num x, num y => if y = 0 then (if x = 0 then nan else inf (decide (x < 0))) else round fl (x / y)

/-- `math.Floor`. -/
def floor : F64 → F64
  | num x => num ⌊x⌋
  | v => v

/-- `math.Abs`. -/
def abs : F64 → F64
  | nan => nan
  | inf _ => inf false
  | num x => num |x|

/-- `math.Max`. -/
def max : F64 → F64 → F64
  | inf false, _ => inf false
  | _, inf false => inf false
  | nan, _ => nan
  | _, nan => nan
  | inf true, v => v
  | v, inf true => v
  | num x, num y => num (Max.max x y)

/-- `math.Sqrt`. -/
def sqrt : F64 → F64
  | nan => nan
  | inf s => if s then nan else inf false
  | num x => if x < 0 then nan else num (fl (Real.sqrt x))

/-- `math.Sin` or `math.Cos`, the finite values being those of `f`. -/
def periodic (f : ℝ → ℝ) : F64 → F64
  | num x => num (f x)
  | _ => nan

/-- `math.Acos`, the values on [-1,1] being those of `f`. -/
def acos (f : ℝ → ℝ) : F64 → F64
  | num x => if |x| ≤ 1 then num (f x) else nan
  | _ => nan

/-- `math.Atan2` on finite numbers; of the other cases only NaN is used. -/
def atan2 (f : ℝ → ℝ → ℝ) : F64 → F64 → F64
  | num y, num x => num (f y x)
  | _, _ => nan

/-- `x < y`. -/
def lt : F64 → F64 → Prop
  | nan, _ => False
  | _, nan => False
  | inf s, inf t => s = true ∧ t = false
  | inf s, num _ => s = true
  | num _, inf t => t = false
  | num x, num y => x < y

/-- `x == y`. -/
def eq : F64 → F64 → Prop
  | inf s, inf t => s = t
  | num x, num y => x = y
  | _, _ => False

end F64
open F64

variable (fl : ℝ → ℝ)

/-- `mod`, pkg/geo/cpr_common.go:12-14. -/
def modX (x y : F64) : F64 := sub fl x (mul fl y (floor (div fl x y)))

/-- `getNumberOfLongitude`, pkg/geo/cpr_common.go:22-38; constants as in `getNumberOfLongitudeF`. -/
def getNumberOfLongitudeX (cosF acosF : ℝ → ℝ) (lat : F64) : F64 :=
  if eq lat (num 0) then num 59
  else if eq (abs lat) (num 87) then num 2
  else if lt (num 87) (abs lat) then num 1
  else
    let a := sub fl (num 1) (periodic cosF (num (fl (Real.pi / (2 * nz)))))
    let c := periodic cosF (mul fl (num (fl (Real.pi / 180))) (abs lat))
    let b := mul fl c c
    let nl := div fl (num (fl (2 * Real.pi))) (acos acosF (sub fl (num 1) (div fl a b)))
    floor nl

/-- The zone index of local decoding and the coordinate, pkg/geo/cpr_airborne_local_position.go:33-36, 43-46 and
pkg/geo/cpr_surface_local_position.go:34-37, 44-47. -/
def localX (d reference cprValue : F64) : F64 :=
  let j := add fl (floor (div fl reference d))
    (floor (add fl (sub fl (div fl (modX fl reference d) d) cprValue) (num (1 / 2))))
  mul fl d (add fl j cprValue)

/-- `GetCPRAirborneLocalPosition` (`turn` = 360), pkg/geo/cpr_airborne_local_position.go:15-50, and `GetCPRSurfaceLocalPosition` (`turn` = 90),
pkg/geo/cpr_surface_local_position.go:15-51, which differ only in that constant. `nl` is `getNumberOfLongitude`. -/
def localPositionX (turn : ℝ) (nl : F64 → F64) (cprLatitude cprLongitude : UInt32) (referenceLatitude referenceLongitude : F64) (isOdd : Bool) :
    F64 × F64 :=
  let i := num (parity isOdd)
  let latCPR := num (cprF fl cprLatitude)
  let lonCPR := num (cprF fl cprLongitude)
  let dLat := div fl (num turn) (sub fl (num (4 * nz)) i)
  let latitude := localX fl dLat referenceLatitude latCPR
  let dLon := div fl (num turn) (F64.max (sub fl (nl latitude) i) (num 1))
  let longitude := localX fl dLon referenceLongitude lonCPR
  (latitude, longitude)

/-- One step of the search of the smallest distance, pkg/geo/cpr_surface_global_position.go:117-120. -/
def nearestStepX (best : F64 × Option ℕ) (i : ℕ) (distance : F64) : F64 × Option ℕ :=
  if lt distance best.1 then (distance, some i) else best

/-- The choice of the longitude nearest to the reference, pkg/geo/cpr_surface_global_position.go:109-123. Indexing with -1 panics. -/
def nearestLongitudeX (referenceLongitude : F64) (longitudesCorrected : List F64) : Go F64 :=
  let distancesToRef := longitudesCorrected.map fun longitudeCorrected => abs (sub fl referenceLongitude longitudeCorrected)
  let best := distancesToRef.zipIdx.foldl (fun best x => nearestStepX best x.2 x.1) (num 10000000, none)
  match best.2 with
  | none => goPanic
  | some minIndex =>
    match longitudesCorrected[minIndex]? with
    | none => goPanic
    | some longitude => .ok longitude

/-- `GetCPRSurfaceGlobalPosition`, pkg/geo/cpr_surface_global_position.go:21-126. -/
def surfaceGlobalX (nl : F64 → F64) (evenCPRLatitude evenCPRLongitude oddCPRLatitude oddCPRLongitude : UInt32)
    (evenDataReceivedAfterOddData : Bool) (referenceLatitude referenceLongitude : F64) : Go (F64 × F64) :=
  let cprLatitudeEven := num (cprF fl evenCPRLatitude)
  let cprLongitudeEven := num (cprF fl evenCPRLongitude)
  let cprLatitudeOdd := num (cprF fl oddCPRLatitude)
  let cprLongitudeOdd := num (cprF fl oddCPRLongitude)
  let latitudeIndex := floor (add fl (sub fl (mul fl (num (4 * nz - 1)) cprLatitudeEven) (mul fl (num (4 * nz)) cprLatitudeOdd)) (num (1 / 2)))
  let latitudeEven := mul fl (num (fl (90 / (4 * nz)))) (add fl (modX fl latitudeIndex (num (4 * nz))) cprLatitudeEven)
  let latitudeOdd := mul fl (num (fl (90 / (4 * nz - 1)))) (add fl (modX fl latitudeIndex (num (4 * nz - 1))) cprLatitudeOdd)
  let latitudeEvenFixed := if lt referenceLatitude (num 0) then sub fl latitudeEven (num 90) else latitudeEven
  let latitudeOddFixed := if lt referenceLatitude (num 0) then sub fl latitudeOdd (num 90) else latitudeOdd
  let numberLongitudeEven := nl latitudeEvenFixed
  let numberLongitudeOdd := nl latitudeOddFixed
  if ¬ F64.eq numberLongitudeEven numberLongitudeOdd then .error .err
  else
    let numberLongitude := numberLongitudeEven
    let latitude := if evenDataReceivedAfterOddData then latitudeEvenFixed else latitudeOddFixed
    let m := floor (add fl (sub fl (mul fl cprLongitudeEven (sub fl numberLongitude (num 1))) (mul fl cprLongitudeOdd numberLongitude)) (num (1 / 2)))
    let nEven := F64.max (sub fl numberLongitude (num 0)) (num 1)
    let nOdd := F64.max (sub fl numberLongitude (num 1)) (num 1)
    let lonEven := mul fl (div fl (num 90) nEven) (add fl (modX fl m nEven) cprLongitudeEven)
    let lonOdd := mul fl (div fl (num 90) nOdd) (add fl (modX fl m nOdd) cprLongitudeOdd)
    let quadrantLongitude := if evenDataReceivedAfterOddData then lonEven else lonOdd
    let longitudes := [quadrantLongitude, add fl quadrantLongitude (num 90), add fl quadrantLongitude (num 180), add fl quadrantLongitude (num 270)]
    let longitudesCorrected := longitudes.map fun longitude => sub fl (modX fl (add fl longitude (num 180)) (num 360)) (num 180)
    match nearestLongitudeX fl referenceLongitude longitudesCorrected with
    | .error f => .error f
    | .ok longitude => .ok (latitude, longitude)

/-- `ComputeGroundDistance`, pkg/geo/ground_distance.go:16-32. `math.Pow(x, 2)` is one rounded product. -/
def groundDistanceX (sinF cosF : ℝ → ℝ) (atan2F : ℝ → ℝ → ℝ) (lat1 long1 lat2 long2 : F64) : F64 :=
  let earthRadius := num 6371000
  let phi1 := div fl (mul fl lat1 (num (fl Real.pi))) (num 180)
  let phi2 := div fl (mul fl lat2 (num (fl Real.pi))) (num 180)
  let deltaPhi := div fl (mul fl (sub fl lat2 lat1) (num (fl Real.pi))) (num 180)
  let deltaLambda := div fl (mul fl (sub fl long2 long1) (num (fl Real.pi))) (num 180)
  let s1 := periodic sinF (div fl deltaPhi (num 2))
  let s2 := periodic sinF (div fl deltaLambda (num 2))
  let a := add fl (mul fl s1 s1) (mul fl (mul fl (periodic cosF phi1) (periodic cosF phi2)) (mul fl s2 s2))
  let c := mul fl (num 2) (F64.atan2 atan2F (F64.sqrt fl a) (F64.sqrt fl (sub fl (num 1) a)))
  mul fl earthRadius c

end Geo
end Modes
