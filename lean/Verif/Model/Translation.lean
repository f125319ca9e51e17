import Verif.Model.CommB
import Verif.Model.CRC
import Verif.Model.Bounds
/-!
# The Go functions of `pkg`, translated mechanically

Written by `tools/go2lean/generate.py` from the text of /repo; not edited by hand. Each definition is the Go function of the
same name: statements become `let`s, an `if` whose branch returns becomes `if … then … else …`, a returned error becomes
`fail` (the words of errors are in Model/Errors and Model/ReaderErrors), an index or slice expression may panic, loops with
constant bounds are unrolled and the others are folds over the values of the loop variable. The types are those of the
hand-written model (`tools/go2lean/config.py` gives the correspondence). Props/Translation proves that the hand-written model
and this translation agree.
-/
set_option linter.unusedVariables false
namespace Modes

/-- `a && b` where computing `b` may panic: `b` is not computed when `a` is false. -/
def andGo (a : Bool) (b : Go Bool) : Go Bool := if a then b else .ok false
/-- `a || b` where computing `b` may panic: `b` is not computed when `a` is true. -/
def orGo (a : Bool) (b : Go Bool) : Go Bool := if a then .ok true else b
/-- `s[i] = v` -/
def setIdx {α : Type} (s : List α) (i : Nat) (v : α) : Go (List α) := if i < s.length then .ok (s.set i v) else goPanic
/-- `s[i]` with an index of type `int` -/
def idxI {α : Type} (s : List α) (i : Int) : Go α := if i < 0 then goPanic else idx s i.toNat
/-- `s[:j]` with an index of type `int` -/
def sliceToI {α : Type} (s : List α) (j : Int) : Go (List α) := if j < 0 then goPanic else sliceTo s j.toNat
/-- `s[i:]` with an index of type `int` -/
def sliceFromI {α : Type} (s : List α) (i : Int) : Go (List α) := if i < 0 then goPanic else sliceFrom s i.toNat
/-- `s[i:j]` with indices of type `int` -/
def sliceI {α : Type} (s : List α) (i j : Int) : Go (List α) := if i < 0 ∨ j < 0 then goPanic else slice s i.toNat j.toNat
/-- `x >> n` for a byte -/
def shiftRight8 (x : UInt8) (n : Nat) : UInt8 := if n < 8 then x >>> (UInt8.ofNat n) else 0
/-- `uint(i)` -/
def uintOf (i : Int) : Nat := (i % 2 ^ 64).toNat
/-- A number and the sign it is printed with: where a zero can be negative (`ReadSelectedHeading`) the numbers are written so. -/
def signedOf (q : ℚ) : ℚ × Bool := (q, false)
/-- `-x` -/
def signedNeg (x : ℚ × Bool) : ℚ × Bool := (-x.1, !x.2)
/-- `x * y` in float32: the sign is negative when exactly one is. -/
def signedMul (x y : ℚ × Bool) : ℚ × Bool := (f32 (x.1 * y.1), x.2 != y.2)
/-- `x / y` in float32 -/
def signedDiv (x y : ℚ × Bool) : ℚ × Bool := (f32 (x.1 / y.1), x.2 != y.2)
/-- `m, err := f()` followed by a test of `err == nil`; a panic goes on. -/
def attempt {α : Type} (r : Go α) : Go (Option α) :=
  match r with
  | .ok a => .ok (some a)
  | .error .err => .ok none
  | .error .panic => .error .panic
/-- `f() == nil` for a function returning an error -/
def returnsNil (r : Go Unit) : Bool := match r with | .ok _ => true | .error _ => false

/-- pkg/acas/ra/fields/active_resolution_advisory_one_or_same_separation.go:40-80 -/
def Gen.acas.ra.fields.ReadARAOneThreatOrSameSeparation (data : List UInt8) : Go OneThreat := do
  let preventiveCorrective : Nat := 0
  let preventiveCorrective := if ((← idx data 0) &&& 64) ≠ 0 then
      let preventiveCorrective : Nat := 1
      preventiveCorrective
    else
      preventiveCorrective
  let sense : Nat := 0
  let sense := if ((← idx data 0) &&& 32) ≠ 0 then
      let sense : Nat := 1
      sense
    else
      sense
  let isIncreasedRate : Bool := false
  let isIncreasedRate := if ((← idx data 0) &&& 16) ≠ 0 then
      let isIncreasedRate : Bool := true
      isIncreasedRate
    else
      isIncreasedRate
  let isSenseReversal : Bool := false
  let isSenseReversal := if ((← idx data 0) &&& 8) ≠ 0 then
      let isSenseReversal : Bool := true
      isSenseReversal
    else
      isSenseReversal
  let isAltitudeCrossing : Bool := false
  let isAltitudeCrossing := if ((← idx data 0) &&& 4) ≠ 0 then
      let isAltitudeCrossing : Bool := true
      isAltitudeCrossing
    else
      isAltitudeCrossing
  let verticalSpeedLimitOrPositive : Nat := 0
  let verticalSpeedLimitOrPositive := if ((← idx data 0) &&& 2) ≠ 0 then
      let verticalSpeedLimitOrPositive : Nat := 1
      verticalSpeedLimitOrPositive
    else
      verticalSpeedLimitOrPositive
  return { preventiveCorrective := preventiveCorrective,
           sense := sense,
           isIncreasedRate := isIncreasedRate,
           isSenseReversal := isSenseReversal,
           isAltitudeCrossing := isAltitudeCrossing,
           verticalSpeedLimitOrPositive := verticalSpeedLimitOrPositive : OneThreat }

/-- pkg/acas/ra/fields/active_resolution_advisory_multiple_threats.go:40-80 -/
def Gen.acas.ra.fields.ReadARAMultipleThreatsDifferentSeparation (data : List UInt8) : Go MultipleThreats := do
  let requiresCorrectionUpwardSense : Bool := false
  let requiresCorrectionUpwardSense := if ((← idx data 0) &&& 64) ≠ 0 then
      let requiresCorrectionUpwardSense : Bool := true
      requiresCorrectionUpwardSense
    else
      requiresCorrectionUpwardSense
  let requiresPositiveClimb : Bool := false
  let requiresPositiveClimb := if ((← idx data 0) &&& 32) ≠ 0 then
      let requiresPositiveClimb : Bool := true
      requiresPositiveClimb
    else
      requiresPositiveClimb
  let requiresCorrectionDownwardSense : Bool := false
  let requiresCorrectionDownwardSense := if ((← idx data 0) &&& 16) ≠ 0 then
      let requiresCorrectionDownwardSense : Bool := true
      requiresCorrectionDownwardSense
    else
      requiresCorrectionDownwardSense
  let requiresPositiveDescend : Bool := false
  let requiresPositiveDescend := if ((← idx data 0) &&& 8) ≠ 0 then
      let requiresPositiveDescend : Bool := true
      requiresPositiveDescend
    else
      requiresPositiveDescend
  let requiresCrossing : Bool := false
  let requiresCrossing := if ((← idx data 0) &&& 4) ≠ 0 then
      let requiresCrossing : Bool := true
      requiresCrossing
    else
      requiresCrossing
  let isSenseReversal : Bool := false
  let isSenseReversal := if ((← idx data 0) &&& 2) ≠ 0 then
      let isSenseReversal : Bool := true
      isSenseReversal
    else
      isSenseReversal
  return { requiresCorrectionUpwardSense := requiresCorrectionUpwardSense,
           requiresPositiveClimb := requiresPositiveClimb,
           requiresCorrectionDownwardSense := requiresCorrectionDownwardSense,
           requiresPositiveDescend := requiresPositiveDescend,
           requiresCrossing := requiresCrossing,
           isSenseReversal := isSenseReversal : MultipleThreats }

/-- pkg/acas/ra/fields/active_resolution_advisory.go:26-40 -/
def Gen.acas.ra.fields.ReadActiveResolutionAdvisory (data : List UInt8) : Go ActiveRA := do
  let mte := ((← idx data 2) &&& 16) >>> 4
  let araFirstBit := ((← idx data 0) &&& 128) >>> 7
  if araFirstBit = 1 then
    return ActiveRA.oneThreat (← Gen.acas.ra.fields.ReadARAOneThreatOrSameSeparation data)
  else
    if mte ≠ 0 then
      return ActiveRA.multiple (← Gen.acas.ra.fields.ReadARAMultipleThreatsDifferentSeparation data)
    else
      return .none

/-- pkg/acas/ra/fields/active_resolution_advisory_multiple_threats.go:18-20 -/
def Gen.acas.ra.fields.ActiveRAMultipleThreatsDifferentSeparation.GetType (multipleThreatsDifferentSeparation : MultipleThreats) : Nat :=
  1

/-- pkg/acas/ra/fields/active_resolution_advisory_no.go:9-11 -/
def Gen.acas.ra.fields.ActiveRANoVerticalRAGenerated.GetType (noVerticalRAGenerated : ActiveRA) : Nat :=
  2

/-- pkg/acas/ra/fields/active_resolution_advisory_one_or_same_separation.go:18-20 -/
def Gen.acas.ra.fields.ActiveRAOneThreatOrSameSeparation.GetType (oneThreatOrSameSeparation : OneThreat) : Nat :=
  0

/-- pkg/acas/ra/fields/multiple_threat_encounter.go:31-39 -/
def Gen.acas.ra.fields.ReadMultipleThreatEncounter (data : List UInt8) : Go UInt8 := do
  let mte : UInt8 := 0
  let mte := if (((← idx data 2) &&& 16) >>> 4) ≠ 0 then
      let mte : UInt8 := 1
      mte
    else
      mte
  return mte

/-- pkg/acas/ra/fields/resolution_advisory_complement.go:30-38 -/
def Gen.acas.ra.fields.ReadRAComplement (data : List UInt8) : Go RAComplement := do
  return { doNotPassBelow := ((← idx data 1) &&& 2) != 0,
           doNotPassAbove := ((← idx data 1) &&& 1) != 0,
           doNotTurnLeft := ((← idx data 2) &&& 128) != 0,
           doNotTurnRight := ((← idx data 2) &&& 64) != 0 : RAComplement }

/-- pkg/acas/ra/fields/resolution_advisory_terminated.go:30-38 -/
def Gen.acas.ra.fields.ReadRATerminatedIndicator (data : List UInt8) : Go Nat := do
  let rat : Nat := 0
  let rat := if ((← idx data 2) &&& 32) ≠ 0 then
      let rat : Nat := 1
      rat
    else
      rat
  return rat

/-- pkg/bitutils/bitutils.go:41-43 -/
def Gen.bitutils.Pack4Bytes (b3 : UInt8) (b2 : UInt8) (b1 : UInt8) (b0 : UInt8) : UInt32 :=
  (((b3.toUInt32 <<< 24) + (b2.toUInt32 <<< 16)) + (b1.toUInt32 <<< 8)) + b0.toUInt32

/-- pkg/acas/ra/fields/threat_identity_address.go:21-26 -/
def Gen.acas.ra.fields.ReadThreatIdentityAddress (data : List UInt8) : Go UInt32 := do
  let bits := Gen.bitutils.Pack4Bytes (← idx data 2) (← idx data 3) (← idx data 4) (← idx data 5)
  let bits := (bits >>> 2) &&& 16777215
  return bits

/-- pkg/bitutils/gillham.go:70-79 -/
def Gen.bitutils.grayToBinary (num : UInt16) : UInt16 :=
  let temp : UInt16 := 0
  let temp := num ^^^ (num >>> 8)
  let temp := temp ^^^ (temp >>> 4)
  let temp := temp ^^^ (temp >>> 2)
  let temp := temp ^^^ (temp >>> 1)
  temp

/-- pkg/bitutils/gillham.go:6-68 -/
def Gen.bitutils.GillhamToAltitude (d1 : Bool) (d2 : Bool) (d4 : Bool) (a1 : Bool) (a2 : Bool) (a4 : Bool) (b1 : Bool) (b2 : Bool) (b4 : Bool) (c1 : Bool) (c2 : Bool) (c4 : Bool) : Go Int := do
  let fiveHundredBits : UInt16 := 0
  let fiveHundredBits := if d1 then
      let fiveHundredBits := fiveHundredBits ||| 256
      fiveHundredBits
    else
      fiveHundredBits
  let fiveHundredBits := if d2 then
      let fiveHundredBits := fiveHundredBits ||| 128
      fiveHundredBits
    else
      fiveHundredBits
  let fiveHundredBits := if d4 then
      let fiveHundredBits := fiveHundredBits ||| 64
      fiveHundredBits
    else
      fiveHundredBits
  let fiveHundredBits := if a1 then
      let fiveHundredBits := fiveHundredBits ||| 32
      fiveHundredBits
    else
      fiveHundredBits
  let fiveHundredBits := if a2 then
      let fiveHundredBits := fiveHundredBits ||| 16
      fiveHundredBits
    else
      fiveHundredBits
  let fiveHundredBits := if a4 then
      let fiveHundredBits := fiveHundredBits ||| 8
      fiveHundredBits
    else
      fiveHundredBits
  let fiveHundredBits := if b1 then
      let fiveHundredBits := fiveHundredBits ||| 4
      fiveHundredBits
    else
      fiveHundredBits
  let fiveHundredBits := if b2 then
      let fiveHundredBits := fiveHundredBits ||| 2
      fiveHundredBits
    else
      fiveHundredBits
  let fiveHundredBits := if b4 then
      let fiveHundredBits := fiveHundredBits ||| 1
      fiveHundredBits
    else
      fiveHundredBits
  let oneHundredBits : UInt16 := 0
  let oneHundredBits := if c1 then
      let oneHundredBits := oneHundredBits ||| 4
      oneHundredBits
    else
      oneHundredBits
  let oneHundredBits := if c2 then
      let oneHundredBits := oneHundredBits ||| 2
      oneHundredBits
    else
      oneHundredBits
  let oneHundredBits := if c4 then
      let oneHundredBits := oneHundredBits ||| 1
      oneHundredBits
    else
      oneHundredBits
  let oneHundred := ((Gen.bitutils.grayToBinary oneHundredBits).toNat : Int)
  let fiveHundred := ((Gen.bitutils.grayToBinary fiveHundredBits).toNat : Int)
  if (oneHundred = 5 ∨ oneHundred = 6) ∨ oneHundred = 0 then fail
  let oneHundred := if oneHundred = 7 then
      let oneHundred : Int := 5
      oneHundred
    else
      oneHundred
  let oneHundred := if (Int.tmod fiveHundred 2) ≠ 0 then
      let oneHundred := 6 - oneHundred
      oneHundred
    else
      oneHundred
  return ((fiveHundred * 500) + (oneHundred * 100)) - 1300

/-- pkg/acas/ra/fields/threat_identity_altitude.go:26-72 -/
def Gen.acas.ra.fields.ReadThreatIdentityAltitude (data : List UInt8) : Go ThreatAltitude := do
  let altitudeCode := (((← idx data 4) &&& 224).toUInt16) >>> 5
  let altitudeCode := altitudeCode + ((((← idx data 3) &&& 7).toUInt16) <<< 3)
  let altitudeCode := altitudeCode + ((((← idx data 3) &&& 240).toUInt16) <<< 2)
  let altitudeCode := altitudeCode + ((((← idx data 2) &&& 3).toUInt16) <<< 2)
  if altitudeCode = 0 then
    return { status := 0, feet := 0 : ThreatAltitude }
  else
    let c1 := (altitudeCode &&& 2048) != 0
    let a1 := (altitudeCode &&& 1024) != 0
    let c2 := (altitudeCode &&& 512) != 0
    let a2 := (altitudeCode &&& 256) != 0
    let c4 := (altitudeCode &&& 128) != 0
    let a4 := (altitudeCode &&& 64) != 0
    let b1 := (altitudeCode &&& 32) != 0
    let d1 := (altitudeCode &&& 16) != 0
    let b2 := (altitudeCode &&& 8) != 0
    let d2 := (altitudeCode &&& 4) != 0
    let b4 := (altitudeCode &&& 2) != 0
    let d4 := (altitudeCode &&& 1) != 0
    let altitudeFeet ← Gen.bitutils.GillhamToAltitude d1 d2 d4 a1 a2 a4 b1 b2 b4 c1 c2 c4
    return { status := 1, feet := altitudeFeet : ThreatAltitude }

/-- pkg/acas/ra/fields/threat_identity_bearing.go:31-39 -/
def Gen.acas.ra.fields.ThreatIdentityBearing.GetBearing (threatBearing : UInt8) : Int :=
  if threatBearing = 0 then
    0
  else
    if threatBearing ≥ 61 then
      363
    else
      ((threatBearing.toNat : Int) * 6) - 3

/-- pkg/acas/ra/fields/threat_identity_bearing.go:42-46 -/
def Gen.acas.ra.fields.ReadThreatIdentityBearing (data : List UInt8) : Go UInt8 := do
  let bits := (← idx data 5) &&& 63
  return bits

/-- pkg/acas/ra/fields/threat_identity_range.go:29-37 -/
def Gen.acas.ra.fields.ThreatIdentityRange.GetRange (threatRange : UInt8) : ℚ :=
  if threatRange = 0 ∨ threatRange = 1 then
    0
  else
    if threatRange ≥ 127 then
      f64 (63 / 5)
    else
      f64 ((f64 ((f64 (threatRange.toNat : ℚ)) - 1)) / 10)

/-- pkg/acas/ra/fields/threat_identity_range.go:40-44 -/
def Gen.acas.ra.fields.ReadThreatIdentityRange (data : List UInt8) : Go UInt8 := do
  let bits := (((← idx data 4) &&& 31) <<< 2) + (((← idx data 5) &&& 160) >>> 6)
  return bits

/-- pkg/acas/ra/fields/threat_type_indicator.go:38-42 -/
def Gen.acas.ra.fields.ReadThreatTypeIndicator (data : List UInt8) : Go Nat := do
  let bits := ((← idx data 2) &&& 12) >>> 2
  return bits.toNat

/-- pkg/acas/ra/resolution_advisory.go:76-123 -/
def Gen.acas.ra.ReadResolutionAdvisory (data : List UInt8) : Go ResolutionAdvisory := do
  if data.length ≠ 6 then fail
  let threatIdentityAddress : Option UInt32 := none
  let threatIdentityAltitude : Option ThreatAltitude := none
  let threatIdentityRange : Option UInt8 := none
  let threatIdentityBearing : Option UInt8 := none
  let threatTypeIndicator ← Gen.acas.ra.fields.ReadThreatTypeIndicator data
  if threatTypeIndicator = 1 then
    let address : UInt32 := (← Gen.acas.ra.fields.ReadThreatIdentityAddress data)
    let threatIdentityAddress := some address
    return { activeRA := (← Gen.acas.ra.fields.ReadActiveResolutionAdvisory data),
             raComplement := (← Gen.acas.ra.fields.ReadRAComplement data),
             raTerminatedIndicator := (← Gen.acas.ra.fields.ReadRATerminatedIndicator data),
             multipleThreatEncounter := (← Gen.acas.ra.fields.ReadMultipleThreatEncounter data),
             threatTypeIndicator := threatTypeIndicator,
             threatIdentityAddress := threatIdentityAddress,
             threatIdentityAltitude := threatIdentityAltitude,
             threatIdentityRange := threatIdentityRange,
             threatIdentityBearing := threatIdentityBearing : ResolutionAdvisory }
  else
    if threatTypeIndicator = 2 then
      let threatAltitude ← Gen.acas.ra.fields.ReadThreatIdentityAltitude data
      let threatRange : UInt8 := (← Gen.acas.ra.fields.ReadThreatIdentityRange data)
      let threatBearing : UInt8 := (← Gen.acas.ra.fields.ReadThreatIdentityBearing data)
      let threatIdentityAltitude := some threatAltitude
      let threatIdentityRange := some threatRange
      let threatIdentityBearing := some threatBearing
      return { activeRA := (← Gen.acas.ra.fields.ReadActiveResolutionAdvisory data),
               raComplement := (← Gen.acas.ra.fields.ReadRAComplement data),
               raTerminatedIndicator := (← Gen.acas.ra.fields.ReadRATerminatedIndicator data),
               multipleThreatEncounter := (← Gen.acas.ra.fields.ReadMultipleThreatEncounter data),
               threatTypeIndicator := threatTypeIndicator,
               threatIdentityAddress := threatIdentityAddress,
               threatIdentityAltitude := threatIdentityAltitude,
               threatIdentityRange := threatIdentityRange,
               threatIdentityBearing := threatIdentityBearing : ResolutionAdvisory }
    else
      return { activeRA := (← Gen.acas.ra.fields.ReadActiveResolutionAdvisory data),
               raComplement := (← Gen.acas.ra.fields.ReadRAComplement data),
               raTerminatedIndicator := (← Gen.acas.ra.fields.ReadRATerminatedIndicator data),
               multipleThreatEncounter := (← Gen.acas.ra.fields.ReadMultipleThreatEncounter data),
               threatTypeIndicator := threatTypeIndicator,
               threatIdentityAddress := threatIdentityAddress,
               threatIdentityAltitude := threatIdentityAltitude,
               threatIdentityRange := threatIdentityRange,
               threatIdentityBearing := threatIdentityBearing : ResolutionAdvisory }

/-- pkg/bds/bds05/fields/altitude.go:54-109 -/
def Gen.bds.bds05.fields.ReadAltitude (data : List UInt8) : Go (Int × Nat × Nat) := do
  let source : Nat := 0
  let format := ((← idx data 0) &&& 248) >>> 3
  let source := if 20 ≤ format ∧ format ≤ 22 then
      let source : Nat := 1
      source
    else
      source
  let qBit := ((← idx data 1) &&& 1) != 0
  if qBit then
    let n : UInt16 := 0
    let n := n ||| ((((← idx data 1) &&& 254).toUInt16) <<< 3)
    let n := n ||| ((((← idx data 2) &&& 240).toUInt16) >>> 4)
    return ((25 * (n.toNat : Int)) - 1000, source, 1)
  else
    let c1 := ((← idx data 1) &&& 128) != 0
    let a1 := ((← idx data 1) &&& 64) != 0
    let c2 := ((← idx data 1) &&& 32) != 0
    let a2 := ((← idx data 1) &&& 16) != 0
    let c4 := ((← idx data 1) &&& 8) != 0
    let a4 := ((← idx data 1) &&& 4) != 0
    let b1 := ((← idx data 1) &&& 2) != 0
    let b2 := ((← idx data 2) &&& 128) != 0
    let d2 := ((← idx data 2) &&& 64) != 0
    let b4 := ((← idx data 2) &&& 32) != 0
    let d4 := ((← idx data 2) &&& 16) != 0
    let altitudeFeet ← Gen.bitutils.GillhamToAltitude false d2 d4 a1 a2 a4 b1 b2 b4 c1 c2 c4
    return (altitudeFeet, source, 0)

/-- pkg/bds/bds05/fields/surveillance_status.go:39-42 -/
def Gen.bds.bds05.fields.ReadSurveillanceStatus (data : List UInt8) : Go UInt8 := do
  let bits := ((← idx data 0) &&& 6) >>> 1
  return bits

/-- pkg/bds/bds05/fields/single_antenna_flag.go:31-34 -/
def Gen.bds.bds05.fields.ReadSingleAntennaFlag (data : List UInt8) : Go UInt8 := do
  let bits := (← idx data 0) &&& 1
  return bits

/-- pkg/bds/bds05/fields/time.go:31-34 -/
def Gen.bds.bds05.fields.ReadTime (data : List UInt8) : Go UInt8 := do
  let bits := ((← idx data 2) &&& 8) >>> 3
  return bits

/-- pkg/bds/bds05/fields/compact_position_reporting_format.go:31-34 -/
def Gen.bds.bds05.fields.ReadCompactPositionReportingFormat (data : List UInt8) : Go UInt8 := do
  let bits := ((← idx data 2) &&& 4) >>> 2
  return bits

/-- pkg/bitutils/bitutils.go:26-28 -/
def Gen.bitutils.Pack3Bytes (b2 : UInt8) (b1 : UInt8) (b0 : UInt8) : UInt32 :=
  ((b2.toUInt32 <<< 16) + (b1.toUInt32 <<< 8)) + b0.toUInt32

/-- pkg/bds/bds05/fields/encoded_latitude.go:8-15 -/
def Gen.bds.bds05.fields.ReadEncodedLatitude (data : List UInt8) : Go UInt32 := do
  let b2 := (← idx data 2) &&& 3
  let b1 ← idx data 3
  let b0 := (← idx data 4) &&& 254
  return (Gen.bitutils.Pack3Bytes b2 b1 b0) >>> 1

/-- pkg/bds/bds05/fields/encoded_longitude.go:8-15 -/
def Gen.bds.bds05.fields.ReadEncodedLongitude (data : List UInt8) : Go UInt32 := do
  let b2 := (← idx data 4) &&& 1
  let b1 ← idx data 5
  let b0 ← idx data 6
  return Gen.bitutils.Pack3Bytes b2 b1 b0

/-- pkg/bds/bds05/airborne_position.go:60-89 -/
def Gen.bds.bds05.ReadAirbornePosition (data : List UInt8) : Go AirbornePosition := do
  if data.length ≠ 7 then fail
  let formatTypeCode := ((← idx data 0) &&& 248) >>> 3
  if (formatTypeCode < 9 ∨ formatTypeCode > 22) ∨ formatTypeCode = 19 then fail
  let (altitude, altitudeSource, altitudeReportMethod) ← Gen.bds.bds05.fields.ReadAltitude data
  return { formatTypeCode := formatTypeCode,
           surveillanceStatus := (← Gen.bds.bds05.fields.ReadSurveillanceStatus data),
           singleAntennaFlag := (← Gen.bds.bds05.fields.ReadSingleAntennaFlag data),
           altitudeSource := altitudeSource,
           altitudeReportMethod := altitudeReportMethod,
           altitudeInFeet := altitude,
           time := (← Gen.bds.bds05.fields.ReadTime data),
           cprFormat := (← Gen.bds.bds05.fields.ReadCompactPositionReportingFormat data),
           encodedLatitude := (← Gen.bds.bds05.fields.ReadEncodedLatitude data),
           encodedLongitude := (← Gen.bds.bds05.fields.ReadEncodedLongitude data) : AirbornePosition }

/-- pkg/adsb/airborne_position/airborne_position_type_0.go:37-54 -/
def Gen.adsb.airborne_position.ReadAirbornePositionType0 (adsbVersion : UInt8) (data : List UInt8) : Go ADSBMessage := do
  let dataTmp := [176, (← idx data 1), (← idx data 2), (← idx data 3), (← idx data 4), (← idx data 5), (← idx data 6)]
  let bds ← Gen.bds.bds05.ReadAirbornePosition dataTmp
  let bds := { bds with formatTypeCode := 0 }
  return .airborneType0 bds 0 adsbVersion

/-- pkg/adsb/airborne_position/airborne_position_v0.go:38-50 -/
def Gen.adsb.airborne_position.ReadAirbornePositionV0 (data : List UInt8) : Go ADSBMessage := do
  let bds ← Gen.bds.bds05.ReadAirbornePosition data
  return .airborneV0 bds bds.formatTypeCode bds.formatTypeCode

/-- pkg/adsb/airborne_position/airborne_position_v1.go:58-100 -/
def Gen.adsb.airborne_position.getHCRAndNICForV1 (formatTypeCode : UInt8) (nicSupplementA : Bool) : UInt8 × UInt8 :=
  if formatTypeCode = 9 then
    (9, 11)
  else
    if formatTypeCode = 10 then
      (10, 10)
    else
      if formatTypeCode = 11 then
        if nicSupplementA then
          (111, 9)
        else
          (11, 8)
      else
        if formatTypeCode = 12 then
          (12, 7)
        else
          if formatTypeCode = 13 then
            if nicSupplementA then
              (113, 6)
            else
              (13, 6)
          else
            if formatTypeCode = 14 then
              (14, 5)
            else
              if formatTypeCode = 15 then
                (15, 4)
              else
                if formatTypeCode = 16 then
                  if nicSupplementA then
                    (116, 3)
                  else
                    (16, 2)
                else
                  if formatTypeCode = 17 then
                    (17, 1)
                  else
                    if formatTypeCode = 18 then
                      (18, 0)
                    else
                      if formatTypeCode = 20 then
                        (0, 11)
                      else
                        if formatTypeCode = 21 then
                          (1, 10)
                        else
                          (2, 0)

/-- pkg/adsb/airborne_position/airborne_position_v1.go:41-56 -/
def Gen.adsb.airborne_position.ReadAirbornePositionV1 (data : List UInt8) (nicSupplementA : Bool) : Go ADSBMessage := do
  let bds ← Gen.bds.bds05.ReadAirbornePosition data
  let (hcr, nic) := Gen.adsb.airborne_position.getHCRAndNICForV1 bds.formatTypeCode nicSupplementA
  return .airborneV1 bds nicSupplementA hcr nic

/-- pkg/adsb/airborne_position/fields/navigation_integrity_code_supplement_b.go:31-34 -/
def Gen.adsb.airborne_position.fields.ReadNavigationIntegritySupplementB (data : List UInt8) : Go UInt8 := do
  let bits := (← idx data 0) &&& 1
  return bits

/-- pkg/adsb/airborne_position/airborne_position_v2.go:64-111 -/
def Gen.adsb.airborne_position.getHCRAndNICForV2 (formatTypeCode : UInt8) (nicSupplementA : Bool) (nicSupplementB : UInt8) : UInt8 × UInt8 :=
  if formatTypeCode = 9 then
    (9, 11)
  else
    if formatTypeCode = 10 then
      (10, 10)
    else
      if formatTypeCode = 11 then
        if nicSupplementA then
          (111, 9)
        else
          (11, 8)
      else
        if formatTypeCode = 12 then
          (12, 7)
        else
          if formatTypeCode = 13 then
            if !nicSupplementA then
              if nicSupplementB = 1 then
                (213, 6)
              else
                (13, 6)
            else
              (113, 6)
          else
            if formatTypeCode = 14 then
              (14, 5)
            else
              if formatTypeCode = 15 then
                (15, 4)
              else
                if formatTypeCode = 16 then
                  if nicSupplementA then
                    (116, 3)
                  else
                    (16, 2)
                else
                  if formatTypeCode = 17 then
                    (17, 1)
                  else
                    if formatTypeCode = 18 then
                      (18, 0)
                    else
                      if formatTypeCode = 20 then
                        (20, 11)
                      else
                        if formatTypeCode = 21 then
                          (21, 10)
                        else
                          (22, 0)

/-- pkg/adsb/airborne_position/airborne_position_v2.go:44-62 -/
def Gen.adsb.airborne_position.ReadAirbornePositionV2 (data : List UInt8) (nicSupplementA : Bool) : Go ADSBMessage := do
  let bds ← Gen.bds.bds05.ReadAirbornePosition data
  let nicSupplementB ← Gen.adsb.airborne_position.fields.ReadNavigationIntegritySupplementB data
  let (hcr, nic) := Gen.adsb.airborne_position.getHCRAndNICForV2 bds.formatTypeCode nicSupplementA nicSupplementB
  return .airborneV2 bds nicSupplementA nicSupplementB hcr nic

/-- pkg/adsb/airborne_position/airborne_position.go:9-25 -/
def Gen.adsb.airborne_position.ReadAirbornePosition (adsbVersion : UInt8) (data : List UInt8) (nicSupplementA : Bool) : Go ADSBMessage := do
  if (← idx data 0) = 0 then
    Gen.adsb.airborne_position.ReadAirbornePositionType0 adsbVersion data
  else
    if adsbVersion = 0 then
      Gen.adsb.airborne_position.ReadAirbornePositionV0 data
    else
      if adsbVersion = 1 then
        Gen.adsb.airborne_position.ReadAirbornePositionV1 data nicSupplementA
      else
        if adsbVersion = 2 then
          Gen.adsb.airborne_position.ReadAirbornePositionV2 data nicSupplementA
        else
          fail

/-- pkg/adsb/airborne_position/airborne_position_type_0.go:19-21 -/
def Gen.adsb.airborne_position.AirbornePositionType0.GetADSBVersion (airbornePosition : AirbornePosition) (navigationIntegrityCategory : UInt8) (adsbVersion : UInt8) : UInt8 :=
  adsbVersion

/-- pkg/bds/bds05/airborne_position.go:29-31 -/
def Gen.bds.bds05.AirbornePosition.CheckCoherency (message : AirbornePosition) : Go Unit := do
  return ()

/-- pkg/adsb/airborne_position/airborne_position_type_0.go:24-26 -/
def Gen.adsb.airborne_position.AirbornePositionType0.CheckCoherency (airbornePosition : AirbornePosition) (navigationIntegrityCategory : UInt8) (adsbVersion : UInt8) : Go Unit := do
  Gen.bds.bds05.AirbornePosition.CheckCoherency airbornePosition

/-- pkg/adsb/airborne_position/airborne_position_v0.go:18-20 -/
def Gen.adsb.airborne_position.AirbornePositionV0.GetADSBVersion (airbornePosition : AirbornePosition) (horizontalProtectionLimit : UInt8) (containmentRadius : UInt8) : UInt8 :=
  0

/-- pkg/adsb/airborne_position/airborne_position_v0.go:23-25 -/
def Gen.adsb.airborne_position.AirbornePositionV0.CheckCoherency (airbornePosition : AirbornePosition) (horizontalProtectionLimit : UInt8) (containmentRadius : UInt8) : Go Unit := do
  Gen.bds.bds05.AirbornePosition.CheckCoherency airbornePosition

/-- pkg/adsb/airborne_position/airborne_position_v1.go:19-21 -/
def Gen.adsb.airborne_position.AirbornePositionV1.GetADSBVersion (airbornePosition : AirbornePosition) (navigationIntegrityCodeSupplementA : Bool) (horizontalContainmentRadius : UInt8) (navigationIntegrityCategory : UInt8) : UInt8 :=
  1

/-- pkg/adsb/airborne_position/airborne_position_v1.go:24-26 -/
def Gen.adsb.airborne_position.AirbornePositionV1.CheckCoherency (airbornePosition : AirbornePosition) (navigationIntegrityCodeSupplementA : Bool) (horizontalContainmentRadius : UInt8) (navigationIntegrityCategory : UInt8) : Go Unit := do
  Gen.bds.bds05.AirbornePosition.CheckCoherency airbornePosition

/-- pkg/adsb/airborne_position/airborne_position_v2.go:20-22 -/
def Gen.adsb.airborne_position.AirbornePositionV2.GetADSBVersion (airbornePosition : AirbornePosition) (navigationIntegrityCodeSupplementA : Bool) (navigationIntegrityCodeSupplementB : UInt8) (horizontalContainmentRadius : UInt8) (navigationIntegrityCategory : UInt8) : UInt8 :=
  2

/-- pkg/adsb/airborne_position/airborne_position_v2.go:25-27 -/
def Gen.adsb.airborne_position.AirbornePositionV2.CheckCoherency (airbornePosition : AirbornePosition) (navigationIntegrityCodeSupplementA : Bool) (navigationIntegrityCodeSupplementB : UInt8) (horizontalContainmentRadius : UInt8) (navigationIntegrityCategory : UInt8) : Go Unit := do
  Gen.bds.bds05.AirbornePosition.CheckCoherency airbornePosition

/-- pkg/adsb/airborne_velocity/airborne_velocity.go:15-17 -/
def Gen.adsb.airborne_velocity.AirborneVelocity.GetADSBVersion (airborneVelocity : AirborneVelocity) (adsbVersion : UInt8) : UInt8 :=
  adsbVersion

/-- pkg/bds/bds09/airborne_velocity_ground_speed_normal.go:42-44 -/
def Gen.bds.bds09.AirborneVelocityGroundSpeedNormal.CheckCoherency (message : GroundSpeedVelocity) : Go Unit := do
  return ()

/-- pkg/bds/bds09/airborne_velocity_ground_speed_supersonic.go:42-44 -/
def Gen.bds.bds09.AirborneVelocityGroundSpeedSupersonic.CheckCoherency (message : GroundSpeedVelocity) : Go Unit := do
  return ()

/-- pkg/bds/bds09/airborne_velocity_air_speed_normal.go:38-40 -/
def Gen.bds.bds09.AirborneVelocityAirSpeedNormal.CheckCoherency (message : AirSpeedVelocity) : Go Unit := do
  return ()

/-- pkg/bds/bds09/airborne_velocity_air_speed_supersonic.go:38-40 -/
def Gen.bds.bds09.AirborneVelocityAirSpeedSupersonic.CheckCoherency (message : AirSpeedVelocity) : Go Unit := do
  return ()

/-- The method CheckCoherency called through the interface pkg/bds/bds09.AirborneVelocity; its implementations are in pkg/bds/bds09/airborne_velocity_air_speed_normal.go, pkg/bds/bds09/airborne_velocity_air_speed_supersonic.go, pkg/bds/bds09/airborne_velocity_ground_speed_normal.go, pkg/bds/bds09/airborne_velocity_ground_speed_supersonic.go. -/
def Gen.bds.bds09.AirborneVelocity.CheckCoherency : AirborneVelocity → Go Unit
  | .groundSpeedNormal x => Gen.bds.bds09.AirborneVelocityGroundSpeedNormal.CheckCoherency x
  | .groundSpeedSupersonic x => Gen.bds.bds09.AirborneVelocityGroundSpeedSupersonic.CheckCoherency x
  | .airSpeedNormal x => Gen.bds.bds09.AirborneVelocityAirSpeedNormal.CheckCoherency x
  | .airSpeedSupersonic x => Gen.bds.bds09.AirborneVelocityAirSpeedSupersonic.CheckCoherency x

/-- pkg/adsb/airborne_velocity/airborne_velocity.go:20-22 -/
def Gen.adsb.airborne_velocity.AirborneVelocity.CheckCoherency (airborneVelocity : AirborneVelocity) (adsbVersion : UInt8) : Go Unit := do
  Gen.bds.bds09.AirborneVelocity.CheckCoherency airborneVelocity

/-- pkg/bds/bds09/fields/subtype.go:41-44 -/
def Gen.bds.bds09.fields.ReadSubtype (data : List UInt8) : Go UInt8 := do
  let bits := (← idx data 0) &&& 7
  return bits

/-- pkg/bitutils/bitutils.go:12-14 -/
def Gen.bitutils.Pack2Bytes (b1 : UInt8) (b0 : UInt8) : UInt16 :=
  (b1.toUInt16 <<< 8) + b0.toUInt16

/-- pkg/bds/bds09/fields/velocity_ew.go:40-52 -/
def Gen.bds.bds09.fields.ReadVelocityEWNormal (data : List UInt8) : Go (UInt16 × NumericValueStatus) := do
  let byte1 := (← idx data 1) &&& 3
  let byte2 ← idx data 2
  let velocity := Gen.bitutils.Pack2Bytes byte1 byte2
  if velocity = 0 then
    return (0, .noInformation)
  else
    if velocity ≥ 1023 then
      return (1023, .maximum)
    else
      return (velocity - 1, .regular)

/-- pkg/bds/bds09/fields/velocity_ns.go:40-52 -/
def Gen.bds.bds09.fields.ReadVelocityNSNormal (data : List UInt8) : Go (UInt16 × NumericValueStatus) := do
  let byte1 := (← idx data 3) &&& 127
  let byte2 := (← idx data 4) &&& 224
  let velocity := (Gen.bitutils.Pack2Bytes byte1 byte2) >>> 5
  if velocity = 0 then
    return (0, .noInformation)
  else
    if velocity ≥ 1023 then
      return (1023, .maximum)
    else
      return (velocity - 1, .regular)

/-- pkg/bds/bds09/fields/vertical_rate.go:8-32 -/
def Gen.bds.bds09.fields.ReadVerticalRate (data : List UInt8) : Go (Int × NumericValueStatus) := do
  let negative := ((← idx data 4) &&& 8) != 0
  let byte1 := (← idx data 4) &&& 7
  let byte2 := (← idx data 5) &&& 252
  let rate := wrap16 ((Gen.bitutils.Pack2Bytes byte1 byte2) >>> 2).toNat
  if rate = 0 then
    return (0, .noInformation)
  else
    if rate ≥ 511 then
      if negative then
        return ((-32640), .maximum)
      else
        return (32640, .maximum)
    else
      let rate := wrap16 ((wrap16 (rate - 1)) * 64)
      let rate := if negative then
          let rate := wrap16 (-rate)
          rate
        else
          rate
      return (rate, .regular)

/-- pkg/bds/bds09/fields/height_difference.go:4-26 -/
def Gen.bds.bds09.fields.ReadHeightDifference (data : List UInt8) : Go (Int × NumericValueStatus) := do
  let negative := ((← idx data 6) &&& 128) != 0
  let difference := wrap16 ((← idx data 6) &&& 127).toNat
  if difference = 0 then
    return (0, .noInformation)
  else
    if difference ≥ 127 then
      if negative then
        return ((-3150), .maximum)
      else
        return (3150, .maximum)
    else
      let difference := wrap16 ((wrap16 (difference - 1)) * 25)
      let difference := if negative then
          let difference := wrap16 (-difference)
          difference
        else
          difference
      return (difference, .regular)

/-- pkg/bds/bds09/fields/intent_change.go:31-34 -/
def Gen.bds.bds09.fields.ReadIntentChange (data : List UInt8) : Go UInt8 := do
  let bits := ((← idx data 1) &&& 128) >>> 7
  return bits

/-- pkg/bds/bds09/fields/ifr_capability.go:33-36 -/
def Gen.bds.bds09.fields.ReadIFRCapability (data : List UInt8) : Go UInt8 := do
  let bits := ((← idx data 1) &&& 64) >>> 6
  return bits

/-- pkg/bds/bds09/fields/navigation_uncertainty_category.go:55-58 -/
def Gen.bds.bds09.fields.ReadNavigationUncertaintyCategory (data : List UInt8) : Go UInt8 := do
  let bits := ((← idx data 1) &&& 56) >>> 3
  return bits

/-- pkg/bds/bds09/fields/velocity_ew.go:34-37 -/
def Gen.bds.bds09.fields.ReadDirectionEastWest (data : List UInt8) : Go UInt8 := do
  let bits := ((← idx data 1) &&& 4) >>> 2
  return bits

/-- pkg/bds/bds09/fields/velocity_ns.go:34-37 -/
def Gen.bds.bds09.fields.ReadDirectionNorthSouth (data : List UInt8) : Go UInt8 := do
  let bits := ((← idx data 3) &&& 128) >>> 7
  return bits

/-- pkg/bds/bds09/fields/vertical_rate_source.go:31-34 -/
def Gen.bds.bds09.fields.ReadVerticalRateSource (data : List UInt8) : Go UInt8 := do
  let bits := ((← idx data 4) &&& 16) >>> 4
  return bits

/-- pkg/bds/bds09/airborne_velocity_ground_speed_normal.go:88-127 -/
def Gen.bds.bds09.ReadAirborneVelocityGroundSpeedNormal (data : List UInt8) : Go GroundSpeedVelocity := do
  if data.length ≠ 7 then fail
  let formatTypeCode := ((← idx data 0) &&& 248) >>> 3
  if formatTypeCode ≠ 19 then fail
  let subType ← Gen.bds.bds09.fields.ReadSubtype data
  if subType ≠ 1 then fail
  let (velocityEW, velocityEWStatus) ← Gen.bds.bds09.fields.ReadVelocityEWNormal data
  let (velocityNS, velocityNSStatus) ← Gen.bds.bds09.fields.ReadVelocityNSNormal data
  let (verticalRate, verticalRateStatus) ← Gen.bds.bds09.fields.ReadVerticalRate data
  let (diffBaro, diffBaroStatus) ← Gen.bds.bds09.fields.ReadHeightDifference data
  return { formatTypeCode := formatTypeCode,
           subtype := subType,
           intentChange := (← Gen.bds.bds09.fields.ReadIntentChange data),
           ifrCapability := (← Gen.bds.bds09.fields.ReadIFRCapability data),
           navigationUncertaintyCategory := (← Gen.bds.bds09.fields.ReadNavigationUncertaintyCategory data),
           directionEastWest := (← Gen.bds.bds09.fields.ReadDirectionEastWest data),
           velocityEWStatus := velocityEWStatus,
           velocityEW := velocityEW,
           directionNorthSouth := (← Gen.bds.bds09.fields.ReadDirectionNorthSouth data),
           velocityNSStatus := velocityNSStatus,
           velocityNS := velocityNS,
           verticalRateSource := (← Gen.bds.bds09.fields.ReadVerticalRateSource data),
           verticalRateStatus := verticalRateStatus,
           verticalRate := verticalRate,
           heightDifferenceStatus := diffBaroStatus,
           heightDifference := diffBaro : GroundSpeedVelocity }

/-- pkg/bds/bds09/fields/velocity_ew.go:55-67 -/
def Gen.bds.bds09.fields.ReadVelocityEWSupersonic (data : List UInt8) : Go (UInt16 × NumericValueStatus) := do
  let byte1 := (← idx data 1) &&& 3
  let byte2 ← idx data 2
  let velocity := Gen.bitutils.Pack2Bytes byte1 byte2
  if velocity = 0 then
    return (0, .noInformation)
  else
    if velocity ≥ 1023 then
      return (4088, .maximum)
    else
      return ((velocity - 1) * 4, .regular)

/-- pkg/bds/bds09/fields/velocity_ns.go:55-67 -/
def Gen.bds.bds09.fields.ReadVelocityNSSupersonic (data : List UInt8) : Go (UInt16 × NumericValueStatus) := do
  let byte1 := (← idx data 3) &&& 127
  let byte2 := (← idx data 4) &&& 224
  let velocity := (Gen.bitutils.Pack2Bytes byte1 byte2) >>> 5
  if velocity = 0 then
    return (0, .noInformation)
  else
    if velocity ≥ 1023 then
      return (4088, .maximum)
    else
      return ((velocity - 1) * 4, .regular)

/-- pkg/bds/bds09/airborne_velocity_ground_speed_supersonic.go:88-127 -/
def Gen.bds.bds09.ReadAirborneVelocityGroundSpeedSupersonic (data : List UInt8) : Go GroundSpeedVelocity := do
  if data.length ≠ 7 then fail
  let formatTypeCode := ((← idx data 0) &&& 248) >>> 3
  if formatTypeCode ≠ 19 then fail
  let subType ← Gen.bds.bds09.fields.ReadSubtype data
  if subType ≠ 2 then fail
  let (velocityEW, velocityEWStatus) ← Gen.bds.bds09.fields.ReadVelocityEWSupersonic data
  let (velocityNS, velocityNSStatus) ← Gen.bds.bds09.fields.ReadVelocityNSSupersonic data
  let (verticalRate, verticalRateStatus) ← Gen.bds.bds09.fields.ReadVerticalRate data
  let (diffBaro, diffBaroStatus) ← Gen.bds.bds09.fields.ReadHeightDifference data
  return { formatTypeCode := formatTypeCode,
           subtype := subType,
           intentChange := (← Gen.bds.bds09.fields.ReadIntentChange data),
           ifrCapability := (← Gen.bds.bds09.fields.ReadIFRCapability data),
           navigationUncertaintyCategory := (← Gen.bds.bds09.fields.ReadNavigationUncertaintyCategory data),
           directionEastWest := (← Gen.bds.bds09.fields.ReadDirectionEastWest data),
           velocityEWStatus := velocityEWStatus,
           velocityEW := velocityEW,
           directionNorthSouth := (← Gen.bds.bds09.fields.ReadDirectionNorthSouth data),
           velocityNSStatus := velocityNSStatus,
           velocityNS := velocityNS,
           verticalRateSource := (← Gen.bds.bds09.fields.ReadVerticalRateSource data),
           verticalRateStatus := verticalRateStatus,
           verticalRate := verticalRate,
           heightDifferenceStatus := diffBaroStatus,
           heightDifference := diffBaro : GroundSpeedVelocity }

/-- pkg/bds/bds09/fields/magnetic_heading.go:34-43 -/
def Gen.bds.bds09.fields.ReadMagneticHeading (data : List UInt8) : Go (ℚ × UInt8) := do
  let status := ((← idx data 1) &&& 4) >>> 2
  let byte1 := (← idx data 1) &&& 3
  let byte2 ← idx data 2
  let value := f64 ((f64 ((f64 ((Gen.bitutils.Pack2Bytes byte1 byte2).toNat : ℚ)) * 360)) / 1024)
  return (f32 value, status)

/-- pkg/bds/bds09/fields/airspeed.go:8-20 -/
def Gen.bds.bds09.fields.ReadAirspeedNormal (data : List UInt8) : Go (UInt16 × NumericValueStatus) := do
  let byte1 := (← idx data 3) &&& 127
  let byte2 := (← idx data 4) &&& 224
  let velocity := (Gen.bitutils.Pack2Bytes byte1 byte2) >>> 5
  if velocity = 0 then
    return (0, .noInformation)
  else
    if velocity ≥ 1023 then
      return (1023, .maximum)
    else
      return (velocity - 1, .regular)

/-- pkg/bds/bds09/airborne_velocity_air_speed_normal.go:76-113 -/
def Gen.bds.bds09.ReadAirborneVelocityAirSpeedNormal (data : List UInt8) : Go AirSpeedVelocity := do
  if data.length ≠ 7 then fail
  let formatTypeCode := ((← idx data 0) &&& 248) >>> 3
  if formatTypeCode ≠ 19 then fail
  let subType ← Gen.bds.bds09.fields.ReadSubtype data
  if subType ≠ 3 then fail
  let (magneticHeading, magneticHeadingStatus) ← Gen.bds.bds09.fields.ReadMagneticHeading data
  let (airSpeed, airSpeedStatus) ← Gen.bds.bds09.fields.ReadAirspeedNormal data
  let (verticalRate, verticalRateStatus) ← Gen.bds.bds09.fields.ReadVerticalRate data
  let (diffBaro, diffBaroStatus) ← Gen.bds.bds09.fields.ReadHeightDifference data
  return { formatTypeCode := formatTypeCode,
           subtype := subType,
           intentChange := (← Gen.bds.bds09.fields.ReadIntentChange data),
           ifrCapability := (← Gen.bds.bds09.fields.ReadIFRCapability data),
           navigationUncertaintyCategory := (← Gen.bds.bds09.fields.ReadNavigationUncertaintyCategory data),
           magneticHeadingStatus := magneticHeadingStatus,
           magneticHeading := magneticHeading,
           airspeedStatus := airSpeedStatus,
           airspeed := airSpeed,
           verticalRateSource := (← Gen.bds.bds09.fields.ReadVerticalRateSource data),
           verticalRateStatus := verticalRateStatus,
           verticalRate := verticalRate,
           heightDifferenceStatus := diffBaroStatus,
           heightDifference := diffBaro : AirSpeedVelocity }

/-- pkg/bds/bds09/fields/airspeed.go:23-35 -/
def Gen.bds.bds09.fields.ReadAirspeedSupersonic (data : List UInt8) : Go (UInt16 × NumericValueStatus) := do
  let byte1 := (← idx data 3) &&& 127
  let byte2 := (← idx data 4) &&& 224
  let velocity := (Gen.bitutils.Pack2Bytes byte1 byte2) >>> 5
  if velocity = 0 then
    return (0, .noInformation)
  else
    if velocity ≥ 1023 then
      return (4088, .maximum)
    else
      return ((velocity - 1) * 4, .regular)

/-- pkg/bds/bds09/airborne_velocity_air_speed_supersonic.go:76-113 -/
def Gen.bds.bds09.ReadAirborneVelocityAirSpeedSupersonic (data : List UInt8) : Go AirSpeedVelocity := do
  if data.length ≠ 7 then fail
  let formatTypeCode := ((← idx data 0) &&& 248) >>> 3
  if formatTypeCode ≠ 19 then fail
  let subType ← Gen.bds.bds09.fields.ReadSubtype data
  if subType ≠ 4 then fail
  let (magneticHeading, magneticHeadingStatus) ← Gen.bds.bds09.fields.ReadMagneticHeading data
  let (airSpeed, airSpeedStatus) ← Gen.bds.bds09.fields.ReadAirspeedSupersonic data
  let (verticalRate, verticalRateStatus) ← Gen.bds.bds09.fields.ReadVerticalRate data
  let (diffBaro, diffBaroStatus) ← Gen.bds.bds09.fields.ReadHeightDifference data
  return { formatTypeCode := formatTypeCode,
           subtype := subType,
           intentChange := (← Gen.bds.bds09.fields.ReadIntentChange data),
           ifrCapability := (← Gen.bds.bds09.fields.ReadIFRCapability data),
           navigationUncertaintyCategory := (← Gen.bds.bds09.fields.ReadNavigationUncertaintyCategory data),
           magneticHeadingStatus := magneticHeadingStatus,
           magneticHeading := magneticHeading,
           airspeedStatus := airSpeedStatus,
           airspeed := airSpeed,
           verticalRateSource := (← Gen.bds.bds09.fields.ReadVerticalRateSource data),
           verticalRateStatus := verticalRateStatus,
           verticalRate := verticalRate,
           heightDifferenceStatus := diffBaroStatus,
           heightDifference := diffBaro : AirSpeedVelocity }

/-- pkg/bds/bds09/airborne_velocity.go:16-40 -/
def Gen.bds.bds09.ReadAirborneVelocity (data : List UInt8) : Go AirborneVelocity := do
  if data.length ≠ 7 then fail
  let formatTypeCode := ((← idx data 0) &&& 248) >>> 3
  if formatTypeCode ≠ 19 then fail
  let subType ← Gen.bds.bds09.fields.ReadSubtype data
  if subType = 1 then
    return AirborneVelocity.groundSpeedNormal (← Gen.bds.bds09.ReadAirborneVelocityGroundSpeedNormal data)
  else
    if subType = 2 then
      return AirborneVelocity.groundSpeedSupersonic (← Gen.bds.bds09.ReadAirborneVelocityGroundSpeedSupersonic data)
    else
      if subType = 3 then
        return AirborneVelocity.airSpeedNormal (← Gen.bds.bds09.ReadAirborneVelocityAirSpeedNormal data)
      else
        if subType = 4 then
          return AirborneVelocity.airSpeedSupersonic (← Gen.bds.bds09.ReadAirborneVelocityAirSpeedSupersonic data)
        else
          fail

/-- pkg/adsb/airborne_velocity/airborne_velocity.go:31-42 -/
def Gen.adsb.airborne_velocity.ReadAirborneVelocity (adsbVersion : UInt8) (data : List UInt8) : Go ADSBMessage := do
  let bds ← Gen.bds.bds09.ReadAirborneVelocity data
  return .velocity bds adsbVersion

/-- pkg/adsb/aircraft_identification_and_category/aircraft_identification_and_category.go:15-17 -/
def Gen.adsb.aircraft_identification_and_category.AircraftIdentificationAndCategory.GetADSBVersion (aircraftIdentificationAndCategory : IdentificationAndCategory) (adsbVersion : UInt8) : UInt8 :=
  adsbVersion

/-- pkg/bds/bds08/fields/aircraft_category_set_a.go:60-62 -/
def Gen.bds.bds08.fields.AircraftCategorySetA.CheckCoherency (category : UInt8) : Go Unit := do
  return ()

/-- pkg/bds/bds08/fields/aircraft_category_set_b.go:60-62 -/
def Gen.bds.bds08.fields.AircraftCategorySetB.CheckCoherency (category : UInt8) : Go Unit := do
  return ()

/-- pkg/bds/bds08/fields/aircraft_category_set_c.go:63-70 -/
def Gen.bds.bds08.fields.AircraftCategorySetC.CheckCoherency (category : UInt8) : Go Unit := do
  if category > 3 then fail
  return ()

/-- pkg/bds/bds08/fields/aircraft_category_set_d.go:63-66 -/
def Gen.bds.bds08.fields.AircraftCategorySetD.CheckCoherency (category : UInt8) : Go Unit := do
  fail

/-- The method CheckCoherency called through the interface pkg/bds/bds08/fields.AircraftCategory; its implementations are in pkg/bds/bds08/fields/aircraft_category_set_a.go, pkg/bds/bds08/fields/aircraft_category_set_b.go, pkg/bds/bds08/fields/aircraft_category_set_c.go, pkg/bds/bds08/fields/aircraft_category_set_d.go. -/
def Gen.bds.bds08.fields.AircraftCategory.CheckCoherency : AircraftCategory → Go Unit
  | .setA x => Gen.bds.bds08.fields.AircraftCategorySetA.CheckCoherency x
  | .setB x => Gen.bds.bds08.fields.AircraftCategorySetB.CheckCoherency x
  | .setC x => Gen.bds.bds08.fields.AircraftCategorySetC.CheckCoherency x
  | .setD x => Gen.bds.bds08.fields.AircraftCategorySetD.CheckCoherency x

/-- pkg/bds/bds08/aircraft_identification_and_category.go:26-38 -/
def Gen.bds.bds08.AircraftIdentificationAndCategory.CheckCoherency (message : IdentificationAndCategory) : Go Unit := do
  if message.identification.any (fun c => [35].contains c) then fail
  let _ ← Gen.bds.bds08.fields.AircraftCategory.CheckCoherency message.category
  return ()

/-- pkg/adsb/aircraft_identification_and_category/aircraft_identification_and_category.go:20-22 -/
def Gen.adsb.aircraft_identification_and_category.AircraftIdentificationAndCategory.CheckCoherency (aircraftIdentificationAndCategory : IdentificationAndCategory) (adsbVersion : UInt8) : Go Unit := do
  Gen.bds.bds08.AircraftIdentificationAndCategory.CheckCoherency aircraftIdentificationAndCategory

/-- pkg/bds/bds08/aircraft_identification_and_category.go:53-102 -/
def Gen.bds.bds08.ReadAircraftIdentificationAndCategory (data : List UInt8) : Go IdentificationAndCategory := do
  if data.length ≠ 7 then fail
  let formatTypeCode := ((← idx data 0) &&& 248) >>> 3
  if formatTypeCode < 1 ∨ formatTypeCode > 4 then fail
  let category ← if formatTypeCode = 1 then do
      let category := AircraftCategory.setD ((← idx data 0) &&& 7)
      pure category
    else do
      let category ← if formatTypeCode = 2 then do
          let category := AircraftCategory.setC ((← idx data 0) &&& 7)
          pure category
        else do
          let category ← if formatTypeCode = 3 then do
              let category := AircraftCategory.setB ((← idx data 0) &&& 7)
              pure category
            else do
              let category := AircraftCategory.setA ((← idx data 0) &&& 7)
              pure category
          pure category
      pure category
  let codes := List.replicate 8 (0 : UInt8)
  let codes ← setIdx codes 0 (((← idx data 1) &&& 252) >>> 2)
  let codes ← setIdx codes 1 ((((← idx data 1) &&& 3) <<< 4) + (((← idx data 2) &&& 240) >>> 4))
  let codes ← setIdx codes 2 ((((← idx data 2) &&& 15) <<< 2) + (((← idx data 3) &&& 192) >>> 6))
  let codes ← setIdx codes 3 ((← idx data 3) &&& 63)
  let codes ← setIdx codes 4 (((← idx data 4) &&& 252) >>> 2)
  let codes ← setIdx codes 5 ((((← idx data 4) &&& 3) <<< 4) + (((← idx data 5) &&& 240) >>> 4))
  let codes ← setIdx codes 6 ((((← idx data 5) &&& 15) <<< 2) + (((← idx data 6) &&& 192) >>> 6))
  let codes ← setIdx codes 7 ((← idx data 6) &&& 63)
  let chars := List.replicate 8 (0 : UInt8)
  let chars ← codes.zipIdx.foldlM (fun (chars : List UInt8) (code, i) => do
    let chars ← setIdx chars i (← idx ([35, 65, 66, 67, 68, 69, 70, 71, 72, 73, 74, 75, 76, 77, 78, 79, 80, 81, 82, 83, 84, 85, 86, 87, 88, 89, 90, 35, 35, 35, 35, 35, 32, 35, 35, 35, 35, 35, 35, 35, 35, 35, 35, 35, 35, 35, 35, 35, 48, 49, 50, 51, 52, 53, 54, 55, 56, 57, 35, 35, 35, 35, 35, 35] : List UInt8) code.toNat)
    pure chars) chars
  return { formatTypeCode := formatTypeCode, category := category, identification := chars : IdentificationAndCategory }

/-- pkg/adsb/aircraft_identification_and_category/aircraft_identification_and_category.go:31-42 -/
def Gen.adsb.aircraft_identification_and_category.ReadAircraftIdentificationAndCategory (adsbVersion : UInt8) (data : List UInt8) : Go ADSBMessage := do
  let bds ← Gen.bds.bds08.ReadAircraftIdentificationAndCategory data
  return .identification bds adsbVersion

/-- pkg/adsb/aircraft_operational_status/aircraft_operational_status.go:15-17 -/
def Gen.adsb.aircraft_operational_status.AircraftOperationalStatus.GetADSBVersion (aircraftOperationalStatus : OperationalStatus) (adsbVersion : UInt8) : UInt8 :=
  adsbVersion

/-- pkg/bds/bds65/aircraft_operational_status_adsb0.go:33-35 -/
def Gen.bds.bds65.AircraftOperationalStatusADSB0.CheckCoherency (message : OpStatusV0) : Go Unit := do
  return ()

/-- pkg/bds/bds65/aircraft_operational_status_airborne_adsb1.go:38-40 -/
def Gen.bds.bds65.AircraftOperationalStatusAirborneADSB1.CheckCoherency (message : OpStatusAirborneV1) : Go Unit := do
  return ()

/-- pkg/bds/bds65/aircraft_operational_status_airborne_adsb2.go:40-42 -/
def Gen.bds.bds65.AircraftOperationalStatusAirborneADSB2.CheckCoherency (message : OpStatusAirborneV2) : Go Unit := do
  return ()

/-- pkg/bds/bds65/aircraft_operational_status_surface_adsb1.go:39-41 -/
def Gen.bds.bds65.AircraftOperationalStatusSurfaceADSB1.CheckCoherency (message : OpStatusSurfaceV1) : Go Unit := do
  return ()

/-- pkg/bds/bds65/aircraft_operational_status_surface_adsb2.go:40-42 -/
def Gen.bds.bds65.AircraftOperationalStatusSurfaceADSB2.CheckCoherency (message : OpStatusSurfaceV2) : Go Unit := do
  return ()

/-- The method CheckCoherency called through the interface pkg/bds/bds65.AircraftOperationalStatus; its implementations are in pkg/bds/bds65/aircraft_operational_status_adsb0.go, pkg/bds/bds65/aircraft_operational_status_airborne_adsb1.go, pkg/bds/bds65/aircraft_operational_status_airborne_adsb2.go, pkg/bds/bds65/aircraft_operational_status_surface_adsb1.go, pkg/bds/bds65/aircraft_operational_status_surface_adsb2.go. -/
def Gen.bds.bds65.AircraftOperationalStatus.CheckCoherency : OperationalStatus → Go Unit
  | .v0 x => Gen.bds.bds65.AircraftOperationalStatusADSB0.CheckCoherency x
  | .airborneV1 x => Gen.bds.bds65.AircraftOperationalStatusAirborneADSB1.CheckCoherency x
  | .airborneV2 x => Gen.bds.bds65.AircraftOperationalStatusAirborneADSB2.CheckCoherency x
  | .surfaceV1 x => Gen.bds.bds65.AircraftOperationalStatusSurfaceADSB1.CheckCoherency x
  | .surfaceV2 x => Gen.bds.bds65.AircraftOperationalStatusSurfaceADSB2.CheckCoherency x

/-- pkg/adsb/aircraft_operational_status/aircraft_operational_status.go:20-22 -/
def Gen.adsb.aircraft_operational_status.AircraftOperationalStatus.CheckCoherency (aircraftOperationalStatus : OperationalStatus) (adsbVersion : UInt8) : Go Unit := do
  Gen.bds.bds65.AircraftOperationalStatus.CheckCoherency aircraftOperationalStatus

/-- pkg/bds/bds65/fields/en_route_operational_capabilities.go:63-66 -/
def Gen.bds.bds65.fields.ReadEnRouteOperationalCapabilities (data : List UInt8) : Go UInt8 := do
  let bits := ((← idx data 1) &&& 240) >>> 4
  return bits

/-- pkg/bds/bds65/fields/en_route_operational_capability_status.go:63-66 -/
def Gen.bds.bds65.fields.ReadEnRouteOperationalCapabilityStatus (data : List UInt8) : Go UInt8 := do
  let bits := ((← idx data 3) &&& 240) >>> 4
  return bits

/-- pkg/bds/bds65/fields/terminal_area_operational_capabilities.go:63-66 -/
def Gen.bds.bds65.fields.ReadTerminalAreaOperationalCapabilities (data : List UInt8) : Go UInt8 := do
  let bits := (← idx data 1) &&& 15
  return bits

/-- pkg/bds/bds65/fields/terminal_area_operational_capability_status.go:63-66 -/
def Gen.bds.bds65.fields.ReadTerminalAreaOperationalCapabilityStatus (data : List UInt8) : Go UInt8 := do
  let bits := (← idx data 3) &&& 15
  return bits

/-- pkg/bds/bds65/fields/approach_landing_operational_capabilities.go:63-66 -/
def Gen.bds.bds65.fields.ReadApproachLandingOperationalCapabilities (data : List UInt8) : Go UInt8 := do
  let bits := ((← idx data 2) &&& 240) >>> 4
  return bits

/-- pkg/bds/bds65/fields/approach_landing_operational_capability_status.go:63-66 -/
def Gen.bds.bds65.fields.ReadApproachLandingOperationalCapabilityStatus (data : List UInt8) : Go UInt8 := do
  let bits := ((← idx data 4) &&& 240) >>> 4
  return bits

/-- pkg/bds/bds65/fields/surface_operational_capabilities.go:63-66 -/
def Gen.bds.bds65.fields.ReadSurfaceOperationalCapabilities (data : List UInt8) : Go UInt8 := do
  let bits := (← idx data 2) &&& 15
  return bits

/-- pkg/bds/bds65/fields/surface_operational_capability_status.go:63-66 -/
def Gen.bds.bds65.fields.ReadSurfaceOperationalCapabilityStatus (data : List UInt8) : Go UInt8 := do
  let bits := (← idx data 4) &&& 15
  return bits

/-- pkg/bds/bds65/aircraft_operational_status_adsb0.go:61-93 -/
def Gen.bds.bds65.ReadAircraftOperationalStatusADSB0 (data : List UInt8) : Go OpStatusV0 := do
  if data.length ≠ 7 then fail
  let formatTypeCode := ((← idx data 0) &&& 248) >>> 3
  if formatTypeCode ≠ 31 then fail
  let subType := (← idx data 0) &&& 7
  if subType ≠ 0 then fail
  if (← orGo ((← idx data 5) != 0) (do pure ((← idx data 6) != 0))) then fail
  return { formatTypeCode := formatTypeCode,
           subtype := subType,
           enRouteOperationalCapabilities := (← Gen.bds.bds65.fields.ReadEnRouteOperationalCapabilities data),
           enRouteOperationalCapabilityStatus := (← Gen.bds.bds65.fields.ReadEnRouteOperationalCapabilityStatus data),
           terminalAreaOperationalCapabilities := (← Gen.bds.bds65.fields.ReadTerminalAreaOperationalCapabilities data),
           terminalAreaOperationalCapabilityStatus := (← Gen.bds.bds65.fields.ReadTerminalAreaOperationalCapabilityStatus data),
           approachLandingOperationalCapabilities := (← Gen.bds.bds65.fields.ReadApproachLandingOperationalCapabilities data),
           approachLandingOperationalCapabilityStatus := (← Gen.bds.bds65.fields.ReadApproachLandingOperationalCapabilityStatus data),
           surfaceOperationalCapabilities := (← Gen.bds.bds65.fields.ReadSurfaceOperationalCapabilities data),
           surfaceOperationalCapabilityStatus := (← Gen.bds.bds65.fields.ReadSurfaceOperationalCapabilityStatus data) : OpStatusV0 }

/-- pkg/bds/bds65/fields/subtype.go:33-36 -/
def Gen.bds.bds65.fields.ReadSubtype (data : List UInt8) : Go UInt8 := do
  let bits := (← idx data 0) &&& 7
  return bits

/-- pkg/bds/bds65/fields/version_number.go:34-39 -/
def Gen.bds.bds65.fields.ReadVersionNumber (data : List UInt8) : Go UInt8 := do
  let bits := ((← idx data 5) &&& 224) >>> 5
  return bits

/-- pkg/bds/bds65/fields/not_acas_status.go:31-34 -/
def Gen.bds.bds65.fields.ReadNotACASStatus (data : List UInt8) : Go UInt8 := do
  let bits := ((← idx data 1) &&& 32) >>> 5
  return bits

/-- pkg/bds/bds65/fields/cockpit_display_traffic_information_status.go:31-34 -/
def Gen.bds.bds65.fields.ReadCockpitDisplayOfTrafficInformationStatus (data : List UInt8) : Go UInt8 := do
  let bits := ((← idx data 1) &&& 16) >>> 4
  return bits

/-- pkg/bds/bds65/fields/air_referenced_velocity_report_capability.go:31-34 -/
def Gen.bds.bds65.fields.ReadAirReferencedVelocityReportCapability (data : List UInt8) : Go UInt8 := do
  let bits := ((← idx data 1) &&& 2) >>> 1
  return bits

/-- pkg/bds/bds65/fields/target_state_report_capability.go:31-34 -/
def Gen.bds.bds65.fields.ReadTargetStateReportCapability (data : List UInt8) : Go UInt8 := do
  let bits := (← idx data 1) &&& 1
  return bits

/-- pkg/bds/bds65/fields/target_change_report_capability.go:39-42 -/
def Gen.bds.bds65.fields.ReadTargetChangeReportCapability (data : List UInt8) : Go UInt8 := do
  let bits := ((← idx data 2) &&& 192) >>> 6
  return bits

/-- pkg/bds/bds65/fields/airborne_capability_class_v1.go:32-40 -/
def Gen.bds.bds65.fields.ReadAirborneCapabilityClassV1 (data : List UInt8) : Go AirborneCapabilityClassV1 := do
  return { notACASStatus := (← Gen.bds.bds65.fields.ReadNotACASStatus data),
           cockpitDisplayOfTrafficInformationStatus := (← Gen.bds.bds65.fields.ReadCockpitDisplayOfTrafficInformationStatus data),
           airReferencedVelocityReportCapability := (← Gen.bds.bds65.fields.ReadAirReferencedVelocityReportCapability data),
           targetStateReportCapability := (← Gen.bds.bds65.fields.ReadTargetStateReportCapability data),
           targetChangeReportCapability := (← Gen.bds.bds65.fields.ReadTargetChangeReportCapability data) : AirborneCapabilityClassV1 }

/-- pkg/bds/bds65/fields/acas_resolution_advisory_active_v1.go:31-34 -/
def Gen.bds.bds65.fields.ReadACASResolutionAdvisoryActiveV1 (data : List UInt8) : Go UInt8 := do
  let bits := ((← idx data 3) &&& 32) >>> 5
  return bits

/-- pkg/bds/bds65/fields/ident_switch_active.go:31-34 -/
def Gen.bds.bds65.fields.ReadIdentSwitchActive (data : List UInt8) : Go UInt8 := do
  let bits := ((← idx data 3) &&& 16) >>> 4
  return bits

/-- pkg/bds/bds65/fields/receiving_atc_services.go:31-34 -/
def Gen.bds.bds65.fields.ReadReceivingATCServices (data : List UInt8) : Go UInt8 := do
  let bits := ((← idx data 3) &&& 8) >>> 3
  return bits

/-- pkg/bds/bds65/fields/operational_mode.go:26-32 -/
def Gen.bds.bds65.fields.ReadOperationalMode (data : List UInt8) : Go OperationalMode := do
  return { acasRAActive := (← Gen.bds.bds65.fields.ReadACASResolutionAdvisoryActiveV1 data),
           identSwitchActive := (← Gen.bds.bds65.fields.ReadIdentSwitchActive data),
           receivingATCServices := (← Gen.bds.bds65.fields.ReadReceivingATCServices data) : OperationalMode }

/-- pkg/bds/bds65/fields/nic_supplement_a.go:31-34 -/
def Gen.bds.bds65.fields.ReadNICSupplementA (data : List UInt8) : Go UInt8 := do
  let bits := ((← idx data 5) &&& 16) >>> 4
  return bits

/-- pkg/bds/bds65/fields/navigational_accuracy_category_position_v1.go:88-91 -/
def Gen.bds.bds65.fields.ReadNavigationalAccuracyCategoryPositionV1 (data : List UInt8) : Go UInt8 := do
  let bits := (← idx data 5) &&& 15
  return bits

/-- pkg/bds/bds65/fields/surveillance_integrity_level.go:58-61 -/
def Gen.bds.bds65.fields.ReadSurveillanceIntegrityLevel (data : List UInt8) : Go UInt8 := do
  let bits := ((← idx data 6) &&& 48) >>> 4
  return bits

/-- pkg/bds/bds65/fields/nic_baro.go:35-38 -/
def Gen.bds.bds65.fields.ReadNICBaro (data : List UInt8) : Go UInt8 := do
  let bits := ((← idx data 6) &&& 8) >>> 3
  return bits

/-- pkg/bds/bds65/fields/horizontal_reference_direction.go:31-34 -/
def Gen.bds.bds65.fields.ReadHorizontalReferenceDirection (data : List UInt8) : Go UInt8 := do
  let bits := ((← idx data 6) &&& 4) >>> 2
  return bits

/-- pkg/bds/bds65/aircraft_operational_status_airborne_adsb1.go:68-120 -/
def Gen.bds.bds65.ReadAircraftOperationalStatusAirborneADSB1 (data : List UInt8) : Go OpStatusAirborneV1 := do
  if data.length ≠ 7 then fail
  let formatTypeCode := ((← idx data 0) &&& 248) >>> 3
  if formatTypeCode ≠ 31 then fail
  let subType ← Gen.bds.bds65.fields.ReadSubtype data
  if subType ≠ 0 then fail
  let detectedADSBLevel ← Gen.bds.bds65.fields.ReadVersionNumber data
  if detectedADSBLevel ≠ 1 then fail
  let serviceLevel := (((← idx data 1) &&& 192) >>> 4) + (((← idx data 1) &&& 12) >>> 2)
  if serviceLevel ≠ 0 then fail
  let operationalModeFormat := ((← idx data 3) &&& 192) >>> 6
  if operationalModeFormat ≠ 0 then fail
  if ((← idx data 6) &&& 192) ≠ 0 then fail
  if ((← idx data 6) &&& 3) ≠ 0 then fail
  return { formatTypeCode := formatTypeCode,
           subtype := subType,
           airborneCapabilityClass := (← Gen.bds.bds65.fields.ReadAirborneCapabilityClassV1 data),
           operationalMode := (← Gen.bds.bds65.fields.ReadOperationalMode data),
           versionNumber := (← Gen.bds.bds65.fields.ReadVersionNumber data),
           nicSupplement := (← Gen.bds.bds65.fields.ReadNICSupplementA data),
           navigationalAccuracyCategoryPosition := (← Gen.bds.bds65.fields.ReadNavigationalAccuracyCategoryPositionV1 data),
           surveillanceIntegrityLevel := (← Gen.bds.bds65.fields.ReadSurveillanceIntegrityLevel data),
           nicBaro := (← Gen.bds.bds65.fields.ReadNICBaro data),
           horizontalReferenceDirection := (← Gen.bds.bds65.fields.ReadHorizontalReferenceDirection data) : OpStatusAirborneV1 }

/-- pkg/bds/bds65/fields/position_offset_applied.go:31-34 -/
def Gen.bds.bds65.fields.ReadPositionOffsetApplied (data : List UInt8) : Go UInt8 := do
  let bits := ((← idx data 1) &&& 32) >>> 5
  return bits

/-- pkg/bds/bds65/fields/b2_low.go:31-34 -/
def Gen.bds.bds65.fields.ReadB2Low (data : List UInt8) : Go UInt8 := do
  let bits := ((← idx data 1) &&& 2) >>> 1
  return bits

/-- pkg/bds/bds65/fields/surface_capability_class_v1.go:26-32 -/
def Gen.bds.bds65.fields.ReadSurfaceCapabilityClassV1 (data : List UInt8) : Go SurfaceCapabilityClassV1 := do
  return { positionOffsetApplied := (← Gen.bds.bds65.fields.ReadPositionOffsetApplied data),
           cockpitDisplayOfTrafficInformationStatus := (← Gen.bds.bds65.fields.ReadCockpitDisplayOfTrafficInformationStatus data),
           b2Low := (← Gen.bds.bds65.fields.ReadB2Low data) : SurfaceCapabilityClassV1 }

/-- pkg/bds/bds65/fields/length_width.go:87-90 -/
def Gen.bds.bds65.fields.ReadAircraftLengthAndWidth (data : List UInt8) : Go UInt8 := do
  let bits := (← idx data 2) &&& 15
  return bits

/-- pkg/bds/bds65/fields/track_angle_heading.go:31-34 -/
def Gen.bds.bds65.fields.ReadTrackAngleHeading (data : List UInt8) : Go UInt8 := do
  let bits := ((← idx data 6) &&& 8) >>> 3
  return bits

/-- pkg/bds/bds65/aircraft_operational_status_surface_adsb1.go:71-124 -/
def Gen.bds.bds65.ReadAircraftOperationalStatusSurfaceADSB1 (data : List UInt8) : Go OpStatusSurfaceV1 := do
  if data.length ≠ 7 then fail
  let formatTypeCode := ((← idx data 0) &&& 248) >>> 3
  if formatTypeCode ≠ 31 then fail
  let subType ← Gen.bds.bds65.fields.ReadSubtype data
  if subType ≠ 1 then fail
  let detectedADSBLevel ← Gen.bds.bds65.fields.ReadVersionNumber data
  if detectedADSBLevel ≠ 1 then fail
  let serviceLevel := (((← idx data 1) &&& 192) >>> 4) + (((← idx data 1) &&& 12) >>> 2)
  if serviceLevel ≠ 0 then fail
  let operationalModeFormat := ((← idx data 3) &&& 192) >>> 6
  if operationalModeFormat ≠ 0 then fail
  if ((← idx data 6) &&& 192) ≠ 0 then fail
  if ((← idx data 6) &&& 3) ≠ 0 then fail
  return { formatTypeCode := formatTypeCode,
           subtype := subType,
           surfaceCapabilityClass := (← Gen.bds.bds65.fields.ReadSurfaceCapabilityClassV1 data),
           lengthAndWidth := (← Gen.bds.bds65.fields.ReadAircraftLengthAndWidth data),
           operationalMode := (← Gen.bds.bds65.fields.ReadOperationalMode data),
           versionNumber := (← Gen.bds.bds65.fields.ReadVersionNumber data),
           nicSupplement := (← Gen.bds.bds65.fields.ReadNICSupplementA data),
           navigationalAccuracyCategoryPosition := (← Gen.bds.bds65.fields.ReadNavigationalAccuracyCategoryPositionV1 data),
           surveillanceIntegrityLevel := (← Gen.bds.bds65.fields.ReadSurveillanceIntegrityLevel data),
           trackAngleHeading := (← Gen.bds.bds65.fields.ReadTrackAngleHeading data),
           horizontalReferenceDirection := (← Gen.bds.bds65.fields.ReadHorizontalReferenceDirection data) : OpStatusSurfaceV1 }

/-- pkg/bds/bds65/fields/acas_operational.go:31-34 -/
def Gen.bds.bds65.fields.ReadACASOperational (data : List UInt8) : Go UInt8 := do
  let bits := ((← idx data 1) &&& 32) >>> 5
  return bits

/-- pkg/bds/bds65/fields/extended_squitter_in.go:31-34 -/
def Gen.bds.bds65.fields.ReadExtendedSquitterIn (data : List UInt8) : Go UInt8 := do
  let bits := ((← idx data 1) &&& 16) >>> 4
  return bits

/-- pkg/bds/bds65/fields/universal_access_transceiver_capability.go:31-34 -/
def Gen.bds.bds65.fields.ReadUniversalAccessTransceiverCapabilityAirborne (data : List UInt8) : Go UInt8 := do
  let bits := ((← idx data 2) &&& 32) >>> 5
  return bits

/-- pkg/bds/bds65/fields/airborne_capability_class_v2.go:35-44 -/
def Gen.bds.bds65.fields.ReadAirborneCapabilityClassV2 (data : List UInt8) : Go AirborneCapabilityClassV2 := do
  return { acasOperational := (← Gen.bds.bds65.fields.ReadACASOperational data),
           extendedSquitterIn := (← Gen.bds.bds65.fields.ReadExtendedSquitterIn data),
           airReferencedVelocityReportCapability := (← Gen.bds.bds65.fields.ReadAirReferencedVelocityReportCapability data),
           targetStateReportCapability := (← Gen.bds.bds65.fields.ReadTargetStateReportCapability data),
           targetChangeReportCapability := (← Gen.bds.bds65.fields.ReadTargetChangeReportCapability data),
           uatCapability := (← Gen.bds.bds65.fields.ReadUniversalAccessTransceiverCapabilityAirborne data) : AirborneCapabilityClassV2 }

/-- pkg/bds/bds65/fields/acas_resolution_advisory_active_v2.go:31-34 -/
def Gen.bds.bds65.fields.ReadACASResolutionAdvisoryActiveV2 (data : List UInt8) : Go UInt8 := do
  let bits := ((← idx data 3) &&& 32) >>> 5
  return bits

/-- pkg/bds/bds65/fields/single_antenna_flag.go:31-34 -/
def Gen.bds.bds65.fields.ReadSingleAntennaFlag (data : List UInt8) : Go UInt8 := do
  let bits := ((← idx data 3) &&& 4) >>> 2
  return bits

/-- pkg/bds/bds65/fields/system_design_assurance.go:39-42 -/
def Gen.bds.bds65.fields.ReadSystemDesignAssurance (data : List UInt8) : Go UInt8 := do
  let bits := (← idx data 3) &&& 3
  return bits

/-- pkg/bds/bds65/fields/airborne_operational_mode.go:30-37 -/
def Gen.bds.bds65.fields.ReadAirborneOperationalMode (data : List UInt8) : Go AirborneOperationalMode := do
  return { acasRAActive := (← Gen.bds.bds65.fields.ReadACASResolutionAdvisoryActiveV2 data),
           identSwitchActive := (← Gen.bds.bds65.fields.ReadIdentSwitchActive data),
           singleAntennaFlag := (← Gen.bds.bds65.fields.ReadSingleAntennaFlag data),
           systemDesignAssurance := (← Gen.bds.bds65.fields.ReadSystemDesignAssurance data) : AirborneOperationalMode }

/-- pkg/bds/bds65/fields/navigational_accuracy_category_position_v2.go:88-91 -/
def Gen.bds.bds65.fields.ReadNavigationalAccuracyCategoryPositionV2 (data : List UInt8) : Go UInt8 := do
  let bits := (← idx data 5) &&& 15
  return bits

/-- pkg/bds/bds65/fields/geometric_vertical_accuracy.go:39-42 -/
def Gen.bds.bds65.fields.ReadGeometricVerticalAccuracy (data : List UInt8) : Go UInt8 := do
  let bits := ((← idx data 6) &&& 192) >>> 6
  return bits

/-- pkg/bds/bds65/fields/source_integrity_level.go:39-42 -/
def Gen.bds.bds65.fields.ReadSourceIntegrityLevel (data : List UInt8) : Go UInt8 := do
  let bits := ((← idx data 6) &&& 48) >>> 4
  return bits

/-- pkg/bds/bds65/fields/source_integrity_level_supplement.go:31-34 -/
def Gen.bds.bds65.fields.ReadSourceIntegrityLevelSupplement (data : List UInt8) : Go UInt8 := do
  let bits := ((← idx data 6) &&& 2) >>> 1
  return bits

/-- pkg/bds/bds65/aircraft_operational_status_airborne_adsb2.go:74-124 -/
def Gen.bds.bds65.ReadAircraftOperationalStatusAirborneADSB2 (data : List UInt8) : Go OpStatusAirborneV2 := do
  if data.length ≠ 7 then fail
  let formatTypeCode := ((← idx data 0) &&& 248) >>> 3
  if formatTypeCode ≠ 31 then fail
  let subType ← Gen.bds.bds65.fields.ReadSubtype data
  if subType ≠ 0 then fail
  let detectedADSBLevel ← Gen.bds.bds65.fields.ReadVersionNumber data
  if detectedADSBLevel ≠ 2 then fail
  let capabilityContent := ((← idx data 1) &&& 192) >>> 6
  if capabilityContent ≠ 0 then fail
  let operationalModeFormat := ((← idx data 3) &&& 192) >>> 6
  if operationalModeFormat ≠ 0 then fail
  if ((← idx data 6) &&& 1) ≠ 0 then fail
  return { formatTypeCode := formatTypeCode,
           subtype := subType,
           airborneCapabilityClass := (← Gen.bds.bds65.fields.ReadAirborneCapabilityClassV2 data),
           operationalMode := (← Gen.bds.bds65.fields.ReadAirborneOperationalMode data),
           versionNumber := (← Gen.bds.bds65.fields.ReadVersionNumber data),
           nicSupplementA := (← Gen.bds.bds65.fields.ReadNICSupplementA data),
           navigationalAccuracyCategoryPosition := (← Gen.bds.bds65.fields.ReadNavigationalAccuracyCategoryPositionV2 data),
           geometricVerticalAccuracy := (← Gen.bds.bds65.fields.ReadGeometricVerticalAccuracy data),
           sourceIntegrityLevel := (← Gen.bds.bds65.fields.ReadSourceIntegrityLevel data),
           nicBaro := (← Gen.bds.bds65.fields.ReadNICBaro data),
           horizontalReferenceDirection := (← Gen.bds.bds65.fields.ReadHorizontalReferenceDirection data),
           sourceIntegrityLevelSupplement := (← Gen.bds.bds65.fields.ReadSourceIntegrityLevelSupplement data) : OpStatusAirborneV2 }

/-- pkg/bds/bds65/fields/universal_access_transceiver_capability.go:37-40 -/
def Gen.bds.bds65.fields.ReadUniversalAccessTransceiverCapabilitySurface (data : List UInt8) : Go UInt8 := do
  let bits := (← idx data 1) &&& 1
  return bits

/-- pkg/bds/bds65/fields/navigation_accuracy_category_velocity.go:16-19 -/
def Gen.bds.bds65.fields.ReadNavigationAccuracyCategoryVelocity (data : List UInt8) : Go UInt8 := do
  let bits := ((← idx data 2) &&& 224) >>> 5
  return bits

/-- pkg/bds/bds65/fields/nic_supplement_c.go:31-34 -/
def Gen.bds.bds65.fields.ReadNICSupplementC (data : List UInt8) : Go UInt8 := do
  let bits := ((← idx data 2) &&& 16) >>> 4
  return bits

/-- pkg/bds/bds65/fields/surface_capability_class_v2.go:34-42 -/
def Gen.bds.bds65.fields.ReadSurfaceCapabilityClassV2 (data : List UInt8) : Go SurfaceCapabilityClassV2 := do
  return { extendedSquitterIn := (← Gen.bds.bds65.fields.ReadExtendedSquitterIn data),
           b2Low := (← Gen.bds.bds65.fields.ReadB2Low data),
           uatCapability := (← Gen.bds.bds65.fields.ReadUniversalAccessTransceiverCapabilitySurface data),
           navigationAccuracyCategoryVelocity := (← Gen.bds.bds65.fields.ReadNavigationAccuracyCategoryVelocity data),
           nicSupplementC := (← Gen.bds.bds65.fields.ReadNICSupplementC data) : SurfaceCapabilityClassV2 }

/-- pkg/bds/bds65/fields/gps_antenna_lateral.go:55-58 -/
def Gen.bds.bds65.fields.ReadGPSAntennaLateral (data : List UInt8) : Go UInt8 := do
  let bits := ((← idx data 4) &&& 224) >>> 5
  return bits

/-- pkg/bds/bds65/fields/gps_antenna_longitudinal.go:106-109 -/
def Gen.bds.bds65.fields.ReadGPSAntennaLongitudinal (data : List UInt8) : Go UInt8 := do
  let bits := (← idx data 4) &&& 31
  return bits

/-- pkg/bds/bds65/fields/gps_antenna.go:23-28 -/
def Gen.bds.bds65.fields.ReadGPSAntenna (data : List UInt8) : Go ((UInt8 × UInt8)) := do
  return ((← Gen.bds.bds65.fields.ReadGPSAntennaLateral data), (← Gen.bds.bds65.fields.ReadGPSAntennaLongitudinal data))

/-- pkg/bds/bds65/fields/surface_operational_mode.go:36-44 -/
def Gen.bds.bds65.fields.ReadSurfaceOperationalMode (data : List UInt8) : Go SurfaceOperationalMode := do
  return { acasRAActive := (← Gen.bds.bds65.fields.ReadACASResolutionAdvisoryActiveV2 data),
           identSwitchActive := (← Gen.bds.bds65.fields.ReadIdentSwitchActive data),
           singleAntennaFlag := (← Gen.bds.bds65.fields.ReadSingleAntennaFlag data),
           systemDesignAssurance := (← Gen.bds.bds65.fields.ReadSystemDesignAssurance data),
           gpsAntennaLateral := (← Gen.bds.bds65.fields.ReadGPSAntenna data).1,
           gpsAntennaLongitudinal := (← Gen.bds.bds65.fields.ReadGPSAntenna data).2 : SurfaceOperationalMode }

/-- pkg/bds/bds65/aircraft_operational_status_surface_adsb2.go:74-124 -/
def Gen.bds.bds65.ReadAircraftOperationalStatusSurfaceADSB2 (data : List UInt8) : Go OpStatusSurfaceV2 := do
  if data.length ≠ 7 then fail
  let formatTypeCode := ((← idx data 0) &&& 248) >>> 3
  if formatTypeCode ≠ 31 then fail
  let subType ← Gen.bds.bds65.fields.ReadSubtype data
  if subType ≠ 1 then fail
  let detectedADSBLevel ← Gen.bds.bds65.fields.ReadVersionNumber data
  if detectedADSBLevel ≠ 2 then fail
  let capabilityContent := ((← idx data 1) &&& 192) >>> 6
  if capabilityContent ≠ 0 then fail
  let operationalModeFormat := ((← idx data 3) &&& 192) >>> 6
  if operationalModeFormat ≠ 0 then fail
  if ((← idx data 6) &&& 1) ≠ 0 then fail
  return { formatTypeCode := formatTypeCode,
           subtype := subType,
           surfaceCapabilityClass := (← Gen.bds.bds65.fields.ReadSurfaceCapabilityClassV2 data),
           lengthAndWidth := (← Gen.bds.bds65.fields.ReadAircraftLengthAndWidth data),
           operationalMode := (← Gen.bds.bds65.fields.ReadSurfaceOperationalMode data),
           versionNumber := (← Gen.bds.bds65.fields.ReadVersionNumber data),
           nicSupplementA := (← Gen.bds.bds65.fields.ReadNICSupplementA data),
           navigationalAccuracyCategoryPosition := (← Gen.bds.bds65.fields.ReadNavigationalAccuracyCategoryPositionV2 data),
           sourceIntegrityLevel := (← Gen.bds.bds65.fields.ReadSourceIntegrityLevel data),
           trackAngleHeading := (← Gen.bds.bds65.fields.ReadTrackAngleHeading data),
           horizontalReferenceDirection := (← Gen.bds.bds65.fields.ReadHorizontalReferenceDirection data),
           sourceIntegrityLevelSupplement := (← Gen.bds.bds65.fields.ReadSourceIntegrityLevelSupplement data) : OpStatusSurfaceV2 }

/-- pkg/bds/bds65/aircraft_operational_status.go:14-52 -/
def Gen.bds.bds65.ReadAircraftOperationalStatus (data : List UInt8) : Go OperationalStatus := do
  if data.length ≠ 7 then fail
  let formatTypeCode := ((← idx data 0) &&& 248) >>> 3
  if formatTypeCode ≠ 31 then fail
  let adsbLevel := ((← idx data 5) &&& 224) >>> 5
  let subType := (← idx data 0) &&& 7
  if adsbLevel = 0 then
    return OperationalStatus.v0 (← Gen.bds.bds65.ReadAircraftOperationalStatusADSB0 data)
  else
    if adsbLevel = 1 then
      if subType = 0 then
        return OperationalStatus.airborneV1 (← Gen.bds.bds65.ReadAircraftOperationalStatusAirborneADSB1 data)
      else
        if subType = 1 then
          return OperationalStatus.surfaceV1 (← Gen.bds.bds65.ReadAircraftOperationalStatusSurfaceADSB1 data)
        else
          fail
    else
      if adsbLevel = 2 then
        if subType = 0 then
          return OperationalStatus.airborneV2 (← Gen.bds.bds65.ReadAircraftOperationalStatusAirborneADSB2 data)
        else
          if subType = 1 then
            return OperationalStatus.surfaceV2 (← Gen.bds.bds65.ReadAircraftOperationalStatusSurfaceADSB2 data)
          else
            fail
      else
        fail

/-- pkg/bds/bds65/aircraft_operational_status_adsb0.go:23-25 -/
def Gen.bds.bds65.AircraftOperationalStatusADSB0.GetADSBLevel (message : OpStatusV0) : UInt8 :=
  0

/-- pkg/bds/bds65/aircraft_operational_status_airborne_adsb1.go:28-30 -/
def Gen.bds.bds65.AircraftOperationalStatusAirborneADSB1.GetADSBLevel (message : OpStatusAirborneV1) : UInt8 :=
  1

/-- pkg/bds/bds65/aircraft_operational_status_airborne_adsb2.go:30-32 -/
def Gen.bds.bds65.AircraftOperationalStatusAirborneADSB2.GetADSBLevel (message : OpStatusAirborneV2) : UInt8 :=
  2

/-- pkg/bds/bds65/aircraft_operational_status_surface_adsb1.go:29-31 -/
def Gen.bds.bds65.AircraftOperationalStatusSurfaceADSB1.GetADSBLevel (message : OpStatusSurfaceV1) : UInt8 :=
  1

/-- pkg/bds/bds65/aircraft_operational_status_surface_adsb2.go:30-32 -/
def Gen.bds.bds65.AircraftOperationalStatusSurfaceADSB2.GetADSBLevel (message : OpStatusSurfaceV2) : UInt8 :=
  1

/-- The method GetADSBLevel called through the interface pkg/bds/bds65.AircraftOperationalStatus; its implementations are in pkg/bds/bds65/aircraft_operational_status_adsb0.go, pkg/bds/bds65/aircraft_operational_status_airborne_adsb1.go, pkg/bds/bds65/aircraft_operational_status_airborne_adsb2.go, pkg/bds/bds65/aircraft_operational_status_surface_adsb1.go, pkg/bds/bds65/aircraft_operational_status_surface_adsb2.go. -/
def Gen.bds.bds65.AircraftOperationalStatus.GetADSBLevel : OperationalStatus → UInt8
  | .v0 x => Gen.bds.bds65.AircraftOperationalStatusADSB0.GetADSBLevel x
  | .airborneV1 x => Gen.bds.bds65.AircraftOperationalStatusAirborneADSB1.GetADSBLevel x
  | .airborneV2 x => Gen.bds.bds65.AircraftOperationalStatusAirborneADSB2.GetADSBLevel x
  | .surfaceV1 x => Gen.bds.bds65.AircraftOperationalStatusSurfaceADSB1.GetADSBLevel x
  | .surfaceV2 x => Gen.bds.bds65.AircraftOperationalStatusSurfaceADSB2.GetADSBLevel x

/-- pkg/adsb/aircraft_operational_status/aircraft_operational_status.go:31-42 -/
def Gen.adsb.aircraft_operational_status.ReadAircraftOperationalStatus (_ : UInt8) (data : List UInt8) : Go ADSBMessage := do
  let bds ← Gen.bds.bds65.ReadAircraftOperationalStatus data
  return .operationalStatus bds (Gen.bds.bds65.AircraftOperationalStatus.GetADSBLevel bds)

/-- pkg/adsb/aircraft_status/aircraft_status.go:15-17 -/
def Gen.adsb.aircraft_status.AircraftStatus.GetADSBVersion (aircraftStatus : AircraftStatus) (adsbVersion : UInt8) : UInt8 :=
  adsbVersion

/-- pkg/bds/bds61/aircraft_status_no_information.go:28-35 -/
def Gen.bds.bds61.AircraftStatusNoInformation.CheckCoherency (message : StatusNoInformation) : Go Unit := do
  if message.emergencyPriorityStatus ≠ 0 then fail
  return ()

/-- pkg/bds/bds61/aircraft_status_emergency.go:29-36 -/
def Gen.bds.bds61.AircraftStatusEmergency.CheckCoherency (message : StatusEmergency) : Go Unit := do
  if message.emergencyPriorityStatus > 5 then fail
  return ()

/-- pkg/bds/bds61/aircraft_status_acas.go:28-30 -/
def Gen.bds.bds61.AircraftStatusACAS.CheckCoherency (message : StatusACAS) : Go Unit := do
  return ()

/-- The method CheckCoherency called through the interface pkg/bds/bds61.AircraftStatus; its implementations are in pkg/bds/bds61/aircraft_status_acas.go, pkg/bds/bds61/aircraft_status_emergency.go, pkg/bds/bds61/aircraft_status_no_information.go. -/
def Gen.bds.bds61.AircraftStatus.CheckCoherency : AircraftStatus → Go Unit
  | .noInformation x => Gen.bds.bds61.AircraftStatusNoInformation.CheckCoherency x
  | .emergency x => Gen.bds.bds61.AircraftStatusEmergency.CheckCoherency x
  | .acas x => Gen.bds.bds61.AircraftStatusACAS.CheckCoherency x

/-- pkg/adsb/aircraft_status/aircraft_status.go:20-22 -/
def Gen.adsb.aircraft_status.AircraftStatus.CheckCoherency (aircraftStatus : AircraftStatus) (adsbVersion : UInt8) : Go Unit := do
  Gen.bds.bds61.AircraftStatus.CheckCoherency aircraftStatus

/-- pkg/bds/bds61/fields/subtype.go:49-52 -/
def Gen.bds.bds61.fields.ReadSubtype (data : List UInt8) : Go UInt8 := do
  let bits := (← idx data 0) &&& 7
  return bits

/-- pkg/bds/bds61/fields/emergency_status.go:55-58 -/
def Gen.bds.bds61.fields.ReadEmergencyPriorityStatus (data : List UInt8) : Go UInt8 := do
  let bits := ((← idx data 1) &&& 224) >>> 5
  return bits

/-- pkg/bds/bds61/aircraft_status_no_information.go:49-80 -/
def Gen.bds.bds61.ReadAircraftStatusNoInformation (data : List UInt8) : Go StatusNoInformation := do
  if data.length ≠ 7 then fail
  let formatTypeCode := ((← idx data 0) &&& 248) >>> 3
  if formatTypeCode ≠ 28 then fail
  let subType ← Gen.bds.bds61.fields.ReadSubtype data
  if subType ≠ 0 then fail
  if ((← idx data 1) &&& 31) ≠ 0 then fail
  if ((← idx data 1) &&& 31) ≠ 0 then fail
  if ((← idx data 1) &&& 31) ≠ 0 then fail
  if ((← idx data 1) &&& 31) ≠ 0 then fail
  if ((← idx data 1) &&& 31) ≠ 0 then fail
  if ((← idx data 1) &&& 31) ≠ 0 then fail
  return { formatTypeCode := formatTypeCode,
           subtype := subType,
           emergencyPriorityStatus := (← Gen.bds.bds61.fields.ReadEmergencyPriorityStatus data) : StatusNoInformation }

/-- pkg/bds/bds61/aircraft_status_emergency.go:50-81 -/
def Gen.bds.bds61.ReadAircraftStatusEmergency (data : List UInt8) : Go StatusEmergency := do
  if data.length ≠ 7 then fail
  let formatTypeCode := ((← idx data 0) &&& 248) >>> 3
  if formatTypeCode ≠ 28 then fail
  let subType ← Gen.bds.bds61.fields.ReadSubtype data
  if subType ≠ 1 then fail
  let byte1 := (← idx data 1) &&& 31
  let byte2 ← idx data 2
  if (← idx data 3) ≠ 0 then fail
  if (← idx data 4) ≠ 0 then fail
  if (← idx data 5) ≠ 0 then fail
  if (← idx data 6) ≠ 0 then fail
  return { formatTypeCode := formatTypeCode,
           subtype := subType,
           emergencyPriorityStatus := (← Gen.bds.bds61.fields.ReadEmergencyPriorityStatus data),
           modeACode := Gen.bitutils.Pack2Bytes byte1 byte2 : StatusEmergency }

/-- pkg/bds/bds61/aircraft_status_acas.go:44-70 -/
def Gen.bds.bds61.ReadAircraftStatusACAS (data : List UInt8) : Go StatusACAS := do
  if data.length ≠ 7 then fail
  let formatTypeCode := ((← idx data 0) &&& 248) >>> 3
  if formatTypeCode ≠ 28 then fail
  let subType ← Gen.bds.bds61.fields.ReadSubtype data
  if subType ≠ 2 then fail
  let resolutionAdvisory ← Gen.acas.ra.ReadResolutionAdvisory (← sliceFrom data 1)
  return { formatTypeCode := formatTypeCode, subtype := subType, resolutionAdvisory := resolutionAdvisory : StatusACAS }

/-- pkg/bds/bds61/aircraft_status.go:15-37 -/
def Gen.bds.bds61.ReadAircraftStatus (data : List UInt8) : Go AircraftStatus := do
  if data.length ≠ 7 then fail
  let formatTypeCode := ((← idx data 0) &&& 248) >>> 3
  if formatTypeCode ≠ 28 then fail
  let subType ← Gen.bds.bds61.fields.ReadSubtype data
  if subType = 0 then
    return AircraftStatus.noInformation (← Gen.bds.bds61.ReadAircraftStatusNoInformation data)
  else
    if subType = 1 then
      return AircraftStatus.emergency (← Gen.bds.bds61.ReadAircraftStatusEmergency data)
    else
      if subType = 2 then
        return AircraftStatus.acas (← Gen.bds.bds61.ReadAircraftStatusACAS data)
      else
        fail

/-- pkg/adsb/aircraft_status/aircraft_status.go:31-42 -/
def Gen.adsb.aircraft_status.ReadAircraftStatus (adsbVersion : UInt8) (data : List UInt8) : Go ADSBMessage := do
  let bds ← Gen.bds.bds61.ReadAircraftStatus data
  return .status bds adsbVersion

/-- pkg/adsb/no_position_information/no_position_information.go:17-19 -/
def Gen.adsb.no_position_information.NoPositionInformation.GetADSBVersion (adsbVersion : UInt8) (formatTypeCode : UInt8) (altitudeBarometric : Int) (navigationIntegrityCategory : UInt8) : UInt8 :=
  adsbVersion

/-- pkg/adsb/no_position_information/no_position_information.go:22-24 -/
def Gen.adsb.no_position_information.NoPositionInformation.CheckCoherency (adsbVersion : UInt8) (formatTypeCode : UInt8) (altitudeBarometric : Int) (navigationIntegrityCategory : UInt8) : Go Unit := do
  return ()

/-- pkg/adsb/no_position_information/no_position_information.go:38-54 -/
def Gen.adsb.no_position_information.ReadNoPositionInformation (adsbVersion : UInt8) (data : List UInt8) : Go ADSBMessage := do
  let dataTmp := [120, (← idx data 1), (← idx data 2), 0, 0, 0, 0]
  let bds ← Gen.bds.bds05.ReadAirbornePosition dataTmp
  return .noPosition adsbVersion 0 bds.altitudeInFeet 0

/-- pkg/bds/bds06/fields/movement.go:50-70 -/
def Gen.bds.bds06.fields.MovementStatus.getSpeed (movementStatus : Nat) : ℚ :=
  if (movementStatus = 0 ∨ movementStatus = 1) ∨ movementStatus > 124 then
    0
  else
    if 2 ≤ movementStatus ∧ movementStatus ≤ 8 then
      f32 ((1 / 8) + (f32 ((f32 ((movementStatus - 2) : ℚ)) * (1 / 8))))
    else
      if 9 ≤ movementStatus ∧ movementStatus ≤ 12 then
        f32 (1 + (f32 ((f32 ((movementStatus - 9) : ℚ)) * (1 / 4))))
      else
        if 13 ≤ movementStatus ∧ movementStatus ≤ 38 then
          f32 (2 + (f32 ((f32 ((movementStatus - 13) : ℚ)) * (1 / 2))))
        else
          if 39 ≤ movementStatus ∧ movementStatus ≤ 93 then
            f32 (15 + (f32 ((f32 ((movementStatus - 39) : ℚ)) * 1)))
          else
            if 94 ≤ movementStatus ∧ movementStatus ≤ 108 then
              f32 (70 + (f32 ((f32 ((movementStatus - 94) : ℚ)) * 2)))
            else
              if 109 ≤ movementStatus ∧ movementStatus ≤ 123 then
                f32 (100 + (f32 ((f32 ((movementStatus - 109) : ℚ)) * 5)))
              else
                175

/-- pkg/bds/bds06/fields/movement.go:73-77 -/
def Gen.bds.bds06.fields.ReadMovement (data : List UInt8) : Go (ℚ × Nat) := do
  let bits := (((← idx data 0) &&& 7) <<< 4) + (((← idx data 1) &&& 240) >>> 4)
  let status := bits.toNat
  return (Gen.bds.bds06.fields.MovementStatus.getSpeed status, status)

/-- pkg/bds/bds06/fields/ground_track.go:8-18 -/
def Gen.bds.bds06.fields.ReadGroundTrack (data : List UInt8) : Go (ℚ × Bool) := do
  let status := ((← idx data 1) &&& 8) != 0
  let byte1 := (← idx data 1) &&& 7
  let byte2 := (← idx data 2) &&& 240
  let allBits := (Gen.bitutils.Pack2Bytes byte1 byte2) >>> 4
  let groundTrack := f32 ((f32 ((f32 (allBits.toNat : ℚ)) * 360)) / 128)
  return (groundTrack, status)

/-- pkg/bds/bds06/fields/time.go:31-34 -/
def Gen.bds.bds06.fields.ReadTime (data : List UInt8) : Go UInt8 := do
  let bits := ((← idx data 2) &&& 8) >>> 3
  return bits

/-- pkg/bds/bds06/fields/compact_position_reporting_format.go:31-34 -/
def Gen.bds.bds06.fields.ReadCompactPositionReportingFormat (data : List UInt8) : Go UInt8 := do
  let bits := ((← idx data 2) &&& 4) >>> 2
  return bits

/-- pkg/bds/bds06/fields/encoded_latitude.go:19-26 -/
def Gen.bds.bds06.fields.ReadEncodedLatitude (data : List UInt8) : Go UInt32 := do
  let b2 := ((← idx data 2) &&& 2) >>> 1
  let b1 := (((← idx data 2) &&& 1) <<< 7) + (((← idx data 3) &&& 254) >>> 1)
  let b0 := (((← idx data 3) &&& 1) <<< 7) + (((← idx data 4) &&& 254) >>> 1)
  return Gen.bitutils.Pack3Bytes b2 b1 b0

/-- pkg/bds/bds06/fields/encoded_longitude.go:19-26 -/
def Gen.bds.bds06.fields.ReadEncodedLongitude (data : List UInt8) : Go UInt32 := do
  let b2 := (← idx data 4) &&& 1
  let b1 ← idx data 5
  let b0 ← idx data 6
  return Gen.bitutils.Pack3Bytes b2 b1 b0

/-- pkg/bds/bds06/surface_position.go:57-83 -/
def Gen.bds.bds06.ReadSurfacePosition (data : List UInt8) : Go SurfacePosition := do
  if data.length ≠ 7 then fail
  let formatTypeCode := ((← idx data 0) &&& 248) >>> 3
  if formatTypeCode < 5 ∨ formatTypeCode > 8 then fail
  let (speed, movementStatus) ← Gen.bds.bds06.fields.ReadMovement data
  let (groundTrack, groundTrackStatus) ← Gen.bds.bds06.fields.ReadGroundTrack data
  return { formatTypeCode := formatTypeCode,
           movementStatus := movementStatus,
           movementSpeed := speed,
           groundTrackStatus := groundTrackStatus,
           groundTrack := groundTrack,
           time := (← Gen.bds.bds06.fields.ReadTime data),
           cprFormat := (← Gen.bds.bds06.fields.ReadCompactPositionReportingFormat data),
           encodedLatitude := (← Gen.bds.bds06.fields.ReadEncodedLatitude data),
           encodedLongitude := (← Gen.bds.bds06.fields.ReadEncodedLongitude data) : SurfacePosition }

/-- pkg/adsb/surface_position/surface_position_v0.go:38-50 -/
def Gen.adsb.surface_position.ReadSurfacePositionV0 (data : List UInt8) : Go ADSBMessage := do
  let bds ← Gen.bds.bds06.ReadSurfacePosition data
  return .surfaceV0 bds bds.formatTypeCode bds.formatTypeCode

/-- pkg/adsb/surface_position/surface_position_v1.go:58-73 -/
def Gen.adsb.surface_position.getHCRAndNICForV1 (formatTypeCode : UInt8) (nicSupplementA : Bool) : UInt8 × UInt8 :=
  if formatTypeCode = 5 then
    (0, 11)
  else
    if formatTypeCode = 6 then
      (1, 10)
    else
      if formatTypeCode = 7 then
        if nicSupplementA then
          (2, 9)
        else
          (4, 8)
      else
        (4, 0)

/-- pkg/adsb/surface_position/surface_position_v1.go:41-56 -/
def Gen.adsb.surface_position.ReadSurfacePositionV1 (data : List UInt8) (nicSupplementA : Bool) : Go ADSBMessage := do
  let bds ← Gen.bds.bds06.ReadSurfacePosition data
  let (hcr, nic) := Gen.adsb.surface_position.getHCRAndNICForV1 bds.formatTypeCode nicSupplementA
  return .surfaceV1 bds nicSupplementA hcr nic

/-- pkg/adsb/surface_position/surface_position_v2.go:62-89 -/
def Gen.adsb.surface_position.getHCRAndNICForV2 (formatTypeCode : UInt8) (nicSupplementA : Bool) (nicSupplementC : Bool) : UInt8 × UInt8 :=
  if formatTypeCode = 5 then
    (0, 11)
  else
    if formatTypeCode = 6 then
      (1, 10)
    else
      if formatTypeCode = 7 then
        if nicSupplementA then
          (2, 9)
        else
          (3, 8)
      else
        if nicSupplementA then
          if nicSupplementC then
            (4, 7)
          else
            (5, 6)
        else
          if nicSupplementC then
            (6, 6)
          else
            (7, 0)

/-- pkg/adsb/surface_position/surface_position_v2.go:44-60 -/
def Gen.adsb.surface_position.ReadSurfacePositionV2 (data : List UInt8) (nicSupplementA : Bool) (nicSupplementC : Bool) : Go ADSBMessage := do
  let bds ← Gen.bds.bds06.ReadSurfacePosition data
  let (hcr, nic) := Gen.adsb.surface_position.getHCRAndNICForV2 bds.formatTypeCode nicSupplementA nicSupplementC
  return .surfaceV2 bds nicSupplementA nicSupplementC hcr nic

/-- pkg/adsb/surface_position/surface_position.go:9-21 -/
def Gen.adsb.surface_position.ReadSurfacePosition (adsbVersion : UInt8) (data : List UInt8) (nicSupplementA : Bool) (nicSupplementC : Bool) : Go ADSBMessage := do
  if adsbVersion = 0 then
    Gen.adsb.surface_position.ReadSurfacePositionV0 data
  else
    if adsbVersion = 1 then
      Gen.adsb.surface_position.ReadSurfacePositionV1 data nicSupplementA
    else
      if adsbVersion = 2 then
        Gen.adsb.surface_position.ReadSurfacePositionV2 data nicSupplementA nicSupplementC
      else
        fail

/-- pkg/bds/bds62/fields/subtype.go:39-42 -/
def Gen.bds.bds62.fields.ReadSubtype (data : List UInt8) : Go UInt8 := do
  let bits := ((← idx data 0) &&& 6) >>> 1
  return bits

/-- pkg/bds/bds62/fields/target_altitude.go:12-23 -/
def Gen.bds.bds62.fields.ReadTargetAltitude (data : List UInt8) : Go (Int × NumericValueStatus) := do
  let byte1 := (← idx data 1) &&& 1
  let byte2 := (← idx data 2) &&& 255
  let byte3 := (← idx data 3) &&& 128
  let targetAltitude := (((Gen.bitutils.Pack3Bytes byte1 byte2 byte3) >>> 7).toNat : Int)
  if targetAltitude > 1010 then
    return (0, .maximum)
  else
    return ((targetAltitude * 100) - 1000, .regular)

/-- pkg/bds/bds62/fields/target_heading_track_angle.go:41-51 -/
def Gen.bds.bds62.fields.ReadTargetHeadingTrackAngle (data : List UInt8) : Go (UInt16 × NumericValueStatus) := do
  let byte1 := (← idx data 3) &&& 31
  let byte2 := (← idx data 2) &&& 240
  let targetHeading := (Gen.bitutils.Pack2Bytes byte1 byte2) >>> 4
  if targetHeading > 359 then
    return (0, .maximum)
  else
    return (targetHeading, .regular)

/-- pkg/bds/bds62/fields/vertical_data_source_indicator.go:39-42 -/
def Gen.bds.bds62.fields.ReadVerticalDataAvailableSourceIndicator (data : List UInt8) : Go UInt8 := do
  let bits := (((← idx data 0) &&& 1) <<< 1) + (((← idx data 1) &&& 128) >>> 7)
  return bits

/-- pkg/bds/bds62/fields/target_altitude_type.go:31-34 -/
def Gen.bds.bds62.fields.ReadTargetAltitudeType (data : List UInt8) : Go UInt8 := do
  let bits := ((← idx data 1) &&& 64) >>> 6
  return bits

/-- pkg/bds/bds62/fields/target_altitude_capability.go:41-44 -/
def Gen.bds.bds62.fields.ReadTargetAltitudeCapability (data : List UInt8) : Go UInt8 := do
  let bits := ((← idx data 1) &&& 24) >>> 3
  return bits

/-- pkg/bds/bds62/fields/vertical_mode_indicator.go:39-42 -/
def Gen.bds.bds62.fields.ReadVerticalModeIndicator (data : List UInt8) : Go UInt8 := do
  let bits := ((← idx data 1) &&& 6) >>> 1
  return bits

/-- pkg/bds/bds62/fields/horizontal_data_source_indicator.go:39-42 -/
def Gen.bds.bds62.fields.ReadHorizontalDataAvailableSourceIndicator (data : List UInt8) : Go UInt8 := do
  let bits := ((← idx data 3) &&& 96) >>> 5
  return bits

/-- pkg/bds/bds62/fields/target_heading_track_angle.go:34-37 -/
def Gen.bds.bds62.fields.ReadTargetHeadingTrackIndicator (data : List UInt8) : Go UInt8 := do
  let bits := ((← idx data 4) &&& 8) >>> 3
  return bits

/-- pkg/bds/bds62/fields/horizontal_mode_indicator.go:39-42 -/
def Gen.bds.bds62.fields.ReadHorizontalModeIndicator (data : List UInt8) : Go UInt8 := do
  let bits := ((← idx data 4) &&& 6) >>> 1
  return bits

/-- pkg/bds/bds62/fields/navigational_accuracy_category_position_v1.go:88-91 -/
def Gen.bds.bds62.fields.ReadNavigationalAccuracyCategoryPositionV1 (data : List UInt8) : Go UInt8 := do
  let bits := (((← idx data 4) &&& 1) <<< 3) + (((← idx data 5) &&& 224) >>> 5)
  return bits

/-- pkg/bds/bds62/fields/nic_baro.go:35-38 -/
def Gen.bds.bds62.fields.ReadNICBaro (data : List UInt8) : Go UInt8 := do
  let bits := ((← idx data 5) &&& 16) >>> 4
  return bits

/-- pkg/bds/bds62/fields/surveillance_integrity_level.go:58-61 -/
def Gen.bds.bds62.fields.ReadSurveillanceIntegrityLevel (data : List UInt8) : Go UInt8 := do
  let bits := ((← idx data 5) &&& 12) >>> 2
  return bits

/-- pkg/bds/bds62/fields/capability_mode_code.go:39-42 -/
def Gen.bds.bds62.fields.ReadCapabilityModeCode (data : List UInt8) : Go UInt8 := do
  let bits := ((← idx data 6) &&& 24) >>> 3
  return bits

/-- pkg/bds/bds62/fields/emergency_priority_status.go:55-58 -/
def Gen.bds.bds62.fields.ReadEmergencyPriorityStatus (data : List UInt8) : Go UInt8 := do
  let bits := (← idx data 6) &&& 7
  return bits

/-- pkg/bds/bds62/target_state_and_status_type_0.go:91-138 -/
def Gen.bds.bds62.ReadTargetStateAndStatus0 (data : List UInt8) : Go TargetStateAndStatus0 := do
  if data.length ≠ 7 then fail
  let formatTypeCode := ((← idx data 0) &&& 248) >>> 3
  if formatTypeCode ≠ 29 then fail
  let subType ← Gen.bds.bds62.fields.ReadSubtype data
  if subType ≠ 0 then fail
  if ((← idx data 5) &&& 3) ≠ 0 then fail
  if ((← idx data 6) &&& 224) ≠ 0 then fail
  let (targetAltitude, targetAltitudeStatus) ← Gen.bds.bds62.fields.ReadTargetAltitude data
  let (targetHeading, targetHeadingStatus) ← Gen.bds.bds62.fields.ReadTargetHeadingTrackAngle data
  return { formatTypeCode := formatTypeCode,
           subtype := subType,
           verticalDataAvailableSourceIndicator := (← Gen.bds.bds62.fields.ReadVerticalDataAvailableSourceIndicator data),
           targetAltitudeType := (← Gen.bds.bds62.fields.ReadTargetAltitudeType data),
           targetAltitudeCapability := (← Gen.bds.bds62.fields.ReadTargetAltitudeCapability data),
           verticalModeIndicator := (← Gen.bds.bds62.fields.ReadVerticalModeIndicator data),
           targetAltitudeStatus := targetAltitudeStatus,
           targetAltitude := targetAltitude,
           horizontalDataAvailableSourceIndicator := (← Gen.bds.bds62.fields.ReadHorizontalDataAvailableSourceIndicator data),
           targetHeadingTrackAngleStatus := targetHeadingStatus,
           targetHeadingTrackAngle := targetHeading,
           targetHeadingTrackIndicator := (← Gen.bds.bds62.fields.ReadTargetHeadingTrackIndicator data),
           horizontalModeIndicator := (← Gen.bds.bds62.fields.ReadHorizontalModeIndicator data),
           navigationalAccuracyCategoryPosition := (← Gen.bds.bds62.fields.ReadNavigationalAccuracyCategoryPositionV1 data),
           nicBaro := (← Gen.bds.bds62.fields.ReadNICBaro data),
           surveillanceIntegrityLevel := (← Gen.bds.bds62.fields.ReadSurveillanceIntegrityLevel data),
           capabilityModeCode := (← Gen.bds.bds62.fields.ReadCapabilityModeCode data),
           emergencyPriorityStatus := (← Gen.bds.bds62.fields.ReadEmergencyPriorityStatus data) : TargetStateAndStatus0 }

/-- pkg/bds/bds62/fields/selected_altitude.go:8-18 -/
def Gen.bds.bds62.fields.ReadSelectedAltitude (data : List UInt8) : Go (UInt16 × NumericValueStatus) := do
  let byte1 := (← idx data 1) &&& 127
  let byte2 := (← idx data 2) &&& 240
  let allByte := (Gen.bitutils.Pack2Bytes byte1 byte2) >>> 4
  if allByte = 0 then
    return (0, .noInformation)
  else
    return ((allByte - 1) * 32, .regular)

/-- pkg/bds/bds62/fields/barometric_pressure_setting.go:8-18 -/
def Gen.bds.bds62.fields.ReadBarometricPressureSetting (data : List UInt8) : Go (ℚ × NumericValueStatus) := do
  let byte1 := (← idx data 2) &&& 15
  let byte2 := (← idx data 3) &&& 248
  let allByte := (Gen.bitutils.Pack2Bytes byte1 byte2) >>> 3
  if allByte = 0 then
    return (0, .noInformation)
  else
    return (f32 ((f32 ((f32 ((allByte - 1).toNat : ℚ)) * (f32 (4 / 5)))) + 800), .regular)

/-- pkg/bds/bds62/fields/selected_heading.go:34-47 -/
def Gen.bds.bds62.fields.ReadSelectedHeading (data : List UInt8) : Go ((ℚ × Bool) × UInt8) := do
  let status := ((← idx data 3) &&& 4) >>> 2
  let negative := ((← idx data 3) &&& 2) != 0
  let byte1 := (← idx data 3) &&& 1
  let byte2 := (← idx data 4) &&& 254
  let heading := signedOf (f32 (((Gen.bitutils.Pack2Bytes byte1 byte2) >>> 1).toNat : ℚ))
  let heading := if negative then
      let heading := signedNeg heading
      heading
    else
      heading
  return (signedDiv (signedMul heading (signedOf 180)) (signedOf 256), status)

/-- pkg/bds/bds62/fields/source_integrity_level_supplement.go:31-34 -/
def Gen.bds.bds62.fields.ReadSourceIntegrityLevelSupplement (data : List UInt8) : Go UInt8 := do
  let bits := (← idx data 0) &&& 1
  return bits

/-- pkg/bds/bds62/fields/selected_altitude_type.go:31-34 -/
def Gen.bds.bds62.fields.ReadSelectedAltitudeType (data : List UInt8) : Go UInt8 := do
  let bits := (← idx data 0) &&& 1
  return bits

/-- pkg/bds/bds62/fields/navigational_accuracy_category_position_v2.go:88-91 -/
def Gen.bds.bds62.fields.ReadNavigationalAccuracyCategoryPositionV2 (data : List UInt8) : Go UInt8 := do
  let bits := (((← idx data 4) &&& 1) <<< 3) + (((← idx data 5) &&& 224) >>> 5)
  return bits

/-- pkg/bds/bds62/fields/source_integrity_level.go:39-42 -/
def Gen.bds.bds62.fields.ReadSourceIntegrityLevel (data : List UInt8) : Go UInt8 := do
  let bits := ((← idx data 5) &&& 12) >>> 2
  return bits

/-- pkg/bds/bds62/fields/status_mcp_fcu_bits.go:33-36 -/
def Gen.bds.bds62.fields.ReadStatusMCPFCUBits (data : List UInt8) : Go UInt8 := do
  let bits := ((← idx data 5) &&& 2) >>> 1
  return bits

/-- pkg/bds/bds62/target_state_and_status_type_1.go:96-138 -/
def Gen.bds.bds62.ReadTargetStateAndStatus1 (data : List UInt8) : Go TargetStateAndStatus1 := do
  if data.length ≠ 7 then fail
  let formatTypeCode := ((← idx data 0) &&& 248) >>> 3
  if formatTypeCode ≠ 29 then fail
  let subType ← Gen.bds.bds62.fields.ReadSubtype data
  if subType ≠ 1 then fail
  let (selectedAltitude, selectedAltitudeStatus) ← Gen.bds.bds62.fields.ReadSelectedAltitude data
  let (barometricPressureSetting, barometricPressureSettingStatus) ← Gen.bds.bds62.fields.ReadBarometricPressureSetting data
  let (selectedHeading, selectedHeadingStatus) ← Gen.bds.bds62.fields.ReadSelectedHeading data
  return { formatTypeCode := formatTypeCode,
           subtype := subType,
           sourceIntegrityLevelSupplement := (← Gen.bds.bds62.fields.ReadSourceIntegrityLevelSupplement data),
           selectedAltitudeType := (← Gen.bds.bds62.fields.ReadSelectedAltitudeType data),
           selectedAltitudeStatus := selectedAltitudeStatus,
           selectedAltitude := selectedAltitude,
           barometricPressureSettingStatus := barometricPressureSettingStatus,
           barometricPressureSetting := barometricPressureSetting,
           selectedHeadingStatus := selectedHeadingStatus,
           selectedHeading := selectedHeading.1,
           selectedHeadingMinus := selectedHeading.2,
           navigationalAccuracyCategoryPosition := (← Gen.bds.bds62.fields.ReadNavigationalAccuracyCategoryPositionV2 data),
           nicBaro := (← Gen.bds.bds62.fields.ReadNICBaro data),
           sourceIntegrityLevel := (← Gen.bds.bds62.fields.ReadSourceIntegrityLevel data),
           statusMCPFCUBits := (← Gen.bds.bds62.fields.ReadStatusMCPFCUBits data),
           autopilotEngaged := ((← idx data 5) &&& 1) != 0,
           vnavModeEngaged := ((← idx data 6) &&& 128) != 0,
           altitudeHoldModeEngaged := ((← idx data 6) &&& 64) != 0,
           approachModeEngaged := ((← idx data 6) &&& 16) != 0,
           tcasACASOperational := ((← idx data 6) &&& 8) != 0,
           lnavModeEngaged := ((← idx data 6) &&& 4) != 0 : TargetStateAndStatus1 }

/-- pkg/bds/bds62/target_state_and_status.go:15-35 -/
def Gen.bds.bds62.ReadTargetStateAndStatus (data : List UInt8) : Go TargetStateAndStatus := do
  if data.length ≠ 7 then fail
  let formatTypeCode := ((← idx data 0) &&& 248) >>> 3
  if formatTypeCode ≠ 29 then fail
  let subType ← Gen.bds.bds62.fields.ReadSubtype data
  if subType = 0 then
    return TargetStateAndStatus.type0 (← Gen.bds.bds62.ReadTargetStateAndStatus0 data)
  else
    if subType = 1 then
      return TargetStateAndStatus.type1 (← Gen.bds.bds62.ReadTargetStateAndStatus1 data)
    else
      fail

/-- pkg/adsb/target_state_and_status/target_state_status.go:31-42 -/
def Gen.adsb.target_state_and_status.ReadTargetStateAndStatus (adsbVersion : UInt8) (data : List UInt8) : Go ADSBMessage := do
  let bds ← Gen.bds.bds62.ReadTargetStateAndStatus data
  return .targetState bds adsbVersion

/-- pkg/adsb/reader/reader.go:33-105 -/
def Gen.adsb.reader.ReadADSBMessage (adsbLevel : UInt8) (nicSupplementA : Bool) (nicSupplementC : Bool) (data : List UInt8) : Go ADSBMessage := do
  if data.length ≠ 7 then fail
  let formatTypeCode := ((← idx data 0) &&& 248) >>> 3
  if formatTypeCode = 0 then
    if (← andGo (← andGo (← andGo (← andGo (((← idx data 2) &&& 15) == 0) (do pure ((← idx data 3) == 0))) (do pure ((← idx data 4) == 0))) (do pure ((← idx data 5) == 0))) (do pure ((← idx data 6) == 0))) then
      Gen.adsb.no_position_information.ReadNoPositionInformation adsbLevel data
    else
      Gen.adsb.airborne_position.ReadAirbornePositionType0 adsbLevel data
  else
    if ((formatTypeCode = 1 ∨ formatTypeCode = 2) ∨ formatTypeCode = 3) ∨ formatTypeCode = 4 then
      Gen.adsb.aircraft_identification_and_category.ReadAircraftIdentificationAndCategory adsbLevel data
    else
      if ((formatTypeCode = 5 ∨ formatTypeCode = 6) ∨ formatTypeCode = 7) ∨ formatTypeCode = 8 then
        Gen.adsb.surface_position.ReadSurfacePosition adsbLevel data nicSupplementA nicSupplementC
      else
        if (((((((((((formatTypeCode = 9 ∨ formatTypeCode = 10) ∨ formatTypeCode = 11) ∨ formatTypeCode = 12) ∨ formatTypeCode = 13) ∨ formatTypeCode = 14) ∨ formatTypeCode = 15) ∨ formatTypeCode = 16) ∨ formatTypeCode = 17) ∨ formatTypeCode = 18) ∨ formatTypeCode = 20) ∨ formatTypeCode = 21) ∨ formatTypeCode = 22 then
          Gen.adsb.airborne_position.ReadAirbornePosition adsbLevel data nicSupplementA
        else
          if formatTypeCode = 19 then
            Gen.adsb.airborne_velocity.ReadAirborneVelocity adsbLevel data
          else
            if formatTypeCode = 28 then
              Gen.adsb.aircraft_status.ReadAircraftStatus adsbLevel data
            else
              if formatTypeCode = 29 then
                Gen.adsb.target_state_and_status.ReadTargetStateAndStatus adsbLevel data
              else
                if formatTypeCode = 31 then
                  Gen.adsb.aircraft_operational_status.ReadAircraftOperationalStatus adsbLevel data
                else
                  fail

/-- pkg/adsb/surface_position/fields/containment_radius.go:26-37 -/
def Gen.adsb.surface_position.fields.ContainmentRadius.GetHorizontalContainmentLowerBound (cr : UInt8) : ℚ :=
  if cr = 6 then
    3
  else
    if cr = 7 then
      10
    else
      if cr = 8 then
        f64 (463 / 5)
      else
        (-1)

/-- pkg/adsb/surface_position/fields/containment_radius.go:43-54 -/
def Gen.adsb.surface_position.fields.ContainmentRadius.GetHorizontalContainmentHigherBound (cr : UInt8) : ℚ :=
  if cr = 5 then
    3
  else
    if cr = 6 then
      10
    else
      if cr = 7 then
        f64 (463 / 5)
      else
        (-1)

/-- pkg/adsb/surface_position/fields/horizontal_protection_limit.go:25-32 -/
def Gen.adsb.surface_position.fields.HorizontalProtectionLimit.GetHPLLowerBound (hpl : UInt8) : ℚ :=
  if hpl = 8 then
    f64 (926 / 5)
  else
    (-1)

/-- pkg/adsb/surface_position/fields/horizontal_protection_limit.go:38-49 -/
def Gen.adsb.surface_position.fields.HorizontalProtectionLimit.GetHPLHigherBound (hpl : UInt8) : ℚ :=
  if hpl = 5 then
    (15 / 2)
  else
    if hpl = 6 then
      25
    else
      if hpl = 7 then
        f64 (926 / 5)
      else
        (-1)

/-- pkg/adsb/surface_position/surface_position_v0.go:28-30 -/
def Gen.adsb.surface_position.SurfacePositionV0.GetADSBVersion (surfacePosition : SurfacePosition) (horizontalProtectionLimit : UInt8) (containmentRadius : UInt8) : UInt8 :=
  0

/-- pkg/bds/bds06/surface_position.go:28-30 -/
def Gen.bds.bds06.SurfacePosition.CheckCoherency (message : SurfacePosition) : Go Unit := do
  return ()

/-- pkg/adsb/surface_position/surface_position_v0.go:33-35 -/
def Gen.adsb.surface_position.SurfacePositionV0.CheckCoherency (surfacePosition : SurfacePosition) (horizontalProtectionLimit : UInt8) (containmentRadius : UInt8) : Go Unit := do
  Gen.bds.bds06.SurfacePosition.CheckCoherency surfacePosition

/-- pkg/adsb/surface_position/surface_position_v1.go:31-33 -/
def Gen.adsb.surface_position.SurfacePositionV1.GetADSBVersion (surfacePosition : SurfacePosition) (nicSupplementA : Bool) (horizontalContainmentRadius : UInt8) (navigationIntegrityCategory : UInt8) : UInt8 :=
  1

/-- pkg/adsb/surface_position/surface_position_v1.go:36-38 -/
def Gen.adsb.surface_position.SurfacePositionV1.CheckCoherency (surfacePosition : SurfacePosition) (nicSupplementA : Bool) (horizontalContainmentRadius : UInt8) (navigationIntegrityCategory : UInt8) : Go Unit := do
  Gen.bds.bds06.SurfacePosition.CheckCoherency surfacePosition

/-- pkg/adsb/surface_position/surface_position_v2.go:34-36 -/
def Gen.adsb.surface_position.SurfacePositionV2.GetADSBVersion (surfacePosition : SurfacePosition) (nicSupplementA : Bool) (nicSupplementC : Bool) (horizontalContainmentRadius : UInt8) (navigationIntegrityCategory : UInt8) : UInt8 :=
  2

/-- pkg/adsb/surface_position/surface_position_v2.go:39-41 -/
def Gen.adsb.surface_position.SurfacePositionV2.CheckCoherency (surfacePosition : SurfacePosition) (nicSupplementA : Bool) (nicSupplementC : Bool) (horizontalContainmentRadius : UInt8) (navigationIntegrityCategory : UInt8) : Go Unit := do
  Gen.bds.bds06.SurfacePosition.CheckCoherency surfacePosition

/-- pkg/adsb/target_state_and_status/target_state_status.go:15-17 -/
def Gen.adsb.target_state_and_status.TargetStateAndStatus.GetADSBVersion (targetStateAndStatus : TargetStateAndStatus) (adsbVersion : UInt8) : UInt8 :=
  adsbVersion

/-- pkg/bds/bds62/target_state_and_status_type_0.go:45-47 -/
def Gen.bds.bds62.TargetStateAndStatus0.CheckCoherency (message : TargetStateAndStatus0) : Go Unit := do
  return ()

/-- pkg/bds/bds62/target_state_and_status_type_1.go:46-48 -/
def Gen.bds.bds62.TargetStateAndStatus1.CheckCoherency (message : TargetStateAndStatus1) : Go Unit := do
  return ()

/-- The method CheckCoherency called through the interface pkg/bds/bds62.TargetStateAndStatus; its implementations are in pkg/bds/bds62/target_state_and_status_type_0.go, pkg/bds/bds62/target_state_and_status_type_1.go. -/
def Gen.bds.bds62.TargetStateAndStatus.CheckCoherency : TargetStateAndStatus → Go Unit
  | .type0 x => Gen.bds.bds62.TargetStateAndStatus0.CheckCoherency x
  | .type1 x => Gen.bds.bds62.TargetStateAndStatus1.CheckCoherency x

/-- pkg/adsb/target_state_and_status/target_state_status.go:20-22 -/
def Gen.adsb.target_state_and_status.TargetStateAndStatus.CheckCoherency (targetStateAndStatus : TargetStateAndStatus) (adsbVersion : UInt8) : Go Unit := do
  Gen.bds.bds62.TargetStateAndStatus.CheckCoherency targetStateAndStatus

/-- pkg/bds/bds00/no_message_available.go:30-32 -/
def Gen.bds.bds00.NoMessageAvailable.CheckCoherency (message : NoMessageAvailable) : Go Unit := do
  return ()

/-- pkg/bds/bds00/no_message_available.go:35-48 -/
def Gen.bds.bds00.ReadNoMessageAvailable (data : List UInt8) : Go NoMessageAvailable := do
  if data.length ≠ 7 then fail
  if (← idx data 0) ≠ 0 then fail
  if (← idx data 1) ≠ 0 then fail
  if (← idx data 2) ≠ 0 then fail
  if (← idx data 3) ≠ 0 then fail
  if (← idx data 4) ≠ 0 then fail
  if (← idx data 5) ≠ 0 then fail
  if (← idx data 6) ≠ 0 then fail
  return ({} : NoMessageAvailable)

/-- pkg/bds/bds07/fields/altitude_type_subfield.go:31-34 -/
def Gen.bds.bds07.fields.ReadAltitudeTypeSubfield (data : List UInt8) : Go UInt8 := do
  let bits := ((← idx data 0) &&& 32) >>> 5
  return bits

/-- pkg/bds/bds07/fields/transmission_rate_subfield.go:35-38 -/
def Gen.bds.bds07.fields.ReadTransmissionRateSubfield (data : List UInt8) : Go UInt8 := do
  let bits := ((← idx data 0) &&& 192) >>> 6
  return bits

/-- pkg/bds/bds07/status.go:25-31 -/
def Gen.bds.bds07.Status.CheckCoherency (message : Status07) : Go Unit := do
  if message.transmissionRateSubfield ≥ 3 then fail
  return ()

/-- pkg/bds/bds07/status.go:45-66 -/
def Gen.bds.bds07.ReadStatus (data : List UInt8) : Go Status07 := do
  if data.length ≠ 7 then fail
  if ((← idx data 0) &&& 28) ≠ 0 then fail
  if (← idx data 1) ≠ 0 then fail
  if (← idx data 2) ≠ 0 then fail
  if (← idx data 3) ≠ 0 then fail
  if (← idx data 4) ≠ 0 then fail
  if (← idx data 5) ≠ 0 then fail
  if (← idx data 6) ≠ 0 then fail
  return { transmissionRateSubfield := (← Gen.bds.bds07.fields.ReadTransmissionRateSubfield data),
           altitudeTypeSubfield := (← Gen.bds.bds07.fields.ReadAltitudeTypeSubfield data) : Status07 }

/-- pkg/bds/bds09/airborne_velocity_air_speed_normal.go:28-30 -/
def Gen.bds.bds09.AirborneVelocityAirSpeedNormal.GetSubtype (message : AirSpeedVelocity) : UInt8 :=
  message.subtype

/-- pkg/bds/bds09/airborne_velocity_air_speed_supersonic.go:28-30 -/
def Gen.bds.bds09.AirborneVelocityAirSpeedSupersonic.GetSubtype (message : AirSpeedVelocity) : UInt8 :=
  message.subtype

/-- pkg/bds/bds09/airborne_velocity_ground_speed_normal.go:32-34 -/
def Gen.bds.bds09.AirborneVelocityGroundSpeedNormal.GetSubtype (message : GroundSpeedVelocity) : UInt8 :=
  message.subtype

/-- pkg/bds/bds09/airborne_velocity_ground_speed_supersonic.go:32-34 -/
def Gen.bds.bds09.AirborneVelocityGroundSpeedSupersonic.GetSubtype (message : GroundSpeedVelocity) : UInt8 :=
  message.subtype

/-- pkg/bds/bds10/data_link_capability_report.go:39-70 -/
def Gen.bds.bds10.DataLinkCapabilityReport.CheckCoherency (message : DataLinkCapabilityReport) : Go Unit := do
  if message.acasStatus = 0 then
    if message.acasHybridSurveillanceCapability ≠ 0 then fail
    if message.acasGenerationCapability ≠ 0 then fail
    if message.acasApplicableDocument ≠ 0 then fail
    if message.modeSSubnetworkVersion > 5 then fail
    if message.uplinkELMThroughputCapability > 6 then fail
    if message.downlinkELMThroughputCapability > 6 then fail
    return ()
  else
    if message.acasApplicableDocument > 2 then fail
    if message.modeSSubnetworkVersion > 5 then fail
    if message.uplinkELMThroughputCapability > 6 then fail
    if message.downlinkELMThroughputCapability > 6 then fail
    return ()

/-- pkg/bds/bds10/fields/continuation_flag.go:31-34 -/
def Gen.bds.bds10.fields.ReadContinuationFlag (data : List UInt8) : Go UInt8 := do
  let bits := ((← idx data 1) &&& 128) >>> 7
  return bits

/-- pkg/bds/bds10/fields/overlay_command_capability.go:31-34 -/
def Gen.bds.bds10.fields.ReadOverlayCommandCapability (data : List UInt8) : Go UInt8 := do
  let bits := ((← idx data 1) &&& 2) >>> 1
  return bits

/-- pkg/bds/bds10/fields/acas_status.go:31-34 -/
def Gen.bds.bds10.fields.ReadACASStatus (data : List UInt8) : Go UInt8 := do
  let bits := (← idx data 1) &&& 1
  return bits

/-- pkg/bds/bds10/fields/modes_subnetwork_version.go:47-50 -/
def Gen.bds.bds10.fields.ReadModeSSubnetworkVersion (data : List UInt8) : Go UInt8 := do
  let bits := ((← idx data 2) &&& 254) >>> 1
  return bits

/-- pkg/bds/bds10/fields/transponder_enhanced_protocol_indicator.go:31-34 -/
def Gen.bds.bds10.fields.ReadTransponderEnhancedProtocolIndicator (data : List UInt8) : Go UInt8 := do
  let bits := (← idx data 2) &&& 1
  return bits

/-- pkg/bds/bds10/fields/modes_specific_services_capability.go:31-34 -/
def Gen.bds.bds10.fields.ReadModeSSpecificServicesCapability (data : List UInt8) : Go UInt8 := do
  let bits := ((← idx data 3) &&& 128) >>> 7
  return bits

/-- pkg/bds/bds10/fields/uplink_elm_throughput.go:51-54 -/
def Gen.bds.bds10.fields.ReadUplinkELMThroughputCapability (data : List UInt8) : Go UInt8 := do
  let bits := ((← idx data 3) &&& 112) >>> 4
  return bits

/-- pkg/bds/bds10/fields/downlink_elm_throughput.go:51-54 -/
def Gen.bds.bds10.fields.ReadDownlinkELMThroughputCapability (data : List UInt8) : Go UInt8 := do
  let bits := (← idx data 3) &&& 15
  return bits

/-- pkg/bds/bds10/fields/aircraft_identification_capability.go:31-34 -/
def Gen.bds.bds10.fields.ReadAircraftIdentificationCapability (data : List UInt8) : Go UInt8 := do
  let bits := ((← idx data 4) &&& 128) >>> 7
  return bits

/-- pkg/bds/bds10/fields/squitter_capability_subfield.go:32-35 -/
def Gen.bds.bds10.fields.ReadSquitterCapabilitySubfield (data : List UInt8) : Go UInt8 := do
  let bits := ((← idx data 4) &&& 64) >>> 6
  return bits

/-- pkg/bds/bds10/fields/surveillance_identifier_code.go:31-34 -/
def Gen.bds.bds10.fields.ReadSurveillanceIdentifierCode (data : List UInt8) : Go UInt8 := do
  let bits := ((← idx data 2) &&& 64) >>> 5
  return bits

/-- pkg/bds/bds10/fields/common_gicb_capability.go:31-34 -/
def Gen.bds.bds10.fields.ReadCommonUsageGICBCapability (data : List UInt8) : Go UInt8 := do
  let bits := ((← idx data 4) &&& 16) >>> 4
  return bits

/-- pkg/bds/bds10/fields/acas_hybrid_surveillance_capability.go:31-34 -/
def Gen.bds.bds10.fields.ReadACASHybridSurveillanceCapability (data : List UInt8) : Go UInt8 := do
  let bits := ((← idx data 4) &&& 8) >>> 3
  return bits

/-- pkg/bds/bds10/fields/acas_generation_capability.go:31-34 -/
def Gen.bds.bds10.fields.ReadACASGenerationCapability (data : List UInt8) : Go UInt8 := do
  let bits := ((← idx data 4) &&& 4) >>> 2
  return bits

/-- pkg/bds/bds10/fields/acas_applicable_document.go:37-40 -/
def Gen.bds.bds10.fields.ReadACASApplicableDocument (data : List UInt8) : Go UInt8 := do
  let bits := (← idx data 4) &&& 3
  return bits

/-- pkg/bds/bds10/fields/dte_sub_address_statuses.go:28-30 -/
def Gen.bds.bds10.fields.ReadDTESubAddressStatuses (data : List UInt8) : Go UInt16 := do
  return Gen.bitutils.Pack2Bytes (← idx data 5) (← idx data 6)

/-- pkg/bds/bds10/data_link_capability_report.go:110-144 -/
def Gen.bds.bds10.ReadDataLinkCapabilityReport (data : List UInt8) : Go DataLinkCapabilityReport := do
  if data.length ≠ 7 then fail
  if (← idx data 0) ≠ 16 then fail
  if ((← idx data 1) &&& 124) ≠ 0 then fail
  return { continuationFlag := (← Gen.bds.bds10.fields.ReadContinuationFlag data),
           overlayCommandCapability := (← Gen.bds.bds10.fields.ReadOverlayCommandCapability data),
           acasStatus := (← Gen.bds.bds10.fields.ReadACASStatus data),
           modeSSubnetworkVersion := (← Gen.bds.bds10.fields.ReadModeSSubnetworkVersion data),
           transponderEnhancedProtocolIndicator := (← Gen.bds.bds10.fields.ReadTransponderEnhancedProtocolIndicator data),
           modeSSpecificServicesCapability := (← Gen.bds.bds10.fields.ReadModeSSpecificServicesCapability data),
           uplinkELMThroughputCapability := (← Gen.bds.bds10.fields.ReadUplinkELMThroughputCapability data),
           downlinkELMThroughputCapability := (← Gen.bds.bds10.fields.ReadDownlinkELMThroughputCapability data),
           aircraftIdentificationCapability := (← Gen.bds.bds10.fields.ReadAircraftIdentificationCapability data),
           squitterCapabilitySubfield := (← Gen.bds.bds10.fields.ReadSquitterCapabilitySubfield data),
           surveillanceIdentifierCode := (← Gen.bds.bds10.fields.ReadSurveillanceIdentifierCode data),
           commonUsageGICBCapability := (← Gen.bds.bds10.fields.ReadCommonUsageGICBCapability data),
           acasHybridSurveillanceCapability := (← Gen.bds.bds10.fields.ReadACASHybridSurveillanceCapability data),
           acasGenerationCapability := (← Gen.bds.bds10.fields.ReadACASGenerationCapability data),
           acasApplicableDocument := (← Gen.bds.bds10.fields.ReadACASApplicableDocument data),
           dteSubAddressStatuses := (← Gen.bds.bds10.fields.ReadDTESubAddressStatuses data) : DataLinkCapabilityReport }

/-- pkg/bds/bds17/common_usage_gicb_capability_report.go:100-102 -/
def Gen.bds.bds17.CommonUsageGICBCapabilityReport.CheckCoherency (message : GICBCapabilityReport) : Go Unit := do
  return ()

/-- pkg/bds/bds17/common_usage_gicb_capability_report.go:105-149 -/
def Gen.bds.bds17.ReadCommonUsageGICBCapabilityReport (data : List UInt8) : Go GICBCapabilityReport := do
  if data.length ≠ 7 then fail
  if ((← idx data 3) &&& 7) ≠ 0 then fail
  if (← idx data 4) ≠ 0 then fail
  if (← idx data 5) ≠ 0 then fail
  if (← idx data 6) ≠ 0 then fail
  return { extendedSquitterAirbornePosition := (((← idx data 0) &&& 128) >>> 7) != 0,
           extendedSquitterSurfacePosition := (((← idx data 0) &&& 64) >>> 6) != 0,
           extendedSquitterStatus := (((← idx data 0) &&& 32) >>> 5) != 0,
           extendedSquitterIdentificationAndCategory := (((← idx data 0) &&& 16) >>> 4) != 0,
           extendedSquitterAirborneVelocityInformation := (((← idx data 0) &&& 8) >>> 3) != 0,
           extendedSquitterEventDrivenInformation := (((← idx data 0) &&& 4) >>> 2) != 0,
           aircraftIdentification := (((← idx data 0) &&& 2) >>> 1) != 0,
           aircraftRegistrationNumber := (((← idx data 0) &&& 1) >>> 0) != 0,
           selectedVerticalIntention := (((← idx data 1) &&& 128) >>> 7) != 0,
           nextWaypointIdentifier := (((← idx data 1) &&& 64) >>> 6) != 0,
           nextWaypointPosition := (((← idx data 1) &&& 32) >>> 5) != 0,
           nextWaypointInformation := (((← idx data 1) &&& 16) >>> 4) != 0,
           meteorologicalRoutineReport := (((← idx data 1) &&& 8) >>> 3) != 0,
           meteorologicalHazardReport := (((← idx data 1) &&& 4) >>> 2) != 0,
           vhfChannelReport := (((← idx data 1) &&& 2) >>> 1) != 0,
           trackAndTurnReport := (((← idx data 1) &&& 1) >>> 0) != 0,
           positionCoarse := (((← idx data 2) &&& 128) >>> 7) != 0,
           positionFine := (((← idx data 2) &&& 64) >>> 6) != 0,
           airReferencedStateVector := (((← idx data 2) &&& 32) >>> 5) != 0,
           waypoint1 := (((← idx data 2) &&& 16) >>> 4) != 0,
           waypoint2 := (((← idx data 2) &&& 8) >>> 3) != 0,
           waypoint3 := (((← idx data 2) &&& 4) >>> 2) != 0,
           quasiStaticParameterMonitoring := (((← idx data 2) &&& 2) >>> 1) != 0,
           headingAndSpeedReport := (((← idx data 2) &&& 1) >>> 0) != 0,
           militaryApplications := (((← idx data 3) &&& 8) >>> 3) != 0 : GICBCapabilityReport }

/-- pkg/bds/bds20/aircraft_identification.go:34-40 -/
def Gen.bds.bds20.AircraftIdentification.CheckCoherency (message : AircraftIdentification) : Go Unit := do
  if message.identification.any (fun c => [35].contains c) then fail
  return ()

/-- pkg/bds/bds20/aircraft_identification.go:43-74 -/
def Gen.bds.bds20.ReadAircraftIdentification (data : List UInt8) : Go AircraftIdentification := do
  if data.length ≠ 7 then fail
  if (← idx data 0) ≠ 32 then fail
  let codes := List.replicate 8 (0 : UInt8)
  let codes ← setIdx codes 0 (((← idx data 1) &&& 252) >>> 2)
  let codes ← setIdx codes 1 ((((← idx data 1) &&& 3) <<< 4) + (((← idx data 2) &&& 240) >>> 4))
  let codes ← setIdx codes 2 ((((← idx data 2) &&& 15) <<< 2) + (((← idx data 3) &&& 192) >>> 6))
  let codes ← setIdx codes 3 ((← idx data 3) &&& 63)
  let codes ← setIdx codes 4 (((← idx data 4) &&& 252) >>> 2)
  let codes ← setIdx codes 5 ((((← idx data 4) &&& 3) <<< 4) + (((← idx data 5) &&& 240) >>> 4))
  let codes ← setIdx codes 6 ((((← idx data 5) &&& 15) <<< 2) + (((← idx data 6) &&& 192) >>> 6))
  let codes ← setIdx codes 7 ((← idx data 6) &&& 63)
  let chars := List.replicate 8 (0 : UInt8)
  let chars ← codes.zipIdx.foldlM (fun (chars : List UInt8) (code, i) => do
    let chars ← setIdx chars i (← idx ([35, 65, 66, 67, 68, 69, 70, 71, 72, 73, 74, 75, 76, 77, 78, 79, 80, 81, 82, 83, 84, 85, 86, 87, 88, 89, 90, 35, 35, 35, 35, 35, 32, 35, 35, 35, 35, 35, 35, 35, 35, 35, 35, 35, 35, 35, 35, 35, 48, 49, 50, 51, 52, 53, 54, 55, 56, 57, 35, 35, 35, 35, 35, 35] : List UInt8) code.toNat)
    pure chars) chars
  return { identification := chars : AircraftIdentification }

/-- pkg/bds/bds30/acas_resolution_advisory.go:32-34 -/
def Gen.bds.bds30.ACASResolutionAdvisory.CheckCoherency (message : ACASResolutionAdvisory) : Go Unit := do
  return ()

/-- pkg/bds/bds30/acas_resolution_advisory.go:37-56 -/
def Gen.bds.bds30.ReadACASResolutionAdvisory (data : List UInt8) : Go ACASResolutionAdvisory := do
  if data.length ≠ 7 then fail
  if (← idx data 0) ≠ 48 then fail
  let resolutionAdvisory ← Gen.acas.ra.ReadResolutionAdvisory (← sliceFrom data 1)
  return { resolutionAdvisory := resolutionAdvisory : ACASResolutionAdvisory }

/-- pkg/bds/bds40/fields/barometric_pressure.go:5-14 -/
def Gen.bds.bds40.fields.ReadBarometricPressure (data : List UInt8) : Go (Bool × ℚ) := do
  let status := ((← idx data 0) &&& 128) != 0
  let byte1 := (← idx data 3) &&& 31
  let byte2 := (← idx data 4) &&& 254
  let allBits := (Gen.bitutils.Pack2Bytes byte1 byte2) >>> 1
  let pressure := f32 ((f32 ((f32 (allBits.toNat : ℚ)) * (f32 (1 / 10)))) + 800)
  return (status, pressure)

/-- pkg/bds/bds40/fields/fms_selected_altitude.go:5-14 -/
def Gen.bds.bds40.fields.ReadFMSSelectedAltitude (data : List UInt8) : Go (Bool × UInt32) := do
  let status := ((← idx data 1) &&& 4) != 0
  let byte1 := (← idx data 0) &&& 127
  let byte2 := (← idx data 1) &&& 248
  let allBits := (Gen.bitutils.Pack2Bytes byte1 byte2) >>> 3
  let fmsAltitude := allBits.toUInt32 * 16
  return (status, fmsAltitude)

/-- pkg/bds/bds40/fields/mcp_selected_altitude.go:5-15 -/
def Gen.bds.bds40.fields.ReadMCPSelectedAltitude (data : List UInt8) : Go (Bool × UInt32) := do
  let status := ((← idx data 0) &&& 128) != 0
  let byte1 := (← idx data 1) &&& 3
  let byte2 ← idx data 2
  let byte3 := (← idx data 3) &&& 192
  let allBits := (Gen.bitutils.Pack3Bytes byte1 byte2 byte3) >>> 6
  let altitude := allBits * 16
  return (status, altitude)

/-- pkg/bds/bds40/fields/status_of_mode_bits.go:31-34 -/
def Gen.bds.bds40.fields.ReadStatusOfModeBits (data : List UInt8) : Go UInt8 := do
  let bits := (← idx data 5) &&& 1
  return bits

/-- pkg/bds/bds40/fields/status_of_target_altitude_source.go:31-34 -/
def Gen.bds.bds40.fields.ReadStatusOfTargetAltitudeSource (data : List UInt8) : Go UInt8 := do
  let bits := ((← idx data 6) &&& 4) >>> 2
  return bits

/-- pkg/bds/bds40/fields/target_altitude_source.go:39-42 -/
def Gen.bds.bds40.fields.ReadTargetAltitudeSource (data : List UInt8) : Go UInt8 := do
  let bits := (← idx data 6) &&& 3
  return bits

/-- pkg/bds/bds40/selected_vertical_intention.go:66-88 -/
def Gen.bds.bds40.SelectedVerticalIntention.CheckCoherency (message : SelectedVerticalIntention) : Go Unit := do
  if (!message.mcpfcuSelectedAltitudeAvailable ∧ !message.fmsSelectedAltitudeAvailable) ∧ !message.barometricPressureSettingAvailable then fail
  if !message.mcpfcuSelectedAltitudeAvailable ∧ message.mcpfcuSelectedAltitude ≠ 0 then fail
  if !message.fmsSelectedAltitudeAvailable ∧ message.fmsSelectedAltitude ≠ 0 then fail
  if !message.barometricPressureSettingAvailable ∧ message.barometricPressureSetting ≠ 0 then fail
  return ()

/-- pkg/bds/bds40/selected_vertical_intention.go:91-127 -/
def Gen.bds.bds40.ReadSelectedVerticalIntention (data : List UInt8) : Go SelectedVerticalIntention := do
  if data.length ≠ 7 then fail
  if ((← idx data 4) &&& 1) ≠ 0 then fail
  if ((← idx data 5) &&& 254) ≠ 0 then fail
  if ((← idx data 6) &&& 24) ≠ 0 then fail
  let (MCPFCUSelectedAltitudeAvailable, MCPFCUSelectedAltitude) ← Gen.bds.bds40.fields.ReadMCPSelectedAltitude data
  let (FMSSelectedAltitudeAvailable, FMSSelectedAltitude) ← Gen.bds.bds40.fields.ReadFMSSelectedAltitude data
  let (barometricPressureSettingAvailable, barometricPressureSetting) ← Gen.bds.bds40.fields.ReadBarometricPressure data
  return { mcpfcuSelectedAltitudeAvailable := MCPFCUSelectedAltitudeAvailable,
           mcpfcuSelectedAltitude := MCPFCUSelectedAltitude,
           fmsSelectedAltitudeAvailable := FMSSelectedAltitudeAvailable,
           fmsSelectedAltitude := FMSSelectedAltitude,
           barometricPressureSettingAvailable := barometricPressureSettingAvailable,
           barometricPressureSetting := barometricPressureSetting,
           statusOfModeBits := (← Gen.bds.bds40.fields.ReadStatusOfModeBits data),
           vnavMode := (((← idx data 6) &&& 128) >>> 7) == 1,
           altitudeHoldMode := (((← idx data 6) &&& 64) >>> 6) == 1,
           approachMode := (((← idx data 6) &&& 32) >>> 5) == 1,
           statusOfTargetAltitudeSource := (← Gen.bds.bds40.fields.ReadStatusOfTargetAltitudeSource data),
           targetAltitudeSource := (← Gen.bds.bds40.fields.ReadTargetAltitudeSource data) : SelectedVerticalIntention }

/-- pkg/bds/bds44/fields/averge_static_pressure.go:6-15 -/
def Gen.bds.bds44.fields.ReadAverageStaticPressureV0 (data : List UInt8) : Go (Bool × UInt32) := do
  let status := ((← idx data 4) &&& 32) != 0
  let byte1 := (← idx data 4) &&& 31
  let byte2 := (← idx data 5) &&& 252
  let allBits := (Gen.bitutils.Pack2Bytes byte1 byte2) >>> 2
  let pressure := allBits.toUInt32
  return (status, pressure)

/-- pkg/bds/bds44/fields/averge_static_pressure.go:18-27 -/
def Gen.bds.bds44.fields.ReadAverageStaticPressureV1AndV2 (data : List UInt8) : Go (Bool × UInt32) := do
  let status := ((← idx data 4) &&& 16) != 0
  let byte1 := (← idx data 4) &&& 15
  let byte2 := (← idx data 5) &&& 254
  let allBits := (Gen.bitutils.Pack2Bytes byte1 byte2) >>> 1
  let pressure := allBits.toUInt32
  return (status, pressure)

/-- pkg/bds/bds44/fields/humidity.go:3-8 -/
def Gen.bds.bds44.fields.ReadHumidityV0 (data : List UInt8) : Go (Bool × ℚ) := do
  let status := ((← idx data 6) &&& 64) != 0
  let humidity := f32 ((f32 ((f32 (((← idx data 6) &&& 63).toNat : ℚ)) * 100)) / 64)
  return (status, humidity)

/-- pkg/bds/bds44/fields/humidity.go:10-15 -/
def Gen.bds.bds44.fields.ReadHumidityV1AndV2 (data : List UInt8) : Go (Bool × ℚ) := do
  let status := ((← idx data 6) &&& 128) != 0
  let humidity := f32 (((← idx data 6) &&& 127).toNat : ℚ)
  return (status, humidity)

/-- pkg/bds/bds44/fields/source.go:42-44 -/
def Gen.bds.bds44.fields.ReadSource (data : List UInt8) : Go UInt8 := do
  return ((← idx data 0) &&& 240) >>> 4

/-- pkg/bds/bds44/fields/static_air_temperature.go:6-18 -/
def Gen.bds.bds44.fields.ReadStaticAirTemperatureV0 (data : List UInt8) : Go ℚ := do
  let byte1 := (← idx data 3) &&& 255
  let byte2 := (← idx data 4) &&& 192
  let allBits := (Gen.bitutils.Pack2Bytes byte1 byte2) >>> 6
  let temperature := f32 ((f32 (allBits.toNat : ℚ)) * (1 / 4))
  let temperature := if ((← idx data 3) &&& 1) ≠ 0 then
      let temperature := f32 (temperature - 128)
      temperature
    else
      temperature
  return temperature

/-- pkg/bds/bds44/fields/static_air_temperature.go:21-34 -/
def Gen.bds.bds44.fields.ReadStaticAirTemperatureV1AndV2 (data : List UInt8) : Go (Bool × ℚ) := do
  let status := ((← idx data 2) &&& 1) != 0
  let byte1 := (← idx data 3) &&& 127
  let byte2 := (← idx data 4) &&& 224
  let allBits := (Gen.bitutils.Pack2Bytes byte1 byte2) >>> 5
  let temperature := f32 ((f32 (allBits.toNat : ℚ)) * (1 / 8))
  let temperature := if ((← idx data 3) &&& 128) ≠ 0 then
      let temperature := f32 (temperature - 128)
      temperature
    else
      temperature
  return (status, temperature)

/-- pkg/bds/bds44/fields/turbulence.go:41-50 -/
def Gen.bds.bds44.fields.ReadTurbulence (data : List UInt8) : Go (Bool × UInt8) := do
  let status := ((← idx data 5) &&& 2) != 0
  let byte1 := (← idx data 5) &&& 1
  let byte2 := (← idx data 6) &&& 128
  let allBits := (Gen.bitutils.Pack2Bytes byte1 byte2) >>> 7
  let level := allBits.toUInt8
  return (status, level)

/-- pkg/bds/bds44/fields/turbulence_flag.go:31-34 -/
def Gen.bds.bds44.fields.ReadTurbulenceFlag (data : List UInt8) : Go UInt8 := do
  let bits := (← idx data 5) &&& 1
  return bits

/-- pkg/bds/bds44/fields/wind_direction.go:6-15 -/
def Gen.bds.bds44.fields.ReadWindDirectionV0 (data : List UInt8) : Go (Bool × ℚ) := do
  let status := ((← idx data 0) &&& 8) != 0
  let byte1 := (← idx data 1) &&& 3
  let byte2 := (← idx data 2) &&& 254
  let allBits := (Gen.bitutils.Pack2Bytes byte1 byte2) >>> 1
  let direction := f32 ((f32 ((f32 (allBits.toNat : ℚ)) * 180)) / 256)
  return (status, direction)

/-- pkg/bds/bds44/fields/wind_direction.go:18-27 -/
def Gen.bds.bds44.fields.ReadWindDirectionV1AndV2 (data : List UInt8) : Go (Bool × ℚ) := do
  let status := ((← idx data 1) &&& 2) != 0
  let byte1 := (← idx data 1) &&& 1
  let byte2 := (← idx data 2) &&& 254
  let allBits := (Gen.bitutils.Pack2Bytes byte1 byte2) >>> 1
  let direction := f32 ((f32 ((f32 (allBits.toNat : ℚ)) * 180)) / 128)
  return (status, direction)

/-- pkg/bds/bds44/fields/wind_speed.go:5-14 -/
def Gen.bds.bds44.fields.ReadWindSpeed (data : List UInt8) : Go (Bool × UInt32) := do
  let status := ((← idx data 0) &&& 8) != 0
  let byte1 := (← idx data 0) &&& 3
  let byte2 := (← idx data 1) &&& 252
  let allBits := (Gen.bitutils.Pack2Bytes byte1 byte2) >>> 2
  let speed := allBits.toUInt32
  return (status, speed)

/-- pkg/bds/bds44/meteorological_routine_air_report_v2.go:113-140 -/
def Gen.bds.bds44.ReadMeteorologicalRoutineAirReportV2 (data : List UInt8) : Go RoutineAirReportV2 := do
  if data.length ≠ 7 then fail
  let (windSpeedStatus, windSpeed) ← Gen.bds.bds44.fields.ReadWindSpeed data
  let (windDirectionStatus, windDirection) ← Gen.bds.bds44.fields.ReadWindDirectionV1AndV2 data
  let (staticAirTemperatureStatus, staticAirTemperature) ← Gen.bds.bds44.fields.ReadStaticAirTemperatureV1AndV2 data
  let (averageStaticPressureStatus, averageStaticPressure) ← Gen.bds.bds44.fields.ReadAverageStaticPressureV1AndV2 data
  let turbulenceFlag ← Gen.bds.bds44.fields.ReadTurbulenceFlag data
  let (humidityStatus, humidity) ← Gen.bds.bds44.fields.ReadHumidityV1AndV2 data
  return { source := (← Gen.bds.bds44.fields.ReadSource data),
           windSpeedStatus := windSpeedStatus,
           windSpeed := windSpeed,
           windDirectionStatus := windDirectionStatus,
           windDirection := windDirection,
           staticAirTemperatureStatus := staticAirTemperatureStatus,
           staticAirTemperature := staticAirTemperature,
           averageStaticPressureStatus := averageStaticPressureStatus,
           averageStaticPressure := averageStaticPressure,
           turbulenceFlag := turbulenceFlag,
           humidityStatus := humidityStatus,
           humidity := humidity : RoutineAirReportV2 }

/-- pkg/bds/bds44/meteorological_routine_air_report_v0.go:108-135 -/
def Gen.bds.bds44.ReadMeteorologicalRoutineAirReportV0 (data : List UInt8) : Go RoutineAirReportV0 := do
  if data.length ≠ 7 then fail
  let (windSpeedStatus, windSpeed) ← Gen.bds.bds44.fields.ReadWindSpeed data
  let (windDirectionStatus, windDirection) ← Gen.bds.bds44.fields.ReadWindDirectionV0 data
  let staticAirTemperature ← Gen.bds.bds44.fields.ReadStaticAirTemperatureV0 data
  let (averageStaticPressureStatus, averageStaticPressure) ← Gen.bds.bds44.fields.ReadAverageStaticPressureV0 data
  let (turbulenceStatus, turbulence) ← Gen.bds.bds44.fields.ReadTurbulence data
  let (humidityStatus, humidity) ← Gen.bds.bds44.fields.ReadHumidityV0 data
  return { source := (← Gen.bds.bds44.fields.ReadSource data),
           windSpeedStatus := windSpeedStatus,
           windSpeed := windSpeed,
           windDirectionStatus := windDirectionStatus,
           windDirection := windDirection,
           staticAirTemperature := staticAirTemperature,
           averageStaticPressureStatus := averageStaticPressureStatus,
           averageStaticPressure := averageStaticPressure,
           turbulenceStatus := turbulenceStatus,
           turbulence := turbulence,
           humidityStatus := humidityStatus,
           humidity := humidity : RoutineAirReportV0 }

/-- pkg/bds/bds44/meteorological_routine_air_report_v1.go:105-135 -/
def Gen.bds.bds44.ReadMeteorologicalRoutineAirReportV1 (data : List UInt8) : Go RoutineAirReportV1 := do
  if data.length ≠ 7 then fail
  if ((← idx data 0) &&& 240) ≠ 0 then fail
  let (windSpeedStatus, windSpeed) ← Gen.bds.bds44.fields.ReadWindSpeed data
  let (windDirectionStatus, windDirection) ← Gen.bds.bds44.fields.ReadWindDirectionV1AndV2 data
  let (staticAirTemperatureStatus, staticAirTemperature) ← Gen.bds.bds44.fields.ReadStaticAirTemperatureV1AndV2 data
  let (averageStaticPressureStatus, averageStaticPressure) ← Gen.bds.bds44.fields.ReadAverageStaticPressureV1AndV2 data
  let turbulenceFlag ← Gen.bds.bds44.fields.ReadTurbulenceFlag data
  let (humidityStatus, humidity) ← Gen.bds.bds44.fields.ReadHumidityV1AndV2 data
  return { windSpeedStatus := windSpeedStatus,
           windSpeed := windSpeed,
           windDirectionStatus := windDirectionStatus,
           windDirection := windDirection,
           staticAirTemperatureStatus := staticAirTemperatureStatus,
           staticAirTemperature := staticAirTemperature,
           averageStaticPressureStatus := averageStaticPressureStatus,
           averageStaticPressure := averageStaticPressure,
           turbulenceFlag := turbulenceFlag,
           humidityStatus := humidityStatus,
           humidity := humidity : RoutineAirReportV1 }

/-- pkg/bds/bds44/meteorological_routine_air_report.go:15-44 -/
def Gen.bds.bds44.ReadMeteorologicalRoutineAirReport (data : List UInt8) : Go RoutineAirReport := do
  if data.length ≠ 7 then fail
  let source ← Gen.bds.bds44.fields.ReadSource data
  if ((source = 1 ∨ source = 2) ∨ source = 3) ∨ source = 4 then
    let message? ← attempt (Gen.bds.bds44.ReadMeteorologicalRoutineAirReportV2 data)
    match message? with
    | some message =>
      return RoutineAirReport.v2 message
    | none =>
      return RoutineAirReport.v0 (← Gen.bds.bds44.ReadMeteorologicalRoutineAirReportV0 data)
  else
    if source = 0 then
      return RoutineAirReport.v1 (← Gen.bds.bds44.ReadMeteorologicalRoutineAirReportV1 data)
    else
      fail

/-- pkg/bds/bds44/meteorological_routine_air_report_v0.go:34-36 -/
def Gen.bds.bds44.MeteorologicalRoutineAirReportV0.GetSource (message : RoutineAirReportV0) : UInt8 :=
  message.source

/-- pkg/bds/bds44/meteorological_routine_air_report_v0.go:70-105 -/
def Gen.bds.bds44.MeteorologicalRoutineAirReportV0.CheckCoherency (message : RoutineAirReportV0) : Go Unit := do
  if (((!message.windSpeedStatus ∧ !message.windDirectionStatus) ∧ !message.averageStaticPressureStatus) ∧ !message.turbulenceStatus) ∧ !message.humidityStatus then fail
  if message.source ≥ 5 then fail
  if !message.windSpeedStatus ∧ message.windSpeed ≠ 0 then fail
  if !message.windDirectionStatus ∧ message.windDirection ≠ 0 then fail
  if !message.averageStaticPressureStatus ∧ message.averageStaticPressure ≠ 0 then fail
  if !message.humidityStatus ∧ message.humidity ≠ 0 then fail
  if message.windSpeed > 250 then fail
  if message.staticAirTemperature < (-80) ∨ message.staticAirTemperature > 60 then fail
  return ()

/-- pkg/bds/bds44/meteorological_routine_air_report_v1.go:33-35 -/
def Gen.bds.bds44.MeteorologicalRoutineAirReportV1.GetSource (message : RoutineAirReportV1) : UInt8 :=
  0

/-- pkg/bds/bds44/meteorological_routine_air_report_v1.go:67-102 -/
def Gen.bds.bds44.MeteorologicalRoutineAirReportV1.CheckCoherency (message : RoutineAirReportV1) : Go Unit := do
  if (((!message.windSpeedStatus ∧ !message.windDirectionStatus) ∧ !message.staticAirTemperatureStatus) ∧ !message.averageStaticPressureStatus) ∧ !message.humidityStatus then fail
  if !message.windSpeedStatus ∧ message.windSpeed ≠ 0 then fail
  if !message.windDirectionStatus ∧ message.windDirection ≠ 0 then fail
  if !message.staticAirTemperatureStatus ∧ message.staticAirTemperature ≠ 0 then fail
  if !message.averageStaticPressureStatus ∧ message.averageStaticPressure ≠ 0 then fail
  if !message.humidityStatus ∧ message.humidity ≠ 0 then fail
  if message.windSpeed > 250 then fail
  if message.staticAirTemperature < (-80) ∨ message.staticAirTemperature > 60 then fail
  return ()

/-- pkg/bds/bds44/meteorological_routine_air_report_v2.go:35-37 -/
def Gen.bds.bds44.MeteorologicalRoutineAirReportV2.GetSource (message : RoutineAirReportV2) : UInt8 :=
  0

/-- pkg/bds/bds44/meteorological_routine_air_report_v2.go:71-110 -/
def Gen.bds.bds44.MeteorologicalRoutineAirReportV2.CheckCoherency (message : RoutineAirReportV2) : Go Unit := do
  if message.source ≥ 5 then fail
  if (((!message.windSpeedStatus ∧ !message.windDirectionStatus) ∧ !message.staticAirTemperatureStatus) ∧ !message.averageStaticPressureStatus) ∧ !message.humidityStatus then fail
  if !message.windSpeedStatus ∧ message.windSpeed ≠ 0 then fail
  if !message.windDirectionStatus ∧ message.windDirection ≠ 0 then fail
  if !message.staticAirTemperatureStatus ∧ message.staticAirTemperature ≠ 0 then fail
  if !message.averageStaticPressureStatus ∧ message.averageStaticPressure ≠ 0 then fail
  if !message.humidityStatus ∧ message.humidity ≠ 0 then fail
  if message.windSpeed > 250 then fail
  if message.staticAirTemperature < (-80) ∨ message.staticAirTemperature > 60 then fail
  return ()

/-- pkg/bds/bds45/fields/averge_static_pressure.go:5-14 -/
def Gen.bds.bds45.fields.ReadAverageStaticPressure (data : List UInt8) : Go (Bool × UInt32) := do
  let status := ((← idx data 3) &&& 32) != 0
  let byte1 := (← idx data 3) &&& 31
  let byte2 := (← idx data 4) &&& 252
  let allBits := (Gen.bitutils.Pack2Bytes byte1 byte2) >>> 2
  let pressure := allBits.toUInt32
  return (status, pressure)

/-- pkg/bds/bds45/fields/icing.go:5-9 -/
def Gen.bds.bds45.fields.ReadIcingV0 (data : List UInt8) : Go (Bool × UInt8) := do
  let status := ((← idx data 1) &&& 64) != 0
  let level := ((← idx data 1) &&& 48) >>> 4
  return (status, level)

/-- pkg/bds/bds45/fields/icing.go:11-20 -/
def Gen.bds.bds45.fields.ReadIcingV1 (data : List UInt8) : Go (Bool × UInt8) := do
  let status := ((← idx data 0) &&& 2) != 0
  let byte1 := (← idx data 0) &&& 1
  let byte2 := (← idx data 1) &&& 128
  let allBits := (Gen.bitutils.Pack2Bytes byte1 byte2) >>> 7
  let level := allBits.toUInt8
  return (status, level)

/-- pkg/bds/bds45/fields/micro_burst.go:5-14 -/
def Gen.bds.bds45.fields.ReadMicroBurstV0 (data : List UInt8) : Go (Bool × UInt8) := do
  let status := ((← idx data 0) &&& 2) != 0
  let byte1 := (← idx data 0) &&& 1
  let byte2 := (← idx data 1) &&& 128
  let allBits := (Gen.bitutils.Pack2Bytes byte1 byte2) >>> 7
  let level := allBits.toUInt8
  return (status, level)

/-- pkg/bds/bds45/fields/micro_burst.go:16-20 -/
def Gen.bds.bds45.fields.ReadMicroBurstV1 (data : List UInt8) : Go (Bool × UInt8) := do
  let status := ((← idx data 0) &&& 16) != 0
  let level := ((← idx data 0) &&& 12) >>> 2
  return (status, level)

/-- pkg/bds/bds45/fields/radio_height.go:5-15 -/
def Gen.bds.bds45.fields.ReadRadioHeightV0 (data : List UInt8) : Go (Bool × UInt32) := do
  let status := ((← idx data 4) &&& 2) != 0
  let byte1 := (← idx data 4) &&& 1
  let byte2 := (← idx data 5) &&& 255
  let byte3 := (← idx data 6) &&& 224
  let allBits := (Gen.bitutils.Pack3Bytes byte1 byte2 byte3) >>> 5
  let height := allBits * 16
  return (status, height)

/-- pkg/bds/bds45/fields/radio_height.go:17-26 -/
def Gen.bds.bds45.fields.ReadRadioHeightV1 (data : List UInt8) : Go (Bool × UInt32) := do
  let status := ((← idx data 3) &&& 128) != 0
  let byte1 := (← idx data 3) &&& 127
  let byte2 := (← idx data 4) &&& 248
  let allBits := (Gen.bitutils.Pack2Bytes byte1 byte2) >>> 3
  let height := allBits.toUInt32 * 2
  return (status, height)

/-- pkg/bds/bds45/fields/static_air_temperature.go:5-18 -/
def Gen.bds.bds45.fields.ReadStaticAirTemperatureV0 (data : List UInt8) : Go (Bool × ℚ) := do
  let status := ((← idx data 1) &&& 1) != 0
  let byte1 := (← idx data 2) &&& 127
  let byte2 := (← idx data 3) &&& 192
  let allBits := (Gen.bitutils.Pack2Bytes byte1 byte2) >>> 6
  let temperature := f32 ((f32 (allBits.toNat : ℚ)) * (1 / 4))
  let temperature := if ((← idx data 2) &&& 128) ≠ 0 then
      let temperature := f32 (temperature - 128)
      temperature
    else
      temperature
  return (status, temperature)

/-- pkg/bds/bds45/fields/static_air_temperature.go:20-33 -/
def Gen.bds.bds45.fields.ReadStaticAirTemperatureV1 (data : List UInt8) : Go (Bool × ℚ) := do
  let status := ((← idx data 1) &&& 8) != 0
  let byte1 := (← idx data 1) &&& 3
  let byte2 := (← idx data 2) &&& 255
  let allBits := Gen.bitutils.Pack2Bytes byte1 byte2
  let temperature := f32 ((f32 (allBits.toNat : ℚ)) * (1 / 8))
  let temperature := if ((← idx data 1) &&& 4) ≠ 0 then
      let temperature := f32 (temperature - 128)
      temperature
    else
      temperature
  return (status, temperature)

/-- pkg/bds/bds45/fields/turbulence.go:5-9 -/
def Gen.bds.bds45.fields.ReadTurbulenceV0 (data : List UInt8) : Go (Bool × UInt8) := do
  let status := ((← idx data 0) &&& 128) != 0
  let level := ((← idx data 0) &&& 96) >>> 5
  return (status, level)

/-- pkg/bds/bds45/fields/turbulence.go:11-35 -/
def Gen.bds.bds45.fields.ReadTurbulenceV1 (data : List UInt8) : Go (Bool × ℚ × ℚ × UInt8) := do
  let status := ((← idx data 4) &&& 4) != 0
  let byte1 := (← idx data 4) &&& 3
  let byte2 := (← idx data 5) &&& 240
  let average := f32 ((f32 (((Gen.bitutils.Pack2Bytes byte1 byte2) >>> 4).toNat : ℚ)) * (f32 (1 / 50)))
  let average := if average > (f32 (63 / 50)) then
      let average : ℚ := f32 (63 / 50)
      average
    else
      average
  let byte1 := (← idx data 5) &&& 15
  let byte2 := (← idx data 6) &&& 192
  let peak := f32 ((f32 (((Gen.bitutils.Pack2Bytes byte1 byte2) >>> 6).toNat : ℚ)) * (f32 (1 / 50)))
  let peak := if peak > (f32 (63 / 50)) then
      let peak : ℚ := f32 (63 / 50)
      peak
    else
      peak
  let byte1 := (← idx data 5) &&& 15
  let byte2 := (← idx data 6) &&& 192
  let interval := ((← idx data 6) &&& 60) >>> 2
  return (status, average, peak, interval)

/-- pkg/bds/bds45/fields/wake_vortex.go:3-7 -/
def Gen.bds.bds45.fields.ReadWakeVortexV0 (data : List UInt8) : Go (Bool × UInt8) := do
  let status := ((← idx data 1) &&& 8) != 0
  let level := ((← idx data 1) &&& 6) >>> 1
  return (status, level)

/-- pkg/bds/bds45/fields/wake_vortex.go:9-13 -/
def Gen.bds.bds45.fields.ReadWakeVortexV1 (data : List UInt8) : Go (Bool × UInt8) := do
  let status := ((← idx data 1) &&& 64) != 0
  let level := ((← idx data 1) &&& 48) >>> 4
  return (status, level)

/-- pkg/bds/bds45/fields/wind_shear.go:3-7 -/
def Gen.bds.bds45.fields.ReadWindShearV0 (data : List UInt8) : Go (Bool × UInt8) := do
  let status := ((← idx data 0) &&& 16) != 0
  let level := ((← idx data 0) &&& 12) >>> 2
  return (status, level)

/-- pkg/bds/bds45/fields/wind_shear.go:9-13 -/
def Gen.bds.bds45.fields.ReadWindShearV1 (data : List UInt8) : Go (Bool × UInt8) := do
  let status := ((← idx data 0) &&& 128) != 0
  let level := ((← idx data 0) &&& 96) >>> 5
  return (status, level)

/-- pkg/bds/bds45/meteorological_hazard_report_v1.go:131-167 -/
def Gen.bds.bds45.ReadMeteorologicalHazardReportV1 (data : List UInt8) : Go HazardReportV1 := do
  if data.length ≠ 7 then fail
  if ((← idx data 6) &&& 3) ≠ 0 then fail
  let (windShearStatus, windShear) ← Gen.bds.bds45.fields.ReadWindShearV1 data
  let (microBurstStatus, microBurst) ← Gen.bds.bds45.fields.ReadMicroBurstV1 data
  let (icingStatus, icing) ← Gen.bds.bds45.fields.ReadIcingV1 data
  let (wakeVortexStatus, wakeVortex) ← Gen.bds.bds45.fields.ReadWakeVortexV1 data
  let (staticAirTemperatureStatus, staticAirTemperature) ← Gen.bds.bds45.fields.ReadStaticAirTemperatureV1 data
  let (radioHeightStatus, radioHeight) ← Gen.bds.bds45.fields.ReadRadioHeightV1 data
  let (turbulenceStatus, turbulenceAverage, turbulencePeak, turbulenceDelay) ← Gen.bds.bds45.fields.ReadTurbulenceV1 data
  return { windShearStatus := windShearStatus,
           windShear := windShear,
           microBurstStatus := microBurstStatus,
           microBurst := microBurst,
           icingStatus := icingStatus,
           icing := icing,
           wakeVortexStatus := wakeVortexStatus,
           wakeVortex := wakeVortex,
           staticAirTemperatureStatus := staticAirTemperatureStatus,
           staticAirTemperature := staticAirTemperature,
           radioHeightStatus := radioHeightStatus,
           radioHeight := radioHeight,
           turbulenceStatus := turbulenceStatus,
           turbulenceAverageEDR := turbulenceAverage,
           turbulencePeakEDR := turbulencePeak,
           turbulencePeakDelayInterval := turbulenceDelay,
           averageStaticPressureStatus := false,
           averageStaticPressure := 0 : HazardReportV1 }

/-- pkg/bds/bds45/meteorological_hazard_report_v0.go:127-164 -/
def Gen.bds.bds45.ReadMeteorologicalHazardReportV0 (data : List UInt8) : Go HazardReportV0 := do
  if data.length ≠ 7 then fail
  if ((← idx data 6) &&& 31) ≠ 0 then fail
  let (turbulenceStatus, turbulence) ← Gen.bds.bds45.fields.ReadTurbulenceV0 data
  let (windShearStatus, windShear) ← Gen.bds.bds45.fields.ReadWindShearV0 data
  let (microBurstStatus, microBurst) ← Gen.bds.bds45.fields.ReadMicroBurstV0 data
  let (icingStatus, icing) ← Gen.bds.bds45.fields.ReadIcingV0 data
  let (wakeVortexStatus, wakeVortex) ← Gen.bds.bds45.fields.ReadWakeVortexV0 data
  let (staticAirTemperatureStatus, staticAirTemperature) ← Gen.bds.bds45.fields.ReadStaticAirTemperatureV0 data
  let (averageStaticPressureStatus, averageStaticPressure) ← Gen.bds.bds45.fields.ReadAverageStaticPressure data
  let (radioHeightStatus, radioHeight) ← Gen.bds.bds45.fields.ReadRadioHeightV0 data
  return { turbulenceStatus := turbulenceStatus,
           turbulence := turbulence,
           windShearStatus := windShearStatus,
           windShear := windShear,
           microBurstStatus := microBurstStatus,
           microBurst := microBurst,
           icingStatus := icingStatus,
           icing := icing,
           wakeVortexStatus := wakeVortexStatus,
           wakeVortex := wakeVortex,
           staticAirTemperatureStatus := staticAirTemperatureStatus,
           staticAirTemperature := staticAirTemperature,
           averageStaticPressureStatus := averageStaticPressureStatus,
           averageStaticPressure := averageStaticPressure,
           radioHeightStatus := radioHeightStatus,
           radioHeight := radioHeight : HazardReportV0 }

/-- pkg/bds/bds45/meteorological_hazard_report.go:16-33 -/
def Gen.bds.bds45.ReadMeteorologicalHazardReport (data : List UInt8) : Go HazardReport := do
  if data.length ≠ 7 then fail
  let messageV1? ← attempt (Gen.bds.bds45.ReadMeteorologicalHazardReportV1 data)
  match messageV1? with
  | some messageV1 =>
    return HazardReport.v1 messageV1
  | none =>
    let messageV0? ← attempt (Gen.bds.bds45.ReadMeteorologicalHazardReportV0 data)
    match messageV0? with
    | some messageV0 =>
      return HazardReport.v0 messageV0
    | none =>
      fail

/-- pkg/bds/bds45/meteorological_hazard_report_v0.go:37-39 -/
def Gen.bds.bds45.MeteorologicalHazardReportV0.GetTurbulenceStatus (message : HazardReportV0) : Bool :=
  message.turbulenceStatus

/-- pkg/bds/bds45/meteorological_hazard_report_v0.go:81-124 -/
def Gen.bds.bds45.MeteorologicalHazardReportV0.CheckCoherency (message : HazardReportV0) : Go Unit := do
  if ((((((!message.turbulenceStatus ∧ !message.windShearStatus) ∧ !message.microBurstStatus) ∧ !message.icingStatus) ∧ !message.wakeVortexStatus) ∧ !message.staticAirTemperatureStatus) ∧ !message.averageStaticPressureStatus) ∧ !message.radioHeightStatus then fail
  if !message.turbulenceStatus ∧ message.turbulence ≠ 0 then fail
  if !message.windShearStatus ∧ message.windShear ≠ 0 then fail
  if !message.microBurstStatus ∧ message.microBurst ≠ 0 then fail
  if !message.icingStatus ∧ message.icing ≠ 0 then fail
  if !message.wakeVortexStatus ∧ message.wakeVortex ≠ 0 then fail
  if !message.staticAirTemperatureStatus ∧ message.staticAirTemperature ≠ 0 then fail
  if !message.averageStaticPressureStatus ∧ message.averageStaticPressure ≠ 0 then fail
  if !message.radioHeightStatus ∧ message.radioHeight ≠ 0 then fail
  if message.staticAirTemperature < (-80) ∨ message.staticAirTemperature > 60 then fail
  return ()

/-- pkg/bds/bds45/meteorological_hazard_report_v1.go:39-41 -/
def Gen.bds.bds45.MeteorologicalHazardReportV1.GetTurbulenceStatus (message : HazardReportV1) : Bool :=
  message.turbulenceStatus

/-- pkg/bds/bds45/meteorological_hazard_report_v1.go:87-128 -/
def Gen.bds.bds45.MeteorologicalHazardReportV1.CheckCoherency (message : HazardReportV1) : Go Unit := do
  if ((((((!message.turbulenceStatus ∧ !message.windShearStatus) ∧ !message.microBurstStatus) ∧ !message.icingStatus) ∧ !message.wakeVortexStatus) ∧ !message.staticAirTemperatureStatus) ∧ !message.averageStaticPressureStatus) ∧ !message.radioHeightStatus then fail
  if !message.turbulenceStatus ∧ ((message.turbulenceAverageEDR ≠ 0 ∨ message.turbulencePeakEDR ≠ 0) ∨ message.turbulencePeakDelayInterval ≠ 0) then fail
  if !message.windShearStatus ∧ message.windShear ≠ 0 then fail
  if !message.microBurstStatus ∧ message.microBurst ≠ 0 then fail
  if !message.icingStatus ∧ message.icing ≠ 0 then fail
  if !message.wakeVortexStatus ∧ message.wakeVortex ≠ 0 then fail
  if message.staticAirTemperatureStatus then
    if message.staticAirTemperature < (-80) ∨ message.staticAirTemperature > 60 then fail
    if !message.averageStaticPressureStatus ∧ message.averageStaticPressure ≠ 0 then fail
    if !message.radioHeightStatus ∧ message.radioHeight ≠ 0 then fail
    return ()
  else
    if !message.averageStaticPressureStatus ∧ message.averageStaticPressure ≠ 0 then fail
    if !message.radioHeightStatus ∧ message.radioHeight ≠ 0 then fail
    return ()

/-- pkg/bds/bds50/fields/ground_speed.go:5-14 -/
def Gen.bds.bds50.fields.ReadGroundSpeed (data : List UInt8) : Go (Bool × UInt32) := do
  let status := ((← idx data 2) &&& 1) != 0
  let byte1 := (← idx data 3) &&& 255
  let byte2 := (← idx data 4) &&& 192
  let allBits := (Gen.bitutils.Pack2Bytes byte1 byte2) >>> 6
  let speed := allBits.toUInt32 * 2
  return (status, speed)

/-- pkg/bds/bds50/fields/roll_angle.go:7-20 -/
def Gen.bds.bds50.fields.ReadRollAngle (data : List UInt8) : Go (Bool × ℚ) := do
  let status := ((← idx data 0) &&& 128) != 0
  let byte1 := (← idx data 0) &&& 63
  let byte2 := (← idx data 1) &&& 224
  let allBits := (Gen.bitutils.Pack2Bytes byte1 byte2) >>> 5
  let rollAngle := f32 ((f32 ((f32 (allBits.toNat : ℚ)) * 45)) / 256)
  let rollAngle := if (((← idx data 0) &&& 64) >>> 6) ≠ 0 then
      let rollAngle := f32 (rollAngle - 90)
      rollAngle
    else
      rollAngle
  return (status, rollAngle)

/-- pkg/bds/bds50/fields/track_angle_rate.go:5-18 -/
def Gen.bds.bds50.fields.ReadTrackAngleRate (data : List UInt8) : Go (Bool × ℚ) := do
  let status := ((← idx data 4) &&& 32) != 0
  let byte1 := (← idx data 4) &&& 15
  let byte2 := (← idx data 5) &&& 248
  let allBits := (Gen.bitutils.Pack2Bytes byte1 byte2) >>> 3
  let angleRate := f32 ((f32 ((f32 (allBits.toNat : ℚ)) * 8)) / 256)
  let angleRate := if ((← idx data 4) &&& 16) ≠ 0 then
      let angleRate := f32 (angleRate - 16)
      angleRate
    else
      angleRate
  return (status, angleRate)

/-- pkg/bds/bds50/fields/true_air_speed.go:5-14 -/
def Gen.bds.bds50.fields.ReadTrueAirSpeed (data : List UInt8) : Go (Bool × UInt32) := do
  let status := ((← idx data 5) &&& 4) != 0
  let byte1 := (← idx data 5) &&& 3
  let byte2 := (← idx data 6) &&& 255
  let allBits := Gen.bitutils.Pack2Bytes byte1 byte2
  let speed := allBits.toUInt32 * 2
  return (status, speed)

/-- pkg/bds/bds50/fields/true_track_angle.go:7-20 -/
def Gen.bds.bds50.fields.ReadTrueTrackAngle (data : List UInt8) : Go (Bool × ℚ) := do
  let status := ((← idx data 1) &&& 16) != 0
  let byte1 := (← idx data 1) &&& 7
  let byte2 := (← idx data 2) &&& 254
  let allBits := (Gen.bitutils.Pack2Bytes byte1 byte2) >>> 1
  let angle := f32 ((f32 ((f32 (allBits.toNat : ℚ)) * 90)) / 512)
  let angle := if ((← idx data 1) &&& 8) ≠ 0 then
      let angle := f32 (angle - 180)
      angle
    else
      angle
  return (status, angle)

/-- pkg/bds/bds50/track_and_turn_report.go:60-104 -/
def Gen.bds.bds50.TrackAndTurnReport.CheckCoherency (message : TrackAndTurnReport) : Go Unit := do
  if (((!message.rollAngleStatus ∧ !message.trueTrackAngleStatus) ∧ !message.groundSpeedStatus) ∧ !message.trackAngleRateStatus) ∧ !message.trueAirSpeedStatus then fail
  if !message.rollAngleStatus ∧ message.rollAngle ≠ 0 then fail
  if !message.trueTrackAngleStatus ∧ message.trueTrackAngle ≠ 0 then fail
  if !message.groundSpeedStatus ∧ message.groundSpeed ≠ 0 then fail
  if !message.trackAngleRateStatus ∧ message.trackAngleRate ≠ 0 then fail
  if !message.trueAirSpeedStatus ∧ message.trueAirSpeed ≠ 0 then fail
  if message.rollAngle > 50 ∨ message.rollAngle < (-50) then fail
  if message.groundSpeed > 600 then fail
  if message.trueAirSpeed > 500 then fail
  let speedDifference := (message.groundSpeed.toNat : Int) - (message.trueAirSpeed.toNat : Int)
  if speedDifference < (-200) ∨ speedDifference > 200 then fail
  return ()

/-- pkg/bds/bds50/track_and_turn_report.go:107-131 -/
def Gen.bds.bds50.ReadTrackAndTurnReport (data : List UInt8) : Go TrackAndTurnReport := do
  if data.length ≠ 7 then fail
  let (rollAngleStatus, rollAngle) ← Gen.bds.bds50.fields.ReadRollAngle data
  let (trueTrackAngleStatus, trueTrackAngle) ← Gen.bds.bds50.fields.ReadTrueTrackAngle data
  let (groundSpeedStatus, groundSpeed) ← Gen.bds.bds50.fields.ReadGroundSpeed data
  let (trackAngleRateStatus, trackAngleRate) ← Gen.bds.bds50.fields.ReadTrackAngleRate data
  let (trueAirSpeedStatus, trueAirSpeed) ← Gen.bds.bds50.fields.ReadTrueAirSpeed data
  return { rollAngleStatus := rollAngleStatus,
           rollAngle := rollAngle,
           trueTrackAngleStatus := trueTrackAngleStatus,
           trueTrackAngle := trueTrackAngle,
           groundSpeedStatus := groundSpeedStatus,
           groundSpeed := groundSpeed,
           trackAngleRateStatus := trackAngleRateStatus,
           trackAngleRate := trackAngleRate,
           trueAirSpeedStatus := trueAirSpeedStatus,
           trueAirSpeed := trueAirSpeed : TrackAndTurnReport }

/-- pkg/bds/bds60/fields/barometric_altitude_rate.go:5-18 -/
def Gen.bds.bds60.fields.ReadBarometricAltitudeRate (data : List UInt8) : Go (Bool × Int) := do
  let status := ((← idx data 4) &&& 32) != 0
  let byte1 := (← idx data 4) &&& 15
  let byte2 := (← idx data 5) &&& 248
  let allBits := (Gen.bitutils.Pack2Bytes byte1 byte2) >>> 3
  let rate := (allBits.toNat : Int) * 32
  let rate := if ((← idx data 4) &&& 16) ≠ 0 then
      let rate := rate - 16384
      rate
    else
      rate
  return (status, rate)

/-- pkg/bds/bds60/fields/indicated_airspeed.go:5-14 -/
def Gen.bds.bds60.fields.ReadIndicatedAirSpeed (data : List UInt8) : Go (Bool × UInt32) := do
  let status := ((← idx data 1) &&& 8) != 0
  let byte1 := (← idx data 1) &&& 7
  let byte2 := (← idx data 2) &&& 254
  let allBits := (Gen.bitutils.Pack2Bytes byte1 byte2) >>> 1
  let speed := allBits.toUInt32
  return (status, speed)

/-- pkg/bds/bds60/fields/inertial_vertical_velocity.go:5-18 -/
def Gen.bds.bds60.fields.ReadInertialVerticalVelocity (data : List UInt8) : Go (Bool × Int) := do
  let status := ((← idx data 5) &&& 4) != 0
  let byte1 := (← idx data 5) &&& 1
  let byte2 := (← idx data 6) &&& 255
  let allBits := Gen.bitutils.Pack2Bytes byte1 byte2
  let rate := Int.tdiv ((allBits.toNat : Int) * 8192) 256
  let rate := if ((← idx data 5) &&& 2) ≠ 0 then
      let rate := rate - 16384
      rate
    else
      rate
  return (status, rate)

/-- pkg/bds/bds60/fields/mach.go:5-14 -/
def Gen.bds.bds60.fields.ReadMach (data : List UInt8) : Go (Bool × ℚ) := do
  let status := ((← idx data 2) &&& 1) != 0
  let byte1 := (← idx data 3) &&& 255
  let byte2 := (← idx data 4) &&& 192
  let allBits := (Gen.bitutils.Pack2Bytes byte1 byte2) >>> 6
  let speed := f32 ((f32 ((f32 (allBits.toNat : ℚ)) * (f32 (256 / 125)))) / 512)
  return (status, speed)

/-- pkg/bds/bds60/fields/magnetic_heading.go:7-20 -/
def Gen.bds.bds60.fields.ReadMagneticHeading (data : List UInt8) : Go (Bool × ℚ) := do
  let status := ((← idx data 0) &&& 128) != 0
  let byte1 := (← idx data 0) &&& 63
  let byte2 := (← idx data 1) &&& 240
  let allBits := (Gen.bitutils.Pack2Bytes byte1 byte2) >>> 4
  let magneticHeading := f32 ((f32 ((f32 (allBits.toNat : ℚ)) * 90)) / 512)
  let magneticHeading := if ((← idx data 0) &&& 64) ≠ 0 then
      let magneticHeading := f32 (magneticHeading - 180)
      magneticHeading
    else
      magneticHeading
  return (status, magneticHeading)

/-- pkg/bds/bds60/heading_and_speed_report.go:59-102 -/
def Gen.bds.bds60.HeadingAndTrackReport.CheckCoherency (message : HeadingAndTrackReport) : Go Unit := do
  if (((!message.magneticHeadingStatus ∧ !message.indicatedAirSpeedStatus) ∧ !message.machStatus) ∧ !message.barometricAltitudeRateStatus) ∧ !message.initialVerticalVelocityStatus then fail
  if !message.magneticHeadingStatus ∧ message.magneticHeading ≠ 0 then fail
  if !message.indicatedAirSpeedStatus ∧ message.indicatedAirSpeed ≠ 0 then fail
  if !message.machStatus ∧ message.mach ≠ 0 then fail
  if !message.barometricAltitudeRateStatus ∧ message.barometricAltitudeRate ≠ 0 then fail
  if !message.initialVerticalVelocityStatus ∧ message.initialVerticalVelocity ≠ 0 then fail
  if message.indicatedAirSpeed > 500 then fail
  if message.mach > 1 then fail
  if message.barometricAltitudeRate < (-6000) ∨ message.barometricAltitudeRate > 6000 then fail
  if message.initialVerticalVelocity < (-6000) ∨ message.initialVerticalVelocity > 6000 then fail
  return ()

/-- pkg/bds/bds60/heading_and_speed_report.go:105-129 -/
def Gen.bds.bds60.ReadHeadingAndSpeedReport (data : List UInt8) : Go HeadingAndTrackReport := do
  if data.length ≠ 7 then fail
  let (magneticHeadingStatus, magneticHeading) ← Gen.bds.bds60.fields.ReadMagneticHeading data
  let (indicatedAirSpeedStatus, indicatedAirSpeed) ← Gen.bds.bds60.fields.ReadIndicatedAirSpeed data
  let (machStatus, mach) ← Gen.bds.bds60.fields.ReadMach data
  let (barometricAltitudeRateStatus, barometricAltitudeRate) ← Gen.bds.bds60.fields.ReadBarometricAltitudeRate data
  let (initialVerticalVelocityStatus, initialVerticalVelocity) ← Gen.bds.bds60.fields.ReadInertialVerticalVelocity data
  return { magneticHeadingStatus := magneticHeadingStatus,
           magneticHeading := magneticHeading,
           indicatedAirSpeedStatus := indicatedAirSpeedStatus,
           indicatedAirSpeed := indicatedAirSpeed,
           machStatus := machStatus,
           mach := mach,
           barometricAltitudeRateStatus := barometricAltitudeRateStatus,
           barometricAltitudeRate := barometricAltitudeRate,
           initialVerticalVelocityStatus := initialVerticalVelocityStatus,
           initialVerticalVelocity := initialVerticalVelocity : HeadingAndTrackReport }

/-- pkg/bds/bds61/aircraft_status_acas.go:18-20 -/
def Gen.bds.bds61.AircraftStatusACAS.GetSubtype (message : StatusACAS) : UInt8 :=
  message.subtype

/-- pkg/bds/bds61/aircraft_status_emergency.go:19-21 -/
def Gen.bds.bds61.AircraftStatusEmergency.GetSubtype (message : StatusEmergency) : UInt8 :=
  message.subtype

/-- pkg/bds/bds61/aircraft_status_no_information.go:18-20 -/
def Gen.bds.bds61.AircraftStatusNoInformation.GetSubtype (message : StatusNoInformation) : UInt8 :=
  message.subtype

/-- pkg/bds/bds62/target_state_and_status_type_0.go:35-37 -/
def Gen.bds.bds62.TargetStateAndStatus0.GetSubtype (message : TargetStateAndStatus0) : UInt8 :=
  message.subtype

/-- pkg/bds/bds62/target_state_and_status_type_1.go:36-38 -/
def Gen.bds.bds62.TargetStateAndStatus1.GetSubtype (message : TargetStateAndStatus1) : UInt8 :=
  message.subtype

/-- pkg/bitutils/bitutils.go:55-83 -/
def Gen.bitutils.Pack8Bits (b7 : Bool) (b6 : Bool) (b5 : Bool) (b4 : Bool) (b3 : Bool) (b2 : Bool) (b1 : Bool) (b0 : Bool) : UInt8 :=
  let result : UInt8 := 0
  let result := if b7 then
      let result := result ||| 128
      result
    else
      result
  let result := if b6 then
      let result := result ||| 64
      result
    else
      result
  let result := if b5 then
      let result := result ||| 32
      result
    else
      result
  let result := if b4 then
      let result := result ||| 16
      result
    else
      result
  let result := if b3 then
      let result := result ||| 8
      result
    else
      result
  let result := if b2 then
      let result := result ||| 4
      result
    else
      result
  let result := if b1 then
      let result := result ||| 2
      result
    else
      result
  let result := if b0 then
      let result := result ||| 1
      result
    else
      result
  result

/-- pkg/bitutils/bitutils.go:95-147 -/
def Gen.bitutils.Pack16Bits (b15 : Bool) (b14 : Bool) (b13 : Bool) (b12 : Bool) (b11 : Bool) (b10 : Bool) (b9 : Bool) (b8 : Bool) (b7 : Bool) (b6 : Bool) (b5 : Bool) (b4 : Bool) (b3 : Bool) (b2 : Bool) (b1 : Bool) (b0 : Bool) : UInt16 :=
  let result : UInt16 := 0
  let result := if b15 then
      let result := result ||| 32768
      result
    else
      result
  let result := if b14 then
      let result := result ||| 16384
      result
    else
      result
  let result := if b13 then
      let result := result ||| 8192
      result
    else
      result
  let result := if b12 then
      let result := result ||| 4096
      result
    else
      result
  let result := if b11 then
      let result := result ||| 2048
      result
    else
      result
  let result := if b10 then
      let result := result ||| 1024
      result
    else
      result
  let result := if b9 then
      let result := result ||| 512
      result
    else
      result
  let result := if b8 then
      let result := result ||| 256
      result
    else
      result
  let result := if b7 then
      let result := result ||| 128
      result
    else
      result
  let result := if b6 then
      let result := result ||| 64
      result
    else
      result
  let result := if b5 then
      let result := result ||| 32
      result
    else
      result
  let result := if b4 then
      let result := result ||| 16
      result
    else
      result
  let result := if b3 then
      let result := result ||| 8
      result
    else
      result
  let result := if b2 then
      let result := result ||| 4
      result
    else
      result
  let result := if b1 then
      let result := result ||| 2
      result
    else
      result
  let result := if b0 then
      let result := result ||| 1
      result
    else
      result
  result

/-- The method CheckCoherency called through the interface pkg/bds/bds44.MeteorologicalRoutineAirReport; its implementations are in pkg/bds/bds44/meteorological_routine_air_report_v0.go, pkg/bds/bds44/meteorological_routine_air_report_v1.go, pkg/bds/bds44/meteorological_routine_air_report_v2.go. -/
def Gen.bds.bds44.MeteorologicalRoutineAirReport.CheckCoherency : RoutineAirReport → Go Unit
  | .v0 x => Gen.bds.bds44.MeteorologicalRoutineAirReportV0.CheckCoherency x
  | .v1 x => Gen.bds.bds44.MeteorologicalRoutineAirReportV1.CheckCoherency x
  | .v2 x => Gen.bds.bds44.MeteorologicalRoutineAirReportV2.CheckCoherency x

/-- The method CheckCoherency called through the interface pkg/bds/bds45.MeteorologicalHazardReport; its implementations are in pkg/bds/bds45/meteorological_hazard_report_v0.go, pkg/bds/bds45/meteorological_hazard_report_v1.go. -/
def Gen.bds.bds45.MeteorologicalHazardReport.CheckCoherency : HazardReport → Go Unit
  | .v0 x => Gen.bds.bds45.MeteorologicalHazardReportV0.CheckCoherency x
  | .v1 x => Gen.bds.bds45.MeteorologicalHazardReportV1.CheckCoherency x

/-- The method CheckCoherency called through the interface pkg/bds.Message; its implementations are in pkg/bds/bds00/no_message_available.go, pkg/bds/bds07/status.go, pkg/bds/bds10/data_link_capability_report.go, pkg/bds/bds17/common_usage_gicb_capability_report.go, pkg/bds/bds20/aircraft_identification.go, pkg/bds/bds30/acas_resolution_advisory.go, pkg/bds/bds40/selected_vertical_intention.go, pkg/bds/bds50/track_and_turn_report.go, pkg/bds/bds60/heading_and_speed_report.go. -/
def Gen.bds.Message.CheckCoherency : CommBMessage → Go Unit
  | .bds00 x => Gen.bds.bds00.NoMessageAvailable.CheckCoherency x
  | .bds07 x => Gen.bds.bds07.Status.CheckCoherency x
  | .bds20 x => Gen.bds.bds20.AircraftIdentification.CheckCoherency x
  | .bds10 x => Gen.bds.bds10.DataLinkCapabilityReport.CheckCoherency x
  | .bds17 x => Gen.bds.bds17.CommonUsageGICBCapabilityReport.CheckCoherency x
  | .bds30 x => Gen.bds.bds30.ACASResolutionAdvisory.CheckCoherency x
  | .bds40 x => Gen.bds.bds40.SelectedVerticalIntention.CheckCoherency x
  | .bds44 x => Gen.bds.bds44.MeteorologicalRoutineAirReport.CheckCoherency x
  | .bds45 x => Gen.bds.bds45.MeteorologicalHazardReport.CheckCoherency x
  | .bds50 x => Gen.bds.bds50.TrackAndTurnReport.CheckCoherency x
  | .bds60 x => Gen.bds.bds60.HeadingAndTrackReport.CheckCoherency x

/-- pkg/commb/reader.go:26-105 -/
def Gen.commb.ReadCommBMessage (data : List UInt8) : Go (List CommBMessage) := do
  if data.length ≠ 7 then fail
  let message? ← attempt (Gen.bds.bds00.ReadNoMessageAvailable data)
  match message? with
  | some message =>
    return [CommBMessage.bds00 message]
  | none =>
    let message? ← attempt (Gen.bds.bds07.ReadStatus data)
    let message? := message?.filter (fun message => returnsNil (Gen.bds.Message.CheckCoherency (CommBMessage.bds07 message)))
    match message? with
    | some message =>
      return [CommBMessage.bds07 message]
    | none =>
      let message? ← attempt (Gen.bds.bds20.ReadAircraftIdentification data)
      let message? := message?.filter (fun message => returnsNil (Gen.bds.Message.CheckCoherency (CommBMessage.bds20 message)))
      match message? with
      | some message =>
        return [CommBMessage.bds20 message]
      | none =>
        let messages := []
        let message? ← attempt (Gen.bds.bds10.ReadDataLinkCapabilityReport data)
        let messages := match message? with | some message => messages ++ [CommBMessage.bds10 message] | none => messages
        let message? ← attempt (Gen.bds.bds17.ReadCommonUsageGICBCapabilityReport data)
        let messages := match message? with | some message => messages ++ [CommBMessage.bds17 message] | none => messages
        let message? ← attempt (Gen.bds.bds30.ReadACASResolutionAdvisory data)
        let messages := match message? with | some message => messages ++ [CommBMessage.bds30 message] | none => messages
        let message? ← attempt (Gen.bds.bds40.ReadSelectedVerticalIntention data)
        let messages := match message? with | some message => messages ++ [CommBMessage.bds40 message] | none => messages
        let message? ← attempt (Gen.bds.bds44.ReadMeteorologicalRoutineAirReport data)
        let messages := match message? with | some message => messages ++ [CommBMessage.bds44 message] | none => messages
        let message? ← attempt (Gen.bds.bds45.ReadMeteorologicalHazardReport data)
        let messages := match message? with | some message => messages ++ [CommBMessage.bds45 message] | none => messages
        let message? ← attempt (Gen.bds.bds50.ReadTrackAndTurnReport data)
        let messages := match message? with | some message => messages ++ [CommBMessage.bds50 message] | none => messages
        let message? ← attempt (Gen.bds.bds60.ReadHeadingAndSpeedReport data)
        let messages := match message? with | some message => messages ++ [CommBMessage.bds60 message] | none => messages
        let coherentMessages := []
        let coherentMessages ← messages.foldlM (fun (coherentMessages : List CommBMessage) message => do
          let coherentMessages := if returnsNil (Gen.bds.Message.CheckCoherency message) then
              let coherentMessages := coherentMessages ++ [message]
              coherentMessages
            else
              coherentMessages
          pure coherentMessages) coherentMessages
        return coherentMessages

/-- pkg/modes/fields/address_announced.go:24-29 -/
def Gen.modes.fields.ReadAddressAnnounced (message : MessageData) : Go UInt32 := do
  return Gen.bitutils.Pack3Bytes (← idx message.payload 0) (← idx message.payload 1) (← idx message.payload 2)

/-- pkg/modes/fields/altitude_code.go:39-104 -/
def Gen.modes.fields.ReadAltitude (message : MessageData) : Go (Int × AltitudeReportMethod) := do
  let altitudeCode := ((((← idx message.payload 1) &&& 31).toUInt16) <<< 8) + ((← idx message.payload 2).toUInt16)
  if altitudeCode = 0 then
    return (0, .notAvailable)
  else
    let mBit := (altitudeCode &&& 64) != 0
    if mBit then
      return (0, .metricUnits)
    else
      let qBit := (altitudeCode &&& 16) != 0
      if qBit then
        let n : UInt16 := 0
        let n := n ||| ((altitudeCode &&& 8064) >>> 2)
        let n := n ||| ((altitudeCode &&& 32) >>> 1)
        let n := n ||| (altitudeCode &&& 15)
        let altitude := (25 * (n.toNat : Int)) - 1000
        return (altitude, .feet25)
      else
        let c1 := (altitudeCode &&& 4096) != 0
        let a1 := (altitudeCode &&& 2048) != 0
        let c2 := (altitudeCode &&& 1024) != 0
        let a2 := (altitudeCode &&& 512) != 0
        let c4 := (altitudeCode &&& 256) != 0
        let a4 := (altitudeCode &&& 128) != 0
        let b1 := (altitudeCode &&& 32) != 0
        let b2 := (altitudeCode &&& 8) != 0
        let d2 := (altitudeCode &&& 4) != 0
        let b4 := (altitudeCode &&& 2) != 0
        let d4 := (altitudeCode &&& 1) != 0
        let altitude ← Gen.bitutils.GillhamToAltitude false d2 d4 a1 a2 a4 b1 b2 b4 c1 c2 c4
        return (altitude, .feet100)

/-- pkg/modes/fields/application_field.go:39-42 -/
def Gen.modes.fields.ReadApplicationField (message : MessageData) : UInt8 :=
  message.firstField

/-- pkg/modes/fields/capability.go:43-46 -/
def Gen.modes.fields.ReadCapability (message : MessageData) : UInt8 :=
  message.firstField

/-- pkg/modes/fields/control_elm.go:27-32 -/
def Gen.modes.fields.ReadControlELM (message : MessageData) : UInt8 :=
  if (message.downLinkFormat &&& 2) ≠ 0 then
    1
  else
    0

/-- pkg/modes/fields/control_field.go:39-42 -/
def Gen.modes.fields.ReadControlField (message : MessageData) : UInt8 :=
  message.firstField

/-- pkg/modes/fields/cross_link_compatibility.go:29-34 -/
def Gen.modes.fields.ReadCrossLinkCompatibility (message : MessageData) : UInt8 :=
  if (message.firstField &&& 2) ≠ 0 then
    1
  else
    0

/-- pkg/modes/fields/downlink_request.go:87-90 -/
def Gen.modes.fields.ReadDownlinkRequest (message : MessageData) : Go UInt8 := do
  return ((← idx message.payload 0) &&& 248) >>> 3

/-- pkg/modes/fields/flight_status.go:39-42 -/
def Gen.modes.fields.ReadFlightStatus (message : MessageData) : UInt8 :=
  message.firstField

/-- pkg/modes/fields/identity.go:25-27 -/
def Gen.modes.fields.Identity.IsSpecialEmergency (identity : List Char) : Bool :=
  identity == ("7700".toList)

/-- pkg/modes/fields/identity.go:31-33 -/
def Gen.modes.fields.Identity.IsSpecialRadiocommunicationFailure (identity : List Char) : Bool :=
  identity == ("7600".toList)

/-- pkg/modes/fields/identity.go:37-39 -/
def Gen.modes.fields.Identity.IsSpecialUnlawfulInterference (identity : List Char) : Bool :=
  identity == ("7500".toList)

/-- pkg/modes/fields/identity.go:43-45 -/
def Gen.modes.fields.Identity.IsSpecialInstructionNotReceived (identity : List Char) : Bool :=
  identity == ("2000".toList)

/-- pkg/modes/fields/identity.go:48-80 -/
def Gen.modes.fields.ReadIdentity (message : MessageData) : Go (List Char) := do
  let identity := Gen.bitutils.Pack2Bytes ((← idx message.payload 1) &&& 31) (← idx message.payload 2)
  let c1 := (identity &&& 4096) >>> 12
  let a1 := (identity &&& 2048) >>> 11
  let c2 := (identity &&& 1024) >>> 10
  let a2 := (identity &&& 512) >>> 9
  let c4 := (identity &&& 256) >>> 8
  let a4 := (identity &&& 128) >>> 7
  let b1 := (identity &&& 32) >>> 5
  let d1 := (identity &&& 16) >>> 4
  let b2 := (identity &&& 8) >>> 3
  let d2 := (identity &&& 4) >>> 2
  let b4 := (identity &&& 2) >>> 1
  let d4 := identity &&& 1
  let a := ((a4 <<< 2) ||| (a2 <<< 1)) ||| a1
  let b := ((b4 <<< 2) ||| (b2 <<< 1)) ||| b1
  let c := ((c4 <<< 2) ||| (c2 <<< 1)) ||| c1
  let d := ((d4 <<< 2) ||| (d2 <<< 1)) ||| d1
  return sprintfUint a.toNat ++ sprintfUint b.toNat ++ sprintfUint c.toNat ++ sprintfUint d.toNat

/-- pkg/modes/fields/message_acas.go:21-36 -/
def Gen.modes.fields.ReadMessageACAS (message : MessageData) : Go (List UInt8) := do
  let data := List.replicate 7 (0 : UInt8)
  let data ← setIdx data 0 (← idx message.payload 3)
  let data ← setIdx data 1 (← idx message.payload 4)
  let data ← setIdx data 2 (← idx message.payload 5)
  let data ← setIdx data 3 (← idx message.payload 6)
  let data ← setIdx data 4 (← idx message.payload 7)
  let data ← setIdx data 5 (← idx message.payload 8)
  let data ← setIdx data 6 (← idx message.payload 9)
  return data

/-- pkg/modes/fields/message_comm_b.go:20-29 -/
def Gen.modes.fields.ReadMessageCommB (message : MessageData) : Go (List UInt8) := do
  let data := List.replicate 7 (0 : UInt8)
  let data ← setIdx data 0 (← idx message.payload 3)
  let data ← setIdx data 1 (← idx message.payload 4)
  let data ← setIdx data 2 (← idx message.payload 5)
  let data ← setIdx data 3 (← idx message.payload 6)
  let data ← setIdx data 4 (← idx message.payload 7)
  let data ← setIdx data 5 (← idx message.payload 8)
  let data ← setIdx data 6 (← idx message.payload 9)
  return data

/-- pkg/modes/fields/message_comm_d.go:22-31 -/
def Gen.modes.fields.ReadMessageCommD (message : MessageData) : Go (List UInt8) := do
  let data := List.replicate 10 (0 : UInt8)
  let data ← setIdx data 0 (← idx message.payload 0)
  let data ← setIdx data 1 (← idx message.payload 1)
  let data ← setIdx data 2 (← idx message.payload 2)
  let data ← setIdx data 3 (← idx message.payload 3)
  let data ← setIdx data 4 (← idx message.payload 4)
  let data ← setIdx data 5 (← idx message.payload 5)
  let data ← setIdx data 6 (← idx message.payload 6)
  let data ← setIdx data 7 (← idx message.payload 7)
  let data ← setIdx data 8 (← idx message.payload 8)
  let data ← setIdx data 9 (← idx message.payload 9)
  return data

/-- pkg/modes/fields/message_extended_squitter.go:22-31 -/
def Gen.modes.fields.ReadMessageExtendedSquitter (message : MessageData) : Go (List UInt8) := do
  let data := List.replicate 7 (0 : UInt8)
  let data ← setIdx data 0 (← idx message.payload 3)
  let data ← setIdx data 1 (← idx message.payload 4)
  let data ← setIdx data 2 (← idx message.payload 5)
  let data ← setIdx data 3 (← idx message.payload 6)
  let data ← setIdx data 4 (← idx message.payload 7)
  let data ← setIdx data 5 (← idx message.payload 8)
  let data ← setIdx data 6 (← idx message.payload 9)
  return data

/-- pkg/modes/fields/number_of_d_segment.go:20-23 -/
def Gen.modes.fields.ReadNumberOfDSegment (message : MessageData) : UInt8 :=
  ((message.downLinkFormat &&& 1) <<< 3) ||| message.firstField

/-- pkg/modes/fields/reply_information_air_air.go:64-69 -/
def Gen.modes.fields.ReadReplyInformationAirAir (message : MessageData) : Go UInt8 := do
  let replyInformation := (((← idx message.payload 0) &&& 7) <<< 1) ||| (((← idx message.payload 1) &&& 128) >>> 7)
  return replyInformation

/-- pkg/modes/fields/sensitivity_level_report.go:40-46 -/
def Gen.modes.fields.ReadSensitivityLevelReport (message : MessageData) : Go UInt8 := do
  let sensitivity := ((← idx message.payload 0) &&& 224) >>> 5
  return sensitivity

/-- pkg/modes/fields/utility_message.go:43-52 -/
def Gen.modes.fields.ReadUtilityMessage (message : MessageData) : Go UtilityMessage := do
  let ii := (((← idx message.payload 0) &&& 7) <<< 1) ||| (((← idx message.payload 1) &&& 128) >>> 7)
  let id := ((← idx message.payload 1) &&& 96) >>> 5
  return { interrogatorIdentifier := ii, identifierDesignator := id : UtilityMessage }

/-- pkg/modes/fields/vertical_status.go:27-32 -/
def Gen.modes.fields.ReadVerticalStatus (message : MessageData) : UInt8 :=
  if (message.firstField &&& 4) ≠ 0 then
    1
  else
    0

/-- pkg/modes/messages/df0.go:33-35 -/
def Gen.modes.messages.MessageDF0.GetDownLinkFormat (message : MessageDF0) : Int :=
  0

/-- pkg/modes/messages/df0.go:38-67 -/
def Gen.modes.messages.ParseDF0 (message : MessageData) : Go MessageDF0 := do
  if message.downLinkFormat ≠ 0 then fail
  if message.payload.length ≠ 3 then fail
  let (altitude, altitudeReportMethod) ← Gen.modes.fields.ReadAltitude message
  return { data := message,
           verticalStatus := Gen.modes.fields.ReadVerticalStatus message,
           crossLinkCapability := Gen.modes.fields.ReadCrossLinkCompatibility message,
           sensitivityLevel := (← Gen.modes.fields.ReadSensitivityLevelReport message),
           replyInformation := (← Gen.modes.fields.ReadReplyInformationAirAir message),
           altitudeReportMethod := altitudeReportMethod,
           altitude := altitude : MessageDF0 }

/-- pkg/modes/messages/df11.go:27-29 -/
def Gen.modes.messages.MessageDF11.GetDownLinkFormat (message : MessageDF11) : Int :=
  11

/-- pkg/modes/messages/df11.go:32-51 -/
def Gen.modes.messages.ParseDF11 (message : MessageData) : Go MessageDF11 := do
  if message.downLinkFormat ≠ 11 then fail
  if message.payload.length ≠ 3 then fail
  return { data := message,
           capability := Gen.modes.fields.ReadCapability message,
           addressAnnounced := (← Gen.modes.fields.ReadAddressAnnounced message) : MessageDF11 }

/-- pkg/modes/messages/df16.go:31-33 -/
def Gen.modes.messages.MessageDF16.GetDownLinkFormat (message : MessageDF16) : Int :=
  16

/-- pkg/modes/messages/df16.go:36-65 -/
def Gen.modes.messages.ParseDF16 (message : MessageData) : Go MessageDF16 := do
  if message.downLinkFormat ≠ 16 then fail
  if message.payload.length ≠ 10 then fail
  let (altitude, altitudeReportMethod) ← Gen.modes.fields.ReadAltitude message
  return { data := message,
           verticalStatus := Gen.modes.fields.ReadVerticalStatus message,
           sensitivityLevel := (← Gen.modes.fields.ReadSensitivityLevelReport message),
           replyInformation := (← Gen.modes.fields.ReadReplyInformationAirAir message),
           altitudeReportMethod := altitudeReportMethod,
           altitude := altitude,
           messageACAS := (← Gen.modes.fields.ReadMessageACAS message) : MessageDF16 }

/-- pkg/modes/messages/df17.go:28-30 -/
def Gen.modes.messages.MessageDF17.GetDownLinkFormat (message : MessageDF17) : Int :=
  17

/-- pkg/modes/messages/df17.go:33-53 -/
def Gen.modes.messages.ParseDF17 (message : MessageData) : Go MessageDF17 := do
  if message.downLinkFormat ≠ 17 then fail
  if message.payload.length ≠ 10 then fail
  return { data := message,
           capability := Gen.modes.fields.ReadCapability message,
           addressAnnounced := (← Gen.modes.fields.ReadAddressAnnounced message),
           messageExtendedSquitter := (← Gen.modes.fields.ReadMessageExtendedSquitter message) : MessageDF17 }

/-- pkg/modes/messages/df18.go:28-30 -/
def Gen.modes.messages.MessageDF18.GetDownLinkFormat (message : MessageDF18) : Int :=
  18

/-- pkg/modes/messages/df18.go:33-53 -/
def Gen.modes.messages.ParseDF18 (message : MessageData) : Go MessageDF18 := do
  if message.downLinkFormat ≠ 18 then fail
  if message.payload.length ≠ 10 then fail
  return { data := message,
           controlField := Gen.modes.fields.ReadControlField message,
           addressAnnounced := (← Gen.modes.fields.ReadAddressAnnounced message),
           messageExtendedSquitter := (← Gen.modes.fields.ReadMessageExtendedSquitter message) : MessageDF18 }

/-- pkg/modes/messages/df19.go:26-28 -/
def Gen.modes.messages.MessageDF19.GetDownLinkFormat (message : MessageDF19) : Int :=
  19

/-- pkg/modes/messages/df19.go:31-49 -/
def Gen.modes.messages.ParseDF19 (message : MessageData) : Go MessageDF19 := do
  if message.downLinkFormat ≠ 19 then fail
  if message.payload.length ≠ 10 then fail
  return { data := message, applicationField := Gen.modes.fields.ReadApplicationField message : MessageDF19 }

/-- pkg/modes/messages/df20.go:31-33 -/
def Gen.modes.messages.MessageDF20.GetDownLinkFormat (message : MessageDF20) : Int :=
  20

/-- pkg/modes/messages/df20.go:36-65 -/
def Gen.modes.messages.ParseDF20 (message : MessageData) : Go MessageDF20 := do
  if message.downLinkFormat ≠ 20 then fail
  if message.payload.length ≠ 10 then fail
  let (altitude, altitudeReportMethod) ← Gen.modes.fields.ReadAltitude message
  return { data := message,
           flightStatus := Gen.modes.fields.ReadFlightStatus message,
           downlinkRequest := (← Gen.modes.fields.ReadDownlinkRequest message),
           utilityMessage := (← Gen.modes.fields.ReadUtilityMessage message),
           altitudeReportMethod := altitudeReportMethod,
           altitude := altitude,
           messageCommB := (← Gen.modes.fields.ReadMessageCommB message) : MessageDF20 }

/-- pkg/modes/messages/df21.go:30-32 -/
def Gen.modes.messages.MessageDF21.GetDownLinkFormat (message : MessageDF21) : Int :=
  21

/-- pkg/modes/messages/df21.go:35-57 -/
def Gen.modes.messages.ParseDF21 (message : MessageData) : Go MessageDF21 := do
  if message.downLinkFormat ≠ 21 then fail
  if message.payload.length ≠ 10 then fail
  return { data := message,
           flightStatus := Gen.modes.fields.ReadFlightStatus message,
           downlinkRequest := (← Gen.modes.fields.ReadDownlinkRequest message),
           utilityMessage := (← Gen.modes.fields.ReadUtilityMessage message),
           identity := (← Gen.modes.fields.ReadIdentity message),
           messageCommB := (← Gen.modes.fields.ReadMessageCommB message) : MessageDF21 }

/-- pkg/modes/messages/df24.go:28-30 -/
def Gen.modes.messages.MessageDF24.GetDownLinkFormat (message : MessageDF24) : Int :=
  24

/-- pkg/modes/messages/df24.go:33-53 -/
def Gen.modes.messages.ParseDF24 (message : MessageData) : Go MessageDF24 := do
  if (message.downLinkFormat &&& 24) ≠ 24 then fail
  if message.payload.length ≠ 10 then fail
  return { data := message,
           controlELM := Gen.modes.fields.ReadControlELM message,
           numberOfDSegment := Gen.modes.fields.ReadNumberOfDSegment message,
           messageCommD := (← Gen.modes.fields.ReadMessageCommD message) : MessageDF24 }

/-- pkg/modes/messages/df4.go:30-32 -/
def Gen.modes.messages.MessageDF4.GetDownLinkFormat (message : MessageDF4) : Int :=
  4

/-- pkg/modes/messages/df4.go:35-63 -/
def Gen.modes.messages.ParseDF4 (message : MessageData) : Go MessageDF4 := do
  if message.downLinkFormat ≠ 4 then fail
  if message.payload.length ≠ 3 then fail
  let (altitude, altitudeReportMethod) ← Gen.modes.fields.ReadAltitude message
  return { data := message,
           flightStatus := Gen.modes.fields.ReadFlightStatus message,
           downlinkRequest := (← Gen.modes.fields.ReadDownlinkRequest message),
           utilityMessage := (← Gen.modes.fields.ReadUtilityMessage message),
           altitudeReportMethod := altitudeReportMethod,
           altitude := altitude : MessageDF4 }

/-- pkg/modes/messages/df5.go:29-31 -/
def Gen.modes.messages.MessageDF5.GetDownLinkFormat (message : MessageDF5) : Int :=
  5

/-- pkg/modes/messages/df5.go:34-55 -/
def Gen.modes.messages.ParseDF5 (message : MessageData) : Go MessageDF5 := do
  if message.downLinkFormat ≠ 5 then fail
  if message.payload.length ≠ 3 then fail
  return { data := message,
           flightStatus := Gen.modes.fields.ReadFlightStatus message,
           downlinkRequest := (← Gen.modes.fields.ReadDownlinkRequest message),
           utilityMessage := (← Gen.modes.fields.ReadUtilityMessage message),
           identity := (← Gen.modes.fields.ReadIdentity message) : MessageDF5 }

/-- The method GetDownLinkFormat called through the interface pkg/modes/messages.ModeSMessage; its implementations are in pkg/modes/messages/df0.go, pkg/modes/messages/df11.go, pkg/modes/messages/df16.go, pkg/modes/messages/df17.go, pkg/modes/messages/df18.go, pkg/modes/messages/df19.go, pkg/modes/messages/df20.go, pkg/modes/messages/df21.go, pkg/modes/messages/df24.go, pkg/modes/messages/df4.go, pkg/modes/messages/df5.go. -/
def Gen.modes.messages.ModeSMessage.GetDownLinkFormat : ModeSMessage → Int
  | .df0 x => Gen.modes.messages.MessageDF0.GetDownLinkFormat x
  | .df4 x => Gen.modes.messages.MessageDF4.GetDownLinkFormat x
  | .df5 x => Gen.modes.messages.MessageDF5.GetDownLinkFormat x
  | .df11 x => Gen.modes.messages.MessageDF11.GetDownLinkFormat x
  | .df16 x => Gen.modes.messages.MessageDF16.GetDownLinkFormat x
  | .df17 x => Gen.modes.messages.MessageDF17.GetDownLinkFormat x
  | .df18 x => Gen.modes.messages.MessageDF18.GetDownLinkFormat x
  | .df19 x => Gen.modes.messages.MessageDF19.GetDownLinkFormat x
  | .df20 x => Gen.modes.messages.MessageDF20.GetDownLinkFormat x
  | .df21 x => Gen.modes.messages.MessageDF21.GetDownLinkFormat x
  | .df24 x => Gen.modes.messages.MessageDF24.GetDownLinkFormat x

/-- pkg/modes/reader/crc.go:115-154 -/
def Gen.modes.reader.computeParity (data : List UInt8) : Go UInt32 := do
  let crcLength : Int := 3
  let crc := List.replicate 3 (0 : UInt8)
  let crc ← setIdx crc 0 (← idx data 0)
  let crc ← setIdx crc 1 (← idx data 1)
  let crc ← setIdx crc 2 (← idx data 2)
  let crc ← (List.range (data.length * 8)).foldlM (fun (crc : List UInt8) (i : Nat) => do
    let invert := ((← idx crc 0) &&& 128) != 0
    let crc ← setIdx crc 0 ((← idx crc 0) <<< 1)
    let crc ← setIdx crc 0 ((← idx crc 0) ||| (((← idx crc 1) >>> 7) &&& 1))
    let crc ← setIdx crc 1 ((← idx crc 1) <<< 1)
    let crc ← setIdx crc 1 ((← idx crc 1) ||| (((← idx crc 2) >>> 7) &&& 1))
    let crc ← setIdx crc 2 ((← idx crc 2) <<< 1)
    let byteIdx := Int.tdiv (24 + (i : Int)) 8
    let bitShift := uintOf (7 - (i % 8 : Int))
    let crc ← if byteIdx < (data.length : Int) then do
        let crc ← setIdx crc 2 ((← idx crc 2) ||| ((shiftRight8 (← idxI data byteIdx) bitShift) &&& 1))
        pure crc
      else do
        pure crc
    let crc ← if invert then do
        let crc ← setIdx crc 0 ((← idx crc 0) ^^^ (← idx ([255, 244, 9] : List UInt8) 0))
        let crc ← setIdx crc 1 ((← idx crc 1) ^^^ (← idx ([255, 244, 9] : List UInt8) 1))
        let crc ← setIdx crc 2 ((← idx crc 2) ^^^ (← idx ([255, 244, 9] : List UInt8) 2))
        pure crc
      else do
        pure crc
    pure crc) crc
  return Gen.bitutils.Pack3Bytes (← idx crc 0) (← idx crc 1) (← idx crc 2)

/-- pkg/modes/reader/crc.go:43-62 -/
def Gen.modes.reader.checkCRCDF11 (data : List UInt8) (allowedInterrogatorIdentifiers : AllowList) : Go UInt32 := do
  let contentParity ← Gen.modes.reader.computeParity (← sliceTo data 4)
  let messageParity := Gen.bitutils.Pack3Bytes (← idx data 4) (← idx data 5) (← idx data 6)
  let interrogatorIdentifier := contentParity ^^^ messageParity
  if allowedInterrogatorIdentifiers.length > 0 then
    let ok := allowedInterrogatorIdentifiers.has interrogatorIdentifier
    if !ok then fail
    return interrogatorIdentifier
  else
    return interrogatorIdentifier

/-- pkg/modes/reader/crc.go:64-78 -/
def Gen.modes.reader.checkCRCDF17And18 (data : List UInt8) : Go UInt32 := do
  let messageICAO := Gen.bitutils.Pack3Bytes (← idx data 1) (← idx data 2) (← idx data 3)
  let contentParity ← Gen.modes.reader.computeParity (← sliceTo data 11)
  let messageParity := Gen.bitutils.Pack3Bytes (← idx data 11) (← idx data 12) (← idx data 13)
  if contentParity ≠ messageParity then fail
  return messageICAO

/-- pkg/modes/reader/crc.go:80-100 -/
def Gen.modes.reader.checkCRCOther (data : List UInt8) (allowedAddresses : AllowList) : Go UInt32 := do
  let messageLength := data.length
  let contentParity ← Gen.modes.reader.computeParity (← sliceToI data ((messageLength : Int) - 3))
  let messageParity := Gen.bitutils.Pack3Bytes (← idxI data ((messageLength : Int) - 3)) (← idxI data ((messageLength : Int) - 2)) (← idxI data ((messageLength : Int) - 1))
  let address := contentParity ^^^ messageParity
  if allowedAddresses.length > 0 then
    let ok := allowedAddresses.has address
    if !ok then fail
    return address
  else
    return address

/-- pkg/modes/reader/crc.go:27-41 -/
def Gen.modes.reader.CheckCRC (message : ModeSMessage) (data : List UInt8) (allowedAddresses : AllowList) (allowedInterrogatorIdentifiers : AllowList) : Go UInt32 := do
  let tag := Gen.modes.messages.ModeSMessage.GetDownLinkFormat message
  if tag = 11 then
    Gen.modes.reader.checkCRCDF11 data allowedInterrogatorIdentifiers
  else
    if tag = 17 ∨ tag = 18 then
      Gen.modes.reader.checkCRCDF17And18 data
    else
      Gen.modes.reader.checkCRCOther data allowedAddresses

/-- pkg/modes/reader/reader.go:16-67 -/
def Gen.modes.reader.ReadMessage (message : List UInt8) : Go ModeSMessage := do
  if message.length ≠ 7 ∧ message.length ≠ 14 then fail
  let messageData := { downLinkFormat := ((← idx message 0) &&& 248) >>> 3,
                       firstField := (← idx message 0) &&& 7,
                       payload := (← sliceI message 1 ((message.length : Int) - 3)),
                       parity := (← sliceFromI message ((message.length : Int) - 3)) : MessageData }
  if messageData.downLinkFormat = 0 then
    let modeS ← Gen.modes.messages.ParseDF0 messageData
    return ModeSMessage.df0 modeS
  else
    if messageData.downLinkFormat = 4 then
      let modeS ← Gen.modes.messages.ParseDF4 messageData
      return ModeSMessage.df4 modeS
    else
      if messageData.downLinkFormat = 5 then
        let modeS ← Gen.modes.messages.ParseDF5 messageData
        return ModeSMessage.df5 modeS
      else
        if messageData.downLinkFormat = 11 then
          let modeS ← Gen.modes.messages.ParseDF11 messageData
          return ModeSMessage.df11 modeS
        else
          if messageData.downLinkFormat = 16 then
            let modeS ← Gen.modes.messages.ParseDF16 messageData
            return ModeSMessage.df16 modeS
          else
            if messageData.downLinkFormat = 17 then
              let modeS ← Gen.modes.messages.ParseDF17 messageData
              return ModeSMessage.df17 modeS
            else
              if messageData.downLinkFormat = 18 then
                let modeS ← Gen.modes.messages.ParseDF18 messageData
                return ModeSMessage.df18 modeS
              else
                if messageData.downLinkFormat = 19 then
                  let modeS ← Gen.modes.messages.ParseDF19 messageData
                  return ModeSMessage.df19 modeS
                else
                  if messageData.downLinkFormat = 20 then
                    let modeS ← Gen.modes.messages.ParseDF20 messageData
                    return ModeSMessage.df20 modeS
                  else
                    if messageData.downLinkFormat = 21 then
                      let modeS ← Gen.modes.messages.ParseDF21 messageData
                      return ModeSMessage.df21 modeS
                    else
                      if ((((((messageData.downLinkFormat = 24 ∨ messageData.downLinkFormat = 25) ∨ messageData.downLinkFormat = 26) ∨ messageData.downLinkFormat = 27) ∨ messageData.downLinkFormat = 28) ∨ messageData.downLinkFormat = 29) ∨ messageData.downLinkFormat = 30) ∨ messageData.downLinkFormat = 31 then
                        let modeS ← Gen.modes.messages.ParseDF24 messageData
                        return ModeSMessage.df24 modeS
                      else
                        fail

end Modes
