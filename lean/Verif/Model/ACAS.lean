import Verif.Model.BitUtils
import Verif.Model.Float
/-!
# `pkg/acas/ra`: resolution advisories
-/
namespace Modes

/-- `ActiveRAOneThreatOrSameSeparation`, fields/active_resolution_advisory_one_or_same_separation.go:8-15. The `int`
enumerations are the numbers 0 and 1: `PreventiveCorrective` 1 = corrective, `Sense` 1 = downward,
`VerticalSpeedLimitOrPositive` 1 = positive. -/
structure OneThreat where
  preventiveCorrective : Nat
  sense : Nat
  isIncreasedRate : Bool
  isSenseReversal : Bool
  isAltitudeCrossing : Bool
  verticalSpeedLimitOrPositive : Nat
  deriving DecidableEq, Repr

/-- `ActiveRAMultipleThreatsDifferentSeparation`, fields/active_resolution_advisory_multiple_threats.go:8-15. -/
structure MultipleThreats where
  requiresCorrectionUpwardSense : Bool
  requiresPositiveClimb : Bool
  requiresCorrectionDownwardSense : Bool
  requiresPositiveDescend : Bool
  requiresCrossing : Bool
  isSenseReversal : Bool
  deriving DecidableEq, Repr

/-- The `ActiveResolutionAdvisory` interface and its three implementations, fields/active_resolution_advisory.go:18-23 and
active_resolution_advisory_no.go. -/
inductive ActiveRA
  | oneThreat (m : OneThreat)
  | multiple (m : MultipleThreats)
  | none
  deriving DecidableEq, Repr

/-- `RAComplement`, fields/resolution_advisory_complement.go:6-15. -/
structure RAComplement where
  doNotPassBelow : Bool
  doNotPassAbove : Bool
  doNotTurnLeft : Bool
  doNotTurnRight : Bool
  deriving DecidableEq, Repr

/-- `ThreatIdentityAltitude`, fields/threat_identity_altitude.go:20-23 (`AltitudeStatus` 1 = valid). -/
structure ThreatAltitude where
  status : UInt8
  feet : Int
  deriving DecidableEq, Repr

/-- `ResolutionAdvisory`, resolution_advisory.go:13-23. A nil pointer is `none`. -/
structure ResolutionAdvisory where
  activeRA : ActiveRA
  raComplement : RAComplement
  raTerminatedIndicator : Nat
  multipleThreatEncounter : UInt8
  threatTypeIndicator : Nat
  threatIdentityAddress : Option UInt32
  threatIdentityAltitude : Option ThreatAltitude
  threatIdentityRange : Option UInt8
  threatIdentityBearing : Option UInt8
  deriving DecidableEq, Repr

/-- `ReadARAOneThreatOrSameSeparation`, fields/active_resolution_advisory_one_or_same_separation.go:40-80. -/
def readOneThreat (data : List UInt8) : Go OneThreat := do
  let d0 ← idx data 0
  return {
    preventiveCorrective := if d0 &&& 0x40 ≠ 0 then 1 else 0
    sense := if d0 &&& 0x20 ≠ 0 then 1 else 0
    isIncreasedRate := d0 &&& 0x10 != 0
    isSenseReversal := d0 &&& 0x08 != 0
    isAltitudeCrossing := d0 &&& 0x04 != 0
    verticalSpeedLimitOrPositive := if d0 &&& 0x02 ≠ 0 then 1 else 0 }

/-- `ReadARAMultipleThreatsDifferentSeparation`, fields/active_resolution_advisory_multiple_threats.go:40-80. -/
def readMultipleThreats (data : List UInt8) : Go MultipleThreats := do
  let d0 ← idx data 0
  return {
    requiresCorrectionUpwardSense := d0 &&& 0x40 != 0
    requiresPositiveClimb := d0 &&& 0x20 != 0
    requiresCorrectionDownwardSense := d0 &&& 0x10 != 0
    requiresPositiveDescend := d0 &&& 0x08 != 0
    requiresCrossing := d0 &&& 0x04 != 0
    isSenseReversal := d0 &&& 0x02 != 0 }

/-- `ReadActiveResolutionAdvisory`, fields/active_resolution_advisory.go:26-40. -/
def readActiveRA (data : List UInt8) : Go ActiveRA := do
  let mte := ((← idx data 2) &&& 0x10) >>> 4
  let araFirstBit := ((← idx data 0) &&& 0x80) >>> 7
  if araFirstBit = 1 then
    return .oneThreat (← readOneThreat data)
  else if mte ≠ 0 then
    return .multiple (← readMultipleThreats data)
  else
    return .none

/-- `ReadRAComplement`, fields/resolution_advisory_complement.go:30-38. -/
def readRAComplement (data : List UInt8) : Go RAComplement := do
  let d1 ← idx data 1
  let d2 ← idx data 2
  return {
    doNotPassBelow := d1 &&& 0x02 != 0
    doNotPassAbove := d1 &&& 0x01 != 0
    doNotTurnLeft := d2 &&& 0x80 != 0
    doNotTurnRight := d2 &&& 0x40 != 0 }

/-- `ReadRATerminatedIndicator`, fields/resolution_advisory_terminated.go:30-38. -/
def readRATerminated (data : List UInt8) : Go Nat := do
  return if (← idx data 2) &&& 0x20 ≠ 0 then 1 else 0

/-- `ReadMultipleThreatEncounter`, fields/multiple_threat_encounter.go:31-39. -/
def readMTE (data : List UInt8) : Go UInt8 := do
  return if ((← idx data 2) &&& 0x10) >>> 4 ≠ 0 then 1 else 0

/-- `ReadThreatTypeIndicator`, fields/threat_type_indicator.go:38-42 (the `int` as a number). -/
def readThreatTypeIndicator (data : List UInt8) : Go Nat := do
  return (((← idx data 2) &&& 0x0C) >>> 2).toNat

/-- `ReadThreatIdentityAddress`, fields/threat_identity_address.go:21-26. -/
def readThreatAddress (data : List UInt8) : Go UInt32 := do
  let bits := pack4 (← idx data 2) (← idx data 3) (← idx data 4) (← idx data 5)
  return (bits >>> 2) &&& 0x00FFFFFF

/-- The `altitudeCode` of `ReadThreatIdentityAltitude`, fields/threat_identity_altitude.go:34-40 (`uint16` additions). -/
def threatAltitudeCode (d2 d3 d4 : UInt8) : UInt16 :=
  let code : UInt16 := (d4 &&& 0xE0).toUInt16 >>> 5
  let code := code + (d3 &&& 0x07).toUInt16 <<< 3
  let code := code + (d3 &&& 0xF0).toUInt16 <<< 2
  code + (d2 &&& 0x03).toUInt16 <<< 2

/-- `ReadThreatIdentityAltitude`, fields/threat_identity_altitude.go:26-72. -/
def readThreatAltitude (data : List UInt8) : Go ThreatAltitude := do
  let altitudeCode := threatAltitudeCode (← idx data 2) (← idx data 3) (← idx data 4)
  if altitudeCode = 0 then
    return ⟨0, 0⟩
  else
    let c1 := altitudeCode &&& 0x0800 != 0
    let a1 := altitudeCode &&& 0x0400 != 0
    let c2 := altitudeCode &&& 0x0200 != 0
    let a2 := altitudeCode &&& 0x0100 != 0
    let c4 := altitudeCode &&& 0x0080 != 0
    let a4 := altitudeCode &&& 0x0040 != 0
    let b1 := altitudeCode &&& 0x0020 != 0
    let d1 := altitudeCode &&& 0x0010 != 0
    let b2 := altitudeCode &&& 0x0008 != 0
    let d2 := altitudeCode &&& 0x0004 != 0
    let b4 := altitudeCode &&& 0x0002 != 0
    let d4 := altitudeCode &&& 0x0001 != 0
    let altitudeFeet ← gillhamToAltitude d1 d2 d4 a1 a2 a4 b1 b2 b4 c1 c2 c4
    return ⟨1, altitudeFeet⟩

/-- `ReadThreatIdentityRange`, fields/threat_identity_range.go:40-44. -/
def readThreatRange (data : List UInt8) : Go UInt8 := do
  return ((← idx data 4) &&& 0x1F) <<< 2 + ((← idx data 5) &&& 0xA0) >>> 6

/-- `ReadThreatIdentityBearing`, fields/threat_identity_bearing.go:42-46. -/
def readThreatBearing (data : List UInt8) : Go UInt8 := do
  return (← idx data 5) &&& 0x3F

/-- `ThreatIdentityBearing.GetBearing`, fields/threat_identity_bearing.go:31-39. -/
def getBearing (b : UInt8) : Int :=
  if b = 0 then 0 else if b ≥ 61 then 363 else (b.toNat : Int) * 6 - 3

/-- `ThreatIdentityRange.GetRange`, fields/threat_identity_range.go:29-37 (`float64`; 12.6 is the nearest `float64`). -/
def getRange (r : UInt8) : ℚ :=
  if r = 0 ∨ r = 1 then 0
  else if r ≥ 127 then f64 (126 / 10)
  else f64 (f64 ((r.toNat : ℚ) - 1) / 10)

/-- `ReadResolutionAdvisory`, resolution_advisory.go:76-123. (The error of the altitude is returned after the range and
bearing have been read; those reads cannot fail otherwise than by panicking, so the order matters only for panics, and is
kept.) -/
def readResolutionAdvisory (data : List UInt8) : Go ResolutionAdvisory := do
  if data.length ≠ 6 then fail
  let threatTypeIndicator ← readThreatTypeIndicator data
  let mut threatIdentityAddress : Option UInt32 := none
  let mut threatIdentityAltitude : Option ThreatAltitude := none
  let mut threatIdentityRange : Option UInt8 := none
  let mut threatIdentityBearing : Option UInt8 := none
  if threatTypeIndicator = 1 then
    threatIdentityAddress := some (← readThreatAddress data)
  else if threatTypeIndicator = 2 then
    let threatRange ← readThreatRange data
    let threatBearing ← readThreatBearing data
    threatIdentityAltitude := some (← readThreatAltitude data)
    threatIdentityRange := some threatRange
    threatIdentityBearing := some threatBearing
  return {
    activeRA := ← readActiveRA data
    raComplement := ← readRAComplement data
    raTerminatedIndicator := ← readRATerminated data
    multipleThreatEncounter := ← readMTE data
    threatTypeIndicator := threatTypeIndicator
    threatIdentityAddress := threatIdentityAddress
    threatIdentityAltitude := threatIdentityAltitude
    threatIdentityRange := threatIdentityRange
    threatIdentityBearing := threatIdentityBearing }

end Modes
