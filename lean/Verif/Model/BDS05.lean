import Verif.Model.BitUtils
/-!
# `pkg/bds/bds05`: airborne position
-/
namespace Modes

/-- `bds05.AirbornePosition`, pkg/bds/bds05/airborne_position.go:10-21. The `int` enumerations `AltitudeSource`
(0 barometric, 1 GNSS) and `AltitudeReportMethod` (0 hundred feet, 1 twenty-five feet) are numbers. -/
structure AirbornePosition where
  formatTypeCode : UInt8
  surveillanceStatus : UInt8
  singleAntennaFlag : UInt8
  altitudeSource : Nat
  altitudeReportMethod : Nat
  altitudeInFeet : Int
  time : UInt8
  cprFormat : UInt8
  encodedLatitude : UInt32
  encodedLongitude : UInt32
  deriving DecidableEq, Repr

/-- `(data[0] & 0xF8) >> 3`, as in every reader of pkg/bds (for instance bds05/airborne_position.go:66). -/
def readFormatTypeCode (data : List UInt8) : Go UInt8 := do
  return ((← idx data 0) &&& 0xF8) >>> 3

/-- `fields.ReadAltitude`, pkg/bds/bds05/fields/altitude.go:54-109: altitude, source, method. The `int32` product is at most
25*2047. -/
def readAltitude05 (data : List UInt8) : Go (Int × Nat × Nat) := do
  let format := ((← idx data 0) &&& 0xF8) >>> 3
  let source := if 20 ≤ format ∧ format ≤ 22 then 1 else 0
  let b1 ← idx data 1
  if b1 &&& 0x01 ≠ 0 then
    let b2 ← idx data 2
    let n : UInt16 := 0
    let n := n ||| ((b1 &&& 0xFE).toUInt16 <<< 3)
    let n := n ||| ((b2 &&& 0xF0).toUInt16 >>> 4)
    return (25 * (n.toNat : Int) - 1000, source, 1)
  else
    let b2 ← idx data 2
    let altitudeFeet ← gillhamToAltitude false
      (b2 &&& 0x40 != 0) (b2 &&& 0x10 != 0)
      (b1 &&& 0x40 != 0) (b1 &&& 0x10 != 0) (b1 &&& 0x04 != 0)
      (b1 &&& 0x02 != 0) (b2 &&& 0x80 != 0) (b2 &&& 0x20 != 0)
      (b1 &&& 0x80 != 0) (b1 &&& 0x20 != 0) (b1 &&& 0x08 != 0)
    return (altitudeFeet, source, 0)

/-- `fields.ReadSurveillanceStatus`, pkg/bds/bds05/fields/surveillance_status.go:39-42. -/
def readSurveillanceStatus (data : List UInt8) : Go UInt8 := do
  return ((← idx data 0) &&& 0x06) >>> 1

/-- `fields.ReadSingleAntennaFlag`, pkg/bds/bds05/fields/single_antenna_flag.go:31-34. -/
def readSingleAntennaFlag (data : List UInt8) : Go UInt8 := do
  return (← idx data 0) &&& 0x01

/-- `fields.ReadTime`, pkg/bds/bds05/fields/time.go:31-34 (and pkg/bds/bds06/fields/time.go:31-34, identical). -/
def readTime (data : List UInt8) : Go UInt8 := do
  return ((← idx data 2) &&& 0x08) >>> 3

/-- `fields.ReadCompactPositionReportingFormat`, pkg/bds/bds05/fields/compact_position_reporting_format.go:31-34 (and
pkg/bds/bds06/fields/compact_position_reporting_format.go:31-34, identical). -/
def readCPRFormat (data : List UInt8) : Go UInt8 := do
  return ((← idx data 2) &&& 0x04) >>> 2

/-- `fields.ReadEncodedLatitude`, pkg/bds/bds05/fields/encoded_latitude.go:8-15. -/
def readEncodedLatitude05 (data : List UInt8) : Go UInt32 := do
  let b2 := (← idx data 2) &&& 0x03
  let b1 ← idx data 3
  let b0 := (← idx data 4) &&& 0xFE
  return pack3 b2 b1 b0 >>> 1

/-- `fields.ReadEncodedLongitude`, pkg/bds/bds05/fields/encoded_longitude.go:8-15 (and
pkg/bds/bds06/fields/encoded_longitude.go:19-26, identical). -/
def readEncodedLongitude (data : List UInt8) : Go UInt32 := do
  let b2 := (← idx data 4) &&& 0x01
  let b1 ← idx data 5
  let b0 ← idx data 6
  return pack3 b2 b1 b0

/-- `bds05.ReadAirbornePosition`, pkg/bds/bds05/airborne_position.go:60-89. `CheckCoherency` (29-31) never reports an
error. -/
def readBDS05 (data : List UInt8) : Go AirbornePosition := do
  if data.length ≠ 7 then fail
  let formatTypeCode ← readFormatTypeCode data
  if formatTypeCode < 9 ∨ formatTypeCode > 22 ∨ formatTypeCode = 19 then fail
  let (altitude, altitudeSource, altitudeReportMethod) ← readAltitude05 data
  return {
    formatTypeCode := formatTypeCode
    surveillanceStatus := ← readSurveillanceStatus data
    singleAntennaFlag := ← readSingleAntennaFlag data
    altitudeSource := altitudeSource
    altitudeReportMethod := altitudeReportMethod
    altitudeInFeet := altitude
    time := ← readTime data
    cprFormat := ← readCPRFormat data
    encodedLatitude := ← readEncodedLatitude05 data
    encodedLongitude := ← readEncodedLongitude data }

end Modes
