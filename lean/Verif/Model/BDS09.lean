import Verif.Model.BDS05
import Verif.Model.Float
/-!
# `pkg/bds/bds09`: airborne velocity
-/
namespace Modes

/-- `fields.NumericValueStatus`, pkg/bds/bds09/fields/numeric_value_status.go:6-15. -/
inductive NumericValueStatus
  | noInformation
  | regular
  | maximum
  deriving DecidableEq, Repr

/-- The value of a Go `int16` after an arithmetic operation whose exact result is `x`: two's-complement wrap-around. -/
def wrap16 (x : Int) : Int := (x + 32768) % 65536 - 32768

/-- `bds09.AirborneVelocityGroundSpeedNormal`, airborne_velocity_ground_speed_normal.go:13-30, and
`AirborneVelocityGroundSpeedSupersonic`, airborne_velocity_ground_speed_supersonic.go:13-30 (same fields). -/
structure GroundSpeedVelocity where
  formatTypeCode : UInt8
  subtype : UInt8
  intentChange : UInt8
  ifrCapability : UInt8
  navigationUncertaintyCategory : UInt8
  directionEastWest : UInt8
  velocityEWStatus : NumericValueStatus
  velocityEW : UInt16
  directionNorthSouth : UInt8
  velocityNSStatus : NumericValueStatus
  velocityNS : UInt16
  verticalRateSource : UInt8
  verticalRateStatus : NumericValueStatus
  verticalRate : Int
  heightDifferenceStatus : NumericValueStatus
  heightDifference : Int
  deriving DecidableEq, Repr

/-- `bds09.AirborneVelocityAirSpeedNormal`, airborne_velocity_air_speed_normal.go:11-26, and
`AirborneVelocityAirSpeedSupersonic`, airborne_velocity_air_speed_supersonic.go:11-26 (same fields). -/
structure AirSpeedVelocity where
  formatTypeCode : UInt8
  subtype : UInt8
  intentChange : UInt8
  ifrCapability : UInt8
  navigationUncertaintyCategory : UInt8
  magneticHeadingStatus : UInt8
  magneticHeading : ℚ
  airspeedStatus : NumericValueStatus
  airspeed : UInt16
  verticalRateSource : UInt8
  verticalRateStatus : NumericValueStatus
  verticalRate : Int
  heightDifferenceStatus : NumericValueStatus
  heightDifference : Int
  deriving DecidableEq

/-- The `AirborneVelocity` interface and its four implementations, airborne_velocity.go:10-13. -/
inductive AirborneVelocity
  | groundSpeedNormal (m : GroundSpeedVelocity)
  | groundSpeedSupersonic (m : GroundSpeedVelocity)
  | airSpeedNormal (m : AirSpeedVelocity)
  | airSpeedSupersonic (m : AirSpeedVelocity)
  deriving DecidableEq

/-- `fields.ReadSubtype`, fields/subtype.go:41-44. -/
def readSubtype09 (data : List UInt8) : Go UInt8 := do
  return (← idx data 0) &&& 0x07

/-- `fields.ReadIntentChange`, fields/intent_change.go:31-34. -/
def readIntentChange (data : List UInt8) : Go UInt8 := do
  return ((← idx data 1) &&& 0x80) >>> 7

/-- `fields.ReadIFRCapability`, fields/ifr_capability.go:33-36. -/
def readIFRCapability (data : List UInt8) : Go UInt8 := do
  return ((← idx data 1) &&& 0x40) >>> 6

/-- `fields.ReadNavigationUncertaintyCategory`, fields/navigation_uncertainty_category.go:55-58. -/
def readNUC (data : List UInt8) : Go UInt8 := do
  return ((← idx data 1) &&& 0x38) >>> 3

/-- `fields.ReadDirectionEastWest`, fields/velocity_ew.go:34-37. -/
def readDirectionEW (data : List UInt8) : Go UInt8 := do
  return ((← idx data 1) &&& 0x04) >>> 2

/-- `fields.ReadVelocityEWNormal`, fields/velocity_ew.go:40-52. -/
def readVelocityEWNormal (data : List UInt8) : Go (UInt16 × NumericValueStatus) := do
  let byte1 := (← idx data 1) &&& 0x03
  let byte2 ← idx data 2
  let velocity := pack2 byte1 byte2
  if velocity = 0 then return (0, .noInformation)
  else if velocity ≥ 1023 then return (1023, .maximum)
  else return (velocity - 1, .regular)

/-- `fields.ReadVelocityEWSupersonic`, fields/velocity_ew.go:55-67. -/
def readVelocityEWSupersonic (data : List UInt8) : Go (UInt16 × NumericValueStatus) := do
  let byte1 := (← idx data 1) &&& 0x03
  let byte2 ← idx data 2
  let velocity := pack2 byte1 byte2
  if velocity = 0 then return (0, .noInformation)
  else if velocity ≥ 1023 then return (4088, .maximum)
  else return ((velocity - 1) * 4, .regular)

/-- `fields.ReadDirectionNorthSouth`, fields/velocity_ns.go:34-37. -/
def readDirectionNS (data : List UInt8) : Go UInt8 := do
  return ((← idx data 3) &&& 0x80) >>> 7

/-- `fields.ReadVelocityNSNormal`, fields/velocity_ns.go:40-52, and `fields.ReadAirspeedNormal`, fields/airspeed.go:8-20
(identical). -/
def readVelocityNSNormal (data : List UInt8) : Go (UInt16 × NumericValueStatus) := do
  let byte1 := (← idx data 3) &&& 0x7F
  let byte2 := (← idx data 4) &&& 0xE0
  let velocity := pack2 byte1 byte2 >>> 5
  if velocity = 0 then return (0, .noInformation)
  else if velocity ≥ 1023 then return (1023, .maximum)
  else return (velocity - 1, .regular)

/-- `fields.ReadVelocityNSSupersonic`, fields/velocity_ns.go:55-67, and `fields.ReadAirspeedSupersonic`,
fields/airspeed.go:23-35 (identical). -/
def readVelocityNSSupersonic (data : List UInt8) : Go (UInt16 × NumericValueStatus) := do
  let byte1 := (← idx data 3) &&& 0x7F
  let byte2 := (← idx data 4) &&& 0xE0
  let velocity := pack2 byte1 byte2 >>> 5
  if velocity = 0 then return (0, .noInformation)
  else if velocity ≥ 1023 then return (4088, .maximum)
  else return ((velocity - 1) * 4, .regular)

/-- `fields.ReadMagneticHeading`, fields/magnetic_heading.go:34-43. -/
def readMagneticHeading09 (data : List UInt8) : Go (ℚ × UInt8) := do
  let status := ((← idx data 1) &&& 0x04) >>> 2
  let byte1 := (← idx data 1) &&& 0x03
  let byte2 ← idx data 2
  let value := f64 (f64 (f64 ((pack2 byte1 byte2).toNat : ℚ) * 360) / 1024)
  return (f32 value, status)

/-- `fields.ReadVerticalRateSource`, fields/vertical_rate_source.go:31-34. -/
def readVerticalRateSource (data : List UInt8) : Go UInt8 := do
  return ((← idx data 4) &&& 0x10) >>> 4

/-- The value and status `fields.ReadVerticalRate` makes of its sign and number, fields/vertical_rate.go:15-31 (`int16`
arithmetic). -/
def verticalRateOf (negative : Bool) (rate : Int) : Int × NumericValueStatus :=
  if rate = 0 then (0, .noInformation)
  else if rate ≥ 511 then (if negative then -32640 else 32640, .maximum)
  else
    let rate := wrap16 (wrap16 (rate - 1) * 64)
    let rate := if negative then wrap16 (-rate) else rate
    (rate, .regular)

/-- `fields.ReadVerticalRate`, fields/vertical_rate.go:8-32. -/
def readVerticalRate (data : List UInt8) : Go (Int × NumericValueStatus) := do
  let negative := (← idx data 4) &&& 0x08 != 0
  let byte1 := (← idx data 4) &&& 0x07
  let byte2 := (← idx data 5) &&& 0xFC
  let rate := pack2 byte1 byte2 >>> 2
  return verticalRateOf negative (wrap16 rate.toNat)

/-- The value and status `fields.ReadHeightDifference` makes of its sign and number, fields/height_difference.go:9-25
(`int16` arithmetic). -/
def heightDifferenceOf (negative : Bool) (difference : Int) : Int × NumericValueStatus :=
  if difference = 0 then (0, .noInformation)
  else if difference ≥ 127 then (if negative then -3150 else 3150, .maximum)
  else
    let difference := wrap16 (wrap16 (difference - 1) * 25)
    let difference := if negative then wrap16 (-difference) else difference
    (difference, .regular)

/-- `fields.ReadHeightDifference`, fields/height_difference.go:4-26. -/
def readHeightDifference (data : List UInt8) : Go (Int × NumericValueStatus) := do
  let negative := (← idx data 6) &&& 0x80 != 0
  let difference := (← idx data 6) &&& 0x7F
  return heightDifferenceOf negative (wrap16 difference.toNat)

/-- `ReadAirborneVelocityGroundSpeedNormal`, airborne_velocity_ground_speed_normal.go:88-127. -/
def readGroundSpeedNormal (data : List UInt8) : Go GroundSpeedVelocity := do
  if data.length ≠ 7 then fail
  let formatTypeCode ← readFormatTypeCode data
  if formatTypeCode ≠ 19 then fail
  let subType ← readSubtype09 data
  if subType ≠ 1 then fail
  let (velocityEW, velocityEWStatus) ← readVelocityEWNormal data
  let (velocityNS, velocityNSStatus) ← readVelocityNSNormal data
  let (verticalRate, verticalRateStatus) ← readVerticalRate data
  let (diffBaro, diffBaroStatus) ← readHeightDifference data
  return {
    formatTypeCode := formatTypeCode
    subtype := subType
    intentChange := ← readIntentChange data
    ifrCapability := ← readIFRCapability data
    navigationUncertaintyCategory := ← readNUC data
    directionEastWest := ← readDirectionEW data
    velocityEWStatus := velocityEWStatus
    velocityEW := velocityEW
    directionNorthSouth := ← readDirectionNS data
    velocityNSStatus := velocityNSStatus
    velocityNS := velocityNS
    verticalRateSource := ← readVerticalRateSource data
    verticalRateStatus := verticalRateStatus
    verticalRate := verticalRate
    heightDifferenceStatus := diffBaroStatus
    heightDifference := diffBaro }

/-- `ReadAirborneVelocityGroundSpeedSupersonic`, airborne_velocity_ground_speed_supersonic.go:88-127. -/
def readGroundSpeedSupersonic (data : List UInt8) : Go GroundSpeedVelocity := do
  if data.length ≠ 7 then fail
  let formatTypeCode ← readFormatTypeCode data
  if formatTypeCode ≠ 19 then fail
  let subType ← readSubtype09 data
  if subType ≠ 2 then fail
  let (velocityEW, velocityEWStatus) ← readVelocityEWSupersonic data
  let (velocityNS, velocityNSStatus) ← readVelocityNSSupersonic data
  let (verticalRate, verticalRateStatus) ← readVerticalRate data
  let (diffBaro, diffBaroStatus) ← readHeightDifference data
  return {
    formatTypeCode := formatTypeCode
    subtype := subType
    intentChange := ← readIntentChange data
    ifrCapability := ← readIFRCapability data
    navigationUncertaintyCategory := ← readNUC data
    directionEastWest := ← readDirectionEW data
    velocityEWStatus := velocityEWStatus
    velocityEW := velocityEW
    directionNorthSouth := ← readDirectionNS data
    velocityNSStatus := velocityNSStatus
    velocityNS := velocityNS
    verticalRateSource := ← readVerticalRateSource data
    verticalRateStatus := verticalRateStatus
    verticalRate := verticalRate
    heightDifferenceStatus := diffBaroStatus
    heightDifference := diffBaro }

/-- `ReadAirborneVelocityAirSpeedNormal`, airborne_velocity_air_speed_normal.go:76-113. -/
def readAirSpeedNormal (data : List UInt8) : Go AirSpeedVelocity := do
  if data.length ≠ 7 then fail
  let formatTypeCode ← readFormatTypeCode data
  if formatTypeCode ≠ 19 then fail
  let subType ← readSubtype09 data
  if subType ≠ 3 then fail
  let (magneticHeading, magneticHeadingStatus) ← readMagneticHeading09 data
  let (airSpeed, airSpeedStatus) ← readVelocityNSNormal data
  let (verticalRate, verticalRateStatus) ← readVerticalRate data
  let (diffBaro, diffBaroStatus) ← readHeightDifference data
  return {
    formatTypeCode := formatTypeCode
    subtype := subType
    intentChange := ← readIntentChange data
    ifrCapability := ← readIFRCapability data
    navigationUncertaintyCategory := ← readNUC data
    magneticHeadingStatus := magneticHeadingStatus
    magneticHeading := magneticHeading
    airspeedStatus := airSpeedStatus
    airspeed := airSpeed
    verticalRateSource := ← readVerticalRateSource data
    verticalRateStatus := verticalRateStatus
    verticalRate := verticalRate
    heightDifferenceStatus := diffBaroStatus
    heightDifference := diffBaro }

/-- `ReadAirborneVelocityAirSpeedSupersonic`, airborne_velocity_air_speed_supersonic.go:76-113. -/
def readAirSpeedSupersonic (data : List UInt8) : Go AirSpeedVelocity := do
  if data.length ≠ 7 then fail
  let formatTypeCode ← readFormatTypeCode data
  if formatTypeCode ≠ 19 then fail
  let subType ← readSubtype09 data
  if subType ≠ 4 then fail
  let (magneticHeading, magneticHeadingStatus) ← readMagneticHeading09 data
  let (airSpeed, airSpeedStatus) ← readVelocityNSSupersonic data
  let (verticalRate, verticalRateStatus) ← readVerticalRate data
  let (diffBaro, diffBaroStatus) ← readHeightDifference data
  return {
    formatTypeCode := formatTypeCode
    subtype := subType
    intentChange := ← readIntentChange data
    ifrCapability := ← readIFRCapability data
    navigationUncertaintyCategory := ← readNUC data
    magneticHeadingStatus := magneticHeadingStatus
    magneticHeading := magneticHeading
    airspeedStatus := airSpeedStatus
    airspeed := airSpeed
    verticalRateSource := ← readVerticalRateSource data
    verticalRateStatus := verticalRateStatus
    verticalRate := verticalRate
    heightDifferenceStatus := diffBaroStatus
    heightDifference := diffBaro }

/-- `bds09.ReadAirborneVelocity`, airborne_velocity.go:16-40. `CheckCoherency` of the four messages never reports an
error. -/
def readBDS09 (data : List UInt8) : Go AirborneVelocity := do
  if data.length ≠ 7 then fail
  let formatTypeCode ← readFormatTypeCode data
  if formatTypeCode ≠ 19 then fail
  let subType ← readSubtype09 data
  if subType = 1 then return .groundSpeedNormal (← readGroundSpeedNormal data)
  else if subType = 2 then return .groundSpeedSupersonic (← readGroundSpeedSupersonic data)
  else if subType = 3 then return .airSpeedNormal (← readAirSpeedNormal data)
  else if subType = 4 then return .airSpeedSupersonic (← readAirSpeedSupersonic data)
  else fail

end Modes
