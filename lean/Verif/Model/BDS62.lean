import Verif.Model.BDS05
import Verif.Model.BDS09
/-!
# `pkg/bds/bds62`: target state and status

The enumerations of the fields are bytes. `fields.NumericValueStatus` (fields/numeric_value_status.go:6-15) is the same
enumeration as that of pkg/bds/bds09.
-/
namespace Modes

/-- `fields.ReadSubtype`, pkg/bds/bds62/fields/subtype.go:39-42. -/
def readSubtype62 (data : List UInt8) : Go UInt8 := do
  return ((← idx data 0) &&& 0x06) >>> 1

/-- `fields.ReadVerticalDataAvailableSourceIndicator`, pkg/bds/bds62/fields/vertical_data_source_indicator.go:39-42. -/
def readVDA (data : List UInt8) : Go UInt8 := do
  return ((← idx data 0) &&& 0x01) <<< 1 + ((← idx data 1) &&& 0x80) >>> 7

/-- `fields.ReadTargetAltitudeType`, pkg/bds/bds62/fields/target_altitude_type.go:31-34. -/
def readTargetAltitudeType (data : List UInt8) : Go UInt8 := do
  return ((← idx data 1) &&& 0x40) >>> 6

/-- `fields.ReadTargetAltitudeCapability`, pkg/bds/bds62/fields/target_altitude_capability.go:41-44. -/
def readTargetAltitudeCapability (data : List UInt8) : Go UInt8 := do
  return ((← idx data 1) &&& 0x18) >>> 3

/-- `fields.ReadVerticalModeIndicator`, pkg/bds/bds62/fields/vertical_mode_indicator.go:39-42. -/
def readVerticalModeIndicator (data : List UInt8) : Go UInt8 := do
  return ((← idx data 1) &&& 0x06) >>> 1

/-- `fields.ReadHorizontalDataAvailableSourceIndicator`, pkg/bds/bds62/fields/horizontal_data_source_indicator.go:39-42. -/
def readHDA (data : List UInt8) : Go UInt8 := do
  return ((← idx data 3) &&& 0x60) >>> 5

/-- `fields.ReadTargetHeadingTrackIndicator`, pkg/bds/bds62/fields/target_heading_track_angle.go:34-37. -/
def readTargetHeadingTrackIndicator (data : List UInt8) : Go UInt8 := do
  return ((← idx data 4) &&& 0x08) >>> 3

/-- `fields.ReadHorizontalModeIndicator`, pkg/bds/bds62/fields/horizontal_mode_indicator.go:39-42. -/
def readHorizontalModeIndicator (data : List UInt8) : Go UInt8 := do
  return ((← idx data 4) &&& 0x06) >>> 1

/-- `fields.ReadNavigationalAccuracyCategoryPosition`, pkg/bds/bds62/fields/navigational_accuracy_category_position_v1.go:88-91 and navigational_accuracy_category_position_v2.go:88-91 (identical). -/
def readNACp62 (data : List UInt8) : Go UInt8 := do
  return ((← idx data 4) &&& 0x01) <<< 3 + ((← idx data 5) &&& 0xE0) >>> 5

/-- `fields.ReadNICBaro`, pkg/bds/bds62/fields/nic_baro.go:35-38. -/
def readNICBaro62 (data : List UInt8) : Go UInt8 := do
  return ((← idx data 5) &&& 0x10) >>> 4

/-- `fields.ReadSurveillanceIntegrityLevel`, pkg/bds/bds62/fields/surveillance_integrity_level.go:58-61 and source_integrity_level.go:39-42 (identical). -/
def readSIL62 (data : List UInt8) : Go UInt8 := do
  return ((← idx data 5) &&& 0x0C) >>> 2

/-- `fields.ReadCapabilityModeCode`, pkg/bds/bds62/fields/capability_mode_code.go:39-42. -/
def readCapabilityModeCode (data : List UInt8) : Go UInt8 := do
  return ((← idx data 6) &&& 0x18) >>> 3

/-- `fields.ReadEmergencyPriorityStatus`, pkg/bds/bds62/fields/emergency_priority_status.go:55-58. -/
def readEmergencyPriorityStatus62 (data : List UInt8) : Go UInt8 := do
  return (← idx data 6) &&& 0x07

/-- `fields.ReadSourceIntegrityLevelSupplement`, pkg/bds/bds62/fields/source_integrity_level_supplement.go:31-34. -/
def readSILSupplement62 (data : List UInt8) : Go UInt8 := do
  return (← idx data 0) &&& 0x01

/-- `fields.ReadSelectedAltitudeType`, pkg/bds/bds62/fields/selected_altitude_type.go:31-34. -/
def readSelectedAltitudeType (data : List UInt8) : Go UInt8 := do
  return (← idx data 0) &&& 0x01

/-- `fields.ReadStatusMCPFCUBits`, pkg/bds/bds62/fields/status_mcp_fcu_bits.go:33-36. -/
def readStatusMCPFCUBits (data : List UInt8) : Go UInt8 := do
  return ((← idx data 5) &&& 0x02) >>> 1

/-- The value and status made of the number, pkg/bds/bds62/fields/target_altitude.go:16-22 (the `int32` values stay below
2^17, no wrap-around). -/
def targetAltitudeOf (n : Nat) : Int × NumericValueStatus :=
  if (n : Int) > 1010 then (0, .maximum) else ((n : Int) * 100 - 1000, .regular)

/-- `fields.ReadTargetAltitude`, pkg/bds/bds62/fields/target_altitude.go:12-23. -/
def readTargetAltitude (data : List UInt8) : Go (Int × NumericValueStatus) := do
  let byte1 := (← idx data 1) &&& 0x01
  let byte2 := (← idx data 2) &&& 0xFF
  let byte3 := (← idx data 3) &&& 0x80
  return targetAltitudeOf (pack3 byte1 byte2 byte3 >>> 7).toNat

/-- `fields.ReadTargetHeadingTrackAngle`, pkg/bds/bds62/fields/target_heading_track_angle.go:41-51. -/
def readTargetHeadingTrackAngle (data : List UInt8) : Go (UInt16 × NumericValueStatus) := do
  let byte1 := (← idx data 3) &&& 0x1F
  let byte2 := (← idx data 2) &&& 0xF0
  let targetHeading := pack2 byte1 byte2 >>> 4
  return if targetHeading > 359 then (0, .maximum) else (targetHeading, .regular)

/-- `fields.ReadSelectedAltitude`, pkg/bds/bds62/fields/selected_altitude.go:8-18. -/
def readSelectedAltitude (data : List UInt8) : Go (UInt16 × NumericValueStatus) := do
  let byte1 := (← idx data 1) &&& 0x7F
  let byte2 := (← idx data 2) &&& 0xF0
  let allByte := pack2 byte1 byte2 >>> 4
  return if allByte = 0 then (0, .noInformation) else ((allByte - 1) * 32, .regular)

/-- The value and status made of the number, pkg/bds/bds62/fields/barometric_pressure_setting.go:13-17 (`float32`
arithmetic). -/
def barometricPressureOf (allByte : UInt16) : ℚ × NumericValueStatus :=
  if allByte = 0 then (0, .noInformation)
  else (f32 (f32 (f32 ((allByte - 1).toNat : ℚ) * f32 (8 / 10)) + 800), .regular)

/-- `fields.ReadBarometricPressureSetting`, pkg/bds/bds62/fields/barometric_pressure_setting.go:8-18. -/
def readBarometricPressureSetting62 (data : List UInt8) : Go (ℚ × NumericValueStatus) := do
  let byte1 := (← idx data 2) &&& 0x0F
  let byte2 := (← idx data 3) &&& 0xF8
  return barometricPressureOf (pack2 byte1 byte2 >>> 3)

/-- The heading made of its sign and number, pkg/bds/bds62/fields/selected_heading.go:40-46 (`float32` arithmetic). -/
def selectedHeadingOf (negative : Bool) (n : UInt16) : ℚ :=
  let heading := f32 (n.toNat : ℚ)
  let heading := if negative then -heading else heading
  f32 (f32 (heading * 180) / 256)

/-- `fields.ReadSelectedHeading`, pkg/bds/bds62/fields/selected_heading.go:34-47. The second value is the sign of the first: the rational numbers
have one zero, the `float32` two. -/
def readSelectedHeading (data : List UInt8) : Go (ℚ × Bool × UInt8) := do
  let status := ((← idx data 3) &&& 0x04) >>> 2
  let negative := (← idx data 3) &&& 0x02 != 0
  let byte1 := (← idx data 3) &&& 0x01
  let byte2 := (← idx data 4) &&& 0xFE
  return (selectedHeadingOf negative (pack2 byte1 byte2 >>> 1), negative, status)

/-- `bds62.TargetStateAndStatus0`, pkg/bds/bds62/target_state_and_status_type_0.go:14-33. -/
structure TargetStateAndStatus0 where
  formatTypeCode : UInt8
  subtype : UInt8
  verticalDataAvailableSourceIndicator : UInt8
  targetAltitudeType : UInt8
  targetAltitudeCapability : UInt8
  verticalModeIndicator : UInt8
  targetAltitudeStatus : NumericValueStatus
  targetAltitude : Int
  horizontalDataAvailableSourceIndicator : UInt8
  targetHeadingTrackAngleStatus : NumericValueStatus
  targetHeadingTrackAngle : UInt16
  targetHeadingTrackIndicator : UInt8
  horizontalModeIndicator : UInt8
  navigationalAccuracyCategoryPosition : UInt8
  nicBaro : UInt8
  surveillanceIntegrityLevel : UInt8
  capabilityModeCode : UInt8
  emergencyPriorityStatus : UInt8
  deriving DecidableEq

/-- `bds62.TargetStateAndStatus1`, pkg/bds/bds62/target_state_and_status_type_1.go:13-34. -/
structure TargetStateAndStatus1 where
  formatTypeCode : UInt8
  subtype : UInt8
  sourceIntegrityLevelSupplement : UInt8
  selectedAltitudeType : UInt8
  selectedAltitudeStatus : NumericValueStatus
  selectedAltitude : UInt16
  barometricPressureSettingStatus : NumericValueStatus
  barometricPressureSetting : ℚ
  selectedHeadingStatus : UInt8
  selectedHeading : ℚ
  /-- The sign of the `float32` (it tells the two zeros apart). -/
  selectedHeadingMinus : Bool
  navigationalAccuracyCategoryPosition : UInt8
  nicBaro : UInt8
  sourceIntegrityLevel : UInt8
  statusMCPFCUBits : UInt8
  autopilotEngaged : Bool
  vnavModeEngaged : Bool
  altitudeHoldModeEngaged : Bool
  approachModeEngaged : Bool
  tcasACASOperational : Bool
  lnavModeEngaged : Bool
  deriving DecidableEq

/-- `ReadTargetStateAndStatus0`, pkg/bds/bds62/target_state_and_status_type_0.go:91-138. -/
def readTargetStateAndStatus0 (data : List UInt8) : Go TargetStateAndStatus0 := do
  if data.length ≠ 7 then fail
  let formatTypeCode ← readFormatTypeCode data
  if formatTypeCode ≠ 29 then fail
  let subType ← readSubtype62 data
  if subType ≠ 0 then fail
  if (← idx data 5) &&& 0x03 ≠ 0 then fail
  if (← idx data 6) &&& 0xE0 ≠ 0 then fail
  let (targetAltitude, targetAltitudeStatus) ← readTargetAltitude data
  let (targetHeadingTrackAngle, targetHeadingTrackAngleStatus) ← readTargetHeadingTrackAngle data
  return {
    formatTypeCode := formatTypeCode
    subtype := subType
    verticalDataAvailableSourceIndicator := ← readVDA data
    targetAltitudeType := ← readTargetAltitudeType data
    targetAltitudeCapability := ← readTargetAltitudeCapability data
    verticalModeIndicator := ← readVerticalModeIndicator data
    targetAltitudeStatus := targetAltitudeStatus
    targetAltitude := targetAltitude
    horizontalDataAvailableSourceIndicator := ← readHDA data
    targetHeadingTrackAngleStatus := targetHeadingTrackAngleStatus
    targetHeadingTrackAngle := targetHeadingTrackAngle
    targetHeadingTrackIndicator := ← readTargetHeadingTrackIndicator data
    horizontalModeIndicator := ← readHorizontalModeIndicator data
    navigationalAccuracyCategoryPosition := ← readNACp62 data
    nicBaro := ← readNICBaro62 data
    surveillanceIntegrityLevel := ← readSIL62 data
    capabilityModeCode := ← readCapabilityModeCode data
    emergencyPriorityStatus := ← readEmergencyPriorityStatus62 data }

/-- `ReadTargetStateAndStatus1`, pkg/bds/bds62/target_state_and_status_type_1.go:96-138. -/
def readTargetStateAndStatus1 (data : List UInt8) : Go TargetStateAndStatus1 := do
  if data.length ≠ 7 then fail
  let formatTypeCode ← readFormatTypeCode data
  if formatTypeCode ≠ 29 then fail
  let subType ← readSubtype62 data
  if subType ≠ 1 then fail
  let (selectedAltitude, selectedAltitudeStatus) ← readSelectedAltitude data
  let (barometricPressureSetting, barometricPressureSettingStatus) ← readBarometricPressureSetting62 data
  let (selectedHeading, selectedHeadingMinus, selectedHeadingStatus) ← readSelectedHeading data
  return {
    formatTypeCode := formatTypeCode
    subtype := subType
    sourceIntegrityLevelSupplement := ← readSILSupplement62 data
    selectedAltitudeType := ← readSelectedAltitudeType data
    selectedAltitudeStatus := selectedAltitudeStatus
    selectedAltitude := selectedAltitude
    barometricPressureSettingStatus := barometricPressureSettingStatus
    barometricPressureSetting := barometricPressureSetting
    selectedHeadingStatus := selectedHeadingStatus
    selectedHeading := selectedHeading
    selectedHeadingMinus := selectedHeadingMinus
    navigationalAccuracyCategoryPosition := ← readNACp62 data
    nicBaro := ← readNICBaro62 data
    sourceIntegrityLevel := ← readSIL62 data
    statusMCPFCUBits := ← readStatusMCPFCUBits data
    autopilotEngaged := (← idx data 5) &&& 0x01 != 0
    vnavModeEngaged := (← idx data 6) &&& 0x80 != 0
    altitudeHoldModeEngaged := (← idx data 6) &&& 0x40 != 0
    approachModeEngaged := (← idx data 6) &&& 0x10 != 0
    tcasACASOperational := (← idx data 6) &&& 0x08 != 0
    lnavModeEngaged := (← idx data 6) &&& 0x04 != 0 }

/-- The `TargetStateAndStatus` interface and its implementations, target_state_and_status.go:9-12. `CheckCoherency` never
reports an error. -/
inductive TargetStateAndStatus
  | type0 (m : TargetStateAndStatus0)
  | type1 (m : TargetStateAndStatus1)
  deriving DecidableEq

/-- `bds62.ReadTargetStateAndStatus`, target_state_and_status.go:15-35. -/
def readBDS62 (data : List UInt8) : Go TargetStateAndStatus := do
  if data.length ≠ 7 then fail
  let formatTypeCode ← readFormatTypeCode data
  if formatTypeCode ≠ 29 then fail
  let subType ← readSubtype62 data
  if subType = 0 then return .type0 (← readTargetStateAndStatus0 data)
  else if subType = 1 then return .type1 (← readTargetStateAndStatus1 data)
  else fail

end Modes
