import Verif.Model.CommBNum
/-!
# `pkg/bds/bds40`: selected vertical intention
-/
namespace Modes

/-- `fields.ReadMCPSelectedAltitude`, pkg/bds/bds40/fields/mcp_selected_altitude.go:5-15. -/
def readMCPSelectedAltitude (data : List UInt8) : Go (Bool × UInt32) := do
  let status := (← idx data 0) &&& 0x80 != 0
  let byte1 := (← idx data 1) &&& 0x03
  let byte2 ← idx data 2
  let byte3 := (← idx data 3) &&& 0xC0
  let allBits := pack3 byte1 byte2 byte3 >>> 6
  return (status, allBits * 16)

/-- `fields.ReadFMSSelectedAltitude`, pkg/bds/bds40/fields/fms_selected_altitude.go:5-14. -/
def readFMSSelectedAltitude (data : List UInt8) : Go (Bool × UInt32) := do
  let status := (← idx data 1) &&& 0x04 != 0
  let byte1 := (← idx data 0) &&& 0x7F
  let byte2 := (← idx data 1) &&& 0xF8
  let allBits := pack2 byte1 byte2 >>> 3
  return (status, allBits.toUInt32 * 16)

/-- The pressure made of the number, pkg/bds/bds40/fields/barometric_pressure.go:11 (`float32` arithmetic). -/
def pressure40 (n : Nat) : ℚ := f32 (f32 (f32 (n : ℚ) * f32 (1 / 10)) + 800)

/-- `fields.ReadBarometricPressure`, pkg/bds/bds40/fields/barometric_pressure.go:5-14. -/
def readBarometricPressure40 (data : List UInt8) : Go (Bool × ℚ) := do
  let status := (← idx data 0) &&& 0x80 != 0
  let byte1 := (← idx data 3) &&& 0x1F
  let byte2 := (← idx data 4) &&& 0xFE
  let allBits := pack2 byte1 byte2 >>> 1
  return (status, pressure40 allBits.toNat)

/-- `fields.ReadStatusOfModeBits`, pkg/bds/bds40/fields/status_of_mode_bits.go:31-34. -/
def readStatusOfModeBits (data : List UInt8) : Go UInt8 := do
  return (← idx data 5) &&& 0x01

/-- `fields.ReadStatusOfTargetAltitudeSource`, pkg/bds/bds40/fields/status_of_target_altitude_source.go:31-34. -/
def readStatusOfTargetAltitudeSource (data : List UInt8) : Go UInt8 := do
  return ((← idx data 6) &&& 0x04) >>> 2

/-- `fields.ReadTargetAltitudeSource`, pkg/bds/bds40/fields/target_altitude_source.go:39-42. -/
def readTargetAltitudeSource (data : List UInt8) : Go UInt8 := do
  return (← idx data 6) &&& 0x03

/-- `bds40.SelectedVerticalIntention`, pkg/bds/bds40/selected_vertical_intention.go:14-27. -/
structure SelectedVerticalIntention where
  mcpfcuSelectedAltitudeAvailable : Bool
  mcpfcuSelectedAltitude : UInt32
  fmsSelectedAltitudeAvailable : Bool
  fmsSelectedAltitude : UInt32
  barometricPressureSettingAvailable : Bool
  barometricPressureSetting : ℚ
  statusOfModeBits : UInt8
  vnavMode : Bool
  altitudeHoldMode : Bool
  approachMode : Bool
  statusOfTargetAltitudeSource : UInt8
  targetAltitudeSource : UInt8
  deriving DecidableEq

/-- `CheckCoherency`, pkg/bds/bds40/selected_vertical_intention.go:66-88. -/
def SelectedVerticalIntention.coherent (m : SelectedVerticalIntention) : Bool :=
  if !m.mcpfcuSelectedAltitudeAvailable ∧ !m.fmsSelectedAltitudeAvailable ∧ !m.barometricPressureSettingAvailable then false
  else if !m.mcpfcuSelectedAltitudeAvailable ∧ m.mcpfcuSelectedAltitude ≠ 0 then false
  else if !m.fmsSelectedAltitudeAvailable ∧ m.fmsSelectedAltitude ≠ 0 then false
  else if !m.barometricPressureSettingAvailable ∧ m.barometricPressureSetting ≠ 0 then false
  else true

/-- `bds40.ReadSelectedVerticalIntention`, pkg/bds/bds40/selected_vertical_intention.go:91-127. -/
def readBDS40 (data : List UInt8) : Go SelectedVerticalIntention := do
  if data.length ≠ 7 then fail
  if (← idx data 4) &&& 0x01 ≠ 0 then fail
  if (← idx data 5) &&& 0xFE ≠ 0 then fail
  if (← idx data 6) &&& 0x18 ≠ 0 then fail
  let mcp ← readMCPSelectedAltitude data
  let fms ← readFMSSelectedAltitude data
  let baro ← readBarometricPressure40 data
  return {
    mcpfcuSelectedAltitudeAvailable := mcp.1
    mcpfcuSelectedAltitude := mcp.2
    fmsSelectedAltitudeAvailable := fms.1
    fmsSelectedAltitude := fms.2
    barometricPressureSettingAvailable := baro.1
    barometricPressureSetting := baro.2
    statusOfModeBits := ← readStatusOfModeBits data
    vnavMode := ((← idx data 6) &&& 0x80) >>> 7 == 0x01
    altitudeHoldMode := ((← idx data 6) &&& 0x40) >>> 6 == 0x01
    approachMode := ((← idx data 6) &&& 0x20) >>> 5 == 0x01
    statusOfTargetAltitudeSource := ← readStatusOfTargetAltitudeSource data
    targetAltitudeSource := ← readTargetAltitudeSource data }

end Modes
