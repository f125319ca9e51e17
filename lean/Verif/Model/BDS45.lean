import Verif.Model.BDS44
/-!
# `pkg/bds/bds45`: meteorological hazard report

`fields.HazardLevel` is its byte.
-/
namespace Modes

/-- `fields.ReadTurbulenceV0`, pkg/bds/bds45/fields/turbulence.go:5-9. -/
def readTurbulence45V0 (data : List UInt8) : Go (Bool × UInt8) := do
  let status := (← idx data 0) &&& 0x80 != 0
  return (status, ((← idx data 0) &&& 0x60) >>> 5)

/-- `fields.ReadWindShearV0`, pkg/bds/bds45/fields/wind_shear.go:3-7. -/
def readWindShear45V0 (data : List UInt8) : Go (Bool × UInt8) := do
  let status := (← idx data 0) &&& 0x10 != 0
  return (status, ((← idx data 0) &&& 0x0C) >>> 2)

/-- `fields.ReadWindShearV1`, pkg/bds/bds45/fields/wind_shear.go:9-13. -/
def readWindShear45V1 (data : List UInt8) : Go (Bool × UInt8) := do
  let status := (← idx data 0) &&& 0x80 != 0
  return (status, ((← idx data 0) &&& 0x60) >>> 5)

/-- `fields.ReadMicroBurstV0`, pkg/bds/bds45/fields/micro_burst.go:5-14. -/
def readMicroBurst45V0 (data : List UInt8) : Go (Bool × UInt8) := do
  let status := (← idx data 0) &&& 0x02 != 0
  let byte1 := (← idx data 0) &&& 0x01
  let byte2 := (← idx data 1) &&& 0x80
  let allBits := pack2 byte1 byte2 >>> 7
  return (status, allBits.toUInt8)

/-- `fields.ReadMicroBurstV1`, pkg/bds/bds45/fields/micro_burst.go:16-20. -/
def readMicroBurst45V1 (data : List UInt8) : Go (Bool × UInt8) := do
  let status := (← idx data 0) &&& 0x10 != 0
  return (status, ((← idx data 0) &&& 0x0C) >>> 2)

/-- `fields.ReadIcingV0`, pkg/bds/bds45/fields/icing.go:5-9. -/
def readIcing45V0 (data : List UInt8) : Go (Bool × UInt8) := do
  let status := (← idx data 1) &&& 0x40 != 0
  return (status, ((← idx data 1) &&& 0x30) >>> 4)

/-- `fields.ReadIcingV1`, pkg/bds/bds45/fields/icing.go:11-20. -/
def readIcing45V1 (data : List UInt8) : Go (Bool × UInt8) := do
  let status := (← idx data 0) &&& 0x02 != 0
  let byte1 := (← idx data 0) &&& 0x01
  let byte2 := (← idx data 1) &&& 0x80
  let allBits := pack2 byte1 byte2 >>> 7
  return (status, allBits.toUInt8)

/-- `fields.ReadWakeVortexV0`, pkg/bds/bds45/fields/wake_vortex.go:3-7. -/
def readWakeVortex45V0 (data : List UInt8) : Go (Bool × UInt8) := do
  let status := (← idx data 1) &&& 0x08 != 0
  return (status, ((← idx data 1) &&& 0x06) >>> 1)

/-- `fields.ReadWakeVortexV1`, pkg/bds/bds45/fields/wake_vortex.go:9-13. -/
def readWakeVortex45V1 (data : List UInt8) : Go (Bool × UInt8) := do
  let status := (← idx data 1) &&& 0x40 != 0
  return (status, ((← idx data 1) &&& 0x30) >>> 4)

/-- `fields.ReadStaticAirTemperatureV0`, pkg/bds/bds45/fields/static_air_temperature.go:5-18. -/
def readStaticAirTemperature45V0 (data : List UInt8) : Go (Bool × ℚ) := do
  let status := (← idx data 1) &&& 0x01 != 0
  let byte1 := (← idx data 2) &&& 0x7F
  let byte2 := (← idx data 3) &&& 0xC0
  let allBits := pack2 byte1 byte2 >>> 6
  let negative := (← idx data 2) &&& 0x80 != 0
  return (status, temperatureOf negative allBits.toNat (1 / 4))

/-- `fields.ReadStaticAirTemperatureV1`, pkg/bds/bds45/fields/static_air_temperature.go:20-33. -/
def readStaticAirTemperature45V1 (data : List UInt8) : Go (Bool × ℚ) := do
  let status := (← idx data 1) &&& 0x08 != 0
  let byte1 := (← idx data 1) &&& 0x03
  let byte2 := (← idx data 2) &&& 0xFF
  let allBits := pack2 byte1 byte2
  let negative := (← idx data 1) &&& 0x04 != 0
  return (status, temperatureOf negative allBits.toNat (1 / 8))

/-- `fields.ReadAverageStaticPressure`, pkg/bds/bds45/fields/averge_static_pressure.go:5-14. -/
def readAverageStaticPressure45 (data : List UInt8) : Go (Bool × UInt32) := do
  let status := (← idx data 3) &&& 0x20 != 0
  let byte1 := (← idx data 3) &&& 0x1F
  let byte2 := (← idx data 4) &&& 0xFC
  let allBits := pack2 byte1 byte2 >>> 2
  return (status, allBits.toUInt32)

/-- `fields.ReadRadioHeightV0`, pkg/bds/bds45/fields/radio_height.go:5-15. -/
def readRadioHeight45V0 (data : List UInt8) : Go (Bool × UInt32) := do
  let status := (← idx data 4) &&& 0x02 != 0
  let byte1 := (← idx data 4) &&& 0x01
  let byte2 := (← idx data 5) &&& 0xFF
  let byte3 := (← idx data 6) &&& 0xE0
  let allBits := pack3 byte1 byte2 byte3 >>> 5
  return (status, allBits * 16)

/-- `fields.ReadRadioHeightV1`, pkg/bds/bds45/fields/radio_height.go:17-26. -/
def readRadioHeight45V1 (data : List UInt8) : Go (Bool × UInt32) := do
  let status := (← idx data 3) &&& 0x80 != 0
  let byte1 := (← idx data 3) &&& 0x7F
  let byte2 := (← idx data 4) &&& 0xF8
  let allBits := pack2 byte1 byte2 >>> 3
  return (status, allBits.toUInt32 * 2)

/-- `float32(n) * 0.02`, capped at 1.26, pkg/bds/bds45/fields/turbulence.go:16-20 and 24-28 (`float32` arithmetic and constants). -/
def edrOf (n : Nat) : ℚ :=
  let edr := f32 (f32 (n : ℚ) * f32 (2 / 100))
  if edr > f32 (126 / 100) then f32 (126 / 100) else edr

/-- `fields.ReadTurbulenceV1`, pkg/bds/bds45/fields/turbulence.go:11-35. -/
def readTurbulence45V1 (data : List UInt8) : Go (Bool × ℚ × ℚ × UInt8) := do
  let status := (← idx data 4) &&& 0x04 != 0
  let byte1 := (← idx data 4) &&& 0x03
  let byte2 := (← idx data 5) &&& 0xF0
  let average := edrOf (pack2 byte1 byte2 >>> 4).toNat
  let byte1 := (← idx data 5) &&& 0x0F
  let byte2 := (← idx data 6) &&& 0xC0
  let peak := edrOf (pack2 byte1 byte2 >>> 6).toNat
  let interval := ((← idx data 6) &&& 0x3C) >>> 2
  return (status, average, peak, interval)

/-- `bds45.MeteorologicalHazardReportV0`, pkg/bds/bds45/meteorological_hazard_report_v0.go:13-30. -/
structure HazardReportV0 where
  turbulenceStatus : Bool
  turbulence : UInt8
  windShearStatus : Bool
  windShear : UInt8
  microBurstStatus : Bool
  microBurst : UInt8
  icingStatus : Bool
  icing : UInt8
  wakeVortexStatus : Bool
  wakeVortex : UInt8
  staticAirTemperatureStatus : Bool
  staticAirTemperature : ℚ
  averageStaticPressureStatus : Bool
  averageStaticPressure : UInt32
  radioHeightStatus : Bool
  radioHeight : UInt32
  deriving DecidableEq

/-- `bds45.MeteorologicalHazardReportV1`, pkg/bds/bds45/meteorological_hazard_report_v1.go:13-32. -/
structure HazardReportV1 where
  windShearStatus : Bool
  windShear : UInt8
  microBurstStatus : Bool
  microBurst : UInt8
  icingStatus : Bool
  icing : UInt8
  wakeVortexStatus : Bool
  wakeVortex : UInt8
  staticAirTemperatureStatus : Bool
  staticAirTemperature : ℚ
  averageStaticPressureStatus : Bool
  averageStaticPressure : UInt32
  radioHeightStatus : Bool
  radioHeight : UInt32
  turbulenceStatus : Bool
  turbulenceAverageEDR : ℚ
  turbulencePeakEDR : ℚ
  turbulencePeakDelayInterval : UInt8
  deriving DecidableEq

/-- `CheckCoherency`, pkg/bds/bds45/meteorological_hazard_report_v0.go:81-124. -/
def HazardReportV0.coherent (m : HazardReportV0) : Bool :=
  if !m.turbulenceStatus ∧ !m.windShearStatus ∧ !m.microBurstStatus ∧ !m.icingStatus ∧ !m.wakeVortexStatus ∧ !m.staticAirTemperatureStatus ∧ !m.averageStaticPressureStatus ∧ !m.radioHeightStatus then false
  else if !m.turbulenceStatus ∧ m.turbulence ≠ 0 then false
  else if !m.windShearStatus ∧ m.windShear ≠ 0 then false
  else if !m.microBurstStatus ∧ m.microBurst ≠ 0 then false
  else if !m.icingStatus ∧ m.icing ≠ 0 then false
  else if !m.wakeVortexStatus ∧ m.wakeVortex ≠ 0 then false
  else if !m.staticAirTemperatureStatus ∧ m.staticAirTemperature ≠ 0 then false
  else if !m.averageStaticPressureStatus ∧ m.averageStaticPressure ≠ 0 then false
  else if !m.radioHeightStatus ∧ m.radioHeight ≠ 0 then false
  else if m.staticAirTemperature < -80 ∨ m.staticAirTemperature > 60 then false
  else true

/-- `CheckCoherency`, pkg/bds/bds45/meteorological_hazard_report_v1.go:87-128. -/
def HazardReportV1.coherent (m : HazardReportV1) : Bool :=
  if !m.turbulenceStatus ∧ !m.windShearStatus ∧ !m.microBurstStatus ∧ !m.icingStatus ∧ !m.wakeVortexStatus ∧ !m.staticAirTemperatureStatus ∧ !m.averageStaticPressureStatus ∧ !m.radioHeightStatus then false
  else if !m.turbulenceStatus ∧ (m.turbulenceAverageEDR ≠ 0 ∨ m.turbulencePeakEDR ≠ 0 ∨ m.turbulencePeakDelayInterval ≠ 0) then false
  else if !m.windShearStatus ∧ m.windShear ≠ 0 then false
  else if !m.microBurstStatus ∧ m.microBurst ≠ 0 then false
  else if !m.icingStatus ∧ m.icing ≠ 0 then false
  else if !m.wakeVortexStatus ∧ m.wakeVortex ≠ 0 then false
  else if m.staticAirTemperatureStatus ∧ (m.staticAirTemperature < -80 ∨ m.staticAirTemperature > 60) then false
  else if !m.averageStaticPressureStatus ∧ m.averageStaticPressure ≠ 0 then false
  else if !m.radioHeightStatus ∧ m.radioHeight ≠ 0 then false
  else true

/-- `ReadMeteorologicalHazardReportV0`, pkg/bds/bds45/meteorological_hazard_report_v0.go:127-164. -/
def readBDS45V0 (data : List UInt8) : Go HazardReportV0 := do
  if data.length ≠ 7 then fail
  if (← idx data 6) &&& 0x1F ≠ 0 then fail
  let turbulence ← readTurbulence45V0 data
  let windShear ← readWindShear45V0 data
  let microBurst ← readMicroBurst45V0 data
  let icing ← readIcing45V0 data
  let wakeVortex ← readWakeVortex45V0 data
  let staticAirTemperature ← readStaticAirTemperature45V0 data
  let averageStaticPressure ← readAverageStaticPressure45 data
  let radioHeight ← readRadioHeight45V0 data
  return {
    turbulenceStatus := turbulence.1
    turbulence := turbulence.2
    windShearStatus := windShear.1
    windShear := windShear.2
    microBurstStatus := microBurst.1
    microBurst := microBurst.2
    icingStatus := icing.1
    icing := icing.2
    wakeVortexStatus := wakeVortex.1
    wakeVortex := wakeVortex.2
    staticAirTemperatureStatus := staticAirTemperature.1
    staticAirTemperature := staticAirTemperature.2
    averageStaticPressureStatus := averageStaticPressure.1
    averageStaticPressure := averageStaticPressure.2
    radioHeightStatus := radioHeight.1
    radioHeight := radioHeight.2 }

/-- `ReadMeteorologicalHazardReportV1`, pkg/bds/bds45/meteorological_hazard_report_v1.go:131-167. The pressure is never set. -/
def readBDS45V1 (data : List UInt8) : Go HazardReportV1 := do
  if data.length ≠ 7 then fail
  if (← idx data 6) &&& 0x03 ≠ 0 then fail
  let windShear ← readWindShear45V1 data
  let microBurst ← readMicroBurst45V1 data
  let icing ← readIcing45V1 data
  let wakeVortex ← readWakeVortex45V1 data
  let staticAirTemperature ← readStaticAirTemperature45V1 data
  let radioHeight ← readRadioHeight45V1 data
  let turbulence ← readTurbulence45V1 data
  return {
    windShearStatus := windShear.1
    windShear := windShear.2
    microBurstStatus := microBurst.1
    microBurst := microBurst.2
    icingStatus := icing.1
    icing := icing.2
    wakeVortexStatus := wakeVortex.1
    wakeVortex := wakeVortex.2
    staticAirTemperatureStatus := staticAirTemperature.1
    staticAirTemperature := staticAirTemperature.2
    radioHeightStatus := radioHeight.1
    radioHeight := radioHeight.2
    turbulenceStatus := turbulence.1
    turbulenceAverageEDR := turbulence.2.1
    turbulencePeakEDR := turbulence.2.2.1
    turbulencePeakDelayInterval := turbulence.2.2.2
    averageStaticPressureStatus := false
    averageStaticPressure := 0 }

/-- The `MeteorologicalHazardReport` interface, pkg/bds/bds45/meteorological_hazard_report.go:9-13, and its implementations. -/
inductive HazardReport
  | v0 (m : HazardReportV0)
  | v1 (m : HazardReportV1)
  deriving DecidableEq

/-- `CheckCoherency` through the interface. -/
def HazardReport.coherent : HazardReport → Bool
  | .v0 m => m.coherent
  | .v1 m => m.coherent

/-- `ReadMeteorologicalHazardReport`, pkg/bds/bds45/meteorological_hazard_report.go:16-33. -/
def readBDS45 (data : List UInt8) : Call HazardReport :=
  if data.length ≠ 7 then Call.fail
  else match readBDS45V1 data with
  | .ok m => .returns (.val (.v1 m)) false
  | .error .panic => .panics
  | .error .err =>
    match readBDS45V0 data with
    | .ok m => .returns (.val (.v0 m)) false
    | .error .panic => .panics
    | .error .err => Call.fail

end Modes
