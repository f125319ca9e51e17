import Verif.Model.CommBNum
import Verif.Model.ADSB
/-!
# `pkg/bds/bds44`: meteorological routine air report
-/
namespace Modes

/-- `temperature := float32(n) * k; if negative { temperature = temperature - 128 }` in `float32` arithmetic
(pkg/bds/bds44/fields/static_air_temperature.go:11-15 and 27-31, pkg/bds/bds45/fields/static_air_temperature.go:11-15 and 26-30). -/
def temperatureOf (negative : Bool) (n : Nat) (k : ℚ) : ℚ :=
  let temperature := f32 (f32 (n : ℚ) * k)
  if negative then f32 (temperature - 128) else temperature

/-- `float32(n) * num / den` in `float32` arithmetic (pkg/bds/bds44/fields/wind_direction.go:12 and 24, humidity.go:5). -/
def scaledF32 (n : Nat) (num den : ℚ) : ℚ := f32 (f32 (f32 (n : ℚ) * num) / den)

/-- `fields.ReadSource`, pkg/bds/bds44/fields/source.go:42-44. -/
def readSource44 (data : List UInt8) : Go UInt8 := do
  return ((← idx data 0) &&& 0xF0) >>> 4

/-- `fields.ReadWindSpeed`, pkg/bds/bds44/fields/wind_speed.go:5-14. -/
def readWindSpeed44 (data : List UInt8) : Go (Bool × UInt32) := do
  let status := (← idx data 0) &&& 0x08 != 0
  let byte1 := (← idx data 0) &&& 0x03
  let byte2 := (← idx data 1) &&& 0xFC
  let allBits := pack2 byte1 byte2 >>> 2
  return (status, allBits.toUInt32)

/-- `fields.ReadWindDirectionV0`, pkg/bds/bds44/fields/wind_direction.go:6-15. -/
def readWindDirection44V0 (data : List UInt8) : Go (Bool × ℚ) := do
  let status := (← idx data 0) &&& 0x08 != 0
  let byte1 := (← idx data 1) &&& 0x03
  let byte2 := (← idx data 2) &&& 0xFE
  let allBits := pack2 byte1 byte2 >>> 1
  return (status, scaledF32 allBits.toNat 180 256)

/-- `fields.ReadWindDirectionV1AndV2`, pkg/bds/bds44/fields/wind_direction.go:18-27. -/
def readWindDirection44 (data : List UInt8) : Go (Bool × ℚ) := do
  let status := (← idx data 1) &&& 0x02 != 0
  let byte1 := (← idx data 1) &&& 0x01
  let byte2 := (← idx data 2) &&& 0xFE
  let allBits := pack2 byte1 byte2 >>> 1
  return (status, scaledF32 allBits.toNat 180 128)

/-- `fields.ReadStaticAirTemperatureV0`, pkg/bds/bds44/fields/static_air_temperature.go:6-18. -/
def readStaticAirTemperature44V0 (data : List UInt8) : Go ℚ := do
  let byte1 := (← idx data 3) &&& 0xFF
  let byte2 := (← idx data 4) &&& 0xC0
  let allBits := pack2 byte1 byte2 >>> 6
  let negative := (← idx data 3) &&& 0x01 != 0
  return temperatureOf negative allBits.toNat (1 / 4)

/-- `fields.ReadStaticAirTemperatureV1AndV2`, pkg/bds/bds44/fields/static_air_temperature.go:21-34. -/
def readStaticAirTemperature44 (data : List UInt8) : Go (Bool × ℚ) := do
  let status := (← idx data 2) &&& 0x01 != 0
  let byte1 := (← idx data 3) &&& 0x7F
  let byte2 := (← idx data 4) &&& 0xE0
  let allBits := pack2 byte1 byte2 >>> 5
  let negative := (← idx data 3) &&& 0x80 != 0
  return (status, temperatureOf negative allBits.toNat (1 / 8))

/-- `fields.ReadAverageStaticPressureV0`, pkg/bds/bds44/fields/averge_static_pressure.go:6-15. -/
def readAverageStaticPressure44V0 (data : List UInt8) : Go (Bool × UInt32) := do
  let status := (← idx data 4) &&& 0x20 != 0
  let byte1 := (← idx data 4) &&& 0x1F
  let byte2 := (← idx data 5) &&& 0xFC
  let allBits := pack2 byte1 byte2 >>> 2
  return (status, allBits.toUInt32)

/-- `fields.ReadAverageStaticPressureV1AndV2`, pkg/bds/bds44/fields/averge_static_pressure.go:18-27. -/
def readAverageStaticPressure44 (data : List UInt8) : Go (Bool × UInt32) := do
  let status := (← idx data 4) &&& 0x10 != 0
  let byte1 := (← idx data 4) &&& 0x0F
  let byte2 := (← idx data 5) &&& 0xFE
  let allBits := pack2 byte1 byte2 >>> 1
  return (status, allBits.toUInt32)

/-- `fields.ReadTurbulence`, pkg/bds/bds44/fields/turbulence.go:41-50 (`TurbulenceLevel(allBits)` keeps the low byte). -/
def readTurbulence44 (data : List UInt8) : Go (Bool × UInt8) := do
  let status := (← idx data 5) &&& 0x02 != 0
  let byte1 := (← idx data 5) &&& 0x01
  let byte2 := (← idx data 6) &&& 0x80
  let allBits := pack2 byte1 byte2 >>> 7
  return (status, allBits.toUInt8)

/-- `fields.ReadTurbulenceFlag`, pkg/bds/bds44/fields/turbulence_flag.go:31-34. -/
def readTurbulenceFlag44 (data : List UInt8) : Go UInt8 := do
  return (← idx data 5) &&& 0x01

/-- `fields.ReadHumidityV0`, pkg/bds/bds44/fields/humidity.go:3-8. -/
def readHumidity44V0 (data : List UInt8) : Go (Bool × ℚ) := do
  let status := (← idx data 6) &&& 0x40 != 0
  let byte1 := (← idx data 6) &&& 0x3F
  let allBits := byte1
  return (status, scaledF32 allBits.toNat 100 64)

/-- `fields.ReadHumidityV1AndV2`, pkg/bds/bds44/fields/humidity.go:10-15. -/
def readHumidity44 (data : List UInt8) : Go (Bool × ℚ) := do
  let status := (← idx data 6) &&& 0x80 != 0
  let byte1 := (← idx data 6) &&& 0x7F
  let allBits := byte1
  return (status, f32 (allBits.toNat : ℚ))

/-- `bds44.MeteorologicalRoutineAirReportV0`, pkg/bds/bds44/meteorological_routine_air_report_v0.go:14-27. -/
structure RoutineAirReportV0 where
  source : UInt8
  windSpeedStatus : Bool
  windSpeed : UInt32
  windDirectionStatus : Bool
  windDirection : ℚ
  staticAirTemperature : ℚ
  averageStaticPressureStatus : Bool
  averageStaticPressure : UInt32
  turbulenceStatus : Bool
  turbulence : UInt8
  humidityStatus : Bool
  humidity : ℚ
  deriving DecidableEq

/-- `bds44.MeteorologicalRoutineAirReportV1`, pkg/bds/bds44/meteorological_routine_air_report_v1.go:14-26. -/
structure RoutineAirReportV1 where
  windSpeedStatus : Bool
  windSpeed : UInt32
  windDirectionStatus : Bool
  windDirection : ℚ
  staticAirTemperatureStatus : Bool
  staticAirTemperature : ℚ
  averageStaticPressureStatus : Bool
  averageStaticPressure : UInt32
  turbulenceFlag : UInt8
  humidityStatus : Bool
  humidity : ℚ
  deriving DecidableEq

/-- `bds44.MeteorologicalRoutineAirReportV2`, pkg/bds/bds44/meteorological_routine_air_report_v2.go:15-28. -/
structure RoutineAirReportV2 where
  source : UInt8
  windSpeedStatus : Bool
  windSpeed : UInt32
  windDirectionStatus : Bool
  windDirection : ℚ
  staticAirTemperatureStatus : Bool
  staticAirTemperature : ℚ
  averageStaticPressureStatus : Bool
  averageStaticPressure : UInt32
  turbulenceFlag : UInt8
  humidityStatus : Bool
  humidity : ℚ
  deriving DecidableEq

/-- `CheckCoherency`, pkg/bds/bds44/meteorological_routine_air_report_v0.go:70-105. -/
def RoutineAirReportV0.coherent (m : RoutineAirReportV0) : Bool :=
  if !m.windSpeedStatus ∧ !m.windDirectionStatus ∧ !m.averageStaticPressureStatus ∧ !m.turbulenceStatus ∧ !m.humidityStatus then false
  else if m.source ≥ 5 then false
  else if !m.windSpeedStatus ∧ m.windSpeed ≠ 0 then false
  else if !m.windDirectionStatus ∧ m.windDirection ≠ 0 then false
  else if !m.averageStaticPressureStatus ∧ m.averageStaticPressure ≠ 0 then false
  else if !m.humidityStatus ∧ m.humidity ≠ 0 then false
  else if m.windSpeed > 250 then false
  else if m.staticAirTemperature < -80 ∨ m.staticAirTemperature > 60 then false
  else true

/-- `CheckCoherency`, pkg/bds/bds44/meteorological_routine_air_report_v1.go:67-102. -/
def RoutineAirReportV1.coherent (m : RoutineAirReportV1) : Bool :=
  if !m.windSpeedStatus ∧ !m.windDirectionStatus ∧ !m.staticAirTemperatureStatus ∧ !m.averageStaticPressureStatus ∧ !m.humidityStatus then false
  else if !m.windSpeedStatus ∧ m.windSpeed ≠ 0 then false
  else if !m.windDirectionStatus ∧ m.windDirection ≠ 0 then false
  else if !m.staticAirTemperatureStatus ∧ m.staticAirTemperature ≠ 0 then false
  else if !m.averageStaticPressureStatus ∧ m.averageStaticPressure ≠ 0 then false
  else if !m.humidityStatus ∧ m.humidity ≠ 0 then false
  else if m.windSpeed > 250 then false
  else if m.staticAirTemperature < -80 ∨ m.staticAirTemperature > 60 then false
  else true

/-- `CheckCoherency`, pkg/bds/bds44/meteorological_routine_air_report_v2.go:71-110. -/
def RoutineAirReportV2.coherent (m : RoutineAirReportV2) : Bool :=
  if m.source ≥ 5 then false
  else if !m.windSpeedStatus ∧ !m.windDirectionStatus ∧ !m.staticAirTemperatureStatus ∧ !m.averageStaticPressureStatus ∧ !m.humidityStatus then false
  else if !m.windSpeedStatus ∧ m.windSpeed ≠ 0 then false
  else if !m.windDirectionStatus ∧ m.windDirection ≠ 0 then false
  else if !m.staticAirTemperatureStatus ∧ m.staticAirTemperature ≠ 0 then false
  else if !m.averageStaticPressureStatus ∧ m.averageStaticPressure ≠ 0 then false
  else if !m.humidityStatus ∧ m.humidity ≠ 0 then false
  else if m.windSpeed > 250 then false
  else if m.staticAirTemperature < -80 ∨ m.staticAirTemperature > 60 then false
  else true

/-- `ReadMeteorologicalRoutineAirReportV0`, pkg/bds/bds44/meteorological_routine_air_report_v0.go:108-135. -/
def readBDS44V0 (data : List UInt8) : Go RoutineAirReportV0 := do
  if data.length ≠ 7 then fail
  let windSpeed ← readWindSpeed44 data
  let windDirection ← readWindDirection44V0 data
  let temperature ← readStaticAirTemperature44V0 data
  let pressure ← readAverageStaticPressure44V0 data
  let turbulence ← readTurbulence44 data
  let humidity ← readHumidity44V0 data
  return {
    source := ← readSource44 data
    windSpeedStatus := windSpeed.1
    windSpeed := windSpeed.2
    windDirectionStatus := windDirection.1
    windDirection := windDirection.2
    staticAirTemperature := temperature
    averageStaticPressureStatus := pressure.1
    averageStaticPressure := pressure.2
    turbulenceStatus := turbulence.1
    turbulence := turbulence.2
    humidityStatus := humidity.1
    humidity := humidity.2 }

/-- `ReadMeteorologicalRoutineAirReportV1`, pkg/bds/bds44/meteorological_routine_air_report_v1.go:105-135. -/
def readBDS44V1 (data : List UInt8) : Go RoutineAirReportV1 := do
  if data.length ≠ 7 then fail
  if (← idx data 0) &&& 0xF0 ≠ 0 then fail
  let windSpeed ← readWindSpeed44 data
  let windDirection ← readWindDirection44 data
  let temperature ← readStaticAirTemperature44 data
  let pressure ← readAverageStaticPressure44 data
  let turbulenceFlag ← readTurbulenceFlag44 data
  let humidity ← readHumidity44 data
  return {
    windSpeedStatus := windSpeed.1
    windSpeed := windSpeed.2
    windDirectionStatus := windDirection.1
    windDirection := windDirection.2
    staticAirTemperatureStatus := temperature.1
    staticAirTemperature := temperature.2
    averageStaticPressureStatus := pressure.1
    averageStaticPressure := pressure.2
    turbulenceFlag := turbulenceFlag
    humidityStatus := humidity.1
    humidity := humidity.2 }

/-- `ReadMeteorologicalRoutineAirReportV2`, pkg/bds/bds44/meteorological_routine_air_report_v2.go:113-140. -/
def readBDS44V2 (data : List UInt8) : Go RoutineAirReportV2 := do
  if data.length ≠ 7 then fail
  let windSpeed ← readWindSpeed44 data
  let windDirection ← readWindDirection44 data
  let temperature ← readStaticAirTemperature44 data
  let pressure ← readAverageStaticPressure44 data
  let turbulenceFlag ← readTurbulenceFlag44 data
  let humidity ← readHumidity44 data
  return {
    source := ← readSource44 data
    windSpeedStatus := windSpeed.1
    windSpeed := windSpeed.2
    windDirectionStatus := windDirection.1
    windDirection := windDirection.2
    staticAirTemperatureStatus := temperature.1
    staticAirTemperature := temperature.2
    averageStaticPressureStatus := pressure.1
    averageStaticPressure := pressure.2
    turbulenceFlag := turbulenceFlag
    humidityStatus := humidity.1
    humidity := humidity.2 }

/-- The `MeteorologicalRoutineAirReport` interface, pkg/bds/bds44/meteorological_routine_air_report.go:9-12, and its implementations. -/
inductive RoutineAirReport
  | v0 (m : RoutineAirReportV0)
  | v1 (m : RoutineAirReportV1)
  | v2 (m : RoutineAirReportV2)
  deriving DecidableEq

/-- `CheckCoherency` through the interface. -/
def RoutineAirReport.coherent : RoutineAirReport → Bool
  | .v0 m => m.coherent
  | .v1 m => m.coherent
  | .v2 m => m.coherent

/-- `GetSource`, pkg/bds/bds44/meteorological_routine_air_report_v0.go:34-36, _v1.go:33-35, _v2.go:35-37. -/
def RoutineAirReport.getSource : RoutineAirReport → UInt8
  | .v0 m => m.source
  | .v1 _ => 0
  | .v2 _ => 0

/-- `ReadMeteorologicalRoutineAirReport`, pkg/bds/bds44/meteorological_routine_air_report.go:15-44. -/
def readBDS44 (data : List UInt8) : Call RoutineAirReport :=
  if data.length ≠ 7 then Call.fail
  else match readSource44 data with
  | .error _ => .panics
  | .ok source =>
    if source = 1 ∨ source = 2 ∨ source = 3 ∨ source = 4 then
      match readBDS44V2 data with
      | .ok m => .returns (.val (.v2 m)) false
      | .error .err => Call.ofPtr (readBDS44V0 data) .v0
      | .error .panic => .panics
    else if source = 0 then Call.ofPtr (readBDS44V1 data) .v1
    else Call.fail

end Modes
