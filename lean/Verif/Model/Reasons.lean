import Verif.Model.Errors
/-!
# The words of the errors of the Comm-B register readers and of `CheckCoherency`

The program never prints them (pkg/commb/reader.go:25-101 only tests whether there is an error), but a user of the library gets them. For each
reader the text of the error it returns and for each message the text of the error of its `CheckCoherency`; `none` when there is none. The checks
are transcribed from the code in its order.
-/
namespace Modes

/-! ### `CheckCoherency` -/

/-- The error of `CheckCoherency`, pkg/bds/bds07/status.go:25-31. -/
def Status07.incoherence (m : Status07) : Option Txt :=
  if m.transmissionRateSubfield ≥ 3 then some (t! "field TransmissionRateSubfield is a Reserved value") else none

/-- The error of `CheckCoherency`, pkg/bds/bds08/fields/aircraft_category_set_a.go:60-62, _b.go:60-62, _c.go:63-70, _d.go:63-66. -/
def AircraftCategory.incoherence : AircraftCategory → Option Txt
  | .setA _ => none
  | .setB _ => none
  | .setC c => if c > 3 then some (t! "field FormatTypeCode is 2 (Category set C) and the Category is Reserved") else none
  | .setD _ => some (t! "field FormatTypeCode is 1 (Category set D) which is a reserved Category set")

/-- The error of `CheckCoherency`, pkg/bds/bds08/aircraft_identification_and_category.go:26-38. -/
def IdentificationAndCategory.incoherence (m : IdentificationAndCategory) : Option Txt :=
  if m.identification.contains 0x23 then some (t! "field Identification contains a non valid character") else m.category.incoherence

/-- The error of `CheckCoherency`, pkg/bds/bds20/aircraft_identification.go:34-40. -/
def AircraftIdentification.incoherence (m : AircraftIdentification) : Option Txt :=
  if m.identification.contains 0x23 then some (t! "field Identification contains a non valid character") else none

/-- The error of `CheckCoherency`, pkg/bds/bds61/aircraft_status_no_information.go:28-35, aircraft_status_emergency.go:29-36,
aircraft_status_acas.go:28-30. -/
def AircraftStatus.incoherence : AircraftStatus → Option Txt
  | .noInformation m =>
    if m.emergencyPriorityStatus ≠ 0 then some (t! "field EmergencyPriorityStatus is expected to be NoEmergency") else none
  | .emergency m => if m.emergencyPriorityStatus > 5 then some (t! "field EmergencyPriorityStatus is a Reserved value") else none
  | .acas _ => none

/-- The error of `CheckCoherency`, pkg/bds/bds10/data_link_capability_report.go:39-70. -/
def DataLinkCapabilityReport.incoherence (m : DataLinkCapabilityReport) : Option Txt :=
  if m.acasStatus = 0 ∧ m.acasHybridSurveillanceCapability ≠ 0 then some (t! "field ACASStatus is FailedOrStandBy but ACASHybridSurveillanceCapability is not HybridSurveillanceNotCapable")
  else if m.acasStatus = 0 ∧ m.acasGenerationCapability ≠ 0 then some (t! "field ACASStatus is FailedOrStandBy but ACASGenerationCapability is not ACASGenerationNotCapable")
  else if m.acasStatus = 0 ∧ m.acasApplicableDocument ≠ 0 then some (t! "field ACASStatus is FailedOrStandBy but ACASApplicableDocument is not ACASApplicableDocument185")
  else if m.acasStatus ≠ 0 ∧ m.acasApplicableDocument > 2 then some (t! "field ACASApplicableDocument is a Reserved value")
  else if m.modeSSubnetworkVersion > 5 then some (t! "field ModeSSubnetworkVersion is a Reserved value")
  else if m.uplinkELMThroughputCapability > 6 then some (t! "field UplinkELMThroughputCapability is a Reserved value")
  else if m.downlinkELMThroughputCapability > 6 then some (t! "field DownlinkELMThroughputCapability is a Reserved value")
  else none

/-- The error of `CheckCoherency`, pkg/bds/bds40/selected_vertical_intention.go:66-88. -/
def SelectedVerticalIntention.incoherence (m : SelectedVerticalIntention) : Option Txt :=
  if !m.mcpfcuSelectedAltitudeAvailable ∧ !m.fmsSelectedAltitudeAvailable ∧ !m.barometricPressureSettingAvailable then some (t! "the message does not convey any information")
  else if !m.mcpfcuSelectedAltitudeAvailable ∧ m.mcpfcuSelectedAltitude ≠ 0 then some (t! "the MCP/FCU SelectedAltitude status is set to false, but a MCP/FCU SelectedAltitude value is given")
  else if !m.fmsSelectedAltitudeAvailable ∧ m.fmsSelectedAltitude ≠ 0 then some (t! "the FMS SelectedAltitude status is set to false, but a FMS SelectedAltitude value is given")
  else if !m.barometricPressureSettingAvailable ∧ m.barometricPressureSetting ≠ 0 then some (t! "the BarometricPressureSetting status is set to false, but a BarometricPressureSetting value is given")
  else none

/-- The error of `CheckCoherency`, pkg/bds/bds44/meteorological_routine_air_report_v0.go:70-105. -/
def RoutineAirReportV0.incoherence (m : RoutineAirReportV0) : Option Txt :=
  if !m.windSpeedStatus ∧ !m.windDirectionStatus ∧ !m.averageStaticPressureStatus ∧ !m.turbulenceStatus ∧ !m.humidityStatus then some (t! "the message does not convey any information")
  else if m.source ≥ 5 then some (t! "field Source is a Reserved value")
  else if !m.windSpeedStatus ∧ m.windSpeed ≠ 0 then some (t! "the wind speed status is set to false, but a wind speed value is given")
  else if !m.windDirectionStatus ∧ m.windDirection ≠ 0 then some (t! "the wind direction status is set to false, but a wind direction value is given")
  else if !m.averageStaticPressureStatus ∧ m.averageStaticPressure ≠ 0 then some (t! "the average static pressure status is set to false, but a average static pressure value is given")
  else if !m.humidityStatus ∧ m.humidity ≠ 0 then some (t! "the humidity status is set to false, but a humidity value is given")
  else if m.windSpeed > 250 then some (t! "the wind speed is too high (above 250 knots)")
  else if m.staticAirTemperature < -80 ∨ m.staticAirTemperature > 60 then some (t! "the static air temperature is to high or to low (-80 <= temp <= 60)")
  else none

/-- The error of `CheckCoherency`, pkg/bds/bds44/meteorological_routine_air_report_v1.go:67-102. -/
def RoutineAirReportV1.incoherence (m : RoutineAirReportV1) : Option Txt :=
  if !m.windSpeedStatus ∧ !m.windDirectionStatus ∧ !m.staticAirTemperatureStatus ∧ !m.averageStaticPressureStatus ∧ !m.humidityStatus then some (t! "the message does not convey any information")
  else if !m.windSpeedStatus ∧ m.windSpeed ≠ 0 then some (t! "the wind speed status is set to false, but a wind speed value is given")
  else if !m.windDirectionStatus ∧ m.windDirection ≠ 0 then some (t! "the wind direction status is set to false, but a wind direction value is given")
  else if !m.staticAirTemperatureStatus ∧ m.staticAirTemperature ≠ 0 then some (t! "the static air temperature status is set to false, but a static air temperature value is given")
  else if !m.averageStaticPressureStatus ∧ m.averageStaticPressure ≠ 0 then some (t! "the average static pressure status is set to false, but a average static pressure value is given")
  else if !m.humidityStatus ∧ m.humidity ≠ 0 then some (t! "the humidity status is set to false, but a humidity value is given")
  else if m.windSpeed > 250 then some (t! "the wind speed is too high (above 250 knots)")
  else if m.staticAirTemperature < -80 ∨ m.staticAirTemperature > 60 then some (t! "the static air temperature is to high or to low (-80 <= temp <= 60)")
  else none

/-- The error of `CheckCoherency`, pkg/bds/bds44/meteorological_routine_air_report_v2.go:71-110. -/
def RoutineAirReportV2.incoherence (m : RoutineAirReportV2) : Option Txt :=
  if m.source ≥ 5 then some (t! "field Source is a Reserved value")
  else if !m.windSpeedStatus ∧ !m.windDirectionStatus ∧ !m.staticAirTemperatureStatus ∧ !m.averageStaticPressureStatus ∧ !m.humidityStatus then some (t! "the message does not convey any information")
  else if !m.windSpeedStatus ∧ m.windSpeed ≠ 0 then some (t! "the wind speed status is set to false, but a wind speed value is given")
  else if !m.windDirectionStatus ∧ m.windDirection ≠ 0 then some (t! "the wind direction status is set to false, but a wind direction value is given")
  else if !m.staticAirTemperatureStatus ∧ m.staticAirTemperature ≠ 0 then some (t! "the static air temperature status is set to false, but a static air temperature value is given")
  else if !m.averageStaticPressureStatus ∧ m.averageStaticPressure ≠ 0 then some (t! "the average static pressure status is set to false, but a average static pressure value is given")
  else if !m.humidityStatus ∧ m.humidity ≠ 0 then some (t! "the humidity status is set to false, but a humidity value is given")
  else if m.windSpeed > 250 then some (t! "the wind speed is too high (above 250 knots)")
  else if m.staticAirTemperature < -80 ∨ m.staticAirTemperature > 60 then some (t! "the static air temperature is to high or to low (-80 <= temp <= 60)")
  else none

/-- The error of `CheckCoherency`, pkg/bds/bds45/meteorological_hazard_report_v0.go:81-124. -/
def HazardReportV0.incoherence (m : HazardReportV0) : Option Txt :=
  if !m.turbulenceStatus ∧ !m.windShearStatus ∧ !m.microBurstStatus ∧ !m.icingStatus ∧ !m.wakeVortexStatus ∧ !m.staticAirTemperatureStatus ∧ !m.averageStaticPressureStatus ∧ !m.radioHeightStatus then some (t! "the message does not convey any information")
  else if !m.turbulenceStatus ∧ m.turbulence ≠ 0 then some (t! "the turbulence status is set to false, but a turbulence value is given")
  else if !m.windShearStatus ∧ m.windShear ≠ 0 then some (t! "the wind shear status is set to false, but a wind shear value is given")
  else if !m.microBurstStatus ∧ m.microBurst ≠ 0 then some (t! "the micro burst status is set to false, but a micro burst value is given")
  else if !m.icingStatus ∧ m.icing ≠ 0 then some (t! "the icing status is set to false, but a icing value is given")
  else if !m.wakeVortexStatus ∧ m.wakeVortex ≠ 0 then some (t! "the wake vortex status is set to false, but a wake vortex value is given")
  else if !m.staticAirTemperatureStatus ∧ m.staticAirTemperature ≠ 0 then some (t! "the static air temperature status is set to false, but a static air temperature value is given")
  else if !m.averageStaticPressureStatus ∧ m.averageStaticPressure ≠ 0 then some (t! "the average static pressure status is set to false, but a average static pressure value is given")
  else if !m.radioHeightStatus ∧ m.radioHeight ≠ 0 then some (t! "the radioHeight status is set to false, but a radioHeight value is given")
  else if m.staticAirTemperature < -80 ∨ m.staticAirTemperature > 60 then some (t! "the static air temperature is to high or to low (-80 <= temp <= 60)")
  else none

/-- The error of `CheckCoherency`, pkg/bds/bds45/meteorological_hazard_report_v1.go:87-128. -/
def HazardReportV1.incoherence (m : HazardReportV1) : Option Txt :=
  if !m.turbulenceStatus ∧ !m.windShearStatus ∧ !m.microBurstStatus ∧ !m.icingStatus ∧ !m.wakeVortexStatus ∧ !m.staticAirTemperatureStatus ∧ !m.averageStaticPressureStatus ∧ !m.radioHeightStatus then some (t! "the message does not convey any information")
  else if !m.turbulenceStatus ∧ (m.turbulenceAverageEDR ≠ 0 ∨ m.turbulencePeakEDR ≠ 0 ∨ m.turbulencePeakDelayInterval ≠ 0) then some (t! "the turbulence status is set to false, but some turbulence values are given")
  else if !m.windShearStatus ∧ m.windShear ≠ 0 then some (t! "the wind shear status is set to false, but a wind shear value is given")
  else if !m.microBurstStatus ∧ m.microBurst ≠ 0 then some (t! "the micro burst status is set to false, but a micro burst value is given")
  else if !m.icingStatus ∧ m.icing ≠ 0 then some (t! "the icing status is set to false, but a icing value is given")
  else if !m.wakeVortexStatus ∧ m.wakeVortex ≠ 0 then some (t! "the wake vortex status is set to false, but a wake vortex value is given")
  else if m.staticAirTemperatureStatus ∧ (m.staticAirTemperature < -80 ∨ m.staticAirTemperature > 60) then some (t! "the static air temperature is to high or to low (-80 <= temp <= 60)")
  else if !m.averageStaticPressureStatus ∧ m.averageStaticPressure ≠ 0 then some (t! "the average static pressure status is set to false, but a average static pressure value is given")
  else if !m.radioHeightStatus ∧ m.radioHeight ≠ 0 then some (t! "the radioHeight status is set to false, but a radioHeight value is given")
  else none

/-- The error of `CheckCoherency`, pkg/bds/bds50/track_and_turn_report.go:60-104. -/
def TrackAndTurnReport.incoherence (m : TrackAndTurnReport) : Option Txt :=
  if !m.rollAngleStatus ∧ !m.trueTrackAngleStatus ∧ !m.groundSpeedStatus ∧ !m.trackAngleRateStatus ∧ !m.trueAirSpeedStatus then some (t! "the message does not convey any information")
  else if !m.rollAngleStatus ∧ m.rollAngle ≠ 0 then some (t! "the roll angle status is set to false, but a roll angle value is given")
  else if !m.trueTrackAngleStatus ∧ m.trueTrackAngle ≠ 0 then some (t! "the true track angle status is set to false, but a true track angle value is given")
  else if !m.groundSpeedStatus ∧ m.groundSpeed ≠ 0 then some (t! "the ground speed status is set to false, but a ground speed value is given")
  else if !m.trackAngleRateStatus ∧ m.trackAngleRate ≠ 0 then some (t! "the track angle rate status is set to false, but a track angle rate value is given")
  else if !m.trueAirSpeedStatus ∧ m.trueAirSpeed ≠ 0 then some (t! "the true air speed status is set to false, but a true air speed rate value is given")
  else if m.rollAngle > 50 ∨ m.rollAngle < -50 then some (t! "the roll angle is too high (above 50 degrees)")
  else if m.groundSpeed > 600 then some (t! "the ground speed is too high (above 600 knots)")
  else if m.trueAirSpeed > 500 then some (t! "the true air speed is too high (above 500 knots)")
  else
    let speedDifference := (m.groundSpeed.toNat : Int) - (m.trueAirSpeed.toNat : Int)
    if speedDifference < -200 ∨ speedDifference > 200 then some (t! "the difference between true air speed and ground speed is too high (above 200 knots)") else none

/-- The error of `CheckCoherency`, pkg/bds/bds60/heading_and_speed_report.go:59-102. -/
def HeadingAndTrackReport.incoherence (m : HeadingAndTrackReport) : Option Txt :=
  if !m.magneticHeadingStatus ∧ !m.indicatedAirSpeedStatus ∧ !m.machStatus ∧ !m.barometricAltitudeRateStatus ∧
      !m.initialVerticalVelocityStatus then some (t! "the message does not convey any information")
  else if !m.magneticHeadingStatus ∧ m.magneticHeading ≠ 0 then some (t! "the magnetic heading status is set to false, but a magnetic heading value is given")
  else if !m.indicatedAirSpeedStatus ∧ m.indicatedAirSpeed ≠ 0 then some (t! "the indicated air speed status is set to false, but a indicated air speed value is given")
  else if !m.machStatus ∧ m.mach ≠ 0 then some (t! "the mach status is set to false, but a mach value is given")
  else if !m.barometricAltitudeRateStatus ∧ m.barometricAltitudeRate ≠ 0 then some (t! "the barometric altitude rate status is set to false, but a barometric altitude rate value is given")
  else if !m.initialVerticalVelocityStatus ∧ m.initialVerticalVelocity ≠ 0 then some (t! "the initial vertical velocity status is set to false, but a initial vertical velocity value is given")
  else if m.indicatedAirSpeed > 500 then some (t! "the indicated air speed is too high (above 500 knots)")
  else if m.mach > 1 then some (t! "the mach is too high (above 1.0)")
  else if m.barometricAltitudeRate < -6000 ∨ m.barometricAltitudeRate > 6000 then some (t! "the barometric altitude rate is to high or to low (above or under 6000fpm)")
  else if m.initialVerticalVelocity < -6000 ∨ m.initialVerticalVelocity > 6000 then some (t! "the initial vertical velocity is to high or to low (above or under 6000fpm)")
  else none

/-- `CheckCoherency` through the interface of pkg/bds/bds44/meteorological_routine_air_report.go: its error. -/
def RoutineAirReport.incoherence : RoutineAirReport → Option Txt
  | .v0 m => m.incoherence
  | .v1 m => m.incoherence
  | .v2 m => m.incoherence

/-- `CheckCoherency` through the interface of pkg/bds/bds45/meteorological_hazard_report.go: its error. -/
def HazardReport.incoherence : HazardReport → Option Txt
  | .v0 m => m.incoherence
  | .v1 m => m.incoherence

/-- `CheckCoherency` through the interface of pkg/bds/message.go: its error. Those of BDS 0,0, 1,7 and 3,0 return none:
pkg/bds/bds00/no_message_available.go:30-32, bds17/common_usage_gicb_capability_report.go:100-102, bds30/acas_resolution_advisory.go:32-34. -/
def CommBMessage.incoherence : CommBMessage → Option Txt
  | .bds00 _ => none
  | .bds07 m => m.incoherence
  | .bds10 m => m.incoherence
  | .bds17 _ => none
  | .bds20 m => m.incoherence
  | .bds30 _ => none
  | .bds40 m => m.incoherence
  | .bds44 m => m.incoherence
  | .bds45 m => m.incoherence
  | .bds50 m => m.incoherence
  | .bds60 m => m.incoherence

/-- `CheckCoherency` of the ADS-B messages: only two kinds can fail, the others return nil. -/
def ADSBMessage.incoherence : ADSBMessage → Option Txt
  | .identification m _ => m.incoherence
  | .status m _ => m.incoherence
  | _ => none

/-! ### The readers -/

/-- `bds00.ReadNoMessageAvailable`, pkg/bds/bds00/no_message_available.go:35-48: its error. -/
def bds00Error (data : List UInt8) : Option Txt :=
  if data.length ≠ 7 then some (t! "the data for Comm-B NoMessageAvailable message must be 7 bytes long")
  else if data.any (· ≠ 0) then some (t! "bits 1 to 56 must be zero")
  else none

/-- `bds07.ReadStatus`, pkg/bds/bds07/status.go:45-66: its error. -/
def bds07Error (data : List UInt8) : Option Txt :=
  if data.length ≠ 7 then some (t! "the data for Comm-B Status message must be 7 bytes long")
  else if byteAt data 0 &&& 0x1C ≠ 0 then some (t! "the bits 4 to 8 are reserved and must be 0")
  else if (data.drop 1).any (· ≠ 0) then some (t! "the bits 9 to 56 are reserved and must be 0")
  else none

/-- `bds10.ReadDataLinkCapabilityReport`, pkg/bds/bds10/data_link_capability_report.go:110-144: its error. -/
def bds10Error (data : List UInt8) : Option Txt :=
  if data.length ≠ 7 then some (t! "the data for Comm-B DataLinkCapabilityReport message must be 7 bytes long")
  else if byteAt data 0 ≠ 0x10 then some (t! "the first byte of data is not 0x10")
  else if byteAt data 1 &&& 0x7C ≠ 0 then some (t! "the bits 10 to 14 are reserved and must be 0")
  else none

/-- `bds17.ReadCommonUsageGICBCapabilityReport`, pkg/bds/bds17/common_usage_gicb_capability_report.go:105-149: its error. -/
def bds17Error (data : List UInt8) : Option Txt :=
  if data.length ≠ 7 then some (t! "the data for Comm-B CommonUsageGICBCapabilityReport message must be 7 bytes long")
  else if byteAt data 3 &&& 0x07 ≠ 0 then some (t! "the bits 30 to 32 are reserved and must be 0")
  else if (data.drop 4).any (· ≠ 0) then some (t! "the bits 33 to 56 are reserved and must be 0")
  else none

/-- `bds20.ReadAircraftIdentification`, pkg/bds/bds20/aircraft_identification.go:43-74: its error. -/
def bds20Error (data : List UInt8) : Option Txt :=
  if data.length ≠ 7 then some (t! "the data for Comm-B AircraftIdentification message must be 7 bytes long")
  else if byteAt data 0 ≠ 0x20 then some (t! "the first byte of data is not 0x20")
  else none

/-- `bds30.ReadACASResolutionAdvisory`, pkg/bds/bds30/acas_resolution_advisory.go:37-56: its error. The number in the text is the code's. -/
def bds30Error (data : List UInt8) : Option Txt :=
  if data.length ≠ 7 then some (t! "the data for Comm-B ACASResolutionAdvisory message must be 7 bytes long")
  else if byteAt data 0 ≠ 0x30 then some (t! "the first byte of data is not 0x20")
  else advisoryError (data.drop 1)

/-- `bds40.ReadSelectedVerticalIntention`, pkg/bds/bds40/selected_vertical_intention.go:91-127: its error. -/
def bds40Error (data : List UInt8) : Option Txt :=
  if data.length ≠ 7 then some (t! "the data for Comm-B SelectedVerticalIntention message must be 7 bytes long")
  else if byteAt data 4 &&& 0x01 ≠ 0 then some (t! "the bit 40 must be zero")
  else if byteAt data 5 &&& 0xFE ≠ 0 then some (t! "the bits 41 to 47 must be zero")
  else if byteAt data 6 &&& 0x18 ≠ 0 then some (t! "the bits 52 to 53 must be zero")
  else none

/-- `ReadMeteorologicalRoutineAirReportV0`, pkg/bds/bds44/meteorological_routine_air_report_v0.go:108-135: its error. -/
def bds44V0Error (data : List UInt8) : Option Txt :=
  if data.length ≠ 7 then some (t! "the data for Comm-B MeteorologicalRoutineAirReport message must be 7 bytes long") else none

/-- `ReadMeteorologicalRoutineAirReportV1`, pkg/bds/bds44/meteorological_routine_air_report_v1.go:105-135: its error. -/
def bds44V1Error (data : List UInt8) : Option Txt :=
  if data.length ≠ 7 then some (t! "the data for Comm-B MeteorologicalRoutineAirReport message must be 7 bytes long")
  else if byteAt data 0 &&& 0xF0 ≠ 0 then some (t! "the bits 1 to 4 must be zero")
  else none

/-- `ReadMeteorologicalRoutineAirReportV2`, pkg/bds/bds44/meteorological_routine_air_report_v2.go:113-140: its error. -/
def bds44V2Error (data : List UInt8) : Option Txt :=
  if data.length ≠ 7 then some (t! "the data for Comm-B MeteorologicalRoutineAirReport message must be 7 bytes long") else none

/-- `ReadMeteorologicalRoutineAirReport`, pkg/bds/bds44/meteorological_routine_air_report.go:15-44: its error. The words of line 42 name a
field this register does not have and give a wrong range. -/
def bds44Error (data : List UInt8) : Option Txt :=
  if data.length ≠ 7 then some (lengthError data)
  else
    let source := (byteAt data 0 &&& 0xF0) >>> 4
    if source = 1 ∨ source = 2 ∨ source = 3 ∨ source = 4 then
      (if bds44V2Error data = none then none else bds44V0Error data)
    else if source = 0 then bds44V1Error data
    else some (t! "the field SubType must be comprised between 0 and 1 included, got " ++ dec source.toNat)

/-- `ReadMeteorologicalHazardReportV0`, pkg/bds/bds45/meteorological_hazard_report_v0.go:127-164: its error. -/
def bds45V0Error (data : List UInt8) : Option Txt :=
  if data.length ≠ 7 then some (t! "the data for Comm-B MeteorologicalHazardReport message must be 7 bytes long")
  else if byteAt data 6 &&& 0x1F ≠ 0 then some (t! "the bits 52 to 56 must be zero")
  else none

/-- `ReadMeteorologicalHazardReportV1`, pkg/bds/bds45/meteorological_hazard_report_v1.go:131-167: its error. -/
def bds45V1Error (data : List UInt8) : Option Txt :=
  if data.length ≠ 7 then some (t! "the data for Comm-B MeteorologicalHazardReport message must be 7 bytes long")
  else if byteAt data 6 &&& 0x03 ≠ 0 then some (t! "the bits 55 to 56 must be zero")
  else none

/-- `ReadMeteorologicalHazardReport`, pkg/bds/bds45/meteorological_hazard_report.go:16-33: its error, that of the second reader. -/
def bds45Error (data : List UInt8) : Option Txt :=
  if data.length ≠ 7 then some (lengthError data)
  else if bds45V1Error data = none then none
  else bds45V0Error data

/-- `ReadTrackAndTurnReport`, pkg/bds/bds50/track_and_turn_report.go:107-131: its error. -/
def bds50Error (data : List UInt8) : Option Txt :=
  if data.length ≠ 7 then some (t! "the data for Comm-B TrackAndTurnReport message must be 7 bytes long") else none

/-- `ReadHeadingAndSpeedReport`, pkg/bds/bds60/heading_and_speed_report.go:105-129: its error. -/
def bds60Error (data : List UInt8) : Option Txt :=
  if data.length ≠ 7 then some (t! "the data for Comm-B HeadingAndTrackReport message must be 7 bytes long") else none

end Modes
