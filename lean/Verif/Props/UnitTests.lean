import Verif.Model.CommB
import Verif.Model.ADSB
import Verif.Model.Accessors
/-!
# The unit tests of the repository, on the model

Generated by tools/gen_unit_tests.py. Each test of /repo/pkg that checks literal data, transcribed: what the Go test asserts of the code
holds of the model. These are tests of the *model*, against the only executions of the code that the repository records (the code cannot be run
here); they prove no property. Assertions that a text is not empty, on registers' constants and on `nil` coherency of messages that have no check
are left out; the tests of pkg/geo are in Props/UnitTestsGeo.
-/
namespace Modes.UnitTests

/-- The reader succeeds and the message satisfies the assertions. -/
def Passes {α : Type} (r : Go α) (p : α → Bool) : Bool :=
  match r with
  | .ok a => p a
  | .error _ => false

/-- The reader returns an error (not a panic). -/
def _root_.Except.isError {α : Type} : Go α → Bool
  | .error .err => true
  | _ => false

/-- modes/messages/df0_test.go:9-46 -/
example : Passes (parseDF0 ⟨0, 6, [0xA5, 0x15, 0x35], [0, 0, 0]⟩) (fun m => decide (m.verticalStatus = 1) && decide (m.crossLinkCapability = 1) && decide (m.replyInformation = 10) && decide (m.altitude = 33125) && decide (m.altitudeReportMethod = .feet25)) = true := by decide +kernel

/-- modes/messages/df4_test.go:9-50 -/
example : Passes (parseDF4 ⟨4, 5, [0xAA, 0xB5, 0x35], [0, 0, 0]⟩) (fun m => decide (m.flightStatus = 5) && decide (m.downlinkRequest = 21) && decide (m.utilityMessage.interrogatorIdentifier = 5) && decide (m.utilityMessage.identifierDesignator = 1) && decide (m.altitude = 33125) && decide (m.altitudeReportMethod = .feet25)) = true := by decide +kernel

/-- modes/messages/df5_test.go:9-45 -/
example : Passes (parseDF5 ⟨5, 5, [0xAA, 0xBC, 0x09], [0, 0, 0]⟩) (fun m => decide (m.flightStatus = 5) && decide (m.downlinkRequest = 21) && decide (m.utilityMessage.interrogatorIdentifier = 5) && decide (m.utilityMessage.identifierDesignator = 1) && decide (m.identity = ['1', '2', '3', '4'])) = true := by decide +kernel

/-- modes/messages/df11_test.go:9-28 -/
example : Passes (parseDF11 ⟨11, 5, [0x69, 0xA7, 0xF0], [0, 0, 0]⟩) (fun m => decide (m.capability = 5) && decide (m.addressAnnounced = 6924272)) = true := by decide +kernel

/-- modes/messages/df16_test.go:9-70 -/
example : Passes (parseDF16 ⟨16, 4, [0xA5, 0x15, 0x35, 0x01, 0x23, 0x45, 0x67, 0x89, 0xAB, 0xCD], [0, 0, 0]⟩) (fun m => decide (m.verticalStatus = 1) && decide (m.replyInformation = 10) && decide (m.altitude = 33125) && decide (m.altitudeReportMethod = .feet25) && decide (m.messageACAS = [0x01, 0x23, 0x45, 0x67, 0x89, 0xAB, 0xCD])) = true := by decide +kernel

/-- modes/messages/df17_test.go:9-56 -/
example : Passes (parseDF17 ⟨17, 5, [0x69, 0xA7, 0xF0, 0x01, 0x23, 0x45, 0x67, 0x89, 0xAB, 0xCD], [0, 0, 0]⟩) (fun m => decide (m.capability = 5) && decide (m.addressAnnounced = 6924272) && decide (m.messageExtendedSquitter = [0x01, 0x23, 0x45, 0x67, 0x89, 0xAB, 0xCD])) = true := by decide +kernel

/-- modes/messages/df18_test.go:9-56 -/
example : Passes (parseDF18 ⟨18, 5, [0x69, 0xA7, 0xF0, 0x01, 0x23, 0x45, 0x67, 0x89, 0xAB, 0xCD], [0, 0, 0]⟩) (fun m => decide (m.controlField = 5) && decide (m.addressAnnounced = 6924272) && decide (m.messageExtendedSquitter = [0x01, 0x23, 0x45, 0x67, 0x89, 0xAB, 0xCD])) = true := by decide +kernel

/-- modes/messages/df19_test.go:9-25 -/
example : Passes (parseDF19 ⟨19, 5, [0x00, 0x00, 0x00, 0x00, 0x00, 0x00, 0x00, 0x00, 0x00, 0x00], [0, 0, 0]⟩) (fun m => decide (m.applicationField = 5)) = true := by decide +kernel

/-- modes/messages/df20_test.go:9-81 -/
example : Passes (parseDF20 ⟨20, 5, [0xAA, 0xB5, 0x35, 0x01, 0x23, 0x45, 0x67, 0x89, 0xAB, 0xCD], [0, 0, 0]⟩) (fun m => decide (m.flightStatus = 5) && decide (m.downlinkRequest = 21) && decide (m.utilityMessage.interrogatorIdentifier = 5) && decide (m.utilityMessage.identifierDesignator = 1) && decide (m.altitude = 33125) && decide (m.altitudeReportMethod = .feet25) && decide (m.messageCommB = [0x01, 0x23, 0x45, 0x67, 0x89, 0xAB, 0xCD])) = true := by decide +kernel

/-- modes/messages/df21_test.go:9-74 -/
example : Passes (parseDF21 ⟨21, 5, [0xAA, 0xBC, 0x09, 0x01, 0x23, 0x45, 0x67, 0x89, 0xAB, 0xCD], [0, 0, 0]⟩) (fun m => decide (m.flightStatus = 5) && decide (m.downlinkRequest = 21) && decide (m.utilityMessage.interrogatorIdentifier = 5) && decide (m.utilityMessage.identifierDesignator = 1) && decide (m.identity = ['1', '2', '3', '4']) && decide (m.messageCommB = [0x01, 0x23, 0x45, 0x67, 0x89, 0xAB, 0xCD])) = true := by decide +kernel

/-- modes/messages/df24_test.go:9-65 -/
example : Passes (parseDF24 ⟨27, 2, [0xFF, 0x00, 0xAA, 0x01, 0x23, 0x45, 0x67, 0x89, 0xAB, 0xCD], [0, 0, 0]⟩) (fun m => decide (m.controlELM = 1) && decide (m.numberOfDSegment = 10) && decide (m.messageCommD = [0xFF, 0x00, 0xAA, 0x01, 0x23, 0x45, 0x67, 0x89, 0xAB, 0xCD])) = true := by decide +kernel

/-- acas/ra/fields/threat_identity_altitude_test.go:7-21 -/
example : Passes (readThreatAltitude [0, 0, 0, 0, 0, 0]) (fun m => decide (m.status = 0)) = true := by decide +kernel

/-- acas/ra/fields/threat_identity_altitude_test.go:23-51 -/
example : Passes (readThreatAltitude [0, 0, 0, 0x20, 0, 0]) (fun m => decide (m.status = 1) && decide (m.feet = -1200)) = true := by decide +kernel

/-- acas/ra/fields/threat_identity_altitude_test.go:53-90 -/
example : Passes (readThreatAltitude [0, 0, 0, 0x81, 0x40, 0]) (fun m => decide (m.status = 1) && decide (m.feet = 0)) = true := by decide +kernel

/-- acas/ra/fields/threat_identity_altitude_test.go:92-122 -/
example : Passes (readThreatAltitude [0, 0, 0, 0x20, 0x80, 0]) (fun m => decide (m.status = 1) && decide (m.feet = 126700)) = true := by decide +kernel

/-- acas/ra/resolution_advisory_test.go:8-146 -/
example : Passes (readResolutionAdvisory [0xFE, 0x03, 0xF5, 0x69, 0xA5, 0xF4]) (fun m => decide (m.activeRA = .oneThreat ⟨1, 1, true, true, true, 1⟩) && decide (m.raComplement = ⟨true, true, true, true⟩) && decide (m.multipleThreatEncounter = 1) && decide (m.threatTypeIndicator = 1) && decide (m.threatIdentityAddress = some 0x005A697D)) = true := by decide +kernel

/-- acas/ra/resolution_advisory_test.go:148-306 -/
example : Passes (readResolutionAdvisory [0x7E, 0x01, 0x78, 0x81, 0x55, 0xAA]) (fun m => decide (m.activeRA = .multiple ⟨true, true, true, true, true, true⟩) && decide (m.raComplement = ⟨false, true, false, true⟩) && decide (m.multipleThreatEncounter = 1) && decide (m.threatTypeIndicator = 2) && decide (m.threatIdentityAltitude.map ThreatAltitude.feet = some 0) && decide (m.threatIdentityRange.map getRange = some 8.5) && decide (m.threatIdentityBearing.map getBearing = some 249)) = true := by decide +kernel

/-- bitutils/gillham_test.go:7-36 -/
example : gillhamToAltitude false false false false false false false false false false true false = .ok (-1000) := by decide +kernel

/-- bitutils/gillham_test.go:7-36 -/
example : gillhamToAltitude false false false false false false false false true false true false = .ok (-500) := by decide +kernel

/-- bitutils/gillham_test.go:7-36 -/
example : gillhamToAltitude false false false false false false false true true false true false = .ok 0 := by decide +kernel

/-- bitutils/gillham_test.go:7-36 -/
example : gillhamToAltitude false false false false false false false true true true true false = .ok 100 := by decide +kernel

/-- bitutils/gillham_test.go:7-36 -/
example : gillhamToAltitude false false false false false false false true false false true true = .ok 600 := by decide +kernel

/-- bitutils/gillham_test.go:7-36 -/
example : gillhamToAltitude false false false false false false true true false false true false = .ok 1000 := by decide +kernel

/-- bitutils/gillham_test.go:7-36 -/
example : gillhamToAltitude false false false false false true false false true false false true = .ok 5800 := by decide +kernel

/-- bitutils/gillham_test.go:7-36 -/
example : gillhamToAltitude false false false false true true true false false true false false = .ok 10300 := by decide +kernel

/-- bitutils/gillham_test.go:7-36 -/
example : gillhamToAltitude false false true true false false false true true false true false = .ok 32000 := by decide +kernel

/-- bitutils/gillham_test.go:7-36 -/
example : gillhamToAltitude false false true true true false false false false true false false = .ok 46300 := by decide +kernel

/-- bitutils/gillham_test.go:7-36 -/
example : gillhamToAltitude false true false false false false false false false false true true = .ok 126600 := by decide +kernel

/-- bitutils/gillham_test.go:7-36 -/
example : gillhamToAltitude false true false false false false false false false false false true = .ok 126700 := by decide +kernel

/-- adsb/reader/reader_test.go:13-22 -/
example : (match readADSBMessage 0 false false [0x00, 0x67, 0x60, 0x00, 0x00, 0x00, 0x00] with | .returns (.val (.noPosition ..)) false => true | _ => false) = true := by decide +kernel

/-- adsb/reader/reader_test.go:24-33 -/
example : (match readADSBMessage 0 false false [0x00, 0xA3, 0xC2, 0x2B, 0x77, 0x76, 0xD7] with | .returns (.val (.airborneType0 ..)) false => true | _ => false) = true := by decide +kernel

/-- bds/bds00/no_message_available_test.go:9-24 -/
example : Passes (readBDS00 [0x00, 0x00, 0x00, 0x00, 0x00, 0x00, 0x00]) (fun m => true) = true := by decide +kernel

/-- bds/bds00/no_message_available_test.go:27-31 -/
example : (readBDS00 [0x00, 0x00, 0x00, 0x00, 0x00, 0x00]).isError = true := by decide +kernel

/-- bds/bds00/no_message_available_test.go:33-37 -/
example : (readBDS00 [0x00, 0x00, 0x00, 0x00, 0x00, 0x00, 0x01]).isError = true := by decide +kernel

/-- bds/bds05/airborne_position_test.go:11-38 -/
example : Passes (readBDS05 [0x58, 0xC3, 0x82, 0xD6, 0x90, 0xC8, 0xAC]) (fun m => decide (m.altitudeSource = 0) && decide (m.altitudeReportMethod = 1) && decide (m.altitudeInFeet = 38000)) = true := by decide +kernel

/-- bds/bds05/airborne_position_test.go:40-67 -/
example : Passes (readBDS05 [0x58, 0xC9, 0x01, 0x37, 0x51, 0x47, 0xEF]) (fun m => decide (m.altitudeSource = 0) && decide (m.altitudeReportMethod = 1) && decide (m.altitudeInFeet = 39000)) = true := by decide +kernel

/-- bds/bds06/surface_position_test.go:10-41 -/
example : Passes (readBDS06 [0x3A, 0x9A, 0x15, 0x32, 0x37, 0xAE, 0xF0]) (fun m => decide (m.movementStatus = 41) && decide (m.movementSpeed = 17) && decide (m.groundTrackStatus = true) && decide (92.7 ≤ m.groundTrack) && decide (m.groundTrack ≤ 92.9)) = true := by decide +kernel

/-- bds/bds08/aircraft_identification_and_category_test.go:11-34 -/
example : Passes (readBDS08 [0x11, 0x50, 0x86, 0x73, 0xE1, 0x98, 0x20]) (fun m => m.coherent && decide (m.category = .setC 1) && decide (m.identification = [84, 72, 89, 51, 56, 89, 32, 32])) = true := by decide +kernel

/-- bds/bds08/aircraft_identification_and_category_test.go:36-51 -/
example : Passes (readBDS08 [0x11, 0x50, 0x86, 0x73, 0xE1, 0x98, 0x2F]) (fun m => !m.coherent && decide (m.identification = [84, 72, 89, 51, 56, 89, 32, 35])) = true := by decide +kernel

/-- bds/bds08/aircraft_identification_and_category_test.go:54-58 -/
example : (readBDS08 [0x11, 0x50, 0x86, 0x73, 0xE1, 0x98]).isError = true := by decide +kernel

/-- bds/bds08/aircraft_identification_and_category_test.go:60-64 -/
example : (readBDS08 [0xF0, 0x50, 0x86, 0x73, 0xE1, 0x98, 0x20]).isError = true := by decide +kernel

/-- bds/bds09/airborne_velocity_air_speed_normal_test.go:10-46 -/
example : Passes (readAirSpeedNormal [0x9B, 0x06, 0xB6, 0xAF, 0x18, 0x94, 0x00]) (fun m => decide (m.airspeedStatus = .regular) && decide (m.airspeed = 375) && decide (m.magneticHeadingStatus = 1) && decide (243 ≤ m.magneticHeading) && decide (m.magneticHeading ≤ 244) && decide (m.verticalRate = -2304)) = true := by decide +kernel

/-- bds/bds09/airborne_velocity_ground_speed_normal_test.go:11-60 (speed and track: below) -/
example : Passes (readGroundSpeedNormal [0x99, 0x44, 0x09, 0x94, 0x08, 0x38, 0x17]) (fun m => decide (m.directionEastWest = 1) && decide (m.velocityEW = 8) && decide (m.directionNorthSouth = 1) && decide (m.velocityNS = 159) && decide (m.verticalRateStatus = .regular) && decide (m.verticalRate = -832) && decide (m.heightDifferenceStatus = .regular) && decide (m.heightDifference = 550)) = true := by decide +kernel

/-- bds/bds09/airborne_velocity_test.go:11-30 -/
example : (match readBDS09 [0x99, 0x44, 0x09, 0x94, 0x08, 0x38, 0x17] with | .ok (.groundSpeedNormal ..) => true | _ => false) = true := by decide +kernel

/-- bds/bds09/airborne_velocity_test.go:32-51 -/
example : (match readBDS09 [0x9B, 0x06, 0xB6, 0xAF, 0x18, 0x94, 0x00] with | .ok (.airSpeedNormal ..) => true | _ => false) = true := by decide +kernel

/-- bds/bds20/aircraft_identification_test.go:9-28 -/
example : Passes (readBDS20 [0x20, 0x50, 0x86, 0x73, 0xE1, 0x98, 0x20]) (fun m => m.coherent && decide (m.identification = [84, 72, 89, 51, 56, 89, 32, 32])) = true := by decide +kernel

/-- bds/bds20/aircraft_identification_test.go:30-45 -/
example : Passes (readBDS20 [0x20, 0x50, 0x86, 0x73, 0xE1, 0x98, 0x2F]) (fun m => !m.coherent && decide (m.identification = [84, 72, 89, 51, 56, 89, 32, 35])) = true := by decide +kernel

/-- bds/bds20/aircraft_identification_test.go:48-52 -/
example : (readBDS20 [0x20, 0x50, 0x86, 0x73, 0xE1, 0x98]).isError = true := by decide +kernel

/-- bds/bds20/aircraft_identification_test.go:54-58 -/
example : (readBDS20 [0x30, 0x50, 0x86, 0x73, 0xE1, 0x98, 0x20]).isError = true := by decide +kernel

/-- bds/bds40/selected_vertical_intention_test.go:11-74 -/
example : Passes (readBDS40 [0x85, 0xE4, 0x2F, 0x31, 0x30, 0x01, 0xE7]) (fun m => m.coherent && decide (m.fmsSelectedAltitudeAvailable = true) && decide (m.fmsSelectedAltitude = 3008) && decide (m.mcpfcuSelectedAltitudeAvailable = true) && decide (m.mcpfcuSelectedAltitude = 3008) && decide (m.barometricPressureSettingAvailable = true) && decide (m.barometricPressureSetting = 1020) && decide (m.statusOfModeBits = 1) && decide (m.vnavMode = true) && decide (m.altitudeHoldMode = true) && decide (m.approachMode = true) && decide (m.statusOfTargetAltitudeSource = 1) && decide (m.targetAltitudeSource = 3)) = true := by decide +kernel

/-- bds/bds40/selected_vertical_intention_test.go:76-86 -/
example : Passes (readBDS40 [0x00, 0x00, 0x00, 0x00, 0x00, 0x00, 0x00]) (fun m => !m.coherent) = true := by decide +kernel

/-- bds/bds40/selected_vertical_intention_test.go:89-94 (`hex.DecodeString` of an odd number of digits returns the bytes before the last digit) -/
example : (readBDS40 [0x85, 0xE4, 0x2F, 0x31, 0x30]).isError = true := by decide +kernel

/-- bds/bds40/selected_vertical_intention_test.go:96-101 -/
example : (readBDS40 [0x85, 0xE4, 0x2F, 0x31, 0x31, 0x00, 0x00]).isError = true := by decide +kernel

/-- bds/bds40/selected_vertical_intention_test.go:103-108 -/
example : (readBDS40 [0x85, 0xE4, 0x2F, 0x31, 0x30, 0x80, 0x00]).isError = true := by decide +kernel

/-- bds/bds40/selected_vertical_intention_test.go:110-115 -/
example : (readBDS40 [0x85, 0xE4, 0x2F, 0x31, 0x30, 0x00, 0x10]).isError = true := by decide +kernel

/-- bds/bds44/meteorological_routine_air_report_test.go:11-32 -/
example : (match readBDS44 [0x18, 0xBB, 0xA9, 0xCD, 0xC0, 0x00, 0x00] with | .returns (.val m) false => m.coherent && decide (m.getSource = 0) | _ => false) = true := by decide +kernel

/-- bds/bds44/meteorological_routine_air_report_v1_test.go:10-26 -/
example : Passes (readBDS44V1 [0x08, 0xBB, 0xA9, 0xCD, 0xC0, 0x00, 0x00]) (fun m => m.coherent) = true := by decide +kernel

/-- bds/bds44/meteorological_routine_air_report_v2_test.go:11-54 -/
example : Passes (readBDS44V2 [0x18, 0xBB, 0xA9, 0xCD, 0xC0, 0x00, 0x00]) (fun m => m.coherent && decide (m.source = 1) && decide (m.windSpeedStatus = true) && decide (m.windSpeed = 46) && decide (m.windDirectionStatus = true) && decide (298 ≤ m.windDirection) && decide (m.windDirection ≤ 298.5) && decide (m.staticAirTemperatureStatus = true) && decide (-50.5 ≤ m.staticAirTemperature) && decide (m.staticAirTemperature ≤ -50)) = true := by decide +kernel

/-- bds/bds45/meteorological_hazard_report_v1_test.go:10-89 -/
example : Passes (readBDS45V1 [0xF2, 0xE4, 0xEC, 0xB6, 0xFD, 0x3C, 0x9C]) (fun m => m.coherent && decide (m.windShearStatus = true) && decide (m.windShear = 3) && decide (m.microBurstStatus = true) && decide (m.microBurst = 0) && decide (m.icingStatus = true) && decide (m.icing = 1) && decide (m.wakeVortexStatus = true) && decide (m.wakeVortex = 2) && decide (m.staticAirTemperatureStatus = false) && decide (m.staticAirTemperature = -98.5) && decide (m.radioHeightStatus = true) && decide (m.radioHeight = 3518) && decide (m.turbulenceStatus = true) && decide (m.turbulenceAverageEDR = f32 0.38) && decide (m.turbulencePeakEDR = 1) && decide (m.turbulencePeakDelayInterval = 7)) = true := by decide +kernel

/-- bds/bds50/track_and_turn_report_test.go:10-65 -/
example : Passes (readBDS50 [0x81, 0x95, 0x15, 0x36, 0xE0, 0x24, 0xD4]) (fun m => m.coherent && decide (m.rollAngleStatus = true) && decide (2.05 ≤ m.rollAngle) && decide (m.rollAngle ≤ 2.15) && decide (m.trueTrackAngleStatus = true) && decide (114.2 ≤ m.trueTrackAngle) && decide (m.trueTrackAngle ≤ 114.3) && decide (m.groundSpeedStatus = true) && decide (m.groundSpeed = 438) && decide (m.trackAngleRateStatus = true) && decide (0.1 ≤ m.trackAngleRate) && decide (m.trackAngleRate ≤ 0.2) && decide (m.trueAirSpeedStatus = true) && decide (m.trueAirSpeed = 424)) = true := by decide +kernel

/-- bds/bds50/track_and_turn_report_test.go:67-90 -/
example : Passes (readBDS50 [0xFF, 0xD2, 0x63, 0x37, 0x7F, 0xFC, 0xE0]) (fun m => m.coherent && decide (m.rollAngleStatus = true) && decide (-0.36 ≤ m.rollAngle) && decide (m.rollAngle ≤ -0.35)) = true := by decide +kernel

/-- bds/bds50/track_and_turn_report_test.go:93-101 -/
example : Passes (readBDS50 [0x00, 0x00, 0x00, 0x00, 0x00, 0x00, 0x00]) (fun m => !m.coherent) = true := by decide +kernel

/-- bds/bds50/track_and_turn_report_test.go:103-112 -/
example : Passes (readBDS50 [0xBF, 0x95, 0x15, 0x36, 0xE0, 0x24, 0xD4]) (fun m => !m.coherent) = true := by decide +kernel

/-- bds/bds50/track_and_turn_report_test.go:114-123 -/
example : Passes (readBDS50 [0x81, 0x95, 0x15, 0xF6, 0xE0, 0x24, 0xD4]) (fun m => !m.coherent) = true := by decide +kernel

/-- bds/bds50/track_and_turn_report_test.go:125-134 -/
example : Passes (readBDS50 [0x81, 0x95, 0x15, 0x36, 0xE0, 0x27, 0xD4]) (fun m => !m.coherent) = true := by decide +kernel

/-- bds/bds50/track_and_turn_report_test.go:136-145 -/
example : Passes (readBDS50 [0x81, 0x95, 0x15, 0x36, 0xE0, 0x24, 0x00]) (fun m => !m.coherent) = true := by decide +kernel

/-- bds/bds50/track_and_turn_report_test.go:148-152 -/
example : (readBDS50 [0x85, 0xE4, 0x2F, 0x31, 0x30]).isError = true := by decide +kernel

/-- bds/bds60/heading_and_speed_report_test.go:9-64 -/
example : Passes (readBDS60 [0x8F, 0x39, 0xF9, 0x1A, 0x7E, 0x27, 0xC4]) (fun m => m.coherent && decide (m.magneticHeadingStatus = true) && decide (42.7 ≤ m.magneticHeading) && decide (m.magneticHeading ≤ 42.8) && decide (m.indicatedAirSpeedStatus = true) && decide (m.indicatedAirSpeed = 252) && decide (m.machStatus = true) && decide (0.41 ≤ m.mach) && decide (m.mach ≤ 0.43) && decide (m.barometricAltitudeRateStatus = true) && decide (m.barometricAltitudeRate = -1920) && decide (m.initialVerticalVelocityStatus = true) && decide (m.initialVerticalVelocity = -1920)) = true := by decide +kernel

/-- bds/bds60/heading_and_speed_report_test.go:67-76 -/
example : Passes (readBDS60 [0x00, 0x00, 0x00, 0x00, 0x00, 0x00, 0x00]) (fun m => !m.coherent) = true := by decide +kernel

/-- bds/bds60/heading_and_speed_report_test.go:78-87 -/
example : Passes (readBDS60 [0x8F, 0x3F, 0x01, 0x1A, 0x7E, 0x27, 0xC4]) (fun m => !m.coherent) = true := by decide +kernel

/-- bds/bds60/heading_and_speed_report_test.go:89-98 -/
example : Passes (readBDS60 [0x8F, 0x39, 0xF9, 0x80, 0x3E, 0x27, 0xC4]) (fun m => !m.coherent) = true := by decide +kernel

/-- bds/bds60/heading_and_speed_report_test.go:100-109 -/
example : Passes (readBDS60 [0x8F, 0x39, 0xF9, 0x1A, 0x70, 0x07, 0xC4]) (fun m => !m.coherent) = true := by decide +kernel

/-- bds/bds60/heading_and_speed_report_test.go:111-120 -/
example : Passes (readBDS60 [0x8F, 0x39, 0xF9, 0x1A, 0x7E, 0x26, 0x00]) (fun m => !m.coherent) = true := by decide +kernel

/-- bds/bds60/heading_and_speed_report_test.go:123-127 -/
example : (readBDS60 [0x8F, 0x39, 0xF9, 0x1A, 0x7E, 0x27]).isError = true := by decide +kernel

/-- bds/bds61/aircraft_status_emergency_test.go:11-30 -/
example : Passes (readStatusEmergency [0xE1, 0x19, 0x1D, 0x00, 0x00, 0x00, 0x00]) (fun m => (AircraftStatus.emergency m).coherent && decide (m.emergencyPriorityStatus = 0)) = true := by decide +kernel

/-- bds/bds62/target_state_and_status_test.go:11-30 -/
example : (match readBDS62 [0xEA, 0x21, 0x48, 0x5C, 0xBF, 0x3F, 0x8C] with | .ok (.type1 m) => decide (m.subtype = 1) | _ => false) = true := by decide +kernel

/-- bds/bds62/target_state_and_status_type_1_test.go:11-86 -/
example : Passes (readTargetStateAndStatus1 [0xEA, 0x21, 0x48, 0x5C, 0xBF, 0x3F, 0x8C]) (fun m => decide (m.subtype = 1) && decide (m.sourceIntegrityLevelSupplement = 0) && decide (m.selectedAltitudeType = 0) && decide (m.selectedAltitudeStatus = .regular) && decide (m.selectedAltitude = 16992) && decide (m.barometricPressureSettingStatus = .regular) && decide (1012.7 ≤ m.barometricPressureSetting) && decide (m.barometricPressureSetting ≤ 1012.9) && decide (m.selectedHeadingStatus = 1) && decide (66.7 ≤ m.selectedHeading) && decide (m.selectedHeading ≤ 66.9) && decide (m.autopilotEngaged = true) && decide (m.vnavModeEngaged = true) && decide (m.altitudeHoldModeEngaged = false) && decide (m.approachModeEngaged = false) && decide (m.tcasACASOperational = true) && decide (m.lnavModeEngaged = true)) = true := by decide +kernel

/-- bds/bds65/aircraft_operational_status_airborne_adsb2_test.go:11-94 -/
example : Passes (readOpStatusAirborneV2 [0xF8, 0x23, 0x00, 0x03, 0x00, 0x40, 0x08]) (fun m => decide (m.airborneCapabilityClass = ⟨1, 0, 1, 1, 0, 0⟩) && decide (m.operationalMode = ⟨0, 0, 0, 3⟩) && decide (m.nicSupplementA = 0) && decide (m.navigationalAccuracyCategoryPosition = 0) && decide (m.geometricVerticalAccuracy = 0) && decide (m.sourceIntegrityLevel = 0) && decide (m.nicBaro = 1) && decide (m.horizontalReferenceDirection = 0) && decide (m.sourceIntegrityLevelSupplement = 0)) = true := by decide +kernel

/-- bds/bds65/aircraft_operational_status_surface_adsb2_test.go:11-94 -/
example : Passes (readOpStatusSurfaceV2 [0xF9, 0x00, 0x21, 0x02, 0x81, 0x4A, 0x3C]) (fun m => decide (m.surfaceCapabilityClass = ⟨0, 0, 0, 1, 0⟩) && decide (m.lengthAndWidth = 1) && decide (m.operationalMode.acasRAActive = 0 ∧ m.operationalMode.identSwitchActive = 0 ∧ m.operationalMode.singleAntennaFlag = 0 ∧ m.operationalMode.gpsAntennaLateral = 4 ∧ m.operationalMode.gpsAntennaLongitudinal = 1) && decide (m.nicSupplementA = 0) && decide (m.navigationalAccuracyCategoryPosition = 10) && decide (m.sourceIntegrityLevel = 3) && decide (m.trackAngleHeading = 1) && decide (m.horizontalReferenceDirection = 1) && decide (m.sourceIntegrityLevelSupplement = 0)) = true := by decide +kernel

end Modes.UnitTests
