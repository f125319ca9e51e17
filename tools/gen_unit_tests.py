#!/usr/bin/env python3
"""Writes lean/Verif/Props/UnitTests.lean: the repository's unit tests, transcribed for the model."""
import os
def hx(s):
    s=s[:len(s)//2*2]
    return "["+", ".join("0x"+s[i:i+2] for i in range(0,len(s),2))+"]"
out=[]
def arg(h): return hx(h) if all(c in '0123456789ABCDEF' for c in h) else h
def ex(cite,stmt): out.append(f"/-- {cite} -/\nexample : {stmt} := by decide +kernel\n")
def ok(cite,fn,h,checks): ex(cite,f"Passes ({fn} {arg(h)}) (fun m => "+" && ".join(checks)+") = true")
def err(cite,fn,h): ex(cite,f"({fn} {hx(h)}).isError = true")
def md(df,ff,pl): return "⟨%d, %d, [%s], [0, 0, 0]⟩"%(df,ff,", ".join("0x%02X"%x for x in pl))
mb=[0x01,0x23,0x45,0x67,0x89,0xAB,0xCD]
MB="["+", ".join("0x%02X"%x for x in mb)+"]"
q=lambda f,v:f"decide (m.{f} = {v})"
M="modes/messages/"
alt=[q("altitude",33125),q("altitudeReportMethod",".feet25")]
util=[q("utilityMessage.interrogatorIdentifier",5),q("utilityMessage.identifierDesignator",1)]
fs=[q("flightStatus",5),q("downlinkRequest",21)]
ident=[q("identity","['1', '2', '3', '4']")]
ok(M+"df0_test.go:9-46","parseDF0",md(0,6,[0xA5,0x15,0x35]),[q("verticalStatus",1),q("crossLinkCapability",1),q("replyInformation",10)]+alt)
ok(M+"df4_test.go:9-50","parseDF4",md(4,5,[0xAA,0xB5,0x35]),fs+util+alt)
ok(M+"df5_test.go:9-45","parseDF5",md(5,5,[0xAA,0xBC,0x09]),fs+util+ident)
ok(M+"df11_test.go:9-28","parseDF11",md(11,5,[0x69,0xA7,0xF0]),[q("capability",5),q("addressAnnounced",6924272)])
ok(M+"df16_test.go:9-70","parseDF16",md(16,4,[0xA5,0x15,0x35]+mb),[q("verticalStatus",1),q("replyInformation",10)]+alt+[q("messageACAS",MB)])
ok(M+"df17_test.go:9-56","parseDF17",md(17,5,[0x69,0xA7,0xF0]+mb),[q("capability",5),q("addressAnnounced",6924272),q("messageExtendedSquitter",MB)])
ok(M+"df18_test.go:9-56","parseDF18",md(18,5,[0x69,0xA7,0xF0]+mb),[q("controlField",5),q("addressAnnounced",6924272),q("messageExtendedSquitter",MB)])
ok(M+"df19_test.go:9-25","parseDF19",md(19,5,[0]*10),[q("applicationField",5)])
ok(M+"df20_test.go:9-81","parseDF20",md(20,5,[0xAA,0xB5,0x35]+mb),fs+util+alt+[q("messageCommB",MB)])
ok(M+"df21_test.go:9-74","parseDF21",md(21,5,[0xAA,0xBC,0x09]+mb),fs+util+ident+[q("messageCommB",MB)])
ok(M+"df24_test.go:9-65","parseDF24",md(27,2,[0xFF,0,0xAA]+mb),[q("controlELM",1),q("numberOfDSegment",10),q("messageCommD","[0xFF, 0x00, 0xAA, "+MB[1:])])
A="acas/ra/fields/threat_identity_altitude_test.go"
ok(A+":7-21","readThreatAltitude","[0, 0, 0, 0, 0, 0]",[q("status",0)])
ok(A+":23-51","readThreatAltitude","[0, 0, 0, 0x20, 0, 0]",[q("status",1),q("feet",-1200)])
ok(A+":53-90","readThreatAltitude","[0, 0, 0, 0x81, 0x40, 0]",[q("status",1),q("feet",0)])
ok(A+":92-122","readThreatAltitude","[0, 0, 0, 0x20, 0x80, 0]",[q("status",1),q("feet",126700)])
A="acas/ra/resolution_advisory_test.go"
ok(A+":8-146","readResolutionAdvisory",hx("FE03F569A5F4"),["decide (m.activeRA = .oneThreat ⟨1, 1, true, true, true, 1⟩)",q("raComplement","⟨true, true, true, true⟩"),q("multipleThreatEncounter",1),q("threatTypeIndicator",1),q("threatIdentityAddress","some 0x005A697D")])
ok(A+":148-306","readResolutionAdvisory","[0x7E, 0x01, 0x78, 0x81, 0x55, 0xAA]",["decide (m.activeRA = .multiple ⟨true, true, true, true, true, true⟩)",q("raComplement","⟨false, true, false, true⟩"),q("multipleThreatEncounter",1),q("threatTypeIndicator",2),
 "decide (m.threatIdentityAltitude.map ThreatAltitude.feet = some 0)","decide (m.threatIdentityRange.map getRange = some 8.5)","decide (m.threatIdentityBearing.map getBearing = some 249)"])
G="bitutils/gillham_test.go:7-36"
tests=[("00000000010",-1000),("00000001010",-500),("00000011010",0),("00000011110",100),("00000010011",600),("00000110010",1000),("00001001001",5800),("00011100100",10300),("01100011010",32000),("01110000100",46300),("10000000011",126600),("10000000001",126700)]
for s,a in tests:
    ex(G,"gillhamToAltitude false "+" ".join("true" if c=="1" else "false" for c in s)+f" = .ok {a if a>=0 else '(%d)'%a}")
ex("adsb/reader/reader_test.go:13-22","(match readADSBMessage 0 false false "+hx("00676000000000")+" with | .returns (.val (.noPosition ..)) false => true | _ => false) = true")
ex("adsb/reader/reader_test.go:24-33","(match readADSBMessage 0 false false "+hx("00A3C22B7776D7")+" with | .returns (.val (.airborneType0 ..)) false => true | _ => false) = true")
B="bds/"
ok(B+"bds00/no_message_available_test.go:9-24","readBDS00","00000000000000",["true"])
err(B+"bds00/no_message_available_test.go:27-31","readBDS00","000000000000")
err(B+"bds00/no_message_available_test.go:33-37","readBDS00","00000000000001")
for l,h,a in [("11-38","58C382D690C8AC",38000),("40-67","58C901375147EF",39000)]:
    ok(B+"bds05/airborne_position_test.go:"+l,"readBDS05",h,[q("altitudeSource",0),q("altitudeReportMethod",1),q("altitudeInFeet",a)])
def rng(f,a,b): return f"decide ({a} ≤ m.{f}) && decide (m.{f} ≤ {b})"
ok(B+"bds06/surface_position_test.go:10-41","readBDS06","3A9A153237AEF0",[q("movementStatus",41),q("movementSpeed",17),q("groundTrackStatus","true"),rng("groundTrack",92.7,92.9)])
def st(s): return "["+", ".join(str(ord(c)) for c in s)+"]"
ok(B+"bds08/aircraft_identification_and_category_test.go:11-34","readBDS08","11508673E19820",["m.coherent",q("category",".setC 1"),q("identification",st("THY38Y  "))])
ok(B+"bds08/aircraft_identification_and_category_test.go:36-51","readBDS08","11508673E1982F",["!m.coherent",q("identification",st("THY38Y #"))])
err(B+"bds08/aircraft_identification_and_category_test.go:54-58","readBDS08","11508673E198")
err(B+"bds08/aircraft_identification_and_category_test.go:60-64","readBDS08","F0508673E19820")
ok(B+"bds09/airborne_velocity_air_speed_normal_test.go:10-46","readAirSpeedNormal","9B06B6AF189400",[q("airspeedStatus",".regular"),q("airspeed",375),q("magneticHeadingStatus",1),rng("magneticHeading",243,244),q("verticalRate",-2304)])
ok(B+"bds09/airborne_velocity_ground_speed_normal_test.go:11-60 (speed and track: below)","readGroundSpeedNormal","99440994083817",[q("directionEastWest",1),q("velocityEW",8),q("directionNorthSouth",1),q("velocityNS",159),q("verticalRateStatus",".regular"),q("verticalRate",-832),q("heightDifferenceStatus",".regular"),q("heightDifference",550)])
ex(B+"bds09/airborne_velocity_test.go:11-30","(match readBDS09 "+hx("99440994083817")+" with | .ok (.groundSpeedNormal ..) => true | _ => false) = true")
ex(B+"bds09/airborne_velocity_test.go:32-51","(match readBDS09 "+hx("9B06B6AF189400")+" with | .ok (.airSpeedNormal ..) => true | _ => false) = true")
T="bds20/aircraft_identification_test.go:"
ok(B+T+"9-28","readBDS20","20508673E19820",["m.coherent",q("identification",st("THY38Y  "))])
ok(B+T+"30-45","readBDS20","20508673E1982F",["!m.coherent",q("identification",st("THY38Y #"))])
err(B+T+"48-52","readBDS20","20508673E198")
err(B+T+"54-58","readBDS20","30508673E19820")
T="bds40/selected_vertical_intention_test.go:"
ok(B+T+"11-74","readBDS40","85E42F313001E7",["m.coherent",q("fmsSelectedAltitudeAvailable","true"),q("fmsSelectedAltitude",3008),q("mcpfcuSelectedAltitudeAvailable","true"),q("mcpfcuSelectedAltitude",3008),q("barometricPressureSettingAvailable","true"),q("barometricPressureSetting",1020),q("statusOfModeBits",1),q("vnavMode","true"),q("altitudeHoldMode","true"),q("approachMode","true"),q("statusOfTargetAltitudeSource",1),q("targetAltitudeSource",3)])
ok(B+T+"76-86","readBDS40","00000000000000",["!m.coherent"])
err(B+T+"89-94 (`hex.DecodeString` of an odd number of digits returns the bytes before the last digit)","readBDS40","85E42F31300")
err(B+T+"96-101","readBDS40","85E42F31310000")
err(B+T+"103-108","readBDS40","85E42F31308000")
err(B+T+"110-115","readBDS40","85E42F31300010")
ex(B+"bds44/meteorological_routine_air_report_test.go:11-32","(match readBDS44 "+hx("18BBA9CDC00000")+" with | .returns (.val m) false => m.coherent && decide (m.getSource = 0) | _ => false) = true")
ok(B+"bds44/meteorological_routine_air_report_v1_test.go:10-26","readBDS44V1","08BBA9CDC00000",["m.coherent"])
ok(B+"bds44/meteorological_routine_air_report_v2_test.go:11-54","readBDS44V2","18BBA9CDC00000",["m.coherent",q("source",1),q("windSpeedStatus","true"),q("windSpeed",46),q("windDirectionStatus","true"),rng("windDirection",298,298.5),q("staticAirTemperatureStatus","true"),rng("staticAirTemperature",-50.5,-50)])
ok(B+"bds45/meteorological_hazard_report_v1_test.go:10-89","readBDS45V1","F2E4ECB6FD3C9C",["m.coherent",q("windShearStatus","true"),q("windShear",3),q("microBurstStatus","true"),q("microBurst",0),q("icingStatus","true"),q("icing",1),q("wakeVortexStatus","true"),q("wakeVortex",2),q("staticAirTemperatureStatus","false"),q("staticAirTemperature",-98.5),q("radioHeightStatus","true"),q("radioHeight",3518),q("turbulenceStatus","true"),q("turbulenceAverageEDR","f32 0.38"),q("turbulencePeakEDR",1),q("turbulencePeakDelayInterval",7)])
T="bds50/track_and_turn_report_test.go:"
ok(B+T+"10-65","readBDS50","81951536E024D4",["m.coherent",q("rollAngleStatus","true"),rng("rollAngle",2.05,2.15),q("trueTrackAngleStatus","true"),rng("trueTrackAngle",114.2,114.3),q("groundSpeedStatus","true"),q("groundSpeed",438),q("trackAngleRateStatus","true"),rng("trackAngleRate",0.1,0.2),q("trueAirSpeedStatus","true"),q("trueAirSpeed",424)])
ok(B+T+"67-90","readBDS50","FFD263377FFCE0",["m.coherent",q("rollAngleStatus","true"),rng("rollAngle",-0.36,-0.35)])
for l,h in [("93-101","00000000000000"),("103-112","BF951536E024D4"),("114-123","819515F6E024D4"),("125-134","81951536E027D4"),("136-145","81951536E02400")]:
    ok(B+T+l,"readBDS50",h,["!m.coherent"])
err(B+T+"148-152","readBDS50","85E42F31300")
T="bds60/heading_and_speed_report_test.go:"
ok(B+T+"9-64","readBDS60","8F39F91A7E27C4",["m.coherent",q("magneticHeadingStatus","true"),rng("magneticHeading",42.7,42.8),q("indicatedAirSpeedStatus","true"),q("indicatedAirSpeed",252),q("machStatus","true"),rng("mach",0.41,0.43),q("barometricAltitudeRateStatus","true"),q("barometricAltitudeRate",-1920),q("initialVerticalVelocityStatus","true"),q("initialVerticalVelocity",-1920)])
for l,h in [("67-76","00000000000000"),("78-87","8F3F011A7E27C4"),("89-98","8F39F9803E27C4"),("100-109","8F39F91A7007C4"),("111-120","8F39F91A7E2600")]:
    ok(B+T+l,"readBDS60",h,["!m.coherent"])
err(B+T+"123-127","readBDS60","8F39F91A7E27")
ok(B+"bds61/aircraft_status_emergency_test.go:11-30","readStatusEmergency","E1191D00000000",["(AircraftStatus.emergency m).coherent",q("emergencyPriorityStatus",0)])
ex(B+"bds62/target_state_and_status_test.go:11-30","(match readBDS62 "+hx("EA21485CBF3F8C")+" with | .ok (.type1 m) => decide (m.subtype = 1) | _ => false) = true")
ok(B+"bds62/target_state_and_status_type_1_test.go:11-86","readTargetStateAndStatus1","EA21485CBF3F8C",[q("subtype",1),q("sourceIntegrityLevelSupplement",0),q("selectedAltitudeType",0),q("selectedAltitudeStatus",".regular"),q("selectedAltitude",16992),q("barometricPressureSettingStatus",".regular"),rng("barometricPressureSetting",1012.7,1012.9),q("selectedHeadingStatus",1),rng("selectedHeading",66.7,66.9),q("autopilotEngaged","true"),q("vnavModeEngaged","true"),q("altitudeHoldModeEngaged","false"),q("approachModeEngaged","false"),q("tcasACASOperational","true"),q("lnavModeEngaged","true")])
ok(B+"bds65/aircraft_operational_status_airborne_adsb2_test.go:11-94","readOpStatusAirborneV2","F8230003004008",["decide (m.airborneCapabilityClass = ⟨1, 0, 1, 1, 0, 0⟩)","decide (m.operationalMode = ⟨0, 0, 0, 3⟩)",q("nicSupplementA",0),q("navigationalAccuracyCategoryPosition",0),q("geometricVerticalAccuracy",0),q("sourceIntegrityLevel",0),q("nicBaro",1),q("horizontalReferenceDirection",0),q("sourceIntegrityLevelSupplement",0)])
ok(B+"bds65/aircraft_operational_status_surface_adsb2_test.go:11-94","readOpStatusSurfaceV2","F9002102814A3C",["decide (m.surfaceCapabilityClass = ⟨0, 0, 0, 1, 0⟩)",q("lengthAndWidth",1),"decide (m.operationalMode.acasRAActive = 0 ∧ m.operationalMode.identSwitchActive = 0 ∧ m.operationalMode.singleAntennaFlag = 0 ∧ m.operationalMode.gpsAntennaLateral = 4 ∧ m.operationalMode.gpsAntennaLongitudinal = 1)",q("nicSupplementA",0),q("navigationalAccuracyCategoryPosition",10),q("sourceIntegrityLevel",3),q("trackAngleHeading",1),q("horizontalReferenceDirection",1),q("sourceIntegrityLevelSupplement",0)])
hdr='''import Verif.Model.CommB
import Verif.Model.ADSB
import Verif.Model.Accessors
/-!
# The unit tests of the repository, on the model

Generated by tools/gen_unit_tests.py. Each test of /repo/pkg that checks literal data, transcribed: what the Go test asserts of the code
holds of the model. These are tests of the *model*, against the only executions of the code that the repository records (the code cannot be run
here); they prove no property. Assertions that a text is not empty, on registers' constants and on `nil` coherency of messages that have no check
are left out; the tests of pkg/geo are in Props/UnitTestsGeo.
-/
namespace Modes.UnitTests

/-- The reader succeeds and the message satisfies the assertions. -/
def Passes {α : Type} (r : Go α) (p : α → Bool) : Bool :=
  match r with
  | .ok a => p a
  | .error _ => false

/-- The reader returns an error (not a panic). -/
def _root_.Except.isError {α : Type} : Go α → Bool
  | .error .err => true
  | _ => false

'''
open(os.path.join(os.path.dirname(__file__),"..","lean/Verif/Props/UnitTests.lean"),"w").write(hdr+"\n".join(out)+"\nend Modes.UnitTests\n")
