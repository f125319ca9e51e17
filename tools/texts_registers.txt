import Verif.Model.TextModeS
import Verif.Model.ADSB
import Verif.Model.CommB
import Verif.Model.VelocityFloat
/-!
# Texts of the registers and of the resolution advisories

Written by tools/gen_texts_messages.py: the lines of each `fmt.Sprintf` are copied from the source, the values by the types of the
fields. `%v` prints numbers in decimal, flags as true/false, and floating point numbers by a function that is a parameter
(`FloatTexts`).
-/
namespace Modes

/-- How Go computes and prints floating point numbers (a parameter of the texts; `goFloats` in Model/FloatText is how Go does it): the texts of the
`float32` and of the `float64` (other than minus zero), of the `float32` given as a real number (the computed track) and of minus zero, and the
library's `math.Atan2`, as a function of the signs and magnitudes of its arguments. -/
structure FloatTexts where
  float32 : ℚ → Txt
  float64 : ℚ → Txt
  degrees : ℝ → Txt
  minusZero : Txt
  atan2 : Bool → Bool → ℕ → ℕ → ℝ

/-- The text of a `float32` given with its sign. -/
def FloatTexts.signed (F : FloatTexts) (minus : Bool) (x : ℚ) : Txt := if minus = true ∧ x = 0 then F.minusZero else F.float32 x

/-- `register.Register`, pkg/bds/register/register_reference.go:10-13. -/
structure Register where
  id : Txt
  description : Txt

--INSERT registers()
/-- `Register.ToString`, pkg/bds/register/register_reference.go:26-29. -/
def registerText (r : Register) : Txt := r.id ++ t! " - " ++ r.description

/-- `%v` of a string; the strings of the code are made of ASCII characters, modelled as bytes. -/
def asciiText (s : List UInt8) : Txt := s.map fun b => Char.ofNat b.toNat

/-- The lines of a text indented by `common.PrefixMultiLine(text, "    ")`, pkg/common/printable.go:19-30 (see `prefix_linesText` in
Props/TextRegisters). -/
def nest (l : List (Txt × Txt)) : List (Txt × Txt) := l.map fun x => (t! "    " ++ x.1, x.2)

/-- A text of several lines printed after a label. -/
def labelled (label : Txt) : List (Txt × Txt) → List (Txt × Txt)
  | [] => [(label, t! "")]
  | (l, v) :: r => (label ++ l, v) :: r

/-- The constants of `NumericValueStatus`, pkg/bds/bds09/fields/numeric_value_status.go:8-15 and
pkg/bds/bds62/fields/numeric_value_status.go:8-15. -/
def NumericValueStatus.code : NumericValueStatus → UInt8
  | .noInformation => 0
  | .regular => 1
  | .maximum => 2

/-- `NumericValueStatus.ToString` of register 0,9, pkg/bds/bds09/fields/numeric_value_status.go. -/
def NumericValueStatus.text (s : NumericValueStatus) : Txt := Text.bds09NumericValueStatus s.code

/-! ### Resolution advisories -/

/-- `ActiveRASense.ToString`, pkg/acas/ra/fields/active_resolution_advisory_one_or_same_separation.go:121-130: the `switch` is on
the constant `ActiveRASenseUpward`, not on the value. -/
def activeRASenseText (_sense : Nat) : Txt := t! "Upward"

/-- `ActiveRAOneThreatOrSameSeparation.ToString`, pkg/acas/ra/fields/active_resolution_advisory_one_or_same_separation.go:23-37. -/
def OneThreat.lines (m : OneThreat) : List (Txt × Txt) := [
    (t! "Type: One threat or multiple threats with separation in same direction", t! ""),
    (t! "Preventive/Corrective: ", Text.acasActiveRAPreventiveCorrective (UInt8.ofNat m.preventiveCorrective)),
    (t! "Sense generated: ", activeRASenseText m.sense),
    (t! "Is increased rate: ", boolText m.isIncreasedRate),
    (t! "Is sense reversal: ", boolText m.isSenseReversal),
    (t! "Is altitude crossing: ", boolText m.isAltitudeCrossing),
    (t! "Vertical Speed Limit/Positive: ", Text.acasActiveRAVerticalSpeedLimitOrPositive (UInt8.ofNat m.verticalSpeedLimitOrPositive))]

/-- `ActiveRAMultipleThreatsDifferentSeparation.ToString`,
pkg/acas/ra/fields/active_resolution_advisory_multiple_threats.go:23-37. -/
def MultipleThreats.lines (m : MultipleThreats) : List (Txt × Txt) := [
    (t! "Type: Multiple threats with separation in different directions", t! ""),
    (t! "Require a correction in the upward sense: ", boolText m.requiresCorrectionUpwardSense),
    (t! "Requires a positive climb: ", boolText m.requiresPositiveClimb),
    (t! "Requires a correction in the downward sense: ", boolText m.requiresCorrectionDownwardSense),
    (t! "Requires a positive descend: ", boolText m.requiresPositiveDescend),
    (t! "Requires a crossing: ", boolText m.requiresCrossing),
    (t! "Is a sense reversal: ", boolText m.isSenseReversal)]

/-- `ToString` of the active resolution advisory; `ActiveRANoVerticalRAGenerated.ToString`,
pkg/acas/ra/fields/active_resolution_advisory_no.go:14-16. -/
def ActiveRA.lines : ActiveRA → List (Txt × Txt)
  | .oneThreat m => m.lines
  | .multiple m => m.lines
  | .none => [(t! "Type: no Resolution Advisory has been generated", t! "")]

/-- `RAComplement.ToString`, pkg/acas/ra/fields/resolution_advisory_complement.go:18-27. -/
def RAComplement.lines (m : RAComplement) : List (Txt × Txt) := [
    (t! "Do not pass below: ", boolText m.doNotPassBelow),
    (t! "Do not pass above: ", boolText m.doNotPassAbove),
    (t! "Do not turn left:  ", boolText m.doNotTurnLeft),
    (t! "Do not turn right: ", boolText m.doNotTurnRight)]

/-- `ThreatIdentityAltitude.ToString`, pkg/acas/ra/fields/threat_identity_altitude.go:87-89. -/
def ThreatAltitude.text (a : ThreatAltitude) : Txt :=
  decInt a.feet ++ t! " ft / Status: " ++ Text.acasAltitudeStatus a.status

/-- `ThreatIdentityRange.ToString`, pkg/acas/ra/fields/threat_identity_range.go:12-24. -/
def threatRangeText (F : FloatTexts) (r : UInt8) : Txt :=
  if r = 0 then t! " 0 - No range estimate available"
  else if r = 1 then t! " 1 - Less than 0.05"
  else if 2 ≤ r ∧ r ≤ 126 then dec r.toNat ++ t! " - " ++ F.float64 (getRange r) ++ t! " +/- 0.05 NM"
  else if r = 127 then t! "Greater than 12.55"
  else dec r.toNat ++ t! " - Unknown code"

/-- `ThreatIdentityBearing.ToString`, pkg/acas/ra/fields/threat_identity_bearing.go:12-23; the products are of bytes. -/
def threatBearingText (b : UInt8) : Txt :=
  if b = 0 then t! " 0 - No bearing estimate available"
  else if 1 ≤ b ∧ b ≤ 60 then dec b.toNat ++ t! " - between " ++ dec ((b - 1) * 6).toNat ++ t! " and " ++ dec (b * 6).toNat
  else if 61 ≤ b ∧ b ≤ 63 then dec b.toNat ++ t! " - Not assigned"
  else dec b.toNat ++ t! " - Unknown code"

/-- The last lines of `ResolutionAdvisory.ToString`, pkg/acas/ra/resolution_advisory.go:28-52. Threat types: 0 no identity, 1 Mode S
address, 2 altitude, range and bearing. -/
def ResolutionAdvisory.threatLines (F : FloatTexts) (m : ResolutionAdvisory) : List (Txt × Txt) :=
  if m.threatTypeIndicator = 0 then []
  else if m.threatTypeIndicator = 1 then
    match m.threatIdentityAddress with
    | some a => [(t! "Threat Mode-S Identity:                          ", icaoAddressText a)]
    | none => [(t! "Threat Mode-S Identity:                          [Error: Missing Mod-S Address]", t! "")]
  else if m.threatTypeIndicator = 2 then
    (match m.threatIdentityAltitude with
      | some a => [(t! "Threat Altitude:                                 ", a.text)]
      | none => [(t! "Threat Altitude:                                 [Error: Missing Threat Altitude]", t! "")]) ++
    (match m.threatIdentityRange with
      | some r => [(t! "Threat Range:                                    ", threatRangeText F r)]
      | none => [(t! "Threat Range:                                   [Error: Missing Threat Range]", t! "")]) ++
    (match m.threatIdentityBearing with
      | some b => [(t! "Threat Bearing:                                  ", threatBearingText b)]
      | none => [(t! "Threat Bearing:                                 [Error: Missing Threat Bearing]", t! "")])
  else []

/-- `ResolutionAdvisory.ToString`, pkg/acas/ra/resolution_advisory.go:26-67. -/
def ResolutionAdvisory.lines (F : FloatTexts) (m : ResolutionAdvisory) : List (Txt × Txt) :=
    [(t! "Active Resolution Advisory:", t! "")] ++
    nest m.activeRA.lines ++
    [(t! "Active Resolution Advisory Complement:", t! "")] ++
    nest m.raComplement.lines ++
    [(t! "Active Resolution Advisory Terminated Indicator: ", Text.acasRATerminatedIndicator (UInt8.ofNat m.raTerminatedIndicator)),
    (t! "Multiple Threat Encounter:                       ", Text.acasMultipleThreatEncounter m.multipleThreatEncounter),
    (t! "Threat Type Indicator:                           ", Text.acasThreatTypeIndicator (UInt8.ofNat m.threatTypeIndicator))] ++
    m.threatLines F

/-! ### Registers of ADS-B -/

--INSERT emit(B+'bds05/airborne_position.go','AirbornePosition','AirbornePosition')

--INSERT emit(B+'bds06/surface_position.go','SurfacePosition','SurfacePosition')

/-- `ToString` of the category, pkg/bds/bds08/fields/aircraft_category_set_a.go:35-57 and the files of the sets B, C and D. -/
def AircraftCategory.text : AircraftCategory → Txt
  | .setA c => Text.bds08AircraftCategorySetA c
  | .setB c => Text.bds08AircraftCategorySetB c
  | .setC c => Text.bds08AircraftCategorySetC c
  | .setD c => Text.bds08AircraftCategorySetD c

--INSERT emit(B+'bds08/aircraft_identification_and_category.go','AircraftIdentificationAndCategory','IdentificationAndCategory',ov={'Category':'=m.category.text'})

/-- `NavigationUncertaintyCategory.ToString`, pkg/bds/bds09/fields/navigation_uncertainty_category.go:27-52 (the labels of lines
22-23). -/
def navigationUncertaintyText : UInt8 → Txt := tableText [
  (0, t! "0 - Unknown "),
--INSERT nuc()

/-- `toSpeedString`, pkg/bds/bds09/airborne_velocity_ground_speed_normal.go:146-153 and
airborne_velocity_ground_speed_supersonic.go:146-153; the error is that of the first component that is not regular (129-137). -/
noncomputable def GroundSpeedVelocity.speedText (m : GroundSpeedVelocity) : Txt :=
  match m.getSpeed with
  | some s => dec s ++ t! " (knots)"
  | none => t! "not computable: " ++
    (if m.velocityEWStatus ≠ .regular then t! "velocity EW is not regular" else t! "velocity NS is not regular")

/-- The computed track is minus zero: `math.Atan2` of minus zero and a number with a plus sign is minus zero, and the steps after it keep it
(pkg/bds/bds09/airborne_velocity_ground_speed_normal.go:164-181, airborne_velocity_ground_speed_supersonic.go:164-181). -/
def GroundSpeedVelocity.trackMinusZero (m : GroundSpeedVelocity) : Bool :=
  m.directionEastWest == 1 && m.velocityEW == 0 && m.directionNorthSouth != 1

/-- `toTrackString`, pkg/bds/bds09/airborne_velocity_ground_speed_normal.go:184-191 and
airborne_velocity_ground_speed_supersonic.go:184-191. -/
noncomputable def GroundSpeedVelocity.trackText (F : FloatTexts) (m : GroundSpeedVelocity) : Txt :=
  match m.getTrackF F.atan2 with
  | some d => (if m.trackMinusZero then F.minusZero else F.degrees d) ++ t! " (degrees)"
  | none => t! "not computable: " ++
    (if m.velocityEWStatus ≠ .regular then t! "velocity EW is not regular" else t! "velocity NS is not regular")

--INSERT gs()

--INSERT air()

/-- `ToString` of each kind of velocity message. -/
noncomputable def AirborneVelocity.lines (F : FloatTexts) : AirborneVelocity → List (Txt × Txt)
  | .groundSpeedNormal m => m.lines F
  | .groundSpeedSupersonic m => m.lines F
  | .airSpeedNormal m => m.lines F
  | .airSpeedSupersonic m => m.lines F

--INSERT emit(B+'bds61/aircraft_status_no_information.go','AircraftStatusNoInformation','StatusNoInformation')

--INSERT emit(B+'bds61/aircraft_status_emergency.go','AircraftStatusEmergency','StatusEmergency')

--INSERT emit(B+'bds61/aircraft_status_acas.go','AircraftStatusACAS','StatusACAS',ov={'ResolutionAdvisory':'=LINES m.resolutionAdvisory.lines F'})

/-- `ToString` of each kind of status message. -/
def AircraftStatus.lines (F : FloatTexts) : AircraftStatus → List (Txt × Txt)
  | .noInformation m => m.lines
  | .emergency m => m.lines
  | .acas m => m.lines F

/-- `SurveillanceIntegrityLevel.ToString`, pkg/bds/bds62/fields/surveillance_integrity_level.go:33-55 (labels: lines 29-30). -/
def sil62Lines (level : UInt8) : List (Txt × Txt) :=
--INSERT sil('62')

--INSERT emit(B+'bds62/target_state_and_status_type_0.go','TargetStateAndStatus0','TargetStateAndStatus0',ov={'SurveillanceIntegrityLevel':'=LINES sil62Lines m.surveillanceIntegrityLevel'})

--INSERT emit(B+'bds62/target_state_and_status_type_1.go','TargetStateAndStatus1','TargetStateAndStatus1',ov={'SelectedHeading':'=F.signed m.selectedHeadingMinus m.selectedHeading','TCASACASOperational':'tcasACASOperational'})

/-- `ToString` of each kind of target state message. -/
def TargetStateAndStatus.lines (F : FloatTexts) : TargetStateAndStatus → List (Txt × Txt)
  | .type0 m => m.lines
  | .type1 m => m.lines F

/-! ### Operational status -/

/-- `SurveillanceIntegrityLevel.ToString`, pkg/bds/bds65/fields/surveillance_integrity_level.go:33-55 (labels: lines 28-29). -/
def silLines (level : UInt8) : List (Txt × Txt) :=
--INSERT sil()

/-- `GPSAntennaLongitudinal.ToString`, pkg/bds/bds65/fields/gps_antenna_longitudinal.go:85-103; the product is of bytes. -/
def gpsAntennaLongitudinalText (d : UInt8) : Txt :=
  if d = 0 then t! "0 - no data"
  else if d = 1 then t! "1 - Antenna Offset is compensated by the Sensor"
  else if 2 ≤ d ∧ d ≤ 31 then dec d.toNat ++ t! " - " ++ dec (d * 2 - 2).toNat
  else dec d.toNat ++ t! " - Unknown code"

/-- `GPSAntenna.ToString`, pkg/bds/bds65/fields/gps_antenna.go:14-20. -/
def SurfaceOperationalMode.gpsLines (m : SurfaceOperationalMode) : List (Txt × Txt) := [
    (t! "Lateral Axis GPS Antenna:      ", Text.bds65GPSAntennaLateral m.gpsAntennaLateral),
    (t! "Longitudinal Axis GPS Antenna: ", gpsAntennaLongitudinalText m.gpsAntennaLongitudinal)]

/-- `VersionNumber.ToString`, pkg/bds/bds65/fields/version_number.go:20-31. -/
def versionNumberText : UInt8 → Txt := tableText [
  (0, t! "0 - ADSB V0: Conformant to Doc 9871, Appendix A"),
  (1, t! "1 - ADSB V1: Conformant to Doc 9871, Appendix B"),
  (2, t! "2 - ADSB V2: Conformant to Doc 9871, Appendix C")] (t! "")

--INSERT emit(F65+'airborne_capability_class_v1.go','AirborneCapabilityClassV1','AirborneCapabilityClassV1')

--INSERT emit(F65+'airborne_capability_class_v2.go','AirborneCapabilityClassV2','AirborneCapabilityClassV2',ov=UAT)

--INSERT emit(F65+'surface_capability_class_v1.go','SurfaceCapabilityClassV1','SurfaceCapabilityClassV1')

--INSERT emit(F65+'surface_capability_class_v2.go','SurfaceCapabilityClassV2','SurfaceCapabilityClassV2',ov=dict(UAT,NavigationAccuracyCategoryVelocity='=dec m.navigationAccuracyCategoryVelocity.toNat'))

--INSERT emit(F65+'operational_mode.go','OperationalMode','OperationalMode',ov=RA)

--INSERT emit(F65+'airborne_operational_mode.go','AirborneOperationalMode','AirborneOperationalMode',ov=RA)

--INSERT emit(F65+'surface_operational_mode.go','SurfaceOperationalMode','SurfaceOperationalMode',ov=RA,nest={'GPSAntenna':'nest m.gpsLines'})

--INSERT emit(B+'bds65/aircraft_operational_status_adsb0.go','AircraftOperationalStatusADSB0','OpStatusV0')

--INSERT emit(B+'bds65/aircraft_operational_status_airborne_adsb1.go','AircraftOperationalStatusAirborneADSB1','OpStatusAirborneV1',ov=VN,nest=NEST65)

--INSERT emit(B+'bds65/aircraft_operational_status_airborne_adsb2.go','AircraftOperationalStatusAirborneADSB2','OpStatusAirborneV2',ov=VN,nest=NEST65)

--INSERT emit(B+'bds65/aircraft_operational_status_surface_adsb1.go','AircraftOperationalStatusSurfaceADSB1','OpStatusSurfaceV1',ov=VN,nest=NEST65)

--INSERT emit(B+'bds65/aircraft_operational_status_surface_adsb2.go','AircraftOperationalStatusSurfaceADSB2','OpStatusSurfaceV2',ov=VN,nest=NEST65)

/-- `ToString` of each kind of operational status message. -/
def OperationalStatus.lines : OperationalStatus → List (Txt × Txt)
  | .v0 m => m.lines
  | .airborneV1 m => m.lines
  | .airborneV2 m => m.lines
  | .surfaceV1 m => m.lines
  | .surfaceV2 m => m.lines

/-- `ToString` of the ADS-B messages: pkg/adsb/no_position_information/no_position_information.go:26-35,
airborne_position/airborne_position_type_0.go:28-34, airborne_position_v0.go:27-35, airborne_position_v1.go:28-38,
airborne_position_v2.go:29-41, surface_position/surface_position_v0.go:17-25, surface_position_v1.go:18-28,
surface_position_v2.go:19-31, and lines 24-28 of the five others, which print the register only. -/
noncomputable def ADSBMessage.lines (F : FloatTexts) : ADSBMessage → List (Txt × Txt)
  | .noPosition _ formatTypeCode altitudeBarometric nic => [
      (t! "Message:                           No Position Information", t! ""),
      (t! "Format Type Code:                  ", dec formatTypeCode.toNat),
      (t! "Altitude Baro (feet):              ", decInt altitudeBarometric),
      (t! "Navigation Integrity Category:     ", dec nic.toNat)]
  | .airborneType0 position nic _ => position.lines ++ [
      (t! "Navigation Integrity Category:     ", dec nic.toNat)]
  | .airborneV0 position horizontalProtectionLimit containmentRadius => position.lines ++ [
      (t! "Horizontal Protection Limit:       ", Text.airborneHorizontalProtectionLimit horizontalProtectionLimit),
      (t! "Containment Radius:                ", Text.airborneContainmentRadius containmentRadius)]
  | .airborneV1 position nicSupplementA hcr nic => position.lines ++ [
      (t! "Navigation Integrity Code A:       ", boolText nicSupplementA),
      (t! "Horizontal Containment Radius:     ", Text.airborneHorizontalContainmentRadiusV1 hcr),
      (t! "Navigation Integrity Category:     ", dec nic.toNat)]
  | .airborneV2 position nicSupplementA nicSupplementB hcr nic => position.lines ++ [
      (t! "Navigation Integrity Code A:       ", boolText nicSupplementA),
      (t! "Navigation Integrity Code B:       ", Text.airborneNavigationIntegrityCodeSupplementB nicSupplementB),
      (t! "Horizontal Containment Radius:     ", Text.airborneHorizontalContainmentRadiusV2 hcr),
      (t! "Navigation Integrity Category:     ", dec nic.toNat)]
  | .surfaceV0 position horizontalProtectionLimit containmentRadius => position.lines F ++ [
      (t! "Horizontal Protection Limit:       ", Text.surfaceHorizontalProtectionLimit horizontalProtectionLimit),
      (t! "Containment Radius:                ", Text.surfaceContainmentRadius containmentRadius)]
  | .surfaceV1 position nicSupplementA hcr nic => position.lines F ++ [
      (t! "Navigation Integrity Code A:       ", boolText nicSupplementA),
      (t! "Horizontal Containment Limit:      ", Text.surfaceHorizontalContainmentRadiusV1 hcr),
      (t! "Navigation Integrity Category:     ", dec nic.toNat)]
  | .surfaceV2 position nicSupplementA nicSupplementC hcr nic => position.lines F ++ [
      (t! "Navigation Integrity Code A:       ", boolText nicSupplementA),
      (t! "Navigation Integrity Code C:       ", boolText nicSupplementC),
      (t! "Horizontal Containment Limit:      ", Text.surfaceHorizontalContainmentRadiusV2 hcr),
      (t! "Navigation Integrity Category:     ", dec nic.toNat)]
  | .velocity m _ => m.lines F
  | .identification m _ => m.lines
  | .status m _ => m.lines F
  | .targetState m _ => m.lines F
  | .operationalStatus m _ => m.lines

/-- `ToString` of an ADS-B message. -/
noncomputable def ADSBMessage.text (F : FloatTexts) (m : ADSBMessage) : Txt := linesText (m.lines F)

/-! ### Registers of Comm-B -/

--INSERT emit(B+'bds00/no_message_available.go','NoMessageAvailable','NoMessageAvailable')

--INSERT emit(B+'bds07/status.go','Status','Status07')

/-- `DTESubAddressStatuses.ToString`, pkg/bds/bds10/fields/dte_sub_address_statuses.go:15-25: the sixteen bits, most significant
first, with commas. -/
def dteText (dss : UInt16) : Txt :=
  (t! ", ").intercalate ((List.range 16).map fun i => dec ((dss >>> UInt16.ofNat (15 - i)) &&& 0x01).toNat)

--INSERT emit(B+'bds10/data_link_capability_report.go','DataLinkCapabilityReport','DataLinkCapabilityReport',ov={'DTESubAddressStatuses':'=dteText m.dteSubAddressStatuses'})

--INSERT emit(B+'bds17/common_usage_gicb_capability_report.go','CommonUsageGICBCapabilityReport','GICBCapabilityReport')

--INSERT emit(B+'bds20/aircraft_identification.go','AircraftIdentification','AircraftIdentification')

--INSERT emit(B+'bds30/acas_resolution_advisory.go','ACASResolutionAdvisory','ACASResolutionAdvisory',ov={'ResolutionAdvisory':'=LINES m.resolutionAdvisory.lines F'})

--INSERT emit(B+'bds40/selected_vertical_intention.go','SelectedVerticalIntention','SelectedVerticalIntention')

--INSERT emit(B+'bds44/meteorological_routine_air_report_v0.go','MeteorologicalRoutineAirReportV0','RoutineAirReportV0')

--INSERT emit(B+'bds44/meteorological_routine_air_report_v1.go','MeteorologicalRoutineAirReportV1','RoutineAirReportV1')

--INSERT emit(B+'bds44/meteorological_routine_air_report_v2.go','MeteorologicalRoutineAirReportV2','RoutineAirReportV2')

--INSERT emit(B+'bds45/meteorological_hazard_report_v0.go','MeteorologicalHazardReportV0','HazardReportV0')

--INSERT emit(B+'bds45/meteorological_hazard_report_v1.go','MeteorologicalHazardReportV1','HazardReportV1')

--INSERT emit(B+'bds50/track_and_turn_report.go','TrackAndTurnReport','TrackAndTurnReport')

--INSERT emit(B+'bds60/heading_and_speed_report.go','HeadingAndTrackReport','HeadingAndTrackReport')

/-- `ToString` of each kind of routine air report. -/
def RoutineAirReport.lines (F : FloatTexts) : RoutineAirReport → List (Txt × Txt)
  | .v0 m => m.lines F
  | .v1 m => m.lines F
  | .v2 m => m.lines F

/-- `ToString` of each kind of hazard report. -/
def HazardReport.lines (F : FloatTexts) : HazardReport → List (Txt × Txt)
  | .v0 m => m.lines F
  | .v1 m => m.lines F

/-- `ToString` of the Comm-B messages, through the interface. -/
def CommBMessage.lines (F : FloatTexts) : CommBMessage → List (Txt × Txt)
  | .bds00 m => m.lines
  | .bds07 m => m.lines
  | .bds20 m => m.lines
  | .bds10 m => m.lines
  | .bds17 m => m.lines
  | .bds30 m => m.lines F
  | .bds40 m => m.lines F
  | .bds44 m => m.lines F
  | .bds45 m => m.lines F
  | .bds50 m => m.lines F
  | .bds60 m => m.lines F

/-- `ToString` of a Comm-B message. -/
def CommBMessage.text (F : FloatTexts) (m : CommBMessage) : Txt := linesText (m.lines F)

end Modes
