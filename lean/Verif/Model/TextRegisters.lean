import Verif.Model.TextModeS
import Verif.Model.ADSB
import Verif.Model.CommB
import Verif.Model.VelocityFloat
/-!
# Texts of the registers and of the resolution advisories

Written by tools/gen_texts_messages.py: the lines of each `fmt.Sprintf` are copied from the source, the values by the types of the
fields. `%v` prints numbers in decimal, flags as true/false, and floating point numbers by a function that is a parameter
(`FloatTexts`).
-/
namespace Modes

/-- How Go computes and prints floating point numbers (a parameter of the texts; `goFloats` in Model/FloatText is how Go does it): the texts of the
`float32` and of the `float64` (other than minus zero), of the `float32` given as a real number (the computed track) and of minus zero, and the
library's `math.Atan2`, as a function of the signs and magnitudes of its arguments. -/
structure FloatTexts where
  float32 : ℚ → Txt
  float64 : ℚ → Txt
  degrees : ℝ → Txt
  minusZero : Txt
  atan2 : Bool → Bool → ℕ → ℕ → ℝ

/-- The text of a `float32` given with its sign. -/
def FloatTexts.signed (F : FloatTexts) (minus : Bool) (x : ℚ) : Txt := if minus = true ∧ x = 0 then F.minusZero else F.float32 x

/-- `register.Register`, pkg/bds/register/register_reference.go:10-13. -/
structure Register where
  id : Txt
  description : Txt

/-- `register.BDS00`, pkg/bds/register/register_reference.go:38-41. -/
def Register.bds00 : Register := ⟨t! "BDS 0,0", t! "No message waiting for transmission"⟩
/-- `register.BDS05`, pkg/bds/register/register_reference.go:44-47. -/
def Register.bds05 : Register := ⟨t! "BDS 0,5", t! "Extended squitter airborne position"⟩
/-- `register.BDS06`, pkg/bds/register/register_reference.go:50-53. -/
def Register.bds06 : Register := ⟨t! "BDS 0,6", t! "Extended squitter surface position"⟩
/-- `register.BDS07`, pkg/bds/register/register_reference.go:56-59. -/
def Register.bds07 : Register := ⟨t! "BDS 0,7", t! " Extended squitter status"⟩
/-- `register.BDS08`, pkg/bds/register/register_reference.go:62-65. -/
def Register.bds08 : Register := ⟨t! "BDS 0,8", t! "Extended squitter aircraft identification and category"⟩
/-- `register.BDS09`, pkg/bds/register/register_reference.go:68-71. -/
def Register.bds09 : Register := ⟨t! "BDS 0,9", t! "Extended squitter airborne velocity"⟩
/-- `register.BDS10`, pkg/bds/register/register_reference.go:74-77. -/
def Register.bds10 : Register := ⟨t! "BDS 1,0", t! "Data link capability report"⟩
/-- `register.BDS17`, pkg/bds/register/register_reference.go:80-83. -/
def Register.bds17 : Register := ⟨t! "BDS 1,7", t! "Common usage GICB capability report"⟩
/-- `register.BDS20`, pkg/bds/register/register_reference.go:86-89. -/
def Register.bds20 : Register := ⟨t! "BDS 2,0", t! "Aircraft identification"⟩
/-- `register.BDS30`, pkg/bds/register/register_reference.go:92-95. -/
def Register.bds30 : Register := ⟨t! "BDS 3,0", t! "ACAS active resolution advisory"⟩
/-- `register.BDS40`, pkg/bds/register/register_reference.go:98-101. -/
def Register.bds40 : Register := ⟨t! "BDS 4,0", t! "Selected vertical intention"⟩
/-- `register.BDS44`, pkg/bds/register/register_reference.go:104-107. -/
def Register.bds44 : Register := ⟨t! "BDS 4,4", t! "Meteorological routine air report"⟩
/-- `register.BDS45`, pkg/bds/register/register_reference.go:110-113. -/
def Register.bds45 : Register := ⟨t! "BDS 4,5", t! "Meteorological hazard report"⟩
/-- `register.BDS50`, pkg/bds/register/register_reference.go:116-119. -/
def Register.bds50 : Register := ⟨t! "BDS 5,0", t! "Track and turn report"⟩
/-- `register.BDS60`, pkg/bds/register/register_reference.go:122-125. -/
def Register.bds60 : Register := ⟨t! "BDS 6,0", t! "Heading and speed report"⟩
/-- `register.BDS61`, pkg/bds/register/register_reference.go:128-131. -/
def Register.bds61 : Register := ⟨t! "BDS 6,1", t! "Extended squitter emergency/priority status"⟩
/-- `register.BDS62`, pkg/bds/register/register_reference.go:134-137. -/
def Register.bds62 : Register := ⟨t! "BDS 6,2", t! "Target state and status information"⟩
/-- `register.BDS65`, pkg/bds/register/register_reference.go:140-143. -/
def Register.bds65 : Register := ⟨t! "BDS 6,5", t! "Extended squitter aircraft operational status"⟩

/-- `Register.ToString`, pkg/bds/register/register_reference.go:26-29. -/
def registerText (r : Register) : Txt := r.id ++ t! " - " ++ r.description

/-- `%v` of a string; the strings of the code are made of ASCII characters, modelled as bytes. -/
def asciiText (s : List UInt8) : Txt := s.map fun b => Char.ofNat b.toNat

/-- The lines of a text indented by `common.PrefixMultiLine(text, "    ")`, pkg/common/printable.go:19-30 (see `prefix_linesText` in
Props/TextRegisters). -/
def nest (l : List (Txt × Txt)) : List (Txt × Txt) := l.map fun x => (t! "    " ++ x.1, x.2)

/-- A text of several lines printed after a label. -/
def labelled (label : Txt) : List (Txt × Txt) → List (Txt × Txt)
  | [] => [(label, t! "")]
  | (l, v) :: r => (label ++ l, v) :: r

/-- The constants of `NumericValueStatus`, pkg/bds/bds09/fields/numeric_value_status.go:8-15 and
pkg/bds/bds62/fields/numeric_value_status.go:8-15. -/
def NumericValueStatus.code : NumericValueStatus → UInt8
  | .noInformation => 0
  | .regular => 1
  | .maximum => 2

/-- `NumericValueStatus.ToString` of register 0,9, pkg/bds/bds09/fields/numeric_value_status.go. -/
def NumericValueStatus.text (s : NumericValueStatus) : Txt := Text.bds09NumericValueStatus s.code

/-! ### Resolution advisories -/

/-- `ActiveRASense.ToString`, pkg/acas/ra/fields/active_resolution_advisory_one_or_same_separation.go:121-130: the `switch` is on
the constant `ActiveRASenseUpward`, not on the value. -/
def activeRASenseText (_sense : Nat) : Txt := t! "Upward"

/-- `ActiveRAOneThreatOrSameSeparation.ToString`, pkg/acas/ra/fields/active_resolution_advisory_one_or_same_separation.go:23-37. -/
def OneThreat.lines (m : OneThreat) : List (Txt × Txt) := [
    (t! "Type: One threat or multiple threats with separation in same direction", t! ""),
    (t! "Preventive/Corrective: ", Text.acasActiveRAPreventiveCorrective (UInt8.ofNat m.preventiveCorrective)),
    (t! "Sense generated: ", activeRASenseText m.sense),
    (t! "Is increased rate: ", boolText m.isIncreasedRate),
    (t! "Is sense reversal: ", boolText m.isSenseReversal),
    (t! "Is altitude crossing: ", boolText m.isAltitudeCrossing),
    (t! "Vertical Speed Limit/Positive: ", Text.acasActiveRAVerticalSpeedLimitOrPositive (UInt8.ofNat m.verticalSpeedLimitOrPositive))]

/-- `ActiveRAMultipleThreatsDifferentSeparation.ToString`,
pkg/acas/ra/fields/active_resolution_advisory_multiple_threats.go:23-37. -/
def MultipleThreats.lines (m : MultipleThreats) : List (Txt × Txt) := [
    (t! "Type: Multiple threats with separation in different directions", t! ""),
    (t! "Require a correction in the upward sense: ", boolText m.requiresCorrectionUpwardSense),
    (t! "Requires a positive climb: ", boolText m.requiresPositiveClimb),
    (t! "Requires a correction in the downward sense: ", boolText m.requiresCorrectionDownwardSense),
    (t! "Requires a positive descend: ", boolText m.requiresPositiveDescend),
    (t! "Requires a crossing: ", boolText m.requiresCrossing),
    (t! "Is a sense reversal: ", boolText m.isSenseReversal)]

/-- `ToString` of the active resolution advisory; `ActiveRANoVerticalRAGenerated.ToString`,
pkg/acas/ra/fields/active_resolution_advisory_no.go:14-16. -/
def ActiveRA.lines : ActiveRA → List (Txt × Txt)
  | .oneThreat m => m.lines
  | .multiple m => m.lines
  | .none => [(t! "Type: no Resolution Advisory has been generated", t! "")]

/-- `RAComplement.ToString`, pkg/acas/ra/fields/resolution_advisory_complement.go:18-27. -/
def RAComplement.lines (m : RAComplement) : List (Txt × Txt) := [
    (t! "Do not pass below: ", boolText m.doNotPassBelow),
    (t! "Do not pass above: ", boolText m.doNotPassAbove),
    (t! "Do not turn left:  ", boolText m.doNotTurnLeft),
    (t! "Do not turn right: ", boolText m.doNotTurnRight)]

/-- `ThreatIdentityAltitude.ToString`, pkg/acas/ra/fields/threat_identity_altitude.go:87-89. -/
def ThreatAltitude.text (a : ThreatAltitude) : Txt :=
  decInt a.feet ++ t! " ft / Status: " ++ Text.acasAltitudeStatus a.status

/-- `ThreatIdentityRange.ToString`, pkg/acas/ra/fields/threat_identity_range.go:12-24. -/
def threatRangeText (F : FloatTexts) (r : UInt8) : Txt :=
  if r = 0 then t! " 0 - No range estimate available"
  else if r = 1 then t! " 1 - Less than 0.05"
  else if 2 ≤ r ∧ r ≤ 126 then dec r.toNat ++ t! " - " ++ F.float64 (getRange r) ++ t! " +/- 0.05 NM"
  else if r = 127 then t! "Greater than 12.55"
  else dec r.toNat ++ t! " - Unknown code"

/-- `ThreatIdentityBearing.ToString`, pkg/acas/ra/fields/threat_identity_bearing.go:12-23; the products are of bytes. -/
def threatBearingText (b : UInt8) : Txt :=
  if b = 0 then t! " 0 - No bearing estimate available"
  else if 1 ≤ b ∧ b ≤ 60 then dec b.toNat ++ t! " - between " ++ dec ((b - 1) * 6).toNat ++ t! " and " ++ dec (b * 6).toNat
  else if 61 ≤ b ∧ b ≤ 63 then dec b.toNat ++ t! " - Not assigned"
  else dec b.toNat ++ t! " - Unknown code"

/-- The last lines of `ResolutionAdvisory.ToString`, pkg/acas/ra/resolution_advisory.go:28-52. Threat types: 0 no identity, 1 Mode S
address, 2 altitude, range and bearing. -/
def ResolutionAdvisory.threatLines (F : FloatTexts) (m : ResolutionAdvisory) : List (Txt × Txt) :=
  if m.threatTypeIndicator = 0 then []
  else if m.threatTypeIndicator = 1 then
    match m.threatIdentityAddress with
    | some a => [(t! "Threat Mode-S Identity:                          ", icaoAddressText a)]
    | none => [(t! "Threat Mode-S Identity:                          [Error: Missing Mod-S Address]", t! "")]
  else if m.threatTypeIndicator = 2 then
    (match m.threatIdentityAltitude with
      | some a => [(t! "Threat Altitude:                                 ", a.text)]
      | none => [(t! "Threat Altitude:                                 [Error: Missing Threat Altitude]", t! "")]) ++
    (match m.threatIdentityRange with
      | some r => [(t! "Threat Range:                                    ", threatRangeText F r)]
      | none => [(t! "Threat Range:                                   [Error: Missing Threat Range]", t! "")]) ++
    (match m.threatIdentityBearing with
      | some b => [(t! "Threat Bearing:                                  ", threatBearingText b)]
      | none => [(t! "Threat Bearing:                                 [Error: Missing Threat Bearing]", t! "")])
  else []

/-- `ResolutionAdvisory.ToString`, pkg/acas/ra/resolution_advisory.go:26-67. -/
def ResolutionAdvisory.lines (F : FloatTexts) (m : ResolutionAdvisory) : List (Txt × Txt) :=
    [(t! "Active Resolution Advisory:", t! "")] ++
    nest m.activeRA.lines ++
    [(t! "Active Resolution Advisory Complement:", t! "")] ++
    nest m.raComplement.lines ++
    [(t! "Active Resolution Advisory Terminated Indicator: ", Text.acasRATerminatedIndicator (UInt8.ofNat m.raTerminatedIndicator)),
    (t! "Multiple Threat Encounter:                       ", Text.acasMultipleThreatEncounter m.multipleThreatEncounter),
    (t! "Threat Type Indicator:                           ", Text.acasThreatTypeIndicator (UInt8.ofNat m.threatTypeIndicator))] ++
    m.threatLines F

/-! ### Registers of ADS-B -/

/-- `AirbornePosition.ToString`, pkg/bds/bds05/airborne_position.go:33-57. -/
def AirbornePosition.lines (m : AirbornePosition) : List (Txt × Txt) :=
    [(t! "Message:                           ", registerText Register.bds05),
    (t! "Format Type Code:                  ", dec m.formatTypeCode.toNat),
    (t! "Surveillance Status:               ", Text.bds05SurveillanceStatus m.surveillanceStatus),
    (t! "Single Antenna Flag:               ", Text.bds05SingleAntennaFlag m.singleAntennaFlag),
    (t! "Altitude Source:                   ", Text.bds05AltitudeSource (UInt8.ofNat m.altitudeSource)),
    (t! "Altitude Report Method:            ", Text.bds05AltitudeReportMethod (UInt8.ofNat m.altitudeReportMethod)),
    (t! "Altitude (feet):                   ", decInt m.altitudeInFeet),
    (t! "Time:                              ", Text.bds05Time m.time),
    (t! "Compact Position Reporting Format: ", Text.bds05CompactPositionReportingFormat m.cprFormat),
    (t! "Encoded Latitude:                  ", dec m.encodedLatitude.toNat),
    (t! "Encoded Longitude:                 ", dec m.encodedLongitude.toNat)]

/-- `SurfacePosition.ToString`, pkg/bds/bds06/surface_position.go:32-54. -/
def SurfacePosition.lines (F : FloatTexts) (m : SurfacePosition) : List (Txt × Txt) :=
    [(t! "Message:                           ", registerText Register.bds06),
    (t! "Format Type Code:                  ", dec m.formatTypeCode.toNat),
    (t! "Movement Status:                   ", Text.bds06MovementStatus (UInt8.ofNat m.movementStatus)),
    (t! "Movement Speed (knots):            ", F.float32 m.movementSpeed),
    (t! "Ground Track Status:               ", boolText m.groundTrackStatus),
    (t! "Ground Track (degrees):            ", F.float32 m.groundTrack),
    (t! "Time:                              ", Text.bds06Time m.time),
    (t! "Compact Position Reporting Format: ", Text.bds06CompactPositionReportingFormat m.cprFormat),
    (t! "Encoded Latitude:                  ", dec m.encodedLatitude.toNat),
    (t! "Encoded Longitude:                 ", dec m.encodedLongitude.toNat)]

/-- `ToString` of the category, pkg/bds/bds08/fields/aircraft_category_set_a.go:35-57 and the files of the sets B, C and D. -/
def AircraftCategory.text : AircraftCategory → Txt
  | .setA c => Text.bds08AircraftCategorySetA c
  | .setB c => Text.bds08AircraftCategorySetB c
  | .setC c => Text.bds08AircraftCategorySetC c
  | .setD c => Text.bds08AircraftCategorySetD c

/-- `AircraftIdentificationAndCategory.ToString`, pkg/bds/bds08/aircraft_identification_and_category.go:40-50. -/
def IdentificationAndCategory.lines (m : IdentificationAndCategory) : List (Txt × Txt) :=
    [(t! "Message:                           ", registerText Register.bds08),
    (t! "Format Type Code:                  ", dec m.formatTypeCode.toNat),
    (t! "Category:                          ", m.category.text),
    (t! "Identification:                    ", asciiText m.identification)]

/-- `NavigationUncertaintyCategory.ToString`, pkg/bds/bds09/fields/navigation_uncertainty_category.go:27-52 (the labels of lines
22-23). -/
def navigationUncertaintyText : UInt8 → Txt := tableText [
  (0, t! "0 - Unknown "),
  (1, t! "1 - Horizontal Velocity Error (95%): < 10 m/s / Vertical Velocity Error (95%): < 15.2 m/s (50 fps)"),
  (2, t! "1 - Horizontal Velocity Error (95%): < 3 m/s / Vertical Velocity Error (95%): < 4.6 m/s (15 fps)"),
  (3, t! "1 - Horizontal Velocity Error (95%): < 2 m/s / Vertical Velocity Error (95%): < 1.5 m/s (5 fps)"),
  (4, t! "1 - Horizontal Velocity Error (95%): < 0.3 m/s / Vertical Velocity Error (95%): < 0.46 m/s (1.5 fps)")] (t! " - Unknown code")

/-- `toSpeedString`, pkg/bds/bds09/airborne_velocity_ground_speed_normal.go:146-153 and
airborne_velocity_ground_speed_supersonic.go:146-153; the error is that of the first component that is not regular (129-137). -/
noncomputable def GroundSpeedVelocity.speedText (m : GroundSpeedVelocity) : Txt :=
  match m.getSpeed with
  | some s => dec s ++ t! " (knots)"
  | none => t! "not computable: " ++
    (if m.velocityEWStatus ≠ .regular then t! "velocity EW is not regular" else t! "velocity NS is not regular")

/-- The computed track is minus zero: `math.Atan2` of minus zero and a number with a plus sign is minus zero, and the steps after it keep it
(pkg/bds/bds09/airborne_velocity_ground_speed_normal.go:164-181, airborne_velocity_ground_speed_supersonic.go:164-181). -/
def GroundSpeedVelocity.trackMinusZero (m : GroundSpeedVelocity) : Bool :=
  m.directionEastWest == 1 && m.velocityEW == 0 && m.directionNorthSouth != 1

/-- `toTrackString`, pkg/bds/bds09/airborne_velocity_ground_speed_normal.go:184-191 and
airborne_velocity_ground_speed_supersonic.go:184-191. -/
noncomputable def GroundSpeedVelocity.trackText (F : FloatTexts) (m : GroundSpeedVelocity) : Txt :=
  match m.getTrackF F.atan2 with
  | some d => (if m.trackMinusZero then F.minusZero else F.degrees d) ++ t! " (degrees)"
  | none => t! "not computable: " ++
    (if m.velocityEWStatus ≠ .regular then t! "velocity EW is not regular" else t! "velocity NS is not regular")

/-- `AirborneVelocityGroundSpeedNormal.ToString`, pkg/bds/bds09/airborne_velocity_ground_speed_normal.go:47-85, and `AirborneVelocityGroundSpeedSupersonic.ToString`, pkg/bds/bds09/airborne_velocity_ground_speed_supersonic.go:47-85
(identical). -/
noncomputable def GroundSpeedVelocity.lines (F : FloatTexts) (m : GroundSpeedVelocity) : List (Txt × Txt) :=
    [(t! "Message:                           ", registerText Register.bds09),
    (t! "Subtype:                           ", Text.bds09Subtype m.subtype),
    (t! "Intent Change:                     ", Text.bds09IntentChange m.intentChange),
    (t! "IFR Capability:                    ", Text.bds09IFRCapability m.ifrCapability),
    (t! "Navigation Uncertainty Category:   ", navigationUncertaintyText m.navigationUncertaintyCategory),
    (t! "Direction EW:                      ", Text.bds09DirectionEastWest m.directionEastWest),
    (t! "Velocity EW Status:                ", NumericValueStatus.text m.velocityEWStatus),
    (t! "Velocity EW (knots):               ", dec m.velocityEW.toNat),
    (t! "Direction NS:                      ", Text.bds09DirectionNorthSouth m.directionNorthSouth),
    (t! "Velocity NS Status:                ", NumericValueStatus.text m.velocityNSStatus),
    (t! "Velocity NS (knots):               ", dec m.velocityNS.toNat),
    (t! "Vertical Rate Source:              ", Text.bds09VerticalRateSource m.verticalRateSource),
    (t! "Vertical Rate Status:              ", NumericValueStatus.text m.verticalRateStatus),
    (t! "Vertical Rate (ft/min):            ", decInt m.verticalRate),
    (t! "Difference Alt. GNSS Baro Status:  ", NumericValueStatus.text m.heightDifferenceStatus),
    (t! "Difference Alt. GNSS Baro (ft):    ", decInt m.heightDifference),
    (t! "Computed Speed:                    ", m.speedText),
    (t! "Computed Track:                    ", m.trackText F)]

/-- `AirborneVelocityAirSpeedNormal.ToString`, pkg/bds/bds09/airborne_velocity_air_speed_normal.go:43-73, and `AirborneVelocityAirSpeedSupersonic.ToString`, pkg/bds/bds09/airborne_velocity_air_speed_supersonic.go:43-73
(identical). -/
def AirSpeedVelocity.lines (F : FloatTexts) (m : AirSpeedVelocity) : List (Txt × Txt) :=
    [(t! "Message:                             ", registerText Register.bds09),
    (t! "Subtype:                             ", Text.bds09Subtype m.subtype),
    (t! "Intent Change:                       ", Text.bds09IntentChange m.intentChange),
    (t! "IFR Capability:                      ", Text.bds09IFRCapability m.ifrCapability),
    (t! "Navigation Uncertainty Category:     ", navigationUncertaintyText m.navigationUncertaintyCategory),
    (t! "Magnetic Heading Status:             ", Text.bds09MagneticHeadingStatus m.magneticHeadingStatus),
    (t! "Magnetic Heading (degrees):          ", F.float32 m.magneticHeading),
    (t! "Air Speed Status:                    ", NumericValueStatus.text m.airspeedStatus),
    (t! "Air Speed (knots):                   ", dec m.airspeed.toNat),
    (t! "Vertical Rate Source:                ", Text.bds09VerticalRateSource m.verticalRateSource),
    (t! "Vertical Rate Status:                ", NumericValueStatus.text m.verticalRateStatus),
    (t! "Vertical Rate (ft/min):              ", decInt m.verticalRate),
    (t! "Geom. Height Diff. From Baro Status: ", NumericValueStatus.text m.heightDifferenceStatus),
    (t! "Geom. Height Diff. From Baro (ft):   ", decInt m.heightDifference)]

/-- `ToString` of each kind of velocity message. -/
noncomputable def AirborneVelocity.lines (F : FloatTexts) : AirborneVelocity → List (Txt × Txt)
  | .groundSpeedNormal m => m.lines F
  | .groundSpeedSupersonic m => m.lines F
  | .airSpeedNormal m => m.lines F
  | .airSpeedSupersonic m => m.lines F

/-- `AircraftStatusNoInformation.ToString`, pkg/bds/bds61/aircraft_status_no_information.go:38-46. -/
def StatusNoInformation.lines (m : StatusNoInformation) : List (Txt × Txt) :=
    [(t! "Message:                   ", registerText Register.bds61),
    (t! "Subtype:                   ", Text.bds61Subtype m.subtype),
    (t! "Emergency State:           ", Text.bds61EmergencyPriorityStatus m.emergencyPriorityStatus)]

/-- `AircraftStatusEmergency.ToString`, pkg/bds/bds61/aircraft_status_emergency.go:39-47. -/
def StatusEmergency.lines (m : StatusEmergency) : List (Txt × Txt) :=
    [(t! "Message:                   ", registerText Register.bds61),
    (t! "Subtype:                   ", Text.bds61Subtype m.subtype),
    (t! "Emergeny State:            ", Text.bds61EmergencyPriorityStatus m.emergencyPriorityStatus)]

/-- `AircraftStatusACAS.ToString`, pkg/bds/bds61/aircraft_status_acas.go:33-41. -/
def StatusACAS.lines (F : FloatTexts) (m : StatusACAS) : List (Txt × Txt) :=
    [(t! "Message:                   ", registerText Register.bds61),
    (t! "Subtype:                   ", Text.bds61Subtype m.subtype),
    (t! "ACAS Data:                 ", t! "")] ++
    m.resolutionAdvisory.lines F

/-- `ToString` of each kind of status message. -/
def AircraftStatus.lines (F : FloatTexts) : AircraftStatus → List (Txt × Txt)
  | .noInformation m => m.lines
  | .emergency m => m.lines
  | .acas m => m.lines F

/-- `SurveillanceIntegrityLevel.ToString`, pkg/bds/bds62/fields/surveillance_integrity_level.go:33-55 (labels: lines 29-30). -/
def sil62Lines (level : UInt8) : List (Txt × Txt) :=
  if level = 0 then [(t! "Probability of exceeding the Horizontal Containment Radius reported in the NIC Subfield without an indication: ", t! "Unknown"), (t! "Probability of exceeding the Vertical Integrity Containment Region (VPL) without an indication:                ", t! "Unknown")]
  else if level = 1 then [(t! "Probability of exceeding the Horizontal Containment Radius reported in the NIC Subfield without an indication: ", t! "<= 1 * 10^-3 per flight hour or per sample"), (t! "Probability of exceeding the Vertical Integrity Containment Region (VPL) without an indication:                ", t! "<= 1 * 10^-3 per flight hour or per sample")]
  else if level = 2 then [(t! "Probability of exceeding the Horizontal Containment Radius reported in the NIC Subfield without an indication: ", t! "<= 1 * 10^-5 per flight hour or per sample"), (t! "Probability of exceeding the Vertical Integrity Containment Region (VPL) without an indication:                ", t! "<= 1 * 10^-5 per flight hour or per sample")]
  else if level = 3 then [(t! "Probability of exceeding the Horizontal Containment Radius reported in the NIC Subfield without an indication: ", t! "<= 1 * 10^-7 per flight hour or per sample"), (t! "Probability of exceeding the Vertical Integrity Containment Region (VPL) without an indication:                ", t! "<= 2 * 10^-7 per 150 seconds or per sample")]
  else [(t! "", dec level.toNat ++ t! " - Unknown code")]

/-- `TargetStateAndStatus0.ToString`, pkg/bds/bds62/target_state_and_status_type_0.go:50-88. -/
def TargetStateAndStatus0.lines (m : TargetStateAndStatus0) : List (Txt × Txt) :=
    [(t! "Message:                                      ", registerText Register.bds62),
    (t! "Subtype:                                      ", Text.bds62Subtype m.subtype),
    (t! "Vertical Data Available / Source Indicator:   ", Text.bds62VerticalDataAvailableSourceIndicator m.verticalDataAvailableSourceIndicator),
    (t! "Target Altitude Type:                         ", Text.bds62TargetAltitudeType m.targetAltitudeType),
    (t! "Target Altitude Capability:                   ", Text.bds62TargetAltitudeCapability m.targetAltitudeCapability),
    (t! "Vertical Mode Indicator:                      ", Text.bds62VerticalModeIndicator m.verticalModeIndicator),
    (t! "Target Altitude Status:                       ", NumericValueStatus.text m.targetAltitudeStatus),
    (t! "Target Altitude:                              ", decInt m.targetAltitude),
    (t! "Horizontal Data Available / Source Indicator: ", Text.bds62HorizontalDataAvailableSourceIndicator m.horizontalDataAvailableSourceIndicator),
    (t! "Target Heading / Track Angle Status:          ", NumericValueStatus.text m.targetHeadingTrackAngleStatus),
    (t! "Target Heading / Track Angle:                 ", dec m.targetHeadingTrackAngle.toNat),
    (t! "Target Heading / Track Indicator:             ", Text.bds62TargetHeadingTrackIndicator m.targetHeadingTrackIndicator),
    (t! "Horizontal Mode Indicator:                    ", Text.bds62HorizontalModeIndicator m.horizontalModeIndicator),
    (t! "Navigation Accuracy Category - Position:      ", Text.bds62NavigationalAccuracyCategoryPositionV1 m.navigationalAccuracyCategoryPosition),
    (t! "Navigation Integrity Category - Baro:         ", Text.bds62NICBaro m.nicBaro)] ++
    labelled (t! "Surveillance Integrity ReaderLevel:           ") (sil62Lines m.surveillanceIntegrityLevel) ++
    [(t! "Capability / Mode Codes:                      ", Text.bds62CapabilityModeCode m.capabilityModeCode),
    (t! "Emergency / Priority Status:                  ", Text.bds62EmergencyPriorityStatus m.emergencyPriorityStatus)]

/-- `TargetStateAndStatus1.ToString`, pkg/bds/bds62/target_state_and_status_type_1.go:51-93. -/
def TargetStateAndStatus1.lines (F : FloatTexts) (m : TargetStateAndStatus1) : List (Txt × Txt) :=
    [(t! "Message:                                       ", registerText Register.bds62),
    (t! "Subtype:                                       ", Text.bds62Subtype m.subtype),
    (t! "Selected Altitude Type:                        ", Text.bds62SelectedAltitudeType m.selectedAltitudeType),
    (t! "Selected Altitude Status:                      ", NumericValueStatus.text m.selectedAltitudeStatus),
    (t! "Selected Altitude:                             ", dec m.selectedAltitude.toNat),
    (t! "Barometric Pressure Setting Status:            ", NumericValueStatus.text m.barometricPressureSettingStatus),
    (t! "Barometric Pressure Setting:                   ", F.float32 m.barometricPressureSetting),
    (t! "Selected Heading Status:                       ", Text.bds62SelectedHeadingStatus m.selectedHeadingStatus),
    (t! "Selected Heading :                             ", F.signed m.selectedHeadingMinus m.selectedHeading),
    (t! "Navigation Accuracy Category - Position:       ", Text.bds62NavigationalAccuracyCategoryPositionV2 m.navigationalAccuracyCategoryPosition),
    (t! "Navigation Integrity Category - Baro:          ", Text.bds62NICBaro m.nicBaro),
    (t! "Source Integrity ReaderLevel:                  ", Text.bds62SourceIntegrityLevel m.sourceIntegrityLevel),
    (t! "Source Integrity ReaderLevel Supplement:       ", Text.bds62SourceIntegrityLevelSupplement m.sourceIntegrityLevelSupplement),
    (t! "Status of MCP/FPU Mode Bits:                   ", Text.bds62StatusMCPFCUBits m.statusMCPFCUBits),
    (t! "Autopilot Engaged:                             ", boolText m.autopilotEngaged),
    (t! "VNAV Mode Engaged:                             ", boolText m.vnavModeEngaged),
    (t! "Altitude Hold Mode Engaged:                    ", boolText m.altitudeHoldModeEngaged),
    (t! "Approach Mode Engaged:                         ", boolText m.approachModeEngaged),
    (t! "LNAV Mode Engaged:                             ", boolText m.lnavModeEngaged),
    (t! "TCAS / ACAS Operational :                      ", boolText m.tcasACASOperational)]

/-- `ToString` of each kind of target state message. -/
def TargetStateAndStatus.lines (F : FloatTexts) : TargetStateAndStatus → List (Txt × Txt)
  | .type0 m => m.lines
  | .type1 m => m.lines F

/-! ### Operational status -/

/-- `SurveillanceIntegrityLevel.ToString`, pkg/bds/bds65/fields/surveillance_integrity_level.go:33-55 (labels: lines 28-29). -/
def silLines (level : UInt8) : List (Txt × Txt) :=
  if level = 0 then [(t! "Probability of exceeding the Horizontal Containment Radius reported in the NIC Subfield without an indication: ", t! "Unknown"), (t! "Probability of exceeding the Vertical Integrity Containment Region (VPL) without an indication:                ", t! "Unknown")]
  else if level = 1 then [(t! "Probability of exceeding the Horizontal Containment Radius reported in the NIC Subfield without an indication: ", t! "<= 1 * 10^-3 per flight hour or per sample"), (t! "Probability of exceeding the Vertical Integrity Containment Region (VPL) without an indication:                ", t! "<= 1 * 10^-3 per flight hour or per sample")]
  else if level = 2 then [(t! "Probability of exceeding the Horizontal Containment Radius reported in the NIC Subfield without an indication: ", t! "<= 1 * 10^-5 per flight hour or per sample"), (t! "Probability of exceeding the Vertical Integrity Containment Region (VPL) without an indication:                ", t! "<= 1 * 10^-5 per flight hour or per sample")]
  else if level = 3 then [(t! "Probability of exceeding the Horizontal Containment Radius reported in the NIC Subfield without an indication: ", t! "<= 1 * 10^-7 per flight hour or per sample"), (t! "Probability of exceeding the Vertical Integrity Containment Region (VPL) without an indication:                ", t! "<= 2 * 10^-7 per 150 seconds or per sample")]
  else [(t! "", dec level.toNat ++ t! " - Unknown code")]

/-- `GPSAntennaLongitudinal.ToString`, pkg/bds/bds65/fields/gps_antenna_longitudinal.go:85-103; the product is of bytes. -/
def gpsAntennaLongitudinalText (d : UInt8) : Txt :=
  if d = 0 then t! "0 - no data"
  else if d = 1 then t! "1 - Antenna Offset is compensated by the Sensor"
  else if 2 ≤ d ∧ d ≤ 31 then dec d.toNat ++ t! " - " ++ dec (d * 2 - 2).toNat
  else dec d.toNat ++ t! " - Unknown code"

/-- `GPSAntenna.ToString`, pkg/bds/bds65/fields/gps_antenna.go:14-20. -/
def SurfaceOperationalMode.gpsLines (m : SurfaceOperationalMode) : List (Txt × Txt) := [
    (t! "Lateral Axis GPS Antenna:      ", Text.bds65GPSAntennaLateral m.gpsAntennaLateral),
    (t! "Longitudinal Axis GPS Antenna: ", gpsAntennaLongitudinalText m.gpsAntennaLongitudinal)]

/-- `VersionNumber.ToString`, pkg/bds/bds65/fields/version_number.go:20-31. -/
def versionNumberText : UInt8 → Txt := tableText [
  (0, t! "0 - ADSB V0: Conformant to Doc 9871, Appendix A"),
  (1, t! "1 - ADSB V1: Conformant to Doc 9871, Appendix B"),
  (2, t! "2 - ADSB V2: Conformant to Doc 9871, Appendix C")] (t! "")

/-- `AirborneCapabilityClassV1.ToString`, pkg/bds/bds65/fields/airborne_capability_class_v1.go:17-29. -/
def AirborneCapabilityClassV1.lines (m : AirborneCapabilityClassV1) : List (Txt × Txt) :=
    [(t! "Not ACAS Status:                               ", Text.bds65NotACASStatus m.notACASStatus),
    (t! "Cockpit Display Of Traffic Information Status: ", Text.bds65CockpitDisplayOfTrafficInformationStatus m.cockpitDisplayOfTrafficInformationStatus),
    (t! "Air Referenced Velocity Report Capability:     ", Text.bds65AirReferencedVelocityReportCapability m.airReferencedVelocityReportCapability),
    (t! "Target State Report Capability:                ", Text.bds65TargetStateReportCapability m.targetStateReportCapability),
    (t! "Target Change Report Capability:               ", Text.bds65TargetChangeReportCapability m.targetChangeReportCapability)]

/-- `AirborneCapabilityClassV2.ToString`, pkg/bds/bds65/fields/airborne_capability_class_v2.go:18-32. -/
def AirborneCapabilityClassV2.lines (m : AirborneCapabilityClassV2) : List (Txt × Txt) :=
    [(t! "ACAS Operational:                                ", Text.bds65ACASOperational m.acasOperational),
    (t! "1090ES IN (1090 MHz Extended Squitter):          ", Text.bds65ExtendedSquitterIn m.extendedSquitterIn),
    (t! "ARV (Air-Referenced Velocity Report Capability): ", Text.bds65AirReferencedVelocityReportCapability m.airReferencedVelocityReportCapability),
    (t! "Target State Report Capability:                  ", Text.bds65TargetStateReportCapability m.targetStateReportCapability),
    (t! "Target Change Report Capability:                 ", Text.bds65TargetChangeReportCapability m.targetChangeReportCapability),
    (t! "UAT IN (Universal Access Transceiver):           ", Text.bds65UniversalAccessTransceiverCapability m.uatCapability)]

/-- `SurfaceCapabilityClassV1.ToString`, pkg/bds/bds65/fields/surface_capability_class_v1.go:15-23. -/
def SurfaceCapabilityClassV1.lines (m : SurfaceCapabilityClassV1) : List (Txt × Txt) :=
    [(t! "Position Offset Applied:                       ", Text.bds65PositionOffsetApplied m.positionOffsetApplied),
    (t! "Cockpit Display Of Traffic Information Status: ", Text.bds65CockpitDisplayOfTrafficInformationStatus m.cockpitDisplayOfTrafficInformationStatus),
    (t! "B2Low:                                         ", Text.bds65B2Low m.b2Low)]

/-- `SurfaceCapabilityClassV2.ToString`, pkg/bds/bds65/fields/surface_capability_class_v2.go:19-31. -/
def SurfaceCapabilityClassV2.lines (m : SurfaceCapabilityClassV2) : List (Txt × Txt) :=
    [(t! "1090ES IN (1090 MHz Extended Squitter):                   ", Text.bds65ExtendedSquitterIn m.extendedSquitterIn),
    (t! "B2 Low (Class B2 Transmit Power Less Than 70 Watts):      ", Text.bds65B2Low m.b2Low),
    (t! "UAT IN (Universal Access Transceiver):                    ", Text.bds65UniversalAccessTransceiverCapability m.uatCapability),
    (t! "NACV (Navigation Accuracy Category for Velocity):         ", dec m.navigationAccuracyCategoryVelocity.toNat),
    (t! "NIC Supplement-C (NIC Supplement for use on the Surface): ", Text.bds65NICSupplementC m.nicSupplementC)]

/-- `OperationalMode.ToString`, pkg/bds/bds65/fields/operational_mode.go:15-23. -/
def OperationalMode.lines (m : OperationalMode) : List (Txt × Txt) :=
    [(t! "ACAS Resolution Advisory Active: ", Text.bds65ACASResolutionAdvisoryActiveV1 m.acasRAActive),
    (t! "Ident Switch Active:             ", Text.bds65IdentSwitchActive m.identSwitchActive),
    (t! "Receiving ATC Services:          ", Text.bds65ReceivingATCServices m.receivingATCServices)]

/-- `AirborneOperationalMode.ToString`, pkg/bds/bds65/fields/airborne_operational_mode.go:16-27. -/
def AirborneOperationalMode.lines (m : AirborneOperationalMode) : List (Txt × Txt) :=
    [(t! "ACAS Resolution Advisory Active: ", Text.bds65ACASResolutionAdvisoryActiveV2 m.acasRAActive),
    (t! "Ident Switch Active:             ", Text.bds65IdentSwitchActive m.identSwitchActive),
    (t! "Single Antenna Flag:             ", Text.bds65SingleAntennaFlag m.singleAntennaFlag),
    (t! "System Design Assurance:         ", Text.bds65SystemDesignAssurance m.systemDesignAssurance)]

/-- `SurfaceOperationalMode.ToString`, pkg/bds/bds65/fields/surface_operational_mode.go:20-33. -/
def SurfaceOperationalMode.lines (m : SurfaceOperationalMode) : List (Txt × Txt) :=
    [(t! "ACAS Resolution Advisory Active: ", Text.bds65ACASResolutionAdvisoryActiveV2 m.acasRAActive),
    (t! "Ident Switch Active:             ", Text.bds65IdentSwitchActive m.identSwitchActive),
    (t! "Single Antenna Flag:             ", Text.bds65SingleAntennaFlag m.singleAntennaFlag),
    (t! "System Design Assurance:         ", Text.bds65SystemDesignAssurance m.systemDesignAssurance)] ++
    labelled (t! "GPS Antenna:                     ") (nest m.gpsLines)

/-- `AircraftOperationalStatusADSB0.ToString`, pkg/bds/bds65/aircraft_operational_status_adsb0.go:38-58. -/
def OpStatusV0.lines (m : OpStatusV0) : List (Txt × Txt) :=
    [(t! "Message:                                        ", registerText Register.bds65),
    (t! "En Route Operational Capabilities:              ", Text.bds65EnRouteOperationalCapabilities m.enRouteOperationalCapabilities),
    (t! "En Route Operational Capability Status:         ", Text.bds65EnRouteOperationalCapabilityStatus m.enRouteOperationalCapabilityStatus),
    (t! "Terminal Area Operational Capabilities:         ", Text.bds65TerminalAreaOperationalCapabilities m.terminalAreaOperationalCapabilities),
    (t! "Terminal Area Operational Capability Status:    ", Text.bds65TerminalAreaOperationalCapabilityStatus m.terminalAreaOperationalCapabilityStatus),
    (t! "Approach/Landing Operational Capabilities:      ", Text.bds65ApproachLandingOperationalCapabilities m.approachLandingOperationalCapabilities),
    (t! "Approach/Landing Operational Capability Status: ", Text.bds65ApproachLandingOperationalCapabilityStatus m.approachLandingOperationalCapabilityStatus),
    (t! "SubtypeSurface Operational Capabilities:               ", Text.bds65SurfaceOperationalCapabilities m.surfaceOperationalCapabilities),
    (t! "SubtypeSurface Operational Capability Status:          ", Text.bds65SurfaceOperationalCapabilityStatus m.surfaceOperationalCapabilityStatus)]

/-- `AircraftOperationalStatusAirborneADSB1.ToString`, pkg/bds/bds65/aircraft_operational_status_airborne_adsb1.go:43-65. -/
def OpStatusAirborneV1.lines (m : OpStatusAirborneV1) : List (Txt × Txt) :=
    [(t! "Message:                                 ", registerText Register.bds65),
    (t! "Subtype:                                 ", Text.bds65Subtype m.subtype),
    (t! "Airborne Capability Class:               ", t! "")] ++
    nest m.airborneCapabilityClass.lines ++
    [(t! "Operational Mode:                        ", t! "")] ++
    nest m.operationalMode.lines ++
    [(t! "ADSB Version Number:                     ", versionNumberText m.versionNumber),
    (t! "NIC Supplement:                          ", Text.bds65NICSupplementA m.nicSupplement),
    (t! "Navigational Accuracy Category Position: ", Text.bds65NavigationalAccuracyCategoryPositionV1 m.navigationalAccuracyCategoryPosition),
    (t! "Surveillance Integrity ReaderLevel:      ", t! "")] ++
    nest (silLines m.surveillanceIntegrityLevel) ++
    [(t! "NIC Baro:                                ", Text.bds65NICBaro m.nicBaro),
    (t! "Horizontal Reference Direction:          ", Text.bds65HorizontalReferenceDirection m.horizontalReferenceDirection)]

/-- `AircraftOperationalStatusAirborneADSB2.ToString`, pkg/bds/bds65/aircraft_operational_status_airborne_adsb2.go:45-71. -/
def OpStatusAirborneV2.lines (m : OpStatusAirborneV2) : List (Txt × Txt) :=
    [(t! "Message:                                 ", registerText Register.bds65),
    (t! "Subtype:                                 ", Text.bds65Subtype m.subtype),
    (t! "SubtypeAirborne Capability Class:        ", t! "")] ++
    nest m.airborneCapabilityClass.lines ++
    [(t! "Operational Mode:                        ", t! "")] ++
    nest m.operationalMode.lines ++
    [(t! "ADSB Version Number:                     ", versionNumberText m.versionNumber),
    (t! "NIC Supplement:                          ", Text.bds65NICSupplementA m.nicSupplementA),
    (t! "Navigational Accuracy Category Position: ", Text.bds65NavigationalAccuracyCategoryPositionV2 m.navigationalAccuracyCategoryPosition),
    (t! "Geometric Vertical Accuracy:             ", Text.bds65GeometricVerticalAccuracy m.geometricVerticalAccuracy),
    (t! "Source Integrity ReaderLevel:            ", Text.bds65SourceIntegrityLevel m.sourceIntegrityLevel),
    (t! "Source Integrity ReaderLevel Supplement: ", Text.bds65SourceIntegrityLevelSupplement m.sourceIntegrityLevelSupplement),
    (t! "NIC Baro:                                ", Text.bds65NICBaro m.nicBaro),
    (t! "Horizontal Reference Direction:          ", Text.bds65HorizontalReferenceDirection m.horizontalReferenceDirection)]

/-- `AircraftOperationalStatusSurfaceADSB1.ToString`, pkg/bds/bds65/aircraft_operational_status_surface_adsb1.go:44-68. -/
def OpStatusSurfaceV1.lines (m : OpStatusSurfaceV1) : List (Txt × Txt) :=
    [(t! "Message:                                 ", registerText Register.bds65),
    (t! "Subtype:                                 ", Text.bds65Subtype m.subtype),
    (t! "SubtypeAirborne Capability Class:        ", t! "")] ++
    nest m.surfaceCapabilityClass.lines ++
    [(t! "Aircraft Length And Width                ", Text.bds65LengthWidth m.lengthAndWidth),
    (t! "Operational Mode:                        ", t! "")] ++
    nest m.operationalMode.lines ++
    [(t! "ADSB Version Number:                     ", versionNumberText m.versionNumber),
    (t! "NIC Supplement:                          ", Text.bds65NICSupplementA m.nicSupplement),
    (t! "Navigational Accuracy Category Position: ", Text.bds65NavigationalAccuracyCategoryPositionV1 m.navigationalAccuracyCategoryPosition),
    (t! "Surveillance Integrity ReaderLevel:      ", t! "")] ++
    nest (silLines m.surveillanceIntegrityLevel) ++
    [(t! "NIC Baro:                                ", Text.bds65TrackAngleHeading m.trackAngleHeading),
    (t! "Horizontal Reference Direction:          ", Text.bds65HorizontalReferenceDirection m.horizontalReferenceDirection)]

/-- `AircraftOperationalStatusSurfaceADSB2.ToString`, pkg/bds/bds65/aircraft_operational_status_surface_adsb2.go:45-71. -/
def OpStatusSurfaceV2.lines (m : OpStatusSurfaceV2) : List (Txt × Txt) :=
    [(t! "Message:                                 ", registerText Register.bds65),
    (t! "Subtype:                                 ", Text.bds65Subtype m.subtype),
    (t! "SubtypeAirborne Capability Class:        ", t! "")] ++
    nest m.surfaceCapabilityClass.lines ++
    [(t! "Aircraft Length And Width                ", Text.bds65LengthWidth m.lengthAndWidth),
    (t! "Operational Mode:                        ", t! "")] ++
    nest m.operationalMode.lines ++
    [(t! "ADSB Version Number:                     ", versionNumberText m.versionNumber),
    (t! "NIC Supplement:                          ", Text.bds65NICSupplementA m.nicSupplementA),
    (t! "Navigational Accuracy Category Position: ", Text.bds65NavigationalAccuracyCategoryPositionV2 m.navigationalAccuracyCategoryPosition),
    (t! "Source Integrity ReaderLevel:            ", Text.bds65SourceIntegrityLevel m.sourceIntegrityLevel),
    (t! "Source Integrity ReaderLevel Supplement: ", Text.bds65SourceIntegrityLevelSupplement m.sourceIntegrityLevelSupplement),
    (t! "NIC Baro:                                ", Text.bds65TrackAngleHeading m.trackAngleHeading),
    (t! "Horizontal Reference Direction:          ", Text.bds65HorizontalReferenceDirection m.horizontalReferenceDirection)]

/-- `ToString` of each kind of operational status message. -/
def OperationalStatus.lines : OperationalStatus → List (Txt × Txt)
  | .v0 m => m.lines
  | .airborneV1 m => m.lines
  | .airborneV2 m => m.lines
  | .surfaceV1 m => m.lines
  | .surfaceV2 m => m.lines

/-- `ToString` of the ADS-B messages: pkg/adsb/no_position_information/no_position_information.go:26-35,
airborne_position/airborne_position_type_0.go:28-34, airborne_position_v0.go:27-35, airborne_position_v1.go:28-38,
airborne_position_v2.go:29-41, surface_position/surface_position_v0.go:17-25, surface_position_v1.go:18-28,
surface_position_v2.go:19-31, and lines 24-28 of the five others, which print the register only. -/
noncomputable def ADSBMessage.lines (F : FloatTexts) : ADSBMessage → List (Txt × Txt)
  | .noPosition _ formatTypeCode altitudeBarometric nic => [
      (t! "Message:                           No Position Information", t! ""),
      (t! "Format Type Code:                  ", dec formatTypeCode.toNat),
      (t! "Altitude Baro (feet):              ", decInt altitudeBarometric),
      (t! "Navigation Integrity Category:     ", dec nic.toNat)]
  | .airborneType0 position nic _ => position.lines ++ [
      (t! "Navigation Integrity Category:     ", dec nic.toNat)]
  | .airborneV0 position horizontalProtectionLimit containmentRadius => position.lines ++ [
      (t! "Horizontal Protection Limit:       ", Text.airborneHorizontalProtectionLimit horizontalProtectionLimit),
      (t! "Containment Radius:                ", Text.airborneContainmentRadius containmentRadius)]
  | .airborneV1 position nicSupplementA hcr nic => position.lines ++ [
      (t! "Navigation Integrity Code A:       ", boolText nicSupplementA),
      (t! "Horizontal Containment Radius:     ", Text.airborneHorizontalContainmentRadiusV1 hcr),
      (t! "Navigation Integrity Category:     ", dec nic.toNat)]
  | .airborneV2 position nicSupplementA nicSupplementB hcr nic => position.lines ++ [
      (t! "Navigation Integrity Code A:       ", boolText nicSupplementA),
      (t! "Navigation Integrity Code B:       ", Text.airborneNavigationIntegrityCodeSupplementB nicSupplementB),
      (t! "Horizontal Containment Radius:     ", Text.airborneHorizontalContainmentRadiusV2 hcr),
      (t! "Navigation Integrity Category:     ", dec nic.toNat)]
  | .surfaceV0 position horizontalProtectionLimit containmentRadius => position.lines F ++ [
      (t! "Horizontal Protection Limit:       ", Text.surfaceHorizontalProtectionLimit horizontalProtectionLimit),
      (t! "Containment Radius:                ", Text.surfaceContainmentRadius containmentRadius)]
  | .surfaceV1 position nicSupplementA hcr nic => position.lines F ++ [
      (t! "Navigation Integrity Code A:       ", boolText nicSupplementA),
      (t! "Horizontal Containment Limit:      ", Text.surfaceHorizontalContainmentRadiusV1 hcr),
      (t! "Navigation Integrity Category:     ", dec nic.toNat)]
  | .surfaceV2 position nicSupplementA nicSupplementC hcr nic => position.lines F ++ [
      (t! "Navigation Integrity Code A:       ", boolText nicSupplementA),
      (t! "Navigation Integrity Code C:       ", boolText nicSupplementC),
      (t! "Horizontal Containment Limit:      ", Text.surfaceHorizontalContainmentRadiusV2 hcr),
      (t! "Navigation Integrity Category:     ", dec nic.toNat)]
  | .velocity m _ => m.lines F
  | .identification m _ => m.lines
  | .status m _ => m.lines F
  | .targetState m _ => m.lines F
  | .operationalStatus m _ => m.lines

/-- `ToString` of an ADS-B message. -/
noncomputable def ADSBMessage.text (F : FloatTexts) (m : ADSBMessage) : Txt := linesText (m.lines F)

/-! ### Registers of Comm-B -/

/-- `NoMessageAvailable.ToString`, pkg/bds/bds00/no_message_available.go:23-27. -/
def NoMessageAvailable.lines (m : NoMessageAvailable) : List (Txt × Txt) :=
    [(t! "Message:                   ", registerText Register.bds00)]

/-- `Status.ToString`, pkg/bds/bds07/status.go:34-42. -/
def Status07.lines (m : Status07) : List (Txt × Txt) :=
    [(t! "Message:                                 ", registerText Register.bds07),
    (t! "Transmission Rate Subfield:              ", Text.bds07TransmissionRateSubfield m.transmissionRateSubfield),
    (t! "Altitude Type Subfield                   ", Text.bds07AltitudeTypeSubfield m.altitudeTypeSubfield),
    (t! "", t! "")]

/-- `DTESubAddressStatuses.ToString`, pkg/bds/bds10/fields/dte_sub_address_statuses.go:15-25: the sixteen bits, most significant
first, with commas. -/
def dteText (dss : UInt16) : Txt :=
  (t! ", ").intercalate ((List.range 16).map fun i => dec ((dss >>> UInt16.ofNat (15 - i)) &&& 0x01).toNat)

/-- `DataLinkCapabilityReport.ToString`, pkg/bds/bds10/data_link_capability_report.go:73-107. -/
def DataLinkCapabilityReport.lines (m : DataLinkCapabilityReport) : List (Txt × Txt) :=
    [(t! "Message:                                 ", registerText Register.bds10),
    (t! "Continuation Flag:                       ", Text.bds10OverlayCommandCapability m.overlayCommandCapability),
    (t! "ACAS Status                              ", Text.bds10ACASStatus m.acasStatus),
    (t! "ModeS Subnetwork Version                 ", Text.bds10ModeSSubnetworkVersion m.modeSSubnetworkVersion),
    (t! "Transponder Enhanced Protocol Indicator  ", Text.bds10TransponderEnhancedProtocolIndicator m.transponderEnhancedProtocolIndicator),
    (t! "ModeS Specific Services Capability       ", Text.bds10ModeSSpecificServicesCapability m.modeSSpecificServicesCapability),
    (t! "Uplink ELM Throughput Capability         ", Text.bds10UplinkELMThroughputCapability m.uplinkELMThroughputCapability),
    (t! "Downlink ELM Throughput Capability       ", Text.bds10DownlinkELMThroughputCapability m.downlinkELMThroughputCapability),
    (t! "Aircraft Identification Capability       ", Text.bds10AircraftIdentificationCapability m.aircraftIdentificationCapability),
    (t! "Squitter Capability Subfield             ", Text.bds10SquitterCapabilitySubfield m.squitterCapabilitySubfield),
    (t! "Surveillance Identifier Code             ", Text.bds10SurveillanceIdentifierCode m.surveillanceIdentifierCode),
    (t! "Common Usage GICB Capability             ", Text.bds10CommonUsageGICBCapability m.commonUsageGICBCapability),
    (t! "ACAS Hybrid Surveillance Capability      ", Text.bds10ACASHybridSurveillanceCapability m.acasHybridSurveillanceCapability),
    (t! "ACAS Generation Capability               ", Text.bds10ACASGenerationCapability m.acasGenerationCapability),
    (t! "ACAS Applicable Document                 ", Text.bds10ACASApplicableDocument m.acasApplicableDocument),
    (t! "DTE SubAddress Statuses                  ", dteText m.dteSubAddressStatuses),
    (t! "", t! "")]

/-- `CommonUsageGICBCapabilityReport.ToString`, pkg/bds/bds17/common_usage_gicb_capability_report.go:43-97. -/
def GICBCapabilityReport.lines (m : GICBCapabilityReport) : List (Txt × Txt) :=
    [(t! "Message:                                             ", registerText Register.bds17),
    (t! "0,5 Extended squitter airborne position:             ", boolText m.extendedSquitterAirbornePosition),
    (t! "0,6 Extended squitter surface position:              ", boolText m.extendedSquitterSurfacePosition),
    (t! "0,7 Extended squitter status:                        ", boolText m.extendedSquitterStatus),
    (t! "0,8 Extended squitter identification and category:   ", boolText m.extendedSquitterIdentificationAndCategory),
    (t! "0,9 Extended squitter airborne velocity information: ", boolText m.extendedSquitterAirborneVelocityInformation),
    (t! "0,A Extended squitter event-driven information:      ", boolText m.extendedSquitterEventDrivenInformation),
    (t! "2,0 Aircraft identification:                         ", boolText m.aircraftIdentification),
    (t! "2,l Aircraft registration number:                    ", boolText m.aircraftRegistrationNumber),
    (t! "4,0 Selected vertical intention:                     ", boolText m.selectedVerticalIntention),
    (t! "4,l Next waypoint identifier:                        ", boolText m.nextWaypointIdentifier),
    (t! "4,2 Next waypoint position:                          ", boolText m.nextWaypointPosition),
    (t! "4,3 Next waypoint information:                       ", boolText m.nextWaypointInformation),
    (t! "4,4 Meteorological routine report:                   ", boolText m.meteorologicalRoutineReport),
    (t! "4,5 Meteorological hazard report:                    ", boolText m.meteorologicalHazardReport),
    (t! "4.8 VHF channel report:                              ", boolText m.vhfChannelReport),
    (t! "5,0 Track and turn report:                           ", boolText m.trackAndTurnReport),
    (t! "5,1 Position coarse:                                 ", boolText m.positionCoarse),
    (t! "5,2 Position fine:                                   ", boolText m.positionFine),
    (t! "5,3 Air-referenced state vector:                     ", boolText m.airReferencedStateVector),
    (t! "5,4 Waypoint 1:                                      ", boolText m.waypoint1),
    (t! "5,5 Waypoint 2:                                      ", boolText m.waypoint2),
    (t! "5,6 Waypoint 3:                                      ", boolText m.waypoint3),
    (t! "5,F Quasi-static parameter monitoring:               ", boolText m.quasiStaticParameterMonitoring),
    (t! "6,0 Heading and speed report:                        ", boolText m.headingAndSpeedReport),
    (t! "F,1 Military applications:                           ", boolText m.militaryApplications),
    (t! "", t! "")]

/-- `AircraftIdentification.ToString`, pkg/bds/bds20/aircraft_identification.go:25-31. -/
def AircraftIdentification.lines (m : AircraftIdentification) : List (Txt × Txt) :=
    [(t! "Message:                                 ", registerText Register.bds20),
    (t! "Identification:                          ", asciiText m.identification),
    (t! "", t! "")]

/-- `ACASResolutionAdvisory.ToString`, pkg/bds/bds30/acas_resolution_advisory.go:23-29. -/
def ACASResolutionAdvisory.lines (F : FloatTexts) (m : ACASResolutionAdvisory) : List (Txt × Txt) :=
    [(t! "Message:                   ", registerText Register.bds30),
    (t! "ACAS Data:                 ", t! "")] ++
    m.resolutionAdvisory.lines F

/-- `SelectedVerticalIntention.ToString`, pkg/bds/bds40/selected_vertical_intention.go:35-63. -/
def SelectedVerticalIntention.lines (F : FloatTexts) (m : SelectedVerticalIntention) : List (Txt × Txt) :=
    [(t! "Message:                               ", registerText Register.bds40),
    (t! "MCP/FCU Selected Altitude Available:   ", boolText m.mcpfcuSelectedAltitudeAvailable),
    (t! "MCP/FCU Selected Altitude:             ", dec m.mcpfcuSelectedAltitude.toNat),
    (t! "FMS Selected Altitude Available:       ", boolText m.fmsSelectedAltitudeAvailable),
    (t! "FMS Selected Altitude:                 ", dec m.fmsSelectedAltitude.toNat),
    (t! "Barometric Pressure Setting Available: ", boolText m.barometricPressureSettingAvailable),
    (t! "Barometric Pressure Setting:           ", F.float32 m.barometricPressureSetting),
    (t! "Status Of Mode Bits:                   ", Text.bds40StatusOfModeBits m.statusOfModeBits),
    (t! "VNAV Mode:                             ", boolText m.vnavMode),
    (t! "Altitude Hold Mode:                    ", boolText m.altitudeHoldMode),
    (t! "Approach Mode:                         ", boolText m.approachMode),
    (t! "Status Of Target Altitude Source:      ", Text.bds40StatusOfTargetAltitudeSource m.statusOfTargetAltitudeSource),
    (t! "Target Altitude Source:                ", Text.bds40TargetAltitudeSource m.targetAltitudeSource)]

/-- `MeteorologicalRoutineAirReportV0.ToString`, pkg/bds/bds44/meteorological_routine_air_report_v0.go:39-67. -/
def RoutineAirReportV0.lines (F : FloatTexts) (m : RoutineAirReportV0) : List (Txt × Txt) :=
    [(t! "Message:                            ", registerText Register.bds44),
    (t! "Source:                             ", Text.bds44Source m.source),
    (t! "Wind Speed Status:                  ", boolText m.windSpeedStatus),
    (t! "Wind Speed (knot):                  ", dec m.windSpeed.toNat),
    (t! "Wind Direction Status:              ", boolText m.windDirectionStatus),
    (t! "Wind Direction (degrees):           ", F.float32 m.windDirection),
    (t! "Static Air Temperature (degrees C): ", F.float32 m.staticAirTemperature),
    (t! "Average Static Pressure Status:     ", boolText m.averageStaticPressureStatus),
    (t! "Average Static Pressure (hPa):      ", dec m.averageStaticPressure.toNat),
    (t! "Turbulence Status:                  ", boolText m.turbulenceStatus),
    (t! "Turbulence:                         ", Text.bds44TurbulenceLevel m.turbulence),
    (t! "Humidity Status:                    ", boolText m.humidityStatus),
    (t! "Humidity (%):                       ", F.float32 m.humidity)]

/-- `MeteorologicalRoutineAirReportV1.ToString`, pkg/bds/bds44/meteorological_routine_air_report_v1.go:38-64. -/
def RoutineAirReportV1.lines (F : FloatTexts) (m : RoutineAirReportV1) : List (Txt × Txt) :=
    [(t! "Message:                            ", registerText Register.bds44),
    (t! "Wind Speed Status:                  ", boolText m.windSpeedStatus),
    (t! "Wind Speed (knot):                  ", dec m.windSpeed.toNat),
    (t! "Wind Direction Status:              ", boolText m.windDirectionStatus),
    (t! "Wind Direction (degrees):           ", F.float32 m.windDirection),
    (t! "Static Air Temperature Status:      ", boolText m.staticAirTemperatureStatus),
    (t! "Static Air Temperature (degrees C): ", F.float32 m.staticAirTemperature),
    (t! "Average Static Pressure Status:     ", boolText m.averageStaticPressureStatus),
    (t! "Average Static Pressure (hPa):      ", dec m.averageStaticPressure.toNat),
    (t! "Turbulence Flag:                    ", Text.bds44TurbulenceFlag m.turbulenceFlag),
    (t! "Humidity Status:                    ", boolText m.humidityStatus),
    (t! "Humidity (%):                       ", F.float32 m.humidity)]

/-- `MeteorologicalRoutineAirReportV2.ToString`, pkg/bds/bds44/meteorological_routine_air_report_v2.go:40-68. -/
def RoutineAirReportV2.lines (F : FloatTexts) (m : RoutineAirReportV2) : List (Txt × Txt) :=
    [(t! "Message:                            ", registerText Register.bds44),
    (t! "Source:                             ", Text.bds44Source m.source),
    (t! "Wind Speed Status:                  ", boolText m.windSpeedStatus),
    (t! "Wind Speed (knot):                  ", dec m.windSpeed.toNat),
    (t! "Wind Direction Status:              ", boolText m.windDirectionStatus),
    (t! "Wind Direction (degrees):           ", F.float32 m.windDirection),
    (t! "Static Air Temperature Status:      ", boolText m.staticAirTemperatureStatus),
    (t! "Static Air Temperature (degrees C): ", F.float32 m.staticAirTemperature),
    (t! "Average Static Pressure Status:     ", boolText m.averageStaticPressureStatus),
    (t! "Average Static Pressure (hPa):      ", dec m.averageStaticPressure.toNat),
    (t! "Turbulence Flag:                    ", Text.bds44TurbulenceFlag m.turbulenceFlag),
    (t! "Humidity Status:                    ", boolText m.humidityStatus),
    (t! "Humidity (%):                       ", F.float32 m.humidity)]

/-- `MeteorologicalHazardReportV0.ToString`, pkg/bds/bds45/meteorological_hazard_report_v0.go:42-78. -/
def HazardReportV0.lines (F : FloatTexts) (m : HazardReportV0) : List (Txt × Txt) :=
    [(t! "Message:                            ", registerText Register.bds45),
    (t! "Turbulence Status:                  ", boolText m.turbulenceStatus),
    (t! "Turbulence:                         ", Text.bds45HazardLevel m.turbulence),
    (t! "Wind Shear Status:                  ", boolText m.windShearStatus),
    (t! "Wind Shear:                         ", Text.bds45HazardLevel m.windShear),
    (t! "Micro Burst Status:                 ", boolText m.microBurstStatus),
    (t! "Micro Burst:                        ", Text.bds45HazardLevel m.microBurst),
    (t! "Icing Status:                       ", boolText m.icingStatus),
    (t! "Icing:                              ", Text.bds45HazardLevel m.icing),
    (t! "Wake Vortex Status:                 ", boolText m.wakeVortexStatus),
    (t! "Wake Vortex:                        ", Text.bds45HazardLevel m.wakeVortex),
    (t! "Static Air Temperature Status:      ", boolText m.staticAirTemperatureStatus),
    (t! "Static Air Temperature (degrees C): ", F.float32 m.staticAirTemperature),
    (t! "Average Static Pressure Status:     ", boolText m.averageStaticPressureStatus),
    (t! "Average Static Pressure (hPa):      ", dec m.averageStaticPressure.toNat),
    (t! "Radio Height Status:                ", boolText m.radioHeightStatus),
    (t! "Radio Height (feet):                ", dec m.radioHeight.toNat)]

/-- `MeteorologicalHazardReportV1.ToString`, pkg/bds/bds45/meteorological_hazard_report_v1.go:44-84. -/
def HazardReportV1.lines (F : FloatTexts) (m : HazardReportV1) : List (Txt × Txt) :=
    [(t! "Message:                              ", registerText Register.bds45),
    (t! "Wind Shear Status:                    ", boolText m.windShearStatus),
    (t! "Wind Shear:                           ", Text.bds45HazardLevel m.windShear),
    (t! "Micro Burst Status:                   ", boolText m.microBurstStatus),
    (t! "Micro Burst:                          ", Text.bds45HazardLevel m.microBurst),
    (t! "Icing Status:                         ", boolText m.icingStatus),
    (t! "Icing:                                ", Text.bds45HazardLevel m.icing),
    (t! "Wake Vortex Status:                   ", boolText m.wakeVortexStatus),
    (t! "Wake Vortex:                          ", Text.bds45HazardLevel m.wakeVortex),
    (t! "Static Air Temperature Status:        ", boolText m.staticAirTemperatureStatus),
    (t! "Static Air Temperature (degrees C):   ", F.float32 m.staticAirTemperature),
    (t! "Average Static Pressure Status:       ", boolText m.averageStaticPressureStatus),
    (t! "Average Static Pressure (hPa):        ", dec m.averageStaticPressure.toNat),
    (t! "Radio Height Status:                  ", boolText m.radioHeightStatus),
    (t! "Radio Height (feet):                  ", dec m.radioHeight.toNat),
    (t! "Turbulence Status:                    ", boolText m.turbulenceStatus),
    (t! "Average Turbulence EDR Metric         ", F.float32 m.turbulenceAverageEDR),
    (t! "Peak Turbulence EDR Metric:           ", F.float32 m.turbulencePeakEDR),
    (t! "Turbulence Peak Delay Interval (min): ", dec m.turbulencePeakDelayInterval.toNat)]

/-- `TrackAndTurnReport.ToString`, pkg/bds/bds50/track_and_turn_report.go:33-57. -/
def TrackAndTurnReport.lines (F : FloatTexts) (m : TrackAndTurnReport) : List (Txt × Txt) :=
    [(t! "Message:                               ", registerText Register.bds50),
    (t! "Roll Angle Status:                     ", boolText m.rollAngleStatus),
    (t! "Roll Angle (degrees):                  ", F.float32 m.rollAngle),
    (t! "True Track Angle Status:               ", boolText m.trueTrackAngleStatus),
    (t! "True Track (degrees):                  ", F.float32 m.trueTrackAngle),
    (t! "Ground Speed Status:                   ", boolText m.groundSpeedStatus),
    (t! "Ground Speed (knots):                  ", dec m.groundSpeed.toNat),
    (t! "Track Angle Rate Status:               ", boolText m.trackAngleRateStatus),
    (t! "Track Angle Rate (degrees/second):     ", F.float32 m.trackAngleRate),
    (t! "True Air Speed Status:                 ", boolText m.trueAirSpeedStatus),
    (t! "True Air Speed (knots):                ", dec m.trueAirSpeed.toNat)]

/-- `HeadingAndTrackReport.ToString`, pkg/bds/bds60/heading_and_speed_report.go:32-56. -/
def HeadingAndTrackReport.lines (F : FloatTexts) (m : HeadingAndTrackReport) : List (Txt × Txt) :=
    [(t! "Message:                                  ", registerText Register.bds60),
    (t! "Magnetic Heading Status:                  ", boolText m.magneticHeadingStatus),
    (t! "Magnetic Heading (degrees):               ", F.float32 m.magneticHeading),
    (t! "Indicated Air Speed Status:               ", boolText m.indicatedAirSpeedStatus),
    (t! "Indicated Air Speed (knots):              ", dec m.indicatedAirSpeed.toNat),
    (t! "Mach Status:                              ", boolText m.machStatus),
    (t! "Mach:                                     ", F.float32 m.mach),
    (t! "Barometric Altitude Rate Status:          ", boolText m.barometricAltitudeRateStatus),
    (t! "Barometric Altitude Rate (feet/minute):   ", decInt m.barometricAltitudeRate),
    (t! "Inertial Vertical Velocity Status:        ", boolText m.initialVerticalVelocityStatus),
    (t! "Inertial Vertical Velocity (feet/minute): ", decInt m.initialVerticalVelocity)]

/-- `ToString` of each kind of routine air report. -/
def RoutineAirReport.lines (F : FloatTexts) : RoutineAirReport → List (Txt × Txt)
  | .v0 m => m.lines F
  | .v1 m => m.lines F
  | .v2 m => m.lines F

/-- `ToString` of each kind of hazard report. -/
def HazardReport.lines (F : FloatTexts) : HazardReport → List (Txt × Txt)
  | .v0 m => m.lines F
  | .v1 m => m.lines F

/-- `ToString` of the Comm-B messages, through the interface. -/
def CommBMessage.lines (F : FloatTexts) : CommBMessage → List (Txt × Txt)
  | .bds00 m => m.lines
  | .bds07 m => m.lines
  | .bds20 m => m.lines
  | .bds10 m => m.lines
  | .bds17 m => m.lines
  | .bds30 m => m.lines F
  | .bds40 m => m.lines F
  | .bds44 m => m.lines F
  | .bds45 m => m.lines F
  | .bds50 m => m.lines F
  | .bds60 m => m.lines F

/-- `ToString` of a Comm-B message. -/
def CommBMessage.text (F : FloatTexts) (m : CommBMessage) : Txt := linesText (m.lines F)

end Modes
