import Verif.Props.TranslationTextsLines
/-!
# The texts of the registers: the code and the model agree

Written by tools/go2lean/generate_texts_messages.py. `Shown.…` is the text of the code (Model/TranslationTexts), `linesText (m.lines F)` that of the
model.
-/
namespace Modes
open Spec

@[shown_text] theorem shown_bds05_AirbornePosition_GetRegister (m : AirbornePosition) : Shown.bds.bds05.AirbornePosition.GetRegister m = Register.bds05 := rfl

@[shown_text] theorem shown_bds09_AirborneVelocityGroundSpeedNormal_GetRegister (m : GroundSpeedVelocity) : Shown.bds.bds09.AirborneVelocityGroundSpeedNormal.GetRegister m = Register.bds09 := rfl

@[shown_text] theorem shown_bds09_AirborneVelocityGroundSpeedSupersonic_GetRegister (m : GroundSpeedVelocity) : Shown.bds.bds09.AirborneVelocityGroundSpeedSupersonic.GetRegister m = Register.bds09 := rfl

@[shown_text] theorem shown_bds09_AirborneVelocityAirSpeedNormal_GetRegister (m : AirSpeedVelocity) : Shown.bds.bds09.AirborneVelocityAirSpeedNormal.GetRegister m = Register.bds09 := rfl

@[shown_text] theorem shown_bds09_AirborneVelocityAirSpeedSupersonic_GetRegister (m : AirSpeedVelocity) : Shown.bds.bds09.AirborneVelocityAirSpeedSupersonic.GetRegister m = Register.bds09 := rfl

@[shown_text] theorem shown_bds08_AircraftIdentificationAndCategory_GetRegister (m : IdentificationAndCategory) : Shown.bds.bds08.AircraftIdentificationAndCategory.GetRegister m = Register.bds08 := rfl

@[shown_text] theorem shown_bds65_AircraftOperationalStatusADSB0_GetRegister (m : OpStatusV0) : Shown.bds.bds65.AircraftOperationalStatusADSB0.GetRegister m = Register.bds65 := rfl

@[shown_text] theorem shown_bds65_AircraftOperationalStatusAirborneADSB1_GetRegister (m : OpStatusAirborneV1) : Shown.bds.bds65.AircraftOperationalStatusAirborneADSB1.GetRegister m = Register.bds65 := rfl

@[shown_text] theorem shown_bds65_AircraftOperationalStatusAirborneADSB2_GetRegister (m : OpStatusAirborneV2) : Shown.bds.bds65.AircraftOperationalStatusAirborneADSB2.GetRegister m = Register.bds65 := rfl

@[shown_text] theorem shown_bds65_AircraftOperationalStatusSurfaceADSB1_GetRegister (m : OpStatusSurfaceV1) : Shown.bds.bds65.AircraftOperationalStatusSurfaceADSB1.GetRegister m = Register.bds65 := rfl

@[shown_text] theorem shown_bds65_AircraftOperationalStatusSurfaceADSB2_GetRegister (m : OpStatusSurfaceV2) : Shown.bds.bds65.AircraftOperationalStatusSurfaceADSB2.GetRegister m = Register.bds65 := rfl

@[shown_text] theorem shown_bds61_AircraftStatusNoInformation_GetRegister (m : StatusNoInformation) : Shown.bds.bds61.AircraftStatusNoInformation.GetRegister m = Register.bds61 := rfl

@[shown_text] theorem shown_bds61_AircraftStatusEmergency_GetRegister (m : StatusEmergency) : Shown.bds.bds61.AircraftStatusEmergency.GetRegister m = Register.bds61 := rfl

@[shown_text] theorem shown_bds61_AircraftStatusACAS_GetRegister (m : StatusACAS) : Shown.bds.bds61.AircraftStatusACAS.GetRegister m = Register.bds61 := rfl

@[shown_text] theorem shown_bds06_SurfacePosition_GetRegister (m : SurfacePosition) : Shown.bds.bds06.SurfacePosition.GetRegister m = Register.bds06 := rfl

@[shown_text] theorem shown_bds62_TargetStateAndStatus0_GetRegister (m : TargetStateAndStatus0) : Shown.bds.bds62.TargetStateAndStatus0.GetRegister m = Register.bds62 := rfl

@[shown_text] theorem shown_bds62_TargetStateAndStatus1_GetRegister (m : TargetStateAndStatus1) : Shown.bds.bds62.TargetStateAndStatus1.GetRegister m = Register.bds62 := rfl

@[shown_text] theorem shown_bds00_NoMessageAvailable_GetRegister (m : NoMessageAvailable) : Shown.bds.bds00.NoMessageAvailable.GetRegister m = Register.bds00 := rfl

@[shown_text] theorem shown_bds07_Status_GetRegister (m : Status07) : Shown.bds.bds07.Status.GetRegister m = Register.bds07 := rfl

@[shown_text] theorem shown_bds10_DataLinkCapabilityReport_GetRegister (m : DataLinkCapabilityReport) : Shown.bds.bds10.DataLinkCapabilityReport.GetRegister m = Register.bds10 := rfl

@[shown_text] theorem shown_bds17_CommonUsageGICBCapabilityReport_GetRegister (m : GICBCapabilityReport) : Shown.bds.bds17.CommonUsageGICBCapabilityReport.GetRegister m = Register.bds17 := rfl

@[shown_text] theorem shown_bds20_AircraftIdentification_GetRegister (m : AircraftIdentification) : Shown.bds.bds20.AircraftIdentification.GetRegister m = Register.bds20 := rfl

@[shown_text] theorem shown_bds30_ACASResolutionAdvisory_GetRegister (m : ACASResolutionAdvisory) : Shown.bds.bds30.ACASResolutionAdvisory.GetRegister m = Register.bds30 := rfl

@[shown_text] theorem shown_bds40_SelectedVerticalIntention_GetRegister (m : SelectedVerticalIntention) : Shown.bds.bds40.SelectedVerticalIntention.GetRegister m = Register.bds40 := rfl

@[shown_text] theorem shown_bds44_MeteorologicalRoutineAirReportV0_GetRegister (m : RoutineAirReportV0) : Shown.bds.bds44.MeteorologicalRoutineAirReportV0.GetRegister m = Register.bds44 := rfl

@[shown_text] theorem shown_bds44_MeteorologicalRoutineAirReportV1_GetRegister (m : RoutineAirReportV1) : Shown.bds.bds44.MeteorologicalRoutineAirReportV1.GetRegister m = Register.bds44 := rfl

@[shown_text] theorem shown_bds44_MeteorologicalRoutineAirReportV2_GetRegister (m : RoutineAirReportV2) : Shown.bds.bds44.MeteorologicalRoutineAirReportV2.GetRegister m = Register.bds44 := rfl

@[shown_text] theorem shown_bds45_MeteorologicalHazardReportV0_GetRegister (m : HazardReportV0) : Shown.bds.bds45.MeteorologicalHazardReportV0.GetRegister m = Register.bds45 := rfl

@[shown_text] theorem shown_bds45_MeteorologicalHazardReportV1_GetRegister (m : HazardReportV1) : Shown.bds.bds45.MeteorologicalHazardReportV1.GetRegister m = Register.bds45 := rfl

@[shown_text] theorem shown_bds50_TrackAndTurnReport_GetRegister (m : TrackAndTurnReport) : Shown.bds.bds50.TrackAndTurnReport.GetRegister m = Register.bds50 := rfl

@[shown_text] theorem shown_bds60_HeadingAndTrackReport_GetRegister (m : HeadingAndTrackReport) : Shown.bds.bds60.HeadingAndTrackReport.GetRegister m = Register.bds60 := rfl

@[shown_text] theorem shown_bds_bds65_NavigationAccuracyCategoryVelocity (c : UInt8) : Shown.bds.bds65.fields.NavigationAccuracyCategoryVelocity.ToString c = dec c.toNat := rfl

@[shown_text] theorem shown_bds_bds06_EncodedLatitude (c : UInt32) : Shown.bds.bds06.fields.EncodedLatitude.ToString c = dec c.toNat := rfl

@[shown_text] theorem shown_bds_bds06_EncodedLongitude (c : UInt32) : Shown.bds.bds06.fields.EncodedLongitude.ToString c = dec c.toNat := rfl

/-- pkg/acas/ra/fields/active_resolution_advisory_multiple_threats.go:23 -/
@[shown_text] theorem shown_acas_ra_ActiveRAMultipleThreatsDifferentSeparation (m : MultipleThreats) :
    Shown.acas.ra.fields.ActiveRAMultipleThreatsDifferentSeparation.ToString m = linesText (m.lines) := by
  unfold Shown.acas.ra.fields.ActiveRAMultipleThreatsDifferentSeparation.ToString MultipleThreats.lines
  simp only [linesText_two, linesText_one, List.append_assoc, List.nil_append, List.append_nil, shown_text]

/-- pkg/acas/ra/fields/active_resolution_advisory_one_or_same_separation.go:23 -/
@[shown_text] theorem shown_acas_ra_ActiveRAOneThreatOrSameSeparation (m : OneThreat) (hm : m.Printable) :
    Shown.acas.ra.fields.ActiveRAOneThreatOrSameSeparation.ToString m = linesText (m.lines) := by
  unfold Shown.acas.ra.fields.ActiveRAOneThreatOrSameSeparation.ToString OneThreat.lines
  simp only [linesText_two, linesText_one, List.append_assoc, List.nil_append, List.append_nil, shown_text, shown_acasActiveRAPreventiveCorrective hm.1, shown_acasActiveRAVerticalSpeedLimitOrPositive hm.2]

/-- pkg/bds/bds05/airborne_position.go:33 -/
@[shown_text] theorem shown_bds_bds05_AirbornePosition (m : AirbornePosition) (hm : m.Printable) :
    Shown.bds.bds05.AirbornePosition.ToString m = linesText (m.lines) := by
  unfold Shown.bds.bds05.AirbornePosition.ToString AirbornePosition.lines
  simp only [linesText_two, linesText_one, List.append_assoc, List.nil_append, List.append_nil, shown_text, shown_bds05AltitudeSource hm.1, shown_bds05AltitudeReportMethod hm.2]

/-- pkg/bds/bds09/airborne_velocity_ground_speed_normal.go:47 -/
@[shown_text] theorem shown_bds_bds09_AirborneVelocityGroundSpeedNormal (F : FloatTexts) (m : GroundSpeedVelocity) :
    Shown.bds.bds09.AirborneVelocityGroundSpeedNormal.ToString F m = linesText (m.lines F) := by
  unfold Shown.bds.bds09.AirborneVelocityGroundSpeedNormal.ToString GroundSpeedVelocity.lines
  simp only [linesText_two, linesText_one, List.append_assoc, List.nil_append, List.append_nil, shown_text]

/-- pkg/bds/bds09/airborne_velocity_ground_speed_supersonic.go:47 -/
@[shown_text] theorem shown_bds_bds09_AirborneVelocityGroundSpeedSupersonic (F : FloatTexts) (m : GroundSpeedVelocity) :
    Shown.bds.bds09.AirborneVelocityGroundSpeedSupersonic.ToString F m = linesText (m.lines F) := by
  unfold Shown.bds.bds09.AirborneVelocityGroundSpeedSupersonic.ToString GroundSpeedVelocity.lines
  simp only [linesText_two, linesText_one, List.append_assoc, List.nil_append, List.append_nil, shown_text]

/-- pkg/bds/bds09/airborne_velocity_air_speed_normal.go:43 -/
@[shown_text] theorem shown_bds_bds09_AirborneVelocityAirSpeedNormal (F : FloatTexts) (m : AirSpeedVelocity) :
    Shown.bds.bds09.AirborneVelocityAirSpeedNormal.ToString F m = linesText (m.lines F) := by
  unfold Shown.bds.bds09.AirborneVelocityAirSpeedNormal.ToString AirSpeedVelocity.lines
  simp only [linesText_two, linesText_one, List.append_assoc, List.nil_append, List.append_nil, shown_text]

/-- pkg/bds/bds09/airborne_velocity_air_speed_supersonic.go:43 -/
@[shown_text] theorem shown_bds_bds09_AirborneVelocityAirSpeedSupersonic (F : FloatTexts) (m : AirSpeedVelocity) :
    Shown.bds.bds09.AirborneVelocityAirSpeedSupersonic.ToString F m = linesText (m.lines F) := by
  unfold Shown.bds.bds09.AirborneVelocityAirSpeedSupersonic.ToString AirSpeedVelocity.lines
  simp only [linesText_two, linesText_one, List.append_assoc, List.nil_append, List.append_nil, shown_text]

/-- pkg/bds/bds08/aircraft_identification_and_category.go:40 -/
@[shown_text] theorem shown_bds_bds08_AircraftIdentificationAndCategory (m : IdentificationAndCategory) :
    Shown.bds.bds08.AircraftIdentificationAndCategory.ToString m = linesText (m.lines) := by
  unfold Shown.bds.bds08.AircraftIdentificationAndCategory.ToString IdentificationAndCategory.lines
  simp only [linesText_two, linesText_one, List.append_assoc, List.nil_append, List.append_nil, shown_text]

/-- pkg/bds/bds65/aircraft_operational_status_adsb0.go:38 -/
@[shown_text] theorem shown_bds_bds65_AircraftOperationalStatusADSB0 (m : OpStatusV0) :
    Shown.bds.bds65.AircraftOperationalStatusADSB0.ToString m = linesText (m.lines) := by
  unfold Shown.bds.bds65.AircraftOperationalStatusADSB0.ToString OpStatusV0.lines
  simp only [linesText_two, linesText_one, List.append_assoc, List.nil_append, List.append_nil, shown_text]

/-- pkg/bds/bds65/fields/airborne_capability_class_v1.go:17 -/
@[shown_text] theorem shown_bds_bds65_AirborneCapabilityClassV1 (m : AirborneCapabilityClassV1) :
    Shown.bds.bds65.fields.AirborneCapabilityClassV1.ToString m = linesText (m.lines) := by
  unfold Shown.bds.bds65.fields.AirborneCapabilityClassV1.ToString AirborneCapabilityClassV1.lines
  simp only [linesText_two, linesText_one, List.append_assoc, List.nil_append, List.append_nil, shown_text]

/-- pkg/bds/bds65/fields/operational_mode.go:15 -/
@[shown_text] theorem shown_bds_bds65_OperationalMode (m : OperationalMode) :
    Shown.bds.bds65.fields.OperationalMode.ToString m = linesText (m.lines) := by
  unfold Shown.bds.bds65.fields.OperationalMode.ToString OperationalMode.lines
  simp only [linesText_two, linesText_one, List.append_assoc, List.nil_append, List.append_nil, shown_text]

/-- pkg/bds/bds65/fields/airborne_capability_class_v2.go:18 -/
@[shown_text] theorem shown_bds_bds65_AirborneCapabilityClassV2 (m : AirborneCapabilityClassV2) :
    Shown.bds.bds65.fields.AirborneCapabilityClassV2.ToString m = linesText (m.lines) := by
  unfold Shown.bds.bds65.fields.AirborneCapabilityClassV2.ToString AirborneCapabilityClassV2.lines
  simp only [linesText_two, linesText_one, List.append_assoc, List.nil_append, List.append_nil, shown_text]

/-- pkg/bds/bds65/fields/airborne_operational_mode.go:16 -/
@[shown_text] theorem shown_bds_bds65_AirborneOperationalMode (m : AirborneOperationalMode) :
    Shown.bds.bds65.fields.AirborneOperationalMode.ToString m = linesText (m.lines) := by
  unfold Shown.bds.bds65.fields.AirborneOperationalMode.ToString AirborneOperationalMode.lines
  simp only [linesText_two, linesText_one, List.append_assoc, List.nil_append, List.append_nil, shown_text]

/-- pkg/bds/bds65/fields/surface_capability_class_v1.go:15 -/
@[shown_text] theorem shown_bds_bds65_SurfaceCapabilityClassV1 (m : SurfaceCapabilityClassV1) :
    Shown.bds.bds65.fields.SurfaceCapabilityClassV1.ToString m = linesText (m.lines) := by
  unfold Shown.bds.bds65.fields.SurfaceCapabilityClassV1.ToString SurfaceCapabilityClassV1.lines
  simp only [linesText_two, linesText_one, List.append_assoc, List.nil_append, List.append_nil, shown_text]

/-- pkg/bds/bds65/fields/surface_capability_class_v2.go:19 -/
@[shown_text] theorem shown_bds_bds65_SurfaceCapabilityClassV2 (m : SurfaceCapabilityClassV2) :
    Shown.bds.bds65.fields.SurfaceCapabilityClassV2.ToString m = linesText (m.lines) := by
  unfold Shown.bds.bds65.fields.SurfaceCapabilityClassV2.ToString SurfaceCapabilityClassV2.lines
  simp only [linesText_two, linesText_one, List.append_assoc, List.nil_append, List.append_nil, shown_text]

/-- pkg/bds/bds61/aircraft_status_emergency.go:39 -/
@[shown_text] theorem shown_bds_bds61_AircraftStatusEmergency (m : StatusEmergency) :
    Shown.bds.bds61.AircraftStatusEmergency.ToString m = linesText (m.lines) := by
  unfold Shown.bds.bds61.AircraftStatusEmergency.ToString StatusEmergency.lines
  simp only [linesText_two, linesText_one, List.append_assoc, List.nil_append, List.append_nil, shown_text]

/-- pkg/bds/bds06/surface_position.go:32 -/
@[shown_text] theorem shown_bds_bds06_SurfacePosition (F : FloatTexts) (m : SurfacePosition) (hm : m.Printable) :
    Shown.bds.bds06.SurfacePosition.ToString F m = linesText (m.lines F) := by
  unfold Shown.bds.bds06.SurfacePosition.ToString SurfacePosition.lines
  simp only [linesText_two, linesText_one, List.append_assoc, List.nil_append, List.append_nil, shown_text, shown_bds06MovementStatus hm]

/-- pkg/bds/bds62/target_state_and_status_type_1.go:51 -/
@[shown_text] theorem shown_bds_bds62_TargetStateAndStatus1 (F : FloatTexts) (m : TargetStateAndStatus1) :
    Shown.bds.bds62.TargetStateAndStatus1.ToString F m = linesText (m.lines F) := by
  unfold Shown.bds.bds62.TargetStateAndStatus1.ToString TargetStateAndStatus1.lines
  simp only [linesText_two, linesText_one, List.append_assoc, List.nil_append, List.append_nil, shown_text]

/-- pkg/bds/bds00/no_message_available.go:23 -/
@[shown_text] theorem shown_bds_bds00_NoMessageAvailable (m : NoMessageAvailable) :
    Shown.bds.bds00.NoMessageAvailable.ToString m = linesText (m.lines) := by
  unfold Shown.bds.bds00.NoMessageAvailable.ToString NoMessageAvailable.lines
  simp only [linesText_two, linesText_one, List.append_assoc, List.nil_append, List.append_nil, shown_text]

/-- pkg/bds/bds07/status.go:34 -/
@[shown_text] theorem shown_bds_bds07_Status (m : Status07) :
    Shown.bds.bds07.Status.ToString m = linesText (m.lines) := by
  unfold Shown.bds.bds07.Status.ToString Status07.lines
  simp only [linesText_two, linesText_one, List.append_assoc, List.nil_append, List.append_nil, shown_text]

/-- pkg/bds/bds10/data_link_capability_report.go:73 -/
@[shown_text] theorem shown_bds_bds10_DataLinkCapabilityReport (m : DataLinkCapabilityReport) :
    Shown.bds.bds10.DataLinkCapabilityReport.ToString m = linesText (m.lines) := by
  unfold Shown.bds.bds10.DataLinkCapabilityReport.ToString DataLinkCapabilityReport.lines
  simp only [linesText_two, linesText_one, List.append_assoc, List.nil_append, List.append_nil, shown_text]

/-- pkg/bds/bds17/common_usage_gicb_capability_report.go:43 -/
@[shown_text] theorem shown_bds_bds17_CommonUsageGICBCapabilityReport (m : GICBCapabilityReport) :
    Shown.bds.bds17.CommonUsageGICBCapabilityReport.ToString m = linesText (m.lines) := by
  unfold Shown.bds.bds17.CommonUsageGICBCapabilityReport.ToString GICBCapabilityReport.lines
  simp only [linesText_two, linesText_one, List.append_assoc, List.nil_append, List.append_nil, shown_text]

/-- pkg/bds/bds20/aircraft_identification.go:25 -/
@[shown_text] theorem shown_bds_bds20_AircraftIdentification (m : AircraftIdentification) :
    Shown.bds.bds20.AircraftIdentification.ToString m = linesText (m.lines) := by
  unfold Shown.bds.bds20.AircraftIdentification.ToString AircraftIdentification.lines
  simp only [linesText_two, linesText_one, List.append_assoc, List.nil_append, List.append_nil, shown_text]

/-- pkg/bds/bds40/selected_vertical_intention.go:35 -/
@[shown_text] theorem shown_bds_bds40_SelectedVerticalIntention (F : FloatTexts) (m : SelectedVerticalIntention) :
    Shown.bds.bds40.SelectedVerticalIntention.ToString F m = linesText (m.lines F) := by
  unfold Shown.bds.bds40.SelectedVerticalIntention.ToString SelectedVerticalIntention.lines
  simp only [linesText_two, linesText_one, List.append_assoc, List.nil_append, List.append_nil, shown_text]

/-- pkg/bds/bds44/meteorological_routine_air_report_v0.go:39 -/
@[shown_text] theorem shown_bds_bds44_MeteorologicalRoutineAirReportV0 (F : FloatTexts) (m : RoutineAirReportV0) :
    Shown.bds.bds44.MeteorologicalRoutineAirReportV0.ToString F m = linesText (m.lines F) := by
  unfold Shown.bds.bds44.MeteorologicalRoutineAirReportV0.ToString RoutineAirReportV0.lines
  simp only [linesText_two, linesText_one, List.append_assoc, List.nil_append, List.append_nil, shown_text]

/-- pkg/bds/bds44/meteorological_routine_air_report_v1.go:38 -/
@[shown_text] theorem shown_bds_bds44_MeteorologicalRoutineAirReportV1 (F : FloatTexts) (m : RoutineAirReportV1) :
    Shown.bds.bds44.MeteorologicalRoutineAirReportV1.ToString F m = linesText (m.lines F) := by
  unfold Shown.bds.bds44.MeteorologicalRoutineAirReportV1.ToString RoutineAirReportV1.lines
  simp only [linesText_two, linesText_one, List.append_assoc, List.nil_append, List.append_nil, shown_text]

/-- pkg/bds/bds44/meteorological_routine_air_report_v2.go:40 -/
@[shown_text] theorem shown_bds_bds44_MeteorologicalRoutineAirReportV2 (F : FloatTexts) (m : RoutineAirReportV2) :
    Shown.bds.bds44.MeteorologicalRoutineAirReportV2.ToString F m = linesText (m.lines F) := by
  unfold Shown.bds.bds44.MeteorologicalRoutineAirReportV2.ToString RoutineAirReportV2.lines
  simp only [linesText_two, linesText_one, List.append_assoc, List.nil_append, List.append_nil, shown_text]

/-- pkg/bds/bds45/meteorological_hazard_report_v0.go:42 -/
@[shown_text] theorem shown_bds_bds45_MeteorologicalHazardReportV0 (F : FloatTexts) (m : HazardReportV0) :
    Shown.bds.bds45.MeteorologicalHazardReportV0.ToString F m = linesText (m.lines F) := by
  unfold Shown.bds.bds45.MeteorologicalHazardReportV0.ToString HazardReportV0.lines
  simp only [linesText_two, linesText_one, List.append_assoc, List.nil_append, List.append_nil, shown_text]

/-- pkg/bds/bds45/meteorological_hazard_report_v1.go:44 -/
@[shown_text] theorem shown_bds_bds45_MeteorologicalHazardReportV1 (F : FloatTexts) (m : HazardReportV1) :
    Shown.bds.bds45.MeteorologicalHazardReportV1.ToString F m = linesText (m.lines F) := by
  unfold Shown.bds.bds45.MeteorologicalHazardReportV1.ToString HazardReportV1.lines
  simp only [linesText_two, linesText_one, List.append_assoc, List.nil_append, List.append_nil, shown_text]

/-- pkg/bds/bds50/track_and_turn_report.go:33 -/
@[shown_text] theorem shown_bds_bds50_TrackAndTurnReport (F : FloatTexts) (m : TrackAndTurnReport) :
    Shown.bds.bds50.TrackAndTurnReport.ToString F m = linesText (m.lines F) := by
  unfold Shown.bds.bds50.TrackAndTurnReport.ToString TrackAndTurnReport.lines
  simp only [linesText_two, linesText_one, List.append_assoc, List.nil_append, List.append_nil, shown_text]

/-- pkg/bds/bds60/heading_and_speed_report.go:32 -/
@[shown_text] theorem shown_bds_bds60_HeadingAndTrackReport (F : FloatTexts) (m : HeadingAndTrackReport) :
    Shown.bds.bds60.HeadingAndTrackReport.ToString F m = linesText (m.lines F) := by
  unfold Shown.bds.bds60.HeadingAndTrackReport.ToString HeadingAndTrackReport.lines
  simp only [linesText_two, linesText_one, List.append_assoc, List.nil_append, List.append_nil, shown_text]

end Modes
