import Verif.Props.TranslationTextsRegisters
import Verif.Props.TranslationReaders
/-!
# The texts of the messages: the code and the model agree

`Shown.…` is the text of the code (Model/TranslationTexts), `….text` the text of the model.
-/
namespace Modes
open Spec

theorem raComplement_ne (m : RAComplement) : m.lines ≠ [] := List.cons_ne_nil _ _
theorem capabilityA1_ne (m : AirborneCapabilityClassV1) : m.lines ≠ [] := List.cons_ne_nil _ _
theorem capabilityA2_ne (m : AirborneCapabilityClassV2) : m.lines ≠ [] := List.cons_ne_nil _ _
theorem capabilityS1_ne (m : SurfaceCapabilityClassV1) : m.lines ≠ [] := List.cons_ne_nil _ _
theorem capabilityS2_ne (m : SurfaceCapabilityClassV2) : m.lines ≠ [] := List.cons_ne_nil _ _
theorem mode_ne (m : OperationalMode) : m.lines ≠ [] := List.cons_ne_nil _ _
theorem modeA_ne (m : AirborneOperationalMode) : m.lines ≠ [] := List.cons_ne_nil _ _
theorem modeS_ne (m : SurfaceOperationalMode) : m.lines ≠ [] := by unfold SurfaceOperationalMode.lines; lines_ne
theorem gps_ne (m : SurfaceOperationalMode) : m.gpsLines ≠ [] := List.cons_ne_nil _ _

/-- Some lines are given. -/
macro "lines_ne'" : tactic =>
  `(tactic| repeat'
      first
      | exact List.cons_ne_nil _ _ | exact sil_ne _ | exact sil62_ne _ | exact activeRA_ne _ | exact labelled_ne _ _
      | exact raComplement_ne _ | exact capabilityA1_ne _ | exact capabilityA2_ne _ | exact capabilityS1_ne _ | exact capabilityS2_ne _
      | exact mode_ne _ | exact modeA_ne _ | exact modeS_ne _ | exact gps_ne _ | apply nest_ne | apply List.append_ne_nil_of_left_ne_nil)

/-- pkg/acas/ra/fields/resolution_advisory_complement.go:18 -/
@[shown_text] theorem shown_raComplement (m : RAComplement) : Shown.acas.ra.fields.RAComplement.ToString m = linesText m.lines := by
  unfold Shown.acas.ra.fields.RAComplement.ToString RAComplement.lines
  simp only [linesText_two, linesText_one, List.append_assoc, List.nil_append, List.append_nil, shown_text]

/-- pkg/bds/bds61/aircraft_status_no_information.go:38 -/
@[shown_text] theorem shown_statusNoInformation (m : StatusNoInformation) :
    Shown.bds.bds61.AircraftStatusNoInformation.ToString m = linesText m.lines := by
  unfold Shown.bds.bds61.AircraftStatusNoInformation.ToString StatusNoInformation.lines
  simp only [linesText_two, linesText_one, List.append_assoc, List.nil_append, List.append_nil, shown_text]

/-- pkg/acas/ra/fields: ToString of the three active advisories, through the interface -/
theorem shown_activeRA (m : ActiveRA) (hm : ∀ o, m = .oneThreat o → o.Printable) :
    Shown.acas.ra.fields.ActiveResolutionAdvisory.ToString m = linesText m.lines := by
  cases m with
  | oneThreat o => exact shown_acas_ra_ActiveRAOneThreatOrSameSeparation o (hm o rfl)
  | multiple o => exact shown_acas_ra_ActiveRAMultipleThreatsDifferentSeparation o
  | none => rfl

/-- pkg/acas/ra/resolution_advisory.go:26 -/
theorem shown_resolutionAdvisory (F : FloatTexts) (m : ResolutionAdvisory) (hm : m.Printable) :
    Shown.acas.ra.ResolutionAdvisory.ToString F m = linesText (m.lines F) := by
  obtain ⟨h1, h2, h3, -⟩ := hm
  unfold Shown.acas.ra.ResolutionAdvisory.ToString ResolutionAdvisory.lines
  rw [shown_activeRA _ h1, prefix_linesText _ (activeRA_ne _) (m.activeRA.allLine h1), shown_acasRATerminatedIndicator h2,
    shown_acasThreatTypeIndicator h3]
  unfold ResolutionAdvisory.threatLines
  by_cases c0 : m.threatTypeIndicator = 0
  · simp (disch := lines_ne') only [c0, if_true, linesText_append, linesText_two, linesText_one, List.append_assoc, List.nil_append, List.append_nil, shown_text, prefix_linesText _ (raComplement_ne _) (RAComplement.allLine _)]
  by_cases c1 : m.threatTypeIndicator = 1
  · rw [c1]
    simp only [if_neg (by decide : ¬ (1 : ℕ) = 0)]
    cases m.threatIdentityAddress <;>
    simp (disch := lines_ne') only [if_true, linesText_append, linesText_two, linesText_one, List.append_assoc, List.nil_append, List.append_nil, shown_text, prefix_linesText _ (raComplement_ne _) (RAComplement.allLine _)]
  by_cases c2 : m.threatTypeIndicator = 2
  · rw [c2]
    simp only [if_neg (by decide : ¬ (2 : ℕ) = 0), if_neg (by decide : ¬ (2 : ℕ) = 1)]
    cases m.threatIdentityAltitude <;> cases m.threatIdentityRange <;> cases m.threatIdentityBearing <;>
    simp (disch := lines_ne') only [if_true, linesText_append, linesText_two, linesText_one, List.append_assoc, List.nil_append, List.append_nil, shown_text, prefix_linesText _ (raComplement_ne _) (RAComplement.allLine _)]
  · simp (disch := lines_ne') only [c0, c1, c2, if_false, linesText_append, linesText_two, linesText_one, List.append_assoc, List.nil_append, List.append_nil, shown_text, prefix_linesText _ (raComplement_ne _) (RAComplement.allLine _)]

theorem ra_lines_ne (F : FloatTexts) (m : ResolutionAdvisory) : m.lines F ≠ [] := by
  unfold ResolutionAdvisory.lines
  lines_ne

/-- pkg/bds/bds61/aircraft_status_acas.go:33 -/
theorem shown_statusACAS (F : FloatTexts) (m : StatusACAS) (hm : m.resolutionAdvisory.Printable) :
    Shown.bds.bds61.AircraftStatusACAS.ToString F m = linesText (m.lines F) := by
  unfold Shown.bds.bds61.AircraftStatusACAS.ToString StatusACAS.lines
  rw [linesText_append _ _ (List.cons_ne_nil _ _) (ra_lines_ne F _), shown_resolutionAdvisory F _ hm]
  simp only [linesText_two, linesText_one, List.append_assoc, List.nil_append, List.append_nil, shown_text]

/-- pkg/bds/bds30/acas_resolution_advisory.go:23 -/
theorem shown_bds30 (F : FloatTexts) (m : ACASResolutionAdvisory) (hm : m.resolutionAdvisory.Printable) :
    Shown.bds.bds30.ACASResolutionAdvisory.ToString F m = linesText (m.lines F) := by
  unfold Shown.bds.bds30.ACASResolutionAdvisory.ToString ACASResolutionAdvisory.lines
  rw [linesText_append _ _ (List.cons_ne_nil _ _) (ra_lines_ne F _), shown_resolutionAdvisory F _ hm]
  simp only [linesText_two, linesText_one, List.append_assoc, List.nil_append, List.append_nil, shown_text]

/-- pkg/bds/bds65/fields/surface_operational_mode.go:20 -/
@[shown_text] theorem shown_surfaceOperationalMode (m : SurfaceOperationalMode) :
    Shown.bds.bds65.fields.SurfaceOperationalMode.ToString m = linesText m.lines := by
  unfold Shown.bds.bds65.fields.SurfaceOperationalMode.ToString SurfaceOperationalMode.lines
  rw [shown_gpsAntenna, prefix_linesText _ (gps_ne m) (gps_allLine m),
    linesText_append _ _ (List.cons_ne_nil _ _) (labelled_ne _ _), linesText_labelled _ _ (nest_ne (gps_ne m))]
  simp only [linesText_two, linesText_one, List.append_assoc, List.nil_append, List.append_nil, shown_text]

/-- pkg/bds/bds62/target_state_and_status_type_0.go:50 -/
@[shown_text] theorem shown_targetState0 (m : TargetStateAndStatus0) :
    Shown.bds.bds62.TargetStateAndStatus0.ToString m = linesText m.lines := by
  unfold Shown.bds.bds62.TargetStateAndStatus0.ToString TargetStateAndStatus0.lines
  simp (disch := lines_ne') only [linesText_append, linesText_labelled, linesText_two, linesText_one, List.append_assoc, List.nil_append, List.append_nil, shown_text]

/-- pkg/bds/bds65/aircraft_operational_status_airborne_adsb1.go:43 -/
theorem shown_airborneV1 (m : OpStatusAirborneV1) (hm : m.Printable) :
    Shown.bds.bds65.AircraftOperationalStatusAirborneADSB1.ToString m = linesText m.lines := by
  unfold Shown.bds.bds65.AircraftOperationalStatusAirborneADSB1.ToString OpStatusAirborneV1.lines
  simp (disch := lines_ne') only [linesText_append, linesText_two, linesText_one, List.append_assoc, List.nil_append, List.append_nil, shown_text,
    prefix_linesText _ (capabilityA1_ne _) (AirborneCapabilityClassV1.allLine _),
    prefix_linesText _ (mode_ne _) (OperationalMode.allLine _),
    prefix_linesText _ (sil_ne _) (sil_allLine _ hm)]

/-- pkg/bds/bds65/aircraft_operational_status_airborne_adsb2.go:45 -/
@[shown_text] theorem shown_airborneV2 (m : OpStatusAirborneV2) :
    Shown.bds.bds65.AircraftOperationalStatusAirborneADSB2.ToString m = linesText m.lines := by
  unfold Shown.bds.bds65.AircraftOperationalStatusAirborneADSB2.ToString OpStatusAirborneV2.lines
  simp (disch := lines_ne') only [linesText_append, linesText_two, linesText_one, List.append_assoc, List.nil_append, List.append_nil, shown_text,
    prefix_linesText _ (capabilityA2_ne _) (AirborneCapabilityClassV2.allLine _),
    prefix_linesText _ (modeA_ne _) (AirborneOperationalMode.allLine _)]

/-- pkg/bds/bds65/aircraft_operational_status_surface_adsb1.go:44 -/
theorem shown_surfaceV1 (m : OpStatusSurfaceV1) (hm : m.Printable) :
    Shown.bds.bds65.AircraftOperationalStatusSurfaceADSB1.ToString m = linesText m.lines := by
  unfold Shown.bds.bds65.AircraftOperationalStatusSurfaceADSB1.ToString OpStatusSurfaceV1.lines
  simp (disch := lines_ne') only [linesText_append, linesText_two, linesText_one, List.append_assoc, List.nil_append, List.append_nil, shown_text,
    prefix_linesText _ (capabilityS1_ne _) (SurfaceCapabilityClassV1.allLine _),
    prefix_linesText _ (mode_ne _) (OperationalMode.allLine _),
    prefix_linesText _ (sil_ne _) (sil_allLine _ hm)]

/-- pkg/bds/bds65/aircraft_operational_status_surface_adsb2.go:45 -/
@[shown_text] theorem shown_surfaceV2 (m : OpStatusSurfaceV2) :
    Shown.bds.bds65.AircraftOperationalStatusSurfaceADSB2.ToString m = linesText m.lines := by
  unfold Shown.bds.bds65.AircraftOperationalStatusSurfaceADSB2.ToString OpStatusSurfaceV2.lines
  simp (disch := lines_ne') only [linesText_append, linesText_two, linesText_one, List.append_assoc, List.nil_append, List.append_nil, shown_text,
    prefix_linesText _ (capabilityS2_ne _) (SurfaceCapabilityClassV2.allLine _),
    prefix_linesText _ (modeS_ne _) (SurfaceOperationalMode.allLine _)]

/-- **The text of an ADS-B message.** `ToString` of the code gives the text of the model for every message that was read. -/
theorem shown_adsb (F : FloatTexts) (m : ADSBMessage) (hm : m.Printable) : Shown.adsb.Message.ToString F m = m.text F := by
  have ha (p : AirbornePosition) : p.lines ≠ [] := List.cons_ne_nil _ _
  have hs (p : SurfacePosition) : p.lines F ≠ [] := List.cons_ne_nil _ _
  unfold ADSBMessage.text
  cases m with
  | noPosition => 
    unfold Shown.adsb.Message.ToString ADSBMessage.lines Shown.adsb.no_position_information.NoPositionInformation.ToString
    simp only [linesText_two, linesText_one, List.append_assoc, List.nil_append, List.append_nil, shown_text]
  | airborneType0 p a b =>
    change Shown.adsb.airborne_position.AirbornePositionType0.ToString _ _ b = linesText (AirbornePosition.lines _ ++ _)
    unfold Shown.adsb.airborne_position.AirbornePositionType0.ToString
    rw [shown_bds_bds05_AirbornePosition p hm, linesText_append _ _ (ha p) (List.cons_ne_nil _ _)]
    simp only [linesText_two, linesText_one, List.append_assoc, shown_text]
  | airborneV0 p a b =>
    change Shown.adsb.airborne_position.AirbornePositionV0.ToString _ _ _ = linesText (AirbornePosition.lines _ ++ _)
    unfold Shown.adsb.airborne_position.AirbornePositionV0.ToString
    rw [shown_bds_bds05_AirbornePosition p hm, linesText_append _ _ (ha p) (List.cons_ne_nil _ _)]
    simp only [linesText_two, linesText_one, List.append_assoc, shown_text]
  | airborneV1 p a b c =>
    change Shown.adsb.airborne_position.AirbornePositionV1.ToString _ _ _ _ = linesText (AirbornePosition.lines _ ++ _)
    unfold Shown.adsb.airborne_position.AirbornePositionV1.ToString
    rw [shown_bds_bds05_AirbornePosition p hm, linesText_append _ _ (ha p) (List.cons_ne_nil _ _)]
    simp only [linesText_two, linesText_one, List.append_assoc, shown_text]
  | airborneV2 p a b c d =>
    change Shown.adsb.airborne_position.AirbornePositionV2.ToString _ _ _ _ _ = linesText (AirbornePosition.lines _ ++ _)
    unfold Shown.adsb.airborne_position.AirbornePositionV2.ToString
    rw [shown_bds_bds05_AirbornePosition p hm, linesText_append _ _ (ha p) (List.cons_ne_nil _ _)]
    simp only [linesText_two, linesText_one, List.append_assoc, shown_text]
  | surfaceV0 p a b =>
    change Shown.adsb.surface_position.SurfacePositionV0.ToString F _ _ _ = linesText (SurfacePosition.lines F _ ++ _)
    unfold Shown.adsb.surface_position.SurfacePositionV0.ToString
    rw [shown_bds_bds06_SurfacePosition F p hm, linesText_append _ _ (hs p) (List.cons_ne_nil _ _)]
    simp only [linesText_two, linesText_one, List.append_assoc, shown_text]
  | surfaceV1 p a b c =>
    change Shown.adsb.surface_position.SurfacePositionV1.ToString F _ _ _ _ = linesText (SurfacePosition.lines F _ ++ _)
    unfold Shown.adsb.surface_position.SurfacePositionV1.ToString
    rw [shown_bds_bds06_SurfacePosition F p hm, linesText_append _ _ (hs p) (List.cons_ne_nil _ _)]
    simp only [linesText_two, linesText_one, List.append_assoc, shown_text]
  | surfaceV2 p a b c d =>
    change Shown.adsb.surface_position.SurfacePositionV2.ToString F _ _ _ _ _ = linesText (SurfacePosition.lines F _ ++ _)
    unfold Shown.adsb.surface_position.SurfacePositionV2.ToString
    rw [shown_bds_bds06_SurfacePosition F p hm, linesText_append _ _ (hs p) (List.cons_ne_nil _ _)]
    simp only [linesText_two, linesText_one, List.append_assoc, shown_text]
  | velocity m v =>
    cases m with
    | groundSpeedNormal m => exact shown_bds_bds09_AirborneVelocityGroundSpeedNormal F m
    | groundSpeedSupersonic m => exact shown_bds_bds09_AirborneVelocityGroundSpeedSupersonic F m
    | airSpeedNormal m => exact shown_bds_bds09_AirborneVelocityAirSpeedNormal F m
    | airSpeedSupersonic m => exact shown_bds_bds09_AirborneVelocityAirSpeedSupersonic F m
  | identification m v => exact shown_bds_bds08_AircraftIdentificationAndCategory m
  | status m v =>
    cases m with
    | noInformation m => exact shown_statusNoInformation m
    | emergency m => exact shown_bds_bds61_AircraftStatusEmergency m
    | acas m => exact shown_statusACAS F m hm.2
  | targetState m v =>
    cases m with
    | type0 m => exact shown_targetState0 m
    | type1 m => exact shown_bds_bds62_TargetStateAndStatus1 F m
  | operationalStatus m v =>
    cases m with
    | v0 m => exact shown_bds_bds65_AircraftOperationalStatusADSB0 m
    | airborneV1 m => exact shown_airborneV1 m hm.2
    | airborneV2 m => exact shown_airborneV2 m
    | surfaceV1 m => exact shown_surfaceV1 m hm.2
    | surfaceV2 m => exact shown_surfaceV2 m

/-- **The text of a Comm-B message.** -/
theorem shown_commB (F : FloatTexts) (m : CommBMessage) (hm : m.Printable) : Shown.bds.Message.ToString F m = m.text F := by
  unfold CommBMessage.text
  cases m with
  | bds00 m => exact shown_bds_bds00_NoMessageAvailable m
  | bds07 m => exact shown_bds_bds07_Status m
  | bds20 m => exact shown_bds_bds20_AircraftIdentification m
  | bds10 m => exact shown_bds_bds10_DataLinkCapabilityReport m
  | bds17 m => exact shown_bds_bds17_CommonUsageGICBCapabilityReport m
  | bds30 m => exact shown_bds30 F m hm
  | bds40 m => exact shown_bds_bds40_SelectedVerticalIntention F m
  | bds44 m =>
    cases m with
    | v0 m => exact shown_bds_bds44_MeteorologicalRoutineAirReportV0 F m
    | v1 m => exact shown_bds_bds44_MeteorologicalRoutineAirReportV1 F m
    | v2 m => exact shown_bds_bds44_MeteorologicalRoutineAirReportV2 F m
  | bds45 m =>
    cases m with
    | v0 m => exact shown_bds_bds45_MeteorologicalHazardReportV0 F m
    | v1 m => exact shown_bds_bds45_MeteorologicalHazardReportV1 F m
  | bds50 m => exact shown_bds_bds50_TrackAndTurnReport F m
  | bds60 m => exact shown_bds_bds60_HeadingAndTrackReport F m

/-! ### Frames -/

theorem decInt_nat (n : ℕ) : decInt (n : ℤ) = dec n := by
  unfold decInt; simp

theorem heading_eq (n : ℕ) (name : Txt) : dec n ++ t! " - " ++ name = decInt (n : ℤ) ++ (t! " - " ++ name) := by
  rw [decInt_nat, List.append_assoc]

/-- The names of the formats. -/
theorem shown_modes_name (m : ModeSMessage) : Shown.modes.messages.ModeSMessage.GetName m = m.getName := by
  cases m <;> rfl

/-- pkg/modes/fields/message_extended_squitter.go:34 -/
@[shown_text] theorem shown_messageES (d : List UInt8) : Shown.modes.fields.MessageExtendedSquitter.ToString d = hexIndexed 7 d := by
  unfold Shown.modes.fields.MessageExtendedSquitter.ToString hexIndexed
  simp [List.range, List.range.loop, hexText, bind_assoc]

/-- pkg/modes/fields/message_comm_b.go:32 -/
@[shown_text] theorem shown_messageCommB (d : List UInt8) : Shown.modes.fields.MessageCommB.ToString d = hexIndexed 7 d := by
  unfold Shown.modes.fields.MessageCommB.ToString hexIndexed
  simp [List.range, List.range.loop, hexText, bind_assoc]

/-- pkg/modes/fields/message_comm_d.go:34 -/
@[shown_text] theorem shown_messageCommD (d : List UInt8) : Shown.modes.fields.MessageCommD.ToString d = hexIndexed 10 d := by
  unfold Shown.modes.fields.MessageCommD.ToString hexIndexed
  simp [List.range, List.range.loop, hexText, bind_assoc]

/-- pkg/modes/messages/df0.go -/
theorem shown_df0 (m : MessageDF0) : Shown.modes.messages.ModeSMessage.ToString (.df0 m) = (ModeSMessage.df0 m).text := by
  refine congrArg pure ?_
  unfold Shown.modes.messages.MessageDF0.ToString
  have e : decInt (Gen.modes.messages.MessageDF0.GetDownLinkFormat m) ++ (t! " - " ++ Shown.modes.messages.MessageDF0.GetName m) =
      (ModeSMessage.df0 m).heading := (heading_eq 0 _).symm
  simp only [linesText_two, linesText_one, List.append_assoc, ← e, shown_text]

/-- pkg/modes/messages/df4.go -/
theorem shown_df4 (m : MessageDF4) : Shown.modes.messages.ModeSMessage.ToString (.df4 m) = (ModeSMessage.df4 m).text := by
  refine congrArg pure ?_
  unfold Shown.modes.messages.MessageDF4.ToString
  have e : decInt (Gen.modes.messages.MessageDF4.GetDownLinkFormat m) ++ (t! " - " ++ Shown.modes.messages.MessageDF4.GetName m) =
      (ModeSMessage.df4 m).heading := (heading_eq 4 _).symm
  simp only [linesText_two, linesText_one, List.append_assoc, ← e, shown_text]

/-- pkg/modes/messages/df5.go -/
theorem shown_df5 (m : MessageDF5) : Shown.modes.messages.ModeSMessage.ToString (.df5 m) = (ModeSMessage.df5 m).text := by
  refine congrArg pure ?_
  unfold Shown.modes.messages.MessageDF5.ToString
  have e : decInt (Gen.modes.messages.MessageDF5.GetDownLinkFormat m) ++ (t! " - " ++ Shown.modes.messages.MessageDF5.GetName m) =
      (ModeSMessage.df5 m).heading := (heading_eq 5 _).symm
  simp only [linesText_two, linesText_one, List.append_assoc, ← e, shown_text]

/-- pkg/modes/messages/df11.go -/
theorem shown_df11 (m : MessageDF11) : Shown.modes.messages.ModeSMessage.ToString (.df11 m) = (ModeSMessage.df11 m).text := by
  refine congrArg pure ?_
  unfold Shown.modes.messages.MessageDF11.ToString
  have e : decInt (Gen.modes.messages.MessageDF11.GetDownLinkFormat m) ++ (t! " - " ++ Shown.modes.messages.MessageDF11.GetName m) =
      (ModeSMessage.df11 m).heading := (heading_eq 11 _).symm
  simp only [linesText_two, linesText_one, List.append_assoc, ← e, shown_text]

/-- pkg/modes/messages/df16.go -/
theorem shown_df16 (m : MessageDF16) : Shown.modes.messages.ModeSMessage.ToString (.df16 m) = (ModeSMessage.df16 m).text := by
  refine congrArg pure ?_
  unfold Shown.modes.messages.MessageDF16.ToString
  have e : decInt (Gen.modes.messages.MessageDF16.GetDownLinkFormat m) ++ (t! " - " ++ Shown.modes.messages.MessageDF16.GetName m) =
      (ModeSMessage.df16 m).heading := (heading_eq 16 _).symm
  simp only [linesText_two, linesText_one, List.append_assoc, ← e, shown_text]

/-- pkg/modes/messages/df17.go -/
theorem shown_df17 (m : MessageDF17) : Shown.modes.messages.ModeSMessage.ToString (.df17 m) = (ModeSMessage.df17 m).text := by
  change Shown.modes.messages.MessageDF17.ToString m = _
  unfold Shown.modes.messages.MessageDF17.ToString ModeSMessage.text ModeSMessage.lines
  simp only [shown_text, bind_assoc, pure_bind]
  refine go_bind_congr _ fun x => ?_
  refine congrArg pure ?_
  have e : decInt (Gen.modes.messages.MessageDF17.GetDownLinkFormat m) ++ (t! " - " ++ Shown.modes.messages.MessageDF17.GetName m) =
      (ModeSMessage.df17 m).heading := (heading_eq 17 _).symm
  simp only [linesText_two, linesText_one, List.append_assoc, ← e, shown_text]

/-- pkg/modes/messages/df18.go -/
theorem shown_df18 (m : MessageDF18) : Shown.modes.messages.ModeSMessage.ToString (.df18 m) = (ModeSMessage.df18 m).text := by
  change Shown.modes.messages.MessageDF18.ToString m = _
  unfold Shown.modes.messages.MessageDF18.ToString ModeSMessage.text ModeSMessage.lines
  simp only [shown_text, bind_assoc, pure_bind]
  refine go_bind_congr _ fun x => ?_
  refine congrArg pure ?_
  have e : decInt (Gen.modes.messages.MessageDF18.GetDownLinkFormat m) ++ (t! " - " ++ Shown.modes.messages.MessageDF18.GetName m) =
      (ModeSMessage.df18 m).heading := (heading_eq 18 _).symm
  simp only [linesText_two, linesText_one, List.append_assoc, ← e, shown_text]

/-- pkg/modes/messages/df19.go -/
theorem shown_df19 (m : MessageDF19) : Shown.modes.messages.ModeSMessage.ToString (.df19 m) = (ModeSMessage.df19 m).text := by
  refine congrArg pure ?_
  unfold Shown.modes.messages.MessageDF19.ToString
  have e : decInt (Gen.modes.messages.MessageDF19.GetDownLinkFormat m) ++ (t! " - " ++ Shown.modes.messages.MessageDF19.GetName m) =
      (ModeSMessage.df19 m).heading := (heading_eq 19 _).symm
  simp only [linesText_two, linesText_one, List.append_assoc, ← e, shown_text]

/-- pkg/modes/messages/df20.go -/
theorem shown_df20 (m : MessageDF20) : Shown.modes.messages.ModeSMessage.ToString (.df20 m) = (ModeSMessage.df20 m).text := by
  change Shown.modes.messages.MessageDF20.ToString m = _
  unfold Shown.modes.messages.MessageDF20.ToString ModeSMessage.text ModeSMessage.lines
  simp only [shown_text, bind_assoc, pure_bind]
  refine go_bind_congr _ fun x => ?_
  refine congrArg pure ?_
  have e : decInt (Gen.modes.messages.MessageDF20.GetDownLinkFormat m) ++ (t! " - " ++ Shown.modes.messages.MessageDF20.GetName m) =
      (ModeSMessage.df20 m).heading := (heading_eq 20 _).symm
  simp only [linesText_two, linesText_one, List.append_assoc, ← e, shown_text]

/-- pkg/modes/messages/df21.go -/
theorem shown_df21 (m : MessageDF21) : Shown.modes.messages.ModeSMessage.ToString (.df21 m) = (ModeSMessage.df21 m).text := by
  change Shown.modes.messages.MessageDF21.ToString m = _
  unfold Shown.modes.messages.MessageDF21.ToString ModeSMessage.text ModeSMessage.lines
  simp only [shown_text, bind_assoc, pure_bind]
  refine go_bind_congr _ fun x => ?_
  refine congrArg pure ?_
  have e : decInt (Gen.modes.messages.MessageDF21.GetDownLinkFormat m) ++ (t! " - " ++ Shown.modes.messages.MessageDF21.GetName m) =
      (ModeSMessage.df21 m).heading := (heading_eq 21 _).symm
  simp only [linesText_two, linesText_one, List.append_assoc, ← e, shown_text]

/-- pkg/modes/messages/df24.go -/
theorem shown_df24 (m : MessageDF24) : Shown.modes.messages.ModeSMessage.ToString (.df24 m) = (ModeSMessage.df24 m).text := by
  change Shown.modes.messages.MessageDF24.ToString m = _
  unfold Shown.modes.messages.MessageDF24.ToString ModeSMessage.text ModeSMessage.lines
  simp only [shown_text, bind_assoc, pure_bind]
  refine go_bind_congr _ fun x => ?_
  refine congrArg pure ?_
  have e : decInt (Gen.modes.messages.MessageDF24.GetDownLinkFormat m) ++ (t! " - " ++ Shown.modes.messages.MessageDF24.GetName m) =
      (ModeSMessage.df24 m).heading := (heading_eq 24 _).symm
  simp only [linesText_two, linesText_one, List.append_assoc, ← e, shown_text]

/-- **The text of a frame.** `ToString` of the code is that of the model, with the same panic. -/
theorem shown_modes (m : ModeSMessage) : Shown.modes.messages.ModeSMessage.ToString m = m.text := by
  cases m with
  | df0 m => exact shown_df0 m
  | df4 m => exact shown_df4 m
  | df5 m => exact shown_df5 m
  | df11 m => exact shown_df11 m
  | df16 m => exact shown_df16 m
  | df17 m => exact shown_df17 m
  | df18 m => exact shown_df18 m
  | df19 m => exact shown_df19 m
  | df20 m => exact shown_df20 m
  | df21 m => exact shown_df21 m
  | df24 m => exact shown_df24 m

end Modes
