import Verif.Props.TranslationWordsReaders
import Verif.Props.Errors
import Verif.Props.ReaderReasons
import Verif.Props.Reasons
/-!
# The theorems about the words of errors, of the translated code

Written by `tools/gen_code_words.py`: each theorem is the theorem of the same name (without `words_`) with the errors and the readers of
the hand-written model replaced by what `tools/go2lean` translated from the text of /repo.
-/
set_option linter.unusedSimpArgs false
set_option linter.unusedVariables false
namespace Modes
open Spec Text

/-- The words of an error told. -/
theorem told_words (o : Option Txt) : (told o).words = o := by cases o <;> rfl

/-- `frame_reason` (C100), of the translated code. -/
theorem words_frame_reason :
    ∀ (f : List UInt8),
    (∀ t, (Said.modes.reader.ReadMessage f).words = some t → FrameReason f t) ∧ ((∃ t, (Said.modes.reader.ReadMessage f).words = some t) ↔ ¬ Succeeds (readMessage f)) := by
  simp only [same_words_frameError]; exact @frame_reason

/-- `advisory_reason_partial` (C100), of the translated code. -/
theorem words_advisory_reason_partial :
    ∀ (d : List UInt8) (h0 : bits d 21 22 = 2 → bits d 23 24 = 0),
    (Said.acas.ra.ReadResolutionAdvisory d).words = if d.length ≠ 6 then some (t! "the data for ACAS ResolutionAdvisory message must be 6 bytes long")
      else if bits d 21 22 = 2 ∧ TIDIllegal (bits d 23 35) then some (t! "the Altitude field is malformed") else none := by
  simp only [same_words_advisoryError]; exact @advisory_reason_partial

/-- `advisory_refused` (C100), of the translated code. -/
theorem words_advisory_refused :
    ∀ (d : List UInt8),
    (Said.acas.ra.ReadResolutionAdvisory d).words = none ↔ Succeeds (Gen.acas.ra.ReadResolutionAdvisory d) := by
  simp only [same_words_advisoryError, translated]; exact @advisory_refused

/-- `bds00_reason` (C103), of the translated code. -/
theorem words_bds00_reason :
    ∀ (d : List UInt8),
    ((Said.bds.bds00.ReadNoMessageAvailable d).words = none ↔ Succeeds (Gen.bds.bds00.ReadNoMessageAvailable d)) ∧ ∀ t, (Said.bds.bds00.ReadNoMessageAvailable d).words = some t → TrueIn (readReasons00 d) t := by
  simp only [same_words_bds00Error, translated]; exact @bds00_reason

/-- `bds07_reason` (C103), of the translated code. -/
theorem words_bds07_reason :
    ∀ (d : List UInt8),
    ((Said.bds.bds07.ReadStatus d).words = none ↔ Succeeds (Gen.bds.bds07.ReadStatus d)) ∧ ∀ t, (Said.bds.bds07.ReadStatus d).words = some t → TrueIn (readReasons07 d) t := by
  simp only [same_words_bds07Error, translated]; exact @bds07_reason

/-- `bds10_reason` (C103), of the translated code. -/
theorem words_bds10_reason :
    ∀ (d : List UInt8),
    ((Said.bds.bds10.ReadDataLinkCapabilityReport d).words = none ↔ Succeeds (Gen.bds.bds10.ReadDataLinkCapabilityReport d)) ∧ ∀ t, (Said.bds.bds10.ReadDataLinkCapabilityReport d).words = some t → TrueIn (readReasons10 d) t := by
  simp only [same_words_bds10Error, translated]; exact @bds10_reason

/-- `bds17_reason` (C103), of the translated code. -/
theorem words_bds17_reason :
    ∀ (d : List UInt8),
    ((Said.bds.bds17.ReadCommonUsageGICBCapabilityReport d).words = none ↔ Succeeds (Gen.bds.bds17.ReadCommonUsageGICBCapabilityReport d)) ∧ ∀ t, (Said.bds.bds17.ReadCommonUsageGICBCapabilityReport d).words = some t → TrueIn (readReasons17 d) t := by
  simp only [same_words_bds17Error, translated]; exact @bds17_reason

/-- `bds20_reason` (C103), of the translated code. -/
theorem words_bds20_reason :
    ∀ (d : List UInt8),
    ((Said.bds.bds20.ReadAircraftIdentification d).words = none ↔ Succeeds (Gen.bds.bds20.ReadAircraftIdentification d)) ∧ ∀ t, (Said.bds.bds20.ReadAircraftIdentification d).words = some t → TrueIn (readReasons20 d) t := by
  simp only [same_words_bds20Error, translated]; exact @bds20_reason

/-- `bds30_reason_partial` (C103), of the translated code. -/
theorem words_bds30_reason_partial :
    ∀ (d : List UInt8),
    ((Said.bds.bds30.ReadACASResolutionAdvisory d).words = none ↔ Succeeds (Gen.bds.bds30.ReadACASResolutionAdvisory d)) ∧
    (bits d 1 8 ≠ 0x20 → (bits d 29 30 = 2 → bits d 31 32 = 0) → ∀ t, (Said.bds.bds30.ReadACASResolutionAdvisory d).words = some t → TrueIn (readReasons30 d) t) := by
  simp only [same_words_bds30Error, translated]; exact @bds30_reason_partial

/-- `bds30_reason_refuted` (C103), of the translated code. -/
theorem words_bds30_reason_refuted :
    ∀ (d : List UInt8) (h7 : d.length = 7) (h : bits d 1 8 = 0x20),
    (Said.bds.bds30.ReadACASResolutionAdvisory d).words = some (t! "the first byte of data is not 0x20") := by
  simp only [same_words_bds30Error]; exact @bds30_reason_refuted

/-- `bds40_reason` (C103), of the translated code. -/
theorem words_bds40_reason :
    ∀ (d : List UInt8),
    ((Said.bds.bds40.ReadSelectedVerticalIntention d).words = none ↔ Succeeds (Gen.bds.bds40.ReadSelectedVerticalIntention d)) ∧ ∀ t, (Said.bds.bds40.ReadSelectedVerticalIntention d).words = some t → TrueIn (readReasons40 d) t := by
  simp only [same_words_bds40Error, translated]; exact @bds40_reason

/-- `bds44V_reason` (C103), of the translated code. -/
theorem words_bds44V_reason :
    ∀ (d : List UInt8),
    (((Said.bds.bds44.ReadMeteorologicalRoutineAirReportV0 d).words = none ↔ Succeeds (Gen.bds.bds44.ReadMeteorologicalRoutineAirReportV0 d)) ∧ ∀ t, (Said.bds.bds44.ReadMeteorologicalRoutineAirReportV0 d).words = some t → TrueIn (readReasons44V d) t) ∧
    (((Said.bds.bds44.ReadMeteorologicalRoutineAirReportV1 d).words = none ↔ Succeeds (Gen.bds.bds44.ReadMeteorologicalRoutineAirReportV1 d)) ∧ ∀ t, (Said.bds.bds44.ReadMeteorologicalRoutineAirReportV1 d).words = some t → TrueIn (readReasons44V d) t) ∧
    (((Said.bds.bds44.ReadMeteorologicalRoutineAirReportV2 d).words = none ↔ Succeeds (Gen.bds.bds44.ReadMeteorologicalRoutineAirReportV2 d)) ∧ ∀ t, (Said.bds.bds44.ReadMeteorologicalRoutineAirReportV2 d).words = some t → TrueIn (readReasons44V d) t) := by
  simp only [same_words_bds44V0Error, same_words_bds44V1Error, same_words_bds44V2Error, translated]; exact @bds44V_reason

/-- `bds44_reason_partial` (C103), of the translated code. -/
theorem words_bds44_reason_partial :
    ∀ (d : List UInt8),
    ((Said.bds.bds44.ReadMeteorologicalRoutineAirReport d).words = none ↔ ∃ m, readBDS44 d = .returns (.val m) false) ∧
    ∀ t, (Said.bds.bds44.ReadMeteorologicalRoutineAirReport d).words = some t → TrueIn (readReasonsLength d (decimal d.length)) t ∨
      (t = t! "the field SubType must be comprised between 0 and 1 included, got " ++ decimal (bits d 1 4) ∧ 5 ≤ bits d 1 4) := by
  simp only [same_words_bds44Error]; exact @bds44_reason_partial

/-- `bds44_range_refuted` (C103), of the translated code. -/
theorem words_bds44_range_refuted :
    (Said.bds.bds44.ReadMeteorologicalRoutineAirReport [0x50, 0, 0, 0, 0, 0, 0]).words = some (t! "the field SubType must be comprised between 0 and 1 included, got 5") ∧
    ∃ d m, bits d 1 4 = 2 ∧ readBDS44 d = .returns (.val m) false := by
  simp only [same_words_bds44Error]; exact @bds44_range_refuted

/-- `bds45_reason` (C103), of the translated code. -/
theorem words_bds45_reason :
    ∀ (d : List UInt8),
    (((Said.bds.bds45.ReadMeteorologicalHazardReportV0 d).words = none ↔ Succeeds (Gen.bds.bds45.ReadMeteorologicalHazardReportV0 d)) ∧ ∀ t, (Said.bds.bds45.ReadMeteorologicalHazardReportV0 d).words = some t → TrueIn (readReasons45V d) t) ∧
    (((Said.bds.bds45.ReadMeteorologicalHazardReportV1 d).words = none ↔ Succeeds (Gen.bds.bds45.ReadMeteorologicalHazardReportV1 d)) ∧ ∀ t, (Said.bds.bds45.ReadMeteorologicalHazardReportV1 d).words = some t → TrueIn (readReasons45V d) t) ∧
    ((Said.bds.bds45.ReadMeteorologicalHazardReport d).words = none ↔ ∃ m, readBDS45 d = .returns (.val m) false) ∧
    ∀ t, (Said.bds.bds45.ReadMeteorologicalHazardReport d).words = some t → TrueIn (readReasonsLength d (decimal d.length) ++ readReasons45V d) t := by
  simp only [same_words_bds45Error, same_words_bds45V0Error, same_words_bds45V1Error, translated]; exact @bds45_reason

/-- `bds50_60_reason` (C103), of the translated code. -/
theorem words_bds50_60_reason :
    ∀ (d : List UInt8),
    ((Said.bds.bds50.ReadTrackAndTurnReport d).words = none ↔ Succeeds (Gen.bds.bds50.ReadTrackAndTurnReport d)) ∧ (∀ t, (Said.bds.bds50.ReadTrackAndTurnReport d).words = some t → TrueIn (readReasons50 d) t) ∧
    ((Said.bds.bds60.ReadHeadingAndSpeedReport d).words = none ↔ Succeeds (Gen.bds.bds60.ReadHeadingAndSpeedReport d)) ∧ (∀ t, (Said.bds.bds60.ReadHeadingAndSpeedReport d).words = some t → TrueIn (readReasons60 d) t) := by
  simp only [same_words_bds50Error, same_words_bds60Error, translated]; exact @bds50_60_reason

/-- `commB_incoherence_iff` (C103), of the translated code. -/
theorem words_commB_incoherence_iff :
    ∀ (m : CommBMessage),
    (Said.bds.Message.CheckCoherency m).words = none ↔ m.coherent = true := by
  simp only [coherency_words_CommB, told_words]; exact @commB_incoherence_iff

/-- `adsb_incoherence_iff` (C103), of the translated code. -/
theorem words_adsb_incoherence_iff :
    ∀ (m : ADSBMessage),
    (saidADSBCheck m).words = none ↔ m.coherent = true := by
  simp only [coherency_words_ADSB, told_words]; exact @adsb_incoherence_iff

/-- `bds07_incoherence` (C103), of the translated code. -/
theorem words_bds07_incoherence :
    ∀ (d : List UInt8) (m : Status07) (h : Gen.bds.bds07.ReadStatus d = .ok m),
    ∀ t, (Said.bds.bds07.Status.CheckCoherency m).words = some t → TrueIn (reasons07 d) t := by
  simp only [coherency_words_Status07, told_words, translated]; exact @bds07_incoherence

/-- `bds08_incoherence` (C103), of the translated code. -/
theorem words_bds08_incoherence :
    ∀ (d : List UInt8) (m : IdentificationAndCategory) (h : Gen.bds.bds08.ReadAircraftIdentificationAndCategory d = .ok m),
    ∀ t, (Said.bds.bds08.AircraftIdentificationAndCategory.CheckCoherency m).words = some t → TrueIn (reasons08 d) t := by
  simp only [coherency_words_IdentificationAndCategory, told_words, translated]; exact @bds08_incoherence

/-- `bds10_incoherence` (C103), of the translated code. -/
theorem words_bds10_incoherence :
    ∀ (d : List UInt8) (m : DataLinkCapabilityReport) (h : Gen.bds.bds10.ReadDataLinkCapabilityReport d = .ok m),
    ∀ t, (Said.bds.bds10.DataLinkCapabilityReport.CheckCoherency m).words = some t → TrueIn (reasons10 d) t := by
  simp only [coherency_words_DataLinkCapabilityReport, told_words, translated]; exact @bds10_incoherence

/-- `bds20_incoherence` (C103), of the translated code. -/
theorem words_bds20_incoherence :
    ∀ (d : List UInt8) (m : AircraftIdentification) (h : Gen.bds.bds20.ReadAircraftIdentification d = .ok m),
    ∀ t, (Said.bds.bds20.AircraftIdentification.CheckCoherency m).words = some t → TrueIn (reasons20 d) t := by
  simp only [coherency_words_AircraftIdentification, told_words, translated]; exact @bds20_incoherence

/-- `bds40_reason_actual` (C103), of the translated code. -/
theorem words_bds40_reason_actual :
    ∀ (d : List UInt8) (m : SelectedVerticalIntention) (h : Gen.bds.bds40.ReadSelectedVerticalIntention d = .ok m),
    (Said.bds.bds40.SelectedVerticalIntention.CheckCoherency m).words =
      if bit d 1 = false ∧ bit d 14 = false then some (t! "the message does not convey any information")
      else if bit d 1 = false ∧ bits d 15 26 ≠ 0 then
        some (t! "the MCP/FCU SelectedAltitude status is set to false, but a MCP/FCU SelectedAltitude value is given")
      else if bit d 14 = false ∧ bits d 2 13 ≠ 0 then
        some (t! "the FMS SelectedAltitude status is set to false, but a FMS SelectedAltitude value is given")
      else if bit d 1 = false then
        some (t! "the BarometricPressureSetting status is set to false, but a BarometricPressureSetting value is given")
      else none := by
  simp only [coherency_words_SelectedVerticalIntention, told_words, translated]; exact @bds40_reason_actual

/-- `bds40_incoherence_partial` (C103), of the translated code. -/
theorem words_bds40_incoherence_partial :
    ∀ (d : List UInt8) (m : SelectedVerticalIntention) (h : Gen.bds.bds40.ReadSelectedVerticalIntention d = .ok m)
    (ha : bits d 2 13 = 0 ↔ bits d 15 26 = 0) (hp : bit d 27 = bit d 1) (hz : bits d 28 39 ≠ 0) (h48 : bit d 48 = false)
    (h54 : bit d 54 = false),
    ∀ t, (Said.bds.bds40.SelectedVerticalIntention.CheckCoherency m).words = some t → TrueIn (reasons40 d) t := by
  simp only [coherency_words_SelectedVerticalIntention, told_words, translated]; exact @bds40_incoherence_partial

/-- `bds44V0_incoherence_partial` (C103), of the translated code. -/
theorem words_bds44V0_incoherence_partial :
    ∀ (d : List UInt8) (m : RoutineAirReportV0) (h : Gen.bds.bds44.ReadMeteorologicalRoutineAirReportV0 d = .ok m),
    ∀ t, (Said.bds.bds44.MeteorologicalRoutineAirReportV0.CheckCoherency m).words = some t → t ≠ t! "the message does not convey any information" →
      t ≠ t! "the static air temperature is to high or to low (-80 <= temp <= 60)" → TrueIn (reasons44V0 d) t := by
  simp only [coherency_words_RoutineAirReportV0, told_words, translated]; exact @bds44V0_incoherence_partial

/-- `bds44V1_incoherence_partial` (C103), of the translated code. -/
theorem words_bds44V1_incoherence_partial :
    ∀ (d : List UInt8) (m : RoutineAirReportV1) (h : Gen.bds.bds44.ReadMeteorologicalRoutineAirReportV1 d = .ok m) (h48 : bit d 48 = false),
    ∀ t, (Said.bds.bds44.MeteorologicalRoutineAirReportV1.CheckCoherency m).words = some t → TrueIn (reasons44 d) t := by
  simp only [coherency_words_RoutineAirReportV1, told_words, translated]; exact @bds44V1_incoherence_partial

/-- `bds44V2_incoherence_partial` (C103), of the translated code. -/
theorem words_bds44V2_incoherence_partial :
    ∀ (d : List UInt8) (m : RoutineAirReportV2) (h : Gen.bds.bds44.ReadMeteorologicalRoutineAirReportV2 d = .ok m) (h48 : bit d 48 = false),
    ∀ t, (Said.bds.bds44.MeteorologicalRoutineAirReportV2.CheckCoherency m).words = some t → TrueIn (reasons44 d) t := by
  simp only [coherency_words_RoutineAirReportV2, told_words, translated]; exact @bds44V2_incoherence_partial

/-- `bds45V0_incoherence` (C103), of the translated code. -/
theorem words_bds45V0_incoherence :
    ∀ (d : List UInt8) (m : HazardReportV0) (h : Gen.bds.bds45.ReadMeteorologicalHazardReportV0 d = .ok m),
    ∀ t, (Said.bds.bds45.MeteorologicalHazardReportV0.CheckCoherency m).words = some t → TrueIn (reasons45V0 d) t := by
  simp only [coherency_words_HazardReportV0, told_words, translated]; exact @bds45V0_incoherence

/-- `bds45V1_incoherence` (C103), of the translated code. -/
theorem words_bds45V1_incoherence :
    ∀ (d : List UInt8) (m : HazardReportV1) (h : Gen.bds.bds45.ReadMeteorologicalHazardReportV1 d = .ok m),
    ∀ t, (Said.bds.bds45.MeteorologicalHazardReportV1.CheckCoherency m).words = some t → TrueIn (reasons45V1 d) t := by
  simp only [coherency_words_HazardReportV1, told_words, translated]; exact @bds45V1_incoherence

/-- `bds50_incoherence` (C103), of the translated code. -/
theorem words_bds50_incoherence :
    ∀ (d : List UInt8) (m : TrackAndTurnReport) (h : Gen.bds.bds50.ReadTrackAndTurnReport d = .ok m),
    ∀ t, (Said.bds.bds50.TrackAndTurnReport.CheckCoherency m).words = some t → TrueIn (reasons50 d) t := by
  simp only [coherency_words_TrackAndTurnReport, told_words, translated]; exact @bds50_incoherence

/-- `bds60_incoherence` (C103), of the translated code. -/
theorem words_bds60_incoherence :
    ∀ (d : List UInt8) (m : HeadingAndTrackReport) (h : Gen.bds.bds60.ReadHeadingAndSpeedReport d = .ok m),
    ∀ t, (Said.bds.bds60.HeadingAndTrackReport.CheckCoherency m).words = some t → TrueIn (reasons60 d) t := by
  simp only [coherency_words_HeadingAndTrackReport, told_words, translated]; exact @bds60_incoherence

/-- `bds61_incoherence_partial` (C103), of the translated code. -/
theorem words_bds61_incoherence_partial :
    ∀ (d : List UInt8) (m : AircraftStatus) (h : Gen.bds.bds61.ReadAircraftStatus d = .ok m) (h6 : bits d 9 11 ≠ 6),
    ∀ t, (Said.bds.bds61.AircraftStatus.CheckCoherency m).words = some t → TrueIn (reasons61 d) t := by
  simp only [coherency_words_AircraftStatus, told_words, translated]; exact @bds61_incoherence_partial

/-- `velocity_kind_reason` (C104), of the translated code. -/
theorem words_velocity_kind_reason :
    ∀ (d : List UInt8),
    (((Said.bds.bds09.ReadAirborneVelocityGroundSpeedNormal d).words = none ↔ Succeeds (Gen.bds.bds09.ReadAirborneVelocityGroundSpeedNormal d)) ∧
      ∀ t, (Said.bds.bds09.ReadAirborneVelocityGroundSpeedNormal d).words = some t → TrueIn (kindReasons d 19 8 1 velocityName (t! "ReadFormat19GroundSpeedNormal")) t) ∧
    (((Said.bds.bds09.ReadAirborneVelocityGroundSpeedSupersonic d).words = none ↔ Succeeds (Gen.bds.bds09.ReadAirborneVelocityGroundSpeedSupersonic d)) ∧
      ∀ t, (Said.bds.bds09.ReadAirborneVelocityGroundSpeedSupersonic d).words = some t →
        TrueIn (kindReasons d 19 8 2 velocityName (t! "ReadAirborneVelocityGroundSpeedSupersonic")) t) ∧
    (((Said.bds.bds09.ReadAirborneVelocityAirSpeedNormal d).words = none ↔ Succeeds (Gen.bds.bds09.ReadAirborneVelocityAirSpeedNormal d)) ∧
      ∀ t, (Said.bds.bds09.ReadAirborneVelocityAirSpeedNormal d).words = some t → TrueIn (kindReasons d 19 8 3 velocityName (t! "ReadAirborneVelocityAirSpeedNormal")) t) ∧
    (((Said.bds.bds09.ReadAirborneVelocityAirSpeedSupersonic d).words = none ↔ Succeeds (Gen.bds.bds09.ReadAirborneVelocityAirSpeedSupersonic d)) ∧
      ∀ t, (Said.bds.bds09.ReadAirborneVelocityAirSpeedSupersonic d).words = some t →
        TrueIn (kindReasons d 19 8 4 velocityName (t! "ReadAirborneVelocityAirSpeedSupersonic")) t) := by
  simp only [same_words_groundSpeedNormalError, same_words_groundSpeedSupersonicError, same_words_airSpeedNormalError, same_words_airSpeedSupersonicError, translated]; exact @velocity_kind_reason

/-- `status_kind_reason` (C104), of the translated code. -/
theorem words_status_kind_reason :
    ∀ (d : List UInt8),
    (((Said.bds.bds61.ReadAircraftStatusNoInformation d).words = none ↔ Succeeds (Gen.bds.bds61.ReadAircraftStatusNoInformation d)) ∧
      ∀ t, (Said.bds.bds61.ReadAircraftStatusNoInformation d).words = some t →
        TrueIn (kindReasons d 28 8 0 statusName (t! "ReadAircraftStatusNoInformation") ++ noInformationReasons d) t) ∧
    (((Said.bds.bds61.ReadAircraftStatusEmergency d).words = none ↔ Succeeds (Gen.bds.bds61.ReadAircraftStatusEmergency d)) ∧
      ∀ t, (Said.bds.bds61.ReadAircraftStatusEmergency d).words = some t →
        TrueIn (kindReasons d 28 8 1 statusName (t! "ReadAircraftStatusEmergency") ++ emergencyReasons d) t) ∧
    ((Said.bds.bds61.ReadAircraftStatusACAS d).words = none ↔ Succeeds (Gen.bds.bds61.ReadAircraftStatusACAS d)) := by
  simp only [same_words_statusNoInformationError, same_words_statusEmergencyError, same_words_statusACASError, translated]; exact @status_kind_reason

/-- `ra_broadcast_reason_partial` (C104), of the translated code. -/
theorem words_ra_broadcast_reason_partial :
    ∀ (d : List UInt8) (h0 : bits d 29 30 = 2 → bits d 31 32 = 0),
    ∀ t, (Said.bds.bds61.ReadAircraftStatusACAS d).words = some t →
      TrueIn (kindReasons d 28 8 2 statusName (t! "ReadAircraftStatusACAS") ++ raBroadcastReasons d) t := by
  simp only [same_words_statusACASError]; exact @ra_broadcast_reason_partial

/-- `target_state_kind_reason` (C104), of the translated code. -/
theorem words_target_state_kind_reason :
    ∀ (d : List UInt8),
    (((Said.bds.bds62.ReadTargetStateAndStatus0 d).words = none ↔ Succeeds (Gen.bds.bds62.ReadTargetStateAndStatus0 d)) ∧
      ∀ t, (Said.bds.bds62.ReadTargetStateAndStatus0 d).words = some t →
        TrueIn (kindReasons d 29 7 0 targetStateName (t! "ReadTargetStateAndStatus0") ++ targetState0Reasons d) t) ∧
    (((Said.bds.bds62.ReadTargetStateAndStatus1 d).words = none ↔ Succeeds (readTargetStateAndStatus1 d)) ∧
      ∀ t, (Said.bds.bds62.ReadTargetStateAndStatus1 d).words = some t → TrueIn (kindReasons d 29 7 1 targetStateName (t! "ReadTargetStateAndStatus1")) t) := by
  simp only [same_words_targetState0Error, same_words_targetState1Error, translated]; exact @target_state_kind_reason

/-- `operational_kind_refused` (C104), of the translated code. -/
theorem words_operational_kind_refused :
    ∀ (d : List UInt8),
    ((Said.bds.bds65.ReadAircraftOperationalStatusADSB0 d).words = none ↔ Succeeds (Gen.bds.bds65.ReadAircraftOperationalStatusADSB0 d)) ∧
    ((Said.bds.bds65.ReadAircraftOperationalStatusAirborneADSB1 d).words = none ↔ Succeeds (Gen.bds.bds65.ReadAircraftOperationalStatusAirborneADSB1 d)) ∧
    ((Said.bds.bds65.ReadAircraftOperationalStatusAirborneADSB2 d).words = none ↔ Succeeds (Gen.bds.bds65.ReadAircraftOperationalStatusAirborneADSB2 d)) ∧
    ((Said.bds.bds65.ReadAircraftOperationalStatusSurfaceADSB1 d).words = none ↔ Succeeds (Gen.bds.bds65.ReadAircraftOperationalStatusSurfaceADSB1 d)) ∧
    ((Said.bds.bds65.ReadAircraftOperationalStatusSurfaceADSB2 d).words = none ↔ Succeeds (Gen.bds.bds65.ReadAircraftOperationalStatusSurfaceADSB2 d)) := by
  simp only [same_words_operationalV0Error, same_words_operationalAirborneV1Error, same_words_operationalAirborneV2Error, same_words_operationalSurfaceV1Error, same_words_operationalSurfaceV2Error, translated]; exact @operational_kind_refused

/-- `operational_kind_reason` (C104), of the translated code. -/
theorem words_operational_kind_reason :
    ∀ (d : List UInt8),
    (∀ t, (Said.bds.bds65.ReadAircraftOperationalStatusAirborneADSB2 d).words = some t → TrueIn (kindReasons d 31 8 0 decimal (t! "ReadAircraftOperationalStatusADSB0") ++
      operational2Reasons d (t! "ReadAircraftOperationalStatusAirborneADSB2")) t) ∧
    (∀ t, (Said.bds.bds65.ReadAircraftOperationalStatusSurfaceADSB1 d).words = some t → TrueIn (kindReasons d 31 8 1 operationalName (t! "ReadAircraftOperationalStatusSurfaceADSB1") ++
      operational1Reasons d (t! "ReadAircraftOperationalStatusSurfaceADSB1")) t) ∧
    (∀ t, (Said.bds.bds65.ReadAircraftOperationalStatusSurfaceADSB2 d).words = some t → TrueIn (kindReasons d 31 8 1 operationalName (t! "ReadAircraftOperationalStatusSurfaceADSB2") ++
      operational2Reasons d (t! "ReadAircraftOperationalStatusSurfaceADSB2")) t) := by
  simp only [same_words_operationalAirborneV2Error, same_words_operationalSurfaceV1Error, same_words_operationalSurfaceV2Error]; exact @operational_kind_reason

/-- `operational_kind_reason_partial` (C104), of the translated code. -/
theorem words_operational_kind_reason_partial :
    ∀ (d : List UInt8) (h : d.length = 7 → bits d 1 5 = 31),
    (∀ t, (Said.bds.bds65.ReadAircraftOperationalStatusADSB0 d).words = some t → TrueIn (kindReasons d 31 8 0 decimal (t! "ReadAircraftOperationalStatusADSB0") ++
      operational0Reasons d) t) ∧
    (∀ t, (Said.bds.bds65.ReadAircraftOperationalStatusAirborneADSB1 d).words = some t → TrueIn (kindReasons d 31 8 0 decimal (t! "ReadAircraftOperationalStatusADSB0") ++
      operational1Reasons d (t! "ReadAircraftOperationalStatusAirborneADSB1")) t) := by
  simp only [same_words_operationalV0Error, same_words_operationalAirborneV1Error]; exact @operational_kind_reason_partial

/-- `operational_kind_reason_refuted` (C104), of the translated code. -/
theorem words_operational_kind_reason_refuted :
    ∀ (d : List UInt8) (h7 : d.length = 7) (h : bits d 1 5 ≠ 31),
    (Said.bds.bds65.ReadAircraftOperationalStatusADSB0 d).words = some (t! "the field FormatTypeCode must be 29, got " ++ decimal (bits d 1 5)) ∧
    (Said.bds.bds65.ReadAircraftOperationalStatusAirborneADSB1 d).words = some (t! "the field FormatTypeCode must be 29, got " ++ decimal (bits d 1 5)) ∧
    ¬ Succeeds (Gen.bds.bds65.ReadAircraftOperationalStatusADSB0 d) ∧ ¬ Succeeds (Gen.bds.bds65.ReadAircraftOperationalStatusAirborneADSB1 d) := by
  simp only [same_words_operationalV0Error, same_words_operationalAirborneV1Error, translated]; exact @operational_kind_reason_refuted

/-- `airborne_register_reason` (C104), of the translated code. -/
theorem words_airborne_register_reason :
    ∀ (d : List UInt8),
    ((Said.bds.bds05.ReadAirbornePosition d).words = none ↔ Succeeds (Gen.bds.bds05.ReadAirbornePosition d)) ∧ ∀ t, (Said.bds.bds05.ReadAirbornePosition d).words = some t → TrueIn (airborneReasons d) t := by
  simp only [same_words_airborneError, translated]; exact @airborne_register_reason

/-- `surface_register_reason` (C104), of the translated code. -/
theorem words_surface_register_reason :
    ∀ (d : List UInt8),
    ((Said.bds.bds06.ReadSurfacePosition d).words = none ↔ Succeeds (Gen.bds.bds06.ReadSurfacePosition d)) ∧ ∀ t, (Said.bds.bds06.ReadSurfacePosition d).words = some t → TrueIn (surfaceReasons d) t := by
  simp only [same_words_surfaceError, translated]; exact @surface_register_reason

/-- `identification_register_reason` (C104), of the translated code. -/
theorem words_identification_register_reason :
    ∀ (d : List UInt8),
    ((Said.bds.bds08.ReadAircraftIdentificationAndCategory d).words = none ↔ Succeeds (Gen.bds.bds08.ReadAircraftIdentificationAndCategory d)) ∧ ∀ t, (Said.bds.bds08.ReadAircraftIdentificationAndCategory d).words = some t → TrueIn (identificationReasons d) t := by
  simp only [same_words_identificationError, translated]; exact @identification_register_reason

/-- `velocity_register_reason` (C104), of the translated code. -/
theorem words_velocity_register_reason :
    ∀ (d : List UInt8),
    ((Said.bds.bds09.ReadAirborneVelocity d).words = none ↔ Succeeds (Gen.bds.bds09.ReadAirborneVelocity d)) ∧ ∀ t, (Said.bds.bds09.ReadAirborneVelocity d).words = some t → TrueIn (velocityReasons d) t := by
  simp only [same_words_velocityError, translated]; exact @velocity_register_reason

/-- `target_state_register_reason` (C104), of the translated code. -/
theorem words_target_state_register_reason :
    ∀ (d : List UInt8),
    ((Said.bds.bds62.ReadTargetStateAndStatus d).words = none ↔ Succeeds (readBDS62 d)) ∧ ∀ t, (Said.bds.bds62.ReadTargetStateAndStatus d).words = some t → TrueIn (targetStateReasons d) t := by
  simp only [same_words_targetStateError]; exact @target_state_register_reason

/-- `status_register_refused` (C104), of the translated code. -/
theorem words_status_register_refused :
    ∀ (d : List UInt8),
    (Said.bds.bds61.ReadAircraftStatus d).words = none ↔ Succeeds (Gen.bds.bds61.ReadAircraftStatus d) := by
  simp only [same_words_statusError, translated]; exact @status_register_refused

/-- `status_register_reason_partial` (C104), of the translated code. -/
theorem words_status_register_reason_partial :
    ∀ (d : List UInt8) (h0 : bits d 6 8 = 2 → bits d 29 30 = 2 → bits d 31 32 = 0),
    ∀ t, (Said.bds.bds61.ReadAircraftStatus d).words = some t → TrueIn (statusReasons d) t := by
  simp only [same_words_statusError]; exact @status_register_reason_partial

/-- `operational_register_refused` (C104), of the translated code. -/
theorem words_operational_register_refused :
    ∀ (d : List UInt8),
    (Said.bds.bds65.ReadAircraftOperationalStatus d).words = none ↔ Succeeds (Gen.bds.bds65.ReadAircraftOperationalStatus d) := by
  simp only [same_words_operationalError, translated]; exact @operational_register_refused

/-- `operational_register_reason_partial` (C104), of the translated code. -/
theorem words_operational_register_reason_partial :
    ∀ (d : List UInt8)
    (hv : d.length = 7 → bits d 1 5 = 31 → bits d 41 43 ≤ 2 ∨ bits d 6 8 = bits d 41 43),
    ∀ t, (Said.bds.bds65.ReadAircraftOperationalStatus d).words = some t → TrueIn (operationalReasons d) t := by
  simp only [same_words_operationalError]; exact @operational_register_reason_partial

/-- `operational_register_reason_refuted` (C104), of the translated code. -/
theorem words_operational_register_reason_refuted :
    ∀ (d : List UInt8) (h7 : d.length = 7) (htc : bits d 1 5 = 31) (hv : 3 ≤ bits d 41 43),
    (Said.bds.bds65.ReadAircraftOperationalStatus d).words = some (t! "the field VersionNumber must be comprised between 0 and 2 included, got " ++ decimal (bits d 6 8)) := by
  simp only [same_words_operationalError]; exact @operational_register_reason_refuted

/-- `surface_reader_reason` (C104), of the translated code. -/
theorem words_surface_reader_reason :
    ∀ (v : UInt8) (a c : Bool) (d : List UInt8),
    ((Said.adsb.surface_position.ReadSurfacePosition v d a c).words = none ↔ ∃ m, readSurfacePosition v d a c = .returns m false) ∧
    ∀ t, (Said.adsb.surface_position.ReadSurfacePosition v d a c).words = some t → TrueIn (surfaceReasons d ++ [levelReason v.toNat]) t := by
  simp only [same_words_surfacePositionError]; exact @surface_reader_reason

/-- `parser_reason` (C104), of the translated code. -/
theorem words_parser_reason :
    ∀ (m : MessageData),
    ParserReason ((Said.modes.messages.ParseDF0 m).words) (Gen.modes.messages.ParseDF0 m) 0 m 7 true ∧ ParserReason ((Said.modes.messages.ParseDF4 m).words) (Gen.modes.messages.ParseDF4 m) 4 m 7 true ∧
    ParserReason ((Said.modes.messages.ParseDF5 m).words) (Gen.modes.messages.ParseDF5 m) 5 m 7 false ∧ ParserReason ((Said.modes.messages.ParseDF11 m).words) (Gen.modes.messages.ParseDF11 m) 11 m 7 false ∧
    ParserReason ((Said.modes.messages.ParseDF16 m).words) (Gen.modes.messages.ParseDF16 m) 16 m 14 true ∧ ParserReason ((Said.modes.messages.ParseDF17 m).words) (Gen.modes.messages.ParseDF17 m) 17 m 14 false ∧
    ParserReason ((Said.modes.messages.ParseDF18 m).words) (Gen.modes.messages.ParseDF18 m) 18 m 14 false ∧ ParserReason ((Said.modes.messages.ParseDF19 m).words) (Gen.modes.messages.ParseDF19 m) 19 m 14 false ∧
    ParserReason ((Said.modes.messages.ParseDF20 m).words) (Gen.modes.messages.ParseDF20 m) 20 m 14 true ∧ ParserReason ((Said.modes.messages.ParseDF21 m).words) (Gen.modes.messages.ParseDF21 m) 21 m 14 false ∧
    ParserReason ((Said.modes.messages.ParseDF24 m).words) (Gen.modes.messages.ParseDF24 m) 24 m 14 false := by
  simp only [same_words_parseDF0Error, same_words_parseDF4Error, same_words_parseDF5Error, same_words_parseDF11Error, same_words_parseDF16Error, same_words_parseDF17Error, same_words_parseDF18Error, same_words_parseDF19Error, same_words_parseDF20Error, same_words_parseDF21Error, same_words_parseDF24Error, translated]; exact @parser_reason

end Modes
