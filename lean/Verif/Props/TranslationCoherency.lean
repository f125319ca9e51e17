import Verif.Props.TranslationMessages
namespace Modes

/-- No error when the message is coherent, an error otherwise. -/
def checked (b : Bool) : Go Unit := if b then pure () else fail

theorem checked_ite {c : Prop} [Decidable c] (a b : Bool) :
    checked (if c then a else b) = if c then checked a else checked b := by split <;> rfl
theorem fail_bind {α β : Type} (f : α → Go β) : ((fail : Go α) >>= f) = fail := rfl
theorem checked_false : checked false = fail := rfl
theorem checked_true : checked true = pure () := rfl
theorem checked_and (a b : Bool) : checked (a && b) = if a then checked b else fail := by cases a <;> rfl
theorem checked_not (a : Bool) : checked (!a) = if a then fail else pure () := by cases a <;> rfl

/-- The tests of a CheckCoherency method, one after the other. -/
macro "check_walk" : tactic => `(tactic| (
  (try simp only [fail_bind, checked_ite, checked_false, checked_true, or_assoc, and_assoc])
  repeat' (first | with_reducible rfl | with_reducible refine go_ite_congr Iff.rfl ?_ ?_ | rfl)))

/-- `strings.ContainsAny(s, "#")` looks for the one character. -/
theorem any_hash (l : List UInt8) : (l.any fun c => [35].contains c) = l.contains 0x23 := by
  rw [Bool.eq_iff_iff]; simp

theorem bind_unit (x : Go Unit) : (x >>= fun _ => pure ()) = x := bind_pure x

/-- `bds00.NoMessageAvailable.CheckCoherency`: the model's answer is the translated one. -/
theorem coherent_NoMessageAvailable (m : NoMessageAvailable) : Gen.bds.bds00.NoMessageAvailable.CheckCoherency m = checked m.coherent := by
  unfold Gen.bds.bds00.NoMessageAvailable.CheckCoherency NoMessageAvailable.coherent; check_walk

/-- `bds07.Status.CheckCoherency`: the model's answer is the translated one. -/
theorem coherent_Status07 (m : Status07) : Gen.bds.bds07.Status.CheckCoherency m = checked m.coherent := by
  unfold Gen.bds.bds07.Status.CheckCoherency Status07.coherent; simp only [checked_not, decide_eq_true_eq]; rfl

/-- `bds10.DataLinkCapabilityReport.CheckCoherency`: the model's answer is the translated one. -/
theorem coherent_DataLinkCapabilityReport (m : DataLinkCapabilityReport) : Gen.bds.bds10.DataLinkCapabilityReport.CheckCoherency m = checked m.coherent := by
  unfold Gen.bds.bds10.DataLinkCapabilityReport.CheckCoherency DataLinkCapabilityReport.coherent; by_cases h : m.acasStatus = 0 <;> simp only [h, if_true, if_false, true_and, false_and, ne_eq, not_true, not_false_iff] <;> check_walk

/-- `bds17.CommonUsageGICBCapabilityReport.CheckCoherency`: the model's answer is the translated one. -/
theorem coherent_GICBCapabilityReport (m : GICBCapabilityReport) : Gen.bds.bds17.CommonUsageGICBCapabilityReport.CheckCoherency m = checked m.coherent := by
  unfold Gen.bds.bds17.CommonUsageGICBCapabilityReport.CheckCoherency GICBCapabilityReport.coherent; check_walk

/-- `bds20.AircraftIdentification.CheckCoherency`: the model's answer is the translated one. -/
theorem coherent_AircraftIdentification (m : AircraftIdentification) : Gen.bds.bds20.AircraftIdentification.CheckCoherency m = checked m.coherent := by
  unfold Gen.bds.bds20.AircraftIdentification.CheckCoherency AircraftIdentification.coherent; simp only [any_hash]; check_walk

/-- `bds30.ACASResolutionAdvisory.CheckCoherency`: the model's answer is the translated one. -/
theorem coherent_ACASResolutionAdvisory (m : ACASResolutionAdvisory) : Gen.bds.bds30.ACASResolutionAdvisory.CheckCoherency m = checked m.coherent := by
  unfold Gen.bds.bds30.ACASResolutionAdvisory.CheckCoherency ACASResolutionAdvisory.coherent; check_walk

/-- `bds40.SelectedVerticalIntention.CheckCoherency`: the model's answer is the translated one. -/
theorem coherent_SelectedVerticalIntention (m : SelectedVerticalIntention) : Gen.bds.bds40.SelectedVerticalIntention.CheckCoherency m = checked m.coherent := by
  unfold Gen.bds.bds40.SelectedVerticalIntention.CheckCoherency SelectedVerticalIntention.coherent; check_walk

/-- `bds44.MeteorologicalRoutineAirReportV0.CheckCoherency`: the model's answer is the translated one. -/
theorem coherent_RoutineAirReportV0 (m : RoutineAirReportV0) : Gen.bds.bds44.MeteorologicalRoutineAirReportV0.CheckCoherency m = checked m.coherent := by
  unfold Gen.bds.bds44.MeteorologicalRoutineAirReportV0.CheckCoherency RoutineAirReportV0.coherent; check_walk

/-- `bds44.MeteorologicalRoutineAirReportV1.CheckCoherency`: the model's answer is the translated one. -/
theorem coherent_RoutineAirReportV1 (m : RoutineAirReportV1) : Gen.bds.bds44.MeteorologicalRoutineAirReportV1.CheckCoherency m = checked m.coherent := by
  unfold Gen.bds.bds44.MeteorologicalRoutineAirReportV1.CheckCoherency RoutineAirReportV1.coherent; check_walk

/-- `bds44.MeteorologicalRoutineAirReportV2.CheckCoherency`: the model's answer is the translated one. -/
theorem coherent_RoutineAirReportV2 (m : RoutineAirReportV2) : Gen.bds.bds44.MeteorologicalRoutineAirReportV2.CheckCoherency m = checked m.coherent := by
  unfold Gen.bds.bds44.MeteorologicalRoutineAirReportV2.CheckCoherency RoutineAirReportV2.coherent; check_walk

/-- `bds45.MeteorologicalHazardReportV0.CheckCoherency`: the model's answer is the translated one. -/
theorem coherent_HazardReportV0 (m : HazardReportV0) : Gen.bds.bds45.MeteorologicalHazardReportV0.CheckCoherency m = checked m.coherent := by
  unfold Gen.bds.bds45.MeteorologicalHazardReportV0.CheckCoherency HazardReportV0.coherent; check_walk

/-- `bds45.MeteorologicalHazardReportV1.CheckCoherency`: the model's answer is the translated one. -/
theorem coherent_HazardReportV1 (m : HazardReportV1) : Gen.bds.bds45.MeteorologicalHazardReportV1.CheckCoherency m = checked m.coherent := by
  unfold Gen.bds.bds45.MeteorologicalHazardReportV1.CheckCoherency HazardReportV1.coherent; by_cases h : m.staticAirTemperatureStatus = true <;> simp only [h, if_true, if_false, true_and, false_and, Bool.false_eq_true] <;> check_walk

/-- `bds50.TrackAndTurnReport.CheckCoherency`: the model's answer is the translated one. -/
theorem coherent_TrackAndTurnReport (m : TrackAndTurnReport) : Gen.bds.bds50.TrackAndTurnReport.CheckCoherency m = checked m.coherent := by
  unfold Gen.bds.bds50.TrackAndTurnReport.CheckCoherency TrackAndTurnReport.coherent; check_walk

/-- `bds60.HeadingAndTrackReport.CheckCoherency`: the model's answer is the translated one. -/
theorem coherent_HeadingAndTrackReport (m : HeadingAndTrackReport) : Gen.bds.bds60.HeadingAndTrackReport.CheckCoherency m = checked m.coherent := by
  unfold Gen.bds.bds60.HeadingAndTrackReport.CheckCoherency HeadingAndTrackReport.coherent; check_walk

/-- `bds08.fields.AircraftCategory.CheckCoherency`: the model's answer is the translated one. -/
theorem coherent_AircraftCategory (m : AircraftCategory) : Gen.bds.bds08.fields.AircraftCategory.CheckCoherency m = checked m.coherent := by
  cases m <;> simp only [Gen.bds.bds08.fields.AircraftCategory.CheckCoherency, AircraftCategory.coherent] <;> try rfl
  rw [checked_not]; simp only [decide_eq_true_eq]; rfl

/-- `bds61.AircraftStatus.CheckCoherency`: the model's answer is the translated one. -/
theorem coherent_AircraftStatus (m : AircraftStatus) : Gen.bds.bds61.AircraftStatus.CheckCoherency m = checked m.coherent := by
  cases m with
  | noInformation x =>
    simp only [Gen.bds.bds61.AircraftStatus.CheckCoherency, AircraftStatus.coherent, Gen.bds.bds61.AircraftStatusNoInformation.CheckCoherency, checked, beq_iff_eq, ne_eq, ite_not]
    split <;> rfl
  | emergency x =>
    simp only [Gen.bds.bds61.AircraftStatus.CheckCoherency, AircraftStatus.coherent, checked_not, decide_eq_true_eq]; rfl
  | acas x => rfl

/-- `bds08.AircraftIdentificationAndCategory.CheckCoherency`: the model's answer is the translated one. -/
theorem coherent_IdentificationAndCategory (m : IdentificationAndCategory) : Gen.bds.bds08.AircraftIdentificationAndCategory.CheckCoherency m = checked m.coherent := by
  unfold Gen.bds.bds08.AircraftIdentificationAndCategory.CheckCoherency IdentificationAndCategory.coherent; simp only [any_hash, coherent_AircraftCategory, bind_unit]; check_walk

/-- `bds44.MeteorologicalRoutineAirReport.CheckCoherency`: the model's answer is the translated one. -/
theorem coherent_RoutineAirReport (m : RoutineAirReport) : Gen.bds.bds44.MeteorologicalRoutineAirReport.CheckCoherency m = checked m.coherent := by
  cases m <;> first | exact coherent_RoutineAirReportV0 _ | exact coherent_RoutineAirReportV1 _ | exact coherent_RoutineAirReportV2 _

/-- `bds45.MeteorologicalHazardReport.CheckCoherency`: the model's answer is the translated one. -/
theorem coherent_HazardReport (m : HazardReport) : Gen.bds.bds45.MeteorologicalHazardReport.CheckCoherency m = checked m.coherent := by
  cases m <;> first | exact coherent_HazardReportV0 _ | exact coherent_HazardReportV1 _

/-- `bds.Message.CheckCoherency`, the interface method `ReadCommBMessage` calls. -/
theorem coherent_CommBMessage (m : CommBMessage) : Gen.bds.Message.CheckCoherency m = checked m.coherent := by
  cases m with
  | bds00 x => exact coherent_NoMessageAvailable x
  | bds07 x => exact coherent_Status07 x
  | bds20 x => exact coherent_AircraftIdentification x
  | bds10 x => exact coherent_DataLinkCapabilityReport x
  | bds17 x => exact coherent_GICBCapabilityReport x
  | bds30 x => exact coherent_ACASResolutionAdvisory x
  | bds40 x => exact coherent_SelectedVerticalIntention x
  | bds44 x => exact coherent_RoutineAirReport x
  | bds45 x => exact coherent_HazardReport x
  | bds50 x => exact coherent_TrackAndTurnReport x
  | bds60 x => exact coherent_HeadingAndTrackReport x

/-- `CheckCoherency` of a decoded ADS-B message, the translated method of its Go type. -/
def genADSBCheck : ADSBMessage → Go Unit
  | .noPosition a b c d => Gen.adsb.no_position_information.NoPositionInformation.CheckCoherency a b c d
  | .airborneType0 a b c => Gen.adsb.airborne_position.AirbornePositionType0.CheckCoherency a b c
  | .airborneV0 a b c => Gen.adsb.airborne_position.AirbornePositionV0.CheckCoherency a b c
  | .airborneV1 a b c d => Gen.adsb.airborne_position.AirbornePositionV1.CheckCoherency a b c d
  | .airborneV2 a b c d e => Gen.adsb.airborne_position.AirbornePositionV2.CheckCoherency a b c d e
  | .surfaceV0 a b c => Gen.adsb.surface_position.SurfacePositionV0.CheckCoherency a b c
  | .surfaceV1 a b c d => Gen.adsb.surface_position.SurfacePositionV1.CheckCoherency a b c d
  | .surfaceV2 a b c d e => Gen.adsb.surface_position.SurfacePositionV2.CheckCoherency a b c d e
  | .velocity a b => Gen.adsb.airborne_velocity.AirborneVelocity.CheckCoherency a b
  | .identification a b => Gen.adsb.aircraft_identification_and_category.AircraftIdentificationAndCategory.CheckCoherency a b
  | .status a b => Gen.adsb.aircraft_status.AircraftStatus.CheckCoherency a b
  | .targetState a b => Gen.adsb.target_state_and_status.TargetStateAndStatus.CheckCoherency a b
  | .operationalStatus a b => Gen.adsb.aircraft_operational_status.AircraftOperationalStatus.CheckCoherency a b

/-- `CheckCoherency` of every ADS-B message. -/
theorem coherent_ADSBMessage (m : ADSBMessage) : genADSBCheck m = checked m.coherent := by
  cases m with
  | identification x v => exact coherent_IdentificationAndCategory x
  | status x v => exact coherent_AircraftStatus x
  | velocity x v => cases x <;> rfl
  | targetState x v => cases x <;> rfl
  | operationalStatus x v => cases x <;> rfl
  | _ => rfl

/-- `GetADSBVersion` of a decoded ADS-B message, the translated method of its Go type. -/
def genADSBVersion : ADSBMessage → UInt8
  | .noPosition a b c d => Gen.adsb.no_position_information.NoPositionInformation.GetADSBVersion a b c d
  | .airborneType0 a b c => Gen.adsb.airborne_position.AirbornePositionType0.GetADSBVersion a b c
  | .airborneV0 a b c => Gen.adsb.airborne_position.AirbornePositionV0.GetADSBVersion a b c
  | .airborneV1 a b c d => Gen.adsb.airborne_position.AirbornePositionV1.GetADSBVersion a b c d
  | .airborneV2 a b c d e => Gen.adsb.airborne_position.AirbornePositionV2.GetADSBVersion a b c d e
  | .surfaceV0 a b c => Gen.adsb.surface_position.SurfacePositionV0.GetADSBVersion a b c
  | .surfaceV1 a b c d => Gen.adsb.surface_position.SurfacePositionV1.GetADSBVersion a b c d
  | .surfaceV2 a b c d e => Gen.adsb.surface_position.SurfacePositionV2.GetADSBVersion a b c d e
  | .velocity a b => Gen.adsb.airborne_velocity.AirborneVelocity.GetADSBVersion a b
  | .identification a b => Gen.adsb.aircraft_identification_and_category.AircraftIdentificationAndCategory.GetADSBVersion a b
  | .status a b => Gen.adsb.aircraft_status.AircraftStatus.GetADSBVersion a b
  | .targetState a b => Gen.adsb.target_state_and_status.TargetStateAndStatus.GetADSBVersion a b
  | .operationalStatus a b => Gen.adsb.aircraft_operational_status.AircraftOperationalStatus.GetADSBVersion a b

/-- `GetADSBVersion` of every ADS-B message. -/
theorem version_ADSBMessage (m : ADSBMessage) : genADSBVersion m = m.getADSBVersion := by
  cases m <;> rfl

end Modes
