import Verif.Props.TranslationErase
import Verif.Props.TranslationCommB
import Verif.Props.Reasons
/-!
# The words of errors in the code are those of the model

Model/TranslationWords is a mechanical translation of the code that keeps the words of errors. The theorems of this file say that
the words it gives are those of the hand-written Model/Reasons, Model/Errors and Model/ReaderErrors: `same_words_…` for the readers and
`coherency_words_…` for the methods CheckCoherency.
-/
namespace Modes
open Saying

/-- The words of the error, if there is one. -/
def Saying.words {α : Type} : Saying α → Option Txt
  | .error (.err t) => some t
  | _ => none

/-- An error with these words, or no error. -/
def told : Option Txt → Saying Unit
  | none => pure ()
  | some t => say t

theorem told_ite {c : Prop} [Decidable c] (t : Txt) (o : Option Txt) :
    told (if c then some t else o) = if c then say t else told o := by split <;> rfl
theorem told_split {c : Prop} [Decidable c] (o p : Option Txt) :
    told (if c then o else p) = if c then told o else told p := by split <;> rfl
theorem told_none : told none = pure () := rfl
theorem told_some (t : Txt) : told (some t) = say t := rfl
theorem say_bind {α β : Type} (t : Txt) (f : α → Saying β) : ((say t : Saying α) >>= f) = say t := rfl
theorem said_ite_congr {α : Type} {c c' : Prop} [Decidable c] [Decidable c'] {a b a' b' : Saying α} (hc : c ↔ c') (h1 : a = a')
    (h2 : b = b') : ite c a b = ite c' a' b' := by
  subst h1 h2; exact if_congr hc rfl rfl

/-- The tests of a CheckCoherency method, one after the other. -/
macro "told_walk" : tactic => `(tactic| (
  (try simp only [say_bind, told_ite, told_none, or_assoc, and_assoc, pure_bind])
  repeat' (first | with_reducible rfl | with_reducible refine said_ite_congr Iff.rfl ?_ ?_ | rfl)))

/-- `bds07.Status.CheckCoherency`: the words of the code are those of the model. -/
theorem coherency_words_Status07 (m : Status07) : Said.bds.bds07.Status.CheckCoherency m = told m.incoherence := by
  unfold Said.bds.bds07.Status.CheckCoherency Status07.incoherence; told_walk

/-- `bds10.DataLinkCapabilityReport.CheckCoherency`: the words of the code are those of the model. -/
theorem coherency_words_DataLinkCapabilityReport (m : DataLinkCapabilityReport) : Said.bds.bds10.DataLinkCapabilityReport.CheckCoherency m = told m.incoherence := by
  unfold Said.bds.bds10.DataLinkCapabilityReport.CheckCoherency DataLinkCapabilityReport.incoherence; by_cases h : m.acasStatus = 0 <;> simp only [h, if_true, if_false, true_and, false_and, ne_eq, not_true, not_false_iff] <;> told_walk

/-- `bds20.AircraftIdentification.CheckCoherency`: the words of the code are those of the model. -/
theorem coherency_words_AircraftIdentification (m : AircraftIdentification) : Said.bds.bds20.AircraftIdentification.CheckCoherency m = told m.incoherence := by
  unfold Said.bds.bds20.AircraftIdentification.CheckCoherency AircraftIdentification.incoherence; simp only [any_hash]; told_walk

/-- `bds40.SelectedVerticalIntention.CheckCoherency`: the words of the code are those of the model. -/
theorem coherency_words_SelectedVerticalIntention (m : SelectedVerticalIntention) : Said.bds.bds40.SelectedVerticalIntention.CheckCoherency m = told m.incoherence := by
  unfold Said.bds.bds40.SelectedVerticalIntention.CheckCoherency SelectedVerticalIntention.incoherence; told_walk

/-- `bds44.MeteorologicalRoutineAirReportV0.CheckCoherency`: the words of the code are those of the model. -/
theorem coherency_words_RoutineAirReportV0 (m : RoutineAirReportV0) : Said.bds.bds44.MeteorologicalRoutineAirReportV0.CheckCoherency m = told m.incoherence := by
  unfold Said.bds.bds44.MeteorologicalRoutineAirReportV0.CheckCoherency RoutineAirReportV0.incoherence; told_walk

/-- `bds44.MeteorologicalRoutineAirReportV1.CheckCoherency`: the words of the code are those of the model. -/
theorem coherency_words_RoutineAirReportV1 (m : RoutineAirReportV1) : Said.bds.bds44.MeteorologicalRoutineAirReportV1.CheckCoherency m = told m.incoherence := by
  unfold Said.bds.bds44.MeteorologicalRoutineAirReportV1.CheckCoherency RoutineAirReportV1.incoherence; told_walk

/-- `bds44.MeteorologicalRoutineAirReportV2.CheckCoherency`: the words of the code are those of the model. -/
theorem coherency_words_RoutineAirReportV2 (m : RoutineAirReportV2) : Said.bds.bds44.MeteorologicalRoutineAirReportV2.CheckCoherency m = told m.incoherence := by
  unfold Said.bds.bds44.MeteorologicalRoutineAirReportV2.CheckCoherency RoutineAirReportV2.incoherence; told_walk

/-- `bds45.MeteorologicalHazardReportV0.CheckCoherency`: the words of the code are those of the model. -/
theorem coherency_words_HazardReportV0 (m : HazardReportV0) : Said.bds.bds45.MeteorologicalHazardReportV0.CheckCoherency m = told m.incoherence := by
  unfold Said.bds.bds45.MeteorologicalHazardReportV0.CheckCoherency HazardReportV0.incoherence; told_walk

/-- `bds45.MeteorologicalHazardReportV1.CheckCoherency`: the words of the code are those of the model. -/
theorem coherency_words_HazardReportV1 (m : HazardReportV1) : Said.bds.bds45.MeteorologicalHazardReportV1.CheckCoherency m = told m.incoherence := by
  unfold Said.bds.bds45.MeteorologicalHazardReportV1.CheckCoherency HazardReportV1.incoherence; by_cases h : m.staticAirTemperatureStatus = true <;> simp only [h, if_true, if_false, true_and, false_and, Bool.false_eq_true] <;> told_walk

/-- `bds50.TrackAndTurnReport.CheckCoherency`: the words of the code are those of the model. -/
theorem coherency_words_TrackAndTurnReport (m : TrackAndTurnReport) : Said.bds.bds50.TrackAndTurnReport.CheckCoherency m = told m.incoherence := by
  unfold Said.bds.bds50.TrackAndTurnReport.CheckCoherency TrackAndTurnReport.incoherence; told_walk

/-- `bds60.HeadingAndTrackReport.CheckCoherency`: the words of the code are those of the model. -/
theorem coherency_words_HeadingAndTrackReport (m : HeadingAndTrackReport) : Said.bds.bds60.HeadingAndTrackReport.CheckCoherency m = told m.incoherence := by
  unfold Said.bds.bds60.HeadingAndTrackReport.CheckCoherency HeadingAndTrackReport.incoherence; told_walk

/-- `bds08.AircraftIdentificationAndCategory.CheckCoherency`: the words of the code are those of the model. -/
theorem coherency_words_IdentificationAndCategory (m : IdentificationAndCategory) :
    Said.bds.bds08.AircraftIdentificationAndCategory.CheckCoherency m = told m.incoherence := by
  unfold Said.bds.bds08.AircraftIdentificationAndCategory.CheckCoherency IdentificationAndCategory.incoherence
  have h : Said.bds.bds08.fields.AircraftCategory.CheckCoherency m.category = told m.category.incoherence := by
    cases m.category <;> simp only [Said.bds.bds08.fields.AircraftCategory.CheckCoherency, AircraftCategory.incoherence,
      Said.bds.bds08.fields.AircraftCategorySetA.CheckCoherency, Said.bds.bds08.fields.AircraftCategorySetB.CheckCoherency,
      Said.bds.bds08.fields.AircraftCategorySetC.CheckCoherency, Said.bds.bds08.fields.AircraftCategorySetD.CheckCoherency] <;> told_walk
  simp only [any_hash, h, told_split, told_some]
  have h' : ∀ o, (told o >>= fun _ => pure ()) = told o := fun o => by cases o <;> rfl
  told_walk
  exact h' _

/-- `bds61.AircraftStatus.CheckCoherency`: the words of the code are those of the model. -/
theorem coherency_words_AircraftStatus (m : AircraftStatus) : Said.bds.bds61.AircraftStatus.CheckCoherency m = told m.incoherence := by
  cases m <;> simp only [Said.bds.bds61.AircraftStatus.CheckCoherency, AircraftStatus.incoherence,
    Said.bds.bds61.AircraftStatusNoInformation.CheckCoherency, Said.bds.bds61.AircraftStatusEmergency.CheckCoherency,
    Said.bds.bds61.AircraftStatusACAS.CheckCoherency] <;> told_walk

/-- `CheckCoherency` through the interface of the Comm-B messages: the words of the code are those of the model. -/
theorem coherency_words_CommB (m : CommBMessage) : Said.bds.Message.CheckCoherency m = told m.incoherence := by
  cases m with
  | bds44 m => cases m <;> simp only [Said.bds.Message.CheckCoherency, Said.bds.bds44.MeteorologicalRoutineAirReport.CheckCoherency,
      CommBMessage.incoherence, RoutineAirReport.incoherence, coherency_words_RoutineAirReportV0, coherency_words_RoutineAirReportV1,
      coherency_words_RoutineAirReportV2]
  | bds45 m => cases m <;> simp only [Said.bds.Message.CheckCoherency, Said.bds.bds45.MeteorologicalHazardReport.CheckCoherency,
      CommBMessage.incoherence, HazardReport.incoherence, coherency_words_HazardReportV0, coherency_words_HazardReportV1]
  | _ => first | rfl | simp only [Said.bds.Message.CheckCoherency, CommBMessage.incoherence, coherency_words_Status07,
      coherency_words_DataLinkCapabilityReport, coherency_words_AircraftIdentification, coherency_words_SelectedVerticalIntention,
      coherency_words_TrackAndTurnReport, coherency_words_HeadingAndTrackReport]

/-- `CheckCoherency` of a decoded ADS-B message, the translated method of its Go type, with words. -/
def saidADSBCheck : ADSBMessage → Saying Unit
  | .noPosition a b c d => Said.adsb.no_position_information.NoPositionInformation.CheckCoherency a b c d
  | .airborneType0 a b c => Said.adsb.airborne_position.AirbornePositionType0.CheckCoherency a b c
  | .airborneV0 a b c => Said.adsb.airborne_position.AirbornePositionV0.CheckCoherency a b c
  | .airborneV1 a b c d => Said.adsb.airborne_position.AirbornePositionV1.CheckCoherency a b c d
  | .airborneV2 a b c d e => Said.adsb.airborne_position.AirbornePositionV2.CheckCoherency a b c d e
  | .surfaceV0 a b c => Said.adsb.surface_position.SurfacePositionV0.CheckCoherency a b c
  | .surfaceV1 a b c d => Said.adsb.surface_position.SurfacePositionV1.CheckCoherency a b c d
  | .surfaceV2 a b c d e => Said.adsb.surface_position.SurfacePositionV2.CheckCoherency a b c d e
  | .velocity a b => Said.adsb.airborne_velocity.AirborneVelocity.CheckCoherency a b
  | .identification a b => Said.adsb.aircraft_identification_and_category.AircraftIdentificationAndCategory.CheckCoherency a b
  | .status a b => Said.adsb.aircraft_status.AircraftStatus.CheckCoherency a b
  | .targetState a b => Said.adsb.target_state_and_status.TargetStateAndStatus.CheckCoherency a b
  | .operationalStatus a b => Said.adsb.aircraft_operational_status.AircraftOperationalStatus.CheckCoherency a b

/-- `CheckCoherency` of every ADS-B message: the words of the code are those of the model. -/
theorem coherency_words_ADSB (m : ADSBMessage) : saidADSBCheck m = told m.incoherence := by
  cases m with
  | identification x v => exact coherency_words_IdentificationAndCategory x
  | status x v => exact coherency_words_AircraftStatus x
  | velocity x v => cases x <;> rfl
  | targetState x v => cases x <;> rfl
  | operationalStatus x v => cases x <;> rfl
  | _ => rfl

/-! ### The readers -/

theorem words_same {α : Type} {s : Saying α} {r : Go α} {e : Option Txt} (he : s.erase = r) (hn : e = none ↔ Succeeds r)
    (hs : ∀ t, e = some t → s = say t) : s.words = e := by
  cases e with
  | none =>
    obtain ⟨a, ha⟩ := hn.1 rfl
    rw [ha] at he
    rcases s with (_ | _) | _
    · cases he
    · cases he
    · rfl
  | some t => rw [hs t rfl]; rfl

theorem lift_ok {α β : Type} (a : α) (f : α → Saying β) : ((liftM (Except.ok a : Go α) : Saying α) >>= f) = f a := rfl
theorem idx_at {α : Type} (s : List α) (i : Nat) (a : α) (h : s[i]? = some a) : idx s i = .ok a := by simp only [idx, h]
theorem liftM_idx {α β : Type} (s : List α) (i : Nat) (a : α) (f : α → Saying β) (h : s[i]? = some a) :
    ((liftM (idx s i) : Saying α) >>= f) = f a := by rw [idx_at s i a h]; rfl

section
variable {b0 b1 b2 b3 b4 b5 b6 : UInt8}
theorem idx7_0 : idx [b0, b1, b2, b3, b4, b5, b6] 0 = .ok b0 := rfl
theorem idx7_1 : idx [b0, b1, b2, b3, b4, b5, b6] 1 = .ok b1 := rfl
theorem idx7_2 : idx [b0, b1, b2, b3, b4, b5, b6] 2 = .ok b2 := rfl
theorem idx7_3 : idx [b0, b1, b2, b3, b4, b5, b6] 3 = .ok b3 := rfl
theorem idx7_4 : idx [b0, b1, b2, b3, b4, b5, b6] 4 = .ok b4 := rfl
theorem idx7_5 : idx [b0, b1, b2, b3, b4, b5, b6] 5 = .ok b5 := rfl
theorem idx7_6 : idx [b0, b1, b2, b3, b4, b5, b6] 6 = .ok b6 := rfl
theorem at7_0 : byteAt [b0, b1, b2, b3, b4, b5, b6] 0 = b0 := rfl
theorem at7_1 : byteAt [b0, b1, b2, b3, b4, b5, b6] 1 = b1 := rfl
theorem at7_2 : byteAt [b0, b1, b2, b3, b4, b5, b6] 2 = b2 := rfl
theorem at7_3 : byteAt [b0, b1, b2, b3, b4, b5, b6] 3 = b3 := rfl
theorem at7_4 : byteAt [b0, b1, b2, b3, b4, b5, b6] 4 = b4 := rfl
theorem at7_5 : byteAt [b0, b1, b2, b3, b4, b5, b6] 5 = b5 := rfl
theorem at7_6 : byteAt [b0, b1, b2, b3, b4, b5, b6] 6 = b6 := rfl
theorem seven : ¬ ([b0, b1, b2, b3, b4, b5, b6].length ≠ 7) := by simp
end

theorem drop_one {α : Type} (a : α) (l : List α) : (a :: l).drop 1 = l := rfl
theorem drop_four {α : Type} (a b c d : α) (l : List α) : (a :: b :: c :: d :: l).drop 4 = l := rfl
theorem chain_say {α : Type} {c : Prop} {i j : Decidable c} {x t : Txt} {o : Option Txt} {r : Saying α} (h : o = some t → r = say t) :
    (@ite _ c i (some x) o) = some t → (@ite _ c j (say x) r) = say t := by
  intro h'; split at h'
  · next hc => rw [if_pos hc]; injection h' with h'; rw [h']
  · next hc => rw [if_neg hc]; exact h h'
theorem chain_any {α : Type} {p : Prop} {i j : Decidable p} {q : Bool} {x t : Txt} {o : Option Txt} {r : Saying α}
    (h : (if q = true then some x else o) = some t → r = say t) :
    (if (@decide p i || q) = true then some x else o) = some t → (@ite _ p j (say x) r) = say t := by
  intro h'
  by_cases hp : p
  · simp only [hp, decide_true, Bool.true_or, if_true] at h' ⊢; injection h' with h'; rw [h']
  · simp only [hp, decide_false, Bool.false_or, if_false] at h' ⊢; exact h h'
theorem end_any {α : Type} {x t : Txt} {o : Option Txt} {r : Saying α} (h : o = some t → r = say t) :
    (if false = true then some x else o) = some t → r = say t := fun h' => h h'
theorem no_say {α : Type} {t : Txt} {r : Saying α} : (none : Option Txt) = some t → r = say t := fun h => nomatch h
theorem last_say {α : Type} {x t : Txt} : some x = some t → (say x : Saying α) = say t := by
  intro h; injection h with h; rw [h]

/-- The prefix of a reader of 7 bytes, evaluated up to its checks. -/
macro "read_seven" e:ident "[" defs:Lean.Parser.Tactic.simpLemma,* "]" : tactic =>
  `(tactic| (dsimp only [$e:ident, at7_0, at7_1, at7_2, at7_3, at7_4, at7_5, at7_6, lengthError]
             simp only [$defs,*, idx7_0, idx7_1, idx7_2, idx7_3, idx7_4, idx7_5, idx7_6,
    lift_ok, go_bind_ok, go_pure, pure_bind, or_assoc, say_bind, seven, if_false, List.any_cons, List.any_nil, drop_one, drop_four]))

/-- The checks of a reader, one after the other. -/
macro "said_chain" : tactic => `(tactic|
  (repeat' (first
    | with_reducible refine chain_say ?_
    | with_reducible refine chain_any ?_
    | with_reducible refine end_any ?_
    | with_reducible exact last_say
    | with_reducible exact no_say
    | refine chain_say ?_
    | refine chain_any ?_
    | refine end_any ?_)))

/-- `bds10.ReadDataLinkCapabilityReport`: the words of the code are those of the model. -/
theorem same_words_bds10Error (d : List UInt8) : (Said.bds.bds10.ReadDataLinkCapabilityReport d).words = bds10Error d := by
  refine words_same ((erase_bds.bds10.ReadDataLinkCapabilityReport d).trans (by simp only [translated])) (bds10_reason d).1 fun t => ?_
  by_cases h7 : d.length = 7
  · obtain ⟨b0, b1, b2, b3, b4, b5, b6, rfl⟩ := list7 d h7
    read_seven bds10Error [Said.bds.bds10.ReadDataLinkCapabilityReport]
    said_chain
  · unfold bds10Error Said.bds.bds10.ReadDataLinkCapabilityReport
    rw [if_pos h7, if_pos h7]; exact last_say

/-- `bds00.ReadNoMessageAvailable`: the words of the code are those of the model. -/
theorem same_words_bds00Error (d : List UInt8) : (Said.bds.bds00.ReadNoMessageAvailable d).words = bds00Error d := by
  refine words_same ((erase_bds.bds00.ReadNoMessageAvailable d).trans (by simp only [translated])) (bds00_reason d).1 fun t => ?_
  by_cases h7 : d.length = 7
  · obtain ⟨b0, b1, b2, b3, b4, b5, b6, rfl⟩ := list7 d h7
    read_seven bds00Error [Said.bds.bds00.ReadNoMessageAvailable]
    said_chain
  · unfold bds00Error Said.bds.bds00.ReadNoMessageAvailable
    rw [if_pos h7, if_pos h7]; exact last_say

/-- `bds07.ReadStatus`: the words of the code are those of the model. -/
theorem same_words_bds07Error (d : List UInt8) : (Said.bds.bds07.ReadStatus d).words = bds07Error d := by
  refine words_same ((erase_bds.bds07.ReadStatus d).trans (by simp only [translated])) (bds07_reason d).1 fun t => ?_
  by_cases h7 : d.length = 7
  · obtain ⟨b0, b1, b2, b3, b4, b5, b6, rfl⟩ := list7 d h7
    read_seven bds07Error [Said.bds.bds07.ReadStatus]
    said_chain
  · unfold bds07Error Said.bds.bds07.ReadStatus
    rw [if_pos h7, if_pos h7]; exact last_say

/-- `bds17.ReadCommonUsageGICBCapabilityReport`: the words of the code are those of the model. -/
theorem same_words_bds17Error (d : List UInt8) : (Said.bds.bds17.ReadCommonUsageGICBCapabilityReport d).words = bds17Error d := by
  refine words_same ((erase_bds.bds17.ReadCommonUsageGICBCapabilityReport d).trans (by simp only [translated])) (bds17_reason d).1 fun t => ?_
  by_cases h7 : d.length = 7
  · obtain ⟨b0, b1, b2, b3, b4, b5, b6, rfl⟩ := list7 d h7
    read_seven bds17Error [Said.bds.bds17.ReadCommonUsageGICBCapabilityReport]
    said_chain
  · unfold bds17Error Said.bds.bds17.ReadCommonUsageGICBCapabilityReport
    rw [if_pos h7, if_pos h7]; exact last_say

/-- `bds20.ReadAircraftIdentification`: the words of the code are those of the model. -/
theorem same_words_bds20Error (d : List UInt8) : (Said.bds.bds20.ReadAircraftIdentification d).words = bds20Error d := by
  refine words_same ((erase_bds.bds20.ReadAircraftIdentification d).trans (by simp only [translated])) (bds20_reason d).1 fun t => ?_
  by_cases h7 : d.length = 7
  · obtain ⟨b0, b1, b2, b3, b4, b5, b6, rfl⟩ := list7 d h7
    read_seven bds20Error [Said.bds.bds20.ReadAircraftIdentification]
    said_chain
  · unfold bds20Error Said.bds.bds20.ReadAircraftIdentification
    rw [if_pos h7, if_pos h7]; exact last_say

/-- `bds40.ReadSelectedVerticalIntention`: the words of the code are those of the model. -/
theorem same_words_bds40Error (d : List UInt8) : (Said.bds.bds40.ReadSelectedVerticalIntention d).words = bds40Error d := by
  refine words_same ((erase_bds.bds40.ReadSelectedVerticalIntention d).trans (by simp only [translated])) (bds40_reason d).1 fun t => ?_
  by_cases h7 : d.length = 7
  · obtain ⟨b0, b1, b2, b3, b4, b5, b6, rfl⟩ := list7 d h7
    read_seven bds40Error [Said.bds.bds40.ReadSelectedVerticalIntention]
    said_chain
  · unfold bds40Error Said.bds.bds40.ReadSelectedVerticalIntention
    rw [if_pos h7, if_pos h7]; exact last_say

/-- `bds50.ReadTrackAndTurnReport`: the words of the code are those of the model. -/
theorem same_words_bds50Error (d : List UInt8) : (Said.bds.bds50.ReadTrackAndTurnReport d).words = bds50Error d := by
  refine words_same ((erase_bds.bds50.ReadTrackAndTurnReport d).trans (by simp only [translated])) (bds50_60_reason d).1 fun t => ?_
  by_cases h7 : d.length = 7
  · obtain ⟨b0, b1, b2, b3, b4, b5, b6, rfl⟩ := list7 d h7
    read_seven bds50Error [Said.bds.bds50.ReadTrackAndTurnReport]
    said_chain
  · unfold bds50Error Said.bds.bds50.ReadTrackAndTurnReport
    rw [if_pos h7, if_pos h7]; exact last_say

/-- `bds60.ReadHeadingAndSpeedReport`: the words of the code are those of the model. -/
theorem same_words_bds60Error (d : List UInt8) : (Said.bds.bds60.ReadHeadingAndSpeedReport d).words = bds60Error d := by
  refine words_same ((erase_bds.bds60.ReadHeadingAndSpeedReport d).trans (by simp only [translated])) (bds50_60_reason d).2.2.1 fun t => ?_
  by_cases h7 : d.length = 7
  · obtain ⟨b0, b1, b2, b3, b4, b5, b6, rfl⟩ := list7 d h7
    read_seven bds60Error [Said.bds.bds60.ReadHeadingAndSpeedReport]
    said_chain
  · unfold bds60Error Said.bds.bds60.ReadHeadingAndSpeedReport
    rw [if_pos h7, if_pos h7]; exact last_say

/-- `bds44.ReadMeteorologicalRoutineAirReportV0`: the words of the code are those of the model. -/
theorem same_words_bds44V0Error (d : List UInt8) : (Said.bds.bds44.ReadMeteorologicalRoutineAirReportV0 d).words = bds44V0Error d := by
  refine words_same ((erase_bds.bds44.ReadMeteorologicalRoutineAirReportV0 d).trans (by simp only [translated])) (bds44V_reason d).1.1 fun t => ?_
  by_cases h7 : d.length = 7
  · obtain ⟨b0, b1, b2, b3, b4, b5, b6, rfl⟩ := list7 d h7
    read_seven bds44V0Error [Said.bds.bds44.ReadMeteorologicalRoutineAirReportV0]
    said_chain
  · unfold bds44V0Error Said.bds.bds44.ReadMeteorologicalRoutineAirReportV0
    rw [if_pos h7, if_pos h7]; exact last_say

/-- `bds44.ReadMeteorologicalRoutineAirReportV1`: the words of the code are those of the model. -/
theorem same_words_bds44V1Error (d : List UInt8) : (Said.bds.bds44.ReadMeteorologicalRoutineAirReportV1 d).words = bds44V1Error d := by
  refine words_same ((erase_bds.bds44.ReadMeteorologicalRoutineAirReportV1 d).trans (by simp only [translated])) (bds44V_reason d).2.1.1 fun t => ?_
  by_cases h7 : d.length = 7
  · obtain ⟨b0, b1, b2, b3, b4, b5, b6, rfl⟩ := list7 d h7
    read_seven bds44V1Error [Said.bds.bds44.ReadMeteorologicalRoutineAirReportV1]
    said_chain
  · unfold bds44V1Error Said.bds.bds44.ReadMeteorologicalRoutineAirReportV1
    rw [if_pos h7, if_pos h7]; exact last_say

/-- `bds44.ReadMeteorologicalRoutineAirReportV2`: the words of the code are those of the model. -/
theorem same_words_bds44V2Error (d : List UInt8) : (Said.bds.bds44.ReadMeteorologicalRoutineAirReportV2 d).words = bds44V2Error d := by
  refine words_same ((erase_bds.bds44.ReadMeteorologicalRoutineAirReportV2 d).trans (by simp only [translated])) (bds44V_reason d).2.2.1 fun t => ?_
  by_cases h7 : d.length = 7
  · obtain ⟨b0, b1, b2, b3, b4, b5, b6, rfl⟩ := list7 d h7
    read_seven bds44V2Error [Said.bds.bds44.ReadMeteorologicalRoutineAirReportV2]
    said_chain
  · unfold bds44V2Error Said.bds.bds44.ReadMeteorologicalRoutineAirReportV2
    rw [if_pos h7, if_pos h7]; exact last_say

/-- `bds45.ReadMeteorologicalHazardReportV0`: the words of the code are those of the model. -/
theorem same_words_bds45V0Error (d : List UInt8) : (Said.bds.bds45.ReadMeteorologicalHazardReportV0 d).words = bds45V0Error d := by
  refine words_same ((erase_bds.bds45.ReadMeteorologicalHazardReportV0 d).trans (by simp only [translated])) (bds45_reason d).1.1 fun t => ?_
  by_cases h7 : d.length = 7
  · obtain ⟨b0, b1, b2, b3, b4, b5, b6, rfl⟩ := list7 d h7
    read_seven bds45V0Error [Said.bds.bds45.ReadMeteorologicalHazardReportV0]
    said_chain
  · unfold bds45V0Error Said.bds.bds45.ReadMeteorologicalHazardReportV0
    rw [if_pos h7, if_pos h7]; exact last_say

/-- `bds45.ReadMeteorologicalHazardReportV1`: the words of the code are those of the model. -/
theorem same_words_bds45V1Error (d : List UInt8) : (Said.bds.bds45.ReadMeteorologicalHazardReportV1 d).words = bds45V1Error d := by
  refine words_same ((erase_bds.bds45.ReadMeteorologicalHazardReportV1 d).trans (by simp only [translated])) (bds45_reason d).2.1.1 fun t => ?_
  by_cases h7 : d.length = 7
  · obtain ⟨b0, b1, b2, b3, b4, b5, b6, rfl⟩ := list7 d h7
    read_seven bds45V1Error [Said.bds.bds45.ReadMeteorologicalHazardReportV1]
    said_chain
  · unfold bds45V1Error Said.bds.bds45.ReadMeteorologicalHazardReportV1
    rw [if_pos h7, if_pos h7]; exact last_say

end Modes
