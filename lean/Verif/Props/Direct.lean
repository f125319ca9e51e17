import Verif.Props.ADSB
import Verif.Props.BDS44
import Verif.Props.BDS45
/-!
# The readers of one kind of message, called directly

Besides the dispatching readers, the packages export the reader of each kind of message.
-/
namespace Spec
open Modes

/-- Reading directly as one kind of message (`direct`, whose messages are the `kind` ones of the family) is reading with the reader
of the family and keeping only the messages of that kind; and it does not panic. -/
def SameAs {α β : Type} (direct : Go α) (family : Go β) (kind : α → β) : Prop :=
  (∀ m, direct = .ok m ↔ family = .ok (kind m)) ∧ NoPanic direct

end Spec
namespace Modes
open Spec

theorem sameAs_of {α β : Type} {direct : Go α} {family : Go β} {kind : α → β} (hk : Function.Injective kind)
    (hp : NoPanic family)
    (h : family = (do let m ← direct; pure (kind m)) ∨ (direct = .error .err ∧ ∀ m, family ≠ .ok (kind m))) :
    SameAs direct family kind := by
  rcases h with h | ⟨h, hf⟩
  · subst h
    rcases direct with e | m
    · refine ⟨fun m => ⟨fun g => (nomatch g), fun g => (nomatch g)⟩, fun g => hp ?_⟩
      cases g; rfl
    · refine ⟨fun m' => ⟨fun g => by cases g; rfl, fun g => ?_⟩, fun g => (nomatch g)⟩
      have : kind m = kind m' := Except.ok.inj g
      rw [hk this]
  · subst h
    exact ⟨fun m => ⟨fun g => (nomatch g), fun g => absurd g (hf m)⟩, fun g => (nomatch g)⟩

theorem map_ne {α β : Type} (r : Go α) (g : α → β) (y : β) (h : ∀ x, g x ≠ y) : (r >>= fun x => Except.ok (g x)) ≠ .ok y := by
  rcases r with e | a
  · intro g; cases g
  · intro e; exact h a (Except.ok.inj e)

theorem groundSpeedNormal_direct (d : List UInt8) : SameAs (readGroundSpeedNormal d) (readBDS09 d) .groundSpeedNormal := by
  refine sameAs_of (fun a b h => by injection h) (velocity_accepts d).2 ?_
  by_cases h7 : d.length = 7
  rotate_left
  · right
    unfold readBDS09 readGroundSpeedNormal
    simp [h7, fail, bind, Except.bind]
  obtain ⟨b0, b1, b2, b3, b4, b5, b6, rfl⟩ := list7 d h7
  by_cases h1 : (b0 &&& 0xF8) >>> 3 = 19
  rotate_left
  · right
    unfold readBDS09 readGroundSpeedNormal readFormatTypeCode
    go_run [h1]
    simp [h1]
  by_cases h2 : b0 &&& 7 = 1
  rotate_left
  · right
    constructor
    · unfold readGroundSpeedNormal readFormatTypeCode readSubtype09
      go_run [h1, h2]
    · unfold readBDS09 readFormatTypeCode readSubtype09
      go_run [h1, h2]
      intro m
      (repeat' split) <;> first | exact map_ne _ _ _ (fun _ h => nomatch h) | (intro h; nomatch h)
  · left
    unfold readBDS09 readFormatTypeCode readSubtype09
    go_run [h1, h2]
    all_goals rfl

theorem groundSpeedSupersonic_direct (d : List UInt8) : SameAs (readGroundSpeedSupersonic d) (readBDS09 d) .groundSpeedSupersonic := by
  refine sameAs_of (fun a b h => by injection h) (velocity_accepts d).2 ?_
  by_cases h7 : d.length = 7
  rotate_left
  · right
    unfold readBDS09 readGroundSpeedSupersonic
    simp [h7, fail, bind, Except.bind]
  obtain ⟨b0, b1, b2, b3, b4, b5, b6, rfl⟩ := list7 d h7
  by_cases h1 : (b0 &&& 0xF8) >>> 3 = 19
  rotate_left
  · right
    unfold readBDS09 readGroundSpeedSupersonic readFormatTypeCode
    go_run [h1]
    simp [h1]
  by_cases h2 : b0 &&& 7 = 2
  rotate_left
  · right
    constructor
    · unfold readGroundSpeedSupersonic readFormatTypeCode readSubtype09
      go_run [h1, h2]
    · unfold readBDS09 readFormatTypeCode readSubtype09
      go_run [h1, h2]
      intro m
      (repeat' split) <;> first | exact map_ne _ _ _ (fun _ h => nomatch h) | (intro h; nomatch h)
  · left
    unfold readBDS09 readFormatTypeCode readSubtype09
    go_run [h1, h2]
    all_goals rfl

theorem airSpeedNormal_direct (d : List UInt8) : SameAs (readAirSpeedNormal d) (readBDS09 d) .airSpeedNormal := by
  refine sameAs_of (fun a b h => by injection h) (velocity_accepts d).2 ?_
  by_cases h7 : d.length = 7
  rotate_left
  · right
    unfold readBDS09 readAirSpeedNormal
    simp [h7, fail, bind, Except.bind]
  obtain ⟨b0, b1, b2, b3, b4, b5, b6, rfl⟩ := list7 d h7
  by_cases h1 : (b0 &&& 0xF8) >>> 3 = 19
  rotate_left
  · right
    unfold readBDS09 readAirSpeedNormal readFormatTypeCode
    go_run [h1]
    simp [h1]
  by_cases h2 : b0 &&& 7 = 3
  rotate_left
  · right
    constructor
    · unfold readAirSpeedNormal readFormatTypeCode readSubtype09
      go_run [h1, h2]
    · unfold readBDS09 readFormatTypeCode readSubtype09
      go_run [h1, h2]
      intro m
      (repeat' split) <;> first | exact map_ne _ _ _ (fun _ h => nomatch h) | (intro h; nomatch h)
  · left
    unfold readBDS09 readFormatTypeCode readSubtype09
    go_run [h1, h2]
    all_goals rfl

theorem airSpeedSupersonic_direct (d : List UInt8) : SameAs (readAirSpeedSupersonic d) (readBDS09 d) .airSpeedSupersonic := by
  refine sameAs_of (fun a b h => by injection h) (velocity_accepts d).2 ?_
  by_cases h7 : d.length = 7
  rotate_left
  · right
    unfold readBDS09 readAirSpeedSupersonic
    simp [h7, fail, bind, Except.bind]
  obtain ⟨b0, b1, b2, b3, b4, b5, b6, rfl⟩ := list7 d h7
  by_cases h1 : (b0 &&& 0xF8) >>> 3 = 19
  rotate_left
  · right
    unfold readBDS09 readAirSpeedSupersonic readFormatTypeCode
    go_run [h1]
    simp [h1]
  by_cases h2 : b0 &&& 7 = 4
  rotate_left
  · right
    constructor
    · unfold readAirSpeedSupersonic readFormatTypeCode readSubtype09
      go_run [h1, h2]
    · unfold readBDS09 readFormatTypeCode readSubtype09
      go_run [h1, h2]
      intro m
      (repeat' split) <;> first | exact map_ne _ _ _ (fun _ h => nomatch h) | (intro h; nomatch h)
  · left
    unfold readBDS09 readFormatTypeCode readSubtype09
    go_run [h1, h2]
    all_goals rfl

theorem statusNoInformation_direct (d : List UInt8) : SameAs (readStatusNoInformation d) (readBDS61 d) .noInformation := by
  refine sameAs_of (fun a b h => by injection h) (status_accepts_partial d).2 ?_
  by_cases h7 : d.length = 7
  rotate_left
  · right
    unfold readBDS61 readStatusNoInformation
    simp [h7, fail, bind, Except.bind]
  obtain ⟨b0, b1, b2, b3, b4, b5, b6, rfl⟩ := list7 d h7
  by_cases h1 : (b0 &&& 0xF8) >>> 3 = 28
  rotate_left
  · right
    unfold readBDS61 readStatusNoInformation readFormatTypeCode
    go_run [h1]
    simp [h1]
  by_cases h2 : b0 &&& 7 = 0
  rotate_left
  · right
    constructor
    · unfold readStatusNoInformation readFormatTypeCode readSubtype61
      go_run [h1, h2]
    · unfold readBDS61 readFormatTypeCode readSubtype61
      go_run [h1, h2]
      intro m
      (repeat' split) <;> first | exact map_ne _ _ _ (fun _ h => nomatch h) | (intro h; nomatch h)
  · left
    unfold readBDS61 readFormatTypeCode readSubtype61
    go_run [h1, h2]
    all_goals rfl

theorem statusEmergency_direct (d : List UInt8) : SameAs (readStatusEmergency d) (readBDS61 d) .emergency := by
  refine sameAs_of (fun a b h => by injection h) (status_accepts_partial d).2 ?_
  by_cases h7 : d.length = 7
  rotate_left
  · right
    unfold readBDS61 readStatusEmergency
    simp [h7, fail, bind, Except.bind]
  obtain ⟨b0, b1, b2, b3, b4, b5, b6, rfl⟩ := list7 d h7
  by_cases h1 : (b0 &&& 0xF8) >>> 3 = 28
  rotate_left
  · right
    unfold readBDS61 readStatusEmergency readFormatTypeCode
    go_run [h1]
    simp [h1]
  by_cases h2 : b0 &&& 7 = 1
  rotate_left
  · right
    constructor
    · unfold readStatusEmergency readFormatTypeCode readSubtype61
      go_run [h1, h2]
    · unfold readBDS61 readFormatTypeCode readSubtype61
      go_run [h1, h2]
      intro m
      (repeat' split) <;> first | exact map_ne _ _ _ (fun _ h => nomatch h) | (intro h; nomatch h)
  · left
    unfold readBDS61 readFormatTypeCode readSubtype61
    go_run [h1, h2]
    all_goals rfl

theorem statusACAS_direct (d : List UInt8) : SameAs (readStatusACAS d) (readBDS61 d) .acas := by
  refine sameAs_of (fun a b h => by injection h) (status_accepts_partial d).2 ?_
  by_cases h7 : d.length = 7
  rotate_left
  · right
    unfold readBDS61 readStatusACAS
    simp [h7, fail, bind, Except.bind]
  obtain ⟨b0, b1, b2, b3, b4, b5, b6, rfl⟩ := list7 d h7
  by_cases h1 : (b0 &&& 0xF8) >>> 3 = 28
  rotate_left
  · right
    unfold readBDS61 readStatusACAS readFormatTypeCode
    go_run [h1]
    simp [h1]
  by_cases h2 : b0 &&& 7 = 2
  rotate_left
  · right
    constructor
    · unfold readStatusACAS readFormatTypeCode readSubtype61
      go_run [h1, h2]
    · unfold readBDS61 readFormatTypeCode readSubtype61
      go_run [h1, h2]
      intro m
      (repeat' split) <;> first | exact map_ne _ _ _ (fun _ h => nomatch h) | (intro h; nomatch h)
  · left
    unfold readBDS61 readFormatTypeCode readSubtype61
    go_run [h1, h2]
    all_goals rfl

theorem targetStateAndStatus0_direct (d : List UInt8) : SameAs (readTargetStateAndStatus0 d) (readBDS62 d) .type0 := by
  refine sameAs_of (fun a b h => by injection h) (target_state_accepts d).2 ?_
  by_cases h7 : d.length = 7
  rotate_left
  · right
    unfold readBDS62 readTargetStateAndStatus0
    simp [h7, fail, bind, Except.bind]
  obtain ⟨b0, b1, b2, b3, b4, b5, b6, rfl⟩ := list7 d h7
  by_cases h1 : (b0 &&& 0xF8) >>> 3 = 29
  rotate_left
  · right
    unfold readBDS62 readTargetStateAndStatus0 readFormatTypeCode
    go_run [h1]
    simp [h1]
  by_cases h2 : (b0 &&& 6) >>> 1 = 0
  rotate_left
  · right
    constructor
    · unfold readTargetStateAndStatus0 readFormatTypeCode readSubtype62
      go_run [h1, h2]
    · unfold readBDS62 readFormatTypeCode readSubtype62
      go_run [h1, h2]
      intro m
      (repeat' split) <;> first | exact map_ne _ _ _ (fun _ h => nomatch h) | (intro h; nomatch h)
  · left
    unfold readBDS62 readFormatTypeCode readSubtype62
    go_run [h1, h2]
    all_goals rfl

theorem targetStateAndStatus1_direct (d : List UInt8) : SameAs (readTargetStateAndStatus1 d) (readBDS62 d) .type1 := by
  refine sameAs_of (fun a b h => by injection h) (target_state_accepts d).2 ?_
  by_cases h7 : d.length = 7
  rotate_left
  · right
    unfold readBDS62 readTargetStateAndStatus1
    simp [h7, fail, bind, Except.bind]
  obtain ⟨b0, b1, b2, b3, b4, b5, b6, rfl⟩ := list7 d h7
  by_cases h1 : (b0 &&& 0xF8) >>> 3 = 29
  rotate_left
  · right
    unfold readBDS62 readTargetStateAndStatus1 readFormatTypeCode
    go_run [h1]
    simp [h1]
  by_cases h2 : (b0 &&& 6) >>> 1 = 1
  rotate_left
  · right
    constructor
    · unfold readTargetStateAndStatus1 readFormatTypeCode readSubtype62
      go_run [h1, h2]
    · unfold readBDS62 readFormatTypeCode readSubtype62
      go_run [h1, h2]
      intro m
      (repeat' split) <;> first | exact map_ne _ _ _ (fun _ h => nomatch h) | (intro h; nomatch h)
  · left
    unfold readBDS62 readFormatTypeCode readSubtype62
    go_run [h1, h2]
    all_goals rfl

theorem opStatusV0_direct (d : List UInt8) : SameAs (readOpStatusV0 d) (readBDS65 d) .v0 := by
  refine sameAs_of (fun a b h => by injection h) (operational_status_accepts d).2 ?_
  by_cases h7 : d.length = 7
  rotate_left
  · right
    unfold readBDS65 readOpStatusV0
    simp [h7, fail, bind, Except.bind]
  obtain ⟨b0, b1, b2, b3, b4, b5, b6, rfl⟩ := list7 d h7
  by_cases h1 : (b0 &&& 0xF8) >>> 3 = 31
  rotate_left
  · right
    unfold readBDS65 readOpStatusV0 readFormatTypeCode
    go_run [h1]
    simp [h1]
  by_cases h2 : (b5 &&& 0xE0) >>> 5 = 0
  rotate_left
  · right
    constructor
    · have h5 : b5 ≠ 0 := fun h => h2 (by rw [h]; rfl)
      unfold readOpStatusV0 readFormatTypeCode readSubtype65
      go_run [h1, h5, true_or]
      (repeat' split) <;> rfl
    · unfold readBDS65 readFormatTypeCode
      go_run [h1, h2]
      intro m
      (repeat' split) <;> first | exact map_ne _ _ _ (fun _ h => nomatch h) | (intro h; nomatch h)
  · left
    unfold readBDS65 readFormatTypeCode
    go_run [h1, h2]
    all_goals rfl

theorem opStatusAirborneV1_direct (d : List UInt8) : SameAs (readOpStatusAirborneV1 d) (readBDS65 d) .airborneV1 := by
  refine sameAs_of (fun a b h => by injection h) (operational_status_accepts d).2 ?_
  by_cases h7 : d.length = 7
  rotate_left
  · right
    unfold readBDS65 readOpStatusAirborneV1
    simp [h7, fail, bind, Except.bind]
  obtain ⟨b0, b1, b2, b3, b4, b5, b6, rfl⟩ := list7 d h7
  by_cases h1 : (b0 &&& 0xF8) >>> 3 = 31
  rotate_left
  · right
    unfold readBDS65 readOpStatusAirborneV1 readFormatTypeCode
    go_run [h1]
    simp [h1]
  by_cases h2 : (b5 &&& 0xE0) >>> 5 = 1 ∧ b0 &&& 7 = 0
  rotate_left
  · right
    constructor
    · unfold readOpStatusAirborneV1 readFormatTypeCode readSubtype65 readVersionNumber
      go_run [h1]
      by_cases h3 : b0 &&& 7 = 0
      · have h4 : ¬ (b5 &&& 0xE0) >>> 5 = 1 := fun h => h2 ⟨h, h3⟩
        simp only [h3, h4, not_true_eq_false, not_false_eq_true, if_true, if_false]
      · simp only [h3, not_true_eq_false, not_false_eq_true, if_true, if_false]
    · unfold readBDS65 readFormatTypeCode
      go_run [h1]
      intro m
      (repeat' split) <;> first
        | (exfalso; exact h2 ⟨by assumption, by assumption⟩) | exact map_ne _ _ _ (fun _ h => nomatch h) | (intro h; nomatch h)
  · left
    unfold readBDS65 readFormatTypeCode
    go_run [h1, h2.1, h2.2]
    all_goals rfl

theorem opStatusSurfaceV1_direct (d : List UInt8) : SameAs (readOpStatusSurfaceV1 d) (readBDS65 d) .surfaceV1 := by
  refine sameAs_of (fun a b h => by injection h) (operational_status_accepts d).2 ?_
  by_cases h7 : d.length = 7
  rotate_left
  · right
    unfold readBDS65 readOpStatusSurfaceV1
    simp [h7, fail, bind, Except.bind]
  obtain ⟨b0, b1, b2, b3, b4, b5, b6, rfl⟩ := list7 d h7
  by_cases h1 : (b0 &&& 0xF8) >>> 3 = 31
  rotate_left
  · right
    unfold readBDS65 readOpStatusSurfaceV1 readFormatTypeCode
    go_run [h1]
    simp [h1]
  by_cases h2 : (b5 &&& 0xE0) >>> 5 = 1 ∧ b0 &&& 7 = 1
  rotate_left
  · right
    constructor
    · unfold readOpStatusSurfaceV1 readFormatTypeCode readSubtype65 readVersionNumber
      go_run [h1]
      by_cases h3 : b0 &&& 7 = 1
      · have h4 : ¬ (b5 &&& 0xE0) >>> 5 = 1 := fun h => h2 ⟨h, h3⟩
        simp only [h3, h4, not_true_eq_false, not_false_eq_true, if_true, if_false]
      · simp only [h3, not_true_eq_false, not_false_eq_true, if_true, if_false]
    · unfold readBDS65 readFormatTypeCode
      go_run [h1]
      intro m
      (repeat' split) <;> first
        | (exfalso; exact h2 ⟨by assumption, by assumption⟩) | exact map_ne _ _ _ (fun _ h => nomatch h) | (intro h; nomatch h)
  · left
    unfold readBDS65 readFormatTypeCode
    go_run [h1, h2.1, h2.2]
    all_goals rfl

theorem opStatusAirborneV2_direct (d : List UInt8) : SameAs (readOpStatusAirborneV2 d) (readBDS65 d) .airborneV2 := by
  refine sameAs_of (fun a b h => by injection h) (operational_status_accepts d).2 ?_
  by_cases h7 : d.length = 7
  rotate_left
  · right
    unfold readBDS65 readOpStatusAirborneV2
    simp [h7, fail, bind, Except.bind]
  obtain ⟨b0, b1, b2, b3, b4, b5, b6, rfl⟩ := list7 d h7
  by_cases h1 : (b0 &&& 0xF8) >>> 3 = 31
  rotate_left
  · right
    unfold readBDS65 readOpStatusAirborneV2 readFormatTypeCode
    go_run [h1]
    simp [h1]
  by_cases h2 : (b5 &&& 0xE0) >>> 5 = 2 ∧ b0 &&& 7 = 0
  rotate_left
  · right
    constructor
    · unfold readOpStatusAirborneV2 readFormatTypeCode readSubtype65 readVersionNumber
      go_run [h1]
      by_cases h3 : b0 &&& 7 = 0
      · have h4 : ¬ (b5 &&& 0xE0) >>> 5 = 2 := fun h => h2 ⟨h, h3⟩
        simp only [h3, h4, not_true_eq_false, not_false_eq_true, if_true, if_false]
      · simp only [h3, not_true_eq_false, not_false_eq_true, if_true, if_false]
    · unfold readBDS65 readFormatTypeCode
      go_run [h1]
      intro m
      (repeat' split) <;> first
        | (exfalso; exact h2 ⟨by assumption, by assumption⟩) | exact map_ne _ _ _ (fun _ h => nomatch h) | (intro h; nomatch h)
  · left
    unfold readBDS65 readFormatTypeCode
    go_run [h1, h2.1, h2.2]
    all_goals rfl

theorem opStatusSurfaceV2_direct (d : List UInt8) : SameAs (readOpStatusSurfaceV2 d) (readBDS65 d) .surfaceV2 := by
  refine sameAs_of (fun a b h => by injection h) (operational_status_accepts d).2 ?_
  by_cases h7 : d.length = 7
  rotate_left
  · right
    unfold readBDS65 readOpStatusSurfaceV2
    simp [h7, fail, bind, Except.bind]
  obtain ⟨b0, b1, b2, b3, b4, b5, b6, rfl⟩ := list7 d h7
  by_cases h1 : (b0 &&& 0xF8) >>> 3 = 31
  rotate_left
  · right
    unfold readBDS65 readOpStatusSurfaceV2 readFormatTypeCode
    go_run [h1]
    simp [h1]
  by_cases h2 : (b5 &&& 0xE0) >>> 5 = 2 ∧ b0 &&& 7 = 1
  rotate_left
  · right
    constructor
    · unfold readOpStatusSurfaceV2 readFormatTypeCode readSubtype65 readVersionNumber
      go_run [h1]
      by_cases h3 : b0 &&& 7 = 1
      · have h4 : ¬ (b5 &&& 0xE0) >>> 5 = 2 := fun h => h2 ⟨h, h3⟩
        simp only [h3, h4, not_true_eq_false, not_false_eq_true, if_true, if_false]
      · simp only [h3, not_true_eq_false, not_false_eq_true, if_true, if_false]
    · unfold readBDS65 readFormatTypeCode
      go_run [h1]
      intro m
      (repeat' split) <;> first
        | (exfalso; exact h2 ⟨by assumption, by assumption⟩) | exact map_ne _ _ _ (fun _ h => nomatch h) | (intro h; nomatch h)
  · left
    unfold readBDS65 readFormatTypeCode
    go_run [h1, h2.1, h2.2]
    all_goals rfl

/-- C82. Each reader of one kind of velocity, status, target state or operational status message, called directly with any
data, does what the reader of the family does, restricted to its own kind, and does not panic. -/
theorem direct_readers (d : List UInt8) :
    SameAs (readGroundSpeedNormal d) (readBDS09 d) .groundSpeedNormal ∧
    SameAs (readGroundSpeedSupersonic d) (readBDS09 d) .groundSpeedSupersonic ∧
    SameAs (readAirSpeedNormal d) (readBDS09 d) .airSpeedNormal ∧
    SameAs (readAirSpeedSupersonic d) (readBDS09 d) .airSpeedSupersonic ∧
    SameAs (readStatusNoInformation d) (readBDS61 d) .noInformation ∧
    SameAs (readStatusEmergency d) (readBDS61 d) .emergency ∧
    SameAs (readStatusACAS d) (readBDS61 d) .acas ∧
    SameAs (readTargetStateAndStatus0 d) (readBDS62 d) .type0 ∧
    SameAs (readTargetStateAndStatus1 d) (readBDS62 d) .type1 ∧
    SameAs (readOpStatusV0 d) (readBDS65 d) .v0 ∧
    SameAs (readOpStatusAirborneV1 d) (readBDS65 d) .airborneV1 ∧
    SameAs (readOpStatusSurfaceV1 d) (readBDS65 d) .surfaceV1 ∧
    SameAs (readOpStatusAirborneV2 d) (readBDS65 d) .airborneV2 ∧
    SameAs (readOpStatusSurfaceV2 d) (readBDS65 d) .surfaceV2 :=
  ⟨groundSpeedNormal_direct d, groundSpeedSupersonic_direct d, airSpeedNormal_direct d, airSpeedSupersonic_direct d,
    statusNoInformation_direct d, statusEmergency_direct d, statusACAS_direct d, targetStateAndStatus0_direct d,
    targetStateAndStatus1_direct d, opStatusV0_direct d, opStatusAirborneV1_direct d, opStatusSurfaceV1_direct d,
    opStatusAirborneV2_direct d, opStatusSurfaceV2_direct d⟩

/-- C82. The readers of one version of a meteorological report do not panic, on any data: version 0 and 2 routine reports are
read from every 7 bytes, version 1 when the source is absent; hazard reports when their reserved bits are zero. -/
theorem direct_meteo (d : List UInt8) :
    ((∃ m, readBDS44V0 d = .ok m) ↔ d.length = 7) ∧ NoPanic (readBDS44V0 d) ∧
    ((∃ m, readBDS44V1 d = .ok m) ↔ d.length = 7 ∧ bits d 1 4 = 0) ∧ NoPanic (readBDS44V1 d) ∧
    ((∃ m, readBDS44V2 d = .ok m) ↔ d.length = 7) ∧ NoPanic (readBDS44V2 d) ∧
    ((∃ m, readBDS45V0 d = .ok m) ↔ d.length = 7 ∧ bits d 52 56 = 0) ∧ NoPanic (readBDS45V0 d) ∧
    ((∃ m, readBDS45V1 d = .ok m) ↔ d.length = 7 ∧ bits d 55 56 = 0) ∧ NoPanic (readBDS45V1 d) := by
  have key {α : Type} {P : Prop} {L : α → Prop} {r : Go α} (h : (r = .error .err ∧ ¬ P) ∨ (P ∧ ∃ m, r = .ok m ∧ L m)) :
      ((∃ m, r = .ok m) ↔ P) ∧ NoPanic r := by
    rcases h with ⟨e, hn⟩ | ⟨hp, m, e, -⟩
    · exact ⟨⟨fun ⟨m, g⟩ => (by rw [e] at g; cases g), fun g => absurd g hn⟩, by rw [e]; intro g; cases g⟩
    · exact ⟨⟨fun _ => hp, fun _ => ⟨m, e⟩⟩, by rw [e]; intro g; cases g⟩
  obtain ⟨a1, b1⟩ := key (bds44V0_eval d)
  obtain ⟨a2, b2⟩ := key (bds44V1_eval d)
  obtain ⟨a3, b3⟩ := key (bds44V2_eval d)
  obtain ⟨a4, b4⟩ := key (bds45V0_eval d)
  obtain ⟨a5, b5⟩ := key (bds45V1_eval d)
  exact ⟨a1, b1, a2, b2, a3, b3, a4, b4, a5, b5⟩

theorem noPanic_bind {α β : Type} {r : Go α} {f : α → Go β} (hr : NoPanic r) (hf : ∀ a, r = .ok a → NoPanic (f a)) :
    NoPanic (r >>= f) := by
  rcases r with e | a
  · intro g; apply hr; cases g; rfl
  · exact hf a rfl

theorem noPanic_of {α : Type} {r : Go α} (h : ¬ Succeeds r → r = .error .err) : NoPanic r := by
  intro g
  have : ¬ Succeeds r := fun ⟨a, e⟩ => by rw [g] at e; cases e
  rw [h this] at g; cases g

theorem noPanic_ok {α : Type} (a : α) : NoPanic (.ok a : Go α) := fun g => nomatch g

theorem ofPtr_panics {α β : Type} (r : Go α) (f : α → β) : Call.ofPtr r f = .panics ↔ r = .error .panic := by
  rcases r with (_ | _) | a
  · exact ⟨fun g => (nomatch g), fun g => (nomatch g)⟩
  · exact ⟨fun _ => rfl, fun _ => rfl⟩
  · exact ⟨fun g => (nomatch g), fun g => (nomatch g)⟩

/-- C82. The surface position readers do not panic on any data, whatever the version. -/
theorem direct_surface (v : UInt8) (a c : Bool) (d : List UInt8) :
    readSurfacePosition v d a c ≠ .panics ∧ NoPanic (readSurfacePositionV0 d) ∧ NoPanic (readSurfacePositionV1 d a) ∧
    NoPanic (readSurfacePositionV2 d a c) := by
  have hp : NoPanic (readBDS06 d) := noPanic_of (surface_position_accepts d).2
  have h0 : NoPanic (readSurfacePositionV0 d) := noPanic_bind hp fun _ _ => noPanic_ok _
  have h1 : NoPanic (readSurfacePositionV1 d a) := noPanic_bind hp fun _ _ => noPanic_ok _
  have h2 : NoPanic (readSurfacePositionV2 d a c) := noPanic_bind hp fun _ _ => noPanic_ok _
  refine ⟨?_, h0, h1, h2⟩
  unfold readSurfacePosition
  split
  · rw [ne_eq, ofPtr_panics]; exact h0
  split
  · rw [ne_eq, ofPtr_panics]; exact h1
  split
  · rw [ne_eq, ofPtr_panics]; exact h2
  · intro g; cases g

theorem type0_cons (v b0 b1 b2 b3 b4 b5 b6 : UInt8) (l : List UInt8) :
    readAirbornePositionType0 v (b0 :: b1 :: b2 :: b3 :: b4 :: b5 :: b6 :: l) =
      readAirbornePositionType0 v [b0, b1, b2, b3, b4, b5, b6] := rfl

theorem list7_more {α : Type} (d : List α) (h : 7 ≤ d.length) :
    ∃ b0 b1 b2 b3 b4 b5 b6 l, d = b0 :: b1 :: b2 :: b3 :: b4 :: b5 :: b6 :: l := by
  rcases d with _ | ⟨b0, _ | ⟨b1, _ | ⟨b2, _ | ⟨b3, _ | ⟨b4, _ | ⟨b5, _ | ⟨b6, l⟩⟩⟩⟩⟩⟩⟩ <;>
    first | exact ⟨_, _, _, _, _, _, _, _, rfl⟩ | (simp at h)

/-- C82, the readers of positions of type code 0, called directly: they do not look at the length of the data. Fewer than 7
bytes (3 for the message without position) make them panic; more than that are ignored. -/
theorem direct_type0 (v : UInt8) (d : List UInt8) :
    (readAirbornePositionType0 v d = .error .panic ↔ d.length < 7) ∧
    (readNoPositionInformation v d = .error .panic ↔ d.length < 3) ∧
    readAirbornePositionType0 v d = readAirbornePositionType0 v (d.take 7) ∧
    readNoPositionInformation v d = readNoPositionInformation v (d.take 3) := by
  refine ⟨⟨fun h => ?_, fun h => ?_⟩, ⟨fun h => ?_, fun h => ?_⟩, ?_, ?_⟩
  · by_contra hn
    obtain ⟨b0, b1, b2, b3, b4, b5, b6, l, rfl⟩ := list7_more d (by omega)
    rw [type0_cons] at h
    rcases type0_eval v b0 b1 b2 b3 b4 b5 b6 with ⟨e, -⟩ | ⟨-, p, e, -⟩ <;> rw [e] at h <;> cases h
  · rcases d with _ | ⟨b0, _ | ⟨b1, _ | ⟨b2, _ | ⟨b3, _ | ⟨b4, _ | ⟨b5, _ | ⟨b6, l⟩⟩⟩⟩⟩⟩⟩ <;> first | rfl | (simp at h; omega)
  · by_contra hn
    rcases d with _ | ⟨b0, _ | ⟨b1, _ | ⟨b2, l⟩⟩⟩ <;> first | (simp at hn; done) | skip
    have : readNoPositionInformation v (b0 :: b1 :: b2 :: l) = readNoPositionInformation v [b0, b1, b2, 0, 0, 0, 0] := rfl
    rw [this] at h
    rcases noPosition_eval v b0 b1 b2 0 0 0 0 with ⟨e, -⟩ | ⟨-, p, q, e, -⟩ <;> rw [e] at h <;> cases h
  · rcases d with _ | ⟨b0, _ | ⟨b1, _ | ⟨b2, l⟩⟩⟩ <;> first | rfl | (simp at h; omega)
  · rcases d with _ | ⟨b0, _ | ⟨b1, _ | ⟨b2, _ | ⟨b3, _ | ⟨b4, _ | ⟨b5, _ | ⟨b6, l⟩⟩⟩⟩⟩⟩⟩ <;> rfl
  · rcases d with _ | ⟨b0, _ | ⟨b1, _ | ⟨b2, l⟩⟩⟩ <;> rfl

/-- C82, the airborne position reader called directly: it panics exactly on no data at all, and on fewer than 7 bytes of which the
first is zero; the readers of one version do not panic. -/
theorem direct_airborne (v : UInt8) (a : Bool) (d : List UInt8) :
    (readAirbornePosition v d a = .panics ↔ d = [] ∨ (d.head? = some 0 ∧ d.length < 7)) ∧
    NoPanic (readAirbornePositionV0 d) ∧ NoPanic (readAirbornePositionV1 d a) ∧ NoPanic (readAirbornePositionV2 d a) := by
  have hp : NoPanic (readBDS05 d) := noPanic_of (airborne_position_accepts d).2
  have h0 : NoPanic (readAirbornePositionV0 d) := noPanic_bind hp fun _ _ => noPanic_ok _
  have h1 : NoPanic (readAirbornePositionV1 d a) := noPanic_bind hp fun _ _ => noPanic_ok _
  have h2 : NoPanic (readAirbornePositionV2 d a) := by
    refine noPanic_bind hp fun m hm => ?_
    have h7 := ((airborne_position_accepts d).1.1 ⟨m, hm⟩).1
    obtain ⟨b0, b1, b2, b3, b4, b5, b6, rfl⟩ := list7 d h7
    exact noPanic_ok _
  refine ⟨?_, h0, h1, h2⟩
  rcases d with _ | ⟨b0, l⟩
  · exact ⟨fun _ => Or.inl rfl, fun _ => rfl⟩
  have e : readAirbornePosition v (b0 :: l) a =
      if b0 = 0 then Call.ofPtr (readAirbornePositionType0 v (b0 :: l)) id
      else if v = 0 then Call.ofPtr (readAirbornePositionV0 (b0 :: l)) id
      else if v = 1 then Call.ofPtr (readAirbornePositionV1 (b0 :: l) a) id
      else if v = 2 then Call.ofPtr (readAirbornePositionV2 (b0 :: l) a) id
      else Call.fail := rfl
  rw [e]
  by_cases hb : b0 = 0
  · rw [if_pos hb, ofPtr_panics, (direct_type0 v (b0 :: l)).1, hb]
    simp
  rw [if_neg hb]
  have hr : ¬ (b0 :: l = [] ∨ ((b0 :: l).head? = some 0 ∧ (b0 :: l).length < 7)) := by simp [hb]
  refine ⟨fun g => ?_, fun g => absurd g hr⟩
  exfalso
  split at g
  · exact h0 ((ofPtr_panics _ _).1 g)
  split at g
  · exact h1 ((ofPtr_panics _ _).1 g)
  split at g
  · exact h2 ((ofPtr_panics _ _).1 g)
  · cases g

/-- C82, the part that is false: an exported reader that panics on short data. -/
theorem direct_panics_refuted : ∃ d : List UInt8, readAirbornePosition 0 d false = .panics ∧ d.length = 6 :=
  ⟨[0, 0, 0, 0, 0, 0], rfl, rfl⟩

/-- The kinds exist: a ground velocity read directly, and read as an airspeed (refused). -/
example : Succeeds (readGroundSpeedNormal [0x99, 0x44, 0x09, 0x94, 0x08, 0x38, 0x17]) ∧
    readAirSpeedNormal [0x99, 0x44, 0x09, 0x94, 0x08, 0x38, 0x17] = .error .err := by
  refine ⟨?_, rfl⟩
  obtain ⟨m, hm⟩ := (velocity_kind [0x99, 0x44, 0x09, 0x94, 0x08, 0x38, 0x17] (by decide) (by decide)).1 (by decide)
  exact ⟨m, ((direct_readers _).1.1 m).2 hm⟩

end Modes
