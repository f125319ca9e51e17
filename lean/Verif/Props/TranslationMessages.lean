import Verif.Props.TranslationReaders
import Verif.Lemmas.Bits
import Mathlib.Tactic.IntervalCases
namespace Modes


theorem go_map_bind {α β γ : Type} (x : Go α) (f : α → Go β) (g : β → γ) : Except.map g (x >>= f) = x >>= fun a => Except.map g (f a) := by
  cases x <;> rfl
theorem go_map_ite {α β : Type} {c : Prop} [Decidable c] (a b : Go α) (g : α → β) :
    Except.map g (if c then a else b) = if c then Except.map g a else Except.map g b := by split <;> rfl
theorem go_map_pure {α β : Type} (a : α) (g : α → β) : Except.map g (pure a : Go α) = pure (g a) := rfl
theorem go_map_fail {α β : Type} (g : α → β) : Except.map g (fail : Go α) = fail := rfl
theorem go_map_id {α : Type} (x : Go α) : Except.map id x = x := by cases x <;> rfl
theorem go_map_okv {α β : Type} (a : α) (g : α → β) : Except.map g (.ok a : Go α) = .ok (g a) := rfl
theorem go_map_error {α β : Type} (e : Fail) (g : α → β) : Except.map g (.error e : Go α) = .error e := rfl

theorem same_TargetStateAndStatus1 (d : List UInt8) :
    Gen.bds.bds62.ReadTargetStateAndStatus1 d = readTargetStateAndStatus1 d := by
  unfold Gen.bds.bds62.ReadTargetStateAndStatus1 readTargetStateAndStatus1; seven_bytes d
  rename_i b0 b1 b2 b3 b4 b5 b6
  have hs : readSelectedHeading [b0, b1, b2, b3, b4, b5, b6] = .ok _ := rfl
  rw [hs]
  simp only [go_map_bind, go_map_ite, go_map_okv, go_map_error, go_bind_ok]

theorem same_TargetStateAndStatus (d : List UInt8) :
    Gen.bds.bds62.ReadTargetStateAndStatus d = readBDS62 d := by
  unfold Gen.bds.bds62.ReadTargetStateAndStatus readBDS62
  simp only [readFormatTypeCode, bind_assoc, pure_bind, go_map_bind, go_map_ite, go_map_pure, go_map_fail,
    same_TargetStateAndStatus1]
  simp only [translated]

/-- What a call gives when one does not ask whether the interface returned beside an error is nil. -/
def Call.toGo {α : Type} : Call α → Go α
  | .panics => .error .panic
  | .returns _ true => .error .err
  | .returns (.val a) false => .ok a
  | .returns _ false => .error .panic

theorem toGo_ofPtr {α β : Type} (r : Go α) (f : α → β) : (Call.ofPtr r f).toGo = r.map f := by
  rcases r with (_ | _) | _ <;> rfl
theorem toGo_index {α : Type} (s : List UInt8) (i : Nat) (k : UInt8 → Call α) :
    (Call.index s i k).toGo = idx s i >>= fun x => (k x).toGo := by
  unfold Call.index idx; cases s[i]? <;> rfl
theorem toGo_fail {α : Type} : (Call.fail : Call α).toGo = fail := rfl
theorem toGo_ite {α : Type} {c : Prop} [Decidable c] (a b : Call α) : (if c then a else b).toGo = if c then a.toGo else b.toGo := by
  split <;> rfl

/-- The two sides give the same results up to whether the interface beside an error is nil. -/
macro "call_walk" : tactic => `(tactic| (
  (try simp only [translated, toGo_ofPtr, go_map_id, toGo_index, toGo_fail, toGo_ite, or_assoc])
  repeat' (first | with_reducible rfl | with_reducible refine go_bind_congr _ fun _ => ?_ |
    with_reducible refine go_ite_congr Iff.rfl ?_ ?_ | rfl)))

theorem same_ReadAirbornePosition (v : UInt8) (d : List UInt8) (a : Bool) :
    Gen.adsb.airborne_position.ReadAirbornePosition v d a = (readAirbornePosition v d a).toGo := by
  unfold Gen.adsb.airborne_position.ReadAirbornePosition readAirbornePosition; call_walk

theorem same_ReadSurfacePosition (v : UInt8) (d : List UInt8) (a c : Bool) :
    Gen.adsb.surface_position.ReadSurfacePosition v d a c = (readSurfacePosition v d a c).toGo := by
  unfold Gen.adsb.surface_position.ReadSurfacePosition readSurfacePosition; call_walk

theorem same_ReadMeteorologicalRoutineAirReport (d : List UInt8) :
    Gen.bds.bds44.ReadMeteorologicalRoutineAirReport d = (readBDS44 d).toGo := by
  unfold Gen.bds.bds44.ReadMeteorologicalRoutineAirReport readBDS44; seven_bytes d
  rename_i b0 b1 b2 b3 b4 b5 b6
  rw [show readSource44 [b0, b1, b2, b3, b4, b5, b6] = .ok _ from rfl]
  simp only [go_bind_ok, toGo_ite, toGo_ofPtr, toGo_fail, or_assoc]
  refine go_ite_congr Iff.rfl ?_ ?_
  · rcases readBDS44V2 [b0, b1, b2, b3, b4, b5, b6] with (_ | _) | _ <;>
      rcases readBDS44V0 [b0, b1, b2, b3, b4, b5, b6] with (_ | _) | _ <;> rfl
  · refine go_ite_congr Iff.rfl ?_ rfl
    rcases readBDS44V1 [b0, b1, b2, b3, b4, b5, b6] with (_ | _) | _ <;> rfl

theorem same_ReadMeteorologicalHazardReport (d : List UInt8) :
    Gen.bds.bds45.ReadMeteorologicalHazardReport d = (readBDS45 d).toGo := by
  unfold Gen.bds.bds45.ReadMeteorologicalHazardReport readBDS45
  simp only [translated, toGo_ite, toGo_fail]
  refine go_ite_congr Iff.rfl rfl ?_
  rcases readBDS45V1 d with (_ | _) | _ <;> rcases readBDS45V0 d with (_ | _) | _ <;> rfl

theorem adsb_identification (v : UInt8) (d : List UInt8) :
    Gen.adsb.aircraft_identification_and_category.ReadAircraftIdentificationAndCategory v d =
      (Call.ofPtr (readBDS08 d) fun m => ADSBMessage.identification m v).toGo := by
  unfold Gen.adsb.aircraft_identification_and_category.ReadAircraftIdentificationAndCategory
  rw [same_bds08]; rcases readBDS08 d with (_ | _) | _ <;> rfl
theorem adsb_velocity (v : UInt8) (d : List UInt8) :
    Gen.adsb.airborne_velocity.ReadAirborneVelocity v d =
      (Call.ofPtr (readBDS09 d) fun m => ADSBMessage.velocity m v).toGo := by
  unfold Gen.adsb.airborne_velocity.ReadAirborneVelocity
  rw [same_bds_bds09_ReadAirborneVelocity]; rcases readBDS09 d with (_ | _) | _ <;> rfl
theorem adsb_status (v : UInt8) (d : List UInt8) :
    Gen.adsb.aircraft_status.ReadAircraftStatus v d =
      (Call.ofPtr (readBDS61 d) fun m => ADSBMessage.status m v).toGo := by
  unfold Gen.adsb.aircraft_status.ReadAircraftStatus
  rw [same_bds_bds61_ReadAircraftStatus]; rcases readBDS61 d with (_ | _) | _ <;> rfl
theorem adsb_targetState (v : UInt8) (d : List UInt8) :
    Gen.adsb.target_state_and_status.ReadTargetStateAndStatus v d =
      (Call.ofPtr (readBDS62 d) fun m => ADSBMessage.targetState m v).toGo := by
  unfold Gen.adsb.target_state_and_status.ReadTargetStateAndStatus
  rw [same_TargetStateAndStatus]; rcases readBDS62 d with (_ | _) | _ <;> rfl
theorem adsb_operationalStatus (v : UInt8) (d : List UInt8) :
    Gen.adsb.aircraft_operational_status.ReadAircraftOperationalStatus v d =
      (Call.ofPtr (readBDS65 d) fun m => ADSBMessage.operationalStatus m m.getADSBLevel).toGo := by
  unfold Gen.adsb.aircraft_operational_status.ReadAircraftOperationalStatus
  rw [same_bds_bds65_ReadAircraftOperationalStatus]; rcases readBDS65 d with (_ | _) | m
  · rfl
  · rfl
  · cases m <;> rfl

theorem same_ReadADSBMessage (v : UInt8) (a c : Bool) (d : List UInt8) :
    Gen.adsb.reader.ReadADSBMessage v a c d = (readADSBMessage v a c d).toGo := by
  unfold Gen.adsb.reader.ReadADSBMessage readADSBMessage
  simp only [same_ReadAirbornePosition, same_ReadSurfacePosition, or_assoc, adsb_identification, adsb_velocity, adsb_status,
    adsb_targetState, adsb_operationalStatus]
  by_cases h7 : d.length = 7
  case neg => simp only [h7, ne_eq, not_false_eq_true, if_true]; rfl
  obtain ⟨b0, b1, b2, b3, b4, b5, b6, rfl⟩ := list7 d h7
  have hf : ((b0 &&& 248) >>> 3).toNat < 32 := by byte_omega
  simp only [h7, ne_eq, not_true_eq_false, if_false, toGo_index, idx, List.getElem?_cons_succ, List.getElem?_cons_zero,
    go_bind_ok]
  generalize hn : ((b0 &&& 248) >>> 3).toNat = n at hf
  have hn' : (b0 &&& 248) >>> 3 = UInt8.ofNat n := by rw [← hn, UInt8.ofNat_toNat]
  rw [hn']
  interval_cases n
  · have hand : (do
        let x ← andGo (b2 &&& 15 == 0) (pure (b3 == 0))
        let x ← andGo x (pure (b4 == 0))
        let x ← andGo x (pure (b5 == 0))
        andGo x (pure (b6 == 0)) : Go Bool) = .ok (decide (b2 &&& 15 = 0 ∧ b3 = 0 ∧ b4 = 0 ∧ b5 = 0 ∧ b6 = 0)) := by
      by_cases h2 : b2 &&& 15 = 0 <;> by_cases h3 : b3 = 0 <;> by_cases h4 : b4 = 0 <;> by_cases h5 : b5 = 0 <;>
        simp [andGo, h2, h3, h4, h5, bind, Except.bind, pure, Except.pure]
      · by_cases h6 : b6 = 0 <;> simp [h6]
    have hl : ∀ f : Bool → Go ADSBMessage, (do
        let x ← andGo (b2 &&& 15 == 0) (pure (b3 == 0))
        let x ← andGo x (pure (b4 == 0))
        let x ← andGo x (pure (b5 == 0))
        let x ← andGo x (pure (b6 == 0))
        f x : Go ADSBMessage) = f (decide (b2 &&& 15 = 0 ∧ b3 = 0 ∧ b4 = 0 ∧ b5 = 0 ∧ b6 = 0)) := by
      intro f
      have := congrArg (· >>= f) hand
      simpa only [bind_assoc, go_bind_ok] using this
    refine (hl _).trans ?_
    show _ = Call.toGo (if b2 &&& 15 = 0 ∧ b3 = 0 ∧ b4 = 0 ∧ b5 = 0 ∧ b6 = 0 then
      Call.ofPtr (readNoPositionInformation v [b0, b1, b2, b3, b4, b5, b6]) id
      else Call.ofPtr (readAirbornePositionType0 v [b0, b1, b2, b3, b4, b5, b6]) id)
    simp only [toGo_ite, go_map_ite, toGo_ofPtr, go_map_id, decide_eq_true_eq, translated]
  all_goals rfl

end Modes
