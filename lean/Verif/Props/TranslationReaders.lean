import Verif.Props.Translation
import Verif.Lemmas.ModeS
namespace Modes

theorem go_bind_congr {α β : Type} (x : Go α) {f g : α → Go β} (h : ∀ a, f a = g a) : (x >>= f) = (x >>= g) := by
  cases x <;> simp [bind, Except.bind, h]

theorem go_ite_congr {α : Type} {c c' : Prop} [Decidable c] [Decidable c'] {a b a' b' : Go α} (hc : c ↔ c') (h1 : a = a')
    (h2 : b = b') : ite c a b = ite c' a' b' := by
  subst h1 h2; exact if_congr hc rfl rfl

/-- Walk both sides together: same reads, same tests, same results. -/
macro "go_walk" : tactic => `(tactic| (
  (try simp only [translated, or_assoc])
  repeat' (first | with_reducible rfl | with_reducible refine go_bind_congr _ fun _ => ?_ |
    with_reducible refine go_ite_congr Iff.rfl ?_ ?_ | rfl)))

@[translated] theorem same_bds05_ReadAltitude : @Gen.bds.bds05.fields.ReadAltitude = @readAltitude05 := by
  funext d; unfold Gen.bds.bds05.fields.ReadAltitude readAltitude05
  simp only [translated]
  rcases idx_cases d 0 with h | ⟨_, h⟩ <;> rcases idx_cases d 1 with h1 | ⟨b, h1⟩ <;>
    rcases idx_cases d 2 with h2 | ⟨_, h2⟩ <;> simp only [h, h1, h2, go_bind_ok, go_bind_err, bne_iff_ne]

@[translated] theorem same_bds05_ReadAirbornePosition : @Gen.bds.bds05.ReadAirbornePosition = @readBDS05 := by
  funext d; unfold Gen.bds.bds05.ReadAirbornePosition readBDS05
  simp only [readFormatTypeCode, bind_assoc, pure_bind]; go_walk

@[translated] theorem same_airborne_getHCRAndNICForV1 :
    @Gen.adsb.airborne_position.getHCRAndNICForV1 = @airborneHCRAndNICV1 := by
  funext f a; cases f with | ofBitVec f => revert f a; decide +kernel

@[translated] theorem same_airborne_getHCRAndNICForV2 :
    @Gen.adsb.airborne_position.getHCRAndNICForV2 = @airborneHCRAndNICV2 := by
  funext f a b
  by_cases hb : b = 1
  · subst hb; cases f with | ofBitVec f => revert f a; decide +kernel
  · unfold Gen.adsb.airborne_position.getHCRAndNICForV2 airborneHCRAndNICV2
    simp only [hb, if_false]
    cases f with | ofBitVec f => revert f a; decide +kernel

@[translated] theorem same_surface_getHCRAndNICForV1 :
    @Gen.adsb.surface_position.getHCRAndNICForV1 = @surfaceHCRAndNICV1 := by
  funext f a; cases f with | ofBitVec f => revert f a; decide +kernel

@[translated] theorem same_surface_getHCRAndNICForV2 :
    @Gen.adsb.surface_position.getHCRAndNICForV2 = @surfaceHCRAndNICV2 := by
  funext f a b; cases f with | ofBitVec f => revert f a b; decide +kernel

@[translated] theorem same_ReadAirbornePositionV2 :
    @Gen.adsb.airborne_position.ReadAirbornePositionV2 = @readAirbornePositionV2 := by
  funext d a; unfold Gen.adsb.airborne_position.ReadAirbornePositionV2 readAirbornePositionV2
    Gen.adsb.airborne_position.fields.ReadNavigationIntegritySupplementB
  simp only [bind_assoc, pure_bind]; go_walk

theorem go_ite_bind {α β : Type} {c : Prop} [Decidable c] (a b : Go α) (f : α → Go β) :
    ((if c then a else b) >>= f) = if c then a >>= f else b >>= f := by split <;> rfl

/-- Readers of seven bytes: any other length is refused by both, and seven bytes can all be read. -/
macro "seven_bytes" d:ident : tactic => `(tactic| (
  (try simp only [translated, readFormatTypeCode])
  by_cases h7 : List.length $d = 7
  case neg => simp only [h7, ne_eq, not_false_eq_true, if_true]; rfl
  obtain ⟨b0, b1, b2, b3, b4, b5, b6, hd⟩ := list7 $d h7
  subst hd
  clear h7
  simp only [idx, List.getElem?_cons_succ, List.getElem?_cons_zero, go_bind_ok, go_bind_err, go_pure, go_fail, ne_eq,
    List.length_cons, List.length_nil, Nat.reduceAdd, not_true_eq_false, if_false, orGo, bne_iff_ne, expectZeros,
    noInformationLoop, readSubtype65, readSubtype61, readCodes, go_ite_bind]))

@[translated] theorem same_OperationalStatusADSB0 :
    @Gen.bds.bds65.ReadAircraftOperationalStatusADSB0 = @readOpStatusV0 := by
  funext d; unfold Gen.bds.bds65.ReadAircraftOperationalStatusADSB0 readOpStatusV0; seven_bytes d
  rename_i b5 b6; by_cases h5 : b5 = 0 <;> simp [h5]

@[translated] theorem same_StatusNoInformation :
    @Gen.bds.bds61.ReadAircraftStatusNoInformation = @readStatusNoInformation := by
  funext d; unfold Gen.bds.bds61.ReadAircraftStatusNoInformation readStatusNoInformation; seven_bytes d

@[translated] theorem same_StatusEmergency :
    @Gen.bds.bds61.ReadAircraftStatusEmergency = @readStatusEmergency := by
  funext d; unfold Gen.bds.bds61.ReadAircraftStatusEmergency readStatusEmergency; seven_bytes d

@[translated] theorem same_bds00 : @Gen.bds.bds00.ReadNoMessageAvailable = @readBDS00 := by
  funext d; unfold Gen.bds.bds00.ReadNoMessageAvailable readBDS00; seven_bytes d

@[translated] theorem same_bds07 : @Gen.bds.bds07.ReadStatus = @readBDS07 := by
  funext d; unfold Gen.bds.bds07.ReadStatus readBDS07; seven_bytes d

@[translated] theorem same_bds17 : @Gen.bds.bds17.ReadCommonUsageGICBCapabilityReport = @readBDS17 := by
  funext d; unfold Gen.bds.bds17.ReadCommonUsageGICBCapabilityReport readBDS17; seven_bytes d

@[translated] theorem same_ReadResolutionAdvisory : @Gen.acas.ra.ReadResolutionAdvisory = @readResolutionAdvisory := by
  funext d; unfold Gen.acas.ra.ReadResolutionAdvisory readResolutionAdvisory
  simp only [translated]
  by_cases h : d.length = 6
  · simp only [h, ne_eq, not_true_eq_false, if_false]
    refine go_bind_congr _ fun t => ?_
    by_cases h1 : t = 1
    · simp only [h1, if_true]
    by_cases h2 : t = 2
    · obtain ⟨b0, b1, b2, b3, b4, b5, rfl⟩ : ∃ b0 b1 b2 b3 b4 b5, d = [b0, b1, b2, b3, b4, b5] := by
        match d, h with | [b0, b1, b2, b3, b4, b5], _ => exact ⟨b0, b1, b2, b3, b4, b5, rfl⟩
      simp only [h1, if_false]
      rw [if_pos h2, if_pos h2, show readThreatRange [b0, b1, b2, b3, b4, b5] = .ok _ from rfl,
        show readThreatBearing [b0, b1, b2, b3, b4, b5] = .ok _ from rfl]
      rfl
    · simp only [h1, h2, if_false]
  · simp only [h, ne_eq, not_false_eq_true, if_true]; rfl

/-- The loop that turns the codes into characters, one after the other. -/
theorem fill_chars (T : List UInt8) (hT : T = identificationCharacterCoding) (l pre : List UInt8) (n : Nat)
    (h : l.length = n) :
    ((l.zipIdx pre.length).foldlM (fun (chars : List UInt8) (x : UInt8 × Nat) =>
      (match x with | (code, i) => do
        let chars ← setIdx chars i (← idx T code.toNat)
        pure chars : Go (List UInt8))) (pre ++ List.replicate n 0)) = (codesToChars l).map (pre ++ ·) := by
  subst hT
  induction l generalizing pre n with
  | nil => subst h; simp [codesToChars, Except.map, pure, Except.pure]
  | cons c l ih =>
    subst h
    rw [List.zipIdx_cons, List.foldlM_cons, codesToChars]
    rcases idx_cases identificationCharacterCoding c.toNat with hc | ⟨v, hc⟩
    · simp only [hc, go_bind_err]; rfl
    · have hs : setIdx (pre ++ List.replicate (c :: l).length 0) pre.length v =
          .ok ((pre ++ [v]) ++ List.replicate l.length 0) := by
        simp [setIdx, List.replicate_succ]
      have := ih (pre ++ [v]) l.length rfl
      simp only [hc, go_bind_ok, hs, go_pure]
      simp only [List.length_append, List.length_cons, List.length_nil, Nat.zero_add] at this
      rw [this]
      cases codesToChars l <;> simp [Except.map, bind, Except.bind]

theorem coding_table : ([35, 65, 66, 67, 68, 69, 70, 71, 72, 73, 74, 75, 76, 77, 78, 79, 80, 81, 82, 83, 84, 85, 86, 87, 88,
    89, 90, 35, 35, 35, 35, 35, 32, 35, 35, 35, 35, 35, 35, 35, 35, 35, 35, 35, 35, 35, 35, 35, 48, 49, 50, 51, 52, 53, 54,
    55, 56, 57, 35, 35, 35, 35, 35, 35] : List UInt8) = identificationCharacterCoding := by decide +kernel

theorem fill_chars8 (c0 c1 c2 c3 c4 c5 c6 c7 : UInt8) :
    (([c0, c1, c2, c3, c4, c5, c6, c7].zipIdx).foldlM (fun (chars : List UInt8) (x : UInt8 × Nat) =>
      (match x with | (code, i) => do
        let chars ← setIdx chars i (← idx [35, 65, 66, 67, 68, 69, 70, 71, 72, 73, 74, 75, 76, 77, 78, 79, 80, 81, 82, 83, 84,
          85, 86, 87, 88, 89, 90, 35, 35, 35, 35, 35, 32, 35, 35, 35, 35, 35, 35, 35, 35, 35, 35, 35, 35, 35, 35, 35, 48, 49,
          50, 51, 52, 53, 54, 55, 56, 57, 35, 35, 35, 35, 35, 35] code.toNat)
        pure chars : Go (List UInt8))) (List.replicate 8 0)) = codesToChars [c0, c1, c2, c3, c4, c5, c6, c7] := by
  have := fill_chars _ coding_table [c0, c1, c2, c3, c4, c5, c6, c7] [] 8 rfl
  simp only [List.nil_append, List.length_nil] at this
  rw [this]; cases codesToChars [c0, c1, c2, c3, c4, c5, c6, c7] <;> rfl

theorem setIdx_ok {α : Type} (s : List α) (i : Nat) (v : α) (h : i < s.length) : setIdx s i v = .ok (s.set i v) := if_pos h

@[translated] theorem same_bds20 : @Gen.bds.bds20.ReadAircraftIdentification = @readBDS20 := by
  funext d; unfold Gen.bds.bds20.ReadAircraftIdentification readBDS20
  by_cases h7 : d.length = 7
  case neg => simp only [h7, ne_eq, not_false_eq_true, if_true]; rfl
  obtain ⟨b0, b1, b2, b3, b4, b5, b6, rfl⟩ := list7 d h7
  clear h7
  by_cases h0 : b0 = 32
  case neg => simp [idx, h0, fail, bind, Except.bind]
  subst h0
  exact congrArg (fun r : Go (List UInt8) => r >>= fun chars => pure (AircraftIdentification.mk chars)) (fill_chars8 _ _ _ _ _ _ _ _)

@[translated] theorem same_bds08 : @Gen.bds.bds08.ReadAircraftIdentificationAndCategory = @readBDS08 := by
  funext d; unfold Gen.bds.bds08.ReadAircraftIdentificationAndCategory readBDS08
  by_cases h7 : d.length = 7
  case neg => simp only [h7, ne_eq, not_false_eq_true, if_true]; rfl
  obtain ⟨b0, b1, b2, b3, b4, b5, b6, rfl⟩ := list7 d h7
  clear h7
  have key : ∀ c : AircraftCategory, _ := fun c =>
    congrArg (fun r : Go (List UInt8) => r >>= fun chars => pure (IdentificationAndCategory.mk ((b0 &&& 248) >>> 3) c chars))
      (fill_chars8 ((b1 &&& 0xFC) >>> 2) ((b1 &&& 0x03) <<< 4 + (b2 &&& 0xF0) >>> 4) ((b2 &&& 0x0F) <<< 2 + (b3 &&& 0xC0) >>> 6)
        (b3 &&& 0x3F) ((b4 &&& 0xFC) >>> 2) ((b4 &&& 0x03) <<< 4 + (b5 &&& 0xF0) >>> 4)
        ((b5 &&& 0x0F) <<< 2 + (b6 &&& 0xC0) >>> 6) (b6 &&& 0x3F))
  have e0 : idx [b0, b1, b2, b3, b4, b5, b6] 0 = .ok b0 := rfl
  have e1 : idx [b0, b1, b2, b3, b4, b5, b6] 1 = .ok b1 := rfl
  have e2 : idx [b0, b1, b2, b3, b4, b5, b6] 2 = .ok b2 := rfl
  have e3 : idx [b0, b1, b2, b3, b4, b5, b6] 3 = .ok b3 := rfl
  have e4 : idx [b0, b1, b2, b3, b4, b5, b6] 4 = .ok b4 := rfl
  have e5 : idx [b0, b1, b2, b3, b4, b5, b6] 5 = .ok b5 := rfl
  have e6 : idx [b0, b1, b2, b3, b4, b5, b6] 6 = .ok b6 := rfl
  have r8 : List.replicate 8 (0 : UInt8) = [0, 0, 0, 0, 0, 0, 0, 0] := rfl
  rw [r8] at key
  have s0 : ∀ a0 a1 a2 a3 a4 a5 a6 a7 v : UInt8, setIdx [a0, a1, a2, a3, a4, a5, a6, a7] 0 v = .ok [v, a1, a2, a3, a4, a5, a6, a7] := fun _ _ _ _ _ _ _ _ _ => rfl
  have s1 : ∀ a0 a1 a2 a3 a4 a5 a6 a7 v : UInt8, setIdx [a0, a1, a2, a3, a4, a5, a6, a7] 1 v = .ok [a0, v, a2, a3, a4, a5, a6, a7] := fun _ _ _ _ _ _ _ _ _ => rfl
  have s2 : ∀ a0 a1 a2 a3 a4 a5 a6 a7 v : UInt8, setIdx [a0, a1, a2, a3, a4, a5, a6, a7] 2 v = .ok [a0, a1, v, a3, a4, a5, a6, a7] := fun _ _ _ _ _ _ _ _ _ => rfl
  have s3 : ∀ a0 a1 a2 a3 a4 a5 a6 a7 v : UInt8, setIdx [a0, a1, a2, a3, a4, a5, a6, a7] 3 v = .ok [a0, a1, a2, v, a4, a5, a6, a7] := fun _ _ _ _ _ _ _ _ _ => rfl
  have s4 : ∀ a0 a1 a2 a3 a4 a5 a6 a7 v : UInt8, setIdx [a0, a1, a2, a3, a4, a5, a6, a7] 4 v = .ok [a0, a1, a2, a3, v, a5, a6, a7] := fun _ _ _ _ _ _ _ _ _ => rfl
  have s5 : ∀ a0 a1 a2 a3 a4 a5 a6 a7 v : UInt8, setIdx [a0, a1, a2, a3, a4, a5, a6, a7] 5 v = .ok [a0, a1, a2, a3, a4, v, a6, a7] := fun _ _ _ _ _ _ _ _ _ => rfl
  have s6 : ∀ a0 a1 a2 a3 a4 a5 a6 a7 v : UInt8, setIdx [a0, a1, a2, a3, a4, a5, a6, a7] 6 v = .ok [a0, a1, a2, a3, a4, a5, v, a7] := fun _ _ _ _ _ _ _ _ _ => rfl
  have s7 : ∀ a0 a1 a2 a3 a4 a5 a6 a7 v : UInt8, setIdx [a0, a1, a2, a3, a4, a5, a6, a7] 7 v = .ok [a0, a1, a2, a3, a4, a5, a6, v] := fun _ _ _ _ _ _ _ _ _ => rfl
  simp only [e1, e2, e3, e4, e5, e6, r8, s0, s1, s2, s3, s4, s5, s6, s7, readCodes, readFormatTypeCode, List.length_cons, List.length_nil, Nat.reduceAdd, ne_eq, not_true_eq_false, if_false, e0,
    go_bind_ok, go_pure]
  refine go_ite_congr Iff.rfl rfl ?_
  by_cases e1 : (b0 &&& 248) >>> 3 = 1
  · rw [if_pos e1, if_pos e1]; exact key _
  rw [if_neg e1, if_neg e1]
  by_cases e2 : (b0 &&& 248) >>> 3 = 2
  · rw [if_pos e2, if_pos e2]; exact key _
  rw [if_neg e2, if_neg e2]
  by_cases e3 : (b0 &&& 248) >>> 3 = 3
  · rw [if_pos e3, if_pos e3]; exact key _
  rw [if_neg e3, if_neg e3]; exact key _

/-! Copies of the payload, one byte after the other. -/

@[translated] theorem same_ReadMessageACAS : @Gen.modes.fields.ReadMessageACAS = @readMessageACAS := by
  funext m; unfold Gen.modes.fields.ReadMessageACAS readMessageACAS
  simp only [copyPayload, bind_assoc, pure_bind, Nat.zero_add, Nat.reduceAdd]
  rcases idx_cases m.payload 3 with h | ⟨_, h⟩
  · rw [h]; rfl
  rw [h]; clear h
  rcases idx_cases m.payload 4 with h | ⟨_, h⟩
  · rw [h]; rfl
  rw [h]; clear h
  rcases idx_cases m.payload 5 with h | ⟨_, h⟩
  · rw [h]; rfl
  rw [h]; clear h
  rcases idx_cases m.payload 6 with h | ⟨_, h⟩
  · rw [h]; rfl
  rw [h]; clear h
  rcases idx_cases m.payload 7 with h | ⟨_, h⟩
  · rw [h]; rfl
  rw [h]; clear h
  rcases idx_cases m.payload 8 with h | ⟨_, h⟩
  · rw [h]; rfl
  rw [h]; clear h
  rcases idx_cases m.payload 9 with h | ⟨_, h⟩
  · rw [h]; rfl
  rw [h]; clear h
  rfl

@[translated] theorem same_ReadMessageCommB : @Gen.modes.fields.ReadMessageCommB = @readMessageCommB := by
  funext m; unfold Gen.modes.fields.ReadMessageCommB readMessageCommB
  simp only [copyPayload, bind_assoc, pure_bind, Nat.zero_add, Nat.reduceAdd]
  rcases idx_cases m.payload 3 with h | ⟨_, h⟩
  · rw [h]; rfl
  rw [h]; clear h
  rcases idx_cases m.payload 4 with h | ⟨_, h⟩
  · rw [h]; rfl
  rw [h]; clear h
  rcases idx_cases m.payload 5 with h | ⟨_, h⟩
  · rw [h]; rfl
  rw [h]; clear h
  rcases idx_cases m.payload 6 with h | ⟨_, h⟩
  · rw [h]; rfl
  rw [h]; clear h
  rcases idx_cases m.payload 7 with h | ⟨_, h⟩
  · rw [h]; rfl
  rw [h]; clear h
  rcases idx_cases m.payload 8 with h | ⟨_, h⟩
  · rw [h]; rfl
  rw [h]; clear h
  rcases idx_cases m.payload 9 with h | ⟨_, h⟩
  · rw [h]; rfl
  rw [h]; clear h
  rfl

@[translated] theorem same_ReadMessageCommD : @Gen.modes.fields.ReadMessageCommD = @readMessageCommD := by
  funext m; unfold Gen.modes.fields.ReadMessageCommD readMessageCommD
  simp only [copyPayload, bind_assoc, pure_bind, Nat.zero_add, Nat.reduceAdd]
  rcases idx_cases m.payload 0 with h | ⟨_, h⟩
  · rw [h]; rfl
  rw [h]; clear h
  rcases idx_cases m.payload 1 with h | ⟨_, h⟩
  · rw [h]; rfl
  rw [h]; clear h
  rcases idx_cases m.payload 2 with h | ⟨_, h⟩
  · rw [h]; rfl
  rw [h]; clear h
  rcases idx_cases m.payload 3 with h | ⟨_, h⟩
  · rw [h]; rfl
  rw [h]; clear h
  rcases idx_cases m.payload 4 with h | ⟨_, h⟩
  · rw [h]; rfl
  rw [h]; clear h
  rcases idx_cases m.payload 5 with h | ⟨_, h⟩
  · rw [h]; rfl
  rw [h]; clear h
  rcases idx_cases m.payload 6 with h | ⟨_, h⟩
  · rw [h]; rfl
  rw [h]; clear h
  rcases idx_cases m.payload 7 with h | ⟨_, h⟩
  · rw [h]; rfl
  rw [h]; clear h
  rcases idx_cases m.payload 8 with h | ⟨_, h⟩
  · rw [h]; rfl
  rw [h]; clear h
  rcases idx_cases m.payload 9 with h | ⟨_, h⟩
  · rw [h]; rfl
  rw [h]; clear h
  rfl

@[translated] theorem same_ReadMessageExtendedSquitter : @Gen.modes.fields.ReadMessageExtendedSquitter = @readMessageExtendedSquitter := by
  funext m; unfold Gen.modes.fields.ReadMessageExtendedSquitter readMessageExtendedSquitter
  simp only [copyPayload, bind_assoc, pure_bind, Nat.zero_add, Nat.reduceAdd]
  rcases idx_cases m.payload 3 with h | ⟨_, h⟩
  · rw [h]; rfl
  rw [h]; clear h
  rcases idx_cases m.payload 4 with h | ⟨_, h⟩
  · rw [h]; rfl
  rw [h]; clear h
  rcases idx_cases m.payload 5 with h | ⟨_, h⟩
  · rw [h]; rfl
  rw [h]; clear h
  rcases idx_cases m.payload 6 with h | ⟨_, h⟩
  · rw [h]; rfl
  rw [h]; clear h
  rcases idx_cases m.payload 7 with h | ⟨_, h⟩
  · rw [h]; rfl
  rw [h]; clear h
  rcases idx_cases m.payload 8 with h | ⟨_, h⟩
  · rw [h]; rfl
  rw [h]; clear h
  rcases idx_cases m.payload 9 with h | ⟨_, h⟩
  · rw [h]; rfl
  rw [h]; clear h
  rfl


/-! The other readers: the same reads, the same tests, the same results. -/

@[translated] theorem same_adsb_airborne_position_ReadAirbornePositionType0 : @Gen.adsb.airborne_position.ReadAirbornePositionType0 = @readAirbornePositionType0 := by
  funext d; unfold Gen.adsb.airborne_position.ReadAirbornePositionType0 readAirbornePositionType0
  (try simp only [readFormatTypeCode, bind_assoc, pure_bind]); go_walk

@[translated] theorem same_adsb_airborne_position_ReadAirbornePositionV0 : @Gen.adsb.airborne_position.ReadAirbornePositionV0 = @readAirbornePositionV0 := by
  funext d; unfold Gen.adsb.airborne_position.ReadAirbornePositionV0 readAirbornePositionV0
  (try simp only [readFormatTypeCode, bind_assoc, pure_bind]); go_walk

@[translated] theorem same_adsb_airborne_position_ReadAirbornePositionV1 : @Gen.adsb.airborne_position.ReadAirbornePositionV1 = @readAirbornePositionV1 := by
  funext d; unfold Gen.adsb.airborne_position.ReadAirbornePositionV1 readAirbornePositionV1
  (try simp only [readFormatTypeCode, bind_assoc, pure_bind]); go_walk

@[translated] theorem same_bds_bds09_ReadAirborneVelocityGroundSpeedNormal : @Gen.bds.bds09.ReadAirborneVelocityGroundSpeedNormal = @readGroundSpeedNormal := by
  funext d; unfold Gen.bds.bds09.ReadAirborneVelocityGroundSpeedNormal readGroundSpeedNormal
  (try simp only [readFormatTypeCode, bind_assoc, pure_bind]); go_walk

@[translated] theorem same_bds_bds09_ReadAirborneVelocityGroundSpeedSupersonic : @Gen.bds.bds09.ReadAirborneVelocityGroundSpeedSupersonic = @readGroundSpeedSupersonic := by
  funext d; unfold Gen.bds.bds09.ReadAirborneVelocityGroundSpeedSupersonic readGroundSpeedSupersonic
  (try simp only [readFormatTypeCode, bind_assoc, pure_bind]); go_walk

@[translated] theorem same_bds_bds09_ReadAirborneVelocityAirSpeedNormal : @Gen.bds.bds09.ReadAirborneVelocityAirSpeedNormal = @readAirSpeedNormal := by
  funext d; unfold Gen.bds.bds09.ReadAirborneVelocityAirSpeedNormal readAirSpeedNormal
  (try simp only [readFormatTypeCode, bind_assoc, pure_bind]); go_walk

@[translated] theorem same_bds_bds09_ReadAirborneVelocityAirSpeedSupersonic : @Gen.bds.bds09.ReadAirborneVelocityAirSpeedSupersonic = @readAirSpeedSupersonic := by
  funext d; unfold Gen.bds.bds09.ReadAirborneVelocityAirSpeedSupersonic readAirSpeedSupersonic
  (try simp only [readFormatTypeCode, bind_assoc, pure_bind]); go_walk

@[translated] theorem same_bds_bds09_ReadAirborneVelocity : @Gen.bds.bds09.ReadAirborneVelocity = @readBDS09 := by
  funext d; unfold Gen.bds.bds09.ReadAirborneVelocity readBDS09
  (try simp only [readFormatTypeCode, bind_assoc, pure_bind]); go_walk

@[translated] theorem same_bds_bds65_ReadAircraftOperationalStatusAirborneADSB1 : @Gen.bds.bds65.ReadAircraftOperationalStatusAirborneADSB1 = @readOpStatusAirborneV1 := by
  funext d; unfold Gen.bds.bds65.ReadAircraftOperationalStatusAirborneADSB1 readOpStatusAirborneV1
  (try simp only [readFormatTypeCode, bind_assoc, pure_bind]); go_walk

@[translated] theorem same_bds_bds65_ReadAircraftOperationalStatusSurfaceADSB1 : @Gen.bds.bds65.ReadAircraftOperationalStatusSurfaceADSB1 = @readOpStatusSurfaceV1 := by
  funext d; unfold Gen.bds.bds65.ReadAircraftOperationalStatusSurfaceADSB1 readOpStatusSurfaceV1
  (try simp only [readFormatTypeCode, bind_assoc, pure_bind]); go_walk

@[translated] theorem same_bds_bds65_ReadAircraftOperationalStatusAirborneADSB2 : @Gen.bds.bds65.ReadAircraftOperationalStatusAirborneADSB2 = @readOpStatusAirborneV2 := by
  funext d; unfold Gen.bds.bds65.ReadAircraftOperationalStatusAirborneADSB2 readOpStatusAirborneV2
  (try simp only [readFormatTypeCode, bind_assoc, pure_bind]); go_walk

@[translated] theorem same_bds_bds65_ReadAircraftOperationalStatusSurfaceADSB2 : @Gen.bds.bds65.ReadAircraftOperationalStatusSurfaceADSB2 = @readOpStatusSurfaceV2 := by
  funext d; unfold Gen.bds.bds65.ReadAircraftOperationalStatusSurfaceADSB2 readOpStatusSurfaceV2
  (try simp only [readFormatTypeCode, bind_assoc, pure_bind]); go_walk

@[translated] theorem same_bds_bds65_ReadAircraftOperationalStatus : @Gen.bds.bds65.ReadAircraftOperationalStatus = @readBDS65 := by
  funext d; unfold Gen.bds.bds65.ReadAircraftOperationalStatus readBDS65
  (try simp only [readFormatTypeCode, bind_assoc, pure_bind]); go_walk

@[translated] theorem same_bds_bds61_ReadAircraftStatusACAS : @Gen.bds.bds61.ReadAircraftStatusACAS = @readStatusACAS := by
  funext d; unfold Gen.bds.bds61.ReadAircraftStatusACAS readStatusACAS
  (try simp only [readFormatTypeCode, bind_assoc, pure_bind]); go_walk

@[translated] theorem same_bds_bds61_ReadAircraftStatus : @Gen.bds.bds61.ReadAircraftStatus = @readBDS61 := by
  funext d; unfold Gen.bds.bds61.ReadAircraftStatus readBDS61
  (try simp only [readFormatTypeCode, bind_assoc, pure_bind]); go_walk

@[translated] theorem same_adsb_no_position_information_ReadNoPositionInformation : @Gen.adsb.no_position_information.ReadNoPositionInformation = @readNoPositionInformation := by
  funext d; unfold Gen.adsb.no_position_information.ReadNoPositionInformation readNoPositionInformation
  (try simp only [readFormatTypeCode, bind_assoc, pure_bind]); go_walk

@[translated] theorem same_bds_bds06_ReadSurfacePosition : @Gen.bds.bds06.ReadSurfacePosition = @readBDS06 := by
  funext d; unfold Gen.bds.bds06.ReadSurfacePosition readBDS06
  (try simp only [readFormatTypeCode, bind_assoc, pure_bind]); go_walk

@[translated] theorem same_adsb_surface_position_ReadSurfacePositionV0 : @Gen.adsb.surface_position.ReadSurfacePositionV0 = @readSurfacePositionV0 := by
  funext d; unfold Gen.adsb.surface_position.ReadSurfacePositionV0 readSurfacePositionV0
  (try simp only [readFormatTypeCode, bind_assoc, pure_bind]); go_walk

@[translated] theorem same_adsb_surface_position_ReadSurfacePositionV1 : @Gen.adsb.surface_position.ReadSurfacePositionV1 = @readSurfacePositionV1 := by
  funext d; unfold Gen.adsb.surface_position.ReadSurfacePositionV1 readSurfacePositionV1
  (try simp only [readFormatTypeCode, bind_assoc, pure_bind]); go_walk

@[translated] theorem same_adsb_surface_position_ReadSurfacePositionV2 : @Gen.adsb.surface_position.ReadSurfacePositionV2 = @readSurfacePositionV2 := by
  funext d; unfold Gen.adsb.surface_position.ReadSurfacePositionV2 readSurfacePositionV2
  (try simp only [readFormatTypeCode, bind_assoc, pure_bind]); go_walk

@[translated] theorem same_bds_bds62_ReadTargetStateAndStatus0 : @Gen.bds.bds62.ReadTargetStateAndStatus0 = @readTargetStateAndStatus0 := by
  funext d; unfold Gen.bds.bds62.ReadTargetStateAndStatus0 readTargetStateAndStatus0
  (try simp only [readFormatTypeCode, bind_assoc, pure_bind]); go_walk

@[translated] theorem same_bds_bds30_ReadACASResolutionAdvisory : @Gen.bds.bds30.ReadACASResolutionAdvisory = @readBDS30 := by
  funext d; unfold Gen.bds.bds30.ReadACASResolutionAdvisory readBDS30
  (try simp only [readFormatTypeCode, bind_assoc, pure_bind]); go_walk

@[translated] theorem same_bds_bds44_ReadMeteorologicalRoutineAirReportV2 : @Gen.bds.bds44.ReadMeteorologicalRoutineAirReportV2 = @readBDS44V2 := by
  funext d; unfold Gen.bds.bds44.ReadMeteorologicalRoutineAirReportV2 readBDS44V2
  (try simp only [readFormatTypeCode, bind_assoc, pure_bind]); go_walk

@[translated] theorem same_bds_bds44_ReadMeteorologicalRoutineAirReportV0 : @Gen.bds.bds44.ReadMeteorologicalRoutineAirReportV0 = @readBDS44V0 := by
  funext d; unfold Gen.bds.bds44.ReadMeteorologicalRoutineAirReportV0 readBDS44V0
  (try simp only [readFormatTypeCode, bind_assoc, pure_bind]); go_walk

@[translated] theorem same_bds_bds44_ReadMeteorologicalRoutineAirReportV1 : @Gen.bds.bds44.ReadMeteorologicalRoutineAirReportV1 = @readBDS44V1 := by
  funext d; unfold Gen.bds.bds44.ReadMeteorologicalRoutineAirReportV1 readBDS44V1
  (try simp only [readFormatTypeCode, bind_assoc, pure_bind]); go_walk

@[translated] theorem same_bds_bds45_ReadMeteorologicalHazardReportV1 : @Gen.bds.bds45.ReadMeteorologicalHazardReportV1 = @readBDS45V1 := by
  funext d; unfold Gen.bds.bds45.ReadMeteorologicalHazardReportV1 readBDS45V1
  (try simp only [readFormatTypeCode, bind_assoc, pure_bind]); go_walk

@[translated] theorem same_bds_bds45_ReadMeteorologicalHazardReportV0 : @Gen.bds.bds45.ReadMeteorologicalHazardReportV0 = @readBDS45V0 := by
  funext d; unfold Gen.bds.bds45.ReadMeteorologicalHazardReportV0 readBDS45V0
  (try simp only [readFormatTypeCode, bind_assoc, pure_bind]); go_walk

@[translated] theorem same_bds_bds50_ReadTrackAndTurnReport : @Gen.bds.bds50.ReadTrackAndTurnReport = @readBDS50 := by
  funext d; unfold Gen.bds.bds50.ReadTrackAndTurnReport readBDS50
  (try simp only [readFormatTypeCode, bind_assoc, pure_bind]); go_walk

@[translated] theorem same_bds_bds60_ReadHeadingAndSpeedReport : @Gen.bds.bds60.ReadHeadingAndSpeedReport = @readBDS60 := by
  funext d; unfold Gen.bds.bds60.ReadHeadingAndSpeedReport readBDS60
  (try simp only [readFormatTypeCode, bind_assoc, pure_bind]); go_walk

@[translated] theorem same_modes_messages_ParseDF0 : @Gen.modes.messages.ParseDF0 = @parseDF0 := by
  funext d; unfold Gen.modes.messages.ParseDF0 parseDF0
  (try simp only [readFormatTypeCode, bind_assoc, pure_bind]); go_walk

@[translated] theorem same_modes_messages_ParseDF16 : @Gen.modes.messages.ParseDF16 = @parseDF16 := by
  funext d; unfold Gen.modes.messages.ParseDF16 parseDF16
  (try simp only [readFormatTypeCode, bind_assoc, pure_bind]); go_walk

@[translated] theorem same_modes_messages_ParseDF17 : @Gen.modes.messages.ParseDF17 = @parseDF17 := by
  funext d; unfold Gen.modes.messages.ParseDF17 parseDF17
  (try simp only [readFormatTypeCode, bind_assoc, pure_bind]); go_walk

@[translated] theorem same_modes_messages_ParseDF18 : @Gen.modes.messages.ParseDF18 = @parseDF18 := by
  funext d; unfold Gen.modes.messages.ParseDF18 parseDF18
  (try simp only [readFormatTypeCode, bind_assoc, pure_bind]); go_walk

@[translated] theorem same_modes_messages_ParseDF20 : @Gen.modes.messages.ParseDF20 = @parseDF20 := by
  funext d; unfold Gen.modes.messages.ParseDF20 parseDF20
  (try simp only [readFormatTypeCode, bind_assoc, pure_bind]); go_walk

@[translated] theorem same_modes_messages_ParseDF21 : @Gen.modes.messages.ParseDF21 = @parseDF21 := by
  funext d; unfold Gen.modes.messages.ParseDF21 parseDF21
  (try simp only [readFormatTypeCode, bind_assoc, pure_bind]); go_walk

@[translated] theorem same_modes_messages_ParseDF24 : @Gen.modes.messages.ParseDF24 = @parseDF24 := by
  funext d; unfold Gen.modes.messages.ParseDF24 parseDF24
  (try simp only [readFormatTypeCode, bind_assoc, pure_bind]); go_walk

@[translated] theorem same_modes_messages_ParseDF4 : @Gen.modes.messages.ParseDF4 = @parseDF4 := by
  funext d; unfold Gen.modes.messages.ParseDF4 parseDF4
  (try simp only [readFormatTypeCode, bind_assoc, pure_bind]); go_walk

@[translated] theorem same_modes_messages_ParseDF5 : @Gen.modes.messages.ParseDF5 = @parseDF5 := by
  funext d; unfold Gen.modes.messages.ParseDF5 parseDF5
  (try simp only [readFormatTypeCode, bind_assoc, pure_bind]); go_walk

