import Verif.Model.Reasons
import Verif.Spec.Reasons
import Verif.Props.CommBRegisters
import Verif.Props.Errors
/-!
# C103: the reason a Comm-B reader or a coherency check gives is true
-/
set_option linter.unusedSimpArgs false
open Spec
namespace Modes

/-! ### There is an error exactly when there is a refusal -/

theorem some_ite_none (c : Prop) [Decidable c] (t : Txt) (o : Option Txt) : (if c then some t else o) = none ↔ ¬ c ∧ o = none := by
  by_cases h : c <;> simp [h]

theorem coherence07 (m : Status07) : m.incoherence = none ↔ m.coherent = true := by
  unfold Status07.incoherence Status07.coherent
  simp only [some_ite_none, and_true, Bool.not_eq_true', decide_eq_false_iff_not]

theorem coherence10 (m : DataLinkCapabilityReport) : m.incoherence = none ↔ m.coherent = true := by
  unfold DataLinkCapabilityReport.incoherence DataLinkCapabilityReport.coherent
  simp only [some_ite_none, ite_chain, ite_last, and_true]

theorem coherence40 (m : SelectedVerticalIntention) : m.incoherence = none ↔ m.coherent = true := by
  unfold SelectedVerticalIntention.incoherence SelectedVerticalIntention.coherent
  simp only [some_ite_none, ite_chain, ite_last, and_true]

theorem coherence44V0 (m : RoutineAirReportV0) : m.incoherence = none ↔ m.coherent = true := by
  unfold RoutineAirReportV0.incoherence RoutineAirReportV0.coherent
  simp only [some_ite_none, ite_chain, ite_last, and_true]

theorem coherence44V1 (m : RoutineAirReportV1) : m.incoherence = none ↔ m.coherent = true := by
  unfold RoutineAirReportV1.incoherence RoutineAirReportV1.coherent
  simp only [some_ite_none, ite_chain, ite_last, and_true]

theorem coherence44V2 (m : RoutineAirReportV2) : m.incoherence = none ↔ m.coherent = true := by
  unfold RoutineAirReportV2.incoherence RoutineAirReportV2.coherent
  simp only [some_ite_none, ite_chain, ite_last, and_true]

theorem coherence45V0 (m : HazardReportV0) : m.incoherence = none ↔ m.coherent = true := by
  unfold HazardReportV0.incoherence HazardReportV0.coherent
  simp only [some_ite_none, ite_chain, ite_last, and_true]

theorem coherence45V1 (m : HazardReportV1) : m.incoherence = none ↔ m.coherent = true := by
  unfold HazardReportV1.incoherence HazardReportV1.coherent
  simp only [some_ite_none, ite_chain, ite_last, and_true]

theorem coherence50 (m : TrackAndTurnReport) : m.incoherence = none ↔ m.coherent = true := by
  unfold TrackAndTurnReport.incoherence TrackAndTurnReport.coherent
  simp only [some_ite_none, ite_chain, ite_last, and_true]

theorem coherence60 (m : HeadingAndTrackReport) : m.incoherence = none ↔ m.coherent = true := by
  unfold HeadingAndTrackReport.incoherence HeadingAndTrackReport.coherent
  simp only [some_ite_none, ite_chain, ite_last, and_true]

/-- C103. Whatever a Comm-B message holds, its coherency check gives a reason exactly when it fails. -/
theorem commB_incoherence_iff (m : CommBMessage) : m.incoherence = none ↔ m.coherent = true := by
  cases m with
  | bds00 m => simp [CommBMessage.incoherence, CommBMessage.coherent, NoMessageAvailable.coherent]
  | bds07 m => exact coherence07 m
  | bds10 m => exact coherence10 m
  | bds17 m => simp [CommBMessage.incoherence, CommBMessage.coherent, GICBCapabilityReport.coherent]
  | bds20 m =>
    simp only [CommBMessage.incoherence, CommBMessage.coherent, AircraftIdentification.incoherence, AircraftIdentification.coherent,
      some_ite_none, ite_last, and_true]
  | bds30 m => simp [CommBMessage.incoherence, CommBMessage.coherent, ACASResolutionAdvisory.coherent]
  | bds40 m => exact coherence40 m
  | bds44 m =>
    cases m with
    | v0 m => exact coherence44V0 m
    | v1 m => exact coherence44V1 m
    | v2 m => exact coherence44V2 m
  | bds45 m =>
    cases m with
    | v0 m => exact coherence45V0 m
    | v1 m => exact coherence45V1 m
  | bds50 m => exact coherence50 m
  | bds60 m => exact coherence60 m

/-- C103. The same for ADS-B messages. -/
theorem adsb_incoherence_iff (m : ADSBMessage) : m.incoherence = none ↔ m.coherent = true := by
  cases m with
  | identification m _ =>
    simp only [ADSBMessage.incoherence, ADSBMessage.coherent, IdentificationAndCategory.incoherence, IdentificationAndCategory.coherent,
      some_ite_none, ite_chain]
    cases m.category <;> simp [AircraftCategory.incoherence, AircraftCategory.coherent]
  | status m _ =>
    simp only [ADSBMessage.incoherence, ADSBMessage.coherent]
    cases m <;> simp [AircraftStatus.incoherence, AircraftStatus.coherent]
  | _ => simp [ADSBMessage.incoherence, ADSBMessage.coherent]

/-! ### The readers -/

theorem holds_at {table : List (List Char × Prop)} (k : Nat) {t : Txt} {p : Prop} (h : table[k]? = some (t, p)) (hp : p) : TrueIn table t :=
  ⟨p, List.mem_of_getElem? h, hp⟩

theorem chain_sound {c : Prop} [Decidable c] {t : Txt} {e : Option Txt} {R : Txt → Prop} (h1 : c → R t) (h2 : ¬ c → ∀ u, e = some u → R u) :
    ∀ u, (if c then some t else e) = some u → R u := by
  intro u h
  by_cases hc : c
  · rw [if_pos hc, Option.some.injEq] at h; rw [← h]; exact h1 hc
  · rw [if_neg hc] at h; exact h2 hc u h

theorem chain_end {R : Txt → Prop} : ∀ u, (none : Option Txt) = some u → R u := fun _ h => nomatch h

/-- C103. BDS 0,0: a reason is given exactly when the register is refused, and it is true. -/
theorem bds00_reason (d : List UInt8) :
    (bds00Error d = none ↔ Succeeds (readBDS00 d)) ∧ ∀ t, bds00Error d = some t → TrueIn (readReasons00 d) t := by
  unfold bds00Error
  rw [(bds00_accepts d).1]
  by_cases h7 : d.length = 7
  swap
  · exact ⟨by simp [h7], chain_sound (fun h => holds_at 0 rfl h) (fun h => absurd h7 h)⟩
  obtain ⟨b0, b1, b2, b3, b4, b5, b6, rfl⟩ := list7 d h7
  have e0 : (b0 = 0 ∧ b1 = 0 ∧ b2 = 0 ∧ b3 = 0 ∧ b4 = 0 ∧ b5 = 0 ∧ b6 = 0) ↔ bits [b0, b1, b2, b3, b4, b5, b6] 1 56 = 0 := by
    word_nat; byte_omega
  constructor
  · rw [some_ite_none, some_ite_none, ← e0]; simp
  · refine chain_sound (fun h => absurd rfl h) fun _ => chain_sound (fun h => holds_at 1 rfl ?_) fun _ => chain_end
    rw [Ne, ← e0]; simp only [not_and_or]; simpa using h

/-- C103. BDS 0,7. -/
theorem bds07_reason (d : List UInt8) :
    (bds07Error d = none ↔ Succeeds (readBDS07 d)) ∧ ∀ t, bds07Error d = some t → TrueIn (readReasons07 d) t := by
  unfold bds07Error
  rw [(bds07_accepts d).1]
  by_cases h7 : d.length = 7
  swap
  · exact ⟨by simp [h7], chain_sound (fun h => holds_at 0 rfl h) (fun h => absurd h7 h)⟩
  obtain ⟨b0, b1, b2, b3, b4, b5, b6, rfl⟩ := list7 d h7
  have e0 : b0 &&& 0x1C = 0 ↔ bits [b0, b1, b2, b3, b4, b5, b6] 4 6 = 0 := by word_nat; byte_omega
  have e1 : (b1 = 0 ∧ b2 = 0 ∧ b3 = 0 ∧ b4 = 0 ∧ b5 = 0 ∧ b6 = 0) ↔ bits [b0, b1, b2, b3, b4, b5, b6] 9 56 = 0 := by
    word_nat; byte_omega
  have e2 : bits [b0, b1, b2, b3, b4, b5, b6] 4 8 = 0 → bits [b0, b1, b2, b3, b4, b5, b6] 4 6 = 0 := by byte_omega
  constructor
  · rw [some_ite_none, some_ite_none, some_ite_none, ← e0, ← e1]; simp [byteAt, and_assoc]
  · refine chain_sound (fun h => absurd rfl h) fun _ => chain_sound (fun h => holds_at 1 rfl ?_) fun _ =>
      chain_sound (fun h => holds_at 2 rfl ?_) fun _ => chain_end
    · exact fun h' => h (e0.2 (e2 h'))
    · rw [Ne, ← e1]; simp only [not_and_or]; simpa using h

/-- C103. BDS 1,0. -/
theorem bds10_reason (d : List UInt8) :
    (bds10Error d = none ↔ Succeeds (readBDS10 d)) ∧ ∀ t, bds10Error d = some t → TrueIn (readReasons10 d) t := by
  unfold bds10Error
  rw [(bds10_accepts d).1]
  unfold Accepted10
  by_cases h7 : d.length = 7
  swap
  · exact ⟨by simp [h7], chain_sound (fun h => holds_at 0 rfl h) (fun h => absurd h7 h)⟩
  obtain ⟨b0, b1, b2, b3, b4, b5, b6, rfl⟩ := list7 d h7
  have e0 : b0 = 0x10 ↔ bits [b0, b1, b2, b3, b4, b5, b6] 1 8 = 0x10 := by word_nat; byte_omega
  have e1 : b1 &&& 0x7C = 0 ↔ bits [b0, b1, b2, b3, b4, b5, b6] 10 14 = 0 := by word_nat; byte_omega
  constructor
  · rw [some_ite_none, some_ite_none, some_ite_none, ← e0, ← e1]; simp [byteAt, and_assoc]
  · exact chain_sound (fun h => absurd rfl h) fun _ => chain_sound (fun h => holds_at 1 rfl (fun h' => h (e0.2 h'))) fun _ =>
      chain_sound (fun h => holds_at 2 rfl (fun h' => h (e1.2 h'))) fun _ => chain_end

/-- C103. BDS 1,7. -/
theorem bds17_reason (d : List UInt8) :
    (bds17Error d = none ↔ Succeeds (readBDS17 d)) ∧ ∀ t, bds17Error d = some t → TrueIn (readReasons17 d) t := by
  unfold bds17Error
  rw [(bds17_accepts d).1]
  unfold Accepted17
  by_cases h7 : d.length = 7
  swap
  · exact ⟨by simp [h7], chain_sound (fun h => holds_at 0 rfl h) (fun h => absurd h7 h)⟩
  obtain ⟨b0, b1, b2, b3, b4, b5, b6, rfl⟩ := list7 d h7
  have e : (b3 &&& 7 = 0 ∧ (b4 = 0 ∧ b5 = 0 ∧ b6 = 0)) ↔ bits [b0, b1, b2, b3, b4, b5, b6] 30 56 = 0 := by word_nat; byte_omega
  have e0 : b3 &&& 7 = 0 ↔ bits [b0, b1, b2, b3, b4, b5, b6] 30 32 = 0 := by word_nat; byte_omega
  have e1 : (b4 = 0 ∧ b5 = 0 ∧ b6 = 0) ↔ bits [b0, b1, b2, b3, b4, b5, b6] 33 56 = 0 := by word_nat; byte_omega
  constructor
  · rw [some_ite_none, some_ite_none, some_ite_none, ← e]; simp [byteAt, and_assoc]
  · refine chain_sound (fun h => absurd rfl h) fun _ => chain_sound (fun h => holds_at 1 rfl (fun h' => h (e0.2 h'))) fun _ =>
      chain_sound (fun h => holds_at 2 rfl ?_) fun _ => chain_end
    rw [Ne, ← e1]; simp only [not_and_or]; simpa using h

/-- C103. BDS 2,0. -/
theorem bds20_reason (d : List UInt8) :
    (bds20Error d = none ↔ Succeeds (readBDS20 d)) ∧ ∀ t, bds20Error d = some t → TrueIn (readReasons20 d) t := by
  unfold bds20Error
  rw [(identification_accepts d).2.2.1]
  by_cases h7 : d.length = 7
  swap
  · exact ⟨by simp [h7], chain_sound (fun h => holds_at 0 rfl h) (fun h => absurd h7 h)⟩
  obtain ⟨b0, b1, b2, b3, b4, b5, b6, rfl⟩ := list7 d h7
  have e0 : b0 = 0x20 ↔ bits [b0, b1, b2, b3, b4, b5, b6] 1 8 = 0x20 := by word_nat; byte_omega
  constructor
  · rw [some_ite_none, some_ite_none, ← e0]; simp [byteAt, and_assoc]
  · exact chain_sound (fun h => absurd rfl h) fun _ => chain_sound (fun h => holds_at 1 rfl (fun h' => h (e0.2 h'))) fun _ => chain_end

/-- C103. BDS 4,0: the reader. -/
theorem bds40_reason (d : List UInt8) :
    (bds40Error d = none ↔ Succeeds (readBDS40 d)) ∧ ∀ t, bds40Error d = some t → TrueIn (readReasons40 d) t := by
  unfold bds40Error
  rw [(bds40_accepts d).1]
  unfold Accepted40
  by_cases h7 : d.length = 7
  swap
  · exact ⟨by simp [h7], chain_sound (fun h => holds_at 0 rfl h) (fun h => absurd h7 h)⟩
  obtain ⟨b0, b1, b2, b3, b4, b5, b6, rfl⟩ := list7 d h7
  have e0 : b4 &&& 1 = 0 ↔ bits [b0, b1, b2, b3, b4, b5, b6] 40 40 = 0 := by word_nat; byte_omega
  have e1 : b5 &&& 0xFE = 0 ↔ bits [b0, b1, b2, b3, b4, b5, b6] 41 47 = 0 := by word_nat; byte_omega
  have e2 : b6 &&& 0x18 = 0 ↔ bits [b0, b1, b2, b3, b4, b5, b6] 52 53 = 0 := by word_nat; byte_omega
  have e : (bits [b0, b1, b2, b3, b4, b5, b6] 40 40 = 0 ∧ bits [b0, b1, b2, b3, b4, b5, b6] 41 47 = 0) ↔
    bits [b0, b1, b2, b3, b4, b5, b6] 40 47 = 0 := by byte_omega
  constructor
  · rw [some_ite_none, some_ite_none, some_ite_none, some_ite_none, ← e2, ← e, ← e0, ← e1]; simp [byteAt, and_assoc]
  · exact chain_sound (fun h => absurd rfl h) fun _ => chain_sound (fun h => holds_at 1 rfl (fun h' => h (e0.2 h'))) fun _ =>
      chain_sound (fun h => holds_at 2 rfl (fun h' => h (e1.2 h'))) fun _ =>
      chain_sound (fun h => holds_at 3 rfl (fun h' => h (e2.2 h'))) fun _ => chain_end

/-- C103. BDS 5,0 and 6,0: the readers. -/
theorem bds50_60_reason (d : List UInt8) :
    (bds50Error d = none ↔ Succeeds (readBDS50 d)) ∧ (∀ t, bds50Error d = some t → TrueIn (readReasons50 d) t) ∧
    (bds60Error d = none ↔ Succeeds (readBDS60 d)) ∧ (∀ t, bds60Error d = some t → TrueIn (readReasons60 d) t) := by
  unfold bds50Error bds60Error
  rw [(bds50_60_accept d).1, (bds50_60_accept d).2.2.1]
  exact ⟨by simp, chain_sound (fun h => holds_at 0 rfl h) (fun _ => chain_end), by simp,
    chain_sound (fun h => holds_at 0 rfl h) (fun _ => chain_end)⟩

/-- C103. Direct calls of the three readers of BDS 4,4. -/
theorem bds44V_reason (d : List UInt8) :
    ((bds44V0Error d = none ↔ Succeeds (readBDS44V0 d)) ∧ ∀ t, bds44V0Error d = some t → TrueIn (readReasons44V d) t) ∧
    ((bds44V1Error d = none ↔ Succeeds (readBDS44V1 d)) ∧ ∀ t, bds44V1Error d = some t → TrueIn (readReasons44V d) t) ∧
    ((bds44V2Error d = none ↔ Succeeds (readBDS44V2 d)) ∧ ∀ t, bds44V2Error d = some t → TrueIn (readReasons44V d) t) := by
  have a0 : Succeeds (readBDS44V0 d) ↔ d.length = 7 := by
    rcases bds44V0_eval d with ⟨e, n⟩ | ⟨h, m, e, -⟩ <;> rw [e]
    · exact ⟨fun ⟨m, h⟩ => (nomatch h), fun h => absurd h n⟩
    · exact ⟨fun _ => h, fun _ => ⟨m, rfl⟩⟩
  have a1 : Succeeds (readBDS44V1 d) ↔ d.length = 7 ∧ bits d 1 4 = 0 := by
    rcases bds44V1_eval d with ⟨e, n⟩ | ⟨h, m, e, -⟩ <;> rw [e]
    · exact ⟨fun ⟨m, h⟩ => (nomatch h), fun h => absurd h n⟩
    · exact ⟨fun _ => h, fun _ => ⟨m, rfl⟩⟩
  have a2 : Succeeds (readBDS44V2 d) ↔ d.length = 7 := by
    rcases bds44V2_eval d with ⟨e, n⟩ | ⟨h, m, e, -⟩ <;> rw [e]
    · exact ⟨fun ⟨m, h⟩ => (nomatch h), fun h => absurd h n⟩
    · exact ⟨fun _ => h, fun _ => ⟨m, rfl⟩⟩
  rw [a0, a1, a2]
  unfold bds44V0Error bds44V1Error bds44V2Error
  refine ⟨⟨by simp, chain_sound (fun h => holds_at 0 rfl h) (fun _ => chain_end)⟩, ?_,
    ⟨by simp, chain_sound (fun h => holds_at 0 rfl h) (fun _ => chain_end)⟩⟩
  by_cases h7 : d.length = 7
  swap
  · exact ⟨by simp [h7], chain_sound (fun h => holds_at 0 rfl h) (fun h => absurd h7 h)⟩
  obtain ⟨b0, b1, b2, b3, b4, b5, b6, rfl⟩ := list7 d h7
  have e0 : b0 &&& 0xF0 = 0 ↔ bits [b0, b1, b2, b3, b4, b5, b6] 1 4 = 0 := by word_nat; byte_omega
  constructor
  · rw [some_ite_none, some_ite_none, ← e0]; simp [byteAt]
  · exact chain_sound (fun h => absurd rfl h) fun _ => chain_sound (fun h => holds_at 1 rfl (fun h' => h (e0.2 h'))) fun _ => chain_end

/-- C103. The reader of BDS 4,4 that chooses the version: a reason is given exactly when nothing is read. A bad length is given as it is. For
the other refusals, the sources 5 to 15, the number given is that of the source; missing: that the range given is the accepted one
(`bds44_range_refuted`). -/
theorem bds44_reason_partial (d : List UInt8) :
    (bds44Error d = none ↔ ∃ m, readBDS44 d = .returns (.val m) false) ∧
    ∀ t, bds44Error d = some t → TrueIn (readReasonsLength d (decimal d.length)) t ∨
      (t = t! "the field SubType must be comprised between 0 and 1 included, got " ++ decimal (bits d 1 4) ∧ 5 ≤ bits d 1 4) := by
  have hl := bds44_layout d
  unfold bds44Error
  by_cases h7 : d.length = 7
  swap
  · refine ⟨?_, chain_sound (fun h => Or.inl (holds_at 0 rfl h)) (fun h => absurd h7 h)⟩
    rw [if_pos h7]
    refine ⟨nofun, fun ⟨m, hm⟩ => ?_⟩
    rw [hm] at hl
    rcases m with m | m | m
    · exact hl.elim
    · exact absurd hl.2.1 h7
    · exact absurd hl.2.1 h7
  rw [if_neg (not_not.2 h7)]
  have hs : ((byteAt d 0 &&& 0xF0) >>> 4).toNat = bits d 1 4 := by
    obtain ⟨b0, b1, b2, b3, b4, b5, b6, rfl⟩ := list7 d h7
    exact source44_bits b0 b1 b2 b3 b4 b5 b6
  have hz : byteAt d 0 &&& 0xF0 = 0 ↔ bits d 1 4 = 0 := by
    obtain ⟨b0, b1, b2, b3, b4, b5, b6, rfl⟩ := list7 d h7
    show b0 &&& 0xF0 = 0 ↔ _
    word_nat; byte_omega
  have h2 : bds44V2Error d = none := by unfold bds44V2Error; rw [if_neg (not_not.2 h7)]
  generalize (byteAt d 0 &&& 0xF0) >>> 4 = s at hs
  have es (k : Nat) (hk : k < 256) : s = UInt8.ofNat k ↔ bits d 1 4 = k := by
    rw [← hs]
    exact ⟨fun h => (by rw [h, UInt8.toNat_ofNat_of_lt' (by simpa using hk)]), fun h => (by rw [← h, UInt8.ofNat_toNat])⟩
  have c14 : (s = 1 ∨ s = 2 ∨ s = 3 ∨ s = 4) ↔ (1 ≤ bits d 1 4 ∧ bits d 1 4 ≤ 4) := by
    rw [show (1 : UInt8) = UInt8.ofNat 1 from rfl, show (2 : UInt8) = UInt8.ofNat 2 from rfl, show (3 : UInt8) = UInt8.ofNat 3 from rfl,
      show (4 : UInt8) = UInt8.ofNat 4 from rfl, es 1 (by decide), es 2 (by decide), es 3 (by decide), es 4 (by decide)]
    omega
  have c0 : s = 0 ↔ bits d 1 4 = 0 := es 0 (by decide)
  have key : (if s = 1 ∨ s = 2 ∨ s = 3 ∨ s = 4 then (if bds44V2Error d = none then none else bds44V0Error d)
      else if s = 0 then bds44V1Error d
      else some (t! "the field SubType must be comprised between 0 and 1 included, got " ++ dec s.toNat)) =
      if bits d 1 4 ≤ 4 then none
      else some (t! "the field SubType must be comprised between 0 and 1 included, got " ++ decimal (bits d 1 4)) := by
    by_cases h14 : s = 1 ∨ s = 2 ∨ s = 3 ∨ s = 4
    · rw [if_pos h14, if_pos h2, if_pos (c14.1 h14).2]
    · rw [if_neg h14]
      by_cases h0 : s = 0
      · rw [if_pos h0, if_pos (by rw [c0.1 h0]; decide)]
        unfold bds44V1Error
        rw [if_neg (not_not.2 h7), if_neg (not_not.2 (hz.2 (c0.1 h0)))]
      · rw [if_neg h0, if_neg (by rw [c14] at h14; rw [c0] at h0; omega), hs]; rfl
  simp only []
  rw [key]
  constructor
  · constructor
    · intro h
      have h4 : bits d 1 4 ≤ 4 := by
        by_contra hc
        rw [if_neg hc] at h; cases h
      rcases hr : readBDS44 d with _ | ⟨_ | _ | (m | m | m), err⟩ <;> rw [hr] at hl
      · exact hl.elim
      · exact absurd h4 (by rcases hl.2 with h | h <;> omega)
      · exact hl.elim
      · exact hl.elim
      · obtain ⟨rfl, -⟩ := hl; exact ⟨_, rfl⟩
      · obtain ⟨rfl, -⟩ := hl; exact ⟨_, rfl⟩
    · rintro ⟨m, hm⟩
      rw [hm] at hl
      rw [if_pos]
      rcases m with m | m | m
      · exact hl.elim
      · have := hl.2.2.1; omega
      · exact hl.2.2.2.1
  · intro t ht
    right
    by_cases hc : bits d 1 4 ≤ 4
    · rw [if_pos hc] at ht; cases ht
    · rw [if_neg hc, Option.some.injEq] at ht
      exact ⟨ht.symm, by omega⟩

/-- C103 refuted for the range given by the reader of BDS 4,4: a source of 2, outside 0 to 1, is read. -/
theorem bds44_range_refuted :
    bds44Error [0x50, 0, 0, 0, 0, 0, 0] = some (t! "the field SubType must be comprised between 0 and 1 included, got 5") ∧
    ∃ d m, bits d 1 4 = 2 ∧ readBDS44 d = .returns (.val m) false := by
  refine ⟨by decide, [0x20, 0, 0, 0, 0, 0, 0], ?_⟩
  obtain ⟨m, hm⟩ := (bds44_reason_partial [0x20, 0, 0, 0, 0, 0, 0]).1.1 (by decide)
  exact ⟨m, by decide, hm⟩

/-- C103. BDS 4,5: the two readers, and the one that chooses. -/
theorem bds45_reason (d : List UInt8) :
    ((bds45V0Error d = none ↔ Succeeds (readBDS45V0 d)) ∧ ∀ t, bds45V0Error d = some t → TrueIn (readReasons45V d) t) ∧
    ((bds45V1Error d = none ↔ Succeeds (readBDS45V1 d)) ∧ ∀ t, bds45V1Error d = some t → TrueIn (readReasons45V d) t) ∧
    (bds45Error d = none ↔ ∃ m, readBDS45 d = .returns (.val m) false) ∧
    ∀ t, bds45Error d = some t → TrueIn (readReasonsLength d (decimal d.length) ++ readReasons45V d) t := by
  have a0 : Succeeds (readBDS45V0 d) ↔ d.length = 7 ∧ bits d 52 56 = 0 := by
    rcases bds45V0_eval d with ⟨e, n⟩ | ⟨h, m, e, -⟩ <;> rw [e]
    · exact ⟨fun ⟨m, h⟩ => (nomatch h), fun h => absurd h n⟩
    · exact ⟨fun _ => h, fun _ => ⟨m, rfl⟩⟩
  have a1 : Succeeds (readBDS45V1 d) ↔ d.length = 7 ∧ bits d 55 56 = 0 := by
    rcases bds45V1_eval d with ⟨e, n⟩ | ⟨h, m, e, -⟩ <;> rw [e]
    · exact ⟨fun ⟨m, h⟩ => (nomatch h), fun h => absurd h n⟩
    · exact ⟨fun _ => h, fun _ => ⟨m, rfl⟩⟩
  have hl := bds45_layout d
  have a2 : (∃ m, readBDS45 d = .returns (.val m) false) ↔ d.length = 7 ∧ bits d 55 56 = 0 := by
    rcases hr : readBDS45 d with _ | ⟨_ | _ | (m | m), err⟩ <;> rw [hr] at hl
    · exact hl.elim
    · refine ⟨fun ⟨m, h⟩ => (nomatch h), fun h => ?_⟩
      rcases hl.2.1 with h' | h'
      · exact absurd h.1 h'
      · exact absurd h.2 h'
    · exact hl.elim
    · exact hl.elim
    · obtain ⟨rfl, h7, h0, -⟩ := hl
      exact ⟨fun _ => ⟨h7, h0⟩, fun _ => ⟨_, rfl⟩⟩
  rw [a0, a1, a2]
  by_cases h7 : d.length = 7
  swap
  · unfold bds45V0Error bds45V1Error bds45Error
    exact ⟨⟨by simp [h7], chain_sound (fun h => holds_at 0 rfl h) (fun h => absurd h7 h)⟩,
      ⟨by simp [h7], chain_sound (fun h => holds_at 0 rfl h) (fun h => absurd h7 h)⟩, by simp [h7],
      chain_sound (fun h => holds_at 0 rfl h) (fun h => absurd h7 h)⟩
  obtain ⟨b0, b1, b2, b3, b4, b5, b6, rfl⟩ := list7 d h7
  have e0 : b6 &&& 0x1F = 0 ↔ bits [b0, b1, b2, b3, b4, b5, b6] 52 56 = 0 := by word_nat; byte_omega
  have e1 : b6 &&& 0x03 = 0 ↔ bits [b0, b1, b2, b3, b4, b5, b6] 55 56 = 0 := by word_nat; byte_omega
  have hz := bds45_reserved _ h7
  have v1 : bds45V1Error [b0, b1, b2, b3, b4, b5, b6] = none ↔ bits [b0, b1, b2, b3, b4, b5, b6] 55 56 = 0 := by
    unfold bds45V1Error
    rw [some_ite_none, some_ite_none, ← e1]; simp [byteAt]
  have v0 : bds45V0Error [b0, b1, b2, b3, b4, b5, b6] = none ↔ bits [b0, b1, b2, b3, b4, b5, b6] 52 56 = 0 := by
    unfold bds45V0Error
    rw [some_ite_none, some_ite_none, ← e0]; simp [byteAt]
  have s0 : ∀ t, bds45V0Error [b0, b1, b2, b3, b4, b5, b6] = some t → TrueIn (readReasons45V [b0, b1, b2, b3, b4, b5, b6]) t :=
    chain_sound (fun h => absurd rfl h) fun _ => chain_sound (fun h => holds_at 1 rfl (fun h' => h (e0.2 h'))) fun _ => chain_end
  refine ⟨⟨by rw [v0]; simp, s0⟩, ⟨by rw [v1]; simp, ?_⟩, ?_, ?_⟩
  · exact chain_sound (fun h => absurd rfl h) fun _ => chain_sound (fun h => holds_at 2 rfl (fun h' => h (e1.2 h'))) fun _ => chain_end
  · unfold bds45Error
    rw [if_neg (not_not.2 h7)]
    by_cases h1 : bds45V1Error [b0, b1, b2, b3, b4, b5, b6] = none
    · rw [if_pos h1]; exact ⟨fun _ => ⟨rfl, v1.1 h1⟩, fun _ => rfl⟩
    · rw [if_neg h1, v0]
      exact ⟨fun h => absurd (v1.2 (hz h)) h1, fun h => absurd (v1.2 h.2) h1⟩
  · unfold bds45Error
    rw [if_neg (not_not.2 h7)]
    by_cases h1 : bds45V1Error [b0, b1, b2, b3, b4, b5, b6] = none
    · rw [if_pos h1]; exact chain_end
    · rw [if_neg h1]
      intro t ht
      obtain ⟨p, hm, hp⟩ := s0 t ht
      exact ⟨p, List.mem_append_right _ hm, hp⟩

/-- C103. BDS 3,0: a reason is given exactly when the register is refused. It is true unless the register number is that of BDS 2,0
(`bds30_reason_refuted`) or the threat is given by an altitude that begins with another bit than 0 (C20). -/
theorem bds30_reason_partial (d : List UInt8) :
    (bds30Error d = none ↔ Succeeds (readBDS30 d)) ∧
    (bits d 1 8 ≠ 0x20 → (bits d 29 30 = 2 → bits d 31 32 = 0) → ∀ t, bds30Error d = some t → TrueIn (readReasons30 d) t) := by
  unfold bds30Error
  have ha := (bds30_accepts d).1
  have hs : Succeeds (readBDS30 d) ↔ d.length = 7 ∧ bits d 1 8 = 0x30 ∧ Succeeds (readResolutionAdvisory (d.drop 1)) :=
    ⟨fun ⟨m, h⟩ => ⟨((ha m).1 h).1, ((ha m).1 h).2.1, _, ((ha m).1 h).2.2⟩, fun ⟨h1, h2, m, h3⟩ => ⟨⟨m⟩, (ha ⟨m⟩).2 ⟨h1, h2, h3⟩⟩⟩
  by_cases h7 : d.length = 7
  swap
  · exact ⟨by rw [hs]; simp [h7], fun _ _ => chain_sound (fun h => holds_at 0 rfl h) (fun h => absurd h7 h)⟩
  have e0 : byteAt d 0 = 0x30 ↔ bits d 1 8 = 0x30 := by
    obtain ⟨b0, b1, b2, b3, b4, b5, b6, rfl⟩ := list7 d h7
    show b0 = 0x30 ↔ _
    word_nat; byte_omega
  have hb : bits (d.drop 1) 21 22 = bits d 29 30 ∧ bits (d.drop 1) 23 24 = bits d 31 32 ∧ bits (d.drop 1) 23 35 = bits d 31 43 := by
    obtain ⟨b0, b1, b2, b3, b4, b5, b6, rfl⟩ := list7 d h7
    simp only [List.drop_succ_cons, List.drop_zero]
    refine ⟨?_, ?_, ?_⟩ <;> byte_omega
  have e6 : (d.drop 1).length = 6 := by rw [List.length_drop, h7]
  constructor
  · rw [some_ite_none, some_ite_none, advisory_refused, hs, ← e0, not_not, not_not]
  · intro h20 hal
    refine chain_sound (fun h => absurd h7 h) fun _ => chain_sound (fun h => holds_at 1 rfl h20) fun _ => ?_
    rw [advisory_reason_partial _ (by rw [hb.1, hb.2.1]; exact hal), if_neg (not_not.2 e6), hb.1, hb.2.2]
    exact chain_sound (fun h => holds_at 2 rfl h) fun _ => chain_end

/-- C103 refuted for BDS 3,0: the first byte is 0x20, and the reason given is that it is not. -/
theorem bds30_reason_refuted (d : List UInt8) (h7 : d.length = 7) (h : bits d 1 8 = 0x20) :
    bds30Error d = some (t! "the first byte of data is not 0x20") := by
  unfold bds30Error
  rw [if_neg (not_not.2 h7), if_pos]
  obtain ⟨b0, b1, b2, b3, b4, b5, b6, rfl⟩ := list7 d h7
  have e0 : b0 = 0x20 ↔ bits [b0, b1, b2, b3, b4, b5, b6] 1 8 = 0x20 := by word_nat; byte_omega
  show b0 ≠ 0x30
  rw [e0.2 h]; decide

/-! ### The coherency checks -/

theorem given {d : List UInt8} {s : Bool} {p : Prop} {k i j : Nat} (hs : s = bit d k) (hp : bits d i j = 0 → ¬ p) :
    (!s) = true ∧ p → GivenWithout d k i j :=
  fun h => ⟨by rw [← hs]; simpa using h.1, fun hz => hp hz h.2⟩

theorem u8_not {x : UInt8} {n : Nat} (h : x.toNat = n) : n = 0 → ¬ x ≠ 0 := fun h0 hx => hx ((u8_zero_iff x).2 (h.trans h0))
theorem u32_not {x : UInt32} {n : Nat} (h : x.toNat = n) : n = 0 → ¬ x ≠ 0 := fun h0 hx => hx ((u32_zero_iff x).2 (h.trans h0))

theorem signed_not {d : List UInt8} {x q : ℚ} {i j : Nat} (h : x = sbits d i j * q) (h1 : i ≤ j) (h2 : j ≤ 8 * d.length) :
    bits d i j = 0 → ¬ x ≠ 0 :=
  fun h0 hx => hx (by rw [h, (sbits_zero_iff d i j h1 h2).2 h0]; simp)

theorem signedInt_not {d : List UInt8} {x q : Int} {i j : Nat} (h : x = sbits d i j * q) (h1 : i ≤ j) (h2 : j ≤ 8 * d.length) :
    bits d i j = 0 → ¬ x ≠ 0 :=
  fun h0 hx => hx (by rw [h, (sbits_zero_iff d i j h1 h2).2 h0]; simp)

theorem unsigned_not {d : List UInt8} {x q : ℚ} {i j : Nat} (h : x = bits d i j * q) : bits d i j = 0 → ¬ x ≠ 0 :=
  fun h0 hx => hx (by rw [h, h0]; simp)

theorem temperature_out {x : ℚ} {n k : ℤ} (hk : 0 < k) (h : x = n / k) : (x < -80 ∨ x > 60) → n < -80 * k ∨ 60 * k < n := by
  have hk' : (0 : ℚ) < k := by exact_mod_cast hk
  rintro (h' | h')
  · left
    rw [h, div_lt_iff₀ hk'] at h'
    exact_mod_cast h'
  · right
    rw [h, gt_iff_lt, lt_div_iff₀ hk'] at h'
    exact_mod_cast h'

/-- C103. The reason for which a status (BDS 0,7) is judged incoherent. -/
theorem bds07_incoherence (d : List UInt8) (m : Status07) (h : readBDS07 d = .ok m) :
    ∀ t, m.incoherence = some t → TrueIn (reasons07 d) t := by
  obtain ⟨h1, -⟩ := bds07_content d m h
  refine chain_sound (fun hc => holds_at 0 rfl ?_) fun _ => chain_end
  have : bits d 1 2 < 4 := by unfold bits; exact Nat.mod_lt _ (by decide)
  rw [ge_iff_le, UInt8.le_iff_toNat_le] at hc
  have : (3 : UInt8).toNat = 3 := rfl
  omega

theorem bad_character (d : List UInt8)
    (h : ((List.range 8).map (fun i => (identOf (identField d i)).getD 0x23)).contains 0x23 = true) : BadCharacter d := by
  by_contra hn
  have := (chars_hash d).2 (fun i hi => ?_)
  · rw [this] at h; cases h
  · have hlt : identField d i < 64 := by
      unfold identField bits
      rw [show 14 + 6 * i + 1 - (9 + 6 * i) = 6 by omega]
      exact Nat.mod_lt _ (by decide)
    refine (CharCode_iff _ hlt).1 ?_
    by_contra hc
    exact hn ⟨i, hi, hc⟩

/-- C103. An aircraft identification (BDS 2,0). -/
theorem bds20_incoherence (d : List UInt8) (m : AircraftIdentification) (h : readBDS20 d = .ok m) :
    ∀ t, m.incoherence = some t → TrueIn (reasons20 d) t := by
  rw [bds20_eval] at h
  split at h
  · injection h with h
    subst h
    exact chain_sound (fun hc => holds_at 0 rfl (bad_character d hc)) fun _ => chain_end
  · cases h

/-- C103. An identification and category (BDS 0,8). -/
theorem bds08_incoherence (d : List UInt8) (m : IdentificationAndCategory) (h : readBDS08 d = .ok m) :
    ∀ t, m.incoherence = some t → TrueIn (reasons08 d) t := by
  have hcat := emitter_category d m h
  have hid : m.identification = (List.range 8).map (fun i => (identOf (identField d i)).getD 0x23) := by
    rw [bds08_eval] at h
    split at h
    · injection h with h; subst h; rfl
    · cases h
  unfold IdentificationAndCategory.incoherence
  refine chain_sound (fun hc => holds_at 0 rfl (bad_character d (by rw [← hid]; exact hc))) fun _ => ?_
  obtain ⟨-, hc, h8⟩ := hcat
  rcases hc with ⟨h1, e⟩ | ⟨h1, e⟩ | ⟨h1, e⟩ | ⟨h1, e⟩ <;> rw [e]
  · intro t ht
    cases ht
    exact holds_at 2 rfl h1
  · refine chain_sound (fun hc => holds_at 1 rfl ⟨h1, ?_⟩) fun _ => chain_end
    rw [u8_gt, UInt8.toNat_ofNat_of_lt' (by show bits d 6 8 < 256; omega)] at hc
    have : (3 : UInt8).toNat = 3 := rfl
    omega
  · exact chain_end
  · exact chain_end

/-- C103. A data link capability report (BDS 1,0). -/
theorem bds10_incoherence (d : List UInt8) (m : DataLinkCapabilityReport) (h : readBDS10 d = .ok m) :
    ∀ t, m.incoherence = some t → TrueIn (reasons10 d) t := by
  have hl := bds10_content_partial d m h
  have z {x : UInt8} {n : Nat} (e : x.toNat = n) (hx : x = 0) : n = 0 := by rw [← e, hx]; rfl
  have nz {x : UInt8} {n : Nat} (e : x.toNat = n) (hx : x ≠ 0) : n ≠ 0 := fun h0 => hx ((u8_zero_iff x).2 (e.trans h0))
  have l4 : bits d 39 40 < 4 := by unfold bits; exact Nat.mod_lt _ (by decide)
  have l8 : bits d 26 28 < 8 := by unfold bits; exact Nat.mod_lt _ (by decide)
  have gt {x k : UInt8} {n : Nat} (e : x.toNat = n) (hx : x > k) : k.toNat < n := by rw [← e]; exact (u8_gt x k) ▸ hx
  refine chain_sound (fun hc => holds_at 0 rfl ⟨z hl.acasStatus hc.1, nz hl.acasHybridSurveillanceCapability hc.2⟩) fun _ =>
    chain_sound (fun hc => holds_at 1 rfl ⟨z hl.acasStatus hc.1, nz hl.acasGenerationCapability hc.2⟩) fun _ =>
    chain_sound (fun hc => holds_at 2 rfl ⟨z hl.acasStatus hc.1, nz hl.acasApplicableDocument hc.2⟩) fun _ =>
    chain_sound (fun hc => holds_at 3 rfl ?_) fun _ => chain_sound (fun hc => holds_at 4 rfl ?_) fun _ =>
    chain_sound (fun hc => holds_at 5 rfl ?_) fun _ => chain_sound (fun hc => holds_at 6 rfl ?_) fun _ => chain_end
  · have : 2 < bits d 39 40 := gt hl.acasApplicableDocument hc.2
    show bits d 39 40 = 3
    omega
  · exact gt hl.modeSSubnetworkVersion hc
  · have : 6 < bits d 26 28 := gt hl.uplinkELMThroughputCapability hc
    show bits d 26 28 = 7
    omega
  · exact gt hl.downlinkELMThroughputCapability hc

/-- C103. A track and turn report (BDS 5,0). -/
theorem bds50_incoherence (d : List UInt8) (m : TrackAndTurnReport) (h : readBDS50 d = .ok m) :
    ∀ t, m.incoherence = some t → TrueIn (reasons50 d) t := by
  have hl := bds50_content d m h
  have h7 : d.length = 7 := (bds50_60_accept d).1.1 ⟨m, h⟩
  refine chain_sound (fun hc => holds_at 0 rfl ?_) fun _ =>
    chain_sound (fun hc => holds_at 1 rfl (given hl.rollAngleStatus (signed_not hl.rollAngle (by omega) (by omega)) hc)) fun _ =>
    chain_sound (fun hc => holds_at 2 rfl (given hl.trueTrackAngleStatus (signed_not hl.trueTrackAngle (by omega) (by omega)) hc)) fun _ =>
    chain_sound (fun hc => holds_at 3 rfl (given hl.groundSpeedStatus (fun h0 => u32_not hl.groundSpeed (by rw [h0])) hc)) fun _ =>
    chain_sound (fun hc => holds_at 4 rfl (given hl.trackAngleRateStatus (signed_not hl.trackAngleRate (by omega) (by omega)) hc)) fun _ =>
    chain_sound (fun hc => holds_at 5 rfl (given hl.trueAirSpeedStatus (fun h0 => u32_not hl.trueAirSpeed (by rw [h0])) hc)) fun _ =>
    chain_sound (fun hc => holds_at 6 rfl ?_) fun _ => chain_sound (fun hc => holds_at 7 rfl ?_) fun _ =>
    chain_sound (fun hc => holds_at 8 rfl ?_) fun _ => ?_
  · rw [hl.rollAngleStatus, hl.trueTrackAngleStatus, hl.groundSpeedStatus, hl.trackAngleRateStatus, hl.trueAirSpeedStatus] at hc
    simpa using hc
  · rw [hl.rollAngle] at hc
    show 50 * 256 < |sbits d 2 11| * 45
    have : (50 : ℚ) * 256 < |(sbits d 2 11 : ℚ)| * 45 := by
      rcases hc with hc | hc
      · have := le_abs_self (sbits d 2 11 : ℚ); linarith
      · have := neg_abs_le (sbits d 2 11 : ℚ); linarith
    exact_mod_cast this
  · rw [gt_iff_lt, UInt32.lt_iff_toNat_lt, hl.groundSpeed] at hc; exact hc
  · rw [gt_iff_lt, UInt32.lt_iff_toNat_lt, hl.trueAirSpeed] at hc; exact hc
  · refine chain_sound (fun hc => holds_at 9 rfl ?_) fun _ => chain_end
    rw [hl.groundSpeed, hl.trueAirSpeed] at hc
    push_cast at hc
    show (200 : Int) < |2 * (bits d 25 34 : Int) - 2 * (bits d 47 56 : Int)|
    rw [lt_abs]; omega

/-- C103. A heading and speed report (BDS 6,0). -/
theorem bds60_incoherence (d : List UInt8) (m : HeadingAndTrackReport) (h : readBDS60 d = .ok m) :
    ∀ t, m.incoherence = some t → TrueIn (reasons60 d) t := by
  have hl := bds60_content d m h
  have h7 : d.length = 7 := (bds50_60_accept d).2.2.1.1 ⟨m, h⟩
  refine chain_sound (fun hc => holds_at 0 rfl ?_) fun _ =>
    chain_sound (fun hc => holds_at 1 rfl (given hl.magneticHeadingStatus (signed_not hl.magneticHeading (by omega) (by omega)) hc)) fun _ =>
    chain_sound (fun hc => holds_at 2 rfl (given hl.indicatedAirSpeedStatus (u32_not hl.indicatedAirSpeed) hc)) fun _ =>
    chain_sound (fun hc => holds_at 3 rfl (given hl.machStatus (fun h0 hx => hx (hl.mach_zero.2 h0)) hc)) fun _ =>
    chain_sound (fun hc => holds_at 4 rfl (given hl.barometricAltitudeRateStatus
      (signedInt_not hl.barometricAltitudeRate (by omega) (by omega)) hc)) fun _ =>
    chain_sound (fun hc => holds_at 5 rfl (given hl.initialVerticalVelocityStatus
      (signedInt_not hl.initialVerticalVelocity (by omega) (by omega)) hc)) fun _ =>
    chain_sound (fun hc => holds_at 6 rfl ?_) fun _ => chain_sound (fun hc => holds_at 7 rfl ?_) fun _ =>
    chain_sound (fun hc => holds_at 8 rfl ?_) fun _ => chain_sound (fun hc => holds_at 9 rfl ?_) fun _ => chain_end
  · rw [hl.magneticHeadingStatus, hl.indicatedAirSpeedStatus, hl.machStatus, hl.barometricAltitudeRateStatus,
      hl.initialVerticalVelocityStatus] at hc
    simpa using hc
  · rw [gt_iff_lt, UInt32.lt_iff_toNat_lt, hl.indicatedAirSpeed] at hc; exact hc
  · have := hl.mach_one.not.1 (not_le.2 hc)
    show 1000 < 4 * bits d 25 34
    omega
  · rw [hl.barometricAltitudeRate] at hc
    show 6000 < |sbits d 36 45| * 32
    have h1 := le_abs_self (sbits d 36 45)
    have h2 := neg_abs_le (sbits d 36 45)
    omega
  · rw [hl.initialVerticalVelocity] at hc
    show 6000 < |sbits d 47 56| * 32
    have h1 := le_abs_self (sbits d 47 56)
    have h2 := neg_abs_le (sbits d 47 56)
    omega

theorem wider {d : List UInt8} (h7 : d.length = 7) (i j a b : Nat) (hj : j ≤ 56) (h1 : i ≤ a) (h2 : b ≤ j) (h : bits d i j = 0) : bits d a b = 0 :=
  zero_sub_of d h7 i j a b hj h h1 h2

/-- C103. A routine air report (BDS 4,4) of version 1, given that the turbulence flag is not set: `bds44_reasons_refuted`. -/
theorem bds44V1_incoherence_partial (d : List UInt8) (m : RoutineAirReportV1) (h : readBDS44V1 d = .ok m) (h48 : bit d 48 = false) :
    ∀ t, m.incoherence = some t → TrueIn (reasons44 d) t := by
  have hl := (bds44_content_partial d).2.1 m h
  have h7 : d.length = 7 := by
    rcases bds44V1_eval d with ⟨e, -⟩ | ⟨h7, -⟩
    · rw [e] at h; cases h
    · exact h7.1
  have w := wider h7 6 14 7 14 (by decide) (by decide) (by decide)
  refine chain_sound (fun hc => holds_at 0 rfl ?_) fun _ =>
    chain_sound (fun hc => holds_at 2 rfl (given hl.windSpeedStatus (fun h0 => u32_not hl.windSpeed (w h0)) hc)) fun _ =>
    chain_sound (fun hc => holds_at 3 rfl (given hl.windDirectionStatus (unsigned_not hl.windDirection) hc)) fun _ =>
    chain_sound (fun hc => holds_at 4 rfl (given hl.staticAirTemperatureStatus
      (signed_not hl.staticAirTemperature (by omega) (by omega)) hc)) fun _ =>
    chain_sound (fun hc => holds_at 5 rfl (given hl.averageStaticPressureStatus (u32_not hl.averageStaticPressure) hc)) fun _ =>
    chain_sound (fun hc => holds_at 6 rfl (given hl.humidityStatus
      (unsigned_not (q := 1) (by rw [hl.humidity, mul_one])) hc)) fun _ =>
    chain_sound (fun hc => holds_at 7 rfl ?_) fun _ => chain_sound (fun hc => holds_at 8 rfl ?_) fun _ => chain_end
  · rw [hl.windSpeedStatus, hl.windDirectionStatus, hl.staticAirTemperatureStatus, hl.averageStaticPressureStatus, hl.humidityStatus] at hc
    simpa [h48] using hc
  · rw [gt_iff_lt, UInt32.lt_iff_toNat_lt, hl.windSpeed] at hc
    have := bits_6_14 d h7
    show 250 < bits d 6 14
    have : (250 : UInt32).toNat = 250 := rfl
    have : bits d 6 6 < 2 := by unfold bits; exact Nat.mod_lt _ (by decide)
    omega
  · exact temperature_out (k := 8) (by decide) (by rw [hl.staticAirTemperature]; push_cast; ring) hc

/-- C103. Version 2, likewise. -/
theorem bds44V2_incoherence_partial (d : List UInt8) (m : RoutineAirReportV2) (h : readBDS44V2 d = .ok m) (h48 : bit d 48 = false) :
    ∀ t, m.incoherence = some t → TrueIn (reasons44 d) t := by
  have hl := (bds44_content_partial d).2.2 m h
  have h7 : d.length = 7 := by
    rcases bds44V2_eval d with ⟨e, -⟩ | ⟨h7, -⟩
    · rw [e] at h; cases h
    · exact h7
  have w := wider h7 6 14 7 14 (by decide) (by decide) (by decide)
  refine chain_sound (fun hc => holds_at 1 rfl ?_) fun _ => chain_sound (fun hc => holds_at 0 rfl ?_) fun _ =>
    chain_sound (fun hc => holds_at 2 rfl (given hl.windSpeedStatus (fun h0 => u32_not hl.windSpeed (w h0)) hc)) fun _ =>
    chain_sound (fun hc => holds_at 3 rfl (given hl.windDirectionStatus (unsigned_not hl.windDirection) hc)) fun _ =>
    chain_sound (fun hc => holds_at 4 rfl (given hl.staticAirTemperatureStatus
      (signed_not hl.staticAirTemperature (by omega) (by omega)) hc)) fun _ =>
    chain_sound (fun hc => holds_at 5 rfl (given hl.averageStaticPressureStatus (u32_not hl.averageStaticPressure) hc)) fun _ =>
    chain_sound (fun hc => holds_at 6 rfl (given hl.humidityStatus
      (unsigned_not (q := 1) (by rw [hl.humidity, mul_one])) hc)) fun _ =>
    chain_sound (fun hc => holds_at 7 rfl ?_) fun _ => chain_sound (fun hc => holds_at 8 rfl ?_) fun _ => chain_end
  · rw [ge_iff_le, UInt8.le_iff_toNat_le, hl.source] at hc; exact hc
  · rw [hl.windSpeedStatus, hl.windDirectionStatus, hl.staticAirTemperatureStatus, hl.averageStaticPressureStatus, hl.humidityStatus] at hc
    simpa [h48] using hc
  · rw [gt_iff_lt, UInt32.lt_iff_toNat_lt, hl.windSpeed] at hc
    have := bits_6_14 d h7
    show 250 < bits d 6 14
    have : (250 : UInt32).toNat = 250 := rfl
    have : bits d 6 6 < 2 := by unfold bits; exact Nat.mod_lt _ (by decide)
    omega
  · exact temperature_out (k := 8) (by decide) (by rw [hl.staticAirTemperature]; push_cast; ring) hc

/-- C103 refuted for the turbulence flag of BDS 4,4: a routine air report whose turbulence flag is set, and nothing else, is judged to convey no
information. -/
theorem bds44_reasons_refuted :
    (∃ d m, readBDS44V1 d = .ok m ∧ m.incoherence = some (t! "the message does not convey any information") ∧ bit d 48 = true) ∧
    (∃ d m, readBDS44V2 d = .ok m ∧ m.incoherence = some (t! "the message does not convey any information") ∧ bit d 48 = true) := by
  constructor
  · rcases bds44V1_eval [0, 0, 0, 0, 0, 1, 0] with ⟨-, n⟩ | ⟨-, m, e, hl⟩
    · exact absurd (by decide) n
    · refine ⟨_, m, e, ?_, by decide⟩
      unfold RoutineAirReportV1.incoherence
      rw [if_pos]
      rw [hl.windSpeedStatus, hl.windDirectionStatus, hl.staticAirTemperatureStatus, hl.averageStaticPressureStatus, hl.humidityStatus]
      decide
  · rcases bds44V2_eval [0x10, 0, 0, 0, 0, 1, 0] with ⟨-, n⟩ | ⟨-, m, e, hl⟩
    · exact absurd (by decide) n
    · refine ⟨_, m, e, ?_, by decide⟩
      unfold RoutineAirReportV2.incoherence
      rw [if_neg, if_pos]
      · rw [hl.windSpeedStatus, hl.windDirectionStatus, hl.staticAirTemperatureStatus, hl.averageStaticPressureStatus, hl.humidityStatus]
        decide
      · rw [ge_iff_le, UInt8.le_iff_toNat_le, hl.source]; decide

/-- C103. Version 0 of BDS 4,4: the reasons are true, except the first and the last (`bds44V0_reasons_refuted`). -/
theorem bds44V0_incoherence_partial (d : List UInt8) (m : RoutineAirReportV0) (h : readBDS44V0 d = .ok m) :
    ∀ t, m.incoherence = some t → t ≠ t! "the message does not convey any information" →
      t ≠ t! "the static air temperature is to high or to low (-80 <= temp <= 60)" → TrueIn (reasons44V0 d) t := by
  have hl := (bds44_content_partial d).1 m h
  have h7 : d.length = 7 := by
    rcases bds44V0_eval d with ⟨e, -⟩ | ⟨h7, -⟩
    · rw [e] at h; cases h
    · exact h7
  have w := wider h7 6 14 7 14 (by decide) (by decide) (by decide)
  refine chain_sound (fun _ h1 => absurd rfl h1) fun _ => chain_sound (fun hc _ _ => holds_at 1 rfl ?_) fun _ =>
    chain_sound (fun hc _ _ => holds_at 2 rfl (given hl.windSpeedStatus (fun h0 => u32_not hl.windSpeed (w h0)) hc)) fun _ =>
    chain_sound (fun hc _ _ => holds_at 3 rfl (given hl.windDirectionStatus (unsigned_not hl.windDirection) hc)) fun _ =>
    chain_sound (fun hc _ _ => holds_at 4 rfl (given hl.averageStaticPressureStatus (u32_not hl.averageStaticPressure) hc)) fun _ =>
    chain_sound (fun hc _ _ => holds_at 5 rfl (given hl.humidityStatus (unsigned_not hl.humidity) hc)) fun _ =>
    chain_sound (fun hc _ _ => holds_at 6 rfl ?_) fun _ => chain_sound (fun _ _ h1 => absurd rfl h1) fun _ => chain_end
  · rw [ge_iff_le, UInt8.le_iff_toNat_le, hl.source] at hc; exact hc
  · rw [gt_iff_lt, UInt32.lt_iff_toNat_lt, hl.windSpeed] at hc
    have := bits_6_14 d h7
    show 250 < bits d 6 14
    have : (250 : UInt32).toNat = 250 := rfl
    have : bits d 6 6 < 2 := by unfold bits; exact Nat.mod_lt _ (by decide)
    omega

/-- C103 refuted for version 0 of BDS 4,4: a report of a temperature of 25 degrees, and nothing else, is judged to convey no information; with a
wind as well, the temperature is judged out of -80 to 60. -/
theorem bds44V0_reasons_refuted :
    (∃ d m, readBDS44V0 d = .ok m ∧ m.incoherence = some (t! "the message does not convey any information") ∧ sbits d 24 34 = 25 * 4) ∧
    (∃ d m, readBDS44V0 d = .ok m ∧
      m.incoherence = some (t! "the static air temperature is to high or to low (-80 <= temp <= 60)") ∧ sbits d 24 34 = 25 * 4) := by
  constructor
  · rcases bds44V0_eval [0x10, 0, 0, 0x19, 0, 0, 0] with ⟨-, n⟩ | ⟨-, m, e, hl⟩
    · exact absurd (by decide) n
    · refine ⟨_, m, e, ?_, by decide⟩
      unfold RoutineAirReportV0.incoherence
      rw [if_pos]
      rw [hl.windSpeedStatus, hl.windDirectionStatus, hl.averageStaticPressureStatus, hl.turbulenceStatus, hl.humidityStatus]
      decide
  · rcases bds44V0_eval [0x18, 0x50, 0, 0x19, 0, 0, 0] with ⟨-, n⟩ | ⟨-, m, e, hl⟩
    · exact absurd (by decide) n
    · refine ⟨_, m, e, ?_, by decide⟩
      have e1 : m.windSpeedStatus = true := by rw [hl.windSpeedStatus]; decide
      have e2 : m.windDirectionStatus = true := by rw [hl.windDirectionStatus]; decide
      have e3 : m.averageStaticPressure = 0 := (u32_zero_iff _).2 (by rw [hl.averageStaticPressure]; decide)
      have e4 : m.humidity = 0 := by rw [hl.humidity, show bits [0x18, 0x50, 0, 0x19, 0, 0, 0] 51 56 = 0 by decide]; simp
      have e5 : ¬ m.source ≥ 5 := by rw [ge_iff_le, UInt8.le_iff_toNat_le, hl.source]; decide
      have e6 : ¬ m.windSpeed > 250 := by rw [gt_iff_lt, UInt32.lt_iff_toNat_lt, hl.windSpeed]; decide
      have e7 : m.staticAirTemperature = -103 := by
        rw [hl.staticAirTemperature, show bits [0x18, 0x50, 0, 0x19, 0, 0, 0] 25 34 = 100 by decide,
          show bit [0x18, 0x50, 0, 0x19, 0, 0, 0] 32 = true by decide]
        norm_num
      unfold RoutineAirReportV0.incoherence
      simp only [e1, e2, e3, e4, e5, e6, e7, Bool.not_true, Bool.false_eq_true, false_and, and_false, ne_eq, not_true_eq_false, if_false]
      norm_num

/-- C103. A hazard report (BDS 4,5) of the older version. -/
theorem bds45V0_incoherence (d : List UInt8) (m : HazardReportV0) (h : readBDS45V0 d = .ok m) :
    ∀ t, m.incoherence = some t → TrueIn (reasons45V0 d) t := by
  have hl := (bds45_content d).1 m h
  have h7 : d.length = 7 := by
    rcases bds45V0_eval d with ⟨e, -⟩ | ⟨h7, -⟩
    · rw [e] at h; cases h
    · exact h7.1
  refine chain_sound (fun hc => holds_at 0 rfl ?_) fun _ =>
    chain_sound (fun hc => holds_at 1 rfl (given hl.turbulenceStatus (u8_not hl.turbulence) hc)) fun _ =>
    chain_sound (fun hc => holds_at 2 rfl (given hl.windShearStatus (u8_not hl.windShear) hc)) fun _ =>
    chain_sound (fun hc => holds_at 3 rfl (given hl.microBurstStatus (u8_not hl.microBurst) hc)) fun _ =>
    chain_sound (fun hc => holds_at 4 rfl (given hl.icingStatus (u8_not hl.icing) hc)) fun _ =>
    chain_sound (fun hc => holds_at 5 rfl (given hl.wakeVortexStatus (u8_not hl.wakeVortex) hc)) fun _ =>
    chain_sound (fun hc => holds_at 6 rfl (given hl.staticAirTemperatureStatus
      (signed_not hl.staticAirTemperature (by omega) (by omega)) hc)) fun _ =>
    chain_sound (fun hc => holds_at 7 rfl (given hl.averageStaticPressureStatus (u32_not hl.averageStaticPressure) hc)) fun _ =>
    chain_sound (fun hc => holds_at 8 rfl (given hl.radioHeightStatus (fun h0 => u32_not hl.radioHeight (by rw [h0])) hc)) fun _ =>
    chain_sound (fun hc => holds_at 9 rfl ?_) fun _ => chain_end
  · rw [hl.turbulenceStatus, hl.windShearStatus, hl.microBurstStatus, hl.icingStatus, hl.wakeVortexStatus, hl.staticAirTemperatureStatus,
      hl.averageStaticPressureStatus, hl.radioHeightStatus] at hc
    simpa using hc
  · exact temperature_out (k := 4) (by decide) (by rw [hl.staticAirTemperature]; push_cast; ring) hc

/-- C103. The newer version. -/
theorem bds45V1_incoherence (d : List UInt8) (m : HazardReportV1) (h : readBDS45V1 d = .ok m) :
    ∀ t, m.incoherence = some t → TrueIn (reasons45V1 d) t := by
  have hl := (bds45_content d).2 m h
  have h7 : d.length = 7 := by
    rcases bds45V1_eval d with ⟨e, -⟩ | ⟨h7, -⟩
    · rw [e] at h; cases h
    · exact h7.1
  refine chain_sound (fun hc => holds_at 0 rfl ?_) fun _ =>
    chain_sound (fun hc => holds_at 1 rfl (given hl.turbulenceStatus (fun h0 hx => ?_) hc)) fun _ =>
    chain_sound (fun hc => holds_at 2 rfl (given hl.windShearStatus (u8_not hl.windShear) hc)) fun _ =>
    chain_sound (fun hc => holds_at 3 rfl (given hl.microBurstStatus (u8_not hl.microBurst) hc)) fun _ =>
    chain_sound (fun hc => holds_at 4 rfl (given hl.icingStatus (u8_not hl.icing) hc)) fun _ =>
    chain_sound (fun hc => holds_at 5 rfl (given hl.wakeVortexStatus (u8_not hl.wakeVortex) hc)) fun _ =>
    chain_sound (fun hc => holds_at 6 rfl ?_) fun _ =>
    chain_sound (fun hc => absurd hl.averageStaticPressure hc.2) fun _ =>
    chain_sound (fun hc => holds_at 8 rfl (given hl.radioHeightStatus (fun h0 => u32_not hl.radioHeight (by rw [h0])) hc)) fun _ => chain_end
  · rw [hl.turbulenceStatus, hl.windShearStatus, hl.microBurstStatus, hl.icingStatus, hl.wakeVortexStatus, hl.staticAirTemperatureStatus,
      hl.averageStaticPressureStatus, hl.radioHeightStatus] at hc
    simp only [Bool.not_eq_true', Bool.not_false, true_and] at hc
    obtain ⟨c1, c2, c3, c4, c5, c6, c7⟩ := hc
    exact ⟨c2, c3, c4, c5, c6, c7, c1⟩
  · rcases hx with hx | hx | hx
    · exact hx (hl.averageEDR_zero (wider h7 39 54 39 44 (by decide) (by decide) (by decide) h0))
    · exact hx (hl.peakEDR_zero (wider h7 39 54 45 50 (by decide) (by decide) (by decide) h0))
    · exact u8_not hl.peakDelay (wider h7 39 54 51 54 (by decide) (by decide) (by decide) h0) hx
  · rw [hl.staticAirTemperatureStatus] at hc
    exact ⟨hc.1, temperature_out (k := 8) (by decide) (by rw [hl.staticAirTemperature]; push_cast; ring) hc.2⟩

/-- C103. What the coherency check of BDS 4,0 really tests. -/
theorem bds40_reason_actual (d : List UInt8) (m : SelectedVerticalIntention) (h : readBDS40 d = .ok m) :
    m.incoherence =
      if bit d 1 = false ∧ bit d 14 = false then some (t! "the message does not convey any information")
      else if bit d 1 = false ∧ bits d 15 26 ≠ 0 then
        some (t! "the MCP/FCU SelectedAltitude status is set to false, but a MCP/FCU SelectedAltitude value is given")
      else if bit d 14 = false ∧ bits d 2 13 ≠ 0 then
        some (t! "the FMS SelectedAltitude status is set to false, but a FMS SelectedAltitude value is given")
      else if bit d 1 = false then
        some (t! "the BarometricPressureSetting status is set to false, but a BarometricPressureSetting value is given")
      else none := by
  have hl : SelectedVerticalIntention.Actual d m ∧ 799 < m.barometricPressureSetting := by
    rcases bds40_eval d with ⟨e, -⟩ | ⟨-, m', e, h1⟩
    · rw [e] at h; cases h
    · rw [e] at h; cases h; exact h1
  obtain ⟨hl, hb⟩ := hl
  have hb' : m.barometricPressureSetting ≠ 0 := by intro h0; rw [h0] at hb; norm_num at hb
  have e1 : m.mcpfcuSelectedAltitude ≠ 0 ↔ bits d 15 26 ≠ 0 := by rw [Ne, u32_zero_iff, hl.mcpfcuSelectedAltitude]; omega
  have e2 : m.fmsSelectedAltitude ≠ 0 ↔ bits d 2 13 ≠ 0 := by rw [Ne, u32_zero_iff, hl.fmsSelectedAltitude]; omega
  unfold SelectedVerticalIntention.incoherence
  rw [hl.mcpfcuSelectedAltitudeAvailable, hl.fmsSelectedAltitudeAvailable, hl.barometricPressureSettingAvailable]
  simp only [e1, e2, hb', ne_eq, not_false_eq_true, and_true, Bool.not_eq_true']
  cases bit d 1 <;> cases bit d 14 <;> simp

/-- C103. BDS 4,0: the reasons are true when both altitudes are given or neither, the pressure setting is given exactly when the first altitude
is and it is not zero, and there are neither mode bits nor a target altitude source. Missing: the general case, as the code has the places of the
two altitudes swapped and takes the status of the pressure setting from another place: `bds40_reasons_refuted`. -/
theorem bds40_incoherence_partial (d : List UInt8) (m : SelectedVerticalIntention) (h : readBDS40 d = .ok m)
    (ha : bits d 2 13 = 0 ↔ bits d 15 26 = 0) (hp : bit d 27 = bit d 1) (hz : bits d 28 39 ≠ 0) (h48 : bit d 48 = false)
    (h54 : bit d 54 = false) : ∀ t, m.incoherence = some t → TrueIn (reasons40 d) t := by
  rw [bds40_reason_actual d m h]
  refine chain_sound (fun hc => holds_at 0 rfl ⟨hc.1, hc.2, hp.trans hc.1, h48, h54⟩) fun _ =>
    chain_sound (fun hc => holds_at 1 rfl ⟨hc.1, fun h0 => hc.2 (ha.1 h0)⟩) fun _ =>
    chain_sound (fun hc => holds_at 2 rfl ⟨hc.1, fun h0 => hc.2 (ha.2 h0)⟩) fun _ =>
    chain_sound (fun hc => holds_at 3 rfl ⟨hp.trans hc, hz⟩) fun _ => chain_end

/-- C103 refuted for BDS 4,0. A register with only a pressure setting, or only the mode bits, "does not convey any information"; one with only an
FMS altitude is told to give an MCP/FCU altitude without its status, and the other way round; one with an FMS altitude of zero is told to give a
pressure setting without its status although its 13 bits are zero. -/
theorem bds40_reasons_refuted :
    (∃ d m, readBDS40 d = .ok m ∧ m.incoherence = some (t! "the message does not convey any information") ∧ bit d 27 = true) ∧
    (∃ d m, readBDS40 d = .ok m ∧ m.incoherence = some (t! "the message does not convey any information") ∧ bit d 48 = true) ∧
    (∃ d m, readBDS40 d = .ok m ∧
      m.incoherence = some (t! "the MCP/FCU SelectedAltitude status is set to false, but a MCP/FCU SelectedAltitude value is given") ∧
      bits d 2 13 = 0) ∧
    (∃ d m, readBDS40 d = .ok m ∧
      m.incoherence = some (t! "the FMS SelectedAltitude status is set to false, but a FMS SelectedAltitude value is given") ∧
      bits d 15 26 = 0) ∧
    (∃ d m, readBDS40 d = .ok m ∧
      m.incoherence = some (t! "the BarometricPressureSetting status is set to false, but a BarometricPressureSetting value is given") ∧
      bits d 27 39 = 0) := by
  have k (d : List UInt8) (hd : Accepted40 d) (q : Prop) (t : Txt) (hq : q)
      (ht : (if bit d 1 = false ∧ bit d 14 = false then some (t! "the message does not convey any information")
        else if bit d 1 = false ∧ bits d 15 26 ≠ 0 then
          some (t! "the MCP/FCU SelectedAltitude status is set to false, but a MCP/FCU SelectedAltitude value is given")
        else if bit d 14 = false ∧ bits d 2 13 ≠ 0 then
          some (t! "the FMS SelectedAltitude status is set to false, but a FMS SelectedAltitude value is given")
        else if bit d 1 = false then
          some (t! "the BarometricPressureSetting status is set to false, but a BarometricPressureSetting value is given")
        else none) = some t) : ∃ m, readBDS40 d = .ok m ∧ m.incoherence = some t ∧ q := by
    obtain ⟨m, hm⟩ := (bds40_accepts d).1.2 hd
    exact ⟨m, hm, by rw [bds40_reason_actual d m hm, ht], hq⟩
  refine ⟨⟨[0, 0, 0, 0x30, 0xA6, 0, 0], k _ (by decide) _ _ (by decide) (by decide +kernel)⟩,
    ⟨[0, 0, 0, 0, 0, 1, 0x80], k _ (by decide) _ _ (by decide) (by decide +kernel)⟩,
    ⟨[0, 0x07, 0xD0, 0, 0, 0, 0], k _ (by decide) _ _ (by decide) (by decide +kernel)⟩,
    ⟨[0xBE, 0x80, 0, 0, 0, 0, 0], k _ (by decide) _ _ (by decide) (by decide +kernel)⟩,
    ⟨[0, 0x04, 0, 0, 0, 0, 0], k _ (by decide) _ _ (by decide) (by decide +kernel)⟩⟩

/-- C103. An aircraft status (BDS 6,1), but for the value 6: `bds61_reasons_refuted`. -/
theorem bds61_incoherence_partial (d : List UInt8) (m : AircraftStatus) (h : readBDS61 d = .ok m) (h6 : bits d 9 11 ≠ 6) :
    ∀ t, m.incoherence = some t → TrueIn (reasons61 d) t := by
  have hc := status_content d m h
  have l8 : bits d 9 11 < 8 := by unfold bits; exact Nat.mod_lt _ (by decide)
  cases m with
  | noInformation m =>
    refine chain_sound (fun hx => holds_at 0 rfl ?_) fun _ => chain_end
    exact fun h0 => hx ((u8_zero_iff _).2 (hc.2.2.2.trans h0))
  | emergency m =>
    refine chain_sound (fun hx => holds_at 1 rfl ?_) fun _ => chain_end
    rw [u8_gt, hc.2.2.2.1] at hx
    have : (5 : UInt8).toNat = 5 := rfl
    show bits d 9 11 = 7
    omega
  | acas m => exact chain_end

/-- C103 refuted for BDS 6,1: a downed aircraft is reported with a reserved value of the status, says the check; the text of the same message names
the value. -/
theorem bds61_reasons_refuted :
    ∃ d m, readBDS61 d = .ok (.emergency m) ∧
      (AircraftStatus.emergency m).incoherence = some (t! "field EmergencyPriorityStatus is a Reserved value") ∧
      Text.bds61EmergencyPriorityStatus m.emergencyPriorityStatus = t! "6 - downed aircraft" := by
  obtain ⟨m, hm⟩ := (status_accepts_partial [0xE1, 0xC2, 0xB6, 0, 0, 0, 0]).1.2 ⟨by decide, by decide, Or.inr (Or.inl (by decide))⟩
  have hc := status_content _ m hm
  cases m with
  | noInformation m => exact absurd hc.1 (by decide)
  | acas m => exact absurd hc.1 (by decide)
  | emergency m =>
    have e6 : m.emergencyPriorityStatus = 6 := UInt8.toNat_inj.1 (by rw [hc.2.2.2.1]; decide)
    refine ⟨_, m, hm, ?_, ?_⟩
    · show (if m.emergencyPriorityStatus > 5 then _ else _) = _
      rw [e6]; decide
    · rw [e6]; decide

end Modes
