import Verif.Model.ReaderErrors
import Verif.Spec.ReaderReasons
import Verif.Props.Direct
import Verif.Props.Velocity
import Verif.Props.Reasons
import Verif.Props.TextModeS
/-!
# C104: the reason a reader of ADS-B messages gives is true, whatever it is called with
-/
set_option linter.unusedSimpArgs false
open Spec
namespace Modes

/-! ### The three first checks of the readers of one kind -/

theorem tc_head (d : List UInt8) (h7 : d.length = 7) : ((byteAt d 0 &&& 0xF8) >>> 3).toNat = bits d 1 5 := by
  obtain ⟨b0, b1, b2, b3, b4, b5, b6, rfl⟩ := list7 d h7
  exact tc_byte b0 b1 b2 b3 b4 b5 b6

theorem st_head (d : List UInt8) (h7 : d.length = 7) : (byteAt d 0 &&& 0x07).toNat = bits d 6 8 := by
  obtain ⟨b0, b1, b2, b3, b4, b5, b6, rfl⟩ := list7 d h7
  exact st_byte b0 b1 b2 b3 b4 b5 b6

theorem st2_head (d : List UInt8) (h7 : d.length = 7) : ((byteAt d 0 &&& 0x06) >>> 1).toNat = bits d 6 7 := by
  obtain ⟨b0, b1, b2, b3, b4, b5, b6, rfl⟩ := list7 d h7
  change ((b0 &&& 0x06) >>> 1).toNat = _
  byte_omega

theorem vn_head (d : List UInt8) (h7 : d.length = 7) : ((byteAt d 5 &&& 0xE0) >>> 5).toNat = bits d 41 43 := by
  obtain ⟨b0, b1, b2, b3, b4, b5, b6, rfl⟩ := list7 d h7
  change ((b5 &&& 0xE0) >>> 5).toNat = _
  byte_omega

theorem kind_none {d : List UInt8} {code wanted subtype : UInt8} {said : Nat} {name reader : Txt} {rest : Option Txt} (last : Nat)
    (hs : d.length = 7 → subtype.toNat = bits d 6 last) :
    kindError d code said subtype wanted name reader rest = none ↔
      d.length = 7 ∧ bits d 1 5 = code.toNat ∧ bits d 6 last = wanted.toNat ∧ rest = none := by
  unfold kindError
  simp only [some_ite_none, not_not]
  constructor
  · rintro ⟨h7, h1, h2, h3⟩
    exact ⟨h7, by rw [← tc_head d h7, h1], by rw [← hs h7, h2], h3⟩
  · rintro ⟨h7, h1, h2, h3⟩
    exact ⟨h7, UInt8.toNat_inj.1 ((tc_head d h7).trans h1), UInt8.toNat_inj.1 ((hs h7).trans h2), h3⟩

theorem trueIn_left {a b : List (List Char × Prop)} {t : List Char} (h : TrueIn a t) : TrueIn (a ++ b) t := by
  obtain ⟨p, hm, hp⟩ := h
  exact ⟨p, List.mem_append_left _ hm, hp⟩

theorem trueIn_right {a b : List (List Char × Prop)} {t : List Char} (h : TrueIn b t) : TrueIn (a ++ b) t := by
  obtain ⟨p, hm, hp⟩ := h
  exact ⟨p, List.mem_append_right _ hm, hp⟩

theorem kind_some {d : List UInt8} {code wanted subtype : UInt8} {said : Nat} {name reader : Txt} {rest : Option Txt} {last : Nat}
    {names : Nat → List Char} {extra : List (List Char × Prop)}
    (hs : d.length = 7 → subtype.toNat = bits d 6 last) (hn : d.length = 7 → name = names (bits d 6 last))
    (hsaid : said = code.toNat ∨ (d.length = 7 → bits d 1 5 = code.toNat))
    (hr : d.length = 7 → bits d 6 last = wanted.toNat → ∀ t, rest = some t → TrueIn extra t) :
    ∀ t, kindError d code said subtype wanted name reader rest = some t →
      TrueIn (kindReasons d code.toNat last wanted.toNat names reader ++ extra) t := by
  unfold kindError
  refine chain_sound (fun h => trueIn_left (holds_at 0 rfl h)) fun h7 => ?_
  rw [not_not] at h7
  refine chain_sound (fun h => ?_) fun _ => chain_sound (fun h => ?_) fun h2 => ?_
  · have hne : bits d 1 5 ≠ code.toNat := fun h' => h (UInt8.toNat_inj.1 ((tc_head d h7).trans h'))
    rcases hsaid with hsaid | hc
    · subst hsaid
      refine trueIn_left ⟨_, ?_, hne⟩
      rw [tc_head d h7]
      exact List.mem_of_getElem? (i := 1) rfl
    · exact absurd (hc h7) hne
  · rw [hn h7]
    exact trueIn_left (holds_at 2 rfl fun h' => h (UInt8.toNat_inj.1 ((hs h7).trans h')))
  · rw [not_not] at h2
    exact fun t ht => trueIn_right (hr h7 (by rw [← hs h7, h2]) t ht)

/-! ### Names -/

theorem small_byte {n : Nat} {b : UInt8} (h : b.toNat = n) : b = UInt8.ofNat n := by rw [← h, UInt8.ofNat_toNat]

theorem bits_lt8 (d : List UInt8) (a : Nat) : bits d a (a + 2) < 8 := by
  unfold bits
  have e : a + 2 + 1 - a = 3 := by omega
  rw [e]
  exact Nat.mod_lt _ (by norm_num)

theorem velocityName_eq (d : List UInt8) (h7 : d.length = 7) : Text.bds09Subtype (byteAt d 0 &&& 0x07) = velocityName (bits d 6 8) := by
  have hl : bits d 6 8 < 8 := bits_lt8 d 6
  rw [small_byte (st_head d h7)]
  generalize bits d 6 8 = n at hl
  interval_cases n <;> rfl

theorem statusName_eq (d : List UInt8) (h7 : d.length = 7) : Text.bds61Subtype (byteAt d 0 &&& 0x07) = statusName (bits d 6 8) := by
  have hl : bits d 6 8 < 8 := bits_lt8 d 6
  rw [small_byte (st_head d h7)]
  generalize bits d 6 8 = n at hl
  interval_cases n <;> rfl

theorem operationalName_eq (d : List UInt8) (h7 : d.length = 7) : Text.bds65Subtype (byteAt d 0 &&& 0x07) = operationalName (bits d 6 8) := by
  have hl : bits d 6 8 < 8 := bits_lt8 d 6
  rw [small_byte (st_head d h7)]
  generalize bits d 6 8 = n at hl
  interval_cases n <;> rfl

theorem targetStateName_eq (d : List UInt8) (h7 : d.length = 7) :
    Text.bds62Subtype ((byteAt d 0 &&& 0x06) >>> 1) = targetStateName (bits d 6 7) := by
  have hl : bits d 6 7 < 4 := by unfold bits; exact Nat.mod_lt _ (by norm_num)
  rw [small_byte (st2_head d h7)]
  generalize bits d 6 7 = n at hl
  interval_cases n <;> rfl

theorem versionName_eq (d : List UInt8) (h7 : d.length = 7) :
    versionNumberText ((byteAt d 5 &&& 0xE0) >>> 5) = versionName (bits d 41 43) := by
  have hl : bits d 41 43 < 8 := bits_lt8 d 41
  rw [small_byte (vn_head d h7)]
  generalize bits d 41 43 = n at hl
  interval_cases n <;> rfl

theorem numberName_eq (d : List UInt8) (h7 : d.length = 7) : dec (byteAt d 0 &&& 0x07).toNat = decimal (bits d 6 8) := by
  rw [st_head d h7]; rfl

/-! ### Acceptance of the readers of one kind -/

theorem succeeds_direct {α β : Type} {direct : Go α} {family : Go β} {kind : α → β} (h : SameAs direct family kind) :
    Succeeds direct ↔ ∃ m, family = .ok (kind m) :=
  ⟨fun ⟨m, hm⟩ => ⟨m, (h.1 m).1 hm⟩, fun ⟨m, hm⟩ => ⟨m, (h.1 m).2 hm⟩⟩

theorem velocity_direct_accepts (d : List UInt8) :
    (Succeeds (readGroundSpeedNormal d) ↔ d.length = 7 ∧ bits d 1 5 = 19 ∧ bits d 6 8 = 1) ∧
    (Succeeds (readGroundSpeedSupersonic d) ↔ d.length = 7 ∧ bits d 1 5 = 19 ∧ bits d 6 8 = 2) ∧
    (Succeeds (readAirSpeedNormal d) ↔ d.length = 7 ∧ bits d 1 5 = 19 ∧ bits d 6 8 = 3) ∧
    (Succeeds (readAirSpeedSupersonic d) ↔ d.length = 7 ∧ bits d 1 5 = 19 ∧ bits d 6 8 = 4) := by
  rw [succeeds_direct (groundSpeedNormal_direct d), succeeds_direct (groundSpeedSupersonic_direct d),
    succeeds_direct (airSpeedNormal_direct d), succeeds_direct (airSpeedSupersonic_direct d)]
  rcases bds09_eval d with ⟨e, h⟩ | ⟨h7, h1, h⟩
  · simp only [e]
    refine ⟨?_, ?_, ?_, ?_⟩ <;>
      exact ⟨fun ⟨_, h'⟩ => (nomatch h'), fun ⟨a, b, c⟩ => (h ⟨a, b, by omega, by omega⟩).elim⟩
  · rcases h with ⟨h2, m, e, -⟩ | ⟨h2, m, e, -⟩ | ⟨h2, m, e, -⟩ | ⟨h2, m, e, -⟩ <;> simp [e, h2, h7, h1]

theorem status_direct_accepts (d : List UInt8) :
    (Succeeds (readStatusNoInformation d) ↔ d.length = 7 ∧ bits d 1 5 = 28 ∧ bits d 6 8 = 0 ∧ bits d 12 16 = 0) ∧
    (Succeeds (readStatusEmergency d) ↔ d.length = 7 ∧ bits d 1 5 = 28 ∧ bits d 6 8 = 1 ∧ bits d 25 56 = 0) ∧
    (Succeeds (readStatusACAS d) ↔ d.length = 7 ∧ bits d 1 5 = 28 ∧ bits d 6 8 = 2 ∧ Succeeds (readResolutionAdvisory (d.drop 1))) := by
  rw [succeeds_direct (statusNoInformation_direct d), succeeds_direct (statusEmergency_direct d), succeeds_direct (statusACAS_direct d)]
  obtain ⟨k, -⟩ := status_accepts_partial d
  cases e : readBDS61 d with
  | error x =>
    have hn : ¬ Succeeds (readBDS61 d) := fun ⟨m, hm⟩ => by rw [e] at hm; cases hm
    rw [k] at hn
    refine ⟨⟨fun ⟨_, h⟩ => (nomatch h), fun ⟨a, b, c⟩ => (hn ⟨a, b, Or.inl c⟩).elim⟩,
      ⟨fun ⟨_, h⟩ => (nomatch h), fun ⟨a, b, c⟩ => (hn ⟨a, b, Or.inr (Or.inl c)⟩).elim⟩,
      ⟨fun ⟨_, h⟩ => (nomatch h), fun ⟨a, b, c⟩ => (hn ⟨a, b, Or.inr (Or.inr c)⟩).elim⟩⟩
  | ok m =>
    obtain ⟨h7, h1, h2⟩ := k.1 ⟨m, e⟩
    have hc := status_content d m e
    cases m with
    | noInformation m =>
      have h0 := hc.1
      simp only [h0, OfNat.zero_ne_ofNat, Nat.zero_ne_one, false_and, or_false, true_and] at h2
      simp [h7, h1, h0, h2]
    | emergency m =>
      have h0 := hc.1
      simp only [h0, OfNat.one_ne_ofNat, Nat.one_ne_zero, false_and, or_false, false_or, true_and] at h2
      simp [h7, h1, h0, h2]
    | acas m =>
      have h0 := hc.1
      simp only [h0, OfNat.ofNat_ne_zero, OfNat.ofNat_ne_one, false_and, or_false, false_or, true_and] at h2
      simp [-List.drop_one, h7, h1, h0, h2]

theorem target_state_direct_accepts (d : List UInt8) :
    (Succeeds (readTargetStateAndStatus0 d) ↔ d.length = 7 ∧ bits d 1 5 = 29 ∧ bits d 6 7 = 0 ∧ bits d 47 51 = 0) ∧
    (Succeeds (readTargetStateAndStatus1 d) ↔ d.length = 7 ∧ bits d 1 5 = 29 ∧ bits d 6 7 = 1) := by
  rw [succeeds_direct (targetStateAndStatus0_direct d), succeeds_direct (targetStateAndStatus1_direct d)]
  obtain ⟨k, -⟩ := target_state_accepts d
  cases e : readBDS62 d with
  | error x =>
    have hn : ¬ Succeeds (readBDS62 d) := fun ⟨m, hm⟩ => by rw [e] at hm; cases hm
    rw [k] at hn
    exact ⟨⟨fun ⟨_, h⟩ => (nomatch h), fun ⟨a, b, c⟩ => (hn ⟨a, b, Or.inl c⟩).elim⟩,
      ⟨fun ⟨_, h⟩ => (nomatch h), fun ⟨a, b, c⟩ => (hn ⟨a, b, Or.inr c⟩).elim⟩⟩
  | ok m =>
    obtain ⟨h7, h1, h2⟩ := k.1 ⟨m, e⟩
    have hc := target_state_content d m e
    cases m with
    | type0 m => simp [h7, h1, hc.1, hc.2.1]
    | type1 m => simp [h7, h1, hc.1]

theorem operational_direct_accepts (d : List UInt8) :
    (Succeeds (readOpStatusV0 d) ↔ d.length = 7 ∧ bits d 1 5 = 31 ∧ bits d 6 8 = 0 ∧ bits d 41 43 = 0 ∧ OpReserved d 0) ∧
    (Succeeds (readOpStatusAirborneV1 d) ↔ d.length = 7 ∧ bits d 1 5 = 31 ∧ bits d 6 8 = 0 ∧ bits d 41 43 = 1 ∧ OpReserved d 1) ∧
    (Succeeds (readOpStatusAirborneV2 d) ↔ d.length = 7 ∧ bits d 1 5 = 31 ∧ bits d 6 8 = 0 ∧ bits d 41 43 = 2 ∧ OpReserved d 2) ∧
    (Succeeds (readOpStatusSurfaceV1 d) ↔ d.length = 7 ∧ bits d 1 5 = 31 ∧ bits d 6 8 = 1 ∧ bits d 41 43 = 1 ∧ OpReserved d 1) ∧
    (Succeeds (readOpStatusSurfaceV2 d) ↔ d.length = 7 ∧ bits d 1 5 = 31 ∧ bits d 6 8 = 1 ∧ bits d 41 43 = 2 ∧ OpReserved d 2) := by
  rw [succeeds_direct (opStatusV0_direct d), succeeds_direct (opStatusAirborneV1_direct d), succeeds_direct (opStatusAirborneV2_direct d),
    succeeds_direct (opStatusSurfaceV1_direct d), succeeds_direct (opStatusSurfaceV2_direct d)]
  obtain ⟨k, -⟩ := operational_status_accepts d
  cases e : readBDS65 d with
  | error x =>
    have hn : ¬ Succeeds (readBDS65 d) := fun ⟨m, hm⟩ => by rw [e] at hm; cases hm
    rw [k] at hn
    unfold OpAccepted at hn
    refine ⟨?_, ?_, ?_, ?_, ?_⟩ <;>
      exact ⟨fun ⟨_, h⟩ => (nomatch h), fun ⟨a, b, c, v, r⟩ => (hn ⟨a, b, by omega, by omega, by rw [v]; exact r⟩).elim⟩
  | ok m =>
    have ha := k.1 ⟨m, e⟩
    unfold OpAccepted at ha
    obtain ⟨h7, h1, -⟩ := ha
    obtain ⟨hr, hc⟩ := operational_status_content d m e
    cases m <;> (obtain ⟨v, s, -⟩ := hc; rw [v] at hr; simp [h7, h1, v, s, hr])

/-! ### The readers of one kind -/

/-- C104. The readers of one kind of airborne velocity: a reason is given exactly when the data are refused, and it is true. -/
theorem velocity_kind_reason (d : List UInt8) :
    ((groundSpeedNormalError d = none ↔ Succeeds (readGroundSpeedNormal d)) ∧
      ∀ t, groundSpeedNormalError d = some t → TrueIn (kindReasons d 19 8 1 velocityName (t! "ReadFormat19GroundSpeedNormal")) t) ∧
    ((groundSpeedSupersonicError d = none ↔ Succeeds (readGroundSpeedSupersonic d)) ∧
      ∀ t, groundSpeedSupersonicError d = some t →
        TrueIn (kindReasons d 19 8 2 velocityName (t! "ReadAirborneVelocityGroundSpeedSupersonic")) t) ∧
    ((airSpeedNormalError d = none ↔ Succeeds (readAirSpeedNormal d)) ∧
      ∀ t, airSpeedNormalError d = some t → TrueIn (kindReasons d 19 8 3 velocityName (t! "ReadAirborneVelocityAirSpeedNormal")) t) ∧
    ((airSpeedSupersonicError d = none ↔ Succeeds (readAirSpeedSupersonic d)) ∧
      ∀ t, airSpeedSupersonicError d = some t →
        TrueIn (kindReasons d 19 8 4 velocityName (t! "ReadAirborneVelocityAirSpeedSupersonic")) t) := by
  obtain ⟨a1, a2, a3, a4⟩ := velocity_direct_accepts d
  rw [a1, a2, a3, a4]
  refine ⟨⟨?_, ?_⟩, ⟨?_, ?_⟩, ⟨?_, ?_⟩, ⟨?_, ?_⟩⟩
  all_goals first
    | (refine (kind_none 8 (st_head d)).trans ?_; simp; done)
    | (intro t ht
       have := kind_some (extra := []) (st_head d) (velocityName_eq d) (Or.inl rfl) (fun _ _ => chain_end) t ht
       rwa [List.append_nil] at this)

theorem advisory_drop (d : List UInt8) (h7 : d.length = 7) :
    bits (d.drop 1) 21 22 = bits d 29 30 ∧ bits (d.drop 1) 23 24 = bits d 31 32 ∧ bits (d.drop 1) 23 35 = bits d 31 43 := by
  obtain ⟨b0, b1, b2, b3, b4, b5, b6, rfl⟩ := list7 d h7
  refine ⟨?_, ?_, ?_⟩ <;> simp only [List.drop_succ_cons, List.drop_zero] <;> byte_omega

theorem advisory_drop_reason (d : List UInt8) (h7 : d.length = 7) (h0 : bits d 29 30 = 2 → bits d 31 32 = 0) (t : Txt)
    (h : advisoryError (d.drop 1) = some t) :
    t = t! "the Altitude field is malformed" ∧ bits d 29 30 = 2 ∧ TIDIllegal (bits d 31 43) := by
  obtain ⟨e1, e2, e3⟩ := advisory_drop d h7
  rw [advisory_reason_partial (d.drop 1) (by rw [e1, e2]; exact h0), e1, e3, if_neg (by simp [h7])] at h
  by_cases hc : bits d 29 30 = 2 ∧ TIDIllegal (bits d 31 43)
  · rw [if_pos hc, Option.some.injEq] at h
    exact ⟨h.symm, hc⟩
  · rw [if_neg hc] at h; cases h

theorem noInformation_rest (d : List UInt8) (h7 : d.length = 7) : (byteAt d 1 &&& 0x1F ≠ 0) ↔ bits d 12 16 ≠ 0 := by
  obtain ⟨b0, b1, b2, b3, b4, b5, b6, rfl⟩ := list7 d h7
  change b1 &&& 0x1F ≠ 0 ↔ _
  rw [Ne, ← UInt8.toNat_inj]; byte_omega

theorem emergency_rest (d : List UInt8) (h7 : d.length = 7) :
    (byteAt d 3 ≠ 0 ∨ byteAt d 4 ≠ 0 ∨ byteAt d 5 ≠ 0 ∨ byteAt d 6 ≠ 0) ↔ bits d 25 56 ≠ 0 := by
  obtain ⟨b0, b1, b2, b3, b4, b5, b6, rfl⟩ := list7 d h7
  change (b3 ≠ 0 ∨ b4 ≠ 0 ∨ b5 ≠ 0 ∨ b6 ≠ 0) ↔ _
  simp only [Ne, ← UInt8.toNat_inj]; byte_omega

theorem operational0_rest (d : List UInt8) (h7 : d.length = 7) : (byteAt d 5 ≠ 0 ∨ byteAt d 6 ≠ 0) ↔ bits d 41 56 ≠ 0 := by
  obtain ⟨b0, b1, b2, b3, b4, b5, b6, rfl⟩ := list7 d h7
  change (b5 ≠ 0 ∨ b6 ≠ 0) ↔ _
  simp only [Ne, ← UInt8.toNat_inj]; byte_omega

theorem targetState0_rest (d : List UInt8) (h7 : d.length = 7) :
    ((byteAt d 5 &&& 0x03 ≠ 0) ↔ bits d 47 48 ≠ 0) ∧ ((byteAt d 6 &&& 0xE0 ≠ 0) ↔ bits d 49 51 ≠ 0) ∧
    (bits d 47 51 = 0 ↔ bits d 47 48 = 0 ∧ bits d 49 51 = 0) := by
  obtain ⟨b0, b1, b2, b3, b4, b5, b6, rfl⟩ := list7 d h7
  refine ⟨?_, ?_, by byte_omega⟩
  · change b5 &&& 0x03 ≠ 0 ↔ _
    rw [Ne, ← UInt8.toNat_inj]; byte_omega
  · change b6 &&& 0xE0 ≠ 0 ↔ _
    rw [Ne, ← UInt8.toNat_inj]; byte_omega

/-- C104. The readers of one kind of aircraft status. Of an advisory for a threat given by its altitude, this is proved if the first two bits of
the altitude are 0 (`ra_broadcast_reason_partial`): otherwise the program does not read the altitude code as it was sent. -/
theorem status_kind_reason (d : List UInt8) :
    ((statusNoInformationError d = none ↔ Succeeds (readStatusNoInformation d)) ∧
      ∀ t, statusNoInformationError d = some t →
        TrueIn (kindReasons d 28 8 0 statusName (t! "ReadAircraftStatusNoInformation") ++ noInformationReasons d) t) ∧
    ((statusEmergencyError d = none ↔ Succeeds (readStatusEmergency d)) ∧
      ∀ t, statusEmergencyError d = some t →
        TrueIn (kindReasons d 28 8 1 statusName (t! "ReadAircraftStatusEmergency") ++ emergencyReasons d) t) ∧
    (statusACASError d = none ↔ Succeeds (readStatusACAS d)) := by
  obtain ⟨a1, a2, a3⟩ := status_direct_accepts d
  rw [a1, a2, a3]
  refine ⟨⟨(kind_none 8 (st_head d)).trans ?_, ?_⟩, ⟨(kind_none 8 (st_head d)).trans ?_, ?_⟩, (kind_none 8 (st_head d)).trans ?_⟩
  · refine and_congr_right fun h7 => and_congr_right fun _ => and_congr_right fun _ => ?_
    rw [some_ite_none, noInformation_rest d h7]; simp
  · exact kind_some (st_head d) (statusName_eq d) (Or.inl rfl) fun h7 _ =>
      chain_sound (fun h => holds_at 0 rfl ((noInformation_rest d h7).1 h)) fun _ => chain_end
  · refine and_congr_right fun h7 => and_congr_right fun _ => and_congr_right fun _ => ?_
    rw [some_ite_none, emergency_rest d h7]; simp
  · exact kind_some (st_head d) (statusName_eq d) (Or.inl rfl) fun h7 _ =>
      chain_sound (fun h => holds_at 0 rfl ((emergency_rest d h7).1 h)) fun _ => chain_end
  · exact and_congr_right fun h7 => and_congr_right fun _ => and_congr_right fun _ => advisory_refused _

/-- C104. The reader of the broadcast of a resolution advisory: the part of the statement for the advisories of a threat given by its altitude
with the first two bits of the altitude 0, and for all the others. -/
theorem ra_broadcast_reason_partial (d : List UInt8) (h0 : bits d 29 30 = 2 → bits d 31 32 = 0) :
    ∀ t, statusACASError d = some t →
      TrueIn (kindReasons d 28 8 2 statusName (t! "ReadAircraftStatusACAS") ++ raBroadcastReasons d) t :=
  kind_some (st_head d) (statusName_eq d) (Or.inl rfl) fun h7 _ t ht => by
    obtain ⟨rfl, h⟩ := advisory_drop_reason d h7 h0 t ht
    exact holds_at 0 rfl h

/-- C104. The readers of one kind of target state. -/
theorem target_state_kind_reason (d : List UInt8) :
    ((targetState0Error d = none ↔ Succeeds (readTargetStateAndStatus0 d)) ∧
      ∀ t, targetState0Error d = some t →
        TrueIn (kindReasons d 29 7 0 targetStateName (t! "ReadTargetStateAndStatus0") ++ targetState0Reasons d) t) ∧
    ((targetState1Error d = none ↔ Succeeds (readTargetStateAndStatus1 d)) ∧
      ∀ t, targetState1Error d = some t → TrueIn (kindReasons d 29 7 1 targetStateName (t! "ReadTargetStateAndStatus1")) t) := by
  obtain ⟨a1, a2⟩ := target_state_direct_accepts d
  rw [a1, a2]
  refine ⟨⟨(kind_none 7 (st2_head d)).trans ?_, ?_⟩, ⟨(kind_none 7 (st2_head d)).trans (by simp), ?_⟩⟩
  · refine and_congr_right fun h7 => and_congr_right fun _ => and_congr_right fun _ => ?_
    obtain ⟨e1, e2, e3⟩ := targetState0_rest d h7
    rw [some_ite_none, some_ite_none, e1, e2, e3]; simp
  · exact kind_some (st2_head d) (targetStateName_eq d) (Or.inl rfl) fun h7 _ =>
      chain_sound (fun h => holds_at 0 rfl ((targetState0_rest d h7).1.1 h)) fun _ =>
      chain_sound (fun h => holds_at 1 rfl ((targetState0_rest d h7).2.1.1 h)) fun _ => chain_end
  · intro t ht
    have := kind_some (extra := []) (st2_head d) (targetStateName_eq d) (Or.inl rfl) (fun _ _ => chain_end) t ht
    rwa [List.append_nil] at this

theorem version_rest (d : List UInt8) (h7 : d.length = 7) (v : UInt8) : ((byteAt d 5 &&& 0xE0) >>> 5 ≠ v) ↔ bits d 41 43 ≠ v.toNat := by
  rw [← vn_head d h7, Ne, ← UInt8.toNat_inj]

theorem operational1_none (d : List UInt8) (h7 : d.length = 7) : operationalError1 d = none ↔ OpReserved d 1 := by
  rw [operationalError1_eq d h7]
  simp only [some_ite_none, not_not, and_true, OpReserved]
  constructor
  · rintro ⟨a, b, c, e⟩; exact ⟨by omega, by omega, b, c, e⟩
  · rintro ⟨a, a', b, c, e⟩; exact ⟨by omega, b, c, e⟩

theorem operational2_none (d : List UInt8) (h7 : d.length = 7) : operationalError2 d = none ↔ OpReserved d 2 := by
  rw [operationalError2_eq d h7]
  simp only [some_ite_none, not_not, and_true, OpReserved]

theorem operational1_rest (d : List UInt8) (h7 : d.length = 7) (reader : List Char) (words : Txt)
    (hw : words = t! "the data are given at " ++ versionNumberText ((byteAt d 5 &&& 0xE0) >>> 5) ++ t! " format and can not be read by " ++ reader) :
    ∀ t, (if (byteAt d 5 &&& 0xE0) >>> 5 ≠ 1 then some words else operationalError1 d) = some t → TrueIn (operational1Reasons d reader) t := by
  subst hw
  rw [versionName_eq d h7, operationalError1_eq d h7]
  exact chain_sound (fun h => holds_at 0 rfl ((version_rest d h7 1).1 h)) fun _ =>
    chain_sound (fun h => holds_at 1 rfl (by omega)) fun _ =>
    chain_sound (fun h => holds_at 2 rfl h) fun _ =>
    chain_sound (fun h => holds_at 3 rfl h) fun _ =>
    chain_sound (fun h => holds_at 4 rfl h) fun _ => chain_end

theorem operational2_rest (d : List UInt8) (h7 : d.length = 7) (reader : List Char) (words : Txt)
    (hw : words = t! "the data are given at at " ++ versionNumberText ((byteAt d 5 &&& 0xE0) >>> 5) ++ t! " format and can not be read by " ++ reader) :
    ∀ t, (if (byteAt d 5 &&& 0xE0) >>> 5 ≠ 2 then some words else operationalError2 d) = some t → TrueIn (operational2Reasons d reader) t := by
  subst hw
  rw [versionName_eq d h7, operationalError2_eq d h7]
  exact chain_sound (fun h => holds_at 0 rfl ((version_rest d h7 2).1 h)) fun _ =>
    chain_sound (fun h => holds_at 1 rfl h) fun _ =>
    chain_sound (fun h => holds_at 2 rfl h) fun _ =>
    chain_sound (fun h => holds_at 3 rfl h) fun _ => chain_end

/-- C104. The readers of one kind of operational status: each gives a reason exactly when it refuses the data. -/
theorem operational_kind_refused (d : List UInt8) :
    (operationalV0Error d = none ↔ Succeeds (readOpStatusV0 d)) ∧
    (operationalAirborneV1Error d = none ↔ Succeeds (readOpStatusAirborneV1 d)) ∧
    (operationalAirborneV2Error d = none ↔ Succeeds (readOpStatusAirborneV2 d)) ∧
    (operationalSurfaceV1Error d = none ↔ Succeeds (readOpStatusSurfaceV1 d)) ∧
    (operationalSurfaceV2Error d = none ↔ Succeeds (readOpStatusSurfaceV2 d)) := by
  obtain ⟨a1, a2, a3, a4, a5⟩ := operational_direct_accepts d
  rw [a1, a2, a3, a4, a5]
  refine ⟨(kind_none 8 (st_head d)).trans ?_, (kind_none 8 (st_head d)).trans ?_, (kind_none 8 (st_head d)).trans ?_,
    (kind_none 8 (st_head d)).trans ?_, (kind_none 8 (st_head d)).trans ?_⟩ <;>
    refine and_congr_right fun h7 => and_congr_right fun _ => and_congr_right fun _ => ?_
  · rw [some_ite_none, operational0_rest d h7, not_not]
    have : bits d 41 56 = 0 → bits d 41 43 = 0 := by
      obtain ⟨b0, b1, b2, b3, b4, b5, b6, rfl⟩ := list7 d h7
      byte_omega
    exact ⟨fun h => ⟨this h.1, h.1⟩, fun h => ⟨h.2, rfl⟩⟩
  all_goals
    rw [some_ite_none, version_rest d h7, not_not]
    first | rw [operational1_none d h7] | rw [operational2_none d h7]
    rfl

/-- C104. And the reason is true, of the three readers that name the right type code. -/
theorem operational_kind_reason (d : List UInt8) :
    (∀ t, operationalAirborneV2Error d = some t → TrueIn (kindReasons d 31 8 0 decimal (t! "ReadAircraftOperationalStatusADSB0") ++
      operational2Reasons d (t! "ReadAircraftOperationalStatusAirborneADSB2")) t) ∧
    (∀ t, operationalSurfaceV1Error d = some t → TrueIn (kindReasons d 31 8 1 operationalName (t! "ReadAircraftOperationalStatusSurfaceADSB1") ++
      operational1Reasons d (t! "ReadAircraftOperationalStatusSurfaceADSB1")) t) ∧
    (∀ t, operationalSurfaceV2Error d = some t → TrueIn (kindReasons d 31 8 1 operationalName (t! "ReadAircraftOperationalStatusSurfaceADSB2") ++
      operational2Reasons d (t! "ReadAircraftOperationalStatusSurfaceADSB2")) t) := by
  refine ⟨?_, ?_, ?_⟩
  · exact kind_some (st_head d) (numberName_eq d) (Or.inl rfl) fun h7 _ => operational2_rest d h7 _ _ (by simp)
  · exact kind_some (st_head d) (operationalName_eq d) (Or.inl rfl) fun h7 _ => operational1_rest d h7 _ _ (by simp)
  · exact kind_some (st_head d) (operationalName_eq d) (Or.inl rfl) fun h7 _ => operational2_rest d h7 _ _ (by simp)

/-- C104. Of the two others, for the data of type code 31, and for those of another length than 7 bytes. -/
theorem operational_kind_reason_partial (d : List UInt8) (h : d.length = 7 → bits d 1 5 = 31) :
    (∀ t, operationalV0Error d = some t → TrueIn (kindReasons d 31 8 0 decimal (t! "ReadAircraftOperationalStatusADSB0") ++
      operational0Reasons d) t) ∧
    (∀ t, operationalAirborneV1Error d = some t → TrueIn (kindReasons d 31 8 0 decimal (t! "ReadAircraftOperationalStatusADSB0") ++
      operational1Reasons d (t! "ReadAircraftOperationalStatusAirborneADSB1")) t) := by
  refine ⟨?_, ?_⟩
  · exact kind_some (st_head d) (numberName_eq d) (Or.inr h) fun h7 _ =>
      chain_sound (fun h => holds_at 0 rfl ((operational0_rest d h7).1 h)) fun _ => chain_end
  · exact kind_some (st_head d) (numberName_eq d) (Or.inr h) fun h7 _ => operational1_rest d h7 _ _ (by simp)

/-- C104. For all other data the reason these two give is not true: it says that the type code must be 29. -/
theorem operational_kind_reason_refuted (d : List UInt8) (h7 : d.length = 7) (h : bits d 1 5 ≠ 31) :
    operationalV0Error d = some (t! "the field FormatTypeCode must be 29, got " ++ decimal (bits d 1 5)) ∧
    operationalAirborneV1Error d = some (t! "the field FormatTypeCode must be 29, got " ++ decimal (bits d 1 5)) ∧
    ¬ Succeeds (readOpStatusV0 d) ∧ ¬ Succeeds (readOpStatusAirborneV1 d) := by
  have hc : (byteAt d 0 &&& 0xF8) >>> 3 ≠ 31 := fun e => h (by rw [← tc_head d h7, e]; rfl)
  obtain ⟨a1, a2, -⟩ := operational_direct_accepts d
  refine ⟨?_, ?_, fun g => h (a1.1 g).2.1, fun g => h (a2.1 g).2.1⟩
  · unfold operationalV0Error kindError
    rw [if_neg (not_not.2 h7), if_pos hc, tc_head d h7]; rfl
  · unfold operationalAirborneV1Error kindError
    rw [if_neg (not_not.2 h7), if_pos hc, tc_head d h7]; rfl

/-! ### The readers of a register -/

/-- C104. `bds05.ReadAirbornePosition`. -/
theorem airborne_register_reason (d : List UInt8) :
    (airborneError d = none ↔ Succeeds (readBDS05 d)) ∧ ∀ t, airborneError d = some t → TrueIn (airborneReasons d) t := by
  obtain ⟨k, -⟩ := airborne_position_accepts d
  rw [k]
  by_cases h7 : d.length = 7
  swap
  · unfold airborneError
    exact ⟨by simp [h7], chain_sound (fun h => holds_at 0 rfl h) (fun h => absurd h7 h)⟩
  by_cases htc : 9 ≤ bits d 1 5 ∧ bits d 1 5 ≤ 22 ∧ bits d 1 5 ≠ 19
  · rw [airborneError_eq d h7 htc]
    refine ⟨?_, chain_sound (fun h => holds_at 2 rfl h) fun _ => chain_end⟩
    rw [some_ite_none]
    exact ⟨fun h => ⟨h7, htc.1, htc.2.1, htc.2.2, h.1⟩, fun h => ⟨h.2.2.2.2, rfl⟩⟩
  · have hn : ((byteAt d 0 &&& 0xF8) >>> 3 < 9 ∨ (byteAt d 0 &&& 0xF8) >>> 3 > 22 ∨ (byteAt d 0 &&& 0xF8) >>> 3 = 19) := by
      simp only [UInt8.lt_iff_toNat_lt, gt_iff_lt, ← UInt8.toNat_inj, UInt8.reduceToNat, tc_head d h7]
      omega
    unfold airborneError
    rw [if_neg (not_not.2 h7)]
    simp only [if_pos hn]
    refine ⟨⟨fun h => (nomatch h), fun h => (htc ⟨h.2.1, h.2.2.1, h.2.2.2.1⟩).elim⟩, fun t h => ?_⟩
    rw [Option.some.injEq, tc_head d h7] at h
    subst h
    refine holds_at 1 ?_ (show ¬ ((9 ≤ bits d 1 5 ∧ bits d 1 5 ≤ 18) ∨ (20 ≤ bits d 1 5 ∧ bits d 1 5 ≤ 22)) by omega)
    rfl

/-- C104. `bds06.ReadSurfacePosition`. -/
theorem surface_register_reason (d : List UInt8) :
    (surfaceError d = none ↔ Succeeds (readBDS06 d)) ∧ ∀ t, surfaceError d = some t → TrueIn (surfaceReasons d) t := by
  rw [(surface_position_accepts d).1]
  unfold surfaceError
  by_cases h7 : d.length = 7
  swap
  · exact ⟨by simp [h7], chain_sound (fun h => holds_at 0 rfl h) (fun h => absurd h7 h)⟩
  have e : ((byteAt d 0 &&& 0xF8) >>> 3 < 5 ∨ (byteAt d 0 &&& 0xF8) >>> 3 > 8) ↔ ¬ (5 ≤ bits d 1 5 ∧ bits d 1 5 ≤ 8) := by
    simp only [UInt8.lt_iff_toNat_lt, gt_iff_lt, ← UInt8.toNat_inj, UInt8.reduceToNat, tc_head d h7]
    omega
  constructor
  · simp only [some_ite_none, e, not_not, and_true]
  · refine chain_sound (fun h => absurd h7 h) fun _ => chain_sound (fun h => ?_) fun _ => chain_end
    rw [tc_head d h7]
    refine holds_at 1 ?_ (e.1 h)
    rfl

/-- C104. `bds08.ReadAircraftIdentificationAndCategory`. -/
theorem identification_register_reason (d : List UInt8) :
    (identificationError d = none ↔ Succeeds (readBDS08 d)) ∧ ∀ t, identificationError d = some t → TrueIn (identificationReasons d) t := by
  rw [(identification_accepts d).1]
  unfold identificationError
  by_cases h7 : d.length = 7
  swap
  · exact ⟨by simp [h7], chain_sound (fun h => holds_at 0 rfl h) (fun h => absurd h7 h)⟩
  have e : ((byteAt d 0 &&& 0xF8) >>> 3 < 1 ∨ (byteAt d 0 &&& 0xF8) >>> 3 > 4) ↔ ¬ (1 ≤ bits d 1 5 ∧ bits d 1 5 ≤ 4) := by
    simp only [UInt8.lt_iff_toNat_lt, gt_iff_lt, ← UInt8.toNat_inj, UInt8.reduceToNat, tc_head d h7]
    omega
  constructor
  · simp only [some_ite_none, e, not_not, and_true]
  · refine chain_sound (fun h => absurd h7 h) fun _ => chain_sound (fun h => ?_) fun _ => chain_end
    rw [tc_head d h7]
    refine holds_at 1 ?_ (e.1 h)
    rfl

/-- C104. `bds09.ReadAirborneVelocity`. -/
theorem velocity_register_reason (d : List UInt8) :
    (velocityError d = none ↔ Succeeds (readBDS09 d)) ∧ ∀ t, velocityError d = some t → TrueIn (velocityReasons d) t := by
  have k : Succeeds (readBDS09 d) ↔ _ := (velocity_accepts d).1
  rw [k]
  by_cases h7 : d.length = 7
  swap
  · unfold velocityError
    exact ⟨by simp [h7], chain_sound (fun h => holds_at 0 rfl h) (fun h => absurd h7 h)⟩
  by_cases htc : bits d 1 5 = 19
  · rw [velocityError_eq d h7 htc]
    by_cases hs : 1 ≤ bits d 6 8 ∧ bits d 6 8 ≤ 4
    · rw [if_pos hs]
      exact ⟨⟨fun _ => ⟨h7, htc, hs⟩, fun _ => rfl⟩, chain_end⟩
    · rw [if_neg hs]
      refine ⟨⟨fun h => (nomatch h), fun h => (hs h.2.2).elim⟩, fun t h => ?_⟩
      rw [Option.some.injEq] at h
      subst h
      exact holds_at 2 rfl (show bits d 6 8 < 1 ∨ 4 < bits d 6 8 by omega)
  · have hn : (byteAt d 0 &&& 0xF8) >>> 3 ≠ 19 := fun e => htc (by rw [← tc_head d h7, e]; rfl)
    unfold velocityError
    rw [if_neg (not_not.2 h7)]
    simp only [if_pos hn]
    refine ⟨⟨fun h => (nomatch h), fun h => (htc h.2.1).elim⟩, fun t h => ?_⟩
    rw [Option.some.injEq, tc_head d h7] at h
    subst h
    exact holds_at 1 (by simp only [velocityReasons, formatReason, List.getElem?_cons_succ, List.getElem?_cons_zero, List.append_assoc]; rfl) htc

/-- C104. `bds62.ReadTargetStateAndStatus`. -/
theorem target_state_register_reason (d : List UInt8) :
    (targetStateError d = none ↔ Succeeds (readBDS62 d)) ∧ ∀ t, targetStateError d = some t → TrueIn (targetStateReasons d) t := by
  rw [(target_state_accepts d).1]
  by_cases h7 : d.length = 7
  swap
  · unfold targetStateError
    exact ⟨by simp [h7], chain_sound (fun h => holds_at 0 rfl h) (fun h => absurd h7 h)⟩
  by_cases htc : bits d 1 5 = 29
  · have e3 := (targetState0_rest d h7).2.2
    rw [targetStateError_eq d h7 htc]
    by_cases h0 : bits d 6 7 = 0
    · rw [if_pos h0]
      refine ⟨?_, chain_sound (fun h => holds_at 3 rfl ⟨h0, h⟩) fun _ => chain_sound (fun h => holds_at 4 rfl ⟨h0, h⟩) fun _ => chain_end⟩
      simp only [some_ite_none, not_not, and_true, h7, htc, h0, true_and, e3, Nat.zero_ne_one, or_false]
    · rw [if_neg h0]
      by_cases h1 : bits d 6 7 = 1
      · rw [if_pos h1]
        exact ⟨⟨fun _ => ⟨h7, htc, Or.inr h1⟩, fun _ => rfl⟩, chain_end⟩
      · rw [if_neg h1]
        refine ⟨⟨fun h => (nomatch h), fun h => by rcases h.2.2 with h | h <;> omega⟩, fun t h => ?_⟩
        rw [Option.some.injEq] at h
        subst h
        exact holds_at 2 rfl (show bits d 6 7 < 0 ∨ 1 < bits d 6 7 by omega)
  · have hn : (byteAt d 0 &&& 0xF8) >>> 3 ≠ 29 := fun e => htc (by rw [← tc_head d h7, e]; rfl)
    unfold targetStateError
    rw [if_neg (not_not.2 h7)]
    simp only [if_pos hn]
    refine ⟨⟨fun h => (nomatch h), fun h => (htc h.2.1).elim⟩, fun t h => ?_⟩
    rw [Option.some.injEq, tc_head d h7] at h
    subst h
    exact holds_at 1 (by simp only [targetStateReasons, formatReason, List.getElem?_cons_succ, List.getElem?_cons_zero, List.append_assoc]; rfl) htc

/-- C104. `bds61.ReadAircraftStatus`: there is a reason exactly when the data are refused. -/
theorem status_register_refused (d : List UInt8) : statusError d = none ↔ Succeeds (readBDS61 d) := by
  rw [(status_accepts_partial d).1]
  by_cases h7 : d.length = 7
  swap
  · unfold statusError
    simp [h7]
  by_cases htc : bits d 1 5 = 28
  · rw [status_refused d h7 htc]
    exact ⟨fun h => ⟨h7, htc, h⟩, fun h => h.2.2⟩
  · have hn : (byteAt d 0 &&& 0xF8) >>> 3 ≠ 28 := fun e => htc (by rw [← tc_head d h7, e]; rfl)
    unfold statusError
    rw [if_neg (not_not.2 h7)]
    simp only [if_pos hn]
    exact ⟨fun h => (nomatch h), fun h => (htc h.2.1).elim⟩

/-- C104. And it is true, but for the altitude of a threat with a first or second bit (`ra_broadcast_reason_partial`). -/
theorem status_register_reason_partial (d : List UInt8) (h0 : bits d 6 8 = 2 → bits d 29 30 = 2 → bits d 31 32 = 0) :
    ∀ t, statusError d = some t → TrueIn (statusReasons d) t := by
  by_cases h7 : d.length = 7
  swap
  · unfold statusError
    exact chain_sound (fun h => holds_at 0 rfl h) (fun h => absurd h7 h)
  by_cases htc : bits d 1 5 = 28
  · rw [statusError_eq d h7 htc]
    by_cases s0 : bits d 6 8 = 0
    · rw [if_pos s0]
      exact chain_sound (fun h => holds_at 3 rfl ⟨s0, h⟩) fun _ => chain_end
    rw [if_neg s0]
    by_cases s1 : bits d 6 8 = 1
    · rw [if_pos s1]
      exact chain_sound (fun h => holds_at 4 rfl ⟨s1, h⟩) fun _ => chain_end
    rw [if_neg s1]
    by_cases s2 : bits d 6 8 = 2
    · rw [if_pos s2]
      intro t ht
      obtain ⟨rfl, h⟩ := advisory_drop_reason d h7 (h0 s2) t ht
      exact holds_at 5 rfl ⟨s2, h⟩
    rw [if_neg s2]
    intro t h
    rw [Option.some.injEq] at h
    subst h
    exact holds_at 2 rfl (show bits d 6 8 < 0 ∨ 2 < bits d 6 8 by omega)
  · have hn : (byteAt d 0 &&& 0xF8) >>> 3 ≠ 28 := fun e => htc (by rw [← tc_head d h7, e]; rfl)
    unfold statusError
    rw [if_neg (not_not.2 h7)]
    simp only [if_pos hn]
    intro t h
    rw [Option.some.injEq, tc_head d h7] at h
    subst h
    exact holds_at 1 (by simp only [statusReasons, formatReason, List.getElem?_cons_succ, List.getElem?_cons_zero, List.append_assoc]; rfl) htc

/-- C104. `bds65.ReadAircraftOperationalStatus`: there is a reason exactly when the data are refused. -/
theorem operational_register_refused (d : List UInt8) : operationalError d = none ↔ Succeeds (readBDS65 d) := by
  rw [(operational_status_accepts d).1]
  unfold OpAccepted
  by_cases h7 : d.length = 7
  swap
  · unfold operationalError
    simp [h7]
  by_cases htc : bits d 1 5 = 31
  · rw [operational_refused d h7 htc]
    exact ⟨fun h => ⟨h7, htc, h⟩, fun h => h.2.2⟩
  · have hn : (byteAt d 0 &&& 0xF8) >>> 3 ≠ 31 := fun e => htc (by rw [← tc_head d h7, e]; rfl)
    unfold operationalError
    rw [if_neg (not_not.2 h7)]
    simp only [if_pos hn]
    exact ⟨fun h => (nomatch h), fun h => (htc h.2.1).elim⟩

/-- C104. And it is true, but for the versions 3 to 7: the text gives the subtype instead of the version. -/
theorem operational_register_reason_partial (d : List UInt8)
    (hv : d.length = 7 → bits d 1 5 = 31 → bits d 41 43 ≤ 2 ∨ bits d 6 8 = bits d 41 43) :
    ∀ t, operationalError d = some t → TrueIn (operationalReasons d) t := by
  by_cases h7 : d.length = 7
  swap
  · unfold operationalError
    exact chain_sound (fun h => holds_at 0 rfl h) (fun h => absurd h7 h)
  by_cases htc : bits d 1 5 = 31
  · rw [operationalError_eq d h7 htc]
    have hv := hv h7 htc
    by_cases v0 : bits d 41 43 = 0
    · rw [if_pos v0]
      exact chain_sound (fun h => holds_at 4 rfl ⟨v0, h⟩) fun _ => chain_sound (fun h => holds_at 5 rfl ⟨v0, h⟩) fun _ => chain_end
    rw [if_neg v0]
    by_cases v1 : bits d 41 43 = 1
    · rw [if_pos v1]
      by_cases s : bits d 6 8 ≤ 1
      · rw [if_pos s, operationalError1_eq d h7]
        exact chain_sound (fun h => holds_at 6 rfl ⟨v1, by omega⟩) fun _ => chain_sound (fun h => holds_at 8 rfl h) fun _ =>
          chain_sound (fun h => holds_at 9 rfl ⟨v1, h⟩) fun _ => chain_sound (fun h => holds_at 10 rfl ⟨v1, h⟩) fun _ => chain_end
      · rw [if_neg s]
        intro t h
        rw [Option.some.injEq] at h
        subst h
        exact holds_at 2 rfl (show bits d 6 8 < 0 ∨ 1 < bits d 6 8 by omega)
    rw [if_neg v1]
    by_cases v2 : bits d 41 43 = 2
    · rw [if_pos v2]
      by_cases s : bits d 6 8 ≤ 1
      · rw [if_pos s, operationalError2_eq d h7]
        exact chain_sound (fun h => holds_at 7 rfl ⟨v2, h⟩) fun _ => chain_sound (fun h => holds_at 8 rfl h) fun _ =>
          chain_sound (fun h => holds_at 11 rfl ⟨v2, h⟩) fun _ => chain_end
      · rw [if_neg s]
        intro t h
        rw [Option.some.injEq] at h
        subst h
        exact holds_at 2 rfl (show bits d 6 8 < 0 ∨ 1 < bits d 6 8 by omega)
    rw [if_neg v2]
    intro t h
    rw [Option.some.injEq] at h
    subst h
    have hs : bits d 6 8 = bits d 41 43 := by omega
    rw [hs]
    exact holds_at 3 rfl (show 2 < bits d 41 43 by omega)
  · have hn : (byteAt d 0 &&& 0xF8) >>> 3 ≠ 31 := fun e => htc (by rw [← tc_head d h7, e]; rfl)
    unfold operationalError
    rw [if_neg (not_not.2 h7)]
    simp only [if_pos hn]
    intro t h
    rw [Option.some.injEq, tc_head d h7] at h
    subst h
    exact holds_at 1 (by simp only [operationalReasons, formatReason, List.getElem?_cons_succ, List.getElem?_cons_zero, List.append_assoc]; rfl) htc

/-- C104. For these versions the text gives the subtype in place of the version. -/
theorem operational_register_reason_refuted (d : List UInt8) (h7 : d.length = 7) (htc : bits d 1 5 = 31) (hv : 3 ≤ bits d 41 43) :
    operationalError d = some (t! "the field VersionNumber must be comprised between 0 and 2 included, got " ++ decimal (bits d 6 8)) := by
  rw [operationalError_eq d h7 htc, if_neg (by omega), if_neg (by omega), if_neg (by omega)]

/-! ### The readers that are told the version -/

/-- A call returns an error. -/
theorem ofPtr_error {α β : Type} (r : Go α) (f : α → β) : (∃ v, Call.ofPtr r f = .returns v false) ↔ Succeeds r := by
  rcases r with e | a
  · cases e
    · exact ⟨fun ⟨_, h⟩ => (nomatch h), fun ⟨_, h⟩ => (nomatch h)⟩
    · exact ⟨fun ⟨_, h⟩ => (nomatch h), fun ⟨_, h⟩ => (nomatch h)⟩
  · exact ⟨fun _ => ⟨a, rfl⟩, fun _ => ⟨_, rfl⟩⟩

theorem succeeds_map {α β : Type} (r : Go α) (f : α → Go β) (hf : ∀ a, r = .ok a → Succeeds (f a)) : Succeeds (r >>= f) ↔ Succeeds r := by
  rcases r with e | a
  · exact ⟨fun ⟨_, h⟩ => (nomatch h), fun ⟨_, h⟩ => (nomatch h)⟩
  · exact ⟨fun _ => ⟨a, rfl⟩, fun _ => hf a rfl⟩

/-- C104. `surface_position.ReadSurfacePosition`. -/
theorem surface_reader_reason (v : UInt8) (a c : Bool) (d : List UInt8) :
    (surfacePositionError v d = none ↔ ∃ m, readSurfacePosition v d a c = .returns m false) ∧
    ∀ t, surfacePositionError v d = some t → TrueIn (surfaceReasons d ++ [levelReason v.toNat]) t := by
  obtain ⟨k1, k2⟩ := surface_register_reason d
  unfold surfacePositionError readSurfacePosition
  by_cases h0 : v = 0
  · rw [if_pos (Or.inl h0), if_pos h0, ofPtr_error, k1]
    refine ⟨?_, fun t ht => trueIn_left (k2 t ht)⟩
    unfold readSurfacePositionV0
    exact (succeeds_map _ _ fun _ _ => ⟨_, rfl⟩).symm
  rw [if_neg h0]
  by_cases h1 : v = 1
  · rw [if_pos (Or.inr (Or.inl h1)), if_pos h1, ofPtr_error, k1]
    refine ⟨?_, fun t ht => trueIn_left (k2 t ht)⟩
    unfold readSurfacePositionV1
    exact (succeeds_map _ _ fun _ _ => ⟨_, rfl⟩).symm
  rw [if_neg h1]
  by_cases h2 : v = 2
  · rw [if_pos (Or.inr (Or.inr h2)), if_pos h2, ofPtr_error, k1]
    refine ⟨?_, fun t ht => trueIn_left (k2 t ht)⟩
    unfold readSurfacePositionV2
    exact (succeeds_map _ _ fun _ _ => ⟨_, rfl⟩).symm
  rw [if_neg h2, if_neg (by simp [h0, h1, h2])]
  refine ⟨⟨fun h => (nomatch h), fun ⟨_, h⟩ => (nomatch h)⟩, fun t h => ?_⟩
  rw [Option.some.injEq] at h
  subst h
  refine trueIn_right (holds_at 0 rfl ?_)
  have g0 : v.toNat ≠ 0 := fun h => h0 (UInt8.toNat_inj.1 h)
  have g1 : v.toNat ≠ 1 := fun h => h1 (UInt8.toNat_inj.1 h)
  have g2 : v.toNat ≠ 2 := fun h => h2 (UInt8.toNat_inj.1 h)
  omega

/-- C104. `airborne_position.ReadAirbornePosition`, for the data it does not panic on (`direct_airborne`). -/
theorem airborne_reader_reason (v : UInt8) (a : Bool) (d : List UInt8) (hp : readAirbornePosition v d a ≠ .panics) :
    (airbornePositionError v d = none ↔ ∃ m, readAirbornePosition v d a = .returns m false) ∧
    ∀ t, airbornePositionError v d = some t → TrueIn (airborneReasons d ++ [levelReason v.toNat]) t := by
  have hp' := (direct_airborne v a d).1.not.1 hp
  obtain ⟨b, l, rfl⟩ : ∃ b l, d = b :: l := by
    cases d with
    | nil => exact (hp' (Or.inl rfl)).elim
    | cons b l => exact ⟨b, l, rfl⟩
  obtain ⟨k1, k2⟩ := airborne_register_reason (b :: l)
  have key : ∀ r : Go ADSBMessage, (Succeeds r ↔ Succeeds (readBDS05 (b :: l))) →
      (airborneError (b :: l) = none ↔ ∃ m, Call.ofPtr r id = .returns m false) := fun r h => by rw [ofPtr_error, k1, h]
  unfold airbornePositionError
  have e : readAirbornePosition v (b :: l) a =
      if b = 0 then Call.ofPtr (readAirbornePositionType0 v (b :: l)) id
      else if v = 0 then Call.ofPtr (readAirbornePositionV0 (b :: l)) id
      else if v = 1 then Call.ofPtr (readAirbornePositionV1 (b :: l) a) id
      else if v = 2 then Call.ofPtr (readAirbornePositionV2 (b :: l) a) id
      else Call.fail := rfl
  rw [e]
  have eb : byteAt (b :: l) 0 = b := rfl
  rw [eb]
  by_cases hb : b = 0
  · subst hb
    have hl : 7 ≤ (0 :: l).length := by
      by_contra h
      exact hp' (Or.inr ⟨rfl, by omega⟩)
    obtain ⟨c0, c1, c2, c3, c4, c5, c6, l', hc⟩ := list7_more _ hl
    rw [hc, if_pos rfl, if_pos rfl, ofPtr_error, type0_cons]
    obtain ⟨j1, j2⟩ := airborne_register_reason [0xB0, c1, c2, c3, c4, c5, c6]
    refine ⟨?_, fun t ht => ?_⟩
    · refine Iff.trans j1 ?_
      exact (succeeds_map _ _ fun _ _ => ⟨_, rfl⟩).symm
    · have tc : bits [0xB0, c1, c2, c3, c4, c5, c6] 1 5 = 22 := by
        have := tc_byte 0xB0 c1 c2 c3 c4 c5 c6
        rw [← this]; rfl
      change airborneError [0xB0, c1, c2, c3, c4, c5, c6] = some t at ht
      rw [airborneError_eq _ rfl (by rw [tc]; decide)] at ht
      by_cases hi : AC12Illegal (bits [0xB0, c1, c2, c3, c4, c5, c6] 9 20)
      · rw [if_pos hi, Option.some.injEq] at ht
        subst ht
        refine trueIn_left (holds_at 2 rfl ?_)
        have : bits (c0 :: c1 :: c2 :: c3 :: c4 :: c5 :: c6 :: l') 9 20 = bits [0xB0, c1, c2, c3, c4, c5, c6] 9 20 := by
          rw [show c0 :: c1 :: c2 :: c3 :: c4 :: c5 :: c6 :: l' = [c0, c1, c2, c3, c4, c5, c6] ++ l' from rfl,
            bits_prefix _ _ _ _ (by simp)]
          byte_omega
        rw [this]; exact hi
      · rw [if_neg hi] at ht; cases ht
  rw [if_neg hb, if_neg hb]
  by_cases h0 : v = 0
  · rw [if_pos (Or.inl h0), if_pos h0]
    refine ⟨key _ ?_, fun t ht => trueIn_left (k2 t ht)⟩
    unfold readAirbornePositionV0
    exact succeeds_map _ _ fun _ _ => ⟨_, rfl⟩
  rw [if_neg h0]
  by_cases h1 : v = 1
  · rw [if_pos (Or.inr (Or.inl h1)), if_pos h1]
    refine ⟨key _ ?_, fun t ht => trueIn_left (k2 t ht)⟩
    unfold readAirbornePositionV1
    exact succeeds_map _ _ fun _ _ => ⟨_, rfl⟩
  rw [if_neg h1]
  by_cases h2 : v = 2
  · rw [if_pos (Or.inr (Or.inr h2)), if_pos h2]
    refine ⟨key _ ?_, fun t ht => trueIn_left (k2 t ht)⟩
    unfold readAirbornePositionV2
    exact succeeds_map _ _ fun _ _ => ⟨_, rfl⟩
  rw [if_neg h2, if_neg (by simp [h0, h1, h2])]
  refine ⟨⟨fun h => (nomatch h), fun ⟨_, h⟩ => (nomatch h)⟩, fun t h => ?_⟩
  rw [Option.some.injEq] at h
  subst h
  refine trueIn_right (holds_at 0 rfl ?_)
  have g0 : v.toNat ≠ 0 := fun h => h0 (UInt8.toNat_inj.1 h)
  have g1 : v.toNat ≠ 1 := fun h => h1 (UInt8.toNat_inj.1 h)
  have g2 : v.toNat ≠ 2 := fun h => h2 (UInt8.toNat_inj.1 h)
  omega

/-! ### Speed and track over the ground -/

/-- C104. `GetSpeed` and `GetTrack` give an error exactly when one of the two speeds is not known, and name one that is not. -/
theorem ground_access_reason (m : GroundSpeedVelocity) :
    (m.accessError = none ↔ ∃ v, m.getSpeed = some v) ∧ (m.accessError = none ↔ ∃ t, m.getTrack = some t) ∧
    ∀ t, m.accessError = some t → (t = t! "velocity EW is not regular" ∧ m.velocityEWStatus ≠ .regular) ∨
      (t = t! "velocity NS is not regular" ∧ m.velocityNSStatus ≠ .regular) := by
  have e : m.accessError = none ↔ m.velocityEWStatus = .regular ∧ m.velocityNSStatus = .regular := by
    unfold GroundSpeedVelocity.accessError
    simp only [some_ite_none, not_not, and_true]
  refine ⟨?_, ?_, ?_⟩
  · rw [e, ground_speed]
    by_cases h : m.velocityEWStatus = .regular ∧ m.velocityNSStatus = .regular
    · rw [if_pos h]; exact ⟨fun _ => ⟨_, rfl⟩, fun _ => h⟩
    · rw [if_neg h]; exact ⟨fun g => (h g).elim, fun ⟨_, g⟩ => (nomatch g)⟩
  · rw [e]
    obtain ⟨g1, g2⟩ := ground_track m
    by_cases h : m.velocityEWStatus = .regular ∧ m.velocityNSStatus = .regular
    · obtain ⟨t, ht, -⟩ := g2 h
      exact ⟨fun _ => ⟨t, ht⟩, fun _ => h⟩
    · rw [g1 h]; exact ⟨fun g => (h g).elim, fun ⟨_, g⟩ => (nomatch g)⟩
  · unfold GroundSpeedVelocity.accessError
    exact chain_sound (fun h => Or.inl ⟨rfl, h⟩) fun _ => chain_sound (fun h => Or.inr ⟨rfl, h⟩) fun _ => chain_end

/-! ### The parsers of the Mode S formats -/

theorem list3 {α : Type} (f : List α) (h : f.length = 3) : ∃ p0 p1 p2, f = [p0, p1, p2] := by
  match f, h with
  | [p0, p1, p2], _ => exact ⟨p0, p1, p2, rfl⟩

theorem list10 {α : Type} (f : List α) (h : f.length = 10) :
    ∃ p0 p1 p2 p3 p4 p5 p6 p7 p8 p9, f = [p0, p1, p2, p3, p4, p5, p6, p7, p8, p9] := by
  match f, h with
  | [p0, p1, p2, p3, p4, p5, p6, p7, p8, p9], _ => exact ⟨_, _, _, _, _, _, _, _, _, _, rfl⟩

/-- What is proved of each parser: a reason is given exactly when the message is refused, and it is true. -/
def ParserReason {α : Type} (error : Option Txt) (parser : Go α) (n : Nat) (m : MessageData) (bytes : Nat) (hasAltitude : Bool) : Prop :=
  (error = none ↔ Succeeds parser) ∧ ∀ t, error = some t → TrueIn (parserReasons n m.downLinkFormat.toNat m.payload bytes hasAltitude) t

theorem plain_parser_reason {α : Type} {parser : Go α} {m : MessageData} (format : UInt8) (bytes : Nat) (hb : 4 ≤ bytes)
    (h : Succeeds parser ↔ m.downLinkFormat = format ∧ m.payload.length = bytes - 4) :
    ParserReason (parserError m format (plainFormatError format.toNat bytes (bytes - 4) m)) parser format.toNat m bytes false := by
  unfold ParserReason parserError plainFormatError
  constructor
  · rw [h]; simp only [some_ite_none, not_not, and_true]
  · exact chain_sound (fun h => holds_at 0 rfl fun e => h (UInt8.toNat_inj.1 e)) fun _ =>
      chain_sound (fun h => holds_at 1 rfl (show m.payload.length + 4 ≠ bytes by omega)) fun _ => chain_end

theorem altitude_bits (p0 p1 p2 : UInt8) (rest : List UInt8) : bits (p0 :: p1 :: p2 :: rest) 12 24 = p1.toNat % 32 * 256 + p2.toNat := by
  rw [show p0 :: p1 :: p2 :: rest = [p0, p1, p2] ++ rest from rfl, bits_prefix _ _ _ _ (by simp)]
  byte_omega

theorem altitude_parser_reason {α : Type} {parser : Go α} {m : MessageData} (format : UInt8) (bytes : Nat) (hb : 7 ≤ bytes)
    (h : Succeeds parser ↔ m.downLinkFormat = format ∧ m.payload.length = bytes - 4 ∧ Succeeds (readAltitude m)) :
    ParserReason (parserError m format (altitudeFormatError format.toNat bytes (bytes - 4) m)) parser format.toNat m bytes true := by
  unfold ParserReason parserError
  by_cases hl : m.payload.length = bytes - 4
  swap
  · unfold altitudeFormatError
    constructor
    · rw [h]; simp only [some_ite_none, not_not, hl, false_and]
    · exact chain_sound (fun h => holds_at 0 rfl fun e => h (UInt8.toNat_inj.1 e)) fun _ =>
        chain_sound (fun h => holds_at 1 rfl (show m.payload.length + 4 ≠ bytes by omega)) fun h => absurd hl h
  obtain ⟨p0, p1, p2, rest, hp⟩ : ∃ p0 p1 p2 rest, m.payload = p0 :: p1 :: p2 :: rest := by
    rcases e : m.payload with _ | ⟨p0, _ | ⟨p1, _ | ⟨p2, rest⟩⟩⟩
    all_goals first
      | exact ⟨_, _, _, _, rfl⟩
      | (rw [e] at hl; simp at hl; omega)
  rw [altitudeFormatError_eq _ _ _ m p0 p1 p2 rest hp hl]
  constructor
  · rw [h]
    simp only [some_ite_none, not_not, and_true, hl, true_and]
    refine and_congr_right fun _ => ?_
    rcases readAltitude_eval m p0 p1 p2 rest hp _ rfl with ⟨method, a, he, hm⟩ | ⟨he, hi⟩
    · exact ⟨fun _ => ⟨_, he⟩, fun _ => altitudeMeaning_not_illegal _ _ _ hm⟩
    · exact ⟨fun g => (g hi).elim, fun ⟨_, g⟩ => by rw [he] at g; cases g⟩
  · exact chain_sound (fun h => holds_at 0 rfl fun e => h (UInt8.toNat_inj.1 e)) fun _ =>
      chain_sound (fun h => holds_at 2 rfl ⟨rfl, by rw [hp, altitude_bits]; exact h⟩) fun _ => chain_end

theorem parseDF0_accepts (m : MessageData) :
    Succeeds (parseDF0 m) ↔ m.downLinkFormat = 0 ∧ m.payload.length = 3 ∧ Succeeds (readAltitude m) := by
  unfold parseDF0
  by_cases h1 : m.downLinkFormat = 0
  swap
  · simp [h1, Succeeds, go_fail, go_bind_err]
  by_cases h2 : m.payload.length = 3
  swap
  · simp [h1, h2, Succeeds, go_fail, go_bind_err]
  obtain ⟨df, ff, pl, pa⟩ := m
  dsimp only at h1 h2
  obtain ⟨p0, p1, p2, rfl⟩ := list3 pl h2
  simp only [h1, true_and]
  go_eval
  cases readAltitude _ with
  | ok x => simp [Succeeds, go_bind_ok]
  | error e => simp [Succeeds, go_bind_err]

theorem parseDF4_accepts (m : MessageData) :
    Succeeds (parseDF4 m) ↔ m.downLinkFormat = 4 ∧ m.payload.length = 3 ∧ Succeeds (readAltitude m) := by
  unfold parseDF4
  by_cases h1 : m.downLinkFormat = 4
  swap
  · simp [h1, Succeeds, go_fail, go_bind_err]
  by_cases h2 : m.payload.length = 3
  swap
  · simp [h1, h2, Succeeds, go_fail, go_bind_err]
  obtain ⟨df, ff, pl, pa⟩ := m
  dsimp only at h1 h2
  obtain ⟨p0, p1, p2, rfl⟩ := list3 pl h2
  simp only [h1, true_and]
  go_eval
  cases readAltitude _ with
  | ok x => simp [Succeeds, go_bind_ok]
  | error e => simp [Succeeds, go_bind_err]

theorem parseDF5_accepts (m : MessageData) :
    Succeeds (parseDF5 m) ↔ m.downLinkFormat = 5 ∧ m.payload.length = 3 := by
  unfold parseDF5
  by_cases h1 : m.downLinkFormat = 5
  swap
  · simp [h1, Succeeds, go_fail, go_bind_err]
  by_cases h2 : m.payload.length = 3
  swap
  · simp [h1, h2, Succeeds, go_fail, go_bind_err]
  obtain ⟨df, ff, pl, pa⟩ := m
  dsimp only at h1 h2
  obtain ⟨p0, p1, p2, rfl⟩ := list3 pl h2
  rw [readIdentity_eval _ p0 p1 p2 [] rfl]
  simp only [h1, true_and]
  go_eval
  simp [Succeeds]

theorem parseDF11_accepts (m : MessageData) :
    Succeeds (parseDF11 m) ↔ m.downLinkFormat = 11 ∧ m.payload.length = 3 := by
  unfold parseDF11
  by_cases h1 : m.downLinkFormat = 11
  swap
  · simp [h1, Succeeds, go_fail, go_bind_err]
  by_cases h2 : m.payload.length = 3
  swap
  · simp [h1, h2, Succeeds, go_fail, go_bind_err]
  obtain ⟨df, ff, pl, pa⟩ := m
  dsimp only at h1 h2
  obtain ⟨p0, p1, p2, rfl⟩ := list3 pl h2
  simp only [h1, true_and]
  go_eval
  simp [Succeeds]

theorem parseDF16_accepts (m : MessageData) :
    Succeeds (parseDF16 m) ↔ m.downLinkFormat = 16 ∧ m.payload.length = 10 ∧ Succeeds (readAltitude m) := by
  unfold parseDF16
  by_cases h1 : m.downLinkFormat = 16
  swap
  · simp [h1, Succeeds, go_fail, go_bind_err]
  by_cases h2 : m.payload.length = 10
  swap
  · simp [h1, h2, Succeeds, go_fail, go_bind_err]
  obtain ⟨df, ff, pl, pa⟩ := m
  dsimp only at h1 h2
  obtain ⟨p0, p1, p2, p3, p4, p5, p6, p7, p8, p9, rfl⟩ := list10 pl h2
  simp only [h1, true_and]
  go_eval
  cases readAltitude _ with
  | ok x => simp [Succeeds, go_bind_ok]
  | error e => simp [Succeeds, go_bind_err]

theorem parseDF17_accepts (m : MessageData) :
    Succeeds (parseDF17 m) ↔ m.downLinkFormat = 17 ∧ m.payload.length = 10 := by
  unfold parseDF17
  by_cases h1 : m.downLinkFormat = 17
  swap
  · simp [h1, Succeeds, go_fail, go_bind_err]
  by_cases h2 : m.payload.length = 10
  swap
  · simp [h1, h2, Succeeds, go_fail, go_bind_err]
  obtain ⟨df, ff, pl, pa⟩ := m
  dsimp only at h1 h2
  obtain ⟨p0, p1, p2, p3, p4, p5, p6, p7, p8, p9, rfl⟩ := list10 pl h2
  simp only [h1, true_and]
  go_eval
  simp [Succeeds]

theorem parseDF18_accepts (m : MessageData) :
    Succeeds (parseDF18 m) ↔ m.downLinkFormat = 18 ∧ m.payload.length = 10 := by
  unfold parseDF18
  by_cases h1 : m.downLinkFormat = 18
  swap
  · simp [h1, Succeeds, go_fail, go_bind_err]
  by_cases h2 : m.payload.length = 10
  swap
  · simp [h1, h2, Succeeds, go_fail, go_bind_err]
  obtain ⟨df, ff, pl, pa⟩ := m
  dsimp only at h1 h2
  obtain ⟨p0, p1, p2, p3, p4, p5, p6, p7, p8, p9, rfl⟩ := list10 pl h2
  simp only [h1, true_and]
  go_eval
  simp [Succeeds]

theorem parseDF19_accepts (m : MessageData) :
    Succeeds (parseDF19 m) ↔ m.downLinkFormat = 19 ∧ m.payload.length = 10 := by
  unfold parseDF19
  by_cases h1 : m.downLinkFormat = 19
  swap
  · simp [h1, Succeeds, go_fail, go_bind_err]
  by_cases h2 : m.payload.length = 10
  swap
  · simp [h1, h2, Succeeds, go_fail, go_bind_err]
  obtain ⟨df, ff, pl, pa⟩ := m
  dsimp only at h1 h2
  obtain ⟨p0, p1, p2, p3, p4, p5, p6, p7, p8, p9, rfl⟩ := list10 pl h2
  simp only [h1, true_and]
  go_eval
  simp [Succeeds]

theorem parseDF20_accepts (m : MessageData) :
    Succeeds (parseDF20 m) ↔ m.downLinkFormat = 20 ∧ m.payload.length = 10 ∧ Succeeds (readAltitude m) := by
  unfold parseDF20
  by_cases h1 : m.downLinkFormat = 20
  swap
  · simp [h1, Succeeds, go_fail, go_bind_err]
  by_cases h2 : m.payload.length = 10
  swap
  · simp [h1, h2, Succeeds, go_fail, go_bind_err]
  obtain ⟨df, ff, pl, pa⟩ := m
  dsimp only at h1 h2
  obtain ⟨p0, p1, p2, p3, p4, p5, p6, p7, p8, p9, rfl⟩ := list10 pl h2
  simp only [h1, true_and]
  go_eval
  cases readAltitude _ with
  | ok x => simp [Succeeds, go_bind_ok]
  | error e => simp [Succeeds, go_bind_err]

theorem parseDF21_accepts (m : MessageData) :
    Succeeds (parseDF21 m) ↔ m.downLinkFormat = 21 ∧ m.payload.length = 10 := by
  unfold parseDF21
  by_cases h1 : m.downLinkFormat = 21
  swap
  · simp [h1, Succeeds, go_fail, go_bind_err]
  by_cases h2 : m.payload.length = 10
  swap
  · simp [h1, h2, Succeeds, go_fail, go_bind_err]
  obtain ⟨df, ff, pl, pa⟩ := m
  dsimp only at h1 h2
  obtain ⟨p0, p1, p2, p3, p4, p5, p6, p7, p8, p9, rfl⟩ := list10 pl h2
  rw [readIdentity_eval _ p0 p1 p2 [p3, p4, p5, p6, p7, p8, p9] rfl]
  simp only [h1, true_and]
  go_eval
  simp [Succeeds]

theorem parseDF24_accepts (m : MessageData) :
    Succeeds (parseDF24 m) ↔ m.downLinkFormat &&& 0x18 = 0x18 ∧ m.payload.length = 10 := by
  unfold parseDF24
  by_cases h1 : m.downLinkFormat &&& 0x18 = 0x18
  swap
  · simp [h1, Succeeds, go_fail, go_bind_err]
  by_cases h2 : m.payload.length = 10
  swap
  · simp [h1, h2, Succeeds, go_fail, go_bind_err]
  obtain ⟨df, ff, pl, pa⟩ := m
  dsimp only at h1 h2
  obtain ⟨p0, p1, p2, p3, p4, p5, p6, p7, p8, p9, rfl⟩ := list10 pl h2
  simp only [h1, true_and]
  go_eval
  simp [Succeeds]

/-- C104. The parsers of one format, whatever header, payload and parity they are given. -/
theorem parser_reason (m : MessageData) :
    ParserReason (parseDF0Error m) (parseDF0 m) 0 m 7 true ∧ ParserReason (parseDF4Error m) (parseDF4 m) 4 m 7 true ∧
    ParserReason (parseDF5Error m) (parseDF5 m) 5 m 7 false ∧ ParserReason (parseDF11Error m) (parseDF11 m) 11 m 7 false ∧
    ParserReason (parseDF16Error m) (parseDF16 m) 16 m 14 true ∧ ParserReason (parseDF17Error m) (parseDF17 m) 17 m 14 false ∧
    ParserReason (parseDF18Error m) (parseDF18 m) 18 m 14 false ∧ ParserReason (parseDF19Error m) (parseDF19 m) 19 m 14 false ∧
    ParserReason (parseDF20Error m) (parseDF20 m) 20 m 14 true ∧ ParserReason (parseDF21Error m) (parseDF21 m) 21 m 14 false ∧
    ParserReason (parseDF24Error m) (parseDF24 m) 24 m 14 false := by
  refine ⟨altitude_parser_reason 0 7 (by omega) ?_, altitude_parser_reason 4 7 (by omega) ?_, plain_parser_reason 5 7 (by omega) ?_,
    plain_parser_reason 11 7 (by omega) ?_, altitude_parser_reason 16 14 (by omega) ?_, plain_parser_reason 17 14 (by omega) ?_,
    plain_parser_reason 18 14 (by omega) ?_, plain_parser_reason 19 14 (by omega) ?_, altitude_parser_reason 20 14 (by omega) ?_,
    plain_parser_reason 21 14 (by omega) ?_, ?_⟩
  · exact parseDF0_accepts m
  · exact parseDF4_accepts m
  · exact parseDF5_accepts m
  · exact parseDF11_accepts m
  · exact parseDF16_accepts m
  · exact parseDF17_accepts m
  · exact parseDF18_accepts m
  · exact parseDF19_accepts m
  · exact parseDF20_accepts m
  · exact parseDF21_accepts m
  · unfold ParserReason parseDF24Error plainFormatError
    constructor
    · rw [parseDF24_accepts]; simp only [some_ite_none, not_not, and_true]
    · refine chain_sound (fun h => holds_at 0 rfl fun e => h ?_) fun _ =>
        chain_sound (fun h => holds_at 1 rfl (show m.payload.length + 4 ≠ 14 by omega)) fun _ => chain_end
      rw [UInt8.toNat_inj.1 (show m.downLinkFormat.toNat = (24 : UInt8).toNat from e)]
      decide

end Modes
