import Verif.Model.BDS61
import Verif.Lemmas.Register
import Verif.Props.ACAS
/-!
# C38: aircraft status

Bits: 1-5 type code 28, 6-8 subtype (0 no information, 1 emergency, 2 ACAS broadcast); 9-11 emergency state and 12-24 Mode A
code for the emergency message, 25-56 reserved; 9-56 the resolution advisory of an ACAS broadcast; 12-56 reserved in the
no-information message.
-/
set_option linter.unusedSimpArgs false
open Spec
namespace Modes

theorem status_acas_eval (b0 b1 b2 b3 b4 b5 b6 : UInt8) (h28 : (b0 &&& 248) >>> 3 = 28) (hs : b0 &&& 7 = 2) :
    readStatusACAS [b0, b1, b2, b3, b4, b5, b6] =
      (readResolutionAdvisory [b1, b2, b3, b4, b5, b6]).map (fun ra => ⟨28, 2, ra⟩) := by
  unfold readStatusACAS readFormatTypeCode readSubtype61 sliceFrom
  go_run [h28, hs]
  simp only [show (1 ≤ 7) = True by decide, if_true, List.drop_succ_cons, List.drop_zero, go_bind_ok]
  cases readResolutionAdvisory [b1, b2, b3, b4, b5, b6] <;> rfl

theorem expectZeros_cons (b : UInt8) (l : List UInt8) (i n : Nat) :
    expectZeros (b :: l) (i + 1) n = expectZeros l i n := by
  induction n generalizing i with
  | zero => rfl
  | succ n ih => simp only [expectZeros, idx, List.getElem?_cons_succ, ih]

/-- The loop tests the remaining bytes. -/
theorem expectZeros_all (l : List UInt8) : expectZeros l 0 l.length = if l.all (· == 0) then .ok () else .error .err := by
  induction l with
  | nil => rfl
  | cons b l ih =>
    simp only [List.length_cons, expectZeros, idx, List.getElem?_cons_zero, go_bind_ok, expectZeros_cons, ih, List.all_cons]
    by_cases h : b = 0 <;> simp [h, fail, go_bind_ok, go_bind_err]

theorem expectZeros4 (b0 b1 b2 b3 b4 b5 b6 : UInt8) : expectZeros [b0, b1, b2, b3, b4, b5, b6] 3 4 =
    if b3 = 0 ∧ b4 = 0 ∧ b5 = 0 ∧ b6 = 0 then .ok () else .error .err := by
  rw [expectZeros_cons, expectZeros_cons, expectZeros_cons]
  have := expectZeros_all [b3, b4, b5, b6]
  simp only [List.length_cons, List.length_nil] at this
  rw [this]
  simp [List.all_cons]

theorem status_emergency_eval (b0 b1 b2 b3 b4 b5 b6 : UInt8) (h28 : (b0 &&& 248) >>> 3 = 28) (hs : b0 &&& 7 = 1) :
    readStatusEmergency [b0, b1, b2, b3, b4, b5, b6] = if b3 = 0 ∧ b4 = 0 ∧ b5 = 0 ∧ b6 = 0 then
      .ok ⟨28, 1, (b1 &&& 224) >>> 5, pack2 (b1 &&& 31) b2⟩ else .error .err := by
  unfold readStatusEmergency readFormatTypeCode readSubtype61 readEmergencyPriorityStatus
  go_run [h28, hs]
  rw [expectZeros4]
  split <;> rfl

/-- Everything the reader can do. -/
theorem bds61_eval (d : List UInt8) :
    (readBDS61 d = .error .err ∧ ¬ (d.length = 7 ∧ bits d 1 5 = 28 ∧
      (bits d 6 8 = 0 ∧ bits d 12 16 = 0 ∨ bits d 6 8 = 1 ∧ bits d 25 56 = 0 ∨
       bits d 6 8 = 2 ∧ Succeeds (readResolutionAdvisory (d.drop 1))))) ∨
    (d.length = 7 ∧ bits d 1 5 = 28 ∧
      ((bits d 6 8 = 0 ∧ bits d 12 16 = 0 ∧ ∃ m, readBDS61 d = .ok (.noInformation m) ∧ m.formatTypeCode = 28 ∧ m.subtype = 0 ∧
          m.emergencyPriorityStatus.toNat = bits d 9 11) ∨
       (bits d 6 8 = 1 ∧ bits d 25 56 = 0 ∧ ∃ m, readBDS61 d = .ok (.emergency m) ∧ m.formatTypeCode = 28 ∧ m.subtype = 1 ∧
          m.emergencyPriorityStatus.toNat = bits d 9 11 ∧ m.modeACode.toNat = bits d 12 24) ∨
       (bits d 6 8 = 2 ∧ ∃ m, readBDS61 d = .ok (.acas m) ∧ m.formatTypeCode = 28 ∧ m.subtype = 2 ∧
          readResolutionAdvisory (d.drop 1) = .ok m.resolutionAdvisory))) := by
  by_cases h7 : d.length = 7
  rotate_left
  · left
    refine ⟨?_, fun h => h7 h.1⟩
    unfold readBDS61
    simp [h7, fail, bind, Except.bind]
  obtain ⟨b0, b1, b2, b3, b4, b5, b6, rfl⟩ := list7 d h7
  have f1 : ((b0 &&& 248) >>> 3).toNat = bits [b0, b1, b2, b3, b4, b5, b6] 1 5 := by byte_omega
  have f2 : (b0 &&& 7).toNat = bits [b0, b1, b2, b3, b4, b5, b6] 6 8 := by byte_omega
  have f3 : ((b1 &&& 224) >>> 5).toNat = bits [b0, b1, b2, b3, b4, b5, b6] 9 11 := by byte_omega
  have f4 : (pack2 (b1 &&& 31) b2).toNat = bits [b0, b1, b2, b3, b4, b5, b6] 12 24 := by byte_omega
  have g1 : ((b0 &&& 248) >>> 3 = 28) = (bits [b0, b1, b2, b3, b4, b5, b6] 1 5 = 28) := by rw [u8_eq, f1]; rfl
  have g2 : (b0 &&& 7 = 0) = (bits [b0, b1, b2, b3, b4, b5, b6] 6 8 = 0) := by rw [u8_eq, f2]; rfl
  have g3 : (b0 &&& 7 = 1) = (bits [b0, b1, b2, b3, b4, b5, b6] 6 8 = 1) := by rw [u8_eq, f2]; rfl
  have g4 : (b0 &&& 7 = 2) = (bits [b0, b1, b2, b3, b4, b5, b6] 6 8 = 2) := by rw [u8_eq, f2]; rfl
  have g5 : (b1 &&& 31 = 0) = (bits [b0, b1, b2, b3, b4, b5, b6] 12 16 = 0) := by byte_iff
  have g6 : (b3 = 0 ∧ b4 = 0 ∧ b5 = 0 ∧ b6 = 0) = (bits [b0, b1, b2, b3, b4, b5, b6] 25 56 = 0) := by byte_iff
  generalize bits [b0, b1, b2, b3, b4, b5, b6] 1 5 = x at *
  generalize bits [b0, b1, b2, b3, b4, b5, b6] 6 8 = y at *
  generalize bits [b0, b1, b2, b3, b4, b5, b6] 9 11 = u at *
  generalize bits [b0, b1, b2, b3, b4, b5, b6] 12 24 = v at *
  generalize bits [b0, b1, b2, b3, b4, b5, b6] 12 16 = w at *
  generalize bits [b0, b1, b2, b3, b4, b5, b6] 25 56 = z at *
  by_cases h28 : x = 28
  rotate_left
  · left
    refine ⟨?_, fun h => h28 h.2.1⟩
    unfold readBDS61 readFormatTypeCode
    go_run [g1]
    rw [if_pos h28]
  have e28 : (b0 &&& 248) >>> 3 = 28 := by rw [g1]; exact h28
  by_cases h0 : y = 0
  · have e0 : b0 &&& 7 = 0 := by rw [g2]; exact h0
    unfold readBDS61 readFormatTypeCode readSubtype61
    go_run [e28, e0]
    unfold readStatusNoInformation readFormatTypeCode readSubtype61 readEmergencyPriorityStatus
    go_run [e28, e0]
    by_cases hr : w = 0
    · have er : b1 &&& 31 = 0 := by rw [g5]; exact hr
      simp only [noInformationLoop]
      go_run [er]
      exact Or.inr ⟨trivial, h28, Or.inl ⟨h0, hr, _, rfl, rfl, rfl, f3⟩⟩
    · have er : ¬ b1 &&& 31 = 0 := by rw [g5]; exact hr
      go_run [er]
      exact Or.inl ⟨trivial, by rintro ⟨-, -, h | h | h⟩ <;> omega⟩
  by_cases h1 : y = 1
  · have e1 : b0 &&& 7 = 1 := by rw [g3]; exact h1
    have e0 : (1 : UInt8) = 0 ↔ False := by decide
    unfold readBDS61 readFormatTypeCode readSubtype61
    go_run [e28, e1, e0]
    rw [status_emergency_eval b0 b1 b2 b3 b4 b5 b6 e28 e1]
    by_cases hr : z = 0
    · rw [if_pos (by rw [g6]; exact hr)]
      exact Or.inr ⟨trivial, h28, Or.inr (Or.inl ⟨h1, hr, _, rfl, rfl, rfl, f3, f4⟩)⟩
    · rw [if_neg (by rw [g6]; exact hr)]
      exact Or.inl ⟨rfl, by rintro ⟨-, -, h | h | h⟩ <;> omega⟩
  by_cases h2 : y = 2
  · have e2 : b0 &&& 7 = 2 := by rw [g4]; exact h2
    have e0 : (2 : UInt8) = 0 ↔ False := by decide
    have e1 : (2 : UInt8) = 1 ↔ False := by decide
    unfold readBDS61 readFormatTypeCode readSubtype61
    go_run [e28, e2, e0, e1]
    rw [status_acas_eval b0 b1 b2 b3 b4 b5 b6 e28 e2]
    simp only [List.drop_succ_cons, List.drop_zero]
    have hnp := ra_noPanic [b1, b2, b3, b4, b5, b6]
    cases hra : readResolutionAdvisory [b1, b2, b3, b4, b5, b6] with
    | ok ra =>
      exact Or.inr ⟨trivial, h28, Or.inr (Or.inr ⟨h2, _, rfl, rfl, rfl, rfl⟩)⟩
    | error e =>
      cases e with
      | panic => exact absurd hra hnp
      | err => exact Or.inl ⟨rfl, by
          rintro ⟨-, -, h | h | ⟨-, x, hx⟩⟩
          · omega
          · omega
          · cases hx⟩
  · left
    refine ⟨?_, by rintro ⟨-, -, h | h | h⟩ <;> omega⟩
    unfold readBDS61 readFormatTypeCode readSubtype61
    go_run [e28, g2, g3, g4, h0, h1, h2]

/-- C38. Acceptance, as far as the reserved bits are concerned exactly for emergency messages; the no-information message
only has its bits 12-16 tested (see `status_reserved_refuted`). Never a panic. -/
theorem status_accepts_partial (d : List UInt8) :
    (Succeeds (readBDS61 d) ↔ d.length = 7 ∧ bits d 1 5 = 28 ∧
      (bits d 6 8 = 0 ∧ bits d 12 16 = 0 ∨ bits d 6 8 = 1 ∧ bits d 25 56 = 0 ∨
       bits d 6 8 = 2 ∧ Succeeds (readResolutionAdvisory (d.drop 1)))) ∧
    NoPanic (readBDS61 d) := by
  rcases bds61_eval d with ⟨h, hn⟩ | ⟨h7, h28, ⟨hs, hr, m, hm, -⟩ | ⟨hs, hr, m, hm, -⟩ | ⟨hs, m, hm, -, -, hra⟩⟩
  · exact ⟨⟨fun ⟨m, hm⟩ => (by rw [h] at hm; cases hm), fun h => absurd h hn⟩, by rw [h]; simp [NoPanic]⟩
  · exact ⟨⟨fun _ => ⟨h7, h28, Or.inl ⟨hs, hr⟩⟩, fun _ => ⟨_, hm⟩⟩, by rw [hm]; simp [NoPanic]⟩
  · exact ⟨⟨fun _ => ⟨h7, h28, Or.inr (Or.inl ⟨hs, hr⟩)⟩, fun _ => ⟨_, hm⟩⟩, by rw [hm]; simp [NoPanic]⟩
  · exact ⟨⟨fun _ => ⟨h7, h28, Or.inr (Or.inr ⟨hs, _, hra⟩)⟩, fun _ => ⟨_, hm⟩⟩, by rw [hm]; simp [NoPanic]⟩

/-- C38. What a read status contains: the kind is the subtype, the emergency state and the Mode A code are in their
positions, the resolution advisory is the one in bits 9-56. -/
theorem status_content (d : List UInt8) (m : AircraftStatus) (h : readBDS61 d = .ok m) :
    match m with
    | .noInformation m => bits d 6 8 = 0 ∧ m.formatTypeCode.toNat = bits d 1 5 ∧ m.subtype.toNat = 0 ∧
        m.emergencyPriorityStatus.toNat = bits d 9 11
    | .emergency m => bits d 6 8 = 1 ∧ m.formatTypeCode.toNat = bits d 1 5 ∧ m.subtype.toNat = 1 ∧
        m.emergencyPriorityStatus.toNat = bits d 9 11 ∧ m.modeACode.toNat = bits d 12 24
    | .acas m => bits d 6 8 = 2 ∧ m.formatTypeCode.toNat = bits d 1 5 ∧ m.subtype.toNat = 2 ∧
        readResolutionAdvisory (d.drop 1) = .ok m.resolutionAdvisory := by
  rcases bds61_eval d with ⟨e, hn⟩ | ⟨h7, h28, ⟨hs, hr, m', hm, f, s, c⟩ | ⟨hs, hr, m', hm, f, s, c⟩ | ⟨hs, m', hm, f, s, c⟩⟩
  · rw [e] at h; cases h
  all_goals
    rw [hm] at h
    cases h
    exact ⟨hs, by rw [f, h28]; rfl, by rw [s]; rfl, c⟩

/-- C38, the part that is false: a no-information message with any garbage in the reserved bits 17-56 is accepted (the loop
over these bytes tests byte 1 again and again). -/
theorem status_reserved_refuted (d : List UInt8) (h7 : d.length = 7) (h28 : bits d 1 5 = 28) (hs : bits d 6 8 = 0)
    (hr : bits d 12 16 = 0) : Succeeds (readBDS61 d) :=
  (status_accepts_partial d).1.2 ⟨h7, h28, Or.inl ⟨hs, hr⟩⟩

example : let d : List UInt8 := [0xE0, 0, 0xFF, 0xFF, 0xFF, 0xFF, 0xFF]
    d.length = 7 ∧ bits d 1 5 = 28 ∧ bits d 6 8 = 0 ∧ bits d 12 16 = 0 ∧ bits d 17 56 = 2 ^ 40 - 1 := by decide

/-- C38: coherency of a read status: no emergency in a no-information message, an emergency state of at most 5 (the
standard's state 6, downed aircraft, is judged incoherent). -/
theorem status_coherent_iff (d : List UInt8) (m : AircraftStatus) (h : readBDS61 d = .ok m) :
    m.coherent = true ↔ (bits d 6 8 = 0 → bits d 9 11 = 0) ∧ (bits d 6 8 = 1 → bits d 9 11 ≤ 5) := by
  have := status_content d m h
  cases m <;> simp only at this <;> simp only [AircraftStatus.coherent]
  · rw [← this.2.2.2]; word_nat
    simp [this.1]
  · rw [← this.2.2.2.1]
    simp only [Bool.not_eq_true', decide_eq_false_iff_not, u8_gt]
    simp [this.1]
  · simp [this.1]

/-- 8D A2C1B6 E112B600000000 760759: emergency state 0, code 2B6... -/
example : Succeeds (readBDS61 [0xE1, 0x12, 0xB6, 0, 0, 0, 0]) ∧ bits [0xE1, 0x12, 0xB6, 0, 0, 0, 0] 12 24 = 0x12B6 :=
  ⟨(status_accepts_partial _).1.2 ⟨by decide, by decide, Or.inr (Or.inl (by decide))⟩, by decide⟩

end Modes
