import Verif.Lemmas.Frame
/-!
# C04, C05: fields of an accepted frame

Every decoded field is the number in its ICAO bit positions (`Spec.bits`) of the received frame.
-/
set_option linter.unusedSimpArgs false
open Spec
namespace Modes

/-- Turn the altitude part of a parser into its meaning. -/
theorem altitude_ok {α : Type} (md : MessageData) (p0 p1 p2 : UInt8) (rest : List UInt8)
    (hp : md.payload = p0 :: p1 :: p2 :: rest) (k : Int × AltitudeReportMethod → α) (m : α)
    (h : (readAltitude md >>= fun x => (Except.ok (k x) : Go α)) = .ok m) :
    ∃ a method, m = k (a, method) ∧ AltitudeMeaning (p1.toNat % 32 * 256 + p2.toNat) method a := by
  rcases readAltitude_eval md p0 p1 p2 rest hp _ rfl with ⟨method, a, he, hm⟩ | ⟨he, _⟩
  · rw [he, go_bind_ok] at h
    injection h with h
    exact ⟨a, method, h.symm, hm⟩
  · rw [he, go_bind_err] at h
    cases h

theorem flag_toNat (b m : UInt8) : (if b &&& m ≠ 0 then (1 : UInt8) else 0).toNat = if (b &&& m).toNat ≠ 0 then 1 else 0 := by
  have : (b &&& m ≠ 0) ↔ (b &&& m).toNat ≠ 0 := by
    rw [ne_eq, ← UInt8.toNat_inj]; rfl
  by_cases h : (b &&& m).toNat ≠ 0
  · rw [if_pos h, if_pos (this.2 h)]; rfl
  · rw [if_neg h, if_neg (fun e => h (this.1 e))]; rfl

/-- C04, short air-air surveillance (DF0). -/
theorem df0_fields (f : List UInt8) (m : MessageDF0) (h : readMessage f = .ok (.df0 m)) :
    f.length = 7 ∧
    bits f 1 5 = 0 ∧
    m.verticalStatus.toNat = bits f 6 6 ∧
    m.crossLinkCapability.toNat = bits f 7 7 ∧
    m.sensitivityLevel.toNat = bits f 9 11 ∧
    m.replyInformation.toNat = bits f 14 17 ∧
    AltitudeMeaning (bits f 20 32) m.altitudeReportMethod m.altitude ∧
    beNat m.data.parity = bits f 33 56 := by
  replace h := readMessage_ok f _ h
  rcases h with ⟨b0, b1, b2, b3, b4, b5, b6, rfl, h⟩ | ⟨b0, b1, b2, b3, b4, b5, b6, b7, b8, b9, b10, b11, b12, b13, rfl, h⟩
  · rw [dispatch_df0] at h
    obtain ⟨hd, h⟩ := h
    unfold parseDF0 at h
    have hd' : (b0 &&& 0xF8) >>> 3 = 0 := by rw [← UInt8.toNat_inj]; exact hd
    simp only [hd'] at h
    go_eval at h
    obtain ⟨a, method, rfl, hm⟩ := altitude_ok _ b1 b2 b3 [] rfl _ _ h
    refine ⟨rfl, ?_, ?_, ?_, ?_, ?_, ?_, ?_⟩
    · revert hd; byte_bounds; bytes_nat; omega
    · simp only [flag_toNat]; byte_bounds; bytes_nat; split <;> omega
    · simp only [flag_toNat]; byte_bounds; bytes_nat; split <;> omega
    · byte_omega
    · simp only [or_1_7]; byte_omega
    · have e : bits [b0, b1, b2, b3, b4, b5, b6] 20 32 = b2.toNat % 32 * 256 + b3.toNat := by byte_omega
      rw [e]; exact hm
    · byte_omega
  · rw [dispatch_df0] at h
    obtain ⟨hd, h⟩ := h
    unfold parseDF0 at h
    have hd' : (b0 &&& 0xF8) >>> 3 = 0 := by rw [← UInt8.toNat_inj]; exact hd
    simp only [hd'] at h
    go_eval at h
    cases h

/-- C04, surveillance altitude reply (DF4). -/
theorem df4_fields (f : List UInt8) (m : MessageDF4) (h : readMessage f = .ok (.df4 m)) :
    f.length = 7 ∧
    bits f 1 5 = 4 ∧
    m.flightStatus.toNat = bits f 6 8 ∧
    m.downlinkRequest.toNat = bits f 9 13 ∧
    m.utilityMessage.interrogatorIdentifier.toNat = bits f 14 17 ∧
    m.utilityMessage.identifierDesignator.toNat = bits f 18 19 ∧
    AltitudeMeaning (bits f 20 32) m.altitudeReportMethod m.altitude ∧
    beNat m.data.parity = bits f 33 56 := by
  replace h := readMessage_ok f _ h
  rcases h with ⟨b0, b1, b2, b3, b4, b5, b6, rfl, h⟩ | ⟨b0, b1, b2, b3, b4, b5, b6, b7, b8, b9, b10, b11, b12, b13, rfl, h⟩
  · rw [dispatch_df4] at h
    obtain ⟨hd, h⟩ := h
    unfold parseDF4 at h
    have hd' : (b0 &&& 0xF8) >>> 3 = 4 := by rw [← UInt8.toNat_inj]; exact hd
    simp only [hd'] at h
    go_eval at h
    obtain ⟨a, method, rfl, hm⟩ := altitude_ok _ b1 b2 b3 [] rfl _ _ h
    refine ⟨rfl, ?_, ?_, ?_, ?_, ?_, ?_, ?_⟩
    · revert hd; byte_bounds; bytes_nat; omega
    · byte_omega
    · byte_omega
    · simp only [or_1_7]; byte_omega
    · byte_omega
    · have e : bits [b0, b1, b2, b3, b4, b5, b6] 20 32 = b2.toNat % 32 * 256 + b3.toNat := by byte_omega
      rw [e]; exact hm
    · byte_omega
  · rw [dispatch_df4] at h
    obtain ⟨hd, h⟩ := h
    unfold parseDF4 at h
    have hd' : (b0 &&& 0xF8) >>> 3 = 4 := by rw [← UInt8.toNat_inj]; exact hd
    simp only [hd'] at h
    go_eval at h
    cases h

/-- C04, surveillance identity reply (DF5). -/
theorem df5_fields (f : List UInt8) (m : MessageDF5) (h : readMessage f = .ok (.df5 m)) :
    f.length = 7 ∧
    bits f 1 5 = 5 ∧
    m.flightStatus.toNat = bits f 6 8 ∧
    m.downlinkRequest.toNat = bits f 9 13 ∧
    m.utilityMessage.interrogatorIdentifier.toNat = bits f 14 17 ∧
    m.utilityMessage.identifierDesignator.toNat = bits f 18 19 ∧
    m.identity = digitsText (squawk (bits f 20 32)) ∧
    beNat m.data.parity = bits f 33 56 := by
  replace h := readMessage_ok f _ h
  rcases h with ⟨b0, b1, b2, b3, b4, b5, b6, rfl, h⟩ | ⟨b0, b1, b2, b3, b4, b5, b6, b7, b8, b9, b10, b11, b12, b13, rfl, h⟩
  · rw [dispatch_df5] at h
    obtain ⟨hd, h⟩ := h
    unfold parseDF5 at h
    have hd' : (b0 &&& 0xF8) >>> 3 = 5 := by rw [← UInt8.toNat_inj]; exact hd
    simp only [hd'] at h
    rw [readIdentity_eval _ b1 b2 b3 [] rfl] at h
    go_eval at h
    injection h with h
    subst h
    refine ⟨rfl, ?_, ?_, ?_, ?_, ?_, ?_, ?_⟩
    · revert hd; byte_bounds; bytes_nat; omega
    · byte_omega
    · byte_omega
    · simp only [or_1_7]; byte_omega
    · byte_omega
    · have e : bits [b0, b1, b2, b3, b4, b5, b6] 20 32 = b2.toNat % 32 * 256 + b3.toNat := by byte_omega
      rw [e]
    · byte_omega
  · rw [dispatch_df5] at h
    obtain ⟨hd, h⟩ := h
    unfold parseDF5 at h
    have hd' : (b0 &&& 0xF8) >>> 3 = 5 := by rw [← UInt8.toNat_inj]; exact hd
    simp only [hd'] at h
    go_eval at h
    cases h

/-- C04, all-call reply (DF11). -/
theorem df11_fields (f : List UInt8) (m : MessageDF11) (h : readMessage f = .ok (.df11 m)) :
    f.length = 7 ∧
    bits f 1 5 = 11 ∧
    m.capability.toNat = bits f 6 8 ∧
    m.addressAnnounced.toNat = bits f 9 32 ∧
    beNat m.data.parity = bits f 33 56 := by
  replace h := readMessage_ok f _ h
  rcases h with ⟨b0, b1, b2, b3, b4, b5, b6, rfl, h⟩ | ⟨b0, b1, b2, b3, b4, b5, b6, b7, b8, b9, b10, b11, b12, b13, rfl, h⟩
  · rw [dispatch_df11] at h
    obtain ⟨hd, h⟩ := h
    unfold parseDF11 at h
    have hd' : (b0 &&& 0xF8) >>> 3 = 11 := by rw [← UInt8.toNat_inj]; exact hd
    simp only [hd'] at h
    go_eval at h
    injection h with h
    subst h
    refine ⟨rfl, ?_, ?_, ?_, ?_⟩
    · revert hd; byte_bounds; bytes_nat; omega
    · byte_omega
    · byte_omega
    · byte_omega
  · rw [dispatch_df11] at h
    obtain ⟨hd, h⟩ := h
    unfold parseDF11 at h
    have hd' : (b0 &&& 0xF8) >>> 3 = 11 := by rw [← UInt8.toNat_inj]; exact hd
    simp only [hd'] at h
    go_eval at h
    cases h

/-- C05, long air-air surveillance (DF16). -/
theorem df16_fields (f : List UInt8) (m : MessageDF16) (h : readMessage f = .ok (.df16 m)) :
    f.length = 14 ∧
    bits f 1 5 = 16 ∧
    m.verticalStatus.toNat = bits f 6 6 ∧
    m.sensitivityLevel.toNat = bits f 9 11 ∧
    m.replyInformation.toNat = bits f 14 17 ∧
    m.messageACAS = (f.drop 4).take 7 ∧
    AltitudeMeaning (bits f 20 32) m.altitudeReportMethod m.altitude ∧
    beNat m.data.parity = bits f 89 112 := by
  replace h := readMessage_ok f _ h
  rcases h with ⟨b0, b1, b2, b3, b4, b5, b6, rfl, h⟩ | ⟨b0, b1, b2, b3, b4, b5, b6, b7, b8, b9, b10, b11, b12, b13, rfl, h⟩
  · rw [dispatch_df16] at h
    obtain ⟨hd, h⟩ := h
    unfold parseDF16 at h
    have hd' : (b0 &&& 0xF8) >>> 3 = 16 := by rw [← UInt8.toNat_inj]; exact hd
    simp only [hd'] at h
    go_eval at h
    cases h
  · rw [dispatch_df16] at h
    obtain ⟨hd, h⟩ := h
    unfold parseDF16 at h
    have hd' : (b0 &&& 0xF8) >>> 3 = 16 := by rw [← UInt8.toNat_inj]; exact hd
    simp only [hd'] at h
    go_eval at h
    obtain ⟨a, method, rfl, hm⟩ := altitude_ok _ b1 b2 b3 [b4, b5, b6, b7, b8, b9, b10] rfl _ _ h
    refine ⟨rfl, ?_, ?_, ?_, ?_, ?_, ?_, ?_⟩
    · revert hd; byte_bounds; bytes_nat; omega
    · simp only [flag_toNat]; byte_bounds; bytes_nat; split <;> omega
    · byte_omega
    · simp only [or_1_7]; byte_omega
    · rfl
    · have e : bits [b0, b1, b2, b3, b4, b5, b6, b7, b8, b9, b10, b11, b12, b13] 20 32 = b2.toNat % 32 * 256 + b3.toNat := by byte_omega
      rw [e]; exact hm
    · byte_omega

/-- C05, extended squitter (DF17). -/
theorem df17_fields (f : List UInt8) (m : MessageDF17) (h : readMessage f = .ok (.df17 m)) :
    f.length = 14 ∧
    bits f 1 5 = 17 ∧
    m.capability.toNat = bits f 6 8 ∧
    m.addressAnnounced.toNat = bits f 9 32 ∧
    m.messageExtendedSquitter = (f.drop 4).take 7 ∧
    beNat m.data.parity = bits f 89 112 := by
  replace h := readMessage_ok f _ h
  rcases h with ⟨b0, b1, b2, b3, b4, b5, b6, rfl, h⟩ | ⟨b0, b1, b2, b3, b4, b5, b6, b7, b8, b9, b10, b11, b12, b13, rfl, h⟩
  · rw [dispatch_df17] at h
    obtain ⟨hd, h⟩ := h
    unfold parseDF17 at h
    have hd' : (b0 &&& 0xF8) >>> 3 = 17 := by rw [← UInt8.toNat_inj]; exact hd
    simp only [hd'] at h
    go_eval at h
    cases h
  · rw [dispatch_df17] at h
    obtain ⟨hd, h⟩ := h
    unfold parseDF17 at h
    have hd' : (b0 &&& 0xF8) >>> 3 = 17 := by rw [← UInt8.toNat_inj]; exact hd
    simp only [hd'] at h
    go_eval at h
    injection h with h
    subst h
    refine ⟨rfl, ?_, ?_, ?_, ?_, ?_⟩
    · revert hd; byte_bounds; bytes_nat; omega
    · byte_omega
    · byte_omega
    · rfl
    · byte_omega

/-- C05, extended squitter, non transponder (DF18). -/
theorem df18_fields (f : List UInt8) (m : MessageDF18) (h : readMessage f = .ok (.df18 m)) :
    f.length = 14 ∧
    bits f 1 5 = 18 ∧
    m.controlField.toNat = bits f 6 8 ∧
    m.addressAnnounced.toNat = bits f 9 32 ∧
    m.messageExtendedSquitter = (f.drop 4).take 7 ∧
    beNat m.data.parity = bits f 89 112 := by
  replace h := readMessage_ok f _ h
  rcases h with ⟨b0, b1, b2, b3, b4, b5, b6, rfl, h⟩ | ⟨b0, b1, b2, b3, b4, b5, b6, b7, b8, b9, b10, b11, b12, b13, rfl, h⟩
  · rw [dispatch_df18] at h
    obtain ⟨hd, h⟩ := h
    unfold parseDF18 at h
    have hd' : (b0 &&& 0xF8) >>> 3 = 18 := by rw [← UInt8.toNat_inj]; exact hd
    simp only [hd'] at h
    go_eval at h
    cases h
  · rw [dispatch_df18] at h
    obtain ⟨hd, h⟩ := h
    unfold parseDF18 at h
    have hd' : (b0 &&& 0xF8) >>> 3 = 18 := by rw [← UInt8.toNat_inj]; exact hd
    simp only [hd'] at h
    go_eval at h
    injection h with h
    subst h
    refine ⟨rfl, ?_, ?_, ?_, ?_, ?_⟩
    · revert hd; byte_bounds; bytes_nat; omega
    · byte_omega
    · byte_omega
    · rfl
    · byte_omega

/-- C05, military extended squitter (DF19). -/
theorem df19_fields (f : List UInt8) (m : MessageDF19) (h : readMessage f = .ok (.df19 m)) :
    f.length = 14 ∧
    bits f 1 5 = 19 ∧
    m.applicationField.toNat = bits f 6 8 ∧
    beNat m.data.parity = bits f 89 112 := by
  replace h := readMessage_ok f _ h
  rcases h with ⟨b0, b1, b2, b3, b4, b5, b6, rfl, h⟩ | ⟨b0, b1, b2, b3, b4, b5, b6, b7, b8, b9, b10, b11, b12, b13, rfl, h⟩
  · rw [dispatch_df19] at h
    obtain ⟨hd, h⟩ := h
    unfold parseDF19 at h
    have hd' : (b0 &&& 0xF8) >>> 3 = 19 := by rw [← UInt8.toNat_inj]; exact hd
    simp only [hd'] at h
    go_eval at h
    cases h
  · rw [dispatch_df19] at h
    obtain ⟨hd, h⟩ := h
    unfold parseDF19 at h
    have hd' : (b0 &&& 0xF8) >>> 3 = 19 := by rw [← UInt8.toNat_inj]; exact hd
    simp only [hd'] at h
    go_eval at h
    injection h with h
    subst h
    refine ⟨rfl, ?_, ?_, ?_⟩
    · revert hd; byte_bounds; bytes_nat; omega
    · byte_omega
    · byte_omega

/-- C05, Comm-B altitude reply (DF20). -/
theorem df20_fields (f : List UInt8) (m : MessageDF20) (h : readMessage f = .ok (.df20 m)) :
    f.length = 14 ∧
    bits f 1 5 = 20 ∧
    m.flightStatus.toNat = bits f 6 8 ∧
    m.downlinkRequest.toNat = bits f 9 13 ∧
    m.utilityMessage.interrogatorIdentifier.toNat = bits f 14 17 ∧
    m.utilityMessage.identifierDesignator.toNat = bits f 18 19 ∧
    m.messageCommB = (f.drop 4).take 7 ∧
    AltitudeMeaning (bits f 20 32) m.altitudeReportMethod m.altitude ∧
    beNat m.data.parity = bits f 89 112 := by
  replace h := readMessage_ok f _ h
  rcases h with ⟨b0, b1, b2, b3, b4, b5, b6, rfl, h⟩ | ⟨b0, b1, b2, b3, b4, b5, b6, b7, b8, b9, b10, b11, b12, b13, rfl, h⟩
  · rw [dispatch_df20] at h
    obtain ⟨hd, h⟩ := h
    unfold parseDF20 at h
    have hd' : (b0 &&& 0xF8) >>> 3 = 20 := by rw [← UInt8.toNat_inj]; exact hd
    simp only [hd'] at h
    go_eval at h
    cases h
  · rw [dispatch_df20] at h
    obtain ⟨hd, h⟩ := h
    unfold parseDF20 at h
    have hd' : (b0 &&& 0xF8) >>> 3 = 20 := by rw [← UInt8.toNat_inj]; exact hd
    simp only [hd'] at h
    go_eval at h
    obtain ⟨a, method, rfl, hm⟩ := altitude_ok _ b1 b2 b3 [b4, b5, b6, b7, b8, b9, b10] rfl _ _ h
    refine ⟨rfl, ?_, ?_, ?_, ?_, ?_, ?_, ?_, ?_⟩
    · revert hd; byte_bounds; bytes_nat; omega
    · byte_omega
    · byte_omega
    · simp only [or_1_7]; byte_omega
    · byte_omega
    · rfl
    · have e : bits [b0, b1, b2, b3, b4, b5, b6, b7, b8, b9, b10, b11, b12, b13] 20 32 = b2.toNat % 32 * 256 + b3.toNat := by byte_omega
      rw [e]; exact hm
    · byte_omega

/-- C05, Comm-B identity reply (DF21). -/
theorem df21_fields (f : List UInt8) (m : MessageDF21) (h : readMessage f = .ok (.df21 m)) :
    f.length = 14 ∧
    bits f 1 5 = 21 ∧
    m.flightStatus.toNat = bits f 6 8 ∧
    m.downlinkRequest.toNat = bits f 9 13 ∧
    m.utilityMessage.interrogatorIdentifier.toNat = bits f 14 17 ∧
    m.utilityMessage.identifierDesignator.toNat = bits f 18 19 ∧
    m.messageCommB = (f.drop 4).take 7 ∧
    m.identity = digitsText (squawk (bits f 20 32)) ∧
    beNat m.data.parity = bits f 89 112 := by
  replace h := readMessage_ok f _ h
  rcases h with ⟨b0, b1, b2, b3, b4, b5, b6, rfl, h⟩ | ⟨b0, b1, b2, b3, b4, b5, b6, b7, b8, b9, b10, b11, b12, b13, rfl, h⟩
  · rw [dispatch_df21] at h
    obtain ⟨hd, h⟩ := h
    unfold parseDF21 at h
    have hd' : (b0 &&& 0xF8) >>> 3 = 21 := by rw [← UInt8.toNat_inj]; exact hd
    simp only [hd'] at h
    go_eval at h
    cases h
  · rw [dispatch_df21] at h
    obtain ⟨hd, h⟩ := h
    unfold parseDF21 at h
    have hd' : (b0 &&& 0xF8) >>> 3 = 21 := by rw [← UInt8.toNat_inj]; exact hd
    simp only [hd'] at h
    rw [readIdentity_eval _ b1 b2 b3 [b4, b5, b6, b7, b8, b9, b10] rfl] at h
    go_eval at h
    injection h with h
    subst h
    refine ⟨rfl, ?_, ?_, ?_, ?_, ?_, ?_, ?_, ?_⟩
    · revert hd; byte_bounds; bytes_nat; omega
    · byte_omega
    · byte_omega
    · simp only [or_1_7]; byte_omega
    · byte_omega
    · rfl
    · have e : bits [b0, b1, b2, b3, b4, b5, b6, b7, b8, b9, b10, b11, b12, b13] 20 32 = b2.toNat % 32 * 256 + b3.toNat := by byte_omega
      rw [e]
    · byte_omega

/-- C05, Comm-D (DF24 to 31). -/
theorem df24_fields (f : List UInt8) (m : MessageDF24) (h : readMessage f = .ok (.df24 m)) :
    f.length = 14 ∧
    24 ≤ bits f 1 5 ∧
    m.controlELM.toNat = bits f 4 4 ∧
    m.numberOfDSegment.toNat = bits f 5 8 ∧
    m.messageCommD = (f.drop 1).take 10 ∧
    beNat m.data.parity = bits f 89 112 := by
  replace h := readMessage_ok f _ h
  rcases h with ⟨b0, b1, b2, b3, b4, b5, b6, rfl, h⟩ | ⟨b0, b1, b2, b3, b4, b5, b6, b7, b8, b9, b10, b11, b12, b13, rfl, h⟩
  · rw [dispatch_df24] at h
    obtain ⟨hd, h⟩ := h
    unfold parseDF24 at h
    have hd' : ((b0 &&& 0xF8) >>> 3 &&& 0x18) = 0x18 := by
      rw [← UInt8.toNat_inj]; revert hd; byte_bounds; bytes_nat; omega
    simp only [hd'] at h
    go_eval at h
    cases h
  · rw [dispatch_df24] at h
    obtain ⟨hd, h⟩ := h
    unfold parseDF24 at h
    have hd' : ((b0 &&& 0xF8) >>> 3 &&& 0x18) = 0x18 := by
      rw [← UInt8.toNat_inj]; revert hd; byte_bounds; bytes_nat; omega
    simp only [hd'] at h
    go_eval at h
    injection h with h
    subst h
    refine ⟨rfl, ?_, ?_, ?_, ?_, ?_⟩
    · revert hd; byte_bounds; bytes_nat; omega
    · simp only [flag_toNat]; byte_bounds; bytes_nat; split <;> omega
    · simp only [or_seg]; byte_omega
    · rfl
    · byte_omega

/-! Concrete frames of every format meet the hypotheses above. -/

example : ∃ m, readMessage [0x02, 0xE1, 0x97, 0x98, 1, 2, 3] = .ok (.df0 m) := ⟨_, rfl⟩
example : ∃ m, readMessage [0x20, 0x00, 0x16, 0xB8, 1, 2, 3] = .ok (.df4 m) := ⟨_, rfl⟩
example : ∃ m, readMessage [0x28, 0x00, 0x0A, 0xAA, 1, 2, 3] = .ok (.df5 m) := ⟨_, rfl⟩
example : ∃ m, readMessage [0x5D, 0x48, 0x40, 0xD6, 1, 2, 3] = .ok (.df11 m) := ⟨_, rfl⟩
example : ∃ m, readMessage [0x80, 0xE1, 0x97, 0x98, 0x30, 1, 2, 3, 4, 5, 6, 7, 8, 9] = .ok (.df16 m) := ⟨_, rfl⟩
example : ∃ m, readMessage [0x8D, 0x48, 0x40, 0xD6, 0x20, 0x2C, 0xC3, 0x71, 0xC3, 0x2C, 0xE0, 0x57, 0x60, 0x98] =
    .ok (.df17 m) := ⟨_, rfl⟩
example : ∃ m, readMessage [0x92, 0x48, 0x40, 0xD6, 0x20, 0x2C, 0xC3, 0x71, 0xC3, 0x2C, 0xE0, 1, 2, 3] =
    .ok (.df18 m) := ⟨_, rfl⟩
example : ∃ m, readMessage [0x98, 0x48, 0x40, 0xD6, 0x20, 0x2C, 0xC3, 0x71, 0xC3, 0x2C, 0xE0, 1, 2, 3] =
    .ok (.df19 m) := ⟨_, rfl⟩
example : ∃ m, readMessage [0xA0, 0x00, 0x16, 0xB8, 0x20, 0x2C, 0xC3, 0x71, 0xC3, 0x2C, 0xE0, 1, 2, 3] =
    .ok (.df20 m) := ⟨_, rfl⟩
example : ∃ m, readMessage [0xA8, 0x00, 0x0A, 0xAA, 0x20, 0x2C, 0xC3, 0x71, 0xC3, 0x2C, 0xE0, 1, 2, 3] =
    .ok (.df21 m) := ⟨_, rfl⟩
example : ∃ m, readMessage [0xD3, 0x00, 0x0A, 0xAA, 0x20, 0x2C, 0xC3, 0x71, 0xC3, 0x2C, 0xE0, 1, 2, 3] =
    .ok (.df24 m) := ⟨_, rfl⟩

end Modes
