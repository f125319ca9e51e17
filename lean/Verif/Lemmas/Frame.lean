import Verif.Lemmas.ModeS
/-! Inversion of the frame reader: what an accepted frame looks like. -/
set_option linter.unusedSimpArgs false
open Spec
namespace Modes

theorem dispatch_df0 (md : MessageData) (m : MessageDF0) :
    dispatch md = .ok (.df0 m) ↔ md.downLinkFormat.toNat = 0 ∧ parseDF0 md = .ok m := by
  constructor
  · intro h
    unfold dispatch at h
    split at h <;> first
      | (obtain ⟨x, hx, e⟩ := (go_map_eq_ok _ _ _).1 h
         first | cases e; exact ⟨by assumption, hx⟩ | cases e)
      | cases h
  · rintro ⟨h1, h2⟩
    unfold dispatch
    simp only [h1, h2, go_map_ok]

theorem dispatch_df4 (md : MessageData) (m : MessageDF4) :
    dispatch md = .ok (.df4 m) ↔ md.downLinkFormat.toNat = 4 ∧ parseDF4 md = .ok m := by
  constructor
  · intro h
    unfold dispatch at h
    split at h <;> first
      | (obtain ⟨x, hx, e⟩ := (go_map_eq_ok _ _ _).1 h
         first | cases e; exact ⟨by assumption, hx⟩ | cases e)
      | cases h
  · rintro ⟨h1, h2⟩
    unfold dispatch
    simp only [h1, h2, go_map_ok]

theorem dispatch_df5 (md : MessageData) (m : MessageDF5) :
    dispatch md = .ok (.df5 m) ↔ md.downLinkFormat.toNat = 5 ∧ parseDF5 md = .ok m := by
  constructor
  · intro h
    unfold dispatch at h
    split at h <;> first
      | (obtain ⟨x, hx, e⟩ := (go_map_eq_ok _ _ _).1 h
         first | cases e; exact ⟨by assumption, hx⟩ | cases e)
      | cases h
  · rintro ⟨h1, h2⟩
    unfold dispatch
    simp only [h1, h2, go_map_ok]

theorem dispatch_df11 (md : MessageData) (m : MessageDF11) :
    dispatch md = .ok (.df11 m) ↔ md.downLinkFormat.toNat = 11 ∧ parseDF11 md = .ok m := by
  constructor
  · intro h
    unfold dispatch at h
    split at h <;> first
      | (obtain ⟨x, hx, e⟩ := (go_map_eq_ok _ _ _).1 h
         first | cases e; exact ⟨by assumption, hx⟩ | cases e)
      | cases h
  · rintro ⟨h1, h2⟩
    unfold dispatch
    simp only [h1, h2, go_map_ok]

theorem dispatch_df16 (md : MessageData) (m : MessageDF16) :
    dispatch md = .ok (.df16 m) ↔ md.downLinkFormat.toNat = 16 ∧ parseDF16 md = .ok m := by
  constructor
  · intro h
    unfold dispatch at h
    split at h <;> first
      | (obtain ⟨x, hx, e⟩ := (go_map_eq_ok _ _ _).1 h
         first | cases e; exact ⟨by assumption, hx⟩ | cases e)
      | cases h
  · rintro ⟨h1, h2⟩
    unfold dispatch
    simp only [h1, h2, go_map_ok]

theorem dispatch_df17 (md : MessageData) (m : MessageDF17) :
    dispatch md = .ok (.df17 m) ↔ md.downLinkFormat.toNat = 17 ∧ parseDF17 md = .ok m := by
  constructor
  · intro h
    unfold dispatch at h
    split at h <;> first
      | (obtain ⟨x, hx, e⟩ := (go_map_eq_ok _ _ _).1 h
         first | cases e; exact ⟨by assumption, hx⟩ | cases e)
      | cases h
  · rintro ⟨h1, h2⟩
    unfold dispatch
    simp only [h1, h2, go_map_ok]

theorem dispatch_df18 (md : MessageData) (m : MessageDF18) :
    dispatch md = .ok (.df18 m) ↔ md.downLinkFormat.toNat = 18 ∧ parseDF18 md = .ok m := by
  constructor
  · intro h
    unfold dispatch at h
    split at h <;> first
      | (obtain ⟨x, hx, e⟩ := (go_map_eq_ok _ _ _).1 h
         first | cases e; exact ⟨by assumption, hx⟩ | cases e)
      | cases h
  · rintro ⟨h1, h2⟩
    unfold dispatch
    simp only [h1, h2, go_map_ok]

theorem dispatch_df19 (md : MessageData) (m : MessageDF19) :
    dispatch md = .ok (.df19 m) ↔ md.downLinkFormat.toNat = 19 ∧ parseDF19 md = .ok m := by
  constructor
  · intro h
    unfold dispatch at h
    split at h <;> first
      | (obtain ⟨x, hx, e⟩ := (go_map_eq_ok _ _ _).1 h
         first | cases e; exact ⟨by assumption, hx⟩ | cases e)
      | cases h
  · rintro ⟨h1, h2⟩
    unfold dispatch
    simp only [h1, h2, go_map_ok]

theorem dispatch_df20 (md : MessageData) (m : MessageDF20) :
    dispatch md = .ok (.df20 m) ↔ md.downLinkFormat.toNat = 20 ∧ parseDF20 md = .ok m := by
  constructor
  · intro h
    unfold dispatch at h
    split at h <;> first
      | (obtain ⟨x, hx, e⟩ := (go_map_eq_ok _ _ _).1 h
         first | cases e; exact ⟨by assumption, hx⟩ | cases e)
      | cases h
  · rintro ⟨h1, h2⟩
    unfold dispatch
    simp only [h1, h2, go_map_ok]

theorem dispatch_df21 (md : MessageData) (m : MessageDF21) :
    dispatch md = .ok (.df21 m) ↔ md.downLinkFormat.toNat = 21 ∧ parseDF21 md = .ok m := by
  constructor
  · intro h
    unfold dispatch at h
    split at h <;> first
      | (obtain ⟨x, hx, e⟩ := (go_map_eq_ok _ _ _).1 h
         first | cases e; exact ⟨by assumption, hx⟩ | cases e)
      | cases h
  · rintro ⟨h1, h2⟩
    unfold dispatch
    simp only [h1, h2, go_map_ok]

theorem dispatch_df24 (md : MessageData) (m : MessageDF24) :
    dispatch md = .ok (.df24 m) ↔ (24 ≤ md.downLinkFormat.toNat ∧ md.downLinkFormat.toNat ≤ 31) ∧
      parseDF24 md = .ok m := by
  constructor
  · intro h
    unfold dispatch at h
    split at h <;> first
      | (obtain ⟨x, hx, e⟩ := (go_map_eq_ok _ _ _).1 h
         first | cases e; exact ⟨by omega, hx⟩ | cases e)
      | cases h
  · rintro ⟨⟨h0, h1⟩, h2⟩
    unfold dispatch
    have : md.downLinkFormat.toNat = 24 ∨ md.downLinkFormat.toNat = 25 ∨ md.downLinkFormat.toNat = 26 ∨
      md.downLinkFormat.toNat = 27 ∨ md.downLinkFormat.toNat = 28 ∨ md.downLinkFormat.toNat = 29 ∨
      md.downLinkFormat.toNat = 30 ∨ md.downLinkFormat.toNat = 31 := by omega
    rcases this with h | h | h | h | h | h | h | h <;> simp only [h, h2, go_map_ok]

/-- `a << 1 | b >> 7` on the bits concerned is an addition. -/
theorem or_1_7 (a b : UInt8) : (((a &&& 0x07) <<< 1) ||| ((b &&& 0x80) >>> 7)).toNat =
    a.toNat % 8 * 2 + b.toNat / 128 := by
  have ha := byte_lt a
  have hb := byte_lt b
  rw [UInt8.toNat_or]
  have e1 : ((a &&& 0x07) <<< 1).toNat = (a.toNat % 8) <<< 1 := by
    rw [Nat.shiftLeft_eq]; bytes_nat; omega
  have e2 : ((b &&& 0x80) >>> 7).toNat = b.toNat / 128 := by bytes_nat; omega
  rw [e1, e2, ← Nat.shiftLeft_add_eq_or_of_lt (by omega), Nat.shiftLeft_eq]

theorem or_seg (a b : UInt8) : (((((a &&& 0xF8) >>> 3) &&& 0x01) <<< 3) ||| (b &&& 0x07)).toNat =
    a.toNat / 8 % 2 * 8 + b.toNat % 8 := by
  have ha := byte_lt a
  have hb := byte_lt b
  rw [UInt8.toNat_or]
  have e1 : ((((a &&& 0xF8) >>> 3) &&& 0x01) <<< 3).toNat = (a.toNat / 8 % 2) <<< 3 := by
    rw [Nat.shiftLeft_eq]; bytes_nat; omega
  have e2 : (b &&& 0x07).toNat = b.toNat % 8 := by bytes_nat
  rw [e1, e2, ← Nat.shiftLeft_add_eq_or_of_lt (by omega), Nat.shiftLeft_eq]

/-- An accepted frame is 7 or 14 bytes long and was dispatched. -/
theorem readMessage_ok (f : List UInt8) (msg : ModeSMessage) (h : readMessage f = .ok msg) :
    (∃ b0 b1 b2 b3 b4 b5 b6, f = [b0, b1, b2, b3, b4, b5, b6] ∧
      dispatch ⟨(b0 &&& 0xF8) >>> 3, b0 &&& 0x07, [b1, b2, b3], [b4, b5, b6]⟩ = .ok msg) ∨
    (∃ b0 b1 b2 b3 b4 b5 b6 b7 b8 b9 b10 b11 b12 b13,
      f = [b0, b1, b2, b3, b4, b5, b6, b7, b8, b9, b10, b11, b12, b13] ∧
      dispatch ⟨(b0 &&& 0xF8) >>> 3, b0 &&& 0x07, [b1, b2, b3, b4, b5, b6, b7, b8, b9, b10], [b11, b12, b13]⟩
        = .ok msg) := by
  rw [readMessage_eq] at h
  split at h
  · rename_i hl
    rcases hl with hl | hl
    · left
      obtain ⟨b0, b1, b2, b3, b4, b5, b6, rfl⟩ := list7 f hl
      exact ⟨_, _, _, _, _, _, _, rfl, h⟩
    · right
      obtain ⟨b0, b1, b2, b3, b4, b5, b6, b7, b8, b9, b10, b11, b12, b13, rfl⟩ := list14 f hl
      exact ⟨_, _, _, _, _, _, _, _, _, _, _, _, _, _, rfl, h⟩
  · cases h

theorem readMessage_7 (b0 b1 b2 b3 b4 b5 b6 : UInt8) : readMessage [b0, b1, b2, b3, b4, b5, b6] =
    dispatch ⟨(b0 &&& 0xF8) >>> 3, b0 &&& 0x07, [b1, b2, b3], [b4, b5, b6]⟩ := by
  rw [readMessage_eq]; rfl

theorem readMessage_14 (b0 b1 b2 b3 b4 b5 b6 b7 b8 b9 b10 b11 b12 b13 : UInt8) :
    readMessage [b0, b1, b2, b3, b4, b5, b6, b7, b8, b9, b10, b11, b12, b13] =
    dispatch ⟨(b0 &&& 0xF8) >>> 3, b0 &&& 0x07, [b1, b2, b3, b4, b5, b6, b7, b8, b9, b10], [b11, b12, b13]⟩ := by
  rw [readMessage_eq]; rfl

/-- Evaluate reads of literal payloads. -/
macro "go_eval" loc:(Lean.Parser.Tactic.location)? : tactic =>
  `(tactic| simp only [idx, List.getElem?_cons_succ, List.getElem?_cons_zero, List.getElem?_nil, go_bind_ok, go_bind_err,
    go_pure, go_fail, go_panic, ne_eq, List.length_cons, List.length_nil, Nat.reduceAdd, Nat.reduceEqDiff,
    not_true_eq_false, not_false_eq_true, if_true, if_false, ite_false, ite_true, copyPayload, List.nil_append,
    List.cons_append, readMessageACAS, readMessageCommB, readMessageCommD, readMessageExtendedSquitter,
    readSensitivityLevelReport, readReplyInformationAirAir, readDownlinkRequest, readUtilityMessage,
    readAddressAnnounced, readFlightStatus, readCapability, readControlField, readApplicationField,
    readVerticalStatus, readCrossLinkCompatibility, readControlELM, readNumberOfDSegment, go_map_ok, go_map_err] $[$loc]?)

/-- The message data of a short frame / of a long frame. -/
abbrev mdS (b0 b1 b2 b3 b4 b5 b6 : UInt8) : MessageData :=
  ⟨(b0 &&& 0xF8) >>> 3, b0 &&& 0x07, [b1, b2, b3], [b4, b5, b6]⟩
abbrev mdL (b0 b1 b2 b3 b4 b5 b6 b7 b8 b9 b10 b11 b12 b13 : UInt8) : MessageData :=
  ⟨(b0 &&& 0xF8) >>> 3, b0 &&& 0x07, [b1, b2, b3, b4, b5, b6, b7, b8, b9, b10], [b11, b12, b13]⟩

theorem bit16 (code : UInt16) (i : Nat) (m s : UInt16) (hm : m.toNat = 2 ^ i) (hs : s.toNat = i) (hi : i < 16) :
    ((code &&& m) >>> s).toNat = code.toNat / 2 ^ i % 2 := by
  rw [UInt16.toNat_shiftRight, UInt16.toNat_and, hm, hs]
  have := Nat.and_field code.toNat i 1
  rw [show (2 ^ 1 - 1) * 2 ^ i = 2 ^ i by omega] at this
  rw [this, Nat.mod_eq_of_lt hi, Nat.shiftRight_eq_div_pow, Nat.mul_div_cancel _ (Nat.two_pow_pos i)]

theorem digit3 (x y z : UInt16) (a b c : Nat) (hx : x.toNat = a % 2) (hy : y.toNat = b % 2) (hz : z.toNat = c % 2) :
    sprintfUint (x <<< 2 ||| y <<< 1 ||| z).toNat = [Char.ofNat (48 + (4 * (a % 2) + 2 * (b % 2) + c % 2))] := by
  have hx' : x = UInt16.ofNat (a % 2) := by rw [← UInt16.toNat_inj, hx, UInt16.toNat_ofNat']; omega
  have hy' : y = UInt16.ofNat (b % 2) := by rw [← UInt16.toNat_inj, hy, UInt16.toNat_ofNat']; omega
  have hz' : z = UInt16.ofNat (c % 2) := by rw [← UInt16.toNat_inj, hz, UInt16.toNat_ofNat']; omega
  rw [hx', hy', hz']
  rcases Nat.mod_two_eq_zero_or_one a with h1 | h1 <;> rcases Nat.mod_two_eq_zero_or_one b with h2 | h2 <;>
    rcases Nat.mod_two_eq_zero_or_one c with h3 | h3 <;> rw [h1, h2, h3] <;> decide

/-- `readIdentity` on a payload whose 13-bit code is `c`. -/
theorem readIdentity_eval (m : MessageData) (p0 p1 p2 : UInt8) (rest : List UInt8)
    (hp : m.payload = p0 :: p1 :: p2 :: rest) :
    readIdentity m = .ok (digitsText (squawk (p1.toNat % 32 * 256 + p2.toNat))) := by
  have hb1 := byte_lt p1
  have hb2 := byte_lt p2
  unfold readIdentity
  simp only [hp, idx, List.getElem?_cons_succ, List.getElem?_cons_zero, go_bind_ok, go_pure]
  have hc' : (pack2 (p1 &&& 0x1f) p2).toNat = p1.toNat % 32 * 256 + p2.toNat := by
    bytes_nat; omega
  generalize p1.toNat % 32 * 256 + p2.toNat = c at hc'
  generalize pack2 (p1 &&& 0x1f) p2 = code at hc'
  have t (i : Nat) (mm s : UInt16) (hm : mm.toNat = 2 ^ i) (hs : s.toNat = i) (hi : i < 16) :
      ((code &&& mm) >>> s).toNat = c / 2 ^ i % 2 := by
    rw [bit16 code i mm s hm hs hi, hc']
  have t0 : (code &&& 1).toNat = c / 2 ^ 0 % 2 := by
    rw [← t 0 1 0 rfl rfl (by omega)]; rfl
  rw [digit3 _ _ _ _ _ _ (t 7 0x80 7 rfl rfl (by omega)) (t 9 0x200 9 rfl rfl (by omega)) (t 11 0x800 11 rfl rfl (by omega)),
    digit3 _ _ _ _ _ _ (t 1 0x2 1 rfl rfl (by omega)) (t 3 0x8 3 rfl rfl (by omega)) (t 5 0x20 5 rfl rfl (by omega)),
    digit3 _ _ _ _ _ _ (t 8 0x100 8 rfl rfl (by omega)) (t 10 0x400 10 rfl rfl (by omega)) (t 12 0x1000 12 rfl rfl (by omega)),
    digit3 _ _ _ _ _ _ t0 (t 2 0x4 2 rfl rfl (by omega)) (t 4 0x10 4 rfl rfl (by omega))]
  rfl

end Modes
