import Verif.Props.Fields
import Mathlib.Tactic.IntervalCases
import Mathlib.Tactic.NormNum
import Mathlib.Tactic.Ring
/-!
# C01, C02, C03, C06, C63: acceptance, dispatch, round trip
-/
set_option linter.unusedSimpArgs false
open Spec
namespace Modes

/-- The outcome of a dispatch, given the formats allowed for the length of the frame. -/
def Outcome (fmts : List Nat) (d c : Nat) (r : Go ModeSMessage) : Prop :=
  (d ∈ fmts ∧ (d ∈ altitudeFormats → ¬ AltitudeIllegal c) ∧ ∃ m, r = .ok m) ∨
  (¬ (d ∈ fmts ∧ (d ∈ altitudeFormats → ¬ AltitudeIllegal c)) ∧ r = .error .err)

theorem outcome_altitude {α : Type} (fmts : List Nat) (d : Nat) (hd : d ∈ fmts) (hd' : d ∈ altitudeFormats)
    (md : MessageData) (p0 p1 p2 : UInt8) (rest : List UInt8) (hp : md.payload = p0 :: p1 :: p2 :: rest)
    (k : Int × AltitudeReportMethod → α) (w : α → ModeSMessage) :
    Outcome fmts d (p1.toNat % 32 * 256 + p2.toNat)
      (w <$> (readAltitude md >>= fun x => (Except.ok (k x) : Go α))) := by
  rcases readAltitude_eval md p0 p1 p2 rest hp _ rfl with ⟨method, a, he, hm⟩ | ⟨he, hi⟩
  · left
    exact ⟨hd, fun _ => altitudeMeaning_not_illegal _ _ _ hm, by rw [he]; exact ⟨_, rfl⟩⟩
  · right
    exact ⟨fun h => h.2 hd' hi, by rw [he]; rfl⟩

theorem outcome_ok (fmts : List Nat) (d c : Nat) (hd : d ∈ fmts) (hd' : d ∉ altitudeFormats) (m : ModeSMessage) :
    Outcome fmts d c (.ok m) := Or.inl ⟨hd, fun h => absurd h hd', m, rfl⟩

theorem outcome_err (fmts : List Nat) (d c : Nat) (hd : d ∉ fmts) : Outcome fmts d c (.error .err) :=
  Or.inr ⟨fun h => hd h.1, rfl⟩

theorem outcome_short (b0 b1 b2 b3 b4 b5 b6 : UInt8) :
    Outcome shortFormats (b0.toNat / 8) (b2.toNat % 32 * 256 + b3.toNat)
      (dispatch (mdS b0 b1 b2 b3 b4 b5 b6)) := by
  have hb := byte_lt b0
  have hlt : b0.toNat / 8 < 32 := by omega
  have hd : (b0 &&& 0xF8) >>> 3 = UInt8.ofNat (b0.toNat / 8) := by
    rw [← UInt8.toNat_inj]; bytes_nat; rw [UInt8.toNat_ofNat']; omega
  unfold mdS
  rw [hd]
  generalize b0.toNat / 8 = d at hlt
  interval_cases d
  all_goals
    unfold dispatch
    simp only [UInt8.reduceOfNat, UInt8.reduceToNat]
  all_goals first
    | exact outcome_err _ _ _ (by decide)
    | (simp only [parseDF5, parseDF11]
       rw [readIdentity_eval _ b1 b2 b3 [] rfl]
       go_eval
       exact outcome_ok _ _ _ (by decide) (by decide) _)
    | (simp only [parseDF5, parseDF11]
       go_eval
       exact outcome_ok _ _ _ (by decide) (by decide) _)
    | (simp only [parseDF0, parseDF4]
       go_eval
       exact outcome_altitude _ _ (by decide) (by decide) _ b1 b2 b3 [] rfl _ _)
    | (simp only [parseDF16, parseDF17, parseDF18, parseDF19, parseDF20, parseDF21, parseDF24]
       go_eval
       exact outcome_err _ _ _ (by decide))

theorem outcome_long (b0 b1 b2 b3 b4 b5 b6 b7 b8 b9 b10 b11 b12 b13 : UInt8) :
    Outcome longFormats (b0.toNat / 8) (b2.toNat % 32 * 256 + b3.toNat)
      (dispatch (mdL b0 b1 b2 b3 b4 b5 b6 b7 b8 b9 b10 b11 b12 b13)) := by
  have hb := byte_lt b0
  have hlt : b0.toNat / 8 < 32 := by omega
  have hd : (b0 &&& 0xF8) >>> 3 = UInt8.ofNat (b0.toNat / 8) := by
    rw [← UInt8.toNat_inj]; bytes_nat; rw [UInt8.toNat_ofNat']; omega
  unfold mdL
  rw [hd]
  generalize b0.toNat / 8 = d at hlt
  interval_cases d
  all_goals
    unfold dispatch
    simp only [UInt8.reduceOfNat, UInt8.reduceToNat]
  all_goals first
    | exact outcome_err _ _ _ (by decide)
    | (simp only [parseDF21]
       rw [readIdentity_eval _ b1 b2 b3 [b4, b5, b6, b7, b8, b9, b10] rfl]
       go_eval
       exact outcome_ok _ _ _ (by decide) (by decide) _)
    | (simp only [parseDF17, parseDF18, parseDF19, parseDF24]
       go_eval
       exact outcome_ok _ _ _ (by decide) (by decide) _)
    | (simp only [parseDF16, parseDF20]
       go_eval
       exact outcome_altitude _ _ (by decide) (by decide) _ b1 b2 b3 [b4, b5, b6, b7, b8, b9, b10] rfl _ _)
    | (simp only [parseDF0, parseDF4, parseDF5, parseDF11]
       go_eval
       exact outcome_err _ _ _ (by decide))

/-- C01: `ReadMessage` never panics. -/
theorem readMessage_noPanic (f : List UInt8) : NoPanic (readMessage f) := by
  unfold NoPanic
  by_cases h7 : f.length = 7
  · obtain ⟨b0, b1, b2, b3, b4, b5, b6, rfl⟩ := list7 f h7
    rw [readMessage_7]
    rcases outcome_short b0 b1 b2 b3 b4 b5 b6 with ⟨_, _, m, h⟩ | ⟨_, h⟩ <;> rw [mdS] at h <;> rw [h] <;> simp
  by_cases h14 : f.length = 14
  · obtain ⟨b0, b1, b2, b3, b4, b5, b6, b7, b8, b9, b10, b11, b12, b13, rfl⟩ := list14 f h14
    rw [readMessage_14]
    rcases outcome_long b0 b1 b2 b3 b4 b5 b6 b7 b8 b9 b10 b11 b12 b13 with ⟨_, _, m, h⟩ | ⟨_, h⟩ <;> rw [mdL] at h <;>
      rw [h] <;> simp
  rw [readMessage_eq, dif_neg (by omega)]
  simp [fail]

/-- C02: exactly which frames are accepted. -/
theorem readMessage_accepts_iff (f : List UInt8) :
    Succeeds (readMessage f) ↔
      ((f.length = 7 ∧ bits f 1 5 ∈ shortFormats) ∨ (f.length = 14 ∧ bits f 1 5 ∈ longFormats)) ∧
      (bits f 1 5 ∈ altitudeFormats → ¬ AltitudeIllegal (bits f 20 32)) := by
  unfold Succeeds
  by_cases h7 : f.length = 7
  · obtain ⟨b0, b1, b2, b3, b4, b5, b6, rfl⟩ := list7 f h7
    rw [readMessage_7]
    have e1 : bits [b0, b1, b2, b3, b4, b5, b6] 1 5 = b0.toNat / 8 := by byte_omega
    have e2 : bits [b0, b1, b2, b3, b4, b5, b6] 20 32 = b2.toNat % 32 * 256 + b3.toNat := by byte_omega
    rw [e1, e2]
    have := outcome_short b0 b1 b2 b3 b4 b5 b6
    rcases this with ⟨h1, h2, m, h⟩ | ⟨h1, h⟩
    · simp only [h1, h2, h]; simp; exact h2
    · rw [mdS] at h
      rw [h]
      constructor
      · rintro ⟨a, ha⟩; cases ha
      · rintro ⟨⟨_, ha⟩ | ⟨ha, _⟩, hb⟩
        · exact absurd ⟨ha, hb⟩ h1
        · simp at ha
  by_cases h14 : f.length = 14
  · obtain ⟨b0, b1, b2, b3, b4, b5, b6, b7, b8, b9, b10, b11, b12, b13, rfl⟩ := list14 f h14
    rw [readMessage_14]
    have e1 : bits [b0, b1, b2, b3, b4, b5, b6, b7, b8, b9, b10, b11, b12, b13] 1 5 = b0.toNat / 8 := by byte_omega
    have e2 : bits [b0, b1, b2, b3, b4, b5, b6, b7, b8, b9, b10, b11, b12, b13] 20 32 =
      b2.toNat % 32 * 256 + b3.toNat := by byte_omega
    rw [e1, e2]
    have := outcome_long b0 b1 b2 b3 b4 b5 b6 b7 b8 b9 b10 b11 b12 b13
    rcases this with ⟨h1, h2, m, h⟩ | ⟨h1, h⟩
    · simp only [h1, h2, h]; simp; exact h2
    · rw [mdL] at h
      rw [h]
      constructor
      · rintro ⟨a, ha⟩; cases ha
      · rintro ⟨⟨ha, _⟩ | ⟨_, ha⟩, hb⟩
        · simp at ha
        · exact absurd ⟨ha, hb⟩ h1
  rw [readMessage_eq, dif_neg (by omega)]
  constructor
  · rintro ⟨a, ha⟩; cases ha
  · rintro ⟨⟨ha, _⟩ | ⟨ha, _⟩, _⟩ <;> omega

/-- C02 is not vacuous: an all-call reply is accepted, a frame of 8 bytes is not. -/
example : Succeeds (readMessage [0x5D, 0x48, 0x40, 0xD6, 0x1B, 0x2C, 0x3D]) :=
  (readMessage_accepts_iff _).2 ⟨by decide, by decide⟩
example : ¬ Succeeds (readMessage [0x5D, 0x48, 0x40, 0xD6, 0x1B, 0x2C, 0x3D, 0x00]) := by
  rw [readMessage_accepts_iff]; decide
/-- An altitude reply with C pulses 111 is rejected. -/
example : ¬ Succeeds (readMessage [0x20, 0, 0x15, 0, 1, 2, 3]) := by
  rw [readMessage_accepts_iff]; decide

/-- C03: the type of the message is that of its downlink format. -/
theorem readMessage_type (f : List UInt8) (msg : ModeSMessage) (h : readMessage f = .ok msg) :
    msg.getDownLinkFormat = (if 24 ≤ bits f 1 5 then 24 else bits f 1 5) := by
  cases msg with
  | df0 m => have := (df0_fields f m h).2.1; rw [this]; rfl
  | df4 m => have := (df4_fields f m h).2.1; rw [this]; rfl
  | df5 m => have := (df5_fields f m h).2.1; rw [this]; rfl
  | df11 m => have := (df11_fields f m h).2.1; rw [this]; rfl
  | df16 m => have := (df16_fields f m h).2.1; rw [this]; rfl
  | df17 m => have := (df17_fields f m h).2.1; rw [this]; rfl
  | df18 m => have := (df18_fields f m h).2.1; rw [this]; rfl
  | df19 m => have := (df19_fields f m h).2.1; rw [this]; rfl
  | df20 m => have := (df20_fields f m h).2.1; rw [this]; rfl
  | df21 m => have := (df21_fields f m h).2.1; rw [this]; rfl
  | df24 m => have := (df24_fields f m h).2.1; rw [if_pos this]; rfl

example : (readMessage [0x5D, 0x48, 0x40, 0xD6, 0x1B, 0x2C, 0x3D]).map ModeSMessage.getDownLinkFormat = .ok 11 := by
  decide

/-! ### C63 -/

/-- Replace the parity of the embedded message data. -/
def MessageData.setParity (q : List UInt8) (d : MessageData) : MessageData := { d with parity := q }

/-- The same message with other parity bytes; every other field unchanged. -/
def ModeSMessage.setParity (q : List UInt8) : ModeSMessage → ModeSMessage
  | .df0 m => .df0 { m with data := m.data.setParity q }
  | .df4 m => .df4 { m with data := m.data.setParity q }
  | .df5 m => .df5 { m with data := m.data.setParity q }
  | .df11 m => .df11 { m with data := m.data.setParity q }
  | .df16 m => .df16 { m with data := m.data.setParity q }
  | .df17 m => .df17 { m with data := m.data.setParity q }
  | .df18 m => .df18 { m with data := m.data.setParity q }
  | .df19 m => .df19 { m with data := m.data.setParity q }
  | .df20 m => .df20 { m with data := m.data.setParity q }
  | .df21 m => .df21 { m with data := m.data.setParity q }
  | .df24 m => .df24 { m with data := m.data.setParity q }

theorem bind_congr_parity {α β : Type} (a : Go α) (f : α → Go β) (g : α → Go β) (t : β → β)
    (h : ∀ x, g x = t <$> f x) : (a >>= g) = t <$> (a >>= f) := by
  cases a with
  | ok x => exact h x
  | error e => rfl

theorem dispatch_setParity (q : List UInt8) (md : MessageData) :
    dispatch (md.setParity q) = ModeSMessage.setParity q <$> dispatch md := by
  unfold dispatch
  have hd : (md.setParity q).downLinkFormat = md.downLinkFormat := rfl
  have hl : (md.setParity q).payload = md.payload := rfl
  have r1 : readAltitude (md.setParity q) = readAltitude md := rfl
  have r2 : readIdentity (md.setParity q) = readIdentity md := rfl
  have r3 : readSensitivityLevelReport (md.setParity q) = readSensitivityLevelReport md := rfl
  have r4 : readReplyInformationAirAir (md.setParity q) = readReplyInformationAirAir md := rfl
  have r5 : readDownlinkRequest (md.setParity q) = readDownlinkRequest md := rfl
  have r6 : readUtilityMessage (md.setParity q) = readUtilityMessage md := rfl
  have r7 : readAddressAnnounced (md.setParity q) = readAddressAnnounced md := rfl
  have r8 : readMessageACAS (md.setParity q) = readMessageACAS md := rfl
  have r9 : readMessageCommB (md.setParity q) = readMessageCommB md := rfl
  have r10 : readMessageCommD (md.setParity q) = readMessageCommD md := rfl
  have r11 : readMessageExtendedSquitter (md.setParity q) = readMessageExtendedSquitter md := rfl
  rw [hd]
  simp only [parseDF0, parseDF4, parseDF5, parseDF11, parseDF16, parseDF17, parseDF18, parseDF19, parseDF20, parseDF21,
    parseDF24, hd, hl, r1, r2, r3, r4, r5, r6, r7, r8, r9, r10, r11]
  generalize readAltitude md = a1
  generalize readIdentity md = a2
  generalize readSensitivityLevelReport md = a3
  generalize readReplyInformationAirAir md = a4
  generalize readDownlinkRequest md = a5
  generalize readUtilityMessage md = a6
  generalize readAddressAnnounced md = a7
  generalize readMessageACAS md = a8
  generalize readMessageCommB md = a9
  generalize readMessageCommD md = a10
  generalize readMessageExtendedSquitter md = a11
  split
  all_goals first
    | rfl
    | (split
       · rfl
       · split
         · rfl
         · first
           | rfl
           | (cases a1 <;> first
              | rfl
              | (cases a3 <;> first | rfl | (cases a4 <;> first | rfl | (cases a8 <;> rfl)))
              | (cases a5 <;> first | rfl | (cases a6 <;> first | rfl | (cases a9 <;> rfl))))
           | (cases a5 <;> first | rfl | (cases a6 <;> first | rfl | (cases a2 <;> first | rfl | (cases a9 <;> rfl))))
           | (cases a7 <;> first | rfl | (cases a11 <;> rfl))
           | (cases a10 <;> rfl))

/-- C63: two frames with the same bytes but for the last three are read alike, up to the reported parity, which is those
three bytes. -/
theorem readMessage_parity (h p q : List UInt8) (hp : p.length = 3) (hq : q.length = 3) :
    readMessage (h ++ q) = ModeSMessage.setParity q <$> readMessage (h ++ p) := by
  rw [readMessage_eq, readMessage_eq]
  simp only [List.length_append, hp, hq]
  by_cases hl : h.length + 3 = 7 ∨ h.length + 3 = 14
  · rw [dif_pos hl, dif_pos hl, ← dispatch_setParity]
    congr 1
    have h0 : 0 < h.length := by omega
    simp only [frameData, MessageData.setParity, List.length_append, hp, hq, Nat.add_sub_cancel,
      List.getElem_append_left h0]
    simp
  · rw [dif_neg hl, dif_neg hl]; rfl

/-- C63: the reported parity is the last three bytes. -/
theorem readMessage_parity_eq (f : List UInt8) (msg : ModeSMessage) (h : readMessage f = .ok msg) :
    msg.data.parity = f.drop (f.length - 3) := by
  have hlen : f.length = 7 ∨ f.length = 14 := by
    rcases ((readMessage_accepts_iff f).1 ⟨_, h⟩).1 with h | h <;> simp [h.1]
  have e : f.take (f.length - 3) ++ f.drop (f.length - 3) = f := List.take_append_drop _ _
  have hq : (f.drop (f.length - 3)).length = 3 := by simp; omega
  have := readMessage_parity (f.take (f.length - 3)) _ _ hq hq
  rw [e, h] at this
  injection this with this
  cases msg <;> (rw [this]; rfl)

example : ∃ m, readMessage [0x5D, 0x48, 0x40, 0xD6, 0x1B, 0x2C, 0x3D] = .ok m ∧
    readMessage [0x5D, 0x48, 0x40, 0xD6, 1, 2, 3] = .ok (m.setParity [1, 2, 3]) := ⟨_, rfl, by decide⟩

/-! ### C06: round trip of assembled frames -/

/-- Fields of an assembled frame. -/
theorem bits_toBytes (n v a b : Nat) : bits (toBytes n v) a b = v % 256 ^ n / 2 ^ (8 * n - b) % 2 ^ (b + 1 - a) := by
  unfold bits
  rw [beNat_toBytes, toBytes_length]

/-- C06: an all-call reply (DF11). -/
theorem roundtrip_df11 (ca aa p : Nat) (hca : ca < 8) (haa : aa < 2 ^ 24) (hp : p < 2 ^ 24) :
    ∃ m, readMessage (toBytes 7 (11 * 2 ^ 51 + ca * 2 ^ 48 + aa * 2 ^ 24 + p)) = .ok (.df11 m) ∧
      m.capability.toNat = ca ∧ m.addressAnnounced.toNat = aa ∧ beNat m.data.parity = p := by
  generalize hv : 11 * 2 ^ 51 + ca * 2 ^ 48 + aa * 2 ^ 24 + p = v
  have hdf : bits (toBytes 7 v) 1 5 = 11 := by rw [bits_toBytes]; norm_num; omega
  obtain ⟨msg, hm⟩ := (readMessage_accepts_iff (toBytes 7 v)).2
    ⟨Or.inl ⟨toBytes_length _ _, by rw [hdf]; decide⟩, by rw [hdf]; exact fun h => absurd h (by decide)⟩
  have ht := readMessage_type _ _ hm
  rw [hdf] at ht
  cases msg <;> simp [ModeSMessage.getDownLinkFormat] at ht
  rename_i m
  obtain ⟨_, _, h1, h2, h3⟩ := df11_fields _ _ hm
  refine ⟨m, hm, ?_, ?_, ?_⟩
  · rw [h1, bits_toBytes]; norm_num; omega
  · rw [h2, bits_toBytes]; norm_num; omega
  · rw [h3, bits_toBytes]; norm_num; omega

example : ∃ m, readMessage (toBytes 7 (11 * 2 ^ 51 + 5 * 2 ^ 48 + 0x4840D6 * 2 ^ 24 + 7)) = .ok (.df11 m) ∧
    m.capability.toNat = 5 ∧ m.addressAnnounced.toNat = 0x4840D6 ∧ beNat m.data.parity = 7 :=
  roundtrip_df11 5 0x4840D6 7 (by decide) (by decide) (by decide)

theorem beNat_append (l r : List UInt8) : beNat (l ++ r) = beNat l * 2 ^ (8 * r.length) + beNat r := by
  induction l with
  | nil => simp [beNat]
  | cons b l ih =>
    simp only [List.cons_append, beNat, List.length_append, ih, Nat.mul_add, Nat.pow_add, Nat.add_mul]
    ring

theorem beNat_lt (l : List UInt8) : beNat l < 2 ^ (8 * l.length) := by
  induction l with
  | nil => simp [beNat]
  | cons b l ih =>
    have hb := byte_lt b
    simp only [beNat, List.length_cons, Nat.mul_add, Nat.pow_add]
    have : b.toNat * 2 ^ (8 * l.length) ≤ 255 * 2 ^ (8 * l.length) := Nat.mul_le_mul_right _ (by omega)
    omega

theorem beNat_inj (l r : List UInt8) (hl : l.length = r.length) (h : beNat l = beNat r) : l = r := by
  induction l generalizing r with
  | nil => cases r with
    | nil => rfl
    | cons => simp at hl
  | cons b l ih =>
    cases r with
    | nil => simp at hl
    | cons c r =>
      simp only [List.length_cons, Nat.add_right_cancel_iff] at hl
      simp only [beNat, hl] at h
      have h1 := beNat_lt l
      have h2 := beNat_lt r
      rw [hl] at h1
      have hpos : 0 < 2 ^ (8 * r.length) := Nat.two_pow_pos _
      have e1 : (b.toNat * 2 ^ (8 * r.length) + beNat l) / 2 ^ (8 * r.length) = b.toNat := by
        rw [Nat.mul_comm, Nat.mul_add_div hpos, Nat.div_eq_of_lt h1, Nat.add_zero]
      have e2 : (c.toNat * 2 ^ (8 * r.length) + beNat r) / 2 ^ (8 * r.length) = c.toNat := by
        rw [Nat.mul_comm, Nat.mul_add_div hpos, Nat.div_eq_of_lt h2, Nat.add_zero]
      rw [h] at e1
      have hbc : b = c := by rw [← UInt8.toNat_inj, ← e1, e2]
      subst hbc
      rw [ih r hl (by omega)]

/-- C06: an extended squitter (DF17): header, message field, parity. -/
theorem roundtrip_df17 (ca aa p : Nat) (me : List UInt8) (hca : ca < 8) (haa : aa < 2 ^ 24) (hp : p < 2 ^ 24)
    (hme : me.length = 7) :
    ∃ m, readMessage (toBytes 4 (17 * 2 ^ 27 + ca * 2 ^ 24 + aa) ++ me ++ toBytes 3 p) = .ok (.df17 m) ∧
      m.capability.toNat = ca ∧ m.addressAnnounced.toNat = aa ∧ m.messageExtendedSquitter = me ∧
      beNat m.data.parity = p := by
  generalize hv : 17 * 2 ^ 27 + ca * 2 ^ 24 + aa = v
  have hlt := beNat_lt me
  rw [hme] at hlt
  have hlen : (toBytes 4 v ++ me ++ toBytes 3 p).length = 14 := by simp [toBytes_length, hme]
  have hbe : beNat (toBytes 4 v ++ me ++ toBytes 3 p) = v % 256 ^ 4 * 2 ^ 80 + beNat me * 2 ^ 24 + p % 256 ^ 3 := by
    rw [beNat_append, beNat_append, beNat_toBytes, beNat_toBytes, toBytes_length, hme]
    ring
  have hbits : ∀ a b, bits (toBytes 4 v ++ me ++ toBytes 3 p) a b =
      (v % 256 ^ 4 * 2 ^ 80 + beNat me * 2 ^ 24 + p % 256 ^ 3) / 2 ^ (112 - b) % 2 ^ (b + 1 - a) := by
    intro a b; unfold bits; rw [hbe, hlen]
  have hdf : bits (toBytes 4 v ++ me ++ toBytes 3 p) 1 5 = 17 := by rw [hbits]; norm_num; omega
  obtain ⟨msg, hm⟩ := (readMessage_accepts_iff (toBytes 4 v ++ me ++ toBytes 3 p)).2
    ⟨Or.inr ⟨hlen, by rw [hdf]; decide⟩, by rw [hdf]; exact fun h => absurd h (by decide)⟩
  have ht := readMessage_type _ _ hm
  rw [hdf] at ht
  cases msg <;> simp [ModeSMessage.getDownLinkFormat] at ht
  rename_i m
  obtain ⟨_, _, h1, h2, h3, h4⟩ := df17_fields _ _ hm
  refine ⟨m, hm, ?_, ?_, ?_, ?_⟩
  · rw [h1, hbits]; norm_num; omega
  · rw [h2, hbits]; norm_num; omega
  · rw [h3, List.append_assoc, List.drop_left' (toBytes_length 4 v), List.take_left' hme]
  · rw [h4, hbits]; norm_num; omega

example : ∃ m, readMessage (toBytes 4 (17 * 2 ^ 27 + 5 * 2 ^ 24 + 0x4840D6) ++ [32, 44, 195, 113, 195, 44, 224] ++
    toBytes 3 0x576098) = .ok (.df17 m) ∧
    m.capability.toNat = 5 ∧ m.addressAnnounced.toNat = 0x4840D6 ∧
    m.messageExtendedSquitter = [32, 44, 195, 113, 195, 44, 224] ∧ beNat m.data.parity = 0x576098 :=
  roundtrip_df17 5 0x4840D6 0x576098 _ (by decide) (by decide) (by decide) rfl

/-- C06: an altitude reply (DF4) whose altitude code `ac` is not illegal. -/
theorem roundtrip_df4 (fs dr iis ids ac p : Nat) (hfs : fs < 8) (hdr : dr < 32) (hii : iis < 16) (hid : ids < 4)
    (hac : ac < 8192) (hp : p < 2 ^ 24) (hok : ¬ AltitudeIllegal ac) :
    ∃ m, readMessage (toBytes 7 (4 * 2 ^ 51 + fs * 2 ^ 48 + dr * 2 ^ 43 + iis * 2 ^ 39 + ids * 2 ^ 37 + ac * 2 ^ 24 + p))
        = .ok (.df4 m) ∧
      m.flightStatus.toNat = fs ∧ m.downlinkRequest.toNat = dr ∧
      m.utilityMessage.interrogatorIdentifier.toNat = iis ∧ m.utilityMessage.identifierDesignator.toNat = ids ∧
      AltitudeMeaning ac m.altitudeReportMethod m.altitude ∧ beNat m.data.parity = p := by
  generalize hv : 4 * 2 ^ 51 + fs * 2 ^ 48 + dr * 2 ^ 43 + iis * 2 ^ 39 + ids * 2 ^ 37 + ac * 2 ^ 24 + p = v
  have hdf : bits (toBytes 7 v) 1 5 = 4 := by rw [bits_toBytes]; norm_num; omega
  have hc : bits (toBytes 7 v) 20 32 = ac := by rw [bits_toBytes]; norm_num; omega
  obtain ⟨msg, hm⟩ := (readMessage_accepts_iff (toBytes 7 v)).2
    ⟨Or.inl ⟨toBytes_length _ _, by rw [hdf]; decide⟩, by rw [hc]; exact fun _ => hok⟩
  have ht := readMessage_type _ _ hm
  rw [hdf] at ht
  cases msg <;> simp [ModeSMessage.getDownLinkFormat] at ht
  rename_i m
  obtain ⟨_, _, h1, h2, h3, h4, h5, h6⟩ := df4_fields _ _ hm
  refine ⟨m, hm, ?_, ?_, ?_, ?_, ?_, ?_⟩
  · rw [h1, bits_toBytes]; norm_num; omega
  · rw [h2, bits_toBytes]; norm_num; omega
  · rw [h3, bits_toBytes]; norm_num; omega
  · rw [h4, bits_toBytes]; norm_num; omega
  · rw [← hc]; exact h5
  · rw [h6, bits_toBytes]; norm_num; omega

theorem n25_encode25 (n : Nat) (hn : n < 2048) : n25AC13 (encode25 n) = n := by
  unfold n25AC13 encode25; omega
theorem encode25_lt (n : Nat) : encode25 n < 8192 := by unfold encode25; omega
theorem encode25_bits (n : Nat) : mBit (encode25 n) = false ∧ qBit (encode25 n) = true := by
  unfold mBit qBit encode25
  rw [Nat.testBit_eq_decide_div_mod_eq, Nat.testBit_eq_decide_div_mod_eq]
  constructor
  · simp; omega
  · simp; omega

/-- C06: an aircraft at `25 n - 1000` ft that replies (DF4) in 25-ft coding is read at that altitude. -/
theorem roundtrip_df4_altitude25 (fs dr iis ids n p : Nat) (hfs : fs < 8) (hdr : dr < 32) (hii : iis < 16) (hid : ids < 4)
    (hn : n < 2048) (hp : p < 2 ^ 24) :
    ∃ m, readMessage (toBytes 7 (4 * 2 ^ 51 + fs * 2 ^ 48 + dr * 2 ^ 43 + iis * 2 ^ 39 + ids * 2 ^ 37
        + encode25 n * 2 ^ 24 + p)) = .ok (.df4 m) ∧
      m.altitudeReportMethod = .feet25 ∧ m.altitude = 25 * (n : Int) - 1000 := by
  obtain ⟨hm0, hq⟩ := encode25_bits n
  obtain ⟨m, hm, _, _, _, _, ha, _⟩ := roundtrip_df4 fs dr iis ids (encode25 n) p hfs hdr hii hid (encode25_lt n) hp
    (by rintro ⟨_, _, h, _⟩; rw [hq] at h; cases h)
  refine ⟨m, hm, ?_⟩
  revert ha
  cases m.altitudeReportMethod with
  | notAvailable => rintro ⟨h, _⟩; rw [h] at hq; exact absurd hq (by decide)
  | metricUnits => rintro ⟨h, _⟩; rw [h] at hm0; cases hm0
  | feet100 => rintro ⟨_, h, _⟩; rw [h] at hq; cases hq
  | feet25 => rintro ⟨_, _, h⟩; rw [n25_encode25 n hn] at h; exact ⟨rfl, h⟩

example : ∃ m, readMessage (toBytes 7 (4 * 2 ^ 51 + 0 * 2 ^ 48 + 0 * 2 ^ 43 + 0 * 2 ^ 39 + 0 * 2 ^ 37
        + encode25 1560 * 2 ^ 24 + 99)) = .ok (.df4 m) ∧
      m.altitudeReportMethod = .feet25 ∧ m.altitude = 38000 :=
  roundtrip_df4_altitude25 0 0 0 0 1560 99 (by decide) (by decide) (by decide) (by decide) (by decide) (by decide)

/-- Every one of the 4096 squawks (the whole domain) is recovered from its code. -/
theorem squawk_squawkCode : ∀ a < 8, ∀ b < 8, ∀ c < 8, ∀ d < 8, squawk (squawkCode a b c d) = [a, b, c, d] := by
  decide +kernel

/-- C06: an identity reply (DF5) of squawk `a b c d`. -/
theorem roundtrip_df5 (fs dr iis ids a b c d p : Nat) (hfs : fs < 8) (hdr : dr < 32) (hii : iis < 16) (hid : ids < 4)
    (ha : a < 8) (hb : b < 8) (hc : c < 8) (hd : d < 8) (hp : p < 2 ^ 24) :
    ∃ m, readMessage (toBytes 7 (5 * 2 ^ 51 + fs * 2 ^ 48 + dr * 2 ^ 43 + iis * 2 ^ 39 + ids * 2 ^ 37
        + squawkCode a b c d * 2 ^ 24 + p)) = .ok (.df5 m) ∧
      m.flightStatus.toNat = fs ∧ m.downlinkRequest.toNat = dr ∧
      m.utilityMessage.interrogatorIdentifier.toNat = iis ∧ m.utilityMessage.identifierDesignator.toNat = ids ∧
      m.identity = digitsText [a, b, c, d] ∧ beNat m.data.parity = p := by
  have hsq : squawkCode a b c d < 8192 := by unfold squawkCode; omega
  have hs : squawk (squawkCode a b c d) = [a, b, c, d] := squawk_squawkCode a ha b hb c hc d hd
  generalize squawkCode a b c d = sq at hsq hs
  generalize hv : 5 * 2 ^ 51 + fs * 2 ^ 48 + dr * 2 ^ 43 + iis * 2 ^ 39 + ids * 2 ^ 37 + sq * 2 ^ 24 + p = v
  have hdf : bits (toBytes 7 v) 1 5 = 5 := by rw [bits_toBytes]; norm_num; omega
  have hcc : bits (toBytes 7 v) 20 32 = sq := by rw [bits_toBytes]; norm_num; omega
  obtain ⟨msg, hm⟩ := (readMessage_accepts_iff (toBytes 7 v)).2
    ⟨Or.inl ⟨toBytes_length _ _, by rw [hdf]; decide⟩, by rw [hdf]; exact fun h => absurd h (by decide)⟩
  have ht := readMessage_type _ _ hm
  rw [hdf] at ht
  cases msg <;> simp [ModeSMessage.getDownLinkFormat] at ht
  rename_i m
  obtain ⟨_, _, h1, h2, h3, h4, h5, h6⟩ := df5_fields _ _ hm
  refine ⟨m, hm, ?_, ?_, ?_, ?_, ?_, ?_⟩
  · rw [h1, bits_toBytes]; norm_num; omega
  · rw [h2, bits_toBytes]; norm_num; omega
  · rw [h3, bits_toBytes]; norm_num; omega
  · rw [h4, bits_toBytes]; norm_num; omega
  · rw [h5, hcc, hs]
  · rw [h6, bits_toBytes]; norm_num; omega

example : ∃ m, readMessage (toBytes 7 (5 * 2 ^ 51 + 0 * 2 ^ 48 + 0 * 2 ^ 43 + 0 * 2 ^ 39 + 0 * 2 ^ 37
        + squawkCode 7 7 0 0 * 2 ^ 24 + 99)) = .ok (.df5 m) ∧
      m.flightStatus.toNat = 0 ∧ m.downlinkRequest.toNat = 0 ∧
      m.utilityMessage.interrogatorIdentifier.toNat = 0 ∧ m.utilityMessage.identifierDesignator.toNat = 0 ∧
      m.identity = ['7', '7', '0', '0'] ∧ beNat m.data.parity = 99 :=
  roundtrip_df5 0 0 0 0 7 7 0 0 99 (by decide) (by decide) (by decide) (by decide) (by decide) (by decide) (by decide)
    (by decide) (by decide)

end Modes
