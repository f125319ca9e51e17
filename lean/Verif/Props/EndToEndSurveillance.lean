import Verif.Props.EndToEnd
import Verif.Props.Altitude
/-!
# Surveillance replies, from the aircraft to the receiver (C86)
-/
open Modes Spec
namespace Spec

/-- The 13-bit altitude code of `100 k - 1200` feet in 100-foot increments: C1 A1 C2 A2 C4 A4 (M = 0) B1 (Q = 0) B2 D2 B4 D4. -/
def encode100 (k : Nat) : Nat :=
  (modeC k).c1.toNat * 4096 + (modeC k).a1.toNat * 2048 + (modeC k).c2.toNat * 1024 + (modeC k).a2.toNat * 512 + (modeC k).c4.toNat * 256 +
    (modeC k).a4.toNat * 128 + (modeC k).b1.toNat * 32 + (modeC k).b2.toNat * 8 + (modeC k).d2.toNat * 4 + (modeC k).b4.toNat * 2 + (modeC k).d4.toNat

/-- The code of the nearest multiple of 25 feet. -/
noncomputable def code25 (h : ℝ) : Nat := encode25 ⌊(h + 1000) / 25 + 1 / 2⌋₊

/-- The code of the nearest multiple of 100 feet. -/
noncomputable def code100 (h : ℝ) : Nat := encode100 ⌊(h + 1200) / 100 + 1 / 2⌋₊

/-- An aircraft at the altitude `h` (feet) sends the code `c`, which tells its altitude within `tolerance`: in 25-foot increments up to 50175 feet, or in
100-foot increments. -/
def SendsAltitude (h : ℝ) (c : Nat) (tolerance : ℝ) : Prop :=
  (-1000 ≤ h ∧ h ≤ 50175 ∧ c = code25 h ∧ tolerance = 25 / 2) ∨ (-1200 ≤ h ∧ h ≤ 126700 ∧ c = code100 h ∧ tolerance = 50)

/-- `f` is the reply of that format: the format (5 bits), 14 bits of header, a 13-bit code, the 56-bit field of a long reply, and the parity with the
address overlaid. -/
def IsReply (format header code : Nat) (field : List UInt8) (address : Nat) (f : List UInt8) : Prop :=
  ∃ p : List UInt8, p.length = 3 ∧ f = toBytes 4 (format * 2 ^ 27 + header * 2 ^ 13 + code) ++ field ++ p ∧ Overlaid f address

/-- What `CheckCRC` says of a frame sent by `a`: the address, or an error if there is a list and it does not hold the address. -/
def IdentifiesSender (list : AllowList) (a : Nat) (r : Go UInt32) : Prop :=
  (Allowed list (UInt32.ofNat a) → ∃ x, r = .ok x ∧ x.toNat = a) ∧ (¬ Allowed list (UInt32.ofNat a) → r = .error .err)

end Spec
namespace Modes

theorem encode100_ok (k : Nat) (hk : k < 1280) : encode100 k < 8192 ∧ AltitudeMeaning (encode100 k) .feet100 (100 * (k : Int) - 1200) := by
  have hd := modeC_d1 k hk
  unfold encode100
  cases hm : modeC k with
  | mk d1 d2 d4 a1 a2 a4 b1 b2 b4 c1 c2 c4 =>
    rw [hm] at hd
    simp only at hd
    subst hd
    obtain ⟨h1, h2, h3, h4⟩ := acOfPulses_ok d2 d4 a1 a2 a4 b1 b2 b4 c1 c2 c4
    exact ⟨h1, h2, h3, k, hk, by rw [hm]; exact h4, rfl⟩

theorem nearest_step (x step : ℝ) (hs : 0 < step) (h0 : 0 ≤ x) : |step * (⌊x / step + 1 / 2⌋₊ : ℝ) - x| ≤ step / 2 := by
  have h1 := Nat.floor_le (by positivity : 0 ≤ x / step + 1 / 2)
  have h2 := Nat.lt_floor_add_one (x / step + 1 / 2)
  have e : x = step * (x / step) := by field_simp
  generalize (⌊x / step + 1 / 2⌋₊ : ℝ) = n at *
  rw [abs_le]
  constructor <;> nlinarith

theorem sends_meaning (h : ℝ) (c : Nat) (tol : ℝ) (hs : SendsAltitude h c tol) :
    c < 8192 ∧ ∃ method a, AltitudeMeaning c method a ∧ (method = .feet25 ∨ method = .feet100) ∧ |(a : ℝ) - h| ≤ tol := by
  rcases hs with ⟨h1, h2, rfl, rfl⟩ | ⟨h1, h2, rfl, rfl⟩
  · have hn : ⌊(h + 1000) / 25 + 1 / 2⌋₊ < 2048 := by
      rw [Nat.floor_lt (by linarith)]; push_cast; linarith
    have hc := nearest_step (h + 1000) 25 (by norm_num) (by linarith)
    unfold code25
    obtain ⟨e1, e2, e3⟩ := (encode25_unique _ hn _ (encode25_lt _)).2 rfl
    refine ⟨encode25_lt _, .feet25, _, ⟨e1, e2, rfl⟩, Or.inl rfl, ?_⟩
    rw [e3]; push_cast
    rw [abs_le] at hc ⊢
    constructor <;> linarith [hc.1, hc.2]
  · have hn : ⌊(h + 1200) / 100 + 1 / 2⌋₊ < 1280 := by
      rw [Nat.floor_lt (by linarith)]; push_cast; linarith
    have hc := nearest_step (h + 1200) 100 (by norm_num) (by linarith)
    unfold code100
    obtain ⟨e1, e2⟩ := encode100_ok _ hn
    refine ⟨e1, .feet100, _, e2, Or.inr rfl, ?_⟩
    push_cast
    rw [abs_le] at hc ⊢
    constructor <;> linarith [hc.1, hc.2]

/-- The first 32 bits of a reply. -/
theorem reply_bits {format header code : Nat} {field : List UInt8} {address : Nat} {f : List UInt8} (hf : format < 32) (hh : header < 2 ^ 14) (hc : code < 2 ^ 13)
    (h : IsReply format header code field address f) (a b : Nat) (hb : b ≤ 32) :
    bits f a b = (format * 2 ^ 27 + header * 2 ^ 13 + code) / 2 ^ (32 - b) % 2 ^ (b + 1 - a) := by
  obtain ⟨p, hp, hf', ho⟩ := h
  have hv : format * 2 ^ 27 + header * 2 ^ 13 + code < 2 ^ 32 := by omega
  have hl : f.length = 4 + field.length + 3 := by rw [hf']; simp [toBytes_length, hp]; omega
  unfold bits
  rw [hl, hf', List.append_assoc, beNat_append, beNat_toBytes, List.length_append, hp]
  have e : (format * 2 ^ 27 + header * 2 ^ 13 + code) % 256 ^ 4 = format * 2 ^ 27 + header * 2 ^ 13 + code := Nat.mod_eq_of_lt (lt_of_lt_of_eq hv (by norm_num))
  have h1 := beNat_lt (field ++ p)
  rw [List.length_append, hp] at h1
  have e2 : 8 * (4 + field.length + 3) - b = 8 * (field.length + 3) + (32 - b) := by omega
  rw [e, e2, pow_add, ← Nat.div_div_eq_div_mul, mul_comm _ (2 ^ (8 * (field.length + 3))), Nat.mul_add_div (by positivity), Nat.div_eq_of_lt h1, add_zero]

theorem reply_length {format header code : Nat} {field : List UInt8} {address : Nat} {f : List UInt8} (h : IsReply format header code field address f) :
    f.length = field.length + 7 ∧ (f.drop 4).take field.length = field ∧ Overlaid f address := by
  obtain ⟨p, hp, hf', ho⟩ := h
  refine ⟨by rw [hf']; simp [toBytes_length, hp]; omega, ?_, ho⟩
  rw [hf', List.append_assoc, List.drop_left' (toBytes_length 4 _), List.take_left' rfl]

theorem ofNat_toNat32 (a : Nat) (h : a < 2 ^ 24) : (UInt32.ofNat a).toNat = a := by
  rw [UInt32.toNat_ofNat']; exact Nat.mod_eq_of_lt (by omega)

theorem overlaid_unique (f : List UInt8) (a a' : Nat) (h6 : 6 ≤ f.length) (h : Overlaid f a) (h' : Overlaid f a') : a = a' := by
  obtain ⟨r, -, hr⟩ := overlaid_exists f h6
  rw [hr a h, hr a' h']

theorem identifies_of (f : List UInt8) (address : Nat) (l : AllowList) (r : Go UInt32) (h6 : 6 ≤ f.length) (ho : Overlaid f address)
    (h : NoPanic r ∧ ∀ a, r = .ok a ↔ (Overlaid f a.toNat ∧ Allowed l a)) : IdentifiesSender l address r := by
  have e := ofNat_toNat32 address ho.1
  constructor
  · intro hal
    exact ⟨_, (h.2 _).2 ⟨by rw [e]; exact ho, hal⟩, e⟩
  · intro hal
    cases hr : r with
    | ok x =>
      exfalso
      obtain ⟨h1, h2⟩ := (h.2 x).1 hr
      have := overlaid_unique f _ _ h6 ho h1
      apply hal
      rw [this]
      have : UInt32.ofNat x.toNat = x := UInt32.ofNat_toNat
      rw [this]; exact h2
    | error x =>
      cases x with
      | err => rfl
      | panic => exact absurd hr h.1

/-- Every reply of a known format with a legal code is read, and the sender is identified. -/
theorem reply_received {format header code : Nat} {field : List UInt8} {address : Nat} {f : List UInt8}
    (hfo : (format ∈ [0, 4, 5] ∧ field.length = 0) ∨ (format ∈ [16, 20, 21] ∧ field.length = 7)) (hh : header < 2 ^ 14) (hc : code < 2 ^ 13)
    (halt : format ∈ altitudeFormats → ¬ AltitudeIllegal code) (h : IsReply format header code field address f) :
    ∃ m, readMessage f = .ok m ∧ m.getDownLinkFormat = format ∧ bits f 20 32 = code ∧
      ∀ al il, IdentifiesSender al address (checkCRC m f al il) := by
  obtain ⟨hl, -, ho⟩ := reply_length h
  have hf : format < 32 := by simp only [List.mem_cons, List.not_mem_nil, or_false] at hfo; omega
  have hb := reply_bits hf hh hc h
  have hdf : bits f 1 5 = format := by rw [hb 1 5 (by norm_num)]; norm_num; omega
  have hac : bits f 20 32 = code := by rw [hb 20 32 (by norm_num)]; norm_num; omega
  obtain ⟨m, hm⟩ := (readMessage_accepts_iff f).2 (by
    rw [hdf, hac]
    refine ⟨?_, halt⟩
    simp only [shortFormats, longFormats, List.mem_cons, List.not_mem_nil, or_false] at hfo ⊢
    omega)
  refine ⟨m, hm, ?_, hac, fun al il => ?_⟩
  · rw [readMessage_type f m hm, hdf, if_neg]
    simp only [List.mem_cons, List.not_mem_nil, or_false] at hfo; omega
  · refine identifies_of f address al _ (by omega) ho (checkCRC_overlaid f m hm ?_ al il)
    rw [hdf]
    simp only [List.mem_cons, List.not_mem_nil, or_false] at hfo; omega

theorem meaning_received {h : ℝ} {c : Nat} {tol : ℝ} {method : AltitudeReportMethod} {a : Int} (hs : SendsAltitude h c tol) (hm : AltitudeMeaning c method a) :
    (method = .feet25 ∨ method = .feet100) ∧ |(a : ℝ) - h| ≤ tol := by
  obtain ⟨-, method', a', h1, h2, h3⟩ := sends_meaning h c tol hs
  obtain ⟨rfl, rfl⟩ := altitudeMeaning_functional c _ _ _ _ hm h1
  exact ⟨h2, h3⟩

theorem sends_legal {h : ℝ} {c : Nat} {tol : ℝ} (hs : SendsAltitude h c tol) : c < 2 ^ 13 ∧ ¬ AltitudeIllegal c := by
  obtain ⟨h0, method', a', h1, h2, h3⟩ := sends_meaning h c tol hs
  exact ⟨h0, altitudeMeaning_not_illegal _ _ _ h1⟩

/-- C86, altitude replies (formats 4 and 20): the flight status, the requests, the altitude within half an increment and the sender. -/
theorem altitude_reply_end_to_end (fs dr iis ids address : Nat) (hfs : fs < 8) (hdr : dr < 32) (hiis : iis < 16) (hids : ids < 4) (h : ℝ) (c : Nat) (tol : ℝ)
    (hs : SendsAltitude h c tol) (f mb : List UInt8) :
    (IsReply 4 (fs * 2 ^ 11 + dr * 2 ^ 6 + iis * 2 ^ 2 + ids) c [] address f →
      ∃ m, readMessage f = .ok (.df4 m) ∧ m.flightStatus.toNat = fs ∧ m.downlinkRequest.toNat = dr ∧ m.utilityMessage.interrogatorIdentifier.toNat = iis ∧
        m.utilityMessage.identifierDesignator.toNat = ids ∧ (m.altitudeReportMethod = .feet25 ∨ m.altitudeReportMethod = .feet100) ∧
        |(m.altitude : ℝ) - h| ≤ tol ∧ ∀ al il, IdentifiesSender al address (checkCRC (.df4 m) f al il)) ∧
    (mb.length = 7 → IsReply 20 (fs * 2 ^ 11 + dr * 2 ^ 6 + iis * 2 ^ 2 + ids) c mb address f →
      ∃ m, readMessage f = .ok (.df20 m) ∧ m.flightStatus.toNat = fs ∧ m.downlinkRequest.toNat = dr ∧ m.utilityMessage.interrogatorIdentifier.toNat = iis ∧
        m.utilityMessage.identifierDesignator.toNat = ids ∧ m.messageCommB = mb ∧ (m.altitudeReportMethod = .feet25 ∨ m.altitudeReportMethod = .feet100) ∧
        |(m.altitude : ℝ) - h| ≤ tol ∧ ∀ al il, IdentifiesSender al address (checkCRC (.df20 m) f al il)) := by
  obtain ⟨hc, hl⟩ := sends_legal hs
  constructor
  · intro hf
    obtain ⟨m, hm, ht, hac, hi⟩ := reply_received (Or.inl ⟨by decide, rfl⟩) (by omega) hc (fun _ => hl) hf
    have hb := reply_bits (by norm_num) (by omega) hc hf
    cases m <;> simp [ModeSMessage.getDownLinkFormat] at ht
    next m =>
      obtain ⟨-, -, e1, e2, e3, e4, e5, -⟩ := df4_fields f m hm
      rw [hac] at e5
      rw [hb _ _ (by norm_num)] at e1 e2 e3 e4
      obtain ⟨g1, g2⟩ := meaning_received hs e5
      refine ⟨m, hm, ?_, ?_, ?_, ?_, g1, g2, hi⟩
      · rw [e1]; norm_num; omega
      · rw [e2]; norm_num; omega
      · rw [e3]; norm_num; omega
      · rw [e4]; norm_num; omega
  · intro hmb hf
    obtain ⟨m, hm, ht, hac, hi⟩ := reply_received (Or.inr ⟨by decide, hmb⟩) (by omega) hc (fun _ => hl) hf
    have hb := reply_bits (by norm_num) (by omega) hc hf
    cases m <;> simp [ModeSMessage.getDownLinkFormat] at ht
    next m =>
      obtain ⟨-, -, e1, e2, e3, e4, e6, e5, -⟩ := df20_fields f m hm
      rw [hac] at e5
      rw [hb _ _ (by norm_num)] at e1 e2 e3 e4
      obtain ⟨g1, g2⟩ := meaning_received hs e5
      refine ⟨m, hm, ?_, ?_, ?_, ?_, ?_, g1, g2, hi⟩
      · rw [e1]; norm_num; omega
      · rw [e2]; norm_num; omega
      · rw [e3]; norm_num; omega
      · rw [e4]; norm_num; omega
      · rw [e6, ← hmb]; exact (reply_length hf).2.1

/-- C86, identity replies (formats 5 and 21): the four digits of the Mode A code. -/
theorem identity_reply_end_to_end (fs dr iis ids address : Nat) (hfs : fs < 8) (hdr : dr < 32) (hiis : iis < 16) (hids : ids < 4) (a b c d : Nat) (ha : a < 8)
    (hb : b < 8) (hc : c < 8) (hd : d < 8) (f mb : List UInt8) :
    (IsReply 5 (fs * 2 ^ 11 + dr * 2 ^ 6 + iis * 2 ^ 2 + ids) (squawkCode a b c d) [] address f →
      ∃ m, readMessage f = .ok (.df5 m) ∧ m.flightStatus.toNat = fs ∧ m.downlinkRequest.toNat = dr ∧ m.utilityMessage.interrogatorIdentifier.toNat = iis ∧
        m.utilityMessage.identifierDesignator.toNat = ids ∧ m.identity = digitsText [a, b, c, d] ∧ ∀ al il, IdentifiesSender al address (checkCRC (.df5 m) f al il)) ∧
    (mb.length = 7 → IsReply 21 (fs * 2 ^ 11 + dr * 2 ^ 6 + iis * 2 ^ 2 + ids) (squawkCode a b c d) mb address f →
      ∃ m, readMessage f = .ok (.df21 m) ∧ m.flightStatus.toNat = fs ∧ m.downlinkRequest.toNat = dr ∧ m.utilityMessage.interrogatorIdentifier.toNat = iis ∧
        m.utilityMessage.identifierDesignator.toNat = ids ∧ m.messageCommB = mb ∧ m.identity = digitsText [a, b, c, d] ∧
        ∀ al il, IdentifiesSender al address (checkCRC (.df21 m) f al il)) := by
  have hsq : squawkCode a b c d < 2 ^ 13 := by unfold squawkCode; omega
  have hs : squawk (squawkCode a b c d) = [a, b, c, d] := squawk_squawkCode a ha b hb c hc d hd
  constructor
  · intro hf
    obtain ⟨m, hm, ht, hac, hi⟩ := reply_received (Or.inl ⟨by decide, rfl⟩) (by omega) hsq (fun h => absurd h (by decide)) hf
    have hb := reply_bits (by norm_num) (by omega) hsq hf
    cases m <;> simp [ModeSMessage.getDownLinkFormat] at ht
    next m =>
      obtain ⟨-, -, e1, e2, e3, e4, e5, -⟩ := df5_fields f m hm
      rw [hac, hs] at e5
      rw [hb _ _ (by norm_num)] at e1 e2 e3 e4
      refine ⟨m, hm, ?_, ?_, ?_, ?_, e5, hi⟩
      · rw [e1]; norm_num; omega
      · rw [e2]; norm_num; omega
      · rw [e3]; norm_num; omega
      · rw [e4]; norm_num; omega
  · intro hmb hf
    obtain ⟨m, hm, ht, hac, hi⟩ := reply_received (Or.inr ⟨by decide, hmb⟩) (by omega) hsq (fun h => absurd h (by decide)) hf
    have hb := reply_bits (by norm_num) (by omega) hsq hf
    cases m <;> simp [ModeSMessage.getDownLinkFormat] at ht
    next m =>
      obtain ⟨-, -, e1, e2, e3, e4, e6, e5, -⟩ := df21_fields f m hm
      rw [hac, hs] at e5
      rw [hb _ _ (by norm_num)] at e1 e2 e3 e4
      refine ⟨m, hm, ?_, ?_, ?_, ?_, ?_, e5, hi⟩
      · rw [e1]; norm_num; omega
      · rw [e2]; norm_num; omega
      · rw [e3]; norm_num; omega
      · rw [e4]; norm_num; omega
      · rw [e6, ← hmb]; exact (reply_length hf).2.1

/-- C86, air-air replies (formats 0 and 16), by which collision avoidance systems track each other. -/
theorem airAir_reply_end_to_end (vs cc sl ri address : Nat) (hvs : vs < 2) (hcc : cc < 2) (hsl : sl < 8) (hri : ri < 16) (h : ℝ) (c : Nat) (tol : ℝ)
    (hs : SendsAltitude h c tol) (f mv : List UInt8) :
    (IsReply 0 (vs * 2 ^ 13 + cc * 2 ^ 12 + sl * 2 ^ 8 + ri * 2 ^ 2) c [] address f →
      ∃ m, readMessage f = .ok (.df0 m) ∧ m.verticalStatus.toNat = vs ∧ m.crossLinkCapability.toNat = cc ∧ m.sensitivityLevel.toNat = sl ∧
        m.replyInformation.toNat = ri ∧ (m.altitudeReportMethod = .feet25 ∨ m.altitudeReportMethod = .feet100) ∧
        |(m.altitude : ℝ) - h| ≤ tol ∧ ∀ al il, IdentifiesSender al address (checkCRC (.df0 m) f al il)) ∧
    (mv.length = 7 → IsReply 16 (vs * 2 ^ 13 + sl * 2 ^ 8 + ri * 2 ^ 2) c mv address f →
      ∃ m, readMessage f = .ok (.df16 m) ∧ m.verticalStatus.toNat = vs ∧ m.sensitivityLevel.toNat = sl ∧
        m.replyInformation.toNat = ri ∧ m.messageACAS = mv ∧ (m.altitudeReportMethod = .feet25 ∨ m.altitudeReportMethod = .feet100) ∧
        |(m.altitude : ℝ) - h| ≤ tol ∧ ∀ al il, IdentifiesSender al address (checkCRC (.df16 m) f al il)) := by
  obtain ⟨hc, hl⟩ := sends_legal hs
  constructor
  · intro hf
    obtain ⟨m, hm, ht, hac, hi⟩ := reply_received (Or.inl ⟨by decide, rfl⟩) (by omega) hc (fun _ => hl) hf
    have hb := reply_bits (by norm_num) (by omega) hc hf
    cases m <;> simp [ModeSMessage.getDownLinkFormat] at ht
    next m =>
      obtain ⟨-, -, e1, e2, e3, e4, e5, -⟩ := df0_fields f m hm
      rw [hac] at e5
      rw [hb _ _ (by norm_num)] at e1 e2 e3 e4
      obtain ⟨g1, g2⟩ := meaning_received hs e5
      refine ⟨m, hm, ?_, ?_, ?_, ?_, g1, g2, hi⟩
      · rw [e1]; norm_num; omega
      · rw [e2]; norm_num; omega
      · rw [e3]; norm_num; omega
      · rw [e4]; norm_num; omega
  · intro hmb hf
    obtain ⟨m, hm, ht, hac, hi⟩ := reply_received (Or.inr ⟨by decide, hmb⟩) (by omega) hc (fun _ => hl) hf
    have hb := reply_bits (by norm_num) (by omega) hc hf
    cases m <;> simp [ModeSMessage.getDownLinkFormat] at ht
    next m =>
      obtain ⟨-, -, e1, e2, e3, e6, e5, -⟩ := df16_fields f m hm
      rw [hac] at e5
      rw [hb _ _ (by norm_num)] at e1 e2 e3
      obtain ⟨g1, g2⟩ := meaning_received hs e5
      refine ⟨m, hm, ?_, ?_, ?_, ?_, g1, g2, hi⟩
      · rw [e1]; norm_num; omega
      · rw [e2]; norm_num; omega
      · rw [e3]; norm_num; omega
      · rw [e6, ← hmb]; exact (reply_length hf).2.1

/-- C86, all-call replies and acquisition squitters (format 11): the announced address and the code of the interrogator overlaid on the parity (0 for a
squitter). -/
theorem allCall_end_to_end (ca address code : Nat) (hca : ca < 8) (haa : address < 2 ^ 24) (f p : List UInt8) (hp : p.length = 3)
    (hf : f = toBytes 4 (11 * 2 ^ 27 + ca * 2 ^ 24 + address) ++ p) (ho : Overlaid f code) :
    ∃ m, readMessage f = .ok (.df11 m) ∧ m.capability.toNat = ca ∧ m.addressAnnounced.toNat = address ∧
      ∀ al il, IdentifiesSender il code (checkCRC (.df11 m) f al il) := by
  have hr : IsReply 11 ((ca * 2 ^ 24 + address) / 2 ^ 13) ((ca * 2 ^ 24 + address) % 2 ^ 13) [] code f := by
    refine ⟨p, hp, ?_, ho⟩
    have e : 11 * 2 ^ 27 + (ca * 2 ^ 24 + address) / 2 ^ 13 * 2 ^ 13 + (ca * 2 ^ 24 + address) % 2 ^ 13 = 11 * 2 ^ 27 + ca * 2 ^ 24 + address := by omega
    rw [e, hf, List.append_nil]
  have hb := reply_bits (by norm_num) (by omega) (by omega) hr
  have hl := (reply_length hr).1
  have hdf : bits f 1 5 = 11 := by rw [hb 1 5 (by norm_num)]; norm_num; omega
  obtain ⟨m, hm⟩ := (readMessage_accepts_iff f).2 (by
    rw [hdf]
    exact ⟨Or.inl ⟨hl, by decide⟩, fun h => absurd h (by decide)⟩)
  have ht := readMessage_type f m hm
  rw [hdf] at ht
  cases m <;> simp [ModeSMessage.getDownLinkFormat] at ht
  next m =>
    obtain ⟨-, -, e1, e2, -⟩ := df11_fields f m hm
    rw [hb _ _ (by norm_num)] at e1 e2
    refine ⟨m, hm, ?_, ?_, fun al il => ?_⟩
    · rw [e1]; norm_num; omega
    · rw [e2]; norm_num; omega
    · exact identifies_of f code il _ (by rw [hl]; decide) ho (checkCRC_df11 f _ hm hdf al il)

/-- Every reply can be sent. -/
theorem reply_exists (format header code : Nat) (field : List UInt8) (address : Nat) (ha : address < 2 ^ 24) : ∃ f, IsReply format header code field address f := by
  obtain ⟨c, -, hc, hp⟩ := computeParity_spec (toBytes 4 (format * 2 ^ 27 + header * 2 ^ 13 + code) ++ field) (by rw [List.length_append, toBytes_length]; omega)
  have hx : c.toNat ^^^ address < 2 ^ 24 := Nat.xor_lt_two_pow hc ha
  have hlen : (toBytes 3 (c.toNat ^^^ address)).length = 3 := toBytes_length 3 _
  refine ⟨_, toBytes 3 (c.toNat ^^^ address), hlen, rfl, ha, ?_⟩
  have e1 (hd p : List UInt8) (h : p.length = 3) : (hd ++ p).take ((hd ++ p).length - 3) = hd := by
    rw [List.length_append, h, Nat.add_sub_cancel, List.take_left]
  have e2 (hd p : List UInt8) (h : p.length = 3) : (hd ++ p).drop ((hd ++ p).length - 3) = p := by
    rw [List.length_append, h, Nat.add_sub_cancel, List.drop_left]
  rw [e1 _ _ hlen, e2 _ _ hlen, beNat_toBytes, Nat.mod_eq_of_lt (by simpa using hx), polyOf_xor, hp]

/-- An aircraft at 35612 feet, in 25-foot increments, on the ground status 0, and one at 61234 feet, in 100-foot increments. -/
example : ∃ f m, IsReply 4 0 (code25 35612) [] 0x4840D6 f ∧ readMessage f = .ok (.df4 m) ∧ |(m.altitude : ℝ) - 35612| ≤ 25 / 2 ∧
    checkCRC (.df4 m) f [] [] = .ok 0x4840D6 := by
  obtain ⟨f, hf⟩ := reply_exists 4 0 (code25 35612) [] 0x4840D6 (by norm_num)
  obtain ⟨m, h1, -, -, -, -, -, h2, h3⟩ := (altitude_reply_end_to_end 0 0 0 0 0x4840D6 (by norm_num) (by norm_num) (by norm_num) (by norm_num) 35612 _ _
    (Or.inl ⟨by norm_num, by norm_num, rfl, rfl⟩) f []).1 hf
  obtain ⟨x, h4, h5⟩ := (h3 [] []).1 (Or.inl rfl)
  exact ⟨f, m, hf, h1, h2, by rw [h4]; congr 1; exact UInt32.toNat_inj.1 h5⟩

example : SendsAltitude 61234 (code100 61234) 50 := Or.inr ⟨by norm_num, by norm_num, rfl, rfl⟩

/-- Squawk 7700, with an alert (flight status 2). -/
example : ∃ f m, IsReply 5 (2 * 2 ^ 11) (squawkCode 7 7 0 0) [] 0x510AF9 f ∧ readMessage f = .ok (.df5 m) ∧ m.identity = ['7', '7', '0', '0'] := by
  obtain ⟨f, hf⟩ := reply_exists 5 (2 * 2 ^ 11) (squawkCode 7 7 0 0) [] 0x510AF9 (by norm_num)
  obtain ⟨m, h1, -, -, -, -, h2, -⟩ := (identity_reply_end_to_end 2 0 0 0 0x510AF9 (by norm_num) (by norm_num) (by norm_num) (by norm_num) 7 7 0 0
    (by norm_num) (by norm_num) (by norm_num) (by norm_num) f []).1 hf
  exact ⟨f, m, hf, h1, h2⟩

end Modes
