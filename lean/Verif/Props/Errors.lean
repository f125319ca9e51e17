import Verif.Model.Errors
import Verif.Props.Program
/-!
# C100: the reasons the program prints for what it refuses
-/
open Modes
namespace Spec

/-- A byte that is written as a character between quotes: the printable characters of Latin-1. -/
def PrintableByte (c : UInt8) : Prop := (32 ≤ c.toNat ∧ c.toNat < 127) ∨ (161 ≤ c.toNat ∧ c.toNat ≠ 173)

instance (c : UInt8) : Decidable (PrintableByte c) := by unfold PrintableByte; infer_instance

/-- Why a line is not hexadecimal, and how that is said. -/
inductive HexReason (s : List UInt8) : List Char → Prop
  /-- The first byte that is no digit is named, and shown if it is printable. -/
  | shown {p q : List UInt8} {c : UInt8} (hs : s = p ++ c :: q) (hp : ∀ x ∈ p, ∃ v, HexDigit x v) (hc : ¬ ∃ v, HexDigit c v)
      (h : PrintableByte c) : HexReason s (t! "encoding/hex: invalid byte: U+00" ++ hexPair c.toNat ++ t! " '" ++ [Char.ofNat c.toNat] ++ t! "'")
  | named {p q : List UInt8} {c : UInt8} (hs : s = p ++ c :: q) (hp : ∀ x ∈ p, ∃ v, HexDigit x v) (hc : ¬ ∃ v, HexDigit c v)
      (h : ¬ PrintableByte c) : HexReason s (t! "encoding/hex: invalid byte: U+00" ++ hexPair c.toNat)
  | odd (hs : ∀ x ∈ s, ∃ v, HexDigit x v) (h : s.length % 2 = 1) : HexReason s (t! "encoding/hex: odd length hex string")

/-- The name of a downlink format in the texts: 24 to 31 are all called 24, as the format is then two bits. -/
def formatName (n : Nat) : Nat := if 24 ≤ n then 24 else n

/-- Why a frame is refused, and how that is said. -/
inductive FrameReason (f : List UInt8) : List Char → Prop
  | length (h7 : f.length ≠ 7) (h14 : f.length ≠ 14) : FrameReason f (t! "a Mode S message must be 7 or 14 bytes long")
  | format (hs : bits f 1 5 ∉ shortFormats) (hl : bits f 1 5 ∉ longFormats) :
      FrameReason f (t! "the downlink format " ++ decimal (bits f 1 5) ++ t! " is not supported")
  | long (h : bits f 1 5 ∈ shortFormats) (h14 : f.length = 14) :
      FrameReason f (t! "DF" ++ decimal (bits f 1 5) ++ t! " message must be 7 bytes long")
  | short (h : bits f 1 5 ∈ longFormats) (h7 : f.length = 7) :
      FrameReason f (t! "DF" ++ decimal (formatName (bits f 1 5)) ++ t! " message must be 14 bytes long")
  | altitude (h : bits f 1 5 ∈ altitudeFormats) (ha : AltitudeIllegal (bits f 20 32)) : FrameReason f (t! "the field Altitude is not readable")

/-- The content of a reserved or fixed field of an operational status message that must be 0, and how that is said; by version. -/
inductive OperationalReason (d : List UInt8) : List Char → Prop
  | subtype0 (hv : bits d 41 43 = 0) (h : bits d 6 8 ≠ 0) : OperationalReason d
      (t! "the data are given for subtype " ++ decimal (bits d 6 8) ++ t! " format and can not be read by ReadAircraftOperationalStatusADSB0")
  | reserved0 (hv : bits d 41 43 = 0) (h : bits d 41 56 ≠ 0) : OperationalReason d (t! "the bits 41 to 56 are expected to be 0")
  | subtype (hv : bits d 41 43 = 1 ∨ bits d 41 43 = 2) (h : 2 ≤ bits d 6 8) :
      OperationalReason d (t! "the field SubType must be comprised between 0 and 1 included, got " ++ decimal (bits d 6 8))
  | serviceLevel (hv : bits d 41 43 = 1) (h : 4 * bits d 9 10 + bits d 13 14 ≠ 0) : OperationalReason d
      (t! "the ServiceLevel (field Capability Class) must be 0 (" ++ decimal (4 * bits d 9 10 + bits d 13 14) ++ t! " given)")
  | capability (hv : bits d 41 43 = 2) (h : bits d 9 10 ≠ 0) : OperationalReason d
      (t! "the Capability Content (field Capability Class) must be 0 (" ++ decimal (bits d 9 10) ++ t! " given)")
  | modeFormat (hv : bits d 41 43 = 1 ∨ bits d 41 43 = 2) (h : bits d 25 26 ≠ 0) : OperationalReason d
      (t! "the Operational Mode Format (field Operational Mode) must be 0 (" ++ decimal (bits d 25 26) ++ t! " given)")
  | bits49 (hv : bits d 41 43 = 1) (h : bits d 49 50 ≠ 0) : OperationalReason d (t! "the bits 49 and 50 must be 0")
  | bits55 (hv : bits d 41 43 = 1) (h : bits d 55 56 ≠ 0) : OperationalReason d (t! "the bits 55 and 56 must be 0")
  | bit56 (hv : bits d 41 43 = 2) (h : bits d 56 56 ≠ 0) : OperationalReason d (t! "the bit 56 must be 0")
  | version (hv : 3 ≤ bits d 41 43) :
      OperationalReason d (t! "the field VersionNumber must be comprised between 0 and 2 included, got " ++ decimal (bits d 41 43))

/-- Why the 56 bits of an extended squitter are refused, and how that is said. -/
inductive SquitterReason (d : List UInt8) : List Char → Prop
  | typeCode (h : ¬ SupportedTC (bits d 1 5)) : SquitterReason d (t! "the formatTypeCode " ++ decimal (bits d 1 5) ++ t! " is not supported")
  | altitude (h : bits d 1 5 = 0 ∨ AirborneTC (bits d 1 5)) (ha : AC12Illegal (bits d 9 20)) :
      SquitterReason d (t! "the field Altitude is malformed")
  | velocity (h : bits d 1 5 = 19) (hs : bits d 6 8 = 0 ∨ 5 ≤ bits d 6 8) :
      SquitterReason d (t! "the field SubType must be comprised between 1 and 4 included, got " ++ decimal (bits d 6 8))
  | status (h : bits d 1 5 = 28) (hs : 3 ≤ bits d 6 8) :
      SquitterReason d (t! "the field SubType must be comprised between 0 and 2 included, got " ++ decimal (bits d 6 8))
  | noInformation (h : bits d 1 5 = 28) (hs : bits d 6 8 = 0) (hb : bits d 12 16 ≠ 0) :
      SquitterReason d (t! "the bits 12 to 16 are expected to be 0")
  | emergency (h : bits d 1 5 = 28) (hs : bits d 6 8 = 1) (hb : bits d 25 56 ≠ 0) :
      SquitterReason d (t! "the bits 25 to 56 are expected to be 0")
  | advisory (h : bits d 1 5 = 28) (hs : bits d 6 8 = 2) (ht : bits d 29 30 = 2) (ha : TIDIllegal (bits d 31 43)) :
      SquitterReason d (t! "the Altitude field is malformed")
  | targetState (h : bits d 1 5 = 29) (hs : 2 ≤ bits d 6 7) :
      SquitterReason d (t! "the field SubType must be comprised between 0 and 1 included, got " ++ decimal (bits d 6 7))
  | targetState47 (h : bits d 1 5 = 29) (hs : bits d 6 7 = 0) (hb : bits d 47 48 ≠ 0) :
      SquitterReason d (t! "the bits 47 to 48 are expected to be 0")
  | targetState49 (h : bits d 1 5 = 29) (hs : bits d 6 7 = 0) (hb : bits d 49 51 ≠ 0) :
      SquitterReason d (t! "the bits 49 to 51 are expected to be 0")
  | operational (h : bits d 1 5 = 31) {t : List Char} (ht : OperationalReason d t) : SquitterReason d t

end Spec
open Spec
namespace Modes

/-! ### Hexadecimal text -/

theorem hexValue_none (c : UInt8) : hexValue c = none ↔ ¬ ∃ v, HexDigit c v := by
  constructor
  · rintro h ⟨v, hv⟩
    have := hexDigit_lt _ _ hv
    have : hexValue c = some (UInt8.ofNat v) := (hexValue_some _ _).2 (by
      rw [UInt8.toNat_ofNat_of_lt' (by show v < 256; omega)]; exact hv)
    rw [h] at this; cases this
  · intro h
    cases hc : hexValue c with
    | none => rfl
    | some x => exact (h ⟨_, (hexValue_some _ _).1 hc⟩).elim

theorem invalidByteText_eq (c : UInt8) : invalidByteText c =
    t! "encoding/hex: invalid byte: U+00" ++ hexPair c.toNat ++
      (if PrintableByte c then t! " '" ++ [Char.ofNat c.toNat] ++ t! "'" else []) := by
  unfold invalidByteText PrintableByte
  rw [hex02_pair]
  have h : ((0x20 ≤ c ∧ c < 0x7F) ∨ (0xA1 ≤ c ∧ c ≠ 0xAD)) ↔ ((32 ≤ c.toNat ∧ c.toNat < 127) ∨ (161 ≤ c.toNat ∧ c.toNat ≠ 173)) := by
    rw [UInt8.le_iff_toNat_le, UInt8.lt_iff_toNat_lt, UInt8.le_iff_toNat_le, Ne, ← UInt8.toNat_inj]
    exact Iff.rfl
  simp only [h]

theorem invalidByte_reason {s p q : List UInt8} {c : UInt8} (hs : s = p ++ c :: q) (hp : ∀ x ∈ p, ∃ v, HexDigit x v)
    (hc : ¬ ∃ v, HexDigit c v) : HexReason s (invalidByteText c) := by
  rw [invalidByteText_eq]
  split
  · rename_i h
    have := HexReason.shown hs hp hc h
    simpa only [List.append_assoc] using this
  · rename_i h
    rw [List.append_nil]
    exact HexReason.named hs hp hc h

theorem hexReason_cons {a b : UInt8} {s : List UInt8} {t : List Char} (ha : ∃ v, HexDigit a v) (hb : ∃ v, HexDigit b v)
    (h : HexReason s t) : HexReason (a :: b :: s) t := by
  have hab {p : List UInt8} (hp : ∀ x ∈ p, ∃ v, HexDigit x v) : ∀ x ∈ a :: b :: p, ∃ v, HexDigit x v :=
    List.forall_mem_cons.2 ⟨ha, List.forall_mem_cons.2 ⟨hb, hp⟩⟩
  cases h with
  | shown hs hp hc h => exact .shown (p := a :: b :: _) (by rw [hs]; rfl) (hab hp) hc h
  | named hs hp hc h => exact .named (p := a :: b :: _) (by rw [hs]; rfl) (hab hp) hc h
  | odd hs h => exact .odd (hab hs) (by simp only [List.length_cons]; omega)

theorem hexadecimal_sound (s : List UInt8) (t : List Char) (h : hexadecimalError s = some t) : HexReason s t := by
  induction s using hexadecimalError.induct with
  | case1 => cases h
  | case2 a ha =>
    rw [hexadecimalError, if_pos ha] at h
    injection h with h; subst h
    exact invalidByte_reason (p := []) (q := []) rfl (by simp) ((hexValue_none a).1 ha)
  | case3 a ha =>
    rw [hexadecimalError, if_neg ha] at h
    injection h with h; subst h
    have : ∃ v, HexDigit a v := Classical.not_not.1 fun hn => ha ((hexValue_none a).2 hn)
    exact .odd (by simpa using this) rfl
  | case4 a b rest ha =>
    rw [hexadecimalError, if_pos ha] at h
    injection h with h; subst h
    exact invalidByte_reason (p := []) rfl (by simp) ((hexValue_none a).1 ha)
  | case5 a b rest ha hb =>
    rw [hexadecimalError, if_neg ha, if_pos hb] at h
    injection h with h; subst h
    have : ∃ v, HexDigit a v := Classical.not_not.1 fun hn => ha ((hexValue_none a).2 hn)
    exact invalidByte_reason (p := [a]) rfl (by simpa using this) ((hexValue_none b).1 hb)
  | case6 a b rest ha hb ih =>
    rw [hexadecimalError, if_neg ha, if_neg hb] at h
    exact hexReason_cons (Classical.not_not.1 fun hn => ha ((hexValue_none a).2 hn))
      (Classical.not_not.1 fun hn => hb ((hexValue_none b).2 hn)) (ih h)

theorem hexReason_refused {s : List UInt8} {t : List Char} (h : HexReason s t) : ¬ ∃ f, Spells s f := by
  have key : ∀ s f, Spells s f → (∀ x ∈ s, ∃ v, HexDigit x v) ∧ s.length % 2 = 0 := by
    intro s f h
    induction h with
    | nil => simp
    | cons ha hb hn h ih =>
      exact ⟨List.forall_mem_cons.2 ⟨⟨_, ha⟩, List.forall_mem_cons.2 ⟨⟨_, hb⟩, ih.1⟩⟩, by simp only [List.length_cons]; omega⟩
  rintro ⟨f, hf⟩
  obtain ⟨k1, k2⟩ := key s f hf
  cases h with
  | shown hs hp hc h => exact hc (k1 _ (by rw [hs]; simp))
  | named hs hp hc h => exact hc (k1 _ (by rw [hs]; simp))
  | odd hs h => omega

theorem hexReason_unique {s : List UInt8} {t u : List Char} (h : HexReason s t) (h' : HexReason s u) : t = u := by
  have first : ∀ (p q p' q' : List UInt8) (c c' : UInt8), p ++ c :: q = p' ++ c' :: q' → (∀ x ∈ p, ∃ v, HexDigit x v) →
      (∀ x ∈ p', ∃ v, HexDigit x v) → (¬ ∃ v, HexDigit c v) → (¬ ∃ v, HexDigit c' v) → c = c' := by
    intro p
    induction p with
    | nil =>
      intro q p' q' c c' e _ hp' hc _
      cases p' with
      | nil => injection e
      | cons x p' => injection e with e _; exact (hc (e ▸ hp' x (by simp))).elim
    | cons x p ih =>
      intro q p' q' c c' e hp hp' hc hc'
      cases p' with
      | nil => injection e with e _; exact (hc' (e ▸ hp x (by simp))).elim
      | cons y p' =>
        injection e with _ e
        exact ih q p' q' c c' e (fun z hz => hp z (by simp [hz])) (fun z hz => hp' z (by simp [hz])) hc hc'
  cases h with
  | shown hs hp hc h =>
    cases h' with
    | shown hs' hp' hc' h' => rw [first _ _ _ _ _ _ (hs ▸ hs') hp hp' hc hc']
    | named hs' hp' hc' h' => exact (h' (first _ _ _ _ _ _ (hs ▸ hs') hp hp' hc hc' ▸ h)).elim
    | odd hs' h' => exact (hc (hs' _ (by rw [hs]; simp))).elim
  | named hs hp hc h =>
    cases h' with
    | shown hs' hp' hc' h' => exact (h (first _ _ _ _ _ _ (hs ▸ hs') hp hp' hc hc' ▸ h')).elim
    | named hs' hp' hc' h' => rw [first _ _ _ _ _ _ (hs ▸ hs') hp hp' hc hc']
    | odd hs' h' => exact (hc (hs' _ (by rw [hs]; simp))).elim
  | odd hs h =>
    cases h' with
    | shown hs' hp' hc' h' => exact (hc' (hs _ (by rw [hs']; simp))).elim
    | named hs' hp' hc' h' => exact (hc' (hs _ (by rw [hs']; simp))).elim
    | odd hs' h' => rfl

theorem hexadecimal_none (s : List UInt8) (h : hexadecimalError s = none) : ∃ f, Spells s f := by
  induction s using hexadecimalError.induct with
  | case1 => exact ⟨[], .nil⟩
  | case2 a ha => rw [hexadecimalError, if_pos ha] at h; cases h
  | case3 a ha => rw [hexadecimalError, if_neg ha] at h; cases h
  | case4 a b rest ha => rw [hexadecimalError, if_pos ha] at h; cases h
  | case5 a b rest ha hb => rw [hexadecimalError, if_neg ha, if_pos hb] at h; cases h
  | case6 a b rest ha hb ih =>
    rw [hexadecimalError, if_neg ha, if_neg hb] at h
    obtain ⟨f, hf⟩ := ih h
    obtain ⟨x, hx⟩ := Classical.not_not.1 fun hn => ha ((hexValue_none a).2 hn)
    obtain ⟨y, hy⟩ := Classical.not_not.1 fun hn => hb ((hexValue_none b).2 hn)
    have lx := hexDigit_lt _ _ hx
    have ly := hexDigit_lt _ _ hy
    exact ⟨UInt8.ofNat (16 * x + y) :: f, .cons hx hy (UInt8.toNat_ofNat_of_lt' (by show 16 * x + y < 256; omega)) hf⟩

/-- C100. The text of the error of a line that is not hexadecimal is the reason; there is one for every such line and for no other. -/
theorem hexadecimal_reason (s : List UInt8) :
    (∀ t, hexadecimalError s = some t ↔ HexReason s t) ∧ ((∃ t, hexadecimalError s = some t) ↔ ¬ ∃ f, Spells s f) := by
  have h2 : (∃ t, hexadecimalError s = some t) ↔ ¬ ∃ f, Spells s f := by
    constructor
    · rintro ⟨t, h⟩; exact hexReason_refused (hexadecimal_sound s t h)
    · intro h
      cases e : hexadecimalError s with
      | none => exact (h (hexadecimal_none s e)).elim
      | some t => exact ⟨t, rfl⟩
  refine ⟨fun t => ⟨hexadecimal_sound s t, fun h => ?_⟩, h2⟩
  obtain ⟨u, hu⟩ := h2.2 (hexReason_refused h)
  rw [hu, hexReason_unique h (hexadecimal_sound s u hu)]

/-! ### Frames -/

theorem altitudeFormatError_eq (name bytes payload : Nat) (md : MessageData) (p0 p1 p2 : UInt8) (rest : List UInt8)
    (hp : md.payload = p0 :: p1 :: p2 :: rest) (hl : md.payload.length = payload) :
    altitudeFormatError name bytes payload md =
      if AltitudeIllegal (p1.toNat % 32 * 256 + p2.toNat) then some (t! "the field Altitude is not readable") else none := by
  unfold altitudeFormatError
  rw [if_neg (not_not.2 hl)]
  rcases readAltitude_eval md p0 p1 p2 rest hp _ rfl with ⟨method, a, he, hm⟩ | ⟨he, hi⟩
  · rw [he, if_neg (altitudeMeaning_not_illegal _ _ _ hm)]
  · rw [he, if_pos hi]

/-- The text of the error of a frame, by the checks. -/
theorem frameError_eq (f : List UInt8) : frameError f =
    if f.length ≠ 7 ∧ f.length ≠ 14 then some (t! "a Mode S message must be 7 or 14 bytes long")
    else if bits f 1 5 ∉ shortFormats ∧ bits f 1 5 ∉ longFormats then
      some (t! "the downlink format " ++ decimal (bits f 1 5) ++ t! " is not supported")
    else if bits f 1 5 ∈ shortFormats ∧ f.length = 14 then some (t! "DF" ++ decimal (bits f 1 5) ++ t! " message must be 7 bytes long")
    else if bits f 1 5 ∈ longFormats ∧ f.length = 7 then
      some (t! "DF" ++ decimal (formatName (bits f 1 5)) ++ t! " message must be 14 bytes long")
    else if bits f 1 5 ∈ altitudeFormats ∧ AltitudeIllegal (bits f 20 32) then some (t! "the field Altitude is not readable")
    else none := by
  unfold frameError
  by_cases h7 : f.length = 7
  · obtain ⟨b0, b1, b2, b3, b4, b5, b6, rfl⟩ := list7 f h7
    have hb := byte_lt b0
    have hlt : b0.toNat / 8 < 32 := by omega
    have hd : (b0 &&& 0xF8) >>> 3 = UInt8.ofNat (b0.toNat / 8) := by
      rw [← UInt8.toNat_inj]; bytes_nat; rw [UInt8.toNat_ofNat']; omega
    have e1 : bits [b0, b1, b2, b3, b4, b5, b6] 1 5 = b0.toNat / 8 := by byte_omega
    have e2 : bits [b0, b1, b2, b3, b4, b5, b6] 20 32 = b2.toNat % 32 * 256 + b3.toNat := by byte_omega
    simp only [byteAt, List.getD_cons_zero, List.length_cons, List.length_nil, hd, e1, e2, ne_eq, Nat.reduceAdd, Nat.reduceSub,
      not_true_eq_false, false_and, if_false, List.take_succ_cons, List.take_zero, List.drop_succ_cons, List.drop_zero]
    generalize b0.toNat / 8 = d at hlt
    interval_cases d
    all_goals simp only [UInt8.reduceOfNat, UInt8.reduceToNat]
    all_goals first
      | rfl
      | (rw [altitudeFormatError_eq _ _ 3 _ b1 b2 b3 [] rfl rfl]
         by_cases ha : AltitudeIllegal (b2.toNat % 32 * 256 + b3.toNat) <;>
           simp [ha, shortFormats, longFormats, altitudeFormats])
  by_cases h14 : f.length = 14
  · obtain ⟨b0, b1, b2, b3, b4, b5, b6, b7, b8, b9, b10, b11, b12, b13, rfl⟩ := list14 f h14
    have hb := byte_lt b0
    have hlt : b0.toNat / 8 < 32 := by omega
    have hd : (b0 &&& 0xF8) >>> 3 = UInt8.ofNat (b0.toNat / 8) := by
      rw [← UInt8.toNat_inj]; bytes_nat; rw [UInt8.toNat_ofNat']; omega
    have e1 : bits [b0, b1, b2, b3, b4, b5, b6, b7, b8, b9, b10, b11, b12, b13] 1 5 = b0.toNat / 8 := by byte_omega
    have e2 : bits [b0, b1, b2, b3, b4, b5, b6, b7, b8, b9, b10, b11, b12, b13] 20 32 = b2.toNat % 32 * 256 + b3.toNat := by byte_omega
    simp only [byteAt, List.getD_cons_zero, List.length_cons, List.length_nil, hd, e1, e2, ne_eq, Nat.reduceAdd, Nat.reduceSub,
      not_true_eq_false, and_false, if_false, List.take_succ_cons, List.take_zero, List.drop_succ_cons, List.drop_zero]
    generalize b0.toNat / 8 = d at hlt
    interval_cases d
    all_goals simp only [UInt8.reduceOfNat, UInt8.reduceToNat]
    all_goals first
      | rfl
      | (rw [altitudeFormatError_eq _ _ 10 _ b1 b2 b3 [b4, b5, b6, b7, b8, b9, b10] rfl rfl]
         by_cases ha : AltitudeIllegal (b2.toNat % 32 * 256 + b3.toNat) <;>
           simp [ha, shortFormats, longFormats, altitudeFormats])
  rw [if_pos ⟨h7, h14⟩, if_pos ⟨h7, h14⟩]

/-- C100. The text of the error of a frame is a true reason, and there is one for exactly the frames that are refused. -/
theorem frame_reason (f : List UInt8) :
    (∀ t, frameError f = some t → FrameReason f t) ∧ ((∃ t, frameError f = some t) ↔ ¬ Succeeds (readMessage f)) := by
  rw [readMessage_accepts_iff, frameError_eq]
  by_cases h1 : f.length ≠ 7 ∧ f.length ≠ 14
  · rw [if_pos h1]
    refine ⟨fun t h => ?_, fun _ h => ?_, fun _ => ⟨_, rfl⟩⟩
    · injection h with h; subst h; exact .length h1.1 h1.2
    · rcases h.1 with h | h
      · exact h1.1 h.1
      · exact h1.2 h.1
  rw [if_neg h1]
  by_cases h2 : bits f 1 5 ∉ shortFormats ∧ bits f 1 5 ∉ longFormats
  · rw [if_pos h2]
    refine ⟨fun t h => ?_, fun _ h => ?_, fun _ => ⟨_, rfl⟩⟩
    · injection h with h; subst h; exact .format h2.1 h2.2
    · rcases h.1 with h | h
      · exact h2.1 h.2
      · exact h2.2 h.2
  rw [if_neg h2]
  have hd : bits f 1 5 ∈ shortFormats → bits f 1 5 ∈ longFormats → False := by
    simp only [shortFormats, longFormats, List.mem_cons, List.not_mem_nil, or_false]; omega
  by_cases h3 : bits f 1 5 ∈ shortFormats ∧ f.length = 14
  · rw [if_pos h3]
    refine ⟨fun t h => ?_, fun _ h => ?_, fun _ => ⟨_, rfl⟩⟩
    · injection h with h; subst h; exact .long h3.1 h3.2
    · rcases h.1 with h | h
      · omega
      · exact hd h3.1 h.2
  rw [if_neg h3]
  by_cases h4 : bits f 1 5 ∈ longFormats ∧ f.length = 7
  · rw [if_pos h4]
    refine ⟨fun t h => ?_, fun _ h => ?_, fun _ => ⟨_, rfl⟩⟩
    · injection h with h; subst h; exact .short h4.1 h4.2
    · rcases h.1 with h | h
      · exact hd h.2 h4.1
      · omega
  rw [if_neg h4]
  have ok : (f.length = 7 ∧ bits f 1 5 ∈ shortFormats) ∨ (f.length = 14 ∧ bits f 1 5 ∈ longFormats) := by
    by_cases l7 : f.length = 7
    · by_cases m : bits f 1 5 ∈ shortFormats
      · exact Or.inl ⟨l7, m⟩
      · exact (h4 ⟨Classical.not_not.1 fun m' => h2 ⟨m, m'⟩, l7⟩).elim
    · have l14 : f.length = 14 := Classical.not_not.1 fun l => h1 ⟨l7, l⟩
      by_cases m : bits f 1 5 ∈ longFormats
      · exact Or.inr ⟨l14, m⟩
      · exact (h3 ⟨Classical.not_not.1 fun m' => h2 ⟨m', m⟩, l14⟩).elim
  by_cases h5 : bits f 1 5 ∈ altitudeFormats ∧ AltitudeIllegal (bits f 20 32)
  · rw [if_pos h5]
    refine ⟨fun t h => ?_, fun _ h => h.2 h5.1 h5.2, fun _ => ⟨_, rfl⟩⟩
    injection h with h; subst h; exact .altitude h5.1 h5.2
  rw [if_neg h5]
  refine ⟨fun t h => (nomatch h), ?_, fun h => (h ⟨ok, fun a b => h5 ⟨a, b⟩⟩).elim⟩
  rintro ⟨t, h⟩; cases h

/-! ### Resolution advisories -/

/-- C100. The text of the error of a resolution advisory: it does not have six bytes, or the altitude of its threat has no meaning (for
the advisories of a threat given by its altitude, with the first two bits of the altitude 0). -/
theorem advisory_reason_partial (d : List UInt8) (h0 : bits d 21 22 = 2 → bits d 23 24 = 0) :
    advisoryError d = if d.length ≠ 6 then some (t! "the data for ACAS ResolutionAdvisory message must be 6 bytes long")
      else if bits d 21 22 = 2 ∧ TIDIllegal (bits d 23 35) then some (t! "the Altitude field is malformed") else none := by
  unfold advisoryError
  by_cases h6 : d.length = 6
  · rw [if_neg (not_not.2 h6), if_neg (not_not.2 h6)]
    have key := ra_fails_iff_partial d h0
    by_cases hr : bits d 21 22 = 2 ∧ TIDIllegal (bits d 23 35)
    · rw [key.2 (Or.inr hr), if_pos hr]
    · rw [if_neg hr]
      cases e : readResolutionAdvisory d with
      | ok _ => rfl
      | error x =>
        cases x with
        | err => exact (key.1 e).elim (fun h => (h h6).elim) (fun h => (hr h).elim)
        | panic => exact (ra_noPanic d e).elim
  · rw [if_pos h6, if_pos h6]

/-- There is an error exactly when the advisory is refused. -/
theorem advisory_refused (d : List UInt8) : advisoryError d = none ↔ Succeeds (readResolutionAdvisory d) := by
  unfold advisoryError Succeeds
  by_cases h6 : d.length = 6
  · rw [if_neg (not_not.2 h6)]
    cases e : readResolutionAdvisory d with
    | ok r => exact ⟨fun _ => ⟨r, rfl⟩, fun _ => rfl⟩
    | error x => exact ⟨fun h => (nomatch h), fun ⟨_, h⟩ => (nomatch h)⟩
  · rw [if_pos h6, (ra_accepts d).1 h6]
    exact ⟨fun h => (nomatch h), fun ⟨_, h⟩ => (nomatch h)⟩

/-! ### Extended squitters -/

theorem tc_byte (b0 b1 b2 b3 b4 b5 b6 : UInt8) :
    ((b0 &&& 0xF8) >>> 3).toNat = bits [b0, b1, b2, b3, b4, b5, b6] 1 5 := by byte_omega

theorem st_byte (b0 b1 b2 b3 b4 b5 b6 : UInt8) : (b0 &&& 0x07).toNat = bits [b0, b1, b2, b3, b4, b5, b6] 6 8 := by byte_omega

theorem airborneError_eq (d : List UInt8) (h7 : d.length = 7) (htc : 9 ≤ bits d 1 5 ∧ bits d 1 5 ≤ 22 ∧ bits d 1 5 ≠ 19) :
    airborneError d = if AC12Illegal (bits d 9 20) then some (t! "the field Altitude is malformed") else none := by
  obtain ⟨k1, k2⟩ := airborne_position_accepts d
  have e : airborneError d = match readBDS05 d with
      | .ok _ => none
      | .error _ => some (t! "the field Altitude is malformed") := by
    obtain ⟨b0, b1, b2, b3, b4, b5, b6, rfl⟩ := list7 d h7
    rw [← tc_byte] at htc
    have hn : ¬ ((b0 &&& 0xF8) >>> 3 < 9 ∨ (b0 &&& 0xF8) >>> 3 > 22 ∨ (b0 &&& 0xF8) >>> 3 = 19) := by
      simp only [UInt8.lt_iff_toNat_lt, gt_iff_lt, ← UInt8.toNat_inj, UInt8.reduceToNat]
      omega
    unfold airborneError
    rw [if_neg (not_not.2 h7)]
    simp only [byteAt, List.getD_cons_zero, if_neg hn]
    cases readBDS05 [b0, b1, b2, b3, b4, b5, b6] <;> rfl
  rw [e]
  by_cases ha : AC12Illegal (bits d 9 20)
  · rw [if_pos ha, k2 (fun h => (k1.1 h).2.2.2.2 ha)]
  · obtain ⟨m, hm⟩ := k1.2 ⟨h7, htc.1, htc.2.1, htc.2.2, ha⟩
    rw [if_neg ha, hm]

theorem velocityError_eq (d : List UInt8) (h7 : d.length = 7) (htc : bits d 1 5 = 19) :
    velocityError d = if 1 ≤ bits d 6 8 ∧ bits d 6 8 ≤ 4 then none
      else some (t! "the field SubType must be comprised between 1 and 4 included, got " ++ decimal (bits d 6 8)) := by
  unfold velocityError
  rw [if_neg (not_not.2 h7)]
  obtain ⟨b0, b1, b2, b3, b4, b5, b6, rfl⟩ := list7 d h7
  have hl : bits [b0, b1, b2, b3, b4, b5, b6] 6 8 < 8 := by unfold bits; exact Nat.mod_lt _ (by norm_num)
  have e : ¬ ((b0 &&& 0xF8) >>> 3 ≠ 19) := by
    rw [not_not, ← UInt8.toNat_inj, tc_byte b0 b1 b2 b3 b4 b5 b6, htc]; rfl
  simp only [byteAt, List.getD_cons_zero, if_neg e, st_byte b0 b1 b2 b3 b4 b5 b6]
  generalize bits [b0, b1, b2, b3, b4, b5, b6] 6 8 = n at hl
  interval_cases n <;> rfl

theorem statusError_eq (d : List UInt8) (h7 : d.length = 7) (htc : bits d 1 5 = 28) :
    statusError d =
      if bits d 6 8 = 0 then (if bits d 12 16 ≠ 0 then some (t! "the bits 12 to 16 are expected to be 0") else none)
      else if bits d 6 8 = 1 then (if bits d 25 56 ≠ 0 then some (t! "the bits 25 to 56 are expected to be 0") else none)
      else if bits d 6 8 = 2 then advisoryError (d.drop 1)
      else some (t! "the field SubType must be comprised between 0 and 2 included, got " ++ decimal (bits d 6 8)) := by
  unfold statusError
  rw [if_neg (not_not.2 h7)]
  obtain ⟨b0, b1, b2, b3, b4, b5, b6, rfl⟩ := list7 d h7
  have hl : bits [b0, b1, b2, b3, b4, b5, b6] 6 8 < 8 := by unfold bits; exact Nat.mod_lt _ (by norm_num)
  have e : ¬ ((b0 &&& 0xF8) >>> 3 ≠ 28) := by
    rw [not_not, ← UInt8.toNat_inj, tc_byte b0 b1 b2 b3 b4 b5 b6, htc]; rfl
  have e1 : (b1 &&& 0x1F ≠ 0) = (bits [b0, b1, b2, b3, b4, b5, b6] 12 16 ≠ 0) := by
    rw [Ne, ← UInt8.toNat_inj]; apply propext; byte_omega
  have e2 : (b3 ≠ 0 ∨ b4 ≠ 0 ∨ b5 ≠ 0 ∨ b6 ≠ 0) = (bits [b0, b1, b2, b3, b4, b5, b6] 25 56 ≠ 0) := by
    simp only [Ne, ← UInt8.toNat_inj]; apply propext; byte_omega
  simp only [byteAt, List.getD_cons_zero, List.getD_cons_succ, if_neg e, st_byte b0 b1 b2 b3 b4 b5 b6]
  simp only [e1, e2]
  generalize bits [b0, b1, b2, b3, b4, b5, b6] 6 8 = n at hl
  interval_cases n <;> rfl

theorem targetStateError_eq (d : List UInt8) (h7 : d.length = 7) (htc : bits d 1 5 = 29) :
    targetStateError d =
      if bits d 6 7 = 0 then
        (if bits d 47 48 ≠ 0 then some (t! "the bits 47 to 48 are expected to be 0")
         else if bits d 49 51 ≠ 0 then some (t! "the bits 49 to 51 are expected to be 0") else none)
      else if bits d 6 7 = 1 then none
      else some (t! "the field SubType must be comprised between 0 and 1 included, got " ++ decimal (bits d 6 7)) := by
  unfold targetStateError
  rw [if_neg (not_not.2 h7)]
  obtain ⟨b0, b1, b2, b3, b4, b5, b6, rfl⟩ := list7 d h7
  have hl : bits [b0, b1, b2, b3, b4, b5, b6] 6 7 < 4 := by unfold bits; exact Nat.mod_lt _ (by norm_num)
  have e : ¬ ((b0 &&& 0xF8) >>> 3 ≠ 29) := by
    rw [not_not, ← UInt8.toNat_inj, tc_byte b0 b1 b2 b3 b4 b5 b6, htc]; rfl
  have es : ((b0 &&& 0x06) >>> 1).toNat = bits [b0, b1, b2, b3, b4, b5, b6] 6 7 := by byte_omega
  have e1 : (b5 &&& 0x03 ≠ 0) = (bits [b0, b1, b2, b3, b4, b5, b6] 47 48 ≠ 0) := by
    rw [Ne, ← UInt8.toNat_inj]; apply propext; byte_omega
  have e2 : (b6 &&& 0xE0 ≠ 0) = (bits [b0, b1, b2, b3, b4, b5, b6] 49 51 ≠ 0) := by
    rw [Ne, ← UInt8.toNat_inj]; apply propext; byte_omega
  simp only [byteAt, List.getD_cons_zero, List.getD_cons_succ, if_neg e, es]
  simp only [e1, e2]
  generalize bits [b0, b1, b2, b3, b4, b5, b6] 6 7 = n at hl
  interval_cases n <;> rfl

theorem operationalError1_eq (d : List UInt8) (h7 : d.length = 7) :
    operationalError1 d =
      if 4 * bits d 9 10 + bits d 13 14 ≠ 0 then
        some (t! "the ServiceLevel (field Capability Class) must be 0 (" ++ decimal (4 * bits d 9 10 + bits d 13 14) ++ t! " given)")
      else if bits d 25 26 ≠ 0 then
        some (t! "the Operational Mode Format (field Operational Mode) must be 0 (" ++ decimal (bits d 25 26) ++ t! " given)")
      else if bits d 49 50 ≠ 0 then some (t! "the bits 49 and 50 must be 0")
      else if bits d 55 56 ≠ 0 then some (t! "the bits 55 and 56 must be 0")
      else none := by
  unfold operationalError1
  obtain ⟨b0, b1, b2, b3, b4, b5, b6, rfl⟩ := list7 d h7
  have e0 : (((b1 &&& 0xC0) >>> 4) + ((b1 &&& 0x0C) >>> 2)).toNat =
      4 * bits [b0, b1, b2, b3, b4, b5, b6] 9 10 + bits [b0, b1, b2, b3, b4, b5, b6] 13 14 := by
    have a1 : ((b1 &&& 0xC0) >>> 4).toNat = 4 * bits [b0, b1, b2, b3, b4, b5, b6] 9 10 := by byte_omega
    have a2 : ((b1 &&& 0x0C) >>> 2).toNat = bits [b0, b1, b2, b3, b4, b5, b6] 13 14 := by byte_omega
    have a3 : bits [b0, b1, b2, b3, b4, b5, b6] 9 10 < 4 := by unfold bits; exact Nat.mod_lt _ (by norm_num)
    have a4 : bits [b0, b1, b2, b3, b4, b5, b6] 13 14 < 4 := by unfold bits; exact Nat.mod_lt _ (by norm_num)
    rw [UInt8.toNat_add, a1, a2]; omega
  have e1 : ((b3 &&& 0xC0) >>> 6).toNat = bits [b0, b1, b2, b3, b4, b5, b6] 25 26 := by byte_omega
  have e2 : (b6 &&& 0xC0 ≠ 0) = (bits [b0, b1, b2, b3, b4, b5, b6] 49 50 ≠ 0) := by
    rw [Ne, ← UInt8.toNat_inj]; apply propext; byte_omega
  have e3 : (b6 &&& 0x03 ≠ 0) = (bits [b0, b1, b2, b3, b4, b5, b6] 55 56 ≠ 0) := by
    rw [Ne, ← UInt8.toNat_inj]; apply propext; byte_omega
  simp only [byteAt, List.getD_cons_zero, List.getD_cons_succ]
  simp only [e2, e3]
  simp only [Ne, ← UInt8.toNat_inj, e0, e1, UInt8.reduceToNat]
  rfl

theorem operationalError2_eq (d : List UInt8) (h7 : d.length = 7) :
    operationalError2 d =
      if bits d 9 10 ≠ 0 then some (t! "the Capability Content (field Capability Class) must be 0 (" ++ decimal (bits d 9 10) ++ t! " given)")
      else if bits d 25 26 ≠ 0 then
        some (t! "the Operational Mode Format (field Operational Mode) must be 0 (" ++ decimal (bits d 25 26) ++ t! " given)")
      else if bits d 56 56 ≠ 0 then some (t! "the bit 56 must be 0")
      else none := by
  unfold operationalError2
  obtain ⟨b0, b1, b2, b3, b4, b5, b6, rfl⟩ := list7 d h7
  have e0 : ((b1 &&& 0xC0) >>> 6).toNat = bits [b0, b1, b2, b3, b4, b5, b6] 9 10 := by byte_omega
  have e1 : ((b3 &&& 0xC0) >>> 6).toNat = bits [b0, b1, b2, b3, b4, b5, b6] 25 26 := by byte_omega
  have e2 : (b6 &&& 0x01 ≠ 0) = (bits [b0, b1, b2, b3, b4, b5, b6] 56 56 ≠ 0) := by
    rw [Ne, ← UInt8.toNat_inj]; apply propext; byte_omega
  simp only [byteAt, List.getD_cons_zero, List.getD_cons_succ]
  simp only [e2]
  simp only [Ne, ← UInt8.toNat_inj, e0, e1, UInt8.reduceToNat]
  rfl

theorem operationalError_eq (d : List UInt8) (h7 : d.length = 7) (htc : bits d 1 5 = 31) :
    operationalError d =
      if bits d 41 43 = 0 then
        (if bits d 6 8 ≠ 0 then
          some (t! "the data are given for subtype " ++ decimal (bits d 6 8) ++
            t! " format and can not be read by ReadAircraftOperationalStatusADSB0")
         else if bits d 41 56 ≠ 0 then some (t! "the bits 41 to 56 are expected to be 0") else none)
      else if bits d 41 43 = 1 then
        (if bits d 6 8 ≤ 1 then operationalError1 d
         else some (t! "the field SubType must be comprised between 0 and 1 included, got " ++ decimal (bits d 6 8)))
      else if bits d 41 43 = 2 then
        (if bits d 6 8 ≤ 1 then operationalError2 d
         else some (t! "the field SubType must be comprised between 0 and 1 included, got " ++ decimal (bits d 6 8)))
      else some (t! "the field VersionNumber must be comprised between 0 and 2 included, got " ++ decimal (bits d 6 8)) := by
  unfold operationalError
  rw [if_neg (not_not.2 h7)]
  obtain ⟨b0, b1, b2, b3, b4, b5, b6, rfl⟩ := list7 d h7
  have hl : bits [b0, b1, b2, b3, b4, b5, b6] 6 8 < 8 := by unfold bits; exact Nat.mod_lt _ (by norm_num)
  have hv : bits [b0, b1, b2, b3, b4, b5, b6] 41 43 < 8 := by unfold bits; exact Nat.mod_lt _ (by norm_num)
  have e : ¬ ((b0 &&& 0xF8) >>> 3 ≠ 31) := by
    rw [not_not, ← UInt8.toNat_inj, tc_byte b0 b1 b2 b3 b4 b5 b6, htc]; rfl
  have es : (b0 &&& 0x07 ≠ 0) = (bits [b0, b1, b2, b3, b4, b5, b6] 6 8 ≠ 0) := by
    rw [Ne, ← UInt8.toNat_inj, st_byte b0 b1 b2 b3 b4 b5 b6]; rfl
  have ev : ((b5 &&& 0xE0) >>> 5).toNat = bits [b0, b1, b2, b3, b4, b5, b6] 41 43 := by byte_omega
  have e1 : (b5 ≠ 0 ∨ b6 ≠ 0) = (bits [b0, b1, b2, b3, b4, b5, b6] 41 56 ≠ 0) := by
    simp only [Ne, ← UInt8.toNat_inj]; apply propext; byte_omega
  simp only [byteAt, List.getD_cons_zero, List.getD_cons_succ, if_neg e, ev, st_byte b0 b1 b2 b3 b4 b5 b6]
  simp only [es, e1]
  generalize bits [b0, b1, b2, b3, b4, b5, b6] 6 8 = n at hl
  generalize bits [b0, b1, b2, b3, b4, b5, b6] 41 43 = v at hv
  interval_cases v <;> interval_cases n <;> rfl

theorem adsbError_eq (d : List UInt8) (h7 : d.length = 7) :
    adsbError d =
      if bits d 1 5 = 0 ∨ AirborneTC (bits d 1 5) then
        (if AC12Illegal (bits d 9 20) then some (t! "the field Altitude is malformed") else none)
      else if bits d 1 5 ≤ 8 then none
      else if bits d 1 5 = 19 then velocityError d
      else if bits d 1 5 = 28 then statusError d
      else if bits d 1 5 = 29 then targetStateError d
      else if bits d 1 5 = 31 then operationalError d
      else some (t! "the formatTypeCode " ++ decimal (bits d 1 5) ++ t! " is not supported") := by
  have hl : bits d 1 5 < 32 := by unfold bits; exact Nat.mod_lt _ (by norm_num)
  by_cases ha : bits d 1 5 = 0
  · rw [if_pos (Or.inl ha)]
    obtain ⟨b0, b1, b2, b3, b4, b5, b6, rfl⟩ := list7 d h7
    unfold adsbError
    rw [if_neg (not_not.2 h7)]
    simp only [byteAt, List.getD_cons_zero, List.getD_cons_succ, tc_byte b0 b1 b2 b3 b4 b5 b6, ha]
    split
    · rw [airborneError_eq _ rfl (by
        have : bits [0x78, b1, b2, 0, 0, 0, 0] 1 5 = 15 := by byte_omega
        omega)]
      have : bits [0x78, b1, b2, 0, 0, 0, 0] 9 20 = bits [b0, b1, b2, b3, b4, b5, b6] 9 20 := by byte_omega
      rw [this]
    · rw [airborneError_eq _ rfl (by
        have : bits [0xB0, b1, b2, b3, b4, b5, b6] 1 5 = 22 := by byte_omega
        omega)]
      have : bits [0xB0, b1, b2, b3, b4, b5, b6] 9 20 = bits [b0, b1, b2, b3, b4, b5, b6] 9 20 := by byte_omega
      rw [this]
  by_cases hb : AirborneTC (bits d 1 5)
  · have e : adsbError d = airborneError d := by
      have ht : ((byteAt d 0 &&& 0xF8) >>> 3).toNat = bits d 1 5 := by
        obtain ⟨b0, b1, b2, b3, b4, b5, b6, rfl⟩ := list7 d h7
        exact tc_byte b0 b1 b2 b3 b4 b5 b6
      unfold adsbError
      rw [if_neg (not_not.2 h7)]
      generalize ((byteAt d 0 &&& 0xF8) >>> 3).toNat = n at ht
      rw [← ht] at hl ha hb
      clear ht
      unfold AirborneTC at hb
      interval_cases n <;> first | (exfalso; omega) | simp only
    rw [if_pos (Or.inr hb), e, airborneError_eq d h7 (by unfold AirborneTC at hb; omega)]
  rw [if_neg (by rintro (h | h); exacts [ha h, hb h])]
  have ht : ((byteAt d 0 &&& 0xF8) >>> 3).toNat = bits d 1 5 := by
    obtain ⟨b0, b1, b2, b3, b4, b5, b6, rfl⟩ := list7 d h7
    exact tc_byte b0 b1 b2 b3 b4 b5 b6
  unfold adsbError
  rw [if_neg (not_not.2 h7)]
  generalize ((byteAt d 0 &&& 0xF8) >>> 3).toNat = n at ht
  rw [← ht] at hl ha hb ⊢
  clear ht
  unfold AirborneTC at hb
  interval_cases n <;> first
    | (exfalso; omega)
    | simp only [Nat.reduceLeDiff, Nat.reduceEqDiff, if_true, if_false, dec, decimal]

theorem accepted_19 (v : Nat) (d : List UInt8) (h7 : d.length = 7) (h : bits d 1 5 = 19) :
    AdsbAccepted v d ↔ 1 ≤ bits d 6 8 ∧ bits d 6 8 ≤ 4 := by
  unfold AdsbAccepted OpAccepted AirborneTC SurfaceTC
  simp [h7, h]

theorem accepted_28 (v : Nat) (d : List UInt8) (h7 : d.length = 7) (h : bits d 1 5 = 28) :
    AdsbAccepted v d ↔ (bits d 6 8 = 0 ∧ bits d 12 16 = 0 ∨ bits d 6 8 = 1 ∧ bits d 25 56 = 0 ∨
      bits d 6 8 = 2 ∧ Succeeds (readResolutionAdvisory (d.drop 1))) := by
  unfold AdsbAccepted OpAccepted AirborneTC SurfaceTC
  simp [h7, h]

theorem accepted_29 (v : Nat) (d : List UInt8) (h7 : d.length = 7) (h : bits d 1 5 = 29) :
    AdsbAccepted v d ↔ (bits d 6 7 = 0 ∧ bits d 47 51 = 0 ∨ bits d 6 7 = 1) := by
  unfold AdsbAccepted OpAccepted AirborneTC SurfaceTC
  simp [h7, h]

theorem accepted_31 (v : Nat) (d : List UInt8) (h7 : d.length = 7) (h : bits d 1 5 = 31) :
    AdsbAccepted v d ↔ bits d 41 43 ≤ 2 ∧ (bits d 6 8 = 0 ∨ bits d 6 8 = 1 ∧ 1 ≤ bits d 41 43) ∧ OpReserved d (bits d 41 43) := by
  unfold AdsbAccepted OpAccepted AirborneTC SurfaceTC
  simp [h7, h]

theorem accepted_altitude (v : Nat) (hv : v ≤ 2) (d : List UInt8) (h7 : d.length = 7) (h : bits d 1 5 = 0 ∨ AirborneTC (bits d 1 5)) :
    AdsbAccepted v d ↔ ¬ AC12Illegal (bits d 9 20) := by
  unfold AdsbAccepted OpAccepted
  rcases h with h | h
  · simp [h7, h, AirborneTC, SurfaceTC]
  · have n0 : bits d 1 5 ≠ 0 := by unfold AirborneTC at h; omega
    have n1 : ¬ bits d 1 5 ≤ 4 := by unfold AirborneTC at h; omega
    have n2 : ¬ SurfaceTC (bits d 1 5) := by unfold AirborneTC at h; unfold SurfaceTC; omega
    have n3 : bits d 1 5 ≠ 19 := by unfold AirborneTC at h; omega
    have n4 : bits d 1 5 ≠ 28 := by unfold AirborneTC at h; omega
    have n5 : bits d 1 5 ≠ 29 := by unfold AirborneTC at h; omega
    have n6 : bits d 1 5 ≠ 31 := by unfold AirborneTC at h; omega
    simp [h7, h, hv, n0, n1, n2, n3, n4, n5, n6]

theorem accepted_low (v : Nat) (hv : v ≤ 2) (d : List UInt8) (h7 : d.length = 7) (h0 : bits d 1 5 ≠ 0) (h : bits d 1 5 ≤ 8) :
    AdsbAccepted v d := by
  refine ⟨h7, ?_⟩
  by_cases h4 : bits d 1 5 ≤ 4
  · exact Or.inr (Or.inl ⟨by omega, h4⟩)
  · exact Or.inr (Or.inr (Or.inl ⟨⟨by omega, h⟩, hv⟩))

theorem accepted_supported (v : Nat) (d : List UInt8) (h : AdsbAccepted v d) : SupportedTC (bits d 1 5) := by
  obtain ⟨-, h⟩ := h
  unfold SupportedTC
  rcases h with h | h | h | h | h | h | h | h
  · omega
  · omega
  · have := h.1; unfold SurfaceTC at this; omega
  · have := h.1; unfold AirborneTC at this; omega
  · omega
  · exact Or.inr (Or.inl h.1)
  · exact Or.inr (Or.inr (Or.inl h.1))
  · exact Or.inr (Or.inr (Or.inr h.2.1))

theorem some_none {α : Type} {x : α} {p : Prop} (h : ¬ p) : some x = none ↔ p := ⟨fun h => (nomatch h), fun hp => (h hp).elim⟩
theorem none_none {α : Type} {p : Prop} (h : p) : (none : Option α) = none ↔ p := ⟨fun _ => h, fun _ => rfl⟩

theorem operational_refused (d : List UInt8) (h7 : d.length = 7) (h31 : bits d 1 5 = 31) :
    operationalError d = none ↔
      bits d 41 43 ≤ 2 ∧ (bits d 6 8 = 0 ∨ bits d 6 8 = 1 ∧ 1 ≤ bits d 41 43) ∧ OpReserved d (bits d 41 43) := by
  rw [operationalError_eq d h7 h31, operationalError1_eq d h7, operationalError2_eq d h7]
  have e0 : bits d 41 56 = 0 → bits d 41 43 = 0 := by
    obtain ⟨b0, b1, b2, b3, b4, b5, b6, rfl⟩ := list7 d h7
    byte_omega
  have hv8 : bits d 41 43 < 8 := by unfold bits; exact Nat.mod_lt _ (by norm_num)
  generalize bits d 41 43 = n at hv8 e0 ⊢
  interval_cases n
  · simp only [if_true, OpReserved]
    split
    · exact some_none (by omega)
    split
    · exact some_none (by omega)
    · exact none_none (by omega)
  · simp only [if_true, Nat.one_ne_zero, if_false, OpReserved]
    repeat' split
    all_goals first | exact some_none (by omega) | exact none_none (by omega)
  · simp only [if_true, (by decide : ¬ (2 : Nat) = 0), (by decide : ¬ (2 : Nat) = 1), if_false, OpReserved]
    repeat' split
    all_goals first | exact some_none (by omega) | exact none_none (by omega)
  all_goals exact some_none (by omega)

theorem status_refused (d : List UInt8) (h7 : d.length = 7) (h28 : bits d 1 5 = 28) :
    statusError d = none ↔ (bits d 6 8 = 0 ∧ bits d 12 16 = 0 ∨ bits d 6 8 = 1 ∧ bits d 25 56 = 0 ∨
      bits d 6 8 = 2 ∧ Succeeds (readResolutionAdvisory (d.drop 1))) := by
  rw [statusError_eq d h7 h28, ← advisory_refused]
  by_cases s0 : bits d 6 8 = 0
  · by_cases hb : bits d 12 16 = 0 <;> simp [s0, hb]
  by_cases s1 : bits d 6 8 = 1
  · by_cases hb : bits d 25 56 = 0 <;> simp [s1, hb]
  by_cases s2 : bits d 6 8 = 2
  · simp [s2]
  · simp [s0, s1, s2]

theorem targetState_refused (d : List UInt8) (h7 : d.length = 7) (h29 : bits d 1 5 = 29) :
    targetStateError d = none ↔ (bits d 6 7 = 0 ∧ bits d 47 51 = 0 ∨ bits d 6 7 = 1) := by
  have e : bits d 47 51 = 0 ↔ bits d 47 48 = 0 ∧ bits d 49 51 = 0 := by
    obtain ⟨b0, b1, b2, b3, b4, b5, b6, rfl⟩ := list7 d h7
    byte_omega
  rw [targetStateError_eq d h7 h29, e]
  repeat' split
  all_goals first | exact some_none (by omega) | exact none_none (by omega)

/-- C100. There is an error exactly for the extended squitters that are refused (for the three levels of the program). -/
theorem adsb_refused (v : UInt8) (hv : v.toNat ≤ 2) (d : List UInt8) : adsbError d = none ↔ AdsbAccepted v.toNat d := by
  by_cases h7 : d.length = 7
  swap
  · unfold adsbError AdsbAccepted
    rw [if_pos h7]
    exact ⟨fun h => (nomatch h), fun h => (h7 h.1).elim⟩
  rw [adsbError_eq d h7]
  by_cases ha : bits d 1 5 = 0 ∨ AirborneTC (bits d 1 5)
  · rw [if_pos ha, accepted_altitude _ hv d h7 ha]
    by_cases hi : AC12Illegal (bits d 9 20)
    · rw [if_pos hi]; exact some_none (not_not.2 hi)
    · rw [if_neg hi]; exact none_none hi
  rw [if_neg ha]
  by_cases h8 : bits d 1 5 ≤ 8
  · rw [if_pos h8]; exact none_none (accepted_low _ hv d h7 (fun h => ha (Or.inl h)) h8)
  rw [if_neg h8]
  by_cases h19 : bits d 1 5 = 19
  · rw [if_pos h19, velocityError_eq d h7 h19, accepted_19 _ d h7 h19]
    split
    · exact none_none (by assumption)
    · exact some_none (by assumption)
  rw [if_neg h19]
  by_cases h28 : bits d 1 5 = 28
  · rw [if_pos h28, status_refused d h7 h28, accepted_28 _ d h7 h28]
  rw [if_neg h28]
  by_cases h29 : bits d 1 5 = 29
  · rw [if_pos h29, targetState_refused d h7 h29, accepted_29 _ d h7 h29]
  rw [if_neg h29]
  by_cases h31 : bits d 1 5 = 31
  · rw [if_pos h31, operational_refused d h7 h31, accepted_31 _ d h7 h31]
  rw [if_neg h31]
  refine some_none fun h => ?_
  have := accepted_supported _ d h
  unfold SupportedTC at this
  unfold AirborneTC at ha
  omega

/-- C100. The text of the error of an extended squitter is a true reason, except for an operational status of an unknown version
(`adsb_reason_refuted`) and a resolution advisory whose threat is given by an altitude that begins with another bit than 0. -/
theorem adsb_reason_partial (d : List UInt8) (h7 : d.length = 7) (hv : bits d 1 5 = 31 → bits d 41 43 ≤ 2)
    (hra : bits d 1 5 = 28 → bits d 6 8 = 2 → bits d 29 30 = 2 → bits d 31 32 = 0) (t : List Char) (h : adsbError d = some t) :
    SquitterReason d t := by
  rw [adsbError_eq d h7] at h
  split at h
  · rename_i htc
    split at h
    · rename_i ha
      injection h with h; subst h
      exact .altitude htc ha
    · cases h
  rename_i htc
  split at h
  · cases h
  rename_i h8
  split at h
  · rename_i h19
    rw [velocityError_eq d h7 h19] at h
    split at h
    · cases h
    · rename_i hs
      injection h with h; subst h
      exact .velocity h19 (by omega)
  rename_i h19
  split at h
  · rename_i h28
    rw [statusError_eq d h7 h28] at h
    split at h
    · rename_i s0
      split at h
      · rename_i hb
        injection h with h; subst h
        exact .noInformation h28 s0 hb
      · cases h
    rename_i s0
    split at h
    · rename_i s1
      split at h
      · rename_i hb
        injection h with h; subst h
        exact .emergency h28 s1 hb
      · cases h
    rename_i s1
    split at h
    · rename_i s2
      have hra := hra h28 s2
      have e1 : bits (d.drop 1) 21 22 = bits d 29 30 := by
        obtain ⟨b0, b1, b2, b3, b4, b5, b6, rfl⟩ := list7 d h7
        simp only [List.drop_succ_cons, List.drop_zero]; byte_omega
      have e2 : bits (d.drop 1) 23 24 = bits d 31 32 := by
        obtain ⟨b0, b1, b2, b3, b4, b5, b6, rfl⟩ := list7 d h7
        simp only [List.drop_succ_cons, List.drop_zero]; byte_omega
      have e3 : bits (d.drop 1) 23 35 = bits d 31 43 := by
        obtain ⟨b0, b1, b2, b3, b4, b5, b6, rfl⟩ := list7 d h7
        simp only [List.drop_succ_cons, List.drop_zero]; byte_omega
      rw [advisory_reason_partial _ (by rw [e1, e2]; exact hra), e1, e3, if_neg (by rw [List.length_drop, h7]; decide)] at h
      split at h
      · rename_i ha
        injection h with h; subst h
        exact .advisory h28 s2 ha.1 ha.2
      · cases h
    · injection h with h; subst h
      exact .status h28 (by omega)
  rename_i h28
  split at h
  · rename_i h29
    rw [targetStateError_eq d h7 h29] at h
    split at h
    · rename_i s0
      split at h
      · rename_i hb
        injection h with h; subst h
        exact .targetState47 h29 s0 hb
      · split at h
        · rename_i hb
          injection h with h; subst h
          exact .targetState49 h29 s0 hb
        · cases h
    · split at h
      · cases h
      · injection h with h; subst h
        exact .targetState h29 (by omega)
  rename_i h29
  split at h
  · rename_i h31
    have hv := hv h31
    refine .operational h31 ?_
    rw [operationalError_eq d h7 h31, operationalError1_eq d h7, operationalError2_eq d h7] at h
    split at h
    · rename_i v0
      split at h
      · rename_i hs
        injection h with h; subst h
        exact .subtype0 v0 hs
      · split at h
        · rename_i hb
          injection h with h; subst h
          exact .reserved0 v0 hb
        · cases h
    rename_i v0
    split at h
    · rename_i v1
      split at h
      · split at h
        · rename_i hb; injection h with h; subst h; exact .serviceLevel v1 hb
        split at h
        · rename_i hb; injection h with h; subst h; exact .modeFormat (Or.inl v1) hb
        split at h
        · rename_i hb; injection h with h; subst h; exact .bits49 v1 hb
        split at h
        · rename_i hb; injection h with h; subst h; exact .bits55 v1 hb
        · cases h
      · rename_i hs
        injection h with h; subst h; exact .subtype (Or.inl v1) (by omega)
    rename_i v1
    split at h
    · rename_i v2
      split at h
      · split at h
        · rename_i hb; injection h with h; subst h; exact .capability v2 hb
        split at h
        · rename_i hb; injection h with h; subst h; exact .modeFormat (Or.inr v2) hb
        split at h
        · rename_i hb; injection h with h; subst h; exact .bit56 v2 hb
        · cases h
      · rename_i hs
        injection h with h; subst h; exact .subtype (Or.inr v2) (by omega)
    · omega
  rename_i h31
  injection h with h; subst h
  refine .typeCode ?_
  unfold SupportedTC
  unfold AirborneTC at htc
  omega

/-- C100 refuted for the operational status of an unknown version: the number given as the version is the subtype. -/
theorem adsb_reason_refuted (d : List UInt8) (h7 : d.length = 7) (htc : bits d 1 5 = 31) (hv : 3 ≤ bits d 41 43)
    (hs : bits d 6 8 ≠ bits d 41 43) :
    adsbError d = some (t! "the field VersionNumber must be comprised between 0 and 2 included, got " ++ decimal (bits d 6 8)) ∧
      ∀ t, adsbError d = some t → ¬ SquitterReason d t := by
  have e : adsbError d =
      some (t! "the field VersionNumber must be comprised between 0 and 2 included, got " ++ decimal (bits d 6 8)) := by
    rw [adsbError_eq d h7, if_neg, if_neg (by omega), if_neg (by omega), if_neg (by omega), if_neg (by omega), if_pos htc,
      operationalError_eq d h7 htc, if_neg (by omega), if_neg (by omega), if_neg (by omega)]
    unfold AirborneTC; omega
  refine ⟨e, fun t h hr => ?_⟩
  rw [e] at h
  injection h with h
  subst h
  generalize hu : t! "the field VersionNumber must be comprised between 0 and 2 included, got " ++ decimal (bits d 6 8) = u at hr
  cases hr with
  | operational _ ht =>
    cases ht with
    | version _ => exact hs (dec_inj (List.append_cancel_left hu))
    | _ => omega
  | typeCode h => exact h (by unfold SupportedTC; omega)
  | altitude h => unfold AirborneTC at h; omega
  | _ => omega

/-! ### What the program prints -/

theorem readMessage_format (f : List UInt8) (m : ModeSMessage) (h : readMessage f = .ok m) (h24 : bits f 1 5 < 24) :
    m.getDownLinkFormat = bits f 1 5 := by
  cases m with
  | df0 m => rw [(df0_fields f m h).2.1]; rfl
  | df4 m => rw [(df4_fields f m h).2.1]; rfl
  | df5 m => rw [(df5_fields f m h).2.1]; rfl
  | df11 m => rw [(df11_fields f m h).2.1]; rfl
  | df16 m => rw [(df16_fields f m h).2.1]; rfl
  | df17 m => rw [(df17_fields f m h).2.1]; rfl
  | df18 m => rw [(df18_fields f m h).2.1]; rfl
  | df19 m => rw [(df19_fields f m h).2.1]; rfl
  | df20 m => rw [(df20_fields f m h).2.1]; rfl
  | df21 m => rw [(df21_fields f m h).2.1]; rfl
  | df24 m => have := (df24_fields f m h).2.1; omega

theorem goErrors_parity (f : List UInt8) (h : FrameAccepted f) (hf : bits f 1 5 = 17 ∨ bits f 1 5 = 18) :
    goErrors.parity f = t! "the message does not have a valid CRC" := by
  obtain ⟨m, hm⟩ := (readMessage_accepts_iff f).2 h
  have e := readMessage_format f m hm (by omega)
  simp only [goErrors, hm, parityErrorText]
  rcases hf with hf | hf
  · have : m.getDownLinkFormat = 17 := by rw [e, hf]
    rw [this]; rfl
  · have : m.getDownLinkFormat = 18 := by rw [e, hf]
    rw [this]; rfl

theorem goErrors_adsb (f : List UInt8) (m : ModeSMessage) (hm : readMessage f = .ok m) (hf : bits f 1 5 = 17 ∨ bits f 1 5 = 18) :
    goErrors.adsb f = (adsbError (field56 f)).getD [] := by
  cases m with
  | df17 m => simp only [goErrors, hm, (df17_fields f m hm).2.2.2.2.1]; rfl
  | df18 m => simp only [goErrors, hm, (df18_fields f m hm).2.2.2.2.1]; rfl
  | df0 m => have := (df0_fields f m hm).2.1; omega
  | df4 m => have := (df4_fields f m hm).2.1; omega
  | df5 m => have := (df5_fields f m hm).2.1; omega
  | df11 m => have := (df11_fields f m hm).2.1; omega
  | df16 m => have := (df16_fields f m hm).2.1; omega
  | df19 m => have := (df19_fields f m hm).2.1; omega
  | df20 m => have := (df20_fields f m hm).2.1; omega
  | df21 m => have := (df21_fields f m hm).2.1; omega
  | df24 m => have := (df24_fields f m hm).2.1; omega

theorem goErrors_acas (f : List UInt8) (m : ModeSMessage) (hm : readMessage f = .ok m) (hf : bits f 1 5 = 16) :
    goErrors.acas f = (advisoryError ((field56 f).drop 1)).getD [] := by
  cases m with
  | df16 m => simp only [goErrors, hm, (df16_fields f m hm).2.2.2.2.2.1]; rfl
  | df0 m => have := (df0_fields f m hm).2.1; omega
  | df4 m => have := (df4_fields f m hm).2.1; omega
  | df5 m => have := (df5_fields f m hm).2.1; omega
  | df11 m => have := (df11_fields f m hm).2.1; omega
  | df17 m => have := (df17_fields f m hm).2.1; omega
  | df18 m => have := (df18_fields f m hm).2.1; omega
  | df19 m => have := (df19_fields f m hm).2.1; omega
  | df20 m => have := (df20_fields f m hm).2.1; omega
  | df21 m => have := (df21_fields f m hm).2.1; omega
  | df24 m => have := (df24_fields f m hm).2.1; omega

/-- C100. The program says why a line is not hexadecimal. -/
theorem hexadecimal_refusal_printed (F : FloatTexts) (s : List UInt8) (level : UInt8) (h : ¬ ∃ f, Spells s f) :
    ∃ t, HexReason s t ∧ printSingleLine F goErrors s level = .ok (t! "Reading: " ++ asciiText s ++ t! "\n" ++
      t! "unable to convert the given text to hexadecimal values due to: " ++ t) := by
  obtain ⟨t, ht⟩ := (hexadecimal_reason s).2.2 h
  refine ⟨t, ((hexadecimal_reason s).1 t).1 ht, ?_⟩
  unfold printSingleLine
  rw [(line_notHexadecimal s level).2 h]
  simp only [go_bind_ok, Report.text, goErrors, ht, Option.getD_some, go_pure, List.append_assoc, List.cons_append, List.nil_append]

/-- C100. The program says why a frame is refused. -/
theorem frame_refusal_printed (F : FloatTexts) (s f : List UInt8) (level : UInt8) (hs : Spells s f) (h : ¬ Succeeds (readMessage f)) :
    ∃ t, FrameReason f t ∧ printSingleLine F goErrors s level = .ok (t! "Reading: " ++ asciiText s ++ t! "\n" ++ t ++ t! "\n") := by
  obtain ⟨t, ht⟩ := (frame_reason f).2.2 h
  refine ⟨t, (frame_reason f).1 t ht, ?_⟩
  obtain ⟨r, hr, hrep⟩ := line_report s f level hs
  have hn : ¬ FrameAccepted f := fun ha => h ((readMessage_accepts_iff f).2 ha)
  rcases hrep with ⟨-, rfl⟩ | ⟨ha, -⟩ | ⟨ha, -⟩
  · rw [printSingleLine_of (E := goErrors) hs hr rfl]
    simp only [goErrors, ht, Option.getD_some, List.append_assoc, List.cons_append, List.nil_append]
  · exact (hn ha).elim
  · exact (hn ha).elim

/-- C100. The program says that the parity of an extended squitter is wrong. -/
theorem parity_refusal_printed (F : FloatTexts) (s f : List UInt8) (level : UInt8) (hs : Spells s f) (ha : Succeeds (readMessage f))
    (hf : bits f 1 5 = 17 ∨ bits f 1 5 = 18) (hc : ¬ generator ∣ messagePoly f) :
    printSingleLine F goErrors s level =
      .ok (t! "Reading: " ++ asciiText s ++ t! "\n" ++ t! "the message does not have a valid CRC\n") := by
  have ha' : FrameAccepted f := (readMessage_accepts_iff f).1 ha
  obtain ⟨r, hr, hrep⟩ := line_report s f level hs
  rcases hrep with ⟨hn, -⟩ | ⟨-, -, -, rfl⟩ | ⟨-, a, m, d, -, -, h⟩
  · exact (hn ha').elim
  · rw [printSingleLine_of (E := goErrors) hs hr rfl, goErrors_parity f ha' hf]
    simp only [List.append_assoc, List.cons_append, List.nil_append]
  · rcases h with ⟨-, h, -⟩ | ⟨h, -⟩ | ⟨-, h17, h18, -⟩
    · exact (hc h).elim
    · omega
    · omega

/-- C100. The program says why the content of an extended squitter is refused: under the report of the frame, a heading and the
text of the error, which is a true reason but for the cases of `adsb_reason_partial`. -/
theorem adsb_refusal_printed_partial (F : FloatTexts) (s f : List UInt8) (level : UInt8) (hl : level.toNat ≤ 2) (hs : Spells s f)
    (ha : Succeeds (readMessage f)) (hf : bits f 1 5 = 17 ∨ (bits f 1 5 = 18 ∧ bits f 6 8 ≤ 1)) (hc : generator ∣ messagePoly f)
    (hn : ¬ AdsbAccepted level.toNat (field56 f)) :
    ∃ body t, adsbError (field56 f) = some t ∧
      printSingleLine F goErrors s level = .ok (t! "Reading: " ++ asciiText s ++ t! "\n" ++ t! " -- Mode-S Information --\n" ++
        t! "From: " ++ addressText (bits f 9 32) ++ t! " \n" ++ body ++ t! "\n" ++ t! " -- ADSB Information --\n" ++ t ++ t! "\n\n") ∧
      ((bits (field56 f) 1 5 = 31 → bits (field56 f) 41 43 ≤ 2) →
        (bits (field56 f) 1 5 = 28 → bits (field56 f) 6 8 = 2 → bits (field56 f) 29 30 = 2 → bits (field56 f) 31 32 = 0) →
        SquitterReason (field56 f) t) := by
  have ha' : FrameAccepted f := (readMessage_accepts_iff f).1 ha
  obtain ⟨t, ht⟩ : ∃ t, adsbError (field56 f) = some t := by
    cases e : adsbError (field56 f) with
    | none => exact (hn ((adsb_refused level hl _).1 e)).elim
    | some t => exact ⟨t, rfl⟩
  have h14 : f.length = 14 := by
    rcases ha'.1 with h | h
    · have := h.2
      simp only [shortFormats, List.mem_cons, List.not_mem_nil, or_false] at this
      omega
    · exact h.1
  obtain ⟨r, hr, hrep⟩ := line_report s f level hs
  rcases hrep with ⟨hna, -⟩ | ⟨-, -, hnc, -⟩ | ⟨-, a, m, d, hm, hd, h⟩
  · exact (hna ha').elim
  · exact (hnc hc).elim
  have hd' : d = .adsbUnreadable := by
    unfold DetailsOf at hd
    rw [if_neg (by omega)] at hd
    have hsq : SquitterDetails level (field56 f) d := by
      rcases hf with h | h
      · rwa [if_pos h] at hd
      · rwa [if_neg (by omega), if_pos h.1, if_pos h.2] at hd
    rcases hsq with ⟨_, -, hac, -⟩ | ⟨h, -⟩
    · exact (hn hac).elim
    · exact h
  rcases h with ⟨-, -, haddr, rfl⟩ | ⟨h, -⟩ | ⟨-, h17, h18, -⟩
  · obtain ⟨l, -, hmt⟩ := text_ok m (readMessage_shaped f m hm)
    refine ⟨linesText l, t, ht, ?_, fun hv hra => adsb_reason_partial _ (me_length f h14) hv hra t ht⟩
    subst hd'
    rw [printSingleLine_of hs hr (sentBy_text hmt)]
    simp only [Details.text, icaoAddressText_eq, haddr, goErrors_adsb f m hm (by omega), ht, Option.getD_some, List.append_assoc,
      List.cons_append, List.nil_append]
  · omega
  · omega

/-- C100. The program says why the advisory of a long air-air surveillance frame is refused. -/
theorem acas_refusal_printed_partial (F : FloatTexts) (s f : List UInt8) (level : UInt8) (hs : Spells s f)
    (ha : Succeeds (readMessage f)) (hf : bits f 1 5 = 16) (h30 : bits f 33 40 = 0x30)
    (hn : ¬ Succeeds (readResolutionAdvisory ((field56 f).drop 1))) :
    ∃ address body, Overlaid f address ∧
      printSingleLine F goErrors s level = .ok (t! "Reading: " ++ asciiText s ++ t! "\n" ++ t! " -- Mode-S Information --\n" ++
        t! "From: " ++ addressText address ++ t! " \n" ++ body ++ t! "\n" ++ t! " -- ACAS Information --\n" ++
        t! "the Altitude field is malformed\n\n") ∧
      bits f 61 62 = 2 ∧ (bits f 63 64 = 0 → TIDIllegal (bits f 63 75)) := by
  have ha' : FrameAccepted f := (readMessage_accepts_iff f).1 ha
  have h14 : f.length = 14 := by
    rcases ha'.1 with h | h
    · have := h.2
      simp only [shortFormats, List.mem_cons, List.not_mem_nil, or_false] at this
      omega
    · exact h.1
  have h6 : ((field56 f).drop 1).length = 6 := by unfold field56; rw [List.length_drop, me_length f h14]
  have e1 : bits ((field56 f).drop 1) 21 22 = bits f 61 62 ∧ bits ((field56 f).drop 1) 23 24 = bits f 63 64 ∧
      bits ((field56 f).drop 1) 23 35 = bits f 63 75 := by
    obtain ⟨b0, b1, b2, b3, b4, b5, b6, b7, b8, b9, b10, b11, b12, b13, rfl⟩ := list14 f h14
    simp only [field56, List.drop_succ_cons, List.drop_zero, List.take_succ_cons, List.take_zero]
    refine ⟨?_, ?_, ?_⟩ <;> byte_omega
  have h2 : bits ((field56 f).drop 1) 21 22 = 2 := Classical.not_not.1 fun h => hn ((ra_accepts _).2 h6 h)
  have herr : readResolutionAdvisory ((field56 f).drop 1) = .error .err := by
    cases e : readResolutionAdvisory ((field56 f).drop 1) with
    | ok r => exact (hn ⟨r, e⟩).elim
    | error x =>
      cases x with
      | err => rfl
      | panic => exact (ra_noPanic _ e).elim
  have ht : advisoryError ((field56 f).drop 1) = some (t! "the Altitude field is malformed") := by
    unfold advisoryError
    rw [if_neg (not_not.2 h6), herr]
  obtain ⟨r, hr, hrep⟩ := line_report s f level hs
  rcases hrep with ⟨hna, -⟩ | ⟨-, h, -⟩ | ⟨-, a, m, d, hm, hd, h⟩
  · exact (hna ha').elim
  · omega
  have hd' : d = .acasUnreadable := by
    unfold DetailsOf at hd
    rw [if_pos hf, if_pos h30] at hd
    rcases hd with ⟨ra, -, h⟩ | ⟨h, -⟩
    · exact (hn ⟨ra, h⟩).elim
    · exact h
  rcases h with ⟨h, -⟩ | ⟨h, -⟩ | ⟨-, -, -, hov, rfl⟩
  · omega
  · omega
  obtain ⟨l, -, hmt⟩ := text_ok m (readMessage_shaped f m hm)
  refine ⟨a.toNat, linesText l, hov, ?_, by rw [← e1.1]; exact h2, fun h0 => ?_⟩
  · subst hd'
    rw [printSingleLine_of hs hr (sentBy_text hmt)]
    simp only [Details.text, icaoAddressText_eq, goErrors_acas f m hm hf, ht, Option.getD_some, List.append_assoc,
      List.cons_append, List.nil_append]
  · rw [← e1.2.2]
    rcases (ra_fails_iff_partial _ (fun _ => by rw [e1.2.1]; exact h0)).1 herr with h | h
    · exact (h h6).elim
    · exact h.2

set_option maxRecDepth 4000 in
/-- C100, from the transmitter to the printed report: for an extended squitter sent with content the standard does not allow, the program
prints the address, the bytes and then the text of the error. -/
theorem squitter_refusal_output (F : FloatTexts) (s f me : List UInt8) (capability address : Nat)
    (hca : capability < 8) (haa : address < 2 ^ 24) (hme : me.length = 7) (hsq : IsSquitter capability address me f) (hs : Spells s f)
    (level : UInt8) (hl : level.toNat ≤ 2) (hn : ¬ AdsbAccepted level.toNat me) :
    ∃ t, adsbError me = some t ∧ printSingleLine F goErrors s level =
      .ok (textOfLines (squitterHeader s (UInt8.ofNat capability) address me ++ [t, [], []])) := by
  obtain ⟨t, ht⟩ : ∃ t, adsbError me = some t := by
    cases e : adsbError me with
    | none => exact (hn ((adsb_refused level hl _).1 e)).elim
    | some t => exact ⟨t, rfl⟩
  refine ⟨t, ht, ?_⟩
  obtain ⟨m, r1, r2, r3, r4, r5⟩ := squitter_received capability address me f hca haa hme hsq
  obtain ⟨a, r6, r7⟩ := r5 [] []
  have hp : processSingleLine s level = .ok (.sentBy a (.df17 m) .adsbUnreadable) := by
    unfold processSingleLine
    rw [(hexDecode_iff s f).2 hs]
    have hc : readMessageCall f = .returns (.val (.df17 m)) false := by unfold readMessageCall; rw [r1]; rfl
    simp only [hc, Iface.print, go_bind_ok]
    unfold processMessage
    rw [r6]
    have h11 : ¬ (ModeSMessage.getDownLinkFormat (.df17 m) = 11) := by simp only [ModeSMessage.getDownLinkFormat]; decide
    simp only [if_neg h11]
    have : ModeSMessage.print (.df17 m) = .ok () := print_ok f _ r1
    rw [this]
    simp only [go_bind_ok, postProcess, ModeSMessage.getDownLinkFormat, processADSBMessage, r2]
    rcases (adsb_accepts level false false me).2 hn with h | h <;> rw [h] <;> rfl
  have hcap : m.capability = UInt8.ofNat capability := by
    apply UInt8.toNat_inj.1
    rw [r3, UInt8.toNat_ofNat_of_lt' (by show capability < 256; omega)]
  have htext : ModeSMessage.text (.df17 m) = .ok (linesText [
      (t! "Downlink format:         ", ModeSMessage.heading (.df17 m)),
      (t! "Capability:              ", Text.modesCapability m.capability),
      (t! "AddressAnnounced:        ", addressAnnouncedText m.addressAnnounced),
      (t! "MessageExtendedSquitter: ", hexText me)]) := by
    simp only [ModeSMessage.text, ModeSMessage.lines, r2, hexIndexed_ok hme, go_bind_ok, go_pure]
  have hE : goErrors.adsb f = t := by simp only [goErrors, r1, r2, ht, Option.getD_some]
  have hh : ModeSMessage.heading (.df17 m) = t! "17 - Extended squitter" := by
    simp only [ModeSMessage.heading, ModeSMessage.getDownLinkFormat, ModeSMessage.getName]; decide +kernel
  rw [printSingleLine_of hs hp (sentBy_text htext)]
  simp only [squitterHeader, textOfLines, Details.text, hE, linesText, hh, icaoAddressText_eq, addressAnnouncedText_eq, r4, r7, hcap,
    List.append_assoc, List.cons_append, List.nil_append]

end Modes
