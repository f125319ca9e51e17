import Verif.Model.Ident
import Verif.Lemmas.Register
/-!
# C36, C37: aircraft identification and category (BDS 0,8 and BDS 2,0)

Bits: 1-5 type code and 6-8 category (BDS 0,8), or 1-8 the register number 2,0; then eight six-bit characters in bits 9-56.
-/
set_option linter.unusedSimpArgs false
open Spec
namespace Spec

/-- The characters a callsign may contain: letters, digits and space (ASCII). -/
def IdentChar (c : UInt8) : Prop := (65 ≤ c.toNat ∧ c.toNat ≤ 90) ∨ (48 ≤ c.toNat ∧ c.toNat ≤ 57) ∨ c.toNat = 32

instance (c : UInt8) : Decidable (IdentChar c) := by unfold IdentChar; infer_instance

/-- The six-bit code of such a character (the low six bits of its IA-5 code). -/
def identCode (c : UInt8) : Nat := c.toNat % 64

/-- The character a six-bit code stands for, if any. -/
def identOf (n : Nat) : Option UInt8 :=
  if 1 ≤ n ∧ n ≤ 26 then some (UInt8.ofNat (64 + n))
  else if n = 32 ∨ (48 ≤ n ∧ n ≤ 57) then some (UInt8.ofNat n)
  else none

/-- The 48-bit number made of the six-bit codes of a callsign, first character most significant. -/
def encodeIdent (cs : List UInt8) : Nat := cs.foldl (fun acc c => acc * 64 + identCode c) 0

/-- The code of the `i`-th character (from 0) of a message. -/
def identField (d : List UInt8) (i : Nat) : Nat := bits d (9 + 6 * i) (14 + 6 * i)

end Spec
namespace Modes

/-- Specification tables agree: coding then decoding a character. -/
theorem identOf_code (c : UInt8) (h : IdentChar c) : identOf (identCode c) = some c := by
  exact forall_uint8 (P := fun c => IdentChar c → identOf (identCode c) = some c) (by decide +kernel) c h

theorem identOf_char (n : Nat) (c : UInt8) (hn : n < 64) (h : identOf n = some c) : IdentChar c ∧ identCode c = n := by
  have : ∀ n < 64, ∀ c, identOf n = some c → IdentChar c ∧ identCode c = n := by
    have e : ∀ n < 64, (identOf n).all (fun c => decide (IdentChar c ∧ identCode c = n)) = true := by decide +kernel
    intro n hn c hc
    have := e n hn
    rw [hc] at this
    simpa using this
  exact this n hn c h

/-- The character of a code, `#` (0x23) when it stands for none. -/
theorem table_lookup (c : UInt8) (h : c.toNat < 64) :
    idx identificationCharacterCoding c.toNat = .ok ((identOf c.toNat).getD 0x23) := by
  have : ∀ n < 64, idx identificationCharacterCoding n = .ok ((identOf n).getD 0x23) := by decide +kernel
  exact this _ h

theorem chars_eval (d : List UInt8) (h7 : d.length = 7) :
    (readCodes d >>= codesToChars) = .ok ((List.range 8).map (fun i => (identOf (identField d i)).getD 0x23)) := by
  obtain ⟨b0, b1, b2, b3, b4, b5, b6, rfl⟩ := list7 d h7
  unfold readCodes
  go_run []
  have e0 : ((b1 &&& 252) >>> 2).toNat = identField [b0, b1, b2, b3, b4, b5, b6] 0 := by unfold identField; byte_omega
  have e1 : ((b1 &&& 3) <<< 4 + (b2 &&& 240) >>> 4).toNat = identField [b0, b1, b2, b3, b4, b5, b6] 1 := by
    unfold identField; byte_omega
  have e2 : ((b2 &&& 15) <<< 2 + (b3 &&& 192) >>> 6).toNat = identField [b0, b1, b2, b3, b4, b5, b6] 2 := by
    unfold identField; byte_omega
  have e3 : (b3 &&& 63).toNat = identField [b0, b1, b2, b3, b4, b5, b6] 3 := by unfold identField; byte_omega
  have e4 : ((b4 &&& 252) >>> 2).toNat = identField [b0, b1, b2, b3, b4, b5, b6] 4 := by unfold identField; byte_omega
  have e5 : ((b4 &&& 3) <<< 4 + (b5 &&& 240) >>> 4).toNat = identField [b0, b1, b2, b3, b4, b5, b6] 5 := by
    unfold identField; byte_omega
  have e6 : ((b5 &&& 15) <<< 2 + (b6 &&& 192) >>> 6).toNat = identField [b0, b1, b2, b3, b4, b5, b6] 6 := by
    unfold identField; byte_omega
  have e7 : (b6 &&& 63).toNat = identField [b0, b1, b2, b3, b4, b5, b6] 7 := by unfold identField; byte_omega
  have lt (i : Nat) : identField [b0, b1, b2, b3, b4, b5, b6] i < 64 := by
    unfold identField bits
    rw [show 14 + 6 * i + 1 - (9 + 6 * i) = 6 by omega]
    exact Nat.mod_lt _ (by decide)
  simp only [codesToChars]
  rw [table_lookup _ (e0 ▸ lt 0), table_lookup _ (e1 ▸ lt 1), table_lookup _ (e2 ▸ lt 2), table_lookup _ (e3 ▸ lt 3),
    table_lookup _ (e4 ▸ lt 4), table_lookup _ (e5 ▸ lt 5), table_lookup _ (e6 ▸ lt 6), table_lookup _ (e7 ▸ lt 7)]
  go_run [e0, e1, e2, e3, e4, e5, e6, e7]
  rfl

/-- The category sets of the type codes. -/
def specCategory (ftc c : Nat) : AircraftCategory :=
  match ftc with
  | 1 => .setD (UInt8.ofNat c)
  | 2 => .setC (UInt8.ofNat c)
  | 3 => .setB (UInt8.ofNat c)
  | _ => .setA (UInt8.ofNat c)

theorem bind_assoc3 {α β : Type} (r : Go α) (f : α → Go β) {γ : Type} (g : β → Go γ) :
    (r >>= fun a => f a >>= g) = ((r >>= f) >>= g) := by cases r <;> rfl

/-- The whole BDS 0,8 reader. -/
theorem bds08_eval (d : List UInt8) :
    readBDS08 d =
      if d.length = 7 ∧ 1 ≤ bits d 1 5 ∧ bits d 1 5 ≤ 4 then
        .ok { formatTypeCode := UInt8.ofNat (bits d 1 5), category := specCategory (bits d 1 5) (bits d 6 8),
              identification := (List.range 8).map (fun i => (identOf (identField d i)).getD 0x23) }
      else .error .err := by
  by_cases h7 : d.length = 7
  rotate_left
  · rw [if_neg (fun h => h7 h.1)]
    unfold readBDS08
    simp [h7, fail, bind, Except.bind]
  have hc := chars_eval d h7
  unfold readBDS08
  simp only [bind_assoc3 (readCodes d) codesToChars, hc]
  obtain ⟨b0, b1, b2, b3, b4, b5, b6, rfl⟩ := list7 d h7
  unfold readFormatTypeCode
  go_run []
  have hf : ((b0 &&& 248) >>> 3 < 1 ∨ (b0 &&& 248) >>> 3 > 4) =
      ¬ (1 ≤ bits [b0, b1, b2, b3, b4, b5, b6] 1 5 ∧ bits [b0, b1, b2, b3, b4, b5, b6] 1 5 ≤ 4) := by byte_iff
  have e1 : (b0 &&& 248) >>> 3 = UInt8.ofNat (bits [b0, b1, b2, b3, b4, b5, b6] 1 5) := by
    rw [u8_eq, UInt8.toNat_ofNat']; byte_omega
  have e2 : b0 &&& 7 = UInt8.ofNat (bits [b0, b1, b2, b3, b4, b5, b6] 6 8) := by
    rw [u8_eq, UInt8.toNat_ofNat']; byte_omega
  simp only [hf, true_and]
  by_cases hr : 1 ≤ bits [b0, b1, b2, b3, b4, b5, b6] 1 5 ∧ bits [b0, b1, b2, b3, b4, b5, b6] 1 5 ≤ 4
  rotate_left
  · rw [if_pos hr, if_neg hr]
  rw [if_neg (fun h => h hr), if_pos hr, e1, e2]
  generalize bits [b0, b1, b2, b3, b4, b5, b6] 1 5 = n at hr
  obtain ⟨h1, h4⟩ := hr
  have : n = 1 ∨ n = 2 ∨ n = 3 ∨ n = 4 := by omega
  rcases this with rfl | rfl | rfl | rfl <;> rfl

/-- The whole BDS 2,0 reader. -/
theorem bds20_eval (d : List UInt8) :
    readBDS20 d =
      if d.length = 7 ∧ bits d 1 8 = 0x20 then
        .ok { identification := (List.range 8).map (fun i => (identOf (identField d i)).getD 0x23) }
      else .error .err := by
  by_cases h7 : d.length = 7
  rotate_left
  · rw [if_neg (fun h => h7 h.1)]
    unfold readBDS20
    simp [h7, fail, bind, Except.bind]
  have hc := chars_eval d h7
  unfold readBDS20
  simp only [bind_assoc3 (readCodes d) codesToChars, hc]
  obtain ⟨b0, b1, b2, b3, b4, b5, b6, rfl⟩ := list7 d h7
  go_run []
  have hf : (¬ b0 = 32) = ¬ (bits [b0, b1, b2, b3, b4, b5, b6] 1 8 = 32) := by byte_iff
  simp only [hf, true_and]
  by_cases hr : bits [b0, b1, b2, b3, b4, b5, b6] 1 8 = 32
  · rw [if_neg (fun h => h hr), if_pos hr]
  · rw [if_pos hr, if_neg hr]

/-- C37: type codes 1, 2, 3, 4 select the sets D, C, B, A; the category in the set is the number in bits 6-8. -/
theorem emitter_category (d : List UInt8) (m : IdentificationAndCategory) (h : readBDS08 d = .ok m) :
    m.formatTypeCode.toNat = bits d 1 5 ∧
    ((bits d 1 5 = 1 ∧ m.category = .setD (UInt8.ofNat (bits d 6 8))) ∨
     (bits d 1 5 = 2 ∧ m.category = .setC (UInt8.ofNat (bits d 6 8))) ∨
     (bits d 1 5 = 3 ∧ m.category = .setB (UInt8.ofNat (bits d 6 8))) ∨
     (bits d 1 5 = 4 ∧ m.category = .setA (UInt8.ofNat (bits d 6 8)))) ∧ bits d 6 8 < 8 := by
  rw [bds08_eval] at h
  split at h
  · rename_i hc
    injection h with h
    subst h
    obtain ⟨_, h1, h4⟩ := hc
    refine ⟨?_, ?_, ?_⟩
    · simp only [UInt8.toNat_ofNat']; omega
    · simp only
      generalize bits d 1 5 = n at h1 h4
      have : n = 1 ∨ n = 2 ∨ n = 3 ∨ n = 4 := by omega
      rcases this with rfl | rfl | rfl | rfl <;> simp [specCategory]
    · unfold bits; exact Nat.mod_lt _ (by decide)
  · cases h

/-- C37: exactly the 7-byte messages of type codes 1-4 are read; anything else is an error, never a panic. -/
theorem identification_accepts (d : List UInt8) :
    (Succeeds (readBDS08 d) ↔ d.length = 7 ∧ 1 ≤ bits d 1 5 ∧ bits d 1 5 ≤ 4) ∧
    (¬ Succeeds (readBDS08 d) → readBDS08 d = .error .err) ∧
    (Succeeds (readBDS20 d) ↔ d.length = 7 ∧ bits d 1 8 = 0x20) ∧
    (¬ Succeeds (readBDS20 d) → readBDS20 d = .error .err) := by
  rw [bds08_eval, bds20_eval]
  refine ⟨?_, ?_, ?_, ?_⟩
  all_goals
    split
    · rename_i hc
      simp [Succeeds, hc]
    · rename_i hc
      simp [Succeeds, hc]

/-- The characters of a message are characters of callsigns exactly where the code stands for one. -/
theorem chars_hash (d : List UInt8) :
    ((List.range 8).map (fun i => (identOf (identField d i)).getD 0x23)).contains 0x23 = false ↔
    ∀ i < 8, ∃ c, identOf (identField d i) = some c ∧ IdentChar c := by
  rw [Bool.eq_false_iff, ne_eq, List.contains_iff_mem, List.mem_map]
  constructor
  · intro h i hi
    cases hc : identOf (identField d i) with
    | none => exact absurd ⟨i, List.mem_range.2 hi, by rw [hc]; rfl⟩ h
    | some c =>
      refine ⟨c, rfl, (identOf_char _ c ?_ hc).1⟩
      unfold identField bits
      rw [show 14 + 6 * i + 1 - (9 + 6 * i) = 6 by omega]
      exact Nat.mod_lt _ (by decide)
  · rintro h ⟨i, hi, he⟩
    obtain ⟨c, hc, hch⟩ := h i (List.mem_range.1 hi)
    rw [hc] at he
    have he : c = 0x23 := he
    subst he
    revert hch
    decide

/-- C36: a BDS 2,0 message is coherent exactly when its eight characters are letters, digits or spaces. -/
theorem bds20_coherent_iff (d : List UInt8) (m : AircraftIdentification) (h : readBDS20 d = .ok m) :
    m.coherent = true ↔ ∀ i < 8, ∃ c, identOf (identField d i) = some c ∧ IdentChar c := by
  rw [bds20_eval] at h
  split at h
  · injection h with h
    subst h
    rw [← chars_hash]
    unfold AircraftIdentification.coherent
    cases ((List.range 8).map (fun i => (identOf (identField d i)).getD 0x23)).contains 0x23 <;> simp
  · cases h

/-- C36: a BDS 0,8 message is coherent exactly when, besides, its category is not reserved: not in set D, and not above 3 in
set C. -/
theorem bds08_coherent_iff (d : List UInt8) (m : IdentificationAndCategory) (h : readBDS08 d = .ok m) :
    m.coherent = true ↔ (∀ i < 8, ∃ c, identOf (identField d i) = some c ∧ IdentChar c) ∧
      bits d 1 5 ≠ 1 ∧ (bits d 1 5 = 2 → bits d 6 8 ≤ 3) := by
  have h0 := h
  rw [bds08_eval] at h
  split at h
  · rename_i hc
    injection h with h
    obtain ⟨_, hcat, hlt⟩ := emitter_category d m h0
    have hid : m.identification = (List.range 8).map (fun i => (identOf (identField d i)).getD 0x23) := by rw [← h]
    rw [← chars_hash, ← hid]
    unfold IdentificationAndCategory.coherent
    have key : m.category.coherent = true ↔ bits d 1 5 ≠ 1 ∧ (bits d 1 5 = 2 → bits d 6 8 ≤ 3) := by
      rcases hcat with ⟨e, c⟩ | ⟨e, c⟩ | ⟨e, c⟩ | ⟨e, c⟩ <;> rw [c, e]
      · simp [AircraftCategory.coherent]
      · simp only [AircraftCategory.coherent, u8_gt, UInt8.toNat_ofNat', Bool.not_eq_true', decide_eq_false_iff_not]
        simp only [UInt8.reduceToNat, Nat.reducePow]
        constructor
        · intro hh; exact ⟨by omega, fun _ => by omega⟩
        · rintro ⟨_, hh⟩; have := hh trivial; omega
      · simp [AircraftCategory.coherent]
      · simp [AircraftCategory.coherent]
    rw [← key]
    cases m.identification.contains 0x23 <;> simp
  · cases h

theorem list8 {α : Type} (f : List α) (h : f.length = 8) :
    ∃ b0 b1 b2 b3 b4 b5 b6 b7, f = [b0, b1, b2, b3, b4, b5, b6, b7] := by
  match f, h with
  | [b0, b1, b2, b3, b4, b5, b6, b7], _ => exact ⟨_, _, _, _, _, _, _, _, rfl⟩

/-- The six-bit fields of an encoded callsign are the codes of its characters. -/
theorem identField_encode (b : UInt8) (cs : List UInt8) (h8 : cs.length = 8) (i : Nat) (hi : i < 8) :
    identField (b :: toBytes 6 (encodeIdent cs)) i = identCode (cs[i]'(by omega)) := by
  obtain ⟨c0, c1, c2, c3, c4, c5, c6, c7, rfl⟩ := list8 cs h8
  have hlt (c : UInt8) : identCode c < 64 := Nat.mod_lt _ (by decide)
  have h0 := hlt c0; have h1 := hlt c1; have h2 := hlt c2; have h3 := hlt c3
  have h4 := hlt c4; have h5 := hlt c5; have h6 := hlt c6; have h7 := hlt c7
  have hb : beNat (b :: toBytes 6 (encodeIdent [c0, c1, c2, c3, c4, c5, c6, c7])) =
      b.toNat * 281474976710656 + encodeIdent [c0, c1, c2, c3, c4, c5, c6, c7] := by
    rw [beNat_cons_toBytes6]
    have : encodeIdent [c0, c1, c2, c3, c4, c5, c6, c7] < 281474976710656 := by
      simp only [encodeIdent, List.foldl]; omega
    omega
  have hl : (b :: toBytes 6 (encodeIdent [c0, c1, c2, c3, c4, c5, c6, c7])).length = 7 := by
    rw [List.length_cons, toBytes_length]
  unfold identField bits
  rw [hb, hl]
  simp only [encodeIdent, List.foldl]
  have : i = 0 ∨ i = 1 ∨ i = 2 ∨ i = 3 ∨ i = 4 ∨ i = 5 ∨ i = 6 ∨ i = 7 := by omega
  rcases this with rfl | rfl | rfl | rfl | rfl | rfl | rfl | rfl
  all_goals
    simp only [List.getElem_cons_zero, List.getElem_cons_succ, Nat.reduceMul, Nat.reduceAdd, Nat.reduceSub, Nat.reducePow]
    omega

theorem map_ident (b : UInt8) (cs : List UInt8) (h8 : cs.length = 8) (hc : ∀ c ∈ cs, IdentChar c) :
    (List.range 8).map (fun i => (identOf (identField (b :: toBytes 6 (encodeIdent cs)) i)).getD 0x23) = cs := by
  apply List.ext_getElem
  · simp [h8]
  · intro i h1 h2
    simp only [List.getElem_map, List.getElem_range]
    rw [identField_encode b cs h8 i (by omega), identOf_code _ (hc _ (List.getElem_mem h2))]
    rfl

/-- C36: every callsign of eight letters, digits and spaces, encoded in a BDS 0,8 message of any type code 1-4 and any
category, is read back unchanged. -/
theorem callsign_roundtrip_bds08 (first : UInt8) (hf : 8 ≤ first.toNat ∧ first.toNat < 40) (cs : List UInt8)
    (h8 : cs.length = 8) (hc : ∀ c ∈ cs, IdentChar c) :
    ∃ m, readBDS08 (first :: toBytes 6 (encodeIdent cs)) = .ok m ∧ m.identification = cs := by
  have hb : bits (first :: toBytes 6 (encodeIdent cs)) 1 5 = first.toNat / 8 := by
    generalize encodeIdent cs = v
    unfold bits
    rw [beNat_cons_toBytes6, List.length_cons, toBytes_length]
    simp only [Nat.reduceAdd, Nat.reduceMul, Nat.reducePow, Nat.reduceSub]
    omega
  refine ⟨_, by rw [bds08_eval, if_pos ⟨by rw [List.length_cons, toBytes_length], by rw [hb]; omega, by rw [hb]; omega⟩], ?_⟩
  exact map_ident first cs h8 hc

/-- C36, C45: every callsign, encoded in a BDS 2,0 message, is read back unchanged and judged coherent. -/
theorem callsign_roundtrip_bds20 (cs : List UInt8) (h8 : cs.length = 8) (hc : ∀ c ∈ cs, IdentChar c) :
    readBDS20 (0x20 :: toBytes 6 (encodeIdent cs)) = .ok ⟨cs⟩ ∧ AircraftIdentification.coherent ⟨cs⟩ = true := by
  have hb : bits ((0x20 : UInt8) :: toBytes 6 (encodeIdent cs)) 1 8 = 32 := by
    generalize encodeIdent cs = v
    unfold bits
    rw [beNat_cons_toBytes6, List.length_cons, toBytes_length]
    simp only [Nat.reduceAdd, Nat.reduceMul, Nat.reducePow, Nat.reduceSub, UInt8.reduceToNat]
    omega
  constructor
  · rw [bds20_eval, if_pos ⟨by rw [List.length_cons, toBytes_length], hb⟩, map_ident _ cs h8 hc]
  · unfold AircraftIdentification.coherent
    rw [if_neg]
    rw [List.contains_iff_mem]
    intro hm
    exact absurd (hc _ hm) (by decide)

/-- C36: the encoding loses nothing: different callsigns have different encodings. -/
theorem callsign_injective (cs cs' : List UInt8) (h8 : cs.length = 8) (h8' : cs'.length = 8)
    (hc : ∀ c ∈ cs, IdentChar c) (hc' : ∀ c ∈ cs', IdentChar c) (h : encodeIdent cs = encodeIdent cs') : cs = cs' := by
  have h1 := (callsign_roundtrip_bds20 cs h8 hc).1
  have h2 := (callsign_roundtrip_bds20 cs' h8' hc').1
  rw [h, h2] at h1
  injection h1 with h1
  injection h1 with h1
  exact h1.symm

/-- "KLM1023 ", a message and its parts. -/
example : readBDS08 [0x20, 0x2C, 0xC3, 0x71, 0xC3, 0x2C, 0xE0] =
    .ok ⟨4, .setA 0, [0x4B, 0x4C, 0x4D, 0x31, 0x30, 0x32, 0x33, 0x20]⟩ := by decide +kernel
example : (∀ c ∈ ([0x4B, 0x4C, 0x4D, 0x31, 0x30, 0x32, 0x33, 0x20] : List UInt8), IdentChar c) ∧
    (0x20 : UInt8) :: toBytes 6 (encodeIdent [0x4B, 0x4C, 0x4D, 0x31, 0x30, 0x32, 0x33, 0x20]) =
      [0x20, 0x2C, 0xC3, 0x71, 0xC3, 0x2C, 0xE0] := by decide +kernel
example : ∃ m, readBDS08 [0x14, 0x2C, 0xC3, 0x71, 0xC3, 0x2C, 0xE0] = .ok m ∧ m.category = .setC 4 ∧ m.coherent = false :=
  ⟨_, rfl, by decide +kernel, by decide +kernel⟩

end Modes
