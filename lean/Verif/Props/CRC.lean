import Verif.Lemmas.CRCLoop
import Verif.Lemmas.CRCDist
import Verif.Props.Frame
/-!
# C13-C19: parity, address recovery, error detection
-/
set_option linter.unusedSimpArgs false
open Polynomial Spec
namespace Spec

/-- The last three bytes of the frame are the parity of the rest, exclusive-ored with the 24-bit number `a`. -/
def Overlaid (f : List UInt8) (a : Nat) : Prop :=
  a < 2 ^ 24 ∧ polyOf (beNat (f.drop (f.length - 3))) = parityPoly (f.take (f.length - 3)) + polyOf a

/-- The key is in the list, or there is no list. -/
def Allowed (l : Modes.AllowList) (a : UInt32) : Prop := l = [] ∨ ∃ v, (a, v) ∈ l

/-- The number of bit positions at which two strings of equal length differ. -/
def hamming (f g : List UInt8) : Nat :=
  ((Finset.Icc 1 (8 * f.length)).filter (fun i => bit f i ≠ bit g i)).card

/-- Two strings agree outside the window of 24 bits that starts at bit `p`. -/
def AgreeOutside (f g : List UInt8) (p : Nat) : Prop :=
  ∀ i, 1 ≤ i → i ≤ 8 * f.length → (i < p ∨ p + 24 ≤ i) → bit f i = bit g i

end Spec
namespace Modes

/-- C13: for every message of at least three bytes, `computeParity` is the ICAO parity. -/
theorem computeParity_is_crc (d : List UInt8) (h3 : 3 ≤ d.length) :
    ∃ c : UInt32, computeParity d = .ok c ∧ c.toNat < 2 ^ 24 ∧ polyOf c.toNat = (messagePoly d * X ^ 24) %ₘ generator :=
  computeParity_spec d h3

example : computeParity [0x8D, 0x48, 0x40, 0xD6, 0x20, 0x2C, 0xC3, 0x71, 0xC3, 0x2C, 0xE0] = .ok 0x576098 := by
  decide +kernel

theorem parityPoly_add (d e : List UInt8) (x : List UInt8) (h : beNat x = beNat d ^^^ beNat e) :
    parityPoly x = parityPoly d + parityPoly e := by
  unfold parityPoly messagePoly
  rw [h, polyOf_xor, add_mul, add_modByMonic]

/-- Bytewise exclusive or. -/
def xorBytes (d e : List UInt8) : List UInt8 := List.zipWith (· ^^^ ·) d e

theorem beNat_xorBytes (d e : List UInt8) (h : d.length = e.length) :
    beNat (xorBytes d e) = beNat d ^^^ beNat e := by
  induction d generalizing e with
  | nil => cases e with
    | nil => rfl
    | cons => simp at h
  | cons a d ih => cases e with
    | nil => simp at h
    | cons b e =>
      have hl : d.length = e.length := by simpa using h
      have := ih e hl
      simp only [xorBytes, List.zipWith_cons_cons, beNat] at this ⊢
      rw [this]
      have hlen : (List.zipWith (· ^^^ ·) d e).length = e.length := by simp [hl]
      rw [hlen, hl, UInt8.toNat_xor, xor_block _ _ _ _ _ (by rw [← hl]; exact beNat_bound d) (beNat_bound e)]

/-- C19: the parity is linear. -/
theorem computeParity_linear (d e : List UInt8) (h3 : 3 ≤ d.length) (h : d.length = e.length) (p q : UInt32)
    (hp : computeParity d = .ok p) (hq : computeParity e = .ok q) :
    computeParity (xorBytes d e) = .ok (p ^^^ q) := by
  obtain ⟨p', hp', _, pp⟩ := computeParity_spec d h3
  obtain ⟨q', hq', _, pq⟩ := computeParity_spec e (by omega)
  obtain ⟨r, hr, _, pr⟩ := computeParity_spec (xorBytes d e) (by simp [xorBytes]; omega)
  rw [hp] at hp'
  injection hp' with hp'
  rw [hq] at hq'
  injection hq' with hq'
  subst hp' hq'
  rw [hr]
  congr 1
  rw [← UInt32.toNat_inj, UInt32.toNat_xor]
  apply polyOf_inj
  rw [polyOf_xor, pp, pq, pr]
  exact parityPoly_add _ _ _ (beNat_xorBytes d e h)

example : computeParity [1, 2, 3, 4] = .ok 0x227B67 ∧ computeParity [9, 9, 9, 9] = .ok 0x69706E ∧
    computeParity [8, 11, 10, 13] = .ok (0x227B67 ^^^ 0x69706E) := by decide +kernel

/-! ### Frames -/

theorem messagePoly_append (h p : List UInt8) (hp : p.length = 3) :
    messagePoly (h ++ p) = messagePoly h * X ^ 24 + messagePoly p := by
  unfold messagePoly
  have hb := beNat_bound p
  rw [beNat_cat, hp]
  rw [hp] at hb
  exact polyOf_append _ _ _ hb

theorem add_self_poly (p : (ZMod 2)[X]) : p + p = 0 := CharTwo.add_self_eq_zero p

theorem poly_add_eq_zero (p q : (ZMod 2)[X]) : p + q = 0 ↔ p = q := by
  constructor
  · intro h
    have := congrArg (· + q) h
    simpa [add_assoc, add_self_poly] using this
  · rintro rfl; exact add_self_poly p

/-- A frame is divisible by the generator exactly when its last three bytes are the parity of the rest. -/
theorem divisible_iff (h p : List UInt8) (hp : p.length = 3) :
    generator ∣ messagePoly (h ++ p) ↔ parityPoly h = messagePoly p := by
  rw [messagePoly_append h p hp]
  have hdeg : (messagePoly p).degree < 24 := by
    have := beNat_bound p
    rw [hp] at this
    exact polyOf_degree _ _ this
  constructor
  · intro hd
    apply modByMonic_eq_of _ _ hdeg
    rwa [CharTwo.sub_eq_add]
  · intro hd
    rw [← hd]
    unfold parityPoly
    have := modByMonic_add_div (messagePoly h * X ^ 24) generator
    refine ⟨messagePoly h * X ^ 24 /ₘ generator, ?_⟩
    conv_lhs => lhs; rw [← this]
    rw [add_comm, ← add_assoc, add_self_poly, zero_add]

/-- The pair head/parity of a frame. -/
theorem frame_split (f : List UInt8) : f.take (f.length - 3) ++ f.drop (f.length - 3) = f := List.take_append_drop _ _

theorem pack3_beNat (a b c : UInt8) : (pack3 a b c).toNat = beNat [a, b, c] := by byte_omega

theorem allow_has (l : AllowList) (a : UInt32) : (l.length > 0 ∧ l.has a = false) ↔ ¬ Allowed l a := by
  unfold Allowed AllowList.has
  constructor
  · rintro ⟨h1, h2⟩ (h | ⟨v, h⟩)
    · subst h; simp at h1
    · rw [List.any_eq_false] at h2
      exact h2 _ h (by simp)
  · intro h
    rw [not_or] at h
    refine ⟨List.length_pos_of_ne_nil h.1, ?_⟩
    rw [List.any_eq_false]
    rintro ⟨k, v⟩ hk heq
    simp only [beq_iff_eq] at heq
    subst heq
    exact h.2 ⟨v, hk⟩

/-- The overlaid checks on literal head and parity bytes. -/
theorem overlay_check (hd p : List UInt8) (hp : p.length = 3) (h3 : 3 ≤ hd.length) (l : AllowList) (m : UInt32)
    (hm : m.toNat = beNat p) :
    ∃ r : UInt32, Overlaid (hd ++ p) r.toNat ∧ (∀ a, Overlaid (hd ++ p) a → a = r.toNat) ∧
      (computeParity hd >>= fun contentParity =>
        (if l.length > 0 then
          (if (!l.has (contentParity ^^^ m)) = true then (fail : Go UInt32) else pure (contentParity ^^^ m))
         else pure (contentParity ^^^ m))) = (if l.length > 0 ∧ l.has r = false then .error .err else .ok r) := by
  obtain ⟨c, hc, hlt, hpoly⟩ := computeParity_spec hd h3
  have hb := beNat_bound p
  rw [hp] at hb
  have e1 : (hd ++ p).take ((hd ++ p).length - 3) = hd := by
    rw [List.length_append, hp, Nat.add_sub_cancel, List.take_left]
  have e2 : (hd ++ p).drop ((hd ++ p).length - 3) = p := by
    rw [List.length_append, hp, Nat.add_sub_cancel, List.drop_left]
  refine ⟨c ^^^ m, ?_, ?_, ?_⟩
  · unfold Overlaid
    rw [e1, e2, UInt32.toNat_xor, hm]
    refine ⟨Nat.xor_lt_two_pow hlt hb, ?_⟩
    rw [polyOf_xor, hpoly, ← add_assoc, add_self_poly, zero_add]
  · rintro a ⟨_, ha⟩
    rw [e1, e2, ← hpoly] at ha
    apply polyOf_inj
    rw [UInt32.toNat_xor, polyOf_xor, hm, ha, ← add_assoc, add_self_poly, zero_add]
  · rw [hc, go_bind_ok]
    by_cases h1 : l.length > 0
    · cases h2 : l.has (c ^^^ m) <;> simp [h1, h2, fail, pure, Except.pure]
    · simp [h1, fail, pure, Except.pure]

theorem overlay_iff (f : List UInt8) (r : UInt32) (l : AllowList) (res : Go UInt32) (h1 : Overlaid f r.toNat)
    (h2 : ∀ a, Overlaid f a → a = r.toNat) (h3 : res = if l.length > 0 ∧ l.has r = false then .error .err else .ok r) :
    NoPanic res ∧ ∀ a, res = .ok a ↔ (Overlaid f a.toNat ∧ Allowed l a) := by
  have hal := allow_has l r
  by_cases hc : l.length > 0 ∧ l.has r = false
  · rw [if_pos hc] at h3
    refine ⟨by rw [h3]; simp [NoPanic], fun a => ?_⟩
    rw [h3]
    constructor
    · intro h; cases h
    · rintro ⟨ho, ha⟩
      have := h2 _ ho
      rw [UInt32.toNat_inj] at this
      subst this
      exact absurd ha (hal.1 hc)
  · rw [if_neg hc] at h3
    refine ⟨by rw [h3]; simp [NoPanic], fun a => ?_⟩
    rw [h3]
    constructor
    · intro h
      injection h with h
      subst h
      exact ⟨h1, Classical.not_not.1 (fun hn => hc (hal.2 hn))⟩
    · rintro ⟨ho, _⟩
      have := h2 _ ho
      rw [UInt32.toNat_inj] at this
      rw [this]

/-- C16, C17: for the formats whose parity is overlaid with the address, `CheckCRC` returns exactly the address overlaid
on the parity, provided it is allowed. -/
theorem checkCRC_overlaid (f : List UInt8) (m : ModeSMessage) (h : readMessage f = .ok m)
    (hdf : bits f 1 5 ≠ 11 ∧ bits f 1 5 ≠ 17 ∧ bits f 1 5 ≠ 18) (al il : AllowList) :
    NoPanic (checkCRC m f al il) ∧
    ∀ a, checkCRC m f al il = .ok a ↔ (Overlaid f a.toNat ∧ Allowed al a) := by
  have ht := readMessage_type f m h
  have hc : checkCRC m f al il = checkCRCOther f al := by
    unfold checkCRC
    have : m.getDownLinkFormat ≠ 11 ∧ m.getDownLinkFormat ≠ 17 ∧ m.getDownLinkFormat ≠ 18 := by
      rw [ht]; split <;> omega
    split
    · rename_i e; exact absurd e this.1
    · rename_i e; exact absurd e this.2.1
    · rename_i e; exact absurd e this.2.2
    · rfl
  rw [hc]
  rcases readMessage_ok f _ h with ⟨b0, b1, b2, b3, b4, b5, b6, rfl, _⟩ | ⟨b0, b1, b2, b3, b4, b5, b6, b7, b8, b9, b10,
    b11, b12, b13, rfl, _⟩
  · obtain ⟨r, o1, o2, o3⟩ := overlay_check [b0, b1, b2, b3] [b4, b5, b6] rfl (by simp) al _ (pack3_beNat b4 b5 b6)
    exact overlay_iff _ r al _ o1 o2 o3
  · obtain ⟨r, o1, o2, o3⟩ := overlay_check [b0, b1, b2, b3, b4, b5, b6, b7, b8, b9, b10] [b11, b12, b13] rfl (by simp)
      al _ (pack3_beNat b11 b12 b13)
    exact overlay_iff _ r al _ o1 o2 o3

/-- C16, C17: for an all-call reply `CheckCRC` returns the interrogator code overlaid on the parity, provided it is
allowed. -/
theorem checkCRC_df11 (f : List UInt8) (m : ModeSMessage) (h : readMessage f = .ok m) (hdf : bits f 1 5 = 11)
    (al il : AllowList) :
    NoPanic (checkCRC m f al il) ∧
    ∀ a, checkCRC m f al il = .ok a ↔ (Overlaid f a.toNat ∧ Allowed il a) := by
  have ht := readMessage_type f m h
  rw [hdf] at ht
  have hc : checkCRC m f al il = checkCRCDF11 f il := by
    unfold checkCRC; rw [ht]; rfl
  rw [hc]
  have hlen := ((readMessage_accepts_iff f).1 ⟨_, h⟩).1
  rw [hdf] at hlen
  have hl : f.length = 7 := by
    rcases hlen with h | h
    · exact h.1
    · exact absurd h.2 (by decide)
  obtain ⟨b0, b1, b2, b3, b4, b5, b6, rfl⟩ := list7 f hl
  obtain ⟨r, o1, o2, o3⟩ := overlay_check [b0, b1, b2, b3] [b4, b5, b6] rfl (by simp) il _ (pack3_beNat b4 b5 b6)
  exact overlay_iff _ r il _ o1 o2 o3

/-- The frame of a DF20 reply (a transponder of address 4CA8D0 would answer so) and what the check makes of it, without
a list, with a list that has the key (mapped to false), and with one that has not. -/
def df20Frame : List UInt8 := [0xA0, 0x00, 0x0F, 0x38, 0x20, 0x2C, 0xC3, 0x71, 0xC3, 0x2C, 0xE0, 0x11, 0x22, 0x33]
example : ∃ m a, readMessage df20Frame = .ok m ∧ checkCRC m df20Frame [] [] = .ok a ∧
    checkCRC m df20Frame [(a, false)] [] = .ok a ∧ checkCRC m df20Frame [(a + 1, true)] [] = .error .err :=
  ⟨_, _, rfl, rfl, by decide +kernel, by decide +kernel⟩

def df11Frame : List UInt8 := [0x5D, 0x48, 0x40, 0xD6, 0x11, 0x22, 0x33]
example : ∃ m a, readMessage df11Frame = .ok m ∧ bits df11Frame 1 5 = 11 ∧ checkCRC m df11Frame [(a + 1, true)] [] = .ok a ∧
    checkCRC m df11Frame [] [(a, false)] = .ok a ∧ checkCRC m df11Frame [] [(a + 1, true)] = .error .err :=
  ⟨_, _, rfl, by decide, rfl, by decide +kernel, by decide +kernel⟩

/-- C16: a frame transmitted with address (or interrogator code) `a` overlaid on its parity makes `CheckCRC` without
allow lists return `a`. -/
theorem checkCRC_recovers (f : List UInt8) (m : ModeSMessage) (h : readMessage f = .ok m)
    (hdf : bits f 1 5 ≠ 17 ∧ bits f 1 5 ≠ 18) (a : Nat) (ha : Overlaid f a) :
    checkCRC m f [] [] = .ok (UInt32.ofNat a) := by
  have e : (UInt32.ofNat a).toNat = a := by rw [UInt32.toNat_ofNat']; have := ha.1; omega
  by_cases h11 : bits f 1 5 = 11
  · exact ((checkCRC_df11 f m h h11 [] []).2 _).2 ⟨by rw [e]; exact ha, Or.inl rfl⟩
  · exact ((checkCRC_overlaid f m h ⟨h11, hdf⟩ [] []).2 _).2 ⟨by rw [e]; exact ha, Or.inl rfl⟩

/-- Every frame of at least six bytes has exactly one overlaid code (so the theorems above are about every frame). -/
theorem overlaid_exists (f : List UInt8) (h : 6 ≤ f.length) : ∃ a, Overlaid f a ∧ ∀ a', Overlaid f a' → a' = a := by
  have hp : (f.drop (f.length - 3)).length = 3 := by rw [List.length_drop]; omega
  obtain ⟨c, hc⟩ : ∃ c, f.drop (f.length - 3) = c := ⟨_, rfl⟩
  match c, hc, hp with
  | [x, y, z], hc, hp =>
    obtain ⟨r, o1, o2, _⟩ := overlay_check (f.take (f.length - 3)) _ hp (by rw [List.length_take]; omega) [] (pack3 x y z)
      (by rw [hc, pack3_beNat])
    rw [frame_split] at o1 o2
    exact ⟨_, o1, o2⟩
  | [], hc, hp => rw [hc] at hp; simp at hp
  | [_], hc, hp => rw [hc] at hp; simp at hp
  | [_, _], hc, hp => rw [hc] at hp; simp at hp
  | _ :: _ :: _ :: _ :: _, hc, hp => rw [hc] at hp; simp at hp

theorem squitter_eval (b0 b1 b2 b3 b4 b5 b6 b7 b8 b9 b10 b11 b12 b13 : UInt8) (c : UInt32)
    (hcp : computeParity [b0, b1, b2, b3, b4, b5, b6, b7, b8, b9, b10] = .ok c) :
    checkCRCDF17And18 [b0, b1, b2, b3, b4, b5, b6, b7, b8, b9, b10, b11, b12, b13] =
      if c ≠ pack3 b11 b12 b13 then .error .err else .ok (pack3 b1 b2 b3) := by
  have e : sliceTo [b0, b1, b2, b3, b4, b5, b6, b7, b8, b9, b10, b11, b12, b13] 11 =
      .ok [b0, b1, b2, b3, b4, b5, b6, b7, b8, b9, b10] := rfl
  unfold checkCRCDF17And18
  simp only [idx, List.getElem?_cons_succ, List.getElem?_cons_zero, go_bind_ok, e, hcp, fail, pure, Except.pure]
  split <;> rfl

/-- C14: an extended squitter is accepted exactly when its polynomial is divisible by the generator (its last 24 bits are
the parity of the first 88), and then the announced address is returned, whatever the allow lists. -/
theorem checkCRC_squitter (f : List UInt8) (m : ModeSMessage) (h : readMessage f = .ok m)
    (hdf : bits f 1 5 = 17 ∨ bits f 1 5 = 18) (al il : AllowList) :
    NoPanic (checkCRC m f al il) ∧
    (∀ a, checkCRC m f al il = .ok a ↔ (generator ∣ messagePoly f ∧ a.toNat = bits f 9 32)) ∧
    (generator ∣ messagePoly f ↔ parityPoly (f.take 11) = messagePoly (f.drop 11)) := by
  have ht := readMessage_type f m h
  have hc : checkCRC m f al il = checkCRCDF17And18 f := by
    unfold checkCRC
    rcases hdf with hdf | hdf <;> rw [hdf] at ht <;> rw [ht] <;> rfl
  rw [hc]
  have hlen := ((readMessage_accepts_iff f).1 ⟨_, h⟩).1
  have hl : f.length = 14 := by
    rcases hlen with h | h
    · rcases hdf with hdf | hdf <;> rw [hdf] at h <;> exact absurd h.2 (by decide)
    · exact h.1
  obtain ⟨b0, b1, b2, b3, b4, b5, b6, b7, b8, b9, b10, b11, b12, b13, rfl⟩ := list14 f hl
  have hdiv := divisible_iff [b0, b1, b2, b3, b4, b5, b6, b7, b8, b9, b10] [b11, b12, b13] rfl
  refine ⟨?_, ?_, hdiv⟩
  all_goals
    obtain ⟨c, hcp, hlt, hpoly⟩ := computeParity_spec [b0, b1, b2, b3, b4, b5, b6, b7, b8, b9, b10] (by simp)
    rw [squitter_eval b0 b1 b2 b3 b4 b5 b6 b7 b8 b9 b10 b11 b12 b13 c hcp]
  · by_cases hne : c ≠ pack3 b11 b12 b13
    · rw [if_pos hne]; simp [NoPanic]
    · rw [if_neg hne]; simp [NoPanic]
  · intro a
    have key : c = pack3 b11 b12 b13 ↔ parityPoly [b0, b1, b2, b3, b4, b5, b6, b7, b8, b9, b10] =
        messagePoly [b11, b12, b13] := by
      rw [← hpoly]
      unfold messagePoly
      rw [← pack3_beNat, ← UInt32.toNat_inj]
      exact ⟨fun e => by rw [e], polyOf_inj _ _⟩
    have haddr : (pack3 b1 b2 b3).toNat = bits [b0, b1, b2, b3, b4, b5, b6, b7, b8, b9, b10, b11, b12, b13] 9 32 := by
      byte_omega
    have hd2 : generator ∣ messagePoly [b0, b1, b2, b3, b4, b5, b6, b7, b8, b9, b10, b11, b12, b13] ↔
        c = pack3 b11 b12 b13 := by rw [key]; exact hdiv
    rw [hd2, ← haddr, UInt32.toNat_inj]
    by_cases he : c = pack3 b11 b12 b13
    · rw [if_neg (by simp [he])]
      constructor
      · intro h; injection h with h; exact ⟨he, h.symm⟩
      · rintro ⟨_, rfl⟩; rfl
    · rw [if_pos he]
      constructor
      · intro h; cases h
      · rintro ⟨h, _⟩; exact absurd h he

/-- C18: `CheckCRC` on a frame that was read and its own bytes never panics. -/
theorem checkCRC_noPanic (f : List UInt8) (m : ModeSMessage) (h : readMessage f = .ok m) (al il : AllowList) :
    NoPanic (checkCRC m f al il) := by
  by_cases h17 : bits f 1 5 = 17 ∨ bits f 1 5 = 18
  · exact (checkCRC_squitter f m h h17 al il).1
  by_cases h11 : bits f 1 5 = 11
  · exact (checkCRC_df11 f m h h11 al il).1
  · exact (checkCRC_overlaid f m h ⟨h11, by omega, by omega⟩ al il).1

/-! ### Error detection -/

theorem bit_testBit (f : List UInt8) (i : Nat) : bit f i = (beNat f).testBit (8 * f.length - i) := by
  unfold bit bits
  rw [Nat.testBit_eq_decide_div_mod_eq, show i + 1 - i = 1 by omega, Nat.pow_one]
  rcases Nat.mod_two_eq_zero_or_one (beNat f / 2 ^ (8 * f.length - i)) with h | h <;> rw [h] <;> rfl

/-- Two strings with the same code overlaid on their parity differ by a multiple of the generator. -/
theorem same_code_dvd (f g : List UInt8) (h3 : 3 ≤ f.length) (hl : g.length = f.length) (a : Nat) (hf : Overlaid f a)
    (hg : Overlaid g a) : generator ∣ polyOf (beNat f ^^^ beNat g) := by
  have key : ∀ f : List UInt8, 3 ≤ f.length → Overlaid f a → ∃ q, polyOf (beNat f) = generator * q + polyOf a := by
    intro f h3 hf
    have hp : (f.drop (f.length - 3)).length = 3 := by rw [List.length_drop]; omega
    have e := messagePoly_append (f.take (f.length - 3)) _ hp
    rw [frame_split] at e
    have e2 : messagePoly (f.drop (f.length - 3)) = parityPoly (f.take (f.length - 3)) + polyOf a := hf.2
    rw [e2] at e
    have hm := modByMonic_add_div (messagePoly (f.take (f.length - 3)) * X ^ 24) generator
    have hm2 : messagePoly (f.take (f.length - 3)) * X ^ 24 = parityPoly (f.take (f.length - 3)) + generator *
        (messagePoly (f.take (f.length - 3)) * X ^ 24 /ₘ generator) := hm.symm
    refine ⟨messagePoly (f.take (f.length - 3)) * X ^ 24 /ₘ generator, ?_⟩
    show messagePoly f = _
    rw [e]
    conv_lhs => lhs; rw [hm2]
    generalize parityPoly (f.take (f.length - 3)) = p
    generalize generator * (messagePoly (f.take (f.length - 3)) * X ^ 24 /ₘ generator) = q
    rw [show p + q + (p + polyOf a) = p + p + (q + polyOf a) by ring, add_self_poly, zero_add]
  obtain ⟨q, hq⟩ := key f h3 hf
  obtain ⟨r, hr⟩ := key g (by omega) hg
  rw [polyOf_xor, hq, hr]
  refine ⟨q + r, ?_⟩
  rw [show generator * q + polyOf a + (generator * r + polyOf a) = polyOf a + polyOf a + generator * (q + r) by ring,
    add_self_poly, zero_add]

theorem beNat_xor_lt (f g : List UInt8) (hl : g.length = f.length) : beNat f ^^^ beNat g < 2 ^ (8 * f.length) :=
  Nat.xor_lt_two_pow (beNat_bound f) (by have := beNat_bound g; rwa [hl] at this)

theorem hamming_support (f g : List UInt8) (hl : g.length = f.length) (h14 : f.length ≤ 14) :
    (support (beNat f ^^^ beNat g)).card ≤ hamming f g := by
  unfold hamming
  apply Finset.card_le_card_of_injOn (fun j => 8 * f.length - j)
  · intro j hj
    have hj' := (Finset.mem_filter.1 hj).2
    have hlt := beNat_xor_lt f g hl
    have hj8 : j < 8 * f.length := by
      by_contra hn
      rw [Nat.testBit_lt_two_pow (Nat.lt_of_lt_of_le hlt (Nat.pow_le_pow_right (by decide) (by omega)))] at hj'
      cases hj'
    rw [Finset.mem_coe, Finset.mem_filter, Finset.mem_Icc]
    refine ⟨⟨?_, ?_⟩, ?_⟩
    · show 1 ≤ 8 * f.length - j
      omega
    · show 8 * f.length - j ≤ 8 * f.length
      omega
    rw [bit_testBit, bit_testBit, hl, show 8 * f.length - (8 * f.length - j) = j by omega]
    rw [Nat.testBit_xor] at hj'
    intro e
    rw [e] at hj'
    simp at hj'
  · intro j hj j' hj' e
    have h1 : ∀ j ∈ support (beNat f ^^^ beNat g), j < 8 * f.length := by
      intro j hj
      have hj' := (Finset.mem_filter.1 hj).2
      have hlt := beNat_xor_lt f g hl
      by_contra hn
      rw [Nat.testBit_lt_two_pow (Nat.lt_of_lt_of_le hlt (Nat.pow_le_pow_right (by decide) (by omega)))] at hj'
      cases hj'
    have := h1 j hj
    have := h1 j' hj'
    simp only at e
    omega

theorem xor_ne_zero (f g : List UInt8) (hl : g.length = f.length) (hne : f ≠ g) : beNat f ^^^ beNat g ≠ 0 := by
  intro h
  exact hne (beNat_inj f g hl.symm (xor_zero_eq _ _ h))

/-- Two different strings of at most 14 bytes with the same overlaid code differ in at least six bits. -/
theorem same_code_distance (f g : List UInt8) (h3 : 3 ≤ f.length) (h14 : f.length ≤ 14) (hl : g.length = f.length)
    (hne : f ≠ g) (a : Nat) (hf : Overlaid f a) (hg : Overlaid g a) : 6 ≤ hamming f g := by
  have hlt := beNat_xor_lt f g hl
  have := min_weight _ (Nat.lt_of_lt_of_le hlt (Nat.pow_le_pow_right (by decide) (by omega))) (xor_ne_zero f g hl hne)
    (same_code_dvd f g h3 hl a hf hg)
  have := hamming_support f g hl h14
  omega

/-- A number whose bits lie in a window of 24 positions. -/
theorem window_split (e s : Nat) (h : ∀ j, e.testBit j = true → s ≤ j ∧ j < s + 24) : ∃ b, b < 16777216 ∧ e = b * 2 ^ s := by
  refine ⟨e / 2 ^ s, ?_, ?_⟩
  · rw [show (16777216 : Nat) = 2 ^ 24 by decide]
    apply Nat.lt_pow_two_of_testBit
    intro j hj
    rw [Nat.testBit_div_two_pow]
    cases hb : e.testBit (j + s)
    · rfl
    · have := h _ hb; omega
  · apply Nat.eq_of_testBit_eq
    intro j
    rw [Nat.testBit_mul_two_pow, Nat.testBit_div_two_pow]
    by_cases hj : s ≤ j
    · rw [Nat.sub_add_cancel hj]; simp [hj]
    · cases hb : e.testBit j
      · simp [hj]
      · have := h _ hb; omega

/-- Two different strings (of any length) with the same overlaid code do not agree outside any window of 24 bits. -/
theorem same_code_burst (f g : List UInt8) (h3 : 3 ≤ f.length) (hl : g.length = f.length) (hne : f ≠ g) (a : Nat)
    (hf : Overlaid f a) (hg : Overlaid g a) (p : Nat) : ¬ AgreeOutside f g p := by
  intro hag
  have hd := same_code_dvd f g h3 hl a hf hg
  have h0 := xor_ne_zero f g hl hne
  have hlt := beNat_xor_lt f g hl
  obtain ⟨b, hb, he⟩ := window_split (beNat f ^^^ beNat g) (8 * f.length - (p + 23)) (by
    intro j hj
    have hj8 : j < 8 * f.length := by
      by_contra hn
      rw [Nat.testBit_lt_two_pow (Nat.lt_of_lt_of_le hlt (Nat.pow_le_pow_right (by decide) (by omega)))] at hj
      cases hj
    by_contra hn
    have := hag (8 * f.length - j) (by omega) (by omega) (by omega)
    rw [bit_testBit, bit_testBit, hl, show 8 * f.length - (8 * f.length - j) = j by omega] at this
    rw [Nat.testBit_xor, this] at hj
    simp at hj)
  rw [he, polyOf_shift] at hd
  have := low_dvd_zero b hb (dvd_of_dvd_mul_pow _ _ hd)
  rw [this, Nat.zero_mul] at he
  exact h0 he

/-- "The frame is read and passes the parity check (no allow lists)." -/
def Passes (f : List UInt8) (a : UInt32) : Prop := ∃ m, readMessage f = .ok m ∧ checkCRC m f [] [] = .ok a

theorem squitter_overlaid (f : List UInt8) (a : UInt32) (hdf : bits f 1 5 = 17 ∨ bits f 1 5 = 18) (h : Passes f a) :
    f.length = 14 ∧ Overlaid f 0 := by
  obtain ⟨m, hm, hc⟩ := h
  have hlen := ((readMessage_accepts_iff f).1 ⟨_, hm⟩).1
  have hl : f.length = 14 := by
    rcases hlen with h | h
    · rcases hdf with hdf | hdf <;> rw [hdf] at h <;> exact absurd h.2 (by decide)
    · exact h.1
  have h1 := checkCRC_squitter f m hm hdf [] []
  have h2 := h1.2.2.1 ((h1.2.1 a).1 hc).1
  refine ⟨hl, by decide, ?_⟩
  rw [hl, polyOf_zero, add_zero]
  exact h2.symm

/-- C15 (and C64): two different extended squitters that both pass the check differ in at least six bits, and not
inside any window of 24 consecutive bits. -/
theorem squitter_distance (f g : List UInt8) (a b : UInt32) (hf : bits f 1 5 = 17 ∨ bits f 1 5 = 18)
    (hg : bits g 1 5 = 17 ∨ bits g 1 5 = 18) (pf : Passes f a) (pg : Passes g b) (hne : f ≠ g) :
    6 ≤ hamming f g ∧ ∀ p, ¬ AgreeOutside f g p := by
  obtain ⟨lf, of⟩ := squitter_overlaid f a hf pf
  obtain ⟨lg, og⟩ := squitter_overlaid g b hg pg
  exact ⟨same_code_distance f g (by omega) (by omega) (by omega) hne 0 of og,
    same_code_burst f g (by omega) (by omega) hne 0 of og⟩

/-- C15: an extended squitter that passes and is then corrupted, its downlink format excepted, within a window of 24
bits, or in at most five bits anywhere, is still read but no longer passes: `CheckCRC` returns an error. -/
theorem squitter_corruption_detected (f g : List UInt8) (a : UInt32) (hf : bits f 1 5 = 17 ∨ bits f 1 5 = 18)
    (pf : Passes f a) (hlen : g.length = f.length) (hdf : bits g 1 5 = bits f 1 5) (hne : f ≠ g)
    (hc : (∃ p, AgreeOutside f g p) ∨ hamming f g ≤ 5) (al il : AllowList) :
    ∃ m, readMessage g = .ok m ∧ checkCRC m g al il = .error .err := by
  obtain ⟨lf, _⟩ := squitter_overlaid f a hf pf
  have hacc : Succeeds (readMessage g) := by
    rw [readMessage_accepts_iff]
    rw [hdf]
    refine ⟨Or.inr ⟨by omega, ?_⟩, ?_⟩
    · rcases hf with h | h <;> rw [h] <;> decide
    · intro h
      rcases hf with h' | h' <;> rw [h'] at h <;> exact absurd h (by decide)
  obtain ⟨m, hm⟩ := hacc
  refine ⟨m, hm, ?_⟩
  have hg : bits g 1 5 = 17 ∨ bits g 1 5 = 18 := by rw [hdf]; exact hf
  have hs := checkCRC_squitter g m hm hg al il
  have hs0 := checkCRC_squitter g m hm hg [] []
  cases h : checkCRC m g al il with
  | error e =>
    cases e with
    | err => rfl
    | panic => exact absurd h hs.1
  | ok b =>
    have pg : Passes g b := ⟨m, hm, (hs0.2.1 b).2 ((hs.2.1 b).1 h)⟩
    have := squitter_distance f g a b hf hg pf pg hne
    rcases hc with ⟨p, hp⟩ | hc
    · exact absurd hp (this.2 p)
    · omega

/-- C65: corrupting one to five bits (or a window of at most 24 bits) of a frame whose parity is overlaid with the address
never leaves the recovered address unchanged (provided it still has such a format). -/
theorem overlaid_corruption_changes_address (f g : List UInt8) (a b : UInt32)
    (hf : bits f 1 5 ≠ 17 ∧ bits f 1 5 ≠ 18) (hg : bits g 1 5 ≠ 17 ∧ bits g 1 5 ≠ 18)
    (pf : Passes f a) (pg : Passes g b) (hlen : g.length = f.length) (hne : f ≠ g)
    (hc : (∃ p, AgreeOutside f g p) ∨ hamming f g ≤ 5) : a ≠ b := by
  have key : ∀ f a, bits f 1 5 ≠ 17 ∧ bits f 1 5 ≠ 18 → Passes f a →
      (f.length = 7 ∨ f.length = 14) ∧ Overlaid f a.toNat := by
    rintro f a hf ⟨m, hm, hc⟩
    refine ⟨?_, ?_⟩
    · rcases ((readMessage_accepts_iff f).1 ⟨_, hm⟩).1 with h | h
      · exact Or.inl h.1
      · exact Or.inr h.1
    · by_cases h11 : bits f 1 5 = 11
      · exact (((checkCRC_df11 f m hm h11 [] []).2 a).1 hc).1
      · exact (((checkCRC_overlaid f m hm ⟨h11, hf⟩ [] []).2 a).1 hc).1
  rintro rfl
  obtain ⟨lf, of⟩ := key f a hf pf
  obtain ⟨lg, og⟩ := key g a hg pg
  rcases hc with ⟨p, hp⟩ | hc
  · exact same_code_burst f g (by omega) (by omega) hne _ of og p hp
  · have := same_code_distance f g (by omega) (by omega) (by omega) hne _ of og
    omega

/-- A real extended squitter, and the same with its bits 40 and 41 flipped. -/
def squitterFrame : List UInt8 :=
  [0x8D, 0x48, 0x40, 0xD6, 0x20, 0x2C, 0xC3, 0x71, 0xC3, 0x2C, 0xE0, 0x57, 0x60, 0x98]
def squitterBad : List UInt8 :=
  [0x8D, 0x48, 0x40, 0xD6, 0x21, 0xAC, 0xC3, 0x71, 0xC3, 0x2C, 0xE0, 0x57, 0x60, 0x98]

example : Passes squitterFrame 0x4840D6 ∧ bits squitterFrame 1 5 = 17 ∧ squitterBad ≠ squitterFrame ∧
    bits squitterBad 1 5 = bits squitterFrame 1 5 ∧ hamming squitterFrame squitterBad ≤ 5 :=
  ⟨⟨_, rfl, by decide +kernel⟩, by decide, by decide, by decide, by decide +kernel⟩

/-- The same address answering with two different frames (a header change and the parity recomputed) passes: the
distance bound is attained by real pairs of frames, so it is not vacuous. -/
example : Passes squitterFrame 0x4840D6 ∧ Passes [0x8D, 0x48, 0x40, 0xD6, 0x20, 0x2C, 0xC3, 0x71, 0xC3, 0x2C, 0xE1,
    0xA8, 0x94, 0x91] 0x4840D6 := ⟨⟨_, rfl, by decide +kernel⟩, ⟨_, rfl, by decide +kernel⟩⟩

/-- Two DF20 frames one bit apart: different addresses. -/
example : ∃ a b, Passes df20Frame a ∧ Passes [0xA0, 0x00, 0x0F, 0x38, 0x20, 0x2C, 0xC3, 0x71, 0xC3, 0x2C, 0xE0, 0x11, 0x22,
    0x32] b := ⟨_, _, ⟨_, rfl, rfl⟩, ⟨_, rfl, rfl⟩⟩

end Modes
