import Verif.Props.CRC
import Verif.Lemmas.CommBNum
/-!
# C97: exactly which corruptions the parity check misses
-/
open Polynomial Spec
namespace Spec

/-- The bit positions (from 1) at which two strings of equal length differ. -/
def flipped (f g : List UInt8) : Finset Nat := (Finset.Icc 1 (8 * f.length)).filter (fun i => bit f i ≠ bit g i)

/-- The error polynomial: one term for each differing bit, the last bit being the constant term. -/
noncomputable def errorPoly (f g : List UInt8) : (ZMod 2)[X] := ∑ i ∈ flipped f g, X ^ (8 * f.length - i)

/-- The number of bits set. -/
def ones (f : List UInt8) : Nat := ((Finset.Icc 1 (8 * f.length)).filter (fun i => bit f i = true)).card

/-- The positions of the terms of the generator x^24+x^23+...+x^12+x^10+x^3+1, counted from its highest. -/
def generatorOffsets : List Nat := [0, 1, 2, 3, 4, 5, 6, 7, 8, 9, 10, 11, 12, 14, 21, 24]

end Spec
namespace Modes

theorem flipped_testBit (f g : List UInt8) (hl : g.length = f.length) (i : Nat) (h1 : 1 ≤ i) (h2 : i ≤ 8 * f.length) :
    bit f i ≠ bit g i ↔ (beNat f ^^^ beNat g).testBit (8 * f.length - i) = true := by
  rw [bit_testBit, bit_testBit, hl, Nat.testBit_xor]
  cases (beNat f).testBit (8 * f.length - i) <;> cases (beNat g).testBit (8 * f.length - i) <;> simp

theorem errorPoly_eq (f g : List UInt8) (hl : g.length = f.length) : errorPoly f g = polyOf (beNat f ^^^ beNat g) := by
  ext n
  rw [polyOf_coeff, errorPoly, finsetSum_coeff]
  simp only [coeff_X_pow]
  have hlt := beNat_xor_lt f g hl
  by_cases hn : n < 8 * f.length
  · have hc : ∀ i ∈ flipped f g, (if n = 8 * f.length - i then (1 : ZMod 2) else 0) = if i = 8 * f.length - n then 1 else 0 := by
      intro i hi
      have := Finset.mem_Icc.1 (Finset.mem_filter.1 hi).1
      exact if_congr (by omega) rfl rfl
    rw [Finset.sum_congr rfl hc, Finset.sum_ite_eq' (flipped f g) (8 * f.length - n) (fun _ => (1 : ZMod 2))]
    refine if_congr ?_ rfl rfl
    unfold flipped
    rw [Finset.mem_filter, Finset.mem_Icc, flipped_testBit f g hl (8 * f.length - n) (by omega) (by omega),
      show 8 * f.length - (8 * f.length - n) = n by omega]
    exact ⟨fun h => h.2, fun h => ⟨⟨by omega, by omega⟩, h⟩⟩
  · rw [Nat.testBit_lt_two_pow (Nat.lt_of_lt_of_le hlt (Nat.pow_le_pow_right (by decide) (by omega))), if_neg (by simp)]
    refine Finset.sum_eq_zero fun i hi => if_neg ?_
    have := Finset.mem_Icc.1 (Finset.mem_filter.1 hi).1
    omega

/-- A fourteen-byte extended squitter passes exactly when its polynomial is a multiple of the generator. -/
theorem passes_iff_dvd (g : List UInt8) (hl : g.length = 14) (hg : bits g 1 5 = 17 ∨ bits g 1 5 = 18) :
    (∃ b, Passes g b) ↔ generator ∣ messagePoly g := by
  have hacc : Succeeds (readMessage g) := by
    rw [readMessage_accepts_iff]
    refine ⟨Or.inr ⟨hl, ?_⟩, ?_⟩
    · rcases hg with h | h <;> rw [h] <;> decide
    · intro h
      rcases hg with h' | h' <;> rw [h'] at h <;> exact absurd h (by decide)
  obtain ⟨m, hm⟩ := hacc
  have hs := checkCRC_squitter g m hm hg [] []
  constructor
  · rintro ⟨b, m', hm', hc⟩
    have : m' = m := Except.ok.inj (hm'.symm.trans hm)
    subst this
    exact ((hs.2.1 b).1 hc).1
  · intro hd
    have hb : bits g 9 32 < 2 ^ 24 := bits_lt g 9 32 24 rfl
    exact ⟨UInt32.ofNat (bits g 9 32), m, hm, (hs.2.1 _).2 ⟨hd, by rw [UInt32.toNat_ofNat']; omega⟩⟩

theorem dvd_add_iff (p q : (ZMod 2)[X]) (h : generator ∣ p) : generator ∣ q ↔ generator ∣ p + q :=
  (dvd_add_right h).symm

/-- C97. A corruption of an extended squitter that passes (its format still 17 or 18) goes unnoticed exactly when the error
polynomial, one term for each wrong bit, is a multiple of the generator. -/
theorem squitter_undetected_iff (f g : List UInt8) (a : UInt32) (hf : bits f 1 5 = 17 ∨ bits f 1 5 = 18) (pf : Passes f a)
    (hlen : g.length = f.length) (hg : bits g 1 5 = 17 ∨ bits g 1 5 = 18) :
    (∃ b, Passes g b) ↔ generator ∣ errorPoly f g := by
  obtain ⟨lf, -⟩ := squitter_overlaid f a hf pf
  have df := (passes_iff_dvd f lf hf).1 ⟨a, pf⟩
  rw [passes_iff_dvd g (hlen.trans lf) hg, errorPoly_eq f g hlen, polyOf_xor]
  exact dvd_add_iff _ _ df

theorem eval_one_errorPoly (f g : List UInt8) : (errorPoly f g).eval 1 = (hamming f g : ZMod 2) := by
  unfold errorPoly hamming
  rw [eval_finsetSum]
  simp only [eval_pow, eval_X, one_pow, Finset.sum_const, nsmul_eq_mul, mul_one]
  rfl

theorem dvd_even (p : (ZMod 2)[X]) (h : generator ∣ p) : p.eval 1 = 0 := by
  obtain ⟨q, rfl⟩ := h
  rw [eval_mul, generator_eval_one, zero_mul]

/-- C97. Any corruption of an odd number of bits is noticed. -/
theorem squitter_odd_detected (f g : List UInt8) (a : UInt32) (hf : bits f 1 5 = 17 ∨ bits f 1 5 = 18) (pf : Passes f a)
    (hlen : g.length = f.length) (hg : bits g 1 5 = 17 ∨ bits g 1 5 = 18) (hodd : hamming f g % 2 = 1) : ¬ ∃ b, Passes g b := by
  rw [squitter_undetected_iff f g a hf pf hlen hg]
  intro h
  have := dvd_even _ h
  rw [eval_one_errorPoly, ZMod.natCast_eq_zero_iff] at this
  omega

/-- C97. An extended squitter that passes has an even number of bits set. -/
theorem squitter_even (f : List UInt8) (a : UInt32) (hf : bits f 1 5 = 17 ∨ bits f 1 5 = 18) (pf : Passes f a) : ones f % 2 = 0 := by
  obtain ⟨lf, -⟩ := squitter_overlaid f a hf pf
  have df := (passes_iff_dvd f lf hf).1 ⟨a, pf⟩
  obtain ⟨z, hzl, hz⟩ : ∃ z : List UInt8, z.length = 14 ∧ beNat z = 0 := ⟨List.replicate 14 0, rfl, by decide⟩
  have e := errorPoly_eq f z (hzl.trans lf.symm)
  rw [hz, Nat.xor_zero] at e
  have h1 := dvd_even _ df
  unfold messagePoly at h1
  rw [← e, eval_one_errorPoly, ZMod.natCast_eq_zero_iff] at h1
  have hh : hamming f z = ones f := by
    unfold hamming ones
    refine congrArg Finset.card (Finset.filter_congr fun i _ => ?_)
    rw [bit_testBit z, hz, Nat.zero_testBit]
    simp
  omega

theorem window_split25 (e s : Nat) (h : ∀ j, e.testBit j = true → s ≤ j ∧ j < s + 25) : ∃ b, b < 2 ^ 25 ∧ e = b * 2 ^ s := by
  refine ⟨e / 2 ^ s, ?_, ?_⟩
  · apply Nat.lt_pow_two_of_testBit
    intro j hj
    rw [Nat.testBit_div_two_pow]
    cases hb : e.testBit (j + s)
    · rfl
    · have := h _ hb; omega
  · apply Nat.eq_of_testBit_eq
    intro j
    rw [Nat.testBit_mul_two_pow, Nat.testBit_div_two_pow]
    by_cases hj : s ≤ j
    · rw [Nat.sub_add_cancel hj]; simp [hj]
    · cases hb : e.testBit j
      · simp [hj]
      · have := h _ hb; omega

theorem dvd25 (b : Nat) (hb : b < 2 ^ 25) (h0 : b ≠ 0) : generator ∣ polyOf b ↔ b = 0x1FFF409 := by
  constructor
  · intro h
    by_cases h24 : b < 16777216
    · exact absurd (low_dvd_zero b h24 h) h0
    · have hx : b ^^^ 0x1FFF409 < 2 ^ 24 := by
        apply Nat.lt_pow_two_of_testBit
        intro j hj
        rw [Nat.testBit_xor]
        by_cases hj25 : 25 ≤ j
        · rw [Nat.testBit_lt_two_pow (Nat.lt_of_lt_of_le hb (Nat.pow_le_pow_right (by decide) hj25)),
            Nat.testBit_lt_two_pow (Nat.lt_of_lt_of_le (show 0x1FFF409 < 2 ^ 25 by decide) (Nat.pow_le_pow_right (by decide) hj25))]
          rfl
        · have : j = 24 := by omega
          subst this
          rw [Nat.testBit_eq_decide_div_mod_eq, show b / 2 ^ 24 % 2 = 1 by omega]
          decide
      have hd : generator ∣ polyOf (b ^^^ 0x1FFF409) := by
        rw [polyOf_xor, ← generator_eq]
        exact dvd_add h dvd_rfl
      exact xor_zero_eq _ _ (low_dvd_zero _ hx hd)
  · rintro rfl
    rw [← generator_eq]

/-- C97. Of the corruptions confined to 25 consecutive bits, starting at bit `p`, exactly one goes unnoticed: the one that flips
the bits of the generator. (Confined to 24 bits, none: C15.) -/
theorem squitter_burst25 (f g : List UInt8) (a : UInt32) (hf : bits f 1 5 = 17 ∨ bits f 1 5 = 18) (pf : Passes f a)
    (hlen : g.length = f.length) (hg : bits g 1 5 = 17 ∨ bits g 1 5 = 18) (hne : f ≠ g) (p : Nat) (h1 : 1 ≤ p) (h2 : p + 24 ≤ 112)
    (hag : ∀ i, 1 ≤ i → i ≤ 112 → (i < p ∨ p + 25 ≤ i) → bit f i = bit g i) :
    (∃ b, Passes g b) ↔ ∀ j, j ≤ 24 → (bit f (p + j) ≠ bit g (p + j) ↔ j ∈ generatorOffsets) := by
  obtain ⟨lf, -⟩ := squitter_overlaid f a hf pf
  rw [squitter_undetected_iff f g a hf pf hlen hg, errorPoly_eq f g hlen]
  have hlt := beNat_xor_lt f g hlen
  have h0 := xor_ne_zero f g hlen hne
  have hfl : ∀ i, 1 ≤ i → i ≤ 112 → (bit f i ≠ bit g i ↔ (beNat f ^^^ beNat g).testBit (112 - i) = true) := by
    intro i hi1 hi2
    have := flipped_testBit f g hlen i hi1 (by omega)
    rwa [lf] at this
  obtain ⟨b, hb, he⟩ := window_split25 (beNat f ^^^ beNat g) (112 - (p + 24)) (by
    intro j hj
    have hj8 : j < 112 := by
      by_contra hn
      rw [lf] at hlt
      rw [Nat.testBit_lt_two_pow (Nat.lt_of_lt_of_le hlt (Nat.pow_le_pow_right (by decide) (by omega)))] at hj
      cases hj
    by_contra hn
    have hb := (hfl (112 - j) (by omega) (by omega)).2 (by rwa [show 112 - (112 - j) = j by omega])
    exact hb (hag (112 - j) (by omega) (by omega) (by omega)))
  have hbit : ∀ j, j ≤ 24 → (bit f (p + j) ≠ bit g (p + j) ↔ b.testBit (24 - j) = true) := by
    intro j hj
    rw [hfl (p + j) (by omega) (by omega), he, Nat.testBit_mul_two_pow]
    rw [show 112 - (p + j) - (112 - (p + 24)) = 24 - j by omega]
    have : 112 - (p + 24) ≤ 112 - (p + j) := by omega
    rw [decide_eq_true this, Bool.true_and]
  have hb0 : b ≠ 0 := by
    rintro rfl
    rw [Nat.zero_mul] at he
    exact h0 he
  have hdv : generator ∣ polyOf (beNat f ^^^ beNat g) ↔ b = 0x1FFF409 := by
    rw [he, polyOf_shift, ← dvd25 b hb hb0]
    exact ⟨dvd_of_dvd_mul_pow _ _, fun h => h.mul_right _⟩
  rw [hdv]
  have hgen : ∀ j ≤ 24, (Nat.testBit 0x1FFF409 (24 - j) = true ↔ j ∈ generatorOffsets) := by decide
  constructor
  · rintro rfl j hj
    rw [hbit j hj, hgen j hj]
  · intro h
    apply Nat.eq_of_testBit_eq
    intro k
    by_cases hk : k ≤ 24
    · have h1 := hbit (24 - k) (by omega)
      rw [h (24 - k) (by omega), ← hgen (24 - k) (by omega), show 24 - (24 - k) = k by omega] at h1
      cases hx : b.testBit k <;> cases hy : Nat.testBit 0x1FFF409 k <;> simp_all
    · rw [Nat.testBit_lt_two_pow (Nat.lt_of_lt_of_le hb (Nat.pow_le_pow_right (by decide) (by omega))),
        Nat.testBit_lt_two_pow (Nat.lt_of_lt_of_le (show 0x1FFF409 < 2 ^ 25 by decide) (Nat.pow_le_pow_right (by decide) (by omega)))]

/-- C97. For every content of an extended squitter there is exactly one parity field that passes. -/
theorem squitter_parity_unique (h : List UInt8) (hl : h.length = 11) (hdf : bits h 1 5 = 17 ∨ bits h 1 5 = 18) :
    ∃! p : List UInt8, p.length = 3 ∧ ∃ a, Passes (h ++ p) a := by
  have hb : ∀ p : List UInt8, p.length = 3 → bits (h ++ p) 1 5 = bits h 1 5 := by
    intro p hp
    have hpb := beNat_bound p
    unfold bits
    rw [beNat_cat, List.length_append, hl, hp]
    rw [hp] at hpb
    rw [show 8 * (11 + 3) - 5 = 24 + (8 * 11 - 5) by omega, Nat.pow_add, ← Nat.div_div_eq_div_mul]
    rw [show (beNat h * 2 ^ (8 * 3) + beNat p) / 2 ^ 24 = beNat h by omega]
  have hiff : ∀ p : List UInt8, p.length = 3 → ((∃ a, Passes (h ++ p) a) ↔ parityPoly h = messagePoly p) := by
    intro p hp
    rw [passes_iff_dvd (h ++ p) (by rw [List.length_append, hl, hp]) (by rw [hb p hp]; exact hdf), divisible_iff h p hp]
  obtain ⟨c, -, hc, hp⟩ := computeParity_is_crc h (by omega)
  have hp : polyOf c.toNat = parityPoly h := hp
  have hn : ∀ p : List UInt8, p.length = 3 → ((∃ a, Passes (h ++ p) a) ↔ beNat p = c.toNat) := by
    intro p hpl
    rw [hiff p hpl, ← hp]
    exact ⟨fun e => (polyOf_inj _ _ e).symm, fun e => by rw [messagePoly, e]⟩
  refine ⟨[UInt8.ofNat (c.toNat / 65536), UInt8.ofNat (c.toNat / 256), UInt8.ofNat c.toNat], ⟨rfl, ?_⟩, ?_⟩
  · rw [hn _ rfl]
    simp only [beNat, List.length_cons, List.length_nil, UInt8.toNat_ofNat']
    omega
  · rintro p ⟨hpl, hpp⟩
    rw [hn p hpl] at hpp
    apply beNat_inj _ _ hpl
    rw [hpp]
    simp only [beNat, List.length_cons, List.length_nil, UInt8.toNat_ofNat']
    omega

/-- Six bits whose change leaves the parity of a fourteen-byte frame unchanged. -/
def sixBits : List UInt8 := [0, 0, 0, 0, 0, 0x08, 0x32, 0, 0, 0, 0, 0x01, 0, 0x08]

theorem sixBits_dvd : generator ∣ polyOf (beNat sixBits) := by
  have h1 := (passes_iff_dvd squitterFrame rfl (by decide)).1 ⟨0x4840D6, _, rfl, by decide +kernel⟩
  have h2 := (passes_iff_dvd (xorBytes squitterFrame sixBits) (by decide) (by decide +kernel)).1 ⟨0x4840D6, _, rfl, by decide +kernel⟩
  have : messagePoly squitterFrame + messagePoly (xorBytes squitterFrame sixBits) = polyOf (beNat sixBits) := by
    unfold messagePoly
    rw [← polyOf_xor]
    congr 1
  rw [← this]
  exact dvd_add h1 h2

/-- C97. The distance of six is attained: for every extended squitter that passes there is another one, of the same format and
from the same address, that passes too and differs in exactly six bits. -/
theorem squitter_distance_attained (f : List UInt8) (a : UInt32) (hf : bits f 1 5 = 17 ∨ bits f 1 5 = 18) (pf : Passes f a) :
    ∃ g, g.length = f.length ∧ g ≠ f ∧ bits g 1 5 = bits f 1 5 ∧ Passes g a ∧ hamming f g = 6 := by
  obtain ⟨lf, -⟩ := squitter_overlaid f a hf pf
  have hl : (xorBytes f sixBits).length = f.length := by rw [xorBytes, List.length_zipWith, lf]; rfl
  have hx : beNat f ^^^ beNat (xorBytes f sixBits) = beNat sixBits := by
    rw [beNat_xorBytes f sixBits (by rw [lf]; rfl), ← Nat.xor_assoc, Nat.xor_self, Nat.zero_xor]
  have hbits : ∀ i j, j ≤ 32 → bits (xorBytes f sixBits) i j = bits f i j := by
    intro i j hj
    unfold bits
    rw [hl, beNat_xorBytes f sixBits (by rw [lf]; rfl), Nat.xor_div_two_pow,
      Nat.div_eq_of_lt (a := beNat sixBits) (Nat.lt_of_lt_of_le (show beNat sixBits < 2 ^ 80 by decide)
        (Nat.pow_le_pow_right (by decide) (by omega))), Nat.xor_zero]
  have hg : bits (xorBytes f sixBits) 1 5 = 17 ∨ bits (xorBytes f sixBits) 1 5 = 18 := by rw [hbits 1 5 (by decide)]; exact hf
  have hham : hamming f (xorBytes f sixBits) = 6 := by
    have : hamming f (xorBytes f sixBits) = ((Finset.Icc 1 112).filter (fun i => (beNat sixBits).testBit (112 - i) = true)).card := by
      unfold hamming
      rw [lf]
      refine congrArg Finset.card (Finset.filter_congr fun i hi => ?_)
      have hi := Finset.mem_Icc.1 hi
      rw [flipped_testBit f _ hl i hi.1 (by omega), hx, lf]
    rw [this]
    decide +kernel
  refine ⟨xorBytes f sixBits, hl, ?_, hbits 1 5 (by decide), ?_, hham⟩
  · intro he
    rw [he, Nat.xor_self] at hx
    exact absurd hx (by decide)
  · have hd : generator ∣ errorPoly f (xorBytes f sixBits) := by rw [errorPoly_eq f _ hl, hx]; exact sixBits_dvd
    obtain ⟨b, m, hm, hc⟩ := (squitter_undetected_iff f _ a hf pf hl hg).2 hd
    obtain ⟨m0, hm0, hc0⟩ := pf
    have e0 := ((checkCRC_squitter f m0 hm0 hf [] []).2.1 a).1 hc0
    exact ⟨m, hm, ((checkCRC_squitter _ m hm hg [] []).2.1 a).2 ⟨(((checkCRC_squitter _ m hm hg [] []).2.1 b).1 hc).1,
      by rw [hbits 9 32 (by decide)]; exact e0.2⟩⟩

/-- A frame with the code `a` overlaid on its parity is a multiple of the generator plus `a`. -/
theorem overlaid_split (f : List UInt8) (h3 : 3 ≤ f.length) (a : Nat) (hf : Overlaid f a) :
    ∃ q, polyOf (beNat f) = generator * q + polyOf a := by
  have hp : (f.drop (f.length - 3)).length = 3 := by rw [List.length_drop]; omega
  have e := messagePoly_append (f.take (f.length - 3)) _ hp
  rw [frame_split] at e
  have e2 : messagePoly (f.drop (f.length - 3)) = parityPoly (f.take (f.length - 3)) + polyOf a := hf.2
  rw [e2] at e
  have hm : parityPoly (f.take (f.length - 3)) + generator * (messagePoly (f.take (f.length - 3)) * X ^ 24 /ₘ generator) =
    messagePoly (f.take (f.length - 3)) * X ^ 24 := modByMonic_add_div (messagePoly (f.take (f.length - 3)) * X ^ 24) generator
  refine ⟨messagePoly (f.take (f.length - 3)) * X ^ 24 /ₘ generator, ?_⟩
  show messagePoly f = _
  rw [e]
  conv_lhs => lhs; rw [← hm]
  generalize parityPoly (f.take (f.length - 3)) = p
  generalize generator * (messagePoly (f.take (f.length - 3)) * X ^ 24 /ₘ generator) = q
  rw [show p + q + (p + polyOf a) = p + p + (q + polyOf a) by ring, add_self_poly, zero_add]

/-- C97. In a format whose address is overlaid on the parity, a corruption is never refused: it turns the address that
`CheckCRC` gives into another one, and the bits by which the address changes are the remainder of the error polynomial. -/
theorem overlaid_corruption_shifts_address (f g : List UInt8) (a b : UInt32)
    (hf : bits f 1 5 ≠ 11 ∧ bits f 1 5 ≠ 17 ∧ bits f 1 5 ≠ 18) (hg : bits g 1 5 ≠ 11 ∧ bits g 1 5 ≠ 17 ∧ bits g 1 5 ≠ 18)
    (hlen : g.length = f.length) (pf : Passes f a) (pg : Passes g b) :
    polyOf (a ^^^ b).toNat = errorPoly f g %ₘ generator := by
  obtain ⟨mf, hmf, hcf⟩ := pf
  obtain ⟨mg, hmg, hcg⟩ := pg
  have h3 : 3 ≤ f.length := by
    rcases ((readMessage_accepts_iff f).1 ⟨mf, hmf⟩).1 with h | h <;> omega
  obtain ⟨ha, -⟩ := ((checkCRC_overlaid f mf hmf hf [] []).2 a).1 hcf
  obtain ⟨hb, -⟩ := ((checkCRC_overlaid g mg hmg hg [] []).2 b).1 hcg
  obtain ⟨q, hq⟩ := overlaid_split f h3 _ ha
  obtain ⟨r, hr⟩ := overlaid_split g (by omega) _ hb
  symm
  apply modByMonic_eq_of
  · exact polyOf_degree _ 24 (by rw [UInt32.toNat_xor]; exact Nat.xor_lt_two_pow ha.1 hb.1)
  · rw [errorPoly_eq f g hlen, polyOf_xor, UInt32.toNat_xor, polyOf_xor, hq, hr]
    exact ⟨q + r, by ring⟩

/-- C97. ... and every frame that is read in such a format gets some address. -/
theorem overlaid_never_refused (g : List UInt8) (m : ModeSMessage) (h : readMessage g = .ok m)
    (hg : bits g 1 5 ≠ 11 ∧ bits g 1 5 ≠ 17 ∧ bits g 1 5 ≠ 18) : ∃ b, Passes g b := by
  have h6 : 6 ≤ g.length := by
    rcases ((readMessage_accepts_iff g).1 ⟨m, h⟩).1 with h | h <;> omega
  obtain ⟨a, ha, -⟩ := overlaid_exists g h6
  have e : (UInt32.ofNat a).toNat = a := by
    rw [UInt32.toNat_ofNat']
    exact Nat.mod_eq_of_lt (Nat.lt_trans ha.1 (by decide))
  exact ⟨UInt32.ofNat a, m, h, ((checkCRC_overlaid g m h hg [] []).2 _).2 ⟨by rw [e]; exact ha, Or.inl rfl⟩⟩

/-! Concrete cases. -/

def sixFrame : List UInt8 := [0x8D, 0x48, 0x40, 0xD6, 0x20, 0x24, 0xF1, 0x71, 0xC3, 0x2C, 0xE0, 0x56, 0x60, 0x90]
def burstFrame : List UInt8 := [0x8D, 0x48, 0x40, 0xD6, 0x20, 0x2C, 0xC3, 0x71, 0xC3, 0x2C, 0xE1, 0xA8, 0x94, 0x91]
def oddFrame : List UInt8 := [0x8D, 0x48, 0x40, 0xD6, 0x20, 0x2C, 0xC3, 0x71, 0xC3, 0x2C, 0xE1, 0x57, 0x60, 0x98]

example : generator ∣ errorPoly squitterFrame sixFrame :=
  (squitter_undetected_iff squitterFrame sixFrame 0x4840D6 (by decide) ⟨_, rfl, by decide +kernel⟩ rfl (by decide +kernel)).1
    ⟨0x4840D6, _, rfl, by decide +kernel⟩

example : ¬ ∃ b, Passes oddFrame b :=
  squitter_odd_detected squitterFrame oddFrame 0x4840D6 (by decide) ⟨_, rfl, by decide +kernel⟩ rfl (by decide) (by decide +kernel)

example : ones squitterFrame % 2 = 0 := squitter_even squitterFrame 0x4840D6 (by decide) ⟨_, rfl, by decide +kernel⟩

/-- The generator flipped at the end of the frame: 0x1FFF409 over the last 25 bits. -/
example : ∃ b, Passes burstFrame b :=
  (squitter_burst25 squitterFrame burstFrame 0x4840D6 (by decide) ⟨_, rfl, by decide +kernel⟩ rfl (by decide) (by decide) 88 (by decide)
    (by decide) (by decide +kernel)).2 (by decide +kernel)

example : ∃! p : List UInt8, p.length = 3 ∧ ∃ a, Passes ([0x8D, 0x48, 0x40, 0xD6, 0x20, 0x2C, 0xC3, 0x71, 0xC3, 0x2C, 0xE0] ++ p) a :=
  squitter_parity_unique _ rfl (by decide)

example : ∃ g, g.length = squitterFrame.length ∧ g ≠ squitterFrame ∧ bits g 1 5 = bits squitterFrame 1 5 ∧ Passes g 0x4840D6 ∧
    hamming squitterFrame g = 6 := squitter_distance_attained squitterFrame _ (by decide) ⟨_, rfl, by decide +kernel⟩

/-- A surveillance reply (DF20) whose bit 88 was changed: the address moves by the generator without its leading term. -/
def df20Shifted : List UInt8 := [0xA0, 0x00, 0x0F, 0x38, 0x20, 0x2C, 0xC3, 0x71, 0xC3, 0x2C, 0xE1, 0x11, 0x22, 0x33]

example : ∃ a b, Passes df20Frame a ∧ Passes df20Shifted b ∧ polyOf (a ^^^ b).toNat = errorPoly df20Frame df20Shifted %ₘ generator ∧
    a ^^^ b = 0xFFF409 := by
  obtain ⟨a, ha⟩ : ∃ a, Passes df20Frame a ∧ a = 0xD0F737 := ⟨_, ⟨_, rfl, rfl⟩, by decide +kernel⟩
  obtain ⟨b, hb⟩ : ∃ b, Passes df20Shifted b ∧ b = 0x2F033E := ⟨_, ⟨_, rfl, rfl⟩, by decide +kernel⟩
  exact ⟨a, b, ha.1, hb.1, overlaid_corruption_shifts_address _ _ a b (by decide) (by decide) rfl ha.1 hb.1, by rw [ha.2, hb.2]; decide⟩

example : ∃ b, Passes df20Shifted b := overlaid_never_refused _ _ rfl (by decide)

end Modes
