import Verif.Model.CRC
import Verif.Spec.CRC
import Verif.Lemmas.Bits
import Mathlib.Algebra.Polynomial.Monic
import Mathlib.Algebra.Polynomial.Degree.Lemmas
import Mathlib.Algebra.CharP.Two
import Mathlib.Tactic.IntervalCases
import Mathlib.Tactic.Ring
import Mathlib.RingTheory.Polynomial.Basic
/-! The shift register of `computeParity` computes the remainder by the generator. -/
set_option linter.unusedSimpArgs false
open Polynomial Spec
namespace Modes

/-! ### Polynomials of numbers -/

theorem polyOf_coeff (n i : Nat) : (polyOf n).coeff i = if n.testBit i then 1 else 0 := by
  unfold polyOf
  rw [finsetSum_coeff]
  by_cases hi : i < n.size
  · rw [Finset.sum_eq_single i]
    · split <;> simp
    · intro j _ hj
      split
      · rw [coeff_X_pow, if_neg (Ne.symm hj)]
      · simp
    · intro h; exact absurd (Finset.mem_range.2 hi) h
  · have hlt : n < 2 ^ i := Nat.size_le.1 (by omega)
    rw [Nat.testBit_lt_two_pow hlt]
    rw [Finset.sum_eq_zero]
    · simp
    · intro j hj
      have : j ≠ i := by have := Finset.mem_range.1 hj; omega
      split
      · rw [coeff_X_pow, if_neg (Ne.symm this)]
      · simp

theorem polyOf_inj (a b : Nat) (h : polyOf a = polyOf b) : a = b := by
  apply Nat.eq_of_testBit_eq
  intro i
  have := congrArg (fun p => p.coeff i) h
  simp only [polyOf_coeff] at this
  cases ha : a.testBit i <;> cases hb : b.testBit i <;> simp [ha, hb] at this ⊢

theorem polyOf_zero : polyOf 0 = 0 := by
  ext i; simp [polyOf_coeff]

theorem polyOf_xor (a b : Nat) : polyOf (a ^^^ b) = polyOf a + polyOf b := by
  ext i
  rw [coeff_add, polyOf_coeff, polyOf_coeff, polyOf_coeff, Nat.testBit_xor]
  have h2 : (1 : ZMod 2) + 1 = 0 := by decide
  cases a.testBit i <;> cases b.testBit i <;> simp [h2]

theorem polyOf_shift (a s : Nat) : polyOf (a * 2 ^ s) = polyOf a * X ^ s := by
  ext i
  rw [coeff_mul_X_pow', polyOf_coeff, Nat.testBit_mul_two_pow]
  by_cases h : s ≤ i
  · simp [h, polyOf_coeff]
  · simp [h]

theorem add_eq_xor (a b s : Nat) (hb : b < 2 ^ s) : a * 2 ^ s + b = (a * 2 ^ s) ^^^ b := by
  apply Nat.eq_of_testBit_eq
  intro i
  rw [Nat.testBit_xor, Nat.testBit_mul_two_pow]
  by_cases h : s ≤ i
  · have : b.testBit i = false := Nat.testBit_lt_two_pow (Nat.lt_of_lt_of_le hb (Nat.pow_le_pow_right (by decide) h))
    rw [this, Nat.mul_comm, Nat.testBit_two_pow_mul_add _ hb]
    have h' : ¬ i < s := by omega
    simp [h, h']
  · rw [Nat.mul_comm, Nat.testBit_two_pow_mul_add _ hb]
    have h' : i < s := by omega
    simp [h, h']

theorem polyOf_append (a b s : Nat) (hb : b < 2 ^ s) : polyOf (a * 2 ^ s + b) = polyOf a * X ^ s + polyOf b := by
  rw [add_eq_xor a b s hb, polyOf_xor, polyOf_shift]

theorem polyOf_degree (n k : Nat) (h : n < 2 ^ k) : (polyOf n).degree < k := by
  rw [degree_lt_iff_coeff_zero]
  intro i hi
  rw [polyOf_coeff, Nat.testBit_lt_two_pow (Nat.lt_of_lt_of_le h (Nat.pow_le_pow_right (by decide) hi))]
  rfl

/-! ### The generator -/

theorem generator_eq : generator = polyOf 0x1FFF409 := by
  ext i
  rw [polyOf_coeff]
  unfold generator
  simp only [coeff_add, finsetSum_coeff, coeff_X_pow, coeff_one]
  by_cases hi : i < 25
  · have : ∀ i < 25, ((((if i = 24 then (1 : ZMod 2) else 0) + ∑ x ∈ Finset.Icc 12 23, if i = x then (1 : ZMod 2) else 0) +
        (if i = 10 then 1 else 0)) + (if i = 3 then 1 else 0)) + (if i = 0 then 1 else 0) =
        if Nat.testBit 0x1FFF409 i then 1 else 0 := by decide +kernel
    exact this i hi
  · have h1 : Nat.testBit 0x1FFF409 i = false :=
      Nat.testBit_lt_two_pow (Nat.lt_of_lt_of_le (by decide : 0x1FFF409 < 2 ^ 25) (Nat.pow_le_pow_right (by decide) (by omega)))
    rw [h1, if_neg (by omega), if_neg (by omega), if_neg (by omega), if_neg (by omega), Finset.sum_eq_zero]
    · simp
    · intro x hx
      rw [Finset.mem_Icc] at hx
      rw [if_neg (by omega)]

theorem generator_eq' : generator = X ^ 24 + polyOf 0xFFF409 := by
  rw [generator_eq, show (0x1FFF409 : Nat) = 1 * 2 ^ 24 + 0xFFF409 by decide, polyOf_append _ _ _ (by decide)]
  have : polyOf 1 = 1 := by
    ext i
    rw [polyOf_coeff, coeff_one]
    cases i with
    | zero => simp
    | succ i => simp [Nat.testBit_succ]
  rw [this, one_mul]

theorem generator_monic : generator.Monic := by
  rw [generator_eq']
  exact monic_X_pow_add (polyOf_degree _ _ (by decide))

theorem generator_degree : generator.degree = 24 := by
  rw [generator_eq']
  rw [degree_add_eq_left_of_degree_lt (by rw [degree_X_pow]; exact polyOf_degree _ _ (by decide)), degree_X_pow]
  rfl

theorem generator_coeff_zero : generator.coeff 0 = 1 := by
  rw [generator_eq, polyOf_coeff]
  decide

/-- A polynomial of low degree congruent to another modulo the generator is its remainder. -/
theorem modByMonic_eq_of (r f : (ZMod 2)[X]) (hr : r.degree < 24) (h : generator ∣ f - r) : f %ₘ generator = r := by
  obtain ⟨q, hq⟩ := h
  have h2 : r + generator * q = f := by rw [← hq]; exact add_sub_cancel r f
  exact (div_modByMonic_unique q r generator_monic ⟨h2, by rw [generator_degree]; exact hr⟩).2

/-! ### The register as a number -/

/-- The register as a 24-bit number. -/
def CrcReg.num (c : CrcReg) : Nat := c.c0.toNat * 65536 + c.c1.toNat * 256 + c.c2.toNat

theorem CrcReg.num_lt (c : CrcReg) : c.num < 2 ^ 24 := by
  have h0 := byte_lt c.c0
  have h1 := byte_lt c.c1
  have h2 := byte_lt c.c2
  unfold CrcReg.num
  omega

/-- `x << 1 | bit` -/
theorem shl1_or (x b : UInt8) (hb : b.toNat ≤ 1) : ((x <<< 1) ||| b).toNat = x.toNat * 2 % 256 + b.toNat := by
  rw [UInt8.toNat_or]
  have hx := byte_lt x
  have e1 : (x <<< 1).toNat = (x.toNat % 128) <<< 1 := by
    rw [Nat.shiftLeft_eq]; bytes_nat; omega
  rw [e1, ← Nat.shiftLeft_add_eq_or_of_lt (by omega), Nat.shiftLeft_eq]
  omega

theorem top_bit (x : UInt8) : ((x >>> 7) &&& 1).toNat = x.toNat / 128 := by
  have hx := byte_lt x
  bytes_nat
  omega

theorem xor_block (a b a' b' s : Nat) (hb : b < 2 ^ s) (hb' : b' < 2 ^ s) :
    (a * 2 ^ s + b) ^^^ (a' * 2 ^ s + b') = (a ^^^ a') * 2 ^ s + (b ^^^ b') := by
  rw [add_eq_xor _ _ _ hb, add_eq_xor _ _ _ hb', add_eq_xor _ _ _ (Nat.xor_lt_two_pow hb hb')]
  have : (a ^^^ a') * 2 ^ s = (a * 2 ^ s) ^^^ (a' * 2 ^ s) := by
    apply Nat.eq_of_testBit_eq
    intro i
    simp only [Nat.testBit_xor, Nat.testBit_mul_two_pow]
    cases decide (s ≤ i) <;> simp
  rw [this]
  ac_rfl

/-- The input bit of turn `i`. -/
def nextBit (data : List UInt8) (i : Nat) : Nat :=
  match data[(24 + i) / 8]? with
  | some b => b.toNat / 2 ^ (7 - i % 8) % 2
  | none => 0

theorem crcStep_num (data : List UInt8) (c : CrcReg) (i : Nat) :
    (crcStep data c i).num =
      if 2 ^ 23 ≤ c.num then (2 * c.num + nextBit data i) ^^^ 0x1FFF409 else 2 * c.num + nextBit data i := by
  have h0 := byte_lt c.c0
  have h1 := byte_lt c.c1
  have h2 := byte_lt c.c2
  -- the low byte
  have hlow : ∃ x : UInt8, crcNextBit data (c.c2 <<< 1) i = x ∧ x.toNat = c.c2.toNat * 2 % 256 + nextBit data i ∧ nextBit data i ≤ 1 := by
    unfold nextBit crcNextBit
    simp only
    cases hd : data[(3 * 8 + i) / 8]? with
    | none =>
      have hd' : data[(24 + i) / 8]? = none := hd
      refine ⟨_, rfl, ?_, ?_⟩
      · simp only [hd']
        bytes_nat
      · simp only [hd']; omega
    | some b =>
      have hd' : data[(24 + i) / 8]? = some b := hd
      have hs : (UInt8.ofNat (7 - i % 8)).toNat = 7 - i % 8 := by
        rw [UInt8.toNat_ofNat']; omega
      have e : ((b >>> UInt8.ofNat (7 - i % 8)) &&& 0x1).toNat = b.toNat / 2 ^ (7 - i % 8) % 2 := by
        rw [UInt8.toNat_and, UInt8.toNat_shiftRight, hs, Nat.mod_eq_of_lt (by omega : 7 - i % 8 < 8),
          Nat.shiftRight_eq_div_pow]
        exact land_1 _
      refine ⟨_, rfl, ?_, ?_⟩
      · simp only [hd']
        rw [shl1_or _ _ (by rw [e]; omega), e]
      · simp only [hd']; omega
  obtain ⟨x, hx, hxn, hb⟩ := hlow
  unfold crcStep
  simp only [hx]
  generalize nextBit data i = nb at hxn hb
  have e1 := shl1_or c.c0 ((c.c1 >>> 7) &&& 0x1) (by rw [top_bit]; omega)
  have e2 := shl1_or c.c1 ((c.c2 >>> 7) &&& 0x1) (by rw [top_bit]; omega)
  rw [top_bit] at e1 e2
  generalize (c.c0 <<< 1) ||| ((c.c1 >>> 7) &&& 0x1) = y0 at e1
  generalize (c.c1 <<< 1) ||| ((c.c2 >>> 7) &&& 0x1) = y1 at e2
  have htop : ((c.c0 &&& 0x80) != 0) = true ↔ 2 ^ 23 ≤ c.num := by
    rw [bne_iff_ne, ne_eq, ← UInt8.toNat_inj]
    unfold CrcReg.num
    bytes_nat
    omega
  by_cases ht : 2 ^ 23 ≤ c.num
  · rw [if_pos ht, if_pos (htop.2 ht)]
    unfold CrcReg.num at ht ⊢
    simp only [UInt8.toNat_xor]
    have hy0 := byte_lt y0
    have hy1 := byte_lt y1
    have hx2 := byte_lt x
    have n1 : 2 * (c.c0.toNat * 65536 + c.c1.toNat * 256 + c.c2.toNat) + nb =
        1 * 2 ^ 24 + (y0.toNat * 2 ^ 16 + (y1.toNat * 2 ^ 8 + x.toNat)) := by omega
    rw [n1, show (0x1FFF409 : Nat) = 1 * 2 ^ 24 + (0xFF * 2 ^ 16 + (0xF4 * 2 ^ 8 + 0x09)) by decide]
    rw [xor_block _ _ _ _ _ (by omega) (by decide), xor_block _ _ _ _ _ (by omega) (by decide),
      xor_block _ _ _ _ _ (by omega) (by decide)]
    simp only [Nat.xor_self, Nat.zero_mul, Nat.zero_add, UInt8.reduceToNat, Nat.reducePow]
    omega
  · have hf : ((c.c0 &&& 0x80) != 0) = false := by
      cases h : ((c.c0 &&& 0x80) != 0) with
      | false => rfl
      | true => exact absurd (htop.1 h) ht
    rw [if_neg ht, hf]
    unfold CrcReg.num at ht ⊢
    simp only [Bool.false_eq_true, if_false]
    omega

theorem char_two_poly (p : (ZMod 2)[X]) : p + p = 0 := CharTwo.add_self_eq_zero p

/-- One turn multiplies by `x`, adds the input bit and reduces. -/
theorem crcStep_poly (data : List UInt8) (c : CrcReg) (i : Nat) :
    generator ∣ polyOf (crcStep data c i).num - polyOf (2 * c.num + nextBit data i) := by
  rw [crcStep_num]
  split
  · rw [polyOf_xor, ← generator_eq, add_sub_cancel_left]
  · rw [sub_self]; exact dvd_zero _

end Modes
