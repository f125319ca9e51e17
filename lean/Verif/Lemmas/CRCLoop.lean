import Verif.Lemmas.CRC
set_option linter.unusedSimpArgs false
open Polynomial Spec
namespace Modes

/-! ### Bytes of a big-endian number -/

theorem beNat_bound (l : List UInt8) : beNat l < 2 ^ (8 * l.length) := by
  induction l with
  | nil => simp [beNat]
  | cons b l ih =>
    have hb := byte_lt b
    simp only [beNat, List.length_cons, Nat.mul_add, Nat.pow_add]
    have : b.toNat * 2 ^ (8 * l.length) ≤ 255 * 2 ^ (8 * l.length) := Nat.mul_le_mul_right _ (by omega)
    omega

theorem beNat_cat (l r : List UInt8) : beNat (l ++ r) = beNat l * 2 ^ (8 * r.length) + beNat r := by
  induction l with
  | nil => simp [beNat]
  | cons b l ih =>
    simp only [List.cons_append, beNat, List.length_append, ih, Nat.mul_add, Nat.pow_add, Nat.add_mul]
    ring

/-- Byte `k` of a string. -/
theorem beNat_byte (d : List UInt8) (k : Nat) (h : k < d.length) :
    beNat d / 2 ^ (8 * (d.length - 1 - k)) % 256 = d[k].toNat := by
  have e : d = d.take k ++ (d[k] :: d.drop (k + 1)) := by
    rw [List.getElem_cons_drop, List.take_append_drop]
  have hl : (d.drop (k + 1)).length = d.length - 1 - k := by rw [List.length_drop]; omega
  have hb := beNat_bound (d.drop (k + 1))
  have hk := byte_lt d[k]
  have : beNat d = (beNat (d.take k) * 256 + d[k].toNat) * 2 ^ (8 * (d.length - 1 - k)) + beNat (d.drop (k + 1)) := by
    conv_lhs => rw [e]
    rw [beNat_cat, beNat, List.length_cons, hl]
    rw [Nat.mul_add 8, Nat.pow_add]
    ring
  rw [hl] at hb
  rw [this, Nat.mul_comm, Nat.mul_add_div (Nat.two_pow_pos _), Nat.div_eq_of_lt hb]
  omega

/-- The prefix of the padded message consumed before turn `i` (`K = 24`, kept abstract for the elaborator). -/
theorem prefix_step (d : List UInt8) (K : Nat) (hK : K = 24) (h3 : 3 ≤ d.length) (i : Nat) (hi : i < d.length * 8) :
    beNat d * 2 ^ K / 2 ^ (8 * d.length - (i + 1)) = 2 * (beNat d * 2 ^ K / 2 ^ (8 * d.length - i)) + nextBit d i := by
  have e : 8 * d.length - i = (8 * d.length - (i + 1)) + 1 := by omega
  have e' : beNat d * 2 ^ K / 2 ^ (8 * d.length - i) = beNat d * 2 ^ K / 2 ^ (8 * d.length - (i + 1)) / 2 := by
    rw [e, Nat.pow_succ, Nat.div_div_eq_div_mul]
  rw [e']
  have hb : beNat d * 2 ^ K / 2 ^ (8 * d.length - (i + 1)) % 2 = nextBit d i := by
    unfold nextBit
    by_cases hk : (24 + i) / 8 < d.length
    · rw [List.getElem?_eq_getElem hk]
      simp only
      have hbyte := beNat_byte d _ hk
      rw [← hbyte]
      have e1 : 8 * d.length - (i + 1) = (8 * d.length - (i + 1) - 24) + K := by omega
      rw [e1, Nat.pow_add, Nat.mul_div_mul_right _ _ (Nat.two_pow_pos _)]
      have e2 : 8 * d.length - (i + 1) - 24 = 8 * (d.length - 1 - (24 + i) / 8) + (7 - i % 8) := by omega
      rw [e2, Nat.pow_add, ← Nat.div_div_eq_div_mul]
      generalize beNat d / 2 ^ (8 * (d.length - 1 - (24 + i) / 8)) = q
      have hr : i % 8 < 8 := Nat.mod_lt _ (by decide)
      generalize i % 8 = r at hr
      interval_cases r <;> simp only [Nat.reduceSub, Nat.reducePow] <;> omega
    · rw [List.getElem?_eq_none (by omega)]
      simp only
      have e1 : beNat d * 2 ^ K = beNat d * 2 ^ (K - (8 * d.length - (i + 1)) - 1) * 2 * 2 ^ (8 * d.length - (i + 1)) := by
        rw [Nat.mul_assoc, Nat.mul_assoc, ← Nat.pow_succ', ← Nat.pow_add]
        congr 2
        omega
      rw [e1, Nat.mul_div_cancel _ (Nat.two_pow_pos _)]
      omega
  omega

/-- Invariant of the loop. -/
theorem crc_loop (d : List UInt8) (T : Nat)
    (hT : ∀ i, i < d.length * 8 → T / 2 ^ (8 * d.length - (i + 1)) = 2 * (T / 2 ^ (8 * d.length - i)) + nextBit d i)
    (c : CrcReg) (hc : c.num = T / 2 ^ (8 * d.length)) (n : Nat) (hn : n ≤ d.length * 8) :
    generator ∣ polyOf ((List.range n).foldl (crcStep d) c).num - polyOf (T / 2 ^ (8 * d.length - n)) := by
  induction n with
  | zero =>
    rw [List.range_zero, List.foldl_nil, hc, Nat.sub_zero, sub_self]
    exact dvd_zero _
  | succ n ih =>
    have ih := ih (by omega)
    rw [List.range_succ, List.foldl_append, List.foldl_cons, List.foldl_nil]
    generalize (List.range n).foldl (crcStep d) c = r at ih
    have hs := crcStep_poly d r n
    rw [hT n (by omega)]
    generalize T / 2 ^ (8 * d.length - n) = t at ih
    have hb : nextBit d n < 2 ^ 1 := by
      unfold nextBit; split <;> omega
    generalize nextBit d n = b at hs hb
    have e1 : ∀ m : Nat, polyOf (2 * m + b) = polyOf m * X + polyOf b := by
      intro m
      have := polyOf_append m b 1 hb
      rw [Nat.pow_one, Nat.mul_comm m 2, pow_one] at this
      exact this
    have h2 : generator ∣ polyOf (2 * r.num + b) - polyOf (2 * t + b) := by
      rw [e1, e1]
      have : polyOf r.num * X + polyOf b - (polyOf t * X + polyOf b) = (polyOf r.num - polyOf t) * X := by ring
      rw [this]
      exact Dvd.dvd.mul_right ih X
    have := dvd_add hs h2
    rwa [sub_add_sub_cancel] at this

theorem init_num (b0 b1 b2 : UInt8) (rest : List UInt8) (K : Nat) (hK : K = 24) :
    (CrcReg.mk b0 b1 b2).num = beNat (b0 :: b1 :: b2 :: rest) * 2 ^ K / 2 ^ (8 * (b0 :: b1 :: b2 :: rest).length) := by
  have hb := beNat_bound rest
  have e : 8 * (b0 :: b1 :: b2 :: rest).length = 8 * rest.length + K := by simp only [List.length_cons]; omega
  rw [e, Nat.pow_add, Nat.mul_div_mul_right _ _ (Nat.two_pow_pos _)]
  have e2 : beNat (b0 :: b1 :: b2 :: rest) = (b0.toNat * 65536 + b1.toNat * 256 + b2.toNat) * 2 ^ (8 * rest.length)
      + beNat rest := by
    simp only [beNat, List.length_cons, Nat.mul_add, Nat.pow_add]
    ring
  rw [e2, Nat.mul_comm, Nat.mul_add_div (Nat.two_pow_pos _), Nat.div_eq_of_lt hb]
  simp only [CrcReg.num, Nat.add_zero]

theorem computeParity_aux (d : List UInt8) (K : Nat) (hK : K = 24) (h3 : 3 ≤ d.length) :
    ∃ c : UInt32, computeParity d = .ok c ∧ c.toNat < 2 ^ K ∧
      polyOf c.toNat = (messagePoly d * X ^ K) %ₘ generator := by
  match d, h3 with
  | b0 :: b1 :: b2 :: rest, h3 =>
    unfold computeParity
    simp only [idx, List.getElem?_cons_succ, List.getElem?_cons_zero, bind, Except.bind, pure, Except.pure]
    have hc := init_num b0 b1 b2 rest K hK
    generalize b0 :: b1 :: b2 :: rest = d at *
    have inv := crc_loop d (beNat d * 2 ^ K) (fun i hi => prefix_step d K hK h3 i hi) ⟨b0, b1, b2⟩ hc (d.length * 8)
      (le_refl _)
    generalize (List.range (d.length * 8)).foldl (crcStep d) ⟨b0, b1, b2⟩ = r at inv
    have hlt := r.num_lt
    have hn : (pack3 r.c0 r.c1 r.c2).toNat = r.num := by
      have h0 := byte_lt r.c0
      have h1 := byte_lt r.c1
      have h2 := byte_lt r.c2
      unfold CrcReg.num
      bytes_nat
      omega
    refine ⟨_, rfl, by rw [hn, hK]; exact hlt, ?_⟩
    rw [hn]
    symm
    unfold messagePoly
    rw [show 8 * d.length - d.length * 8 = 0 by omega, Nat.pow_zero, Nat.div_one, polyOf_shift] at inv
    refine modByMonic_eq_of _ _ (polyOf_degree _ _ hlt) ?_
    rw [← neg_sub]
    exact (dvd_neg).2 inv

/-- `computeParity` is the remainder of the padded message by the generator. -/
theorem computeParity_spec (d : List UInt8) (h3 : 3 ≤ d.length) :
    ∃ c : UInt32, computeParity d = .ok c ∧ c.toNat < 2 ^ 24 ∧ polyOf c.toNat = parityPoly d :=
  computeParity_aux d 24 rfl h3

end Modes
