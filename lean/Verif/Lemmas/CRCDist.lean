import Verif.Lemmas.CRC
import Mathlib.Data.Finset.Sort
import Mathlib.Algebra.Polynomial.RingDivision
import Mathlib.Algebra.Polynomial.Eval.SMul
/-! Minimum distance of the Mode S code on 112 bits. -/
set_option linter.unusedSimpArgs false
open Polynomial Spec
namespace Modes

/-- `n` successive remainders of powers of `x`, starting from the remainder `r`. -/
def powTable : Nat → Nat → List Nat
  | 0, _ => []
  | n + 1, r => r :: powTable n (Nat.xor (2 * r) (Nat.mul (Nat.div (2 * r) 16777216) 0x1FFF409))

/-- No element of the list is `x`. -/
def none1 (x : Nat) : List Nat → Bool
  | [] => true
  | r :: l => bif Nat.beq r x then false else none1 x l

/-- No two elements (at increasing positions) of the list xor to `x`. -/
def none2 (x : Nat) : List Nat → Bool
  | [] => true
  | r :: l => bif none1 (Nat.xor x r) l then none2 x l else false

/-- No three elements (at increasing positions) of the list xor to `x`. -/
def none3 (x : Nat) : List Nat → Bool
  | [] => true
  | r :: l => bif none2 (Nat.xor x r) l then none3 x l else false

theorem xor_mid (r m : Nat) : (r ^^^ m) ^^^ r = m := by
  apply Nat.eq_of_testBit_eq
  intro i
  simp only [Nat.testBit_xor]
  cases r.testBit i <;> cases m.testBit i <;> rfl

theorem xor_zero_eq (a b : Nat) (h : a ^^^ b = 0) : a = b := by
  have := xor_mid b a
  rwa [Nat.xor_comm b a, h, Nat.zero_xor, eq_comm] at this

theorem none1_spec (x : Nat) (l : List Nat) (h : none1 x l = true) (i : Nat) (hi : i < l.length) : l[i] ≠ x := by
  induction l generalizing i with
  | nil => simp at hi
  | cons r l ih =>
    unfold none1 at h
    cases hb : Nat.beq r x
    · rw [hb, cond_false] at h
      cases i with
      | zero => intro e; rw [List.getElem_cons_zero] at e; rw [e] at hb; simp at hb
      | succ i => exact ih h i (by simpa using hi)
    · rw [hb] at h; simp at h

theorem none2_spec (x : Nat) (l : List Nat) (h : none2 x l = true) (i j : Nat) (hij : i < j) (hj : j < l.length) :
    l[i] ^^^ l[j] ≠ x := by
  induction l generalizing i j with
  | nil => simp at hj
  | cons r l ih =>
    unfold none2 at h
    cases hb : none1 (Nat.xor x r) l
    · rw [hb] at h; simp at h
    · rw [hb, cond_true] at h
      cases j with
      | zero => omega
      | succ j =>
        cases i with
        | zero =>
          have := none1_spec _ _ hb j (by simpa using hj)
          intro e
          rw [List.getElem_cons_zero, List.getElem_cons_succ] at e
          apply this
          rw [← e]
          exact (xor_mid _ _).symm
        | succ i => exact ih h i j (by omega) (by simpa using hj)

theorem none3_spec (x : Nat) (l : List Nat) (h : none3 x l = true) (i j k : Nat) (hij : i < j) (hjk : j < k)
    (hk : k < l.length) : l[i] ^^^ l[j] ^^^ l[k] ≠ x := by
  induction l generalizing i j k with
  | nil => simp at hk
  | cons r l ih =>
    unfold none3 at h
    cases hb : none2 (Nat.xor x r) l
    · rw [hb] at h; simp at h
    · rw [hb, cond_true] at h
      cases k with
      | zero => omega
      | succ k =>
        cases j with
        | zero => omega
        | succ j =>
          cases i with
          | zero =>
            have := none2_spec _ _ hb j k (by omega) (by simpa using hk)
            intro e
            simp only [List.getElem_cons_zero, List.getElem_cons_succ] at e
            apply this
            rw [← e]
            rw [Nat.xor_assoc r]
            exact (xor_mid _ _).symm
          | succ i => exact ih h i j k (by omega) (by omega) (by simpa using hk)

theorem powTable_length (n r : Nat) : (powTable n r).length = n := by
  induction n generalizing r with
  | zero => rfl
  | succ n ih => simp [powTable, ih]

theorem polyOf_one : polyOf 1 = 1 := by
  ext i
  rw [polyOf_coeff, coeff_one]
  cases i with
  | zero => simp
  | succ i => simp [Nat.testBit_succ]

/-- One more power of `x`. -/
theorem pow_step (r : Nat) (hr : r < 16777216) :
    (Nat.xor (2 * r) (Nat.mul (Nat.div (2 * r) 16777216) 0x1FFF409)) < 16777216 ∧
    generator ∣ polyOf (Nat.xor (2 * r) (Nat.mul (Nat.div (2 * r) 16777216) 0x1FFF409)) - polyOf r * X := by
  have h2 : polyOf (2 * r) = polyOf r * X := by
    have := polyOf_shift r 1
    rwa [Nat.pow_one, Nat.mul_comm, pow_one] at this
  show (2 * r ^^^ (2 * r / 16777216 * 0x1FFF409)) < 16777216 ∧
    generator ∣ polyOf (2 * r ^^^ (2 * r / 16777216 * 0x1FFF409)) - polyOf r * X
  by_cases hb : 2 * r < 16777216
  · rw [Nat.div_eq_of_lt hb, Nat.zero_mul, Nat.xor_zero, h2, sub_self]
    exact ⟨hb, dvd_zero _⟩
  · have hq : 2 * r / 16777216 = 1 := by omega
    rw [hq, Nat.one_mul, polyOf_xor, h2, ← generator_eq]
    refine ⟨?_, by rw [add_sub_cancel_left]⟩
    have e1 : 2 * r = 1 * 2 ^ 24 + (2 * r - 16777216) := by omega
    have e2 : (0x1FFF409 : Nat) = 1 * 2 ^ 24 + 0xFFF409 := by decide
    have e3 := xor_block 1 (2 * r - 16777216) 1 0xFFF409 24 (by omega) (by decide)
    rw [← e1, ← e2] at e3
    have := Nat.xor_lt_two_pow (x := 2 * r - 16777216) (y := 0xFFF409) (n := 24) (by omega) (by decide)
    rw [Nat.xor_self] at e3
    omega

theorem powTable_spec (n : Nat) (r s : Nat) (hr : r < 16777216) (hs : generator ∣ polyOf r - X ^ s) (i : Nat)
    (hi : i < (powTable n r).length) :
    (powTable n r)[i] < 16777216 ∧ generator ∣ polyOf (powTable n r)[i] - X ^ (s + i) := by
  induction n generalizing r s i with
  | zero => simp [powTable] at hi
  | succ n ih =>
    cases i with
    | zero => exact ⟨hr, hs⟩
    | succ i =>
      obtain ⟨h1, h2⟩ := pow_step r hr
      have h3 : generator ∣ polyOf (Nat.xor (2 * r) (Nat.mul (Nat.div (2 * r) 16777216) 0x1FFF409)) - X ^ (s + 1) := by
        have h4 := Dvd.dvd.mul_right hs X
        have h5 := dvd_add h2 h4
        rwa [sub_mul, ← pow_succ, sub_add_sub_cancel] at h5
      have := ih _ (s + 1) h1 h3 i (by simpa [powTable] using hi)
      rwa [show s + 1 + i = s + (i + 1) by omega] at this

theorem table_x : generator ∣ polyOf 2 - X ^ 1 := by
  have := polyOf_shift 1 1
  rw [show 1 * 2 ^ 1 = 2 by decide, polyOf_one, one_mul] at this
  rw [this, sub_self]
  exact dvd_zero _

set_option maxRecDepth 100000 in
/-- No sum of two, or of four, different powers of `x` below 112 with lowest term 1 is divisible by the generator: checked
on the table of all remainders. -/
theorem table_none : none1 1 (powTable 111 2) = true ∧ none3 1 (powTable 111 2) = true := by decide +kernel

/-- The remainder of x^k, 1 ≤ k ≤ 111. -/
theorem pow_rem (k : Nat) (h1 : 1 ≤ k) (h2 : k ≤ 111) :
    ∃ hk : k - 1 < (powTable 111 2).length, (powTable 111 2)[k - 1] < 16777216 ∧
      generator ∣ polyOf (powTable 111 2)[k - 1] - X ^ k := by
  have hk : k - 1 < (powTable 111 2).length := by rw [powTable_length]; omega
  refine ⟨hk, ?_⟩
  have := powTable_spec 111 2 1 (by decide) table_x (k - 1) hk
  rwa [show 1 + (k - 1) = k by omega] at this

theorem low_dvd_zero (n : Nat) (hn : n < 16777216) (h : generator ∣ polyOf n) : n = 0 := by
  apply polyOf_inj
  rw [polyOf_zero]
  by_contra h0
  refine generator_monic.not_dvd_of_degree_lt h0 ?_ h
  rw [generator_degree]
  exact polyOf_degree n 24 (by simpa using hn)

theorem xor_lt24 (a b : Nat) (ha : a < 16777216) (hb : b < 16777216) : a ^^^ b < 16777216 := by
  have := Nat.xor_lt_two_pow (x := a) (y := b) (n := 24) (by simpa using ha) (by simpa using hb)
  simpa using this

theorem two_terms (a : Nat) (h0 : 0 < a) (h2 : a ≤ 111) : ¬ generator ∣ 1 + X ^ a := by
  intro hd
  obtain ⟨hk, hlt, hr⟩ := pow_rem a h0 h2
  have h := dvd_add hr hd
  rw [show polyOf (powTable 111 2)[a - 1] - X ^ a + (1 + X ^ a) = polyOf 1 + polyOf (powTable 111 2)[a - 1] by
    rw [polyOf_one]; ring, ← polyOf_xor] at h
  have := low_dvd_zero _ (xor_lt24 _ _ (by decide) hlt) h
  exact none1_spec _ _ table_none.1 _ hk (xor_zero_eq _ _ this).symm

theorem four_terms (a b c : Nat) (h0 : 0 < a) (h1 : a < b) (hc : b < c) (h2 : c ≤ 111) :
    ¬ generator ∣ 1 + X ^ a + X ^ b + X ^ c := by
  intro hd
  obtain ⟨ka, la, ra⟩ := pow_rem a h0 (by omega)
  obtain ⟨kb, lb, rb⟩ := pow_rem b (by omega) (by omega)
  obtain ⟨kc, lc, rc⟩ := pow_rem c (by omega) (by omega)
  have h := dvd_add (dvd_add (dvd_add hd ra) rb) rc
  rw [show 1 + X ^ a + X ^ b + X ^ c + (polyOf (powTable 111 2)[a - 1] - X ^ a) +
      (polyOf (powTable 111 2)[b - 1] - X ^ b) + (polyOf (powTable 111 2)[c - 1] - X ^ c) =
    (polyOf (powTable 111 2)[a - 1] + polyOf (powTable 111 2)[b - 1] + polyOf (powTable 111 2)[c - 1]) + polyOf 1 by
    rw [polyOf_one]; ring, ← polyOf_xor, ← polyOf_xor, ← polyOf_xor] at h
  have := low_dvd_zero _ (xor_lt24 _ _ (xor_lt24 _ _ (xor_lt24 _ _ la lb) lc) (by decide)) h
  exact none3_spec _ _ table_none.2 (a - 1) (b - 1) (c - 1) (by omega) (by omega) kc (xor_zero_eq _ _ this)

/-! ### Weight -/

/-- The positions of the set bits of a number below 2^112. -/
def support (e : Nat) : Finset Nat := (Finset.range 112).filter (fun i => e.testBit i = true)

theorem polyOf_support (e : Nat) (he : e < 2 ^ 112) : polyOf e = ∑ i ∈ support e, X ^ i := by
  ext i
  rw [polyOf_coeff, finsetSum_coeff]
  simp only [coeff_X_pow]
  rw [Finset.sum_ite_eq (support e) i (fun _ => (1 : ZMod 2))]
  unfold support
  by_cases hi : i < 112
  · simp [hi]
  · have : e.testBit i = false := Nat.testBit_lt_two_pow (Nat.lt_of_lt_of_le he (Nat.pow_le_pow_right (by decide) (by omega)))
    simp [hi, this]

theorem generator_eval_one : generator.eval 1 = 0 := by
  unfold generator
  simp only [eval_add, eval_pow, eval_X, eval_finsetSum, one_pow, eval_one, Finset.sum_const]
  decide

/-- Odd weights. -/
theorem odd_weight (e : Nat) (he : e < 2 ^ 112) (h : generator ∣ polyOf e) : (support e).card % 2 = 0 := by
  obtain ⟨q, hq⟩ := h
  have h1 := congrArg (fun p => p.eval 1) hq
  simp only [eval_mul, generator_eval_one, zero_mul] at h1
  rw [polyOf_support e he, eval_finsetSum] at h1
  simp only [eval_pow, eval_X, one_pow, Finset.sum_const, nsmul_eq_mul, mul_one] at h1
  have := (ZMod.natCast_eq_zero_iff (support e).card 2).1 h1
  omega

theorem coprime_X : IsCoprime generator (X : (ZMod 2)[X]) := by
  have h : (X : (ZMod 2)[X]) ∣ generator - 1 := by
    rw [X_dvd_iff, coeff_sub, generator_coeff_zero, coeff_one_zero, sub_self]
  obtain ⟨q, hq⟩ := h
  refine ⟨1, -q, ?_⟩
  have : generator = 1 + X * q := by rw [← hq]; ring
  rw [this]; ring

theorem dvd_of_dvd_mul_pow (p : (ZMod 2)[X]) (n : Nat) (h : generator ∣ p * X ^ n) : generator ∣ p :=
  (coprime_X.pow_right (n := n)).dvd_of_dvd_mul_right h

/-- Any nonzero multiple of the generator of degree below 112 has at least six terms. -/
theorem min_weight (e : Nat) (he : e < 2 ^ 112) (h0 : e ≠ 0) (h : generator ∣ polyOf e) : 6 ≤ (support e).card := by
  have hev := odd_weight e he h
  have hs := polyOf_support e he
  by_contra hlt
  have hmem : ∀ i ∈ support e, i < 112 := by
    intro i hi
    unfold support at hi
    rw [Finset.mem_filter, Finset.mem_range] at hi
    exact hi.1
  obtain ⟨l, hl⟩ : ∃ l, (support e).sort (· ≤ ·) = l := ⟨_, rfl⟩
  have hlen : l.length = (support e).card := by rw [← hl, Finset.length_sort]
  have hsorted : l.Pairwise (· < ·) := by
    have := Finset.sortedLT_sort (support e)
    rw [hl] at this
    exact this.pairwise
  have hsum : ∑ i ∈ support e, (X : (ZMod 2)[X]) ^ i = (l.map (fun i => (X : (ZMod 2)[X]) ^ i)).sum := by
    rw [← hl, ← List.sum_toFinset _ (Finset.sort_nodup _ _), Finset.sort_toFinset]
  have hb : ∀ i ∈ l, i < 112 := by
    intro i hi
    apply hmem
    rw [← hl, Finset.mem_sort] at hi
    exact hi
  rw [hs, hsum] at h
  match l, hlen with
  | [], hlen =>
    simp at hlen
    have h1 : polyOf e = 0 := by rw [hs, Finset.card_eq_zero.1 hlen.symm, Finset.sum_empty]
    rw [← polyOf_zero] at h1
    exact h0 (polyOf_inj _ _ h1)
  | [_], hlen => simp at hlen; omega
  | [d, a], hlen =>
    simp only [List.pairwise_cons, List.mem_cons, List.mem_singleton, forall_eq_or_imp, forall_eq] at hsorted hb
    have hda : d < a := by have := hsorted.1; simpa using this
    have hb' : a < 112 := by have := hb.2; simpa using this
    apply two_terms (a - d) (by omega) (by omega)
    apply dvd_of_dvd_mul_pow _ d
    rw [add_mul, one_mul, ← pow_add, Nat.sub_add_cancel (by omega)]
    simpa using h
  | [_, _, _], hlen => simp at hlen; omega
  | [d, a, b, c], hlen =>
    simp at hsorted hb
    apply four_terms (a - d) (b - d) (c - d) (by omega) (by omega) (by omega) (by omega)
    apply dvd_of_dvd_mul_pow _ d
    rw [add_mul, add_mul, add_mul, one_mul, ← pow_add, ← pow_add, ← pow_add, Nat.sub_add_cancel (by omega),
      Nat.sub_add_cancel (by omega), Nat.sub_add_cancel (by omega)]
    simpa [add_assoc] using h
  | [_, _, _, _, _], hlen => simp at hlen; omega
  | _ :: _ :: _ :: _ :: _ :: _ :: _, hlen => simp at hlen; omega

end Modes
