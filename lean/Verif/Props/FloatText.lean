import Verif.Model.FloatText
import Verif.Props.TextFields
import Verif.Lemmas.FloatMono
import Verif.Lemmas.Text
/-!
# The numbers in the printed reports

C102.
-/
namespace Spec
open Modes (Txt)

/-- The number a text of digits stands for. -/
def digitsNumber (t : List Char) : ℕ := t.foldl (fun v c => 10 * v + (c.toNat - 48)) 0

/-- The text `t` is the number `q` written in decimal, in the usual way: a minus sign if it is negative, the whole part, without
superfluous zeros in front, and, unless it is an integer, a point and decimals, the last of which is not zero. -/
structure PlainDecimal (t : Txt) (q : ℚ) : Prop where
  reads : ∃ sign whole decimals : List Char,
    t = sign ++ whole ++ (if decimals = [] then [] else '.' :: decimals) ∧
    sign = (if q < 0 then ['-'] else []) ∧
    (∀ c ∈ whole ++ decimals, c.isDigit = true) ∧
    whole ≠ [] ∧ (whole.head? = some '0' → whole = ['0']) ∧ decimals.getLast? ≠ some '0' ∧
    |q| = digitsNumber whole + digitsNumber decimals / 10 ^ decimals.length

end Spec
namespace Modes
open Spec

theorem toDigits_head' (v : Nat) : 0 < v → (Nat.toDigits 10 v).head? ≠ some '0' := by
  induction v using Nat.strong_induction_on with
  | _ v ih =>
    intro hv
    rw [Nat.toDigits_eq_if (by omega)]
    split
    · rename_i h
      interval_cases v <;> decide
    · rename_i h
      have := ih (v / 10) (by omega) (by omega)
      cases hl : Nat.toDigits 10 (v / 10) with
      | nil => exact absurd hl Nat.toDigits_ne_nil
      | cons c l => rw [hl] at this; simpa using this

theorem digitsNumber_eq (t : List Char) (v : ℕ) :
    t.foldl (fun v c => 10 * v + (c.toNat - 48)) v = Nat.ofDigitChars 10 t v := rfl

theorem digitsNumber_dec (n : ℕ) : digitsNumber (dec n) = n := by
  unfold digitsNumber dec
  rw [digitsNumber_eq]
  simp [Nat.ofDigitChars_toDigits]

theorem digitChar_value (d : ℕ) (h : d < 10) : (Nat.digitChar d).toNat - 48 = d ∧ (Nat.digitChar d).isDigit = true ∧
    (Nat.digitChar d = '0' ↔ d = 0) := by
  interval_cases d <;> decide

theorem padDigits_spec (k : ℕ) : ∀ n, (padDigits k n).length = k ∧ (∀ c ∈ padDigits k n, c.isDigit = true) ∧
    digitsNumber (padDigits k n) = n % 10 ^ k := by
  induction k with
  | zero => intro n; simp [padDigits, digitsNumber, Nat.mod_one]
  | succ k ih =>
    intro n
    obtain ⟨h1, h2, h3⟩ := ih (n / 10)
    obtain ⟨h4, h5, -⟩ := digitChar_value (n % 10) (Nat.mod_lt _ (by omega))
    refine ⟨by simp [padDigits, h1], ?_, ?_⟩
    · intro c hc
      simp only [padDigits, List.mem_append, List.mem_singleton] at hc
      rcases hc with hc | rfl
      · exact h2 c hc
      · exact h5
    · unfold digitsNumber at h3 ⊢
      rw [padDigits, List.foldl_append, h3]
      simp only [List.foldl_cons, List.foldl_nil, h4]
      rw [pow_succ, Nat.mul_comm (10 ^ k) 10, Nat.mod_mul]
      omega

theorem padDigits_last (k : ℕ) (n : ℕ) : (padDigits (k + 1) n).getLast? = some (Nat.digitChar (n % 10)) := by
  simp [padDigits]

/-- A decimal without a zero at the end. -/
theorem decimalText_plain (n k : ℕ) (h : k = 0 ∨ n % 10 ≠ 0) (neg : Bool) (hneg : neg = true → 0 < n) :
    PlainDecimal ((if neg then ['-'] else []) ++ decimalText n k) ((if neg then -1 else 1) * ((n : ℚ) / 10 ^ k)) := by
  have hpos : (0 : ℚ) < 10 ^ k := by positivity
  have hn0 : (0 : ℚ) ≤ (n : ℚ) / 10 ^ k := by positivity
  have habs : |(if neg then (-1 : ℚ) else 1) * ((n : ℚ) / 10 ^ k)| = (n : ℚ) / 10 ^ k := by
    rw [abs_mul, abs_of_nonneg hn0]
    cases neg <;> simp
  obtain ⟨h1, h2, h3⟩ := padDigits_spec k n
  refine ⟨if neg then ['-'] else [], dec (n / 10 ^ k), padDigits k n, ?_, ?_, ?_, dec_ne_nil _, ?_, ?_, ?_⟩
  · unfold decimalText
    rw [List.append_assoc]
    congr 2
    by_cases hk : k = 0
    · subst hk; simp [padDigits]
    · rw [if_neg hk, if_neg]
      intro he
      rw [he] at h1
      exact hk h1.symm
  · cases neg with
    | true =>
      have : (0 : ℚ) < (n : ℚ) / 10 ^ k := div_pos (by exact_mod_cast hneg rfl) hpos
      rw [if_pos rfl, if_pos (by simpa using this)]
    | false => rw [if_neg (by simp), if_neg (by simpa using hn0)]
  · intro c hc
    rcases List.mem_append.1 hc with hc | hc
    · exact dec_digit hc
    · exact h2 c hc
  · intro hh
    generalize n / 10 ^ k = m at hh ⊢
    unfold dec at hh ⊢
    by_cases h0 : m = 0
    · subst h0; rfl
    · exact absurd hh (toDigits_head' m (by omega))
  · cases k with
    | zero => simp [padDigits]
    | succ k =>
      rw [padDigits_last]
      intro he
      have := (digitChar_value (n % 10) (Nat.mod_lt _ (by omega))).2.2.1 (Option.some.inj he)
      omega
  · rw [habs, digitsNumber_dec, h3, h1]
    have hd := Nat.div_add_mod n (10 ^ k)
    field_simp
    have : ((10 ^ k * (n / 10 ^ k) + n % 10 ^ k : ℕ) : ℚ) = n := by rw [hd]
    push_cast at this ⊢
    linarith

/-- A text is the decimal writing of one number at most. -/
theorem plainDecimal_unique {t : Txt} {q r : ℚ} (hq : PlainDecimal t q) (hr : PlainDecimal t r) : q = r := by
  obtain ⟨s1, w1, d1, e1, s1e, g1, n1, -, -, v1⟩ := hq.reads
  obtain ⟨s2, w2, d2, e2, s2e, g2, n2, -, -, v2⟩ := hr.reads
  have hdash : ('-' : Char).isDigit = false := by decide
  have hdot : ('.' : Char).isDigit = false := by decide
  have hd : ∀ {w d : List Char}, (∀ c ∈ w ++ d, c.isDigit = true) → w ≠ [] → ∀ x, (w ++ x).head? ≠ some '-' := by
    intro w d g hn x
    cases w with
    | nil => exact absurd rfl hn
    | cons c w =>
      intro h
      simp only [List.cons_append, List.head?_cons, Option.some.injEq] at h
      have := g c (by simp)
      rw [h, hdash] at this
      cases this
  have hsign : (q < 0 ↔ r < 0) := by
    by_cases h1 : q < 0 <;> by_cases h2 : r < 0
    · simp [h1, h2]
    · exfalso
      rw [if_pos h1] at s1e; rw [if_neg h2] at s2e
      subst s1e s2e
      rw [e1, List.nil_append] at e2
      exact hd g2 n2 _ (by rw [← e2]; rfl)
    · exfalso
      rw [if_neg h1] at s1e; rw [if_pos h2] at s2e
      subst s1e s2e
      rw [e2, List.nil_append] at e1
      exact hd g1 n1 _ (by rw [← e1]; rfl)
    · simp [h1, h2]
  have hs : s1 = s2 := by rw [s1e, s2e]; simp [hsign]
  subst hs
  rw [e1, List.append_assoc, List.append_assoc] at e2
  replace e2 := List.append_cancel_left e2
  have hspan : ∀ {w d : List Char}, (∀ c ∈ w ++ d, c.isDigit = true) →
      (w ++ (if d = [] then [] else '.' :: d)).takeWhile Char.isDigit = w ∧
      (w ++ (if d = [] then [] else '.' :: d)).dropWhile Char.isDigit = (if d = [] then [] else '.' :: d) := by
    intro w d g
    have hw : ∀ c ∈ w, Char.isDigit c = true := fun c hc => g c (by simp [hc])
    rw [List.takeWhile_append_of_pos hw, List.dropWhile_append_of_pos hw]
    split <;> simp [hdot]
  have hw : w1 = w2 := by rw [← (hspan g1).1, e2, (hspan g2).1]
  have hdd : d1 = d2 := by
    have : (if d1 = [] then [] else '.' :: d1) = (if d2 = [] then [] else '.' :: d2) := by
      rw [← (hspan g1).2, e2, (hspan g2).2]
    split at this <;> split at this <;> simp_all
  subst hw hdd
  have ha : |q| = |r| := by rw [v1, v2]
  by_cases h : q < 0
  · rw [abs_of_neg h, abs_of_neg (hsign.1 h)] at ha; linarith
  · rw [abs_of_nonneg (by linarith), abs_of_nonneg (by have := mt hsign.2 h; linarith)] at ha; exact ha

/-! ### The search -/

theorem round_down_ok {p : ℕ} (hp : 1 ≤ p) {x : ℚ} {k n : ℕ} (hx : 0 ≤ x) (hr : rnd p x = x) (hn : rnd p ((n : ℚ) / 10 ^ k) = x)
    (h : n ≤ ⌊x * 10 ^ k⌋₊) : rnd p (((⌊x * 10 ^ k⌋₊ : ℕ) : ℚ) / 10 ^ k) = x := by
  have hpos : (0 : ℚ) < 10 ^ k := by positivity
  have hfl := Nat.floor_le (show 0 ≤ x * 10 ^ k by positivity)
  apply le_antisymm
  · conv_rhs => rw [← hr]
    apply rnd_mono p hp
    rw [div_le_iff₀ hpos]; exact hfl
  · conv_lhs => rw [← hn]
    apply rnd_mono p hp
    apply div_le_div_of_nonneg_right _ hpos.le
    exact_mod_cast h

theorem round_up_ok {p : ℕ} (hp : 1 ≤ p) {x : ℚ} {k n : ℕ} (hr : rnd p x = x) (hn : rnd p ((n : ℚ) / 10 ^ k) = x)
    (h : ⌊x * 10 ^ k⌋₊ + 1 ≤ n) : rnd p (((⌊x * 10 ^ k⌋₊ + 1 : ℕ) : ℚ) / 10 ^ k) = x := by
  have hpos : (0 : ℚ) < 10 ^ k := by positivity
  have hfu := Nat.lt_floor_add_one (x * 10 ^ k)
  apply le_antisymm
  · conv_rhs => rw [← hn]
    apply rnd_mono p hp
    apply div_le_div_of_nonneg_right _ hpos.le
    exact_mod_cast h
  · conv_lhs => rw [← hr]
    apply rnd_mono p hp
    rw [le_div_iff₀ hpos]
    push_cast
    linarith

theorem shortStep_near {p : ℕ} (hp : 1 ≤ p) {x : ℚ} {k n : ℕ} (hx : 0 ≤ x) (hrx : rnd p x = x) (h : shortStep p x k = some n) :
    rnd p ((n : ℚ) / 10 ^ k) = x ∧ (n = ⌊x * 10 ^ k⌋₊ ∨ n = ⌊x * 10 ^ k⌋₊ + 1) ∧
    ∀ n' : ℕ, rnd p ((n' : ℚ) / 10 ^ k) = x → |(n : ℚ) / 10 ^ k - x| ≤ |(n' : ℚ) / 10 ^ k - x| := by
  have hpos : (0 : ℚ) < 10 ^ k := by positivity
  have ha : 0 ≤ x * 10 ^ k := by positivity
  have hfl := Nat.floor_le ha
  have hfu := Nat.lt_floor_add_one (x * 10 ^ k)
  have hscale : ∀ m : ℕ, |(m : ℚ) / 10 ^ k - x| = |(m : ℚ) - x * 10 ^ k| / 10 ^ k := by
    intro m
    rw [← abs_of_pos hpos, ← abs_div, abs_of_pos hpos]
    congr 1
    field_simp
  -- a decimal at least as near as both neighbours is the nearest
  have hnear : ∀ n : ℕ, |(n : ℚ) - x * 10 ^ k| ≤ |((⌊x * 10 ^ k⌋₊ : ℕ) : ℚ) - x * 10 ^ k| →
      |(n : ℚ) - x * 10 ^ k| ≤ |((⌊x * 10 ^ k⌋₊ + 1 : ℕ) : ℚ) - x * 10 ^ k| →
      ∀ n' : ℕ, |(n : ℚ) / 10 ^ k - x| ≤ |(n' : ℚ) / 10 ^ k - x| := by
    intro n h1 h2 n'
    rw [hscale, hscale]
    apply div_le_div_of_nonneg_right _ hpos.le
    by_cases hn' : n' ≤ ⌊x * 10 ^ k⌋₊
    · refine h1.trans ?_
      have : (n' : ℚ) ≤ (⌊x * 10 ^ k⌋₊ : ℕ) := by exact_mod_cast hn'
      rw [abs_of_nonpos (by linarith), abs_of_nonpos (by linarith)]
      linarith
    · refine h2.trans ?_
      have : ((⌊x * 10 ^ k⌋₊ + 1 : ℕ) : ℚ) ≤ n' := by exact_mod_cast (by omega : ⌊x * 10 ^ k⌋₊ + 1 ≤ n')
      have h3 : x * 10 ^ k ≤ ((⌊x * 10 ^ k⌋₊ + 1 : ℕ) : ℚ) := by push_cast; linarith
      rw [abs_of_nonneg (by linarith), abs_of_nonneg (by linarith)]
      linarith
  unfold shortStep at h
  simp only at h
  split at h
  · rename_i hb
    injection h with h
    -- rounding to nearest gives one of the two
    have hr := roundHalfEven_err (x * 10 ^ k)
    have hcases : (roundHalfEven (x * 10 ^ k)).toNat = ⌊x * 10 ^ k⌋₊ ∨ (roundHalfEven (x * 10 ^ k)).toNat = ⌊x * 10 ^ k⌋₊ + 1 := by
      have e : ⌊x * 10 ^ k⌋ = (⌊x * 10 ^ k⌋₊ : ℤ) := (Int.natCast_floor_eq_floor ha).symm
      unfold roundHalfEven
      simp only
      rw [e]
      split
      · left; omega
      · split
        · right; omega
        · split
          · left; omega
          · right; omega
    have hnn : ((roundHalfEven (x * 10 ^ k)).toNat : ℚ) = roundHalfEven (x * 10 ^ k) := by
      have : 0 ≤ roundHalfEven (x * 10 ^ k) := by
        have e : ⌊x * 10 ^ k⌋ = (⌊x * 10 ^ k⌋₊ : ℤ) := (Int.natCast_floor_eq_floor ha).symm
        unfold roundHalfEven
        simp only
        rw [e]
        split
        · omega
        · split
          · omega
          · split <;> omega
      have h2 : (((roundHalfEven (x * 10 ^ k)).toNat : ℤ) : ℚ) = roundHalfEven (x * 10 ^ k) := by
        rw [Int.toNat_of_nonneg this]
      exact_mod_cast h2
    rw [h] at hcases hnn
    have hnn' : |(n : ℚ) - x * 10 ^ k| ≤ 1 / 2 := by rw [hnn]; exact hr
    refine ⟨?_, hcases, fun n' _ => hnear n ?_ ?_ n'⟩
    · rcases hcases with hc | hc
      · rw [hc]; exact hb.1
      · rw [hc]; exact hb.2
    · rcases hcases with hc | hc
      · rw [hc]
      · rw [abs_le] at hnn'
        rw [hc] at hnn' ⊢
        push_cast at hnn' ⊢
        rw [abs_of_nonneg (by linarith), abs_of_nonpos (by linarith)]
        linarith
    · rcases hcases with hc | hc
      · rw [abs_le] at hnn'
        rw [hc] at hnn' ⊢
        push_cast at hnn' ⊢
        rw [abs_of_nonpos (by linarith), abs_of_nonneg (by linarith)]
        linarith
      · rw [hc]
  · rename_i hb
    split at h
    · rename_i hd
      injection h with h
      subst h
      refine ⟨hd, Or.inl rfl, fun n' hn' => ?_⟩
      rw [hscale, hscale]
      apply div_le_div_of_nonneg_right _ hpos.le
      by_cases hle : n' ≤ ⌊x * 10 ^ k⌋₊
      · have : (n' : ℚ) ≤ (⌊x * 10 ^ k⌋₊ : ℕ) := by exact_mod_cast hle
        rw [abs_of_nonpos (by linarith), abs_of_nonpos (by linarith)]
        linarith
      · exact absurd ⟨hd, round_up_ok hp hrx hn' (by omega)⟩ hb
    · rename_i hd
      split at h
      · rename_i hu
        injection h with h
        subst h
        refine ⟨hu, Or.inr rfl, fun n' hn' => ?_⟩
        rw [hscale, hscale]
        apply div_le_div_of_nonneg_right _ hpos.le
        by_cases hle : n' ≤ ⌊x * 10 ^ k⌋₊
        · exact absurd (round_down_ok hp hx hrx hn' hle) hd
        · have : ((⌊x * 10 ^ k⌋₊ + 1 : ℕ) : ℚ) ≤ n' := by exact_mod_cast (by omega : ⌊x * 10 ^ k⌋₊ + 1 ≤ n')
          have h3 : x * 10 ^ k ≤ ((⌊x * 10 ^ k⌋₊ + 1 : ℕ) : ℚ) := by push_cast; linarith
          rw [abs_of_nonneg (by linarith), abs_of_nonneg (by linarith)]
          linarith
      · cases h

theorem shortStep_none {p : ℕ} (hp : 1 ≤ p) {x : ℚ} {k : ℕ} (hx : 0 ≤ x) (hrx : rnd p x = x) (h : shortStep p x k = none) (n : ℕ) :
    rnd p ((n : ℚ) / 10 ^ k) ≠ x := by
  intro hn
  unfold shortStep at h
  simp only at h
  split at h
  · cases h
  · split at h
    · cases h
    · rename_i hd
      split at h
      · cases h
      · rename_i hu
        by_cases hle : n ≤ ⌊x * 10 ^ k⌋₊
        · exact hd (round_down_ok hp hx hrx hn hle)
        · exact hu (round_up_ok hp hrx hn (by omega))

theorem shortSearch_spec {p : ℕ} {x : ℚ} (K : ℕ) (hK : ∃ n, shortStep p x K = some n) : ∀ fuel k, k ≤ K → K < k + fuel →
    ∃ k', k ≤ k' ∧ (shortSearch p x fuel k).2 = k' ∧ shortStep p x k' = some (shortSearch p x fuel k).1 ∧
      ∀ j, k ≤ j → j < k' → shortStep p x j = none := by
  intro fuel
  induction fuel with
  | zero => intro k h1 h2; omega
  | succ fuel ih =>
    intro k h1 h2
    rw [shortSearch]
    cases hs : shortStep p x k with
    | some n => exact ⟨k, le_refl _, rfl, hs, fun j h3 h4 => by omega⟩
    | none =>
      have hne : k ≠ K := by
        rintro rfl
        obtain ⟨n, hn⟩ := hK
        rw [hs] at hn; cases hn
      obtain ⟨k', h3, h4, h5, h6⟩ := ih (k + 1) (by omega) (by omega)
      refine ⟨k', by omega, h4, h5, fun j h7 h8 => ?_⟩
      by_cases hj : j = k
      · rw [hj]; exact hs
      · exact h6 j (by omega) h8

/-- A floating point number is an integer over a power of two. -/
theorem rnd_den (p : ℕ) (x : ℚ) (h : rnd p x = x) : ∃ m : ℤ, ∃ s : ℕ, x = m / 2 ^ s := by
  by_cases h0 : x = 0
  · exact ⟨0, 0, by simp [h0]⟩
  · unfold rnd at h
    rw [if_neg h0] at h
    simp only at h
    generalize Int.log 2 |x| - ((p : ℤ) - 1) = e at h
    generalize roundHalfEven (x / 2 ^ e) = m at h
    cases e with
    | ofNat e =>
      refine ⟨m * 2 ^ e, 0, ?_⟩
      rw [← h]
      push_cast
      simp
    | negSucc e =>
      refine ⟨m, e + 1, ?_⟩
      rw [← h, zpow_negSucc, div_eq_mul_inv]

theorem exact_decimals (p : ℕ) (hp : 1 ≤ p) (x : ℚ) (hx : 0 ≤ x) (h : rnd p x = x) : ∃ n, shortStep p x x.den.log2 = some n := by
  obtain ⟨m, s, hm⟩ := rnd_den p x h
  have hdvd : x.den ∣ 2 ^ s := by
    have h2 := Rat.den_dvd m (2 ^ s)
    rw [Rat.divInt_eq_div] at h2
    push_cast at h2
    rw [← hm] at h2
    exact_mod_cast h2
  obtain ⟨i, -, hi⟩ := (Nat.dvd_prime_pow Nat.prime_two).1 hdvd
  have hlog : x.den.log2 = i := by rw [hi, Nat.log2_two_pow]
  rw [hlog]
  have hnum : 0 ≤ x.num := Rat.num_nonneg.2 hx
  have hxe : x * 10 ^ i = ((x.num.toNat * 5 ^ i : ℕ) : ℚ) := by
    have h1 : x = x.num / x.den := (Rat.num_div_den x).symm
    have h2 : ((x.num.toNat : ℕ) : ℚ) = (x.num : ℚ) := by
      have : ((x.num.toNat : ℤ) : ℚ) = (x.num : ℚ) := by rw [Int.toNat_of_nonneg hnum]
      exact_mod_cast this
    have h3 : (10 : ℚ) ^ i = 2 ^ i * 5 ^ i := by rw [← mul_pow]; norm_num
    push_cast
    rw [h2, h3]
    conv_lhs => rw [h1, hi]
    push_cast
    field_simp
  unfold shortStep
  simp only
  have hfl : ⌊x * 10 ^ i⌋₊ = x.num.toNat * 5 ^ i := by rw [hxe, Nat.floor_natCast]
  have hd : rnd p (((⌊x * 10 ^ i⌋₊ : ℕ) : ℚ) / 10 ^ i) = x := by
    rw [hfl, ← hxe, mul_div_assoc, div_self (by positivity), mul_one, h]
  by_cases hu : rnd p (((⌊x * 10 ^ i⌋₊ + 1 : ℕ) : ℚ) / 10 ^ i) = x
  · exact ⟨_, if_pos ⟨hd, hu⟩⟩
  · exact ⟨_, by rw [if_neg (fun h => hu h.2), if_pos hd]⟩

theorem rnd_abs (p : ℕ) (x : ℚ) : rnd p |x| = |rnd p x| := by
  rcases le_total 0 x with h | h
  · rw [abs_of_nonneg h, abs_of_nonneg (rnd_nonneg p h)]
  · have h1 := rnd_nonneg p (x := -x) (by linarith)
    rw [abs_of_nonpos h, rnd_neg, abs_of_nonpos]
    rw [rnd_neg] at h1
    linarith

/-- C102. A floating point number is printed as a decimal number, written in the usual way, that reads back as the same floating point
number; no decimal number with fewer decimals does, and none with as many is nearer. -/
theorem float_printed (p : ℕ) (hp : 1 ≤ p) (x : ℚ) (h : rnd p x = x) :
    ∃ (q : ℚ) (m : ℤ) (k : ℕ), PlainDecimal (floatText p x) q ∧ q = m / 10 ^ k ∧ rnd p q = x ∧
      (∀ (m' : ℤ) (k' : ℕ), rnd p ((m' : ℚ) / 10 ^ k') = x → k ≤ k') ∧
      ∀ m' : ℤ, rnd p ((m' : ℚ) / 10 ^ k) = x → |q - x| ≤ |(m' : ℚ) / 10 ^ k - x| := by
  have hax : 0 ≤ |x| := abs_nonneg x
  have harnd : rnd p |x| = |x| := by rw [rnd_abs, h]
  have hden : x.den.log2 = (|x|).den.log2 := by
    rcases abs_choice x with e | e <;> rw [e]
    rw [Rat.neg_den]
  obtain ⟨k, -, hk, hs, hmin⟩ := shortSearch_spec (p := p) (x := |x|) (|x|).den.log2 (exact_decimals p hp |x| hax harnd)
    (x.den.log2 + 1) 0 (Nat.zero_le _) (by rw [hden]; omega)
  generalize hn : (shortSearch p |x| (x.den.log2 + 1) 0).1 = n at hs
  obtain ⟨h1, h2, h3⟩ := shortStep_near hp hax harnd hs
  have hpos : ∀ k : ℕ, (0 : ℚ) < 10 ^ k := fun k => by positivity
  -- a decimal that reads back as x has the sign of x
  have habs : ∀ (m' : ℤ) (k' : ℕ), rnd p ((m' : ℚ) / 10 ^ k') = x → rnd p (((m'.natAbs : ℕ) : ℚ) / 10 ^ k') = |x| := by
    intro m' k' hm
    rw [← hm, ← rnd_abs, abs_div, abs_of_pos (hpos k'), Nat.cast_natAbs, Int.cast_abs]
  have htrail : k = 0 ∨ n % 10 ≠ 0 := by
    by_contra hcon
    obtain ⟨hk0, hn0⟩ := not_or.1 hcon
    obtain ⟨j, rfl⟩ := Nat.exists_eq_succ_of_ne_zero hk0
    have hj := shortStep_none hp hax harnd (hmin j (Nat.zero_le _) (by omega)) (n / 10)
    apply hj
    rw [← h1]
    congr 1
    have : n = 10 * (n / 10) := by omega
    conv_rhs => rw [this]
    push_cast
    rw [Nat.succ_eq_add_one, pow_succ]
    field_simp
  have hneg0 : x < 0 → 0 < n := by
    intro hx
    by_contra hn0
    have : n = 0 := by omega
    rw [this] at h1
    simp only [Nat.cast_zero, zero_div, rnd_zero] at h1
    have : x = 0 := abs_eq_zero.1 h1.symm
    linarith
  refine ⟨(if x < 0 then -1 else 1) * ((n : ℚ) / 10 ^ k), (if x < 0 then -1 else 1) * (n : ℤ), k, ?_, ?_, ?_, ?_, ?_⟩
  · have := decimalText_plain n k htrail (decide (x < 0)) (by simpa using hneg0)
    unfold floatText shortText
    rw [if_pos h]
    simp only [hn, hk]
    simpa using this
  · push_cast
    split <;> simp [neg_div]
  · split
    · rename_i hx
      rw [neg_one_mul, rnd_neg, h1, abs_of_neg hx, neg_neg]
    · rename_i hx
      rw [one_mul, h1, abs_of_nonneg (by linarith)]
  · intro m' k' hm
    by_contra hlt
    exact shortStep_none hp hax harnd (hmin k' (Nat.zero_le _) (by omega)) _ (habs m' k' hm)
  · intro m' hm
    have h4 := h3 _ (habs m' k hm)
    have h5 : |(if x < 0 then (-1 : ℚ) else 1) * ((n : ℚ) / 10 ^ k) - x| = |(n : ℚ) / 10 ^ k - (|x|)| := by
      split
      · rename_i hx
        rw [abs_of_neg hx, ← abs_neg]
        congr 1
        ring
      · rename_i hx
        rw [abs_of_nonneg (show 0 ≤ x by linarith), one_mul]
    rw [h5]
    refine h4.trans ?_
    rw [Nat.cast_natAbs, Int.cast_abs]
    have := abs_abs_sub_abs_le ((m' : ℚ) / 10 ^ k) x
    rwa [abs_div, abs_of_pos (hpos k)] at this

/-! ### A number has one decimal writing -/

theorem digit_char (c : Char) (h : c.isDigit = true) : c = Nat.digitChar (c.toNat - 48) ∧ c.toNat - 48 < 10 ∧ (c.toNat - 48 = 0 ↔ c = '0') := by
  have h1 : 48 ≤ c.toNat ∧ c.toNat ≤ 57 := by
    simp only [Char.isDigit, Bool.and_eq_true, decide_eq_true_eq] at h
    exact ⟨UInt32.le_iff_toNat_le.1 h.1, UInt32.le_iff_toNat_le.1 h.2⟩
  have key : ∀ d : Fin 10, (Char.ofNat (48 + d) = Nat.digitChar d ∧ ((d : ℕ) = 0 ↔ Char.ofNat (48 + d) = '0')) := by decide
  have h2 := key ⟨c.toNat - 48, by omega⟩
  have h3 : Char.ofNat (48 + (c.toNat - 48)) = c := by
    rw [show 48 + (c.toNat - 48) = c.toNat by omega, Char.ofNat_toNat]
  simp only [h3] at h2
  exact ⟨h2.1, by omega, h2.2⟩

theorem digitsNumber_snoc (l : List Char) (c : Char) : digitsNumber (l ++ [c]) = 10 * digitsNumber l + (c.toNat - 48) := by
  simp [digitsNumber, List.foldl_append]

theorem whole_unique (l : List Char) : l ≠ [] → (∀ c ∈ l, c.isDigit = true) → (l.head? = some '0' → l = ['0']) →
    l = Nat.toDigits 10 (digitsNumber l) := by
  induction l using List.reverseRecOn with
  | nil => intro h; exact absurd rfl h
  | append_singleton l c ih =>
    intro _ hd h0
    obtain ⟨h1, h2, h3⟩ := digit_char c (hd c (by simp))
    rw [digitsNumber_snoc]
    cases hl : l with
    | nil =>
      rw [Nat.toDigits_eq_if (by omega), if_pos (by simp [digitsNumber]; omega)]
      simp [digitsNumber, ← h1]
    | cons a t =>
      have hne : l ≠ [] := by simp [hl]
      have hhead : l.head? ≠ some '0' := by
        intro h
        have h4 : (l ++ [c]).head? = some '0' := by rw [List.head?_append_of_ne_nil _ hne]; exact h
        have h5 := congrArg List.length (h0 h4)
        simp [hl] at h5
      have ih := ih hne (fun c hc => hd c (by simp [hc])) (fun h => absurd h hhead)
      have hpos : 0 < digitsNumber l := by
        by_contra hz
        have hz : digitsNumber l = 0 := by omega
        rw [hz] at ih
        exact hhead (by rw [ih]; rfl)
      rw [← hl, Nat.toDigits_of_base_le (by omega) (by omega), show (10 * digitsNumber l + (c.toNat - 48)) / 10 = digitsNumber l by omega,
        show (10 * digitsNumber l + (c.toNat - 48)) % 10 = c.toNat - 48 by omega, ← ih, ← h1]

theorem decimals_unique (l : List Char) : (∀ c ∈ l, c.isDigit = true) → ∀ m : List Char, (∀ c ∈ m, c.isDigit = true) →
    l.length = m.length → digitsNumber l = digitsNumber m → l = m := by
  induction l using List.reverseRecOn with
  | nil => intro _ m _ h _; exact (List.length_eq_zero_iff.1 h.symm).symm
  | append_singleton l c ih =>
    intro hl m hm hlen hval
    obtain ⟨m', c', rfl⟩ : ∃ m' c', m = m' ++ [c'] := by
      cases m using List.reverseRecOn with
      | nil => simp at hlen
      | append_singleton m' c' => exact ⟨m', c', rfl⟩
    obtain ⟨h1, h2, -⟩ := digit_char c (hl c (by simp))
    obtain ⟨h3, h4, -⟩ := digit_char c' (hm c' (by simp))
    rw [digitsNumber_snoc, digitsNumber_snoc] at hval
    have hc : c.toNat - 48 = c'.toNat - 48 := by omega
    rw [ih (fun c hc => hl c (by simp [hc])) m' (fun c hc => hm c (by simp [hc])) (by simpa using hlen) (by omega), h1, h3, hc]

theorem digitsNumber_lt (l : List Char) : (∀ c ∈ l, c.isDigit = true) → digitsNumber l < 10 ^ l.length := by
  induction l using List.reverseRecOn with
  | nil => simp [digitsNumber]
  | append_singleton l c ih =>
    intro h
    obtain ⟨-, h2, -⟩ := digit_char c (h c (by simp))
    have := ih fun c hc => h c (by simp [hc])
    rw [digitsNumber_snoc, List.length_append, List.length_singleton, pow_succ]
    omega

/-- C102. A number has one decimal writing at most. -/
theorem plainDecimal_text {t u : Txt} {q : ℚ} (ht : PlainDecimal t q) (hu : PlainDecimal u q) : t = u := by
  obtain ⟨s1, w1, d1, e1, s1e, g1, n1, z1, l1, v1⟩ := ht.reads
  obtain ⟨s2, w2, d2, e2, s2e, g2, n2, z2, l2, v2⟩ := hu.reads
  have gw1 : ∀ c ∈ w1, c.isDigit = true := fun c hc => g1 c (by simp [hc])
  have gw2 : ∀ c ∈ w2, c.isDigit = true := fun c hc => g2 c (by simp [hc])
  have gd1 : ∀ c ∈ d1, c.isDigit = true := fun c hc => g1 c (by simp [hc])
  have gd2 : ∀ c ∈ d2, c.isDigit = true := fun c hc => g2 c (by simp [hc])
  have hlt : ∀ d : List Char, (∀ c ∈ d, c.isDigit = true) → (digitsNumber d : ℚ) / 10 ^ d.length < 1 := by
    intro d hd
    rw [div_lt_one (by positivity)]
    exact_mod_cast digitsNumber_lt d hd
  have hge : ∀ d : List Char, (0 : ℚ) ≤ (digitsNumber d : ℚ) / 10 ^ d.length := fun d => by positivity
  rw [v1] at v2
  have hw : digitsNumber w1 = digitsNumber w2 := by
    have a1 := hlt d1 gd1; have a2 := hlt d2 gd2; have b1 := hge d1; have b2 := hge d2
    rcases lt_trichotomy (digitsNumber w1) (digitsNumber w2) with h | h | h
    · have : (digitsNumber w1 : ℚ) + 1 ≤ digitsNumber w2 := by exact_mod_cast h
      linarith
    · exact h
    · have : (digitsNumber w2 : ℚ) + 1 ≤ digitsNumber w1 := by exact_mod_cast h
      linarith
  have hw' : w1 = w2 := by rw [whole_unique w1 n1 gw1 z1, whole_unique w2 n2 gw2 z2, hw]
  have hd : (digitsNumber d1 : ℚ) / 10 ^ d1.length = (digitsNumber d2 : ℚ) / 10 ^ d2.length := by
    rw [hw] at v2; linarith
  have hcross : digitsNumber d1 * 10 ^ d2.length = digitsNumber d2 * 10 ^ d1.length := by
    rw [div_eq_div_iff (by positivity) (by positivity)] at hd
    exact_mod_cast hd
  have hlast : ∀ d : List Char, (∀ c ∈ d, c.isDigit = true) → d.getLast? ≠ some '0' → d ≠ [] → digitsNumber d % 10 ≠ 0 := by
    intro d hd hl hne hz
    obtain ⟨d', c, rfl⟩ : ∃ d' c, d = d' ++ [c] := by
      cases d using List.reverseRecOn with
      | nil => exact absurd rfl hne
      | append_singleton d' c => exact ⟨d', c, rfl⟩
    obtain ⟨-, h2, h3⟩ := digit_char c (hd c (by simp))
    rw [digitsNumber_snoc] at hz
    exact hl (by simp [h3.1 (by omega)])
  have hlen : ∀ (d d' : List Char), (∀ c ∈ d', c.isDigit = true) → d'.getLast? ≠ some '0' →
      digitsNumber d * 10 ^ d'.length = digitsNumber d' * 10 ^ d.length → ¬ d.length < d'.length := by
    intro d d' hd' hl' hc hlt
    obtain ⟨k, hk⟩ : ∃ k, d'.length = d.length + (k + 1) := ⟨d'.length - d.length - 1, by omega⟩
    have hne : d' ≠ [] := by rintro rfl; simp at hk
    rw [hk, pow_add, pow_succ] at hc
    have hc : digitsNumber d' = digitsNumber d * 10 ^ k * 10 := by
      have hp : 0 < 10 ^ d.length := by positivity
      apply Nat.eq_of_mul_eq_mul_right hp
      rw [← hc]; ring
    exact hlast d' hd' hl' hne (by rw [hc]; omega)
  have hdl : d1.length = d2.length := by
    have a := hlen d1 d2 gd2 l2 hcross
    have b := hlen d2 d1 gd1 l1 hcross.symm
    omega
  have hdn : digitsNumber d1 = digitsNumber d2 := by
    rw [hdl] at hcross
    exact Nat.eq_of_mul_eq_mul_right (by positivity) hcross
  rw [e1, e2, s1e, s2e, hw', decimals_unique d1 gd1 d2 gd2 hdl hdn]

/-! ### What the decimal says about the number -/

/-- The decimal printed is within half a unit of the last bit of the number. -/
theorem float_printed_near (p : ℕ) (hp : 1 ≤ p) (x : ℚ) (h : rnd p x = x) :
    ∃ q, PlainDecimal (floatText p x) q ∧ rnd p q = x ∧ |q - x| ≤ |x| / 2 ^ (p - 1) := by
  obtain ⟨q, m, k, h1, -, h3, -⟩ := float_printed p hp x h
  refine ⟨q, h1, h3, ?_⟩
  have he := rnd_err p q
  rw [h3] at he
  obtain ⟨p', rfl⟩ : ∃ p', p = p' + 1 := ⟨p - 1, by omega⟩
  simp only [Nat.add_sub_cancel]
  have h2 : (1 : ℚ) ≤ 2 ^ p' := one_le_pow₀ (by norm_num)
  rw [pow_succ] at he
  have htri : |q| ≤ |x| + |x - q| := by
    have := abs_sub_abs_le_abs_sub q x
    rw [abs_sub_comm x q]
    linarith
  have hq0 : 0 ≤ |q| := abs_nonneg q
  have h4 : |q| ≤ 2 * |x| := by
    have : |q| / (2 ^ p' * 2) ≤ |q| / 2 := by
      apply div_le_div_of_nonneg_left hq0 (by norm_num)
      linarith
    linarith
  rw [abs_sub_comm q x]
  refine he.trans ?_
  rw [div_le_div_iff₀ (by positivity) (by positivity)]
  nlinarith

/-- C102. If the number is the floating point number nearest to a decimal with `K` digits after the point, and floating point numbers of this
size are nearer to each other than such decimals, that decimal is what is printed. -/
theorem float_printed_exact (p : ℕ) (hp : 1 ≤ p) (c : ℚ) (m : ℤ) (K : ℕ) (hc : c = m / 10 ^ K) (x : ℚ) (hx : rnd p c = x)
    (hfine : rnd p x = x) (hK : |c| * 4 * 10 ^ K < 2 ^ p) : PlainDecimal (floatText p x) c := by
  obtain ⟨q, n, k, h1, h2, h3, h4, -⟩ := float_printed p hp x hfine
  have hkK : k ≤ K := h4 m K (by rw [← hc]; exact hx)
  have hq : q = ((n * 10 ^ (K - k) : ℤ) : ℚ) / 10 ^ K := by
    rw [h2]
    push_cast
    rw [div_eq_div_iff (by positivity) (by positivity), mul_assoc, ← pow_add, Nat.sub_add_cancel hkK]
  have e1 := rnd_err p q
  have e2 := rnd_err p c
  rw [h3] at e1
  rw [hx] at e2
  have hpow : (0 : ℚ) < 2 ^ p := by positivity
  have hpow2 : (2 : ℚ) ≤ 2 ^ p := by
    calc (2 : ℚ) = 2 ^ 1 := by norm_num
      _ ≤ 2 ^ p := pow_le_pow_right₀ (by norm_num) hp
  have hcq : |q - c| ≤ (|q| + |c|) / 2 ^ p := by
    have : |q - c| ≤ |x - q| + |x - c| := by
      have := abs_sub_le q x c
      rwa [abs_sub_comm q x] at this
    rw [add_div]
    linarith
  have hq3 : |q| ≤ 3 * |c| := by
    have h5 : |q| - |c| ≤ |q - c| := abs_sub_abs_le_abs_sub q c
    have h6 : (|q| + |c|) / 2 ^ p ≤ (|q| + |c|) / 2 := by
      apply div_le_div_of_nonneg_left (by positivity) (by norm_num) hpow2
    linarith
  have hten : (0 : ℚ) < 10 ^ K := by positivity
  have hdiff : |q - c| * 10 ^ K < 1 := by
    calc |q - c| * 10 ^ K ≤ (|q| + |c|) / 2 ^ p * 10 ^ K := mul_le_mul_of_nonneg_right hcq hten.le
      _ ≤ (4 * |c|) / 2 ^ p * 10 ^ K := by
        apply mul_le_mul_of_nonneg_right _ hten.le
        apply div_le_div_of_nonneg_right _ hpow.le
        linarith
      _ = |c| * 4 * 10 ^ K / 2 ^ p := by ring
      _ < 1 := by rw [div_lt_one hpow]; exact hK
  have hint : |((n * 10 ^ (K - k) - m : ℤ) : ℚ)| < 1 := by
    have : ((n * 10 ^ (K - k) - m : ℤ) : ℚ) = (q - c) * 10 ^ K := by
      rw [hq, hc]
      push_cast
      field_simp
    rw [this, abs_mul, abs_of_pos hten]
    exact hdiff
  have hzero : n * 10 ^ (K - k) - m = 0 := by
    have : |n * 10 ^ (K - k) - m| < 1 := by exact_mod_cast hint
    have habs := abs_nonneg (n * 10 ^ (K - k) - m)
    exact abs_eq_zero.1 (by omega)
  have : q = c := by rw [hq, hc, show n * 10 ^ (K - k) = m by omega]
  rwa [this] at h1

end Modes
