import Verif.Props.FloatText
import Verif.Lemmas.FloatTextEval
import Verif.Lemmas.FloatR
/-!
# The texts of the floating point numbers in Go are faithful

C102.
-/
namespace Modes
open Spec

variable {K : Type*} [Field K] [LinearOrder K] [IsStrictOrderedRing K] [FloorRing K]

/-- A rounded number is an integer of `p` bits times a power of two. -/
theorem rnd_rep (p : ℕ) (hp : 1 ≤ p) (x : K) : ∃ n k : ℤ, |n| ≤ 2 ^ p ∧ rnd p x = n * 2 ^ k := by
  by_cases hx : x = 0
  · exact ⟨0, 0, by positivity, by simp [hx, rnd_zero]⟩
  · refine ⟨roundHalfEven (x / 2 ^ (Int.log 2 |x| - ((p : ℤ) - 1))), Int.log 2 |x| - ((p : ℤ) - 1), ?_, by
      unfold rnd; rw [if_neg hx]⟩
    have hpos : 0 < |x| := abs_pos.2 hx
    have h2 : |x| < (2 : K) ^ (Int.log 2 |x| + 1) := by exact_mod_cast Int.lt_zpow_succ_log_self (b := 2) (by norm_num) |x|
    set y := x / 2 ^ (Int.log 2 |x| - ((p : ℤ) - 1)) with hy
    have hylt : |y| < 2 ^ p := by
      rw [hy, abs_div, abs_of_pos (a := (2 : K) ^ (Int.log 2 |x| - ((p : ℤ) - 1))) (by positivity), div_lt_iff₀ (by positivity),
        ← zpow_natCast, ← zpow_add₀ (by norm_num)]
      rwa [show (p : ℤ) + (Int.log 2 |x| - ((p : ℤ) - 1)) = Int.log 2 |x| + 1 by ring]
    have hb : |y| ≤ ((2 ^ p : ℤ) : K) := by push_cast; exact hylt.le
    have h3 := abs_le.1 hb
    rw [abs_le]
    constructor
    · have := roundHalfEven_mono h3.1
      rwa [show -((2 ^ p : ℤ) : K) = ((-(2 ^ p) : ℤ) : K) by push_cast; rfl, roundHalfEven_int] at this
    · have := roundHalfEven_mono h3.2
      rwa [roundHalfEven_int] at this

theorem rnd_idem (p : ℕ) (hp : 1 ≤ p) (x : K) : rnd p (rnd p x) = rnd p x := by
  obtain ⟨n, k, h1, h2⟩ := rnd_rep p hp x
  rw [h2]
  exact rnd_exact p hp n k h1

theorem f32_idem (x : ℚ) : rnd 24 (f32 x) = f32 x := rnd_idem 24 (by norm_num) x
theorem f64_idem (x : ℚ) : rnd 53 (f64 x) = f64 x := rnd_idem 53 (by norm_num) x

/-- The digits, the point and the sign: no other character. -/
theorem plainDecimal_chars {t : Txt} {q : ℚ} (h : PlainDecimal t q) : ∀ c ∈ t, c.isDigit = true ∨ c = '-' ∨ c = '.' := by
  obtain ⟨s, w, d, e, hs, hd, -⟩ := h.reads
  intro c hc
  rw [e] at hc
  simp only [List.mem_append] at hc
  rcases hc with (hc | hc) | hc
  · rw [hs] at hc
    split at hc
    · simp at hc; exact .inr (.inl hc)
    · simp at hc
  · exact .inl (hd c (List.mem_append_left _ hc))
  · split at hc
    · simp at hc
    · rcases List.mem_cons.1 hc with hc | hc
      · exact .inr (.inr hc)
      · exact .inl (hd c (List.mem_append_right _ hc))

theorem plainDecimal_no {t : Txt} {q : ℚ} (h : PlainDecimal t q) {c : Char} (h1 : c.isDigit = false) (h2 : c ≠ '-') (h3 : c ≠ '.') : c ∉ t := by
  intro hc
  rcases plainDecimal_chars h c hc with h | h | h
  · rw [h1] at h; cases h
  · exact h2 h
  · exact h3 h

theorem not_mem_decInt {c : Char} (h1 : c.isDigit = false) (h2 : c ≠ '-') (n : ℤ) : c ∉ decInt n := by
  unfold decInt
  split
  · exact not_mem_dec h1
  · simp only [List.mem_cons, not_or]
    exact ⟨h2, not_mem_dec h1⟩

/-- C102. Different numbers have different texts. -/
theorem floatText_inj (p : ℕ) (hp : 1 ≤ p) : Function.Injective (floatText p) := by
  intro x y e
  by_cases hx : rnd p x = x
  · by_cases hy : rnd p y = y
    · obtain ⟨q, h1, h2, -⟩ := float_printed_near p hp x hx
      obtain ⟨r, h3, h4, -⟩ := float_printed_near p hp y hy
      rw [e] at h1
      rw [← h2, ← h4, plainDecimal_unique h1 h3]
    · obtain ⟨q, h1, -⟩ := float_printed_near p hp x hx
      have := plainDecimal_no h1 (c := '/') rfl (by decide) (by decide)
      rw [e] at this
      unfold floatText at this
      rw [if_neg hy] at this
      simp at this
  · by_cases hy : rnd p y = y
    · obtain ⟨q, h1, -⟩ := float_printed_near p hp y hy
      have := plainDecimal_no h1 (c := '/') rfl (by decide) (by decide)
      rw [← e] at this
      unfold floatText at this
      rw [if_neg hx] at this
      simp at this
    · unfold floatText at e
      rw [if_neg hx, if_neg hy] at e
      have hs : ∀ (n : ℤ) (l : Txt), (decInt n ++ '/' :: l).takeWhile (· ≠ '/') = decInt n ∧
          (decInt n ++ '/' :: l).dropWhile (· ≠ '/') = '/' :: l := by
        intro n l
        have hn : ∀ c ∈ decInt n, (decide (c ≠ '/')) = true := by
          intro c hc
          simp only [decide_eq_true_eq]
          rintro rfl
          exact not_mem_decInt rfl (by decide) n hc
        constructor
        · rw [List.takeWhile_append_of_pos hn]; simp
        · rw [List.dropWhile_append_of_pos hn]; simp
      have e1 := (hs x.num (dec x.den)).1
      have e2 := (hs x.num (dec x.den)).2
      rw [e, (hs _ _).1] at e1
      rw [e, (hs _ _).2] at e2
      exact Rat.ext (decInt_inj e1.symm) (dec_inj (List.cons.inj e2.symm).2)

/-- C102. Minus zero is not the usual way to write a number. -/
theorem minusZero_not_plain (q : ℚ) : ¬ PlainDecimal (t! "-0") q := by
  rintro ⟨sign, whole, decimals, e, hs, hd, hw, -, -, hv⟩
  have e' : ('-' :: '0' :: [] : List Char) = sign ++ whole ++ (if decimals = [] then [] else '.' :: decimals) := e
  rw [hs] at e'
  split at e'
  · rename_i hq
    simp only [List.cons_append, List.nil_append, List.cons.injEq, true_and] at e'
    cases whole with
    | nil => exact hw rfl
    | cons c w =>
      simp only [List.cons_append, List.cons.injEq] at e'
      obtain ⟨rfl, e2⟩ := e'
      obtain ⟨rfl, e3⟩ := List.append_eq_nil_iff.1 e2.symm
      split at e3
      · rename_i h0
        subst h0
        have : |q| = 0 := by rw [hv]; norm_num [digitsNumber]
        rw [abs_eq_zero.1 this] at hq
        exact lt_irrefl _ hq
      · cases e3
  · cases whole with
    | nil => exact hw rfl
    | cons c w =>
      simp only [List.nil_append, List.cons_append, List.cons.injEq] at e'
      have := hd c (by simp)
      rw [← e'.1] at this
      cases this

theorem floatText_ne_minusZero (p : ℕ) (hp : 1 ≤ p) (x : ℚ) : floatText p x ≠ t! "-0" := by
  intro e
  by_cases hx : rnd p x = x
  · obtain ⟨q, h1, -⟩ := float_printed_near p hp x hx
    rw [e] at h1
    exact minusZero_not_plain q h1
  · unfold floatText at e
    rw [if_neg hx] at e
    exact (by decide : '/' ∉ t! "-0") (e ▸ List.mem_append_right _ List.mem_cons_self)

theorem floatText_line (p : ℕ) (hp : 1 ≤ p) (x : ℚ) : OneLine (floatText p x) := by
  by_cases hx : rnd p x = x
  · obtain ⟨q, h1, -⟩ := float_printed_near p hp x hx
    exact plainDecimal_no h1 (c := '\n') rfl (by decide) (by decide)
  · unfold floatText
    rw [if_neg hx]
    exact (oneLine_decInt _).append (by
      unfold OneLine
      simp only [List.mem_cons, not_or]
      exact ⟨by decide, oneLine_dec _⟩)

open Classical in
/-- C102. Go's texts of floating point numbers meet the assumptions of the theorems about printed reports: the texts of different `float32`
differ, and no text has a line break. -/
theorem goFloats_faithful (A : Bool → Bool → ℕ → ℕ → ℝ) : (goFloats A).Faithful where
  inj32 := floatText_inj 24 (by norm_num)
  line32 := floatText_line 24 (by norm_num)
  line64 := floatText_line 53 (by norm_num)
  lineDegrees x := by
    show OneLine (if h : ∃ q : ℚ, (q : ℝ) = rnd 24 x then floatText 24 (Classical.choose h) else [])
    split
    · exact floatText_line 24 (by norm_num) _
    · exact List.not_mem_nil
  lineMinusZero := by show OneLine (t! "-0"); unfold OneLine; decide
  minusZero_ne := floatText_ne_minusZero 24 (by norm_num)

open Classical in
/-- The text of the track: the `float32` nearest to it, as Go prints it. -/
theorem goFloats_degrees (A : Bool → Bool → ℕ → ℕ → ℝ) (x : ℝ) : ∃ q : ℚ, (q : ℝ) = rnd 24 x ∧ rnd 24 q = q ∧ (goFloats A).degrees x = floatText 24 q := by
  obtain ⟨n, k, h1, h2⟩ := rnd_rep 24 (by norm_num) x
  have hex : ∃ q : ℚ, (q : ℝ) = rnd 24 x := ⟨(n : ℚ) * 2 ^ k, by rw [h2]; push_cast; rfl⟩
  have hq := Classical.choose_spec hex
  refine ⟨Classical.choose hex, hq, ?_, ?_⟩
  · have : Classical.choose hex = (n : ℚ) * 2 ^ k := by
      have h3 : ((Classical.choose hex : ℚ) : ℝ) = (((n : ℚ) * 2 ^ k : ℚ) : ℝ) := by
        rw [hq, h2]; push_cast; rfl
      exact_mod_cast h3
    rw [this]
    exact rnd_exact 24 (by norm_num) n k h1
  · show (if h : ∃ q : ℚ, (q : ℝ) = rnd 24 x then floatText 24 (Classical.choose h) else []) = _
    rw [dif_pos hex]

end Modes
