import Verif.Props.Numbers
import Verif.Witness.Text
/-!
# The numbers in the printed reports: cases
-/
namespace Modes
open Spec

variable {A : Bool → Bool → ℕ → ℕ → ℝ}

theorem showsNumber_text {text label : Txt} {c : ℚ} (t : Txt) (ht : PlainDecimal t c) (h : ShowsNumber text label c) : ShowsLine text label t := by
  obtain ⟨u, hu, hl⟩ := h
  rwa [plainDecimal_text hu ht] at hl

/-- A way to write a number, checked digit by digit. -/
theorem plainDecimal_make (s w d : List Char) (W D : ℕ) {t : Txt} {c : ℚ} (h : (t = s ++ w ++ (if d = [] then [] else '.' :: d) ∧
    (∀ c ∈ w ++ d, c.isDigit = true) ∧ w ≠ [] ∧ (w.head? = some '0' → w = ['0']) ∧ d.getLast? ≠ some '0' ∧
    digitsNumber w = W ∧ digitsNumber d = D))
    (hs : s = (if c < 0 then ['-'] else [])) (hc : |c| = W + D / 10 ^ d.length) : PlainDecimal t c :=
  ⟨s, w, d, h.1, hs, h.2.1, h.2.2.1, h.2.2.2.1, h.2.2.2.2.1, by rw [h.2.2.2.2.2.1, h.2.2.2.2.2.2]; exact hc⟩

theorem number_1013_2 : PlainDecimal (t! "1013.2") (10132 / 10) :=
  plainDecimal_make [] (t! "1013") (t! "2") 1013 2 (by decide) (by norm_num) (by
    rw [abs_of_nonneg (by norm_num)]; norm_num)

theorem number_minus_48_75 : PlainDecimal (t! "-48.75") (-4875 / 100) :=
  plainDecimal_make ['-'] (t! "48") (t! "75") 48 75 (by decide) (by norm_num) (by
    rw [abs_of_nonpos (by norm_num)]; norm_num)

/-- Texts that are not the usual way to write the number. -/
example : ¬ PlainDecimal (t! "1013.20") (10132 / 10) ∧ ¬ PlainDecimal (t! "01013.2") (10132 / 10) ∧ ¬ PlainDecimal (t! "1013.3") (10132 / 10) :=
  ⟨fun h => absurd (plainDecimal_text h number_1013_2) (by decide), fun h => absurd (plainDecimal_text h number_1013_2) (by decide),
    fun h => absurd (plainDecimal_text h number_1013_2) (by decide)⟩

/-- How Go prints some `float32` and `float64`: one half, a third, the nearest to 1013.2, twenty millions. -/
example : floatText 24 (1 / 2 ^ 1) = t! "0.5" ∧ floatText 24 (11184811 / 2 ^ 25) = t! "0.33333334" ∧
    floatText 24 (16600269 / 2 ^ 14) = t! "1013.2" ∧ floatText 53 (6004799503160661 / 2 ^ 54) = t! "0.3333333333333333" :=
  ⟨by exact_mod_cast floatTextFast_spec (p := 24) (m := 1) (s := 1) (by norm_num) (by decide +kernel),
    by exact_mod_cast floatTextFast_spec (p := 24) (m := 11184811) (s := 25) (by norm_num) (by decide +kernel),
    by exact_mod_cast floatTextFast_spec (p := 24) (m := 16600269) (s := 14) (by norm_num) (by decide +kernel),
    by exact_mod_cast floatTextFast_spec (p := 53) (m := 6004799503160661) (s := 54) (by norm_num) (by decide +kernel)⟩

/-- `float_printed`, `float_printed_near`, `float_printed_exact`, `plainDecimal_unique`. -/
example := float_printed 24 (by norm_num) (f32 (1 / 3)) (f32_idem _)
example := float_printed_near 24 (by norm_num) (f32 (1 / 3)) (f32_idem _)
example := float_printed_exact 24 (by norm_num) (10132 / 10) 10132 1 (by norm_num) (f32 (10132 / 10)) rfl (f32_idem _) (by norm_num [abs_of_nonneg])
example := plainDecimal_unique number_1013_2 number_1013_2

/-- `surface_numbers`: 8C4841753A9A153237AEF0F275BE, 17 knots, track 92.8125 degrees. -/
example : ∃ m, readADSBMessage 0 false false [0x3A, 0x9A, 0x15, 0x32, 0x37, 0xAE, 0xF0] = .returns (.val m) false ∧
    ShowsLine (m.text (goFloats A)) (t! "Ground Track (degrees):            ") (t! "92.8125") := by
  refine ⟨_, rfl, ?_⟩
  refine showsNumber_text (c := 33 * (360 / 128)) _ ?_ (surface_numbers 0 false false [0x3A, 0x9A, 0x15, 0x32, 0x37, 0xAE, 0xF0] _ rfl (by decide)).2
  exact plainDecimal_make [] (t! "92") (t! "8125") 92 8125 (by decide) (by norm_num) (by
    rw [abs_of_nonneg (by norm_num)]; norm_num)

/-- `ground_speed_numbers`, `airspeed_numbers`, `target_state_numbers`. -/
example := ground_speed_numbers accurateAtan2_rounded 0 false false [0x99, 0x44, 0x09, 0x94, 0x08, 0x38, 0x17] _ rfl (by decide) (by decide) (by decide) (by decide)
/-- 100 knots to the north, with the west flag. -/
example : ∃ m, readADSBMessage 0 false false [0x99, 0x04, 0x01, 0x0C, 0xA0, 0x00, 0x00] = .returns (.val m) false ∧
    ShowsLine (m.text (goFloats (fun yn xn y x => f64R (goAtan2 yn xn y x)))) (t! "Computed Track:                    ") (t! "-0 (degrees)") := by
  refine ⟨_, rfl, ?_⟩
  obtain ⟨-, track, -, -, -, h, -⟩ := ground_speed_numbers accurateAtan2_rounded 0 false false [0x99, 0x04, 0x01, 0x0C, 0xA0, 0x00, 0x00] _ rfl
    (by decide) (by decide) (by decide) (by decide)
  exact h (by unfold MinusZeroTrack; decide)
/-- `selected_heading_minus_zero`. -/
example : ∃ m, readADSBMessage 2 false false [0xEA, 0x21, 0x48, 0x5E, 0x01, 0x3F, 0x8C] = .returns (.val m) false ∧
    ShowsLine (m.text (goFloats A)) (t! "Selected Heading :                             ") (t! "-0") :=
  ⟨_, rfl, (selected_heading_minus_zero 2 false false [0xEA, 0x21, 0x48, 0x5E, 0x01, 0x3F, 0x8C] _ rfl (by decide) (by decide) (by decide) (by decide)).1⟩
example := airspeed_numbers (A := A) 0 false false [0x9B, 0x06, 0xB6, 0xAF, 0x18, 0x94, 0x00] _ rfl (by decide) (by decide)
example : ∃ m, readADSBMessage 2 false false [0xEA, 0x21, 0x48, 0x5C, 0xBF, 0x3F, 0x8C] = .returns (.val m) false ∧
    ShowsLine (m.text (goFloats A)) (t! "Barometric Pressure Setting:                   ") (t! "1012.8") := by
  refine ⟨_, rfl, ?_⟩
  have h := (target_state_numbers (A := A) 2 false false [0xEA, 0x21, 0x48, 0x5C, 0xBF, 0x3F, 0x8C] _ rfl (by decide) (by decide)).1
  rw [show bits [0xEA, 0x21, 0x48, 0x5C, 0xBF, 0x3F, 0x8C] 21 29 = 267 by decide, if_neg (by norm_num)] at h
  refine showsNumber_text _ ?_ h
  exact plainDecimal_make [] (t! "1012") (t! "8") 1012 8 (by decide) (by norm_num) (by
    rw [abs_of_nonneg (by norm_num)]; norm_num)

/-- `bds40_numbers`: the barometric setting 1013.2, which is not a `float32`. -/
example : ∃ l r, readCommBMessage [0xAE, 0xE5, 0x77, 0x30, 0xA8, 0x01, 0x06] = .ok l ∧ .val (.bds40 r) ∈ l ∧
    ShowsLine (CommBMessage.text (goFloats A) (.bds40 r)) (t! "Barometric Pressure Setting:           ") (t! "1013.2") := by
  obtain ⟨l, m, hl, hm, hr⟩ := offered [0xAE, 0xE5, 0x77, 0x30, 0xA8, 0x01, 0x06] rfl 0x40 (by decide +kernel)
  obtain ⟨r, rfl⟩ : ∃ r, m = .bds40 r := by
    cases m <;> first | exact ⟨_, rfl⟩ | simp [CommBMessage.register] at hr
  refine ⟨l, _, hl, hm, ?_⟩
  have h := bds40_numbers (A := A) _ l hl _ hm
  rw [show bits [0xAE, 0xE5, 0x77, 0x30, 0xA8, 0x01, 0x06] 28 39 = 2132 by decide] at h
  refine showsNumber_text _ ?_ h
  rw [show (800 + ((2132 : ℕ) : ℚ) * (1 / 10)) = 10132 / 10 by norm_num]
  exact number_1013_2

/-- `bds44_numbers`: -48.75 degrees. -/
example : ∃ l r, readCommBMessage [0x18, 0x5B, 0xD5, 0xCF, 0x40, 0x00, 0x00] = .ok l ∧ .val (.bds44 r) ∈ l ∧
    ShowsLine (CommBMessage.text (goFloats A) (.bds44 r)) (t! "Static Air Temperature (degrees C): ") (t! "-48.75") := by
  obtain ⟨l, m, hl, hm, hr⟩ := offered [0x18, 0x5B, 0xD5, 0xCF, 0x40, 0x00, 0x00] rfl 0x44 (by decide +kernel)
  obtain ⟨r, rfl⟩ : ∃ r, m = .bds44 r := by
    cases m <;> first | exact ⟨_, rfl⟩ | simp [CommBMessage.register] at hr
  refine ⟨l, _, hl, hm, ?_⟩
  have h := (bds44_numbers (A := A) _ l hl _ hm).2.1
  rw [show sbits [0x18, 0x5B, 0xD5, 0xCF, 0x40, 0x00, 0x00] 25 35 = -390 by decide] at h
  refine showsNumber_text _ ?_ h
  rw [show (((-390 : ℤ) : ℚ) * (1 / 8)) = -4875 / 100 by norm_num]
  exact number_minus_48_75

/-- `bds50_numbers`. -/
example : ∃ l r, readCommBMessage [0x81, 0x95, 0x15, 0x36, 0xE0, 0x24, 0xD4] = .ok l ∧ .val (.bds50 r) ∈ l ∧
    ShowsLine (CommBMessage.text (goFloats A) (.bds50 r)) (t! "Track Angle Rate (degrees/second):     ") (t! "0.125") := by
  obtain ⟨l, m, hl, hm, hr⟩ := offered [0x81, 0x95, 0x15, 0x36, 0xE0, 0x24, 0xD4] rfl 0x50 (by decide +kernel)
  obtain ⟨r, rfl⟩ : ∃ r, m = .bds50 r := by
    cases m <;> first | exact ⟨_, rfl⟩ | simp [CommBMessage.register] at hr
  refine ⟨l, _, hl, hm, ?_⟩
  have h := (bds50_numbers (A := A) _ l hl _ hm).2.2
  rw [show sbits [0x81, 0x95, 0x15, 0x36, 0xE0, 0x24, 0xD4] 36 45 = 4 by decide] at h
  refine showsNumber_text _ ?_ h
  exact plainDecimal_make [] (t! "0") (t! "125") 0 125 (by decide) (by norm_num) (by
    rw [abs_of_nonneg (by norm_num)]; norm_num)

/-- `bds60_numbers`, `bds45_numbers`: see `mach_number_refuted` and `edr_number_refuted`. -/
example : ∃ l r, readCommBMessage [0x8F, 0x39, 0xF9, 0x1A, 0x7E, 0x27, 0xC4] = .ok l ∧ .val (.bds60 r) ∈ l ∧
    ShowsNear (CommBMessage.text (goFloats A) (.bds60 r)) (t! "Mach:                                     ") (42 / 100) (1 / 500000) := by
  obtain ⟨l, m, hl, hm, hr⟩ := offered [0x8F, 0x39, 0xF9, 0x1A, 0x7E, 0x27, 0xC4] rfl 0x60 (by decide +kernel)
  obtain ⟨r, rfl⟩ : ∃ r, m = .bds60 r := by
    cases m <;> first | exact ⟨_, rfl⟩ | simp [CommBMessage.register] at hr
  refine ⟨l, _, hl, hm, ?_⟩
  have h := (bds60_numbers (A := A) _ l hl _ hm).2
  rw [show bits [0x8F, 0x39, 0xF9, 0x1A, 0x7E, 0x27, 0xC4] 25 34 = 105 by decide] at h
  convert h using 1
  norm_num
example : ∃ l r, readCommBMessage [0xA0, 0x08, 0x51, 0x80, 0x04, 0x32, 0x80] = .ok l ∧ .val (.bds45 r) ∈ l ∧
    ShowsNumber (CommBMessage.text (goFloats A) (.bds45 r)) (t! "Static Air Temperature (degrees C):   ")
      (sbits [0xA0, 0x08, 0x51, 0x80, 0x04, 0x32, 0x80] 14 24 * (1 / 8)) := by
  obtain ⟨l, m, hl, hm, hr⟩ := offered [0xA0, 0x08, 0x51, 0x80, 0x04, 0x32, 0x80] rfl 0x45 (by decide +kernel)
  cases m <;> first | exact ⟨l, _, hl, hm, (bds45_numbers (A := A) _ l hl _ hm).1⟩ | simp [CommBMessage.register] at hr

/-- `threat_range_number`: code 42, 4.1 nautical miles. -/
example : threatRangeText (goFloats A) 42 = t! "42 - 4.1 +/- 0.05 NM" := by
  obtain ⟨t, ht, e⟩ := threat_range_number 42 (by decide) (by decide)
  rw [show (42 : UInt8).toNat = 42 from rfl] at ht e
  have : t = t! "4.1" := plainDecimal_text ht (plainDecimal_make [] (t! "4") (t! "1") 4 1 (by decide) (by norm_num) (by
    rw [abs_of_nonneg (by norm_num)]; norm_num))
  rw [e, this]
  decide +kernel

end Modes
