import Verif.Props.Numeral
/-!
# The number on the command line: cases
-/
namespace Modes
open Spec

/-- Numerals in every base, with signs and underscores. -/
example : goParseInt (bytes "2") = some 2 ∧ goParseInt (bytes "+0b10") = some 2 ∧ goParseInt (bytes "0x_2") = some 2 ∧
    goParseInt (bytes "0_2") = some 2 ∧ goParseInt (bytes "-0") = some 0 ∧ goParseInt (bytes "010") = some 8 ∧
    goParseInt (bytes "0O17") = some 15 ∧ goParseInt (bytes "1_0") = some 10 ∧ goParseInt (bytes "0XfF") = some 255 ∧
    goParseInt (bytes "9223372036854775807") = some 9223372036854775807 ∧
    goParseInt (bytes "-9223372036854775808") = some (-9223372036854775808) := by decide +kernel

/-- Texts that are not numerals, or too large. -/
example : ∀ s ∈ [bytes "", bytes "+", bytes "-", bytes "08", bytes "1__0", bytes "_1", bytes "1_", bytes "0x", bytes "0b2", bytes "0b_",
    bytes "+-1", bytes " 1", bytes "1.0", bytes "two", bytes "9223372036854775808", bytes "-9223372036854775809",
    bytes "18446744073709551616", bytes "0x1_0000_0000_0000_0000"], goParseInt s = none := by decide +kernel

theorem numeral_two : Numeral (bytes "0b10") 2 := (parseInt_iff _ _).1 (by decide +kernel)

theorem not_numeral_word (n : Int) : ¬ Numeral (bytes "two") n := by
  rw [← parseInt_iff]
  have : goParseInt (bytes "two") = none := by decide +kernel
  simp [this]

/-- `decimal_numeral` at the ends of the range; the texts are the usual ones. -/
example : Numeral (bytes "-9223372036854775808") (-9223372036854775808) := by
  have h := decimal_numeral (-9223372036854775808) (by norm_num)
  rwa [show toString (-9223372036854775808 : Int) = "-9223372036854775808" from by decide +kernel] at h

/-- Two readings of one text: the hypotheses of `numeral_unique`. -/
example (n : Int) (h : Numeral (bytes "0b10") n) : n = 2 := numeral_unique h numeral_two

theorem two_settings : SetsAll [.level 2 (bytes "0b10"), .file (bytes "f.txt")]
    [bytes "-adsb_reader_level", bytes "0b10", bytes "--file=f.txt"] :=
  .level (a := [bytes "-adsb_reader_level", bytes "0b10"]) .separate (.file (a := [bytes "--file=f.txt"]) .joined2 .nil)

theorem two_settings_numerals : LevelsNumerals [.level 2 (bytes "0b10"), .file (bytes "f.txt")] := by
  intro n t h
  simp only [List.mem_cons, Setting.level.injEq, reduceCtorEq, List.not_mem_nil, or_false] at h
  obtain ⟨rfl, rfl⟩ := h
  exact numeral_two

/-- `-adsb_reader_level 0b10 --file=f.txt` reads the file at level 2. -/
example (F : FloatTexts) (E : ErrorTexts) (files : List UInt8 → Option (List UInt8)) (hf : files (bytes "f.txt") = some (bytes "20FF\n8D4B\r\n")) :
    ∃ t u, printSingleLine F E (bytes "20FF") 2 = .ok t ∧ printSingleLine F E (bytes "8D4B") 2 = .ok u ∧
      runMain F E goParseInt files [bytes "-adsb_reader_level", bytes "0b10", bytes "--file=f.txt"] = ⟨t ++ u, .returned⟩ := by
  obtain ⟨ts, h3, h4⟩ := run_file_at_level F E files [.level 2 (bytes "0b10"), .file (bytes "f.txt")]
    [bytes "-adsb_reader_level", bytes "0b10", bytes "--file=f.txt"] [] two_settings_numerals two_settings
    (by simp) 2 (by decide) rfl (by decide) _ hf [bytes "20FF", bytes "8D4B"] (by decide +kernel)
  cases h3 with
  | cons a b =>
    cases b with
    | cons b c =>
      cases c
      exact ⟨_, _, a, b, by simpa using h4⟩

/-- `--file=f.txt -adsb_reader_level=two` stops the program with code 2. -/
example (F : FloatTexts) (E : ErrorTexts) (files : List UInt8 → Option (List UInt8)) :
    runMain F E goParseInt files ([bytes "--file=f.txt"] ++ [bytes "-adsb_reader_level=two"] ++ []) = ⟨[], .exited 2⟩ :=
  run_level_not_number F E files [.file (bytes "f.txt")] _ _ _ (bytes "two") (by intro n t h; simp at h)
    (.file (a := [bytes "--file=f.txt"]) .joined2 .nil) .joined not_numeral_word

/-- `-adsb_reader_level=0x3` makes it panic; the panic comes from that number. -/
example (F : FloatTexts) (E : ErrorTexts) (files : List UInt8 → Option (List UInt8)) :
    runMain F E goParseInt files ([bytes "-adsb_reader_level=0x3"] ++ []) = ⟨[], .panicked⟩ ∧
    ∃ text n, Numeral text n ∧ ¬ (0 ≤ n ∧ n ≤ 2) ∧
      (text ∈ [bytes "-adsb_reader_level=0x3"] ∨ ∃ a ∈ [bytes "-adsb_reader_level=0x3"], text <:+ a) := by
  have h : runMain F E goParseInt files ([bytes "-adsb_reader_level=0x3"] ++ []) = ⟨[], .panicked⟩ :=
    run_number_not_level F E files [.level 3 (bytes "0x3")] _ [] (by
      intro n t h
      simp only [List.mem_cons, Setting.level.injEq, List.not_mem_nil, or_false] at h
      obtain ⟨rfl, rfl⟩ := h
      exact (parseInt_iff _ _).1 (by decide +kernel)) (.level (a := [bytes "-adsb_reader_level=0x3"]) .joined .nil) (by simp) (by decide)
  exact ⟨h, run_panics_numeral F E files _ (by rw [show ([bytes "-adsb_reader_level=0x3"] : List (List UInt8)) =
    [bytes "-adsb_reader_level=0x3"] ++ [] from rfl, h])⟩

end Modes
