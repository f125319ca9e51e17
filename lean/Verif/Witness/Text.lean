import Verif.Props.TextShows
import Verif.Props.TextShowsCapability
import Verif.Props.TextShowsOperational
import Verif.Props.TextModeS
import Verif.Props.TextADSB
import Verif.Props.TextCommB
import Verif.Props.CommBRegisters
import Verif.Props.Main

/-!
# Concrete cases for the theorems about the printed texts

Each example applies one theorem to concrete data and discharges all its hypotheses: they can be met. The texts of floating-point
numbers are those of `fractionTexts`, which are faithful.
-/

namespace Modes

open Spec Text

/-! ### C61, C67 -/

example := prefix_lines ["a".toList, [], "bc".toList] (by decide) (by decide) "> ".toList
example := text_has_lines "a\n\nbc".toList
example := line_report "8D4BAB4558AB031C446849B72535".toUTF8.toList
  [0x8D, 0x4B, 0xAB, 0x45, 0x58, 0xAB, 0x03, 0x1C, 0x44, 0x68, 0x49, 0xB7, 0x25, 0x35] 1 ((hexDecode_iff _ _).1 (by decide +kernel))

/-! ### C74: Mode S texts; two frames that differ in their parity print the same -/

example := modeS_text_total [0x5D, 0x48, 0x40, 0xD6, 1, 2, 3] _ rfl
example := modeS_text_identifies [0x20, 0x00, 0x16, 0xB8, 1, 2, 3] [0x20, 0x00, 0x16, 0xB8, 4, 5, 6] _ _ _ rfl rfl rfl rfl
example := df11_text_frame [0x5D, 0x48, 0x40, 0xD6, 1, 2, 3] [0x5D, 0x48, 0x40, 0xD6, 4, 5, 6] _ _ _ rfl rfl rfl rfl
example := df17_text_frame [0x8D, 0x48, 0x40, 0xD6, 0x20, 0x2C, 0xC3, 0x71, 0xC3, 0x2C, 0xE0, 0x57, 0x60, 0x98]
  [0x8D, 0x48, 0x40, 0xD6, 0x20, 0x2C, 0xC3, 0x71, 0xC3, 0x2C, 0xE0, 0, 0, 0] _ _ _ rfl rfl rfl rfl

/-! ### C75 -/

/-- Two payloads that print the same: emergency messages with other Mode A codes. -/
example := adsb_text_partial _ fractionTexts_faithful 2 2 false false false false [0xE1, 0xA0, 0, 0, 0, 0, 0] [0xE1, 0xA0, 1, 0, 0, 0, 0]
  _ _ rfl rfl rfl

/-! ### C77: ADS-B -/

example := airborne_text _ fractionTexts_faithful 0 false false [0x58, 0xC3, 0x82, 0xD6, 0x90, 0xC8, 0xAC] _ rfl (by decide)
example := type0_text _ fractionTexts_faithful 2 false false [0, 0xC3, 0x82, 0xD6, 0x90, 0xC8, 0xAC] _ rfl (by decide)
example := surface_text _ fractionTexts_faithful 0 false false [0x3A, 0x9A, 0x15, 0x32, 0x37, 0xAE, 0xF0] _ rfl (by decide)
example := velocity_text _ fractionTexts_faithful 0 false false [0x99, 0x44, 0x09, 0x94, 0x08, 0x38, 0x17] _ rfl (by decide) (by decide)
example := airspeed_text _ fractionTexts_faithful 0 false false [0x9B, 0x06, 0xB6, 0xAF, 0x18, 0x94, 0x00] _ rfl (by decide) (by decide)
example := identification_text _ fractionTexts_faithful 0 false false 0x20 (by decide) [0x4B, 0x4C, 0x4D, 0x31, 0x30, 0x32, 0x33, 0x20]
  rfl (by decide)
example := status_text _ fractionTexts_faithful 2 false false [0xE1, 0xA0, 0, 0, 0, 0, 0] _ rfl (by decide)
example := target_state_text_partial _ fractionTexts_faithful 2 false false [0xEA, 0x21, 0x48, 0x5C, 0xBF, 0x3F, 0x8C] _ rfl (by decide)
example := target_state_text_partial _ fractionTexts_faithful 1 false false [0xE8, 0x20, 0x48, 0x5C, 0xB1, 0x3C, 0x09] _ rfl (by decide)
example := operationalV0_text _ fractionTexts_faithful 0 false false [0xF8, 0x53, 0x71, 0x02, 0x41, 0, 0] _ rfl (by decide) (by decide)
example := operationalAirborneV1_text _ fractionTexts_faithful 1 false false [0xF8, 0x33, 0x40, 0x30, 0, 0x3A, 0x2C] _ rfl (by decide) (by decide)
example := operationalAirborneV2_text _ fractionTexts_faithful 2 false false [0xF8, 0x23, 0x00, 0x02, 0x00, 0x49, 0xB8] _ rfl (by decide) (by decide)
example := operationalSurfaceV1_text_partial _ fractionTexts_faithful 1 false false [0xF9, 0x22, 0x01, 0x30, 0, 0x3A, 0x2C] _ rfl (by decide) (by decide)
example := operationalSurfaceV2_text_partial _ fractionTexts_faithful 2 false false [0xF9, 0x13, 0x71, 0x02, 0x41, 0x49, 0xB2] _ rfl (by decide) (by decide)
example := operational_surface_text_refuted _ fractionTexts_faithful 2 false false [0xF9, 0x13, 0x71, 0x02, 0x41, 0x49, 0xB2] _ rfl (by decide) (by decide)
example := operational_surface_text_refuted _ fractionTexts_faithful 1 false false [0xF9, 0x22, 0x01, 0x30, 0, 0x3A, 0x2C] _ rfl (by decide) (by decide)

/-! ### C76, C77: Comm-B -/

theorem offered (d : List UInt8) (h7 : d.length = 7) (n : Nat) (hn : n ∈ registersOf d) :
    ∃ l m, readCommBMessage d = .ok l ∧ .val m ∈ l ∧ m.register = n := by
  obtain ⟨l, hl, -, hr⟩ := commB_registers d h7
  rw [← hr] at hn
  obtain ⟨m, hm, e⟩ := List.mem_map.1 hn
  exact ⟨_, m, hl, List.mem_map_of_mem hm, e⟩

example := commB_identification_text _ fractionTexts_faithful [0x4B, 0x4C, 0x4D, 0x31, 0x30, 0x32, 0x33, 0x20] rfl (by decide)

/-! For each of the other reports, a field that offers it: the hypotheses of the theorem named. -/

/-- `bds50_text` -/
example : ∃ l r, readCommBMessage [0x81, 0x95, 0x15, 0x36, 0xE0, 0x24, 0xD4] = .ok l ∧ .val (.bds50 r) ∈ l := by
  obtain ⟨l, m, hl, hm, hr⟩ := offered [0x81, 0x95, 0x15, 0x36, 0xE0, 0x24, 0xD4] rfl 0x50 (by decide +kernel)
  cases m <;> first | exact ⟨l, _, hl, hm⟩ | simp [CommBMessage.register] at hr

/-- `bds60_text` -/
example : ∃ l r, readCommBMessage [0x8F, 0x39, 0xF9, 0x1A, 0x7E, 0x27, 0xC4] = .ok l ∧ .val (.bds60 r) ∈ l := by
  obtain ⟨l, m, hl, hm, hr⟩ := offered [0x8F, 0x39, 0xF9, 0x1A, 0x7E, 0x27, 0xC4] rfl 0x60 (by decide +kernel)
  cases m <;> first | exact ⟨l, _, hl, hm⟩ | simp [CommBMessage.register] at hr

/-- `bds40_text_refuted` -/
example : ∃ l r, readCommBMessage [0x85, 0xE4, 0x2F, 0x31, 0x30, 0x00, 0x00] = .ok l ∧ .val (.bds40 r) ∈ l := by
  obtain ⟨l, m, hl, hm, hr⟩ := offered [0x85, 0xE4, 0x2F, 0x31, 0x30, 0x00, 0x00] rfl 0x40 (by decide +kernel)
  cases m <;> first | exact ⟨l, _, hl, hm⟩ | simp [CommBMessage.register] at hr

/-- `bds17_text` -/
example : ∃ l r, readCommBMessage [0xFA, 0x81, 0xC1, 0x08, 0, 0, 0] = .ok l ∧ .val (.bds17 r) ∈ l := by
  obtain ⟨l, m, hl, hm, hr⟩ := offered [0xFA, 0x81, 0xC1, 0x08, 0, 0, 0] rfl 0x17 (by decide +kernel)
  cases m <;> first | exact ⟨l, _, hl, hm⟩ | simp [CommBMessage.register] at hr

/-- `bds44_text_partial` -/
example : ∃ l r, readCommBMessage [0x18, 0x5B, 0xD5, 0xCF, 0x40, 0x00, 0x00] = .ok l ∧ .val (.bds44 r) ∈ l := by
  obtain ⟨l, m, hl, hm, hr⟩ := offered [0x18, 0x5B, 0xD5, 0xCF, 0x40, 0x00, 0x00] rfl 0x44 (by decide +kernel)
  cases m <;> first | exact ⟨l, _, hl, hm⟩ | simp [CommBMessage.register] at hr

/-- `bds45_text` -/
example : ∃ l r, readCommBMessage [0xA0, 0x08, 0x51, 0x80, 0x04, 0x32, 0x80] = .ok l ∧ .val (.bds45 r) ∈ l := by
  obtain ⟨l, m, hl, hm, hr⟩ := offered [0xA0, 0x08, 0x51, 0x80, 0x04, 0x32, 0x80] rfl 0x45 (by decide +kernel)
  cases m <;> first | exact ⟨l, _, hl, hm⟩ | simp [CommBMessage.register] at hr

/-- `bds10_text_partial`, `bds10_text_refuted` -/
example : ∃ l r, readCommBMessage [0x10, 0x03, 0x0B, 0xE6, 0xFE, 0xFF, 0xFF] = .ok l ∧ .val (.bds10 r) ∈ l := by
  obtain ⟨l, m, hl, hm, hr⟩ := offered [0x10, 0x03, 0x0B, 0xE6, 0xFE, 0xFF, 0xFF] rfl 0x10 (by decide +kernel)
  cases m <;> first | exact ⟨l, _, hl, hm⟩ | simp [CommBMessage.register] at hr

/-- `commB_texts_differ`, `commB_text_partial`: a field that is offered as five reports. -/
example : ∃ d l m n, readCommBMessage d = .ok l ∧ .val m ∈ l ∧ .val n ∈ l ∧ m ≠ n ∧ m.text fractionTexts ≠ n.text fractionTexts := by
  obtain ⟨d, l, hl, hr⟩ := commB_answers_occur [0x17, 0x40, 0x45, 0x50, 0x60] (by decide)
  have h17 : 0x17 ∈ l.map CommBMessage.register := by rw [hr]; decide
  have h60 : 0x60 ∈ l.map CommBMessage.register := by rw [hr]; decide
  obtain ⟨m, hm, em⟩ := List.mem_map.1 h17
  obtain ⟨n, hn, en⟩ := List.mem_map.1 h60
  have hne : m ≠ n := by
    rintro rfl
    rw [em] at en
    exact absurd en (by decide)
  exact ⟨d, _, m, n, hl, List.mem_map_of_mem hm, List.mem_map_of_mem hn, hne,
    commB_texts_differ _ fractionTexts_faithful d _ hl m n (List.mem_map_of_mem hm) (List.mem_map_of_mem hn) hne⟩

end Modes
