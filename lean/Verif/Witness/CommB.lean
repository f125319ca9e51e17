import Verif.Props.CommB
import Verif.Props.CommBRegisters

/-!
# Concrete cases for the theorems about Comm-B registers

Each example applies one theorem to concrete data and discharges all its hypotheses: they can be met.
-/

namespace Modes

open Spec

/-! ### C43 - C46 -/

example := commB_sound_complete [0xA7, 0x49, 0x0B, 0x1B, 0xA0, 0x04, 0x00] rfl
example := bds20_excludes [0x20, 0x2C, 0xC3, 0x71, 0xC3, 0x1D, 0xE0] _ rfl (by decide +kernel)

/-! ### C47: BDS 4,0 -/

example := bds40_actual [0x85, 0xE4, 0x2F, 0x31, 0x30, 0x00, 0x00] _ rfl
example := bds40_content_partial [0x85, 0xE4, 0x2F, 0x31, 0x30, 0x00, 0x00] _ rfl (by decide) (by decide)
example := (bds40_content_refuted [0x85, 0xE4, 0x2F, 0x71, 0x30, 0x00, 0x00] _ rfl).1 (by decide)
example := (bds40_content_refuted [0x05, 0xE4, 0x2F, 0x31, 0x30, 0x00, 0x00] _ rfl).2 (by decide)

/-! ### C48: BDS 5,0 and 6,0 -/

example := bds50_content [0x81, 0x95, 0x15, 0x36, 0xE0, 0x24, 0xD4] _ rfl
example := bds50_range [0x81, 0x95, 0x15, 0x36, 0xE0, 0x24, 0xD4] _ rfl
example := bds60_content [0xA7, 0x49, 0x0B, 0x1B, 0xA0, 0x04, 0x00] _ rfl
example := bds60_range [0xA7, 0x49, 0x0B, 0x1B, 0xA0, 0x04, 0x00] _ rfl

/-! ### C49, C50: weather and hazards -/

example := (bds44_content_partial [0x18, 0x5B, 0xD5, 0xCF, 0x40, 0x00, 0x00]).2.2 _ rfl
example := (bds44_content_partial [0x08, 0x5B, 0xD5, 0xCF, 0x40, 0x00, 0x00]).2.1 _ rfl
example := bds44_wind_partial [0x18, 0x5B, 0xD5, 0xCF, 0x40, 0x00, 0x00] _ rfl (by decide)
example := (bds44_wind_refuted [0x1C, 0x5B, 0xD5, 0xCF, 0x40, 0x00, 0x00] (by decide)).2.2 _ rfl
example := (bds45_content [0xA0, 0x0A, 0xD1, 0x80, 0x04, 0x32, 0x80]).1 _ rfl
example := (bds45_content [0xA0, 0x0A, 0xD1, 0x80, 0x04, 0x32, 0x80]).2 _ rfl

/-! ### C51 - C53: small registers -/

example := bds10_content_partial [0x10, 0x03, 0x0A, 0x80, 0xF5, 0x00, 0x00] _ rfl
example := bds17_content [0xFA, 0x81, 0xC1, 0x08, 0, 0, 0] _ rfl
example := bds17_injective_partial [0xFA, 0x81, 0xC1, 0x08, 0, 0, 0] [0xFA, 0x81, 0xC1, 0x08, 0, 0, 0] _ rfl rfl rfl
example : Succeeds (readBDS07 [0x40, 0, 0, 0, 0, 0, 0]) := (bds07_reserved_partial _ (by decide)).2 (by decide)

/-! ### C95 -/

example := commB_registers [0xA7, 0x49, 0x0B, 0x1B, 0xA0, 0x04, 0x00] rfl
example : ∃ l : List CommBMessage, readCommBMessage [0xA7, 0x49, 0x0B, 0x1B, 0xA0, 0x04, 0x00] = .ok (l.map Iface.val) ∧
    l.map CommBMessage.register ∈ possibleAnswers ∧ l.length ≤ 5 := by
  obtain ⟨l, hl, -⟩ := commB_registers [0xA7, 0x49, 0x0B, 0x1B, 0xA0, 0x04, 0x00] rfl
  exact ⟨l, hl, commB_answers _ l hl, (commB_at_most_five _ l hl).1⟩
example : ∃ d, ∃ l : List CommBMessage, readCommBMessage d = .ok (l.map Iface.val) ∧
    l.map CommBMessage.register = [0x17, 0x40, 0x45, 0x50, 0x60] := commB_answers_occur _ (by decide)

end Modes
