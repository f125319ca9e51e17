import Verif.Props.ToldApartADSB

/-!
# Concrete cases for C96
-/

namespace Modes

/-- Two different fields that are reported as the same message: the hypotheses do not force equality. -/
example := adsb_told_apart_partial 2 false false [0x9B, 0x06, 0xB6, 0xAF, 0x18, 0x94, 0x00] [0x9B, 0x06, 0xB6, 0x2F, 0x18, 0x94, 0x00] _ rfl rfl
example := adsb_told_apart_partial 1 false true [0xEA, 0xA1, 0x48, 0x5C, 0xBF, 0x3F, 0x8C] [0xEA, 0x21, 0x48, 0x5C, 0xBF, 0x3F, 0x8C] _ rfl rfl
example := adsb_told_apart_partial 2 true false [0x58, 0xC3, 0x82, 0xD6, 0x90, 0xC8, 0xAC] [0x58, 0xC3, 0x82, 0xD6, 0x90, 0xC8, 0xAC] _ rfl rfl
example : ∃ a b : List UInt8, a ≠ b ∧ Spec.AgreeExcept a b [27] := by
  obtain ⟨a, b, la, lb, m, h1, h2, h3, h4, h5, h6⟩ := commB_told_apart_refuted.1
  exact ⟨a, b, fun h => (by rw [h, h6] at h5; cases h5), commB_told_apart_partial a b la lb h1 h2 _ h3 h4⟩
example : ∃ a b : List UInt8, a ≠ b ∧ Spec.AgreeExcept a b [35] := by
  obtain ⟨a, b, la, lb, m, h1, h2, h3, h4, h5, h6⟩ := commB_told_apart_refuted.2.1
  exact ⟨a, b, fun h => (by rw [h, h6] at h5; cases h5), commB_told_apart_partial a b la lb h1 h2 _ h3 h4⟩

end Modes
