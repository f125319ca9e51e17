import Verif.Props.CodeTexts
import Verif.Witness.Text
/-!
# Concrete messages for the theorems of Props/CodeTexts
-/
namespace Modes
open Spec

/-- The text of an all-call reply, computed by the translated functions. -/
example : (Gen.modes.reader.ReadMessage [0x5D, 0x48, 0x40, 0xD6, 1, 2, 3] >>= Shown.modes.messages.ModeSMessage.ToString) =
    .ok (t! "Downlink format:  11 - All-call reply\nCapability:       5 - Level 2 Airborne\nAddressAnnounced: 48 40 D6") := by
  decide +kernel

example := code_frame_text_total [0x5D, 0x48, 0x40, 0xD6, 1, 2, 3] _ (by rw [same_ReadMessage]; rfl)
example := code_frame_text_identifies [0x20, 0x00, 0x16, 0xB8, 1, 2, 3] [0x20, 0x00, 0x16, 0xB8, 4, 5, 6] _ _ _
  (by rw [same_ReadMessage]; rfl) (by rw [same_ReadMessage]; rfl) rfl rfl
example := code_airborne_text _ fractionTexts_faithful 0 false false [0x58, 0xC3, 0x82, 0xD6, 0x90, 0xC8, 0xAC] _ rfl (by decide)
example := code_velocity_text _ fractionTexts_faithful 0 false false [0x99, 0x44, 0x09, 0x94, 0x08, 0x38, 0x17] _ rfl (by decide) (by decide)
example := code_operationalAirborneV1_text _ fractionTexts_faithful 1 false false [0xF8, 0x33, 0x40, 0x30, 0, 0x3A, 0x2C] _ rfl (by decide) (by decide)
example := code_adsb_text_partial _ fractionTexts_faithful 2 2 false false false false [0xE1, 0xA0, 0, 0, 0, 0, 0] [0xE1, 0xA0, 1, 0, 0, 0, 0]
  _ _ rfl rfl rfl
example := code_advisory_text_actual _ fractionTexts_faithful [0x80, 0, 0, 0, 0, 0] _ (by simp only [translated]; rfl)
example := code_commB_identification_text _ fractionTexts_faithful [0x4B, 0x4C, 0x4D, 0x31, 0x30, 0x32, 0x33, 0x20] rfl (by decide)

end Modes
