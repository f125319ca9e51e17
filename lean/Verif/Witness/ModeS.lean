import Verif.Props.Fields
import Verif.Props.Frame
import Verif.Props.Altitude
import Verif.Props.CRC
import Verif.Props.ACAS
import Verif.Props.CommBRegisters
import Verif.Props.ADSB

/-!
# Concrete cases for the theorems about Mode S frames

Each example applies one theorem to concrete data and discharges all its hypotheses: they can be met. Examples that state more
(the value that comes out) are beside the theorems in `Props`.
-/

namespace Modes

open Spec

/-! ### C04, C05: fields of the eleven formats -/

example := df0_fields [0x02, 0xE1, 0x97, 0x98, 1, 2, 3] _ rfl
example := df4_fields [0x20, 0x00, 0x16, 0xB8, 1, 2, 3] _ rfl
example := df5_fields [0x28, 0x00, 0x0A, 0xAA, 1, 2, 3] _ rfl
example := df11_fields [0x5D, 0x48, 0x40, 0xD6, 1, 2, 3] _ rfl
example := df16_fields [0x80, 0xE1, 0x97, 0x98, 0x30, 1, 2, 3, 4, 5, 6, 7, 8, 9] _ rfl
example := df17_fields [0x8D, 0x48, 0x40, 0xD6, 0x20, 0x2C, 0xC3, 0x71, 0xC3, 0x2C, 0xE0, 0x57, 0x60, 0x98] _ rfl
example := df18_fields [0x92, 0x48, 0x40, 0xD6, 0x20, 0x2C, 0xC3, 0x71, 0xC3, 0x2C, 0xE0, 1, 2, 3] _ rfl
example := df19_fields [0x98, 0x48, 0x40, 0xD6, 0x20, 0x2C, 0xC3, 0x71, 0xC3, 0x2C, 0xE0, 1, 2, 3] _ rfl
example := df20_fields [0xA0, 0x00, 0x16, 0xB8, 0x20, 0x2C, 0xC3, 0x71, 0xC3, 0x2C, 0xE0, 1, 2, 3] _ rfl
example := df21_fields [0xA8, 0x00, 0x0A, 0xAA, 0x20, 0x2C, 0xC3, 0x71, 0xC3, 0x2C, 0xE0, 1, 2, 3] _ rfl

/-- C06: a DF4 reply with flight status 2, request 5, II 9, IDS 1, 35600 ft. -/
example := roundtrip_df4 2 5 9 1 0x16B8 99 (by decide) (by decide) (by decide) (by decide) (by decide) (by decide) (by decide)

/-! ### C07 - C11: altitude and identity -/

example : (mBit (encode25 1560) = false ∧ qBit (encode25 1560) = true ∧ n25AC13 (encode25 1560) = 1560) :=
  (encode25_unique 1560 (by decide) (encode25 1560) (by decide)).2 rfl

example : ∃ k : Nat, k < 2560 ∧ (38000 : Int) = 100 * (k : Int) - 1200 ∧ modeC 392 = modeC k :=
  gillham_sound (modeC 392) 38000 (gillham_decodes 392 (by decide))

example : modeC 392 = modeC 392 :=
  gillham_injective _ _ 38000 (gillham_decodes 392 (by decide)) (gillham_decodes 392 (by decide))

example : ∃ c, c < 8192 ∧ AltitudeMeaning c .feet100 38000 := altitude100_complete 392 (by decide)

/-- A reading with the pulses of the lower level: the hypothesis allows any mixture of the two. -/
example := gillham_mixed 391 (by decide) (modeC 392) (fun _ => .inr rfl)

example : AltitudeMeaning (bits [0x20, 0, 0x16, 0xB8, 1, 2, 3] 20 32) .feet25 35600 ∧ (-1200 : Int) ≤ 35600 ∧ (35600 : Int) ≤ 126700 :=
  frame_altitude [0x20, 0, 0x16, 0xB8, 1, 2, 3] _ rfl .feet25 35600 (by decide)

example := frame_identity (toBytes 7 (5 * 2 ^ 51 + squawkCode 7 7 0 0 * 2 ^ 24)) _ rfl ['7', '7', '0', '0'] (by decide)

/-- Two frames with the same squawk, one an identity reply, the other with another flight status. -/
example := frame_identity_injective (toBytes 7 (5 * 2 ^ 51 + squawkCode 7 7 0 0 * 2 ^ 24))
  (toBytes 7 (5 * 2 ^ 51 + 3 * 2 ^ 48 + squawkCode 7 7 0 0 * 2 ^ 24)) _ _ rfl rfl ['7', '7', '0', '0'] (by decide) (by decide)

/-! ### C16 - C18, C64: parity -/

example (al il : AllowList) : ∃ m, readMessage squitterBad = .ok m ∧ checkCRC m squitterBad al il = .error .err :=
  squitter_corruption_detected squitterFrame squitterBad 0x4840D6 (by decide) ⟨_, rfl, by decide +kernel⟩ (by decide) (by decide)
    (by decide) (.inr (by decide +kernel)) al il

example := squitter_distance squitterFrame
  [0x8D, 0x48, 0x40, 0xD6, 0x20, 0x2C, 0xC3, 0x71, 0xC3, 0x2C, 0xE1, 0xA8, 0x94, 0x91] 0x4840D6 0x4840D6 (by decide) (by decide)
  ⟨_, rfl, by decide +kernel⟩ ⟨_, rfl, by decide +kernel⟩ (by decide)

/-- A DF20 reply and the address overlaid on its parity. -/
example : ∃ m a, readMessage df20Frame = .ok m ∧ Overlaid df20Frame a ∧ checkCRC m df20Frame [] [] = .ok (UInt32.ofNat a) := by
  obtain ⟨a, ha, -⟩ := overlaid_exists df20Frame (by decide)
  exact ⟨_, a, rfl, ha, checkCRC_recovers df20Frame _ rfl (by decide) a ha⟩

example := checkCRC_overlaid df20Frame _ rfl (by decide) [(0x4840D6, true)] []
example := checkCRC_noPanic df20Frame _ rfl [(0x4840D6, true)] [(1, false)]

/-! ### C20 - C23, C62, C95: resolution advisories -/

example : Succeeds (readResolutionAdvisory [0xE0, 0x02, 0x24, 0x12, 0x34, 0x56]) := (ra_accepts _).2 (by decide) (by decide)
example : readResolutionAdvisory [0xE0, 0x02] = .error .err := (ra_accepts _).1 (by decide)
example : readResolutionAdvisory [0, 0, 0x08, 0x00, 0x21, 0x05] = .error .err :=
  ((ra_refused_iff _ (by decide)).1).2 (by decide)
example := threat_altitude_partial [0xE0, 0x00, 0x08, 0x90, 0x41, 0x05] (by decide) (by decide) (by decide)
example := threat_range_partial [0xE0, 0x00, 0x08, 0x90, 0x41, 0x05] _ rfl (by decide)
example : 2 * getBearing 60 = 6 * ((60 : UInt8).toNat - 1 : Int) + 6 * (60 : UInt8).toNat := (getBearing_spec 60).2.1 (by decide)

/-! ### C27, C63 -/

example : readMessage ([0x5D, 0x48, 0x40, 0xD6] ++ [9, 8, 7]) =
    ModeSMessage.setParity [9, 8, 7] <$> readMessage ([0x5D, 0x48, 0x40, 0xD6] ++ [1, 2, 3]) :=
  readMessage_parity [0x5D, 0x48, 0x40, 0xD6] [1, 2, 3] [9, 8, 7] rfl rfl

example := readMessage_nil_on_error [0x5D, 0x48] _ rfl

end Modes
