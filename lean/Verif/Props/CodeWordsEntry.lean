import Verif.Props.CodeWords
import Verif.Props.Errors
/-!
# The words of errors of the entry points, of the translated code

The theorems of Props/CodeWords that need more than a replacement of names: `CheckCRC` and `ReadADSBMessage`, the accessors of the
whole decoding; and concrete cases.
-/
namespace Modes
open Spec Text Polynomial

/-- `checkCRC_reasons` (C106), of the translated code. -/
theorem words_checkCRC_reasons (f : List UInt8) (m : ModeSMessage) (h : Gen.modes.reader.ReadMessage f = .ok m) (al il : AllowList) (e : Txt) :
    (Said.modes.reader.CheckCRC m f al il).words = some e ↔
      ((bits f 1 5 = 17 ∨ bits f 1 5 = 18) ∧ ¬ generator ∣ messagePoly f ∧ e = t! "the message does not have a valid CRC") ∨
      (bits f 1 5 = 11 ∧ (∃ a : UInt32, Overlaid f a.toNat ∧ ¬ Allowed il a) ∧
        e = t! "the message parity resolves to an unknown Interrogator Identifier") ∨
      ((bits f 1 5 ≠ 11 ∧ bits f 1 5 ≠ 17 ∧ bits f 1 5 ≠ 18) ∧ (∃ a : UInt32, Overlaid f a.toNat ∧ ¬ Allowed al a) ∧
        e = t! "the message parity resolves to an unknown Address") := by
  rw [same_ReadMessage] at h
  rw [same_words_crcError m f al il (checkCRC_noPanic f m h al il)]
  exact checkCRC_reasons f m h al il e

/-- `adsb_refused` (C100), of the translated code. -/
theorem words_adsb_refused (v : UInt8) (hv : v.toNat ≤ 2) (a c : Bool) (d : List UInt8) :
    (Said.adsb.reader.ReadADSBMessage v a c d).words = none ↔ AdsbAccepted v.toNat d := by
  rw [same_words_adsbError v hv]; exact adsb_refused v hv d

/-- `adsb_reason_partial` (C100), of the translated code. -/
theorem words_adsb_reason_partial (v : UInt8) (hl : v.toNat ≤ 2) (a c : Bool) (d : List UInt8) (h7 : d.length = 7)
    (hv : bits d 1 5 = 31 → bits d 41 43 ≤ 2)
    (hra : bits d 1 5 = 28 → bits d 6 8 = 2 → bits d 29 30 = 2 → bits d 31 32 = 0) (t : List Char)
    (h : (Said.adsb.reader.ReadADSBMessage v a c d).words = some t) : SquitterReason d t := by
  rw [same_words_adsbError v hl] at h; exact adsb_reason_partial d h7 hv hra t h

/-- A frame of the unknown format 1, a squitter of 7 bytes, a short register and a velocity read as a position. -/
example : (Said.modes.reader.ReadMessage [0x08, 1, 2, 3, 4, 5, 6]).words = some (t! "the downlink format 1 is not supported") := by
  decide +kernel
example : (Said.modes.reader.ReadMessage [0x8D, 1, 2, 3, 4, 5, 6]).words = some (t! "DF17 message must be 14 bytes long") := by
  decide +kernel
example : (Said.bds.bds20.ReadAircraftIdentification [0x20, 1]).words =
    some (t! "the data for Comm-B AircraftIdentification message must be 7 bytes long") := by decide +kernel
example : (Said.bds.bds06.ReadSurfacePosition [0x99, 0x44, 0x09, 0x94, 0x08, 0x38, 0x17]).words =
    some (t! "the field FormatTypeCode must be comprised between 5 and 8 included, got 19") := by decide +kernel

end Modes
