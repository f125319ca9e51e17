import Verif.Props.Errors
import Verif.Props.CRC
import Verif.Lemmas.CommBNum
/-!
# The words of the error of `CheckCRC`
-/
namespace Modes
open Spec Modes.Text Polynomial

/-- `crcError` speaks exactly when there is no result. -/
theorem crcError_isSome (m : ModeSMessage) (f : List UInt8) (al il : AllowList) (e : Txt) :
    crcError m f al il = some e ↔ (¬ ∃ a, checkCRC m f al il = .ok a) ∧ e = parityErrorText m := by
  unfold crcError
  cases checkCRC m f al il with
  | ok a => simp
  | error x => simp [eq_comm]

theorem parityErrorText_eq (f : List UInt8) (m : ModeSMessage) (h : readMessage f = .ok m) :
    parityErrorText m = if bits f 1 5 = 17 ∨ bits f 1 5 = 18 then t! "the message does not have a valid CRC"
      else if bits f 1 5 = 11 then t! "the message parity resolves to an unknown Interrogator Identifier"
      else t! "the message parity resolves to an unknown Address" := by
  cases m with
  | df0 m => rw [(df0_fields f m h).2.1]; rfl
  | df4 m => rw [(df4_fields f m h).2.1]; rfl
  | df5 m => rw [(df5_fields f m h).2.1]; rfl
  | df11 m => rw [(df11_fields f m h).2.1]; rfl
  | df16 m => rw [(df16_fields f m h).2.1]; rfl
  | df17 m => rw [(df17_fields f m h).2.1]; rfl
  | df18 m => rw [(df18_fields f m h).2.1]; rfl
  | df19 m => rw [(df19_fields f m h).2.1]; rfl
  | df20 m => rw [(df20_fields f m h).2.1]; rfl
  | df21 m => rw [(df21_fields f m h).2.1]; rfl
  | df24 m =>
    have := (df24_fields f m h).2.1
    rw [if_neg (by omega), if_neg (by omega)]; rfl

/-- Whoever is not on a list of the check, when every frame carries one code. -/
theorem no_allowed_code (f : List UInt8) (hl : 6 ≤ f.length) (l : AllowList) :
    (¬ ∃ a : UInt32, Overlaid f a.toNat ∧ Allowed l a) ↔ ∃ a : UInt32, Overlaid f a.toNat ∧ ¬ Allowed l a := by
  obtain ⟨c, hc, hu⟩ := overlaid_exists f hl
  have hc' : (UInt32.ofNat c).toNat = c := by
    have := hc.1; rw [UInt32.toNat_ofNat']; omega
  constructor
  · intro h
    exact ⟨UInt32.ofNat c, by rw [hc']; exact hc, fun ha => h ⟨UInt32.ofNat c, by rw [hc']; exact hc, ha⟩⟩
  · rintro ⟨a, ha, hn⟩ ⟨b, hb, hy⟩
    have : a = b := UInt32.toNat_inj.mp ((hu _ ha).trans (hu _ hb).symm)
    exact hn (this ▸ hy)

/-- The error of `CheckCRC` says why. -/
theorem checkCRC_reasons (f : List UInt8) (m : ModeSMessage) (h : readMessage f = .ok m) (al il : AllowList) (e : Txt) :
    crcError m f al il = some e ↔
      ((bits f 1 5 = 17 ∨ bits f 1 5 = 18) ∧ ¬ generator ∣ messagePoly f ∧ e = t! "the message does not have a valid CRC") ∨
      (bits f 1 5 = 11 ∧ (∃ a : UInt32, Overlaid f a.toNat ∧ ¬ Allowed il a) ∧
        e = t! "the message parity resolves to an unknown Interrogator Identifier") ∨
      ((bits f 1 5 ≠ 11 ∧ bits f 1 5 ≠ 17 ∧ bits f 1 5 ≠ 18) ∧ (∃ a : UInt32, Overlaid f a.toNat ∧ ¬ Allowed al a) ∧
        e = t! "the message parity resolves to an unknown Address") := by
  have hlen : 6 ≤ f.length := by
    have := ((readMessage_accepts_iff f).1 ⟨_, h⟩).1; omega
  rw [crcError_isSome, parityErrorText_eq f m h]
  by_cases hs : bits f 1 5 = 17 ∨ bits f 1 5 = 18
  · have key := (checkCRC_squitter f m h hs al il).2.1
    have hex : (¬ ∃ a, checkCRC m f al il = .ok a) ↔ ¬ generator ∣ messagePoly f := by
      refine not_congr ⟨fun ⟨a, ha⟩ => ((key a).1 ha).1, fun hg => ⟨UInt32.ofNat (bits f 9 32), (key _).2 ⟨hg, ?_⟩⟩⟩
      have hb : bits f 9 32 < 2 ^ 24 := bits_lt f 9 32 24 rfl
      rw [UInt32.toNat_ofNat']; omega
    rw [hex, if_pos hs]
    constructor
    · rintro ⟨a, b⟩; exact Or.inl ⟨hs, a, b⟩
    · rintro (⟨_, a, b⟩ | ⟨h11, _⟩ | ⟨hn, _⟩)
      · exact ⟨a, b⟩
      · omega
      · omega
  · rw [if_neg hs]
    by_cases h11 : bits f 1 5 = 11
    · rw [if_pos h11]
      have key := (checkCRC_df11 f m h h11 al il).2
      simp only [key]
      rw [no_allowed_code f hlen]
      constructor
      · rintro ⟨a, b⟩; exact Or.inr (Or.inl ⟨h11, a, b⟩)
      · rintro (⟨h', _⟩ | ⟨_, a, b⟩ | ⟨hn, _⟩)
        · exact absurd h' hs
        · exact ⟨a, b⟩
        · omega
    · rw [if_neg h11]
      have hn : bits f 1 5 ≠ 11 ∧ bits f 1 5 ≠ 17 ∧ bits f 1 5 ≠ 18 := by omega
      have key := (checkCRC_overlaid f m h hn al il).2
      simp only [key]
      rw [no_allowed_code f hlen]
      constructor
      · rintro ⟨a, b⟩; exact Or.inr (Or.inr ⟨hn, a, b⟩)
      · rintro (⟨h', _⟩ | ⟨h', _⟩ | ⟨_, a, b⟩)
        · exact absurd h' hs
        · exact absurd h' h11
        · exact ⟨a, b⟩

/-- An all-call reply whose interrogator is not on the list. -/
example : ∃ m, readMessage [0x5D, 0x48, 0x40, 0xD6, 1, 2, 3] = .ok m ∧
    crcError m [0x5D, 0x48, 0x40, 0xD6, 1, 2, 3] [] [(5, true)] =
      some (t! "the message parity resolves to an unknown Interrogator Identifier") := ⟨_, rfl, by decide +kernel⟩
/-- The same reply without a list, or with a list of addresses only. -/
example : ∃ m, readMessage [0x5D, 0x48, 0x40, 0xD6, 1, 2, 3] = .ok m ∧
    crcError m [0x5D, 0x48, 0x40, 0xD6, 1, 2, 3] [(5, true)] [] = none := ⟨_, rfl, by decide +kernel⟩
/-- A surveillance reply whose address is not on the list. -/
example : ∃ m, readMessage [0x28, 0x00, 0x1B, 0x98, 1, 2, 3] = .ok m ∧
    crcError m [0x28, 0x00, 0x1B, 0x98, 1, 2, 3] [(5, true)] [] =
      some (t! "the message parity resolves to an unknown Address") := ⟨_, rfl, by decide +kernel⟩
/-- A squitter with a wrong parity. -/
example : ∃ m, readMessage [0x8D, 0x48, 0x40, 0xD6, 0, 0, 0, 0, 0, 0, 0, 1, 2, 3] = .ok m ∧
    crcError m [0x8D, 0x48, 0x40, 0xD6, 0, 0, 0, 0, 0, 0, 0, 1, 2, 3] [] [] =
      some (t! "the message does not have a valid CRC") := ⟨_, rfl, by decide +kernel⟩

end Modes
