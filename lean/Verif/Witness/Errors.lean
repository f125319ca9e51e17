import Verif.Props.Errors
import Verif.Witness.EndToEnd

/-!
# Concrete cases for C100

Each example applies one theorem to concrete data and discharges all its hypotheses: they can be met.
-/
open Spec
namespace Modes

/-- `8Dx` is not hexadecimal: its third character is no digit. -/
theorem reason_8Dx : HexReason [0x38, 0x44, 0x78] (t! "encoding/hex: invalid byte: U+0078 'x'") :=
  .shown (p := [0x38, 0x44]) (q := []) (c := 0x78) rfl (by
    intro x hx
    rcases List.mem_cons.1 hx with rfl | hx
    · exact ⟨8, by unfold HexDigit; decide⟩
    · rcases List.mem_cons.1 hx with rfl | hx
      · exact ⟨13, by unfold HexDigit; decide⟩
      · cases hx) (by rintro ⟨v, h⟩; unfold HexDigit at h; simp at h; omega) (by decide)

example : frameError [0x5D, 0x48, 0x40, 0xD6, 1, 2, 3, 4, 5, 6, 7, 8, 9, 10] = some (t! "DF11 message must be 7 bytes long") := by
  decide +kernel

example : frameError [0xC8, 0x48, 0x40, 0xD6, 1, 2, 3] = some (t! "DF24 message must be 14 bytes long") := by decide +kernel

example : frameError [0x10, 0x48, 0x40, 0xD6, 1, 2, 3] = some (t! "the downlink format 2 is not supported") := by decide +kernel

example : adsbError [0xE1, 0, 0, 0, 0, 0, 1] = some (t! "the bits 25 to 56 are expected to be 0") := by decide +kernel

example (F : FloatTexts) : ∃ s, printSingleLine F goErrors s 1 = .ok (textOfLines (squitterHeader s 5 0x4840D6 [0x9D, 0, 0, 0, 0, 0, 0] ++
    [t! "the field SubType must be comprised between 1 and 4 included, got 5", [], []])) := by
  obtain ⟨f, hf⟩ := isSquitter_exists 5 0x4840D6 [0x9D, 0, 0, 0, 0, 0, 0]
  obtain ⟨s, hs⟩ := spelled f
  obtain ⟨t, h1, h2⟩ := squitter_refusal_output F s f _ 5 0x4840D6 (by norm_num) (by norm_num) rfl hf hs 1 (by decide)
    (by rw [← adsb_refused _ (by decide)]; decide +kernel)
  have e : adsbError [0x9D, 0, 0, 0, 0, 0, 0] = some (t! "the field SubType must be comprised between 1 and 4 included, got 5") := by decide +kernel
  rw [e] at h1
  injection h1 with h1
  subst h1
  exact ⟨s, h2⟩

/-- An operational status of version 7 and subtype 1. -/
example := adsb_reason_refuted [0xF9, 0, 0, 0, 0, 0xE0, 0] rfl (by decide) (by decide) (by decide)


example (F : FloatTexts) := hexadecimal_refusal_printed F [0x38, 0x44, 0x78] 0 (hexReason_refused reason_8Dx)

example : hexadecimalError [0x38, 0x44, 0x78] = some (t! "encoding/hex: invalid byte: U+0078 'x'") := ((hexadecimal_reason _).1 _).2 reason_8Dx

/-- An all-call reply of 14 bytes. -/
example (F : FloatTexts) (s : List UInt8) (hs : Spells s [0x5D, 0x48, 0x40, 0xD6, 1, 2, 3, 4, 5, 6, 7, 8, 9, 10]) :=
  frame_refusal_printed F s _ 0 hs (by rw [readMessage_accepts_iff]; decide)

example := (frame_reason [0x5D, 0x48, 0x40, 0xD6, 1, 2, 3, 4, 5, 6, 7, 8, 9, 10]).1 (t! "DF11 message must be 7 bytes long") (by decide +kernel)

/-- An advisory of type 2 whose altitude has no C pulse. -/
theorem advisory_illegal : ¬ Succeeds (readResolutionAdvisory [0x80, 0, 0x08, 0x04, 0, 0]) := by
  rintro ⟨r, h⟩
  rw [(ra_fails_iff_partial [0x80, 0, 0x08, 0x04, 0, 0] (by decide)).2 (Or.inr (by decide))] at h
  cases h

example := advisory_reason_partial [0x80, 0, 0x08, 0x04, 0, 0] (by decide)

example (F : FloatTexts) (s : List UInt8) (hs : Spells s [0x80, 0xE1, 0x99, 0x98, 0x30, 0x80, 0x00, 0x08, 0x04, 0x00, 0x00, 1, 2, 3]) :=
  acas_refusal_printed_partial F s _ 0 hs ((readMessage_accepts_iff _).2 (by decide)) (by decide) (by decide) advisory_illegal

theorem squitterBad_parity : ¬ generator ∣ messagePoly squitterBad := by
  intro h
  have e := ((checkCRC_squitter squitterBad _ rfl (by decide) [] []).2.1 (UInt32.ofNat (bits squitterBad 9 32))).2 ⟨h, by decide +kernel⟩
  revert e
  decide +kernel

/-- A squitter with a wrong bit. -/
example (F : FloatTexts) (s : List UInt8) (hs : Spells s squitterBad) :=
  parity_refusal_printed F s _ 1 hs ((readMessage_accepts_iff _).2 (by decide)) (by decide) squitterBad_parity

/-- A status of type 1 with a reserved bit set. -/
example := adsb_reason_partial [0xE1, 0, 0, 0, 0, 0, 1] rfl (by decide) (by decide) (t! "the bits 25 to 56 are expected to be 0") (by decide +kernel)

/-- The same in a frame. -/
example (F : FloatTexts) : ∃ s f body, printSingleLine F goErrors s 1 =
    .ok (t! "Reading: " ++ asciiText s ++ t! "\n" ++ t! " -- Mode-S Information --\n" ++
        t! "From: " ++ addressText (bits f 9 32) ++ t! " \n" ++ body ++ t! "\n" ++ t! " -- ADSB Information --\n" ++
        t! "the bits 25 to 56 are expected to be 0" ++ t! "\n\n") := by
  obtain ⟨f, hf⟩ := isSquitter_exists 5 0x4840D6 [0xE1, 0, 0, 0, 0, 0, 1]
  obtain ⟨s, hs⟩ := spelled f
  obtain ⟨m, r1, r2, -, r4, r5⟩ := squitter_received 5 0x4840D6 _ f (by norm_num) (by norm_num) rfl hf
  have h17 := (df17_fields f m r1).2.1
  have hme : field56 f = [0xE1, 0, 0, 0, 0, 0, 1] := by rw [← r2]; exact (df17_fields f m r1).2.2.2.2.1.symm
  obtain ⟨a, ha, -⟩ := r5 [] []
  have hc := (((checkCRC_squitter f _ r1 (Or.inl h17) [] []).2.1 a).1 ha).1
  obtain ⟨body, t, h1, h2, -⟩ := adsb_refusal_printed_partial F s f 1 (by decide) hs ⟨_, r1⟩ (Or.inl h17) hc
    (by rw [hme, ← adsb_refused _ (by decide)]; decide +kernel)
  have e : adsbError [0xE1, 0, 0, 0, 0, 0, 1] = some (t! "the bits 25 to 56 are expected to be 0") := by decide +kernel
  rw [hme, e] at h1
  injection h1 with h1
  subst h1
  exact ⟨s, f, body, h2⟩

example := (adsb_refused 0 (by decide) [0xE1, 0, 0, 0, 0, 0, 1]).not

end Modes
