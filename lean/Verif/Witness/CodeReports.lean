import Verif.Props.CodeReports
import Verif.Witness.Replies
import Verif.Witness.Errors
import Verif.Witness.EndToEnd

/-!
# Concrete cases for the theorems of Props/CodeReports (C110)

Each example applies one theorem to concrete data and discharges all its hypotheses: they can be met.
-/
open Spec
namespace Modes

/-- An all-call reply. -/
example (F : FloatTexts) := program_reported_output F _ _ 1 (by decide) spells_df11 reported_df11

example (F : FloatTexts) := program_plain_output F _ _ 1 (by decide) spells_df11 reported_df11.1 (by decide)

example (F : FloatTexts) : ∃ t a m, CodePrints F (ascii "5D4840d6112233") 1 (t! "Reading: " ++ asciiText (ascii "5D4840d6112233") ++ '\n' :: t) ∧
    HeadNumber [0x5D, 0x48, 0x40, 0xD6, 0x11, 0x22, 0x33] a ∧ readMessage [0x5D, 0x48, 0x40, 0xD6, 0x11, 0x22, 0x33] = .ok m := by
  obtain ⟨a, m, t, d, -, -, -, h⟩ := program_reported_output F _ _ 1 (by decide) spells_df11 reported_df11
  obtain ⟨a, m, m', h1, h2, h3, -⟩ := program_output_identifies F _ _ _ _ 1 1 (by decide) (by decide) spells_df11 spells_df11 reported_df11
    reported_df11 _ h h
  exact ⟨_, a, m, h, h1, h3⟩

/-- A Comm-B reply. -/
example : ∃ f s, Spells s f ∧ ∃ c : List CommBMessage, ∃ t, readCommBMessage (field56 f) = .ok (c.map Iface.val) ∧ CodePrints fractionTexts s 2 t := by
  obtain ⟨f, hf⟩ := isCommBReply_exists 21 0x1A2B3 0x4840D6 [0x20, 0x2C, 0xC3, 0x71, 0xC3, 0x2C, 0xE0] (by norm_num)
  obtain ⟨m, h1, hx, -⟩ := commB_reply_received 21 0x1A2B3 0x4840D6 _ f (Or.inr rfl) (by norm_num) nofun rfl hf
  obtain ⟨s, hs⟩ := spelled f
  obtain ⟨x, hx⟩ : ∃ x, m = .df21 x := by
    rcases hx with ⟨h, -⟩ | ⟨-, x, rfl, -⟩
    · cases h
    · exact ⟨x, rfl⟩
  subst hx
  obtain ⟨a, m, l, c, t, -, -, -, g4, g5, -⟩ := program_commB_output fractionTexts fractionTexts_faithful s f 2 (by decide) hs (accepted_of h1)
    (Or.inr (df21_fields f x h1).2.1)
  exact ⟨f, s, hs, c, t, g4, g5⟩

/-- An air-air surveillance reply that carries a resolution advisory, and one that carries the register 3,1. -/
example (F : FloatTexts) (hF : F.Faithful) (s : List UInt8)
    (hs : Spells s [0x80, 0xE1, 0x99, 0x98, 0x30, 0x90, 0x00, 0x00, 0x00, 0x00, 0x00, 1, 2, 3]) :=
  program_acas_output F hF s _ 0 (by decide) hs (accepted_of (m := _) rfl) (by decide) (by decide) _ rfl
example (F : FloatTexts) (s : List UInt8)
    (hs : Spells s [0x80, 0xE1, 0x99, 0x98, 0x31, 0x90, 0x00, 0x00, 0x00, 0x00, 0x00, 1, 2, 3]) :=
  program_acas_unknown_output F s _ 0 (by decide) hs (accepted_of (m := _) rfl) (by decide) (by decide)
/-- An advisory whose altitude is malformed. -/
example (F : FloatTexts) (s : List UInt8) (hs : Spells s [0x80, 0xE1, 0x99, 0x98, 0x30, 0x80, 0x00, 0x08, 0x04, 0x00, 0x00, 1, 2, 3]) :=
  program_acas_refusal_printed_partial F s _ 0 (by decide) hs ((readMessage_accepts_iff _).2 (by decide)) (by decide) (by decide) advisory_illegal

/-- An emergency status with a reserved bit set. -/
example (F : FloatTexts) : ∃ s f body, CodePrints F s 1
    (t! "Reading: " ++ asciiText s ++ t! "\n" ++ t! " -- Mode-S Information --\n" ++
        t! "From: " ++ addressText (bits f 9 32) ++ t! " \n" ++ body ++ t! "\n" ++ t! " -- ADSB Information --\n" ++
        t! "the bits 25 to 56 are expected to be 0" ++ t! "\n\n") := by
  obtain ⟨f, hf⟩ := isSquitter_exists 5 0x4840D6 [0xE1, 0, 0, 0, 0, 0, 1]
  obtain ⟨s, hs⟩ := spelled f
  obtain ⟨m, r1, r2, -, r4, r5⟩ := squitter_received 5 0x4840D6 _ f (by norm_num) (by norm_num) rfl hf
  have h17 := (df17_fields f m r1).2.1
  have hme : field56 f = [0xE1, 0, 0, 0, 0, 0, 1] := by rw [← r2]; exact (df17_fields f m r1).2.2.2.2.1.symm
  obtain ⟨a, ha, -⟩ := r5 [] []
  have hc := (((checkCRC_squitter f _ r1 (Or.inl h17) [] []).2.1 a).1 ha).1
  obtain ⟨body, t, h1, h2, -⟩ := program_adsb_refusal_printed_partial F s f 1 (by decide) hs ⟨_, r1⟩ (Or.inl h17) hc
    (by rw [hme, ← adsb_refused _ (by decide)]; decide +kernel)
  have e : adsbError [0xE1, 0, 0, 0, 0, 0, 1] = some (t! "the bits 25 to 56 are expected to be 0") := by decide +kernel
  rw [hme, e] at h1
  injection h1 with h1
  subst h1
  exact ⟨s, f, body, h2⟩

/-- An identification sent by a non-transponder device, and a TIS-B message. -/
example (F : FloatTexts) (hF : F.Faithful) (s : List UInt8)
    (hs : Spells s [0x90, 0x48, 0x40, 0xD6, 0x20, 0x2C, 0xC3, 0x71, 0xC3, 0x2C, 0xE0, 0x2A, 0x6C, 0x6D]) :=
  program_squitter_content_output F hF s _ 0 (by decide) hs (reported_of_check _ _ rfl (by decide) 0x4840D6 (by decide +kernel)) (by decide) _ rfl
example (F : FloatTexts) (s : List UInt8) (hs : Spells s squitterTISB) :=
  program_squitter_not_adsb_output F s _ 0 (by decide) hs reported_tisb (by decide) (by decide)

/-- A position. -/
example : ∃ f s t u M, readADSBMessage 2 false false examplePosition = .returns (.val M) false ∧ Spells s f ∧
    CodePrints fractionTexts s 2 t ∧ CodePrints fractionTexts s 2 u ∧
    t.splitOn '\n' = squitterHeader s 5 0x4840D6 examplePosition ++ (M.text fractionTexts).splitOn '\n' ++ [[], []] ∧
    (u.splitOn '\n')[2]? = some (t! "From: " ++ addressText 0x4840D6 ++ t! " ") := by
  obtain ⟨f, hf⟩ := isSquitter_exists 5 0x4840D6 examplePosition
  obtain ⟨s, hs⟩ := spelled f
  obtain ⟨t, h1, h2⟩ := program_squitter_output _ fractionTexts_faithful s f _ 5 0x4840D6 (by norm_num) (by norm_num) rfl hf hs 2 (by decide) _ rfl
  obtain ⟨u, h3, h4, -⟩ := program_squitter_shows _ fractionTexts_faithful s f _ 5 0x4840D6 (by norm_num) (by norm_num) rfl hf hs 2 (by decide) _ rfl
  exact ⟨f, s, t, u, _, rfl, hs, h1, h3, h2, h4⟩

end Modes
