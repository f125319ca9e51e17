import Verif.Props.ProgramReplies
import Verif.Witness.EndToEnd

/-!
# Concrete cases for C98

Each example applies one theorem to concrete data and discharges all its hypotheses: they can be met.
-/
open Spec
namespace Modes

/-- Any all-call reply. -/
example (F : FloatTexts) (E : ErrorTexts) := plain_output F E _ _ 1 spells_df11 reported_df11.1 (by decide)

/-- An all-call reply, and all the lines printed. -/
example (F : FloatTexts) (E : ErrorTexts) : ∃ t a, printSingleLine F E (ascii "5D4840d6112233") 1 = .ok t ∧
    t.splitOn '\n' = [t! "Reading: 5D4840d6112233", t! " -- Mode-S Information --",
      t! "In reply to interrogator: " ++ addressText a ++ t! " ", t! "Downlink format:  11 - All-call reply",
      t! "Capability:       " ++ Text.modesCapability 5, t! "AddressAnnounced: " ++ addressText 0x4840D6, [], [], []] := by
  obtain ⟨a, ha, -⟩ := overlaid_exists [0x5D, 0x48, 0x40, 0xD6, 0x11, 0x22, 0x33] (by decide)
  obtain ⟨t, h1, h2⟩ := allCall_printed F E 1 5 0x4840D6 a (by norm_num) (by norm_num) _ _ [0x11, 0x22, 0x33] rfl (by decide) ha spells_df11
  exact ⟨t, a, h1, h2⟩

/-- 35612 ft, format 4. -/
example (E : ErrorTexts) : ∃ s t, ∃ altitude : Int, printSingleLine fractionTexts E s 0 = .ok t ∧ |(altitude : ℝ) - 35612| ≤ 25 / 2 ∧
    (t.splitOn '\n')[8]? = some (t! "Altitude:             " ++ decimalInt altitude) := by
  obtain ⟨f, hf⟩ := reply_exists 4 (0 * 2 ^ 11 + 3 * 2 ^ 6 + 2 * 2 ^ 2 + 1) (code25 35612) [] 0x4840D6 (by norm_num)
  obtain ⟨s, hs⟩ := spelled f
  obtain ⟨t, a, h1, h2, -, h3⟩ := altitude_reply_printed fractionTexts fractionTexts_faithful E 0 0 3 2 1 0x4840D6 (by norm_num) (by norm_num)
    (by norm_num) (by norm_num) 35612 _ _ (Or.inl ⟨by norm_num, by norm_num, rfl, rfl⟩) s f [] hs (Or.inl hf)
  exact ⟨s, t, a, h1, h2, h3⟩

/-- Squawking 7600 in format 21: the words are printed. -/
example (E : ErrorTexts) : ∃ s t, printSingleLine fractionTexts E s 0 = .ok t ∧
    (t.splitOn '\n')[2]? = some (t! "From: " ++ addressText 0x4840D6 ++ t! " ") ∧
    (t.splitOn '\n')[7]? = some (t! "Identity:         7600 [Radiocommunication Failure]") := by
  obtain ⟨f, hf⟩ := reply_exists 21 (0 * 2 ^ 11 + 3 * 2 ^ 6 + 2 * 2 ^ 2 + 1) (squawkCode 7 6 0 0) [0x20, 0x2C, 0xC3, 0x71, 0xC3, 0x2C, 0xE0] 0x4840D6
    (by norm_num)
  obtain ⟨s, hs⟩ := spelled f
  obtain ⟨t, h1, h2, h3⟩ := identity_reply_printed fractionTexts fractionTexts_faithful E 0 0 3 2 1 0x4840D6 (by norm_num) (by norm_num)
    (by norm_num) (by norm_num) 7 6 0 0 (by norm_num) (by norm_num) (by norm_num) (by norm_num) s f _ hs (Or.inr ⟨rfl, hf⟩)
  exact ⟨s, t, h1, h2, h3⟩

/-- The callsign KLM1023. -/
example (E : ErrorTexts) : ∃ s t, printSingleLine fractionTexts E s 2 = .ok t ∧
    t! "Identification:                          KLM1023 " ∈ t.splitOn '\n' := by
  obtain ⟨f, hf⟩ := isCommBReply_exists 21 0x1A2B3 0x4840D6 (0x20 :: toBytes 6 (encodeIdent [0x4B, 0x4C, 0x4D, 0x31, 0x30, 0x32, 0x33, 0x20]))
    (by norm_num)
  obtain ⟨s, hs⟩ := spelled f
  obtain ⟨t, h1, -, h2⟩ := commB_callsign_printed fractionTexts fractionTexts_faithful E 2 21 0x1A2B3 0x4840D6 ⟨Or.inr rfl, by norm_num, nofun⟩ _ rfl
    (by decide) s f hf hs
  exact ⟨s, t, h1, h2⟩

/-- Any Comm-B reply that is accepted. -/
example (E : ErrorTexts) : ∃ f s a m l, ∃ c : List CommBMessage, ∃ t, Overlaid f a ∧ readMessage f = .ok m ∧ m.lines = .ok l ∧
    readCommBMessage (field56 f) = .ok (c.map Iface.val) ∧ printSingleLine fractionTexts E s 2 = .ok t := by
  obtain ⟨f, hf⟩ := isCommBReply_exists 21 0x1A2B3 0x4840D6 [0x20, 0x2C, 0xC3, 0x71, 0xC3, 0x2C, 0xE0] (by norm_num)
  obtain ⟨m, h1, hx, -⟩ := commB_reply_received 21 0x1A2B3 0x4840D6 _ f (Or.inr rfl) (by norm_num) nofun rfl hf
  obtain ⟨s, hs⟩ := spelled f
  obtain ⟨x, hx⟩ : ∃ x, m = .df21 x := by
    rcases hx with ⟨h, -⟩ | ⟨-, x, rfl, -⟩
    · cases h
    · exact ⟨x, rfl⟩
  subst hx
  obtain ⟨a, m, l, c, t, g1, g2, g3, g4, g5, -⟩ := commB_output fractionTexts fractionTexts_faithful E s f 2 hs (accepted_of h1)
    (Or.inr (df21_fields f x h1).2.1)
  exact ⟨f, s, a, m, l, c, t, g1, g2, g3, g4, g5⟩

/-- An air-air surveillance reply that carries a resolution advisory. -/
example (F : FloatTexts) (hF : F.Faithful) (E : ErrorTexts) (s : List UInt8)
    (hs : Spells s [0x80, 0xE1, 0x99, 0x98, 0x30, 0x90, 0x00, 0x00, 0x00, 0x00, 0x00, 1, 2, 3]) :=
  acas_output F hF E s _ 0 hs (accepted_of (m := _) rfl) (by decide) (by decide) _ rfl

/-- A squitter whose parity is right. -/
theorem reported_of_check (f : List UInt8) (m : ModeSMessage) (h : readMessage f = .ok m) (hf : bits f 1 5 = 17 ∨ bits f 1 5 = 18) (a : UInt32)
    (ha : checkCRC m f [] [] = .ok a) : Reported f :=
  ⟨accepted_of h, fun _ => (((checkCRC_squitter f m h hf [] []).2.1 a).1 ha).1⟩

/-- A TIS-B message (format 18, control field 2). -/
def squitterTISB : List UInt8 := [0x92, 0x48, 0x40, 0xD6, 0x20, 0x2C, 0xC3, 0x71, 0xC3, 0x2C, 0xE0, 0x9A, 0x8E, 0x9D]

theorem reported_tisb : Reported squitterTISB := reported_of_check _ _ rfl (by decide) 0x4840D6 (by decide +kernel)

example (F : FloatTexts) (E : ErrorTexts) (s : List UInt8) (hs : Spells s squitterTISB) : ∃ t, printSingleLine F E s 0 = .ok t ∧
    t! " -- TISB Information --" ∈ t.splitOn '\n' := by
  obtain ⟨m, l, t, -, -, h3, h4⟩ := squitter_not_adsb_output F E s _ 0 hs reported_tisb (by decide) (by decide)
  rw [if_pos (by decide)] at h4
  exact ⟨t, h3, by rw [h4]; simp⟩

/-- A reserved control field. -/
example (F : FloatTexts) (E : ErrorTexts) (s : List UInt8)
    (hs : Spells s [0x97, 0x48, 0x40, 0xD6, 0x20, 0x2C, 0xC3, 0x71, 0xC3, 0x2C, 0xE0, 0x5C, 0xCE, 0x0C]) :=
  squitter_not_adsb_output F E s _ 0 hs (reported_of_check _ _ rfl (by decide) 0x4840D6 (by decide +kernel)) (by decide) (by decide)

/-- An identification sent by a non-transponder device (format 18, control field 0). -/
example (F : FloatTexts) (hF : F.Faithful) (E : ErrorTexts) (s : List UInt8)
    (hs : Spells s [0x90, 0x48, 0x40, 0xD6, 0x20, 0x2C, 0xC3, 0x71, 0xC3, 0x2C, 0xE0, 0x2A, 0x6C, 0x6D]) :=
  squitter_content_output F hF E s _ 0 hs (reported_of_check _ _ rfl (by decide) 0x4840D6 (by decide +kernel)) (by decide) _ rfl

/-- An air-air surveillance reply with the register 3,1. -/
example (F : FloatTexts) (E : ErrorTexts) (s : List UInt8)
    (hs : Spells s [0x80, 0xE1, 0x99, 0x98, 0x31, 0x90, 0x00, 0x00, 0x00, 0x00, 0x00, 1, 2, 3]) :=
  acas_unknown_output F E s _ 0 hs (accepted_of (m := _) rfl) (by decide) (by decide)

end Modes
