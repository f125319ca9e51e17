import Verif.Props.CodeProgram
import Verif.Witness.Replies
import Verif.Witness.Errors
import Verif.Witness.EndToEnd

/-!
# Concrete cases for C110

Each example applies one theorem to concrete data and discharges all its hypotheses: they can be met.
-/
open Spec
namespace Modes

/-- Any line whatsoever. -/
example (F : FloatTexts) (s : List UInt8) := code_line_total F 2 (by decide) s

example (F : FloatTexts) : ∃ t, CodePrints F (ascii "5D4840d6112233") 1 t ∧ printSingleLine F goErrors (ascii "5D4840d6112233") 1 = .ok t := by
  obtain ⟨t, ht⟩ := code_line_total F 1 (by decide) (ascii "5D4840d6112233")
  exact ⟨_, ht, (code_line F 1 (by decide) _ _).1 ht⟩

/-- The callsign KLM1023. -/
example : ∃ s t, CodePrints fractionTexts s 2 t ∧ ShowsLine t (t! "Identification:                    ") (t! "KLM1023 ") := by
  obtain ⟨f, hf⟩ := isSquitter_exists 5 0x4840D6 (0x20 :: toBytes 6 (encodeIdent [0x4B, 0x4C, 0x4D, 0x31, 0x30, 0x32, 0x33, 0x20]))
  obtain ⟨s, hs⟩ := spelled f
  obtain ⟨t, h1, -, h2⟩ := code_callsign_printed _ fractionTexts_faithful 2 (by decide) 5 0x4840D6 (by norm_num) (by norm_num) 0x20 (by decide) _ rfl
    (by decide) f s hf hs
  exact ⟨s, t, h1, h2⟩

/-- 38000 ft. -/
example : ∃ s t, CodePrints fractionTexts s 2 t ∧ ShowsLine t (t! "Altitude (feet):                   ") (decimalInt 38000) := by
  obtain ⟨f, hf⟩ := isSquitter_exists 5 0x4840D6 (airborneField 11 0 0 (altitudeField 1560) 0 0 (93000 : UInt32).toNat (51372 : UInt32).toNat)
  obtain ⟨s, hs⟩ := spelled f
  obtain ⟨t, h1, -, h2, -⟩ := code_altitude_printed _ fractionTexts_faithful 2 (by decide) 5 0x4840D6 (by norm_num) (by norm_num) 11 0 0 1560 0 0
    93000 51372 (by decide) (by decide) (by decide) (by decide) (by decide) (by decide) (by decide) (by decide) f s hf hs
  exact ⟨s, t, h1, h2⟩

/-- An all-call reply, and all the lines printed. -/
example (F : FloatTexts) : ∃ t a, CodePrints F (ascii "5D4840d6112233") 1 t ∧
    t.splitOn '\n' = [t! "Reading: 5D4840d6112233", t! " -- Mode-S Information --",
      t! "In reply to interrogator: " ++ addressText a ++ t! " ", t! "Downlink format:  11 - All-call reply",
      t! "Capability:       " ++ Text.modesCapability 5, t! "AddressAnnounced: " ++ addressText 0x4840D6, [], [], []] := by
  obtain ⟨a, ha, -⟩ := overlaid_exists [0x5D, 0x48, 0x40, 0xD6, 0x11, 0x22, 0x33] (by decide)
  obtain ⟨t, h1, h2⟩ := code_allCall_printed F 1 (by decide) 5 0x4840D6 a (by norm_num) (by norm_num) _ _ [0x11, 0x22, 0x33] rfl (by decide) ha spells_df11
  exact ⟨t, a, h1, h2⟩

/-- 35612 ft, format 4. -/
example : ∃ s t, ∃ altitude : Int, CodePrints fractionTexts s 0 t ∧ |(altitude : ℝ) - 35612| ≤ 25 / 2 ∧
    (t.splitOn '\n')[8]? = some (t! "Altitude:             " ++ decimalInt altitude) := by
  obtain ⟨f, hf⟩ := reply_exists 4 (0 * 2 ^ 11 + 3 * 2 ^ 6 + 2 * 2 ^ 2 + 1) (code25 35612) [] 0x4840D6 (by norm_num)
  obtain ⟨s, hs⟩ := spelled f
  obtain ⟨t, a, h1, h2, -, h3⟩ := code_altitude_reply_printed fractionTexts fractionTexts_faithful 0 (by decide) 0 3 2 1 0x4840D6 (by norm_num) (by norm_num)
    (by norm_num) (by norm_num) 35612 _ _ (Or.inl ⟨by norm_num, by norm_num, rfl, rfl⟩) s f [] hs (Or.inl hf)
  exact ⟨s, t, a, h1, h2, h3⟩

/-- Squawking 7600 in format 21: the words are printed. -/
example : ∃ s t, CodePrints fractionTexts s 0 t ∧
    (t.splitOn '\n')[2]? = some (t! "From: " ++ addressText 0x4840D6 ++ t! " ") ∧
    (t.splitOn '\n')[7]? = some (t! "Identity:         7600 [Radiocommunication Failure]") := by
  obtain ⟨f, hf⟩ := reply_exists 21 (0 * 2 ^ 11 + 3 * 2 ^ 6 + 2 * 2 ^ 2 + 1) (squawkCode 7 6 0 0) [0x20, 0x2C, 0xC3, 0x71, 0xC3, 0x2C, 0xE0] 0x4840D6
    (by norm_num)
  obtain ⟨s, hs⟩ := spelled f
  obtain ⟨t, h1, h2, h3⟩ := code_identity_reply_printed fractionTexts fractionTexts_faithful 0 (by decide) 0 3 2 1 0x4840D6 (by norm_num) (by norm_num)
    (by norm_num) (by norm_num) 7 6 0 0 (by norm_num) (by norm_num) (by norm_num) (by norm_num) s f _ hs (Or.inr ⟨rfl, hf⟩)
  exact ⟨s, t, h1, h2, h3⟩

/-- The callsign KLM1023 in a Comm-B reply. -/
example : ∃ s t, CodePrints fractionTexts s 2 t ∧
    t! "Identification:                          KLM1023 " ∈ t.splitOn '\n' := by
  obtain ⟨f, hf⟩ := isCommBReply_exists 21 0x1A2B3 0x4840D6 (0x20 :: toBytes 6 (encodeIdent [0x4B, 0x4C, 0x4D, 0x31, 0x30, 0x32, 0x33, 0x20]))
    (by norm_num)
  obtain ⟨s, hs⟩ := spelled f
  obtain ⟨t, h1, -, h2⟩ := code_commB_callsign_printed fractionTexts fractionTexts_faithful 2 (by decide) 21 0x1A2B3 0x4840D6
    ⟨Or.inr rfl, by norm_num, nofun⟩ _ rfl (by decide) s f hf hs
  exact ⟨s, t, h1, h2⟩

/-- An air-air surveillance reply that carries a resolution advisory. -/
example (F : FloatTexts) (hF : F.Faithful) (s : List UInt8)
    (hs : Spells s [0x80, 0xE1, 0x99, 0x98, 0x30, 0x90, 0x00, 0x00, 0x00, 0x00, 0x00, 1, 2, 3]) :=
  code_acas_advisory_printed F hF s _ 0 (by decide) hs (accepted_of (m := _) rfl) (by decide) (by decide) _ rfl

/-- `8Dx` is not hexadecimal. -/
example (F : FloatTexts) := code_hexadecimal_refusal_printed F [0x38, 0x44, 0x78] 0 (by decide) (hexReason_refused reason_8Dx)

/-- An all-call reply of 14 bytes. -/
example (F : FloatTexts) (s : List UInt8) (hs : Spells s [0x5D, 0x48, 0x40, 0xD6, 1, 2, 3, 4, 5, 6, 7, 8, 9, 10]) :=
  code_frame_refusal_line F s _ 0 (by decide) hs (by rw [readMessage_accepts_iff]; decide)

/-- A squitter with a wrong bit. -/
example (F : FloatTexts) (s : List UInt8) (hs : Spells s squitterBad) :=
  code_parity_refusal_line F s _ 1 (by decide) hs ((readMessage_accepts_iff _).2 (by decide)) (by decide) squitterBad_parity

/-- A squitter whose velocity has the subtype 5. -/
example (F : FloatTexts) : ∃ s, CodePrints F s 1 (textOfLines (squitterHeader s 5 0x4840D6 [0x9D, 0, 0, 0, 0, 0, 0] ++
    [t! "the field SubType must be comprised between 1 and 4 included, got 5", [], []])) := by
  obtain ⟨f, hf⟩ := isSquitter_exists 5 0x4840D6 [0x9D, 0, 0, 0, 0, 0, 0]
  obtain ⟨s, hs⟩ := spelled f
  obtain ⟨t, h1, h2⟩ := code_squitter_refusal_printed F s f _ 5 0x4840D6 (by norm_num) (by norm_num) rfl hf hs 1 (by decide)
    (by rw [← adsb_refused _ (by decide)]; decide +kernel)
  have e : adsbError [0x9D, 0, 0, 0, 0, 0, 0] = some (t! "the field SubType must be comprised between 1 and 4 included, got 5") := by decide +kernel
  rw [e] at h1
  injection h1 with h1
  subst h1
  exact ⟨s, h2⟩

example (F : FloatTexts) := code_output_terminated F _ _ 1 (by decide) spells_df11

/-- Each line of each register the field can be. -/
example : ∃ f s, Spells s f ∧ ∀ c, readCommBMessage [0x20, 0x2C, 0xC3, 0x71, 0xC3, 0x2C, 0xE0] = .ok c → ∀ M, Iface.val M ∈ c →
    ∃ t, CodePrints fractionTexts s 2 t ∧ ∀ label value, ShowsLine (M.text fractionTexts) label value → label ++ value ∈ t.splitOn '\n' := by
  obtain ⟨f, hf⟩ := isCommBReply_exists 21 0x1A2B3 0x4840D6 [0x20, 0x2C, 0xC3, 0x71, 0xC3, 0x2C, 0xE0] (by norm_num)
  obtain ⟨s, hs⟩ := spelled f
  refine ⟨f, s, hs, fun c hc M hM => ?_⟩
  obtain ⟨t, h1, -, h2⟩ := code_commB_line_printed fractionTexts fractionTexts_faithful 2 (by decide) 21 0x1A2B3 0x4840D6
    ⟨Or.inr rfl, by norm_num, nofun⟩ _ f s rfl hf hs c hc M hM
  exact ⟨t, h1, h2⟩

example (F : FloatTexts) := code_lines F 1 (by decide) [ascii "5D4840d6112233", ascii "8Dx"] 0

/-- A file of two lines. -/
theorem code_two_lines (F : FloatTexts) (a b : List UInt8) (args : List (List UInt8)) (file : List UInt8) (hf : file ≠ []) (level : UInt8)
    (hl : level.toNat ≤ 2) : ∃ t u, CodePrints F a level t ∧ CodePrints F b level u ∧
    Ran.main F (fun _ => [a, b]) args file level.toNat = ⟨t ++ u, .returned⟩ := by
  obtain ⟨ts, h1, h2⟩ := code_main_file F (fun _ => [a, b]) args file hf level hl
  obtain ⟨t, ts', ht, h3, rfl⟩ := List.forall₂_cons_left_iff.1 h1
  obtain ⟨u, us, hu, h4, rfl⟩ := List.forall₂_cons_left_iff.1 h3
  obtain rfl := List.forall₂_nil_left_iff.1 h4
  rw [List.flatten_cons, List.flatten_cons, List.flatten_nil, List.append_nil] at h2
  exact ⟨_, _, ht, hu, h2⟩

example (F : FloatTexts) := code_two_lines F (ascii "5D4840d6112233") (ascii "8Dx") [ascii "modes"] (ascii "f.txt") (by decide +kernel) 1 (by decide)
example (F : FloatTexts) := code_main_data F (fun _ => []) (ascii "modes") (ascii "5D4840d6112233") [] 0 (by decide)
example (F : FloatTexts) := code_main_nothing F (fun _ => []) (ascii "modes") 2 (by decide)

/-- `-adsb_reader_level=7` panics. -/
example (F : FloatTexts) : (Ran.main F (fun _ => []) [ascii "modes"] [] 7).ended = .panicked := (code_main_panics_iff F _ _ _ 7).1.2 (by decide)

/-- A run without flags. -/
example (F : FloatTexts) (pi : List UInt8 → Option Int) (files : List UInt8 → Option (List UInt8)) :
    runMain F goErrors pi files [ascii "5D4840d6112233"] = ⟨(Ran.main F (fun _ => []) [ascii "modes", ascii "5D4840d6112233"] [] 0).out,
      if (Ran.main F (fun _ => []) [ascii "modes", ascii "5D4840d6112233"] [] 0).ended = .panicked then .panicked else .returned⟩ :=
  code_main F pi files (ascii "modes") [ascii "5D4840d6112233"] [] 0 rfl [] (fun h => absurd rfl h)

end Modes
