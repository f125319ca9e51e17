import Verif.Props.CodeProgram
/-!
# The reports of the program, for the translated cmd/main.go (C110)

Written by `tools/gen_code_reports.py`: each theorem is that of the same name (without `program_`) of Props/Program, Props/ProgramReplies or
Props/Errors, with `CodePrints`, what the translated code prints, for `printSingleLine`, what the model prints.
-/
namespace Modes
open Spec Text

/-- `reported_output` for the code. -/
theorem program_reported_output (F : FloatTexts) (s f : List UInt8) (level : UInt8) (hl : level.toNat ≤ 2) (hs : Spells s f) (hf : Reported f) :
    ∃ a m t d, HeadNumber f a ∧ readMessage f = .ok m ∧ m.text = .ok t ∧ CodePrints F s level (t! "Reading: " ++ asciiText s ++ '\n' :: (t! " -- Mode-S Information --" ++ '\n' :: ((if bits f 1 5 = 11 then t! "In reply to interrogator: " else t! "From: ") ++ addressText a ++ t! " " ++ '\n' :: (t ++ '\n' :: d)))) := by
  have key := reported_output F goErrors s f level hs hf
  simpa only [← code_line F level hl] using key

/-- `output_identifies` for the code. -/
theorem program_output_identifies (F : FloatTexts) (s s' f f' : List UInt8) (level level' : UInt8) (hl : level.toNat ≤ 2) (hl2 : level'.toNat ≤ 2) (hs : Spells s f) (hs' : Spells s' f') (hf : Reported f) (hf' : Reported f') (t : Txt) (h : CodePrints F s level (t! "Reading: " ++ asciiText s ++ '\n' :: t)) (h' : CodePrints F s' level' (t! "Reading: " ++ asciiText s' ++ '\n' :: t)) :
    ∃ a m m', HeadNumber f a ∧ HeadNumber f' a ∧ readMessage f = .ok m ∧ readMessage f' = .ok m' ∧ decodedFields m = decodedFields m' := by
  have key := output_identifies F goErrors s s' f f' level level' hs hs' hf hf' t ((code_line F _ hl _ _).1 h) ((code_line F _ hl2 _ _).1 h')
  exact key

/-- `plain_output` for the code. -/
theorem program_plain_output (F : FloatTexts) (s f : List UInt8) (level : UInt8) (hl : level.toNat ≤ 2) (hs : Spells s f) (hf : FrameAccepted f) (hfmt : bits f 1 5 ∈ [0, 4, 5, 11, 19, 24]) :
    ∃ a m l t, HeadNumber f a ∧ readMessage f = .ok m ∧ m.lines = .ok l ∧ CodePrints F s level t ∧ t.splitOn '\n' = replyHead s (bits f 1 5) a ++ l.map cat ++ [[], [], []] := by
  have key := plain_output F goErrors s f level hs hf hfmt
  simpa only [← code_line F level hl] using key

/-- `commB_output` for the code. -/
theorem program_commB_output (F : FloatTexts) (hF : F.Faithful) (s f : List UInt8) (level : UInt8) (hl : level.toNat ≤ 2) (hs : Spells s f) (hf : FrameAccepted f) (hfmt : bits f 1 5 = 20 ∨ bits f 1 5 = 21) :
    ∃ a m l c t, Overlaid f a ∧ readMessage f = .ok m ∧ m.lines = .ok l ∧ readCommBMessage (field56 f) = .ok (c.map Iface.val) ∧ CodePrints F s level t ∧ t.splitOn '\n' = replyHead s (bits f 1 5) a ++ l.map cat ++ (t! " -- Comm-B Information --" :: (if c = [] then [t! "Unknown message format"] else ruled (c.map fun m => (m.text F).splitOn '\n'))) ++ [[], []] := by
  have key := commB_output F hF goErrors s f level hs hf hfmt
  simpa only [← code_line F level hl] using key

/-- `acas_output` for the code. -/
theorem program_acas_output (F : FloatTexts) (hF : F.Faithful) (s f : List UInt8) (level : UInt8) (hl : level.toNat ≤ 2) (hs : Spells s f) (hf : FrameAccepted f) (hfmt : bits f 1 5 = 16) (h30 : bits f 33 40 = 0x30) (ra : ResolutionAdvisory) (hra : readResolutionAdvisory ((field56 f).drop 1) = .ok ra) :
    ∃ a m l t, Overlaid f a ∧ readMessage f = .ok m ∧ m.lines = .ok l ∧ CodePrints F s level t ∧ t.splitOn '\n' = replyHead s 16 a ++ l.map cat ++ (t! " -- ACAS Information --" :: (ra.lines F).map cat) ++ [[], []] := by
  have key := acas_output F hF goErrors s f level hs hf hfmt h30 ra hra
  simpa only [← code_line F level hl] using key

/-- `acas_unknown_output` for the code. -/
theorem program_acas_unknown_output (F : FloatTexts) (s f : List UInt8) (level : UInt8) (hl : level.toNat ≤ 2) (hs : Spells s f) (hf : FrameAccepted f) (hfmt : bits f 1 5 = 16) (h30 : bits f 33 40 ≠ 0x30) :
    ∃ a m l t, Overlaid f a ∧ readMessage f = .ok m ∧ m.lines = .ok l ∧ CodePrints F s level t ∧ t.splitOn '\n' = replyHead s 16 a ++ l.map cat ++ [t! " -- ACAS Information --", t! "Unknown message type: [" ++ [hexDigit (bits f 33 36)] ++ t! ":" ++ [hexDigit (bits f 37 40)] ++ t! "]"] ++ [[], []] := by
  have key := acas_unknown_output F goErrors s f level hs hf hfmt h30
  simpa only [← code_line F level hl] using key

/-- `squitter_content_output` for the code. -/
theorem program_squitter_content_output (F : FloatTexts) (hF : F.Faithful) (s f : List UInt8) (level : UInt8) (hl : level.toNat ≤ 2) (hs : Spells s f) (hf : Reported f) (hfmt : bits f 1 5 = 17 ∨ bits f 1 5 = 18 ∧ bits f 6 8 ≤ 1) (M : ADSBMessage) (hM : readADSBMessage level false false (field56 f) = .returns (.val M) false) :
    ∃ m l t, readMessage f = .ok m ∧ m.lines = .ok l ∧ CodePrints F s level t ∧ t.splitOn '\n' = replyHead s (bits f 1 5) (bits f 9 32) ++ l.map cat ++ (t! " -- ADSB Information --" :: (M.text F).splitOn '\n') ++ [[], []] := by
  have key := squitter_content_output F hF goErrors s f level hs hf hfmt M hM
  simpa only [← code_line F level hl] using key

/-- `squitter_not_adsb_output` for the code. -/
theorem program_squitter_not_adsb_output (F : FloatTexts) (s f : List UInt8) (level : UInt8) (hl : level.toNat ≤ 2) (hs : Spells s f) (hf : Reported f) (hfmt : bits f 1 5 = 18) (hcf : 2 ≤ bits f 6 8) :
    ∃ m l t, readMessage f = .ok m ∧ m.lines = .ok l ∧ CodePrints F s level t ∧ t.splitOn '\n' = replyHead s 18 (bits f 9 32) ++ l.map cat ++ (if bits f 6 8 ≤ 5 then [t! " -- TISB Information --", t! "Not implemented"] else []) ++ [[], []] := by
  have key := squitter_not_adsb_output F goErrors s f level hs hf hfmt hcf
  simpa only [← code_line F level hl] using key

/-- `squitter_output` for the code. -/
theorem program_squitter_output (F : FloatTexts) (hF : F.Faithful) (s f me : List UInt8) (capability address : Nat) (hca : capability < 8) (haa : address < 2 ^ 24) (hme : me.length = 7) (hsq : IsSquitter capability address me f) (hs : Spells s f) (level : UInt8) (hl : level.toNat ≤ 2) (M : ADSBMessage) (hM : readADSBMessage level false false me = .returns (.val M) false) :
    ∃ t, CodePrints F s level t ∧ t.splitOn '\n' = squitterHeader s (UInt8.ofNat capability) address me ++ (M.text F).splitOn '\n' ++ [[], []] := by
  have key := squitter_output F hF goErrors s f me capability address hca haa hme hsq hs level M hM
  simpa only [← code_line F level hl] using key

/-- `squitter_shows` for the code. -/
theorem program_squitter_shows (F : FloatTexts) (hF : F.Faithful) (s f me : List UInt8) (capability address : Nat) (hca : capability < 8) (haa : address < 2 ^ 24) (hme : me.length = 7) (hsq : IsSquitter capability address me f) (hs : Spells s f) (level : UInt8) (hl : level.toNat ≤ 2) (M : ADSBMessage) (hM : readADSBMessage level false false me = .returns (.val M) false) :
    ∃ t, CodePrints F s level t ∧ (t.splitOn '\n')[2]? = some (t! "From: " ++ addressText address ++ t! " ") ∧ ∀ label value, 2 ≤ label.length → label.take 2 ∉ headerStarts → ShowsLine (M.text F) label value → ShowsLine t label value := by
  have key := squitter_shows F hF goErrors s f me capability address hca haa hme hsq hs level M hM
  simpa only [← code_line F level hl] using key

/-- `adsb_refusal_printed_partial` for the code. -/
theorem program_adsb_refusal_printed_partial (F : FloatTexts) (s f : List UInt8) (level : UInt8) (hl : level.toNat ≤ 2) (hs : Spells s f) (ha : Succeeds (readMessage f)) (hf : bits f 1 5 = 17 ∨ (bits f 1 5 = 18 ∧ bits f 6 8 ≤ 1)) (hc : generator ∣ messagePoly f) (hn : ¬ AdsbAccepted level.toNat (field56 f)) :
    ∃ body t, adsbError (field56 f) = some t ∧ CodePrints F s level (t! "Reading: " ++ asciiText s ++ t! "\n" ++ t! " -- Mode-S Information --\n" ++ t! "From: " ++ addressText (bits f 9 32) ++ t! " \n" ++ body ++ t! "\n" ++ t! " -- ADSB Information --\n" ++ t ++ t! "\n\n") ∧ ((bits (field56 f) 1 5 = 31 → bits (field56 f) 41 43 ≤ 2) → (bits (field56 f) 1 5 = 28 → bits (field56 f) 6 8 = 2 → bits (field56 f) 29 30 = 2 → bits (field56 f) 31 32 = 0) → SquitterReason (field56 f) t) := by
  have key := adsb_refusal_printed_partial F s f level hl hs ha hf hc hn
  simpa only [← code_line F level hl] using key

/-- `acas_refusal_printed_partial` for the code. -/
theorem program_acas_refusal_printed_partial (F : FloatTexts) (s f : List UInt8) (level : UInt8) (hl : level.toNat ≤ 2) (hs : Spells s f) (ha : Succeeds (readMessage f)) (hf : bits f 1 5 = 16) (h30 : bits f 33 40 = 0x30) (hn : ¬ Succeeds (readResolutionAdvisory ((field56 f).drop 1))) :
    ∃ address body, Overlaid f address ∧ CodePrints F s level (t! "Reading: " ++ asciiText s ++ t! "\n" ++ t! " -- Mode-S Information --\n" ++ t! "From: " ++ addressText address ++ t! " \n" ++ body ++ t! "\n" ++ t! " -- ACAS Information --\n" ++ t! "the Altitude field is malformed\n\n") ∧ bits f 61 62 = 2 ∧ (bits f 63 64 = 0 → TIDIllegal (bits f 63 75)) := by
  have key := acas_refusal_printed_partial F s f level hs ha hf h30 hn
  simpa only [← code_line F level hl] using key

end Modes
