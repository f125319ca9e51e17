import Verif.Props.TranslationProgram
import Verif.Props.ProgramReplies
import Verif.Props.TextAdvisory
/-!
# What cmd/main.go prints, as translated: the end-to-end properties of the program for the code itself (C110)

`CodePrints F s level t`: the translated `processSingleLine` of the line `s` prints `t` and does not panic.
-/
namespace Modes
open Spec Text
open Ran (print nothing leave panicking withValue handing ranging)

/-- The translated `processSingleLine`, cmd/main.go:86-141, prints `t` for the line `s` and does not panic. -/
def CodePrints (F : FloatTexts) (s : List UInt8) (level : UInt8) (t : Txt) : Prop :=
  (Ran.processSingleLine F s level).out = t ∧ (Ran.processSingleLine F s level).ended ≠ .panicked

theorem codePrints_of_call {F : FloatTexts} {s : List UInt8} {level : UInt8} {t : Txt}
    (h : Ran.call (Ran.processSingleLine F s level) = ⟨t, .reached⟩) : CodePrints F s level t := by
  unfold CodePrints
  rcases hp : Ran.processSingleLine F s level with ⟨o, e⟩
  rw [hp] at h
  cases e
  · exact ⟨congrArg Printed.out h, (fun h => nomatch h)⟩
  · exact ⟨congrArg Printed.out h, (fun h => nomatch h)⟩
  · exact absurd (congrArg Printed.ended h) (fun h => nomatch h)

theorem call_of_codePrints {F : FloatTexts} {s : List UInt8} {level : UInt8} {t : Txt}
    (h : CodePrints F s level t) : Ran.call (Ran.processSingleLine F s level) = ⟨t, .reached⟩ := by
  obtain ⟨h1, h2⟩ := h
  rcases hp : Ran.processSingleLine F s level with ⟨o, e⟩
  rw [hp] at h1 h2
  cases e
  · exact congrArg (fun t => (⟨t, .reached⟩ : Printed)) h1
  · exact congrArg (fun t => (⟨t, .reached⟩ : Printed)) h1
  · exact absurd rfl h2

/-- C110. The code does not panic on any line, and echoes it first. -/
theorem code_line_total (F : FloatTexts) (level : UInt8) (hl : level.toNat ≤ 2) (s : List UInt8) :
    ∃ t, CodePrints F s level (t! "Reading: " ++ asciiText s ++ '\n' :: t) := by
  obtain ⟨r, t, -, -, h⟩ := program_line F level hl s
  exact ⟨t, codePrints_of_call h⟩

/-- C110. The code prints what the model prints. -/
theorem code_line (F : FloatTexts) (level : UInt8) (hl : level.toNat ≤ 2) (s : List UInt8) (t : Txt) :
    CodePrints F s level t ↔ printSingleLine F goErrors s level = .ok t := by
  obtain ⟨r, u, hr, ht, h⟩ := program_line F level hl s
  have hp : printSingleLine F goErrors s level = .ok (t! "Reading: " ++ asciiText s ++ '\n' :: u) := by
    unfold printSingleLine
    rw [hr]
    show (r.text F goErrors s (bytesOf s) >>= _) = _
    rw [ht]; rfl
  have hc := codePrints_of_call h
  rw [hp]
  constructor
  · rintro ⟨h1, -⟩; rw [← h1, hc.1]
  · intro h; injection h with h; rw [← h]; exact hc

theorem code_of {F : FloatTexts} {level : UInt8} (hl : level.toNat ≤ 2) {s : List UInt8} {t : Txt}
    (h : printSingleLine F goErrors s level = .ok t) : CodePrints F s level t := (code_line F level hl s t).2 h

/-- `callsign_end_to_end` for the code: the sender and the call sign sent are printed. -/
theorem code_callsign_printed (F : FloatTexts) (hF : F.Faithful) (level : UInt8) (hl : level.toNat ≤ 2) (capability address : Nat)
    (hca : capability < 8) (haa : address < 2 ^ 24) (first : UInt8) (hf : 8 ≤ first.toNat ∧ first.toNat < 40) (cs : List UInt8)
    (h8 : cs.length = 8) (hc : ∀ x ∈ cs, IdentChar x) (f s : List UInt8)
    (hsq : IsSquitter capability address (first :: toBytes 6 (encodeIdent cs)) f) (hs : Spells s f) :
    ∃ t, CodePrints F s level t ∧ (t.splitOn '\n')[2]? = some (t! "From: " ++ addressText address ++ t! " ") ∧
      ShowsLine t (t! "Identification:                    ") (cs.map fun x => Char.ofNat x.toNat) := by
  obtain ⟨t, ht, h⟩ := callsign_end_to_end F hF goErrors level capability address hca haa first hf cs h8 hc f s hsq hs
  exact ⟨t, code_of hl ht, h⟩

/-- `altitude_end_to_end` for the code: the sender, the altitude and the position sent are printed. -/
theorem code_altitude_printed (F : FloatTexts) (hF : F.Faithful) (v : UInt8) (hv : v.toNat ≤ 2) (capability address : Nat)
    (hca : capability < 8) (haa : address < 2 ^ 24) (tc status antenna n time format : Nat) (lat lon : UInt32)
    (htc : AirborneTC tc) (h2 : status < 4) (h3 : antenna < 2) (h4 : n < 2048) (h5 : time < 2) (h6 : format < 2)
    (h7 : lat.toNat < 2 ^ 17) (h8 : lon.toNat < 2 ^ 17) (f s : List UInt8)
    (hsq : IsSquitter capability address (airborneField tc status antenna (altitudeField n) time format lat.toNat lon.toNat) f)
    (hs : Spells s f) :
    ∃ t, CodePrints F s v t ∧ (t.splitOn '\n')[2]? = some (t! "From: " ++ addressText address ++ t! " ") ∧
      ShowsLine t (t! "Altitude (feet):                   ") (decimalInt (25 * (n : ℤ) - 1000)) ∧
      ShowsLine t (t! "Encoded Latitude:                  ") (decimal lat.toNat) ∧
      ShowsLine t (t! "Encoded Longitude:                 ") (decimal lon.toNat) := by
  obtain ⟨t, ht, h⟩ := altitude_end_to_end F hF goErrors v hv capability address hca haa tc status antenna n time format lat lon htc h2 h3 h4 h5 h6 h7 h8 f s hsq hs
  exact ⟨t, code_of hv ht, h⟩

/-- `altitude_reply_printed` for the code: the sender and the altitude of a surveillance reply are printed. -/
theorem code_altitude_reply_printed (F : FloatTexts) (hF : F.Faithful) (level : UInt8) (hl : level.toNat ≤ 2) (fs dr iis ids address : Nat)
    (hfs : fs < 8) (hdr : dr < 32) (hiis : iis < 16) (hids : ids < 4) (h : ℝ) (c : Nat) (tol : ℝ) (hsend : SendsAltitude h c tol)
    (s f mb : List UInt8) (hs : Spells s f)
    (hf : IsReply 4 (fs * 2 ^ 11 + dr * 2 ^ 6 + iis * 2 ^ 2 + ids) c [] address f ∨
      (mb.length = 7 ∧ IsReply 20 (fs * 2 ^ 11 + dr * 2 ^ 6 + iis * 2 ^ 2 + ids) c mb address f)) :
    ∃ t, ∃ altitude : Int, CodePrints F s level t ∧ |(altitude : ℝ) - h| ≤ tol ∧
      (t.splitOn '\n')[2]? = some (t! "From: " ++ addressText address ++ t! " ") ∧
      (t.splitOn '\n')[8]? = some (t! "Altitude:             " ++ decimalInt altitude) := by
  obtain ⟨t, a, ht, h⟩ := altitude_reply_printed F hF goErrors level fs dr iis ids address hfs hdr hiis hids h c tol hsend s f mb hs hf
  exact ⟨t, a, code_of hl ht, h⟩

/-- `identity_reply_printed` for the code: the sender and the squawk of an identity reply are printed. -/
theorem code_identity_reply_printed (F : FloatTexts) (hF : F.Faithful) (level : UInt8) (hl : level.toNat ≤ 2) (fs dr iis ids address : Nat)
    (hfs : fs < 8) (hdr : dr < 32) (hiis : iis < 16) (hids : ids < 4) (a b c d : Nat) (ha : a < 8) (hb : b < 8) (hc : c < 8) (hd : d < 8)
    (s f mb : List UInt8) (hs : Spells s f)
    (hf : IsReply 5 (fs * 2 ^ 11 + dr * 2 ^ 6 + iis * 2 ^ 2 + ids) (squawkCode a b c d) [] address f ∨
      (mb.length = 7 ∧ IsReply 21 (fs * 2 ^ 11 + dr * 2 ^ 6 + iis * 2 ^ 2 + ids) (squawkCode a b c d) mb address f)) :
    ∃ t, CodePrints F s level t ∧
      (t.splitOn '\n')[2]? = some (t! "From: " ++ addressText address ++ t! " ") ∧
      (t.splitOn '\n')[7]? = some (t! "Identity:         " ++ ([octalDigit a, octalDigit b, octalDigit c, octalDigit d] ++ squawkNote a b c d)) := by
  obtain ⟨t, ht, h⟩ := identity_reply_printed F hF goErrors level fs dr iis ids address hfs hdr hiis hids a b c d ha hb hc hd s f mb hs hf
  exact ⟨t, code_of hl ht, h⟩

/-- `allCall_printed` for the code: the whole report of an all-call reply. -/
theorem code_allCall_printed (F : FloatTexts) (level : UInt8) (hl : level.toNat ≤ 2) (ca address code : Nat) (hca : ca < 8) (haa : address < 2 ^ 24)
    (s f p : List UInt8) (hp : p.length = 3) (hf : f = toBytes 4 (11 * 2 ^ 27 + ca * 2 ^ 24 + address) ++ p) (ho : Overlaid f code)
    (hs : Spells s f) :
    ∃ t, CodePrints F s level t ∧ t.splitOn '\n' = [t! "Reading: " ++ asciiText s, t! " -- Mode-S Information --",
      t! "In reply to interrogator: " ++ addressText code ++ t! " ", t! "Downlink format:  11 - All-call reply",
      t! "Capability:       " ++ Text.modesCapability (UInt8.ofNat ca), t! "AddressAnnounced: " ++ addressText address, [], [], []] := by
  obtain ⟨t, ht, h⟩ := allCall_printed F goErrors level ca address code hca haa s f p hp hf ho hs
  exact ⟨t, code_of hl ht, h⟩

/-- `commB_line_printed` for the code: each line of a register the field can be is printed. -/
theorem code_commB_line_printed (F : FloatTexts) (hF : F.Faithful) (level : UInt8) (hl : level.toNat ≤ 2) (format header address : Nat)
    (hh : ReadableHeader format header) (mb f s : List UInt8) (hmb : mb.length = 7) (hf : IsCommBReply format header address mb f)
    (hs : Spells s f) (c : List (Iface CommBMessage)) (hc : readCommBMessage mb = .ok c) (M : CommBMessage) (hM : .val M ∈ c) :
    ∃ t, CodePrints F s level t ∧
      (t.splitOn '\n')[2]? = some (t! "From: " ++ addressText address ++ t! " ") ∧
      ∀ label value, ShowsLine (M.text F) label value → label ++ value ∈ t.splitOn '\n' := by
  obtain ⟨t, ht, h⟩ := commB_line_printed F hF goErrors level format header address hh mb f s hmb hf hs c hc M hM
  exact ⟨t, code_of hl ht, h⟩

/-- `commB_callsign_printed` for the code: the sender and the call sign of a Comm-B reply are printed. -/
theorem code_commB_callsign_printed (F : FloatTexts) (hF : F.Faithful) (level : UInt8) (hl : level.toNat ≤ 2) (format header address : Nat)
    (hh : ReadableHeader format header) (cs : List UInt8) (h8 : cs.length = 8) (hcs : ∀ c ∈ cs, IdentChar c) (s f : List UInt8)
    (hf : IsCommBReply format header address (0x20 :: toBytes 6 (encodeIdent cs)) f) (hs : Spells s f) :
    ∃ t, CodePrints F s level t ∧
      (t.splitOn '\n')[2]? = some (t! "From: " ++ addressText address ++ t! " ") ∧
      t! "Identification:                          " ++ (cs.map fun x => Char.ofNat x.toNat) ∈ t.splitOn '\n' := by
  obtain ⟨t, ht, h⟩ := commB_callsign_printed F hF goErrors level format header address hh cs h8 hcs s f hf hs
  exact ⟨t, code_of hl ht, h⟩

/-- `acas_advisory_printed` for the code: the whole report of a resolution advisory. -/
theorem code_acas_advisory_printed (F : FloatTexts) (hF : F.Faithful) (s f : List UInt8) (level : UInt8) (hl : level.toNat ≤ 2) (hs : Spells s f)
    (hf : FrameAccepted f) (hfmt : bits f 1 5 = 16) (h30 : bits f 33 40 = 0x30) (ra : ResolutionAdvisory)
    (hra : readResolutionAdvisory ((field56 f).drop 1) = .ok ra) :
    ∃ a m l t, Overlaid f a ∧ readMessage f = .ok m ∧ m.lines = .ok l ∧ CodePrints F s level t ∧
      t.splitOn '\n' = replyHead s 16 a ++ l.map cat ++ (t! " -- ACAS Information --" ::
        advisoryLines (t! "Upward") (altitudeLine ra.threatIdentityAltitude) (threatRangeLine F (2 * bits ((field56 f).drop 1) 36 41))
          (bearingWritten (bits ((field56 f).drop 1) 43 48)) ((field56 f).drop 1)) ++ [[], []] := by
  obtain ⟨a, m, l, t, h1, h2, h3, ht, h⟩ := acas_advisory_printed F hF goErrors s f level hs hf hfmt h30 ra hra
  exact ⟨a, m, l, t, h1, h2, h3, code_of hl ht, h⟩

/-- `hexadecimal_refusal_printed` for the code: a line that is not hexadecimal, and why. -/
theorem code_hexadecimal_refusal_printed (F : FloatTexts) (s : List UInt8) (level : UInt8) (hl : level.toNat ≤ 2) (h : ¬ ∃ f, Spells s f) :
    ∃ t, HexReason s t ∧ CodePrints F s level (t! "Reading: " ++ asciiText s ++ t! "\n" ++
      t! "unable to convert the given text to hexadecimal values due to: " ++ t) := by
  obtain ⟨t, h1, ht⟩ := hexadecimal_refusal_printed F s level h
  exact ⟨t, h1, code_of hl ht⟩

/-- `frame_refusal_printed` for the code: a frame that is refused, and why. -/
theorem code_frame_refusal_line (F : FloatTexts) (s f : List UInt8) (level : UInt8) (hl : level.toNat ≤ 2) (hs : Spells s f) (h : ¬ Succeeds (readMessage f)) :
    ∃ t, FrameReason f t ∧ CodePrints F s level (t! "Reading: " ++ asciiText s ++ t! "\n" ++ t ++ t! "\n") := by
  obtain ⟨t, h1, ht⟩ := frame_refusal_printed F s f level hs h
  exact ⟨t, h1, code_of hl ht⟩

/-- `parity_refusal_printed` for the code: a squitter whose parity is wrong. -/
theorem code_parity_refusal_line (F : FloatTexts) (s f : List UInt8) (level : UInt8) (hl : level.toNat ≤ 2) (hs : Spells s f) (ha : Succeeds (readMessage f))
    (hf : bits f 1 5 = 17 ∨ bits f 1 5 = 18) (hc : ¬ generator ∣ messagePoly f) :
    CodePrints F s level (t! "Reading: " ++ asciiText s ++ t! "\n" ++ t! "the message does not have a valid CRC\n") :=
  code_of hl (parity_refusal_printed F s f level hs ha hf hc)

/-- `squitter_refusal_output` for the code: the whole report of a squitter whose message is refused. -/
theorem code_squitter_refusal_printed (F : FloatTexts) (s f me : List UInt8) (capability address : Nat)
    (hca : capability < 8) (haa : address < 2 ^ 24) (hme : me.length = 7) (hsq : IsSquitter capability address me f) (hs : Spells s f)
    (level : UInt8) (hl : level.toNat ≤ 2) (hn : ¬ AdsbAccepted level.toNat me) :
    ∃ t, adsbError me = some t ∧ CodePrints F s level (textOfLines (squitterHeader s (UInt8.ofNat capability) address me ++ [t, [], []])) := by
  obtain ⟨t, h1, ht⟩ := squitter_refusal_output F s f me capability address hca haa hme hsq hs level hl hn
  exact ⟨t, h1, code_of hl ht⟩

/-- `output_terminated` for the code: the report of a frame ends with a line break. -/
theorem code_output_terminated (F : FloatTexts) (s f : List UInt8) (level : UInt8) (hl : level.toNat ≤ 2) (hs : Spells s f) :
    ∃ t, CodePrints F s level (t ++ ['\n']) := by
  obtain ⟨t, ht⟩ := output_terminated F goErrors s f level hs
  exact ⟨t, code_of hl ht⟩

/-! ### `main` -/

/-- The lines of a file, one after the other. -/
theorem code_lines (F : FloatTexts) (level : UInt8) (hl : level.toNat ≤ 2) (ls : List (List UInt8)) (i : Nat) :
    ∃ ts, List.Forall₂ (fun s t => CodePrints F s level t) ls ts ∧
      ranging (fun _ str => Ran.call (Ran.processSingleLine F str level)) i ls = ⟨ts.flatten, .reached⟩ := by
  induction ls generalizing i with
  | nil => exact ⟨[], .nil, rfl⟩
  | cons s ls ih =>
    obtain ⟨t, ht⟩ := code_line_total F level hl s
    obtain ⟨ts, hts, h⟩ := ih (i + 1)
    refine ⟨_, .cons ht hts, ?_⟩
    rw [ranging, call_of_codePrints ht, h]
    rfl

/-- `main` after the choice of the reader level. -/
theorem code_main_eq (F : FloatTexts) (readFile : List UInt8 → List (List UInt8)) (args : List (List UInt8)) (file : List UInt8)
    (level : UInt8) (hl : level.toNat ≤ 2) :
    Ran.main F readFile args file level.toNat =
      if file.length > 0 then
        ranging (fun _ str => Ran.call (Ran.processSingleLine F str level)) 0 (readFile file) ;; leave
      else if args.length > 1 then withValue (idx args 1) fun v => Ran.call (Ran.processSingleLine F v level)
      else print (t! "No data provided") := by
  have h : level = 0 ∨ level = 1 ∨ level = 2 := by
    rcases (show level.toNat = 0 ∨ level.toNat = 1 ∨ level.toNat = 2 by omega) with h | h | h
    · exact Or.inl (UInt8.toNat_inj.1 h)
    · exact Or.inr (Or.inl (UInt8.toNat_inj.1 h))
    · exact Or.inr (Or.inr (UInt8.toNat_inj.1 h))
  rcases h with rfl | rfl | rfl <;> rfl

/-- C110. With `-file`, the program prints the reports of the lines of the file, one after the other, and nothing else. -/
theorem code_main_file (F : FloatTexts) (readFile : List UInt8 → List (List UInt8)) (args : List (List UInt8)) (file : List UInt8)
    (hf : file ≠ []) (level : UInt8) (hl : level.toNat ≤ 2) :
    ∃ ts, List.Forall₂ (fun s t => CodePrints F s level t) (readFile file) ts ∧
      Ran.main F readFile args file level.toNat = ⟨ts.flatten, .returned⟩ := by
  obtain ⟨ts, hts, h⟩ := code_lines F level hl (readFile file) 0
  refine ⟨ts, hts, ?_⟩
  rw [code_main_eq F readFile args file level hl, if_pos (List.length_pos_iff.2 hf), h]
  simp [Printed.andThen, leave]

/-- C110. Without a file, the program prints the report of its first argument, whatever it is. -/
theorem code_main_data (F : FloatTexts) (readFile : List UInt8 → List (List UInt8)) (name data : List UInt8) (rest : List (List UInt8))
    (level : UInt8) (hl : level.toNat ≤ 2) :
    ∃ t, CodePrints F data level t ∧ Ran.main F readFile (name :: data :: rest) [] level.toNat = ⟨t, .reached⟩ := by
  obtain ⟨t, ht⟩ := code_line_total F level hl data
  refine ⟨_, ht, ?_⟩
  rw [code_main_eq F readFile _ [] level hl, if_neg (by simp), if_pos (by simp)]
  exact call_of_codePrints ht

/-- C110. Without a file and without argument, it says so. -/
theorem code_main_nothing (F : FloatTexts) (readFile : List UInt8 → List (List UInt8)) (name : List UInt8) (level : UInt8) (hl : level.toNat ≤ 2) :
    Ran.main F readFile [name] [] level.toNat = ⟨t! "No data provided", .reached⟩ := by
  rw [code_main_eq F readFile _ [] level hl, if_neg (by simp), if_neg (by simp)]; rfl

/-- C110. The program panics for a reader level other than 0, 1 and 2, before printing anything, and never otherwise. -/
theorem code_main_panics_iff (F : FloatTexts) (readFile : List UInt8 → List (List UInt8)) (args : List (List UInt8)) (file : List UInt8)
    (level : Int) : ((Ran.main F readFile args file level).ended = .panicked ↔ ¬ (level = 0 ∨ level = 1 ∨ level = 2)) ∧
      ((Ran.main F readFile args file level).ended = .panicked → (Ran.main F readFile args file level).out = []) := by
  by_cases h : level = 0 ∨ level = 1 ∨ level = 2
  · have hn : (Ran.main F readFile args file level).ended ≠ .panicked := by
      obtain ⟨v, hv, hl⟩ : ∃ v : UInt8, level = v.toNat ∧ v.toNat ≤ 2 := by
        rcases h with rfl | rfl | rfl
        · exact ⟨0, rfl, by decide⟩
        · exact ⟨1, rfl, by decide⟩
        · exact ⟨2, rfl, by decide⟩
      rw [hv]
      by_cases hf : file = []
      · subst hf
        rw [code_main_eq F readFile args [] v hl, if_neg (by simp)]
        match args with
        | [] => exact (fun h => nomatch h)
        | [_] => exact (fun h => nomatch h)
        | a :: d :: rest =>
          obtain ⟨t, ht⟩ := code_line_total F v hl d
          rw [if_pos (by simp)]
          show (Ran.call (Ran.processSingleLine F d v)).ended ≠ _
          rw [call_of_codePrints ht]
          exact (fun h => nomatch h)
      · obtain ⟨ts, -, h⟩ := code_main_file F readFile args file hf v hl
        rw [h]; exact (fun h => nomatch h)
    exact ⟨⟨fun h => absurd h hn, fun h' => absurd h h'⟩, fun h => absurd h hn⟩
  · have e : Ran.main F readFile args file level = ⟨[], .panicked⟩ := by
      unfold Ran.main
      rw [if_neg (by tauto), if_neg (by tauto), if_neg (by tauto)]; rfl
    rw [e]
    exact ⟨⟨fun _ => h, fun _ => rfl⟩, fun _ => rfl⟩

/-- C110. The translated `main` after the flags of the model (`parseFlags`) and the lines of the model (`scanLines`) runs as the model says. -/
theorem code_main (F : FloatTexts) (pi : List UInt8 → Option Int) (files : List UInt8 → Option (List UInt8)) (name : List UInt8)
    (args : List (List UInt8)) (file : List UInt8) (level : Int) (hp : parseFlags pi [] 0 args = .ok file level)
    (lines : List (List UInt8)) (hf : file ≠ [] → ∃ content, files file = some content ∧ scanLines content = some lines) :
    runMain F goErrors pi files args = ⟨(Ran.main F (fun _ => lines) (name :: args) file level).out,
      if (Ran.main F (fun _ => lines) (name :: args) file level).ended = .panicked then .panicked else .returned⟩ := by
  unfold runMain
  rw [hp]
  simp only
  by_cases h : level = 0 ∨ level = 1 ∨ level = 2
  · obtain ⟨v, hv, hl⟩ : ∃ v : UInt8, level = v.toNat ∧ v.toNat ≤ 2 := by
      rcases h with rfl | rfl | rfl
      · exact ⟨0, rfl, by decide⟩
      · exact ⟨1, rfl, by decide⟩
      · exact ⟨2, rfl, by decide⟩
    have hvv : UInt8.ofNat level.toNat = v := by rw [hv]; simp
    have same (s : List UInt8) (hs : s ∈ args ∨ s ∈ lines) (t : Txt) : CodePrints F s v t → printSingleLine F goErrors s v = .ok t :=
      (code_line F v hl s t).1
    rw [if_pos h, hvv, hv]
    by_cases hfile : file = []
    · subst hfile
      rw [if_neg (by simp)]
      match args with
      | [] => rw [code_main_nothing F _ name v hl]; rfl
      | d :: rest =>
        obtain ⟨t, ht, e⟩ := code_main_data F (fun _ => lines) name d rest v hl
        rw [e]
        simp only [same d (Or.inl List.mem_cons_self) t ht]
        rfl
    · obtain ⟨content, h1, h2⟩ := hf hfile
      obtain ⟨ts, hts, e⟩ := code_main_file F (fun _ => lines) (name :: args) file hfile v hl
      rw [if_pos hfile, h1, e]
      simp only [h2]
      have hpl : ∀ (ls : List (List UInt8)) (ts : List Txt), (∀ s ∈ ls, s ∈ args ∨ s ∈ lines) →
          List.Forall₂ (fun s t => CodePrints F s v t) ls ts → printLines F goErrors v ls = .ok ts.flatten := by
        intro ls ts hm hts
        induction hts with
        | nil => rfl
        | cons ht _ ih =>
          rw [printLines, same _ (hm _ List.mem_cons_self) _ ht, ih (fun s hs => hm s (List.mem_cons_of_mem _ hs))]
          rfl
      rw [hpl lines ts (fun s hs => Or.inr hs) hts]
      rfl
  · have e := (code_main_panics_iff F (fun _ => lines) (name :: args) file level)
    have hp := e.1.2 h
    rw [if_neg h, e.2 hp, hp]
    rfl

end Modes
