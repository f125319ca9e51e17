import Verif.Model.Program
import Verif.Props.EndToEnd
import Verif.Props.TextShows
/-!
# What the program prints, and its command line
-/
namespace Spec

/-- Two hexadecimal digits (capitals). -/
def hexPair (n : Nat) : List Char :=
  [("0123456789ABCDEF".toList)[n / 16 % 16]!, ("0123456789ABCDEF".toList)[n % 16]!]

/-- An address of 24 bits: three pairs of hexadecimal digits, with spaces between them. -/
def addressText (a : Nat) : List Char := hexPair (a / 65536) ++ ' ' :: hexPair (a / 256) ++ ' ' :: hexPair a

end Spec
namespace Modes
open Spec

theorem hex02_pair : ∀ b : UInt8, hex02 b = hexPair b.toNat := by
  intro b
  have : ∀ n < 256, [hexDigit (n / 16), hexDigit (n % 16)] = hexPair n := by decide +kernel
  exact this _ b.toNat_lt

theorem hexPair_mod (n : Nat) : hexPair (n % 256) = hexPair n := by
  unfold hexPair
  have h1 : n % 256 / 16 % 16 = n / 16 % 16 := by omega
  have h2 : n % 256 % 16 = n % 16 := by omega
  rw [h1, h2]

theorem addressAnnouncedText_eq (a : UInt32) : addressAnnouncedText a = addressText a.toNat := by
  obtain ⟨h1, h2, h3⟩ := addressBytes a
  unfold addressAnnouncedText addressText
  simp only [hexText, hex02_pair, h1, h2, h3, hexPair_mod]
  simp

theorem icaoAddressText_eq (a : UInt32) : icaoAddressText a = addressText a.toNat ++ t! " " := by
  rw [← addressAnnouncedText_eq]; rfl

/-! ### The output of a line -/

theorem printSingleLine_of {F : FloatTexts} {E : ErrorTexts} {s f : List UInt8} {level : UInt8} {r : Report} {t : Txt}
    (h : Spells s f) (hr : processSingleLine s level = .ok r) (ht : r.text F E s f = .ok t) :
    printSingleLine F E s level = .ok (t! "Reading: " ++ asciiText s ++ '\n' :: t) := by
  unfold printSingleLine
  rw [hr, (hexDecode_iff s f).2 h]
  simp only [go_bind_ok, ht, go_pure]

theorem sentBy_text {F : FloatTexts} {E : ErrorTexts} {s f : List UInt8} {a : UInt32} {m : ModeSMessage} {d : Details} {t : Txt}
    (h : m.text = .ok t) : (Report.sentBy a m d).text F E s f = .ok (t! " -- Mode-S Information --\n" ++ t! "From: " ++
      icaoAddressText a ++ t! "\n" ++ t ++ t! "\n" ++ d.text F E f m ++ t! "\n") := by
  simp only [Report.text, h, go_bind_ok, go_pure]

theorem reply_text {F : FloatTexts} {E : ErrorTexts} {s f : List UInt8} {a : UInt32} {m : ModeSMessage} {d : Details} {t : Txt}
    (h : m.text = .ok t) : (Report.replyToInterrogator a m d).text F E s f = .ok (t! " -- Mode-S Information --\n" ++
      t! "In reply to interrogator: " ++ icaoAddressText a ++ t! "\n" ++ t ++ t! "\n" ++ d.text F E f m ++ t! "\n") := by
  simp only [Report.text, h, go_bind_ok, go_pure]

/-- C79. Whatever the text and the reader level, the line is echoed and then reported: there is always an output. -/
theorem line_output (F : FloatTexts) (E : ErrorTexts) (s : List UInt8) (level : UInt8) :
    ∃ t, printSingleLine F E s level = .ok (t! "Reading: " ++ asciiText s ++ '\n' :: t) := by
  by_cases h : ∃ f, Spells s f
  · obtain ⟨f, hf⟩ := h
    obtain ⟨r, hr, hs⟩ := line_report s f level hf
    have : ∃ t, r.text F E s f = .ok t := by
      rcases hs with ⟨-, rfl⟩ | ⟨-, -, -, rfl⟩ | ⟨-, a, m, d, hm, -, hs⟩
      · exact ⟨_, rfl⟩
      · exact ⟨_, rfl⟩
      · obtain ⟨l, -, ht⟩ := text_ok m (readMessage_shaped f m hm)
        rcases hs with ⟨-, -, -, rfl⟩ | ⟨-, -, rfl⟩ | ⟨-, -, -, -, rfl⟩ <;>
          (simp only [Report.text, ht, go_bind_ok, go_pure]; exact ⟨_, rfl⟩)
    obtain ⟨t, ht⟩ := this
    exact ⟨t, printSingleLine_of hf hr ht⟩
  · refine ⟨t! "unable to convert the given text to hexadecimal values due to: " ++ E.hexadecimal s, ?_⟩
    unfold printSingleLine
    rw [(line_notHexadecimal s level).2 h]
    rfl

/-- C79. The output of a file is the outputs of its lines, one after the other: no line changes the report of another. -/
theorem file_output (F : FloatTexts) (E : ErrorTexts) (level : UInt8) (ls : List (List UInt8)) :
    ∃ ts, List.Forall₂ (fun s t => printSingleLine F E s level = .ok t) ls ts ∧ printLines F E level ls = .ok ts.flatten := by
  induction ls with
  | nil => exact ⟨[], .nil, rfl⟩
  | cons s ls ih =>
    obtain ⟨ts, h1, h2⟩ := ih
    obtain ⟨t, ht⟩ := line_output F E s level
    refine ⟨_ :: ts, .cons ht h1, ?_⟩
    unfold printLines
    rw [ht, h2]
    rfl

/-- The lines of the report of an extended squitter before the ADS-B message: the echo, the address, the Mode S information. -/
def squitterHeader (s : List UInt8) (capability : UInt8) (address : Nat) (me : List UInt8) : List (List Char) :=
  [t! "Reading: " ++ asciiText s, t! " -- Mode-S Information --", t! "From: " ++ addressText address ++ t! " ",
   t! "Downlink format:         17 - Extended squitter", t! "Capability:              " ++ Text.modesCapability capability,
   t! "AddressAnnounced:        " ++ addressText address, t! "MessageExtendedSquitter: " ++ hexText me, t! " -- ADSB Information --"]

theorem spells_oneLine {s f : List UInt8} (h : Spells s f) : OneLine (asciiText s) := by
  refine asciiText_line ?_
  induction h with
  | nil => simp
  | cons ha hb hn h ih =>
    unfold HexDigit at ha hb
    simp only [List.mem_cons, not_or]
    refine ⟨?_, ?_, ih⟩ <;> (rintro rfl; simp at ha hb; try omega)

/-- A text made of lines and a last line break has these lines, and an empty one after the last break. -/
theorem textOfLines_append {a b : List (List Char)} (ha : a ≠ []) (hb : b ≠ []) :
    textOfLines (a ++ b) = textOfLines a ++ '\n' :: textOfLines b := by
  induction a with
  | nil => exact absurd rfl ha
  | cons x a ih =>
    cases a with
    | nil =>
      cases b with
      | nil => exact absurd rfl hb
      | cons y b => rfl
    | cons z a =>
      have := ih (by simp)
      show x ++ '\n' :: textOfLines (z :: a ++ b) = x ++ '\n' :: textOfLines (z :: a) ++ '\n' :: textOfLines b
      rw [this]; simp

theorem oneLine_addressText (a : Nat) : OneLine (addressText a) := by
  have h : ∀ n, OneLine (hexPair n) := by
    intro n
    have : ∀ m < 256, OneLine (hexPair m) := by unfold OneLine; decide +kernel
    rw [← hexPair_mod]; exact this _ (Nat.mod_lt _ (by decide))
  unfold addressText
  refine OneLine.append (OneLine.append (h _) ?_) ?_
  · intro hc; rcases List.mem_cons.1 hc with h' | h'
    · exact absurd h' (by decide)
    · exact h _ h'
  · intro hc; rcases List.mem_cons.1 hc with h' | h'
    · exact absurd h' (by decide)
    · exact h _ h'

theorem header_oneLine {s f : List UInt8} (hs : Spells s f) (capability : UInt8) (address : Nat) (me : List UInt8) :
    ∀ l ∈ squitterHeader s capability address me, OneLine l := by
  simp only [squitterHeader, List.forall_mem_cons, List.not_mem_nil, false_imp_iff, implies_true, and_true]
  exact ⟨OneLine.append (by unfold OneLine; decide +kernel) (spells_oneLine hs), by unfold OneLine; decide +kernel,
    OneLine.append (OneLine.append (by unfold OneLine; decide +kernel) (oneLine_addressText _)) (by unfold OneLine; decide +kernel),
    by unfold OneLine; decide +kernel, OneLine.append (by unfold OneLine; decide +kernel) (Text.modesCapability_identifies.line _),
    OneLine.append (by unfold OneLine; decide +kernel) (oneLine_addressText _),
    OneLine.append (by unfold OneLine; decide +kernel) (oneLine_hexText _), by unfold OneLine; decide +kernel⟩

set_option maxRecDepth 10000 in
/-- C79. The output of a line that spells an extended squitter with a readable message, line by line: the echo, the address of the
aircraft, the Mode S fields, then the text of the ADS-B message. -/
theorem squitter_output (F : FloatTexts) (hF : F.Faithful) (E : ErrorTexts) (s f me : List UInt8) (capability address : Nat)
    (hca : capability < 8) (haa : address < 2 ^ 24) (hme : me.length = 7) (hsq : IsSquitter capability address me f) (hs : Spells s f)
    (level : UInt8) (M : ADSBMessage) (hM : readADSBMessage level false false me = .returns (.val M) false) :
    ∃ t, printSingleLine F E s level = .ok t ∧
      t.splitOn '\n' = squitterHeader s (UInt8.ofNat capability) address me ++ (M.text F).splitOn '\n' ++ [[], []] := by
  obtain ⟨m, r1, r2, r3, r4, r5⟩ := squitter_received capability address me f hca haa hme hsq
  obtain ⟨a, r6, r7⟩ := r5 [] []
  have hsh := readMessage_shaped f _ r1
  have hp : processSingleLine s level = .ok (.sentBy a (.df17 m) (.adsb M)) := by
    unfold processSingleLine
    rw [(hexDecode_iff s f).2 hs]
    have hc : readMessageCall f = .returns (.val (.df17 m)) false := by unfold readMessageCall; rw [r1]; rfl
    simp only [hc, Iface.print, go_bind_ok]
    unfold processMessage
    rw [r6]
    have h11 : ¬ (ModeSMessage.getDownLinkFormat (.df17 m) = 11) := by simp only [ModeSMessage.getDownLinkFormat]; decide
    simp only [if_neg h11]
    have : ModeSMessage.print (.df17 m) = .ok () := print_ok f _ r1
    rw [this]
    simp only [go_bind_ok, postProcess, ModeSMessage.getDownLinkFormat, processADSBMessage, r2, hM, Iface.print, go_pure]
  have hcap : m.capability = UInt8.ofNat capability := by
    apply UInt8.toNat_inj.1
    rw [r3, UInt8.toNat_ofNat_of_lt' (by show capability < 256; omega)]
  have ht : ModeSMessage.text (.df17 m) = .ok (linesText [
      (t! "Downlink format:         ", ModeSMessage.heading (.df17 m)),
      (t! "Capability:              ", Text.modesCapability m.capability),
      (t! "AddressAnnounced:        ", addressAnnouncedText m.addressAnnounced),
      (t! "MessageExtendedSquitter: ", hexText me)]) := by
    simp only [ModeSMessage.text, ModeSMessage.lines, r2, hexIndexed_ok hme, go_bind_ok, go_pure]
  have hprint := printSingleLine_of (F := F) (E := E) hs hp (sentBy_text ht)
  refine ⟨_, hprint, ?_⟩
  have hsM := adsb_splitOn F hF level false false me M hM
  have hpM := adsb_printable level false false me M hM
  have hne := adsb_lines_ne F M hpM
  have hall := adsb_allLine F hF M hpM
  have key := splitOn_textOfLines (squitterHeader s (UInt8.ofNat capability) address me ++ (M.text F).splitOn '\n' ++ [[], []])
    (by simp [squitterHeader]) (by
      intro l hl
      rcases List.mem_append.1 hl with hl | hl
      · rcases List.mem_append.1 hl with hl | hl
        · exact header_oneLine hs _ _ _ l hl
        · rw [hsM] at hl
          obtain ⟨x, hx, rfl⟩ := List.mem_map.1 hl
          exact hall x hx
      · simp at hl; subst hl; simp)
  rw [← key]
  congr 1
  rw [textOfLines_append (by simp [squitterHeader]) (by simp), textOfLines_append (by simp [squitterHeader]) (by rw [hsM]; simpa using hne)]
  have hMt : textOfLines ((M.text F).splitOn '\n') = M.text F := by rw [hsM, ← linesText_eq]; rfl
  rw [hMt]
  have hh : ModeSMessage.heading (.df17 m) = t! "17 - Extended squitter" := by
    simp only [ModeSMessage.heading, ModeSMessage.getDownLinkFormat, ModeSMessage.getName]; decide +kernel
  simp only [squitterHeader, textOfLines, Details.text, linesText, hh, icaoAddressText_eq, addressAnnouncedText_eq, r4, r7, hcap,
    List.append_assoc, List.cons_append, List.nil_append]

/-- The first two characters of the lines printed before the ADS-B message. -/
def headerStarts : List (List Char) := [t! "Re", t! " -", t! "Fr", t! "Do", t! "Ca", t! "Ad", t! "Me"]

theorem isPrefixOf_take2 {label l : List Char} (h2 : 2 ≤ label.length) (h : label.isPrefixOf l = true) : l.take 2 = label.take 2 := by
  obtain ⟨r, rfl⟩ := List.isPrefixOf_iff_prefix.1 h
  rw [List.take_append_of_le_length h2]

theorem header_starts (s : List UInt8) (capability : UInt8) (address : Nat) (me : List UInt8) :
    ∀ l ∈ squitterHeader s capability address me, l.take 2 ∈ headerStarts := by
  simp only [squitterHeader, List.forall_mem_cons, List.not_mem_nil, false_imp_iff, implies_true, and_true]
  refine ⟨?_, ?_, ?_, ?_, ?_, ?_, ?_, ?_⟩ <;> simp [headerStarts]

theorem filter_header {label value : List Char} {hd ls : List (List Char)} (h2 : 2 ≤ label.length)
    (hl : label.take 2 ∉ headerStarts) (hh : ∀ l ∈ hd, l.take 2 ∈ headerStarts)
    (h : ls.filter (fun l => label.isPrefixOf l) = [label ++ value]) :
    (hd ++ ls ++ [[], []]).filter (fun l => label.isPrefixOf l) = [label ++ value] := by
  have h0 : hd.filter (fun l => label.isPrefixOf l) = [] := by
    refine List.filter_eq_nil_iff.2 fun l hm hp => hl ?_
    rw [← isPrefixOf_take2 h2 hp]; exact hh l hm
  have h3 : [[], []].filter (fun l => label.isPrefixOf l) = [] := by
    cases label with
    | nil => simp at h2
    | cons c r => rfl
  rw [List.filter_append, List.filter_append, h0, h3, h]; rfl

/-- C79. The third line of the output of an extended squitter shows the address of the aircraft, and a value that the text of its ADS-B
message shows is shown by the output. -/
theorem squitter_shows (F : FloatTexts) (hF : F.Faithful) (E : ErrorTexts) (s f me : List UInt8) (capability address : Nat)
    (hca : capability < 8) (haa : address < 2 ^ 24) (hme : me.length = 7) (hsq : IsSquitter capability address me f) (hs : Spells s f)
    (level : UInt8) (M : ADSBMessage) (hM : readADSBMessage level false false me = .returns (.val M) false) :
    ∃ t, printSingleLine F E s level = .ok t ∧ (t.splitOn '\n')[2]? = some (t! "From: " ++ addressText address ++ t! " ") ∧
      ∀ label value, 2 ≤ label.length → label.take 2 ∉ headerStarts → ShowsLine (M.text F) label value → ShowsLine t label value := by
  obtain ⟨t, ht, hl⟩ := squitter_output F hF E s f me capability address hca haa hme hsq hs level M hM
  refine ⟨t, ht, by rw [hl]; rfl, fun label value h2 h3 h => ?_⟩
  unfold ShowsLine
  rw [hl]
  exact filter_header h2 h3 (header_starts _ _ _ _) h

/-- C78, identification, from the aircraft to the printed report: the address and the callsign sent are the ones printed, for every
callsign of eight letters, digits and spaces, every type code 1-4 and category (the byte `first`), every way to write the hexadecimal
digits and every reader level. -/
theorem callsign_end_to_end (F : FloatTexts) (hF : F.Faithful) (E : ErrorTexts) (level : UInt8) (capability address : Nat)
    (hca : capability < 8) (haa : address < 2 ^ 24) (first : UInt8) (hf : 8 ≤ first.toNat ∧ first.toNat < 40) (cs : List UInt8)
    (h8 : cs.length = 8) (hc : ∀ x ∈ cs, IdentChar x) (f s : List UInt8)
    (hsq : IsSquitter capability address (first :: toBytes 6 (encodeIdent cs)) f) (hs : Spells s f) :
    ∃ t, printSingleLine F E s level = .ok t ∧ (t.splitOn '\n')[2]? = some (t! "From: " ++ addressText address ++ t! " ") ∧
      ShowsLine t (t! "Identification:                    ") (cs.map fun x => Char.ofNat x.toNat) := by
  obtain ⟨M, hM, hshow⟩ := identification_text F hF level false false first hf cs h8 hc
  obtain ⟨t, ht, ha, h⟩ := squitter_shows F hF E s f _ capability address hca haa (by simp [toBytes_length]) hsq hs level M hM
  exact ⟨t, ht, ha, h _ _ (by decide) (by decide) hshow⟩

/-- C78, airborne positions, from the aircraft to the printed report: the address, the altitude and the encoded position sent are the
ones printed. -/
theorem altitude_end_to_end (F : FloatTexts) (hF : F.Faithful) (E : ErrorTexts) (v : UInt8) (hv : v.toNat ≤ 2) (capability address : Nat)
    (hca : capability < 8) (haa : address < 2 ^ 24) (tc status antenna n time format : Nat) (lat lon : UInt32)
    (htc : AirborneTC tc) (h2 : status < 4) (h3 : antenna < 2) (h4 : n < 2048) (h5 : time < 2) (h6 : format < 2)
    (h7 : lat.toNat < 2 ^ 17) (h8 : lon.toNat < 2 ^ 17) (f s : List UInt8)
    (hsq : IsSquitter capability address (airborneField tc status antenna (altitudeField n) time format lat.toNat lon.toNat) f)
    (hs : Spells s f) :
    ∃ t, printSingleLine F E s v = .ok t ∧ (t.splitOn '\n')[2]? = some (t! "From: " ++ addressText address ++ t! " ") ∧
      ShowsLine t (t! "Altitude (feet):                   ") (decimalInt (25 * (n : ℤ) - 1000)) ∧
      ShowsLine t (t! "Encoded Latitude:                  ") (decimal lat.toNat) ∧
      ShowsLine t (t! "Encoded Longitude:                 ") (decimal lon.toNat) := by
  obtain ⟨M, p, hM, -⟩ := airborne_received v hv false false tc status antenna n time format lat lon htc h2 h3 h4 h5 h6 h7 h8
  obtain ⟨a1, a2, a3⟩ := altitudeField_meaning n h4
  have htc' := htc
  unfold AirborneTC at htc'
  obtain ⟨b1, b2, b3, b4, b5⟩ := airborneField_bits tc status antenna (altitudeField n) time format lat.toNat lon.toNat (by omega) h2 h3
    a1 h5 h6 h7 h8
  obtain ⟨-, ⟨method, altitude, hm, c1⟩, -, c2, c3⟩ := airborne_text F hF v false false _ M hM (by rw [b1]; exact htc)
  obtain ⟨t, ht, ha, h⟩ := squitter_shows F hF E s f _ capability address hca haa (toBytes_length 7 _) hsq hs v M hM
  rw [b2] at hm
  rw [a3 _ _ hm] at c1
  rw [b4] at c2
  rw [b5] at c3
  exact ⟨t, ht, ha, h _ _ (by decide) (by decide) c1, h _ _ (by decide) (by decide) c2, h _ _ (by decide) (by decide) c3⟩

/-! ### The output identifies the message -/

theorem linesText_cons_append (l l' : List (Txt × Txt)) (r r' : Txt) (hne : l ≠ []) (hlen : l.length = l'.length) (h1 : AllLine l)
    (h2 : AllLine l') (h : linesText l ++ '\n' :: r = linesText l' ++ '\n' :: r') : linesText l = linesText l' ∧ r = r' := by
  induction l generalizing l' with
  | nil => exact absurd rfl hne
  | cons x l ih =>
    cases l' with
    | nil => simp at hlen
    | cons y l' =>
      have hx : OneLine (x.1 ++ x.2) := h1 x List.mem_cons_self
      have hy : OneLine (y.1 ++ y.2) := h2 y List.mem_cons_self
      cases l with
      | nil =>
        cases l' with
        | nil => exact upto_newline hx hy h
        | cons z l' => simp at hlen
      | cons w l =>
        cases l' with
        | nil => simp at hlen
        | cons z l' =>
          simp only [linesText] at h ⊢
          rw [List.append_assoc, List.append_assoc _ _ ('\n' :: r'), List.cons_append, List.cons_append] at h
          obtain ⟨e1, e2⟩ := upto_newline hx hy h
          obtain ⟨e3, e4⟩ := ih (z :: l') (by simp) (by simpa using hlen) (fun u hu => h1 u (List.mem_cons_of_mem _ hu))
            (fun u hu => h2 u (List.mem_cons_of_mem _ hu)) e2
          exact ⟨by rw [e1, e3], e4⟩

theorem lines_length (m : ModeSMessage) (h : Shaped m) (l : List (Txt × Txt)) (hl : m.lines = .ok l) :
    l.length = [7, 6, 5, 3, 7, 4, 4, 2, 7, 6, 4][(kind m).val] := by
  cases m <;>
  (first
    | simp only [ModeSMessage.lines, hexIndexed_ok h.2, go_bind_ok, go_pure] at hl
    | simp only [ModeSMessage.lines, hexIndexed_ok (show List.length _ = 7 from h), go_bind_ok, go_pure] at hl
    | simp only [ModeSMessage.lines, hexIndexed_ok (show List.length _ = 10 from h), go_bind_ok, go_pure] at hl
    | simp only [ModeSMessage.lines, go_pure] at hl) <;>
  (injection hl with hl; subst hl; rfl)

theorem text_followed (m n : ModeSMessage) (hm : Shaped m) (hn : Shaped n) (t u r r' : Txt) (h1 : m.text = .ok t) (h2 : n.text = .ok u)
    (h : t ++ '\n' :: r = u ++ '\n' :: r') : t = u ∧ r = r' := by
  obtain ⟨l, hl, ht⟩ := text_ok m hm
  obtain ⟨l', hl', hu⟩ := text_ok n hn
  rw [h1] at ht; cases ht
  rw [h2] at hu; cases hu
  obtain ⟨a1, k, y, q, e, hk⟩ := lines_shape m hm l hl
  obtain ⟨b1, k', y', q', e', hk'⟩ := lines_shape n hn l' hl'
  have hall : AllLine l := fun x hx => (a1 x hx).1.append (a1 x hx).2
  have hall' : AllLine l' := fun x hx => (b1 x hx).1.append (b1 x hx).2
  have hkind : kind m = kind n := by
    apply kindLine_inj
    rw [← hk, ← hk']
    have o1 : OneLine (k ++ m.heading) := hall (k, m.heading) (by rw [e]; exact List.mem_cons_self)
    have o2 : OneLine (k' ++ n.heading) := hall' (k', n.heading) (by rw [e']; exact List.mem_cons_self)
    have h' := h
    rw [e, e'] at h'
    simp only [linesText] at h'
    rw [List.append_assoc, List.append_assoc _ _ ('\n' :: r'), List.cons_append, List.cons_append] at h'
    exact (upto_newline o1 o2 h').1
  refine linesText_cons_append l l' r r' (by rw [e]; simp) ?_ hall hall' h
  have s1 := lines_length m hm l hl
  have s2 := lines_length n hn l' hl'
  rw [s1, s2]
  simp only [hkind]

theorem addressText_inj {a b : Nat} (ha : a < 2 ^ 24) (hb : b < 2 ^ 24) (h : addressText a = addressText b) : a = b := by
  have p : ∀ n < 256, ∀ m < 256, hexPair n = hexPair m → n = m := by
    intro n hn m hm h
    have e : ∀ (x : UInt8), hexPair x.toNat = hex02 x := fun x => (hex02_pair x).symm
    have := e (UInt8.ofNat n)
    have h3 : (UInt8.ofNat n).toNat = n := UInt8.toNat_ofNat_of_lt' hn
    have h4 : (UInt8.ofNat m).toNat = m := UInt8.toNat_ofNat_of_lt' hm
    have : hex02 (UInt8.ofNat n) = hex02 (UInt8.ofNat m) := by rw [← e, ← e, h3, h4]; exact h
    have := hex02_inj this
    rw [← h3, ← h4, this]
  unfold addressText at h
  rw [List.append_assoc, List.append_assoc] at h
  have l : ∀ n, (hexPair n).length = 2 := fun n => rfl
  obtain ⟨h1, h2⟩ := List.append_inj h (by rw [l, l])
  have h2' : hexPair (a / 256) ++ ' ' :: hexPair a = hexPair (b / 256) ++ ' ' :: hexPair b := by
    simpa using h2
  obtain ⟨h3, h4⟩ := List.append_inj h2' (by rw [l, l])
  have h5 := (List.cons.inj h4).2
  rw [← hexPair_mod (a / 65536), ← hexPair_mod (b / 65536)] at h1
  rw [← hexPair_mod (a / 256), ← hexPair_mod (b / 256)] at h3
  rw [← hexPair_mod a, ← hexPair_mod b] at h5
  have e1 := p _ (Nat.mod_lt _ (by decide)) _ (Nat.mod_lt _ (by decide)) h1
  have e2 := p _ (Nat.mod_lt _ (by decide)) _ (Nat.mod_lt _ (by decide)) h3
  have e3 := p _ (Nat.mod_lt _ (by decide)) _ (Nat.mod_lt _ (by decide)) h5
  omega

/-- A frame the program can report: it is accepted, and a squitter has a correct parity. -/
def Reported (f : List UInt8) : Prop :=
  FrameAccepted f ∧ ((bits f 1 5 = 17 ∨ bits f 1 5 = 18) → generator ∣ messagePoly f)

/-- The number printed at the head of the report of a frame: the address announced by a squitter, otherwise what is overlaid on the
parity (for an all-call reply, the interrogator). -/
def HeadNumber (f : List UInt8) (a : Nat) : Prop :=
  if bits f 1 5 = 17 ∨ bits f 1 5 = 18 then a = bits f 9 32 else Overlaid f a

/-- C79. What is printed after the echo of a frame that can be reported, and the number at its head. -/
theorem reported_output (F : FloatTexts) (E : ErrorTexts) (s f : List UInt8) (level : UInt8) (hs : Spells s f) (hf : Reported f) :
    ∃ a m t d, HeadNumber f a ∧ readMessage f = .ok m ∧ m.text = .ok t ∧
      printSingleLine F E s level = .ok (t! "Reading: " ++ asciiText s ++ '\n' :: (t! " -- Mode-S Information --" ++ '\n' ::
        ((if bits f 1 5 = 11 then t! "In reply to interrogator: " else t! "From: ") ++ addressText a ++ t! " " ++ '\n' ::
          (t ++ '\n' :: d)))) := by
  obtain ⟨r, hr, hrep⟩ := line_report s f level hs
  rcases hrep with ⟨hn, -⟩ | ⟨-, h17, hd, -⟩ | ⟨-, a, m, d, hm, -, hcase⟩
  · exact absurd hf.1 hn
  · exact absurd (hf.2 h17) hd
  obtain ⟨l, hl, ht⟩ := text_ok m (readMessage_shaped f m hm)
  rcases hcase with ⟨h17, -, ha, rfl⟩ | ⟨h11, ho, rfl⟩ | ⟨h11, hn1, hn2, ho, rfl⟩
  · refine ⟨a.toNat, m, _, d.text F E f m ++ t! "\n", ?_, hm, ht, ?_⟩
    · unfold HeadNumber; rw [if_pos h17]; exact ha
    · rw [printSingleLine_of hs hr (sentBy_text ht), icaoAddressText_eq, if_neg (by omega)]
      simp
  · refine ⟨a.toNat, m, _, d.text F E f m ++ t! "\n", ?_, hm, ht, ?_⟩
    · unfold HeadNumber; rw [if_neg (by omega)]; exact ho
    · rw [printSingleLine_of hs hr (reply_text ht), icaoAddressText_eq, if_pos h11]
      simp
  · refine ⟨a.toNat, m, _, d.text F E f m ++ t! "\n", ?_, hm, ht, ?_⟩
    · unfold HeadNumber; rw [if_neg (by omega)]; exact ho
    · rw [printSingleLine_of hs hr (sentBy_text ht), icaoAddressText_eq, if_neg h11]
      simp

theorem headNumber_lt {f : List UInt8} {a : Nat} (h : HeadNumber f a) : a < 2 ^ 24 := by
  unfold HeadNumber at h
  split at h
  · rw [h]; exact bits_9_32 f
  · exact h.1

/-- C79. Two frames that are reported with the same words, apart from the echo of the line, have the same sender (or interrogator), the
same format and the same decoded Mode S fields. -/
theorem output_identifies (F : FloatTexts) (E : ErrorTexts) (s s' f f' : List UInt8) (level level' : UInt8) (hs : Spells s f)
    (hs' : Spells s' f') (hf : Reported f) (hf' : Reported f') (t : Txt)
    (h : printSingleLine F E s level = .ok (t! "Reading: " ++ asciiText s ++ '\n' :: t))
    (h' : printSingleLine F E s' level' = .ok (t! "Reading: " ++ asciiText s' ++ '\n' :: t)) :
    ∃ a m m', HeadNumber f a ∧ HeadNumber f' a ∧ readMessage f = .ok m ∧ readMessage f' = .ok m' ∧
      decodedFields m = decodedFields m' := by
  obtain ⟨a, m, u, d, h1, h2, h3, h4⟩ := reported_output F E s f level hs hf
  obtain ⟨a', m', u', d', h1', h2', h3', h4'⟩ := reported_output F E s' f' level' hs' hf'
  rw [h4] at h; rw [h4'] at h'
  injection h with h
  injection h' with h'
  have e := List.append_cancel_left h
  have e' := List.append_cancel_left h'
  have e2 := (List.cons.inj e).2.trans (List.cons.inj e').2.symm
  have e3 := (List.cons.inj (List.append_cancel_left e2)).2
  have o : ∀ (b : Bool) (x : Nat), OneLine ((if b then t! "In reply to interrogator: " else t! "From: ") ++ addressText x ++ t! " ") := by
    intro b x
    refine OneLine.append (OneLine.append ?_ (oneLine_addressText x)) (by unfold OneLine; decide)
    unfold OneLine; cases b <;> decide
  have ob := fun (g : List UInt8) x => o (decide (bits g 1 5 = 11)) x
  simp only [decide_eq_true_eq] at ob
  obtain ⟨e4, e5⟩ := upto_newline (ob f a) (ob f' a') e3
  have e6 := text_followed m m' (readMessage_shaped f m h2) (readMessage_shaped f' m' h2') u u' d d' h3 h3' e5
  have ea : addressText a = addressText a' := by
    have e7 := List.append_cancel_right e4
    by_cases c : bits f 1 5 = 11 <;> by_cases c' : bits f' 1 5 = 11 <;> simp only [c, c', if_true, if_false] at e7
    · exact List.append_cancel_left e7
    · simp at e7
    · simp at e7
    · exact List.append_cancel_left e7
  have := addressText_inj (headNumber_lt h1) (headNumber_lt h1') ea
  subst this
  exact ⟨a, m, m', h1, h1', h2, h2', modeS_text_identifies f f' m m' u h2 h2' h3 (by rw [e6.1]; exact h3')⟩

/-- C79. The report of a line of hexadecimal digits ends with a line break. -/
theorem output_terminated (F : FloatTexts) (E : ErrorTexts) (s f : List UInt8) (level : UInt8) (hs : Spells s f) :
    ∃ t, printSingleLine F E s level = .ok (t ++ ['\n']) := by
  obtain ⟨r, hr, hrep⟩ := line_report s f level hs
  have e : ∀ a b : List Char, a ++ '\n' :: (b ++ ['\n']) = (a ++ '\n' :: b) ++ ['\n'] := fun a b => by simp
  rcases hrep with ⟨-, rfl⟩ | ⟨-, -, -, rfl⟩ | ⟨-, a, m, d, hm, -, hcase⟩
  · exact ⟨t! "Reading: " ++ asciiText s ++ '\n' :: E.frame f, by rw [printSingleLine_of hs hr rfl]; simp⟩
  · exact ⟨t! "Reading: " ++ asciiText s ++ '\n' :: E.parity f, by rw [printSingleLine_of hs hr rfl]; simp⟩
  obtain ⟨l, hl, ht⟩ := text_ok m (readMessage_shaped f m hm)
  rcases hcase with ⟨-, -, -, rfl⟩ | ⟨-, -, rfl⟩ | ⟨-, -, -, -, rfl⟩
  · exact ⟨_, (printSingleLine_of hs hr (sentBy_text ht)).trans (congrArg Except.ok (e _ _))⟩
  · exact ⟨_, (printSingleLine_of hs hr (reply_text ht)).trans (congrArg Except.ok (e _ _))⟩
  · exact ⟨_, (printSingleLine_of hs hr (sentBy_text ht)).trans (congrArg Except.ok (e _ _))⟩

/-- C79, false of the code for other lines: no line break follows the report that a line is not hexadecimal, so the report of the next
line of the file starts on the same line of the output. -/
theorem output_terminated_refuted (F : FloatTexts) (E : ErrorTexts) (s s' : List UInt8) (level : UInt8) (hs : ¬ ∃ f, Spells s f) :
    ∃ t, printLines F E level [s, s'] = .ok (t! "Reading: " ++ asciiText s ++ '\n' ::
      (t! "unable to convert the given text to hexadecimal values due to: " ++ E.hexadecimal s ++ t! "Reading: " ++ asciiText s' ++
        '\n' :: t)) := by
  obtain ⟨t, ht⟩ := line_output F E s' level
  refine ⟨t, ?_⟩
  have h : printSingleLine F E s level = .ok (t! "Reading: " ++ asciiText s ++ '\n' ::
      (t! "unable to convert the given text to hexadecimal values due to: " ++ E.hexadecimal s)) := by
    unfold printSingleLine
    rw [(line_notHexadecimal s level).2 hs]
    rfl
  simp only [printLines, h, ht, go_bind_ok, go_pure]
  simp

/-- A text that is not hexadecimal, and a frame that is reported: the hypotheses above are met. -/
example : (¬ ∃ f, Spells (ascii "8D4") f) ∧ ∃ f, Spells (ascii "8D4840D6202CC371C32CE0576098") f ∧ Reported f := by
  refine ⟨?_, [0x8D, 0x48, 0x40, 0xD6, 0x20, 0x2C, 0xC3, 0x71, 0xC3, 0x2C, 0xE0, 0x57, 0x60, 0x98], ?_, ?_⟩
  · rintro ⟨f, hf⟩
    have := (hexDecode_iff _ _).2 hf
    have e : hexDecode (ascii "8D4") = .error .err := by decide +kernel
    rw [e] at this; cases this
  · exact (hexDecode_iff _ _).1 (by decide +kernel)
  · have hl : hexDecode (ascii "8D4840D6202CC371C32CE0576098") =
        .ok [0x8D, 0x48, 0x40, 0xD6, 0x20, 0x2C, 0xC3, 0x71, 0xC3, 0x2C, 0xE0, 0x57, 0x60, 0x98] := by decide +kernel
    have hacc : FrameAccepted [0x8D, 0x48, 0x40, 0xD6, 0x20, 0x2C, 0xC3, 0x71, 0xC3, 0x2C, 0xE0, 0x57, 0x60, 0x98] :=
      ⟨Or.inr ⟨rfl, by decide⟩, fun h => absurd h (by decide)⟩
    refine ⟨hacc, fun _ => ?_⟩
    obtain ⟨m, hm⟩ := (readMessage_accepts_iff _).2 hacc
    have hdf : bits [0x8D, 0x48, 0x40, 0xD6, 0x20, 0x2C, 0xC3, 0x71, 0xC3, 0x2C, 0xE0, 0x57, 0x60, 0x98] 1 5 = 17 := by decide
    have hc := checkCRC_squitter _ m hm (Or.inl hdf) [] []
    have hok : checkCRC m [0x8D, 0x48, 0x40, 0xD6, 0x20, 0x2C, 0xC3, 0x71, 0xC3, 0x2C, 0xE0, 0x57, 0x60, 0x98] [] [] = .ok 0x4840D6 := by
      have : readMessage [0x8D, 0x48, 0x40, 0xD6, 0x20, 0x2C, 0xC3, 0x71, 0xC3, 0x2C, 0xE0, 0x57, 0x60, 0x98] = .ok (.df17
        { data := ⟨17, 5, [0x48, 0x40, 0xD6, 0x20, 0x2C, 0xC3, 0x71, 0xC3, 0x2C, 0xE0], [0x57, 0x60, 0x98]⟩, capability := 5,
          addressAnnounced := 0x4840D6, messageExtendedSquitter := [0x20, 0x2C, 0xC3, 0x71, 0xC3, 0x2C, 0xE0] }) := by decide +kernel
      rw [hm] at this; cases this
      decide +kernel
    exact ((hc.2.1 _).1 hok).1

end Modes
