import Verif.Props.Program
import Verif.Props.EndToEndSurveillance
import Verif.Props.EndToEndCommB
/-!
# C98: what the program prints for a reply, line by line
-/
open Polynomial Spec
namespace Spec

/-- The lines before the Mode S fields: the echo of the line, a title, and whose message it is. -/
def replyHead (s : List UInt8) (format a : Nat) : List (List Char) :=
  [t! "Reading: " ++ Modes.asciiText s, t! " -- Mode-S Information --",
   (if format = 11 then t! "In reply to interrogator: " else t! "From: ") ++ addressText a ++ t! " "]

/-- The texts of several messages, a rule between them, as lines. -/
def ruled : List (List (List Char)) → List (List Char)
  | [] => []
  | [m] => m
  | m :: m' :: l => m ++ [t! "-------------------------------"] ++ ruled (m' :: l)

/-- The words printed after a special Mode A code. -/
def squawkNote : Nat → Nat → Nat → Nat → List Char
  | 7, 7, 0, 0 => t! " [Emergency]"
  | 7, 6, 0, 0 => t! " [Radiocommunication Failure]"
  | 7, 5, 0, 0 => t! " [Unlawful Interference]"
  | 2, 0, 0, 0 => t! " [Instruction Not Received]"
  | _, _, _, _ => []

/-- A digit. -/
def octalDigit (n : Nat) : Char := Char.ofNat (48 + n)

end Spec
namespace Modes

theorem replyHead_oneLine {s f : List UInt8} (hs : Spells s f) (format a : Nat) : ∀ l ∈ replyHead s format a, OneLine l := by
  simp only [replyHead, List.forall_mem_cons, List.not_mem_nil, false_imp_iff, implies_true, and_true]
  refine ⟨OneLine.append (by unfold OneLine; decide +kernel) (spells_oneLine hs), by unfold OneLine; decide +kernel, ?_⟩
  refine OneLine.append (OneLine.append ?_ (oneLine_addressText _)) (by unfold OneLine; decide +kernel)
  split <;> (unfold OneLine; decide +kernel)

/-- The lines of a report whose details are the lines `dl`. -/
theorem report_lines (F : FloatTexts) (E : ErrorTexts) (s f : List UInt8) (level : UInt8) (hs : Spells s f) (m : ModeSMessage)
    (hm : readMessage f = .ok m) (l : List (Txt × Txt)) (hl : m.lines = .ok l) (a : UInt32) (d : Details) (r : Report)
    (hr : processSingleLine s level = .ok r)
    (hrr : (bits f 1 5 = 11 ∧ r = .replyToInterrogator a m d) ∨ (bits f 1 5 ≠ 11 ∧ r = .sentBy a m d))
    (dl : List (List Char)) (hd0 : dl ≠ []) (hd1 : ∀ x ∈ dl, OneLine x) (hd : d.text F E f m = textOfLines dl ++ ['\n']) :
    ∃ t, printSingleLine F E s level = .ok t ∧
      t.splitOn '\n' = replyHead s (bits f 1 5) a.toNat ++ l.map cat ++ dl ++ [[], []] := by
  have hsh := readMessage_shaped f m hm
  obtain ⟨h1, k, y, rest, hle, -⟩ := lines_shape m hsh l hl
  have hlne : l.map cat ≠ [] := by rw [hle]; simp
  have ht : m.text = .ok (textOfLines (l.map cat)) := by
    rw [← linesText_eq]
    simp only [ModeSMessage.text, hl, go_bind_ok, go_pure]
  have key := splitOn_textOfLines (replyHead s (bits f 1 5) a.toNat ++ l.map cat ++ dl ++ [[], []]) (by simp) (by
    intro x hx
    rcases List.mem_append.1 hx with hx | hx
    · rcases List.mem_append.1 hx with hx | hx
      · rcases List.mem_append.1 hx with hx | hx
        · exact replyHead_oneLine hs _ _ x hx
        · obtain ⟨z, hz, rfl⟩ := List.mem_map.1 hx
          exact OneLine.append (h1 z hz).1 (h1 z hz).2
      · exact hd1 x hx
    · simp at hx; subst hx; simp)
  rw [← key]
  rw [textOfLines_append (by simp [replyHead]) (by simp), textOfLines_append (by simp [replyHead]) hd0, textOfLines_append (by simp [replyHead]) hlne]
  rcases hrr with ⟨h11, rfl⟩ | ⟨h11, rfl⟩
  · refine ⟨_, printSingleLine_of hs hr (reply_text ht), ?_⟩
    rw [hd, icaoAddressText_eq]
    congr 1
    simp [replyHead, textOfLines, h11]
  · refine ⟨_, printSingleLine_of hs hr (sentBy_text ht), ?_⟩
    rw [hd, icaoAddressText_eq]
    congr 1
    simp [replyHead, textOfLines, h11]

/-- What `line_report` says of a frame that can be reported. -/
theorem reported_case (s f : List UInt8) (level : UInt8) (hs : Spells s f) (hf : Reported f) :
    ∃ a m d r, HeadNumber f a.toNat ∧ readMessage f = .ok m ∧ DetailsOf level f d ∧ processSingleLine s level = .ok r ∧
      ((bits f 1 5 = 11 ∧ r = .replyToInterrogator a m d) ∨ (bits f 1 5 ≠ 11 ∧ r = .sentBy a m d)) := by
  obtain ⟨r, hr, hrep⟩ := line_report s f level hs
  rcases hrep with ⟨hn, -⟩ | ⟨-, h17, hd, -⟩ | ⟨-, a, m, d, hm, hdet, hcase⟩
  · exact absurd hf.1 hn
  · exact absurd (hf.2 h17) hd
  refine ⟨a, m, d, r, ?_, hm, hdet, hr, ?_⟩
  · unfold HeadNumber
    rcases hcase with ⟨h17, -, ha, -⟩ | ⟨h11, ho, -⟩ | ⟨h11, hn1, hn2, ho, -⟩
    · rw [if_pos h17]; exact ha
    · rw [if_neg (by omega)]; exact ho
    · rw [if_neg (by omega)]; exact ho
  · rcases hcase with ⟨h17, -, ha, rfl⟩ | ⟨h11, ho, rfl⟩ | ⟨h11, hn1, hn2, ho, rfl⟩
    · exact Or.inr ⟨by omega, rfl⟩
    · exact Or.inl ⟨h11, rfl⟩
    · exact Or.inr ⟨h11, rfl⟩

/-- C98. The output for a frame without further content (formats 0, 4, 5, 11, 19 and 24): the head, the lines of the Mode S
message, and nothing else but empty lines. -/
theorem plain_output (F : FloatTexts) (E : ErrorTexts) (s f : List UInt8) (level : UInt8) (hs : Spells s f) (hf : FrameAccepted f)
    (hfmt : bits f 1 5 ∈ [0, 4, 5, 11, 19, 24]) :
    ∃ a m l t, HeadNumber f a ∧ readMessage f = .ok m ∧ m.lines = .ok l ∧ printSingleLine F E s level = .ok t ∧
      t.splitOn '\n' = replyHead s (bits f 1 5) a ++ l.map cat ++ [[], [], []] := by
  simp only [List.mem_cons, List.not_mem_nil, or_false] at hfmt
  obtain ⟨a, m, d, r, hh, hm, hdet, hr, hrr⟩ := reported_case s f level hs ⟨hf, fun h => by omega⟩
  obtain ⟨l, hl, -⟩ := text_ok m (readMessage_shaped f m hm)
  have hdn : d = .nothing := by
    unfold DetailsOf at hdet
    rw [if_neg (by omega), if_neg (by omega), if_neg (by omega), if_neg (by omega)] at hdet
    exact hdet
  have h18 : m.getDownLinkFormat ≠ 18 := by
    rw [readMessage_type f m hm]; split <;> omega
  subst hdn
  obtain ⟨t, ht, hsp⟩ := report_lines F E s f level hs m hm l hl a .nothing r hr hrr [[]] (by simp) (by simp [OneLine])
    (by simp only [Details.text]; rw [if_neg h18]; rfl)
  exact ⟨a.toNat, m, l, t, hh, hm, hl, ht, by rw [hsp]; simp⟩

theorem commBTexts_eq (F : FloatTexts) (l : List CommBMessage) (hne : l ≠ []) (hsp : ∀ m ∈ l, (m.text F).splitOn '\n' ≠ [] ∧
    textOfLines ((m.text F).splitOn '\n') = m.text F) :
    commBTexts F l = textOfLines (ruled (l.map fun m => (m.text F).splitOn '\n')) ++ ['\n'] ∧
      ruled (l.map fun m => (m.text F).splitOn '\n') ≠ [] := by
  induction l with
  | nil => exact absurd rfl hne
  | cons m l ih =>
    obtain ⟨h1, h2⟩ := hsp m (by simp)
    cases l with
    | nil => exact ⟨by simp [commBTexts, ruled, h2], by simpa [ruled] using h1⟩
    | cons m' l =>
      obtain ⟨e, hn⟩ := ih (by simp) (fun x hx => hsp x (List.mem_cons_of_mem _ hx))
      simp only [List.map_cons, ruled] at e hn ⊢
      refine ⟨?_, by simp⟩
      rw [commBTexts, e, textOfLines_append (by simp) hn, textOfLines_append h1 (by simp), h2]
      simp [textOfLines]

theorem ruled_mem (ls : List (List (List Char))) (x : List Char) (h : x ∈ ruled ls) :
    x = t! "-------------------------------" ∨ ∃ m ∈ ls, x ∈ m := by
  induction ls with
  | nil => simp [ruled] at h
  | cons m l ih =>
    cases l with
    | nil => exact Or.inr ⟨m, by simp, by simpa [ruled] using h⟩
    | cons m' l =>
      simp only [ruled, List.mem_append, List.mem_singleton] at h
      rcases h with (h | h) | h
      · exact Or.inr ⟨m, by simp, h⟩
      · exact Or.inl h
      · rcases ih h with h | ⟨n, hn, hx⟩
        · exact Or.inl h
        · exact Or.inr ⟨n, List.mem_cons_of_mem _ hn, hx⟩

theorem mem_ruled (ls : List (List (List Char))) (m : List (List Char)) (hm : m ∈ ls) (x : List Char) (h : x ∈ m) : x ∈ ruled ls := by
  induction ls with
  | nil => cases hm
  | cons n l ih =>
    cases l with
    | nil =>
      simp at hm; subst hm; simpa [ruled] using h
    | cons m' l =>
      simp only [ruled, List.mem_append, List.mem_singleton]
      rcases List.mem_cons.1 hm with rfl | hm
      · exact Or.inl (Or.inl h)
      · exact Or.inr (ih hm)

/-- C98. The output for a Comm-B reply (formats 20 and 21): the head, the lines of the Mode S message, then the texts of all the
registers the field can be, in order, with a rule between them, or the words that there is none. -/
theorem commB_output (F : FloatTexts) (hF : F.Faithful) (E : ErrorTexts) (s f : List UInt8) (level : UInt8) (hs : Spells s f)
    (hf : FrameAccepted f) (hfmt : bits f 1 5 = 20 ∨ bits f 1 5 = 21) :
    ∃ a m l c t, Overlaid f a ∧ readMessage f = .ok m ∧ m.lines = .ok l ∧ readCommBMessage (field56 f) = .ok (c.map Iface.val) ∧
      printSingleLine F E s level = .ok t ∧
      t.splitOn '\n' = replyHead s (bits f 1 5) a ++ l.map cat ++ (t! " -- Comm-B Information --" ::
        (if c = [] then [t! "Unknown message format"] else ruled (c.map fun m => (m.text F).splitOn '\n'))) ++ [[], []] := by
  obtain ⟨a, m, d, r, hh, hm, hdet, hr, hrr⟩ := reported_case s f level hs ⟨hf, fun h => by omega⟩
  obtain ⟨l, hl, -⟩ := text_ok m (readMessage_shaped f m hm)
  unfold HeadNumber at hh
  rw [if_neg (by omega)] at hh
  unfold DetailsOf at hdet
  rw [if_neg (by omega), if_neg (by omega), if_neg (by omega), if_pos hfmt] at hdet
  obtain ⟨c, hc, hd⟩ := hdet
  have hcs : ∀ M ∈ c, (M.text F).splitOn '\n' = (M.lines F).map cat ∧ M.lines F ≠ [] ∧ AllLine (M.lines F) := by
    intro M hM
    have hR := commB_reads (field56 f) _ hc M (List.mem_map.2 ⟨M, hM, rfl⟩)
    have hp := commB_printable _ _ hR
    exact ⟨commB_splitOn F hF _ M hR, commB_lines_ne F M hp, commB_allLine F hF M hp⟩
  by_cases h0 : c = []
  · subst h0
    simp only [List.isEmpty_nil, if_true] at hd
    subst hd
    obtain ⟨t, ht, hsp⟩ := report_lines F E s f level hs m hm l hl a .commBUnknown r hr hrr
      [t! " -- Comm-B Information --", t! "Unknown message format"] (by simp) (by
        simp only [List.forall_mem_cons, List.not_mem_nil, false_imp_iff, implies_true, and_true]
        constructor <;> (unfold OneLine; decide +kernel))
      (by simp [Details.text, textOfLines])
    exact ⟨a.toNat, m, l, [], t, hh, hm, hl, hc, ht, by rw [hsp, if_pos rfl]⟩
  · have he : c.isEmpty = false := by cases c with
      | nil => exact absurd rfl h0
      | cons => rfl
    rw [he] at hd
    simp only [Bool.false_eq_true, if_false] at hd
    subst hd
    obtain ⟨e, hn⟩ := commBTexts_eq F c h0 (by
      intro M hM
      obtain ⟨h1, h2, -⟩ := hcs M hM
      rw [h1, ← linesText_eq]
      exact ⟨by simpa using h2, rfl⟩)
    obtain ⟨t, ht, hsp⟩ := report_lines F E s f level hs m hm l hl a (.commB c) r hr hrr
      (t! " -- Comm-B Information --" :: ruled (c.map fun m => (m.text F).splitOn '\n')) (by simp) (by
        intro x hx
        rcases List.mem_cons.1 hx with rfl | hx
        · unfold OneLine; decide +kernel
        · rcases ruled_mem _ _ hx with rfl | ⟨n, hn, hx⟩
          · unfold OneLine; decide +kernel
          · obtain ⟨M, hM, rfl⟩ := List.mem_map.1 hn
            obtain ⟨h1, -, h3⟩ := hcs M hM
            simp only [h1] at hx
            obtain ⟨z, hz, rfl⟩ := List.mem_map.1 hx
            exact h3 z hz)
      (by
        have := textOfLines_append (a := [t! " -- Comm-B Information --"]) (by simp) hn
        simp only [List.singleton_append] at this
        rw [this]
        simp [Details.text, e, textOfLines])
    exact ⟨a.toNat, m, l, c, t, hh, hm, hl, hc, ht, by rw [hsp, if_neg h0]⟩

/-- C98. The output for an air-air surveillance frame with a resolution advisory that can be read (format 16, first byte of the
field 3,0): the head, the lines of the Mode S message, then the lines of the advisory. -/
theorem acas_output (F : FloatTexts) (hF : F.Faithful) (E : ErrorTexts) (s f : List UInt8) (level : UInt8) (hs : Spells s f)
    (hf : FrameAccepted f) (hfmt : bits f 1 5 = 16) (h30 : bits f 33 40 = 0x30) (ra : ResolutionAdvisory)
    (hra : readResolutionAdvisory ((field56 f).drop 1) = .ok ra) :
    ∃ a m l t, Overlaid f a ∧ readMessage f = .ok m ∧ m.lines = .ok l ∧ printSingleLine F E s level = .ok t ∧
      t.splitOn '\n' = replyHead s 16 a ++ l.map cat ++ (t! " -- ACAS Information --" :: (ra.lines F).map cat) ++ [[], []] := by
  obtain ⟨a, m, d, r, hh, hm, hdet, hr, hrr⟩ := reported_case s f level hs ⟨hf, fun h => by omega⟩
  obtain ⟨l, hl, -⟩ := text_ok m (readMessage_shaped f m hm)
  unfold HeadNumber at hh
  rw [if_neg (by omega)] at hh
  unfold DetailsOf at hdet
  rw [if_pos hfmt, if_pos h30] at hdet
  have hd : d = .acas ra := by
    rcases hdet with ⟨ra', hd, hr'⟩ | ⟨-, hr'⟩
    · rw [hra] at hr'
      rw [hd, Except.ok.inj hr']
    · rw [hra] at hr'; cases hr'
  subst hd
  have hp := ra_printable _ _ hra
  have hne : (ra.lines F).map cat ≠ [] := by simp [ResolutionAdvisory.lines]
  obtain ⟨t, ht, hsp⟩ := report_lines F E s f level hs m hm l hl a (.acas ra) r hr hrr
    (t! " -- ACAS Information --" :: (ra.lines F).map cat) (by simp) (by
      intro x hx
      rcases List.mem_cons.1 hx with rfl | hx
      · unfold OneLine; decide +kernel
      · obtain ⟨z, hz, rfl⟩ := List.mem_map.1 hx
        exact ra.allLine F hF hp z hz)
    (by
      have := textOfLines_append (a := [t! " -- ACAS Information --"]) (by simp) hne
      simp only [List.singleton_append] at this
      rw [this]
      simp [Details.text, linesText_eq, textOfLines])
  rw [hfmt] at hsp
  exact ⟨a.toNat, m, l, t, hh, hm, hl, ht, hsp⟩

/-- The lines of a report without any details. -/
theorem report_lines_none (F : FloatTexts) (E : ErrorTexts) (s f : List UInt8) (level : UInt8) (hs : Spells s f) (m : ModeSMessage)
    (hm : readMessage f = .ok m) (l : List (Txt × Txt)) (hl : m.lines = .ok l) (a : UInt32) (d : Details)
    (hr : processSingleLine s level = .ok (.sentBy a m d)) (h11 : bits f 1 5 ≠ 11) (hd : d.text F E f m = []) :
    ∃ t, printSingleLine F E s level = .ok t ∧ t.splitOn '\n' = replyHead s (bits f 1 5) a.toNat ++ l.map cat ++ [[], []] := by
  obtain ⟨h1, k, y, rest, hle, -⟩ := lines_shape m (readMessage_shaped f m hm) l hl
  have hlne : l.map cat ≠ [] := by rw [hle]; simp
  have ht : m.text = .ok (textOfLines (l.map cat)) := by
    rw [← linesText_eq]
    simp only [ModeSMessage.text, hl, go_bind_ok, go_pure]
  have key := splitOn_textOfLines (replyHead s (bits f 1 5) a.toNat ++ l.map cat ++ [[], []]) (by simp) (by
    intro x hx
    rcases List.mem_append.1 hx with hx | hx
    · rcases List.mem_append.1 hx with hx | hx
      · exact replyHead_oneLine hs _ _ x hx
      · obtain ⟨z, hz, rfl⟩ := List.mem_map.1 hx
        exact OneLine.append (h1 z hz).1 (h1 z hz).2
    · simp at hx; subst hx; simp)
  rw [← key]
  rw [textOfLines_append (by simp [replyHead]) (by simp), textOfLines_append (by simp [replyHead]) hlne]
  refine ⟨_, printSingleLine_of hs hr (sentBy_text ht), ?_⟩
  rw [hd, icaoAddressText_eq]
  congr 1
  simp [replyHead, textOfLines, h11]

/-- C98. The output for an air-air surveillance frame whose field is not a resolution advisory (format 16, first byte other than 3,0):
the two hexadecimal digits that name the register are printed. -/
theorem acas_unknown_output (F : FloatTexts) (E : ErrorTexts) (s f : List UInt8) (level : UInt8) (hs : Spells s f)
    (hf : FrameAccepted f) (hfmt : bits f 1 5 = 16) (h30 : bits f 33 40 ≠ 0x30) :
    ∃ a m l t, Overlaid f a ∧ readMessage f = .ok m ∧ m.lines = .ok l ∧ printSingleLine F E s level = .ok t ∧
      t.splitOn '\n' = replyHead s 16 a ++ l.map cat ++ [t! " -- ACAS Information --",
        t! "Unknown message type: [" ++ [hexDigit (bits f 33 36)] ++ t! ":" ++ [hexDigit (bits f 37 40)] ++ t! "]"] ++ [[], []] := by
  obtain ⟨a, m, d, r, hh, hm, hdet, hr, hrr⟩ := reported_case s f level hs ⟨hf, fun h => by omega⟩
  obtain ⟨l, hl, -⟩ := text_ok m (readMessage_shaped f m hm)
  unfold HeadNumber at hh
  rw [if_neg (by omega)] at hh
  unfold DetailsOf at hdet
  rw [if_pos hfmt, if_neg h30] at hdet
  obtain ⟨v1, v2, rfl, e1, e2⟩ := hdet
  have hx (n : Nat) (h : n < 16) : OneLine [hexDigit n] := by
    unfold OneLine; interval_cases n <;> decide +kernel
  have b1 : bits f 33 36 < 16 := by unfold bits; exact Nat.mod_lt _ (by norm_num)
  have b2 : bits f 37 40 < 16 := by unfold bits; exact Nat.mod_lt _ (by norm_num)
  obtain ⟨t, ht, hsp⟩ := report_lines F E s f level hs m hm l hl a (.acasUnknown v1 v2) r hr hrr
    [t! " -- ACAS Information --",
        t! "Unknown message type: [" ++ [hexDigit (bits f 33 36)] ++ t! ":" ++ [hexDigit (bits f 37 40)] ++ t! "]"] (by simp) (by
      simp only [List.forall_mem_cons, List.not_mem_nil, false_imp_iff, implies_true, and_true]
      refine ⟨by unfold OneLine; decide +kernel, ?_⟩
      refine OneLine.append (OneLine.append (OneLine.append (OneLine.append ?_ (hx _ b1)) ?_) (hx _ b2)) ?_ <;>
        (unfold OneLine; decide +kernel))
    (by rw [Details.text, e1, e2]; simp [textOfLines])
  rw [hfmt] at hsp
  exact ⟨a.toNat, m, l, t, hh, hm, hl, ht, hsp⟩

/-- C98. The output for a valid squitter (format 17, or format 18 with a control field 0 or 1) whose content can be read: the head with
the announced address, the lines of the Mode S message, then the lines of the ADS-B message. -/
theorem squitter_content_output (F : FloatTexts) (hF : F.Faithful) (E : ErrorTexts) (s f : List UInt8) (level : UInt8) (hs : Spells s f)
    (hf : Reported f) (hfmt : bits f 1 5 = 17 ∨ bits f 1 5 = 18 ∧ bits f 6 8 ≤ 1) (M : ADSBMessage)
    (hM : readADSBMessage level false false (field56 f) = .returns (.val M) false) :
    ∃ m l t, readMessage f = .ok m ∧ m.lines = .ok l ∧ printSingleLine F E s level = .ok t ∧
      t.splitOn '\n' = replyHead s (bits f 1 5) (bits f 9 32) ++ l.map cat ++
        (t! " -- ADSB Information --" :: (M.text F).splitOn '\n') ++ [[], []] := by
  obtain ⟨a, m, d, r, hh, hm, hdet, hr, hrr⟩ := reported_case s f level hs hf
  obtain ⟨l, hl, -⟩ := text_ok m (readMessage_shaped f m hm)
  unfold HeadNumber at hh
  rw [if_pos (by omega)] at hh
  have hsq : SquitterDetails level (field56 f) d := by
    unfold DetailsOf at hdet
    rw [if_neg (by omega)] at hdet
    rcases hfmt with h | ⟨h, hc⟩
    · rw [if_pos h] at hdet; exact hdet
    · rw [if_neg (by omega), if_pos h, if_pos hc] at hdet; exact hdet
  have hd : d = .adsb M := by
    rcases hsq with ⟨M', rfl, -, -, h⟩ | ⟨rfl, hn⟩
    · rw [hM] at h
      injection h with h
      rw [Iface.val.inj h]
    · rcases adsb_eval level false false (field56 f) with ⟨h, -⟩ | ⟨h, -⟩ | ⟨h, -⟩
      · rw [hM] at h; cases h
      · rw [hM] at h; cases h
      · exact absurd h hn
  subst hd
  have hsM := adsb_splitOn F hF level false false _ M hM
  have hpM := adsb_printable level false false _ M hM
  have hne := adsb_lines_ne F M hpM
  have hall := adsb_allLine F hF M hpM
  have hMt : textOfLines ((M.text F).splitOn '\n') = M.text F := by rw [hsM, ← linesText_eq]; rfl
  obtain ⟨t, ht, hsp⟩ := report_lines F E s f level hs m hm l hl a (.adsb M) r hr hrr
    (t! " -- ADSB Information --" :: (M.text F).splitOn '\n') (by simp) (by
      intro x hx
      rcases List.mem_cons.1 hx with rfl | hx
      · unfold OneLine; decide +kernel
      · rw [hsM] at hx
        obtain ⟨z, hz, rfl⟩ := List.mem_map.1 hx
        exact hall z hz)
    (by
      have := textOfLines_append (a := [t! " -- ADSB Information --"]) (b := (M.text F).splitOn '\n') (by simp)
        (by rw [hsM]; simpa using hne)
      simp only [List.singleton_append] at this
      rw [this, hMt]
      simp [Details.text, textOfLines])
  rw [hh] at hsp
  exact ⟨m, l, t, hm, hl, ht, hsp⟩

/-- C98. The output for a valid squitter that is not ADS-B (format 18): for the control fields 2 to 5 (TIS-B) the program says that it does
not decode it, for 6 and 7 it prints nothing after the Mode S message. -/
theorem squitter_not_adsb_output (F : FloatTexts) (E : ErrorTexts) (s f : List UInt8) (level : UInt8) (hs : Spells s f)
    (hf : Reported f) (hfmt : bits f 1 5 = 18) (hcf : 2 ≤ bits f 6 8) :
    ∃ m l t, readMessage f = .ok m ∧ m.lines = .ok l ∧ printSingleLine F E s level = .ok t ∧
      t.splitOn '\n' = replyHead s 18 (bits f 9 32) ++ l.map cat ++
        (if bits f 6 8 ≤ 5 then [t! " -- TISB Information --", t! "Not implemented"] else []) ++ [[], []] := by
  obtain ⟨a, m, d, r, hh, hm, hdet, hr, hrr⟩ := reported_case s f level hs hf
  obtain ⟨l, hl, -⟩ := text_ok m (readMessage_shaped f m hm)
  unfold HeadNumber at hh
  rw [if_pos (by omega)] at hh
  unfold DetailsOf at hdet
  rw [if_neg (by omega), if_neg (by omega), if_pos hfmt, if_neg (by omega)] at hdet
  by_cases h5 : bits f 6 8 ≤ 5
  · rw [if_pos h5] at hdet
    subst hdet
    obtain ⟨t, ht, hsp⟩ := report_lines F E s f level hs m hm l hl a .tisb r hr hrr
      [t! " -- TISB Information --", t! "Not implemented"] (by simp) (by
        simp only [List.forall_mem_cons, List.not_mem_nil, false_imp_iff, implies_true, and_true]
        constructor <;> (unfold OneLine; decide +kernel))
      (by simp [Details.text, textOfLines])
    rw [hh, hfmt] at hsp
    exact ⟨m, l, t, hm, hl, ht, by rw [hsp, if_pos h5]⟩
  · rw [if_neg h5] at hdet
    subst hdet
    have h11 : bits f 1 5 ≠ 11 := by omega
    obtain rfl : r = .sentBy a m .nothing := by
      rcases hrr with ⟨h, -⟩ | ⟨-, h⟩
      · exact absurd h h11
      · exact h
    have h18 : m.getDownLinkFormat = 18 := by
      rw [readMessage_type f m hm, if_neg (by omega)]; exact hfmt
    obtain ⟨t, ht, hsp⟩ := report_lines_none F E s f level hs m hm l hl a .nothing hr h11 (by simp only [Details.text]; rw [if_pos h18])
    rw [hh, hfmt] at hsp
    exact ⟨m, l, t, hm, hl, ht, by rw [hsp, if_neg h5]; simp⟩

/-! ### From the aircraft to the printed line -/

theorem accepted_of {f : List UInt8} {m : ModeSMessage} (h : readMessage f = .ok m) : FrameAccepted f :=
  (readMessage_accepts_iff f).1 ⟨m, h⟩

theorem overlaid_same {f : List UInt8} {a b : Nat} {m : ModeSMessage} (h : readMessage f = .ok m) (h1 : Overlaid f a) (h2 : Overlaid f b) : a = b := by
  refine overlaid_unique f a b ?_ h1 h2
  rcases (accepted_of h).1 with h | h <;> omega

theorem identityText_digits : ∀ a < 8, ∀ b < 8, ∀ c < 8, ∀ d < 8,
    identityText (digitsText [a, b, c, d]) = [octalDigit a, octalDigit b, octalDigit c, octalDigit d] ++ squawkNote a b c d := by decide +kernel

/-- C98, altitude replies (formats 4 and 20), from the aircraft at the altitude `h` to the printed line: the address and, on its own
line, an altitude within half an increment. -/
theorem altitude_reply_printed (F : FloatTexts) (hF : F.Faithful) (E : ErrorTexts) (level : UInt8) (fs dr iis ids address : Nat)
    (hfs : fs < 8) (hdr : dr < 32) (hiis : iis < 16) (hids : ids < 4) (h : ℝ) (c : Nat) (tol : ℝ) (hsend : SendsAltitude h c tol)
    (s f mb : List UInt8) (hs : Spells s f)
    (hf : IsReply 4 (fs * 2 ^ 11 + dr * 2 ^ 6 + iis * 2 ^ 2 + ids) c [] address f ∨
      (mb.length = 7 ∧ IsReply 20 (fs * 2 ^ 11 + dr * 2 ^ 6 + iis * 2 ^ 2 + ids) c mb address f)) :
    ∃ t, ∃ altitude : Int, printSingleLine F E s level = .ok t ∧ |(altitude : ℝ) - h| ≤ tol ∧
      (t.splitOn '\n')[2]? = some (t! "From: " ++ addressText address ++ t! " ") ∧
      (t.splitOn '\n')[8]? = some (t! "Altitude:             " ++ decimalInt altitude) := by
  have hsx := altitude_reply_end_to_end fs dr iis ids address hfs hdr hiis hids h c tol hsend f mb
  rcases hf with hf | ⟨hmb, hf⟩
  · obtain ⟨m, hm, -, -, -, -, -, halt, -⟩ := hsx.1 hf
    have h4 := (df4_fields f m hm).2.1
    obtain ⟨a, m', l, t, hh, hm', hl, ht, hsp⟩ := plain_output F E s f level hs (accepted_of hm) (by rw [h4]; decide)
    obtain rfl := Except.ok.inj (hm.symm.trans hm')
    unfold HeadNumber at hh
    rw [if_neg (by omega)] at hh
    obtain ⟨p, -, -, ho⟩ := hf
    obtain rfl := overlaid_same hm hh ho
    obtain rfl : _ = l := Except.ok.inj hl
    refine ⟨t, m.altitude, ht, halt, ?_, ?_⟩
    · rw [hsp, h4]; rfl
    · rw [hsp, ← decInt_decimal]; rfl
  · obtain ⟨m, hm, -, -, -, -, -, -, halt, -⟩ := hsx.2 hmb hf
    have h4 := (df20_fields f m hm).2.1
    obtain ⟨a, m', l, cs, t, hh, hm', hl, -, ht, hsp⟩ := commB_output F hF E s f level hs (accepted_of hm) (Or.inl h4)
    obtain rfl := Except.ok.inj (hm.symm.trans hm')
    obtain ⟨p, -, -, ho⟩ := hf
    obtain rfl := overlaid_same hm hh ho
    have hsh : m.messageCommB.length = 7 := readMessage_shaped f _ hm
    simp only [ModeSMessage.lines, hexIndexed_ok hsh, go_bind_ok, go_pure] at hl
    obtain rfl : _ = l := Except.ok.inj hl
    refine ⟨t, m.altitude, ht, halt, ?_, ?_⟩
    · rw [hsp, h4]; rfl
    · rw [hsp, ← decInt_decimal]; rfl

/-- C98, identity replies (formats 5 and 21), from the aircraft squawking `a b c d` to the printed line: the address, the four digits, and
the words of a special code. -/
theorem identity_reply_printed (F : FloatTexts) (hF : F.Faithful) (E : ErrorTexts) (level : UInt8) (fs dr iis ids address : Nat)
    (hfs : fs < 8) (hdr : dr < 32) (hiis : iis < 16) (hids : ids < 4) (a b c d : Nat) (ha : a < 8) (hb : b < 8) (hc : c < 8) (hd : d < 8)
    (s f mb : List UInt8) (hs : Spells s f)
    (hf : IsReply 5 (fs * 2 ^ 11 + dr * 2 ^ 6 + iis * 2 ^ 2 + ids) (squawkCode a b c d) [] address f ∨
      (mb.length = 7 ∧ IsReply 21 (fs * 2 ^ 11 + dr * 2 ^ 6 + iis * 2 ^ 2 + ids) (squawkCode a b c d) mb address f)) :
    ∃ t, printSingleLine F E s level = .ok t ∧
      (t.splitOn '\n')[2]? = some (t! "From: " ++ addressText address ++ t! " ") ∧
      (t.splitOn '\n')[7]? = some (t! "Identity:         " ++ ([octalDigit a, octalDigit b, octalDigit c, octalDigit d] ++ squawkNote a b c d)) := by
  have hsx := identity_reply_end_to_end fs dr iis ids address hfs hdr hiis hids a b c d ha hb hc hd f mb
  have htx := identityText_digits a ha b hb c hc d hd
  rcases hf with hf | ⟨hmb, hf⟩
  · obtain ⟨m, hm, -, -, -, -, hid, -⟩ := hsx.1 hf
    have h4 := (df5_fields f m hm).2.1
    obtain ⟨x, m', l, t, hh, hm', hl, ht, hsp⟩ := plain_output F E s f level hs (accepted_of hm) (by rw [h4]; decide)
    obtain rfl := Except.ok.inj (hm.symm.trans hm')
    unfold HeadNumber at hh
    rw [if_neg (by omega)] at hh
    obtain ⟨p, -, -, ho⟩ := hf
    obtain rfl := overlaid_same hm hh ho
    obtain rfl : _ = l := Except.ok.inj hl
    refine ⟨t, ht, ?_, ?_⟩
    · rw [hsp, h4]; rfl
    · rw [hsp, ← htx, ← hid]; rfl
  · obtain ⟨m, hm, -, -, -, -, -, hid, -⟩ := hsx.2 hmb hf
    have h4 := (df21_fields f m hm).2.1
    obtain ⟨x, m', l, cs, t, hh, hm', hl, -, ht, hsp⟩ := commB_output F hF E s f level hs (accepted_of hm) (Or.inr h4)
    obtain rfl := Except.ok.inj (hm.symm.trans hm')
    obtain ⟨p, -, -, ho⟩ := hf
    obtain rfl := overlaid_same hm hh ho
    have hsh : m.messageCommB.length = 7 := (readMessage_shaped f _ hm).2
    simp only [ModeSMessage.lines, hexIndexed_ok hsh, go_bind_ok, go_pure] at hl
    obtain rfl : _ = l := Except.ok.inj hl
    refine ⟨t, ht, ?_, ?_⟩
    · rw [hsp, h4]; rfl
    · rw [hsp, ← htx, ← hid]; rfl

/-- C98, all-call replies (format 11): the code of the interrogator and the address announced, and these are all the lines. -/
theorem allCall_printed (F : FloatTexts) (E : ErrorTexts) (level : UInt8) (ca address code : Nat) (hca : ca < 8) (haa : address < 2 ^ 24)
    (s f p : List UInt8) (hp : p.length = 3) (hf : f = toBytes 4 (11 * 2 ^ 27 + ca * 2 ^ 24 + address) ++ p) (ho : Overlaid f code)
    (hs : Spells s f) :
    ∃ t, printSingleLine F E s level = .ok t ∧ t.splitOn '\n' = [t! "Reading: " ++ asciiText s, t! " -- Mode-S Information --",
      t! "In reply to interrogator: " ++ addressText code ++ t! " ", t! "Downlink format:  11 - All-call reply",
      t! "Capability:       " ++ Text.modesCapability (UInt8.ofNat ca), t! "AddressAnnounced: " ++ addressText address, [], [], []] := by
  obtain ⟨m, hm, h1, h2, -⟩ := allCall_end_to_end ca address code hca haa f p hp hf ho
  have h4 := (df11_fields f m hm).2.1
  obtain ⟨x, m', l, t, hh, hm', hl, ht, hsp⟩ := plain_output F E s f level hs (accepted_of hm) (by rw [h4]; decide)
  obtain rfl := Except.ok.inj (hm.symm.trans hm')
  unfold HeadNumber at hh
  rw [if_neg (by omega)] at hh
  obtain rfl := overlaid_same hm hh ho
  obtain rfl : _ = l := Except.ok.inj hl
  have hcap : m.capability = UInt8.ofNat ca := by
    apply UInt8.toNat_inj.1
    rw [h1, UInt8.toNat_ofNat_of_lt' (by show ca < 256; omega)]
  have hh : ModeSMessage.heading (.df11 m) = t! "11 - All-call reply" := by
    simp only [ModeSMessage.heading, ModeSMessage.getDownLinkFormat, ModeSMessage.getName]; decide +kernel
  refine ⟨t, ht, ?_⟩
  rw [hsp, h4, hh, addressAnnouncedText_eq, h2, hcap]
  simp [replyHead, cat]

/-- C98. Whatever is shown in the text of a register the field can be is printed: for each candidate and each line of its text. -/
theorem commB_line_printed (F : FloatTexts) (hF : F.Faithful) (E : ErrorTexts) (level : UInt8) (format header address : Nat)
    (hh : ReadableHeader format header) (mb f s : List UInt8) (hmb : mb.length = 7) (hf : IsCommBReply format header address mb f)
    (hs : Spells s f) (c : List (Iface CommBMessage)) (hc : readCommBMessage mb = .ok c) (M : CommBMessage) (hM : .val M ∈ c) :
    ∃ t, printSingleLine F E s level = .ok t ∧
      (t.splitOn '\n')[2]? = some (t! "From: " ++ addressText address ++ t! " ") ∧
      ∀ label value, ShowsLine (M.text F) label value → label ++ value ∈ t.splitOn '\n' := by
  obtain ⟨m, hm, hx, -⟩ := commB_reply_received format header address mb f hh.1 hh.2.1 hh.2.2 hmb hf
  have h20 : bits f 1 5 = 20 ∨ bits f 1 5 = 21 := by
    rcases hx with ⟨-, x, rfl, -⟩ | ⟨-, x, rfl, -⟩
    · exact Or.inl (df20_fields f x hm).2.1
    · exact Or.inr (df21_fields f x hm).2.1
  have hfield : field56 f = mb := by
    rcases hx with ⟨-, x, rfl, hxm⟩ | ⟨-, x, rfl, hxm⟩
    · rw [← hxm, (df20_fields f x hm).2.2.2.2.2.2.1]; rfl
    · rw [← hxm, (df21_fields f x hm).2.2.2.2.2.2.1]; rfl
  obtain ⟨a, m', l, cs, t, ha, hm', hl, hcs, ht, hsp⟩ := commB_output F hF E s f level hs (accepted_of hm) h20
  obtain ⟨p, -, -, ho⟩ := hf
  obtain rfl := overlaid_same hm ha ho
  rw [hfield, hc] at hcs
  obtain rfl := Except.ok.inj hcs
  refine ⟨t, ht, ?_, ?_⟩
  · rw [hsp]
    have : ¬ bits f 1 5 = 11 := by omega
    simp [replyHead, this]
  · intro label value hsl
    obtain ⟨M', hM', e⟩ := List.mem_map.1 hM
    obtain rfl := Iface.val.inj e
    have hmem : label ++ value ∈ (M'.text F).splitOn '\n' := by
      have : label ++ value ∈ ((M'.text F).splitOn '\n').filter (fun l => label.isPrefixOf l) := by
        rw [hsl]; simp
      exact (List.mem_filter.1 this).1
    have hne : cs ≠ [] := by rintro rfl; cases hM'
    rw [hsp, if_neg hne]
    refine List.mem_append_left _ (List.mem_append_right _ (List.mem_cons_of_mem _ ?_))
    exact mem_ruled _ _ (List.mem_map.2 ⟨M', hM', rfl⟩) _ hmem

/-- C98. The callsign an aircraft sends in a Comm-B reply is printed. -/
theorem commB_callsign_printed (F : FloatTexts) (hF : F.Faithful) (E : ErrorTexts) (level : UInt8) (format header address : Nat)
    (hh : ReadableHeader format header) (cs : List UInt8) (h8 : cs.length = 8) (hcs : ∀ c ∈ cs, IdentChar c) (s f : List UInt8)
    (hf : IsCommBReply format header address (0x20 :: toBytes 6 (encodeIdent cs)) f) (hs : Spells s f) :
    ∃ t, printSingleLine F E s level = .ok t ∧
      (t.splitOn '\n')[2]? = some (t! "From: " ++ addressText address ++ t! " ") ∧
      t! "Identification:                          " ++ (cs.map fun x => Char.ofNat x.toNat) ∈ t.splitOn '\n' := by
  obtain ⟨M, hM, hshow⟩ := commB_identification_text F hF cs h8 hcs
  obtain ⟨t, ht, ha, h⟩ := commB_line_printed F hF E level format header address hh _ f s (by simp [toBytes_length]) hf hs _ hM M (by simp)
  exact ⟨t, ht, ha, h _ _ hshow⟩

end Modes
