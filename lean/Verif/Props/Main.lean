import Verif.Model.Main
import Verif.Spec.Text
import Verif.Props.CRC
import Verif.Props.ACAS
import Verif.Props.ADSB
import Verif.Props.CommB
/-!
# C60, C61, C67: the program that decodes lines of text
-/
open Spec
namespace Modes

/-! ### C61: indenting -/

theorem splitOn_textOfLines (ls : List (List Char)) (hne : ls ≠ []) (h : ∀ l ∈ ls, '\n' ∉ l) :
    (textOfLines ls).splitOn '\n' = ls := by
  induction ls with
  | nil => exact absurd rfl hne
  | cons l ls ih =>
    have hl := h l List.mem_cons_self
    cases ls with
    | nil =>
      unfold textOfLines
      exact List.splitOn_eq_singleton hl
    | cons l' ls =>
      unfold textOfLines
      rw [List.splitOn_append_cons_self, ih (by simp) (fun x hx => h x (List.mem_cons_of_mem _ hx)),
        List.splitOn_eq_singleton hl]
      rfl

theorem intercalate_textOfLines (ls : List (List Char)) : ['\n'].intercalate ls = textOfLines ls := by
  induction ls with
  | nil => rfl
  | cons l ls ih =>
    cases ls with
    | nil => simp [textOfLines]
    | cons l' ls =>
      unfold textOfLines
      rw [← ih]
      simp

/-- Every text consists of lines, in one way only. -/
theorem text_has_lines (t : List Char) :
    ∃ ls, (ls ≠ [] ∧ (∀ l ∈ ls, '\n' ∉ l) ∧ textOfLines ls = t) ∧
      ∀ ls', ls' ≠ [] → (∀ l ∈ ls', '\n' ∉ l) → textOfLines ls' = t → ls' = ls := by
  have ex : ∃ ls, ls ≠ [] ∧ (∀ l ∈ ls, '\n' ∉ l) ∧ textOfLines ls = t := by
    induction t with
    | nil => exact ⟨[[]], by simp, by simp, rfl⟩
    | cons c t ih =>
      obtain ⟨ls, hne, hl, ht⟩ := ih
      by_cases hc : c = '\n'
      · refine ⟨[] :: ls, by simp, ?_, ?_⟩
        · intro l hm
          rcases List.mem_cons.1 hm with rfl | hm
          · simp
          · exact hl l hm
        · cases ls with
          | nil => exact absurd rfl hne
          | cons l ls => subst hc; unfold textOfLines; rw [ht]; rfl
      · cases ls with
        | nil => exact absurd rfl hne
        | cons l ls =>
          refine ⟨(c :: l) :: ls, by simp, ?_, ?_⟩
          · intro x hm
            rcases List.mem_cons.1 hm with rfl | hm
            · intro hx
              rcases List.mem_cons.1 hx with hx | hx
              · exact hc hx.symm
              · exact hl l List.mem_cons_self hx
            · exact hl x (List.mem_cons_of_mem _ hm)
          · cases ls with
            | nil => unfold textOfLines at ht ⊢; rw [ht]
            | cons l' ls => unfold textOfLines at ht ⊢; rw [← ht]; rfl
  obtain ⟨ls, h1, h2, h3⟩ := ex
  refine ⟨ls, ⟨h1, h2, h3⟩, fun ls' h1' h2' h3' => ?_⟩
  rw [← splitOn_textOfLines ls' h1' h2', h3', ← h3, splitOn_textOfLines ls h1 h2]

/-- C61. For a text of any lines (`text_has_lines`: every text is one) and any prefix, the result consists of the same lines, each
with the prefix in front. -/
theorem prefix_lines (ls : List (List Char)) (hne : ls ≠ []) (h : ∀ l ∈ ls, '\n' ∉ l) (pre : List Char) :
    prefixMultiLine (textOfLines ls) pre = textOfLines (ls.map (pre ++ ·)) := by
  unfold prefixMultiLine
  simp only [splitOn_textOfLines ls hne h, intercalate_textOfLines]

/-- C61, consequences for a prefix that is not itself several lines: the number of lines is kept, and removing the prefix from
every line gives the text back. -/
theorem prefix_lines_recover (t pre : List Char) (hp : '\n' ∉ pre) :
    ((prefixMultiLine t pre).splitOn '\n').length = (t.splitOn '\n').length ∧
    textOfLines (((prefixMultiLine t pre).splitOn '\n').map (fun l => l.drop pre.length)) = t ∧
    ∀ l ∈ (prefixMultiLine t pre).splitOn '\n', pre <+: l := by
  obtain ⟨ls, ⟨h1, h2, h3⟩, -⟩ := text_has_lines t
  have e : (prefixMultiLine t pre).splitOn '\n' = ls.map (pre ++ ·) := by
    rw [← h3, prefix_lines ls h1 h2, splitOn_textOfLines _ (by simpa using h1)]
    intro l hl
    obtain ⟨x, hx, rfl⟩ := List.mem_map.1 hl
    intro hm
    rcases List.mem_append.1 hm with hm | hm
    · exact hp hm
    · exact h2 x hx hm
  rw [e]
  refine ⟨by rw [← h3, splitOn_textOfLines ls h1 h2, List.length_map], ?_, ?_⟩
  · rw [List.map_map, ← h3]
    congr 1
    conv_rhs => rw [← List.map_id ls]
    apply List.map_congr_left
    intro l _
    simp
  · intro l hl
    obtain ⟨x, -, rfl⟩ := List.mem_map.1 hl
    exact List.prefix_append _ _

example : prefixMultiLine "a\n\nbc".toList "> ".toList = "> a\n> \n> bc".toList := by decide

/-! ### Hexadecimal text -/

theorem hexValue_some (c x : UInt8) : hexValue c = some x ↔ HexDigit c x.toNat := by
  unfold hexValue HexDigit
  have := c.toNat_lt
  have := x.toNat_lt
  simp only [UInt8.le_iff_toNat_le, UInt8.reduceToNat]
  split
  · rename_i h
    rw [Option.some.injEq, ← UInt8.toNat_inj]
    rw [UInt8.toNat_sub_of_le _ _ (by rw [UInt8.le_iff_toNat_le]; exact h.1)]
    simp only [UInt8.reduceToNat]
    omega
  · split
    · rename_i h
      rw [Option.some.injEq, ← UInt8.toNat_inj, UInt8.toNat_add]
      rw [UInt8.toNat_sub_of_le _ _ (by rw [UInt8.le_iff_toNat_le]; exact h.1)]
      simp only [UInt8.reduceToNat]
      omega
    · split
      · rename_i h
        rw [Option.some.injEq, ← UInt8.toNat_inj, UInt8.toNat_add]
        rw [UInt8.toNat_sub_of_le _ _ (by rw [UInt8.le_iff_toNat_le]; exact h.1)]
        simp only [UInt8.reduceToNat]
        omega
      · constructor
        · intro h; cases h
        · intro h; omega

theorem hexDigit_lt (c : UInt8) (v : Nat) (h : HexDigit c v) : v < 16 := by
  unfold HexDigit at h; omega

theorem nibbles (x y : UInt8) (hx : x.toNat < 16) (hy : y.toNat < 16) : ((x <<< 4) ||| y).toNat = 16 * x.toNat + y.toNat := by
  have h : ∀ a b : Fin 16, ((UInt8.ofNat a <<< 4) ||| UInt8.ofNat b).toNat = 16 * a.1 + b.1 := by decide
  have := h ⟨x.toNat, hx⟩ ⟨y.toNat, hy⟩
  simpa using this

/-- The text is decoded exactly when it spells bytes, and to these bytes. -/
theorem hexDecode_iff (s f : List UInt8) : hexDecode s = .ok f ↔ Spells s f := by
  induction s using hexDecode.induct generalizing f with
  | case1 => 
    unfold hexDecode
    constructor
    · intro h; cases h; exact .nil
    · intro h; cases h; rfl
  | case2 a =>
    unfold hexDecode
    constructor
    · intro h; cases h
    · intro h; cases h
  | case3 a b rest x y hb ha ih =>
    rw [hexDecode, ha, hb]
    simp only
    have hx := (hexValue_some a x).1 ha
    have hy := (hexValue_some b y).1 hb
    have e := nibbles x y (hexDigit_lt _ _ hx) (hexDigit_lt _ _ hy)
    constructor
    · intro h
      cases hr : hexDecode rest with
      | error _ => rw [hr] at h; cases h
      | ok g => rw [hr] at h; cases h; exact .cons hx hy e ((ih g).1 hr)
    · intro h
      cases h with
      | cons h1 h2 hn h =>
        rename_i n x' y' g
        rw [(ih g).2 h]
        have e1 : x' = x.toNat := by unfold HexDigit at h1 hx; omega
        have e2 : y' = y.toNat := by unfold HexDigit at h2 hy; omega
        have : n = (x <<< 4) ||| y := by rw [← UInt8.toNat_inj, hn, e, e1, e2]
        rw [this]; rfl
  | case4 a b rest hno =>
    rw [hexDecode]
    have key : ∀ x' y', HexDigit a x' → HexDigit b y' → False := by
      intro x' y' h1 h2
      have l1 := hexDigit_lt _ _ h1
      have l2 := hexDigit_lt _ _ h2
      refine hno (UInt8.ofNat x') (UInt8.ofNat y') ((hexValue_some _ _).2 ?_) ((hexValue_some _ _).2 ?_)
      · rw [UInt8.toNat_ofNat_of_lt' (by show x' < 256; omega)]; exact h1
      · rw [UInt8.toNat_ofNat_of_lt' (by show y' < 256; omega)]; exact h2
    constructor
    · intro h
      split at h
      · rename_i x y hx hy; exact absurd hy (by rintro -; exact hno x y hx hy)
      · cases h
    · intro h
      cases h with
      | cons h1 h2 hn h => exact (key _ _ h1 h2).elim

theorem hexDecode_noPanic (s : List UInt8) : NoPanic (hexDecode s) := by
  induction s using hexDecode.induct with
  | case1 => simp [NoPanic, hexDecode]
  | case2 a => simp [NoPanic, hexDecode, fail]
  | case3 a b rest x y hb ha ih =>
    unfold NoPanic at ih ⊢
    rw [hexDecode, ha, hb]
    simp only
    cases hr : hexDecode rest with
    | error e => 
      rw [hr] at ih
      intro h; cases h; exact ih rfl
    | ok g => intro h; cases h
  | case4 a b rest hno =>
    rw [hexDecode]
    split
    · rename_i x y hx hy; exact (hno x y hx hy).elim
    · simp [NoPanic, fail]

/-! ### What is printed -/

theorem indexAll_ok (d : List UInt8) (n : Nat) (h : n ≤ d.length) : indexAll d n = .ok () := by
  induction n with
  | zero => rfl
  | succ n ih =>
    unfold indexAll
    rw [ih (by omega)]
    have : idx d n = .ok d[n] := by unfold idx; rw [List.getElem?_eq_getElem (by omega)]
    rw [this]
    rfl

theorem me_length (f : List UInt8) (h : f.length = 14) : ((f.drop 4).take 7).length = 7 := by
  rw [List.length_take, List.length_drop]; omega

/-- Every message read can be printed. -/
theorem print_ok (f : List UInt8) (m : ModeSMessage) (h : readMessage f = .ok m) : m.print = .ok () := by
  cases m with
  | df17 m =>
    have := df17_fields f m h
    exact indexAll_ok _ _ (by rw [this.2.2.2.2.1, me_length f this.1])
  | df18 m =>
    have := df18_fields f m h
    exact indexAll_ok _ _ (by rw [this.2.2.2.2.1, me_length f this.1])
  | df20 m =>
    have := df20_fields f m h
    exact indexAll_ok _ _ (by rw [this.2.2.2.2.2.2.1, me_length f this.1])
  | df21 m =>
    have := df21_fields f m h
    exact indexAll_ok _ _ (by rw [this.2.2.2.2.2.2.1, me_length f this.1])
  | df24 m =>
    have := df24_fields f m h
    exact indexAll_ok _ _ (by rw [this.2.2.2.2.1, List.length_take, List.length_drop]; omega)
  | _ => rfl

theorem printAll_vals {α : Type} (l : List α) : printAll (l.map Iface.val) = .ok l := by
  induction l with
  | nil => rfl
  | cons a l ih =>
    rw [List.map_cons]
    unfold printAll
    rw [ih]; rfl

/-- The frames `ReadMessage` accepts (`readMessage_accepts_iff`, C01). -/
def FrameAccepted (f : List UInt8) : Prop :=
  ((f.length = 7 ∧ bits f 1 5 ∈ shortFormats) ∨ (f.length = 14 ∧ bits f 1 5 ∈ longFormats)) ∧
    (bits f 1 5 ∈ altitudeFormats → ¬ AltitudeIllegal (bits f 20 32))

/-- The content of an extended squitter `me` is printed as the ADS-B message it holds, or reported unreadable. -/
def SquitterDetails (level : UInt8) (me : List UInt8) (d : Details) : Prop :=
  (∃ m, d = .adsb m ∧ AdsbAccepted level.toNat me ∧ AdsbContent level false false me m ∧
    readADSBMessage level false false me = .returns (.val m) false) ∨
  (d = .adsbUnreadable ∧ ¬ AdsbAccepted level.toNat me)

/-- The 7-byte field of a frame: bits 33-88. -/
def field56 (f : List UInt8) : List UInt8 := (f.drop 4).take 7

/-- What must be printed after the Mode S information of the frame `f`, by its format. -/
def DetailsOf (level : UInt8) (f : List UInt8) (d : Details) : Prop :=
  if bits f 1 5 = 16 then
    if bits f 33 40 = 0x30 then
      (∃ ra, d = .acas ra ∧ readResolutionAdvisory ((field56 f).drop 1) = .ok ra) ∨
      (d = .acasUnreadable ∧ readResolutionAdvisory ((field56 f).drop 1) = .error .err)
    else ∃ v1 v2 : UInt8, d = .acasUnknown v1 v2 ∧ v1.toNat = bits f 33 36 ∧ v2.toNat = bits f 37 40
  else if bits f 1 5 = 17 then SquitterDetails level (field56 f) d
  else if bits f 1 5 = 18 then
    if bits f 6 8 ≤ 1 then SquitterDetails level (field56 f) d
    else if bits f 6 8 ≤ 5 then d = .tisb
    else d = .nothing
  else if bits f 1 5 = 20 ∨ bits f 1 5 = 21 then
    ∃ l : List CommBMessage, readCommBMessage (field56 f) = .ok (l.map Iface.val) ∧
      d = if l.isEmpty then .commBUnknown else .commB l
  else d = .nothing

theorem squitter_details (level : UInt8) (me : List UInt8) :
    ∃ d, processADSBMessage me level = .ok d ∧ SquitterDetails level me d := by
  unfold processADSBMessage SquitterDetails
  rcases adsb_eval level false false me with ⟨h, hn, -⟩ | ⟨h, hn, -⟩ | ⟨ha, m, h, hc, -⟩
  · rw [h]; exact ⟨_, rfl, Or.inr ⟨rfl, hn⟩⟩
  · rw [h]; exact ⟨_, rfl, Or.inr ⟨rfl, hn⟩⟩
  · rw [h]; exact ⟨.adsb m, rfl, Or.inl ⟨m, rfl, ha, hc, rfl⟩⟩

theorem commB_details (mb : List UInt8) (h7 : mb.length = 7) :
    ∃ d, processCommBMessage mb = .ok d ∧ ∃ l : List CommBMessage, readCommBMessage mb = .ok (l.map Iface.val) ∧
      d = if l.isEmpty then .commBUnknown else .commB l := by
  obtain ⟨l, hl, -⟩ := commB_sound_complete mb h7
  unfold processCommBMessage
  rw [hl]
  cases l with
  | nil => exact ⟨_, rfl, [], rfl, rfl⟩
  | cons a l =>
    refine ⟨.commB (a :: l), ?_, a :: l, rfl, rfl⟩
    rw [List.map_cons]
    show (do return Details.commB (← printAll (Iface.val a :: l.map Iface.val))) = _
    rw [← List.map_cons, printAll_vals]; rfl

theorem acas_details (level : UInt8) (f : List UInt8) (m : MessageDF16) (h : readMessage f = .ok (.df16 m)) :
    ∃ d, postProcessMessage16 m = .ok d ∧ DetailsOf level f d := by
  obtain ⟨h14, h16, -, -, -, hm, -⟩ := df16_fields f m h
  unfold postProcessMessage16 DetailsOf
  simp only [if_pos h16, hm]
  obtain ⟨b0, b1, b2, b3, b4, b5, b6, b7, b8, b9, b10, b11, b12, b13, rfl⟩ := list14 f h14
  have e1 : bits [b0, b1, b2, b3, b4, b5, b6, b7, b8, b9, b10, b11, b12, b13] 33 40 = b4.toNat := by byte_omega
  have e2 : bits [b0, b1, b2, b3, b4, b5, b6, b7, b8, b9, b10, b11, b12, b13] 33 36 = ((b4 &&& 0xF0) >>> 4).toNat := by byte_omega
  have e3 : bits [b0, b1, b2, b3, b4, b5, b6, b7, b8, b9, b10, b11, b12, b13] 37 40 = (b4 &&& 0x0F).toNat := by byte_omega
  have e4 : b4.toNat = 16 * ((b4 &&& 0xF0) >>> 4).toNat + (b4 &&& 0x0F).toNat := by byte_omega
  have l2 : (b4 &&& 0x0F).toNat < 16 := by byte_omega
  simp only [e1, e2, e3, field56, List.drop_succ_cons, List.drop_zero, List.take_succ_cons, List.take_zero]
  by_cases hv : (b4 &&& 0xF0) >>> 4 = 3 ∧ b4 &&& 0x0F = 0
  · have hb : b4.toNat = 0x30 := by rw [e4, hv.1, hv.2]; rfl
    simp only [if_pos hb]
    have np := ra_noPanic [b5, b6, b7, b8, b9, b10]
    cases hr : readResolutionAdvisory [b5, b6, b7, b8, b9, b10] with
    | error e =>
      cases e with
      | panic => exact absurd hr np
      | err =>
        refine ⟨.acasUnreadable, ?_, Or.inr ⟨rfl, rfl⟩⟩
        simp [idx, sliceFrom, hv, hr, bind, Except.bind, pure, Except.pure]
    | ok ra =>
      refine ⟨.acas ra, ?_, Or.inl ⟨ra, rfl, rfl⟩⟩
      simp [idx, sliceFrom, hv, hr, bind, Except.bind, pure, Except.pure]
  · have hb : ¬ b4.toNat = 0x30 := by
      intro hb
      rw [e4] at hb
      refine hv ⟨?_, ?_⟩
      · rw [← UInt8.toNat_inj]; show _ = 3; omega
      · rw [← UInt8.toNat_inj]; show _ = 0; omega
    simp only [if_neg hb]
    refine ⟨.acasUnknown ((b4 &&& 0xF0) >>> 4) (b4 &&& 0x0F), ?_, _, _, rfl, rfl, rfl⟩
    simp only [idx, List.getElem?_cons_zero, bind, Except.bind, if_neg hv]
    rfl

/-- Whatever the frame, its details are printed without panic and are the right ones. -/
theorem postProcess_ok (level : UInt8) (f : List UInt8) (m : ModeSMessage) (h : readMessage f = .ok m) :
    ∃ d, postProcess m level = .ok d ∧ DetailsOf level f d := by
  cases m with
  | df16 m =>
    obtain ⟨d, hd, hs⟩ := acas_details level f m h
    exact ⟨d, hd, hs⟩
  | df17 m =>
    obtain ⟨-, h17, -, -, hm, -⟩ := df17_fields f m h
    obtain ⟨d, hd, hs⟩ := squitter_details level (field56 f)
    refine ⟨d, ?_, ?_⟩
    · show processADSBMessage m.messageExtendedSquitter level = .ok d
      rw [hm]; exact hd
    · unfold DetailsOf
      rw [if_neg (by omega), if_pos h17]; exact hs
  | df18 m =>
    obtain ⟨-, h18, hcf, -, hm, -⟩ := df18_fields f m h
    have hlt : bits f 6 8 < 8 := by unfold bits; exact Nat.mod_lt _ (by norm_num)
    have cf (n : UInt8) : m.controlField = n ↔ bits f 6 8 = n.toNat := by rw [← UInt8.toNat_inj, hcf]
    show ∃ d, postProcessMessage18 m level = .ok d ∧ DetailsOf level f d
    unfold postProcessMessage18 DetailsOf
    have k16 : ¬ bits f 1 5 = 16 := by omega
    have k17 : ¬ bits f 1 5 = 17 := by omega
    simp only [cf, UInt8.reduceToNat, if_neg k16, if_neg k17, if_pos h18]
    by_cases c1 : bits f 6 8 ≤ 1
    · have g1 : bits f 6 8 = 0 ∨ bits f 6 8 = 1 := by omega
      simp only [if_pos c1, if_pos g1, hm]; exact squitter_details level (field56 f)
    · have g1 : ¬ (bits f 6 8 = 0 ∨ bits f 6 8 = 1) := by omega
      by_cases c2 : bits f 6 8 ≤ 5
      · have g2 : bits f 6 8 = 2 ∨ bits f 6 8 = 3 ∨ bits f 6 8 = 4 ∨ bits f 6 8 = 5 := by omega
        simp only [if_neg c1, if_neg g1, if_pos c2, if_pos g2]; exact ⟨_, rfl, rfl⟩
      · have g2 : ¬ (bits f 6 8 = 2 ∨ bits f 6 8 = 3 ∨ bits f 6 8 = 4 ∨ bits f 6 8 = 5) := by omega
        simp only [if_neg c1, if_neg g1, if_neg c2, if_neg g2]; exact ⟨_, rfl, rfl⟩
  | df20 m =>
    obtain ⟨h14, h20, -, -, -, -, hm, -⟩ := df20_fields f m h
    obtain ⟨d, hd, hs⟩ := commB_details (field56 f) (me_length f h14)
    refine ⟨d, ?_, ?_⟩
    · show processCommBMessage m.messageCommB = .ok d
      rw [hm]; exact hd
    · unfold DetailsOf
      rw [if_neg (by omega), if_neg (by omega), if_neg (by omega), if_pos (Or.inl h20)]; exact hs
  | df21 m =>
    obtain ⟨h14, h21, -, -, -, -, hm, -⟩ := df21_fields f m h
    obtain ⟨d, hd, hs⟩ := commB_details (field56 f) (me_length f h14)
    refine ⟨d, ?_, ?_⟩
    · show processCommBMessage m.messageCommB = .ok d
      rw [hm]; exact hd
    · unfold DetailsOf
      rw [if_neg (by omega), if_neg (by omega), if_neg (by omega), if_pos (Or.inr h21)]; exact hs
  | df0 m => have := (df0_fields f m h).2.1; exact ⟨.nothing, rfl, by unfold DetailsOf; rw [if_neg, if_neg, if_neg, if_neg] <;> omega⟩
  | df4 m => have := (df4_fields f m h).2.1; exact ⟨.nothing, rfl, by unfold DetailsOf; rw [if_neg, if_neg, if_neg, if_neg] <;> omega⟩
  | df5 m => have := (df5_fields f m h).2.1; exact ⟨.nothing, rfl, by unfold DetailsOf; rw [if_neg, if_neg, if_neg, if_neg] <;> omega⟩
  | df11 m => have := (df11_fields f m h).2.1; exact ⟨.nothing, rfl, by unfold DetailsOf; rw [if_neg, if_neg, if_neg, if_neg] <;> omega⟩
  | df19 m => have := (df19_fields f m h).2.1; exact ⟨.nothing, rfl, by unfold DetailsOf; rw [if_neg, if_neg, if_neg, if_neg] <;> omega⟩
  | df24 m => have := (df24_fields f m h).2.1; exact ⟨.nothing, rfl, by unfold DetailsOf; rw [if_neg, if_neg, if_neg, if_neg] <;> omega⟩

/-- What must be printed for the bytes `f` of a line. -/
def ReportOf (level : UInt8) (f : List UInt8) (r : Report) : Prop :=
  (¬ FrameAccepted f ∧ r = .frameUnreadable) ∨
  (FrameAccepted f ∧ (bits f 1 5 = 17 ∨ bits f 1 5 = 18) ∧ ¬ generator ∣ messagePoly f ∧ r = .parityError) ∨
  (FrameAccepted f ∧ ∃ a m d, readMessage f = .ok m ∧ DetailsOf level f d ∧
    (((bits f 1 5 = 17 ∨ bits f 1 5 = 18) ∧ generator ∣ messagePoly f ∧ a.toNat = bits f 9 32 ∧ r = .sentBy a m d) ∨
     (bits f 1 5 = 11 ∧ Overlaid f a.toNat ∧ r = .replyToInterrogator a m d) ∨
     (bits f 1 5 ≠ 11 ∧ bits f 1 5 ≠ 17 ∧ bits f 1 5 ≠ 18 ∧ Overlaid f a.toNat ∧ r = .sentBy a m d)))


theorem readMessageCall_eq (f : List UInt8) :
    (¬ FrameAccepted f ∧ readMessageCall f = .returns .nil true) ∨
    (FrameAccepted f ∧ ∃ m, readMessage f = .ok m ∧ readMessageCall f = .returns (.val m) false) := by
  have ha := readMessage_accepts_iff f
  have hp := readMessage_noPanic f
  unfold readMessageCall
  cases hr : readMessage f with
  | error e =>
    cases e with
    | panic => exact absurd hr hp
    | err =>
      refine Or.inl ⟨fun h => ?_, rfl⟩
      obtain ⟨m, hm⟩ := ha.2 h
      rw [hr] at hm; cases hm
  | ok m => exact Or.inr ⟨ha.1 ⟨m, hr⟩, m, rfl, rfl⟩

/-- C67. The line that spells the bytes `f` is reported as `ReportOf` says. -/
theorem line_report (s f : List UInt8) (level : UInt8) (h : Spells s f) :
    ∃ r, processSingleLine s level = .ok r ∧ ReportOf level f r := by
  unfold processSingleLine
  rw [(hexDecode_iff s f).2 h]
  simp only
  rcases readMessageCall_eq f with ⟨hn, hc⟩ | ⟨ha, m, hm, hc⟩
  · rw [hc]; exact ⟨_, rfl, Or.inl ⟨hn, rfl⟩⟩
  · rw [hc]
    obtain ⟨d, hd, hds⟩ := postProcess_ok level f m hm
    have hpr := print_ok f m hm
    have ht := readMessage_type f m hm
    show ∃ r, processMessage m f level = .ok r ∧ ReportOf level f r
    unfold processMessage
    have np := checkCRC_noPanic f m hm [] []
    by_cases h17 : bits f 1 5 = 17 ∨ bits f 1 5 = 18
    · obtain ⟨-, hok, -⟩ := checkCRC_squitter f m hm h17 [] []
      cases hcrc : checkCRC m f [] [] with
      | error e =>
        cases e with
        | panic => exact absurd hcrc np
        | err =>
          refine ⟨.parityError, rfl, Or.inr (Or.inl ⟨ha, h17, fun hg => ?_, rfl⟩)⟩
          have hlt : bits f 9 32 < 2 ^ 32 := by
            unfold bits; exact lt_of_lt_of_le (Nat.mod_lt _ (by norm_num)) (by norm_num)
          have := (hok (UInt32.ofNat (bits f 9 32))).2 ⟨hg, UInt32.toNat_ofNat_of_lt' hlt⟩
          rw [hcrc] at this; cases this
      | ok a =>
        obtain ⟨hg, hadr⟩ := (hok a).1 hcrc
        have hne : ¬ m.getDownLinkFormat = 11 := by rw [ht]; split <;> omega
        refine ⟨.sentBy a m d, ?_, Or.inr (Or.inr ⟨ha, a, m, d, hm, hds, Or.inl ⟨h17, hg, hadr, rfl⟩⟩)⟩
        simp only [if_neg hne, hpr, hd]; rfl
    · by_cases h11 : bits f 1 5 = 11
      · obtain ⟨-, hok⟩ := checkCRC_df11 f m hm h11 [] []
        obtain ⟨a, hcrc, hov⟩ : ∃ a, checkCRC m f [] [] = .ok a ∧ Overlaid f a.toNat := by
          have hlen : 6 ≤ f.length := by rcases ha.1 with h | h <;> omega
          obtain ⟨a, hov, -⟩ := overlaid_exists f hlen
          have hlt : a < 2 ^ 32 := lt_trans hov.1 (by norm_num)
          have e : (UInt32.ofNat a).toNat = a := UInt32.toNat_ofNat_of_lt' hlt
          exact ⟨UInt32.ofNat a, (hok _).2 ⟨by rw [e]; exact hov, Or.inl rfl⟩, by rw [e]; exact hov⟩
        rw [hcrc]
        have he : m.getDownLinkFormat = 11 := by rw [ht, h11]; rfl
        cases m with
        | df11 m =>
          refine ⟨.replyToInterrogator a (.df11 m) d, ?_, Or.inr (Or.inr ⟨ha, a, _, d, hm, hds, Or.inr (Or.inl ⟨h11, hov, rfl⟩)⟩)⟩
          simp only [if_pos he, hpr, hd]; rfl
        | _ => revert he; simp [ModeSMessage.getDownLinkFormat]
      · obtain ⟨-, hok⟩ := checkCRC_overlaid f m hm ⟨h11, by omega, by omega⟩ [] []
        obtain ⟨a, hcrc, hov⟩ : ∃ a, checkCRC m f [] [] = .ok a ∧ Overlaid f a.toNat := by
          have hlen : 6 ≤ f.length := by rcases ha.1 with h | h <;> omega
          obtain ⟨a, hov, -⟩ := overlaid_exists f hlen
          have hlt : a < 2 ^ 32 := lt_trans hov.1 (by norm_num)
          have e : (UInt32.ofNat a).toNat = a := UInt32.toNat_ofNat_of_lt' hlt
          exact ⟨UInt32.ofNat a, (hok _).2 ⟨by rw [e]; exact hov, Or.inl rfl⟩, by rw [e]; exact hov⟩
        rw [hcrc]
        have hne : ¬ m.getDownLinkFormat = 11 := by rw [ht]; split <;> omega
        refine ⟨.sentBy a m d, ?_, Or.inr (Or.inr ⟨ha, a, m, d, hm, hds, Or.inr (Or.inr ⟨h11, by omega, by omega, hov, rfl⟩)⟩)⟩
        simp only [if_neg hne, hpr, hd]; rfl

/-- C67. A text that does not spell bytes is reported as such. -/
theorem line_notHexadecimal (s : List UInt8) (level : UInt8) :
    processSingleLine s level = .ok .notHexadecimal ↔ ¬ ∃ f, Spells s f := by
  constructor
  · rintro h ⟨f, hf⟩
    obtain ⟨r, hr, hs⟩ := line_report s f level hf
    rw [hr] at h
    cases h
    rcases hs with ⟨-, h⟩ | ⟨-, -, -, h⟩ | ⟨-, a, m, d, -, -, ⟨-, -, -, h⟩ | ⟨-, -, h⟩ | ⟨-, -, -, -, h⟩⟩ <;> cases h
  · intro h
    unfold processSingleLine
    cases hd : hexDecode s with
    | error e =>
      cases e with
      | panic => exact absurd hd (hexDecode_noPanic s)
      | err => rfl
    | ok f => exact absurd ⟨f, (hexDecode_iff s f).1 hd⟩ h

/-- C60. Whatever the text and the requested ADS-B version, decoding and printing a line ends normally: no panic. -/
theorem line_total (s : List UInt8) (level : UInt8) : Succeeds (processSingleLine s level) := by
  by_cases h : ∃ f, Spells s f
  · obtain ⟨f, hf⟩ := h
    obtain ⟨r, hr, -⟩ := line_report s f level hf
    exact ⟨r, hr⟩
  · exact ⟨_, (line_notHexadecimal s level).2 h⟩

/-- C60. The same for the lines of a file: one report for each, whatever the others are. -/
theorem file_total (ls : List (List UInt8)) (level : UInt8) :
    ∃ rs, processFile ls level = .ok rs ∧ List.Forall₂ (fun l r => processSingleLine l level = .ok r) ls rs := by
  induction ls with
  | nil => exact ⟨[], rfl, .nil⟩
  | cons l ls ih =>
    obtain ⟨r, hr⟩ := line_total l level
    obtain ⟨rs, hrs, hall⟩ := ih
    refine ⟨r :: rs, ?_, .cons hr hall⟩
    unfold processFile
    rw [hr, hrs]; rfl

/-- The report of bytes is unique: address, message and details are determined. -/
theorem report_unique (s f : List UInt8) (level : UInt8) (h : Spells s f) (r : Report) (hr : processSingleLine s level = .ok r) :
    ReportOf level f r := by
  obtain ⟨r', hr', hs⟩ := line_report s f level h
  rw [hr] at hr'; cases hr'; exact hs

/-- The example of the program's documentation meets the hypothesis of `line_report`: it spells the bytes of a readable frame. -/
example : Spells "8D4BAB4558AB031C446849B72535".toUTF8.toList
      [0x8D, 0x4B, 0xAB, 0x45, 0x58, 0xAB, 0x03, 0x1C, 0x44, 0x68, 0x49, 0xB7, 0x25, 0x35] ∧
    FrameAccepted [0x8D, 0x4B, 0xAB, 0x45, 0x58, 0xAB, 0x03, 0x1C, 0x44, 0x68, 0x49, 0xB7, 0x25, 0x35] := by
  refine ⟨(hexDecode_iff _ _).1 (by decide +kernel), Or.inr ⟨rfl, by decide⟩, fun h => absurd h (by decide)⟩

end Modes
