import Verif.Model.TextModeS
import Verif.Props.Texts
import Verif.Props.Fields
import Verif.Props.Frame
import Verif.Lemmas.Text
/-!
# C74: the text of a Mode S message
-/
namespace Spec
open Modes

/-- The message without its raw bytes (header, payload and parity): its downlink format and decoded fields. -/
def decodedFields : ModeSMessage → ModeSMessage
  | .df0 m => .df0 { m with data := ⟨0, 0, [], []⟩ }
  | .df4 m => .df4 { m with data := ⟨0, 0, [], []⟩ }
  | .df5 m => .df5 { m with data := ⟨0, 0, [], []⟩ }
  | .df11 m => .df11 { m with data := ⟨0, 0, [], []⟩ }
  | .df16 m => .df16 { m with data := ⟨0, 0, [], []⟩ }
  | .df17 m => .df17 { m with data := ⟨0, 0, [], []⟩ }
  | .df18 m => .df18 { m with data := ⟨0, 0, [], []⟩ }
  | .df19 m => .df19 { m with data := ⟨0, 0, [], []⟩ }
  | .df20 m => .df20 { m with data := ⟨0, 0, [], []⟩ }
  | .df21 m => .df21 { m with data := ⟨0, 0, [], []⟩ }
  | .df24 m => .df24 { m with data := ⟨0, 0, [], []⟩ }

end Spec
namespace Modes
open Spec

theorem hexDigit_inj : ∀ a < 16, ∀ b < 16, hexDigit a = hexDigit b → a = b := by decide +kernel

theorem hex02_inj {a b : UInt8} (h : hex02 a = hex02 b) : a = b := by
  simp only [hex02, List.cons.injEq, and_true] at h
  have ha := a.toNat_lt; have hb := b.toNat_lt
  have h1 := hexDigit_inj _ (by omega) _ (by omega) h.1
  have h2 := hexDigit_inj _ (by omega) _ (by omega) h.2
  exact UInt8.toNat_inj.1 (by omega)

theorem hexDigit_line : ∀ a < 16, hexDigit a ≠ '\n' := by decide +kernel

theorem oneLine_hex02 (a : UInt8) : OneLine (hex02 a) := by
  have ha := a.toNat_lt
  have h1 := hexDigit_line (a.toNat / 16) (by omega)
  have h2 := hexDigit_line (a.toNat % 16) (by omega)
  simp [OneLine, hex02, h1.symm, h2.symm]

theorem oneLine_hexText : ∀ l : List UInt8, OneLine (hexText l)
  | [] => by simp [OneLine, hexText]
  | [b] => oneLine_hex02 b
  | b :: x :: r => by
    have h1 := oneLine_hex02 b
    have h2 := oneLine_hexText (x :: r)
    unfold OneLine at *
    simp [hexText, h1, h2]

theorem hexText_inj : ∀ a b : List UInt8, a.length = b.length → hexText a = hexText b → a = b
  | [], [], _, _ => rfl
  | [a], [b], _, h => by rw [hex02_inj h]
  | a :: x :: r, b :: y :: s, hl, h => by
    simp only [hexText] at h
    have h' := List.append_inj h rfl
    rw [hex02_inj h'.1, hexText_inj (x :: r) (y :: s) (by simpa using hl) (List.cons.inj h'.2).2]
  | [], _ :: _, h, _ => by simp at h
  | _ :: _, [], h, _ => by simp at h
  | [_], _ :: _ :: _, h, _ => by simp at h
  | _ :: _ :: _, [_], h, _ => by simp at h

theorem addressBytes (a : UInt32) :
    ((a &&& 0x00FF0000) >>> 16).toUInt8.toNat = a.toNat / 65536 % 256 ∧
    ((a &&& 0x0000FF00) >>> 8).toUInt8.toNat = a.toNat / 256 % 256 ∧
    (a &&& 0x000000FF).toUInt8.toNat = a.toNat % 256 := by
  have h := a.toNat_lt
  have e1 := Nat.and_field a.toNat 16 8
  have e2 := Nat.and_field a.toNat 8 8
  have e3 := Nat.and_field a.toNat 0 8
  simp only [Nat.reducePow, Nat.reduceSub, Nat.reduceMul, Nat.mul_one, Nat.div_one] at e1 e2 e3
  refine ⟨?_, ?_, ?_⟩
  · simp only [UInt32.toNat_toUInt8, UInt32.toNat_shiftRight, UInt32.toNat_and, UInt32.reduceToNat, e1, Nat.shiftRight_eq_div_pow, Nat.reduceMod, Nat.reducePow]
    omega
  · simp only [UInt32.toNat_toUInt8, UInt32.toNat_shiftRight, UInt32.toNat_and, UInt32.reduceToNat, e2, Nat.shiftRight_eq_div_pow, Nat.reduceMod, Nat.reducePow]
    omega
  · simp only [UInt32.toNat_toUInt8, UInt32.toNat_and, UInt32.reduceToNat, e3, Nat.reducePow]
    omega

theorem addressBytes_inj {a b : UInt32} (ha : a.toNat < 2 ^ 24) (hb : b.toNat < 2 ^ 24)
    (h : ([((a &&& 0x00FF0000) >>> 16).toUInt8, ((a &&& 0x0000FF00) >>> 8).toUInt8, (a &&& 0x000000FF).toUInt8] : List UInt8) =
      [((b &&& 0x00FF0000) >>> 16).toUInt8, ((b &&& 0x0000FF00) >>> 8).toUInt8, (b &&& 0x000000FF).toUInt8]) : a = b := by
  simp only [List.cons.injEq, and_true] at h
  obtain ⟨h1, h2, h3⟩ := h
  obtain ⟨a1, a2, a3⟩ := addressBytes a
  obtain ⟨b1, b2, b3⟩ := addressBytes b
  rw [h1] at a1; rw [h2] at a2; rw [h3] at a3
  exact UInt32.toNat_inj.1 (by omega)

theorem addressAnnouncedText_inj {a b : UInt32} (ha : a.toNat < 2 ^ 24) (hb : b.toNat < 2 ^ 24)
    (h : addressAnnouncedText a = addressAnnouncedText b) : a = b := by
  unfold addressAnnouncedText at h
  exact addressBytes_inj ha hb (hexText_inj _ _ rfl h)

theorem oneLine_address (a : UInt32) : OneLine (addressAnnouncedText a) := oneLine_hexText _

theorem oneLine_decList : ∀ l : List UInt8, OneLine (decList l)
  | [] => by simp [OneLine, decList]
  | [b] => oneLine_dec _
  | b :: x :: r => by
    have h1 := oneLine_dec b.toNat
    have h2 := oneLine_decList (x :: r)
    unfold OneLine at *
    simp [decList, h1, h2]

/-- Decimal numbers between spaces, up to something that is neither a digit nor a space. -/
theorem decList_inj : ∀ (a b : List UInt8) (z : Char) (t u : Txt), z.isDigit = false → z ≠ ' ' →
    decList a ++ z :: t = decList b ++ z :: u → a = b
  | [], [], _, _, _, _, _, _ => rfl
  | [], [b], z, t, u, hz, _, h => by
    exfalso
    obtain ⟨c, r, hc⟩ := List.exists_cons_of_ne_nil (dec_ne_nil b.toNat)
    simp only [decList, List.nil_append, hc, List.cons_append, List.cons.injEq] at h
    have := dec_digit (n := b.toNat) (c := c) (by rw [hc]; simp)
    rw [← h.1, hz] at this; cases this
  | [], b :: x :: r, z, t, u, hz, _, h => by
    exfalso
    obtain ⟨c, s, hc⟩ := List.exists_cons_of_ne_nil (dec_ne_nil b.toNat)
    simp only [decList, List.nil_append, hc, List.cons_append, List.cons.injEq] at h
    have := dec_digit (n := b.toNat) (c := c) (by rw [hc]; simp)
    rw [← h.1, hz] at this; cases this
  | [b], [], z, t, u, hz, hs, h => (decList_inj [] [b] z u t hz hs h.symm).symm
  | b :: x :: r, [], z, t, u, hz, hs, h => by
    exfalso
    obtain ⟨c, s, hc⟩ := List.exists_cons_of_ne_nil (dec_ne_nil b.toNat)
    simp only [decList, List.nil_append, hc, List.cons_append, List.cons.injEq] at h
    have := dec_digit (n := b.toNat) (c := c) (by rw [hc]; simp)
    rw [h.1, hz] at this; cases this
  | [a], [b], z, t, u, hz, _, h => by
    have := digits_append_inj (fun _ => dec_digit) (fun _ => dec_digit) z z t u hz hz h
    rw [UInt8.toNat_inj.1 (dec_inj this.1)]
  | [a], b :: x :: r, z, t, u, hz, hs, h => by
    exfalso
    simp only [decList, List.append_assoc, List.cons_append] at h
    have := digits_append_inj (fun _ => dec_digit) (fun _ => dec_digit) z ' ' _ _ hz rfl h
    exact hs (List.cons.inj this.2).1
  | a :: x :: r, [b], z, t, u, hz, hs, h => by
    exfalso
    simp only [decList, List.append_assoc, List.cons_append] at h
    have := digits_append_inj (fun _ => dec_digit) (fun _ => dec_digit) ' ' z _ _ rfl hz h
    exact hs (List.cons.inj this.2).1.symm
  | a :: x :: r, b :: y :: s, z, t, u, hz, hs, h => by
    simp only [decList, List.append_assoc, List.cons_append] at h
    have := digits_append_inj (fun _ => dec_digit) (fun _ => dec_digit) ' ' ' ' _ _ rfl rfl h
    rw [UInt8.toNat_inj.1 (dec_inj this.1), decList_inj (x :: r) (y :: s) z t u hz hs (List.cons.inj this.2).2]

theorem messageACASText_inj {a b : List UInt8} (h : messageACASText a = messageACASText b) : a = b := by
  simp only [messageACASText, List.cons_append, List.nil_append, List.cons.injEq, true_and] at h
  exact decList_inj a b ']' [] [] rfl (by decide) h

theorem oneLine_messageACAS (l : List UInt8) : OneLine (messageACASText l) :=
  ((show OneLine (t! "[") by unfold OneLine; decide).append (oneLine_decList l)).append
    (show OneLine (t! "]") by unfold OneLine; decide)

theorem utilityText_inj {a b : UtilityMessage} (h : a.text = b.text) : a = b := by
  simp only [UtilityMessage.text, List.append_assoc, List.append_cancel_left_eq] at h
  have := digits_append_inj (fun _ => dec_digit) (fun _ => dec_digit) ',' ',' _ _ rfl rfl h
  have h2 := (List.cons.inj this.2).2
  have h3 := Text.modesUtilityMessageIdentifierDesignator_identifies.inj (List.append_cancel_left (as := t! " Reservation: ") h2)
  cases a; cases b
  simp only at h3 this
  rw [h3, UInt8.toNat_inj.1 (dec_inj this.1)]

theorem oneLine_utility (u : UtilityMessage) : OneLine u.text :=
  (((show OneLine (t! "InterrogatorIdentifier: ") by unfold OneLine; decide).append (oneLine_dec _)).append
    (show OneLine (t! ", Reservation: ") by unfold OneLine; decide)).append
    (Text.modesUtilityMessageIdentifierDesignator_identifies.line _)

theorem identityText_inj {a b : List Char} (hl : a.length = b.length) (h : identityText a = identityText b) : a = b :=
  (List.append_inj h hl).1

theorem oneLine_identity {a : List Char} (h : OneLine a) : OneLine (identityText a) := by
  unfold identityText
  refine h.append ?_
  unfold OneLine
  split <;> (try split) <;> (try split) <;> (try split) <;> decide

theorem methodText_inj {a b : AltitudeReportMethod} (h : a.text = b.text) : a = b := by
  have := Text.modesAltitudeReportMethod_identifies.inj h
  revert this
  cases a <;> cases b <;> decide

theorem oneLine_method (a : AltitudeReportMethod) : OneLine a.text := Text.modesAltitudeReportMethod_identifies.line _

theorem mapM_idx : ∀ (l pre : List UInt8),
    (List.range' pre.length l.length).mapM (idx (pre ++ l)) = (.ok l : Go (List UInt8))
  | [], _ => rfl
  | x :: l, pre => by
    have h := mapM_idx l (pre ++ [x])
    simp only [List.length_append, List.length_cons, List.length_nil, List.append_assoc, List.cons_append, List.nil_append,
      Nat.zero_add] at h
    have hx : idx (pre ++ x :: l) pre.length = .ok x := by simp [idx]
    rw [List.length_cons, List.range'_succ, List.mapM_cons, hx, go_bind_ok, h]
    rfl

theorem hexIndexed_ok {n : Nat} {l : List UInt8} (h : l.length = n) : hexIndexed n l = .ok (hexText l) := by
  have : (List.range n).mapM (idx l) = (.ok l : Go (List UInt8)) := by
    subst h
    rw [List.range_eq_range']
    exact mapM_idx l []
  unfold hexIndexed
  rw [this]; rfl

/-- What reading guarantees of the values that are not codes. -/
def Shaped : ModeSMessage → Prop
  | .df5 m => m.identity.length = 4 ∧ OneLine m.identity
  | .df11 m => m.addressAnnounced.toNat < 2 ^ 24
  | .df17 m => m.addressAnnounced.toNat < 2 ^ 24 ∧ m.messageExtendedSquitter.length = 7
  | .df18 m => m.addressAnnounced.toNat < 2 ^ 24 ∧ m.messageExtendedSquitter.length = 7
  | .df20 m => m.messageCommB.length = 7
  | .df21 m => (m.identity.length = 4 ∧ OneLine m.identity) ∧ m.messageCommB.length = 7
  | .df24 m => m.messageCommD.length = 10
  | _ => True

theorem digit_line : ∀ n < 8, Char.ofNat (48 + n) ≠ '\n' := by decide

theorem squawk_shape (c : Nat) : (digitsText (squawk c)).length = 4 ∧ OneLine (digitsText (squawk c)) := by
  refine ⟨rfl, ?_⟩
  unfold OneLine digitsText squawk
  simp only [List.map_cons, List.map_nil, List.mem_cons, List.not_mem_nil, or_false, not_or]
  refine ⟨?_, ?_, ?_, ?_⟩ <;> exact fun h => digit_line _ (by omega) h.symm

theorem bits_9_32 (f : List UInt8) : bits f 9 32 < 2 ^ 24 := by
  unfold bits; exact Nat.mod_lt _ (by decide)

theorem readMessage_shaped (f : List UInt8) (m : ModeSMessage) (h : readMessage f = .ok m) : Shaped m := by
  cases m with
  | df0 m => trivial
  | df4 m => trivial
  | df5 m =>
    obtain ⟨-, -, -, -, -, -, hi, -⟩ := df5_fields f m h
    show _ ∧ _
    rw [hi]; exact squawk_shape _
  | df11 m =>
    obtain ⟨-, -, -, ha, -⟩ := df11_fields f m h
    show _ < _
    rw [ha]; exact bits_9_32 f
  | df16 m => trivial
  | df17 m =>
    obtain ⟨hl, -, -, ha, hm, -⟩ := df17_fields f m h
    refine ⟨by rw [ha]; exact bits_9_32 f, by rw [hm]; simp [hl]⟩
  | df18 m =>
    obtain ⟨hl, -, -, ha, hm, -⟩ := df18_fields f m h
    refine ⟨by rw [ha]; exact bits_9_32 f, by rw [hm]; simp [hl]⟩
  | df19 m => trivial
  | df20 m =>
    obtain ⟨hl, -, -, -, -, -, hm, -⟩ := df20_fields f m h
    show _ = _
    rw [hm]; simp [hl]
  | df21 m =>
    obtain ⟨hl, -, -, -, -, -, hm, hi, -⟩ := df21_fields f m h
    refine ⟨by rw [hi]; exact squawk_shape _, by rw [hm]; simp [hl]⟩
  | df24 m =>
    obtain ⟨hl, -, -, -, hm, -⟩ := df24_fields f m h
    show _ = _
    rw [hm]; simp [hl]

theorem oneLine_heading (m : ModeSMessage) : OneLine m.heading := by
  unfold OneLine
  cases m <;> simp only [ModeSMessage.heading, ModeSMessage.getDownLinkFormat, ModeSMessage.getName] <;> decide +kernel

/-- The lines of a message that has been read. -/
theorem lines_ok (m : ModeSMessage) (h : Shaped m) : ∃ l, m.lines = .ok l := by
  cases m with
  | df17 m => exact ⟨_, by simp only [ModeSMessage.lines, hexIndexed_ok h.2, go_bind_ok, go_pure]; rfl⟩
  | df18 m => exact ⟨_, by simp only [ModeSMessage.lines, hexIndexed_ok h.2, go_bind_ok, go_pure]; rfl⟩
  | df20 m => exact ⟨_, by simp only [ModeSMessage.lines, hexIndexed_ok (show m.messageCommB.length = 7 from h), go_bind_ok, go_pure]; rfl⟩
  | df21 m => exact ⟨_, by simp only [ModeSMessage.lines, hexIndexed_ok h.2, go_bind_ok, go_pure]; rfl⟩
  | df24 m => exact ⟨_, by simp only [ModeSMessage.lines, hexIndexed_ok (show m.messageCommD.length = 10 from h), go_bind_ok, go_pure]; rfl⟩
  | _ => exact ⟨_, rfl⟩

/-- The number of the constructor. -/
def kind : ModeSMessage → Fin 11
  | .df0 _ => 0 | .df4 _ => 1 | .df5 _ => 2 | .df11 _ => 3 | .df16 _ => 4 | .df17 _ => 5
  | .df18 _ => 6 | .df19 _ => 7 | .df20 _ => 8 | .df21 _ => 9 | .df24 _ => 10

/-- The first line of the text. -/
def firstLine (t : Txt) : Txt := t.takeWhile (· ≠ '\n')

theorem firstLine_append {a r : Txt} (h : OneLine a) : firstLine (a ++ '\n' :: r) = a := by
  unfold firstLine
  rw [List.takeWhile_append_of_pos]
  · simp
  · intro c hc
    have : c ≠ '\n' := fun e => h (e ▸ hc)
    simpa using this

/-- The first line of each kind of message. -/
def kindLine : Fin 11 → Txt := fun k => [
  t! "Downlink format:      0 - Short air-air surveillance (ACAS)",
  t! "Downlink format:      4 - Surveillance, altitude reply",
  t! "Downlink format:  5 - Surveillance, identify reply",
  t! "Downlink format:  11 - All-call reply",
  t! "Downlink format:      16 - Long air-air surveillance (ACAS)",
  t! "Downlink format:         17 - Extended squitter",
  t! "Downlink format:         18 - Extended squitter/non transponder",
  t! "Downlink format:         19 - Military extended squitter",
  t! "Downlink format:      20 - Comm-B altitude reply",
  t! "Downlink format:  21 - Comm-B identify reply",
  t! "Downlink format:  24 - Comm-D (ELM)"][k.val]

theorem kindLine_inj : Function.Injective kindLine := by
  intro a b; revert a b; decide +kernel

/-- All lines are single lines, and there are at least two, the first being the heading. -/
theorem lines_shape (m : ModeSMessage) (h : Shaped m) (l : List (Txt × Txt)) (hl : m.lines = .ok l) :
    (∀ x ∈ l, OneLine x.1 ∧ OneLine x.2) ∧ ∃ k y r, l = (k, m.heading) :: y :: r ∧ k ++ m.heading = kindLine (kind m) := by
  have heading := oneLine_heading m
  cases m <;>
  (first
    | simp only [ModeSMessage.lines, hexIndexed_ok h.2, go_bind_ok, go_pure] at hl
    | simp only [ModeSMessage.lines, hexIndexed_ok (show List.length _ = 7 from h), go_bind_ok, go_pure] at hl
    | simp only [ModeSMessage.lines, hexIndexed_ok (show List.length _ = 10 from h), go_bind_ok, go_pure] at hl
    | simp only [ModeSMessage.lines, go_pure] at hl) <;>
  (injection hl with hl; subst hl) <;>
  (refine ⟨?_, _, _, _, rfl, by
    simp only [ModeSMessage.heading, ModeSMessage.getDownLinkFormat, ModeSMessage.getName, kind]; decide +kernel⟩) <;>
  (simp only [List.forall_mem_cons, List.not_mem_nil, false_imp_iff, implies_true, and_true]) <;>
  (repeat' apply And.intro) <;>
  (first
    | assumption
    | exact oneLine_decInt _
    | exact oneLine_dec _
    | exact oneLine_utility _
    | exact oneLine_method _
    | exact oneLine_address _
    | exact oneLine_hexText _
    | exact oneLine_messageACAS _
    | exact oneLine_identity h.2
    | exact oneLine_identity h.1.2
    | exact tableText_line _ _ (by decide +kernel) (by decide +kernel) _
    | (unfold OneLine; decide +kernel))

theorem firstLine_text (m : ModeSMessage) (h : Shaped m) (t : Txt) (ht : m.text = .ok t) : firstLine t = kindLine (kind m) := by
  obtain ⟨l, hl⟩ := lines_ok m h
  obtain ⟨h1, k, y, r, rfl, hk⟩ := lines_shape m h l hl
  simp only [ModeSMessage.text, hl, go_bind_ok, go_pure, linesText] at ht
  injection ht with ht
  subst ht
  have h0 := h1 _ List.mem_cons_self
  rw [firstLine_append (h0.1.append h0.2), hk]

theorem text_ok (m : ModeSMessage) (h : Shaped m) : ∃ l, m.lines = .ok l ∧ m.text = .ok (linesText l) := by
  obtain ⟨l, hl⟩ := lines_ok m h
  exact ⟨l, hl, by simp only [ModeSMessage.text, hl, go_bind_ok, go_pure]⟩

/-- Two messages of one kind with the same text have the same lines. -/
theorem lines_eq {m n : ModeSMessage} (hm : Shaped m) (hn : Shaped n) {t : Txt} (h1 : m.text = .ok t) (h2 : n.text = .ok t)
    {a b : List (Txt × Txt)} (ha : m.lines = .ok a) (hb : n.lines = .ok b) (hab : a.map Prod.fst = b.map Prod.fst) :
    a = b := by
  simp only [ModeSMessage.text, ha, hb, go_bind_ok, go_pure] at h1 h2
  injection h1 with h1
  injection h2 with h2
  exact linesText_inj a b hab (lines_shape m hm a ha).1 (lines_shape n hn b hb).1 (h1.trans h2.symm)

theorem same_text (m n : ModeSMessage) (hm : Shaped m) (hn : Shaped n) (t : Txt) (h1 : m.text = .ok t) (h2 : n.text = .ok t) :
    decodedFields m = decodedFields n := by
  have hk : kind m = kind n := kindLine_inj ((firstLine_text m hm t h1).symm.trans (firstLine_text n hn t h2))
  cases m <;> cases n <;> first | (exfalso; revert hk; simp only [kind]; decide) | skip
  · rename_i m n
    have e := lines_eq hm hn h1 h2 (show _ = _ by simp only [ModeSMessage.lines, go_bind_ok, go_pure]; rfl)
      (show _ = _ by simp only [ModeSMessage.lines, go_bind_ok, go_pure]; rfl)
    replace e := e rfl
    simp only [List.cons.injEq, Prod.mk.injEq, true_and, and_true] at e
    replace e := e.2
    have e0 := Text.modesVerticalStatus_identifies.inj e.1
    have e1 := Text.modesCrossLinkCompatibility_identifies.inj e.2.1
    have e2 := Text.modesSensitivityLevelReport_identifies.inj e.2.2.1
    have e3 := Text.modesReplyInformationAirAir_identifies.inj e.2.2.2.1
    have e4 := methodText_inj e.2.2.2.2.1
    have e5 := decInt_inj e.2.2.2.2.2
    cases m; cases n
    simp only at e0 e1 e2 e3 e4 e5
    subst e0 e1 e2 e3 e4 e5
    rfl
  · rename_i m n
    have e := lines_eq hm hn h1 h2 (show _ = _ by simp only [ModeSMessage.lines, go_bind_ok, go_pure]; rfl)
      (show _ = _ by simp only [ModeSMessage.lines, go_bind_ok, go_pure]; rfl)
    replace e := e rfl
    simp only [List.cons.injEq, Prod.mk.injEq, true_and, and_true] at e
    replace e := e.2
    have e0 := Text.modesFlightStatus_identifies.inj e.1
    have e1 := Text.modesDownlinkRequest_identifies.inj e.2.1
    have e2 := utilityText_inj e.2.2.1
    have e3 := methodText_inj e.2.2.2.1
    have e4 := decInt_inj e.2.2.2.2
    cases m; cases n
    simp only at e0 e1 e2 e3 e4
    subst e0 e1 e2 e3 e4
    rfl
  · rename_i m n
    have e := lines_eq hm hn h1 h2 (show _ = _ by simp only [ModeSMessage.lines, go_bind_ok, go_pure]; rfl)
      (show _ = _ by simp only [ModeSMessage.lines, go_bind_ok, go_pure]; rfl)
    replace e := e rfl
    simp only [List.cons.injEq, Prod.mk.injEq, true_and, and_true] at e
    replace e := e.2
    have e0 := Text.modesFlightStatus_identifies.inj e.1
    have e1 := Text.modesDownlinkRequest_identifies.inj e.2.1
    have e2 := utilityText_inj e.2.2.1
    have e3 := identityText_inj (hm.1.trans hn.1.symm) e.2.2.2
    cases m; cases n
    simp only at e0 e1 e2 e3
    subst e0 e1 e2 e3
    rfl
  · rename_i m n
    have e := lines_eq hm hn h1 h2 (show _ = _ by simp only [ModeSMessage.lines, go_bind_ok, go_pure]; rfl)
      (show _ = _ by simp only [ModeSMessage.lines, go_bind_ok, go_pure]; rfl)
    replace e := e rfl
    simp only [List.cons.injEq, Prod.mk.injEq, true_and, and_true] at e
    replace e := e.2
    have e0 := Text.modesCapability_identifies.inj e.1
    have e1 := addressAnnouncedText_inj hm hn e.2
    cases m; cases n
    simp only at e0 e1
    subst e0 e1
    rfl
  · rename_i m n
    have e := lines_eq hm hn h1 h2 (show _ = _ by simp only [ModeSMessage.lines, go_bind_ok, go_pure]; rfl)
      (show _ = _ by simp only [ModeSMessage.lines, go_bind_ok, go_pure]; rfl)
    replace e := e rfl
    simp only [List.cons.injEq, Prod.mk.injEq, true_and, and_true] at e
    replace e := e.2
    have e0 := Text.modesVerticalStatus_identifies.inj e.1
    have e1 := Text.modesSensitivityLevelReport_identifies.inj e.2.1
    have e2 := Text.modesReplyInformationAirAir_identifies.inj e.2.2.1
    have e3 := methodText_inj e.2.2.2.1
    have e4 := decInt_inj e.2.2.2.2.1
    have e5 := messageACASText_inj e.2.2.2.2.2
    cases m; cases n
    simp only at e0 e1 e2 e3 e4 e5
    subst e0 e1 e2 e3 e4 e5
    rfl
  · rename_i m n
    have e := lines_eq hm hn h1 h2 (show _ = _ by simp only [ModeSMessage.lines, hexIndexed_ok hm.2, go_bind_ok, go_pure]; rfl)
      (show _ = _ by simp only [ModeSMessage.lines, hexIndexed_ok hn.2, go_bind_ok, go_pure]; rfl)
    replace e := e rfl
    simp only [List.cons.injEq, Prod.mk.injEq, true_and, and_true] at e
    replace e := e.2
    have e0 := Text.modesCapability_identifies.inj e.1
    have e1 := addressAnnouncedText_inj hm.1 hn.1 e.2.1
    have e2 := hexText_inj _ _ (hm.2.trans hn.2.symm) e.2.2
    cases m; cases n
    simp only at e0 e1 e2
    subst e0 e1 e2
    rfl
  · rename_i m n
    have e := lines_eq hm hn h1 h2 (show _ = _ by simp only [ModeSMessage.lines, hexIndexed_ok hm.2, go_bind_ok, go_pure]; rfl)
      (show _ = _ by simp only [ModeSMessage.lines, hexIndexed_ok hn.2, go_bind_ok, go_pure]; rfl)
    replace e := e rfl
    simp only [List.cons.injEq, Prod.mk.injEq, true_and, and_true] at e
    replace e := e.2
    have e0 := Text.modesControlField_identifies.inj e.1
    have e1 := addressAnnouncedText_inj hm.1 hn.1 e.2.1
    have e2 := hexText_inj _ _ (hm.2.trans hn.2.symm) e.2.2
    cases m; cases n
    simp only at e0 e1 e2
    subst e0 e1 e2
    rfl
  · rename_i m n
    have e := lines_eq hm hn h1 h2 (show _ = _ by simp only [ModeSMessage.lines, go_bind_ok, go_pure]; rfl)
      (show _ = _ by simp only [ModeSMessage.lines, go_bind_ok, go_pure]; rfl)
    replace e := e rfl
    simp only [List.cons.injEq, Prod.mk.injEq, true_and, and_true] at e
    replace e := e.2
    have e0 := Text.modesApplicationField_identifies.inj e
    cases m; cases n
    simp only at e0
    subst e0
    rfl
  · rename_i m n
    have e := lines_eq hm hn h1 h2 (show _ = _ by simp only [ModeSMessage.lines, hexIndexed_ok (show List.length _ = 7 from hm), go_bind_ok, go_pure]; rfl)
      (show _ = _ by simp only [ModeSMessage.lines, hexIndexed_ok (show List.length _ = 7 from hn), go_bind_ok, go_pure]; rfl)
    replace e := e rfl
    simp only [List.cons.injEq, Prod.mk.injEq, true_and, and_true] at e
    replace e := e.2
    have e0 := Text.modesFlightStatus_identifies.inj e.1
    have e1 := Text.modesDownlinkRequest_identifies.inj e.2.1
    have e2 := utilityText_inj e.2.2.1
    have e3 := methodText_inj e.2.2.2.1
    have e4 := decInt_inj e.2.2.2.2.1
    have e5 := hexText_inj _ _ ((show List.length _ = 7 from hm).trans (show List.length _ = 7 from hn).symm) e.2.2.2.2.2
    cases m; cases n
    simp only at e0 e1 e2 e3 e4 e5
    subst e0 e1 e2 e3 e4 e5
    rfl
  · rename_i m n
    have e := lines_eq hm hn h1 h2 (show _ = _ by simp only [ModeSMessage.lines, hexIndexed_ok hm.2, go_bind_ok, go_pure]; rfl)
      (show _ = _ by simp only [ModeSMessage.lines, hexIndexed_ok hn.2, go_bind_ok, go_pure]; rfl)
    replace e := e rfl
    simp only [List.cons.injEq, Prod.mk.injEq, true_and, and_true] at e
    replace e := e.2
    have e0 := Text.modesFlightStatus_identifies.inj e.1
    have e1 := Text.modesDownlinkRequest_identifies.inj e.2.1
    have e2 := utilityText_inj e.2.2.1
    have e3 := identityText_inj (hm.1.1.trans hn.1.1.symm) e.2.2.2.1
    have e4 := hexText_inj _ _ (hm.2.trans hn.2.symm) e.2.2.2.2
    cases m; cases n
    simp only at e0 e1 e2 e3 e4
    subst e0 e1 e2 e3 e4
    rfl
  · rename_i m n
    have e := lines_eq hm hn h1 h2 (show _ = _ by simp only [ModeSMessage.lines, hexIndexed_ok (show List.length _ = 10 from hm), go_bind_ok, go_pure]; rfl)
      (show _ = _ by simp only [ModeSMessage.lines, hexIndexed_ok (show List.length _ = 10 from hn), go_bind_ok, go_pure]; rfl)
    replace e := e rfl
    simp only [List.cons.injEq, Prod.mk.injEq, true_and, and_true] at e
    replace e := e.2
    have e0 := Text.modesControlELM_identifies.inj e.1
    have e1 := UInt8.toNat_inj.1 (dec_inj e.2.1)
    have e2 := hexText_inj _ _ ((show List.length _ = 10 from hm).trans (show List.length _ = 10 from hn).symm) e.2.2
    cases m; cases n
    simp only at e0 e1 e2
    subst e0 e1 e2
    rfl

/-- C74: the text of every message that can be read is produced without a panic, and its first line shows the downlink format and
the name of the message. -/
theorem modeS_text_total (f : List UInt8) (m : ModeSMessage) (h : readMessage f = .ok m) :
    ∃ spaces rest, m.text = .ok (t! "Downlink format:" ++ List.replicate spaces ' ' ++ dec m.getDownLinkFormat ++ t! " - " ++
      m.getName ++ '\n' :: rest) := by
  have hs := readMessage_shaped f m h
  obtain ⟨l, hl, ht⟩ := text_ok m hs
  obtain ⟨-, k, y, r, rfl, hk⟩ := lines_shape m hs l hl
  obtain ⟨n, hn⟩ : ∃ n, kindLine (kind m) = t! "Downlink format:" ++ List.replicate n ' ' ++ m.heading := by
    cases m
    case df5 | df11 | df21 | df24 => exact ⟨2, by simp only [ModeSMessage.heading, ModeSMessage.getDownLinkFormat, ModeSMessage.getName, kind]; decide +kernel⟩
    case df0 | df4 | df16 | df20 => exact ⟨6, by simp only [ModeSMessage.heading, ModeSMessage.getDownLinkFormat, ModeSMessage.getName, kind]; decide +kernel⟩
    case df17 | df18 | df19 => exact ⟨9, by simp only [ModeSMessage.heading, ModeSMessage.getDownLinkFormat, ModeSMessage.getName, kind]; decide +kernel⟩
  refine ⟨n, linesText (y :: r), ?_⟩
  rw [ht]
  simp only [linesText]
  rw [hk, hn]
  simp only [ModeSMessage.heading, List.append_assoc]

/-- C74: two messages that can be read and have the same text are of the same downlink format and have the same decoded
fields. -/
theorem modeS_text_identifies (f g : List UInt8) (m n : ModeSMessage) (t : Txt) (hf : readMessage f = .ok m)
    (hg : readMessage g = .ok n) (hm : m.text = .ok t) (hn : n.text = .ok t) : decodedFields m = decodedFields n :=
  same_text m n (readMessage_shaped f m hf) (readMessage_shaped g n hg) t hm hn

/-- C74: when an all-call reply has the same text as another message, the two frames agree on everything but the parity. -/
theorem df11_text_frame (f g : List UInt8) (m : MessageDF11) (n : ModeSMessage) (t : Txt) (hf : readMessage f = .ok (.df11 m))
    (hg : readMessage g = .ok n) (hm : (ModeSMessage.df11 m).text = .ok t) (hn : n.text = .ok t) : f.take 4 = g.take 4 := by
  have e := modeS_text_identifies f g _ n t hf hg hm hn
  cases n with
  | df11 n =>
    simp only [decodedFields, ModeSMessage.df11.injEq, MessageDF11.mk.injEq, true_and] at e
    obtain ⟨l1, a1, a2, a3, -⟩ := df11_fields f m hf
    obtain ⟨l2, b1, b2, b3, -⟩ := df11_fields g n hg
    rw [e.1, b2] at a2
    rw [e.2, b3] at a3
    obtain ⟨x0, x1, x2, x3, x4, x5, x6, rfl⟩ := list7 f l1
    obtain ⟨y0, y1, y2, y3, y4, y5, y6, rfl⟩ := list7 g l2
    clear hf hg hm hn e b2 b3
    byte_bounds
    bytes_nat at a1 a2 a3 b1
    simp only [List.take, List.cons.injEq, and_true, ← UInt8.toNat_inj]
    omega
  | _ => simp [decodedFields] at e

/-- Bit fields of the first bytes do not depend on the following ones. -/
theorem bits_prefix (l r : List UInt8) (a b : Nat) (h : b ≤ 8 * l.length) : bits (l ++ r) a b = bits l a b := by
  unfold bits
  rw [beNat_append, List.length_append, show 8 * (l.length + r.length) - b = 8 * r.length + (8 * l.length - b) by omega, Nat.pow_add,
    ← Nat.div_div_eq_div_mul, Nat.mul_comm, Nat.mul_add_div (Nat.two_pow_pos _), Nat.div_eq_of_lt (beNat_lt r), Nat.add_zero]

theorem long_frame {f g : List UInt8} {d : Nat} (l1 : f.length = 14) (l2 : g.length = 14) (a1 : bits f 1 5 = d)
    (b1 : bits g 1 5 = d) (a2 : bits g 6 8 = bits f 6 8) (a3 : bits g 9 32 = bits f 9 32)
    (a4 : (g.drop 4).take 7 = (f.drop 4).take 7) : f.take 11 = g.take 11 := by
  obtain ⟨x0, x1, x2, x3, x4, x5, x6, x7, x8, x9, x10, x11, x12, x13, rfl⟩ := list14 f l1
  obtain ⟨y0, y1, y2, y3, y4, y5, y6, y7, y8, y9, y10, y11, y12, y13, rfl⟩ := list14 g l2
  have h : x0 = y0 ∧ x1 = y1 ∧ x2 = y2 ∧ x3 = y3 := by
    have p : ∀ z0 z1 z2 z3 z4 z5 z6 z7 z8 z9 z10 z11 z12 z13 a b, b ≤ 32 →
        bits [z0, z1, z2, z3, z4, z5, z6, z7, z8, z9, z10, z11, z12, z13] a b = bits [z0, z1, z2, z3] a b :=
      fun z0 z1 z2 z3 z4 z5 z6 z7 z8 z9 z10 z11 z12 z13 a b h =>
        bits_prefix [z0, z1, z2, z3] [z4, z5, z6, z7, z8, z9, z10, z11, z12, z13] a b h
    clear a4 l1 l2
    rw [p _ _ _ _ _ _ _ _ _ _ _ _ _ _ _ _ (by decide)] at a1 a2 a3 b1
    rw [p _ _ _ _ _ _ _ _ _ _ _ _ _ _ _ _ (by decide)] at a2 a3
    clear p x4 x5 x6 x7 x8 x9 x10 x11 x12 x13 y4 y5 y6 y7 y8 y9 y10 y11 y12 y13
    byte_bounds
    bytes_nat at a1 a2 a3 b1
    simp only [← UInt8.toNat_inj]
    omega
  simp only [List.drop, List.take, List.cons.injEq, and_true] at a4 ⊢
  simp only [h, a4, and_self]

/-- C74: when an extended squitter has the same text as another message, the two frames agree on everything but the parity. -/
theorem df17_text_frame (f g : List UInt8) (m : MessageDF17) (n : ModeSMessage) (t : Txt) (hf : readMessage f = .ok (.df17 m))
    (hg : readMessage g = .ok n) (hm : (ModeSMessage.df17 m).text = .ok t) (hn : n.text = .ok t) : f.take 11 = g.take 11 := by
  have e := modeS_text_identifies f g _ n t hf hg hm hn
  cases n with
  | df17 n =>
    simp only [decodedFields, ModeSMessage.df17.injEq, MessageDF17.mk.injEq, true_and] at e
    obtain ⟨l1, a1, a2, a3, a4, -⟩ := df17_fields f m hf
    obtain ⟨l2, b1, b2, b3, b4, -⟩ := df17_fields g n hg
    rw [e.1, b2] at a2
    rw [e.2.1, b3] at a3
    rw [e.2.2, b4] at a4
    exact long_frame l1 l2 a1 b1 a2 a3 a4
  | _ => simp [decodedFields] at e

/-- C74: the same for extended squitters of other devices. -/
theorem df18_text_frame (f g : List UInt8) (m : MessageDF18) (n : ModeSMessage) (t : Txt) (hf : readMessage f = .ok (.df18 m))
    (hg : readMessage g = .ok n) (hm : (ModeSMessage.df18 m).text = .ok t) (hn : n.text = .ok t) : f.take 11 = g.take 11 := by
  have e := modeS_text_identifies f g _ n t hf hg hm hn
  cases n with
  | df18 n =>
    simp only [decodedFields, ModeSMessage.df18.injEq, MessageDF18.mk.injEq, true_and] at e
    obtain ⟨l1, a1, a2, a3, a4, -⟩ := df18_fields f m hf
    obtain ⟨l2, b1, b2, b3, b4, -⟩ := df18_fields g n hg
    rw [e.1, b2] at a2
    rw [e.2.1, b3] at a3
    rw [e.2.2, b4] at a4
    exact long_frame l1 l2 a1 b1 a2 a3 a4
  | _ => simp [decodedFields] at e

/-- The text of a real frame. -/
example : ∃ m, readMessage [0x8D, 0x48, 0x40, 0xD6, 0x20, 0x2C, 0xC3, 0x71, 0xC3, 0x2C, 0xE0, 0x57, 0x60, 0x98] = .ok m ∧
    m.text = .ok ("Downlink format:         17 - Extended squitter\n\
      Capability:              5 - Level 2 Airborne\n\
      AddressAnnounced:        48 40 D6\n\
      MessageExtendedSquitter: 20 2C C3 71 C3 2C E0".toList) := ⟨_, rfl, by decide +kernel⟩

end Modes
