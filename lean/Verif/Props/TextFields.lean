import Verif.Lemmas.TextLines
/-!
# The lines of the registers identify their fields

Written by tools/gen_texts_messages_props.py, from tools/texts_fields.txt.
-/
set_option linter.unusedSimpArgs false
set_option linter.unusedVariables false
namespace Modes
open Spec

/-- What is assumed of the printing of floating point numbers: different numbers have different texts, without line breaks. Go prints
the shortest decimal that reads back as the same number, so this holds (`goFloats_faithful`). -/
structure FloatTexts.Faithful (F : FloatTexts) : Prop where
  inj32 : Function.Injective F.float32
  line32 : ∀ x, OneLine (F.float32 x)
  line64 : ∀ x, OneLine (F.float64 x)
  lineDegrees : ∀ x, OneLine (F.degrees x)
  lineMinusZero : OneLine F.minusZero
  minusZero_ne : ∀ x, F.float32 x ≠ F.minusZero

theorem FloatTexts.Faithful.lineSigned {F : FloatTexts} (hF : F.Faithful) (b : Bool) (x : ℚ) : OneLine (F.signed b x) := by
  unfold FloatTexts.signed
  split
  · exact hF.lineMinusZero
  · exact hF.line32 _

theorem FloatTexts.Faithful.signed_inj {F : FloatTexts} (hF : F.Faithful) {b c : Bool} {x y : ℚ} (hb : x ≠ 0 → (b = true ↔ x < 0))
    (hc : y ≠ 0 → (c = true ↔ y < 0)) (h : F.signed b x = F.signed c y) : b = c ∧ x = y := by
  unfold FloatTexts.signed at h
  split at h
  · rename_i e
    split at h
    · rename_i e'
      exact ⟨e.1.trans e'.1.symm, e.2.trans e'.2.symm⟩
    · exact absurd h.symm (hF.minusZero_ne y)
  · rename_i e
    split at h
    · exact absurd h (hF.minusZero_ne x)
    · rename_i e'
      have hxy := hF.inj32 h
      subst hxy
      refine ⟨?_, rfl⟩
      by_cases hx : x = 0
      · cases b <;> cases c <;> simp_all
      · have := (hb hx).trans (hc hx).symm
        cases b <;> cases c <;> simp_all

theorem gpsText_identifies : Identifies gpsAntennaLongitudinalText := by
  have space : ∀ (n : Nat) (r : Txt), (dec n ++ ' ' :: r).takeWhile Char.isDigit = dec n := span_digits
  have head : ∀ d : UInt8, (gpsAntennaLongitudinalText d).takeWhile Char.isDigit = dec d.toNat := by
    intro d
    unfold gpsAntennaLongitudinalText
    split
    · rename_i h; subst h; decide +kernel
    · split
      · rename_i h; subst h; decide +kernel
      · split
        · simp only [List.append_assoc, List.cons_append]
          exact span_digits _ _
        · exact span_digits _ _
  refine ⟨fun a b h => ?_, fun c => ?_⟩
  · have := congrArg (List.takeWhile Char.isDigit) h
    rw [head, head] at this
    exact UInt8.toNat_inj.1 (dec_inj this)
  · unfold gpsAntennaLongitudinalText
    split
    · unfold OneLine; decide
    · split
      · unfold OneLine; decide
      · split
        · exact ((oneLine_dec _).append (by unfold OneLine; decide)).append (oneLine_dec _)
        · exact (oneLine_dec _).append (by unfold OneLine; decide)

theorem small4 {x : UInt8} (h : x.toNat < 4) : x = 0 ∨ x = 1 ∨ x = 2 ∨ x = 3 := by
  simp only [← UInt8.toNat_inj]
  have : (0 : UInt8).toNat = 0 ∧ (1 : UInt8).toNat = 1 ∧ (2 : UInt8).toNat = 2 ∧ (3 : UInt8).toNat = 3 := by decide
  omega

theorem allLine_of {l : List (Txt × Txt)} (h : (l.all fun x => !(cat x).contains '\n') = true) : AllLine l := by
  intro x hx
  have := List.all_eq_true.1 h x hx
  simpa [OneLine] using this

theorem sil_allLine (x : UInt8) (h : x.toNat < 4) : AllLine (silLines x) := by
  rcases small4 h with rfl | rfl | rfl | rfl <;> exact allLine_of (by decide +kernel)

theorem sil62_allLine (x : UInt8) (h : x.toNat < 4) : AllLine (sil62Lines x) := by
  rcases small4 h with rfl | rfl | rfl | rfl <;> exact allLine_of (by decide +kernel)

theorem sil_inj {x y : UInt8} (hx : x.toNat < 4) (hy : y.toNat < 4) (h : (silLines x).map cat = (silLines y).map cat) : x = y := by
  rcases small4 hx with rfl | rfl | rfl | rfl <;> rcases small4 hy with rfl | rfl | rfl | rfl <;>
    first | rfl | exact absurd h (by decide +kernel)

theorem sil62_inj {x y : UInt8} (hx : x.toNat < 4) (hy : y.toNat < 4)
    (h : (labelled (t! "Surveillance Integrity ReaderLevel:           ") (sil62Lines x)).map cat =
      (labelled (t! "Surveillance Integrity ReaderLevel:           ") (sil62Lines y)).map cat) : x = y := by
  rcases small4 hx with rfl | rfl | rfl | rfl <;> rcases small4 hy with rfl | rfl | rfl | rfl <;>
    first | rfl | exact absurd h (by decide +kernel)

theorem sil_length {x y : UInt8} (hx : x.toNat < 4) (hy : y.toNat < 4) :
    ((nest (silLines x)).map cat).length = ((nest (silLines y)).map cat).length := by
  rcases small4 hx with rfl | rfl | rfl | rfl <;> rcases small4 hy with rfl | rfl | rfl | rfl <;> rfl

theorem sil62_length {x y : UInt8} (hx : x.toNat < 4) (hy : y.toNat < 4) {l : Txt} :
    ((labelled l (sil62Lines x)).map cat).length = ((labelled l (sil62Lines y)).map cat).length := by
  rcases small4 hx with rfl | rfl | rfl | rfl <;> rcases small4 hy with rfl | rfl | rfl | rfl <;> rfl

theorem gps_allLine (m : SurfaceOperationalMode) : AllLine m.gpsLines :=
  .cons (by decide +kernel) (Text.bds65GPSAntennaLateral_identifies.line _) (.cons (by decide +kernel)
    (gpsText_identifies.line _) .nil)

theorem labelled_cat {l : Txt} {a b : List (Txt × Txt)} (ha : a ≠ []) (hb : b ≠ [])
    (h : (labelled l a).map cat = (labelled l b).map cat) : a.map cat = b.map cat := by
  cases a with
  | nil => exact absurd rfl ha
  | cons x a =>
    cases b with
    | nil => exact absurd rfl hb
    | cons y b =>
      simp only [labelled, List.map_cons, List.cons.injEq] at h ⊢
      refine ⟨?_, h.2⟩
      have := h.1
      unfold cat at this ⊢
      rw [List.append_assoc, List.append_assoc] at this
      exact List.append_cancel_left this

theorem gps_inj {m n : SurfaceOperationalMode} {l : Txt}
    (h : (labelled l (nest m.gpsLines)).map cat = (labelled l (nest n.gpsLines)).map cat) :
    m.gpsAntennaLateral = n.gpsAntennaLateral ∧ m.gpsAntennaLongitudinal = n.gpsAntennaLongitudinal := by
  have e := nest_cat (labelled_cat (by simp [nest, SurfaceOperationalMode.gpsLines])
    (by simp [nest, SurfaceOperationalMode.gpsLines]) h)
  simp only [SurfaceOperationalMode.gpsLines, cat, List.map_cons, List.map_nil, List.cons.injEq,
    List.append_cancel_left_eq, and_true] at e
  exact ⟨Text.bds65GPSAntennaLateral_identifies.inj e.1, gpsText_identifies.inj e.2⟩

theorem speedText_line (m : GroundSpeedVelocity) : OneLine m.speedText := by
  unfold GroundSpeedVelocity.speedText
  split
  · exact (oneLine_dec _).append (by unfold OneLine; decide)
  · refine OneLine.append (by unfold OneLine; decide) ?_
    split <;> (unfold OneLine; decide)

theorem trackText_line (F : FloatTexts) (hF : F.Faithful) (m : GroundSpeedVelocity) : OneLine (m.trackText F) := by
  unfold GroundSpeedVelocity.trackText
  split
  · refine OneLine.append ?_ (by unfold OneLine; decide)
    split
    · exact hF.lineMinusZero
    · exact hF.lineDegrees _
  · refine OneLine.append (by unfold OneLine; decide) ?_
    split <;> (unfold OneLine; decide)

/-- A bit as a character. -/
def bitChar (d : UInt16) (i : Nat) : Char := if d.toNat.testBit i then '1' else '0'

/-- One digit for each of the sixteen bits. -/
theorem dteText_eq (d : UInt16) : dteText d =
    [bitChar d 15, ',', ' ', bitChar d 14, ',', ' ', bitChar d 13, ',', ' ', bitChar d 12, ',', ' ', bitChar d 11, ',', ' ', bitChar d 10, ',', ' ', bitChar d 9, ',', ' ', bitChar d 8, ',', ' ', bitChar d 7, ',', ' ', bitChar d 6, ',', ' ', bitChar d 5, ',', ' ', bitChar d 4, ',', ' ', bitChar d 3, ',', ' ', bitChar d 2, ',', ' ', bitChar d 1, ',', ' ', bitChar d 0] := by
  have e : ∀ i < 16, dec ((d >>> UInt16.ofNat (15 - i)) &&& 0x01).toNat = [bitChar d (15 - i)] := by
    intro i hi
    have e : ((d >>> UInt16.ofNat (15 - i)) &&& 1).toNat = if d.toNat.testBit (15 - i) then 1 else 0 := by
      rw [UInt16.toNat_and, UInt16.toNat_shiftRight, UInt16.toNat_ofNat']
      rw [show (15 - i) % 2 ^ 16 % 16 = 15 - i by omega]
      rw [show (1 : UInt16).toNat = 1 from rfl, Nat.and_one_is_mod, Nat.testBit, Nat.one_and_eq_mod_two]
      have := Nat.mod_two_eq_zero_or_one (d.toNat >>> (15 - i))
      rcases this with h | h <;> simp [h]
    have e' : (0x01 : UInt16) = 1 := rfl
    rw [e', e]
    unfold bitChar
    split <;> decide
  unfold dteText
  rw [List.map_congr_left (fun i hi => e i (List.mem_range.1 hi))]
  rfl

theorem bitChar_inj {a b : UInt16} {i : Nat} (h : bitChar a i = bitChar b i) : a.toNat.testBit i = b.toNat.testBit i := by
  have g : ∀ x y : Bool, (if x then '1' else '0') = (if y then '1' else '0') → x = y := by decide
  exact g _ _ h

theorem dteText_inj {a b : UInt16} (h : dteText a = dteText b) : a = b := by
  rw [dteText_eq, dteText_eq] at h
  simp only [List.cons.injEq, and_true, true_and] at h
  obtain ⟨h15, h14, h13, h12, h11, h10, h9, h8, h7, h6, h5, h4, h3, h2, h1, h0⟩ := h
  apply UInt16.toNat_inj.1
  apply Nat.eq_of_testBit_eq
  intro i
  by_cases hi : i < 16
  · rcases i with _ | _ | _ | _ | _ | _ | _ | _ | _ | _ | _ | _ | _ | _ | _ | _ | i
    all_goals first | (apply bitChar_inj; assumption) | omega
  · rw [Nat.testBit_lt_two_pow (Nat.lt_of_lt_of_le a.toNat_lt (Nat.pow_le_pow_right (by omega) (by omega))),
      Nat.testBit_lt_two_pow (Nat.lt_of_lt_of_le b.toNat_lt (Nat.pow_le_pow_right (by omega) (by omega)))]

theorem dteText_line (d : UInt16) : OneLine (dteText d) := by
  have g : ∀ x : Bool, '\n' ≠ (if x then '1' else '0') := by decide
  have g : ∀ i, '\n' ≠ bitChar d i := fun i => g _
  rw [dteText_eq]
  unfold OneLine
  simp [g]

/-- Facts about messages that were read. -/
def OneThreat.Printable (m : OneThreat) : Prop := m.preventiveCorrective < 256 ∧ m.verticalSpeedLimitOrPositive < 256

theorem OneThreat.allLine (m : OneThreat) (hm : m.Printable) : AllLine (m.lines) :=
  (.cons (by decide +kernel) (by unfold OneLine; decide) (.cons (by decide +kernel) (Text.acasActiveRAPreventiveCorrective_identifies.line _) (.cons (by decide +kernel) (by unfold OneLine activeRASenseText; decide) (.cons (by decide +kernel) (oneLine_bool _) (.cons (by decide +kernel) (oneLine_bool _) (.cons (by decide +kernel) (oneLine_bool _) (.cons (by decide +kernel) (Text.acasActiveRAVerticalSpeedLimitOrPositive_identifies.line _) .nil)))))))

theorem OneThreat.lines_inj (m n : OneThreat) (hm : m.Printable) (hn : n.Printable)
    (e : (m.lines).map cat = (n.lines).map cat) : { m with sense := 0 } = { n with sense := 0 } := by
  unfold OneThreat.lines at e
  rename' e => e0
  simp only [cat, List.map_cons, List.map_nil, List.cons.injEq, List.append_cancel_left_eq, true_and, and_true] at e0
  obtain ⟨x0, x1, x2, x3, x4, x5⟩ := e0
  replace x0 := ofNat_inj hm.1 hn.1 (Text.acasActiveRAPreventiveCorrective_identifies.inj x0)
  replace x2 := boolText_inj x2
  replace x3 := boolText_inj x3
  replace x4 := boolText_inj x4
  replace x5 := ofNat_inj hm.2 hn.2 (Text.acasActiveRAVerticalSpeedLimitOrPositive_identifies.inj x5)
  cases m; cases n
  simp only at x0 x2 x3 x4 x5
  subst x0 x2 x3 x4 x5
  rfl

theorem MultipleThreats.allLine (m : MultipleThreats) : AllLine (m.lines) :=
  (.cons (by decide +kernel) (by unfold OneLine; decide) (.cons (by decide +kernel) (oneLine_bool _) (.cons (by decide +kernel) (oneLine_bool _) (.cons (by decide +kernel) (oneLine_bool _) (.cons (by decide +kernel) (oneLine_bool _) (.cons (by decide +kernel) (oneLine_bool _) (.cons (by decide +kernel) (oneLine_bool _) .nil)))))))

theorem MultipleThreats.lines_inj (m n : MultipleThreats)
    (e : (m.lines).map cat = (n.lines).map cat) : m = n := by
  unfold MultipleThreats.lines at e
  rename' e => e0
  simp only [cat, List.map_cons, List.map_nil, List.cons.injEq, List.append_cancel_left_eq, true_and, and_true] at e0
  obtain ⟨x0, x1, x2, x3, x4, x5⟩ := e0
  replace x0 := boolText_inj x0
  replace x1 := boolText_inj x1
  replace x2 := boolText_inj x2
  replace x3 := boolText_inj x3
  replace x4 := boolText_inj x4
  replace x5 := boolText_inj x5
  cases m; cases n
  simp only at x0 x1 x2 x3 x4 x5
  subst x0 x1 x2 x3 x4 x5
  rfl

theorem RAComplement.allLine (m : RAComplement) : AllLine (m.lines) :=
  (.cons (by decide +kernel) (oneLine_bool _) (.cons (by decide +kernel) (oneLine_bool _) (.cons (by decide +kernel) (oneLine_bool _) (.cons (by decide +kernel) (oneLine_bool _) .nil))))

theorem RAComplement.lines_inj (m n : RAComplement)
    (e : (m.lines).map cat = (n.lines).map cat) : m = n := by
  unfold RAComplement.lines at e
  rename' e => e0
  simp only [cat, List.map_cons, List.map_nil, List.cons.injEq, List.append_cancel_left_eq, true_and, and_true] at e0
  obtain ⟨x0, x1, x2, x3⟩ := e0
  replace x0 := boolText_inj x0
  replace x1 := boolText_inj x1
  replace x2 := boolText_inj x2
  replace x3 := boolText_inj x3
  cases m; cases n
  simp only at x0 x1 x2 x3
  subst x0 x1 x2 x3
  rfl

/-- Facts about messages that were read. -/
def AirbornePosition.Printable (m : AirbornePosition) : Prop := m.altitudeSource < 256 ∧ m.altitudeReportMethod < 256

theorem AirbornePosition.allLine (m : AirbornePosition) (hm : m.Printable) : AllLine (m.lines) :=
  (.cons (by decide +kernel) (by unfold OneLine; decide +kernel) (.cons (by decide +kernel) (oneLine_dec _) (.cons (by decide +kernel) (Text.bds05SurveillanceStatus_identifies.line _) (.cons (by decide +kernel) (Text.bds05SingleAntennaFlag_identifies.line _) (.cons (by decide +kernel) (Text.bds05AltitudeSource_identifies.line _) (.cons (by decide +kernel) (Text.bds05AltitudeReportMethod_identifies.line _) (.cons (by decide +kernel) (oneLine_decInt _) (.cons (by decide +kernel) (Text.bds05Time_identifies.line _) (.cons (by decide +kernel) (Text.bds05CompactPositionReportingFormat_identifies.line _) (.cons (by decide +kernel) (oneLine_dec _) (.cons (by decide +kernel) (oneLine_dec _) .nil)))))))))))

theorem AirbornePosition.lines_inj (m n : AirbornePosition) (hm : m.Printable) (hn : n.Printable)
    (e : (m.lines).map cat = (n.lines).map cat) : m = n := by
  unfold AirbornePosition.lines at e
  rename' e => e0
  simp only [cat, List.map_cons, List.map_nil, List.cons.injEq, List.append_cancel_left_eq, true_and, and_true] at e0
  obtain ⟨x0, x1, x2, x3, x4, x5, x6, x7, x8, x9⟩ := e0
  replace x0 := UInt8.toNat_inj.1 (dec_inj x0)
  replace x1 := Text.bds05SurveillanceStatus_identifies.inj x1
  replace x2 := Text.bds05SingleAntennaFlag_identifies.inj x2
  replace x3 := ofNat_inj hm.1 hn.1 (Text.bds05AltitudeSource_identifies.inj x3)
  replace x4 := ofNat_inj hm.2 hn.2 (Text.bds05AltitudeReportMethod_identifies.inj x4)
  replace x5 := decInt_inj x5
  replace x6 := Text.bds05Time_identifies.inj x6
  replace x7 := Text.bds05CompactPositionReportingFormat_identifies.inj x7
  replace x8 := UInt32.toNat_inj.1 (dec_inj x8)
  replace x9 := UInt32.toNat_inj.1 (dec_inj x9)
  cases m; cases n
  simp only at x0 x1 x2 x3 x4 x5 x6 x7 x8 x9
  subst x0 x1 x2 x3 x4 x5 x6 x7 x8 x9
  rfl

/-- Facts about messages that were read. -/
def SurfacePosition.Printable (m : SurfacePosition) : Prop := m.movementStatus < 256

theorem SurfacePosition.allLine (F : FloatTexts) (hF : F.Faithful) (m : SurfacePosition) (hm : m.Printable) : AllLine (m.lines F) :=
  (.cons (by decide +kernel) (by unfold OneLine; decide +kernel) (.cons (by decide +kernel) (oneLine_dec _) (.cons (by decide +kernel) (Text.bds06MovementStatus_identifies.line _) (.cons (by decide +kernel) (hF.line32 _) (.cons (by decide +kernel) (oneLine_bool _) (.cons (by decide +kernel) (hF.line32 _) (.cons (by decide +kernel) (Text.bds06Time_identifies.line _) (.cons (by decide +kernel) (Text.bds06CompactPositionReportingFormat_identifies.line _) (.cons (by decide +kernel) (oneLine_dec _) (.cons (by decide +kernel) (oneLine_dec _) .nil))))))))))

theorem SurfacePosition.lines_inj (F : FloatTexts) (hF : F.Faithful) (m n : SurfacePosition) (hm : m.Printable) (hn : n.Printable)
    (e : (m.lines F).map cat = (n.lines F).map cat) : m = n := by
  unfold SurfacePosition.lines at e
  rename' e => e0
  simp only [cat, List.map_cons, List.map_nil, List.cons.injEq, List.append_cancel_left_eq, true_and, and_true] at e0
  obtain ⟨x0, x1, x2, x3, x4, x5, x6, x7, x8⟩ := e0
  replace x0 := UInt8.toNat_inj.1 (dec_inj x0)
  replace x1 := ofNat_inj hm hn (Text.bds06MovementStatus_identifies.inj x1)
  replace x2 := hF.inj32 x2
  replace x3 := boolText_inj x3
  replace x4 := hF.inj32 x4
  replace x5 := Text.bds06Time_identifies.inj x5
  replace x6 := Text.bds06CompactPositionReportingFormat_identifies.inj x6
  replace x7 := UInt32.toNat_inj.1 (dec_inj x7)
  replace x8 := UInt32.toNat_inj.1 (dec_inj x8)
  cases m; cases n
  simp only at x0 x1 x2 x3 x4 x5 x6 x7 x8
  subst x0 x1 x2 x3 x4 x5 x6 x7 x8
  rfl

theorem GroundSpeedVelocity.allLine (F : FloatTexts) (hF : F.Faithful) (m : GroundSpeedVelocity) : AllLine (m.lines F) :=
  (.cons (by decide +kernel) (by unfold OneLine; decide +kernel) (.cons (by decide +kernel) (Text.bds09Subtype_identifies.line _) (.cons (by decide +kernel) (Text.bds09IntentChange_identifies.line _) (.cons (by decide +kernel) (Text.bds09IFRCapability_identifies.line _) (.cons (by decide +kernel) (nucText_identifies.line _) (.cons (by decide +kernel) (Text.bds09DirectionEastWest_identifies.line _) (.cons (by decide +kernel) (statusText_line _) (.cons (by decide +kernel) (oneLine_dec _) (.cons (by decide +kernel) (Text.bds09DirectionNorthSouth_identifies.line _) (.cons (by decide +kernel) (statusText_line _) (.cons (by decide +kernel) (oneLine_dec _) (.cons (by decide +kernel) (Text.bds09VerticalRateSource_identifies.line _) (.cons (by decide +kernel) (statusText_line _) (.cons (by decide +kernel) (oneLine_decInt _) (.cons (by decide +kernel) (statusText_line _) (.cons (by decide +kernel) (oneLine_decInt _) (.cons (by decide +kernel) (speedText_line m) (.cons (by decide +kernel) (trackText_line F hF m) .nil))))))))))))))))))

theorem GroundSpeedVelocity.lines_inj (F : FloatTexts) (hF : F.Faithful) (m n : GroundSpeedVelocity)
    (e : (m.lines F).map cat = (n.lines F).map cat) : { m with formatTypeCode := 0 } = { n with formatTypeCode := 0 } := by
  unfold GroundSpeedVelocity.lines at e
  rename' e => e0
  simp only [cat, List.map_cons, List.map_nil, List.cons.injEq, List.append_cancel_left_eq, true_and, and_true] at e0
  obtain ⟨x0, x1, x2, x3, x4, x5, x6, x7, x8, x9, x10, x11, x12, x13, x14, x15, x16⟩ := e0
  replace x0 := Text.bds09Subtype_identifies.inj x0
  replace x1 := Text.bds09IntentChange_identifies.inj x1
  replace x2 := Text.bds09IFRCapability_identifies.inj x2
  replace x3 := nucText_identifies.inj x3
  replace x4 := Text.bds09DirectionEastWest_identifies.inj x4
  replace x5 := statusText_inj x5
  replace x6 := UInt16.toNat_inj.1 (dec_inj x6)
  replace x7 := Text.bds09DirectionNorthSouth_identifies.inj x7
  replace x8 := statusText_inj x8
  replace x9 := UInt16.toNat_inj.1 (dec_inj x9)
  replace x10 := Text.bds09VerticalRateSource_identifies.inj x10
  replace x11 := statusText_inj x11
  replace x12 := decInt_inj x12
  replace x13 := statusText_inj x13
  replace x14 := decInt_inj x14
  cases m; cases n
  simp only at x0 x1 x2 x3 x4 x5 x6 x7 x8 x9 x10 x11 x12 x13 x14
  subst x0 x1 x2 x3 x4 x5 x6 x7 x8 x9 x10 x11 x12 x13 x14
  rfl

theorem AirSpeedVelocity.allLine (F : FloatTexts) (hF : F.Faithful) (m : AirSpeedVelocity) : AllLine (m.lines F) :=
  (.cons (by decide +kernel) (by unfold OneLine; decide +kernel) (.cons (by decide +kernel) (Text.bds09Subtype_identifies.line _) (.cons (by decide +kernel) (Text.bds09IntentChange_identifies.line _) (.cons (by decide +kernel) (Text.bds09IFRCapability_identifies.line _) (.cons (by decide +kernel) (nucText_identifies.line _) (.cons (by decide +kernel) (Text.bds09MagneticHeadingStatus_identifies.line _) (.cons (by decide +kernel) (hF.line32 _) (.cons (by decide +kernel) (statusText_line _) (.cons (by decide +kernel) (oneLine_dec _) (.cons (by decide +kernel) (Text.bds09VerticalRateSource_identifies.line _) (.cons (by decide +kernel) (statusText_line _) (.cons (by decide +kernel) (oneLine_decInt _) (.cons (by decide +kernel) (statusText_line _) (.cons (by decide +kernel) (oneLine_decInt _) .nil))))))))))))))

theorem AirSpeedVelocity.lines_inj (F : FloatTexts) (hF : F.Faithful) (m n : AirSpeedVelocity)
    (e : (m.lines F).map cat = (n.lines F).map cat) : { m with formatTypeCode := 0 } = { n with formatTypeCode := 0 } := by
  unfold AirSpeedVelocity.lines at e
  rename' e => e0
  simp only [cat, List.map_cons, List.map_nil, List.cons.injEq, List.append_cancel_left_eq, true_and, and_true] at e0
  obtain ⟨x0, x1, x2, x3, x4, x5, x6, x7, x8, x9, x10, x11, x12⟩ := e0
  replace x0 := Text.bds09Subtype_identifies.inj x0
  replace x1 := Text.bds09IntentChange_identifies.inj x1
  replace x2 := Text.bds09IFRCapability_identifies.inj x2
  replace x3 := nucText_identifies.inj x3
  replace x4 := Text.bds09MagneticHeadingStatus_identifies.inj x4
  replace x5 := hF.inj32 x5
  replace x6 := statusText_inj x6
  replace x7 := UInt16.toNat_inj.1 (dec_inj x7)
  replace x8 := Text.bds09VerticalRateSource_identifies.inj x8
  replace x9 := statusText_inj x9
  replace x10 := decInt_inj x10
  replace x11 := statusText_inj x11
  replace x12 := decInt_inj x12
  cases m; cases n
  simp only at x0 x1 x2 x3 x4 x5 x6 x7 x8 x9 x10 x11 x12
  subst x0 x1 x2 x3 x4 x5 x6 x7 x8 x9 x10 x11 x12
  rfl

theorem StatusNoInformation.allLine (m : StatusNoInformation) : AllLine (m.lines) :=
  (.cons (by decide +kernel) (by unfold OneLine; decide +kernel) (.cons (by decide +kernel) (Text.bds61Subtype_identifies.line _) (.cons (by decide +kernel) (Text.bds61EmergencyPriorityStatus_identifies.line _) .nil)))

theorem StatusNoInformation.lines_inj (m n : StatusNoInformation)
    (e : (m.lines).map cat = (n.lines).map cat) : { m with formatTypeCode := 0 } = { n with formatTypeCode := 0 } := by
  unfold StatusNoInformation.lines at e
  rename' e => e0
  simp only [cat, List.map_cons, List.map_nil, List.cons.injEq, List.append_cancel_left_eq, true_and, and_true] at e0
  obtain ⟨x0, x1⟩ := e0
  replace x0 := Text.bds61Subtype_identifies.inj x0
  replace x1 := Text.bds61EmergencyPriorityStatus_identifies.inj x1
  cases m; cases n
  simp only at x0 x1
  subst x0 x1
  rfl

theorem StatusEmergency.allLine (m : StatusEmergency) : AllLine (m.lines) :=
  (.cons (by decide +kernel) (by unfold OneLine; decide +kernel) (.cons (by decide +kernel) (Text.bds61Subtype_identifies.line _) (.cons (by decide +kernel) (Text.bds61EmergencyPriorityStatus_identifies.line _) .nil)))

theorem StatusEmergency.lines_inj (m n : StatusEmergency)
    (e : (m.lines).map cat = (n.lines).map cat) : { m with formatTypeCode := 0, modeACode := 0 } = { n with formatTypeCode := 0, modeACode := 0 } := by
  unfold StatusEmergency.lines at e
  rename' e => e0
  simp only [cat, List.map_cons, List.map_nil, List.cons.injEq, List.append_cancel_left_eq, true_and, and_true] at e0
  obtain ⟨x0, x1⟩ := e0
  replace x0 := Text.bds61Subtype_identifies.inj x0
  replace x1 := Text.bds61EmergencyPriorityStatus_identifies.inj x1
  cases m; cases n
  simp only at x0 x1
  subst x0 x1
  rfl

/-- Facts about messages that were read. -/
def TargetStateAndStatus0.Printable (m : TargetStateAndStatus0) : Prop := m.surveillanceIntegrityLevel.toNat < 4

theorem TargetStateAndStatus0.allLine (m : TargetStateAndStatus0) (hm : m.Printable) : AllLine (m.lines) :=
  ((AllLine.append (.cons (by decide +kernel) (by unfold OneLine; decide +kernel) (.cons (by decide +kernel) (Text.bds62Subtype_identifies.line _) (.cons (by decide +kernel) (Text.bds62VerticalDataAvailableSourceIndicator_identifies.line _) (.cons (by decide +kernel) (Text.bds62TargetAltitudeType_identifies.line _) (.cons (by decide +kernel) (Text.bds62TargetAltitudeCapability_identifies.line _) (.cons (by decide +kernel) (Text.bds62VerticalModeIndicator_identifies.line _) (.cons (by decide +kernel) (statusText_line _) (.cons (by decide +kernel) (oneLine_decInt _) (.cons (by decide +kernel) (Text.bds62HorizontalDataAvailableSourceIndicator_identifies.line _) (.cons (by decide +kernel) (statusText_line _) (.cons (by decide +kernel) (oneLine_dec _) (.cons (by decide +kernel) (Text.bds62TargetHeadingTrackIndicator_identifies.line _) (.cons (by decide +kernel) (Text.bds62HorizontalModeIndicator_identifies.line _) (.cons (by decide +kernel) (Text.bds62NavigationalAccuracyCategoryPositionV1_identifies.line _) (.cons (by decide +kernel) (Text.bds62NICBaro_identifies.line _) .nil))))))))))))))) ((sil62_allLine _ hm).labelled (by decide +kernel))).append (.cons (by decide +kernel) (Text.bds62CapabilityModeCode_identifies.line _) (.cons (by decide +kernel) (Text.bds62EmergencyPriorityStatus_identifies.line _) .nil)))

theorem TargetStateAndStatus0.lines_inj (m n : TargetStateAndStatus0) (hm : m.Printable) (hn : n.Printable)
    (e : (m.lines).map cat = (n.lines).map cat) : { m with formatTypeCode := 0 } = { n with formatTypeCode := 0 } := by
  unfold TargetStateAndStatus0.lines at e
  simp only [List.map_append] at e
  obtain ⟨e, e2⟩ := List.append_inj' e rfl
  obtain ⟨e, e1⟩ := List.append_inj' e (sil62_length hm hn)
  rename' e => e0
  simp only [cat, List.map_cons, List.map_nil, List.cons.injEq, List.append_cancel_left_eq, true_and, and_true] at e0
  obtain ⟨x0, x1, x2, x3, x4, x5, x6, x7, x8, x9, x10, x11, x12, x13⟩ := e0
  replace x0 := Text.bds62Subtype_identifies.inj x0
  replace x1 := Text.bds62VerticalDataAvailableSourceIndicator_identifies.inj x1
  replace x2 := Text.bds62TargetAltitudeType_identifies.inj x2
  replace x3 := Text.bds62TargetAltitudeCapability_identifies.inj x3
  replace x4 := Text.bds62VerticalModeIndicator_identifies.inj x4
  replace x5 := statusText_inj x5
  replace x6 := decInt_inj x6
  replace x7 := Text.bds62HorizontalDataAvailableSourceIndicator_identifies.inj x7
  replace x8 := statusText_inj x8
  replace x9 := UInt16.toNat_inj.1 (dec_inj x9)
  replace x10 := Text.bds62TargetHeadingTrackIndicator_identifies.inj x10
  replace x11 := Text.bds62HorizontalModeIndicator_identifies.inj x11
  replace x12 := Text.bds62NavigationalAccuracyCategoryPositionV1_identifies.inj x12
  replace x13 := Text.bds62NICBaro_identifies.inj x13
  have x14 := sil62_inj hm hn e1
  simp only [cat, List.map_cons, List.map_nil, List.cons.injEq, List.append_cancel_left_eq, true_and, and_true] at e2
  obtain ⟨x15, x16⟩ := e2
  replace x15 := Text.bds62CapabilityModeCode_identifies.inj x15
  replace x16 := Text.bds62EmergencyPriorityStatus_identifies.inj x16
  cases m; cases n
  simp only at x0 x1 x2 x3 x4 x5 x6 x7 x8 x9 x10 x11 x12 x13 x14 x15 x16
  subst x0 x1 x2 x3 x4 x5 x6 x7 x8 x9 x10 x11 x12 x13 x14 x15 x16
  rfl

/-- Facts about messages that were read. -/
def TargetStateAndStatus1.Printable (m : TargetStateAndStatus1) : Prop := m.selectedHeading ≠ 0 → (m.selectedHeadingMinus = true ↔ m.selectedHeading < 0)

theorem TargetStateAndStatus1.allLine (F : FloatTexts) (hF : F.Faithful) (m : TargetStateAndStatus1) (hm : m.Printable) : AllLine (m.lines F) :=
  (.cons (by decide +kernel) (by unfold OneLine; decide +kernel) (.cons (by decide +kernel) (Text.bds62Subtype_identifies.line _) (.cons (by decide +kernel) (Text.bds62SelectedAltitudeType_identifies.line _) (.cons (by decide +kernel) (statusText_line _) (.cons (by decide +kernel) (oneLine_dec _) (.cons (by decide +kernel) (statusText_line _) (.cons (by decide +kernel) (hF.line32 _) (.cons (by decide +kernel) (Text.bds62SelectedHeadingStatus_identifies.line _) (.cons (by decide +kernel) (hF.lineSigned _ _) (.cons (by decide +kernel) (Text.bds62NavigationalAccuracyCategoryPositionV2_identifies.line _) (.cons (by decide +kernel) (Text.bds62NICBaro_identifies.line _) (.cons (by decide +kernel) (Text.bds62SourceIntegrityLevel_identifies.line _) (.cons (by decide +kernel) (Text.bds62SourceIntegrityLevelSupplement_identifies.line _) (.cons (by decide +kernel) (Text.bds62StatusMCPFCUBits_identifies.line _) (.cons (by decide +kernel) (oneLine_bool _) (.cons (by decide +kernel) (oneLine_bool _) (.cons (by decide +kernel) (oneLine_bool _) (.cons (by decide +kernel) (oneLine_bool _) (.cons (by decide +kernel) (oneLine_bool _) (.cons (by decide +kernel) (oneLine_bool _) .nil))))))))))))))))))))

theorem TargetStateAndStatus1.lines_inj (F : FloatTexts) (hF : F.Faithful) (m n : TargetStateAndStatus1) (hm : m.Printable) (hn : n.Printable)
    (e : (m.lines F).map cat = (n.lines F).map cat) : { m with formatTypeCode := 0 } = { n with formatTypeCode := 0 } := by
  unfold TargetStateAndStatus1.lines at e
  rename' e => e0
  simp only [cat, List.map_cons, List.map_nil, List.cons.injEq, List.append_cancel_left_eq, true_and, and_true] at e0
  obtain ⟨x0, x1, x2, x3, x4, x5, x6, x7, x8, x9, x10, x11, x12, x13, x14, x15, x16, x17, x18⟩ := e0
  replace x0 := Text.bds62Subtype_identifies.inj x0
  replace x1 := Text.bds62SelectedAltitudeType_identifies.inj x1
  replace x2 := statusText_inj x2
  replace x3 := UInt16.toNat_inj.1 (dec_inj x3)
  replace x4 := statusText_inj x4
  replace x5 := hF.inj32 x5
  replace x6 := Text.bds62SelectedHeadingStatus_identifies.inj x6
  obtain ⟨x7a, x7b⟩ := hF.signed_inj hm hn x7
  replace x8 := Text.bds62NavigationalAccuracyCategoryPositionV2_identifies.inj x8
  replace x9 := Text.bds62NICBaro_identifies.inj x9
  replace x10 := Text.bds62SourceIntegrityLevel_identifies.inj x10
  replace x11 := Text.bds62SourceIntegrityLevelSupplement_identifies.inj x11
  replace x12 := Text.bds62StatusMCPFCUBits_identifies.inj x12
  replace x13 := boolText_inj x13
  replace x14 := boolText_inj x14
  replace x15 := boolText_inj x15
  replace x16 := boolText_inj x16
  replace x17 := boolText_inj x17
  replace x18 := boolText_inj x18
  cases m; cases n
  simp only at x0 x1 x2 x3 x4 x5 x6 x7a x7b x8 x9 x10 x11 x12 x13 x14 x15 x16 x17 x18
  subst x0 x1 x2 x3 x4 x5 x6 x7a x7b x8 x9 x10 x11 x12 x13 x14 x15 x16 x17 x18
  rfl

theorem AirborneCapabilityClassV1.allLine (m : AirborneCapabilityClassV1) : AllLine (m.lines) :=
  (.cons (by decide +kernel) (Text.bds65NotACASStatus_identifies.line _) (.cons (by decide +kernel) (Text.bds65CockpitDisplayOfTrafficInformationStatus_identifies.line _) (.cons (by decide +kernel) (Text.bds65AirReferencedVelocityReportCapability_identifies.line _) (.cons (by decide +kernel) (Text.bds65TargetStateReportCapability_identifies.line _) (.cons (by decide +kernel) (Text.bds65TargetChangeReportCapability_identifies.line _) .nil)))))

theorem AirborneCapabilityClassV1.lines_inj (m n : AirborneCapabilityClassV1)
    (e : (m.lines).map cat = (n.lines).map cat) : m = n := by
  unfold AirborneCapabilityClassV1.lines at e
  rename' e => e0
  simp only [cat, List.map_cons, List.map_nil, List.cons.injEq, List.append_cancel_left_eq, true_and, and_true] at e0
  obtain ⟨x0, x1, x2, x3, x4⟩ := e0
  replace x0 := Text.bds65NotACASStatus_identifies.inj x0
  replace x1 := Text.bds65CockpitDisplayOfTrafficInformationStatus_identifies.inj x1
  replace x2 := Text.bds65AirReferencedVelocityReportCapability_identifies.inj x2
  replace x3 := Text.bds65TargetStateReportCapability_identifies.inj x3
  replace x4 := Text.bds65TargetChangeReportCapability_identifies.inj x4
  cases m; cases n
  simp only at x0 x1 x2 x3 x4
  subst x0 x1 x2 x3 x4
  rfl

theorem AirborneCapabilityClassV2.allLine (m : AirborneCapabilityClassV2) : AllLine (m.lines) :=
  (.cons (by decide +kernel) (Text.bds65ACASOperational_identifies.line _) (.cons (by decide +kernel) (Text.bds65ExtendedSquitterIn_identifies.line _) (.cons (by decide +kernel) (Text.bds65AirReferencedVelocityReportCapability_identifies.line _) (.cons (by decide +kernel) (Text.bds65TargetStateReportCapability_identifies.line _) (.cons (by decide +kernel) (Text.bds65TargetChangeReportCapability_identifies.line _) (.cons (by decide +kernel) (Text.bds65UniversalAccessTransceiverCapability_identifies.line _) .nil))))))

theorem AirborneCapabilityClassV2.lines_inj (m n : AirborneCapabilityClassV2)
    (e : (m.lines).map cat = (n.lines).map cat) : m = n := by
  unfold AirborneCapabilityClassV2.lines at e
  rename' e => e0
  simp only [cat, List.map_cons, List.map_nil, List.cons.injEq, List.append_cancel_left_eq, true_and, and_true] at e0
  obtain ⟨x0, x1, x2, x3, x4, x5⟩ := e0
  replace x0 := Text.bds65ACASOperational_identifies.inj x0
  replace x1 := Text.bds65ExtendedSquitterIn_identifies.inj x1
  replace x2 := Text.bds65AirReferencedVelocityReportCapability_identifies.inj x2
  replace x3 := Text.bds65TargetStateReportCapability_identifies.inj x3
  replace x4 := Text.bds65TargetChangeReportCapability_identifies.inj x4
  replace x5 := Text.bds65UniversalAccessTransceiverCapability_identifies.inj x5
  cases m; cases n
  simp only at x0 x1 x2 x3 x4 x5
  subst x0 x1 x2 x3 x4 x5
  rfl

theorem SurfaceCapabilityClassV1.allLine (m : SurfaceCapabilityClassV1) : AllLine (m.lines) :=
  (.cons (by decide +kernel) (Text.bds65PositionOffsetApplied_identifies.line _) (.cons (by decide +kernel) (Text.bds65CockpitDisplayOfTrafficInformationStatus_identifies.line _) (.cons (by decide +kernel) (Text.bds65B2Low_identifies.line _) .nil)))

theorem SurfaceCapabilityClassV1.lines_inj (m n : SurfaceCapabilityClassV1)
    (e : (m.lines).map cat = (n.lines).map cat) : m = n := by
  unfold SurfaceCapabilityClassV1.lines at e
  rename' e => e0
  simp only [cat, List.map_cons, List.map_nil, List.cons.injEq, List.append_cancel_left_eq, true_and, and_true] at e0
  obtain ⟨x0, x1, x2⟩ := e0
  replace x0 := Text.bds65PositionOffsetApplied_identifies.inj x0
  replace x1 := Text.bds65CockpitDisplayOfTrafficInformationStatus_identifies.inj x1
  replace x2 := Text.bds65B2Low_identifies.inj x2
  cases m; cases n
  simp only at x0 x1 x2
  subst x0 x1 x2
  rfl

theorem SurfaceCapabilityClassV2.allLine (m : SurfaceCapabilityClassV2) : AllLine (m.lines) :=
  (.cons (by decide +kernel) (Text.bds65ExtendedSquitterIn_identifies.line _) (.cons (by decide +kernel) (Text.bds65B2Low_identifies.line _) (.cons (by decide +kernel) (Text.bds65UniversalAccessTransceiverCapability_identifies.line _) (.cons (by decide +kernel) (oneLine_dec _) (.cons (by decide +kernel) (Text.bds65NICSupplementC_identifies.line _) .nil)))))

theorem SurfaceCapabilityClassV2.lines_inj (m n : SurfaceCapabilityClassV2)
    (e : (m.lines).map cat = (n.lines).map cat) : m = n := by
  unfold SurfaceCapabilityClassV2.lines at e
  rename' e => e0
  simp only [cat, List.map_cons, List.map_nil, List.cons.injEq, List.append_cancel_left_eq, true_and, and_true] at e0
  obtain ⟨x0, x1, x2, x3, x4⟩ := e0
  replace x0 := Text.bds65ExtendedSquitterIn_identifies.inj x0
  replace x1 := Text.bds65B2Low_identifies.inj x1
  replace x2 := Text.bds65UniversalAccessTransceiverCapability_identifies.inj x2
  replace x3 := UInt8.toNat_inj.1 (dec_inj x3)
  replace x4 := Text.bds65NICSupplementC_identifies.inj x4
  cases m; cases n
  simp only at x0 x1 x2 x3 x4
  subst x0 x1 x2 x3 x4
  rfl

theorem OperationalMode.allLine (m : OperationalMode) : AllLine (m.lines) :=
  (.cons (by decide +kernel) (Text.bds65ACASResolutionAdvisoryActiveV1_identifies.line _) (.cons (by decide +kernel) (Text.bds65IdentSwitchActive_identifies.line _) (.cons (by decide +kernel) (Text.bds65ReceivingATCServices_identifies.line _) .nil)))

theorem OperationalMode.lines_inj (m n : OperationalMode)
    (e : (m.lines).map cat = (n.lines).map cat) : m = n := by
  unfold OperationalMode.lines at e
  rename' e => e0
  simp only [cat, List.map_cons, List.map_nil, List.cons.injEq, List.append_cancel_left_eq, true_and, and_true] at e0
  obtain ⟨x0, x1, x2⟩ := e0
  replace x0 := Text.bds65ACASResolutionAdvisoryActiveV1_identifies.inj x0
  replace x1 := Text.bds65IdentSwitchActive_identifies.inj x1
  replace x2 := Text.bds65ReceivingATCServices_identifies.inj x2
  cases m; cases n
  simp only at x0 x1 x2
  subst x0 x1 x2
  rfl

theorem AirborneOperationalMode.allLine (m : AirborneOperationalMode) : AllLine (m.lines) :=
  (.cons (by decide +kernel) (Text.bds65ACASResolutionAdvisoryActiveV2_identifies.line _) (.cons (by decide +kernel) (Text.bds65IdentSwitchActive_identifies.line _) (.cons (by decide +kernel) (Text.bds65SingleAntennaFlag_identifies.line _) (.cons (by decide +kernel) (Text.bds65SystemDesignAssurance_identifies.line _) .nil))))

theorem AirborneOperationalMode.lines_inj (m n : AirborneOperationalMode)
    (e : (m.lines).map cat = (n.lines).map cat) : m = n := by
  unfold AirborneOperationalMode.lines at e
  rename' e => e0
  simp only [cat, List.map_cons, List.map_nil, List.cons.injEq, List.append_cancel_left_eq, true_and, and_true] at e0
  obtain ⟨x0, x1, x2, x3⟩ := e0
  replace x0 := Text.bds65ACASResolutionAdvisoryActiveV2_identifies.inj x0
  replace x1 := Text.bds65IdentSwitchActive_identifies.inj x1
  replace x2 := Text.bds65SingleAntennaFlag_identifies.inj x2
  replace x3 := Text.bds65SystemDesignAssurance_identifies.inj x3
  cases m; cases n
  simp only at x0 x1 x2 x3
  subst x0 x1 x2 x3
  rfl

theorem SurfaceOperationalMode.allLine (m : SurfaceOperationalMode) : AllLine (m.lines) :=
  (AllLine.append (.cons (by decide +kernel) (Text.bds65ACASResolutionAdvisoryActiveV2_identifies.line _) (.cons (by decide +kernel) (Text.bds65IdentSwitchActive_identifies.line _) (.cons (by decide +kernel) (Text.bds65SingleAntennaFlag_identifies.line _) (.cons (by decide +kernel) (Text.bds65SystemDesignAssurance_identifies.line _) .nil)))) ((gps_allLine m).nest.labelled (by decide +kernel)))

theorem SurfaceOperationalMode.lines_inj (m n : SurfaceOperationalMode)
    (e : (m.lines).map cat = (n.lines).map cat) : m = n := by
  unfold SurfaceOperationalMode.lines at e
  simp only [List.map_append] at e
  obtain ⟨e, e1⟩ := List.append_inj' e rfl
  rename' e => e0
  simp only [cat, List.map_cons, List.map_nil, List.cons.injEq, List.append_cancel_left_eq, true_and, and_true] at e0
  obtain ⟨x0, x1, x2, x3⟩ := e0
  replace x0 := Text.bds65ACASResolutionAdvisoryActiveV2_identifies.inj x0
  replace x1 := Text.bds65IdentSwitchActive_identifies.inj x1
  replace x2 := Text.bds65SingleAntennaFlag_identifies.inj x2
  replace x3 := Text.bds65SystemDesignAssurance_identifies.inj x3
  obtain ⟨x4, x5⟩ := gps_inj e1
  cases m; cases n
  simp only at x0 x1 x2 x3 x4 x5
  subst x0 x1 x2 x3 x4 x5
  rfl

theorem OpStatusV0.allLine (m : OpStatusV0) : AllLine (m.lines) :=
  (.cons (by decide +kernel) (by unfold OneLine; decide +kernel) (.cons (by decide +kernel) (Text.bds65EnRouteOperationalCapabilities_identifies.line _) (.cons (by decide +kernel) (Text.bds65EnRouteOperationalCapabilityStatus_identifies.line _) (.cons (by decide +kernel) (Text.bds65TerminalAreaOperationalCapabilities_identifies.line _) (.cons (by decide +kernel) (Text.bds65TerminalAreaOperationalCapabilityStatus_identifies.line _) (.cons (by decide +kernel) (Text.bds65ApproachLandingOperationalCapabilities_identifies.line _) (.cons (by decide +kernel) (Text.bds65ApproachLandingOperationalCapabilityStatus_identifies.line _) (.cons (by decide +kernel) (Text.bds65SurfaceOperationalCapabilities_identifies.line _) (.cons (by decide +kernel) (Text.bds65SurfaceOperationalCapabilityStatus_identifies.line _) .nil)))))))))

theorem OpStatusV0.lines_inj (m n : OpStatusV0)
    (e : (m.lines).map cat = (n.lines).map cat) : { m with formatTypeCode := 0, subtype := 0 } = { n with formatTypeCode := 0, subtype := 0 } := by
  unfold OpStatusV0.lines at e
  rename' e => e0
  simp only [cat, List.map_cons, List.map_nil, List.cons.injEq, List.append_cancel_left_eq, true_and, and_true] at e0
  obtain ⟨x0, x1, x2, x3, x4, x5, x6, x7⟩ := e0
  replace x0 := Text.bds65EnRouteOperationalCapabilities_identifies.inj x0
  replace x1 := Text.bds65EnRouteOperationalCapabilityStatus_identifies.inj x1
  replace x2 := Text.bds65TerminalAreaOperationalCapabilities_identifies.inj x2
  replace x3 := Text.bds65TerminalAreaOperationalCapabilityStatus_identifies.inj x3
  replace x4 := Text.bds65ApproachLandingOperationalCapabilities_identifies.inj x4
  replace x5 := Text.bds65ApproachLandingOperationalCapabilityStatus_identifies.inj x5
  replace x6 := Text.bds65SurfaceOperationalCapabilities_identifies.inj x6
  replace x7 := Text.bds65SurfaceOperationalCapabilityStatus_identifies.inj x7
  cases m; cases n
  simp only at x0 x1 x2 x3 x4 x5 x6 x7
  subst x0 x1 x2 x3 x4 x5 x6 x7
  rfl

/-- Facts about messages that were read. -/
def OpStatusAirborneV1.Printable (m : OpStatusAirborneV1) : Prop := m.surveillanceIntegrityLevel.toNat < 4

theorem OpStatusAirborneV1.allLine (m : OpStatusAirborneV1) (hm : m.Printable) : AllLine (m.lines) :=
  ((((((AllLine.append (.cons (by decide +kernel) (by unfold OneLine; decide +kernel) (.cons (by decide +kernel) (Text.bds65Subtype_identifies.line _) (.cons (by decide +kernel) (by unfold OneLine; decide) .nil))) ((AirborneCapabilityClassV1.allLine _).nest)).append (.cons (by decide +kernel) (by unfold OneLine; decide) .nil)).append ((OperationalMode.allLine _).nest)).append (.cons (by decide +kernel) (versionText_line _) (.cons (by decide +kernel) (Text.bds65NICSupplementA_identifies.line _) (.cons (by decide +kernel) (Text.bds65NavigationalAccuracyCategoryPositionV1_identifies.line _) (.cons (by decide +kernel) (by unfold OneLine; decide) .nil))))).append ((sil_allLine _ hm).nest)).append (.cons (by decide +kernel) (Text.bds65NICBaro_identifies.line _) (.cons (by decide +kernel) (Text.bds65HorizontalReferenceDirection_identifies.line _) .nil)))

theorem OpStatusAirborneV1.lines_inj (m n : OpStatusAirborneV1) (hm : m.Printable) (hn : n.Printable)
    (e : (m.lines).map cat = (n.lines).map cat) : { m with formatTypeCode := 0 } = { n with formatTypeCode := 0 } := by
  unfold OpStatusAirborneV1.lines at e
  simp only [List.map_append] at e
  obtain ⟨e, e6⟩ := List.append_inj' e rfl
  obtain ⟨e, e5⟩ := List.append_inj' e (sil_length hm hn)
  obtain ⟨e, e4⟩ := List.append_inj' e rfl
  obtain ⟨e, e3⟩ := List.append_inj' e rfl
  obtain ⟨e, e2⟩ := List.append_inj' e rfl
  obtain ⟨e, e1⟩ := List.append_inj' e rfl
  rename' e => e0
  simp only [cat, List.map_cons, List.map_nil, List.cons.injEq, List.append_cancel_left_eq, true_and, and_true] at e0
  have x0 := e0
  replace x0 := Text.bds65Subtype_identifies.inj x0
  have x1 := AirborneCapabilityClassV1.lines_inj _ _ (nest_cat e1)
  simp only [cat, List.map_cons, List.map_nil, List.cons.injEq, List.append_cancel_left_eq, true_and, and_true] at e2
  have x2 := OperationalMode.lines_inj _ _ (nest_cat e3)
  simp only [cat, List.map_cons, List.map_nil, List.cons.injEq, List.append_cancel_left_eq, true_and, and_true] at e4
  obtain ⟨x3, x4, x5⟩ := e4
  replace x3 := versionText_inj x3
  replace x4 := Text.bds65NICSupplementA_identifies.inj x4
  replace x5 := Text.bds65NavigationalAccuracyCategoryPositionV1_identifies.inj x5
  have x6 := sil_inj hm hn (nest_cat e5)
  simp only [cat, List.map_cons, List.map_nil, List.cons.injEq, List.append_cancel_left_eq, true_and, and_true] at e6
  obtain ⟨x7, x8⟩ := e6
  replace x7 := Text.bds65NICBaro_identifies.inj x7
  replace x8 := Text.bds65HorizontalReferenceDirection_identifies.inj x8
  cases m; cases n
  simp only at x0 x1 x2 x3 x4 x5 x6 x7 x8
  subst x0 x1 x2 x3 x4 x5 x6 x7 x8
  rfl

theorem OpStatusAirborneV2.allLine (m : OpStatusAirborneV2) : AllLine (m.lines) :=
  ((((AllLine.append (.cons (by decide +kernel) (by unfold OneLine; decide +kernel) (.cons (by decide +kernel) (Text.bds65Subtype_identifies.line _) (.cons (by decide +kernel) (by unfold OneLine; decide) .nil))) ((AirborneCapabilityClassV2.allLine _).nest)).append (.cons (by decide +kernel) (by unfold OneLine; decide) .nil)).append ((AirborneOperationalMode.allLine _).nest)).append (.cons (by decide +kernel) (versionText_line _) (.cons (by decide +kernel) (Text.bds65NICSupplementA_identifies.line _) (.cons (by decide +kernel) (Text.bds65NavigationalAccuracyCategoryPositionV2_identifies.line _) (.cons (by decide +kernel) (Text.bds65GeometricVerticalAccuracy_identifies.line _) (.cons (by decide +kernel) (Text.bds65SourceIntegrityLevel_identifies.line _) (.cons (by decide +kernel) (Text.bds65SourceIntegrityLevelSupplement_identifies.line _) (.cons (by decide +kernel) (Text.bds65NICBaro_identifies.line _) (.cons (by decide +kernel) (Text.bds65HorizontalReferenceDirection_identifies.line _) .nil)))))))))

theorem OpStatusAirborneV2.lines_inj (m n : OpStatusAirborneV2)
    (e : (m.lines).map cat = (n.lines).map cat) : { m with formatTypeCode := 0 } = { n with formatTypeCode := 0 } := by
  unfold OpStatusAirborneV2.lines at e
  simp only [List.map_append] at e
  obtain ⟨e, e4⟩ := List.append_inj' e rfl
  obtain ⟨e, e3⟩ := List.append_inj' e rfl
  obtain ⟨e, e2⟩ := List.append_inj' e rfl
  obtain ⟨e, e1⟩ := List.append_inj' e rfl
  rename' e => e0
  simp only [cat, List.map_cons, List.map_nil, List.cons.injEq, List.append_cancel_left_eq, true_and, and_true] at e0
  have x0 := e0
  replace x0 := Text.bds65Subtype_identifies.inj x0
  have x1 := AirborneCapabilityClassV2.lines_inj _ _ (nest_cat e1)
  simp only [cat, List.map_cons, List.map_nil, List.cons.injEq, List.append_cancel_left_eq, true_and, and_true] at e2
  have x2 := AirborneOperationalMode.lines_inj _ _ (nest_cat e3)
  simp only [cat, List.map_cons, List.map_nil, List.cons.injEq, List.append_cancel_left_eq, true_and, and_true] at e4
  obtain ⟨x3, x4, x5, x6, x7, x8, x9, x10⟩ := e4
  replace x3 := versionText_inj x3
  replace x4 := Text.bds65NICSupplementA_identifies.inj x4
  replace x5 := Text.bds65NavigationalAccuracyCategoryPositionV2_identifies.inj x5
  replace x6 := Text.bds65GeometricVerticalAccuracy_identifies.inj x6
  replace x7 := Text.bds65SourceIntegrityLevel_identifies.inj x7
  replace x8 := Text.bds65SourceIntegrityLevelSupplement_identifies.inj x8
  replace x9 := Text.bds65NICBaro_identifies.inj x9
  replace x10 := Text.bds65HorizontalReferenceDirection_identifies.inj x10
  cases m; cases n
  simp only at x0 x1 x2 x3 x4 x5 x6 x7 x8 x9 x10
  subst x0 x1 x2 x3 x4 x5 x6 x7 x8 x9 x10
  rfl

/-- Facts about messages that were read. -/
def OpStatusSurfaceV1.Printable (m : OpStatusSurfaceV1) : Prop := m.surveillanceIntegrityLevel.toNat < 4

theorem OpStatusSurfaceV1.allLine (m : OpStatusSurfaceV1) (hm : m.Printable) : AllLine (m.lines) :=
  ((((((AllLine.append (.cons (by decide +kernel) (by unfold OneLine; decide +kernel) (.cons (by decide +kernel) (Text.bds65Subtype_identifies.line _) (.cons (by decide +kernel) (by unfold OneLine; decide) .nil))) ((SurfaceCapabilityClassV1.allLine _).nest)).append (.cons (by decide +kernel) (Text.bds65LengthWidth_identifies.line _) (.cons (by decide +kernel) (by unfold OneLine; decide) .nil))).append ((OperationalMode.allLine _).nest)).append (.cons (by decide +kernel) (versionText_line _) (.cons (by decide +kernel) (Text.bds65NICSupplementA_identifies.line _) (.cons (by decide +kernel) (Text.bds65NavigationalAccuracyCategoryPositionV1_identifies.line _) (.cons (by decide +kernel) (by unfold OneLine; decide) .nil))))).append ((sil_allLine _ hm).nest)).append (.cons (by decide +kernel) (Text.bds65TrackAngleHeading_identifies.line _) (.cons (by decide +kernel) (Text.bds65HorizontalReferenceDirection_identifies.line _) .nil)))

theorem OpStatusSurfaceV1.lines_inj (m n : OpStatusSurfaceV1) (hm : m.Printable) (hn : n.Printable)
    (e : (m.lines).map cat = (n.lines).map cat) : { m with formatTypeCode := 0 } = { n with formatTypeCode := 0 } := by
  unfold OpStatusSurfaceV1.lines at e
  simp only [List.map_append] at e
  obtain ⟨e, e6⟩ := List.append_inj' e rfl
  obtain ⟨e, e5⟩ := List.append_inj' e (sil_length hm hn)
  obtain ⟨e, e4⟩ := List.append_inj' e rfl
  obtain ⟨e, e3⟩ := List.append_inj' e rfl
  obtain ⟨e, e2⟩ := List.append_inj' e rfl
  obtain ⟨e, e1⟩ := List.append_inj' e rfl
  rename' e => e0
  simp only [cat, List.map_cons, List.map_nil, List.cons.injEq, List.append_cancel_left_eq, true_and, and_true] at e0
  have x0 := e0
  replace x0 := Text.bds65Subtype_identifies.inj x0
  have x1 := SurfaceCapabilityClassV1.lines_inj _ _ (nest_cat e1)
  simp only [cat, List.map_cons, List.map_nil, List.cons.injEq, List.append_cancel_left_eq, true_and, and_true] at e2
  have x2 := e2
  replace x2 := Text.bds65LengthWidth_identifies.inj x2
  have x3 := OperationalMode.lines_inj _ _ (nest_cat e3)
  simp only [cat, List.map_cons, List.map_nil, List.cons.injEq, List.append_cancel_left_eq, true_and, and_true] at e4
  obtain ⟨x4, x5, x6⟩ := e4
  replace x4 := versionText_inj x4
  replace x5 := Text.bds65NICSupplementA_identifies.inj x5
  replace x6 := Text.bds65NavigationalAccuracyCategoryPositionV1_identifies.inj x6
  have x7 := sil_inj hm hn (nest_cat e5)
  simp only [cat, List.map_cons, List.map_nil, List.cons.injEq, List.append_cancel_left_eq, true_and, and_true] at e6
  obtain ⟨x8, x9⟩ := e6
  replace x8 := Text.bds65TrackAngleHeading_identifies.inj x8
  replace x9 := Text.bds65HorizontalReferenceDirection_identifies.inj x9
  cases m; cases n
  simp only at x0 x1 x2 x3 x4 x5 x6 x7 x8 x9
  subst x0 x1 x2 x3 x4 x5 x6 x7 x8 x9
  rfl

theorem OpStatusSurfaceV2.allLine (m : OpStatusSurfaceV2) : AllLine (m.lines) :=
  ((((AllLine.append (.cons (by decide +kernel) (by unfold OneLine; decide +kernel) (.cons (by decide +kernel) (Text.bds65Subtype_identifies.line _) (.cons (by decide +kernel) (by unfold OneLine; decide) .nil))) ((SurfaceCapabilityClassV2.allLine _).nest)).append (.cons (by decide +kernel) (Text.bds65LengthWidth_identifies.line _) (.cons (by decide +kernel) (by unfold OneLine; decide) .nil))).append ((SurfaceOperationalMode.allLine _).nest)).append (.cons (by decide +kernel) (versionText_line _) (.cons (by decide +kernel) (Text.bds65NICSupplementA_identifies.line _) (.cons (by decide +kernel) (Text.bds65NavigationalAccuracyCategoryPositionV2_identifies.line _) (.cons (by decide +kernel) (Text.bds65SourceIntegrityLevel_identifies.line _) (.cons (by decide +kernel) (Text.bds65SourceIntegrityLevelSupplement_identifies.line _) (.cons (by decide +kernel) (Text.bds65TrackAngleHeading_identifies.line _) (.cons (by decide +kernel) (Text.bds65HorizontalReferenceDirection_identifies.line _) .nil))))))))

theorem OpStatusSurfaceV2.lines_inj (m n : OpStatusSurfaceV2)
    (e : (m.lines).map cat = (n.lines).map cat) : { m with formatTypeCode := 0 } = { n with formatTypeCode := 0 } := by
  unfold OpStatusSurfaceV2.lines at e
  simp only [List.map_append] at e
  obtain ⟨e, e4⟩ := List.append_inj' e rfl
  obtain ⟨e, e3⟩ := List.append_inj' e rfl
  obtain ⟨e, e2⟩ := List.append_inj' e rfl
  obtain ⟨e, e1⟩ := List.append_inj' e rfl
  rename' e => e0
  simp only [cat, List.map_cons, List.map_nil, List.cons.injEq, List.append_cancel_left_eq, true_and, and_true] at e0
  have x0 := e0
  replace x0 := Text.bds65Subtype_identifies.inj x0
  have x1 := SurfaceCapabilityClassV2.lines_inj _ _ (nest_cat e1)
  simp only [cat, List.map_cons, List.map_nil, List.cons.injEq, List.append_cancel_left_eq, true_and, and_true] at e2
  have x2 := e2
  replace x2 := Text.bds65LengthWidth_identifies.inj x2
  have x3 := SurfaceOperationalMode.lines_inj _ _ (nest_cat e3)
  simp only [cat, List.map_cons, List.map_nil, List.cons.injEq, List.append_cancel_left_eq, true_and, and_true] at e4
  obtain ⟨x4, x5, x6, x7, x8, x9, x10⟩ := e4
  replace x4 := versionText_inj x4
  replace x5 := Text.bds65NICSupplementA_identifies.inj x5
  replace x6 := Text.bds65NavigationalAccuracyCategoryPositionV2_identifies.inj x6
  replace x7 := Text.bds65SourceIntegrityLevel_identifies.inj x7
  replace x8 := Text.bds65SourceIntegrityLevelSupplement_identifies.inj x8
  replace x9 := Text.bds65TrackAngleHeading_identifies.inj x9
  replace x10 := Text.bds65HorizontalReferenceDirection_identifies.inj x10
  cases m; cases n
  simp only at x0 x1 x2 x3 x4 x5 x6 x7 x8 x9 x10
  subst x0 x1 x2 x3 x4 x5 x6 x7 x8 x9 x10
  rfl

theorem Status07.allLine (m : Status07) : AllLine (m.lines) :=
  (.cons (by decide +kernel) (by unfold OneLine; decide +kernel) (.cons (by decide +kernel) (Text.bds07TransmissionRateSubfield_identifies.line _) (.cons (by decide +kernel) (Text.bds07AltitudeTypeSubfield_identifies.line _) (.cons (by decide +kernel) (by unfold OneLine; decide) .nil))))

theorem Status07.lines_inj (m n : Status07)
    (e : (m.lines).map cat = (n.lines).map cat) : m = n := by
  unfold Status07.lines at e
  rename' e => e0
  simp only [cat, List.map_cons, List.map_nil, List.cons.injEq, List.append_cancel_left_eq, true_and, and_true] at e0
  obtain ⟨x0, x1⟩ := e0
  replace x0 := Text.bds07TransmissionRateSubfield_identifies.inj x0
  replace x1 := Text.bds07AltitudeTypeSubfield_identifies.inj x1
  cases m; cases n
  simp only at x0 x1
  subst x0 x1
  rfl

theorem DataLinkCapabilityReport.allLine (m : DataLinkCapabilityReport) : AllLine (m.lines) :=
  (.cons (by decide +kernel) (by unfold OneLine; decide +kernel) (.cons (by decide +kernel) (Text.bds10OverlayCommandCapability_identifies.line _) (.cons (by decide +kernel) (Text.bds10ACASStatus_identifies.line _) (.cons (by decide +kernel) (Text.bds10ModeSSubnetworkVersion_identifies.line _) (.cons (by decide +kernel) (Text.bds10TransponderEnhancedProtocolIndicator_identifies.line _) (.cons (by decide +kernel) (Text.bds10ModeSSpecificServicesCapability_identifies.line _) (.cons (by decide +kernel) (Text.bds10UplinkELMThroughputCapability_identifies.line _) (.cons (by decide +kernel) (Text.bds10DownlinkELMThroughputCapability_identifies.line _) (.cons (by decide +kernel) (Text.bds10AircraftIdentificationCapability_identifies.line _) (.cons (by decide +kernel) (Text.bds10SquitterCapabilitySubfield_identifies.line _) (.cons (by decide +kernel) (Text.bds10SurveillanceIdentifierCode_identifies.line _) (.cons (by decide +kernel) (Text.bds10CommonUsageGICBCapability_identifies.line _) (.cons (by decide +kernel) (Text.bds10ACASHybridSurveillanceCapability_identifies.line _) (.cons (by decide +kernel) (Text.bds10ACASGenerationCapability_identifies.line _) (.cons (by decide +kernel) (Text.bds10ACASApplicableDocument_identifies.line _) (.cons (by decide +kernel) (dteText_line _) (.cons (by decide +kernel) (by unfold OneLine; decide) .nil)))))))))))))))))

theorem DataLinkCapabilityReport.lines_inj (m n : DataLinkCapabilityReport)
    (e : (m.lines).map cat = (n.lines).map cat) : { m with continuationFlag := 0 } = { n with continuationFlag := 0 } := by
  unfold DataLinkCapabilityReport.lines at e
  rename' e => e0
  simp only [cat, List.map_cons, List.map_nil, List.cons.injEq, List.append_cancel_left_eq, true_and, and_true] at e0
  obtain ⟨x0, x1, x2, x3, x4, x5, x6, x7, x8, x9, x10, x11, x12, x13, x14⟩ := e0
  replace x0 := Text.bds10OverlayCommandCapability_identifies.inj x0
  replace x1 := Text.bds10ACASStatus_identifies.inj x1
  replace x2 := Text.bds10ModeSSubnetworkVersion_identifies.inj x2
  replace x3 := Text.bds10TransponderEnhancedProtocolIndicator_identifies.inj x3
  replace x4 := Text.bds10ModeSSpecificServicesCapability_identifies.inj x4
  replace x5 := Text.bds10UplinkELMThroughputCapability_identifies.inj x5
  replace x6 := Text.bds10DownlinkELMThroughputCapability_identifies.inj x6
  replace x7 := Text.bds10AircraftIdentificationCapability_identifies.inj x7
  replace x8 := Text.bds10SquitterCapabilitySubfield_identifies.inj x8
  replace x9 := Text.bds10SurveillanceIdentifierCode_identifies.inj x9
  replace x10 := Text.bds10CommonUsageGICBCapability_identifies.inj x10
  replace x11 := Text.bds10ACASHybridSurveillanceCapability_identifies.inj x11
  replace x12 := Text.bds10ACASGenerationCapability_identifies.inj x12
  replace x13 := Text.bds10ACASApplicableDocument_identifies.inj x13
  replace x14 := dteText_inj x14
  cases m; cases n
  simp only at x0 x1 x2 x3 x4 x5 x6 x7 x8 x9 x10 x11 x12 x13 x14
  subst x0 x1 x2 x3 x4 x5 x6 x7 x8 x9 x10 x11 x12 x13 x14
  rfl

theorem GICBCapabilityReport.allLine (m : GICBCapabilityReport) : AllLine (m.lines) :=
  (.cons (by decide +kernel) (by unfold OneLine; decide +kernel) (.cons (by decide +kernel) (oneLine_bool _) (.cons (by decide +kernel) (oneLine_bool _) (.cons (by decide +kernel) (oneLine_bool _) (.cons (by decide +kernel) (oneLine_bool _) (.cons (by decide +kernel) (oneLine_bool _) (.cons (by decide +kernel) (oneLine_bool _) (.cons (by decide +kernel) (oneLine_bool _) (.cons (by decide +kernel) (oneLine_bool _) (.cons (by decide +kernel) (oneLine_bool _) (.cons (by decide +kernel) (oneLine_bool _) (.cons (by decide +kernel) (oneLine_bool _) (.cons (by decide +kernel) (oneLine_bool _) (.cons (by decide +kernel) (oneLine_bool _) (.cons (by decide +kernel) (oneLine_bool _) (.cons (by decide +kernel) (oneLine_bool _) (.cons (by decide +kernel) (oneLine_bool _) (.cons (by decide +kernel) (oneLine_bool _) (.cons (by decide +kernel) (oneLine_bool _) (.cons (by decide +kernel) (oneLine_bool _) (.cons (by decide +kernel) (oneLine_bool _) (.cons (by decide +kernel) (oneLine_bool _) (.cons (by decide +kernel) (oneLine_bool _) (.cons (by decide +kernel) (oneLine_bool _) (.cons (by decide +kernel) (oneLine_bool _) (.cons (by decide +kernel) (oneLine_bool _) (.cons (by decide +kernel) (by unfold OneLine; decide) .nil)))))))))))))))))))))))))))

theorem GICBCapabilityReport.lines_inj (m n : GICBCapabilityReport)
    (e : (m.lines).map cat = (n.lines).map cat) : m = n := by
  unfold GICBCapabilityReport.lines at e
  rename' e => e0
  simp only [cat, List.map_cons, List.map_nil, List.cons.injEq, List.append_cancel_left_eq, true_and, and_true] at e0
  obtain ⟨x0, x1, x2, x3, x4, x5, x6, x7, x8, x9, x10, x11, x12, x13, x14, x15, x16, x17, x18, x19, x20, x21, x22, x23, x24⟩ := e0
  replace x0 := boolText_inj x0
  replace x1 := boolText_inj x1
  replace x2 := boolText_inj x2
  replace x3 := boolText_inj x3
  replace x4 := boolText_inj x4
  replace x5 := boolText_inj x5
  replace x6 := boolText_inj x6
  replace x7 := boolText_inj x7
  replace x8 := boolText_inj x8
  replace x9 := boolText_inj x9
  replace x10 := boolText_inj x10
  replace x11 := boolText_inj x11
  replace x12 := boolText_inj x12
  replace x13 := boolText_inj x13
  replace x14 := boolText_inj x14
  replace x15 := boolText_inj x15
  replace x16 := boolText_inj x16
  replace x17 := boolText_inj x17
  replace x18 := boolText_inj x18
  replace x19 := boolText_inj x19
  replace x20 := boolText_inj x20
  replace x21 := boolText_inj x21
  replace x22 := boolText_inj x22
  replace x23 := boolText_inj x23
  replace x24 := boolText_inj x24
  cases m; cases n
  simp only at x0 x1 x2 x3 x4 x5 x6 x7 x8 x9 x10 x11 x12 x13 x14 x15 x16 x17 x18 x19 x20 x21 x22 x23 x24
  subst x0 x1 x2 x3 x4 x5 x6 x7 x8 x9 x10 x11 x12 x13 x14 x15 x16 x17 x18 x19 x20 x21 x22 x23 x24
  rfl

/-- Facts about messages that were read. -/
def AircraftIdentification.Printable (m : AircraftIdentification) : Prop := 10 ∉ m.identification

theorem AircraftIdentification.allLine (m : AircraftIdentification) (hm : m.Printable) : AllLine (m.lines) :=
  (.cons (by decide +kernel) (by unfold OneLine; decide +kernel) (.cons (by decide +kernel) (asciiText_line hm) (.cons (by decide +kernel) (by unfold OneLine; decide) .nil)))

theorem AircraftIdentification.lines_inj (m n : AircraftIdentification) (hm : m.Printable) (hn : n.Printable)
    (e : (m.lines).map cat = (n.lines).map cat) : m = n := by
  unfold AircraftIdentification.lines at e
  rename' e => e0
  simp only [cat, List.map_cons, List.map_nil, List.cons.injEq, List.append_cancel_left_eq, true_and, and_true] at e0
  have x0 := e0
  replace x0 := asciiText_inj x0
  cases m; cases n
  simp only at x0
  subst x0
  rfl

theorem SelectedVerticalIntention.allLine (F : FloatTexts) (hF : F.Faithful) (m : SelectedVerticalIntention) : AllLine (m.lines F) :=
  (.cons (by decide +kernel) (by unfold OneLine; decide +kernel) (.cons (by decide +kernel) (oneLine_bool _) (.cons (by decide +kernel) (oneLine_dec _) (.cons (by decide +kernel) (oneLine_bool _) (.cons (by decide +kernel) (oneLine_dec _) (.cons (by decide +kernel) (oneLine_bool _) (.cons (by decide +kernel) (hF.line32 _) (.cons (by decide +kernel) (Text.bds40StatusOfModeBits_identifies.line _) (.cons (by decide +kernel) (oneLine_bool _) (.cons (by decide +kernel) (oneLine_bool _) (.cons (by decide +kernel) (oneLine_bool _) (.cons (by decide +kernel) (Text.bds40StatusOfTargetAltitudeSource_identifies.line _) (.cons (by decide +kernel) (Text.bds40TargetAltitudeSource_identifies.line _) .nil)))))))))))))

theorem SelectedVerticalIntention.lines_inj (F : FloatTexts) (hF : F.Faithful) (m n : SelectedVerticalIntention)
    (e : (m.lines F).map cat = (n.lines F).map cat) : m = n := by
  unfold SelectedVerticalIntention.lines at e
  rename' e => e0
  simp only [cat, List.map_cons, List.map_nil, List.cons.injEq, List.append_cancel_left_eq, true_and, and_true] at e0
  obtain ⟨x0, x1, x2, x3, x4, x5, x6, x7, x8, x9, x10, x11⟩ := e0
  replace x0 := boolText_inj x0
  replace x1 := UInt32.toNat_inj.1 (dec_inj x1)
  replace x2 := boolText_inj x2
  replace x3 := UInt32.toNat_inj.1 (dec_inj x3)
  replace x4 := boolText_inj x4
  replace x5 := hF.inj32 x5
  replace x6 := Text.bds40StatusOfModeBits_identifies.inj x6
  replace x7 := boolText_inj x7
  replace x8 := boolText_inj x8
  replace x9 := boolText_inj x9
  replace x10 := Text.bds40StatusOfTargetAltitudeSource_identifies.inj x10
  replace x11 := Text.bds40TargetAltitudeSource_identifies.inj x11
  cases m; cases n
  simp only at x0 x1 x2 x3 x4 x5 x6 x7 x8 x9 x10 x11
  subst x0 x1 x2 x3 x4 x5 x6 x7 x8 x9 x10 x11
  rfl

theorem RoutineAirReportV0.allLine (F : FloatTexts) (hF : F.Faithful) (m : RoutineAirReportV0) : AllLine (m.lines F) :=
  (.cons (by decide +kernel) (by unfold OneLine; decide +kernel) (.cons (by decide +kernel) (Text.bds44Source_identifies.line _) (.cons (by decide +kernel) (oneLine_bool _) (.cons (by decide +kernel) (oneLine_dec _) (.cons (by decide +kernel) (oneLine_bool _) (.cons (by decide +kernel) (hF.line32 _) (.cons (by decide +kernel) (hF.line32 _) (.cons (by decide +kernel) (oneLine_bool _) (.cons (by decide +kernel) (oneLine_dec _) (.cons (by decide +kernel) (oneLine_bool _) (.cons (by decide +kernel) (Text.bds44TurbulenceLevel_identifies.line _) (.cons (by decide +kernel) (oneLine_bool _) (.cons (by decide +kernel) (hF.line32 _) .nil)))))))))))))

theorem RoutineAirReportV0.lines_inj (F : FloatTexts) (hF : F.Faithful) (m n : RoutineAirReportV0)
    (e : (m.lines F).map cat = (n.lines F).map cat) : m = n := by
  unfold RoutineAirReportV0.lines at e
  rename' e => e0
  simp only [cat, List.map_cons, List.map_nil, List.cons.injEq, List.append_cancel_left_eq, true_and, and_true] at e0
  obtain ⟨x0, x1, x2, x3, x4, x5, x6, x7, x8, x9, x10, x11⟩ := e0
  replace x0 := Text.bds44Source_identifies.inj x0
  replace x1 := boolText_inj x1
  replace x2 := UInt32.toNat_inj.1 (dec_inj x2)
  replace x3 := boolText_inj x3
  replace x4 := hF.inj32 x4
  replace x5 := hF.inj32 x5
  replace x6 := boolText_inj x6
  replace x7 := UInt32.toNat_inj.1 (dec_inj x7)
  replace x8 := boolText_inj x8
  replace x9 := Text.bds44TurbulenceLevel_identifies.inj x9
  replace x10 := boolText_inj x10
  replace x11 := hF.inj32 x11
  cases m; cases n
  simp only at x0 x1 x2 x3 x4 x5 x6 x7 x8 x9 x10 x11
  subst x0 x1 x2 x3 x4 x5 x6 x7 x8 x9 x10 x11
  rfl

theorem RoutineAirReportV1.allLine (F : FloatTexts) (hF : F.Faithful) (m : RoutineAirReportV1) : AllLine (m.lines F) :=
  (.cons (by decide +kernel) (by unfold OneLine; decide +kernel) (.cons (by decide +kernel) (oneLine_bool _) (.cons (by decide +kernel) (oneLine_dec _) (.cons (by decide +kernel) (oneLine_bool _) (.cons (by decide +kernel) (hF.line32 _) (.cons (by decide +kernel) (oneLine_bool _) (.cons (by decide +kernel) (hF.line32 _) (.cons (by decide +kernel) (oneLine_bool _) (.cons (by decide +kernel) (oneLine_dec _) (.cons (by decide +kernel) (Text.bds44TurbulenceFlag_identifies.line _) (.cons (by decide +kernel) (oneLine_bool _) (.cons (by decide +kernel) (hF.line32 _) .nil))))))))))))

theorem RoutineAirReportV1.lines_inj (F : FloatTexts) (hF : F.Faithful) (m n : RoutineAirReportV1)
    (e : (m.lines F).map cat = (n.lines F).map cat) : m = n := by
  unfold RoutineAirReportV1.lines at e
  rename' e => e0
  simp only [cat, List.map_cons, List.map_nil, List.cons.injEq, List.append_cancel_left_eq, true_and, and_true] at e0
  obtain ⟨x0, x1, x2, x3, x4, x5, x6, x7, x8, x9, x10⟩ := e0
  replace x0 := boolText_inj x0
  replace x1 := UInt32.toNat_inj.1 (dec_inj x1)
  replace x2 := boolText_inj x2
  replace x3 := hF.inj32 x3
  replace x4 := boolText_inj x4
  replace x5 := hF.inj32 x5
  replace x6 := boolText_inj x6
  replace x7 := UInt32.toNat_inj.1 (dec_inj x7)
  replace x8 := Text.bds44TurbulenceFlag_identifies.inj x8
  replace x9 := boolText_inj x9
  replace x10 := hF.inj32 x10
  cases m; cases n
  simp only at x0 x1 x2 x3 x4 x5 x6 x7 x8 x9 x10
  subst x0 x1 x2 x3 x4 x5 x6 x7 x8 x9 x10
  rfl

theorem RoutineAirReportV2.allLine (F : FloatTexts) (hF : F.Faithful) (m : RoutineAirReportV2) : AllLine (m.lines F) :=
  (.cons (by decide +kernel) (by unfold OneLine; decide +kernel) (.cons (by decide +kernel) (Text.bds44Source_identifies.line _) (.cons (by decide +kernel) (oneLine_bool _) (.cons (by decide +kernel) (oneLine_dec _) (.cons (by decide +kernel) (oneLine_bool _) (.cons (by decide +kernel) (hF.line32 _) (.cons (by decide +kernel) (oneLine_bool _) (.cons (by decide +kernel) (hF.line32 _) (.cons (by decide +kernel) (oneLine_bool _) (.cons (by decide +kernel) (oneLine_dec _) (.cons (by decide +kernel) (Text.bds44TurbulenceFlag_identifies.line _) (.cons (by decide +kernel) (oneLine_bool _) (.cons (by decide +kernel) (hF.line32 _) .nil)))))))))))))

theorem RoutineAirReportV2.lines_inj (F : FloatTexts) (hF : F.Faithful) (m n : RoutineAirReportV2)
    (e : (m.lines F).map cat = (n.lines F).map cat) : m = n := by
  unfold RoutineAirReportV2.lines at e
  rename' e => e0
  simp only [cat, List.map_cons, List.map_nil, List.cons.injEq, List.append_cancel_left_eq, true_and, and_true] at e0
  obtain ⟨x0, x1, x2, x3, x4, x5, x6, x7, x8, x9, x10, x11⟩ := e0
  replace x0 := Text.bds44Source_identifies.inj x0
  replace x1 := boolText_inj x1
  replace x2 := UInt32.toNat_inj.1 (dec_inj x2)
  replace x3 := boolText_inj x3
  replace x4 := hF.inj32 x4
  replace x5 := boolText_inj x5
  replace x6 := hF.inj32 x6
  replace x7 := boolText_inj x7
  replace x8 := UInt32.toNat_inj.1 (dec_inj x8)
  replace x9 := Text.bds44TurbulenceFlag_identifies.inj x9
  replace x10 := boolText_inj x10
  replace x11 := hF.inj32 x11
  cases m; cases n
  simp only at x0 x1 x2 x3 x4 x5 x6 x7 x8 x9 x10 x11
  subst x0 x1 x2 x3 x4 x5 x6 x7 x8 x9 x10 x11
  rfl

theorem HazardReportV0.allLine (F : FloatTexts) (hF : F.Faithful) (m : HazardReportV0) : AllLine (m.lines F) :=
  (.cons (by decide +kernel) (by unfold OneLine; decide +kernel) (.cons (by decide +kernel) (oneLine_bool _) (.cons (by decide +kernel) (Text.bds45HazardLevel_identifies.line _) (.cons (by decide +kernel) (oneLine_bool _) (.cons (by decide +kernel) (Text.bds45HazardLevel_identifies.line _) (.cons (by decide +kernel) (oneLine_bool _) (.cons (by decide +kernel) (Text.bds45HazardLevel_identifies.line _) (.cons (by decide +kernel) (oneLine_bool _) (.cons (by decide +kernel) (Text.bds45HazardLevel_identifies.line _) (.cons (by decide +kernel) (oneLine_bool _) (.cons (by decide +kernel) (Text.bds45HazardLevel_identifies.line _) (.cons (by decide +kernel) (oneLine_bool _) (.cons (by decide +kernel) (hF.line32 _) (.cons (by decide +kernel) (oneLine_bool _) (.cons (by decide +kernel) (oneLine_dec _) (.cons (by decide +kernel) (oneLine_bool _) (.cons (by decide +kernel) (oneLine_dec _) .nil)))))))))))))))))

theorem HazardReportV0.lines_inj (F : FloatTexts) (hF : F.Faithful) (m n : HazardReportV0)
    (e : (m.lines F).map cat = (n.lines F).map cat) : m = n := by
  unfold HazardReportV0.lines at e
  rename' e => e0
  simp only [cat, List.map_cons, List.map_nil, List.cons.injEq, List.append_cancel_left_eq, true_and, and_true] at e0
  obtain ⟨x0, x1, x2, x3, x4, x5, x6, x7, x8, x9, x10, x11, x12, x13, x14, x15⟩ := e0
  replace x0 := boolText_inj x0
  replace x1 := Text.bds45HazardLevel_identifies.inj x1
  replace x2 := boolText_inj x2
  replace x3 := Text.bds45HazardLevel_identifies.inj x3
  replace x4 := boolText_inj x4
  replace x5 := Text.bds45HazardLevel_identifies.inj x5
  replace x6 := boolText_inj x6
  replace x7 := Text.bds45HazardLevel_identifies.inj x7
  replace x8 := boolText_inj x8
  replace x9 := Text.bds45HazardLevel_identifies.inj x9
  replace x10 := boolText_inj x10
  replace x11 := hF.inj32 x11
  replace x12 := boolText_inj x12
  replace x13 := UInt32.toNat_inj.1 (dec_inj x13)
  replace x14 := boolText_inj x14
  replace x15 := UInt32.toNat_inj.1 (dec_inj x15)
  cases m; cases n
  simp only at x0 x1 x2 x3 x4 x5 x6 x7 x8 x9 x10 x11 x12 x13 x14 x15
  subst x0 x1 x2 x3 x4 x5 x6 x7 x8 x9 x10 x11 x12 x13 x14 x15
  rfl

theorem HazardReportV1.allLine (F : FloatTexts) (hF : F.Faithful) (m : HazardReportV1) : AllLine (m.lines F) :=
  (.cons (by decide +kernel) (by unfold OneLine; decide +kernel) (.cons (by decide +kernel) (oneLine_bool _) (.cons (by decide +kernel) (Text.bds45HazardLevel_identifies.line _) (.cons (by decide +kernel) (oneLine_bool _) (.cons (by decide +kernel) (Text.bds45HazardLevel_identifies.line _) (.cons (by decide +kernel) (oneLine_bool _) (.cons (by decide +kernel) (Text.bds45HazardLevel_identifies.line _) (.cons (by decide +kernel) (oneLine_bool _) (.cons (by decide +kernel) (Text.bds45HazardLevel_identifies.line _) (.cons (by decide +kernel) (oneLine_bool _) (.cons (by decide +kernel) (hF.line32 _) (.cons (by decide +kernel) (oneLine_bool _) (.cons (by decide +kernel) (oneLine_dec _) (.cons (by decide +kernel) (oneLine_bool _) (.cons (by decide +kernel) (oneLine_dec _) (.cons (by decide +kernel) (oneLine_bool _) (.cons (by decide +kernel) (hF.line32 _) (.cons (by decide +kernel) (hF.line32 _) (.cons (by decide +kernel) (oneLine_dec _) .nil)))))))))))))))))))

theorem HazardReportV1.lines_inj (F : FloatTexts) (hF : F.Faithful) (m n : HazardReportV1)
    (e : (m.lines F).map cat = (n.lines F).map cat) : m = n := by
  unfold HazardReportV1.lines at e
  rename' e => e0
  simp only [cat, List.map_cons, List.map_nil, List.cons.injEq, List.append_cancel_left_eq, true_and, and_true] at e0
  obtain ⟨x0, x1, x2, x3, x4, x5, x6, x7, x8, x9, x10, x11, x12, x13, x14, x15, x16, x17⟩ := e0
  replace x0 := boolText_inj x0
  replace x1 := Text.bds45HazardLevel_identifies.inj x1
  replace x2 := boolText_inj x2
  replace x3 := Text.bds45HazardLevel_identifies.inj x3
  replace x4 := boolText_inj x4
  replace x5 := Text.bds45HazardLevel_identifies.inj x5
  replace x6 := boolText_inj x6
  replace x7 := Text.bds45HazardLevel_identifies.inj x7
  replace x8 := boolText_inj x8
  replace x9 := hF.inj32 x9
  replace x10 := boolText_inj x10
  replace x11 := UInt32.toNat_inj.1 (dec_inj x11)
  replace x12 := boolText_inj x12
  replace x13 := UInt32.toNat_inj.1 (dec_inj x13)
  replace x14 := boolText_inj x14
  replace x15 := hF.inj32 x15
  replace x16 := hF.inj32 x16
  replace x17 := UInt8.toNat_inj.1 (dec_inj x17)
  cases m; cases n
  simp only at x0 x1 x2 x3 x4 x5 x6 x7 x8 x9 x10 x11 x12 x13 x14 x15 x16 x17
  subst x0 x1 x2 x3 x4 x5 x6 x7 x8 x9 x10 x11 x12 x13 x14 x15 x16 x17
  rfl

theorem TrackAndTurnReport.allLine (F : FloatTexts) (hF : F.Faithful) (m : TrackAndTurnReport) : AllLine (m.lines F) :=
  (.cons (by decide +kernel) (by unfold OneLine; decide +kernel) (.cons (by decide +kernel) (oneLine_bool _) (.cons (by decide +kernel) (hF.line32 _) (.cons (by decide +kernel) (oneLine_bool _) (.cons (by decide +kernel) (hF.line32 _) (.cons (by decide +kernel) (oneLine_bool _) (.cons (by decide +kernel) (oneLine_dec _) (.cons (by decide +kernel) (oneLine_bool _) (.cons (by decide +kernel) (hF.line32 _) (.cons (by decide +kernel) (oneLine_bool _) (.cons (by decide +kernel) (oneLine_dec _) .nil)))))))))))

theorem TrackAndTurnReport.lines_inj (F : FloatTexts) (hF : F.Faithful) (m n : TrackAndTurnReport)
    (e : (m.lines F).map cat = (n.lines F).map cat) : m = n := by
  unfold TrackAndTurnReport.lines at e
  rename' e => e0
  simp only [cat, List.map_cons, List.map_nil, List.cons.injEq, List.append_cancel_left_eq, true_and, and_true] at e0
  obtain ⟨x0, x1, x2, x3, x4, x5, x6, x7, x8, x9⟩ := e0
  replace x0 := boolText_inj x0
  replace x1 := hF.inj32 x1
  replace x2 := boolText_inj x2
  replace x3 := hF.inj32 x3
  replace x4 := boolText_inj x4
  replace x5 := UInt32.toNat_inj.1 (dec_inj x5)
  replace x6 := boolText_inj x6
  replace x7 := hF.inj32 x7
  replace x8 := boolText_inj x8
  replace x9 := UInt32.toNat_inj.1 (dec_inj x9)
  cases m; cases n
  simp only at x0 x1 x2 x3 x4 x5 x6 x7 x8 x9
  subst x0 x1 x2 x3 x4 x5 x6 x7 x8 x9
  rfl

theorem HeadingAndTrackReport.allLine (F : FloatTexts) (hF : F.Faithful) (m : HeadingAndTrackReport) : AllLine (m.lines F) :=
  (.cons (by decide +kernel) (by unfold OneLine; decide +kernel) (.cons (by decide +kernel) (oneLine_bool _) (.cons (by decide +kernel) (hF.line32 _) (.cons (by decide +kernel) (oneLine_bool _) (.cons (by decide +kernel) (oneLine_dec _) (.cons (by decide +kernel) (oneLine_bool _) (.cons (by decide +kernel) (hF.line32 _) (.cons (by decide +kernel) (oneLine_bool _) (.cons (by decide +kernel) (oneLine_decInt _) (.cons (by decide +kernel) (oneLine_bool _) (.cons (by decide +kernel) (oneLine_decInt _) .nil)))))))))))

theorem HeadingAndTrackReport.lines_inj (F : FloatTexts) (hF : F.Faithful) (m n : HeadingAndTrackReport)
    (e : (m.lines F).map cat = (n.lines F).map cat) : m = n := by
  unfold HeadingAndTrackReport.lines at e
  rename' e => e0
  simp only [cat, List.map_cons, List.map_nil, List.cons.injEq, List.append_cancel_left_eq, true_and, and_true] at e0
  obtain ⟨x0, x1, x2, x3, x4, x5, x6, x7, x8, x9⟩ := e0
  replace x0 := boolText_inj x0
  replace x1 := hF.inj32 x1
  replace x2 := boolText_inj x2
  replace x3 := UInt32.toNat_inj.1 (dec_inj x3)
  replace x4 := boolText_inj x4
  replace x5 := hF.inj32 x5
  replace x6 := boolText_inj x6
  replace x7 := decInt_inj x7
  replace x8 := boolText_inj x8
  replace x9 := decInt_inj x9
  cases m; cases n
  simp only at x0 x1 x2 x3 x4 x5 x6 x7 x8 x9
  subst x0 x1 x2 x3 x4 x5 x6 x7 x8 x9
  rfl

/-- The first line of each kind of ADS-B message and the first characters of all its lines. -/
def adsbSig : Nat → Option Txt × List Txt
  | 0 => (some (t! "Message:                           No Position Information"), [t! "Message:    ", t! "Format Type ", t! "Altitude Bar", t! "Navigation I"])
  | 1 => (some (t! "Message:                           BDS 0,5 - Extended squitter airborne position"), [t! "Message:    ", t! "Format Type ", t! "Surveillance", t! "Single Anten", t! "Altitude Sou", t! "Altitude Rep", t! "Altitude (fe", t! "Time:       ", t! "Compact Posi", t! "Encoded Lati", t! "Encoded Long", t! "Navigation I"])
  | 2 => (some (t! "Message:                           BDS 0,5 - Extended squitter airborne position"), [t! "Message:    ", t! "Format Type ", t! "Surveillance", t! "Single Anten", t! "Altitude Sou", t! "Altitude Rep", t! "Altitude (fe", t! "Time:       ", t! "Compact Posi", t! "Encoded Lati", t! "Encoded Long", t! "Horizontal P", t! "Containment "])
  | 3 => (some (t! "Message:                           BDS 0,5 - Extended squitter airborne position"), [t! "Message:    ", t! "Format Type ", t! "Surveillance", t! "Single Anten", t! "Altitude Sou", t! "Altitude Rep", t! "Altitude (fe", t! "Time:       ", t! "Compact Posi", t! "Encoded Lati", t! "Encoded Long", t! "Navigation I", t! "Horizontal C", t! "Navigation I"])
  | 4 => (some (t! "Message:                           BDS 0,5 - Extended squitter airborne position"), [t! "Message:    ", t! "Format Type ", t! "Surveillance", t! "Single Anten", t! "Altitude Sou", t! "Altitude Rep", t! "Altitude (fe", t! "Time:       ", t! "Compact Posi", t! "Encoded Lati", t! "Encoded Long", t! "Navigation I", t! "Navigation I", t! "Horizontal C", t! "Navigation I"])
  | 5 => (some (t! "Message:                           BDS 0,6 - Extended squitter surface position"), [t! "Message:    ", t! "Format Type ", t! "Movement Sta", t! "Movement Spe", t! "Ground Track", t! "Ground Track", t! "Time:       ", t! "Compact Posi", t! "Encoded Lati", t! "Encoded Long", t! "Horizontal P", t! "Containment "])
  | 6 => (some (t! "Message:                           BDS 0,6 - Extended squitter surface position"), [t! "Message:    ", t! "Format Type ", t! "Movement Sta", t! "Movement Spe", t! "Ground Track", t! "Ground Track", t! "Time:       ", t! "Compact Posi", t! "Encoded Lati", t! "Encoded Long", t! "Navigation I", t! "Horizontal C", t! "Navigation I"])
  | 7 => (some (t! "Message:                           BDS 0,6 - Extended squitter surface position"), [t! "Message:    ", t! "Format Type ", t! "Movement Sta", t! "Movement Spe", t! "Ground Track", t! "Ground Track", t! "Time:       ", t! "Compact Posi", t! "Encoded Lati", t! "Encoded Long", t! "Navigation I", t! "Navigation I", t! "Horizontal C", t! "Navigation I"])
  | 8 => (some (t! "Message:                           BDS 0,9 - Extended squitter airborne velocity"), [t! "Message:    ", t! "Subtype:    ", t! "Intent Chang", t! "IFR Capabili", t! "Navigation U", t! "Direction EW", t! "Velocity EW ", t! "Velocity EW ", t! "Direction NS", t! "Velocity NS ", t! "Velocity NS ", t! "Vertical Rat", t! "Vertical Rat", t! "Vertical Rat", t! "Difference A", t! "Difference A", t! "Computed Spe", t! "Computed Tra"])
  | 9 => (some (t! "Message:                             BDS 0,9 - Extended squitter airborne velocity"), [t! "Message:    ", t! "Subtype:    ", t! "Intent Chang", t! "IFR Capabili", t! "Navigation U", t! "Magnetic Hea", t! "Magnetic Hea", t! "Air Speed St", t! "Air Speed (k", t! "Vertical Rat", t! "Vertical Rat", t! "Vertical Rat", t! "Geom. Height", t! "Geom. Height"])
  | 10 => (some (t! "Message:                           BDS 0,8 - Extended squitter aircraft identification and category"), [t! "Message:    ", t! "Format Type ", t! "Category:   ", t! "Identificati"])
  | 11 => (some (t! "Message:                   BDS 6,1 - Extended squitter emergency/priority status"), [t! "Message:    ", t! "Subtype:    ", t! "Emergency St"])
  | 12 => (some (t! "Message:                   BDS 6,1 - Extended squitter emergency/priority status"), [t! "Message:    ", t! "Subtype:    ", t! "Emergeny Sta"])
  | 13 => (some (t! "Message:                                      BDS 6,2 - Target state and status information"), [t! "Message:    ", t! "Subtype:    ", t! "Vertical Dat", t! "Target Altit", t! "Target Altit", t! "Vertical Mod", t! "Target Altit", t! "Target Altit", t! "Horizontal D", t! "Target Headi", t! "Target Headi", t! "Target Headi", t! "Horizontal M", t! "Navigation A", t! "Navigation I", t! "Surveillance", t! "Probability ", t! "Capability /", t! "Emergency / "])
  | 14 => (some (t! "Message:                                       BDS 6,2 - Target state and status information"), [t! "Message:    ", t! "Subtype:    ", t! "Selected Alt", t! "Selected Alt", t! "Selected Alt", t! "Barometric P", t! "Barometric P", t! "Selected Hea", t! "Selected Hea", t! "Navigation A", t! "Navigation I", t! "Source Integ", t! "Source Integ", t! "Status of MC", t! "Autopilot En", t! "VNAV Mode En", t! "Altitude Hol", t! "Approach Mod", t! "LNAV Mode En", t! "TCAS / ACAS "])
  | 15 => (some (t! "Message:                                        BDS 6,5 - Extended squitter aircraft operational status"), [t! "Message:    ", t! "En Route Ope", t! "En Route Ope", t! "Terminal Are", t! "Terminal Are", t! "Approach/Lan", t! "Approach/Lan", t! "SubtypeSurfa", t! "SubtypeSurfa"])
  | 16 => (some (t! "Message:                                 BDS 6,5 - Extended squitter aircraft operational status"), [t! "Message:    ", t! "Subtype:    ", t! "Airborne Cap", t! "    Not ACAS", t! "    Cockpit ", t! "    Air Refe", t! "    Target S", t! "    Target C", t! "Operational ", t! "    ACAS Res", t! "    Ident Sw", t! "    Receivin", t! "ADSB Version", t! "NIC Suppleme", t! "Navigational", t! "Surveillance", t! "    Probabil", t! "    Probabil", t! "NIC Baro:   ", t! "Horizontal R"])
  | 17 => (some (t! "Message:                                 BDS 6,5 - Extended squitter aircraft operational status"), [t! "Message:    ", t! "Subtype:    ", t! "SubtypeAirbo", t! "    ACAS Ope", t! "    1090ES I", t! "    ARV (Air", t! "    Target S", t! "    Target C", t! "    UAT IN (", t! "Operational ", t! "    ACAS Res", t! "    Ident Sw", t! "    Single A", t! "    System D", t! "ADSB Version", t! "NIC Suppleme", t! "Navigational", t! "Geometric Ve", t! "Source Integ", t! "Source Integ", t! "NIC Baro:   ", t! "Horizontal R"])
  | 18 => (some (t! "Message:                                 BDS 6,5 - Extended squitter aircraft operational status"), [t! "Message:    ", t! "Subtype:    ", t! "SubtypeAirbo", t! "    Position", t! "    Cockpit ", t! "    B2Low:  ", t! "Aircraft Len", t! "Operational ", t! "    ACAS Res", t! "    Ident Sw", t! "    Receivin", t! "ADSB Version", t! "NIC Suppleme", t! "Navigational", t! "Surveillance", t! "    Probabil", t! "    Probabil", t! "NIC Baro:   ", t! "Horizontal R"])
  | 19 => (some (t! "Message:                                 BDS 6,5 - Extended squitter aircraft operational status"), [t! "Message:    ", t! "Subtype:    ", t! "SubtypeAirbo", t! "    1090ES I", t! "    B2 Low (", t! "    UAT IN (", t! "    NACV (Na", t! "    NIC Supp", t! "Aircraft Len", t! "Operational ", t! "    ACAS Res", t! "    Ident Sw", t! "    Single A", t! "    System D", t! "    GPS Ante", t! "        Long", t! "ADSB Version", t! "NIC Suppleme", t! "Navigational", t! "Source Integ", t! "Source Integ", t! "NIC Baro:   ", t! "Horizontal R"])
  | 20 => (some (t! "Message:                   BDS 6,1 - Extended squitter emergency/priority status"), [t! "Message:    ", t! "Subtype:    ", t! "ACAS Data:  ", t! "Active Resol", t! "    Type: On", t! "    Preventi", t! "    Sense ge", t! "    Is incre", t! "    Is sense", t! "    Is altit", t! "    Vertical", t! "Active Resol", t! "    Do not p", t! "    Do not p", t! "    Do not t", t! "    Do not t", t! "Active Resol", t! "Multiple Thr", t! "Threat Type "])
  | 21 => (some (t! "Message:                   BDS 6,1 - Extended squitter emergency/priority status"), [t! "Message:    ", t! "Subtype:    ", t! "ACAS Data:  ", t! "Active Resol", t! "    Type: On", t! "    Preventi", t! "    Sense ge", t! "    Is incre", t! "    Is sense", t! "    Is altit", t! "    Vertical", t! "Active Resol", t! "    Do not p", t! "    Do not p", t! "    Do not t", t! "    Do not t", t! "Active Resol", t! "Multiple Thr", t! "Threat Type ", t! "Threat Mode-"])
  | 22 => (some (t! "Message:                   BDS 6,1 - Extended squitter emergency/priority status"), [t! "Message:    ", t! "Subtype:    ", t! "ACAS Data:  ", t! "Active Resol", t! "    Type: On", t! "    Preventi", t! "    Sense ge", t! "    Is incre", t! "    Is sense", t! "    Is altit", t! "    Vertical", t! "Active Resol", t! "    Do not p", t! "    Do not p", t! "    Do not t", t! "    Do not t", t! "Active Resol", t! "Multiple Thr", t! "Threat Type ", t! "Threat Altit", t! "Threat Range", t! "Threat Beari"])
  | 23 => (some (t! "Message:                   BDS 6,1 - Extended squitter emergency/priority status"), [t! "Message:    ", t! "Subtype:    ", t! "ACAS Data:  ", t! "Active Resol", t! "    Type: Mu", t! "    Require ", t! "    Requires", t! "    Requires", t! "    Requires", t! "    Requires", t! "    Is a sen", t! "Active Resol", t! "    Do not p", t! "    Do not p", t! "    Do not t", t! "    Do not t", t! "Active Resol", t! "Multiple Thr", t! "Threat Type "])
  | 24 => (some (t! "Message:                   BDS 6,1 - Extended squitter emergency/priority status"), [t! "Message:    ", t! "Subtype:    ", t! "ACAS Data:  ", t! "Active Resol", t! "    Type: Mu", t! "    Require ", t! "    Requires", t! "    Requires", t! "    Requires", t! "    Requires", t! "    Is a sen", t! "Active Resol", t! "    Do not p", t! "    Do not p", t! "    Do not t", t! "    Do not t", t! "Active Resol", t! "Multiple Thr", t! "Threat Type ", t! "Threat Mode-"])
  | 25 => (some (t! "Message:                   BDS 6,1 - Extended squitter emergency/priority status"), [t! "Message:    ", t! "Subtype:    ", t! "ACAS Data:  ", t! "Active Resol", t! "    Type: Mu", t! "    Require ", t! "    Requires", t! "    Requires", t! "    Requires", t! "    Requires", t! "    Is a sen", t! "Active Resol", t! "    Do not p", t! "    Do not p", t! "    Do not t", t! "    Do not t", t! "Active Resol", t! "Multiple Thr", t! "Threat Type ", t! "Threat Altit", t! "Threat Range", t! "Threat Beari"])
  | 26 => (some (t! "Message:                   BDS 6,1 - Extended squitter emergency/priority status"), [t! "Message:    ", t! "Subtype:    ", t! "ACAS Data:  ", t! "Active Resol", t! "    Type: no", t! "Active Resol", t! "    Do not p", t! "    Do not p", t! "    Do not t", t! "    Do not t", t! "Active Resol", t! "Multiple Thr", t! "Threat Type "])
  | 27 => (some (t! "Message:                   BDS 6,1 - Extended squitter emergency/priority status"), [t! "Message:    ", t! "Subtype:    ", t! "ACAS Data:  ", t! "Active Resol", t! "    Type: no", t! "Active Resol", t! "    Do not p", t! "    Do not p", t! "    Do not t", t! "    Do not t", t! "Active Resol", t! "Multiple Thr", t! "Threat Type ", t! "Threat Mode-"])
  | 28 => (some (t! "Message:                   BDS 6,1 - Extended squitter emergency/priority status"), [t! "Message:    ", t! "Subtype:    ", t! "ACAS Data:  ", t! "Active Resol", t! "    Type: no", t! "Active Resol", t! "    Do not p", t! "    Do not p", t! "    Do not t", t! "    Do not t", t! "Active Resol", t! "Multiple Thr", t! "Threat Type ", t! "Threat Altit", t! "Threat Range", t! "Threat Beari"])
  | _ => (none, [])

/-- The first line of each kind of Comm-B message and the first characters of all its lines. -/
def commBSig : Nat → Option Txt × List Txt
  | 0 => (some (t! "Message:                   BDS 0,0 - No message waiting for transmission"), [t! "Message:    "])
  | 1 => (some (t! "Message:                                 BDS 0,7 -  Extended squitter status"), [t! "Message:    ", t! "Transmission", t! "Altitude Typ", t! ""])
  | 2 => (some (t! "Message:                                 BDS 2,0 - Aircraft identification"), [t! "Message:    ", t! "Identificati", t! ""])
  | 3 => (some (t! "Message:                                 BDS 1,0 - Data link capability report"), [t! "Message:    ", t! "Continuation", t! "ACAS Status ", t! "ModeS Subnet", t! "Transponder ", t! "ModeS Specif", t! "Uplink ELM T", t! "Downlink ELM", t! "Aircraft Ide", t! "Squitter Cap", t! "Surveillance", t! "Common Usage", t! "ACAS Hybrid ", t! "ACAS Generat", t! "ACAS Applica", t! "DTE SubAddre", t! ""])
  | 4 => (some (t! "Message:                                             BDS 1,7 - Common usage GICB capability report"), [t! "Message:    ", t! "0,5 Extended", t! "0,6 Extended", t! "0,7 Extended", t! "0,8 Extended", t! "0,9 Extended", t! "0,A Extended", t! "2,0 Aircraft", t! "2,l Aircraft", t! "4,0 Selected", t! "4,l Next way", t! "4,2 Next way", t! "4,3 Next way", t! "4,4 Meteorol", t! "4,5 Meteorol", t! "4.8 VHF chan", t! "5,0 Track an", t! "5,1 Position", t! "5,2 Position", t! "5,3 Air-refe", t! "5,4 Waypoint", t! "5,5 Waypoint", t! "5,6 Waypoint", t! "5,F Quasi-st", t! "6,0 Heading ", t! "F,1 Military", t! ""])
  | 5 => (some (t! "Message:                               BDS 4,0 - Selected vertical intention"), [t! "Message:    ", t! "MCP/FCU Sele", t! "MCP/FCU Sele", t! "FMS Selected", t! "FMS Selected", t! "Barometric P", t! "Barometric P", t! "Status Of Mo", t! "VNAV Mode:  ", t! "Altitude Hol", t! "Approach Mod", t! "Status Of Ta", t! "Target Altit"])
  | 6 => (some (t! "Message:                            BDS 4,4 - Meteorological routine air report"), [t! "Message:    ", t! "Source:     ", t! "Wind Speed S", t! "Wind Speed (", t! "Wind Directi", t! "Wind Directi", t! "Static Air T", t! "Average Stat", t! "Average Stat", t! "Turbulence S", t! "Turbulence: ", t! "Humidity Sta", t! "Humidity (%)"])
  | 7 => (some (t! "Message:                            BDS 4,4 - Meteorological routine air report"), [t! "Message:    ", t! "Wind Speed S", t! "Wind Speed (", t! "Wind Directi", t! "Wind Directi", t! "Static Air T", t! "Static Air T", t! "Average Stat", t! "Average Stat", t! "Turbulence F", t! "Humidity Sta", t! "Humidity (%)"])
  | 8 => (some (t! "Message:                            BDS 4,4 - Meteorological routine air report"), [t! "Message:    ", t! "Source:     ", t! "Wind Speed S", t! "Wind Speed (", t! "Wind Directi", t! "Wind Directi", t! "Static Air T", t! "Static Air T", t! "Average Stat", t! "Average Stat", t! "Turbulence F", t! "Humidity Sta", t! "Humidity (%)"])
  | 9 => (some (t! "Message:                            BDS 4,5 - Meteorological hazard report"), [t! "Message:    ", t! "Turbulence S", t! "Turbulence: ", t! "Wind Shear S", t! "Wind Shear: ", t! "Micro Burst ", t! "Micro Burst:", t! "Icing Status", t! "Icing:      ", t! "Wake Vortex ", t! "Wake Vortex:", t! "Static Air T", t! "Static Air T", t! "Average Stat", t! "Average Stat", t! "Radio Height", t! "Radio Height"])
  | 10 => (some (t! "Message:                              BDS 4,5 - Meteorological hazard report"), [t! "Message:    ", t! "Wind Shear S", t! "Wind Shear: ", t! "Micro Burst ", t! "Micro Burst:", t! "Icing Status", t! "Icing:      ", t! "Wake Vortex ", t! "Wake Vortex:", t! "Static Air T", t! "Static Air T", t! "Average Stat", t! "Average Stat", t! "Radio Height", t! "Radio Height", t! "Turbulence S", t! "Average Turb", t! "Peak Turbule", t! "Turbulence P"])
  | 11 => (some (t! "Message:                               BDS 5,0 - Track and turn report"), [t! "Message:    ", t! "Roll Angle S", t! "Roll Angle (", t! "True Track A", t! "True Track (", t! "Ground Speed", t! "Ground Speed", t! "Track Angle ", t! "Track Angle ", t! "True Air Spe", t! "True Air Spe"])
  | 12 => (some (t! "Message:                                  BDS 6,0 - Heading and speed report"), [t! "Message:    ", t! "Magnetic Hea", t! "Magnetic Hea", t! "Indicated Ai", t! "Indicated Ai", t! "Mach Status:", t! "Mach:       ", t! "Barometric A", t! "Barometric A", t! "Inertial Ver", t! "Inertial Ver"])
  | 13 => (some (t! "Message:                   BDS 3,0 - ACAS active resolution advisory"), [t! "Message:    ", t! "ACAS Data:  ", t! "Active Resol", t! "    Type: On", t! "    Preventi", t! "    Sense ge", t! "    Is incre", t! "    Is sense", t! "    Is altit", t! "    Vertical", t! "Active Resol", t! "    Do not p", t! "    Do not p", t! "    Do not t", t! "    Do not t", t! "Active Resol", t! "Multiple Thr", t! "Threat Type "])
  | 14 => (some (t! "Message:                   BDS 3,0 - ACAS active resolution advisory"), [t! "Message:    ", t! "ACAS Data:  ", t! "Active Resol", t! "    Type: On", t! "    Preventi", t! "    Sense ge", t! "    Is incre", t! "    Is sense", t! "    Is altit", t! "    Vertical", t! "Active Resol", t! "    Do not p", t! "    Do not p", t! "    Do not t", t! "    Do not t", t! "Active Resol", t! "Multiple Thr", t! "Threat Type ", t! "Threat Mode-"])
  | 15 => (some (t! "Message:                   BDS 3,0 - ACAS active resolution advisory"), [t! "Message:    ", t! "ACAS Data:  ", t! "Active Resol", t! "    Type: On", t! "    Preventi", t! "    Sense ge", t! "    Is incre", t! "    Is sense", t! "    Is altit", t! "    Vertical", t! "Active Resol", t! "    Do not p", t! "    Do not p", t! "    Do not t", t! "    Do not t", t! "Active Resol", t! "Multiple Thr", t! "Threat Type ", t! "Threat Altit", t! "Threat Range", t! "Threat Beari"])
  | 16 => (some (t! "Message:                   BDS 3,0 - ACAS active resolution advisory"), [t! "Message:    ", t! "ACAS Data:  ", t! "Active Resol", t! "    Type: Mu", t! "    Require ", t! "    Requires", t! "    Requires", t! "    Requires", t! "    Requires", t! "    Is a sen", t! "Active Resol", t! "    Do not p", t! "    Do not p", t! "    Do not t", t! "    Do not t", t! "Active Resol", t! "Multiple Thr", t! "Threat Type "])
  | 17 => (some (t! "Message:                   BDS 3,0 - ACAS active resolution advisory"), [t! "Message:    ", t! "ACAS Data:  ", t! "Active Resol", t! "    Type: Mu", t! "    Require ", t! "    Requires", t! "    Requires", t! "    Requires", t! "    Requires", t! "    Is a sen", t! "Active Resol", t! "    Do not p", t! "    Do not p", t! "    Do not t", t! "    Do not t", t! "Active Resol", t! "Multiple Thr", t! "Threat Type ", t! "Threat Mode-"])
  | 18 => (some (t! "Message:                   BDS 3,0 - ACAS active resolution advisory"), [t! "Message:    ", t! "ACAS Data:  ", t! "Active Resol", t! "    Type: Mu", t! "    Require ", t! "    Requires", t! "    Requires", t! "    Requires", t! "    Requires", t! "    Is a sen", t! "Active Resol", t! "    Do not p", t! "    Do not p", t! "    Do not t", t! "    Do not t", t! "Active Resol", t! "Multiple Thr", t! "Threat Type ", t! "Threat Altit", t! "Threat Range", t! "Threat Beari"])
  | 19 => (some (t! "Message:                   BDS 3,0 - ACAS active resolution advisory"), [t! "Message:    ", t! "ACAS Data:  ", t! "Active Resol", t! "    Type: no", t! "Active Resol", t! "    Do not p", t! "    Do not p", t! "    Do not t", t! "    Do not t", t! "Active Resol", t! "Multiple Thr", t! "Threat Type "])
  | 20 => (some (t! "Message:                   BDS 3,0 - ACAS active resolution advisory"), [t! "Message:    ", t! "ACAS Data:  ", t! "Active Resol", t! "    Type: no", t! "Active Resol", t! "    Do not p", t! "    Do not p", t! "    Do not t", t! "    Do not t", t! "Active Resol", t! "Multiple Thr", t! "Threat Type ", t! "Threat Mode-"])
  | 21 => (some (t! "Message:                   BDS 3,0 - ACAS active resolution advisory"), [t! "Message:    ", t! "ACAS Data:  ", t! "Active Resol", t! "    Type: no", t! "Active Resol", t! "    Do not p", t! "    Do not p", t! "    Do not t", t! "    Do not t", t! "Active Resol", t! "Multiple Thr", t! "Threat Type ", t! "Threat Altit", t! "Threat Range", t! "Threat Beari"])
  | _ => (none, [])

end Modes
