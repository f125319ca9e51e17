/-- What is assumed of the printing of floating point numbers: different numbers have different texts, without line breaks. Go prints
the shortest decimal that reads back as the same number, so this holds (`goFloats_faithful`). -/
structure FloatTexts.Faithful (F : FloatTexts) : Prop where
  inj32 : Function.Injective F.float32
  line32 : ∀ x, OneLine (F.float32 x)
  line64 : ∀ x, OneLine (F.float64 x)
  lineDegrees : ∀ x, OneLine (F.degrees x)
  lineMinusZero : OneLine F.minusZero
  minusZero_ne : ∀ x, F.float32 x ≠ F.minusZero

theorem FloatTexts.Faithful.lineSigned {F : FloatTexts} (hF : F.Faithful) (b : Bool) (x : ℚ) : OneLine (F.signed b x) := by
  unfold FloatTexts.signed
  split
  · exact hF.lineMinusZero
  · exact hF.line32 _

theorem FloatTexts.Faithful.signed_inj {F : FloatTexts} (hF : F.Faithful) {b c : Bool} {x y : ℚ} (hb : x ≠ 0 → (b = true ↔ x < 0))
    (hc : y ≠ 0 → (c = true ↔ y < 0)) (h : F.signed b x = F.signed c y) : b = c ∧ x = y := by
  unfold FloatTexts.signed at h
  split at h
  · rename_i e
    split at h
    · rename_i e'
      exact ⟨e.1.trans e'.1.symm, e.2.trans e'.2.symm⟩
    · exact absurd h.symm (hF.minusZero_ne y)
  · rename_i e
    split at h
    · exact absurd h (hF.minusZero_ne x)
    · rename_i e'
      have hxy := hF.inj32 h
      subst hxy
      refine ⟨?_, rfl⟩
      by_cases hx : x = 0
      · cases b <;> cases c <;> simp_all
      · have := (hb hx).trans (hc hx).symm
        cases b <;> cases c <;> simp_all

theorem gpsText_identifies : Identifies gpsAntennaLongitudinalText := by
  have space : ∀ (n : Nat) (r : Txt), (dec n ++ ' ' :: r).takeWhile Char.isDigit = dec n := span_digits
  have head : ∀ d : UInt8, (gpsAntennaLongitudinalText d).takeWhile Char.isDigit = dec d.toNat := by
    intro d
    unfold gpsAntennaLongitudinalText
    split
    · rename_i h; subst h; decide +kernel
    · split
      · rename_i h; subst h; decide +kernel
      · split
        · simp only [List.append_assoc, List.cons_append]
          exact span_digits _ _
        · exact span_digits _ _
  refine ⟨fun a b h => ?_, fun c => ?_⟩
  · have := congrArg (List.takeWhile Char.isDigit) h
    rw [head, head] at this
    exact UInt8.toNat_inj.1 (dec_inj this)
  · unfold gpsAntennaLongitudinalText
    split
    · unfold OneLine; decide
    · split
      · unfold OneLine; decide
      · split
        · exact ((oneLine_dec _).append (by unfold OneLine; decide)).append (oneLine_dec _)
        · exact (oneLine_dec _).append (by unfold OneLine; decide)

theorem small4 {x : UInt8} (h : x.toNat < 4) : x = 0 ∨ x = 1 ∨ x = 2 ∨ x = 3 := by
  simp only [← UInt8.toNat_inj]
  have : (0 : UInt8).toNat = 0 ∧ (1 : UInt8).toNat = 1 ∧ (2 : UInt8).toNat = 2 ∧ (3 : UInt8).toNat = 3 := by decide
  omega

theorem allLine_of {l : List (Txt × Txt)} (h : (l.all fun x => !(cat x).contains '\n') = true) : AllLine l := by
  intro x hx
  have := List.all_eq_true.1 h x hx
  simpa [OneLine] using this

theorem sil_allLine (x : UInt8) (h : x.toNat < 4) : AllLine (silLines x) := by
  rcases small4 h with rfl | rfl | rfl | rfl <;> exact allLine_of (by decide +kernel)

theorem sil62_allLine (x : UInt8) (h : x.toNat < 4) : AllLine (sil62Lines x) := by
  rcases small4 h with rfl | rfl | rfl | rfl <;> exact allLine_of (by decide +kernel)

theorem sil_inj {x y : UInt8} (hx : x.toNat < 4) (hy : y.toNat < 4) (h : (silLines x).map cat = (silLines y).map cat) : x = y := by
  rcases small4 hx with rfl | rfl | rfl | rfl <;> rcases small4 hy with rfl | rfl | rfl | rfl <;>
    first | rfl | exact absurd h (by decide +kernel)

theorem sil62_inj {x y : UInt8} (hx : x.toNat < 4) (hy : y.toNat < 4)
    (h : (labelled (t! "Surveillance Integrity ReaderLevel:           ") (sil62Lines x)).map cat =
      (labelled (t! "Surveillance Integrity ReaderLevel:           ") (sil62Lines y)).map cat) : x = y := by
  rcases small4 hx with rfl | rfl | rfl | rfl <;> rcases small4 hy with rfl | rfl | rfl | rfl <;>
    first | rfl | exact absurd h (by decide +kernel)

theorem sil_length {x y : UInt8} (hx : x.toNat < 4) (hy : y.toNat < 4) :
    ((nest (silLines x)).map cat).length = ((nest (silLines y)).map cat).length := by
  rcases small4 hx with rfl | rfl | rfl | rfl <;> rcases small4 hy with rfl | rfl | rfl | rfl <;> rfl

theorem sil62_length {x y : UInt8} (hx : x.toNat < 4) (hy : y.toNat < 4) {l : Txt} :
    ((labelled l (sil62Lines x)).map cat).length = ((labelled l (sil62Lines y)).map cat).length := by
  rcases small4 hx with rfl | rfl | rfl | rfl <;> rcases small4 hy with rfl | rfl | rfl | rfl <;> rfl

theorem gps_allLine (m : SurfaceOperationalMode) : AllLine m.gpsLines :=
  .cons (by decide +kernel) (Text.bds65GPSAntennaLateral_identifies.line _) (.cons (by decide +kernel)
    (gpsText_identifies.line _) .nil)

theorem labelled_cat {l : Txt} {a b : List (Txt × Txt)} (ha : a ≠ []) (hb : b ≠ [])
    (h : (labelled l a).map cat = (labelled l b).map cat) : a.map cat = b.map cat := by
  cases a with
  | nil => exact absurd rfl ha
  | cons x a =>
    cases b with
    | nil => exact absurd rfl hb
    | cons y b =>
      simp only [labelled, List.map_cons, List.cons.injEq] at h ⊢
      refine ⟨?_, h.2⟩
      have := h.1
      unfold cat at this ⊢
      rw [List.append_assoc, List.append_assoc] at this
      exact List.append_cancel_left this

theorem gps_inj {m n : SurfaceOperationalMode} {l : Txt}
    (h : (labelled l (nest m.gpsLines)).map cat = (labelled l (nest n.gpsLines)).map cat) :
    m.gpsAntennaLateral = n.gpsAntennaLateral ∧ m.gpsAntennaLongitudinal = n.gpsAntennaLongitudinal := by
  have e := nest_cat (labelled_cat (by simp [nest, SurfaceOperationalMode.gpsLines])
    (by simp [nest, SurfaceOperationalMode.gpsLines]) h)
  simp only [SurfaceOperationalMode.gpsLines, cat, List.map_cons, List.map_nil, List.cons.injEq,
    List.append_cancel_left_eq, and_true] at e
  exact ⟨Text.bds65GPSAntennaLateral_identifies.inj e.1, gpsText_identifies.inj e.2⟩

theorem speedText_line (m : GroundSpeedVelocity) : OneLine m.speedText := by
  unfold GroundSpeedVelocity.speedText
  split
  · exact (oneLine_dec _).append (by unfold OneLine; decide)
  · refine OneLine.append (by unfold OneLine; decide) ?_
    split <;> (unfold OneLine; decide)

theorem trackText_line (F : FloatTexts) (hF : F.Faithful) (m : GroundSpeedVelocity) : OneLine (m.trackText F) := by
  unfold GroundSpeedVelocity.trackText
  split
  · refine OneLine.append ?_ (by unfold OneLine; decide)
    split
    · exact hF.lineMinusZero
    · exact hF.lineDegrees _
  · refine OneLine.append (by unfold OneLine; decide) ?_
    split <;> (unfold OneLine; decide)

/-- A bit as a character. -/
def bitChar (d : UInt16) (i : Nat) : Char := if d.toNat.testBit i then '1' else '0'

/-- One digit for each of the sixteen bits. -/
theorem dteText_eq (d : UInt16) : dteText d =
    [bitChar d 15, ',', ' ', bitChar d 14, ',', ' ', bitChar d 13, ',', ' ', bitChar d 12, ',', ' ', bitChar d 11, ',', ' ', bitChar d 10, ',', ' ', bitChar d 9, ',', ' ', bitChar d 8, ',', ' ', bitChar d 7, ',', ' ', bitChar d 6, ',', ' ', bitChar d 5, ',', ' ', bitChar d 4, ',', ' ', bitChar d 3, ',', ' ', bitChar d 2, ',', ' ', bitChar d 1, ',', ' ', bitChar d 0] := by
  have e : ∀ i < 16, dec ((d >>> UInt16.ofNat (15 - i)) &&& 0x01).toNat = [bitChar d (15 - i)] := by
    intro i hi
    have e : ((d >>> UInt16.ofNat (15 - i)) &&& 1).toNat = if d.toNat.testBit (15 - i) then 1 else 0 := by
      rw [UInt16.toNat_and, UInt16.toNat_shiftRight, UInt16.toNat_ofNat']
      rw [show (15 - i) % 2 ^ 16 % 16 = 15 - i by omega]
      rw [show (1 : UInt16).toNat = 1 from rfl, Nat.and_one_is_mod, Nat.testBit, Nat.one_and_eq_mod_two]
      have := Nat.mod_two_eq_zero_or_one (d.toNat >>> (15 - i))
      rcases this with h | h <;> simp [h]
    have e' : (0x01 : UInt16) = 1 := rfl
    rw [e', e]
    unfold bitChar
    split <;> decide
  unfold dteText
  rw [List.map_congr_left (fun i hi => e i (List.mem_range.1 hi))]
  rfl

theorem bitChar_inj {a b : UInt16} {i : Nat} (h : bitChar a i = bitChar b i) : a.toNat.testBit i = b.toNat.testBit i := by
  have g : ∀ x y : Bool, (if x then '1' else '0') = (if y then '1' else '0') → x = y := by decide
  exact g _ _ h

theorem dteText_inj {a b : UInt16} (h : dteText a = dteText b) : a = b := by
  rw [dteText_eq, dteText_eq] at h
  simp only [List.cons.injEq, and_true, true_and] at h
  obtain ⟨h15, h14, h13, h12, h11, h10, h9, h8, h7, h6, h5, h4, h3, h2, h1, h0⟩ := h
  apply UInt16.toNat_inj.1
  apply Nat.eq_of_testBit_eq
  intro i
  by_cases hi : i < 16
  · rcases i with _ | _ | _ | _ | _ | _ | _ | _ | _ | _ | _ | _ | _ | _ | _ | _ | i
    all_goals first | (apply bitChar_inj; assumption) | omega
  · rw [Nat.testBit_lt_two_pow (Nat.lt_of_lt_of_le a.toNat_lt (Nat.pow_le_pow_right (by omega) (by omega))),
      Nat.testBit_lt_two_pow (Nat.lt_of_lt_of_le b.toNat_lt (Nat.pow_le_pow_right (by omega) (by omega)))]

theorem dteText_line (d : UInt16) : OneLine (dteText d) := by
  have g : ∀ x : Bool, '\n' ≠ (if x then '1' else '0') := by decide
  have g : ∀ i, '\n' ≠ bitChar d i := fun i => g _
  rw [dteText_eq]
  unfold OneLine
  simp [g]

