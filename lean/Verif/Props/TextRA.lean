import Verif.Props.TextFields
import Verif.Props.ACAS
import Verif.Props.Main
/-!
# Text of a resolution advisory
-/
namespace Modes
open Spec

/-- `PrefixMultiLine` on a text made of lines: every line is indented. -/
theorem prefix_linesText (l : List (Txt × Txt)) (hne : l ≠ []) (h : AllLine l) :
    prefixMultiLine (linesText l) (t! "    ") = linesText (nest l) := by
  rw [linesText_eq, linesText_eq, prefix_lines _ (by simpa using hne)]
  · congr 1
    unfold nest
    rw [List.map_map, List.map_map]
    refine List.map_congr_left fun x _ => ?_
    simp only [Function.comp_def, cat, List.append_assoc]
  · intro x hx
    obtain ⟨y, hy, rfl⟩ := List.mem_map.1 hx
    exact h y hy

/-- Two texts that go on with a space. -/
theorem upto_space {a b r s : Txt} (ha : ' ' ∉ a) (hb : ' ' ∉ b) (h : a ++ ' ' :: r = b ++ ' ' :: s) : a = b ∧ r = s := by
  induction a generalizing b with
  | nil =>
    cases b with
    | nil => exact ⟨rfl, (List.cons.inj h).2⟩
    | cons c b => exact absurd ((List.cons.inj h).1 ▸ List.mem_cons_self) hb
  | cons c a ih =>
    cases b with
    | nil => exact absurd ((List.cons.inj h).1 ▸ List.mem_cons_self) ha
    | cons d b =>
      have := ih (fun hm => ha (List.mem_cons_of_mem _ hm)) (fun hm => hb (List.mem_cons_of_mem _ hm)) (List.cons.inj h).2
      exact ⟨by rw [(List.cons.inj h).1, this.1], this.2⟩

theorem space_decInt (n : Int) : ' ' ∉ decInt n := by
  cases n with
  | ofNat n => exact not_mem_dec rfl
  | negSucc n =>
    intro h
    rcases List.mem_cons.1 h with h | h
    · exact absurd h (by decide)
    · exact not_mem_dec rfl h

theorem threatAltitudeText_inj {a b : ThreatAltitude} (h : a.text = b.text) : a = b := by
  unfold ThreatAltitude.text at h
  rw [List.append_assoc, List.append_assoc] at h
  obtain ⟨h1, h2⟩ := upto_space (space_decInt _) (space_decInt _) h
  have h3 := Text.acasAltitudeStatus_identifies.inj (List.append_cancel_left (as := t! "ft / Status: ") h2)
  cases a; cases b
  simp only at h3 h1
  rw [h3, decInt_inj h1]

theorem threatAltitudeText_line (a : ThreatAltitude) : OneLine a.text :=
  OneLine.append (OneLine.append (oneLine_decInt _) (by unfold OneLine; decide)) (Text.acasAltitudeStatus_identifies.line _)

theorem numbered_inj {a b : Nat} {r s : Txt} (h : dec a ++ ' ' :: r = dec b ++ ' ' :: s) : a = b := by
  have e := congrArg (List.takeWhile Char.isDigit) h
  rw [span_digits, span_digits] at e
  exact dec_inj e

/-- The text of a range starts with its code, except for three codes. -/
theorem threatRangeText_cases (F : FloatTexts) (r : UInt8) :
    (r = 0 ∧ threatRangeText F r = t! " 0 - No range estimate available") ∨
    (r = 1 ∧ threatRangeText F r = t! " 1 - Less than 0.05") ∨
    (r = 127 ∧ threatRangeText F r = t! "Greater than 12.55") ∨
    (∃ s, threatRangeText F r = dec r.toNat ++ ' ' :: s) := by
  unfold threatRangeText
  split
  · next h => exact Or.inl ⟨h, rfl⟩
  split
  · next h => exact Or.inr (Or.inl ⟨h, rfl⟩)
  split
  · exact Or.inr (Or.inr (Or.inr ⟨t! "- " ++ (F.float64 (getRange r) ++ t! " +/- 0.05 NM"), by
      rw [List.append_assoc, List.append_assoc]; rfl⟩))
  split
  · next h => exact Or.inr (Or.inr (Or.inl ⟨h, rfl⟩))
  · exact Or.inr (Or.inr (Or.inr ⟨_, rfl⟩))

theorem threatBearingText_cases (b : UInt8) :
    (b = 0 ∧ threatBearingText b = t! " 0 - No bearing estimate available") ∨
    (∃ s, threatBearingText b = dec b.toNat ++ ' ' :: s) := by
  unfold threatBearingText
  split
  · next h => exact Or.inl ⟨h, rfl⟩
  split
  · exact Or.inr ⟨t! "- between " ++ (dec ((b - 1) * 6).toNat ++ (t! " and " ++ dec (b * 6).toNat)), by
      rw [List.append_assoc, List.append_assoc, List.append_assoc]; rfl⟩
  split
  · exact Or.inr ⟨_, rfl⟩
  · exact Or.inr ⟨_, rfl⟩

/-- A text that starts with a number does not start with something else. -/
theorem dec_head_ne {n : Nat} {c : Char} {r s : Txt} (hc : c.isDigit = false) : c :: r ≠ dec n ++ s := by
  intro h
  cases hd : dec n with
  | nil => exact dec_ne_nil n hd
  | cons d t =>
    rw [hd] at h
    have : d.isDigit = true := dec_digit (hd ▸ List.mem_cons_self)
    rw [← (List.cons.inj h).1, hc] at this
    cases this

theorem threatRangeText_inj (F : FloatTexts) {r s : UInt8} (h : threatRangeText F r = threatRangeText F s) : r = s := by
  rcases threatRangeText_cases F r with ⟨rfl, e⟩ | ⟨rfl, e⟩ | ⟨rfl, e⟩ | ⟨x, e⟩ <;>
    rcases threatRangeText_cases F s with ⟨rfl, e'⟩ | ⟨rfl, e'⟩ | ⟨rfl, e'⟩ | ⟨y, e'⟩ <;>
    first
    | rfl
    | (rw [e, e'] at h; exact absurd h (by decide))
    | (rw [e, e'] at h; exact absurd h (dec_head_ne rfl))
    | (rw [e, e'] at h; exact absurd h.symm (dec_head_ne rfl))
    | (rw [e, e'] at h; exact UInt8.toNat_inj.1 (numbered_inj h))

theorem threatBearingText_inj {r s : UInt8} (h : threatBearingText r = threatBearingText s) : r = s := by
  rcases threatBearingText_cases r with ⟨rfl, e⟩ | ⟨x, e⟩ <;>
    rcases threatBearingText_cases s with ⟨rfl, e'⟩ | ⟨y, e'⟩ <;>
    first
    | rfl
    | (rw [e, e'] at h; exact absurd h (by decide))
    | (rw [e, e'] at h; exact absurd h (dec_head_ne rfl))
    | (rw [e, e'] at h; exact absurd h.symm (dec_head_ne rfl))
    | (rw [e, e'] at h; exact UInt8.toNat_inj.1 (numbered_inj h))

theorem threatRangeText_line (F : FloatTexts) (hF : F.Faithful) (r : UInt8) : OneLine (threatRangeText F r) := by
  unfold threatRangeText
  split
  · unfold OneLine; decide
  split
  · unfold OneLine; decide
  split
  · exact OneLine.append (OneLine.append (OneLine.append (oneLine_dec _) (by unfold OneLine; decide)) (hF.line64 _))
      (by unfold OneLine; decide)
  split
  · unfold OneLine; decide
  · exact OneLine.append (oneLine_dec _) (by unfold OneLine; decide)

theorem threatBearingText_line (b : UInt8) : OneLine (threatBearingText b) := by
  unfold threatBearingText
  split
  · unfold OneLine; decide
  split
  · exact OneLine.append (OneLine.append (OneLine.append (OneLine.append (oneLine_dec _) (by unfold OneLine; decide))
      (oneLine_dec _)) (by unfold OneLine; decide)) (oneLine_dec _)
  split
  · exact OneLine.append (oneLine_dec _) (by unfold OneLine; decide)
  · exact OneLine.append (oneLine_dec _) (by unfold OneLine; decide)

theorem ActiveRA.allLine (m : ActiveRA) (h : ∀ o, m = .oneThreat o → o.Printable) : AllLine m.lines := by
  cases m with
  | oneThreat o => exact o.allLine (h o rfl)
  | multiple o => exact o.allLine
  | none => exact .cons (by decide +kernel) (by unfold OneLine; decide) .nil

/-- The threat data of an advisory that was read. -/
def ResolutionAdvisory.ThreatShape (m : ResolutionAdvisory) : Prop :=
  (m.threatTypeIndicator = 1 ∧ (∃ a, a.toNat < 2 ^ 24 ∧ m.threatIdentityAddress = some a) ∧ m.threatIdentityAltitude = none ∧
    m.threatIdentityRange = none ∧ m.threatIdentityBearing = none) ∨
  (m.threatTypeIndicator = 2 ∧ m.threatIdentityAddress = none ∧ (∃ a, m.threatIdentityAltitude = some a) ∧
    (∃ r, m.threatIdentityRange = some r) ∧ ∃ b, m.threatIdentityBearing = some b) ∨
  (m.threatTypeIndicator ≠ 1 ∧ m.threatTypeIndicator ≠ 2 ∧ m.threatIdentityAddress = none ∧ m.threatIdentityAltitude = none ∧
    m.threatIdentityRange = none ∧ m.threatIdentityBearing = none)

/-- Facts about advisories that were read. -/
def ResolutionAdvisory.Printable (m : ResolutionAdvisory) : Prop :=
  (∀ o, m.activeRA = .oneThreat o → o.Printable) ∧ m.raTerminatedIndicator < 256 ∧ m.threatTypeIndicator < 256 ∧ m.ThreatShape

theorem ResolutionAdvisory.threatLines_allLine (F : FloatTexts) (hF : F.Faithful) (m : ResolutionAdvisory) (hm : m.ThreatShape) :
    AllLine (m.threatLines F) := by
  unfold ResolutionAdvisory.threatLines
  rcases hm with ⟨h, ⟨a, -, ha⟩, -⟩ | ⟨h, -, ⟨a, ha⟩, ⟨r, hr⟩, b, hb⟩ | ⟨h1, h2, -⟩
  · rw [h, ha]
    exact .cons (by decide +kernel) (OneLine.append (oneLine_address _) (by unfold OneLine; decide)) .nil
  · rw [h, ha, hr, hb]
    exact .cons (by decide +kernel) (threatAltitudeText_line _) (.cons (by decide +kernel) (threatRangeText_line F hF _)
      (.cons (by decide +kernel) (threatBearingText_line _) .nil))
  · rw [if_neg h1, if_neg h2]
    split <;> exact .nil

theorem ResolutionAdvisory.allLine (F : FloatTexts) (hF : F.Faithful) (m : ResolutionAdvisory) (hm : m.Printable) :
    AllLine (m.lines F) := by
  obtain ⟨h1, -, -, h4⟩ := hm
  refine .append (.append (.append (.append (.append ?_ ?_) ?_) ?_) ?_) ?_
  · exact .cons (by decide +kernel) (by unfold OneLine; decide) .nil
  · exact (m.activeRA.allLine h1).nest
  · exact .cons (by decide +kernel) (by unfold OneLine; decide) .nil
  · exact m.raComplement.allLine.nest
  · exact .cons (by decide +kernel) (Text.acasRATerminatedIndicator_identifies.line _) (.cons (by decide +kernel)
      (Text.acasMultipleThreatEncounter_identifies.line _) (.cons (by decide +kernel)
      (Text.acasThreatTypeIndicator_identifies.line _) .nil))
  · exact m.threatLines_allLine F hF h4

/-- An active advisory without the sense, which the text does not show. -/
def ActiveRA.shown : ActiveRA → ActiveRA
  | .oneThreat m => .oneThreat { m with sense := 0 }
  | a => a

/-- An advisory without the sense. -/
def ResolutionAdvisory.shown (m : ResolutionAdvisory) : ResolutionAdvisory := { m with activeRA := m.activeRA.shown }

theorem ActiveRA.lines_prefix (a b : ActiveRA) (ha : ∀ o, a = .oneThreat o → o.Printable) (hb : ∀ o, b = .oneThreat o → o.Printable)
    (r s : List Txt) (h : (nest a.lines).map cat ++ r = (nest b.lines).map cat ++ s) : a.shown = b.shown ∧ r = s := by
  have differ : ∀ (a b : List (Txt × Txt)) (r s : List Txt), a ≠ [] → b ≠ [] → (a.map cat).head? ≠ (b.map cat).head? →
      (nest a).map cat ++ r ≠ (nest b).map cat ++ s := by
    intro a b r s ha hb hd h
    cases a with
    | nil => exact ha rfl
    | cons x a =>
      cases b with
      | nil => exact hb rfl
      | cons y b =>
        have := (List.cons.inj h).1
        unfold cat at this
        rw [List.append_assoc, List.append_assoc] at this
        exact hd (by simpa [cat] using List.append_cancel_left this)
  cases a with
  | oneThreat m =>
    cases b with
    | oneThreat n =>
      obtain ⟨h1, h2⟩ := List.append_inj h rfl
      exact ⟨congrArg ActiveRA.oneThreat (OneThreat.lines_inj m n (ha m rfl) (hb n rfl) (nest_cat h1)), h2⟩
    | multiple n => exact absurd h (differ _ _ _ _ (by simp [ActiveRA.lines, OneThreat.lines])
        (by simp [ActiveRA.lines, MultipleThreats.lines]) (by
          simp only [ActiveRA.lines, OneThreat.lines, MultipleThreats.lines, List.map_cons, List.head?_cons]; decide))
    | none => exact absurd h (differ _ _ _ _ (by simp [ActiveRA.lines, OneThreat.lines])
        (by simp [ActiveRA.lines]) (by
          simp only [ActiveRA.lines, OneThreat.lines, List.map_cons, List.head?_cons]; decide))
  | multiple m =>
    cases b with
    | multiple n =>
      obtain ⟨h1, h2⟩ := List.append_inj h rfl
      exact ⟨congrArg ActiveRA.multiple (MultipleThreats.lines_inj m n (nest_cat h1)), h2⟩
    | oneThreat n => exact absurd h (differ _ _ _ _ (by simp [ActiveRA.lines, MultipleThreats.lines])
        (by simp [ActiveRA.lines, OneThreat.lines]) (by
          simp only [ActiveRA.lines, OneThreat.lines, MultipleThreats.lines, List.map_cons, List.head?_cons]; decide))
    | none => exact absurd h (differ _ _ _ _ (by simp [ActiveRA.lines, MultipleThreats.lines])
        (by simp [ActiveRA.lines]) (by
          simp only [ActiveRA.lines, MultipleThreats.lines, List.map_cons, List.head?_cons]; decide))
  | none =>
    cases b with
    | none => exact ⟨rfl, (List.append_inj h rfl).2⟩
    | oneThreat n => exact absurd h (differ _ _ _ _ (by simp [ActiveRA.lines])
        (by simp [ActiveRA.lines, OneThreat.lines]) (by
          simp only [ActiveRA.lines, OneThreat.lines, List.map_cons, List.head?_cons]; decide))
    | multiple n => exact absurd h (differ _ _ _ _ (by simp [ActiveRA.lines])
        (by simp [ActiveRA.lines, MultipleThreats.lines]) (by
          simp only [ActiveRA.lines, MultipleThreats.lines, List.map_cons, List.head?_cons]; decide))

theorem ResolutionAdvisory.threatLines_inj (F : FloatTexts) (m n : ResolutionAdvisory) (hm : m.ThreatShape) (hn : n.ThreatShape)
    (ht : m.threatTypeIndicator = n.threatTypeIndicator) (h : (m.threatLines F).map cat = (n.threatLines F).map cat) :
    m.threatIdentityAddress = n.threatIdentityAddress ∧ m.threatIdentityAltitude = n.threatIdentityAltitude ∧
    m.threatIdentityRange = n.threatIdentityRange ∧ m.threatIdentityBearing = n.threatIdentityBearing := by
  unfold ResolutionAdvisory.threatLines at h
  rcases hm with ⟨h1, ⟨a, ha', ha⟩, m2, m3, m4⟩ | ⟨h1, m2, ⟨a, ha⟩, ⟨r, hr⟩, b, hb⟩ | ⟨h1, h2, m1, m2, m3, m4⟩
  · rw [h1] at ht
    rcases hn with ⟨k1, ⟨c, hc', hc⟩, n2, n3, n4⟩ | ⟨k1, -⟩ | ⟨k1, -⟩
    · rw [h1, k1, ha, hc] at h
      simp only [reduceIte, Nat.one_ne_zero, cat, List.map_cons, List.map_nil, List.cons.injEq, List.append_cancel_left_eq,
        and_true] at h
      rw [ha, hc, m2, m3, m4, n2, n3, n4, addressAnnouncedText_inj ha' hc' (List.append_cancel_right h)]
      exact ⟨rfl, rfl, rfl, rfl⟩
    · omega
    · omega
  · rw [h1] at ht
    rcases hn with ⟨k1, -⟩ | ⟨k1, n2, ⟨c, hc⟩, ⟨s, hs⟩, d, hd⟩ | ⟨-, k1, -⟩
    · omega
    · rw [h1, k1, ha, hc, hr, hs, hb, hd] at h
      simp only [reduceIte, OfNat.ofNat_ne_zero, Nat.reduceEqDiff, List.cons_append, List.nil_append, cat, List.map_cons,
        List.map_nil, List.cons.injEq, List.append_cancel_left_eq, true_and, and_true] at h
      rw [ha, hc, hr, hs, hb, hd, m2, n2, threatAltitudeText_inj h.1, threatRangeText_inj F h.2.1, threatBearingText_inj h.2.2]
      exact ⟨rfl, rfl, rfl, rfl⟩
    · omega
  · rcases hn with ⟨k1, -⟩ | ⟨k1, -⟩ | ⟨-, -, n1, n2, n3, n4⟩
    · omega
    · omega
    · rw [m1, m2, m3, m4, n1, n2, n3, n4]
      exact ⟨rfl, rfl, rfl, rfl⟩

theorem ResolutionAdvisory.lines_inj (F : FloatTexts) (m n : ResolutionAdvisory) (hm : m.Printable) (hn : n.Printable)
    (h : (m.lines F).map cat = (n.lines F).map cat) : m.shown = n.shown := by
  unfold ResolutionAdvisory.lines at h
  simp only [List.map_append, List.append_assoc] at h
  obtain ⟨-, h⟩ := List.append_inj h rfl
  obtain ⟨e1, h⟩ := ActiveRA.lines_prefix _ _ hm.1 hn.1 _ _ h
  obtain ⟨-, h⟩ := List.append_inj h rfl
  obtain ⟨e2, h⟩ := List.append_inj h rfl
  obtain ⟨e3, h⟩ := List.append_inj h rfl
  replace e2 := RAComplement.lines_inj _ _ (nest_cat e2)
  simp only [cat, List.map_cons, List.map_nil, List.cons.injEq, List.append_cancel_left_eq, and_true] at e3
  obtain ⟨x1, x2, x3⟩ := e3
  replace x1 := ofNat_inj hm.2.1 hn.2.1 (Text.acasRATerminatedIndicator_identifies.inj x1)
  replace x2 := Text.acasMultipleThreatEncounter_identifies.inj x2
  replace x3 := ofNat_inj hm.2.2.1 hn.2.2.1 (Text.acasThreatTypeIndicator_identifies.inj x3)
  obtain ⟨y1, y2, y3, y4⟩ := ResolutionAdvisory.threatLines_inj F m n hm.2.2.2 hn.2.2.2 x3 h
  unfold ResolutionAdvisory.shown
  rw [e1, e2, x1, x2, x3, y1, y2, y3, y4]

/-- Advisories that were read can be printed. -/
theorem ra_printable (d : List UInt8) (m : ResolutionAdvisory) (h : readResolutionAdvisory d = .ok m) : m.Printable := by
  obtain ⟨c1, c2, c3, -, c5, -, c7⟩ := ra_content d m h
  have b2 : ∀ i, bits d i i < 256 := fun i => by unfold bits; exact Nat.lt_of_lt_of_le (Nat.mod_lt _ (by simp)) (by simp)
  have b21 : bits d 21 22 < 256 := by unfold bits; exact Nat.lt_of_lt_of_le (Nat.mod_lt _ (by decide)) (by decide)
  refine ⟨?_, by rw [c5]; exact b2 _, by rw [c7]; exact b21, ?_⟩
  · intro o ho
    cases e1 : bit d 1 with
    | true => rw [c1 e1] at ho; injection ho with ho; rw [← ho]; exact ⟨b2 _, b2 _⟩
    | false =>
      cases e20 : bit d 20 with
      | true => rw [c2 e1 e20] at ho; cases ho
      | false => rw [c3 e1 e20] at ho; cases ho
  · unfold ResolutionAdvisory.ThreatShape
    obtain ⟨-, ⟨t, rfl⟩ | ⟨t, a, rfl⟩ | ⟨t1, t2, rfl⟩⟩ := ra_ok d m h
    · refine Or.inl ⟨t, ⟨_, ?_, rfl⟩, rfl, rfl, rfl⟩
      have : bits d 23 46 < 2 ^ 24 := by unfold bits; exact Nat.mod_lt _ (by decide)
      rw [UInt32.toNat_ofNat']; omega
    · exact Or.inr (Or.inl ⟨t, rfl, ⟨_, rfl⟩, ⟨_, rfl⟩, _, rfl⟩)
    · exact Or.inr (Or.inr ⟨t1, t2, rfl, rfl, rfl, rfl⟩)

end Modes
