import Verif.Model.TextRegisters
import Verif.Props.Texts
import Verif.Props.TextModeS
import Verif.Spec.Text
/-!
# Lemmas about texts of several lines
-/
namespace Modes
open Spec

/-- A line: the label and the value. -/
def cat (x : Txt × Txt) : Txt := x.1 ++ x.2

/-- Every entry is one line. -/
def AllLine (l : List (Txt × Txt)) : Prop := ∀ x ∈ l, OneLine (cat x)

theorem AllLine.nil : AllLine [] := fun x h => by simp at h

theorem AllLine.cons {a b : Txt} {l : List (Txt × Txt)} (ha : ('\n' ∈ a) = False) (hb : OneLine b) (h : AllLine l) :
    AllLine ((a, b) :: l) := by
  intro x hx
  rcases List.mem_cons.1 hx with rfl | hx
  · exact OneLine.append (fun h => by rw [ha] at h; exact h) hb
  · exact h x hx

theorem AllLine.append {a b : List (Txt × Txt)} (ha : AllLine a) (hb : AllLine b) : AllLine (a ++ b) := by
  intro x hx
  rcases List.mem_append.1 hx with hx | hx
  · exact ha x hx
  · exact hb x hx

theorem AllLine.nest {a : List (Txt × Txt)} (ha : AllLine a) : AllLine (Modes.nest a) := by
  intro x hx
  obtain ⟨y, hy, rfl⟩ := List.mem_map.1 hx
  have := ha y hy
  unfold cat at *
  rw [List.append_assoc]
  exact OneLine.append (by unfold OneLine; decide) this

theorem AllLine.labelled {a : List (Txt × Txt)} {l : Txt} (hl : ('\n' ∈ l) = False) (ha : AllLine a) :
    AllLine (Modes.labelled l a) := by
  have h : OneLine l := fun h => by rw [hl] at h; exact h
  cases a with
  | nil =>
    intro x hx
    simp only [Modes.labelled, List.mem_cons, List.not_mem_nil, or_false] at hx
    subst hx
    exact OneLine.append h (by unfold OneLine; simp)
  | cons y a =>
    intro x hx
    rcases List.mem_cons.1 hx with rfl | hx
    · have := ha y List.mem_cons_self
      unfold cat at *
      rw [List.append_assoc]
      exact OneLine.append h this
    · exact ha x (List.mem_cons_of_mem _ hx)

/-- The text of a list of lines, as in the specification. -/
theorem linesText_eq (l : List (Txt × Txt)) : linesText l = textOfLines (l.map cat) := by
  induction l with
  | nil => rfl
  | cons x l ih =>
    cases l with
    | nil => rfl
    | cons y l =>
      simp only [linesText, List.map_cons, textOfLines, cat] at ih ⊢
      rw [ih]

/-- The lines of a text can be recovered from it. -/
theorem lines_of_text : ∀ (a b : List Txt), a ≠ [] → b ≠ [] → (∀ x ∈ a, OneLine x) → (∀ x ∈ b, OneLine x) →
    textOfLines a = textOfLines b → a = b
  | [], _, h, _, _, _, _ => absurd rfl h
  | _ :: _, [], _, h, _, _, _ => absurd rfl h
  | [x], [y], _, _, _, _, h => by simp only [textOfLines] at h; rw [h]
  | [x], y :: z :: b, _, _, h1, _, h => by
    exact (newline_not (h1 x List.mem_cons_self) (show x = y ++ '\n' :: textOfLines (z :: b) from h)).elim
  | x :: z :: a, [y], _, _, _, h2, h => by
    exact (newline_not (h2 y List.mem_cons_self) (show y = x ++ '\n' :: textOfLines (z :: a) from h.symm)).elim
  | x :: z :: a, y :: w :: b, _, _, h1, h2, h => by
    have := upto_newline (h1 x List.mem_cons_self) (h2 y List.mem_cons_self) h
    rw [this.1, lines_of_text (z :: a) (w :: b) (by simp) (by simp) (fun c hc => h1 c (List.mem_cons_of_mem _ hc))
      (fun c hc => h2 c (List.mem_cons_of_mem _ hc)) this.2]

theorem lines_of_linesText {a b : List (Txt × Txt)} (ha : a ≠ []) (hb : b ≠ []) (h1 : AllLine a) (h2 : AllLine b)
    (h : linesText a = linesText b) : a.map cat = b.map cat := by
  rw [linesText_eq, linesText_eq] at h
  refine lines_of_text _ _ (by simpa using ha) (by simpa using hb) ?_ ?_ h
  · intro x hx; obtain ⟨y, hy, rfl⟩ := List.mem_map.1 hx; exact h1 y hy
  · intro x hx; obtain ⟨y, hy, rfl⟩ := List.mem_map.1 hx; exact h2 y hy

theorem nest_cat {a b : List (Txt × Txt)} (h : (nest a).map cat = (nest b).map cat) : a.map cat = b.map cat := by
  induction a generalizing b with
  | nil => cases b with
    | nil => rfl
    | cons y b => simp [nest] at h
  | cons x a ih => cases b with
    | nil => simp [nest] at h
    | cons y b =>
      simp only [nest, List.map_cons, List.cons.injEq] at h ⊢
      refine ⟨?_, ih h.2⟩
      have := h.1
      unfold cat at this ⊢
      rw [List.append_assoc, List.append_assoc] at this
      exact List.append_cancel_left this

theorem ofNat_inj {a b : Nat} (ha : a < 256) (hb : b < 256) (h : UInt8.ofNat a = UInt8.ofNat b) : a = b := by
  have := congrArg UInt8.toNat h
  simpa [UInt8.toNat_ofNat', Nat.mod_eq_of_lt ha, Nat.mod_eq_of_lt hb] using this

theorem asciiText_inj {a b : List UInt8} (h : asciiText a = asciiText b) : a = b := by
  unfold asciiText at h
  refine List.map_injective_iff.2 ?_ h
  intro x y e
  have hx := x.toNat_lt; have hy := y.toNat_lt
  have e' := congrArg Char.toNat e
  have v : ∀ n : Nat, n < 2 ^ 8 → (Char.ofNat n).toNat = n := fun n hn => by
    have : n.isValidChar := Or.inl (by omega)
    simp [Char.ofNat, this, Char.ofNatAux, Char.toNat]
  rw [v _ hx, v _ hy] at e'
  exact UInt8.toNat_inj.1 e'

theorem asciiText_line {a : List UInt8} (h : 10 ∉ a) : OneLine (asciiText a) := by
  intro hm
  obtain ⟨b, hb, e⟩ := List.mem_map.1 hm
  have hx := b.toNat_lt
  have e' := congrArg Char.toNat e
  have v : ∀ n : Nat, n < 2 ^ 8 → (Char.ofNat n).toNat = n := fun n hn => by
    have : n.isValidChar := Or.inl (by omega)
    simp [Char.ofNat, this, Char.ofNatAux, Char.toNat]
  rw [v _ hx] at e'
  have : b = 10 := UInt8.toNat_inj.1 e'
  exact h (this ▸ hb)

theorem statusText_inj {a b : NumericValueStatus} (h : a.text = b.text) : a = b := by
  revert h; cases a <;> cases b <;> decide +kernel

theorem statusText_line (a : NumericValueStatus) : OneLine a.text := Text.bds09NumericValueStatus_identifies.line _

theorem nucText_identifies : Identifies navigationUncertaintyText :=
  ⟨tableText_inj _ _ (by decide +kernel) (by decide +kernel), tableText_line _ _ (by decide +kernel) (by decide +kernel)⟩

/-- A table whose other codes are printed as bare numbers. -/
theorem tableText_bare_inj (t : List (Nat × Txt)) (h1 : (t.map Prod.snd).Nodup)
    (h2 : ∀ x ∈ t, x.2.all Char.isDigit = false) : Function.Injective (tableText t []) := by
  have nd : ∀ x ∈ t, ∀ n, x.2 ≠ dec n ++ [] := by
    intro x hx n e
    have := h2 x hx
    rw [e, List.append_nil, List.all_eq_false] at this
    obtain ⟨c, hc, hd⟩ := this
    exact hd (dec_digit hc)
  intro a b h
  unfold tableText at h
  cases ha : t.lookup a.toNat with
  | some v =>
    cases hb : t.lookup b.toNat with
    | some w =>
      rw [ha, hb] at h
      have := nodup_snd t h1 _ (lookup_mem _ _ _ ha) _ (lookup_mem _ _ _ hb) h
      exact UInt8.toNat_inj.1 (Prod.mk.inj this).1
    | none =>
      rw [ha, hb] at h
      exact absurd h (nd _ (lookup_mem _ _ _ ha) _)
  | none =>
    cases hb : t.lookup b.toNat with
    | some w =>
      rw [ha, hb] at h
      exact absurd h.symm (nd _ (lookup_mem _ _ _ hb) _)
    | none =>
      rw [ha, hb] at h
      exact UInt8.toNat_inj.1 (dec_inj (List.append_cancel_right h))

theorem versionText_inj : Function.Injective versionNumberText :=
  tableText_bare_inj _ (by decide +kernel) (by decide +kernel)

theorem versionText_line (c : UInt8) : OneLine (versionNumberText c) :=
  tableText_line _ _ (by decide +kernel) (by decide +kernel) c

end Modes
