import Verif.Model.Text
/-!
# Lemmas about texts
-/
namespace Modes

theorem dec_inj {a b : Nat} (h : dec a = dec b) : a = b := by
  have := congrArg (fun l => Nat.ofDigitChars 10 l 0) h
  simpa [dec, Nat.ofDigitChars_toDigits] using this

theorem dec_ne_nil (n : Nat) : dec n ≠ [] := Nat.toDigits_ne_nil

theorem dec_digit {n : Nat} {c : Char} (h : c ∈ dec n) : c.isDigit = true :=
  Nat.isDigit_of_mem_toDigits (by omega) (by omega) h

theorem not_mem_dec {n : Nat} {c : Char} (hc : c.isDigit = false) : c ∉ dec n := fun h => by
  rw [dec_digit h] at hc; cases hc

/-- Lists of digits followed by something that is not a digit. -/
theorem digits_append_inj {a b : List Char} (ha : ∀ c ∈ a, c.isDigit = true) (hb : ∀ c ∈ b, c.isDigit = true) (x y : Char)
    (r s : List Char) (hx : x.isDigit = false) (hy : y.isDigit = false) (h : a ++ x :: r = b ++ y :: s) :
    a = b ∧ x :: r = y :: s := by
  induction a generalizing b with
  | nil =>
    cases b with
    | nil => exact ⟨rfl, h⟩
    | cons c b =>
      simp only [List.nil_append, List.cons_append, List.cons.injEq] at h
      have := hb c (by simp)
      rw [← h.1, hx] at this; cases this
  | cons c a ih =>
    cases b with
    | nil =>
      simp only [List.nil_append, List.cons_append, List.cons.injEq] at h
      have := ha c (by simp)
      rw [h.1, hy] at this; cases this
    | cons d b =>
      simp only [List.cons_append, List.cons.injEq] at h
      have := ih (fun c hc => ha c (by simp [hc])) (fun c hc => hb c (by simp [hc])) h.2
      exact ⟨by rw [h.1, this.1], this.2⟩

theorem decInt_inj {a b : Int} (h : decInt a = decInt b) : a = b := by
  have minus : ∀ n, '-' ∉ dec n := fun n => not_mem_dec rfl
  cases a with
  | ofNat a =>
    cases b with
    | ofNat b => rw [dec_inj h]
    | negSucc b =>
      have h' : dec a = '-' :: dec (b + 1) := h
      exact absurd (h' ▸ List.mem_cons_self) (minus a)
  | negSucc a =>
    cases b with
    | ofNat b =>
      have h' : '-' :: dec (a + 1) = dec b := h
      exact absurd (h' ▸ List.mem_cons_self) (minus b)
    | negSucc b =>
      have h' : '-' :: dec (a + 1) = '-' :: dec (b + 1) := h
      have := dec_inj (List.cons.inj h').2
      rw [Nat.succ.inj this]

theorem boolText_inj {a b : Bool} (h : boolText a = boolText b) : a = b := by
  revert h; cases a <;> cases b <;> decide

/-- No line break. -/
def OneLine (t : Txt) : Prop := '\n' ∉ t

theorem oneLine_dec (n : Nat) : OneLine (dec n) := not_mem_dec rfl

theorem oneLine_decInt (n : Int) : OneLine (decInt n) := by
  cases n with
  | ofNat n => exact oneLine_dec n
  | negSucc n =>
    intro h
    rcases List.mem_cons.1 h with h | h
    · exact absurd h (by decide)
    · exact oneLine_dec _ h

theorem oneLine_bool (b : Bool) : OneLine (boolText b) := by unfold OneLine; cases b <;> decide

theorem OneLine.append {a b : Txt} (ha : OneLine a) (hb : OneLine b) : OneLine (a ++ b) := by
  unfold OneLine at *; simp [ha, hb]

/-- Up to the first line break, two texts agree. -/
theorem upto_newline {a b r s : Txt} (ha : OneLine a) (hb : OneLine b) (h : a ++ '\n' :: r = b ++ '\n' :: s) :
    a = b ∧ r = s := by
  induction a generalizing b with
  | nil =>
    cases b with
    | nil => exact ⟨rfl, by simpa using h⟩
    | cons c b =>
      simp only [List.nil_append, List.cons_append, List.cons.injEq] at h
      exact absurd (h.1 ▸ List.mem_cons_self) hb
  | cons c a ih =>
    cases b with
    | nil =>
      simp only [List.nil_append, List.cons_append, List.cons.injEq] at h
      exact absurd (h.1 ▸ List.mem_cons_self) ha
    | cons d b =>
      simp only [List.cons_append, List.cons.injEq] at h
      have := ih (fun hc => ha (by simp [hc])) (fun hc => hb (by simp [hc])) h.2
      exact ⟨by rw [h.1, this.1], this.2⟩

theorem newline_not {a b s : Txt} (ha : OneLine a) (h : a = b ++ '\n' :: s) : False := by
  subst h; exact ha (by simp)

/-- Two texts of labelled lines with the same labels are equal only if their values are. -/
theorem linesText_inj : ∀ (a b : List (Txt × Txt)), a.map Prod.fst = b.map Prod.fst →
    (∀ x ∈ a, OneLine x.1 ∧ OneLine x.2) → (∀ x ∈ b, OneLine x.1 ∧ OneLine x.2) → linesText a = linesText b → a = b
  | [], [], _, _, _, _ => rfl
  | [], y :: b, h, _, _, _ => by simp at h
  | x :: a, [], h, _, _, _ => by simp at h
  | [(l, v)], [(k, w)], h, _, _, e => by
    simp only [List.map_cons, List.map_nil, List.cons.injEq, and_true] at h
    subst h
    simp only [linesText, List.append_cancel_left_eq] at e
    rw [e]
  | [_], _ :: _ :: _, h, _, _, _ => by simp at h
  | _ :: _ :: _, [_], h, _, _, _ => by simp at h
  | (l, v) :: x :: a, (k, w) :: y :: b, h, ha, hb, e => by
    simp only [List.map_cons, List.cons.injEq] at h
    obtain ⟨rfl, h⟩ := h
    have h1 := ha _ List.mem_cons_self
    have h2 := hb _ List.mem_cons_self
    have := upto_newline (h1.1.append h1.2) (h2.1.append h2.2) e
    rw [linesText_inj (x :: a) (y :: b) (by simpa using h) (fun z hz => ha z (List.mem_cons_of_mem _ hz))
      (fun z hz => hb z (List.mem_cons_of_mem _ hz)) this.2, show v = w from List.append_cancel_left this.1]

theorem lookup_mem : ∀ (t : List (Nat × Txt)) (k : Nat) (v : Txt), t.lookup k = some v → (k, v) ∈ t
  | [], _, _, h => by simp at h
  | (j, w) :: t, k, v, h => by
    rw [List.lookup_cons] at h
    cases hk : k == j
    · rw [hk] at h; exact List.mem_cons_of_mem _ (lookup_mem t k v h)
    · rw [hk] at h
      obtain rfl : w = v := by simpa using h
      rw [eq_of_beq hk]; exact List.mem_cons_self

theorem nodup_snd : ∀ (t : List (Nat × Txt)), (t.map Prod.snd).Nodup → ∀ x ∈ t, ∀ y ∈ t, x.2 = y.2 → x = y
  | [], _, x, hx, _, _, _ => by simp at hx
  | z :: t, h, x, hx, y, hy, e => by
    simp only [List.map_cons, List.nodup_cons, List.mem_map, not_exists, not_and] at h
    rcases List.mem_cons.1 hx with rfl | hx' <;> rcases List.mem_cons.1 hy with rfl | hy'
    · rfl
    · exact absurd e.symm (h.1 y hy')
    · exact absurd e (h.1 x hx')
    · exact nodup_snd t h.2 x hx' y hy' e

/-- Decidable conditions under which the texts of a table identify the code: different texts for the codes of the table, none
ending like the text of the other codes. -/
theorem tableText_inj (t : List (Nat × Txt)) (s : Txt) (h1 : (t.map Prod.snd).Nodup)
    (h2 : ∀ x ∈ t, s.isSuffixOf x.2 = true → x.2 = dec x.1 ++ s) : Function.Injective (tableText t s) := by
  intro a b h
  unfold tableText at h
  cases ha : t.lookup a.toNat with
  | some v =>
    cases hb : t.lookup b.toNat with
    | some w =>
      rw [ha, hb] at h
      have := nodup_snd t h1 _ (lookup_mem _ _ _ ha) _ (lookup_mem _ _ _ hb) h
      exact UInt8.toNat_inj.1 (Prod.mk.inj this).1
    | none =>
      rw [ha, hb] at h
      simp only at h
      have := h2 _ (lookup_mem _ _ _ ha) (by rw [h]; simp)
      simp only [h] at this
      exact UInt8.toNat_inj.1 (dec_inj (List.append_cancel_right this)).symm
  | none =>
    cases hb : t.lookup b.toNat with
    | some w =>
      rw [ha, hb] at h
      simp only at h
      have := h2 _ (lookup_mem _ _ _ hb) (by rw [← h]; simp)
      simp only [← h] at this
      exact UInt8.toNat_inj.1 (dec_inj (List.append_cancel_right this))
    | none =>
      rw [ha, hb] at h
      exact UInt8.toNat_inj.1 (dec_inj (List.append_cancel_right h))

theorem tableText_line (t : List (Nat × Txt)) (s : Txt) (h1 : ∀ x ∈ t, '\n' ∉ x.2) (h2 : '\n' ∉ s) (c : UInt8) :
    OneLine (tableText t s c) := by
  unfold tableText
  cases h : t.lookup c.toNat with
  | some v => exact h1 _ (lookup_mem _ _ _ h)
  | none => exact (oneLine_dec _).append h2

/-- The text is `<number> - <something>` only with the number `k`. -/
def NumberedAs (k : Nat) (t : Txt) : Prop := ∀ n r, t = dec n ++ ' ' :: '-' :: r → n = k

theorem span_digits (n : Nat) (r : Txt) : (dec n ++ ' ' :: r).takeWhile Char.isDigit = dec n := by
  rw [List.takeWhile_append_of_pos (fun c hc => dec_digit hc)]
  simp [List.takeWhile_cons, show (' ' : Char).isDigit = false from rfl]

theorem numberedAs_of (k : Nat) (t : Txt) (h : t.takeWhile Char.isDigit = dec k ∨ t.takeWhile Char.isDigit = [] ∨
    ([' ', '-'].isPrefixOf (t.dropWhile Char.isDigit)) = false) : NumberedAs k t := by
  intro n r e
  have hs : t.takeWhile Char.isDigit = dec n := by rw [e, span_digits]
  rcases h with h | h | h
  · exact dec_inj (hs.symm.trans h)
  · exact absurd (hs.symm.trans h) (dec_ne_nil n)
  · exfalso
    have : t.dropWhile Char.isDigit = ' ' :: '-' :: r := by
      have := List.takeWhile_append_dropWhile (p := Char.isDigit) (l := t)
      rw [hs, e] at this
      rw [e]; exact List.append_cancel_left this
    rw [this] at h
    simp at h

theorem tableText_numbered (t : List (Nat × Txt)) (s : Txt) (h : ∀ x ∈ t, x.2.takeWhile Char.isDigit = dec x.1 ∨
    x.2.takeWhile Char.isDigit = [] ∨ ([' ', '-'].isPrefixOf (x.2.dropWhile Char.isDigit)) = false)
    (h2 : s.head? = some ' ') (c : UInt8) : NumberedAs c.toNat (tableText t s c) := by
  unfold tableText
  cases hl : t.lookup c.toNat with
  | some v => exact numberedAs_of _ _ (h _ (lookup_mem _ _ _ hl))
  | none =>
    refine numberedAs_of _ _ (Or.inl ?_)
    cases s with
    | nil => simp at h2
    | cons a s =>
      simp only [List.head?_cons, Option.some.injEq] at h2
      subst h2
      exact span_digits _ _

end Modes
