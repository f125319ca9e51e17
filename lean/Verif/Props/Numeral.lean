import Verif.Model.Numeral
import Verif.Props.CommandLine
/-!
# The number on the command line

C101. Which texts are accepted as the value of `-adsb_reader_level`, and which number each stands for.
-/
namespace Spec

/-- A digit and its value: `0`–`9`, then `a`–`f` or `A`–`F`. -/
inductive Digit : UInt8 → Nat → Prop
  | decimal {c : UInt8} (h : 48 ≤ c.toNat ∧ c.toNat ≤ 57) : Digit c (c.toNat - 48)
  | small {c : UInt8} (h : 97 ≤ c.toNat ∧ c.toNat ≤ 102) : Digit c (c.toNat - 87)
  | capital {c : UInt8} (h : 65 ≤ c.toNat ∧ c.toNat ≤ 70) : Digit c (c.toNat - 55)

/-- What may follow a digit (or a prefix): digits of the base, each with at most one underscore before it. `DigitsFrom b v t w`: after the
digits that stand for `v`, the text `t` makes the number `w`. -/
inductive DigitsFrom (b : Nat) : Nat → List UInt8 → Nat → Prop
  | nil {v : Nat} : DigitsFrom b v [] v
  | digit {v d w : Nat} {c : UInt8} {t : List UInt8} (h : Digit c d) (hb : d < b) (ht : DigitsFrom b (b * v + d) t w) :
      DigitsFrom b v (c :: t) w
  | separated {v d w : Nat} {c : UInt8} {t : List UInt8} (h : Digit c d) (hb : d < b) (ht : DigitsFrom b (b * v + d) t w) :
      DigitsFrom b v (95 :: c :: t) w

/-- The letters that announce a base, after a zero. -/
def baseLetter (c : UInt8) : Option Nat :=
  if c = 98 ∨ c = 66 then some 2 else if c = 111 ∨ c = 79 then some 8 else if c = 120 ∨ c = 88 then some 16 else none

/-- A numeral without a sign: decimal if it starts with a digit other than zero; octal if it starts with a zero; binary, octal or
hexadecimal if it starts with `0b`, `0o` or `0x`, or the same in capitals. -/
inductive Magnitude : List UInt8 → Nat → Prop
  | decimal {c : UInt8} {t : List UInt8} {d v : Nat} (h : Digit c d) (h1 : 1 ≤ d ∧ d < 10) (ht : DigitsFrom 10 d t v) : Magnitude (c :: t) v
  | octal {t : List UInt8} {v : Nat} (ht : DigitsFrom 8 0 t v) : Magnitude (48 :: t) v
  | based {p : UInt8} {b : Nat} {t : List UInt8} {v : Nat} (hp : baseLetter p = some b) (hne : t ≠ []) (ht : DigitsFrom b 0 t v) :
      Magnitude (48 :: p :: t) v

/-- An integer numeral, with or without a sign, whose value fits in 64 bits. -/
inductive Numeral : List UInt8 → Int → Prop
  | plain {t : List UInt8} {v : Nat} (h : Magnitude t v) (hv : v < 2 ^ 63) : Numeral t v
  | plus {t : List UInt8} {v : Nat} (h : Magnitude t v) (hv : v < 2 ^ 63) : Numeral (43 :: t) v
  | minus {t : List UInt8} {v : Nat} (h : Magnitude t v) (hv : v ≤ 2 ^ 63) : Numeral (45 :: t) (-v)

end Spec
namespace Modes
open Spec

theorem lowerByte_toNat (c : UInt8) : (97 ≤ lowerByte c ∧ lowerByte c ≤ 122 ↔ (97 ≤ c.toNat ∧ c.toNat ≤ 122) ∨ (65 ≤ c.toNat ∧ c.toNat ≤ 90)) := by
  have : ∀ c : Fin 256, (97 ≤ lowerByte (UInt8.ofNat c) ∧ lowerByte (UInt8.ofNat c) ≤ 122 ↔
    (97 ≤ (c : Nat) ∧ (c : Nat) ≤ 122) ∨ (65 ≤ (c : Nat) ∧ (c : Nat) ≤ 90)) := by decide +kernel
  simpa using this ⟨c.toNat, c.toNat_lt⟩

/-- The digits below 16 as the code and the specification see them. -/
theorem digitByte_iff (c : UInt8) (d : Nat) (hd : d < 16) : (digitByte c).map UInt8.toNat = some d ↔ Digit c d := by
  have h1 : (digitByte c).map UInt8.toNat = some d ↔ (48 ≤ c.toNat ∧ c.toNat ≤ 57 ∧ d = c.toNat - 48) ∨
      (97 ≤ c.toNat ∧ c.toNat ≤ 102 ∧ d = c.toNat - 87) ∨ (65 ≤ c.toNat ∧ c.toNat ≤ 70 ∧ d = c.toNat - 55) := by
    have : ∀ c : Fin 256, ∀ d : Fin 16, (digitByte (UInt8.ofNat c)).map UInt8.toNat = some (d : Nat) ↔
        (48 ≤ (c : Nat) ∧ (c : Nat) ≤ 57 ∧ (d : Nat) = c - 48) ∨ (97 ≤ (c : Nat) ∧ (c : Nat) ≤ 102 ∧ (d : Nat) = c - 87) ∨
        (65 ≤ (c : Nat) ∧ (c : Nat) ≤ 70 ∧ (d : Nat) = c - 55) := by decide +kernel
    simpa using this ⟨c.toNat, c.toNat_lt⟩ ⟨d, hd⟩
  rw [h1]
  constructor
  · rintro (⟨h2, h3, rfl⟩ | ⟨h2, h3, rfl⟩ | ⟨h2, h3, rfl⟩)
    · exact .decimal ⟨h2, h3⟩
    · exact .small ⟨h2, h3⟩
    · exact .capital ⟨h2, h3⟩
  · rintro (⟨h⟩ | ⟨h⟩ | ⟨h⟩)
    · exact Or.inl ⟨h.1, h.2, rfl⟩
    · exact Or.inr (Or.inl ⟨h.1, h.2, rfl⟩)
    · exact Or.inr (Or.inr ⟨h.1, h.2, rfl⟩)

theorem digit_ne_underscore {c : UInt8} {d : Nat} (h : Digit c d) : c ≠ 95 := by
  rintro rfl
  rcases h with ⟨h⟩ | ⟨h⟩ | ⟨h⟩ <;> simp at h

/-- The digits of a text, underscores left out, as a number that continues `v`; `none` if there is something else. -/
def digitsValue (b : Nat) (v : Nat) : List UInt8 → Option Nat
  | [] => some v
  | c :: s =>
    if c = 95 then digitsValue b v s
    else match digitByte c with
      | none => none
      | some d => if d.toNat ≥ b then none else digitsValue b (b * v + d.toNat) s

theorem digitsValue_ge (b : Nat) (hb : 1 ≤ b) (s : List UInt8) : ∀ v w, digitsValue b v s = some w → v ≤ w := by
  induction s with
  | nil => intro v w h; simp [digitsValue] at h; omega
  | cons c s ih =>
    intro v w h
    rw [digitsValue] at h
    split at h
    · exact ih _ _ h
    · split at h
      · cases h
      · split at h
        · cases h
        · have h1 := ih _ _ h
          have : v ≤ b * v := Nat.le_mul_of_pos_left v hb
          omega

/-- The loop of the code computes that number, if it fits in 64 bits. -/
theorem uintLoop_ok (b : UInt8) (hb : 2 ≤ b.toNat ∧ b.toNat ≤ 16) (s : List UInt8) : ∀ (n : UInt64) (u : Bool) (m : UInt64) (u' : Bool),
    uintLoop b n u s = .ok (m, u') ↔ digitsValue b.toNat n.toNat s = some m.toNat ∧ u' = (u || s.contains 95) := by
  induction s with
  | nil =>
    intro n u m u'
    simp only [uintLoop, digitsValue, Except.ok.injEq, Prod.mk.injEq, Option.some.injEq, List.contains_nil, Bool.or_false,
      ← UInt64.toNat_inj]
    exact ⟨fun h => ⟨h.1, h.2.symm⟩, fun h => ⟨h.1, h.2.symm⟩⟩
  | cons c s ih =>
    intro n u m u'
    rw [uintLoop, digitsValue]
    by_cases hc : c = 95
    · rw [if_pos hc, if_pos hc, ih]
      simp [hc]
    · rw [if_neg hc, if_neg hc]
      have hcont : (c :: s).contains 95 = s.contains 95 := by simp [Ne.symm hc]
      rw [hcont]
      cases hd : digitByte c with
      | none => simp
      | some d =>
        simp only []
        by_cases hdb : d ≥ b
        · rw [if_pos hdb, if_pos (by exact UInt8.le_iff_toNat_le.1 hdb)]; simp
        · have hdb' : ¬ d.toNat ≥ b.toNat := fun h => hdb (UInt8.le_iff_toNat_le.2 h)
          rw [if_neg hdb, if_neg hdb']
          have e1 : b.toUInt64.toNat = b.toNat := by simp
          have e2 : d.toUInt64.toNat = d.toNat := by simp
          have ediv : (18446744073709551615 / b.toUInt64 + 1 : UInt64).toNat = 18446744073709551615 / b.toNat + 1 := by
            have : 18446744073709551615 / b.toNat ≤ 18446744073709551615 / 2 := Nat.div_le_div_left hb.1 (by omega)
            rw [UInt64.toNat_add, UInt64.toNat_div, e1]
            have e3 : (18446744073709551615 : UInt64).toNat = 18446744073709551615 := rfl
            have e4 : (1 : UInt64).toNat = 1 := rfl
            rw [e3, e4]
            exact Nat.mod_eq_of_lt (lt_of_le_of_lt (Nat.add_le_add_right this 1) (by norm_num))
          by_cases hcut : n ≥ 18446744073709551615 / b.toUInt64 + 1
          · rw [if_pos hcut]
            have hcut' : 18446744073709551615 / b.toNat + 1 ≤ n.toNat := by rw [← ediv]; exact UInt64.le_iff_toNat_le.1 hcut
            constructor
            · intro h; cases h
            · rintro ⟨h, -⟩
              have h3 := digitsValue_ge _ (by omega) _ _ _ h
              have h4 : 18446744073709551615 < b.toNat * n.toNat := by
                have := Nat.lt_mul_of_div_lt (a := 18446744073709551615) (b := n.toNat) (c := b.toNat) (by omega) (by omega)
                rwa [Nat.mul_comm]
              have := m.toNat_lt
              omega
          · rw [if_neg hcut]
            have hcut' : n.toNat ≤ 18446744073709551615 / b.toNat := by
              have : ¬ (18446744073709551615 / b.toNat + 1 ≤ n.toNat) := by
                rw [← ediv]; exact fun h => hcut (UInt64.le_iff_toNat_le.2 h)
              omega
            have hmul : n.toNat * b.toNat ≤ 18446744073709551615 :=
              le_trans (Nat.mul_le_mul_right _ hcut') (Nat.div_mul_le_self _ _)
            have emul : (n * b.toUInt64).toNat = b.toNat * n.toNat := by
              rw [UInt64.toNat_mul, e1, Nat.mod_eq_of_lt (by omega), Nat.mul_comm]
            have eadd : (n * b.toUInt64 + d.toUInt64).toNat = (b.toNat * n.toNat + d.toNat) % 2 ^ 64 := by
              rw [UInt64.toNat_add, emul, e2]
            have hmul' : b.toNat * n.toNat ≤ 18446744073709551615 := by rwa [Nat.mul_comm]
            by_cases hov : n * b.toUInt64 + d.toUInt64 < n * b.toUInt64
            · rw [if_pos hov]
              have hov' := UInt64.lt_iff_toNat_lt.1 hov
              rw [eadd, emul] at hov'
              constructor
              · intro h; cases h
              · rintro ⟨h, -⟩
                have h3 := digitsValue_ge _ (by omega) _ _ _ h
                have := m.toNat_lt
                rw [Nat.mod_eq_of_lt (by omega)] at hov'
                omega
            · rw [if_neg hov, ih]
              have hov' : ¬ ((b.toNat * n.toNat + d.toNat) % 2 ^ 64 < b.toNat * n.toNat) := by
                rw [← eadd, ← emul]; exact fun h => hov (UInt64.lt_iff_toNat_lt.2 h)
              have hlt : b.toNat * n.toNat + d.toNat < 2 ^ 64 := by
                by_contra hge
                have := d.toNat_lt
                omega
              rw [eadd, Nat.mod_eq_of_lt hlt]

/-- Underscores are well placed in what follows a digit (`saw = '0'`) or an underscore (`saw = '_'`), and the characters are digits. -/
theorem digitsFrom_iff (b : Nat) (hb : b ≤ 16) (hex : Bool) (hhex : hex = true ∨ b ≤ 10) : ∀ (k : Nat) (s : List UInt8), s.length ≤ k → ∀ v w,
    DigitsFrom b v s w ↔ digitsValue b v s = some w ∧ underscoreLoop hex 48 s = true := by
  have hdig : ∀ (c : UInt8) (d : UInt8), digitByte c = some d → d.toNat < b →
      ((48 ≤ c ∧ c ≤ 57) ∨ (hex = true ∧ 97 ≤ lowerByte c ∧ lowerByte c ≤ 102)) := by
    intro c d h hd
    have key : ∀ c : Fin 256, ∀ d ∈ digitByte (UInt8.ofNat c), (d.toNat < 10 → 48 ≤ UInt8.ofNat c ∧ UInt8.ofNat c ≤ 57) ∧
        (d.toNat < 16 → (48 ≤ UInt8.ofNat c ∧ UInt8.ofNat c ≤ 57) ∨ (97 ≤ lowerByte (UInt8.ofNat c) ∧ lowerByte (UInt8.ofNat c) ≤ 102)) := by
      decide +kernel
    have := key ⟨c.toNat, c.toNat_lt⟩ d (by simpa using h)
    simp only [UInt8.ofNat_toNat] at this
    rcases hhex with h1 | h1
    · rcases this.2 (by omega) with h | h
      · exact Or.inl h
      · exact Or.inr ⟨h1, h⟩
    · exact Or.inl (this.1 (by omega))
  have hnd : ¬ ((48 ≤ (95 : UInt8) ∧ (95 : UInt8) ≤ 57) ∨ (hex = true ∧ 97 ≤ lowerByte 95 ∧ lowerByte 95 ≤ 102)) := by
    have h1 : ¬ (lowerByte 95 ≤ 102) := by decide
    have h2 : ¬ ((95 : UInt8) ≤ 57) := by decide
    rintro (h | h)
    · exact h2 h.2
    · exact h1 h.2.2
  have hdb : ∀ {c : UInt8} {d : Nat}, Digit c d → d < b → ∃ d' : UInt8, digitByte c = some d' ∧ d'.toNat = d := by
    intro c d h hd
    have := (digitByte_iff c d (by omega)).2 h
    simpa [Option.map_eq_some_iff] using this
  intro k
  induction k with
  | zero =>
    intro s hs v w
    have : s = [] := List.length_eq_zero_iff.1 (by omega)
    subst this
    constructor
    · rintro ⟨⟩; exact ⟨rfl, rfl⟩
    · rintro ⟨h, -⟩
      simp only [digitsValue, Option.some.injEq] at h
      subst h; exact .nil
  | succ k ih =>
    intro s hs v w
    constructor
    · intro h
      cases h with
      | nil => exact ⟨rfl, rfl⟩
      | @digit _ d _ c t h hb' ht =>
        obtain ⟨d', h1, rfl⟩ := hdb h hb'
        obtain ⟨h2, h3⟩ := (ih t (by simpa using hs) _ _).1 ht
        rw [digitsValue, underscoreLoop, if_neg (digit_ne_underscore h), if_pos (hdig c d' h1 hb'), h1]
        simp only []
        rw [if_neg (by omega)]
        exact ⟨h2, h3⟩
      | @separated _ d _ c t h hb' ht =>
        obtain ⟨d', h1, rfl⟩ := hdb h hb'
        have hl : t.length ≤ k := by simp at hs; omega
        obtain ⟨h2, h3⟩ := (ih t hl _ _).1 ht
        rw [digitsValue, if_pos rfl, digitsValue, underscoreLoop, if_neg hnd, if_pos rfl, if_neg (show ¬ ((48 : UInt8) ≠ 48) from fun h => h rfl), underscoreLoop,
          if_neg (digit_ne_underscore h), if_pos (hdig c d' h1 hb'), h1]
        simp only []
        rw [if_neg (by omega)]
        exact ⟨h2, h3⟩
    · rintro ⟨h1, h2⟩
      cases s with
      | nil =>
        simp only [digitsValue, Option.some.injEq] at h1
        subst h1; exact .nil
      | cons c t =>
        have step : ∀ (c : UInt8) (t : List UInt8), c ≠ 95 → t.length ≤ k → digitsValue b v (c :: t) = some w →
            ∀ saw, underscoreLoop hex saw (c :: t) = true → ∃ d, Digit c d ∧ d < b ∧ DigitsFrom b (b * v + d) t w := by
          intro c t hc ht h1 saw h2
          rw [digitsValue, if_neg hc] at h1
          cases hd : digitByte c with
          | none => rw [hd] at h1; cases h1
          | some d =>
            rw [hd] at h1
            simp only [] at h1
            by_cases hdb : d.toNat ≥ b
            · rw [if_pos hdb] at h1; cases h1
            · rw [if_neg hdb] at h1
              rw [underscoreLoop, if_pos (hdig c d hd (by omega))] at h2
              exact ⟨d.toNat, (digitByte_iff c _ (by omega)).1 (by rw [hd]; rfl), by omega, (ih t ht _ _).2 ⟨h1, h2⟩⟩
        by_cases hc : c = 95
        · subst hc
          rw [underscoreLoop, if_neg hnd, if_pos rfl, if_neg (show ¬ ((48 : UInt8) ≠ 48) from fun h => h rfl)] at h2
          rw [digitsValue, if_pos rfl] at h1
          cases t with
          | nil => simp [underscoreLoop] at h2
          | cons c t =>
            by_cases hc : c = 95
            · subst hc
              rw [underscoreLoop, if_neg hnd, if_pos rfl, if_pos (by decide)] at h2
              cases h2
            · obtain ⟨d, h3, h4, h5⟩ := step c t hc (by simp at hs; omega) h1 _ h2
              exact .separated h3 h4 h5
        · obtain ⟨d, h3, h4, h5⟩ := step c t hc (by simpa using hs) h1 _ h2
          exact .digit h3 h4 h5

theorem underscoreLoop_none (hex : Bool) (s : List UInt8) (h : 95 ∉ s) : ∀ saw, saw ≠ 95 → underscoreLoop hex saw s = true := by
  induction s with
  | nil => intro saw hs; simp [underscoreLoop, hs]
  | cons c s ih =>
    intro saw hs
    have hc : c ≠ 95 := fun e => h (by simp [e])
    have ih := ih fun hm => h (List.mem_cons_of_mem _ hm)
    rw [underscoreLoop, if_neg hc, if_neg hs]
    split
    · exact ih _ (by decide)
    · exact ih _ (by decide)

theorem lowerByte_letter (p : UInt8) : baseLetter p = (if lowerByte p = 98 then some 2 else if lowerByte p = 111 then some 8 else
    if lowerByte p = 120 then some 16 else none) := by
  have : ∀ c : Fin 256, baseLetter (UInt8.ofNat c) = (if lowerByte (UInt8.ofNat c) = 98 then some 2 else
    if lowerByte (UInt8.ofNat c) = 111 then some 8 else if lowerByte (UInt8.ofNat c) = 120 then some 16 else none) := by decide +kernel
  simpa using this ⟨p.toNat, p.toNat_lt⟩

/-- A letter that announces a base is not an octal digit. -/
theorem letter_no_octal (p : UInt8) (h : baseLetter p ≠ none) : p ≠ 95 ∧ ∀ d ∈ digitByte p, d.toNat ≥ 8 := by
  have : ∀ c : Fin 256, baseLetter (UInt8.ofNat c) ≠ none → UInt8.ofNat c ≠ 95 ∧ ∀ d ∈ digitByte (UInt8.ofNat c), d.toNat ≥ 8 := by
    decide +kernel
  have h2 := this ⟨p.toNat, p.toNat_lt⟩
  simp only [UInt8.ofNat_toNat] at h2
  exact h2 h

theorem letter_octal_none (p : UInt8) (h : baseLetter p ≠ none) (v : Nat) (t : List UInt8) : digitsValue 8 v (p :: t) = none := by
  obtain ⟨h1, h2⟩ := letter_no_octal p h
  rw [digitsValue, if_neg h1]
  cases hd : digitByte p with
  | none => rfl
  | some d => simp [h2 d (by simp [hd])]

theorem digitsValue_octal (t : List UInt8) (v : Nat) : Magnitude (48 :: t) v ↔
    (DigitsFrom 8 0 t v ∨ ∃ p b t', t = p :: t' ∧ baseLetter p = some b ∧ t' ≠ [] ∧ DigitsFrom b 0 t' v) := by
  constructor
  · intro h
    generalize hx : (48 :: t : List UInt8) = x at h
    cases h with
    | @decimal c t' d v h h1 ht =>
      exfalso
      have hc : c = 48 := by injection hx with e; exact e.symm
      subst hc
      cases h with
      | decimal h => simp at h1
      | small h => simp at h
      | capital h => simp at h
    | octal ht => injection hx with _ e; subst e; exact Or.inl ht
    | @based p b t' v hp hne ht => injection hx with _ e; exact Or.inr ⟨p, b, t', e, hp, hne, ht⟩
  · rintro (h | ⟨p, b, t', rfl, h1, h2, h3⟩)
    · exact .octal h
    · exact .based h1 h2 h3

/-- C101. An unsigned number is read from a text if and only if the text is a numeral for it. -/
theorem parseUint_iff (s : List UInt8) (n : UInt64) : goParseUint s = .ok n ↔ Magnitude s n.toNat := by
  cases s with
  | nil =>
    constructor
    · intro h; simp [goParseUint] at h
    · intro h; cases h
  | cons a rest =>
    have hok : ∀ (b : UInt8) (t : List UInt8), 2 ≤ b.toNat ∧ b.toNat ≤ 16 → baseOf (a :: rest) = (b, t) →
        (goParseUint (a :: rest) = .ok n ↔ digitsValue b.toNat 0 t = some n.toNat ∧ (95 ∈ t → underscoreOK (a :: rest) = true)) := by
      intro b t hb he
      unfold goParseUint
      rw [if_neg (by simp), he]
      simp only []
      have h0 : (0 : UInt64).toNat = 0 := rfl
      constructor
      · intro h
        split at h
        · cases h
        · rename_i m u hm
          obtain ⟨h1, h2⟩ := (uintLoop_ok b hb t 0 false m u).1 hm
          split at h
          · cases h
          · rename_i hu
            cases h
            refine ⟨by rwa [h0] at h1, fun hmem => ?_⟩
            by_contra hne
            exact hu ⟨by rw [h2]; simpa using hmem, by simpa using hne⟩
      · rintro ⟨h1, h2⟩
        rw [(uintLoop_ok b hb t 0 false n (false || t.contains 95)).2 ⟨by rwa [h0], rfl⟩]
        simp only [Bool.false_or, List.contains_eq_mem, decide_eq_true_eq]
        rw [if_neg]
        rintro ⟨h3, h4⟩
        rw [h2 h3] at h4
        cases h4
    have hloop : ∀ (b : UInt8) (hex : Bool) (t : List UInt8), 2 ≤ b.toNat ∧ b.toNat ≤ 16 → (hex = true ∨ b.toNat ≤ 10) →
        baseOf (a :: rest) = (b, t) → underscoreOK (a :: rest) = underscoreLoop hex 48 t →
        (goParseUint (a :: rest) = .ok n ↔ DigitsFrom b.toNat 0 t n.toNat) := by
      intro b hex t hb hhex he hu
      rw [hok b t hb he, digitsFrom_iff b.toNat hb.2 hex hhex t.length t (le_refl _), hu]
      constructor
      · rintro ⟨h1, h2⟩
        refine ⟨h1, ?_⟩
        by_cases hm : 95 ∈ t
        · exact h2 hm
        · exact underscoreLoop_none hex t hm _ (by decide)
      · exact fun h => ⟨h.1, fun _ => h.2⟩
    by_cases ha : a = 48
    · subst ha
      rw [digitsValue_octal]
      have h94 : ∀ t : List UInt8, underscoreLoop false 94 (48 :: t) = underscoreLoop false 48 t := by
        intro t
        rw [underscoreLoop, if_pos (Or.inl (by decide))]
      have hb8 : 2 ≤ (8 : UInt8).toNat ∧ (8 : UInt8).toNat ≤ 16 := by decide
      have hb2 : 2 ≤ (2 : UInt8).toNat ∧ (2 : UInt8).toNat ≤ 16 := by decide
      have hb16 : 2 ≤ (16 : UInt8).toNat ∧ (16 : UInt8).toNat ≤ 16 := by decide
      match rest with
      | [] =>
        rw [hloop 8 false [] hb8 (Or.inr (by decide)) rfl (h94 [])]
        simp
      | p :: t =>
        by_cases hp : baseLetter p = none
        · have hl := hp
          rw [lowerByte_letter] at hl
          have hl2 : lowerByte p ≠ 98 := by rintro h; simp [h] at hl
          have hl8 : lowerByte p ≠ 111 := by rintro h; simp [h] at hl
          have hl16 : lowerByte p ≠ 120 := by rintro h; simp [h] at hl
          have hb : baseOf (48 :: p :: t) = (8, p :: t) := by
            cases t with
            | nil => rfl
            | cons c r => simp [baseOf, hl2, hl8, hl16]
          have hu : underscoreOK (48 :: p :: t) = underscoreLoop false 48 (p :: t) := by
            rw [← h94]
            simp [underscoreOK, hl2, hl8, hl16]
          rw [hloop 8 false _ hb8 (Or.inr (by decide)) hb hu]
          constructor
          · exact Or.inl
          · rintro (h | ⟨p', b', t', h1, h2, -⟩)
            · exact h
            · injection h1 with h1 _
              rw [← h1, hp] at h2; cases h2
        · have hno : ¬ DigitsFrom 8 0 (p :: t) n.toNat := by
            intro h
            have := ((digitsFrom_iff 8 (by omega) false (Or.inr (by omega)) _ _ (le_refl _) _ _).1 h).1
            rw [letter_octal_none p hp] at this
            cases this
          cases t with
          | nil =>
            rw [hok 8 [p] hb8 rfl]
            have e8 : (8 : UInt8).toNat = 8 := rfl
            rw [e8, letter_octal_none p hp]
            constructor
            · rintro ⟨h, -⟩; cases h
            · rintro (h | ⟨p', b', t', h1, h2, h3, -⟩)
              · exact absurd h hno
              · injection h1 with _ h1
                exact absurd h1.symm h3
          | cons c r =>
            have fin : ∀ (b : UInt8) (hex : Bool), baseLetter p = some b.toNat → 2 ≤ b.toNat ∧ b.toNat ≤ 16 → (hex = true ∨ b.toNat ≤ 10) →
                baseOf (48 :: p :: c :: r) = (b, c :: r) → underscoreOK (48 :: p :: c :: r) = underscoreLoop hex 48 (c :: r) →
                (goParseUint (48 :: p :: c :: r) = .ok n ↔ (DigitsFrom 8 0 (p :: c :: r) n.toNat ∨
                  ∃ p' b' t', p :: c :: r = p' :: t' ∧ baseLetter p' = some b' ∧ t' ≠ [] ∧ DigitsFrom b' 0 t' n.toNat)) := by
              intro b hex hl hb hhex h1 h2
              rw [hloop b hex _ hb hhex h1 h2]
              constructor
              · exact fun h => Or.inr ⟨p, _, _, rfl, hl, by simp, h⟩
              · rintro (h | ⟨p', b', t', h3, h4, -, h5⟩)
                · exact absurd h hno
                · injection h3 with h3 h6
                  subst h3 h6
                  rw [hl] at h4
                  cases h4
                  exact h5
            have hl := lowerByte_letter p
            by_cases hl2 : lowerByte p = 98
            · rw [if_pos hl2] at hl
              exact fin 2 false hl hb2 (Or.inr (by decide)) (by simp [baseOf, hl2]) (by simp [underscoreOK, hl2])
            · rw [if_neg hl2] at hl
              by_cases hl8 : lowerByte p = 111
              · rw [if_pos hl8] at hl
                exact fin 8 false hl hb8 (Or.inr (by decide)) (by simp [baseOf, hl8]) (by simp [underscoreOK, hl8])
              · rw [if_neg hl8] at hl
                by_cases hl16 : lowerByte p = 120
                · rw [if_pos hl16] at hl
                  exact fin 16 true hl hb16 (Or.inl rfl) (by simp [baseOf, hl16]) (by simp [underscoreOK, hl16])
                · rw [if_neg hl16] at hl
                  exact absurd hl hp
    · have hb : baseOf (a :: rest) = (10, a :: rest) := by simp [baseOf, ha]
      have hu : underscoreOK (a :: rest) = underscoreLoop false 94 (a :: rest) := by
        cases rest with
        | nil => rfl
        | cons b r => simp [underscoreOK, ha]
      have e10 : (10 : UInt8).toNat = 10 := rfl
      rw [hok 10 _ (by decide) hb, hu, e10]
      have hdigit : ∀ d : UInt8, digitByte a = some d → d.toNat < 10 → (48 ≤ a ∧ a ≤ 57) ∧ 1 ≤ d.toNat := by
        have key : ∀ c : Fin 256, UInt8.ofNat c ≠ 48 → ∀ d ∈ digitByte (UInt8.ofNat c), d.toNat < 10 →
          (48 ≤ UInt8.ofNat c ∧ UInt8.ofNat c ≤ 57) ∧ 1 ≤ d.toNat := by decide +kernel
        intro d hd h10
        have := key ⟨a.toNat, a.toNat_lt⟩
        simp only [UInt8.ofNat_toNat] at this
        exact this ha d (by simpa using hd) h10
      constructor
      · rintro ⟨h1, h2⟩
        by_cases h95 : a = 95
        · subst h95
          have := h2 (by simp)
          rw [underscoreLoop, if_neg (by decide), if_pos rfl, if_pos (by decide)] at this
          cases this
        · rw [digitsValue, if_neg h95] at h1
          cases hd : digitByte a with
          | none => rw [hd] at h1; cases h1
          | some d =>
            rw [hd] at h1
            simp only [] at h1
            by_cases hdb : d.toNat ≥ 10
            · rw [if_pos hdb] at h1; cases h1
            · rw [if_neg hdb] at h1
              obtain ⟨h3, h4⟩ := hdigit d hd (by omega)
              refine .decimal (d := d.toNat) ((digitByte_iff a _ (by omega)).1 (by rw [hd]; rfl)) ⟨h4, by omega⟩
                ((digitsFrom_iff 10 (by omega) false (Or.inr (by omega)) _ _ (le_refl _) _ _).2 ⟨by simpa using h1, ?_⟩)
              by_cases hm : 95 ∈ rest
              · have := h2 (by simp [hm])
                rwa [underscoreLoop, if_pos (Or.inl h3)] at this
              · exact underscoreLoop_none _ _ hm _ (by decide)
      · intro h
        cases h with
        | @decimal c t d v h h1 ht =>
          have hd := (digitByte_iff a d (by omega)).2 h
          rw [Option.map_eq_some_iff] at hd
          obtain ⟨d', hd, rfl⟩ := hd
          obtain ⟨h3, h4⟩ := (digitsFrom_iff 10 (by omega) false (Or.inr (by omega)) _ _ (le_refl _) _ _).1 ht
          refine ⟨?_, fun _ => ?_⟩
          · rw [digitsValue, if_neg (digit_ne_underscore h), hd]
            simpa [h1.2] using h3
          · rw [underscoreLoop, if_pos (Or.inl (hdigit d' hd h1.2).1)]
            exact h4
        | octal ht => exact absurd rfl ha
        | based hp hne ht => exact absurd rfl ha

theorem magnitude_no_sign {c : UInt8} {t : List UInt8} {v : Nat} (h : Magnitude (c :: t) v) : c ≠ 43 ∧ c ≠ 45 := by
  cases h with
  | decimal h h1 ht =>
    constructor
    · rintro rfl; rcases h with ⟨h⟩ | ⟨h⟩ | ⟨h⟩ <;> simp at h
    · rintro rfl; rcases h with ⟨h⟩ | ⟨h⟩ | ⟨h⟩ <;> simp at h
  | octal ht => decide
  | based hp hne ht => decide

theorem toInt64_toInt (u : UInt64) : u.toInt64.toInt = (u.toNat : Int).bmod (2 ^ 64) := by
  show u.toBitVec.toInt = _
  rw [BitVec.toInt_eq_toNat_bmod]
  rfl

/-- C101. An integer is read from a text if and only if the text is a numeral for it that fits in 64 bits. -/
theorem parseInt_iff (s : List UInt8) (n : Int) : goParseInt s = some n ↔ Numeral s n := by
  have e63 : (9223372036854775808 : UInt64).toNat = 2 ^ 63 := rfl
  have hpos : ∀ un : UInt64, ¬ (un ≥ 9223372036854775808) → un.toNat < 2 ^ 63 ∧ un.toInt64.toInt = un.toNat := by
    intro un h
    have h1 : un.toNat < 2 ^ 63 := by
      have : ¬ (2 ^ 63 ≤ un.toNat) := fun h2 => h (UInt64.le_iff_toNat_le.2 (by rwa [e63]))
      omega
    refine ⟨h1, ?_⟩
    rw [toInt64_toInt]
    rw [Int.bmod_def]
    split <;> omega
  have hneg : ∀ un : UInt64, ¬ (un > 9223372036854775808) → un.toNat ≤ 2 ^ 63 ∧ (-un.toInt64).toInt = -(un.toNat : Int) := by
    intro un h
    have h1 : un.toNat ≤ 2 ^ 63 := by
      have : ¬ (2 ^ 63 < un.toNat) := fun h2 => h (UInt64.lt_iff_toNat_lt.2 (by rwa [e63]))
      omega
    refine ⟨h1, ?_⟩
    rw [Int64.toInt_neg, toInt64_toInt, Int.bmod_def, Int.bmod_def]
    split <;> split <;> omega
  have hmag : ∀ {t : List UInt8} {v : Nat}, Magnitude t v → v ≤ 2 ^ 63 → goParseUint t = .ok (UInt64.ofNat v) ∧ (UInt64.ofNat v).toNat = v := by
    intro t v h hv
    have : (UInt64.ofNat v).toNat = v := UInt64.toNat_ofNat_of_lt' (by unfold UInt64.size; omega)
    exact ⟨(parseUint_iff t _).2 (by rwa [this]), this⟩
  cases s with
  | nil =>
    constructor
    · intro h; cases h
    · intro h
      generalize hx : ([] : List UInt8) = x at h
      cases h with
      | plain h hv => subst hx; cases h
      | plus h hv => cases hx
      | minus h hv => cases hx
  | cons c rest =>
    constructor
    · intro h
      simp only [goParseInt] at h
      split at h
      · cases h
      · rename_i un hun
        rw [parseUint_iff] at hun
        by_cases h45 : c = 45
        · subst h45
          rw [if_pos (Or.inr rfl)] at hun
          simp only [not_true_eq_false, false_and, if_false, true_and, if_true] at h
          split at h
          · cases h
          · rename_i hb
            injection h with h
            rw [← h, (hneg un hb).2]
            exact .minus hun (hneg un hb).1
        · simp only [h45, not_false_eq_true, true_and, false_and, if_false] at h
          split at h
          · cases h
          · rename_i hb
            injection h with h
            rw [← h, (hpos un hb).2]
            by_cases h43 : c = 43
            · subst h43
              rw [if_pos (Or.inl rfl)] at hun
              exact .plus hun (hpos un hb).1
            · rw [if_neg (by simp [h43, h45])] at hun
              exact .plain hun (hpos un hb).1
    · intro h
      generalize hx : (c :: rest : List UInt8) = x at h
      have hnge : ∀ v : Nat, v < 2 ^ 63 → (UInt64.ofNat v).toNat = v → ¬ (UInt64.ofNat v ≥ 9223372036854775808) := by
        intro v hv he hge
        have := UInt64.le_iff_toNat_le.1 hge
        rw [e63, he] at this
        omega
      cases h with
      | @plain t v h hv =>
        subst hx
        obtain ⟨h1, h2⟩ := magnitude_no_sign h
        obtain ⟨h3, h4⟩ := hmag h (by omega)
        simp only [goParseInt, h1, h2, or_self, if_false, h3, not_false_eq_true, true_and, false_and]
        rw [if_neg (hnge v hv h4), (hpos _ (hnge v hv h4)).2, h4]
      | @plus t v h hv =>
        injection hx with h1 h2
        subst h1 h2
        obtain ⟨h3, h4⟩ := hmag h (by omega)
        have h5 : ¬ ((43 : UInt8) = 45) := by decide
        simp only [goParseInt, h5, or_false, if_true, if_false, h3, not_false_eq_true, true_and, false_and]
        rw [if_neg (hnge v hv h4), (hpos _ (hnge v hv h4)).2, h4]
      | @minus t v h hv =>
        injection hx with h1 h2
        subst h1 h2
        obtain ⟨h3, h4⟩ := hmag h hv
        have h5 : ¬ (UInt64.ofNat v > 9223372036854775808) := by
          intro hgt
          have := UInt64.lt_iff_toNat_lt.1 hgt
          rw [e63, h4] at this
          omega
        simp only [goParseInt, or_true, if_true, h3, not_true_eq_false, false_and, if_false, true_and]
        rw [if_neg h5, (hneg _ h5).2, h4]

/-- C101. A text stands for at most one number. -/
theorem numeral_unique {s : List UInt8} {n m : Int} (h : Numeral s n) (h' : Numeral s m) : n = m := by
  rw [← parseInt_iff] at h h'
  rw [h] at h'
  exact Option.some.inj h'

theorem digitChar_byte (c : Char) (h : c.isDigit = true) :
    Digit (UInt8.ofNat c.toNat) (c.toNat - 48) ∧ c.toNat - 48 < 10 ∧ (c = '0' ↔ c.toNat - 48 = 0) := by
  have h1 : 48 ≤ c.toNat ∧ c.toNat ≤ 57 := by
    simp only [Char.isDigit, Bool.and_eq_true, decide_eq_true_eq] at h
    exact ⟨UInt32.le_iff_toNat_le.1 h.1, UInt32.le_iff_toNat_le.1 h.2⟩
  have h2 : (UInt8.ofNat c.toNat).toNat = c.toNat := UInt8.toNat_ofNat_of_lt' (by unfold UInt8.size; omega)
  refine ⟨?_, by omega, ?_⟩
  · have := Digit.decimal (c := UInt8.ofNat c.toNat) (by rw [h2]; exact h1)
    rwa [h2] at this
  · constructor
    · rintro rfl; rfl
    · intro h3
      have : c.toNat = 48 := by omega
      exact Char.toNat_inj.1 this

theorem digitsFrom_digits (b : Nat) (hb : b = 10) (l : List Char) (h : ∀ c ∈ l, c.isDigit = true) : ∀ v,
    DigitsFrom b v (l.map fun c => UInt8.ofNat c.toNat) (Nat.ofDigitChars 10 l v) := by
  subst hb
  induction l with
  | nil => intro v; exact .nil
  | cons c l ih =>
    intro v
    obtain ⟨h1, h2, -⟩ := digitChar_byte c (h c (by simp))
    rw [List.map_cons, Nat.ofDigitChars_cons]
    exact .digit h1 h2 (ih (fun c hc => h c (by simp [hc])) _)

theorem toDigits_head (v : Nat) : 0 < v → (Nat.toDigits 10 v).head? ≠ some '0' := by
  induction v using Nat.strong_induction_on with
  | _ v ih =>
    intro hv
    rw [Nat.toDigits_eq_if (by omega)]
    split
    · rename_i h
      interval_cases v <;> decide
    · rename_i h
      have := ih (v / 10) (by omega) (by omega)
      cases hl : Nat.toDigits 10 (v / 10) with
      | nil => exact absurd hl Nat.toDigits_ne_nil
      | cons c l => rw [hl] at this; simpa using this

/-- C101. Every integer of 64 bits can be given: its decimal text stands for it. -/
theorem decimal_numeral (n : Int) (h : -2 ^ 63 ≤ n ∧ n < 2 ^ 63) : Numeral (bytes (toString n)) n := by
  have key : ∀ v : Nat, Magnitude ((Nat.toDigits 10 v).map fun c => UInt8.ofNat c.toNat) v := by
    intro v
    by_cases h0 : v = 0
    · subst h0
      exact .octal .nil
    · have hof : Nat.ofDigitChars 10 (Nat.toDigits 10 v) 0 = v := by
        simp [Nat.ofDigitChars_toDigits]
      have hdig : ∀ c ∈ Nat.toDigits 10 v, c.isDigit = true := fun c hc => Nat.isDigit_of_mem_toDigits (by omega) (by omega) hc
      cases hl : Nat.toDigits 10 v with
      | nil => exact absurd hl Nat.toDigits_ne_nil
      | cons c l =>
        rw [hl] at hdig hof
        obtain ⟨h1, h2, h3⟩ := digitChar_byte c (hdig c (by simp))
        rw [List.map_cons]
        have hc : c ≠ '0' := by
          rintro rfl
          exact toDigits_head v (by omega) (by rw [hl]; rfl)
        rw [Nat.ofDigitChars_cons] at hof
        have := digitsFrom_digits 10 rfl l (fun c hc => hdig c (by simp [hc])) (10 * 0 + (c.toNat - '0'.toNat))
        rw [hof] at this
        refine .decimal h1 ⟨?_, h2⟩ (by simpa using this)
        by_contra hlt
        exact hc (h3.2 (by omega))
  cases n with
  | ofNat v =>
    have e : bytes (toString (Int.ofNat v)) = (Nat.toDigits 10 v).map fun c => UInt8.ofNat c.toNat := by
      have : (toString (Int.ofNat v)).toList = Nat.toDigits 10 v := by simp [toString, Int.repr]
      unfold bytes
      rw [this]
    rw [e]
    exact .plain (key v) (by have := h.2; simp at this; omega)
  | negSucc v =>
    have e : bytes (toString (Int.negSucc v)) = 45 :: (Nat.toDigits 10 (v + 1)).map fun c => UInt8.ofNat c.toNat := by
      have : (toString (Int.negSucc v)).toList = '-' :: Nat.toDigits 10 (v + 1) := by simp [toString, Int.repr]
      unfold bytes
      rw [this]
      rfl
    rw [e]
    exact .minus (key (v + 1)) (by have := h.1; omega)

/-! ### The program -/

/-- The texts of the levels are numerals for their numbers. -/
def LevelsNumerals (l : List Setting) : Prop := ∀ n t, Setting.level n t ∈ l → Numeral t n

theorem levelsParse_iff (l : List Setting) : LevelsParse goParseInt l ↔ LevelsNumerals l := by
  unfold LevelsParse LevelsNumerals
  simp only [parseInt_iff]

/-- C101. A reader level that is not a number, or does not fit in 64 bits, ends the program with code 2 before anything is read. -/
theorem run_level_not_number (F : FloatTexts) (E : ErrorTexts) (files : List UInt8 → Option (List UInt8)) (l : List Setting)
    (args a rest : List (List UInt8)) (text : List UInt8) (hl : LevelsNumerals l) (h : SetsAll l args)
    (ha : SetsFlag "adsb_reader_level" text a) (hno : ∀ n, ¬ Numeral text n) :
    runMain F E goParseInt files (args ++ a ++ rest) = ⟨[], .exited 2⟩ := by
  have hnone : goParseInt text = none := by
    cases hp : goParseInt text with
    | none => rfl
    | some n => exact absurd ((parseInt_iff text n).1 hp) (hno n)
  have key : ∀ file level, parseFlags goParseInt file level (args ++ (a ++ rest)) = .bad := by
    induction h with
    | nil =>
      intro file level
      obtain ⟨h1, h2, h3, h4⟩ := flagArg_level text
      rw [List.nil_append]
      cases ha with
      | joined => rw [List.singleton_append, parseFlags.eq_def]; simp only [h1]; simp [level_ne_file, hnone]
      | joined2 => rw [List.singleton_append, parseFlags.eq_def]; simp only [h2]; simp [level_ne_file, hnone]
      | separate => rw [List.cons_append, parseFlags.eq_def]; simp only [h3]; simp [level_ne_file, hnone]
      | separate2 => rw [List.cons_append, parseFlags.eq_def]; simp only [h4]; simp [level_ne_file, hnone]
    | @file name b l rest' hb hrest ih =>
      intro file level
      rw [List.append_assoc, parseFlags_file goParseInt file level name _ _ hb]
      exact ih (fun n t hm => hl n t (List.mem_cons_of_mem _ hm)) _ _
    | @level n text b l rest' hb hrest ih =>
      intro file level
      rw [List.append_assoc, parseFlags_level goParseInt file level n text _ _ hb
        ((parseInt_iff _ _).2 (hl n text List.mem_cons_self))]
      exact ih (fun n t hm => hl n t (List.mem_cons_of_mem _ hm)) _ _
  unfold runMain
  rw [List.append_assoc, key]

/-- C101. Files are read at the level that was given, whichever way the number is written: every line of the file is reported at that
level, in order. -/
theorem run_file_at_level (F : FloatTexts) (E : ErrorTexts) (files : List UInt8 → Option (List UInt8)) (l : List Setting)
    (args rest : List (List UInt8)) (hl : LevelsNumerals l) (h : SetsAll l args)
    (hr : ∀ a, rest.head? = some a → NotFlag a ∨ a = bytes "--") (level : UInt8) (h2 : level.toNat ≤ 2) (hlev : levelSet l = level.toNat)
    (hfile : fileSet l ≠ []) (content : List UInt8) (hc : files (fileSet l) = some content) (lines : List (List UInt8))
    (hs : scanLines content = some lines) :
    ∃ ts, List.Forall₂ (fun s t => printSingleLine F E s level = .ok t) lines ts ∧
      runMain F E goParseInt files (args ++ rest) = ⟨ts.flatten, .returned⟩ :=
  run_file F E goParseInt files l args rest ((levelsParse_iff l).2 hl) h hr level h2 hlev hfile content hc lines hs

/-- C101. A number that is not a level stops the program by a panic. -/
theorem run_number_not_level (F : FloatTexts) (E : ErrorTexts) (files : List UInt8 → Option (List UInt8)) (l : List Setting)
    (args rest : List (List UInt8)) (hl : LevelsNumerals l) (h : SetsAll l args)
    (hr : ∀ a, rest.head? = some a → NotFlag a ∨ a = bytes "--") (hlev : ¬ (0 ≤ levelSet l ∧ levelSet l ≤ 2)) :
    runMain F E goParseInt files (args ++ rest) = ⟨[], .panicked⟩ :=
  run_wrong_level F E goParseInt files l args rest ((levelsParse_iff l).2 hl) h hr hlev

/-- C101. The only panic of the program: the arguments contain a numeral for a number other than 0, 1 and 2. -/
theorem run_panics_numeral (F : FloatTexts) (E : ErrorTexts) (files : List UInt8 → Option (List UInt8)) (args : List (List UInt8))
    (h : (runMain F E goParseInt files args).ending = .panicked) :
    ∃ text n, Numeral text n ∧ ¬ (0 ≤ n ∧ n ≤ 2) ∧ (text ∈ args ∨ ∃ a ∈ args, text <:+ a) := by
  obtain ⟨text, n, h1, h2, h3⟩ := run_panics_only F E goParseInt files args h
  exact ⟨text, n, (parseInt_iff text n).1 h1, h2, h3⟩

end Modes
