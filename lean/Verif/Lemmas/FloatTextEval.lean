import Verif.Model.FloatText
import Verif.Lemmas.FloatEval
/-!
# Evaluating the texts of floating point numbers in the kernel
-/
namespace Modes

/-- `shortStep` of `m / 2^s`: the number of units, or none; `none` if it is not computed. -/
def shortStepFast (p m s k : ℕ) : Option (Option ℕ) :=
  let down := m * 10 ^ k / 2 ^ s
  match rnIs p down (10 ^ k) m s, rnIs p (down + 1) (10 ^ k) m s with
  | some true, some true => some (some (rheNat (m * 10 ^ k) (2 ^ s)))
  | some true, some false => some (some down)
  | some false, some true => some (some (down + 1))
  | some false, some false => some none
  | _, _ => none

theorem shortStepFast_spec {p m s k : ℕ} {r : Option ℕ} (hp : 1 ≤ p) (h : shortStepFast p m s k = some r) :
    shortStep p ((m : ℚ) / 2 ^ s) k = r := by
  have hx : (m : ℚ) / 2 ^ s * 10 ^ k = ((m * 10 ^ k : ℕ) : ℚ) / ((2 ^ s : ℕ) : ℚ) := by
    push_cast; ring
  have hfl : ⌊(m : ℚ) / 2 ^ s * 10 ^ k⌋₊ = m * 10 ^ k / 2 ^ s := by
    rw [hx, Nat.floor_div_eq_div]
  have hten : ((10 : ℚ) ^ k) = ((10 ^ k : ℕ) : ℚ) := by push_cast; rfl
  unfold shortStepFast at h
  simp only [] at h
  unfold shortStep
  simp only [hfl]
  rw [hx, rheNat_eq _ _ (by positivity), hten]
  cases h1 : rnIs p (m * 10 ^ k / 2 ^ s) (10 ^ k) m s with
  | none => rw [h1] at h; exact nomatch h
  | some u =>
    cases h2 : rnIs p (m * 10 ^ k / 2 ^ s + 1) (10 ^ k) m s with
    | none => rw [h1, h2] at h; cases u <;> exact nomatch h
    | some v =>
      rw [h1, h2] at h
      have e1 := rnIs_spec hp (by positivity) h1
      have e2 := rnIs_spec hp (by positivity) h2
      simp only [e1, e2]
      cases u <;> cases v <;> simp at h ⊢ <;> exact h

/-- `shortSearch` of `m / 2^s`. -/
def shortSearchFast (p m s : ℕ) : ℕ → ℕ → Option (ℕ × ℕ)
  | 0, k => some (m * 10 ^ k / 2 ^ s, k)
  | fuel + 1, k =>
    match shortStepFast p m s k with
    | some (some n) => some (n, k)
    | some none => shortSearchFast p m s fuel (k + 1)
    | none => none

theorem shortSearchFast_spec {p m s : ℕ} {r : ℕ × ℕ} (hp : 1 ≤ p) : ∀ fuel k, shortSearchFast p m s fuel k = some r →
    shortSearch p ((m : ℚ) / 2 ^ s) fuel k = r
  | 0, k, h => by
    have hx : (m : ℚ) / 2 ^ s * 10 ^ k = ((m * 10 ^ k : ℕ) : ℚ) / ((2 ^ s : ℕ) : ℚ) := by
      push_cast; ring
    unfold shortSearchFast at h
    unfold shortSearch
    rw [hx, Nat.floor_div_eq_div]
    exact Option.some.inj h
  | fuel + 1, k, h => by
    unfold shortSearchFast at h
    unfold shortSearch
    cases h1 : shortStepFast p m s k with
    | none => rw [h1] at h; exact nomatch h
    | some o =>
      rw [shortStepFast_spec hp h1]
      rw [h1] at h
      cases o with
      | none => exact shortSearchFast_spec hp fuel (k + 1) h
      | some n => exact Option.some.inj h

/-- The text of the floating point number `m / 2^s`, a fraction that cannot be simplified. -/
def floatTextFast (p m s : ℕ) : Option Txt :=
  if m % 2 = 1 ∨ s = 0 then
    match rnIs p m (2 ^ s) m s with
    | some true => (shortSearchFast p m s (s + 1) 0).map fun r => decimalText r.1 r.2
    | _ => none
  else none

theorem floatTextFast_spec {p m s : ℕ} {t : Txt} (hp : 1 ≤ p) (h : floatTextFast p m s = some t) : floatText p ((m : ℚ) / 2 ^ s) = t := by
  unfold floatTextFast at h
  split at h
  swap
  · exact nomatch h
  rename_i hred
  split at h
  swap
  · exact nomatch h
  rename_i hrn
  obtain ⟨r, h1, h2⟩ := Option.map_eq_some_iff.1 h
  have hr : rnd p ((m : ℚ) / ((2 ^ s : ℕ) : ℚ)) = (m : ℚ) / 2 ^ s := (rnIs_spec hp (by positivity) hrn).2 rfl
  have hpow : ((2 ^ s : ℕ) : ℚ) = 2 ^ s := by push_cast; rfl
  rw [hpow] at hr
  have hnn : (0 : ℚ) ≤ (m : ℚ) / 2 ^ s := by positivity
  have hcop : Nat.Coprime m (2 ^ s) := by
    rcases hred with hm | rfl
    · exact Nat.Coprime.pow_right _ (Nat.coprime_two_right.2 (Nat.odd_iff.2 hm))
    · simp
  have hden : ((m : ℚ) / 2 ^ s).den = 2 ^ s := by
    have := Rat.den_div_eq_of_coprime (a := (m : ℤ)) (b := ((2 ^ s : ℕ) : ℤ)) (by positivity) (by simpa using hcop)
    push_cast at this
    exact_mod_cast this
  unfold floatText
  rw [if_pos hr]
  unfold shortText
  simp only []
  rw [hden, Nat.log2_two_pow, abs_of_nonneg hnn, if_neg (not_lt.2 hnn), shortSearchFast_spec hp _ _ h1]
  exact h2

end Modes
