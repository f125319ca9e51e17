import Verif.Lemmas.FloatMono
import Mathlib.Algebra.Order.Floor.Semifield
/-!
# Evaluating the rounding in the kernel

The same numbers as `rnd`, with natural numbers only, so that the kernel can compute them quickly.
-/
namespace Modes

/-- `A / B` rounded to the nearest integer, ties to even. -/
def rheNat (A B : ℕ) : ℕ :=
  if 2 * (A % B) < B then A / B else if B < 2 * (A % B) then A / B + 1 else if A / B % 2 = 0 then A / B else A / B + 1

theorem rheNat_eq (A B : ℕ) (hB : 0 < B) : roundHalfEven ((A : ℚ) / B) = (rheNat A B : ℤ) := by
  have hB' : (0 : ℚ) < B := by exact_mod_cast hB
  have hfl : ⌊((A : ℚ) / B)⌋ = ((A / B : ℕ) : ℤ) := by
    rw [Rat.floor_natCast_div_natCast]
    rfl
  have hdiv : (A : ℚ) = B * ((A / B : ℕ) : ℚ) + ((A % B : ℕ) : ℚ) := by exact_mod_cast (Nat.div_add_mod A B).symm
  have hr : (A : ℚ) / B - ((A / B : ℕ) : ℚ) = ((A % B : ℕ) : ℚ) / B := by
    rw [eq_div_iff hB'.ne', sub_mul, div_mul_cancel₀ _ hB'.ne', hdiv]
    ring
  unfold roundHalfEven rheNat
  simp only [hfl]
  rw [show ((((A / B : ℕ) : ℤ)) : ℚ) = ((A / B : ℕ) : ℚ) by norm_cast, hr]
  have h1 : ((A % B : ℕ) : ℚ) / B < 1 / 2 ↔ 2 * (A % B) < B := by
    rw [div_lt_div_iff₀ hB' (by norm_num)]
    constructor
    · intro h; have : ((2 * (A % B) : ℕ) : ℚ) < (B : ℕ) := by push_cast; linarith
      exact_mod_cast this
    · intro h; have : ((2 * (A % B) : ℕ) : ℚ) < (B : ℕ) := by exact_mod_cast h
      push_cast at this; linarith
  have h2 : 1 / 2 < ((A % B : ℕ) : ℚ) / B ↔ B < 2 * (A % B) := by
    rw [div_lt_div_iff₀ (by norm_num) hB']
    constructor
    · intro h; have : ((B : ℕ) : ℚ) < ((2 * (A % B) : ℕ) : ℚ) := by push_cast; linarith
      exact_mod_cast this
    · intro h; have : ((B : ℕ) : ℚ) < ((2 * (A % B) : ℕ) : ℚ) := by exact_mod_cast h
      push_cast at this; linarith
  simp only [h1, h2]
  split_ifs <;> first | rfl | omega | (push_cast; rfl)

/-- The exponent: `s` such that `a / b * 2^s` has `p` bits. -/
def rnShift (p a b : ℕ) : ℕ :=
  let s := p - 1 + b.log2 - a.log2
  if 2 ^ (p - 1) * b ≤ a * 2 ^ s then s else s + 1

/-- `a / b` rounded to `p` bits: `m` and `s` such that it is `m / 2^s`. -/
def rn (p a b : ℕ) : Option (ℕ × ℕ) :=
  if a = 0 then some (0, 0)
  else
    let s := rnShift p a b
    if 2 ^ (p - 1) * b ≤ a * 2 ^ s ∧ a * 2 ^ s < 2 ^ p * b then some (rheNat (a * 2 ^ s) b, s) else none

theorem rn_spec {p a b m s : ℕ} (hp : 1 ≤ p) (hb : 0 < b) (h : rn p a b = some (m, s)) : rnd p ((a : ℚ) / b) = (m : ℚ) / 2 ^ s := by
  unfold rn at h
  split at h
  · rename_i ha
    obtain ⟨rfl, rfl⟩ := Prod.mk.inj (Option.some.inj h)
    simp [ha, rnd_zero]
  rename_i ha
  simp only [] at h
  split at h
  swap
  · exact nomatch h
  rename_i hc
  obtain ⟨rfl, hs⟩ := Prod.mk.inj (Option.some.inj h)
  rw [hs] at hc ⊢
  have hb' : (0 : ℚ) < b := by exact_mod_cast hb
  have ha' : (0 : ℚ) < a := by exact_mod_cast Nat.pos_of_ne_zero ha
  have hx : (0 : ℚ) < (a : ℚ) / b := div_pos ha' hb'
  have hlog : Int.log 2 |(a : ℚ) / b| = (p : ℤ) - 1 - s := by
    rw [abs_of_pos hx]
    have c1 : ((2 ^ (p - 1) * b : ℕ) : ℚ) ≤ ((a * 2 ^ s : ℕ) : ℚ) := by exact_mod_cast hc.1
    have c2 : ((a * 2 ^ s : ℕ) : ℚ) < ((2 ^ p * b : ℕ) : ℚ) := by exact_mod_cast hc.2
    push_cast at c1 c2
    have e1 : ((2 : ℕ) : ℚ) ^ ((p : ℤ) - 1 - s) ≤ (a : ℚ) / b := by
      rw [zpow_sub₀ (by norm_num), show (p : ℤ) - 1 = ((p - 1 : ℕ) : ℤ) by omega, zpow_natCast, zpow_natCast, div_le_div_iff₀ (by positivity) hb']
      exact_mod_cast hc.1
    have e2 : (a : ℚ) / b < ((2 : ℕ) : ℚ) ^ ((p : ℤ) - 1 - s + 1) := by
      rw [show (p : ℤ) - 1 - s + 1 = p - s by ring, zpow_sub₀ (by norm_num), zpow_natCast, zpow_natCast, div_lt_div_iff₀ hb' (by positivity)]
      exact_mod_cast hc.2
    have g1 := (Int.zpow_le_iff_le_log (b := 2) (by norm_num) hx).1 e1
    have g2 := (Int.lt_zpow_iff_log_lt (b := 2) (by norm_num) hx).1 e2
    omega
  unfold rnd
  rw [if_neg hx.ne', hlog]
  simp only []
  rw [show (p : ℤ) - 1 - s - (p - 1) = -(s : ℤ) by ring, zpow_neg, zpow_natCast, div_inv_eq_mul, div_mul_eq_mul_div,
    show (a : ℚ) * 2 ^ s = ((a * 2 ^ s : ℕ) : ℚ) by push_cast; rfl, rheNat_eq _ _ hb]
  push_cast
  rw [div_eq_mul_inv]

/-- Whether `a / b` is rounded to `m / 2^s`. -/
def rnIs (p a b m s : ℕ) : Option Bool := (rn p a b).map fun r => r.1 * 2 ^ s == m * 2 ^ r.2

theorem rnIs_spec {p a b m s : ℕ} {r : Bool} (hp : 1 ≤ p) (hb : 0 < b) (h : rnIs p a b m s = some r) :
    rnd p ((a : ℚ) / b) = (m : ℚ) / 2 ^ s ↔ r = true := by
  unfold rnIs at h
  obtain ⟨⟨m', s'⟩, h1, h2⟩ := Option.map_eq_some_iff.1 h
  rw [rn_spec hp hb h1, ← h2, beq_iff_eq, div_eq_div_iff (by positivity) (by positivity)]
  norm_cast

end Modes
