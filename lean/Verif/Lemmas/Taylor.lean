import Mathlib.Analysis.SpecialFunctions.Trigonometric.Deriv
import Mathlib.Analysis.SpecialFunctions.Trigonometric.Bounds
import Mathlib.Analysis.Calculus.MeanValue
import Mathlib.Analysis.Calculus.Deriv.Polynomial
import Mathlib.Algebra.BigOperators.Intervals
import Mathlib.Tactic.FieldSimp
/-! Partial sums of the series of sine and cosine bound them alternately from above and below, for `0 ≤ x`. -/
open Finset
namespace Modes

/-- `x - x^3/3! + ...`, `n` terms. -/
noncomputable def sinSum (n : ℕ) (x : ℝ) : ℝ := ∑ i ∈ range n, (-1) ^ i * (x ^ (2 * i + 1) / (2 * i + 1).factorial)
/-- `1 - x^2/2! + ...`, `n` terms. -/
noncomputable def cosSum (n : ℕ) (x : ℝ) : ℝ := ∑ i ∈ range n, (-1) ^ i * (x ^ (2 * i) / (2 * i).factorial)

theorem sinSum_deriv (n : ℕ) (x : ℝ) : HasDerivAt (sinSum n) (cosSum n x) x := by
  unfold sinSum cosSum
  have h : HasDerivAt (fun x : ℝ => ∑ i ∈ range n, (-1 : ℝ) ^ i * (x ^ (2 * i + 1) / (2 * i + 1).factorial))
      (∑ i ∈ range n, (-1 : ℝ) ^ i * (((2 * i + 1 : ℕ) : ℝ) * x ^ (2 * i) / (2 * i + 1).factorial)) x := by
    apply HasDerivAt.fun_sum
    intro i _
    have := ((hasDerivAt_pow (2 * i + 1) x).div_const ((2 * i + 1).factorial : ℝ)).const_mul ((-1 : ℝ) ^ i)
    simpa using this
  convert h using 1
  apply sum_congr rfl
  intro i _
  rw [Nat.factorial_succ]
  have h1 : ((2 * i).factorial : ℝ) ≠ 0 := by positivity
  have h2 : ((2 * i + 1 : ℕ) : ℝ) ≠ 0 := by positivity
  push_cast at h2 ⊢
  field_simp

theorem cosSum_deriv (n : ℕ) (x : ℝ) : HasDerivAt (cosSum (n + 1)) (-sinSum n x) x := by
  unfold sinSum cosSum
  have h : HasDerivAt (fun x : ℝ => ∑ i ∈ range (n + 1), (-1 : ℝ) ^ i * (x ^ (2 * i) / (2 * i).factorial))
      (∑ i ∈ range (n + 1), (-1 : ℝ) ^ i * (((2 * i : ℕ) : ℝ) * x ^ (2 * i - 1) / (2 * i).factorial)) x := by
    apply HasDerivAt.fun_sum
    intro i _
    have := ((hasDerivAt_pow (2 * i) x).div_const ((2 * i).factorial : ℝ)).const_mul ((-1 : ℝ) ^ i)
    simpa using this
  convert h using 1
  rw [sum_range_succ']
  simp only [mul_zero, Nat.cast_zero, zero_mul, zero_div, add_zero]
  rw [← sum_neg_distrib]
  apply sum_congr rfl
  intro i _
  rw [show 2 * (i + 1) - 1 = 2 * i + 1 by omega, show 2 * (i + 1) = (2 * i + 1) + 1 by ring, Nat.factorial_succ (2 * i + 1)]
  have h1 : ((2 * i + 1).factorial : ℝ) ≠ 0 := by positivity
  have h2 : ((2 * i + 1 + 1 : ℕ) : ℝ) ≠ 0 := by positivity
  push_cast at h2 ⊢
  rw [pow_succ]
  field_simp
  ring

theorem nonneg_of_deriv (f f' : ℝ → ℝ) (hd : ∀ x, HasDerivAt f (f' x) x) (h0 : 0 ≤ f 0) (h : ∀ x, 0 ≤ x → 0 ≤ f' x) (x : ℝ)
    (hx : 0 ≤ x) : 0 ≤ f x := by
  have hm : MonotoneOn f (Set.Ici 0) := by
    apply monotoneOn_of_deriv_nonneg (convex_Ici 0)
    · exact fun y _ => (hd y).continuousAt.continuousWithinAt
    · exact fun y _ => (hd y).differentiableAt.differentiableWithinAt
    · intro y hy
      rw [interior_Ici] at hy
      rw [(hd y).deriv]
      exact h y (le_of_lt hy)
  exact le_trans h0 (hm Set.self_mem_Ici hx hx)

theorem sinSum_zero (n : ℕ) : sinSum n 0 = 0 := by
  unfold sinSum
  apply sum_eq_zero
  intro i _
  simp

theorem cosSum_zero (n : ℕ) : cosSum (n + 1) 0 = 1 := by
  unfold cosSum
  rw [sum_range_succ']
  simp

theorem taylor_bounds (n : ℕ) : (∀ x, 0 ≤ x → 0 ≤ (-1) ^ (n + 1) * (Real.cos x - cosSum (n + 1) x)) ∧
    (∀ x, 0 ≤ x → 0 ≤ (-1) ^ (n + 1) * (Real.sin x - sinSum (n + 1) x)) := by
  have step (k : ℕ) (h : ∀ x, 0 ≤ x → 0 ≤ (-1) ^ (k + 1) * (Real.cos x - cosSum (k + 1) x)) :
      ∀ x, 0 ≤ x → 0 ≤ (-1) ^ (k + 1) * (Real.sin x - sinSum (k + 1) x) := by
    intro x hx
    refine nonneg_of_deriv (fun x => (-1) ^ (k + 1) * (Real.sin x - sinSum (k + 1) x)) _
      (fun y => ((Real.hasDerivAt_sin y).sub (sinSum_deriv (k + 1) y)).const_mul _) ?_ h x hx
    simp [sinSum_zero]
  induction n with
  | zero =>
    have h : ∀ x : ℝ, 0 ≤ x → 0 ≤ (-1 : ℝ) ^ (0 + 1) * (Real.cos x - cosSum (0 + 1) x) := by
      intro x _
      simp [cosSum]
      exact Real.cos_le_one x
    exact ⟨h, step 0 h⟩
  | succ n ih =>
    have h : ∀ x : ℝ, 0 ≤ x → 0 ≤ (-1 : ℝ) ^ (n + 1 + 1) * (Real.cos x - cosSum (n + 1 + 1) x) := by
      intro x hx
      refine nonneg_of_deriv (fun x => (-1) ^ (n + 1 + 1) * (Real.cos x - cosSum (n + 1 + 1) x)) _
        (fun y => ((Real.hasDerivAt_cos y).sub (cosSum_deriv (n + 1) y)).const_mul _) ?_ ?_ x hx
      · simp [cosSum_zero]
      · intro y hy
        have := ih.2 y hy
        rw [pow_succ]
        linarith
    exact ⟨h, step (n + 1) h⟩

theorem cosSum_le (n : ℕ) (x : ℝ) (hx : 0 ≤ x) : cosSum (2 * n + 2) x ≤ Real.cos x := by
  have := (taylor_bounds (2 * n + 1)).1 x hx
  rw [show 2 * n + 1 + 1 = 2 * (n + 1) by ring, pow_mul] at this
  norm_num at this
  rw [show 2 * n + 2 = 2 * (n + 1) by ring]
  linarith

theorem le_cosSum (n : ℕ) (x : ℝ) (hx : 0 ≤ x) : Real.cos x ≤ cosSum (2 * n + 1) x := by
  have := (taylor_bounds (2 * n)).1 x hx
  rw [pow_succ, pow_mul] at this
  norm_num at this
  linarith

theorem sinSum_le (n : ℕ) (x : ℝ) (hx : 0 ≤ x) : sinSum (2 * n + 2) x ≤ Real.sin x := by
  have := (taylor_bounds (2 * n + 1)).2 x hx
  rw [show 2 * n + 1 + 1 = 2 * (n + 1) by ring, pow_mul] at this
  norm_num at this
  rw [show 2 * n + 2 = 2 * (n + 1) by ring]
  linarith

theorem le_sinSum (n : ℕ) (x : ℝ) (hx : 0 ≤ x) : Real.sin x ≤ sinSum (2 * n + 1) x := by
  have := (taylor_bounds (2 * n)).2 x hx
  rw [pow_succ, pow_mul] at this
  norm_num at this
  linarith

end Modes
