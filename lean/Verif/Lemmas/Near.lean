import Verif.Lemmas.FloatMono
import Verif.Lemmas.Taylor
import Mathlib.Analysis.SpecialFunctions.Trigonometric.Bounds
import Mathlib.Analysis.SpecialFunctions.Trigonometric.ArctanDeriv
import Mathlib.Analysis.Convex.SpecificFunctions.Deriv
/-!
# Two numbers equal up to a factor

The error of a computation made of products, quotients, sums of non-negative numbers and square roots, as a factor.
-/
noncomputable section
namespace Modes

/-- The numbers are non-negative, and within a factor `k` of one another. -/
def Near (k x y : ℝ) : Prop := 0 ≤ x ∧ 0 ≤ y ∧ x ≤ k * y ∧ y ≤ k * x

/-- The factor of one rounding: `1 + 2⁻⁵²`. -/
def kap : ℝ := 1 + 1 / 4503599627370496

theorem kap_ge : 1 ≤ kap := by unfold kap; norm_num
theorem kap_pow_ge (n : ℕ) : 1 ≤ kap ^ n := one_le_pow₀ kap_ge
theorem kap_pow_pos (n : ℕ) : 0 < kap ^ n := lt_of_lt_of_le one_pos (kap_pow_ge n)
theorem kap_pow_mono {m n : ℕ} (h : m ≤ n) : kap ^ m ≤ kap ^ n := pow_le_pow_right₀ kap_ge h

theorem kap_pow_ge' (n : ℕ) : 1 + n / 4503599627370496 ≤ kap ^ n := by
  have := one_add_mul_le_pow (a := (1 / 4503599627370496 : ℝ)) (by norm_num) n
  unfold kap
  calc (1 : ℝ) + n / 4503599627370496 = 1 + n * (1 / 4503599627370496) := by ring
    _ ≤ _ := this

theorem kap_pow_le (n : ℕ) (hn : n ≤ 100000000) : kap ^ n ≤ 1 + 1.001 * (n / 4503599627370496) := by
  induction n with
  | zero => norm_num
  | succ n ih =>
    have h := ih (by omega)
    have hn' : (n : ℝ) ≤ 100000000 := by exact_mod_cast (by omega : n ≤ 100000000)
    have h0 : (0 : ℝ) ≤ n := by positivity
    rw [pow_succ]
    push_cast
    calc kap ^ n * kap ≤ (1 + 1.001 * (n / 4503599627370496)) * kap := mul_le_mul_of_nonneg_right h (by linarith [kap_ge])
      _ ≤ _ := by unfold kap; nlinarith

namespace Near
variable {k l x y z w : ℝ}

theorem symm (h : Near k x y) : Near k y x := ⟨h.2.1, h.1, h.2.2.2, h.2.2.1⟩

theorem refl (hx : 0 ≤ x) (n : ℕ) : Near (kap ^ n) x x :=
  ⟨hx, hx, le_mul_of_one_le_left hx (kap_pow_ge n), le_mul_of_one_le_left hx (kap_pow_ge n)⟩

theorem mono (h : Near k x y) (hkl : k ≤ l) : Near l x y :=
  ⟨h.1, h.2.1, h.2.2.1.trans (mul_le_mul_of_nonneg_right hkl h.2.1), h.2.2.2.trans (mul_le_mul_of_nonneg_right hkl h.1)⟩

theorem trans (h1 : Near k x y) (h2 : Near l y z) (hk : 0 ≤ k) (hl : 0 ≤ l) : Near (k * l) x z := by
  refine ⟨h1.1, h2.2.1, ?_, ?_⟩
  · calc x ≤ k * y := h1.2.2.1
      _ ≤ k * (l * z) := mul_le_mul_of_nonneg_left h2.2.2.1 hk
      _ = _ := by ring
  · calc z ≤ l * y := h2.2.2.2
      _ ≤ l * (k * x) := mul_le_mul_of_nonneg_left h1.2.2.2 hl
      _ = _ := by ring

theorem mul (h1 : Near k x y) (h2 : Near l z w) (hk : 0 ≤ k) : Near (k * l) (x * z) (y * w) := by
  refine ⟨mul_nonneg h1.1 h2.1, mul_nonneg h1.2.1 h2.2.1, ?_, ?_⟩
  · calc x * z ≤ (k * y) * (l * w) := mul_le_mul h1.2.2.1 h2.2.2.1 h2.1 (mul_nonneg hk h1.2.1)
      _ = _ := by ring
  · calc y * w ≤ (k * x) * (l * z) := mul_le_mul h1.2.2.2 h2.2.2.2 h2.2.1 (mul_nonneg hk h1.1)
      _ = _ := by ring

theorem add (h1 : Near k x y) (h2 : Near k z w) : Near k (x + z) (y + w) := by
  refine ⟨add_nonneg h1.1 h2.1, add_nonneg h1.2.1 h2.2.1, ?_, ?_⟩
  · linarith [h1.2.2.1, h2.2.2.1]
  · linarith [h1.2.2.2, h2.2.2.2]

theorem ptrans {m n : ℕ} (h1 : Near (kap ^ m) x y) (h2 : Near (kap ^ n) y z) : Near (kap ^ (m + n)) x z := by
  rw [pow_add]; exact h1.trans h2 (kap_pow_pos m).le (kap_pow_pos n).le

theorem pmul {m n : ℕ} (h1 : Near (kap ^ m) x y) (h2 : Near (kap ^ n) z w) : Near (kap ^ (m + n)) (x * z) (y * w) := by
  rw [pow_add]; exact h1.mul h2 (kap_pow_pos m).le

theorem pmono {m n : ℕ} (h1 : Near (kap ^ m) x y) (h : m ≤ n) : Near (kap ^ n) x y := h1.mono (kap_pow_mono h)

theorem inv (h : Near k x y) (hx : 0 < x) (hy : 0 < y) : Near k x⁻¹ y⁻¹ := by
  refine ⟨(inv_pos.2 hx).le, (inv_pos.2 hy).le, ?_, ?_⟩
  · rw [← div_eq_mul_inv, le_div_iff₀ hy, inv_mul_le_iff₀ hx]; linarith [h.2.2.2]
  · rw [← div_eq_mul_inv, le_div_iff₀ hx, inv_mul_le_iff₀ hy]; linarith [h.2.2.1]

theorem psqrt {n : ℕ} (h : Near (kap ^ (2 * n)) x y) : Near (kap ^ n) (Real.sqrt x) (Real.sqrt y) := by
  have e : Real.sqrt (kap ^ (2 * n)) = kap ^ n := by
    rw [mul_comm, pow_mul, Real.sqrt_sq (kap_pow_pos n).le]
  refine ⟨Real.sqrt_nonneg _, Real.sqrt_nonneg _, ?_, ?_⟩
  · rw [← e, ← Real.sqrt_mul (kap_pow_pos _).le]; exact Real.sqrt_le_sqrt h.2.2.1
  · rw [← e, ← Real.sqrt_mul (kap_pow_pos _).le]; exact Real.sqrt_le_sqrt h.2.2.2

/-- Numbers with a small relative difference. -/
theorem of_rel (hy : 0 ≤ y) {e : ℝ} (he : 0 ≤ e) (he1 : e ≤ 1 / 4) {n : ℕ} (hn : 4 * e * 4503599627370496 ≤ 3 * n)
    (h : |x - y| ≤ e * y) : Near (kap ^ n) x y := by
  rw [abs_le] at h
  have hx : 0 ≤ x := by nlinarith [h.1]
  have hk : 1 + 4 / 3 * e ≤ kap ^ n := le_trans (by nlinarith) (kap_pow_ge' n)
  refine mono (k := 1 + 4 / 3 * e) ⟨hx, hy, ?_, ?_⟩ hk
  · nlinarith [h.2]
  · nlinarith [h.1, mul_nonneg he hy, mul_nonneg (mul_nonneg he he) hy]

/-- A rounding is one step. -/
theorem fl (hx : 0 ≤ x) : Near (kap ^ 1) (f64R x) x :=
  of_rel hx (e := 1 / 9007199254740992) (by norm_num) (by norm_num) (by norm_num) (by
    have := f64R_err x; rw [abs_of_nonneg hx] at this; linarith)

/-- Rounding a number known up to `n` steps. -/
theorem pfl {n : ℕ} (h : Near (kap ^ n) x y) : Near (kap ^ (n + 1)) (f64R x) y := by
  have := (fl h.1).ptrans h
  rwa [add_comm] at this

/-- The relative difference of close numbers. -/
theorem rel (h : Near k x y) (hk : 1 ≤ k) : |x - y| ≤ (k - 1) * y := by
  rw [abs_le]
  refine ⟨?_, by linarith [h.2.2.1]⟩
  have h1 := h.2.2.2
  have : y - x ≤ (k - 1) * x ∨ y ≤ x := by
    left; linarith
  by_cases hc : x ≤ y
  · nlinarith [h.1]
  · nlinarith [h.1, h.2.1]

end Near

/-! ## Sine and arc tangent of close numbers -/

theorem sin_mul_le (k x : ℝ) (hk : 1 ≤ k) (hx : 0 ≤ x) (h : k * x ≤ Real.pi) : Real.sin (k * x) ≤ k * Real.sin x := by
  have hc := strictConcaveOn_sin_Icc.concaveOn
  have hk0 : 0 < k := by linarith
  obtain ⟨_, hc2⟩ := hc
  have h1 := hc2 (x := 0) ⟨le_refl _, Real.pi_pos.le⟩ (y := k * x) ⟨by positivity, h⟩ (a := 1 - 1 / k) (b := 1 / k)
    (by rw [sub_nonneg, div_le_one hk0]; exact hk) (by positivity) (by ring)
  simp only [Real.sin_zero, smul_eq_mul, mul_zero, zero_add] at h1
  rw [show 1 / k * (k * x) = x by field_simp] at h1
  rw [one_div, inv_mul_le_iff₀ hk0] at h1
  exact h1

theorem near_sin {n : ℕ} {x y : ℝ} (h : Near (kap ^ n) x y) (hx : x ≤ Real.pi / 2) (hy : y ≤ Real.pi / 2) :
    Near (kap ^ n) (Real.sin x) (Real.sin y) := by
  have hpi := Real.pi_pos
  have key : ∀ x y : ℝ, Near (kap ^ n) x y → x ≤ Real.pi / 2 → y ≤ Real.pi / 2 → Real.sin x ≤ kap ^ n * Real.sin y := by
    intro x y h hx hy
    have hs : 0 ≤ Real.sin y := Real.sin_nonneg_of_nonneg_of_le_pi h.2.1 (by linarith)
    rcases le_total x y with hxy | hxy
    · calc Real.sin x ≤ Real.sin y := Real.sin_le_sin_of_le_of_le_pi_div_two (by linarith [h.1]) hy hxy
        _ ≤ _ := le_mul_of_one_le_left hs (kap_pow_ge n)
    · rcases h.2.1.eq_or_lt with h0 | h0
      · have : x = 0 := le_antisymm (by have := h.2.2.1; rw [← h0, mul_zero] at this; exact this) h.1
        rw [this, ← h0]; simp
      · have := sin_mul_le (x / y) y (by rwa [le_div_iff₀ h0, one_mul]) h.2.1 (by rw [div_mul_cancel₀ _ h0.ne']; linarith)
        rw [div_mul_cancel₀ _ h0.ne'] at this
        exact this.trans (mul_le_mul_of_nonneg_right (by rw [div_le_iff₀ h0]; exact h.2.2.1) hs)
  exact ⟨Real.sin_nonneg_of_nonneg_of_le_pi h.1 (by linarith), Real.sin_nonneg_of_nonneg_of_le_pi h.2.1 (by linarith),
    key x y h hx hy, key y x h.symm hy hx⟩

theorem arctan_mul_le (k x : ℝ) (hk : 1 ≤ k) (hx : 0 ≤ x) : Real.arctan (k * x) ≤ k * Real.arctan x := by
  have := nonneg_of_deriv (fun x => k * Real.arctan x - Real.arctan (k * x))
    (fun x => k * (1 / (1 + x ^ 2)) - 1 / (1 + (k * x) ^ 2) * (k * 1))
    (fun x => ((Real.hasDerivAt_arctan x).const_mul k).sub ((((hasDerivAt_id x).const_mul k)).arctan))
    (by simp) (fun x _ => by
      have h : 1 / (1 + (k * x) ^ 2) ≤ 1 / (1 + x ^ 2) := by
        apply one_div_le_one_div_of_le (by positivity)
        have : x ^ 2 ≤ k ^ 2 * x ^ 2 := le_mul_of_one_le_left (sq_nonneg x) (by nlinarith)
        linarith [mul_pow k x 2]
      have := mul_le_mul_of_nonneg_left h (by linarith : 0 ≤ k)
      linarith) x hx
  simpa using this

theorem near_arctan {n : ℕ} {x y : ℝ} (h : Near (kap ^ n) x y) : Near (kap ^ n) (Real.arctan x) (Real.arctan y) := by
  refine ⟨Real.arctan_nonneg.2 h.1, Real.arctan_nonneg.2 h.2.1, ?_, ?_⟩
  · exact (Real.arctan_mono h.2.2.1).trans (arctan_mul_le _ _ (kap_pow_ge n) h.2.1)
  · exact (Real.arctan_mono h.2.2.2).trans (arctan_mul_le _ _ (kap_pow_ge n) h.1)

end Modes
