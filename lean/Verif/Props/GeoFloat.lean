import Verif.Model.GeoFloat
import Verif.Lemmas.FloatR
import Verif.Props.GeoAirborne
/-!
# Rounding in the decoding of airborne positions

The computation with `float64` rounding (`airborneGlobalF f64R`) follows the exact one (`airborneGlobal`, to which C55 and C58 apply).
-/
noncomputable section
namespace Modes
namespace Geo

/-- Without rounding, the definitions of Model/GeoFloat are those of Model/Geo. -/
theorem airborneGlobalF_exact : airborneGlobalF id getNumberOfLongitude = airborneGlobal := rfl
theorem surfaceGlobalF_exact : surfaceGlobalF id getNumberOfLongitude = surfaceGlobal := rfl
theorem airborneLocalF_exact : airborneLocalF id getNumberOfLongitude = airborneLocal := rfl
theorem surfaceLocalF_exact : surfaceLocalF id getNumberOfLongitude = surfaceLocal := rfl

theorem cprF_eq (x : UInt32) : cprF f64R x = cpr x := by
  have hx : x.toNat < 4294967296 := x.toNat_lt
  have e1 : f64R (x.toNat : ℝ) = x.toNat := by
    have := f64R_int (x.toNat : ℤ) (by rw [abs_of_nonneg (by positivity)]; omega)
    simpa using this
  unfold cprF cpr maxBinaryValue
  rw [e1]
  exact f64R_grid _ (x.toNat : ℤ) (by simp) (by rw [abs_of_nonneg (by positivity)]; omega)

/-- The quotient of whole numbers is rounded without crossing a whole number. -/
theorem floor_f64R_div (j : ℤ) (n : ℕ) (hn : 1 ≤ n) (hn' : n ≤ 64) (hj : |j| ≤ 1099511627776) :
    ⌊f64R ((j : ℝ) / n)⌋ = ⌊(j : ℝ) / n⌋ := by
  have hnp : (0 : ℝ) < n := by exact_mod_cast hn
  have h1 := Int.emod_add_mul_ediv j n
  have h2 := Int.emod_nonneg j (by omega : (n : ℤ) ≠ 0)
  have h3 := Int.emod_lt_of_pos j (by omega : 0 < (n : ℤ))
  have e : ((j % n : ℤ) : ℝ) + n * ((j / n : ℤ) : ℝ) = j := by exact_mod_cast h1
  have hd : (j : ℝ) / n = ((j / n : ℤ) : ℝ) + ((j % n : ℤ) : ℝ) / n := by rw [← e]; field_simp; ring
  have hq : |j / (n : ℤ)| ≤ 1099511627776 := by
    rw [abs_le] at hj ⊢
    constructor
    · have : (n : ℤ) * -1099511627776 ≤ j := by nlinarith [hj.1]
      rw [Int.le_ediv_iff_mul_le (by omega)]; linarith
    · have : j < (n : ℤ) * (1099511627776 + 1) := by nlinarith [hj.2]
      have := Int.ediv_lt_of_lt_mul (by omega : (0 : ℤ) < n) (by linarith : j < (1099511627776 + 1) * (n : ℤ))
      omega
  by_cases h0 : j % n = 0
  · rw [hd, h0, Int.cast_zero, zero_div, add_zero, f64R_int _ (by omega)]
  · have hr1 : (1 : ℝ) ≤ ((j % n : ℤ) : ℝ) := by exact_mod_cast (by omega : 1 ≤ j % n)
    have hr2 : ((j % n : ℤ) : ℝ) ≤ n - 1 := by
      have : j % n ≤ (n : ℤ) - 1 := by omega
      have : ((j % n : ℤ) : ℝ) ≤ (((n : ℤ) - 1 : ℤ) : ℝ) := by exact_mod_cast this
      push_cast at this; exact this
    have f1 : 1 / 64 ≤ ((j % n : ℤ) : ℝ) / n := by
      have : (n : ℝ) ≤ 64 := by exact_mod_cast hn'
      rw [div_le_div_iff₀ (by norm_num) hnp]; nlinarith
    have f2 : ((j % n : ℤ) : ℝ) / n ≤ 1 - 1 / 64 := by
      have : (n : ℝ) ≤ 64 := by exact_mod_cast hn'
      rw [div_le_iff₀ hnp]; nlinarith
    have hfl : ⌊(j : ℝ) / n⌋ = j / n := by
      rw [Int.floor_eq_iff, hd]; constructor <;> linarith
    rw [hfl, Int.floor_eq_iff]
    have he := f64R_err ((j : ℝ) / n)
    have hqr : |((j / n : ℤ) : ℝ)| ≤ 1099511627776 := by exact_mod_cast hq
    have hab : |(j : ℝ) / n| ≤ 1099511627777 := by
      rw [hd]; refine le_trans (abs_add_le _ _) ?_
      rw [abs_of_pos (by linarith : (0 : ℝ) < ((j % n : ℤ) : ℝ) / n)]; linarith
    have hb : |(j : ℝ) / n| / 9007199254740992 ≤ 1 / 128 := by rw [div_le_iff₀ (by norm_num)]; linarith
    have := abs_le.1 (le_trans he hb)
    constructor <;> linarith [this.1, this.2]

/-- The decoder's `mod` of whole numbers is exact. -/
theorem modF_int (j : ℤ) (n : ℕ) (hn : 1 ≤ n) (hn' : n ≤ 64) (hj : |j| ≤ 1099511627776) :
    modF f64R (j : ℝ) (n : ℝ) = mod (j : ℝ) (n : ℝ) := by
  have hmod := mod_int j n (by omega)
  have hfl : ⌊(j : ℝ) / n⌋ = j / n := by
    have : mod (j : ℝ) n = j - n * (⌊(j : ℝ) / n⌋ : ℝ) := rfl
    rw [this, Int.emod_def] at hmod
    push_cast at hmod
    have hnp : (n : ℝ) ≠ 0 := by positivity
    have := mul_left_cancel₀ hnp (by linarith : (n : ℝ) * (⌊(j : ℝ) / n⌋ : ℝ) = n * ((j / n : ℤ) : ℝ))
    exact_mod_cast this
  unfold modF
  rw [floor_f64R_div j n hn hn' hj, hmod, hfl]
  have h2 := Int.emod_nonneg j (by omega : (n : ℤ) ≠ 0)
  have h3 := Int.emod_lt_of_pos j (by omega : 0 < (n : ℤ))
  have h1 := Int.emod_add_mul_ediv j n
  have hp : f64R ((n : ℝ) * ((j / n : ℤ) : ℝ)) = (((n : ℤ) * (j / n) : ℤ) : ℝ) := by
    rw [← f64R_int ((n : ℤ) * (j / n)) (by rw [abs_le] at hj ⊢; constructor <;> omega)]
    push_cast; rfl
  rw [hp]
  have : (j : ℝ) - (((n : ℤ) * (j / n) : ℤ) : ℝ) = ((j % n : ℤ) : ℝ) := by
    rw [Int.emod_def]; push_cast; ring
  rw [this]
  exact f64R_int _ (by rw [abs_le]; constructor <;> omega)

/-- A coordinate within a zone, as a number of steps. -/
theorem cpr_int (x : UInt32) : cpr x = ((x.toNat : ℤ) : ℝ) / 131072 := by unfold cpr maxBinaryValue; simp

/-- The index of the zone is computed exactly. -/
theorem indexF_eq (n : ℕ) (hn : 1 ≤ n) (hn' : n ≤ 64) (a b : UInt32) :
    f64R (f64R (f64R (((n : ℝ) - 1) * cpr a) - f64R ((n : ℝ) * cpr b)) + 1 / 2) = ((n : ℝ) - 1) * cpr a - n * cpr b + 1 / 2 := by
  have ha : (a.toNat : ℤ) < 4294967296 := by exact_mod_cast a.toNat_lt
  have hb : (b.toNat : ℤ) < 4294967296 := by exact_mod_cast b.toNat_lt
  have ha0 : (0 : ℤ) ≤ a.toNat := by positivity
  have hb0 : (0 : ℤ) ≤ b.toNat := by positivity
  have hn1 : (1 : ℤ) ≤ n := by exact_mod_cast hn
  have hn2 : (n : ℤ) ≤ 64 := by exact_mod_cast hn'
  have p1 : 0 ≤ ((n : ℤ) - 1) * a.toNat := mul_nonneg (by omega) ha0
  have p2 : ((n : ℤ) - 1) * a.toNat ≤ 64 * 4294967296 := mul_le_mul (by omega) ha.le ha0 (by norm_num)
  have q1 : 0 ≤ (n : ℤ) * b.toNat := mul_nonneg (by omega) hb0
  have q2 : (n : ℤ) * b.toNat ≤ 64 * 4294967296 := mul_le_mul (by omega) hb.le hb0 (by norm_num)
  have e1 : f64R (((n : ℝ) - 1) * cpr a) = ((n : ℝ) - 1) * cpr a := by
    refine f64R_grid _ (((n : ℤ) - 1) * a.toNat) ?_ (by rw [abs_le]; constructor <;> linarith)
    rw [cpr_int]; push_cast; ring
  have e2 : f64R ((n : ℝ) * cpr b) = (n : ℝ) * cpr b := by
    refine f64R_grid _ ((n : ℤ) * b.toNat) ?_ (by rw [abs_le]; constructor <;> linarith)
    rw [cpr_int]; push_cast; ring
  have e3 : f64R (((n : ℝ) - 1) * cpr a - n * cpr b) = ((n : ℝ) - 1) * cpr a - n * cpr b := by
    refine f64R_grid _ (((n : ℤ) - 1) * a.toNat - (n : ℤ) * b.toNat) ?_ (by rw [abs_le]; constructor <;> linarith)
    rw [cpr_int, cpr_int]; push_cast; ring
  rw [e1, e2, e3]
  refine f64R_grid _ (((n : ℤ) - 1) * a.toNat - (n : ℤ) * b.toNat + 65536) ?_ (by rw [abs_le]; constructor <;> linarith)
  rw [cpr_int, cpr_int]; push_cast; ring

/-- Bound of the index. -/
theorem index_bound (n : ℕ) (hn : 1 ≤ n) (hn' : n ≤ 64) (a b : UInt32) :
    |⌊((n : ℝ) - 1) * cpr a - n * cpr b + 1 / 2⌋| ≤ 1099511627776 := by
  have hc (x : UInt32) : 0 ≤ cpr x ∧ cpr x ≤ 32768 := by
    have hx : (x.toNat : ℝ) < 4294967296 := by exact_mod_cast x.toNat_lt
    unfold cpr maxBinaryValue
    exact ⟨by positivity, by rw [div_le_iff₀ (by norm_num)]; linarith⟩
  have hn1 : (1 : ℝ) ≤ n := by exact_mod_cast hn
  have hn2 : (n : ℝ) ≤ 64 := by exact_mod_cast hn'
  have p1 : 0 ≤ ((n : ℝ) - 1) * cpr a := mul_nonneg (by linarith) (hc a).1
  have p2 : ((n : ℝ) - 1) * cpr a ≤ 64 * 32768 := mul_le_mul (by linarith) (hc a).2 (hc a).1 (by norm_num)
  have q1 : 0 ≤ (n : ℝ) * cpr b := mul_nonneg (by linarith) (hc b).1
  have q2 : (n : ℝ) * cpr b ≤ 64 * 32768 := mul_le_mul hn2 (hc b).2 (hc b).1 (by norm_num)
  rw [abs_le]
  constructor
  · rw [Int.le_floor]; push_cast; linarith
  · rw [← Int.lt_add_one_iff, Int.floor_lt]; push_cast; linarith

/-- The place within the zones: exact. -/
theorem placeF_eq (j : ℤ) (n : ℕ) (hn : 1 ≤ n) (hn' : n ≤ 64) (hj : |j| ≤ 1099511627776) (a : UInt32) :
    f64R (modF f64R (j : ℝ) (n : ℝ) + cpr a) = mod (j : ℝ) (n : ℝ) + cpr a := by
  rw [modF_int j n hn hn' hj, mod_int j n (by omega)]
  have ha : (a.toNat : ℤ) < 4294967296 := by exact_mod_cast a.toNat_lt
  have h2 := Int.emod_nonneg j (by omega : (n : ℤ) ≠ 0)
  have h3 := Int.emod_lt_of_pos j (by omega : 0 < (n : ℤ))
  refine f64R_grid _ ((j % n) * 131072 + a.toNat) ?_ (by rw [abs_le]; constructor <;> omega)
  rw [cpr_int]; push_cast; ring

/-- The error of a product by a rounded zone size. -/
theorem product_err (span : ℝ) (n : ℕ) (hs : 0 ≤ span) (hs' : span ≤ 360) (hn : 1 ≤ n) (s : ℝ) (h0 : 0 ≤ s) (h1 : s ≤ n) :
    |f64R (f64R (span / n) * s) - span / n * s| ≤ 1 / 2 ^ 43 - 1 / 2 ^ 45 := by
  have hn0 : (0 : ℝ) < n := by exact_mod_cast hn
  have hd0 : 0 ≤ span / n := by positivity
  have hds : span / n * s ≤ 360 := by
    calc span / n * s ≤ span / n * n := mul_le_mul_of_nonneg_left h1 hd0
      _ = span := by field_simp
      _ ≤ 360 := hs'
  have hds0 : 0 ≤ span / n * s := mul_nonneg hd0 h0
  have e1 := f64R_err (span / n)
  rw [abs_of_nonneg hd0] at e1
  have e2 : |f64R (span / n) * s - span / n * s| ≤ 360 / 9007199254740992 := by
    rw [← sub_mul, abs_mul, abs_of_nonneg h0]
    calc |f64R (span / n) - span / n| * s ≤ span / n / 9007199254740992 * s := mul_le_mul_of_nonneg_right e1 h0
      _ = span / n * s / 9007199254740992 := by ring
      _ ≤ _ := div_le_div_of_nonneg_right hds (by norm_num)
  have e3 := f64R_err (f64R (span / n) * s)
  have e4 : |f64R (span / n) * s| ≤ 361 := by
    have := abs_le.1 e2
    rw [abs_le]; constructor <;> linarith [this.1, this.2]
  have e5 : |f64R (span / n) * s| / 9007199254740992 ≤ 361 / 9007199254740992 := div_le_div_of_nonneg_right e4 (by norm_num)
  calc _ = |(f64R (f64R (span / n) * s) - f64R (span / n) * s) + (f64R (span / n) * s - span / n * s)| := by congr 1; ring
    _ ≤ _ := abs_add_le _ _
    _ ≤ 361 / 9007199254740992 + 360 / 9007199254740992 := by linarith
    _ ≤ _ := by norm_num

/-- A latitude a message can carry: `G` steps of a 19-bit surface coordinate (every fourth of them is a 17-bit airborne one), even
messages (`i = 0`) or odd ones (`i = 1`). -/
def gridLatitude (i : ℕ) (G : ℤ) : ℝ := 90 / (60 - i) * (G / 131072)

/-- What is needed of the computed number of longitude zones: at the rounded latitudes it is the exact number at the exact
latitudes. `x'` is the `float64` computed for the latitude `gridLatitude i G`. Even latitudes and latitude 0 are exact. The latitudes of
less than four surface steps (5 metres) from the equator are left out. Proved in Props/GeoFloatNL (`nlF_agrees`). -/
def NLAgrees (nl : ℝ → ℝ) : Prop :=
  ∀ (i : ℕ) (G : ℤ) (x' : ℝ), i ≤ 1 → (G = 0 ∨ 4 ≤ |G|) → |x' - gridLatitude i G| ≤ 1 / 2 ^ 43 →
    (i = 0 ∨ G = 0 → x' = gridLatitude i G) → nl x' = getNumberOfLongitude (gridLatitude i G)

/-- Even latitudes are computed exactly. -/
theorem evenLatitudeF_eq (j : ℤ) (hj : |j| ≤ 1099511627776) (a : UInt32) (ha : a.toNat < 131072) :
    fixLatitudeF f64R (f64R (f64R (360 / (60 : ℕ)) * f64R (modF f64R (j : ℝ) (60 : ℕ) + cpr a))) =
      fixLatitude (360 / (60 : ℕ) * (mod (j : ℝ) (60 : ℕ) + cpr a)) ∧
    ∃ G : ℤ, fixLatitude (360 / (60 : ℕ) * (mod (j : ℝ) (60 : ℕ) + cpr a)) = gridLatitude 0 (4 * G) := by
  rw [placeF_eq j 60 (by norm_num) (by norm_num) hj, mod_int j 60 (by norm_num)]
  have h2 := Int.emod_nonneg j (by norm_num : ((60 : ℕ) : ℤ) ≠ 0)
  have h3 := Int.emod_lt_of_pos j (by norm_num : 0 < ((60 : ℕ) : ℤ))
  have ha' : (a.toNat : ℤ) < 131072 := by exact_mod_cast ha
  generalize hk : (j % (60 : ℕ)) * 131072 + (a.toNat : ℤ) = k
  have hkr : 0 ≤ k ∧ k < 7864320 := by omega
  have e : ((j % (60 : ℕ) : ℤ) : ℝ) + cpr a = (k : ℝ) / 131072 := by
    rw [← hk, cpr_int]; push_cast; ring
  have e6 : f64R (360 / (60 : ℕ)) = ((6 : ℤ) : ℝ) := by
    rw [← f64R_int 6 (by norm_num)]; norm_num
  have p : f64R (((6 : ℤ) : ℝ) * (k / 131072)) = 6 * ((k : ℝ) / 131072) := by
    push_cast
    exact f64R_grid _ (6 * k) (by push_cast; ring) (by rw [abs_le]; constructor <;> omega)
  rw [e, e6, p]
  have d : (360 : ℝ) / (60 : ℕ) * (k / 131072) = 6 * (k / 131072) := by norm_num
  rw [d]
  unfold fixLatitudeF fixLatitude gridLatitude
  split
  · refine ⟨f64R_grid _ (6 * k - 360 * 131072) (by push_cast; ring) (by rw [abs_le]; constructor <;> omega), k - 60 * 131072, ?_⟩
    push_cast; ring
  · exact ⟨rfl, k, by push_cast; ring⟩

theorem f64R_d59 : f64R (360 / (59 : ℕ)) = 6869897736666858 * 2 ^ (-50 : ℤ) := by
  have := f64R_eval (360 / (59 : ℕ)) 2 6869897736666858 (by norm_num) (by norm_num) (by norm_num [abs_lt])
  simpa using this

theorem odd_270 : f64R (f64R (360 / (59 : ℕ)) * (5799936 / 131072)) = 270 := by
  rw [f64R_d59]
  have := f64R_eval (6869897736666858 * 2 ^ (-50 : ℤ) * (5799936 / 131072)) 8 (270 * 2 ^ 44) (by norm_num) (by norm_num)
    (by norm_num [abs_lt])
  rw [this]; norm_num

/-- Odd latitudes are computed within 2^-43 degree (12 nanometres), and the correction to [-90, 90] is not applied by mistake. -/
theorem oddLatitudeF_err (j : ℤ) (hj : |j| ≤ 1099511627776) (a : UInt32) (ha : a.toNat < 131072) :
    |fixLatitudeF f64R (f64R (f64R (360 / (59 : ℕ)) * f64R (modF f64R (j : ℝ) (59 : ℕ) + cpr a))) -
      fixLatitude (360 / (59 : ℕ) * (mod (j : ℝ) (59 : ℕ) + cpr a))| ≤ 1 / 2 ^ 43 ∧
    ∃ G : ℤ, fixLatitude (360 / (59 : ℕ) * (mod (j : ℝ) (59 : ℕ) + cpr a)) = gridLatitude 1 (4 * G) ∧
      (G = 0 → fixLatitudeF f64R (f64R (f64R (360 / (59 : ℕ)) * f64R (modF f64R (j : ℝ) (59 : ℕ) + cpr a))) = 0) := by
  rw [placeF_eq j 59 (by norm_num) (by norm_num) hj, mod_int j 59 (by norm_num)]
  have h2 := Int.emod_nonneg j (by norm_num : ((59 : ℕ) : ℤ) ≠ 0)
  have h3 := Int.emod_lt_of_pos j (by norm_num : 0 < ((59 : ℕ) : ℤ))
  have ha' : (a.toNat : ℤ) < 131072 := by exact_mod_cast ha
  generalize hk : (j % (59 : ℕ)) * 131072 + (a.toNat : ℤ) = k
  have hkr : 0 ≤ k ∧ k < 7733248 := by omega
  have e : ((j % (59 : ℕ) : ℤ) : ℝ) + cpr a = (k : ℝ) / 131072 := by
    rw [← hk, cpr_int]; push_cast; ring
  rw [e]
  have hk0 : (0 : ℝ) ≤ k := by exact_mod_cast hkr.1
  have hk1 : (k : ℝ) ≤ 7733247 := by exact_mod_cast (by omega : k ≤ 7733247)
  have herr := product_err 360 59 (by norm_num) le_rfl (by norm_num) ((k : ℝ) / 131072) (by positivity)
    (by rw [div_le_iff₀ (by norm_num)]; norm_num; linarith)
  have herr' := abs_le.1 herr
  have hg : (360 : ℝ) / (59 : ℕ) * (k / 131072) = 360 * k / 7733248 := by push_cast; ring
  rcases lt_trichotomy k 5799936 with h | h | h
  · have hkk : (k : ℝ) ≤ 5799935 := by exact_mod_cast (by omega : k ≤ 5799935)
    have x1 : ¬ (360 : ℝ) / (59 : ℕ) * (k / 131072) ≥ 270 := by rw [hg]; norm_num; linarith
    have x2 : ¬ f64R (f64R (360 / (59 : ℕ)) * (k / 131072)) ≥ 270 := by
      rw [hg] at herr'; norm_num at herr' ⊢; linarith [herr'.2]
    unfold fixLatitudeF fixLatitude
    rw [if_neg x1, if_neg x2]
    refine ⟨le_trans herr (by norm_num), k, ?_, ?_⟩
    · unfold gridLatitude; push_cast; norm_num; ring
    · rintro rfl; simp [f64R, rnd_zero]
  · subst h
    have x1 : (360 : ℝ) / (59 : ℕ) * (((5799936 : ℤ) : ℝ) / 131072) = 270 := by norm_num
    have x2 : f64R (f64R (360 / (59 : ℕ)) * (((5799936 : ℤ) : ℝ) / 131072)) = 270 := by push_cast; exact odd_270
    unfold fixLatitudeF fixLatitude
    rw [x1, x2, if_pos le_rfl, if_pos le_rfl]
    have : f64R (270 - 360) = 270 - 360 := f64R_exact _ (-90) 0 (by norm_num) (by norm_num)
    rw [this]
    refine ⟨by norm_num, 5799936 - 59 * 131072, ?_, ?_⟩
    · unfold gridLatitude; push_cast; norm_num
    · intro h; norm_num at h
  · have hkk : (5799937 : ℝ) ≤ k := by exact_mod_cast (by omega : 5799937 ≤ k)
    have x1 : (360 : ℝ) / (59 : ℕ) * (k / 131072) ≥ 270 := by rw [hg]; norm_num; linarith
    have x2 : f64R (f64R (360 / (59 : ℕ)) * (k / 131072)) ≥ 270 := by
      rw [hg] at herr'; norm_num at herr' ⊢; linarith [herr'.1]
    have x3 : f64R (f64R (360 / (59 : ℕ)) * (k / 131072)) ≤ 360 := by
      rw [hg] at herr'; norm_num at herr' ⊢; linarith [herr'.2]
    unfold fixLatitudeF fixLatitude
    rw [if_pos x1, if_pos x2, f64R_sub360 _ (by linarith) x3]
    refine ⟨?_, k - 59 * 131072, ?_, ?_⟩
    · rw [show ∀ p q : ℝ, p - 360 - (q - 360) = p - q by intros; ring]
      exact le_trans herr (by norm_num)
    · unfold gridLatitude; push_cast; norm_num; ring
    · intro h; omega

/-- Longitudes: within 2^-43 degree up to whole turns, and in (-180, 180]. -/
theorem longitudeF_err (n : ℕ) (hn : 1 ≤ n) (hn' : n ≤ 59) (m : ℤ) (hm : |m| ≤ 1099511627776) (a : UInt32) (ha : a.toNat < 131072) :
    -180 < fixLongitudeF f64R (f64R (f64R (360 / (n : ℝ)) * f64R (modF f64R (m : ℝ) n + cpr a))) ∧
    fixLongitudeF f64R (f64R (f64R (360 / (n : ℝ)) * f64R (modF f64R (m : ℝ) n + cpr a))) ≤ 180 ∧
    ∃ t : ℤ, |fixLongitudeF f64R (f64R (f64R (360 / (n : ℝ)) * f64R (modF f64R (m : ℝ) n + cpr a))) -
      fixLongitude (360 / (n : ℝ) * (mod (m : ℝ) n + cpr a)) - 360 * t| ≤ 1 / 2 ^ 43 := by
  rw [placeF_eq m n hn (by omega) hm, mod_int m n (by omega)]
  have h2 := Int.emod_nonneg m (by omega : (n : ℤ) ≠ 0)
  have h3 := Int.emod_lt_of_pos m (by omega : 0 < (n : ℤ))
  have ha' : (a.toNat : ℤ) < 131072 := by exact_mod_cast ha
  have hnr : (0 : ℝ) < n := by exact_mod_cast hn
  have hnr' : (n : ℝ) ≤ 59 := by exact_mod_cast hn'
  generalize hk : (m % (n : ℕ)) * 131072 + (a.toNat : ℤ) = k
  have hkr : 0 ≤ k ∧ k ≤ n * 131072 - 1 := by
    have : (m % (n : ℤ)) ≤ n - 1 := by omega
    constructor <;> omega
  have e : ((m % (n : ℕ) : ℤ) : ℝ) + cpr a = (k : ℝ) / 131072 := by
    rw [← hk, cpr_int]; push_cast; ring
  rw [e]
  have hk0 : (0 : ℝ) ≤ k := by exact_mod_cast hkr.1
  have hk1 : (k : ℝ) ≤ n * 131072 - 1 := by exact_mod_cast hkr.2
  have herr := product_err 360 n (by norm_num) le_rfl hn ((k : ℝ) / 131072) (by positivity)
    (by rw [div_le_iff₀ (by norm_num)]; linarith)
  have herr' := abs_le.1 herr
  have hx0 : (0 : ℝ) ≤ 360 / (n : ℝ) * (k / 131072) := by positivity
  have hx1 : 360 / (n : ℝ) * (k / 131072) ≤ 360 - 1 / 65536 := by
    have : 360 / (n : ℝ) * (k / 131072) ≤ 360 / (n : ℝ) * ((n * 131072 - 1) / 131072) :=
      mul_le_mul_of_nonneg_left (by linarith) (by positivity)
    refine le_trans this ?_
    have e1 : 360 / (n : ℝ) * ((n * 131072 - 1) / 131072) = 360 - 360 / (n * 131072) := by field_simp
    rw [e1]
    have : 1 / 65536 ≤ 360 / ((n : ℝ) * 131072) := by rw [div_le_div_iff₀ (by norm_num) (by positivity)]; linarith
    linarith
  generalize 360 / (n : ℝ) * (k / 131072) = x at *
  have hx'0 : -1 ≤ f64R (f64R (360 / (n : ℝ)) * (k / 131072)) := by norm_num at herr'; linarith [herr'.1]
  have hx'1 : f64R (f64R (360 / (n : ℝ)) * (k / 131072)) ≤ 360 := by norm_num at herr'; linarith [herr'.2]
  have hs := f64R_sub360 (f64R (360 / (n : ℝ)) * (k / 131072))
  generalize f64R (f64R (360 / (n : ℝ)) * (k / 131072)) = x' at *
  have herr2 : |x' - x| ≤ 1 / 2 ^ 43 := le_trans herr (by norm_num)
  obtain ⟨-, -, t, ht⟩ := fixLongitude_spec x hx0 (by linarith)
  rw [ht]
  unfold fixLongitudeF
  by_cases hc : x' > 180
  · rw [if_pos hc, hs (by linarith) hx'1]
    refine ⟨by linarith, by linarith, -1 - t, ?_⟩
    rw [show x' - 360 - (x + 360 * (t : ℝ)) - 360 * ((-1 - t : ℤ) : ℝ) = x' - x by push_cast; ring]
    exact herr2
  · rw [if_neg hc]
    refine ⟨by linarith, by linarith, -t, ?_⟩
    rw [show x' - (x + 360 * (t : ℝ)) - 360 * ((-t : ℤ) : ℝ) = x' - x by push_cast; ring]
    exact herr2

/-- The rounded computation, given what `nl` returns at the two latitudes. -/
theorem airborneGlobalF_shape (nl : ℝ → ℝ) (el en ol on : UInt32) (e : Bool) (j : ℤ)
    (hj : ⌊((60 : ℕ) - 1 : ℝ) * cpr el - (60 : ℕ) * cpr ol + 1 / 2⌋ = j) (latE latO : ℝ)
    (hE : fixLatitudeF f64R (f64R (f64R (360 / (60 : ℕ)) * f64R (modF f64R (j : ℝ) (60 : ℕ) + cpr el))) = latE)
    (hO : fixLatitudeF f64R (f64R (f64R (360 / (59 : ℕ)) * f64R (modF f64R (j : ℝ) (59 : ℕ) + cpr ol))) = latO) :
    (nl latE ≠ nl latO → airborneGlobalF f64R nl el en ol on e = .error .err) ∧
    ∀ N : ℕ, 1 ≤ N → N ≤ 59 → nl latE = N → nl latO = N → ∀ m : ℤ, ⌊((N : ℝ) - 1) * cpr en - N * cpr on + 1 / 2⌋ = m →
      airborneGlobalF f64R nl el en ol on e = .ok (if e then latE else latO, fixLongitudeF f64R
        (if e then f64R (f64R (360 / (zones N 0 : ℝ)) * f64R (modF f64R (m : ℝ) (zones N 0) + cpr en))
          else f64R (f64R (360 / (zones N 1 : ℝ)) * f64R (modF f64R (m : ℝ) (zones N 1) + cpr on)))) := by
  have a1 : 4 * nz = ((60 : ℕ) : ℝ) := by unfold nz; norm_num
  have a2 : ((60 : ℕ) : ℝ) - 1 = ((59 : ℕ) : ℝ) := by norm_num
  have hj' : ⌊f64R (f64R (f64R (((59 : ℕ) : ℝ) * cpr el) - f64R (((60 : ℕ) : ℝ) * cpr ol)) + 1 / 2)⌋ = j := by
    have := indexF_eq 60 (by norm_num) (by norm_num) el ol
    rw [a2] at this
    rw [this, ← hj, a2]
  constructor
  · intro hne
    unfold airborneGlobalF
    simp only [cprF_eq, a1, a2, hj', hE, hO]
    rw [if_pos hne]
  · intro N hN hN' nE nO m hm
    have z0 : max (f64R ((N : ℝ) - 0)) 1 = (zones N 0 : ℝ) := by
      have : f64R ((N : ℝ) - 0) = (N : ℝ) - (0 : ℕ) := by
        have := f64R_int (N : ℤ) (by rw [abs_of_nonneg (by positivity)]; omega)
        simpa using this
      rw [this]; exact zones_cast N 0 hN (by norm_num)
    have e1 : f64R ((N : ℝ) - 1) = (N : ℝ) - 1 := by
      have := f64R_int ((N : ℤ) - 1) (by rw [abs_le]; constructor <;> omega)
      push_cast at this; exact this
    have z1 : max ((N : ℝ) - 1) 1 = (zones N 1 : ℝ) := by
      have := zones_cast N 1 hN (by norm_num); rwa [Nat.cast_one] at this
    have hm' := indexF_eq N hN (by omega) en on
    unfold airborneGlobalF
    simp only [cprF_eq, a1, a2, hj', hE, hO, nE, nO, ne_eq, not_true_eq_false, if_false, z0, e1, z1,
      mul_comm (cpr en), mul_comm (cpr on), hm', hm]

/-- C68. Rounding in the global decoding of airborne positions: for all 17-bit coordinates, if the computed number of longitude zones
agrees with the exact one (`NLAgrees`, proved in Props/GeoFloatNL from the accuracy of the cosine and arccosine of the library), the
`float64` computation fails exactly when the exact one does, and otherwise gives the same latitude and, up to whole turns, the same
longitude, within 2^-43 degree (12 nanometres). The longitude is in (-180, 180]. -/
theorem airborneGlobal_float (nl : ℝ → ℝ) (hnl : NLAgrees nl) (el en ol on : UInt32) (e : Bool) (h1 : el.toNat < 131072)
    (h2 : en.toNat < 131072) (h3 : ol.toNat < 131072) (h4 : on.toNat < 131072) :
    (airborneGlobal el en ol on e = .error .err ∧ airborneGlobalF f64R nl el en ol on e = .error .err) ∨
    ∃ lat lon lat' lon', airborneGlobal el en ol on e = .ok (lat, lon) ∧ airborneGlobalF f64R nl el en ol on e = .ok (lat', lon') ∧
      |lat' - lat| ≤ 1 / 2 ^ 43 ∧ -180 < lon' ∧ lon' ≤ 180 ∧ ∃ t : ℤ, |lon' - lon - 360 * t| ≤ 1 / 2 ^ 43 := by
  generalize hj : ⌊((60 : ℕ) - 1 : ℝ) * cpr el - (60 : ℕ) * cpr ol + 1 / 2⌋ = j
  have hjb : |j| ≤ 1099511627776 := by rw [← hj]; exact index_bound 60 (by norm_num) (by norm_num) el ol
  obtain ⟨qE, GE, gE⟩ := evenLatitudeF_eq j hjb el h1
  obtain ⟨qO, GO, gO, zO⟩ := oddLatitudeF_err j hjb ol h3
  obtain ⟨sE, sO⟩ := airborneGlobalF_shape nl el en ol on e j hj _ _ rfl rfl
  have four (G : ℤ) : 4 * G = 0 ∨ 4 ≤ |4 * G| := by
    rcases eq_or_ne G 0 with h | h
    · left; omega
    · right; rw [abs_mul]; have := Int.one_le_abs h; norm_num; omega
  have nE := hnl 0 (4 * GE) (fixLatitudeF f64R (f64R (f64R (360 / (60 : ℕ)) * f64R (modF f64R (j : ℝ) (60 : ℕ) + cpr el)))) (by norm_num) (four GE) (by rw [qE, gE, sub_self, abs_zero]; positivity) (fun _ => by rw [qE, gE])
  have nO := hnl 1 (4 * GO) (fixLatitudeF f64R (f64R (f64R (360 / (59 : ℕ)) * f64R (modF f64R (j : ℝ) (59 : ℕ) + cpr ol)))) (by norm_num) (four GO) (by rw [← gO]; exact qO) (fun h => by
    have hz : GO = 0 := by omega
    rw [zO hz, hz]; simp [gridLatitude])
  rw [← gE] at nE
  rw [← gO] at nO
  obtain ⟨N, hN, hN1, hN59⟩ := nl_nat (fixLatitude (360 / (60 : ℕ) * (mod j (60 : ℕ) + cpr el)))
  by_cases hNO : getNumberOfLongitude (fixLatitude (360 / (59 : ℕ) * (mod j (59 : ℕ) + cpr ol))) = N
  · right
    generalize hm : ⌊((N : ℝ) - 1) * cpr en - N * cpr on + 1 / 2⌋ = m
    have hmb : |m| ≤ 1099511627776 := by rw [← hm]; exact index_bound N hN1 (by omega) en on
    have ok := airborneGlobal_ok el en ol on e j _ _ N hj rfl rfl hN hNO hN1
    have okF := sO N hN1 hN59 (by rw [nE, hN]) (by rw [nO, hNO]) m hm
    rw [hm] at ok
    refine ⟨_, _, _, _, ok, okF, ?_, ?_⟩
    · cases e
      · exact qO
      · simp only [if_true, qE, sub_self, abs_zero]; positivity
    · cases e
      · exact longitudeF_err (zones N 1) (zones_pos N 1) (by unfold zones; omega) m hmb on h4
      · exact longitudeF_err (zones N 0) (zones_pos N 0) (by unfold zones; omega) m hmb en h2
  · left
    constructor
    · have a1 : 4 * nz = ((60 : ℕ) : ℝ) := by unfold nz; norm_num
      have a2 : ((60 : ℕ) : ℝ) - 1 = ((59 : ℕ) : ℝ) := by norm_num
      have hj' : ⌊((59 : ℕ) : ℝ) * cpr el - (60 : ℕ) * cpr ol + 1 / 2⌋ = j := by rw [← hj, a2]
      unfold airborneGlobal
      simp only [a1, a2, hj', hN]
      rw [if_pos (fun h => hNO h.symm)]
    · apply sE
      rw [nE, nO, hN]
      exact fun h => hNO h.symm

end Geo
end Modes
