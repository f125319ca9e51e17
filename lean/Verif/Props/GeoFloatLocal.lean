import Verif.Props.GeoFloatNL
import Verif.Props.GeoSurface
/-!
# Rounding: airborne global decoding of real positions, local decoding

The `float64` versions of C55 and C56, and of the local part of C57.
-/
open Spec
noncomputable section
namespace Modes
namespace Geo

theorem encode_lt (nb : ℕ) (d x : ℝ) : (UInt32.ofNat ((zoneCode nb d x) % 2 ^ 17).toNat).toNat < 131072 := by
  have h0 : 0 ≤ zoneCode nb d x % 131072 := Int.emod_nonneg _ (by norm_num)
  have h1 : zoneCode nb d x % 131072 < 131072 := Int.emod_lt_of_pos _ (by norm_num)
  rw [show (2 : ℤ) ^ 17 = 131072 by norm_num, UInt32.toNat_ofNat_of_lt' (by
    have : UInt32.size = 4294967296 := rfl
    omega)]
  omega

/-- C68, C55 with rounding: the position decoded in `float64` from the messages of an aircraft is within half a step and 2^-43 degree of the
true one. -/
theorem airborne_global_float64 (cosF acosF : ℝ → ℝ) (hF : Accurate cosF acosF) (lat0 lon0 lat1 lon1 : ℝ) (e : Bool)
    (h0 : |lat0| ≤ 90) (h1 : |lat1| ≤ 90) (hlat : |lat0 - lat1| ≤ 1 / 20) (hband : NL (rLat 17 0 lat0) = NL (rLat 17 1 lat1)) (s : ℤ)
    (hlon : (NL (rLat 17 0 lat0) : ℝ) * (NL (rLat 17 0 lat0) - 1) * |lon0 - lon1 - 360 * s| ≤ 179) :
    ∃ lat lon, airborneGlobalF f64R (getNumberOfLongitudeF f64R cosF acosF) (encodeLat 17 0 lat0) (encodeLon 17 0 lat0 lon0)
        (encodeLat 17 1 lat1) (encodeLon 17 1 lat1 lon1) e = .ok (lat, lon) ∧
      |lat - (if e then lat0 else lat1)| ≤ (if e then dLat 0 else dLat 1) / 2 ^ 18 + 1 / 2 ^ 43 ∧
      -180 < lon ∧ lon ≤ 180 ∧
      ∃ t : ℤ, |lon - (if e then lon0 else lon1) - 360 * t| ≤ (if e then dLon 17 0 lat0 else dLon 17 1 lat1) / 2 ^ 18 + 1 / 2 ^ 43 := by
  obtain ⟨lat, lon, hok, a1, -, -, -, t, a2⟩ := airborne_global lat0 lon0 lat1 lon1 e h0 h1 hlat hband s hlon
  rcases airborneGlobal_float _ (nlF_agrees cosF acosF hF) (encodeLat 17 0 lat0) (encodeLon 17 0 lat0 lon0) (encodeLat 17 1 lat1)
      (encodeLon 17 1 lat1 lon1) e (encode_lt _ _ _) (encode_lt _ _ _) (encode_lt _ _ _) (encode_lt _ _ _) with
    ⟨h, -⟩ | ⟨la, lo, la', lo', hx, hF', b1, b2, b3, t', b4⟩
  · rw [h] at hok; cases hok
  · rw [hok] at hx
    injection hx with hx
    injection hx with hx1 hx2
    subst hx1 hx2
    refine ⟨la', lo', hF', ?_, b2, b3, t + t', ?_⟩
    · calc |la' - (if e then lat0 else lat1)| = |(lat - (if e then lat0 else lat1)) + (la' - lat)| := by congr 1; ring
        _ ≤ _ := le_trans (abs_add_le _ _) (add_le_add a1 b1)
    · calc |lo' - (if e then lon0 else lon1) - 360 * ((t + t' : ℤ) : ℝ)| =
            |(lon - (if e then lon0 else lon1) - 360 * t) + (lo' - lon - 360 * t')| := by congr 1; push_cast; ring
        _ ≤ _ := le_trans (abs_add_le _ _) (add_le_add a2 b4)

/-- C68: positions whose encoded latitudes are in different bands are refused in `float64` too. -/
theorem airborne_global_bands_float64 (cosF acosF : ℝ → ℝ) (hF : Accurate cosF acosF) (lat0 lon0 lat1 lon1 : ℝ) (e : Bool)
    (h0 : |lat0| ≤ 90) (h1 : |lat1| ≤ 90) (hlat : |lat0 - lat1| ≤ 1 / 20) (hband : NL (rLat 17 0 lat0) ≠ NL (rLat 17 1 lat1)) :
    airborneGlobalF f64R (getNumberOfLongitudeF f64R cosF acosF) (encodeLat 17 0 lat0) (encodeLon 17 0 lat0 lon0)
      (encodeLat 17 1 lat1) (encodeLon 17 1 lat1 lon1) e = .error .err := by
  have hx := airborne_global_bands lat0 lon0 lat1 lon1 e h0 h1 hlat hband
  rcases airborneGlobal_float _ (nlF_agrees cosF acosF hF) (encodeLat 17 0 lat0) (encodeLon 17 0 lat0 lon0) (encodeLat 17 1 lat1)
      (encodeLon 17 1 lat1 lon1) e (encode_lt _ _ _) (encode_lt _ _ _) (encode_lt _ _ _) (encode_lt _ _ _) with
    ⟨-, h⟩ | ⟨la, lo, la', lo', h, -⟩
  · exact h
  · rw [h] at hx; cases hx

/-- The hypothesis on the library is met, for instance, by the rounded exact functions. -/
theorem accurate_rounded : Accurate (fun x => f64R (Real.cos x)) (fun x => f64R (Real.arccos x)) := by
  constructor
  · intro x
    refine le_trans (f64R_err _) ?_
    have := Real.abs_cos_le_one x
    norm_num; linarith
  · intro x h1 h2
    refine ⟨x, h1, h2, by rw [sub_self, abs_zero]; positivity, le_trans (f64R_err _) ?_⟩
    have h1 := Real.arccos_nonneg x
    have h2 := Real.arccos_le_pi x
    rw [abs_of_nonneg h1]
    have := Real.pi_lt_d2
    norm_num; linarith

/-- The product by a rounded zone size, of either sign. -/
theorem product_err_abs (d0 s : ℝ) (hd0 : 0 ≤ d0) (h : |d0 * s| ≤ 360) : |f64R (f64R d0 * s) - d0 * s| ≤ 1 / 2 ^ 43 - 1 / 2 ^ 45 := by
  have e1 := f64R_err d0
  rw [abs_of_nonneg hd0] at e1
  have e2 : |f64R d0 * s - d0 * s| ≤ 360 / 9007199254740992 := by
    rw [← sub_mul, abs_mul]
    calc |f64R d0 - d0| * |s| ≤ d0 / 9007199254740992 * |s| := mul_le_mul_of_nonneg_right e1 (abs_nonneg _)
      _ = |d0 * s| / 9007199254740992 := by rw [abs_mul, abs_of_nonneg hd0]; ring
      _ ≤ _ := div_le_div_of_nonneg_right h (by norm_num)
  have e3 := f64R_err (f64R d0 * s)
  have e4 : |f64R d0 * s| ≤ 361 := by
    have : f64R d0 * s = (f64R d0 * s - d0 * s) + d0 * s := by ring
    rw [this]
    refine le_trans (abs_add_le _ _) ?_
    have := le_trans e2 (by norm_num : _ ≤ (1 : ℝ)); linarith
  have e5 : |f64R d0 * s| / 9007199254740992 ≤ 361 / 9007199254740992 := div_le_div_of_nonneg_right e4 (by norm_num)
  calc _ = |(f64R (f64R d0 * s) - f64R d0 * s) + (f64R d0 * s - d0 * s)| := by congr 1; ring
    _ ≤ _ := abs_add_le _ _
    _ ≤ 361 / 9007199254740992 + 360 / 9007199254740992 := by linarith
    _ ≤ _ := by norm_num

/-- The rounded zone index of local decoding before the last `Floor`: within 1e-11 of the exact one. -/
theorem local_index_err (d0 ref c : ℝ) (hd1 : 3 / 2 ≤ d0) (hd2 : d0 ≤ 360) (href : |ref| ≤ 1000) (hc0 : 0 ≤ c) (hc1 : c ≤ 1) :
    |f64R (f64R (f64R (modF f64R ref (f64R d0) / f64R d0) - c) + 1 / 2) - (ref / d0 - ⌊f64R (ref / f64R d0)⌋ - c + 1 / 2)| ≤
      1 / 10 ^ 11 ∧ |((⌊f64R (ref / f64R d0)⌋ : ℤ) : ℝ) - ref / d0| ≤ 101 / 100 := by
  have hd0 : 0 < d0 := by linarith
  have e1 := f64R_err d0
  rw [abs_of_pos hd0] at e1
  unfold modF
  generalize f64R d0 = d at *
  have e1' := abs_le.1 e1
  have hdpos : 0 < d := by norm_num at e1'; linarith [e1'.1]
  have hdlo : 149 / 100 ≤ d := by norm_num at e1'; linarith [e1'.1]
  -- quotients by d and by d0
  have hquot (x : ℝ) : |x / d - x / d0| ≤ |x / d0| * (2 / 9007199254740992) := by
    have e : x / d - x / d0 = x / d0 * ((d0 - d) / d) := by field_simp
    rw [e, abs_mul]
    apply mul_le_mul_of_nonneg_left _ (abs_nonneg _)
    rw [abs_div, abs_of_pos hdpos, div_le_iff₀ hdpos, abs_sub_comm]
    refine le_trans e1 ?_
    norm_num at e1' ⊢
    linarith [e1'.1]
  have hr0 : |ref / d0| ≤ 667 := by
    rw [abs_div, abs_of_pos hd0, div_le_iff₀ hd0]; linarith
  have e2 := hquot ref
  have e2' : |ref / d - ref / d0| ≤ 667 * (2 / 9007199254740992) := le_trans e2 (mul_le_mul_of_nonneg_right hr0 (by norm_num))
  have hp : |ref / d| ≤ 668 := by
    have : ref / d = (ref / d - ref / d0) + ref / d0 := by ring
    rw [this]; refine le_trans (abs_add_le _ _) ?_
    norm_num at e2' ⊢; linarith
  have e3 := le_trans (f64R_err (ref / d)) (div_le_div_of_nonneg_right hp (by norm_num))
  generalize hq : ⌊f64R (ref / d)⌋ = q
  have hq1 := Int.floor_le (f64R (ref / d))
  have hq2 := Int.lt_floor_add_one (f64R (ref / d))
  rw [hq] at hq1 hq2
  have e3' := abs_le.1 e3
  have e2'' := abs_le.1 e2'
  have hr0' := abs_le.1 hr0
  have hq3 : -(1 / 10 ^ 12) ≤ ref / d0 - q ∧ ref / d0 - q ≤ 1 + 1 / 10 ^ 12 := by
    norm_num at e3' e2'' ⊢
    constructor <;> linarith [e3'.1, e3'.2, e2''.1, e2''.2]
  have hqd : |(q : ℝ) - ref / d0| ≤ 101 / 100 := by
    rw [abs_le]; norm_num at hq3 ⊢; constructor <;> linarith [hq3.1, hq3.2]
  refine ⟨?_, hqd⟩
  have hdq : |d0 * q| ≤ 1400 := by
    have e : d0 * q = d0 * (q - ref / d0) + ref := by field_simp; ring
    rw [e]
    refine le_trans (abs_add_le _ _) ?_
    rw [abs_mul, abs_of_pos hd0]
    have : d0 * |(q : ℝ) - ref / d0| ≤ 360 * (101 / 100) := mul_le_mul hd2 hqd (abs_nonneg _) (by norm_num)
    linarith
  have e4 : |d * q - d0 * q| ≤ 1400 / 9007199254740992 := by
    rw [← sub_mul, abs_mul]
    calc |d - d0| * |(q : ℝ)| ≤ d0 / 9007199254740992 * |(q : ℝ)| := mul_le_mul_of_nonneg_right e1 (abs_nonneg _)
      _ = |d0 * q| / 9007199254740992 := by rw [abs_mul, abs_of_pos hd0]; ring
      _ ≤ _ := div_le_div_of_nonneg_right hdq (by norm_num)
  have hdq2 : |d * q| ≤ 1401 := by
    have : d * q = (d * q - d0 * q) + d0 * q := by ring
    rw [this]; refine le_trans (abs_add_le _ _) ?_
    have := le_trans e4 (by norm_num : _ ≤ (1 : ℝ)); linarith
  have e5 := le_trans (f64R_err (d * q)) (div_le_div_of_nonneg_right hdq2 (by norm_num))
  generalize f64R (d * q) = w at *
  have e6 : |(ref - w) - (ref - d0 * q)| ≤ 2801 / 9007199254740992 := by
    have : (ref - w) - (ref - d0 * q) = -(w - d * q) - (d * q - d0 * q) := by ring
    rw [this]; refine le_trans (abs_sub _ _) ?_
    rw [abs_neg]; norm_num at e4 e5 ⊢; linarith
  have hres : |ref - d0 * q| ≤ 364 := by
    have e : ref - d0 * q = -(d0 * (q - ref / d0)) := by field_simp; ring
    rw [e, abs_neg, abs_mul, abs_of_pos hd0]
    have : d0 * |(q : ℝ) - ref / d0| ≤ 360 * (101 / 100) := mul_le_mul hd2 hqd (abs_nonneg _) (by norm_num)
    linarith
  have hrw : |ref - w| ≤ 365 := by
    have : ref - w = ((ref - w) - (ref - d0 * q)) + (ref - d0 * q) := by ring
    rw [this]; refine le_trans (abs_add_le _ _) ?_
    norm_num at e6 ⊢; linarith
  have e7 := le_trans (f64R_err (ref - w)) (div_le_div_of_nonneg_right hrw (by norm_num))
  generalize f64R (ref - w) = M at *
  have e8 : |M / d0 - (ref / d0 - q)| ≤ 1 / 10 ^ 12 := by
    have : M / d0 - (ref / d0 - q) = ((M - (ref - w)) + ((ref - w) - (ref - d0 * q))) / d0 := by field_simp; ring
    rw [this, abs_div, abs_of_pos hd0, div_le_iff₀ hd0]
    refine le_trans (abs_add_le _ _) ?_
    norm_num at e6 e7 ⊢; linarith
  have hMd0 : |M / d0| ≤ 2 := by
    have : M / d0 = (M / d0 - (ref / d0 - q)) + -(q - ref / d0) := by ring
    rw [this]; refine le_trans (abs_add_le _ _) ?_
    rw [abs_neg]; norm_num at e8 ⊢; linarith
  have e9 := le_trans (hquot M) (mul_le_mul_of_nonneg_right hMd0 (by norm_num))
  have hMd : |M / d| ≤ 3 := by
    have : M / d = (M / d - M / d0) + M / d0 := by ring
    rw [this]; refine le_trans (abs_add_le _ _) ?_
    norm_num at e9 ⊢; linarith
  have e10 := le_trans (f64R_err (M / d)) (div_le_div_of_nonneg_right hMd (by norm_num))
  generalize f64R (M / d) = R at *
  have hR : |R| ≤ 4 := by
    have : R = (R - M / d) + M / d := by ring
    rw [this]; refine le_trans (abs_add_le _ _) ?_
    norm_num at e10 ⊢; linarith
  have hRc : |R - c| ≤ 5 := by
    refine le_trans (abs_sub _ _) ?_
    rw [abs_of_nonneg hc0]; linarith
  have e11 := le_trans (f64R_err (R - c)) (div_le_div_of_nonneg_right hRc (by norm_num))
  generalize f64R (R - c) = S at *
  have hS : |S + 1 / 2| ≤ 7 := by
    have : S + 1 / 2 = (S - (R - c)) + (R - c) + 1 / 2 := by ring
    rw [this]; refine le_trans (abs_add_three _ _ _) ?_
    norm_num at e11 ⊢; linarith
  have e12 := le_trans (f64R_err (S + 1 / 2)) (div_le_div_of_nonneg_right hS (by norm_num))
  generalize f64R (S + 1 / 2) = T at *
  have a8 := abs_le.1 e8
  have a9 := abs_le.1 e9
  have a10 := abs_le.1 e10
  have a11 := abs_le.1 e11
  have a12 := abs_le.1 e12
  rw [abs_le]
  norm_num at a8 a9 a10 a11 a12 ⊢
  constructor <;> linarith [a8.1, a8.2, a9.1, a9.2, a10.1, a10.2, a11.1, a11.2, a12.1, a12.2]

/-- Local decoding in `float64`: the zone is the right one, and the coordinate is the rounded product. -/
theorem localF_eq (d0 ref : ℝ) (hd1 : 3 / 2 ≤ d0) (hd2 : d0 ≤ 360) (href : |ref| ≤ 1000) (G : ℤ)
    (h : |d0 * ((G : ℝ) / 131072) - ref| ≤ d0 / 2 - d0 / 10 ^ 9) :
    localF f64R (f64R d0) ref (((G % 131072 : ℤ) : ℝ) / 131072) = f64R (f64R d0 * ((G : ℝ) / 131072)) := by
  have hd0 : 0 < d0 := by linarith
  obtain ⟨f0, f1⟩ := frac_range G
  obtain ⟨k1, k2⟩ := local_index_err d0 ref _ hd1 hd2 href f0 f1.le
  unfold localF
  simp only
  generalize hq : ⌊f64R (ref / f64R d0)⌋ = q at *
  have hs := grid_split G
  generalize hc : ((G % 131072 : ℤ) : ℝ) / 131072 = c at *
  have h' : |(G : ℝ) / 131072 - ref / d0| ≤ 1 / 2 - 1 / 10 ^ 9 := by
    have e : d0 * ((G : ℝ) / 131072) - ref = d0 * ((G : ℝ) / 131072 - ref / d0) := by field_simp
    rw [e, abs_mul, abs_of_pos hd0] at h
    have e2 : d0 / 2 - d0 / 10 ^ 9 = d0 * (1 / 2 - 1 / 10 ^ 9) := by ring
    rw [e2] at h
    exact le_of_mul_le_mul_left h hd0
  have h'' := abs_le.1 h'
  have k1' := abs_le.1 k1
  have hfl : ⌊f64R (f64R (f64R (modF f64R ref (f64R d0) / f64R d0) - c) + 1 / 2)⌋ = G / 131072 - q := by
    rw [Int.floor_eq_iff]
    push_cast
    norm_num at k1' h'' ⊢
    constructor <;> linarith [k1'.1, k1'.2, h''.1, h''.2]
  have hr0 : |ref / d0| ≤ 667 := by
    rw [abs_div, abs_of_pos hd0, div_le_iff₀ hd0]; linarith
  have hGb : |(G : ℝ) / 131072| ≤ 668 := by
    have : (G : ℝ) / 131072 = ((G : ℝ) / 131072 - ref / d0) + ref / d0 := by ring
    rw [this]; refine le_trans (abs_add_le _ _) ?_
    norm_num at h' ⊢; linarith
  have hGb' : |G| ≤ 87556096 := by
    rw [abs_div, div_le_iff₀ (by norm_num), abs_of_pos (by norm_num : (0 : ℝ) < 131072)] at hGb
    have : |(G : ℝ)| ≤ ((87556096 : ℤ) : ℝ) := by norm_num at hGb ⊢; exact hGb
    rw [← Int.cast_abs] at this
    exact_mod_cast this
  rw [hfl]
  have ez : f64R ((q : ℝ) + ((G / 131072 - q : ℤ) : ℝ)) = ((G / 131072 : ℤ) : ℝ) := by
    rw [← f64R_int (G / 131072) (by rw [abs_le] at hGb' ⊢; omega)]
    congr 1; push_cast; ring
  rw [ez]
  have es : f64R (((G / 131072 : ℤ) : ℝ) + c) = (G : ℝ) / 131072 := by
    have : ((G / 131072 : ℤ) : ℝ) + c = (G : ℝ) / 131072 := by rw [hs]; ring
    rw [this]
    exact f64R_grid _ G rfl (by omega)
  rw [es]

/-- The latitude of local decoding in `float64`, for a zone of `dLat i / k` degrees (`k` is 1 for airborne messages, 4 for surface ones). -/
theorem local_latitude_float (i : ℕ) (hi : i ≤ 1) (k : ℕ) (hk : k = 1 ∨ k = 4) (G : ℤ) (ref : ℝ) (hr : |ref| ≤ 1000)
    (h : |dLat i / k * ((G : ℝ) / 131072) - ref| ≤ dLat i / k / 2 - dLat i / k / 10 ^ 9) (hb : |dLat i / k * ((G : ℝ) / 131072)| ≤ 360) :
    |localF f64R (f64R (dLat i / k)) ref (((G % 131072 : ℤ) : ℝ) / 131072) - dLat i / k * ((G : ℝ) / 131072)| ≤ 1 / 2 ^ 43 ∧
    (i = 0 ∨ G = 0 → localF f64R (f64R (dLat i / k)) ref (((G % 131072 : ℤ) : ℝ) / 131072) = dLat i / k * ((G : ℝ) / 131072)) := by
  have hd1 : 3 / 2 ≤ dLat i / k := by
    unfold dLat
    rcases (by omega : i = 0 ∨ i = 1) with h | h <;> rcases hk with h' | h' <;> subst h h' <;> norm_num
  have hd2 : dLat i / k ≤ 360 := by
    unfold dLat
    rcases (by omega : i = 0 ∨ i = 1) with h | h <;> rcases hk with h' | h' <;> subst h h' <;> norm_num
  rw [localF_eq _ ref hd1 hd2 hr G h]
  constructor
  · refine le_trans (product_err_abs _ _ (by linarith) hb) (by norm_num)
  · rintro (h0 | h0)
    · subst h0
      have hbG : |(G : ℝ)| ≤ 360 * 131072 := by
        rw [← mul_div_assoc, abs_div, abs_mul, abs_of_pos (by norm_num : (0 : ℝ) < 131072), div_le_iff₀ (by norm_num),
          abs_of_pos (by linarith : 0 < dLat 0 / k)] at hb
        nlinarith [abs_nonneg (G : ℝ)]
      have hbG' : |G| ≤ 47185920 := by
        have : |(G : ℝ)| ≤ ((47185920 : ℤ) : ℝ) := by push_cast; linarith
        rw [← Int.cast_abs] at this
        exact_mod_cast this
      have ed : f64R (dLat 0 / k) = dLat 0 / k := by
        unfold dLat
        rcases hk with h' | h' <;> subst h'
        · exact f64R_exact _ 6 0 (by norm_num) (by norm_num)
        · exact f64R_exact _ 3 1 (by norm_num) (by norm_num)
      rw [ed]
      unfold dLat
      rw [abs_le] at hbG'
      rcases hk with h' | h' <;> subst h'
      · exact f64R_exact _ (6 * G) 17 (by push_cast; ring) (by rw [abs_le]; constructor <;> omega)
      · exact f64R_exact _ (3 * G) 18 (by push_cast; ring) (by rw [abs_le]; constructor <;> omega)
    · subst h0
      have : f64R 0 = 0 := f64R_exact 0 0 0 (by norm_num) (by norm_num)
      norm_num [this]

/-- The computed number of zones is a small whole number, so the size of the longitude zone is rounded once. -/
theorem zonesF (N i : ℕ) (hN : 1 ≤ N) (hN' : N ≤ 59) (hi : i ≤ 1) : max (f64R ((N : ℝ) - i)) 1 = (zones N i : ℝ) := by
  have : f64R ((N : ℝ) - i) = (N : ℝ) - i := by
    have := f64R_int ((N : ℤ) - i) (by rw [abs_le]; omega)
    push_cast at this; exact this
  rw [this, zones_cast N i hN hi]

theorem zones_le (N i : ℕ) (hN' : N ≤ 59) : (zones N i : ℝ) ≤ 59 := by
  have : zones N i ≤ 59 := by unfold zones; omega
  exact_mod_cast this

theorem dLon_bounds (nb i : ℕ) (hi : i ≤ 1) (lat : ℝ) : 6 ≤ dLon nb i lat ∧ dLon nb i lat ≤ 360 := by
  rw [dLon_eq nb i hi]
  have h1 := zones_le (NL (rLat nb i lat)) i (NL_range _).2
  have h2 := zones_pos (NL (rLat nb i lat)) i
  have h3 : (1 : ℝ) ≤ (zones (NL (rLat nb i lat)) i : ℝ) := by exact_mod_cast h2
  exact ⟨by rw [le_div_iff₀ (by linarith)]; linarith, div_le_self (by norm_num) h3⟩

theorem near_within (z x ref d b : ℝ) (h1 : |z - x| ≤ b) (h2 : |x - ref| ≤ d / 2 - 2 * b) (hb : d / 10 ^ 9 ≤ b) :
    |z - ref| ≤ d / 2 - d / 10 ^ 9 := by
  calc |z - ref| = |(z - x) + (x - ref)| := by congr 1; ring
    _ ≤ |z - x| + |x - ref| := abs_add_le _ _
    _ ≤ _ := by linarith

theorem abs_near (z x b c : ℝ) (h1 : |z - x| ≤ b) (h2 : |x| ≤ c) : |z| ≤ b + c := by
  calc |z| = |(z - x) + x| := by congr 1; ring
    _ ≤ _ := le_trans (abs_add_le _ _) (add_le_add h1 h2)

/-- C68, C56 with rounding: a position less than half a zone (minus one step) from the reference is decoded in `float64` within half a step and
2^-43 degree. -/
theorem airborne_local_float64 (cosF acosF : ℝ → ℝ) (hF : Accurate cosF acosF) (lat lon refLat refLon : ℝ) (isOdd : Bool)
    (h : |lat| ≤ 90) (hlon : |lon| ≤ 359) :
    let i := if isOdd then 1 else 0
    |lat - refLat| ≤ dLat i / 2 - dLat i / 2 ^ 17 → |lon - refLon| ≤ dLon 17 i lat / 2 - dLon 17 i lat / 2 ^ 17 →
    ∃ lat' lon', airborneLocalF f64R (getNumberOfLongitudeF f64R cosF acosF) (encodeLat 17 i lat) (encodeLon 17 i lat lon) refLat refLon
        isOdd = (lat', lon') ∧
      |lat' - lat| ≤ dLat i / 2 ^ 18 + 1 / 2 ^ 43 ∧ |lon' - lon| ≤ dLon 17 i lat / 2 ^ 18 + 1 / 2 ^ 43 := by
  intro i hrl hrn
  have hi : i ≤ 1 := by cases isOdd <;> simp [i]
  have hd6 : 6 ≤ dLat i ∧ dLat i ≤ 7 := by
    unfold dLat
    rcases (by omega : i = 0 ∨ i = 1) with h | h <;> rw [h] <;> norm_num
  obtain ⟨hn6, hn360⟩ := dLon_bounds 17 i hi lat
  have n1 := rLat_near i hi lat
  have n2 := zoneValue_near 17 (dLon 17 i lat) lon (by linarith)
  norm_num at n2
  have v1 := rLat_eq i hi lat
  have v2 : zoneValue 17 (dLon 17 i lat) lon = dLon 17 i lat * ((grid 17 (dLon 17 i lat) lon : ℝ) / 131072) := by
    rw [zoneValue_eq _ _ _ (by linarith)]; norm_num
  have hr1 : |refLat| ≤ 1000 := by
    have := abs_near refLat lat _ 90 (by rw [abs_sub_comm]) h
    linarith
  have hr2 : |refLon| ≤ 1000 := by
    have := abs_near refLon lon _ 359 (by rw [abs_sub_comm]) hlon
    linarith
  have b1 : |rLat 17 i lat| ≤ 360 := le_trans (rLat_range i hi lat h) (by norm_num)
  have b2 : |zoneValue 17 (dLon 17 i lat) lon| ≤ 360 := by
    have := abs_near _ _ _ _ n2 hlon
    linarith
  have w1 := near_within _ _ refLat (dLat i) _ n1 (le_trans hrl (by linarith)) (by linarith)
  have w2 := near_within _ _ refLon (dLon 17 i lat) _ n2 (le_trans hrn (by linarith)) (by linarith)
  obtain ⟨L1, L2⟩ := local_latitude_float i hi 1 (Or.inl rfl) (grid 17 (dLat i) lat) refLat hr1
    (by rw [Nat.cast_one, div_one, ← v1]; exact w1) (by rw [Nat.cast_one, div_one, ← v1]; exact b1)
  rw [Nat.cast_one, div_one, ← v1, ← cpr_encodeLat 17 i le_rfl hi] at L1 L2
  have ed : (360 : ℝ) / f64R (4 * nz - parity isOdd) = dLat i := by
    have : f64R (4 * nz - parity isOdd) = 60 - i := by
      rw [parity_cast]
      have := f64R_int ((60 : ℤ) - i) (by rw [abs_le]; omega)
      push_cast at this; rw [← this]; congr 1; unfold nz; norm_num [i]
    rw [this]; rfl
  have gl : rLat 17 i lat = gridLatitude i (4 * grid 17 (dLat i) lat) := by
    rw [v1]; unfold gridLatitude dLat; push_cast; ring
  have hN := nlF_agrees cosF acosF hF i (4 * grid 17 (dLat i) lat) _ hi (by rw [abs_mul]; norm_num; by_cases h : grid 17 (dLat i) lat = 0
                                                                            · exact Or.inl h
                                                                            · right; have := Int.one_le_abs h; omega)
    (by rw [← gl]; exact L1) (by rw [← gl]; intro hh; exact L2 (by omega))
  rw [← gl, nl_spec _ (rLat_range i hi lat h)] at hN
  have ez : max (f64R ((NL (rLat 17 i lat) : ℝ) - parity isOdd)) 1 = (zones (NL (rLat 17 i lat)) i : ℝ) := by
    rw [parity_cast]
    exact zonesF _ _ (NL_range _).1 (NL_range _).2 hi
  have l2 := localF_eq (dLon 17 i lat) refLon (by linarith) hn360 hr2 (grid 17 (dLon 17 i lat) lon) (by rw [← v2]; exact w2)
  rw [← cpr_encodeLon 17 i le_rfl hi] at l2
  have p2 := product_err_abs (dLon 17 i lat) ((grid 17 (dLon 17 i lat) lon : ℝ) / 131072) (by linarith) (by rw [← v2]; exact b2)
  rw [← l2, ← v2] at p2
  refine ⟨localF f64R (f64R (dLat i)) refLat (cpr (encodeLat 17 i lat)),
    localF f64R (f64R (dLon 17 i lat)) refLon (cpr (encodeLon 17 i lat lon)), ?_, ?_, ?_⟩
  · unfold airborneLocalF
    simp only [cprF_eq, ed, hN, ez]
    rw [← dLon_eq 17 i hi]
  · calc |_ - lat| = |(rLat 17 i lat - lat) + (localF f64R (f64R (dLat i)) refLat (cpr (encodeLat 17 i lat)) - rLat 17 i lat)| := by
          congr 1; ring
      _ ≤ _ := le_trans (abs_add_le _ _) (add_le_add n1 L1)
  · calc |_ - lon| = |(zoneValue 17 (dLon 17 i lat) lon - lon) +
          (localF f64R (f64R (dLon 17 i lat)) refLon (cpr (encodeLon 17 i lat lon)) - zoneValue 17 (dLon 17 i lat) lon)| := by
          congr 1; ring
      _ ≤ dLon 17 i lat / 262144 + 1 / 2 ^ 43 := le_trans (abs_add_le _ _) (add_le_add n2 (le_trans p2 (by norm_num)))
      _ = _ := by norm_num

/-- C68, the local part of C57 with rounding. Left out: encoded latitudes other than 0 less than four steps (5 metres) from the equator. -/
theorem surface_local_float64 (cosF acosF : ℝ → ℝ) (hF : Accurate cosF acosF) (lat lon refLat refLon : ℝ) (isOdd : Bool)
    (h : |rLat 19 (if isOdd then 1 else 0) lat| ≤ 90) (hlon : |lon| ≤ 359) :
    let i := if isOdd then 1 else 0
    (rLat 19 i lat = 0 ∨ dLat i / 2 ^ 17 ≤ |rLat 19 i lat|) →
    |lat - refLat| ≤ dLat i / 8 - dLat i / 2 ^ 19 → |lon - refLon| ≤ dLon 19 i lat / 8 - dLon 19 i lat / 2 ^ 19 →
    ∃ lat' lon', surfaceLocalF f64R (getNumberOfLongitudeF f64R cosF acosF) (encodeLat 19 i lat) (encodeLon 19 i lat lon) refLat refLon
        isOdd = (lat', lon') ∧
      |lat' - lat| ≤ dLat i / 2 ^ 20 + 1 / 2 ^ 43 ∧ |lon' - lon| ≤ dLon 19 i lat / 2 ^ 20 + 1 / 2 ^ 43 := by
  intro i hstrip hrl hrn
  have hi : i ≤ 1 := by cases isOdd <;> simp [i]
  have hd6 : 6 ≤ dLat i ∧ dLat i ≤ 7 := by
    unfold dLat
    rcases (by omega : i = 0 ∨ i = 1) with h | h <;> rw [h] <;> norm_num
  obtain ⟨hn6, hn360⟩ := dLon_bounds 19 i hi lat
  have n1 := rLat19_near i hi lat
  have n2 := zoneValue_near 19 (dLon 19 i lat) lon (by linarith)
  norm_num at n2
  have v1 := rLat19_eq i hi lat
  have v2 := zoneValue19 (dLon 19 i lat) lon (by linarith)
  have hl : |lat| ≤ 91 := by
    have := abs_near lat (rLat 19 i lat) _ 90 (by rw [abs_sub_comm]) h
    linarith
  have hr1 : |refLat| ≤ 1000 := by
    have := abs_near refLat lat _ 91 (by rw [abs_sub_comm]) hl
    linarith
  have hr2 : |refLon| ≤ 1000 := by
    have := abs_near refLon lon _ 359 (by rw [abs_sub_comm]) hlon
    linarith
  have b1 : |rLat 19 i lat| ≤ 360 := le_trans h (by norm_num)
  have b2 : |zoneValue 19 (dLon 19 i lat) lon| ≤ 360 := by
    have := abs_near _ _ _ _ n2 hlon
    linarith
  have w1 := near_within _ _ refLat (dLat i / 4) _ n1 (le_trans hrl (by linarith)) (by linarith)
  have w2 := near_within _ _ refLon (dLon 19 i lat / 4) _ n2 (le_trans hrn (by linarith)) (by linarith)
  have c4 : ((4 : ℕ) : ℝ) = 4 := by norm_num
  obtain ⟨L1, L2⟩ := local_latitude_float i hi 4 (Or.inr rfl) (grid 17 (dLat i / 4) lat) refLat hr1
    (by rw [c4, ← v1]; exact w1) (by rw [c4, ← v1]; exact b1)
  rw [c4, ← v1, ← cpr_encodeLat19 i hi] at L1 L2
  have ed : (90 : ℝ) / f64R (4 * nz - parity isOdd) = dLat i / 4 := by
    have : f64R (4 * nz - parity isOdd) = 60 - i := by
      rw [parity_cast]
      have := f64R_int ((60 : ℤ) - i) (by rw [abs_le]; omega)
      push_cast at this; rw [← this]; congr 1; unfold nz; norm_num [i]
    rw [this]; unfold dLat; ring
  have gl : rLat 19 i lat = gridLatitude i (grid 17 (dLat i / 4) lat) := by
    rw [v1]; unfold gridLatitude dLat; ring
  have hG : grid 17 (dLat i / 4) lat = 0 ∨ 4 ≤ |grid 17 (dLat i / 4) lat| := by
    rw [v1] at hstrip
    rcases hstrip with hz | hz
    · left
      have hp : dLat i / 4 ≠ 0 := by linarith
      rcases mul_eq_zero.1 hz with h | h
      · exact absurd h hp
      · have : ((grid 17 (dLat i / 4) lat : ℤ) : ℝ) = 0 := by linarith
        exact_mod_cast this
    · right
      rw [abs_mul, abs_of_pos (by linarith [hd6.1] : 0 < dLat i / 4), abs_div, abs_of_pos (by norm_num : (0 : ℝ) < 131072)] at hz
      have h4 : (4 : ℝ) ≤ |((grid 17 (dLat i / 4) lat : ℤ) : ℝ)| := by
        by_contra hc
        push Not at hc
        have : dLat i / 4 * (|((grid 17 (dLat i / 4) lat : ℤ) : ℝ)| / 131072) < dLat i / 4 * (4 / 131072) :=
          mul_lt_mul_of_pos_left (div_lt_div_of_pos_right hc (by norm_num)) (by linarith [hd6.1])
        linarith
      rw [← Int.cast_abs] at h4
      exact_mod_cast h4
  have hN := nlF_agrees cosF acosF hF i (grid 17 (dLat i / 4) lat) _ hi hG (by rw [← gl]; exact L1) (by rw [← gl]; exact L2)
  rw [← gl, nl_spec (rLat 19 i lat) h] at hN
  have ez : max (f64R ((NL (rLat 19 i lat) : ℝ) - parity isOdd)) 1 = (zones (NL (rLat 19 i lat)) i : ℝ) := by
    rw [parity_cast]
    exact zonesF _ _ (NL_range _).1 (NL_range _).2 hi
  have l2 := localF_eq (dLon 19 i lat / 4) refLon (by linarith) (by linarith) hr2 (grid 17 (dLon 19 i lat / 4) lon)
    (by rw [← v2]; exact w2)
  rw [← cpr_encodeLon19 i hi] at l2
  have p2 := product_err_abs (dLon 19 i lat / 4) ((grid 17 (dLon 19 i lat / 4) lon : ℝ) / 131072) (by linarith)
    (by rw [← v2]; exact b2)
  rw [← l2, ← v2] at p2
  have eD : 90 / (zones (NL (rLat 19 i lat)) i : ℝ) = dLon 19 i lat / 4 := by rw [dLon_eq 19 i hi]; ring
  refine ⟨localF f64R (f64R (dLat i / 4)) refLat (cpr (encodeLat 19 i lat)),
    localF f64R (f64R (dLon 19 i lat / 4)) refLon (cpr (encodeLon 19 i lat lon)), ?_, ?_, ?_⟩
  · unfold surfaceLocalF
    simp only [cprF_eq, ed, hN, ez]
    rw [eD]
  · calc |_ - lat| = |(rLat 19 i lat - lat) + (localF f64R (f64R (dLat i / 4)) refLat (cpr (encodeLat 19 i lat)) - rLat 19 i lat)| := by
          congr 1; ring
      _ ≤ _ := le_trans (abs_add_le _ _) (add_le_add n1 L1)
  · calc |_ - lon| = |(zoneValue 19 (dLon 19 i lat) lon - lon) +
          (localF f64R (f64R (dLon 19 i lat / 4)) refLon (cpr (encodeLon 19 i lat lon)) - zoneValue 19 (dLon 19 i lat) lon)| := by
          congr 1; ring
      _ ≤ dLon 19 i lat / 1048576 + 1 / 2 ^ 43 := le_trans (abs_add_le _ _) (add_le_add n2 (le_trans p2 (by norm_num)))
      _ = _ := by norm_num

/-- The hypotheses of the local decodings are met by an aircraft at latitude 45, longitude 10 with itself as reference. -/
example : |(45 : ℝ)| ≤ 90 ∧ |(10 : ℝ)| ≤ 359 ∧ |(45 : ℝ) - 45| ≤ dLat 0 / 2 - dLat 0 / 2 ^ 17 ∧
    |(10 : ℝ) - 10| ≤ dLon 17 0 45 / 2 - dLon 17 0 45 / 2 ^ 17 := by
  have h := dLon_bounds 17 0 (by norm_num) 45
  refine ⟨by norm_num [abs_of_pos], by norm_num [abs_of_pos], ?_, ?_⟩
  · rw [sub_self, abs_zero]; unfold dLat; norm_num
  · rw [sub_self, abs_zero]; linarith [h.1]

/-- And of the surface version, with zones of a quarter. -/
example : |rLat 19 0 45| ≤ 90 ∧ (rLat 19 0 45 = 0 ∨ dLat 0 / 2 ^ 17 ≤ |rLat 19 0 45|) ∧ |(45 : ℝ) - 45| ≤ dLat 0 / 8 - dLat 0 / 2 ^ 19 ∧
    |(10 : ℝ) - 10| ≤ dLon 19 0 45 / 8 - dLon 19 0 45 / 2 ^ 19 := by
  have h := dLon_bounds 19 0 (by norm_num) 45
  have hr := abs_le.1 (rLat19_near 0 (by norm_num) 45)
  have hd : dLat 0 = 6 := by unfold dLat; norm_num
  rw [hd] at hr ⊢
  have hp : 0 < rLat 19 0 45 := by linarith [hr.1]
  refine ⟨?_, Or.inr ?_, ?_, ?_⟩
  · rw [abs_of_pos hp]; linarith [hr.2]
  · rw [abs_of_pos hp]; linarith [hr.1]
  · rw [sub_self, abs_zero]; norm_num
  · rw [sub_self, abs_zero]; linarith [h.1]

end Geo
end Modes
