import Verif.Props.GeoFloatLocal
/-!
# Rounding: surface global decoding

The `float64` version of the global part of C57.
-/
open Spec
noncomputable section
namespace Modes
namespace Geo

/-- A latitude of the surface grid at least four steps from the equator, or on it. -/
theorem grid_strip (i : ℕ) (hi : i ≤ 1) (G : ℤ) (h : gridLatitude i G = 0 ∨ dLat i / 2 ^ 17 ≤ |gridLatitude i G|) :
    G = 0 ∨ 4 ≤ |G| := by
  have hp : (0 : ℝ) < 90 / (60 - i) := by
    rcases (by omega : i = 0 ∨ i = 1) with h | h <;> rw [h] <;> norm_num
  have hd : dLat i = 4 * (90 / (60 - i)) := by unfold dLat; ring
  rw [hd] at h
  unfold gridLatitude at h
  generalize (90 : ℝ) / (60 - i) = d at *
  rcases h with hz | hz
  · left
    rcases mul_eq_zero.1 hz with h | h
    · exact absurd h hp.ne'
    · have : ((G : ℤ) : ℝ) = 0 := by linarith
      exact_mod_cast this
  · right
    rw [abs_mul, abs_of_pos hp, abs_div, abs_of_pos (by norm_num : (0 : ℝ) < 131072)] at hz
    have h4 : (4 : ℝ) ≤ |(G : ℝ)| := by
      by_contra hc
      push Not at hc
      have : d * (|(G : ℝ)| / 131072) < d * (4 / 131072) :=
        mul_lt_mul_of_pos_left (div_lt_div_of_pos_right hc (by norm_num)) hp
      linarith
    rw [← Int.cast_abs] at h4
    exact_mod_cast h4

/-- Even surface latitudes are computed exactly. -/
theorem surfaceEvenF_eq (refLat : ℝ) (j : ℤ) (hj : |j| ≤ 1099511627776) (a : UInt32) (ha : a.toNat < 131072) (latE : ℝ)
    (hE : (if refLat < 0 then 90 / ((60 : ℕ) : ℝ) * (mod j (60 : ℕ) + cpr a) - 90
      else 90 / ((60 : ℕ) : ℝ) * (mod j (60 : ℕ) + cpr a)) = latE) :
    (if refLat < 0 then f64R (f64R (f64R (90 / (60 : ℕ)) * f64R (modF f64R (j : ℝ) (60 : ℕ) + cpr a)) - 90)
      else f64R (f64R (90 / (60 : ℕ)) * f64R (modF f64R (j : ℝ) (60 : ℕ) + cpr a))) = latE ∧
    ∃ G : ℤ, latE = gridLatitude 0 G := by
  subst hE
  rw [placeF_eq j 60 (by norm_num) (by norm_num) hj, mod_int j 60 (by norm_num)]
  have h2 := Int.emod_nonneg j (by norm_num : ((60 : ℕ) : ℤ) ≠ 0)
  have h3 := Int.emod_lt_of_pos j (by norm_num : 0 < ((60 : ℕ) : ℤ))
  have ha' : (a.toNat : ℤ) < 131072 := by exact_mod_cast ha
  generalize hk : (j % (60 : ℕ)) * 131072 + (a.toNat : ℤ) = k
  have hkr : 0 ≤ k ∧ k < 7864320 := by omega
  have e : ((j % (60 : ℕ) : ℤ) : ℝ) + cpr a = (k : ℝ) / 131072 := by
    rw [← hk, cpr_int]; push_cast; ring
  rw [e]
  have e1 : f64R (90 / (60 : ℕ)) = 90 / (60 : ℕ) := f64R_exact _ 3 1 (by norm_num) (by norm_num)
  have e2 : f64R (90 / (60 : ℕ) * (k / 131072)) = 90 / (60 : ℕ) * ((k : ℝ) / 131072) :=
    f64R_exact _ (3 * k) 18 (by push_cast; ring) (by rw [abs_le]; constructor <;> omega)
  have e3 : f64R (90 / (60 : ℕ) * (k / 131072) - 90) = 90 / (60 : ℕ) * ((k : ℝ) / 131072) - 90 :=
    f64R_exact _ (3 * k - 90 * 262144) 18 (by push_cast; ring) (by rw [abs_le]; constructor <;> omega)
  rw [e1, e2, e3]
  refine ⟨rfl, ?_⟩
  split
  · exact ⟨k - 60 * 131072, by unfold gridLatitude; push_cast; ring⟩
  · exact ⟨k, by unfold gridLatitude; push_cast; ring⟩

/-- Odd surface latitudes are computed within 2^-43 degree. -/
theorem surfaceOddF_err (refLat : ℝ) (j : ℤ) (hj : |j| ≤ 1099511627776) (a : UInt32) (ha : a.toNat < 131072) (latO latO' : ℝ)
    (hO : (if refLat < 0 then 90 / ((59 : ℕ) : ℝ) * (mod j (59 : ℕ) + cpr a) - 90
      else 90 / ((59 : ℕ) : ℝ) * (mod j (59 : ℕ) + cpr a)) = latO)
    (hO' : (if refLat < 0 then f64R (f64R (f64R (90 / (59 : ℕ)) * f64R (modF f64R (j : ℝ) (59 : ℕ) + cpr a)) - 90)
      else f64R (f64R (90 / (59 : ℕ)) * f64R (modF f64R (j : ℝ) (59 : ℕ) + cpr a))) = latO') :
    |latO' - latO| ≤ 1 / 2 ^ 43 ∧ ∃ G : ℤ, latO = gridLatitude 1 G ∧ (G = 0 → latO' = latO) := by
  subst hO hO'
  rw [placeF_eq j 59 (by norm_num) (by norm_num) hj, mod_int j 59 (by norm_num)]
  have h2 := Int.emod_nonneg j (by norm_num : ((59 : ℕ) : ℤ) ≠ 0)
  have h3 := Int.emod_lt_of_pos j (by norm_num : 0 < ((59 : ℕ) : ℤ))
  have ha' : (a.toNat : ℤ) < 131072 := by exact_mod_cast ha
  generalize hk : (j % (59 : ℕ)) * 131072 + (a.toNat : ℤ) = k
  have hkr : 0 ≤ k ∧ k < 7733248 := by omega
  have e : ((j % (59 : ℕ) : ℤ) : ℝ) + cpr a = (k : ℝ) / 131072 := by
    rw [← hk, cpr_int]; push_cast; ring
  rw [e]
  have hk0 : (0 : ℝ) ≤ k := by exact_mod_cast hkr.1
  have hk1 : (k : ℝ) ≤ 7733247 := by exact_mod_cast (by omega : k ≤ 7733247)
  have herr := product_err 90 59 (by norm_num) (by norm_num) (by norm_num) ((k : ℝ) / 131072) (by positivity)
    (by rw [div_le_iff₀ (by norm_num)]; norm_num; linarith)
  have hg : (90 : ℝ) / (59 : ℕ) * (k / 131072) = 90 * k / 7733248 := by push_cast; ring
  split
  · refine ⟨?_, k - 59 * 131072, by unfold gridLatitude; push_cast; ring, fun h => by omega⟩
    generalize f64R (f64R (90 / (59 : ℕ)) * (k / 131072)) = p at herr ⊢
    have e1 := f64R_err (p - 90)
    have h90 : |p - 90| ≤ 91 := by
      have := abs_le.1 herr
      rw [hg] at this
      rw [abs_le]
      norm_num at this ⊢
      constructor <;> linarith [this.1, this.2]
    have e2 := le_trans e1 (div_le_div_of_nonneg_right h90 (by norm_num))
    calc |f64R (p - 90) - (90 / (59 : ℕ) * ((k : ℝ) / 131072) - 90)|
          = |(f64R (p - 90) - (p - 90)) + (p - 90 / (59 : ℕ) * ((k : ℝ) / 131072))| := by congr 1; ring
      _ ≤ _ := le_trans (abs_add_le _ _) (add_le_add e2 herr)
      _ ≤ _ := by norm_num
  · refine ⟨le_trans herr (by norm_num), k, by unfold gridLatitude; push_cast; norm_num, ?_⟩
    rintro rfl; simp [f64R, rnd_zero]

/-- The correction of a candidate to [-180, 180], with rounding. -/
def wrapF (x : ℝ) : ℝ := f64R (modF f64R (f64R (x + 180)) 360 - 180)

theorem f64R_near (x b : ℝ) (h : |x| ≤ b) (hb : b ≤ 1000) : |f64R x - x| ≤ 1 / 8 / 10 ^ 12 :=
  le_trans (f64R_err x) (le_trans (div_le_div_of_nonneg_right (h.trans hb) (by norm_num)) (by norm_num))

/-- A rounded candidate is within 10^-12 of the longitude up to whole turns, and within 10^-10 of [-180, 180]. -/
theorem wrapF_spec (x : ℝ) (h0 : -1 ≤ x) (h1 : x ≤ 361) : ∃ t : ℤ, |wrapF x - (x + 360 * t)| ≤ 1 / 10 ^ 12 ∧ |wrapF x| ≤ 180 + 1 / 10 ^ 10 := by
  unfold wrapF modF
  have a1 := f64R_near (x + 180) 541 (by rw [abs_le]; constructor <;> linarith) (by norm_num)
  generalize f64R (x + 180) = y at *
  have a1' := abs_le.1 a1
  have hy0 : 0 < y := by norm_num at a1'; linarith [a1'.1]
  have hy1 : y ≤ 542 := by norm_num at a1'; linarith [a1'.2]
  have a2 := f64R_near (y / 360) 2 (by rw [abs_of_pos (by positivity)]; linarith) (by norm_num)
  have a2' := abs_le.1 a2
  obtain ⟨q, hq, hq01⟩ : ∃ q : ℤ, ⌊f64R (y / 360)⌋ = q ∧ (q = 0 ∨ q = 1) := by
    refine ⟨_, rfl, ?_⟩
    have u1 : 0 ≤ ⌊f64R (y / 360)⌋ := Int.floor_nonneg.2 (by
      have : 178 ≤ y := by norm_num at a1'; linarith [a1'.1]
      norm_num at a2'; linarith [a2'.1])
    have u2 : ⌊f64R (y / 360)⌋ < 2 := Int.floor_lt.2 (by norm_num at a2' ⊢; linarith [a2'.2])
    omega
  have hq1 := Int.floor_le (f64R (y / 360))
  have hq2 := Int.lt_floor_add_one (f64R (y / 360))
  rw [hq] at hq1 hq2 ⊢
  have e3 : f64R (360 * (q : ℝ)) = 360 * q := by
    have := f64R_int (360 * q) (by rw [abs_le]; omega)
    push_cast at this; exact this
  rw [e3]
  have r1 : -(1 / 2 / 10 ^ 10) ≤ y - 360 * q ∧ y - 360 * q ≤ 360 + 1 / 2 / 10 ^ 10 := by
    norm_num at a2' ⊢; constructor <;> linarith [a2'.1, a2'.2]
  have a3 := f64R_near (y - 360 * q) 361 (by rw [abs_le]; norm_num at r1 ⊢; constructor <;> linarith [r1.1, r1.2]) (by norm_num)
  generalize f64R (y - 360 * q) = z at *
  have a3' := abs_le.1 a3
  have a4 := f64R_near (z - 180) 181 (by
    rw [abs_le]; norm_num at r1 a3' ⊢; constructor <;> linarith [r1.1, r1.2, a3'.1, a3'.2]) (by norm_num)
  generalize f64R (z - 180) = w at *
  have a4' := abs_le.1 a4
  refine ⟨-q, ?_, ?_⟩
  · rw [abs_le]; push_cast
    norm_num at a1' a3' a4' ⊢
    constructor <;> linarith [a1'.1, a1'.2, a3'.1, a3'.2, a4'.1, a4'.2]
  · rw [abs_le]
    norm_num at r1 a3' a4' ⊢
    constructor <;> linarith [r1.1, r1.2, a3'.1, a3'.2, a4'.1, a4'.2]

/-- The candidate returned has the smallest rounded distance. -/
theorem nearestLongitudeF_spec (ref : ℝ) (cs : List ℝ) (c0 : ℝ) (hm : c0 ∈ cs) (h : |f64R (ref - c0)| < 10000000) :
    ∃ c, nearestLongitudeF f64R ref cs = .ok c ∧ c ∈ cs ∧ ∀ c' ∈ cs, |f64R (ref - c)| ≤ |f64R (ref - c')| := by
  have h' := nearestFold (cs.map fun c => |f64R (ref - c)|) 0 (10000000, none)
  obtain ⟨-, h2, h3⟩ := h'
  unfold nearestLongitudeF
  simp only at h2 h3 ⊢
  rcases h3 with hn | ⟨hlt, i, hi, hr⟩
  · have := h2 _ (List.mem_map_of_mem hm)
    rw [hn] at this
    linarith
  · rw [List.getElem?_map, Option.map_eq_some_iff] at hi
    obtain ⟨c, hc, hd⟩ := hi
    refine ⟨c, ?_, List.mem_of_getElem? hc, fun c' hc' => ?_⟩
    · rw [hr]
      simp only [zero_add, hc]
    · rw [hd]
      exact h2 _ (List.mem_map_of_mem hc')

/-- The candidates, with rounding. -/
def candidatesF (q : ℝ) : List ℝ := [wrapF q, wrapF (f64R (q + 90)), wrapF (f64R (q + 180)), wrapF (f64R (q + 270))]

theorem wrapF_cand (q q' : ℝ) (k : ℕ) (hk : k ≤ 3) (h0 : 0 ≤ q) (h1 : q ≤ 90) (hq : |q' - q| ≤ 1 / 2 ^ 43) (x : ℝ)
    (hx : |x - (q' + 90 * k)| ≤ 1 / 8 / 10 ^ 12) :
    ∃ t : ℤ, |wrapF x - (q + 90 * k + 360 * t)| ≤ 1 / 2 / 10 ^ 11 ∧ |wrapF x| ≤ 180 + 1 / 10 ^ 10 := by
  have hk' : (k : ℝ) ≤ 3 := by exact_mod_cast hk
  have hk0 : (0 : ℝ) ≤ k := by positivity
  have q1 := abs_le.1 hq
  have x1 := abs_le.1 hx
  obtain ⟨t, ht1, ht2⟩ := wrapF_spec x (by norm_num at q1 x1; linarith [q1.1, x1.1]) (by norm_num at q1 x1; linarith [q1.2, x1.2])
  refine ⟨t, ?_, ht2⟩
  have t1 := abs_le.1 ht1
  rw [abs_le]
  norm_num at q1 x1 t1 ⊢
  constructor <;> linarith [q1.1, q1.2, x1.1, x1.2, t1.1, t1.2]

theorem candidatesF_spec (q q' : ℝ) (h0 : 0 ≤ q) (h1 : q ≤ 90) (hq : |q' - q| ≤ 1 / 2 ^ 43) :
    (∀ c ∈ candidatesF q', ∃ k : ℤ, |c - (q + 90 * k)| ≤ 1 / 2 / 10 ^ 11) ∧
    ∀ k : ℤ, |q + 90 * k| ≤ 17999 / 100 → ∃ c ∈ candidatesF q', |c - (q + 90 * k)| ≤ 1 / 2 / 10 ^ 11 := by
  have near (a : ℝ) (ha : 0 ≤ a) (ha' : a ≤ 270) : |f64R (q' + a) - (q' + a)| ≤ 1 / 8 / 10 ^ 12 := by
    have q1 := abs_le.1 hq
    exact f64R_near _ 361 (by rw [abs_le]; norm_num at q1 ⊢; constructor <;> linarith [q1.1, q1.2]) (by norm_num)
  obtain ⟨t0, c0, b0⟩ := wrapF_cand q q' 0 (by norm_num) h0 h1 hq q' (by norm_num)
  obtain ⟨t1, c1, b1⟩ := wrapF_cand q q' 1 (by norm_num) h0 h1 hq (f64R (q' + 90)) (by have := near 90; norm_num at this ⊢; exact this)
  obtain ⟨t2, c2, b2⟩ := wrapF_cand q q' 2 (by norm_num) h0 h1 hq (f64R (q' + 180)) (by have := near 180; norm_num at this ⊢; exact this)
  obtain ⟨t3, c3, b3⟩ := wrapF_cand q q' 3 (by norm_num) h0 h1 hq (f64R (q' + 270)) (by have := near 270; norm_num at this ⊢; exact this)
  constructor
  · unfold candidatesF
    simp only [List.mem_cons, List.not_mem_nil, or_false]
    rintro c (rfl | rfl | rfl | rfl)
    · exact ⟨0 + 4 * t0, by convert c0 using 3; push_cast; ring⟩
    · exact ⟨1 + 4 * t1, by convert c1 using 3; push_cast; ring⟩
    · exact ⟨2 + 4 * t2, by convert c2 using 3; push_cast; ring⟩
    · exact ⟨3 + 4 * t3, by convert c3 using 3; push_cast; ring⟩
  · intro k hk
    -- a candidate with the residue of `k` modulo 4 is the one, because no other turn fits
    have fit (c : ℝ) (r t : ℤ) (hr : k = r + 4 * (k / 4)) (hc : |c - (q + 90 * r + 360 * t)| ≤ 1 / 2 / 10 ^ 11)
        (hb : |c| ≤ 180 + 1 / 10 ^ 10) : |c - (q + 90 * k)| ≤ 1 / 2 / 10 ^ 11 := by
      have hkr : (k : ℝ) = r + 4 * ((k / 4 : ℤ) : ℝ) := by exact_mod_cast hr
      have ht : t = k / 4 := by
        have x1 := abs_le.1 hc
        have x2 := abs_le.1 hb
        have x3 := abs_le.1 hk
        have u1 : ((t - k / 4 : ℤ) : ℝ) < 1 := by
          push_cast; norm_num at x1 x2 x3; linarith [x1.1, x2.2, x3.1]
        have u2 : (-1 : ℝ) < ((t - k / 4 : ℤ) : ℝ) := by
          push_cast; norm_num at x1 x2 x3; linarith [x1.2, x2.1, x3.2]
        have v1 : t - k / 4 < 1 := by exact_mod_cast u1
        have v2 : -1 < t - k / 4 := by exact_mod_cast u2
        omega
      subst ht
      convert hc using 3
      rw [hkr]; ring
    unfold candidatesF
    have hk4 : k % 4 = 0 ∨ k % 4 = 1 ∨ k % 4 = 2 ∨ k % 4 = 3 := by omega
    rcases hk4 with h | h | h | h
    · exact ⟨_, List.mem_cons_self, fit _ 0 t0 (by omega) (by push_cast at c0 ⊢; exact c0) b0⟩
    · exact ⟨_, by simp, fit (wrapF (f64R (q' + 90))) 1 t1 (by omega) (by push_cast at c1 ⊢; exact c1) b1⟩
    · exact ⟨_, by simp, fit (wrapF (f64R (q' + 180))) 2 t2 (by omega) (by push_cast at c2 ⊢; exact c2) b2⟩
    · exact ⟨_, by simp, fit (wrapF (f64R (q' + 270))) 3 t3 (by omega) (by push_cast at c3 ⊢; exact c3) b3⟩

/-- The position of `S`, known up to quarter turns, is the candidate chosen, within 10^-11 degree. -/
theorem nearest_uniqueF (refLon q q' S : ℝ) (t : ℤ) (e : q = S + 90 * t) (h0 : 0 ≤ q) (h1 : q ≤ 90) (hq : |q' - q| ≤ 1 / 2 ^ 43)
    (hS : |S| ≤ 17999 / 100) (h : |refLon - S| ≤ 4499 / 100) :
    ∃ c, nearestLongitudeF f64R refLon (candidatesF q') = .ok c ∧ |c - S| ≤ 1 / 10 ^ 11 := by
  obtain ⟨all, ex⟩ := candidatesF_spec q q' h0 h1 hq
  obtain ⟨c0, m0, hc0⟩ := ex (-t) (by rw [e]; push_cast; rwa [show S + 90 * (t : ℝ) + 90 * -t = S by ring])
  have eS : q + 90 * ((-t : ℤ) : ℝ) = S := by rw [e]; push_cast; ring
  rw [eS] at hc0
  have y0 := abs_le.1 hc0
  have yh := abs_le.1 h
  have yS := abs_le.1 hS
  have d0 : |refLon - c0| ≤ 449901 / 10000 := by
    rw [abs_le]; norm_num at y0 yh ⊢; constructor <;> linarith [y0.1, y0.2, yh.1, yh.2]
  have f0 := abs_le.1 (f64R_near (refLon - c0) _ d0 (by norm_num))
  have d0' := abs_le.1 d0
  have g0 : |f64R (refLon - c0)| ≤ 449902 / 10000 := by
    rw [abs_le]; norm_num at f0 d0' ⊢; constructor <;> linarith [f0.1, f0.2, d0'.1, d0'.2]
  obtain ⟨c, hc, hm, hmin⟩ := nearestLongitudeF_spec refLon _ c0 m0 (by linarith)
  refine ⟨c, hc, ?_⟩
  have g := le_trans (hmin c0 m0) g0
  obtain ⟨k, hk⟩ := all c hm
  -- the distance itself, from the rounded one
  have fe := f64R_err (refLon - c)
  have gd : |refLon - c| ≤ 45 := by
    by_contra hc'
    push Not at hc'
    have e1 := abs_sub_abs_le_abs_sub (refLon - c) (f64R (refLon - c))
    rw [abs_sub_comm] at fe
    norm_num at fe g
    linarith
  have gd' := abs_le.1 gd
  have k' := abs_le.1 hk
  have hkt : k + t = 0 := by
    rw [e] at k'
    have u1 : ((k + t : ℤ) : ℝ) < 1 := by
      push_cast; norm_num at k' yh; linarith [k'.1, gd'.1, yh.2]
    have u2 : (-1 : ℝ) < ((k + t : ℤ) : ℝ) := by
      push_cast; norm_num at k' yh; linarith [k'.2, gd'.2, yh.1]
    have v1 : k + t < 1 := by exact_mod_cast u1
    have v2 : -1 < k + t := by exact_mod_cast u2
    omega
  have : k = -t := by omega
  subst this
  rw [eS] at hk
  exact le_trans hk (by norm_num)

/-- What the decoder computes in `float64`, up to the choice of the longitude. -/
theorem surfaceGlobalF_shape (nl : ℝ → ℝ) (el en ol on : UInt32) (e : Bool) (refLat refLon : ℝ) (j : ℤ)
    (hj : ⌊((60 : ℕ) - 1 : ℝ) * cpr el - (60 : ℕ) * cpr ol + 1 / 2⌋ = j) (latE latO : ℝ)
    (hE : (if refLat < 0 then f64R (f64R (f64R (90 / (60 : ℕ)) * f64R (modF f64R (j : ℝ) (60 : ℕ) + cpr el)) - 90)
      else f64R (f64R (90 / (60 : ℕ)) * f64R (modF f64R (j : ℝ) (60 : ℕ) + cpr el))) = latE)
    (hO : (if refLat < 0 then f64R (f64R (f64R (90 / (59 : ℕ)) * f64R (modF f64R (j : ℝ) (59 : ℕ) + cpr ol)) - 90)
      else f64R (f64R (90 / (59 : ℕ)) * f64R (modF f64R (j : ℝ) (59 : ℕ) + cpr ol))) = latO) :
    (nl latE ≠ nl latO → surfaceGlobalF f64R nl el en ol on e refLat refLon = .error .err) ∧
    ∀ N : ℕ, 1 ≤ N → N ≤ 59 → nl latE = N → nl latO = N → ∀ m : ℤ, ⌊((N : ℝ) - 1) * cpr en - N * cpr on + 1 / 2⌋ = m →
      surfaceGlobalF f64R nl el en ol on e refLat refLon =
        match nearestLongitudeF f64R refLon (candidatesF
          (if e then f64R (f64R (90 / (zones N 0 : ℝ)) * f64R (modF f64R (m : ℝ) (zones N 0) + cpr en))
            else f64R (f64R (90 / (zones N 1 : ℝ)) * f64R (modF f64R (m : ℝ) (zones N 1) + cpr on)))) with
        | .error f => .error f
        | .ok longitude => .ok (if e then latE else latO, longitude) := by
  have a1 : 4 * nz = ((60 : ℕ) : ℝ) := by unfold nz; norm_num
  have a2 : ((60 : ℕ) : ℝ) - 1 = ((59 : ℕ) : ℝ) := by norm_num
  have hj' : ⌊f64R (f64R (f64R (((59 : ℕ) : ℝ) * cpr el) - f64R (((60 : ℕ) : ℝ) * cpr ol)) + 1 / 2)⌋ = j := by
    have := indexF_eq 60 (by norm_num) (by norm_num) el ol
    rw [a2] at this
    rw [this, ← hj, a2]
  constructor
  · intro hne
    unfold surfaceGlobalF
    simp only [cprF_eq, a1, a2, hj', hE, hO]
    rw [if_pos hne]
  · intro N hN hN' nE nO m hm
    have z0 : max (f64R ((N : ℝ) - 0)) 1 = (zones N 0 : ℝ) := by
      have := zonesF N 0 hN hN' (by norm_num); rwa [Nat.cast_zero] at this
    have z1 : max (f64R ((N : ℝ) - 1)) 1 = (zones N 1 : ℝ) := by
      have := zonesF N 1 hN hN' (by norm_num); rwa [Nat.cast_one] at this
    have e1 : f64R ((N : ℝ) - 1) = (N : ℝ) - 1 := by
      have := f64R_int ((N : ℤ) - 1) (by rw [abs_le]; constructor <;> omega)
      push_cast at this; exact this
    rw [e1] at z1
    have hm' := indexF_eq N hN (by omega) en on
    unfold surfaceGlobalF
    simp only [cprF_eq, a1, a2, hj', hE, hO, nE, nO, ne_eq, not_true_eq_false, if_false, z0, e1, z1,
      mul_comm (cpr en), mul_comm (cpr on), hm', hm]
    rfl

/-- The quadrant longitude, with rounding. -/
theorem quadrantF_err (n : ℕ) (hn : 1 ≤ n) (hn' : n ≤ 59) (m : ℤ) (hm : |m| ≤ 1099511627776) (a : UInt32) (ha : a.toNat < 131072) :
    0 ≤ 90 / (n : ℝ) * (mod (m : ℝ) n + cpr a) ∧ 90 / (n : ℝ) * (mod (m : ℝ) n + cpr a) ≤ 90 ∧
    |f64R (f64R (90 / (n : ℝ)) * f64R (modF f64R (m : ℝ) n + cpr a)) - 90 / (n : ℝ) * (mod (m : ℝ) n + cpr a)| ≤ 1 / 2 ^ 43 := by
  rw [placeF_eq m n hn (by omega) hm]
  have hc : 0 ≤ cpr a ∧ cpr a < 1 := by
    have : (a.toNat : ℝ) < 131072 := by exact_mod_cast ha
    unfold cpr maxBinaryValue
    exact ⟨by positivity, by rw [div_lt_one (by norm_num)]; exact this⟩
  obtain ⟨r0, r1⟩ := zone_decode_range n (by omega) 90 (by norm_num) m (cpr a) hc.1 hc.2
  refine ⟨r0, r1.le, ?_⟩
  have hnr : (0 : ℝ) < n := by exact_mod_cast hn
  have hs0 : 0 ≤ mod (m : ℝ) n + cpr a := by
    by_contra h
    push Not at h
    have : 90 / (n : ℝ) * (mod (m : ℝ) n + cpr a) < 0 := mul_neg_of_pos_of_neg (by positivity) h
    linarith
  have hs1 : mod (m : ℝ) n + cpr a ≤ n := by
    rw [div_mul_eq_mul_div, div_lt_iff₀ hnr] at r1
    linarith
  exact le_trans (product_err 90 n (by norm_num) (by norm_num) hn _ hs0 hs1) (by norm_num)

/-- C68. Rounding in the global decoding of surface positions, for all 17-bit coordinates: `latE` and `latO` are the exact latitudes of the
pair, at least four steps from the equator or on it. In different bands, both computations fail. In the same band, when the exact result is
at most 179.99 degrees from the prime meridian and 44.99 degrees from the receiver, the `float64` result is within 10^-11 degree (one
micrometre) of it. -/
theorem surfaceGlobal_float (nl : ℝ → ℝ) (hnl : NLAgrees nl) (el en ol on : UInt32) (e : Bool) (refLat refLon : ℝ)
    (h1 : el.toNat < 131072) (h2 : en.toNat < 131072) (h3 : ol.toNat < 131072) (h4 : on.toNat < 131072) (j : ℤ) (latE latO : ℝ)
    (hj : ⌊((60 : ℕ) - 1 : ℝ) * cpr el - (60 : ℕ) * cpr ol + 1 / 2⌋ = j)
    (hE : (if refLat < 0 then 90 / ((60 : ℕ) : ℝ) * (mod j (60 : ℕ) + cpr el) - 90
      else 90 / ((60 : ℕ) : ℝ) * (mod j (60 : ℕ) + cpr el)) = latE)
    (hO : (if refLat < 0 then 90 / ((59 : ℕ) : ℝ) * (mod j (59 : ℕ) + cpr ol) - 90
      else 90 / ((59 : ℕ) : ℝ) * (mod j (59 : ℕ) + cpr ol)) = latO)
    (sE : latE = 0 ∨ dLat 0 / 2 ^ 17 ≤ |latE|) (sO : latO = 0 ∨ dLat 1 / 2 ^ 17 ≤ |latO|) :
    (getNumberOfLongitude latE ≠ getNumberOfLongitude latO → surfaceGlobalF f64R nl el en ol on e refLat refLon = .error .err) ∧
    ∀ lat lon, surfaceGlobal el en ol on e refLat refLon = .ok (lat, lon) → |lon| ≤ 17999 / 100 → |refLon - lon| ≤ 4499 / 100 →
      ∃ lat' lon', surfaceGlobalF f64R nl el en ol on e refLat refLon = .ok (lat', lon') ∧ |lat' - lat| ≤ 1 / 2 ^ 43 ∧
        |lon' - lon| ≤ 1 / 10 ^ 11 := by
  have hjb : |j| ≤ 1099511627776 := by rw [← hj]; exact index_bound 60 (by norm_num) (by norm_num) el ol
  obtain ⟨qE, GE, gE⟩ := surfaceEvenF_eq refLat j hjb el h1 latE hE
  obtain ⟨latO', hO'⟩ : ∃ x, (if refLat < 0 then f64R (f64R (f64R (90 / (59 : ℕ)) * f64R (modF f64R (j : ℝ) (59 : ℕ) + cpr ol)) - 90)
      else f64R (f64R (90 / (59 : ℕ)) * f64R (modF f64R (j : ℝ) (59 : ℕ) + cpr ol))) = x := ⟨_, rfl⟩
  obtain ⟨qO, GO, gO, zO⟩ := surfaceOddF_err refLat j hjb ol h3 latO latO' hO hO'
  have nE := hnl 0 GE latE (by norm_num) (grid_strip 0 (by norm_num) GE (by rw [← gE]; exact sE)) (by rw [gE, sub_self, abs_zero]; positivity)
    (fun _ => gE)
  have nO := hnl 1 GO latO' le_rfl (grid_strip 1 le_rfl GO (by rw [← gO]; exact sO)) (by rw [← gO]; exact qO) (fun h => by
    rw [← gO]; exact zO (by omega))
  rw [← gE] at nE
  rw [← gO] at nO
  obtain ⟨shE, shO⟩ := surfaceGlobalF_shape nl el en ol on e refLat refLon j hj latE latO' qE hO'
  constructor
  · intro hne; exact shE (by rw [nE, nO]; exact hne)
  · intro lat lon hok hlon href
    obtain ⟨N, hN, hN1, hN59⟩ := nl_nat latE
    have hex := surfaceGlobal_eq el en ol on e refLat refLon j latE latO hj hE hO N hN1 hN
    rw [hok] at hex
    by_cases hNO : getNumberOfLongitude latO = N
    · rw [if_pos hNO] at hex
      generalize hm : ⌊((N : ℝ) - 1) * cpr en - N * cpr on + 1 / 2⌋ = m at hex
      have hmb : |m| ≤ 1099511627776 := by rw [← hm]; exact index_bound N hN1 (by omega) en on
      have okF := shO N hN1 hN59 (by rw [nE, hN]) (by rw [nO, hNO]) m hm
      generalize hq : (if e then 90 / (zones N 0 : ℝ) * (mod (m : ℝ) (zones N 0) + cpr en)
          else 90 / (zones N 1 : ℝ) * (mod (m : ℝ) (zones N 1) + cpr on)) = q at hex
      generalize hq' : (if e then f64R (f64R (90 / (zones N 0 : ℝ)) * f64R (modF f64R (m : ℝ) (zones N 0) + cpr en))
          else f64R (f64R (90 / (zones N 1 : ℝ)) * f64R (modF f64R (m : ℝ) (zones N 1) + cpr on))) = q' at okF
      have hqq : 0 ≤ q ∧ q ≤ 90 ∧ |q' - q| ≤ 1 / 2 ^ 43 := by
        subst hq hq'
        cases e
        · exact quadrantF_err (zones N 1) (zones_pos N 1) (by unfold zones; omega) m hmb on h4
        · exact quadrantF_err (zones N 0) (zones_pos N 0) (by unfold zones; omega) m hmb en h2
      rcases nearestLongitude_spec refLon (candidates q) with ⟨c, hc, hmem, -, -⟩ | ⟨hp, -⟩
      · rw [hc] at hex
        injection hex with hex
        injection hex with hex1 hex2
        subst hex2
        obtain ⟨-, -, k, ek⟩ := (mem_candidates q lon).1 hmem
        obtain ⟨c, hcF, herr⟩ := nearest_uniqueF refLon q q' lon (-k) (by rw [ek]; push_cast; ring) hqq.1 hqq.2.1 hqq.2.2 hlon href
        rw [hcF] at okF
        refine ⟨_, _, okF, ?_, herr⟩
        rw [hex1]
        cases e
        · exact qO
        · simp only [if_true, sub_self, abs_zero]; positivity
      · rw [hp] at hex; cases hex
    · rw [if_neg hNO] at hex; cases hex

/-- C68, the global part of C57 with rounding. -/
theorem surface_global_float64 (cosF acosF : ℝ → ℝ) (hF : Accurate cosF acosF) (lat0 lon0 lat1 lon1 refLat refLon : ℝ) (e : Bool)
    (h0 : SameHemisphere 0 refLat lat0) (h1 : SameHemisphere 1 refLat lat1)
    (s0 : rLat 19 0 lat0 = 0 ∨ dLat 0 / 2 ^ 17 ≤ |rLat 19 0 lat0|) (s1 : rLat 19 1 lat1 = 0 ∨ dLat 1 / 2 ^ 17 ≤ |rLat 19 1 lat1|)
    (hlat : |lat0 - lat1| ≤ 1 / 80) (hband : NL (rLat 19 0 lat0) = NL (rLat 19 1 lat1))
    (hlon : (NL (rLat 19 0 lat0) : ℝ) * (NL (rLat 19 0 lat0) - 1) * |lon0 - lon1| ≤ 44) :
    let lat := if e then lat0 else lat1
    let lon := if e then lon0 else lon1
    let stepLat := (if e then dLat 0 else dLat 1) / 2 ^ 19
    let stepLon := (if e then dLon 19 0 lat0 else dLon 19 1 lat1) / 2 ^ 19
    |lon| ≤ 17998 / 100 → |lon - refLon| ≤ 4498 / 100 →
    ∃ lat' lon', surfaceGlobalF f64R (getNumberOfLongitudeF f64R cosF acosF) (encodeLat 19 0 lat0) (encodeLon 19 0 lat0 lon0)
        (encodeLat 19 1 lat1) (encodeLon 19 1 lat1 lon1) e refLat refLon = .ok (lat', lon') ∧
      |lat' - lat| ≤ stepLat / 2 + 1 / 2 ^ 43 ∧ |lon' - lon| ≤ stepLon / 2 + 1 / 10 ^ 11 := by
  intro lat lon stepLat stepLon hl1 hl2
  have hstep : 0 < stepLon ∧ stepLon ≤ 360 / 2 ^ 19 := by
    have b0 := dLon_bounds 19 0 (by norm_num) lat0
    have b1 := dLon_bounds 19 1 le_rfl lat1
    have : 6 ≤ (if e then dLon 19 0 lat0 else dLon 19 1 lat1) ∧ (if e then dLon 19 0 lat0 else dLon 19 1 lat1) ≤ 360 := by
      cases e
      · exact b1
      · exact b0
    exact ⟨div_pos (by linarith [this.1]) (by positivity), div_le_div_of_nonneg_right this.2 (by positivity)⟩
  norm_num at hstep
  have l1 := abs_le.1 hl1
  obtain ⟨la, lo, hok, a1, a2⟩ := surface_global_partial lat0 lon0 lat1 lon1 refLat refLon e h0 h1 hlat hband hlon
    (by show -180 ≤ lon; linarith [l1.1]) (by show lon + stepLon / 2 < 180; linarith [l1.2]) (by show |lon - refLon| + stepLon / 2 < 45; linarith)
  have a2' : |lo - lon| ≤ stepLon / 2 := a2
  have a1' : |la - lat| ≤ stepLat / 2 := a1
  have hi0 : (0 : ℕ) ≤ 1 := by norm_num
  have q0 : dLat 0 / 4 = 90 / ((60 : ℕ) : ℝ) := by rw [dLat0]; norm_num
  have q1 : dLat 1 / 4 = 90 / ((59 : ℕ) : ℝ) := by rw [dLat1]; norm_num
  have hj := index_of_near 60 (by norm_num) (by norm_num) 90 (by norm_num) (dLat 0 / 4) (dLat 1 / 4) lat0 lat1
    q0 (Or.inr (by rw [q1]; norm_num)) 0 (by
      simp only [Int.cast_zero, mul_zero, sub_zero]
      norm_num
      linarith) (by norm_num)
  rw [← cpr_encodeLat19 0 hi0, ← cpr_encodeLat19 1 le_rfl] at hj
  set j : ℤ := ((60 : ℕ) : ℤ) * (grid 17 (dLat 1 / 4) lat1 / 131072) - (((60 : ℕ) : ℤ) - 1) * (grid 17 (dLat 0 / 4) lat0 / 131072) +
    ((60 : ℕ) : ℤ) * (((60 : ℕ) : ℤ) - 1) * 0 with hjd
  have hE := surface_latitude 0 60 hi0 (by norm_num) refLat lat0 h0 j q0
    ⟨grid 17 (dLat 1 / 4) lat1 / 131072 - grid 17 (dLat 0 / 4) lat0 / 131072, by rw [hjd]; push_cast; ring⟩
  have hO := surface_latitude 1 59 le_rfl (by norm_num) refLat lat1 h1 j q1
    ⟨grid 17 (dLat 1 / 4) lat1 / 131072 - grid 17 (dLat 0 / 4) lat0 / 131072, by rw [hjd]; push_cast; ring⟩
  obtain ⟨-, H⟩ := surfaceGlobal_float _ (nlF_agrees cosF acosF hF) (encodeLat 19 0 lat0) (encodeLon 19 0 lat0 lon0) (encodeLat 19 1 lat1)
    (encodeLon 19 1 lat1 lon1) e refLat refLon (encode_lt _ _ _) (encode_lt _ _ _) (encode_lt _ _ _) (encode_lt _ _ _) j _ _ hj hE hO s0 s1
  obtain ⟨la', lo', hF', b1, b2⟩ := H la lo hok (by
      have := abs_near lo lon _ _ a2' hl1; linarith) (by
      have := abs_near (lo - refLon) (lon - refLon) (stepLon / 2) _ (by rw [show lo - refLon - (lon - refLon) = lo - lon by ring]; exact a2') hl2
      rw [abs_sub_comm]; linarith)
  refine ⟨la', lo', hF', ?_, ?_⟩
  · calc |la' - lat| = |(la - lat) + (la' - la)| := by congr 1; ring
      _ ≤ _ := le_trans (abs_add_le _ _) (add_le_add a1' b1)
  · calc |lo' - lon| = |(lo - lon) + (lo' - lo)| := by congr 1; ring
      _ ≤ _ := le_trans (abs_add_le _ _) (add_le_add a2' b2)

/-- The hypotheses are met by an aircraft at latitude 10, longitude 10, standing still, and a receiver at latitude 11, longitude 12. -/
example : SameHemisphere 0 11 10 ∧ SameHemisphere 1 11 10 ∧ (rLat 19 0 10 = 0 ∨ dLat 0 / 2 ^ 17 ≤ |rLat 19 0 10|) ∧
    (rLat 19 1 10 = 0 ∨ dLat 1 / 2 ^ 17 ≤ |rLat 19 1 10|) ∧ |(10 : ℝ) - 12| ≤ 4498 / 100 := by
  have d0 : dLat 0 = 6 := by unfold dLat; norm_num
  have d1 : dLat 1 = 360 / 59 := by unfold dLat; norm_num
  have r0 := abs_le.1 (rLat19_near 0 (by norm_num) 10)
  have r1 := abs_le.1 (rLat19_near 1 le_rfl 10)
  rw [d0] at r0
  rw [d1] at r1
  refine ⟨Or.inl ⟨by norm_num, by norm_num, by rw [d0]; norm_num⟩, Or.inl ⟨by norm_num, by norm_num, by rw [d1]; norm_num⟩,
    Or.inr ?_, Or.inr ?_, by norm_num [abs_of_neg]⟩
  · rw [d0, abs_of_pos (by linarith [r0.1])]; linarith [r0.1]
  · rw [d1, abs_of_pos (by linarith [r1.1])]; linarith [r1.1]

/-- And all of them, with an accurate library, by an aircraft on the equator. -/
example : ∃ lat' lon', surfaceGlobalF f64R (getNumberOfLongitudeF f64R (fun x => f64R (Real.cos x)) (fun x => f64R (Real.arccos x)))
    (encodeLat 19 0 0) (encodeLon 19 0 0 10) (encodeLat 19 1 0) (encodeLon 19 1 0 10) true 0 12 = .ok (lat', lon') ∧
    |lat' - 0| ≤ dLat 0 / 2 ^ 19 / 2 + 1 / 2 ^ 43 ∧ |lon' - 10| ≤ dLon 19 0 0 / 2 ^ 19 / 2 + 1 / 10 ^ 11 := by
  have hz (i : ℕ) (hi : i ≤ 1) : rLat 19 i 0 = 0 := by
    rw [rLat19_eq i hi]
    have : grid 17 (dLat i / 4) 0 = 0 := by unfold grid; rw [Int.floor_eq_iff]; norm_num
    rw [this]; norm_num
  exact surface_global_float64 _ _ accurate_rounded 0 10 0 10 0 12 true (Or.inl ⟨le_rfl, le_rfl, by rw [dLat0]; norm_num⟩)
    (Or.inl ⟨le_rfl, le_rfl, by rw [dLat1]; norm_num⟩) (Or.inl (hz 0 (by norm_num))) (Or.inl (hz 1 le_rfl)) (by norm_num)
    (by rw [hz 0 (by norm_num), hz 1 le_rfl]) (by norm_num) (by simp only [if_true]; norm_num [abs_of_pos])
    (by simp only [if_true]; norm_num [abs_of_neg])

end Geo
end Modes
