import Verif.Lemmas.CPR
import Mathlib.Tactic.IntervalCases
/-!
# C55, C56, C58: airborne position decoding

`rLat`, `dLon`, `encodeLat`, `encodeLon` and `NL` are the encoder of the standard (Spec/CPR).
-/
open Spec
noncomputable section
namespace Modes
namespace Geo

theorem dLat0 : dLat 0 = 360 / 60 := by unfold dLat; norm_num
theorem dLat1 : dLat 1 = 360 / 59 := by unfold dLat; norm_num

/-- Number of zones of a message: `NL` in even messages, one less in odd ones, at least one. -/
def zones (N i : ℕ) : ℕ := max (N - i) 1

theorem zones_cast (N i : ℕ) (hN : 1 ≤ N) (hi : i ≤ 1) : max ((N : ℝ) - i) 1 = (zones N i : ℝ) := by
  unfold zones
  rw [Nat.cast_max, Nat.cast_one, Nat.cast_sub (by omega)]

theorem zones_pos (N i : ℕ) : 0 < zones N i := by unfold zones; omega

theorem dLon_eq (nb i : ℕ) (hi : i ≤ 1) (lat : ℝ) : dLon nb i lat = 360 / (zones (NL (rLat nb i lat)) i : ℝ) := by
  unfold dLon
  rw [zones_cast _ i (NL_range _).1 hi]

theorem dLon_pos (nb i : ℕ) (hi : i ≤ 1) (lat : ℝ) : 0 < dLon nb i lat := by
  rw [dLon_eq nb i hi]
  have := zones_pos (NL (rLat nb i lat)) i
  have : (0 : ℝ) < (zones (NL (rLat nb i lat)) i : ℝ) := by exact_mod_cast this
  positivity

theorem cpr_encodeLat (nb i : ℕ) (hnb : 17 ≤ nb) (hi : i ≤ 1) (lat : ℝ) :
    cpr (encodeLat nb i lat) = ((grid nb (dLat i) lat % 131072 : ℤ) : ℝ) / 131072 := by
  refine cpr_encode nb hnb _ _ ?_
  interval_cases i
  · rw [dLat0]; norm_num
  · rw [dLat1]; norm_num

theorem cpr_encodeLon (nb i : ℕ) (hnb : 17 ≤ nb) (hi : i ≤ 1) (lat lon : ℝ) :
    cpr (encodeLon nb i lat lon) = ((grid nb (dLon nb i lat) lon % 131072 : ℤ) : ℝ) / 131072 :=
  cpr_encode nb hnb _ _ (dLon_pos nb i hi lat).ne'

theorem rLat_eq (i : ℕ) (hi : i ≤ 1) (lat : ℝ) : rLat 17 i lat = dLat i * ((grid 17 (dLat i) lat : ℝ) / 131072) := by
  unfold rLat
  rw [zoneValue_eq]
  · norm_num
  · interval_cases i
    · rw [dLat0]; norm_num
    · rw [dLat1]; norm_num

/-- On the globe, the recovered latitude is on the globe. -/
theorem rLat_range (i : ℕ) (hi : i ≤ 1) (lat : ℝ) (h : |lat| ≤ 90) : |rLat 17 i lat| ≤ 90 := by
  rw [abs_le] at h ⊢
  rw [rLat_eq i hi]
  interval_cases i
  · rw [dLat0]
    have h1 : grid 17 (360 / 60) lat ≤ 15 * 131072 := grid_le _ _ _ _ (by push_cast; linarith [h.2])
    have h2 : -15 * 131072 ≤ grid 17 (360 / 60) lat := le_grid _ _ _ _ (by push_cast; linarith [h.1])
    have h1' : (grid 17 (360 / 60) lat : ℝ) ≤ 15 * 131072 := by exact_mod_cast h1
    have h2' : (-15 * 131072 : ℝ) ≤ grid 17 (360 / 60) lat := by exact_mod_cast h2
    constructor <;> linarith
  · rw [dLat1]
    have h1 : grid 17 (360 / 59) lat ≤ 59 * 32768 := grid_le _ _ _ _ (by push_cast; linarith [h.2])
    have h2 : -59 * 32768 ≤ grid 17 (360 / 59) lat := le_grid _ _ _ _ (by push_cast; linarith [h.1])
    have h1' : (grid 17 (360 / 59) lat : ℝ) ≤ 59 * 32768 := by
      have : ((grid 17 (360 / 59) lat : ℤ) : ℝ) ≤ ((59 * 32768 : ℤ) : ℝ) := by exact_mod_cast h1
      push_cast at this; linarith
    have h2' : (-59 * 32768 : ℝ) ≤ grid 17 (360 / 59) lat := by
      have : ((-59 * 32768 : ℤ) : ℝ) ≤ ((grid 17 (360 / 59) lat : ℤ) : ℝ) := by exact_mod_cast h2
      push_cast at this; linarith
    constructor <;> linarith

theorem rLat_near (i : ℕ) (hi : i ≤ 1) (lat : ℝ) : |rLat 17 i lat - lat| ≤ dLat i / 2 ^ 18 := by
  refine zoneValue_near 17 _ _ ?_
  interval_cases i
  · rw [dLat0]; norm_num
  · rw [dLat1]; norm_num

theorem fixLatitude_turn (x y : ℝ) (t : ℤ) (e : x = y + 360 * t) (h0 : 0 ≤ x) (h1 : x < 360) (hy : |y| ≤ 90) :
    fixLatitude x = y := by
  rw [abs_le] at hy
  unfold fixLatitude
  by_cases hn : 0 ≤ y
  · have := turn_unique 360 x y 0 (by norm_num) t e h0 (by linarith) hn (by linarith [hy.2])
    rw [this, if_neg (by linarith [hy.2])]
  · push Not at hn
    have := turn_unique 360 x (y + 360) 0 (by norm_num) (t - 1) (by rw [e]; push_cast; ring) h0 (by linarith)
      (by linarith [hy.1]) (by linarith)
    rw [this, if_pos (by linarith [hy.1])]; ring

theorem fixLongitude_spec (x : ℝ) (h0 : 0 ≤ x) (h1 : x < 360) :
    -180 < fixLongitude x ∧ fixLongitude x ≤ 180 ∧ ∃ t : ℤ, fixLongitude x = x + 360 * t := by
  unfold fixLongitude
  split
  · exact ⟨by linarith, by linarith, -1, by push_cast; ring⟩
  · rename_i h; exact ⟨by linarith, by linarith, 0, by push_cast; ring⟩

/-- The zone index of two codes of nearby positions: `n` zones in even messages and `n - 1` in odd ones. -/
theorem index_of_near (n : ℕ) (hn : 1 ≤ n) (hn60 : n ≤ 60) (span : ℝ) (hs : 0 < span) (d0 d1 x0 x1 : ℝ)
    (hd0 : d0 = span / n) (hd1 : n = 1 ∨ d1 = span / ((n : ℝ) - 1)) (s : ℤ)
    (hx : ((n : ℝ) * ((n : ℝ) - 1)) * |x0 - x1 - span * s| ≤ span * (179 / 360))
    (h1 : n = 1 → False) :
    ⌊((n : ℝ) - 1) * (((grid 17 d0 x0 % 131072 : ℤ) : ℝ) / 131072) - n * (((grid 17 d1 x1 % 131072 : ℤ) : ℝ) / 131072) + 1 / 2⌋ =
      n * (grid 17 d1 x1 / 131072) - (n - 1) * (grid 17 d0 x0 / 131072) + n * (n - 1) * s := by
  have hd1 : d1 = span / ((n : ℝ) - 1) := hd1.resolve_left h1
  have hn2 : 2 ≤ n := by
    rcases Nat.lt_or_ge n 2 with h | h
    · exact (h1 (by omega)).elim
    · exact h
  have hn2' : (2 : ℝ) ≤ n := by exact_mod_cast hn2
  have hn60' : (n : ℝ) ≤ 60 := by exact_mod_cast hn60
  have g0 := grid_near 17 d0 x0
  have g1 := grid_near 17 d1 x1
  rw [show (2 : ℝ) ^ 17 = 131072 by norm_num, show (2 : ℝ) ^ (17 + 1) = 262144 by norm_num] at g0 g1
  rw [hd0] at g0 ⊢
  rw [hd1] at g1 ⊢
  set G0 := grid 17 (span / n) x0
  set G1 := grid 17 (span / ((n : ℝ) - 1)) x1
  have e0 : x0 / (span / n) = x0 * n / span := by field_simp
  have hn1 : (n : ℝ) - 1 ≠ 0 := by linarith
  have e1 : x1 / (span / ((n : ℝ) - 1)) = x1 * ((n : ℝ) - 1) / span := by field_simp
  rw [e0] at g0
  rw [e1] at g1
  have hx2 : |((n : ℝ) * ((n : ℝ) - 1)) * ((x0 - x1) / span - s)| ≤ 179 / 360 := by
    have : (x0 - x1) / span - s = (x0 - x1 - span * s) / span := by field_simp
    have hp : 0 ≤ (n : ℝ) * ((n : ℝ) - 1) := by nlinarith
    rw [this, abs_mul, abs_of_nonneg hp, abs_div, abs_of_pos hs, ← mul_div_assoc, div_le_iff₀ hs]
    linarith
  rw [abs_le] at g0 g1 hx2
  have key : ((n : ℝ) - 1) * (x0 * n / span) - n * (x1 * ((n : ℝ) - 1) / span) =
      ((n : ℝ) * ((n : ℝ) - 1)) * ((x0 - x1) / span) := by field_simp
  rw [grid_split, grid_split, Int.floor_eq_iff]
  have a1 := mul_le_mul_of_nonneg_left g0.1 (by linarith : (0 : ℝ) ≤ (n : ℝ) - 1)
  have a2 := mul_le_mul_of_nonneg_left g0.2 (by linarith : (0 : ℝ) ≤ (n : ℝ) - 1)
  have b1 := mul_le_mul_of_nonneg_left g1.1 (by linarith : (0 : ℝ) ≤ (n : ℝ))
  have b2 := mul_le_mul_of_nonneg_left g1.2 (by linarith : (0 : ℝ) ≤ (n : ℝ))
  rw [mul_sub] at a1 a2 b1 b2 hx2
  push_cast
  constructor <;> linarith [hx2.1, hx2.2]

/-- The longitude decoded from one of the two messages. -/
theorem lon_decode (n : ℕ) (hn : 0 < n) (d lon : ℝ) (hd : d = 360 / n) (k : ℤ)
    (hk : ∃ q : ℤ, k = grid 17 d lon / 131072 + n * q) :
    let x := fixLongitude (360 / n * (mod (k : ℝ) n + ((grid 17 d lon % 131072 : ℤ) : ℝ) / 131072));
    (-180 : ℝ) < x ∧ x ≤ 180 ∧ ∃ t : ℤ, |x - lon - 360 * t| ≤ d / 2 ^ 18 := by
  intro x
  have hn' : (0 : ℝ) < n := by exact_mod_cast hn
  obtain ⟨f0, f1⟩ := frac_range (grid 17 d lon)
  obtain ⟨r0, r1⟩ := zone_decode_range n hn 360 (by norm_num) k _ f0 f1
  obtain ⟨l1, l2, t, ht⟩ := fixLongitude_spec _ r0 r1
  obtain ⟨s, hs⟩ := zone_decode n hn 360 (grid 17 d lon) k hk
  refine ⟨l1, l2, t + s, ?_⟩
  have hv := zoneValue_near 17 d lon (by rw [hd]; positivity)
  rw [zoneValue_eq 17 d lon (by rw [hd]; positivity), show (2 : ℝ) ^ 17 = 131072 by norm_num] at hv
  have : x - lon - 360 * ((t + s : ℤ) : ℝ) = d * (grid 17 d lon / 131072) - lon := by
    show fixLongitude _ - lon - 360 * ((t + s : ℤ) : ℝ) = _
    rw [ht, hs, hd]; push_cast; ring
  rw [this]; exact hv

/-- What the global decoder computes when the two latitudes are in the same band. -/
theorem airborneGlobal_ok (el en ol on : UInt32) (e : Bool) (j : ℤ) (latE latO : ℝ) (N : ℕ)
    (hj : ⌊((60 : ℕ) - 1 : ℝ) * cpr el - (60 : ℕ) * cpr ol + 1 / 2⌋ = j)
    (hE : fixLatitude (360 / (60 : ℕ) * (mod j (60 : ℕ) + cpr el)) = latE)
    (hO : fixLatitude (360 / (59 : ℕ) * (mod j (59 : ℕ) + cpr ol)) = latO)
    (nE : getNumberOfLongitude latE = N) (nO : getNumberOfLongitude latO = N) (hN : 1 ≤ N) :
    airborneGlobal el en ol on e = .ok (if e then latE else latO, fixLongitude
      (if e then 360 / (zones N 0 : ℝ) * (mod ((⌊((N : ℝ) - 1) * cpr en - N * cpr on + 1 / 2⌋ : ℤ) : ℝ) (zones N 0) + cpr en)
        else 360 / (zones N 1 : ℝ) * (mod ((⌊((N : ℝ) - 1) * cpr en - N * cpr on + 1 / 2⌋ : ℤ) : ℝ) (zones N 1) + cpr on))) := by
  have z0 : max ((N : ℝ) - 0) 1 = (zones N 0 : ℝ) := by
    have := zones_cast N 0 hN (by norm_num); rwa [Nat.cast_zero] at this
  have z1 : max ((N : ℝ) - 1) 1 = (zones N 1 : ℝ) := by
    have := zones_cast N 1 hN (by norm_num); rwa [Nat.cast_one] at this
  have a1 : 4 * nz = ((60 : ℕ) : ℝ) := by unfold nz; norm_num
  have a2 : ((60 : ℕ) : ℝ) - 1 = ((59 : ℕ) : ℝ) := by norm_num
  have hj' : ⌊((59 : ℕ) : ℝ) * cpr el - (60 : ℕ) * cpr ol + 1 / 2⌋ = j := by rw [← hj, a2]
  unfold airborneGlobal
  simp only [a1, a2, hj', hE, hO, nE, nO, ne_eq, not_true_eq_false, if_false, z0, z1,
    mul_comm (cpr en), mul_comm (cpr on)]

/-- The two latitudes decoded from the messages of nearby positions are the encoded ones. -/
theorem global_latitudes (lat0 lat1 : ℝ) (h0 : |lat0| ≤ 90) (h1 : |lat1| ≤ 90) (hlat : |lat0 - lat1| ≤ 1 / 20) :
    ∃ j : ℤ, ⌊((60 : ℕ) - 1 : ℝ) * cpr (encodeLat 17 0 lat0) - (60 : ℕ) * cpr (encodeLat 17 1 lat1) + 1 / 2⌋ = j ∧
      fixLatitude (360 / (60 : ℕ) * (mod j (60 : ℕ) + cpr (encodeLat 17 0 lat0))) = rLat 17 0 lat0 ∧
      fixLatitude (360 / (59 : ℕ) * (mod j (59 : ℕ) + cpr (encodeLat 17 1 lat1))) = rLat 17 1 lat1 := by
  have hj := index_of_near 60 (by norm_num) (by norm_num) 360 (by norm_num) (dLat 0) (dLat 1) lat0 lat1
    (by rw [dLat0]; norm_num) (Or.inr (by rw [dLat1]; norm_num)) 0 (by
      simp only [Int.cast_zero, mul_zero, sub_zero]
      norm_num
      linarith) (by norm_num)
  rw [← cpr_encodeLat 17 0 le_rfl (by norm_num), ← cpr_encodeLat 17 1 le_rfl (by norm_num)] at hj
  have f0 := frac_range (grid 17 (dLat 0) lat0)
  have f1 := frac_range (grid 17 (dLat 1) lat1)
  rw [← cpr_encodeLat 17 0 le_rfl (by norm_num)] at f0
  rw [← cpr_encodeLat 17 1 le_rfl (by norm_num)] at f1
  set j : ℤ := ((60 : ℕ) : ℤ) * (grid 17 (dLat 1) lat1 / 131072) - (((60 : ℕ) : ℤ) - 1) * (grid 17 (dLat 0) lat0 / 131072) +
    ((60 : ℕ) : ℤ) * (((60 : ℕ) : ℤ) - 1) * 0 with hjd
  have hE : fixLatitude (360 / (60 : ℕ) * (mod j (60 : ℕ) + cpr (encodeLat 17 0 lat0))) = rLat 17 0 lat0 := by
    obtain ⟨t, ht⟩ := zone_decode 60 (by norm_num) 360 (grid 17 (dLat 0) lat0) j
      ⟨grid 17 (dLat 1) lat1 / 131072 - grid 17 (dLat 0) lat0 / 131072, by rw [hjd]; push_cast; ring⟩
    obtain ⟨r0, r1⟩ := zone_decode_range 60 (by norm_num) 360 (by norm_num) j _ f0.1 f0.2
    rw [← cpr_encodeLat 17 0 le_rfl (by norm_num)] at ht
    refine fixLatitude_turn _ _ t ?_ r0 r1 (rLat_range 0 (by norm_num) lat0 h0)
    rw [ht, rLat_eq 0 (by norm_num), dLat0]; norm_num
  have hO : fixLatitude (360 / (59 : ℕ) * (mod j (59 : ℕ) + cpr (encodeLat 17 1 lat1))) = rLat 17 1 lat1 := by
    obtain ⟨t, ht⟩ := zone_decode 59 (by norm_num) 360 (grid 17 (dLat 1) lat1) j
      ⟨grid 17 (dLat 1) lat1 / 131072 - grid 17 (dLat 0) lat0 / 131072, by rw [hjd]; push_cast; ring⟩
    obtain ⟨r0, r1⟩ := zone_decode_range 59 (by norm_num) 360 (by norm_num) j _ f1.1 f1.2
    rw [← cpr_encodeLat 17 1 le_rfl (by norm_num)] at ht
    refine fixLatitude_turn _ _ t ?_ r0 r1 (rLat_range 1 (by norm_num) lat1 h1)
    rw [ht, rLat_eq 1 (by norm_num), dLat1]; norm_num
  exact ⟨j, hj, hE, hO⟩

/-- C55. An aircraft is at (`lat0`, `lon0`) when it sends an even message and at (`lat1`, `lon1`) when it sends an odd one, having
moved by at most 1/20 degree of latitude (3 NM) in between, and by a longitude smaller than half the difference of the two zone
grids (which is at least 1/20 degree; `s` counts whole turns). If the two encoded latitudes are in the same longitude-zone band,
the two messages decode to a position within half a step of the true position of the more recent message, the longitude up to
whole turns and brought into (-180, 180]. -/
theorem airborne_global (lat0 lon0 lat1 lon1 : ℝ) (e : Bool) (h0 : |lat0| ≤ 90) (h1 : |lat1| ≤ 90)
    (hlat : |lat0 - lat1| ≤ 1 / 20) (hband : NL (rLat 17 0 lat0) = NL (rLat 17 1 lat1)) (s : ℤ)
    (hlon : (NL (rLat 17 0 lat0) : ℝ) * (NL (rLat 17 0 lat0) - 1) * |lon0 - lon1 - 360 * s| ≤ 179) :
    ∃ lat lon, airborneGlobal (encodeLat 17 0 lat0) (encodeLon 17 0 lat0 lon0) (encodeLat 17 1 lat1) (encodeLon 17 1 lat1 lon1) e =
        .ok (lat, lon) ∧
      |lat - (if e then lat0 else lat1)| ≤ (if e then dLat 0 else dLat 1) / 2 ^ 18 ∧ |lat| ≤ 90 ∧
      -180 < lon ∧ lon ≤ 180 ∧
      ∃ t : ℤ, |lon - (if e then lon0 else lon1) - 360 * t| ≤ (if e then dLon 17 0 lat0 else dLon 17 1 lat1) / 2 ^ 18 := by
  set N := NL (rLat 17 0 lat0) with hN
  have hNr := NL_range (rLat 17 0 lat0)
  rw [← hN] at hNr
  obtain ⟨j, hj, hE, hO⟩ := global_latitudes lat0 lat1 h0 h1 hlat
  have hok := airborneGlobal_ok (encodeLat 17 0 lat0) (encodeLon 17 0 lat0 lon0) (encodeLat 17 1 lat1) (encodeLon 17 1 lat1 lon1) e
    j _ _ N hj hE hO (nl_spec _ (rLat_range 0 (by norm_num) lat0 h0))
    (by rw [nl_spec _ (rLat_range 1 (by norm_num) lat1 h1), ← hband]) hNr.1
  refine ⟨_, _, hok, ?_, ?_, ?_⟩
  · cases e
    · exact rLat_near 1 (by norm_num) lat1
    · exact rLat_near 0 (by norm_num) lat0
  · cases e
    · exact rLat_range 1 (by norm_num) lat1 h1
    · exact rLat_range 0 (by norm_num) lat0 h0
  · have d0 : dLon 17 0 lat0 = 360 / (zones N 0 : ℝ) := dLon_eq 17 0 (by norm_num) lat0
    have d1 : dLon 17 1 lat1 = 360 / (zones N 1 : ℝ) := by rw [dLon_eq 17 1 (by norm_num) lat1, ← hband]
    rw [cpr_encodeLon 17 0 le_rfl (by norm_num), cpr_encodeLon 17 1 le_rfl (by norm_num)]
    generalize hm : ⌊((N : ℝ) - 1) * (((grid 17 (dLon 17 0 lat0) lon0 % 131072 : ℤ) : ℝ) / 131072) -
      N * (((grid 17 (dLon 17 1 lat1) lon1 % 131072 : ℤ) : ℝ) / 131072) + 1 / 2⌋ = m
    have hm0 : ∃ q : ℤ, m = grid 17 (dLon 17 0 lat0) lon0 / 131072 + (zones N 0 : ℤ) * q := by
      by_cases hN1 : N = 1
      · refine ⟨m - grid 17 (dLon 17 0 lat0) lon0 / 131072, ?_⟩
        rw [hN1]; simp [zones]
      · have := index_of_near N hNr.1 (by omega) 360 (by norm_num) (dLon 17 0 lat0) (dLon 17 1 lat1) lon0 lon1
          (by rw [d0]; simp only [zones, Nat.sub_zero, max_eq_left hNr.1])
          (Or.inr (by rw [d1]; congr 1; rw [zones, max_eq_left (by omega), Nat.cast_sub hNr.1, Nat.cast_one])) s
          (by linarith) (fun h => hN1 h)
        rw [hm] at this
        refine ⟨grid 17 (dLon 17 1 lat1) lon1 / 131072 - grid 17 (dLon 17 0 lat0) lon0 / 131072 + (N - 1) * s, ?_⟩
        rw [this]; simp only [zones, Nat.sub_zero, max_eq_left hNr.1]; ring
    have hm1 : ∃ q : ℤ, m = grid 17 (dLon 17 1 lat1) lon1 / 131072 + (zones N 1 : ℤ) * q := by
      by_cases hN1 : N = 1
      · refine ⟨m - grid 17 (dLon 17 1 lat1) lon1 / 131072, ?_⟩
        rw [hN1]; simp [zones]
      · have := index_of_near N hNr.1 (by omega) 360 (by norm_num) (dLon 17 0 lat0) (dLon 17 1 lat1) lon0 lon1
          (by rw [d0]; simp only [zones, Nat.sub_zero, max_eq_left hNr.1])
          (Or.inr (by rw [d1]; congr 1; rw [zones, max_eq_left (by omega), Nat.cast_sub hNr.1, Nat.cast_one])) s
          (by linarith) (fun h => hN1 h)
        rw [hm] at this
        refine ⟨grid 17 (dLon 17 1 lat1) lon1 / 131072 - grid 17 (dLon 17 0 lat0) lon0 / 131072 + N * s, ?_⟩
        rw [this]
        have : ((zones N 1 : ℕ) : ℤ) = (N : ℤ) - 1 := by simp only [zones]; omega
        rw [this]; ring
    cases e
    · simp only [Bool.false_eq_true, if_false]
      exact lon_decode (zones N 1) (zones_pos N 1) (dLon 17 1 lat1) lon1 d1 m hm1
    · simp only [if_true]
      exact lon_decode (zones N 0) (zones_pos N 0) (dLon 17 0 lat0) lon0 d0 m hm0

/-- C55, positions in different bands: the pair is refused. -/
theorem airborne_global_bands (lat0 lon0 lat1 lon1 : ℝ) (e : Bool) (h0 : |lat0| ≤ 90) (h1 : |lat1| ≤ 90)
    (hlat : |lat0 - lat1| ≤ 1 / 20) (hband : NL (rLat 17 0 lat0) ≠ NL (rLat 17 1 lat1)) :
    airborneGlobal (encodeLat 17 0 lat0) (encodeLon 17 0 lat0 lon0) (encodeLat 17 1 lat1) (encodeLon 17 1 lat1 lon1) e =
      .error .err := by
  obtain ⟨j, hj, hE, hO⟩ := global_latitudes lat0 lat1 h0 h1 hlat
  have a1 : 4 * nz = ((60 : ℕ) : ℝ) := by unfold nz; norm_num
  have a2 : ((60 : ℕ) : ℝ) - 1 = ((59 : ℕ) : ℝ) := by norm_num
  have hj' : ⌊((59 : ℕ) : ℝ) * cpr (encodeLat 17 0 lat0) - (60 : ℕ) * cpr (encodeLat 17 1 lat1) + 1 / 2⌋ = j := by rw [← hj, a2]
  unfold airborneGlobal
  simp only [a1, a2, hj', hE, hO, nl_spec _ (rLat_range 0 (by norm_num) lat0 h0),
    nl_spec _ (rLat_range 1 (by norm_num) lat1 h1)]
  rw [if_pos (by exact_mod_cast hband)]

/-- C55 for a position that does not move: decoded within half a step, or refused when the two encoded latitudes fall in different
bands. -/
theorem airborne_global_fixed (lat lon : ℝ) (e : Bool) (h : |lat| ≤ 90) (hband : NL (rLat 17 0 lat) = NL (rLat 17 1 lat)) :
    ∃ lat' lon', airborneGlobal (encodeLat 17 0 lat) (encodeLon 17 0 lat lon) (encodeLat 17 1 lat) (encodeLon 17 1 lat lon) e =
        .ok (lat', lon') ∧
      |lat' - lat| ≤ (if e then dLat 0 else dLat 1) / 2 ^ 18 ∧
      ∃ t : ℤ, |lon' - lon - 360 * t| ≤ (if e then dLon 17 0 lat else dLon 17 1 lat) / 2 ^ 18 := by
  obtain ⟨a, b, h1, h2, -, -, -, h3⟩ := airborne_global lat lon lat lon e h h (by rw [sub_self, abs_zero]; norm_num) hband 0
    (by rw [sub_self, Int.cast_zero, mul_zero, sub_zero, abs_zero, mul_zero]; norm_num)
  refine ⟨a, b, h1, ?_, ?_⟩
  · cases e <;> exact h2
  · cases e <;> exact h3

theorem parity_cast (isOdd : Bool) : parity isOdd = ((if isOdd then 1 else 0 : ℕ) : ℝ) := by
  cases isOdd <;> simp [parity]

/-- C56. A position on the globe, encoded in one message, and a reference that is less than half a zone (less half a step) away
in latitude and in longitude: the decoded position is within half a step of the true one. Here the longitude is exact, not only up
to whole turns. -/
theorem airborne_local (lat lon refLat refLon : ℝ) (isOdd : Bool) (h : |lat| ≤ 90) :
    let i := if isOdd then 1 else 0
    |lat - refLat| < dLat i / 2 - dLat i / 2 ^ 18 → |lon - refLon| < dLon 17 i lat / 2 - dLon 17 i lat / 2 ^ 18 →
    ∃ lat' lon', airborneLocal (encodeLat 17 i lat) (encodeLon 17 i lat lon) refLat refLon isOdd = (lat', lon') ∧
      |lat' - lat| ≤ dLat i / 2 ^ 18 ∧ |lon' - lon| ≤ dLon 17 i lat / 2 ^ 18 := by
  intro i hrl hrn
  have hi : i ≤ 1 := by cases isOdd <;> simp [i]
  have hd : 0 < dLat i := by
    rcases (by omega : i = 0 ∨ i = 1) with h | h <;> rw [h]
    · rw [dLat0]; norm_num
    · rw [dLat1]; norm_num
  have hdn := dLon_pos 17 i hi lat
  have n1 := rLat_near i hi lat
  have n2 := zoneValue_near 17 (dLon 17 i lat) lon hdn
  refine ⟨rLat 17 i lat, zoneValue 17 (dLon 17 i lat) lon, ?_, n1, n2⟩
  have l1 := local_decode (dLat i) refLat hd (grid 17 (dLat i) lat) (by
    rw [← rLat_eq i hi]
    calc |rLat 17 i lat - refLat| = |(rLat 17 i lat - lat) + (lat - refLat)| := by congr 1; ring
      _ ≤ |rLat 17 i lat - lat| + |lat - refLat| := abs_add_le _ _
      _ < dLat i / 2 := by linarith)
  have v2 : zoneValue 17 (dLon 17 i lat) lon = dLon 17 i lat * ((grid 17 (dLon 17 i lat) lon : ℝ) / 131072) := by
    rw [zoneValue_eq _ _ _ hdn.ne']; norm_num
  have l2 := local_decode (dLon 17 i lat) refLon hdn (grid 17 (dLon 17 i lat) lon) (by
    rw [← v2]
    calc |zoneValue 17 (dLon 17 i lat) lon - refLon| = |(zoneValue 17 (dLon 17 i lat) lon - lon) + (lon - refLon)| := by
          congr 1; ring
      _ ≤ |zoneValue 17 (dLon 17 i lat) lon - lon| + |lon - refLon| := abs_add_le _ _
      _ < dLon 17 i lat / 2 := by linarith)
  rw [← cpr_encodeLat 17 i le_rfl hi, ← rLat_eq i hi] at l1
  rw [← cpr_encodeLon 17 i le_rfl hi, ← v2] at l2
  have ed : 360 / (4 * nz - parity isOdd) = dLat i := by
    rw [parity_cast]; unfold dLat nz; norm_num [i]
  have en : 360 / max (getNumberOfLongitude (rLat 17 i lat) - parity isOdd) 1 = dLon 17 i lat := by
    rw [nl_spec _ (rLat_range i hi lat h), parity_cast]; rfl
  unfold airborneLocal
  simp only [ed, l1, en, l2]

/-- C58, the part that is true: for 17-bit coordinates, a position returned without error has a longitude in (-180, 180] and a
latitude in [-90, 270). Missing: the upper bound 90 of the latitude, which is false for pairs that no aircraft on the globe could
have sent (`globe_refuted`); for those that one could, it is part of `airborne_global`. -/
theorem globe_partial (el en ol on : UInt32) (e : Bool) (lat lon : ℝ) (h1 : el.toNat < 131072) (h2 : en.toNat < 131072)
    (h3 : ol.toNat < 131072) (h4 : on.toNat < 131072) (h : airborneGlobal el en ol on e = .ok (lat, lon)) :
    -90 ≤ lat ∧ lat < 270 ∧ -180 < lon ∧ lon ≤ 180 := by
  have hc (x : UInt32) (hx : x.toNat < 131072) : 0 ≤ cpr x ∧ cpr x < 1 := by
    unfold cpr maxBinaryValue
    have : (x.toNat : ℝ) < 131072 := by exact_mod_cast hx
    exact ⟨by positivity, by rw [div_lt_one (by norm_num)]; exact this⟩
  have hfix (x : ℝ) (h0 : 0 ≤ x) (h1 : x < 360) : -90 ≤ fixLatitude x ∧ fixLatitude x < 270 := by
    unfold fixLatitude
    split <;> constructor <;> linarith
  generalize hj : ⌊((60 : ℕ) - 1 : ℝ) * cpr el - (60 : ℕ) * cpr ol + 1 / 2⌋ = j
  obtain ⟨a, b⟩ := zone_decode_range 60 (by norm_num) 360 (by norm_num) j _ (hc el h1).1 (hc el h1).2
  obtain ⟨a', b'⟩ := zone_decode_range 59 (by norm_num) 360 (by norm_num) j _ (hc ol h3).1 (hc ol h3).2
  obtain ⟨fa, fb⟩ := hfix _ a b
  obtain ⟨fa', fb'⟩ := hfix _ a' b'
  obtain ⟨N, hN, hN1, -⟩ := nl_nat (fixLatitude (360 / (60 : ℕ) * (mod j (60 : ℕ) + cpr el)))
  by_cases hNO : getNumberOfLongitude (fixLatitude (360 / (59 : ℕ) * (mod j (59 : ℕ) + cpr ol))) = N
  · rw [airborneGlobal_ok el en ol on e j _ _ N hj rfl rfl hN hNO hN1] at h
    injection h with h
    injection h with hla hlo
    rw [← hla, ← hlo]
    generalize ⌊((N : ℝ) - 1) * cpr en - N * cpr on + 1 / 2⌋ = m
    obtain ⟨c, d⟩ := zone_decode_range (zones N 0) (zones_pos N 0) 360 (by norm_num) m _ (hc en h2).1 (hc en h2).2
    obtain ⟨c', d'⟩ := zone_decode_range (zones N 1) (zones_pos N 1) 360 (by norm_num) m _ (hc on h4).1 (hc on h4).2
    obtain ⟨g1, g2, -⟩ := fixLongitude_spec _ c d
    obtain ⟨g1', g2', -⟩ := fixLongitude_spec _ c' d'
    cases e
    · exact ⟨fa', fb', g1', g2'⟩
    · exact ⟨fa, fb, g1, g2⟩
  · exfalso
    have a1 : 4 * nz = ((60 : ℕ) : ℝ) := by unfold nz; norm_num
    have a2 : ((60 : ℕ) : ℝ) - 1 = ((59 : ℕ) : ℝ) := by norm_num
    have hj' : ⌊((59 : ℕ) : ℝ) * cpr el - (60 : ℕ) * cpr ol + 1 / 2⌋ = j := by rw [← hj, a2]
    unfold airborneGlobal at h
    simp only [a1, a2, hj', hN] at h
    rw [if_pos (fun h => hNO h.symm)] at h
    cases h

/-- C58, the part that is false: an even message of latitude code 0 and an odd one of latitude code 65536 (as could come from two
corrupted or unrelated messages) give, without error, a latitude of 180 degrees. -/
theorem globe_refuted (en on : UInt32) (e : Bool) : ∃ lon, airborneGlobal 0 en 65536 on e = .ok (180, lon) := by
  have c0 : cpr 0 = 0 := by unfold cpr; simp
  have c1 : cpr 65536 = 1 / 2 := by
    unfold cpr maxBinaryValue; rw [show (65536 : UInt32).toNat = 65536 from rfl]; norm_num
  have hj : ⌊((60 : ℕ) - 1 : ℝ) * cpr 0 - (60 : ℕ) * cpr 65536 + 1 / 2⌋ = -30 := by
    rw [c0, c1, Int.floor_eq_iff]; norm_num
  have hE : fixLatitude (360 / (60 : ℕ) * (mod ((-30 : ℤ) : ℝ) (60 : ℕ) + cpr 0)) = 180 := by
    rw [mod_int _ _ (by norm_num), c0]; unfold fixLatitude; norm_num
  have hO : fixLatitude (360 / (59 : ℕ) * (mod ((-30 : ℤ) : ℝ) (59 : ℕ) + cpr 65536)) = 180 := by
    rw [mod_int _ _ (by norm_num), c1]; unfold fixLatitude; norm_num
  have hN : getNumberOfLongitude 180 = ((1 : ℕ) : ℝ) := by
    rw [nl_far 180 (by rw [abs_of_pos] <;> norm_num)]; norm_num
  have := airborneGlobal_ok 0 en 65536 on e (-30) 180 180 1 hj hE hO hN hN le_rfl
  rw [ite_self] at this
  exact ⟨_, this⟩

/-- The hypotheses are met: a fixed position at the pole, in the same band for both messages. -/
example : NL (rLat 17 0 90) = NL (rLat 17 1 90) ∧ |(90 : ℝ)| ≤ 90 := by
  have g0 : grid 17 (dLat 0) 90 = 15 * 131072 := by
    rw [dLat0]; unfold grid; rw [Int.floor_eq_iff]; norm_num
  have g1 : grid 17 (dLat 1) 90 = 59 * 32768 := by
    rw [dLat1]; unfold grid; rw [Int.floor_eq_iff]; norm_num
  rw [rLat_eq 0 (by norm_num), rLat_eq 1 (by norm_num), g0, g1, dLat0, dLat1]
  constructor
  · norm_num
  · rw [abs_of_pos] <;> norm_num

end Geo
end Modes
