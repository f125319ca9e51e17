import Verif.Props.GeoAirborne
/-!
# C57: surface position decoding

Surface messages carry the low 17 bits of a 19-bit coordinate (`Spec/CPR`, `nb = 19`), so a position is known up to 90 degrees only.
-/
open Spec
noncomputable section
namespace Modes
namespace Geo

/-- The correction to [-180, 180) of the candidates. -/
def wrap (x : ℝ) : ℝ := mod (x + 180) 360 - 180

theorem wrap_spec (x : ℝ) : -180 ≤ wrap x ∧ wrap x < 180 ∧ ∃ t : ℤ, wrap x = x + 360 * t := by
  unfold wrap mod
  have h1 := Int.floor_le ((x + 180) / 360)
  have h2 := Int.lt_floor_add_one ((x + 180) / 360)
  rw [le_div_iff₀ (by norm_num)] at h1
  rw [div_lt_iff₀ (by norm_num)] at h2
  exact ⟨by linarith, by linarith, -⌊(x + 180) / 360⌋, by push_cast; ring⟩

/-- The corrected candidate is the value in [-180, 180) that differs by whole turns. -/
theorem wrap_eq (x y : ℝ) (t : ℤ) (e : x = y + 360 * t) (h1 : -180 ≤ y) (h2 : y < 180) : wrap x = y := by
  obtain ⟨w1, w2, s, hs⟩ := wrap_spec x
  exact turn_unique 360 (wrap x) y (-180) (by norm_num) (s + t) (by rw [hs, e]; push_cast; ring) w1 (by linarith) h1 (by linarith)

/-- The four candidates. -/
def candidates (q : ℝ) : List ℝ := [wrap q, wrap (q + 90), wrap (q + 180), wrap (q + 270)]

/-- The candidates are all the values of [-180, 180) that differ from `q` by quarter turns. -/
theorem mem_candidates (q y : ℝ) : y ∈ candidates q ↔ -180 ≤ y ∧ y < 180 ∧ ∃ k : ℤ, y = q + 90 * k := by
  unfold candidates
  simp only [List.mem_cons, List.not_mem_nil, or_false]
  constructor
  · rintro (rfl | rfl | rfl | rfl)
    · obtain ⟨a, b, t, e⟩ := wrap_spec q
      exact ⟨a, b, 4 * t, by rw [e]; push_cast; ring⟩
    · obtain ⟨a, b, t, e⟩ := wrap_spec (q + 90)
      exact ⟨a, b, 4 * t + 1, by rw [e]; push_cast; ring⟩
    · obtain ⟨a, b, t, e⟩ := wrap_spec (q + 180)
      exact ⟨a, b, 4 * t + 2, by rw [e]; push_cast; ring⟩
    · obtain ⟨a, b, t, e⟩ := wrap_spec (q + 270)
      exact ⟨a, b, 4 * t + 3, by rw [e]; push_cast; ring⟩
  · rintro ⟨a, b, k, e⟩
    have hk := Int.emod_add_mul_ediv k 4
    have h0 := Int.emod_nonneg k (by norm_num : (4 : ℤ) ≠ 0)
    have h4 := Int.emod_lt_of_pos k (by norm_num : 0 < (4 : ℤ))
    have ek : (k : ℝ) = ((k % 4 : ℤ) : ℝ) + 4 * ((k / 4 : ℤ) : ℝ) := by exact_mod_cast hk.symm
    rcases (by omega : k % 4 = 0 ∨ k % 4 = 1 ∨ k % 4 = 2 ∨ k % 4 = 3) with h | h | h | h
    · exact Or.inl (wrap_eq q y (-(k / 4)) (by rw [e, ek, h]; push_cast; ring) a b).symm
    · exact Or.inr (Or.inl (wrap_eq _ y (-(k / 4)) (by rw [e, ek, h]; push_cast; ring) a b).symm)
    · exact Or.inr (Or.inr (Or.inl (wrap_eq _ y (-(k / 4)) (by rw [e, ek, h]; push_cast; ring) a b).symm))
    · exact Or.inr (Or.inr (Or.inr (wrap_eq _ y (-(k / 4)) (by rw [e, ek, h]; push_cast; ring) a b).symm))

theorem nearestFold (l : List ℝ) : ∀ (n : ℕ) (best : ℝ × Option ℕ),
    let r := (l.zipIdx n).foldl (fun best x => nearestStep best x.2 x.1) best
    r.1 ≤ best.1 ∧ (∀ d ∈ l, r.1 ≤ d) ∧ (r = best ∨ (r.1 < best.1 ∧ ∃ i, l[i]? = some r.1 ∧ r.2 = some (n + i))) := by
  induction l with
  | nil => intro n best; exact ⟨le_rfl, fun d h => (by cases h), Or.inl rfl⟩
  | cons d l ih =>
    intro n best
    simp only [List.zipIdx_cons, List.foldl_cons]
    obtain ⟨i1, i2, i3⟩ := ih (n + 1) (nearestStep best n d)
    have s1 : (nearestStep best n d).1 ≤ best.1 ∧ (nearestStep best n d).1 ≤ d := by
      unfold nearestStep
      split
      · rename_i h; exact ⟨h.le, le_rfl⟩
      · rename_i h; exact ⟨le_rfl, not_lt.1 h⟩
    refine ⟨i1.trans s1.1, fun x hx => ?_, ?_⟩
    · rw [List.mem_cons] at hx
      rcases hx with rfl | hx
      · exact i1.trans s1.2
      · exact i2 x hx
    · rcases i3 with h | ⟨h, i, hi, hr⟩
      · rw [h]
        unfold nearestStep
        split
        · rename_i hd; exact Or.inr ⟨hd, 0, rfl, rfl⟩
        · exact Or.inl rfl
      · refine Or.inr ⟨h.trans_le s1.1, i + 1, ?_, ?_⟩
        · rw [List.getElem?_cons_succ]; exact hi
        · rw [hr]; congr 1; omega

/-- The search finds a candidate at the smallest distance, when one is nearer than ten million degrees; otherwise it panics. -/
theorem nearestLongitude_spec (ref : ℝ) (cs : List ℝ) :
    (∃ c, nearestLongitude ref cs = .ok c ∧ c ∈ cs ∧ |ref - c| < 10000000 ∧ ∀ c' ∈ cs, |ref - c| ≤ |ref - c'|) ∨
    (nearestLongitude ref cs = .error .panic ∧ ∀ c' ∈ cs, 10000000 ≤ |ref - c'|) := by
  have h := nearestFold (cs.map fun c => |ref - c|) 0 (10000000, none)
  obtain ⟨-, h2, h3⟩ := h
  unfold nearestLongitude
  simp only at h2 h3 ⊢
  rcases h3 with h | ⟨hlt, i, hi, hr⟩
  · refine Or.inr ⟨?_, fun c' hc' => ?_⟩
    · rw [h]; rfl
    · have := h2 _ (List.mem_map_of_mem hc')
      rw [h] at this; exact this
  · rw [List.getElem?_map, Option.map_eq_some_iff] at hi
    obtain ⟨c, hc, hd⟩ := hi
    refine Or.inl ⟨c, ?_, List.mem_of_getElem? hc, ?_, fun c' hc' => ?_⟩
    · rw [hr, zero_add]; simp only [hc]
    · rw [hd]; exact hlt
    · rw [hd]; exact h2 _ (List.mem_map_of_mem hc')

theorem dLat_pos (i : ℕ) (hi : i ≤ 1) : 0 < dLat i := by
  rcases (by omega : i = 0 ∨ i = 1) with h | h <;> rw [h]
  · rw [dLat0]; norm_num
  · rw [dLat1]; norm_num

theorem grid19 (d x : ℝ) : grid 19 d x = grid 17 (d / 4) x := by
  rw [← grid_19]; congr 1; ring

theorem zoneValue19 (d x : ℝ) (hd : d ≠ 0) : zoneValue 19 d x = d / 4 * ((grid 17 (d / 4) x : ℝ) / 131072) := by
  rw [zoneValue_eq 19 d x hd, grid19]
  rw [show (2 : ℝ) ^ 19 = 4 * 131072 by norm_num]; field_simp

theorem rLat19_eq (i : ℕ) (hi : i ≤ 1) (lat : ℝ) :
    rLat 19 i lat = dLat i / 4 * ((grid 17 (dLat i / 4) lat : ℝ) / 131072) := zoneValue19 _ _ (dLat_pos i hi).ne'

theorem rLat19_near (i : ℕ) (hi : i ≤ 1) (lat : ℝ) : |rLat 19 i lat - lat| ≤ dLat i / 2 ^ 20 :=
  zoneValue_near 19 _ _ (dLat_pos i hi)

theorem cpr_encodeLat19 (i : ℕ) (hi : i ≤ 1) (lat : ℝ) :
    cpr (encodeLat 19 i lat) = ((grid 17 (dLat i / 4) lat % 131072 : ℤ) : ℝ) / 131072 := by
  rw [cpr_encodeLat 19 i (by norm_num) hi, grid19]

theorem cpr_encodeLon19 (i : ℕ) (hi : i ≤ 1) (lat lon : ℝ) :
    cpr (encodeLon 19 i lat lon) = ((grid 17 (dLon 19 i lat / 4) lon % 131072 : ℤ) : ℝ) / 131072 := by
  rw [cpr_encodeLon 19 i (by norm_num) hi, grid19]

/-- The grid points -90 and 0 are kept by the rounding. -/
theorem rLat19_ge (i : ℕ) (hi : i ≤ 1) (lat : ℝ) : (-90 ≤ lat → -90 ≤ rLat 19 i lat) ∧ (0 ≤ lat → 0 ≤ rLat 19 i lat) := by
  rw [rLat19_eq i hi]
  have hd := dLat_pos i hi
  constructor
  · intro h
    rcases (by omega : i = 0 ∨ i = 1) with hh | hh <;> subst hh
    · rw [dLat0]
      have h2 : -60 * 131072 ≤ grid 17 (360 / 60 / 4) lat := le_grid _ _ _ _ (by push_cast; linarith)
      have h2' : ((-60 * 131072 : ℤ) : ℝ) ≤ ((grid 17 (360 / 60 / 4) lat : ℤ) : ℝ) := by exact_mod_cast h2
      push_cast at h2'; linarith
    · rw [dLat1]
      have h2 : -59 * 131072 ≤ grid 17 (360 / 59 / 4) lat := le_grid _ _ _ _ (by push_cast; linarith)
      have h2' : ((-59 * 131072 : ℤ) : ℝ) ≤ ((grid 17 (360 / 59 / 4) lat : ℤ) : ℝ) := by exact_mod_cast h2
      push_cast at h2'; linarith
  · intro h
    have h2 : 0 ≤ grid 17 (dLat i / 4) lat := le_grid _ _ _ _ (by push_cast; positivity)
    have h2' : (0 : ℝ) ≤ grid 17 (dLat i / 4) lat := by exact_mod_cast h2
    positivity

/-- The receiver and a latitude are in the same hemisphere, the latitude not within half a step of its upper end (there the
encoder rounds into the other hemisphere, or to the pole). -/
def SameHemisphere (i : ℕ) (refLat lat : ℝ) : Prop :=
  (0 ≤ refLat ∧ 0 ≤ lat ∧ lat + dLat i / 2 ^ 20 < 90) ∨ (refLat < 0 ∧ -90 ≤ lat ∧ lat + dLat i / 2 ^ 20 < 0)

theorem rLat19_range (i : ℕ) (hi : i ≤ 1) (refLat lat : ℝ) (h : SameHemisphere i refLat lat) : |rLat 19 i lat| ≤ 90 := by
  have n := abs_le.1 (rLat19_near i hi lat)
  obtain ⟨g1, g2⟩ := rLat19_ge i hi lat
  rw [abs_le]
  rcases h with ⟨-, a, b⟩ | ⟨-, a, b⟩
  · exact ⟨by linarith [g2 a], by linarith [n.2]⟩
  · exact ⟨g1 a, by linarith [n.2]⟩

/-- The latitude decoded from a message, after the choice of the hemisphere. -/
theorem surface_latitude (i n : ℕ) (hi : i ≤ 1) (hn : 0 < n) (refLat lat : ℝ) (h : SameHemisphere i refLat lat) (j : ℤ)
    (hd : dLat i / 4 = 90 / n) (hj : ∃ q : ℤ, j = grid 17 (dLat i / 4) lat / 131072 + n * q) :
    (if refLat < 0 then 90 / (n : ℝ) * (mod j n + cpr (encodeLat 19 i lat)) - 90
      else 90 / (n : ℝ) * (mod j n + cpr (encodeLat 19 i lat))) = rLat 19 i lat := by
  have f := frac_range (grid 17 (dLat i / 4) lat)
  obtain ⟨t, ht⟩ := zone_decode n hn 90 (grid 17 (dLat i / 4) lat) j hj
  rw [← cpr_encodeLat19 i hi] at f ht
  obtain ⟨r0, r1⟩ := zone_decode_range n hn 90 (by norm_num) j _ f.1 f.2
  rw [← hd, ← rLat19_eq i hi] at ht
  rw [← hd] at r0 r1
  have nr := abs_le.1 (rLat19_near i hi lat)
  obtain ⟨g1, g2⟩ := rLat19_ge i hi lat
  rw [← hd]
  rcases h with ⟨a, b, c⟩ | ⟨a, b, c⟩
  · rw [if_neg (by linarith)]
    exact turn_unique 90 _ _ 0 (by norm_num) t ht r0 (by linarith) (g2 b) (by linarith [nr.2])
  · rw [if_pos a]
    have := turn_unique 90 _ (rLat 19 i lat + 90) 0 (by norm_num) (t - 1) (by rw [ht]; push_cast; ring) r0 (by linarith)
      (by linarith [g1 b]) (by linarith [nr.2])
    rw [this]; ring

/-- What the global decoder computes, up to the choice of the longitude. -/
theorem surfaceGlobal_eq (el en ol on : UInt32) (e : Bool) (refLat refLon : ℝ) (j : ℤ) (latE latO : ℝ)
    (hj : ⌊((60 : ℕ) - 1 : ℝ) * cpr el - (60 : ℕ) * cpr ol + 1 / 2⌋ = j)
    (hE : (if refLat < 0 then 90 / ((60 : ℕ) : ℝ) * (mod j (60 : ℕ) + cpr el) - 90
      else 90 / ((60 : ℕ) : ℝ) * (mod j (60 : ℕ) + cpr el)) = latE)
    (hO : (if refLat < 0 then 90 / ((59 : ℕ) : ℝ) * (mod j (59 : ℕ) + cpr ol) - 90
      else 90 / ((59 : ℕ) : ℝ) * (mod j (59 : ℕ) + cpr ol)) = latO) (N : ℕ) (hN : 1 ≤ N) (nE : getNumberOfLongitude latE = N) :
    surfaceGlobal el en ol on e refLat refLon =
      if getNumberOfLongitude latO = N then
        match nearestLongitude refLon (candidates (if e
          then 90 / (zones N 0 : ℝ) * (mod ((⌊((N : ℝ) - 1) * cpr en - N * cpr on + 1 / 2⌋ : ℤ) : ℝ) (zones N 0) + cpr en)
          else 90 / (zones N 1 : ℝ) * (mod ((⌊((N : ℝ) - 1) * cpr en - N * cpr on + 1 / 2⌋ : ℤ) : ℝ) (zones N 1) + cpr on))) with
        | .error f => .error f
        | .ok longitude => .ok (if e then latE else latO, longitude)
      else .error .err := by
  have z0 : max ((N : ℝ) - 0) 1 = (zones N 0 : ℝ) := by
    have := zones_cast N 0 hN (by norm_num); rwa [Nat.cast_zero] at this
  have z1 : max ((N : ℝ) - 1) 1 = (zones N 1 : ℝ) := by
    have := zones_cast N 1 hN (by norm_num); rwa [Nat.cast_one] at this
  have a1 : 4 * nz = ((60 : ℕ) : ℝ) := by unfold nz; norm_num
  have a2 : ((60 : ℕ) : ℝ) - 1 = ((59 : ℕ) : ℝ) := by norm_num
  have hj' : ⌊((59 : ℕ) : ℝ) * cpr el - (60 : ℕ) * cpr ol + 1 / 2⌋ = j := by rw [← hj, a2]
  unfold surfaceGlobal
  simp only [a1, a2, hj', hE, hO, nE, z0, z1, mul_comm (cpr en), mul_comm (cpr on)]
  by_cases h : getNumberOfLongitude latO = N
  · rw [if_neg (fun hn => hn h.symm), if_pos h]; rfl
  · rw [if_pos (fun hn => h hn.symm), if_neg h]

/-- The position of `S`, known up to quarter turns, is the candidate chosen when the reference is less than 45 degrees away. -/
theorem nearest_unique (refLon q S : ℝ) (t : ℤ) (e : q = S + 90 * t) (h1 : -180 ≤ S) (h2 : S < 180) (h : |refLon - S| < 45) :
    nearestLongitude refLon (candidates q) = .ok S := by
  have hm : S ∈ candidates q := (mem_candidates q S).2 ⟨h1, h2, -t, by rw [e]; push_cast; ring⟩
  rcases nearestLongitude_spec refLon (candidates q) with ⟨c, hc, hmem, -, hmin⟩ | ⟨-, hp⟩
  · rw [hc]
    obtain ⟨-, -, k, ek⟩ := (mem_candidates q c).1 hmem
    have hd := hmin S hm
    have hcs : |c - S| < 90 := by
      calc |c - S| = |(refLon - S) - (refLon - c)| := by congr 1; ring
        _ ≤ |refLon - S| + |refLon - c| := abs_sub _ _
        _ < 90 := by linarith
    rw [abs_lt] at hcs
    have : c = S := by
      refine turn_unique 90 c S (S - 45) (by norm_num) (k + t) (by rw [ek, e]; push_cast; ring) ?_ ?_ (by linarith) (by linarith)
      · by_contra hlt
        push Not at hlt
        have hk : (-1 : ℝ) < ((k + t : ℤ) : ℝ) := by push_cast; rw [ek, e] at hcs; linarith [hcs.1]
        have hk' : (-1 : ℤ) < k + t := by exact_mod_cast hk
        have hk0 : (0 : ℤ) ≤ k + t := by omega
        have hk0' : (0 : ℝ) ≤ ((k + t : ℤ) : ℝ) := by exact_mod_cast hk0
        push_cast at hk0'
        rw [ek, e] at hlt; linarith
      · by_contra hge
        push Not at hge
        have hk : ((k + t : ℤ) : ℝ) < 1 := by push_cast; rw [ek, e] at hcs; linarith [hcs.2]
        have hk' : k + t < (1 : ℤ) := by exact_mod_cast hk
        have hk0 : k + t ≤ (0 : ℤ) := by omega
        have hk0' : ((k + t : ℤ) : ℝ) ≤ 0 := by exact_mod_cast hk0
        push_cast at hk0'
        rw [ek, e] at hge; linarith
    rw [this]
  · have := hp S hm; linarith

/-- C57, surface global decoding. An aircraft on the ground is at (`lat0`, `lon0`) when it sends an even message and at
(`lat1`, `lon1`) when it sends an odd one, having moved by at most 1/80 degree of latitude and by a longitude smaller than half the
difference of the two zone grids (at least 1/80 degree). If the receiver is in the same hemisphere, the two encoded latitudes are in
the same longitude-zone band, and the true longitude `lon` of the more recent message is in [-180, 180) and less than 45 degrees
(less half a step) from the receiver's, the decoded position is within half a step of the true position of that message.
Missing from the full statement: a receiver on the other side of the antimeridian (`surface_antimeridian_refuted`), and the absence
of panics for meaningless receiver longitudes (`surface_panic_refuted`). -/
theorem surface_global_partial (lat0 lon0 lat1 lon1 refLat refLon : ℝ) (e : Bool)
    (h0 : SameHemisphere 0 refLat lat0) (h1 : SameHemisphere 1 refLat lat1)
    (hlat : |lat0 - lat1| ≤ 1 / 80) (hband : NL (rLat 19 0 lat0) = NL (rLat 19 1 lat1))
    (hlon : (NL (rLat 19 0 lat0) : ℝ) * (NL (rLat 19 0 lat0) - 1) * |lon0 - lon1| ≤ 44) :
    let lat := if e then lat0 else lat1
    let lon := if e then lon0 else lon1
    let stepLat := (if e then dLat 0 else dLat 1) / 2 ^ 19
    let stepLon := (if e then dLon 19 0 lat0 else dLon 19 1 lat1) / 2 ^ 19;
    (-180 : ℝ) ≤ lon → lon + stepLon / 2 < 180 → |lon - refLon| + stepLon / 2 < 45 →
    ∃ lat' lon', surfaceGlobal (encodeLat 19 0 lat0) (encodeLon 19 0 lat0 lon0) (encodeLat 19 1 lat1) (encodeLon 19 1 lat1 lon1) e
        refLat refLon = .ok (lat', lon') ∧
      |lat' - lat| ≤ stepLat / 2 ∧ |lon' - lon| ≤ stepLon / 2 := by
  intro lat lon stepLat stepLon hl1 hl2 hl3
  have hi0 : (0 : ℕ) ≤ 1 := by norm_num
  have hi1 : (1 : ℕ) ≤ 1 := le_rfl
  set N := NL (rLat 19 0 lat0) with hN
  have hNr := NL_range (rLat 19 0 lat0)
  rw [← hN] at hNr
  have q0 : dLat 0 / 4 = 90 / ((60 : ℕ) : ℝ) := by rw [dLat0]; norm_num
  have q1 : dLat 1 / 4 = 90 / ((59 : ℕ) : ℝ) := by rw [dLat1]; norm_num
  have hj := index_of_near 60 (by norm_num) (by norm_num) 90 (by norm_num) (dLat 0 / 4) (dLat 1 / 4) lat0 lat1
    q0 (Or.inr (by rw [q1]; norm_num)) 0 (by
      simp only [Int.cast_zero, mul_zero, sub_zero]
      norm_num
      linarith) (by norm_num)
  rw [← cpr_encodeLat19 0 hi0, ← cpr_encodeLat19 1 hi1] at hj
  set j : ℤ := ((60 : ℕ) : ℤ) * (grid 17 (dLat 1 / 4) lat1 / 131072) - (((60 : ℕ) : ℤ) - 1) * (grid 17 (dLat 0 / 4) lat0 / 131072) +
    ((60 : ℕ) : ℤ) * (((60 : ℕ) : ℤ) - 1) * 0 with hjd
  have hE := surface_latitude 0 60 hi0 (by norm_num) refLat lat0 h0 j q0
    ⟨grid 17 (dLat 1 / 4) lat1 / 131072 - grid 17 (dLat 0 / 4) lat0 / 131072, by rw [hjd]; push_cast; ring⟩
  have hO := surface_latitude 1 59 hi1 (by norm_num) refLat lat1 h1 j q1
    ⟨grid 17 (dLat 1 / 4) lat1 / 131072 - grid 17 (dLat 0 / 4) lat0 / 131072, by rw [hjd]; push_cast; ring⟩
  have hok := surfaceGlobal_eq (encodeLat 19 0 lat0) (encodeLon 19 0 lat0 lon0) (encodeLat 19 1 lat1) (encodeLon 19 1 lat1 lon1) e
    refLat refLon j _ _ hj hE hO N hNr.1 (nl_spec _ (rLat19_range 0 hi0 refLat lat0 h0))
  rw [if_pos (by rw [nl_spec _ (rLat19_range 1 hi1 refLat lat1 h1), ← hband])] at hok
  have d0 : dLon 19 0 lat0 / 4 = 90 / (zones N 0 : ℝ) := by rw [dLon_eq 19 0 hi0 lat0]; ring
  have d1 : dLon 19 1 lat1 / 4 = 90 / (zones N 1 : ℝ) := by rw [dLon_eq 19 1 hi1 lat1, ← hband]; ring
  rw [cpr_encodeLon19 0 hi0, cpr_encodeLon19 1 hi1] at hok
  have hmi : N ≠ 1 → _ := fun hN1 : N ≠ 1 =>
    index_of_near N hNr.1 (by omega) 90 (by norm_num) (dLon 19 0 lat0 / 4) (dLon 19 1 lat1 / 4) lon0 lon1
      (by rw [d0]; simp only [zones, Nat.sub_zero, max_eq_left hNr.1])
      (Or.inr (by rw [d1]; congr 1; rw [zones, max_eq_left (by omega), Nat.cast_sub hNr.1, Nat.cast_one])) 0
      (by rw [Int.cast_zero, mul_zero, sub_zero]; linarith) (fun h => hN1 h)
  generalize hm : ⌊((N : ℝ) - 1) * (((grid 17 (dLon 19 0 lat0 / 4) lon0 % 131072 : ℤ) : ℝ) / 131072) -
    N * (((grid 17 (dLon 19 1 lat1 / 4) lon1 % 131072 : ℤ) : ℝ) / 131072) + 1 / 2⌋ = m at hok hmi
  have hm0 : ∃ q : ℤ, m = grid 17 (dLon 19 0 lat0 / 4) lon0 / 131072 + (zones N 0 : ℤ) * q := by
    by_cases hN1 : N = 1
    · refine ⟨m - grid 17 (dLon 19 0 lat0 / 4) lon0 / 131072, ?_⟩
      rw [hN1]; simp [zones]
    · refine ⟨grid 17 (dLon 19 1 lat1 / 4) lon1 / 131072 - grid 17 (dLon 19 0 lat0 / 4) lon0 / 131072, ?_⟩
      rw [hmi hN1]; simp only [zones, Nat.sub_zero, max_eq_left hNr.1]; ring
  have hm1 : ∃ q : ℤ, m = grid 17 (dLon 19 1 lat1 / 4) lon1 / 131072 + (zones N 1 : ℤ) * q := by
    by_cases hN1 : N = 1
    · refine ⟨m - grid 17 (dLon 19 1 lat1 / 4) lon1 / 131072, ?_⟩
      rw [hN1]; simp [zones]
    · refine ⟨grid 17 (dLon 19 1 lat1 / 4) lon1 / 131072 - grid 17 (dLon 19 0 lat0 / 4) lon0 / 131072, ?_⟩
      rw [hmi hN1]
      have : ((zones N 1 : ℕ) : ℤ) = (N : ℤ) - 1 := by simp only [zones]; omega
      rw [this]; ring
  have p0 := dLon_pos 19 0 hi0 lat0
  have p1 := dLon_pos 19 1 hi1 lat1
  have key (D x : ℝ) (n : ℕ) (hn : 0 < n) (hD : 0 < D) (hDn : D / 4 = 90 / (n : ℝ)) (hx1 : -180 ≤ x)
      (hx2 : x + D / 2 ^ 19 / 2 < 180) (hx3 : |x - refLon| + D / 2 ^ 19 / 2 < 45)
      (hk : ∃ q : ℤ, m = grid 17 (D / 4) x / 131072 + (n : ℤ) * q) :
      nearestLongitude refLon (candidates (90 / (n : ℝ) * (mod (m : ℝ) n + ((grid 17 (D / 4) x % 131072 : ℤ) : ℝ) / 131072))) =
        .ok (zoneValue 19 D x) := by
    have hn' : (0 : ℝ) < n := by exact_mod_cast hn
    obtain ⟨t, ht⟩ := zone_decode n hn 90 (grid 17 (D / 4) x) m hk
    have hv := abs_le.1 (zoneValue_near 19 D x hD)
    rw [show (2 : ℝ) ^ (19 + 1) = 2 ^ 19 * 2 by norm_num, ← div_div] at hv
    refine nearest_unique refLon _ _ t ?_ ?_ (by linarith [hv.2]) ?_
    · rw [ht, zoneValue19 D x hD.ne', hDn]
    · rw [zoneValue19 D x hD.ne', hDn]
      have hg : -2 * n * 131072 ≤ grid 17 (D / 4) x := by
        refine le_grid _ _ _ _ ?_
        rw [hDn]; push_cast
        rw [show x / (90 / (n : ℝ)) = x * n / 90 by field_simp]
        nlinarith
      have hg' : ((-2 * n * 131072 : ℤ) : ℝ) ≤ ((grid 17 (D / 4) x : ℤ) : ℝ) := by exact_mod_cast hg
      push_cast at hg'
      rw [hDn] at hg'
      rw [div_mul_div_comm, le_div_iff₀ (by positivity)]
      nlinarith
    · calc |refLon - zoneValue 19 D x| = |(zoneValue 19 D x - x) + (x - refLon)| := by
            rw [abs_sub_comm]; congr 1; ring
        _ ≤ |zoneValue 19 D x - x| + |x - refLon| := abs_add_le _ _
        _ < 45 := by linarith [abs_le.2 hv]
  cases e
  · simp only [Bool.false_eq_true, if_false] at hok
    have k1 := key (dLon 19 1 lat1) lon1 (zones N 1) (zones_pos N 1) p1 d1 hl1 hl2 hl3 hm1
    rw [k1] at hok
    refine ⟨_, _, hok, ?_, ?_⟩
    · have := rLat19_near 1 hi1 lat1
      show |rLat 19 1 lat1 - lat1| ≤ dLat 1 / 2 ^ 19 / 2
      rw [div_div]; norm_num at this ⊢; exact this
    · have := zoneValue_near 19 (dLon 19 1 lat1) lon1 p1
      show |zoneValue 19 (dLon 19 1 lat1) lon1 - lon1| ≤ dLon 19 1 lat1 / 2 ^ 19 / 2
      rw [div_div]; norm_num at this ⊢; exact this
  · simp only [if_true] at hok
    have k0 := key (dLon 19 0 lat0) lon0 (zones N 0) (zones_pos N 0) p0 d0 hl1 hl2 hl3 hm0
    rw [k0] at hok
    refine ⟨_, _, hok, ?_, ?_⟩
    · have := rLat19_near 0 hi0 lat0
      show |rLat 19 0 lat0 - lat0| ≤ dLat 0 / 2 ^ 19 / 2
      rw [div_div]; norm_num at this ⊢; exact this
    · have := zoneValue_near 19 (dLon 19 0 lat0) lon0 p0
      show |zoneValue 19 (dLon 19 0 lat0) lon0 - lon0| ≤ dLon 19 0 lat0 / 2 ^ 19 / 2
      rw [div_div]; norm_num at this ⊢; exact this

/-- Whatever the codes, the decoder rejects them, or it searches the candidates of some quadrant longitude. -/
theorem surfaceGlobal_shape (el en ol on : UInt32) (e : Bool) (refLat refLon : ℝ) :
    surfaceGlobal el en ol on e refLat refLon = .error .err ∨
    ∃ lat q, surfaceGlobal el en ol on e refLat refLon =
      match nearestLongitude refLon (candidates q) with
      | .error f => .error f
      | .ok longitude => .ok (lat, longitude) := by
  obtain ⟨j, hj⟩ : ∃ j, ⌊((60 : ℕ) - 1 : ℝ) * cpr el - (60 : ℕ) * cpr ol + 1 / 2⌋ = j := ⟨_, rfl⟩
  obtain ⟨latE, hE⟩ : ∃ x, (if refLat < 0 then 90 / ((60 : ℕ) : ℝ) * (mod j (60 : ℕ) + cpr el) - 90
      else 90 / ((60 : ℕ) : ℝ) * (mod j (60 : ℕ) + cpr el)) = x := ⟨_, rfl⟩
  obtain ⟨latO, hO⟩ : ∃ x, (if refLat < 0 then 90 / ((59 : ℕ) : ℝ) * (mod j (59 : ℕ) + cpr ol) - 90
      else 90 / ((59 : ℕ) : ℝ) * (mod j (59 : ℕ) + cpr ol)) = x := ⟨_, rfl⟩
  obtain ⟨N, hN, hN1, -⟩ := nl_nat latE
  rw [surfaceGlobal_eq el en ol on e refLat refLon j latE latO hj hE hO N hN1 hN]
  by_cases h : getNumberOfLongitude latO = N
  · rw [if_pos h]; exact Or.inr ⟨_, _, rfl⟩
  · rw [if_neg h]; exact Or.inl rfl

/-- C57, the choice of the longitude: for any codes and any receiver, a position returned has its longitude in [-180, 180), and no
other longitude of that range differing by quarter turns is nearer to the receiver's (as a number of degrees, without
wrapping). -/
theorem surface_nearest (el en ol on : UInt32) (e : Bool) (refLat refLon lat lon : ℝ)
    (h : surfaceGlobal el en ol on e refLat refLon = .ok (lat, lon)) :
    -180 ≤ lon ∧ lon < 180 ∧ ∀ k : ℤ, -180 ≤ lon + 90 * k → lon + 90 * k < 180 → |refLon - lon| ≤ |refLon - (lon + 90 * k)| := by
  rcases surfaceGlobal_shape el en ol on e refLat refLon with hs | ⟨lat', q, hs⟩
  · rw [hs] at h; cases h
  · rw [hs] at h
    rcases nearestLongitude_spec refLon (candidates q) with ⟨c, hc, hmem, -, hmin⟩ | ⟨hp, -⟩
    · rw [hc] at h
      injection h with h
      injection h with _ h
      subst h
      obtain ⟨a, b, k, ek⟩ := (mem_candidates q c).1 hmem
      refine ⟨a, b, fun k' h1 h2 => hmin _ ((mem_candidates q _).2 ⟨h1, h2, k + k', ?_⟩)⟩
      rw [ek]; push_cast; ring
    · rw [hp] at h; cases h

/-- C57, no panic: whatever the codes, when the receiver's longitude is a number of degrees of any usual convention (indeed up to
9 999 000). -/
theorem surface_noPanic_partial (el en ol on : UInt32) (e : Bool) (refLat refLon : ℝ) (href : |refLon| ≤ 9999000) :
    surfaceGlobal el en ol on e refLat refLon ≠ .error .panic := by
  rcases surfaceGlobal_shape el en ol on e refLat refLon with hs | ⟨lat', q, hs⟩
  · rw [hs]; exact fun h => by cases h
  · rw [hs]
    rcases nearestLongitude_spec refLon (candidates q) with ⟨c, hc, -⟩ | ⟨-, hp⟩
    · rw [hc]; exact fun h => by cases h
    · exfalso
      have := hp (wrap q) (by unfold candidates; exact List.mem_cons_self)
      obtain ⟨w1, w2, -⟩ := wrap_spec q
      have h3 : |refLon - wrap q| ≤ |refLon| + |wrap q| := abs_sub _ _
      have h4 : |wrap q| ≤ 180 := abs_le.2 ⟨w1, w2.le⟩
      linarith

/-- All codes zero: the quadrant longitude is 0, the latitude 0 or -90. -/
theorem surfaceGlobal_zero (refLat refLon : ℝ) (h : 0 ≤ refLat) :
    surfaceGlobal 0 0 0 0 true refLat refLon =
      match nearestLongitude refLon (candidates 0) with
      | .error f => .error f
      | .ok longitude => .ok (0, longitude) := by
  have c0 : cpr 0 = 0 := by unfold cpr; simp
  have hj : ⌊((60 : ℕ) - 1 : ℝ) * cpr 0 - (60 : ℕ) * cpr 0 + 1 / 2⌋ = 0 := by
    rw [c0, Int.floor_eq_iff]; norm_num
  have hE : (if refLat < 0 then 90 / ((60 : ℕ) : ℝ) * (mod ((0 : ℤ) : ℝ) (60 : ℕ) + cpr 0) - 90
      else 90 / ((60 : ℕ) : ℝ) * (mod ((0 : ℤ) : ℝ) (60 : ℕ) + cpr 0)) = 0 := by
    rw [if_neg (by linarith), mod_int _ _ (by norm_num), c0]; norm_num
  have hO : (if refLat < 0 then 90 / ((59 : ℕ) : ℝ) * (mod ((0 : ℤ) : ℝ) (59 : ℕ) + cpr 0) - 90
      else 90 / ((59 : ℕ) : ℝ) * (mod ((0 : ℤ) : ℝ) (59 : ℕ) + cpr 0)) = 0 := by
    rw [if_neg (by linarith), mod_int _ _ (by norm_num), c0]; norm_num
  have hN : getNumberOfLongitude 0 = ((59 : ℕ) : ℝ) := by
    unfold getNumberOfLongitude; rw [if_pos rfl]; norm_num
  have := surfaceGlobal_eq 0 0 0 0 true refLat refLon 0 0 0 hj hE hO 59 (by norm_num) hN
  rw [if_pos hN] at this
  rw [this]
  have hm : ⌊(((59 : ℕ) : ℝ) - 1) * cpr 0 - ((59 : ℕ) : ℝ) * cpr 0 + 1 / 2⌋ = 0 := by
    rw [c0, Int.floor_eq_iff]; norm_num
  rw [hm]
  have hq : 90 / (zones 59 0 : ℝ) * (mod (((0 : ℤ)) : ℝ) (zones 59 0) + cpr 0) = 0 := by
    rw [mod_int _ _ (zones_pos 59 0), c0]; norm_num
  simp only [if_true, hq]

theorem candidates_zero (c : ℝ) : c ∈ candidates 0 ↔ c = 0 ∨ c = 90 ∨ c = -180 ∨ c = -90 := by
  rw [mem_candidates]
  constructor
  · rintro ⟨h1, h2, k, rfl⟩
    have a1 : (-3 : ℝ) < k := by linarith
    have a2 : (k : ℝ) < 2 := by linarith
    have b1 : (-3 : ℤ) < k := by exact_mod_cast a1
    have b2 : k < (2 : ℤ) := by exact_mod_cast a2
    rcases (by omega : k = -2 ∨ k = -1 ∨ k = 0 ∨ k = 1) with h | h | h | h <;> subst h <;> norm_num
  · rintro (rfl | rfl | rfl | rfl)
    · exact ⟨by norm_num, by norm_num, 0, by norm_num⟩
    · exact ⟨by norm_num, by norm_num, 1, by norm_num⟩
    · exact ⟨by norm_num, by norm_num, -2, by norm_num⟩
    · exact ⟨by norm_num, by norm_num, -1, by norm_num⟩

/-- C57, a part that is false: an aircraft at latitude 0, longitude -180, seen by a receiver one degree to the west of it, at
longitude 179, is decoded at longitude 90: distances to the receiver are not computed around the globe. -/
theorem surface_antimeridian_refuted :
    surfaceGlobal 0 0 0 0 true 0 179 = .ok (0, 90) ∧
    encodeLat 19 0 0 = 0 ∧ encodeLat 19 1 0 = 0 ∧ encodeLon 19 0 0 (-180) = 0 ∧ encodeLon 19 1 0 (-180) = 0 := by
  refine ⟨?_, ?_⟩
  · rw [surfaceGlobal_zero 0 179 le_rfl]
    rcases nearestLongitude_spec 179 (candidates 0) with ⟨c, hc, hmem, -, hmin⟩ | ⟨-, hp⟩
    · have h90 := hmin 90 ((candidates_zero 90).2 (by norm_num))
      rw [show |(179 : ℝ) - 90| = 89 by rw [abs_of_pos] <;> norm_num] at h90
      have := abs_le.1 h90
      rcases (candidates_zero c).1 hmem with h | h | h | h <;> subst h
      · exfalso; linarith [this.2]
      · rw [hc]
      · exfalso; linarith [this.2]
      · exfalso; linarith [this.2]
    · exfalso
      have := hp 90 ((candidates_zero 90).2 (by norm_num))
      rw [show |(179 : ℝ) - 90| = 89 by rw [abs_of_pos] <;> norm_num] at this
      norm_num at this
  · have hz (i : ℕ) (hi : i ≤ 1) : rLat 19 i 0 = 0 := by
      rw [rLat19_eq i hi]
      have : grid 17 (dLat i / 4) 0 = 0 := by unfold grid; rw [Int.floor_eq_iff]; norm_num
      rw [this]; norm_num
    have hNL : NL 0 = 59 := by
      have := nl_spec 0 (by norm_num)
      rw [show getNumberOfLongitude 0 = 59 by unfold getNumberOfLongitude; rw [if_pos rfl]] at this
      exact_mod_cast this.symm
    have hlat (i : ℕ) : encodeLat 19 i 0 = 0 := by
      unfold encodeLat
      have : zoneCode 19 (dLat i) 0 = 0 := by unfold zoneCode; rw [Int.floor_eq_iff]; norm_num
      rw [this]; rfl
    have hlon (i : ℕ) (hi : i ≤ 1) : encodeLon 19 i 0 (-180) = 0 := by
      unfold encodeLon
      have hD : dLon 19 i 0 = 360 / ((59 - i : ℕ) : ℝ) := by
        rw [dLon_eq 19 i hi, hz i hi, hNL]; congr 2; unfold zones; omega
      have : zoneCode 19 (dLon 19 i 0) (-180) % 2 ^ 17 = 0 := by
        rw [hD]
        rcases (by omega : i = 0 ∨ i = 1) with h | h <;> subst h
        · have : zoneCode 19 (360 / ((59 - 0 : ℕ) : ℝ)) (-180) = 262144 := by
            unfold zoneCode
            have : ⌊(-180 : ℝ) / (360 / ((59 - 0 : ℕ) : ℝ))⌋ = -30 := by rw [Int.floor_eq_iff]; norm_num
            rw [this, Int.floor_eq_iff]; norm_num
          rw [this]; norm_num
        · have : zoneCode 19 (360 / ((59 - 1 : ℕ) : ℝ)) (-180) = 0 := by
            unfold zoneCode
            have : ⌊(-180 : ℝ) / (360 / ((59 - 1 : ℕ) : ℝ))⌋ = -29 := by rw [Int.floor_eq_iff]; norm_num
            rw [this, Int.floor_eq_iff]; norm_num
          rw [this]; norm_num
      rw [this]; rfl
    exact ⟨hlat 0, hlat 1, hlon 0 (by norm_num), hlon 1 le_rfl⟩

/-- C57, a part that is false: a receiver longitude of twenty million degrees makes the decoder panic. -/
theorem surface_panic_refuted : surfaceGlobal 0 0 0 0 true 0 20000000 = .error .panic := by
  rw [surfaceGlobal_zero 0 20000000 le_rfl]
  rcases nearestLongitude_spec 20000000 (candidates 0) with ⟨c, -, hmem, hlt, -⟩ | ⟨hp, -⟩
  · exfalso
    have := (abs_lt.1 hlt).2
    rcases (candidates_zero c).1 hmem with h | h | h | h <;> subst h <;> linarith
  · rw [hp]

/-- C57, surface local decoding: a reference less than half a (quarter) zone (less half a step) away in latitude and in longitude:
the decoded position is within half a step of the true one. -/
theorem surface_local (lat lon refLat refLon : ℝ) (isOdd : Bool) (h : |rLat 19 (if isOdd then 1 else 0) lat| ≤ 90) :
    let i := if isOdd then 1 else 0
    |lat - refLat| < dLat i / 8 - dLat i / 2 ^ 20 → |lon - refLon| < dLon 19 i lat / 8 - dLon 19 i lat / 2 ^ 20 →
    ∃ lat' lon', surfaceLocal (encodeLat 19 i lat) (encodeLon 19 i lat lon) refLat refLon isOdd = (lat', lon') ∧
      |lat' - lat| ≤ dLat i / 2 ^ 20 ∧ |lon' - lon| ≤ dLon 19 i lat / 2 ^ 20 := by
  intro i hrl hrn
  have hi : i ≤ 1 := by cases isOdd <;> simp [i]
  have hd := dLat_pos i hi
  have hdn := dLon_pos 19 i hi lat
  have n1 := rLat19_near i hi lat
  have n2 := zoneValue_near 19 (dLon 19 i lat) lon hdn
  refine ⟨rLat 19 i lat, zoneValue 19 (dLon 19 i lat) lon, ?_, n1, n2⟩
  have l1 := local_decode (dLat i / 4) refLat (by positivity) (grid 17 (dLat i / 4) lat) (by
    rw [← rLat19_eq i hi]
    calc |rLat 19 i lat - refLat| = |(rLat 19 i lat - lat) + (lat - refLat)| := by congr 1; ring
      _ ≤ |rLat 19 i lat - lat| + |lat - refLat| := abs_add_le _ _
      _ < dLat i / 4 / 2 := by linarith)
  have v2 := zoneValue19 (dLon 19 i lat) lon hdn.ne'
  have l2 := local_decode (dLon 19 i lat / 4) refLon (by positivity) (grid 17 (dLon 19 i lat / 4) lon) (by
    rw [← v2]
    calc |zoneValue 19 (dLon 19 i lat) lon - refLon| = |(zoneValue 19 (dLon 19 i lat) lon - lon) + (lon - refLon)| := by
          congr 1; ring
      _ ≤ |zoneValue 19 (dLon 19 i lat) lon - lon| + |lon - refLon| := abs_add_le _ _
      _ < dLon 19 i lat / 4 / 2 := by norm_num at n2 ⊢; linarith)
  rw [← cpr_encodeLat19 i hi, ← rLat19_eq i hi] at l1
  rw [← cpr_encodeLon19 i hi, ← v2] at l2
  have ed : 90 / (4 * nz - parity isOdd) = dLat i / 4 := by
    rw [parity_cast]; unfold dLat nz; cases isOdd <;> norm_num [i]
  have en : 90 / max (getNumberOfLongitude (rLat 19 i lat) - parity isOdd) 1 = dLon 19 i lat / 4 := by
    rw [nl_spec _ h, parity_cast]
    show 90 / max ((NL (rLat 19 i lat) : ℝ) - (i : ℝ)) 1 = dLon 19 i lat / 4
    unfold dLon; ring
  unfold surfaceLocal
  simp only [ed, l1, en, l2]

/-- The hypotheses of the global decoding are met by an aircraft at latitude 0, longitude 10 and a receiver at longitude 12. -/
example : SameHemisphere 0 0 0 ∧ SameHemisphere 1 0 0 ∧ NL (rLat 19 0 0) = NL (rLat 19 1 0) ∧
    (10 : ℝ) + dLon 19 0 0 / 2 ^ 19 / 2 < 180 ∧ |(10 : ℝ) - 12| + dLon 19 0 0 / 2 ^ 19 / 2 < 45 := by
  have hz (i : ℕ) (hi : i ≤ 1) : rLat 19 i 0 = 0 := by
    rw [rLat19_eq i hi]
    have : grid 17 (dLat i / 4) 0 = 0 := by unfold grid; rw [Int.floor_eq_iff]; norm_num
    rw [this]; norm_num
  have hD : dLon 19 0 0 ≤ 360 := by
    unfold dLon
    exact div_le_self (by norm_num) (le_max_right _ _)
  refine ⟨Or.inl ?_, Or.inl ?_, by rw [hz 0 (by norm_num), hz 1 le_rfl], ?_, ?_⟩
  · rw [dLat0]; norm_num
  · rw [dLat1]; norm_num
  · norm_num; linarith
  · norm_num; linarith

end Geo
end Modes
