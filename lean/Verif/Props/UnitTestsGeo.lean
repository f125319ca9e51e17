import Verif.Props.GeoNL
import Verif.Lemmas.NLGrid
/-!
# The unit tests of pkg/geo on the model

As Props/UnitTests: tests of the model (in exact arithmetic), no properties. The test of the ground distance is not transcribed.
-/
namespace Modes.UnitTests
open Modes.Geo Spec

/-- The number of zones at `180 T / d` degrees, computed. -/
def zonesOK (d T n : ℕ) : Bool := lowOK d n T && highOK d (n + 1) (T - 1) && decide (0 < T ∧ 2 ≤ n ∧ n ≤ 58 ∧ 2 * T ≤ d)

theorem zones_at (lat : ℝ) (d T n : ℕ) (h : zonesOK d T n = true) (hl : |lat| = 180 * T / d) : getNumberOfLongitude lat = n := by
  unfold zonesOK at h
  simp only [Bool.and_eq_true, decide_eq_true_eq] at h
  obtain ⟨⟨h1, h2⟩, h0, hn, hn', hd⟩ := h
  have hdp : 0 < d := by omega
  have hdr : (0 : ℝ) < d := by exact_mod_cast hdp
  have e : Real.cos (Real.pi / 180 * lat) = Real.cos (Real.pi * T / d) := by
    rw [← cos_abs_lat, hl]; congr 1; field_simp
  have hm (k : ℕ) : (0 : ℝ) ≤ margin k := by
    have : (0 : ℚ) ≤ margin k := by unfold margin; split <;> norm_num
    exact_mod_cast this
  have hm' : (0 : ℝ) < margin (n + 1) := by
    have : (0 : ℚ) < margin (n + 1) := by unfold margin; split <;> norm_num
    exact_mod_cast this
  have g1 := low_real d n T hn hdp h1 T le_rfl (by omega)
  have g2 := high_real d (n + 1) (T - 1) (by omega) hdp h2 T (by omega) hd
  have hc : 0 ≤ Real.cos (Real.pi * T / d) := by
    apply Real.cos_nonneg_of_mem_Icc
    have hp := Real.pi_pos
    have : (2 * T : ℝ) ≤ d := by exact_mod_cast hd
    constructor
    · have : 0 ≤ Real.pi * T / d := by positivity
      linarith
    · rw [div_le_div_iff₀ hdr (by norm_num)]; nlinarith
  have h90 : |lat| ≤ 90 := by
    rw [hl, div_le_iff₀ hdr]
    have : (2 * T : ℝ) ≤ d := by exact_mod_cast hd
    linarith
  rw [nl_spec lat h90, NL_of_iff lat n (by omega) (by omega)]
  intro k hk hk'
  rw [e]
  constructor
  · intro hkn
    have := mul_le_mul_of_nonneg_left (sin_pi_div_anti hk hkn) hc
    linarith [hm n]
  · intro hs
    by_contra hlt
    have := mul_le_mul_of_nonneg_left (sin_pi_div_anti (k := n + 1) (l := k) (by omega) (by omega)) hc
    linarith

/-- The evaluation of `airborneGlobal` from the values of its intermediate variables. -/
theorem airborneGlobal_eval {e o : ℕ × ℕ} {after : Bool} {j n m : ℤ} {latE latO : ℝ}
    (he : e.1 < 131072 ∧ e.2 < 131072) (ho : o.1 < 131072 ∧ o.2 < 131072)
    (hj : ⌊(59 * e.1 - 60 * o.1 : ℝ) / 131072 + 1 / 2⌋ = j) (hj' : 0 ≤ j ∧ j < 59)
    (hlE : latE = 6 * (j + e.1 / 131072)) (hlO : latO = 360 / 59 * (j + o.1 / 131072))
    (hE : latE < 270) (hO : latO < 270)
    (hnE : getNumberOfLongitude latE = n) (hnO : getNumberOfLongitude latO = n) (hn : 2 ≤ n)
    (hm : ⌊(e.2 * (n - 1) - o.2 * n : ℝ) / 131072 + 1 / 2⌋ = m) (hm' : 0 ≤ m ∧ m < n - 1) :
    airborneGlobal (UInt32.ofNat e.1) (UInt32.ofNat e.2) (UInt32.ofNat o.1) (UInt32.ofNat o.2) after =
      .ok (if after then latE else latO, fixLongitude (if after then 360 / n * (m + e.2 / 131072) else 360 / (n - 1) * (m + o.2 / 131072))) := by
  have c (x : ℕ) (hx : x < 131072) : cpr (UInt32.ofNat x) = x / 131072 := by
    unfold cpr maxBinaryValue
    rw [UInt32.toNat_ofNat_of_lt' (by norm_num [UInt32.size]; omega)]
  have md (a b : ℤ) (h : 0 ≤ a) (h' : a < b) : mod (a : ℝ) b = a := by
    unfold mod
    have : ⌊(a : ℝ) / b⌋ = 0 := by
      rw [Int.floor_eq_zero_iff]
      have hb : (0 : ℝ) < b := by exact_mod_cast (by omega : 0 < b)
      have h1 : (0 : ℝ) ≤ a := by exact_mod_cast h
      have h2 : (a : ℝ) < b := by exact_mod_cast h'
      exact ⟨by positivity, by rw [div_lt_one hb]; exact h2⟩
    rw [this]; simp
  have hn1 : (2 : ℝ) ≤ n := by exact_mod_cast hn
  have mx0 : max ((n : ℝ) - 0) 1 = n := by rw [sub_zero, max_eq_left (by linarith)]
  have mx1 : max ((n : ℝ) - 1) 1 = n - 1 := by rw [max_eq_left (by linarith)]
  have m60 : mod (j : ℝ) 60 = j := by have := md j 60 hj'.1 (by omega); exact_mod_cast this
  have m59 : mod (j : ℝ) 59 = j := by have := md j 59 hj'.1 (by omega); exact_mod_cast this
  have mn0 : mod (m : ℝ) n = m := md m n hm'.1 (by omega)
  have mn1 : mod (m : ℝ) (n - 1) = m := by have := md m (n - 1) hm'.1 (by omega); push_cast at this; exact this
  have fE : fixLatitude latE = latE := if_neg (by linarith)
  have fO : fixLatitude latO = latO := if_neg (by linarith)
  unfold airborneGlobal
  have n4 : (4 * nz : ℝ) = 60 := by unfold nz; norm_num
  have n59 : (60 - 1 : ℝ) = 59 := by norm_num
  have d60 : (360 / 60 : ℝ) = 6 := by norm_num
  have jj : ⌊(59 : ℝ) * (e.1 / 131072) - 60 * (o.1 / 131072) + 1 / 2⌋ = j := by rw [← hj]; congr 1; ring
  have mm : ⌊(e.2 : ℝ) / 131072 * (n - 1) - o.2 / 131072 * n + 1 / 2⌋ = m := by rw [← hm]; congr 1; ring
  simp only [c _ he.1, c _ he.2, c _ ho.1, c _ ho.2, n4, n59, d60, jj, m60, m59, ← hlE, ← hlO, fE, fO, hnE, hnO, mm, mx0, mx1, mn0, mn1,
    ne_eq, not_true_eq_false, if_false]

/-- geo/cpr_airborne_global_position_test.go:5-31 -/
example : ∃ lat lon, airborneGlobal 39848 83951 21567 81965 false = .ok (lat, lon) ∧ 49.817 ≤ lat ∧ lat ≤ 49.818 ∧ 6.084 ≤ lon ∧ lon ≤ 6.085 := by
  have h := airborneGlobal_eval (e := (39848, 83951)) (o := (21567, 81965)) (after := false) (j := 8) (n := 38) (m := 0)
    (latE := 6 * (8 + 39848 / 131072)) (latO := 360 / 59 * (8 + 21567 / 131072)) (by decide) (by decide)
    (by rw [Int.floor_eq_iff]; norm_num) (by decide) (by norm_num) (by norm_num) (by norm_num) (by norm_num)
    (zones_at _ (2 * 60 * 131072) 4353696 38 (by decide +kernel) (by norm_num))
    (zones_at _ (2 * 59 * 131072) 4280572 38 (by decide +kernel) (by norm_num)) (by decide)
    (by rw [Int.floor_eq_iff]; norm_num) (by decide)
  refine ⟨_, _, h, ?_⟩
  unfold fixLongitude; norm_num

/-- geo/cpr_airborne_global_position_test.go:33-59 -/
example : ∃ lat lon, airborneGlobal 93000 51372 74158 50194 true = .ok (lat, lon) ∧ 52.257 ≤ lat ∧ lat ≤ 52.258 ∧ 3.9193 ≤ lon ∧ lon ≤ 3.9194 := by
  have h := airborneGlobal_eval (e := (93000, 51372)) (o := (74158, 50194)) (after := true) (j := 8) (n := 36) (m := 0)
    (latE := 6 * (8 + 93000 / 131072)) (latO := 360 / 59 * (8 + 74158 / 131072)) (by decide) (by decide)
    (by rw [Int.floor_eq_iff]; norm_num) (by decide) (by norm_num) (by norm_num) (by norm_num) (by norm_num)
    (zones_at _ (2 * 60 * 131072) 4566304 36 (by decide +kernel) (by norm_num))
    (zones_at _ (2 * 59 * 131072) 4490936 36 (by decide +kernel) (by norm_num)) (by decide)
    (by rw [Int.floor_eq_iff]; norm_num) (by decide)
  refine ⟨_, _, h, ?_⟩
  unfold fixLongitude; norm_num

/-- The nearest zone: `⌊r / d⌋ + ⌊mod r d / d - c + 1/2⌋ = ⌊r / d - c + 1/2⌋`. -/
theorem nearest_zone (r d c : ℝ) (hd : d ≠ 0) (j : ℤ) (h : ⌊r / d - c + 1 / 2⌋ = j) :
    ((⌊r / d⌋ : ℝ) + ⌊mod r d / d - c + 1 / 2⌋) = j := by
  have e : mod r d / d - c + 1 / 2 = r / d - c + 1 / 2 - ⌊r / d⌋ := by unfold mod; field_simp; ring
  rw [e, Int.floor_sub_intCast, h]; push_cast; ring

/-- geo/cpr_airborne_local_position_test.go:5-24 -/
example : 52.257 ≤ (airborneLocal 93000 51372 52.258 3.918 false).1 ∧ (airborneLocal 93000 51372 52.258 3.918 false).1 ≤ 52.258 ∧
    3.919 ≤ (airborneLocal 93000 51372 52.258 3.918 false).2 ∧ (airborneLocal 93000 51372 52.258 3.918 false).2 ≤ 3.920 := by
  have e : airborneLocal 93000 51372 52.258 3.918 false = (6 * (8 + 93000 / 131072), 10 * (0 + 51372 / 131072)) := by
    unfold airborneLocal parity cpr nz maxBinaryValue
    have a : (UInt32.toNat 93000 : ℝ) = 93000 := by rw [show UInt32.toNat 93000 = 93000 from rfl]; norm_num
    have b : (UInt32.toNat 51372 : ℝ) = 51372 := by rw [show UInt32.toNat 51372 = 51372 from rfl]; norm_num
    have d : (360 : ℝ) / (4 * 15 - 0) = 6 := by norm_num
    have j := nearest_zone 52.258 6 (93000 / 131072) (by norm_num) 8 (by rw [Int.floor_eq_iff]; norm_num)
    have z := zones_at (6 * (8 + 93000 / 131072)) (2 * 60 * 131072) 4566304 36 (by decide +kernel) (by norm_num)
    have d' : (360 : ℝ) / max (36 - 0) 1 = 10 := by norm_num
    have m := nearest_zone 3.918 10 (51372 / 131072) (by norm_num) 0 (by rw [Int.floor_eq_iff]; norm_num)
    push_cast at j m z
    simp only [Bool.false_eq_true, if_false, a, b, d, j, z, d', m]
  rw [e]; norm_num

/-- geo/cpr_surface_local_position_test.go:5-27 -/
example : 52.3205 ≤ (surfaceLocal 39195 110320 51.990 4.375 true).1 ∧ (surfaceLocal 39195 110320 51.990 4.375 true).1 ≤ 52.3206 ∧
    4.7357 ≤ (surfaceLocal 39195 110320 51.990 4.375 true).2 ∧ (surfaceLocal 39195 110320 51.990 4.375 true).2 ≤ 4.7358 := by
  have e : surfaceLocal 39195 110320 51.990 4.375 true = (90 / 59 * (34 + 39195 / 131072), 18 / 7 * (1 + 110320 / 131072)) := by
    unfold surfaceLocal parity cpr nz maxBinaryValue
    have a : (UInt32.toNat 39195 : ℝ) = 39195 := by rw [show UInt32.toNat 39195 = 39195 from rfl]; norm_num
    have b : (UInt32.toNat 110320 : ℝ) = 110320 := by rw [show UInt32.toNat 110320 = 110320 from rfl]; norm_num
    have d : (90 : ℝ) / (4 * 15 - 1) = 90 / 59 := by norm_num
    have j := nearest_zone 51.990 (90 / 59) (39195 / 131072) (by norm_num) 34 (by rw [Int.floor_eq_iff]; norm_num)
    have z := zones_at (90 / 59 * (34 + 39195 / 131072)) (2 * 59 * 131072) 4495643 36 (by decide +kernel) (by norm_num)
    have d' : (90 : ℝ) / max (36 - 1) 1 = 18 / 7 := by norm_num
    have m := nearest_zone 4.375 (18 / 7) (110320 / 131072) (by norm_num) 1 (by rw [Int.floor_eq_iff]; norm_num)
    push_cast at j m z
    simp only [if_true, a, b, d, j, z, d', m]
  rw [e]; norm_num

/-- geo/cpr_surface_local_position_test.go:29-51 -/
example : -43.4857 ≤ (surfaceLocal 64585 67947 (-43.5) 172.5 true).1 ∧ (surfaceLocal 64585 67947 (-43.5) 172.5 true).1 ≤ -43.4856 ∧
    172.5394 ≤ (surfaceLocal 64585 67947 (-43.5) 172.5 true).2 ∧ (surfaceLocal 64585 67947 (-43.5) 172.5 true).2 ≤ 172.5395 := by
  have e : surfaceLocal 64585 67947 (-43.5) 172.5 true = (90 / 59 * (-29 + 64585 / 131072), 15 / 7 * (80 + 67947 / 131072)) := by
    unfold surfaceLocal parity cpr nz maxBinaryValue
    have a : (UInt32.toNat 64585 : ℝ) = 64585 := by rw [show UInt32.toNat 64585 = 64585 from rfl]; norm_num
    have b : (UInt32.toNat 67947 : ℝ) = 67947 := by rw [show UInt32.toNat 67947 = 67947 from rfl]; norm_num
    have d : (90 : ℝ) / (4 * 15 - 1) = 90 / 59 := by norm_num
    have j := nearest_zone (-43.5) (90 / 59) (64585 / 131072) (by norm_num) (-29) (by rw [Int.floor_eq_iff]; norm_num)
    have z := zones_at (90 / 59 * (-29 + 64585 / 131072)) (2 * 59 * 131072) 3736503 43 (by decide +kernel) (by norm_num [abs])
    have d' : (90 : ℝ) / max (43 - 1) 1 = 15 / 7 := by norm_num
    have m := nearest_zone 172.5 (15 / 7) (67947 / 131072) (by norm_num) 80 (by rw [Int.floor_eq_iff]; norm_num)
    push_cast at j m z
    simp only [if_true, a, b, d, j, z, d', m]
  rw [e]; norm_num

theorem mod_eval (x y : ℝ) (k : ℤ) (h : ⌊x / y⌋ = k) : mod x y = x - y * k := by unfold mod; rw [h]

/-- geo/cpr_surface_global_position_test.go:5-36 -/
example : ∃ lat lon, surfaceGlobal 115609 116941 39199 110269 false 51.990 4.375 = .ok (lat, lon) ∧
    52.3206 ≤ lat ∧ lat ≤ 52.3207 ∧ 4.7347 ≤ lon ∧ lon ≤ 4.7348 := by
  have e : surfaceGlobal 115609 116941 39199 110269 false 51.990 4.375 = .ok (90 / 59 * (34 + 39199 / 131072), 18 / 7 * (1 + 110269 / 131072)) := by
    unfold surfaceGlobal cpr nz maxBinaryValue
    have a : (UInt32.toNat 115609 : ℝ) = 115609 := by rw [show UInt32.toNat 115609 = 115609 from rfl]; norm_num
    have b : (UInt32.toNat 116941 : ℝ) = 116941 := by rw [show UInt32.toNat 116941 = 116941 from rfl]; norm_num
    have c : (UInt32.toNat 39199 : ℝ) = 39199 := by rw [show UInt32.toNat 39199 = 39199 from rfl]; norm_num
    have d : (UInt32.toNat 110269 : ℝ) = 110269 := by rw [show UInt32.toNat 110269 = 110269 from rfl]; norm_num
    have n0 : (4 * 15 : ℝ) = 60 := by norm_num
    have n1 : (60 - 1 : ℝ) = 59 := by norm_num
    have j : ⌊(59 : ℝ) * (115609 / 131072) - 60 * (39199 / 131072) + 1 / 2⌋ = 34 := by rw [Int.floor_eq_iff]; norm_num
    have m0 := mod_eval 34 60 0 (by rw [Int.floor_eq_iff]; norm_num)
    have m1 := mod_eval 34 59 0 (by rw [Int.floor_eq_iff]; norm_num)
    have z0 := zones_at (90 / 60 * (34 + 115609 / 131072)) (2 * 60 * 131072) 4572057 36 (by decide +kernel) (by norm_num)
    have z1 := zones_at (90 / 59 * (34 + 39199 / 131072)) (2 * 59 * 131072) 4495647 36 (by decide +kernel) (by norm_num)
    have m : ⌊(116941 : ℝ) / 131072 * (36 - 1) - 110269 / 131072 * 36 + 1 / 2⌋ = 1 := by rw [Int.floor_eq_iff]; norm_num
    have x1 : max (36 - 1 : ℝ) 1 = 35 := by norm_num
    have x0 : max (36 - 0 : ℝ) 1 = 36 := by norm_num
    have m2 := mod_eval 1 35 0 (by rw [Int.floor_eq_iff]; norm_num)
    have r0 : ¬ (51.990 : ℝ) < 0 := by norm_num
    have q0 := mod_eval ((90 : ℝ) / 35 * (1 + 110269 / 131072) + 180) 360 0 (by rw [Int.floor_eq_iff]; norm_num)
    have q1 := mod_eval ((90 : ℝ) / 35 * (1 + 110269 / 131072) + 90 + 180) 360 0 (by rw [Int.floor_eq_iff]; norm_num)
    have q2 := mod_eval ((90 : ℝ) / 35 * (1 + 110269 / 131072) + 180 + 180) 360 1 (by rw [Int.floor_eq_iff]; norm_num)
    have q3 := mod_eval ((90 : ℝ) / 35 * (1 + 110269 / 131072) + 270 + 180) 360 1 (by rw [Int.floor_eq_iff]; norm_num)
    simp only [Int.cast_zero, mul_zero, sub_zero] at m0 m1 m2
    push_cast at z0 z1 q0 q1 q2 q3
    simp only [a, b, c, d, n0, n1, j, Int.cast_ofNat, m0, m1, r0, if_false, z0, z1, ne_eq, not_true_eq_false, m, Int.cast_one, x0, x1, m2,
      Bool.false_eq_true, List.map_cons, List.map_nil, q0, q1, q2, q3]
    unfold nearestLongitude nearestStep
    norm_num [List.zipIdx, abs]
  exact ⟨_, _, e, by norm_num⟩

/-- geo/cpr_surface_global_position_test.go:38-70 -/
example : ∃ lat lon, surfaceGlobal 1246 57074 64585 67947 false (-43.496) 172.558 = .ok (lat, lon) ∧
    -43.4857 ≤ lat ∧ lat ≤ -43.4856 ∧ 172.5394 ≤ lon ∧ lon ≤ 172.5395 := by
  have e : surfaceGlobal 1246 57074 64585 67947 false (-43.496) 172.558 = .ok (90 / 59 * (30 + 64585 / 131072) - 90, 90 / 42 * (38 + 67947 / 131072) + 90) := by
    unfold surfaceGlobal cpr nz maxBinaryValue
    have a : (UInt32.toNat 1246 : ℝ) = 1246 := by rw [show UInt32.toNat 1246 = 1246 from rfl]; norm_num
    have b : (UInt32.toNat 57074 : ℝ) = 57074 := by rw [show UInt32.toNat 57074 = 57074 from rfl]; norm_num
    have c : (UInt32.toNat 64585 : ℝ) = 64585 := by rw [show UInt32.toNat 64585 = 64585 from rfl]; norm_num
    have d : (UInt32.toNat 67947 : ℝ) = 67947 := by rw [show UInt32.toNat 67947 = 67947 from rfl]; norm_num
    have n0 : (4 * 15 : ℝ) = 60 := by norm_num
    have n1 : (60 - 1 : ℝ) = 59 := by norm_num
    have j : ⌊(59 : ℝ) * (1246 / 131072) - 60 * (64585 / 131072) + 1 / 2⌋ = -29 := by rw [Int.floor_eq_iff]; norm_num
    have m0 := mod_eval (-29) 60 (-1) (by rw [Int.floor_eq_iff]; norm_num)
    have m1 := mod_eval (-29) 59 (-1) (by rw [Int.floor_eq_iff]; norm_num)
    have z0 := zones_at (90 / 60 * (31 + 1246 / 131072) - 90) (2 * 60 * 131072) 3799842 43 (by decide +kernel) (by norm_num [abs])
    have z1 := zones_at (90 / 59 * (30 + 64585 / 131072) - 90) (2 * 59 * 131072) 3736503 43 (by decide +kernel) (by norm_num [abs])
    have m : ⌊(57074 : ℝ) / 131072 * (43 - 1) - 67947 / 131072 * 43 + 1 / 2⌋ = -4 := by rw [Int.floor_eq_iff]; norm_num
    have x1 : max (43 - 1 : ℝ) 1 = 42 := by norm_num
    have x0 : max (43 - 0 : ℝ) 1 = 43 := by norm_num
    have m2 := mod_eval (-4) 42 (-1) (by rw [Int.floor_eq_iff]; norm_num)
    have r0 : (-43.496 : ℝ) < 0 := by norm_num
    have q0 := mod_eval ((90 : ℝ) / 42 * (38 + 67947 / 131072) + 180) 360 0 (by rw [Int.floor_eq_iff]; norm_num)
    have q1 := mod_eval ((90 : ℝ) / 42 * (38 + 67947 / 131072) + 90 + 180) 360 0 (by rw [Int.floor_eq_iff]; norm_num)
    have q2 := mod_eval ((90 : ℝ) / 42 * (38 + 67947 / 131072) + 180 + 180) 360 1 (by rw [Int.floor_eq_iff]; norm_num)
    have q3 := mod_eval ((90 : ℝ) / 42 * (38 + 67947 / 131072) + 270 + 180) 360 1 (by rw [Int.floor_eq_iff]; norm_num)
    have m0' : mod (-29) 60 = 31 := by rw [m0]; norm_num
    have m1' : mod (-29) 59 = 30 := by rw [m1]; norm_num
    have m2' : mod (-4) 42 = 38 := by rw [m2]; norm_num
    push_cast at z0 z1 q0 q1 q2 q3
    simp only [a, b, c, d, n0, n1, j, Int.cast_neg, Int.cast_ofNat, m0', m1', r0, if_true, z0, z1, ne_eq, not_true_eq_false, if_false, m, x0, x1, m2',
      Bool.false_eq_true, List.map_cons, List.map_nil, q0, q1, q2, q3]
    unfold nearestLongitude nearestStep
    norm_num [List.zipIdx, abs]
  exact ⟨_, _, e, by norm_num⟩

end Modes.UnitTests
