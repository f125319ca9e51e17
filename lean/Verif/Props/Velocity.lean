import Verif.Model.Velocity
import Verif.Props.BDS09
import Mathlib.Analysis.SpecialFunctions.Trigonometric.Bounds
/-!
# C35: ground speed and track
-/
open Spec
namespace Modes

theorem f64_natCast (n : ℕ) (h : n ≤ 9007199254740992) : f64 (n : ℚ) = n := by
  have := f64_int (n : ℤ) (by rw [abs_of_nonneg (by omega)]; omega)
  exact_mod_cast this

/-- The truncated, correctly rounded square root of an integer below 2^34 is its integer square root. -/
theorem floor_f64_sqrt (S : ℕ) (hS : S < 17179869184) : ⌊f64R (Real.sqrt S)⌋₊ = Nat.sqrt S := by
  set k := Nat.sqrt S with hk
  have hk1 : k * k ≤ S := Nat.sqrt_le S
  have hk2 : S < (k + 1) * (k + 1) := Nat.lt_succ_sqrt S
  have hkb : k < 131072 := by
    by_contra h
    have : 131072 * 131072 ≤ k * k := Nat.mul_le_mul (by omega) (by omega)
    omega
  have hx0 : 0 ≤ Real.sqrt S := Real.sqrt_nonneg _
  have hsq : Real.sqrt S * Real.sqrt S = S := Real.mul_self_sqrt (by positivity)
  have hkR : (k : ℝ) + 1 ≤ 131072 := by exact_mod_cast hkb
  have hk0 : (0 : ℝ) ≤ k := by positivity
  have e := rnd_err 53 (Real.sqrt S)
  rw [abs_of_nonneg hx0] at e
  have hup : Real.sqrt S ≤ (k : ℝ) + 1 - 1 / (2 * (k + 1)) := by
    have h2 : (S : ℝ) ≤ (k + 1) * (k + 1) - 1 := by
      have : S + 1 ≤ (k + 1) * (k + 1) := hk2
      have : ((S + 1 : ℕ) : ℝ) ≤ ((k + 1) * (k + 1) : ℕ) := by exact_mod_cast this
      push_cast at this; linarith
    have hp : (0 : ℝ) < k + 1 := by positivity
    have hc : 1 / (2 * ((k : ℝ) + 1)) ≤ 1 := by rw [div_le_one (by positivity)]; linarith
    rw [show (S : ℝ) = S from rfl, Real.sqrt_le_left (by linarith)]
    have : ((k : ℝ) + 1 - 1 / (2 * (k + 1))) ^ 2 = (k + 1) ^ 2 - 1 + (1 / (2 * (k + 1))) ^ 2 := by field_simp; ring
    rw [this]; nlinarith [sq_nonneg (1 / (2 * ((k : ℝ) + 1)))]
  have hsmall : Real.sqrt S / 2 ^ 53 < 1 / (2 * ((k : ℝ) + 1)) := by
    have h1 : Real.sqrt S ≤ 131072 := by
      have : 0 ≤ 1 / (2 * ((k : ℝ) + 1)) := by positivity
      linarith
    have h2 : (1 : ℝ) / 262144 ≤ 1 / (2 * (k + 1)) := one_div_le_one_div_of_le (by positivity) (by linarith)
    refine lt_of_lt_of_le ?_ h2
    rw [div_lt_iff₀ (by positivity)]
    norm_num; linarith
  rw [Nat.floor_eq_iff]
  rotate_left
  · have := (abs_le.1 e).1
    have : Real.sqrt S / 2 ^ 53 ≤ Real.sqrt S := div_le_self hx0 (by norm_num)
    unfold f64R
    linarith
  refine ⟨?_, ?_⟩
  · by_cases hex : S = k * k
    · have : Real.sqrt S = k := by
        rw [hex]; push_cast; exact Real.sqrt_mul_self hk0
      unfold f64R
      have h := rnd_exact (K := ℝ) 53 (by decide) (k : ℤ) 0 (by rw [abs_of_nonneg (by omega)]; omega)
      rw [this]
      simp only [zpow_zero, mul_one, Int.cast_natCast] at h
      rw [h]
    · have hlo : (k : ℝ) + 1 / (2 * (k + 1)) ≤ Real.sqrt S := by
        have h2 : (k : ℝ) * k + 1 ≤ S := by
          have : k * k + 1 ≤ S := by omega
          exact_mod_cast this
        apply Real.le_sqrt_of_sq_le
        have h4 : (k : ℝ) / (k + 1) ≤ 3 / 4 + k / (k + 1) / 4 := by
          have : (k : ℝ) / (k + 1) ≤ 1 := by rw [div_le_one (by positivity)]; linarith
          linarith
        have : ((k : ℝ) + 1 / (2 * (k + 1))) ^ 2 = k * k + k / (k + 1) + (1 / (2 * (k + 1))) ^ 2 := by field_simp; ring
        rw [this]
        have h5 : (k : ℝ) / (k + 1) = 1 - 1 / (k + 1) := by field_simp; ring
        have h6 : (1 / (2 * ((k : ℝ) + 1))) ^ 2 ≤ 1 / (k + 1) := by
          rw [div_pow, one_pow]
          apply one_div_le_one_div_of_le (by positivity)
          nlinarith
        linarith
      have := (abs_le.1 e).1
      unfold f64R
      linarith
  · have := (abs_le.1 e).2
    unfold f64R
    linarith

/-- C35. The ground speed is given exactly when both components are regular, and it is then the integer square root of
the sum of their squares, for every content of the message. -/
theorem ground_speed (m : GroundSpeedVelocity) :
    m.getSpeed = if m.velocityEWStatus = .regular ∧ m.velocityNSStatus = .regular then
      some (Nat.sqrt (m.velocityEW.toNat ^ 2 + m.velocityNS.toNat ^ 2)) else none := by
  unfold GroundSpeedVelocity.getSpeed
  by_cases h1 : m.velocityEWStatus = .regular
  rotate_left
  · simp [h1]
  by_cases h2 : m.velocityNSStatus = .regular
  rotate_left
  · simp [h2]
  rw [if_neg (by simpa using h1), if_neg (by simpa using h2), if_pos ⟨h1, h2⟩]
  have l1 := m.velocityEW.toNat_lt
  have l2 := m.velocityNS.toNat_lt
  generalize m.velocityEW.toNat = a at *
  generalize m.velocityNS.toNat = b at *
  have q1 : a * a ≤ 65535 * 65535 := Nat.mul_le_mul (by omega) (by omega)
  have q2 : b * b ≤ 65535 * 65535 := Nat.mul_le_mul (by omega) (by omega)
  have e1 : f64 ((a : ℚ) * a) = ((a * a : ℕ) : ℚ) := by rw [← Nat.cast_mul]; exact f64_natCast _ (by omega)
  have e2 : f64 ((b : ℚ) * b) = ((b * b : ℕ) : ℚ) := by rw [← Nat.cast_mul]; exact f64_natCast _ (by omega)
  have e3 : f64 (((a * a : ℕ) : ℚ) + ((b * b : ℕ) : ℚ)) = ((a * a + b * b : ℕ) : ℚ) := by
    rw [← Nat.cast_add]; exact f64_natCast _ (by omega)
  simp only [f64_natCast a (by omega), f64_natCast b (by omega), e1, e2, e3, Rat.cast_natCast, pow_two]
  rw [floor_f64_sqrt _ (by omega)]

/-- The signed north component: direction 1 is south. -/
noncomputable def signedNS (m : GroundSpeedVelocity) : ℝ := if m.directionNorthSouth = 1 then -(m.velocityNS.toNat : ℝ) else m.velocityNS.toNat
/-- The signed east component: direction 1 is west. -/
noncomputable def signedEW (m : GroundSpeedVelocity) : ℝ := if m.directionEastWest = 1 then -(m.velocityEW.toNat : ℝ) else m.velocityEW.toNat

theorem goAtan2_spec (yn xn : Bool) (y x : ℕ) :
    -Real.pi ≤ goAtan2 yn xn y x ∧ goAtan2 yn xn y x ≤ Real.pi ∧
    Real.sqrt ((x : ℝ) ^ 2 + (y : ℝ) ^ 2) * Real.cos (goAtan2 yn xn y x) = (if xn then -(x : ℝ) else x) ∧
    Real.sqrt ((x : ℝ) ^ 2 + (y : ℝ) ^ 2) * Real.sin (goAtan2 yn xn y x) = (if yn then -(y : ℝ) else y) := by
  have hp := Real.pi_pos
  unfold goAtan2
  by_cases hy : y = 0
  · subst hy
    have : Real.sqrt ((x : ℝ) ^ 2 + ((0 : ℕ) : ℝ) ^ 2) = x := by
      simp [Real.sqrt_sq (Nat.cast_nonneg x)]
    rw [this]
    cases xn <;> cases yn <;> simp <;> linarith
  rw [if_neg hy]
  by_cases hx : x = 0
  · subst hx
    have : Real.sqrt (((0 : ℕ) : ℝ) ^ 2 + (y : ℝ) ^ 2) = y := by
      simp [Real.sqrt_sq (Nat.cast_nonneg y)]
    rw [if_pos rfl, this]
    cases xn <;> cases yn <;> simp <;> constructor <;> linarith
  rw [if_neg hx]
  set z : ℂ := ⟨if xn then -(x : ℝ) else x, if yn then -(y : ℝ) else y⟩ with hz
  have hn : ‖z‖ = Real.sqrt ((x : ℝ) ^ 2 + (y : ℝ) ^ 2) := by
    rw [Complex.norm_def, Complex.normSq_apply]
    congr 1
    cases xn <;> cases yn <;> simp [hz] <;> ring
  have hne : z ≠ 0 := by
    intro h
    have := congrArg Complex.re h
    cases xn <;> simp [hz] at this <;> exact hx this
  rw [← hn]
  refine ⟨(Complex.neg_pi_lt_arg z).le, Complex.arg_le_pi z, ?_, ?_⟩
  · rw [Complex.cos_arg hne, mul_div_cancel₀ _ (by simpa using hne)]
  · rw [Complex.sin_arg, mul_div_cancel₀ _ (by simpa using hne)]

/-- C35. The track is given exactly when both components are regular; it is in [0, 360) degrees and is the direction of the
vector of the signed components (clockwise from north). -/
theorem ground_track (m : GroundSpeedVelocity) :
    (¬ (m.velocityEWStatus = .regular ∧ m.velocityNSStatus = .regular) → m.getTrack = none) ∧
    (m.velocityEWStatus = .regular ∧ m.velocityNSStatus = .regular → ∃ t, m.getTrack = some t ∧ 0 ≤ t ∧ t < 360 ∧
      Real.sqrt (signedNS m ^ 2 + signedEW m ^ 2) * Real.cos (t * Real.pi / 180) = signedNS m ∧
      Real.sqrt (signedNS m ^ 2 + signedEW m ^ 2) * Real.sin (t * Real.pi / 180) = signedEW m) := by
  have hp := Real.pi_pos
  unfold GroundSpeedVelocity.getTrack
  refine ⟨fun h => ?_, fun ⟨h1, h2⟩ => ?_⟩
  · by_cases h1 : m.velocityEWStatus = .regular
    · have h2 : m.velocityNSStatus ≠ .regular := fun h2 => h ⟨h1, h2⟩
      simp [h2]
    · simp [h1]
  rw [if_neg (by simpa using h1), if_neg (by simpa using h2)]
  obtain ⟨a1, a2, a3, a4⟩ := goAtan2_spec (m.directionEastWest == 1) (m.directionNorthSouth == 1) m.velocityEW.toNat m.velocityNS.toNat
  have s1 : Real.sqrt (signedNS m ^ 2 + signedEW m ^ 2) =
      Real.sqrt ((m.velocityNS.toNat : ℝ) ^ 2 + (m.velocityEW.toNat : ℝ) ^ 2) := by
    unfold signedNS signedEW
    congr 1
    split <;> split <;> ring
  have s2 : (if m.directionNorthSouth == 1 then -(m.velocityNS.toNat : ℝ) else m.velocityNS.toNat) = signedNS m := by
    unfold signedNS; simp
  have s3 : (if m.directionEastWest == 1 then -(m.velocityEW.toNat : ℝ) else m.velocityEW.toNat) = signedEW m := by
    unfold signedEW; simp
  rw [s2] at a3
  rw [s3] at a4
  rw [s1]
  generalize goAtan2 (m.directionEastWest == 1) (m.directionNorthSouth == 1) m.velocityEW.toNat m.velocityNS.toNat = r at *
  generalize Real.sqrt ((m.velocityNS.toNat : ℝ) ^ 2 + (m.velocityEW.toNat : ℝ) ^ 2) = q at *
  have hle : r * (180 / Real.pi) ≤ 180 := by
    rw [mul_div_assoc', div_le_iff₀ hp]; linarith
  have hge : -180 ≤ r * (180 / Real.pi) := by
    rw [mul_div_assoc', le_div_iff₀ hp]; linarith
  refine ⟨_, rfl, ?_⟩
  by_cases hneg : r * (180 / Real.pi) < 0
  · simp only [hneg, if_true]
    have e : (r * (180 / Real.pi) + 360) * Real.pi / 180 = r + 2 * Real.pi := by field_simp; ring
    rw [e, Real.cos_add_two_pi, Real.sin_add_two_pi]
    exact ⟨by linarith, by linarith, a3, a4⟩
  · simp only [hneg, if_false]
    have e : r * (180 / Real.pi) * Real.pi / 180 = r := by field_simp
    rw [e]
    exact ⟨by linarith, by linarith, a3, a4⟩

/-- C35. The roundings the track model omits cannot move it out of [0, 360): for components of a subtype 1 message (at
most 1021 kt) a track is 0 or at least 0.03 degree away from both ends. -/
theorem ground_track_margin (m : GroundSpeedVelocity) (t : ℝ) (ht : m.getTrack = some t)
    (h1 : m.velocityEW.toNat ≤ 1021) (h2 : m.velocityNS.toNat ≤ 1021) : t = 0 ∨ (0.03 ≤ t ∧ t ≤ 359.97) := by
  obtain ⟨g1, g2⟩ := ground_track m
  by_cases hr : m.velocityEWStatus = .regular ∧ m.velocityNSStatus = .regular
  rotate_left
  · rw [g1 hr] at ht; cases ht
  obtain ⟨t', ht', t0, t360, hc, hs⟩ := g2 hr
  rw [ht'] at ht
  cases ht
  have hp := Real.pi_pos
  have hp4 := Real.pi_le_four
  set q := Real.sqrt (signedNS m ^ 2 + signedEW m ^ 2) with hq
  have hq0 : 0 ≤ q := Real.sqrt_nonneg _
  have hq1 : q ≤ 1450 := by
    rw [hq, Real.sqrt_le_left (by norm_num)]
    have l1 : (m.velocityEW.toNat : ℝ) ≤ 1021 := by exact_mod_cast h1
    have l2 : (m.velocityNS.toNat : ℝ) ≤ 1021 := by exact_mod_cast h2
    have p1 : (0 : ℝ) ≤ m.velocityEW.toNat := by positivity
    have p2 : (0 : ℝ) ≤ m.velocityNS.toNat := by positivity
    unfold signedNS signedEW
    split <;> split <;> nlinarith
  by_cases hmid : 0.03 ≤ t ∧ t ≤ 359.97
  · exact Or.inr hmid
  left
  -- the sine is small, so the east component is zero
  have hsin : |Real.sin (t * Real.pi / 180)| < 1 / 1450 := by
    rcases lt_or_ge t 0.03 with h | h
    · refine lt_of_le_of_lt Real.abs_sin_le_abs ?_
      rw [abs_of_nonneg (by positivity), div_lt_iff₀ (by norm_num)]
      nlinarith
    · have h' : 359.97 < t := by by_contra hh; exact hmid ⟨h, not_lt.1 hh⟩
      rw [← Real.sin_sub_two_pi]
      refine lt_of_le_of_lt Real.abs_sin_le_abs ?_
      rw [abs_lt]
      constructor <;> nlinarith
  have hew : |signedEW m| < 1 := by
    rw [← hs, abs_mul, abs_of_nonneg hq0]
    calc q * |Real.sin (t * Real.pi / 180)| ≤ 1450 * |Real.sin (t * Real.pi / 180)| :=
          mul_le_mul_of_nonneg_right hq1 (abs_nonneg _)
      _ < 1 := by linarith
  have hew0 : m.velocityEW.toNat = 0 := by
    unfold signedEW at hew
    have : (m.velocityEW.toNat : ℝ) < 1 := by
      split at hew
      · rwa [abs_neg, abs_of_nonneg (by positivity)] at hew
      · rwa [abs_of_nonneg (by positivity)] at hew
    have : m.velocityEW.toNat < 1 := by exact_mod_cast this
    omega
  unfold GroundSpeedVelocity.getTrack goAtan2 at ht'
  rw [if_neg (by simpa using hr.1), if_neg (by simpa using hr.2), hew0] at ht'
  simp only [if_true] at ht'
  have e1 : Real.pi * (180 / Real.pi) = 180 := by field_simp
  have e2 : -Real.pi * (180 / Real.pi) = -180 := by field_simp
  have : t = 0 ∨ t = 180 := by
    split at ht' <;> (try split at ht') <;> (try simp only [e1, e2, zero_mul, lt_irrefl, if_false] at ht') <;> norm_num at ht' <;> first | (simp [← ht']; done) | (exfalso; simp_all)
  rcases this with h | h
  · exact h
  · exact absurd ⟨by rw [h]; norm_num, by rw [h]; norm_num⟩ hmid

/-- C35 on the bits of a subtype 1 message with regular components. -/
theorem ground_speed_of_bits (d : List UInt8) (h7 : d.length = 7) (h19 : bits d 1 5 = 19) (hs : bits d 6 8 = 1)
    (he : 1 ≤ bits d 15 24 ∧ bits d 15 24 ≤ 1022) (hn : 1 ≤ bits d 26 35 ∧ bits d 26 35 ≤ 1022) :
    ∃ m, readBDS09 d = .ok (.groundSpeedNormal m) ∧
      m.getSpeed = some (Nat.sqrt ((bits d 15 24 - 1) ^ 2 + (bits d 26 35 - 1) ^ 2)) := by
  obtain ⟨m, hm⟩ := (velocity_kind d h7 h19).1 hs
  obtain ⟨-, -, c1, -, c2⟩ := (ground_velocity_content d m).1 hm
  refine ⟨m, hm, ?_⟩
  rcases c1 with ⟨g, -⟩ | ⟨g, -⟩ | ⟨-, -, s1, v1⟩ <;> [omega; omega; skip]
  rcases c2 with ⟨g, -⟩ | ⟨g, -⟩ | ⟨-, -, s2, v2⟩ <;> [omega; omega; skip]
  rw [ground_speed, if_pos ⟨s1, s2⟩]
  have e1 : m.velocityEW.toNat = bits d 15 24 - 1 := by omega
  have e2 : m.velocityNS.toNat = bits d 26 35 - 1 := by omega
  rw [e1, e2]

/-- The example message: 8 kt west and 159 kt south make 159 kt. -/
example : ∃ m, readBDS09 exampleVelocity = .ok (.groundSpeedNormal m) ∧ m.getSpeed = some 159 := by
  obtain ⟨m, h1, h2⟩ := ground_speed_of_bits exampleVelocity (by decide) (by decide) (by decide) (by decide) (by decide)
  have e : Nat.sqrt 25345 = 159 := (Nat.eq_sqrt.2 (by norm_num)).symm
  refine ⟨m, h1, h2.trans ?_⟩
  rw [show bits exampleVelocity 15 24 = 9 by decide, show bits exampleVelocity 26 35 = 160 by decide]
  exact congrArg some e

end Modes
