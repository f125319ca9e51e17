import Verif.Model.VelocityFloat
import Verif.Props.EndToEndVelocity
import Verif.Lemmas.FloatR
import Verif.Lemmas.FloatMono
import Mathlib.Analysis.Real.Pi.Bounds
/-!
# C93: the ground track with rounding
-/
namespace Modes
open Spec

/-- What is assumed of `math.Atan2`: a relative accuracy of 2^-50 (so that it is exactly zero where the angle is). -/
def AccurateAtan2 (atan2F : Bool → Bool → ℕ → ℕ → ℝ) : Prop :=
  ∀ yn xn y x, |atan2F yn xn y x - goAtan2 yn xn y x| ≤ |goAtan2 yn xn y x| / 2 ^ 50

/-- A correctly rounded arc tangent satisfies the assumption. -/
theorem accurateAtan2_rounded : AccurateAtan2 (fun yn xn y x => f64R (goAtan2 yn xn y x)) := by
  intro yn xn y x
  refine le_trans (f64R_err _) ?_
  exact div_le_div_of_nonneg_left (abs_nonneg _) (by norm_num) (by norm_num)

theorem f32R_err (x : ℝ) : |f32R x - x| ≤ |x| / 16777216 := by
  have := rnd_err (K := ℝ) 24 x
  norm_num at this ⊢
  exact this

/-- C93. For any components at all a track is 0 or at least 0.0006 degree away from both ends of [0, 360). -/
theorem ground_track_margin_all (m : GroundSpeedVelocity) (t : ℝ) (ht : m.getTrack = some t) : t = 0 ∨ (0.0006 ≤ t ∧ t ≤ 359.9994) := by
  obtain ⟨g1, g2⟩ := ground_track m
  by_cases hr : m.velocityEWStatus = .regular ∧ m.velocityNSStatus = .regular
  rotate_left
  · rw [g1 hr] at ht; cases ht
  obtain ⟨t', ht', t0, t360, hc, hs⟩ := g2 hr
  rw [ht'] at ht
  cases ht
  have hp := Real.pi_pos
  have hp4 : Real.pi < 3.15 := Real.pi_lt_d2
  set q := Real.sqrt (signedNS m ^ 2 + signedEW m ^ 2) with hq
  have hq0 : 0 ≤ q := Real.sqrt_nonneg _
  have hq1 : q ≤ 92682 := by
    rw [hq, Real.sqrt_le_left (by norm_num)]
    have l1 : (m.velocityEW.toNat : ℝ) ≤ 65535 := by have := m.velocityEW.toNat_lt; exact_mod_cast (by omega : m.velocityEW.toNat ≤ 65535)
    have l2 : (m.velocityNS.toNat : ℝ) ≤ 65535 := by have := m.velocityNS.toNat_lt; exact_mod_cast (by omega : m.velocityNS.toNat ≤ 65535)
    have p1 : (0 : ℝ) ≤ m.velocityEW.toNat := by positivity
    have p2 : (0 : ℝ) ≤ m.velocityNS.toNat := by positivity
    unfold signedNS signedEW
    split <;> split <;> nlinarith
  by_cases hmid : 0.0006 ≤ t ∧ t ≤ 359.9994
  · exact Or.inr hmid
  left
  have hsin : |Real.sin (t * Real.pi / 180)| < 1 / 92682 := by
    rcases lt_or_ge t 0.0006 with h | h
    · refine lt_of_le_of_lt Real.abs_sin_le_abs ?_
      rw [abs_of_nonneg (by positivity), div_lt_iff₀ (by norm_num)]
      nlinarith
    · have h' : 359.9994 < t := by by_contra hh; exact hmid ⟨h, not_lt.1 hh⟩
      rw [← Real.sin_sub_two_pi]
      refine lt_of_le_of_lt Real.abs_sin_le_abs ?_
      rw [abs_lt]
      constructor <;> nlinarith
  have hew : |signedEW m| < 1 := by
    rw [← hs, abs_mul, abs_of_nonneg hq0]
    calc q * |Real.sin (t * Real.pi / 180)| ≤ 92682 * |Real.sin (t * Real.pi / 180)| :=
          mul_le_mul_of_nonneg_right hq1 (abs_nonneg _)
      _ < 1 := by linarith
  have hew0 : m.velocityEW.toNat = 0 := by
    unfold signedEW at hew
    have : (m.velocityEW.toNat : ℝ) < 1 := by
      split at hew
      · rwa [abs_neg, abs_of_nonneg (by positivity)] at hew
      · rwa [abs_of_nonneg (by positivity)] at hew
    have : m.velocityEW.toNat < 1 := by exact_mod_cast this
    omega
  unfold GroundSpeedVelocity.getTrack goAtan2 at ht'
  rw [if_neg (by simpa using hr.1), if_neg (by simpa using hr.2), hew0] at ht'
  simp only [if_true] at ht'
  have e1 : Real.pi * (180 / Real.pi) = 180 := by field_simp
  have e2 : -Real.pi * (180 / Real.pi) = -180 := by field_simp
  have : t = 0 ∨ t = 180 := by
    split at ht' <;> (try split at ht') <;> (try simp only [e1, e2, zero_mul, lt_irrefl, if_false] at ht') <;> norm_num at ht' <;> first | (simp [← ht']; done) | (exfalso; simp_all)
  rcases this with h | h
  · exact h
  · exact absurd ⟨by rw [h]; norm_num, by rw [h]; norm_num⟩ hmid

/-- The degrees computed before the conversion to `float32`. -/
theorem degrees_close (r r' : ℝ) (hr : |r| ≤ Real.pi) (h : |r' - r| ≤ |r| / 2 ^ 50) :
    |f64R (r' * f64R (180 / Real.pi)) - r * (180 / Real.pi)| ≤ 1e-12 ∧ (f64R (r' * f64R (180 / Real.pi)) < 0 ↔ r * (180 / Real.pi) < 0) ∧
    (r * (180 / Real.pi) = 0 → f64R (r' * f64R (180 / Real.pi)) = 0) := by
  have hp := Real.pi_pos
  set c := 180 / Real.pi with hc
  have hc0 : 0 < c := by positivity
  have e1 := f64R_err c
  rw [abs_of_pos hc0] at e1
  set c' := f64R c with hc'
  have hc'0 : 0 < c' := by rw [abs_le] at e1; linarith [e1.1]
  set x := r' * c' with hx
  have e2 := f64R_err x
  have hrc : |r| * c ≤ 180 := by
    rw [hc, mul_div_assoc', div_le_iff₀ hp]; linarith
  have hrc0 : 0 ≤ |r| * c := by positivity
  have hr' : |r'| ≤ |r| * (1 + 1 / 2 ^ 50) := by
    calc |r'| = |r + (r' - r)| := by ring_nf
      _ ≤ |r| + |r' - r| := abs_add_le _ _
      _ ≤ |r| * (1 + 1 / 2 ^ 50) := by linarith
  have d1 : |x - r * c| ≤ 4e-13 := by
    have e : x - r * c = (r' - r) * c + r' * (c' - c) := by rw [hx]; ring
    rw [e]
    have a1 : |(r' - r) * c| ≤ |r| * c / 2 ^ 50 := by
      rw [abs_mul, abs_of_pos hc0]
      calc |r' - r| * c ≤ |r| / 2 ^ 50 * c := mul_le_mul_of_nonneg_right h hc0.le
        _ = |r| * c / 2 ^ 50 := by ring
    have a2 : |r' * (c' - c)| ≤ |r| * c * (1 + 1 / 2 ^ 50) / 9007199254740992 := by
      rw [abs_mul]
      calc |r'| * |c' - c| ≤ |r| * (1 + 1 / 2 ^ 50) * (c / 9007199254740992) := mul_le_mul hr' e1 (abs_nonneg _) (by positivity)
        _ = _ := by ring
    refine le_trans (abs_add_le _ _) ?_
    norm_num at a1 a2 ⊢
    linarith
  have hxb : |x| ≤ 181 := by
    have := abs_sub_abs_le_abs_sub x (r * c)
    rw [abs_mul r c, abs_of_pos hc0] at this
    norm_num at d1
    linarith
  refine ⟨?_, ?_, fun h0 => ?_⟩
  rotate_right
  · have hr0 : r = 0 := by
      rcases mul_eq_zero.1 h0 with h | h
      · exact h
      · exact absurd h hc0.ne'
    rw [hr0] at h
    have hr1 : r' = 0 := by simpa using h
    rw [hx, hr1, zero_mul]; exact rnd_zero 53
  · have e : f64R x - r * c = (f64R x - x) + (x - r * c) := by ring
    rw [e]
    refine le_trans (abs_add_le _ _) ?_
    have h3 : |f64R x - x| ≤ 181 / 9007199254740992 := le_trans e2 (div_le_div_of_nonneg_right hxb (by norm_num))
    norm_num at d1 h3 ⊢
    linarith
  · have hsign : r' < 0 ↔ r < 0 := by
      rw [abs_le] at h
      rcases lt_trichotomy r 0 with hn | hz | hpz
      · rw [abs_of_neg hn] at h
        have : r' < 0 := by norm_num at h; linarith [h.2]
        simp [this, hn]
      · rw [hz] at h ⊢; norm_num at h
        have : r' = 0 := le_antisymm h.2 h.1
        rw [this]
      · rw [abs_of_pos hpz] at h
        have : 0 < r' := by norm_num at h; linarith [h.1]
        constructor <;> intro <;> linarith
    have hxs : x < 0 ↔ r < 0 := by rw [← hsign, hx, mul_neg_iff]; constructor
                                   · rintro (⟨-, h2⟩ | ⟨h1, -⟩)
                                     · linarith
                                     · exact h1
                                   · intro h1; exact Or.inr ⟨h1, hc'0⟩
    have hys : r * c < 0 ↔ r < 0 := by
      rw [mul_neg_iff]; constructor
      · rintro (⟨-, h2⟩ | ⟨h1, -⟩)
        · linarith
        · exact h1
      · intro h1; exact Or.inr ⟨h1, hc0⟩
    rw [hys, ← hxs]
    constructor
    · intro hn
      by_contra hge
      have := f64R_nonneg (not_lt.1 hge)
      linarith
    · intro hn
      have := f64R_err x
      rw [abs_of_neg hn, abs_le] at this
      linarith [this.2]

/-- C93. With rounding and an accurate `math.Atan2`, the track is given exactly when both components are regular; it is in [0, 360) and within
0.000022 degree of the exact direction of the vector of the components (that of `ground_track`). -/
theorem ground_track_float (atan2F : Bool → Bool → ℕ → ℕ → ℝ) (ha : AccurateAtan2 atan2F) (m : GroundSpeedVelocity) :
    (m.getTrack = none ↔ m.getTrackF atan2F = none) ∧
    ∀ t, m.getTrack = some t → ∃ t', m.getTrackF atan2F = some t' ∧ 0 ≤ t' ∧ t' < 360 ∧ |t' - t| ≤ 0.000022 ∧ (t = 0 → t' = 0) := by
  by_cases hr : m.velocityEWStatus = .regular ∧ m.velocityNSStatus = .regular
  rotate_left
  · have h1 := (ground_track m).1 hr
    have h2 : m.getTrackF atan2F = none := by
      unfold GroundSpeedVelocity.getTrackF
      by_cases h1 : m.velocityEWStatus = .regular
      · have h2 : m.velocityNSStatus ≠ .regular := fun h2 => hr ⟨h1, h2⟩
        simp [h2]
      · simp [h1]
    rw [h1, h2]
    exact ⟨Iff.rfl, fun t ht => (by cases ht)⟩
  have hm := ground_track_margin_all m
  have hb := goAtan2_spec (m.directionEastWest == 1) (m.directionNorthSouth == 1) m.velocityEW.toNat m.velocityNS.toNat
  have hacc := ha (m.directionEastWest == 1) (m.directionNorthSouth == 1) m.velocityEW.toNat m.velocityNS.toNat
  unfold GroundSpeedVelocity.getTrack at *
  unfold GroundSpeedVelocity.getTrackF
  simp only [if_neg (not_not.2 hr.1), if_neg (not_not.2 hr.2)] at *
  obtain ⟨b1, b2, -, -⟩ := hb
  generalize atan2F (m.directionEastWest == 1) (m.directionNorthSouth == 1) m.velocityEW.toNat m.velocityNS.toNat = r' at *
  generalize goAtan2 (m.directionEastWest == 1) (m.directionNorthSouth == 1) m.velocityEW.toNat m.velocityNS.toNat = r at *
  obtain ⟨d1, d2, d3⟩ := degrees_close r r' (abs_le.2 ⟨b1, b2⟩) hacc
  refine ⟨by simp, fun t ht => ⟨_, rfl, ?_⟩⟩
  have hmt := hm t ht
  have ht := Option.some.inj ht
  have hp := Real.pi_pos
  have hge : -180 ≤ r * (180 / Real.pi) := by rw [mul_div_assoc', le_div_iff₀ hp]; linarith
  have hle : r * (180 / Real.pi) ≤ 180 := by rw [mul_div_assoc', div_le_iff₀ hp]; linarith
  generalize hx : f64R (r' * f64R (180 / Real.pi)) = x at *
  generalize r * (180 / Real.pi) = y at *
  set z := if x < 0 then f64R (x + 360) else x with hz
  have hz1 : |z - t| ≤ 2e-12 ∧ 0 ≤ z ∧ z ≤ 361 := by
    rw [abs_le] at d1
    by_cases hn : x < 0
    · rw [if_pos hn] at hz
      rw [if_pos (d2.1 hn)] at ht
      have hpos : 0 ≤ x + 360 := by norm_num at d1; linarith [d1.1]
      have e := f64R_err (x + 360)
      rw [abs_of_nonneg hpos, abs_le] at e
      have := f64R_nonneg hpos
      rw [hz]
      refine ⟨?_, this, ?_⟩
      · rw [abs_le]; norm_num at d1 ⊢; constructor <;> linarith [e.1, e.2, d1.1, d1.2]
      · norm_num at d1; linarith [e.2, d1.2]
    · rw [if_neg hn] at hz
      rw [if_neg (fun h => hn (d2.2 h))] at ht
      rw [hz, ← ht]
      refine ⟨?_, not_lt.1 hn, ?_⟩
      · rw [abs_le]; norm_num at d1 ⊢; constructor <;> linarith [d1.1, d1.2]
      · norm_num at d1; linarith [d1.2]
  obtain ⟨z1, z2, z3⟩ := hz1
  have e := f32R_err z
  rw [abs_of_nonneg z2] at e
  have hn : 0 ≤ f32R z := rnd_nonneg 24 z2
  have hcl : |f32R z - t| ≤ 0.000022 := by
    have e' : f32R z - t = (f32R z - z) + (z - t) := by ring
    rw [e']
    refine le_trans (abs_add_le _ _) ?_
    norm_num at z1 ⊢
    linarith
  refine ⟨hn, ?_, hcl, ?_⟩
  · rw [abs_le] at hcl
    rcases hmt with h | ⟨-, h⟩ <;> norm_num at hcl h <;> linarith [hcl.2]
  · intro h0
    have hy : ¬ y < 0 := fun hy => (by rw [if_pos hy] at ht; linarith)
    rw [if_neg hy, h0] at ht
    have hz0 : z = 0 := by rw [hz, d3 ht]; simp
    rw [hz0]; exact rnd_zero 24

/-- C93, from the aircraft to the number the receiver computes: an aircraft flying the track `track` at `V` knots sends its components in a squitter; the
track computed from them, with all roundings, is in [0, 360) and within `64 k / V + 0.000022` degree of `track` modulo 360. -/
theorem track_end_to_end_float (atan2F : Bool → Bool → ℕ → ℕ → ℝ) (ha : AccurateAtan2 atan2F) (v : UInt8) (capability address : Nat) (hca : capability < 8)
    (haa : address < 2 ^ 24) (supersonic : Bool) (intent ifr accuracy source reserved : Nat) (l2 : intent < 2) (l3 : ifr < 2) (l4 : accuracy < 8)
    (l9 : source < 2) (l12 : reserved < 4) (V track vr dh : ℝ) (hV : 2 * velocityStep supersonic ≤ V) (hV2 : V ≤ velocityStep supersonic * 1021)
    (hvr : |vr| ≤ 64 * 509) (hdh : |dh| ≤ 25 * 125) (f : List UInt8)
    (hf : IsSquitter capability address (velocityField (if supersonic then 2 else 1) intent ifr accuracy (signCode (V * Real.sin (track * Real.pi / 180)))
      (stepCode (velocityStep supersonic) (V * Real.sin (track * Real.pi / 180))) (signCode (V * Real.cos (track * Real.pi / 180)))
      (stepCode (velocityStep supersonic) (V * Real.cos (track * Real.pi / 180))) source (signCode vr) (stepCode 64 vr) reserved
      (signCode dh) (stepCode 25 dh)) f) :
    ∃ m : GroundSpeedVelocity, ReceivesVelocity v f address (if supersonic then .groundSpeedSupersonic m else .groundSpeedNormal m) ∧
      ∃ t : ℝ, m.getTrackF atan2F = some t ∧ 0 ≤ t ∧ t < 360 ∧ ∃ j : ℤ, |t - track - 360 * j| ≤ 64 * velocityStep supersonic / V + 0.000022 := by
  have hV0 : 0 ≤ V := le_trans (by positivity) hV
  have hs : |V * Real.sin (track * Real.pi / 180)| ≤ velocityStep supersonic * 1021 := by
    rw [abs_mul, abs_of_nonneg hV0]
    exact le_trans (mul_le_of_le_one_right hV0 (Real.abs_sin_le_one _)) hV2
  have hc : |V * Real.cos (track * Real.pi / 180)| ≤ velocityStep supersonic * 1021 := by
    rw [abs_mul, abs_of_nonneg hV0]
    exact le_trans (mul_le_of_le_one_right hV0 (Real.abs_cos_le_one _)) hV2
  obtain ⟨m, x, rfl, hr, -, ⟨t, ht, -, -, hall⟩, -⟩ := velocity_end_to_end v capability address hca haa supersonic intent ifr accuracy source reserved l2 l3 l4
    l9 l12 _ _ vr dh hs hc hvr hdh f hf
  obtain ⟨j, hj⟩ := hall V track hV rfl rfl
  obtain ⟨t', ht', h0, h360, hcl, -⟩ := (ground_track_float atan2F ha m).2 t ht
  refine ⟨m, hr, t', ht', h0, h360, j, ?_⟩
  have e : t' - track - 360 * j = (t - track - 360 * j) + (t' - t) := by ring
  rw [e]
  exact le_trans (abs_add_le _ _) (add_le_add hj hcl)

/-- A message with 100 knots west and 100 knots north has a track, to which the theorem applies. -/
example : let m : GroundSpeedVelocity := ⟨19, 1, 0, 0, 0, 1, .regular, 100, 0, .regular, 100, 0, .regular, 0, .regular, 0⟩
    (∃ t, m.getTrack = some t) ∧ signedEW m = -100 ∧ signedNS m = 100 :=
  ⟨((ground_track _).2 ⟨rfl, rfl⟩).imp fun _ h => h.1, by simp [signedEW], by simp [signedNS]⟩

end Modes
