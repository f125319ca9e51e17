import Verif.Props.GoFloats
import Verif.Props.TextShowsCapability
import Verif.Props.EndToEndCommB
import Verif.Props.Velocity
import Verif.Props.VelocityFloat
/-!
# The numbers in the printed reports

C102.
-/
namespace Spec
open Modes

/-- The text has exactly one line that starts with the label, and what follows is the number, written in decimal. -/
def ShowsNumber (text label : Txt) (c : ℚ) : Prop := ∃ t, PlainDecimal t c ∧ ShowsLine text label t

/-- The same, for a number within `ε` of the given one. -/
def ShowsNear (text label : Txt) (c ε : ℚ) : Prop := ∃ q, |q - c| ≤ ε ∧ ShowsNumber text label q

end Spec
namespace Modes
open Spec

variable {A : Bool → Bool → ℕ → ℕ → ℝ}

/-- Decimals of six digits, and some of seven, are printed as they are once rounded to a `float32`. -/
theorem exact32 (c : ℚ) (m : ℤ) (K : ℕ) (hc : c = m / 10 ^ K) (hm : |m| < 4194304) : PlainDecimal ((goFloats A).float32 (f32 c)) c := by
  refine float_printed_exact 24 (by norm_num) c m K hc _ rfl (f32_idem c) ?_
  have hten : (0 : ℚ) < 10 ^ K := by positivity
  rw [hc, abs_div, abs_of_pos hten]
  have : (|m| : ℚ) < 4194304 := by exact_mod_cast hm
  calc |(m : ℚ)| / 10 ^ K * 4 * 10 ^ K = 4 * |(m : ℚ)| := by field_simp
    _ < 2 ^ 24 := by norm_num; linarith

theorem exact64 (c : ℚ) (m : ℤ) (K : ℕ) (hc : c = m / 10 ^ K) (hm : |m| < 2251799813685248) : PlainDecimal ((goFloats A).float64 (f64 c)) c := by
  refine float_printed_exact 53 (by norm_num) c m K hc _ rfl (f64_idem c) ?_
  have hten : (0 : ℚ) < 10 ^ K := by positivity
  rw [hc, abs_div, abs_of_pos hten]
  have : (|m| : ℚ) < 2251799813685248 := by exact_mod_cast hm
  calc |(m : ℚ)| / 10 ^ K * 4 * 10 ^ K = 4 * |(m : ℚ)| := by field_simp
    _ < 2 ^ 53 := by norm_num; linarith

/-- A number that is a `float32` and a short decimal is printed as it is. -/
theorem exact32' (c : ℚ) (n : ℤ) (s : ℕ) (m : ℤ) (K : ℕ) (hn : c = n / 2 ^ s) (hn' : |n| ≤ 16777216) (hc : c = m / 10 ^ K) (hm : |m| < 4194304) :
    PlainDecimal ((goFloats A).float32 c) c := by
  have := exact32 (A := A) c m K hc hm
  rwa [f32_exact c n s hn hn'] at this

/-- A `float32` is printed within 2^-23 of it, relatively. -/
theorem near32 (x : ℚ) (n : ℤ) (s : ℕ) (hn : x = n / 2 ^ s) (hn' : |n| ≤ 16777216) (hb : |x| ≤ 400) :
    ∃ q, |q - x| ≤ 1 / 20000 ∧ PlainDecimal ((goFloats A).float32 x) q := by
  obtain ⟨q, h1, -, h3⟩ := float_printed_near 24 (by norm_num) x (f32_exact x n s hn hn')
  refine ⟨q, h3.trans ?_, h1⟩
  rw [div_le_div_iff₀ (by positivity) (by norm_num)]
  norm_num
  linarith

theorem showsLine_number {text label v : Txt} {c : ℚ} (h : ShowsLine text label v) (hv : PlainDecimal v c) : ShowsNumber text label c :=
  ⟨v, hv, h⟩

theorem showsLine_near {text label v : Txt} {c ε : ℚ} (h : ShowsLine text label v) (hv : ∃ q, |q - c| ≤ ε ∧ PlainDecimal v q) :
    ShowsNear text label c ε := by
  obtain ⟨q, h1, h2⟩ := hv
  exact ⟨q, h1, v, h2, h⟩

theorem commB_length (d : List UInt8) (l : List (Iface CommBMessage)) (h : readCommBMessage d = .ok l) : d.length = 7 := by
  by_contra h7
  rw [readCommB_short d h7] at h
  cases h

theorem movementSpeed_thousandths (n : ℕ) (h : n < 128) : ∃ k : ℤ, movementSpeed n = k / 8 ∧ |k| ≤ 5000 := by
  have hc : ∀ a b : ℕ, ((a : ℚ) ≤ (b : ℚ)) = (a ≤ b) := fun a b => by rw [Nat.cast_le]
  unfold movementSpeed
  split_ifs with h1 h2 h3 h4 h5 h6 h7 h8
  · exact ⟨0, by norm_num, by norm_num⟩
  all_goals
    have q1 : 2 ≤ n := by
      by_contra hlt
      exact h1 (by exact_mod_cast (by omega : n < 2))
  · have : n ≤ 8 := by exact_mod_cast h2
    exact ⟨n - 1, by push_cast; ring, by rw [abs_le]; omega⟩
  · have : n ≤ 12 := by exact_mod_cast h3
    exact ⟨8 + (n - 9) * 2, by push_cast; ring, by rw [abs_le]; omega⟩
  · have : n ≤ 38 := by exact_mod_cast h4
    exact ⟨16 + (n - 13) * 4, by push_cast; ring, by rw [abs_le]; omega⟩
  · have : n ≤ 93 := by exact_mod_cast h5
    exact ⟨120 + (n - 39) * 8, by push_cast; ring, by rw [abs_le]; omega⟩
  · have : n ≤ 108 := by exact_mod_cast h6
    exact ⟨560 + (n - 94) * 16, by push_cast; ring, by rw [abs_le]; omega⟩
  · have : n ≤ 123 := by exact_mod_cast h7
    exact ⟨800 + (n - 109) * 40, by push_cast; ring, by rw [abs_le]; omega⟩
  · exact ⟨1400, by norm_num, by norm_num⟩
  · exact ⟨0, by norm_num, by norm_num⟩

/-- C102. The speed and the track of a surface position are printed exactly, in decimal. -/
theorem surface_numbers (v : UInt8) (a c : Bool) (d : List UInt8) (m : ADSBMessage)
    (h : readADSBMessage v a c d = .returns (.val m) false) (htc : SurfaceTC (bits d 1 5)) :
    ShowsNumber (m.text (goFloats A)) (t! "Movement Speed (knots):            ") (movementSpeed (bits d 6 12)) ∧
    ShowsNumber (m.text (goFloats A)) (t! "Ground Track (degrees):            ") (bits d 14 20 * (360 / 128)) := by
  obtain ⟨-, h1, -, h2, -⟩ := surface_text (goFloats A) (goFloats_faithful _) v a c d m h htc
  refine ⟨showsLine_number h1 ?_, showsLine_number h2 ?_⟩
  · obtain ⟨k, e, hk⟩ := movementSpeed_thousandths _ (bits_lt d 6 12 7 rfl)
    rw [e]
    exact exact32' _ k 3 (k * 125) 3 (by norm_num) (by omega) (by push_cast; ring) (by rw [abs_mul]; norm_num; omega)
  · have := bits_lt d 14 20 7 rfl
    exact exact32' _ (bits d 14 20 * 45) 4 (bits d 14 20 * 28125) 4 (by push_cast; ring) (by rw [abs_le]; omega) (by push_cast; ring)
      (by rw [abs_lt]; omega)

/-- The component of a ground velocity, in knots: `k (v - 1)`, with its sign. -/
noncomputable def _root_.Spec.velocityComponent (negative : Bool) (k v : ℕ) : ℝ := if negative then -((k * (v - 1) : ℕ) : ℝ) else ((k * (v - 1) : ℕ) : ℝ)

theorem f32R_idem (x : ℝ) : rnd 24 (f32R x) = f32R x := by
  obtain ⟨n, k, h1, h2⟩ := rnd_rep 24 (by norm_num) x
  unfold f32R
  rw [h2]
  exact rnd_exact 24 (by norm_num) n k h1

/-- The computed track is a `float32`. -/
theorem getTrackF_float (m : GroundSpeedVelocity) (t : ℝ) (h : m.getTrackF A = some t) : rnd 24 t = t := by
  unfold GroundSpeedVelocity.getTrackF at h
  split at h
  · cases h
  split at h
  · cases h
  obtain rfl := Option.some.inj h
  exact f32R_idem _

/-- The track is printed as Go prints minus zero: no east-west component, coded as a western one, and no southern component. -/
def _root_.Spec.MinusZeroTrack (d : List UInt8) : Prop := bit d 14 = true ∧ bits d 15 24 = 1 ∧ bit d 25 = false

/-- The lines of a ground velocity with the speed and the track. -/
theorem ground_lines_numbers (ha : AccurateAtan2 A) (k : ℕ) (hk : 0 < k) (g : GroundSpeedVelocity) (text : Txt) (d : List UInt8) (top : ℕ)
    (hs : text.splitOn '\n' = (g.lines (goFloats A)).map cat)
    (h1 : g.directionEastWest.toNat = bits d 14 14) (h2 : SpeedCoding (bits d 15 24) k top g.velocityEW.toNat g.velocityEWStatus)
    (h3 : g.directionNorthSouth.toNat = bits d 25 25) (h4 : SpeedCoding (bits d 26 35) k top g.velocityNS.toNat g.velocityNSStatus)
    (he : 1 ≤ bits d 15 24 ∧ bits d 15 24 ≤ 1022) (hn : 1 ≤ bits d 26 35 ∧ bits d 26 35 ≤ 1022) :
    ShowsLine text (t! "Computed Speed:                    ")
      (decimal (Nat.sqrt ((k * (bits d 15 24 - 1)) ^ 2 + (k * (bits d 26 35 - 1)) ^ 2)) ++ t! " (knots)") ∧
    ∃ track : ℝ, 0 ≤ track ∧ track < 360 ∧
      (let east := velocityComponent (bit d 14) k (bits d 15 24); let north := velocityComponent (bit d 25) k (bits d 26 35)
       Real.sqrt (north ^ 2 + east ^ 2) * Real.cos (track * Real.pi / 180) = north ∧
       Real.sqrt (north ^ 2 + east ^ 2) * Real.sin (track * Real.pi / 180) = east) ∧
      (MinusZeroTrack d → ShowsLine text (t! "Computed Track:                    ") (t! "-0 (degrees)")) ∧
      (¬ MinusZeroTrack d → ∃ (q : ℚ) (t : Txt), |(q : ℝ) - track| ≤ 1 / 15000 ∧ PlainDecimal t q ∧
        ShowsLine text (t! "Computed Track:                    ") (t ++ t! " (degrees)")) := by
  rcases h2 with ⟨x, -⟩ | ⟨x, -⟩ | ⟨-, -, s1, v1⟩ <;> [omega; omega; skip]
  rcases h4 with ⟨x, -⟩ | ⟨x, -⟩ | ⟨-, -, s2, v2⟩ <;> [omega; omega; skip]
  have w1 : g.velocityEW.toNat = k * (bits d 15 24 - 1) := by
    rw [Nat.mul_sub]; omega
  have w2 : g.velocityNS.toNat = k * (bits d 26 35 - 1) := by
    rw [Nat.mul_sub]; omega
  have hf (i : ℕ) (x : UInt8) (hx : x.toNat = bits d i i) : (x = 1 ↔ bit d i = true) := by
    rw [← UInt8.toNat_inj, hx]
    unfold bit
    simp
  obtain ⟨track, ht, t0, t1, tc, ts⟩ := (ground_track g).2 ⟨s1, s2⟩
  have c1 : signedEW g = velocityComponent (bit d 14) k (bits d 15 24) := by
    unfold signedEW velocityComponent
    rw [w1]
    simp only [hf 14 _ h1]
  have c2 : signedNS g = velocityComponent (bit d 25) k (bits d 26 35) := by
    unfold signedNS velocityComponent
    rw [w2]
    simp only [hf 25 _ h3]
  constructor
  · unfold ShowsLine
    rw [hs, ← w1, ← w2]
    have : g.speedText = decimal (Nat.sqrt (g.velocityEW.toNat ^ 2 + g.velocityNS.toNat ^ 2)) ++ t! " (knots)" := by
      unfold GroundSpeedVelocity.speedText
      rw [ground_speed, if_pos ⟨s1, s2⟩]
      rfl
    rw [← this]
    rfl
  · obtain ⟨d', hd', -, -, dn, -⟩ := (ground_track_float A ha g).2 track ht
    have hfl := getTrackF_float g d' hd'
    have hz : g.trackMinusZero = true ↔ MinusZeroTrack d := by
      unfold GroundSpeedVelocity.trackMinusZero MinusZeroTrack
      have w3 : (g.velocityEW = 0) ↔ bits d 15 24 = 1 := by
        rw [← UInt16.toNat_inj, w1, show (0 : UInt16).toNat = 0 from rfl, Nat.mul_eq_zero]
        omega
      simp only [Bool.and_eq_true, beq_iff_eq, bne_iff_ne, ne_eq, hf 14 _ h1, hf 25 _ h3, w3, Bool.not_eq_true, and_assoc]
    refine ⟨track, t0, t1, ?_, fun hm => ?_, fun hm => ?_⟩
    · simp only [← c1, ← c2]
      exact ⟨tc, ts⟩
    · have : g.trackText (goFloats A) = t! "-0 (degrees)" := by
        unfold GroundSpeedVelocity.trackText
        rw [show (goFloats A).atan2 = A from rfl, hd']
        simp only [hz.2 hm, if_true]
        rfl
      unfold ShowsLine
      rw [hs, ← this]
      rfl
    · obtain ⟨x, e1, e2, e3⟩ := goFloats_degrees A d'
      rw [hfl] at e1
      obtain ⟨q, p1, -, p3⟩ := float_printed_near 24 (by norm_num) x e2
      refine ⟨q, (goFloats A).degrees d', ?_, by rw [e3]; exact p1, ?_⟩
      · have r2 : |(q : ℝ) - x| ≤ |(x : ℝ)| / 2 ^ 23 := by
          have := (Rat.cast_le (K := ℝ)).2 p3
          push_cast at this
          exact this
        have r1' := abs_le.1 dn
        norm_num at r1' r2
        have hx : |(x : ℝ)| ≤ 361 := by rw [e1, abs_le]; constructor <;> linarith [r1'.1, r1'.2]
        have r3 := abs_le.1 (r2.trans (div_le_div_of_nonneg_right hx (by norm_num)))
        rw [e1] at r3
        rw [abs_le]
        constructor <;> linarith [r1'.1, r1'.2, r3.1, r3.2]
      · have : g.trackText (goFloats A) = (goFloats A).degrees d' ++ t! " (degrees)" := by
          unfold GroundSpeedVelocity.trackText
          rw [show (goFloats A).atan2 = A from rfl, hd']
          have : g.trackMinusZero = false := by rw [← Bool.not_eq_true, hz]; exact hm
          simp only [this, Bool.false_eq_true, if_false]
        unfold ShowsLine
        rw [hs, ← this]
        rfl

/-- C102. A ground velocity whose components are both given is printed with the speed, the integer part of the length of the velocity vector
in knots, and the track, the direction of that vector within 1/15000 degree. -/
theorem ground_speed_numbers (ha : AccurateAtan2 A) (v : UInt8) (a c : Bool) (d : List UInt8) (m : ADSBMessage)
    (h : readADSBMessage v a c d = .returns (.val m) false) (htc : bits d 1 5 = 19) (hst : bits d 6 8 = 1 ∨ bits d 6 8 = 2)
    (he : 1 ≤ bits d 15 24 ∧ bits d 15 24 ≤ 1022) (hn : 1 ≤ bits d 26 35 ∧ bits d 26 35 ≤ 1022) :
    let k := if bits d 6 8 = 1 then 1 else 4
    ShowsLine (m.text (goFloats A)) (t! "Computed Speed:                    ")
      (decimal (Nat.sqrt ((k * (bits d 15 24 - 1)) ^ 2 + (k * (bits d 26 35 - 1)) ^ 2)) ++ t! " (knots)") ∧
    ∃ track : ℝ, 0 ≤ track ∧ track < 360 ∧
      (let east := velocityComponent (bit d 14) k (bits d 15 24); let north := velocityComponent (bit d 25) k (bits d 26 35)
       Real.sqrt (north ^ 2 + east ^ 2) * Real.cos (track * Real.pi / 180) = north ∧
       Real.sqrt (north ^ 2 + east ^ 2) * Real.sin (track * Real.pi / 180) = east) ∧
      (MinusZeroTrack d → ShowsLine (m.text (goFloats A)) (t! "Computed Track:                    ") (t! "-0 (degrees)")) ∧
      (¬ MinusZeroTrack d → ∃ (q : ℚ) (t : Txt), |(q : ℝ) - track| ≤ 1 / 15000 ∧ PlainDecimal t q ∧
        ShowsLine (m.text (goFloats A)) (t! "Computed Track:                    ") (t ++ t! " (degrees)")) := by
  have hs := adsb_splitOn (goFloats A) (goFloats_faithful _) v a c d m h
  obtain ⟨-, hc⟩ := adsb_dispatch v a c d m false h
  have key : ∃ p : AirborneVelocity, readBDS09 d = .ok p ∧ m = .velocity p v := by
    cases m with
    | velocity p x => exact ⟨p, hc.2.2, by rw [hc.2.1]⟩
    | surfaceV0 => have := hc.1; unfold SurfaceTC at this; omega
    | surfaceV1 => have := hc.1; unfold SurfaceTC at this; omega
    | surfaceV2 => have := hc.1; unfold SurfaceTC at this; omega
    | airborneV0 => have := hc.1; unfold AirborneTC at this; omega
    | airborneV1 => have := hc.1; unfold AirborneTC at this; omega
    | airborneV2 => have := hc.1; unfold AirborneTC at this; omega
    | identification => have := hc.2.1; omega
    | _ => have := hc.1; omega
  obtain ⟨p, hp, rfl⟩ := key
  rcases hst with hst | hst
  · simp only [hst, if_true]
    cases p with
    | groundSpeedNormal g =>
      obtain ⟨-, h1, h2, h3, h4⟩ := (ground_velocity_content d g).1 hp
      exact ground_lines_numbers ha 1 (by norm_num) g _ d 1023 hs h1 h2 h3 h4 he hn
    | groundSpeedSupersonic g => have := ((ground_velocity_content d g).2 hp).1; omega
    | airSpeedNormal g => have := ((airspeed_content d g).1 hp).1; omega
    | airSpeedSupersonic g => have := ((airspeed_content d g).2 hp).1; omega
  · simp only [hst, OfNat.ofNat_ne_one, if_false]
    cases p with
    | groundSpeedSupersonic g =>
      obtain ⟨-, h1, h2, h3, h4⟩ := (ground_velocity_content d g).2 hp
      exact ground_lines_numbers ha 4 (by norm_num) g _ d 4088 hs h1 h2 h3 h4 he hn
    | groundSpeedNormal g => have := ((ground_velocity_content d g).1 hp).1; omega
    | airSpeedNormal g => have := ((airspeed_content d g).1 hp).1; omega
    | airSpeedSupersonic g => have := ((airspeed_content d g).2 hp).1; omega

/-- C102. The heading of an airspeed message is printed within 1/20000 degree. -/
theorem airspeed_numbers (v : UInt8) (a c : Bool) (d : List UInt8) (m : ADSBMessage)
    (h : readADSBMessage v a c d = .returns (.val m) false) (htc : bits d 1 5 = 19) (hst : bits d 6 8 = 3 ∨ bits d 6 8 = 4) :
    ShowsNear (m.text (goFloats A)) (t! "Magnetic Heading (degrees):          ") (bits d 15 24 * (360 / 1024)) (1 / 20000) := by
  obtain ⟨_, _, _, _, _, _, -, -, -, h1, -⟩ := airspeed_text (goFloats A) (goFloats_faithful _) v a c d m h htc hst
  have := bits_lt d 15 24 10 rfl
  refine showsLine_near h1 (near32 _ (bits d 15 24 * 45) 7 (by push_cast; ring) (by rw [abs_le]; omega) ?_)
  have : (bits d 15 24 : ℚ) ≤ 1024 := by exact_mod_cast (by omega)
  rw [abs_of_nonneg (by positivity)]
  linarith

/-- C102, the part that is false: a selected heading of zero sent with the sign bit is printed as minus zero, which is not how a number is written. -/
theorem selected_heading_minus_zero (v : UInt8) (a c : Bool) (d : List UInt8) (m : ADSBMessage)
    (h : readADSBMessage v a c d = .returns (.val m) false) (htc : bits d 1 5 = 29) (hst : bits d 6 7 = 1) (h31 : bit d 31 = true)
    (h0 : bits d 32 39 = 0) :
    ShowsLine (m.text (goFloats A)) (t! "Selected Heading :                             ") (t! "-0") ∧ ∀ q, ¬ PlainDecimal (t! "-0") q := by
  refine ⟨?_, minusZero_not_plain⟩
  have hs := adsb_splitOn (goFloats A) (goFloats_faithful _) v a c d m h
  obtain ⟨-, hc⟩ := adsb_dispatch v a c d m false h
  have key : ∃ p : TargetStateAndStatus, readBDS62 d = .ok p ∧ m = .targetState p v := by
    cases m with
    | targetState p x => exact ⟨p, hc.2.2, by rw [hc.2.1]⟩
    | surfaceV0 => have := hc.1; unfold SurfaceTC at this; omega
    | surfaceV1 => have := hc.1; unfold SurfaceTC at this; omega
    | surfaceV2 => have := hc.1; unfold SurfaceTC at this; omega
    | airborneV0 => have := hc.1; unfold AirborneTC at this; omega
    | airborneV1 => have := hc.1; unfold AirborneTC at this; omega
    | airborneV2 => have := hc.1; unfold AirborneTC at this; omega
    | identification => have := hc.2.1; omega
    | _ => have := hc.1; omega
  obtain ⟨p, hp, rfl⟩ := key
  have hl := target_state_content d p hp
  cases p with
  | type0 p => have := hl.1; omega
  | type1 p =>
    replace hl := hl.2
    have e : (goFloats A).signed p.selectedHeadingMinus p.selectedHeading = t! "-0" := by
      unfold FloatTexts.signed
      rw [hl.selectedHeadingMinus, hl.selectedHeading, h31, h0, if_pos (by norm_num)]
      rfl
    unfold ShowsLine
    rw [hs, ← e]
    rfl

/-- C102. The barometric setting of a target state message is printed exactly, in tenths of a millibar; the selected heading within 1/20000
degree. -/
theorem target_state_numbers (v : UInt8) (a c : Bool) (d : List UInt8) (m : ADSBMessage)
    (h : readADSBMessage v a c d = .returns (.val m) false) (htc : bits d 1 5 = 29) (hst : bits d 6 7 = 1) :
    ShowsNumber (m.text (goFloats A)) (t! "Barometric Pressure Setting:                   ")
      (if bits d 21 29 = 0 then 0 else 800 + 8 / 10 * (bits d 21 29 - 1)) ∧
    (bit d 31 = false → ShowsNear (m.text (goFloats A)) (t! "Selected Heading :                             ") (bits d 32 39 * (180 / 256)) (1 / 20000)) := by
  obtain ⟨-, ⟨p, s, hp, h1⟩, h2, -⟩ := (target_state_text_partial (goFloats A) (goFloats_faithful _) v a c d m h htc).1 hst
  refine ⟨showsLine_number h1 ?_, fun hb => showsLine_near (h2 hb) ?_⟩
  · rcases hp with ⟨h0, -, rfl⟩ | ⟨h0, -, rfl⟩
    · rw [if_pos h0]
      exact exact32' 0 0 0 0 0 (by norm_num) (by norm_num) (by norm_num) (by norm_num)
    · rw [if_neg (by omega)]
      have := bits_lt d 21 29 9 rfl
      exact exact32 _ (8000 + 8 * (bits d 21 29 - 1)) 1 (by push_cast; ring) (by rw [abs_lt]; omega)
  · have := bits_lt d 32 39 8 rfl
    refine near32 _ (bits d 32 39 * 45) 6 (by push_cast; ring) (by rw [abs_le]; omega) ?_
    have : (bits d 32 39 : ℚ) ≤ 256 := by exact_mod_cast (by omega)
    rw [abs_of_nonneg (by positivity)]
    linarith

/-- C102. The barometric setting of BDS 4,0 is printed exactly, in tenths of a millibar. -/
theorem bds40_numbers (d : List UInt8) (l : List (Iface CommBMessage)) (h : readCommBMessage d = .ok l)
    (r : SelectedVerticalIntention) (hm : .val (.bds40 r) ∈ l) :
    ShowsNumber (CommBMessage.text (goFloats A) (.bds40 r)) (t! "Barometric Pressure Setting:           ") (800 + bits d 28 39 * (1 / 10)) := by
  have hr := commB_reads d l h _ hm
  have hs := commB_splitOn (goFloats A) (goFloats_faithful _) d _ hr
  have hl := bds40_actual d r hr
  have h1 : ShowsLine (CommBMessage.text (goFloats A) (.bds40 r)) (t! "Barometric Pressure Setting:           ")
      ((goFloats A).float32 r.barometricPressureSetting) := by
    unfold ShowsLine
    rw [hs]
    rfl
  refine showsLine_number h1 ?_
  rw [hl.barometricPressureSetting]
  have := bits_lt d 28 39 12 rfl
  exact exact32 _ (8000 + bits d 28 39) 1 (by push_cast; ring) (by rw [abs_lt]; omega)

/-- C102. Of a track and turn report, the turn rate is printed exactly; roll and track within 1/20000 degree. -/
theorem bds50_numbers (d : List UInt8) (l : List (Iface CommBMessage)) (h : readCommBMessage d = .ok l)
    (r : TrackAndTurnReport) (hm : .val (.bds50 r) ∈ l) :
    ShowsNear (CommBMessage.text (goFloats A) (.bds50 r)) (t! "Roll Angle (degrees):                  ") (sbits d 2 11 * (45 / 256)) (1 / 20000) ∧
    ShowsNear (CommBMessage.text (goFloats A) (.bds50 r)) (t! "True Track (degrees):                  ") (sbits d 13 23 * (90 / 512)) (1 / 20000) ∧
    ShowsNumber (CommBMessage.text (goFloats A) (.bds50 r)) (t! "Track Angle Rate (degrees/second):     ") (sbits d 36 45 * (8 / 256)) := by
  obtain ⟨-, h1, -, h2, -, -, -, h3, -⟩ := bds50_text (goFloats A) (goFloats_faithful _) d l h r hm
  have h7 : d.length = 7 := commB_length d l h
  have r1 := sbits_range d 2 11 (by norm_num) (by omega)
  have r2 := sbits_range d 13 23 (by norm_num) (by omega)
  have r3 := sbits_range d 36 45 (by norm_num) (by omega)
  norm_num at r1 r2 r3
  refine ⟨showsLine_near h1 (near32 _ (sbits d 2 11 * 45) 8 (by push_cast; ring) (by rw [abs_le]; omega) ?_),
    showsLine_near h2 (near32 _ (sbits d 13 23 * 45) 8 (by push_cast; ring) (by rw [abs_le]; omega) ?_),
    showsLine_number h3 (exact32' _ (sbits d 36 45) 5 (sbits d 36 45 * 3125) 5 (by push_cast; ring) (by rw [abs_le]; omega) (by push_cast; ring)
      (by rw [abs_lt]; omega))⟩
  · have e1 : (-512 : ℚ) ≤ sbits d 2 11 := by exact_mod_cast r1.1
    have e2 : (sbits d 2 11 : ℚ) ≤ 512 := by exact_mod_cast r1.2.le
    rw [abs_le]; constructor <;> linarith
  · have e1 : (-1024 : ℚ) ≤ sbits d 13 23 := by exact_mod_cast r2.1
    have e2 : (sbits d 13 23 : ℚ) ≤ 1024 := by exact_mod_cast r2.2.le
    rw [abs_le]; constructor <;> linarith

theorem bds60_mach (d : List UInt8) (m : HeadingAndTrackReport) (h : readBDS60 d = .ok m) : m.mach = machOf (bits d 25 34) := by
  by_cases h7 : d.length = 7
  swap
  · unfold readBDS60 at h; rw [if_pos h7] at h; cases h
  obtain ⟨b0, b1, b2, b3, b4, b5, b6, rfl⟩ := list7 d h7
  obtain ⟨ias, e1, h1⟩ := IndicatedAirSpeed_eval b0 b1 b2 b3 b4 b5 b6
  unfold readBDS60 at h
  go_run [MagneticHeading60_eval, Mach_eval, BarometricAltitudeRate60_eval, InertialVerticalVelocity_eval, e1] at h
  cases h
  rfl

theorem bds45V1_edr (d : List UInt8) (m : HazardReportV1) (h : readBDS45V1 d = .ok m) :
    m.turbulenceAverageEDR = edrOf (bits d 39 44) ∧ m.turbulencePeakEDR = edrOf (bits d 45 50) := by
  by_cases h7 : d.length = 7
  swap
  · unfold readBDS45V1 at h; rw [if_pos h7] at h; cases h
  obtain ⟨b0, b1, b2, b3, b4, b5, b6, rfl⟩ := list7 d h7
  obtain ⟨v0, e1, h1⟩ := WindShear45V1_eval b0 b1 b2 b3 b4 b5 b6
  obtain ⟨v1, e2, h2⟩ := MicroBurst45V1_eval b0 b1 b2 b3 b4 b5 b6
  obtain ⟨v2, e3, h3⟩ := Icing45V1_eval b0 b1 b2 b3 b4 b5 b6
  obtain ⟨v3, e4, h4⟩ := WakeVortex45V1_eval b0 b1 b2 b3 b4 b5 b6
  obtain ⟨v5, e6, h6⟩ := RadioHeight45V1_eval b0 b1 b2 b3 b4 b5 b6
  obtain ⟨v7, e7, h8⟩ := Turbulence45V1_eval b0 b1 b2 b3 b4 b5 b6
  unfold readBDS45V1 at h
  go_run [StaticAirTemperature45V1_eval, e1, e2, e3, e4, e6, e7] at h
  by_cases h0 : b6 &&& 3 = 0
  swap
  · simp only [if_pos h0] at h; cases h
  rw [if_neg (fun h => h h0)] at h
  cases h
  exact ⟨rfl, rfl⟩

/-- The decimal printed for a `float32` within 2^-20 of a number is within 1/500000 of it, if it is at most 5. -/
theorem near32' (x c : ℚ) (hx : rnd 24 x = x) (hc : |x - c| ≤ 1 / 2 ^ 20) (hb : |c| ≤ 5) :
    ∃ q, |q - c| ≤ 1 / 500000 ∧ PlainDecimal ((goFloats A).float32 x) q := by
  obtain ⟨q, h1, -, h3⟩ := float_printed_near 24 (by norm_num) x hx
  refine ⟨q, ?_, h1⟩
  have hxb : |x| ≤ 6 := by
    have := abs_sub_abs_le_abs_sub x c
    norm_num at hc
    linarith
  have h4 : |q - x| ≤ 6 / 2 ^ 23 := h3.trans (div_le_div_of_nonneg_right hxb (by positivity))
  have := abs_sub_le q x c
  norm_num at hc h4 ⊢
  linarith

/-- C102. Of a heading and speed report, the heading is printed within 1/20000 degree and the Mach number within 1/500000. -/
theorem bds60_numbers (d : List UInt8) (l : List (Iface CommBMessage)) (h : readCommBMessage d = .ok l)
    (r : HeadingAndTrackReport) (hm : .val (.bds60 r) ∈ l) :
    ShowsNear (CommBMessage.text (goFloats A) (.bds60 r)) (t! "Magnetic Heading (degrees):               ") (sbits d 2 12 * (90 / 512)) (1 / 20000) ∧
    ShowsNear (CommBMessage.text (goFloats A) (.bds60 r)) (t! "Mach:                                     ") (bits d 25 34 * (4 / 1000)) (1 / 500000) := by
  obtain ⟨-, h1, -⟩ := bds60_text (goFloats A) (goFloats_faithful _) d l h r hm
  have hr := commB_reads d l h _ hm
  have hs := commB_splitOn (goFloats A) (goFloats_faithful _) d _ hr
  have h2 : ShowsLine (CommBMessage.text (goFloats A) (.bds60 r)) (t! "Mach:                                     ") ((goFloats A).float32 r.mach) := by
    unfold ShowsLine
    rw [hs]
    rfl
  have h7 : d.length = 7 := commB_length d l h
  have r1 := sbits_range d 2 12 (by norm_num) (by omega)
  norm_num at r1
  have hb := bits_lt d 25 34 10 rfl
  refine ⟨showsLine_near h1 (near32 _ (sbits d 2 12 * 45) 8 (by push_cast; ring) (by rw [abs_le]; omega) ?_),
    showsLine_near h2 (near32' _ _ ?_ (bds60_content d r hr).mach ?_)⟩
  · have e1 : (-1024 : ℚ) ≤ sbits d 2 12 := by exact_mod_cast r1.1
    have e2 : (sbits d 2 12 : ℚ) ≤ 1024 := by exact_mod_cast r1.2.le
    rw [abs_le]; constructor <;> linarith
  · rw [bds60_mach d r hr]
    exact f32_idem _
  · have : (bits d 25 34 : ℚ) ≤ 1024 := by exact_mod_cast (by omega)
    rw [abs_of_nonneg (by positivity)]
    linarith

theorem edrOf_float (n : ℕ) : rnd 24 (edrOf n) = edrOf n := by
  unfold edrOf
  simp only []
  split <;> exact f32_idem _

/-- C102. Of a meteorological routine report, temperature and humidity are printed exactly, the wind direction within 1/20000 degree. -/
theorem bds44_numbers (d : List UInt8) (l : List (Iface CommBMessage)) (h : readCommBMessage d = .ok l)
    (r : RoutineAirReport) (hm : .val (.bds44 r) ∈ l) :
    ShowsNear (CommBMessage.text (goFloats A) (.bds44 r)) (t! "Wind Direction (degrees):           ") (bits d 16 23 * (180 / 128)) (1 / 20000) ∧
    ShowsNumber (CommBMessage.text (goFloats A) (.bds44 r)) (t! "Static Air Temperature (degrees C): ") (sbits d 25 35 * (1 / 8)) ∧
    ShowsNumber (CommBMessage.text (goFloats A) (.bds44 r)) (t! "Humidity (%):                       ") (bits d 50 56) := by
  obtain ⟨-, -, -, h1, -, h2, -, -, -, -, h3, -⟩ := bds44_text_partial (goFloats A) (goFloats_faithful _) d l h r hm
  have h7 : d.length = 7 := commB_length d l h
  have r1 := bits_lt d 16 23 8 rfl
  have r2 := sbits_range d 25 35 (by norm_num) (by omega)
  have r3 := bits_lt d 50 56 7 rfl
  norm_num at r2
  refine ⟨showsLine_near h1 (near32 _ (bits d 16 23 * 45) 5 (by push_cast; ring) (by rw [abs_le]; omega) ?_),
    showsLine_number h2 (exact32' _ (sbits d 25 35) 3 (sbits d 25 35 * 125) 3 (by push_cast; ring) (by rw [abs_le]; omega) (by push_cast; ring)
      (by rw [abs_lt]; omega)),
    showsLine_number h3 (exact32' _ (bits d 50 56) 0 (bits d 50 56) 0 (by simp) (by rw [abs_le]; omega) (by simp) (by rw [abs_lt]; omega))⟩
  have : (bits d 16 23 : ℚ) ≤ 256 := by exact_mod_cast (by omega)
  rw [abs_of_nonneg (by positivity)]
  linarith

/-- C102. Of a hazard report, the temperature is printed exactly, the eddy dissipation rates within 1/500000. -/
theorem bds45_numbers (d : List UInt8) (l : List (Iface CommBMessage)) (h : readCommBMessage d = .ok l)
    (r : HazardReport) (hm : .val (.bds45 r) ∈ l) :
    ShowsNumber (CommBMessage.text (goFloats A) (.bds45 r)) (t! "Static Air Temperature (degrees C):   ") (sbits d 14 24 * (1 / 8)) ∧
    ShowsNear (CommBMessage.text (goFloats A) (.bds45 r)) (t! "Average Turbulence EDR Metric         ") (bits d 39 44 / 50) (1 / 500000) ∧
    ShowsNear (CommBMessage.text (goFloats A) (.bds45 r)) (t! "Peak Turbulence EDR Metric:           ") (bits d 45 50 / 50) (1 / 500000) := by
  obtain ⟨-, -, -, -, -, -, -, -, -, h1, -⟩ := bds45_text (goFloats A) (goFloats_faithful _) d l h r hm
  have h7 : d.length = 7 := commB_length d l h
  have r1 := sbits_range d 14 24 (by norm_num) (by omega)
  norm_num at r1
  refine ⟨showsLine_number h1 (exact32' _ (sbits d 14 24) 3 (sbits d 14 24 * 125) 3 (by push_cast; ring) (by rw [abs_le]; omega) (by push_cast; ring)
    (by rw [abs_lt]; omega)), ?_⟩
  have hr := commB_reads d l h _ hm
  have hs := commB_splitOn (goFloats A) (goFloats_faithful _) d _ hr
  have hl := bds45_layout d
  rw [show readBDS45 d = .returns (.val r) false from hr] at hl
  cases r with
  | v0 r => exact hl.elim
  | v1 r =>
    have hl' := (bds45_content d).2 r hl.2.2.2
    obtain ⟨e1, e2⟩ := bds45V1_edr d r hl.2.2.2
    have h2 : ShowsLine (CommBMessage.text (goFloats A) (.bds45 (.v1 r))) (t! "Average Turbulence EDR Metric         ")
        ((goFloats A).float32 r.turbulenceAverageEDR) := by
      unfold ShowsLine
      rw [hs]
      rfl
    have h3 : ShowsLine (CommBMessage.text (goFloats A) (.bds45 (.v1 r))) (t! "Peak Turbulence EDR Metric:           ")
        ((goFloats A).float32 r.turbulencePeakEDR) := by
      unfold ShowsLine
      rw [hs]
      rfl
    have q1 := bits_lt d 39 44 6 rfl
    have q2 := bits_lt d 45 50 6 rfl
    have bound (n : ℕ) (hn : n < 2 ^ 6) : |(n : ℚ) / 50| ≤ 5 := by
      have : (n : ℚ) ≤ 64 := by exact_mod_cast (by omega)
      rw [abs_of_nonneg (by positivity)]
      linarith
    refine ⟨showsLine_near h2 (near32' _ _ (by rw [e1]; exact edrOf_float _) ?_ (bound _ q1)),
      showsLine_near h3 (near32' _ _ (by rw [e2]; exact edrOf_float _) ?_ (bound _ q2))⟩
    · have := hl'.averageEDR; norm_num at this ⊢; exact this
    · have := hl'.peakEDR; norm_num at this ⊢; exact this

/-- C102. The range of the threat of a resolution advisory is printed exactly, in tenths of a nautical mile. -/
theorem threat_range_number (r : UInt8) (h1 : 2 ≤ r.toNat) (h2 : r.toNat ≤ 126) :
    ∃ t, PlainDecimal t ((r.toNat - 1) / 10) ∧ threatRangeText (goFloats A) r = decimal r.toNat ++ t! " - " ++ t ++ t! " +/- 0.05 NM" := by
  rcases getRange_cases r with ⟨h, -⟩ | ⟨h, -⟩ | ⟨-, -, e⟩
  · omega
  · omega
  refine ⟨(goFloats A).float64 (getRange r), ?_, ?_⟩
  · rw [e]
    exact exact64 _ (r.toNat - 1) 1 (by push_cast; ring) (by rw [abs_lt]; omega)
  · unfold threatRangeText
    rw [if_neg (by rintro rfl; simp at h1), if_neg (by rintro rfl; simp at h1), if_pos ⟨by
      rw [UInt8.le_iff_toNat_le]; exact h1, by rw [UInt8.le_iff_toNat_le]; exact h2⟩]
    rfl

/-! ### What is false: Mach numbers and eddy dissipation rates are not the short decimals they stand for -/

theorem machOf_five : machOf 5 = 10737419 / 2 ^ 29 := by
  have e0 : f32 (2048 / 1000) = 8589935 / 2 ^ 22 := by
    have := rn_spec (p := 24) (a := 2048) (b := 1000) (m := 8589935) (s := 22) (by norm_num) (by norm_num) (by decide +kernel)
    exact_mod_cast this
  have e1 := rn_spec (p := 24) (a := 5 * 8589935) (b := 2 ^ 22) (m := 10737419) (s := 20) (by norm_num) (by norm_num) (by decide +kernel)
  have e2 := rn_spec (p := 24) (a := 10737419) (b := 2 ^ 20 * 512) (m := 10737419) (s := 29) (by norm_num) (by norm_num) (by decide +kernel)
  unfold machOf
  rw [f32_nat 5 (by norm_num), e0]
  rw [show ((5 : ℕ) : ℚ) * (8589935 / 2 ^ 22) = ((5 * 8589935 : ℕ) : ℚ) / ((2 ^ 22 : ℕ) : ℚ) by norm_num]
  unfold f32
  rw [e1, show ((10737419 : ℕ) : ℚ) / 2 ^ 20 / 512 = ((10737419 : ℕ) : ℚ) / ((2 ^ 20 * 512 : ℕ) : ℚ) by norm_num, e2]
  norm_num

/-- C102, what is false: the Mach number 0.020 of a heading and speed report is printed 0.020000001. -/
theorem mach_number_refuted : ∃ (d : List UInt8) (l : List (Iface CommBMessage)) (r : HeadingAndTrackReport),
    readCommBMessage d = .ok l ∧ .val (.bds60 r) ∈ l ∧ bits d 25 34 * (4 / 1000 : ℚ) = 2 / 100 ∧
    ShowsLine (CommBMessage.text (goFloats A) (.bds60 r)) (t! "Mach:                                     ") (t! "0.020000001") := by
  have h7 : ([0, 0, 1, 1, 0x40, 0, 0] : List UInt8).length = 7 := rfl
  obtain ⟨l, hl, -, -, hall⟩ := commB_sound_complete [0, 0, 1, 1, 0x40, 0, 0] h7
  rcases bds60_eval [0, 0, 1, 1, 0x40, 0, 0] with ⟨-, hn⟩ | ⟨-, r, hr, -⟩
  · exact absurd h7 hn
  have hco : r.coherent = true := (bds60_coherent r _ hr).2.2 (by decide +kernel)
  have hmem := (hall (ambiguous_register _ h7 (.inr (by decide)) 24 (by norm_num) (by decide)) (.bds60 r)).2 ⟨hr, hco⟩
  have hs := commB_splitOn (goFloats A) (goFloats_faithful _) _ _ (show ReadsAs _ (.bds60 r) from hr)
  refine ⟨_, _, r, hl, List.mem_map_of_mem hmem, ?_, ?_⟩
  · rw [show bits [0, 0, 1, 1, 0x40, 0, 0] 25 34 = 5 by decide]; norm_num
  have h2 : ShowsLine (CommBMessage.text (goFloats A) (.bds60 r)) (t! "Mach:                                     ") ((goFloats A).float32 r.mach) := by
    unfold ShowsLine
    rw [hs]
    rfl
  have e : (goFloats A).float32 r.mach = t! "0.020000001" := by
    rw [bds60_mach _ r hr, show bits [0, 0, 1, 1, 0x40, 0, 0] 25 34 = 5 by decide, machOf_five]
    have := floatTextFast_spec (p := 24) (m := 10737419) (s := 29) (t := t! "0.020000001") (by norm_num) (by decide +kernel)
    exact_mod_cast this
  rwa [e] at h2

theorem edrOf_five : edrOf 5 = 3355443 / 2 ^ 25 := by
  have e0 : f32 (2 / 100) = 5368709 / 2 ^ 28 := by
    have := rn_spec (p := 24) (a := 2) (b := 100) (m := 10737418) (s := 29) (by norm_num) (by norm_num) (by decide +kernel)
    unfold f32
    norm_num at this ⊢
    exact this
  have e1 := rn_spec (p := 24) (a := 5 * 5368709) (b := 2 ^ 28) (m := 13421772) (s := 27) (by norm_num) (by norm_num) (by decide +kernel)
  have e2 := rn_spec (p := 24) (a := 126) (b := 100) (m := 10569646) (s := 23) (by norm_num) (by norm_num) (by decide +kernel)
  have g1 : f32 (f32 ((5 : ℕ) : ℚ) * f32 (2 / 100)) = 3355443 / 2 ^ 25 := by
    rw [f32_nat 5 (by norm_num), e0, show ((5 : ℕ) : ℚ) * (5368709 / 2 ^ 28) = ((5 * 5368709 : ℕ) : ℚ) / ((2 ^ 28 : ℕ) : ℚ) by norm_num]
    unfold f32
    rw [e1]
    norm_num
  have g2 : f32 (126 / 100) = 5284823 / 2 ^ 22 := by
    unfold f32
    norm_num at e2 ⊢
    exact e2
  unfold edrOf
  simp only [g1, g2]
  rw [if_neg (by norm_num)]

/-- C102, what is false: the eddy dissipation rate 0.10 of a hazard report is printed 0.099999994. -/
theorem edr_number_refuted : ∃ (d : List UInt8) (l : List (Iface CommBMessage)) (r : HazardReport),
    readCommBMessage d = .ok l ∧ .val (.bds45 r) ∈ l ∧ bits d 39 44 / 50 = (1 / 10 : ℚ) ∧
    ShowsLine (CommBMessage.text (goFloats A) (.bds45 r)) (t! "Average Turbulence EDR Metric         ") (t! "0.099999994") := by
  have h7 : ([0, 0, 0, 0, 4, 0x50, 0] : List UInt8).length = 7 := rfl
  obtain ⟨l, hl, -, -, hall⟩ := commB_sound_complete [0, 0, 0, 0, 4, 0x50, 0] h7
  have hlay := bds45_layout [0, 0, 0, 0, 4, 0x50, 0]
  rcases bds45V1_eval [0, 0, 0, 0, 4, 0x50, 0] with ⟨-, hn⟩ | ⟨-, m, hm, hc⟩
  · exact absurd ⟨h7, by decide⟩ hn
  have hr : readBDS45 [0, 0, 0, 0, 4, 0x50, 0] = .returns (.val (.v1 m)) false := by
    unfold readBDS45
    rw [if_neg (by decide), hm]
  have hco : m.coherent = true := (bds45V1_coherent m).2 ⟨.inl (by rw [hc.turbulenceStatus]; decide),
    fun g => (by rw [hc.turbulenceStatus] at g; exact absurd g (by decide)),
    fun _ => UInt8.toNat_inj.1 (by rw [hc.windShear]; decide),
    fun _ => UInt8.toNat_inj.1 (by rw [hc.microBurst]; decide),
    fun _ => UInt8.toNat_inj.1 (by rw [hc.icing]; decide),
    fun _ => UInt8.toNat_inj.1 (by rw [hc.wakeVortex]; decide),
    fun _ => (by rw [hc.staticAirTemperature, show sbits [0, 0, 0, 0, 4, 0x50, 0] 14 24 = 0 by decide]; norm_num),
    fun _ => hc.averageStaticPressure,
    fun _ => UInt32.toNat_inj.1 (by rw [hc.radioHeight]; decide)⟩
  have hmem := (hall (ambiguous_register _ h7 (.inr (by decide)) 38 (by norm_num) (by decide)) (.bds45 (.v1 m))).2 ⟨hr, hco⟩
  have hs := commB_splitOn (goFloats A) (goFloats_faithful _) _ _ (show ReadsAs _ (.bds45 (.v1 m)) from hr)
  refine ⟨_, _, .v1 m, hl, List.mem_map_of_mem hmem, ?_, ?_⟩
  · rw [show bits [0, 0, 0, 0, 4, 0x50, 0] 39 44 = 5 by decide]; norm_num
  have h2 : ShowsLine (CommBMessage.text (goFloats A) (.bds45 (.v1 m))) (t! "Average Turbulence EDR Metric         ")
      ((goFloats A).float32 m.turbulenceAverageEDR) := by
    unfold ShowsLine
    rw [hs]
    rfl
  have e : (goFloats A).float32 m.turbulenceAverageEDR = t! "0.099999994" := by
    rw [(bds45V1_edr _ m hm).1, show bits [0, 0, 0, 0, 4, 0x50, 0] 39 44 = 5 by decide, edrOf_five]
    have := floatTextFast_spec (p := 24) (m := 3355443) (s := 25) (t := t! "0.099999994") (by norm_num) (by decide +kernel)
    exact_mod_cast this
  rwa [e] at h2

end Modes
