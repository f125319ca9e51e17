import Verif.Model.BDS5060
import Verif.Lemmas.CommBNum
/-!
# C46, C48: BDS 5,0 (track and turn) and BDS 6,0 (heading and speed)
-/
set_option linter.unusedSimpArgs false
open Spec
namespace Modes

theorem RollAngle_eval (b0 b1 b2 b3 b4 b5 b6 : UInt8) : readRollAngle [b0, b1, b2, b3, b4, b5, b6] = .ok (bit [b0, b1, b2, b3, b4, b5, b6] 1, (sbits [b0, b1, b2, b3, b4, b5, b6] 2 11 : ℚ) * (45 / 256)) := by
  have es : (b0 &&& 128 != 0) = bit [b0, b1, b2, b3, b4, b5, b6] 1 := by byte_flag
  have en : (b0 &&& 64 != 0) = bit [b0, b1, b2, b3, b4, b5, b6] 2 := by byte_flag
  have e : (pack2 (b0 &&& 63) (b1 &&& 224) >>> 5).toNat = bits [b0, b1, b2, b3, b4, b5, b6] 3 11 := by byte_omega
  unfold readRollAngle
  go_run [es, e, en]
  rw [signedF32_field [b0, b1, b2, b3, b4, b5, b6] 2 11 45 8 90 _ _ _ (by decide) (by simp) (by norm_num) (by norm_num) (by norm_num) (by norm_num) (by norm_num) (by norm_num)]

theorem TrueTrackAngle_eval (b0 b1 b2 b3 b4 b5 b6 : UInt8) : readTrueTrackAngle [b0, b1, b2, b3, b4, b5, b6] = .ok (bit [b0, b1, b2, b3, b4, b5, b6] 12, (sbits [b0, b1, b2, b3, b4, b5, b6] 13 23 : ℚ) * (90 / 512)) := by
  have es : (b1 &&& 16 != 0) = bit [b0, b1, b2, b3, b4, b5, b6] 12 := by byte_flag
  have en : (b1 &&& 8 != 0) = bit [b0, b1, b2, b3, b4, b5, b6] 13 := by byte_flag
  have e : (pack2 (b1 &&& 7) (b2 &&& 254) >>> 1).toNat = bits [b0, b1, b2, b3, b4, b5, b6] 14 23 := by byte_omega
  unfold readTrueTrackAngle
  go_run [es, e, en]
  rw [signedF32_field [b0, b1, b2, b3, b4, b5, b6] 13 23 90 9 180 _ _ _ (by decide) (by simp) (by norm_num) (by norm_num) (by norm_num) (by norm_num) (by norm_num) (by norm_num)]

theorem GroundSpeed50_eval (b0 b1 b2 b3 b4 b5 b6 : UInt8) : ∃ v, readGroundSpeed50 [b0, b1, b2, b3, b4, b5, b6] = .ok (bit [b0, b1, b2, b3, b4, b5, b6] 24, v) ∧ v.toNat = 2 * bits [b0, b1, b2, b3, b4, b5, b6] 25 34 := by
  have es : (b2 &&& 1 != 0) = bit [b0, b1, b2, b3, b4, b5, b6] 24 := by byte_flag
  have e : ((pack2 (b3 &&& 255) (b4 &&& 192) >>> 6).toUInt32 * 2).toNat = 2 * bits [b0, b1, b2, b3, b4, b5, b6] 25 34 := by byte_omega
  unfold readGroundSpeed50
  go_run [es]
  exact ⟨_, rfl, e⟩

theorem TrackAngleRate_eval (b0 b1 b2 b3 b4 b5 b6 : UInt8) : readTrackAngleRate [b0, b1, b2, b3, b4, b5, b6] = .ok (bit [b0, b1, b2, b3, b4, b5, b6] 35, (sbits [b0, b1, b2, b3, b4, b5, b6] 36 45 : ℚ) * (8 / 256)) := by
  have es : (b4 &&& 32 != 0) = bit [b0, b1, b2, b3, b4, b5, b6] 35 := by byte_flag
  have en : (b4 &&& 16 != 0) = bit [b0, b1, b2, b3, b4, b5, b6] 36 := by byte_flag
  have e : (pack2 (b4 &&& 15) (b5 &&& 248) >>> 3).toNat = bits [b0, b1, b2, b3, b4, b5, b6] 37 45 := by byte_omega
  unfold readTrackAngleRate
  go_run [es, e, en]
  rw [signedF32_field [b0, b1, b2, b3, b4, b5, b6] 36 45 8 8 16 _ _ _ (by decide) (by simp) (by norm_num) (by norm_num) (by norm_num) (by norm_num) (by norm_num) (by norm_num)]

theorem TrueAirSpeed_eval (b0 b1 b2 b3 b4 b5 b6 : UInt8) : ∃ v, readTrueAirSpeed [b0, b1, b2, b3, b4, b5, b6] = .ok (bit [b0, b1, b2, b3, b4, b5, b6] 46, v) ∧ v.toNat = 2 * bits [b0, b1, b2, b3, b4, b5, b6] 47 56 := by
  have es : (b5 &&& 4 != 0) = bit [b0, b1, b2, b3, b4, b5, b6] 46 := by byte_flag
  have e : ((pack2 (b5 &&& 3) (b6 &&& 255)).toUInt32 * 2).toNat = 2 * bits [b0, b1, b2, b3, b4, b5, b6] 47 56 := by byte_omega
  unfold readTrueAirSpeed
  go_run [es]
  exact ⟨_, rfl, e⟩

theorem MagneticHeading60_eval (b0 b1 b2 b3 b4 b5 b6 : UInt8) : readMagneticHeading60 [b0, b1, b2, b3, b4, b5, b6] = .ok (bit [b0, b1, b2, b3, b4, b5, b6] 1, (sbits [b0, b1, b2, b3, b4, b5, b6] 2 12 : ℚ) * (90 / 512)) := by
  have es : (b0 &&& 128 != 0) = bit [b0, b1, b2, b3, b4, b5, b6] 1 := by byte_flag
  have en : (b0 &&& 64 != 0) = bit [b0, b1, b2, b3, b4, b5, b6] 2 := by byte_flag
  have e : (pack2 (b0 &&& 63) (b1 &&& 240) >>> 4).toNat = bits [b0, b1, b2, b3, b4, b5, b6] 3 12 := by byte_omega
  unfold readMagneticHeading60
  go_run [es, e, en]
  rw [signedF32_field [b0, b1, b2, b3, b4, b5, b6] 2 12 90 9 180 _ _ _ (by decide) (by simp) (by norm_num) (by norm_num) (by norm_num) (by norm_num) (by norm_num) (by norm_num)]

theorem IndicatedAirSpeed_eval (b0 b1 b2 b3 b4 b5 b6 : UInt8) : ∃ v, readIndicatedAirSpeed [b0, b1, b2, b3, b4, b5, b6] = .ok (bit [b0, b1, b2, b3, b4, b5, b6] 13, v) ∧ v.toNat = bits [b0, b1, b2, b3, b4, b5, b6] 14 23 := by
  have es : (b1 &&& 8 != 0) = bit [b0, b1, b2, b3, b4, b5, b6] 13 := by byte_flag
  have e : ((pack2 (b1 &&& 7) (b2 &&& 254) >>> 1).toUInt32).toNat = bits [b0, b1, b2, b3, b4, b5, b6] 14 23 := by byte_omega
  unfold readIndicatedAirSpeed
  go_run [es]
  exact ⟨_, rfl, e⟩

theorem Mach_eval (b0 b1 b2 b3 b4 b5 b6 : UInt8) : readMach [b0, b1, b2, b3, b4, b5, b6] = .ok (bit [b0, b1, b2, b3, b4, b5, b6] 24, machOf (bits [b0, b1, b2, b3, b4, b5, b6] 25 34)) := by
  have es : (b2 &&& 1 != 0) = bit [b0, b1, b2, b3, b4, b5, b6] 24 := by byte_flag
  have e : (pack2 (b3 &&& 255) (b4 &&& 192) >>> 6).toNat = bits [b0, b1, b2, b3, b4, b5, b6] 25 34 := by byte_omega
  unfold readMach
  go_run [es, e]

theorem BarometricAltitudeRate60_eval (b0 b1 b2 b3 b4 b5 b6 : UInt8) : readBarometricAltitudeRate60 [b0, b1, b2, b3, b4, b5, b6] = .ok (bit [b0, b1, b2, b3, b4, b5, b6] 35, sbits [b0, b1, b2, b3, b4, b5, b6] 36 45 * 32) := by
  have es : (b4 &&& 32 != 0) = bit [b0, b1, b2, b3, b4, b5, b6] 35 := by byte_flag
  have en : (b4 &&& 16 != 0) = bit [b0, b1, b2, b3, b4, b5, b6] 36 := by byte_flag
  have e : (pack2 (b4 &&& 15) (b5 &&& 248) >>> 3).toNat = bits [b0, b1, b2, b3, b4, b5, b6] 37 45 := by byte_omega
  unfold readBarometricAltitudeRate60
  go_run [es, e, en]
  rw [signedInt_field [b0, b1, b2, b3, b4, b5, b6] 36 45 _ _ (by decide) (by simp) (by norm_num)]

theorem inertialVelocityOf_eq (neg : Bool) (n : Nat) : inertialVelocityOf neg n = signedInt neg n 32 16384 := by
  unfold inertialVelocityOf signedInt
  have : Int.tdiv ((n : Int) * 8192) 256 = n * 32 := by
    rw [Int.tdiv_eq_ediv_of_nonneg (by positivity)]; omega
  simp only [this]

theorem InertialVerticalVelocity_eval (b0 b1 b2 b3 b4 b5 b6 : UInt8) : readInertialVerticalVelocity [b0, b1, b2, b3, b4, b5, b6] = .ok (bit [b0, b1, b2, b3, b4, b5, b6] 46, sbits [b0, b1, b2, b3, b4, b5, b6] 47 56 * 32) := by
  have es : (b5 &&& 4 != 0) = bit [b0, b1, b2, b3, b4, b5, b6] 46 := by byte_flag
  have en : (b5 &&& 2 != 0) = bit [b0, b1, b2, b3, b4, b5, b6] 47 := by byte_flag
  have e : (pack2 (b5 &&& 1) (b6 &&& 255)).toNat = bits [b0, b1, b2, b3, b4, b5, b6] 48 56 := by byte_omega
  unfold readInertialVerticalVelocity
  go_run [es, e, en]
  rw [inertialVelocityOf_eq, signedInt_field [b0, b1, b2, b3, b4, b5, b6] 47 56 _ _ (by decide) (by simp) (by norm_num)]

/-- The layout of BDS 5,0: status bits, and two's complement (`sbits`) or unsigned (`bits`) numbers with their resolutions. -/
structure TrackAndTurnReport.Layout (d : List UInt8) (m : TrackAndTurnReport) : Prop where
  rollAngleStatus : m.rollAngleStatus = bit d 1
  rollAngle : m.rollAngle = sbits d 2 11 * (45 / 256)
  trueTrackAngleStatus : m.trueTrackAngleStatus = bit d 12
  trueTrackAngle : m.trueTrackAngle = sbits d 13 23 * (90 / 512)
  groundSpeedStatus : m.groundSpeedStatus = bit d 24
  groundSpeed : m.groundSpeed.toNat = 2 * bits d 25 34
  trackAngleRateStatus : m.trackAngleRateStatus = bit d 35
  trackAngleRate : m.trackAngleRate = sbits d 36 45 * (8 / 256)
  trueAirSpeedStatus : m.trueAirSpeedStatus = bit d 46
  trueAirSpeed : m.trueAirSpeed.toNat = 2 * bits d 47 56

/-- The layout of BDS 6,0. The Mach number (resolution 0.004) is a `float32` within 2^-20 of the exact one. -/
structure HeadingAndTrackReport.Layout (d : List UInt8) (m : HeadingAndTrackReport) : Prop where
  magneticHeadingStatus : m.magneticHeadingStatus = bit d 1
  magneticHeading : m.magneticHeading = sbits d 2 12 * (90 / 512)
  indicatedAirSpeedStatus : m.indicatedAirSpeedStatus = bit d 13
  indicatedAirSpeed : m.indicatedAirSpeed.toNat = bits d 14 23
  machStatus : m.machStatus = bit d 24
  mach : |m.mach - bits d 25 34 * (4 / 1000)| ≤ 1 / 2 ^ 20
  mach_one : m.mach ≤ 1 ↔ bits d 25 34 ≤ 250
  mach_zero : m.mach = 0 ↔ bits d 25 34 = 0
  barometricAltitudeRateStatus : m.barometricAltitudeRateStatus = bit d 35
  barometricAltitudeRate : m.barometricAltitudeRate = sbits d 36 45 * 32
  initialVerticalVelocityStatus : m.initialVerticalVelocityStatus = bit d 46
  initialVerticalVelocity : m.initialVerticalVelocity = sbits d 47 56 * 32

theorem f32_2048 : f32 (2048 / 1000) = 8589935 / 4194304 := by
  have := rnd_near 24 (by norm_num) (2048 / 1000) 8589935 (-22) (by norm_num) (by norm_num) (by norm_num [abs_lt])
  unfold f32; rw [this]; norm_num

theorem f32_mach250 : f32 (250 * (8589935 / 4194304)) = 512 := by
  have := rnd_near 24 (by norm_num) (250 * (8589935 / 4194304)) 8388608 (-14) (by norm_num) (by norm_num) (by norm_num [abs_lt])
  unfold f32; rw [this]; norm_num

theorem f32_bounds (x : ℚ) (h : 0 ≤ x) : x - x / 2 ^ 24 ≤ f32 x ∧ f32 x ≤ x + x / 2 ^ 24 := by
  have := abs_le.1 (rnd_err 24 x)
  rw [abs_of_nonneg h] at this
  unfold f32
  constructor <;> linarith [this.1, this.2]

theorem machOf_spec (n : Nat) (hn : n < 1024) :
    |machOf n - n * (4 / 1000)| ≤ 1 / 2 ^ 20 ∧ (machOf n ≤ 1 ↔ n ≤ 250) ∧ (machOf n = 0 ↔ n = 0) := by
  unfold machOf
  rw [f32_nat n (by omega), f32_2048]
  have hq : (n : ℚ) ≤ 1023 := by exact_mod_cast (by omega : n ≤ 1023)
  have hq0 : (0 : ℚ) ≤ n := by positivity
  have hnc : (0 : ℚ) ≤ (n : ℚ) * (8589935 / 4194304) := by positivity
  have b1 := f32_bounds ((n : ℚ) * (8589935 / 4194304)) hnc
  have hz : 0 ≤ f32 ((n : ℚ) * (8589935 / 4194304)) := by linarith [b1.1]
  have b2 := f32_bounds (f32 ((n : ℚ) * (8589935 / 4194304)) / 512) (by linarith)
  have h250 : n = 250 → f32 (f32 ((n : ℚ) * (8589935 / 4194304)) / 512) = 1 := by
    rintro rfl
    rw [Nat.cast_ofNat, f32_mach250, show (512 / 512 : ℚ) = ((1 : ℕ) : ℚ) by norm_num, f32_nat 1 (by norm_num), Nat.cast_one]
  generalize f32 ((n : ℚ) * (8589935 / 4194304)) = z at *
  generalize f32 (z / 512) = w at *
  refine ⟨?_, ?_, ?_⟩
  · rw [abs_le]; constructor <;> linarith [b1.1, b1.2, b2.1, b2.2]
  · rcases Nat.lt_trichotomy n 250 with h | h | h
    · have : (n : ℚ) ≤ 249 := by exact_mod_cast (by omega : n ≤ 249)
      exact iff_of_true (by linarith [b1.2, b2.2]) (by omega)
    · exact iff_of_true (h250 h).le (by omega)
    · have : (251 : ℚ) ≤ n := by exact_mod_cast (by omega : 251 ≤ n)
      exact iff_of_false (not_le.2 (by linarith [b1.1, b2.1])) (by omega)
  · rcases Nat.eq_zero_or_pos n with h | h
    · subst h
      refine iff_of_true ?_ rfl
      rw [Nat.cast_zero, zero_mul] at b1
      have : z = 0 := by linarith [b1.1, b1.2]
      rw [this] at b2
      linarith [b2.1, b2.2]
    · have : (1 : ℚ) ≤ n := by exact_mod_cast h
      exact iff_of_false (by intro hw; rw [hw] at b2; linarith [b1.1, b2.1]) (by omega)

theorem bds50_eval (d : List UInt8) :
    (readBDS50 d = .error .err ∧ d.length ≠ 7) ∨
    (d.length = 7 ∧ ∃ m, readBDS50 d = .ok m ∧ TrackAndTurnReport.Layout d m) := by
  by_cases h7 : d.length = 7
  swap; · exact Or.inl ⟨by unfold readBDS50; rw [if_pos h7]; rfl, h7⟩
  refine Or.inr ⟨h7, ?_⟩
  obtain ⟨b0, b1, b2, b3, b4, b5, b6, rfl⟩ := list7 d h7
  obtain ⟨gs, e1, h1⟩ := GroundSpeed50_eval b0 b1 b2 b3 b4 b5 b6
  obtain ⟨tas, e2, h2⟩ := TrueAirSpeed_eval b0 b1 b2 b3 b4 b5 b6
  unfold readBDS50
  go_run [RollAngle_eval, TrueTrackAngle_eval, TrackAngleRate_eval, e1, e2]
  exact ⟨_, rfl, rfl, rfl, rfl, rfl, rfl, h1, rfl, rfl, rfl, h2⟩

theorem bds60_eval (d : List UInt8) :
    (readBDS60 d = .error .err ∧ d.length ≠ 7) ∨
    (d.length = 7 ∧ ∃ m, readBDS60 d = .ok m ∧ HeadingAndTrackReport.Layout d m) := by
  by_cases h7 : d.length = 7
  swap; · exact Or.inl ⟨by unfold readBDS60; rw [if_pos h7]; rfl, h7⟩
  refine Or.inr ⟨h7, ?_⟩
  obtain ⟨b0, b1, b2, b3, b4, b5, b6, rfl⟩ := list7 d h7
  obtain ⟨ias, e1, h1⟩ := IndicatedAirSpeed_eval b0 b1 b2 b3 b4 b5 b6
  obtain ⟨m1, m2, m3⟩ := machOf_spec (bits [b0, b1, b2, b3, b4, b5, b6] 25 34) (bits_lt _ 25 34 10 rfl)
  unfold readBDS60
  go_run [MagneticHeading60_eval, Mach_eval, BarometricAltitudeRate60_eval, InertialVerticalVelocity_eval, e1]
  exact ⟨_, rfl, rfl, rfl, rfl, h1, rfl, m1, m2, m3, rfl, rfl, rfl, rfl⟩

/-- C48. Every 7-byte field is readable as BDS 5,0 and as BDS 6,0, and nothing else is; the readers never panic. -/
theorem bds50_60_accept (d : List UInt8) :
    (Succeeds (readBDS50 d) ↔ d.length = 7) ∧ NoPanic (readBDS50 d) ∧
    (Succeeds (readBDS60 d) ↔ d.length = 7) ∧ NoPanic (readBDS60 d) := by
  refine ⟨?_, ?_, ?_, ?_⟩
  · rcases bds50_eval d with ⟨h, hn⟩ | ⟨ha, m, hm, -⟩
    · exact ⟨fun ⟨m, hm⟩ => (by rw [h] at hm; cases hm), fun h => absurd h hn⟩
    · exact ⟨fun _ => ha, fun _ => ⟨_, hm⟩⟩
  · rcases bds50_eval d with ⟨h, hn⟩ | ⟨ha, m, hm, -⟩
    · rw [h]; simp [NoPanic]
    · rw [hm]; simp [NoPanic]
  · rcases bds60_eval d with ⟨h, hn⟩ | ⟨ha, m, hm, -⟩
    · exact ⟨fun ⟨m, hm⟩ => (by rw [h] at hm; cases hm), fun h => absurd h hn⟩
    · exact ⟨fun _ => ha, fun _ => ⟨_, hm⟩⟩
  · rcases bds60_eval d with ⟨h, hn⟩ | ⟨ha, m, hm, -⟩
    · rw [h]; simp [NoPanic]
    · rw [hm]; simp [NoPanic]

/-- C48. BDS 5,0: each parameter is the number in its position. -/
theorem bds50_content (d : List UInt8) (m : TrackAndTurnReport) (h : readBDS50 d = .ok m) : TrackAndTurnReport.Layout d m := by
  rcases bds50_eval d with ⟨e, -⟩ | ⟨-, m', hm, hl⟩
  · rw [e] at h; cases h
  rw [hm] at h; cases h; exact hl

/-- C48. BDS 6,0: each parameter is the number in its position. -/
theorem bds60_content (d : List UInt8) (m : HeadingAndTrackReport) (h : readBDS60 d = .ok m) :
    HeadingAndTrackReport.Layout d m := by
  rcases bds60_eval d with ⟨e, -⟩ | ⟨-, m', hm, hl⟩
  · rw [e] at h; cases h
  rw [hm] at h; cases h; exact hl

theorem sbits_cast_range (d : List UInt8) (f l : Nat) (k : ℕ) (h : f < l) (hl : l ≤ 8 * d.length) (hk : l - f = k) :
    (-2 ^ k : ℚ) ≤ sbits d f l ∧ (sbits d f l : ℚ) < 2 ^ k := by
  have := sbits_range d f l h hl
  rw [hk] at this
  exact ⟨by exact_mod_cast this.1, by exact_mod_cast this.2⟩

/-- C48. The parameters of BDS 5,0 are in their documented ranges. -/
theorem bds50_range (d : List UInt8) (m : TrackAndTurnReport) (h : readBDS50 d = .ok m) :
    (-90 ≤ m.rollAngle ∧ m.rollAngle < 90) ∧ (-180 ≤ m.trueTrackAngle ∧ m.trueTrackAngle < 180) ∧
    m.groundSpeed.toNat ≤ 2046 ∧ (-16 ≤ m.trackAngleRate ∧ m.trackAngleRate < 16) ∧ m.trueAirSpeed.toNat ≤ 2046 := by
  have h7 := ((bds50_60_accept d).1).1 ⟨_, h⟩
  have hl := bds50_content d m h
  rw [hl.rollAngle, hl.trueTrackAngle, hl.groundSpeed, hl.trackAngleRate, hl.trueAirSpeed]
  have r1 := sbits_cast_range d 2 11 9 (by norm_num) (by omega) rfl
  have r2 := sbits_cast_range d 13 23 10 (by norm_num) (by omega) rfl
  have r3 := sbits_cast_range d 36 45 9 (by norm_num) (by omega) rfl
  have r4 := bits_lt d 25 34 10 rfl
  have r5 := bits_lt d 47 56 10 rfl
  norm_num at r1 r2 r3
  refine ⟨⟨?_, ?_⟩, ⟨?_, ?_⟩, by omega, ⟨?_, ?_⟩, by omega⟩
  · linarith [r1.1]
  · linarith [r1.2]
  · linarith [r2.1]
  · linarith [r2.2]
  · linarith [r3.1]
  · linarith [r3.2]

/-- C48. The parameters of BDS 6,0 are in their documented ranges. -/
theorem bds60_range (d : List UInt8) (m : HeadingAndTrackReport) (h : readBDS60 d = .ok m) :
    (-180 ≤ m.magneticHeading ∧ m.magneticHeading < 180) ∧ m.indicatedAirSpeed.toNat ≤ 1023 ∧
    (0 ≤ m.mach ∧ m.mach < 4.093) ∧ (-16384 ≤ m.barometricAltitudeRate ∧ m.barometricAltitudeRate ≤ 16352) ∧
    (-16384 ≤ m.initialVerticalVelocity ∧ m.initialVerticalVelocity ≤ 16352) := by
  have h7 := ((bds50_60_accept d).2.2.1).1 ⟨_, h⟩
  have hl := bds60_content d m h
  have hm := abs_le.1 hl.mach
  have hz := hl.mach_zero
  rw [hl.magneticHeading, hl.indicatedAirSpeed, hl.barometricAltitudeRate, hl.initialVerticalVelocity]
  have r1 := sbits_cast_range d 2 12 10 (by norm_num) (by omega) rfl
  have r2 := sbits_range d 36 45 (by norm_num) (by omega)
  have r3 := sbits_range d 47 56 (by norm_num) (by omega)
  have r4 := bits_lt d 14 23 10 rfl
  have r5 := bits_lt d 25 34 10 rfl
  norm_num at r1 r2 r3
  have r5' : (bits d 25 34 : ℚ) ≤ 1023 := by exact_mod_cast (by omega : bits d 25 34 ≤ 1023)
  refine ⟨⟨?_, ?_⟩, by omega, ⟨?_, ?_⟩, ⟨by omega, by omega⟩, ⟨by omega, by omega⟩⟩
  · linarith [r1.1]
  · linarith [r1.2]
  · by_cases h0 : bits d 25 34 = 0
    · exact (hz.2 h0).ge
    · have : (1 : ℚ) ≤ bits d 25 34 := by exact_mod_cast Nat.one_le_iff_ne_zero.2 h0
      norm_num at hm
      linarith [hm.1]
  · norm_num at hm ⊢
    linarith [hm.2]

/-- Coherency of BDS 5,0 in terms of the bits. -/
def Coherent50 (d : List UInt8) : Prop :=
  (bit d 1 ∨ bit d 12 ∨ bit d 24 ∨ bit d 35 ∨ bit d 46) ∧
  (bit d 1 = false → sbits d 2 11 = 0) ∧ (bit d 12 = false → sbits d 13 23 = 0) ∧ (bit d 24 = false → bits d 25 34 = 0) ∧
  (bit d 35 = false → sbits d 36 45 = 0) ∧ (bit d 46 = false → bits d 47 56 = 0) ∧
  (-284 ≤ sbits d 2 11 ∧ sbits d 2 11 ≤ 284) ∧ bits d 25 34 ≤ 300 ∧ bits d 47 56 ≤ 250 ∧
  (bits d 25 34 ≤ bits d 47 56 + 100 ∧ bits d 47 56 ≤ bits d 25 34 + 100)

/-- Coherency of BDS 6,0 in terms of the bits (187 steps of 32 ft/min are 5984 ft/min). -/
def Coherent60 (d : List UInt8) : Prop :=
  (bit d 1 ∨ bit d 13 ∨ bit d 24 ∨ bit d 35 ∨ bit d 46) ∧
  (bit d 1 = false → sbits d 2 12 = 0) ∧ (bit d 13 = false → bits d 14 23 = 0) ∧ (bit d 24 = false → bits d 25 34 = 0) ∧
  (bit d 35 = false → sbits d 36 45 = 0) ∧ (bit d 46 = false → sbits d 47 56 = 0) ∧
  bits d 14 23 ≤ 500 ∧ bits d 25 34 ≤ 250 ∧
  (-187 ≤ sbits d 36 45 ∧ sbits d 36 45 ≤ 187) ∧ (-187 ≤ sbits d 47 56 ∧ sbits d 47 56 ≤ 187)

instance (d : List UInt8) : Decidable (Coherent50 d) := by unfold Coherent50; infer_instance
instance (d : List UInt8) : Decidable (Coherent60 d) := by unfold Coherent60; infer_instance

/-- C46. Coherency of a BDS 5,0 message: some parameter is available, the unavailable ones are zero, roll within 50 degrees,
ground speed at most 600 kt, true airspeed at most 500 kt and at most 200 kt apart. -/
theorem bds50_coherent (m : TrackAndTurnReport) (d : List UInt8) (h : readBDS50 d = .ok m) :
    (m.coherent = true ↔
      (m.rollAngleStatus ∨ m.trueTrackAngleStatus ∨ m.groundSpeedStatus ∨ m.trackAngleRateStatus ∨ m.trueAirSpeedStatus) ∧
      (m.rollAngleStatus = false → m.rollAngle = 0) ∧ (m.trueTrackAngleStatus = false → m.trueTrackAngle = 0) ∧
      (m.groundSpeedStatus = false → m.groundSpeed = 0) ∧ (m.trackAngleRateStatus = false → m.trackAngleRate = 0) ∧
      (m.trueAirSpeedStatus = false → m.trueAirSpeed = 0) ∧ |m.rollAngle| ≤ 50 ∧ m.groundSpeed.toNat ≤ 600 ∧
      m.trueAirSpeed.toNat ≤ 500 ∧ |(m.groundSpeed.toNat : ℤ) - m.trueAirSpeed.toNat| ≤ 200) ∧
    (m.coherent = true ↔ Coherent50 d) := by
  have first : m.coherent = true ↔
      (m.rollAngleStatus ∨ m.trueTrackAngleStatus ∨ m.groundSpeedStatus ∨ m.trackAngleRateStatus ∨ m.trueAirSpeedStatus) ∧
      (m.rollAngleStatus = false → m.rollAngle = 0) ∧ (m.trueTrackAngleStatus = false → m.trueTrackAngle = 0) ∧
      (m.groundSpeedStatus = false → m.groundSpeed = 0) ∧ (m.trackAngleRateStatus = false → m.trackAngleRate = 0) ∧
      (m.trueAirSpeedStatus = false → m.trueAirSpeed = 0) ∧ |m.rollAngle| ≤ 50 ∧ m.groundSpeed.toNat ≤ 600 ∧
      m.trueAirSpeed.toNat ≤ 500 ∧ |(m.groundSpeed.toNat : ℤ) - m.trueAirSpeed.toNat| ≤ 200 := by
    unfold TrackAndTurnReport.coherent
    simp only [ite_chain, ite_last, and_true, any5, ne_eq, avail_zero, not_or, not_lt, u32_gt, gt_iff_lt, UInt32.reduceToNat, abs_le]
    simp only [and_comm (a := m.rollAngle ≤ 50), and_true]
  refine ⟨first, ?_⟩
  rw [first]
  have hl := bds50_content d m h
  have h7 := ((bds50_60_accept d).1).1 ⟨_, h⟩
  rw [u32_eq, u32_eq, hl.rollAngleStatus, hl.trueTrackAngleStatus, hl.groundSpeedStatus, hl.trackAngleRateStatus,
    hl.trueAirSpeedStatus, hl.rollAngle, hl.trueTrackAngle, hl.trackAngleRate, hl.groundSpeed, hl.trueAirSpeed]
  unfold Coherent50
  have z1 (x : ℤ) (k : ℚ) (hk : k ≠ 0) : (x : ℚ) * k = 0 ↔ x = 0 := by
    rw [mul_eq_zero, or_iff_left hk, Int.cast_eq_zero]
  have z2 : |(sbits d 2 11 : ℚ) * (45 / 256)| ≤ 50 ↔ (-284 ≤ sbits d 2 11 ∧ sbits d 2 11 ≤ 284) := by
    generalize sbits d 2 11 = x
    rw [abs_le]
    constructor
    · rintro ⟨u, v⟩
      have u' : (-285 : ℚ) < x := by linarith
      have v' : (x : ℚ) < 285 := by linarith
      have u2 : (-285 : ℤ) < x := by exact_mod_cast u'
      have v2 : x < (285 : ℤ) := by exact_mod_cast v'
      omega
    · rintro ⟨u, v⟩
      have u' : (-284 : ℚ) ≤ x := by exact_mod_cast u
      have v' : (x : ℚ) ≤ 284 := by exact_mod_cast v
      constructor <;> linarith
  rw [z1 _ _ (by norm_num), z1 _ _ (by norm_num), z1 _ _ (by norm_num), z2]
  simp only [UInt32.toNat_zero]
  rw [abs_le]
  refine and_congr_right fun _ => and_congr_right fun _ => and_congr_right fun _ => and_congr ?_ (and_congr_right fun _ =>
    and_congr ?_ (and_congr_right fun _ => ?_))
  · exact imp_congr_right fun _ => (by omega)
  · exact imp_congr_right fun _ => (by omega)
  · omega

/-- C46. Coherency of a BDS 6,0 message: some parameter is available, the unavailable ones are zero, indicated airspeed at
most 500 kt, Mach at most 1, vertical rates at most 6000 ft/min. -/
theorem bds60_coherent (m : HeadingAndTrackReport) (d : List UInt8) (h : readBDS60 d = .ok m) :
    (m.coherent = true ↔
      (m.magneticHeadingStatus ∨ m.indicatedAirSpeedStatus ∨ m.machStatus ∨ m.barometricAltitudeRateStatus ∨
        m.initialVerticalVelocityStatus) ∧
      (m.magneticHeadingStatus = false → m.magneticHeading = 0) ∧
      (m.indicatedAirSpeedStatus = false → m.indicatedAirSpeed = 0) ∧ (m.machStatus = false → m.mach = 0) ∧
      (m.barometricAltitudeRateStatus = false → m.barometricAltitudeRate = 0) ∧
      (m.initialVerticalVelocityStatus = false → m.initialVerticalVelocity = 0) ∧
      m.indicatedAirSpeed.toNat ≤ 500 ∧ m.mach ≤ 1 ∧ |m.barometricAltitudeRate| ≤ 6000 ∧
      |m.initialVerticalVelocity| ≤ 6000) ∧
    (m.coherent = true ↔ Coherent60 d) := by
  have first : m.coherent = true ↔
      (m.magneticHeadingStatus ∨ m.indicatedAirSpeedStatus ∨ m.machStatus ∨ m.barometricAltitudeRateStatus ∨
        m.initialVerticalVelocityStatus) ∧
      (m.magneticHeadingStatus = false → m.magneticHeading = 0) ∧
      (m.indicatedAirSpeedStatus = false → m.indicatedAirSpeed = 0) ∧ (m.machStatus = false → m.mach = 0) ∧
      (m.barometricAltitudeRateStatus = false → m.barometricAltitudeRate = 0) ∧
      (m.initialVerticalVelocityStatus = false → m.initialVerticalVelocity = 0) ∧
      m.indicatedAirSpeed.toNat ≤ 500 ∧ m.mach ≤ 1 ∧ |m.barometricAltitudeRate| ≤ 6000 ∧
      |m.initialVerticalVelocity| ≤ 6000 := by
    unfold HeadingAndTrackReport.coherent
    simp only [ite_chain, ite_last, and_true, any5, ne_eq, avail_zero, not_or, not_lt, u32_gt, gt_iff_lt, UInt32.reduceToNat, abs_le]
  refine ⟨first, ?_⟩
  rw [first]
  have hl := bds60_content d m h
  rw [u32_eq, hl.magneticHeadingStatus, hl.indicatedAirSpeedStatus, hl.machStatus, hl.barometricAltitudeRateStatus,
    hl.initialVerticalVelocityStatus, hl.magneticHeading, hl.indicatedAirSpeed, hl.barometricAltitudeRate,
    hl.initialVerticalVelocity, hl.mach_one, hl.mach_zero]
  unfold Coherent60
  have z1 (x : ℤ) (k : ℚ) (hk : k ≠ 0) : (x : ℚ) * k = 0 ↔ x = 0 := by
    rw [mul_eq_zero, or_iff_left hk, Int.cast_eq_zero]
  have z2 (x : ℤ) : x * 32 = 0 ↔ x = 0 := by omega
  have z3 (x : ℤ) : |x * 32| ≤ 6000 ↔ (-187 ≤ x ∧ x ≤ 187) := by rw [abs_le]; omega
  rw [z1 _ _ (by norm_num), z2, z2, z3, z3]
  simp only [UInt32.toNat_zero]

/-- A track and turn report and a heading and speed report (live captures): coherent. -/
example : Coherent50 [0x81, 0x95, 0x15, 0x36, 0xE0, 0x24, 0xD4] := by decide
example : Coherent60 [0xA7, 0x49, 0x0B, 0x1B, 0xA0, 0x04, 0x00] := by decide

end Modes
