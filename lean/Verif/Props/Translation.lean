import Verif.Props.TranslationFields
import Verif.Lemmas.Float
import Mathlib.Tactic.NormNum
import Mathlib.Tactic.SplitIfs
namespace Modes

/-- Both sides read the same byte first. -/
theorem idx_bind_congr {α β : Type} (s : List α) (i : Nat) {f g : α → Go β} (h : ∀ a, f a = g a) :
    (idx s i >>= f) = (idx s i >>= g) := by
  cases idx s i <;> simp [bind, Except.bind, h]

/-- Both sides read the same bytes in the same order. -/
macro "same_reads" : tactic =>
  `(tactic| (simp only [translated]; repeat (with_reducible refine idx_bind_congr _ _ fun _ => ?_)))

theorem decide_zero (a : UInt8) : decide (a = 0) = !(a != 0) := by cases h : decide (a = 0) <;> simp_all

@[translated] theorem same_ReadARAOneThreat : @Gen.acas.ra.fields.ReadARAOneThreatOrSameSeparation = @readOneThreat := by
  funext d; unfold Gen.acas.ra.fields.ReadARAOneThreatOrSameSeparation readOneThreat
  cases h : idx d 0 <;> simp [bind, Except.bind, pure, Except.pure]
  refine ⟨?_, ?_, ?_⟩ <;> exact decide_zero _

theorem verticalRate_pure (n : Bool) (r : Int) :
    (if r = 0 then (pure (0, .noInformation) : Go (Int × NumericValueStatus))
      else if r ≥ 511 then (if n then pure (-32640, .maximum) else pure (32640, .maximum))
      else pure (if n then wrap16 (-(wrap16 (wrap16 (r - 1) * 64))) else wrap16 (wrap16 (r - 1) * 64), .regular)) =
    pure (verticalRateOf n r) := by
  unfold verticalRateOf
  by_cases h0 : r = 0
  · simp [h0]
  by_cases h1 : r ≥ 511
  · simp only [h0, h1, if_true, if_false]; cases n <;> rfl
  · simp only [h0, h1, if_false]

@[translated] theorem same_ReadVerticalRate : @Gen.bds.bds09.fields.ReadVerticalRate = @readVerticalRate := by
  funext d; unfold Gen.bds.bds09.fields.ReadVerticalRate readVerticalRate; same_reads
  exact verticalRate_pure _ _

@[translated] theorem same_ReadHeightDifference : @Gen.bds.bds09.fields.ReadHeightDifference = @readHeightDifference := by
  funext d; unfold Gen.bds.bds09.fields.ReadHeightDifference readHeightDifference; same_reads
  simp only [heightDifferenceOf]; split_ifs <;> rfl

@[translated] theorem same_getSpeed (m : Nat) : Gen.bds.bds06.fields.MovementStatus.getSpeed m = movementGetSpeed m := by
  unfold Gen.bds.bds06.fields.MovementStatus.getSpeed movementGetSpeed
  have h0 : ((m : Int) = 0) ↔ m = 0 := by omega
  have h1 : ((m : Int) = 1) ↔ m = 1 := by omega
  simp only [or_assoc, h0, h1, gt_iff_lt, Nat.ofNat_lt_cast, Nat.ofNat_le_cast, Nat.cast_le_ofNat]
  split_ifs <;> norm_num

@[translated] theorem same_ReadMovement : @Gen.bds.bds06.fields.ReadMovement = @readMovement := by
  funext m; unfold Gen.bds.bds06.fields.ReadMovement readMovement; same_reads

@[translated] theorem same_ReadTargetAltitude : @Gen.bds.bds62.fields.ReadTargetAltitude = @readTargetAltitude := by
  funext d; unfold Gen.bds.bds62.fields.ReadTargetAltitude readTargetAltitude; same_reads
  simp only [targetAltitudeOf]; split_ifs <;> simp_all

@[translated] theorem same_ReadBarometricPressureSetting :
    @Gen.bds.bds62.fields.ReadBarometricPressureSetting = @readBarometricPressureSetting62 := by
  funext d; unfold Gen.bds.bds62.fields.ReadBarometricPressureSetting readBarometricPressureSetting62; same_reads
  rename_i a b; simp only [barometricPressureOf]
  by_cases h0 : pack2 (a &&& 15) (b &&& 248) >>> 3 = 0
  · simp [h0]
  · simp [h0]; norm_num

@[translated] theorem same_ReadSelectedHeading (d : List UInt8) :
    Gen.bds.bds62.fields.ReadSelectedHeading d = (readSelectedHeading d).map fun r => ((r.1, r.2.1), r.2.2) := by
  unfold Gen.bds.bds62.fields.ReadSelectedHeading readSelectedHeading
  cases h3 : idx d 3 with
  | error e => rfl
  | ok a =>
    cases h4 : idx d 4 with
    | error e => rfl
    | ok b =>
      simp only [bind, Except.bind, pure, Except.pure, Except.map, selectedHeadingOf, translated]
      cases (a &&& 2 != 0) <;> rfl

@[translated] theorem same_StaticAirTemperature44V0 : @Gen.bds.bds44.fields.ReadStaticAirTemperatureV0 = @readStaticAirTemperature44V0 := by
  funext d; unfold Gen.bds.bds44.fields.ReadStaticAirTemperatureV0 readStaticAirTemperature44V0; same_reads
  simp only [temperatureOf, bne_iff_ne]

@[translated] theorem same_StaticAirTemperature44 : @Gen.bds.bds44.fields.ReadStaticAirTemperatureV1AndV2 = @readStaticAirTemperature44 := by
  funext d; unfold Gen.bds.bds44.fields.ReadStaticAirTemperatureV1AndV2 readStaticAirTemperature44; same_reads
  simp only [temperatureOf, bne_iff_ne]

@[translated] theorem same_StaticAirTemperature45V0 : @Gen.bds.bds45.fields.ReadStaticAirTemperatureV0 = @readStaticAirTemperature45V0 := by
  funext d; unfold Gen.bds.bds45.fields.ReadStaticAirTemperatureV0 readStaticAirTemperature45V0; same_reads
  simp only [temperatureOf, bne_iff_ne]

@[translated] theorem same_StaticAirTemperature45V1 : @Gen.bds.bds45.fields.ReadStaticAirTemperatureV1 = @readStaticAirTemperature45V1 := by
  funext d; unfold Gen.bds.bds45.fields.ReadStaticAirTemperatureV1 readStaticAirTemperature45V1; same_reads
  simp only [temperatureOf, bne_iff_ne]

@[translated] theorem same_ReadTurbulence45V1 : @Gen.bds.bds45.fields.ReadTurbulenceV1 = @readTurbulence45V1 := by
  funext d; unfold Gen.bds.bds45.fields.ReadTurbulenceV1 readTurbulence45V1
  cases h4 : idx d 4 <;> cases h5 : idx d 5 <;> cases h6 : idx d 6 <;>
    norm_num [bind, Except.bind, pure, Except.pure, edrOf, translated]

theorem sign_bit (a : UInt8) : ((a &&& 64) >>> 6 ≠ 0) ↔ a &&& 64 ≠ 0 := by
  cases a with | ofBitVec a => revert a; decide

@[translated] theorem same_ReadRollAngle : @Gen.bds.bds50.fields.ReadRollAngle = @readRollAngle := by
  funext d; unfold Gen.bds.bds50.fields.ReadRollAngle readRollAngle; same_reads
  simp only [signedF32, bne_iff_ne, sign_bit]

@[translated] theorem same_ReadTrackAngleRate : @Gen.bds.bds50.fields.ReadTrackAngleRate = @readTrackAngleRate := by
  funext d; unfold Gen.bds.bds50.fields.ReadTrackAngleRate readTrackAngleRate; same_reads
  simp only [signedF32, bne_iff_ne]

@[translated] theorem same_ReadTrueTrackAngle : @Gen.bds.bds50.fields.ReadTrueTrackAngle = @readTrueTrackAngle := by
  funext d; unfold Gen.bds.bds50.fields.ReadTrueTrackAngle readTrueTrackAngle; same_reads
  simp only [signedF32, bne_iff_ne]

@[translated] theorem same_ReadMagneticHeading : @Gen.bds.bds60.fields.ReadMagneticHeading = @readMagneticHeading60 := by
  funext d; unfold Gen.bds.bds60.fields.ReadMagneticHeading readMagneticHeading60; same_reads
  simp only [signedF32, bne_iff_ne]

@[translated] theorem same_ReadBarometricAltitudeRate : @Gen.bds.bds60.fields.ReadBarometricAltitudeRate = @readBarometricAltitudeRate60 := by
  funext d; unfold Gen.bds.bds60.fields.ReadBarometricAltitudeRate readBarometricAltitudeRate60; same_reads
  simp only [signedInt, bne_iff_ne]

theorem inertialVelocity_eq (x : UInt8) (n : Nat) :
    (if x ≠ 0 then Int.tdiv ((n : Int) * 8192) 256 - 16384 else Int.tdiv ((n : Int) * 8192) 256) =
    inertialVelocityOf (x != 0) n := by
  unfold inertialVelocityOf; by_cases h : x = 0 <;> simp [h]

@[translated] theorem same_ReadInertialVerticalVelocity : @Gen.bds.bds60.fields.ReadInertialVerticalVelocity = @readInertialVerticalVelocity := by
  funext d; unfold Gen.bds.bds60.fields.ReadInertialVerticalVelocity readInertialVerticalVelocity
  repeat (with_reducible refine idx_bind_congr _ _ fun _ => ?_)
  rw [same_bitutils_Pack2Bytes]; exact congrArg (fun v => pure (_, v)) (inertialVelocity_eq _ _)

@[translated] theorem same_ReadMach : @Gen.bds.bds60.fields.ReadMach = @readMach := by
  funext d; unfold Gen.bds.bds60.fields.ReadMach readMach; same_reads
  simp only [machOf]; norm_num

/-- Same reads, same tests, same results. -/
macro "go_same" : tactic => `(tactic| (simp only [translated, bind, Except.bind, pure, Except.pure, fail, ne_eq]; (repeat' (first | rfl | split)) <;> simp_all))

@[translated] theorem same_acas_ra_fields_ReadARAMultipleThreatsDifferentSeparation : @Gen.acas.ra.fields.ReadARAMultipleThreatsDifferentSeparation = @readMultipleThreats := by
  funext d; unfold Gen.acas.ra.fields.ReadARAMultipleThreatsDifferentSeparation readMultipleThreats; go_same

@[translated] theorem same_acas_ra_fields_ReadRAComplement : @Gen.acas.ra.fields.ReadRAComplement = @readRAComplement := by
  funext d; unfold Gen.acas.ra.fields.ReadRAComplement readRAComplement; go_same

@[translated] theorem same_bds_bds62_fields_ReadTargetHeadingTrackAngle : @Gen.bds.bds62.fields.ReadTargetHeadingTrackAngle = @readTargetHeadingTrackAngle := by
  funext d; unfold Gen.bds.bds62.fields.ReadTargetHeadingTrackAngle readTargetHeadingTrackAngle; go_same

@[translated] theorem same_bds_bds62_fields_ReadSelectedAltitude : @Gen.bds.bds62.fields.ReadSelectedAltitude = @readSelectedAltitude := by
  funext d; unfold Gen.bds.bds62.fields.ReadSelectedAltitude readSelectedAltitude; go_same

@[translated] theorem same_modes_fields_ReadUtilityMessage : @Gen.modes.fields.ReadUtilityMessage = @readUtilityMessage := by
  funext d; unfold Gen.modes.fields.ReadUtilityMessage readUtilityMessage; go_same

/-- Reading a byte gives the byte or panics. -/
theorem idx_cases {α : Type} (s : List α) (i : Nat) : idx s i = .error .panic ∨ ∃ v, idx s i = .ok v := by
  unfold idx; cases s[i]? <;> simp [goPanic]

@[translated] theorem same_ReadActiveResolutionAdvisory :
    @Gen.acas.ra.fields.ReadActiveResolutionAdvisory = @readActiveRA := by
  funext d; unfold Gen.acas.ra.fields.ReadActiveResolutionAdvisory readActiveRA; same_reads

theorem orIf16_eq (r : UInt16) (b : Bool) (m : UInt16) : (if b then r ||| m else r) = orIf16 r b m := rfl

theorem tmod_two (n : Nat) : Int.tmod (n : Int) 2 = (n : Int) % 2 := Int.tmod_eq_emod_of_nonneg (by omega)

@[translated] theorem same_GillhamToAltitude : @Gen.bitutils.GillhamToAltitude = @gillhamToAltitude := by
  funext d1 d2 d4 a1 a2 a4 b1 b2 b4 c1 c2 c4
  unfold Gen.bitutils.GillhamToAltitude gillhamToAltitude
  simp only [translated, orIf16_eq, or_assoc, tmod_two]
  generalize (grayToBinary (orIf16 (orIf16 (orIf16 0 c1 4) c2 2) c4 1)).toNat = h
  split <;> rfl

@[translated] theorem same_ReadThreatIdentityAltitude :
    @Gen.acas.ra.fields.ReadThreatIdentityAltitude = @readThreatAltitude := by
  funext d; unfold Gen.acas.ra.fields.ReadThreatIdentityAltitude readThreatAltitude
  simp only [translated]
  rcases idx_cases d 2 with h2 | ⟨_, h2⟩ <;> rcases idx_cases d 3 with h3 | ⟨_, h3⟩ <;>
    rcases idx_cases d 4 with h4 | ⟨_, h4⟩ <;> rw [h2, h3, h4] <;> rfl

theorem f64_byte (r : UInt8) : f64 (r.toNat : ℚ) = (r.toNat : ℚ) := by
  have := r.toNat_lt; exact_mod_cast f64_int r.toNat (by rw [abs_le]; omega)

@[translated] theorem same_GetRange : @Gen.acas.ra.fields.ThreatIdentityRange.GetRange = @getRange := by
  funext r; unfold Gen.acas.ra.fields.ThreatIdentityRange.GetRange getRange
  rw [f64_byte]; norm_num

theorem same_ReadGPSAntenna (d : List UInt8) : Gen.bds.bds65.fields.ReadGPSAntenna d =
    (do let a ← readGPSAntennaLateral d; let b ← readGPSAntennaLongitudinal d; pure (a, b)) := by
  unfold Gen.bds.bds65.fields.ReadGPSAntenna; simp only [translated]

@[translated] theorem same_ReadSurfaceOperationalMode :
    @Gen.bds.bds65.fields.ReadSurfaceOperationalMode = @readSurfaceOperationalMode := by
  funext d; unfold Gen.bds.bds65.fields.ReadSurfaceOperationalMode readSurfaceOperationalMode
  simp only [translated, same_ReadGPSAntenna, readGPSAntennaLateral, readGPSAntennaLongitudinal]
  rcases idx_cases d 4 with h | ⟨_, h⟩ <;> rw [h] <;> rfl

@[translated] theorem same_ReadAltitude : @Gen.modes.fields.ReadAltitude = @readAltitude := by
  funext d; unfold Gen.modes.fields.ReadAltitude readAltitude; same_reads
  split
  · rfl
  split
  · rfl
  split
  · rfl
  · generalize gillhamToAltitude _ _ _ _ _ _ _ _ _ _ _ _ = r
    rcases r with (_ | _) | _ <;> rfl

end Modes
