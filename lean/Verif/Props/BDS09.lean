import Verif.Model.BDS09
import Verif.Lemmas.Register
import Verif.Lemmas.Float
/-!
# C32-C34: airborne velocity

Bits: 1-5 type code 19, 6-8 subtype, 9 intent change, 10 IFR capability, 11-13 navigation uncertainty. Subtypes 1 and 2: 14
east/west, 15-24 EW velocity, 25 north/south, 26-35 NS velocity. Subtypes 3 and 4: 14 heading status, 15-24 heading, 25
airspeed type, 26-35 airspeed. All: 36 vertical rate source, 37 its sign, 38-46 vertical rate, 49 sign and 50-56 value of
the height difference.
-/
set_option linter.unusedSimpArgs false
open Spec
namespace Spec
open Modes

/-- The coding of a speed of `n` bits value `v` in steps of `k` knots: 0 no information, the all-ones code the maximum
(reported as `top`), otherwise `k (v - 1)` knots. -/
def SpeedCoding (v k top : Nat) (value : Nat) (status : NumericValueStatus) : Prop :=
  (v = 0 ∧ status = .noInformation ∧ value = 0) ∨
  (v = 1023 ∧ status = .maximum ∧ value = top) ∨
  (1 ≤ v ∧ v ≤ 1022 ∧ status = .regular ∧ value + k = k * v)

/-- The coding of a signed quantity: sign bit `neg`, magnitude code `v` with all-ones value `ones`, steps of `k` units. -/
def SignedCoding (neg : Bool) (v ones k top : Nat) (value : Int) (status : NumericValueStatus) : Prop :=
  (v = 0 ∧ status = .noInformation ∧ value = 0) ∨
  (v = ones ∧ status = .maximum ∧ value = (if neg then -(top : Int) else top)) ∨
  (1 ≤ v ∧ v < ones ∧ status = .regular ∧ value = (if neg then -((v : Int) - 1) * k else ((v : Int) - 1) * k))

end Spec
namespace Modes

theorem ew_normal_eval (b0 b1 b2 b3 b4 b5 b6 : UInt8) : ∃ v s,
    readVelocityEWNormal [b0, b1, b2, b3, b4, b5, b6] = .ok (v, s) ∧
    SpeedCoding (bits [b0, b1, b2, b3, b4, b5, b6] 15 24) 1 1023 v.toNat s := by
  have e : (pack2 (b1 &&& 3) b2).toNat = bits [b0, b1, b2, b3, b4, b5, b6] 15 24 := by byte_omega
  have hl : bits [b0, b1, b2, b3, b4, b5, b6] 15 24 < 1024 := by unfold bits; exact Nat.mod_lt _ (by decide)
  unfold readVelocityEWNormal SpeedCoding
  go_run []
  generalize pack2 (b1 &&& 3) b2 = x at e
  simp only [u16_eq, u16_ge, e, UInt16.reduceToNat]
  split
  · exact ⟨_, _, rfl, Or.inl ⟨by assumption, rfl, rfl⟩⟩
  · split
    · exact ⟨_, _, rfl, Or.inr (Or.inl ⟨by omega, rfl, rfl⟩)⟩
    · exact ⟨_, _, rfl, Or.inr (Or.inr ⟨by omega, by omega, rfl, by
        simp only [UInt16.toNat_sub, e, UInt16.reduceToNat]; omega⟩)⟩

theorem ew_supersonic_eval (b0 b1 b2 b3 b4 b5 b6 : UInt8) : ∃ v s,
    readVelocityEWSupersonic [b0, b1, b2, b3, b4, b5, b6] = .ok (v, s) ∧
    SpeedCoding (bits [b0, b1, b2, b3, b4, b5, b6] 15 24) 4 4088 v.toNat s := by
  have e : (pack2 (b1 &&& 3) b2).toNat = bits [b0, b1, b2, b3, b4, b5, b6] 15 24 := by byte_omega
  have hl : bits [b0, b1, b2, b3, b4, b5, b6] 15 24 < 1024 := by unfold bits; exact Nat.mod_lt _ (by decide)
  unfold readVelocityEWSupersonic SpeedCoding
  go_run []
  generalize pack2 (b1 &&& 3) b2 = x at e
  simp only [u16_eq, u16_ge, e, UInt16.reduceToNat]
  split
  · exact ⟨_, _, rfl, Or.inl ⟨by assumption, rfl, rfl⟩⟩
  · split
    · exact ⟨_, _, rfl, Or.inr (Or.inl ⟨by omega, rfl, rfl⟩)⟩
    · exact ⟨_, _, rfl, Or.inr (Or.inr ⟨by omega, by omega, rfl, by
        simp only [UInt16.toNat_sub, UInt16.toNat_mul, e, UInt16.reduceToNat]; omega⟩)⟩

theorem ns_normal_eval (b0 b1 b2 b3 b4 b5 b6 : UInt8) : ∃ v s,
    readVelocityNSNormal [b0, b1, b2, b3, b4, b5, b6] = .ok (v, s) ∧
    SpeedCoding (bits [b0, b1, b2, b3, b4, b5, b6] 26 35) 1 1023 v.toNat s := by
  have e : (pack2 (b3 &&& 127) (b4 &&& 224) >>> 5).toNat = bits [b0, b1, b2, b3, b4, b5, b6] 26 35 := by byte_omega
  have hl : bits [b0, b1, b2, b3, b4, b5, b6] 26 35 < 1024 := by unfold bits; exact Nat.mod_lt _ (by decide)
  unfold readVelocityNSNormal SpeedCoding
  go_run []
  generalize pack2 (b3 &&& 127) (b4 &&& 224) >>> 5 = x at e
  simp only [u16_eq, u16_ge, e, UInt16.reduceToNat]
  split
  · exact ⟨_, _, rfl, Or.inl ⟨by assumption, rfl, rfl⟩⟩
  · split
    · exact ⟨_, _, rfl, Or.inr (Or.inl ⟨by omega, rfl, rfl⟩)⟩
    · exact ⟨_, _, rfl, Or.inr (Or.inr ⟨by omega, by omega, rfl, by
        simp only [UInt16.toNat_sub, e, UInt16.reduceToNat]; omega⟩)⟩

theorem ns_supersonic_eval (b0 b1 b2 b3 b4 b5 b6 : UInt8) : ∃ v s,
    readVelocityNSSupersonic [b0, b1, b2, b3, b4, b5, b6] = .ok (v, s) ∧
    SpeedCoding (bits [b0, b1, b2, b3, b4, b5, b6] 26 35) 4 4088 v.toNat s := by
  have e : (pack2 (b3 &&& 127) (b4 &&& 224) >>> 5).toNat = bits [b0, b1, b2, b3, b4, b5, b6] 26 35 := by byte_omega
  have hl : bits [b0, b1, b2, b3, b4, b5, b6] 26 35 < 1024 := by unfold bits; exact Nat.mod_lt _ (by decide)
  unfold readVelocityNSSupersonic SpeedCoding
  go_run []
  generalize pack2 (b3 &&& 127) (b4 &&& 224) >>> 5 = x at e
  simp only [u16_eq, u16_ge, e, UInt16.reduceToNat]
  split
  · exact ⟨_, _, rfl, Or.inl ⟨by assumption, rfl, rfl⟩⟩
  · split
    · exact ⟨_, _, rfl, Or.inr (Or.inl ⟨by omega, rfl, rfl⟩)⟩
    · exact ⟨_, _, rfl, Or.inr (Or.inr ⟨by omega, by omega, rfl, by
        simp only [UInt16.toNat_sub, UInt16.toNat_mul, e, UInt16.reduceToNat]; omega⟩)⟩

theorem verticalRateOf_coding (neg : Bool) (n : Nat) (hl : n < 512) :
    SignedCoding neg n 511 64 32640 (verticalRateOf neg (wrap16 n)).1 (verticalRateOf neg (wrap16 n)).2 := by
  have e : wrap16 (n : Int) = n := by unfold wrap16; omega
  rw [e]
  unfold verticalRateOf SignedCoding
  by_cases h0 : (n : Int) = 0
  · rw [if_pos h0]
    exact Or.inl ⟨by omega, rfl, rfl⟩
  rw [if_neg h0]
  by_cases h1 : (n : Int) ≥ 511
  · rw [if_pos h1]
    exact Or.inr (Or.inl ⟨by omega, rfl, by cases neg <;> simp⟩)
  rw [if_neg h1]
  refine Or.inr (Or.inr ⟨by omega, by omega, rfl, ?_⟩)
  cases neg
  · simp only [Bool.false_eq_true, if_false]; unfold wrap16; omega
  · simp only [if_true]; unfold wrap16; omega

theorem vertical_rate_eval (b0 b1 b2 b3 b4 b5 b6 : UInt8) : ∃ v s,
    readVerticalRate [b0, b1, b2, b3, b4, b5, b6] = .ok (v, s) ∧
    SignedCoding (bit [b0, b1, b2, b3, b4, b5, b6] 37) (bits [b0, b1, b2, b3, b4, b5, b6] 38 46) 511 64 32640 v s := by
  have e : (pack2 (b4 &&& 7) (b5 &&& 252) >>> 2).toNat = bits [b0, b1, b2, b3, b4, b5, b6] 38 46 := by byte_omega
  have hl : bits [b0, b1, b2, b3, b4, b5, b6] 38 46 < 512 := by unfold bits; exact Nat.mod_lt _ (by decide)
  have en : ((b4 &&& 8) != 0) = bit [b0, b1, b2, b3, b4, b5, b6] 37 := by byte_flag
  unfold readVerticalRate
  go_run []
  generalize pack2 (b4 &&& 7) (b5 &&& 252) >>> 2 = x at e
  generalize ((b4 &&& 8) != 0) = y at en
  rw [← e] at hl
  rw [← e, ← en]
  exact ⟨(verticalRateOf y (wrap16 x.toNat)).1, (verticalRateOf y (wrap16 x.toNat)).2, by rw [Prod.mk.eta], verticalRateOf_coding y x.toNat hl⟩

theorem heightDifferenceOf_coding (neg : Bool) (n : Nat) (hl : n < 128) :
    SignedCoding neg n 127 25 3150 (heightDifferenceOf neg (wrap16 n)).1 (heightDifferenceOf neg (wrap16 n)).2 := by
  have e : wrap16 (n : Int) = n := by unfold wrap16; omega
  rw [e]
  unfold heightDifferenceOf SignedCoding
  by_cases h0 : (n : Int) = 0
  · rw [if_pos h0]
    exact Or.inl ⟨by omega, rfl, rfl⟩
  rw [if_neg h0]
  by_cases h1 : (n : Int) ≥ 127
  · rw [if_pos h1]
    exact Or.inr (Or.inl ⟨by omega, rfl, by cases neg <;> simp⟩)
  rw [if_neg h1]
  refine Or.inr (Or.inr ⟨by omega, by omega, rfl, ?_⟩)
  cases neg
  · simp only [Bool.false_eq_true, if_false]; unfold wrap16; omega
  · simp only [if_true]; unfold wrap16; omega

theorem height_difference_eval (b0 b1 b2 b3 b4 b5 b6 : UInt8) : ∃ v s,
    readHeightDifference [b0, b1, b2, b3, b4, b5, b6] = .ok (v, s) ∧
    SignedCoding (bit [b0, b1, b2, b3, b4, b5, b6] 49) (bits [b0, b1, b2, b3, b4, b5, b6] 50 56) 127 25 3150 v s := by
  have e : (b6 &&& 127).toNat = bits [b0, b1, b2, b3, b4, b5, b6] 50 56 := by byte_omega
  have hl : bits [b0, b1, b2, b3, b4, b5, b6] 50 56 < 128 := by unfold bits; exact Nat.mod_lt _ (by decide)
  have en : ((b6 &&& 128) != 0) = bit [b0, b1, b2, b3, b4, b5, b6] 49 := by byte_flag
  unfold readHeightDifference
  go_run []
  generalize b6 &&& 127 = x at e
  generalize ((b6 &&& 128) != 0) = y at en
  rw [← e] at hl
  rw [← e, ← en]
  exact ⟨(heightDifferenceOf y (wrap16 x.toNat)).1, (heightDifferenceOf y (wrap16 x.toNat)).2, by rw [Prod.mk.eta], heightDifferenceOf_coding y x.toNat hl⟩

theorem heading09_eval (b0 b1 b2 b3 b4 b5 b6 : UInt8) : ∃ s,
    readMagneticHeading09 [b0, b1, b2, b3, b4, b5, b6] =
      .ok ((bits [b0, b1, b2, b3, b4, b5, b6] 15 24 : ℚ) * (360 / 1024), s) ∧
    s.toNat = bits [b0, b1, b2, b3, b4, b5, b6] 14 14 := by
  have e : (pack2 (b1 &&& 3) b2).toNat = bits [b0, b1, b2, b3, b4, b5, b6] 15 24 := by byte_omega
  have hl : bits [b0, b1, b2, b3, b4, b5, b6] 15 24 < 1024 := by unfold bits; exact Nat.mod_lt _ (by decide)
  have es : ((b1 &&& 4) >>> 2).toNat = bits [b0, b1, b2, b3, b4, b5, b6] 14 14 := by byte_omega
  unfold readMagneticHeading09
  go_run [e]
  generalize bits [b0, b1, b2, b3, b4, b5, b6] 15 24 = n at hl
  refine ⟨_, ?_, es⟩
  have e1 : f64 (n : ℚ) = n := by
    have := f64_int (n : ℤ) (by rw [abs_of_nonneg (by omega)]; omega)
    exact_mod_cast this
  have e2 : f64 ((n : ℚ) * 360) = n * 360 := by
    have := f64_int ((n : ℤ) * 360) (by rw [abs_of_nonneg (by omega)]; omega)
    push_cast at this; exact this
  have e3 : f64 ((n : ℚ) * 360 / 1024) = n * 360 / 1024 :=
    f64_exact _ ((n : ℤ) * 360) 10 (by push_cast; norm_num) (by rw [abs_of_nonneg (by omega)]; omega)
  have e4 : f32 ((n : ℚ) * 360 / 1024) = n * 360 / 1024 :=
    f32_exact _ ((n : ℤ) * 360) 10 (by push_cast; norm_num) (by rw [abs_of_nonneg (by omega)]; omega)
  rw [e1, e2, e3, e4]
  congr 2
  ring

/-- What every velocity message that was read contains, whatever its subtype. -/
structure VelocityCommon (d : List UInt8) (ftc sub ic ifr nuc vrs : UInt8) (vrStatus : NumericValueStatus) (vr : Int)
    (hdStatus : NumericValueStatus) (hd : Int) : Prop where
  ftc : ftc.toNat = bits d 1 5
  sub : sub.toNat = bits d 6 8
  ic : ic.toNat = bits d 9 9
  ifr : ifr.toNat = bits d 10 10
  nuc : nuc.toNat = bits d 11 13
  vrs : vrs.toNat = bits d 36 36
  vr : SignedCoding (bit d 37) (bits d 38 46) 511 64 32640 vr vrStatus
  hd : SignedCoding (bit d 49) (bits d 50 56) 127 25 3150 hd hdStatus

/-- The specification of a ground speed message with unit `k`. -/
def GroundSpec (d : List UInt8) (k top : Nat) (m : GroundSpeedVelocity) : Prop :=
  VelocityCommon d m.formatTypeCode m.subtype m.intentChange m.ifrCapability m.navigationUncertaintyCategory
    m.verticalRateSource m.verticalRateStatus m.verticalRate m.heightDifferenceStatus m.heightDifference ∧
  m.directionEastWest.toNat = bits d 14 14 ∧
  SpeedCoding (bits d 15 24) k top m.velocityEW.toNat m.velocityEWStatus ∧
  m.directionNorthSouth.toNat = bits d 25 25 ∧
  SpeedCoding (bits d 26 35) k top m.velocityNS.toNat m.velocityNSStatus

/-- The specification of an airspeed message with unit `k`. -/
def AirSpec (d : List UInt8) (k top : Nat) (m : AirSpeedVelocity) : Prop :=
  VelocityCommon d m.formatTypeCode m.subtype m.intentChange m.ifrCapability m.navigationUncertaintyCategory
    m.verticalRateSource m.verticalRateStatus m.verticalRate m.heightDifferenceStatus m.heightDifference ∧
  m.magneticHeadingStatus.toNat = bits d 14 14 ∧
  m.magneticHeading = bits d 15 24 * (360 / 1024) ∧
  SpeedCoding (bits d 26 35) k top m.airspeed.toNat m.airspeedStatus


theorem readGroundSpeedNormal_eval (b0 b1 b2 b3 b4 b5 b6 : UInt8) (h19 : bits [b0, b1, b2, b3, b4, b5, b6] 1 5 = 19)
    (hsub : bits [b0, b1, b2, b3, b4, b5, b6] 6 8 = 1) :
    ∃ m, readGroundSpeedNormal [b0, b1, b2, b3, b4, b5, b6] = .ok m ∧ GroundSpec [b0, b1, b2, b3, b4, b5, b6] 1 1023 m := by
  obtain ⟨ew, ewS, hew, cew⟩ := ew_normal_eval b0 b1 b2 b3 b4 b5 b6
  obtain ⟨ns, nsS, hns, cns⟩ := ns_normal_eval b0 b1 b2 b3 b4 b5 b6
  obtain ⟨vr, vrS, hvr, cvr⟩ := vertical_rate_eval b0 b1 b2 b3 b4 b5 b6
  obtain ⟨hd, hdS, hhd, chd⟩ := height_difference_eval b0 b1 b2 b3 b4 b5 b6
  have f1 : ((b0 &&& 248) >>> 3).toNat = bits [b0, b1, b2, b3, b4, b5, b6] 1 5 := by byte_omega
  have f2 : (b0 &&& 7).toNat = bits [b0, b1, b2, b3, b4, b5, b6] 6 8 := by byte_omega
  have f3 : ((b1 &&& 128) >>> 7).toNat = bits [b0, b1, b2, b3, b4, b5, b6] 9 9 := by byte_omega
  have f4 : ((b1 &&& 64) >>> 6).toNat = bits [b0, b1, b2, b3, b4, b5, b6] 10 10 := by byte_omega
  have f5 : ((b1 &&& 56) >>> 3).toNat = bits [b0, b1, b2, b3, b4, b5, b6] 11 13 := by byte_omega
  have f6 : ((b1 &&& 4) >>> 2).toNat = bits [b0, b1, b2, b3, b4, b5, b6] 14 14 := by byte_omega
  have f7 : ((b3 &&& 128) >>> 7).toNat = bits [b0, b1, b2, b3, b4, b5, b6] 25 25 := by byte_omega
  have f8 : ((b4 &&& 16) >>> 4).toNat = bits [b0, b1, b2, b3, b4, b5, b6] 36 36 := by byte_omega
  have g1 : ((b0 &&& 248) >>> 3 = 19) := by rw [u8_eq, f1, h19]; rfl
  have g2 : (b0 &&& 7 = 1) := by rw [u8_eq, f2, hsub]; rfl
  unfold readGroundSpeedNormal
    readFormatTypeCode readSubtype09 readIntentChange readIFRCapability readNUC readDirectionEW readDirectionNS
    readVerticalRateSource
  go_run [hew, hns, hvr, hhd, g1, g2]
  rw [g1] at f1
  rw [g2] at f2
  exact ⟨_, rfl, ⟨f1, f2, f3, f4, f5, f8, cvr, chd⟩, f6, cew, f7, cns⟩

theorem readGroundSpeedSupersonic_eval (b0 b1 b2 b3 b4 b5 b6 : UInt8) (h19 : bits [b0, b1, b2, b3, b4, b5, b6] 1 5 = 19)
    (hsub : bits [b0, b1, b2, b3, b4, b5, b6] 6 8 = 2) :
    ∃ m, readGroundSpeedSupersonic [b0, b1, b2, b3, b4, b5, b6] = .ok m ∧ GroundSpec [b0, b1, b2, b3, b4, b5, b6] 4 4088 m := by
  obtain ⟨ew, ewS, hew, cew⟩ := ew_supersonic_eval b0 b1 b2 b3 b4 b5 b6
  obtain ⟨ns, nsS, hns, cns⟩ := ns_supersonic_eval b0 b1 b2 b3 b4 b5 b6
  obtain ⟨vr, vrS, hvr, cvr⟩ := vertical_rate_eval b0 b1 b2 b3 b4 b5 b6
  obtain ⟨hd, hdS, hhd, chd⟩ := height_difference_eval b0 b1 b2 b3 b4 b5 b6
  have f1 : ((b0 &&& 248) >>> 3).toNat = bits [b0, b1, b2, b3, b4, b5, b6] 1 5 := by byte_omega
  have f2 : (b0 &&& 7).toNat = bits [b0, b1, b2, b3, b4, b5, b6] 6 8 := by byte_omega
  have f3 : ((b1 &&& 128) >>> 7).toNat = bits [b0, b1, b2, b3, b4, b5, b6] 9 9 := by byte_omega
  have f4 : ((b1 &&& 64) >>> 6).toNat = bits [b0, b1, b2, b3, b4, b5, b6] 10 10 := by byte_omega
  have f5 : ((b1 &&& 56) >>> 3).toNat = bits [b0, b1, b2, b3, b4, b5, b6] 11 13 := by byte_omega
  have f6 : ((b1 &&& 4) >>> 2).toNat = bits [b0, b1, b2, b3, b4, b5, b6] 14 14 := by byte_omega
  have f7 : ((b3 &&& 128) >>> 7).toNat = bits [b0, b1, b2, b3, b4, b5, b6] 25 25 := by byte_omega
  have f8 : ((b4 &&& 16) >>> 4).toNat = bits [b0, b1, b2, b3, b4, b5, b6] 36 36 := by byte_omega
  have g1 : ((b0 &&& 248) >>> 3 = 19) := by rw [u8_eq, f1, h19]; rfl
  have g2 : (b0 &&& 7 = 2) := by rw [u8_eq, f2, hsub]; rfl
  unfold readGroundSpeedSupersonic
    readFormatTypeCode readSubtype09 readIntentChange readIFRCapability readNUC readDirectionEW readDirectionNS
    readVerticalRateSource
  go_run [hew, hns, hvr, hhd, g1, g2]
  rw [g1] at f1
  rw [g2] at f2
  exact ⟨_, rfl, ⟨f1, f2, f3, f4, f5, f8, cvr, chd⟩, f6, cew, f7, cns⟩

theorem readAirSpeedNormal_eval (b0 b1 b2 b3 b4 b5 b6 : UInt8) (h19 : bits [b0, b1, b2, b3, b4, b5, b6] 1 5 = 19)
    (hsub : bits [b0, b1, b2, b3, b4, b5, b6] 6 8 = 3) :
    ∃ m, readAirSpeedNormal [b0, b1, b2, b3, b4, b5, b6] = .ok m ∧ AirSpec [b0, b1, b2, b3, b4, b5, b6] 1 1023 m := by
  obtain ⟨hS, hh, ch⟩ := heading09_eval b0 b1 b2 b3 b4 b5 b6
  obtain ⟨ns, nsS, hns, cns⟩ := ns_normal_eval b0 b1 b2 b3 b4 b5 b6
  obtain ⟨vr, vrS, hvr, cvr⟩ := vertical_rate_eval b0 b1 b2 b3 b4 b5 b6
  obtain ⟨hd, hdS, hhd, chd⟩ := height_difference_eval b0 b1 b2 b3 b4 b5 b6
  have f1 : ((b0 &&& 248) >>> 3).toNat = bits [b0, b1, b2, b3, b4, b5, b6] 1 5 := by byte_omega
  have f2 : (b0 &&& 7).toNat = bits [b0, b1, b2, b3, b4, b5, b6] 6 8 := by byte_omega
  have f3 : ((b1 &&& 128) >>> 7).toNat = bits [b0, b1, b2, b3, b4, b5, b6] 9 9 := by byte_omega
  have f4 : ((b1 &&& 64) >>> 6).toNat = bits [b0, b1, b2, b3, b4, b5, b6] 10 10 := by byte_omega
  have f5 : ((b1 &&& 56) >>> 3).toNat = bits [b0, b1, b2, b3, b4, b5, b6] 11 13 := by byte_omega
  have f6 : ((b1 &&& 4) >>> 2).toNat = bits [b0, b1, b2, b3, b4, b5, b6] 14 14 := by byte_omega
  have f7 : ((b3 &&& 128) >>> 7).toNat = bits [b0, b1, b2, b3, b4, b5, b6] 25 25 := by byte_omega
  have f8 : ((b4 &&& 16) >>> 4).toNat = bits [b0, b1, b2, b3, b4, b5, b6] 36 36 := by byte_omega
  have g1 : ((b0 &&& 248) >>> 3 = 19) := by rw [u8_eq, f1, h19]; rfl
  have g2 : (b0 &&& 7 = 3) := by rw [u8_eq, f2, hsub]; rfl
  unfold readAirSpeedNormal
    readFormatTypeCode readSubtype09 readIntentChange readIFRCapability readNUC 
    readVerticalRateSource
  go_run [hh, hns, hvr, hhd, g1, g2]
  rw [g1] at f1
  rw [g2] at f2
  exact ⟨_, rfl, ⟨f1, f2, f3, f4, f5, f8, cvr, chd⟩, ch, rfl, cns⟩

theorem readAirSpeedSupersonic_eval (b0 b1 b2 b3 b4 b5 b6 : UInt8) (h19 : bits [b0, b1, b2, b3, b4, b5, b6] 1 5 = 19)
    (hsub : bits [b0, b1, b2, b3, b4, b5, b6] 6 8 = 4) :
    ∃ m, readAirSpeedSupersonic [b0, b1, b2, b3, b4, b5, b6] = .ok m ∧ AirSpec [b0, b1, b2, b3, b4, b5, b6] 4 4088 m := by
  obtain ⟨hS, hh, ch⟩ := heading09_eval b0 b1 b2 b3 b4 b5 b6
  obtain ⟨ns, nsS, hns, cns⟩ := ns_supersonic_eval b0 b1 b2 b3 b4 b5 b6
  obtain ⟨vr, vrS, hvr, cvr⟩ := vertical_rate_eval b0 b1 b2 b3 b4 b5 b6
  obtain ⟨hd, hdS, hhd, chd⟩ := height_difference_eval b0 b1 b2 b3 b4 b5 b6
  have f1 : ((b0 &&& 248) >>> 3).toNat = bits [b0, b1, b2, b3, b4, b5, b6] 1 5 := by byte_omega
  have f2 : (b0 &&& 7).toNat = bits [b0, b1, b2, b3, b4, b5, b6] 6 8 := by byte_omega
  have f3 : ((b1 &&& 128) >>> 7).toNat = bits [b0, b1, b2, b3, b4, b5, b6] 9 9 := by byte_omega
  have f4 : ((b1 &&& 64) >>> 6).toNat = bits [b0, b1, b2, b3, b4, b5, b6] 10 10 := by byte_omega
  have f5 : ((b1 &&& 56) >>> 3).toNat = bits [b0, b1, b2, b3, b4, b5, b6] 11 13 := by byte_omega
  have f6 : ((b1 &&& 4) >>> 2).toNat = bits [b0, b1, b2, b3, b4, b5, b6] 14 14 := by byte_omega
  have f7 : ((b3 &&& 128) >>> 7).toNat = bits [b0, b1, b2, b3, b4, b5, b6] 25 25 := by byte_omega
  have f8 : ((b4 &&& 16) >>> 4).toNat = bits [b0, b1, b2, b3, b4, b5, b6] 36 36 := by byte_omega
  have g1 : ((b0 &&& 248) >>> 3 = 19) := by rw [u8_eq, f1, h19]; rfl
  have g2 : (b0 &&& 7 = 4) := by rw [u8_eq, f2, hsub]; rfl
  unfold readAirSpeedSupersonic
    readFormatTypeCode readSubtype09 readIntentChange readIFRCapability readNUC 
    readVerticalRateSource
  go_run [hh, hns, hvr, hhd, g1, g2]
  rw [g1] at f1
  rw [g2] at f2
  exact ⟨_, rfl, ⟨f1, f2, f3, f4, f5, f8, cvr, chd⟩, ch, rfl, cns⟩

/-- Everything the reader can do. -/
theorem bds09_eval (d : List UInt8) :
    (readBDS09 d = .error .err ∧ ¬ (d.length = 7 ∧ bits d 1 5 = 19 ∧ 1 ≤ bits d 6 8 ∧ bits d 6 8 ≤ 4)) ∨
    (d.length = 7 ∧ bits d 1 5 = 19 ∧
      ((bits d 6 8 = 1 ∧ ∃ m, readBDS09 d = .ok (.groundSpeedNormal m) ∧ GroundSpec d 1 1023 m) ∨
       (bits d 6 8 = 2 ∧ ∃ m, readBDS09 d = .ok (.groundSpeedSupersonic m) ∧ GroundSpec d 4 4088 m) ∨
       (bits d 6 8 = 3 ∧ ∃ m, readBDS09 d = .ok (.airSpeedNormal m) ∧ AirSpec d 1 1023 m) ∨
       (bits d 6 8 = 4 ∧ ∃ m, readBDS09 d = .ok (.airSpeedSupersonic m) ∧ AirSpec d 4 4088 m))) := by
  by_cases h7 : d.length = 7
  rotate_left
  · left
    refine ⟨?_, fun h => h7 h.1⟩
    unfold readBDS09
    simp [h7, fail, bind, Except.bind]
  obtain ⟨b0, b1, b2, b3, b4, b5, b6, rfl⟩ := list7 d h7
  have f1 : ((b0 &&& 248) >>> 3).toNat = bits [b0, b1, b2, b3, b4, b5, b6] 1 5 := by byte_omega
  have f2 : (b0 &&& 7).toNat = bits [b0, b1, b2, b3, b4, b5, b6] 6 8 := by byte_omega
  have g1 : ((b0 &&& 248) >>> 3 = 19) = (bits [b0, b1, b2, b3, b4, b5, b6] 1 5 = 19) := by rw [u8_eq, f1]; rfl
  have g2 : (b0 &&& 7 = 1) = (bits [b0, b1, b2, b3, b4, b5, b6] 6 8 = 1) := by rw [u8_eq, f2]; rfl
  have g3 : (b0 &&& 7 = 2) = (bits [b0, b1, b2, b3, b4, b5, b6] 6 8 = 2) := by rw [u8_eq, f2]; rfl
  have g4 : (b0 &&& 7 = 3) = (bits [b0, b1, b2, b3, b4, b5, b6] 6 8 = 3) := by rw [u8_eq, f2]; rfl
  have g5 : (b0 &&& 7 = 4) = (bits [b0, b1, b2, b3, b4, b5, b6] 6 8 = 4) := by rw [u8_eq, f2]; rfl
  have e1 := readGroundSpeedNormal_eval b0 b1 b2 b3 b4 b5 b6
  have e2 := readGroundSpeedSupersonic_eval b0 b1 b2 b3 b4 b5 b6
  have e3 := readAirSpeedNormal_eval b0 b1 b2 b3 b4 b5 b6
  have e4 := readAirSpeedSupersonic_eval b0 b1 b2 b3 b4 b5 b6
  unfold readBDS09 readFormatTypeCode readSubtype09
  go_run [g1, g2, g3, g4, g5]
  generalize bits [b0, b1, b2, b3, b4, b5, b6] 1 5 = x at *
  generalize bits [b0, b1, b2, b3, b4, b5, b6] 6 8 = y at *
  by_cases h19 : x = 19
  rotate_left
  · left
    rw [if_pos h19]
    exact ⟨rfl, fun h => h19 h.2.1⟩
  rw [if_neg (fun h => h h19)]
  by_cases h1 : y = 1
  · obtain ⟨m, hm, hs⟩ := e1 h19 h1
    rw [if_pos h1, hm]
    exact Or.inr ⟨trivial, h19, Or.inl ⟨h1, m, rfl, hs⟩⟩
  rw [if_neg h1]
  by_cases h2 : y = 2
  · obtain ⟨m, hm, hs⟩ := e2 h19 h2
    rw [if_pos h2, hm]
    exact Or.inr ⟨trivial, h19, Or.inr (Or.inl ⟨h2, m, rfl, hs⟩)⟩
  rw [if_neg h2]
  by_cases h3 : y = 3
  · obtain ⟨m, hm, hs⟩ := e3 h19 h3
    rw [if_pos h3, hm]
    exact Or.inr ⟨trivial, h19, Or.inr (Or.inr (Or.inl ⟨h3, m, rfl, hs⟩))⟩
  rw [if_neg h3]
  by_cases h4 : y = 4
  · obtain ⟨m, hm, hs⟩ := e4 h19 h4
    rw [if_pos h4, hm]
    exact Or.inr ⟨trivial, h19, Or.inr (Or.inr (Or.inr ⟨h4, m, rfl, hs⟩))⟩
  rw [if_neg h4]
  exact Or.inl ⟨rfl, fun h => by omega⟩

/-- The four kinds of message and the subtype of each: the components common to all. -/
def AirborneVelocity.verticalRate : AirborneVelocity → Int × NumericValueStatus
  | .groundSpeedNormal m => (m.verticalRate, m.verticalRateStatus)
  | .groundSpeedSupersonic m => (m.verticalRate, m.verticalRateStatus)
  | .airSpeedNormal m => (m.verticalRate, m.verticalRateStatus)
  | .airSpeedSupersonic m => (m.verticalRate, m.verticalRateStatus)

/-- The height difference of any velocity message. -/
def AirborneVelocity.heightDifference : AirborneVelocity → Int × NumericValueStatus
  | .groundSpeedNormal m => (m.heightDifference, m.heightDifferenceStatus)
  | .groundSpeedSupersonic m => (m.heightDifference, m.heightDifferenceStatus)
  | .airSpeedNormal m => (m.heightDifference, m.heightDifferenceStatus)
  | .airSpeedSupersonic m => (m.heightDifference, m.heightDifferenceStatus)

/-- C32-C34, acceptance: a velocity message is read exactly when it is 7 bytes long, of type code 19 and subtype 1 to 4; the
reader never panics. -/
theorem velocity_accepts (d : List UInt8) :
    ((∃ m, readBDS09 d = .ok m) ↔ d.length = 7 ∧ bits d 1 5 = 19 ∧ 1 ≤ bits d 6 8 ∧ bits d 6 8 ≤ 4) ∧
    readBDS09 d ≠ .error .panic := by
  rcases bds09_eval d with ⟨h, hn⟩ | ⟨h7, h19, h⟩
  · rw [h]; exact ⟨⟨fun ⟨m, hm⟩ => (nomatch hm), fun h => absurd h hn⟩, by simp⟩
  · rcases h with ⟨hs, m, hm, -⟩ | ⟨hs, m, hm, -⟩ | ⟨hs, m, hm, -⟩ | ⟨hs, m, hm, -⟩ <;>
    · rw [hm]; exact ⟨⟨fun _ => ⟨h7, h19, by omega, by omega⟩, fun _ => ⟨_, rfl⟩⟩, by simp⟩

/-- C32. A velocity over ground: subtype 1 in knots, subtype 2 in units of four knots; directions and components are the
numbers in their positions, with their coding. -/
theorem ground_velocity_content (d : List UInt8) (m : GroundSpeedVelocity) :
    (readBDS09 d = .ok (.groundSpeedNormal m) →
      bits d 6 8 = 1 ∧ m.directionEastWest.toNat = bits d 14 14 ∧
      SpeedCoding (bits d 15 24) 1 1023 m.velocityEW.toNat m.velocityEWStatus ∧ m.directionNorthSouth.toNat = bits d 25 25 ∧
      SpeedCoding (bits d 26 35) 1 1023 m.velocityNS.toNat m.velocityNSStatus) ∧
    (readBDS09 d = .ok (.groundSpeedSupersonic m) →
      bits d 6 8 = 2 ∧ m.directionEastWest.toNat = bits d 14 14 ∧
      SpeedCoding (bits d 15 24) 4 4088 m.velocityEW.toNat m.velocityEWStatus ∧ m.directionNorthSouth.toNat = bits d 25 25 ∧
      SpeedCoding (bits d 26 35) 4 4088 m.velocityNS.toNat m.velocityNSStatus) := by
  rcases bds09_eval d with ⟨h, hn⟩ | ⟨h7, h19, h⟩
  · rw [h]; exact ⟨by simp, by simp⟩
  · rcases h with ⟨hs, m', hm, hc⟩ | ⟨hs, m', hm, hc⟩ | ⟨hs, m', hm, hc⟩ | ⟨hs, m', hm, hc⟩ <;> rw [hm] <;>
      refine ⟨fun e => ?_, fun e => ?_⟩ <;> cases e
    · exact ⟨hs, hc.2⟩
    · exact ⟨hs, hc.2⟩

/-- C32/C33, the subtype decides which kind of message is read. -/
theorem velocity_kind (d : List UInt8) (h7 : d.length = 7) (h19 : bits d 1 5 = 19) :
    (bits d 6 8 = 1 → ∃ m, readBDS09 d = .ok (.groundSpeedNormal m)) ∧
    (bits d 6 8 = 2 → ∃ m, readBDS09 d = .ok (.groundSpeedSupersonic m)) ∧
    (bits d 6 8 = 3 → ∃ m, readBDS09 d = .ok (.airSpeedNormal m)) ∧
    (bits d 6 8 = 4 → ∃ m, readBDS09 d = .ok (.airSpeedSupersonic m)) := by
  rcases bds09_eval d with ⟨h, hn⟩ | ⟨-, -, h⟩
  · refine ⟨?_, ?_, ?_, ?_⟩ <;> intro hs <;> exact absurd ⟨h7, h19, by omega, by omega⟩ hn
  · rcases h with ⟨hs, m', hm, hc⟩ | ⟨hs, m', hm, hc⟩ | ⟨hs, m', hm, hc⟩ | ⟨hs, m', hm, hc⟩ <;>
      (refine ⟨?_, ?_, ?_, ?_⟩ <;> intro hs' <;> first | exact ⟨_, hm⟩ | omega)

/-- C33. Airspeed and heading. -/
theorem airspeed_content (d : List UInt8) (m : AirSpeedVelocity) :
    (readBDS09 d = .ok (.airSpeedNormal m) →
      bits d 6 8 = 3 ∧ m.magneticHeadingStatus.toNat = bits d 14 14 ∧ m.magneticHeading = bits d 15 24 * (360 / 1024) ∧
      0 ≤ m.magneticHeading ∧ m.magneticHeading < 360 ∧
      SpeedCoding (bits d 26 35) 1 1023 m.airspeed.toNat m.airspeedStatus) ∧
    (readBDS09 d = .ok (.airSpeedSupersonic m) →
      bits d 6 8 = 4 ∧ m.magneticHeadingStatus.toNat = bits d 14 14 ∧ m.magneticHeading = bits d 15 24 * (360 / 1024) ∧
      0 ≤ m.magneticHeading ∧ m.magneticHeading < 360 ∧
      SpeedCoding (bits d 26 35) 4 4088 m.airspeed.toNat m.airspeedStatus) := by
  have hl : bits d 15 24 < 1024 := by unfold bits; exact Nat.mod_lt _ (by decide)
  have h0 : (0 : ℚ) ≤ bits d 15 24 * (360 / 1024) := by positivity
  have h1 : (bits d 15 24 : ℚ) * (360 / 1024) < 360 := by
    have : (bits d 15 24 : ℚ) < 1024 := by exact_mod_cast hl
    linarith
  rcases bds09_eval d with ⟨h, hn⟩ | ⟨h7, h19, h⟩
  · rw [h]; exact ⟨by simp, by simp⟩
  · rcases h with ⟨hs, m', hm, hc⟩ | ⟨hs, m', hm, hc⟩ | ⟨hs, m', hm, hc⟩ | ⟨hs, m', hm, hc⟩ <;> rw [hm] <;>
      refine ⟨fun e => ?_, fun e => ?_⟩ <;> cases e
    · exact ⟨hs, hc.2.1, hc.2.2.1, by rw [hc.2.2.1]; exact h0, by rw [hc.2.2.1]; exact h1, hc.2.2.2⟩
    · exact ⟨hs, hc.2.1, hc.2.2.1, by rw [hc.2.2.1]; exact h0, by rw [hc.2.2.1]; exact h1, hc.2.2.2⟩

/-- C34. Vertical rate and height difference of every velocity message. -/
theorem vertical_content (d : List UInt8) (m : AirborneVelocity) (h : readBDS09 d = .ok m) :
    SignedCoding (bit d 37) (bits d 38 46) 511 64 32640 m.verticalRate.1 m.verticalRate.2 ∧
    SignedCoding (bit d 49) (bits d 50 56) 127 25 3150 m.heightDifference.1 m.heightDifference.2 := by
  rcases bds09_eval d with ⟨e, hn⟩ | ⟨h7, h19, e⟩
  · rw [e] at h; cases h
  · rcases e with ⟨hs, m', hm, hc⟩ | ⟨hs, m', hm, hc⟩ | ⟨hs, m', hm, hc⟩ | ⟨hs, m', hm, hc⟩ <;> rw [hm] at h <;> cases h <;>
      exact ⟨hc.1.vr, hc.1.hd⟩

/-- A signed quantity stays within its range. -/
theorem signedCoding_range {neg : Bool} {v ones k top : Nat} {value : Int} {s : NumericValueStatus}
    (h : SignedCoding neg v ones k top value s) (ht : (ones - 1) * k ≤ top + k) : -(top : Int) ≤ value ∧ value ≤ top := by
  rcases h with ⟨-, -, rfl⟩ | ⟨-, -, rfl⟩ | ⟨h1, h2, -, rfl⟩
  · omega
  · cases neg <;> simp <;> omega
  · obtain ⟨w, rfl⟩ : ∃ w, v = w + 1 := ⟨v - 1, by omega⟩
    have hle : w * k + k ≤ (ones - 1) * k := by
      have : (w + 1) * k ≤ (ones - 1) * k := Nat.mul_le_mul_right _ (by omega)
      rwa [Nat.add_mul, Nat.one_mul] at this
    have hle' : ((w * k : ℕ) : Int) ≤ top := by omega
    push_cast at hle'
    have : (0 : Int) ≤ (w : Int) * k := by positivity
    cases neg <;> simp <;> constructor <;> linarith

/-- C34. The documented ranges. -/
theorem vertical_range (d : List UInt8) (m : AirborneVelocity) (h : readBDS09 d = .ok m) :
    (-32640 ≤ m.verticalRate.1 ∧ m.verticalRate.1 ≤ 32640) ∧
    (-3150 ≤ m.heightDifference.1 ∧ m.heightDifference.1 ≤ 3150) := by
  obtain ⟨h1, h2⟩ := vertical_content d m h
  exact ⟨by simpa using signedCoding_range h1 (by decide), by simpa using signedCoding_range h2 (by decide)⟩

/-- C34. Two messages that agree but for the sign bits give opposite values and the same status. -/
theorem vertical_sign_flip (d e : List UInt8) (m n : AirborneVelocity) (hd : readBDS09 d = .ok m) (he : readBDS09 e = .ok n)
    (h1 : bit e 37 = !bit d 37) (h2 : bits e 38 46 = bits d 38 46) (h3 : bit e 49 = !bit d 49)
    (h4 : bits e 50 56 = bits d 50 56) :
    n.verticalRate = (-m.verticalRate.1, m.verticalRate.2) ∧ n.heightDifference = (-m.heightDifference.1, m.heightDifference.2) := by
  obtain ⟨a1, a2⟩ := vertical_content d m hd
  obtain ⟨c1, c2⟩ := vertical_content e n he
  rw [h1, h2] at c1
  rw [h3, h4] at c2
  have key : ∀ (neg : Bool) (v ones k top : Nat) (x y : Int × NumericValueStatus), 1 ≤ ones →
      SignedCoding neg v ones k top x.1 x.2 → SignedCoding (!neg) v ones k top y.1 y.2 → y = (-x.1, x.2) := by
    rintro neg v ones k top ⟨x, xs⟩ ⟨y, ys⟩ h0 hx hy
    rcases hx with ⟨g1, rfl, rfl⟩ | ⟨g1, rfl, rfl⟩ | ⟨g1, g2, rfl, rfl⟩ <;>
    rcases hy with ⟨g3, rfl, rfl⟩ | ⟨g3, rfl, rfl⟩ | ⟨g3, g4, rfl, rfl⟩ <;> first | omega | (cases neg <;> simp <;> ring)| (cases neg <;> simp)
  exact ⟨key _ _ _ _ _ _ _ (by decide) a1 c1, key _ _ _ _ _ _ _ (by decide) a2 c2⟩

/-- 9A 99 44 09 94 08 3C: the velocity message of the ICAO examples, 8D485020994409940838175B284F: EW 8 kt west, NS 159 kt
south, vertical rate 832 ft/min down. -/
def exampleVelocity : List UInt8 := [0x99, 0x44, 0x09, 0x94, 0x08, 0x38, 0x17]

example : exampleVelocity.length = 7 ∧ bits exampleVelocity 1 5 = 19 ∧ bits exampleVelocity 6 8 = 1 ∧
    bits exampleVelocity 14 14 = 1 ∧ bits exampleVelocity 15 24 = 9 ∧ bits exampleVelocity 25 25 = 1 ∧
    bits exampleVelocity 26 35 = 160 ∧ bit exampleVelocity 37 = true ∧ bits exampleVelocity 38 46 = 14 ∧
    bit exampleVelocity 49 = false ∧ bits exampleVelocity 50 56 = 23 := by decide

example : ∃ m, readBDS09 exampleVelocity = .ok (.groundSpeedNormal m) ∧ m.velocityEW = 8 ∧ m.velocityNS = 159 ∧
    m.verticalRate = -832 ∧ m.heightDifference = 550 := ⟨_, rfl, rfl, rfl, by decide, by decide⟩

/-- The airspeed example 8DA05F219B06B6AF189400CBC33F: heading 243.98 degrees, true airspeed 375 kt. -/
example : ∃ m, readBDS09 [0x9B, 0x06, 0xB6, 0xAF, 0x18, 0x94, 0x00] = .ok m :=
  (velocity_accepts _).1.2 (by decide)

end Modes
