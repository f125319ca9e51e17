import Verif.Model.BDS62
import Verif.Lemmas.FloatEval
import Verif.Lemmas.Register
import Verif.Lemmas.Float
/-!
# C39: target state and status

Bits: 1-5 type code 29, 6-7 subtype. The positions of the other fields are those of the two layouts below. Three fields are
not read from their documented positions (or with their documented sign): the layouts contain what the code does for them in
the terms of the bits, and the theorems with suffix `_partial`/`_refuted` compare it with the document.
-/
set_option linter.unusedSimpArgs false
open Spec
namespace Spec
open Modes

/-- The coding of the target altitude: number `n` in steps of 100 ft from -1000 ft; over 1010 out of range. -/
def TargetAltitudeCoding (n : Nat) (value : Int) (status : NumericValueStatus) : Prop :=
  (1010 < n ∧ status = .maximum ∧ value = 0) ∨ (n ≤ 1010 ∧ status = .regular ∧ value = 100 * n - 1000)

/-- The coding of the target heading or track: degrees; over 359 out of range. -/
def TargetHeadingCoding (n : Nat) (value : Nat) (status : NumericValueStatus) : Prop :=
  (359 < n ∧ status = .maximum ∧ value = 0) ∨ (n ≤ 359 ∧ status = .regular ∧ value = n)

/-- The coding of the selected altitude: 0 no information, otherwise steps of 32 ft from 0. -/
def SelectedAltitudeCoding (n : Nat) (value : Nat) (status : NumericValueStatus) : Prop :=
  (n = 0 ∧ status = .noInformation ∧ value = 0) ∨ (1 ≤ n ∧ status = .regular ∧ value = 32 * (n - 1))

/-- The coding of the barometric setting: 0 no information, otherwise steps of 0.8 mb from 800 mb; the reported number is the
`float32` nearest to it. -/
def BarometricCoding (n : Nat) (value : ℚ) (status : NumericValueStatus) : Prop :=
  (n = 0 ∧ status = .noInformation ∧ value = 0) ∨
  (1 ≤ n ∧ status = .regular ∧ value = f32 (800 + 8 / 10 * ((n : ℚ) - 1)))

end Spec
namespace Modes

theorem Subtype62_bits (b0 b1 b2 b3 b4 b5 b6 : UInt8) : ((b0 &&& 6) >>> 1).toNat = bits [b0, b1, b2, b3, b4, b5, b6] 6 7 := by byte_omega
theorem VDA_bits (b0 b1 b2 b3 b4 b5 b6 : UInt8) : ((b0 &&& 1) <<< 1 + (b1 &&& 128) >>> 7).toNat = bits [b0, b1, b2, b3, b4, b5, b6] 8 9 := by byte_omega
theorem TargetAltitudeType_bits (b0 b1 b2 b3 b4 b5 b6 : UInt8) : ((b1 &&& 64) >>> 6).toNat = bits [b0, b1, b2, b3, b4, b5, b6] 10 10 := by byte_omega
theorem TargetAltitudeCapability_bits (b0 b1 b2 b3 b4 b5 b6 : UInt8) : ((b1 &&& 24) >>> 3).toNat = bits [b0, b1, b2, b3, b4, b5, b6] 12 13 := by byte_omega
theorem VerticalModeIndicator_bits (b0 b1 b2 b3 b4 b5 b6 : UInt8) : ((b1 &&& 6) >>> 1).toNat = bits [b0, b1, b2, b3, b4, b5, b6] 14 15 := by byte_omega
theorem HDA_bits (b0 b1 b2 b3 b4 b5 b6 : UInt8) : ((b3 &&& 96) >>> 5).toNat = bits [b0, b1, b2, b3, b4, b5, b6] 26 27 := by byte_omega
theorem TargetHeadingTrackIndicator_bits (b0 b1 b2 b3 b4 b5 b6 : UInt8) : ((b4 &&& 8) >>> 3).toNat = bits [b0, b1, b2, b3, b4, b5, b6] 37 37 := by byte_omega
theorem HorizontalModeIndicator_bits (b0 b1 b2 b3 b4 b5 b6 : UInt8) : ((b4 &&& 6) >>> 1).toNat = bits [b0, b1, b2, b3, b4, b5, b6] 38 39 := by byte_omega
theorem NACp62_bits (b0 b1 b2 b3 b4 b5 b6 : UInt8) : ((b4 &&& 1) <<< 3 + (b5 &&& 224) >>> 5).toNat = bits [b0, b1, b2, b3, b4, b5, b6] 40 43 := by byte_omega
theorem NICBaro62_bits (b0 b1 b2 b3 b4 b5 b6 : UInt8) : ((b5 &&& 16) >>> 4).toNat = bits [b0, b1, b2, b3, b4, b5, b6] 44 44 := by byte_omega
theorem SIL62_bits (b0 b1 b2 b3 b4 b5 b6 : UInt8) : ((b5 &&& 12) >>> 2).toNat = bits [b0, b1, b2, b3, b4, b5, b6] 45 46 := by byte_omega
theorem CapabilityModeCode_bits (b0 b1 b2 b3 b4 b5 b6 : UInt8) : ((b6 &&& 24) >>> 3).toNat = bits [b0, b1, b2, b3, b4, b5, b6] 52 53 := by byte_omega
theorem EmergencyPriorityStatus62_bits (b0 b1 b2 b3 b4 b5 b6 : UInt8) : (b6 &&& 7).toNat = bits [b0, b1, b2, b3, b4, b5, b6] 54 56 := by byte_omega
theorem SILSupplement62_bits (b0 b1 b2 b3 b4 b5 b6 : UInt8) : (b0 &&& 1).toNat = bits [b0, b1, b2, b3, b4, b5, b6] 8 8 := by byte_omega
theorem StatusMCPFCUBits_bits (b0 b1 b2 b3 b4 b5 b6 : UInt8) : ((b5 &&& 2) >>> 1).toNat = bits [b0, b1, b2, b3, b4, b5, b6] 47 47 := by byte_omega
theorem SelectedAltitudeType_bits (b0 b1 b2 b3 b4 b5 b6 : UInt8) : (b0 &&& 1).toNat = bits [b0, b1, b2, b3, b4, b5, b6] 8 8 := by byte_omega
theorem ftc62_bits (b0 b1 b2 b3 b4 b5 b6 : UInt8) : ((b0 &&& 248) >>> 3).toNat = bits [b0, b1, b2, b3, b4, b5, b6] 1 5 := by byte_omega

theorem targetAltitudeOf_coding (n : Nat) : TargetAltitudeCoding n (targetAltitudeOf n).1 (targetAltitudeOf n).2 := by
  unfold targetAltitudeOf TargetAltitudeCoding
  by_cases h : (n : Int) > 1010
  · rw [if_pos h]; exact Or.inl ⟨by omega, rfl, rfl⟩
  · rw [if_neg h]; exact Or.inr ⟨by omega, rfl, by show (n : Int) * 100 - 1000 = _; omega⟩

theorem target_altitude_eval (b0 b1 b2 b3 b4 b5 b6 : UInt8) : ∃ v s, readTargetAltitude [b0, b1, b2, b3, b4, b5, b6] = .ok (v, s) ∧
    TargetAltitudeCoding (bits [b0, b1, b2, b3, b4, b5, b6] 16 25) v s := by
  have e : (pack3 (b1 &&& 1) (b2 &&& 255) (b3 &&& 128) >>> 7).toNat = bits [b0, b1, b2, b3, b4, b5, b6] 16 25 := by byte_omega
  unfold readTargetAltitude
  go_run []
  rw [← e]
  generalize (pack3 (b1 &&& 1) (b2 &&& 255) (b3 &&& 128) >>> 7).toNat = n
  exact ⟨(targetAltitudeOf n).1, (targetAltitudeOf n).2, by rw [Prod.mk.eta], targetAltitudeOf_coding n⟩

theorem target_heading_eval (b0 b1 b2 b3 b4 b5 b6 : UInt8) : ∃ v s, readTargetHeadingTrackAngle [b0, b1, b2, b3, b4, b5, b6] = .ok (v, s) ∧
    TargetHeadingCoding (bits [b0, b1, b2, b3, b4, b5, b6] 28 32 * 16 + bits [b0, b1, b2, b3, b4, b5, b6] 17 20) v.toNat s := by
  have e0 : (pack2 (b3 &&& 31) (b2 &&& 240) >>> 4).toNat = (b3 &&& 31).toNat * 16 + ((b2 &&& 240) >>> 4).toNat := by byte_omega
  have e1 : (b3 &&& 31).toNat = bits [b0, b1, b2, b3, b4, b5, b6] 28 32 := by byte_omega
  have e2 : ((b2 &&& 240) >>> 4).toNat = bits [b0, b1, b2, b3, b4, b5, b6] 17 20 := by byte_omega
  rw [e1, e2] at e0
  have e := e0
  unfold readTargetHeadingTrackAngle
  go_run []
  rw [← e]
  generalize pack2 (b3 &&& 31) (b2 &&& 240) >>> 4 = x
  unfold TargetHeadingCoding
  by_cases h : x > 359
  · rw [if_pos h]
    refine ⟨_, _, rfl, Or.inl ⟨?_, rfl, rfl⟩⟩
    rw [gt_iff_lt, UInt16.lt_iff_toNat_lt] at h; exact h
  · rw [if_neg h]
    refine ⟨_, _, rfl, Or.inr ⟨?_, rfl, rfl⟩⟩
    rw [gt_iff_lt, UInt16.lt_iff_toNat_lt] at h; exact Nat.not_lt.1 h

theorem selected_altitude_eval (b0 b1 b2 b3 b4 b5 b6 : UInt8) : ∃ v s, readSelectedAltitude [b0, b1, b2, b3, b4, b5, b6] = .ok (v, s) ∧
    SelectedAltitudeCoding (bits [b0, b1, b2, b3, b4, b5, b6] 10 20) v.toNat s := by
  have e : (pack2 (b1 &&& 127) (b2 &&& 240) >>> 4).toNat = bits [b0, b1, b2, b3, b4, b5, b6] 10 20 := by byte_omega
  have hl : bits [b0, b1, b2, b3, b4, b5, b6] 10 20 < 2048 := by unfold bits; exact Nat.mod_lt _ (by decide)
  unfold readSelectedAltitude
  go_run []
  rw [← e] at hl ⊢
  generalize pack2 (b1 &&& 127) (b2 &&& 240) >>> 4 = x at hl
  unfold SelectedAltitudeCoding
  by_cases h : x = 0
  · rw [if_pos h]
    exact ⟨_, _, rfl, Or.inl ⟨by rw [h]; rfl, rfl, rfl⟩⟩
  · rw [if_neg h]
    rw [u16_eq] at h
    have h' : x.toNat ≠ 0 := h
    refine ⟨_, _, rfl, Or.inr ⟨by omega, rfl, ?_⟩⟩
    simp only [UInt16.toNat_sub, UInt16.toNat_mul, UInt16.reduceToNat]
    omega

/-- The coding is exact to the last bit: the kernel computes the 511 values. -/
theorem pressure62_table : ∀ k < 511, ∃ m s m' s', rn 24 (k * 13421773) 16777216 = some (m, s) ∧
    rn 24 (m + 800 * 2 ^ s) (2 ^ s) = some (m', s') ∧ rnIs 24 (8000 + 8 * k) 10 m' s' = some true := by
  have h : ∀ k < 511, (match rn 24 (k * 13421773) 16777216 with
      | some (m, s) => match rn 24 (m + 800 * 2 ^ s) (2 ^ s) with
        | some (m', s') => rnIs 24 (8000 + 8 * k) 10 m' s' == some true
        | none => false
      | none => false) = true := by decide +kernel
  intro k hk
  specialize h k hk
  split at h
  · split at h
    · rename_i m s h1 _ m' s' h2
      exact ⟨m, s, m', s', h1, h2, eq_of_beq h⟩
    · cases h
  · cases h

theorem barometricPressureOf_coding (x : UInt16) (hl : x.toNat < 512) :
    BarometricCoding x.toNat (barometricPressureOf x).1 (barometricPressureOf x).2 := by
  unfold barometricPressureOf BarometricCoding
  by_cases h : x = 0
  · rw [if_pos h]; exact Or.inl ⟨by rw [h]; rfl, rfl, rfl⟩
  rw [if_neg h]
  rw [u16_eq] at h
  have h' : x.toNat ≠ 0 := h
  refine Or.inr ⟨by omega, rfl, ?_⟩
  have e : (x - 1).toNat = x.toNat - 1 := by
    simp only [UInt16.toNat_sub, UInt16.reduceToNat]; omega
  show f32 (f32 (f32 ((x - 1).toNat : ℚ) * f32 (8 / 10)) + 800) = _
  rw [e]
  generalize x.toNat = n at *
  obtain ⟨k, rfl⟩ : ∃ k, n = k + 1 := ⟨n - 1, by omega⟩
  simp only [Nat.add_sub_cancel, Nat.cast_add, Nat.cast_one, add_sub_cancel_right]
  have e1 : f32 (k : ℚ) = k := by
    have := f32_int (k : ℤ) (by rw [abs_of_nonneg (by omega)]; omega)
    exact_mod_cast this
  have e2 : f32 (8 / 10) = 13421773 / 16777216 := by
    have := rn_spec (p := 24) (a := 8) (b := 10) (m := 13421773) (s := 24) (by norm_num) (by norm_num) (by decide +kernel)
    norm_num at this ⊢
    exact this
  obtain ⟨m, s, m', s', h1, h2, h3⟩ := pressure62_table k (by omega)
  have g1 := rn_spec (by norm_num) (by norm_num) h1
  have g2 := rn_spec (by norm_num) (by positivity) h2
  have g3 := (rnIs_spec (by norm_num) (by norm_num) h3).2 rfl
  push_cast at g1 g2 g3
  rw [e1, e2, show (k : ℚ) * (13421773 / 16777216) = k * 13421773 / 16777216 by ring,
    show f32 ((k : ℚ) * 13421773 / 16777216) = m / 2 ^ s from g1,
    show (m : ℚ) / 2 ^ s + 800 = (m + 800 * 2 ^ s) / 2 ^ s by field_simp,
    show (800 : ℚ) + 8 / 10 * k = (8000 + 8 * k) / 10 by ring]
  exact g2.trans g3.symm

/-- The number is within 2^-12 mb of the coded one. -/
theorem BarometricCoding_near {n : ℕ} {value : ℚ} {status : NumericValueStatus} (h : BarometricCoding n value status) (hn : n < 512) :
    (n = 0 ∧ status = .noInformation ∧ value = 0) ∨
    (1 ≤ n ∧ status = .regular ∧ |value - (800 + 8 / 10 * ((n : ℚ) - 1))| ≤ 1 / 4096) := by
  rcases h with h | ⟨h1, h2, h3⟩
  · exact .inl h
  · refine .inr ⟨h1, h2, ?_⟩
    rw [h3]
    refine (rnd_err 24 _).trans ?_
    have hk : (n : ℚ) ≤ 512 := by exact_mod_cast hn.le
    have hk0 : (1 : ℚ) ≤ n := by exact_mod_cast h1
    rw [abs_of_nonneg (by linarith), div_le_div_iff₀ (by positivity) (by norm_num)]
    norm_num
    linarith

theorem barometric_eval (b0 b1 b2 b3 b4 b5 b6 : UInt8) : ∃ v s, readBarometricPressureSetting62 [b0, b1, b2, b3, b4, b5, b6] = .ok (v, s) ∧
    BarometricCoding (bits [b0, b1, b2, b3, b4, b5, b6] 21 29) v s := by
  have e : (pack2 (b2 &&& 15) (b3 &&& 248) >>> 3).toNat = bits [b0, b1, b2, b3, b4, b5, b6] 21 29 := by byte_omega
  have hl : bits [b0, b1, b2, b3, b4, b5, b6] 21 29 < 512 := by unfold bits; exact Nat.mod_lt _ (by decide)
  unfold readBarometricPressureSetting62
  go_run []
  rw [← e] at hl ⊢
  generalize pack2 (b2 &&& 15) (b3 &&& 248) >>> 3 = x at *
  exact ⟨_, _, rfl, barometricPressureOf_coding x hl⟩

theorem selectedHeadingOf_eq (neg : Bool) (x : UInt16) (hl : x.toNat < 256) :
    selectedHeadingOf neg x = (if neg then -(x.toNat : ℚ) else x.toNat) * (180 / 256) := by
  unfold selectedHeadingOf
  generalize x.toNat = n at *
  have e1 : f32 (n : ℚ) = n := by
    have := f32_int (n : ℤ) (by rw [abs_of_nonneg (by omega)]; omega)
    exact_mod_cast this
  simp only [e1]
  obtain ⟨z, hz, hzl⟩ : ∃ z : ℤ, (if neg then -(n : ℚ) else n) = z ∧ |z| ≤ 255 := by
    cases neg
    · exact ⟨n, by simp, by rw [abs_of_nonneg (by omega)]; omega⟩
    · exact ⟨-n, by simp, by rw [abs_neg, abs_of_nonneg (by omega)]; omega⟩
  rw [hz]
  have hb : |z * 180| ≤ 16777216 := by
    rw [abs_mul, abs_of_nonneg (by norm_num : (0 : ℤ) ≤ 180)]; omega
  have e2 : f32 ((z : ℚ) * 180) = z * 180 := by
    have := f32_int (z * 180) hb
    push_cast at this; exact this
  have e3 : f32 ((z : ℚ) * 180 / 256) = z * 180 / 256 :=
    f32_exact _ (z * 180) 8 (by push_cast; norm_num) hb
  rw [e2, e3]
  ring

theorem selected_heading_eval (b0 b1 b2 b3 b4 b5 b6 : UInt8) : ∃ s, readSelectedHeading [b0, b1, b2, b3, b4, b5, b6] =
      .ok ((if bit [b0, b1, b2, b3, b4, b5, b6] 31 then -(bits [b0, b1, b2, b3, b4, b5, b6] 32 39 : ℚ) else bits [b0, b1, b2, b3, b4, b5, b6] 32 39) * (180 / 256),
        bit [b0, b1, b2, b3, b4, b5, b6] 31, s) ∧
    s.toNat = bits [b0, b1, b2, b3, b4, b5, b6] 30 30 := by
  have e : (pack2 (b3 &&& 1) (b4 &&& 254) >>> 1).toNat = bits [b0, b1, b2, b3, b4, b5, b6] 32 39 := by byte_omega
  have hl : bits [b0, b1, b2, b3, b4, b5, b6] 32 39 < 256 := by unfold bits; exact Nat.mod_lt _ (by decide)
  have en : ((b3 &&& 2) != 0) = bit [b0, b1, b2, b3, b4, b5, b6] 31 := by byte_flag
  have es : ((b3 &&& 4) >>> 2).toNat = bits [b0, b1, b2, b3, b4, b5, b6] 30 30 := by byte_omega
  unfold readSelectedHeading
  go_run []
  rw [← e] at hl ⊢
  rw [← en]
  generalize pack2 (b3 &&& 1) (b4 &&& 254) >>> 1 = x at *
  generalize ((b3 &&& 2) != 0) = y at *
  exact ⟨_, by rw [selectedHeadingOf_eq y x hl], es⟩

/-- The layout of a subtype 0 message (what the code reads). -/
structure TargetStateAndStatus0.Layout (d : List UInt8) (m : TargetStateAndStatus0) : Prop where
  formatTypeCode : m.formatTypeCode.toNat = bits d 1 5
  subtype : m.subtype.toNat = bits d 6 7
  verticalDataAvailableSourceIndicator : m.verticalDataAvailableSourceIndicator.toNat = bits d 8 9
  targetAltitudeType : m.targetAltitudeType.toNat = bits d 10 10
  targetAltitudeCapability : m.targetAltitudeCapability.toNat = bits d 12 13
  verticalModeIndicator : m.verticalModeIndicator.toNat = bits d 14 15
  horizontalDataAvailableSourceIndicator : m.horizontalDataAvailableSourceIndicator.toNat = bits d 26 27
  targetHeadingTrackIndicator : m.targetHeadingTrackIndicator.toNat = bits d 37 37
  horizontalModeIndicator : m.horizontalModeIndicator.toNat = bits d 38 39
  navigationalAccuracyCategoryPosition : m.navigationalAccuracyCategoryPosition.toNat = bits d 40 43
  nicBaro : m.nicBaro.toNat = bits d 44 44
  surveillanceIntegrityLevel : m.surveillanceIntegrityLevel.toNat = bits d 45 46
  capabilityModeCode : m.capabilityModeCode.toNat = bits d 52 53
  emergencyPriorityStatus : m.emergencyPriorityStatus.toNat = bits d 54 56
  targetAltitude : TargetAltitudeCoding (bits d 16 25) m.targetAltitude m.targetAltitudeStatus
  targetHeading : TargetHeadingCoding (bits d 28 32 * 16 + bits d 17 20) m.targetHeadingTrackAngle.toNat m.targetHeadingTrackAngleStatus

/-- The layout of a subtype 1 message (what the code reads). -/
structure TargetStateAndStatus1.Layout (d : List UInt8) (m : TargetStateAndStatus1) : Prop where
  formatTypeCode : m.formatTypeCode.toNat = bits d 1 5
  subtype : m.subtype.toNat = bits d 6 7
  sourceIntegrityLevelSupplement : m.sourceIntegrityLevelSupplement.toNat = bits d 8 8
  selectedAltitudeType : m.selectedAltitudeType.toNat = bits d 8 8
  navigationalAccuracyCategoryPosition : m.navigationalAccuracyCategoryPosition.toNat = bits d 40 43
  nicBaro : m.nicBaro.toNat = bits d 44 44
  sourceIntegrityLevel : m.sourceIntegrityLevel.toNat = bits d 45 46
  statusMCPFCUBits : m.statusMCPFCUBits.toNat = bits d 47 47
  autopilotEngaged : m.autopilotEngaged = bit d 48
  vnavModeEngaged : m.vnavModeEngaged = bit d 49
  altitudeHoldModeEngaged : m.altitudeHoldModeEngaged = bit d 50
  approachModeEngaged : m.approachModeEngaged = bit d 52
  tcasACASOperational : m.tcasACASOperational = bit d 53
  lnavModeEngaged : m.lnavModeEngaged = bit d 54
  selectedAltitude : SelectedAltitudeCoding (bits d 10 20) m.selectedAltitude.toNat m.selectedAltitudeStatus
  barometric : BarometricCoding (bits d 21 29) m.barometricPressureSetting m.barometricPressureSettingStatus
  selectedHeadingStatus : m.selectedHeadingStatus.toNat = bits d 30 30
  selectedHeading : m.selectedHeading = (if bit d 31 then -(bits d 32 39 : ℚ) else bits d 32 39) * (180 / 256)
  selectedHeadingMinus : m.selectedHeadingMinus = bit d 31

theorem target0_eval (b0 b1 b2 b3 b4 b5 b6 : UInt8) (h29 : (b0 &&& 248) >>> 3 = 29) (hs : (b0 &&& 6) >>> 1 = 0) :
    (readTargetStateAndStatus0 [b0, b1, b2, b3, b4, b5, b6] = .error .err ∧ ¬ bits [b0, b1, b2, b3, b4, b5, b6] 47 51 = 0) ∨
    (bits [b0, b1, b2, b3, b4, b5, b6] 47 51 = 0 ∧ ∃ m, readTargetStateAndStatus0 [b0, b1, b2, b3, b4, b5, b6] = .ok m ∧ TargetStateAndStatus0.Layout [b0, b1, b2, b3, b4, b5, b6] m) := by
  obtain ⟨ta, tas, hta, cta⟩ := target_altitude_eval b0 b1 b2 b3 b4 b5 b6
  obtain ⟨th, ths, hth, cth⟩ := target_heading_eval b0 b1 b2 b3 b4 b5 b6
  have e1 : b5 &&& 3 = 0 ↔ bits [b0, b1, b2, b3, b4, b5, b6] 47 48 = 0 := by word_nat; byte_omega
  have e2 : b6 &&& 224 = 0 ↔ bits [b0, b1, b2, b3, b4, b5, b6] 49 51 = 0 := by word_nat; byte_omega
  have e3 : bits [b0, b1, b2, b3, b4, b5, b6] 47 51 = 0 ↔ bits [b0, b1, b2, b3, b4, b5, b6] 47 48 = 0 ∧ bits [b0, b1, b2, b3, b4, b5, b6] 49 51 = 0 := by byte_omega
  unfold readTargetStateAndStatus0 readFormatTypeCode readSubtype62 readVDA readTargetAltitudeType readTargetAltitudeCapability readVerticalModeIndicator readHDA readTargetHeadingTrackIndicator readHorizontalModeIndicator readNACp62 readNICBaro62 readSIL62 readCapabilityModeCode readEmergencyPriorityStatus62
  go_run [hta, hth, h29, hs]
  split
  · rename_i h
    exact Or.inl ⟨rfl, fun ha => h (e1.2 (e3.1 ha).1)⟩
  rename_i h1
  split
  · rename_i h
    exact Or.inl ⟨rfl, fun ha => h (e2.2 (e3.1 ha).2)⟩
  rename_i h2
  have f1 := ftc62_bits b0 b1 b2 b3 b4 b5 b6
  have f2 := Subtype62_bits b0 b1 b2 b3 b4 b5 b6
  rw [h29] at f1
  rw [hs] at f2
  refine Or.inr ⟨e3.2 ⟨e1.1 (Decidable.not_not.1 h1), e2.1 (Decidable.not_not.1 h2)⟩, _, rfl, ?_⟩
  exact ⟨f1, f2, VDA_bits b0 b1 b2 b3 b4 b5 b6, TargetAltitudeType_bits b0 b1 b2 b3 b4 b5 b6, TargetAltitudeCapability_bits b0 b1 b2 b3 b4 b5 b6, VerticalModeIndicator_bits b0 b1 b2 b3 b4 b5 b6, HDA_bits b0 b1 b2 b3 b4 b5 b6, TargetHeadingTrackIndicator_bits b0 b1 b2 b3 b4 b5 b6, HorizontalModeIndicator_bits b0 b1 b2 b3 b4 b5 b6, NACp62_bits b0 b1 b2 b3 b4 b5 b6, NICBaro62_bits b0 b1 b2 b3 b4 b5 b6, SIL62_bits b0 b1 b2 b3 b4 b5 b6, CapabilityModeCode_bits b0 b1 b2 b3 b4 b5 b6, EmergencyPriorityStatus62_bits b0 b1 b2 b3 b4 b5 b6, cta, cth⟩

theorem target1_eval (b0 b1 b2 b3 b4 b5 b6 : UInt8) (h29 : (b0 &&& 248) >>> 3 = 29) (hs : (b0 &&& 6) >>> 1 = 1) :
    ∃ m, readTargetStateAndStatus1 [b0, b1, b2, b3, b4, b5, b6] = .ok m ∧ TargetStateAndStatus1.Layout [b0, b1, b2, b3, b4, b5, b6] m := by
  obtain ⟨sa, sas, hsa, csa⟩ := selected_altitude_eval b0 b1 b2 b3 b4 b5 b6
  obtain ⟨bp, bps, hbp, cbp⟩ := barometric_eval b0 b1 b2 b3 b4 b5 b6
  obtain ⟨shs, hsh, csh⟩ := selected_heading_eval b0 b1 b2 b3 b4 b5 b6

  have g48 : (b5 &&& 1 != 0) = bit [b0, b1, b2, b3, b4, b5, b6] 48 := by byte_flag
  have g49 : (b6 &&& 128 != 0) = bit [b0, b1, b2, b3, b4, b5, b6] 49 := by byte_flag
  have g50 : (b6 &&& 64 != 0) = bit [b0, b1, b2, b3, b4, b5, b6] 50 := by byte_flag
  have g52 : (b6 &&& 16 != 0) = bit [b0, b1, b2, b3, b4, b5, b6] 52 := by byte_flag
  have g53 : (b6 &&& 8 != 0) = bit [b0, b1, b2, b3, b4, b5, b6] 53 := by byte_flag
  have g54 : (b6 &&& 4 != 0) = bit [b0, b1, b2, b3, b4, b5, b6] 54 := by byte_flag
  unfold readTargetStateAndStatus1 readFormatTypeCode readSubtype62 readSILSupplement62 readSelectedAltitudeType readNACp62 readNICBaro62 readSIL62 readStatusMCPFCUBits
  go_run [hsa, hbp, hsh, h29, hs]
  have f1 := ftc62_bits b0 b1 b2 b3 b4 b5 b6
  have f2 := Subtype62_bits b0 b1 b2 b3 b4 b5 b6
  rw [h29] at f1
  rw [hs] at f2
  refine ⟨_, rfl, ?_⟩
  exact ⟨f1, f2, SILSupplement62_bits b0 b1 b2 b3 b4 b5 b6, SelectedAltitudeType_bits b0 b1 b2 b3 b4 b5 b6, NACp62_bits b0 b1 b2 b3 b4 b5 b6, NICBaro62_bits b0 b1 b2 b3 b4 b5 b6, SIL62_bits b0 b1 b2 b3 b4 b5 b6, StatusMCPFCUBits_bits b0 b1 b2 b3 b4 b5 b6, g48, g49, g50, g52, g53, g54, csa, cbp, csh, rfl, rfl⟩

/-- Everything the reader can do. -/
theorem bds62_eval (d : List UInt8) :
    (readBDS62 d = .error .err ∧ ¬ (d.length = 7 ∧ bits d 1 5 = 29 ∧
      (bits d 6 7 = 0 ∧ bits d 47 51 = 0 ∨ bits d 6 7 = 1))) ∨
    (d.length = 7 ∧ bits d 1 5 = 29 ∧
      ((bits d 6 7 = 0 ∧ bits d 47 51 = 0 ∧ ∃ m, readBDS62 d = .ok (.type0 m) ∧ TargetStateAndStatus0.Layout d m) ∨
       (bits d 6 7 = 1 ∧ ∃ m, readBDS62 d = .ok (.type1 m) ∧ TargetStateAndStatus1.Layout d m))) := by
  by_cases h7 : d.length = 7
  rotate_left
  · left
    refine ⟨?_, fun h => h7 h.1⟩
    unfold readBDS62
    simp [h7, fail, bind, Except.bind]
  obtain ⟨b0, b1, b2, b3, b4, b5, b6, rfl⟩ := list7 d h7
  have f1 := ftc62_bits b0 b1 b2 b3 b4 b5 b6
  have f2 := Subtype62_bits b0 b1 b2 b3 b4 b5 b6
  have g1 : ((b0 &&& 248) >>> 3 = 29) = (bits [b0, b1, b2, b3, b4, b5, b6] 1 5 = 29) := by rw [u8_eq, f1]; rfl
  have g2 : ((b0 &&& 6) >>> 1 = 0) = (bits [b0, b1, b2, b3, b4, b5, b6] 6 7 = 0) := by rw [u8_eq, f2]; rfl
  have g3 : ((b0 &&& 6) >>> 1 = 1) = (bits [b0, b1, b2, b3, b4, b5, b6] 6 7 = 1) := by rw [u8_eq, f2]; rfl
  have a0 := target0_eval b0 b1 b2 b3 b4 b5 b6
  have a1 := target1_eval b0 b1 b2 b3 b4 b5 b6
  have key : readBDS62 [b0, b1, b2, b3, b4, b5, b6] = (if ¬ bits [b0, b1, b2, b3, b4, b5, b6] 1 5 = 29 then .error .err
      else if bits [b0, b1, b2, b3, b4, b5, b6] 6 7 = 0 then (readTargetStateAndStatus0 [b0, b1, b2, b3, b4, b5, b6]).map .type0
      else if bits [b0, b1, b2, b3, b4, b5, b6] 6 7 = 1 then (readTargetStateAndStatus1 [b0, b1, b2, b3, b4, b5, b6]).map .type1 else .error .err) := by
    unfold readBDS62 readFormatTypeCode readSubtype62
    go_run [g1, g2, g3]
    rfl
  rw [key]
  rw [g1, g2] at a0
  rw [g1, g3] at a1
  clear key g1 g2 g3 f1 f2
  generalize bits [b0, b1, b2, b3, b4, b5, b6] 1 5 = x at *
  generalize bits [b0, b1, b2, b3, b4, b5, b6] 6 7 = y at *
  by_cases hx : x = 29
  rotate_left
  · rw [if_pos hx]; exact Or.inl ⟨rfl, fun h => hx h.2.1⟩
  rw [if_neg (not_not_intro hx)]
  by_cases h0 : y = 0
  · rw [if_pos h0]
    rcases a0 hx h0 with ⟨e, hn⟩ | ⟨hr, m, e, hl⟩
    · rw [e]; exact Or.inl ⟨rfl, fun h => by rcases h.2.2 with g | g; exacts [hn g.2, by omega]⟩
    · rw [e]; exact Or.inr ⟨rfl, hx, Or.inl ⟨h0, hr, m, rfl, hl⟩⟩
  rw [if_neg h0]
  by_cases h1 : y = 1
  · rw [if_pos h1]
    obtain ⟨m, e, hl⟩ := a1 hx h1
    rw [e]; exact Or.inr ⟨rfl, hx, Or.inr ⟨h1, m, rfl, hl⟩⟩
  · rw [if_neg h1]
    exact Or.inl ⟨rfl, fun h => by rcases h.2.2 with g | g; exacts [h0 g.1, h1 g]⟩

/-- C39. Acceptance: type code 29, subtype 0 with its reserved bits 47-51 zero, or subtype 1; never a panic. -/
theorem target_state_accepts (d : List UInt8) :
    (Succeeds (readBDS62 d) ↔ d.length = 7 ∧ bits d 1 5 = 29 ∧ (bits d 6 7 = 0 ∧ bits d 47 51 = 0 ∨ bits d 6 7 = 1)) ∧
    NoPanic (readBDS62 d) := by
  rcases bds62_eval d with ⟨h, hn⟩ | ⟨h7, h29, ⟨hs, hr, m, hm, -⟩ | ⟨hs, m, hm, -⟩⟩
  · exact ⟨⟨fun ⟨m, hm⟩ => (by rw [h] at hm; cases hm), fun h => absurd h hn⟩, by rw [h]; simp [NoPanic]⟩
  · exact ⟨⟨fun _ => ⟨h7, h29, Or.inl ⟨hs, hr⟩⟩, fun _ => ⟨_, hm⟩⟩, by rw [hm]; simp [NoPanic]⟩
  · exact ⟨⟨fun _ => ⟨h7, h29, Or.inr hs⟩, fun _ => ⟨_, hm⟩⟩, by rw [hm]; simp [NoPanic]⟩

/-- C39. The content of a read message, in the positions the code uses. -/
theorem target_state_content (d : List UInt8) (m : TargetStateAndStatus) (h : readBDS62 d = .ok m) :
    match m with
    | .type0 m => bits d 6 7 = 0 ∧ bits d 47 51 = 0 ∧ TargetStateAndStatus0.Layout d m
    | .type1 m => bits d 6 7 = 1 ∧ TargetStateAndStatus1.Layout d m := by
  rcases bds62_eval d with ⟨e, hn⟩ | ⟨h7, h29, ⟨hs, hr, m', hm, hl⟩ | ⟨hs, m', hm, hl⟩⟩
  · rw [e] at h; cases h
  · rw [hm] at h; cases h; exact ⟨hs, hr, hl⟩
  · rw [hm] at h; cases h; exact ⟨hs, hl⟩

/-- C39, the target heading of a subtype 0 message is the number in bits 28-36 when bits 33-36 happen to equal bits 17-20
(missing: every other message, `target_heading_refuted`). -/
theorem target_heading_partial (d : List UInt8) (m : TargetStateAndStatus0) (h : readBDS62 d = .ok (.type0 m))
    (he : bits d 33 36 = bits d 17 20) :
    TargetHeadingCoding (bits d 28 36) m.targetHeadingTrackAngle.toNat m.targetHeadingTrackAngleStatus := by
  obtain ⟨-, -, hl⟩ := target_state_content d _ h
  have h7 : d.length = 7 := ((target_state_accepts d).1.1 ⟨_, h⟩).1
  have : bits d 28 36 = bits d 28 32 * 16 + bits d 33 36 := by
    obtain ⟨b0, b1, b2, b3, b4, b5, b6, rfl⟩ := list7 d h7
    byte_omega
  rw [this, he]
  exact hl.targetHeading

/-- C39, the part that is false: a message whose heading bits 28-36 say 10 degrees is read as 0 degrees. -/
theorem target_heading_refuted : ∃ d m, readBDS62 d = .ok (.type0 m) ∧ bits d 28 36 = 10 ∧
    m.targetHeadingTrackAngleStatus = .regular ∧ m.targetHeadingTrackAngle = 0 :=
  ⟨[0xE8, 0, 0, 0, 0xA0, 0, 0], _, rfl, by decide, rfl, rfl⟩

/-- C39, the kind of selected altitude of a subtype 1 message is bit 9 when that bit equals bit 8, which is the one read
(missing: every other message, `selected_altitude_type_refuted`). -/
theorem selected_altitude_type_partial (d : List UInt8) (m : TargetStateAndStatus1) (h : readBDS62 d = .ok (.type1 m))
    (he : bits d 8 8 = bits d 9 9) : m.selectedAltitudeType.toNat = bits d 9 9 := by
  obtain ⟨-, hl⟩ := target_state_content d _ h
  rw [hl.selectedAltitudeType, he]

/-- C39, the part that is false: when bits 8 and 9 differ the kind of selected altitude is always wrong. -/
theorem selected_altitude_type_refuted (d : List UInt8) (m : TargetStateAndStatus1) (h : readBDS62 d = .ok (.type1 m))
    (he : bits d 8 8 ≠ bits d 9 9) : m.selectedAltitudeType.toNat ≠ bits d 9 9 := by
  obtain ⟨-, hl⟩ := target_state_content d _ h
  rwa [hl.selectedAltitudeType]

/-- C39, the selected heading is the angular weighted (two's-complement) number in bits 31-39 times 180/256 degrees when it
is not negative (missing: negative headings, `selected_heading_refuted`). -/
theorem selected_heading_partial (d : List UInt8) (m : TargetStateAndStatus1) (h : readBDS62 d = .ok (.type1 m))
    (he : bit d 31 = false) : m.selectedHeading = sbits d 31 39 * (180 / 256) := by
  obtain ⟨-, hl⟩ := target_state_content d _ h
  have h7 : d.length = 7 := ((target_state_accepts d).1.1 ⟨_, h⟩).1
  have : bits d 31 39 = bits d 32 39 := by
    obtain ⟨b0, b1, b2, b3, b4, b5, b6, rfl⟩ := list7 d h7
    revert he
    rw [Bool.eq_false_iff]
    word_nat
    byte_omega
  rw [hl.selectedHeading, he]
  unfold sbits
  rw [he, this]
  simp

/-- C39, the part that is false: a negative heading is read as sign and magnitude, so -0.7 degrees (all ones) comes out as
-179.3 degrees. -/
theorem selected_heading_refuted (d : List UInt8) (m : TargetStateAndStatus1) (h : readBDS62 d = .ok (.type1 m))
    (he : bits d 31 39 = 511) : m.selectedHeading = -255 * (180 / 256) ∧ sbits d 31 39 = -1 := by
  obtain ⟨-, hl⟩ := target_state_content d _ h
  have h7 : d.length = 7 := ((target_state_accepts d).1.1 ⟨_, h⟩).1
  have hb : bit d 31 = true ∧ bits d 32 39 = 255 := by
    obtain ⟨b0, b1, b2, b3, b4, b5, b6, rfl⟩ := list7 d h7
    revert he
    word_nat
    byte_omega
  rw [hl.selectedHeading, hb.1, hb.2]
  unfold sbits
  rw [hb.1, he]
  simp

/-- 8DA05629EA21485CBF3F8CADAEEB: selected altitude 16992 ft, setting 1012.8 mb, heading 66.8 degrees. -/
example : let d : List UInt8 := [0xEA, 0x21, 0x48, 0x5C, 0xBF, 0x3F, 0x8C]
    d.length = 7 ∧ bits d 1 5 = 29 ∧ bits d 6 7 = 1 ∧ 32 * (bits d 10 20 - 1) = 16992 ∧ bits d 21 29 = 267 ∧
    bit d 31 = false ∧ bits d 32 39 = 95 := by decide
example : Succeeds (readBDS62 [0xEA, 0x21, 0x48, 0x5C, 0xBF, 0x3F, 0x8C]) := (target_state_accepts _).1.2 (by decide)
example : Succeeds (readBDS62 [0xE8, 0x20, 0x48, 0x5C, 0xB1, 0x3C, 0x09]) := (target_state_accepts _).1.2 (by decide)
/-- `selected_heading_refuted` and `selected_altitude_type_refuted` are about readable messages. -/
example : let d : List UInt8 := [0xEB, 0x21, 0x48, 0x5F, 0xFF, 0x3F, 0x8C]
    Succeeds (readBDS62 d) ∧ bits d 31 39 = 511 ∧ bits d 8 8 ≠ bits d 9 9 :=
  ⟨(target_state_accepts _).1.2 (by decide), by decide, by decide⟩

end Modes
