import Verif.Model.BDS45
import Verif.Lemmas.CommBNum
import Verif.Props.BDS5060
/-!
# C50: BDS 4,5 (meteorological hazard report)

Documented positions. Version 0: turbulence status 1, value 2-3; wind shear 4, 5-6; microburst 7, 8-9; icing 10, 11-12; wake
vortex 13, 14-15; temperature 16, 17-26 (two's complement, 1/4 degree); pressure 27, 28-38; radio height 39, 40-51 (16 ft);
reserved 52-56. Version 1: wind shear 1, 2-3; microburst 4, 5-6; icing 7, 8-9; wake vortex 10, 11-12; temperature 13, 14-24
(two's complement, 1/8 degree); radio height 25, 26-37 (2 ft); turbulence 38, average EDR 39-44 and peak EDR 45-50 (0.02 each),
delay 51-54; reserved 55-56.
-/
set_option linter.unusedSimpArgs false
open Spec
namespace Modes

theorem Turbulence45V0_eval (b0 b1 b2 b3 b4 b5 b6 : UInt8) : ∃ v, readTurbulence45V0 [b0, b1, b2, b3, b4, b5, b6] = .ok (bit [b0, b1, b2, b3, b4, b5, b6] 1, v) ∧ v.toNat = bits [b0, b1, b2, b3, b4, b5, b6] 2 3 := by
  have es : (b0 &&& 128 != 0) = bit [b0, b1, b2, b3, b4, b5, b6] 1 := by byte_flag
  have e : (((b0 &&& 96) >>> 5)).toNat = bits [b0, b1, b2, b3, b4, b5, b6] 2 3 := by byte_omega
  unfold readTurbulence45V0
  go_run [es]
  exact ⟨_, rfl, e⟩

theorem WindShear45V0_eval (b0 b1 b2 b3 b4 b5 b6 : UInt8) : ∃ v, readWindShear45V0 [b0, b1, b2, b3, b4, b5, b6] = .ok (bit [b0, b1, b2, b3, b4, b5, b6] 4, v) ∧ v.toNat = bits [b0, b1, b2, b3, b4, b5, b6] 5 6 := by
  have es : (b0 &&& 16 != 0) = bit [b0, b1, b2, b3, b4, b5, b6] 4 := by byte_flag
  have e : (((b0 &&& 12) >>> 2)).toNat = bits [b0, b1, b2, b3, b4, b5, b6] 5 6 := by byte_omega
  unfold readWindShear45V0
  go_run [es]
  exact ⟨_, rfl, e⟩

theorem MicroBurst45V0_eval (b0 b1 b2 b3 b4 b5 b6 : UInt8) : ∃ v, readMicroBurst45V0 [b0, b1, b2, b3, b4, b5, b6] = .ok (bit [b0, b1, b2, b3, b4, b5, b6] 7, v) ∧ v.toNat = bits [b0, b1, b2, b3, b4, b5, b6] 8 9 := by
  have es : (b0 &&& 2 != 0) = bit [b0, b1, b2, b3, b4, b5, b6] 7 := by byte_flag
  have e : ((pack2 (b0 &&& 1) (b1 &&& 128) >>> 7).toUInt8).toNat = bits [b0, b1, b2, b3, b4, b5, b6] 8 9 := by byte_omega
  unfold readMicroBurst45V0
  go_run [es]
  exact ⟨_, rfl, e⟩

theorem Icing45V0_eval (b0 b1 b2 b3 b4 b5 b6 : UInt8) : ∃ v, readIcing45V0 [b0, b1, b2, b3, b4, b5, b6] = .ok (bit [b0, b1, b2, b3, b4, b5, b6] 10, v) ∧ v.toNat = bits [b0, b1, b2, b3, b4, b5, b6] 11 12 := by
  have es : (b1 &&& 64 != 0) = bit [b0, b1, b2, b3, b4, b5, b6] 10 := by byte_flag
  have e : (((b1 &&& 48) >>> 4)).toNat = bits [b0, b1, b2, b3, b4, b5, b6] 11 12 := by byte_omega
  unfold readIcing45V0
  go_run [es]
  exact ⟨_, rfl, e⟩

theorem WakeVortex45V0_eval (b0 b1 b2 b3 b4 b5 b6 : UInt8) : ∃ v, readWakeVortex45V0 [b0, b1, b2, b3, b4, b5, b6] = .ok (bit [b0, b1, b2, b3, b4, b5, b6] 13, v) ∧ v.toNat = bits [b0, b1, b2, b3, b4, b5, b6] 14 15 := by
  have es : (b1 &&& 8 != 0) = bit [b0, b1, b2, b3, b4, b5, b6] 13 := by byte_flag
  have e : (((b1 &&& 6) >>> 1)).toNat = bits [b0, b1, b2, b3, b4, b5, b6] 14 15 := by byte_omega
  unfold readWakeVortex45V0
  go_run [es]
  exact ⟨_, rfl, e⟩

theorem StaticAirTemperature45V0_eval (b0 b1 b2 b3 b4 b5 b6 : UInt8) : readStaticAirTemperature45V0 [b0, b1, b2, b3, b4, b5, b6] = .ok (bit [b0, b1, b2, b3, b4, b5, b6] 16, (sbits [b0, b1, b2, b3, b4, b5, b6] 17 26 : ℚ) * (1 / 4)) := by
  have es : (b1 &&& 1 != 0) = bit [b0, b1, b2, b3, b4, b5, b6] 16 := by byte_flag
  have en : (b2 &&& 128 != 0) = bit [b0, b1, b2, b3, b4, b5, b6] 17 := by byte_flag
  have e : (pack2 (b2 &&& 127) (b3 &&& 192) >>> 6).toNat = bits [b0, b1, b2, b3, b4, b5, b6] 18 26 := by byte_omega
  unfold readStaticAirTemperature45V0
  go_run [es, e, en]
  rw [temperature_field [b0, b1, b2, b3, b4, b5, b6] 17 26 2 _ (by decide) (by simp) (by norm_num) (by norm_num) (by norm_num)]

theorem AverageStaticPressure45_eval (b0 b1 b2 b3 b4 b5 b6 : UInt8) : ∃ v, readAverageStaticPressure45 [b0, b1, b2, b3, b4, b5, b6] = .ok (bit [b0, b1, b2, b3, b4, b5, b6] 27, v) ∧ v.toNat = bits [b0, b1, b2, b3, b4, b5, b6] 28 38 := by
  have es : (b3 &&& 32 != 0) = bit [b0, b1, b2, b3, b4, b5, b6] 27 := by byte_flag
  have e : ((pack2 (b3 &&& 31) (b4 &&& 252) >>> 2).toUInt32).toNat = bits [b0, b1, b2, b3, b4, b5, b6] 28 38 := by byte_omega
  unfold readAverageStaticPressure45
  go_run [es]
  exact ⟨_, rfl, e⟩

theorem RadioHeight45V0_eval (b0 b1 b2 b3 b4 b5 b6 : UInt8) : ∃ v, readRadioHeight45V0 [b0, b1, b2, b3, b4, b5, b6] = .ok (bit [b0, b1, b2, b3, b4, b5, b6] 39, v) ∧ v.toNat = 16 * bits [b0, b1, b2, b3, b4, b5, b6] 40 51 := by
  have es : (b4 &&& 2 != 0) = bit [b0, b1, b2, b3, b4, b5, b6] 39 := by byte_flag
  have e : ((pack3 (b4 &&& 1) (b5 &&& 255) (b6 &&& 224) >>> 5) * 16).toNat = 16 * bits [b0, b1, b2, b3, b4, b5, b6] 40 51 := by byte_omega
  unfold readRadioHeight45V0
  go_run [es]
  exact ⟨_, rfl, e⟩

theorem WindShear45V1_eval (b0 b1 b2 b3 b4 b5 b6 : UInt8) : ∃ v, readWindShear45V1 [b0, b1, b2, b3, b4, b5, b6] = .ok (bit [b0, b1, b2, b3, b4, b5, b6] 1, v) ∧ v.toNat = bits [b0, b1, b2, b3, b4, b5, b6] 2 3 := by
  have es : (b0 &&& 128 != 0) = bit [b0, b1, b2, b3, b4, b5, b6] 1 := by byte_flag
  have e : (((b0 &&& 96) >>> 5)).toNat = bits [b0, b1, b2, b3, b4, b5, b6] 2 3 := by byte_omega
  unfold readWindShear45V1
  go_run [es]
  exact ⟨_, rfl, e⟩

theorem MicroBurst45V1_eval (b0 b1 b2 b3 b4 b5 b6 : UInt8) : ∃ v, readMicroBurst45V1 [b0, b1, b2, b3, b4, b5, b6] = .ok (bit [b0, b1, b2, b3, b4, b5, b6] 4, v) ∧ v.toNat = bits [b0, b1, b2, b3, b4, b5, b6] 5 6 := by
  have es : (b0 &&& 16 != 0) = bit [b0, b1, b2, b3, b4, b5, b6] 4 := by byte_flag
  have e : (((b0 &&& 12) >>> 2)).toNat = bits [b0, b1, b2, b3, b4, b5, b6] 5 6 := by byte_omega
  unfold readMicroBurst45V1
  go_run [es]
  exact ⟨_, rfl, e⟩

theorem Icing45V1_eval (b0 b1 b2 b3 b4 b5 b6 : UInt8) : ∃ v, readIcing45V1 [b0, b1, b2, b3, b4, b5, b6] = .ok (bit [b0, b1, b2, b3, b4, b5, b6] 7, v) ∧ v.toNat = bits [b0, b1, b2, b3, b4, b5, b6] 8 9 := by
  have es : (b0 &&& 2 != 0) = bit [b0, b1, b2, b3, b4, b5, b6] 7 := by byte_flag
  have e : ((pack2 (b0 &&& 1) (b1 &&& 128) >>> 7).toUInt8).toNat = bits [b0, b1, b2, b3, b4, b5, b6] 8 9 := by byte_omega
  unfold readIcing45V1
  go_run [es]
  exact ⟨_, rfl, e⟩

theorem WakeVortex45V1_eval (b0 b1 b2 b3 b4 b5 b6 : UInt8) : ∃ v, readWakeVortex45V1 [b0, b1, b2, b3, b4, b5, b6] = .ok (bit [b0, b1, b2, b3, b4, b5, b6] 10, v) ∧ v.toNat = bits [b0, b1, b2, b3, b4, b5, b6] 11 12 := by
  have es : (b1 &&& 64 != 0) = bit [b0, b1, b2, b3, b4, b5, b6] 10 := by byte_flag
  have e : (((b1 &&& 48) >>> 4)).toNat = bits [b0, b1, b2, b3, b4, b5, b6] 11 12 := by byte_omega
  unfold readWakeVortex45V1
  go_run [es]
  exact ⟨_, rfl, e⟩

theorem StaticAirTemperature45V1_eval (b0 b1 b2 b3 b4 b5 b6 : UInt8) : readStaticAirTemperature45V1 [b0, b1, b2, b3, b4, b5, b6] = .ok (bit [b0, b1, b2, b3, b4, b5, b6] 13, (sbits [b0, b1, b2, b3, b4, b5, b6] 14 24 : ℚ) * (1 / 8)) := by
  have es : (b1 &&& 8 != 0) = bit [b0, b1, b2, b3, b4, b5, b6] 13 := by byte_flag
  have en : (b1 &&& 4 != 0) = bit [b0, b1, b2, b3, b4, b5, b6] 14 := by byte_flag
  have e : (pack2 (b1 &&& 3) (b2 &&& 255)).toNat = bits [b0, b1, b2, b3, b4, b5, b6] 15 24 := by byte_omega
  unfold readStaticAirTemperature45V1
  go_run [es, e, en]
  rw [temperature_field [b0, b1, b2, b3, b4, b5, b6] 14 24 3 _ (by decide) (by simp) (by norm_num) (by norm_num) (by norm_num)]

theorem RadioHeight45V1_eval (b0 b1 b2 b3 b4 b5 b6 : UInt8) : ∃ v, readRadioHeight45V1 [b0, b1, b2, b3, b4, b5, b6] = .ok (bit [b0, b1, b2, b3, b4, b5, b6] 25, v) ∧ v.toNat = 2 * bits [b0, b1, b2, b3, b4, b5, b6] 26 37 := by
  have es : (b3 &&& 128 != 0) = bit [b0, b1, b2, b3, b4, b5, b6] 25 := by byte_flag
  have e : ((pack2 (b3 &&& 127) (b4 &&& 248) >>> 3).toUInt32 * 2).toNat = 2 * bits [b0, b1, b2, b3, b4, b5, b6] 26 37 := by byte_omega
  unfold readRadioHeight45V1
  go_run [es]
  exact ⟨_, rfl, e⟩


theorem Turbulence45V1_eval (b0 b1 b2 b3 b4 b5 b6 : UInt8) : ∃ v, readTurbulence45V1 [b0, b1, b2, b3, b4, b5, b6] =
    .ok (bit [b0, b1, b2, b3, b4, b5, b6] 38, edrOf (bits [b0, b1, b2, b3, b4, b5, b6] 39 44), edrOf (bits [b0, b1, b2, b3, b4, b5, b6] 45 50), v) ∧ v.toNat = bits [b0, b1, b2, b3, b4, b5, b6] 51 54 := by
  have es : (b4 &&& 4 != 0) = bit [b0, b1, b2, b3, b4, b5, b6] 38 := by byte_flag
  have e : (pack2 (b4 &&& 3) (b5 &&& 240) >>> 4).toNat = bits [b0, b1, b2, b3, b4, b5, b6] 39 44 := by byte_omega
  have e' : (pack2 (b5 &&& 15) (b6 &&& 192) >>> 6).toNat = bits [b0, b1, b2, b3, b4, b5, b6] 45 50 := by byte_omega
  have ei : ((b6 &&& 60) >>> 2).toNat = bits [b0, b1, b2, b3, b4, b5, b6] 51 54 := by byte_omega
  unfold readTurbulence45V1
  go_run [es, e, e']
  exact ⟨_, rfl, ei⟩

/-- The eddy dissipation rate is 0.02 times the number, up to the rounding of `float32`, for the 6-bit numbers of the message. -/
theorem edrOf_near (n : ℕ) (h : n ≤ 63) : |edrOf n - n / 50| ≤ 1 / 1048576 := by
  have hn : (n : ℚ) ≤ 63 := by exact_mod_cast h
  have h0 : (0 : ℚ) ≤ n := by positivity
  have hf : f32 (n : ℚ) = n := f32_nat n (by omega)
  obtain ⟨a1, a2⟩ := f32_bounds (2 / 100) (by norm_num)
  obtain ⟨c1, c2⟩ := f32_bounds (126 / 100) (by norm_num)
  have hp : 0 ≤ (n : ℚ) * f32 (2 / 100) := mul_nonneg h0 (by linarith)
  obtain ⟨d1, d2⟩ := f32_bounds ((n : ℚ) * f32 (2 / 100)) hp
  have u1 : (n : ℚ) * f32 (2 / 100) ≤ n * (2 / 100 + 2 / 100 / 2 ^ 24) := mul_le_mul_of_nonneg_left a2 h0
  have u2 : (n : ℚ) * (2 / 100 - 2 / 100 / 2 ^ 24) ≤ n * f32 (2 / 100) := mul_le_mul_of_nonneg_left a1 h0
  simp only [edrOf, hf]
  split
  · rename_i hg
    rw [abs_le]
    constructor <;> linarith
  · rw [abs_le]
    constructor <;> linarith

/-- What the documentation says of version 0. -/
structure HazardReportV0.Layout (d : List UInt8) (m : HazardReportV0) : Prop where
  turbulenceStatus : m.turbulenceStatus = bit d 1
  turbulence : m.turbulence.toNat = bits d 2 3
  windShearStatus : m.windShearStatus = bit d 4
  windShear : m.windShear.toNat = bits d 5 6
  microBurstStatus : m.microBurstStatus = bit d 7
  microBurst : m.microBurst.toNat = bits d 8 9
  icingStatus : m.icingStatus = bit d 10
  icing : m.icing.toNat = bits d 11 12
  wakeVortexStatus : m.wakeVortexStatus = bit d 13
  wakeVortex : m.wakeVortex.toNat = bits d 14 15
  staticAirTemperatureStatus : m.staticAirTemperatureStatus = bit d 16
  staticAirTemperature : m.staticAirTemperature = sbits d 17 26 * (1 / 4)
  averageStaticPressureStatus : m.averageStaticPressureStatus = bit d 27
  averageStaticPressure : m.averageStaticPressure.toNat = bits d 28 38
  radioHeightStatus : m.radioHeightStatus = bit d 39
  radioHeight : m.radioHeight.toNat = 16 * bits d 40 51

/-- What the documentation says of version 1; this version has no pressure. The two dissipation rates are `float32` multiples
of the `float32` nearest to 0.02: within a millionth of the exact product. -/
structure HazardReportV1.Layout (d : List UInt8) (m : HazardReportV1) : Prop where
  windShearStatus : m.windShearStatus = bit d 1
  windShear : m.windShear.toNat = bits d 2 3
  microBurstStatus : m.microBurstStatus = bit d 4
  microBurst : m.microBurst.toNat = bits d 5 6
  icingStatus : m.icingStatus = bit d 7
  icing : m.icing.toNat = bits d 8 9
  wakeVortexStatus : m.wakeVortexStatus = bit d 10
  wakeVortex : m.wakeVortex.toNat = bits d 11 12
  staticAirTemperatureStatus : m.staticAirTemperatureStatus = bit d 13
  staticAirTemperature : m.staticAirTemperature = sbits d 14 24 * (1 / 8)
  radioHeightStatus : m.radioHeightStatus = bit d 25
  radioHeight : m.radioHeight.toNat = 2 * bits d 26 37
  turbulenceStatus : m.turbulenceStatus = bit d 38
  averageEDR : |m.turbulenceAverageEDR - bits d 39 44 / 50| ≤ 1 / 1048576
  peakEDR : |m.turbulencePeakEDR - bits d 45 50 / 50| ≤ 1 / 1048576
  peakDelay : m.turbulencePeakDelayInterval.toNat = bits d 51 54
  averageStaticPressureStatus : m.averageStaticPressureStatus = false
  averageStaticPressure : m.averageStaticPressure = 0
  averageEDR_zero : bits d 39 44 = 0 → m.turbulenceAverageEDR = 0
  peakEDR_zero : bits d 45 50 = 0 → m.turbulencePeakEDR = 0

theorem edrOf_zero : edrOf 0 = 0 := by
  have hf : f32 ((0 : ℕ) : ℚ) = (0 : ℕ) := f32_nat 0 (by norm_num)
  have h0 : f32 (((0 : ℕ) : ℚ) * f32 (2 / 100)) = 0 := by
    have e : ((0 : ℕ) : ℚ) * f32 (2 / 100) = ((0 : ℕ) : ℚ) := by simp
    rw [e, hf]; simp
  obtain ⟨c1, -⟩ := f32_bounds (126 / 100) (by norm_num)
  simp only [edrOf, hf, h0]
  rw [if_neg]
  have : (0 : ℚ) < f32 (126 / 100) := by linarith
  exact not_lt.2 this.le

/-- Version 0: readable exactly when it is 7 bytes long and its reserved bits 52-56 are zero. -/
theorem bds45V0_eval (d : List UInt8) :
    (readBDS45V0 d = .error .err ∧ ¬ (d.length = 7 ∧ bits d 52 56 = 0)) ∨
    ((d.length = 7 ∧ bits d 52 56 = 0) ∧ ∃ m, readBDS45V0 d = .ok m ∧ HazardReportV0.Layout d m) := by
  by_cases h7 : d.length = 7
  swap; · exact Or.inl ⟨by unfold readBDS45V0; rw [if_pos h7]; rfl, fun h => h7 h.1⟩
  obtain ⟨b0, b1, b2, b3, b4, b5, b6, rfl⟩ := list7 d h7
  have e0 : b6 &&& 31 = 0 ↔ bits [b0, b1, b2, b3, b4, b5, b6] 52 56 = 0 := by word_nat; byte_omega

  obtain ⟨v0, e1, h1⟩ := Turbulence45V0_eval b0 b1 b2 b3 b4 b5 b6
  obtain ⟨v1, e2, h2⟩ := WindShear45V0_eval b0 b1 b2 b3 b4 b5 b6
  obtain ⟨v2, e3, h3⟩ := MicroBurst45V0_eval b0 b1 b2 b3 b4 b5 b6
  obtain ⟨v3, e4, h4⟩ := Icing45V0_eval b0 b1 b2 b3 b4 b5 b6
  obtain ⟨v4, e5, h5⟩ := WakeVortex45V0_eval b0 b1 b2 b3 b4 b5 b6
  obtain ⟨v6, e7, h7⟩ := AverageStaticPressure45_eval b0 b1 b2 b3 b4 b5 b6
  obtain ⟨v7, e8, h8⟩ := RadioHeight45V0_eval b0 b1 b2 b3 b4 b5 b6
  unfold readBDS45V0
  go_run [StaticAirTemperature45V0_eval, e1, e2, e3, e4, e5, e7, e8]
  by_cases h0 : b6 &&& 31 = 0
  swap; · simp only [if_pos h0]; exact Or.inl ⟨by trivial, fun ha => h0 (e0.2 ha.2)⟩
  rw [if_neg (fun h => h h0)]
  refine Or.inr ⟨⟨trivial, e0.1 h0⟩, _, rfl, ?_⟩
  exact ⟨rfl, h1, rfl, h2, rfl, h3, rfl, h4, rfl, h5, rfl, rfl, rfl, h7, rfl, h8⟩

/-- Version 1: readable exactly when it is 7 bytes long and its reserved bits 55-56 are zero. -/
theorem bds45V1_eval (d : List UInt8) :
    (readBDS45V1 d = .error .err ∧ ¬ (d.length = 7 ∧ bits d 55 56 = 0)) ∨
    ((d.length = 7 ∧ bits d 55 56 = 0) ∧ ∃ m, readBDS45V1 d = .ok m ∧ HazardReportV1.Layout d m) := by
  by_cases h7 : d.length = 7
  swap; · exact Or.inl ⟨by unfold readBDS45V1; rw [if_pos h7]; rfl, fun h => h7 h.1⟩
  obtain ⟨b0, b1, b2, b3, b4, b5, b6, rfl⟩ := list7 d h7
  have e0 : b6 &&& 3 = 0 ↔ bits [b0, b1, b2, b3, b4, b5, b6] 55 56 = 0 := by word_nat; byte_omega

  obtain ⟨v0, e1, h1⟩ := WindShear45V1_eval b0 b1 b2 b3 b4 b5 b6
  obtain ⟨v1, e2, h2⟩ := MicroBurst45V1_eval b0 b1 b2 b3 b4 b5 b6
  obtain ⟨v2, e3, h3⟩ := Icing45V1_eval b0 b1 b2 b3 b4 b5 b6
  obtain ⟨v3, e4, h4⟩ := WakeVortex45V1_eval b0 b1 b2 b3 b4 b5 b6
  obtain ⟨v5, e6, h6⟩ := RadioHeight45V1_eval b0 b1 b2 b3 b4 b5 b6
  obtain ⟨v7, e7, h8⟩ := Turbulence45V1_eval b0 b1 b2 b3 b4 b5 b6
  have k1 := bits_lt [b0, b1, b2, b3, b4, b5, b6] 39 44 6 rfl
  have k2 := bits_lt [b0, b1, b2, b3, b4, b5, b6] 45 50 6 rfl
  unfold readBDS45V1
  go_run [StaticAirTemperature45V1_eval, e1, e2, e3, e4, e6, e7]
  by_cases h0 : b6 &&& 3 = 0
  swap; · simp only [if_pos h0]; exact Or.inl ⟨by trivial, fun ha => h0 (e0.2 ha.2)⟩
  rw [if_neg (fun h => h h0)]
  refine Or.inr ⟨⟨trivial, e0.1 h0⟩, _, rfl, ?_⟩
  exact ⟨rfl, h1, rfl, h2, rfl, h3, rfl, h4, rfl, rfl, rfl, h6, rfl, edrOf_near _ (by omega), edrOf_near _ (by omega), h8,
    rfl, rfl, fun h => (by rw [h]; exact edrOf_zero), fun h => (by rw [h]; exact edrOf_zero)⟩

theorem bds45_reserved (d : List UInt8) (h7 : d.length = 7) (h : bits d 52 56 = 0) : bits d 55 56 = 0 := by
  obtain ⟨b0, b1, b2, b3, b4, b5, b6, rfl⟩ := list7 d h7
  revert h; byte_omega

/-- C50, choice of the layout and acceptance. A 7-byte message is read in the newer layout whenever that layout can be read,
that is when bits 55-56 are zero, and refused otherwise; the older layout is tried then, but it is never the one returned: its
reserved bits 52-56 include 55-56, so it can be read only when the newer one can. It never panics. -/
theorem bds45_layout (d : List UInt8) :
    match readBDS45 d with
    | .panics => False
    | .returns (.val (.v1 m)) err => err = false ∧ d.length = 7 ∧ bits d 55 56 = 0 ∧ readBDS45V1 d = .ok m
    | .returns (.val (.v0 _)) _ => False
    | .returns .nil err => err = true ∧ (d.length ≠ 7 ∨ bits d 55 56 ≠ 0) ∧ ∀ m, readBDS45V0 d ≠ .ok m
    | .returns .typedNil _ => False := by
  rcases bds45V1_eval d with ⟨e1, n1⟩ | ⟨⟨h7, h0⟩, m, em, -⟩
  · rcases bds45V0_eval d with ⟨e0, n0⟩ | ⟨⟨h7, h0⟩, -⟩
    · have : d.length ≠ 7 ∨ bits d 55 56 ≠ 0 := by tauto
      have hz : ∀ m, readBDS45V0 d ≠ .ok m := fun m h => by rw [e0] at h; cases h
      have hf : readBDS45 d = Call.fail := by unfold readBDS45; simp only [e1, e0, ite_self]
      rw [hf]; exact ⟨rfl, this, hz⟩
    · exact absurd ⟨h7, bds45_reserved d h7 h0⟩ n1
  · have hf : readBDS45 d = .returns (.val (.v1 m)) false := by
      unfold readBDS45; simp only [em, if_neg (fun h => h h7 : ¬ d.length ≠ 7)]
    rw [hf]; exact ⟨rfl, h7, h0, em⟩

/-- C50, content: every field of a report is the number in its documented position, in both layouts. -/
theorem bds45_content (d : List UInt8) :
    (∀ m, readBDS45V0 d = .ok m → HazardReportV0.Layout d m) ∧
    (∀ m, readBDS45V1 d = .ok m → HazardReportV1.Layout d m) := by
  refine ⟨fun m h => ?_, fun m h => ?_⟩
  · rcases bds45V0_eval d with ⟨e, -⟩ | ⟨-, m', hm, hl⟩
    · rw [e] at h; cases h
    · rw [hm] at h; cases h; exact hl
  · rcases bds45V1_eval d with ⟨e, -⟩ | ⟨-, m', hm, hl⟩
    · rw [e] at h; cases h
    · rw [hm] at h; cases h; exact hl

/-- Coherency of a version 0 report. -/
theorem bds45V0_coherent (m : HazardReportV0) : m.coherent = true ↔
    (m.turbulenceStatus ∨ m.windShearStatus ∨ m.microBurstStatus ∨ m.icingStatus ∨ m.wakeVortexStatus ∨
      m.staticAirTemperatureStatus ∨ m.averageStaticPressureStatus ∨ m.radioHeightStatus) ∧
    (m.turbulenceStatus = false → m.turbulence = 0) ∧ (m.windShearStatus = false → m.windShear = 0) ∧
    (m.microBurstStatus = false → m.microBurst = 0) ∧ (m.icingStatus = false → m.icing = 0) ∧
    (m.wakeVortexStatus = false → m.wakeVortex = 0) ∧
    (m.staticAirTemperatureStatus = false → m.staticAirTemperature = 0) ∧
    (m.averageStaticPressureStatus = false → m.averageStaticPressure = 0) ∧
    (m.radioHeightStatus = false → m.radioHeight = 0) ∧
    (-80 ≤ m.staticAirTemperature ∧ m.staticAirTemperature ≤ 60) := by
  unfold HazardReportV0.coherent
  simp only [ite_chain, ite_last, and_true, any8, ne_eq, avail_zero, not_or, not_lt, gt_iff_lt]

/-- Coherency of a version 1 report. An unavailable temperature is *not* required to be zero. -/
theorem bds45V1_coherent (m : HazardReportV1) : m.coherent = true ↔
    (m.turbulenceStatus ∨ m.windShearStatus ∨ m.microBurstStatus ∨ m.icingStatus ∨ m.wakeVortexStatus ∨
      m.staticAirTemperatureStatus ∨ m.averageStaticPressureStatus ∨ m.radioHeightStatus) ∧
    (m.turbulenceStatus = false → m.turbulenceAverageEDR = 0 ∧ m.turbulencePeakEDR = 0 ∧ m.turbulencePeakDelayInterval = 0) ∧
    (m.windShearStatus = false → m.windShear = 0) ∧ (m.microBurstStatus = false → m.microBurst = 0) ∧
    (m.icingStatus = false → m.icing = 0) ∧ (m.wakeVortexStatus = false → m.wakeVortex = 0) ∧
    (m.staticAirTemperatureStatus = true → -80 ≤ m.staticAirTemperature ∧ m.staticAirTemperature ≤ 60) ∧
    (m.averageStaticPressureStatus = false → m.averageStaticPressure = 0) ∧
    (m.radioHeightStatus = false → m.radioHeight = 0) := by
  unfold HazardReportV1.coherent
  simp only [ite_chain, ite_last, and_true, any8, ne_eq]
  simp only [avail_zero, not_or, not_lt, gt_iff_lt, not_and, Bool.not_eq_true', not_not]

/-- A readable hazard report with light turbulence and an available temperature: both layouts' conditions are met. -/
example : let d : List UInt8 := [0xA0, 0x0A, 0xD1, 0x80, 0x04, 0x32, 0x80]
    d.length = 7 ∧ bits d 55 56 = 0 ∧ bits d 52 56 = 0 ∧ bit d 38 = true ∧ bits d 39 44 = 3 := by decide

end Modes
