import Verif.Model.BDS44
import Verif.Lemmas.CommBNum
/-!
# C46, C49: BDS 4,4 (meteorological routine air report)

Documented positions: source bits 1-4. Versions 1 and 2: wind speed status 5, value 6-14; wind direction status 15, value
16-23; temperature status 24, value 25-35; pressure status 36, value 37-47; turbulence flag 48; humidity status 49, value
50-56. Version 0: wind status 5, speed 6-14, direction 15-23; temperature 24-34; pressure status 35, value 36-46; turbulence
status 47, value 48-49; humidity status 50, value 51-56. The code reads the wind speed without its first bit (bits 7-14).
-/
set_option linter.unusedSimpArgs false
open Spec
namespace Modes

theorem WindSpeed44_eval (b0 b1 b2 b3 b4 b5 b6 : UInt8) : ∃ v, readWindSpeed44 [b0, b1, b2, b3, b4, b5, b6] = .ok (bit [b0, b1, b2, b3, b4, b5, b6] 5, v) ∧ v.toNat = bits [b0, b1, b2, b3, b4, b5, b6] 7 14 := by
  have es : (b0 &&& 8 != 0) = bit [b0, b1, b2, b3, b4, b5, b6] 5 := by byte_flag
  have e : ((pack2 (b0 &&& 3) (b1 &&& 252) >>> 2).toUInt32).toNat = bits [b0, b1, b2, b3, b4, b5, b6] 7 14 := by byte_omega
  unfold readWindSpeed44
  go_run [es]
  exact ⟨_, rfl, e⟩

theorem WindDirection44V0_eval (b0 b1 b2 b3 b4 b5 b6 : UInt8) : readWindDirection44V0 [b0, b1, b2, b3, b4, b5, b6] = .ok (bit [b0, b1, b2, b3, b4, b5, b6] 5, (bits [b0, b1, b2, b3, b4, b5, b6] 15 23 : ℚ) * (180 / 256)) := by
  have es : (b0 &&& 8 != 0) = bit [b0, b1, b2, b3, b4, b5, b6] 5 := by byte_flag
  have e : (pack2 (b1 &&& 3) (b2 &&& 254) >>> 1).toNat = bits [b0, b1, b2, b3, b4, b5, b6] 15 23 := by byte_omega
  unfold readWindDirection44V0
  go_run [es, e]
  have hb := bits_lt [b0, b1, b2, b3, b4, b5, b6] 15 23 9 rfl
  have := scaledF32_eq (bits [b0, b1, b2, b3, b4, b5, b6] 15 23) 180 8 (by omega) (by omega)
  rw [show (((180 : ℕ) : ℚ)) = 180 by norm_num, show (2 : ℚ) ^ 8 = 256 by norm_num] at this
  rw [this, mul_div_assoc]

theorem WindDirection44_eval (b0 b1 b2 b3 b4 b5 b6 : UInt8) : readWindDirection44 [b0, b1, b2, b3, b4, b5, b6] = .ok (bit [b0, b1, b2, b3, b4, b5, b6] 15, (bits [b0, b1, b2, b3, b4, b5, b6] 16 23 : ℚ) * (180 / 128)) := by
  have es : (b1 &&& 2 != 0) = bit [b0, b1, b2, b3, b4, b5, b6] 15 := by byte_flag
  have e : (pack2 (b1 &&& 1) (b2 &&& 254) >>> 1).toNat = bits [b0, b1, b2, b3, b4, b5, b6] 16 23 := by byte_omega
  unfold readWindDirection44
  go_run [es, e]
  have hb := bits_lt [b0, b1, b2, b3, b4, b5, b6] 16 23 8 rfl
  have := scaledF32_eq (bits [b0, b1, b2, b3, b4, b5, b6] 16 23) 180 7 (by omega) (by omega)
  rw [show (((180 : ℕ) : ℚ)) = 180 by norm_num, show (2 : ℚ) ^ 7 = 128 by norm_num] at this
  rw [this, mul_div_assoc]

theorem StaticAirTemperature44_eval (b0 b1 b2 b3 b4 b5 b6 : UInt8) : readStaticAirTemperature44 [b0, b1, b2, b3, b4, b5, b6] = .ok (bit [b0, b1, b2, b3, b4, b5, b6] 24, (sbits [b0, b1, b2, b3, b4, b5, b6] 25 35 : ℚ) * (1 / 8)) := by
  have es : (b2 &&& 1 != 0) = bit [b0, b1, b2, b3, b4, b5, b6] 24 := by byte_flag
  have en : (b3 &&& 128 != 0) = bit [b0, b1, b2, b3, b4, b5, b6] 25 := by byte_flag
  have e : (pack2 (b3 &&& 127) (b4 &&& 224) >>> 5).toNat = bits [b0, b1, b2, b3, b4, b5, b6] 26 35 := by byte_omega
  unfold readStaticAirTemperature44
  go_run [es, e, en]
  rw [temperature_field [b0, b1, b2, b3, b4, b5, b6] 25 35 3 _ (by decide) (by simp) (by norm_num) (by norm_num) (by norm_num)]

theorem AverageStaticPressure44V0_eval (b0 b1 b2 b3 b4 b5 b6 : UInt8) : ∃ v, readAverageStaticPressure44V0 [b0, b1, b2, b3, b4, b5, b6] = .ok (bit [b0, b1, b2, b3, b4, b5, b6] 35, v) ∧ v.toNat = bits [b0, b1, b2, b3, b4, b5, b6] 36 46 := by
  have es : (b4 &&& 32 != 0) = bit [b0, b1, b2, b3, b4, b5, b6] 35 := by byte_flag
  have e : ((pack2 (b4 &&& 31) (b5 &&& 252) >>> 2).toUInt32).toNat = bits [b0, b1, b2, b3, b4, b5, b6] 36 46 := by byte_omega
  unfold readAverageStaticPressure44V0
  go_run [es]
  exact ⟨_, rfl, e⟩

theorem AverageStaticPressure44_eval (b0 b1 b2 b3 b4 b5 b6 : UInt8) : ∃ v, readAverageStaticPressure44 [b0, b1, b2, b3, b4, b5, b6] = .ok (bit [b0, b1, b2, b3, b4, b5, b6] 36, v) ∧ v.toNat = bits [b0, b1, b2, b3, b4, b5, b6] 37 47 := by
  have es : (b4 &&& 16 != 0) = bit [b0, b1, b2, b3, b4, b5, b6] 36 := by byte_flag
  have e : ((pack2 (b4 &&& 15) (b5 &&& 254) >>> 1).toUInt32).toNat = bits [b0, b1, b2, b3, b4, b5, b6] 37 47 := by byte_omega
  unfold readAverageStaticPressure44
  go_run [es]
  exact ⟨_, rfl, e⟩

theorem Turbulence44_eval (b0 b1 b2 b3 b4 b5 b6 : UInt8) : ∃ v, readTurbulence44 [b0, b1, b2, b3, b4, b5, b6] = .ok (bit [b0, b1, b2, b3, b4, b5, b6] 47, v) ∧ v.toNat = bits [b0, b1, b2, b3, b4, b5, b6] 48 49 := by
  have es : (b5 &&& 2 != 0) = bit [b0, b1, b2, b3, b4, b5, b6] 47 := by byte_flag
  have e : ((pack2 (b5 &&& 1) (b6 &&& 128) >>> 7).toUInt8).toNat = bits [b0, b1, b2, b3, b4, b5, b6] 48 49 := by byte_omega
  unfold readTurbulence44
  go_run [es]
  exact ⟨_, rfl, e⟩

theorem Humidity44V0_eval (b0 b1 b2 b3 b4 b5 b6 : UInt8) : readHumidity44V0 [b0, b1, b2, b3, b4, b5, b6] = .ok (bit [b0, b1, b2, b3, b4, b5, b6] 50, (bits [b0, b1, b2, b3, b4, b5, b6] 51 56 : ℚ) * (100 / 64)) := by
  have es : (b6 &&& 64 != 0) = bit [b0, b1, b2, b3, b4, b5, b6] 50 := by byte_flag
  have e : (b6 &&& 63).toNat = bits [b0, b1, b2, b3, b4, b5, b6] 51 56 := by byte_omega
  unfold readHumidity44V0
  go_run [es, e]
  have hb := bits_lt [b0, b1, b2, b3, b4, b5, b6] 51 56 6 rfl
  have := scaledF32_eq (bits [b0, b1, b2, b3, b4, b5, b6] 51 56) 100 6 (by omega) (by omega)
  rw [show (((100 : ℕ) : ℚ)) = 100 by norm_num, show (2 : ℚ) ^ 6 = 64 by norm_num] at this
  rw [this, mul_div_assoc]

theorem Humidity44_eval (b0 b1 b2 b3 b4 b5 b6 : UInt8) : readHumidity44 [b0, b1, b2, b3, b4, b5, b6] = .ok (bit [b0, b1, b2, b3, b4, b5, b6] 49, (bits [b0, b1, b2, b3, b4, b5, b6] 50 56 : ℚ)) := by
  have es : (b6 &&& 128 != 0) = bit [b0, b1, b2, b3, b4, b5, b6] 49 := by byte_flag
  have e : (b6 &&& 127).toNat = bits [b0, b1, b2, b3, b4, b5, b6] 50 56 := by byte_omega
  unfold readHumidity44
  go_run [es, e]
  rw [f32_nat _ (by have := bits_lt [b0, b1, b2, b3, b4, b5, b6] 50 56 7 rfl; omega)]

/-- What the code reads in V1. -/
structure RoutineAirReportV1.Layout (d : List UInt8) (m : RoutineAirReportV1) : Prop where
  windSpeedStatus : m.windSpeedStatus = bit d 5
  windSpeed : m.windSpeed.toNat = bits d 7 14
  windDirectionStatus : m.windDirectionStatus = bit d 15
  windDirection : m.windDirection = bits d 16 23 * (180 / 128)
  staticAirTemperatureStatus : m.staticAirTemperatureStatus = bit d 24
  staticAirTemperature : m.staticAirTemperature = sbits d 25 35 * (1 / 8)
  averageStaticPressureStatus : m.averageStaticPressureStatus = bit d 36
  averageStaticPressure : m.averageStaticPressure.toNat = bits d 37 47
  turbulenceFlag : m.turbulenceFlag.toNat = bits d 48 48
  humidityStatus : m.humidityStatus = bit d 49
  humidity : m.humidity = bits d 50 56

/-- What the code reads in V2. -/
structure RoutineAirReportV2.Layout (d : List UInt8) (m : RoutineAirReportV2) : Prop where
  source : m.source.toNat = bits d 1 4
  windSpeedStatus : m.windSpeedStatus = bit d 5
  windSpeed : m.windSpeed.toNat = bits d 7 14
  windDirectionStatus : m.windDirectionStatus = bit d 15
  windDirection : m.windDirection = bits d 16 23 * (180 / 128)
  staticAirTemperatureStatus : m.staticAirTemperatureStatus = bit d 24
  staticAirTemperature : m.staticAirTemperature = sbits d 25 35 * (1 / 8)
  averageStaticPressureStatus : m.averageStaticPressureStatus = bit d 36
  averageStaticPressure : m.averageStaticPressure.toNat = bits d 37 47
  turbulenceFlag : m.turbulenceFlag.toNat = bits d 48 48
  humidityStatus : m.humidityStatus = bit d 49
  humidity : m.humidity = bits d 50 56

/-- What the code reads in version 0: the temperature is the *unsigned* number in bits 25-34, with bit 32, one of its own bits,
taken as the sign. -/
structure RoutineAirReportV0.Layout (d : List UInt8) (m : RoutineAirReportV0) : Prop where
  source : m.source.toNat = bits d 1 4
  windSpeedStatus : m.windSpeedStatus = bit d 5
  windSpeed : m.windSpeed.toNat = bits d 7 14
  windDirectionStatus : m.windDirectionStatus = bit d 5
  windDirection : m.windDirection = bits d 15 23 * (180 / 256)
  staticAirTemperature : m.staticAirTemperature = ((bits d 25 34 : ℚ) - (if bit d 32 then 512 else 0)) / 4
  averageStaticPressureStatus : m.averageStaticPressureStatus = bit d 35
  averageStaticPressure : m.averageStaticPressure.toNat = bits d 36 46
  turbulenceStatus : m.turbulenceStatus = bit d 47
  turbulence : m.turbulence.toNat = bits d 48 49
  humidityStatus : m.humidityStatus = bit d 50
  humidity : m.humidity = bits d 51 56 * (100 / 64)

theorem StaticAirTemperature44V0_eval (b0 b1 b2 b3 b4 b5 b6 : UInt8) : readStaticAirTemperature44V0 [b0, b1, b2, b3, b4, b5, b6] =
    .ok (((bits [b0, b1, b2, b3, b4, b5, b6] 25 34 : ℚ) - (if bit [b0, b1, b2, b3, b4, b5, b6] 32 then 512 else 0)) / 4) := by
  have en : (b3 &&& 1 != 0) = bit [b0, b1, b2, b3, b4, b5, b6] 32 := by byte_flag
  have e : (pack2 (b3 &&& 255) (b4 &&& 192) >>> 6).toNat = bits [b0, b1, b2, b3, b4, b5, b6] 25 34 := by byte_omega
  have hb := bits_lt [b0, b1, b2, b3, b4, b5, b6] 25 34 10 rfl
  unfold readStaticAirTemperature44V0
  go_run [en, e]
  have := temperatureOf_eq (bit [b0, b1, b2, b3, b4, b5, b6] 32) (bits [b0, b1, b2, b3, b4, b5, b6] 25 34) 2 (by omega) (by norm_num)
  rw [show (1 / 2 ^ 2 : ℚ) = 1 / 4 by norm_num, show (2 : ℚ) ^ 2 = 4 by norm_num,
    show (128 * 4 : ℚ) = 512 by norm_num] at this
  rw [this]

theorem source44_bits (b0 b1 b2 b3 b4 b5 b6 : UInt8) : ((b0 &&& 240) >>> 4).toNat = bits [b0, b1, b2, b3, b4, b5, b6] 1 4 := by byte_omega
theorem turbulenceFlag44_bits (b0 b1 b2 b3 b4 b5 b6 : UInt8) : (b5 &&& 1).toNat = bits [b0, b1, b2, b3, b4, b5, b6] 48 48 := by byte_omega

/-- Version 0: readable exactly when it is 7 bytes long. -/
theorem bds44V0_eval (d : List UInt8) :
    (readBDS44V0 d = .error .err ∧ d.length ≠ 7) ∨
    (d.length = 7 ∧ ∃ m, readBDS44V0 d = .ok m ∧ RoutineAirReportV0.Layout d m) := by
  by_cases h7 : d.length = 7
  swap; · exact Or.inl ⟨by unfold readBDS44V0; rw [if_pos h7]; rfl, h7⟩
  refine Or.inr ⟨h7, ?_⟩
  obtain ⟨b0, b1, b2, b3, b4, b5, b6, rfl⟩ := list7 d h7
  obtain ⟨v1, e1, h1⟩ := WindSpeed44_eval b0 b1 b2 b3 b4 b5 b6
  obtain ⟨v2, e2, h2⟩ := AverageStaticPressure44V0_eval b0 b1 b2 b3 b4 b5 b6
  obtain ⟨v3, e3, h3⟩ := Turbulence44_eval b0 b1 b2 b3 b4 b5 b6
  unfold readBDS44V0 readSource44
  go_run [WindDirection44V0_eval, StaticAirTemperature44V0_eval, Humidity44V0_eval, e1, e2, e3]
  exact ⟨_, rfl, source44_bits b0 b1 b2 b3 b4 b5 b6, rfl, h1, rfl, rfl, rfl, rfl, h2, rfl, h3, rfl, rfl⟩

/-- Version 1: readable exactly when it is 7 bytes long and its reserved bits 1-4 are zero. -/
theorem bds44V1_eval (d : List UInt8) :
    (readBDS44V1 d = .error .err ∧ ¬ (d.length = 7 ∧ bits d 1 4 = 0)) ∨
    ((d.length = 7 ∧ bits d 1 4 = 0) ∧ ∃ m, readBDS44V1 d = .ok m ∧ RoutineAirReportV1.Layout d m) := by
  by_cases h7 : d.length = 7
  swap; · exact Or.inl ⟨by unfold readBDS44V1; rw [if_pos h7]; rfl, fun h => h7 h.1⟩
  obtain ⟨b0, b1, b2, b3, b4, b5, b6, rfl⟩ := list7 d h7
  have e0 : b0 &&& 240 = 0 ↔ bits [b0, b1, b2, b3, b4, b5, b6] 1 4 = 0 := by word_nat; byte_omega
  obtain ⟨v1, e1, h1⟩ := WindSpeed44_eval b0 b1 b2 b3 b4 b5 b6
  obtain ⟨v2, e2, h2⟩ := AverageStaticPressure44_eval b0 b1 b2 b3 b4 b5 b6
  unfold readBDS44V1 readTurbulenceFlag44
  go_run [WindDirection44_eval, StaticAirTemperature44_eval, Humidity44_eval, e1, e2]
  by_cases h0 : b0 &&& 240 = 0
  swap; · simp only [if_pos h0]; exact Or.inl ⟨by trivial, fun ha => h0 (e0.2 ha.2)⟩
  rw [if_neg (fun h => h h0)]
  refine Or.inr ⟨⟨trivial, e0.1 h0⟩, _, rfl, ?_⟩
  exact ⟨rfl, h1, rfl, rfl, rfl, rfl, rfl, h2, turbulenceFlag44_bits b0 b1 b2 b3 b4 b5 b6, rfl, rfl⟩

/-- Version 2: readable exactly when it is 7 bytes long. -/
theorem bds44V2_eval (d : List UInt8) :
    (readBDS44V2 d = .error .err ∧ d.length ≠ 7) ∨
    (d.length = 7 ∧ ∃ m, readBDS44V2 d = .ok m ∧ RoutineAirReportV2.Layout d m) := by
  by_cases h7 : d.length = 7
  swap; · exact Or.inl ⟨by unfold readBDS44V2; rw [if_pos h7]; rfl, h7⟩
  refine Or.inr ⟨h7, ?_⟩
  obtain ⟨b0, b1, b2, b3, b4, b5, b6, rfl⟩ := list7 d h7
  obtain ⟨v1, e1, h1⟩ := WindSpeed44_eval b0 b1 b2 b3 b4 b5 b6
  obtain ⟨v2, e2, h2⟩ := AverageStaticPressure44_eval b0 b1 b2 b3 b4 b5 b6
  unfold readBDS44V2 readTurbulenceFlag44 readSource44
  go_run [WindDirection44_eval, StaticAirTemperature44_eval, Humidity44_eval, e1, e2]
  exact ⟨_, rfl, source44_bits b0 b1 b2 b3 b4 b5 b6, rfl, h1, rfl, rfl, rfl, rfl, rfl, h2, turbulenceFlag44_bits b0 b1 b2 b3 b4 b5 b6, rfl, rfl⟩

/-- C49, choice of the layout: by the source field, 0 gives version 1, 1 to 4 give version 2, more is refused; a refused or
badly sized message gives a nil report and an error. It never panics. (The fall-back to version 0 is never needed: version 2
can always be read.) -/
theorem bds44_layout (d : List UInt8) :
    match readBDS44 d with
    | .panics => False
    | .returns (.val (.v1 m)) err => err = false ∧ d.length = 7 ∧ bits d 1 4 = 0 ∧ readBDS44V1 d = .ok m
    | .returns (.val (.v2 m)) err => err = false ∧ d.length = 7 ∧ 1 ≤ bits d 1 4 ∧ bits d 1 4 ≤ 4 ∧ readBDS44V2 d = .ok m
    | .returns (.val (.v0 _)) _ => False
    | .returns .nil err => err = true ∧ (d.length ≠ 7 ∨ 5 ≤ bits d 1 4)
    | .returns .typedNil _ => False := by
  unfold readBDS44
  by_cases h7 : d.length = 7
  swap; · rw [if_pos h7]; exact ⟨rfl, Or.inl h7⟩
  rw [if_neg (fun h => h h7)]
  have hs : ∃ s, readSource44 d = .ok s ∧ s.toNat = bits d 1 4 := by
    obtain ⟨b0, b1, b2, b3, b4, b5, b6, rfl⟩ := list7 d h7
    exact ⟨_, rfl, source44_bits b0 b1 b2 b3 b4 b5 b6⟩
  obtain ⟨s, es, hs⟩ := hs
  rw [es]
  show match (if s = 1 ∨ s = 2 ∨ s = 3 ∨ s = 4 then _ else _ : Call RoutineAirReport) with
    | .panics => False
    | .returns (.val (.v1 m)) err => err = false ∧ d.length = 7 ∧ bits d 1 4 = 0 ∧ readBDS44V1 d = .ok m
    | .returns (.val (.v2 m)) err => err = false ∧ d.length = 7 ∧ 1 ≤ bits d 1 4 ∧ bits d 1 4 ≤ 4 ∧ readBDS44V2 d = .ok m
    | .returns (.val (.v0 _)) _ => False
    | .returns .nil err => err = true ∧ (d.length ≠ 7 ∨ 5 ≤ bits d 1 4)
    | .returns .typedNil _ => False
  simp only [u8_eq, hs, UInt8.reduceToNat, UInt8.toNat_one, UInt8.toNat_zero]
  by_cases hv2 : bits d 1 4 = 1 ∨ bits d 1 4 = 2 ∨ bits d 1 4 = 3 ∨ bits d 1 4 = 4
  · rw [if_pos hv2]
    rcases bds44V2_eval d with ⟨e, hn⟩ | ⟨-, m, hm, -⟩
    · exact absurd h7 hn
    · rw [hm]; exact ⟨rfl, h7, by omega, by omega, rfl⟩
  rw [if_neg hv2]
  by_cases hv1 : bits d 1 4 = 0
  · rw [if_pos hv1]
    rcases bds44V1_eval d with ⟨e, hn⟩ | ⟨-, m, hm, -⟩
    · exact absurd ⟨h7, hv1⟩ hn
    · rw [hm]; exact ⟨rfl, h7, hv1, rfl⟩
  · rw [if_neg hv1]; exact ⟨rfl, Or.inr (by omega)⟩

/-- C49, content of the reports (versions 0, 1, 2). Missing: the first bit of the wind speed, and the sign of the version 0
temperature, see `bds44_wind_refuted` and `bds44_temperature_refuted`; `Layout` says what is read instead. -/
theorem bds44_content_partial (d : List UInt8) :
    (∀ m, readBDS44V0 d = .ok m → RoutineAirReportV0.Layout d m) ∧
    (∀ m, readBDS44V1 d = .ok m → RoutineAirReportV1.Layout d m) ∧
    (∀ m, readBDS44V2 d = .ok m → RoutineAirReportV2.Layout d m) := by
  refine ⟨fun m h => ?_, fun m h => ?_, fun m h => ?_⟩
  · rcases bds44V0_eval d with ⟨e, -⟩ | ⟨-, m', hm, hl⟩
    · rw [e] at h; cases h
    · rw [hm] at h; cases h; exact hl
  · rcases bds44V1_eval d with ⟨e, -⟩ | ⟨-, m', hm, hl⟩
    · rw [e] at h; cases h
    · rw [hm] at h; cases h; exact hl
  · rcases bds44V2_eval d with ⟨e, -⟩ | ⟨-, m', hm, hl⟩
    · rw [e] at h; cases h
    · rw [hm] at h; cases h; exact hl

theorem bits_6_14 (d : List UInt8) (h7 : d.length = 7) : bits d 6 14 = 256 * bits d 6 6 + bits d 7 14 := by
  obtain ⟨b0, b1, b2, b3, b4, b5, b6, rfl⟩ := list7 d h7
  byte_omega

/-- C49, wind speed: the documented number when bit 6 is clear (winds under 256 kt). -/
theorem bds44_wind_partial (d : List UInt8) (m : RoutineAirReportV2) (h : readBDS44V2 d = .ok m) (h6 : bit d 6 = false) :
    m.windSpeed.toNat = bits d 6 14 := by
  have h7 : d.length = 7 := by
    rcases bds44V2_eval d with ⟨e, -⟩ | ⟨h7, -⟩
    · rw [e] at h; cases h
    · exact h7
  rw [((bds44_content_partial d).2.2 m h).windSpeed, bits_6_14 d h7]
  have : bits d 6 6 < 2 := bits_lt d 6 6 1 rfl
  simp only [bit, beq_eq_false_iff_ne] at h6
  omega

/-- C49, the part that is false: when bit 6 is set the wind speed is 256 kt too small, for *every* such message, in every
version. -/
theorem bds44_wind_refuted (d : List UInt8) (h6 : bit d 6 = true) :
    (∀ m, readBDS44V0 d = .ok m → m.windSpeed.toNat + 256 = bits d 6 14) ∧
    (∀ m, readBDS44V1 d = .ok m → m.windSpeed.toNat + 256 = bits d 6 14) ∧
    (∀ m, readBDS44V2 d = .ok m → m.windSpeed.toNat + 256 = bits d 6 14) := by
  have key (h7 : d.length = 7) : bits d 7 14 + 256 = bits d 6 14 := by
    rw [bits_6_14 d h7]
    simp only [bit, beq_iff_eq] at h6
    omega
  refine ⟨fun m h => ?_, fun m h => ?_, fun m h => ?_⟩
  · rcases bds44V0_eval d with ⟨e, -⟩ | ⟨h7, m', hm, hl⟩
    · rw [e] at h; cases h
    · rw [hm] at h; cases h; rw [hl.windSpeed, key h7]
  · rcases bds44V1_eval d with ⟨e, -⟩ | ⟨h7, m', hm, hl⟩
    · rw [e] at h; cases h
    · rw [hm] at h; cases h; rw [hl.windSpeed, key h7.1]
  · rcases bds44V2_eval d with ⟨e, -⟩ | ⟨h7, m', hm, hl⟩
    · rw [e] at h; cases h
    · rw [hm] at h; cases h; rw [hl.windSpeed, key h7]

/-- C49, the part that is false for version 0: a temperature of +2 degrees (number 8, bit 24 clear) is reported as such, but
one of +1 degree (number 4, bit 32 set) as -127. -/
theorem bds44_temperature_refuted : ∃ d m, readBDS44V0 d = .ok m ∧ sbits d 24 34 = 4 ∧ m.staticAirTemperature = -127 := by
  refine ⟨[0, 0, 0, 1, 0, 0, 0], ?_⟩
  rcases bds44V0_eval [0, 0, 0, 1, 0, 0, 0] with ⟨-, hn⟩ | ⟨-, m, hm, hl⟩
  · exact absurd rfl hn
  refine ⟨m, hm, by decide, ?_⟩
  rw [hl.staticAirTemperature, show bits [0, 0, 0, 1, 0, 0, 0] 25 34 = 4 by decide,
    show bit [0, 0, 0, 1, 0, 0, 0] 32 = true by decide]
  norm_num


/-- C46. Coherency of a BDS 4,4 report, V1: some parameter is available, the unavailable ones are zero, wind at most 250 kt,
temperature between -80 and 60 degrees. -/
theorem bds44V1_coherent (m : RoutineAirReportV1) : m.coherent = true ↔
    (m.windSpeedStatus ∨ m.windDirectionStatus ∨ m.staticAirTemperatureStatus ∨ m.averageStaticPressureStatus ∨
      m.humidityStatus) ∧
    (m.windSpeedStatus = false → m.windSpeed = 0) ∧ (m.windDirectionStatus = false → m.windDirection = 0) ∧
    (m.staticAirTemperatureStatus = false → m.staticAirTemperature = 0) ∧
    (m.averageStaticPressureStatus = false → m.averageStaticPressure = 0) ∧
    (m.humidityStatus = false → m.humidity = 0) ∧
    m.windSpeed.toNat ≤ 250 ∧ (-80 ≤ m.staticAirTemperature ∧ m.staticAirTemperature ≤ 60) := by
  unfold RoutineAirReportV1.coherent
  simp only [ite_chain, ite_last, and_true, any5, ne_eq, avail_zero, not_or, not_lt, u32_gt, gt_iff_lt, UInt32.reduceToNat,
    u8_ge, not_le, UInt8.reduceToNat]


/-- C46. Coherency of a BDS 4,4 report, V2: some parameter is available, the unavailable ones are zero, wind at most 250 kt,
temperature between -80 and 60 degrees, known source. -/
theorem bds44V2_coherent (m : RoutineAirReportV2) : m.coherent = true ↔
    m.source.toNat < 5 ∧ (m.windSpeedStatus ∨ m.windDirectionStatus ∨ m.staticAirTemperatureStatus ∨ m.averageStaticPressureStatus ∨
      m.humidityStatus) ∧
    (m.windSpeedStatus = false → m.windSpeed = 0) ∧ (m.windDirectionStatus = false → m.windDirection = 0) ∧
    (m.staticAirTemperatureStatus = false → m.staticAirTemperature = 0) ∧
    (m.averageStaticPressureStatus = false → m.averageStaticPressure = 0) ∧
    (m.humidityStatus = false → m.humidity = 0) ∧
    m.windSpeed.toNat ≤ 250 ∧ (-80 ≤ m.staticAirTemperature ∧ m.staticAirTemperature ≤ 60) := by
  unfold RoutineAirReportV2.coherent
  simp only [ite_chain, ite_last, and_true, any5, ne_eq, avail_zero, not_or, not_lt, u32_gt, gt_iff_lt, UInt32.reduceToNat,
    u8_ge, not_le, UInt8.reduceToNat]


/-- C46. Coherency of a BDS 4,4 report, version 0 (its temperature has no status, and the turbulence is not checked). -/
theorem bds44V0_coherent (m : RoutineAirReportV0) : m.coherent = true ↔
    (m.windSpeedStatus ∨ m.windDirectionStatus ∨ m.averageStaticPressureStatus ∨ m.turbulenceStatus ∨ m.humidityStatus) ∧
    m.source.toNat < 5 ∧
    (m.windSpeedStatus = false → m.windSpeed = 0) ∧ (m.windDirectionStatus = false → m.windDirection = 0) ∧
    (m.averageStaticPressureStatus = false → m.averageStaticPressure = 0) ∧
    (m.humidityStatus = false → m.humidity = 0) ∧
    m.windSpeed.toNat ≤ 250 ∧ (-80 ≤ m.staticAirTemperature ∧ m.staticAirTemperature ≤ 60) := by
  unfold RoutineAirReportV0.coherent
  simp only [ite_chain, ite_last, and_true, any5, ne_eq, avail_zero, not_or, not_lt, u32_gt, gt_iff_lt, UInt32.reduceToNat,
    u8_ge, not_le, UInt8.reduceToNat]

/-- A routine report, source INS, wind 22 kt / 344.5 deg, -48.75 C (documentation example 185BD5CF400000): coherent inputs. -/
example : let d : List UInt8 := [0x18, 0x5B, 0xD5, 0xCF, 0x40, 0x00, 0x00]
    d.length = 7 ∧ bits d 1 4 = 1 ∧ bit d 6 = false ∧ bit d 5 = true ∧ bits d 7 14 = 22 := by decide
example : ∃ m, readBDS44V1 [0x08, 0x5B, 0xD5, 0xCF, 0x40, 0, 0] = .ok m := by
  rcases bds44V1_eval [0x08, 0x5B, 0xD5, 0xCF, 0x40, 0, 0] with ⟨-, hn⟩ | ⟨-, m, hm, -⟩
  · exact absurd (by decide) hn
  · exact ⟨m, hm⟩

end Modes
