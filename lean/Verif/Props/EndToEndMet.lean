import Verif.Props.EndToEndCommB
/-!
# C89, C90: selected altitudes and weather reports, from the aircraft to the candidates
-/
namespace Spec

/-- The weather an airliner may report in BDS 4,4: wind up to 250 knots, temperature between -80 and 60 degrees, pressure up to 2047 hPa, humidity up to
100 %. -/
structure Weather44 (wind temperature pressure humidity : Option ℝ) : Prop where
  wind_range : ∀ x, wind = some x → 0 ≤ x ∧ x ≤ 250
  temperature_range : ∀ x, temperature = some x → -80 ≤ x ∧ x ≤ 60
  pressure_range : ∀ x, pressure = some x → 0 ≤ x ∧ x ≤ 2047
  humidity_range : ∀ x, humidity = some x → 0 ≤ x ∧ x ≤ 100

/-- The weather an airliner may report in BDS 4,5: levels 0 to 3, temperature between -80 and 60 degrees, radio height up to 8190 feet, eddy dissipation
rates up to 1.26, delay to the peak below 16. -/
structure Weather45 (shear burst icing wake : Option Nat) (temperature height : Option ℝ) (turbulence : Option (ℝ × ℝ × Nat)) : Prop where
  shear_range : ∀ x, shear = some x → x ≤ 3
  burst_range : ∀ x, burst = some x → x ≤ 3
  icing_range : ∀ x, icing = some x → x ≤ 3
  wake_range : ∀ x, wake = some x → x ≤ 3
  temperature_range : ∀ x, temperature = some x → -80 ≤ x ∧ x ≤ 60
  height_range : ∀ x, height = some x → 0 ≤ x ∧ x ≤ 8190
  turbulence_range : ∀ t, turbulence = some t → (0 ≤ t.1 ∧ t.1 ≤ 1.26) ∧ (0 ≤ t.2.1 ∧ t.2.1 ≤ 1.26) ∧ t.2.2 ≤ 15

/-- The code received for a parameter: available and the code sent, or not available and zero. -/
def ReceivedCode (sent : Option Nat) (status : Bool) (value : Nat) : Prop :=
  (∀ x, sent = some x → status = true ∧ value = x) ∧ (sent = none → status = false ∧ value = 0)

end Spec
namespace Modes
open Spec

/-- An angle in a field read as an unsigned number: no condition on the angle sent. -/
theorem angle_unsigned_param (d : List UInt8) (s n : Nat) (step : ℝ) (o : Option ℝ) (hs : 0 < step) (hl : s + n ≤ 8 * d.length)
    (hc : step * 2 ^ n = 360) (h : bits d s (s + n) = param n (o.map (twosCode n step))) :
    bit d s = o.isSome ∧ ReceivedAngle o (bit d s) (bits d (s + 1) (s + n) * step) (step / 2) ∧ (bit d s = false → bits d (s + 1) (s + n) = 0) := by
  obtain ⟨h1, h2⟩ := param_bits d s n _ hl (by
    intro c hc
    obtain ⟨x, -, rfl⟩ := Option.map_eq_some_iff.1 hc
    exact twosCode_lt n step x) h
  rw [h2]
  cases o with
  | none => exact ⟨h1, ⟨fun x hx => (by cases hx), fun _ => ⟨h1, by simp⟩⟩, fun _ => rfl⟩
  | some x =>
    obtain ⟨i, hi⟩ := twosCode_mod n step x
    have hcl := floor_close step x hs
    refine ⟨h1, ⟨fun y hy => ?_, fun hy => (by cases hy)⟩, fun hb => (by rw [h1] at hb; cases hb)⟩
    cases hy
    refine ⟨h1, -i, ?_⟩
    simp only [Option.map_some, Option.getD_some]
    have hi' : (twosCode n step x : ℝ) = (⌊x / step + 1 / 2⌋ : ℝ) - 2 ^ n * i := by exact_mod_cast hi
    rw [hi', ← hc]
    push_cast
    have e : ((⌊x / step + 1 / 2⌋ : ℝ) - 2 ^ n * i) * step - x - step * 2 ^ n * (-i) = (⌊x / step + 1 / 2⌋ : ℝ) * step - x := by ring
    rw [e]; exact hcl

/-- A parameter that is a code. -/
theorem code_param (d : List UInt8) (s n : Nat) (o : Option Nat) (hl : s + n ≤ 8 * d.length) (ho : ∀ x, o = some x → x < 2 ^ n)
    (h : bits d s (s + n) = param n o) :
    bit d s = o.isSome ∧ ReceivedCode o (bit d s) (bits d (s + 1) (s + n)) ∧ (bit d s = false → bits d (s + 1) (s + n) = 0) := by
  obtain ⟨h1, h2⟩ := param_bits d s n o hl ho h
  rw [h2]
  cases o with
  | none => exact ⟨h1, ⟨fun x hx => (by cases hx), fun _ => ⟨h1, rfl⟩⟩, fun _ => rfl⟩
  | some x => exact ⟨h1, ⟨fun y hy => (by cases hy; exact ⟨h1, rfl⟩), fun hy => (by cases hy)⟩, fun hb => (by rw [h1] at hb; cases hb)⟩

/-- A register that does not begin with 0x20 (or then has no first character) and not of the form of BDS 0,7 is not one of the unambiguous ones. -/
theorem ambiguous_register' (d : List UInt8) (h1 : bits d 1 8 = 0x20 → bits d 9 14 = 0) (hz : ¬ (bits d 4 6 = 0 ∧ bits d 9 56 = 0)) (hz1 : bits d 1 56 ≠ 0)
    (m : CommBMessage) (hm : Candidate d m) : m.unambiguous = false := by
  cases m with
  | bds00 x =>
    exfalso
    have := hm.1
    rcases bds00_eval d with ⟨e, -⟩ | ⟨⟨-, h0⟩, -⟩
    · simp only [ReadsAs, e] at this; cases this
    · exact hz1 h0
  | bds07 x =>
    exfalso
    have := hm.1
    rcases bds07_eval d with ⟨e, -⟩ | ⟨⟨-, h0⟩, -⟩
    · simp only [ReadsAs, e] at this; cases this
    · exact hz h0
  | bds20 x =>
    exfalso
    have hr : readBDS20 d = .ok x := hm.1
    have hc := (bds20_coherent_iff d x hr).1 hm.2 0 (by norm_num)
    rw [bds20_eval] at hr
    split at hr
    · rename_i he
      have h0 : identField d 0 = 0 := h1 he.2
      rw [h0] at hc
      obtain ⟨c, hc, -⟩ := hc
      exact absurd hc (by simp [identOf])
    · cases hr
  | _ => rfl

/-- The candidates are those of the register that was sent. -/
theorem receivesCommB_candidate (format header address : Nat) (mb f : List UInt8) (hh : ReadableHeader format header) (hmb : mb.length = 7)
    (h : IsCommBReply format header address mb f) (l : List CommBMessage) (hl : ReceivesCommB f address l) :
    readCommBMessage mb = .ok (l.map Iface.val) ∧ ∀ m ∈ l, Candidate mb m := by
  obtain ⟨m, mb', a, hm, hx, -, -, hread⟩ := hl
  obtain ⟨m', hm', hx', -⟩ := commB_reply_received format header address _ f hh.1 hh.2.1 hh.2.2 hmb h
  rw [hm] at hm'; cases hm'
  have e : mb' = mb := by
    rcases hx with ⟨x, rfl, rfl⟩ | ⟨x, rfl, rfl⟩ <;> rcases hx' with ⟨-, y, hy, hy'⟩ | ⟨-, y, hy, hy'⟩ <;> cases hy <;> exact hy'
  subst e
  obtain ⟨l', hl', -, hcand, -⟩ := commB_sound_complete mb' hmb
  have hinj : l = l' := by
    rw [hread] at hl'
    have : Function.Injective (Iface.val : CommBMessage → Iface CommBMessage) := fun a b e => by cases e; rfl
    exact List.map_injective_iff.2 this (Except.ok.inj hl')
  exact ⟨hread, fun m hm => hcand m (hinj ▸ hm)⟩

/-! ## BDS 4,4 -/

/-- What is received of the weather sent in BDS 4,4. -/
def ReceivedWeather44 (source : Nat) (wind direction temperature pressure : Option ℝ) (turbulence : Nat) (humidity : Option ℝ) : RoutineAirReport → Prop
  | .v0 _ => False
  | .v1 r => source = 0 ∧ Received wind r.windSpeedStatus r.windSpeed.toNat (1 / 2) ∧ ReceivedAngle direction r.windDirectionStatus r.windDirection (45 / 64) ∧
      Received temperature r.staticAirTemperatureStatus r.staticAirTemperature (1 / 16) ∧
      Received pressure r.averageStaticPressureStatus r.averageStaticPressure.toNat (1 / 2) ∧ r.turbulenceFlag.toNat = turbulence ∧
      Received humidity r.humidityStatus r.humidity (1 / 2)
  | .v2 r => r.source.toNat = source ∧ Received wind r.windSpeedStatus r.windSpeed.toNat (1 / 2) ∧ ReceivedAngle direction r.windDirectionStatus r.windDirection (45 / 64) ∧
      Received temperature r.staticAirTemperatureStatus r.staticAirTemperature (1 / 16) ∧
      Received pressure r.averageStaticPressureStatus r.averageStaticPressure.toNat (1 / 2) ∧ r.turbulenceFlag.toNat = turbulence ∧
      Received humidity r.humidityStatus r.humidity (1 / 2)

theorem routineReport_bits (source : Nat) (wind direction temperature pressure : Option ℝ) (turbulence : Nat) (humidity : Option ℝ) (hsrc : source ≤ 4)
    (ht : turbulence ≤ 1) (h : Weather44 wind temperature pressure humidity) :
    let d := routineReportField source wind direction temperature pressure turbulence humidity
    bits d 1 4 = source ∧ bits d 5 (5 + 9) = param 9 (wind.map (unsignedCode 1)) ∧ bits d 15 (15 + 8) = param 8 (direction.map (twosCode 8 (180 / 128))) ∧
    bits d 24 (24 + 11) = param 11 (temperature.map (twosCode 11 (1 / 8))) ∧ bits d 36 (36 + 11) = param 11 (pressure.map (unsignedCode 1)) ∧
    bits d 48 48 = turbulence ∧ bits d 49 (49 + 7) = param 7 (humidity.map (unsignedCode 1)) := by
  intro d
  have h1 := param_lt 9 (wind.map (unsignedCode 1)) (by
    intro c hc; obtain ⟨x, hx, rfl⟩ := Option.map_eq_some_iff.1 hc
    have := (unsigned_range 1 x 250 (by norm_num) (h.wind_range x hx).1 (by have := (h.wind_range x hx).2; push_cast; linarith)).1; omega)
  have h2 := param_lt 8 (direction.map (twosCode 8 (180 / 128))) (by
    intro c hc; obtain ⟨x, -, rfl⟩ := Option.map_eq_some_iff.1 hc; exact twosCode_lt _ _ _)
  have h3 := param_lt 11 (temperature.map (twosCode 11 (1 / 8))) (by
    intro c hc; obtain ⟨x, -, rfl⟩ := Option.map_eq_some_iff.1 hc; exact twosCode_lt _ _ _)
  have h4 := param_lt 11 (pressure.map (unsignedCode 1)) (by
    intro c hc; obtain ⟨x, hx, rfl⟩ := Option.map_eq_some_iff.1 hc
    have := (unsigned_range 1 x 2047 (by norm_num) (h.pressure_range x hx).1 (by have := (h.pressure_range x hx).2; push_cast; linarith)).1; omega)
  have h5 := param_lt 7 (humidity.map (unsignedCode 1)) (by
    intro c hc; obtain ⟨x, hx, rfl⟩ := Option.map_eq_some_iff.1 hc
    have := (unsigned_range 1 x 100 (by norm_num) (h.humidity_range x hx).1 (by have := (h.humidity_range x hx).2; push_cast; linarith)).1; omega)
  have hd : d = toBytes 7 (source * 2 ^ 52 + param 9 (wind.map (unsignedCode 1)) * 2 ^ 42 + param 8 (direction.map (twosCode 8 (180 / 128))) * 2 ^ 33 +
    param 11 (temperature.map (twosCode 11 (1 / 8))) * 2 ^ 21 + param 11 (pressure.map (unsignedCode 1)) * 2 ^ 9 + turbulence * 2 ^ 8 +
    param 7 (humidity.map (unsignedCode 1))) := rfl
  generalize param 9 (wind.map (unsignedCode 1)) = a at *
  generalize param 8 (direction.map (twosCode 8 (180 / 128))) = b at *
  generalize param 11 (temperature.map (twosCode 11 (1 / 8))) = c at *
  generalize param 11 (pressure.map (unsignedCode 1)) = e at *
  generalize param 7 (humidity.map (unsignedCode 1)) = g at *
  rw [hd]
  norm_num at h1 h2 h3 h4 h5 ⊢
  refine ⟨?_, ?_, ?_, ?_, ?_, ?_, ?_⟩ <;> (rw [bits_toBytes7 _ _ _ (by norm_num; omega)]; norm_num; omega)

theorem temperature_range_bits (d : List UInt8) (s : Nat) (hl : s + 11 ≤ 8 * d.length) (o : Option ℝ) (ho : ∀ x, o = some x → -80 ≤ x ∧ x ≤ 60)
    (h : Received o (bit d s) (sbits d (s + 1) (s + 11) * (1 / 8 : ℝ)) (1 / 8 / 2)) : -80 ≤ (sbits d (s + 1) (s + 11) : ℚ) * (1 / 8) ∧ (sbits d (s + 1) (s + 11) : ℚ) * (1 / 8) ≤ 60 := by
  have key : -640 ≤ sbits d (s + 1) (s + 11) ∧ sbits d (s + 1) (s + 11) ≤ 480 := by
    cases o with
    | none =>
      have := (h.2 rfl).2
      have hz : (sbits d (s + 1) (s + 11) : ℝ) = 0 := by linarith
      have hz : sbits d (s + 1) (s + 11) = 0 := by exact_mod_cast hz
      omega
    | some x =>
      have h1 := abs_le.1 (h.1 x rfl).2
      have h2 := ho x rfl
      have a : (-641 : ℝ) < sbits d (s + 1) (s + 11) := by linarith
      have b : (sbits d (s + 1) (s + 11) : ℝ) < 481 := by linarith
      have a : -641 < sbits d (s + 1) (s + 11) := by exact_mod_cast a
      have b : sbits d (s + 1) (s + 11) < 481 := by exact_mod_cast b
      omega
  have a : (-640 : ℚ) ≤ sbits d (s + 1) (s + 11) := by exact_mod_cast key.1
  have b : (sbits d (s + 1) (s + 11) : ℚ) ≤ 480 := by exact_mod_cast key.2
  constructor <;> linarith

/-- C90, BDS 4,4. An aircraft reports the weather, with the source of its navigation data or without it; the report is among the candidates, with the values
sent up to half a step of their coding. -/
theorem routineReport_end_to_end (format header address source : Nat) (wind direction temperature pressure : Option ℝ) (turbulence : Nat) (humidity : Option ℝ)
    (hh : ReadableHeader format header) (hsrc : source ≤ 4) (ht : turbulence ≤ 1) (hs : Weather44 wind temperature pressure humidity)
    (hany : wind.isSome ∨ direction.isSome ∨ temperature.isSome ∨ pressure.isSome ∨ humidity.isSome) (f : List UInt8)
    (h : IsCommBReply format header address (routineReportField source wind direction temperature pressure turbulence humidity) f) :
    ∃ l r, ReceivesCommB f address l ∧ CommBMessage.bds44 r ∈ l ∧ ReceivedWeather44 source wind direction temperature pressure turbulence humidity r := by
  obtain ⟨b0, b1, b2, b3, b4, b5, b6⟩ := routineReport_bits source wind direction temperature pressure turbulence humidity hsrc ht hs
  have h7 : (routineReportField source wind direction temperature pressure turbulence humidity).length = 7 := toBytes_length 7 _
  generalize hd : routineReportField source wind direction temperature pressure turbulence humidity = d at *
  obtain ⟨s1, v1, r1, z1⟩ := unsigned_param d 5 9 250 1 wind (by norm_num) (by omega) (by norm_num)
    (fun x hx => ⟨(hs.wind_range x hx).1, (hs.wind_range x hx).2.trans (by norm_num)⟩) b1
  obtain ⟨s2, v2, z2⟩ := angle_unsigned_param d 15 8 (180 / 128) direction (by norm_num) (by omega) (by norm_num) b2
  obtain ⟨s3, v3, -, z3⟩ := signed_param d 24 11 640 (1 / 8) temperature (by norm_num) (by norm_num) (by omega) (by norm_num)
    (fun x hx => abs_le.2 (by have := hs.temperature_range x hx; constructor <;> norm_num <;> linarith)) b3
  obtain ⟨s4, v4, r4, z4⟩ := unsigned_param d 36 11 2047 1 pressure (by norm_num) (by omega) (by norm_num)
    (fun x hx => ⟨(hs.pressure_range x hx).1, (hs.pressure_range x hx).2.trans (by norm_num)⟩) b4
  obtain ⟨s5, v5, r5, z5⟩ := unsigned_param d 49 7 100 1 humidity (by norm_num) (by omega) (by norm_num)
    (fun x hx => ⟨(hs.humidity_range x hx).1, (hs.humidity_range x hx).2.trans (by norm_num)⟩) b6
  have rt := temperature_range_bits d 24 (by omega) temperature hs.temperature_range v3
  norm_num only [mul_one] at v1 v2 v3 v4 v5 r1 r4 r5 z1 z2 z3 z4 z5 rt
  have h614 := bits_6_14 d h7
  have hw : bits d 7 14 = bits d 6 14 := by omega
  have hany' : bit d 5 = true ∨ bit d 15 = true ∨ bit d 24 = true ∨ bit d 36 = true ∨ bit d 49 = true := by rw [s1, s2, s3, s4, s5]; exact hany
  have hnz : ¬ (bits d 4 6 = 0 ∧ bits d 9 56 = 0) := by
    rintro ⟨g1, g2⟩
    rcases hany' with g | g | g | g | g
    · exact bits_pos d 4 5 6 (by norm_num) (by norm_num) (by omega) g g1
    · exact bits_pos d 9 15 56 (by norm_num) (by norm_num) (by omega) g g2
    · exact bits_pos d 9 24 56 (by norm_num) (by norm_num) (by omega) g g2
    · exact bits_pos d 9 36 56 (by norm_num) (by norm_num) (by omega) g g2
    · exact bits_pos d 9 49 56 (by norm_num) (by norm_num) (by omega) g g2
  have hz1 : bits d 1 56 ≠ 0 := by
    rcases hany' with g | g | g | g | g
    · exact bits_pos d 1 5 56 (by norm_num) (by norm_num) (by omega) g
    · exact bits_pos d 1 15 56 (by norm_num) (by norm_num) (by omega) g
    · exact bits_pos d 1 24 56 (by norm_num) (by norm_num) (by omega) g
    · exact bits_pos d 1 36 56 (by norm_num) (by norm_num) (by omega) g
    · exact bits_pos d 1 49 56 (by norm_num) (by norm_num) (by omega) g
  have h20 : bits d 1 8 = 0x20 → bits d 9 14 = 0 := by
    intro g
    have hb5 : bit d 5 = false := by
      obtain ⟨c0, c1, c2, c3, c4, c5, c6, rfl⟩ := list7 d h7
      unfold bit
      have : bits [c0, c1, c2, c3, c4, c5, c6] 5 5 = 0 := by revert g; byte_omega
      rw [this]; rfl
    have hz := z1 hb5
    obtain ⟨c0, c1, c2, c3, c4, c5, c6, rfl⟩ := list7 d h7
    revert hz; byte_omega
  obtain ⟨l, hl, -, -, hall⟩ := commB_sound_complete d h7
  have hmem := hall (ambiguous_register' d h20 hnz hz1)
  have hrecv := commB_delivered format header address d f hh h7 h l hl
  have hlay := bds44_layout d
  by_cases hs0 : source = 0
  · rcases bds44V1_eval d with ⟨-, hn⟩ | ⟨-, m, hm, hc⟩
    · exact absurd ⟨h7, b0.trans hs0⟩ hn
    have hr : readBDS44 d = .returns (.val (.v1 m)) false := by
      rcases call44 d with ⟨a, ha⟩ | ha
      · rw [ha] at hlay
        cases a with
        | v0 x => exact hlay.elim
        | v1 x => have := hlay.2.2.2; rw [hm] at this; cases this; exact ha
        | v2 x => have := hlay.2.2.1; omega
      · rw [ha] at hlay; have := hlay.2; omega
    have hco : m.coherent = true := (bds44V1_coherent m).2 ⟨by
        rw [hc.windSpeedStatus, hc.windDirectionStatus, hc.staticAirTemperatureStatus, hc.averageStaticPressureStatus, hc.humidityStatus]; exact hany',
      fun g => UInt32.toNat_inj.1 (by rw [hc.windSpeed, hw, z1 (hc.windSpeedStatus ▸ g)]; rfl),
      fun g => by rw [hc.windDirection, z2 (hc.windDirectionStatus ▸ g)]; norm_num,
      fun g => by rw [hc.staticAirTemperature, z3 (hc.staticAirTemperatureStatus ▸ g)]; norm_num,
      fun g => UInt32.toNat_inj.1 (by rw [hc.averageStaticPressure, z4 (hc.averageStaticPressureStatus ▸ g)]; rfl),
      fun g => by rw [hc.humidity, z5 (hc.humidityStatus ▸ g)]; norm_num,
      by rw [hc.windSpeed, hw]; exact r1, by rw [hc.staticAirTemperature]; exact rt⟩
    refine ⟨l, .v1 m, hrecv, (hmem _).2 ⟨hr, hco⟩, ?_, ?_, ?_, ?_, ?_, ?_, ?_⟩
    · exact hs0
    · exact received_cast v1 hc.windSpeedStatus (by rw [hc.windSpeed, hw])
    · exact receivedAngle_cast v2 hc.windDirectionStatus (by rw [hc.windDirection]; push_cast; ring)
    · exact received_cast v3 hc.staticAirTemperatureStatus (by rw [hc.staticAirTemperature]; push_cast; ring)
    · exact received_cast v4 hc.averageStaticPressureStatus (by rw [hc.averageStaticPressure])
    · rw [hc.turbulenceFlag, b5]
    · exact received_cast v5 hc.humidityStatus (by rw [hc.humidity]; push_cast; ring)
  · rcases bds44V2_eval d with ⟨-, hn⟩ | ⟨-, m, hm, hc⟩
    · exact absurd h7 hn
    have hr : readBDS44 d = .returns (.val (.v2 m)) false := by
      rcases call44 d with ⟨a, ha⟩ | ha
      · rw [ha] at hlay
        cases a with
        | v0 x => exact hlay.elim
        | v1 x => have := hlay.2.2.1; omega
        | v2 x => have := hlay.2.2.2.2; rw [hm] at this; cases this; exact ha
      · rw [ha] at hlay; have := hlay.2; omega
    have hco : m.coherent = true := (bds44V2_coherent m).2 ⟨by rw [hc.source, b0]; omega, by
        rw [hc.windSpeedStatus, hc.windDirectionStatus, hc.staticAirTemperatureStatus, hc.averageStaticPressureStatus, hc.humidityStatus]; exact hany',
      fun g => UInt32.toNat_inj.1 (by rw [hc.windSpeed, hw, z1 (hc.windSpeedStatus ▸ g)]; rfl),
      fun g => by rw [hc.windDirection, z2 (hc.windDirectionStatus ▸ g)]; norm_num,
      fun g => by rw [hc.staticAirTemperature, z3 (hc.staticAirTemperatureStatus ▸ g)]; norm_num,
      fun g => UInt32.toNat_inj.1 (by rw [hc.averageStaticPressure, z4 (hc.averageStaticPressureStatus ▸ g)]; rfl),
      fun g => by rw [hc.humidity, z5 (hc.humidityStatus ▸ g)]; norm_num,
      by rw [hc.windSpeed, hw]; exact r1, by rw [hc.staticAirTemperature]; exact rt⟩
    refine ⟨l, .v2 m, hrecv, (hmem _).2 ⟨hr, hco⟩, ?_, ?_, ?_, ?_, ?_, ?_, ?_⟩
    · exact hc.source.trans b0
    · exact received_cast v1 hc.windSpeedStatus (by rw [hc.windSpeed, hw])
    · exact receivedAngle_cast v2 hc.windDirectionStatus (by rw [hc.windDirection]; push_cast; ring)
    · exact received_cast v3 hc.staticAirTemperatureStatus (by rw [hc.staticAirTemperature]; push_cast; ring)
    · exact received_cast v4 hc.averageStaticPressureStatus (by rw [hc.averageStaticPressure])
    · rw [hc.turbulenceFlag, b5]
    · exact received_cast v5 hc.humidityStatus (by rw [hc.humidity]; push_cast; ring)

/-! ## BDS 4,5 -/

theorem turbulenceCode_lt (t : ℝ × ℝ × Nat) (h1 : 0 ≤ t.1 ∧ t.1 ≤ 1.26) (h2 : 0 ≤ t.2.1 ∧ t.2.1 ≤ 1.26) (h3 : t.2.2 ≤ 15) :
    unsignedCode (1 / 50) t.1 ≤ 63 ∧ unsignedCode (1 / 50) t.2.1 ≤ 63 ∧ turbulenceCode t < 2 ^ 16 := by
  have a := (unsigned_range (1 / 50) t.1 63 (by norm_num) h1.1 (by have := h1.2; norm_num at this ⊢; linarith)).1
  have b := (unsigned_range (1 / 50) t.2.1 63 (by norm_num) h2.1 (by have := h2.2; norm_num at this ⊢; linarith)).1
  refine ⟨a, b, ?_⟩
  unfold turbulenceCode
  generalize unsignedCode (1 / 50) t.1 = x at *
  generalize unsignedCode (1 / 50) t.2.1 = y at *
  norm_num; omega

theorem hazardReport_bits (shear burst icing wake : Option Nat) (temperature height : Option ℝ) (turbulence : Option (ℝ × ℝ × Nat))
    (h : Weather45 shear burst icing wake temperature height turbulence) :
    let d := hazardReportField shear burst icing wake temperature height turbulence
    bits d 1 (1 + 2) = param 2 shear ∧ bits d 4 (4 + 2) = param 2 burst ∧ bits d 7 (7 + 2) = param 2 icing ∧ bits d 10 (10 + 2) = param 2 wake ∧
    bits d 13 (13 + 11) = param 11 (temperature.map (twosCode 11 (1 / 8))) ∧ bits d 25 (25 + 12) = param 12 (height.map (unsignedCode 2)) ∧
    bits d 38 (38 + 16) = param 16 (turbulence.map turbulenceCode) ∧ bits d 55 56 = 0 := by
  intro d
  have h1 := param_lt 2 shear (fun c hc => by have := h.shear_range c hc; omega)
  have h2 := param_lt 2 burst (fun c hc => by have := h.burst_range c hc; omega)
  have h3 := param_lt 2 icing (fun c hc => by have := h.icing_range c hc; omega)
  have h4 := param_lt 2 wake (fun c hc => by have := h.wake_range c hc; omega)
  have h5 := param_lt 11 (temperature.map (twosCode 11 (1 / 8))) (by
    intro c hc; obtain ⟨x, -, rfl⟩ := Option.map_eq_some_iff.1 hc; exact twosCode_lt _ _ _)
  have h6 := param_lt 12 (height.map (unsignedCode 2)) (by
    intro c hc; obtain ⟨x, hx, rfl⟩ := Option.map_eq_some_iff.1 hc
    have := (unsigned_range 2 x 4095 (by norm_num) (h.height_range x hx).1 (by have := (h.height_range x hx).2; push_cast; linarith)).1; omega)
  have h7 := param_lt 16 (turbulence.map turbulenceCode) (by
    intro c hc; obtain ⟨x, hx, rfl⟩ := Option.map_eq_some_iff.1 hc
    have ⟨a, b, e⟩ := h.turbulence_range x hx
    exact (turbulenceCode_lt x a b e).2.2)
  have hd : d = toBytes 7 (param 2 shear * 2 ^ 53 + param 2 burst * 2 ^ 50 + param 2 icing * 2 ^ 47 + param 2 wake * 2 ^ 44 +
    param 11 (temperature.map (twosCode 11 (1 / 8))) * 2 ^ 32 + param 12 (height.map (unsignedCode 2)) * 2 ^ 19 + param 16 (turbulence.map turbulenceCode) * 2 ^ 2) := rfl
  generalize param 2 shear = a at *
  generalize param 2 burst = b at *
  generalize param 2 icing = c at *
  generalize param 2 wake = e at *
  generalize param 11 (temperature.map (twosCode 11 (1 / 8))) = g at *
  generalize param 12 (height.map (unsignedCode 2)) = i at *
  generalize param 16 (turbulence.map turbulenceCode) = j at *
  rw [hd]
  norm_num at h1 h2 h3 h4 h5 h6 h7 ⊢
  refine ⟨?_, ?_, ?_, ?_, ?_, ?_, ?_, ?_⟩ <;> (rw [bits_toBytes7 _ _ _ (by norm_num; omega)]; norm_num; omega)

theorem bits_split_39_54 (d : List UInt8) (h7 : d.length = 7) :
    bits d 39 44 = bits d 39 54 / 2 ^ 10 ∧ bits d 45 50 = bits d 39 54 / 2 ^ 4 % 2 ^ 6 ∧ bits d 51 54 = bits d 39 54 % 2 ^ 4 := by
  unfold bits; rw [h7]; norm_num; omega

theorem edr_close (c : Nat) (v : ℚ) (x : ℝ) (hv : |v - c / 50| ≤ 1 / 1048576) (hx0 : 0 ≤ x) (hx : x ≤ 1.26) (hcx : c = unsignedCode (1 / 50) x) :
    |(v : ℝ) - x| ≤ 1 / 100 + 1 / 2 ^ 20 := by
  have a : |(v : ℝ) - c / 50| ≤ 1 / 1048576 := by
    have := (Rat.cast_le (K := ℝ)).2 hv
    push_cast at this
    exact this
  have b := (unsigned_range (1 / 50) x 63 (by norm_num) hx0 (by norm_num at hx ⊢; linarith)).2
  rw [← hcx] at b
  rw [abs_le] at *
  norm_num at a b ⊢
  constructor <;> linarith

theorem hazard_turbulence (d : List UInt8) (m : HazardReportV1) (h7 : d.length = 7) (hc : HazardReportV1.Layout d m) (turbulence : Option (ℝ × ℝ × Nat))
    (hs : ∀ t, turbulence = some t → (0 ≤ t.1 ∧ t.1 ≤ 1.26) ∧ (0 ≤ t.2.1 ∧ t.2.1 ≤ 1.26) ∧ t.2.2 ≤ 15)
    (b7 : bits d 38 (38 + 16) = param 16 (turbulence.map turbulenceCode)) :
    Received (turbulence.map (·.1)) m.turbulenceStatus m.turbulenceAverageEDR (1 / 100 + 1 / 2 ^ 20) ∧
    Received (turbulence.map (·.2.1)) m.turbulenceStatus m.turbulencePeakEDR (1 / 100 + 1 / 2 ^ 20) ∧
    ReceivedCode (turbulence.map (·.2.2)) m.turbulenceStatus m.turbulencePeakDelayInterval.toNat := by
  obtain ⟨s7, v7, z7⟩ := code_param d 38 16 (turbulence.map turbulenceCode) (by omega) (by
    intro c hc; obtain ⟨x, hx, rfl⟩ := Option.map_eq_some_iff.1 hc
    have ⟨a, b, e⟩ := hs x hx
    exact (turbulenceCode_lt x a b e).2.2) b7
  norm_num only at v7 z7
  rw [Option.isSome_map] at s7
  obtain ⟨p1, p2, p3⟩ := bits_split_39_54 d h7
  cases ht : turbulence with
  | none =>
    have hst : bit d 38 = false := by rw [s7, ht]; rfl
    have hz := z7 hst
    rw [hz] at p1 p2 p3
    have e := hc.turbulenceStatus.trans hst
    exact ⟨⟨fun x hx => (by cases hx), fun _ => ⟨e, by rw [hc.averageEDR_zero p1]; simp⟩⟩,
      ⟨fun x hx => (by cases hx), fun _ => ⟨e, by rw [hc.peakEDR_zero p2]; simp⟩⟩,
      ⟨fun x hx => (by cases hx), fun _ => ⟨e, by rw [hc.peakDelay, p3]; rfl⟩⟩⟩
  | some t =>
    obtain ⟨g1, g2⟩ := v7.1 (turbulenceCode t) (by rw [ht]; rfl)
    have ⟨q1, q2, q3⟩ := hs t ht
    obtain ⟨c1, c2, -⟩ := turbulenceCode_lt t q1 q2 q3
    rw [g2] at p1 p2 p3
    unfold turbulenceCode at p1 p2 p3
    have e1 : bits d 39 44 = unsignedCode (1 / 50) t.1 := by omega
    have e2 : bits d 45 50 = unsignedCode (1 / 50) t.2.1 := by omega
    have e3 : bits d 51 54 = t.2.2 := by omega
    have e := hc.turbulenceStatus.trans g1
    exact ⟨⟨fun x hx => (by cases hx; exact ⟨e, edr_close _ _ _ hc.averageEDR q1.1 q1.2 e1⟩), fun hx => (by cases hx)⟩,
      ⟨fun x hx => (by cases hx; exact ⟨e, edr_close _ _ _ hc.peakEDR q2.1 q2.2 e2⟩), fun hx => (by cases hx)⟩,
      ⟨fun x hx => (by cases hx; exact ⟨e, hc.peakDelay.trans e3⟩), fun hx => (by cases hx)⟩⟩

/-- C90, BDS 4,5. An aircraft reports the hazards it meets; the report is among the candidates, with the levels sent and the values up to half a step of their
coding. Missing: reports of wind shear or icing alone, for which it is false (`hazardReport_refuted`). -/
theorem hazardReport_end_to_end_partial (format header address : Nat) (shear burst icing wake : Option Nat) (temperature height : Option ℝ)
    (turbulence : Option (ℝ × ℝ × Nat)) (hh : ReadableHeader format header) (hs : Weather45 shear burst icing wake temperature height turbulence)
    (hany : burst.isSome ∨ wake.isSome ∨ temperature.isSome ∨ height.isSome ∨ turbulence.isSome) (f : List UInt8)
    (h : IsCommBReply format header address (hazardReportField shear burst icing wake temperature height turbulence) f) :
    ∃ l r, ReceivesCommB f address l ∧ CommBMessage.bds45 (.v1 r) ∈ l ∧
      ReceivedCode shear r.windShearStatus r.windShear.toNat ∧ ReceivedCode burst r.microBurstStatus r.microBurst.toNat ∧
      ReceivedCode icing r.icingStatus r.icing.toNat ∧ ReceivedCode wake r.wakeVortexStatus r.wakeVortex.toNat ∧
      Received temperature r.staticAirTemperatureStatus r.staticAirTemperature (1 / 16) ∧ Received height r.radioHeightStatus r.radioHeight.toNat 1 ∧
      Received (turbulence.map (·.1)) r.turbulenceStatus r.turbulenceAverageEDR (1 / 100 + 1 / 2 ^ 20) ∧
      Received (turbulence.map (·.2.1)) r.turbulenceStatus r.turbulencePeakEDR (1 / 100 + 1 / 2 ^ 20) ∧
      ReceivedCode (turbulence.map (·.2.2)) r.turbulenceStatus r.turbulencePeakDelayInterval.toNat := by
  obtain ⟨b1, b2, b3, b4, b5, b6, b7, b8⟩ := hazardReport_bits shear burst icing wake temperature height turbulence hs
  have h7 : (hazardReportField shear burst icing wake temperature height turbulence).length = 7 := toBytes_length 7 _
  generalize hd : hazardReportField shear burst icing wake temperature height turbulence = d at *
  obtain ⟨s1, v1, z1⟩ := code_param d 1 2 shear (by omega) (fun c hc => by have := hs.shear_range c hc; omega) b1
  obtain ⟨s2, v2, z2⟩ := code_param d 4 2 burst (by omega) (fun c hc => by have := hs.burst_range c hc; omega) b2
  obtain ⟨s3, v3, z3⟩ := code_param d 7 2 icing (by omega) (fun c hc => by have := hs.icing_range c hc; omega) b3
  obtain ⟨s4, v4, z4⟩ := code_param d 10 2 wake (by omega) (fun c hc => by have := hs.wake_range c hc; omega) b4
  obtain ⟨s5, v5, -, z5⟩ := signed_param d 13 11 640 (1 / 8) temperature (by norm_num) (by norm_num) (by omega) (by norm_num)
    (fun x hx => abs_le.2 (by have := hs.temperature_range x hx; constructor <;> norm_num <;> linarith)) b5
  obtain ⟨s6, v6, r6, z6⟩ := unsigned_param d 25 12 4095 2 height (by norm_num) (by omega) (by norm_num)
    (fun x hx => ⟨(hs.height_range x hx).1, (hs.height_range x hx).2.trans (by norm_num)⟩) b6
  obtain ⟨s7, v7, z7⟩ := code_param d 38 16 (turbulence.map turbulenceCode) (by omega) (by
    intro c hc; obtain ⟨x, hx, rfl⟩ := Option.map_eq_some_iff.1 hc
    have ⟨a, b, e⟩ := hs.turbulence_range x hx
    exact (turbulenceCode_lt x a b e).2.2) b7
  have rt := temperature_range_bits d 13 (by omega) temperature hs.temperature_range v5
  norm_num only at v1 v2 v3 v4 v5 v6 v7 r6 z1 z2 z3 z4 z5 z6 z7 rt
  rw [Option.isSome_map] at s7
  obtain ⟨p1, p2, p3⟩ := bits_split_39_54 d h7
  have hany' : bit d 4 = true ∨ bit d 10 = true ∨ bit d 13 = true ∨ bit d 25 = true ∨ bit d 38 = true := by rw [s2, s4, s5, s6, s7]; exact hany
  have hnz : ¬ (bits d 4 6 = 0 ∧ bits d 9 56 = 0) := by
    rintro ⟨g1, g2⟩
    rcases hany' with g | g | g | g | g
    · exact bits_pos d 4 4 6 (by norm_num) (by norm_num) (by omega) g g1
    · exact bits_pos d 9 10 56 (by norm_num) (by norm_num) (by omega) g g2
    · exact bits_pos d 9 13 56 (by norm_num) (by norm_num) (by omega) g g2
    · exact bits_pos d 9 25 56 (by norm_num) (by norm_num) (by omega) g g2
    · exact bits_pos d 9 38 56 (by norm_num) (by norm_num) (by omega) g g2
  have hz1 : bits d 1 56 ≠ 0 := by
    rcases hany' with g | g | g | g | g
    · exact bits_pos d 1 4 56 (by norm_num) (by norm_num) (by omega) g
    · exact bits_pos d 1 10 56 (by norm_num) (by norm_num) (by omega) g
    · exact bits_pos d 1 13 56 (by norm_num) (by norm_num) (by omega) g
    · exact bits_pos d 1 25 56 (by norm_num) (by norm_num) (by omega) g
    · exact bits_pos d 1 38 56 (by norm_num) (by norm_num) (by omega) g
  have h20 : bits d 1 8 = 0x20 → bits d 9 14 = 0 := by
    intro g
    exfalso
    have hb1 : bit d 1 = false := by
      obtain ⟨c0, c1, c2, c3, c4, c5, c6, rfl⟩ := list7 d h7
      unfold bit
      have : bits [c0, c1, c2, c3, c4, c5, c6] 1 1 = 0 := by revert g; byte_omega
      rw [this]; rfl
    have hz := z1 hb1
    obtain ⟨c0, c1, c2, c3, c4, c5, c6, rfl⟩ := list7 d h7
    revert hz g; byte_omega
  obtain ⟨l, hl, -, -, hall⟩ := commB_sound_complete d h7
  have hmem := hall (ambiguous_register' d h20 hnz hz1)
  have hrecv := commB_delivered format header address d f hh h7 h l hl
  have hlay := bds45_layout d
  rcases bds45V1_eval d with ⟨-, hn⟩ | ⟨-, m, hm, hc⟩
  · exact absurd ⟨h7, b8⟩ hn
  have hr : readBDS45 d = .returns (.val (.v1 m)) false := by
    rcases call45 d with ⟨a, ha⟩ | ha
    · rw [ha] at hlay
      cases a with
      | v0 x => exact hlay.elim
      | v1 x => have := hlay.2.2.2; rw [hm] at this; cases this; exact ha
    · rw [ha] at hlay; have := hlay.2.1; omega
  have hco : m.coherent = true := (bds45V1_coherent m).2 ⟨by
      rw [hc.turbulenceStatus, hc.windShearStatus, hc.microBurstStatus, hc.icingStatus, hc.wakeVortexStatus, hc.staticAirTemperatureStatus, hc.radioHeightStatus]
      rcases hany' with g | g | g | g | g <;> simp only [g, true_or, or_true],
    fun g => by
      have hz := z7 (hc.turbulenceStatus ▸ g)
      rw [hz] at p1 p2 p3
      exact ⟨hc.averageEDR_zero p1, hc.peakEDR_zero p2, UInt8.toNat_inj.1 (by rw [hc.peakDelay, p3]; rfl)⟩,
    fun g => UInt8.toNat_inj.1 (by rw [hc.windShear, z1 (hc.windShearStatus ▸ g)]; rfl),
    fun g => UInt8.toNat_inj.1 (by rw [hc.microBurst, z2 (hc.microBurstStatus ▸ g)]; rfl),
    fun g => UInt8.toNat_inj.1 (by rw [hc.icing, z3 (hc.icingStatus ▸ g)]; rfl),
    fun g => UInt8.toNat_inj.1 (by rw [hc.wakeVortex, z4 (hc.wakeVortexStatus ▸ g)]; rfl),
    fun _ => by rw [hc.staticAirTemperature]; exact rt,
    fun _ => hc.averageStaticPressure,
    fun g => UInt32.toNat_inj.1 (by rw [hc.radioHeight, z6 (hc.radioHeightStatus ▸ g)]; rfl)⟩
  refine ⟨l, m, hrecv, (hmem _).2 ⟨hr, hco⟩, ?_, ?_, ?_, ?_, ?_, ?_, ?_, ?_, ?_⟩
  · rw [hc.windShearStatus, hc.windShear]; exact v1
  · rw [hc.microBurstStatus, hc.microBurst]; exact v2
  · rw [hc.icingStatus, hc.icing]; exact v3
  · rw [hc.wakeVortexStatus, hc.wakeVortex]; exact v4
  · exact received_cast v5 hc.staticAirTemperatureStatus (by rw [hc.staticAirTemperature]; push_cast; ring)
  · exact received_cast v6 hc.radioHeightStatus (by rw [hc.radioHeight]; push_cast; ring)
  · exact (hazard_turbulence d m h7 hc turbulence hs.turbulence_range b7).1
  · exact (hazard_turbulence d m h7 hc turbulence hs.turbulence_range b7).2.1
  · exact (hazard_turbulence d m h7 hc turbulence hs.turbulence_range b7).2.2

/-- C90 is false of the code for an aircraft that reports no or light wind shear and nothing else: the report is taken for a BDS 0,7 one, the only candidate. -/
theorem hazardReport_refuted (format header address : Nat) (shear : Nat) (hx : shear ≤ 1) (hh : ReadableHeader format header) (f : List UInt8)
    (h : IsCommBReply format header address (hazardReportField (some shear) none none none none none none) f) (l : List CommBMessage)
    (hl : ReceivesCommB f address l) : ∃ m, l = [.bds07 m] := by
  have h7 : (hazardReportField (some shear) none none none none none none).length = 7 := toBytes_length 7 _
  obtain ⟨hread, -⟩ := receivesCommB_candidate format header address _ f hh h7 h l hl
  have hw : Weather45 (some shear) none none none none none none :=
    ⟨fun x e => (by cases e; omega), nofun, nofun, nofun, nofun, nofun, nofun⟩
  have hb : hazardReportField (some shear) none none none none none none = toBytes 7 ((4 + shear) * 2 ^ 53) := by
    unfold hazardReportField
    simp [param]
  rw [hb] at hread h7
  have e1 : bits (toBytes 7 ((4 + shear) * 2 ^ 53)) 1 56 ≠ 0 := by rw [bits_toBytes7 _ _ _ (by norm_num; omega)]; norm_num; omega
  have e2 : bits (toBytes 7 ((4 + shear) * 2 ^ 53)) 4 6 = 0 := by rw [bits_toBytes7 _ _ _ (by norm_num; omega)]; norm_num; omega
  have e3 : bits (toBytes 7 ((4 + shear) * 2 ^ 53)) 9 56 = 0 := by rw [bits_toBytes7 _ _ _ (by norm_num; omega)]; norm_num; omega
  have e4 : bits (toBytes 7 ((4 + shear) * 2 ^ 53)) 1 2 = 2 := by rw [bits_toBytes7 _ _ _ (by norm_num; omega)]; norm_num; omega
  rcases bds07_eval (toBytes 7 ((4 + shear) * 2 ^ 53)) with ⟨-, hn⟩ | ⟨-, m, hm, hr, -⟩
  · exact absurd ⟨h7, e2, e3⟩ hn
  have hco : m.coherent = true := by
    unfold Status07.coherent
    have : ¬ m.transmissionRateSubfield ≥ 3 := by
      rw [ge_iff_le, UInt8.le_iff_toNat_le, hr, e4]; decide
    simp [this]
  have := (commB_unambiguous (toBytes 7 ((4 + shear) * 2 ^ 53))).2.1 m e1 ⟨hm, hco⟩
  rw [hread] at this
  refine ⟨m, ?_⟩
  have inj : Function.Injective (Iface.val : CommBMessage → Iface CommBMessage) := fun a b e => by cases e; rfl
  exact List.map_injective_iff.2 inj (Except.ok.inj this)

/-! ## BDS 4,0 -/

theorem selectedAltitude_bits (mcp fms pressure : Option ℝ) (modeStatus vnav hold approach sourceStatus source : Nat)
    (hm : ∀ x, mcp = some x → 0 ≤ x ∧ x ≤ 65520) (hf : ∀ x, fms = some x → 0 ≤ x ∧ x ≤ 65520) (hp : ∀ x, pressure = some x → 800 ≤ x ∧ x ≤ 1209.5)
    (h1 : modeStatus ≤ 1) (h2 : vnav ≤ 1) (h3 : hold ≤ 1) (h4 : approach ≤ 1) (h5 : sourceStatus ≤ 1) (h6 : source ≤ 3) :
    let d := selectedAltitudeField mcp fms pressure modeStatus vnav hold approach sourceStatus source
    bits d 1 (1 + 12) = param 12 (mcp.map (unsignedCode 16)) ∧ bits d 14 (14 + 12) = param 12 (fms.map (unsignedCode 16)) ∧
    bits d 27 (27 + 12) = param 12 (pressure.map fun p => unsignedCode (1 / 10) (p - 800)) ∧ bits d 40 47 = 0 ∧ bits d 48 48 = modeStatus ∧
    bits d 49 49 = vnav ∧ bits d 50 50 = hold ∧ bits d 51 51 = approach ∧ bits d 52 53 = 0 ∧ bits d 54 54 = sourceStatus ∧ bits d 55 56 = source := by
  intro d
  have g1 := param_lt 12 (mcp.map (unsignedCode 16)) (by
    intro c hc; obtain ⟨x, hx, rfl⟩ := Option.map_eq_some_iff.1 hc
    have := (unsigned_range 16 x 4095 (by norm_num) (hm x hx).1 (by have := (hm x hx).2; push_cast; linarith)).1; omega)
  have g2 := param_lt 12 (fms.map (unsignedCode 16)) (by
    intro c hc; obtain ⟨x, hx, rfl⟩ := Option.map_eq_some_iff.1 hc
    have := (unsigned_range 16 x 4095 (by norm_num) (hf x hx).1 (by have := (hf x hx).2; push_cast; linarith)).1; omega)
  have g3 := param_lt 12 (pressure.map fun p => unsignedCode (1 / 10) (p - 800)) (by
    intro c hc; obtain ⟨x, hx, rfl⟩ := Option.map_eq_some_iff.1 hc
    have := (unsigned_range (1 / 10) (x - 800) 4095 (by norm_num) (by have := (hp x hx).1; linarith) (by have := (hp x hx).2; norm_num at this ⊢; linarith)).1
    omega)
  have hd : d = toBytes 7 (param 12 (mcp.map (unsignedCode 16)) * 2 ^ 43 + param 12 (fms.map (unsignedCode 16)) * 2 ^ 30 +
    param 12 (pressure.map fun p => unsignedCode (1 / 10) (p - 800)) * 2 ^ 17 + modeStatus * 2 ^ 8 + vnav * 2 ^ 7 + hold * 2 ^ 6 + approach * 2 ^ 5 +
    sourceStatus * 2 ^ 2 + source) := rfl
  generalize param 12 (mcp.map (unsignedCode 16)) = a at *
  generalize param 12 (fms.map (unsignedCode 16)) = b at *
  generalize param 12 (pressure.map fun p => unsignedCode (1 / 10) (p - 800)) = c at *
  rw [hd]
  norm_num at g1 g2 g3 ⊢
  refine ⟨?_, ?_, ?_, ?_, ?_, ?_, ?_, ?_, ?_, ?_, ?_⟩ <;> (rw [bits_toBytes7 _ _ _ (by norm_num; omega)]; norm_num; omega)

/-- C89, what is received: when the aircraft reports both altitudes, the report is among the candidates; the altitude shown for the MCP/FCU is the one of the
FMS and the other way round; the pressure setting is always said to be available, and is the one sent if there is one, else 800. -/
theorem selectedAltitude_shown (format header address : Nat) (a b : ℝ) (pressure : Option ℝ) (modeStatus vnav hold approach sourceStatus source : Nat)
    (hh : ReadableHeader format header) (ha : 0 ≤ a ∧ a ≤ 65520) (hb : 0 ≤ b ∧ b ≤ 65520) (hp : ∀ x, pressure = some x → 800 ≤ x ∧ x ≤ 1209.5)
    (h1 : modeStatus ≤ 1) (h2 : vnav ≤ 1) (h3 : hold ≤ 1) (h4 : approach ≤ 1) (h5 : sourceStatus ≤ 1) (h6 : source ≤ 3) (f : List UInt8)
    (h : IsCommBReply format header address (selectedAltitudeField (some a) (some b) pressure modeStatus vnav hold approach sourceStatus source) f) :
    ∃ l r, ReceivesCommB f address l ∧ CommBMessage.bds40 r ∈ l ∧
      Received (some b) r.mcpfcuSelectedAltitudeAvailable r.mcpfcuSelectedAltitude.toNat 8 ∧
      Received (some a) r.fmsSelectedAltitudeAvailable r.fmsSelectedAltitude.toNat 8 ∧
      Received (some (pressure.getD 800)) r.barometricPressureSettingAvailable r.barometricPressureSetting (1 / 20 + 1 / 4096) ∧
      r.statusOfModeBits.toNat = modeStatus ∧ r.vnavMode = (vnav == 1) ∧ r.altitudeHoldMode = (hold == 1) ∧ r.approachMode = (approach == 1) ∧
      r.statusOfTargetAltitudeSource.toNat = sourceStatus ∧ r.targetAltitudeSource.toNat = source := by
  obtain ⟨b1, b2, b3, b4, b5, b6, b7, b8, b9, b10, b11⟩ := selectedAltitude_bits (some a) (some b) pressure modeStatus vnav hold approach sourceStatus source
    (fun x e => (by cases e; exact ha)) (fun x e => (by cases e; exact hb)) hp h1 h2 h3 h4 h5 h6
  have h7 : (selectedAltitudeField (some a) (some b) pressure modeStatus vnav hold approach sourceStatus source).length = 7 := toBytes_length 7 _
  generalize hd : selectedAltitudeField (some a) (some b) pressure modeStatus vnav hold approach sourceStatus source = d at *
  obtain ⟨s1, v1, r1, z1⟩ := unsigned_param d 1 12 4095 16 (some a) (by norm_num) (by omega) (by norm_num)
    (fun x e => (by cases e; exact ⟨ha.1, ha.2.trans (by norm_num)⟩)) b1
  obtain ⟨s2, v2, r2, z2⟩ := unsigned_param d 14 12 4095 16 (some b) (by norm_num) (by omega) (by norm_num)
    (fun x e => (by cases e; exact ⟨hb.1, hb.2.trans (by norm_num)⟩)) b2
  have hpm : (pressure.map fun p => unsignedCode (1 / 10) (p - 800)) = (pressure.map (· - 800)).map (unsignedCode (1 / 10)) := by
    rw [Option.map_map]; rfl
  rw [hpm] at b3
  obtain ⟨s3, v3, r3, z3⟩ := unsigned_param d 27 12 4095 (1 / 10) (pressure.map (· - 800)) (by norm_num) (by omega) (by norm_num)
    (fun x e => by
      obtain ⟨y, hy, rfl⟩ := Option.map_eq_some_iff.1 e
      have := hp y hy
      norm_num at this ⊢
      constructor <;> linarith) b3
  norm_num only at v1 v2 v3 r1 r2 r3 z1 z2 z3
  rcases bds40_eval d with ⟨-, hn⟩ | ⟨-, m, hm, hc, -⟩
  · exact absurd ⟨h7, b4, b9⟩ hn
  have hco : m.coherent = true := (bds40_coherent d m hm).2.2 ⟨s1, Or.inl s2⟩
  have hcand : Candidate d (.bds40 m) := ⟨hm, hco⟩
  obtain ⟨l, hl, -, -, hall⟩ := commB_sound_complete d h7
  have pr : |(m.barometricPressureSetting : ℝ) - (800 + bits d 28 39 * (1 / 10))| ≤ 1 / 4096 := by
    have := (Rat.cast_le (K := ℝ)).2 (f32_pressure_near _ (bits_lt d 28 39 12 rfl))
    rw [← hc.barometricPressureSetting] at this
    push_cast at this
    exact this
  have av1 : bit d 1 = true := s1
  have av14 : bit d 14 = true := s2
  refine ⟨l, m, commB_delivered format header address d f hh h7 h l hl, (hall (ambiguous_register d h7 (Or.inl s1) 14 (by norm_num) s2) _).2 hcand, ?_, ?_, ?_, ?_, ?_,
    ?_, ?_, ?_, ?_⟩
  · rw [hc.mcpfcuSelectedAltitudeAvailable, av1, hc.mcpfcuSelectedAltitude]
    rw [av14] at v2
    exact received_cast v2 rfl (by push_cast; ring)
  · rw [hc.fmsSelectedAltitudeAvailable, av14, hc.fmsSelectedAltitude]
    rw [av1] at v1
    exact received_cast v1 rfl (by push_cast; ring)
  · rw [hc.barometricPressureSettingAvailable, av1]
    refine ⟨fun x hx => ⟨rfl, ?_⟩, fun hx => (by cases hx)⟩
    cases hx
    cases hpr : pressure with
    | none =>
      have := (v3.2 (by rw [hpr]; rfl)).2
      rw [this] at pr
      simp only [Option.getD_none]
      rw [abs_le] at *
      norm_num at pr this ⊢
      constructor <;> linarith
    | some y =>
      have := (v3.1 (y - 800) (by rw [hpr]; rfl)).2
      simp only [Option.getD_some]
      rw [abs_le] at *
      norm_num at pr this ⊢
      constructor <;> linarith
  · rw [hc.statusOfModeBits, b5]
  · rw [hc.vnavMode]; unfold bit; rw [b6]
  · rw [hc.altitudeHoldMode]; unfold bit; rw [b7]
  · rw [hc.approachMode]; unfold bit; rw [b8]
  · rw [hc.statusOfTargetAltitudeSource, b10]
  · rw [hc.targetAltitudeSource, b11]

/-- C89. An aircraft that reports the same altitude for the MCP/FCU and the FMS, and its pressure setting: the report is among the candidates with the values
sent. Missing: the two altitudes different, or one of the three values not available (`selectedAltitude_refuted`). -/
theorem selectedAltitude_end_to_end_partial (format header address : Nat) (mcp fms pressure : Option ℝ) (modeStatus vnav hold approach sourceStatus source : Nat)
    (hh : ReadableHeader format header) (ha : ∀ x, mcp = some x → 0 ≤ x ∧ x ≤ 65520) (hsame : mcp = fms) (hall : mcp.isSome ∧ pressure.isSome)
    (hp : ∀ x, pressure = some x → 800 ≤ x ∧ x ≤ 1209.5)
    (h1 : modeStatus ≤ 1) (h2 : vnav ≤ 1) (h3 : hold ≤ 1) (h4 : approach ≤ 1) (h5 : sourceStatus ≤ 1) (h6 : source ≤ 3) (f : List UInt8)
    (h : IsCommBReply format header address (selectedAltitudeField mcp fms pressure modeStatus vnav hold approach sourceStatus source) f) :
    ∃ l r, ReceivesCommB f address l ∧ CommBMessage.bds40 r ∈ l ∧
      Received mcp r.mcpfcuSelectedAltitudeAvailable r.mcpfcuSelectedAltitude.toNat 8 ∧
      Received fms r.fmsSelectedAltitudeAvailable r.fmsSelectedAltitude.toNat 8 ∧
      Received pressure r.barometricPressureSettingAvailable r.barometricPressureSetting (1 / 20 + 1 / 4096) ∧
      r.statusOfModeBits.toNat = modeStatus ∧ r.vnavMode = (vnav == 1) ∧ r.altitudeHoldMode = (hold == 1) ∧ r.approachMode = (approach == 1) ∧
      r.statusOfTargetAltitudeSource.toNat = sourceStatus ∧ r.targetAltitudeSource.toNat = source := by
  obtain ⟨a, rfl⟩ := Option.isSome_iff_exists.1 hall.1
  obtain ⟨p, rfl⟩ := Option.isSome_iff_exists.1 hall.2
  subst hsame
  exact selectedAltitude_shown format header address a a (some p) modeStatus vnav hold approach sourceStatus source hh (ha a rfl) (ha a rfl) hp h1 h2 h3 h4 h5
    h6 f h

/-- C89 is false of the code otherwise. An aircraft that reports two altitudes more than 16 feet apart: what is shown for the MCP/FCU is not its altitude. An
aircraft that reports no MCP/FCU altitude, or reports one and no FMS altitude: the report is not understood at all. -/
theorem selectedAltitude_refuted (format header address : Nat) (mcp fms pressure : Option ℝ) (modeStatus vnav hold approach sourceStatus source : Nat)
    (hh : ReadableHeader format header) (ha : ∀ x, mcp = some x → 0 ≤ x ∧ x ≤ 65520) (hb : ∀ x, fms = some x → 0 ≤ x ∧ x ≤ 65520)
    (hp : ∀ x, pressure = some x → 800 ≤ x ∧ x ≤ 1209.5)
    (h1 : modeStatus ≤ 1) (h2 : vnav ≤ 1) (h3 : hold ≤ 1) (h4 : approach ≤ 1) (h5 : sourceStatus ≤ 1) (h6 : source ≤ 3) (f : List UInt8)
    (h : IsCommBReply format header address (selectedAltitudeField mcp fms pressure modeStatus vnav hold approach sourceStatus source) f)
    (l : List CommBMessage) (hl : ReceivesCommB f address l) (r : SelectedVerticalIntention) (hr : CommBMessage.bds40 r ∈ l) :
    mcp ≠ none ∧ (∀ a, mcp = some a → 8 < a → fms ≠ none) ∧
    (∀ a b, mcp = some a → fms = some b → 16 < |a - b| → 8 < |(r.mcpfcuSelectedAltitude.toNat : ℝ) - a| ∧ 8 < |(r.fmsSelectedAltitude.toNat : ℝ) - b|) := by
  obtain ⟨b1, b2, -, -⟩ := selectedAltitude_bits mcp fms pressure modeStatus vnav hold approach sourceStatus source
    ha hb hp h1 h2 h3 h4 h5 h6
  have h7 : (selectedAltitudeField mcp fms pressure modeStatus vnav hold approach sourceStatus source).length = 7 := toBytes_length 7 _
  obtain ⟨-, hcand⟩ := receivesCommB_candidate format header address _ f hh h7 h l hl
  generalize hd : selectedAltitudeField mcp fms pressure modeStatus vnav hold approach sourceStatus source = d at *
  obtain ⟨s1, v1, r1, z1⟩ := unsigned_param d 1 12 4095 16 mcp (by norm_num) (by omega) (by norm_num)
    (fun x e => ⟨(ha x e).1, (ha x e).2.trans (by norm_num)⟩) b1
  obtain ⟨s2, v2, r2, z2⟩ := unsigned_param d 14 12 4095 16 fms (by norm_num) (by omega) (by norm_num)
    (fun x e => ⟨(hb x e).1, (hb x e).2.trans (by norm_num)⟩) b2
  norm_num only at v1 v2 z1 z2
  obtain ⟨hm, hco⟩ := hcand _ hr
  have hc := bds40_actual d r hm
  obtain ⟨c1, c2⟩ := (bds40_coherent d r hm).2.1 hco
  refine ⟨?_, ?_, ?_⟩
  · rintro rfl
    rw [s1] at c1; cases c1
  · rintro a rfl h8 rfl
    have v := (v1.1 a rfl).2
    rw [s2] at c2
    rcases c2 with c2 | c2
    · cases c2
    · rw [c2] at v
      rw [abs_le] at v
      norm_num at v
      linarith [v.1]
  · rintro a b rfl rfl hab
    have w1 := (v1.1 a rfl).2
    have w2 := (v2.1 b rfl).2
    rw [hc.mcpfcuSelectedAltitude, hc.fmsSelectedAltitude]
    push_cast
    have t1 := abs_sub_abs_le_abs_sub (b - a) (b - 16 * (bits d 15 26 : ℝ))
    have t2 := abs_sub_abs_le_abs_sub (a - b) (a - 16 * (bits d 2 13 : ℝ))
    have q1 : (b - a) - (b - 16 * (bits d 15 26 : ℝ)) = 16 * (bits d 15 26 : ℝ) - a := by ring
    have q2 : (a - b) - (a - 16 * (bits d 2 13 : ℝ)) = 16 * (bits d 2 13 : ℝ) - b := by ring
    rw [q1] at t1
    rw [q2] at t2
    have e1 : |b - 16 * (bits d 15 26 : ℝ)| ≤ 8 := by rw [abs_sub_comm, mul_comm]; exact w2.trans (by norm_num)
    have e2 : |a - 16 * (bits d 2 13 : ℝ)| ≤ 8 := by rw [abs_sub_comm, mul_comm]; exact w1.trans (by norm_num)
    rw [abs_sub_comm b a] at t1
    constructor <;> linarith

/-- The hypotheses are met: both altitudes 37008 feet, 1013.2 millibars. -/
example : ∃ f l r, ReceivesCommB f 0x4840D6 l ∧ CommBMessage.bds40 r ∈ l ∧ |(r.mcpfcuSelectedAltitude.toNat : ℝ) - 37008| ≤ 8 ∧
    |(r.barometricPressureSetting : ℝ) - 1013.2| ≤ 1 / 10 := by
  obtain ⟨f, hf⟩ := isCommBReply_exists 21 0x1A2B3 0x4840D6 (selectedAltitudeField (some 37008) (some 37008) (some 1013.2) 1 0 1 0 1 2) (by norm_num)
  obtain ⟨l, r, h1, h2, h3, -, h5, -⟩ := selectedAltitude_end_to_end_partial 21 0x1A2B3 0x4840D6 (some 37008) (some 37008) (some 1013.2) 1 0 1 0 1 2
    ⟨Or.inr rfl, by norm_num, nofun⟩ (fun x e => (by cases e; norm_num)) rfl ⟨rfl, rfl⟩ (fun x e => (by cases e; norm_num)) (by norm_num) (by norm_num)
    (by norm_num) (by norm_num) (by norm_num) (by norm_num) f hf
  exact ⟨f, l, r, h1, h2, (h3.1 _ rfl).2, ((h5.1 _ rfl).2).trans (by norm_num)⟩

/-- The hypotheses are met: wind 64 knots from 287 degrees, -51.3 degrees, source GNSS. -/
example : ∃ f l r, ReceivesCommB f 0x4840D6 l ∧ CommBMessage.bds44 (.v2 r) ∈ l ∧ r.windSpeedStatus = true ∧ |(r.staticAirTemperature : ℝ) + 51.3| ≤ 1 / 16 := by
  obtain ⟨f, hf⟩ := isCommBReply_exists 21 0x1A2B3 0x4840D6 (routineReportField 2 (some 64) (some 287) (some (-51.3)) none 0 none) (by norm_num)
  obtain ⟨l, r, h1, h2, h3⟩ := routineReport_end_to_end 21 0x1A2B3 0x4840D6 2 (some 64) (some 287) (some (-51.3)) none 0 none
    ⟨Or.inr rfl, by norm_num, nofun⟩ (by norm_num) (by norm_num)
    ⟨fun x e => (by cases e; norm_num), fun x e => (by cases e; norm_num), nofun, nofun⟩ (Or.inl rfl) f hf
  cases r with
  | v0 r => exact h3.elim
  | v1 r => exact absurd h3.1 (by norm_num)
  | v2 r =>
    refine ⟨f, l, r, h1, h2, (h3.2.1.1 _ rfl).1, ?_⟩
    have := (h3.2.2.2.1.1 _ rfl).2
    rwa [sub_neg_eq_add] at this

/-- The hypotheses are met: moderate icing, -12 degrees, turbulence 0.35 on average and 0.5 at the peak. -/
example : ∃ f l r, ReceivesCommB f 0x4840D6 l ∧ CommBMessage.bds45 (.v1 r) ∈ l ∧ r.icing.toNat = 2 ∧ |(r.turbulencePeakEDR : ℝ) - 0.5| ≤ 1 / 50 := by
  obtain ⟨f, hf⟩ := isCommBReply_exists 21 0x1A2B3 0x4840D6 (hazardReportField none none (some 2) none (some (-12)) none (some (0.35, 0.5, 3))) (by norm_num)
  obtain ⟨l, r, h1, h2, -, -, h3, -, -, -, -, h4, -⟩ := hazardReport_end_to_end_partial 21 0x1A2B3 0x4840D6 none none (some 2) none (some (-12)) none
    (some (0.35, 0.5, 3)) ⟨Or.inr rfl, by norm_num, nofun⟩
    ⟨nofun, nofun, fun x e => (by cases e; norm_num), nofun, fun x e => (by cases e; norm_num), nofun, fun x e => (by cases e; norm_num)⟩
    (Or.inr (Or.inr (Or.inl rfl))) f hf
  exact ⟨f, l, r, h1, h2, (h3.1 _ rfl).2, ((h4.1 _ rfl).2).trans (by norm_num)⟩

end Modes
