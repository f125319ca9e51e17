import Verif.Spec.CommB
import Verif.Props.EndToEndMet
import Verif.Props.EndToEndACAS
/-!
# C95: which registers are offered, from the bits of the field
-/
set_option linter.unusedVariables false
open Spec
namespace Modes

theorem sbits_zero_iff (d : List UInt8) (f l : Nat) (h1 : f ≤ l) (h2 : l ≤ 8 * d.length) : sbits d f l = 0 ↔ bits d f l = 0 := by
  have h := bits_lt d f l _ rfl
  unfold sbits
  split
  · constructor
    · intro h0
      have : (bits d f l : ℤ) < 2 ^ (l + 1 - f) := by exact_mod_cast h
      omega
    · intro h0
      rename_i hb
      exact absurd h0 (bits_pos d f f l le_rfl h1 h2 hb)
  · exact_mod_cast Iff.rfl

/-- Every bit of a field that is zero is clear, and conversely. -/
theorem bits_zero_iff (d : List UInt8) (i j : Nat) (hj : j ≤ 8 * d.length) :
    bits d i j = 0 ↔ ∀ k, i ≤ k → k ≤ j → bit d k = false := by
  constructor
  · intro h k h1 h2
    by_contra hb
    exact bits_pos d i k j h1 h2 hj (by simpa using hb) h
  · intro h
    apply Nat.eq_of_testBit_eq
    intro t
    rw [Nat.zero_testBit]
    unfold bits
    rw [Nat.testBit_mod_two_pow, Nat.testBit_div_two_pow]
    by_cases ht : t < j + 1 - i
    · have := h (j - t) (by omega) (by omega)
      rw [bit_testBit] at this
      rw [show t + (8 * d.length - j) = 8 * d.length - (j - t) by omega]
      simp [this]
    · simp [ht]


theorem CharCode_iff : ∀ n < 64, CharCode n ↔ ∃ c, identOf n = some c ∧ IdentChar c := by
  intro n hn
  unfold identOf IdentChar
  by_cases h1 : 1 ≤ n ∧ n ≤ 26
  · rw [if_pos h1]
    exact ⟨fun _ => ⟨_, rfl, by rw [UInt8.toNat_ofNat']; omega⟩, fun _ => Or.inl h1⟩
  rw [if_neg h1]
  by_cases h2 : n = 32 ∨ (48 ≤ n ∧ n ≤ 57)
  · rw [if_pos h2]
    exact ⟨fun _ => ⟨_, rfl, by rw [UInt8.toNat_ofNat']; omega⟩, fun _ => Or.inr h2⟩
  rw [if_neg h2]
  refine ⟨fun h => ?_, fun ⟨c, h, _⟩ => nomatch h⟩
  rcases h with h | h
  · exact absurd h h1
  · exact absurd h h2

theorem says00 (d : List UInt8) (h7 : d.length = 7) : Says00 d ↔ ∃ m, Candidate d (.bds00 m) := by
  unfold Says00 Candidate ReadsAs
  rcases bds00_eval d with ⟨e, hn⟩ | ⟨⟨-, h⟩, e⟩
  · rw [e]
    exact ⟨fun h => absurd ⟨h7, h⟩ hn, fun ⟨m, h, _⟩ => nomatch h⟩
  · rw [e]; exact ⟨fun _ => ⟨_, rfl, rfl⟩, fun _ => h⟩

theorem says07 (d : List UInt8) (h7 : d.length = 7) : Says07 d ↔ ∃ m, Candidate d (.bds07 m) := by
  unfold Says07 Candidate ReadsAs
  rcases bds07_eval d with ⟨e, hn⟩ | ⟨⟨-, ha, hb⟩, m, e, h1, -⟩
  · rw [e]
    exact ⟨fun h => absurd ⟨h7, h.1, h.2.1⟩ hn, fun ⟨m, h, _⟩ => nomatch h⟩
  · rw [e]
    have hc : (CommBMessage.bds07 m).coherent = true ↔ bits d 1 2 ≤ 2 := by
      show m.coherent = true ↔ _
      unfold Status07.coherent
      rw [← h1]
      simp only [ge_iff_le, Bool.not_eq_true', decide_eq_false_iff_not, u8_le]
      show ¬ 3 ≤ _ ↔ _
      omega
    constructor
    · rintro ⟨-, -, h⟩; exact ⟨m, rfl, hc.2 h⟩
    · rintro ⟨m', h, h'⟩; cases h; exact ⟨ha, hb, hc.1 h'⟩

theorem says20 (d : List UInt8) (h7 : d.length = 7) : Says20 d ↔ ∃ m, Candidate d (.bds20 m) := by
  have key (m : AircraftIdentification) (h : readBDS20 d = .ok m) : m.coherent = true ↔
      CharCode (bits d 9 14) ∧ CharCode (bits d 15 20) ∧ CharCode (bits d 21 26) ∧ CharCode (bits d 27 32) ∧
      CharCode (bits d 33 38) ∧ CharCode (bits d 39 44) ∧ CharCode (bits d 45 50) ∧ CharCode (bits d 51 56) := by
    rw [bds20_coherent_iff d m h]
    have hk (i : Nat) : (∃ c, identOf (identField d i) = some c ∧ IdentChar c) ↔ CharCode (bits d (9 + 6 * i) (14 + 6 * i)) :=
      (CharCode_iff _ (bits_lt d _ _ 6 (by omega))).symm
    simp only [hk]
    constructor
    · intro h
      exact ⟨h 0 (by decide), h 1 (by decide), h 2 (by decide), h 3 (by decide), h 4 (by decide), h 5 (by decide),
        h 6 (by decide), h 7 (by decide)⟩
    · rintro ⟨a0, a1, a2, a3, a4, a5, a6, a7⟩ i hi
      interval_cases i <;> assumption
  unfold Says20 Candidate ReadsAs
  constructor
  · rintro ⟨h8, h⟩
    obtain ⟨m, hm⟩ := (identification_accepts d).2.2.1.2 ⟨h7, h8⟩
    exact ⟨m, hm, (key m hm).2 h⟩
  · rintro ⟨m, hm, hc⟩
    exact ⟨((identification_accepts d).2.2.1.1 ⟨m, hm⟩).2, (key m hm).1 hc⟩

theorem says10 (d : List UInt8) (h7 : d.length = 7) : Says10 d ↔ ∃ m, Candidate d (.bds10 m) := by
  have hb : bits d 37 40 = 0 ↔ bits d 37 37 = 0 ∧ bits d 38 38 = 0 ∧ bits d 39 40 = 0 := by
    obtain ⟨b0, b1, b2, b3, b4, b5, b6, rfl⟩ := list7 d h7
    byte_omega
  have key (m : DataLinkCapabilityReport) (h : readBDS10 d = .ok m) : m.coherent = true ↔
      (bits d 16 16 = 0 → bits d 37 40 = 0) ∧ bits d 39 40 ≤ 2 ∧ bits d 17 23 ≤ 5 ∧ bits d 26 28 ≤ 6 ∧ bits d 29 32 ≤ 6 := by
    rw [bds10_coherent d m h, hb]
    by_cases h16 : bits d 16 16 = 0
    · simp only [h16]
      constructor
      · rintro ⟨a, -, b⟩
        exact ⟨a, by rw [(a trivial).2.2]; omega, b⟩
      · rintro ⟨a, -, b⟩
        exact ⟨a, fun h => absurd rfl h, b⟩
    · constructor
      · rintro ⟨a, b, c⟩; exact ⟨a, b h16, c⟩
      · rintro ⟨a, b, c⟩; exact ⟨a, fun _ => b, c⟩
  unfold Says10 Candidate ReadsAs
  constructor
  · rintro ⟨h8, h14, h⟩
    obtain ⟨m, hm⟩ := (bds10_accepts d).1.2 ⟨h7, h8, h14⟩
    exact ⟨m, hm, (key m hm).2 h⟩
  · rintro ⟨m, hm, hc⟩
    obtain ⟨-, a, b⟩ := (bds10_accepts d).1.1 ⟨m, hm⟩
    exact ⟨a, b, (key m hm).1 hc⟩

theorem says17 (d : List UInt8) (h7 : d.length = 7) : Says17 d ↔ ∃ m, Candidate d (.bds17 m) := by
  unfold Says17 Candidate ReadsAs
  constructor
  · intro h
    obtain ⟨m, hm⟩ := (bds17_accepts d).1.2 ⟨h7, h⟩
    exact ⟨m, hm, rfl⟩
  · rintro ⟨m, hm, -⟩
    exact ((bds17_accepts d).1.1 ⟨m, hm⟩).2

theorem says40 (d : List UInt8) (h7 : d.length = 7) : Says40 d ↔ ∃ m, Candidate d (.bds40 m) := by
  unfold Says40 Candidate ReadsAs
  constructor
  · rintro ⟨a, b, h⟩
    obtain ⟨m, hm⟩ := (bds40_accepts d).1.2 ⟨h7, a, b⟩
    exact ⟨m, hm, (bds40_coherent d m hm).2.2 h⟩
  · rintro ⟨m, hm, hc⟩
    obtain ⟨-, a, b⟩ := (bds40_accepts d).1.1 ⟨m, hm⟩
    exact ⟨a, b, (bds40_coherent d m hm).2.1 hc⟩

theorem says50 (d : List UInt8) (h7 : d.length = 7) : Says50 d ↔ ∃ m, Candidate d (.bds50 m) := by
  have e : Says50 d ↔ Coherent50 d := by
    unfold Says50 Coherent50
    rw [sbits_zero_iff d 2 11 (by omega) (by omega), sbits_zero_iff d 13 23 (by omega) (by omega),
      sbits_zero_iff d 36 45 (by omega) (by omega)]
    simp only [and_assoc]
  rw [e]
  unfold Candidate ReadsAs
  constructor
  · intro h
    obtain ⟨m, hm⟩ := (bds50_60_accept d).1.2 h7
    exact ⟨m, hm, (bds50_coherent m d hm).2.2 h⟩
  · rintro ⟨m, hm, hc⟩
    exact (bds50_coherent m d hm).2.1 hc

theorem says60 (d : List UInt8) (h7 : d.length = 7) : Says60 d ↔ ∃ m, Candidate d (.bds60 m) := by
  have e : Says60 d ↔ Coherent60 d := by
    unfold Says60 Coherent60
    rw [sbits_zero_iff d 2 12 (by omega) (by omega), sbits_zero_iff d 36 45 (by omega) (by omega),
      sbits_zero_iff d 47 56 (by omega) (by omega)]
    simp only [and_assoc]
  rw [e]
  unfold Candidate ReadsAs
  constructor
  · intro h
    obtain ⟨m, hm⟩ := (bds50_60_accept d).2.2.1.2 h7
    exact ⟨m, hm, (bds60_coherent m d hm).2.2 h⟩
  · rintro ⟨m, hm, hc⟩
    exact (bds60_coherent m d hm).2.1 hc


/-- The number the altitude of a threat is decoded from. -/
def threatSum (e : List UInt8) : Nat := 64 * bits e 25 28 + bits e 30 35 + 4 * bits e 23 24

theorem threat_code_sum (b0 b1 b2 b3 b4 b5 : UInt8) :
    (threatAltitudeCode b2 b3 b4).toNat = threatSum [b0, b1, b2, b3, b4, b5] := by
  have e1 : ((b4 &&& 0xE0).toUInt16 >>> 5).toNat = b4.toNat / 32 := by byte_omega
  have e2 : ((b3 &&& 0x07).toUInt16 <<< 3).toNat = b3.toNat % 8 * 8 := by byte_omega
  have e3 : ((b3 &&& 0xF0).toUInt16 <<< 2).toNat = b3.toNat / 16 * 64 := by byte_omega
  have e4 : ((b2 &&& 0x03).toUInt16 <<< 2).toNat = b2.toNat % 4 * 4 := by byte_omega
  have f1 : bits [b0, b1, b2, b3, b4, b5] 25 28 = b3.toNat / 16 := by byte_omega
  have f2 : bits [b0, b1, b2, b3, b4, b5] 30 35 = b3.toNat % 8 * 8 + b4.toNat / 32 := by byte_omega
  have f3 : bits [b0, b1, b2, b3, b4, b5] 23 24 = b2.toNat % 4 := by byte_omega
  unfold threatAltitudeCode threatSum
  simp only [UInt16.toNat_add, e1, e2, e3, e4, f1, f2, f3]
  byte_bounds
  omega

/-- The altitude of a threat is refused exactly when the number is not zero and has neither the C2 nor the C4 pulse. -/
theorem threat_altitude_total (e : List UInt8) (h6 : e.length = 6) :
    (readThreatAltitude e = .error .err ∧ threatSum e ≠ 0 ∧ threatSum e / 512 % 2 = 0 ∧ threatSum e / 128 % 2 = 0) ∨
    ((∃ a, readThreatAltitude e = .ok a) ∧ (threatSum e ≠ 0 → threatSum e / 512 % 2 = 1 ∨ threatSum e / 128 % 2 = 1)) := by
  obtain ⟨b0, b1, b2, b3, b4, b5, rfl⟩ := list6 e h6
  have hc := threat_code_sum b0 b1 b2 b3 b4 b5
  have hlt : threatSum [b0, b1, b2, b3, b4, b5] < 2048 := by
    have := bits_lt [b0, b1, b2, b3, b4, b5] 25 28 4 rfl
    have := bits_lt [b0, b1, b2, b3, b4, b5] 30 35 6 rfl
    have := bits_lt [b0, b1, b2, b3, b4, b5] 23 24 2 rfl
    unfold threatSum; omega
  unfold readThreatAltitude
  go_run []
  generalize threatAltitudeCode b2 b3 b4 = code at hc
  generalize threatSum [b0, b1, b2, b3, b4, b5] = n at *
  have z : (code = 0) = (n = 0) := by rw [u16_eq, hc]; rfl
  simp only [z]
  by_cases h0 : n = 0
  · rw [if_pos h0]; exact Or.inr ⟨⟨_, rfl⟩, fun h => absurd h0 h⟩
  rw [if_neg h0]
  have t (i : Nat) (mm : UInt16) (hm : mm.toNat = 2 ^ i) : ((code &&& mm) != 0) = n.testBit i := by
    rw [land_pow_ne code i mm hm, hc]
  have f (i : Nat) : n.testBit i = false ↔ n / 2 ^ i % 2 = 0 := by
    rw [Nat.testBit_eq_decide_div_mod_eq]; simp
  rw [t 11 0x800 rfl, t 10 0x400 rfl, t 9 0x200 rfl, t 8 0x100 rfl, t 7 0x80 rfl, t 6 0x40 rfl, t 5 0x20 rfl, t 4 0x10 rfl,
    t 3 0x8 rfl, t 2 0x4 rfl, t 1 0x2 rfl, t 0 0x1 rfl]
  have g := gillham_err_iff ⟨n.testBit 4, n.testBit 2, n.testBit 0, n.testBit 10, n.testBit 8, n.testBit 6, n.testBit 5,
    n.testBit 3, n.testBit 1, n.testBit 11, n.testBit 9, n.testBit 7⟩
  have np := gillham_noPanic ⟨n.testBit 4, n.testBit 2, n.testBit 0, n.testBit 10, n.testBit 8, n.testBit 6, n.testBit 5,
    n.testBit 3, n.testBit 1, n.testBit 11, n.testBit 9, n.testBit 7⟩
  have c1 : n.testBit 11 = false := by rw [f]; norm_num; omega
  unfold gillham at g np
  dsimp only at g np
  rw [c1] at g np ⊢
  by_cases h9 : n.testBit 9 = false ∧ n.testBit 7 = false
  · left
    rw [g.2 (by rw [h9.1, h9.2]; simp)]
    exact ⟨rfl, h0, by have := (f 9).1 h9.1; norm_num at this; omega, by have := (f 7).1 h9.2; norm_num at this; omega⟩
  · right
    constructor
    · rcases hg : gillhamToAltitude (n.testBit 4) (n.testBit 2) (n.testBit 0) (n.testBit 10) (n.testBit 8) (n.testBit 6)
        (n.testBit 5) (n.testBit 3) (n.testBit 1) false (n.testBit 9) (n.testBit 7) with x | a
      · exfalso
        cases x
        · have := g.1 hg
          simp at this
          exact h9 this
        · rw [hg] at np; exact np rfl
      · exact ⟨_, rfl⟩
    · intro _
      by_contra hcon
      push_neg at hcon
      exact h9 ⟨(f 9).2 (by norm_num; omega), (f 7).2 (by norm_num; omega)⟩

/-- C20, strengthened: exactly which resolution advisories are refused, for every six bytes. -/
theorem ra_refused_iff (e : List UInt8) (h6 : e.length = 6) :
    (readResolutionAdvisory e = .error .err ↔
      bits e 21 22 = 2 ∧ threatSum e ≠ 0 ∧ threatSum e / 512 % 2 = 0 ∧ threatSum e / 128 % 2 = 0) ∧
    (Succeeds (readResolutionAdvisory e) ↔
      (bits e 21 22 = 2 → threatSum e ≠ 0 → threatSum e / 512 % 2 = 1 ∨ threatSum e / 128 % 2 = 1)) := by
  rw [ra_eval e h6]
  by_cases h1 : bits e 21 22 = 1
  · rw [if_pos h1]
    exact ⟨⟨fun h => (nomatch h), fun h => (by omega)⟩, ⟨fun _ h => (by omega), fun _ => ⟨_, rfl⟩⟩⟩
  rw [if_neg h1]
  by_cases h2 : bits e 21 22 = 2
  · rw [if_pos h2]
    rcases threat_altitude_total e h6 with ⟨he, hx⟩ | ⟨⟨a, ha⟩, hx⟩
    · rw [he]
      refine ⟨⟨fun _ => ⟨h2, hx⟩, fun _ => rfl⟩, ⟨fun ⟨m, h⟩ => (nomatch h), fun h => ?_⟩⟩
      have := h h2 hx.1
      omega
    · rw [ha]
      refine ⟨⟨fun h => (nomatch h), fun h => ?_⟩, ⟨fun _ _ => hx, fun _ => ⟨_, rfl⟩⟩⟩
      have := hx h.2.1
      omega
  · rw [if_neg h2]
    exact ⟨⟨fun h => (nomatch h), fun h => absurd h.1 h2⟩, ⟨fun _ h => absurd h h2, fun _ => ⟨_, rfl⟩⟩⟩

theorem says30 (d : List UInt8) (h7 : d.length = 7) : Says30 d ↔ ∃ m, Candidate d (.bds30 m) := by
  have e6 : (d.drop 1).length = 6 := by rw [List.length_drop, h7]
  have hs : threatSum (d.drop 1) = threatNumber d ∧ bits (d.drop 1) 21 22 = bits d 29 30 := by
    obtain ⟨b0, b1, b2, b3, b4, b5, b6, rfl⟩ := list7 d h7
    unfold threatSum threatNumber
    simp only [List.drop_succ_cons, List.drop_zero]
    constructor <;> byte_omega
  have k := (ra_refused_iff (d.drop 1) e6).2
  rw [hs.1, hs.2] at k
  unfold Says30 Candidate ReadsAs
  rw [← k]
  constructor
  · rintro ⟨h8, m, hm⟩
    exact ⟨⟨m⟩, ((bds30_accepts d).1 ⟨m⟩).2 ⟨h7, h8, hm⟩, rfl⟩
  · rintro ⟨m, hm, -⟩
    obtain ⟨-, h8, h⟩ := ((bds30_accepts d).1 m).1 hm
    exact ⟨h8, _, h⟩


theorem u8_zero_iff (x : UInt8) : x = 0 ↔ x.toNat = 0 := ⟨fun h => by rw [h]; rfl, fun h => UInt8.toNat_inj.1 h⟩
theorem u32_zero_iff (x : UInt32) : x = 0 ↔ x.toNat = 0 := ⟨fun h => by rw [h]; rfl, fun h => UInt32.toNat_inj.1 h⟩

theorem scaled_zero (n : ℕ) (q : ℚ) (hq : q ≠ 0) : (n : ℚ) * q = 0 ↔ n = 0 := by
  rw [mul_eq_zero, Nat.cast_eq_zero]; tauto

theorem eighth_zero (n : ℤ) : (n : ℚ) * (1 / 8) = 0 ↔ n = 0 := by
  rw [mul_eq_zero, Int.cast_eq_zero]; norm_num

theorem eighth_range (n : ℤ) : (-80 ≤ (n : ℚ) * (1 / 8) ∧ (n : ℚ) * (1 / 8) ≤ 60) ↔ -640 ≤ n ∧ n ≤ 480 := by
  constructor
  · rintro ⟨a, b⟩
    have a' : (-640 : ℚ) ≤ n := by linarith
    have b' : (n : ℚ) ≤ 480 := by linarith
    exact ⟨by exact_mod_cast a', by exact_mod_cast b'⟩
  · rintro ⟨a, b⟩
    have a' : (-640 : ℚ) ≤ n := by exact_mod_cast a
    have b' : (n : ℚ) ≤ 480 := by exact_mod_cast b
    exact ⟨by linarith, by linarith⟩

theorem says44 (d : List UInt8) (h7 : d.length = 7) : Says44 d ↔ ∃ m, Candidate d (.bds44 m) := by
  have kz : sbits d 25 35 = 0 ↔ bits d 25 35 = 0 := sbits_zero_iff d 25 35 (by omega) (by omega)
  have k2 (m : RoutineAirReportV2) (h : RoutineAirReportV2.Layout d m) (hs : bits d 1 4 ≤ 4) : m.coherent = true ↔ Says44 d := by
    rw [bds44V2_coherent, h.source, h.windSpeedStatus, h.windDirectionStatus, h.staticAirTemperatureStatus,
      h.averageStaticPressureStatus, h.humidityStatus, u32_zero_iff, u32_zero_iff, h.windSpeed, h.windDirection,
      h.staticAirTemperature, h.averageStaticPressure, h.humidity, scaled_zero _ _ (by norm_num), eighth_zero, eighth_range, kz,
      Nat.cast_eq_zero]
    unfold Says44
    have : bits d 1 4 < 5 ↔ bits d 1 4 ≤ 4 := by omega
    rw [this]
  have k1 (m : RoutineAirReportV1) (h : RoutineAirReportV1.Layout d m) (hs : bits d 1 4 ≤ 4) : m.coherent = true ↔ Says44 d := by
    rw [bds44V1_coherent, h.windSpeedStatus, h.windDirectionStatus, h.staticAirTemperatureStatus,
      h.averageStaticPressureStatus, h.humidityStatus, u32_zero_iff, u32_zero_iff, h.windSpeed, h.windDirection,
      h.staticAirTemperature, h.averageStaticPressure, h.humidity, scaled_zero _ _ (by norm_num), eighth_zero, eighth_range, kz,
      Nat.cast_eq_zero]
    unfold Says44
    exact ⟨fun h => ⟨hs, h⟩, fun h => h.2⟩
  have hl := bds44_layout d
  have hc := bds44_content_partial d
  unfold Candidate ReadsAs
  rcases hr : readBDS44 d with _ | ⟨_ | _ | (m | m | m), err⟩ <;> rw [hr] at hl
  · exact hl.elim
  · refine ⟨fun h => ?_, fun ⟨m, h, _⟩ => (nomatch h)⟩
    have := h.1
    omega
  · exact hl.elim
  · exact hl.elim
  · obtain ⟨rfl, -, h0, hm⟩ := hl
    constructor
    · intro h; exact ⟨_, rfl, (k1 m (hc.2.1 m hm) (by omega)).2 h⟩
    · rintro ⟨m', h, h'⟩
      cases h
      exact (k1 m (hc.2.1 m hm) (by omega)).1 h'
  · obtain ⟨rfl, -, h0, h4, hm⟩ := hl
    constructor
    · intro h; exact ⟨_, rfl, (k2 m (hc.2.2 m hm) (by omega)).2 h⟩
    · rintro ⟨m', h, h'⟩
      cases h
      exact (k2 m (hc.2.2 m hm) (by omega)).1 h'

theorem edr_zero_iff (x : ℚ) (n : ℕ) (h : |x - n / 50| ≤ 1 / 1048576) (hz : n = 0 → x = 0) : x = 0 ↔ n = 0 := by
  refine ⟨fun hx => ?_, hz⟩
  by_contra hn
  rw [hx, zero_sub, abs_neg, abs_of_nonneg (by positivity)] at h
  have : (1 : ℚ) ≤ n := by exact_mod_cast Nat.one_le_iff_ne_zero.2 hn
  linarith

theorem or7a {t a b c e f g : Prop} : (t ∨ a ∨ b ∨ c ∨ e ∨ f ∨ (false = true) ∨ g) → (a ∨ b ∨ c ∨ e ∨ f ∨ g ∨ t)
  | .inl h => .inr (.inr (.inr (.inr (.inr (.inr h)))))
  | .inr (.inl h) => .inl h
  | .inr (.inr (.inl h)) => .inr (.inl h)
  | .inr (.inr (.inr (.inl h))) => .inr (.inr (.inl h))
  | .inr (.inr (.inr (.inr (.inl h)))) => .inr (.inr (.inr (.inl h)))
  | .inr (.inr (.inr (.inr (.inr (.inl h))))) => .inr (.inr (.inr (.inr (.inl h))))
  | .inr (.inr (.inr (.inr (.inr (.inr (.inr h)))))) => .inr (.inr (.inr (.inr (.inr (.inl h)))))

theorem or7b {t a b c e f g : Prop} : (a ∨ b ∨ c ∨ e ∨ f ∨ g ∨ t) → (t ∨ a ∨ b ∨ c ∨ e ∨ f ∨ (false = true) ∨ g)
  | .inr (.inr (.inr (.inr (.inr (.inr h))))) => .inl h
  | .inl h => .inr (.inl h)
  | .inr (.inl h) => .inr (.inr (.inl h))
  | .inr (.inr (.inl h)) => .inr (.inr (.inr (.inl h)))
  | .inr (.inr (.inr (.inl h))) => .inr (.inr (.inr (.inr (.inl h))))
  | .inr (.inr (.inr (.inr (.inl h)))) => .inr (.inr (.inr (.inr (.inr (.inl h)))))
  | .inr (.inr (.inr (.inr (.inr (.inl h))))) => .inr (.inr (.inr (.inr (.inr (.inr (.inr h))))))

theorem says45 (d : List UInt8) (h7 : d.length = 7) : Says45 d ↔ ∃ m, Candidate d (.bds45 m) := by
  have ks : bits d 39 54 = 0 ↔ bits d 39 44 = 0 ∧ bits d 45 50 = 0 ∧ bits d 51 54 = 0 := by
    have := bits_split_39_54 d h7
    omega
  have k1 (m : HazardReportV1) (h : HazardReportV1.Layout d m) (hs : bits d 55 56 = 0) : m.coherent = true ↔ Says45 d := by
    have r : m.radioHeight = 0 ↔ bits d 26 37 = 0 := by
      rw [u32_zero_iff, h.radioHeight]; omega
    rw [bds45V1_coherent, edr_zero_iff _ _ h.averageEDR h.averageEDR_zero, edr_zero_iff _ _ h.peakEDR h.peakEDR_zero, r,
      u8_zero_iff, u8_zero_iff, u8_zero_iff, u8_zero_iff, u8_zero_iff, h.peakDelay, h.windShear, h.microBurst, h.icing, h.wakeVortex,
      h.staticAirTemperature, eighth_range, h.averageStaticPressure, h.averageStaticPressureStatus, h.windShearStatus,
      h.microBurstStatus, h.icingStatus, h.wakeVortexStatus, h.staticAirTemperatureStatus, h.radioHeightStatus, h.turbulenceStatus]
    unfold Says45
    rw [ks]
    constructor
    · rintro ⟨a, b, c, e, f, g, i, -, j⟩
      refine ⟨hs, ?_, c, e, f, g, i, j, b⟩
      exact or7a a
    · rintro ⟨-, a, c, e, f, g, i, j, b⟩
      refine ⟨?_, b, c, e, f, g, i, fun _ => rfl, j⟩
      exact or7b a
  have hl := bds45_layout d
  have hc := bds45_content d
  unfold Candidate ReadsAs
  rcases hr : readBDS45 d with _ | ⟨_ | _ | (m | m), err⟩ <;> rw [hr] at hl
  · exact hl.elim
  · refine ⟨fun h => ?_, fun ⟨m, h, _⟩ => (nomatch h)⟩
    rcases hl.2.1 with h' | h'
    · exact absurd h7 h'
    · exact absurd h.1 h'
  · exact hl.elim
  · exact hl.elim
  · obtain ⟨rfl, -, h0, hm⟩ := hl
    constructor
    · intro h; exact ⟨_, rfl, (k1 m (hc.2 m hm) h0).2 h⟩
    · rintro ⟨m', h, h'⟩
      cases h
      exact (k1 m (hc.2 m hm) h0).1 h'


/-- The registers of the ambiguous part, from eight truth values. -/
def regs8 (b10 b17 b30 b40 b44 b45 b50 b60 : Bool) : List Nat :=
  ifSays (b10 = true) 0x10 ++ ifSays (b17 = true) 0x17 ++ ifSays (b30 = true) 0x30 ++ ifSays (b40 = true) 0x40 ++
    ifSays (b44 = true) 0x44 ++ ifSays (b45 = true) 0x45 ++ ifSays (b50 = true) 0x50 ++ ifSays (b60 = true) 0x60

theorem regs8_sorted : ∀ b10 b17 b30 b40 b44 b45 b50 b60 : Bool, (regs8 b10 b17 b30 b40 b44 b45 b50 b60).Pairwise (· < ·) := by
  decide

theorem ifSays_decide (p : Prop) [Decidable p] (k : Nat) : ifSays p k = ifSays (decide p = true) k := by
  unfold ifSays; simp

theorem mem_ifSays (p : Prop) [Decidable p] (k x : Nat) : x ∈ ifSays p k ↔ p ∧ x = k := by
  unfold ifSays; split <;> simp [*]

theorem registersOf_rest (d : List UInt8) (h0 : ¬ Says00 d) (h1 : ¬ Says07 d) (h2 : ¬ Says20 d) :
    registersOf d = regs8 (decide (Says10 d)) (decide (Says17 d)) (decide (Says30 d)) (decide (Says40 d)) (decide (Says44 d))
      (decide (Says45 d)) (decide (Says50 d)) (decide (Says60 d)) := by
  unfold registersOf regs8
  rw [if_neg h0, if_neg h1, if_neg h2]
  simp only [← ifSays_decide]

theorem map_val_inj (l l' : List CommBMessage) (h : l.map Iface.val = l'.map Iface.val) : l = l' :=
  List.map_injective_iff.2 (fun a b h => (Iface.val.inj h)) h

/-- C95. The answer to a seven-byte Comm-B field, as a list of register numbers, is a function of its bits written down without
reference to the reader. -/
theorem commB_registers (d : List UInt8) (h7 : d.length = 7) :
    ∃ l : List CommBMessage, readCommBMessage d = .ok (l.map Iface.val) ∧ (∀ m ∈ l, Candidate d m) ∧
      l.map CommBMessage.register = registersOf d := by
  by_cases h0 : Says00 d
  · obtain ⟨m, hm, hc⟩ := (says00 d h7).1 h0
    refine ⟨[.bds00 m], readCommB_zero d h7 hm, fun x hx => ?_, ?_⟩
    · rw [List.mem_singleton.1 hx]; exact ⟨hm, hc⟩
    · unfold registersOf; rw [if_pos h0]; rfl
  have e0 : readBDS00 d = .error .err := by
    rcases bds00_eval d with ⟨e, -⟩ | ⟨h, -⟩
    · exact e
    · exact absurd h.2 h0
  by_cases h1 : Says07 d
  · obtain ⟨m, hm, hc⟩ := (says07 d h7).1 h1
    refine ⟨[.bds07 m], readCommB_07 d h7 e0 m hm hc, fun x hx => ?_, ?_⟩
    · rw [List.mem_singleton.1 hx]; exact ⟨hm, hc⟩
    · unfold registersOf; rw [if_neg h0, if_pos h1]; rfl
  have k7 : readBDS07 d = .error .err ∨ ∃ m, readBDS07 d = .ok m ∧ m.coherent = false := by
    rcases bds07_cases d with h | ⟨m, hm⟩
    · exact Or.inl h
    · refine Or.inr ⟨m, hm, ?_⟩
      by_contra hc; exact h1 ((says07 d h7).2 ⟨m, hm, eq_true_of_ne_false hc⟩)
  by_cases h2 : Says20 d
  · obtain ⟨m, hm, hc⟩ := (says20 d h7).1 h2
    refine ⟨[.bds20 m], readCommB_20 d h7 e0 k7 m hm hc, fun x hx => ?_, ?_⟩
    · rw [List.mem_singleton.1 hx]; exact ⟨hm, hc⟩
    · unfold registersOf; rw [if_neg h0, if_neg h1, if_pos h2]; rfl
  obtain ⟨l, hl, hp, hcand, hall⟩ := commB_sound_complete d h7
  have hu : ∀ m, Candidate d m → m.unambiguous = false := by
    intro m hm
    cases m with
    | bds00 m => exact absurd ((says00 d h7).2 ⟨m, hm⟩) h0
    | bds07 m => exact absurd ((says07 d h7).2 ⟨m, hm⟩) h1
    | bds20 m => exact absurd ((says20 d h7).2 ⟨m, hm⟩) h2
    | _ => rfl
  refine ⟨l, hl, hcand, ?_⟩
  have hmem := hall hu
  rw [registersOf_rest d h0 h1 h2]
  have s1 : (l.map CommBMessage.register).Pairwise (· < ·) := List.pairwise_map.2 hp
  have s2 := regs8_sorted (decide (Says10 d)) (decide (Says17 d)) (decide (Says30 d)) (decide (Says40 d)) (decide (Says44 d))
    (decide (Says45 d)) (decide (Says50 d)) (decide (Says60 d))
  have hperm : (l.map CommBMessage.register).Perm (regs8 (decide (Says10 d)) (decide (Says17 d)) (decide (Says30 d))
      (decide (Says40 d)) (decide (Says44 d)) (decide (Says45 d)) (decide (Says50 d)) (decide (Says60 d))) := by
    rw [List.perm_ext_iff_of_nodup (s1.imp (fun h => ne_of_lt h)) (s2.imp (fun h => ne_of_lt h))]
    intro k
    unfold regs8
    simp only [List.mem_append, mem_ifSays, decide_eq_true_eq, List.mem_map, says10 d h7, says17 d h7, says30 d h7, says40 d h7,
      says44 d h7, says45 d h7, says50 d h7, says60 d h7]
    constructor
    · rintro ⟨m, hm, rfl⟩
      have hu' := hu m ((hmem m).1 hm)
      have hc := (hmem m).1 hm
      cases m with
      | bds00 m => cases hu'
      | bds07 m => cases hu'
      | bds20 m => cases hu'
      | bds10 m => exact Or.inl (Or.inl (Or.inl (Or.inl (Or.inl (Or.inl (Or.inl ⟨⟨m, hc⟩, rfl⟩))))))
      | bds17 m => exact Or.inl (Or.inl (Or.inl (Or.inl (Or.inl (Or.inl (Or.inr ⟨⟨m, hc⟩, rfl⟩))))))
      | bds30 m => exact Or.inl (Or.inl (Or.inl (Or.inl (Or.inl (Or.inr ⟨⟨m, hc⟩, rfl⟩)))))
      | bds40 m => exact Or.inl (Or.inl (Or.inl (Or.inl (Or.inr ⟨⟨m, hc⟩, rfl⟩))))
      | bds44 m => exact Or.inl (Or.inl (Or.inl (Or.inr ⟨⟨m, hc⟩, rfl⟩)))
      | bds45 m => exact Or.inl (Or.inl (Or.inr ⟨⟨m, hc⟩, rfl⟩))
      | bds50 m => exact Or.inl (Or.inr ⟨⟨m, hc⟩, rfl⟩)
      | bds60 m => exact Or.inr ⟨⟨m, hc⟩, rfl⟩
    · rintro (((((((⟨⟨m, hm⟩, rfl⟩ | ⟨⟨m, hm⟩, rfl⟩) | ⟨⟨m, hm⟩, rfl⟩) | ⟨⟨m, hm⟩, rfl⟩) | ⟨⟨m, hm⟩, rfl⟩) | ⟨⟨m, hm⟩, rfl⟩) |
        ⟨⟨m, hm⟩, rfl⟩) | ⟨⟨m, hm⟩, rfl⟩) <;> exact ⟨_, (hmem _).2 hm, rfl⟩
  exact hperm.eq_of_pairwise (fun a b _ _ h h' => absurd (lt_trans h h') (lt_irrefl _)) s1 s2

/-! ## Which registers exclude or imply each other -/

theorem clear_of (d : List UInt8) (h7 : d.length = 7) (i j : Nat) (hj : j ≤ 56) (h : bits d i j = 0) (k : Nat) (h1 : i ≤ k) (h2 : k ≤ j) :
    bit d k = false := (bits_zero_iff d i j (by omega)).1 h k h1 h2

theorem zero_sub_of (d : List UInt8) (h7 : d.length = 7) (i j a b : Nat) (hj : j ≤ 56) (h : bits d i j = 0) (h1 : i ≤ a) (h2 : b ≤ j) :
    bits d a b = 0 := by
  rw [bits_zero_iff d a b (by omega)]
  intro k hk hk'
  exact clear_of d h7 i j hj h k (by omega) (by omega)

theorem high_bit (d : List UInt8) (h7 : d.length = 7) (i j : Nat) (hij : i ≤ j) (hj : j ≤ 56) (h : bits d i j < 2 ^ (j - i)) : bit d i = false := by
  by_contra hb
  have hb : bit d i = true := by simpa using hb
  have e : bits d i i = bits d i j / 2 ^ (j - i) % 2 ^ 1 := by
    have := bits_sub d i j i i le_rfl le_rfl hij (by omega)
    rw [this]; congr 2; omega
  unfold bit at hb
  rw [e, Nat.div_eq_of_lt h] at hb
  cases hb

theorem excl_bit1 (d : List UInt8) (h7 : d.length = 7) (h44 : bits d 1 4 ≤ 4) : bit d 1 = false :=
  high_bit d h7 1 4 (by omega) (by omega) (by norm_num; omega)

theorem byte_bit1 (d : List UInt8) (h7 : d.length = 7) (h : bits d 1 8 = 0x10 ∨ bits d 1 8 = 0x30) : bit d 1 = false ∧ bit d 4 = true := by
  obtain ⟨b0, b1, b2, b3, b4, b5, b6, rfl⟩ := list7 d h7
  have e1 : bits [b0, b1, b2, b3, b4, b5, b6] 1 8 = b0.toNat := by byte_omega
  rw [e1] at h
  unfold bit
  have e2 : bits [b0, b1, b2, b3, b4, b5, b6] 1 1 = b0.toNat / 128 := by byte_omega
  have e3 : bits [b0, b1, b2, b3, b4, b5, b6] 4 4 = b0.toNat / 16 % 2 := by byte_omega
  rw [e2, e3]
  rcases h with h | h <;> rw [h] <;> decide

/-- A hazard report that is also a BDS 5,0 or 6,0 message has nothing from bit 25 on. -/
theorem hazard_low (d : List UInt8) (h7 : d.length = 7) (h45 : Says45 d) (h : Says50 d ∨ Says60 d) : bits d 25 56 = 0 := by
  obtain ⟨z, -, -, -, -, -, -, s25, s38⟩ := h45
  have h25 : bits d 25 34 ≤ 300 ∧ (bit d 35 = false → bits d 36 45 = 0) := by
    rcases h with ⟨-, -, -, -, h, -, -, -, h', -⟩ | ⟨-, -, -, -, h, -, -, h', -⟩
    · exact ⟨h', h⟩
    · exact ⟨by omega, h⟩
  have b25 := high_bit d h7 25 34 (by omega) (by omega) (by norm_num; omega)
  have z26 := s25 b25
  have b35 := clear_of d h7 26 37 (by omega) z26 35 (by omega) (by omega)
  have z36 := h25.2 b35
  have b38 := clear_of d h7 36 45 (by omega) z36 38 (by omega) (by omega)
  have z39 := s38 b38
  rw [bits_zero_iff d 25 56 (by omega)]
  intro k h1 h2
  by_cases k25 : k = 25
  · rw [k25]; exact b25
  by_cases k37 : k ≤ 37
  · exact clear_of d h7 26 37 (by omega) z26 k (by omega) (by omega)
  by_cases k38 : k = 38
  · rw [k38]; exact b38
  by_cases k54 : k ≤ 54
  · exact clear_of d h7 39 54 (by omega) z39 k (by omega) (by omega)
  · exact clear_of d h7 55 56 (by omega) z k (by omega) (by omega)

/-- The first fourteen bits of a routine report that is also a BDS 5,0 or 6,0 message are zero. -/
theorem routine_high (d : List UInt8) (h7 : d.length = 7) (h44 : Says44 d) (h : Says50 d ∨ Says60 d) : bits d 1 23 = 0 := by
  obtain ⟨s, -, s5, -⟩ := h44
  have b1 := excl_bit1 d h7 s
  have z2 : bits d 2 11 = 0 := by
    rcases h with h | h
    · exact h.2.1 b1
    · exact zero_sub_of d h7 2 12 2 11 (by omega) (h.2.1 b1) (by omega) (by omega)
  have z7 := s5 (clear_of d h7 2 11 (by omega) z2 5 (by omega) (by omega))
  have b12 := clear_of d h7 7 14 (by omega) z7 12 (by omega) (by omega)
  have b13 := clear_of d h7 7 14 (by omega) z7 13 (by omega) (by omega)
  have z14 : bits d 14 23 = 0 := by
    rcases h with h | h
    · exact zero_sub_of d h7 13 23 14 23 (by omega) (h.2.2.1 b12) (by omega) (by omega)
    · exact h.2.2.1 b13
  rw [bits_zero_iff d 1 23 (by omega)]
  intro k h1 h2
  by_cases k1 : k = 1
  · rw [k1]; exact b1
  by_cases k11 : k ≤ 11
  · exact clear_of d h7 2 11 (by omega) z2 k (by omega) (by omega)
  by_cases k14 : k ≤ 14
  · exact clear_of d h7 7 14 (by omega) z7 k (by omega) (by omega)
  · exact clear_of d h7 14 23 (by omega) z14 k (by omega) (by omega)

/-- The constraints between the eight ambiguous registers. -/
structure Together (b10 b17 b30 b40 b44 b45 b50 b60 : Bool) : Prop where
  p1030 : (b10 && b30) = false
  p1040 : (b10 && b40) = false
  p1050 : (b10 && b50) = false
  p1060 : (b10 && b60) = false
  p3040 : (b30 && b40) = false
  p3045 : (b30 && b45) = false
  p3050 : (b30 && b50) = false
  p3060 : (b30 && b60) = false
  p4044 : (b40 && b44) = false
  t50 : (b44 && b45 && b50) = false
  t60 : (b44 && b45 && b60) = false
  i50 : (b45 && b50 && !b17) = false
  i60 : (b45 && b60 && !b17) = false
  i44 : (b17 && b44 && b50 && !b60) = false
  i40 : (b17 && b40 && b45 && b60 && !b50) = false

set_option maxRecDepth 20000 in
theorem together_possible_table : ∀ b10 b17 b30 b40 b44 b45 b50 b60 : Bool,
    ((b10 && b30) || (b10 && b40) || (b10 && b50) || (b10 && b60) || (b30 && b40) || (b30 && b45) || (b30 && b50) || (b30 && b60) || (b40 && b44) || (b44 && b45 && b50) || (b44 && b45 && b60) || (b45 && b50 && !b17) || (b45 && b60 && !b17) || (b17 && b44 && b50 && !b60) || (b17 && b40 && b45 && b60 && !b50)) = false →
    regs8 b10 b17 b30 b40 b44 b45 b50 b60 ∈ possibleAnswers := by
  decide +kernel

theorem together_possible (b10 b17 b30 b40 b44 b45 b50 b60 : Bool) (h : Together b10 b17 b30 b40 b44 b45 b50 b60) :
    regs8 b10 b17 b30 b40 b44 b45 b50 b60 ∈ possibleAnswers := by
  apply together_possible_table
  rw [h.p1030, h.p1040, h.p1050, h.p1060, h.p3040, h.p3045, h.p3050, h.p3060, h.p4044, h.t50, h.t60, h.i50, h.i60, h.i44, h.i40]
  rfl

theorem says_together (d : List UInt8) (h7 : d.length = 7) :
    Together (decide (Says10 d)) (decide (Says17 d)) (decide (Says30 d)) (decide (Says40 d)) (decide (Says44 d))
      (decide (Says45 d)) (decide (Says50 d)) (decide (Says60 d)) := by
  have n50 (h : bits d 1 8 = 0x10 ∨ bits d 1 8 = 0x30) : ¬ Says50 d := fun h' => by
    have := clear_of d h7 2 11 (by omega) (h'.2.1 (byte_bit1 d h7 h).1) 4 (by omega) (by omega)
    rw [(byte_bit1 d h7 h).2] at this; cases this
  have n60 (h : bits d 1 8 = 0x10 ∨ bits d 1 8 = 0x30) : ¬ Says60 d := fun h' => by
    have := clear_of d h7 2 12 (by omega) (h'.2.1 (byte_bit1 d h7 h).1) 4 (by omega) (by omega)
    rw [(byte_bit1 d h7 h).2] at this; cases this
  have n40 (h : bit d 1 = false) : ¬ Says40 d := fun h' => by
    rw [h'.2.2.1] at h; cases h
  have none44 (h44 : Says44 d) (h45 : Says45 d) (h : Says50 d ∨ Says60 d) : False := by
    have z1 := routine_high d h7 h44 h
    have z2 := hazard_low d h7 h45 h
    have c1 := clear_of d h7 1 23 (by omega) z1
    have c2 := clear_of d h7 25 56 (by omega) z2
    have := h45.2.1
    simp [c1 1, c1 4, c1 7, c1 10, c1 13, c2 25, c2 38] at this
  refine ⟨?_, ?_, ?_, ?_, ?_, ?_, ?_, ?_, ?_, ?_, ?_, ?_, ?_, ?_, ?_⟩ <;>
    (rw [Bool.eq_false_iff]; simp only [ne_eq, Bool.and_eq_true, decide_eq_true_eq, Bool.not_eq_true', decide_eq_false_iff_not, and_assoc])
  · rintro ⟨a, b⟩; have := a.1; have := b.1; omega
  · rintro ⟨a, b⟩; exact n40 (byte_bit1 d h7 (Or.inl a.1)).1 b
  · rintro ⟨a, b⟩; exact n50 (Or.inl a.1) b
  · rintro ⟨a, b⟩; exact n60 (Or.inl a.1) b
  · rintro ⟨a, b⟩; exact n40 (byte_bit1 d h7 (Or.inr a.1)).1 b
  · rintro ⟨a, b⟩
    have hb := byte_bit1 d h7 (Or.inr a.1)
    have z := b.2.2.1 hb.1
    have h8 := a.1
    clear a b n50 n60 n40 none44 hb
    obtain ⟨b0, b1, b2, b3, b4, b5, b6, rfl⟩ := list7 d h7
    revert z h8; byte_omega
  · rintro ⟨a, b⟩; exact n50 (Or.inr a.1) b
  · rintro ⟨a, b⟩; exact n60 (Or.inr a.1) b
  · rintro ⟨a, b⟩; exact n40 (excl_bit1 d h7 b.1) a
  · rintro ⟨a, b, c⟩; exact none44 a b (Or.inl c)
  · rintro ⟨a, b, c⟩; exact none44 a b (Or.inr c)
  · rintro ⟨a, b, n⟩; exact n <| zero_sub_of d h7 25 56 30 56 (by omega) (hazard_low d h7 a (Or.inl b)) (by omega) (by omega)
  · rintro ⟨a, b, n⟩; exact n <| zero_sub_of d h7 25 56 30 56 (by omega) (hazard_low d h7 a (Or.inr b)) (by omega) (by omega)
  · rintro ⟨a, b, c, n⟩
    apply n
    have z1 := routine_high d h7 b (Or.inl c)
    have c1 := clear_of d h7 1 23 (by omega) z1
    have c2 := clear_of d h7 30 56 (by omega) a
    have y47 : bits d 47 56 = 0 := zero_sub_of d h7 30 56 47 56 (by omega) a (by omega) (by omega)
    have y36 : bits d 36 45 = 0 := zero_sub_of d h7 30 56 36 45 (by omega) a (by omega) (by omega)
    have y14 : bits d 14 23 = 0 := zero_sub_of d h7 1 23 14 23 (by omega) z1 (by omega) (by omega)
    have y2 : bits d 2 12 = 0 := zero_sub_of d h7 1 23 2 12 (by omega) z1 (by omega) (by omega)
    obtain ⟨s, -, -, g, -, -, -, -, -, -, g1, -⟩ := c
    have q1 := (sbits_zero_iff d 36 45 (by omega) (by omega)).2 y36
    have q2 := (sbits_zero_iff d 47 56 (by omega) (by omega)).2 y47
    refine ⟨?_, fun _ => y2, fun _ => y14, g, fun _ => y36, fun _ => y47, by omega, by omega, by omega, by omega, by omega, by omega⟩
    simp [c1 1, c1 12, c2 35, c2 46] at s
    exact Or.inr (Or.inr (Or.inl s))
  · rintro ⟨a, b, c, e, n⟩
    apply n
    have z2 := hazard_low d h7 c (Or.inr e)
    obtain ⟨s, -, s13, s24, -, -, i14, -⟩ := e
    have b14 := high_bit d h7 14 23 (by omega) (by omega) (by norm_num; omega)
    have z13 : bits d 2 13 = 0 := by
      rcases b.2.2.2 with h | h
      · rw [b14] at h; cases h
      · exact h
    have y14 := s13 (clear_of d h7 2 13 (by omega) z13 13 (by omega) (by omega))
    have y2 : bits d 2 11 = 0 := zero_sub_of d h7 2 13 2 11 (by omega) z13 (by omega) (by omega)
    have y25 : bits d 25 34 = 0 := zero_sub_of d h7 25 56 25 34 (by omega) z2 (by omega) (by omega)
    have y36 : bits d 36 45 = 0 := zero_sub_of d h7 25 56 36 45 (by omega) z2 (by omega) (by omega)
    have y47 : bits d 47 56 = 0 := zero_sub_of d h7 25 56 47 56 (by omega) z2 (by omega) (by omega)
    have y13 : bits d 13 23 = 0 := by
      rw [bits_zero_iff d 13 23 (by omega)]
      intro k h1 h2
      by_cases k13 : k = 13
      · rw [k13]; exact clear_of d h7 2 13 (by omega) z13 13 (by omega) (by omega)
      · exact clear_of d h7 14 23 (by omega) y14 k (by omega) (by omega)
    have q1 := (sbits_zero_iff d 2 11 (by omega) (by omega)).2 y2
    exact ⟨Or.inl b.2.2.1, fun _ => y2, fun _ => y13, fun _ => y25, fun _ => y36, fun _ => y47, by omega, by omega, by omega, by omega,
      by omega, by omega⟩

/-- C95. The answers that occur are exactly the forty-nine of the table: every field is answered by one of them. -/
theorem commB_answers (d : List UInt8) (l : List CommBMessage) (h : readCommBMessage d = .ok (l.map Iface.val)) :
    l.map CommBMessage.register ∈ possibleAnswers := by
  have h7 : d.length = 7 := by
    by_contra hn
    rw [readCommB_short d hn] at h; cases h
  obtain ⟨l', hl', -, he⟩ := commB_registers d h7
  rw [map_val_inj l l' (Except.ok.inj (h.symm.trans hl')), he]
  by_cases h0 : Says00 d
  · unfold registersOf; rw [if_pos h0]; decide
  by_cases h1 : Says07 d
  · unfold registersOf; rw [if_neg h0, if_pos h1]; decide
  by_cases h2 : Says20 d
  · unfold registersOf; rw [if_neg h0, if_neg h1, if_pos h2]; decide
  rw [registersOf_rest d h0 h1 h2]
  exact together_possible _ _ _ _ _ _ _ _ (says_together d h7)

/-- One field for each of the answers of the table, in its order. -/
def answerFields : List (List UInt8) :=
  [[0x00, 0x00, 0x00, 0x00, 0x00, 0x00, 0x00],
   [0x80, 0x00, 0x00, 0x00, 0x00, 0x00, 0x00],
   [0x20, 0x2c, 0xc3, 0x71, 0xc3, 0x1d, 0xe0],
   [0xff, 0xff, 0xff, 0xff, 0xff, 0xff, 0xff],
   [0x10, 0x83, 0x0b, 0xe6, 0xfe, 0xff, 0xff],
   [0x00, 0x00, 0x00, 0x08, 0x00, 0x00, 0x00],
   [0x30, 0xff, 0xff, 0xff, 0xff, 0xff, 0xff],
   [0xff, 0xff, 0xff, 0xff, 0xfe, 0x01, 0xe7],
   [0x4f, 0xeb, 0xff, 0xff, 0xff, 0xff, 0xff],
   [0xff, 0xff, 0xff, 0xff, 0xff, 0xff, 0xfc],
   [0xff, 0xff, 0xff, 0x4b, 0x3f, 0xfc, 0xfa],
   [0xff, 0xfb, 0xe9, 0x3e, 0xbf, 0xff, 0xff],
   [0x10, 0x83, 0x0b, 0xe0, 0x00, 0x00, 0x00],
   [0x10, 0x03, 0x0b, 0xe6, 0xfe, 0xff, 0xff],
   [0x10, 0x00, 0x00, 0x84, 0x00, 0x00, 0x00],
   [0x30, 0xff, 0xff, 0xf8, 0x00, 0x00, 0x00],
   [0x80, 0x00, 0x00, 0x08, 0x00, 0x00, 0x00],
   [0x4f, 0xeb, 0xff, 0xf8, 0x00, 0x00, 0x00],
   [0x00, 0x00, 0x00, 0x80, 0x00, 0x00, 0x00],
   [0x00, 0x10, 0x00, 0x00, 0x00, 0x00, 0x00],
   [0xff, 0xfb, 0xe9, 0x38, 0x00, 0x00, 0x00],
   [0x30, 0x03, 0xff, 0xff, 0xff, 0xff, 0xff],
   [0xff, 0xff, 0xff, 0xff, 0xfe, 0x01, 0xe4],
   [0x80, 0x14, 0x01, 0x04, 0x22, 0x00, 0x00],
   [0x80, 0x00, 0x01, 0x3e, 0xbe, 0x00, 0x00],
   [0x1f, 0xe8, 0x01, 0xff, 0xff, 0xff, 0xfc],
   [0x00, 0x00, 0x01, 0x1f, 0xf0, 0x04, 0xbf],
   [0x00, 0x00, 0x01, 0x3c, 0x00, 0x00, 0x00],
   [0xff, 0xfb, 0xe9, 0x3e, 0xbf, 0xfc, 0xbb],
   [0x10, 0x00, 0x01, 0x10, 0x00, 0x00, 0x00],
   [0x10, 0x00, 0x00, 0x00, 0x00, 0x00, 0x00],
   [0x10, 0x03, 0x0b, 0xe6, 0xfe, 0xff, 0xfc],
   [0x30, 0x03, 0xff, 0xf8, 0x00, 0x00, 0x00],
   [0xff, 0xff, 0xff, 0xf8, 0x00, 0x00, 0x00],
   [0x88, 0x14, 0x00, 0x00, 0x00, 0x00, 0x00],
   [0x80, 0x00, 0x01, 0x38, 0x00, 0x00, 0x00],
   [0x1f, 0xe8, 0x01, 0xf8, 0x00, 0x00, 0x00],
   [0x00, 0x00, 0x01, 0x38, 0x00, 0x00, 0x00],
   [0xf7, 0xf3, 0xff, 0x00, 0x00, 0x00, 0x00],
   [0x00, 0x08, 0x00, 0x00, 0x00, 0x00, 0x00],
   [0xed, 0xb9, 0xff, 0x18, 0x00, 0x00, 0x00],
   [0x80, 0x00, 0x01, 0x04, 0x22, 0x00, 0x00],
   [0x00, 0x00, 0x01, 0x24, 0x3c, 0x04, 0x82],
   [0x10, 0x03, 0x0b, 0xe0, 0x00, 0x00, 0x00],
   [0xff, 0xff, 0xff, 0x00, 0x00, 0x00, 0x00],
   [0x80, 0x00, 0x01, 0x18, 0x00, 0x00, 0x00],
   [0x00, 0x00, 0x01, 0x00, 0x00, 0x00, 0x00],
   [0xff, 0xf9, 0xe0, 0x00, 0x00, 0x00, 0x00],
   [0x80, 0x00, 0x01, 0x00, 0x00, 0x00, 0x00]]

/-- C95. Each of the forty-nine answers occurs. -/
theorem commB_answers_occur (a : List Nat) (ha : a ∈ possibleAnswers) :
    ∃ d, ∃ l : List CommBMessage, readCommBMessage d = .ok (l.map Iface.val) ∧ l.map CommBMessage.register = a := by
  have hw : possibleAnswers = answerFields.map registersOf := by decide +kernel
  have h7 : ∀ d ∈ answerFields, d.length = 7 := by decide
  rw [hw, List.mem_map] at ha
  obtain ⟨d, hd, rfl⟩ := ha
  obtain ⟨l, hl, -, he⟩ := commB_registers d (h7 d hd)
  exact ⟨d, l, hl, he⟩

/-- C95. There are never more than five interpretations, and five only for the registers 1,7, 4,0, 4,5, 5,0 and 6,0. -/
theorem commB_at_most_five (d : List UInt8) (l : List CommBMessage) (h : readCommBMessage d = .ok (l.map Iface.val)) :
    l.length ≤ 5 ∧ (l.length = 5 → l.map CommBMessage.register = [0x17, 0x40, 0x45, 0x50, 0x60]) := by
  have hm := commB_answers d l h
  have key : ∀ a ∈ possibleAnswers, a.length ≤ 5 ∧ (a.length = 5 → a = [0x17, 0x40, 0x45, 0x50, 0x60]) := by decide
  have := key _ hm
  rwa [List.length_map] at this

end Modes
