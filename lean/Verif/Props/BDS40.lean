import Verif.Model.BDS40
import Verif.Lemmas.CommBNum
import Verif.Lemmas.FloatEval
/-!
# C46, C47: BDS 4,0 (selected vertical intention)

Documented positions: MCP/FCU altitude status bit 1 and value bits 2-13 (16 ft), FMS altitude status bit 14 and value bits
15-26 (16 ft), barometric setting status bit 27 and value bits 28-39 (0.1 mb from 800 mb), reserved bits 40-47, mode bits
status 48, VNAV 49, altitude hold 50, approach 51, reserved 52-53, target source status 54, source 55-56.
-/
set_option linter.unusedSimpArgs false
open Spec
namespace Modes

theorem MCPSelectedAltitude_eval (b0 b1 b2 b3 b4 b5 b6 : UInt8) : ∃ v, readMCPSelectedAltitude [b0, b1, b2, b3, b4, b5, b6] = .ok (bit [b0, b1, b2, b3, b4, b5, b6] 1, v) ∧ v.toNat = 16 * bits [b0, b1, b2, b3, b4, b5, b6] 15 26 := by
  have es : (b0 &&& 128 != 0) = bit [b0, b1, b2, b3, b4, b5, b6] 1 := by byte_flag
  have e : ((pack3 (b1 &&& 3) b2 (b3 &&& 192) >>> 6) * 16).toNat = 16 * bits [b0, b1, b2, b3, b4, b5, b6] 15 26 := by byte_omega
  unfold readMCPSelectedAltitude
  go_run [es]
  exact ⟨_, rfl, e⟩

theorem FMSSelectedAltitude_eval (b0 b1 b2 b3 b4 b5 b6 : UInt8) : ∃ v, readFMSSelectedAltitude [b0, b1, b2, b3, b4, b5, b6] = .ok (bit [b0, b1, b2, b3, b4, b5, b6] 14, v) ∧ v.toNat = 16 * bits [b0, b1, b2, b3, b4, b5, b6] 2 13 := by
  have es : (b1 &&& 4 != 0) = bit [b0, b1, b2, b3, b4, b5, b6] 14 := by byte_flag
  have e : ((pack2 (b0 &&& 127) (b1 &&& 248) >>> 3).toUInt32 * 16).toNat = 16 * bits [b0, b1, b2, b3, b4, b5, b6] 2 13 := by byte_omega
  unfold readFMSSelectedAltitude
  go_run [es]
  exact ⟨_, rfl, e⟩

theorem BarometricPressure40_eval (b0 b1 b2 b3 b4 b5 b6 : UInt8) : readBarometricPressure40 [b0, b1, b2, b3, b4, b5, b6] = .ok (bit [b0, b1, b2, b3, b4, b5, b6] 1, pressure40 (bits [b0, b1, b2, b3, b4, b5, b6] 28 39)) := by
  have es : (b0 &&& 128 != 0) = bit [b0, b1, b2, b3, b4, b5, b6] 1 := by byte_flag
  have e : (pack2 (b3 &&& 31) (b4 &&& 254) >>> 1).toNat = bits [b0, b1, b2, b3, b4, b5, b6] 28 39 := by byte_omega
  unfold readBarometricPressure40
  go_run [es, e]

theorem pressure40_table : ∀ k < 4096, ∃ m s m' s', rn 24 (k * 13421773) 134217728 = some (m, s) ∧
    rn 24 (m + 800 * 2 ^ s) (2 ^ s) = some (m', s') ∧ rnIs 24 (8000 + k) 10 m' s' = some true := by
  have h : ∀ i < 64, ∀ j < 64, (match rn 24 ((64 * i + j) * 13421773) 134217728 with
      | some (m, s) => match rn 24 (m + 800 * 2 ^ s) (2 ^ s) with
        | some (m', s') => rnIs 24 (8000 + (64 * i + j)) 10 m' s' == some true
        | none => false
      | none => false) = true := by decide +kernel
  intro k hk
  specialize h (k / 64) (by omega) (k % 64) (by omega)
  rw [Nat.div_add_mod] at h
  split at h
  · split at h
    · rename_i m s h1 _ m' s' h2
      exact ⟨m, s, m', s', h1, h2, eq_of_beq h⟩
    · cases h
  · cases h

/-- The roundings of the computation cancel: the result is the `float32` nearest to the coded pressure. -/
theorem pressure40_nearest (k : Nat) (hl : k < 4096) : pressure40 k = f32 (800 + k * (1 / 10)) := by
  unfold pressure40
  have e2 : f32 (1 / 10) = 13421773 / 134217728 := by
    have := rn_spec (p := 24) (a := 1) (b := 10) (m := 13421773) (s := 27) (by norm_num) (by norm_num) (by decide +kernel)
    norm_num at this ⊢
    exact this
  obtain ⟨m, s, m', s', h1, h2, h3⟩ := pressure40_table k hl
  have g1 := rn_spec (by norm_num) (by norm_num) h1
  have g2 := rn_spec (by norm_num) (by positivity) h2
  have g3 := (rnIs_spec (by norm_num) (by norm_num) h3).2 rfl
  push_cast at g1 g2 g3
  rw [f32_nat k (by omega), e2, show (k : ℚ) * (13421773 / 134217728) = k * 13421773 / 134217728 by ring,
    show f32 ((k : ℚ) * 13421773 / 134217728) = m / 2 ^ s from g1,
    show (m : ℚ) / 2 ^ s + 800 = (m + 800 * 2 ^ s) / 2 ^ s by field_simp,
    show (800 : ℚ) + k * (1 / 10) = (8000 + k) / 10 by ring]
  exact g2.trans g3.symm

theorem f32_pressure_near (n : Nat) (hl : n < 4096) : |f32 (800 + n * (1 / 10)) - (800 + n * (1 / 10))| ≤ 1 / 4096 := by
  refine (rnd_err 24 _).trans ?_
  have hk : (n : ℚ) ≤ 4096 := by exact_mod_cast hl.le
  have hk0 : (0 : ℚ) ≤ n := by positivity
  rw [abs_of_nonneg (by linarith), div_le_div_iff₀ (by positivity) (by norm_num)]
  norm_num
  linarith

theorem pressure40_spec (n : Nat) (hl : n < 4096) : pressure40 n = f32 (800 + n * (1 / 10)) ∧ 799 < pressure40 n := by
  refine ⟨pressure40_nearest n hl, ?_⟩
  rw [pressure40_nearest n hl]
  have := abs_le.1 (f32_pressure_near n hl)
  have hk0 : (0 : ℚ) ≤ n := by positivity
  linarith

/-- Which selected vertical intention messages are acceptable: the reserved bits 40-47 and 52-53 zero. -/
def Accepted40 (d : List UInt8) : Prop := d.length = 7 ∧ bits d 40 47 = 0 ∧ bits d 52 53 = 0

instance (d : List UInt8) : Decidable (Accepted40 d) := by unfold Accepted40; infer_instance

/-- What the code does with the bits. The places of the two altitudes are exchanged with respect to the document, and the
status of the barometric setting is that of the MCP/FCU altitude; the other fields are at their documented places. -/
structure SelectedVerticalIntention.Actual (d : List UInt8) (m : SelectedVerticalIntention) : Prop where
  mcpfcuSelectedAltitudeAvailable : m.mcpfcuSelectedAltitudeAvailable = bit d 1
  mcpfcuSelectedAltitude : m.mcpfcuSelectedAltitude.toNat = 16 * bits d 15 26
  fmsSelectedAltitudeAvailable : m.fmsSelectedAltitudeAvailable = bit d 14
  fmsSelectedAltitude : m.fmsSelectedAltitude.toNat = 16 * bits d 2 13
  barometricPressureSettingAvailable : m.barometricPressureSettingAvailable = bit d 1
  barometricPressureSetting : m.barometricPressureSetting = f32 (800 + bits d 28 39 * (1 / 10))
  statusOfModeBits : m.statusOfModeBits.toNat = bits d 48 48
  vnavMode : m.vnavMode = bit d 49
  altitudeHoldMode : m.altitudeHoldMode = bit d 50
  approachMode : m.approachMode = bit d 51
  statusOfTargetAltitudeSource : m.statusOfTargetAltitudeSource.toNat = bits d 54 54
  targetAltitudeSource : m.targetAltitudeSource.toNat = bits d 55 56

/-- The documented content of BDS 4,0. -/
structure SelectedVerticalIntention.Layout (d : List UInt8) (m : SelectedVerticalIntention) : Prop where
  mcpfcuSelectedAltitudeAvailable : m.mcpfcuSelectedAltitudeAvailable = bit d 1
  mcpfcuSelectedAltitude : m.mcpfcuSelectedAltitude.toNat = 16 * bits d 2 13
  fmsSelectedAltitudeAvailable : m.fmsSelectedAltitudeAvailable = bit d 14
  fmsSelectedAltitude : m.fmsSelectedAltitude.toNat = 16 * bits d 15 26
  barometricPressureSettingAvailable : m.barometricPressureSettingAvailable = bit d 27
  barometricPressureSetting : m.barometricPressureSetting = f32 (800 + bits d 28 39 * (1 / 10))
  statusOfModeBits : m.statusOfModeBits.toNat = bits d 48 48
  vnavMode : m.vnavMode = bit d 49
  altitudeHoldMode : m.altitudeHoldMode = bit d 50
  approachMode : m.approachMode = bit d 51
  statusOfTargetAltitudeSource : m.statusOfTargetAltitudeSource.toNat = bits d 54 54
  targetAltitudeSource : m.targetAltitudeSource.toNat = bits d 55 56

theorem bds40_eval (d : List UInt8) :
    (readBDS40 d = .error .err ∧ ¬ Accepted40 d) ∨
    (Accepted40 d ∧ ∃ m, readBDS40 d = .ok m ∧ SelectedVerticalIntention.Actual d m ∧ 799 < m.barometricPressureSetting) := by
  by_cases h7 : d.length = 7
  swap; · exact Or.inl ⟨by unfold readBDS40; rw [if_pos h7]; rfl, fun h => h7 h.1⟩
  obtain ⟨b0, b1, b2, b3, b4, b5, b6, rfl⟩ := list7 d h7
  have e0 : (b4 &&& 1 = 0 ∧ b5 &&& 254 = 0) ↔ bits [b0, b1, b2, b3, b4, b5, b6] 40 47 = 0 := by word_nat; byte_omega
  have e1 : b6 &&& 24 = 0 ↔ bits [b0, b1, b2, b3, b4, b5, b6] 52 53 = 0 := by word_nat; byte_omega
  have f0 : (b5 &&& 1).toNat = bits [b0, b1, b2, b3, b4, b5, b6] 48 48 := by byte_omega
  have f1 : ((b6 &&& 128) >>> 7 == 1) = bit [b0, b1, b2, b3, b4, b5, b6] 49 := by byte_flag
  have f2 : ((b6 &&& 64) >>> 6 == 1) = bit [b0, b1, b2, b3, b4, b5, b6] 50 := by byte_flag
  have f3 : ((b6 &&& 32) >>> 5 == 1) = bit [b0, b1, b2, b3, b4, b5, b6] 51 := by byte_flag
  have f4 : ((b6 &&& 4) >>> 2).toNat = bits [b0, b1, b2, b3, b4, b5, b6] 54 54 := by byte_omega
  have f5 : (b6 &&& 3).toNat = bits [b0, b1, b2, b3, b4, b5, b6] 55 56 := by byte_omega
  obtain ⟨v1, g1, k1⟩ := MCPSelectedAltitude_eval b0 b1 b2 b3 b4 b5 b6
  obtain ⟨v2, g2, k2⟩ := FMSSelectedAltitude_eval b0 b1 b2 b3 b4 b5 b6
  obtain ⟨k3, k4⟩ := pressure40_spec (bits [b0, b1, b2, b3, b4, b5, b6] 28 39) (bits_lt _ 28 39 12 rfl)
  unfold Accepted40
  unfold readBDS40 readStatusOfModeBits readStatusOfTargetAltitudeSource readTargetAltitudeSource
  go_run [g1, g2, BarometricPressure40_eval]
  by_cases h0 : b4 &&& 1 = 0
  swap; · rw [if_pos h0]; exact Or.inl ⟨by trivial, fun ha => h0 (e0.2 ha.2.1).1⟩
  rw [if_neg (fun h => h h0)]
  by_cases h1 : b5 &&& 254 = 0
  swap; · simp only [if_pos h1]; exact Or.inl ⟨by trivial, fun ha => h1 (e0.2 ha.2.1).2⟩
  rw [if_neg (fun h => h h1)]
  by_cases h2 : b6 &&& 24 = 0
  swap; · simp only [if_pos h2]; exact Or.inl ⟨by trivial, fun ha => h2 (e1.2 ha.2.2)⟩
  rw [if_neg (fun h => h h2)]
  refine Or.inr ⟨⟨trivial, e0.1 ⟨h0, h1⟩, e1.1 h2⟩, _, rfl, ?_, k4⟩
  exact ⟨rfl, k1, rfl, k2, rfl, k3, f0, f1, f2, f3, f4, f5⟩

/-- C47. A selected vertical intention is readable exactly when its reserved bits are zero; no panic. -/
theorem bds40_accepts (d : List UInt8) : (Succeeds (readBDS40 d) ↔ Accepted40 d) ∧ NoPanic (readBDS40 d) := by
  rcases bds40_eval d with ⟨h, hn⟩ | ⟨ha, m, hm, -⟩
  · exact ⟨⟨fun ⟨m, hm⟩ => (by rw [h] at hm; cases hm), fun h => absurd h hn⟩, by rw [h]; simp [NoPanic]⟩
  · exact ⟨⟨fun _ => ha, fun _ => ⟨_, hm⟩⟩, by rw [hm]; simp [NoPanic]⟩

/-- C47: where each reported field comes from, for every readable message. -/
theorem bds40_actual (d : List UInt8) (m : SelectedVerticalIntention) (h : readBDS40 d = .ok m) :
    SelectedVerticalIntention.Actual d m := by
  rcases bds40_eval d with ⟨e, -⟩ | ⟨-, m', hm, hl, -⟩
  · rw [e] at h; cases h
  rw [hm] at h; cases h; exact hl

/-- C47, the documented content, for messages in which the two altitudes are equal and the barometric setting is available
exactly when the MCP/FCU altitude is. Missing: the other messages, for which it is false (`bds40_content_refuted`). -/
theorem bds40_content_partial (d : List UInt8) (m : SelectedVerticalIntention) (h : readBDS40 d = .ok m)
    (ha : bits d 2 13 = bits d 15 26) (hb : bit d 27 = bit d 1) : SelectedVerticalIntention.Layout d m := by
  have hl := bds40_actual d m h
  exact ⟨hl.1, ha ▸ hl.2, hl.3, ha ▸ hl.4, hb ▸ hl.5, hl.6, hl.7, hl.8, hl.9, hl.10, hl.11, hl.12⟩

/-- C47, the part that is false: *whenever* the two altitudes differ each is reported as the other, and whenever the two
status bits differ the barometric status is wrong. -/
theorem bds40_content_refuted (d : List UInt8) (m : SelectedVerticalIntention) (h : readBDS40 d = .ok m) :
    (bits d 2 13 ≠ bits d 15 26 → m.mcpfcuSelectedAltitude.toNat ≠ 16 * bits d 2 13 ∧
      m.fmsSelectedAltitude.toNat ≠ 16 * bits d 15 26) ∧
    (bit d 27 ≠ bit d 1 → m.barometricPressureSettingAvailable ≠ bit d 27) := by
  have hl := bds40_actual d m h
  refine ⟨fun hne => ?_, fun hne => ?_⟩
  · rw [hl.mcpfcuSelectedAltitude, hl.fmsSelectedAltitude]; omega
  · rw [hl.barometricPressureSettingAvailable]; exact fun e => hne e.symm

/-- C46. Coherency of a BDS 4,0 message: some parameter is available, the unavailable ones are zero. Since the reported
barometric setting is never zero, that is: bit 1 is set, and bit 14 is set or bits 2-13 are zero. -/
theorem bds40_coherent (d : List UInt8) (m : SelectedVerticalIntention) (h : readBDS40 d = .ok m) :
    (m.coherent = true ↔
      (m.mcpfcuSelectedAltitudeAvailable ∨ m.fmsSelectedAltitudeAvailable ∨ m.barometricPressureSettingAvailable) ∧
      (m.mcpfcuSelectedAltitudeAvailable = false → m.mcpfcuSelectedAltitude = 0) ∧
      (m.fmsSelectedAltitudeAvailable = false → m.fmsSelectedAltitude = 0) ∧
      (m.barometricPressureSettingAvailable = false → m.barometricPressureSetting = 0)) ∧
    (m.coherent = true ↔ bit d 1 = true ∧ (bit d 14 = true ∨ bits d 2 13 = 0)) := by
  have first : m.coherent = true ↔
      (m.mcpfcuSelectedAltitudeAvailable ∨ m.fmsSelectedAltitudeAvailable ∨ m.barometricPressureSettingAvailable) ∧
      (m.mcpfcuSelectedAltitudeAvailable = false → m.mcpfcuSelectedAltitude = 0) ∧
      (m.fmsSelectedAltitudeAvailable = false → m.fmsSelectedAltitude = 0) ∧
      (m.barometricPressureSettingAvailable = false → m.barometricPressureSetting = 0) := by
    unfold SelectedVerticalIntention.coherent
    simp only [ite_chain, ite_last, and_true, any3, ne_eq, avail_zero]
  refine ⟨first, ?_⟩
  rw [first]
  rcases bds40_eval d with ⟨e, -⟩ | ⟨-, m', hm, hl, hp⟩
  · rw [e] at h; cases h
  rw [hm] at h; cases h
  rw [u32_eq, u32_eq, hl.mcpfcuSelectedAltitudeAvailable, hl.mcpfcuSelectedAltitude, hl.fmsSelectedAltitudeAvailable,
    hl.fmsSelectedAltitude, hl.barometricPressureSettingAvailable, UInt32.toNat_zero]
  have hne : m.barometricPressureSetting ≠ 0 := fun e => by rw [e] at hp; norm_num at hp
  cases bit d 1 <;> cases bit d 14 <;> simp [hne]

/-- A selected vertical intention (a live capture): readable and coherent. -/
example : Accepted40 [0x85, 0xE4, 0x2F, 0x31, 0x30, 0x00, 0x00] ∧
    bit [0x85, 0xE4, 0x2F, 0x31, 0x30, 0x00, 0x00] 1 ∧ bit [0x85, 0xE4, 0x2F, 0x31, 0x30, 0x00, 0x00] 14 := by decide
/-- The hypotheses of `bds40_content_partial`. -/
example : let d : List UInt8 := [0x85, 0xE4, 0x2F, 0x31, 0x30, 0x00, 0x00]
    bits d 2 13 = bits d 15 26 ∧ bit d 27 = bit d 1 := by decide

end Modes
