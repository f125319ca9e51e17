import Verif.Model.BDS05
import Verif.Lemmas.Register
/-!
# C28: airborne position content

Bits of the 56-bit message: 1-5 type code, 6-7 surveillance status, 8 single antenna flag (NIC supplement B), 9-20 altitude,
21 time, 22 CPR format, 23-39 encoded latitude, 40-56 encoded longitude.
-/
set_option linter.unusedSimpArgs false
open Spec
namespace Spec

/-- The Mode C pulses of a 12-bit altitude field: C1 A1 C2 A2 C4 A4 B1 Q B2 D2 B4 D4, most significant bit first. -/
def pulsesAC12 (c : Nat) : Pulses :=
  { d1 := false
    c1 := c.testBit 11, a1 := c.testBit 10, c2 := c.testBit 9, a2 := c.testBit 8, c4 := c.testBit 7, a4 := c.testBit 6,
    b1 := c.testBit 5, b2 := c.testBit 3, d2 := c.testBit 2, b4 := c.testBit 1, d4 := c.testBit 0 }

/-- Its 11-bit number, the Q bit removed. -/
def n25AC12 (c : Nat) : Nat := c / 32 * 16 + c % 16

/-- What a 12-bit altitude field means: with the Q bit, 25-ft steps; without, the altitude whose Mode C code it is. The
method is 1 for 25-ft steps and 0 for Mode C. -/
def AC12Meaning (c : Nat) (method : Nat) (a : Int) : Prop :=
  (c.testBit 4 = true ∧ method = 1 ∧ a = 25 * (n25AC12 c : Int) - 1000) ∨
  (c.testBit 4 = false ∧ method = 0 ∧ ∃ k : Nat, k < 1280 ∧ pulsesAC12 c = modeC k ∧ a = 100 * (k : Int) - 1200)

/-- A 12-bit altitude field that is no Mode C code and has no Q bit. -/
def AC12Illegal (c : Nat) : Prop :=
  c.testBit 4 = false ∧
    (c.testBit 11, c.testBit 9, c.testBit 7) ∈ [(false, false, false), (true, true, true), (true, false, true)]

instance (c : Nat) : Decidable (AC12Illegal c) := by unfold AC12Illegal; infer_instance

end Spec
namespace Modes

theorem modeC_d1_conv (k : Nat) (hk : k < 2560) (h : (modeC k).d1 = false) : k < 1280 := by
  simp only [modeC, gray] at h
  apply Classical.byContradiction
  intro hk2
  have : (k / 5 ^^^ k / 5 / 2).testBit 8 = true := by
    have h1 : (k / 5).testBit 8 = true := by
      rw [Nat.testBit_eq_decide_div_mod_eq]; simp; omega
    have h2 : (k / 5 / 2).testBit 8 = false := by
      rw [Nat.testBit_eq_decide_div_mod_eq]; simp; omega
    rw [Nat.testBit_xor, h1, h2]; rfl
  rw [this] at h
  cases h

theorem testBit_flag (x : UInt8) (m : UInt8) (c i : Nat) (h : ((x &&& m).toNat ≠ 0) ↔ c / 2 ^ i % 2 = 1) :
    ((x &&& m) != 0) = c.testBit i := by
  rw [Bool.eq_iff_iff, Nat.testBit_eq_decide_div_mod_eq, decide_eq_true_iff, u8_bne, decide_eq_true_iff]
  exact h

theorem altitude05_eval (b0 b1 b2 b3 b4 b5 b6 : UInt8) :
    let d := [b0, b1, b2, b3, b4, b5, b6]
    let src := if 20 ≤ bits d 1 5 ∧ bits d 1 5 ≤ 22 then 1 else 0
    (∃ method a, readAltitude05 d = .ok (a, src, method) ∧ AC12Meaning (bits d 9 20) method a) ∨
    (readAltitude05 d = .error .err ∧ AC12Illegal (bits d 9 20)) := by
  intro d src
  have hs : (if (20 : UInt8) ≤ (b0 &&& 248) >>> 3 ∧ (b0 &&& 248) >>> 3 ≤ 22 then 1 else 0) = src := by
    have e : ((20 : UInt8) ≤ (b0 &&& 248) >>> 3 ∧ (b0 &&& 248) >>> 3 ≤ 22) = (20 ≤ bits d 1 5 ∧ bits d 1 5 ≤ 22) := by
      simp only [d]; byte_iff
    simp only [e]; rfl
  have hc : bits d 9 20 = b1.toNat * 16 + b2.toNat / 16 := by simp only [d]; byte_omega
  unfold readAltitude05
  simp only [d]
  go_run []
  simp only [hs]
  generalize bits d 9 20 = c at hc
  have hb1 := byte_lt b1
  have hb2 := byte_lt b2
  have q : (¬ b1 &&& 1 = 0) = (c.testBit 4 = true) := by
    rw [eq_iff_iff, Nat.testBit_eq_decide_div_mod_eq, decide_eq_true_iff]; word_nat; byte_omega
  simp only [q]
  split
  · rename_i hq
    left
    refine ⟨_, _, rfl, Or.inl ⟨hq, rfl, ?_⟩⟩
    have e : (((0 : UInt16) ||| (b1 &&& 254).toUInt16 <<< 3) ||| (b2 &&& 240).toUInt16 >>> 4).toNat = n25AC12 c := by
      rw [UInt16.zero_or, UInt16.toNat_or]
      have a1 : ((b1 &&& 254).toUInt16 <<< 3).toNat = (b1.toNat / 2) <<< 4 := by
        rw [Nat.shiftLeft_eq]; byte_omega
      have a2 : ((b2 &&& 240).toUInt16 >>> 4).toNat = b2.toNat / 16 := by byte_omega
      rw [a1, a2, ← Nat.shiftLeft_add_eq_or_of_lt (by omega), Nat.shiftLeft_eq, n25AC12]
      omega
    rw [e]
  · rename_i hq
    have hq' : c.testBit 4 = false := by simpa using hq
    have t (x m : UInt8) (i : Nat) (h : ((x &&& m).toNat ≠ 0) ↔ c / 2 ^ i % 2 = 1) := testBit_flag x m c i h
    rw [t b2 0x40 2 (by byte_omega), t b2 0x10 0 (by byte_omega), t b1 0x40 10 (by byte_omega), t b1 0x10 8 (by byte_omega),
      t b1 0x04 6 (by byte_omega), t b1 0x02 5 (by byte_omega), t b2 0x80 3 (by byte_omega), t b2 0x20 1 (by byte_omega),
      t b1 0x80 11 (by byte_omega), t b1 0x20 9 (by byte_omega), t b1 0x08 7 (by byte_omega)]
    have hg : gillhamToAltitude false (c.testBit 2) (c.testBit 0) (c.testBit 10) (c.testBit 8) (c.testBit 6)
      (c.testBit 5) (c.testBit 3) (c.testBit 1) (c.testBit 11) (c.testBit 9) (c.testBit 7) =
      gillham (pulsesAC12 c) := rfl
    rw [hg]
    cases hr : gillham (pulsesAC12 c) with
    | ok a =>
      left
      refine ⟨0, a, rfl, Or.inr ⟨hq', rfl, ?_⟩⟩
      obtain ⟨k, hk, ha, hpul⟩ := gillham_ok_inv _ _ hr
      exact ⟨k, modeC_d1_conv k hk (by rw [← hpul]; rfl), hpul, ha⟩
    | error e =>
      cases e with
      | panic => exact absurd hr (gillham_noPanic _)
      | err =>
        right
        exact ⟨rfl, hq', (gillham_err_iff _).1 hr⟩

/-- Everything the reader can do, in terms of bit positions. -/
theorem bds05_eval (d : List UInt8) :
    (readBDS05 d = .error .err ∧ ¬ (d.length = 7 ∧ 9 ≤ bits d 1 5 ∧ bits d 1 5 ≤ 22 ∧ bits d 1 5 ≠ 19 ∧
        ¬ AC12Illegal (bits d 9 20))) ∨
    (d.length = 7 ∧ 9 ≤ bits d 1 5 ∧ bits d 1 5 ≤ 22 ∧ bits d 1 5 ≠ 19 ∧ ∃ m, readBDS05 d = .ok m ∧
      m.formatTypeCode.toNat = bits d 1 5 ∧
      m.surveillanceStatus.toNat = bits d 6 7 ∧
      m.singleAntennaFlag.toNat = bits d 8 8 ∧
      AC12Meaning (bits d 9 20) m.altitudeReportMethod m.altitudeInFeet ∧
      m.altitudeSource = (if 20 ≤ bits d 1 5 then 1 else 0) ∧
      m.time.toNat = bits d 21 21 ∧
      m.cprFormat.toNat = bits d 22 22 ∧
      m.encodedLatitude.toNat = bits d 23 39 ∧
      m.encodedLongitude.toNat = bits d 40 56) := by
  by_cases h7 : d.length = 7
  rotate_left
  · left
    refine ⟨?_, fun h => h7 h.1⟩
    unfold readBDS05
    simp [h7, fail, bind, Except.bind]
  obtain ⟨b0, b1, b2, b3, b4, b5, b6, rfl⟩ := list7 d h7
  have ha := altitude05_eval b0 b1 b2 b3 b4 b5 b6
  unfold readBDS05 readFormatTypeCode readSurveillanceStatus readSingleAntennaFlag readTime readCPRFormat
    readEncodedLatitude05 readEncodedLongitude
  go_run []
  have hf : ((b0 &&& 248) >>> 3 < 9 ∨ (b0 &&& 248) >>> 3 > 22 ∨ (b0 &&& 248) >>> 3 = 19) =
      ¬ (9 ≤ bits [b0, b1, b2, b3, b4, b5, b6] 1 5 ∧ bits [b0, b1, b2, b3, b4, b5, b6] 1 5 ≤ 22 ∧
        bits [b0, b1, b2, b3, b4, b5, b6] 1 5 ≠ 19) := by byte_iff
  simp only [hf]
  split
  · rename_i hn
    left
    refine ⟨rfl, ?_⟩
    rintro ⟨_, h1, h2, h3, _⟩
    exact hn ⟨h1, h2, h3⟩
  · rename_i hn
    have hn := Classical.not_not.1 hn
    obtain ⟨h1, h2, h3⟩ := hn
    rcases ha with ⟨method, a, hr, hm⟩ | ⟨hr, hi⟩
    · right
      refine ⟨trivial, h1, h2, h3, ?_⟩
      rw [hr]
      go_run []
      refine ⟨_, rfl, ?_, ?_, ?_, hm, ?_, ?_, ?_, ?_, ?_⟩
      · byte_omega
      · byte_omega
      · byte_omega
      · simp only [h2, and_true]
      · byte_omega
      · byte_omega
      · byte_omega
      · byte_omega
    · left
      rw [hr]
      refine ⟨rfl, ?_⟩
      rintro ⟨_, _, _, _, h⟩
      exact h hi

/-- C28: every field of an airborne position that was read is the number in its bit positions; the altitude is
`25 N - 1000` with the Q bit, and without it the altitude whose Mode C code the field is. -/
theorem airborne_position_content (d : List UInt8) (m : AirbornePosition) (h : readBDS05 d = .ok m) :
    m.formatTypeCode.toNat = bits d 1 5 ∧
    m.surveillanceStatus.toNat = bits d 6 7 ∧
    m.singleAntennaFlag.toNat = bits d 8 8 ∧
    AC12Meaning (bits d 9 20) m.altitudeReportMethod m.altitudeInFeet ∧
    m.altitudeSource = (if 20 ≤ bits d 1 5 then 1 else 0) ∧
    m.time.toNat = bits d 21 21 ∧
    m.cprFormat.toNat = bits d 22 22 ∧
    m.encodedLatitude.toNat = bits d 23 39 ∧
    m.encodedLongitude.toNat = bits d 40 56 := by
  rcases bds05_eval d with ⟨he, _⟩ | ⟨_, _, _, _, m', hm, hc⟩
  · rw [he] at h; cases h
  · rw [hm] at h
    injection h with h
    subst h
    exact hc

theorem ac12_meaning_legal (c : Nat) (method : Nat) (a : Int) (h : AC12Meaning c method a) : ¬ AC12Illegal c := by
  rintro ⟨hq, hl⟩
  rcases h with ⟨hq', _⟩ | ⟨_, _, k, hk, hp, _⟩
  · rw [hq] at hq'; cases hq'
  · have := (gillham_err_iff (pulsesAC12 c)).2 hl
    rw [hp, gillham_modeC k (by omega)] at this
    cases this

/-- C28: exactly the 7-byte messages of the airborne position type codes whose altitude field is legal are read; every other
slice is refused with an error, never a panic. -/
theorem airborne_position_accepts (d : List UInt8) :
    (Succeeds (readBDS05 d) ↔ d.length = 7 ∧ 9 ≤ bits d 1 5 ∧ bits d 1 5 ≤ 22 ∧ bits d 1 5 ≠ 19 ∧
      ¬ AC12Illegal (bits d 9 20)) ∧ (¬ Succeeds (readBDS05 d) → readBDS05 d = .error .err) := by
  rcases bds05_eval d with ⟨he, hn⟩ | ⟨h7, h1, h2, h3, m', hm, hc⟩
  · refine ⟨⟨?_, fun h => absurd h hn⟩, fun _ => he⟩
    rintro ⟨m, hm⟩
    rw [he] at hm; cases hm
  · refine ⟨⟨fun _ => ⟨h7, h1, h2, h3, ac12_meaning_legal _ _ _ hc.2.2.2.1⟩, fun _ => ⟨m', hm⟩⟩, fun h => ?_⟩
    exact absurd ⟨m', hm⟩ h

/-- C28: the altitude decoded is the altitude encoded, for every altitude of the Mode C range the field can carry and both
codings. -/
theorem airborne_altitude_determined (c m₁ m₂ : Nat) (a₁ a₂ : Int) (h₁ : AC12Meaning c m₁ a₁) (h₂ : AC12Meaning c m₂ a₂) :
    m₁ = m₂ ∧ a₁ = a₂ := by
  rcases h₁ with ⟨q1, r1, e1⟩ | ⟨q1, r1, k1, hk1, p1, e1⟩ <;> rcases h₂ with ⟨q2, r2, e2⟩ | ⟨q2, r2, k2, hk2, p2, e2⟩
  · exact ⟨r1.trans r2.symm, e1.trans e2.symm⟩
  · rw [q1] at q2; cases q2
  · rw [q1] at q2; cases q2
  · refine ⟨r1.trans r2.symm, ?_⟩
    have g1 := gillham_modeC k1 (by omega)
    have g2 := gillham_modeC k2 (by omega)
    rw [← p1] at g1
    rw [← p2, g1] at g2
    injection g2 with g2
    omega

/-- 8D40621D58C382D690C8AC2863A7, the usual example: type code 11, even, 38000 ft. -/
def examplePosition : List UInt8 := [0x58, 0xC3, 0x82, 0xD6, 0x90, 0xC8, 0xAC]

example : ∃ m, readBDS05 examplePosition = .ok m ∧ m.altitudeInFeet = 38000 ∧ m.encodedLatitude = 93000 ∧
    m.encodedLongitude = 51372 ∧ bits examplePosition 9 20 ≠ 0 := ⟨_, rfl, by decide⟩
example : ∃ m, readBDS05 [0x58, 0x10, 0x82, 0xD6, 0x90, 0xC8, 0xAC] = .error .err ∧
    readBDS05 [0x5A, 0x20, 0x82, 0xD6, 0x90, 0xC8, 0xAC] = .ok m ∧ m.altitudeReportMethod = 0 :=
  ⟨_, by decide +kernel, rfl, rfl⟩

/-- C29, refuted: an airborne position whose altitude field is all zero ("not available") is never read: the Mode C
decoder is applied to it and rejects it. -/
theorem zero_altitude_refuted (d : List UInt8) (h : bits d 9 20 = 0) : readBDS05 d = .error .err := by
  rcases bds05_eval d with ⟨he, _⟩ | ⟨_, _, _, _, m, _, _, _, _, hm, _⟩
  · exact he
  · rw [h] at hm
    exact absurd (by decide +kernel) (ac12_meaning_legal _ _ _ hm)

example : bits [0x58, 0x00, 0x02, 0xD6, 0x90, 0xC8, 0xAC] 9 20 = 0 := by decide

/-- C29, what does hold: every 7-byte airborne position whose altitude field is *available* (a 25-ft number or a Mode C
code) is read. The missing part, the all-zero field, is false of the code (`zero_altitude_refuted`). -/
theorem altitude_available_partial (d : List UInt8) (h7 : d.length = 7) (h1 : 9 ≤ bits d 1 5) (h2 : bits d 1 5 ≤ 22)
    (h3 : bits d 1 5 ≠ 19) (ha : ∃ method a, AC12Meaning (bits d 9 20) method a) : Succeeds (readBDS05 d) := by
  obtain ⟨method, a, hm⟩ := ha
  exact (airborne_position_accepts d).1.2 ⟨h7, h1, h2, h3, ac12_meaning_legal _ _ _ hm⟩

example : AC12Meaning (bits examplePosition 9 20) 1 38000 := Or.inl (by decide)

end Modes
