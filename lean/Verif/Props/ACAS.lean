import Verif.Model.ACAS
import Verif.Lemmas.Register
import Verif.Lemmas.Float
/-!
# C20-C23, C62: resolution advisories

Bit numbers are those of the six bytes after the register number: ARA 1-14, RAC 15-18, RAT 19, MTE 20, TTI 21-22, TID
23-48 (address 23-46; or altitude 23-35, range 36-42, bearing 43-48).
-/
set_option linter.unusedSimpArgs false
open Spec
namespace Spec

/-- The Mode C pulses of the 13-bit altitude field of the threat identity data: C1 A1 C2 A2 C4 A4 (zero) B1 D1 B2 D2 B4 D4,
most significant bit first. -/
def pulsesTID (c : Nat) : Pulses :=
  { c1 := c.testBit 12, a1 := c.testBit 11, c2 := c.testBit 10, a2 := c.testBit 9, c4 := c.testBit 8, a4 := c.testBit 7,
    b1 := c.testBit 5, d1 := c.testBit 4, b2 := c.testBit 3, d2 := c.testBit 2, b4 := c.testBit 1, d4 := c.testBit 0 }

/-- The twelve pulse bits of the field, the bit between A4 and B1 left out. -/
def tid12 (c : Nat) : Nat := c / 128 * 64 + c % 64

/-- No altitude has this code. -/
def TIDIllegal (c : Nat) : Prop :=
  tid12 c ≠ 0 ∧ (c.testBit 12, c.testBit 10, c.testBit 8) ∈ [(false, false, false), (true, true, true), (true, false, true)]

instance (c : Nat) : Decidable (TIDIllegal c) := by unfold TIDIllegal; infer_instance

end Spec
namespace Modes

/-- The active advisory the standard reads in the six bytes. -/
def specARA (d : List UInt8) : ActiveRA :=
  if bit d 1 then
    .oneThreat { preventiveCorrective := bits d 2 2, sense := bits d 3 3, isIncreasedRate := bit d 4, isSenseReversal := bit d 5,
                 isAltitudeCrossing := bit d 6, verticalSpeedLimitOrPositive := bits d 7 7 }
  else if bit d 20 then
    .multiple { requiresCorrectionUpwardSense := bit d 2, requiresPositiveClimb := bit d 3,
                requiresCorrectionDownwardSense := bit d 4, requiresPositiveDescend := bit d 5,
                requiresCrossing := bit d 6, isSenseReversal := bit d 7 }
  else .none

/-- The parts of an advisory that do not depend on the threat type. -/
def specRA (d : List UInt8) (address : Option UInt32) (altitude : Option ThreatAltitude) (range bearing : Option UInt8) :
    ResolutionAdvisory where
  activeRA := specARA d
  raComplement := ⟨bit d 15, bit d 16, bit d 17, bit d 18⟩
  raTerminatedIndicator := bits d 19 19
  multipleThreatEncounter := UInt8.ofNat (bits d 20 20)
  threatTypeIndicator := bits d 21 22
  threatIdentityAddress := address
  threatIdentityAltitude := altitude
  threatIdentityRange := range
  threatIdentityBearing := bearing

theorem ara_eval (b0 b1 b2 b3 b4 b5 : UInt8) :
    readActiveRA [b0, b1, b2, b3, b4, b5] = .ok (specARA [b0, b1, b2, b3, b4, b5]) := by
  unfold readActiveRA readOneThreat readMultipleThreats specARA
  go_run []
  have h1 : ((b0 &&& 128) >>> 7 = 1) = (bit [b0, b1, b2, b3, b4, b5] 1 = true) := by
    rw [eq_iff_iff]; simp only [bit, beq_iff_eq, u8_eq]; byte_omega
  have h2 : (¬ (b2 &&& 16) >>> 4 = 0) = (bit [b0, b1, b2, b3, b4, b5] 20 = true) := by
    rw [eq_iff_iff]; simp only [bit, beq_iff_eq, u8_eq]; byte_omega
  have f2 : ((b0 &&& 64) != 0) = bit [b0, b1, b2, b3, b4, b5] 2 := by byte_flag
  have f3 : ((b0 &&& 32) != 0) = bit [b0, b1, b2, b3, b4, b5] 3 := by byte_flag
  have f4 : ((b0 &&& 16) != 0) = bit [b0, b1, b2, b3, b4, b5] 4 := by byte_flag
  have f5 : ((b0 &&& 8) != 0) = bit [b0, b1, b2, b3, b4, b5] 5 := by byte_flag
  have f6 : ((b0 &&& 4) != 0) = bit [b0, b1, b2, b3, b4, b5] 6 := by byte_flag
  have f7 : ((b0 &&& 2) != 0) = bit [b0, b1, b2, b3, b4, b5] 7 := by byte_flag
  have n2 : (if ¬ b0 &&& 64 = 0 then 1 else 0) = bits [b0, b1, b2, b3, b4, b5] 2 2 := by byte_cond
  have n3 : (if ¬ b0 &&& 32 = 0 then 1 else 0) = bits [b0, b1, b2, b3, b4, b5] 3 3 := by byte_cond
  have n7 : (if ¬ b0 &&& 2 = 0 then 1 else 0) = bits [b0, b1, b2, b3, b4, b5] 7 7 := by byte_cond
  simp only [h1, h2, f2, f3, f4, f5, f6, f7, n2, n3, n7]
  split
  · rfl
  · split <;> rfl

/-- The whole reader on six bytes. -/
theorem ra_eval (d : List UInt8) (h : d.length = 6) :
    readResolutionAdvisory d =
      if bits d 21 22 = 1 then .ok (specRA d (some (UInt32.ofNat (bits d 23 46))) none none none)
      else if bits d 21 22 = 2 then
        (readThreatAltitude d >>= fun a =>
          .ok (specRA d none (some a) (some (UInt8.ofNat (2 * bits d 36 41))) (some (UInt8.ofNat (bits d 43 48)))))
      else .ok (specRA d none none none none) := by
  obtain ⟨b0, b1, b2, b3, b4, b5, rfl⟩ := list6 d h
  unfold readResolutionAdvisory readThreatTypeIndicator readThreatAddress readThreatRange readThreatBearing readRAComplement
    readRATerminated readMTE
  go_run [ara_eval]
  have tti : ((b2 &&& 12) >>> 2).toNat = bits [b0, b1, b2, b3, b4, b5] 21 22 := by byte_omega
  have addr : (pack4 b2 b3 b4 b5 >>> 2) &&& 16777215 = UInt32.ofNat (bits [b0, b1, b2, b3, b4, b5] 23 46) := by
    have e : (16777215 : Nat) = (2 ^ 24 - 1) * 2 ^ 0 := by decide
    rw [u32_eq, UInt32.toNat_and, show (16777215 : UInt32).toNat = 16777215 from rfl, e, Nat.and_field]
    rw [UInt32.toNat_ofNat']
    byte_omega
  have rge : ((b4 &&& 31) <<< 2 + (b5 &&& 160) >>> 6) = UInt8.ofNat (2 * bits [b0, b1, b2, b3, b4, b5] 36 41) := by
    have e : ∀ b : UInt8, ((b &&& 160) >>> 6).toNat = b.toNat / 128 * 2 := by
      intro b
      revert b
      apply forall_uint8
      decide +kernel
    rw [u8_eq, UInt8.toNat_add, e, UInt8.toNat_ofNat']
    byte_omega
  have brg : (b5 &&& 63) = UInt8.ofNat (bits [b0, b1, b2, b3, b4, b5] 43 48) := by
    rw [u8_eq, UInt8.toNat_ofNat']; byte_omega
  have c15 : ((b1 &&& 2) != 0) = bit [b0, b1, b2, b3, b4, b5] 15 := by byte_flag
  have c16 : ((b1 &&& 1) != 0) = bit [b0, b1, b2, b3, b4, b5] 16 := by byte_flag
  have c17 : ((b2 &&& 128) != 0) = bit [b0, b1, b2, b3, b4, b5] 17 := by byte_flag
  have c18 : ((b2 &&& 64) != 0) = bit [b0, b1, b2, b3, b4, b5] 18 := by byte_flag
  have n19 : (if ¬ b2 &&& 32 = 0 then 1 else 0) = bits [b0, b1, b2, b3, b4, b5] 19 19 := by byte_cond
  have n20 : (if ¬ (b2 &&& 16) >>> 4 = 0 then (1 : UInt8) else 0) = UInt8.ofNat (bits [b0, b1, b2, b3, b4, b5] 20 20) := by
    have e : bits [b0, b1, b2, b3, b4, b5] 20 20 = b2.toNat / 16 % 2 := by byte_omega
    rw [e]
    exact forall_uint8 (P := fun b => (if ¬ (b &&& 16) >>> 4 = 0 then (1 : UInt8) else 0) = UInt8.ofNat (b.toNat / 16 % 2))
      (by decide +kernel) b2
  simp only [tti, addr, rge, brg, c15, c16, c17, c18, n19, n20]
  unfold specRA
  split
  · rfl
  · split
    · cases readThreatAltitude [b0, b1, b2, b3, b4, b5] <;> rfl
    · rfl

/-- The code the reader forms, in terms of the field. -/
theorem threat_code (b0 b1 b2 b3 b4 b5 : UInt8) :
    (threatAltitudeCode b2 b3 b4).toNat =
      tid12 (bits [b0, b1, b2, b3, b4, b5] 23 35) % 1024 + tid12 (bits [b0, b1, b2, b3, b4, b5] 23 35) / 1024 * 4 := by
  have hf : bits [b0, b1, b2, b3, b4, b5] 23 35 = b2.toNat % 4 * 2048 + b3.toNat * 8 + b4.toNat / 32 := by byte_omega
  have hc : (threatAltitudeCode b2 b3 b4).toNat =
      b4.toNat / 32 + b3.toNat % 8 * 8 + b3.toNat / 16 * 64 + b2.toNat % 4 * 4 := by
    clear hf
    have e1 : ((b4 &&& 0xE0).toUInt16 >>> 5).toNat = b4.toNat / 32 := by byte_omega
    have e2 : ((b3 &&& 0x07).toUInt16 <<< 3).toNat = b3.toNat % 8 * 8 := by byte_omega
    have e3 : ((b3 &&& 0xF0).toUInt16 <<< 2).toNat = b3.toNat / 16 * 64 := by byte_omega
    have e4 : ((b2 &&& 0x03).toUInt16 <<< 2).toNat = b2.toNat % 4 * 4 := by byte_omega
    unfold threatAltitudeCode
    simp only [UInt16.toNat_add, e1, e2, e3, e4]
    byte_bounds
    omega
  rw [hf, hc]
  unfold tid12
  byte_bounds
  omega

theorem code_testBit (c i j m : Nat) (h : c / 2 ^ i % 2 = m / 2 ^ j % 2) : c.testBit i = m.testBit j := by
  rw [Nat.testBit_eq_decide_div_mod_eq, Nat.testBit_eq_decide_div_mod_eq, h]

/-- The altitude reader when C1 and A1 are zero. -/
theorem threat_altitude_eval (d : List UInt8) (h6 : d.length = 6) (h0 : bits d 23 24 = 0) :
    readThreatAltitude d = if tid12 (bits d 23 35) = 0 then .ok ⟨0, 0⟩ else
      (gillham (pulsesTID (bits d 23 35)) >>= fun a => .ok ⟨1, a⟩) := by
  obtain ⟨b0, b1, b2, b3, b4, b5, rfl⟩ := list6 d h6
  have hc := threat_code b0 b1 b2 b3 b4 b5
  have h0' : tid12 (bits [b0, b1, b2, b3, b4, b5] 23 35) / 1024 = 0 := by
    have hf : bits [b0, b1, b2, b3, b4, b5] 23 35 = b2.toNat % 4 * 2048 + b3.toNat * 8 + b4.toNat / 32 := by byte_omega
    have h0 : b2.toNat % 4 = 0 := by rw [← h0]; byte_omega
    rw [hf, h0]; unfold tid12; byte_bounds; omega
  have hlt : tid12 (bits [b0, b1, b2, b3, b4, b5] 23 35) < 1024 := by omega
  rw [h0', Nat.zero_mul, Nat.add_zero, Nat.mod_eq_of_lt hlt] at hc
  unfold readThreatAltitude
  go_run []
  generalize threatAltitudeCode b2 b3 b4 = code at hc
  generalize bits [b0, b1, b2, b3, b4, b5] 23 35 = c at *
  have z : (code = 0) = (tid12 c = 0) := by rw [u16_eq, hc]; rfl
  have t (i j : Nat) (mm : UInt16) (hm : mm.toNat = 2 ^ i) (hij : tid12 c / 2 ^ i % 2 = c / 2 ^ j % 2) :
      ((code &&& mm) != 0) = c.testBit j := by
    rw [land_pow_ne code i mm hm, hc]
    exact code_testBit _ _ _ _ hij
  have hi (i : Nat) : tid12 c / 2 ^ (6 + i) % 2 = c / 2 ^ (7 + i) % 2 := by
    rw [Nat.pow_add, Nat.pow_add, ← Nat.div_div_eq_div_mul, ← Nat.div_div_eq_div_mul]
    have : tid12 c / 2 ^ 6 = c / 2 ^ 7 := by unfold tid12; simp only [Nat.reducePow]; omega
    rw [this]
  have lo (i : Nat) (h : i < 6) : tid12 c / 2 ^ i % 2 = c / 2 ^ i % 2 := by
    have e : ∀ n, n / 2 ^ i % 2 = n % 64 / 2 ^ i % 2 := by
      intro n
      have : i = 0 ∨ i = 1 ∨ i = 2 ∨ i = 3 ∨ i = 4 ∨ i = 5 := by omega
      rcases this with h | h | h | h | h | h <;> subst h <;> simp only [Nat.reducePow] <;> omega
    rw [e, e c]
    have : tid12 c % 64 = c % 64 := by unfold tid12; omega
    rw [this]
  rw [t 11 12 0x800 rfl (hi 5), t 10 11 0x400 rfl (hi 4), t 9 10 0x200 rfl (hi 3), t 8 9 0x100 rfl (hi 2),
    t 7 8 0x80 rfl (hi 1), t 6 7 0x40 rfl (hi 0), t 5 5 0x20 rfl (lo 5 (by decide)), t 4 4 0x10 rfl (lo 4 (by decide)),
    t 3 3 0x8 rfl (lo 3 (by decide)), t 2 2 0x4 rfl (lo 2 (by decide)), t 1 1 0x2 rfl (lo 1 (by decide)),
    t 0 0 0x1 rfl (lo 0 (by decide))]
  simp only [z]
  rfl

/-- What C23 and C20 ask of the altitude of a type-2 threat. -/
def ThreatAltitudeRight (d : List UInt8) : Prop :=
  (TIDIllegal (bits d 23 35) → readResolutionAdvisory d = .error .err) ∧
  (¬ TIDIllegal (bits d 23 35) → ∃ m a, readResolutionAdvisory d = .ok m ∧ m.threatIdentityAltitude = some a ∧
    (tid12 (bits d 23 35) = 0 → a = ⟨0, 0⟩) ∧
    (tid12 (bits d 23 35) ≠ 0 →
      a.status = 1 ∧ ∃ k < 2560, pulsesTID (bits d 23 35) = modeC k ∧ a.feet = 100 * (k : Int) - 1200))

/-- C20, C23 for the fields whose C1 and A1 pulses are zero. The full statement, `ThreatAltitudeRight d` for every
type-2 advisory, is false of the code: `threat_altitude_refuted`. -/
theorem threat_altitude_partial (d : List UInt8) (h6 : d.length = 6) (htti : bits d 21 22 = 2) (h0 : bits d 23 24 = 0) :
    ThreatAltitudeRight d := by
  have he := ra_eval d h6
  rw [htti, if_neg (by decide), if_pos rfl, threat_altitude_eval d h6 h0] at he
  constructor
  · rintro ⟨hz, hl⟩
    have := (gillham_err_iff (pulsesTID (bits d 23 35))).2 hl
    rw [if_neg hz, this] at he
    exact he
  · intro hl
    by_cases hz : tid12 (bits d 23 35) = 0
    · rw [if_pos hz] at he
      exact ⟨_, _, he, rfl, fun _ => rfl, fun h => absurd hz h⟩
    · rw [if_neg hz] at he
      cases hg : gillham (pulsesTID (bits d 23 35)) with
      | error e =>
        cases e with
        | panic => exact absurd hg (gillham_noPanic _)
        | err => exact absurd ⟨hz, (gillham_err_iff _).1 hg⟩ hl
      | ok a =>
        rw [hg] at he
        obtain ⟨k, hk, ha, hp⟩ := gillham_ok_inv _ _ hg
        exact ⟨_, _, he, rfl, fun h => absurd h hz, fun _ => ⟨rfl, k, hk, hp, ha⟩⟩

/-- The pulses of a 12-bit number. -/
def pulses12 (n : Nat) : Pulses :=
  { c1 := n.testBit 11, a1 := n.testBit 10, c2 := n.testBit 9, a2 := n.testBit 8, c4 := n.testBit 7, a4 := n.testBit 6,
    b1 := n.testBit 5, d1 := n.testBit 4, b2 := n.testBit 3, d2 := n.testBit 2, b4 := n.testBit 1, d4 := n.testBit 0 }

theorem pulses12_tid (c m : Nat) (hm : m < 4096) (hc : c < 8192) (h : pulses12 m = pulsesTID c) : m = tid12 c := by
  unfold pulses12 pulsesTID at h
  simp only [Pulses.mk.injEq] at h
  obtain ⟨h1, h2, h3, h4, h5, h6, h7, h8, h9, h10, h11, h12⟩ := h
  apply Nat.eq_of_testBit_eq
  intro i
  by_cases hi : i < 12
  · have hq (i : Nat) : tid12 c / 2 ^ (6 + i) % 2 = c / 2 ^ (7 + i) % 2 := by
      rw [Nat.pow_add, Nat.pow_add, ← Nat.div_div_eq_div_mul, ← Nat.div_div_eq_div_mul]
      have : tid12 c / 2 ^ 6 = c / 2 ^ 7 := by unfold tid12; simp only [Nat.reducePow]; omega
      rw [this]
    match i, hi with
    | 0, _ => rw [h3]; apply code_testBit; unfold tid12; norm_num; omega
    | 1, _ => rw [h9]; apply code_testBit; unfold tid12; norm_num; omega
    | 2, _ => rw [h2]; apply code_testBit; unfold tid12; norm_num; omega
    | 3, _ => rw [h8]; apply code_testBit; unfold tid12; norm_num; omega
    | 4, _ => rw [h1]; apply code_testBit; unfold tid12; norm_num; omega
    | 5, _ => rw [h7]; apply code_testBit; unfold tid12; norm_num; omega
    | 6, _ => rw [h6]; apply code_testBit; unfold tid12; norm_num; omega
    | 7, _ => rw [h12]; apply code_testBit; exact (hq 1).symm
    | 8, _ => rw [h5]; apply code_testBit; exact (hq 2).symm
    | 9, _ => rw [h11]; apply code_testBit; exact (hq 3).symm
    | 10, _ => rw [h4]; apply code_testBit; exact (hq 4).symm
    | 11, _ => rw [h10]; apply code_testBit; exact (hq 5).symm
  · have h12 : 2 ^ 12 ≤ 2 ^ i := Nat.pow_le_pow_right (by decide) (by omega)
    have ht : tid12 c < 4096 := by unfold tid12; omega
    rw [Nat.testBit_lt_two_pow (by omega), Nat.testBit_lt_two_pow (by omega)]

/-- C20, C23, how far the reading of the altitude goes: of an advisory carrying the altitude `100 k - 1200` the reader gives that altitude exactly when the
pulses C1 and A1 of its code are zero. -/
theorem threat_altitude_exact (d : List UInt8) (h6 : d.length = 6) (htti : bits d 21 22 = 2) (k : Nat) (hk : k < 2560)
    (hp : pulsesTID (bits d 23 35) = modeC k) :
    (∃ m, readResolutionAdvisory d = .ok m ∧ m.threatIdentityAltitude = some ⟨1, 100 * (k : Int) - 1200⟩) ↔
      (modeC k).c1 = false ∧ (modeC k).a1 = false := by
  have hlt : bits d 23 35 < 8192 := by unfold bits; exact Nat.mod_lt _ (by decide)
  have h24 : bits d 23 24 = bits d 23 35 / 2048 := by
    obtain ⟨b0, b1, b2, b3, b4, b5, rfl⟩ := list6 d h6
    byte_omega
  have hz0 : bits d 23 24 = 0 ↔ (modeC k).c1 = false ∧ (modeC k).a1 = false := by
    rw [← hp, h24]
    simp only [pulsesTID, Nat.testBit_eq_decide_div_mod_eq, decide_eq_false_iff_not]
    norm_num
    omega
  rw [← hz0]
  constructor
  · rintro ⟨m, hm, ha⟩
    rw [ra_eval d h6, htti, if_neg (by decide), if_pos rfl] at hm
    have hread : readThreatAltitude d = .ok ⟨1, 100 * (k : Int) - 1200⟩ := by
      cases hr : readThreatAltitude d with
      | error e => rw [hr] at hm; cases hm
      | ok a =>
        rw [hr] at hm
        injection hm with hm
        subst hm
        injection ha with ha
        rw [ha]
    obtain ⟨b0, b1, b2, b3, b4, b5, rfl⟩ := list6 d h6
    have hc := threat_code b0 b1 b2 b3 b4 b5
    unfold readThreatAltitude at hread
    go_run [] at hread
    generalize threatAltitudeCode b2 b3 b4 = code at hc hread
    split at hread
    · have := congrArg ThreatAltitude.status (Except.ok.inj hread); exact absurd this (by decide : (0 : UInt8) ≠ 1)
    have t (i : Nat) (mm : UInt16) (hm : mm.toNat = 2 ^ i) : ((code &&& mm) != 0) = code.toNat.testBit i := land_pow_ne code i mm hm
    rw [t 11 0x800 rfl, t 10 0x400 rfl, t 9 0x200 rfl, t 8 0x100 rfl, t 7 0x80 rfl, t 6 0x40 rfl, t 5 0x20 rfl, t 4 0x10 rfl, t 3 0x8 rfl, t 2 0x4 rfl,
      t 1 0x2 rfl, t 0 0x1 rfl] at hread
    change (gillham (pulses12 code.toNat) >>= fun a => Except.ok (ThreatAltitude.mk 1 a)) = _ at hread
    cases hg : gillham (pulses12 code.toNat) with
    | error e => rw [hg] at hread; cases hread
    | ok a =>
      rw [hg] at hread
      have ha' : a = 100 * (k : Int) - 1200 := congrArg ThreatAltitude.feet (Except.ok.inj hread)
      obtain ⟨k', hk', e1, e2⟩ := gillham_ok_inv _ _ hg
      have : k' = k := by omega
      subst this
      rw [← hp] at e2
      have hct : tid12 (bits [b0, b1, b2, b3, b4, b5] 23 35) < 4096 := by unfold tid12; omega
      have := pulses12_tid _ _ (by omega) hlt e2
      rw [h24]
      unfold tid12 at this hc
      omega
  · intro h0
    obtain ⟨hn, hs⟩ := threat_altitude_partial d h6 htti h0
    have hg := gillham_modeC k hk
    have hl : ¬ TIDIllegal (bits d 23 35) := by
      rintro ⟨-, hb⟩
      have := (gillham_err_iff (pulsesTID (bits d 23 35))).2 hb
      rw [hp, hg] at this
      cases this
    have hz : tid12 (bits d 23 35) ≠ 0 := by
      intro hz
      have hc0 : bits d 23 35 / 128 = 0 ∧ bits d 23 35 % 64 = 0 := by unfold tid12 at hz; omega
      have : gillham (pulsesTID (bits d 23 35)) = .error .err := by
        rw [gillham_err_iff]
        simp only [pulsesTID, Nat.testBit_eq_decide_div_mod_eq]
        have e1 : bits d 23 35 / 2 ^ 12 % 2 = 0 := by norm_num; omega
        have e2 : bits d 23 35 / 2 ^ 10 % 2 = 0 := by norm_num; omega
        have e3 : bits d 23 35 / 2 ^ 8 % 2 = 0 := by norm_num; omega
        rw [e1, e2, e3]
        decide
      rw [hp, hg] at this
      cases this
    obtain ⟨m, a, hm, ha, -, h2⟩ := hs hl
    obtain ⟨hst, k', hk', e1, e2⟩ := h2 hz
    have hkk : (100 * (k : Int) - 1200) = 100 * (k' : Int) - 1200 := by
      have := gillham_modeC k' hk'
      rw [← e1, hp, hg] at this
      exact Except.ok.inj this
    refine ⟨m, hm, ?_⟩
    rw [ha, hkk, ← e2, ← hst]

example : [0xE0, 0x00, 0x08, 0x90, 0x41, 0x05].length = 6 ∧ bits [0xE0, 0x00, 0x08, 0x90, 0x41, 0x05] 21 22 = 2 ∧
    pulsesTID (bits [0xE0, 0x00, 0x08, 0x90, 0x41, 0x05] 23 35) = modeC 72 := by decide

/-- An advisory about a threat at -800 ft (only the C1 pulse): its altitude code is legal but the reader returns an
error. -/
def raClimb : List UInt8 := [0xE0, 0x00, 0x0A, 0x00, 0x01, 0x05]
example : TIDIllegal (bits raClimb 23 35) = False ∧ pulsesTID (bits raClimb 23 35) = modeC 4 := by decide

theorem threat_altitude_refuted :
    (∃ d : List UInt8, d.length = 6 ∧ bits d 21 22 = 2 ∧ ¬ TIDIllegal (bits d 23 35) ∧
      readResolutionAdvisory d = .error .err) ∧
    ∃ d : List UInt8, d.length = 6 ∧ bits d 21 22 = 2 ∧ ¬ ThreatAltitudeRight d := by
  refine ⟨⟨raClimb, rfl, by decide, by decide, by decide +kernel⟩, ⟨raClimb, rfl, by decide, ?_⟩⟩
  rintro ⟨_, h⟩
  obtain ⟨m, a, hm, _⟩ := h (by decide)
  have : readResolutionAdvisory raClimb = .error .err := by decide +kernel
  rw [this] at hm
  cases hm

example : [0xE0, 0x00, 0x08, 0x90, 0x41, 0x05].length = 6 ∧ bits [0xE0, 0x00, 0x08, 0x90, 0x41, 0x05] 21 22 = 2 ∧
    bits [0xE0, 0x00, 0x08, 0x90, 0x41, 0x05] 23 24 = 0 ∧ ¬ TIDIllegal (bits [0xE0, 0x00, 0x08, 0x90, 0x41, 0x05] 23 35) ∧
    tid12 (bits [0xE0, 0x00, 0x08, 0x90, 0x41, 0x05] 23 35) ≠ 0 := by decide

theorem threatAltitude_noPanic (d : List UInt8) (h6 : d.length = 6) : NoPanic (readThreatAltitude d) := by
  obtain ⟨b0, b1, b2, b3, b4, b5, rfl⟩ := list6 d h6
  unfold readThreatAltitude
  go_run []
  split
  · simp [NoPanic]
  · generalize threatAltitudeCode b2 b3 b4 = code
    have := gillham_noPanic ⟨code &&& 16 != 0, code &&& 4 != 0, code &&& 1 != 0, code &&& 1024 != 0, code &&& 256 != 0,
      code &&& 64 != 0, code &&& 32 != 0, code &&& 8 != 0, code &&& 2 != 0, code &&& 2048 != 0, code &&& 512 != 0,
      code &&& 128 != 0⟩
    unfold gillham at this
    simp only at this
    cases hg : gillhamToAltitude (code &&& 16 != 0) (code &&& 4 != 0) (code &&& 1 != 0) (code &&& 1024 != 0)
      (code &&& 256 != 0) (code &&& 64 != 0) (code &&& 32 != 0) (code &&& 8 != 0) (code &&& 2 != 0) (code &&& 2048 != 0)
      (code &&& 512 != 0) (code &&& 128 != 0) with
    | ok a => simp [NoPanic, go_bind_ok]
    | error e =>
      rw [hg] at this
      cases e with
      | err => simp [NoPanic, go_bind_err]
      | panic => exact absurd rfl this

/-- C20: the reader never panics. -/
theorem ra_noPanic (d : List UInt8) : NoPanic (readResolutionAdvisory d) := by
  by_cases h6 : d.length = 6
  · rw [ra_eval d h6]
    split
    · simp [NoPanic]
    · split
      · have := threatAltitude_noPanic d h6
        cases h : readThreatAltitude d with
        | ok a => simp [NoPanic, go_bind_ok]
        | error e =>
          rw [go_bind_err]
          intro he
          injection he with he
          rw [h, he] at this
          exact this rfl
      · simp [NoPanic]
  · unfold readResolutionAdvisory
    simp [h6, NoPanic, fail, bind, Except.bind]

/-- C20: data of another length is refused, and an advisory without type-2 threat never is. -/
theorem ra_accepts (d : List UInt8) :
    (d.length ≠ 6 → readResolutionAdvisory d = .error .err) ∧
    (d.length = 6 → bits d 21 22 ≠ 2 → Succeeds (readResolutionAdvisory d)) := by
  constructor
  · intro h6
    unfold readResolutionAdvisory
    simp [h6, fail, bind, Except.bind]
  · intro h6 ht
    rw [ra_eval d h6]
    rw [if_neg ht]
    split <;> exact ⟨_, rfl⟩

/-- C20: which advisories are refused, for those whose C1 and A1 altitude pulses are zero when they describe a type-2
threat. (Without that condition the statement is false: `threat_altitude_refuted`.) -/
theorem ra_fails_iff_partial (d : List UInt8) (h0 : bits d 21 22 = 2 → bits d 23 24 = 0) :
    readResolutionAdvisory d = .error .err ↔ d.length ≠ 6 ∨ (bits d 21 22 = 2 ∧ TIDIllegal (bits d 23 35)) := by
  by_cases h6 : d.length = 6
  · by_cases ht : bits d 21 22 = 2
    · have hr := threat_altitude_partial d h6 ht (h0 ht)
      constructor
      · intro h
        refine Or.inr ⟨ht, ?_⟩
        apply Classical.byContradiction
        intro hn
        obtain ⟨m, a, hm, _⟩ := hr.2 hn
        rw [hm] at h
        cases h
      · rintro (h | ⟨_, h⟩)
        · exact absurd h6 h
        · exact hr.1 h
    · obtain ⟨m, hm⟩ := (ra_accepts d).2 h6 ht
      constructor
      · intro h; rw [hm] at h; cases h
      · rintro (h | ⟨h, _⟩)
        · exact absurd h6 h
        · exact absurd h ht
  · exact ⟨fun _ => Or.inl h6, fun _ => (ra_accepts d).1 h6⟩

example : readResolutionAdvisory [0, 0, 0x08, 0x00, 0x21, 0x05] = .error .err ∧
    TIDIllegal (bits [0, 0, 0x08, 0x00, 0x21, 0x05] 23 35) := by decide +kernel

/-- Everything in an advisory that was read. -/
theorem ra_ok (d : List UInt8) (m : ResolutionAdvisory) (h : readResolutionAdvisory d = .ok m) :
    d.length = 6 ∧
    ((bits d 21 22 = 1 ∧ m = specRA d (some (UInt32.ofNat (bits d 23 46))) none none none) ∨
     (bits d 21 22 = 2 ∧ ∃ a, m = specRA d none (some a) (some (UInt8.ofNat (2 * bits d 36 41)))
        (some (UInt8.ofNat (bits d 43 48)))) ∨
     (bits d 21 22 ≠ 1 ∧ bits d 21 22 ≠ 2 ∧ m = specRA d none none none none)) := by
  have h6 : d.length = 6 := by
    apply Classical.byContradiction
    intro hn
    rw [(ra_accepts d).1 hn] at h
    cases h
  refine ⟨h6, ?_⟩
  rw [ra_eval d h6] at h
  by_cases h1 : bits d 21 22 = 1
  · rw [if_pos h1] at h
    injection h with h
    exact Or.inl ⟨h1, h.symm⟩
  · rw [if_neg h1] at h
    by_cases h2 : bits d 21 22 = 2
    · rw [if_pos h2] at h
      cases ha : readThreatAltitude d with
      | error e => rw [ha] at h; cases h
      | ok a =>
        rw [ha] at h
        injection h with h
        exact Or.inr (Or.inl ⟨h2, a, h.symm⟩)
    · rw [if_neg h2] at h
      injection h with h
      exact Or.inr (Or.inr ⟨h1, h2, h.symm⟩)

/-- C21: kind of the active advisory, its flags, the complements, termination and the multiple-threat flag. -/
theorem ra_content (d : List UInt8) (m : ResolutionAdvisory) (h : readResolutionAdvisory d = .ok m) :
    (bit d 1 = true → m.activeRA = .oneThreat
      { preventiveCorrective := bits d 2 2, sense := bits d 3 3, isIncreasedRate := bit d 4, isSenseReversal := bit d 5,
        isAltitudeCrossing := bit d 6, verticalSpeedLimitOrPositive := bits d 7 7 }) ∧
    (bit d 1 = false → bit d 20 = true → m.activeRA = .multiple
      { requiresCorrectionUpwardSense := bit d 2, requiresPositiveClimb := bit d 3,
        requiresCorrectionDownwardSense := bit d 4, requiresPositiveDescend := bit d 5, requiresCrossing := bit d 6,
        isSenseReversal := bit d 7 }) ∧
    (bit d 1 = false → bit d 20 = false → m.activeRA = .none) ∧
    m.raComplement = { doNotPassBelow := bit d 15, doNotPassAbove := bit d 16, doNotTurnLeft := bit d 17,
                       doNotTurnRight := bit d 18 } ∧
    m.raTerminatedIndicator = bits d 19 19 ∧
    m.multipleThreatEncounter = UInt8.ofNat (bits d 20 20) ∧
    m.threatTypeIndicator = bits d 21 22 := by
  obtain ⟨_, h | ⟨_, a, h⟩ | h⟩ := ra_ok d m h
  all_goals
    first | obtain ⟨_, _, rfl⟩ := h | obtain ⟨_, rfl⟩ := h | subst h
    refine ⟨?_, ?_, ?_, rfl, rfl, rfl, rfl⟩
    · intro e; simp [specRA, specARA, e]
    · intro e e'; simp [specRA, specARA, e, e']
    · intro e e'; simp [specRA, specARA, e, e']

example : ∃ m, readResolutionAdvisory raClimb = .error .err ∧
    readResolutionAdvisory [0xE0, 0x02, 0x24, 0x12, 0x34, 0x56] = .ok m ∧
    bit [0xE0, 0x02, 0x24, 0x12, 0x34, 0x56] 1 = true := ⟨_, by decide +kernel, rfl, by decide⟩
example : ∃ m, readResolutionAdvisory [0x60, 0x02, 0x34, 0x12, 0x34, 0x56] = .ok m ∧
    bit [0x60, 0x02, 0x34, 0x12, 0x34, 0x56] 1 = false ∧ bit [0x60, 0x02, 0x34, 0x12, 0x34, 0x56] 20 = true :=
  ⟨_, rfl, by decide, by decide⟩

/-- C22: the address is given exactly for type 1 and is the 24 bits after the type; altitude, range and bearing are given
exactly for type 2. -/
theorem ra_threat_identity (d : List UInt8) (m : ResolutionAdvisory) (h : readResolutionAdvisory d = .ok m) :
    (∀ a, m.threatIdentityAddress = some a ↔ (m.threatTypeIndicator = 1 ∧ a.toNat = bits d 23 46)) ∧
    (m.threatIdentityAltitude.isSome ↔ m.threatTypeIndicator = 2) ∧
    (m.threatIdentityRange.isSome ↔ m.threatTypeIndicator = 2) ∧
    (m.threatIdentityBearing.isSome ↔ m.threatTypeIndicator = 2) ∧
    m.threatTypeIndicator = bits d 21 22 := by
  obtain ⟨h6, h | ⟨h1, a, h⟩ | h⟩ := ra_ok d m h
  · obtain ⟨h1, rfl⟩ := h
    refine ⟨fun a => ?_, ?_, ?_, ?_, rfl⟩
    · have hb : bits d 23 46 < 2 ^ 24 := by unfold bits; exact Nat.mod_lt _ (by decide)
      have e : (UInt32.ofNat (bits d 23 46)).toNat = bits d 23 46 := by rw [UInt32.toNat_ofNat']; omega
      simp only [specRA, h1, true_and, Option.some.injEq]
      rw [← UInt32.toNat_inj, e]
      exact eq_comm
    all_goals simp [specRA, h1]
  · subst h
    refine ⟨fun a => ?_, ?_, ?_, ?_, rfl⟩ <;> simp [specRA, h1]
  · obtain ⟨h1, h2, rfl⟩ := h
    refine ⟨fun a => ?_, ?_, ?_, ?_, rfl⟩ <;> simp [specRA, h1, h2]

example : ∃ m, readResolutionAdvisory [0xE0, 0x02, 0x24, 0x12, 0x34, 0x56] = .ok m ∧
    m.threatIdentityAddress = some 0x048D15 := ⟨_, rfl, by decide +kernel⟩

/-- C23: the bearing is bits 43-48, the range code is bits 36-41 followed by a zero: it is the transmitted 7-bit range when
bit 42 is clear (the full statement, `range = bits d 36 42`, is refuted by `threat_range_refuted`). -/
theorem threat_range_partial (d : List UInt8) (m : ResolutionAdvisory) (h : readResolutionAdvisory d = .ok m)
    (ht : bits d 21 22 = 2) :
    ∃ r b, m.threatIdentityRange = some r ∧ m.threatIdentityBearing = some b ∧ b.toNat = bits d 43 48 ∧
      r.toNat = 2 * bits d 36 41 ∧ (bit d 42 = false → r.toNat = bits d 36 42) := by
  obtain ⟨h6, h | ⟨h1, a, h⟩ | h⟩ := ra_ok d m h
  · omega
  · subst h
    refine ⟨_, _, rfl, rfl, ?_, ?_, ?_⟩
    · have : bits d 43 48 < 64 := by unfold bits; exact Nat.mod_lt _ (by decide)
      rw [UInt8.toNat_ofNat']; omega
    · have : bits d 36 41 < 64 := by unfold bits; exact Nat.mod_lt _ (by decide)
      rw [UInt8.toNat_ofNat']; omega
    · intro hb
      have : bits d 36 41 < 64 := by unfold bits; exact Nat.mod_lt _ (by decide)
      rw [UInt8.toNat_ofNat']
      have e : 2 * bits d 36 41 = bits d 36 42 := by
        obtain ⟨b0, b1, b2, b3, b4, b5, rfl⟩ := list6 d h6
        revert hb
        simp only [bit, beq_eq_false_iff_ne, ne_eq]
        byte_omega
      omega
  · omega

theorem threat_range_refuted : ∃ d m r, readResolutionAdvisory d = .ok m ∧ bits d 21 22 = 2 ∧
    m.threatIdentityRange = some r ∧ r.toNat ≠ bits d 36 42 :=
  ⟨[0xE0, 0x00, 0x08, 0x90, 0x41, 0x45], _, _, rfl, by decide, rfl, by decide⟩

/-- C62: the bearing getter. -/
theorem getBearing_spec (b : UInt8) :
    (b.toNat = 0 → getBearing b = 0) ∧
    (1 ≤ b.toNat ∧ b.toNat ≤ 60 → 2 * getBearing b = 6 * (b.toNat - 1 : Int) + 6 * b.toNat) ∧
    (61 ≤ b.toNat → getBearing b = 363) := by
  have h : (b = 0) = (b.toNat = 0) := by rw [u8_eq]; rfl
  have h2 : (b ≥ 61) = (61 ≤ b.toNat) := by rw [ge_iff_le, UInt8.le_iff_toNat_le]; rfl
  unfold getBearing
  simp only [h, h2]
  refine ⟨?_, ?_, ?_⟩
  · intro e; rw [if_pos e]
  · intro e; rw [if_neg (by omega), if_neg (by omega)]; omega
  · intro e; rw [if_neg (by omega), if_pos e]

theorem getRange_cases (r : UInt8) :
    (r.toNat ≤ 1 ∧ getRange r = 0) ∨ (127 ≤ r.toNat ∧ getRange r = f64 (126 / 10)) ∨
    (2 ≤ r.toNat ∧ r.toNat ≤ 126 ∧ getRange r = f64 (((r.toNat : ℚ) - 1) / 10)) := by
  have h : (r = 0) = (r.toNat = 0) := by rw [u8_eq]; rfl
  have h1 : (r = 1) = (r.toNat = 1) := by rw [u8_eq]; rfl
  have h2 : (r ≥ 127) = (127 ≤ r.toNat) := by rw [ge_iff_le, UInt8.le_iff_toNat_le]; rfl
  have hb := byte_lt r
  unfold getRange
  simp only [h, h1, h2]
  by_cases c1 : r.toNat ≤ 1
  · left; refine ⟨c1, ?_⟩; rw [if_pos (by omega)]
  · right
    rw [if_neg (by omega)]
    by_cases c2 : 127 ≤ r.toNat
    · left; exact ⟨c2, by rw [if_pos c2]⟩
    · right
      rw [if_neg c2]
      refine ⟨by omega, by omega, ?_⟩
      have : f64 ((r.toNat : ℚ) - 1) = (r.toNat : ℚ) - 1 := by
        have := f64_int ((r.toNat : ℤ) - 1) (by rw [abs_of_nonneg (by omega)]; omega)
        push_cast at this
        exact this
      rw [this]

theorem f64_near (x : ℚ) (h0 : 0 ≤ x) (h1 : x ≤ 16) : |f64 x - x| ≤ 1 / 1000000 := by
  have h := rnd_err 53 x
  rw [abs_of_nonneg h0] at h
  unfold f64
  refine le_trans h ?_
  rw [div_le_div_iff₀ (by positivity) (by norm_num)]
  norm_num
  linarith

/-- C62: the range getter is, within 10^-6 NM, (r-1)/10 for the codes 2..126; it is monotone and never leaves 0..12.6. -/
theorem getRange_spec (r : UInt8) :
    (2 ≤ r.toNat ∧ r.toNat ≤ 126 → |getRange r - ((r.toNat : ℚ) - 1) / 10| ≤ 1 / 1000000) ∧
    0 ≤ getRange r ∧ getRange r ≤ f64 (126 / 10) ∧ ∀ s : UInt8, r.toNat ≤ s.toNat → getRange r ≤ getRange s := by
  have near : ∀ r : UInt8, 2 ≤ r.toNat → r.toNat ≤ 126 → |f64 (((r.toNat : ℚ) - 1) / 10) - ((r.toNat : ℚ) - 1) / 10| ≤ 1 / 1000000 := by
    intro r h1 h2
    have h1' : (2 : ℚ) ≤ r.toNat := by exact_mod_cast h1
    have h2' : (r.toNat : ℚ) ≤ 126 := by exact_mod_cast h2
    exact f64_near _ (by linarith) (by linarith)
  have top := f64_near (126 / 10) (by norm_num) (by norm_num)
  have mono : ∀ r s : UInt8, r.toNat ≤ s.toNat → getRange r ≤ getRange s := by
    intro r s hrs
    rcases getRange_cases r with ⟨c, e⟩ | ⟨c, e⟩ | ⟨c1, c2, e⟩
    · rw [e]
      rcases getRange_cases s with ⟨c', e'⟩ | ⟨c', e'⟩ | ⟨c1', c2', e'⟩
      · rw [e']
      · rw [e']; rw [abs_le] at top; linarith
      · rw [e']
        have := near s c1' c2'
        have h1 : (2 : ℚ) ≤ s.toNat := by exact_mod_cast c1'
        rw [abs_le] at this; linarith
    · rcases getRange_cases s with ⟨c', e'⟩ | ⟨c', e'⟩ | ⟨c1', c2', e'⟩
      · omega
      · rw [e, e']
      · omega
    · rcases getRange_cases s with ⟨c', e'⟩ | ⟨c', e'⟩ | ⟨c1', c2', e'⟩
      · omega
      · rw [e, e']
        have := near r c1 c2
        have h2 : (r.toNat : ℚ) ≤ 126 := by exact_mod_cast c2
        rw [abs_le] at this top; linarith
      · rcases Nat.lt_or_ge r.toNat s.toNat with hlt | hge
        · rw [e, e']
          have n1 := near r c1 c2
          have n2 := near s c1' c2'
          have : (r.toNat : ℚ) + 1 ≤ s.toNat := by exact_mod_cast hlt
          rw [abs_le] at n1 n2; linarith
        · have : r = s := by rw [← UInt8.toNat_inj]; omega
          rw [this]
  refine ⟨?_, ?_, ?_, fun s => mono r s⟩
  · rintro ⟨h1, h2⟩
    rcases getRange_cases r with ⟨c, e⟩ | ⟨c, e⟩ | ⟨c1, c2, e⟩
    · omega
    · omega
    · rw [e]; exact near r c1 c2
  · have := mono 0 r (by simp)
    have h0 : getRange 0 = 0 := by simp [getRange]
    rwa [h0] at this
  · have := mono r 255 (by have := byte_lt r; show r.toNat ≤ 255; omega)
    have h0 : getRange 255 = f64 (126 / 10) := by
      rcases getRange_cases 255 with ⟨c, e⟩ | ⟨c, e⟩ | ⟨c1, c2, e⟩
      · exact absurd c (by decide)
      · exact e
      · exact absurd c2 (by decide)
    rwa [h0] at this

example : getBearing 1 = 3 ∧ getBearing 60 = 357 ∧ getBearing 63 = 363 := by decide

end Modes
