import Verif.Model.BitUtils
import Verif.Spec.Altitude
/-! Gray-code lemmas for the Gillham decoder. -/
set_option linter.unusedSimpArgs false
open Spec
namespace Modes

/-- The decoder applied to a pulse record. -/
def gillham (p : Pulses) : Go Int :=
  gillhamToAltitude p.d1 p.d2 p.d4 p.a1 p.a2 p.a4 p.b1 p.b2 p.b4 p.c1 p.c2 p.c4

/-- The 500-ft register assembled by the decoder. -/
def f500 (d1 d2 d4 a1 a2 a4 b1 b2 b4 : Bool) : UInt16 :=
  orIf16 (orIf16 (orIf16 (orIf16 (orIf16 (orIf16 (orIf16 (orIf16 (orIf16 0 d1 0x0100) d2 0x0080) d4 0x0040) a1 0x0020)
    a2 0x0010) a4 0x0008) b1 0x0004) b2 0x0002) b4 0x0001

/-- The 100-ft register assembled by the decoder. -/
def h100 (c1 c2 c4 : Bool) : UInt16 := orIf16 (orIf16 (orIf16 0 c1 4) c2 2) c4 1

theorem f500_gray : ∀ n < 512, (grayToBinary (f500 ((gray n).testBit 8) ((gray n).testBit 7) ((gray n).testBit 6)
    ((gray n).testBit 5) ((gray n).testBit 4) ((gray n).testBit 3) ((gray n).testBit 2) ((gray n).testBit 1)
    ((gray n).testBit 0))).toNat = n := by
  decide +kernel

theorem f500_inv : ∀ d1 d2 d4 a1 a2 a4 b1 b2 b4 : Bool,
    let n := (grayToBinary (f500 d1 d2 d4 a1 a2 a4 b1 b2 b4)).toNat
    n < 512 ∧ d1 = (gray n).testBit 8 ∧ d2 = (gray n).testBit 7 ∧ d4 = (gray n).testBit 6 ∧
    a1 = (gray n).testBit 5 ∧ a2 = (gray n).testBit 4 ∧ a4 = (gray n).testBit 3 ∧
    b1 = (gray n).testBit 2 ∧ b2 = (gray n).testBit 1 ∧ b4 = (gray n).testBit 0 := by
  decide +kernel

/-- The 100-ft step selected by legal C pulses. -/
theorem h100_table (c1 c2 c4 : Bool) :
    (grayToBinary (h100 c1 c2 c4)).toNat =
      match c1, c2, c4 with
      | false, false, false => 0
      | false, false, true => 1
      | false, true, true => 2
      | false, true, false => 3
      | true, true, false => 4
      | true, true, true => 5
      | true, false, true => 6
      | true, false, false => 7 := by
  revert c1 c2 c4; decide +kernel

theorem gillham_eq (d1 d2 d4 a1 a2 a4 b1 b2 b4 c1 c2 c4 : Bool) :
    gillhamToAltitude d1 d2 d4 a1 a2 a4 b1 b2 b4 c1 c2 c4 =
      (let o : Int := (grayToBinary (h100 c1 c2 c4)).toNat
       let f : Int := (grayToBinary (f500 d1 d2 d4 a1 a2 a4 b1 b2 b4)).toNat
       if o = 5 ∨ o = 6 ∨ o = 0 then fail
       else
         let o := if o = 7 then 5 else o
         let o := if f % 2 ≠ 0 then 6 - o else o
         .ok ((f * 500 + o * 100) - 1300)) := rfl

/-- Decoding the standard code of an altitude gives the altitude. -/
theorem gillham_modeC (k : Nat) (hk : k < 2560) : gillham (modeC k) = .ok (100 * (k : Int) - 1200) := by
  have hb : k / 5 < 512 := by omega
  unfold gillham
  rw [gillham_eq]
  simp only [modeC, f500_gray _ hb, h100_table]
  have h5 : k % 5 = 0 ∨ k % 5 = 1 ∨ k % 5 = 2 ∨ k % 5 = 3 ∨ k % 5 = 4 := by omega
  by_cases hp : k / 5 % 2 = 0
  · have hz : ((k / 5 : Nat) : Int) % 2 = 0 := by omega
    rcases h5 with h | h | h | h | h <;> simp [h, hp, hz, cPulses] <;> omega
  · have hz : ¬ ((k / 5 : Nat) : Int) % 2 = 0 := by omega
    rcases h5 with h | h | h | h | h <;> simp [h, hp, hz, cPulses] <;> omega

/-- The decoder accepts nothing else. -/
theorem gillham_ok_inv (p : Pulses) (a : Int) (h : gillham p = .ok a) :
    ∃ k : Nat, k < 2560 ∧ a = 100 * (k : Int) - 1200 ∧ p = modeC k := by
  obtain ⟨d1, d2, d4, a1, a2, a4, b1, b2, b4, c1, c2, c4⟩ := p
  unfold gillham at h
  rw [gillham_eq] at h
  have inv := f500_inv d1 d2 d4 a1 a2 a4 b1 b2 b4
  simp only at inv h
  generalize (grayToBinary (f500 d1 d2 d4 a1 a2 a4 b1 b2 b4)).toNat = n at inv h
  obtain ⟨hn, e1, e2, e3, e4, e5, e6, e7, e8, e9⟩ := inv
  rw [h100_table] at h
  have key : ∀ r : Nat, r < 5 → a = 100 * ((5 * n + r : Nat) : Int) - 1200 →
      cPulses (if n % 2 = 0 then r else 4 - r) = (c1, c2, c4) →
      ∃ k : Nat, k < 2560 ∧ a = 100 * (k : Int) - 1200 ∧
        Pulses.mk d1 d2 d4 a1 a2 a4 b1 b2 b4 c1 c2 c4 = modeC k := by
    intro r hr ha hc
    refine ⟨5 * n + r, by omega, ha, ?_⟩
    have q1 : (5 * n + r) / 5 = n := by omega
    have q2 : (5 * n + r) % 5 = r := by omega
    simp only [modeC, q1, q2, hc, ← e1, ← e2, ← e3, ← e4, ← e5, ← e6, ← e7, ← e8, ← e9]
  by_cases hp : n % 2 = 0
  · have hz : ((n : Nat) : Int) % 2 = 0 := by omega
    cases c1 <;> cases c2 <;> cases c4 <;> simp [fail, hz] at h
    · exact key 0 (by omega) (by omega) (by simp [hp, cPulses])
    · exact key 2 (by omega) (by omega) (by simp [hp, cPulses])
    · exact key 1 (by omega) (by omega) (by simp [hp, cPulses])
    · exact key 4 (by omega) (by omega) (by simp [hp, cPulses])
    · exact key 3 (by omega) (by omega) (by simp [hp, cPulses])
  · have hz : ((n : Nat) : Int) % 2 = 1 := by omega
    cases c1 <;> cases c2 <;> cases c4 <;> simp [fail, hz] at h
    · exact key 4 (by omega) (by omega) (by simp [hp, cPulses])
    · exact key 2 (by omega) (by omega) (by simp [hp, cPulses])
    · exact key 3 (by omega) (by omega) (by simp [hp, cPulses])
    · exact key 0 (by omega) (by omega) (by simp [hp, cPulses])
    · exact key 1 (by omega) (by omega) (by simp [hp, cPulses])

theorem gillham_err_iff (p : Pulses) :
    gillham p = .error .err ↔
      (p.c1, p.c2, p.c4) ∈ [(false, false, false), (true, true, true), (true, false, true)] := by
  obtain ⟨d1, d2, d4, a1, a2, a4, b1, b2, b4, c1, c2, c4⟩ := p
  unfold gillham
  rw [gillham_eq]
  simp only [h100_table]
  cases c1 <;> cases c2 <;> cases c4 <;> simp [fail]

theorem gillham_noPanic (p : Pulses) : NoPanic (gillham p) := by
  obtain ⟨d1, d2, d4, a1, a2, a4, b1, b2, b4, c1, c2, c4⟩ := p
  unfold gillham NoPanic
  rw [gillham_eq]
  simp only
  split <;> simp [fail]

end Modes
