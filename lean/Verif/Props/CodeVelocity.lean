import Verif.Props.TranslationVelocity
/-!
# C35, C61 and C93 for the translated functions

`N` is the record of the normal messages; `supersonic_same` gives the same of the supersonic ones.
-/
namespace Modes
open Spec

/-- C35, of the translated code: the speed is the integer square root of the sum of the squares of the components, and is given exactly
when both are regular. -/
theorem code_ground_speed (m : GroundSpeedVelocity) (s : UInt32) :
    Gen.bds.bds09.AirborneVelocityGroundSpeedNormal.GetSpeed m = .ok s ↔
      m.velocityEWStatus = .regular ∧ m.velocityNSStatus = .regular ∧
        s.toNat = Nat.sqrt (m.velocityEW.toNat ^ 2 + m.velocityNS.toNat ^ 2) := by
  rw [same_GetSpeed]
  have hlt := getSpeed_lt m
  rw [ground_speed] at hlt ⊢
  split
  · rename_i v h
    split at h
    · rename_i hr
      cases h
      have := hlt _ (if_pos hr)
      simp only [hr.1, hr.2, true_and, Except.ok.injEq]
      constructor
      · rintro rfl; rw [UInt32.toNat_ofNat', Nat.mod_eq_of_lt (by omega)]
      · intro e; rw [← e]; exact UInt32.ofNat_toNat
    · cases h
  · rename_i h
    split at h
    · cases h
    · rename_i hr
      constructor
      · intro h; cases h
      · rintro ⟨h1, h2, -⟩; exact absurd ⟨h1, h2⟩ hr

/-- C35, of the translated code: the error names the first component that is not regular. -/
theorem code_ground_speed_refused (m : GroundSpeedVelocity) (e : List Char) :
    Gen.bds.bds09.AirborneVelocityGroundSpeedNormal.GetSpeed m = .error e ↔
      (m.velocityEWStatus ≠ .regular ∧ e = "velocity EW is not regular".toList) ∨
      (m.velocityEWStatus = .regular ∧ m.velocityNSStatus ≠ .regular ∧ e = "velocity NS is not regular".toList) := by
  rw [same_GetSpeed, ground_speed]
  unfold GroundSpeedVelocity.notRegular
  by_cases h1 : m.velocityEWStatus = .regular <;> by_cases h2 : m.velocityNSStatus = .regular <;> simp [h1, h2, eq_comm]

/-- C93, of the translated code: the track computed with Go's roundings, by any accurate `math.Atan2`, is in [0, 360) and within 22
millionths of a degree of the angle of which the components are the sine and the cosine; it is refused exactly when the speed is, with
the same error. -/
theorem code_ground_track (A : Bool → Bool → ℕ → ℕ → ℝ) (hA : AccurateAtan2 A) (m : GroundSpeedVelocity) :
    (m.velocityEWStatus = .regular ∧ m.velocityNSStatus = .regular →
      ∃ angle : ℝ, 0 ≤ angle ∧ angle < 360 ∧
        Real.sqrt (signedNS m ^ 2 + signedEW m ^ 2) * Real.cos (angle * Real.pi / 180) = signedNS m ∧
        Real.sqrt (signedNS m ^ 2 + signedEW m ^ 2) * Real.sin (angle * Real.pi / 180) = signedEW m ∧
        ∃ t, Gen.bds.bds09.AirborneVelocityGroundSpeedNormal.GetTrack A m = .ok t ∧ 0 ≤ t.1 ∧ t.1 < 360 ∧ |t.1 - angle| ≤ 0.000022 ∧
          (angle = 0 → t.1 = 0)) ∧
    ∀ e, Gen.bds.bds09.AirborneVelocityGroundSpeedNormal.GetTrack A m = .error e ↔
      Gen.bds.bds09.AirborneVelocityGroundSpeedNormal.GetSpeed m = .error e := by
  have h := same_GetTrack A m
  obtain ⟨g1, g2⟩ := ground_track m
  obtain ⟨f1, f2⟩ := ground_track_float A hA m
  constructor
  · intro hr
    obtain ⟨angle, e, a0, a1, c, s⟩ := g2 hr
    obtain ⟨t', e', b0, b1, near, zero⟩ := f2 angle e
    rw [e'] at h
    cases hg : Gen.bds.bds09.AirborneVelocityGroundSpeedNormal.GetTrack A m with
    | error x => rw [hg] at h; cases h
    | ok t =>
      rw [hg] at h
      cases h
      exact ⟨angle, a0, a1, c, s, t, rfl, b0, b1, near, zero⟩
  · intro e
    rw [same_GetSpeed, ground_speed]
    by_cases hr : m.velocityEWStatus = .regular ∧ m.velocityNSStatus = .regular
    · obtain ⟨angle, e1, -⟩ := g2 hr
      obtain ⟨t', e', -⟩ := f2 angle e1
      rw [e'] at h
      rw [if_pos hr]
      constructor
      · intro hh; rw [hh] at h; cases h
      · intro hh; cases hh
    · rw [f1.1 (g1 hr)] at h
      rw [if_neg hr]
      cases hg : Gen.bds.bds09.AirborneVelocityGroundSpeedNormal.GetTrack A m with
      | ok t => rw [hg] at h; cases h
      | error x =>
        rw [hg] at h
        have h' : x = m.notRegular := by injection h
        rw [h']
        simp

/-- C61, of the translated code: `PrefixMultiLine` never panics; it puts the prefix in front of each of the lines. -/
theorem code_prefix_lines (ls : List (List Char)) (hne : ls ≠ []) (h : ∀ l ∈ ls, '\n' ∉ l) (pre : List Char) :
    Gen.common.PrefixMultiLine (textOfLines ls) pre = .ok (textOfLines (ls.map (pre ++ ·))) := by
  rw [same_PrefixMultiLine, prefix_lines ls hne h]

/-- The sixteen statuses of a register 1,0, of the translated code: no panic, and different reports have different texts. -/
theorem code_dte_text (a b : UInt16) :
    (∃ t, Gen.bds.bds10.fields.DTESubAddressStatuses.ToString a = .ok t ∧ t.length = 46 ∧
      ∀ i < 16, t[3 * i]? = some (if a.toNat.testBit (15 - i) then '1' else '0')) ∧
    (Gen.bds.bds10.fields.DTESubAddressStatuses.ToString a = Gen.bds.bds10.fields.DTESubAddressStatuses.ToString b → a = b) := by
  constructor
  · refine ⟨_, same_DTESubAddressStatuses a, ?_, ?_⟩
    · rw [dteText_eq]; rfl
    · intro i hi
      rw [dteText_eq]
      interval_cases i <;> rfl
  · rw [same_DTESubAddressStatuses, same_DTESubAddressStatuses]
    intro h
    exact dteText_inj (by injection h)

end Modes
