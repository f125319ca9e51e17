import Verif.Model.TranslationVelocity
import Verif.Props.Numbers
import Verif.Props.TextFields
/-!
# The translated speed and track, `PrefixMultiLine` and `DTESubAddressStatuses.ToString` are those of the model
-/
namespace Modes
open Spec

theorem f64R_nat (n : ℕ) (h : n ≤ 9007199254740992) : f64R (n : ℝ) = n := by
  have := f64R_int (n : ℤ) (by rw [abs_of_nonneg (by positivity)]; exact_mod_cast h)
  simpa using this

/-- The error of the accessors of a ground speed message. -/
def GroundSpeedVelocity.notRegular (m : GroundSpeedVelocity) : List Char :=
  if m.velocityEWStatus ≠ .regular then t! "velocity EW is not regular" else t! "velocity NS is not regular"

/-- `GetSpeed`: a whole number exactly when the model has one. -/
theorem same_GetSpeed (m : GroundSpeedVelocity) :
    Gen.bds.bds09.AirborneVelocityGroundSpeedNormal.GetSpeed m =
      match m.getSpeed with | some s => .ok (UInt32.ofNat s) | none => .error m.notRegular := by
  rw [ground_speed]
  unfold Gen.bds.bds09.AirborneVelocityGroundSpeedNormal.GetSpeed GroundSpeedVelocity.notRegular
  by_cases h1 : m.velocityEWStatus = .regular
  rotate_left
  · simp [h1]
  by_cases h2 : m.velocityNSStatus = .regular
  rotate_left
  · simp [h1, h2]
  rw [if_neg (by simpa using h1), if_neg (by simpa using h2), if_pos ⟨h1, h2⟩]
  have l1 := m.velocityEW.toNat_lt
  have l2 := m.velocityNS.toNat_lt
  simp only [realToUInt32, realSqrt, realAdd, realMul, realOf]
  generalize m.velocityEW.toNat = a at *
  generalize m.velocityNS.toNat = b at *
  have q1 : a * a ≤ 65535 * 65535 := Nat.mul_le_mul (by omega) (by omega)
  have q2 : b * b ≤ 65535 * 65535 := Nat.mul_le_mul (by omega) (by omega)
  rw [f64R_nat a (by omega), f64R_nat b (by omega), ← Nat.cast_mul, ← Nat.cast_mul, f64R_nat _ (by omega), f64R_nat _ (by omega),
    ← Nat.cast_add, f64R_nat _ (by omega), floor_f64_sqrt _ (by omega), pow_two, pow_two]

/-- The speed is below 2^32: nothing is lost in the conversion. -/
theorem getSpeed_lt (m : GroundSpeedVelocity) (s : ℕ) (h : m.getSpeed = some s) : s < 92682 := by
  rw [ground_speed] at h
  split at h
  · cases h
    have l1 := m.velocityEW.toNat_lt
    have l2 := m.velocityNS.toNat_lt
    rw [Nat.sqrt_lt']
    have q1 := Nat.pow_le_pow_left (show m.velocityEW.toNat ≤ 65535 by omega) 2
    have q2 := Nat.pow_le_pow_left (show m.velocityNS.toNat ≤ 65535 by omega) 2
    omega
  · cases h

theorem speed_text (m : GroundSpeedVelocity) : Gen.bds.bds09.AirborneVelocityGroundSpeedNormal.toSpeedString m = m.speedText := by
  unfold Gen.bds.bds09.AirborneVelocityGroundSpeedNormal.toSpeedString GroundSpeedVelocity.speedText
  rw [same_GetSpeed]
  cases h : m.getSpeed with
  | none => rfl
  | some s =>
    have := getSpeed_lt m s h
    simp only [UInt32.toNat_ofNat']
    rw [Nat.mod_eq_of_lt (by omega)]

theorem f64R_zero : f64R 0 = 0 := rnd_zero 53

theorem realAtan2_components (A : Bool → Bool → ℕ → ℕ → ℝ) (m : GroundSpeedVelocity) :
    realAtan2 A (if m.directionEastWest = 1 then realNeg (realOf m.velocityEW) else realOf m.velocityEW)
      (if m.directionNorthSouth = 1 then realNeg (realOf m.velocityNS) else realOf m.velocityNS) =
    (A (m.directionEastWest == 1) (m.directionNorthSouth == 1) m.velocityEW.toNat m.velocityNS.toNat, m.directionEastWest == 1) := by
  have e (x : UInt16) : f64R (x.toNat : ℝ) = x.toNat := f64R_nat _ (by have := x.toNat_lt; omega)
  unfold realAtan2 realNeg realOf
  have b1 {x : UInt8} (h : ¬x = 1) : (x == 1) = false := by simpa using h
  by_cases h1 : m.directionEastWest = 1 <;> by_cases h2 : m.directionNorthSouth = 1 <;> simp [h1, h2, e, b1]

/-- `GetTrack`, its value: for every `math.Atan2`. -/
theorem same_GetTrack (A : Bool → Bool → ℕ → ℕ → ℝ) (m : GroundSpeedVelocity) :
    (Gen.bds.bds09.AirborneVelocityGroundSpeedNormal.GetTrack A m).map Prod.fst =
      match m.getTrackF A with | some t => .ok t | none => .error m.notRegular := by
  unfold Gen.bds.bds09.AirborneVelocityGroundSpeedNormal.GetTrack GroundSpeedVelocity.notRegular GroundSpeedVelocity.getTrackF
  by_cases h1 : m.velocityEWStatus = .regular
  rotate_left
  · simp [h1]; rfl
  by_cases h2 : m.velocityNSStatus = .regular
  rotate_left
  · simp [h1, h2]; rfl
  rw [if_neg (by simpa using h1), if_neg (by simpa using h2), if_neg (by simpa using h1), if_neg (by simpa using h2)]
  simp only [realAtan2_components]
  have e : f64R (360 : ℝ) = 360 := by have := f64R_nat 360 (by norm_num); exact_mod_cast this
  simp only [realTo32, realMul, realConst, realAdd, Except.map, e]
  split <;> rfl

theorem f64R_eq_zero {x : ℝ} : f64R x = 0 ↔ x = 0 := by
  constructor
  · intro h
    have := f64R_err x
    rw [h, zero_sub, abs_neg] at this
    exact abs_nonpos_iff.1 (by linarith)
  · rintro rfl; exact f64R_zero

theorem f32R_eq_zero {x : ℝ} : f32R x = 0 ↔ x = 0 := by
  constructor
  · intro h
    have := f32R_err x
    rw [h, zero_sub, abs_neg] at this
    exact abs_nonpos_iff.1 (by linarith)
  · rintro rfl; exact rnd_zero 24

/-- The track is minus zero when the model says so: for every accurate `math.Atan2`. -/
theorem same_GetTrack_sign (A : Bool → Bool → ℕ → ℕ → ℝ) (hA : AccurateAtan2 A) (m : GroundSpeedVelocity) (t : ℝ × Bool)
    (h : Gen.bds.bds09.AirborneVelocityGroundSpeedNormal.GetTrack A m = .ok t) : (t.2 = true ∧ t.1 = 0) ↔ m.trackMinusZero = true := by
  unfold Gen.bds.bds09.AirborneVelocityGroundSpeedNormal.GetTrack at h
  split at h
  · cases h
  split at h
  · cases h
  simp only [realAtan2_components, Except.ok.injEq] at h
  have hp := Real.pi_pos
  have hq : (0 : ℝ) < f64R (180 / Real.pi) := by
    have h0 : (0 : ℝ) < 180 / Real.pi := by positivity
    exact lt_of_le_of_ne (f64R_nonneg h0.le) (fun e => h0.ne' (f64R_eq_zero.1 e.symm))
  have acc := hA (m.directionEastWest == 1) (m.directionNorthSouth == 1) m.velocityEW.toNat m.velocityNS.toNat
  generalize hT : A (m.directionEastWest == 1) (m.directionNorthSouth == 1) m.velocityEW.toNat m.velocityNS.toNat = T at *
  have key : m.directionEastWest = 1 → (m.trackMinusZero = true ∧ T = 0) ∨ (m.trackMinusZero = false ∧ T < 0) := by
    intro hw
    generalize hg : goAtan2 (m.directionEastWest == 1) (m.directionNorthSouth == 1) m.velocityEW.toNat m.velocityNS.toNat = g at acc
    have hneg : g < 0 → T < 0 := by
      intro hg'
      rw [abs_of_neg hg'] at acc
      have := (abs_le.1 acc).2
      have : -g / 2 ^ 50 ≤ -g / 2 := by
        apply div_le_div_of_nonneg_left (by linarith) (by norm_num) (by norm_num)
      linarith
    unfold GroundSpeedVelocity.trackMinusZero
    by_cases he : m.velocityEW = 0
    · by_cases hs : m.directionNorthSouth = 1
      · right
        refine ⟨by simp [hs], hneg ?_⟩
        rw [← hg]; unfold goAtan2; simp [hw, he, hs]; exact hp
      · left
        refine ⟨by simp [hw, he, hs], ?_⟩
        have : g = 0 := by rw [← hg]; unfold goAtan2; simp [he, hs]
        rw [this] at acc
        simp at acc
        exact acc
    · right
      refine ⟨by simp [he], hneg ?_⟩
      have he' : m.velocityEW.toNat ≠ 0 := by intro h0; exact he (UInt16.toNat_inj.1 h0)
      have hpos : (0 : ℝ) < m.velocityEW.toNat := by exact_mod_cast Nat.pos_of_ne_zero he'
      rw [← hg]; unfold goAtan2
      rw [if_neg he']
      by_cases hx : m.velocityNS.toNat = 0
      · simp [hx, hw]; exact hp
      · rw [if_neg hx, Complex.arg_neg_iff]
        simp [hw]
        exact Nat.pos_of_ne_zero he'
  have hm : m.directionEastWest ≠ 1 → m.trackMinusZero = false := by
    intro hw; unfold GroundSpeedVelocity.trackMinusZero; simp [hw]
  have hc : decide ((180 : ℝ) / Real.pi < 0) = false := by simp; positivity
  have hz : realMul (T, m.directionEastWest == 1) (realConst (180 / Real.pi)) = (f64R (T * f64R (180 / Real.pi)), m.directionEastWest == 1) := by
    unfold realMul realConst; simp [hc]
  rw [hz] at h
  by_cases neg : f64R (T * f64R (180 / Real.pi)) < 0
  · rw [if_pos neg] at h
    have hm' : m.trackMinusZero = false := by
      by_cases hw : m.directionEastWest = 1
      · rcases key hw with ⟨-, k⟩ | ⟨k, -⟩
        · rw [k, zero_mul, f64R_zero] at neg; exact absurd neg (lt_irrefl _)
        · exact k
      · exact hm hw
    rw [hm', ← h]
    have hc' : decide ((360 : ℝ) < 0) = false := by norm_num
    simp only [realTo32, realAdd, realConst, f32R_eq_zero, f64R_eq_zero, hc', Bool.and_false]
    constructor
    · rintro ⟨h1, h2⟩
      rw [if_pos h2] at h1
      exact h1
    · intro h; cases h
  · rw [if_neg neg] at h
    rw [← h]
    simp only [realTo32, f32R_eq_zero, f64R_eq_zero, mul_eq_zero, hq.ne', or_false, beq_iff_eq]
    constructor
    · rintro ⟨hw, h0⟩
      rcases key hw with ⟨k, -⟩ | ⟨-, k⟩
      · exact k
      · exact absurd h0 k.ne
    · intro hk
      have hw : m.directionEastWest = 1 := by by_contra hw; rw [hm hw] at hk; cases hk
      refine ⟨hw, ?_⟩
      rcases key hw with ⟨-, k⟩ | ⟨k, -⟩
      · exact k
      · rw [k] at hk; cases hk

theorem track_text (F : FloatTexts) (hF : AccurateAtan2 F.atan2) (m : GroundSpeedVelocity) :
    Gen.bds.bds09.AirborneVelocityGroundSpeedNormal.toTrackString F m = m.trackText F := by
  unfold Gen.bds.bds09.AirborneVelocityGroundSpeedNormal.toTrackString GroundSpeedVelocity.trackText
  have h1 := same_GetTrack F.atan2 m
  have h2 := same_GetTrack_sign F.atan2 hF m
  cases h : Gen.bds.bds09.AirborneVelocityGroundSpeedNormal.GetTrack F.atan2 m with
  | error e =>
    rw [h] at h1
    cases h3 : m.getTrackF F.atan2 with
    | none => rw [h3] at h1; cases h1; rfl
    | some t => rw [h3] at h1; cases h1
  | ok t =>
    rw [h] at h1
    cases h3 : m.getTrackF F.atan2 with
    | none => rw [h3] at h1; cases h1
    | some t' =>
      rw [h3] at h1
      cases h1
      have := h2 t h
      unfold FloatTexts.realText
      dsimp only
      by_cases hz : m.trackMinusZero = true
      · rw [if_pos (this.2 hz)]; simp only [hz, if_true]
      · rw [if_neg (fun hh => hz (this.1 hh))]; simp only [hz]; rfl

/-- The supersonic messages have the same four functions. -/
theorem supersonic_same (F : FloatTexts) (A : Bool → Bool → ℕ → ℕ → ℝ) (m : GroundSpeedVelocity) :
    Gen.bds.bds09.AirborneVelocityGroundSpeedSupersonic.GetSpeed m = Gen.bds.bds09.AirborneVelocityGroundSpeedNormal.GetSpeed m ∧
    Gen.bds.bds09.AirborneVelocityGroundSpeedSupersonic.GetTrack A m = Gen.bds.bds09.AirborneVelocityGroundSpeedNormal.GetTrack A m ∧
    Gen.bds.bds09.AirborneVelocityGroundSpeedSupersonic.toSpeedString m = Gen.bds.bds09.AirborneVelocityGroundSpeedNormal.toSpeedString m ∧
    Gen.bds.bds09.AirborneVelocityGroundSpeedSupersonic.toTrackString F m = Gen.bds.bds09.AirborneVelocityGroundSpeedNormal.toTrackString F m :=
  ⟨rfl, rfl, rfl, rfl⟩

theorem setAt_append {α : Type} (done rest : List α) (x y : α) : setAt (done ++ x :: rest) done.length y = .ok (done ++ y :: rest) := by
  unfold setAt
  rw [if_pos (by simp), List.set_append_right _ _ (le_refl _)]
  simp

theorem prefix_loop (p : List Char) (l : List (List Char)) : ∀ done : List (List Char),
    List.foldlM (m := Go) (fun newLines ((line, i) : List Char × ℕ) => setAt newLines i (p ++ line))
      (done ++ List.replicate l.length []) (l.zipIdx done.length) = .ok (done ++ l.map (p ++ ·)) := by
  induction l with
  | nil => intro done; simp; rfl
  | cons a l ih =>
    intro done
    have := ih (done ++ [p ++ a])
    simp only [List.length_append, List.length_cons, List.length_nil, List.append_assoc, List.cons_append, List.nil_append] at this
    simp only [List.zipIdx_cons, List.foldlM_cons, List.length_cons, List.replicate_succ, setAt_append, List.map_cons]
    exact this

/-- `PrefixMultiLine` never panics, and gives the text of the model. -/
theorem same_PrefixMultiLine (lines pre : List Char) : Gen.common.PrefixMultiLine lines pre = .ok (prefixMultiLine lines pre) := by
  have := prefix_loop pre (lines.splitOn '\n') []
  simp only [List.nil_append, List.length_nil] at this
  unfold Gen.common.PrefixMultiLine
  simp only [this]
  rfl

theorem status_loop (f : UInt64 → List Char) (n : ℕ) : ∀ k : ℕ, k + n < 2 ^ 64 → ∀ done : List (List Char), done.length = k →
    List.foldlM (m := Go) (fun statuses (i : UInt64) => setAt statuses i.toNat (f i)) (done ++ List.replicate n [])
      ((List.range' k n).map UInt64.ofNat) = .ok (done ++ (List.range' k n).map fun i => f (UInt64.ofNat i)) := by
  induction n with
  | zero => intro k hk done hd; simp; rfl
  | succ n ih =>
    intro k hk done hd
    have := ih (k + 1) (by omega) (done ++ [f (UInt64.ofNat k)]) (by simp [hd])
    have hk' : (UInt64.ofNat k).toNat = done.length := by rw [UInt64.toNat_ofNat', Nat.mod_eq_of_lt (by omega), hd]
    simp only [List.append_assoc, List.cons_append, List.nil_append] at this
    simp only [List.range'_succ, List.map_cons, List.foldlM_cons, List.replicate_succ, hk', setAt_append]
    exact this

/-- `DTESubAddressStatuses.ToString` never panics, and gives the text of the model. -/
theorem same_DTESubAddressStatuses (d : UInt16) : Gen.bds.bds10.fields.DTESubAddressStatuses.ToString d = .ok (dteText d) := by
  have := status_loop (fun i => dec ((shiftRight16 d (15 - i)) &&& 0x01).toNat) 16 0 (by norm_num) [] rfl
  simp only [List.nil_append, ← List.range_eq_range'] at this
  unfold Gen.bds.bds10.fields.DTESubAddressStatuses.ToString
  simp only [this]
  unfold dteText
  have e : (List.range 16).map (fun i => dec ((shiftRight16 d (15 - UInt64.ofNat i)) &&& 0x01).toNat) =
      (List.range 16).map fun i => dec ((d >>> UInt16.ofNat (15 - i)) &&& 0x01).toNat := by
    apply List.map_congr_left
    intro i hi
    have hi := List.mem_range.1 hi
    have : shiftRight16 d (15 - UInt64.ofNat i) = d >>> UInt16.ofNat (15 - i) := by
      interval_cases i <;> rfl
    rw [this]
  rw [e]
  rfl

end Modes
