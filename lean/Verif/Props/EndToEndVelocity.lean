import Verif.Props.EndToEnd
import Verif.Props.Velocity
/-!
# C84: the velocity, from the aircraft to the report

The aircraft encodes its velocity as the standard says (`Spec/Transmit`); the library gives it back within the resolution of the code.
-/
namespace Modes
open Spec

/-- What a receiver does with the frame of a velocity message: read it, check the parity, read the message it carries. -/
def ReceivesVelocity (v : UInt8) (f : List UInt8) (address : Nat) (x : AirborneVelocity) : Prop :=
  ∃ m a, readMessage f = .ok (.df17 m) ∧ checkCRC (.df17 m) f [] [] = .ok a ∧ a.toNat = address ∧
    readADSBMessage v false false m.messageExtendedSquitter = .returns (.val (.velocity x v)) false

theorem velocityField_bits (subtype intent ifr accuracy a1 a10 b1 b10 source vrSign vr reserved hSign h : Nat) (l1 : subtype < 8)
    (l2 : intent < 2) (l3 : ifr < 2) (l4 : accuracy < 8) (l5 : a1 < 2) (l6 : a10 < 1024) (l7 : b1 < 2) (l8 : b10 < 1024) (l9 : source < 2)
    (l10 : vrSign < 2) (l11 : vr < 512) (l12 : reserved < 4) (l13 : hSign < 2) (l14 : h < 128) :
    let d := velocityField subtype intent ifr accuracy a1 a10 b1 b10 source vrSign vr reserved hSign h
    bits d 1 5 = 19 ∧ bits d 6 8 = subtype ∧ bits d 14 14 = a1 ∧ bits d 15 24 = a10 ∧ bits d 25 25 = b1 ∧ bits d 26 35 = b10 ∧
      bits d 37 37 = vrSign ∧ bits d 38 46 = vr ∧ bits d 49 49 = hSign ∧ bits d 50 56 = h := by
  intro d
  have hv : 19 * 2 ^ 51 + subtype * 2 ^ 48 + intent * 2 ^ 47 + ifr * 2 ^ 46 + accuracy * 2 ^ 43 + a1 * 2 ^ 42 + a10 * 2 ^ 32 + b1 * 2 ^ 31 +
    b10 * 2 ^ 21 + source * 2 ^ 20 + vrSign * 2 ^ 19 + vr * 2 ^ 10 + reserved * 2 ^ 8 + hSign * 2 ^ 7 + h < 2 ^ 56 := by omega
  have e := fun a b => bits_toBytes7 _ a b hv
  refine ⟨?_, ?_, ?_, ?_, ?_, ?_, ?_, ?_, ?_, ?_⟩ <;> refine (e _ _).trans ?_ <;> norm_num <;> omega

/-- A velocity message is always delivered. -/
theorem velocity_delivered (v : UInt8) (capability address : Nat) (hca : capability < 8) (haa : address < 2 ^ 24) (d f : List UInt8)
    (h7 : d.length = 7) (h19 : bits d 1 5 = 19) (x : AirborneVelocity) (hx : readBDS09 d = .ok x) (hf : IsSquitter capability address d f) :
    ReceivesVelocity v f address x := by
  obtain ⟨m, r1, r2, -, -, r5⟩ := squitter_received capability address d f hca haa h7 hf
  obtain ⟨a, r6, r7⟩ := r5 [] []
  refine ⟨m, a, r1, r6, r7, ?_⟩
  rw [r2]
  rcases adsb_eval v false false d with ⟨-, hn, -⟩ | ⟨-, hn, -⟩ | ⟨-, m, hm, hc, -⟩
  · exfalso; apply hn
    have := ((velocity_accepts d).1).1 ⟨x, hx⟩
    exact ⟨h7, Or.inr (Or.inr (Or.inr (Or.inr (Or.inl ⟨h19, by omega, by omega⟩))))⟩
  · exfalso; apply hn
    have := ((velocity_accepts d).1).1 ⟨x, hx⟩
    exact ⟨h7, Or.inr (Or.inr (Or.inr (Or.inr (Or.inl ⟨h19, by omega, by omega⟩))))⟩
  rw [hm]
  cases m with
  | velocity y w =>
    obtain ⟨-, c2, c3⟩ := hc
    rw [hx] at c3
    cases c3; cases c2; rfl
  | surfaceV0 => have := hc.1; unfold SurfaceTC at this; omega
  | surfaceV1 => have := hc.1; unfold SurfaceTC at this; omega
  | surfaceV2 => have := hc.1; unfold SurfaceTC at this; omega
  | airborneV0 => have := hc.1; unfold AirborneTC at this; omega
  | airborneV1 => have := hc.1; unfold AirborneTC at this; omega
  | airborneV2 => have := hc.1; unfold AirborneTC at this; omega
  | identification => have := hc.2.1; omega
  | _ => have := hc.1; omega

/-! ## The codes -/

theorem stepCode_bounds (k x : ℝ) (n : ℕ) (hk : 0 < k) (hx : |x| ≤ k * n) :
    1 ≤ stepCode k x ∧ stepCode k x ≤ n + 1 ∧ |k * ((stepCode k x : ℝ) - 1) - (|x|)| ≤ k / 2 := by
  unfold stepCode
  have h0 : 0 ≤ |x| / k := div_nonneg (abs_nonneg x) hk.le
  have h1 : |x| / k ≤ n := by rw [div_le_iff₀ hk]; linarith
  have f1 := Nat.floor_le (by linarith : 0 ≤ |x| / k + 1 / 2)
  have f2 := Nat.lt_floor_add_one (|x| / k + 1 / 2)
  refine ⟨by omega, ?_, ?_⟩
  · have : ⌊|x| / k + 1 / 2⌋₊ < n + 1 := (Nat.floor_lt (by linarith)).2 (by push_cast; linarith)
    omega
  · push_cast
    have e : |x| = k * (|x| / k) := by field_simp
    generalize |x| / k = y at *
    rw [e, abs_le]
    constructor <;> nlinarith

theorem signCode_lt (x : ℝ) : signCode x < 2 := by unfold signCode; split <;> omega

/-- A signed value rebuilt from sign and magnitude. -/
theorem signed_close {k x v : ℝ} (hv : |v - (|x|)| ≤ k) : |(if signCode x = 1 then -v else v) - x| ≤ k := by
  unfold signCode
  by_cases h : x < 0
  · rw [if_pos h, if_pos rfl]
    rw [abs_of_neg h] at hv
    rwa [show -v - x = -(v - -x) by ring, abs_neg]
  · rw [if_neg h, if_neg (by norm_num)]
    rwa [abs_of_nonneg (not_lt.1 h)] at hv

theorem signedCoding_close (d : List UInt8) (k : ℕ) (x : ℝ) (value : ℤ) (bt c ones top : ℕ) (st : NumericValueStatus)
    (hb : bits d bt bt = signCode x) (hc1 : 1 ≤ c) (hc2 : c < ones) (hc3 : |(k : ℝ) * ((c : ℝ) - 1) - (|x|)| ≤ k / 2)
    (hs : SignedCoding (bit d bt) c ones k top value st) : |(value : ℝ) - x| ≤ k / 2 := by
  rcases hs with ⟨g, -⟩ | ⟨g, -⟩ | ⟨-, -, -, g⟩
  · omega
  · omega
  have hbit : (bit d bt = true ↔ signCode x = 1) := by rw [← hb]; unfold bit; exact beq_iff_eq
  have := signed_close hc3
  rw [g]
  by_cases h : bit d bt = true
  · rw [if_pos (hbit.1 h)] at this
    rw [if_pos h]; push_cast
    rwa [show -((c : ℝ) - 1) * k = -(k * (c - 1)) by ring]
  · rw [if_neg (fun h' => h (hbit.2 h'))] at this
    rw [if_neg h]; push_cast
    rwa [show ((c : ℝ) - 1) * k = k * (c - 1) by ring]

/-! ## Geometry -/

theorem norm_close (a b c d e : ℝ) (h1 : |a - c| ≤ e) (h2 : |b - d| ≤ e) :
    |Real.sqrt (a ^ 2 + b ^ 2) - Real.sqrt (c ^ 2 + d ^ 2)| ≤ Real.sqrt 2 * e := by
  have he : 0 ≤ e := (abs_nonneg _).trans h1
  have key : ∀ a b c d : ℝ, |a - c| ≤ e → |b - d| ≤ e → Real.sqrt (a ^ 2 + b ^ 2) ≤ Real.sqrt (c ^ 2 + d ^ 2) + Real.sqrt 2 * e := by
    intro a b c d h1 h2
    have h := norm_add_le (⟨c, d⟩ : ℂ) ⟨a - c, b - d⟩
    have e1 : (⟨c, d⟩ : ℂ) + ⟨a - c, b - d⟩ = ⟨a, b⟩ := by apply Complex.ext <;> simp
    rw [e1, Complex.norm_def, Complex.norm_def, Complex.norm_def, Complex.normSq_mk, Complex.normSq_mk, Complex.normSq_mk] at h
    rw [sq a, sq b, sq c, sq d]
    refine h.trans (add_le_add_right ?_ _)
    rw [← Real.sqrt_sq he, ← Real.sqrt_mul (by norm_num)]
    apply Real.sqrt_le_sqrt
    have q1 : (a - c) ^ 2 ≤ e ^ 2 := sq_le_sq' (abs_le.1 h1).1 (abs_le.1 h1).2
    have q2 : (b - d) ^ 2 ≤ e ^ 2 := sq_le_sq' (abs_le.1 h2).1 (abs_le.1 h2).2
    nlinarith
  rw [abs_le]
  have k1 := key a b c d h1 h2
  have k2 := key c d a b (by rwa [abs_sub_comm]) (by rwa [abs_sub_comm])
  constructor <;> linarith

/-- Two vectors that differ little have close directions. -/
theorem angle_close (q V t u e : ℝ) (h1 : |q * Real.cos t - V * Real.cos u| ≤ e) (h2 : |q * Real.sin t - V * Real.sin u| ≤ e) (hV : 4 * e ≤ V)
    (hV0 : 0 < V) (hq : 0 ≤ q) : ∃ j : ℤ, |t - u - 2 * Real.pi * j| ≤ Real.pi / 2 * (Real.sqrt 2 * e / V) := by
  have hp := Real.pi_pos
  have he : 0 ≤ e := (abs_nonneg _).trans h1
  have s2 : Real.sqrt 2 ≤ 1.5 := by rw [Real.sqrt_le_left (by norm_num)]; norm_num
  have cs : ∀ c s x y : ℝ, c ^ 2 + s ^ 2 = 1 → |x| ≤ e → |y| ≤ e → |c * x + s * y| ≤ Real.sqrt 2 * e := by
    intro c s x y hc hx hy
    apply abs_le_of_sq_le_sq
    · rw [mul_pow, Real.sq_sqrt (by norm_num)]
      have q1 : x ^ 2 ≤ e ^ 2 := sq_le_sq' (abs_le.1 hx).1 (abs_le.1 hx).2
      have q2 : y ^ 2 ≤ e ^ 2 := sq_le_sq' (abs_le.1 hy).1 (abs_le.1 hy).2
      have : (c * x + s * y) ^ 2 + (c * y - s * x) ^ 2 = (c ^ 2 + s ^ 2) * (x ^ 2 + y ^ 2) := by ring
      rw [hc] at this
      nlinarith [sq_nonneg (c * y - s * x)]
    · positivity
  have tt := Real.sin_sq_add_cos_sq t
  have uu := Real.sin_sq_add_cos_sq u
  have hsin : |V * Real.sin (t - u)| ≤ Real.sqrt 2 * e := by
    have := cs (Real.cos t) (-Real.sin t) (q * Real.sin t - V * Real.sin u) (q * Real.cos t - V * Real.cos u) (by linarith [neg_sq (Real.sin t)]) h2 h1
    rw [Real.sin_sub]
    rwa [show Real.cos t * (q * Real.sin t - V * Real.sin u) + -Real.sin t * (q * Real.cos t - V * Real.cos u) =
      V * (Real.sin t * Real.cos u - Real.cos t * Real.sin u) by ring] at this
  have hcos : 0 < Real.cos (t - u) := by
    have h3 := cs (Real.cos u) (Real.sin u) (q * Real.cos t - V * Real.cos u) (q * Real.sin t - V * Real.sin u) (by linarith) h1 h2
    rw [show Real.cos u * (q * Real.cos t - V * Real.cos u) + Real.sin u * (q * Real.sin t - V * Real.sin u) =
      q * (Real.cos t * Real.cos u + Real.sin t * Real.sin u) - V * (Real.sin u ^ 2 + Real.cos u ^ 2) by ring, uu, mul_one, ← Real.cos_sub, abs_le] at h3
    have h4 : 0 < q * Real.cos (t - u) := by nlinarith [h3.1]
    by_contra hc
    exact absurd (mul_nonpos_of_nonneg_of_nonpos hq (not_lt.1 hc)) (by linarith)
  refine ⟨round ((t - u) / (2 * Real.pi)), ?_⟩
  have hr := abs_sub_round ((t - u) / (2 * Real.pi))
  generalize round ((t - u) / (2 * Real.pi)) = j at *
  have hx : |t - u - 2 * Real.pi * j| ≤ Real.pi := by
    have e1 : t - u - 2 * Real.pi * j = 2 * Real.pi * ((t - u) / (2 * Real.pi) - j) := by field_simp
    rw [e1, abs_mul, abs_of_pos (by positivity)]
    nlinarith
  have hs' : Real.sin (t - u) = Real.sin (t - u - 2 * Real.pi * j) := by
    rw [show 2 * Real.pi * (j : ℝ) = j * (2 * Real.pi) by ring, Real.sin_sub_int_mul_two_pi]
  have hc' : Real.cos (t - u) = Real.cos (t - u - 2 * Real.pi * j) := by
    rw [show 2 * Real.pi * (j : ℝ) = j * (2 * Real.pi) by ring, Real.cos_sub_int_mul_two_pi]
  rw [hs'] at hsin
  rw [hc'] at hcos
  generalize t - u - 2 * Real.pi * j = x at *
  have hx2 : |x| < Real.pi / 2 := by
    by_contra hc
    have := Real.cos_nonpos_of_pi_div_two_le_of_le (not_lt.1 hc) (by linarith)
    rw [Real.cos_abs] at this
    linarith
  have hj := Real.mul_le_sin (abs_nonneg x) hx2.le
  rw [← Real.abs_sin_eq_sin_abs_of_abs_le_pi hx] at hj
  rw [abs_mul, abs_of_pos hV0] at hsin
  have h5 : |Real.sin x| ≤ Real.sqrt 2 * e / V := by rw [le_div_iff₀ hV0]; linarith
  have h6 : |x| = Real.pi / 2 * (2 / Real.pi * |x|) := by field_simp
  rw [h6]
  exact mul_le_mul_of_nonneg_left (hj.trans h5) (by positivity)

/-- The number of knots of one step of the velocity code. -/
def velocityStep (supersonic : Bool) : Nat := if supersonic then 4 else 1

/-- C84. The velocity over ground. An aircraft moving at `ve` knots east and `vn` knots north (negative: west, south), climbing at `vr` feet per minute,
`dh` feet above its barometric altitude, sends them in a squitter, in steps of 1 knot (subtype 1) or 4 knots (subtype 2), 64 feet per minute and 25 feet.
The receiver finds its address, its speed within the rounding of the two components (half a step each) and of the result (one knot), its track within
`64 k / V` degrees (`k` the step, `V` the speed), the vertical rate and the height difference within half a step. -/
theorem velocity_end_to_end (v : UInt8) (capability address : Nat) (hca : capability < 8) (haa : address < 2 ^ 24) (supersonic : Bool)
    (intent ifr accuracy source reserved : Nat) (l2 : intent < 2) (l3 : ifr < 2) (l4 : accuracy < 8) (l9 : source < 2) (l12 : reserved < 4)
    (ve vn vr dh : ℝ) (hve : |ve| ≤ velocityStep supersonic * 1021) (hvn : |vn| ≤ velocityStep supersonic * 1021) (hvr : |vr| ≤ 64 * 509)
    (hdh : |dh| ≤ 25 * 125) (f : List UInt8)
    (hf : IsSquitter capability address (velocityField (if supersonic then 2 else 1) intent ifr accuracy (signCode ve)
      (stepCode (velocityStep supersonic) ve) (signCode vn) (stepCode (velocityStep supersonic) vn) source (signCode vr) (stepCode 64 vr) reserved
      (signCode dh) (stepCode 25 dh)) f) :
    ∃ m : GroundSpeedVelocity, ∃ x : AirborneVelocity, x = (if supersonic then .groundSpeedSupersonic m else .groundSpeedNormal m) ∧
      ReceivesVelocity v f address x ∧
      (∃ s : ℕ, m.getSpeed = some s ∧
        Real.sqrt (ve ^ 2 + vn ^ 2) - Real.sqrt 2 / 2 * velocityStep supersonic - 1 < s ∧
        s ≤ Real.sqrt (ve ^ 2 + vn ^ 2) + Real.sqrt 2 / 2 * velocityStep supersonic) ∧
      (∃ t : ℝ, m.getTrack = some t ∧ 0 ≤ t ∧ t < 360 ∧
        ∀ V track : ℝ, 2 * velocityStep supersonic ≤ V → ve = V * Real.sin (track * Real.pi / 180) → vn = V * Real.cos (track * Real.pi / 180) →
          ∃ j : ℤ, |t - track - 360 * j| ≤ 64 * velocityStep supersonic / V) ∧
      |(x.verticalRate.1 : ℝ) - vr| ≤ 32 ∧ |(x.heightDifference.1 : ℝ) - dh| ≤ 12.5 := by
  have hk : (0 : ℝ) < velocityStep supersonic := by unfold velocityStep; cases supersonic <;> simp
  obtain ⟨ce1, ce2, ce3⟩ := stepCode_bounds _ ve 1021 hk (by exact_mod_cast hve)
  obtain ⟨cn1, cn2, cn3⟩ := stepCode_bounds _ vn 1021 hk (by exact_mod_cast hvn)
  obtain ⟨cr1, cr2, cr3⟩ := stepCode_bounds 64 vr 509 (by norm_num) (by exact_mod_cast hvr)
  obtain ⟨ch1, ch2, ch3⟩ := stepCode_bounds 25 dh 125 (by norm_num) (by exact_mod_cast hdh)
  obtain ⟨b1, b2, b3, b4, b5, b6, b7, b8, b9, b10⟩ := velocityField_bits (if supersonic then 2 else 1) intent ifr accuracy (signCode ve)
    (stepCode (velocityStep supersonic) ve) (signCode vn) (stepCode (velocityStep supersonic) vn) source (signCode vr) (stepCode 64 vr) reserved
    (signCode dh) (stepCode 25 dh) (by split <;> omega) l2 l3 l4 (signCode_lt _) (by omega) (signCode_lt _) (by omega) l9 (signCode_lt _) (by omega) l12
    (signCode_lt _) (by omega)
  have hl : (velocityField (if supersonic then 2 else 1) intent ifr accuracy (signCode ve)
    (stepCode (velocityStep supersonic) ve) (signCode vn) (stepCode (velocityStep supersonic) vn) source (signCode vr) (stepCode 64 vr) reserved
    (signCode dh) (stepCode 25 dh)).length = 7 := toBytes_length 7 _
  generalize hd : velocityField (if supersonic then 2 else 1) intent ifr accuracy (signCode ve)
    (stepCode (velocityStep supersonic) ve) (signCode vn) (stepCode (velocityStep supersonic) vn) source (signCode vr) (stepCode 64 vr) reserved
    (signCode dh) (stepCode 25 dh) = d at *
  -- the two components
  have key : ∃ m : GroundSpeedVelocity, readBDS09 d = .ok (if supersonic then .groundSpeedSupersonic m else .groundSpeedNormal m) ∧
      m.directionEastWest.toNat = signCode ve ∧ m.directionNorthSouth.toNat = signCode vn ∧
      m.velocityEWStatus = .regular ∧ m.velocityNSStatus = .regular ∧
      m.velocityEW.toNat + velocityStep supersonic = velocityStep supersonic * stepCode (velocityStep supersonic) ve ∧
      m.velocityNS.toNat + velocityStep supersonic = velocityStep supersonic * stepCode (velocityStep supersonic) vn := by
    cases supersonic
    · obtain ⟨m, hm⟩ := (velocity_kind d hl b1).1 b2
      obtain ⟨-, c1, c2, c3, c4⟩ := (ground_velocity_content d m).1 hm
      rw [b3] at c1; rw [b5] at c3; rw [b4] at c2; rw [b6] at c4
      rcases c2 with ⟨g, -⟩ | ⟨g, -⟩ | ⟨-, -, s1, v1⟩ <;> [omega; omega; skip]
      rcases c4 with ⟨g, -⟩ | ⟨g, -⟩ | ⟨-, -, s2, v2⟩ <;> [omega; omega; skip]
      exact ⟨m, hm, c1, c3, s1, s2, v1, v2⟩
    · obtain ⟨m, hm⟩ := (velocity_kind d hl b1).2.1 b2
      obtain ⟨-, c1, c2, c3, c4⟩ := (ground_velocity_content d m).2 hm
      rw [b3] at c1; rw [b5] at c3; rw [b4] at c2; rw [b6] at c4
      rcases c2 with ⟨g, -⟩ | ⟨g, -⟩ | ⟨-, -, s1, v1⟩ <;> [omega; omega; skip]
      rcases c4 with ⟨g, -⟩ | ⟨g, -⟩ | ⟨-, -, s2, v2⟩ <;> [omega; omega; skip]
      exact ⟨m, hm, c1, c3, s1, s2, v1, v2⟩
  obtain ⟨m, hm, d1, d2, s1, s2, v1, v2⟩ := key
  have one : ∀ a : UInt8, (a = 1 ↔ a.toNat = 1) := fun a => ⟨fun h => by rw [h]; rfl, fun h => UInt8.toNat_inj.1 h⟩
  have w1 : |signedEW m - ve| ≤ velocityStep supersonic / 2 := by
    unfold signedEW
    simp only [one, d1]
    refine signed_close ?_
    have : (m.velocityEW.toNat : ℝ) = velocityStep supersonic * ((stepCode (velocityStep supersonic) ve : ℝ) - 1) := by
      have : (m.velocityEW.toNat : ℝ) + velocityStep supersonic = velocityStep supersonic * stepCode (velocityStep supersonic) ve := by
        exact_mod_cast v1
      linarith
    rw [this]; exact ce3
  have w2 : |signedNS m - vn| ≤ velocityStep supersonic / 2 := by
    unfold signedNS
    simp only [one, d2]
    refine signed_close ?_
    have : (m.velocityNS.toNat : ℝ) = velocityStep supersonic * ((stepCode (velocityStep supersonic) vn : ℝ) - 1) := by
      have : (m.velocityNS.toNat : ℝ) + velocityStep supersonic = velocityStep supersonic * stepCode (velocityStep supersonic) vn := by
        exact_mod_cast v2
      linarith
    rw [this]; exact cn3
  have hvc := vertical_content d _ hm
  refine ⟨m, _, rfl, velocity_delivered v capability address hca haa d f hl b1 _ hm hf, ?_, ?_, ?_, ?_⟩
  · refine ⟨_, by rw [ground_speed, if_pos ⟨s1, s2⟩], ?_⟩
    have hn := norm_close _ _ _ _ _ w1 w2
    have e : signedEW m ^ 2 + signedNS m ^ 2 = ((m.velocityEW.toNat ^ 2 + m.velocityNS.toNat ^ 2 : ℕ) : ℝ) := by
      unfold signedEW signedNS
      push_cast
      split <;> split <;> ring
    rw [e] at hn
    generalize m.velocityEW.toNat ^ 2 + m.velocityNS.toNat ^ 2 = S at *
    have q1 : (Nat.sqrt S : ℝ) ≤ Real.sqrt S := Real.nat_sqrt_le_real_sqrt
    have q2 : Real.sqrt S < Nat.sqrt S + 1 := Real.real_sqrt_lt_nat_sqrt_succ
    rw [abs_le] at hn
    constructor <;> linarith [hn.1, hn.2]
  · obtain ⟨t, ht, t0, t1, tc, ts⟩ := (ground_track m).2 ⟨s1, s2⟩
    refine ⟨t, ht, t0, t1, fun V track hV hE hN => ?_⟩
    have hp := Real.pi_pos
    obtain ⟨j, hj⟩ := angle_close (Real.sqrt (signedNS m ^ 2 + signedEW m ^ 2)) V (t * Real.pi / 180) (track * Real.pi / 180)
      (velocityStep supersonic / 2) (by rw [tc, ← hN]; exact w2) (by rw [ts, ← hE]; exact w1) (by linarith) (by linarith) (Real.sqrt_nonneg _)
    refine ⟨j, ?_⟩
    have e : t * Real.pi / 180 - track * Real.pi / 180 - 2 * Real.pi * j = (t - track - 360 * j) * (Real.pi / 180) := by ring
    rw [e, abs_mul, abs_of_pos (by positivity : 0 < Real.pi / 180)] at hj
    have hq : |t - track - 360 * j| ≤ 90 * (Real.sqrt 2 * (velocityStep supersonic / 2) / V) := by
      have e2 : Real.pi / 2 * (Real.sqrt 2 * (velocityStep supersonic / 2) / V) =
        (90 * (Real.sqrt 2 * (velocityStep supersonic / 2) / V)) * (Real.pi / 180) := by ring
      rw [e2] at hj
      exact le_of_mul_le_mul_right hj (by positivity)
    refine hq.trans ?_
    have s3 : Real.sqrt 2 ≤ 1.42 := by rw [Real.sqrt_le_left (by norm_num)]; norm_num
    have hV0 : 0 < V := by linarith
    rw [← mul_div_assoc]
    apply div_le_div_of_nonneg_right _ hV0.le
    nlinarith
  · have := signedCoding_close d 64 vr _ 37 (stepCode 64 vr) 511 32640 _ b7 cr1 (by omega) (by exact_mod_cast cr3) (by rw [← b8]; exact hvc.1)
    norm_num at this ⊢; exact this
  · have := signedCoding_close d 25 dh _ 49 (stepCode 25 dh) 127 3150 _ b9 ch1 (by omega) (by exact_mod_cast ch3) (by rw [← b10]; exact hvc.2)
    norm_num at this ⊢; exact this

theorem headingCode_close (h : ℝ) (h0 : 0 ≤ h) (h1 : h < 360) : headingCode h < 1024 ∧
    ∃ j : ℤ, |(headingCode h : ℝ) * (360 / 1024) - h - 360 * j| ≤ 360 / 2048 := by
  unfold headingCode
  refine ⟨Nat.mod_lt _ (by norm_num), ?_⟩
  have f1 := Nat.floor_le (by positivity : 0 ≤ h * 1024 / 360 + 1 / 2)
  have f2 := Nat.lt_floor_add_one (h * 1024 / 360 + 1 / 2)
  generalize ⌊h * 1024 / 360 + 1 / 2⌋₊ = n at *
  have hdm := Nat.div_add_mod n 1024
  generalize n / 1024 = q at *
  generalize n % 1024 = r at *
  have h2 : (1024 * q + r : ℝ) = n := by exact_mod_cast hdm
  refine ⟨-(q : ℤ), ?_⟩
  push_cast
  rw [abs_le]
  constructor <;> linarith

/-- C84. Airspeed and heading (subtypes 3 and 4). The receiver finds the heading within half of a 1024th of the circle, flagged as available, and the
airspeed within half a step of 1 or 4 knots; vertical rate and height difference as above. -/
theorem airspeed_end_to_end (v : UInt8) (capability address : Nat) (hca : capability < 8) (haa : address < 2 ^ 24) (supersonic : Bool)
    (intent ifr accuracy source reserved kind : Nat) (l2 : intent < 2) (l3 : ifr < 2) (l4 : accuracy < 8) (l9 : source < 2) (l12 : reserved < 4)
    (hkind : kind < 2) (heading airspeed vr dh : ℝ) (hh0 : 0 ≤ heading) (hh1 : heading < 360) (ha0 : 0 ≤ airspeed)
    (ha1 : airspeed ≤ velocityStep supersonic * 1021) (hvr : |vr| ≤ 64 * 509) (hdh : |dh| ≤ 25 * 125) (f : List UInt8)
    (hf : IsSquitter capability address (velocityField (if supersonic then 4 else 3) intent ifr accuracy 1 (headingCode heading) kind
      (stepCode (velocityStep supersonic) airspeed) source (signCode vr) (stepCode 64 vr) reserved (signCode dh) (stepCode 25 dh)) f) :
    ∃ m : AirSpeedVelocity, ∃ x : AirborneVelocity, x = (if supersonic then .airSpeedSupersonic m else .airSpeedNormal m) ∧
      ReceivesVelocity v f address x ∧
      m.magneticHeadingStatus = 1 ∧ (∃ j : ℤ, |((m.magneticHeading : ℚ) : ℝ) - heading - 360 * j| ≤ 360 / 2048) ∧
      m.airspeedStatus = .regular ∧ |(m.airspeed.toNat : ℝ) - airspeed| ≤ velocityStep supersonic / 2 ∧
      |(x.verticalRate.1 : ℝ) - vr| ≤ 32 ∧ |(x.heightDifference.1 : ℝ) - dh| ≤ 12.5 := by
  have hk : (0 : ℝ) < velocityStep supersonic := by unfold velocityStep; cases supersonic <;> simp
  obtain ⟨ce1, ce2, ce3⟩ := stepCode_bounds _ airspeed 1021 hk (by rw [abs_of_nonneg ha0]; exact_mod_cast ha1)
  rw [abs_of_nonneg ha0] at ce3
  obtain ⟨hc1, hc2⟩ := headingCode_close heading hh0 hh1
  obtain ⟨cr1, cr2, cr3⟩ := stepCode_bounds 64 vr 509 (by norm_num) (by exact_mod_cast hvr)
  obtain ⟨ch1, ch2, ch3⟩ := stepCode_bounds 25 dh 125 (by norm_num) (by exact_mod_cast hdh)
  obtain ⟨b1, b2, b3, b4, b5, b6, b7, b8, b9, b10⟩ := velocityField_bits (if supersonic then 4 else 3) intent ifr accuracy 1
    (headingCode heading) kind (stepCode (velocityStep supersonic) airspeed) source (signCode vr) (stepCode 64 vr) reserved
    (signCode dh) (stepCode 25 dh) (by split <;> omega) l2 l3 l4 (by omega) hc1 hkind (by omega) l9 (signCode_lt _) (by omega) l12
    (signCode_lt _) (by omega)
  have hl : (velocityField (if supersonic then 4 else 3) intent ifr accuracy 1
    (headingCode heading) kind (stepCode (velocityStep supersonic) airspeed) source (signCode vr) (stepCode 64 vr) reserved
    (signCode dh) (stepCode 25 dh)).length = 7 := toBytes_length 7 _
  generalize hd : velocityField (if supersonic then 4 else 3) intent ifr accuracy 1
    (headingCode heading) kind (stepCode (velocityStep supersonic) airspeed) source (signCode vr) (stepCode 64 vr) reserved
    (signCode dh) (stepCode 25 dh) = d at *
  have key : ∃ m : AirSpeedVelocity, readBDS09 d = .ok (if supersonic then .airSpeedSupersonic m else .airSpeedNormal m) ∧
      m.magneticHeadingStatus.toNat = 1 ∧ m.magneticHeading = headingCode heading * (360 / 1024) ∧
      m.airspeedStatus = .regular ∧
      m.airspeed.toNat + velocityStep supersonic = velocityStep supersonic * stepCode (velocityStep supersonic) airspeed := by
    cases supersonic
    · obtain ⟨m, hm⟩ := (velocity_kind d hl b1).2.2.1 b2
      obtain ⟨-, c1, c2, -, -, c4⟩ := (airspeed_content d m).1 hm
      rw [b3] at c1; rw [b4] at c2; rw [b6] at c4
      rcases c4 with ⟨g, -⟩ | ⟨g, -⟩ | ⟨-, -, s2, v2⟩ <;> [omega; omega; skip]
      exact ⟨m, hm, c1, c2, s2, v2⟩
    · obtain ⟨m, hm⟩ := (velocity_kind d hl b1).2.2.2 b2
      obtain ⟨-, c1, c2, -, -, c4⟩ := (airspeed_content d m).2 hm
      rw [b3] at c1; rw [b4] at c2; rw [b6] at c4
      rcases c4 with ⟨g, -⟩ | ⟨g, -⟩ | ⟨-, -, s2, v2⟩ <;> [omega; omega; skip]
      exact ⟨m, hm, c1, c2, s2, v2⟩
  obtain ⟨m, hm, d1, d2, s1, v1⟩ := key
  have hvc := vertical_content d _ hm
  refine ⟨m, _, rfl, velocity_delivered v capability address hca haa d f hl b1 _ hm hf, UInt8.toNat_inj.1 d1, ?_, s1, ?_, ?_, ?_⟩
  · rw [d2]
    push_cast
    exact hc2
  · have e : (m.airspeed.toNat : ℝ) = velocityStep supersonic * ((stepCode (velocityStep supersonic) airspeed : ℝ) - 1) := by
      have : (m.airspeed.toNat : ℝ) + velocityStep supersonic = velocityStep supersonic * stepCode (velocityStep supersonic) airspeed := by
        exact_mod_cast v1
      linarith
    rw [e]; exact ce3
  · have := signedCoding_close d 64 vr _ 37 (stepCode 64 vr) 511 32640 _ b7 cr1 (by omega) (by exact_mod_cast cr3) (by rw [← b8]; exact hvc.1)
    norm_num at this ⊢; exact this
  · have := signedCoding_close d 25 dh _ 49 (stepCode 25 dh) 127 3150 _ b9 ch1 (by omega) (by exact_mod_cast ch3) (by rw [← b10]; exact hvc.2)
    norm_num at this ⊢; exact this

/-- The hypotheses are met: an aircraft at 300.4 knots east and 400.4 knots south, descending at 1000 feet per minute. -/
example : ∃ f m, ReceivesVelocity 2 f 0x4840D6 (.groundSpeedNormal m) ∧
    (∃ s, m.getSpeed = some s ∧ 498 ≤ s ∧ s ≤ 501) ∧ |((AirborneVelocity.groundSpeedNormal m).verticalRate.1 : ℝ) + 1000| ≤ 32 := by
  obtain ⟨f, hf⟩ := isSquitter_exists 5 0x4840D6 (velocityField 1 0 1 2 (signCode 300.4) (stepCode 1 300.4) (signCode (-400.4)) (stepCode 1 (-400.4)) 0
    (signCode (-1000)) (stepCode 64 (-1000)) 0 (signCode 150) (stepCode 25 150))
  obtain ⟨m, x, hx, h1, ⟨s, hs, s1, s2⟩, -, h3, -⟩ := velocity_end_to_end 2 5 0x4840D6 (by norm_num) (by norm_num) false 0 1 2 0 0 (by norm_num) (by norm_num)
    (by norm_num) (by norm_num) (by norm_num) 300.4 (-400.4) (-1000) 150 (by rw [abs_of_pos] <;> norm_num [velocityStep])
    (by rw [abs_of_neg] <;> norm_num [velocityStep]) (by rw [abs_of_neg] <;> norm_num) (by rw [abs_of_pos] <;> norm_num) f
    (by simpa [velocityStep] using hf)
  simp only [Bool.false_eq_true, if_false] at hx
  subst hx
  have e1 : Real.sqrt (300.4 ^ 2 + (-400.4) ^ 2) ≤ 500.57 := by rw [Real.sqrt_le_left (by norm_num)]; norm_num
  have e2 : 500.55 ≤ Real.sqrt (300.4 ^ 2 + (-400.4) ^ 2) := by apply Real.le_sqrt_of_sq_le; norm_num
  have e3 : Real.sqrt 2 ≤ 1.42 := by rw [Real.sqrt_le_left (by norm_num)]; norm_num
  norm_num [velocityStep] at s1 s2 e1 e2
  refine ⟨f, m, h1, ⟨s, hs, ?_, ?_⟩, by rw [← sub_neg_eq_add]; exact h3⟩
  · have : (498 : ℝ) < s := by linarith
    exact_mod_cast this.le
  · have : (s : ℝ) < 502 := by linarith
    have : s < 502 := by exact_mod_cast this
    omega

end Modes
