import Verif.Props.EndToEndStatus
import Verif.Props.EndToEndMet
/-!
# Resolution advisories, from the aircraft to the decoded report (C91)
-/
open Modes Spec
namespace Spec

/-- The advisory an ACAS gives its pilot. -/
inductive Advice
  /-- All threats are to be passed on the same side. -/
  | sameSense (corrective downward increased reversal crossing positive : Bool)
  /-- Several threats, to be passed on different sides. -/
  | differentSenses (correctUp climb correctDown descend crossing reversal : Bool)
  /-- No advisory for one threat. -/
  | nothing

/-- What is known of the threat: nothing, its 24-bit address, or its altitude (`100 k - 1200` feet), and the codes of its range and bearing. -/
inductive Threat
  | unknown
  | address (a : Nat)
  | position (k range bearing : Nat)

/-- The 14 bits of the active advisory: a 1 for one threat or the same sense, six flags, seven bits reserved for ACAS III. -/
def Advice.code : Advice → Nat
  | .sameSense c d i r x p => 2 ^ 13 + c.toNat * 2 ^ 12 + d.toNat * 2 ^ 11 + i.toNat * 2 ^ 10 + r.toNat * 2 ^ 9 + x.toNat * 2 ^ 8 + p.toNat * 2 ^ 7
  | .differentSenses u c d e x r => u.toNat * 2 ^ 12 + c.toNat * 2 ^ 11 + d.toNat * 2 ^ 10 + e.toNat * 2 ^ 9 + x.toNat * 2 ^ 8 + r.toNat * 2 ^ 7
  | .nothing => 0

/-- The multiple threat flag that goes with the advisory (`several`: more than one threat of the same sense). -/
def Advice.multiple (several : Bool) : Advice → Nat
  | .sameSense .. => several.toNat
  | .differentSenses .. => 1
  | .nothing => 0

/-- The 13-bit altitude field of the threat: C1 A1 C2 A2 C4 A4 0 B1 D1 B2 D2 B4 D4. -/
def altitudeBits (p : Pulses) : Nat :=
  p.c1.toNat * 2 ^ 12 + p.a1.toNat * 2 ^ 11 + p.c2.toNat * 2 ^ 10 + p.a2.toNat * 2 ^ 9 + p.c4.toNat * 2 ^ 8 + p.a4.toNat * 2 ^ 7 + p.b1.toNat * 2 ^ 5 +
    p.d1.toNat * 2 ^ 4 + p.b2.toNat * 2 ^ 3 + p.d2.toNat * 2 ^ 2 + p.b4.toNat * 2 + p.d4.toNat

/-- Threat type indicator (2 bits) and identity data (26 bits): nothing; the address and 2 zero bits; altitude (13 bits), range (7), bearing (6). -/
def Threat.code : Threat → Nat
  | .unknown => 0
  | .address a => 1 * 2 ^ 26 + a * 2 ^ 2
  | .position k range bearing => 2 * 2 ^ 26 + altitudeBits (modeC k) * 2 ^ 13 + range * 2 ^ 6 + bearing

/-- The fields of the threat fit. -/
def Threat.Fits : Threat → Prop
  | .unknown => True
  | .address a => a < 2 ^ 24
  | .position k range bearing => k < 2560 ∧ range < 128 ∧ bearing < 64

/-- The 48 bits of a resolution advisory: the active advisory (14), the complements: do not pass below, do not pass above, do not turn left, do not turn
right (4), terminated (1), multiple threats (1), the threat (28). -/
def advisoryField (advice : Advice) (several below above left right terminated : Bool) (threat : Threat) : List UInt8 :=
  toBytes 6 (advice.code * 2 ^ 34 + below.toNat * 2 ^ 33 + above.toNat * 2 ^ 32 + left.toNat * 2 ^ 31 + right.toNat * 2 ^ 30 + terminated.toNat * 2 ^ 29 +
    advice.multiple several * 2 ^ 28 + threat.code)

end Spec
namespace Modes

/-- The decoded active advisory is the one that was sent. -/
def ReceivedAdvice : Advice → ActiveRA → Prop
  | .sameSense c d i r x p, ra => ra = .oneThreat {
      preventiveCorrective := c.toNat, sense := d.toNat, isIncreasedRate := i, isSenseReversal := r,
      isAltitudeCrossing := x, verticalSpeedLimitOrPositive := p.toNat }
  | .differentSenses u c d e x r, ra => ra = .multiple {
      requiresCorrectionUpwardSense := u, requiresPositiveClimb := c, requiresCorrectionDownwardSense := d,
      requiresPositiveDescend := e, requiresCrossing := x, isSenseReversal := r }
  | .nothing, ra => ra = .none

/-- The decoded threat is the one that was sent; its range code may have lost its last bit. -/
def ReceivedThreat : Threat → ResolutionAdvisory → Prop
  | .unknown, m => m.threatTypeIndicator = 0 ∧ m.threatIdentityAddress = none ∧ m.threatIdentityAltitude = none ∧ m.threatIdentityRange = none ∧ m.threatIdentityBearing = none
  | .address a, m => m.threatTypeIndicator = 1 ∧ m.threatIdentityAddress = some (UInt32.ofNat a) ∧ m.threatIdentityAltitude = none ∧ m.threatIdentityRange = none ∧
      m.threatIdentityBearing = none
  | .position k range bearing, m => m.threatTypeIndicator = 2 ∧ m.threatIdentityAddress = none ∧ m.threatIdentityAltitude = some ⟨1, 100 * (k : Int) - 1200⟩ ∧
      m.threatIdentityRange = some (UInt8.ofNat (range / 2 * 2)) ∧ m.threatIdentityBearing = some (UInt8.ofNat bearing)

/-- All that a resolution advisory says is received. -/
def ReceivedAdvisory (advice : Advice) (several below above left right terminated : Bool) (threat : Threat) (m : ResolutionAdvisory) : Prop :=
  ReceivedAdvice advice m.activeRA ∧ m.raComplement = ⟨below, above, left, right⟩ ∧ m.raTerminatedIndicator = terminated.toNat ∧
    m.multipleThreatEncounter.toNat = advice.multiple several ∧ ReceivedThreat threat m

/-- The altitudes the reader gets right: those without C1 and A1 pulses. -/
def ReadableThreat : Threat → Prop
  | .position k _ _ => (modeC k).c1 = false ∧ (modeC k).a1 = false
  | _ => True

theorem bits_toBytes6 (v a b : Nat) (hv : v < 2 ^ 48) : bits (toBytes 6 v) a b = v / 2 ^ (48 - b) % 2 ^ (b + 1 - a) := by
  unfold bits
  have h : v % 256 ^ 6 = v := Nat.mod_eq_of_lt (lt_of_lt_of_eq hv (by norm_num))
  rw [beNat_toBytes, toBytes_length, h]

theorem altitudeBits_lt (p : Pulses) : altitudeBits p < 2 ^ 13 := by
  unfold altitudeBits
  have h : ∀ b : Bool, b.toNat ≤ 1 := Bool.toNat_le
  have := h p.c1; have := h p.a1; have := h p.c2; have := h p.a2; have := h p.c4; have := h p.a4; have := h p.b1; have := h p.d1; have := h p.b2
  have := h p.d2; have := h p.b4; have := h p.d4
  norm_num; omega

theorem advice_code_lt (a : Advice) : a.code < 2 ^ 14 := by
  have h : ∀ b : Bool, b.toNat ≤ 1 := Bool.toNat_le
  cases a with
  | sameSense c d i r x p => have := h c; have := h d; have := h i; have := h r; have := h x; have := h p; simp only [Advice.code]; norm_num; omega
  | differentSenses c d i r x p => have := h c; have := h d; have := h i; have := h r; have := h x; have := h p; simp only [Advice.code]; norm_num; omega
  | nothing => decide

theorem advice_multiple_lt (s : Bool) (a : Advice) : a.multiple s < 2 := by
  cases a <;> cases s <;> simp [Advice.multiple]

theorem threat_code_lt (t : Threat) (h : t.Fits) : t.code < 2 ^ 28 := by
  cases t with
  | unknown => decide
  | address a => simp only [Threat.Fits] at h; simp only [Threat.code]; omega
  | position k r b =>
    have := altitudeBits_lt (modeC k)
    simp only [Threat.Fits] at h; simp only [Threat.code]; omega

theorem advisoryField_bits (advice : Advice) (several below above left right terminated : Bool) (threat : Threat) (ht : threat.Fits) :
    let d := advisoryField advice several below above left right terminated threat
    d.length = 6 ∧ bits d 1 14 = advice.code ∧ bit d 15 = below ∧ bit d 16 = above ∧ bit d 17 = left ∧ bit d 18 = right ∧ bits d 19 19 = terminated.toNat ∧
      bits d 20 20 = advice.multiple several ∧ bits d 21 48 = threat.code := by
  intro d
  have h : ∀ b : Bool, b.toNat ≤ 1 := Bool.toNat_le
  have g1 := advice_code_lt advice; have g2 := advice_multiple_lt several advice; have g3 := threat_code_lt threat ht
  have h1 := h below; have h2 := h above; have h3 := h left; have h4 := h right; have h5 := h terminated
  have hv : advice.code * 2 ^ 34 + below.toNat * 2 ^ 33 + above.toNat * 2 ^ 32 + left.toNat * 2 ^ 31 + right.toNat * 2 ^ 30 + terminated.toNat * 2 ^ 29 +
    advice.multiple several * 2 ^ 28 + threat.code < 2 ^ 48 := by omega
  have e := fun a b => bits_toBytes6 _ a b hv
  have hb : ∀ i (b : Bool), bits d i i = b.toNat → bit d i = b := by
    intro i b hi; unfold bit; rw [hi]; cases b <;> rfl
  refine ⟨toBytes_length _ _, ?_, hb _ _ ?_, hb _ _ ?_, hb _ _ ?_, hb _ _ ?_, ?_, ?_, ?_⟩ <;> refine (e _ _).trans ?_ <;> norm_num <;> omega

theorem bits_sub (d : List UInt8) (s l a b : Nat) (h1 : s ≤ a) (h2 : a ≤ b) (h3 : b ≤ l) (hl : l ≤ 8 * d.length) :
    bits d a b = bits d s l / 2 ^ (l - b) % 2 ^ (b + 1 - a) := by
  unfold bits
  have e1 : 8 * d.length - b = (8 * d.length - l) + (l - b) := by omega
  rw [e1, Nat.pow_add, ← Nat.div_div_eq_div_mul]
  generalize beNat d / 2 ^ (8 * d.length - l) = n
  have e2 : l + 1 - s = (l - b) + (b + 1 - s) := by omega
  rw [e2, Nat.pow_add, Nat.mod_mul_right_div_self]
  exact (Nat.mod_mod_of_dvd _ (Nat.pow_dvd_pow 2 (by omega))).symm

theorem bit_of_bits {d : List UInt8} {i : Nat} {b : Bool} (h : bits d i i = b.toNat) : bit d i = b := by
  unfold bit; rw [h]; cases b <;> rfl

theorem testBit_of {n i : Nat} {b : Bool} (h : n / 2 ^ i % 2 = b.toNat) : n.testBit i = b := by
  rw [Nat.testBit_eq_decide_div_mod_eq, h]; cases b <;> rfl

theorem pulsesTID_altitudeBits (p : Pulses) : pulsesTID (altitudeBits p) = p := by
  obtain ⟨d1, d2, d4, a1, a2, a4, b1, b2, b4, c1, c2, c4⟩ := p
  have h : ∀ b : Bool, b.toNat ≤ 1 := Bool.toNat_le
  have := h d1; have := h d2; have := h d4; have := h a1; have := h a2; have := h a4; have := h b1; have := h b2; have := h b4; have := h c1
  have := h c2; have := h c4
  unfold pulsesTID altitudeBits
  congr 1 <;> apply testBit_of <;> norm_num <;> omega

theorem threatField_bits (d : List UInt8) (h6 : d.length = 6) (threat : Threat) (ht : threat.Fits) (h : bits d 21 48 = threat.code) :
    match (generalizing := false) threat with
    | .unknown => bits d 21 22 = 0
    | .address a => bits d 21 22 = 1 ∧ bits d 23 46 = a
    | .position k range bearing => bits d 21 22 = 2 ∧ bits d 23 35 = altitudeBits (modeC k) ∧ bits d 36 41 = range / 2 ∧ bits d 43 48 = bearing := by
  have e := fun a b h1 h2 h3 => bits_sub d 21 48 a b h1 h2 h3 (by omega)
  cases threat with
  | unknown => simp only; rw [e _ _ (by decide) (by decide) (by decide), h]; rfl
  | address a =>
    simp only [Threat.Fits] at ht
    simp only [Threat.code] at h
    refine ⟨?_, ?_⟩ <;> rw [e _ _ (by decide) (by decide) (by decide), h] <;> norm_num <;> omega
  | position k r b =>
    simp only [Threat.Fits] at ht
    simp only [Threat.code] at h
    have := altitudeBits_lt (modeC k)
    refine ⟨?_, ?_, ?_, ?_⟩ <;> rw [e _ _ (by decide) (by decide) (by decide), h] <;> norm_num <;> omega

/-- C91, the reading of an advisory. The threat's altitude is right exactly when the pulses C1 and A1 of its code are zero (the other altitudes are given as
another one or make the advisory unreadable); everything else is always right, but the range, whose last bit is lost. -/
theorem advisory_read_partial (advice : Advice) (several below above left right terminated : Bool) (threat : Threat) (ht : threat.Fits) :
    (∃ m, readResolutionAdvisory (advisoryField advice several below above left right terminated threat) = .ok m ∧
      ReceivedAdvisory advice several below above left right terminated threat m) ↔ ReadableThreat threat := by
  obtain ⟨h6, g1, g2, g3, g4, g5, g6, g7, g8⟩ := advisoryField_bits advice several below above left right terminated threat ht
  have htb := threatField_bits _ h6 threat ht g8
  generalize advisoryField advice several below above left right terminated threat = d at *
  have hcommon : ∀ m, readResolutionAdvisory d = .ok m → ReceivedAdvice advice m.activeRA ∧ m.raComplement = ⟨below, above, left, right⟩ ∧
      m.raTerminatedIndicator = terminated.toNat ∧ m.multipleThreatEncounter.toNat = advice.multiple several := by
    intro m hm
    obtain ⟨c1, c2, c3, c4, c5, c6, -⟩ := ra_content d m hm
    refine ⟨?_, by rw [c4, g2, g3, g4, g5], by rw [c5, g6], ?_⟩
    · have e := fun a b h1 h2 h3 => bits_sub d 1 14 a b h1 h2 h3 (by omega)
      have hb : ∀ b : Bool, b.toNat ≤ 1 := Bool.toNat_le
      cases advice with
      | sameSense c d' i r x p =>
        have := hb c; have := hb d'; have := hb i; have := hb r; have := hb x; have := hb p
        simp only [Advice.code] at g1
        have f1 : bits d 1 1 = 1 := by rw [e _ _ (by decide) (by decide) (by decide), g1]; norm_num; omega
        have f2 : bits d 2 2 = c.toNat := by rw [e _ _ (by decide) (by decide) (by decide), g1]; norm_num; omega
        have f3 : bits d 3 3 = d'.toNat := by rw [e _ _ (by decide) (by decide) (by decide), g1]; norm_num; omega
        have f4 : bits d 4 4 = i.toNat := by rw [e _ _ (by decide) (by decide) (by decide), g1]; norm_num; omega
        have f5 : bits d 5 5 = r.toNat := by rw [e _ _ (by decide) (by decide) (by decide), g1]; norm_num; omega
        have f6 : bits d 6 6 = x.toNat := by rw [e _ _ (by decide) (by decide) (by decide), g1]; norm_num; omega
        have f7 : bits d 7 7 = p.toNat := by rw [e _ _ (by decide) (by decide) (by decide), g1]; norm_num; omega
        simp only [ReceivedAdvice]
        rw [c1 (bit_of_bits (b := true) f1), f2, f3, bit_of_bits f4, bit_of_bits f5, bit_of_bits f6, f7]
      | differentSenses c d' i r x p =>
        have := hb c; have := hb d'; have := hb i; have := hb r; have := hb x; have := hb p
        simp only [Advice.code] at g1
        simp only [Advice.multiple] at g7
        have f1 : bits d 1 1 = 0 := by rw [e _ _ (by decide) (by decide) (by decide), g1]; norm_num; omega
        have f2 : bits d 2 2 = c.toNat := by rw [e _ _ (by decide) (by decide) (by decide), g1]; norm_num; omega
        have f3 : bits d 3 3 = d'.toNat := by rw [e _ _ (by decide) (by decide) (by decide), g1]; norm_num; omega
        have f4 : bits d 4 4 = i.toNat := by rw [e _ _ (by decide) (by decide) (by decide), g1]; norm_num; omega
        have f5 : bits d 5 5 = r.toNat := by rw [e _ _ (by decide) (by decide) (by decide), g1]; norm_num; omega
        have f6 : bits d 6 6 = x.toNat := by rw [e _ _ (by decide) (by decide) (by decide), g1]; norm_num; omega
        have f7 : bits d 7 7 = p.toNat := by rw [e _ _ (by decide) (by decide) (by decide), g1]; norm_num; omega
        simp only [ReceivedAdvice]
        rw [c2 (bit_of_bits (b := false) f1) (bit_of_bits (b := true) g7), bit_of_bits f2, bit_of_bits f3, bit_of_bits f4, bit_of_bits f5, bit_of_bits f6, bit_of_bits f7]
      | nothing =>
        simp only [Advice.code] at g1
        simp only [Advice.multiple] at g7
        have f1 : bits d 1 1 = 0 := by rw [e _ _ (by decide) (by decide) (by decide), g1]; norm_num
        exact c3 (bit_of_bits (b := false) f1) (bit_of_bits (b := false) g7)
    · have := advice_multiple_lt several advice
      rw [c6, g7, UInt8.toNat_ofNat']
      omega
  cases threat with
  | unknown =>
    simp only at htb
    refine ⟨fun _ => trivial, fun _ => ?_⟩
    obtain ⟨m, hm⟩ := (ra_accepts d).2 h6 (by omega)
    obtain ⟨c1, c2, c3, c4⟩ := hcommon m hm
    refine ⟨m, hm, c1, c2, c3, c4, ?_⟩
    obtain ⟨-, h | ⟨h1, -⟩ | ⟨-, -, rfl⟩⟩ := ra_ok d m hm
    · omega
    · omega
    · exact ⟨htb, rfl, rfl, rfl, rfl⟩
  | address a =>
    obtain ⟨t1, t2⟩ := htb
    refine ⟨fun _ => trivial, fun _ => ?_⟩
    obtain ⟨m, hm⟩ := (ra_accepts d).2 h6 (by omega)
    obtain ⟨c1, c2, c3, c4⟩ := hcommon m hm
    refine ⟨m, hm, c1, c2, c3, c4, ?_⟩
    obtain ⟨-, ⟨-, rfl⟩ | ⟨h1, -⟩ | ⟨h1, -⟩⟩ := ra_ok d m hm
    · exact ⟨t1, by simp only [specRA, t2], rfl, rfl, rfl⟩
    · omega
    · omega
  | position k range bearing =>
    obtain ⟨t1, t2, t3, t4⟩ := htb
    have hx := threat_altitude_exact d h6 t1 k ht.1 (by rw [t2, pulsesTID_altitudeBits])
    simp only [ReadableThreat]
    rw [← hx]
    constructor
    · rintro ⟨m, hm, -, -, -, -, -, -, ha, -⟩
      exact ⟨m, hm, ha⟩
    · rintro ⟨m, hm, ha⟩
      obtain ⟨c1, c2, c3, c4⟩ := hcommon m hm
      refine ⟨m, hm, c1, c2, c3, c4, ?_⟩
      obtain ⟨-, ⟨h1, -⟩ | ⟨h1, a, rfl⟩ | ⟨-, h1, -⟩⟩ := ra_ok d m hm
      · omega
      · refine ⟨t1, rfl, ha, ?_, ?_⟩
        · simp only [specRA, t3, Nat.mul_comm]
        · simp only [specRA, t4]
      · omega

theorem first_byte_bits (b : UInt8) (l : List UInt8) (h6 : l.length = 6) (i j : Nat) (h1 : 1 ≤ i) (h2 : i ≤ j) (h3 : j ≤ 8) :
    bits (b :: l) i j = b.toNat / 2 ^ (8 - j) % 2 ^ (j + 1 - i) := by
  obtain ⟨b0, b1, b2, b3, b4, b5, rfl⟩ := list6 l h6
  have e : bits [b, b0, b1, b2, b3, b4, b5] 1 8 = b.toNat := by byte_omega
  rw [bits_sub _ 1 8 i j h1 h2 h3 (by simp), e]

/-- C91, in an extended squitter (type code 28, subtype 2): the advisory is delivered, with all it says, exactly when the threat is not given at an altitude the
reader gets wrong. -/
theorem advisory_squitter_partial (v : UInt8) (s t : Bool) (capability address : Nat) (hca : capability < 8) (haa : address < 2 ^ 24) (advice : Advice)
    (several below above left right terminated : Bool) (threat : Threat) (ht : threat.Fits) (f : List UInt8)
    (hf : IsSquitter capability address (0xE2 :: advisoryField advice several below above left right terminated threat) f) :
    (∃ m : StatusACAS, ReceivesADSB v s t f address (.status (.acas m) v) ∧ (AircraftStatus.acas m).coherent = true ∧
      ReceivedAdvisory advice several below above left right terminated threat m.resolutionAdvisory) ↔ ReadableThreat threat := by
  rw [← advisory_read_partial advice several below above left right terminated threat ht]
  obtain ⟨h6, -⟩ := advisoryField_bits advice several below above left right terminated threat ht
  generalize advisoryField advice several below above left right terminated threat = d at *
  have b1 : bits (0xE2 :: d) 1 5 = 28 := first_byte_bits _ d h6 _ _ (by decide) (by decide) (by decide)
  have b2 : bits (0xE2 :: d) 6 8 = 2 := first_byte_bits _ d h6 _ _ (by decide) (by decide) (by decide)
  have h7 : (0xE2 :: d).length = 7 := by simp [h6]
  constructor
  · rintro ⟨m, ⟨m', ad, r1, -, -, r2⟩, -, hr⟩
    obtain ⟨m'', q1, q2, -⟩ := squitter_received capability address _ f hca haa h7 hf
    rw [r1] at q1; cases q1
    rw [q2] at r2
    rcases adsb_eval v s t (0xE2 :: d) with ⟨e, -⟩ | ⟨e, -⟩ | ⟨-, x, hx, hc, -⟩
    · rw [e] at r2; cases r2
    · rw [e] at r2; cases r2
    · rw [hx] at r2; cases r2
      exact ⟨_, (status_content _ _ hc.2.2).2.2.2, hr⟩
  · rintro ⟨ra, hra, hr⟩
    obtain ⟨x, hx, hcx⟩ := adsb_accepted_delivered v s t capability address hca haa _ f
      ⟨h7, Or.inr (Or.inr (Or.inr (Or.inr (Or.inr (Or.inl ⟨b1, Or.inr (Or.inr ⟨b2, ra, hra⟩)⟩)))))⟩ hf
    cases x with
    | status m w =>
      obtain ⟨-, rfl, hm⟩ := hcx
      have hk := status_content _ _ hm
      have hco := status_coherent_iff _ _ hm
      cases m with
      | acas m =>
        refine ⟨m, hx, ?_, ?_⟩
        · rw [hco, b2]; omega
        · have := hk.2.2.2
          rw [List.drop_succ_cons, List.drop_zero, hra] at this
          cases this
          exact hr
      | noInformation m => have := hk.1; omega
      | emergency m => have := hk.1; omega
    | surfaceV0 => have := hcx.1; unfold SurfaceTC at this; omega
    | surfaceV1 => have := hcx.1; unfold SurfaceTC at this; omega
    | surfaceV2 => have := hcx.1; unfold SurfaceTC at this; omega
    | airborneV0 => have := hcx.1; unfold AirborneTC at this; omega
    | airborneV1 => have := hcx.1; unfold AirborneTC at this; omega
    | airborneV2 => have := hcx.1; unfold AirborneTC at this; omega
    | identification => have := hcx.2.1; omega
    | _ => have := hcx.1; omega

/-- C91, in a Comm-B reply (BDS 3,0): the advisory is among the candidates, with all it says, exactly when the threat is not given at an altitude the reader
gets wrong. -/
theorem advisory_commB_partial (format header address : Nat) (hh : ReadableHeader format header) (advice : Advice)
    (several below above left right terminated : Bool) (threat : Threat) (ht : threat.Fits) (f : List UInt8)
    (hf : IsCommBReply format header address (0x30 :: advisoryField advice several below above left right terminated threat) f) :
    (∃ l m, ReceivesCommB f address l ∧ CommBMessage.bds30 m ∈ l ∧
      ReceivedAdvisory advice several below above left right terminated threat m.resolutionAdvisory) ↔ ReadableThreat threat := by
  rw [← advisory_read_partial advice several below above left right terminated threat ht]
  obtain ⟨h6, -⟩ := advisoryField_bits advice several below above left right terminated threat ht
  generalize advisoryField advice several below above left right terminated threat = d at *
  have b1 : bits (0x30 :: d) 1 8 = 0x30 := first_byte_bits _ d h6 _ _ (by decide) (by decide) (by decide)
  have b2 : bits (0x30 :: d) 4 6 = 4 := first_byte_bits _ d h6 _ _ (by decide) (by decide) (by decide)
  have h7 : (0x30 :: d).length = 7 := by simp [h6]
  constructor
  · rintro ⟨l, m, hl, hm, hr⟩
    obtain ⟨-, hc⟩ := receivesCommB_candidate format header address _ f hh h7 hf l hl
    have := (((bds30_accepts _).1 m).1 (hc _ hm).1).2.2
    exact ⟨_, this, hr⟩
  · rintro ⟨ra, hra, hr⟩
    obtain ⟨l, hl, -, -, hall⟩ := commB_sound_complete _ h7
    have hz1 : bits (0x30 :: d) 1 56 ≠ 0 := by
      intro h0
      have := bits_sub (0x30 :: d) 1 56 1 8 (by decide) (by decide) (by decide) (by omega)
      rw [h0, b1] at this
      norm_num at this
    have hmem := hall (ambiguous_register' _ (by omega) (by omega) hz1)
    refine ⟨l, ⟨ra⟩, commB_delivered format header address _ f hh h7 hf l hl, (hmem _).2 ⟨((bds30_accepts _).1 ⟨ra⟩).2 ⟨h7, b1, hra⟩, rfl⟩, hr⟩

/-- C91, in a long air-air surveillance reply (format 16): the 56-bit field is handed over, and its last 48 bits are read as the advisory that was sent exactly
when the threat is not given at an altitude the reader gets wrong. -/
theorem advisory_airAir_partial (vs sl ri address : Nat) (hvs : vs < 2) (hsl : sl < 8) (hri : ri < 16) (h : ℝ) (c : Nat) (tol : ℝ) (hs : SendsAltitude h c tol)
    (advice : Advice) (several below above left right terminated : Bool) (threat : Threat) (ht : threat.Fits) (f : List UInt8)
    (hf : IsReply 16 (vs * 2 ^ 13 + sl * 2 ^ 8 + ri * 2 ^ 2) c (0x30 :: advisoryField advice several below above left right terminated threat) address f) :
    ∃ m, readMessage f = .ok (.df16 m) ∧ (∀ al il, IdentifiesSender al address (checkCRC (.df16 m) f al il)) ∧
      ((∃ ra, readResolutionAdvisory (m.messageACAS.drop 1) = .ok ra ∧ ReceivedAdvisory advice several below above left right terminated threat ra) ↔
        ReadableThreat threat) := by
  obtain ⟨h6, -⟩ := advisoryField_bits advice several below above left right terminated threat ht
  obtain ⟨m, hm, -, -, -, hmv, -, -, hi⟩ := (airAir_reply_end_to_end vs 0 sl ri address hvs (by decide) hsl hri h c tol hs f _).2 (by simp [h6]) hf
  refine ⟨m, hm, hi, ?_⟩
  rw [hmv]
  exact advisory_read_partial advice several below above left right terminated threat ht

/-- A climb against one threat at 6000 feet, range code 21, bearing code 5. -/
example : Threat.Fits (.position 72 21 5) ∧ ReadableThreat (.position 72 21 5) ∧
    advisoryField (.sameSense true false false false false true) false false true false false false (.position 72 21 5) =
      [0xC2, 0x01, 0x08, 0x90, 0x45, 0x45] := by simp only [Threat.Fits, ReadableThreat]; decide +kernel

end Modes
