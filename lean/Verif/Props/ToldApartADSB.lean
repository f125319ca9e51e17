import Verif.Props.ToldApart
import Verif.Props.ADSB
/-!
# C96, continued: different ADS-B messages are told apart
-/
set_option linter.unusedVariables false
namespace Modes
open Spec

theorem speed_agree (u v k top value : Nat) (s : NumericValueStatus) (hk : 1 ≤ k) (hu : SpeedCoding u k top value s)
    (hv : SpeedCoding v k top value s) : u = v := by
  rcases hu with ⟨a1, a2, a3⟩ | ⟨a1, a2, a3⟩ | ⟨a1, a2, a3, a4⟩ <;> rcases hv with ⟨b1, b2, b3⟩ | ⟨b1, b2, b3⟩ | ⟨b1, b2, b3, b4⟩ <;>
    first | omega | (rw [a2] at b2; cases b2) | (rw [a2] at b3; cases b3) | (rw [a3] at b2; cases b2) | skip
  exact Nat.eq_of_mul_eq_mul_left hk (a4.symm.trans b4)

theorem signed_agree (n n' : Bool) (u v ones k top : Nat) (value : Int) (s : NumericValueStatus) (hk : 1 ≤ k) (ht : 1 ≤ top)
    (hu : SignedCoding n u ones k top value s) (hv : SignedCoding n' v ones k top value s) : u = v ∧ (value ≠ 0 → n = n') := by
  rcases hu with ⟨a1, a2, a3⟩ | ⟨a1, a2, a3⟩ | ⟨a1, a2, a3, a4⟩ <;> rcases hv with ⟨b1, b2, b3⟩ | ⟨b1, b2, b3⟩ | ⟨b1, b2, b3, b4⟩ <;>
    first
    | (rw [a2] at b2; cases b2; done) | (rw [a2] at b3; cases b3; done) | (rw [a3] at b2; cases b2; done) | skip
  · exact ⟨by omega, fun h => absurd a3 h⟩
  · refine ⟨by omega, fun _ => ?_⟩
    rw [a3] at b3
    cases n <;> cases n' <;> simp at b3 <;> first | rfl | omega
  · have hk' : (0 : Int) < k := by omega
    have pos (w : Nat) (hw : 1 ≤ w) : (0 : Int) ≤ ((w : Int) - 1) * k := mul_nonneg (by omega) (by omega)
    have pu := pos u a1
    have pv := pos v b1
    rw [a4] at b4 ⊢
    cases n <;> cases n'
    · simp only [Bool.false_eq_true, if_false] at b4
      have := mul_right_cancel₀ (ne_of_gt hk') b4
      exact ⟨by omega, fun _ => rfl⟩
    · simp only [Bool.false_eq_true, if_false, if_true] at b4 ⊢
      rw [neg_mul] at b4
      have e1 : ((u : Int) - 1) * k = 0 := by omega
      have e2 : ((v : Int) - 1) * k = 0 := by omega
      have f1 := (mul_eq_zero.1 e1).resolve_right (ne_of_gt hk')
      have f2 := (mul_eq_zero.1 e2).resolve_right (ne_of_gt hk')
      exact ⟨by omega, fun h => absurd e1 h⟩
    · simp only [Bool.false_eq_true, if_false, if_true] at b4 ⊢
      rw [neg_mul] at b4 ⊢
      have e1 : ((u : Int) - 1) * k = 0 := by omega
      have e2 : ((v : Int) - 1) * k = 0 := by omega
      have f1 := (mul_eq_zero.1 e1).resolve_right (ne_of_gt hk')
      have f2 := (mul_eq_zero.1 e2).resolve_right (ne_of_gt hk')
      exact ⟨by omega, fun h => absurd (by rw [e1]; rfl) h⟩
    · simp only [if_true] at b4
      have := mul_right_cancel₀ (ne_of_gt hk') b4
      exact ⟨by omega, fun _ => rfl⟩

theorem ac12_agree (u v method : Nat) (alt : Int) (hu : u < 4096) (hv : v < 4096) (h : AC12Meaning u method alt) (h' : AC12Meaning v method alt) :
    u = v := by
  rcases h with ⟨a1, a2, a3⟩ | ⟨a1, a2, k, a3, a4, a5⟩ <;> rcases h' with ⟨b1, b2, b3⟩ | ⟨b1, b2, l, b3, b4, b5⟩
  · rw [Nat.testBit_eq_decide_div_mod_eq] at a1 b1
    simp only [decide_eq_true_eq] at a1 b1
    unfold n25AC12 at a3 b3
    omega
  · omega
  · omega
  · have e : k = l := by omega
    subst e
    have e := a4.trans b4.symm
    unfold pulsesAC12 at e
    injection e with e0 e1 e2 e3 e4 e5 e6 e7 e8 e9 e10 e11
    refine Nat.eq_of_testBit_eq fun i => ?_
    by_cases hi : i < 12
    · have : i = 0 ∨ i = 1 ∨ i = 2 ∨ i = 3 ∨ i = 4 ∨ i = 5 ∨ i = 6 ∨ i = 7 ∨ i = 8 ∨ i = 9 ∨ i = 10 ∨ i = 11 := by omega
      rcases this with h | h | h | h | h | h | h | h | h | h | h | h <;> subst h <;> first | assumption | (rw [a1, b1])
    · have : 2 ^ 12 ≤ 2 ^ i := Nat.pow_le_pow_right (by decide) (by omega)
      rw [Nat.testBit_lt_two_pow (by omega), Nat.testBit_lt_two_pow (by omega)]

theorem airborne_told_apart (a b : List UInt8) (m : AirbornePosition) (ha : readBDS05 a = .ok m) (hb : readBDS05 b = .ok m) : a = b := by
  have la := ((airborne_position_accepts a).1.1 ⟨_, ha⟩).1
  have lb := ((airborne_position_accepts b).1.1 ⟨_, hb⟩).1
  obtain ⟨a1, a2, a3, a4, -, a5, a6, a7, a8⟩ := airborne_position_content a m ha
  obtain ⟨b1, b2, b3, b4, -, b5, b6, b7, b8⟩ := airborne_position_content b m hb
  refine eq_of_agree a b la lb (agree_of a b la lb [(1, 5), (6, 7), (8, 8), (9, 20), (21, 21), (22, 22), (23, 39), (40, 56)] [] (by decide +kernel) ?_)
  simp only [List.forall_mem_cons, List.not_mem_nil, false_implies, implies_true, and_true]
  exact ⟨a1.symm.trans b1, a2.symm.trans b2, a3.symm.trans b3, ac12_agree _ _ _ _ (bits_lt a 9 20 12 rfl) (bits_lt b 9 20 12 rfl) a4 b4,
    a5.symm.trans b5, a6.symm.trans b6, a7.symm.trans b7, a8.symm.trans b8⟩

theorem surface_told_apart (a b : List UInt8) (m : SurfacePosition) (ha : readBDS06 a = .ok m) (hb : readBDS06 b = .ok m) : a = b := by
  have la := ((surface_position_accepts a).1.1 ⟨_, ha⟩).1
  have lb := ((surface_position_accepts b).1.1 ⟨_, hb⟩).1
  obtain ⟨a1, a2, -, a3, a4, a5, a6, a7, a8⟩ := surface_position_content a m ha
  obtain ⟨b1, b2, -, b3, b4, b5, b6, b7, b8⟩ := surface_position_content b m hb
  refine eq_of_agree a b la lb (agree_of a b la lb [(1, 5), (6, 12), (13, 13), (14, 20), (21, 21), (22, 22), (23, 39), (40, 56)] [] (by decide +kernel) ?_)
  simp only [List.forall_mem_cons, List.not_mem_nil, false_implies, implies_true, and_true]
  exact ⟨a1.symm.trans b1, a2.symm.trans b2, bit_agree a b _ (a3.symm.trans b3), uscaled_agree a b _ _ _ _ (by norm_num) a4 b4,
    a5.symm.trans b5, a6.symm.trans b6, a7.symm.trans b7, a8.symm.trans b8⟩

theorem ground_told_apart (a b : List UInt8) (la : a.length = 7) (lb : b.length = 7) (m : GroundSpeedVelocity) (k top : Nat) (hk : 1 ≤ k)
    (ha : GroundSpec a k top m) (hb : GroundSpec b k top m) :
    AgreeExcept a b [37, 47, 48, 49] ∧ (m.verticalRate ≠ 0 → bit a 37 = bit b 37) ∧ (m.heightDifference ≠ 0 → bit a 49 = bit b 49) := by
  obtain ⟨ca, a1, a2, a3, a4⟩ := ha
  obtain ⟨cb, b1, b2, b3, b4⟩ := hb
  obtain ⟨v1, v2⟩ := signed_agree _ _ _ _ _ _ _ _ _ (by decide) (by decide) ca.vr cb.vr
  obtain ⟨w1, w2⟩ := signed_agree _ _ _ _ _ _ _ _ _ (by decide) (by decide) ca.hd cb.hd
  refine ⟨agree_of a b la lb [(1, 5), (6, 8), (9, 9), (10, 10), (11, 13), (14, 14), (15, 24), (25, 25), (26, 35), (36, 36), (38, 46), (50, 56)] _
    (by decide +kernel) ?_, v2, w2⟩
  simp only [List.forall_mem_cons, List.not_mem_nil, false_implies, implies_true, and_true]
  exact ⟨ca.ftc.symm.trans cb.ftc, ca.sub.symm.trans cb.sub, ca.ic.symm.trans cb.ic, ca.ifr.symm.trans cb.ifr, ca.nuc.symm.trans cb.nuc,
    a1.symm.trans b1, speed_agree _ _ _ _ _ _ hk a2 b2, a3.symm.trans b3, speed_agree _ _ _ _ _ _ hk a4 b4, ca.vrs.symm.trans cb.vrs, v1, w1⟩

theorem air_told_apart (a b : List UInt8) (la : a.length = 7) (lb : b.length = 7) (m : AirSpeedVelocity) (k top : Nat) (hk : 1 ≤ k)
    (ha : AirSpec a k top m) (hb : AirSpec b k top m) :
    AgreeExcept a b [25, 37, 47, 48, 49] ∧ (m.verticalRate ≠ 0 → bit a 37 = bit b 37) ∧ (m.heightDifference ≠ 0 → bit a 49 = bit b 49) := by
  obtain ⟨ca, a1, a2, a4⟩ := ha
  obtain ⟨cb, b1, b2, b4⟩ := hb
  obtain ⟨v1, v2⟩ := signed_agree _ _ _ _ _ _ _ _ _ (by decide) (by decide) ca.vr cb.vr
  obtain ⟨w1, w2⟩ := signed_agree _ _ _ _ _ _ _ _ _ (by decide) (by decide) ca.hd cb.hd
  refine ⟨agree_of a b la lb [(1, 5), (6, 8), (9, 9), (10, 10), (11, 13), (14, 14), (15, 24), (26, 35), (36, 36), (38, 46), (50, 56)] _
    (by decide +kernel) ?_, v2, w2⟩
  simp only [List.forall_mem_cons, List.not_mem_nil, false_implies, implies_true, and_true]
  exact ⟨ca.ftc.symm.trans cb.ftc, ca.sub.symm.trans cb.sub, ca.ic.symm.trans cb.ic, ca.ifr.symm.trans cb.ifr, ca.nuc.symm.trans cb.nuc,
    a1.symm.trans b1, uscaled_agree a b _ _ _ _ (by norm_num) a2 b2, speed_agree _ _ _ _ _ _ hk a4 b4, ca.vrs.symm.trans cb.vrs, v1, w1⟩

/-- The bits of a velocity that a report does not show: reserved bits 47-48, the sign bits of a zero, and for an airspeed bit 25. -/
theorem velocity_told_apart (a b : List UInt8) (m : AirborneVelocity) (ha : readBDS09 a = .ok m) (hb : readBDS09 b = .ok m) :
    (bits a 6 8 ≤ 2 → AgreeExcept a b [37, 47, 48, 49]) ∧ AgreeExcept a b [25, 37, 47, 48, 49] ∧
    (m.verticalRate.1 ≠ 0 → bit a 37 = bit b 37) ∧ (m.heightDifference.1 ≠ 0 → bit a 49 = bit b 49) := by
  have weaken (h : AgreeExcept a b [37, 47, 48, 49]) : AgreeExcept a b [25, 37, 47, 48, 49] :=
    fun i h1 h2 h3 => h i h1 h2 (fun h => h3 (List.mem_cons_of_mem _ h))
  rcases bds09_eval a with ⟨e, hn⟩ | ⟨la, -, ea⟩
  · rw [e] at ha; cases ha
  rcases bds09_eval b with ⟨e, hn⟩ | ⟨lb, -, eb⟩
  · rw [e] at hb; cases hb
  rcases ea with ⟨hs, m', hm, hc⟩ | ⟨hs, m', hm, hc⟩ | ⟨hs, m', hm, hc⟩ | ⟨hs, m', hm, hc⟩ <;> rw [hm] at ha <;> cases ha <;>
    rcases eb with ⟨ht, n', hn, hd⟩ | ⟨ht, n', hn, hd⟩ | ⟨ht, n', hn, hd⟩ | ⟨ht, n', hn, hd⟩ <;> rw [hn] at hb <;> cases hb
  · obtain ⟨h1, h2, h3⟩ := ground_told_apart a b la lb m' 1 1023 (by decide) hc hd
    exact ⟨fun _ => h1, weaken h1, h2, h3⟩
  · obtain ⟨h1, h2, h3⟩ := ground_told_apart a b la lb m' 4 4088 (by decide) hc hd
    exact ⟨fun _ => h1, weaken h1, h2, h3⟩
  · obtain ⟨h1, h2, h3⟩ := air_told_apart a b la lb m' 1 1023 (by decide) hc hd
    exact ⟨fun h => by omega, h1, h2, h3⟩
  · obtain ⟨h1, h2, h3⟩ := air_told_apart a b la lb m' 4 4088 (by decide) hc hd
    exact ⟨fun h => by omega, h1, h2, h3⟩

theorem category_agree (f f' c c' : Nat) (hf : UInt8.ofNat f = UInt8.ofNat f') (lf : f < 32) (lf' : f' < 32) (lc : c < 8) (lc' : c' < 8)
    (h : specCategory f c = specCategory f' c') : f = f' ∧ c = c' := by
  have e : f = f' := by
    have := congrArg UInt8.toNat hf
    rw [UInt8.toNat_ofNat', UInt8.toNat_ofNat'] at this
    omega
  subst e
  refine ⟨rfl, ?_⟩
  have key (h : UInt8.ofNat c = UInt8.ofNat c') : c = c' := by
    have := congrArg UInt8.toNat h
    rw [UInt8.toNat_ofNat', UInt8.toNat_ofNat'] at this
    omega
  unfold specCategory at h
  split at h <;> exact key (by injection h)

theorem identification_told_apart (a b : List UInt8) (m : IdentificationAndCategory) (ha : readBDS08 a = .ok m) (hb : readBDS08 b = .ok m)
    (hv : 0x23 ∉ m.identification) : a = b := by
  rw [bds08_eval] at ha hb
  split at ha
  swap; · cases ha
  split at hb
  swap; · cases hb
  rename_i ga gb
  have ea := Except.ok.inj ha
  have eb := Except.ok.inj hb
  have e := ea.trans eb.symm
  have e := IdentificationAndCategory.mk.inj e
  have ka := (chars_hash a).1 (by rw [Bool.eq_false_iff, ne_eq, List.contains_iff_mem]; intro h; rw [← ea] at hv; exact hv h)
  have kb := (chars_hash b).1 (by rw [Bool.eq_false_iff, ne_eq, List.contains_iff_mem]; intro h; rw [← eb] at hv; exact hv h)
  obtain ⟨la, -⟩ := ga
  obtain ⟨lb, -⟩ := gb
  obtain ⟨f1, f2⟩ := category_agree _ _ _ _ e.1 (bits_lt a 1 5 5 rfl) (bits_lt b 1 5 5 rfl) (bits_lt a 6 8 3 rfl) (bits_lt b 6 8 3 rfl) e.2.1
  have e := ident_agree a b ka kb e.2.2
  refine eq_of_agree a b la lb (agree_of a b la lb [(1, 5), (6, 8), (9, 14), (15, 20), (21, 26), (27, 32), (33, 38), (39, 44), (45, 50), (51, 56)]
    [] (by decide +kernel) ?_)
  simp only [List.forall_mem_cons, List.not_mem_nil, false_implies, implies_true, and_true]
  exact ⟨f1, f2, e 0 (by decide), e 1 (by decide), e 2 (by decide), e 3 (by decide), e 4 (by decide), e 5 (by decide), e 6 (by decide), e 7 (by decide)⟩

theorem operationalV0_told_apart (a b : List UInt8) (m : OpStatusV0) (ha : readBDS65 a = .ok (.v0 m)) (hb : readBDS65 b = .ok (.v0 m)) : a = b := by
  have la := ((operational_status_accepts a).1.1 ⟨_, ha⟩).1
  have lb := ((operational_status_accepts b).1.1 ⟨_, hb⟩).1
  obtain ⟨z, va, -, xa⟩ := operational_status_content a _ ha
  obtain ⟨y, vb, -, xb⟩ := operational_status_content b _ hb
  rw [va] at z
  rw [vb] at y
  refine eq_of_agree a b la lb (agree_of a b la lb
    [(1, 5), (6, 8), (9, 12), (25, 28), (13, 16), (29, 32), (17, 20), (33, 36), (21, 24), (37, 40), (41, 56)]
    [] (by decide +kernel) ?_)
  simp only [List.forall_mem_cons, List.not_mem_nil, false_implies, implies_true, and_true]
  exact ⟨xa.formatTypeCode.symm.trans xb.formatTypeCode,
    xa.subtype.symm.trans xb.subtype,
    xa.enRouteOperationalCapabilities.symm.trans xb.enRouteOperationalCapabilities,
    xa.enRouteOperationalCapabilityStatus.symm.trans xb.enRouteOperationalCapabilityStatus,
    xa.terminalAreaOperationalCapabilities.symm.trans xb.terminalAreaOperationalCapabilities,
    xa.terminalAreaOperationalCapabilityStatus.symm.trans xb.terminalAreaOperationalCapabilityStatus,
    xa.approachLandingOperationalCapabilities.symm.trans xb.approachLandingOperationalCapabilities,
    xa.approachLandingOperationalCapabilityStatus.symm.trans xb.approachLandingOperationalCapabilityStatus,
    xa.surfaceOperationalCapabilities.symm.trans xb.surfaceOperationalCapabilities,
    xa.surfaceOperationalCapabilityStatus.symm.trans xb.surfaceOperationalCapabilityStatus,
    z.trans y.symm⟩

theorem operationalAirborneV1_told_apart (a b : List UInt8) (m : OpStatusAirborneV1) (ha : readBDS65 a = .ok (.airborneV1 m)) (hb : readBDS65 b = .ok (.airborneV1 m)) : AgreeExcept a b [19, 20, 21, 22, 23, 24, 30, 31, 32, 33, 34, 35, 36, 37, 38, 39, 40] := by
  have la := ((operational_status_accepts a).1.1 ⟨_, ha⟩).1
  have lb := ((operational_status_accepts b).1.1 ⟨_, hb⟩).1
  obtain ⟨z, va, -, xa⟩ := operational_status_content a _ ha
  obtain ⟨y, vb, -, xb⟩ := operational_status_content b _ hb
  rw [va] at z
  rw [vb] at y
  refine agree_of a b la lb
    [(1, 5), (6, 8), (11, 11), (12, 12), (15, 15), (16, 16), (17, 18), (27, 27), (28, 28), (29, 29), (41, 43), (44, 44), (45, 48), (51, 52), (53, 53), (54, 54), (9, 10), (13, 14), (25, 26), (49, 50), (55, 56)]
    [19, 20, 21, 22, 23, 24, 30, 31, 32, 33, 34, 35, 36, 37, 38, 39, 40] (by decide +kernel) ?_
  simp only [List.forall_mem_cons, List.not_mem_nil, false_implies, implies_true, and_true]
  exact ⟨xa.formatTypeCode.symm.trans xb.formatTypeCode,
    xa.subtype.symm.trans xb.subtype,
    xa.airborneCapabilityClass_notACASStatus.symm.trans xb.airborneCapabilityClass_notACASStatus,
    xa.airborneCapabilityClass_cockpitDisplayOfTrafficInformationStatus.symm.trans xb.airborneCapabilityClass_cockpitDisplayOfTrafficInformationStatus,
    xa.airborneCapabilityClass_airReferencedVelocityReportCapability.symm.trans xb.airborneCapabilityClass_airReferencedVelocityReportCapability,
    xa.airborneCapabilityClass_targetStateReportCapability.symm.trans xb.airborneCapabilityClass_targetStateReportCapability,
    xa.airborneCapabilityClass_targetChangeReportCapability.symm.trans xb.airborneCapabilityClass_targetChangeReportCapability,
    xa.operationalMode_acasRAActive.symm.trans xb.operationalMode_acasRAActive,
    xa.operationalMode_identSwitchActive.symm.trans xb.operationalMode_identSwitchActive,
    xa.operationalMode_receivingATCServices.symm.trans xb.operationalMode_receivingATCServices,
    xa.versionNumber.symm.trans xb.versionNumber,
    xa.nicSupplement.symm.trans xb.nicSupplement,
    xa.navigationalAccuracyCategoryPosition.symm.trans xb.navigationalAccuracyCategoryPosition,
    xa.surveillanceIntegrityLevel.symm.trans xb.surveillanceIntegrityLevel,
    xa.nicBaro.symm.trans xb.nicBaro,
    xa.horizontalReferenceDirection.symm.trans xb.horizontalReferenceDirection,
    z.1.trans y.1.symm,
    z.2.1.trans y.2.1.symm,
    z.2.2.1.trans y.2.2.1.symm,
    z.2.2.2.1.trans y.2.2.2.1.symm,
    z.2.2.2.2.trans y.2.2.2.2.symm⟩

theorem operationalAirborneV2_told_apart (a b : List UInt8) (m : OpStatusAirborneV2) (ha : readBDS65 a = .ok (.airborneV2 m)) (hb : readBDS65 b = .ok (.airborneV2 m)) : AgreeExcept a b [13, 14, 20, 21, 22, 23, 24, 29, 33, 34, 35, 36, 37, 38, 39, 40] := by
  have la := ((operational_status_accepts a).1.1 ⟨_, ha⟩).1
  have lb := ((operational_status_accepts b).1.1 ⟨_, hb⟩).1
  obtain ⟨z, va, -, xa⟩ := operational_status_content a _ ha
  obtain ⟨y, vb, -, xb⟩ := operational_status_content b _ hb
  rw [va] at z
  rw [vb] at y
  refine agree_of a b la lb
    [(1, 5), (6, 8), (11, 11), (12, 12), (15, 15), (16, 16), (17, 18), (19, 19), (27, 27), (28, 28), (30, 30), (31, 32), (41, 43), (44, 44), (45, 48), (49, 50), (51, 52), (53, 53), (54, 54), (55, 55), (9, 10), (25, 26), (56, 56)]
    [13, 14, 20, 21, 22, 23, 24, 29, 33, 34, 35, 36, 37, 38, 39, 40] (by decide +kernel) ?_
  simp only [List.forall_mem_cons, List.not_mem_nil, false_implies, implies_true, and_true]
  exact ⟨xa.formatTypeCode.symm.trans xb.formatTypeCode,
    xa.subtype.symm.trans xb.subtype,
    xa.airborneCapabilityClass_acasOperational.symm.trans xb.airborneCapabilityClass_acasOperational,
    xa.airborneCapabilityClass_extendedSquitterIn.symm.trans xb.airborneCapabilityClass_extendedSquitterIn,
    xa.airborneCapabilityClass_airReferencedVelocityReportCapability.symm.trans xb.airborneCapabilityClass_airReferencedVelocityReportCapability,
    xa.airborneCapabilityClass_targetStateReportCapability.symm.trans xb.airborneCapabilityClass_targetStateReportCapability,
    xa.airborneCapabilityClass_targetChangeReportCapability.symm.trans xb.airborneCapabilityClass_targetChangeReportCapability,
    xa.airborneCapabilityClass_uatCapability.symm.trans xb.airborneCapabilityClass_uatCapability,
    xa.operationalMode_acasRAActive.symm.trans xb.operationalMode_acasRAActive,
    xa.operationalMode_identSwitchActive.symm.trans xb.operationalMode_identSwitchActive,
    xa.operationalMode_singleAntennaFlag.symm.trans xb.operationalMode_singleAntennaFlag,
    xa.operationalMode_systemDesignAssurance.symm.trans xb.operationalMode_systemDesignAssurance,
    xa.versionNumber.symm.trans xb.versionNumber,
    xa.nicSupplementA.symm.trans xb.nicSupplementA,
    xa.navigationalAccuracyCategoryPosition.symm.trans xb.navigationalAccuracyCategoryPosition,
    xa.geometricVerticalAccuracy.symm.trans xb.geometricVerticalAccuracy,
    xa.sourceIntegrityLevel.symm.trans xb.sourceIntegrityLevel,
    xa.nicBaro.symm.trans xb.nicBaro,
    xa.horizontalReferenceDirection.symm.trans xb.horizontalReferenceDirection,
    xa.sourceIntegrityLevelSupplement.symm.trans xb.sourceIntegrityLevelSupplement,
    z.1.trans y.1.symm,
    z.2.1.trans y.2.1.symm,
    z.2.2.trans y.2.2.symm⟩

theorem operationalSurfaceV1_told_apart (a b : List UInt8) (m : OpStatusSurfaceV1) (ha : readBDS65 a = .ok (.surfaceV1 m)) (hb : readBDS65 b = .ok (.surfaceV1 m)) : AgreeExcept a b [16, 17, 18, 19, 20, 30, 31, 32, 33, 34, 35, 36, 37, 38, 39, 40] := by
  have la := ((operational_status_accepts a).1.1 ⟨_, ha⟩).1
  have lb := ((operational_status_accepts b).1.1 ⟨_, hb⟩).1
  obtain ⟨z, va, -, xa⟩ := operational_status_content a _ ha
  obtain ⟨y, vb, -, xb⟩ := operational_status_content b _ hb
  rw [va] at z
  rw [vb] at y
  refine agree_of a b la lb
    [(1, 5), (6, 8), (11, 11), (12, 12), (15, 15), (21, 24), (27, 27), (28, 28), (29, 29), (41, 43), (44, 44), (45, 48), (51, 52), (53, 53), (54, 54), (9, 10), (13, 14), (25, 26), (49, 50), (55, 56)]
    [16, 17, 18, 19, 20, 30, 31, 32, 33, 34, 35, 36, 37, 38, 39, 40] (by decide +kernel) ?_
  simp only [List.forall_mem_cons, List.not_mem_nil, false_implies, implies_true, and_true]
  exact ⟨xa.formatTypeCode.symm.trans xb.formatTypeCode,
    xa.subtype.symm.trans xb.subtype,
    xa.surfaceCapabilityClass_positionOffsetApplied.symm.trans xb.surfaceCapabilityClass_positionOffsetApplied,
    xa.surfaceCapabilityClass_cockpitDisplayOfTrafficInformationStatus.symm.trans xb.surfaceCapabilityClass_cockpitDisplayOfTrafficInformationStatus,
    xa.surfaceCapabilityClass_b2Low.symm.trans xb.surfaceCapabilityClass_b2Low,
    xa.lengthAndWidth.symm.trans xb.lengthAndWidth,
    xa.operationalMode_acasRAActive.symm.trans xb.operationalMode_acasRAActive,
    xa.operationalMode_identSwitchActive.symm.trans xb.operationalMode_identSwitchActive,
    xa.operationalMode_receivingATCServices.symm.trans xb.operationalMode_receivingATCServices,
    xa.versionNumber.symm.trans xb.versionNumber,
    xa.nicSupplement.symm.trans xb.nicSupplement,
    xa.navigationalAccuracyCategoryPosition.symm.trans xb.navigationalAccuracyCategoryPosition,
    xa.surveillanceIntegrityLevel.symm.trans xb.surveillanceIntegrityLevel,
    xa.trackAngleHeading.symm.trans xb.trackAngleHeading,
    xa.horizontalReferenceDirection.symm.trans xb.horizontalReferenceDirection,
    z.1.trans y.1.symm,
    z.2.1.trans y.2.1.symm,
    z.2.2.1.trans y.2.2.1.symm,
    z.2.2.2.1.trans y.2.2.2.1.symm,
    z.2.2.2.2.trans y.2.2.2.2.symm⟩

theorem operationalSurfaceV2_told_apart (a b : List UInt8) (m : OpStatusSurfaceV2) (ha : readBDS65 a = .ok (.surfaceV2 m)) (hb : readBDS65 b = .ok (.surfaceV2 m)) : AgreeExcept a b [11, 13, 14, 29, 49, 50] := by
  have la := ((operational_status_accepts a).1.1 ⟨_, ha⟩).1
  have lb := ((operational_status_accepts b).1.1 ⟨_, hb⟩).1
  obtain ⟨z, va, -, xa⟩ := operational_status_content a _ ha
  obtain ⟨y, vb, -, xb⟩ := operational_status_content b _ hb
  rw [va] at z
  rw [vb] at y
  refine agree_of a b la lb
    [(1, 5), (6, 8), (12, 12), (15, 15), (16, 16), (17, 19), (20, 20), (21, 24), (27, 27), (28, 28), (30, 30), (31, 32), (33, 35), (36, 40), (41, 43), (44, 44), (45, 48), (51, 52), (53, 53), (54, 54), (55, 55), (9, 10), (25, 26), (56, 56)]
    [11, 13, 14, 29, 49, 50] (by decide +kernel) ?_
  simp only [List.forall_mem_cons, List.not_mem_nil, false_implies, implies_true, and_true]
  exact ⟨xa.formatTypeCode.symm.trans xb.formatTypeCode,
    xa.subtype.symm.trans xb.subtype,
    xa.surfaceCapabilityClass_extendedSquitterIn.symm.trans xb.surfaceCapabilityClass_extendedSquitterIn,
    xa.surfaceCapabilityClass_b2Low.symm.trans xb.surfaceCapabilityClass_b2Low,
    xa.surfaceCapabilityClass_uatCapability.symm.trans xb.surfaceCapabilityClass_uatCapability,
    xa.surfaceCapabilityClass_navigationAccuracyCategoryVelocity.symm.trans xb.surfaceCapabilityClass_navigationAccuracyCategoryVelocity,
    xa.surfaceCapabilityClass_nicSupplementC.symm.trans xb.surfaceCapabilityClass_nicSupplementC,
    xa.lengthAndWidth.symm.trans xb.lengthAndWidth,
    xa.operationalMode_acasRAActive.symm.trans xb.operationalMode_acasRAActive,
    xa.operationalMode_identSwitchActive.symm.trans xb.operationalMode_identSwitchActive,
    xa.operationalMode_singleAntennaFlag.symm.trans xb.operationalMode_singleAntennaFlag,
    xa.operationalMode_systemDesignAssurance.symm.trans xb.operationalMode_systemDesignAssurance,
    xa.operationalMode_gpsAntennaLateral.symm.trans xb.operationalMode_gpsAntennaLateral,
    xa.operationalMode_gpsAntennaLongitudinal.symm.trans xb.operationalMode_gpsAntennaLongitudinal,
    xa.versionNumber.symm.trans xb.versionNumber,
    xa.nicSupplementA.symm.trans xb.nicSupplementA,
    xa.navigationalAccuracyCategoryPosition.symm.trans xb.navigationalAccuracyCategoryPosition,
    xa.sourceIntegrityLevel.symm.trans xb.sourceIntegrityLevel,
    xa.trackAngleHeading.symm.trans xb.trackAngleHeading,
    xa.horizontalReferenceDirection.symm.trans xb.horizontalReferenceDirection,
    xa.sourceIntegrityLevelSupplement.symm.trans xb.sourceIntegrityLevelSupplement,
    z.1.trans y.1.symm,
    z.2.1.trans y.2.1.symm,
    z.2.2.trans y.2.2.symm⟩

theorem selectedAltitude_agree (u v value : Nat) (s : NumericValueStatus) (hu : SelectedAltitudeCoding u value s)
    (hv : SelectedAltitudeCoding v value s) : u = v := by
  rcases hu with ⟨a1, a2, a3⟩ | ⟨a1, a2, a3⟩ <;> rcases hv with ⟨b1, b2, b3⟩ | ⟨b1, b2, b3⟩ <;> first | omega | (rw [a2] at b2; cases b2)

theorem barometric_agree (u v : Nat) (value : ℚ) (s : NumericValueStatus) (hu : BarometricCoding u value s) (hv : BarometricCoding v value s)
    (hu' : u < 512) (hv' : v < 512) : u = v := by
  rcases BarometricCoding_near hu hu' with ⟨a1, a2, a3⟩ | ⟨a1, a2, a3⟩ <;> rcases BarometricCoding_near hv hv' with ⟨b1, b2, b3⟩ | ⟨b1, b2, b3⟩
  · omega
  · rw [a2] at b2; cases b2
  · rw [a2] at b2; cases b2
  · refine near_agree u v value (800 - 8 / 10) (8 / 10) (1 / 4096) (by norm_num) ?_ ?_
    · rw [show (800 - 8 / 10 + (u : ℚ) * (8 / 10)) = 800 + 8 / 10 * ((u : ℚ) - 1) by ring]; exact a3
    · rw [show (800 - 8 / 10 + (v : ℚ) * (8 / 10)) = 800 + 8 / 10 * ((v : ℚ) - 1) by ring]; exact b3

theorem signedHeading_agree (n n' : Bool) (u v : Nat) (value : ℚ) (hu : value = (if n then -(u : ℚ) else u) * (180 / 256))
    (hv : value = (if n' then -(v : ℚ) else v) * (180 / 256)) : u = v ∧ (value ≠ 0 → n = n') := by
  have e : (if n then -(u : ℚ) else u) = (if n' then -(v : ℚ) else v) := mul_right_cancel₀ (by norm_num) (hu.symm.trans hv)
  have hu0 : (0 : ℚ) ≤ u := by positivity
  have hv0 : (0 : ℚ) ≤ v := by positivity
  cases n <;> cases n' <;> simp only [Bool.false_eq_true, if_false, if_true] at e
  · exact ⟨by exact_mod_cast e, fun _ => rfl⟩
  · have h1 : (u : ℚ) = 0 := by linarith
    have h2 : (v : ℚ) = 0 := by linarith
    refine ⟨by exact_mod_cast h1.trans h2.symm, fun h => absurd ?_ h⟩
    rw [hu, h1]; simp
  · have h1 : (u : ℚ) = 0 := by linarith
    have h2 : (v : ℚ) = 0 := by linarith
    refine ⟨by exact_mod_cast h1.trans h2.symm, fun h => absurd ?_ h⟩
    rw [hu, h1]; simp
  · exact ⟨by exact_mod_cast neg_inj.1 e, fun _ => rfl⟩

theorem target1_told_apart (a b : List UInt8) (m : TargetStateAndStatus1) (ha : readBDS62 a = .ok (.type1 m)) (hb : readBDS62 b = .ok (.type1 m)) :
    AgreeExcept a b [9, 51, 55, 56] := by
  have la : a.length = 7 := by
    rcases bds62_eval a with ⟨e, -⟩ | ⟨h, -⟩
    · rw [e] at ha; cases ha
    · exact h
  have lb : b.length = 7 := by
    rcases bds62_eval b with ⟨e, -⟩ | ⟨h, -⟩
    · rw [e] at hb; cases hb
    · exact h
  obtain ⟨-, xa⟩ := target_state_content a _ ha
  obtain ⟨-, xb⟩ := target_state_content b _ hb
  obtain ⟨h1, -⟩ := signedHeading_agree _ _ _ _ _ xa.selectedHeading xb.selectedHeading
  refine agree_of a b la lb [(1, 5), (6, 7), (8, 8), (10, 20), (21, 29), (30, 30), (31, 31), (32, 39), (40, 43), (44, 44), (45, 46), (47, 47), (48, 48), (49, 49),
    (50, 50), (52, 52), (53, 53), (54, 54)] _ (by decide +kernel) ?_
  simp only [List.forall_mem_cons, List.not_mem_nil, false_implies, implies_true, and_true]
  exact ⟨xa.formatTypeCode.symm.trans xb.formatTypeCode, xa.subtype.symm.trans xb.subtype,
    xa.sourceIntegrityLevelSupplement.symm.trans xb.sourceIntegrityLevelSupplement, selectedAltitude_agree _ _ _ _ xa.selectedAltitude xb.selectedAltitude,
    barometric_agree _ _ _ _ xa.barometric xb.barometric (bits_lt a 21 29 9 rfl) (bits_lt b 21 29 9 rfl), xa.selectedHeadingStatus.symm.trans xb.selectedHeadingStatus,
    bit_agree a b _ (xa.selectedHeadingMinus.symm.trans xb.selectedHeadingMinus), h1,
    xa.navigationalAccuracyCategoryPosition.symm.trans xb.navigationalAccuracyCategoryPosition, xa.nicBaro.symm.trans xb.nicBaro,
    xa.sourceIntegrityLevel.symm.trans xb.sourceIntegrityLevel, xa.statusMCPFCUBits.symm.trans xb.statusMCPFCUBits,
    bit_agree a b _ (xa.autopilotEngaged.symm.trans xb.autopilotEngaged), bit_agree a b _ (xa.vnavModeEngaged.symm.trans xb.vnavModeEngaged),
    bit_agree a b _ (xa.altitudeHoldModeEngaged.symm.trans xb.altitudeHoldModeEngaged), bit_agree a b _ (xa.approachModeEngaged.symm.trans xb.approachModeEngaged),
    bit_agree a b _ (xa.tcasACASOperational.symm.trans xb.tcasACASOperational), bit_agree a b _ (xa.lnavModeEngaged.symm.trans xb.lnavModeEngaged)⟩

theorem target0_told_apart (a b : List UInt8) (m : TargetStateAndStatus0) (ha : readBDS62 a = .ok (.type0 m)) (hb : readBDS62 b = .ok (.type0 m))
    (hr : m.targetAltitudeStatus = .regular) (hh : m.targetHeadingTrackAngleStatus = .regular) :
    AgreeExcept a b [11, 33, 34, 35, 36] := by
  have la : a.length = 7 := by
    rcases bds62_eval a with ⟨e, -⟩ | ⟨h, -⟩
    · rw [e] at ha; cases ha
    · exact h
  have lb : b.length = 7 := by
    rcases bds62_eval b with ⟨e, -⟩ | ⟨h, -⟩
    · rw [e] at hb; cases hb
    · exact h
  obtain ⟨-, za, xa⟩ := target_state_content a _ ha
  obtain ⟨-, zb, xb⟩ := target_state_content b _ hb
  have h1 : bits a 16 25 = bits b 16 25 := by
    rcases xa.targetAltitude with ⟨-, h, -⟩ | ⟨-, -, h⟩
    · rw [hr] at h; cases h
    rcases xb.targetAltitude with ⟨-, h', -⟩ | ⟨-, -, h'⟩
    · rw [hr] at h'; cases h'
    omega
  have h2 : bits a 28 32 = bits b 28 32 := by
    have l1 := bits_lt a 17 20 4 rfl
    have l2 := bits_lt b 17 20 4 rfl
    rcases xa.targetHeading with ⟨-, h, -⟩ | ⟨-, -, h⟩
    · rw [hh] at h; cases h
    rcases xb.targetHeading with ⟨-, h', -⟩ | ⟨-, -, h'⟩
    · rw [hh] at h'; cases h'
    omega
  refine agree_of a b la lb [(1, 5), (6, 7), (8, 9), (10, 10), (12, 13), (14, 15), (16, 25), (26, 27), (28, 32), (37, 37), (38, 39), (40, 43), (44, 44),
    (45, 46), (47, 51), (52, 53), (54, 56)] _ (by decide +kernel) ?_
  simp only [List.forall_mem_cons, List.not_mem_nil, false_implies, implies_true, and_true]
  exact ⟨xa.formatTypeCode.symm.trans xb.formatTypeCode, xa.subtype.symm.trans xb.subtype,
    xa.verticalDataAvailableSourceIndicator.symm.trans xb.verticalDataAvailableSourceIndicator, xa.targetAltitudeType.symm.trans xb.targetAltitudeType,
    xa.targetAltitudeCapability.symm.trans xb.targetAltitudeCapability, xa.verticalModeIndicator.symm.trans xb.verticalModeIndicator, h1,
    xa.horizontalDataAvailableSourceIndicator.symm.trans xb.horizontalDataAvailableSourceIndicator, h2,
    xa.targetHeadingTrackIndicator.symm.trans xb.targetHeadingTrackIndicator, xa.horizontalModeIndicator.symm.trans xb.horizontalModeIndicator,
    xa.navigationalAccuracyCategoryPosition.symm.trans xb.navigationalAccuracyCategoryPosition, xa.nicBaro.symm.trans xb.nicBaro,
    xa.surveillanceIntegrityLevel.symm.trans xb.surveillanceIntegrityLevel, za.trans zb.symm,
    xa.capabilityModeCode.symm.trans xb.capabilityModeCode, xa.emergencyPriorityStatus.symm.trans xb.emergencyPriorityStatus⟩

theorem status_told_apart (a b : List UInt8) (m : AircraftStatus) (ha : readBDS61 a = .ok m) (hb : readBDS61 b = .ok m) :
    match m with
    | .noInformation _ => ∀ i, 1 ≤ i → i ≤ 16 → bit a i = bit b i
    | .emergency _ => a = b
    | .acas r => r.resolutionAdvisory.activeRA ≠ .none → r.resolutionAdvisory.threatTypeIndicator = 1 →
        AgreeExcept a b [16, 17, 18, 19, 20, 21, 22, 55, 56] := by
  rcases bds61_eval a with ⟨e, -⟩ | ⟨la, fa, ea⟩
  · rw [e] at ha; cases ha
  rcases bds61_eval b with ⟨e, -⟩ | ⟨lb, fb, eb⟩
  · rw [e] at hb; cases hb
  rcases ea with ⟨sa, ra, m', hm, -, -, ca⟩ | ⟨sa, ra, m', hm, -, -, ca⟩ | ⟨sa, m', hm, -, -, ca⟩ <;> rw [hm] at ha <;> cases ha <;>
    rcases eb with ⟨sb, rb, n', hn, -, -, cb⟩ | ⟨sb, rb, n', hn, -, -, cb⟩ | ⟨sb, n', hn, -, -, cb⟩ <;> rw [hn] at hb <;> cases hb
  · intro i h1 h16
    refine agree_of a b la lb [(1, 5), (6, 8), (9, 11), (12, 16)] ((List.range 40).map (· + 17)) (by decide +kernel) ?_ i h1 (by omega) (by simp; omega)
    simp only [List.forall_mem_cons, List.not_mem_nil, false_implies, implies_true, and_true]
    exact ⟨fa.trans fb.symm, sa.trans sb.symm, ca.symm.trans cb, ra.trans rb.symm⟩
  · refine eq_of_agree a b la lb (agree_of a b la lb [(1, 5), (6, 8), (9, 11), (12, 24), (25, 56)] [] (by decide +kernel) ?_)
    simp only [List.forall_mem_cons, List.not_mem_nil, false_implies, implies_true, and_true]
    exact ⟨fa.trans fb.symm, sa.trans sb.symm, ca.1.symm.trans cb.1, ca.2.symm.trans cb.2, ra.trans rb.symm⟩
  · intro hm h1
    exact agree_of a b la lb ((1, 5) :: (6, 8) :: [(9, 9), (10, 10), (11, 11), (12, 12), (13, 13), (14, 14), (15, 15), (23, 23), (24, 24), (25, 25), (26, 26),
      (27, 27), (28, 28), (29, 30), (31, 54)]) _ (by decide +kernel)
      (List.forall_mem_cons.2 ⟨fa.trans fb.symm, List.forall_mem_cons.2 ⟨sa.trans sb.symm, ra_drop_agree a b la lb _ ca cb hm h1⟩⟩)

theorem adsb_length (v : UInt8) (s t : Bool) (d : List UInt8) (m : ADSBMessage) (h : readADSBMessage v s t d = .returns (.val m) false) :
    d.length = 7 := by
  by_contra h7
  rw [adsb_unsupported v s t d (.inl h7)] at h
  cases h

/-- C96. Two ADS-B fields reported as the same message are the same field, but for the bits named here. Missing: those that carry
information (`adsb_told_apart_refuted`), and where the report says that a value is unavailable or out of its range, the code of that value. -/
theorem adsb_told_apart_partial (v : UInt8) (s t : Bool) (a b : List UInt8) (m : ADSBMessage)
    (ha : readADSBMessage v s t a = .returns (.val m) false) (hb : readADSBMessage v s t b = .returns (.val m) false) :
    match (generalizing := false) m with
    | .noPosition _ _ _ _ => bit a 16 = bit b 16 → AgreeExcept a b [6, 7, 8]
    | .airborneType0 _ _ _ => AgreeExcept a b [6, 7, 8]
    | .airborneV0 _ _ _ | .airborneV1 _ _ _ _ | .airborneV2 _ _ _ _ _ => a = b
    | .surfaceV0 _ _ _ | .surfaceV1 _ _ _ _ | .surfaceV2 _ _ _ _ _ => a = b
    | .velocity m _ => (bits a 6 8 ≤ 2 → AgreeExcept a b [37, 47, 48, 49]) ∧ AgreeExcept a b [25, 37, 47, 48, 49] ∧
        (m.verticalRate.1 ≠ 0 → bit a 37 = bit b 37) ∧ (m.heightDifference.1 ≠ 0 → bit a 49 = bit b 49)
    | .identification m _ => 0x23 ∉ m.identification → a = b
    | .status (.noInformation _) _ => ∀ i, 1 ≤ i → i ≤ 16 → bit a i = bit b i
    | .status (.emergency _) _ => a = b
    | .status (.acas r) _ => r.resolutionAdvisory.activeRA ≠ .none → r.resolutionAdvisory.threatTypeIndicator = 1 →
        AgreeExcept a b [16, 17, 18, 19, 20, 21, 22, 55, 56]
    | .targetState (.type0 m) _ => m.targetAltitudeStatus = .regular → m.targetHeadingTrackAngleStatus = .regular →
        AgreeExcept a b [11, 33, 34, 35, 36]
    | .targetState (.type1 _) _ => AgreeExcept a b [9, 51, 55, 56]
    | .operationalStatus (.v0 _) _ => a = b
    | .operationalStatus (.airborneV1 _) _ => AgreeExcept a b [19, 20, 21, 22, 23, 24, 30, 31, 32, 33, 34, 35, 36, 37, 38, 39, 40]
    | .operationalStatus (.airborneV2 _) _ => AgreeExcept a b [13, 14, 20, 21, 22, 23, 24, 29, 33, 34, 35, 36, 37, 38, 39, 40]
    | .operationalStatus (.surfaceV1 _) _ => AgreeExcept a b [16, 17, 18, 19, 20, 30, 31, 32, 33, 34, 35, 36, 37, 38, 39, 40]
    | .operationalStatus (.surfaceV2 _) _ => AgreeExcept a b [11, 13, 14, 29, 49, 50] := by
  have la := adsb_length v s t a m ha
  have lb := adsb_length v s t b m hb
  obtain ⟨-, ca⟩ := adsb_dispatch v s t a m false ha
  obtain ⟨-, cb⟩ := adsb_dispatch v s t b m false hb
  cases m with
  | noPosition x f alt nic =>
    intro hq
    obtain ⟨f1, p1, -, -, -, m1, k1⟩ := ca
    obtain ⟨f2, p2, -, -, -, m2, k2⟩ := cb
    have q1 := bits_testBit a la 9 20 16 (by decide) (by decide) (by decide)
    have q2 := bits_testBit b lb 9 20 16 (by decide) (by decide) (by decide)
    have hmm : m1 = m2 := by
      rcases k1 with ⟨x1, y1, -⟩ | ⟨x1, y1, -⟩ <;> rcases k2 with ⟨x2, y2, -⟩ | ⟨x2, y2, -⟩ <;> first
        | omega
        | (rw [hq, q2] at q1; rw [show 20 - 16 = 4 from rfl, x1, x2] at q1; cases q1)
    subst hmm
    refine agree_of a b la lb [(1, 5), (9, 20), (21, 56)] _ (by decide +kernel) ?_
    simp only [List.forall_mem_cons, List.not_mem_nil, false_implies, implies_true, and_true]
    exact ⟨f1.trans f2.symm, ac12_agree _ _ _ _ (bits_lt a 9 20 12 rfl) (bits_lt b 9 20 12 rfl) k1 k2, p1.trans p2.symm⟩
  | airborneType0 p nic x =>
    obtain ⟨f1, -, -, -, -, k1, -, -, -, t1, c1, y1, z1⟩ := ca
    obtain ⟨f2, -, -, -, -, k2, -, -, -, t2, c2, y2, z2⟩ := cb
    refine agree_of a b la lb [(1, 5), (9, 20), (21, 21), (22, 22), (23, 39), (40, 56)] _ (by decide +kernel) ?_
    simp only [List.forall_mem_cons, List.not_mem_nil, false_implies, implies_true, and_true]
    exact ⟨f1.trans f2.symm, ac12_agree _ _ _ _ (bits_lt a 9 20 12 rfl) (bits_lt b 9 20 12 rfl) k1 k2, t1.symm.trans t2, c1.symm.trans c2,
      y1.symm.trans y2, z1.symm.trans z2⟩
  | airborneV0 p => exact airborne_told_apart a b p ca.2.2.1 cb.2.2.1
  | airborneV1 p => exact airborne_told_apart a b p ca.2.2.1 cb.2.2.1
  | airborneV2 p => exact airborne_told_apart a b p ca.2.2.1 cb.2.2.1
  | surfaceV0 p => exact surface_told_apart a b p ca.2.2.1 cb.2.2.1
  | surfaceV1 p => exact surface_told_apart a b p ca.2.2.1 cb.2.2.1
  | surfaceV2 p => exact surface_told_apart a b p ca.2.2.1 cb.2.2.1
  | velocity p => exact velocity_told_apart a b p ca.2.2 cb.2.2
  | identification p => exact identification_told_apart a b p ca.2.2.2 cb.2.2.2
  | status p =>
    have k := status_told_apart a b p ca.2.2 cb.2.2
    cases p <;> exact k
  | targetState p =>
    cases p with
    | type0 p => exact target0_told_apart a b p ca.2.2 cb.2.2
    | type1 p => exact target1_told_apart a b p ca.2.2 cb.2.2
  | operationalStatus p =>
    cases p with
    | v0 p => exact operationalV0_told_apart a b p ca.2.2 cb.2.2
    | airborneV1 p => exact operationalAirborneV1_told_apart a b p ca.2.2 cb.2.2
    | airborneV2 p => exact operationalAirborneV2_told_apart a b p ca.2.2 cb.2.2
    | surfaceV1 p => exact operationalSurfaceV1_told_apart a b p ca.2.2 cb.2.2
    | surfaceV2 p => exact operationalSurfaceV2_told_apart a b p ca.2.2 cb.2.2

/-- C96, refuted: there are pairs of ADS-B fields reported as the same message, whatever version is assumed, that differ by what they say:
a velocity with an indicated and one with a true airspeed (bit 25), a selected altitude of the control panel and one of the flight
management system (bit 9 of target state, subtype 1), two target headings (bits 33-36 of subtype 0). -/
theorem adsb_told_apart_refuted (v : UInt8) (hv : v ≤ 2) (s t : Bool) :
    (∃ a b m, readADSBMessage v s t a = .returns (.val m) false ∧ readADSBMessage v s t b = .returns (.val m) false ∧
      bits a 1 8 = 0x9B ∧ bits b 1 8 = 0x9B ∧ bit a 25 = true ∧ bit b 25 = false) ∧
    (∃ a b m, readADSBMessage v s t a = .returns (.val m) false ∧ readADSBMessage v s t b = .returns (.val m) false ∧
      bits a 1 7 = 0x75 ∧ bits b 1 7 = 0x75 ∧ bit a 9 = true ∧ bit b 9 = false) ∧
    (∃ a b m, readADSBMessage v s t a = .returns (.val m) false ∧ readADSBMessage v s t b = .returns (.val m) false ∧
      bits a 1 7 = 0x74 ∧ bits b 1 7 = 0x74 ∧ bits a 28 36 ≠ bits b 28 36) := by
  have hv : v = 0 ∨ v = 1 ∨ v = 2 := by
    rw [UInt8.le_iff_toNat_le] at hv
    simp only [← UInt8.toNat_inj]
    simp only [UInt8.reduceToNat] at *
    omega
  refine ⟨⟨[0x9B, 0x06, 0xB6, 0xAF, 0x18, 0x94, 0x00], [0x9B, 0x06, 0xB6, 0x2F, 0x18, 0x94, 0x00], ?_⟩,
    ⟨[0xEA, 0xA1, 0x48, 0x5C, 0xBF, 0x3F, 0x8C], [0xEA, 0x21, 0x48, 0x5C, 0xBF, 0x3F, 0x8C], ?_⟩,
    ⟨[0xE8, 0x20, 0x48, 0x5C, 0xB1, 0x3C, 0x09], [0xE8, 0x20, 0x48, 0x5C, 0xC1, 0x3C, 0x09], ?_⟩⟩ <;>
  · rcases hv with rfl | rfl | rfl <;> cases s <;> cases t <;> exact ⟨_, rfl, rfl, by decide⟩

end Modes
