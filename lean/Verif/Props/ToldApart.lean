import Verif.Props.CommBRegisters
import Verif.Props.TextShowsCapability
import Verif.Props.BDS65
/-!
# C96: different transmissions are told apart
-/
set_option linter.unusedVariables false
namespace Spec

/-- Two fields of 56 bits agree on every bit, but perhaps the listed ones. -/
def AgreeExcept (a b : List UInt8) (lost : List Nat) : Prop := ∀ i, 1 ≤ i → i ≤ 56 → i ∉ lost → bit a i = bit b i

end Spec
namespace Modes
open Spec

theorem bit_testBit56 (d : List UInt8) (h7 : d.length = 7) (i : Nat) : bit d i = (beNat d).testBit (56 - i) := by
  unfold bit bits
  rw [h7, Nat.testBit_eq_decide_div_mod_eq, show i + 1 - i = 1 by omega]
  by_cases h : beNat d / 2 ^ (8 * 7 - i) % 2 ^ 1 = 1 <;> simp_all

theorem bits_testBit (d : List UInt8) (h7 : d.length = 7) (i j k : Nat) (hi : i ≤ k) (hk : k ≤ j) (hj : j ≤ 56) :
    bit d k = (bits d i j).testBit (j - k) := by
  rw [bit_testBit56 d h7]
  unfold bits
  rw [h7, Nat.testBit_mod_two_pow, Nat.testBit_div_two_pow]
  rw [show j - k + (8 * 7 - j) = 56 - k by omega]
  have : j - k < j + 1 - i := by omega
  simp [this]

theorem agree_of (a b : List UInt8) (ha : a.length = 7) (hb : b.length = 7) (ranges : List (Nat × Nat)) (lost : List Nat)
    (hc : ∀ i < 57, 1 ≤ i → i ∉ lost → ∃ p ∈ ranges, p.1 ≤ i ∧ i ≤ p.2 ∧ p.2 ≤ 56)
    (h : ∀ p ∈ ranges, bits a p.1 p.2 = bits b p.1 p.2) : AgreeExcept a b lost := by
  intro i h1 h56 hi
  obtain ⟨p, hp, p1, p2, p3⟩ := hc i (by omega) h1 hi
  rw [bits_testBit a ha p.1 p.2 i p1 p2 p3, bits_testBit b hb p.1 p.2 i p1 p2 p3, h p hp]

theorem eq_of_agree (a b : List UInt8) (ha : a.length = 7) (hb : b.length = 7) (h : AgreeExcept a b []) : a = b := by
  refine beNat_inj a b (ha.trans hb.symm) (Nat.eq_of_testBit_eq fun k => ?_)
  by_cases hk : k < 56
  · have := h (56 - k) (by omega) (by omega) (by simp)
    rw [bit_testBit56 a ha, bit_testBit56 b hb, show 56 - (56 - k) = k by omega] at this
    exact this
  · have la := beNat_lt a
    have lb := beNat_lt b
    rw [ha] at la
    rw [hb] at lb
    have : 2 ^ 56 ≤ 2 ^ k := Nat.pow_le_pow_right (by decide) (by omega)
    rw [Nat.testBit_lt_two_pow (by omega), Nat.testBit_lt_two_pow (by omega)]

theorem bit_agree (a b : List UInt8) (i : Nat) (h : bit a i = bit b i) : bits a i i = bits b i i := by
  have := bits_lt a i i 1 (by omega)
  have := bits_lt b i i 1 (by omega)
  unfold bit at h
  by_cases x : bits a i i = 1 <;> by_cases y : bits b i i = 1 <;> simp_all <;> omega

theorem sbits_agree (a b : List UInt8) (i j : Nat) (h : sbits a i j = sbits b i j) : bits a i j = bits b i j := by
  have h1 : bits a i j < 2 ^ (j + 1 - i) := bits_lt a i j _ rfl
  have h2 : bits b i j < 2 ^ (j + 1 - i) := bits_lt b i j _ rfl
  unfold sbits at h
  push_cast at h
  have e : ((2 ^ (j + 1 - i) : Nat) : Int) = 2 ^ (j + 1 - i) := by push_cast; rfl
  split at h <;> split at h <;> omega

theorem scaled_agree (a b : List UInt8) (i j : Nat) (x c : ℚ) (hc : c ≠ 0) (ha : x = sbits a i j * c) (hb : x = sbits b i j * c) :
    bits a i j = bits b i j := by
  refine sbits_agree a b i j ?_
  have : (sbits a i j : ℚ) = sbits b i j := mul_right_cancel₀ hc (ha.symm.trans hb)
  exact_mod_cast this

theorem uscaled_agree (a b : List UInt8) (i j : Nat) (x c : ℚ) (hc : c ≠ 0) (ha : x = bits a i j * c) (hb : x = bits b i j * c) :
    bits a i j = bits b i j := by
  have : (bits a i j : ℚ) = bits b i j := mul_right_cancel₀ hc (ha.symm.trans hb)
  exact_mod_cast this

theorem near_agree (m n : Nat) (x y c e : ℚ) (hc : 2 * e < c) (ha : |x - (y + m * c)| ≤ e) (hb : |x - (y + n * c)| ≤ e) :
    m = n := by
  rw [abs_le] at ha hb
  obtain ⟨a1, a2⟩ := ha
  obtain ⟨b1, b2⟩ := hb
  have he : 0 ≤ e := by linarith
  have hc0 : 0 < c := by linarith
  by_contra hne
  rcases Nat.lt_or_gt_of_ne hne with h | h
  · have : (m : ℚ) + 1 ≤ n := by exact_mod_cast h
    nlinarith
  · have : (n : ℚ) + 1 ≤ m := by exact_mod_cast h
    nlinarith

theorem bds50_told_apart (a b : List UInt8) (m : TrackAndTurnReport) (ha : readBDS50 a = .ok m) (hb : readBDS50 b = .ok m) : a = b := by
  have la := (bds50_60_accept a).1.1 ⟨m, ha⟩
  have lb := (bds50_60_accept b).1.1 ⟨m, hb⟩
  have xa := bds50_content a m ha
  have xb := bds50_content b m hb
  refine eq_of_agree a b la lb (agree_of a b la lb [(1, 1), (2, 11), (12, 12), (13, 23), (24, 24), (25, 34), (35, 35), (36, 45), (46, 46), (47, 56)]
    [] (by decide +kernel) ?_)
  simp only [List.forall_mem_cons, List.not_mem_nil, false_implies, implies_true, and_true]
  refine ⟨bit_agree a b _ (xa.rollAngleStatus.symm.trans xb.rollAngleStatus), scaled_agree a b _ _ _ _ (by norm_num) xa.rollAngle xb.rollAngle,
    bit_agree a b _ (xa.trueTrackAngleStatus.symm.trans xb.trueTrackAngleStatus), scaled_agree a b _ _ _ _ (by norm_num) xa.trueTrackAngle xb.trueTrackAngle,
    bit_agree a b _ (xa.groundSpeedStatus.symm.trans xb.groundSpeedStatus), ?_,
    bit_agree a b _ (xa.trackAngleRateStatus.symm.trans xb.trackAngleRateStatus), scaled_agree a b _ _ _ _ (by norm_num) xa.trackAngleRate xb.trackAngleRate,
    bit_agree a b _ (xa.trueAirSpeedStatus.symm.trans xb.trueAirSpeedStatus), ?_⟩
  · have := xa.groundSpeed; have := xb.groundSpeed; omega
  · have := xa.trueAirSpeed; have := xb.trueAirSpeed; omega

theorem bds60_told_apart (a b : List UInt8) (m : HeadingAndTrackReport) (ha : readBDS60 a = .ok m) (hb : readBDS60 b = .ok m) : a = b := by
  have la := (bds50_60_accept a).2.2.1.1 ⟨m, ha⟩
  have lb := (bds50_60_accept b).2.2.1.1 ⟨m, hb⟩
  have xa := bds60_content a m ha
  have xb := bds60_content b m hb
  refine eq_of_agree a b la lb (agree_of a b la lb [(1, 1), (2, 12), (13, 13), (14, 23), (24, 24), (25, 34), (35, 35), (36, 45), (46, 46), (47, 56)]
    [] (by decide +kernel) ?_)
  simp only [List.forall_mem_cons, List.not_mem_nil, false_implies, implies_true, and_true]
  refine ⟨bit_agree a b _ (xa.magneticHeadingStatus.symm.trans xb.magneticHeadingStatus),
    scaled_agree a b _ _ _ _ (by norm_num) xa.magneticHeading xb.magneticHeading,
    bit_agree a b _ (xa.indicatedAirSpeedStatus.symm.trans xb.indicatedAirSpeedStatus), xa.indicatedAirSpeed.symm.trans xb.indicatedAirSpeed,
    bit_agree a b _ (xa.machStatus.symm.trans xb.machStatus),
    near_agree _ _ m.mach 0 (4 / 1000) (1 / 2 ^ 20) (by norm_num) (by simpa using xa.mach) (by simpa using xb.mach),
    bit_agree a b _ (xa.barometricAltitudeRateStatus.symm.trans xb.barometricAltitudeRateStatus), sbits_agree a b _ _ ?_,
    bit_agree a b _ (xa.initialVerticalVelocityStatus.symm.trans xb.initialVerticalVelocityStatus), sbits_agree a b _ _ ?_⟩
  · have := xa.barometricAltitudeRate; have := xb.barometricAltitudeRate; omega
  · have := xa.initialVerticalVelocity; have := xb.initialVerticalVelocity; omega

theorem bds00_told_apart (a b : List UInt8) (m : NoMessageAvailable) (ha : readBDS00 a = .ok m) (hb : readBDS00 b = .ok m) : a = b := by
  obtain ⟨la, xa⟩ := (bds00_accepts a).1.1 ⟨m, ha⟩
  obtain ⟨lb, xb⟩ := (bds00_accepts b).1.1 ⟨m, hb⟩
  refine eq_of_agree a b la lb (agree_of a b la lb
    [(1, 56)]
    [] (by decide +kernel) ?_)
  simp only [List.forall_mem_cons, List.not_mem_nil, false_implies, implies_true, and_true]
  exact xa.trans xb.symm

theorem bds07_told_apart (a b : List UInt8) (m : Status07) (ha : readBDS07 a = .ok m) (hb : readBDS07 b = .ok m) : AgreeExcept a b [7, 8] := by
  obtain ⟨la, z1, z2⟩ := (bds07_accepts a).1.1 ⟨m, ha⟩
  obtain ⟨lb, y1, y2⟩ := (bds07_accepts b).1.1 ⟨m, hb⟩
  obtain ⟨xa, xa', -⟩ := bds07_content a m ha
  obtain ⟨xb, xb', -⟩ := bds07_content b m hb
  refine agree_of a b la lb
    [(1, 2), (3, 3), (4, 6), (9, 56)]
    [7, 8] (by decide +kernel) ?_
  simp only [List.forall_mem_cons, List.not_mem_nil, false_implies, implies_true, and_true]
  exact ⟨xa.symm.trans xb,
    xa'.symm.trans xb',
    z1.trans y1.symm,
    z2.trans y2.symm⟩

theorem bds10_told_apart (a b : List UInt8) (m : DataLinkCapabilityReport) (ha : readBDS10 a = .ok m) (hb : readBDS10 b = .ok m) : AgreeExcept a b [35] := by
  obtain ⟨la, z1, z2⟩ := (bds10_accepts a).1.1 ⟨m, ha⟩
  obtain ⟨lb, y1, y2⟩ := (bds10_accepts b).1.1 ⟨m, hb⟩
  have xa : DataLinkCapabilityReport.Layout a m := (bds10_content_partial a m ha)
  have xb : DataLinkCapabilityReport.Layout b m := (bds10_content_partial b m hb)
  refine agree_of a b la lb
    [(9, 9), (15, 15), (16, 16), (17, 23), (24, 24), (25, 25), (26, 28), (29, 32), (33, 33), (34, 34), (36, 36), (37, 37), (38, 38), (39, 40), (41, 56), (1, 8), (10, 14)]
    [35] (by decide +kernel) ?_
  simp only [List.forall_mem_cons, List.not_mem_nil, false_implies, implies_true, and_true]
  exact ⟨xa.continuationFlag.symm.trans xb.continuationFlag,
    xa.overlayCommandCapability.symm.trans xb.overlayCommandCapability,
    xa.acasStatus.symm.trans xb.acasStatus,
    xa.modeSSubnetworkVersion.symm.trans xb.modeSSubnetworkVersion,
    xa.transponderEnhancedProtocolIndicator.symm.trans xb.transponderEnhancedProtocolIndicator,
    xa.modeSSpecificServicesCapability.symm.trans xb.modeSSpecificServicesCapability,
    xa.uplinkELMThroughputCapability.symm.trans xb.uplinkELMThroughputCapability,
    xa.downlinkELMThroughputCapability.symm.trans xb.downlinkELMThroughputCapability,
    xa.aircraftIdentificationCapability.symm.trans xb.aircraftIdentificationCapability,
    xa.squitterCapabilitySubfield.symm.trans xb.squitterCapabilitySubfield,
    xa.commonUsageGICBCapability.symm.trans xb.commonUsageGICBCapability,
    xa.acasHybridSurveillanceCapability.symm.trans xb.acasHybridSurveillanceCapability,
    xa.acasGenerationCapability.symm.trans xb.acasGenerationCapability,
    xa.acasApplicableDocument.symm.trans xb.acasApplicableDocument,
    xa.dteSubAddressStatuses.symm.trans xb.dteSubAddressStatuses,
    z1.trans y1.symm,
    z2.trans y2.symm⟩

theorem bds17_told_apart (a b : List UInt8) (m : GICBCapabilityReport) (ha : readBDS17 a = .ok m) (hb : readBDS17 b = .ok m) : AgreeExcept a b [25, 26, 27, 28] := by
  obtain ⟨la, z1⟩ := (bds17_accepts a).1.1 ⟨m, ha⟩
  obtain ⟨lb, y1⟩ := (bds17_accepts b).1.1 ⟨m, hb⟩
  have xa := bds17_content a m ha
  have xb := bds17_content b m hb
  refine agree_of a b la lb
    [(1, 1), (2, 2), (3, 3), (4, 4), (5, 5), (6, 6), (7, 7), (8, 8), (9, 9), (10, 10), (11, 11), (12, 12), (13, 13), (14, 14), (15, 15), (16, 16), (17, 17), (18, 18), (19, 19), (20, 20), (21, 21), (22, 22), (23, 23), (24, 24), (29, 29), (30, 56)]
    [25, 26, 27, 28] (by decide +kernel) ?_
  simp only [List.forall_mem_cons, List.not_mem_nil, false_implies, implies_true, and_true]
  exact ⟨bit_agree a b _ (xa.extendedSquitterAirbornePosition.symm.trans xb.extendedSquitterAirbornePosition),
    bit_agree a b _ (xa.extendedSquitterSurfacePosition.symm.trans xb.extendedSquitterSurfacePosition),
    bit_agree a b _ (xa.extendedSquitterStatus.symm.trans xb.extendedSquitterStatus),
    bit_agree a b _ (xa.extendedSquitterIdentificationAndCategory.symm.trans xb.extendedSquitterIdentificationAndCategory),
    bit_agree a b _ (xa.extendedSquitterAirborneVelocityInformation.symm.trans xb.extendedSquitterAirborneVelocityInformation),
    bit_agree a b _ (xa.extendedSquitterEventDrivenInformation.symm.trans xb.extendedSquitterEventDrivenInformation),
    bit_agree a b _ (xa.aircraftIdentification.symm.trans xb.aircraftIdentification),
    bit_agree a b _ (xa.aircraftRegistrationNumber.symm.trans xb.aircraftRegistrationNumber),
    bit_agree a b _ (xa.selectedVerticalIntention.symm.trans xb.selectedVerticalIntention),
    bit_agree a b _ (xa.nextWaypointIdentifier.symm.trans xb.nextWaypointIdentifier),
    bit_agree a b _ (xa.nextWaypointPosition.symm.trans xb.nextWaypointPosition),
    bit_agree a b _ (xa.nextWaypointInformation.symm.trans xb.nextWaypointInformation),
    bit_agree a b _ (xa.meteorologicalRoutineReport.symm.trans xb.meteorologicalRoutineReport),
    bit_agree a b _ (xa.meteorologicalHazardReport.symm.trans xb.meteorologicalHazardReport),
    bit_agree a b _ (xa.vhfChannelReport.symm.trans xb.vhfChannelReport),
    bit_agree a b _ (xa.trackAndTurnReport.symm.trans xb.trackAndTurnReport),
    bit_agree a b _ (xa.positionCoarse.symm.trans xb.positionCoarse),
    bit_agree a b _ (xa.positionFine.symm.trans xb.positionFine),
    bit_agree a b _ (xa.airReferencedStateVector.symm.trans xb.airReferencedStateVector),
    bit_agree a b _ (xa.waypoint1.symm.trans xb.waypoint1),
    bit_agree a b _ (xa.waypoint2.symm.trans xb.waypoint2),
    bit_agree a b _ (xa.waypoint3.symm.trans xb.waypoint3),
    bit_agree a b _ (xa.quasiStaticParameterMonitoring.symm.trans xb.quasiStaticParameterMonitoring),
    bit_agree a b _ (xa.headingAndSpeedReport.symm.trans xb.headingAndSpeedReport),
    bit_agree a b _ (xa.militaryApplications.symm.trans xb.militaryApplications),
    z1.trans y1.symm⟩

theorem bds40_told_apart (a b : List UInt8) (m : SelectedVerticalIntention) (ha : readBDS40 a = .ok m) (hb : readBDS40 b = .ok m) : AgreeExcept a b [27] := by
  obtain ⟨la, z1, z2⟩ := (bds40_accepts a).1.1 ⟨m, ha⟩
  obtain ⟨lb, y1, y2⟩ := (bds40_accepts b).1.1 ⟨m, hb⟩
  have xa := bds40_actual a m ha
  have xb := bds40_actual b m hb
  refine agree_of a b la lb
    [(1, 1), (15, 26), (14, 14), (2, 13), (48, 48), (49, 49), (50, 50), (51, 51), (54, 54), (55, 56), (28, 39), (40, 47), (52, 53)]
    [27] (by decide +kernel) ?_
  simp only [List.forall_mem_cons, List.not_mem_nil, false_implies, implies_true, and_true]
  exact ⟨bit_agree a b _ (xa.mcpfcuSelectedAltitudeAvailable.symm.trans xb.mcpfcuSelectedAltitudeAvailable),
    by have := xa.mcpfcuSelectedAltitude; have := xb.mcpfcuSelectedAltitude; omega,
    bit_agree a b _ (xa.fmsSelectedAltitudeAvailable.symm.trans xb.fmsSelectedAltitudeAvailable),
    by have := xa.fmsSelectedAltitude; have := xb.fmsSelectedAltitude; omega,
    xa.statusOfModeBits.symm.trans xb.statusOfModeBits,
    bit_agree a b _ (xa.vnavMode.symm.trans xb.vnavMode),
    bit_agree a b _ (xa.altitudeHoldMode.symm.trans xb.altitudeHoldMode),
    bit_agree a b _ (xa.approachMode.symm.trans xb.approachMode),
    xa.statusOfTargetAltitudeSource.symm.trans xb.statusOfTargetAltitudeSource,
    xa.targetAltitudeSource.symm.trans xb.targetAltitudeSource,
    near_agree _ _ m.barometricPressureSetting 800 (1 / 10) (1 / 4096) (by norm_num)
      (by rw [xa.barometricPressureSetting]; exact f32_pressure_near _ (bits_lt a 28 39 12 rfl))
      (by rw [xb.barometricPressureSetting]; exact f32_pressure_near _ (bits_lt b 28 39 12 rfl)),
    z1.trans y1.symm,
    z2.trans y2.symm⟩

theorem bds44V1_told_apart (a b : List UInt8) (m : RoutineAirReportV1) (ha : readBDS44 a = .returns (.val (.v1 m)) false) (hb : readBDS44 b = .returns (.val (.v1 m)) false) : AgreeExcept a b [6] := by
  have ka := bds44_layout a
  have kb := bds44_layout b
  rw [ha] at ka
  rw [hb] at kb
  obtain ⟨-, la, z1, ka⟩ := ka
  obtain ⟨-, lb, y1, kb⟩ := kb
  have xa := (bds44_content_partial a).2.1 m ka
  have xb := (bds44_content_partial b).2.1 m kb
  refine agree_of a b la lb
    [(5, 5), (7, 14), (15, 15), (16, 23), (24, 24), (25, 35), (36, 36), (37, 47), (48, 48), (49, 49), (50, 56), (1, 4)]
    [6] (by decide +kernel) ?_
  simp only [List.forall_mem_cons, List.not_mem_nil, false_implies, implies_true, and_true]
  exact ⟨bit_agree a b _ (xa.windSpeedStatus.symm.trans xb.windSpeedStatus),
    xa.windSpeed.symm.trans xb.windSpeed,
    bit_agree a b _ (xa.windDirectionStatus.symm.trans xb.windDirectionStatus),
    uscaled_agree a b _ _ _ _ (by norm_num) xa.windDirection xb.windDirection,
    bit_agree a b _ (xa.staticAirTemperatureStatus.symm.trans xb.staticAirTemperatureStatus),
    scaled_agree a b _ _ _ _ (by norm_num) xa.staticAirTemperature xb.staticAirTemperature,
    bit_agree a b _ (xa.averageStaticPressureStatus.symm.trans xb.averageStaticPressureStatus),
    xa.averageStaticPressure.symm.trans xb.averageStaticPressure,
    xa.turbulenceFlag.symm.trans xb.turbulenceFlag,
    bit_agree a b _ (xa.humidityStatus.symm.trans xb.humidityStatus),
    by exact_mod_cast (xa.humidity.symm.trans xb.humidity),
    z1.trans y1.symm⟩

theorem bds44V2_told_apart (a b : List UInt8) (m : RoutineAirReportV2) (ha : readBDS44 a = .returns (.val (.v2 m)) false) (hb : readBDS44 b = .returns (.val (.v2 m)) false) : AgreeExcept a b [6] := by
  have ka := bds44_layout a
  have kb := bds44_layout b
  rw [ha] at ka
  rw [hb] at kb
  obtain ⟨-, la, z1, -, ka⟩ := ka
  obtain ⟨-, lb, y1, -, kb⟩ := kb
  have xa := (bds44_content_partial a).2.2 m ka
  have xb := (bds44_content_partial b).2.2 m kb
  refine agree_of a b la lb
    [(1, 4), (5, 5), (7, 14), (15, 15), (16, 23), (24, 24), (25, 35), (36, 36), (37, 47), (48, 48), (49, 49), (50, 56)]
    [6] (by decide +kernel) ?_
  simp only [List.forall_mem_cons, List.not_mem_nil, false_implies, implies_true, and_true]
  exact ⟨xa.source.symm.trans xb.source,
    bit_agree a b _ (xa.windSpeedStatus.symm.trans xb.windSpeedStatus),
    xa.windSpeed.symm.trans xb.windSpeed,
    bit_agree a b _ (xa.windDirectionStatus.symm.trans xb.windDirectionStatus),
    uscaled_agree a b _ _ _ _ (by norm_num) xa.windDirection xb.windDirection,
    bit_agree a b _ (xa.staticAirTemperatureStatus.symm.trans xb.staticAirTemperatureStatus),
    scaled_agree a b _ _ _ _ (by norm_num) xa.staticAirTemperature xb.staticAirTemperature,
    bit_agree a b _ (xa.averageStaticPressureStatus.symm.trans xb.averageStaticPressureStatus),
    xa.averageStaticPressure.symm.trans xb.averageStaticPressure,
    xa.turbulenceFlag.symm.trans xb.turbulenceFlag,
    bit_agree a b _ (xa.humidityStatus.symm.trans xb.humidityStatus),
    by exact_mod_cast (xa.humidity.symm.trans xb.humidity)⟩

theorem bds45_told_apart (a b : List UInt8) (m : HazardReport) (ha : readBDS45 a = .returns (.val m) false) (hb : readBDS45 b = .returns (.val m) false) : a = b := by
  have ka := bds45_layout a
  have kb := bds45_layout b
  rw [ha] at ka
  rw [hb] at kb
  cases m with
  | v0 m => exact ka.elim
  | v1 m =>
  obtain ⟨-, la, z1, ka⟩ := ka
  obtain ⟨-, lb, y1, kb⟩ := kb
  have xa := (bds45_content a).2 m ka
  have xb := (bds45_content b).2 m kb
  refine eq_of_agree a b la lb (agree_of a b la lb
    [(1, 1), (2, 3), (4, 4), (5, 6), (7, 7), (8, 9), (10, 10), (11, 12), (13, 13), (14, 24), (25, 25), (26, 37), (38, 38), (51, 54), (39, 44), (45, 50), (55, 56)]
    [] (by decide +kernel) ?_)
  simp only [List.forall_mem_cons, List.not_mem_nil, false_implies, implies_true, and_true]
  exact ⟨bit_agree a b _ (xa.windShearStatus.symm.trans xb.windShearStatus),
    xa.windShear.symm.trans xb.windShear,
    bit_agree a b _ (xa.microBurstStatus.symm.trans xb.microBurstStatus),
    xa.microBurst.symm.trans xb.microBurst,
    bit_agree a b _ (xa.icingStatus.symm.trans xb.icingStatus),
    xa.icing.symm.trans xb.icing,
    bit_agree a b _ (xa.wakeVortexStatus.symm.trans xb.wakeVortexStatus),
    xa.wakeVortex.symm.trans xb.wakeVortex,
    bit_agree a b _ (xa.staticAirTemperatureStatus.symm.trans xb.staticAirTemperatureStatus),
    scaled_agree a b _ _ _ _ (by norm_num) xa.staticAirTemperature xb.staticAirTemperature,
    bit_agree a b _ (xa.radioHeightStatus.symm.trans xb.radioHeightStatus),
    by have := xa.radioHeight; have := xb.radioHeight; omega,
    bit_agree a b _ (xa.turbulenceStatus.symm.trans xb.turbulenceStatus),
    xa.peakDelay.symm.trans xb.peakDelay,
    near_agree _ _ m.turbulenceAverageEDR 0 (1 / 50) (1 / 1048576) (by norm_num) (by simpa [div_eq_mul_inv] using xa.averageEDR) (by simpa [div_eq_mul_inv] using xb.averageEDR),
    near_agree _ _ m.turbulencePeakEDR 0 (1 / 50) (1 / 1048576) (by norm_num) (by simpa [div_eq_mul_inv] using xa.peakEDR) (by simpa [div_eq_mul_inv] using xb.peakEDR),
    z1.trans y1.symm⟩

theorem ident_agree (a b : List UInt8) (ha : ∀ i < 8, ∃ c, identOf (identField a i) = some c ∧ IdentChar c)
    (hb : ∀ i < 8, ∃ c, identOf (identField b i) = some c ∧ IdentChar c)
    (h : (List.range 8).map (fun i => (identOf (identField a i)).getD 0x23) = (List.range 8).map (fun i => (identOf (identField b i)).getD 0x23))
    (i : Nat) (hi : i < 8) : identField a i = identField b i := by
  obtain ⟨x, hx, -⟩ := ha i hi
  obtain ⟨y, hy, -⟩ := hb i hi
  have e := List.map_inj_left.1 h i (List.mem_range.2 hi)
  rw [hx, hy] at e
  have e : x = y := e
  subst e
  have la : identField a i < 64 := bits_lt a _ _ 6 (by omega)
  have lb : identField b i < 64 := bits_lt b _ _ 6 (by omega)
  rw [← (identOf_char _ x la hx).2, ← (identOf_char _ x lb hy).2]

theorem bds20_told_apart (a b : List UInt8) (m : AircraftIdentification) (hc : m.coherent = true) (ha : readBDS20 a = .ok m)
    (hb : readBDS20 b = .ok m) : a = b := by
  have ka := (bds20_coherent_iff a m ha).1 hc
  have kb := (bds20_coherent_iff b m hb).1 hc
  rw [bds20_eval] at ha hb
  split at ha
  swap; · cases ha
  split at hb
  swap; · cases hb
  rename_i ga gb
  have e := (Except.ok.inj ha).trans (Except.ok.inj hb).symm
  have e := ident_agree a b ka kb (AircraftIdentification.mk.inj e)
  obtain ⟨la, xa⟩ := ga
  obtain ⟨lb, xb⟩ := gb
  refine eq_of_agree a b la lb (agree_of a b la lb [(1, 8), (9, 14), (15, 20), (21, 26), (27, 32), (33, 38), (39, 44), (45, 50), (51, 56)]
    [] (by decide +kernel) ?_)
  simp only [List.forall_mem_cons, List.not_mem_nil, false_implies, implies_true, and_true]
  exact ⟨xa.trans xb.symm, e 0 (by decide), e 1 (by decide), e 2 (by decide), e 3 (by decide), e 4 (by decide), e 5 (by decide), e 6 (by decide), e 7 (by decide)⟩

theorem bits_drop (d : List UInt8) (h7 : d.length = 7) (i j : Nat) (hi : 1 ≤ i) (hij : i ≤ j) (hj : j ≤ 48) :
    bits (d.drop 1) i j = bits d (i + 8) (j + 8) := by
  obtain ⟨b0, b1, b2, b3, b4, b5, b6, rfl⟩ := list7 d h7
  unfold bits
  simp only [List.drop_succ_cons, List.drop_zero, List.length_cons, List.length_nil]
  rw [show beNat [b0, b1, b2, b3, b4, b5, b6] = b0.toNat * 2 ^ 48 + beNat [b1, b2, b3, b4, b5, b6] from rfl,
    show 8 * (0 + 1 + 1 + 1 + 1 + 1 + 1 + 1) - (j + 8) = 48 - j by omega, show 8 * (0 + 1 + 1 + 1 + 1 + 1 + 1) - j = 48 - j by omega,
    show j + 8 + 1 - (i + 8) = j + 1 - i by omega]
  have e : b0.toNat * 2 ^ 48 = 2 ^ (48 - j) * (2 ^ (j + 1 - i) * (2 ^ (i - 1) * b0.toNat)) := by
    rw [← Nat.mul_assoc, ← Nat.mul_assoc, ← Nat.pow_add, ← Nat.pow_add, show 48 - j + (j + 1 - i) + (i - 1) = 48 by omega, Nat.mul_comm]
  rw [e, Nat.mul_add_div (Nat.two_pow_pos _), Nat.mul_add_mod]

theorem bit_drop (d : List UInt8) (h7 : d.length = 7) (i : Nat) (hi : 1 ≤ i) (hj : i ≤ 48) : bit (d.drop 1) i = bit d (i + 8) := by
  unfold bit
  rw [bits_drop d h7 i i hi (Nat.le_refl _) hj]

theorem ara_agree (a b : List UInt8) (m : ResolutionAdvisory) (ha : readResolutionAdvisory a = .ok m) (hb : readResolutionAdvisory b = .ok m)
    (hm : m.activeRA ≠ .none) : bit a 1 = bit b 1 ∧ bits a 2 2 = bits b 2 2 ∧ bits a 3 3 = bits b 3 3 ∧ bits a 4 4 = bits b 4 4 ∧
      bits a 5 5 = bits b 5 5 ∧ bits a 6 6 = bits b 6 6 ∧ bits a 7 7 = bits b 7 7 := by
  obtain ⟨a1, a2, a3, -⟩ := ra_content a m ha
  obtain ⟨b1, b2, b3, -⟩ := ra_content b m hb
  cases hx : bit a 1 <;> cases hy : bit b 1
  · cases ux : bit a 20
    · exact absurd (a3 hx ux) hm
    cases uy : bit b 20
    · exact absurd (b3 hy uy) hm
    have e := (a2 hx ux).symm.trans (b2 hy uy)
    have e := MultipleThreats.mk.inj (ActiveRA.multiple.inj e)
    exact ⟨rfl, bit_agree a b _ e.1, bit_agree a b _ e.2.1, bit_agree a b _ e.2.2.1, bit_agree a b _ e.2.2.2.1,
      bit_agree a b _ e.2.2.2.2.1, bit_agree a b _ e.2.2.2.2.2⟩
  · cases ux : bit a 20
    · exact absurd (a3 hx ux) hm
    · exact nomatch (a2 hx ux).symm.trans (b1 hy)
  · cases uy : bit b 20
    · exact absurd (b3 hy uy) hm
    · exact nomatch (b2 hy uy).symm.trans (a1 hx)
  · have e := OneThreat.mk.inj (ActiveRA.oneThreat.inj ((a1 hx).symm.trans (b1 hy)))
    exact ⟨rfl, e.1, e.2.1, bit_agree a b _ e.2.2.1, bit_agree a b _ e.2.2.2.1, bit_agree a b _ e.2.2.2.2.1, e.2.2.2.2.2⟩

theorem ra_drop_agree (a b : List UInt8) (la : a.length = 7) (lb : b.length = 7) (m : ResolutionAdvisory)
    (ga : readResolutionAdvisory (a.drop 1) = .ok m) (gb : readResolutionAdvisory (b.drop 1) = .ok m)
    (hm : m.activeRA ≠ .none) (h1 : m.threatTypeIndicator = 1) :
    ∀ p ∈ [(9, 9), (10, 10), (11, 11), (12, 12), (13, 13), (14, 14), (15, 15), (23, 23), (24, 24), (25, 25), (26, 26), (27, 27), (28, 28),
      (29, 30), (31, 54)], bits a p.1 p.2 = bits b p.1 p.2 := by
  obtain ⟨e1, e2, e3, e4, e5, e6, e7⟩ := ara_agree _ _ _ ga gb hm
  obtain ⟨-, -, -, ca, ra, ma, ta⟩ := ra_content _ _ ga
  obtain ⟨-, -, -, cb, rb, mb, tb⟩ := ra_content _ _ gb
  obtain ⟨-, ka⟩ := ra_ok _ _ ga
  obtain ⟨-, kb⟩ := ra_ok _ _ gb
  rw [h1] at ta tb
  have ka := (ka.resolve_right (by rintro (⟨h, -⟩ | ⟨h, -⟩) <;> omega)).2
  have kb := (kb.resolve_right (by rintro (⟨h, -⟩ | ⟨h, -⟩) <;> omega)).2
  have ea : m.threatIdentityAddress = some (UInt32.ofNat (bits (a.drop 1) 23 46)) := by rw [ka]; rfl
  have eb : m.threatIdentityAddress = some (UInt32.ofNat (bits (b.drop 1) 23 46)) := by rw [kb]; rfl
  have e23 : bits (a.drop 1) 23 46 = bits (b.drop 1) 23 46 := by
    have e := congrArg UInt32.toNat (Option.some.inj (ea.symm.trans eb))
    have l1 : bits (a.drop 1) 23 46 < 2 ^ 24 := bits_lt _ _ _ _ rfl
    have l2 : bits (b.drop 1) 23 46 < 2 ^ 24 := bits_lt _ _ _ _ rfl
    rw [UInt32.toNat_ofNat', UInt32.toNat_ofNat'] at e
    omega
  have e20 : bits (a.drop 1) 20 20 = bits (b.drop 1) 20 20 := by
    have e := congrArg UInt8.toNat (ma.symm.trans mb)
    have l1 : bits (a.drop 1) 20 20 < 2 := bits_lt _ _ _ 1 rfl
    have l2 : bits (b.drop 1) 20 20 < 2 := bits_lt _ _ _ 1 rfl
    rw [UInt8.toNat_ofNat', UInt8.toNat_ofNat'] at e
    omega
  have e := RAComplement.mk.inj (ca.symm.trans cb)
  have e19 := ra.symm.trans rb
  have e1 := bit_agree _ _ _ e1
  have e15 := bit_agree _ _ _ e.1
  have e16 := bit_agree _ _ _ e.2.1
  have e17 := bit_agree _ _ _ e.2.2.1
  have e18 := bit_agree _ _ _ e.2.2.2
  have e21 := ta.symm.trans tb
  rw [bits_drop a la _ _ (by decide) (by decide) (by decide), bits_drop b lb _ _ (by decide) (by decide) (by decide)] at e1 e2 e3 e4 e5 e6 e7 e15 e16 e17 e18 e19 e20 e21 e23
  simp only [List.forall_mem_cons, List.not_mem_nil, false_implies, implies_true, and_true]
  exact ⟨e1, e2, e3, e4, e5, e6, e7, e15, e16, e17, e18, e19, e20, e21, e23⟩

theorem bds30_told_apart (a b : List UInt8) (m : ACASResolutionAdvisory) (ha : readBDS30 a = .ok m) (hb : readBDS30 b = .ok m)
    (hm : m.resolutionAdvisory.activeRA ≠ .none) (h1 : m.resolutionAdvisory.threatTypeIndicator = 1) :
    AgreeExcept a b [16, 17, 18, 19, 20, 21, 22, 55, 56] := by
  obtain ⟨la, xa, ga⟩ := ((bds30_accepts a).1 m).1 ha
  obtain ⟨lb, xb, gb⟩ := ((bds30_accepts b).1 m).1 hb
  exact agree_of a b la lb ((1, 8) :: [(9, 9), (10, 10), (11, 11), (12, 12), (13, 13), (14, 14), (15, 15), (23, 23), (24, 24), (25, 25), (26, 26), (27, 27), (28, 28),
      (29, 30), (31, 54)]) _ (by decide +kernel)
    (List.forall_mem_cons.2 ⟨xa.trans xb.symm, ra_drop_agree a b la lb _ ga gb hm h1⟩)

/-- C96. Two Comm-B fields for which the same report is offered are the same field, but for: the reserved bits 7-8 of the status register,
bit 35 of the data link capability report, bits 25-28 of the capability report, bit 27 of the selected vertical intention and bit 6 of
the weather report, and for an active resolution advisory against a threat named by its address the reserved bits 16-22, 55 and 56.
Missing: advisories without an active advice, or whose threat is not named by its address, and the bits above where they carry
information (`commB_told_apart_refuted`). -/
theorem commB_told_apart_partial (a b : List UInt8) (la lb : List (Iface CommBMessage)) (ha : readCommBMessage a = .ok la)
    (hb : readCommBMessage b = .ok lb) (m : CommBMessage) (hma : .val m ∈ la) (hmb : .val m ∈ lb) :
    match m with
    | .bds00 _ => a = b
    | .bds07 _ => AgreeExcept a b [7, 8]
    | .bds20 _ => a = b
    | .bds10 _ => AgreeExcept a b [35]
    | .bds17 _ => AgreeExcept a b [25, 26, 27, 28]
    | .bds30 r => r.resolutionAdvisory.activeRA ≠ .none → r.resolutionAdvisory.threatTypeIndicator = 1 →
        AgreeExcept a b [16, 17, 18, 19, 20, 21, 22, 55, 56]
    | .bds40 _ => AgreeExcept a b [27]
    | .bds44 _ => AgreeExcept a b [6]
    | .bds45 _ => a = b
    | .bds50 _ => a = b
    | .bds60 _ => a = b := by
  have ra := commB_reads a la ha m hma
  have rb := commB_reads b lb hb m hmb
  have hc := commB_coherent a la ha m hma
  cases m with
  | bds00 m => exact bds00_told_apart a b m ra rb
  | bds07 m => exact bds07_told_apart a b m ra rb
  | bds20 m => exact bds20_told_apart a b m hc ra rb
  | bds10 m => exact bds10_told_apart a b m ra rb
  | bds17 m => exact bds17_told_apart a b m ra rb
  | bds30 m => exact bds30_told_apart a b m ra rb
  | bds40 m => exact bds40_told_apart a b m ra rb
  | bds44 m =>
    cases m with
    | v0 m =>
      have k := bds44_layout a
      rw [show readBDS44 a = .returns (.val (.v0 m)) false from ra] at k
      exact k.elim
    | v1 m => exact bds44V1_told_apart a b m ra rb
    | v2 m => exact bds44V2_told_apart a b m ra rb
  | bds45 m => exact bds45_told_apart a b m ra rb
  | bds50 m => exact bds50_told_apart a b m ra rb
  | bds60 m => exact bds60_told_apart a b m ra rb

theorem offered_candidate (d : List UInt8) (h7 : d.length = 7) (n : Nat) (hn : n ∈ registersOf d) :
    ∃ l m, readCommBMessage d = .ok l ∧ .val m ∈ l ∧ m.register = n := by
  obtain ⟨l, hl, -, hr⟩ := commB_registers d h7
  rw [← hr] at hn
  obtain ⟨m, hm, e⟩ := List.mem_map.1 hn
  exact ⟨_, m, hl, List.mem_map_of_mem hm, e⟩

/-- C96, refuted: there are Comm-B fields for which the same report is offered, of which one has, and the other has not, the bit that
tells whether the barometric setting is available (27 of BDS 4,0), the surveillance identifier bit (35 of BDS 1,0), the first bit of the
wind speed (6 of BDS 4,4). -/
theorem commB_told_apart_refuted :
    (∃ a b la lb m, readCommBMessage a = .ok la ∧ readCommBMessage b = .ok lb ∧ .val (.bds40 m) ∈ la ∧ .val (.bds40 m) ∈ lb ∧
      bit a 27 = true ∧ bit b 27 = false) ∧
    (∃ a b la lb m, readCommBMessage a = .ok la ∧ readCommBMessage b = .ok lb ∧ .val (.bds10 m) ∈ la ∧ .val (.bds10 m) ∈ lb ∧
      bit a 35 = true ∧ bit b 35 = false) ∧
    (∃ a b la lb m, readCommBMessage a = .ok la ∧ readCommBMessage b = .ok lb ∧ .val (.bds44 m) ∈ la ∧ .val (.bds44 m) ∈ lb ∧
      bit a 6 = true ∧ bit b 6 = false) := by
  refine ⟨?_, ?_, ?_⟩
  · obtain ⟨la, m, ha, hm, em⟩ := offered_candidate [0x85, 0xE4, 0x2F, 0x31, 0x30, 0x00, 0x00] rfl 0x40 (by decide +kernel)
    obtain ⟨lb, n, hb, hn, en⟩ := offered_candidate [0x85, 0xE4, 0x2F, 0x11, 0x30, 0x00, 0x00] rfl 0x40 (by decide +kernel)
    have ra := commB_reads _ la ha m hm
    have rb := commB_reads _ lb hb n hn
    cases m <;> cases em
    cases n <;> cases en
    rename_i x y
    have e : readBDS40 [0x85, 0xE4, 0x2F, 0x31, 0x30, 0x00, 0x00] = readBDS40 [0x85, 0xE4, 0x2F, 0x11, 0x30, 0x00, 0x00] := by decide +kernel
    have e := Except.ok.inj ((show readBDS40 _ = .ok x from ra).symm.trans (e.trans rb))
    subst e
    exact ⟨_, _, la, lb, x, ha, hb, hm, hn, by decide, by decide⟩
  · obtain ⟨la, m, ha, hm, em⟩ := offered_candidate [0x10, 0x03, 0x0A, 0x80, 0xF0, 0x00, 0x00] rfl 0x10 (by decide +kernel)
    obtain ⟨lb, n, hb, hn, en⟩ := offered_candidate [0x10, 0x03, 0x0A, 0x80, 0xD0, 0x00, 0x00] rfl 0x10 (by decide +kernel)
    have ra := commB_reads _ la ha m hm
    have rb := commB_reads _ lb hb n hn
    cases m <;> cases em
    cases n <;> cases en
    rename_i x y
    have e : readBDS10 [0x10, 0x03, 0x0A, 0x80, 0xF0, 0x00, 0x00] = readBDS10 [0x10, 0x03, 0x0A, 0x80, 0xD0, 0x00, 0x00] := by decide +kernel
    have e := Except.ok.inj ((show readBDS10 _ = .ok x from ra).symm.trans (e.trans rb))
    subst e
    exact ⟨_, _, la, lb, x, ha, hb, hm, hn, by decide, by decide⟩
  · obtain ⟨la, m, ha, hm, em⟩ := offered_candidate [0x1C, 0x5B, 0xD5, 0xCF, 0x40, 0x00, 0x00] rfl 0x44 (by decide +kernel)
    obtain ⟨lb, n, hb, hn, en⟩ := offered_candidate [0x18, 0x5B, 0xD5, 0xCF, 0x40, 0x00, 0x00] rfl 0x44 (by decide +kernel)
    have ra := commB_reads _ la ha m hm
    have rb := commB_reads _ lb hb n hn
    cases m <;> cases em
    cases n <;> cases en
    rename_i x y
    have e : readBDS44 [0x1C, 0x5B, 0xD5, 0xCF, 0x40, 0x00, 0x00] = readBDS44 [0x18, 0x5B, 0xD5, 0xCF, 0x40, 0x00, 0x00] := by rfl
    have e := (show readBDS44 _ = .returns (.val x) false from ra).symm.trans (e.trans rb)
    have e := Iface.val.inj (Call.returns.inj e).1
    subst e
    exact ⟨_, _, la, lb, x, ha, hb, hm, hn, by decide, by decide⟩

end Modes
