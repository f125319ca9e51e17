import Verif.Model.BDS65
import Verif.Lemmas.Register
/-!
# C40, C41: aircraft operational status

Bits: 1-5 type code 31, 6-8 subtype (0 airborne, 1 surface), 41-43 the version number. The other positions are in the
specification of each layout below.
-/
set_option linter.unusedSimpArgs false
open Spec
namespace Modes

theorem ftc_bits (b0 b1 b2 b3 b4 b5 b6 : UInt8) : ((b0 &&& 248) >>> 3).toNat = bits [b0, b1, b2, b3, b4, b5, b6] 1 5 := by byte_omega
theorem EnRouteOperationalCapabilities_bits (b0 b1 b2 b3 b4 b5 b6 : UInt8) : ((b1 &&& 240) >>> 4).toNat = bits [b0, b1, b2, b3, b4, b5, b6] 9 12 := by byte_omega
theorem EnRouteOperationalCapabilityStatus_bits (b0 b1 b2 b3 b4 b5 b6 : UInt8) : ((b3 &&& 240) >>> 4).toNat = bits [b0, b1, b2, b3, b4, b5, b6] 25 28 := by byte_omega
theorem TerminalAreaOperationalCapabilities_bits (b0 b1 b2 b3 b4 b5 b6 : UInt8) : (b1 &&& 15).toNat = bits [b0, b1, b2, b3, b4, b5, b6] 13 16 := by byte_omega
theorem TerminalAreaOperationalCapabilityStatus_bits (b0 b1 b2 b3 b4 b5 b6 : UInt8) : (b3 &&& 15).toNat = bits [b0, b1, b2, b3, b4, b5, b6] 29 32 := by byte_omega
theorem ApproachLandingOperationalCapabilities_bits (b0 b1 b2 b3 b4 b5 b6 : UInt8) : ((b2 &&& 240) >>> 4).toNat = bits [b0, b1, b2, b3, b4, b5, b6] 17 20 := by byte_omega
theorem ApproachLandingOperationalCapabilityStatus_bits (b0 b1 b2 b3 b4 b5 b6 : UInt8) : ((b4 &&& 240) >>> 4).toNat = bits [b0, b1, b2, b3, b4, b5, b6] 33 36 := by byte_omega
theorem SurfaceOperationalCapabilities_bits (b0 b1 b2 b3 b4 b5 b6 : UInt8) : (b2 &&& 15).toNat = bits [b0, b1, b2, b3, b4, b5, b6] 21 24 := by byte_omega
theorem SurfaceOperationalCapabilityStatus_bits (b0 b1 b2 b3 b4 b5 b6 : UInt8) : (b4 &&& 15).toNat = bits [b0, b1, b2, b3, b4, b5, b6] 37 40 := by byte_omega
theorem NotACASStatus_bits (b0 b1 b2 b3 b4 b5 b6 : UInt8) : ((b1 &&& 32) >>> 5).toNat = bits [b0, b1, b2, b3, b4, b5, b6] 11 11 := by byte_omega
theorem CockpitDisplayOfTrafficInformationStatus_bits (b0 b1 b2 b3 b4 b5 b6 : UInt8) : ((b1 &&& 16) >>> 4).toNat = bits [b0, b1, b2, b3, b4, b5, b6] 12 12 := by byte_omega
theorem AirReferencedVelocityReportCapability_bits (b0 b1 b2 b3 b4 b5 b6 : UInt8) : ((b1 &&& 2) >>> 1).toNat = bits [b0, b1, b2, b3, b4, b5, b6] 15 15 := by byte_omega
theorem TargetStateReportCapability_bits (b0 b1 b2 b3 b4 b5 b6 : UInt8) : (b1 &&& 1).toNat = bits [b0, b1, b2, b3, b4, b5, b6] 16 16 := by byte_omega
theorem TargetChangeReportCapability_bits (b0 b1 b2 b3 b4 b5 b6 : UInt8) : ((b2 &&& 192) >>> 6).toNat = bits [b0, b1, b2, b3, b4, b5, b6] 17 18 := by byte_omega
theorem ACASResolutionAdvisoryActiveV1_bits (b0 b1 b2 b3 b4 b5 b6 : UInt8) : ((b3 &&& 32) >>> 5).toNat = bits [b0, b1, b2, b3, b4, b5, b6] 27 27 := by byte_omega
theorem IdentSwitchActive_bits (b0 b1 b2 b3 b4 b5 b6 : UInt8) : ((b3 &&& 16) >>> 4).toNat = bits [b0, b1, b2, b3, b4, b5, b6] 28 28 := by byte_omega
theorem ReceivingATCServices_bits (b0 b1 b2 b3 b4 b5 b6 : UInt8) : ((b3 &&& 8) >>> 3).toNat = bits [b0, b1, b2, b3, b4, b5, b6] 29 29 := by byte_omega
theorem VersionNumber_bits (b0 b1 b2 b3 b4 b5 b6 : UInt8) : ((b5 &&& 224) >>> 5).toNat = bits [b0, b1, b2, b3, b4, b5, b6] 41 43 := by byte_omega
theorem NICSupplementA_bits (b0 b1 b2 b3 b4 b5 b6 : UInt8) : ((b5 &&& 16) >>> 4).toNat = bits [b0, b1, b2, b3, b4, b5, b6] 44 44 := by byte_omega
theorem NavigationalAccuracyCategoryPosition_bits (b0 b1 b2 b3 b4 b5 b6 : UInt8) : (b5 &&& 15).toNat = bits [b0, b1, b2, b3, b4, b5, b6] 45 48 := by byte_omega
theorem SourceIntegrityLevel65_bits (b0 b1 b2 b3 b4 b5 b6 : UInt8) : ((b6 &&& 48) >>> 4).toNat = bits [b0, b1, b2, b3, b4, b5, b6] 51 52 := by byte_omega
theorem NICBaro65_bits (b0 b1 b2 b3 b4 b5 b6 : UInt8) : ((b6 &&& 8) >>> 3).toNat = bits [b0, b1, b2, b3, b4, b5, b6] 53 53 := by byte_omega
theorem HorizontalReferenceDirection_bits (b0 b1 b2 b3 b4 b5 b6 : UInt8) : ((b6 &&& 4) >>> 2).toNat = bits [b0, b1, b2, b3, b4, b5, b6] 54 54 := by byte_omega
theorem ACASOperational_bits (b0 b1 b2 b3 b4 b5 b6 : UInt8) : ((b1 &&& 32) >>> 5).toNat = bits [b0, b1, b2, b3, b4, b5, b6] 11 11 := by byte_omega
theorem ExtendedSquitterIn_bits (b0 b1 b2 b3 b4 b5 b6 : UInt8) : ((b1 &&& 16) >>> 4).toNat = bits [b0, b1, b2, b3, b4, b5, b6] 12 12 := by byte_omega
theorem UATCapabilityAirborne_bits (b0 b1 b2 b3 b4 b5 b6 : UInt8) : ((b2 &&& 32) >>> 5).toNat = bits [b0, b1, b2, b3, b4, b5, b6] 19 19 := by byte_omega
theorem ACASResolutionAdvisoryActiveV2_bits (b0 b1 b2 b3 b4 b5 b6 : UInt8) : ((b3 &&& 32) >>> 5).toNat = bits [b0, b1, b2, b3, b4, b5, b6] 27 27 := by byte_omega
theorem SingleAntennaFlag65_bits (b0 b1 b2 b3 b4 b5 b6 : UInt8) : ((b3 &&& 4) >>> 2).toNat = bits [b0, b1, b2, b3, b4, b5, b6] 30 30 := by byte_omega
theorem SystemDesignAssurance_bits (b0 b1 b2 b3 b4 b5 b6 : UInt8) : (b3 &&& 3).toNat = bits [b0, b1, b2, b3, b4, b5, b6] 31 32 := by byte_omega
theorem GeometricVerticalAccuracy_bits (b0 b1 b2 b3 b4 b5 b6 : UInt8) : ((b6 &&& 192) >>> 6).toNat = bits [b0, b1, b2, b3, b4, b5, b6] 49 50 := by byte_omega
theorem SourceIntegrityLevelSupplement65_bits (b0 b1 b2 b3 b4 b5 b6 : UInt8) : ((b6 &&& 2) >>> 1).toNat = bits [b0, b1, b2, b3, b4, b5, b6] 55 55 := by byte_omega
theorem PositionOffsetApplied_bits (b0 b1 b2 b3 b4 b5 b6 : UInt8) : ((b1 &&& 32) >>> 5).toNat = bits [b0, b1, b2, b3, b4, b5, b6] 11 11 := by byte_omega
theorem B2Low_bits (b0 b1 b2 b3 b4 b5 b6 : UInt8) : ((b1 &&& 2) >>> 1).toNat = bits [b0, b1, b2, b3, b4, b5, b6] 15 15 := by byte_omega
theorem AircraftLengthAndWidth_bits (b0 b1 b2 b3 b4 b5 b6 : UInt8) : (b2 &&& 15).toNat = bits [b0, b1, b2, b3, b4, b5, b6] 21 24 := by byte_omega
theorem TrackAngleHeading_bits (b0 b1 b2 b3 b4 b5 b6 : UInt8) : ((b6 &&& 8) >>> 3).toNat = bits [b0, b1, b2, b3, b4, b5, b6] 53 53 := by byte_omega
theorem UATCapabilitySurface_bits (b0 b1 b2 b3 b4 b5 b6 : UInt8) : (b1 &&& 1).toNat = bits [b0, b1, b2, b3, b4, b5, b6] 16 16 := by byte_omega
theorem NavigationAccuracyCategoryVelocity_bits (b0 b1 b2 b3 b4 b5 b6 : UInt8) : ((b2 &&& 224) >>> 5).toNat = bits [b0, b1, b2, b3, b4, b5, b6] 17 19 := by byte_omega
theorem NICSupplementC_bits (b0 b1 b2 b3 b4 b5 b6 : UInt8) : ((b2 &&& 16) >>> 4).toNat = bits [b0, b1, b2, b3, b4, b5, b6] 20 20 := by byte_omega
theorem GPSAntennaLateral_bits (b0 b1 b2 b3 b4 b5 b6 : UInt8) : ((b4 &&& 224) >>> 5).toNat = bits [b0, b1, b2, b3, b4, b5, b6] 33 35 := by byte_omega
theorem GPSAntennaLongitudinal_bits (b0 b1 b2 b3 b4 b5 b6 : UInt8) : (b4 &&& 31).toNat = bits [b0, b1, b2, b3, b4, b5, b6] 36 40 := by byte_omega
theorem Subtype65_bits (b0 b1 b2 b3 b4 b5 b6 : UInt8) : (b0 &&& 7).toNat = bits [b0, b1, b2, b3, b4, b5, b6] 6 8 := by byte_omega

/-- The layout of `OpStatusV0`: the positions of its fields. -/
structure OpStatusV0.Layout (d : List UInt8) (m : OpStatusV0) : Prop where
  formatTypeCode : m.formatTypeCode.toNat = bits d 1 5
  subtype : m.subtype.toNat = bits d 6 8
  enRouteOperationalCapabilities : m.enRouteOperationalCapabilities.toNat = bits d 9 12
  enRouteOperationalCapabilityStatus : m.enRouteOperationalCapabilityStatus.toNat = bits d 25 28
  terminalAreaOperationalCapabilities : m.terminalAreaOperationalCapabilities.toNat = bits d 13 16
  terminalAreaOperationalCapabilityStatus : m.terminalAreaOperationalCapabilityStatus.toNat = bits d 29 32
  approachLandingOperationalCapabilities : m.approachLandingOperationalCapabilities.toNat = bits d 17 20
  approachLandingOperationalCapabilityStatus : m.approachLandingOperationalCapabilityStatus.toNat = bits d 33 36
  surfaceOperationalCapabilities : m.surfaceOperationalCapabilities.toNat = bits d 21 24
  surfaceOperationalCapabilityStatus : m.surfaceOperationalCapabilityStatus.toNat = bits d 37 40

theorem OpStatusV0_eval (d : List UInt8) (h7 : d.length = 7) :
    (readOpStatusV0 d = .error .err ∧ ¬ (bits d 1 5 = 31 ∧ bits d 6 8 = 0 ∧ bits d 41 56 = 0)) ∨
    ((bits d 1 5 = 31 ∧ bits d 6 8 = 0 ∧ bits d 41 56 = 0) ∧
      ∃ m, readOpStatusV0 d = .ok m ∧ OpStatusV0.Layout d m) := by
  obtain ⟨b0, b1, b2, b3, b4, b5, b6, rfl⟩ := list7 d h7
  have e0 : (b0 &&& 248) >>> 3 = 31 ↔ bits [b0, b1, b2, b3, b4, b5, b6] 1 5 = 31 := by word_nat; byte_omega
  have e1 : b0 &&& 7 = 0 ↔ bits [b0, b1, b2, b3, b4, b5, b6] 6 8 = 0 := by word_nat; byte_omega
  have e2 : (¬ b5 = 0 ∨ ¬ b6 = 0) ↔ ¬ bits [b0, b1, b2, b3, b4, b5, b6] 41 56 = 0 := by word_nat; byte_omega
  unfold readOpStatusV0 readFormatTypeCode readSubtype65 readEnRouteOperationalCapabilities readEnRouteOperationalCapabilityStatus readTerminalAreaOperationalCapabilities readTerminalAreaOperationalCapabilityStatus readApproachLandingOperationalCapabilities readApproachLandingOperationalCapabilityStatus readSurfaceOperationalCapabilities readSurfaceOperationalCapabilityStatus
  go_run []
  split
  · rename_i h
    exact Or.inl ⟨rfl, fun ha => h (e0.2 ha.1)⟩
  rename_i h0
  split
  · rename_i h
    exact Or.inl ⟨rfl, fun ha => h (e1.2 ha.2.1)⟩
  rename_i h1
  split
  · rename_i h
    exact Or.inl ⟨rfl, fun ha => e2.1 h ha.2.2⟩
  rename_i h2
  refine Or.inr ⟨⟨e0.1 (Decidable.not_not.1 h0), e1.1 (Decidable.not_not.1 h1), Decidable.not_not.1 (fun x => h2 (e2.2 x))⟩, _, rfl, ?_⟩
  exact ⟨ftc_bits b0 b1 b2 b3 b4 b5 b6, Subtype65_bits b0 b1 b2 b3 b4 b5 b6, EnRouteOperationalCapabilities_bits b0 b1 b2 b3 b4 b5 b6, EnRouteOperationalCapabilityStatus_bits b0 b1 b2 b3 b4 b5 b6, TerminalAreaOperationalCapabilities_bits b0 b1 b2 b3 b4 b5 b6, TerminalAreaOperationalCapabilityStatus_bits b0 b1 b2 b3 b4 b5 b6, ApproachLandingOperationalCapabilities_bits b0 b1 b2 b3 b4 b5 b6, ApproachLandingOperationalCapabilityStatus_bits b0 b1 b2 b3 b4 b5 b6, SurfaceOperationalCapabilities_bits b0 b1 b2 b3 b4 b5 b6, SurfaceOperationalCapabilityStatus_bits b0 b1 b2 b3 b4 b5 b6⟩

/-- The layout of `OpStatusAirborneV1`: the positions of its fields. -/
structure OpStatusAirborneV1.Layout (d : List UInt8) (m : OpStatusAirborneV1) : Prop where
  formatTypeCode : m.formatTypeCode.toNat = bits d 1 5
  subtype : m.subtype.toNat = bits d 6 8
  airborneCapabilityClass_notACASStatus : m.airborneCapabilityClass.notACASStatus.toNat = bits d 11 11
  airborneCapabilityClass_cockpitDisplayOfTrafficInformationStatus : m.airborneCapabilityClass.cockpitDisplayOfTrafficInformationStatus.toNat = bits d 12 12
  airborneCapabilityClass_airReferencedVelocityReportCapability : m.airborneCapabilityClass.airReferencedVelocityReportCapability.toNat = bits d 15 15
  airborneCapabilityClass_targetStateReportCapability : m.airborneCapabilityClass.targetStateReportCapability.toNat = bits d 16 16
  airborneCapabilityClass_targetChangeReportCapability : m.airborneCapabilityClass.targetChangeReportCapability.toNat = bits d 17 18
  operationalMode_acasRAActive : m.operationalMode.acasRAActive.toNat = bits d 27 27
  operationalMode_identSwitchActive : m.operationalMode.identSwitchActive.toNat = bits d 28 28
  operationalMode_receivingATCServices : m.operationalMode.receivingATCServices.toNat = bits d 29 29
  versionNumber : m.versionNumber.toNat = bits d 41 43
  nicSupplement : m.nicSupplement.toNat = bits d 44 44
  navigationalAccuracyCategoryPosition : m.navigationalAccuracyCategoryPosition.toNat = bits d 45 48
  surveillanceIntegrityLevel : m.surveillanceIntegrityLevel.toNat = bits d 51 52
  nicBaro : m.nicBaro.toNat = bits d 53 53
  horizontalReferenceDirection : m.horizontalReferenceDirection.toNat = bits d 54 54

theorem OpStatusAirborneV1_eval (d : List UInt8) (h7 : d.length = 7) :
    (readOpStatusAirborneV1 d = .error .err ∧ ¬ (bits d 1 5 = 31 ∧ bits d 6 8 = 0 ∧ bits d 41 43 = 1 ∧ bits d 9 10 = 0 ∧ bits d 13 14 = 0 ∧ bits d 25 26 = 0 ∧ bits d 49 50 = 0 ∧ bits d 55 56 = 0)) ∨
    ((bits d 1 5 = 31 ∧ bits d 6 8 = 0 ∧ bits d 41 43 = 1 ∧ bits d 9 10 = 0 ∧ bits d 13 14 = 0 ∧ bits d 25 26 = 0 ∧ bits d 49 50 = 0 ∧ bits d 55 56 = 0) ∧
      ∃ m, readOpStatusAirborneV1 d = .ok m ∧ OpStatusAirborneV1.Layout d m) := by
  obtain ⟨b0, b1, b2, b3, b4, b5, b6, rfl⟩ := list7 d h7
  have e0 : (b0 &&& 248) >>> 3 = 31 ↔ bits [b0, b1, b2, b3, b4, b5, b6] 1 5 = 31 := by word_nat; byte_omega
  have e1 : b0 &&& 7 = 0 ↔ bits [b0, b1, b2, b3, b4, b5, b6] 6 8 = 0 := by word_nat; byte_omega
  have e2 : (b5 &&& 224) >>> 5 = 1 ↔ bits [b0, b1, b2, b3, b4, b5, b6] 41 43 = 1 := by word_nat; byte_omega
  have e3 : (b1 &&& 192) >>> 4 + (b1 &&& 12) >>> 2 = 0 ↔ bits [b0, b1, b2, b3, b4, b5, b6] 9 10 = 0 ∧ bits [b0, b1, b2, b3, b4, b5, b6] 13 14 = 0 := by word_nat; byte_omega
  have e4 : (b3 &&& 192) >>> 6 = 0 ↔ bits [b0, b1, b2, b3, b4, b5, b6] 25 26 = 0 := by word_nat; byte_omega
  have e5 : b6 &&& 192 = 0 ↔ bits [b0, b1, b2, b3, b4, b5, b6] 49 50 = 0 := by word_nat; byte_omega
  have e6 : b6 &&& 3 = 0 ↔ bits [b0, b1, b2, b3, b4, b5, b6] 55 56 = 0 := by word_nat; byte_omega
  unfold readOpStatusAirborneV1 readFormatTypeCode readSubtype65 readVersionNumber readAirborneCapabilityClassV1 readOperationalMode readNotACASStatus readCockpitDisplayOfTrafficInformationStatus readAirReferencedVelocityReportCapability readTargetStateReportCapability readTargetChangeReportCapability readACASResolutionAdvisoryActiveV1 readIdentSwitchActive readReceivingATCServices readNICSupplementA readNavigationalAccuracyCategoryPosition readSourceIntegrityLevel65 readNICBaro65 readHorizontalReferenceDirection
  go_run []
  split
  · rename_i h
    exact Or.inl ⟨rfl, fun ha => h (e0.2 ha.1)⟩
  rename_i h0
  split
  · rename_i h
    exact Or.inl ⟨rfl, fun ha => h (e1.2 ha.2.1)⟩
  rename_i h1
  split
  · rename_i h
    exact Or.inl ⟨rfl, fun ha => h (e2.2 ha.2.2.1)⟩
  rename_i h2
  split
  · rename_i h
    exact Or.inl ⟨rfl, fun ha => h (e3.2 ⟨ha.2.2.2.1, ha.2.2.2.2.1⟩)⟩
  rename_i h3
  split
  · rename_i h
    exact Or.inl ⟨rfl, fun ha => h (e4.2 ha.2.2.2.2.2.1)⟩
  rename_i h4
  split
  · rename_i h
    exact Or.inl ⟨rfl, fun ha => h (e5.2 ha.2.2.2.2.2.2.1)⟩
  rename_i h5
  split
  · rename_i h
    exact Or.inl ⟨rfl, fun ha => h (e6.2 ha.2.2.2.2.2.2.2)⟩
  rename_i h6
  refine Or.inr ⟨⟨e0.1 (Decidable.not_not.1 h0), e1.1 (Decidable.not_not.1 h1), e2.1 (Decidable.not_not.1 h2), (e3.1 (Decidable.not_not.1 h3)).1, (e3.1 (Decidable.not_not.1 h3)).2, e4.1 (Decidable.not_not.1 h4), e5.1 (Decidable.not_not.1 h5), e6.1 (Decidable.not_not.1 h6)⟩, _, rfl, ?_⟩
  exact ⟨ftc_bits b0 b1 b2 b3 b4 b5 b6, Subtype65_bits b0 b1 b2 b3 b4 b5 b6, NotACASStatus_bits b0 b1 b2 b3 b4 b5 b6, CockpitDisplayOfTrafficInformationStatus_bits b0 b1 b2 b3 b4 b5 b6, AirReferencedVelocityReportCapability_bits b0 b1 b2 b3 b4 b5 b6, TargetStateReportCapability_bits b0 b1 b2 b3 b4 b5 b6, TargetChangeReportCapability_bits b0 b1 b2 b3 b4 b5 b6, ACASResolutionAdvisoryActiveV1_bits b0 b1 b2 b3 b4 b5 b6, IdentSwitchActive_bits b0 b1 b2 b3 b4 b5 b6, ReceivingATCServices_bits b0 b1 b2 b3 b4 b5 b6, VersionNumber_bits b0 b1 b2 b3 b4 b5 b6, NICSupplementA_bits b0 b1 b2 b3 b4 b5 b6, NavigationalAccuracyCategoryPosition_bits b0 b1 b2 b3 b4 b5 b6, SourceIntegrityLevel65_bits b0 b1 b2 b3 b4 b5 b6, NICBaro65_bits b0 b1 b2 b3 b4 b5 b6, HorizontalReferenceDirection_bits b0 b1 b2 b3 b4 b5 b6⟩

/-- The layout of `OpStatusAirborneV2`: the positions of its fields. -/
structure OpStatusAirborneV2.Layout (d : List UInt8) (m : OpStatusAirborneV2) : Prop where
  formatTypeCode : m.formatTypeCode.toNat = bits d 1 5
  subtype : m.subtype.toNat = bits d 6 8
  airborneCapabilityClass_acasOperational : m.airborneCapabilityClass.acasOperational.toNat = bits d 11 11
  airborneCapabilityClass_extendedSquitterIn : m.airborneCapabilityClass.extendedSquitterIn.toNat = bits d 12 12
  airborneCapabilityClass_airReferencedVelocityReportCapability : m.airborneCapabilityClass.airReferencedVelocityReportCapability.toNat = bits d 15 15
  airborneCapabilityClass_targetStateReportCapability : m.airborneCapabilityClass.targetStateReportCapability.toNat = bits d 16 16
  airborneCapabilityClass_targetChangeReportCapability : m.airborneCapabilityClass.targetChangeReportCapability.toNat = bits d 17 18
  airborneCapabilityClass_uatCapability : m.airborneCapabilityClass.uatCapability.toNat = bits d 19 19
  operationalMode_acasRAActive : m.operationalMode.acasRAActive.toNat = bits d 27 27
  operationalMode_identSwitchActive : m.operationalMode.identSwitchActive.toNat = bits d 28 28
  operationalMode_singleAntennaFlag : m.operationalMode.singleAntennaFlag.toNat = bits d 30 30
  operationalMode_systemDesignAssurance : m.operationalMode.systemDesignAssurance.toNat = bits d 31 32
  versionNumber : m.versionNumber.toNat = bits d 41 43
  nicSupplementA : m.nicSupplementA.toNat = bits d 44 44
  navigationalAccuracyCategoryPosition : m.navigationalAccuracyCategoryPosition.toNat = bits d 45 48
  geometricVerticalAccuracy : m.geometricVerticalAccuracy.toNat = bits d 49 50
  sourceIntegrityLevel : m.sourceIntegrityLevel.toNat = bits d 51 52
  nicBaro : m.nicBaro.toNat = bits d 53 53
  horizontalReferenceDirection : m.horizontalReferenceDirection.toNat = bits d 54 54
  sourceIntegrityLevelSupplement : m.sourceIntegrityLevelSupplement.toNat = bits d 55 55

theorem OpStatusAirborneV2_eval (d : List UInt8) (h7 : d.length = 7) :
    (readOpStatusAirborneV2 d = .error .err ∧ ¬ (bits d 1 5 = 31 ∧ bits d 6 8 = 0 ∧ bits d 41 43 = 2 ∧ bits d 9 10 = 0 ∧ bits d 25 26 = 0 ∧ bits d 56 56 = 0)) ∨
    ((bits d 1 5 = 31 ∧ bits d 6 8 = 0 ∧ bits d 41 43 = 2 ∧ bits d 9 10 = 0 ∧ bits d 25 26 = 0 ∧ bits d 56 56 = 0) ∧
      ∃ m, readOpStatusAirborneV2 d = .ok m ∧ OpStatusAirborneV2.Layout d m) := by
  obtain ⟨b0, b1, b2, b3, b4, b5, b6, rfl⟩ := list7 d h7
  have e0 : (b0 &&& 248) >>> 3 = 31 ↔ bits [b0, b1, b2, b3, b4, b5, b6] 1 5 = 31 := by word_nat; byte_omega
  have e1 : b0 &&& 7 = 0 ↔ bits [b0, b1, b2, b3, b4, b5, b6] 6 8 = 0 := by word_nat; byte_omega
  have e2 : (b5 &&& 224) >>> 5 = 2 ↔ bits [b0, b1, b2, b3, b4, b5, b6] 41 43 = 2 := by word_nat; byte_omega
  have e3 : (b1 &&& 192) >>> 6 = 0 ↔ bits [b0, b1, b2, b3, b4, b5, b6] 9 10 = 0 := by word_nat; byte_omega
  have e4 : (b3 &&& 192) >>> 6 = 0 ↔ bits [b0, b1, b2, b3, b4, b5, b6] 25 26 = 0 := by word_nat; byte_omega
  have e5 : b6 &&& 1 = 0 ↔ bits [b0, b1, b2, b3, b4, b5, b6] 56 56 = 0 := by word_nat; byte_omega
  unfold readOpStatusAirborneV2 readFormatTypeCode readSubtype65 readVersionNumber readAirborneCapabilityClassV2 readAirborneOperationalMode readACASOperational readExtendedSquitterIn readAirReferencedVelocityReportCapability readTargetStateReportCapability readTargetChangeReportCapability readUATCapabilityAirborne readACASResolutionAdvisoryActiveV2 readIdentSwitchActive readSingleAntennaFlag65 readSystemDesignAssurance readNICSupplementA readNavigationalAccuracyCategoryPosition readGeometricVerticalAccuracy readSourceIntegrityLevel65 readNICBaro65 readHorizontalReferenceDirection readSourceIntegrityLevelSupplement65
  go_run []
  split
  · rename_i h
    exact Or.inl ⟨rfl, fun ha => h (e0.2 ha.1)⟩
  rename_i h0
  split
  · rename_i h
    exact Or.inl ⟨rfl, fun ha => h (e1.2 ha.2.1)⟩
  rename_i h1
  split
  · rename_i h
    exact Or.inl ⟨rfl, fun ha => h (e2.2 ha.2.2.1)⟩
  rename_i h2
  split
  · rename_i h
    exact Or.inl ⟨rfl, fun ha => h (e3.2 ha.2.2.2.1)⟩
  rename_i h3
  split
  · rename_i h
    exact Or.inl ⟨rfl, fun ha => h (e4.2 ha.2.2.2.2.1)⟩
  rename_i h4
  split
  · rename_i h
    exact Or.inl ⟨rfl, fun ha => h (e5.2 ha.2.2.2.2.2)⟩
  rename_i h5
  refine Or.inr ⟨⟨e0.1 (Decidable.not_not.1 h0), e1.1 (Decidable.not_not.1 h1), e2.1 (Decidable.not_not.1 h2), e3.1 (Decidable.not_not.1 h3), e4.1 (Decidable.not_not.1 h4), e5.1 (Decidable.not_not.1 h5)⟩, _, rfl, ?_⟩
  exact ⟨ftc_bits b0 b1 b2 b3 b4 b5 b6, Subtype65_bits b0 b1 b2 b3 b4 b5 b6, ACASOperational_bits b0 b1 b2 b3 b4 b5 b6, ExtendedSquitterIn_bits b0 b1 b2 b3 b4 b5 b6, AirReferencedVelocityReportCapability_bits b0 b1 b2 b3 b4 b5 b6, TargetStateReportCapability_bits b0 b1 b2 b3 b4 b5 b6, TargetChangeReportCapability_bits b0 b1 b2 b3 b4 b5 b6, UATCapabilityAirborne_bits b0 b1 b2 b3 b4 b5 b6, ACASResolutionAdvisoryActiveV2_bits b0 b1 b2 b3 b4 b5 b6, IdentSwitchActive_bits b0 b1 b2 b3 b4 b5 b6, SingleAntennaFlag65_bits b0 b1 b2 b3 b4 b5 b6, SystemDesignAssurance_bits b0 b1 b2 b3 b4 b5 b6, VersionNumber_bits b0 b1 b2 b3 b4 b5 b6, NICSupplementA_bits b0 b1 b2 b3 b4 b5 b6, NavigationalAccuracyCategoryPosition_bits b0 b1 b2 b3 b4 b5 b6, GeometricVerticalAccuracy_bits b0 b1 b2 b3 b4 b5 b6, SourceIntegrityLevel65_bits b0 b1 b2 b3 b4 b5 b6, NICBaro65_bits b0 b1 b2 b3 b4 b5 b6, HorizontalReferenceDirection_bits b0 b1 b2 b3 b4 b5 b6, SourceIntegrityLevelSupplement65_bits b0 b1 b2 b3 b4 b5 b6⟩

/-- The layout of `OpStatusSurfaceV1`: the positions of its fields. -/
structure OpStatusSurfaceV1.Layout (d : List UInt8) (m : OpStatusSurfaceV1) : Prop where
  formatTypeCode : m.formatTypeCode.toNat = bits d 1 5
  subtype : m.subtype.toNat = bits d 6 8
  surfaceCapabilityClass_positionOffsetApplied : m.surfaceCapabilityClass.positionOffsetApplied.toNat = bits d 11 11
  surfaceCapabilityClass_cockpitDisplayOfTrafficInformationStatus : m.surfaceCapabilityClass.cockpitDisplayOfTrafficInformationStatus.toNat = bits d 12 12
  surfaceCapabilityClass_b2Low : m.surfaceCapabilityClass.b2Low.toNat = bits d 15 15
  lengthAndWidth : m.lengthAndWidth.toNat = bits d 21 24
  operationalMode_acasRAActive : m.operationalMode.acasRAActive.toNat = bits d 27 27
  operationalMode_identSwitchActive : m.operationalMode.identSwitchActive.toNat = bits d 28 28
  operationalMode_receivingATCServices : m.operationalMode.receivingATCServices.toNat = bits d 29 29
  versionNumber : m.versionNumber.toNat = bits d 41 43
  nicSupplement : m.nicSupplement.toNat = bits d 44 44
  navigationalAccuracyCategoryPosition : m.navigationalAccuracyCategoryPosition.toNat = bits d 45 48
  surveillanceIntegrityLevel : m.surveillanceIntegrityLevel.toNat = bits d 51 52
  trackAngleHeading : m.trackAngleHeading.toNat = bits d 53 53
  horizontalReferenceDirection : m.horizontalReferenceDirection.toNat = bits d 54 54

theorem OpStatusSurfaceV1_eval (d : List UInt8) (h7 : d.length = 7) :
    (readOpStatusSurfaceV1 d = .error .err ∧ ¬ (bits d 1 5 = 31 ∧ bits d 6 8 = 1 ∧ bits d 41 43 = 1 ∧ bits d 9 10 = 0 ∧ bits d 13 14 = 0 ∧ bits d 25 26 = 0 ∧ bits d 49 50 = 0 ∧ bits d 55 56 = 0)) ∨
    ((bits d 1 5 = 31 ∧ bits d 6 8 = 1 ∧ bits d 41 43 = 1 ∧ bits d 9 10 = 0 ∧ bits d 13 14 = 0 ∧ bits d 25 26 = 0 ∧ bits d 49 50 = 0 ∧ bits d 55 56 = 0) ∧
      ∃ m, readOpStatusSurfaceV1 d = .ok m ∧ OpStatusSurfaceV1.Layout d m) := by
  obtain ⟨b0, b1, b2, b3, b4, b5, b6, rfl⟩ := list7 d h7
  have e0 : (b0 &&& 248) >>> 3 = 31 ↔ bits [b0, b1, b2, b3, b4, b5, b6] 1 5 = 31 := by word_nat; byte_omega
  have e1 : b0 &&& 7 = 1 ↔ bits [b0, b1, b2, b3, b4, b5, b6] 6 8 = 1 := by word_nat; byte_omega
  have e2 : (b5 &&& 224) >>> 5 = 1 ↔ bits [b0, b1, b2, b3, b4, b5, b6] 41 43 = 1 := by word_nat; byte_omega
  have e3 : (b1 &&& 192) >>> 4 + (b1 &&& 12) >>> 2 = 0 ↔ bits [b0, b1, b2, b3, b4, b5, b6] 9 10 = 0 ∧ bits [b0, b1, b2, b3, b4, b5, b6] 13 14 = 0 := by word_nat; byte_omega
  have e4 : (b3 &&& 192) >>> 6 = 0 ↔ bits [b0, b1, b2, b3, b4, b5, b6] 25 26 = 0 := by word_nat; byte_omega
  have e5 : b6 &&& 192 = 0 ↔ bits [b0, b1, b2, b3, b4, b5, b6] 49 50 = 0 := by word_nat; byte_omega
  have e6 : b6 &&& 3 = 0 ↔ bits [b0, b1, b2, b3, b4, b5, b6] 55 56 = 0 := by word_nat; byte_omega
  unfold readOpStatusSurfaceV1 readFormatTypeCode readSubtype65 readVersionNumber readSurfaceCapabilityClassV1 readOperationalMode readPositionOffsetApplied readCockpitDisplayOfTrafficInformationStatus readB2Low readAircraftLengthAndWidth readACASResolutionAdvisoryActiveV1 readIdentSwitchActive readReceivingATCServices readNICSupplementA readNavigationalAccuracyCategoryPosition readSourceIntegrityLevel65 readTrackAngleHeading readHorizontalReferenceDirection
  go_run []
  split
  · rename_i h
    exact Or.inl ⟨rfl, fun ha => h (e0.2 ha.1)⟩
  rename_i h0
  split
  · rename_i h
    exact Or.inl ⟨rfl, fun ha => h (e1.2 ha.2.1)⟩
  rename_i h1
  split
  · rename_i h
    exact Or.inl ⟨rfl, fun ha => h (e2.2 ha.2.2.1)⟩
  rename_i h2
  split
  · rename_i h
    exact Or.inl ⟨rfl, fun ha => h (e3.2 ⟨ha.2.2.2.1, ha.2.2.2.2.1⟩)⟩
  rename_i h3
  split
  · rename_i h
    exact Or.inl ⟨rfl, fun ha => h (e4.2 ha.2.2.2.2.2.1)⟩
  rename_i h4
  split
  · rename_i h
    exact Or.inl ⟨rfl, fun ha => h (e5.2 ha.2.2.2.2.2.2.1)⟩
  rename_i h5
  split
  · rename_i h
    exact Or.inl ⟨rfl, fun ha => h (e6.2 ha.2.2.2.2.2.2.2)⟩
  rename_i h6
  refine Or.inr ⟨⟨e0.1 (Decidable.not_not.1 h0), e1.1 (Decidable.not_not.1 h1), e2.1 (Decidable.not_not.1 h2), (e3.1 (Decidable.not_not.1 h3)).1, (e3.1 (Decidable.not_not.1 h3)).2, e4.1 (Decidable.not_not.1 h4), e5.1 (Decidable.not_not.1 h5), e6.1 (Decidable.not_not.1 h6)⟩, _, rfl, ?_⟩
  exact ⟨ftc_bits b0 b1 b2 b3 b4 b5 b6, Subtype65_bits b0 b1 b2 b3 b4 b5 b6, PositionOffsetApplied_bits b0 b1 b2 b3 b4 b5 b6, CockpitDisplayOfTrafficInformationStatus_bits b0 b1 b2 b3 b4 b5 b6, B2Low_bits b0 b1 b2 b3 b4 b5 b6, AircraftLengthAndWidth_bits b0 b1 b2 b3 b4 b5 b6, ACASResolutionAdvisoryActiveV1_bits b0 b1 b2 b3 b4 b5 b6, IdentSwitchActive_bits b0 b1 b2 b3 b4 b5 b6, ReceivingATCServices_bits b0 b1 b2 b3 b4 b5 b6, VersionNumber_bits b0 b1 b2 b3 b4 b5 b6, NICSupplementA_bits b0 b1 b2 b3 b4 b5 b6, NavigationalAccuracyCategoryPosition_bits b0 b1 b2 b3 b4 b5 b6, SourceIntegrityLevel65_bits b0 b1 b2 b3 b4 b5 b6, TrackAngleHeading_bits b0 b1 b2 b3 b4 b5 b6, HorizontalReferenceDirection_bits b0 b1 b2 b3 b4 b5 b6⟩

/-- The layout of `OpStatusSurfaceV2`: the positions of its fields. -/
structure OpStatusSurfaceV2.Layout (d : List UInt8) (m : OpStatusSurfaceV2) : Prop where
  formatTypeCode : m.formatTypeCode.toNat = bits d 1 5
  subtype : m.subtype.toNat = bits d 6 8
  surfaceCapabilityClass_extendedSquitterIn : m.surfaceCapabilityClass.extendedSquitterIn.toNat = bits d 12 12
  surfaceCapabilityClass_b2Low : m.surfaceCapabilityClass.b2Low.toNat = bits d 15 15
  surfaceCapabilityClass_uatCapability : m.surfaceCapabilityClass.uatCapability.toNat = bits d 16 16
  surfaceCapabilityClass_navigationAccuracyCategoryVelocity : m.surfaceCapabilityClass.navigationAccuracyCategoryVelocity.toNat = bits d 17 19
  surfaceCapabilityClass_nicSupplementC : m.surfaceCapabilityClass.nicSupplementC.toNat = bits d 20 20
  lengthAndWidth : m.lengthAndWidth.toNat = bits d 21 24
  operationalMode_acasRAActive : m.operationalMode.acasRAActive.toNat = bits d 27 27
  operationalMode_identSwitchActive : m.operationalMode.identSwitchActive.toNat = bits d 28 28
  operationalMode_singleAntennaFlag : m.operationalMode.singleAntennaFlag.toNat = bits d 30 30
  operationalMode_systemDesignAssurance : m.operationalMode.systemDesignAssurance.toNat = bits d 31 32
  operationalMode_gpsAntennaLateral : m.operationalMode.gpsAntennaLateral.toNat = bits d 33 35
  operationalMode_gpsAntennaLongitudinal : m.operationalMode.gpsAntennaLongitudinal.toNat = bits d 36 40
  versionNumber : m.versionNumber.toNat = bits d 41 43
  nicSupplementA : m.nicSupplementA.toNat = bits d 44 44
  navigationalAccuracyCategoryPosition : m.navigationalAccuracyCategoryPosition.toNat = bits d 45 48
  sourceIntegrityLevel : m.sourceIntegrityLevel.toNat = bits d 51 52
  trackAngleHeading : m.trackAngleHeading.toNat = bits d 53 53
  horizontalReferenceDirection : m.horizontalReferenceDirection.toNat = bits d 54 54
  sourceIntegrityLevelSupplement : m.sourceIntegrityLevelSupplement.toNat = bits d 55 55

theorem OpStatusSurfaceV2_eval (d : List UInt8) (h7 : d.length = 7) :
    (readOpStatusSurfaceV2 d = .error .err ∧ ¬ (bits d 1 5 = 31 ∧ bits d 6 8 = 1 ∧ bits d 41 43 = 2 ∧ bits d 9 10 = 0 ∧ bits d 25 26 = 0 ∧ bits d 56 56 = 0)) ∨
    ((bits d 1 5 = 31 ∧ bits d 6 8 = 1 ∧ bits d 41 43 = 2 ∧ bits d 9 10 = 0 ∧ bits d 25 26 = 0 ∧ bits d 56 56 = 0) ∧
      ∃ m, readOpStatusSurfaceV2 d = .ok m ∧ OpStatusSurfaceV2.Layout d m) := by
  obtain ⟨b0, b1, b2, b3, b4, b5, b6, rfl⟩ := list7 d h7
  have e0 : (b0 &&& 248) >>> 3 = 31 ↔ bits [b0, b1, b2, b3, b4, b5, b6] 1 5 = 31 := by word_nat; byte_omega
  have e1 : b0 &&& 7 = 1 ↔ bits [b0, b1, b2, b3, b4, b5, b6] 6 8 = 1 := by word_nat; byte_omega
  have e2 : (b5 &&& 224) >>> 5 = 2 ↔ bits [b0, b1, b2, b3, b4, b5, b6] 41 43 = 2 := by word_nat; byte_omega
  have e3 : (b1 &&& 192) >>> 6 = 0 ↔ bits [b0, b1, b2, b3, b4, b5, b6] 9 10 = 0 := by word_nat; byte_omega
  have e4 : (b3 &&& 192) >>> 6 = 0 ↔ bits [b0, b1, b2, b3, b4, b5, b6] 25 26 = 0 := by word_nat; byte_omega
  have e5 : b6 &&& 1 = 0 ↔ bits [b0, b1, b2, b3, b4, b5, b6] 56 56 = 0 := by word_nat; byte_omega
  unfold readOpStatusSurfaceV2 readFormatTypeCode readSubtype65 readVersionNumber readSurfaceCapabilityClassV2 readSurfaceOperationalMode readExtendedSquitterIn readB2Low readUATCapabilitySurface readNavigationAccuracyCategoryVelocity readNICSupplementC readAircraftLengthAndWidth readACASResolutionAdvisoryActiveV2 readIdentSwitchActive readSingleAntennaFlag65 readSystemDesignAssurance readGPSAntennaLateral readGPSAntennaLongitudinal readNICSupplementA readNavigationalAccuracyCategoryPosition readSourceIntegrityLevel65 readTrackAngleHeading readHorizontalReferenceDirection readSourceIntegrityLevelSupplement65
  go_run []
  split
  · rename_i h
    exact Or.inl ⟨rfl, fun ha => h (e0.2 ha.1)⟩
  rename_i h0
  split
  · rename_i h
    exact Or.inl ⟨rfl, fun ha => h (e1.2 ha.2.1)⟩
  rename_i h1
  split
  · rename_i h
    exact Or.inl ⟨rfl, fun ha => h (e2.2 ha.2.2.1)⟩
  rename_i h2
  split
  · rename_i h
    exact Or.inl ⟨rfl, fun ha => h (e3.2 ha.2.2.2.1)⟩
  rename_i h3
  split
  · rename_i h
    exact Or.inl ⟨rfl, fun ha => h (e4.2 ha.2.2.2.2.1)⟩
  rename_i h4
  split
  · rename_i h
    exact Or.inl ⟨rfl, fun ha => h (e5.2 ha.2.2.2.2.2)⟩
  rename_i h5
  refine Or.inr ⟨⟨e0.1 (Decidable.not_not.1 h0), e1.1 (Decidable.not_not.1 h1), e2.1 (Decidable.not_not.1 h2), e3.1 (Decidable.not_not.1 h3), e4.1 (Decidable.not_not.1 h4), e5.1 (Decidable.not_not.1 h5)⟩, _, rfl, ?_⟩
  exact ⟨ftc_bits b0 b1 b2 b3 b4 b5 b6, Subtype65_bits b0 b1 b2 b3 b4 b5 b6, ExtendedSquitterIn_bits b0 b1 b2 b3 b4 b5 b6, B2Low_bits b0 b1 b2 b3 b4 b5 b6, UATCapabilitySurface_bits b0 b1 b2 b3 b4 b5 b6, NavigationAccuracyCategoryVelocity_bits b0 b1 b2 b3 b4 b5 b6, NICSupplementC_bits b0 b1 b2 b3 b4 b5 b6, AircraftLengthAndWidth_bits b0 b1 b2 b3 b4 b5 b6, ACASResolutionAdvisoryActiveV2_bits b0 b1 b2 b3 b4 b5 b6, IdentSwitchActive_bits b0 b1 b2 b3 b4 b5 b6, SingleAntennaFlag65_bits b0 b1 b2 b3 b4 b5 b6, SystemDesignAssurance_bits b0 b1 b2 b3 b4 b5 b6, GPSAntennaLateral_bits b0 b1 b2 b3 b4 b5 b6, GPSAntennaLongitudinal_bits b0 b1 b2 b3 b4 b5 b6, VersionNumber_bits b0 b1 b2 b3 b4 b5 b6, NICSupplementA_bits b0 b1 b2 b3 b4 b5 b6, NavigationalAccuracyCategoryPosition_bits b0 b1 b2 b3 b4 b5 b6, SourceIntegrityLevel65_bits b0 b1 b2 b3 b4 b5 b6, TrackAngleHeading_bits b0 b1 b2 b3 b4 b5 b6, HorizontalReferenceDirection_bits b0 b1 b2 b3 b4 b5 b6, SourceIntegrityLevelSupplement65_bits b0 b1 b2 b3 b4 b5 b6⟩

end Modes
namespace Spec

/-- The reserved bits of a layout: version 0, 1 or 2. -/
def OpReserved (d : List UInt8) : Nat → Prop
  | 0 => bits d 41 56 = 0
  | 1 => bits d 9 10 = 0 ∧ bits d 13 14 = 0 ∧ bits d 25 26 = 0 ∧ bits d 49 50 = 0 ∧ bits d 55 56 = 0
  | 2 => bits d 9 10 = 0 ∧ bits d 25 26 = 0 ∧ bits d 56 56 = 0
  | _ => False

instance (d : List UInt8) (n : Nat) : Decidable (OpReserved d n) := by
  unfold OpReserved; split <;> infer_instance

/-- Which operational status messages are acceptable: type code 31, a known version, an airborne (0) or, from version 1 on,
surface (1) subtype, and the reserved bits of the version. -/
def OpAccepted (d : List UInt8) : Prop :=
  d.length = 7 ∧ bits d 1 5 = 31 ∧ bits d 41 43 ≤ 2 ∧ (bits d 6 8 = 0 ∨ bits d 6 8 = 1 ∧ 1 ≤ bits d 41 43) ∧
  OpReserved d (bits d 41 43)

instance (d : List UInt8) : Decidable (OpAccepted d) := by unfold OpAccepted; infer_instance

end Spec
namespace Modes

/-- Everything the reader can do. -/
theorem bds65_eval (d : List UInt8) :
    (readBDS65 d = .error .err ∧ ¬ OpAccepted d) ∨
    (OpAccepted d ∧ (
      (bits d 41 43 = 0 ∧ bits d 6 8 = 0 ∧ ∃ m, readBDS65 d = .ok (.v0 m) ∧ OpStatusV0.Layout d m) ∨
      (bits d 41 43 = 1 ∧ bits d 6 8 = 0 ∧ ∃ m, readBDS65 d = .ok (.airborneV1 m) ∧ OpStatusAirborneV1.Layout d m) ∨
      (bits d 41 43 = 2 ∧ bits d 6 8 = 0 ∧ ∃ m, readBDS65 d = .ok (.airborneV2 m) ∧ OpStatusAirborneV2.Layout d m) ∨
      (bits d 41 43 = 1 ∧ bits d 6 8 = 1 ∧ ∃ m, readBDS65 d = .ok (.surfaceV1 m) ∧ OpStatusSurfaceV1.Layout d m) ∨
      (bits d 41 43 = 2 ∧ bits d 6 8 = 1 ∧ ∃ m, readBDS65 d = .ok (.surfaceV2 m) ∧ OpStatusSurfaceV2.Layout d m))) := by
  by_cases h7 : d.length = 7
  rotate_left
  · left
    refine ⟨?_, fun h => h7 h.1⟩
    unfold readBDS65
    simp [h7, fail, bind, Except.bind]
  have a0 := OpStatusV0_eval d h7
  have a1 := OpStatusAirborneV1_eval d h7
  have a2 := OpStatusAirborneV2_eval d h7
  have a3 := OpStatusSurfaceV1_eval d h7
  have a4 := OpStatusSurfaceV2_eval d h7
  have hv : bits d 41 56 = 0 → bits d 41 43 = 0 := by
    obtain ⟨b0, b1, b2, b3, b4, b5, b6, rfl⟩ := list7 d h7
    byte_omega
  have key : readBDS65 d = (if ¬ bits d 1 5 = 31 then .error .err
      else if bits d 41 43 = 0 then (readOpStatusV0 d).map .v0
      else if bits d 41 43 = 1 then
        (if bits d 6 8 = 0 then (readOpStatusAirborneV1 d).map .airborneV1
         else if bits d 6 8 = 1 then (readOpStatusSurfaceV1 d).map .surfaceV1 else .error .err)
      else if bits d 41 43 = 2 then
        (if bits d 6 8 = 0 then (readOpStatusAirborneV2 d).map .airborneV2
         else if bits d 6 8 = 1 then (readOpStatusSurfaceV2 d).map .surfaceV2 else .error .err)
      else .error .err) := by
    clear a0 a1 a2 a3 a4 hv
    obtain ⟨b0, b1, b2, b3, b4, b5, b6, rfl⟩ := list7 d h7
    have f1 := ftc_bits b0 b1 b2 b3 b4 b5 b6
    have f2 := Subtype65_bits b0 b1 b2 b3 b4 b5 b6
    have f3 := VersionNumber_bits b0 b1 b2 b3 b4 b5 b6
    have g1 : ((b0 &&& 248) >>> 3 = 31) = (bits [b0, b1, b2, b3, b4, b5, b6] 1 5 = 31) := by rw [u8_eq, f1]; rfl
    have g2 : (b0 &&& 7 = 0) = (bits [b0, b1, b2, b3, b4, b5, b6] 6 8 = 0) := by rw [u8_eq, f2]; rfl
    have g3 : (b0 &&& 7 = 1) = (bits [b0, b1, b2, b3, b4, b5, b6] 6 8 = 1) := by rw [u8_eq, f2]; rfl
    have g4 : ((b5 &&& 224) >>> 5 = 0) = (bits [b0, b1, b2, b3, b4, b5, b6] 41 43 = 0) := by rw [u8_eq, f3]; rfl
    have g5 : ((b5 &&& 224) >>> 5 = 1) = (bits [b0, b1, b2, b3, b4, b5, b6] 41 43 = 1) := by rw [u8_eq, f3]; rfl
    have g6 : ((b5 &&& 224) >>> 5 = 2) = (bits [b0, b1, b2, b3, b4, b5, b6] 41 43 = 2) := by rw [u8_eq, f3]; rfl
    unfold readBDS65 readFormatTypeCode
    go_run [g1, g2, g3, g4, g5, g6]
    rfl
  rw [key]
  clear key
  unfold OpAccepted OpReserved
  generalize bits d 1 5 = x at *
  generalize bits d 6 8 = y at *
  generalize hz : bits d 41 43 = z at *
  by_cases hx : x = 31
  rotate_left
  · rw [if_pos hx]; exact Or.inl ⟨rfl, fun h => hx h.2.1⟩
  rw [if_neg (not_not_intro hx)]
  by_cases h0 : z = 0
  · subst h0
    rw [if_pos rfl]
    rcases a0 with ⟨e, hn⟩ | ⟨⟨c1, c2, c3⟩, m, e, hl⟩
    · rw [e]
      refine Or.inl ⟨rfl, ?_⟩
      rintro ⟨-, -, -, h | h, hr⟩
      · exact hn ⟨hx, h, hr⟩
      · omega
    · rw [e]
      exact Or.inr ⟨⟨h7, hx, by omega, Or.inl c2, c3⟩, Or.inl ⟨rfl, c2, m, rfl, hl⟩⟩
  rw [if_neg h0]
  by_cases h1 : z = 1
  · subst h1
    rw [if_pos rfl]
    by_cases y0 : y = 0
    · rw [if_pos y0]
      rcases a1 with ⟨e, hn⟩ | ⟨⟨c1, c2, c3, c4⟩, m, e, hl⟩
      · rw [e]; exact Or.inl ⟨rfl, fun h => hn ⟨hx, y0, rfl, h.2.2.2.2⟩⟩
      · rw [e]; exact Or.inr ⟨⟨h7, hx, by omega, Or.inl y0, c4⟩, Or.inr (Or.inl ⟨rfl, y0, m, rfl, hl⟩)⟩
    rw [if_neg y0]
    by_cases y1 : y = 1
    · rw [if_pos y1]
      rcases a3 with ⟨e, hn⟩ | ⟨⟨c1, c2, c3, c4⟩, m, e, hl⟩
      · rw [e]; exact Or.inl ⟨rfl, fun h => hn ⟨hx, y1, rfl, h.2.2.2.2⟩⟩
      · rw [e]; exact Or.inr ⟨⟨h7, hx, by omega, Or.inr ⟨y1, by omega⟩, c4⟩,
          Or.inr (Or.inr (Or.inr (Or.inl ⟨rfl, y1, m, rfl, hl⟩)))⟩
    · rw [if_neg y1]
      exact Or.inl ⟨rfl, fun h => by rcases h.2.2.2.1 with g | g <;> omega⟩
  rw [if_neg h1]
  by_cases h2 : z = 2
  · subst h2
    rw [if_pos rfl]
    by_cases y0 : y = 0
    · rw [if_pos y0]
      rcases a2 with ⟨e, hn⟩ | ⟨⟨c1, c2, c3, c4⟩, m, e, hl⟩
      · rw [e]; exact Or.inl ⟨rfl, fun h => hn ⟨hx, y0, rfl, h.2.2.2.2⟩⟩
      · rw [e]; exact Or.inr ⟨⟨h7, hx, by omega, Or.inl y0, c4⟩, Or.inr (Or.inr (Or.inl ⟨rfl, y0, m, rfl, hl⟩))⟩
    rw [if_neg y0]
    by_cases y1 : y = 1
    · rw [if_pos y1]
      rcases a4 with ⟨e, hn⟩ | ⟨⟨c1, c2, c3, c4⟩, m, e, hl⟩
      · rw [e]; exact Or.inl ⟨rfl, fun h => hn ⟨hx, y1, rfl, h.2.2.2.2⟩⟩
      · rw [e]; exact Or.inr ⟨⟨h7, hx, by omega, Or.inr ⟨y1, by omega⟩, c4⟩,
          Or.inr (Or.inr (Or.inr (Or.inr ⟨rfl, y1, m, rfl, hl⟩)))⟩
    · rw [if_neg y1]
      exact Or.inl ⟨rfl, fun h => by rcases h.2.2.2.1 with g | g <;> omega⟩
  · rw [if_neg h2]
    exact Or.inl ⟨rfl, fun h => by omega⟩

/-- C40. An operational status is read exactly when its type code, version, subtype and reserved bits are acceptable; the
reader never panics. -/
theorem operational_status_accepts (d : List UInt8) :
    (Succeeds (readBDS65 d) ↔ OpAccepted d) ∧ NoPanic (readBDS65 d) := by
  rcases bds65_eval d with ⟨h, hn⟩ | ⟨ha, ⟨-, -, m, hm, -⟩ | ⟨-, -, m, hm, -⟩ | ⟨-, -, m, hm, -⟩ | ⟨-, -, m, hm, -⟩ | ⟨-, -, m, hm, -⟩⟩
  · exact ⟨⟨fun ⟨m, hm⟩ => (by rw [h] at hm; cases hm), fun h => absurd h hn⟩, by rw [h]; simp [NoPanic]⟩
  all_goals exact ⟨⟨fun _ => ha, fun _ => ⟨_, hm⟩⟩, by rw [hm]; simp [NoPanic]⟩

/-- C40/C41. The layout is that of the version number and the subtype; every field is the number in its position; the
reserved bits are zero. -/
theorem operational_status_content (d : List UInt8) (m : OperationalStatus) (h : readBDS65 d = .ok m) :
    OpReserved d (bits d 41 43) ∧
    match m with
    | .v0 m => bits d 41 43 = 0 ∧ bits d 6 8 = 0 ∧ OpStatusV0.Layout d m
    | .airborneV1 m => bits d 41 43 = 1 ∧ bits d 6 8 = 0 ∧ OpStatusAirborneV1.Layout d m
    | .airborneV2 m => bits d 41 43 = 2 ∧ bits d 6 8 = 0 ∧ OpStatusAirborneV2.Layout d m
    | .surfaceV1 m => bits d 41 43 = 1 ∧ bits d 6 8 = 1 ∧ OpStatusSurfaceV1.Layout d m
    | .surfaceV2 m => bits d 41 43 = 2 ∧ bits d 6 8 = 1 ∧ OpStatusSurfaceV2.Layout d m := by
  rcases bds65_eval d with ⟨e, hn⟩ | ⟨ha, ⟨c1, c2, m', hm, hl⟩ | ⟨c1, c2, m', hm, hl⟩ | ⟨c1, c2, m', hm, hl⟩ |
    ⟨c1, c2, m', hm, hl⟩ | ⟨c1, c2, m', hm, hl⟩⟩
  · rw [e] at h; cases h
  all_goals
    rw [hm] at h
    cases h
    exact ⟨ha.2.2.2.2, c1, c2, hl⟩

/-- C40, the version reported: the one carried, except for a version 2 surface message (`adsb_level_refuted`). -/
theorem adsb_level_partial (d : List UInt8) (m : OperationalStatus) (h : readBDS65 d = .ok m)
    (hne : ¬ (bits d 41 43 = 2 ∧ bits d 6 8 = 1)) : m.getADSBLevel.toNat = bits d 41 43 := by
  have := (operational_status_content d m h).2
  cases m <;> simp only at this <;> simp only [OperationalStatus.getADSBLevel] <;> try (rw [this.1]; rfl)
  exact absurd ⟨this.1, this.2.1⟩ hne

/-- C40, the part that is false: *every* readable version 2 surface message reports version 1. -/
theorem adsb_level_refuted (d : List UInt8) (m : OperationalStatus) (h : readBDS65 d = .ok m)
    (h2 : bits d 41 43 = 2) (h1 : bits d 6 8 = 1) : m.getADSBLevel.toNat = 1 := by
  have := (operational_status_content d m h).2
  cases m <;> simp only at this <;> first | rfl | (exfalso; omega)

/-- An airborne version 2 status, 8D4CA7B8F82300020049B8C22E57: readable. -/
example : OpAccepted [0xF8, 0x23, 0x00, 0x02, 0x00, 0x49, 0xB8] := by decide
/-- A surface version 2 status. -/
example : let d : List UInt8 := [0xF9, 0x13, 0x71, 0x02, 0x41, 0x49, 0xB2]
    OpAccepted d ∧ bits d 41 43 = 2 ∧ bits d 6 8 = 1 := by decide
example : OpAccepted [0xF8, 0x53, 0x71, 0x02, 0x41, 0, 0] ∧ OpAccepted [0xF8, 0x33, 0x40, 0x30, 0, 0x3A, 0x2C] ∧
    OpAccepted [0xF9, 0x32, 0x04, 0x30, 0, 0x3A, 0x2C] := by decide

end Modes
