import Verif.Model.Texts
import Verif.Lemmas.Text
/-!
# C72, C73: the texts of the coded fields

Written by tools/gen_texts_props.py.
-/
namespace Spec
open Modes

/-- The texts of different codes are different, and none has a line break. -/
structure Identifies (f : UInt8 → Txt) : Prop where
  inj : Function.Injective f
  line : ∀ c, OneLine (f c)

/-- Where a text is a number, a dash and an explanation, the number is the code. -/
def Numbered (f : UInt8 → Txt) : Prop := ∀ c n r, f c = dec n ++ ' ' :: '-' :: r → n = c.toNat

end Spec
namespace Modes
open Spec
namespace Text

theorem acasActiveRAPreventiveCorrective_identifies : Identifies acasActiveRAPreventiveCorrective :=
  ⟨tableText_inj _ _ (by decide +kernel) (by decide +kernel), tableText_line _ _ (by decide +kernel) (by decide +kernel)⟩
theorem acasActiveRAVerticalSpeedLimitOrPositive_identifies : Identifies acasActiveRAVerticalSpeedLimitOrPositive :=
  ⟨tableText_inj _ _ (by decide +kernel) (by decide +kernel), tableText_line _ _ (by decide +kernel) (by decide +kernel)⟩
theorem acasMultipleThreatEncounter_identifies : Identifies acasMultipleThreatEncounter :=
  ⟨tableText_inj _ _ (by decide +kernel) (by decide +kernel), tableText_line _ _ (by decide +kernel) (by decide +kernel)⟩
theorem acasRATerminatedIndicator_identifies : Identifies acasRATerminatedIndicator :=
  ⟨tableText_inj _ _ (by decide +kernel) (by decide +kernel), tableText_line _ _ (by decide +kernel) (by decide +kernel)⟩
theorem acasAltitudeStatus_identifies : Identifies acasAltitudeStatus :=
  ⟨tableText_inj _ _ (by decide +kernel) (by decide +kernel), tableText_line _ _ (by decide +kernel) (by decide +kernel)⟩
theorem acasThreatTypeIndicator_identifies : Identifies acasThreatTypeIndicator :=
  ⟨tableText_inj _ _ (by decide +kernel) (by decide +kernel), tableText_line _ _ (by decide +kernel) (by decide +kernel)⟩
theorem airborneContainmentRadius_identifies : Identifies airborneContainmentRadius :=
  ⟨tableText_inj _ _ (by decide +kernel) (by decide +kernel), tableText_line _ _ (by decide +kernel) (by decide +kernel)⟩
theorem airborneHorizontalContainmentRadiusV1_identifies : Identifies airborneHorizontalContainmentRadiusV1 :=
  ⟨tableText_inj _ _ (by decide +kernel) (by decide +kernel), tableText_line _ _ (by decide +kernel) (by decide +kernel)⟩
theorem airborneHorizontalContainmentRadiusV2_identifies : Identifies airborneHorizontalContainmentRadiusV2 :=
  ⟨tableText_inj _ _ (by decide +kernel) (by decide +kernel), tableText_line _ _ (by decide +kernel) (by decide +kernel)⟩
theorem airborneHorizontalProtectionLimit_identifies : Identifies airborneHorizontalProtectionLimit :=
  ⟨tableText_inj _ _ (by decide +kernel) (by decide +kernel), tableText_line _ _ (by decide +kernel) (by decide +kernel)⟩
theorem airborneNavigationIntegrityCodeSupplementB_identifies : Identifies airborneNavigationIntegrityCodeSupplementB :=
  ⟨tableText_inj _ _ (by decide +kernel) (by decide +kernel), tableText_line _ _ (by decide +kernel) (by decide +kernel)⟩
theorem surfaceContainmentRadius_identifies : Identifies surfaceContainmentRadius :=
  ⟨tableText_inj _ _ (by decide +kernel) (by decide +kernel), tableText_line _ _ (by decide +kernel) (by decide +kernel)⟩
theorem surfaceHorizontalContainmentRadiusV1_identifies : Identifies surfaceHorizontalContainmentRadiusV1 :=
  ⟨tableText_inj _ _ (by decide +kernel) (by decide +kernel), tableText_line _ _ (by decide +kernel) (by decide +kernel)⟩
theorem surfaceHorizontalContainmentRadiusV2_identifies : Identifies surfaceHorizontalContainmentRadiusV2 :=
  ⟨tableText_inj _ _ (by decide +kernel) (by decide +kernel), tableText_line _ _ (by decide +kernel) (by decide +kernel)⟩
theorem surfaceHorizontalProtectionLimit_identifies : Identifies surfaceHorizontalProtectionLimit :=
  ⟨tableText_inj _ _ (by decide +kernel) (by decide +kernel), tableText_line _ _ (by decide +kernel) (by decide +kernel)⟩
theorem bds05AltitudeSource_identifies : Identifies bds05AltitudeSource :=
  ⟨tableText_inj _ _ (by decide +kernel) (by decide +kernel), tableText_line _ _ (by decide +kernel) (by decide +kernel)⟩
theorem bds05AltitudeReportMethod_identifies : Identifies bds05AltitudeReportMethod :=
  ⟨tableText_inj _ _ (by decide +kernel) (by decide +kernel), tableText_line _ _ (by decide +kernel) (by decide +kernel)⟩
theorem bds05CompactPositionReportingFormat_identifies : Identifies bds05CompactPositionReportingFormat :=
  ⟨tableText_inj _ _ (by decide +kernel) (by decide +kernel), tableText_line _ _ (by decide +kernel) (by decide +kernel)⟩
theorem bds05SingleAntennaFlag_identifies : Identifies bds05SingleAntennaFlag :=
  ⟨tableText_inj _ _ (by decide +kernel) (by decide +kernel), tableText_line _ _ (by decide +kernel) (by decide +kernel)⟩
theorem bds05SurveillanceStatus_identifies : Identifies bds05SurveillanceStatus :=
  ⟨tableText_inj _ _ (by decide +kernel) (by decide +kernel), tableText_line _ _ (by decide +kernel) (by decide +kernel)⟩
theorem bds05Time_identifies : Identifies bds05Time :=
  ⟨tableText_inj _ _ (by decide +kernel) (by decide +kernel), tableText_line _ _ (by decide +kernel) (by decide +kernel)⟩
theorem bds06CompactPositionReportingFormat_identifies : Identifies bds06CompactPositionReportingFormat :=
  ⟨tableText_inj _ _ (by decide +kernel) (by decide +kernel), tableText_line _ _ (by decide +kernel) (by decide +kernel)⟩
theorem bds06MovementStatus_identifies : Identifies bds06MovementStatus :=
  ⟨tableText_inj _ _ (by decide +kernel) (by decide +kernel), tableText_line _ _ (by decide +kernel) (by decide +kernel)⟩
theorem bds06Time_identifies : Identifies bds06Time :=
  ⟨tableText_inj _ _ (by decide +kernel) (by decide +kernel), tableText_line _ _ (by decide +kernel) (by decide +kernel)⟩
theorem bds07AltitudeTypeSubfield_identifies : Identifies bds07AltitudeTypeSubfield :=
  ⟨tableText_inj _ _ (by decide +kernel) (by decide +kernel), tableText_line _ _ (by decide +kernel) (by decide +kernel)⟩
theorem bds07TransmissionRateSubfield_identifies : Identifies bds07TransmissionRateSubfield :=
  ⟨tableText_inj _ _ (by decide +kernel) (by decide +kernel), tableText_line _ _ (by decide +kernel) (by decide +kernel)⟩
theorem bds08AircraftCategorySetA_identifies : Identifies bds08AircraftCategorySetA :=
  ⟨tableText_inj _ _ (by decide +kernel) (by decide +kernel), tableText_line _ _ (by decide +kernel) (by decide +kernel)⟩
theorem bds08AircraftCategorySetB_identifies : Identifies bds08AircraftCategorySetB :=
  ⟨tableText_inj _ _ (by decide +kernel) (by decide +kernel), tableText_line _ _ (by decide +kernel) (by decide +kernel)⟩
theorem bds08AircraftCategorySetC_identifies : Identifies bds08AircraftCategorySetC :=
  ⟨tableText_inj _ _ (by decide +kernel) (by decide +kernel), tableText_line _ _ (by decide +kernel) (by decide +kernel)⟩
theorem bds08AircraftCategorySetD_identifies : Identifies bds08AircraftCategorySetD :=
  ⟨tableText_inj _ _ (by decide +kernel) (by decide +kernel), tableText_line _ _ (by decide +kernel) (by decide +kernel)⟩
theorem bds09IFRCapability_identifies : Identifies bds09IFRCapability :=
  ⟨tableText_inj _ _ (by decide +kernel) (by decide +kernel), tableText_line _ _ (by decide +kernel) (by decide +kernel)⟩
theorem bds09IntentChange_identifies : Identifies bds09IntentChange :=
  ⟨tableText_inj _ _ (by decide +kernel) (by decide +kernel), tableText_line _ _ (by decide +kernel) (by decide +kernel)⟩
theorem bds09MagneticHeadingStatus_identifies : Identifies bds09MagneticHeadingStatus :=
  ⟨tableText_inj _ _ (by decide +kernel) (by decide +kernel), tableText_line _ _ (by decide +kernel) (by decide +kernel)⟩
theorem bds09NumericValueStatus_identifies : Identifies bds09NumericValueStatus :=
  ⟨tableText_inj _ _ (by decide +kernel) (by decide +kernel), tableText_line _ _ (by decide +kernel) (by decide +kernel)⟩
theorem bds09Subtype_identifies : Identifies bds09Subtype :=
  ⟨tableText_inj _ _ (by decide +kernel) (by decide +kernel), tableText_line _ _ (by decide +kernel) (by decide +kernel)⟩
theorem bds09DirectionEastWest_identifies : Identifies bds09DirectionEastWest :=
  ⟨tableText_inj _ _ (by decide +kernel) (by decide +kernel), tableText_line _ _ (by decide +kernel) (by decide +kernel)⟩
theorem bds09DirectionNorthSouth_identifies : Identifies bds09DirectionNorthSouth :=
  ⟨tableText_inj _ _ (by decide +kernel) (by decide +kernel), tableText_line _ _ (by decide +kernel) (by decide +kernel)⟩
theorem bds09VerticalRateSource_identifies : Identifies bds09VerticalRateSource :=
  ⟨tableText_inj _ _ (by decide +kernel) (by decide +kernel), tableText_line _ _ (by decide +kernel) (by decide +kernel)⟩
theorem bds10ACASApplicableDocument_identifies : Identifies bds10ACASApplicableDocument :=
  ⟨tableText_inj _ _ (by decide +kernel) (by decide +kernel), tableText_line _ _ (by decide +kernel) (by decide +kernel)⟩
theorem bds10ACASGenerationCapability_identifies : Identifies bds10ACASGenerationCapability :=
  ⟨tableText_inj _ _ (by decide +kernel) (by decide +kernel), tableText_line _ _ (by decide +kernel) (by decide +kernel)⟩
theorem bds10ACASHybridSurveillanceCapability_identifies : Identifies bds10ACASHybridSurveillanceCapability :=
  ⟨tableText_inj _ _ (by decide +kernel) (by decide +kernel), tableText_line _ _ (by decide +kernel) (by decide +kernel)⟩
theorem bds10ACASStatus_identifies : Identifies bds10ACASStatus :=
  ⟨tableText_inj _ _ (by decide +kernel) (by decide +kernel), tableText_line _ _ (by decide +kernel) (by decide +kernel)⟩
theorem bds10AircraftIdentificationCapability_identifies : Identifies bds10AircraftIdentificationCapability :=
  ⟨tableText_inj _ _ (by decide +kernel) (by decide +kernel), tableText_line _ _ (by decide +kernel) (by decide +kernel)⟩
theorem bds10CommonUsageGICBCapability_identifies : Identifies bds10CommonUsageGICBCapability :=
  ⟨tableText_inj _ _ (by decide +kernel) (by decide +kernel), tableText_line _ _ (by decide +kernel) (by decide +kernel)⟩
theorem bds10ContinuationFlag_identifies : Identifies bds10ContinuationFlag :=
  ⟨tableText_inj _ _ (by decide +kernel) (by decide +kernel), tableText_line _ _ (by decide +kernel) (by decide +kernel)⟩
theorem bds10DownlinkELMThroughputCapability_identifies : Identifies bds10DownlinkELMThroughputCapability :=
  ⟨tableText_inj _ _ (by decide +kernel) (by decide +kernel), tableText_line _ _ (by decide +kernel) (by decide +kernel)⟩
theorem bds10ModeSSpecificServicesCapability_identifies : Identifies bds10ModeSSpecificServicesCapability :=
  ⟨tableText_inj _ _ (by decide +kernel) (by decide +kernel), tableText_line _ _ (by decide +kernel) (by decide +kernel)⟩
theorem bds10ModeSSubnetworkVersion_identifies : Identifies bds10ModeSSubnetworkVersion :=
  ⟨tableText_inj _ _ (by decide +kernel) (by decide +kernel), tableText_line _ _ (by decide +kernel) (by decide +kernel)⟩
theorem bds10OverlayCommandCapability_identifies : Identifies bds10OverlayCommandCapability :=
  ⟨tableText_inj _ _ (by decide +kernel) (by decide +kernel), tableText_line _ _ (by decide +kernel) (by decide +kernel)⟩
theorem bds10SquitterCapabilitySubfield_identifies : Identifies bds10SquitterCapabilitySubfield :=
  ⟨tableText_inj _ _ (by decide +kernel) (by decide +kernel), tableText_line _ _ (by decide +kernel) (by decide +kernel)⟩
theorem bds10SurveillanceIdentifierCode_identifies : Identifies bds10SurveillanceIdentifierCode :=
  ⟨tableText_inj _ _ (by decide +kernel) (by decide +kernel), tableText_line _ _ (by decide +kernel) (by decide +kernel)⟩
theorem bds10TransponderEnhancedProtocolIndicator_identifies : Identifies bds10TransponderEnhancedProtocolIndicator :=
  ⟨tableText_inj _ _ (by decide +kernel) (by decide +kernel), tableText_line _ _ (by decide +kernel) (by decide +kernel)⟩
theorem bds10UplinkELMThroughputCapability_identifies : Identifies bds10UplinkELMThroughputCapability :=
  ⟨tableText_inj _ _ (by decide +kernel) (by decide +kernel), tableText_line _ _ (by decide +kernel) (by decide +kernel)⟩
theorem bds40StatusOfModeBits_identifies : Identifies bds40StatusOfModeBits :=
  ⟨tableText_inj _ _ (by decide +kernel) (by decide +kernel), tableText_line _ _ (by decide +kernel) (by decide +kernel)⟩
theorem bds40StatusOfTargetAltitudeSource_identifies : Identifies bds40StatusOfTargetAltitudeSource :=
  ⟨tableText_inj _ _ (by decide +kernel) (by decide +kernel), tableText_line _ _ (by decide +kernel) (by decide +kernel)⟩
theorem bds40TargetAltitudeSource_identifies : Identifies bds40TargetAltitudeSource :=
  ⟨tableText_inj _ _ (by decide +kernel) (by decide +kernel), tableText_line _ _ (by decide +kernel) (by decide +kernel)⟩
theorem bds44Source_identifies : Identifies bds44Source :=
  ⟨tableText_inj _ _ (by decide +kernel) (by decide +kernel), tableText_line _ _ (by decide +kernel) (by decide +kernel)⟩
theorem bds44TurbulenceLevel_identifies : Identifies bds44TurbulenceLevel :=
  ⟨tableText_inj _ _ (by decide +kernel) (by decide +kernel), tableText_line _ _ (by decide +kernel) (by decide +kernel)⟩
theorem bds44TurbulenceFlag_identifies : Identifies bds44TurbulenceFlag :=
  ⟨tableText_inj _ _ (by decide +kernel) (by decide +kernel), tableText_line _ _ (by decide +kernel) (by decide +kernel)⟩
theorem bds45HazardLevel_identifies : Identifies bds45HazardLevel :=
  ⟨tableText_inj _ _ (by decide +kernel) (by decide +kernel), tableText_line _ _ (by decide +kernel) (by decide +kernel)⟩
theorem bds61EmergencyPriorityStatus_identifies : Identifies bds61EmergencyPriorityStatus :=
  ⟨tableText_inj _ _ (by decide +kernel) (by decide +kernel), tableText_line _ _ (by decide +kernel) (by decide +kernel)⟩
theorem bds61Subtype_identifies : Identifies bds61Subtype :=
  ⟨tableText_inj _ _ (by decide +kernel) (by decide +kernel), tableText_line _ _ (by decide +kernel) (by decide +kernel)⟩
theorem bds62CapabilityModeCode_identifies : Identifies bds62CapabilityModeCode :=
  ⟨tableText_inj _ _ (by decide +kernel) (by decide +kernel), tableText_line _ _ (by decide +kernel) (by decide +kernel)⟩
theorem bds62EmergencyPriorityStatus_identifies : Identifies bds62EmergencyPriorityStatus :=
  ⟨tableText_inj _ _ (by decide +kernel) (by decide +kernel), tableText_line _ _ (by decide +kernel) (by decide +kernel)⟩
theorem bds62HorizontalDataAvailableSourceIndicator_identifies : Identifies bds62HorizontalDataAvailableSourceIndicator :=
  ⟨tableText_inj _ _ (by decide +kernel) (by decide +kernel), tableText_line _ _ (by decide +kernel) (by decide +kernel)⟩
theorem bds62HorizontalModeIndicator_identifies : Identifies bds62HorizontalModeIndicator :=
  ⟨tableText_inj _ _ (by decide +kernel) (by decide +kernel), tableText_line _ _ (by decide +kernel) (by decide +kernel)⟩
theorem bds62NavigationalAccuracyCategoryPositionV1_identifies : Identifies bds62NavigationalAccuracyCategoryPositionV1 :=
  ⟨tableText_inj _ _ (by decide +kernel) (by decide +kernel), tableText_line _ _ (by decide +kernel) (by decide +kernel)⟩
theorem bds62NavigationalAccuracyCategoryPositionV2_identifies : Identifies bds62NavigationalAccuracyCategoryPositionV2 :=
  ⟨tableText_inj _ _ (by decide +kernel) (by decide +kernel), tableText_line _ _ (by decide +kernel) (by decide +kernel)⟩
theorem bds62NICBaro_identifies : Identifies bds62NICBaro :=
  ⟨tableText_inj _ _ (by decide +kernel) (by decide +kernel), tableText_line _ _ (by decide +kernel) (by decide +kernel)⟩
theorem bds62NumericValueStatus_identifies : Identifies bds62NumericValueStatus :=
  ⟨tableText_inj _ _ (by decide +kernel) (by decide +kernel), tableText_line _ _ (by decide +kernel) (by decide +kernel)⟩
theorem bds62SelectedAltitudeType_identifies : Identifies bds62SelectedAltitudeType :=
  ⟨tableText_inj _ _ (by decide +kernel) (by decide +kernel), tableText_line _ _ (by decide +kernel) (by decide +kernel)⟩
theorem bds62SelectedHeadingStatus_identifies : Identifies bds62SelectedHeadingStatus :=
  ⟨tableText_inj _ _ (by decide +kernel) (by decide +kernel), tableText_line _ _ (by decide +kernel) (by decide +kernel)⟩
theorem bds62SourceIntegrityLevel_identifies : Identifies bds62SourceIntegrityLevel :=
  ⟨tableText_inj _ _ (by decide +kernel) (by decide +kernel), tableText_line _ _ (by decide +kernel) (by decide +kernel)⟩
theorem bds62SourceIntegrityLevelSupplement_identifies : Identifies bds62SourceIntegrityLevelSupplement :=
  ⟨tableText_inj _ _ (by decide +kernel) (by decide +kernel), tableText_line _ _ (by decide +kernel) (by decide +kernel)⟩
theorem bds62StatusMCPFCUBits_identifies : Identifies bds62StatusMCPFCUBits :=
  ⟨tableText_inj _ _ (by decide +kernel) (by decide +kernel), tableText_line _ _ (by decide +kernel) (by decide +kernel)⟩
theorem bds62Subtype_identifies : Identifies bds62Subtype :=
  ⟨tableText_inj _ _ (by decide +kernel) (by decide +kernel), tableText_line _ _ (by decide +kernel) (by decide +kernel)⟩
theorem bds62TargetAltitudeCapability_identifies : Identifies bds62TargetAltitudeCapability :=
  ⟨tableText_inj _ _ (by decide +kernel) (by decide +kernel), tableText_line _ _ (by decide +kernel) (by decide +kernel)⟩
theorem bds62TargetAltitudeType_identifies : Identifies bds62TargetAltitudeType :=
  ⟨tableText_inj _ _ (by decide +kernel) (by decide +kernel), tableText_line _ _ (by decide +kernel) (by decide +kernel)⟩
theorem bds62TargetHeadingTrackIndicator_identifies : Identifies bds62TargetHeadingTrackIndicator :=
  ⟨tableText_inj _ _ (by decide +kernel) (by decide +kernel), tableText_line _ _ (by decide +kernel) (by decide +kernel)⟩
theorem bds62VerticalDataAvailableSourceIndicator_identifies : Identifies bds62VerticalDataAvailableSourceIndicator :=
  ⟨tableText_inj _ _ (by decide +kernel) (by decide +kernel), tableText_line _ _ (by decide +kernel) (by decide +kernel)⟩
theorem bds62VerticalModeIndicator_identifies : Identifies bds62VerticalModeIndicator :=
  ⟨tableText_inj _ _ (by decide +kernel) (by decide +kernel), tableText_line _ _ (by decide +kernel) (by decide +kernel)⟩
theorem bds65ACASOperational_identifies : Identifies bds65ACASOperational :=
  ⟨tableText_inj _ _ (by decide +kernel) (by decide +kernel), tableText_line _ _ (by decide +kernel) (by decide +kernel)⟩
theorem bds65ACASResolutionAdvisoryActiveV1_identifies : Identifies bds65ACASResolutionAdvisoryActiveV1 :=
  ⟨tableText_inj _ _ (by decide +kernel) (by decide +kernel), tableText_line _ _ (by decide +kernel) (by decide +kernel)⟩
theorem bds65ACASResolutionAdvisoryActiveV2_identifies : Identifies bds65ACASResolutionAdvisoryActiveV2 :=
  ⟨tableText_inj _ _ (by decide +kernel) (by decide +kernel), tableText_line _ _ (by decide +kernel) (by decide +kernel)⟩
theorem bds65AirReferencedVelocityReportCapability_identifies : Identifies bds65AirReferencedVelocityReportCapability :=
  ⟨tableText_inj _ _ (by decide +kernel) (by decide +kernel), tableText_line _ _ (by decide +kernel) (by decide +kernel)⟩
theorem bds65ApproachLandingOperationalCapabilities_identifies : Identifies bds65ApproachLandingOperationalCapabilities :=
  ⟨tableText_inj _ _ (by decide +kernel) (by decide +kernel), tableText_line _ _ (by decide +kernel) (by decide +kernel)⟩
theorem bds65ApproachLandingOperationalCapabilityStatus_identifies : Identifies bds65ApproachLandingOperationalCapabilityStatus :=
  ⟨tableText_inj _ _ (by decide +kernel) (by decide +kernel), tableText_line _ _ (by decide +kernel) (by decide +kernel)⟩
theorem bds65B2Low_identifies : Identifies bds65B2Low :=
  ⟨tableText_inj _ _ (by decide +kernel) (by decide +kernel), tableText_line _ _ (by decide +kernel) (by decide +kernel)⟩
theorem bds65CockpitDisplayOfTrafficInformationStatus_identifies : Identifies bds65CockpitDisplayOfTrafficInformationStatus :=
  ⟨tableText_inj _ _ (by decide +kernel) (by decide +kernel), tableText_line _ _ (by decide +kernel) (by decide +kernel)⟩
theorem bds65EnRouteOperationalCapabilities_identifies : Identifies bds65EnRouteOperationalCapabilities :=
  ⟨tableText_inj _ _ (by decide +kernel) (by decide +kernel), tableText_line _ _ (by decide +kernel) (by decide +kernel)⟩
theorem bds65EnRouteOperationalCapabilityStatus_identifies : Identifies bds65EnRouteOperationalCapabilityStatus :=
  ⟨tableText_inj _ _ (by decide +kernel) (by decide +kernel), tableText_line _ _ (by decide +kernel) (by decide +kernel)⟩
theorem bds65ExtendedSquitterIn_identifies : Identifies bds65ExtendedSquitterIn :=
  ⟨tableText_inj _ _ (by decide +kernel) (by decide +kernel), tableText_line _ _ (by decide +kernel) (by decide +kernel)⟩
theorem bds65GeometricVerticalAccuracy_identifies : Identifies bds65GeometricVerticalAccuracy :=
  ⟨tableText_inj _ _ (by decide +kernel) (by decide +kernel), tableText_line _ _ (by decide +kernel) (by decide +kernel)⟩
theorem bds65GPSAntennaLateral_identifies : Identifies bds65GPSAntennaLateral :=
  ⟨tableText_inj _ _ (by decide +kernel) (by decide +kernel), tableText_line _ _ (by decide +kernel) (by decide +kernel)⟩
theorem bds65HorizontalReferenceDirection_identifies : Identifies bds65HorizontalReferenceDirection :=
  ⟨tableText_inj _ _ (by decide +kernel) (by decide +kernel), tableText_line _ _ (by decide +kernel) (by decide +kernel)⟩
theorem bds65IdentSwitchActive_identifies : Identifies bds65IdentSwitchActive :=
  ⟨tableText_inj _ _ (by decide +kernel) (by decide +kernel), tableText_line _ _ (by decide +kernel) (by decide +kernel)⟩
theorem bds65LengthWidth_identifies : Identifies bds65LengthWidth :=
  ⟨tableText_inj _ _ (by decide +kernel) (by decide +kernel), tableText_line _ _ (by decide +kernel) (by decide +kernel)⟩
theorem bds65NavigationalAccuracyCategoryPositionV1_identifies : Identifies bds65NavigationalAccuracyCategoryPositionV1 :=
  ⟨tableText_inj _ _ (by decide +kernel) (by decide +kernel), tableText_line _ _ (by decide +kernel) (by decide +kernel)⟩
theorem bds65NavigationalAccuracyCategoryPositionV2_identifies : Identifies bds65NavigationalAccuracyCategoryPositionV2 :=
  ⟨tableText_inj _ _ (by decide +kernel) (by decide +kernel), tableText_line _ _ (by decide +kernel) (by decide +kernel)⟩
theorem bds65NICBaro_identifies : Identifies bds65NICBaro :=
  ⟨tableText_inj _ _ (by decide +kernel) (by decide +kernel), tableText_line _ _ (by decide +kernel) (by decide +kernel)⟩
theorem bds65NICSupplementA_identifies : Identifies bds65NICSupplementA :=
  ⟨tableText_inj _ _ (by decide +kernel) (by decide +kernel), tableText_line _ _ (by decide +kernel) (by decide +kernel)⟩
theorem bds65NICSupplementC_identifies : Identifies bds65NICSupplementC :=
  ⟨tableText_inj _ _ (by decide +kernel) (by decide +kernel), tableText_line _ _ (by decide +kernel) (by decide +kernel)⟩
theorem bds65NotACASStatus_identifies : Identifies bds65NotACASStatus :=
  ⟨tableText_inj _ _ (by decide +kernel) (by decide +kernel), tableText_line _ _ (by decide +kernel) (by decide +kernel)⟩
theorem bds65PositionOffsetApplied_identifies : Identifies bds65PositionOffsetApplied :=
  ⟨tableText_inj _ _ (by decide +kernel) (by decide +kernel), tableText_line _ _ (by decide +kernel) (by decide +kernel)⟩
theorem bds65ReceivingATCServices_identifies : Identifies bds65ReceivingATCServices :=
  ⟨tableText_inj _ _ (by decide +kernel) (by decide +kernel), tableText_line _ _ (by decide +kernel) (by decide +kernel)⟩
theorem bds65SingleAntennaFlag_identifies : Identifies bds65SingleAntennaFlag :=
  ⟨tableText_inj _ _ (by decide +kernel) (by decide +kernel), tableText_line _ _ (by decide +kernel) (by decide +kernel)⟩
theorem bds65SourceIntegrityLevel_identifies : Identifies bds65SourceIntegrityLevel :=
  ⟨tableText_inj _ _ (by decide +kernel) (by decide +kernel), tableText_line _ _ (by decide +kernel) (by decide +kernel)⟩
theorem bds65SourceIntegrityLevelSupplement_identifies : Identifies bds65SourceIntegrityLevelSupplement :=
  ⟨tableText_inj _ _ (by decide +kernel) (by decide +kernel), tableText_line _ _ (by decide +kernel) (by decide +kernel)⟩
theorem bds65Subtype_identifies : Identifies bds65Subtype :=
  ⟨tableText_inj _ _ (by decide +kernel) (by decide +kernel), tableText_line _ _ (by decide +kernel) (by decide +kernel)⟩
theorem bds65SurfaceOperationalCapabilities_identifies : Identifies bds65SurfaceOperationalCapabilities :=
  ⟨tableText_inj _ _ (by decide +kernel) (by decide +kernel), tableText_line _ _ (by decide +kernel) (by decide +kernel)⟩
theorem bds65SurfaceOperationalCapabilityStatus_identifies : Identifies bds65SurfaceOperationalCapabilityStatus :=
  ⟨tableText_inj _ _ (by decide +kernel) (by decide +kernel), tableText_line _ _ (by decide +kernel) (by decide +kernel)⟩
theorem bds65SystemDesignAssurance_identifies : Identifies bds65SystemDesignAssurance :=
  ⟨tableText_inj _ _ (by decide +kernel) (by decide +kernel), tableText_line _ _ (by decide +kernel) (by decide +kernel)⟩
theorem bds65TargetChangeReportCapability_identifies : Identifies bds65TargetChangeReportCapability :=
  ⟨tableText_inj _ _ (by decide +kernel) (by decide +kernel), tableText_line _ _ (by decide +kernel) (by decide +kernel)⟩
theorem bds65TargetStateReportCapability_identifies : Identifies bds65TargetStateReportCapability :=
  ⟨tableText_inj _ _ (by decide +kernel) (by decide +kernel), tableText_line _ _ (by decide +kernel) (by decide +kernel)⟩
theorem bds65TerminalAreaOperationalCapabilities_identifies : Identifies bds65TerminalAreaOperationalCapabilities :=
  ⟨tableText_inj _ _ (by decide +kernel) (by decide +kernel), tableText_line _ _ (by decide +kernel) (by decide +kernel)⟩
theorem bds65TerminalAreaOperationalCapabilityStatus_identifies : Identifies bds65TerminalAreaOperationalCapabilityStatus :=
  ⟨tableText_inj _ _ (by decide +kernel) (by decide +kernel), tableText_line _ _ (by decide +kernel) (by decide +kernel)⟩
theorem bds65TrackAngleHeading_identifies : Identifies bds65TrackAngleHeading :=
  ⟨tableText_inj _ _ (by decide +kernel) (by decide +kernel), tableText_line _ _ (by decide +kernel) (by decide +kernel)⟩
theorem bds65UniversalAccessTransceiverCapability_identifies : Identifies bds65UniversalAccessTransceiverCapability :=
  ⟨tableText_inj _ _ (by decide +kernel) (by decide +kernel), tableText_line _ _ (by decide +kernel) (by decide +kernel)⟩
theorem modesAltitudeReportMethod_identifies : Identifies modesAltitudeReportMethod :=
  ⟨tableText_inj _ _ (by decide +kernel) (by decide +kernel), tableText_line _ _ (by decide +kernel) (by decide +kernel)⟩
theorem modesApplicationField_identifies : Identifies modesApplicationField :=
  ⟨tableText_inj _ _ (by decide +kernel) (by decide +kernel), tableText_line _ _ (by decide +kernel) (by decide +kernel)⟩
theorem modesCapability_identifies : Identifies modesCapability :=
  ⟨tableText_inj _ _ (by decide +kernel) (by decide +kernel), tableText_line _ _ (by decide +kernel) (by decide +kernel)⟩
theorem modesControlELM_identifies : Identifies modesControlELM :=
  ⟨tableText_inj _ _ (by decide +kernel) (by decide +kernel), tableText_line _ _ (by decide +kernel) (by decide +kernel)⟩
theorem modesControlField_identifies : Identifies modesControlField :=
  ⟨tableText_inj _ _ (by decide +kernel) (by decide +kernel), tableText_line _ _ (by decide +kernel) (by decide +kernel)⟩
theorem modesCrossLinkCompatibility_identifies : Identifies modesCrossLinkCompatibility :=
  ⟨tableText_inj _ _ (by decide +kernel) (by decide +kernel), tableText_line _ _ (by decide +kernel) (by decide +kernel)⟩
theorem modesDownlinkRequest_identifies : Identifies modesDownlinkRequest :=
  ⟨tableText_inj _ _ (by decide +kernel) (by decide +kernel), tableText_line _ _ (by decide +kernel) (by decide +kernel)⟩
theorem modesFlightStatus_identifies : Identifies modesFlightStatus :=
  ⟨tableText_inj _ _ (by decide +kernel) (by decide +kernel), tableText_line _ _ (by decide +kernel) (by decide +kernel)⟩
theorem modesReplyInformationAirAir_identifies : Identifies modesReplyInformationAirAir :=
  ⟨tableText_inj _ _ (by decide +kernel) (by decide +kernel), tableText_line _ _ (by decide +kernel) (by decide +kernel)⟩
theorem modesSensitivityLevelReport_identifies : Identifies modesSensitivityLevelReport :=
  ⟨tableText_inj _ _ (by decide +kernel) (by decide +kernel), tableText_line _ _ (by decide +kernel) (by decide +kernel)⟩
theorem modesUtilityMessageIdentifierDesignator_identifies : Identifies modesUtilityMessageIdentifierDesignator :=
  ⟨tableText_inj _ _ (by decide +kernel) (by decide +kernel), tableText_line _ _ (by decide +kernel) (by decide +kernel)⟩
theorem modesVerticalStatus_identifies : Identifies modesVerticalStatus :=
  ⟨tableText_inj _ _ (by decide +kernel) (by decide +kernel), tableText_line _ _ (by decide +kernel) (by decide +kernel)⟩

theorem acasActiveRAPreventiveCorrective_numbered : Numbered acasActiveRAPreventiveCorrective := tableText_numbered _ _ (by decide +kernel) rfl
theorem acasActiveRAVerticalSpeedLimitOrPositive_numbered : Numbered acasActiveRAVerticalSpeedLimitOrPositive := tableText_numbered _ _ (by decide +kernel) rfl
theorem acasMultipleThreatEncounter_numbered : Numbered acasMultipleThreatEncounter := tableText_numbered _ _ (by decide +kernel) rfl
theorem acasRATerminatedIndicator_numbered : Numbered acasRATerminatedIndicator := tableText_numbered _ _ (by decide +kernel) rfl
theorem acasAltitudeStatus_numbered : Numbered acasAltitudeStatus := tableText_numbered _ _ (by decide +kernel) rfl
theorem acasThreatTypeIndicator_numbered : Numbered acasThreatTypeIndicator := tableText_numbered _ _ (by decide +kernel) rfl
theorem airborneContainmentRadius_numbered : Numbered airborneContainmentRadius := tableText_numbered _ _ (by decide +kernel) rfl
theorem airborneHorizontalContainmentRadiusV1_numbered : Numbered airborneHorizontalContainmentRadiusV1 := tableText_numbered _ _ (by decide +kernel) rfl
theorem airborneHorizontalContainmentRadiusV2_numbered : Numbered airborneHorizontalContainmentRadiusV2 := tableText_numbered _ _ (by decide +kernel) rfl
theorem airborneHorizontalProtectionLimit_numbered : Numbered airborneHorizontalProtectionLimit := tableText_numbered _ _ (by decide +kernel) rfl
theorem airborneNavigationIntegrityCodeSupplementB_numbered : Numbered airborneNavigationIntegrityCodeSupplementB := tableText_numbered _ _ (by decide +kernel) rfl
theorem surfaceContainmentRadius_numbered : Numbered surfaceContainmentRadius := tableText_numbered _ _ (by decide +kernel) rfl
theorem surfaceHorizontalContainmentRadiusV1_numbered : Numbered surfaceHorizontalContainmentRadiusV1 := tableText_numbered _ _ (by decide +kernel) rfl
theorem surfaceHorizontalContainmentRadiusV2_numbered : Numbered surfaceHorizontalContainmentRadiusV2 := tableText_numbered _ _ (by decide +kernel) rfl
theorem surfaceHorizontalProtectionLimit_numbered : Numbered surfaceHorizontalProtectionLimit := tableText_numbered _ _ (by decide +kernel) rfl
theorem bds05AltitudeSource_numbered : Numbered bds05AltitudeSource := tableText_numbered _ _ (by decide +kernel) rfl
theorem bds05AltitudeReportMethod_numbered : Numbered bds05AltitudeReportMethod := tableText_numbered _ _ (by decide +kernel) rfl
theorem bds05CompactPositionReportingFormat_numbered : Numbered bds05CompactPositionReportingFormat := tableText_numbered _ _ (by decide +kernel) rfl
theorem bds05SingleAntennaFlag_numbered : Numbered bds05SingleAntennaFlag := tableText_numbered _ _ (by decide +kernel) rfl
theorem bds05SurveillanceStatus_numbered : Numbered bds05SurveillanceStatus := tableText_numbered _ _ (by decide +kernel) rfl
theorem bds05Time_numbered : Numbered bds05Time := tableText_numbered _ _ (by decide +kernel) rfl
theorem bds06CompactPositionReportingFormat_numbered : Numbered bds06CompactPositionReportingFormat := tableText_numbered _ _ (by decide +kernel) rfl
theorem bds06MovementStatus_numbered : Numbered bds06MovementStatus := tableText_numbered _ _ (by decide +kernel) rfl
theorem bds06Time_numbered : Numbered bds06Time := tableText_numbered _ _ (by decide +kernel) rfl
theorem bds07AltitudeTypeSubfield_numbered : Numbered bds07AltitudeTypeSubfield := tableText_numbered _ _ (by decide +kernel) rfl
theorem bds07TransmissionRateSubfield_numbered : Numbered bds07TransmissionRateSubfield := tableText_numbered _ _ (by decide +kernel) rfl
theorem bds08AircraftCategorySetA_numbered : Numbered bds08AircraftCategorySetA := tableText_numbered _ _ (by decide +kernel) rfl
theorem bds08AircraftCategorySetB_numbered : Numbered bds08AircraftCategorySetB := tableText_numbered _ _ (by decide +kernel) rfl
theorem bds08AircraftCategorySetC_numbered : Numbered bds08AircraftCategorySetC := tableText_numbered _ _ (by decide +kernel) rfl
theorem bds08AircraftCategorySetD_numbered : Numbered bds08AircraftCategorySetD := tableText_numbered _ _ (by decide +kernel) rfl
theorem bds09IFRCapability_numbered : Numbered bds09IFRCapability := tableText_numbered _ _ (by decide +kernel) rfl
theorem bds09IntentChange_numbered : Numbered bds09IntentChange := tableText_numbered _ _ (by decide +kernel) rfl
theorem bds09MagneticHeadingStatus_numbered : Numbered bds09MagneticHeadingStatus := tableText_numbered _ _ (by decide +kernel) rfl
theorem bds09NumericValueStatus_numbered : Numbered bds09NumericValueStatus := tableText_numbered _ _ (by decide +kernel) rfl
theorem bds09Subtype_numbered : Numbered bds09Subtype := tableText_numbered _ _ (by decide +kernel) rfl
theorem bds09DirectionEastWest_numbered : Numbered bds09DirectionEastWest := tableText_numbered _ _ (by decide +kernel) rfl
theorem bds09DirectionNorthSouth_numbered : Numbered bds09DirectionNorthSouth := tableText_numbered _ _ (by decide +kernel) rfl
theorem bds09VerticalRateSource_numbered : Numbered bds09VerticalRateSource := tableText_numbered _ _ (by decide +kernel) rfl
theorem bds10ACASApplicableDocument_numbered : Numbered bds10ACASApplicableDocument := tableText_numbered _ _ (by decide +kernel) rfl
theorem bds10ACASGenerationCapability_numbered : Numbered bds10ACASGenerationCapability := tableText_numbered _ _ (by decide +kernel) rfl
theorem bds10ACASHybridSurveillanceCapability_numbered : Numbered bds10ACASHybridSurveillanceCapability := tableText_numbered _ _ (by decide +kernel) rfl
theorem bds10ACASStatus_numbered : Numbered bds10ACASStatus := tableText_numbered _ _ (by decide +kernel) rfl
theorem bds10AircraftIdentificationCapability_numbered : Numbered bds10AircraftIdentificationCapability := tableText_numbered _ _ (by decide +kernel) rfl
theorem bds10CommonUsageGICBCapability_numbered : Numbered bds10CommonUsageGICBCapability := tableText_numbered _ _ (by decide +kernel) rfl
theorem bds10ContinuationFlag_numbered : Numbered bds10ContinuationFlag := tableText_numbered _ _ (by decide +kernel) rfl
theorem bds10DownlinkELMThroughputCapability_numbered : Numbered bds10DownlinkELMThroughputCapability := tableText_numbered _ _ (by decide +kernel) rfl
theorem bds10ModeSSpecificServicesCapability_numbered : Numbered bds10ModeSSpecificServicesCapability := tableText_numbered _ _ (by decide +kernel) rfl
theorem bds10OverlayCommandCapability_numbered : Numbered bds10OverlayCommandCapability := tableText_numbered _ _ (by decide +kernel) rfl
theorem bds10SquitterCapabilitySubfield_numbered : Numbered bds10SquitterCapabilitySubfield := tableText_numbered _ _ (by decide +kernel) rfl
theorem bds10SurveillanceIdentifierCode_numbered : Numbered bds10SurveillanceIdentifierCode := tableText_numbered _ _ (by decide +kernel) rfl
theorem bds10TransponderEnhancedProtocolIndicator_numbered : Numbered bds10TransponderEnhancedProtocolIndicator := tableText_numbered _ _ (by decide +kernel) rfl
theorem bds10UplinkELMThroughputCapability_numbered : Numbered bds10UplinkELMThroughputCapability := tableText_numbered _ _ (by decide +kernel) rfl
theorem bds40StatusOfModeBits_numbered : Numbered bds40StatusOfModeBits := tableText_numbered _ _ (by decide +kernel) rfl
theorem bds40StatusOfTargetAltitudeSource_numbered : Numbered bds40StatusOfTargetAltitudeSource := tableText_numbered _ _ (by decide +kernel) rfl
theorem bds40TargetAltitudeSource_numbered : Numbered bds40TargetAltitudeSource := tableText_numbered _ _ (by decide +kernel) rfl
theorem bds44Source_numbered : Numbered bds44Source := tableText_numbered _ _ (by decide +kernel) rfl
theorem bds44TurbulenceLevel_numbered : Numbered bds44TurbulenceLevel := tableText_numbered _ _ (by decide +kernel) rfl
theorem bds44TurbulenceFlag_numbered : Numbered bds44TurbulenceFlag := tableText_numbered _ _ (by decide +kernel) rfl
theorem bds45HazardLevel_numbered : Numbered bds45HazardLevel := tableText_numbered _ _ (by decide +kernel) rfl
theorem bds61EmergencyPriorityStatus_numbered : Numbered bds61EmergencyPriorityStatus := tableText_numbered _ _ (by decide +kernel) rfl
theorem bds61Subtype_numbered : Numbered bds61Subtype := tableText_numbered _ _ (by decide +kernel) rfl
theorem bds62CapabilityModeCode_numbered : Numbered bds62CapabilityModeCode := tableText_numbered _ _ (by decide +kernel) rfl
theorem bds62EmergencyPriorityStatus_numbered : Numbered bds62EmergencyPriorityStatus := tableText_numbered _ _ (by decide +kernel) rfl
theorem bds62HorizontalDataAvailableSourceIndicator_numbered : Numbered bds62HorizontalDataAvailableSourceIndicator := tableText_numbered _ _ (by decide +kernel) rfl
theorem bds62HorizontalModeIndicator_numbered : Numbered bds62HorizontalModeIndicator := tableText_numbered _ _ (by decide +kernel) rfl
theorem bds62NavigationalAccuracyCategoryPositionV1_numbered : Numbered bds62NavigationalAccuracyCategoryPositionV1 := tableText_numbered _ _ (by decide +kernel) rfl
theorem bds62NavigationalAccuracyCategoryPositionV2_numbered : Numbered bds62NavigationalAccuracyCategoryPositionV2 := tableText_numbered _ _ (by decide +kernel) rfl
theorem bds62NICBaro_numbered : Numbered bds62NICBaro := tableText_numbered _ _ (by decide +kernel) rfl
theorem bds62NumericValueStatus_numbered : Numbered bds62NumericValueStatus := tableText_numbered _ _ (by decide +kernel) rfl
theorem bds62SelectedAltitudeType_numbered : Numbered bds62SelectedAltitudeType := tableText_numbered _ _ (by decide +kernel) rfl
theorem bds62SelectedHeadingStatus_numbered : Numbered bds62SelectedHeadingStatus := tableText_numbered _ _ (by decide +kernel) rfl
theorem bds62SourceIntegrityLevelSupplement_numbered : Numbered bds62SourceIntegrityLevelSupplement := tableText_numbered _ _ (by decide +kernel) rfl
theorem bds62StatusMCPFCUBits_numbered : Numbered bds62StatusMCPFCUBits := tableText_numbered _ _ (by decide +kernel) rfl
theorem bds62Subtype_numbered : Numbered bds62Subtype := tableText_numbered _ _ (by decide +kernel) rfl
theorem bds62TargetAltitudeCapability_numbered : Numbered bds62TargetAltitudeCapability := tableText_numbered _ _ (by decide +kernel) rfl
theorem bds62TargetAltitudeType_numbered : Numbered bds62TargetAltitudeType := tableText_numbered _ _ (by decide +kernel) rfl
theorem bds62TargetHeadingTrackIndicator_numbered : Numbered bds62TargetHeadingTrackIndicator := tableText_numbered _ _ (by decide +kernel) rfl
theorem bds62VerticalDataAvailableSourceIndicator_numbered : Numbered bds62VerticalDataAvailableSourceIndicator := tableText_numbered _ _ (by decide +kernel) rfl
theorem bds62VerticalModeIndicator_numbered : Numbered bds62VerticalModeIndicator := tableText_numbered _ _ (by decide +kernel) rfl
theorem bds65ACASOperational_numbered : Numbered bds65ACASOperational := tableText_numbered _ _ (by decide +kernel) rfl
theorem bds65ACASResolutionAdvisoryActiveV1_numbered : Numbered bds65ACASResolutionAdvisoryActiveV1 := tableText_numbered _ _ (by decide +kernel) rfl
theorem bds65ACASResolutionAdvisoryActiveV2_numbered : Numbered bds65ACASResolutionAdvisoryActiveV2 := tableText_numbered _ _ (by decide +kernel) rfl
theorem bds65AirReferencedVelocityReportCapability_numbered : Numbered bds65AirReferencedVelocityReportCapability := tableText_numbered _ _ (by decide +kernel) rfl
theorem bds65ApproachLandingOperationalCapabilities_numbered : Numbered bds65ApproachLandingOperationalCapabilities := tableText_numbered _ _ (by decide +kernel) rfl
theorem bds65ApproachLandingOperationalCapabilityStatus_numbered : Numbered bds65ApproachLandingOperationalCapabilityStatus := tableText_numbered _ _ (by decide +kernel) rfl
theorem bds65B2Low_numbered : Numbered bds65B2Low := tableText_numbered _ _ (by decide +kernel) rfl
theorem bds65CockpitDisplayOfTrafficInformationStatus_numbered : Numbered bds65CockpitDisplayOfTrafficInformationStatus := tableText_numbered _ _ (by decide +kernel) rfl
theorem bds65EnRouteOperationalCapabilities_numbered : Numbered bds65EnRouteOperationalCapabilities := tableText_numbered _ _ (by decide +kernel) rfl
theorem bds65EnRouteOperationalCapabilityStatus_numbered : Numbered bds65EnRouteOperationalCapabilityStatus := tableText_numbered _ _ (by decide +kernel) rfl
theorem bds65ExtendedSquitterIn_numbered : Numbered bds65ExtendedSquitterIn := tableText_numbered _ _ (by decide +kernel) rfl
theorem bds65GPSAntennaLateral_numbered : Numbered bds65GPSAntennaLateral := tableText_numbered _ _ (by decide +kernel) rfl
theorem bds65HorizontalReferenceDirection_numbered : Numbered bds65HorizontalReferenceDirection := tableText_numbered _ _ (by decide +kernel) rfl
theorem bds65IdentSwitchActive_numbered : Numbered bds65IdentSwitchActive := tableText_numbered _ _ (by decide +kernel) rfl
theorem bds65LengthWidth_numbered : Numbered bds65LengthWidth := tableText_numbered _ _ (by decide +kernel) rfl
theorem bds65NavigationalAccuracyCategoryPositionV1_numbered : Numbered bds65NavigationalAccuracyCategoryPositionV1 := tableText_numbered _ _ (by decide +kernel) rfl
theorem bds65NavigationalAccuracyCategoryPositionV2_numbered : Numbered bds65NavigationalAccuracyCategoryPositionV2 := tableText_numbered _ _ (by decide +kernel) rfl
theorem bds65NICBaro_numbered : Numbered bds65NICBaro := tableText_numbered _ _ (by decide +kernel) rfl
theorem bds65NICSupplementA_numbered : Numbered bds65NICSupplementA := tableText_numbered _ _ (by decide +kernel) rfl
theorem bds65NICSupplementC_numbered : Numbered bds65NICSupplementC := tableText_numbered _ _ (by decide +kernel) rfl
theorem bds65NotACASStatus_numbered : Numbered bds65NotACASStatus := tableText_numbered _ _ (by decide +kernel) rfl
theorem bds65PositionOffsetApplied_numbered : Numbered bds65PositionOffsetApplied := tableText_numbered _ _ (by decide +kernel) rfl
theorem bds65ReceivingATCServices_numbered : Numbered bds65ReceivingATCServices := tableText_numbered _ _ (by decide +kernel) rfl
theorem bds65SingleAntennaFlag_numbered : Numbered bds65SingleAntennaFlag := tableText_numbered _ _ (by decide +kernel) rfl
theorem bds65SourceIntegrityLevel_numbered : Numbered bds65SourceIntegrityLevel := tableText_numbered _ _ (by decide +kernel) rfl
theorem bds65SourceIntegrityLevelSupplement_numbered : Numbered bds65SourceIntegrityLevelSupplement := tableText_numbered _ _ (by decide +kernel) rfl
theorem bds65Subtype_numbered : Numbered bds65Subtype := tableText_numbered _ _ (by decide +kernel) rfl
theorem bds65SurfaceOperationalCapabilities_numbered : Numbered bds65SurfaceOperationalCapabilities := tableText_numbered _ _ (by decide +kernel) rfl
theorem bds65SurfaceOperationalCapabilityStatus_numbered : Numbered bds65SurfaceOperationalCapabilityStatus := tableText_numbered _ _ (by decide +kernel) rfl
theorem bds65SystemDesignAssurance_numbered : Numbered bds65SystemDesignAssurance := tableText_numbered _ _ (by decide +kernel) rfl
theorem bds65TargetChangeReportCapability_numbered : Numbered bds65TargetChangeReportCapability := tableText_numbered _ _ (by decide +kernel) rfl
theorem bds65TargetStateReportCapability_numbered : Numbered bds65TargetStateReportCapability := tableText_numbered _ _ (by decide +kernel) rfl
theorem bds65TerminalAreaOperationalCapabilities_numbered : Numbered bds65TerminalAreaOperationalCapabilities := tableText_numbered _ _ (by decide +kernel) rfl
theorem bds65TerminalAreaOperationalCapabilityStatus_numbered : Numbered bds65TerminalAreaOperationalCapabilityStatus := tableText_numbered _ _ (by decide +kernel) rfl
theorem bds65TrackAngleHeading_numbered : Numbered bds65TrackAngleHeading := tableText_numbered _ _ (by decide +kernel) rfl
theorem bds65UniversalAccessTransceiverCapability_numbered : Numbered bds65UniversalAccessTransceiverCapability := tableText_numbered _ _ (by decide +kernel) rfl
theorem modesAltitudeReportMethod_numbered : Numbered modesAltitudeReportMethod := tableText_numbered _ _ (by decide +kernel) rfl
theorem modesApplicationField_numbered : Numbered modesApplicationField := tableText_numbered _ _ (by decide +kernel) rfl
theorem modesCapability_numbered : Numbered modesCapability := tableText_numbered _ _ (by decide +kernel) rfl
theorem modesControlELM_numbered : Numbered modesControlELM := tableText_numbered _ _ (by decide +kernel) rfl
theorem modesControlField_numbered : Numbered modesControlField := tableText_numbered _ _ (by decide +kernel) rfl
theorem modesCrossLinkCompatibility_numbered : Numbered modesCrossLinkCompatibility := tableText_numbered _ _ (by decide +kernel) rfl
theorem modesDownlinkRequest_numbered : Numbered modesDownlinkRequest := tableText_numbered _ _ (by decide +kernel) rfl
theorem modesFlightStatus_numbered : Numbered modesFlightStatus := tableText_numbered _ _ (by decide +kernel) rfl
theorem modesReplyInformationAirAir_numbered : Numbered modesReplyInformationAirAir := tableText_numbered _ _ (by decide +kernel) rfl
theorem modesSensitivityLevelReport_numbered : Numbered modesSensitivityLevelReport := tableText_numbered _ _ (by decide +kernel) rfl
theorem modesUtilityMessageIdentifierDesignator_numbered : Numbered modesUtilityMessageIdentifierDesignator := tableText_numbered _ _ (by decide +kernel) rfl
theorem modesVerticalStatus_numbered : Numbered modesVerticalStatus := tableText_numbered _ _ (by decide +kernel) rfl

/-- The texts of all coded fields. -/
def fieldTexts : List (UInt8 → Txt) := [
  acasActiveRAPreventiveCorrective,
  acasActiveRAVerticalSpeedLimitOrPositive,
  acasMultipleThreatEncounter,
  acasRATerminatedIndicator,
  acasAltitudeStatus,
  acasThreatTypeIndicator,
  airborneContainmentRadius,
  airborneHorizontalContainmentRadiusV1,
  airborneHorizontalContainmentRadiusV2,
  airborneHorizontalProtectionLimit,
  airborneNavigationIntegrityCodeSupplementB,
  surfaceContainmentRadius,
  surfaceHorizontalContainmentRadiusV1,
  surfaceHorizontalContainmentRadiusV2,
  surfaceHorizontalProtectionLimit,
  bds05AltitudeSource,
  bds05AltitudeReportMethod,
  bds05CompactPositionReportingFormat,
  bds05SingleAntennaFlag,
  bds05SurveillanceStatus,
  bds05Time,
  bds06CompactPositionReportingFormat,
  bds06MovementStatus,
  bds06Time,
  bds07AltitudeTypeSubfield,
  bds07TransmissionRateSubfield,
  bds08AircraftCategorySetA,
  bds08AircraftCategorySetB,
  bds08AircraftCategorySetC,
  bds08AircraftCategorySetD,
  bds09IFRCapability,
  bds09IntentChange,
  bds09MagneticHeadingStatus,
  bds09NumericValueStatus,
  bds09Subtype,
  bds09DirectionEastWest,
  bds09DirectionNorthSouth,
  bds09VerticalRateSource,
  bds10ACASApplicableDocument,
  bds10ACASGenerationCapability,
  bds10ACASHybridSurveillanceCapability,
  bds10ACASStatus,
  bds10AircraftIdentificationCapability,
  bds10CommonUsageGICBCapability,
  bds10ContinuationFlag,
  bds10DownlinkELMThroughputCapability,
  bds10ModeSSpecificServicesCapability,
  bds10ModeSSubnetworkVersion,
  bds10OverlayCommandCapability,
  bds10SquitterCapabilitySubfield,
  bds10SurveillanceIdentifierCode,
  bds10TransponderEnhancedProtocolIndicator,
  bds10UplinkELMThroughputCapability,
  bds40StatusOfModeBits,
  bds40StatusOfTargetAltitudeSource,
  bds40TargetAltitudeSource,
  bds44Source,
  bds44TurbulenceLevel,
  bds44TurbulenceFlag,
  bds45HazardLevel,
  bds61EmergencyPriorityStatus,
  bds61Subtype,
  bds62CapabilityModeCode,
  bds62EmergencyPriorityStatus,
  bds62HorizontalDataAvailableSourceIndicator,
  bds62HorizontalModeIndicator,
  bds62NavigationalAccuracyCategoryPositionV1,
  bds62NavigationalAccuracyCategoryPositionV2,
  bds62NICBaro,
  bds62NumericValueStatus,
  bds62SelectedAltitudeType,
  bds62SelectedHeadingStatus,
  bds62SourceIntegrityLevel,
  bds62SourceIntegrityLevelSupplement,
  bds62StatusMCPFCUBits,
  bds62Subtype,
  bds62TargetAltitudeCapability,
  bds62TargetAltitudeType,
  bds62TargetHeadingTrackIndicator,
  bds62VerticalDataAvailableSourceIndicator,
  bds62VerticalModeIndicator,
  bds65ACASOperational,
  bds65ACASResolutionAdvisoryActiveV1,
  bds65ACASResolutionAdvisoryActiveV2,
  bds65AirReferencedVelocityReportCapability,
  bds65ApproachLandingOperationalCapabilities,
  bds65ApproachLandingOperationalCapabilityStatus,
  bds65B2Low,
  bds65CockpitDisplayOfTrafficInformationStatus,
  bds65EnRouteOperationalCapabilities,
  bds65EnRouteOperationalCapabilityStatus,
  bds65ExtendedSquitterIn,
  bds65GeometricVerticalAccuracy,
  bds65GPSAntennaLateral,
  bds65HorizontalReferenceDirection,
  bds65IdentSwitchActive,
  bds65LengthWidth,
  bds65NavigationalAccuracyCategoryPositionV1,
  bds65NavigationalAccuracyCategoryPositionV2,
  bds65NICBaro,
  bds65NICSupplementA,
  bds65NICSupplementC,
  bds65NotACASStatus,
  bds65PositionOffsetApplied,
  bds65ReceivingATCServices,
  bds65SingleAntennaFlag,
  bds65SourceIntegrityLevel,
  bds65SourceIntegrityLevelSupplement,
  bds65Subtype,
  bds65SurfaceOperationalCapabilities,
  bds65SurfaceOperationalCapabilityStatus,
  bds65SystemDesignAssurance,
  bds65TargetChangeReportCapability,
  bds65TargetStateReportCapability,
  bds65TerminalAreaOperationalCapabilities,
  bds65TerminalAreaOperationalCapabilityStatus,
  bds65TrackAngleHeading,
  bds65UniversalAccessTransceiverCapability,
  modesAltitudeReportMethod,
  modesApplicationField,
  modesCapability,
  modesControlELM,
  modesControlField,
  modesCrossLinkCompatibility,
  modesDownlinkRequest,
  modesFlightStatus,
  modesReplyInformationAirAir,
  modesSensitivityLevelReport,
  modesUtilityMessageIdentifierDesignator,
  modesVerticalStatus]

/-- C72: every coded field has a text that identifies its code. -/
theorem texts_identify : ∀ f ∈ fieldTexts, Identifies f := by
  unfold fieldTexts
  simp only [List.forall_mem_cons, List.not_mem_nil, false_imp_iff, implies_true, and_true]
  exact ⟨acasActiveRAPreventiveCorrective_identifies,
    acasActiveRAVerticalSpeedLimitOrPositive_identifies,
    acasMultipleThreatEncounter_identifies,
    acasRATerminatedIndicator_identifies,
    acasAltitudeStatus_identifies,
    acasThreatTypeIndicator_identifies,
    airborneContainmentRadius_identifies,
    airborneHorizontalContainmentRadiusV1_identifies,
    airborneHorizontalContainmentRadiusV2_identifies,
    airborneHorizontalProtectionLimit_identifies,
    airborneNavigationIntegrityCodeSupplementB_identifies,
    surfaceContainmentRadius_identifies,
    surfaceHorizontalContainmentRadiusV1_identifies,
    surfaceHorizontalContainmentRadiusV2_identifies,
    surfaceHorizontalProtectionLimit_identifies,
    bds05AltitudeSource_identifies,
    bds05AltitudeReportMethod_identifies,
    bds05CompactPositionReportingFormat_identifies,
    bds05SingleAntennaFlag_identifies,
    bds05SurveillanceStatus_identifies,
    bds05Time_identifies,
    bds06CompactPositionReportingFormat_identifies,
    bds06MovementStatus_identifies,
    bds06Time_identifies,
    bds07AltitudeTypeSubfield_identifies,
    bds07TransmissionRateSubfield_identifies,
    bds08AircraftCategorySetA_identifies,
    bds08AircraftCategorySetB_identifies,
    bds08AircraftCategorySetC_identifies,
    bds08AircraftCategorySetD_identifies,
    bds09IFRCapability_identifies,
    bds09IntentChange_identifies,
    bds09MagneticHeadingStatus_identifies,
    bds09NumericValueStatus_identifies,
    bds09Subtype_identifies,
    bds09DirectionEastWest_identifies,
    bds09DirectionNorthSouth_identifies,
    bds09VerticalRateSource_identifies,
    bds10ACASApplicableDocument_identifies,
    bds10ACASGenerationCapability_identifies,
    bds10ACASHybridSurveillanceCapability_identifies,
    bds10ACASStatus_identifies,
    bds10AircraftIdentificationCapability_identifies,
    bds10CommonUsageGICBCapability_identifies,
    bds10ContinuationFlag_identifies,
    bds10DownlinkELMThroughputCapability_identifies,
    bds10ModeSSpecificServicesCapability_identifies,
    bds10ModeSSubnetworkVersion_identifies,
    bds10OverlayCommandCapability_identifies,
    bds10SquitterCapabilitySubfield_identifies,
    bds10SurveillanceIdentifierCode_identifies,
    bds10TransponderEnhancedProtocolIndicator_identifies,
    bds10UplinkELMThroughputCapability_identifies,
    bds40StatusOfModeBits_identifies,
    bds40StatusOfTargetAltitudeSource_identifies,
    bds40TargetAltitudeSource_identifies,
    bds44Source_identifies,
    bds44TurbulenceLevel_identifies,
    bds44TurbulenceFlag_identifies,
    bds45HazardLevel_identifies,
    bds61EmergencyPriorityStatus_identifies,
    bds61Subtype_identifies,
    bds62CapabilityModeCode_identifies,
    bds62EmergencyPriorityStatus_identifies,
    bds62HorizontalDataAvailableSourceIndicator_identifies,
    bds62HorizontalModeIndicator_identifies,
    bds62NavigationalAccuracyCategoryPositionV1_identifies,
    bds62NavigationalAccuracyCategoryPositionV2_identifies,
    bds62NICBaro_identifies,
    bds62NumericValueStatus_identifies,
    bds62SelectedAltitudeType_identifies,
    bds62SelectedHeadingStatus_identifies,
    bds62SourceIntegrityLevel_identifies,
    bds62SourceIntegrityLevelSupplement_identifies,
    bds62StatusMCPFCUBits_identifies,
    bds62Subtype_identifies,
    bds62TargetAltitudeCapability_identifies,
    bds62TargetAltitudeType_identifies,
    bds62TargetHeadingTrackIndicator_identifies,
    bds62VerticalDataAvailableSourceIndicator_identifies,
    bds62VerticalModeIndicator_identifies,
    bds65ACASOperational_identifies,
    bds65ACASResolutionAdvisoryActiveV1_identifies,
    bds65ACASResolutionAdvisoryActiveV2_identifies,
    bds65AirReferencedVelocityReportCapability_identifies,
    bds65ApproachLandingOperationalCapabilities_identifies,
    bds65ApproachLandingOperationalCapabilityStatus_identifies,
    bds65B2Low_identifies,
    bds65CockpitDisplayOfTrafficInformationStatus_identifies,
    bds65EnRouteOperationalCapabilities_identifies,
    bds65EnRouteOperationalCapabilityStatus_identifies,
    bds65ExtendedSquitterIn_identifies,
    bds65GeometricVerticalAccuracy_identifies,
    bds65GPSAntennaLateral_identifies,
    bds65HorizontalReferenceDirection_identifies,
    bds65IdentSwitchActive_identifies,
    bds65LengthWidth_identifies,
    bds65NavigationalAccuracyCategoryPositionV1_identifies,
    bds65NavigationalAccuracyCategoryPositionV2_identifies,
    bds65NICBaro_identifies,
    bds65NICSupplementA_identifies,
    bds65NICSupplementC_identifies,
    bds65NotACASStatus_identifies,
    bds65PositionOffsetApplied_identifies,
    bds65ReceivingATCServices_identifies,
    bds65SingleAntennaFlag_identifies,
    bds65SourceIntegrityLevel_identifies,
    bds65SourceIntegrityLevelSupplement_identifies,
    bds65Subtype_identifies,
    bds65SurfaceOperationalCapabilities_identifies,
    bds65SurfaceOperationalCapabilityStatus_identifies,
    bds65SystemDesignAssurance_identifies,
    bds65TargetChangeReportCapability_identifies,
    bds65TargetStateReportCapability_identifies,
    bds65TerminalAreaOperationalCapabilities_identifies,
    bds65TerminalAreaOperationalCapabilityStatus_identifies,
    bds65TrackAngleHeading_identifies,
    bds65UniversalAccessTransceiverCapability_identifies,
    modesAltitudeReportMethod_identifies,
    modesApplicationField_identifies,
    modesCapability_identifies,
    modesControlELM_identifies,
    modesControlField_identifies,
    modesCrossLinkCompatibility_identifies,
    modesDownlinkRequest_identifies,
    modesFlightStatus_identifies,
    modesReplyInformationAirAir_identifies,
    modesSensitivityLevelReport_identifies,
    modesUtilityMessageIdentifierDesignator_identifies,
    modesVerticalStatus_identifies⟩

/-- The texts that show a number which is not the code. -/
def misnumberedTexts : List (UInt8 → Txt) := [bds10ModeSSubnetworkVersion, bds62SourceIntegrityLevel, bds65GeometricVerticalAccuracy]

/-- The others. -/
def numberedTexts : List (UInt8 → Txt) := [
  acasActiveRAPreventiveCorrective,
  acasActiveRAVerticalSpeedLimitOrPositive,
  acasMultipleThreatEncounter,
  acasRATerminatedIndicator,
  acasAltitudeStatus,
  acasThreatTypeIndicator,
  airborneContainmentRadius,
  airborneHorizontalContainmentRadiusV1,
  airborneHorizontalContainmentRadiusV2,
  airborneHorizontalProtectionLimit,
  airborneNavigationIntegrityCodeSupplementB,
  surfaceContainmentRadius,
  surfaceHorizontalContainmentRadiusV1,
  surfaceHorizontalContainmentRadiusV2,
  surfaceHorizontalProtectionLimit,
  bds05AltitudeSource,
  bds05AltitudeReportMethod,
  bds05CompactPositionReportingFormat,
  bds05SingleAntennaFlag,
  bds05SurveillanceStatus,
  bds05Time,
  bds06CompactPositionReportingFormat,
  bds06MovementStatus,
  bds06Time,
  bds07AltitudeTypeSubfield,
  bds07TransmissionRateSubfield,
  bds08AircraftCategorySetA,
  bds08AircraftCategorySetB,
  bds08AircraftCategorySetC,
  bds08AircraftCategorySetD,
  bds09IFRCapability,
  bds09IntentChange,
  bds09MagneticHeadingStatus,
  bds09NumericValueStatus,
  bds09Subtype,
  bds09DirectionEastWest,
  bds09DirectionNorthSouth,
  bds09VerticalRateSource,
  bds10ACASApplicableDocument,
  bds10ACASGenerationCapability,
  bds10ACASHybridSurveillanceCapability,
  bds10ACASStatus,
  bds10AircraftIdentificationCapability,
  bds10CommonUsageGICBCapability,
  bds10ContinuationFlag,
  bds10DownlinkELMThroughputCapability,
  bds10ModeSSpecificServicesCapability,
  bds10OverlayCommandCapability,
  bds10SquitterCapabilitySubfield,
  bds10SurveillanceIdentifierCode,
  bds10TransponderEnhancedProtocolIndicator,
  bds10UplinkELMThroughputCapability,
  bds40StatusOfModeBits,
  bds40StatusOfTargetAltitudeSource,
  bds40TargetAltitudeSource,
  bds44Source,
  bds44TurbulenceLevel,
  bds44TurbulenceFlag,
  bds45HazardLevel,
  bds61EmergencyPriorityStatus,
  bds61Subtype,
  bds62CapabilityModeCode,
  bds62EmergencyPriorityStatus,
  bds62HorizontalDataAvailableSourceIndicator,
  bds62HorizontalModeIndicator,
  bds62NavigationalAccuracyCategoryPositionV1,
  bds62NavigationalAccuracyCategoryPositionV2,
  bds62NICBaro,
  bds62NumericValueStatus,
  bds62SelectedAltitudeType,
  bds62SelectedHeadingStatus,
  bds62SourceIntegrityLevelSupplement,
  bds62StatusMCPFCUBits,
  bds62Subtype,
  bds62TargetAltitudeCapability,
  bds62TargetAltitudeType,
  bds62TargetHeadingTrackIndicator,
  bds62VerticalDataAvailableSourceIndicator,
  bds62VerticalModeIndicator,
  bds65ACASOperational,
  bds65ACASResolutionAdvisoryActiveV1,
  bds65ACASResolutionAdvisoryActiveV2,
  bds65AirReferencedVelocityReportCapability,
  bds65ApproachLandingOperationalCapabilities,
  bds65ApproachLandingOperationalCapabilityStatus,
  bds65B2Low,
  bds65CockpitDisplayOfTrafficInformationStatus,
  bds65EnRouteOperationalCapabilities,
  bds65EnRouteOperationalCapabilityStatus,
  bds65ExtendedSquitterIn,
  bds65GPSAntennaLateral,
  bds65HorizontalReferenceDirection,
  bds65IdentSwitchActive,
  bds65LengthWidth,
  bds65NavigationalAccuracyCategoryPositionV1,
  bds65NavigationalAccuracyCategoryPositionV2,
  bds65NICBaro,
  bds65NICSupplementA,
  bds65NICSupplementC,
  bds65NotACASStatus,
  bds65PositionOffsetApplied,
  bds65ReceivingATCServices,
  bds65SingleAntennaFlag,
  bds65SourceIntegrityLevel,
  bds65SourceIntegrityLevelSupplement,
  bds65Subtype,
  bds65SurfaceOperationalCapabilities,
  bds65SurfaceOperationalCapabilityStatus,
  bds65SystemDesignAssurance,
  bds65TargetChangeReportCapability,
  bds65TargetStateReportCapability,
  bds65TerminalAreaOperationalCapabilities,
  bds65TerminalAreaOperationalCapabilityStatus,
  bds65TrackAngleHeading,
  bds65UniversalAccessTransceiverCapability,
  modesAltitudeReportMethod,
  modesApplicationField,
  modesCapability,
  modesControlELM,
  modesControlField,
  modesCrossLinkCompatibility,
  modesDownlinkRequest,
  modesFlightStatus,
  modesReplyInformationAirAir,
  modesSensitivityLevelReport,
  modesUtilityMessageIdentifierDesignator,
  modesVerticalStatus]

/-- C73: the number a text shows is the code, but for three fields. -/
theorem texts_numbered_partial : ∀ f ∈ numberedTexts, Numbered f := by
  unfold numberedTexts
  simp only [List.forall_mem_cons, List.not_mem_nil, false_imp_iff, implies_true, and_true]
  exact ⟨acasActiveRAPreventiveCorrective_numbered,
    acasActiveRAVerticalSpeedLimitOrPositive_numbered,
    acasMultipleThreatEncounter_numbered,
    acasRATerminatedIndicator_numbered,
    acasAltitudeStatus_numbered,
    acasThreatTypeIndicator_numbered,
    airborneContainmentRadius_numbered,
    airborneHorizontalContainmentRadiusV1_numbered,
    airborneHorizontalContainmentRadiusV2_numbered,
    airborneHorizontalProtectionLimit_numbered,
    airborneNavigationIntegrityCodeSupplementB_numbered,
    surfaceContainmentRadius_numbered,
    surfaceHorizontalContainmentRadiusV1_numbered,
    surfaceHorizontalContainmentRadiusV2_numbered,
    surfaceHorizontalProtectionLimit_numbered,
    bds05AltitudeSource_numbered,
    bds05AltitudeReportMethod_numbered,
    bds05CompactPositionReportingFormat_numbered,
    bds05SingleAntennaFlag_numbered,
    bds05SurveillanceStatus_numbered,
    bds05Time_numbered,
    bds06CompactPositionReportingFormat_numbered,
    bds06MovementStatus_numbered,
    bds06Time_numbered,
    bds07AltitudeTypeSubfield_numbered,
    bds07TransmissionRateSubfield_numbered,
    bds08AircraftCategorySetA_numbered,
    bds08AircraftCategorySetB_numbered,
    bds08AircraftCategorySetC_numbered,
    bds08AircraftCategorySetD_numbered,
    bds09IFRCapability_numbered,
    bds09IntentChange_numbered,
    bds09MagneticHeadingStatus_numbered,
    bds09NumericValueStatus_numbered,
    bds09Subtype_numbered,
    bds09DirectionEastWest_numbered,
    bds09DirectionNorthSouth_numbered,
    bds09VerticalRateSource_numbered,
    bds10ACASApplicableDocument_numbered,
    bds10ACASGenerationCapability_numbered,
    bds10ACASHybridSurveillanceCapability_numbered,
    bds10ACASStatus_numbered,
    bds10AircraftIdentificationCapability_numbered,
    bds10CommonUsageGICBCapability_numbered,
    bds10ContinuationFlag_numbered,
    bds10DownlinkELMThroughputCapability_numbered,
    bds10ModeSSpecificServicesCapability_numbered,
    bds10OverlayCommandCapability_numbered,
    bds10SquitterCapabilitySubfield_numbered,
    bds10SurveillanceIdentifierCode_numbered,
    bds10TransponderEnhancedProtocolIndicator_numbered,
    bds10UplinkELMThroughputCapability_numbered,
    bds40StatusOfModeBits_numbered,
    bds40StatusOfTargetAltitudeSource_numbered,
    bds40TargetAltitudeSource_numbered,
    bds44Source_numbered,
    bds44TurbulenceLevel_numbered,
    bds44TurbulenceFlag_numbered,
    bds45HazardLevel_numbered,
    bds61EmergencyPriorityStatus_numbered,
    bds61Subtype_numbered,
    bds62CapabilityModeCode_numbered,
    bds62EmergencyPriorityStatus_numbered,
    bds62HorizontalDataAvailableSourceIndicator_numbered,
    bds62HorizontalModeIndicator_numbered,
    bds62NavigationalAccuracyCategoryPositionV1_numbered,
    bds62NavigationalAccuracyCategoryPositionV2_numbered,
    bds62NICBaro_numbered,
    bds62NumericValueStatus_numbered,
    bds62SelectedAltitudeType_numbered,
    bds62SelectedHeadingStatus_numbered,
    bds62SourceIntegrityLevelSupplement_numbered,
    bds62StatusMCPFCUBits_numbered,
    bds62Subtype_numbered,
    bds62TargetAltitudeCapability_numbered,
    bds62TargetAltitudeType_numbered,
    bds62TargetHeadingTrackIndicator_numbered,
    bds62VerticalDataAvailableSourceIndicator_numbered,
    bds62VerticalModeIndicator_numbered,
    bds65ACASOperational_numbered,
    bds65ACASResolutionAdvisoryActiveV1_numbered,
    bds65ACASResolutionAdvisoryActiveV2_numbered,
    bds65AirReferencedVelocityReportCapability_numbered,
    bds65ApproachLandingOperationalCapabilities_numbered,
    bds65ApproachLandingOperationalCapabilityStatus_numbered,
    bds65B2Low_numbered,
    bds65CockpitDisplayOfTrafficInformationStatus_numbered,
    bds65EnRouteOperationalCapabilities_numbered,
    bds65EnRouteOperationalCapabilityStatus_numbered,
    bds65ExtendedSquitterIn_numbered,
    bds65GPSAntennaLateral_numbered,
    bds65HorizontalReferenceDirection_numbered,
    bds65IdentSwitchActive_numbered,
    bds65LengthWidth_numbered,
    bds65NavigationalAccuracyCategoryPositionV1_numbered,
    bds65NavigationalAccuracyCategoryPositionV2_numbered,
    bds65NICBaro_numbered,
    bds65NICSupplementA_numbered,
    bds65NICSupplementC_numbered,
    bds65NotACASStatus_numbered,
    bds65PositionOffsetApplied_numbered,
    bds65ReceivingATCServices_numbered,
    bds65SingleAntennaFlag_numbered,
    bds65SourceIntegrityLevel_numbered,
    bds65SourceIntegrityLevelSupplement_numbered,
    bds65Subtype_numbered,
    bds65SurfaceOperationalCapabilities_numbered,
    bds65SurfaceOperationalCapabilityStatus_numbered,
    bds65SystemDesignAssurance_numbered,
    bds65TargetChangeReportCapability_numbered,
    bds65TargetStateReportCapability_numbered,
    bds65TerminalAreaOperationalCapabilities_numbered,
    bds65TerminalAreaOperationalCapabilityStatus_numbered,
    bds65TrackAngleHeading_numbered,
    bds65UniversalAccessTransceiverCapability_numbered,
    modesAltitudeReportMethod_numbered,
    modesApplicationField_numbered,
    modesCapability_numbered,
    modesControlELM_numbered,
    modesControlField_numbered,
    modesCrossLinkCompatibility_numbered,
    modesDownlinkRequest_numbered,
    modesFlightStatus_numbered,
    modesReplyInformationAirAir_numbered,
    modesSensitivityLevelReport_numbered,
    modesUtilityMessageIdentifierDesignator_numbered,
    modesVerticalStatus_numbered⟩

theorem fieldTexts_split : ∀ f ∈ fieldTexts, f ∈ numberedTexts ∨ f ∈ misnumberedTexts := by
  unfold fieldTexts
  simp only [List.forall_mem_cons, List.not_mem_nil, false_imp_iff, implies_true, and_true]
  refine ⟨?_, ?_, ?_, ?_, ?_, ?_, ?_, ?_, ?_, ?_, ?_, ?_, ?_, ?_, ?_, ?_, ?_, ?_, ?_, ?_, ?_, ?_, ?_, ?_, ?_, ?_, ?_, ?_, ?_, ?_, ?_, ?_, ?_, ?_, ?_, ?_, ?_, ?_, ?_, ?_, ?_, ?_, ?_, ?_, ?_, ?_, ?_, ?_, ?_, ?_, ?_, ?_, ?_, ?_, ?_, ?_, ?_, ?_, ?_, ?_, ?_, ?_, ?_, ?_, ?_, ?_, ?_, ?_, ?_, ?_, ?_, ?_, ?_, ?_, ?_, ?_, ?_, ?_, ?_, ?_, ?_, ?_, ?_, ?_, ?_, ?_, ?_, ?_, ?_, ?_, ?_, ?_, ?_, ?_, ?_, ?_, ?_, ?_, ?_, ?_, ?_, ?_, ?_, ?_, ?_, ?_, ?_, ?_, ?_, ?_, ?_, ?_, ?_, ?_, ?_, ?_, ?_, ?_, ?_, ?_, ?_, ?_, ?_, ?_, ?_, ?_, ?_, ?_, ?_, ?_⟩
  all_goals simp only [numberedTexts, misnumberedTexts, List.mem_cons, true_or, or_true]

/-- C73: these three show the number of another code. -/
theorem texts_numbered_refuted : ∀ f ∈ misnumberedTexts, ¬ Numbered f := by
  unfold misnumberedTexts
  simp only [List.forall_mem_cons, List.not_mem_nil, false_imp_iff, implies_true, and_true]
  exact ⟨fun h => absurd (h 2 1 ((bds10ModeSSubnetworkVersion 2).drop 3) (by decide +kernel)) (by decide),
    fun h => absurd (h 2 1 ((bds62SourceIntegrityLevel 2).drop 3) (by decide +kernel)) (by decide),
    fun h => absurd (h 1 0 ((bds65GeometricVerticalAccuracy 1).drop 3) (by decide +kernel)) (by decide)⟩

end Text
end Modes
