import Verif.Lemmas.TranslationAttr
import Verif.Model.Translation
/-!
# The translation and the model: functions that are the same up to unfolding

Written by `tools/go2lean/generate_props.py`. Each theorem says that a function of the hand-written model is the mechanical
translation (Model/Translation) of the Go function.
-/
namespace Modes

@[translated] theorem same_acas_ra_fields_ReadMultipleThreatEncounter : @Gen.acas.ra.fields.ReadMultipleThreatEncounter = @readMTE := rfl
@[translated] theorem same_acas_ra_fields_ReadRATerminatedIndicator : @Gen.acas.ra.fields.ReadRATerminatedIndicator = @readRATerminated := rfl
@[translated] theorem same_bitutils_Pack4Bytes : @Gen.bitutils.Pack4Bytes = @pack4 := rfl
@[translated] theorem same_acas_ra_fields_ReadThreatIdentityAddress : @Gen.acas.ra.fields.ReadThreatIdentityAddress = @readThreatAddress := rfl
@[translated] theorem same_bitutils_grayToBinary : @Gen.bitutils.grayToBinary = @grayToBinary := rfl
@[translated] theorem same_acas_ra_fields_ThreatIdentityBearing_GetBearing : @Gen.acas.ra.fields.ThreatIdentityBearing.GetBearing = @getBearing := rfl
@[translated] theorem same_acas_ra_fields_ReadThreatIdentityBearing : @Gen.acas.ra.fields.ReadThreatIdentityBearing = @readThreatBearing := rfl
@[translated] theorem same_acas_ra_fields_ReadThreatIdentityRange : @Gen.acas.ra.fields.ReadThreatIdentityRange = @readThreatRange := rfl
@[translated] theorem same_acas_ra_fields_ReadThreatTypeIndicator : @Gen.acas.ra.fields.ReadThreatTypeIndicator = @readThreatTypeIndicator := rfl
@[translated] theorem same_bds_bds05_fields_ReadSurveillanceStatus : @Gen.bds.bds05.fields.ReadSurveillanceStatus = @readSurveillanceStatus := rfl
@[translated] theorem same_bds_bds05_fields_ReadSingleAntennaFlag : @Gen.bds.bds05.fields.ReadSingleAntennaFlag = @readSingleAntennaFlag := rfl
@[translated] theorem same_bds_bds05_fields_ReadTime : @Gen.bds.bds05.fields.ReadTime = @readTime := rfl
@[translated] theorem same_bds_bds05_fields_ReadCompactPositionReportingFormat : @Gen.bds.bds05.fields.ReadCompactPositionReportingFormat = @readCPRFormat := rfl
@[translated] theorem same_bitutils_Pack3Bytes : @Gen.bitutils.Pack3Bytes = @pack3 := rfl
@[translated] theorem same_bds_bds05_fields_ReadEncodedLatitude : @Gen.bds.bds05.fields.ReadEncodedLatitude = @readEncodedLatitude05 := rfl
@[translated] theorem same_bds_bds05_fields_ReadEncodedLongitude : @Gen.bds.bds05.fields.ReadEncodedLongitude = @readEncodedLongitude := rfl
@[translated] theorem same_bds_bds09_fields_ReadSubtype : @Gen.bds.bds09.fields.ReadSubtype = @readSubtype09 := rfl
@[translated] theorem same_bitutils_Pack2Bytes : @Gen.bitutils.Pack2Bytes = @pack2 := rfl
@[translated] theorem same_bds_bds09_fields_ReadVelocityEWNormal : @Gen.bds.bds09.fields.ReadVelocityEWNormal = @readVelocityEWNormal := rfl
@[translated] theorem same_bds_bds09_fields_ReadVelocityNSNormal : @Gen.bds.bds09.fields.ReadVelocityNSNormal = @readVelocityNSNormal := rfl
@[translated] theorem same_bds_bds09_fields_ReadIntentChange : @Gen.bds.bds09.fields.ReadIntentChange = @readIntentChange := rfl
@[translated] theorem same_bds_bds09_fields_ReadIFRCapability : @Gen.bds.bds09.fields.ReadIFRCapability = @readIFRCapability := rfl
@[translated] theorem same_bds_bds09_fields_ReadNavigationUncertaintyCategory : @Gen.bds.bds09.fields.ReadNavigationUncertaintyCategory = @readNUC := rfl
@[translated] theorem same_bds_bds09_fields_ReadDirectionEastWest : @Gen.bds.bds09.fields.ReadDirectionEastWest = @readDirectionEW := rfl
@[translated] theorem same_bds_bds09_fields_ReadDirectionNorthSouth : @Gen.bds.bds09.fields.ReadDirectionNorthSouth = @readDirectionNS := rfl
@[translated] theorem same_bds_bds09_fields_ReadVerticalRateSource : @Gen.bds.bds09.fields.ReadVerticalRateSource = @readVerticalRateSource := rfl
@[translated] theorem same_bds_bds09_fields_ReadVelocityEWSupersonic : @Gen.bds.bds09.fields.ReadVelocityEWSupersonic = @readVelocityEWSupersonic := rfl
@[translated] theorem same_bds_bds09_fields_ReadVelocityNSSupersonic : @Gen.bds.bds09.fields.ReadVelocityNSSupersonic = @readVelocityNSSupersonic := rfl
@[translated] theorem same_bds_bds09_fields_ReadMagneticHeading : @Gen.bds.bds09.fields.ReadMagneticHeading = @readMagneticHeading09 := rfl
@[translated] theorem same_bds_bds09_fields_ReadAirspeedNormal : @Gen.bds.bds09.fields.ReadAirspeedNormal = @readVelocityNSNormal := rfl
@[translated] theorem same_bds_bds09_fields_ReadAirspeedSupersonic : @Gen.bds.bds09.fields.ReadAirspeedSupersonic = @readVelocityNSSupersonic := rfl
@[translated] theorem same_bds_bds65_fields_ReadEnRouteOperationalCapabilities : @Gen.bds.bds65.fields.ReadEnRouteOperationalCapabilities = @readEnRouteOperationalCapabilities := rfl
@[translated] theorem same_bds_bds65_fields_ReadEnRouteOperationalCapabilityStatus : @Gen.bds.bds65.fields.ReadEnRouteOperationalCapabilityStatus = @readEnRouteOperationalCapabilityStatus := rfl
@[translated] theorem same_bds_bds65_fields_ReadTerminalAreaOperationalCapabilities : @Gen.bds.bds65.fields.ReadTerminalAreaOperationalCapabilities = @readTerminalAreaOperationalCapabilities := rfl
@[translated] theorem same_bds_bds65_fields_ReadTerminalAreaOperationalCapabilityStatus : @Gen.bds.bds65.fields.ReadTerminalAreaOperationalCapabilityStatus = @readTerminalAreaOperationalCapabilityStatus := rfl
@[translated] theorem same_bds_bds65_fields_ReadApproachLandingOperationalCapabilities : @Gen.bds.bds65.fields.ReadApproachLandingOperationalCapabilities = @readApproachLandingOperationalCapabilities := rfl
@[translated] theorem same_bds_bds65_fields_ReadApproachLandingOperationalCapabilityStatus : @Gen.bds.bds65.fields.ReadApproachLandingOperationalCapabilityStatus = @readApproachLandingOperationalCapabilityStatus := rfl
@[translated] theorem same_bds_bds65_fields_ReadSurfaceOperationalCapabilities : @Gen.bds.bds65.fields.ReadSurfaceOperationalCapabilities = @readSurfaceOperationalCapabilities := rfl
@[translated] theorem same_bds_bds65_fields_ReadSurfaceOperationalCapabilityStatus : @Gen.bds.bds65.fields.ReadSurfaceOperationalCapabilityStatus = @readSurfaceOperationalCapabilityStatus := rfl
@[translated] theorem same_bds_bds65_fields_ReadSubtype : @Gen.bds.bds65.fields.ReadSubtype = @readSubtype65 := rfl
@[translated] theorem same_bds_bds65_fields_ReadVersionNumber : @Gen.bds.bds65.fields.ReadVersionNumber = @readVersionNumber := rfl
@[translated] theorem same_bds_bds65_fields_ReadNotACASStatus : @Gen.bds.bds65.fields.ReadNotACASStatus = @readNotACASStatus := rfl
@[translated] theorem same_bds_bds65_fields_ReadCockpitDisplayOfTrafficInformationStatus : @Gen.bds.bds65.fields.ReadCockpitDisplayOfTrafficInformationStatus = @readCockpitDisplayOfTrafficInformationStatus := rfl
@[translated] theorem same_bds_bds65_fields_ReadAirReferencedVelocityReportCapability : @Gen.bds.bds65.fields.ReadAirReferencedVelocityReportCapability = @readAirReferencedVelocityReportCapability := rfl
@[translated] theorem same_bds_bds65_fields_ReadTargetStateReportCapability : @Gen.bds.bds65.fields.ReadTargetStateReportCapability = @readTargetStateReportCapability := rfl
@[translated] theorem same_bds_bds65_fields_ReadTargetChangeReportCapability : @Gen.bds.bds65.fields.ReadTargetChangeReportCapability = @readTargetChangeReportCapability := rfl
@[translated] theorem same_bds_bds65_fields_ReadAirborneCapabilityClassV1 : @Gen.bds.bds65.fields.ReadAirborneCapabilityClassV1 = @readAirborneCapabilityClassV1 := rfl
@[translated] theorem same_bds_bds65_fields_ReadACASResolutionAdvisoryActiveV1 : @Gen.bds.bds65.fields.ReadACASResolutionAdvisoryActiveV1 = @readACASResolutionAdvisoryActiveV1 := rfl
@[translated] theorem same_bds_bds65_fields_ReadIdentSwitchActive : @Gen.bds.bds65.fields.ReadIdentSwitchActive = @readIdentSwitchActive := rfl
@[translated] theorem same_bds_bds65_fields_ReadReceivingATCServices : @Gen.bds.bds65.fields.ReadReceivingATCServices = @readReceivingATCServices := rfl
@[translated] theorem same_bds_bds65_fields_ReadOperationalMode : @Gen.bds.bds65.fields.ReadOperationalMode = @readOperationalMode := rfl
@[translated] theorem same_bds_bds65_fields_ReadNICSupplementA : @Gen.bds.bds65.fields.ReadNICSupplementA = @readNICSupplementA := rfl
@[translated] theorem same_bds_bds65_fields_ReadNavigationalAccuracyCategoryPositionV1 : @Gen.bds.bds65.fields.ReadNavigationalAccuracyCategoryPositionV1 = @readNavigationalAccuracyCategoryPosition := rfl
@[translated] theorem same_bds_bds65_fields_ReadSurveillanceIntegrityLevel : @Gen.bds.bds65.fields.ReadSurveillanceIntegrityLevel = @readSourceIntegrityLevel65 := rfl
@[translated] theorem same_bds_bds65_fields_ReadNICBaro : @Gen.bds.bds65.fields.ReadNICBaro = @readNICBaro65 := rfl
@[translated] theorem same_bds_bds65_fields_ReadHorizontalReferenceDirection : @Gen.bds.bds65.fields.ReadHorizontalReferenceDirection = @readHorizontalReferenceDirection := rfl
@[translated] theorem same_bds_bds65_fields_ReadPositionOffsetApplied : @Gen.bds.bds65.fields.ReadPositionOffsetApplied = @readPositionOffsetApplied := rfl
@[translated] theorem same_bds_bds65_fields_ReadB2Low : @Gen.bds.bds65.fields.ReadB2Low = @readB2Low := rfl
@[translated] theorem same_bds_bds65_fields_ReadSurfaceCapabilityClassV1 : @Gen.bds.bds65.fields.ReadSurfaceCapabilityClassV1 = @readSurfaceCapabilityClassV1 := rfl
@[translated] theorem same_bds_bds65_fields_ReadAircraftLengthAndWidth : @Gen.bds.bds65.fields.ReadAircraftLengthAndWidth = @readAircraftLengthAndWidth := rfl
@[translated] theorem same_bds_bds65_fields_ReadTrackAngleHeading : @Gen.bds.bds65.fields.ReadTrackAngleHeading = @readTrackAngleHeading := rfl
@[translated] theorem same_bds_bds65_fields_ReadACASOperational : @Gen.bds.bds65.fields.ReadACASOperational = @readACASOperational := rfl
@[translated] theorem same_bds_bds65_fields_ReadExtendedSquitterIn : @Gen.bds.bds65.fields.ReadExtendedSquitterIn = @readExtendedSquitterIn := rfl
@[translated] theorem same_bds_bds65_fields_ReadUniversalAccessTransceiverCapabilityAirborne : @Gen.bds.bds65.fields.ReadUniversalAccessTransceiverCapabilityAirborne = @readUATCapabilityAirborne := rfl
@[translated] theorem same_bds_bds65_fields_ReadAirborneCapabilityClassV2 : @Gen.bds.bds65.fields.ReadAirborneCapabilityClassV2 = @readAirborneCapabilityClassV2 := rfl
@[translated] theorem same_bds_bds65_fields_ReadACASResolutionAdvisoryActiveV2 : @Gen.bds.bds65.fields.ReadACASResolutionAdvisoryActiveV2 = @readACASResolutionAdvisoryActiveV2 := rfl
@[translated] theorem same_bds_bds65_fields_ReadSingleAntennaFlag : @Gen.bds.bds65.fields.ReadSingleAntennaFlag = @readSingleAntennaFlag65 := rfl
@[translated] theorem same_bds_bds65_fields_ReadSystemDesignAssurance : @Gen.bds.bds65.fields.ReadSystemDesignAssurance = @readSystemDesignAssurance := rfl
@[translated] theorem same_bds_bds65_fields_ReadAirborneOperationalMode : @Gen.bds.bds65.fields.ReadAirborneOperationalMode = @readAirborneOperationalMode := rfl
@[translated] theorem same_bds_bds65_fields_ReadNavigationalAccuracyCategoryPositionV2 : @Gen.bds.bds65.fields.ReadNavigationalAccuracyCategoryPositionV2 = @readNavigationalAccuracyCategoryPosition := rfl
@[translated] theorem same_bds_bds65_fields_ReadGeometricVerticalAccuracy : @Gen.bds.bds65.fields.ReadGeometricVerticalAccuracy = @readGeometricVerticalAccuracy := rfl
@[translated] theorem same_bds_bds65_fields_ReadSourceIntegrityLevel : @Gen.bds.bds65.fields.ReadSourceIntegrityLevel = @readSourceIntegrityLevel65 := rfl
@[translated] theorem same_bds_bds65_fields_ReadSourceIntegrityLevelSupplement : @Gen.bds.bds65.fields.ReadSourceIntegrityLevelSupplement = @readSourceIntegrityLevelSupplement65 := rfl
@[translated] theorem same_bds_bds65_fields_ReadUniversalAccessTransceiverCapabilitySurface : @Gen.bds.bds65.fields.ReadUniversalAccessTransceiverCapabilitySurface = @readUATCapabilitySurface := rfl
@[translated] theorem same_bds_bds65_fields_ReadNavigationAccuracyCategoryVelocity : @Gen.bds.bds65.fields.ReadNavigationAccuracyCategoryVelocity = @readNavigationAccuracyCategoryVelocity := rfl
@[translated] theorem same_bds_bds65_fields_ReadNICSupplementC : @Gen.bds.bds65.fields.ReadNICSupplementC = @readNICSupplementC := rfl
@[translated] theorem same_bds_bds65_fields_ReadSurfaceCapabilityClassV2 : @Gen.bds.bds65.fields.ReadSurfaceCapabilityClassV2 = @readSurfaceCapabilityClassV2 := rfl
@[translated] theorem same_bds_bds65_fields_ReadGPSAntennaLateral : @Gen.bds.bds65.fields.ReadGPSAntennaLateral = @readGPSAntennaLateral := rfl
@[translated] theorem same_bds_bds65_fields_ReadGPSAntennaLongitudinal : @Gen.bds.bds65.fields.ReadGPSAntennaLongitudinal = @readGPSAntennaLongitudinal := rfl
@[translated] theorem same_bds_bds61_fields_ReadSubtype : @Gen.bds.bds61.fields.ReadSubtype = @readSubtype61 := rfl
@[translated] theorem same_bds_bds61_fields_ReadEmergencyPriorityStatus : @Gen.bds.bds61.fields.ReadEmergencyPriorityStatus = @readEmergencyPriorityStatus := rfl
@[translated] theorem same_bds_bds06_fields_ReadGroundTrack : @Gen.bds.bds06.fields.ReadGroundTrack = @readGroundTrack := rfl
@[translated] theorem same_bds_bds06_fields_ReadTime : @Gen.bds.bds06.fields.ReadTime = @readTime := rfl
@[translated] theorem same_bds_bds06_fields_ReadCompactPositionReportingFormat : @Gen.bds.bds06.fields.ReadCompactPositionReportingFormat = @readCPRFormat := rfl
@[translated] theorem same_bds_bds06_fields_ReadEncodedLatitude : @Gen.bds.bds06.fields.ReadEncodedLatitude = @readEncodedLatitude06 := rfl
@[translated] theorem same_bds_bds06_fields_ReadEncodedLongitude : @Gen.bds.bds06.fields.ReadEncodedLongitude = @readEncodedLongitude := rfl
@[translated] theorem same_bds_bds62_fields_ReadSubtype : @Gen.bds.bds62.fields.ReadSubtype = @readSubtype62 := rfl
@[translated] theorem same_bds_bds62_fields_ReadVerticalDataAvailableSourceIndicator : @Gen.bds.bds62.fields.ReadVerticalDataAvailableSourceIndicator = @readVDA := rfl
@[translated] theorem same_bds_bds62_fields_ReadTargetAltitudeType : @Gen.bds.bds62.fields.ReadTargetAltitudeType = @readTargetAltitudeType := rfl
@[translated] theorem same_bds_bds62_fields_ReadTargetAltitudeCapability : @Gen.bds.bds62.fields.ReadTargetAltitudeCapability = @readTargetAltitudeCapability := rfl
@[translated] theorem same_bds_bds62_fields_ReadVerticalModeIndicator : @Gen.bds.bds62.fields.ReadVerticalModeIndicator = @readVerticalModeIndicator := rfl
@[translated] theorem same_bds_bds62_fields_ReadHorizontalDataAvailableSourceIndicator : @Gen.bds.bds62.fields.ReadHorizontalDataAvailableSourceIndicator = @readHDA := rfl
@[translated] theorem same_bds_bds62_fields_ReadTargetHeadingTrackIndicator : @Gen.bds.bds62.fields.ReadTargetHeadingTrackIndicator = @readTargetHeadingTrackIndicator := rfl
@[translated] theorem same_bds_bds62_fields_ReadHorizontalModeIndicator : @Gen.bds.bds62.fields.ReadHorizontalModeIndicator = @readHorizontalModeIndicator := rfl
@[translated] theorem same_bds_bds62_fields_ReadNavigationalAccuracyCategoryPositionV1 : @Gen.bds.bds62.fields.ReadNavigationalAccuracyCategoryPositionV1 = @readNACp62 := rfl
@[translated] theorem same_bds_bds62_fields_ReadNICBaro : @Gen.bds.bds62.fields.ReadNICBaro = @readNICBaro62 := rfl
@[translated] theorem same_bds_bds62_fields_ReadSurveillanceIntegrityLevel : @Gen.bds.bds62.fields.ReadSurveillanceIntegrityLevel = @readSIL62 := rfl
@[translated] theorem same_bds_bds62_fields_ReadCapabilityModeCode : @Gen.bds.bds62.fields.ReadCapabilityModeCode = @readCapabilityModeCode := rfl
@[translated] theorem same_bds_bds62_fields_ReadEmergencyPriorityStatus : @Gen.bds.bds62.fields.ReadEmergencyPriorityStatus = @readEmergencyPriorityStatus62 := rfl
@[translated] theorem same_bds_bds62_fields_ReadSourceIntegrityLevelSupplement : @Gen.bds.bds62.fields.ReadSourceIntegrityLevelSupplement = @readSILSupplement62 := rfl
@[translated] theorem same_bds_bds62_fields_ReadSelectedAltitudeType : @Gen.bds.bds62.fields.ReadSelectedAltitudeType = @readSelectedAltitudeType := rfl
@[translated] theorem same_bds_bds62_fields_ReadNavigationalAccuracyCategoryPositionV2 : @Gen.bds.bds62.fields.ReadNavigationalAccuracyCategoryPositionV2 = @readNACp62 := rfl
@[translated] theorem same_bds_bds62_fields_ReadSourceIntegrityLevel : @Gen.bds.bds62.fields.ReadSourceIntegrityLevel = @readSIL62 := rfl
@[translated] theorem same_bds_bds62_fields_ReadStatusMCPFCUBits : @Gen.bds.bds62.fields.ReadStatusMCPFCUBits = @readStatusMCPFCUBits := rfl
@[translated] theorem same_bds_bds07_fields_ReadAltitudeTypeSubfield : @Gen.bds.bds07.fields.ReadAltitudeTypeSubfield = @readAltitudeTypeSubfield := rfl
@[translated] theorem same_bds_bds07_fields_ReadTransmissionRateSubfield : @Gen.bds.bds07.fields.ReadTransmissionRateSubfield = @readTransmissionRateSubfield := rfl
@[translated] theorem same_bds_bds10_fields_ReadContinuationFlag : @Gen.bds.bds10.fields.ReadContinuationFlag = @readContinuationFlag10 := rfl
@[translated] theorem same_bds_bds10_fields_ReadOverlayCommandCapability : @Gen.bds.bds10.fields.ReadOverlayCommandCapability = @readOverlayCommandCapability10 := rfl
@[translated] theorem same_bds_bds10_fields_ReadACASStatus : @Gen.bds.bds10.fields.ReadACASStatus = @readACASStatus10 := rfl
@[translated] theorem same_bds_bds10_fields_ReadModeSSubnetworkVersion : @Gen.bds.bds10.fields.ReadModeSSubnetworkVersion = @readModeSSubnetworkVersion10 := rfl
@[translated] theorem same_bds_bds10_fields_ReadTransponderEnhancedProtocolIndicator : @Gen.bds.bds10.fields.ReadTransponderEnhancedProtocolIndicator = @readTransponderEnhancedProtocolIndicator10 := rfl
@[translated] theorem same_bds_bds10_fields_ReadModeSSpecificServicesCapability : @Gen.bds.bds10.fields.ReadModeSSpecificServicesCapability = @readModeSSpecificServicesCapability10 := rfl
@[translated] theorem same_bds_bds10_fields_ReadUplinkELMThroughputCapability : @Gen.bds.bds10.fields.ReadUplinkELMThroughputCapability = @readUplinkELMThroughputCapability10 := rfl
@[translated] theorem same_bds_bds10_fields_ReadDownlinkELMThroughputCapability : @Gen.bds.bds10.fields.ReadDownlinkELMThroughputCapability = @readDownlinkELMThroughputCapability10 := rfl
@[translated] theorem same_bds_bds10_fields_ReadAircraftIdentificationCapability : @Gen.bds.bds10.fields.ReadAircraftIdentificationCapability = @readAircraftIdentificationCapability10 := rfl
@[translated] theorem same_bds_bds10_fields_ReadSquitterCapabilitySubfield : @Gen.bds.bds10.fields.ReadSquitterCapabilitySubfield = @readSquitterCapabilitySubfield10 := rfl
@[translated] theorem same_bds_bds10_fields_ReadSurveillanceIdentifierCode : @Gen.bds.bds10.fields.ReadSurveillanceIdentifierCode = @readSurveillanceIdentifierCode10 := rfl
@[translated] theorem same_bds_bds10_fields_ReadCommonUsageGICBCapability : @Gen.bds.bds10.fields.ReadCommonUsageGICBCapability = @readCommonUsageGICBCapability10 := rfl
@[translated] theorem same_bds_bds10_fields_ReadACASHybridSurveillanceCapability : @Gen.bds.bds10.fields.ReadACASHybridSurveillanceCapability = @readACASHybridSurveillanceCapability10 := rfl
@[translated] theorem same_bds_bds10_fields_ReadACASGenerationCapability : @Gen.bds.bds10.fields.ReadACASGenerationCapability = @readACASGenerationCapability10 := rfl
@[translated] theorem same_bds_bds10_fields_ReadACASApplicableDocument : @Gen.bds.bds10.fields.ReadACASApplicableDocument = @readACASApplicableDocument10 := rfl
@[translated] theorem same_bds_bds10_fields_ReadDTESubAddressStatuses : @Gen.bds.bds10.fields.ReadDTESubAddressStatuses = @readDTESubAddressStatuses10 := rfl
@[translated] theorem same_bds_bds10_ReadDataLinkCapabilityReport : @Gen.bds.bds10.ReadDataLinkCapabilityReport = @readBDS10 := rfl
@[translated] theorem same_bds_bds40_fields_ReadBarometricPressure : @Gen.bds.bds40.fields.ReadBarometricPressure = @readBarometricPressure40 := rfl
@[translated] theorem same_bds_bds40_fields_ReadFMSSelectedAltitude : @Gen.bds.bds40.fields.ReadFMSSelectedAltitude = @readFMSSelectedAltitude := rfl
@[translated] theorem same_bds_bds40_fields_ReadMCPSelectedAltitude : @Gen.bds.bds40.fields.ReadMCPSelectedAltitude = @readMCPSelectedAltitude := rfl
@[translated] theorem same_bds_bds40_fields_ReadStatusOfModeBits : @Gen.bds.bds40.fields.ReadStatusOfModeBits = @readStatusOfModeBits := rfl
@[translated] theorem same_bds_bds40_fields_ReadStatusOfTargetAltitudeSource : @Gen.bds.bds40.fields.ReadStatusOfTargetAltitudeSource = @readStatusOfTargetAltitudeSource := rfl
@[translated] theorem same_bds_bds40_fields_ReadTargetAltitudeSource : @Gen.bds.bds40.fields.ReadTargetAltitudeSource = @readTargetAltitudeSource := rfl
@[translated] theorem same_bds_bds40_ReadSelectedVerticalIntention : @Gen.bds.bds40.ReadSelectedVerticalIntention = @readBDS40 := rfl
@[translated] theorem same_bds_bds44_fields_ReadAverageStaticPressureV0 : @Gen.bds.bds44.fields.ReadAverageStaticPressureV0 = @readAverageStaticPressure44V0 := rfl
@[translated] theorem same_bds_bds44_fields_ReadAverageStaticPressureV1AndV2 : @Gen.bds.bds44.fields.ReadAverageStaticPressureV1AndV2 = @readAverageStaticPressure44 := rfl
@[translated] theorem same_bds_bds44_fields_ReadHumidityV0 : @Gen.bds.bds44.fields.ReadHumidityV0 = @readHumidity44V0 := rfl
@[translated] theorem same_bds_bds44_fields_ReadHumidityV1AndV2 : @Gen.bds.bds44.fields.ReadHumidityV1AndV2 = @readHumidity44 := rfl
@[translated] theorem same_bds_bds44_fields_ReadSource : @Gen.bds.bds44.fields.ReadSource = @readSource44 := rfl
@[translated] theorem same_bds_bds44_fields_ReadTurbulence : @Gen.bds.bds44.fields.ReadTurbulence = @readTurbulence44 := rfl
@[translated] theorem same_bds_bds44_fields_ReadTurbulenceFlag : @Gen.bds.bds44.fields.ReadTurbulenceFlag = @readTurbulenceFlag44 := rfl
@[translated] theorem same_bds_bds44_fields_ReadWindDirectionV0 : @Gen.bds.bds44.fields.ReadWindDirectionV0 = @readWindDirection44V0 := rfl
@[translated] theorem same_bds_bds44_fields_ReadWindDirectionV1AndV2 : @Gen.bds.bds44.fields.ReadWindDirectionV1AndV2 = @readWindDirection44 := rfl
@[translated] theorem same_bds_bds44_fields_ReadWindSpeed : @Gen.bds.bds44.fields.ReadWindSpeed = @readWindSpeed44 := rfl
@[translated] theorem same_bds_bds45_fields_ReadAverageStaticPressure : @Gen.bds.bds45.fields.ReadAverageStaticPressure = @readAverageStaticPressure45 := rfl
@[translated] theorem same_bds_bds45_fields_ReadIcingV0 : @Gen.bds.bds45.fields.ReadIcingV0 = @readIcing45V0 := rfl
@[translated] theorem same_bds_bds45_fields_ReadIcingV1 : @Gen.bds.bds45.fields.ReadIcingV1 = @readIcing45V1 := rfl
@[translated] theorem same_bds_bds45_fields_ReadMicroBurstV0 : @Gen.bds.bds45.fields.ReadMicroBurstV0 = @readMicroBurst45V0 := rfl
@[translated] theorem same_bds_bds45_fields_ReadMicroBurstV1 : @Gen.bds.bds45.fields.ReadMicroBurstV1 = @readMicroBurst45V1 := rfl
@[translated] theorem same_bds_bds45_fields_ReadRadioHeightV0 : @Gen.bds.bds45.fields.ReadRadioHeightV0 = @readRadioHeight45V0 := rfl
@[translated] theorem same_bds_bds45_fields_ReadRadioHeightV1 : @Gen.bds.bds45.fields.ReadRadioHeightV1 = @readRadioHeight45V1 := rfl
@[translated] theorem same_bds_bds45_fields_ReadTurbulenceV0 : @Gen.bds.bds45.fields.ReadTurbulenceV0 = @readTurbulence45V0 := rfl
@[translated] theorem same_bds_bds45_fields_ReadWakeVortexV0 : @Gen.bds.bds45.fields.ReadWakeVortexV0 = @readWakeVortex45V0 := rfl
@[translated] theorem same_bds_bds45_fields_ReadWakeVortexV1 : @Gen.bds.bds45.fields.ReadWakeVortexV1 = @readWakeVortex45V1 := rfl
@[translated] theorem same_bds_bds45_fields_ReadWindShearV0 : @Gen.bds.bds45.fields.ReadWindShearV0 = @readWindShear45V0 := rfl
@[translated] theorem same_bds_bds45_fields_ReadWindShearV1 : @Gen.bds.bds45.fields.ReadWindShearV1 = @readWindShear45V1 := rfl
@[translated] theorem same_bds_bds50_fields_ReadGroundSpeed : @Gen.bds.bds50.fields.ReadGroundSpeed = @readGroundSpeed50 := rfl
@[translated] theorem same_bds_bds50_fields_ReadTrueAirSpeed : @Gen.bds.bds50.fields.ReadTrueAirSpeed = @readTrueAirSpeed := rfl
@[translated] theorem same_bds_bds60_fields_ReadIndicatedAirSpeed : @Gen.bds.bds60.fields.ReadIndicatedAirSpeed = @readIndicatedAirSpeed := rfl
@[translated] theorem same_bitutils_Pack8Bits : @Gen.bitutils.Pack8Bits = @pack8Bits := rfl
@[translated] theorem same_bitutils_Pack16Bits : @Gen.bitutils.Pack16Bits = @pack16Bits := rfl
@[translated] theorem same_modes_fields_ReadAddressAnnounced : @Gen.modes.fields.ReadAddressAnnounced = @readAddressAnnounced := rfl
@[translated] theorem same_modes_fields_ReadApplicationField : @Gen.modes.fields.ReadApplicationField = @readApplicationField := rfl
@[translated] theorem same_modes_fields_ReadCapability : @Gen.modes.fields.ReadCapability = @readCapability := rfl
@[translated] theorem same_modes_fields_ReadControlELM : @Gen.modes.fields.ReadControlELM = @readControlELM := rfl
@[translated] theorem same_modes_fields_ReadControlField : @Gen.modes.fields.ReadControlField = @readControlField := rfl
@[translated] theorem same_modes_fields_ReadCrossLinkCompatibility : @Gen.modes.fields.ReadCrossLinkCompatibility = @readCrossLinkCompatibility := rfl
@[translated] theorem same_modes_fields_ReadDownlinkRequest : @Gen.modes.fields.ReadDownlinkRequest = @readDownlinkRequest := rfl
@[translated] theorem same_modes_fields_ReadFlightStatus : @Gen.modes.fields.ReadFlightStatus = @readFlightStatus := rfl
@[translated] theorem same_modes_fields_Identity_IsSpecialEmergency : @Gen.modes.fields.Identity.IsSpecialEmergency = @isSpecialEmergency := rfl
@[translated] theorem same_modes_fields_Identity_IsSpecialRadiocommunicationFailure : @Gen.modes.fields.Identity.IsSpecialRadiocommunicationFailure = @isSpecialRadiocommunicationFailure := rfl
@[translated] theorem same_modes_fields_Identity_IsSpecialUnlawfulInterference : @Gen.modes.fields.Identity.IsSpecialUnlawfulInterference = @isSpecialUnlawfulInterference := rfl
@[translated] theorem same_modes_fields_Identity_IsSpecialInstructionNotReceived : @Gen.modes.fields.Identity.IsSpecialInstructionNotReceived = @isSpecialInstructionNotReceived := rfl
@[translated] theorem same_modes_fields_ReadIdentity : @Gen.modes.fields.ReadIdentity = @readIdentity := rfl
@[translated] theorem same_modes_fields_ReadNumberOfDSegment : @Gen.modes.fields.ReadNumberOfDSegment = @readNumberOfDSegment := rfl
@[translated] theorem same_modes_fields_ReadReplyInformationAirAir : @Gen.modes.fields.ReadReplyInformationAirAir = @readReplyInformationAirAir := rfl
@[translated] theorem same_modes_fields_ReadSensitivityLevelReport : @Gen.modes.fields.ReadSensitivityLevelReport = @readSensitivityLevelReport := rfl
@[translated] theorem same_modes_fields_ReadVerticalStatus : @Gen.modes.fields.ReadVerticalStatus = @readVerticalStatus := rfl
@[translated] theorem same_modes_messages_ParseDF11 : @Gen.modes.messages.ParseDF11 = @parseDF11 := rfl
@[translated] theorem same_modes_messages_ParseDF19 : @Gen.modes.messages.ParseDF19 = @parseDF19 := rfl

end Modes
