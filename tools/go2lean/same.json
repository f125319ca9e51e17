{
"Gen.acas.ra.fields.ReadMultipleThreatEncounter": "readMTE",
"Gen.acas.ra.fields.ReadRATerminatedIndicator": "readRATerminated",
"Gen.bitutils.Pack4Bytes": "pack4",
"Gen.acas.ra.fields.ReadThreatIdentityAddress": "readThreatAddress",
"Gen.bitutils.grayToBinary": "grayToBinary",
"Gen.acas.ra.fields.ThreatIdentityBearing.GetBearing": "getBearing",
"Gen.acas.ra.fields.ReadThreatIdentityBearing": "readThreatBearing",
"Gen.acas.ra.fields.ReadThreatIdentityRange": "readThreatRange",
"Gen.acas.ra.fields.ReadThreatTypeIndicator": "readThreatTypeIndicator",
"Gen.bds.bds05.fields.ReadSurveillanceStatus": "readSurveillanceStatus",
"Gen.bds.bds05.fields.ReadSingleAntennaFlag": "readSingleAntennaFlag",
"Gen.bds.bds05.fields.ReadTime": "readTime",
"Gen.bds.bds05.fields.ReadCompactPositionReportingFormat": "readCPRFormat",
"Gen.bitutils.Pack3Bytes": "pack3",
"Gen.bds.bds05.fields.ReadEncodedLatitude": "readEncodedLatitude05",
"Gen.bds.bds05.fields.ReadEncodedLongitude": "readEncodedLongitude",
"Gen.bds.bds09.fields.ReadSubtype": "readSubtype09",
"Gen.bitutils.Pack2Bytes": "pack2",
"Gen.bds.bds09.fields.ReadVelocityEWNormal": "readVelocityEWNormal",
"Gen.bds.bds09.fields.ReadVelocityNSNormal": "readVelocityNSNormal",
"Gen.bds.bds09.fields.ReadIntentChange": "readIntentChange",
"Gen.bds.bds09.fields.ReadIFRCapability": "readIFRCapability",
"Gen.bds.bds09.fields.ReadNavigationUncertaintyCategory": "readNUC",
"Gen.bds.bds09.fields.ReadDirectionEastWest": "readDirectionEW",
"Gen.bds.bds09.fields.ReadDirectionNorthSouth": "readDirectionNS",
"Gen.bds.bds09.fields.ReadVerticalRateSource": "readVerticalRateSource",
"Gen.bds.bds09.fields.ReadVelocityEWSupersonic": "readVelocityEWSupersonic",
"Gen.bds.bds09.fields.ReadVelocityNSSupersonic": "readVelocityNSSupersonic",
"Gen.bds.bds09.fields.ReadMagneticHeading": "readMagneticHeading09",
"Gen.bds.bds09.fields.ReadAirspeedNormal": "readVelocityNSNormal",
"Gen.bds.bds09.fields.ReadAirspeedSupersonic": "readVelocityNSSupersonic",
"Gen.bds.bds65.fields.ReadEnRouteOperationalCapabilities": "readEnRouteOperationalCapabilities",
"Gen.bds.bds65.fields.ReadEnRouteOperationalCapabilityStatus": "readEnRouteOperationalCapabilityStatus",
"Gen.bds.bds65.fields.ReadTerminalAreaOperationalCapabilities": "readTerminalAreaOperationalCapabilities",
"Gen.bds.bds65.fields.ReadTerminalAreaOperationalCapabilityStatus": "readTerminalAreaOperationalCapabilityStatus",
"Gen.bds.bds65.fields.ReadApproachLandingOperationalCapabilities": "readApproachLandingOperationalCapabilities",
"Gen.bds.bds65.fields.ReadApproachLandingOperationalCapabilityStatus": "readApproachLandingOperationalCapabilityStatus",
"Gen.bds.bds65.fields.ReadSurfaceOperationalCapabilities": "readSurfaceOperationalCapabilities",
"Gen.bds.bds65.fields.ReadSurfaceOperationalCapabilityStatus": "readSurfaceOperationalCapabilityStatus",
"Gen.bds.bds65.fields.ReadSubtype": "readSubtype65",
"Gen.bds.bds65.fields.ReadVersionNumber": "readVersionNumber",
"Gen.bds.bds65.fields.ReadNotACASStatus": "readNotACASStatus",
"Gen.bds.bds65.fields.ReadCockpitDisplayOfTrafficInformationStatus": "readCockpitDisplayOfTrafficInformationStatus",
"Gen.bds.bds65.fields.ReadAirReferencedVelocityReportCapability": "readAirReferencedVelocityReportCapability",
"Gen.bds.bds65.fields.ReadTargetStateReportCapability": "readTargetStateReportCapability",
"Gen.bds.bds65.fields.ReadTargetChangeReportCapability": "readTargetChangeReportCapability",
"Gen.bds.bds65.fields.ReadAirborneCapabilityClassV1": "readAirborneCapabilityClassV1",
"Gen.bds.bds65.fields.ReadACASResolutionAdvisoryActiveV1": "readACASResolutionAdvisoryActiveV1",
"Gen.bds.bds65.fields.ReadIdentSwitchActive": "readIdentSwitchActive",
"Gen.bds.bds65.fields.ReadReceivingATCServices": "readReceivingATCServices",
"Gen.bds.bds65.fields.ReadOperationalMode": "readOperationalMode",
"Gen.bds.bds65.fields.ReadNICSupplementA": "readNICSupplementA",
"Gen.bds.bds65.fields.ReadNavigationalAccuracyCategoryPositionV1": "readNavigationalAccuracyCategoryPosition",
"Gen.bds.bds65.fields.ReadSurveillanceIntegrityLevel": "readSourceIntegrityLevel65",
"Gen.bds.bds65.fields.ReadNICBaro": "readNICBaro65",
"Gen.bds.bds65.fields.ReadHorizontalReferenceDirection": "readHorizontalReferenceDirection",
"Gen.bds.bds65.fields.ReadPositionOffsetApplied": "readPositionOffsetApplied",
"Gen.bds.bds65.fields.ReadB2Low": "readB2Low",
"Gen.bds.bds65.fields.ReadSurfaceCapabilityClassV1": "readSurfaceCapabilityClassV1",
"Gen.bds.bds65.fields.ReadAircraftLengthAndWidth": "readAircraftLengthAndWidth",
"Gen.bds.bds65.fields.ReadTrackAngleHeading": "readTrackAngleHeading",
"Gen.bds.bds65.fields.ReadACASOperational": "readACASOperational",
"Gen.bds.bds65.fields.ReadExtendedSquitterIn": "readExtendedSquitterIn",
"Gen.bds.bds65.fields.ReadUniversalAccessTransceiverCapabilityAirborne": "readUATCapabilityAirborne",
"Gen.bds.bds65.fields.ReadAirborneCapabilityClassV2": "readAirborneCapabilityClassV2",
"Gen.bds.bds65.fields.ReadACASResolutionAdvisoryActiveV2": "readACASResolutionAdvisoryActiveV2",
"Gen.bds.bds65.fields.ReadSingleAntennaFlag": "readSingleAntennaFlag65",
"Gen.bds.bds65.fields.ReadSystemDesignAssurance": "readSystemDesignAssurance",
"Gen.bds.bds65.fields.ReadAirborneOperationalMode": "readAirborneOperationalMode",
"Gen.bds.bds65.fields.ReadNavigationalAccuracyCategoryPositionV2": "readNavigationalAccuracyCategoryPosition",
"Gen.bds.bds65.fields.ReadGeometricVerticalAccuracy": "readGeometricVerticalAccuracy",
"Gen.bds.bds65.fields.ReadSourceIntegrityLevel": "readSourceIntegrityLevel65",
"Gen.bds.bds65.fields.ReadSourceIntegrityLevelSupplement": "readSourceIntegrityLevelSupplement65",
"Gen.bds.bds65.fields.ReadUniversalAccessTransceiverCapabilitySurface": "readUATCapabilitySurface",
"Gen.bds.bds65.fields.ReadNavigationAccuracyCategoryVelocity": "readNavigationAccuracyCategoryVelocity",
"Gen.bds.bds65.fields.ReadNICSupplementC": "readNICSupplementC",
"Gen.bds.bds65.fields.ReadSurfaceCapabilityClassV2": "readSurfaceCapabilityClassV2",
"Gen.bds.bds65.fields.ReadGPSAntennaLateral": "readGPSAntennaLateral",
"Gen.bds.bds65.fields.ReadGPSAntennaLongitudinal": "readGPSAntennaLongitudinal",
"Gen.bds.bds61.fields.ReadSubtype": "readSubtype61",
"Gen.bds.bds61.fields.ReadEmergencyPriorityStatus": "readEmergencyPriorityStatus",
"Gen.bds.bds06.fields.ReadGroundTrack": "readGroundTrack",
"Gen.bds.bds06.fields.ReadTime": "readTime",
"Gen.bds.bds06.fields.ReadCompactPositionReportingFormat": "readCPRFormat",
"Gen.bds.bds06.fields.ReadEncodedLatitude": "readEncodedLatitude06",
"Gen.bds.bds06.fields.ReadEncodedLongitude": "readEncodedLongitude",
"Gen.bds.bds62.fields.ReadSubtype": "readSubtype62",
"Gen.bds.bds62.fields.ReadVerticalDataAvailableSourceIndicator": "readVDA",
"Gen.bds.bds62.fields.ReadTargetAltitudeType": "readTargetAltitudeType",
"Gen.bds.bds62.fields.ReadTargetAltitudeCapability": "readTargetAltitudeCapability",
"Gen.bds.bds62.fields.ReadVerticalModeIndicator": "readVerticalModeIndicator",
"Gen.bds.bds62.fields.ReadHorizontalDataAvailableSourceIndicator": "readHDA",
"Gen.bds.bds62.fields.ReadTargetHeadingTrackIndicator": "readTargetHeadingTrackIndicator",
"Gen.bds.bds62.fields.ReadHorizontalModeIndicator": "readHorizontalModeIndicator",
"Gen.bds.bds62.fields.ReadNavigationalAccuracyCategoryPositionV1": "readNACp62",
"Gen.bds.bds62.fields.ReadNICBaro": "readNICBaro62",
"Gen.bds.bds62.fields.ReadSurveillanceIntegrityLevel": "readSIL62",
"Gen.bds.bds62.fields.ReadCapabilityModeCode": "readCapabilityModeCode",
"Gen.bds.bds62.fields.ReadEmergencyPriorityStatus": "readEmergencyPriorityStatus62",
"Gen.bds.bds62.fields.ReadSourceIntegrityLevelSupplement": "readSILSupplement62",
"Gen.bds.bds62.fields.ReadSelectedAltitudeType": "readSelectedAltitudeType",
"Gen.bds.bds62.fields.ReadNavigationalAccuracyCategoryPositionV2": "readNACp62",
"Gen.bds.bds62.fields.ReadSourceIntegrityLevel": "readSIL62",
"Gen.bds.bds62.fields.ReadStatusMCPFCUBits": "readStatusMCPFCUBits",
"Gen.bds.bds07.fields.ReadAltitudeTypeSubfield": "readAltitudeTypeSubfield",
"Gen.bds.bds07.fields.ReadTransmissionRateSubfield": "readTransmissionRateSubfield",
"Gen.bds.bds10.fields.ReadContinuationFlag": "readContinuationFlag10",
"Gen.bds.bds10.fields.ReadOverlayCommandCapability": "readOverlayCommandCapability10",
"Gen.bds.bds10.fields.ReadACASStatus": "readACASStatus10",
"Gen.bds.bds10.fields.ReadModeSSubnetworkVersion": "readModeSSubnetworkVersion10",
"Gen.bds.bds10.fields.ReadTransponderEnhancedProtocolIndicator": "readTransponderEnhancedProtocolIndicator10",
"Gen.bds.bds10.fields.ReadModeSSpecificServicesCapability": "readModeSSpecificServicesCapability10",
"Gen.bds.bds10.fields.ReadUplinkELMThroughputCapability": "readUplinkELMThroughputCapability10",
"Gen.bds.bds10.fields.ReadDownlinkELMThroughputCapability": "readDownlinkELMThroughputCapability10",
"Gen.bds.bds10.fields.ReadAircraftIdentificationCapability": "readAircraftIdentificationCapability10",
"Gen.bds.bds10.fields.ReadSquitterCapabilitySubfield": "readSquitterCapabilitySubfield10",
"Gen.bds.bds10.fields.ReadSurveillanceIdentifierCode": "readSurveillanceIdentifierCode10",
"Gen.bds.bds10.fields.ReadCommonUsageGICBCapability": "readCommonUsageGICBCapability10",
"Gen.bds.bds10.fields.ReadACASHybridSurveillanceCapability": "readACASHybridSurveillanceCapability10",
"Gen.bds.bds10.fields.ReadACASGenerationCapability": "readACASGenerationCapability10",
"Gen.bds.bds10.fields.ReadACASApplicableDocument": "readACASApplicableDocument10",
"Gen.bds.bds10.fields.ReadDTESubAddressStatuses": "readDTESubAddressStatuses10",
"Gen.bds.bds10.ReadDataLinkCapabilityReport": "readBDS10",
"Gen.bds.bds40.fields.ReadBarometricPressure": "readBarometricPressure40",
"Gen.bds.bds40.fields.ReadFMSSelectedAltitude": "readFMSSelectedAltitude",
"Gen.bds.bds40.fields.ReadMCPSelectedAltitude": "readMCPSelectedAltitude",
"Gen.bds.bds40.fields.ReadStatusOfModeBits": "readStatusOfModeBits",
"Gen.bds.bds40.fields.ReadStatusOfTargetAltitudeSource": "readStatusOfTargetAltitudeSource",
"Gen.bds.bds40.fields.ReadTargetAltitudeSource": "readTargetAltitudeSource",
"Gen.bds.bds40.ReadSelectedVerticalIntention": "readBDS40",
"Gen.bds.bds44.fields.ReadAverageStaticPressureV0": "readAverageStaticPressure44V0",
"Gen.bds.bds44.fields.ReadAverageStaticPressureV1AndV2": "readAverageStaticPressure44",
"Gen.bds.bds44.fields.ReadHumidityV0": "readHumidity44V0",
"Gen.bds.bds44.fields.ReadHumidityV1AndV2": "readHumidity44",
"Gen.bds.bds44.fields.ReadSource": "readSource44",
"Gen.bds.bds44.fields.ReadTurbulence": "readTurbulence44",
"Gen.bds.bds44.fields.ReadTurbulenceFlag": "readTurbulenceFlag44",
"Gen.bds.bds44.fields.ReadWindDirectionV0": "readWindDirection44V0",
"Gen.bds.bds44.fields.ReadWindDirectionV1AndV2": "readWindDirection44",
"Gen.bds.bds44.fields.ReadWindSpeed": "readWindSpeed44",
"Gen.bds.bds45.fields.ReadAverageStaticPressure": "readAverageStaticPressure45",
"Gen.bds.bds45.fields.ReadIcingV0": "readIcing45V0",
"Gen.bds.bds45.fields.ReadIcingV1": "readIcing45V1",
"Gen.bds.bds45.fields.ReadMicroBurstV0": "readMicroBurst45V0",
"Gen.bds.bds45.fields.ReadMicroBurstV1": "readMicroBurst45V1",
"Gen.bds.bds45.fields.ReadRadioHeightV0": "readRadioHeight45V0",
"Gen.bds.bds45.fields.ReadRadioHeightV1": "readRadioHeight45V1",
"Gen.bds.bds45.fields.ReadTurbulenceV0": "readTurbulence45V0",
"Gen.bds.bds45.fields.ReadWakeVortexV0": "readWakeVortex45V0",
"Gen.bds.bds45.fields.ReadWakeVortexV1": "readWakeVortex45V1",
"Gen.bds.bds45.fields.ReadWindShearV0": "readWindShear45V0",
"Gen.bds.bds45.fields.ReadWindShearV1": "readWindShear45V1",
"Gen.bds.bds50.fields.ReadGroundSpeed": "readGroundSpeed50",
"Gen.bds.bds50.fields.ReadTrueAirSpeed": "readTrueAirSpeed",
"Gen.bds.bds60.fields.ReadIndicatedAirSpeed": "readIndicatedAirSpeed",
"Gen.bitutils.Pack8Bits": "pack8Bits",
"Gen.bitutils.Pack16Bits": "pack16Bits",
"Gen.modes.fields.ReadAddressAnnounced": "readAddressAnnounced",
"Gen.modes.fields.ReadApplicationField": "readApplicationField",
"Gen.modes.fields.ReadCapability": "readCapability",
"Gen.modes.fields.ReadControlELM": "readControlELM",
"Gen.modes.fields.ReadControlField": "readControlField",
"Gen.modes.fields.ReadCrossLinkCompatibility": "readCrossLinkCompatibility",
"Gen.modes.fields.ReadDownlinkRequest": "readDownlinkRequest",
"Gen.modes.fields.ReadFlightStatus": "readFlightStatus",
"Gen.modes.fields.Identity.IsSpecialEmergency": "isSpecialEmergency",
"Gen.modes.fields.Identity.IsSpecialRadiocommunicationFailure": "isSpecialRadiocommunicationFailure",
"Gen.modes.fields.Identity.IsSpecialUnlawfulInterference": "isSpecialUnlawfulInterference",
"Gen.modes.fields.Identity.IsSpecialInstructionNotReceived": "isSpecialInstructionNotReceived",
"Gen.modes.fields.ReadIdentity": "readIdentity",
"Gen.modes.fields.ReadNumberOfDSegment": "readNumberOfDSegment",
"Gen.modes.fields.ReadReplyInformationAirAir": "readReplyInformationAirAir",
"Gen.modes.fields.ReadSensitivityLevelReport": "readSensitivityLevelReport",
"Gen.modes.fields.ReadVerticalStatus": "readVerticalStatus",
"Gen.modes.messages.ParseDF11": "parseDF11",
"Gen.modes.messages.ParseDF19": "parseDF19"
}