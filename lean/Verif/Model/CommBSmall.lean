import Verif.Model.Ident
import Verif.Model.ACAS
import Verif.Model.BDS61
/-!
# Comm-B registers 0,0 / 0,7 / 1,0 / 1,7 / 3,0

Enumerated types of one byte are the byte. `coherent` is `CheckCoherency() == nil`.
-/
namespace Modes

/-- `bds00.NoMessageAvailable`, pkg/bds/bds00/no_message_available.go:14-15. -/
structure NoMessageAvailable where
  deriving DecidableEq

/-- `CheckCoherency`, pkg/bds/bds00/no_message_available.go:30-32. -/
def NoMessageAvailable.coherent (_ : NoMessageAvailable) : Bool := true

/-- `bds00.ReadNoMessageAvailable`, pkg/bds/bds00/no_message_available.go:35-48. -/
def readBDS00 (data : List UInt8) : Go NoMessageAvailable := do
  if data.length ≠ 7 then fail
  expectZeros data 0 7
  return {}

/-- `fields.ReadTransmissionRateSubfield`, pkg/bds/bds07/fields/transmission_rate_subfield.go:35-38. -/
def readTransmissionRateSubfield (data : List UInt8) : Go UInt8 := do
  return ((← idx data 0) &&& 0xC0) >>> 6

/-- `fields.ReadAltitudeTypeSubfield`, pkg/bds/bds07/fields/altitude_type_subfield.go:31-34. -/
def readAltitudeTypeSubfield (data : List UInt8) : Go UInt8 := do
  return ((← idx data 0) &&& 0x20) >>> 5

/-- `bds07.Status`, pkg/bds/bds07/status.go:14-17. -/
structure Status07 where
  transmissionRateSubfield : UInt8
  altitudeTypeSubfield : UInt8
  deriving DecidableEq

/-- `CheckCoherency`, pkg/bds/bds07/status.go:25-31. -/
def Status07.coherent (m : Status07) : Bool := !(m.transmissionRateSubfield ≥ 3)

/-- `bds07.ReadStatus`, pkg/bds/bds07/status.go:45-66. -/
def readBDS07 (data : List UInt8) : Go Status07 := do
  if data.length ≠ 7 then fail
  if (← idx data 0) &&& 0x1C ≠ 0 then fail
  expectZeros data 1 6
  return { transmissionRateSubfield := ← readTransmissionRateSubfield data
           altitudeTypeSubfield := ← readAltitudeTypeSubfield data }

/-- `fields.ReadContinuationFlag`, pkg/bds/bds10/fields/continuation_flag.go:31-34. -/
def readContinuationFlag10 (data : List UInt8) : Go UInt8 := do
  return ((← idx data 1) &&& 0x80) >>> 7

/-- `fields.ReadOverlayCommandCapability`, pkg/bds/bds10/fields/overlay_command_capability.go:31-34. -/
def readOverlayCommandCapability10 (data : List UInt8) : Go UInt8 := do
  return ((← idx data 1) &&& 0x02) >>> 1

/-- `fields.ReadACASStatus`, pkg/bds/bds10/fields/acas_status.go:31-34. -/
def readACASStatus10 (data : List UInt8) : Go UInt8 := do
  return (← idx data 1) &&& 0x01

/-- `fields.ReadModeSSubnetworkVersion`, pkg/bds/bds10/fields/modes_subnetwork_version.go:47-50. -/
def readModeSSubnetworkVersion10 (data : List UInt8) : Go UInt8 := do
  return ((← idx data 2) &&& 0xFE) >>> 1

/-- `fields.ReadTransponderEnhancedProtocolIndicator`, pkg/bds/bds10/fields/transponder_enhanced_protocol_indicator.go:31-34. -/
def readTransponderEnhancedProtocolIndicator10 (data : List UInt8) : Go UInt8 := do
  return (← idx data 2) &&& 0x01

/-- `fields.ReadModeSSpecificServicesCapability`, pkg/bds/bds10/fields/modes_specific_services_capability.go:31-34. -/
def readModeSSpecificServicesCapability10 (data : List UInt8) : Go UInt8 := do
  return ((← idx data 3) &&& 0x80) >>> 7

/-- `fields.ReadUplinkELMThroughputCapability`, pkg/bds/bds10/fields/uplink_elm_throughput.go:51-54. -/
def readUplinkELMThroughputCapability10 (data : List UInt8) : Go UInt8 := do
  return ((← idx data 3) &&& 0x70) >>> 4

/-- `fields.ReadDownlinkELMThroughputCapability`, pkg/bds/bds10/fields/downlink_elm_throughput.go:51-54. -/
def readDownlinkELMThroughputCapability10 (data : List UInt8) : Go UInt8 := do
  return (← idx data 3) &&& 0x0F

/-- `fields.ReadAircraftIdentificationCapability`, pkg/bds/bds10/fields/aircraft_identification_capability.go:31-34. -/
def readAircraftIdentificationCapability10 (data : List UInt8) : Go UInt8 := do
  return ((← idx data 4) &&& 0x80) >>> 7

/-- `fields.ReadSquitterCapabilitySubfield`, pkg/bds/bds10/fields/squitter_capability_subfield.go:32-35. -/
def readSquitterCapabilitySubfield10 (data : List UInt8) : Go UInt8 := do
  return ((← idx data 4) &&& 0x40) >>> 6

/-- `fields.ReadSurveillanceIdentifierCode`, pkg/bds/bds10/fields/surveillance_identifier_code.go:31-34. -/
def readSurveillanceIdentifierCode10 (data : List UInt8) : Go UInt8 := do
  return ((← idx data 2) &&& 0x40) >>> 5

/-- `fields.ReadCommonUsageGICBCapability`, pkg/bds/bds10/fields/common_gicb_capability.go:31-34. -/
def readCommonUsageGICBCapability10 (data : List UInt8) : Go UInt8 := do
  return ((← idx data 4) &&& 0x10) >>> 4

/-- `fields.ReadACASHybridSurveillanceCapability`, pkg/bds/bds10/fields/acas_hybrid_surveillance_capability.go:31-34. -/
def readACASHybridSurveillanceCapability10 (data : List UInt8) : Go UInt8 := do
  return ((← idx data 4) &&& 0x08) >>> 3

/-- `fields.ReadACASGenerationCapability`, pkg/bds/bds10/fields/acas_generation_capability.go:31-34. -/
def readACASGenerationCapability10 (data : List UInt8) : Go UInt8 := do
  return ((← idx data 4) &&& 0x04) >>> 2

/-- `fields.ReadACASApplicableDocument`, pkg/bds/bds10/fields/acas_applicable_document.go:37-40. -/
def readACASApplicableDocument10 (data : List UInt8) : Go UInt8 := do
  return (← idx data 4) &&& 0x03

/-- `fields.ReadDTESubAddressStatuses`, pkg/bds/bds10/fields/dte_sub_address_statuses.go:28-30. -/
def readDTESubAddressStatuses10 (data : List UInt8) : Go UInt16 := do
  return pack2 (← idx data 5) (← idx data 6)

/-- `bds10.DataLinkCapabilityReport`, pkg/bds/bds10/data_link_capability_report.go:14-31. -/
structure DataLinkCapabilityReport where
  continuationFlag : UInt8
  overlayCommandCapability : UInt8
  acasStatus : UInt8
  modeSSubnetworkVersion : UInt8
  transponderEnhancedProtocolIndicator : UInt8
  modeSSpecificServicesCapability : UInt8
  uplinkELMThroughputCapability : UInt8
  downlinkELMThroughputCapability : UInt8
  aircraftIdentificationCapability : UInt8
  squitterCapabilitySubfield : UInt8
  surveillanceIdentifierCode : UInt8
  commonUsageGICBCapability : UInt8
  acasHybridSurveillanceCapability : UInt8
  acasGenerationCapability : UInt8
  acasApplicableDocument : UInt8
  dteSubAddressStatuses : UInt16
  deriving DecidableEq

/-- `CheckCoherency`, pkg/bds/bds10/data_link_capability_report.go:39-70. -/
def DataLinkCapabilityReport.coherent (m : DataLinkCapabilityReport) : Bool :=
  if m.acasStatus = 0 ∧ m.acasHybridSurveillanceCapability ≠ 0 then false
  else if m.acasStatus = 0 ∧ m.acasGenerationCapability ≠ 0 then false
  else if m.acasStatus = 0 ∧ m.acasApplicableDocument ≠ 0 then false
  else if m.acasStatus ≠ 0 ∧ m.acasApplicableDocument > 2 then false
  else if m.modeSSubnetworkVersion > 5 then false
  else if m.uplinkELMThroughputCapability > 6 then false
  else if m.downlinkELMThroughputCapability > 6 then false
  else true

/-- `bds10.ReadDataLinkCapabilityReport`, pkg/bds/bds10/data_link_capability_report.go:110-144. -/
def readBDS10 (data : List UInt8) : Go DataLinkCapabilityReport := do
  if data.length ≠ 7 then fail
  if (← idx data 0) ≠ 0x10 then fail
  if (← idx data 1) &&& 0x7C ≠ 0 then fail
  return {
    continuationFlag := ← readContinuationFlag10 data
    overlayCommandCapability := ← readOverlayCommandCapability10 data
    acasStatus := ← readACASStatus10 data
    modeSSubnetworkVersion := ← readModeSSubnetworkVersion10 data
    transponderEnhancedProtocolIndicator := ← readTransponderEnhancedProtocolIndicator10 data
    modeSSpecificServicesCapability := ← readModeSSpecificServicesCapability10 data
    uplinkELMThroughputCapability := ← readUplinkELMThroughputCapability10 data
    downlinkELMThroughputCapability := ← readDownlinkELMThroughputCapability10 data
    aircraftIdentificationCapability := ← readAircraftIdentificationCapability10 data
    squitterCapabilitySubfield := ← readSquitterCapabilitySubfield10 data
    surveillanceIdentifierCode := ← readSurveillanceIdentifierCode10 data
    commonUsageGICBCapability := ← readCommonUsageGICBCapability10 data
    acasHybridSurveillanceCapability := ← readACASHybridSurveillanceCapability10 data
    acasGenerationCapability := ← readACASGenerationCapability10 data
    acasApplicableDocument := ← readACASApplicableDocument10 data
    dteSubAddressStatuses := ← readDTESubAddressStatuses10 data }

/-- `bds17.CommonUsageGICBCapabilityReport`, pkg/bds/bds17/common_usage_gicb_capability_report.go:9-35. -/
structure GICBCapabilityReport where
  extendedSquitterAirbornePosition : Bool
  extendedSquitterSurfacePosition : Bool
  extendedSquitterStatus : Bool
  extendedSquitterIdentificationAndCategory : Bool
  extendedSquitterAirborneVelocityInformation : Bool
  extendedSquitterEventDrivenInformation : Bool
  aircraftIdentification : Bool
  aircraftRegistrationNumber : Bool
  selectedVerticalIntention : Bool
  nextWaypointIdentifier : Bool
  nextWaypointPosition : Bool
  nextWaypointInformation : Bool
  meteorologicalRoutineReport : Bool
  meteorologicalHazardReport : Bool
  vhfChannelReport : Bool
  trackAndTurnReport : Bool
  positionCoarse : Bool
  positionFine : Bool
  airReferencedStateVector : Bool
  waypoint1 : Bool
  waypoint2 : Bool
  waypoint3 : Bool
  quasiStaticParameterMonitoring : Bool
  headingAndSpeedReport : Bool
  militaryApplications : Bool
  deriving DecidableEq

/-- `CheckCoherency`, pkg/bds/bds17/common_usage_gicb_capability_report.go:100-102. -/
def GICBCapabilityReport.coherent (_ : GICBCapabilityReport) : Bool := true

/-- `bds17.ReadCommonUsageGICBCapabilityReport`, pkg/bds/bds17/common_usage_gicb_capability_report.go:105-149. -/
def readBDS17 (data : List UInt8) : Go GICBCapabilityReport := do
  if data.length ≠ 7 then fail
  if (← idx data 3) &&& 0x07 ≠ 0 then fail
  expectZeros data 4 3
  return {
    extendedSquitterAirbornePosition := ((← idx data 0) &&& 0x80) >>> 7 != 0
    extendedSquitterSurfacePosition := ((← idx data 0) &&& 0x40) >>> 6 != 0
    extendedSquitterStatus := ((← idx data 0) &&& 0x20) >>> 5 != 0
    extendedSquitterIdentificationAndCategory := ((← idx data 0) &&& 0x10) >>> 4 != 0
    extendedSquitterAirborneVelocityInformation := ((← idx data 0) &&& 0x08) >>> 3 != 0
    extendedSquitterEventDrivenInformation := ((← idx data 0) &&& 0x04) >>> 2 != 0
    aircraftIdentification := ((← idx data 0) &&& 0x02) >>> 1 != 0
    aircraftRegistrationNumber := ((← idx data 0) &&& 0x01) >>> 0 != 0
    selectedVerticalIntention := ((← idx data 1) &&& 0x80) >>> 7 != 0
    nextWaypointIdentifier := ((← idx data 1) &&& 0x40) >>> 6 != 0
    nextWaypointPosition := ((← idx data 1) &&& 0x20) >>> 5 != 0
    nextWaypointInformation := ((← idx data 1) &&& 0x10) >>> 4 != 0
    meteorologicalRoutineReport := ((← idx data 1) &&& 0x08) >>> 3 != 0
    meteorologicalHazardReport := ((← idx data 1) &&& 0x04) >>> 2 != 0
    vhfChannelReport := ((← idx data 1) &&& 0x02) >>> 1 != 0
    trackAndTurnReport := ((← idx data 1) &&& 0x01) >>> 0 != 0
    positionCoarse := ((← idx data 2) &&& 0x80) >>> 7 != 0
    positionFine := ((← idx data 2) &&& 0x40) >>> 6 != 0
    airReferencedStateVector := ((← idx data 2) &&& 0x20) >>> 5 != 0
    waypoint1 := ((← idx data 2) &&& 0x10) >>> 4 != 0
    waypoint2 := ((← idx data 2) &&& 0x08) >>> 3 != 0
    waypoint3 := ((← idx data 2) &&& 0x04) >>> 2 != 0
    quasiStaticParameterMonitoring := ((← idx data 2) &&& 0x02) >>> 1 != 0
    headingAndSpeedReport := ((← idx data 2) &&& 0x01) >>> 0 != 0
    militaryApplications := ((← idx data 3) &&& 0x08) >>> 3 != 0 }

/-- `bds30.ACASResolutionAdvisory`, pkg/bds/bds30/acas_resolution_advisory.go:13-15. -/
structure ACASResolutionAdvisory where
  resolutionAdvisory : ResolutionAdvisory
  deriving DecidableEq

/-- `CheckCoherency`, pkg/bds/bds30/acas_resolution_advisory.go:32-34. -/
def ACASResolutionAdvisory.coherent (_ : ACASResolutionAdvisory) : Bool := true

/-- `bds30.ReadACASResolutionAdvisory`, pkg/bds/bds30/acas_resolution_advisory.go:37-56. -/
def readBDS30 (data : List UInt8) : Go ACASResolutionAdvisory := do
  if data.length ≠ 7 then fail
  if (← idx data 0) ≠ 0x30 then fail
  let resolutionAdvisory ← readResolutionAdvisory (← sliceFrom data 1)
  return { resolutionAdvisory := resolutionAdvisory }

end Modes
