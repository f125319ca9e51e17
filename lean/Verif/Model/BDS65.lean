import Verif.Model.BDS05
/-!
# `pkg/bds/bds65`: aircraft operational status

The enumerations of the fields are bytes.
-/
namespace Modes

/-- `fields.ReadACASOperational`, pkg/bds/bds65/fields/acas_operational.go:31-34. -/
def readACASOperational (data : List UInt8) : Go UInt8 := do
  return ((← idx data 1) &&& 0x20) >>> 5

/-- `fields.ReadACASResolutionAdvisoryActiveV1`, pkg/bds/bds65/fields/acas_resolution_advisory_active_v1.go:31-34. -/
def readACASResolutionAdvisoryActiveV1 (data : List UInt8) : Go UInt8 := do
  return ((← idx data 3) &&& 0x20) >>> 5

/-- `fields.ReadACASResolutionAdvisoryActiveV2`, pkg/bds/bds65/fields/acas_resolution_advisory_active_v2.go:31-34. -/
def readACASResolutionAdvisoryActiveV2 (data : List UInt8) : Go UInt8 := do
  return ((← idx data 3) &&& 0x20) >>> 5

/-- `fields.ReadAirReferencedVelocityReportCapability`, pkg/bds/bds65/fields/air_referenced_velocity_report_capability.go:31-34. -/
def readAirReferencedVelocityReportCapability (data : List UInt8) : Go UInt8 := do
  return ((← idx data 1) &&& 0x02) >>> 1

/-- `fields.ReadApproachLandingOperationalCapabilities`, pkg/bds/bds65/fields/approach_landing_operational_capabilities.go:63-66. -/
def readApproachLandingOperationalCapabilities (data : List UInt8) : Go UInt8 := do
  return ((← idx data 2) &&& 0xF0) >>> 4

/-- `fields.ReadApproachLandingOperationalCapabilityStatus`, pkg/bds/bds65/fields/approach_landing_operational_capability_status.go:63-66. -/
def readApproachLandingOperationalCapabilityStatus (data : List UInt8) : Go UInt8 := do
  return ((← idx data 4) &&& 0xF0) >>> 4

/-- `fields.ReadB2Low`, pkg/bds/bds65/fields/b2_low.go:31-34. -/
def readB2Low (data : List UInt8) : Go UInt8 := do
  return ((← idx data 1) &&& 0x02) >>> 1

/-- `fields.ReadCockpitDisplayOfTrafficInformationStatus`, pkg/bds/bds65/fields/cockpit_display_traffic_information_status.go:31-34. -/
def readCockpitDisplayOfTrafficInformationStatus (data : List UInt8) : Go UInt8 := do
  return ((← idx data 1) &&& 0x10) >>> 4

/-- `fields.ReadEnRouteOperationalCapabilities`, pkg/bds/bds65/fields/en_route_operational_capabilities.go:63-66. -/
def readEnRouteOperationalCapabilities (data : List UInt8) : Go UInt8 := do
  return ((← idx data 1) &&& 0xF0) >>> 4

/-- `fields.ReadEnRouteOperationalCapabilityStatus`, pkg/bds/bds65/fields/en_route_operational_capability_status.go:63-66. -/
def readEnRouteOperationalCapabilityStatus (data : List UInt8) : Go UInt8 := do
  return ((← idx data 3) &&& 0xF0) >>> 4

/-- `fields.ReadExtendedSquitterIn`, pkg/bds/bds65/fields/extended_squitter_in.go:31-34. -/
def readExtendedSquitterIn (data : List UInt8) : Go UInt8 := do
  return ((← idx data 1) &&& 0x10) >>> 4

/-- `fields.ReadGeometricVerticalAccuracy`, pkg/bds/bds65/fields/geometric_vertical_accuracy.go:39-42. -/
def readGeometricVerticalAccuracy (data : List UInt8) : Go UInt8 := do
  return ((← idx data 6) &&& 0xC0) >>> 6

/-- `fields.ReadGPSAntennaLateral`, pkg/bds/bds65/fields/gps_antenna_lateral.go:55-58. -/
def readGPSAntennaLateral (data : List UInt8) : Go UInt8 := do
  return ((← idx data 4) &&& 0xE0) >>> 5

/-- `fields.ReadGPSAntennaLongitudinal`, pkg/bds/bds65/fields/gps_antenna_longitudinal.go:106-109. -/
def readGPSAntennaLongitudinal (data : List UInt8) : Go UInt8 := do
  return (← idx data 4) &&& 0x1F

/-- `fields.ReadHorizontalReferenceDirection`, pkg/bds/bds65/fields/horizontal_reference_direction.go:31-34. -/
def readHorizontalReferenceDirection (data : List UInt8) : Go UInt8 := do
  return ((← idx data 6) &&& 0x04) >>> 2

/-- `fields.ReadIdentSwitchActive`, pkg/bds/bds65/fields/ident_switch_active.go:31-34. -/
def readIdentSwitchActive (data : List UInt8) : Go UInt8 := do
  return ((← idx data 3) &&& 0x10) >>> 4

/-- `fields.ReadAircraftLengthAndWidth`, pkg/bds/bds65/fields/length_width.go:87-90. -/
def readAircraftLengthAndWidth (data : List UInt8) : Go UInt8 := do
  return (← idx data 2) &&& 0x0F

/-- `fields.ReadNavigationAccuracyCategoryVelocity`, pkg/bds/bds65/fields/navigation_accuracy_category_velocity.go:16-19. -/
def readNavigationAccuracyCategoryVelocity (data : List UInt8) : Go UInt8 := do
  return ((← idx data 2) &&& 0xE0) >>> 5

/-- `fields.ReadNavigationalAccuracyCategoryPosition`, pkg/bds/bds65/fields/navigational_accuracy_category_position_v1.go:88-91 and navigational_accuracy_category_position_v2.go:88-91 (identical). -/
def readNavigationalAccuracyCategoryPosition (data : List UInt8) : Go UInt8 := do
  return (← idx data 5) &&& 0x0F

/-- `fields.ReadNICBaro`, pkg/bds/bds65/fields/nic_baro.go:35-38. -/
def readNICBaro65 (data : List UInt8) : Go UInt8 := do
  return ((← idx data 6) &&& 0x08) >>> 3

/-- `fields.ReadNICSupplementA`, pkg/bds/bds65/fields/nic_supplement_a.go:31-34. -/
def readNICSupplementA (data : List UInt8) : Go UInt8 := do
  return ((← idx data 5) &&& 0x10) >>> 4

/-- `fields.ReadNICSupplementC`, pkg/bds/bds65/fields/nic_supplement_c.go:31-34. -/
def readNICSupplementC (data : List UInt8) : Go UInt8 := do
  return ((← idx data 2) &&& 0x10) >>> 4

/-- `fields.ReadNotACASStatus`, pkg/bds/bds65/fields/not_acas_status.go:31-34. -/
def readNotACASStatus (data : List UInt8) : Go UInt8 := do
  return ((← idx data 1) &&& 0x20) >>> 5

/-- `fields.ReadPositionOffsetApplied`, pkg/bds/bds65/fields/position_offset_applied.go:31-34. -/
def readPositionOffsetApplied (data : List UInt8) : Go UInt8 := do
  return ((← idx data 1) &&& 0x20) >>> 5

/-- `fields.ReadReceivingATCServices`, pkg/bds/bds65/fields/receiving_atc_services.go:31-34. -/
def readReceivingATCServices (data : List UInt8) : Go UInt8 := do
  return ((← idx data 3) &&& 0x08) >>> 3

/-- `fields.ReadSingleAntennaFlag`, pkg/bds/bds65/fields/single_antenna_flag.go:31-34. -/
def readSingleAntennaFlag65 (data : List UInt8) : Go UInt8 := do
  return ((← idx data 3) &&& 0x04) >>> 2

/-- `fields.ReadSourceIntegrityLevel`, pkg/bds/bds65/fields/source_integrity_level.go:39-42 and surveillance_integrity_level.go:58-61 (identical). -/
def readSourceIntegrityLevel65 (data : List UInt8) : Go UInt8 := do
  return ((← idx data 6) &&& 0x30) >>> 4

/-- `fields.ReadSourceIntegrityLevelSupplement`, pkg/bds/bds65/fields/source_integrity_level_supplement.go:31-34. -/
def readSourceIntegrityLevelSupplement65 (data : List UInt8) : Go UInt8 := do
  return ((← idx data 6) &&& 0x02) >>> 1

/-- `fields.ReadSubtype`, pkg/bds/bds65/fields/subtype.go:33-36. -/
def readSubtype65 (data : List UInt8) : Go UInt8 := do
  return (← idx data 0) &&& 0x07

/-- `fields.ReadSurfaceOperationalCapabilities`, pkg/bds/bds65/fields/surface_operational_capabilities.go:63-66. -/
def readSurfaceOperationalCapabilities (data : List UInt8) : Go UInt8 := do
  return (← idx data 2) &&& 0x0F

/-- `fields.ReadSurfaceOperationalCapabilityStatus`, pkg/bds/bds65/fields/surface_operational_capability_status.go:63-66. -/
def readSurfaceOperationalCapabilityStatus (data : List UInt8) : Go UInt8 := do
  return (← idx data 4) &&& 0x0F

/-- `fields.ReadSystemDesignAssurance`, pkg/bds/bds65/fields/system_design_assurance.go:39-42. -/
def readSystemDesignAssurance (data : List UInt8) : Go UInt8 := do
  return (← idx data 3) &&& 0x03

/-- `fields.ReadTargetChangeReportCapability`, pkg/bds/bds65/fields/target_change_report_capability.go:39-42. -/
def readTargetChangeReportCapability (data : List UInt8) : Go UInt8 := do
  return ((← idx data 2) &&& 0xC0) >>> 6

/-- `fields.ReadTargetStateReportCapability`, pkg/bds/bds65/fields/target_state_report_capability.go:31-34. -/
def readTargetStateReportCapability (data : List UInt8) : Go UInt8 := do
  return (← idx data 1) &&& 0x01

/-- `fields.ReadTerminalAreaOperationalCapabilities`, pkg/bds/bds65/fields/terminal_area_operational_capabilities.go:63-66. -/
def readTerminalAreaOperationalCapabilities (data : List UInt8) : Go UInt8 := do
  return (← idx data 1) &&& 0x0F

/-- `fields.ReadTerminalAreaOperationalCapabilityStatus`, pkg/bds/bds65/fields/terminal_area_operational_capability_status.go:63-66. -/
def readTerminalAreaOperationalCapabilityStatus (data : List UInt8) : Go UInt8 := do
  return (← idx data 3) &&& 0x0F

/-- `fields.ReadTrackAngleHeading`, pkg/bds/bds65/fields/track_angle_heading.go:31-34. -/
def readTrackAngleHeading (data : List UInt8) : Go UInt8 := do
  return ((← idx data 6) &&& 0x08) >>> 3

/-- `fields.ReadUATCapabilityAirborne`, pkg/bds/bds65/fields/universal_access_transceiver_capability.go:31-34. -/
def readUATCapabilityAirborne (data : List UInt8) : Go UInt8 := do
  return ((← idx data 2) &&& 0x20) >>> 5

/-- `fields.ReadUATCapabilitySurface`, pkg/bds/bds65/fields/universal_access_transceiver_capability.go:37-40. -/
def readUATCapabilitySurface (data : List UInt8) : Go UInt8 := do
  return (← idx data 1) &&& 0x01

/-- `fields.ReadVersionNumber`, pkg/bds/bds65/fields/version_number.go:34-39. -/
def readVersionNumber (data : List UInt8) : Go UInt8 := do
  return ((← idx data 5) &&& 0xE0) >>> 5

/-- `fields.AirborneCapabilityClassV1`, pkg/bds/bds65/fields/airborne_capability_class_v1.go:6-13. -/
structure AirborneCapabilityClassV1 where
  notACASStatus : UInt8
  cockpitDisplayOfTrafficInformationStatus : UInt8
  airReferencedVelocityReportCapability : UInt8
  targetStateReportCapability : UInt8
  targetChangeReportCapability : UInt8
  deriving DecidableEq, Repr

/-- `fields.ReadAirborneCapabilityClassV1`, pkg/bds/bds65/fields/airborne_capability_class_v1.go:6-13 and ReadAirborneCapabilityClassV1, 32-40. -/
def readAirborneCapabilityClassV1 (data : List UInt8) : Go AirborneCapabilityClassV1 := do
  return {
    notACASStatus := ← readNotACASStatus data
    cockpitDisplayOfTrafficInformationStatus := ← readCockpitDisplayOfTrafficInformationStatus data
    airReferencedVelocityReportCapability := ← readAirReferencedVelocityReportCapability data
    targetStateReportCapability := ← readTargetStateReportCapability data
    targetChangeReportCapability := ← readTargetChangeReportCapability data }

/-- `fields.AirborneCapabilityClassV2`, pkg/bds/bds65/fields/airborne_capability_class_v2.go. -/
structure AirborneCapabilityClassV2 where
  acasOperational : UInt8
  extendedSquitterIn : UInt8
  airReferencedVelocityReportCapability : UInt8
  targetStateReportCapability : UInt8
  targetChangeReportCapability : UInt8
  uatCapability : UInt8
  deriving DecidableEq, Repr

/-- `fields.ReadAirborneCapabilityClassV2`, pkg/bds/bds65/fields/airborne_capability_class_v2.go and ReadAirborneCapabilityClassV2, 35-44. -/
def readAirborneCapabilityClassV2 (data : List UInt8) : Go AirborneCapabilityClassV2 := do
  return {
    acasOperational := ← readACASOperational data
    extendedSquitterIn := ← readExtendedSquitterIn data
    airReferencedVelocityReportCapability := ← readAirReferencedVelocityReportCapability data
    targetStateReportCapability := ← readTargetStateReportCapability data
    targetChangeReportCapability := ← readTargetChangeReportCapability data
    uatCapability := ← readUATCapabilityAirborne data }

/-- `fields.SurfaceCapabilityClassV1`, pkg/bds/bds65/fields/surface_capability_class_v1.go. -/
structure SurfaceCapabilityClassV1 where
  positionOffsetApplied : UInt8
  cockpitDisplayOfTrafficInformationStatus : UInt8
  b2Low : UInt8
  deriving DecidableEq, Repr

/-- `fields.ReadSurfaceCapabilityClassV1`, pkg/bds/bds65/fields/surface_capability_class_v1.go and ReadSurfaceCapabilityClassV1, 26-32. -/
def readSurfaceCapabilityClassV1 (data : List UInt8) : Go SurfaceCapabilityClassV1 := do
  return {
    positionOffsetApplied := ← readPositionOffsetApplied data
    cockpitDisplayOfTrafficInformationStatus := ← readCockpitDisplayOfTrafficInformationStatus data
    b2Low := ← readB2Low data }

/-- `fields.SurfaceCapabilityClassV2`, pkg/bds/bds65/fields/surface_capability_class_v2.go. -/
structure SurfaceCapabilityClassV2 where
  extendedSquitterIn : UInt8
  b2Low : UInt8
  uatCapability : UInt8
  navigationAccuracyCategoryVelocity : UInt8
  nicSupplementC : UInt8
  deriving DecidableEq, Repr

/-- `fields.ReadSurfaceCapabilityClassV2`, pkg/bds/bds65/fields/surface_capability_class_v2.go and ReadSurfaceCapabilityClassV2, 34-42. -/
def readSurfaceCapabilityClassV2 (data : List UInt8) : Go SurfaceCapabilityClassV2 := do
  return {
    extendedSquitterIn := ← readExtendedSquitterIn data
    b2Low := ← readB2Low data
    uatCapability := ← readUATCapabilitySurface data
    navigationAccuracyCategoryVelocity := ← readNavigationAccuracyCategoryVelocity data
    nicSupplementC := ← readNICSupplementC data }

/-- `fields.OperationalMode`, pkg/bds/bds65/fields/operational_mode.go. -/
structure OperationalMode where
  acasRAActive : UInt8
  identSwitchActive : UInt8
  receivingATCServices : UInt8
  deriving DecidableEq, Repr

/-- `fields.ReadOperationalMode`, pkg/bds/bds65/fields/operational_mode.go and ReadOperationalMode, 26-32. -/
def readOperationalMode (data : List UInt8) : Go OperationalMode := do
  return {
    acasRAActive := ← readACASResolutionAdvisoryActiveV1 data
    identSwitchActive := ← readIdentSwitchActive data
    receivingATCServices := ← readReceivingATCServices data }

/-- `fields.AirborneOperationalMode`, pkg/bds/bds65/fields/airborne_operational_mode.go. -/
structure AirborneOperationalMode where
  acasRAActive : UInt8
  identSwitchActive : UInt8
  singleAntennaFlag : UInt8
  systemDesignAssurance : UInt8
  deriving DecidableEq, Repr

/-- `fields.ReadAirborneOperationalMode`, pkg/bds/bds65/fields/airborne_operational_mode.go and ReadAirborneOperationalMode, 30-37. -/
def readAirborneOperationalMode (data : List UInt8) : Go AirborneOperationalMode := do
  return {
    acasRAActive := ← readACASResolutionAdvisoryActiveV2 data
    identSwitchActive := ← readIdentSwitchActive data
    singleAntennaFlag := ← readSingleAntennaFlag65 data
    systemDesignAssurance := ← readSystemDesignAssurance data }

/-- `fields.SurfaceOperationalMode`, pkg/bds/bds65/fields/surface_operational_mode.go. -/
structure SurfaceOperationalMode where
  acasRAActive : UInt8
  identSwitchActive : UInt8
  singleAntennaFlag : UInt8
  systemDesignAssurance : UInt8
  gpsAntennaLateral : UInt8
  gpsAntennaLongitudinal : UInt8
  deriving DecidableEq, Repr

/-- `fields.ReadSurfaceOperationalMode`, pkg/bds/bds65/fields/surface_operational_mode.go and ReadSurfaceOperationalMode, 36-44, and gps_antenna.go and ReadGPSAntenna, 23-28 (the two GPS antenna fields are inlined). -/
def readSurfaceOperationalMode (data : List UInt8) : Go SurfaceOperationalMode := do
  return {
    acasRAActive := ← readACASResolutionAdvisoryActiveV2 data
    identSwitchActive := ← readIdentSwitchActive data
    singleAntennaFlag := ← readSingleAntennaFlag65 data
    systemDesignAssurance := ← readSystemDesignAssurance data
    gpsAntennaLateral := ← readGPSAntennaLateral data
    gpsAntennaLongitudinal := ← readGPSAntennaLongitudinal data }

/-- The message of pkg/bds/bds65/aircraft_operational_status_adsb0.go:10-21. -/
structure OpStatusV0 where
  formatTypeCode : UInt8
  subtype : UInt8
  enRouteOperationalCapabilities : UInt8
  enRouteOperationalCapabilityStatus : UInt8
  terminalAreaOperationalCapabilities : UInt8
  terminalAreaOperationalCapabilityStatus : UInt8
  approachLandingOperationalCapabilities : UInt8
  approachLandingOperationalCapabilityStatus : UInt8
  surfaceOperationalCapabilities : UInt8
  surfaceOperationalCapabilityStatus : UInt8
  deriving DecidableEq, Repr

/-- The reader of pkg/bds/bds65/aircraft_operational_status_adsb0.go:61-93. -/
def readOpStatusV0 (data : List UInt8) : Go OpStatusV0 := do
  if data.length ≠ 7 then fail
  let formatTypeCode ← readFormatTypeCode data
  if formatTypeCode ≠ 31 then fail
  let subType ← readSubtype65 data
  if subType ≠ 0 then fail
  if (← idx data 5) ≠ 0 ∨ (← idx data 6) ≠ 0 then fail
  return {
    formatTypeCode := formatTypeCode
    subtype := subType
    enRouteOperationalCapabilities := ← readEnRouteOperationalCapabilities data
    enRouteOperationalCapabilityStatus := ← readEnRouteOperationalCapabilityStatus data
    terminalAreaOperationalCapabilities := ← readTerminalAreaOperationalCapabilities data
    terminalAreaOperationalCapabilityStatus := ← readTerminalAreaOperationalCapabilityStatus data
    approachLandingOperationalCapabilities := ← readApproachLandingOperationalCapabilities data
    approachLandingOperationalCapabilityStatus := ← readApproachLandingOperationalCapabilityStatus data
    surfaceOperationalCapabilities := ← readSurfaceOperationalCapabilities data
    surfaceOperationalCapabilityStatus := ← readSurfaceOperationalCapabilityStatus data }

/-- The message of pkg/bds/bds65/aircraft_operational_status_airborne_adsb1.go:15-26. -/
structure OpStatusAirborneV1 where
  formatTypeCode : UInt8
  subtype : UInt8
  airborneCapabilityClass : AirborneCapabilityClassV1
  operationalMode : OperationalMode
  versionNumber : UInt8
  nicSupplement : UInt8
  navigationalAccuracyCategoryPosition : UInt8
  surveillanceIntegrityLevel : UInt8
  nicBaro : UInt8
  horizontalReferenceDirection : UInt8
  deriving DecidableEq, Repr

/-- The reader of pkg/bds/bds65/aircraft_operational_status_airborne_adsb1.go:68-120. -/
def readOpStatusAirborneV1 (data : List UInt8) : Go OpStatusAirborneV1 := do
  if data.length ≠ 7 then fail
  let formatTypeCode ← readFormatTypeCode data
  if formatTypeCode ≠ 31 then fail
  let subType ← readSubtype65 data
  if subType ≠ 0 then fail
  let detectedADSBLevel ← readVersionNumber data
  if detectedADSBLevel ≠ 1 then fail
  if ((← idx data 1) &&& 0xC0) >>> 4 + ((← idx data 1) &&& 0x0C) >>> 2 ≠ 0 then fail
  if ((← idx data 3) &&& 0xC0) >>> 6 ≠ 0 then fail
  if (← idx data 6) &&& 0xC0 ≠ 0 then fail
  if (← idx data 6) &&& 0x03 ≠ 0 then fail
  return {
    formatTypeCode := formatTypeCode
    subtype := subType
    airborneCapabilityClass := ← readAirborneCapabilityClassV1 data
    operationalMode := ← readOperationalMode data
    versionNumber := ← readVersionNumber data
    nicSupplement := ← readNICSupplementA data
    navigationalAccuracyCategoryPosition := ← readNavigationalAccuracyCategoryPosition data
    surveillanceIntegrityLevel := ← readSourceIntegrityLevel65 data
    nicBaro := ← readNICBaro65 data
    horizontalReferenceDirection := ← readHorizontalReferenceDirection data }

/-- The message of pkg/bds/bds65/aircraft_operational_status_airborne_adsb2.go:15-28. -/
structure OpStatusAirborneV2 where
  formatTypeCode : UInt8
  subtype : UInt8
  airborneCapabilityClass : AirborneCapabilityClassV2
  operationalMode : AirborneOperationalMode
  versionNumber : UInt8
  nicSupplementA : UInt8
  navigationalAccuracyCategoryPosition : UInt8
  geometricVerticalAccuracy : UInt8
  sourceIntegrityLevel : UInt8
  nicBaro : UInt8
  horizontalReferenceDirection : UInt8
  sourceIntegrityLevelSupplement : UInt8
  deriving DecidableEq, Repr

/-- The reader of pkg/bds/bds65/aircraft_operational_status_airborne_adsb2.go:74-124. -/
def readOpStatusAirborneV2 (data : List UInt8) : Go OpStatusAirborneV2 := do
  if data.length ≠ 7 then fail
  let formatTypeCode ← readFormatTypeCode data
  if formatTypeCode ≠ 31 then fail
  let subType ← readSubtype65 data
  if subType ≠ 0 then fail
  let detectedADSBLevel ← readVersionNumber data
  if detectedADSBLevel ≠ 2 then fail
  if ((← idx data 1) &&& 0xC0) >>> 6 ≠ 0 then fail
  if ((← idx data 3) &&& 0xC0) >>> 6 ≠ 0 then fail
  if (← idx data 6) &&& 0x01 ≠ 0 then fail
  return {
    formatTypeCode := formatTypeCode
    subtype := subType
    airborneCapabilityClass := ← readAirborneCapabilityClassV2 data
    operationalMode := ← readAirborneOperationalMode data
    versionNumber := ← readVersionNumber data
    nicSupplementA := ← readNICSupplementA data
    navigationalAccuracyCategoryPosition := ← readNavigationalAccuracyCategoryPosition data
    geometricVerticalAccuracy := ← readGeometricVerticalAccuracy data
    sourceIntegrityLevel := ← readSourceIntegrityLevel65 data
    nicBaro := ← readNICBaro65 data
    horizontalReferenceDirection := ← readHorizontalReferenceDirection data
    sourceIntegrityLevelSupplement := ← readSourceIntegrityLevelSupplement65 data }

/-- The message of pkg/bds/bds65/aircraft_operational_status_surface_adsb1.go:15-27. -/
structure OpStatusSurfaceV1 where
  formatTypeCode : UInt8
  subtype : UInt8
  surfaceCapabilityClass : SurfaceCapabilityClassV1
  lengthAndWidth : UInt8
  operationalMode : OperationalMode
  versionNumber : UInt8
  nicSupplement : UInt8
  navigationalAccuracyCategoryPosition : UInt8
  surveillanceIntegrityLevel : UInt8
  trackAngleHeading : UInt8
  horizontalReferenceDirection : UInt8
  deriving DecidableEq, Repr

/-- The reader of pkg/bds/bds65/aircraft_operational_status_surface_adsb1.go:71-124. -/
def readOpStatusSurfaceV1 (data : List UInt8) : Go OpStatusSurfaceV1 := do
  if data.length ≠ 7 then fail
  let formatTypeCode ← readFormatTypeCode data
  if formatTypeCode ≠ 31 then fail
  let subType ← readSubtype65 data
  if subType ≠ 1 then fail
  let detectedADSBLevel ← readVersionNumber data
  if detectedADSBLevel ≠ 1 then fail
  if ((← idx data 1) &&& 0xC0) >>> 4 + ((← idx data 1) &&& 0x0C) >>> 2 ≠ 0 then fail
  if ((← idx data 3) &&& 0xC0) >>> 6 ≠ 0 then fail
  if (← idx data 6) &&& 0xC0 ≠ 0 then fail
  if (← idx data 6) &&& 0x03 ≠ 0 then fail
  return {
    formatTypeCode := formatTypeCode
    subtype := subType
    surfaceCapabilityClass := ← readSurfaceCapabilityClassV1 data
    lengthAndWidth := ← readAircraftLengthAndWidth data
    operationalMode := ← readOperationalMode data
    versionNumber := ← readVersionNumber data
    nicSupplement := ← readNICSupplementA data
    navigationalAccuracyCategoryPosition := ← readNavigationalAccuracyCategoryPosition data
    surveillanceIntegrityLevel := ← readSourceIntegrityLevel65 data
    trackAngleHeading := ← readTrackAngleHeading data
    horizontalReferenceDirection := ← readHorizontalReferenceDirection data }

/-- The message of pkg/bds/bds65/aircraft_operational_status_surface_adsb2.go:15-28. -/
structure OpStatusSurfaceV2 where
  formatTypeCode : UInt8
  subtype : UInt8
  surfaceCapabilityClass : SurfaceCapabilityClassV2
  lengthAndWidth : UInt8
  operationalMode : SurfaceOperationalMode
  versionNumber : UInt8
  nicSupplementA : UInt8
  navigationalAccuracyCategoryPosition : UInt8
  sourceIntegrityLevel : UInt8
  trackAngleHeading : UInt8
  horizontalReferenceDirection : UInt8
  sourceIntegrityLevelSupplement : UInt8
  deriving DecidableEq, Repr

/-- The reader of pkg/bds/bds65/aircraft_operational_status_surface_adsb2.go:74-124. -/
def readOpStatusSurfaceV2 (data : List UInt8) : Go OpStatusSurfaceV2 := do
  if data.length ≠ 7 then fail
  let formatTypeCode ← readFormatTypeCode data
  if formatTypeCode ≠ 31 then fail
  let subType ← readSubtype65 data
  if subType ≠ 1 then fail
  let detectedADSBLevel ← readVersionNumber data
  if detectedADSBLevel ≠ 2 then fail
  if ((← idx data 1) &&& 0xC0) >>> 6 ≠ 0 then fail
  if ((← idx data 3) &&& 0xC0) >>> 6 ≠ 0 then fail
  if (← idx data 6) &&& 0x01 ≠ 0 then fail
  return {
    formatTypeCode := formatTypeCode
    subtype := subType
    surfaceCapabilityClass := ← readSurfaceCapabilityClassV2 data
    lengthAndWidth := ← readAircraftLengthAndWidth data
    operationalMode := ← readSurfaceOperationalMode data
    versionNumber := ← readVersionNumber data
    nicSupplementA := ← readNICSupplementA data
    navigationalAccuracyCategoryPosition := ← readNavigationalAccuracyCategoryPosition data
    sourceIntegrityLevel := ← readSourceIntegrityLevel65 data
    trackAngleHeading := ← readTrackAngleHeading data
    horizontalReferenceDirection := ← readHorizontalReferenceDirection data
    sourceIntegrityLevelSupplement := ← readSourceIntegrityLevelSupplement65 data }

/-- The `AircraftOperationalStatus` interface and its implementations, aircraft_operational_status.go:8-11. `CheckCoherency`
never reports an error. -/
inductive OperationalStatus
  | v0 (m : OpStatusV0)
  | airborneV1 (m : OpStatusAirborneV1)
  | airborneV2 (m : OpStatusAirborneV2)
  | surfaceV1 (m : OpStatusSurfaceV1)
  | surfaceV2 (m : OpStatusSurfaceV2)
  deriving DecidableEq, Repr

/-- `GetADSBLevel`, aircraft_operational_status_adsb0.go:23-25, aircraft_operational_status_airborne_adsb1.go:28-30,
aircraft_operational_status_airborne_adsb2.go:30-32, aircraft_operational_status_surface_adsb1.go:29-31,
aircraft_operational_status_surface_adsb2.go:30-32. -/
def OperationalStatus.getADSBLevel : OperationalStatus → UInt8
  | .v0 _ => 0
  | .airborneV1 _ => 1
  | .airborneV2 _ => 2
  | .surfaceV1 _ => 1
  | .surfaceV2 _ => 1

/-- `bds65.ReadAircraftOperationalStatus`, aircraft_operational_status.go:14-52. -/
def readBDS65 (data : List UInt8) : Go OperationalStatus := do
  if data.length ≠ 7 then fail
  let formatTypeCode ← readFormatTypeCode data
  if formatTypeCode ≠ 31 then fail
  let adsbLevel := ((← idx data 5) &&& 0xE0) >>> 5
  let subType := (← idx data 0) &&& 0x07
  if adsbLevel = 0 then return .v0 (← readOpStatusV0 data)
  else if adsbLevel = 1 then
    if subType = 0 then return .airborneV1 (← readOpStatusAirborneV1 data)
    else if subType = 1 then return .surfaceV1 (← readOpStatusSurfaceV1 data)
    else fail
  else if adsbLevel = 2 then
    if subType = 0 then return .airborneV2 (← readOpStatusAirborneV2 data)
    else if subType = 1 then return .surfaceV2 (← readOpStatusSurfaceV2 data)
    else fail
  else fail

end Modes
