import Verif.Model.Text
/-!
# Texts of the coded fields

Written by tools/gen_texts.py from the `ToString` methods of /repo that are a `switch` over the code. A code is a byte.
-/
namespace Modes
namespace Text

/-- `ActiveRAPreventiveCorrective.ToString`, pkg/acas/ra/fields/active_resolution_advisory_one_or_same_separation.go:99-108. -/
def acasActiveRAPreventiveCorrective : UInt8 → Txt := tableText [
  (0, t! "Preventive"),
  (1, t! "Corrective")] (t! " - Unknown code")

/-- `ActiveRAVerticalSpeedLimitOrPositive.ToString`, pkg/acas/ra/fields/active_resolution_advisory_one_or_same_separation.go:143-152. -/
def acasActiveRAVerticalSpeedLimitOrPositive : UInt8 → Txt := tableText [
  (0, t! "Vertical Speed Limit"),
  (1, t! "Positive")] (t! " - Unknown code")

/-- `MultipleThreatEncounter.ToString`, pkg/acas/ra/fields/multiple_threat_encounter.go:19-28. -/
def acasMultipleThreatEncounter : UInt8 → Txt := tableText [
  (0, t! "One or no threat is currently being processed by the ACAS"),
  (1, t! "Two or more threats are currently being processed by the ACAS")] (t! " - Unknown code")

/-- `RATerminatedIndicator.ToString`, pkg/acas/ra/fields/resolution_advisory_terminated.go:18-27. -/
def acasRATerminatedIndicator : UInt8 → Txt := tableText [
  (0, t! "ACAS is currently generating the RA"),
  (1, t! "the RA indicated has been terminated")] (t! " - Unknown code")

/-- `AltitudeStatus.ToString`, pkg/acas/ra/fields/threat_identity_altitude.go:75-84. -/
def acasAltitudeStatus : UInt8 → Txt := tableText [
  (0, t! "Not Available or Invalid"),
  (1, t! "Valid")] (t! " - Unknown code")

/-- `ThreatTypeIndicator.ToString`, pkg/acas/ra/fields/threat_type_indicator.go:22-35. -/
def acasThreatTypeIndicator : UInt8 → Txt := tableText [
  (0, t! "0 - No identity data in TID"),
  (1, t! "1 - TID contains a Mode S transponder address"),
  (2, t! "2 - TID contains altitude, range and bearing data"),
  (3, t! "3 - Not assigned")] (t! " - Unknown code")

/-- `ContainmentRadius.ToString`, pkg/adsb/airborne_position/fields/containment_radius.go:41-72. -/
def airborneContainmentRadius : UInt8 → Txt := tableText [
  (9, t! "(Baro) 0 μ < 3m"),
  (10, t! "(Baro) 3 m <= μ < 10 m"),
  (11, t! "(Baro) 10 m <= μ < 92.6 m (0.05 NM)"),
  (12, t! "(Baro) 92.6 m <= μ < 185.2 m (0.05 NM <= μ < 0.1 NM)"),
  (13, t! "(Baro) 185.2 m <= μ < 463 m (0.1 NM <= μ < 0.25 NM)"),
  (14, t! "(Baro) 463 m <= μ < 926 m (0.25 NM <= μ < 0.5 NM)"),
  (15, t! "(Baro) 926 m <= μ < 1852 m (0.5 NM <= μ < 1.0 NM)"),
  (16, t! "(Baro) 1.852 km <= μ < 9.26 km (1.0 NM <= μ < 5.0 NM)"),
  (17, t! "(Baro) 9.26 km <= μ < 18.52 km (5.0 NM <= μ < 10.0 NM)"),
  (18, t! "(Baro) 18.52 km <= μ (10.0 NM <= μ)"),
  (20, t! "(GNSS) μ < 3 m and v < 4 m"),
  (21, t! "(GNSS) μ < 10 m and v < 15 m"),
  (22, t! "(GNSS) μ > 10 m or v >= 15 m")] (t! " - Unknown code")

/-- `HorizontalContainmentRadiusV1.ToString`, pkg/adsb/airborne_position/fields/horizontal_containment_limit_v1.go:48-88. -/
def airborneHorizontalContainmentRadiusV1 : UInt8 → Txt := tableText [
  (9, t! "(Baro) Rc < 7.5 m and VPL < 11 m"),
  (10, t! "(Baro) Rc < 25 m and VPL < 37.5 m"),
  (11, t! "(Baro) Rc < 0.1 NM (185.2 m)"),
  (12, t! "(Baro) Rc < 0.2 NM (370.4 m)"),
  (13, t! "(Baro) Rc < 0.5 NM (926 m)"),
  (14, t! "(Baro) Rc < 1.0 NM (1852 m)"),
  (15, t! "(Baro) Rc < 2 NM (3.704 km)"),
  (16, t! "(Baro) Rc < 8 NM (14.816 km)"),
  (17, t! "(Baro) Rc < 20 NM (37.04 km)"),
  (18, t! "(Baro) Rc >= 20 NM (37.04 km) or unknown"),
  (111, t! "(Baro) Rc < 75 m and VPL < 112 m"),
  (113, t! "(Baro) Rc < 0.6 NM (1111.2 m)"),
  (116, t! "(Baro) Rc < 4 NM (7.408 km)"),
  (0, t! "(GNSS) Rc < 7.5 m and VPL < 11 m"),
  (1, t! "(GNSS) Rc < 25 m and VPL < 37.5 m"),
  (2, t! "(GNSS) Rc >= 25 m or VPL >= 37.5 m or unknown")] (t! " - Unknown code")

/-- `HorizontalContainmentRadiusV2.ToString`, pkg/adsb/airborne_position/fields/horizontal_containment_limit_v2.go:51-94. -/
def airborneHorizontalContainmentRadiusV2 : UInt8 → Txt := tableText [
  (9, t! "(Baro) Rc < 7.5 m"),
  (10, t! "(Baro) Rc < 25 m"),
  (11, t! "(Baro) Rc < 0.1 NM (185.2 m)"),
  (12, t! "(Baro) Rc < 0.2 NM (370.4 m)"),
  (13, t! "(Baro) Rc < 0.5 NM (926 m)"),
  (14, t! "(Baro) Rc < 1.0 NM (1852 m)"),
  (15, t! "(Baro) Rc < 2 NM (3.704 km)"),
  (16, t! "(Baro) Rc < 8 NM (14.816 km)"),
  (17, t! "(Baro) Rc < 20 NM (37.04 km)"),
  (18, t! "(Baro) Rc >= 20 NM (37.04 km) or unknown"),
  (111, t! "(Baro) Rc < 75 m"),
  (113, t! "(Baro) Rc < 0.6 NM (1111.2 m)"),
  (116, t! "(Baro) Rc < 4 NM (7.408 km)"),
  (213, t! "(Baro) Rc < 0.3 NM (555.6 m)"),
  (20, t! "(GNSS) Rc < 7.5 m"),
  (21, t! "(GNSS) Rc < 25 m"),
  (22, t! "(GNSS) Rc >= 25 m or unknown")] (t! " - Unknown code")

/-- `HorizontalProtectionLimit.ToString`, pkg/adsb/airborne_position/fields/horizontal_protection_limit.go:41-72. -/
def airborneHorizontalProtectionLimit : UInt8 → Txt := tableText [
  (9, t! "(Baro) HorizontalProtectionLimit < 7.5 m"),
  (10, t! "(Baro) 7.5 m <= HorizontalProtectionLimit < 25 m"),
  (11, t! "(Baro) 25 m <= HorizontalProtectionLimit < 185.2 m (0.1NM)"),
  (12, t! "(Baro) 185.2 m <= HorizontalProtectionLimit < 370.4 m (0.1 NM <= HorizontalProtectionLimit < 0.2 NM)"),
  (13, t! "(Baro) 370.4 m <= HorizontalProtectionLimit < 926 m (0.2 NM <= HorizontalProtectionLimit < 0.5 NM)"),
  (14, t! "(Baro) 926 m <= HorizontalProtectionLimit < 1 852 m (0.5 NM <= HorizontalProtectionLimit < 1.0 NM)"),
  (15, t! "(Baro) 1 852 m <= HorizontalProtectionLimit < 3 704 m (1.0 NM <= HorizontalProtectionLimit < 2.0 NM)"),
  (16, t! "(Baro) 3.704 km <= HorizontalProtectionLimit < 18.52 km (2.0 NM <= HorizontalProtectionLimit < 10 NM)"),
  (17, t! "(Baro) 18.52 km <= HorizontalProtectionLimit < 37.04 km (10 NM <= HorizontalProtectionLimit < 20 NM)"),
  (18, t! "(Baro) HorizontalProtectionLimit >= 37.04 km (HorizontalProtectionLimit >= 20 NM)"),
  (20, t! "(GNSS) HorizontalProtectionLimit < 7.5 m"),
  (21, t! "(GNSS) HorizontalProtectionLimit < 25 m"),
  (22, t! "(GNSS) 25 m <= HorizontalProtectionLimit")] (t! " - Unknown code")

/-- `NavigationIntegrityCodeSupplementB.ToString`, pkg/adsb/airborne_position/fields/navigation_integrity_code_supplement_b.go:18-28. -/
def airborneNavigationIntegrityCodeSupplementB : UInt8 → Txt := tableText [
  (0, t! "0"),
  (1, t! "1")] (t! " - Unknown code")

/-- `ContainmentRadius.ToString`, pkg/adsb/surface_position/fields/containment_radius.go:57-70. -/
def surfaceContainmentRadius : UInt8 → Txt := tableText [
  (5, t! "μ < 3 m"),
  (6, t! "3 m <= μ < 10 m"),
  (7, t! "10 m <= μ < 92.6 m (0.05 NM)"),
  (8, t! "92.6 m (0.05 NM) <= μ")] (t! " - Unknown code")

/-- `HorizontalContainmentRadiusV1.ToString`, pkg/adsb/surface_position/fields/horizontal_containment_radius_v1.go:28-43. -/
def surfaceHorizontalContainmentRadiusV1 : UInt8 → Txt := tableText [
  (0, t! "Rc < 7.5 m"),
  (1, t! "Rc < 25 m"),
  (2, t! "Rc < 75 m"),
  (3, t! "Rc < 0.1 NM (185.2 m)"),
  (4, t! "Rc >= 0.1 NM (185.2 m) or unknown")] (t! " - Unknown code")

/-- `HorizontalContainmentRadiusV2.ToString`, pkg/adsb/surface_position/fields/horizontal_containment_radius_v2.go:37-58. -/
def surfaceHorizontalContainmentRadiusV2 : UInt8 → Txt := tableText [
  (0, t! "Rc < 7.5 m"),
  (1, t! "Rc < 25 m"),
  (2, t! "Rc < 75 m"),
  (3, t! "Rc < 0.1 NM (185.2 m)"),
  (4, t! "Rc < 0.2 NM (370.4 m)"),
  (5, t! "Rc < 0.3 NM (555.6 m)"),
  (6, t! "Rc < 0.6 NM (1111.2 m)"),
  (7, t! "Rc >= 0.6 NM (1111.2 m) or unknown")] (t! " - Unknown code")

/-- `HorizontalProtectionLimit.ToString`, pkg/adsb/surface_position/fields/horizontal_protection_limit.go:52-65. -/
def surfaceHorizontalProtectionLimit : UInt8 → Txt := tableText [
  (5, t! "HPL < 7.5 m"),
  (6, t! "HPL < 25 m"),
  (7, t! "HPL < 185.2 m (0.1 NM)"),
  (8, t! "185.2 m (0.1 NM) <= HPL")] (t! " - Unknown code")

/-- `AltitudeSource.ToString`, pkg/bds/bds05/fields/altitude.go:20-29. -/
def bds05AltitudeSource : UInt8 → Txt := tableText [
  (0, t! "0 - Barometric"),
  (1, t! "1 - GNSS")] (t! " - Unknown code")

/-- `AltitudeReportMethod.ToString`, pkg/bds/bds05/fields/altitude.go:42-51. -/
def bds05AltitudeReportMethod : UInt8 → Txt := tableText [
  (0, t! "0 - 100 Foot Increments"),
  (1, t! "1 - 25 Foot Increments")] (t! " - Unknown code")

/-- `CompactPositionReportingFormat.ToString`, pkg/bds/bds05/fields/compact_position_reporting_format.go:18-28. -/
def bds05CompactPositionReportingFormat : UInt8 → Txt := tableText [
  (0, t! "0 - even format coding"),
  (1, t! "1 - odd format coding")] (t! " - Unknown code")

/-- `SingleAntennaFlag.ToString`, pkg/bds/bds05/fields/single_antenna_flag.go:18-28. -/
def bds05SingleAntennaFlag : UInt8 → Txt := tableText [
  (0, t! "0 - dual transmit antenna system"),
  (1, t! "1 - single transmit antenna system")] (t! " - Unknown code")

/-- `SurveillanceStatus.ToString`, pkg/bds/bds05/fields/surveillance_status.go:22-36. -/
def bds05SurveillanceStatus : UInt8 → Txt := tableText [
  (0, t! "0 - no status information"),
  (1, t! "1 - permanent alert condition"),
  (2, t! "2 - temporary alert condition"),
  (3, t! "3 - SPI condition")] (t! " - Unknown code")

/-- `Time.ToString`, pkg/bds/bds05/fields/time.go:18-28. -/
def bds05Time : UInt8 → Txt := tableText [
  (0, t! "0 - not synchronized to UTC"),
  (1, t! "1 - synchronized to UTC")] (t! " - Unknown code")

/-- `CompactPositionReportingFormat.ToString`, pkg/bds/bds06/fields/compact_position_reporting_format.go:18-28. -/
def bds06CompactPositionReportingFormat : UInt8 → Txt := tableText [
  (0, t! "0 - even format coding"),
  (1, t! "1 - odd format coding")] (t! " - Unknown code")

/-- `MovementStatus.ToString`, pkg/bds/bds06/fields/movement.go:28-46. -/
def bds06MovementStatus : UInt8 → Txt := tableText [
  (0, t! "0 - no information available"),
  (1, t! "1 - aircraft stopped (ground speed < 0.2315 km/h (0.125 kt))"),
  (124, t! "124 - ground speed ≥ 324.1 km/h (175 kt)"),
  (125, t! "125 - reserved for A/C Decelerating"),
  (126, t! "126 - reserved for A/C Accelerating"),
  (127, t! "127 - reserved for Backing Up")] (t! " - valid")

/-- `Time.ToString`, pkg/bds/bds06/fields/time.go:18-28. -/
def bds06Time : UInt8 → Txt := tableText [
  (0, t! "0 - not synchronized to UTC"),
  (1, t! "1 - synchronized to UTC")] (t! " - Unknown code")

/-- `AltitudeTypeSubfield.ToString`, pkg/bds/bds07/fields/altitude_type_subfield.go:18-28. -/
def bds07AltitudeTypeSubfield : UInt8 → Txt := tableText [
  (0, t! "0 - Barometric altitude"),
  (1, t! "1 - GNSS height (HAE)")] (t! " - Unknown code")

/-- `TransmissionRateSubfield.ToString`, pkg/bds/bds07/fields/transmission_rate_subfield.go:20-32. -/
def bds07TransmissionRateSubfield : UInt8 → Txt := tableText [
  (0, t! "0 - Barometric altitude"),
  (1, t! "1 - High surface squitter rate selected"),
  (2, t! "2 - Low surface squitter rate selected")] (t! " - Unknown code")

/-- `AircraftCategorySetA.ToString`, pkg/bds/bds08/fields/aircraft_category_set_a.go:35-57. -/
def bds08AircraftCategorySetA : UInt8 → Txt := tableText [
  (0, t! "0 - No aircraft category information"),
  (1, t! "1 - Light (< 15_500 lbs or 7_031 kg)"),
  (2, t! "2 - Medium 1 (>15_500 to 75_000 lbs, or 7_031 to 34_019 kg)"),
  (3, t! "3 - Medium 2 (>75_000 to 300_000 lbs, or 34_019 to 136_078 kg)"),
  (4, t! "4 - High vortex aircraft"),
  (5, t! "5 - Heavy (> 300_000 lbs or 136_078 kg)"),
  (6, t! "6 - High performance (> 5g acceleration) and high speed (> 400 kt)"),
  (7, t! "7 - Rotorcraft")] (t! " - Unknown code")

/-- `AircraftCategorySetB.ToString`, pkg/bds/bds08/fields/aircraft_category_set_b.go:35-57. -/
def bds08AircraftCategorySetB : UInt8 → Txt := tableText [
  (0, t! "0 - No aircraft category information"),
  (1, t! "1 - Glider / sailplane"),
  (2, t! "2 - Lighter-than-air"),
  (3, t! "3 - Parachutist / skydiver"),
  (4, t! "4 - Ultralight / hang-glider / paraglider"),
  (5, t! "5 - Reserved"),
  (6, t! "6 - Unmanned aerial vehicle"),
  (7, t! "7 - Space / transatmospheric vehicle")] (t! " - Unknown code")

/-- `AircraftCategorySetC.ToString`, pkg/bds/bds08/fields/aircraft_category_set_c.go:38-60. -/
def bds08AircraftCategorySetC : UInt8 → Txt := tableText [
  (0, t! "0 - No aircraft category information"),
  (1, t! "1 - Surface vehicle - emergency vehicle"),
  (2, t! "2 - Surface vehicle - service vehicle"),
  (3, t! "3 - Fixed ground or tethered obstruction"),
  (4, t! "4 - Reserved"),
  (5, t! "5 - Reserved"),
  (6, t! "6 - Reserved"),
  (7, t! "7 - Reserved")] (t! " - Unknown code")

/-- `AircraftCategorySetD.ToString`, pkg/bds/bds08/fields/aircraft_category_set_d.go:38-60. -/
def bds08AircraftCategorySetD : UInt8 → Txt := tableText [
  (0, t! "0 - Reserved"),
  (1, t! "1 - Reserved"),
  (2, t! "2 - Reserved"),
  (3, t! "3 - Reserved"),
  (4, t! "4 - Reserved"),
  (5, t! "5 - Reserved"),
  (6, t! "6 - Reserved"),
  (7, t! "7 - Reserved")] (t! " - Unknown code")

/-- `IFRCapability.ToString`, pkg/bds/bds09/fields/ifr_capability.go:20-30. -/
def bds09IFRCapability : UInt8 → Txt := tableText [
  (0, t! "0 - transmitting aircraft has no capability for ADS-B based conflict detection or higher level (class A1 or above) applications"),
  (1, t! "1 - transmitting aircraft has capability for ADS-B-based conflict detection and higher level (class A1 or above) applications")] (t! " - Unknown code")

/-- `IntentChange.ToString`, pkg/bds/bds09/fields/intent_change.go:18-28. -/
def bds09IntentChange : UInt8 → Txt := tableText [
  (0, t! "0 - no change in intent"),
  (1, t! "1 - intent change")] (t! " - Unknown code")

/-- `MagneticHeadingStatus.ToString`, pkg/bds/bds09/fields/magnetic_heading.go:21-31. -/
def bds09MagneticHeadingStatus : UInt8 → Txt := tableText [
  (0, t! "0 - Magnetic heading not available"),
  (1, t! "1 - Magnetic heading available")] (t! " - Unknown code")

/-- `NumericValueStatus.ToString`, pkg/bds/bds09/fields/numeric_value_status.go:18-30. -/
def bds09NumericValueStatus : UInt8 → Txt := tableText [
  (0, t! "No information"),
  (1, t! "Regular value"),
  (2, t! "Maximum")] (t! " - Unknown code")

/-- `Subtype.ToString`, pkg/bds/bds09/fields/subtype.go:24-38. -/
def bds09Subtype : UInt8 → Txt := tableText [
  (1, t! "1 - GroundSpeed / Normal"),
  (2, t! "2 - GroundSpeed / Supersonic"),
  (3, t! "3 - Airspeed,Heading / Normal"),
  (4, t! "4 - Airspeed,Heading / Supersonic")] (t! " - Unknown code")

/-- `DirectionEastWest.ToString`, pkg/bds/bds09/fields/velocity_ew.go:21-31. -/
def bds09DirectionEastWest : UInt8 → Txt := tableText [
  (0, t! "0 - East"),
  (1, t! "1 - West")] (t! " - Unknown code")

/-- `DirectionNorthSouth.ToString`, pkg/bds/bds09/fields/velocity_ns.go:21-31. -/
def bds09DirectionNorthSouth : UInt8 → Txt := tableText [
  (0, t! "0 - north"),
  (1, t! "1 - south")] (t! " - Unknown code")

/-- `VerticalRateSource.ToString`, pkg/bds/bds09/fields/vertical_rate_source.go:18-28. -/
def bds09VerticalRateSource : UInt8 → Txt := tableText [
  (0, t! "0 - GNSS"),
  (1, t! "1 - Baro")] (t! " - Unknown code")

/-- `ACASApplicableDocument.ToString`, pkg/bds/bds10/fields/acas_applicable_document.go:22-34. -/
def bds10ACASApplicableDocument : UInt8 → Txt := tableText [
  (0, t! "RTCA DO-185"),
  (2, t! "RTCA DO-185A"),
  (1, t! "RTCA DO-185B")] (t! " - Unknown code")

/-- `ACASGenerationCapability.ToString`, pkg/bds/bds10/fields/acas_generation_capability.go:18-28. -/
def bds10ACASGenerationCapability : UInt8 → Txt := tableText [
  (0, t! "0 - The ACAS is generating TAs only"),
  (1, t! "1 - The ACAS is generating both TAs and RAs")] (t! " - Unknown code")

/-- `ACASHybridSurveillanceCapability.ToString`, pkg/bds/bds10/fields/acas_hybrid_surveillance_capability.go:18-28. -/
def bds10ACASHybridSurveillanceCapability : UInt8 → Txt := tableText [
  (0, t! "0 - No capability of hybrid surveillance"),
  (1, t! "1 - Capability of hybrid surveillance")] (t! " - Unknown code")

/-- `ACASStatus.ToString`, pkg/bds/bds10/fields/acas_status.go:18-28. -/
def bds10ACASStatus : UInt8 → Txt := tableText [
  (0, t! "0 - ACAS Failed or On Standby"),
  (1, t! "1 - ACAS Operational")] (t! " - Unknown code")

/-- `AircraftIdentificationCapability.ToString`, pkg/bds/bds10/fields/aircraft_identification_capability.go:18-28. -/
def bds10AircraftIdentificationCapability : UInt8 → Txt := tableText [
  (0, t! "0 - Aircraft Identification is coming through ADLP"),
  (1, t! "1 - Aircraft Identification is coming through a separate interface")] (t! " - Unknown code")

/-- `CommonUsageGICBCapability.ToString`, pkg/bds/bds10/fields/common_gicb_capability.go:18-28. -/
def bds10CommonUsageGICBCapability : UInt8 → Txt := tableText [
  (0, t! "0 - The common usage GICB capability report (register 17) is unchange"),
  (1, t! "1 - The common usage GICB capability report (register 17) changed")] (t! " - Unknown code")

/-- `ContinuationFlag.ToString`, pkg/bds/bds10/fields/continuation_flag.go:18-28. -/
def bds10ContinuationFlag : UInt8 → Txt := tableText [
  (0, t! "0 - last register"),
  (1, t! "1 - subsequent register shall be extracted")] (t! " - Unknown code")

/-- `DownlinkELMThroughputCapability.ToString`, pkg/bds/bds10/fields/downlink_elm_throughput.go:28-48. -/
def bds10DownlinkELMThroughputCapability : UInt8 → Txt := tableText [
  (0, t! "0 - No DEML Capability"),
  (1, t! "1 - One 4 segments DELM every second"),
  (2, t! "2 - One 8 segments DELM every second"),
  (3, t! "3 - One 16 segments DELM every second"),
  (4, t! "4 - One 16 segments DELM every 500 ms"),
  (5, t! "5 - One 16 segments DELM every 250 ms"),
  (6, t! "6 - One 16 segments DELM every 125 ms")] (t! " - Unknown code")

/-- `ModeSSpecificServicesCapability.ToString`, pkg/bds/bds10/fields/modes_specific_services_capability.go:18-28. -/
def bds10ModeSSpecificServicesCapability : UInt8 → Txt := tableText [
  (0, t! "0 - no Mode S specific service is present"),
  (1, t! "1 - at least one Mode S specific service is present")] (t! " - Unknown code")

/-- `ModeSSubnetworkVersion.ToString`, pkg/bds/bds10/fields/modes_subnetwork_version.go:26-44. -/
def bds10ModeSSubnetworkVersion : UInt8 → Txt := tableText [
  (0, t! "0 - Mode S subnetwork not available"),
  (1, t! "1 - Mode S subnetwork Version 1 - ICAO Doc 9688 (1996)"),
  (2, t! "1 - Mode S subnetwork Version 2 - ICAO Doc 9688 (1997)"),
  (3, t! "1 - Mode S subnetwork Version 3 - ICAO Annex 10, Vol III, Amdt 77"),
  (4, t! "1 - Mode S subnetwork Version 4 - ICAO Doc 9871, Edition 1"),
  (5, t! "1 - Mode S subnetwork Version 5 - ICAO Doc 9871, Edition 2")] (t! " - Unknown code")

/-- `OverlayCommandCapability.ToString`, pkg/bds/bds10/fields/overlay_command_capability.go:18-28. -/
def bds10OverlayCommandCapability : UInt8 → Txt := tableText [
  (0, t! "0 - No Overlay Command Capability"),
  (1, t! "1 - Overlay Command Capability")] (t! " - Unknown code")

/-- `SquitterCapabilitySubfield.ToString`, pkg/bds/bds10/fields/squitter_capability_subfield.go:19-29. -/
def bds10SquitterCapabilitySubfield : UInt8 → Txt := tableText [
  (0, t! "0 - Both registers 05 and 06 have not been updated recently"),
  (1, t! "1 - Both registers 05 and 06 have been updated within the last ten, plus or minus one, seconds")] (t! " - Unknown code")

/-- `SurveillanceIdentifierCode.ToString`, pkg/bds/bds10/fields/surveillance_identifier_code.go:18-28. -/
def bds10SurveillanceIdentifierCode : UInt8 → Txt := tableText [
  (0, t! "0 - No surveillance identifier code capability"),
  (1, t! "1 - Surveillance identifier code capability")] (t! " - Unknown code")

/-- `TransponderEnhancedProtocolIndicator.ToString`, pkg/bds/bds10/fields/transponder_enhanced_protocol_indicator.go:18-28. -/
def bds10TransponderEnhancedProtocolIndicator : UInt8 → Txt := tableText [
  (0, t! "0 - Transponder Level 2 to 4"),
  (1, t! "1 - Transponder Level 5")] (t! " - Unknown code")

/-- `UplinkELMThroughputCapability.ToString`, pkg/bds/bds10/fields/uplink_elm_throughput.go:28-48. -/
def bds10UplinkELMThroughputCapability : UInt8 → Txt := tableText [
  (0, t! "0 - No UELM Capability"),
  (1, t! "1 - 16 UELM segments in 1 second"),
  (2, t! "2 - 16 UELM segments in 500 milliseconds"),
  (3, t! "3 - 16 UELM segments in 250 milliseconds"),
  (4, t! "4 - 16 UELM segments in 125 milliseconds"),
  (5, t! "5 - 16 UELM segments in 60 milliseconds"),
  (6, t! "6 - 16 UELM segments in 30 milliseconds")] (t! " - Unknown code")

/-- `StatusOfModeBits.ToString`, pkg/bds/bds40/fields/status_of_mode_bits.go:18-28. -/
def bds40StatusOfModeBits : UInt8 → Txt := tableText [
  (0, t! "0 - No mode information provided"),
  (1, t! "1 - Mode information deliberately provided")] (t! " - Unknown code")

/-- `StatusOfTargetAltitudeSource.ToString`, pkg/bds/bds40/fields/status_of_target_altitude_source.go:18-28. -/
def bds40StatusOfTargetAltitudeSource : UInt8 → Txt := tableText [
  (0, t! "0 - No source information provided"),
  (1, t! "1 - Source information deliberately provided")] (t! " - Unknown code")

/-- `TargetAltitudeSource.ToString`, pkg/bds/bds40/fields/target_altitude_source.go:22-36. -/
def bds40TargetAltitudeSource : UInt8 → Txt := tableText [
  (0, t! "0 - Unknown"),
  (1, t! "1 - Aircraft altitude"),
  (2, t! "2 - FCU/MCP selected altitude"),
  (3, t! "3 - FMS selected altitude")] (t! " - Unknown code")

/-- `Source.ToString`, pkg/bds/bds44/fields/source.go:24-40. -/
def bds44Source : UInt8 → Txt := tableText [
  (0, t! "0 - Invalid"),
  (1, t! "1 - INS"),
  (2, t! "2 - GNSS"),
  (3, t! "3 - DME/DME"),
  (4, t! "4 - VOR/DMS")] (t! " - Unknown code")

/-- `TurbulenceLevel.ToString`, pkg/bds/bds44/fields/turbulence.go:25-39. -/
def bds44TurbulenceLevel : UInt8 → Txt := tableText [
  (0, t! "0 - Nil"),
  (1, t! "1 - Light"),
  (2, t! "2 - Moderate"),
  (3, t! "3 - Severe")] (t! " - Unknown code")

/-- `TurbulenceFlag.ToString`, pkg/bds/bds44/fields/turbulence_flag.go:18-28. -/
def bds44TurbulenceFlag : UInt8 → Txt := tableText [
  (0, t! "0 - turbulence data not available in Register 45"),
  (1, t! "1 - turbulence data available in Register 45")] (t! " - Unknown code")

/-- `HazardLevel.ToString`, pkg/bds/bds45/fields/hazard_level.go:24-38. -/
def bds45HazardLevel : UInt8 → Txt := tableText [
  (0, t! "0 - Nil"),
  (1, t! "1 - Light"),
  (2, t! "2 - Moderate"),
  (3, t! "3 - Severe")] (t! " - Unknown code")

/-- `EmergencyPriorityStatus.ToString`, pkg/bds/bds61/fields/emergency_status.go:30-52. -/
def bds61EmergencyPriorityStatus : UInt8 → Txt := tableText [
  (0, t! "0 - no emergency"),
  (1, t! "1 - general emergency"),
  (2, t! "2 - lifeguard/medical emergency"),
  (3, t! "3 - minimum fuel"),
  (4, t! "4 - no communications"),
  (5, t! "5 - unlawful interference"),
  (6, t! "6 - downed aircraft"),
  (7, t! "7 - reserved")] (t! " - Unknown code")

/-- `Subtype.ToString`, pkg/bds/bds61/fields/subtype.go:32-46. -/
def bds61Subtype : UInt8 → Txt := tableText [
  (0, t! "0 - no information"),
  (1, t! "1 - emergency/priority status"),
  (2, t! "2 - TCAS/ACAS RA Broadcast"),
  (3, dec 3 ++ t! " - reserved"),
  (4, dec 4 ++ t! " - reserved"),
  (5, dec 5 ++ t! " - reserved"),
  (6, dec 6 ++ t! " - reserved"),
  (7, dec 7 ++ t! " - reserved")] (t! " - Unknown code")

/-- `CapabilityModeCode.ToString`, pkg/bds/bds62/fields/capability_mode_code.go:22-36. -/
def bds62CapabilityModeCode : UInt8 → Txt := tableText [
  (0, t! "0 - TCAS/ACAS operational or unknown + No TCAS/ACAS Resolution Advisory active"),
  (1, t! "1 - TCAS/ACAS operational or unknown + TCAS/ACAS Resolution Advisory active"),
  (2, t! "2 - TCAS/ACAS not operational + No TCAS/ACAS Resolution Advisory active"),
  (3, t! "3 - TCAS/ACAS not operational + TCAS/ACAS Resolution Advisory active")] (t! " - Unknown code")

/-- `EmergencyPriorityStatus.ToString`, pkg/bds/bds62/fields/emergency_priority_status.go:30-52. -/
def bds62EmergencyPriorityStatus : UInt8 → Txt := tableText [
  (0, t! "0 - no emergency"),
  (1, t! "1 - general emergency"),
  (2, t! "2 - lifeguard/medical emergency"),
  (3, t! "3 - minimum fuel"),
  (4, t! "4 - no communications"),
  (5, t! "5 - unlawful interference"),
  (6, t! "6 - downed aircraft"),
  (7, t! "7 - reserved")] (t! " - Unknown code")

/-- `HorizontalDataAvailableSourceIndicator.ToString`, pkg/bds/bds62/fields/horizontal_data_source_indicator.go:22-36. -/
def bds62HorizontalDataAvailableSourceIndicator : UInt8 → Txt := tableText [
  (0, t! "0 - no valid horizontal target state data is available"),
  (1, t! "1 - autopilot control panel selected value, such as Mode Control Panel (MCP) or Flight Control Unit (FCU)"),
  (2, t! "2 - maintaining current heading or track angle (e.g. autopilot mode select)"),
  (3, t! "3 - FMS/RNAV system (indicates track angle specified by leg type)")] (t! " - Unknown code")

/-- `HorizontalModeIndicator.ToString`, pkg/bds/bds62/fields/horizontal_mode_indicator.go:22-36. -/
def bds62HorizontalModeIndicator : UInt8 → Txt := tableText [
  (0, t! "0 - unknown mode or information unavailable"),
  (1, t! "1 - \"Acquiring\" Mode"),
  (2, t! "2 - \"Capturing\" or \"Maintaining\" Mode"),
  (3, t! "3 - Reserved")] (t! " - Unknown code")

/-- `NavigationalAccuracyCategoryPositionV1.ToString`, pkg/bds/bds62/fields/navigational_accuracy_category_position_v1.go:46-85. -/
def bds62NavigationalAccuracyCategoryPositionV1 : UInt8 → Txt := tableText [
  (0, t! "0 - EPU >= 18.52 km (10 NM) - Unknown accuracy"),
  (1, t! "1 - EPU < 18.52 km (10 NM) - RNP-10 accuracy"),
  (2, t! "2 - EPU < 7.408 km (4 NM) - RNP-4 accuracy"),
  (3, t! "3 - EPU < 3.704 km (2 NM) - RNP-2 accuracy"),
  (4, t! "4 - EPU < 1 852 m (1 NM) - RNP-1 accuracy"),
  (5, t! "5 - EPU < 926 m (0.5 NM) - RNP-0.5 accuracy"),
  (6, t! "6 - EPU < 555.6 m ( 0.3 NM) - RNP-0.3 accuracy"),
  (7, t! "7 - EPU < 185.2 m (0.1 NM) - RNP-0.1 accuracy"),
  (8, t! "8 - EPU < 92.6 m (0.05 NM) - e.g. GPS (with SA)"),
  (9, t! "9 - EPU < 30 m and VEPU < 45 m - e.g. GPS (SA off)"),
  (10, t! "10 - EPU < 10 m and VEPU < 15 m - e.g. WAAS"),
  (11, t! "11 - EPU < 3 m and VEPU < 4 m - e.g. LAAS"),
  (12, t! "12 - Reserved"),
  (13, t! "13 - Reserved"),
  (14, t! "14 - Reserved"),
  (15, t! "15 - Reserved")] (t! " - Unknown code")

/-- `NavigationalAccuracyCategoryPositionV2.ToString`, pkg/bds/bds62/fields/navigational_accuracy_category_position_v2.go:46-85. -/
def bds62NavigationalAccuracyCategoryPositionV2 : UInt8 → Txt := tableText [
  (0, t! "0 - EPU >= 18.52 km (10 NM) - Unknown accuracy"),
  (1, t! "1 - EPU < 18.52 km (10 NM) - RNP-10 accuracy"),
  (2, t! "2 - EPU < 7.408 km (4 NM) - RNP-4 accuracy"),
  (3, t! "3 - EPU < 3.704 km (2 NM) - RNP-2 accuracy"),
  (4, t! "4 - EPU < 1 852 m (1 NM) - RNP-1 accuracy"),
  (5, t! "5 - EPU < 926 m (0.5 NM) - RNP-0.5 accuracy"),
  (6, t! "6 - EPU < 555.6 m ( 0.3 NM) - RNP-0.3 accuracy"),
  (7, t! "7 - EPU < 185.2 m (0.1 NM) - RNP-0.1 accuracy"),
  (8, t! "8 - EPU < 92.6 m (0.05 NM) - e.g. GPS (with SA)"),
  (9, t! "9 - EPU < 30 m - e.g. GPS (SA off)"),
  (10, t! "10 - EPU < 10 m - e.g. WAAS"),
  (11, t! "11 - EPU < 3 m - e.g. LAAS"),
  (12, t! "12 - Reserved"),
  (13, t! "13 - Reserved"),
  (14, t! "14 - Reserved"),
  (15, t! "15 - Reserved")] (t! " - Unknown code")

/-- `NICBaro.ToString`, pkg/bds/bds62/fields/nic_baro.go:22-32. -/
def bds62NICBaro : UInt8 → Txt := tableText [
  (0, t! "0 - barometric altitude based on a Gilham input that has not been cross-checked"),
  (1, t! "1 - barometric altitude based on a Gilham input that has been cross-checked or on a non Gilham input")] (t! " - Unknown code")

/-- `NumericValueStatus.ToString`, pkg/bds/bds62/fields/numeric_value_status.go:18-30. -/
def bds62NumericValueStatus : UInt8 → Txt := tableText [
  (0, t! "No information"),
  (1, t! "Regular value"),
  (2, t! "Maximum")] (t! " - Unknown code")

/-- `SelectedAltitudeType.ToString`, pkg/bds/bds62/fields/selected_altitude_type.go:18-28. -/
def bds62SelectedAltitudeType : UInt8 → Txt := tableText [
  (0, t! "0 - MCP/FCU (Mode Control Panel / Flight Control Unit)"),
  (1, t! "1 - FMS (Flight Management System)")] (t! " - Unknown code")

/-- `SelectedHeadingStatus.ToString`, pkg/bds/bds62/fields/selected_heading.go:21-31. -/
def bds62SelectedHeadingStatus : UInt8 → Txt := tableText [
  (0, t! "0 - selected heading data is either not available or is invalid"),
  (1, t! "1 - selected heading data is valid")] (t! " - Unknown code")

/-- `SourceIntegrityLevel.ToString`, pkg/bds/bds62/fields/source_integrity_level.go:22-36. -/
def bds62SourceIntegrityLevel : UInt8 → Txt := tableText [
  (0, t! "0 - Unknown or SIL > 1 * 10^-3 per flight hour or per sample"),
  (1, t! "1 - SIL <= 1 * 10^-3 per flight hour or per sample"),
  (2, t! "1 - SIL <= 1 * 10^-5 per flight hour or per sample"),
  (3, t! "1 - SIL <= 1 * 10^-7 per flight hour or per sample")] (t! " - Unknown code")

/-- `SourceIntegrityLevelSupplement.ToString`, pkg/bds/bds62/fields/source_integrity_level_supplement.go:18-28. -/
def bds62SourceIntegrityLevelSupplement : UInt8 → Txt := tableText [
  (0, t! "0 - Probability of exceeding NIC radius of containment is based on \"per hour\""),
  (1, t! "1 - Probability of exceeding NIC radius of containment is based on \"per sample\"")] (t! " - Unknown code")

/-- `StatusMCPFCUBits.ToString`, pkg/bds/bds62/fields/status_mcp_fcu_bits.go:20-30. -/
def bds62StatusMCPFCUBits : UInt8 → Txt := tableText [
  (0, t! "0 - no information provided for MCP/FCU mode bits"),
  (1, t! "1 - information provided for MCP/FCU mode bits")] (t! " - Unknown code")

/-- `Subtype.ToString`, pkg/bds/bds62/fields/subtype.go:24-36. -/
def bds62Subtype : UInt8 → Txt := tableText [
  (0, t! "0 - Subtype 0"),
  (1, t! "1 - Subtype 1"),
  (2, dec 2 ++ t! " - reserved"),
  (3, dec 3 ++ t! " - reserved")] (t! " - Unknown code")

/-- `TargetAltitudeCapability.ToString`, pkg/bds/bds62/fields/target_altitude_capability.go:24-38. -/
def bds62TargetAltitudeCapability : UInt8 → Txt := tableText [
  (0, t! "0 - capability for reporting holding altitude only"),
  (1, t! "1 - capability for reporting either holding altitude or autopilot control panel	selected altitude"),
  (2, t! "2 - capability for reporting either holding altitude, autopilot control panel selected altitude, or any FMS/RNAV level-off altitude"),
  (3, t! "3 - Reserved")] (t! " - Unknown code")

/-- `TargetAltitudeType.ToString`, pkg/bds/bds62/fields/target_altitude_type.go:18-28. -/
def bds62TargetAltitudeType : UInt8 → Txt := tableText [
  (0, t! "0 - referenced to pressure-altitude (flight level)"),
  (1, t! "1 - referenced to barometric corrected altitude (mean sea level)")] (t! " - Unknown code")

/-- `TargetHeadingTrackIndicator.ToString`, pkg/bds/bds62/fields/target_heading_track_angle.go:21-31. -/
def bds62TargetHeadingTrackIndicator : UInt8 → Txt := tableText [
  (0, t! "0 - target heading angle is being reported"),
  (1, t! "1 - track angle is being reported")] (t! " - Unknown code")

/-- `VerticalDataAvailableSourceIndicator.ToString`, pkg/bds/bds62/fields/vertical_data_source_indicator.go:22-36. -/
def bds62VerticalDataAvailableSourceIndicator : UInt8 → Txt := tableText [
  (0, t! "0 - no valid Vertical Target State data is available"),
  (1, t! "1 - autopilot control panel selected value, such as Mode Control Panel (MCP) or Flight Control Unit (FCU)"),
  (2, t! "2 - holding altitude"),
  (3, t! "3 - FMS/RNAV system")] (t! " - Unknown code")

/-- `VerticalModeIndicator.ToString`, pkg/bds/bds62/fields/vertical_mode_indicator.go:22-36. -/
def bds62VerticalModeIndicator : UInt8 → Txt := tableText [
  (0, t! "0 - unknown mode or information unavailable"),
  (1, t! "1 - \"Acquiring\" Mode"),
  (2, t! "2 - \"Capturing\" or \"Maintaining\" Mode"),
  (3, t! "3 - Reserved")] (t! " - Unknown code")

/-- `ACASOperational.ToString`, pkg/bds/bds65/fields/acas_operational.go:18-28. -/
def bds65ACASOperational : UInt8 → Txt := tableText [
  (0, t! "0 - TCAS/ACAS is NOT Operational"),
  (1, t! "1 - TCAS/ACAS IS Operational")] (t! " - Unknown code")

/-- `ACASResolutionAdvisoryActiveV1.ToString`, pkg/bds/bds65/fields/acas_resolution_advisory_active_v1.go:18-28. -/
def bds65ACASResolutionAdvisoryActiveV1 : UInt8 → Txt := tableText [
  (0, t! "0 - ACAS II or ACAS RA not active"),
  (1, t! "1 - ACAS RA is active")] (t! " - Unknown code")

/-- `ACASResolutionAdvisoryActiveV2.ToString`, pkg/bds/bds65/fields/acas_resolution_advisory_active_v2.go:18-28. -/
def bds65ACASResolutionAdvisoryActiveV2 : UInt8 → Txt := tableText [
  (0, t! "0 - TCAS II or ACAS RA not active"),
  (1, t! "1 - TCAS/ACAS RA is active")] (t! " - Unknown code")

/-- `AirReferencedVelocityReportCapability.ToString`, pkg/bds/bds65/fields/air_referenced_velocity_report_capability.go:18-28. -/
def bds65AirReferencedVelocityReportCapability : UInt8 → Txt := tableText [
  (0, t! "0 - No capability for sending messages to support Air-Referenced Velocity Reports"),
  (1, t! "1 - Capability of sending messages to support Air-Referenced Velocity Reports")] (t! " - Unknown code")

/-- `ApproachLandingOperationalCapabilities.ToString`, pkg/bds/bds65/fields/approach_landing_operational_capabilities.go:46-60. -/
def bds65ApproachLandingOperationalCapabilities : UInt8 → Txt := tableText [
  (0, dec 0 ++ t! " - reserved"),
  (1, dec 1 ++ t! " - reserved"),
  (2, dec 2 ++ t! " - reserved"),
  (3, dec 3 ++ t! " - reserved"),
  (4, dec 4 ++ t! " - reserved"),
  (5, dec 5 ++ t! " - reserved"),
  (6, dec 6 ++ t! " - reserved"),
  (7, dec 7 ++ t! " - reserved"),
  (8, dec 8 ++ t! " - reserved"),
  (9, dec 9 ++ t! " - reserved"),
  (10, dec 10 ++ t! " - reserved"),
  (11, dec 11 ++ t! " - reserved"),
  (12, dec 12 ++ t! " - reserved"),
  (13, dec 13 ++ t! " - reserved"),
  (14, dec 14 ++ t! " - reserved"),
  (15, dec 15 ++ t! " - reserved")] (t! " - Unknown code")

/-- `ApproachLandingOperationalCapabilityStatus.ToString`, pkg/bds/bds65/fields/approach_landing_operational_capability_status.go:46-60. -/
def bds65ApproachLandingOperationalCapabilityStatus : UInt8 → Txt := tableText [
  (0, dec 0 ++ t! " - reserved"),
  (1, dec 1 ++ t! " - reserved"),
  (2, dec 2 ++ t! " - reserved"),
  (3, dec 3 ++ t! " - reserved"),
  (4, dec 4 ++ t! " - reserved"),
  (5, dec 5 ++ t! " - reserved"),
  (6, dec 6 ++ t! " - reserved"),
  (7, dec 7 ++ t! " - reserved"),
  (8, dec 8 ++ t! " - reserved"),
  (9, dec 9 ++ t! " - reserved"),
  (10, dec 10 ++ t! " - reserved"),
  (11, dec 11 ++ t! " - reserved"),
  (12, dec 12 ++ t! " - reserved"),
  (13, dec 13 ++ t! " - reserved"),
  (14, dec 14 ++ t! " - reserved"),
  (15, dec 15 ++ t! " - reserved")] (t! " - Unknown code")

/-- `B2Low.ToString`, pkg/bds/bds65/fields/b2_low.go:18-28. -/
def bds65B2Low : UInt8 → Txt := tableText [
  (0, t! "0 - Greater than or equal to 70 Watts transmit power"),
  (1, t! "1 - Less than 70 Watts transmit power")] (t! " - Unknown code")

/-- `CockpitDisplayOfTrafficInformationStatus.ToString`, pkg/bds/bds65/fields/cockpit_display_traffic_information_status.go:18-28. -/
def bds65CockpitDisplayOfTrafficInformationStatus : UInt8 → Txt := tableText [
  (0, t! "0 - Traffic display not operational"),
  (1, t! "1 - Traffic display operational")] (t! " - Unknown code")

/-- `EnRouteOperationalCapabilities.ToString`, pkg/bds/bds65/fields/en_route_operational_capabilities.go:46-60. -/
def bds65EnRouteOperationalCapabilities : UInt8 → Txt := tableText [
  (0, dec 0 ++ t! " - reserved"),
  (1, dec 1 ++ t! " - reserved"),
  (2, dec 2 ++ t! " - reserved"),
  (3, dec 3 ++ t! " - reserved"),
  (4, dec 4 ++ t! " - reserved"),
  (5, dec 5 ++ t! " - reserved"),
  (6, dec 6 ++ t! " - reserved"),
  (7, dec 7 ++ t! " - reserved"),
  (8, dec 8 ++ t! " - reserved"),
  (9, dec 9 ++ t! " - reserved"),
  (10, dec 10 ++ t! " - reserved"),
  (11, dec 11 ++ t! " - reserved"),
  (12, dec 12 ++ t! " - reserved"),
  (13, dec 13 ++ t! " - reserved"),
  (14, dec 14 ++ t! " - reserved"),
  (15, dec 15 ++ t! " - reserved")] (t! " - Unknown code")

/-- `EnRouteOperationalCapabilityStatus.ToString`, pkg/bds/bds65/fields/en_route_operational_capability_status.go:46-60. -/
def bds65EnRouteOperationalCapabilityStatus : UInt8 → Txt := tableText [
  (0, dec 0 ++ t! " - reserved"),
  (1, dec 1 ++ t! " - reserved"),
  (2, dec 2 ++ t! " - reserved"),
  (3, dec 3 ++ t! " - reserved"),
  (4, dec 4 ++ t! " - reserved"),
  (5, dec 5 ++ t! " - reserved"),
  (6, dec 6 ++ t! " - reserved"),
  (7, dec 7 ++ t! " - reserved"),
  (8, dec 8 ++ t! " - reserved"),
  (9, dec 9 ++ t! " - reserved"),
  (10, dec 10 ++ t! " - reserved"),
  (11, dec 11 ++ t! " - reserved"),
  (12, dec 12 ++ t! " - reserved"),
  (13, dec 13 ++ t! " - reserved"),
  (14, dec 14 ++ t! " - reserved"),
  (15, dec 15 ++ t! " - reserved")] (t! " - Unknown code")

/-- `ExtendedSquitterIn.ToString`, pkg/bds/bds65/fields/extended_squitter_in.go:18-28. -/
def bds65ExtendedSquitterIn : UInt8 → Txt := tableText [
  (0, t! "0 - Aircraft has NO 1090ES Receive capability"),
  (1, t! "1 - Aircraft has 1090ES Receive capability")] (t! " - Unknown code")

/-- `GeometricVerticalAccuracy.ToString`, pkg/bds/bds65/fields/geometric_vertical_accuracy.go:22-36. -/
def bds65GeometricVerticalAccuracy : UInt8 → Txt := tableText [
  (0, t! "0 - Unknown or GVA >= 150 meters"),
  (1, t! "0 - GVA <= 150 meters"),
  (2, t! "0 - GVA <= 45 meters"),
  (3, t! "0 - reserved")] (t! " - Unknown code")

/-- `GPSAntennaLateral.ToString`, pkg/bds/bds65/fields/gps_antenna_lateral.go:30-52. -/
def bds65GPSAntennaLateral : UInt8 → Txt := tableText [
  (0, t! "0 - no data"),
  (1, t! "1 - direction left, 2 meters"),
  (2, t! "2 - direction left, 4 meters"),
  (3, t! "3 - direction left, 6 meters"),
  (4, t! "4 - direction right, 0 meter"),
  (5, t! "5 - direction right, 2 meters"),
  (6, t! "6 - direction right, 4 meters"),
  (7, t! "7 - direction right, 6 meters")] (t! " - Unknown code")

/-- `HorizontalReferenceDirection.ToString`, pkg/bds/bds65/fields/horizontal_reference_direction.go:18-28. -/
def bds65HorizontalReferenceDirection : UInt8 → Txt := tableText [
  (0, t! "0 - true north"),
  (1, t! "1 - magnetic north")] (t! " - Unknown code")

/-- `IdentSwitchActive.ToString`, pkg/bds/bds65/fields/ident_switch_active.go:18-28. -/
def bds65IdentSwitchActive : UInt8 → Txt := tableText [
  (0, t! "0 - Ident switch not active"),
  (1, t! "1 - Ident switch active - retained for 18 +/-1 seconds")] (t! " - Unknown code")

/-- `LengthWidth.ToString`, pkg/bds/bds65/fields/length_width.go:46-84. -/
def bds65LengthWidth : UInt8 → Txt := tableText [
  (0, t! "0 - Length lower than 15 meters and Width lower than 11.5 meters"),
  (1, t! "1 - Length lower than 15 meters and Width lower than 23 meters"),
  (2, t! "2 - Length lower than 25 meters and Width lower than 28.5 meters"),
  (3, t! "3 - Length lower than 25 meters and Width lower than 34 meters"),
  (4, t! "4 - Length lower than 35 meters and Width lower than 33 meters"),
  (5, t! "5 - Length lower than 35 meters and Width lower than 38 meters"),
  (6, t! "6 - Length lower than 45 meters and Width lower than 39.5 meters"),
  (7, t! "7 - Length lower than 45 meters and Width lower than 45 meters"),
  (8, t! "8 - Length lower than 55 meters and Width lower than 45 meters"),
  (9, t! "9 - Length lower than 55 meters and Width lower than 52 meters"),
  (10, t! "10 - Length lower than 65 meters and Width lower than 59 meters"),
  (11, t! "11 - Length lower than 65 meters and Width lower than 67 meters"),
  (12, t! "12 - Length lower than 75 meters and Width lower than 72.5 meters"),
  (13, t! "13 - Length lower than 75 meters and Width lower than 80 meters"),
  (14, t! "14 - Length lower than 85 meters and Width lower than 80 meters"),
  (15, t! "15 - Length lower than 85 meters and Width lower than 90 meters")] (t! " - Unknown code")

/-- `NavigationalAccuracyCategoryPositionV1.ToString`, pkg/bds/bds65/fields/navigational_accuracy_category_position_v1.go:46-85. -/
def bds65NavigationalAccuracyCategoryPositionV1 : UInt8 → Txt := tableText [
  (0, t! "0 - EPU >= 18.52 km (10 NM) - Unknown accuracy"),
  (1, t! "1 - EPU < 18.52 km (10 NM) - RNP-10 accuracy"),
  (2, t! "2 - EPU < 7.408 km (4 NM) - RNP-4 accuracy"),
  (3, t! "3 - EPU < 3.704 km (2 NM) - RNP-2 accuracy"),
  (4, t! "4 - EPU < 1 852 m (1 NM) - RNP-1 accuracy"),
  (5, t! "5 - EPU < 926 m (0.5 NM) - RNP-0.5 accuracy"),
  (6, t! "6 - EPU < 555.6 m ( 0.3 NM) - RNP-0.3 accuracy"),
  (7, t! "7 - EPU < 185.2 m (0.1 NM) - RNP-0.1 accuracy"),
  (8, t! "8 - EPU < 92.6 m (0.05 NM) - e.g. GPS (with SA)"),
  (9, t! "9 - EPU < 30 m and VEPU < 45 m - e.g. GPS (SA off)"),
  (10, t! "10 - EPU < 10 m and VEPU < 15 m - e.g. WAAS"),
  (11, t! "11 - EPU < 3 m and VEPU < 4 m - e.g. LAAS"),
  (12, t! "12 - Reserved"),
  (13, t! "13 - Reserved"),
  (14, t! "14 - Reserved"),
  (15, t! "15 - Reserved")] (t! " - Unknown code")

/-- `NavigationalAccuracyCategoryPositionV2.ToString`, pkg/bds/bds65/fields/navigational_accuracy_category_position_v2.go:46-85. -/
def bds65NavigationalAccuracyCategoryPositionV2 : UInt8 → Txt := tableText [
  (0, t! "0 - EPU >= 18.52 km (10 NM) - Unknown accuracy"),
  (1, t! "1 - EPU < 18.52 km (10 NM) - RNP-10 accuracy"),
  (2, t! "2 - EPU < 7.408 km (4 NM) - RNP-4 accuracy"),
  (3, t! "3 - EPU < 3.704 km (2 NM) - RNP-2 accuracy"),
  (4, t! "4 - EPU < 1 852 m (1 NM) - RNP-1 accuracy"),
  (5, t! "5 - EPU < 926 m (0.5 NM) - RNP-0.5 accuracy"),
  (6, t! "6 - EPU < 555.6 m ( 0.3 NM) - RNP-0.3 accuracy"),
  (7, t! "7 - EPU < 185.2 m (0.1 NM) - RNP-0.1 accuracy"),
  (8, t! "8 - EPU < 92.6 m (0.05 NM) - e.g. GPS (with SA)"),
  (9, t! "9 - EPU < 30 m - e.g. GPS (SA off)"),
  (10, t! "10 - EPU < 10 m - e.g. WAAS"),
  (11, t! "11 - EPU < 3 m - e.g. LAAS"),
  (12, t! "12 - Reserved"),
  (13, t! "13 - Reserved"),
  (14, t! "14 - Reserved"),
  (15, t! "15 - Reserved")] (t! " - Unknown code")

/-- `NICBaro.ToString`, pkg/bds/bds65/fields/nic_baro.go:22-32. -/
def bds65NICBaro : UInt8 → Txt := tableText [
  (0, t! "0 - barometric altitude based on a Gilham input that has not been cross-checked"),
  (1, t! "1 - barometric altitude based on a Gilham input that has been cross-checked or on a non Gilham input")] (t! " - Unknown code")

/-- `NICSupplementA.ToString`, pkg/bds/bds65/fields/nic_supplement_a.go:18-28. -/
def bds65NICSupplementA : UInt8 → Txt := tableText [
  (0, t! "0"),
  (1, t! "1")] (t! " - Unknown code")

/-- `NICSupplementC.ToString`, pkg/bds/bds65/fields/nic_supplement_c.go:18-28. -/
def bds65NICSupplementC : UInt8 → Txt := tableText [
  (0, t! "0"),
  (1, t! "1")] (t! " - Unknown code")

/-- `NotACASStatus.ToString`, pkg/bds/bds65/fields/not_acas_status.go:18-28. -/
def bds65NotACASStatus : UInt8 → Txt := tableText [
  (0, t! "0 - ACAS operational or unknown"),
  (1, t! "1 - ACAS not installed or not operational")] (t! " - Unknown code")

/-- `PositionOffsetApplied.ToString`, pkg/bds/bds65/fields/position_offset_applied.go:18-28. -/
def bds65PositionOffsetApplied : UInt8 → Txt := tableText [
  (0, t! "0 - Position transmitted is not the ADS-B position reference point"),
  (1, t! "1 - Position transmitted is the ADS-B position reference point")] (t! " - Unknown code")

/-- `ReceivingATCServices.ToString`, pkg/bds/bds65/fields/receiving_atc_services.go:18-28. -/
def bds65ReceivingATCServices : UInt8 → Txt := tableText [
  (0, t! "0 - Aircraft not receiving ATC services"),
  (1, t! "1 - Aircraft receiving ATC services")] (t! " - Unknown code")

/-- `SingleAntennaFlag.ToString`, pkg/bds/bds65/fields/single_antenna_flag.go:18-28. -/
def bds65SingleAntennaFlag : UInt8 → Txt := tableText [
  (0, t! "0 - Systems with two functioning antennas"),
  (1, t! "1 - Systems that use only one antenna")] (t! " - Unknown code")

/-- `SourceIntegrityLevel.ToString`, pkg/bds/bds65/fields/source_integrity_level.go:22-36. -/
def bds65SourceIntegrityLevel : UInt8 → Txt := tableText [
  (0, t! "0 - Unknown or SIL > 1 * 10^-3 per flight hour or per sample"),
  (1, t! "1 - SIL <= 1 * 10^-3 per flight hour or per sample"),
  (2, t! "2 - SIL <= 1 * 10^-5 per flight hour or per sample"),
  (3, t! "3 - SIL <= 1 * 10^-7 per flight hour or per sample")] (t! " - Unknown code")

/-- `SourceIntegrityLevelSupplement.ToString`, pkg/bds/bds65/fields/source_integrity_level_supplement.go:18-28. -/
def bds65SourceIntegrityLevelSupplement : UInt8 → Txt := tableText [
  (0, t! "0 - Probability of exceeding NIC radius of containment is based on \"per hour\""),
  (1, t! "1 - Probability of exceeding NIC radius of containment is based on \"per sample\"")] (t! " - Unknown code")

/-- `Subtype.ToString`, pkg/bds/bds65/fields/subtype.go:20-30. -/
def bds65Subtype : UInt8 → Txt := tableText [
  (0, t! "0 - Airborne Status Message"),
  (1, t! "1 - Surface Status Message")] (t! " - Unknown code")

/-- `SurfaceOperationalCapabilities.ToString`, pkg/bds/bds65/fields/surface_operational_capabilities.go:46-60. -/
def bds65SurfaceOperationalCapabilities : UInt8 → Txt := tableText [
  (0, dec 0 ++ t! " - reserved"),
  (1, dec 1 ++ t! " - reserved"),
  (2, dec 2 ++ t! " - reserved"),
  (3, dec 3 ++ t! " - reserved"),
  (4, dec 4 ++ t! " - reserved"),
  (5, dec 5 ++ t! " - reserved"),
  (6, dec 6 ++ t! " - reserved"),
  (7, dec 7 ++ t! " - reserved"),
  (8, dec 8 ++ t! " - reserved"),
  (9, dec 9 ++ t! " - reserved"),
  (10, dec 10 ++ t! " - reserved"),
  (11, dec 11 ++ t! " - reserved"),
  (12, dec 12 ++ t! " - reserved"),
  (13, dec 13 ++ t! " - reserved"),
  (14, dec 14 ++ t! " - reserved"),
  (15, dec 15 ++ t! " - reserved")] (t! " - Unknown code")

/-- `SurfaceOperationalCapabilityStatus.ToString`, pkg/bds/bds65/fields/surface_operational_capability_status.go:46-60. -/
def bds65SurfaceOperationalCapabilityStatus : UInt8 → Txt := tableText [
  (0, dec 0 ++ t! " - reserved"),
  (1, dec 1 ++ t! " - reserved"),
  (2, dec 2 ++ t! " - reserved"),
  (3, dec 3 ++ t! " - reserved"),
  (4, dec 4 ++ t! " - reserved"),
  (5, dec 5 ++ t! " - reserved"),
  (6, dec 6 ++ t! " - reserved"),
  (7, dec 7 ++ t! " - reserved"),
  (8, dec 8 ++ t! " - reserved"),
  (9, dec 9 ++ t! " - reserved"),
  (10, dec 10 ++ t! " - reserved"),
  (11, dec 11 ++ t! " - reserved"),
  (12, dec 12 ++ t! " - reserved"),
  (13, dec 13 ++ t! " - reserved"),
  (14, dec 14 ++ t! " - reserved"),
  (15, dec 15 ++ t! " - reserved")] (t! " - Unknown code")

/-- `SystemDesignAssurance.ToString`, pkg/bds/bds65/fields/system_design_assurance.go:22-36. -/
def bds65SystemDesignAssurance : UInt8 → Txt := tableText [
  (0, t! "0 - Not Applicable"),
  (1, t! "1 - Level D"),
  (2, t! "2 - Level C"),
  (3, t! "3 - Level B")] (t! " - Unknown code")

/-- `TargetChangeReportCapability.ToString`, pkg/bds/bds65/fields/target_change_report_capability.go:22-36. -/
def bds65TargetChangeReportCapability : UInt8 → Txt := tableText [
  (0, t! "0 - No capability for sending messages to support Trajectory Change Reports"),
  (1, t! "1 - Capability of sending messages to support TC+0 Report only"),
  (2, t! "2 - Capability of sending information for multiple TC Reports"),
  (3, t! "3 - Reserved")] (t! " - Unknown code")

/-- `TargetStateReportCapability.ToString`, pkg/bds/bds65/fields/target_state_report_capability.go:18-28. -/
def bds65TargetStateReportCapability : UInt8 → Txt := tableText [
  (0, t! "0 - No capability for sending messages to support Target State Reports"),
  (1, t! "1 - Capability of sending messages to support Target State Reports")] (t! " - Unknown code")

/-- `TerminalAreaOperationalCapabilities.ToString`, pkg/bds/bds65/fields/terminal_area_operational_capabilities.go:46-60. -/
def bds65TerminalAreaOperationalCapabilities : UInt8 → Txt := tableText [
  (0, dec 0 ++ t! " - reserved"),
  (1, dec 1 ++ t! " - reserved"),
  (2, dec 2 ++ t! " - reserved"),
  (3, dec 3 ++ t! " - reserved"),
  (4, dec 4 ++ t! " - reserved"),
  (5, dec 5 ++ t! " - reserved"),
  (6, dec 6 ++ t! " - reserved"),
  (7, dec 7 ++ t! " - reserved"),
  (8, dec 8 ++ t! " - reserved"),
  (9, dec 9 ++ t! " - reserved"),
  (10, dec 10 ++ t! " - reserved"),
  (11, dec 11 ++ t! " - reserved"),
  (12, dec 12 ++ t! " - reserved"),
  (13, dec 13 ++ t! " - reserved"),
  (14, dec 14 ++ t! " - reserved"),
  (15, dec 15 ++ t! " - reserved")] (t! " - Unknown code")

/-- `TerminalAreaOperationalCapabilityStatus.ToString`, pkg/bds/bds65/fields/terminal_area_operational_capability_status.go:46-60. -/
def bds65TerminalAreaOperationalCapabilityStatus : UInt8 → Txt := tableText [
  (0, dec 0 ++ t! " - reserved"),
  (1, dec 1 ++ t! " - reserved"),
  (2, dec 2 ++ t! " - reserved"),
  (3, dec 3 ++ t! " - reserved"),
  (4, dec 4 ++ t! " - reserved"),
  (5, dec 5 ++ t! " - reserved"),
  (6, dec 6 ++ t! " - reserved"),
  (7, dec 7 ++ t! " - reserved"),
  (8, dec 8 ++ t! " - reserved"),
  (9, dec 9 ++ t! " - reserved"),
  (10, dec 10 ++ t! " - reserved"),
  (11, dec 11 ++ t! " - reserved"),
  (12, dec 12 ++ t! " - reserved"),
  (13, dec 13 ++ t! " - reserved"),
  (14, dec 14 ++ t! " - reserved"),
  (15, dec 15 ++ t! " - reserved")] (t! " - Unknown code")

/-- `TrackAngleHeading.ToString`, pkg/bds/bds65/fields/track_angle_heading.go:18-28. -/
def bds65TrackAngleHeading : UInt8 → Txt := tableText [
  (0, t! "0 - Target heading angle is being reported"),
  (1, t! "1 - Track angle is being reported")] (t! " - Unknown code")

/-- `UniversalAccessTransceiverCapability.ToString`, pkg/bds/bds65/fields/universal_access_transceiver_capability.go:18-28. -/
def bds65UniversalAccessTransceiverCapability : UInt8 → Txt := tableText [
  (0, t! "0 - Aircraft has No UAT Receive capability"),
  (1, t! "1 - Aircraft has UAT Receive capability")] (t! " - Unknown code")

/-- `AltitudeReportMethod.ToString`, pkg/modes/fields/altitude_code.go:107-120. -/
def modesAltitudeReportMethod : UInt8 → Txt := tableText [
  (1, t! "1 - Not Available"),
  (2, t! "2 - Metric Units"),
  (3, t! "3 - 100 Foot Increments"),
  (4, t! "4 - 25 Foot Increments")] (t! " - Unknown code")

/-- `ApplicationField.ToString`, pkg/modes/fields/application_field.go:45-66. -/
def modesApplicationField : UInt8 → Txt := tableText [
  (0, t! "0 - Reserved"),
  (1, t! "1 - Reserved"),
  (2, t! "2 - Reserved"),
  (3, t! "3 - Reserved"),
  (4, t! "4 - Reserved"),
  (5, t! "5 - Reserved"),
  (6, t! "6 - Reserved"),
  (7, t! "7 - Reserved")] (t! " - Unknown code")

/-- `Capability.ToString`, pkg/modes/fields/capability.go:49-70. -/
def modesCapability : UInt8 → Txt := tableText [
  (0, t! "0 - Level 1 Transponder (surveillance only)"),
  (1, t! "1 - Reserved"),
  (2, t! "2 - Reserved"),
  (3, t! "3 - Reserved"),
  (4, t! "4 - Level 2 On The Ground"),
  (5, t! "5 - Level 2 Airborne"),
  (6, t! "6 - Level 2 On The Ground or Airborne"),
  (7, t! "7 - Flight Status (FS) with alert or downlink request (DR)")] (t! " - Unknown code")

/-- `ControlELM.ToString`, pkg/modes/fields/control_elm.go:35-44. -/
def modesControlELM : UInt8 → Txt := tableText [
  (0, t! "0 - Downlink ELM Transmission"),
  (1, t! "1 - Uplink ELM Acknowledgement")] (t! " - Unknown code")

/-- `ControlField.ToString`, pkg/modes/fields/control_field.go:45-66. -/
def modesControlField : UInt8 → Txt := tableText [
  (0, t! "0 - ADSB (ADS-B ES/NT devices that report the ICAO 24-bit address in the AA field)"),
  (1, t! "1 - ADSB Reserved (reserved for ADS-B for ES/NT devices that use other addressing techniques in the AA field)"),
  (2, t! "2 - TISB Fine Format"),
  (3, t! "3 - TISB Coarse Format"),
  (4, t! "4 - TISB Reserved Management"),
  (5, t! "5 - TISB Relay ADSB"),
  (6, t! "6 - ADSB Rebroadcast (ADS-B rebroadcast using the same type codes and message formats as defined for DF = 17 ADS-B messages)"),
  (7, t! "7 - Reserved")] (t! " - Unknown code")

/-- `CrossLinkCompatibility.ToString`, pkg/modes/fields/cross_link_compatibility.go:37-46. -/
def modesCrossLinkCompatibility : UInt8 → Txt := tableText [
  (0, t! "0 - Not Supported"),
  (1, t! "1 - Supported")] (t! " - Unknown code")

/-- `DownlinkRequest.ToString`, pkg/modes/fields/downlink_request.go:93-162. -/
def modesDownlinkRequest : UInt8 → Txt := tableText [
  (0, t! "0 - No Downlink Request"),
  (1, t! "1 - Request To Send Comm-B Message"),
  (2, t! "2 - ACAS message available"),
  (3, t! "3 - Comm-B message available and ACAS message available"),
  (4, t! "4 - Comm-B Message 1 Available"),
  (5, t! "5 - Comm-B Message 2 Available"),
  (6, t! "6 - Comm-B broadcast message 1 available and ACAS message available"),
  (7, t! "7 - Comm-B broadcast message 2 available and ACAS message available"),
  (8, t! "8 - Not Assigned"),
  (9, t! "9 - Not Assigned"),
  (10, t! "10 - Not Assigned"),
  (11, t! "11 - Not Assigned"),
  (12, t! "12 - Not Assigned"),
  (13, t! "13 - Not Assigned"),
  (14, t! "14 - Not Assigned"),
  (15, t! "15 - Not Assigned"),
  (16, t! "16 - ELM Available 1 Segments"),
  (17, t! "17 - ELM Available 2 Segments"),
  (18, t! "18 - ELM Available 3 Segments"),
  (19, t! "19 - ELM Available 4 Segments"),
  (20, t! "20 - ELM Available 5 Segments"),
  (21, t! "21 - ELM Available 6 Segments"),
  (22, t! "22 - ELM Available 7 Segments"),
  (23, t! "23 - ELM Available 8 Segments"),
  (24, t! "24 - ELM Available 9 Segments"),
  (25, t! "25 - ELM Available 10 Segment"),
  (26, t! "26 - ELM Available 11 Segments"),
  (27, t! "27 - ELM Available 12 Segments"),
  (28, t! "28 - ELM Available 13 Segments"),
  (29, t! "29 - ELM Available 14 Segments"),
  (30, t! "30 - ELM Available 15 Segments"),
  (31, t! "31 - ELM Available 16 Segments")] (t! " - Unknown code")

/-- `FlightStatus.ToString`, pkg/modes/fields/flight_status.go:45-66. -/
def modesFlightStatus : UInt8 → Txt := tableText [
  (0, t! "0 - No Alert, No SPI, Airborne"),
  (1, t! "1 - No Alert, No SPI, On The Ground"),
  (2, t! "2 - Alert, No SPI, Airborne"),
  (3, t! "3 - Alert, No SPI, On The Ground"),
  (4, t! "4 - Alert, SPI, Airborne"),
  (5, t! "5 - Alert, SPI, On The Ground"),
  (6, t! "6 - Reserved"),
  (7, t! "7 - Reserved")] (t! " - Unknown code")

/-- `ReplyInformationAirAir.ToString`, pkg/modes/fields/reply_information_air_air.go:72-109. -/
def modesReplyInformationAirAir : UInt8 → Txt := tableText [
  (0, t! "0 - No Operating ACAS"),
  (1, t! "1 - Reserved ACAS"),
  (2, t! "2 - ACAS with resolution capability inhibited"),
  (3, t! "3 - ACAS with vertical-only resolution capability"),
  (4, t! "4 - ACAS with vertical and horizontal resolution capability"),
  (5, t! "5 - Reserved ACAS"),
  (6, t! "6 - Reserved ACAS"),
  (7, t! "7 - Reserved ACAS"),
  (8, t! "8 - Maximum Air Speed Not Available"),
  (9, t! "9 - Maximum Air Speed 0 To 140 km/h (75 kt)"),
  (10, t! "10 - Maximum AirSpeed 140 To 280 km/h (75 and 150 kt)"),
  (11, t! "11 - Maximum AirSpeed 280 To 560 km/h (150 and 300 kt)"),
  (12, t! "12 - Maximum AirSpeed 560 To 1110 km/h (300 and 600 kt)"),
  (13, t! "13 - Maximum AirSpeed 1110 To 2220 km/h (600 and 1 200 kt)"),
  (14, t! "14 - Maximum Air Speed Over 2220 km/h (1 200 kt)"),
  (15, t! "15 - Not Assigned")] (t! " - Unknown code")

/-- `SensitivityLevelReport.ToString`, pkg/modes/fields/sensitivity_level_report.go:49-70. -/
def modesSensitivityLevelReport : UInt8 → Txt := tableText [
  (0, t! "0 - ACAS Inoperative"),
  (1, t! "1 - Level 1"),
  (2, t! "2 - Level 2"),
  (3, t! "3 - Level 3"),
  (4, t! "4 - Level 4"),
  (5, t! "5 - Level 5"),
  (6, t! "6 - Level 6"),
  (7, t! "7 - Level 7")] (t! " - Unknown code")

/-- `UtilityMessageIdentifierDesignator.ToString`, pkg/modes/fields/utility_message.go:55-68. -/
def modesUtilityMessageIdentifierDesignator : UInt8 → Txt := tableText [
  (0, t! "0 - No Information"),
  (1, t! "1 - Designator Comm-B"),
  (2, t! "2 - Designator Comm-C"),
  (3, t! "3 - Designator Comm-D")] (t! " - Unknown code")

/-- `VerticalStatus.ToString`, pkg/modes/fields/vertical_status.go:35-44. -/
def modesVerticalStatus : UInt8 → Txt := tableText [
  (0, t! "0 - Airborne"),
  (1, t! "1 - On The Ground")] (t! " - Unknown code")

end Text
end Modes
