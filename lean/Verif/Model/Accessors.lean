import Verif.Model.TextRegisters
import Verif.Model.CommB
import Verif.Model.ADSB
/-!
# The methods through which a program asks a message what it is

`GetRegister`, `GetSubtype`, `GetTurbulenceStatus` and `GetCategorySetName`. `Register.GetId` and
`Register.GetDescription` (pkg/bds/register/register_reference.go:16-23) are the fields `Register.id` and `Register.description`;
`GetADSBVersion`, `GetADSBLevel` and `GetSource` are modelled in `Model.ADSB`, `Model.BDS65` and `Model.BDS44`.
-/
namespace Modes

/-- `GetRegister` of the messages the Comm-B reader returns: bds00/no_message_available.go:18-20, bds07/status.go:20-22,
bds10/data_link_capability_report.go:34-36, bds17/common_usage_gicb_capability_report.go:38-40,
bds20/aircraft_identification.go:20-22, bds30/acas_resolution_advisory.go:18-20, bds40/selected_vertical_intention.go:30-32,
bds44/meteorological_routine_air_report_v{0:30-32,1:29-31,2:31-33}.go, bds45/meteorological_hazard_report_v{0:33-35,1:35-37}.go,
bds50/track_and_turn_report.go:28-30, bds60/heading_and_speed_report.go:27-29. -/
def CommBMessage.getRegister : CommBMessage → Register
  | .bds00 _ => Register.bds00
  | .bds07 _ => Register.bds07
  | .bds20 _ => Register.bds20
  | .bds10 _ => Register.bds10
  | .bds17 _ => Register.bds17
  | .bds30 _ => Register.bds30
  | .bds40 _ => Register.bds40
  | .bds44 (.v0 _) => Register.bds44
  | .bds44 (.v1 _) => Register.bds44
  | .bds44 (.v2 _) => Register.bds44
  | .bds45 (.v0 _) => Register.bds45
  | .bds45 (.v1 _) => Register.bds45
  | .bds50 _ => Register.bds50
  | .bds60 _ => Register.bds60

/-- `GetRegister` of the ADS-B messages, promoted from the register they embed: bds05/airborne_position.go:24-26,
bds06/surface_position.go:23-25, bds08/aircraft_identification_and_category.go:21-23,
bds09/airborne_velocity_{air_speed_normal:33-35,air_speed_supersonic:33-35,ground_speed_normal:37-39,ground_speed_supersonic:37-39}.go,
bds61/aircraft_status_{acas,emergency:24-26,no_information}.go:23-25, bds62/target_state_and_status_type_{0:40-42,1:41-43}.go,
bds65/aircraft_operational_status_{adsb0:28-30,airborne_adsb1:33-35,airborne_adsb2:35-37,surface_adsb1:34-36,surface_adsb2:35-37}.go.
`NoPositionInformation` embeds no register and has no such method: `none`. -/
def ADSBMessage.getRegister : ADSBMessage → Option Register
  | .noPosition .. => none
  | .airborneType0 .. => some Register.bds05
  | .airborneV0 .. => some Register.bds05
  | .airborneV1 .. => some Register.bds05
  | .airborneV2 .. => some Register.bds05
  | .surfaceV0 .. => some Register.bds06
  | .surfaceV1 .. => some Register.bds06
  | .surfaceV2 .. => some Register.bds06
  | .velocity (.groundSpeedNormal _) _ => some Register.bds09
  | .velocity (.groundSpeedSupersonic _) _ => some Register.bds09
  | .velocity (.airSpeedNormal _) _ => some Register.bds09
  | .velocity (.airSpeedSupersonic _) _ => some Register.bds09
  | .identification .. => some Register.bds08
  | .status (.noInformation _) _ => some Register.bds61
  | .status (.emergency _) _ => some Register.bds61
  | .status (.acas _) _ => some Register.bds61
  | .targetState (.type0 _) _ => some Register.bds62
  | .targetState (.type1 _) _ => some Register.bds62
  | .operationalStatus (.v0 _) _ => some Register.bds65
  | .operationalStatus (.airborneV1 _) _ => some Register.bds65
  | .operationalStatus (.airborneV2 _) _ => some Register.bds65
  | .operationalStatus (.surfaceV1 _) _ => some Register.bds65
  | .operationalStatus (.surfaceV2 _) _ => some Register.bds65

/-- `GetSubtype` of a velocity message, pkg/bds/bds09/airborne_velocity_{air_speed_normal:28-30,air_speed_supersonic:28-30,
ground_speed_normal:32-34,ground_speed_supersonic:32-34}.go. -/
def AirborneVelocity.getSubtype : AirborneVelocity → UInt8
  | .groundSpeedNormal m => m.subtype
  | .groundSpeedSupersonic m => m.subtype
  | .airSpeedNormal m => m.subtype
  | .airSpeedSupersonic m => m.subtype

/-- `GetSubtype` of an aircraft status, pkg/bds/bds61/aircraft_status_{acas:18-20,emergency:19-21,no_information:18-20}.go. -/
def AircraftStatus.getSubtype : AircraftStatus → UInt8
  | .noInformation m => m.subtype
  | .emergency m => m.subtype
  | .acas m => m.subtype

/-- `GetSubtype` of a target state, pkg/bds/bds62/target_state_and_status_type_{0:35-37,1:36-38}.go. -/
def TargetStateAndStatus.getSubtype : TargetStateAndStatus → UInt8
  | .type0 m => m.subtype
  | .type1 m => m.subtype

/-- `GetTurbulenceStatus` of a hazard report, pkg/bds/bds45/meteorological_hazard_report_v{0:37-39,1:39-41}.go. -/
def HazardReport.getTurbulenceStatus : HazardReport → Bool
  | .v0 m => m.turbulenceStatus
  | .v1 m => m.turbulenceStatus

/-- `GetCategorySetName`, pkg/bds/bds08/fields/aircraft_category_set_{a:30-32,b:30-32,c:33-35,d:33-35}.go. -/
def AircraftCategory.setName : AircraftCategory → Txt
  | .setA _ => t! "Set A"
  | .setB _ => t! "Set B"
  | .setC _ => t! "Set C"
  | .setD _ => t! "Set D (Reserved)"

end Modes
