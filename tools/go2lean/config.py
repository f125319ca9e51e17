"""How the types of the Go code appear in the model (lean/Verif/Model). Everything else is derived from the text of the code."""
M = 'pkg/modes/'; B = 'pkg/bds/'; A = 'pkg/adsb/'; R = 'pkg/acas/ra'

# Go enumerations that are inductive types of the model: Lean type, constants by value
NVS = ('NumericValueStatus', {0: '.noInformation', 1: '.regular', 2: '.maximum'})
ENUMS = {
    (B + 'bds09/fields', 'NumericValueStatus'): NVS,
    (B + 'bds62/fields', 'NumericValueStatus'): NVS,
    (M + 'fields', 'AltitudeReportMethod'): ('AltitudeReportMethod', {1: '.notAvailable', 2: '.metricUnits', 3: '.feet100', 4: '.feet25'}),
}

# Go types based on int whose values come from a byte: the number type used by the model
ALIAS = {(M + 'fields', n): 'u8' for n in ('SensitivityLevelReport ControlField ReplyInformationAirAir ControlELM DownlinkRequest ApplicationField Capability '
         'UtilityMessageIdentifierDesignator VerticalStatus FlightStatus CrossLinkCompatibility').split()}
ALIAS |= {(R + '/fields', n): 'nat' for n in 'RATerminatedIndicator ActiveRAPreventiveCorrective ActiveRASense ActiveRAVerticalSpeedLimitOrPositive ThreatTypeIndicator RAType'.split()}
ALIAS |= {(B + 'bds06/fields', 'MovementStatus'): 'nat', (B + 'bds05/fields', 'AltitudeSource'): 'nat', (B + 'bds05/fields', 'AltitudeReportMethod'): 'nat'}

STRUCTS = {
    (M + 'common', 'MessageData'): 'MessageData', (M + 'fields', 'UtilityMessage'): 'UtilityMessage',
    (B + 'bds65/fields', 'GPSAntenna'): '(UInt8 × UInt8)', (R + '/fields', 'ActiveRAOneThreatOrSameSeparation'): 'OneThreat', (R + '/fields', 'ActiveRAMultipleThreatsDifferentSeparation'): 'MultipleThreats',
    (R + '/fields', 'RAComplement'): 'RAComplement', (R + '/fields', 'ThreatIdentityAltitude'): 'ThreatAltitude', (R, 'ResolutionAdvisory'): 'ResolutionAdvisory',
    (B + 'bds00', 'NoMessageAvailable'): 'NoMessageAvailable', (B + 'bds05', 'AirbornePosition'): 'AirbornePosition', (B + 'bds06', 'SurfacePosition'): 'SurfacePosition',
    (B + 'bds07', 'Status'): 'Status07', (B + 'bds08', 'AircraftIdentificationAndCategory'): 'IdentificationAndCategory', (B + 'bds20', 'AircraftIdentification'): 'AircraftIdentification',
    (B + 'bds09', 'AirborneVelocityGroundSpeedNormal'): 'GroundSpeedVelocity', (B + 'bds09', 'AirborneVelocityGroundSpeedSupersonic'): 'GroundSpeedVelocity',
    (B + 'bds09', 'AirborneVelocityAirSpeedNormal'): 'AirSpeedVelocity', (B + 'bds09', 'AirborneVelocityAirSpeedSupersonic'): 'AirSpeedVelocity',
    (B + 'bds10', 'DataLinkCapabilityReport'): 'DataLinkCapabilityReport', (B + 'bds17', 'CommonUsageGICBCapabilityReport'): 'GICBCapabilityReport',
    (B + 'bds30', 'ACASResolutionAdvisory'): 'ACASResolutionAdvisory', (B + 'bds40', 'SelectedVerticalIntention'): 'SelectedVerticalIntention',
    (B + 'bds44', 'MeteorologicalRoutineAirReportV0'): 'RoutineAirReportV0', (B + 'bds44', 'MeteorologicalRoutineAirReportV1'): 'RoutineAirReportV1', (B + 'bds44', 'MeteorologicalRoutineAirReportV2'): 'RoutineAirReportV2',
    (B + 'bds45', 'MeteorologicalHazardReportV0'): 'HazardReportV0', (B + 'bds45', 'MeteorologicalHazardReportV1'): 'HazardReportV1',
    (B + 'bds50', 'TrackAndTurnReport'): 'TrackAndTurnReport', (B + 'bds60', 'HeadingAndTrackReport'): 'HeadingAndTrackReport',
    (B + 'bds61', 'AircraftStatusNoInformation'): 'StatusNoInformation', (B + 'bds61', 'AircraftStatusEmergency'): 'StatusEmergency', (B + 'bds61', 'AircraftStatusACAS'): 'StatusACAS',
    (B + 'bds62', 'TargetStateAndStatus0'): 'TargetStateAndStatus0', (B + 'bds62', 'TargetStateAndStatus1'): 'TargetStateAndStatus1',
    (B + 'bds65', 'AircraftOperationalStatusADSB0'): 'OpStatusV0', (B + 'bds65', 'AircraftOperationalStatusAirborneADSB1'): 'OpStatusAirborneV1',
    (B + 'bds65', 'AircraftOperationalStatusAirborneADSB2'): 'OpStatusAirborneV2', (B + 'bds65', 'AircraftOperationalStatusSurfaceADSB1'): 'OpStatusSurfaceV1',
    (B + 'bds65', 'AircraftOperationalStatusSurfaceADSB2'): 'OpStatusSurfaceV2',
}
STRUCTS |= {(M + 'messages', f'MessageDF{n}'): f'MessageDF{n}' for n in (0, 4, 5, 11, 16, 17, 18, 19, 20, 21, 24)}
STRUCTS |= {(B + 'bds65/fields', n): n for n in 'AirborneCapabilityClassV1 AirborneCapabilityClassV2 SurfaceCapabilityClassV1 SurfaceCapabilityClassV2 OperationalMode AirborneOperationalMode SurfaceOperationalMode'.split()}

# structures that are constructors of an inductive type of the model: type, constructor, order of the fields
CTORS = {
    (A + 'no_position_information', 'NoPositionInformation'): ('ADSBMessage', '.noPosition', ['adsbVersion', 'FormatTypeCode', 'AltitudeBarometric', 'NavigationIntegrityCategory']),
    (A + 'airborne_position', 'AirbornePositionType0'): ('ADSBMessage', '.airborneType0', ['AirbornePosition', 'NavigationIntegrityCategory', 'adsbVersion']),
    (A + 'airborne_position', 'AirbornePositionV0'): ('ADSBMessage', '.airborneV0', ['AirbornePosition', 'HorizontalProtectionLimit', 'ContainmentRadius']),
    (A + 'airborne_position', 'AirbornePositionV1'): ('ADSBMessage', '.airborneV1', ['AirbornePosition', 'NavigationIntegrityCodeSupplementA', 'HorizontalContainmentRadius', 'NavigationIntegrityCategory']),
    (A + 'airborne_position', 'AirbornePositionV2'): ('ADSBMessage', '.airborneV2', ['AirbornePosition', 'NavigationIntegrityCodeSupplementA', 'NavigationIntegrityCodeSupplementB', 'HorizontalContainmentRadius', 'NavigationIntegrityCategory']),
    (A + 'surface_position', 'SurfacePositionV0'): ('ADSBMessage', '.surfaceV0', ['SurfacePosition', 'HorizontalProtectionLimit', 'ContainmentRadius']),
    (A + 'surface_position', 'SurfacePositionV1'): ('ADSBMessage', '.surfaceV1', ['SurfacePosition', 'nicSupplementA', 'HorizontalContainmentRadius', 'NavigationIntegrityCategory']),
    (A + 'surface_position', 'SurfacePositionV2'): ('ADSBMessage', '.surfaceV2', ['SurfacePosition', 'nicSupplementA', 'nicSupplementC', 'HorizontalContainmentRadius', 'NavigationIntegrityCategory']),
    (A + 'airborne_velocity', 'AirborneVelocity'): ('ADSBMessage', '.velocity', ['AirborneVelocity', 'adsbVersion']),
    (A + 'aircraft_identification_and_category', 'AircraftIdentificationAndCategory'): ('ADSBMessage', '.identification', ['AircraftIdentificationAndCategory', 'adsbVersion']),
    (A + 'aircraft_status', 'AircraftStatus'): ('ADSBMessage', '.status', ['AircraftStatus', 'adsbVersion']),
    (A + 'target_state_and_status', 'TargetStateAndStatus'): ('ADSBMessage', '.targetState', ['TargetStateAndStatus', 'adsbVersion']),
    (A + 'aircraft_operational_status', 'AircraftOperationalStatus'): ('ADSBMessage', '.operationalStatus', ['AircraftOperationalStatus', 'adsbVersion']),
    (R + '/fields', 'ActiveRANoVerticalRAGenerated'): ('ActiveRA', '.none', []),
}

# interfaces that are inductive types of the model: Lean type, constructor of each implementation
INTERFACES = {
    (R + '/fields', 'ActiveResolutionAdvisory'): ('ActiveRA', {(R + '/fields', 'ActiveRAOneThreatOrSameSeparation'): '.oneThreat', (R + '/fields', 'ActiveRAMultipleThreatsDifferentSeparation'): '.multiple'}),
    (B + 'bds08/fields', 'AircraftCategory'): ('AircraftCategory', {(B + 'bds08/fields', f'AircraftCategorySet{x}'): f'.set{x}' for x in 'ABCD'}),
    (B + 'bds09', 'AirborneVelocity'): ('AirborneVelocity', {(B + 'bds09', 'AirborneVelocity' + n): c for n, c in
        [('GroundSpeedNormal', '.groundSpeedNormal'), ('GroundSpeedSupersonic', '.groundSpeedSupersonic'), ('AirSpeedNormal', '.airSpeedNormal'), ('AirSpeedSupersonic', '.airSpeedSupersonic')]}),
    (B + 'bds61', 'AircraftStatus'): ('AircraftStatus', {(B + 'bds61', 'AircraftStatusNoInformation'): '.noInformation', (B + 'bds61', 'AircraftStatusEmergency'): '.emergency', (B + 'bds61', 'AircraftStatusACAS'): '.acas'}),
    (B + 'bds62', 'TargetStateAndStatus'): ('TargetStateAndStatus', {(B + 'bds62', 'TargetStateAndStatus0'): '.type0', (B + 'bds62', 'TargetStateAndStatus1'): '.type1'}),
    (B + 'bds65', 'AircraftOperationalStatus'): ('OperationalStatus', {(B + 'bds65', 'AircraftOperationalStatus' + n): c for n, c in
        [('ADSB0', '.v0'), ('AirborneADSB1', '.airborneV1'), ('AirborneADSB2', '.airborneV2'), ('SurfaceADSB1', '.surfaceV1'), ('SurfaceADSB2', '.surfaceV2')]}),
    (B + 'bds44', 'MeteorologicalRoutineAirReport'): ('RoutineAirReport', {(B + 'bds44', f'MeteorologicalRoutineAirReportV{n}'): f'.v{n}' for n in (0, 1, 2)}),
    (B + 'bds45', 'MeteorologicalHazardReport'): ('HazardReport', {(B + 'bds45', f'MeteorologicalHazardReportV{n}'): f'.v{n}' for n in (0, 1)}),
    ('pkg/adsb', 'Message'): ('ADSBMessage', {}),
    ('pkg/bds', 'Message'): ('CommBMessage', {(B + 'bds00', 'NoMessageAvailable'): '.bds00', (B + 'bds07', 'Status'): '.bds07', (B + 'bds20', 'AircraftIdentification'): '.bds20',
        (B + 'bds10', 'DataLinkCapabilityReport'): '.bds10', (B + 'bds17', 'CommonUsageGICBCapabilityReport'): '.bds17', (B + 'bds30', 'ACASResolutionAdvisory'): '.bds30',
        (B + 'bds40', 'SelectedVerticalIntention'): '.bds40', (B + 'bds44', 'MeteorologicalRoutineAirReport'): '.bds44', (B + 'bds45', 'MeteorologicalHazardReport'): '.bds45',
        (B + 'bds50', 'TrackAndTurnReport'): '.bds50', (B + 'bds60', 'HeadingAndTrackReport'): '.bds60'}),
    (M + 'messages', 'ModeSMessage'): ('ModeSMessage', {(M + 'messages', f'MessageDF{n}'): f'.df{n}' for n in (0, 4, 5, 11, 16, 17, 18, 19, 20, 21, 24)}),
}
# interface values that may hold a nil pointer: the functions returning them are translated to `Call`
RENAMES = {(f'MessageDF{n}', 'MessageData'): 'data' for n in (0, 4, 5, 11, 16, 17, 18, 19, 20, 21, 24)}
RENAMES |= {('ThreatAltitude', 'AltitudeStatus'): 'status', ('ThreatAltitude', 'AltitudeInFeet'): 'feet',
    ('GroundSpeedVelocity', 'DifferenceAltitudeGNSSBaroStatus'): 'heightDifferenceStatus', ('GroundSpeedVelocity', 'DifferenceAltitudeGNSSBaro'): 'heightDifference',
    ('AirSpeedVelocity', 'HeightDifferenceFromBaroStatus'): 'heightDifferenceStatus', ('AirSpeedVelocity', 'HeightDifferenceFromBaro'): 'heightDifference',
    ('AirSpeedVelocity', 'DifferenceAltitudeGNSSBaroStatus'): 'heightDifferenceStatus', ('AirSpeedVelocity', 'DifferenceAltitudeGNSSBaro'): 'heightDifference',
    ('AirborneCapabilityClassV2', 'UniversalAccessTransceiverCapability'): 'uatCapability', ('SurfaceCapabilityClassV2', 'UniversalAccessTransceiverCapability'): 'uatCapability'}
RENAMES |= {(n, 'ACASResolutionAdvisoryActive'): 'acasRAActive' for n in ('OperationalMode', 'AirborneOperationalMode', 'SurfaceOperationalMode')}
# structures with one field that the model replaces by the field: field, Lean type, type
WRAP = {(M + 'fields', 'Identity'): ('Identity', 'List Char', 'chars'), (M + 'fields', 'AddressAnnounced'): ('Address', 'UInt32', 'u32')}
# a structure that the model replaces by its fields inside another one
FLATTEN = {('SurfaceOperationalMode', 'GPSAntenna'): ['gpsAntennaLateral', 'gpsAntennaLongitudinal'],
           ('TargetStateAndStatus1', 'SelectedHeading'): ['selectedHeading', 'selectedHeadingMinus']}
# the functions whose float32 are written with the sign of a zero
SIGNED = {('pkg/bds/bds62/fields', 'ReadSelectedHeading')}
# fields of the model that are not fields of the code: the sign of a zero
FILL = {}
SKIP = {}
