{
 "claims": [
  {
   "property": "C01",
   "status": "proved",
   "theorems": [
    "Modes.readMessage_noPanic",
    "Modes.code_readMessage_noPanic"
   ],
   "note": "for every byte list; the model panics explicitly on out-of-range indexing and slicing"
  },
  {
   "property": "C02",
   "status": "proved",
   "theorems": [
    "Modes.readMessage_accepts_iff",
    "Modes.code_readMessage_accepts_iff"
   ],
   "note": ""
  },
  {
   "property": "C03",
   "status": "proved",
   "theorems": [
    "Modes.readMessage_type",
    "Modes.code_readMessage_type"
   ],
   "note": ""
  },
  {
   "property": "C04",
   "status": "proved",
   "theorems": [
    "Modes.df0_fields",
    "Modes.df4_fields",
    "Modes.df5_fields",
    "Modes.df11_fields",
    "Modes.code_df0_fields",
    "Modes.code_df4_fields",
    "Modes.code_df5_fields",
    "Modes.code_df11_fields"
   ],
   "note": ""
  },
  {
   "property": "C05",
   "status": "proved",
   "theorems": [
    "Modes.df16_fields",
    "Modes.df17_fields",
    "Modes.df18_fields",
    "Modes.df19_fields",
    "Modes.df20_fields",
    "Modes.df21_fields",
    "Modes.df24_fields",
    "Modes.code_df16_fields",
    "Modes.code_df17_fields",
    "Modes.code_df18_fields",
    "Modes.code_df19_fields",
    "Modes.code_df20_fields",
    "Modes.code_df21_fields",
    "Modes.code_df24_fields"
   ],
   "note": ""
  },
  {
   "property": "C06",
   "status": "proved",
   "theorems": [
    "Modes.roundtrip_df11",
    "Modes.roundtrip_df17",
    "Modes.roundtrip_df4",
    "Modes.roundtrip_df4_altitude25",
    "Modes.roundtrip_df5"
   ],
   "note": ""
  },
  {
   "property": "C07",
   "status": "proved",
   "theorems": [
    "Modes.altitude25_bijection",
    "Modes.readAltitude_ok_iff",
    "Modes.encode25_unique"
   ],
   "note": ""
  },
  {
   "property": "C08",
   "status": "proved",
   "theorems": [
    "Modes.gillham_decodes",
    "Modes.gillham_rejects_iff",
    "Modes.gillham_sound",
    "Modes.gillham_injective",
    "Modes.altitude100_complete"
   ],
   "note": ""
  },
  {
   "property": "C09",
   "status": "proved",
   "theorems": [
    "Modes.modeC_distance",
    "Modes.gillham_mixed"
   ],
   "note": ""
  },
  {
   "property": "C10",
   "status": "proved",
   "theorems": [
    "Modes.readAltitude_ok_iff",
    "Modes.readAltitude_err_iff",
    "Modes.frame_altitude",
    "Modes.frame_altitude_formats"
   ],
   "note": ""
  },
  {
   "property": "C11",
   "status": "proved",
   "theorems": [
    "Modes.frame_identity",
    "Modes.frame_identity_injective",
    "Modes.frame_identity_special",
    "Modes.squawk_squawkCode",
    "Modes.roundtrip_df5"
   ],
   "note": ""
  },
  {
   "property": "C12",
   "status": "proved",
   "theorems": [
    "Modes.readMessage_isolation",
    "Modes.heap_write"
   ],
   "note": "explicit heap of arrays, any history of writes to the array of the frame"
  },
  {
   "property": "C13",
   "status": "proved",
   "theorems": [
    "Modes.computeParity_is_crc",
    "Modes.code_computeParity_is_crc"
   ],
   "note": ""
  },
  {
   "property": "C14",
   "status": "proved",
   "theorems": [
    "Modes.checkCRC_squitter",
    "Modes.code_checkCRC_squitter"
   ],
   "note": ""
  },
  {
   "property": "C15",
   "status": "proved",
   "theorems": [
    "Modes.squitter_corruption_detected",
    "Modes.squitter_distance"
   ],
   "note": ""
  },
  {
   "property": "C16",
   "status": "proved",
   "theorems": [
    "Modes.checkCRC_recovers",
    "Modes.checkCRC_overlaid",
    "Modes.checkCRC_df11",
    "Modes.overlaid_exists",
    "Modes.code_checkCRC_recovers",
    "Modes.code_checkCRC_overlaid",
    "Modes.code_checkCRC_df11"
   ],
   "note": ""
  },
  {
   "property": "C17",
   "status": "proved",
   "theorems": [
    "Modes.checkCRC_overlaid",
    "Modes.checkCRC_df11"
   ],
   "note": ""
  },
  {
   "property": "C18",
   "status": "proved",
   "theorems": [
    "Modes.checkCRC_noPanic",
    "Modes.code_checkCRC_noPanic"
   ],
   "note": ""
  },
  {
   "property": "C19",
   "status": "proved",
   "theorems": [
    "Modes.computeParity_linear"
   ],
   "note": ""
  },
  {
   "property": "C20",
   "status": "partial",
   "theorems": [
    "Modes.ra_noPanic",
    "Modes.ra_accepts",
    "Modes.ra_fails_iff_partial",
    "Modes.threat_altitude_refuted",
    "Modes.ra_refused_iff"
   ],
   "note": "no panic is proved for all inputs; the exact error condition is false of the code (threat_altitude_refuted: a legal altitude code is rejected, because C1 A1 are packed over B2 D2, threat_identity_altitude.go:40) and proved when C1 = A1 = 0; ra_refused_iff gives the exact condition the code uses, for every six bytes"
  },
  {
   "property": "C21",
   "status": "proved",
   "theorems": [
    "Modes.ra_content"
   ],
   "note": ""
  },
  {
   "property": "C22",
   "status": "proved",
   "theorems": [
    "Modes.ra_threat_identity"
   ],
   "note": ""
  },
  {
   "property": "C23",
   "status": "partial",
   "theorems": [
    "Modes.threat_altitude_partial",
    "Modes.threat_altitude_exact",
    "Modes.threat_altitude_refuted",
    "Modes.threat_range_partial",
    "Modes.threat_range_refuted"
   ],
   "note": "false of the code: altitude when C1 or A1 is set (threat_identity_altitude.go:40, <<2 for <<10), range when bit 42 is set (threat_identity_range.go:42, mask 0xA0 for 0xC0); proved outside these cases, bearing always"
  },
  {
   "property": "C24",
   "status": "proved",
   "theorems": [
    "Modes.adsb_noPanic",
    "Modes.code_adsb_accepts"
   ],
   "note": ""
  },
  {
   "property": "C25",
   "status": "proved",
   "theorems": [
    "Modes.adsb_accepts",
    "Modes.adsb_dispatch",
    "Modes.adsb_unsupported",
    "Modes.code_adsb_result"
   ],
   "note": ""
  },
  {
   "property": "C26",
   "status": "partial",
   "theorems": [
    "Modes.adsb_version_partial",
    "Modes.adsb_version_refuted"
   ],
   "note": "false of the code for version 2 surface operational status messages, reported as version 1 (adsb_version_refuted); proved for everything else"
  },
  {
   "property": "C27",
   "status": "partial",
   "theorems": [
    "Modes.readMessage_nil_on_error",
    "Modes.adsb_nil_on_error_partial",
    "Modes.adsb_nil_refuted"
   ],
   "note": "holds for ReadMessage; false of ReadADSBMessage: a reader's nil pointer is returned as a non-nil interface (adsb_nil_refuted, every failure inside a reader); proved for the failures of ReadADSBMessage itself"
  },
  {
   "property": "C28",
   "status": "proved",
   "theorems": [
    "Modes.airborne_position_content",
    "Modes.airborne_position_accepts",
    "Modes.airborne_altitude_determined"
   ],
   "note": ""
  },
  {
   "property": "C29",
   "status": "partial",
   "theorems": [
    "Modes.altitude_available_partial",
    "Modes.zero_altitude_refuted"
   ],
   "note": "false of the code: an airborne position whose altitude field is all zero is rejected (zero_altitude_refuted, the Gillham decoder refuses C=000); altitude_available_partial: every position with a non-zero legal altitude is read"
  },
  {
   "property": "C30",
   "status": "partial",
   "theorems": [
    "Modes.nic_table_partial",
    "Modes.nic_rows_consistent",
    "Modes.nic_range",
    "Modes.nic_surface_refuted"
   ],
   "note": "false of the code for version 1 surface positions of type code 7 without supplement A (surface_position_v1.go:68); proved for every other row of every version"
  },
  {
   "property": "C31",
   "status": "proved",
   "theorems": [
    "Modes.surface_position_content",
    "Modes.surface_position_accepts",
    "Modes.surface_speed_monotone"
   ],
   "note": ""
  },
  {
   "property": "C32",
   "status": "proved",
   "theorems": [
    "Modes.ground_velocity_content",
    "Modes.velocity_kind",
    "Modes.velocity_accepts"
   ],
   "note": ""
  },
  {
   "property": "C33",
   "status": "proved",
   "theorems": [
    "Modes.airspeed_content",
    "Modes.velocity_kind",
    "Modes.velocity_accepts"
   ],
   "note": ""
  },
  {
   "property": "C34",
   "status": "proved",
   "theorems": [
    "Modes.vertical_content",
    "Modes.vertical_range",
    "Modes.vertical_sign_flip"
   ],
   "note": ""
  },
  {
   "property": "C35",
   "status": "proved",
   "theorems": [
    "Modes.ground_speed",
    "Modes.ground_track",
    "Modes.ground_track_margin",
    "Modes.ground_speed_of_bits",
    "Modes.code_ground_speed",
    "Modes.code_ground_speed_refused"
   ],
   "note": "float64 rounding modelled for the speed; the track is modelled over the reals with Go's signed-zero cases (Atan2, scaling and float32 conversion not rounded), with a margin theorem"
  },
  {
   "property": "C36",
   "status": "proved",
   "theorems": [
    "Modes.callsign_roundtrip_bds08",
    "Modes.callsign_roundtrip_bds20",
    "Modes.callsign_injective",
    "Modes.bds20_coherent_iff",
    "Modes.bds08_coherent_iff"
   ],
   "note": ""
  },
  {
   "property": "C37",
   "status": "proved",
   "theorems": [
    "Modes.emitter_category",
    "Modes.identification_accepts"
   ],
   "note": ""
  },
  {
   "property": "C38",
   "status": "partial",
   "theorems": [
    "Modes.status_accepts_partial",
    "Modes.status_content",
    "Modes.status_reserved_refuted",
    "Modes.status_coherent_iff"
   ],
   "note": "false of the code for the no-information message: bits 17-56 are not checked (status_reserved_refuted; aircraft_status_no_information.go:69-73 tests byte 1 again); everything else proved"
  },
  {
   "property": "C39",
   "status": "partial",
   "theorems": [
    "Modes.target_state_accepts",
    "Modes.target_state_content",
    "Modes.target_heading_partial",
    "Modes.target_heading_refuted",
    "Modes.selected_altitude_type_partial",
    "Modes.selected_altitude_type_refuted",
    "Modes.selected_heading_partial",
    "Modes.selected_heading_refuted"
   ],
   "note": "false of the code for three fields: subtype 0 heading (target_heading_track_angle.go reads byte 2 for byte 4), subtype 1 selected altitude type (bit 8 for bit 9), negative selected heading (sign and magnitude for two's complement); every other field proved"
  },
  {
   "property": "C40",
   "status": "partial",
   "theorems": [
    "Modes.operational_status_accepts",
    "Modes.operational_status_content",
    "Modes.adsb_level_partial",
    "Modes.adsb_level_refuted"
   ],
   "note": "false of the code for version 2 surface messages: GetADSBLevel says 1 (adsb_level_refuted)"
  },
  {
   "property": "C41",
   "status": "proved",
   "theorems": [
    "Modes.operational_status_content",
    "Modes.operational_status_accepts"
   ],
   "note": ""
  },
  {
   "property": "C42",
   "status": "proved",
   "theorems": [
    "Modes.commB_total",
    "Modes.code_commB"
   ],
   "note": ""
  },
  {
   "property": "C43",
   "status": "proved",
   "theorems": [
    "Modes.commB_sound_complete",
    "Modes.code_commB"
   ],
   "note": ""
  },
  {
   "property": "C44",
   "status": "proved",
   "theorems": [
    "Modes.commB_unambiguous",
    "Modes.bds20_excludes",
    "Modes.bds00_accepts"
   ],
   "note": ""
  },
  {
   "property": "C45",
   "status": "proved",
   "theorems": [
    "Modes.commB_callsign"
   ],
   "note": ""
  },
  {
   "property": "C46",
   "status": "proved",
   "theorems": [
    "Modes.bds40_coherent",
    "Modes.bds44V0_coherent",
    "Modes.bds44V1_coherent",
    "Modes.bds44V2_coherent",
    "Modes.bds50_coherent",
    "Modes.bds60_coherent"
   ],
   "note": ""
  },
  {
   "property": "C47",
   "status": "partial",
   "theorems": [
    "Modes.bds40_accepts",
    "Modes.bds40_actual",
    "Modes.bds40_content_partial",
    "Modes.bds40_content_refuted"
   ],
   "note": "false of the code: the MCP/FCU and FMS altitude values are exchanged and the barometric status is read from bit 1 (bds40_content_refuted); bds40_actual is the exact content the code computes, bds40_content_partial the fields for which the documented layout holds"
  },
  {
   "property": "C48",
   "status": "proved",
   "theorems": [
    "Modes.bds50_60_accept",
    "Modes.bds50_content",
    "Modes.bds60_content",
    "Modes.bds50_range",
    "Modes.bds60_range"
   ],
   "note": ""
  },
  {
   "property": "C49",
   "status": "partial",
   "theorems": [
    "Modes.bds44_layout",
    "Modes.bds44_content_partial",
    "Modes.bds44_wind_partial",
    "Modes.bds44_wind_refuted",
    "Modes.bds44_temperature_refuted"
   ],
   "note": "false of the code for the wind speed (bit 6 is dropped) and the temperature of the oldest layout (sign bit); every other field and the layout choice are proved"
  },
  {
   "property": "C50",
   "status": "proved",
   "theorems": [
    "Modes.bds45_layout",
    "Modes.bds45_content",
    "Modes.bds45V0_coherent",
    "Modes.bds45V1_coherent"
   ],
   "note": "the older layout is never the one returned (its readable messages are all readable in the newer one); both layouts' contents are proved"
  },
  {
   "property": "C51",
   "status": "partial",
   "theorems": [
    "Modes.bds10_accepts",
    "Modes.bds10_content_partial",
    "Modes.bds10_surveillance_refuted",
    "Modes.bds10_coherent"
   ],
   "note": "false of the code for the surveillance identifier capability, read from bit 18 instead of bit 35"
  },
  {
   "property": "C52",
   "status": "partial",
   "theorems": [
    "Modes.bds17_accepts",
    "Modes.bds17_content",
    "Modes.bds17_injective_partial",
    "Modes.bds17_injective_refuted"
   ],
   "note": "false of the code: bits 25-28 are neither read nor enforced, so two messages differing there give the same report; proved up to these bits"
  },
  {
   "property": "C53",
   "status": "partial",
   "theorems": [
    "Modes.bds07_accepts",
    "Modes.bds07_reserved_partial",
    "Modes.bds07_reserved_refuted",
    "Modes.bds07_content"
   ],
   "note": "false of the code: reserved bits 7-8 are not checked (mask 0x1C)"
  },
  {
   "property": "C54",
   "status": "proved",
   "theorems": [
    "Modes.Geo.nl_properties",
    "Modes.Geo.nl_spec",
    "Modes.Geo.nl_domain"
   ],
   "note": "exact arithmetic; with rounding: C68"
  },
  {
   "property": "C55",
   "status": "proved",
   "theorems": [
    "Modes.Geo.airborne_global",
    "Modes.Geo.airborne_global_fixed",
    "Modes.Geo.airborne_global_bands"
   ],
   "note": "exact arithmetic (with rounding: C68); the aircraft may move between the messages; messages in different bands give an error"
  },
  {
   "property": "C56",
   "status": "proved",
   "theorems": [
    "Modes.Geo.airborne_local"
   ],
   "note": "exact arithmetic; with rounding: C68"
  },
  {
   "property": "C57",
   "status": "partial",
   "theorems": [
    "Modes.Geo.surface_global_partial",
    "Modes.Geo.surface_nearest",
    "Modes.Geo.surface_noPanic_partial",
    "Modes.Geo.surface_local",
    "Modes.Geo.surface_antimeridian_refuted",
    "Modes.Geo.surface_panic_refuted"
   ],
   "note": "false of the code when the receiver and the aircraft are on different sides of the antimeridian (Geo.surface_antimeridian_refuted), and the decoder panics for receiver longitudes from about ten million degrees (Geo.surface_panic_refuted); everything else is proved, in exact arithmetic; with rounding: C68"
  },
  {
   "property": "C58",
   "status": "partial",
   "theorems": [
    "Modes.Geo.globe_partial",
    "Modes.Geo.globe_refuted"
   ],
   "note": "false of the code: even latitude code 0 with odd code 65536 gives latitude 180 without error; proved: the longitude is always in [-180,180] and the latitude in [-90, 270)"
  },
  {
   "property": "C59",
   "status": "proved",
   "theorems": [
    "Modes.Geo.groundDistance_properties",
    "Modes.Geo.groundDistance_spec",
    "Modes.Geo.groundDistance_eq_zero",
    "Modes.Geo.hav_range"
   ],
   "note": "also the triangle inequality and equality with the great-circle distance; float64 modelled by the real numbers"
  },
  {
   "property": "C60",
   "status": "proved",
   "theorems": [
    "Modes.line_total",
    "Modes.file_total"
   ],
   "note": "the texts of the fields are not modelled here; the operations of the printing functions that could panic are"
  },
  {
   "property": "C61",
   "status": "proved",
   "theorems": [
    "Modes.prefix_lines",
    "Modes.prefix_lines_recover",
    "Modes.text_has_lines",
    "Modes.code_prefix_lines"
   ],
   "note": ""
  },
  {
   "property": "C62",
   "status": "proved",
   "theorems": [
    "Modes.getBearing_spec",
    "Modes.getRange_spec"
   ],
   "note": "float64 rounding modelled"
  },
  {
   "property": "C63",
   "status": "proved",
   "theorems": [
    "Modes.readMessage_parity",
    "Modes.readMessage_parity_eq"
   ],
   "note": ""
  },
  {
   "property": "C64",
   "status": "proved",
   "theorems": [
    "Modes.squitter_distance",
    "Modes.squitter_corruption_detected"
   ],
   "note": ""
  },
  {
   "property": "C65",
   "status": "proved",
   "theorems": [
    "Modes.overlaid_corruption_changes_address"
   ],
   "note": ""
  },
  {
   "property": "C66",
   "status": "partial",
   "theorems": [
    "Modes.adsb_dispatch",
    "Modes.adsb_accepts",
    "Modes.type0_altitude_source"
   ],
   "note": "the altitude, time, format and coordinates are proved (adsb_dispatch, clauses noPosition and airborneType0); the altitude source is false of the code: always GNSS (type0_altitude_source; airborne_position_type_0.go:40 uses type code 22), and the surveillance status and antenna bits are dropped"
  },
  {
   "property": "C67",
   "status": "proved",
   "theorems": [
    "Modes.line_report",
    "Modes.line_notHexadecimal",
    "Modes.report_unique",
    "Modes.hexDecode_iff"
   ],
   "note": ""
  },
  {
   "property": "C68",
   "status": "proved",
   "theorems": [
    "Modes.Geo.airborneGlobal_float",
    "Modes.Geo.nlF_agrees",
    "Modes.Geo.airborne_global_float64",
    "Modes.Geo.airborne_global_bands_float64",
    "Modes.Geo.airborne_local_float64",
    "Modes.Geo.surface_local_float64",
    "Modes.Geo.surfaceGlobal_float",
    "Modes.Geo.surface_global_float64",
    "Modes.Geo.airborneGlobalF_exact",
    "Modes.Geo.airborneLocalF_exact",
    "Modes.Geo.surfaceGlobalF_exact",
    "Modes.Geo.surfaceLocalF_exact",
    "Modes.Geo.getNumberOfLongitudeF_exact"
   ],
   "note": "float64 as rounding of each operation to 53 bits, round half to even, unbounded exponent; no fused multiply-add; the accuracy of math.Cos and math.Acos is a hypothesis (Geo.Accurate, met by Geo.accurate_rounded)"
  },
  {
   "property": "C69",
   "status": "proved",
   "theorems": [
    "Modes.adsb_coherent_iff"
   ],
   "note": ""
  },
  {
   "property": "C70",
   "status": "proved",
   "theorems": [
    "Modes.pack8Bits_digits",
    "Modes.pack16Bits_digits"
   ],
   "note": ""
  },
  {
   "property": "C71",
   "status": "proved",
   "theorems": [
    "Modes.containment_bounds",
    "Modes.hpl_bounds",
    "Modes.containment_disjoint",
    "Modes.containment_covers",
    "Modes.hpl_nested"
   ],
   "note": ""
  },
  {
   "property": "C72",
   "status": "proved",
   "theorems": [
    "Modes.Text.texts_identify"
   ],
   "note": "the tables are written into the model by tools/gen_texts.py from the source; texts that are not a table are outside this property"
  },
  {
   "property": "C73",
   "status": "partial",
   "theorems": [
    "Modes.Text.texts_numbered_partial",
    "Modes.Text.fieldTexts_split",
    "Modes.Text.texts_numbered_refuted"
   ],
   "note": "false of the code for ModeSSubnetworkVersion, SourceIntegrityLevel of register 6,2 and GeometricVerticalAccuracy (Text.texts_numbered_refuted); proved for the 127 others"
  },
  {
   "property": "C74",
   "status": "proved",
   "theorems": [
    "Modes.modeS_text_total",
    "Modes.modeS_text_identifies",
    "Modes.df11_text_frame",
    "Modes.df17_text_frame",
    "Modes.df18_text_frame"
   ],
   "note": "a text is a list of characters; the %v, %X verbs of fmt are modelled as decimal and hexadecimal digits"
  },
  {
   "property": "C75",
   "status": "partial",
   "theorems": [
    "Modes.adsb_text_partial",
    "Modes.adsb_text_refuted"
   ],
   "note": "false of the code: the Mode A code of an emergency message, the sense of a resolution advisory and the subtype of a version 0 operational status are not printed (adsb_text_refuted); proved for everything else that is decoded (Spec.shownADSB is the message with those fields left out); the printing of float32 numbers is a parameter assumed injective"
  },
  {
   "property": "C76",
   "status": "partial",
   "theorems": [
    "Modes.commB_text_partial",
    "Modes.commB_texts_differ",
    "Modes.commB_text_refuted"
   ],
   "note": "false of the code: the continuation flag of BDS 1,0 and the sense of a resolution advisory are not printed (commB_text_refuted); proved for everything else, and that the candidates of one field always have different texts"
  },
  {
   "property": "C77",
   "status": "partial",
   "theorems": [
    "Modes.airborne_text",
    "Modes.type0_text",
    "Modes.surface_text",
    "Modes.velocity_text",
    "Modes.airspeed_text",
    "Modes.identification_text",
    "Modes.status_text",
    "Modes.commB_identification_text",
    "Modes.bds50_text",
    "Modes.bds60_text",
    "Modes.bds40_text_refuted",
    "Modes.bds17_text",
    "Modes.bds44_text_partial",
    "Modes.bds45_text",
    "Modes.bds10_text_partial",
    "Modes.bds10_text_refuted",
    "Modes.target_state_text_partial",
    "Modes.operationalV0_text",
    "Modes.operationalAirborneV1_text",
    "Modes.operationalAirborneV2_text",
    "Modes.operationalSurfaceV1_text_partial",
    "Modes.operationalSurfaceV2_text_partial",
    "Modes.operational_surface_text_refuted"
   ],
   "note": "false of the code for BDS 4,0, where the two altitudes are printed under each other's label (bds40_text_refuted), and for BDS 1,0, where the continuation line shows the overlay bit and the surveillance identifier is always shown as absent (bds10_text_refuted); the surface operational status prints its track angle/heading bit under the label NIC Baro (operational_surface_text_refuted); bds44_text_partial takes the wind speed as the code reads it, without its first bit (C49), and target_state_text_partial the headings as the code reads them (C39); proved for the other values named"
  },
  {
   "property": "C78",
   "status": "proved",
   "theorems": [
    "Modes.squitter_received",
    "Modes.airborne_received",
    "Modes.surface_received",
    "Modes.airborne_frame_received",
    "Modes.surface_frame_received",
    "Modes.airborne_end_to_end",
    "Modes.airborne_local_end_to_end",
    "Modes.surface_end_to_end",
    "Modes.callsign_end_to_end",
    "Modes.altitude_end_to_end"
   ],
   "note": "the transmitter is Spec/Transmit; the positions are computed in float64 with a cosine and arc cosine accurate to one ulp (Accurate); positions under the conditions of C55-C57"
  },
  {
   "property": "C79",
   "status": "partial",
   "theorems": [
    "Modes.line_output",
    "Modes.file_output",
    "Modes.squitter_output",
    "Modes.squitter_shows",
    "Modes.reported_output",
    "Modes.output_identifies",
    "Modes.output_terminated",
    "Modes.output_terminated_refuted"
   ],
   "note": "the last sentence is false of the code for a line that is not hexadecimal: no line break follows its report (output_terminated_refuted); the rest is proved. The words of Go errors are parameters"
  },
  {
   "property": "C80",
   "status": "partial",
   "theorems": [
    "Modes.run_data",
    "Modes.run_file",
    "Modes.run_file_unreadable",
    "Modes.run_wrong_level",
    "Modes.run_panics_only",
    "Modes.scanLines_file",
    "Modes.run_level_refuted"
   ],
   "note": "the last clause is false of the code: with flags and no file, the first flag itself is taken for the data (run_level_refuted); the rest is proved. flag.Parse and bufio.Scanner are modelled, strconv.ParseInt is a parameter"
  },
  {
   "property": "C81",
   "status": "partial",
   "theorems": [
    "Modes.commB_register",
    "Modes.adsb_register",
    "Modes.subtype_accessor",
    "Modes.category_set_name",
    "Modes.turbulence_accessor",
    "Modes.source_accessor_partial",
    "Modes.source_accessor_refuted"
   ],
   "note": "false of the code for GetSource: it returns Invalid for every report that has a source (source_accessor_refuted); the rest is proved"
  },
  {
   "property": "C82",
   "status": "partial",
   "theorems": [
    "Modes.direct_readers",
    "Modes.direct_meteo",
    "Modes.direct_surface",
    "Modes.direct_airborne",
    "Modes.direct_type0",
    "Modes.direct_panics_refuted"
   ],
   "note": "false of the code for ReadAirbornePosition, ReadAirbornePositionType0 and ReadNoPositionInformation, which index the data without testing its length (direct_panics_refuted; direct_airborne and direct_type0 say exactly when they panic); proved for the others"
  },
  {
   "property": "C83",
   "status": "partial",
   "theorems": [
    "Modes.Geo.groundDistanceF_close",
    "Modes.Geo.groundDistanceF_accurate",
    "Modes.Geo.groundDistanceF_exact",
    "Modes.Geo.accurateTrig_exact",
    "Modes.Geo.accurateTrig_rounded",
    "Modes.Geo.groundDistanceF_nan_refuted",
    "Modes.Geo.groundDistance_antipodal"
   ],
   "note": "false of the code for some antipodal positions, for which it returns NaN (groundDistanceF_nan_refuted, with standard functions rounded to nearest); proved that positions more than four metres from antipodal give a number, and both accuracies. The accuracy of math.Sin, math.Cos and math.Atan2 is the hypothesis AccurateTrig"
  },
  {
   "property": "C84",
   "status": "proved",
   "theorems": [
    "Modes.velocity_end_to_end",
    "Modes.airspeed_end_to_end",
    "Modes.velocity_delivered"
   ],
   "note": "the transmitter is Spec/Transmit"
  },
  {
   "property": "C85",
   "status": "partial",
   "theorems": [
    "Modes.commB_reply_received",
    "Modes.trackTurn_end_to_end_partial",
    "Modes.headingSpeed_end_to_end",
    "Modes.commB_callsign_end_to_end",
    "Modes.trackTurn_refuted"
   ],
   "note": "false of the code for BDS 5,0 when only one of ground speed and airspeed is available and it is above 200 knots: the missing one is taken for zero and the report rejected (trackTurn_refuted); proved otherwise, and fully for BDS 6,0 and 2,0"
  },
  {
   "property": "C86",
   "status": "proved",
   "theorems": [
    "Modes.altitude_reply_end_to_end",
    "Modes.identity_reply_end_to_end",
    "Modes.airAir_reply_end_to_end",
    "Modes.allCall_end_to_end",
    "Modes.reply_received",
    "Modes.reply_exists"
   ],
   "note": "the transmitter (codings, IsReply) is specified in Props/EndToEndSurveillance, namespace Spec, and Spec/Altitude"
  },
  {
   "property": "C87",
   "status": "partial",
   "theorems": [
    "Modes.adsb_accepted_delivered",
    "Modes.emergency_end_to_end",
    "Modes.target_end_to_end_partial",
    "Modes.selected_heading_refuted",
    "Modes.selected_altitude_type_refuted"
   ],
   "note": "false of the code for selected headings from 180 degrees on and for the kind of the selected altitude (selected_heading_refuted, selected_altitude_type_refuted, C39); the rest is proved"
  },
  {
   "property": "C88",
   "status": "partial",
   "theorems": [
    "Modes.level_learned_partial",
    "Modes.level_valid",
    "Modes.level_ignores",
    "Modes.position_after_history_partial",
    "Modes.nextLevel_eq",
    "Modes.level_learned_refuted"
   ],
   "note": "false of the code after the operational status of a version 2 aircraft on the surface, which reports version 1 (level_learned_refuted); proved for every history without one, and nextLevel_eq says exactly what each message does"
  },
  {
   "property": "C89",
   "status": "partial",
   "theorems": [
    "Modes.selectedAltitude_end_to_end_partial",
    "Modes.selectedAltitude_shown",
    "Modes.selectedAltitude_refuted"
   ],
   "note": "True when the two altitudes are equal and all three values are available. The code exchanges the two altitudes and ties the availability of the pressure to that of the MCP/FCU altitude: selectedAltitude_shown says what is shown for every pair of altitudes, selectedAltitude_refuted that reports with different altitudes are shown wrong and that reports without one of the altitudes are not understood at all."
  },
  {
   "property": "C90",
   "status": "partial",
   "theorems": [
    "Modes.routineReport_end_to_end",
    "Modes.hazardReport_end_to_end_partial",
    "Modes.hazardReport_refuted"
   ],
   "note": "BDS 4,4 (appendix E layout, with or without source) holds without exception. BDS 4,5: a report of wind shear or icing alone may be taken for BDS 0,7, and hazardReport_refuted proves that it is for no or light wind shear; all other reports are understood."
  },
  {
   "property": "C91",
   "status": "partial",
   "theorems": [
    "Modes.advisory_read_partial",
    "Modes.advisory_squitter_partial",
    "Modes.advisory_commB_partial",
    "Modes.advisory_airAir_partial",
    "Modes.threat_altitude_exact"
   ],
   "note": "Proved as equivalences: the advisory is received with all it says if and only if the threat is not given at an altitude whose code has a C1 or A1 pulse. Partial because the code itself is wrong for those altitudes (it adds the two pulses at the wrong place) and drops the last bit of the range."
  },
  {
   "property": "C92",
   "status": "partial",
   "theorems": [
    "Modes.gicb_end_to_end_partial",
    "Modes.gicb_faithful",
    "Modes.gicb_refuted",
    "Modes.dataLink_end_to_end_partial",
    "Modes.dataLink_refuted"
   ],
   "note": "Both characterisations are equivalences. Partial because the code itself is wrong: a short GICB report is accepted as BDS 0,7, whose reserved bits 7-8 are not checked, and the surveillance identifier capability is read from a bit of the subnetwork version."
  },
  {
   "property": "C93",
   "status": "proved",
   "theorems": [
    "Modes.ground_track_margin_all",
    "Modes.ground_track_float",
    "Modes.track_end_to_end_float",
    "Modes.accurateAtan2_rounded",
    "Modes.code_ground_track"
   ],
   "note": "math.Atan2 is a parameter, assumed accurate to 2^-50 relative (Go does not document its accuracy); accurateAtan2_rounded shows the assumption is met by a correctly rounded one"
  },
  {
   "property": "C94",
   "status": "partial",
   "theorems": [
    "Modes.operationalAirborneV2_end_to_end",
    "Modes.operationalSurfaceV2_end_to_end_partial",
    "Modes.operationalAirborneV1_end_to_end",
    "Modes.operationalSurfaceV1_end_to_end",
    "Modes.operationalV0_end_to_end",
    "Modes.operational_delivered"
   ],
   "note": "the transmitter is a list of fields (width, value) in Props/EndToEndOperational and Spec/Pack; partial because the code itself announces every version 2 surface report as version 1 (C40)"
  },
  {
   "property": "C95",
   "status": "proved",
   "theorems": [
    "Modes.commB_registers",
    "Modes.commB_answers",
    "Modes.commB_answers_occur",
    "Modes.commB_at_most_five",
    "Modes.ra_refused_iff"
   ],
   "note": "the conditions are Spec/CommB.lean (bit numbers only), the table possibleAnswers; ra_refused_iff says exactly which resolution advisories are refused, for all six-byte fields"
  },
  {
   "property": "C96",
   "status": "partial",
   "theorems": [
    "Modes.commB_told_apart_partial",
    "Modes.commB_told_apart_refuted",
    "Modes.adsb_told_apart_partial",
    "Modes.adsb_told_apart_refuted"
   ],
   "note": "the code drops information bits: the airspeed type of a velocity, the source of a selected altitude, four bits of a target heading, an overlay bit; commB_told_apart_refuted and adsb_told_apart_refuted give pairs reported as equal. Reports whose values are flagged unavailable or out of range, threats by position and empty advisories are outside the equalities"
  },
  {
   "property": "C97",
   "status": "proved",
   "theorems": [
    "Modes.squitter_undetected_iff",
    "Modes.squitter_odd_detected",
    "Modes.squitter_even",
    "Modes.squitter_burst25",
    "Modes.squitter_parity_unique",
    "Modes.squitter_distance_attained",
    "Modes.overlaid_corruption_shifts_address",
    "Modes.overlaid_never_refused"
   ],
   "note": "polynomials over GF(2); the error polynomial has one term for each differing bit, the last bit being the constant term"
  },
  {
   "property": "C98",
   "status": "proved",
   "theorems": [
    "Modes.plain_output",
    "Modes.commB_output",
    "Modes.acas_output",
    "Modes.acas_unknown_output",
    "Modes.squitter_content_output",
    "Modes.squitter_not_adsb_output",
    "Modes.altitude_reply_printed",
    "Modes.identity_reply_printed",
    "Modes.allCall_printed",
    "Modes.commB_line_printed",
    "Modes.commB_callsign_printed"
   ],
   "note": "the texts of floating-point numbers are abstract (FloatTexts), assumed only to be injective on float32 numbers and without line breaks (FloatTexts.Faithful); examples in Witness/Replies.lean"
  },
  {
   "property": "C99",
   "status": "proved",
   "theorems": [
    "Modes.Geo.local_nonfinite",
    "Modes.Geo.local_numbers",
    "Modes.Geo.groundDistance_nonfinite",
    "Modes.Geo.groundDistance_finite",
    "Modes.Geo.groundDistance_finite_refuted",
    "Modes.Geo.surface_hemisphere",
    "Modes.Geo.surface_nonfinite_longitude",
    "Modes.Geo.surface_finite",
    "Modes.Geo.surface_panics",
    "Modes.Geo.nlX_finite",
    "Modes.Geo.maxX_documented"
   ],
   "note": "Accurate, the hypothesis on math.Cos and math.Acos, is that of C68 and is met by correctly rounded functions (accurate_rounded). One zero, one NaN, no subnormals."
  },
  {
   "property": "C100",
   "status": "partial",
   "theorems": [
    "Modes.hexadecimal_reason",
    "Modes.frame_reason",
    "Modes.advisory_reason_partial",
    "Modes.advisory_refused",
    "Modes.adsb_refused",
    "Modes.adsb_reason_partial",
    "Modes.adsb_reason_refuted",
    "Modes.hexadecimal_refusal_printed",
    "Modes.frame_refusal_printed",
    "Modes.parity_refusal_printed",
    "Modes.adsb_refusal_printed_partial",
    "Modes.acas_refusal_printed_partial",
    "Modes.program_acas_refusal_printed_partial",
    "Modes.program_adsb_refusal_printed_partial",
    "Modes.squitter_refusal_output"
   ],
   "note": "false of the code for the version number of operational status messages (adsb_reason_refuted) and, as in C20, for advisories of type 2 whose 13-bit altitude begins with a 1; true otherwise. The words of the errors only the library can return (registers read directly) are not modelled."
  },
  {
   "property": "C101",
   "status": "proved",
   "theorems": [
    "Modes.parseUint_iff",
    "Modes.parseInt_iff",
    "Modes.numeral_unique",
    "Modes.decimal_numeral",
    "Modes.run_level_not_number",
    "Modes.run_file_at_level",
    "Modes.run_number_not_level",
    "Modes.run_panics_numeral"
   ],
   "note": "Go's strconv.ParseInt(s, 0, 64), used by the flag package, is modelled (Model/Numeral) with its uint64 overflow tests and its separate check of underscores, instead of being a parameter as in C80."
  },
  {
   "property": "C102",
   "status": "partial",
   "theorems": [
    "Modes.float_printed",
    "Modes.float_printed_near",
    "Modes.float_printed_exact",
    "Modes.plainDecimal_unique",
    "Modes.plainDecimal_text",
    "Modes.floatText_inj",
    "Modes.goFloats_faithful",
    "Modes.surface_numbers",
    "Modes.ground_speed_numbers",
    "Modes.airspeed_numbers",
    "Modes.target_state_numbers",
    "Modes.bds40_numbers",
    "Modes.bds44_numbers",
    "Modes.bds45_numbers",
    "Modes.bds50_numbers",
    "Modes.bds60_numbers",
    "Modes.threat_range_number",
    "Modes.mach_number_refuted",
    "Modes.edr_number_refuted",
    "Modes.minusZero_not_plain",
    "Modes.selected_heading_minus_zero"
   ],
   "note": "Partial because the code violates it for four fields: a zero track or selected heading may be printed as -0 (selected_heading_minus_zero, the first case of ground_speed_numbers); Mach numbers and eddy dissipation rates are computed with a rounded constant, and some are printed as 0.020000001 or 0.099999994 (refuted theorems). Not modelled: exponents (no value needs one)."
  },
  {
   "property": "C103",
   "status": "partial",
   "theorems": [
    "Modes.bds00_reason",
    "Modes.bds07_reason",
    "Modes.bds10_reason",
    "Modes.bds17_reason",
    "Modes.bds20_reason",
    "Modes.bds30_reason_partial",
    "Modes.bds30_reason_refuted",
    "Modes.bds40_reason",
    "Modes.bds44V_reason",
    "Modes.bds44_reason_partial",
    "Modes.bds44_range_refuted",
    "Modes.bds45_reason",
    "Modes.bds50_60_reason",
    "Modes.commB_incoherence_iff",
    "Modes.adsb_incoherence_iff",
    "Modes.bds07_incoherence",
    "Modes.bds08_incoherence",
    "Modes.bds10_incoherence",
    "Modes.bds20_incoherence",
    "Modes.bds40_reason_actual",
    "Modes.bds40_incoherence_partial",
    "Modes.bds40_reasons_refuted",
    "Modes.bds44V0_incoherence_partial",
    "Modes.bds44V0_reasons_refuted",
    "Modes.bds44V1_incoherence_partial",
    "Modes.bds44V2_incoherence_partial",
    "Modes.bds44_reasons_refuted",
    "Modes.bds45V0_incoherence",
    "Modes.bds45V1_incoherence",
    "Modes.bds50_incoherence",
    "Modes.bds60_incoherence",
    "Modes.bds61_incoherence_partial",
    "Modes.bds61_reasons_refuted"
   ],
   "note": "Proved for every register. The code itself gives false reasons in the cases proved by the _refuted theorems: BDS 3,0 says that the first byte is not 0x20 when it is; BDS 4,4 gives a range that is not the accepted one, calls a report with only the turbulence flag (or, in version 0, only a temperature) empty, and 25 degrees out of -80 to 60; BDS 4,0 swaps the two altitudes, takes the status of the pressure from the wrong bit and overlooks the mode bits; BDS 6,1 calls the downed aircraft a reserved value. The _partial theorems exclude exactly those. TIDIllegal (Props/ACAS) is the legality of an altitude code."
  },
  {
   "property": "C104",
   "status": "partial",
   "theorems": [
    "Modes.velocity_kind_reason",
    "Modes.status_kind_reason",
    "Modes.ra_broadcast_reason_partial",
    "Modes.target_state_kind_reason",
    "Modes.operational_kind_refused",
    "Modes.operational_kind_reason",
    "Modes.operational_kind_reason_partial",
    "Modes.operational_kind_reason_refuted",
    "Modes.airborne_register_reason",
    "Modes.surface_register_reason",
    "Modes.identification_register_reason",
    "Modes.velocity_register_reason",
    "Modes.target_state_register_reason",
    "Modes.status_register_refused",
    "Modes.status_register_reason_partial",
    "Modes.operational_register_refused",
    "Modes.operational_register_reason_partial",
    "Modes.operational_register_reason_refuted",
    "Modes.surface_reader_reason",
    "Modes.airborne_reader_reason",
    "Modes.ground_access_reason",
    "Modes.parser_reason"
   ],
   "note": "Proved for every function. The code itself gives false reasons in the cases proved by the _refuted theorems: two readers of operational status say that the type code must be 29 (it must be 31, and they say it of data of type code 29 too), and for the versions 3 to 7 the text gives the subtype in place of the version. The _partial theorems exclude exactly those, and the advisories whose threat altitude the program does not read as it was sent (C23). airborne_reader_reason is for the calls that do not panic (C82)."
  },
  {
   "property": "C105",
   "status": "proved",
   "theorems": [
    "Modes.concurrent_calls",
    "Modes.call_alone",
    "Modes.quiet_old"
   ],
   "note": "The decoding of the value fields is one step (its loads see an unchanging frame by the first part of the theorem); sequentially consistent memory."
  },
  {
   "property": "C106",
   "status": "proved",
   "theorems": [
    "Modes.checkCRC_reasons"
   ],
   "note": ""
  },
  {
   "property": "C107",
   "status": "proved",
   "theorems": [
    "Modes.erase_modes.reader.ReadMessage",
    "Modes.erase_modes.reader.CheckCRC",
    "Modes.erase_adsb.reader.ReadADSBMessage",
    "Modes.erase_commb.ReadCommBMessage",
    "Modes.coherency_words_Status07",
    "Modes.coherency_words_DataLinkCapabilityReport",
    "Modes.coherency_words_AircraftIdentification",
    "Modes.coherency_words_SelectedVerticalIntention",
    "Modes.coherency_words_RoutineAirReportV0",
    "Modes.coherency_words_RoutineAirReportV1",
    "Modes.coherency_words_RoutineAirReportV2",
    "Modes.coherency_words_HazardReportV0",
    "Modes.coherency_words_HazardReportV1",
    "Modes.coherency_words_TrackAndTurnReport",
    "Modes.coherency_words_HeadingAndTrackReport",
    "Modes.coherency_words_IdentificationAndCategory",
    "Modes.coherency_words_AircraftStatus",
    "Modes.coherency_words_CommB",
    "Modes.coherency_words_ADSB",
    "Modes.same_words_bds10Error",
    "Modes.same_words_bds00Error",
    "Modes.same_words_bds07Error",
    "Modes.same_words_bds17Error",
    "Modes.same_words_bds20Error",
    "Modes.same_words_bds40Error",
    "Modes.same_words_bds50Error",
    "Modes.same_words_bds60Error",
    "Modes.same_words_bds44V0Error",
    "Modes.same_words_bds44V1Error",
    "Modes.same_words_bds44V2Error",
    "Modes.same_words_bds45V0Error",
    "Modes.same_words_bds45V1Error",
    "Modes.same_words_advisoryError",
    "Modes.same_words_groundSpeedNormalError",
    "Modes.same_words_groundSpeedSupersonicError",
    "Modes.same_words_airSpeedNormalError",
    "Modes.same_words_airSpeedSupersonicError",
    "Modes.same_words_statusNoInformationError",
    "Modes.same_words_statusEmergencyError",
    "Modes.same_words_statusACASError",
    "Modes.same_words_targetState0Error",
    "Modes.same_words_targetState1Error",
    "Modes.same_words_operationalV0Error",
    "Modes.same_words_operationalAirborneV1Error",
    "Modes.same_words_operationalAirborneV2Error",
    "Modes.same_words_operationalSurfaceV1Error",
    "Modes.same_words_operationalSurfaceV2Error",
    "Modes.same_words_surfaceError",
    "Modes.same_words_identificationError",
    "Modes.same_words_airborneError",
    "Modes.same_words_statusError",
    "Modes.same_words_velocityError",
    "Modes.same_words_targetStateError",
    "Modes.same_words_operationalError",
    "Modes.same_words_bds30Error",
    "Modes.same_words_airbornePositionError",
    "Modes.same_words_surfacePositionError",
    "Modes.same_words_adsbError",
    "Modes.same_words_parseDF0Error",
    "Modes.same_words_parseDF4Error",
    "Modes.same_words_parseDF5Error",
    "Modes.same_words_parseDF11Error",
    "Modes.same_words_parseDF16Error",
    "Modes.same_words_parseDF17Error",
    "Modes.same_words_parseDF18Error",
    "Modes.same_words_parseDF19Error",
    "Modes.same_words_parseDF20Error",
    "Modes.same_words_parseDF21Error",
    "Modes.same_words_parseDF24Error",
    "Modes.same_words_frameError",
    "Modes.same_words_crcError",
    "Modes.same_words_bds44Error",
    "Modes.same_words_bds45Error",
    "Modes.same_words_commBError",
    "Modes.words_frame_reason",
    "Modes.words_advisory_reason_partial",
    "Modes.words_advisory_refused",
    "Modes.words_bds00_reason",
    "Modes.words_bds07_reason",
    "Modes.words_bds10_reason",
    "Modes.words_bds17_reason",
    "Modes.words_bds20_reason",
    "Modes.words_bds30_reason_partial",
    "Modes.words_bds30_reason_refuted",
    "Modes.words_bds40_reason",
    "Modes.words_bds44V_reason",
    "Modes.words_bds44_reason_partial",
    "Modes.words_bds44_range_refuted",
    "Modes.words_bds45_reason",
    "Modes.words_bds50_60_reason",
    "Modes.words_commB_incoherence_iff",
    "Modes.words_adsb_incoherence_iff",
    "Modes.words_bds07_incoherence",
    "Modes.words_bds08_incoherence",
    "Modes.words_bds10_incoherence",
    "Modes.words_bds20_incoherence",
    "Modes.words_bds40_reason_actual",
    "Modes.words_bds40_incoherence_partial",
    "Modes.words_bds44V0_incoherence_partial",
    "Modes.words_bds44V1_incoherence_partial",
    "Modes.words_bds44V2_incoherence_partial",
    "Modes.words_bds45V0_incoherence",
    "Modes.words_bds45V1_incoherence",
    "Modes.words_bds50_incoherence",
    "Modes.words_bds60_incoherence",
    "Modes.words_bds61_incoherence_partial",
    "Modes.words_velocity_kind_reason",
    "Modes.words_status_kind_reason",
    "Modes.words_ra_broadcast_reason_partial",
    "Modes.words_target_state_kind_reason",
    "Modes.words_operational_kind_refused",
    "Modes.words_operational_kind_reason",
    "Modes.words_operational_kind_reason_partial",
    "Modes.words_operational_kind_reason_refuted",
    "Modes.words_airborne_register_reason",
    "Modes.words_surface_register_reason",
    "Modes.words_identification_register_reason",
    "Modes.words_velocity_register_reason",
    "Modes.words_target_state_register_reason",
    "Modes.words_status_register_refused",
    "Modes.words_status_register_reason_partial",
    "Modes.words_operational_register_refused",
    "Modes.words_operational_register_reason_partial",
    "Modes.words_operational_register_reason_refuted",
    "Modes.words_surface_reader_reason",
    "Modes.words_parser_reason",
    "Modes.words_checkCRC_reasons",
    "Modes.words_adsb_refused",
    "Modes.words_adsb_reason_partial"
   ],
   "note": "words_* restate C100, C103, C104, C106 for the translated code; the words of geo errors are not translated."
  },
  {
   "property": "C108",
   "status": "partial",
   "theorems": [
    "Modes.advisory_text_actual",
    "Modes.advisory_text_partial",
    "Modes.advisory_text_refuted",
    "Modes.broadcast_advisory_text",
    "Modes.commB_advisory_text",
    "Modes.acas_advisory_printed"
   ],
   "note": "Proved for every advisory what is printed (advisory_text_actual), which is as transmitted but for: the sense is always printed Upward (the switch of ActiveRASense.ToString is on a constant), the degrees of bearings 43 to 60 are computed in a byte and wrap (60 is printed as between 98 and 104), and the range loses bit 42 (C23): advisory_text_refuted."
  },
  {
   "property": "C109",
   "status": "proved",
   "theorems": [
    "Modes.shown_adsb",
    "Modes.shown_commB",
    "Modes.shown_modes",
    "Modes.shown_modes_name",
    "Modes.shown_resolutionAdvisory",
    "Modes.shown_adsb_read",
    "Modes.shown_commB_read",
    "Modes.code_frame_text_total",
    "Modes.code_frame_text_identifies",
    "Modes.code_identification_text",
    "Modes.code_commB_identification_text",
    "Modes.code_adsb_text_partial",
    "Modes.code_commB_text_partial",
    "Modes.code_commB_texts_differ",
    "Modes.code_advisory_text_actual",
    "Modes.code_adsb_text_refuted",
    "Modes.code_advisory_text_refuted",
    "Modes.code_airborne_text",
    "Modes.code_type0_text",
    "Modes.code_surface_text",
    "Modes.code_velocity_text",
    "Modes.code_airspeed_text",
    "Modes.code_status_text",
    "Modes.code_target_state_text_partial",
    "Modes.code_operationalV0_text",
    "Modes.code_operationalAirborneV1_text",
    "Modes.code_operationalAirborneV2_text",
    "Modes.code_operationalSurfaceV1_text_partial",
    "Modes.code_operationalSurfaceV2_text_partial",
    "Modes.code_operational_surface_text_refuted",
    "Modes.code_broadcast_advisory_text",
    "Modes.code_bds50_text",
    "Modes.code_bds60_text",
    "Modes.code_bds40_text_refuted",
    "Modes.code_bds17_text",
    "Modes.code_bds44_text_partial",
    "Modes.code_bds45_text",
    "Modes.code_bds10_text_partial",
    "Modes.code_bds10_text_refuted",
    "Modes.code_commB_advisory_text",
    "Modes.code_surface_numbers",
    "Modes.code_ground_speed_numbers",
    "Modes.code_airspeed_numbers",
    "Modes.code_target_state_numbers",
    "Modes.code_bds40_numbers",
    "Modes.code_bds44_numbers",
    "Modes.code_bds45_numbers",
    "Modes.code_bds50_numbers",
    "Modes.code_bds60_numbers",
    "Modes.speed_text",
    "Modes.track_text",
    "Modes.code_dte_text"
   ],
   "note": "The helpers PrefixMultiLine, toSpeedString/toTrackString and DTESubAddressStatuses.ToString are those of the hand-written model (C61, C77). Where the texts themselves are wrong (the sense of an advisory, bearings over 42, ...) the restated theorems say so: code_*_refuted."
  },
  {
   "property": "C110",
   "status": "proved",
   "theorems": [
    "Modes.program_line",
    "Modes.code_line_total",
    "Modes.code_line",
    "Modes.program_reported_output",
    "Modes.program_output_identifies",
    "Modes.program_plain_output",
    "Modes.program_commB_output",
    "Modes.program_acas_output",
    "Modes.program_acas_unknown_output",
    "Modes.program_squitter_content_output",
    "Modes.program_squitter_not_adsb_output",
    "Modes.program_squitter_output",
    "Modes.program_squitter_shows",
    "Modes.code_callsign_printed",
    "Modes.code_altitude_printed",
    "Modes.code_altitude_reply_printed",
    "Modes.code_identity_reply_printed",
    "Modes.code_allCall_printed",
    "Modes.code_commB_line_printed",
    "Modes.code_commB_callsign_printed",
    "Modes.code_acas_advisory_printed",
    "Modes.code_hexadecimal_refusal_printed",
    "Modes.code_frame_refusal_line",
    "Modes.code_parity_refusal_line",
    "Modes.code_squitter_refusal_printed",
    "Modes.code_output_terminated",
    "Modes.code_lines",
    "Modes.code_main_file",
    "Modes.code_main_data",
    "Modes.code_main_nothing",
    "Modes.code_main_panics_iff",
    "Modes.code_main"
   ],
   "note": "flag.Parse, the file and hex.DecodeString are those of the hand-written model (C80, C79)."
  }
 ]
}