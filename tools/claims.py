claim("C01", "proved", "readMessage_noPanic", "for every byte list; the model panics explicitly on out-of-range indexing and slicing")
claim("C02", "proved", "readMessage_accepts_iff")
claim("C03", "proved", "readMessage_type")
claim("C04", "proved", "df0_fields df4_fields df5_fields df11_fields")
claim("C05", "proved", "df16_fields df17_fields df18_fields df19_fields df20_fields df21_fields df24_fields")
claim("C06", "proved", "roundtrip_df11 roundtrip_df17 roundtrip_df4 roundtrip_df4_altitude25 roundtrip_df5")
claim("C07", "proved", "altitude25_bijection readAltitude_ok_iff encode25_unique")
claim("C08", "proved", "gillham_decodes gillham_rejects_iff gillham_sound gillham_injective altitude100_complete")
claim("C09", "proved", "modeC_distance gillham_mixed")
claim("C10", "proved", "readAltitude_ok_iff readAltitude_err_iff frame_altitude frame_altitude_formats")
claim("C11", "proved", "frame_identity frame_identity_injective frame_identity_special squawk_squawkCode roundtrip_df5")
claim("C12", "proved", "readMessage_isolation heap_write", "explicit heap of arrays, any history of writes to the array of the frame")
claim("C63", "proved", "readMessage_parity readMessage_parity_eq")
claim("C13", "proved", "computeParity_is_crc")
claim("C14", "proved", "checkCRC_squitter")
claim("C15", "proved", "squitter_corruption_detected squitter_distance")
claim("C16", "proved", "checkCRC_recovers checkCRC_overlaid checkCRC_df11 overlaid_exists")
claim("C17", "proved", "checkCRC_overlaid checkCRC_df11")
claim("C18", "proved", "checkCRC_noPanic")
claim("C19", "proved", "computeParity_linear")
claim("C64", "proved", "squitter_distance squitter_corruption_detected")
claim("C65", "proved", "overlaid_corruption_changes_address")
claim("C20", "partial", "ra_noPanic ra_accepts ra_fails_iff_partial threat_altitude_refuted ra_refused_iff", "no panic is proved for all inputs; the exact error condition is false of the code (threat_altitude_refuted: a legal altitude code is rejected, because C1 A1 are packed over B2 D2, threat_identity_altitude.go:40) and proved when C1 = A1 = 0; ra_refused_iff gives the exact condition the code uses, for every six bytes")
claim("C21", "proved", "ra_content")
claim("C22", "proved", "ra_threat_identity")
claim("C23", "partial", "threat_altitude_partial threat_altitude_exact threat_altitude_refuted threat_range_partial threat_range_refuted", "false of the code: altitude when C1 or A1 is set (threat_identity_altitude.go:40, <<2 for <<10), range when bit 42 is set (threat_identity_range.go:42, mask 0xA0 for 0xC0); proved outside these cases, bearing always")
claim("C62", "proved", "getBearing_spec getRange_spec", "float64 rounding modelled")
claim("C28", "proved", "airborne_position_content airborne_position_accepts airborne_altitude_determined")
claim("C29", "partial", "altitude_available_partial zero_altitude_refuted", "false of the code: an airborne position whose altitude field is all zero is rejected (zero_altitude_refuted, the Gillham decoder refuses C=000); altitude_available_partial: every position with a non-zero legal altitude is read")
claim("C31", "proved", "surface_position_content surface_position_accepts surface_speed_monotone")
claim("C32", "proved", "ground_velocity_content velocity_kind velocity_accepts")
claim("C33", "proved", "airspeed_content velocity_kind velocity_accepts")
claim("C34", "proved", "vertical_content vertical_range vertical_sign_flip")
claim("C35", "proved", "ground_speed ground_track ground_track_margin ground_speed_of_bits code_ground_speed code_ground_speed_refused", "float64 rounding modelled for the speed; the track is modelled over the reals with Go's signed-zero cases (Atan2, scaling and float32 conversion not rounded), with a margin theorem")
claim("C36", "proved", "callsign_roundtrip_bds08 callsign_roundtrip_bds20 callsign_injective bds20_coherent_iff bds08_coherent_iff")
claim("C37", "proved", "emitter_category identification_accepts")
claim("C38", "partial", "status_accepts_partial status_content status_reserved_refuted status_coherent_iff", "false of the code for the no-information message: bits 17-56 are not checked (status_reserved_refuted; aircraft_status_no_information.go:69-73 tests byte 1 again); everything else proved")
claim("C39", "partial", "target_state_accepts target_state_content target_heading_partial target_heading_refuted selected_altitude_type_partial selected_altitude_type_refuted selected_heading_partial selected_heading_refuted", "false of the code for three fields: subtype 0 heading (target_heading_track_angle.go reads byte 2 for byte 4), subtype 1 selected altitude type (bit 8 for bit 9), negative selected heading (sign and magnitude for two's complement); every other field proved")
claim("C40", "partial", "operational_status_accepts operational_status_content adsb_level_partial adsb_level_refuted", "false of the code for version 2 surface messages: GetADSBLevel says 1 (adsb_level_refuted)")
claim("C41", "proved", "operational_status_content operational_status_accepts")
claim("C24", "proved", "adsb_noPanic")
claim("C25", "proved", "adsb_accepts adsb_dispatch adsb_unsupported")
claim("C26", "partial", "adsb_version_partial adsb_version_refuted", "false of the code for version 2 surface operational status messages, reported as version 1 (adsb_version_refuted); proved for everything else")
claim("C27", "partial", "readMessage_nil_on_error adsb_nil_on_error_partial adsb_nil_refuted", "holds for ReadMessage; false of ReadADSBMessage: a reader's nil pointer is returned as a non-nil interface (adsb_nil_refuted, every failure inside a reader); proved for the failures of ReadADSBMessage itself")
claim("C30", "partial", "nic_table_partial nic_rows_consistent nic_range nic_surface_refuted", "false of the code for version 1 surface positions of type code 7 without supplement A (surface_position_v1.go:68); proved for every other row of every version")
claim("C66", "partial", "adsb_dispatch adsb_accepts type0_altitude_source", "the altitude, time, format and coordinates are proved (adsb_dispatch, clauses noPosition and airborneType0); the altitude source is false of the code: always GNSS (type0_altitude_source; airborne_position_type_0.go:40 uses type code 22), and the surveillance status and antenna bits are dropped")
claim("C46", "proved", "bds40_coherent bds44V0_coherent bds44V1_coherent bds44V2_coherent bds50_coherent bds60_coherent")
claim("C47", "partial", "bds40_accepts bds40_actual bds40_content_partial bds40_content_refuted", "false of the code: the MCP/FCU and FMS altitude values are exchanged and the barometric status is read from bit 1 (bds40_content_refuted); bds40_actual is the exact content the code computes, bds40_content_partial the fields for which the documented layout holds")
claim("C48", "proved", "bds50_60_accept bds50_content bds60_content bds50_range bds60_range")
claim("C49", "partial", "bds44_layout bds44_content_partial bds44_wind_partial bds44_wind_refuted bds44_temperature_refuted", "false of the code for the wind speed (bit 6 is dropped) and the temperature of the oldest layout (sign bit); every other field and the layout choice are proved")
claim("C51", "partial", "bds10_accepts bds10_content_partial bds10_surveillance_refuted bds10_coherent", "false of the code for the surveillance identifier capability, read from bit 18 instead of bit 35")
claim("C52", "partial", "bds17_accepts bds17_content bds17_injective_partial bds17_injective_refuted", "false of the code: bits 25-28 are neither read nor enforced, so two messages differing there give the same report; proved up to these bits")
claim("C53", "partial", "bds07_accepts bds07_reserved_partial bds07_reserved_refuted bds07_content", "false of the code: reserved bits 7-8 are not checked (mask 0x1C)")
claim("C42", "proved", "commB_total")
claim("C43", "proved", "commB_sound_complete")
claim("C44", "proved", "commB_unambiguous bds20_excludes bds00_accepts")
claim("C45", "proved", "commB_callsign")
claim("C50", "proved", "bds45_layout bds45_content bds45V0_coherent bds45V1_coherent", "the older layout is never the one returned (its readable messages are all readable in the newer one); both layouts' contents are proved")
claim("C54", "proved", "Geo.nl_properties Geo.nl_spec Geo.nl_domain", "exact arithmetic; with rounding: C68")
claim("C55", "proved", "Geo.airborne_global Geo.airborne_global_fixed Geo.airborne_global_bands", "exact arithmetic (with rounding: C68); the aircraft may move between the messages; messages in different bands give an error")
claim("C56", "proved", "Geo.airborne_local", "exact arithmetic; with rounding: C68")
claim("C57", "partial", "Geo.surface_global_partial Geo.surface_nearest Geo.surface_noPanic_partial Geo.surface_local Geo.surface_antimeridian_refuted Geo.surface_panic_refuted", "false of the code when the receiver and the aircraft are on different sides of the antimeridian (Geo.surface_antimeridian_refuted), and the decoder panics for receiver longitudes from about ten million degrees (Geo.surface_panic_refuted); everything else is proved, in exact arithmetic; with rounding: C68")
claim("C58", "partial", "Geo.globe_partial Geo.globe_refuted", "false of the code: even latitude code 0 with odd code 65536 gives latitude 180 without error; proved: the longitude is always in [-180,180] and the latitude in [-90, 270)")
claim("C59", "proved", "Geo.groundDistance_properties Geo.groundDistance_spec Geo.groundDistance_eq_zero Geo.hav_range", "also the triangle inequality and equality with the great-circle distance; float64 modelled by the real numbers")
claim("C60", "proved", "line_total file_total", "the texts of the fields are not modelled here; the operations of the printing functions that could panic are")
claim("C61", "proved", "prefix_lines prefix_lines_recover text_has_lines code_prefix_lines")
claim("C67", "proved", "line_report line_notHexadecimal report_unique hexDecode_iff")
claim("C68", "proved", "Geo.airborneGlobal_float Geo.nlF_agrees Geo.airborne_global_float64 Geo.airborne_global_bands_float64 Geo.airborne_local_float64 Geo.surface_local_float64 Geo.surfaceGlobal_float Geo.surface_global_float64 Geo.airborneGlobalF_exact Geo.airborneLocalF_exact Geo.surfaceGlobalF_exact Geo.surfaceLocalF_exact Geo.getNumberOfLongitudeF_exact", "float64 as rounding of each operation to 53 bits, round half to even, unbounded exponent; no fused multiply-add; the accuracy of math.Cos and math.Acos is a hypothesis (Geo.Accurate, met by Geo.accurate_rounded)")
claim("C69", "proved", "adsb_coherent_iff")
claim("C70", "proved", "pack8Bits_digits pack16Bits_digits")
claim("C71", "proved", "containment_bounds hpl_bounds containment_disjoint containment_covers hpl_nested")
claim("C72", "proved", "Text.texts_identify", "the tables are written into the model by tools/gen_texts.py from the source; texts that are not a table are outside this property")
claim("C73", "partial", "Text.texts_numbered_partial Text.fieldTexts_split Text.texts_numbered_refuted", "false of the code for ModeSSubnetworkVersion, SourceIntegrityLevel of register 6,2 and GeometricVerticalAccuracy (Text.texts_numbered_refuted); proved for the 127 others")
claim("C74", "proved", "modeS_text_total modeS_text_identifies df11_text_frame df17_text_frame df18_text_frame", "a text is a list of characters; the %v, %X verbs of fmt are modelled as decimal and hexadecimal digits")
claim("C75", "partial", "adsb_text_partial adsb_text_refuted", "false of the code: the Mode A code of an emergency message, the sense of a resolution advisory and the subtype of a version 0 operational status are not printed (adsb_text_refuted); proved for everything else that is decoded (Spec.shownADSB is the message with those fields left out); the printing of float32 numbers is a parameter assumed injective")
claim("C76", "partial", "commB_text_partial commB_texts_differ commB_text_refuted", "false of the code: the continuation flag of BDS 1,0 and the sense of a resolution advisory are not printed (commB_text_refuted); proved for everything else, and that the candidates of one field always have different texts")
claim("C77", "partial", "airborne_text type0_text surface_text velocity_text airspeed_text identification_text status_text commB_identification_text bds50_text bds60_text bds40_text_refuted bds17_text bds44_text_partial bds45_text bds10_text_partial bds10_text_refuted target_state_text_partial operationalV0_text operationalAirborneV1_text operationalAirborneV2_text operationalSurfaceV1_text_partial operationalSurfaceV2_text_partial operational_surface_text_refuted", "false of the code for BDS 4,0, where the two altitudes are printed under each other's label (bds40_text_refuted), and for BDS 1,0, where the continuation line shows the overlay bit and the surveillance identifier is always shown as absent (bds10_text_refuted); the surface operational status prints its track angle/heading bit under the label NIC Baro (operational_surface_text_refuted); bds44_text_partial takes the wind speed as the code reads it, without its first bit (C49), and target_state_text_partial the headings as the code reads them (C39); proved for the other values named")
claim("C78", "proved", "squitter_received airborne_received surface_received airborne_frame_received surface_frame_received airborne_end_to_end airborne_local_end_to_end surface_end_to_end callsign_end_to_end altitude_end_to_end", "the transmitter is Spec/Transmit; the positions are computed in float64 with a cosine and arc cosine accurate to one ulp (Accurate); positions under the conditions of C55-C57")
claim("C79", "partial", "line_output file_output squitter_output squitter_shows reported_output output_identifies output_terminated output_terminated_refuted", "the last sentence is false of the code for a line that is not hexadecimal: no line break follows its report (output_terminated_refuted); the rest is proved. The words of Go errors are parameters")
claim("C80", "partial", "run_data run_file run_file_unreadable run_wrong_level run_panics_only scanLines_file run_level_refuted", "the last clause is false of the code: with flags and no file, the first flag itself is taken for the data (run_level_refuted); the rest is proved. flag.Parse and bufio.Scanner are modelled, strconv.ParseInt is a parameter")
claim("C81", "partial", "commB_register adsb_register subtype_accessor category_set_name turbulence_accessor source_accessor_partial source_accessor_refuted", "false of the code for GetSource: it returns Invalid for every report that has a source (source_accessor_refuted); the rest is proved")
claim("C82", "partial", "direct_readers direct_meteo direct_surface direct_airborne direct_type0 direct_panics_refuted", "false of the code for ReadAirbornePosition, ReadAirbornePositionType0 and ReadNoPositionInformation, which index the data without testing its length (direct_panics_refuted; direct_airborne and direct_type0 say exactly when they panic); proved for the others")
claim("C83", "partial", "Geo.groundDistanceF_close Geo.groundDistanceF_accurate Geo.groundDistanceF_exact Geo.accurateTrig_exact Geo.accurateTrig_rounded Geo.groundDistanceF_nan_refuted Geo.groundDistance_antipodal", "false of the code for some antipodal positions, for which it returns NaN (groundDistanceF_nan_refuted, with standard functions rounded to nearest); proved that positions more than four metres from antipodal give a number, and both accuracies. The accuracy of math.Sin, math.Cos and math.Atan2 is the hypothesis AccurateTrig")
claim("C84", "proved", "velocity_end_to_end airspeed_end_to_end velocity_delivered", "the transmitter is Spec/Transmit")
claim("C85", "partial", "commB_reply_received trackTurn_end_to_end_partial headingSpeed_end_to_end commB_callsign_end_to_end trackTurn_refuted", "false of the code for BDS 5,0 when only one of ground speed and airspeed is available and it is above 200 knots: the missing one is taken for zero and the report rejected (trackTurn_refuted); proved otherwise, and fully for BDS 6,0 and 2,0")
claim("C86", "proved", "altitude_reply_end_to_end identity_reply_end_to_end airAir_reply_end_to_end allCall_end_to_end reply_received reply_exists", "the transmitter (codings, IsReply) is specified in Props/EndToEndSurveillance, namespace Spec, and Spec/Altitude")
claim("C87", "partial", "adsb_accepted_delivered emergency_end_to_end target_end_to_end_partial selected_heading_refuted selected_altitude_type_refuted", "false of the code for selected headings from 180 degrees on and for the kind of the selected altitude (selected_heading_refuted, selected_altitude_type_refuted, C39); the rest is proved")
claim("C88", "partial", "level_learned_partial level_valid level_ignores position_after_history_partial nextLevel_eq level_learned_refuted", "false of the code after the operational status of a version 2 aircraft on the surface, which reports version 1 (level_learned_refuted); proved for every history without one, and nextLevel_eq says exactly what each message does")
claim("C89", "partial", "selectedAltitude_end_to_end_partial selectedAltitude_shown selectedAltitude_refuted", "True when the two altitudes are equal and all three values are available. The code exchanges the two altitudes and ties the availability of the pressure to that of the MCP/FCU altitude: selectedAltitude_shown says what is shown for every pair of altitudes, selectedAltitude_refuted that reports with different altitudes are shown wrong and that reports without one of the altitudes are not understood at all.")
claim("C90", "partial", "routineReport_end_to_end hazardReport_end_to_end_partial hazardReport_refuted", "BDS 4,4 (appendix E layout, with or without source) holds without exception. BDS 4,5: a report of wind shear or icing alone may be taken for BDS 0,7, and hazardReport_refuted proves that it is for no or light wind shear; all other reports are understood.")
claim("C91", "partial", "advisory_read_partial advisory_squitter_partial advisory_commB_partial advisory_airAir_partial threat_altitude_exact", "Proved as equivalences: the advisory is received with all it says if and only if the threat is not given at an altitude whose code has a C1 or A1 pulse. Partial because the code itself is wrong for those altitudes (it adds the two pulses at the wrong place) and drops the last bit of the range.")
claim("C92", "partial", "gicb_end_to_end_partial gicb_faithful gicb_refuted dataLink_end_to_end_partial dataLink_refuted", "Both characterisations are equivalences. Partial because the code itself is wrong: a short GICB report is accepted as BDS 0,7, whose reserved bits 7-8 are not checked, and the surveillance identifier capability is read from a bit of the subnetwork version.")
claim("C93", "proved", "ground_track_margin_all ground_track_float track_end_to_end_float accurateAtan2_rounded code_ground_track", "math.Atan2 is a parameter, assumed accurate to 2^-50 relative (Go does not document its accuracy); accurateAtan2_rounded shows the assumption is met by a correctly rounded one")
claim("C94", "partial", "operationalAirborneV2_end_to_end operationalSurfaceV2_end_to_end_partial operationalAirborneV1_end_to_end operationalSurfaceV1_end_to_end operationalV0_end_to_end operational_delivered", "the transmitter is a list of fields (width, value) in Props/EndToEndOperational and Spec/Pack; partial because the code itself announces every version 2 surface report as version 1 (C40)")
claim("C95", "proved", "commB_registers commB_answers commB_answers_occur commB_at_most_five ra_refused_iff", "the conditions are Spec/CommB.lean (bit numbers only), the table possibleAnswers; ra_refused_iff says exactly which resolution advisories are refused, for all six-byte fields")
claim("C96", "partial", "commB_told_apart_partial commB_told_apart_refuted adsb_told_apart_partial adsb_told_apart_refuted", "the code drops information bits: the airspeed type of a velocity, the source of a selected altitude, four bits of a target heading, an overlay bit; commB_told_apart_refuted and adsb_told_apart_refuted give pairs reported as equal. Reports whose values are flagged unavailable or out of range, threats by position and empty advisories are outside the equalities")
claim("C97", "proved", "squitter_undetected_iff squitter_odd_detected squitter_even squitter_burst25 squitter_parity_unique squitter_distance_attained overlaid_corruption_shifts_address overlaid_never_refused", "polynomials over GF(2); the error polynomial has one term for each differing bit, the last bit being the constant term")
claim("C98", "proved", "plain_output commB_output acas_output acas_unknown_output squitter_content_output squitter_not_adsb_output altitude_reply_printed identity_reply_printed allCall_printed commB_line_printed commB_callsign_printed", "the texts of floating-point numbers are abstract (FloatTexts), assumed only to be injective on float32 numbers and without line breaks (FloatTexts.Faithful); examples in Witness/Replies.lean")
claim("C99", "proved", "Geo.local_nonfinite Geo.local_numbers Geo.groundDistance_nonfinite Geo.groundDistance_finite Geo.groundDistance_finite_refuted Geo.surface_hemisphere Geo.surface_nonfinite_longitude Geo.surface_finite Geo.surface_panics Geo.nlX_finite Geo.maxX_documented", "Accurate, the hypothesis on math.Cos and math.Acos, is that of C68 and is met by correctly rounded functions (accurate_rounded). One zero, one NaN, no subnormals.")
claim("C100", "partial", "hexadecimal_reason frame_reason advisory_reason_partial advisory_refused adsb_refused adsb_reason_partial adsb_reason_refuted hexadecimal_refusal_printed frame_refusal_printed parity_refusal_printed adsb_refusal_printed_partial acas_refusal_printed_partial program_acas_refusal_printed_partial program_adsb_refusal_printed_partial squitter_refusal_output", "false of the code for the version number of operational status messages (adsb_reason_refuted) and, as in C20, for advisories of type 2 whose 13-bit altitude begins with a 1; true otherwise. The words of the errors only the library can return (registers read directly) are not modelled.")
claim("C101", "proved", "parseUint_iff parseInt_iff numeral_unique decimal_numeral run_level_not_number run_file_at_level run_number_not_level run_panics_numeral", "Go's strconv.ParseInt(s, 0, 64), used by the flag package, is modelled (Model/Numeral) with its uint64 overflow tests and its separate check of underscores, instead of being a parameter as in C80.")
claim("C102", "partial", "float_printed float_printed_near float_printed_exact plainDecimal_unique plainDecimal_text floatText_inj goFloats_faithful surface_numbers ground_speed_numbers airspeed_numbers target_state_numbers bds40_numbers bds44_numbers bds45_numbers bds50_numbers bds60_numbers threat_range_number mach_number_refuted edr_number_refuted minusZero_not_plain selected_heading_minus_zero", "Partial because the code violates it for four fields: a zero track or selected heading may be printed as -0 (selected_heading_minus_zero, the first case of ground_speed_numbers); Mach numbers and eddy dissipation rates are computed with a rounded constant, and some are printed as 0.020000001 or 0.099999994 (refuted theorems). Not modelled: exponents (no value needs one).")
claim("C103", "partial", "bds00_reason bds07_reason bds10_reason bds17_reason bds20_reason bds30_reason_partial bds30_reason_refuted bds40_reason bds44V_reason bds44_reason_partial bds44_range_refuted bds45_reason bds50_60_reason commB_incoherence_iff adsb_incoherence_iff bds07_incoherence bds08_incoherence bds10_incoherence bds20_incoherence bds40_reason_actual bds40_incoherence_partial bds40_reasons_refuted bds44V0_incoherence_partial bds44V0_reasons_refuted bds44V1_incoherence_partial bds44V2_incoherence_partial bds44_reasons_refuted bds45V0_incoherence bds45V1_incoherence bds50_incoherence bds60_incoherence bds61_incoherence_partial bds61_reasons_refuted", "Proved for every register. The code itself gives false reasons in the cases proved by the _refuted theorems: BDS 3,0 says that the first byte is not 0x20 when it is; BDS 4,4 gives a range that is not the accepted one, calls a report with only the turbulence flag (or, in version 0, only a temperature) empty, and 25 degrees out of -80 to 60; BDS 4,0 swaps the two altitudes, takes the status of the pressure from the wrong bit and overlooks the mode bits; BDS 6,1 calls the downed aircraft a reserved value. The _partial theorems exclude exactly those. TIDIllegal (Props/ACAS) is the legality of an altitude code.")
claim("C104", "partial", "velocity_kind_reason status_kind_reason ra_broadcast_reason_partial target_state_kind_reason operational_kind_refused operational_kind_reason operational_kind_reason_partial operational_kind_reason_refuted airborne_register_reason surface_register_reason identification_register_reason velocity_register_reason target_state_register_reason status_register_refused status_register_reason_partial operational_register_refused operational_register_reason_partial operational_register_reason_refuted surface_reader_reason airborne_reader_reason ground_access_reason parser_reason", "Proved for every function. The code itself gives false reasons in the cases proved by the _refuted theorems: two readers of operational status say that the type code must be 29 (it must be 31, and they say it of data of type code 29 too), and for the versions 3 to 7 the text gives the subtype in place of the version. The _partial theorems exclude exactly those, and the advisories whose threat altitude the program does not read as it was sent (C23). airborne_reader_reason is for the calls that do not panic (C82).")
claim("C105", "proved", "concurrent_calls call_alone quiet_old", "The decoding of the value fields is one step (its loads see an unchanging frame by the first part of the theorem); sequentially consistent memory.")
claim("C106", "proved", "checkCRC_reasons", "")
claim("C107", "proved", "erase_modes.reader.ReadMessage erase_modes.reader.CheckCRC erase_adsb.reader.ReadADSBMessage erase_commb.ReadCommBMessage coherency_words_Status07 coherency_words_DataLinkCapabilityReport coherency_words_AircraftIdentification coherency_words_SelectedVerticalIntention coherency_words_RoutineAirReportV0 coherency_words_RoutineAirReportV1 coherency_words_RoutineAirReportV2 coherency_words_HazardReportV0 coherency_words_HazardReportV1 coherency_words_TrackAndTurnReport coherency_words_HeadingAndTrackReport coherency_words_IdentificationAndCategory coherency_words_AircraftStatus coherency_words_CommB coherency_words_ADSB same_words_bds10Error same_words_bds00Error same_words_bds07Error same_words_bds17Error same_words_bds20Error same_words_bds40Error same_words_bds50Error same_words_bds60Error same_words_bds44V0Error same_words_bds44V1Error same_words_bds44V2Error same_words_bds45V0Error same_words_bds45V1Error same_words_advisoryError same_words_groundSpeedNormalError same_words_groundSpeedSupersonicError same_words_airSpeedNormalError same_words_airSpeedSupersonicError same_words_statusNoInformationError same_words_statusEmergencyError same_words_statusACASError same_words_targetState0Error same_words_targetState1Error same_words_operationalV0Error same_words_operationalAirborneV1Error same_words_operationalAirborneV2Error same_words_operationalSurfaceV1Error same_words_operationalSurfaceV2Error same_words_surfaceError same_words_identificationError same_words_airborneError same_words_statusError same_words_velocityError same_words_targetStateError same_words_operationalError same_words_bds30Error same_words_airbornePositionError same_words_surfacePositionError same_words_adsbError same_words_parseDF0Error same_words_parseDF4Error same_words_parseDF5Error same_words_parseDF11Error same_words_parseDF16Error same_words_parseDF17Error same_words_parseDF18Error same_words_parseDF19Error same_words_parseDF20Error same_words_parseDF21Error same_words_parseDF24Error same_words_frameError same_words_crcError same_words_bds44Error same_words_bds45Error same_words_commBError words_frame_reason words_advisory_reason_partial words_advisory_refused words_bds00_reason words_bds07_reason words_bds10_reason words_bds17_reason words_bds20_reason words_bds30_reason_partial words_bds30_reason_refuted words_bds40_reason words_bds44V_reason words_bds44_reason_partial words_bds44_range_refuted words_bds45_reason words_bds50_60_reason words_commB_incoherence_iff words_adsb_incoherence_iff words_bds07_incoherence words_bds08_incoherence words_bds10_incoherence words_bds20_incoherence words_bds40_reason_actual words_bds40_incoherence_partial words_bds44V0_incoherence_partial words_bds44V1_incoherence_partial words_bds44V2_incoherence_partial words_bds45V0_incoherence words_bds45V1_incoherence words_bds50_incoherence words_bds60_incoherence words_bds61_incoherence_partial words_velocity_kind_reason words_status_kind_reason words_ra_broadcast_reason_partial words_target_state_kind_reason words_operational_kind_refused words_operational_kind_reason words_operational_kind_reason_partial words_operational_kind_reason_refuted words_airborne_register_reason words_surface_register_reason words_identification_register_reason words_velocity_register_reason words_target_state_register_reason words_status_register_refused words_status_register_reason_partial words_operational_register_refused words_operational_register_reason_partial words_operational_register_reason_refuted words_surface_reader_reason words_parser_reason words_checkCRC_reasons words_adsb_refused words_adsb_reason_partial", "words_* restate C100, C103, C104, C106 for the translated code; the words of geo errors are not translated.")
claim("C108", "partial", "advisory_text_actual advisory_text_partial advisory_text_refuted broadcast_advisory_text commB_advisory_text acas_advisory_printed", "Proved for every advisory what is printed (advisory_text_actual), which is as transmitted but for: the sense is always printed Upward (the switch of ActiveRASense.ToString is on a constant), the degrees of bearings 43 to 60 are computed in a byte and wrap (60 is printed as between 98 and 104), and the range loses bit 42 (C23): advisory_text_refuted.")
claim("C109", "proved", "shown_adsb shown_commB shown_modes shown_modes_name shown_resolutionAdvisory shown_adsb_read shown_commB_read code_frame_text_total code_frame_text_identifies code_identification_text code_commB_identification_text code_adsb_text_partial code_commB_text_partial code_commB_texts_differ code_advisory_text_actual code_adsb_text_refuted code_advisory_text_refuted code_airborne_text code_type0_text code_surface_text code_velocity_text code_airspeed_text code_status_text code_target_state_text_partial code_operationalV0_text code_operationalAirborneV1_text code_operationalAirborneV2_text code_operationalSurfaceV1_text_partial code_operationalSurfaceV2_text_partial code_operational_surface_text_refuted code_broadcast_advisory_text code_bds50_text code_bds60_text code_bds40_text_refuted code_bds17_text code_bds44_text_partial code_bds45_text code_bds10_text_partial code_bds10_text_refuted code_commB_advisory_text code_surface_numbers code_ground_speed_numbers code_airspeed_numbers code_target_state_numbers code_bds40_numbers code_bds44_numbers code_bds45_numbers code_bds50_numbers code_bds60_numbers speed_text track_text code_dte_text", "The helpers PrefixMultiLine, toSpeedString/toTrackString and DTESubAddressStatuses.ToString are those of the hand-written model (C61, C77). Where the texts themselves are wrong (the sense of an advisory, bearings over 42, ...) the restated theorems say so: code_*_refuted.")
claim("C110", "proved", "program_line code_line_total code_line program_reported_output program_output_identifies program_plain_output program_commB_output program_acas_output program_acas_unknown_output program_squitter_content_output program_squitter_not_adsb_output program_squitter_output program_squitter_shows code_callsign_printed code_altitude_printed code_altitude_reply_printed code_identity_reply_printed code_allCall_printed code_commB_line_printed code_commB_callsign_printed code_acas_advisory_printed code_hexadecimal_refusal_printed code_frame_refusal_line code_parity_refusal_line code_squitter_refusal_printed code_output_terminated code_lines code_main_file code_main_data code_main_nothing code_main_panics_iff code_main", "flag.Parse, the file and hex.DecodeString are those of the hand-written model (C80, C79).")
