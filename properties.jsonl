{"id": "C01", "title": "Reading a frame never crashes", "statement": "ReadMessage returns either a message or an error for every byte slice; no index, slice or conversion in it or in the parsers it calls panics.", "quantifier": "every byte slice, of every length", "why_tests_cant": "There are 2^56 + 2^112 frames of legal length alone; a panic on one bit pattern would not be sampled.", "anchors": ["pkg/modes/reader/reader.go:ReadMessage", "pkg/modes/messages/df*.go:ParseDF*", "pkg/modes/fields/altitude_code.go:ReadAltitude"]}
{"id": "C02", "title": "Exact acceptance condition of ReadMessage", "statement": "ReadMessage succeeds exactly when the slice is 7 bytes long with downlink format 0, 4, 5 or 11, or 14 bytes long with downlink format 16 to 21 or 24 to 31, and (for formats 0, 4, 16 and 20) the altitude code is decodable; otherwise it returns an error.", "quantifier": "every byte slice", "why_tests_cant": "Both directions (no legal frame rejected, no illegal frame accepted) quantify over all frames.", "anchors": ["pkg/modes/reader/reader.go:ReadMessage", "pkg/modes/messages/df*.go"]}
{"id": "C03", "title": "Downlink format dispatch", "statement": "The message returned is of the type of the downlink format in bits 1-5 (all of 24..31 give the Comm-D type) and its GetDownLinkFormat reports that format (24 for the Comm-D type).", "quantifier": "every frame ReadMessage accepts", "why_tests_cant": "Every frame, not a sampled one per type.", "anchors": ["pkg/modes/reader/reader.go:ReadMessage", "pkg/modes/messages/*.go:GetDownLinkFormat"]}
{"id": "C04", "title": "Bit-exact fields of the short formats", "statement": "In an accepted DF 0/4/5/11 frame each decoded field is the number in the ICAO bit positions (VS 6, CC 7, SL 9-11, RI 14-17, FS 6-8, DR 9-13, UM 14-19, AC/ID 20-32, CA 6-8, AA 9-32, parity 33-56).", "quantifier": "every accepted short frame", "why_tests_cant": "A mask or shift wrong in one bit shows up only on frames using that bit combination.", "anchors": ["pkg/modes/messages/df0.go", "pkg/modes/messages/df4.go", "pkg/modes/messages/df5.go", "pkg/modes/messages/df11.go", "pkg/modes/fields/*.go"]}
{"id": "C05", "title": "Bit-exact fields of the long formats", "statement": "In an accepted DF 16-21/24 frame each decoded field is the number in its ICAO bit positions, and the 56-bit MV/MB/ME (80-bit MD) payload is bytes 5-11 (2-11) of the frame, unchanged and in order.", "quantifier": "every accepted long frame", "why_tests_cant": "2^112 frames.", "anchors": ["pkg/modes/messages/df16.go", "pkg/modes/messages/df17.go", "pkg/modes/messages/df18.go", "pkg/modes/messages/df19.go", "pkg/modes/messages/df20.go", "pkg/modes/messages/df21.go", "pkg/modes/messages/df24.go"]}
{"id": "C06", "title": "Frame round trip", "statement": "A frame assembled from a downlink format and field values according to the ICAO layout is read back to exactly those field values (all-call reply, extended squitter, altitude and identity replies).", "quantifier": "every combination of field values", "why_tests_cant": "Inverse functions must be checked on every value combination.", "anchors": ["pkg/modes/reader/reader.go:ReadMessage", "pkg/modes/messages/df*.go"]}
{"id": "C07", "title": "25-foot altitudes", "statement": "With the Q bit set (and M clear) the altitude is 25*N-1000 ft where N is the 11-bit number left after removing M and Q; every multiple of 25 ft from -1000 to 50175 ft is produced by exactly one code, and no other value is produced.", "quantifier": "every 13-bit altitude code", "why_tests_cant": "Injectivity and surjectivity onto the range concern all pairs of codes.", "anchors": ["pkg/modes/fields/altitude_code.go:ReadAltitude"]}
{"id": "C08", "title": "Gillham altitudes", "statement": "The Gillham decoder returns, for every altitude that is a multiple of 100 ft from -1200 ft to 254700 ft (126700 ft in a Mode S frame, which has no D1 pulse), that altitude on its standard Gray code; codes whose C bits are not one of the five legal patterns are exactly the ones rejected; two different accepted codes never give the same altitude.", "quantifier": "all 4096 settings of the twelve pulses", "why_tests_cant": "Round trip plus injectivity over the whole code space, derived from the coding rule and not from a table.", "anchors": ["pkg/bitutils/gillham.go:GillhamToAltitude"]}
{"id": "C09", "title": "Gray property of the altitude code", "statement": "Codes of altitudes 100 ft apart differ in exactly one pulse, so a single misread pulse between two reports moves the altitude by one step.", "quantifier": "all adjacent altitude pairs", "why_tests_cant": "A statement about all adjacent pairs.", "anchors": ["pkg/bitutils/gillham.go:GillhamToAltitude"]}
{"id": "C10", "title": "Altitude code classification", "statement": "An all-zero 13-bit altitude code is reported as not available, a code with the M bit as metric (and no altitude value is invented for either), Q selects 25 ft, otherwise Gillham; the method always tells which rule applied and the altitude of a frame is always within -1200..126750 ft.", "quantifier": "every 13-bit code in every altitude-bearing frame", "why_tests_cant": "Case analysis over the whole code space.", "anchors": ["pkg/modes/fields/altitude_code.go:ReadAltitude"]}
{"id": "C11", "title": "Squawk decoding", "statement": "The identity of a DF5/DF21 frame is four octal digits A B C D built from the interleaved pulses; every one of the 4096 squawks is produced by its standard encoding and the decoding is injective; emergency codes 7500, 7600, 7700 are recognised for exactly these squawks.", "quantifier": "every 13-bit identity code", "why_tests_cant": "Bijectivity over the code space.", "anchors": ["pkg/modes/fields/identity.go:ReadIdentity"]}
{"id": "C12", "title": "Payload isolation", "statement": "The MV/MB/ME/MD bytes of a returned message are copies: later writes to the input slice do not change them. (The raw payload and parity slices kept in the message do alias the input.)", "quantifier": "every frame and every later write to the input slice", "why_tests_cant": "Quantifies over all later mutations of the caller's buffer.", "anchors": ["pkg/modes/messages/*.go", "pkg/modes/common/*.go", "pkg/modes/reader/reader.go"]}
{"id": "C13", "title": "Parity is the Mode S CRC", "statement": "The parity computed over a message is the CRC of ICAO Annex 10: the remainder of the message polynomial times x^24 modulo the generator x^24+x^23+...+x^12+x^10+x^3+1, for every message of at least three bytes.", "quantifier": "byte strings of every length from 3 up", "why_tests_cant": "Equality of a bitwise shift register with a polynomial remainder for every length needs induction.", "anchors": ["pkg/modes/reader/crc.go:computeParity"]}
{"id": "C14", "title": "Extended squitter acceptance", "statement": "CheckCRC accepts a DF17/DF18 frame exactly when its last 24 bits are the CRC of the first 88 (equivalently the frame polynomial is divisible by the generator) and then returns the announced 24-bit address, whatever the allow lists.", "quantifier": "every DF17/DF18 frame and all allow lists", "why_tests_cant": "Iff over 2^112 frames.", "anchors": ["pkg/modes/reader/crc.go:CheckCRC"]}
{"id": "C15", "title": "Error detection", "statement": "If a DF17/DF18 frame passes CheckCRC then any corruption confined to a window of at most 24 consecutive bits outside the downlink format (in particular any single bit) makes CheckCRC fail.", "quantifier": "every accepted frame, every error burst up to 24 bits", "why_tests_cant": "All frames times all bursts.", "anchors": ["pkg/modes/reader/crc.go:CheckCRC", "pkg/modes/reader/crc.go:computeParity"]}
{"id": "C16", "title": "Address recovery from overlaid parity", "statement": "For formats whose parity is overlaid with the aircraft address (0, 4, 5, 16, 19, 20, 21, 24), a frame transmitted by aircraft A (parity = CRC xor A) makes CheckCRC return A; for all-call replies (DF11) it returns the interrogator code overlaid on the parity.", "quantifier": "every frame body and every 24-bit address", "why_tests_cant": "Universally quantified inverse property.", "anchors": ["pkg/modes/reader/crc.go:CheckCRC"]}
{"id": "C17", "title": "Allow lists", "statement": "With an empty or nil address list every recovered address is accepted; with a non-empty list exactly its keys are accepted; the same holds for the interrogator list and DF11; a list entry is honoured by its key, whatever its boolean value.", "quantifier": "every frame and every pair of allow lists", "why_tests_cant": "Quantifies over arbitrary maps.", "anchors": ["pkg/modes/reader/crc.go:CheckCRC"]}
{"id": "C18", "title": "CRC check never crashes on a read frame", "statement": "CheckCRC on a message returned by ReadMessage and the very bytes it was read from never panics.", "quantifier": "every frame accepted by ReadMessage", "why_tests_cant": "Needs the relation between the frame length and the downlink format for every frame.", "anchors": ["pkg/modes/reader/crc.go:CheckCRC"]}
{"id": "C19", "title": "Linearity of the parity", "statement": "The parity of the bitwise exclusive-or of two equally long messages is the exclusive-or of their parities.", "quantifier": "every pair of equally long byte strings", "why_tests_cant": "All pairs, all lengths.", "anchors": ["pkg/modes/reader/crc.go:computeParity"]}
{"id": "C20", "title": "ACAS resolution advisory reading is total", "statement": "ReadResolutionAdvisory never panics; it fails exactly for data not 6 bytes long, or carrying an altitude-range-bearing threat whose altitude code cannot be decoded.", "quantifier": "every byte slice", "why_tests_cant": "All slices.", "anchors": ["pkg/acas/ra/resolution_advisory.go:ReadResolutionAdvisory"]}
{"id": "C21", "title": "ACAS advisory content", "statement": "The active advisory is interpreted as single-threat when bit 1 of the ARA is set, as multiple-threat when it is clear and MTE is set, else there is none; its flags, the four advisory complements and the terminated flag are the corresponding bits.", "quantifier": "every 6-byte ACAS field", "why_tests_cant": "All bit combinations.", "anchors": ["pkg/acas/ra/resolution_advisory.go:ReadResolutionAdvisory", "pkg/acas/ra/fields/*.go"]}
{"id": "C22", "title": "ACAS threat identity", "statement": "A threat address is reported exactly for threat type 1 and is the 24 bits after the type indicator; altitude, range and bearing are reported exactly for type 2; never both.", "quantifier": "every 6-byte ACAS field", "why_tests_cant": "All bit combinations.", "anchors": ["pkg/acas/ra/resolution_advisory.go:ReadResolutionAdvisory"]}
{"id": "C23", "title": "ACAS threat altitude and range", "statement": "For threat type 2 the altitude is the decoding of the 13-bit altitude code in bits 23-35 of the six bytes, the range is the 7-bit number in bits 36-42 and the bearing the 6-bit number in bits 43-48.", "quantifier": "every 6-byte ACAS field with threat type 2", "why_tests_cant": "All bit combinations.", "anchors": ["pkg/acas/ra/fields/threat_identity_altitude.go", "pkg/acas/ra/fields/threat_identity_range.go"]}
{"id": "C24", "title": "Reading an ADS-B message never crashes", "statement": "ReadADSBMessage never panics, for any data slice, any ADS-B version value and any NIC supplements.", "quantifier": "every byte slice, version and supplement", "why_tests_cant": "All inputs.", "anchors": ["pkg/adsb/reader/reader.go:ReadADSBMessage"]}
{"id": "C25", "title": "ADS-B dispatch on the type code", "statement": "ReadADSBMessage gives a message of the family assigned to its 5-bit type code (0 no position / type 0 position, 1-4 identification, 5-8 surface, 9-18 and 20-22 airborne, 19 velocity, 28 status, 29 target state, 31 operational status); every other type code, and every length but 7, is an error.", "quantifier": "every data slice, version and supplements", "why_tests_cant": "All inputs.", "anchors": ["pkg/adsb/reader/reader.go:ReadADSBMessage"]}
{"id": "C26", "title": "ADS-B version reported", "statement": "A successfully read message reports the version it was asked to be read with, except that an operational status message reports the version number it carries (bits 41-43).", "quantifier": "every message, every version", "why_tests_cant": "All inputs.", "anchors": ["pkg/adsb/reader/reader.go:ReadADSBMessage", "pkg/bds/bds65/*.go:GetADSBLevel"]}
{"id": "C27", "title": "Nil result on error", "statement": "When ReadADSBMessage (or ReadMessage) returns an error the message it returns compares equal to nil.", "quantifier": "every failing input", "why_tests_cant": "The property concerns every error path.", "anchors": ["pkg/adsb/reader/reader.go:ReadADSBMessage", "pkg/modes/reader/reader.go:ReadMessage"]}
{"id": "C28", "title": "Airborne position content", "statement": "In a read airborne position the surveillance status, antenna/NIC-B flag, time flag, CPR format, the 17-bit encoded latitude and longitude and the altitude are the numbers in their bit positions, the altitude being 25*N-1000 with Q and the Gillham value without it.", "quantifier": "every 7-byte airborne position", "why_tests_cant": "2^56 messages.", "anchors": ["pkg/bds/bds05/airborne_position.go", "pkg/bds/bds05/fields/*.go"]}
{"id": "C29", "title": "Positions without altitude", "statement": "An airborne position (or a no-position report) whose altitude field is all zero, meaning altitude not available, can be read like any other.", "quantifier": "every such message", "why_tests_cant": "All messages with a zero altitude field.", "anchors": ["pkg/bds/bds05/fields/altitude.go", "pkg/adsb/no_position_information/no_position_information.go"]}
{"id": "C30", "title": "Navigation integrity category consistency", "statement": "For every version, type code and supplement, the NIC and the containment radius class reported for a position agree with each other and with the standard table (same row), and NIC lies within 0..11.", "quantifier": "every type code, version and supplement combination, every message body", "why_tests_cant": "All table rows at once, for any message body.", "anchors": ["pkg/adsb/airborne_position/airborne_position_v1.go", "pkg/adsb/airborne_position/airborne_position_v2.go", "pkg/adsb/surface_position/surface_position_v1.go", "pkg/adsb/surface_position/surface_position_v2.go"]}
{"id": "C31", "title": "Surface position content", "statement": "In a read surface position movement, ground track, time, CPR format and 17-bit encoded coordinates are the numbers in their bit positions; the speed is a non-decreasing function of the movement code on 1..124, between 0 and 175 kt, and 0 for no information/reserved codes.", "quantifier": "every 7-byte surface position", "why_tests_cant": "All messages.", "anchors": ["pkg/bds/bds06/surface_position.go", "pkg/bds/bds06/fields/*.go"]}
{"id": "C32", "title": "Velocity over ground", "statement": "A subtype 1/2 velocity message yields east-west and north-south components with direction and status taken from the bit positions: 0 no information, the all-ones code the maximum, otherwise (v-1) kt or 4(v-1) kt.", "quantifier": "every 7-byte velocity message", "why_tests_cant": "All messages.", "anchors": ["pkg/bds/bds09/*.go", "pkg/bds/bds09/fields/*.go"]}
{"id": "C33", "title": "Airspeed and heading", "statement": "A subtype 3/4 velocity message yields the heading (raw*360/1024 degrees, in [0,360)) with its status, and the airspeed with unit, status and the same coding as the ground components.", "quantifier": "every 7-byte velocity message", "why_tests_cant": "All messages.", "anchors": ["pkg/bds/bds09/*.go", "pkg/bds/bds09/fields/*.go"]}
{"id": "C34", "title": "Vertical rate and height difference", "statement": "Vertical rate is sign*(r-1)*64 ft/min within [-32640,32640] and height difference sign*(n-1)*25 ft within [-3150,3150]; the status tells no-information/regular/maximum; negation only flips the sign bit.", "quantifier": "every 7-byte velocity message", "why_tests_cant": "All messages.", "anchors": ["pkg/bds/bds09/fields/vertical_rate.go", "pkg/bds/bds09/fields/height_difference.go"]}
{"id": "C35", "title": "Ground speed and track", "statement": "The ground speed derived from the two components is the integer square root of the sum of squares, and is only given when both components are regular; the track is the angle of the signed components and lies in [0,360).", "quantifier": "every pair of components", "why_tests_cant": "Needs real analysis, not sampling.", "anchors": ["pkg/bds/bds09/airborne_velocity_ground_speed_normal.go:GetSpeed", "pkg/bds/bds09/airborne_velocity_ground_speed_normal.go:GetTrack"]}
{"id": "C36", "title": "Callsign round trip", "statement": "Every 8-character callsign over A-Z, 0-9 and space, encoded in 6-bit characters, is read back unchanged from BDS 0,8 and BDS 2,0; a message is judged coherent exactly when all its characters are in that alphabet (and, for BDS 0,8, its category is not reserved).", "quantifier": "all 37^8 callsigns, all 7-byte messages", "why_tests_cant": "Beyond enumeration.", "anchors": ["pkg/bds/bds08/aircraft_identification_and_category.go", "pkg/bds/bds20/aircraft_identification.go", "pkg/bds/encoding/identification.go"]}
{"id": "C37", "title": "Emitter category", "statement": "Type codes 1, 2, 3, 4 select category sets D, C, B, A and the category within the set is the low three bits of the first byte.", "quantifier": "every identification message", "why_tests_cant": "All messages.", "anchors": ["pkg/bds/bds08/*.go"]}
{"id": "C38", "title": "Aircraft status", "statement": "An aircraft status message is read as no-information, emergency or ACAS broadcast by its subtype and others are rejected; the emergency state and Mode A bits come from their positions; messages whose reserved bits are not zero are rejected.", "quantifier": "every 7-byte aircraft status message", "why_tests_cant": "All messages.", "anchors": ["pkg/bds/bds61/*.go"]}
{"id": "C39", "title": "Target state and status", "statement": "A target state message is read by its subtype (0 or 1, others rejected) and each of its fields is the number in its bit position with its documented scaling.", "quantifier": "every 7-byte target state message", "why_tests_cant": "All messages.", "anchors": ["pkg/bds/bds62/*.go", "pkg/bds/bds62/fields/*.go"]}
{"id": "C40", "title": "Operational status dispatch", "statement": "An operational status message is read in the layout of the version number it carries (0, 1, 2; others rejected) and its subtype (airborne or surface), and reports that version.", "quantifier": "every 7-byte operational status message", "why_tests_cant": "All messages.", "anchors": ["pkg/bds/bds65/*.go"]}
{"id": "C41", "title": "Operational status content", "statement": "Every field of a read operational status message is the number in its bit position, and every reserved position that must be zero is zero.", "quantifier": "every 7-byte operational status message", "why_tests_cant": "All messages.", "anchors": ["pkg/bds/bds65/*.go", "pkg/bds/bds65/fields/*.go"]}
{"id": "C42", "title": "Comm-B inference is total", "statement": "ReadCommBMessage never panics and fails exactly when the data is not 7 bytes long.", "quantifier": "every byte slice", "why_tests_cant": "All slices.", "anchors": ["pkg/commb/reader.go:ReadCommBMessage"]}
{"id": "C43", "title": "Comm-B inference is sound and complete", "statement": "Every returned candidate is coherent and is what its own register reader makes of the data; when the data is not one of the unambiguous registers (C44) the candidates are exactly the registers whose reader accepts the data and whose coherency check passes, in increasing register order, each at most once.", "quantifier": "every 7-byte Comm-B field", "why_tests_cant": "All inputs against all register layouts.", "anchors": ["pkg/commb/reader.go:ReadCommBMessage"]}
{"id": "C44", "title": "Comm-B unambiguous registers", "statement": "An all-zero field gives exactly the no-data message; otherwise a coherent BDS 0,7 or BDS 2,0 field gives exactly that one message.", "quantifier": "every 7-byte Comm-B field", "why_tests_cant": "All inputs.", "anchors": ["pkg/commb/reader.go:ReadCommBMessage"]}
{"id": "C45", "title": "Comm-B callsign", "statement": "For every callsign, its BDS 2,0 encoding put through ReadCommBMessage returns exactly one candidate, whose identification is that callsign.", "quantifier": "all 37^8 callsigns", "why_tests_cant": "Beyond enumeration.", "anchors": ["pkg/commb/reader.go", "pkg/bds/bds20/aircraft_identification.go"]}
{"id": "C46", "title": "Unavailable parameters carry no value", "statement": "In every coherent BDS 4,0 / 4,4 / 5,0 / 6,0 candidate a parameter whose status is unavailable has the value zero, at least one parameter is available, and the documented plausibility limits hold.", "quantifier": "every coherent message", "why_tests_cant": "All messages.", "anchors": ["pkg/bds/bds40", "pkg/bds/bds44", "pkg/bds/bds50", "pkg/bds/bds60"]}
{"id": "C47", "title": "BDS 4,0 content", "statement": "In a BDS 4,0 message MCP/FCU altitude (status bit 1, value bits 2-13 times 16 ft), FMS altitude (status bit 14, value bits 15-26 times 16 ft), barometric setting (status bit 27, bits 28-39 times 0.1 mb plus 800), the mode bits and target source are the numbers in those positions.", "quantifier": "every readable BDS 4,0 message", "why_tests_cant": "All messages.", "anchors": ["pkg/bds/bds40"]}
{"id": "C48", "title": "BDS 5,0 and 6,0 content", "statement": "Each parameter of BDS 5,0 (roll, true track, ground speed, track rate, true airspeed) and BDS 6,0 (heading, IAS, Mach, barometric rate, inertial rate) is the two's-complement or unsigned number in its bit positions times its resolution, and lies in its documented range.", "quantifier": "every 7-byte message", "why_tests_cant": "All messages.", "anchors": ["pkg/bds/bds50", "pkg/bds/bds60"]}
{"id": "C49", "title": "BDS 4,4 content and layout choice", "statement": "The meteorological routine report is read in the layout selected by its source field, falls back to the older layout when the newer cannot be read, and wind, temperature, pressure, turbulence and humidity are the numbers in their bit positions.", "quantifier": "every 7-byte message", "why_tests_cant": "All messages.", "anchors": ["pkg/bds/bds44"]}
{"id": "C50", "title": "BDS 4,5 content and layout choice", "statement": "The meteorological hazard report is read in the newer layout, or else in the older one, and its fields are the numbers in their bit positions.", "quantifier": "every 7-byte message", "why_tests_cant": "All messages.", "anchors": ["pkg/bds/bds45"]}
{"id": "C51", "title": "BDS 1,0 content", "statement": "Every field of a data link capability report is the number in its bit position, and the register number and reserved bits are enforced.", "quantifier": "every 7-byte message", "why_tests_cant": "All messages.", "anchors": ["pkg/bds/bds10"]}
{"id": "C52", "title": "BDS 1,7 content", "statement": "Each capability flag of a common usage GICB report is its bit, reserved bits are enforced, and distinct readable messages give distinct reports.", "quantifier": "every 7-byte message", "why_tests_cant": "All messages.", "anchors": ["pkg/bds/bds17"]}
{"id": "C53", "title": "BDS 0,7 acceptance", "statement": "A status message is readable exactly when its reserved bits 4-56 are zero, and coherent exactly when its transmission rate is not the reserved one.", "quantifier": "every 7-byte message", "why_tests_cant": "All messages.", "anchors": ["pkg/bds/bds07"]}
{"id": "C54", "title": "Number of longitude zones", "statement": "The number of longitude zones is between 1 and 59, is the same for opposite latitudes and never increases with the distance to the equator.", "quantifier": "every real latitude", "why_tests_cant": "Continuum of latitudes; monotonicity.", "anchors": ["pkg/geo/cpr_common.go:getNumberOfLongitude"]}
{"id": "C55", "title": "Airborne global position decoding", "statement": "For a true position (latitude within +-90, inside one longitude-zone band) encoded in an even and an odd message, the globally decoded latitude and longitude are within half a CPR step of the truth.", "quantifier": "every latitude, longitude in range and both parities of last message", "why_tests_cant": "Continuum of positions; the claim is about an inverse function.", "anchors": ["pkg/geo/cpr_airborne_global_position.go"]}
{"id": "C56", "title": "Airborne local position decoding", "statement": "For a true position encoded in one message and a reference closer than half a zone (less half a CPR step) to it in both axes, the locally decoded position is within half a CPR step of the truth.", "quantifier": "every position, every near enough reference", "why_tests_cant": "Continuum.", "anchors": ["pkg/geo/cpr_airborne_local_position.go"]}
{"id": "C57", "title": "Surface position decoding", "statement": "Surface global decoding recovers the true position within half a CPR step when the receiver is in the same hemisphere and within 45 degrees of longitude, choosing the candidate nearest to the receiver; surface local decoding does so for a reference closer than half a zone (less half a CPR step); neither ever panics.", "quantifier": "every position and reference", "why_tests_cant": "Continuum.", "anchors": ["pkg/geo/cpr_surface_global_position.go", "pkg/geo/cpr_surface_local_position.go"]}
{"id": "C58", "title": "Decoded coordinates are on the globe", "statement": "A position returned without error by global airborne decoding has latitude within [-90,90] and longitude within [-180,180].", "quantifier": "every pair of encoded coordinates", "why_tests_cant": "2^68 pairs of messages.", "anchors": ["pkg/geo/cpr_airborne_global_position.go"]}
{"id": "C59", "title": "Ground distance is a distance", "statement": "The ground distance is symmetric, non-negative, zero for identical points, at most half the circumference, and invariant under adding 360 degrees to a longitude.", "quantifier": "every pair of positions", "why_tests_cant": "Continuum.", "anchors": ["pkg/geo/ground_distance.go:ComputeGroundDistance"]}
{"id": "C60", "title": "A received line never crashes the program", "statement": "Decoding one received line (hex text to printed message, through frame, CRC, ADS-B, TIS-B, ACAS and Comm-B decoding) never panics.", "quantifier": "every line of text", "why_tests_cant": "All lines.", "anchors": ["cmd/main.go:processSingleLine"]}
{"id": "C61", "title": "Indenting multi-line text", "statement": "PrefixMultiLine puts the prefix in front of every line, keeps the number of lines and the text of every line, for any text and prefix.", "quantifier": "every text and prefix", "why_tests_cant": "All strings.", "anchors": ["pkg/common/printable.go:PrefixMultiLine"]}
{"id": "C62", "title": "ACAS bearing and range values", "statement": "The bearing getter returns the centre of the 6-degree sector of the code (1..60), and 0/an out-of-circle value for no/invalid information; the range getter is monotone and lies in 0..12.6 NM.", "quantifier": "every 6-bit and 7-bit code", "why_tests_cant": "All codes through the public reader.", "anchors": ["pkg/acas/ra/fields/threat_identity_bearing.go", "pkg/acas/ra/fields/threat_identity_range.go"]}
{"id": "C63", "title": "Decoded content does not depend on the parity bits", "statement": "Two frames that differ only in their last 24 bits are both accepted or both rejected by ReadMessage and give the same fields; and the parity reported is exactly those 24 bits.", "quantifier": "every pair of frames", "why_tests_cant": "All pairs.", "anchors": ["pkg/modes/reader/reader.go:ReadMessage"]}
{"id": "C64", "title": "Minimum distance of accepted squitters", "statement": "Two different DF17/DF18 frames that both pass CheckCRC differ in at least six bits, wherever they are; so corrupting one to five bits of an accepted frame (the format kept) always makes CheckCRC fail.", "quantifier": "every pair of frames", "why_tests_cant": "All pairs of 112-bit frames.", "anchors": ["pkg/modes/reader/crc.go:CheckCRC", "pkg/modes/reader/crc.go:computeParity"]}
{"id": "C65", "title": "Corruption changes the recovered address", "statement": "For formats whose parity is overlaid with an address or interrogator code, corrupting one to five bits, or any bits within a window of 24, never leaves the code recovered by CheckCRC unchanged.", "quantifier": "every pair of frames", "why_tests_cant": "All pairs of frames.", "anchors": ["pkg/modes/reader/crc.go:CheckCRC", "pkg/modes/reader/crc.go:computeParity"]}
{"id": "C66", "title": "Messages without a position type", "statement": "A message of type code 0 is reported as having no position when bits 21-56 are zero and as a position otherwise; its altitude is the barometric altitude in bits 9-20, and time, format, latitude and longitude are the numbers in their positions.", "quantifier": "every 7-byte message of type code 0, every version", "why_tests_cant": "All message bodies.", "anchors": ["pkg/adsb/no_position_information/no_position_information.go:ReadNoPositionInformation", "pkg/adsb/airborne_position/airborne_position_type_0.go:ReadAirbornePositionType0"]}
{"id": "C67", "title": "What the program reports for a line", "statement": "A line that is not pairs of hexadecimal digits is reported as such. The bytes spelled by any other line are reported unreadable exactly when they are not an acceptable frame, as a parity error exactly when the frame is an extended squitter whose parity is wrong, and otherwise with the sender's address (for all-call replies, the interrogator code) recovered from the parity, the message, and, by format: the resolution advisory of an ACAS reply, the ADS-B message of an extended squitter (DF18: control fields 0 and 1 only; 2 to 5 are TIS-B), or the Comm-B candidates.", "quantifier": "every line of text and every requested ADS-B version", "why_tests_cant": "All lines of text.", "anchors": ["cmd/main.go:processSingleLine"]}
{"id": "C68", "title": "Rounding does not change decoded positions", "statement": "Computed in float64 (every operation rounded to 53 bits, library cosine and arccosine accurate to 2^-52 and 2^-49), airborne global decoding accepts exactly the message pairs that exact arithmetic accepts and returns the exact coordinates within 2^-43 degree (up to a whole turn); the positions of aircraft are decoded within half a CPR step plus 10^-11 degree by airborne global, airborne local, surface global and surface local decoding. For surface messages: latitudes less than four steps (5 m) from the equator but not on it, and positions within 0.02 degree of the antimeridian or of the 45 degree limit, are left out.", "quantifier": "every 17-bit code, every position and reference, every accurate library", "why_tests_cant": "Tests compare a few printed coordinates; a rounding error that moves an index across a zone limit would displace a position by hundreds of kilometres at isolated inputs.", "anchors": ["pkg/geo/cpr_common.go", "pkg/geo/cpr_airborne_global_position.go", "pkg/geo/cpr_airborne_local_position.go", "pkg/geo/cpr_surface_global_position.go", "pkg/geo/cpr_surface_local_position.go"]}
{"id": "C69", "title": "Coherence of ADS-B messages", "statement": "CheckCoherency complains about an ADS-B message that was read exactly when it is an identification with a character that stands for nothing or a reserved category (set D, or 4-7 of set C), a no-information status message telling of an emergency, or a status message with an emergency state above 5; it never complains about any other message.", "quantifier": "every 7-byte message, every version and supplement", "why_tests_cant": "All message bodies.", "anchors": ["pkg/adsb/reader/reader.go:ReadADSBMessage", "pkg/adsb/aircraft_status/aircraft_status.go:CheckCoherency", "pkg/adsb/aircraft_identification_and_category/aircraft_identification_and_category.go:CheckCoherency", "pkg/bds/bds05/airborne_position.go:CheckCoherency"]}
{"id": "C70", "title": "Packing of flags", "statement": "Pack8Bits and Pack16Bits return the number whose binary digits are the given flags, the first flag being the most significant one.", "quantifier": "every combination of eight or sixteen flags", "why_tests_cant": "65536 combinations, of which tests try a few.", "anchors": ["pkg/bitutils/bitutils.go:Pack8Bits", "pkg/bitutils/bitutils.go:Pack16Bits"]}
{"id": "C71", "title": "Bounds of the codes of surface positions", "statement": "For version 0 surface positions, the bounds returned for the containment radius and the horizontal protection limit are the published ones (as doubles), -1 standing for none. The intervals of the four containment radius codes are disjoint and cover all radii; the protection limits loosen with the code, the last class being exactly what exceeds the others.", "quantifier": "every surface position message read with version 0, every code, every real radius", "why_tests_cant": "All radii and codes; a gap or an overlap would show only at the limits.", "anchors": ["pkg/adsb/surface_position/fields/containment_radius.go", "pkg/adsb/surface_position/fields/horizontal_protection_limit.go", "pkg/adsb/surface_position/surface_position_v0.go:ReadSurfacePositionV0"]}
{"id": "C72", "title": "Texts of coded fields identify the code", "statement": "For every coded field with a table of texts (flight status, capability, emitter category, ...), the texts of two different codes are different, including codes outside the table, and a text is always a single line.", "quantifier": "the 130 coded field types, every pair of byte values", "why_tests_cant": "Injectivity over all pairs of codes of all field types; tests compare a few texts.", "anchors": ["pkg/modes/fields/flight_status.go:ToString", "pkg/modes/fields/capability.go:ToString", "pkg/bds/bds08/fields/aircraft_category_set_a.go:ToString", "pkg/bds/bds62/fields/source_integrity_level.go:ToString"]}
{"id": "C73", "title": "Number shown in the text of a coded field", "statement": "When the text of a coded field starts with a number followed by a dash, that number is the code of the field.", "quantifier": "the 130 coded field types, every byte value", "why_tests_cant": "All codes of all types; a copy-paste slip in one line shows only for that code.", "anchors": ["pkg/modes/fields/flight_status.go:ToString", "pkg/bds/bds10/fields/modes_subnetwork_version.go", "pkg/bds/bds62/fields/source_integrity_level.go", "pkg/bds/bds65/fields/geometric_vertical_accuracy.go"]}
{"id": "C74", "title": "Text of a Mode S message", "statement": "For every frame that ReadMessage accepts, ToString of the message does not panic and its first line shows the downlink format and the name of the message. Two accepted frames whose messages have the same text have the same downlink format and the same decoded fields; for all-call replies and extended squitters the two frames then agree on every bit but the parity.", "quantifier": "every accepted frame, every pair of accepted frames", "why_tests_cant": "2^56 and 2^112 frames; two different messages with the same text are found only by comparing all pairs.", "anchors": ["pkg/modes/messages/df0.go:ToString", "pkg/modes/messages/df17.go:ToString", "pkg/modes/messages/df21.go:ToString", "pkg/modes/fields/identity.go:ToString", "pkg/modes/fields/message_acas.go:ToString", "pkg/modes/fields/address_announced.go:ToString"]}
{"id": "C75", "title": "Text of an ADS-B message", "statement": "Two extended squitter payloads that ReadADSBMessage accepts and whose messages have the same text are messages of the same kind with the same decoded fields, so that nothing decoded is lost in the printed report.", "quantifier": "every pair of accepted payloads, every ADS-B version and NIC supplement", "why_tests_cant": "2^56 payloads: two different messages with the same text are found only by comparing all pairs.", "anchors": ["pkg/adsb/reader/reader.go:ReadADSBMessage", "pkg/adsb/airborne_position/airborne_position_v2.go:ToString", "pkg/bds/bds05/airborne_position.go:ToString", "pkg/bds/bds09/airborne_velocity_ground_speed_normal.go:ToString", "pkg/bds/bds61/aircraft_status_emergency.go:ToString", "pkg/bds/bds62/target_state_and_status_type_1.go:ToString", "pkg/bds/bds65/aircraft_operational_status_airborne_adsb2.go:ToString"]}
{"id": "C76", "title": "Text of a Comm-B candidate", "statement": "Two Comm-B candidates returned by ReadCommBMessage (for the same or for different fields) that have the same text are of the same register with the same decoded fields; in particular the candidates of one field have different texts.", "quantifier": "every pair of Comm-B fields, every pair of candidates", "why_tests_cant": "2^56 fields with up to eight candidates each: only a proof compares all pairs.", "anchors": ["pkg/commb/reader.go:ReadCommBMessage", "pkg/bds/bds10/data_link_capability_report.go:ToString", "pkg/bds/bds44/meteorological_routine_air_report_v1.go:ToString", "pkg/bds/bds50/track_and_turn_report.go:ToString", "pkg/acas/ra/resolution_advisory.go:ToString"]}
{"id": "C77", "title": "The printed report shows the transmitted values", "statement": "For every accepted payload, the text has exactly one line with each label (altitude, encoded latitude and longitude, format, speed, track, directions and velocities, vertical rate, callsign, emergency state, and for Comm-B the selected altitudes, roll, track, speeds, Mach number, vertical velocities, the capability bits, the weather and hazard values, and for target states the selected altitude, pressure setting and heading), and that line shows the number that is in the documented bits of the payload, in the documented unit.", "quantifier": "every accepted payload of these families", "why_tests_cant": "the lines are formatted from 2^56 payloads; a test looks at the text of a few.", "anchors": ["pkg/bds/bds05/airborne_position.go:ToString", "pkg/bds/bds06/surface_position.go:ToString", "pkg/bds/bds08/aircraft_identification_and_category.go:ToString", "pkg/bds/bds09/airborne_velocity_ground_speed_normal.go:ToString", "pkg/bds/bds50/track_and_turn_report.go:ToString", "pkg/bds/bds60/heading_and_speed_report.go:ToString", "pkg/bds/bds40/selected_vertical_intention.go:ToString"]}
{"id": "C78", "title": "From the aircraft to the decoded report", "statement": "When an aircraft sends extended squitters built as the standard says (fields, header, parity), the chain ReadMessage, CheckCRC, ReadADSBMessage gives back its address and the altitude, speed, track and encoded position it sent, and the CPR functions applied to an even and an odd message (or to one message and a reference) give its true position within half a step of the encoding plus rounding; the program prints the address and the callsign or altitude that were sent.", "quantifier": "every address, capability, type code, altitude multiple of 25 ft, position, callsign, reader level, spelling of the hexadecimal text", "why_tests_cant": "The composition of four readers over 2^112 frames and a continuum of positions.", "anchors": ["pkg/modes/reader/reader.go:ReadMessage", "pkg/modes/reader/crc.go:CheckCRC", "pkg/adsb/reader/reader.go:ReadADSBMessage", "pkg/geo/cpr_airborne_global_position.go", "pkg/geo/cpr_airborne_local_position.go", "pkg/geo/cpr_surface_global_position.go", "cmd/main.go:processSingleLine"]}
{"id": "C79", "title": "What the program prints for a line", "statement": "For every line the program echoes it and then prints one report, without panicking; the output of a file is the outputs of its lines in order. The report of a readable extended squitter consists of the address, the Mode S fields and the text of the ADS-B message, and two frames reported with the same words have the same address and the same Mode S fields. Each report ends its line.", "quantifier": "every text, every list of lines, every pair of frames, every reader level", "why_tests_cant": "All lines, files and pairs of frames; a lost line break appears only with particular neighbours in a file.", "anchors": ["cmd/main.go:processSingleLine", "cmd/main.go:processADSBMessage", "cmd/main.go:processCommBMessage", "cmd/main.go:postProcessMessage16", "cmd/main.go:postProcessMessage18"]}
{"id": "C80", "title": "Command line of the program", "statement": "Data given as first argument is reported; with a file, each of its lines (ended by LF or CR LF, the last possibly not ended) is reported at the reader level set, whatever the order and spelling of the flags; a file that cannot be read or has a line of 65536 bytes or more gives exit code 1 and no output; only a reader level other than 0, 1, 2 makes the program panic; the reader level set on the command line applies to data given on the command line too.", "quantifier": "every list of arguments, every content of the files", "why_tests_cant": "All argument lists and files; the tests never run main.", "anchors": ["cmd/main.go:main", "cmd/main.go:readFile"]}
{"id": "C81", "title": "What a message says it is", "statement": "GetRegister().GetId() of every candidate the Comm-B reader returns is the published name (\"BDS x,y\") of the register whose reader accepted the data, no two candidates name the same register, and a candidate naming BDS 1,0, 2,0 or 3,0 was read from data that starts with that number; GetRegister of an ADS-B message is the register of its type code; GetSubtype is the transmitted subtype, GetCategorySetName the set of the type code, GetTurbulenceStatus the transmitted status and GetSource the transmitted source.", "quantifier": "every 7-byte message and every reader level", "why_tests_cant": "2^56 messages; the tests never call these methods.", "anchors": ["pkg/bds/register/register_reference.go:Register.GetId", "pkg/bds/message.go:Message", "pkg/commb/reader.go:ReadCommBMessage", "pkg/adsb/reader/reader.go:ReadADSBMessage", "pkg/bds/bds09/airborne_velocity.go:AirborneVelocity", "pkg/bds/bds44/meteorological_routine_air_report_v2.go:MeteorologicalRoutineAirReportV2.GetSource", "pkg/bds/bds08/fields/aircraft_category.go:AircraftCategory", "pkg/bds/bds45/meteorological_hazard_report.go:MeteorologicalHazardReport"]}
{"id": "C82", "title": "Readers of one kind of message, called directly", "statement": "The exported reader of one kind of velocity, status, target state or operational status message, given any data, returns what the reader of the whole family returns when that is a message of its kind and an error otherwise; no exported reader of one kind or version of message panics, whatever the data and its length.", "quantifier": "every byte sequence of any length, every version and supplement", "why_tests_cant": "Unbounded data; short and over-long data for each of some thirty exported readers.", "anchors": ["pkg/bds/bds09/airborne_velocity_ground_speed_normal.go:ReadAirborneVelocityGroundSpeedNormal", "pkg/bds/bds61/aircraft_status_emergency.go:ReadAircraftStatusEmergency", "pkg/bds/bds62/target_state_and_status_type_0.go:ReadTargetStateAndStatus0", "pkg/bds/bds65/aircraft_operational_status_adsb0.go:ReadAircraftOperationalStatusADSB0", "pkg/adsb/airborne_position/airborne_position.go:ReadAirbornePosition", "pkg/adsb/airborne_position/airborne_position_type_0.go:ReadAirbornePositionType0", "pkg/adsb/no_position_information/no_position_information.go:ReadNoPositionInformation", "pkg/adsb/surface_position/surface_position.go:ReadSurfacePosition"]}
{"id": "C83", "title": "Ground distance in double arithmetic", "statement": "Computed with doubles, ComputeGroundDistance returns a number for every two positions of the globe, within four metres of the great-circle distance; below 89 degrees of latitude, across at most 180 degrees of longitude and up to 19000 km, it is within one part in ten billion of it.", "quantifier": "every two positions, every standard library accurate to 2^-51", "why_tests_cant": "A continuum of positions; rounding errors meet at the poles, at zero distance and at antipodes, where tests rarely look.", "anchors": ["pkg/geo/ground_distance.go:ComputeGroundDistance"]}
{"id": "C84", "title": "Velocity, from the aircraft to the decoded report", "statement": "When an aircraft sends its velocity over ground, or its heading and airspeed, as the standard says (nearest steps, subsonic or supersonic coding), the chain ReadMessage, CheckCRC, ReadADSBMessage gives its address, its speed and track (or heading and airspeed), vertical rate and height difference within the resolution of the coding.", "quantifier": "every velocity, heading, rate and height difference the coding can express (real numbers), every address, capability, reader level", "why_tests_cant": "A continuum of velocities through four readers; errors of one step or of a sign in rare quadrants are invisible to a few examples.", "anchors": ["pkg/modes/reader/reader.go:ReadMessage", "pkg/modes/reader/crc.go:CheckCRC", "pkg/adsb/reader/reader.go:ReadADSBMessage", "pkg/bds/bds09/airborne_velocity_ground_speed_normal.go", "pkg/bds/bds09/airborne_velocity_air_speed_normal.go", "pkg/bds/bds09/airborne_velocity.go"]}
{"id": "C85", "title": "Comm-B registers, from the aircraft to the candidates", "statement": "When an aircraft answers with a Comm-B reply (formats 20 and 21) that carries its callsign, its track and turn report (BDS 5,0) or its heading and speed report (BDS 6,0) for a plausible state of flight, whichever parameters are available, the chain ReadMessage, CheckCRC, ReadCommBMessage gives its address and candidates among which is the report sent, the available values within half a step of what was sent and the others marked unavailable; the callsign is the only candidate.", "quantifier": "every plausible state of flight (real numbers), every subset of available parameters, every address and header, every callsign", "why_tests_cant": "A continuum of states of flight, 32 combinations of available parameters, and twelve register readers that compete for the same 56 bits.", "anchors": ["pkg/modes/reader/reader.go:ReadMessage", "pkg/modes/reader/crc.go:CheckCRC", "pkg/commb/reader.go:ReadCommBMessage", "pkg/bds/bds50/track_and_turn_report.go:CheckCoherency", "pkg/bds/bds60/heading_and_speed_report.go:CheckCoherency"]}
{"id": "C86", "title": "Surveillance replies, from the aircraft to the receiver", "statement": "When an aircraft answers an interrogation with its altitude (formats 4, 20), its Mode A code (formats 5, 21), an air-air reply (formats 0, 16) or an all-call reply (format 11), coded as the standard says, ReadMessage gives the altitude within half an increment (25 or 100 feet) of the true one, the four digits of the Mode A code, the flight status, requests, sensitivity level and embedded message sent, and CheckCRC gives the address of the sender (for format 11 the interrogator code), or an error exactly if a list is given and does not hold it.", "quantifier": "every altitude the coding can express (real numbers), every Mode A code, header field, address, embedded message and allow list", "why_tests_cant": "A continuum of altitudes in two codings, 4096 Mode A codes and 2^24 addresses overlaid on the parity, composed through two entry points.", "anchors": ["pkg/modes/reader/reader.go:ReadMessage", "pkg/modes/reader/crc.go:CheckCRC", "pkg/modes/fields/altitude_code.go", "pkg/modes/fields/identity.go"]}
{"id": "C87", "title": "Emergencies and intentions, from the aircraft to the decoded report", "statement": "When an aircraft broadcasts an emergency with its Mode A code (BDS 6,1), or its autopilot settings (BDS 6,2, version 2), coded as the standard says, the chain ReadMessage, CheckCRC, ReadADSBMessage gives its address, the emergency state and the four digits, and the selected altitude, barometric setting and selected heading within half a step of what was set (or marked unavailable), the kind of the selected altitude, the modes engaged and the quality of the position.", "quantifier": "every emergency state, Mode A code, selected altitude, setting and heading (real numbers), present or not, every combination of modes, address, capability and reader level", "why_tests_cant": "A continuum of settings times the combinations of available values and flags; the wrong bits are only visible for some of them.", "anchors": ["pkg/modes/reader/reader.go:ReadMessage", "pkg/modes/reader/crc.go:CheckCRC", "pkg/adsb/reader/reader.go:ReadADSBMessage", "pkg/bds/bds61/aircraft_status_emergency.go", "pkg/bds/bds62/target_state_and_status_type_1.go"]}
{"id": "C88", "title": "Version learned from a history of messages", "statement": "A receiver that starts at some level, and after each message read without error by ReadADSBMessage keeps the version that the message reports (GetADSBVersion) as the level for the next one, is always at the version carried by the last acceptable operational status of the aircraft, whatever else was received (also damaged or foreign bytes); it never reaches a level the readers do not know, and positions are reported with that version.", "quantifier": "every history of messages (any number, any bytes), every initial level, both supplements", "why_tests_cant": "Histories are unbounded; a message type that resets or leaks the version only shows in particular orders.", "anchors": ["pkg/adsb/reader/reader.go:ReadADSBMessage", "pkg/adsb/messages.go", "pkg/bds/bds65/aircraft_operational_status_surface_adsb2.go:GetADSBLevel"]}
{"id": "C89", "title": "Selected altitudes, from the aircraft to the candidates", "statement": "When an aircraft sends its selected altitudes (MCP/FCU and FMS), its barometric pressure setting, its vertical modes and the source of its target altitude in BDS 4,0, in a Comm-B altitude or identity reply, the candidates of the receiver contain a BDS 4,0 report with, for each value, the value sent (up to half a step) and its availability.", "quantifier": "every pair of selected altitudes up to 65520 feet, every pressure setting between 800 and 1209.5 millibars, each available or not, every combination of modes and source, every reply header that can be read, every address", "why_tests_cant": "The altitudes and the pressure are real numbers and the combinations of availability, modes and header are too many to test; the unit tests check a few recorded frames.", "anchors": ["pkg/bds/bds40/selected_vertical_intention.go", "pkg/bds/bds40/fields/*.go", "pkg/commb/reader.go", "pkg/modes/messages/*.go"]}
{"id": "C90", "title": "Weather reports, from the aircraft to the candidates", "statement": "When an aircraft sends a meteorological routine report (BDS 4,4: wind, temperature, pressure, turbulence, humidity) or a hazard report (BDS 4,5: wind shear, microburst, icing, wake vortex, temperature, radio height, turbulence) in a Comm-B reply, the candidates of the receiver contain a report of that register with, for each value, the value sent (up to half a step) or its absence.", "quantifier": "every wind up to 250 knots, direction, temperature between -80 and 60 degrees, pressure, humidity, hazard level, radio height and eddy dissipation rate, each available or not, every source of navigation data, every reply header that can be read, every address", "why_tests_cant": "The values are real numbers, and whether a report is understood depends on every other register for which it could be taken.", "anchors": ["pkg/bds/bds44/*.go", "pkg/bds/bds45/*.go", "pkg/commb/reader.go", "pkg/modes/messages/*.go"]}
{"id": "C91", "title": "Resolution advisories, from the ACAS to the decoded report", "statement": "Whatever advisory an ACAS gives (same or different senses with their flags, complements, terminated or not, one or several threats, and the threat unknown, given by its address or by its altitude, range and bearing), an extended squitter of type 28 subtype 2, a Comm-B reply with BDS 3,0 or a long air-air reply carrying it is read back as that advisory, for the sender's address. The reader gets the threat's altitude right exactly when the pulses C1 and A1 of its code are zero, and loses the last bit of the range.", "quantifier": "all advisories, threats, senders, headers, altitudes of the sender, versions and frames built by the transmitter", "why_tests_cant": "2^48 advisories in three kinds of frames; examples cannot show which altitudes are lost", "anchors": ["pkg/acas/ra/resolution_advisory.go:ReadResolutionAdvisory", "pkg/acas/ra/fields/threat_identity_altitude.go:ReadThreatIdentityAltitude", "pkg/bds/bds61", "pkg/bds/bds30", "pkg/modes/messages/df16.go"]}
{"id": "C92", "title": "Capability reports, from the aircraft to the candidates", "statement": "Whatever registers an aircraft serves, a Comm-B reply carrying its common usage GICB capability report (BDS 1,7) yields, for the sender's address, a candidate announcing exactly these registers; and whatever data link capabilities it has, a Comm-B reply carrying its data link capability report (BDS 1,0, with assigned codes) yields a candidate announcing exactly these. The first holds exactly when the aircraft serves a register other than 0,5 0,6 0,7 2,0 and 2,1, or both 0,5 and 0,6 (otherwise the reply is taken for BDS 0,0 or 0,7); the second holds exactly when the aircraft does not have the surveillance identifier capability, which is never shown.", "quantifier": "all sets of registers, all assigned data link capabilities, both formats, all readable headers, all addresses, all frames built by the transmitter", "why_tests_cant": "2^27 sets of registers and 2^40 data link reports in two formats; examples cannot show which sets are mistaken for another register", "anchors": ["pkg/bds/bds17/common_usage_gicb_capability_report.go:ReadCommonUsageGICBCapabilityReport", "pkg/bds/bds10/data_link_capability_report.go:ReadDataLinkCapabilityReport", "pkg/bds/bds10/fields/surveillance_identifier_code.go:ReadSurveillanceIdentifierCode", "pkg/commb/reader.go:ReadCommBMessage", "pkg/bds/bds07/status.go:ReadStatus"]}
{"id": "C93", "title": "The ground track as computed with rounding", "statement": "Computed in double precision and returned as a float32, the ground track of any velocity message with regular components is in [0, 360) and within 0.000022 degree of the exact direction of the transmitted components, 0 if that is 0; so an aircraft flying a track at V knots is received with that track within 64 k / V + 0.000022 degree modulo 360 (k = 1 or 4 knots the step of the code).", "quantifier": "all contents of the two velocity components and their signs, all tracks and speeds within the range of the code, all senders and frames built by the transmitter, every arc tangent function with a relative accuracy of 2^-50", "why_tests_cant": "2^34 pairs of components, real tracks; rounding to 360 near the north would be met only by rare inputs", "anchors": ["pkg/bds/bds09/airborne_velocity_ground_speed_normal.go:GetTrack", "pkg/bds/bds09/airborne_velocity_ground_speed_supersonic.go:GetTrack"]}
{"id": "C94", "title": "Operational status reports, from the aircraft to the decoded report", "statement": "Whatever operational status an aircraft sends in an extended squitter of type 31 - version 0, version 1 or 2, airborne or on the surface, with any values in its fields and zeroes in the reserved ones - the receiver finds its address and a report of that version and kind with exactly these values, announced as of the version sent. A version 2 surface report is announced as version 1.", "quantifier": "all values of all fields of the five layouts, all addresses, capabilities, reader levels and frames built by the transmitter", "why_tests_cant": "up to 2^36 reports per layout; a field read one bit off is invisible for most values", "anchors": ["pkg/bds/bds65/aircraft_operational_status.go:ReadAircraftOperationalStatus", "pkg/bds/bds65/aircraft_operational_status_surface_adsb2.go:GetADSBLevel", "pkg/adsb/reader/reader.go:ReadADSBMessage", "pkg/modes/reader/reader.go:ReadMessage"]}
{"id": "C95", "title": "Which registers a Comm-B field is offered as", "statement": "The list of registers offered for a seven-byte Comm-B field is a fixed function of its 56 bits: the first of 0,0, 0,7 and 2,0 whose conditions hold, alone, and otherwise all of 1,0, 1,7, 3,0, 4,0, 4,4, 4,5, 5,0 and 6,0 whose conditions hold, in that order, the conditions being on the bits only (register number, reserved bits, status bits, ranges). Exactly forty-nine different answers occur (one of them is the empty list); in particular there are never more than five interpretations, 1,0 and 3,0 never come with 4,0, 5,0 or 6,0, 4,0 never comes with 4,4, and 4,4 and 4,5 never come together with 5,0 or 6,0.", "quantifier": "all 2^56 seven-byte fields; all 49 answers of the table", "why_tests_cant": "the combinations depend on all 56 bits at once; tests exercise a handful of fields and cannot show that a combination never occurs", "anchors": ["pkg/commb/reader.go:ReadCommBMessage", "pkg/bds/bds10/data_link_capability_report.go:CheckCoherency", "pkg/bds/bds44/meteorological_routine_air_report.go:ReadMeteorologicalRoutineAirReport", "pkg/bds/bds50/track_and_turn_report.go:CheckCoherency", "pkg/bds/bds60/heading_and_speed_report.go:CheckCoherency"]}
{"id": "C96", "title": "Different transmissions are told apart", "statement": "When two seven-byte fields are reported as the same register (Comm-B) or as the same ADS-B message, they are the same field, except for the bits the report does not carry: nothing the transmitter put in an information bit is lost. Claimed per message type with the exact list of lost bits: 0,0, 2,0, 4,5, 5,0, 6,0, positions, operational status version 0 and emergency reports lose none; 4,0 loses bit 27, 4,4 bit 6, 1,0 bit 35, a velocity the sign bits of zero rates and, in airspeed messages, bit 25.", "quantifier": "all pairs of seven-byte fields that share a reported message, every register and ADS-B message type, every assumed version, both supplements", "why_tests_cant": "injectivity ranges over pairs of inputs; a test compares a decoded field to an expected value and never looks at the other 2^56 fields that decode to the same value", "anchors": ["pkg/commb/reader.go:ReadCommBMessage", "pkg/adsb/reader/reader.go:ReadADSBMessage", "pkg/bds/bds09/airborne_velocity.go:ReadAirborneVelocity", "pkg/bds/bds40/selected_vertical_intention.go:ReadSelectedVerticalIntention"]}
{"id": "C97", "title": "Exactly which corruptions go unnoticed", "statement": "A frame obtained from an extended squitter that passes by corrupting any bits (the format remaining 17 or 18) passes too exactly when the polynomial of the wrong bits is a multiple of the ICAO generator. Hence a corruption of an odd number of bits is always noticed, every squitter that passes has an even number of ones, of all corruptions within any 25 consecutive bits exactly one goes unnoticed, for each content exactly one of the 2^24 parity fields passes, and the distance of six (C65) cannot be improved: every squitter has a neighbour at six bits that passes with the same address. Where the address is overlaid on the parity no corruption is refused: the address given changes by exactly the remainder of the error polynomial.", "quantifier": "all frames, all corruptions of any number of bits, all positions of the 25-bit window, all contents", "why_tests_cant": "the set of undetected corruptions has 2^88 members out of 2^112; a test tries a few and cannot show that no other one passes", "anchors": ["pkg/modes/reader/crc.go:computeParity", "pkg/modes/reader/crc.go:CheckCRC"]}
{"id": "C98", "title": "What the program prints for a reply, line by line", "statement": "For every accepted frame of the formats 0, 4, 5, 11, 19 and 24 the lines the program prints are exactly: the echo of the input, the title, whose message it is, the lines of the Mode S message, and an empty details line. For the formats 20 and 21 the details are exactly the Comm-B title followed by the texts of the candidate registers in order with a rule between any two, or the words for an unknown format when there is none; for the format 16 with the register 3,0 they are the ACAS title and the lines of the resolution advisory, and with another register its two hexadecimal digits; for a squitter with valid parity they are the ADS-B title and the lines of the ADS-B message (format 17, and 18 with control field 0 or 1), the words that TIS-B is not implemented (control fields 2 to 5), or nothing (6 and 7). Hence, from the aircraft to the printed line: the altitude printed is within half an increment of the real one, the Mode A code printed is the one set by the pilot with the words of the special codes, an all-call reply prints the announced address and the interrogator, the callsign sent in a Comm-B reply is printed, and any line of the text of any candidate register is printed.", "quantifier": "all accepted frames, all spellings of them in hexadecimal, all ADS-B levels, all altitudes, codes, addresses, callsigns", "why_tests_cant": "the output is built by nested calls whose texts depend on every field; a test compares a few outputs and cannot show that no line is lost, duplicated or attributed to another aircraft for some other frame", "anchors": ["cmd/main.go:processSingleLine", "pkg/modes/messages", "pkg/modes/common"]}
{"id": "C99", "title": "Coordinates that are not numbers, infinite or enormous", "statement": "The position decoders and the distance take float64 coordinates from their caller. When the receiver latitude given to a local decoder is NaN or infinite both decoded coordinates are NaN; when only the longitude is, the latitude is decoded as usual and the longitude is NaN. The global surface decoder takes from the receiver latitude only whether it is negative (NaN counts as north). A receiver longitude that is NaN, infinite or at least 10 010 000 degrees from zero makes it panic on every pair of messages that gives a position at longitude zero; one within 9 990 000 degrees never does. The distance is NaN as soon as one coordinate is NaN or infinite. For finite coordinates up to 10^50 the results are exactly those of arithmetic without special values: nothing overflows, and a NaN can only come from the square root of a negative number in the distance, or from a number of zones computed less than 10^-12 degree below 87 degrees in local decoding (never in surface decoding of 17-bit coordinates). Coordinates near the largest float64 do overflow: the distance is NaN.", "quantifier": "all float64 receiver coordinates including NaN and the infinities, all encoded coordinates, both parities, all cosine and arccosine functions as accurate as the hypothesis of C68 asks", "why_tests_cant": "the special values travel through some fifteen operations and comparisons, and which of them panics depends on the constant 10000000 and on comparisons with NaN being false; a test tries one pair of messages", "anchors": ["pkg/geo/cpr_airborne_local_position.go:GetCPRAirborneLocalPosition", "pkg/geo/cpr_surface_local_position.go:GetCPRSurfaceLocalPosition", "pkg/geo/cpr_surface_global_position.go:GetCPRSurfaceGlobalPosition", "pkg/geo/cpr_common.go:getNumberOfLongitude", "pkg/geo/ground_distance.go:ComputeGroundDistance"]}
{"id": "C100", "title": "The reason printed for a refusal is true", "statement": "When the program refuses a line it says why, and what it says is true of the line. A line that is not hexadecimal is answered with the first byte that is no digit (its code, and the character itself when printable), or, when all are digits, with the odd length. A refused frame is answered with the rule it breaks: the length, the downlink format it has, the length its format requires, or an altitude code without meaning. A squitter with wrong parity is said not to have a valid CRC. The content of a valid squitter that is refused is answered with a rule it breaks, naming the value or the bits at fault, and an unreadable advisory with its altitude. There is an error text exactly when there is a refusal. False of the code for an operational status message of version 3 to 7: the text gives the subtype as the version number ('must be comprised between 0 and 2 included, got 0').", "quantifier": "all lines of bytes, all frames, all 56-bit contents of extended squitters, the three reader levels", "why_tests_cant": "there are some thirty error texts with values in them over 2^56 contents, a test provokes a few of them and rarely compares the words; whether the value printed is the one at fault must be checked for every path", "anchors": ["cmd/main.go:processSingleLine", "pkg/modes/reader/reader.go:ReadMessage", "pkg/modes/reader/crc.go:CheckCRC", "pkg/adsb/reader/reader.go:ReadADSBMessage", "pkg/bds/bds65/aircraft_operational_status.go:ReadAircraftOperationalStatus", "pkg/bds/bds61/aircraft_status.go:ReadAircraftStatus", "pkg/bds/bds62/target_state_and_status.go:ReadTargetStateAndStatus", "pkg/bds/bds09/airborne_velocity.go:ReadAirborneVelocity", "pkg/acas/ra/resolution_advisory.go:ReadResolutionAdvisory"]}
{"id": "C101", "title": "The reader level is given as an integer numeral", "statement": "The value given to -adsb_reader_level is accepted if and only if it is an integer numeral that fits in 64 bits: an optional sign, then a decimal number that does not start with zero, an octal number after 0 or 0o, a binary number after 0b or a hexadecimal number after 0x (prefixes and digits in either case), with at most one underscore between two digits or after the prefix. It stands for exactly one number, and every 64-bit integer can be given by its decimal text. If the numeral stands for 0, 1 or 2 the file is read at that level; if it stands for another number the program panics; if the value is no such numeral the program exits with code 2 before reading anything. The program panics for no other reason than such a number.", "quantifier": "every value given to the flag, every other arguments, every file, every 64-bit integer", "why_tests_cant": "the texts are unbounded and the grammar mixes signs, five prefixes, digit separators and an overflow bound; a test tries a few numbers", "anchors": ["cmd/main.go: main", "cmd/main.go: flag adsb_reader_level"]}
{"id": "C102", "title": "The numbers in the printed reports are the values in decimal", "statement": "The text Go prints for a floating point number is an ordinary decimal number (sign, whole part without superfluous zeros, decimals not ending in zero) that reads back as the same number, with as few decimals as possible; different numbers have different texts and none has a line break. In the printed reports the barometric settings (BDS 4,0 and 6,2), threat ranges, surface speeds and tracks, turn rates, temperatures and humidities are therefore exactly the decimal values their codes stand for (1013.2, not 1013.20001); roll angles, tracks and headings are within 1/20000 degree, the computed track within 1/15000 degree of the direction of the velocity, the computed speed is the integer part of its length, and Mach numbers and eddy dissipation rates are within 1/500000.", "quantifier": "every floating point number of any precision; every ADS-B and Comm-B message of these kinds", "why_tests_cant": "the printed digits depend on rounding in binary, on the order of the operations and on the search for the shortest decimal; tests compare a few texts", "anchors": ["pkg/bds/bds40/fields/barometric_pressure.go: ReadBarometricPressure", "pkg/bds/bds62/fields/barometric_pressure_setting.go: ReadBarometricPressureSetting", "pkg/bds/bds60/fields/mach.go: ReadMach", "pkg/bds/bds45/fields/turbulence.go: ReadTurbulenceV1", "pkg/bds/bds06/surface_position.go: ToString", "pkg/bds/bds50/track_and_turn_report.go: ToString", "pkg/acas/ra/fields/threat_identity_range.go: ToString", "pkg/bds/bds09/airborne_velocity_ground_speed_normal.go: ToString"]}
{"id": "C103", "title": "The reason a Comm-B reader or a coherency check gives is true", "statement": "Whatever data it is called with, the reader of a Comm-B register returns an error exactly when it returns no message, and the coherency check of a Comm-B or ADS-B message returns an error exactly when the message is judged incoherent. The words of the error are one of a fixed list for that register, and what they say of the data is so: the named bits are not zero, the status bit is 0 but the named value is not 0, the named quantity is out of the named range, the value is a reserved one, or none of the quantities of the register is reported.", "quantifier": "every register reader and coherency check and every byte sequence of any length", "why_tests_cant": "there are about 80 error texts, each given for very many registers; a test sees one text for one register", "anchors": ["pkg/bds/bds00/no_message_available.go: ReadNoMessageAvailable", "pkg/bds/bds07/status.go: ReadStatus, CheckCoherency", "pkg/bds/bds08/aircraft_identification_and_category.go: CheckCoherency", "pkg/bds/bds10/data_link_capability_report.go: ReadDataLinkCapabilityReport, CheckCoherency", "pkg/bds/bds17/common_usage_gicb_capability_report.go: ReadCommonUsageGICBCapabilityReport", "pkg/bds/bds20/aircraft_identification.go: ReadAircraftIdentification, CheckCoherency", "pkg/bds/bds30/acas_resolution_advisory.go: ReadACASResolutionAdvisory", "pkg/bds/bds40/selected_vertical_intention.go: ReadSelectedVerticalIntention, CheckCoherency", "pkg/bds/bds44/meteorological_routine_air_report.go: ReadMeteorologicalRoutineAirReport", "pkg/bds/bds45/meteorological_hazard_report.go: ReadMeteorologicalHazardReport", "pkg/bds/bds50/track_and_turn_report.go: ReadTrackAndTurnReport, CheckCoherency", "pkg/bds/bds60/heading_and_speed_report.go: ReadHeadingAndSpeedReport, CheckCoherency", "pkg/bds/bds61/aircraft_status_emergency.go: CheckCoherency"]}
{"id": "C104", "title": "The reason an ADS-B reader or a Mode S parser gives when called directly is true", "statement": "Every exported reader of ADS-B registers and of one kind of ADS-B message, every parser of one Mode S format and the speed and track of a ground velocity return an error exactly when they return no value, whatever they are called with. The words of the error are one of a fixed list for that function and what they say is so: the length, type code, subtype, version or format is not the named one and is the one printed, the named bits are not 0, the altitude code has no meaning, the named speed is not known.", "quantifier": "every exported reader and parser, every byte sequence of any length, every version, every header and payload", "why_tests_cant": "each text is given for very many inputs, and the inputs the program itself never passes to these functions (wrong length, type code or subtype) are those a caller of the library meets", "anchors": ["pkg/bds/bds05/airborne_position.go: ReadAirbornePosition", "pkg/bds/bds06/surface_position.go: ReadSurfacePosition", "pkg/bds/bds08/aircraft_identification_and_category.go: ReadAircraftIdentificationAndCategory", "pkg/bds/bds09/airborne_velocity.go: ReadAirborneVelocity", "pkg/bds/bds09/airborne_velocity_ground_speed_normal.go: ReadAirborneVelocityGroundSpeedNormal, GetSpeed, GetTrack", "pkg/bds/bds61/aircraft_status.go: ReadAircraftStatus", "pkg/bds/bds61/aircraft_status_acas.go: ReadAircraftStatusACAS", "pkg/bds/bds62/target_state_and_status_type_0.go: ReadTargetStateAndStatus0", "pkg/bds/bds65/aircraft_operational_status_adsb0.go: ReadAircraftOperationalStatusADSB0", "pkg/bds/bds65/aircraft_operational_status_airborne_adsb1.go: ReadAircraftOperationalStatusAirborneADSB1", "pkg/adsb/airborne_position/airborne_position.go: ReadAirbornePosition", "pkg/adsb/surface_position/surface_position.go: ReadSurfacePosition", "pkg/modes/messages/df17.go: ParseDF17"]}
{"id": "C105", "title": "Calls of ReadMessage made at the same time do not disturb one another", "statement": "When any number of goroutines call ReadMessage at the same time, on slices that may overlap or be the same, whatever the order in which their steps reach the memory, and whatever other goroutines allocate and write elsewhere: no call changes a byte of a frame; every call that returns gives the error or the message that reading its frame alone gives, with a byte field (MV, MB, ME, MD) that shows its own frame, in an array of its own; and no call can be kept from returning by the others.", "quantifier": "every heap, every list of valid slices, every schedule of the steps of the calls, of allocations and of writes to other arrays", "why_tests_cant": "A race detector sees the schedules that happened to occur; the number of interleavings of a handful of calls is astronomical.", "anchors": ["pkg/modes/reader/reader.go: ReadMessage", "pkg/modes/fields/message_acas.go: ReadMessageACAS", "pkg/modes/fields/message_comm_b.go: ReadMessageCommB", "pkg/modes/fields/message_extended_squitter.go: ReadMessageExtendedSquitter", "pkg/modes/fields/message_comm_d.go: ReadMessageCommD"]}
{"id": "C106", "title": "The error of CheckCRC says why the frame was refused", "statement": "For every frame that ReadMessage reads and every two allow lists, CheckCRC returns an error in exactly these cases, with exactly these words: a squitter (DF17, DF18) whose 112 bits are not a multiple of the generator: \"the message does not have a valid CRC\"; an all-call reply (DF11) whose overlaid interrogator code is not on the list of interrogators, when there is one: \"the message parity resolves to an unknown Interrogator Identifier\"; any other reply whose overlaid address is not on the list of addresses, when there is one: \"the message parity resolves to an unknown Address\".", "quantifier": "every frame that is read, every pair of allow lists", "why_tests_cant": "The cause is a division of polynomials over all bits of the frame and a search in a list of the caller; a test sees a few frames and lists.", "anchors": ["pkg/modes/reader/crc.go: CheckCRC", "pkg/modes/reader/crc.go: checkCRCDF11", "pkg/modes/reader/crc.go: checkCRCDF17And18", "pkg/modes/reader/crc.go: checkCRCOther"]}
{"id": "C107", "title": "A refusal is worded by what the source says", "statement": "Every function of the public API that decodes (ReadMessage, CheckCRC, ReadADSBMessage, ReadCommBMessage, each register and format reader, each CheckCoherency) returns an error exactly when its source text, read statement by statement, reaches a `return \u2026 errors.New/fmt.Errorf`, and the error's words are the ones of that statement with its arguments filled in: the first test that fails, in the order of the source, decides the words. Consequently the claims of C100, C103, C104 and C106 about the words hold of the translated source itself and not only of the hand-written model.", "quantifier": "every input of every decoding function (ReadADSBMessage: levels 0 to 2; CheckCRC: calls that do not panic)", "why_tests_cant": "The first failing test among up to thirty in a row decides the words; a test fixes one input, and the words of nearly all errors are never looked at by the unit tests.", "anchors": ["pkg/modes/reader/reader.go: ReadMessage", "pkg/modes/reader/crc.go: CheckCRC", "pkg/adsb/reader/reader.go: ReadADSBMessage", "pkg/commb/reader.go: ReadCommBMessage", "pkg/bds/bds40/selected_vertical_intention.go: ReadSelectedVerticalIntention"]}
{"id": "C108", "title": "The text of a resolution advisory, line by line", "statement": "The text of a resolution advisory (in the reply DF16, the broadcast of ADS-B type 28 subtype 2, the Comm-B register 3,0) shows every transmitted item on its own line with its label: the type of the advisory and its flags, the sense (upward or downward), the four complements, termination, multiple threats, the type of the threat and, according to it, the address of the threat in hexadecimal, or its altitude, its range code with the distance, and its bearing code with the sector in degrees 6(n-1) to 6n.", "quantifier": "every 6 bytes of an advisory that is read; every frame, squitter and register that carries one", "why_tests_cant": "The lines depend on all 48 bits and the text has three shapes times three; there is no test of these texts.", "anchors": ["pkg/acas/ra/resolution_advisory.go: ToString", "pkg/acas/ra/fields/active_resolution_advisory_one_or_same_separation.go: ToString", "pkg/acas/ra/fields/resolution_advisory_complement.go: ToString", "pkg/acas/ra/fields/threat_identity_bearing.go: ToString", "pkg/bds/bds61/aircraft_status_acas.go: ToString", "pkg/bds/bds30/acas_resolution_advisory.go: ToString"]}
{"id": "C109", "title": "The printed texts are those of the code as written", "statement": "For every message that ReadMessage, ReadADSBMessage, ReadCommBMessage or ReadResolutionAdvisory gives, the text that ToString returns, as read mechanically from the source of the 270 ToString, GetName and GetRegister methods (every label, every separator, every line break, every coded value), is the text the other properties speak about: the same lines, in the same order, with the same values and the same panics. So what C74 to C77, C102 and C108 say of the printed report they say of the methods as written.", "quantifier": "every frame, squitter, register and advisory that is read; every text of a floating point number", "why_tests_cant": "The 270 texts have labels and cases a test would have to spell one by one, for every value of every field; there is no test of any of them in the repository.", "anchors": ["pkg/modes/messages/df17.go: ToString", "pkg/adsb/airborne_position/airborne_position_v2.go: ToString", "pkg/bds/bds65/aircraft_operational_status_surface_adsb2.go: ToString", "pkg/bds/bds62/target_state_and_status_type_1.go: ToString", "pkg/bds/bds45/meteorological_hazard_report_v1.go: ToString", "pkg/acas/ra/resolution_advisory.go: ToString"]}
{"id": "C110", "title": "The command prints what its source says", "statement": "For every line of text and every reader level 0, 1 or 2, the output of the command as read mechanically from the source of cmd/main.go (every Print, its format, every branch and return, the loop over the lines) is the output the other properties speak about: the line echoed, then the refusal with its words or the report with its headers, lines and separators; no line makes it panic. With -file it prints the reports of the lines in order and nothing else; without, that of its first argument; with neither, that no data was given; it panics, before printing anything, exactly for a reader level other than 0, 1 and 2.", "quantifier": "every line, file, argument list and reader level; every text of a floating point number", "why_tests_cant": "There is no test of the command; its output depends on every byte of every line through all readers and all ToString methods.", "anchors": ["cmd/main.go: main, processSingleLine, postProcessMessage16, postProcessMessage17, postProcessMessage18, postProcessMessage20, postProcessMessage21, processADSBMessage, processCommBMessage"]}
