import Verif.Model.Program
/-!
# The words of the errors the program prints

For each function that can refuse what the program gives it, the text of the error it returns; `none` when it returns none. The checks are
transcribed from the code in its order; where a check is the failure of another function of the model, that function is used.
-/
namespace Modes

/-- `data[i]`, for an index in range. -/
def byteAt (data : List UInt8) (i : Nat) : UInt8 := data.getD i 0

/-- `InvalidByteError.Error` of Go's encoding/hex: `fmt.Sprintf("encoding/hex: invalid byte: %#U", rune(e))`. The verb prints `U+`, four
hexadecimal digits, and the character between quotes if it is printable (`strconv.IsPrint`). -/
def invalidByteText (c : UInt8) : Txt :=
  t! "encoding/hex: invalid byte: U+00" ++ hex02 c ++
    (if (0x20 ≤ c ∧ c < 0x7F) ∨ (0xA1 ≤ c ∧ c ≠ 0xAD) then t! " '" ++ [Char.ofNat c.toNat] ++ t! "'" else [])

/-- `hex.DecodeString` of Go's library, called at cmd/main.go:90: its error. -/
def hexadecimalError : List UInt8 → Option Txt
  | [] => none
  | [a] => if hexValue a = none then some (invalidByteText a) else some (t! "encoding/hex: odd length hex string")
  | a :: b :: rest =>
    if hexValue a = none then some (invalidByteText a)
    else if hexValue b = none then some (invalidByteText b)
    else hexadecimalError rest

/-- The errors of `ParseDF4`, `ParseDF0`, `ParseDF16` and `ParseDF20` after the check of the format, which cannot fail here:
pkg/modes/messages/df0.go:48-56, df4.go:45-53, df16.go:46-54, df20.go:46-54. `name` is the format and `bytes` the length in the text. -/
def altitudeFormatError (name bytes : Nat) (payload : Nat) (m : MessageData) : Option Txt :=
  if m.payload.length ≠ payload then some (t! "DF" ++ dec name ++ t! " message must be " ++ dec bytes ++ t! " bytes long")
  else match readAltitude m with
    | .ok _ => none
    | .error _ => some (t! "the field Altitude is not readable")

/-- The errors of the other parsers after the check of the format: pkg/modes/messages/df5.go:44-46, df11.go:42-44, df17.go:43-45, df18.go:43-45,
df19.go:41-43, df21.go:45-47, df24.go:43-45. -/
def plainFormatError (name bytes : Nat) (payload : Nat) (m : MessageData) : Option Txt :=
  if m.payload.length ≠ payload then some (t! "DF" ++ dec name ++ t! " message must be " ++ dec bytes ++ t! " bytes long") else none

/-- `ReadMessage`, pkg/modes/reader/reader.go:16-67: its error. -/
def frameError (message : List UInt8) : Option Txt :=
  if message.length ≠ 7 ∧ message.length ≠ 14 then some (t! "a Mode S message must be 7 or 14 bytes long")
  else
    let m : MessageData := {
      downLinkFormat := (byteAt message 0 &&& 0xF8) >>> 3
      firstField := byteAt message 0 &&& 0x07
      payload := (message.take (message.length - 3)).drop 1
      parity := message.drop (message.length - 3) }
    match m.downLinkFormat.toNat with
    | 0 => altitudeFormatError 0 7 3 m
    | 4 => altitudeFormatError 4 7 3 m
    | 5 => plainFormatError 5 7 3 m
    | 11 => plainFormatError 11 7 3 m
    | 16 => altitudeFormatError 16 14 10 m
    | 17 => plainFormatError 17 14 10 m
    | 18 => plainFormatError 18 14 10 m
    | 19 => plainFormatError 19 14 10 m
    | 20 => altitudeFormatError 20 14 10 m
    | 21 => plainFormatError 21 14 10 m
    | 24 | 25 | 26 | 27 | 28 | 29 | 30 | 31 => plainFormatError 24 14 10 m
    | n => some (t! "the downlink format " ++ dec n ++ t! " is not supported")

/-- The error of `CheckCRC`, pkg/modes/reader/crc.go:24-100, when there is one: each of the three cases has only one. -/
def parityErrorText (message : ModeSMessage) : Txt :=
  match message.getDownLinkFormat with
  | 11 => t! "the message parity resolves to an unknown Interrogator Identifier"
  | 17 | 18 => t! "the message does not have a valid CRC"
  | _ => t! "the message parity resolves to an unknown Address"

/-- `CheckCRC`, pkg/modes/reader/crc.go:24-100: its error (each of the three cases has only one). -/
def crcError (message : ModeSMessage) (data : List UInt8) (allowedAddresses allowedInterrogators : AllowList) : Option Txt :=
  match checkCRC message data allowedAddresses allowedInterrogators with
  | .ok _ => none
  | .error _ => some (parityErrorText message)

/-- `ReadResolutionAdvisory`, pkg/acas/ra/resolution_advisory.go:75-123: its error, that of the length or the one returned by
`ReadThreatIdentityAltitude`, fields/threat_identity_altitude.go:65-69. -/
def advisoryError (data : List UInt8) : Option Txt :=
  if data.length ≠ 6 then some (t! "the data for ACAS ResolutionAdvisory message must be 6 bytes long")
  else match readResolutionAdvisory data with
    | .ok _ => none
    | .error _ => some (t! "the Altitude field is malformed")

/-- The error of a register of another length than 7 bytes. -/
def lengthError (data : List UInt8) : Txt := t! "the data must be 7 bytes long (" ++ dec data.length ++ t! " given)"

/-- `bds05.ReadAirbornePosition`, pkg/bds/bds05/airborne_position.go:60-89: its error. -/
def airborneError (data : List UInt8) : Option Txt :=
  let formatTypeCode := (byteAt data 0 &&& 0xF8) >>> 3
  if data.length ≠ 7 then some (lengthError data)
  else if formatTypeCode < 9 ∨ formatTypeCode > 22 ∨ formatTypeCode = 19 then
    some (t! "the field FormatTypeCode must be comprised between 9 and 18 included or 20 and 22 included, got " ++ dec formatTypeCode.toNat)
  else match readBDS05 data with
    | .ok _ => none
    | .error _ => some (t! "the field Altitude is malformed")

/-- `ReadAirborneVelocity`, pkg/bds/bds09/airborne_velocity.go:16-40: its error. The four readers it calls check the same length, type code and
subtype again and have no other check. -/
def velocityError (data : List UInt8) : Option Txt :=
  let formatTypeCode := (byteAt data 0 &&& 0xF8) >>> 3
  let subType := byteAt data 0 &&& 0x07
  if data.length ≠ 7 then some (lengthError data)
  else if formatTypeCode ≠ 19 then
    some (t! "the data are given at format " ++ dec formatTypeCode.toNat ++ t! " and can not be read by ReadAirborneVelocityAirSpeedNormal")
  else match subType.toNat with
    | 1 | 2 | 3 | 4 => none
    | n => some (t! "the field SubType must be comprised between 1 and 4 included, got " ++ dec n)

/-- `ReadAircraftStatus`, pkg/bds/bds61/aircraft_status.go:15-37, with `ReadAircraftStatusNoInformation`, aircraft_status_no_information.go:49-80 (the
loop of lines 69-73 tests the first byte again and never fails), `ReadAircraftStatusEmergency`, aircraft_status_emergency.go:50-81, and
`ReadAircraftStatusACAS`, aircraft_status_acas.go:44-70: their errors. -/
def statusError (data : List UInt8) : Option Txt :=
  let formatTypeCode := (byteAt data 0 &&& 0xF8) >>> 3
  let subType := byteAt data 0 &&& 0x07
  if data.length ≠ 7 then some (lengthError data)
  else if formatTypeCode ≠ 28 then
    some (t! "the data are given at format " ++ dec formatTypeCode.toNat ++ t! " and can not be read by ReadAircraftStatus")
  else match subType.toNat with
    | 0 => if byteAt data 1 &&& 0x1F ≠ 0 then some (t! "the bits 12 to 16 are expected to be 0") else none
    | 1 =>
      if byteAt data 3 ≠ 0 ∨ byteAt data 4 ≠ 0 ∨ byteAt data 5 ≠ 0 ∨ byteAt data 6 ≠ 0 then some (t! "the bits 25 to 56 are expected to be 0") else none
    | 2 => advisoryError (data.drop 1)
    | n => some (t! "the field SubType must be comprised between 0 and 2 included, got " ++ dec n)

/-- `ReadTargetStateAndStatus`, pkg/bds/bds62/target_state_and_status.go:15-35, with `ReadTargetStateAndStatus0`,
target_state_and_status_type_0.go:91-138, and `ReadTargetStateAndStatus1`, which has no further check: their errors. The subtype is two bits
(fields.ReadSubtype). -/
def targetStateError (data : List UInt8) : Option Txt :=
  let formatTypeCode := (byteAt data 0 &&& 0xF8) >>> 3
  let subType := (byteAt data 0 &&& 0x06) >>> 1
  if data.length ≠ 7 then some (lengthError data)
  else if formatTypeCode ≠ 29 then
    some (t! "the data are given at format " ++ dec formatTypeCode.toNat ++ t! " and can not be read by ReadTargetStateAndStatus")
  else match subType.toNat with
    | 0 =>
      if byteAt data 5 &&& 0x03 ≠ 0 then some (t! "the bits 47 to 48 are expected to be 0")
      else if byteAt data 6 &&& 0xE0 ≠ 0 then some (t! "the bits 49 to 51 are expected to be 0")
      else none
    | 1 => none
    | n => some (t! "the field SubType must be comprised between 0 and 1 included, got " ++ dec n)

/-- The errors of the readers of versions 1: pkg/bds/bds65/aircraft_operational_status_airborne_adsb1.go:90-106 and
aircraft_operational_status_surface_adsb1.go:93-109. -/
def operationalError1 (data : List UInt8) : Option Txt :=
  let serviceLevel := ((byteAt data 1 &&& 0xC0) >>> 4) + ((byteAt data 1 &&& 0x0C) >>> 2)
  let operationalModeFormat := (byteAt data 3 &&& 0xC0) >>> 6
  if serviceLevel ≠ 0 then some (t! "the ServiceLevel (field Capability Class) must be 0 (" ++ dec serviceLevel.toNat ++ t! " given)")
  else if operationalModeFormat ≠ 0 then
    some (t! "the Operational Mode Format (field Operational Mode) must be 0 (" ++ dec operationalModeFormat.toNat ++ t! " given)")
  else if byteAt data 6 &&& 0xC0 ≠ 0 then some (t! "the bits 49 and 50 must be 0")
  else if byteAt data 6 &&& 0x03 ≠ 0 then some (t! "the bits 55 and 56 must be 0")
  else none

/-- The errors of the readers of versions 2: pkg/bds/bds65/aircraft_operational_status_airborne_adsb2.go:96-108 and
aircraft_operational_status_surface_adsb2.go:96-108. -/
def operationalError2 (data : List UInt8) : Option Txt :=
  let capabilityContent := (byteAt data 1 &&& 0xC0) >>> 6
  let operationalModeFormat := (byteAt data 3 &&& 0xC0) >>> 6
  if capabilityContent ≠ 0 then some (t! "the Capability Content (field Capability Class) must be 0 (" ++ dec capabilityContent.toNat ++ t! " given)")
  else if operationalModeFormat ≠ 0 then
    some (t! "the Operational Mode Format (field Operational Mode) must be 0 (" ++ dec operationalModeFormat.toNat ++ t! " given)")
  else if byteAt data 6 &&& 0x01 ≠ 0 then some (t! "the bit 56 must be 0")
  else none

/-- `ReadAircraftOperationalStatus`, pkg/bds/bds65/aircraft_operational_status.go:14-52, with `ReadAircraftOperationalStatusADSB0`,
aircraft_operational_status_adsb0.go:61-79: their errors. The last error, of an unknown version number, prints the subtype (line 50). -/
def operationalError (data : List UInt8) : Option Txt :=
  let formatTypeCode := (byteAt data 0 &&& 0xF8) >>> 3
  let adsbLevel := (byteAt data 5 &&& 0xE0) >>> 5
  let subType := byteAt data 0 &&& 0x07
  if data.length ≠ 7 then some (lengthError data)
  else if formatTypeCode ≠ 31 then
    some (t! "the data are given at format " ++ dec formatTypeCode.toNat ++ t! " and can not be read by ReadAircraftOperationalStatus")
  else match adsbLevel.toNat with
    | 0 =>
      if subType ≠ 0 then
        some (t! "the data are given for subtype " ++ dec subType.toNat ++ t! " format and can not be read by ReadAircraftOperationalStatusADSB0")
      else if byteAt data 5 ≠ 0 ∨ byteAt data 6 ≠ 0 then some (t! "the bits 41 to 56 are expected to be 0")
      else none
    | 1 =>
      match subType.toNat with
      | 0 | 1 => operationalError1 data
      | n => some (t! "the field SubType must be comprised between 0 and 1 included, got " ++ dec n)
    | 2 =>
      match subType.toNat with
      | 0 | 1 => operationalError2 data
      | n => some (t! "the field SubType must be comprised between 0 and 1 included, got " ++ dec n)
    | _ => some (t! "the field VersionNumber must be comprised between 0 and 2 included, got " ++ dec subType.toNat)

/-- `ReadADSBMessage`, pkg/adsb/reader/reader.go:33-105, for the levels 0, 1 and 2: its error. The wrappers of pkg/adsb return the errors of the
registers. The registers of identification and surface position check the length and type code again. -/
def adsbError (data : List UInt8) : Option Txt :=
  if data.length ≠ 7 then some (t! "the data for ADSB message must be 7 bytes long")
  else match ((byteAt data 0 &&& 0xF8) >>> 3).toNat with
    | 0 =>
      if byteAt data 2 &&& 0x0F = 0 ∧ byteAt data 3 = 0 ∧ byteAt data 4 = 0 ∧ byteAt data 5 = 0 ∧ byteAt data 6 = 0 then
        airborneError [0x78, byteAt data 1, byteAt data 2, 0, 0, 0, 0]
      else airborneError [0xB0, byteAt data 1, byteAt data 2, byteAt data 3, byteAt data 4, byteAt data 5, byteAt data 6]
    | 1 | 2 | 3 | 4 => none
    | 5 | 6 | 7 | 8 => none
    | 9 | 10 | 11 | 12 | 13 | 14 | 15 | 16 | 17 | 18 | 20 | 21 | 22 => airborneError data
    | 19 => velocityError data
    | 28 => statusError data
    | 29 => targetStateError data
    | 31 => operationalError data
    | n => some (t! "the formatTypeCode " ++ dec n ++ t! " is not supported")

/-- `ReadCommBMessage`, pkg/commb/reader.go:25-29: its error. -/
def commBError (data : List UInt8) : Option Txt :=
  if data.length ≠ 7 then some (t! "the data for Comm-B message must be 7 bytes long") else none

/-- The texts of the errors of the program: of what is read in the line, in the frame, and in the part of the frame that cmd/main.go gives to each
reader. -/
def goErrors : ErrorTexts where
  hexadecimal s := (hexadecimalError s).getD []
  frame f := (frameError f).getD []
  parity f := match readMessage f with
    | .ok m => parityErrorText m
    | .error _ => []
  acas f := match readMessage f with
    | .ok (.df16 m) => (advisoryError (m.messageACAS.drop 1)).getD []
    | _ => []
  adsb f := match readMessage f with
    | .ok (.df17 m) => (adsbError m.messageExtendedSquitter).getD []
    | .ok (.df18 m) => (adsbError m.messageExtendedSquitter).getD []
    | _ => []
  commB f := match readMessage f with
    | .ok (.df20 m) => (commBError m.messageCommB).getD []
    | .ok (.df21 m) => (commBError m.messageCommB).getD []
    | _ => []

end Modes
