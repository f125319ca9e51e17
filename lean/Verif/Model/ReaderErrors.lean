import Verif.Model.Errors
import Verif.Model.TextRegisters
/-!
# The words of the errors of the readers a caller can use directly

The packages export the reader of each kind of message besides the dispatching ones. For each of them, the text of the error it returns; `none`
when it returns none. The checks are transcribed from the code in its order.
-/
namespace Modes

/-- `bds06.ReadSurfacePosition`, pkg/bds/bds06/surface_position.go:57-67: its error. -/
def surfaceError (data : List UInt8) : Option Txt :=
  let formatTypeCode := (byteAt data 0 &&& 0xF8) >>> 3
  if data.length ≠ 7 then some (lengthError data)
  else if formatTypeCode < 5 ∨ formatTypeCode > 8 then
    some (t! "the field FormatTypeCode must be comprised between 5 and 8 included, got " ++ dec formatTypeCode.toNat)
  else none

/-- `bds08.ReadAircraftIdentificationAndCategory`, pkg/bds/bds08/aircraft_identification_and_category.go:53-62: its error. -/
def identificationError (data : List UInt8) : Option Txt :=
  let formatTypeCode := (byteAt data 0 &&& 0xF8) >>> 3
  if data.length ≠ 7 then some (lengthError data)
  else if formatTypeCode < 1 ∨ formatTypeCode > 4 then
    some (t! "the field FormatTypeCode must be comprised between 1 and 4 included, got " ++ dec formatTypeCode.toNat)
  else none

/-- The three checks all the readers of one kind begin with: the length, the type code (`code`; the text says `said`) and the subtype (`subtype`,
printed as `name`; the text says it is `reader` that cannot read it). Then `rest`. -/
def kindError (data : List UInt8) (code : UInt8) (said : Nat) (subtype wanted : UInt8) (name reader : Txt) (rest : Option Txt) : Option Txt :=
  let formatTypeCode := (byteAt data 0 &&& 0xF8) >>> 3
  if data.length ≠ 7 then some (lengthError data)
  else if formatTypeCode ≠ code then some (t! "the field FormatTypeCode must be " ++ dec said ++ t! ", got " ++ dec formatTypeCode.toNat)
  else if subtype ≠ wanted then some (t! "the data are given for subtype " ++ name ++ t! " format and can not be read by " ++ reader)
  else rest

/-- `ReadAirborneVelocityGroundSpeedNormal`, pkg/bds/bds09/airborne_velocity_ground_speed_normal.go:88-102: its error. -/
def groundSpeedNormalError (data : List UInt8) : Option Txt :=
  kindError data 19 19 (byteAt data 0 &&& 0x07) 1 (Text.bds09Subtype (byteAt data 0 &&& 0x07)) (t! "ReadFormat19GroundSpeedNormal") none

/-- `ReadAirborneVelocityGroundSpeedSupersonic`, pkg/bds/bds09/airborne_velocity_ground_speed_supersonic.go:88-102: its error. -/
def groundSpeedSupersonicError (data : List UInt8) : Option Txt :=
  kindError data 19 19 (byteAt data 0 &&& 0x07) 2 (Text.bds09Subtype (byteAt data 0 &&& 0x07))
    (t! "ReadAirborneVelocityGroundSpeedSupersonic") none

/-- `ReadAirborneVelocityAirSpeedNormal`, pkg/bds/bds09/airborne_velocity_air_speed_normal.go:76-90: its error. -/
def airSpeedNormalError (data : List UInt8) : Option Txt :=
  kindError data 19 19 (byteAt data 0 &&& 0x07) 3 (Text.bds09Subtype (byteAt data 0 &&& 0x07)) (t! "ReadAirborneVelocityAirSpeedNormal") none

/-- `ReadAirborneVelocityAirSpeedSupersonic`, pkg/bds/bds09/airborne_velocity_air_speed_supersonic.go:76-90: its error. -/
def airSpeedSupersonicError (data : List UInt8) : Option Txt :=
  kindError data 19 19 (byteAt data 0 &&& 0x07) 4 (Text.bds09Subtype (byteAt data 0 &&& 0x07))
    (t! "ReadAirborneVelocityAirSpeedSupersonic") none

/-- `ReadAircraftStatusNoInformation`, pkg/bds/bds61/aircraft_status_no_information.go:49-73: its error. The loop of lines 69-73 tests the first
byte again, and never fails. -/
def statusNoInformationError (data : List UInt8) : Option Txt :=
  kindError data 28 28 (byteAt data 0 &&& 0x07) 0 (Text.bds61Subtype (byteAt data 0 &&& 0x07)) (t! "ReadAircraftStatusNoInformation")
    (if byteAt data 1 &&& 0x1F ≠ 0 then some (t! "the bits 12 to 16 are expected to be 0") else none)

/-- `ReadAircraftStatusEmergency`, pkg/bds/bds61/aircraft_status_emergency.go:50-73: its error. -/
def statusEmergencyError (data : List UInt8) : Option Txt :=
  kindError data 28 28 (byteAt data 0 &&& 0x07) 1 (Text.bds61Subtype (byteAt data 0 &&& 0x07)) (t! "ReadAircraftStatusEmergency")
    (if byteAt data 3 ≠ 0 ∨ byteAt data 4 ≠ 0 ∨ byteAt data 5 ≠ 0 ∨ byteAt data 6 ≠ 0 then some (t! "the bits 25 to 56 are expected to be 0")
     else none)

/-- `ReadAircraftStatusACAS`, pkg/bds/bds61/aircraft_status_acas.go:44-63: its error. -/
def statusACASError (data : List UInt8) : Option Txt :=
  kindError data 28 28 (byteAt data 0 &&& 0x07) 2 (Text.bds61Subtype (byteAt data 0 &&& 0x07)) (t! "ReadAircraftStatusACAS")
    (advisoryError (data.drop 1))

/-- `ReadTargetStateAndStatus0`, pkg/bds/bds62/target_state_and_status_type_0.go:91-113: its error. -/
def targetState0Error (data : List UInt8) : Option Txt :=
  kindError data 29 29 ((byteAt data 0 &&& 0x06) >>> 1) 0 (Text.bds62Subtype ((byteAt data 0 &&& 0x06) >>> 1)) (t! "ReadTargetStateAndStatus0")
    (if byteAt data 5 &&& 0x03 ≠ 0 then some (t! "the bits 47 to 48 are expected to be 0")
     else if byteAt data 6 &&& 0xE0 ≠ 0 then some (t! "the bits 49 to 51 are expected to be 0")
     else none)

/-- `ReadTargetStateAndStatus1`, pkg/bds/bds62/target_state_and_status_type_1.go:96-110: its error. -/
def targetState1Error (data : List UInt8) : Option Txt :=
  kindError data 29 29 ((byteAt data 0 &&& 0x06) >>> 1) 1 (Text.bds62Subtype ((byteAt data 0 &&& 0x06) >>> 1)) (t! "ReadTargetStateAndStatus1")
    none

/-- `ReadAircraftOperationalStatusADSB0`, pkg/bds/bds65/aircraft_operational_status_adsb0.go:61-79: its error. The text says 29 for the type code,
and gives the subtype as a number. -/
def operationalV0Error (data : List UInt8) : Option Txt :=
  kindError data 31 29 (byteAt data 0 &&& 0x07) 0 (dec (byteAt data 0 &&& 0x07).toNat) (t! "ReadAircraftOperationalStatusADSB0")
    (if byteAt data 5 ≠ 0 ∨ byteAt data 6 ≠ 0 then some (t! "the bits 41 to 56 are expected to be 0") else none)

/-- `ReadAircraftOperationalStatusAirborneADSB1`, pkg/bds/bds65/aircraft_operational_status_airborne_adsb1.go:68-106: its error. The text says 29 for
the type code, gives the subtype as a number and names the reader of version 0. -/
def operationalAirborneV1Error (data : List UInt8) : Option Txt :=
  kindError data 31 29 (byteAt data 0 &&& 0x07) 0 (dec (byteAt data 0 &&& 0x07).toNat) (t! "ReadAircraftOperationalStatusADSB0")
    (if (byteAt data 5 &&& 0xE0) >>> 5 ≠ 1 then
      some (t! "the data are given at " ++ versionNumberText ((byteAt data 5 &&& 0xE0) >>> 5) ++
        t! " format and can not be read by ReadAircraftOperationalStatusAirborneADSB1")
     else operationalError1 data)

/-- `ReadAircraftOperationalStatusAirborneADSB2`, pkg/bds/bds65/aircraft_operational_status_airborne_adsb2.go:74-108: its error. The text gives the
subtype as a number and names the reader of version 0. -/
def operationalAirborneV2Error (data : List UInt8) : Option Txt :=
  kindError data 31 31 (byteAt data 0 &&& 0x07) 0 (dec (byteAt data 0 &&& 0x07).toNat) (t! "ReadAircraftOperationalStatusADSB0")
    (if (byteAt data 5 &&& 0xE0) >>> 5 ≠ 2 then
      some (t! "the data are given at at " ++ versionNumberText ((byteAt data 5 &&& 0xE0) >>> 5) ++
        t! " format and can not be read by ReadAircraftOperationalStatusAirborneADSB2")
     else operationalError2 data)

/-- `ReadAircraftOperationalStatusSurfaceADSB1`, pkg/bds/bds65/aircraft_operational_status_surface_adsb1.go:71-109: its error. -/
def operationalSurfaceV1Error (data : List UInt8) : Option Txt :=
  kindError data 31 31 (byteAt data 0 &&& 0x07) 1 (Text.bds65Subtype (byteAt data 0 &&& 0x07))
    (t! "ReadAircraftOperationalStatusSurfaceADSB1")
    (if (byteAt data 5 &&& 0xE0) >>> 5 ≠ 1 then
      some (t! "the data are given at " ++ versionNumberText ((byteAt data 5 &&& 0xE0) >>> 5) ++
        t! " format and can not be read by ReadAircraftOperationalStatusSurfaceADSB1")
     else operationalError1 data)

/-- `ReadAircraftOperationalStatusSurfaceADSB2`, pkg/bds/bds65/aircraft_operational_status_surface_adsb2.go:74-108: its error. -/
def operationalSurfaceV2Error (data : List UInt8) : Option Txt :=
  kindError data 31 31 (byteAt data 0 &&& 0x07) 1 (Text.bds65Subtype (byteAt data 0 &&& 0x07))
    (t! "ReadAircraftOperationalStatusSurfaceADSB2")
    (if (byteAt data 5 &&& 0xE0) >>> 5 ≠ 2 then
      some (t! "the data are given at at " ++ versionNumberText ((byteAt data 5 &&& 0xE0) >>> 5) ++
        t! " format and can not be read by ReadAircraftOperationalStatusSurfaceADSB2")
     else operationalError2 data)

/-- `ReadAirbornePosition`, pkg/adsb/airborne_position/airborne_position.go:9-25, with the readers it calls: its error, for data of 7 bytes. -/
def airbornePositionError (adsbVersion : UInt8) (data : List UInt8) : Option Txt :=
  if byteAt data 0 = 0 then
    airborneError [0xB0, byteAt data 1, byteAt data 2, byteAt data 3, byteAt data 4, byteAt data 5, byteAt data 6]
  else if adsbVersion = 0 ∨ adsbVersion = 1 ∨ adsbVersion = 2 then airborneError data
  else some (t! "the ADS-B version " ++ dec adsbVersion.toNat ++ t! " does not allow to read AirbornePosition messages")

/-- `ReadSurfacePosition`, pkg/adsb/surface_position/surface_position.go:9-21, with the readers it calls: its error. The text speaks of
airborne positions. -/
def surfacePositionError (adsbVersion : UInt8) (data : List UInt8) : Option Txt :=
  if adsbVersion = 0 ∨ adsbVersion = 1 ∨ adsbVersion = 2 then surfaceError data
  else some (t! "the ADS-B version " ++ dec adsbVersion.toNat ++ t! " does not allow to read AirbornePosition messages")

/-- `GetSpeed` and `GetTrack`, pkg/bds/bds09/airborne_velocity_ground_speed_normal.go:128-136 and 154-162 and the same lines of
airborne_velocity_ground_speed_supersonic.go: their error. -/
def GroundSpeedVelocity.accessError (m : GroundSpeedVelocity) : Option Txt :=
  if m.velocityEWStatus ≠ .regular then some (t! "velocity EW is not regular")
  else if m.velocityNSStatus ≠ .regular then some (t! "velocity NS is not regular")
  else none

/-- The first check of the parsers of one format, called with any header, payload and parity (pkg/modes/messages/df0.go:45-47 and the same lines of
the others); `after` are the others. -/
def parserError (m : MessageData) (format : UInt8) (after : Option Txt) : Option Txt :=
  if m.downLinkFormat ≠ format then
    some (t! "DF" ++ dec format.toNat ++ t! " message must have a DownLinkFormat of " ++ dec format.toNat)
  else after

/-- `ParseDF0`, pkg/modes/messages/df0.go:45-56: its error. -/
def parseDF0Error (m : MessageData) : Option Txt := parserError m 0 (altitudeFormatError 0 7 3 m)
/-- `ParseDF4`, pkg/modes/messages/df4.go:42-53: its error. -/
def parseDF4Error (m : MessageData) : Option Txt := parserError m 4 (altitudeFormatError 4 7 3 m)
/-- `ParseDF5`, pkg/modes/messages/df5.go:41-46: its error. -/
def parseDF5Error (m : MessageData) : Option Txt := parserError m 5 (plainFormatError 5 7 3 m)
/-- `ParseDF11`, pkg/modes/messages/df11.go:39-44: its error. -/
def parseDF11Error (m : MessageData) : Option Txt := parserError m 11 (plainFormatError 11 7 3 m)
/-- `ParseDF16`, pkg/modes/messages/df16.go:43-54: its error. -/
def parseDF16Error (m : MessageData) : Option Txt := parserError m 16 (altitudeFormatError 16 14 10 m)
/-- `ParseDF17`, pkg/modes/messages/df17.go:40-45: its error. -/
def parseDF17Error (m : MessageData) : Option Txt := parserError m 17 (plainFormatError 17 14 10 m)
/-- `ParseDF18`, pkg/modes/messages/df18.go:40-45: its error. -/
def parseDF18Error (m : MessageData) : Option Txt := parserError m 18 (plainFormatError 18 14 10 m)
/-- `ParseDF19`, pkg/modes/messages/df19.go:38-43: its error. -/
def parseDF19Error (m : MessageData) : Option Txt := parserError m 19 (plainFormatError 19 14 10 m)
/-- `ParseDF20`, pkg/modes/messages/df20.go:43-54: its error. -/
def parseDF20Error (m : MessageData) : Option Txt := parserError m 20 (altitudeFormatError 20 14 10 m)
/-- `ParseDF21`, pkg/modes/messages/df21.go:42-47: its error. -/
def parseDF21Error (m : MessageData) : Option Txt := parserError m 21 (plainFormatError 21 14 10 m)

/-- `ParseDF24`, pkg/modes/messages/df24.go:40-45: its error. -/
def parseDF24Error (m : MessageData) : Option Txt :=
  if m.downLinkFormat &&& 0x18 ≠ 0x18 then some (t! "DF24 message must have a DownLinkFormat of 24")
  else plainFormatError 24 14 10 m

end Modes
