import Verif.Model.BitUtils
/-!
# `pkg/modes`: frames, fields and downlink formats

Go enumerations over `byte` are their `UInt8` code. Strings are lists of characters.
-/
namespace Modes

/-- `common.MessageData`, pkg/modes/common/message_data.go:4-9. `Payload` and `Parity` alias the input in Go; here they
are the bytes at the time of reading (aliasing is the subject of `Verif.Model.Alias`). -/
structure MessageData where
  downLinkFormat : UInt8
  firstField : UInt8
  payload : List UInt8
  parity : List UInt8
  deriving DecidableEq, Repr

/-- `fields.AltitudeReportMethod`, pkg/modes/fields/altitude_code.go:24-36 (Go constants 1, 2, 3, 4). -/
inductive AltitudeReportMethod
  | notAvailable
  | metricUnits
  | feet100
  | feet25
  deriving DecidableEq, Repr

/-- `fields.ReadAltitude`, pkg/modes/fields/altitude_code.go:39-104. -/
def readAltitude (m : MessageData) : Go (Int × AltitudeReportMethod) := do
  let p1 ← idx m.payload 1
  let p2 ← idx m.payload 2
  let altitudeCode : UInt16 := ((p1 &&& 0x1f).toUInt16 <<< 8) + p2.toUInt16
  if altitudeCode = 0 then
    return (0, .notAvailable)
  let mBit := (altitudeCode &&& 0x0040) != 0
  if mBit then
    return (0, .metricUnits)
  let qBit := (altitudeCode &&& 0x0010) != 0
  if qBit then
    let n : UInt16 := 0
    let n := n ||| ((altitudeCode &&& 0x1F80) >>> 2)
    let n := n ||| ((altitudeCode &&& 0x0020) >>> 1)
    let n := n ||| (altitudeCode &&& 0x000F)
    return (25 * (n.toNat : Int) - 1000, .feet25)
  let c1 := (altitudeCode &&& 0x1000) != 0
  let a1 := (altitudeCode &&& 0x0800) != 0
  let c2 := (altitudeCode &&& 0x0400) != 0
  let a2 := (altitudeCode &&& 0x0200) != 0
  let c4 := (altitudeCode &&& 0x0100) != 0
  let a4 := (altitudeCode &&& 0x0080) != 0
  let b1 := (altitudeCode &&& 0x0020) != 0
  let b2 := (altitudeCode &&& 0x0008) != 0
  let d2 := (altitudeCode &&& 0x0004) != 0
  let b4 := (altitudeCode &&& 0x0002) != 0
  let d4 := (altitudeCode &&& 0x0001) != 0
  match gillhamToAltitude false d2 d4 a1 a2 a4 b1 b2 b4 c1 c2 c4 with
  | .error .panic => goPanic
  | .error .err => fail
  | .ok altitude => return (altitude, .feet100)

/-- `fmt.Sprintf("%v", n)` for an unsigned integer: its decimal digits. -/
def sprintfUint (n : Nat) : List Char := Nat.toDigits 10 n

/-- `fields.ReadIdentity`, pkg/modes/fields/identity.go:48-80. -/
def readIdentity (m : MessageData) : Go (List Char) := do
  let p1 ← idx m.payload 1
  let p2 ← idx m.payload 2
  let identity := pack2 (p1 &&& 0x1f) p2
  let c1 := (identity &&& 0x1000) >>> 12
  let a1 := (identity &&& 0x0800) >>> 11
  let c2 := (identity &&& 0x0400) >>> 10
  let a2 := (identity &&& 0x0200) >>> 9
  let c4 := (identity &&& 0x0100) >>> 8
  let a4 := (identity &&& 0x0080) >>> 7
  let b1 := (identity &&& 0x0020) >>> 5
  let d1 := (identity &&& 0x0010) >>> 4
  let b2 := (identity &&& 0x0008) >>> 3
  let d2 := (identity &&& 0x0004) >>> 2
  let b4 := (identity &&& 0x0002) >>> 1
  let d4 := identity &&& 0x0001
  let a := a4 <<< 2 ||| a2 <<< 1 ||| a1
  let b := b4 <<< 2 ||| b2 <<< 1 ||| b1
  let c := c4 <<< 2 ||| c2 <<< 1 ||| c1
  let d := d4 <<< 2 ||| d2 <<< 1 ||| d1
  return sprintfUint a.toNat ++ sprintfUint b.toNat ++ sprintfUint c.toNat ++ sprintfUint d.toNat

/-- `Identity.IsSpecialEmergency`, pkg/modes/fields/identity.go:25-27. -/
def isSpecialEmergency (i : List Char) : Bool := i == ['7', '7', '0', '0']
/-- `Identity.IsSpecialRadiocommunicationFailure`, identity.go:31-33. -/
def isSpecialRadiocommunicationFailure (i : List Char) : Bool := i == ['7', '6', '0', '0']
/-- `Identity.IsSpecialUnlawfulInterference`, identity.go:37-39. -/
def isSpecialUnlawfulInterference (i : List Char) : Bool := i == ['7', '5', '0', '0']
/-- `Identity.IsSpecialInstructionNotReceived`, identity.go:43-45. -/
def isSpecialInstructionNotReceived (i : List Char) : Bool := i == ['2', '0', '0', '0']

/-- `fields.ReadAddressAnnounced`, pkg/modes/fields/address_announced.go:24-29. -/
def readAddressAnnounced (m : MessageData) : Go UInt32 := do
  return pack3 (← idx m.payload 0) (← idx m.payload 1) (← idx m.payload 2)

/-- `fields.ReadApplicationField`, pkg/modes/fields/application_field.go:39-42. -/
def readApplicationField (m : MessageData) : UInt8 := m.firstField
/-- `fields.ReadCapability`, pkg/modes/fields/capability.go:43-46. -/
def readCapability (m : MessageData) : UInt8 := m.firstField
/-- `fields.ReadControlField`, pkg/modes/fields/control_field.go:39-42. -/
def readControlField (m : MessageData) : UInt8 := m.firstField
/-- `fields.ReadFlightStatus`, pkg/modes/fields/flight_status.go:39-42. -/
def readFlightStatus (m : MessageData) : UInt8 := m.firstField
/-- `fields.ReadControlELM`, pkg/modes/fields/control_elm.go:27-32 (1: uplink ELM acknowledgement, 0: downlink). -/
def readControlELM (m : MessageData) : UInt8 := if m.downLinkFormat &&& 0x02 ≠ 0 then 1 else 0
/-- `fields.ReadCrossLinkCompatibility`, pkg/modes/fields/cross_link_compatibility.go:29-34. -/
def readCrossLinkCompatibility (m : MessageData) : UInt8 := if m.firstField &&& 0x02 ≠ 0 then 1 else 0
/-- `fields.ReadVerticalStatus`, pkg/modes/fields/vertical_status.go:27-32 (1: on the ground). -/
def readVerticalStatus (m : MessageData) : UInt8 := if m.firstField &&& 0x04 ≠ 0 then 1 else 0
/-- `fields.ReadNumberOfDSegment`, pkg/modes/fields/number_of_d_segment.go:20-23. -/
def readNumberOfDSegment (m : MessageData) : UInt8 := ((m.downLinkFormat &&& 0x01) <<< 3) ||| m.firstField

/-- `fields.ReadDownlinkRequest`, pkg/modes/fields/downlink_request.go:87-90. -/
def readDownlinkRequest (m : MessageData) : Go UInt8 := do
  return ((← idx m.payload 0) &&& 0xF8) >>> 3
/-- `fields.ReadReplyInformationAirAir`, pkg/modes/fields/reply_information_air_air.go:64-69. -/
def readReplyInformationAirAir (m : MessageData) : Go UInt8 := do
  return (((← idx m.payload 0) &&& 0x07) <<< 1) ||| (((← idx m.payload 1) &&& 0x80) >>> 7)
/-- `fields.ReadSensitivityLevelReport`, pkg/modes/fields/sensitivity_level_report.go:40-46. -/
def readSensitivityLevelReport (m : MessageData) : Go UInt8 := do
  return ((← idx m.payload 0) &&& 0xE0) >>> 5

/-- `fields.UtilityMessage`, pkg/modes/fields/utility_message.go. -/
structure UtilityMessage where
  interrogatorIdentifier : UInt8
  identifierDesignator : UInt8
  deriving DecidableEq, Repr

/-- `fields.ReadUtilityMessage`, pkg/modes/fields/utility_message.go:43-52. -/
def readUtilityMessage (m : MessageData) : Go UtilityMessage := do
  let p0 ← idx m.payload 0
  let p1 ← idx m.payload 1
  let ii := ((p0 &&& 0x07) <<< 1) ||| ((p1 &&& 0x80) >>> 7)
  let id := (p1 &&& 0x60) >>> 5
  return { interrogatorIdentifier := ii, identifierDesignator := id }

/-- `for i := 0; i < n; i++ { data[i] = Payload[i+off] }` on a fresh slice: message_acas.go:21-36,
message_comm_b.go:20-29, message_extended_squitter.go:22-31 (`n = 7, off = 3`), message_comm_d.go:22-31 (`n = 10,
off = 0`). -/
def copyPayload (p : List UInt8) (off : Nat) : Nat → Go (List UInt8)
  | 0 => return []
  | n + 1 => do
    let rest ← copyPayload p off n
    return rest ++ [← idx p (n + off)]

/-- `fields.ReadMessageACAS`, pkg/modes/fields/message_acas.go:21-36. -/
def readMessageACAS (m : MessageData) : Go (List UInt8) := copyPayload m.payload 3 7
/-- `fields.ReadMessageCommB`, pkg/modes/fields/message_comm_b.go:20-29. -/
def readMessageCommB (m : MessageData) : Go (List UInt8) := copyPayload m.payload 3 7
/-- `fields.ReadMessageExtendedSquitter`, pkg/modes/fields/message_extended_squitter.go:22-31. -/
def readMessageExtendedSquitter (m : MessageData) : Go (List UInt8) := copyPayload m.payload 3 7
/-- `fields.ReadMessageCommD`, pkg/modes/fields/message_comm_d.go:22-31. -/
def readMessageCommD (m : MessageData) : Go (List UInt8) := copyPayload m.payload 0 10

/-- `messages.MessageDF0`, pkg/modes/messages/df0.go:17-25. -/
structure MessageDF0 where
  data : MessageData
  verticalStatus : UInt8
  crossLinkCapability : UInt8
  sensitivityLevel : UInt8
  replyInformation : UInt8
  altitudeReportMethod : AltitudeReportMethod
  altitude : Int
  deriving DecidableEq, Repr

/-- `messages.MessageDF4`, pkg/modes/messages/df4.go:15-22. -/
structure MessageDF4 where
  data : MessageData
  flightStatus : UInt8
  downlinkRequest : UInt8
  utilityMessage : UtilityMessage
  altitudeReportMethod : AltitudeReportMethod
  altitude : Int
  deriving DecidableEq, Repr

/-- `messages.MessageDF5`, pkg/modes/messages/df5.go:15-21. -/
structure MessageDF5 where
  data : MessageData
  flightStatus : UInt8
  downlinkRequest : UInt8
  utilityMessage : UtilityMessage
  identity : List Char
  deriving DecidableEq, Repr

/-- `messages.MessageDF11`, pkg/modes/messages/df11.go:15-19. -/
structure MessageDF11 where
  data : MessageData
  capability : UInt8
  addressAnnounced : UInt32
  deriving DecidableEq, Repr

/-- `messages.MessageDF16`, pkg/modes/messages/df16.go:15-23. -/
structure MessageDF16 where
  data : MessageData
  verticalStatus : UInt8
  sensitivityLevel : UInt8
  replyInformation : UInt8
  altitudeReportMethod : AltitudeReportMethod
  altitude : Int
  messageACAS : List UInt8
  deriving DecidableEq, Repr

/-- `messages.MessageDF17`, pkg/modes/messages/df17.go:15-20. -/
structure MessageDF17 where
  data : MessageData
  capability : UInt8
  addressAnnounced : UInt32
  messageExtendedSquitter : List UInt8
  deriving DecidableEq, Repr

/-- `messages.MessageDF18`, pkg/modes/messages/df18.go:15-20. -/
structure MessageDF18 where
  data : MessageData
  controlField : UInt8
  addressAnnounced : UInt32
  messageExtendedSquitter : List UInt8
  deriving DecidableEq, Repr

/-- `messages.MessageDF19`, pkg/modes/messages/df19.go:15-18. -/
structure MessageDF19 where
  data : MessageData
  applicationField : UInt8
  deriving DecidableEq, Repr

/-- `messages.MessageDF20`, pkg/modes/messages/df20.go:15-23. -/
structure MessageDF20 where
  data : MessageData
  flightStatus : UInt8
  downlinkRequest : UInt8
  utilityMessage : UtilityMessage
  altitudeReportMethod : AltitudeReportMethod
  altitude : Int
  messageCommB : List UInt8
  deriving DecidableEq, Repr

/-- `messages.MessageDF21`, pkg/modes/messages/df21.go:15-22. -/
structure MessageDF21 where
  data : MessageData
  flightStatus : UInt8
  downlinkRequest : UInt8
  utilityMessage : UtilityMessage
  identity : List Char
  messageCommB : List UInt8
  deriving DecidableEq, Repr

/-- `messages.MessageDF24`, pkg/modes/messages/df24.go:15-20. -/
structure MessageDF24 where
  data : MessageData
  controlELM : UInt8
  numberOfDSegment : UInt8
  messageCommD : List UInt8
  deriving DecidableEq, Repr

/-- `messages.ParseDF0`, pkg/modes/messages/df0.go:38-67. -/
def parseDF0 (m : MessageData) : Go MessageDF0 := do
  if m.downLinkFormat ≠ 0 then fail
  if m.payload.length ≠ 3 then fail
  let (altitude, method) ← readAltitude m
  return { data := m, verticalStatus := readVerticalStatus m, crossLinkCapability := readCrossLinkCompatibility m,
           sensitivityLevel := ← readSensitivityLevelReport m, replyInformation := ← readReplyInformationAirAir m,
           altitudeReportMethod := method, altitude := altitude }

/-- `messages.ParseDF4`, pkg/modes/messages/df4.go:35-63. -/
def parseDF4 (m : MessageData) : Go MessageDF4 := do
  if m.downLinkFormat ≠ 4 then fail
  if m.payload.length ≠ 3 then fail
  let (altitude, method) ← readAltitude m
  return { data := m, flightStatus := readFlightStatus m, downlinkRequest := ← readDownlinkRequest m,
           utilityMessage := ← readUtilityMessage m, altitudeReportMethod := method, altitude := altitude }

/-- `messages.ParseDF5`, pkg/modes/messages/df5.go:34-55. -/
def parseDF5 (m : MessageData) : Go MessageDF5 := do
  if m.downLinkFormat ≠ 5 then fail
  if m.payload.length ≠ 3 then fail
  return { data := m, flightStatus := readFlightStatus m, downlinkRequest := ← readDownlinkRequest m,
           utilityMessage := ← readUtilityMessage m, identity := ← readIdentity m }

/-- `messages.ParseDF11`, pkg/modes/messages/df11.go:32-51. -/
def parseDF11 (m : MessageData) : Go MessageDF11 := do
  if m.downLinkFormat ≠ 11 then fail
  if m.payload.length ≠ 3 then fail
  return { data := m, capability := readCapability m, addressAnnounced := ← readAddressAnnounced m }

/-- `messages.ParseDF16`, pkg/modes/messages/df16.go:36-65. -/
def parseDF16 (m : MessageData) : Go MessageDF16 := do
  if m.downLinkFormat ≠ 16 then fail
  if m.payload.length ≠ 10 then fail
  let (altitude, method) ← readAltitude m
  return { data := m, verticalStatus := readVerticalStatus m, sensitivityLevel := ← readSensitivityLevelReport m,
           replyInformation := ← readReplyInformationAirAir m, altitudeReportMethod := method, altitude := altitude,
           messageACAS := ← readMessageACAS m }

/-- `messages.ParseDF17`, pkg/modes/messages/df17.go:33-53. -/
def parseDF17 (m : MessageData) : Go MessageDF17 := do
  if m.downLinkFormat ≠ 17 then fail
  if m.payload.length ≠ 10 then fail
  return { data := m, capability := readCapability m, addressAnnounced := ← readAddressAnnounced m,
           messageExtendedSquitter := ← readMessageExtendedSquitter m }

/-- `messages.ParseDF18`, pkg/modes/messages/df18.go:33-53. -/
def parseDF18 (m : MessageData) : Go MessageDF18 := do
  if m.downLinkFormat ≠ 18 then fail
  if m.payload.length ≠ 10 then fail
  return { data := m, controlField := readControlField m, addressAnnounced := ← readAddressAnnounced m,
           messageExtendedSquitter := ← readMessageExtendedSquitter m }

/-- `messages.ParseDF19`, pkg/modes/messages/df19.go:31-49. -/
def parseDF19 (m : MessageData) : Go MessageDF19 := do
  if m.downLinkFormat ≠ 19 then fail
  if m.payload.length ≠ 10 then fail
  return { data := m, applicationField := readApplicationField m }

/-- `messages.ParseDF20`, pkg/modes/messages/df20.go:36-65. -/
def parseDF20 (m : MessageData) : Go MessageDF20 := do
  if m.downLinkFormat ≠ 20 then fail
  if m.payload.length ≠ 10 then fail
  let (altitude, method) ← readAltitude m
  return { data := m, flightStatus := readFlightStatus m, downlinkRequest := ← readDownlinkRequest m,
           utilityMessage := ← readUtilityMessage m, altitudeReportMethod := method, altitude := altitude,
           messageCommB := ← readMessageCommB m }

/-- `messages.ParseDF21`, pkg/modes/messages/df21.go:35-57. -/
def parseDF21 (m : MessageData) : Go MessageDF21 := do
  if m.downLinkFormat ≠ 21 then fail
  if m.payload.length ≠ 10 then fail
  return { data := m, flightStatus := readFlightStatus m, downlinkRequest := ← readDownlinkRequest m,
           utilityMessage := ← readUtilityMessage m, identity := ← readIdentity m,
           messageCommB := ← readMessageCommB m }

/-- `messages.ParseDF24`, pkg/modes/messages/df24.go:33-53. -/
def parseDF24 (m : MessageData) : Go MessageDF24 := do
  if m.downLinkFormat &&& 0x18 ≠ 0x18 then fail
  if m.payload.length ≠ 10 then fail
  return { data := m, controlELM := readControlELM m, numberOfDSegment := readNumberOfDSegment m,
           messageCommD := ← readMessageCommD m }

/-- `messages.ModeSMessage` (interface): the concrete types it can hold. -/
inductive ModeSMessage
  | df0 (m : MessageDF0)
  | df4 (m : MessageDF4)
  | df5 (m : MessageDF5)
  | df11 (m : MessageDF11)
  | df16 (m : MessageDF16)
  | df17 (m : MessageDF17)
  | df18 (m : MessageDF18)
  | df19 (m : MessageDF19)
  | df20 (m : MessageDF20)
  | df21 (m : MessageDF21)
  | df24 (m : MessageDF24)
  deriving DecidableEq, Repr

/-- `GetDownLinkFormat` of each message type: pkg/modes/messages/df0.go:33, df4.go:30, df5.go:29, df11.go:27,
df16.go:31, df17.go:28, df18.go:28, df19.go:26, df20.go:31, df21.go:30, df24.go:28. -/
def ModeSMessage.getDownLinkFormat : ModeSMessage → Nat
  | .df0 _ => 0
  | .df4 _ => 4
  | .df5 _ => 5
  | .df11 _ => 11
  | .df16 _ => 16
  | .df17 _ => 17
  | .df18 _ => 18
  | .df19 _ => 19
  | .df20 _ => 20
  | .df21 _ => 21
  | .df24 _ => 24

/-- The embedded `common.MessageData` of each message type. -/
def ModeSMessage.data : ModeSMessage → MessageData
  | .df0 m => m.data
  | .df4 m => m.data
  | .df5 m => m.data
  | .df11 m => m.data
  | .df16 m => m.data
  | .df17 m => m.data
  | .df18 m => m.data
  | .df19 m => m.data
  | .df20 m => m.data
  | .df21 m => m.data
  | .df24 m => m.data

/-- `reader.ReadMessage`, pkg/modes/reader/reader.go:16-67. -/
def readMessage (message : List UInt8) : Go ModeSMessage := do
  if message.length ≠ 7 ∧ message.length ≠ 14 then fail
  let b0 ← idx message 0
  let messageData : MessageData := {
    downLinkFormat := (b0 &&& 0xF8) >>> 3
    firstField := b0 &&& 0x07
    payload := ← slice message 1 (message.length - 3)
    parity := ← sliceFrom message (message.length - 3) }
  match messageData.downLinkFormat.toNat with
  | 0 => return .df0 (← parseDF0 messageData)
  | 4 => return .df4 (← parseDF4 messageData)
  | 5 => return .df5 (← parseDF5 messageData)
  | 11 => return .df11 (← parseDF11 messageData)
  | 16 => return .df16 (← parseDF16 messageData)
  | 17 => return .df17 (← parseDF17 messageData)
  | 18 => return .df18 (← parseDF18 messageData)
  | 19 => return .df19 (← parseDF19 messageData)
  | 20 => return .df20 (← parseDF20 messageData)
  | 21 => return .df21 (← parseDF21 messageData)
  | 24 | 25 | 26 | 27 | 28 | 29 | 30 | 31 => return .df24 (← parseDF24 messageData)
  | _ => fail

end Modes
