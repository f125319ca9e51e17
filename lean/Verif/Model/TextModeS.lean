import Verif.Model.ModeS
import Verif.Model.Texts
/-!
# Texts of the Mode S messages: `ToString` of pkg/modes/messages and of the fields that are not codes
-/
namespace Modes

/-- An upper case hexadecimal digit. -/
def hexDigit (n : Nat) : Char := if n < 10 then Char.ofNat (48 + n) else Char.ofNat (55 + n)

/-- `fmt.Sprintf("%02X", b)` of a byte. -/
def hex02 (b : UInt8) : Txt := [hexDigit (b.toNat / 16), hexDigit (b.toNat % 16)]

/-- `fmt.Sprintf("%02X %02X ...", b, c, ...)`. -/
def hexText : List UInt8 → Txt
  | [] => []
  | [b] => hex02 b
  | b :: x :: r => hex02 b ++ ' ' :: hexText (x :: r)

/-- `MessageExtendedSquitter.ToString`, `MessageCommB.ToString` (`n = 7`) and `MessageCommD.ToString` (`n = 10`):
pkg/modes/fields/message_extended_squitter.go:34-43, message_comm_b.go:32-41, message_comm_d.go:34-46; the slice is indexed. -/
def hexIndexed (n : Nat) (data : List UInt8) : Go Txt := do
  return hexText (← (List.range n).mapM (idx data))

/-- `AddressAnnounced.ToString`, pkg/modes/fields/address_announced.go:32-37. -/
def addressAnnouncedText (a : UInt32) : Txt :=
  hexText [((a &&& 0x00FF0000) >>> 16).toUInt8, ((a &&& 0x0000FF00) >>> 8).toUInt8, (a &&& 0x000000FF).toUInt8]

/-- `ICAOAddress.ToString`, pkg/modes/common/address.go:10-15, and `ThreatIdentityAddress.ToString`,
pkg/acas/ra/fields/threat_identity_address.go:13-18: with a space at the end. -/
def icaoAddressText (a : UInt32) : Txt :=
  hexText [((a &&& 0x00FF0000) >>> 16).toUInt8, ((a &&& 0x0000FF00) >>> 8).toUInt8, (a &&& 0x000000FF).toUInt8] ++ t! " "

/-- `fmt.Sprintf("%v", data)` of a slice of bytes, without its brackets. -/
def decList : List UInt8 → Txt
  | [] => []
  | [b] => dec b.toNat
  | b :: x :: r => dec b.toNat ++ ' ' :: decList (x :: r)

/-- `MessageACAS.ToString`, pkg/modes/fields/message_acas.go:39-41: `fmt.Sprintf("%v", messageACAS)`. -/
def messageACASText (data : List UInt8) : Txt := t! "[" ++ decList data ++ t! "]"

/-- `UtilityMessage.ToString`, pkg/modes/fields/utility_message.go:71-73. -/
def UtilityMessage.text (u : UtilityMessage) : Txt :=
  t! "InterrogatorIdentifier: " ++ dec u.interrogatorIdentifier.toNat ++ t! ", Reservation: " ++
    Text.modesUtilityMessageIdentifierDesignator u.identifierDesignator

/-- `Identity.ToString`, pkg/modes/fields/identity.go:83-98. -/
def identityText (identity : List Char) : Txt :=
  let special :=
    if isSpecialEmergency identity then t! " [Emergency]"
    else if isSpecialInstructionNotReceived identity then t! " [Instruction Not Received]"
    else if isSpecialRadiocommunicationFailure identity then t! " [Radiocommunication Failure]"
    else if isSpecialUnlawfulInterference identity then t! " [Unlawful Interference]"
    else t! ""
  identity ++ special

/-- The code of the method, pkg/modes/fields/altitude_code.go:24-36. -/
def AltitudeReportMethod.code : AltitudeReportMethod → UInt8
  | .notAvailable => 1
  | .metricUnits => 2
  | .feet100 => 3
  | .feet25 => 4

/-- `AltitudeReportMethod.ToString`, pkg/modes/fields/altitude_code.go. -/
def AltitudeReportMethod.text (m : AltitudeReportMethod) : Txt := Text.modesAltitudeReportMethod m.code

/-- `NumberOfDSegment.ToString`, pkg/modes/fields/number_of_d_segment.go:26-28: `strconv.Itoa`. -/
def numberOfDSegmentText (n : UInt8) : Txt := dec n.toNat

/-- `GetName` of each message type: pkg/modes/messages/df0.go:28-30, df4.go:25-27, df5.go:24-26, df11.go:22-24, df16.go:26-28,
df17.go:23-25, df18.go:23-25, df19.go:21-23, df20.go:26-28, df21.go:25-27, df24.go:23-25. -/
def ModeSMessage.getName : ModeSMessage → Txt
  | .df0 _ => t! "Short air-air surveillance (ACAS)"
  | .df4 _ => t! "Surveillance, altitude reply"
  | .df5 _ => t! "Surveillance, identify reply"
  | .df11 _ => t! "All-call reply"
  | .df16 _ => t! "Long air-air surveillance (ACAS)"
  | .df17 _ => t! "Extended squitter"
  | .df18 _ => t! "Extended squitter/non transponder"
  | .df19 _ => t! "Military extended squitter"
  | .df20 _ => t! "Comm-B altitude reply"
  | .df21 _ => t! "Comm-B identify reply"
  | .df24 _ => t! "Comm-D (ELM)"

/-- `message.GetDownLinkFormat(), message.GetName()` printed with `%v - %v`. -/
def ModeSMessage.heading (m : ModeSMessage) : Txt := dec m.getDownLinkFormat ++ t! " - " ++ m.getName

/-- `ToString` of each message type, line by line: pkg/modes/messages/df0.go:70-87, df4.go:66-81, df5.go:58-70, df11.go:54-62,
df16.go:68-85, df17.go:56-66, df18.go:56-66, df19.go:52-58, df20.go:68-85, df21.go:60-74, df24.go:56-66. -/
def ModeSMessage.lines (message : ModeSMessage) : Go (List (Txt × Txt)) :=
  match message with
  | .df0 m => return [
      (t! "Downlink format:      ", message.heading),
      (t! "VerticalStatus:       ", Text.modesVerticalStatus m.verticalStatus),
      (t! "CrossLinkCapability:  ", Text.modesCrossLinkCompatibility m.crossLinkCapability),
      (t! "SensitivityLevel:     ", Text.modesSensitivityLevelReport m.sensitivityLevel),
      (t! "ReplyInformation:     ", Text.modesReplyInformationAirAir m.replyInformation),
      (t! "AltitudeReportMethod: ", m.altitudeReportMethod.text),
      (t! "Altitude:             ", decInt m.altitude)]
  | .df4 m => return [
      (t! "Downlink format:      ", message.heading),
      (t! "FlightStatus:         ", Text.modesFlightStatus m.flightStatus),
      (t! "DownlinkRequest:      ", Text.modesDownlinkRequest m.downlinkRequest),
      (t! "UtilityMessage:       ", m.utilityMessage.text),
      (t! "AltitudeReportMethod: ", m.altitudeReportMethod.text),
      (t! "Altitude:             ", decInt m.altitude)]
  | .df5 m => return [
      (t! "Downlink format:  ", message.heading),
      (t! "FlightStatus:     ", Text.modesFlightStatus m.flightStatus),
      (t! "DownlinkRequest:  ", Text.modesDownlinkRequest m.downlinkRequest),
      (t! "UtilityMessage:   ", m.utilityMessage.text),
      (t! "Identity:         ", identityText m.identity)]
  | .df11 m => return [
      (t! "Downlink format:  ", message.heading),
      (t! "Capability:       ", Text.modesCapability m.capability),
      (t! "AddressAnnounced: ", addressAnnouncedText m.addressAnnounced)]
  | .df16 m => return [
      (t! "Downlink format:      ", message.heading),
      (t! "VerticalStatus:       ", Text.modesVerticalStatus m.verticalStatus),
      (t! "SensitivityLevel:     ", Text.modesSensitivityLevelReport m.sensitivityLevel),
      (t! "ReplyInformation:     ", Text.modesReplyInformationAirAir m.replyInformation),
      (t! "AltitudeReportMethod: ", m.altitudeReportMethod.text),
      (t! "Altitude:             ", decInt m.altitude),
      (t! "Message ACAS:         ", messageACASText m.messageACAS)]
  | .df17 m => return [
      (t! "Downlink format:         ", message.heading),
      (t! "Capability:              ", Text.modesCapability m.capability),
      (t! "AddressAnnounced:        ", addressAnnouncedText m.addressAnnounced),
      (t! "MessageExtendedSquitter: ", ← hexIndexed 7 m.messageExtendedSquitter)]
  | .df18 m => return [
      (t! "Downlink format:         ", message.heading),
      (t! "ControlField:            ", Text.modesControlField m.controlField),
      (t! "AddressAnnounced:        ", addressAnnouncedText m.addressAnnounced),
      (t! "MessageExtendedSquitter: ", ← hexIndexed 7 m.messageExtendedSquitter)]
  | .df19 m => return [
      (t! "Downlink format:         ", message.heading),
      (t! "ApplicationField:        ", Text.modesApplicationField m.applicationField)]
  | .df20 m => return [
      (t! "Downlink format:      ", message.heading),
      (t! "FlightStatus:         ", Text.modesFlightStatus m.flightStatus),
      (t! "DownlinkRequest:      ", Text.modesDownlinkRequest m.downlinkRequest),
      (t! "UtilityMessage:       ", m.utilityMessage.text),
      (t! "AltitudeReportMethod: ", m.altitudeReportMethod.text),
      (t! "Altitude:             ", decInt m.altitude),
      (t! "MessageCommB:         ", ← hexIndexed 7 m.messageCommB)]
  | .df21 m => return [
      (t! "Downlink format:  ", message.heading),
      (t! "FlightStatus:     ", Text.modesFlightStatus m.flightStatus),
      (t! "DownlinkRequest:  ", Text.modesDownlinkRequest m.downlinkRequest),
      (t! "UtilityMessage:   ", m.utilityMessage.text),
      (t! "Identity:         ", identityText m.identity),
      (t! "MessageCommB:     ", ← hexIndexed 7 m.messageCommB)]
  | .df24 m => return [
      (t! "Downlink format:  ", message.heading),
      (t! "ControlELM:       ", Text.modesControlELM m.controlELM),
      (t! "NumberOfDSegment: ", numberOfDSegmentText m.numberOfDSegment),
      (t! "MessageCommD:     ", ← hexIndexed 10 m.messageCommD)]

/-- The text itself. -/
def ModeSMessage.text (m : ModeSMessage) : Go Txt := return linesText (← m.lines)

end Modes
