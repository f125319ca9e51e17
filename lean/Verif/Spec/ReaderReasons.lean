import Verif.Spec.Reasons
import Verif.Spec.ModeS
import Verif.Props.BDS05
import Verif.Props.TextShows
/-!
# What the errors of the ADS-B readers say

For each reader a table, as in Spec/Reasons.lean: the words of an error, and what they say of the data `d` they were given for (ICAO Doc 9871). The
type code is bits 1-5, and the subtype bits 6-8 (bits 6-7 for type code 29). The notation `decimal n` is for the decimal digits of `n`
(Props/TextShows.lean), and `AC12Illegal`, `AltitudeIllegal` and `TIDIllegal` (Props/BDS05, Spec/ModeS, Props/ACAS) are the altitude codes without meaning.
-/
open Modes
namespace Spec

/-- The length of a register. -/
def lengthReason (d : List UInt8) : List Char × Prop :=
  (t! "the data must be 7 bytes long (" ++ decimal d.length ++ t! " given)", d.length ≠ 7)

/-- The type code is not between `a` and `b`. -/
def codeReason (d : List UInt8) (words : List Char) (good : Nat → Prop) : List Char × Prop :=
  (t! "the field FormatTypeCode must be " ++ words ++ t! ", got " ++ decimal (bits d 1 5), ¬ good (bits d 1 5))

/-- The type code is not the one the named reader needs. -/
def formatReason (d : List UInt8) (code : Nat) (reader : List Char) : List Char × Prop :=
  (t! "the data are given at format " ++ decimal (bits d 1 5) ++ t! " and can not be read by " ++ reader, bits d 1 5 ≠ code)

/-- The subtype is not one of those that have a meaning. -/
def subtypeReason (a b n : Nat) : List Char × Prop :=
  (t! "the field SubType must be comprised between " ++ decimal a ++ t! " and " ++ decimal b ++ t! " included, got " ++ decimal n,
    n < a ∨ b < n)

/-! ### Names of the subtypes and of the versions -/

def velocityName : Nat → List Char
  | 1 => t! "1 - GroundSpeed / Normal"
  | 2 => t! "2 - GroundSpeed / Supersonic"
  | 3 => t! "3 - Airspeed,Heading / Normal"
  | 4 => t! "4 - Airspeed,Heading / Supersonic"
  | n => decimal n ++ t! " - Unknown code"

def statusName : Nat → List Char
  | 0 => t! "0 - no information"
  | 1 => t! "1 - emergency/priority status"
  | 2 => t! "2 - TCAS/ACAS RA Broadcast"
  | n => decimal n ++ t! " - reserved"

def targetStateName : Nat → List Char
  | 0 => t! "0 - Subtype 0"
  | 1 => t! "1 - Subtype 1"
  | n => decimal n ++ t! " - reserved"

def operationalName : Nat → List Char
  | 0 => t! "0 - Airborne Status Message"
  | 1 => t! "1 - Surface Status Message"
  | n => decimal n ++ t! " - Unknown code"

def versionName : Nat → List Char
  | 0 => t! "0 - ADSB V0: Conformant to Doc 9871, Appendix A"
  | 1 => t! "1 - ADSB V1: Conformant to Doc 9871, Appendix B"
  | 2 => t! "2 - ADSB V2: Conformant to Doc 9871, Appendix C"
  | n => decimal n

/-! ### The readers of a register -/

def airborneReasons (d : List UInt8) : List (List Char × Prop) := [
  lengthReason d,
  codeReason d (t! "comprised between 9 and 18 included or 20 and 22 included") (fun n => (9 ≤ n ∧ n ≤ 18) ∨ (20 ≤ n ∧ n ≤ 22)),
  (t! "the field Altitude is malformed", AC12Illegal (bits d 9 20))]

def surfaceReasons (d : List UInt8) : List (List Char × Prop) := [
  lengthReason d,
  codeReason d (t! "comprised between 5 and 8 included") (fun n => 5 ≤ n ∧ n ≤ 8)]

def identificationReasons (d : List UInt8) : List (List Char × Prop) := [
  lengthReason d,
  codeReason d (t! "comprised between 1 and 4 included") (fun n => 1 ≤ n ∧ n ≤ 4)]

def velocityReasons (d : List UInt8) : List (List Char × Prop) := [
  lengthReason d,
  formatReason d 19 (t! "ReadAirborneVelocityAirSpeedNormal"),
  subtypeReason 1 4 (bits d 6 8)]

/-- The altitude of the threat is at bits 31-43 of the register, when the type of its identity (bits 29-30) is 2. -/
def statusReasons (d : List UInt8) : List (List Char × Prop) := [
  lengthReason d,
  formatReason d 28 (t! "ReadAircraftStatus"),
  subtypeReason 0 2 (bits d 6 8),
  (t! "the bits 12 to 16 are expected to be 0", bits d 6 8 = 0 ∧ bits d 12 16 ≠ 0),
  (t! "the bits 25 to 56 are expected to be 0", bits d 6 8 = 1 ∧ bits d 25 56 ≠ 0),
  (t! "the Altitude field is malformed", bits d 6 8 = 2 ∧ bits d 29 30 = 2 ∧ TIDIllegal (bits d 31 43))]

def targetStateReasons (d : List UInt8) : List (List Char × Prop) := [
  lengthReason d,
  formatReason d 29 (t! "ReadTargetStateAndStatus"),
  subtypeReason 0 1 (bits d 6 7),
  (t! "the bits 47 to 48 are expected to be 0", bits d 6 7 = 0 ∧ bits d 47 48 ≠ 0),
  (t! "the bits 49 to 51 are expected to be 0", bits d 6 7 = 0 ∧ bits d 49 51 ≠ 0)]

/-- The version is bits 41-43. -/
def operationalReasons (d : List UInt8) : List (List Char × Prop) := [
  lengthReason d,
  formatReason d 31 (t! "ReadAircraftOperationalStatus"),
  subtypeReason 0 1 (bits d 6 8),
  (t! "the field VersionNumber must be comprised between 0 and 2 included, got " ++ decimal (bits d 41 43), 2 < bits d 41 43),
  (t! "the data are given for subtype " ++ decimal (bits d 6 8) ++ t! " format and can not be read by ReadAircraftOperationalStatusADSB0",
    bits d 41 43 = 0 ∧ bits d 6 8 ≠ 0),
  (t! "the bits 41 to 56 are expected to be 0", bits d 41 43 = 0 ∧ bits d 41 56 ≠ 0),
  (t! "the ServiceLevel (field Capability Class) must be 0 (" ++ decimal (4 * bits d 9 10 + bits d 13 14) ++ t! " given)",
    bits d 41 43 = 1 ∧ (bits d 9 10 ≠ 0 ∨ bits d 13 14 ≠ 0)),
  (t! "the Capability Content (field Capability Class) must be 0 (" ++ decimal (bits d 9 10) ++ t! " given)",
    bits d 41 43 = 2 ∧ bits d 9 10 ≠ 0),
  (t! "the Operational Mode Format (field Operational Mode) must be 0 (" ++ decimal (bits d 25 26) ++ t! " given)", bits d 25 26 ≠ 0),
  (t! "the bits 49 and 50 must be 0", bits d 41 43 = 1 ∧ bits d 49 50 ≠ 0),
  (t! "the bits 55 and 56 must be 0", bits d 41 43 = 1 ∧ bits d 55 56 ≠ 0),
  (t! "the bit 56 must be 0", bits d 41 43 = 2 ∧ bits d 56 56 ≠ 0)]

/-- A version of ADS-B other than 0, 1 and 2, for the readers that are told the version. -/
def levelReason (version : Nat) : List Char × Prop :=
  (t! "the ADS-B version " ++ decimal version ++ t! " does not allow to read AirbornePosition messages", 2 < version)

/-! ### The readers of one kind of message -/

/-- The words common to the readers of one kind: of type code `code`, and of subtype `subtype` (bits 6 to `last`). -/
def kindReasons (d : List UInt8) (code last subtype : Nat) (name : Nat → List Char) (reader : List Char) : List (List Char × Prop) := [
  lengthReason d,
  codeReason d (decimal code) (fun n => n = code),
  (t! "the data are given for subtype " ++ name (bits d 6 last) ++ t! " format and can not be read by " ++ reader, bits d 6 last ≠ subtype)]

def noInformationReasons (d : List UInt8) : List (List Char × Prop) := [
  (t! "the bits 12 to 16 are expected to be 0", bits d 12 16 ≠ 0)]

def emergencyReasons (d : List UInt8) : List (List Char × Prop) := [
  (t! "the bits 25 to 56 are expected to be 0", bits d 25 56 ≠ 0)]

def raBroadcastReasons (d : List UInt8) : List (List Char × Prop) := [
  (t! "the Altitude field is malformed", bits d 29 30 = 2 ∧ TIDIllegal (bits d 31 43))]

def targetState0Reasons (d : List UInt8) : List (List Char × Prop) := [
  (t! "the bits 47 to 48 are expected to be 0", bits d 47 48 ≠ 0),
  (t! "the bits 49 to 51 are expected to be 0", bits d 49 51 ≠ 0)]

def operational0Reasons (d : List UInt8) : List (List Char × Prop) := [
  (t! "the bits 41 to 56 are expected to be 0", bits d 41 56 ≠ 0)]

/-- The version is bits 41-43; `at` are the words before it. -/
def versionReason (d : List UInt8) (version : Nat) (words reader : List Char) : List Char × Prop :=
  (words ++ versionName (bits d 41 43) ++ t! " format and can not be read by " ++ reader, bits d 41 43 ≠ version)

/-- Version 1: the service level is bits 9-10 and 13-14. -/
def operational1Reasons (d : List UInt8) (reader : List Char) : List (List Char × Prop) := [
  versionReason d 1 (t! "the data are given at ") reader,
  (t! "the ServiceLevel (field Capability Class) must be 0 (" ++ decimal (4 * bits d 9 10 + bits d 13 14) ++ t! " given)",
    bits d 9 10 ≠ 0 ∨ bits d 13 14 ≠ 0),
  (t! "the Operational Mode Format (field Operational Mode) must be 0 (" ++ decimal (bits d 25 26) ++ t! " given)", bits d 25 26 ≠ 0),
  (t! "the bits 49 and 50 must be 0", bits d 49 50 ≠ 0),
  (t! "the bits 55 and 56 must be 0", bits d 55 56 ≠ 0)]

/-- Version 2: the format of the capabilities is bits 9-10. -/
def operational2Reasons (d : List UInt8) (reader : List Char) : List (List Char × Prop) := [
  versionReason d 2 (t! "the data are given at at ") reader,
  (t! "the Capability Content (field Capability Class) must be 0 (" ++ decimal (bits d 9 10) ++ t! " given)", bits d 9 10 ≠ 0),
  (t! "the Operational Mode Format (field Operational Mode) must be 0 (" ++ decimal (bits d 25 26) ++ t! " given)", bits d 25 26 ≠ 0),
  (t! "the bit 56 must be 0", bits d 56 56 ≠ 0)]

/-! ### The parsers of the Mode S formats

They are given the number of the format and the payload; the altitude code is the low 13 bits of its second and third bytes, and the frame has four bytes more than the payload.
`n` is the format of the parser, and `given` the one it was given. -/

def parserReasons (n given : Nat) (payload : List UInt8) (bytes : Nat) (hasAltitude : Bool) : List (List Char × Prop) := [
  (t! "DF" ++ decimal n ++ t! " message must have a DownLinkFormat of " ++ decimal n, given ≠ n),
  (t! "DF" ++ decimal n ++ t! " message must be " ++ decimal bytes ++ t! " bytes long", payload.length + 4 ≠ bytes),
  (t! "the field Altitude is not readable", hasAltitude = true ∧ AltitudeIllegal (bits payload 12 24))]

end Spec
