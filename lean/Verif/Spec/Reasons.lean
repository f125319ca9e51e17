import Verif.Spec.Bits
import Verif.Props.ACAS
import Mathlib.Algebra.Order.Group.Unbundled.Abs
import Mathlib.Algebra.Order.Ring.Int
import Verif.Model.Text
/-!
# What the errors of the Comm-B registers say

For each register a table: the words of an error, and what they say of the data `d` they were given for, in terms of the documented places of the
fields (ICAO Doc 9871). The only things taken from elsewhere are the notation `t!` for a text and the
legality of an altitude code (`TIDIllegal`, Props/ACAS.lean).
-/
namespace Spec

/-- The words `t` are in the table, and what they say is so. -/
def TrueIn (table : List (List Char × Prop)) (t : List Char) : Prop := ∃ p, (t, p) ∈ table ∧ p

/-- The status bit is 0, and the value is not. -/
def GivenWithout (d : List UInt8) (status first last : Nat) : Prop := bit d status = false ∧ bits d first last ≠ 0

/-- One of the eight characters has a code without meaning; the first code begins at bit 9. -/
def BadCharacter (d : List UInt8) : Prop :=
  ∃ i < 8, let c := bits d (9 + 6 * i) (14 + 6 * i); ¬ ((1 ≤ c ∧ c ≤ 26) ∨ c = 32 ∨ (48 ≤ c ∧ c ≤ 57))

/-! ### Words of the readers -/

def readReasons00 (d : List UInt8) : List (List Char × Prop) := [
  (t! "the data for Comm-B NoMessageAvailable message must be 7 bytes long", d.length ≠ 7),
  (t! "bits 1 to 56 must be zero", bits d 1 56 ≠ 0)]

def readReasons07 (d : List UInt8) : List (List Char × Prop) := [
  (t! "the data for Comm-B Status message must be 7 bytes long", d.length ≠ 7),
  (t! "the bits 4 to 8 are reserved and must be 0", bits d 4 8 ≠ 0),
  (t! "the bits 9 to 56 are reserved and must be 0", bits d 9 56 ≠ 0)]

def readReasons10 (d : List UInt8) : List (List Char × Prop) := [
  (t! "the data for Comm-B DataLinkCapabilityReport message must be 7 bytes long", d.length ≠ 7),
  (t! "the first byte of data is not 0x10", bits d 1 8 ≠ 0x10),
  (t! "the bits 10 to 14 are reserved and must be 0", bits d 10 14 ≠ 0)]

def readReasons17 (d : List UInt8) : List (List Char × Prop) := [
  (t! "the data for Comm-B CommonUsageGICBCapabilityReport message must be 7 bytes long", d.length ≠ 7),
  (t! "the bits 30 to 32 are reserved and must be 0", bits d 30 32 ≠ 0),
  (t! "the bits 33 to 56 are reserved and must be 0", bits d 33 56 ≠ 0)]

def readReasons20 (d : List UInt8) : List (List Char × Prop) := [
  (t! "the data for Comm-B AircraftIdentification message must be 7 bytes long", d.length ≠ 7),
  (t! "the first byte of data is not 0x20", bits d 1 8 ≠ 0x20)]

/-- The altitude of the threat is at bits 31-43 of the register, when the type of its identity (bits 29-30) is 2. -/
def readReasons30 (d : List UInt8) : List (List Char × Prop) := [
  (t! "the data for Comm-B ACASResolutionAdvisory message must be 7 bytes long", d.length ≠ 7),
  (t! "the first byte of data is not 0x20", bits d 1 8 ≠ 0x20),
  (t! "the Altitude field is malformed", bits d 29 30 = 2 ∧ TIDIllegal (bits d 31 43))]

def readReasons40 (d : List UInt8) : List (List Char × Prop) := [
  (t! "the data for Comm-B SelectedVerticalIntention message must be 7 bytes long", d.length ≠ 7),
  (t! "the bit 40 must be zero", bits d 40 40 ≠ 0),
  (t! "the bits 41 to 47 must be zero", bits d 41 47 ≠ 0),
  (t! "the bits 52 to 53 must be zero", bits d 52 53 ≠ 0)]

def readReasons44V (d : List UInt8) : List (List Char × Prop) := [
  (t! "the data for Comm-B MeteorologicalRoutineAirReport message must be 7 bytes long", d.length ≠ 7),
  (t! "the bits 1 to 4 must be zero", bits d 1 4 ≠ 0)]

def readReasons45V (d : List UInt8) : List (List Char × Prop) := [
  (t! "the data for Comm-B MeteorologicalHazardReport message must be 7 bytes long", d.length ≠ 7),
  (t! "the bits 52 to 56 must be zero", bits d 52 56 ≠ 0),
  (t! "the bits 55 to 56 must be zero", bits d 55 56 ≠ 0)]

/-- The readers of BDS 4,4 and 4,5 that choose the version give the length: here its decimal text. -/
def readReasonsLength (d : List UInt8) (length : List Char) : List (List Char × Prop) := [
  (t! "the data must be 7 bytes long (" ++ length ++ t! " given)", d.length ≠ 7)]

def readReasons50 (d : List UInt8) : List (List Char × Prop) := [
  (t! "the data for Comm-B TrackAndTurnReport message must be 7 bytes long", d.length ≠ 7)]

def readReasons60 (d : List UInt8) : List (List Char × Prop) := [
  (t! "the data for Comm-B HeadingAndTrackReport message must be 7 bytes long", d.length ≠ 7)]

/-! ### Words of the coherency checks -/

def reasons07 (d : List UInt8) : List (List Char × Prop) := [
  (t! "field TransmissionRateSubfield is a Reserved value", bits d 1 2 = 3)]

def reasons08 (d : List UInt8) : List (List Char × Prop) := [
  (t! "field Identification contains a non valid character", BadCharacter d),
  (t! "field FormatTypeCode is 2 (Category set C) and the Category is Reserved", bits d 1 5 = 2 ∧ 4 ≤ bits d 6 8),
  (t! "field FormatTypeCode is 1 (Category set D) which is a reserved Category set", bits d 1 5 = 1)]

def reasons10 (d : List UInt8) : List (List Char × Prop) := [
  (t! "field ACASStatus is FailedOrStandBy but ACASHybridSurveillanceCapability is not HybridSurveillanceNotCapable",
    bits d 16 16 = 0 ∧ bits d 37 37 ≠ 0),
  (t! "field ACASStatus is FailedOrStandBy but ACASGenerationCapability is not ACASGenerationNotCapable",
    bits d 16 16 = 0 ∧ bits d 38 38 ≠ 0),
  (t! "field ACASStatus is FailedOrStandBy but ACASApplicableDocument is not ACASApplicableDocument185",
    bits d 16 16 = 0 ∧ bits d 39 40 ≠ 0),
  (t! "field ACASApplicableDocument is a Reserved value", bits d 39 40 = 3),
  (t! "field ModeSSubnetworkVersion is a Reserved value", 6 ≤ bits d 17 23),
  (t! "field UplinkELMThroughputCapability is a Reserved value", bits d 26 28 = 7),
  (t! "field DownlinkELMThroughputCapability is a Reserved value", 7 ≤ bits d 29 32)]

def reasons20 (d : List UInt8) : List (List Char × Prop) := [
  (t! "field Identification contains a non valid character", BadCharacter d)]

/-- Besides the two altitudes and the pressure setting, the register reports the modes of the autopilot (status bit 48) and the source of the
target altitude (status bit 54). -/
def reasons40 (d : List UInt8) : List (List Char × Prop) := [
  (t! "the message does not convey any information",
    bit d 1 = false ∧ bit d 14 = false ∧ bit d 27 = false ∧ bit d 48 = false ∧ bit d 54 = false),
  (t! "the MCP/FCU SelectedAltitude status is set to false, but a MCP/FCU SelectedAltitude value is given", GivenWithout d 1 2 13),
  (t! "the FMS SelectedAltitude status is set to false, but a FMS SelectedAltitude value is given", GivenWithout d 14 15 26),
  (t! "the BarometricPressureSetting status is set to false, but a BarometricPressureSetting value is given", GivenWithout d 27 28 39)]

/-- Version 0 of BDS 4,4. The temperature has no status: the register always conveys it. -/
def reasons44V0 (d : List UInt8) : List (List Char × Prop) := [
  (t! "the message does not convey any information", False),
  (t! "field Source is a Reserved value", 5 ≤ bits d 1 4),
  (t! "the wind speed status is set to false, but a wind speed value is given", GivenWithout d 5 6 14),
  (t! "the wind direction status is set to false, but a wind direction value is given", GivenWithout d 5 15 23),
  (t! "the average static pressure status is set to false, but a average static pressure value is given", GivenWithout d 35 36 46),
  (t! "the humidity status is set to false, but a humidity value is given", GivenWithout d 50 51 56),
  (t! "the wind speed is too high (above 250 knots)", 250 < bits d 6 14),
  (t! "the static air temperature is to high or to low (-80 <= temp <= 60)", sbits d 24 34 < -80 * 4 ∨ 60 * 4 < sbits d 24 34)]

/-- Versions 1 and 2 of BDS 4,4. The turbulence flag (bit 48) has no status. -/
def reasons44 (d : List UInt8) : List (List Char × Prop) := [
  (t! "the message does not convey any information",
    bit d 5 = false ∧ bit d 15 = false ∧ bit d 24 = false ∧ bit d 36 = false ∧ bit d 48 = false ∧ bit d 49 = false),
  (t! "field Source is a Reserved value", 5 ≤ bits d 1 4),
  (t! "the wind speed status is set to false, but a wind speed value is given", GivenWithout d 5 6 14),
  (t! "the wind direction status is set to false, but a wind direction value is given", GivenWithout d 15 16 23),
  (t! "the static air temperature status is set to false, but a static air temperature value is given", GivenWithout d 24 25 35),
  (t! "the average static pressure status is set to false, but a average static pressure value is given", GivenWithout d 36 37 47),
  (t! "the humidity status is set to false, but a humidity value is given", GivenWithout d 49 50 56),
  (t! "the wind speed is too high (above 250 knots)", 250 < bits d 6 14),
  (t! "the static air temperature is to high or to low (-80 <= temp <= 60)", sbits d 25 35 < -80 * 8 ∨ 60 * 8 < sbits d 25 35)]

def reasons45V0 (d : List UInt8) : List (List Char × Prop) := [
  (t! "the message does not convey any information",
    bit d 1 = false ∧ bit d 4 = false ∧ bit d 7 = false ∧ bit d 10 = false ∧ bit d 13 = false ∧ bit d 16 = false ∧ bit d 27 = false ∧
      bit d 39 = false),
  (t! "the turbulence status is set to false, but a turbulence value is given", GivenWithout d 1 2 3),
  (t! "the wind shear status is set to false, but a wind shear value is given", GivenWithout d 4 5 6),
  (t! "the micro burst status is set to false, but a micro burst value is given", GivenWithout d 7 8 9),
  (t! "the icing status is set to false, but a icing value is given", GivenWithout d 10 11 12),
  (t! "the wake vortex status is set to false, but a wake vortex value is given", GivenWithout d 13 14 15),
  (t! "the static air temperature status is set to false, but a static air temperature value is given", GivenWithout d 16 17 26),
  (t! "the average static pressure status is set to false, but a average static pressure value is given", GivenWithout d 27 28 38),
  (t! "the radioHeight status is set to false, but a radioHeight value is given", GivenWithout d 39 40 51),
  (t! "the static air temperature is to high or to low (-80 <= temp <= 60)", sbits d 17 26 < -80 * 4 ∨ 60 * 4 < sbits d 17 26)]

/-- Version 1 of BDS 4,5 has no pressure. -/
def reasons45V1 (d : List UInt8) : List (List Char × Prop) := [
  (t! "the message does not convey any information",
    bit d 1 = false ∧ bit d 4 = false ∧ bit d 7 = false ∧ bit d 10 = false ∧ bit d 13 = false ∧ bit d 25 = false ∧ bit d 38 = false),
  (t! "the turbulence status is set to false, but some turbulence values are given", GivenWithout d 38 39 54),
  (t! "the wind shear status is set to false, but a wind shear value is given", GivenWithout d 1 2 3),
  (t! "the micro burst status is set to false, but a micro burst value is given", GivenWithout d 4 5 6),
  (t! "the icing status is set to false, but a icing value is given", GivenWithout d 7 8 9),
  (t! "the wake vortex status is set to false, but a wake vortex value is given", GivenWithout d 10 11 12),
  (t! "the static air temperature is to high or to low (-80 <= temp <= 60)",
    bit d 13 = true ∧ (sbits d 14 24 < -80 * 8 ∨ 60 * 8 < sbits d 14 24)),
  (t! "the average static pressure status is set to false, but a average static pressure value is given", False),
  (t! "the radioHeight status is set to false, but a radioHeight value is given", GivenWithout d 25 26 37)]

/-- The unit of the roll angle is 45/256 degree, that of the speeds 2 knots. -/
def reasons50 (d : List UInt8) : List (List Char × Prop) := [
  (t! "the message does not convey any information",
    bit d 1 = false ∧ bit d 12 = false ∧ bit d 24 = false ∧ bit d 35 = false ∧ bit d 46 = false),
  (t! "the roll angle status is set to false, but a roll angle value is given", GivenWithout d 1 2 11),
  (t! "the true track angle status is set to false, but a true track angle value is given", GivenWithout d 12 13 23),
  (t! "the ground speed status is set to false, but a ground speed value is given", GivenWithout d 24 25 34),
  (t! "the track angle rate status is set to false, but a track angle rate value is given", GivenWithout d 35 36 45),
  (t! "the true air speed status is set to false, but a true air speed rate value is given", GivenWithout d 46 47 56),
  (t! "the roll angle is too high (above 50 degrees)", 50 * 256 < |sbits d 2 11| * 45),
  (t! "the ground speed is too high (above 600 knots)", 600 < 2 * bits d 25 34),
  (t! "the true air speed is too high (above 500 knots)", 500 < 2 * bits d 47 56),
  (t! "the difference between true air speed and ground speed is too high (above 200 knots)",
    200 < |2 * (bits d 25 34 : Int) - 2 * (bits d 47 56 : Int)|)]

/-- The unit of the Mach number is 0.004, that of the vertical rates 32 feet per minute. -/
def reasons60 (d : List UInt8) : List (List Char × Prop) := [
  (t! "the message does not convey any information",
    bit d 1 = false ∧ bit d 13 = false ∧ bit d 24 = false ∧ bit d 35 = false ∧ bit d 46 = false),
  (t! "the magnetic heading status is set to false, but a magnetic heading value is given", GivenWithout d 1 2 12),
  (t! "the indicated air speed status is set to false, but a indicated air speed value is given", GivenWithout d 13 14 23),
  (t! "the mach status is set to false, but a mach value is given", GivenWithout d 24 25 34),
  (t! "the barometric altitude rate status is set to false, but a barometric altitude rate value is given", GivenWithout d 35 36 45),
  (t! "the initial vertical velocity status is set to false, but a initial vertical velocity value is given", GivenWithout d 46 47 56),
  (t! "the indicated air speed is too high (above 500 knots)", 500 < bits d 14 23),
  (t! "the mach is too high (above 1.0)", 1000 < 4 * bits d 25 34),
  (t! "the barometric altitude rate is to high or to low (above or under 6000fpm)", 6000 < |sbits d 36 45| * 32),
  (t! "the initial vertical velocity is to high or to low (above or under 6000fpm)", 6000 < |sbits d 47 56| * 32)]

/-- Of the values of the emergency status, 7 is reserved; 6 is a downed aircraft. -/
def reasons61 (d : List UInt8) : List (List Char × Prop) := [
  (t! "field EmergencyPriorityStatus is expected to be NoEmergency", bits d 9 11 ≠ 0),
  (t! "field EmergencyPriorityStatus is a Reserved value", bits d 9 11 = 7)]

end Spec
