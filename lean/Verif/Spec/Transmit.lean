import Verif.Spec.CRC
import Verif.Spec.CPR
/-!
# The transmitter's side

How an aircraft builds an extended squitter (ICAO Annex 10 vol. IV 3.1.2.8.6, Doc 9871 appendix A): the fields of the message, the
header and the parity. Independent of the decoder.
-/
namespace Spec
open Polynomial

/-- `f` is the 112-bit extended squitter (downlink format 17) of an aircraft of that capability and address, with that 56-bit message:
the header, the message, and the 24 parity bits, which are the remainder of the first 88 bits by the generator. -/
def IsSquitter (capability address : Nat) (me f : List UInt8) : Prop :=
  ∃ p : List UInt8, p.length = 3 ∧ f = toBytes 4 (17 * 2 ^ 27 + capability * 2 ^ 24 + address) ++ me ++ p ∧
    messagePoly p = parityPoly (toBytes 4 (17 * 2 ^ 27 + capability * 2 ^ 24 + address) ++ me)

/-- An airborne position message: type code (5 bits), surveillance status (2), antenna (1), altitude (12), time (1), format (1),
latitude (17), longitude (17). -/
def airborneField (tc status antenna altitude time format lat lon : Nat) : List UInt8 :=
  toBytes 7 (tc * 2 ^ 51 + status * 2 ^ 49 + antenna * 2 ^ 48 + altitude * 2 ^ 36 + time * 2 ^ 35 + format * 2 ^ 34 + lat * 2 ^ 17 + lon)

/-- A surface position message: type code (5 bits), movement (7), track status (1), track (7), time (1), format (1), latitude (17),
longitude (17). -/
def surfaceField (tc movement status track time format lat lon : Nat) : List UInt8 :=
  toBytes 7 (tc * 2 ^ 51 + movement * 2 ^ 44 + status * 2 ^ 43 + track * 2 ^ 36 + time * 2 ^ 35 + format * 2 ^ 34 + lat * 2 ^ 17 + lon)

/-- The 12-bit altitude field of the altitude `25 n - 1000` feet: the 11 bits of `n` with the Q bit after the first seven. -/
def altitudeField (n : Nat) : Nat := n / 16 * 32 + 16 + n % 16

/-- An airborne velocity message: type code 19 (5 bits), subtype (3), intent change (1), IFR capability (1), accuracy (3), then for subtypes 1 and 2 the
direction and magnitude of the east-west (1 + 10) and north-south (1 + 10) components, for subtypes 3 and 4 status and heading (1 + 10), type and value
of the airspeed (1 + 10); source (1), sign (1) and magnitude (9) of the vertical rate; reserved (2); sign (1) and magnitude (7) of the height difference. -/
def velocityField (subtype intent ifr accuracy a1 a10 b1 b10 source vrSign vr reserved hSign h : Nat) : List UInt8 :=
  toBytes 7 (19 * 2 ^ 51 + subtype * 2 ^ 48 + intent * 2 ^ 47 + ifr * 2 ^ 46 + accuracy * 2 ^ 43 + a1 * 2 ^ 42 + a10 * 2 ^ 32 + b1 * 2 ^ 31 +
    b10 * 2 ^ 21 + source * 2 ^ 20 + vrSign * 2 ^ 19 + vr * 2 ^ 10 + reserved * 2 ^ 8 + hSign * 2 ^ 7 + h)

/-- The code of the magnitude of `x` in steps of `k`: one more than the nearest number of steps, zero being kept for "no information". -/
noncomputable def stepCode (k x : ℝ) : Nat := ⌊|x| / k + 1 / 2⌋₊ + 1

/-- The direction or sign bit of `x`: 1 for west, south, down, below. -/
noncomputable def signCode (x : ℝ) : Nat := if x < 0 then 1 else 0

/-- The code of a heading: the nearest of 1024 parts of the circle. -/
noncomputable def headingCode (h : ℝ) : Nat := ⌊h * 1024 / 360 + 1 / 2⌋₊ % 1024

/-! ## Comm-B registers -/

/-- A parameter of a register: a status bit followed by an `n`-bit code; all zero when the parameter is not available. -/
def param (n : Nat) : Option Nat → Nat
  | some c => 2 ^ n + c
  | none => 0

/-- The `n`-bit two's complement code of the number of steps nearest to `x`. -/
noncomputable def twosCode (n : Nat) (step x : ℝ) : Nat := (⌊x / step + 1 / 2⌋ % 2 ^ n).toNat

/-- The number of steps nearest to `x`. -/
noncomputable def unsignedCode (step x : ℝ) : Nat := ⌊x / step + 1 / 2⌋₊

/-- BDS 5,0 (Doc 9871 table A-2-80): roll angle (10 bits, 45/256 degrees), true track (11 bits, 90/512 degrees), ground speed (10 bits, 2 knots), track
angle rate (10 bits, 8/256 degrees per second), true airspeed (10 bits, 2 knots), each after its status bit. -/
noncomputable def trackTurnField (roll track groundSpeed rate airspeed : Option ℝ) : List UInt8 :=
  toBytes 7 (param 10 (roll.map (twosCode 10 (45 / 256))) * 2 ^ 45 + param 11 (track.map (twosCode 11 (90 / 512))) * 2 ^ 33 +
    param 10 (groundSpeed.map (unsignedCode 2)) * 2 ^ 22 + param 10 (rate.map (twosCode 10 (8 / 256))) * 2 ^ 11 + param 10 (airspeed.map (unsignedCode 2)))

/-- BDS 6,0 (Doc 9871 table A-2-96): magnetic heading (11 bits, 90/512 degrees), indicated airspeed (10 bits, 1 knot), Mach number (10 bits, 0.004),
barometric altitude rate (10 bits, 32 feet per minute), inertial vertical velocity (10 bits, 32 feet per minute), each after its status bit. -/
noncomputable def headingSpeedField (heading airspeed mach barometric inertial : Option ℝ) : List UInt8 :=
  toBytes 7 (param 11 (heading.map (twosCode 11 (90 / 512))) * 2 ^ 44 + param 10 (airspeed.map (unsignedCode 1)) * 2 ^ 33 +
    param 10 (mach.map (unsignedCode (4 / 1000))) * 2 ^ 22 + param 10 (barometric.map (twosCode 10 32)) * 2 ^ 11 + param 10 (inertial.map (twosCode 10 32)))

/-- BDS 4,0 (Doc 9871 table A-2-64): MCP/FCU selected altitude (12 bits, 16 feet), FMS selected altitude (12 bits, 16 feet), barometric pressure setting minus
800 millibars (12 bits, 0.1 millibar), each after its status bit; 8 reserved bits; status of the mode bits, VNAV, altitude hold, approach; 2 reserved bits;
status and source of the target altitude. -/
noncomputable def selectedAltitudeField (mcp fms pressure : Option ℝ) (modeStatus vnav hold approach sourceStatus source : Nat) : List UInt8 :=
  toBytes 7 (param 12 (mcp.map (unsignedCode 16)) * 2 ^ 43 + param 12 (fms.map (unsignedCode 16)) * 2 ^ 30 +
    param 12 (pressure.map fun p => unsignedCode (1 / 10) (p - 800)) * 2 ^ 17 + modeStatus * 2 ^ 8 + vnav * 2 ^ 7 + hold * 2 ^ 6 + approach * 2 ^ 5 +
    sourceStatus * 2 ^ 2 + source)

/-- BDS 4,4 in the layout of Doc 9871 appendix E, preceded by the source of the navigation data: source (4 bits), wind speed (9 bits, 1 knot), wind direction
(8 bits, 180/128 degrees), static air temperature (11 bits, 1/8 degree), average static pressure (11 bits, 1 hPa), each after its status bit; turbulence
(1 bit); humidity (7 bits, 1 %) after its status bit. -/
noncomputable def routineReportField (source : Nat) (wind direction temperature pressure : Option ℝ) (turbulence : Nat) (humidity : Option ℝ) : List UInt8 :=
  toBytes 7 (source * 2 ^ 52 + param 9 (wind.map (unsignedCode 1)) * 2 ^ 42 + param 8 (direction.map (twosCode 8 (180 / 128))) * 2 ^ 33 +
    param 11 (temperature.map (twosCode 11 (1 / 8))) * 2 ^ 21 + param 11 (pressure.map (unsignedCode 1)) * 2 ^ 9 + turbulence * 2 ^ 8 +
    param 7 (humidity.map (unsignedCode 1)))

/-- The code of a turbulence report: average and peak eddy dissipation rate (6 bits each, 0.02), delay to the peak (4 bits). -/
noncomputable def turbulenceCode (t : ℝ × ℝ × Nat) : Nat := unsignedCode (1 / 50) t.1 * 2 ^ 10 + unsignedCode (1 / 50) t.2.1 * 2 ^ 4 + t.2.2

/-- BDS 4,5 in the layout of Doc 9871 appendix E: the levels (2 bits) of wind shear, microburst, icing and wake vortex, static air temperature (11 bits, 1/8
degree), radio height (12 bits, 2 feet), turbulence (16 bits), each after its status bit; 2 reserved bits. -/
noncomputable def hazardReportField (shear burst icing wake : Option Nat) (temperature height : Option ℝ) (turbulence : Option (ℝ × ℝ × Nat)) : List UInt8 :=
  toBytes 7 (param 2 shear * 2 ^ 53 + param 2 burst * 2 ^ 50 + param 2 icing * 2 ^ 47 + param 2 wake * 2 ^ 44 +
    param 11 (temperature.map (twosCode 11 (1 / 8))) * 2 ^ 32 + param 12 (height.map (unsignedCode 2)) * 2 ^ 19 + param 16 (turbulence.map turbulenceCode) * 2 ^ 2)

end Spec
