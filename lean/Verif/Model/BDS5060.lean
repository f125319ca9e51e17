import Verif.Model.CommBNum
/-!
# `pkg/bds/bds50` (track and turn report) and `pkg/bds/bds60` (heading and speed report)
-/
namespace Modes

/-- `fields.ReadRollAngle`, pkg/bds/bds50/fields/roll_angle.go:7-20 (its test of `(data[0]&0x40)>>6` is that of the masked bit). -/
def readRollAngle (data : List UInt8) : Go (Bool × ℚ) := do
  let status := (← idx data 0) &&& 0x80 != 0
  let byte1 := (← idx data 0) &&& 0x3F
  let byte2 := (← idx data 1) &&& 0xE0
  let allBits := pack2 byte1 byte2 >>> 5
  let negative := (← idx data 0) &&& 0x40 != 0
  return (status, signedF32 negative allBits.toNat 45 256 90)

/-- `fields.ReadTrueTrackAngle`, pkg/bds/bds50/fields/true_track_angle.go:7-20. -/
def readTrueTrackAngle (data : List UInt8) : Go (Bool × ℚ) := do
  let status := (← idx data 1) &&& 0x10 != 0
  let byte1 := (← idx data 1) &&& 0x07
  let byte2 := (← idx data 2) &&& 0xFE
  let allBits := pack2 byte1 byte2 >>> 1
  let negative := (← idx data 1) &&& 0x08 != 0
  return (status, signedF32 negative allBits.toNat 90 512 180)

/-- `fields.ReadGroundSpeed`, pkg/bds/bds50/fields/ground_speed.go:5-14. -/
def readGroundSpeed50 (data : List UInt8) : Go (Bool × UInt32) := do
  let status := (← idx data 2) &&& 0x01 != 0
  let byte1 := (← idx data 3) &&& 0xFF
  let byte2 := (← idx data 4) &&& 0xC0
  let allBits := pack2 byte1 byte2 >>> 6
  return (status, allBits.toUInt32 * 2)

/-- `fields.ReadTrackAngleRate`, pkg/bds/bds50/fields/track_angle_rate.go:5-18. -/
def readTrackAngleRate (data : List UInt8) : Go (Bool × ℚ) := do
  let status := (← idx data 4) &&& 0x20 != 0
  let byte1 := (← idx data 4) &&& 0x0F
  let byte2 := (← idx data 5) &&& 0xF8
  let allBits := pack2 byte1 byte2 >>> 3
  let negative := (← idx data 4) &&& 0x10 != 0
  return (status, signedF32 negative allBits.toNat 8 256 16)

/-- `fields.ReadTrueAirSpeed`, pkg/bds/bds50/fields/true_air_speed.go:5-14. -/
def readTrueAirSpeed (data : List UInt8) : Go (Bool × UInt32) := do
  let status := (← idx data 5) &&& 0x04 != 0
  let byte1 := (← idx data 5) &&& 0x03
  let byte2 := (← idx data 6) &&& 0xFF
  let allBits := pack2 byte1 byte2
  return (status, allBits.toUInt32 * 2)

/-- `bds50.TrackAndTurnReport`, pkg/bds/bds50/track_and_turn_report.go:14-25. -/
structure TrackAndTurnReport where
  rollAngleStatus : Bool
  rollAngle : ℚ
  trueTrackAngleStatus : Bool
  trueTrackAngle : ℚ
  groundSpeedStatus : Bool
  groundSpeed : UInt32
  trackAngleRateStatus : Bool
  trackAngleRate : ℚ
  trueAirSpeedStatus : Bool
  trueAirSpeed : UInt32
  deriving DecidableEq

/-- `CheckCoherency`, pkg/bds/bds50/track_and_turn_report.go:60-104. -/
def TrackAndTurnReport.coherent (m : TrackAndTurnReport) : Bool :=
  if !m.rollAngleStatus ∧ !m.trueTrackAngleStatus ∧ !m.groundSpeedStatus ∧ !m.trackAngleRateStatus ∧ !m.trueAirSpeedStatus then
    false
  else if !m.rollAngleStatus ∧ m.rollAngle ≠ 0 then false
  else if !m.trueTrackAngleStatus ∧ m.trueTrackAngle ≠ 0 then false
  else if !m.groundSpeedStatus ∧ m.groundSpeed ≠ 0 then false
  else if !m.trackAngleRateStatus ∧ m.trackAngleRate ≠ 0 then false
  else if !m.trueAirSpeedStatus ∧ m.trueAirSpeed ≠ 0 then false
  else if m.rollAngle > 50 ∨ m.rollAngle < -50 then false
  else if m.groundSpeed > 600 then false
  else if m.trueAirSpeed > 500 then false
  else
    let speedDifference := (m.groundSpeed.toNat : Int) - (m.trueAirSpeed.toNat : Int)
    if speedDifference < -200 ∨ speedDifference > 200 then false else true

/-- `bds50.ReadTrackAndTurnReport`, pkg/bds/bds50/track_and_turn_report.go:107-131. -/
def readBDS50 (data : List UInt8) : Go TrackAndTurnReport := do
  if data.length ≠ 7 then fail
  let roll ← readRollAngle data
  let track ← readTrueTrackAngle data
  let gs ← readGroundSpeed50 data
  let rate ← readTrackAngleRate data
  let tas ← readTrueAirSpeed data
  return {
    rollAngleStatus := roll.1
    rollAngle := roll.2
    trueTrackAngleStatus := track.1
    trueTrackAngle := track.2
    groundSpeedStatus := gs.1
    groundSpeed := gs.2
    trackAngleRateStatus := rate.1
    trackAngleRate := rate.2
    trueAirSpeedStatus := tas.1
    trueAirSpeed := tas.2 }

/-- `fields.ReadMagneticHeading`, pkg/bds/bds60/fields/magnetic_heading.go:7-20. -/
def readMagneticHeading60 (data : List UInt8) : Go (Bool × ℚ) := do
  let status := (← idx data 0) &&& 0x80 != 0
  let byte1 := (← idx data 0) &&& 0x3F
  let byte2 := (← idx data 1) &&& 0xF0
  let allBits := pack2 byte1 byte2 >>> 4
  let negative := (← idx data 0) &&& 0x40 != 0
  return (status, signedF32 negative allBits.toNat 90 512 180)

/-- `fields.ReadIndicatedAirSpeed`, pkg/bds/bds60/fields/indicated_airspeed.go:5-14. -/
def readIndicatedAirSpeed (data : List UInt8) : Go (Bool × UInt32) := do
  let status := (← idx data 1) &&& 0x08 != 0
  let byte1 := (← idx data 1) &&& 0x07
  let byte2 := (← idx data 2) &&& 0xFE
  let allBits := pack2 byte1 byte2 >>> 1
  return (status, allBits.toUInt32)

/-- The Mach number made of the number, pkg/bds/bds60/fields/mach.go:11 (`float32` arithmetic). -/
def machOf (n : Nat) : ℚ := f32 (f32 (f32 (n : ℚ) * f32 (2048 / 1000)) / 512)

/-- `fields.ReadMach`, pkg/bds/bds60/fields/mach.go:5-14. -/
def readMach (data : List UInt8) : Go (Bool × ℚ) := do
  let status := (← idx data 2) &&& 0x01 != 0
  let byte1 := (← idx data 3) &&& 0xFF
  let byte2 := (← idx data 4) &&& 0xC0
  let allBits := pack2 byte1 byte2 >>> 6
  return (status, machOf allBits.toNat)

/-- `fields.ReadBarometricAltitudeRate`, pkg/bds/bds60/fields/barometric_altitude_rate.go:5-18. -/
def readBarometricAltitudeRate60 (data : List UInt8) : Go (Bool × Int) := do
  let status := (← idx data 4) &&& 0x20 != 0
  let byte1 := (← idx data 4) &&& 0x0F
  let byte2 := (← idx data 5) &&& 0xF8
  let allBits := pack2 byte1 byte2 >>> 3
  let negative := (← idx data 4) &&& 0x10 != 0
  return (status, signedInt negative allBits.toNat 32 16384)

/-- The velocity made of its sign and number, pkg/bds/bds60/fields/inertial_vertical_velocity.go:11-15: `int32(allBits) * 8192 / 256`, no
wrap-around (below 2^22), the division is exact. -/
def inertialVelocityOf (negative : Bool) (n : Nat) : Int :=
  let rate := Int.tdiv ((n : Int) * 8192) 256
  if negative then rate - 16384 else rate

/-- `fields.ReadInertialVerticalVelocity`, pkg/bds/bds60/fields/inertial_vertical_velocity.go:5-18. -/
def readInertialVerticalVelocity (data : List UInt8) : Go (Bool × Int) := do
  let status := (← idx data 5) &&& 0x04 != 0
  let byte1 := (← idx data 5) &&& 0x01
  let byte2 := (← idx data 6) &&& 0xFF
  let allBits := pack2 byte1 byte2
  let negative := (← idx data 5) &&& 0x02 != 0
  return (status, inertialVelocityOf negative allBits.toNat)

/-- `bds60.HeadingAndTrackReport`, pkg/bds/bds60/heading_and_speed_report.go:13-24. -/
structure HeadingAndTrackReport where
  magneticHeadingStatus : Bool
  magneticHeading : ℚ
  indicatedAirSpeedStatus : Bool
  indicatedAirSpeed : UInt32
  machStatus : Bool
  mach : ℚ
  barometricAltitudeRateStatus : Bool
  barometricAltitudeRate : Int
  initialVerticalVelocityStatus : Bool
  initialVerticalVelocity : Int
  deriving DecidableEq

/-- `CheckCoherency`, pkg/bds/bds60/heading_and_speed_report.go:59-102. -/
def HeadingAndTrackReport.coherent (m : HeadingAndTrackReport) : Bool :=
  if !m.magneticHeadingStatus ∧ !m.indicatedAirSpeedStatus ∧ !m.machStatus ∧ !m.barometricAltitudeRateStatus ∧
      !m.initialVerticalVelocityStatus then false
  else if !m.magneticHeadingStatus ∧ m.magneticHeading ≠ 0 then false
  else if !m.indicatedAirSpeedStatus ∧ m.indicatedAirSpeed ≠ 0 then false
  else if !m.machStatus ∧ m.mach ≠ 0 then false
  else if !m.barometricAltitudeRateStatus ∧ m.barometricAltitudeRate ≠ 0 then false
  else if !m.initialVerticalVelocityStatus ∧ m.initialVerticalVelocity ≠ 0 then false
  else if m.indicatedAirSpeed > 500 then false
  else if m.mach > 1 then false
  else if m.barometricAltitudeRate < -6000 ∨ m.barometricAltitudeRate > 6000 then false
  else if m.initialVerticalVelocity < -6000 ∨ m.initialVerticalVelocity > 6000 then false
  else true

/-- `bds60.ReadHeadingAndSpeedReport`, pkg/bds/bds60/heading_and_speed_report.go:105-129. -/
def readBDS60 (data : List UInt8) : Go HeadingAndTrackReport := do
  if data.length ≠ 7 then fail
  let heading ← readMagneticHeading60 data
  let ias ← readIndicatedAirSpeed data
  let mach ← readMach data
  let baro ← readBarometricAltitudeRate60 data
  let inertial ← readInertialVerticalVelocity data
  return {
    magneticHeadingStatus := heading.1
    magneticHeading := heading.2
    indicatedAirSpeedStatus := ias.1
    indicatedAirSpeed := ias.2
    machStatus := mach.1
    mach := mach.2
    barometricAltitudeRateStatus := baro.1
    barometricAltitudeRate := baro.2
    initialVerticalVelocityStatus := inertial.1
    initialVerticalVelocity := inertial.2 }

end Modes
