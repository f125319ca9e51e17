import Verif.Model.BDS05
import Verif.Model.Float
/-!
# `pkg/bds/bds06`: surface position
-/
namespace Modes

/-- `bds06.SurfacePosition`, pkg/bds/bds06/surface_position.go:10-20. `MovementStatus` is an `int` converted from a byte;
`float32` values are the rationals they denote. -/
structure SurfacePosition where
  formatTypeCode : UInt8
  movementStatus : Nat
  movementSpeed : ℚ
  groundTrackStatus : Bool
  groundTrack : ℚ
  time : UInt8
  cprFormat : UInt8
  encodedLatitude : UInt32
  encodedLongitude : UInt32
  deriving DecidableEq

/-- `MovementStatus.getSpeed`, pkg/bds/bds06/fields/movement.go:50-70, with the `float32` roundings. -/
def movementGetSpeed (m : Int) : ℚ :=
  if m = 0 ∨ m = 1 ∨ m > 124 then 0
  else if 2 ≤ m ∧ m ≤ 8 then f32 (0.125 + f32 (f32 ((m - 2 : Int) : ℚ) * 0.125))
  else if 9 ≤ m ∧ m ≤ 12 then f32 (1 + f32 (f32 ((m - 9 : Int) : ℚ) * 0.25))
  else if 13 ≤ m ∧ m ≤ 38 then f32 (2 + f32 (f32 ((m - 13 : Int) : ℚ) * 0.5))
  else if 39 ≤ m ∧ m ≤ 93 then f32 (15 + f32 (f32 ((m - 39 : Int) : ℚ) * 1))
  else if 94 ≤ m ∧ m ≤ 108 then f32 (70 + f32 (f32 ((m - 94 : Int) : ℚ) * 2))
  else if 109 ≤ m ∧ m ≤ 123 then f32 (100 + f32 (f32 ((m - 109 : Int) : ℚ) * 5))
  else 175

/-- `fields.ReadMovement`, pkg/bds/bds06/fields/movement.go:73-77. -/
def readMovement (data : List UInt8) : Go (ℚ × Nat) := do
  let bits := ((← idx data 0) &&& 0x07) <<< 4 + ((← idx data 1) &&& 0xF0) >>> 4
  return (movementGetSpeed bits.toNat, bits.toNat)

/-- `fields.ReadGroundTrack`, pkg/bds/bds06/fields/ground_track.go:8-18. -/
def readGroundTrack (data : List UInt8) : Go (ℚ × Bool) := do
  let status := (← idx data 1) &&& 0x08 != 0
  let byte1 := (← idx data 1) &&& 0x07
  let byte2 := (← idx data 2) &&& 0xF0
  let allBits := pack2 byte1 byte2 >>> 4
  return (f32 (f32 (f32 (allBits.toNat : ℚ) * 360) / 128), status)

/-- `fields.ReadEncodedLatitude`, pkg/bds/bds06/fields/encoded_latitude.go:19-26. -/
def readEncodedLatitude06 (data : List UInt8) : Go UInt32 := do
  let b2 := ((← idx data 2) &&& 0x02) >>> 1
  let b1 := ((← idx data 2) &&& 0x01) <<< 7 + ((← idx data 3) &&& 0xFE) >>> 1
  let b0 := ((← idx data 3) &&& 0x01) <<< 7 + ((← idx data 4) &&& 0xFE) >>> 1
  return pack3 b2 b1 b0

/-- `bds06.ReadSurfacePosition`, pkg/bds/bds06/surface_position.go:57-83. `CheckCoherency` (28-30) never reports an
error. -/
def readBDS06 (data : List UInt8) : Go SurfacePosition := do
  if data.length ≠ 7 then fail
  let formatTypeCode ← readFormatTypeCode data
  if formatTypeCode < 5 ∨ formatTypeCode > 8 then fail
  let (speed, movementStatus) ← readMovement data
  let (groundTrack, groundTrackStatus) ← readGroundTrack data
  return {
    formatTypeCode := formatTypeCode
    movementStatus := movementStatus
    movementSpeed := speed
    groundTrackStatus := groundTrackStatus
    groundTrack := groundTrack
    time := ← readTime data
    cprFormat := ← readCPRFormat data
    encodedLatitude := ← readEncodedLatitude06 data
    encodedLongitude := ← readEncodedLongitude data }

end Modes
