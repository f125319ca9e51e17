import Verif.Model.ModeS
import Verif.Model.BDS05
import Verif.Model.BDS06
import Verif.Model.Ident
import Verif.Model.BDS09
import Verif.Model.BDS61
import Verif.Model.BDS62
import Verif.Model.BDS65
/-!
# ADS-B messages: `pkg/adsb`

The readers of this package convert concrete pointers to the interface `adsb.Message`, so a failed call may hand out an
interface holding a nil pointer, which does not compare equal to `nil`. Results are therefore modelled as interface values.
-/
namespace Modes

/-- A Go interface value: the interface `nil`, an interface holding a nil pointer of some type, or one holding a value. -/
inductive Iface (α : Type)
  | nil
  | typedNil
  | val (a : α)

/-- The outcome of a Go call returning `(interface, error)`: a panic, or the two values (`err` tells whether the error is
non-nil). -/
inductive Call (α : Type)
  | panics
  | returns (v : Iface α) (err : Bool)

/-- `return f()` where `f` returns `(*T, error)` and the caller `(interface, error)`: a nil pointer becomes an interface
that is not nil. -/
def Call.ofPtr {α β : Type} (r : Go α) (f : α → β) : Call β :=
  match r with
  | .ok a => .returns (.val (f a)) false
  | .error .err => .returns .typedNil true
  | .error .panic => .panics

/-- Use `s[i]` in an expression: panics when `i` is out of range. -/
def Call.index {α : Type} (s : List UInt8) (i : Nat) (k : UInt8 → Call α) : Call α :=
  match s[i]? with
  | some x => k x
  | none => .panics

/-- `return nil, errors.New(..)`. -/
def Call.fail {α : Type} : Call α := .returns .nil true

/-- The messages of `pkg/adsb`: the structures of
no_position_information.go:9-14, airborne_position_type_0.go:12-16, airborne_position_v0.go:11-15, airborne_position_v1.go:11-16,
airborne_position_v2.go:11-17, surface_position_v0.go:11-15, surface_position_v1.go:11-16, surface_position_v2.go:11-17,
airborne_velocity.go:9-12, aircraft_identification_and_category.go:9-12, aircraft_status.go:9-12, target_state_status.go:9-12,
aircraft_operational_status.go:9-12. Enumerated types of one byte are the byte. -/
inductive ADSBMessage
  | noPosition (adsbVersion formatTypeCode : UInt8) (altitudeBarometric : Int) (nic : UInt8)
  | airborneType0 (position : AirbornePosition) (nic adsbVersion : UInt8)
  | airborneV0 (position : AirbornePosition) (horizontalProtectionLimit containmentRadius : UInt8)
  | airborneV1 (position : AirbornePosition) (nicSupplementA : Bool) (hcr nic : UInt8)
  | airborneV2 (position : AirbornePosition) (nicSupplementA : Bool) (nicSupplementB hcr nic : UInt8)
  | surfaceV0 (position : SurfacePosition) (horizontalProtectionLimit containmentRadius : UInt8)
  | surfaceV1 (position : SurfacePosition) (nicSupplementA : Bool) (hcr nic : UInt8)
  | surfaceV2 (position : SurfacePosition) (nicSupplementA nicSupplementC : Bool) (hcr nic : UInt8)
  | velocity (m : AirborneVelocity) (adsbVersion : UInt8)
  | identification (m : IdentificationAndCategory) (adsbVersion : UInt8)
  | status (m : AircraftStatus) (adsbVersion : UInt8)
  | targetState (m : TargetStateAndStatus) (adsbVersion : UInt8)
  | operationalStatus (m : OperationalStatus) (adsbVersion : UInt8)

/-- `GetADSBVersion` of the messages: no_position_information.go:17-19, airborne_position_type_0.go:19-21,
airborne_position_v0.go:18-20, airborne_position_v1.go:19-21, airborne_position_v2.go:20-22, surface_position_v0.go:28-30,
surface_position_v1.go:31-33, surface_position_v2.go:34-36, and lines 15-17 of the five others. -/
def ADSBMessage.getADSBVersion : ADSBMessage → UInt8
  | .noPosition v _ _ _ => v
  | .airborneType0 _ _ v => v
  | .airborneV0 .. => 0
  | .airborneV1 .. => 1
  | .airborneV2 .. => 2
  | .surfaceV0 .. => 0
  | .surfaceV1 .. => 1
  | .surfaceV2 .. => 2
  | .velocity _ v => v
  | .identification _ v => v
  | .status _ v => v
  | .targetState _ v => v
  | .operationalStatus _ v => v

/-- `CheckCoherency` of the messages (`true` for a nil error): the embedded register's for identification and status
(aircraft_identification_and_category.go:20-22, aircraft_status.go:20-22); the others always return nil
(no_position_information.go:22-24, bds05/airborne_position.go, bds06/surface_position.go:28-30, bds09, bds62 and bds65
messages). -/
def ADSBMessage.coherent : ADSBMessage → Bool
  | .identification m _ => m.coherent
  | .status m _ => m.coherent
  | _ => true

/-- `getHCRAndNICForV1`, pkg/adsb/airborne_position/airborne_position_v1.go:58-100; the radius codes are those of
fields/horizontal_containment_limit_v1.go:10-46. -/
def airborneHCRAndNICV1 (formatTypeCode : UInt8) (nicSupplementA : Bool) : UInt8 × UInt8 :=
  match formatTypeCode.toNat with
  | 9 => (9, 11)
  | 10 => (10, 10)
  | 11 => if nicSupplementA then (111, 9) else (11, 8)
  | 12 => (12, 7)
  | 13 => if nicSupplementA then (113, 6) else (13, 6)
  | 14 => (14, 5)
  | 15 => (15, 4)
  | 16 => if nicSupplementA then (116, 3) else (16, 2)
  | 17 => (17, 1)
  | 18 => (18, 0)
  | 20 => (0, 11)
  | 21 => (1, 10)
  | _ => (2, 0)

/-- `getHCRAndNICForV2`, pkg/adsb/airborne_position/airborne_position_v2.go:64-111; the radius codes are those of
fields/horizontal_containment_limit_v2.go:10-49. -/
def airborneHCRAndNICV2 (formatTypeCode : UInt8) (nicSupplementA : Bool) (nicSupplementB : UInt8) : UInt8 × UInt8 :=
  match formatTypeCode.toNat with
  | 9 => (9, 11)
  | 10 => (10, 10)
  | 11 => if nicSupplementA then (111, 9) else (11, 8)
  | 12 => (12, 7)
  | 13 => if !nicSupplementA then (if nicSupplementB = 1 then (213, 6) else (13, 6)) else (113, 6)
  | 14 => (14, 5)
  | 15 => (15, 4)
  | 16 => if nicSupplementA then (116, 3) else (16, 2)
  | 17 => (17, 1)
  | 18 => (18, 0)
  | 20 => (20, 11)
  | 21 => (21, 10)
  | _ => (22, 0)

/-- `getHCRAndNICForV1`, pkg/adsb/surface_position/surface_position_v1.go:58-73; the radius codes are those of
fields/horizontal_containment_radius_v1.go:10-25. -/
def surfaceHCRAndNICV1 (formatTypeCode : UInt8) (nicSupplementA : Bool) : UInt8 × UInt8 :=
  match formatTypeCode.toNat with
  | 5 => (0, 11)
  | 6 => (1, 10)
  | 7 => if nicSupplementA then (2, 9) else (4, 8)
  | _ => (4, 0)

/-- `getHCRAndNICForV2`, pkg/adsb/surface_position/surface_position_v2.go:62-89; the radius codes are those of
fields/horizontal_containment_radius_v2.go:10-34. -/
def surfaceHCRAndNICV2 (formatTypeCode : UInt8) (nicSupplementA nicSupplementC : Bool) : UInt8 × UInt8 :=
  match formatTypeCode.toNat with
  | 5 => (0, 11)
  | 6 => (1, 10)
  | 7 => if nicSupplementA then (2, 9) else (3, 8)
  | _ => if nicSupplementA then (if nicSupplementC then (4, 7) else (5, 6))
         else (if nicSupplementC then (6, 6) else (7, 0))

/-- `ReadNoPositionInformation`, pkg/adsb/no_position_information/no_position_information.go:38-54. -/
def readNoPositionInformation (adsbVersion : UInt8) (data : List UInt8) : Go ADSBMessage := do
  let dataTmp := [0x78, ← idx data 1, ← idx data 2, 0, 0, 0, 0]
  let bds ← readBDS05 dataTmp
  return .noPosition adsbVersion 0 bds.altitudeInFeet 0

/-- `ReadAirbornePositionType0`, pkg/adsb/airborne_position/airborne_position_type_0.go:37-54. -/
def readAirbornePositionType0 (adsbVersion : UInt8) (data : List UInt8) : Go ADSBMessage := do
  let dataTmp := [0xB0, ← idx data 1, ← idx data 2, ← idx data 3, ← idx data 4, ← idx data 5, ← idx data 6]
  let bds ← readBDS05 dataTmp
  let bds := { bds with formatTypeCode := 0 }
  return .airborneType0 bds 0 adsbVersion

/-- `ReadAirbornePositionV0`, pkg/adsb/airborne_position/airborne_position_v0.go:38-50. -/
def readAirbornePositionV0 (data : List UInt8) : Go ADSBMessage := do
  let bds ← readBDS05 data
  return .airborneV0 bds bds.formatTypeCode bds.formatTypeCode

/-- `ReadAirbornePositionV1`, pkg/adsb/airborne_position/airborne_position_v1.go:41-56. -/
def readAirbornePositionV1 (data : List UInt8) (nicSupplementA : Bool) : Go ADSBMessage := do
  let bds ← readBDS05 data
  let r := airborneHCRAndNICV1 bds.formatTypeCode nicSupplementA
  return .airborneV1 bds nicSupplementA r.1 r.2

/-- `ReadAirbornePositionV2`, pkg/adsb/airborne_position/airborne_position_v2.go:44-62, with
`fields.ReadNavigationIntegritySupplementB`, fields/navigation_integrity_code_supplement_b.go:31-34. -/
def readAirbornePositionV2 (data : List UInt8) (nicSupplementA : Bool) : Go ADSBMessage := do
  let bds ← readBDS05 data
  let nicSupplementB := (← idx data 0) &&& 0x01
  let r := airborneHCRAndNICV2 bds.formatTypeCode nicSupplementA nicSupplementB
  return .airborneV2 bds nicSupplementA nicSupplementB r.1 r.2

/-- `ReadAirbornePosition`, pkg/adsb/airborne_position/airborne_position.go:9-25. -/
def readAirbornePosition (adsbVersion : UInt8) (data : List UInt8) (nicSupplementA : Bool) : Call ADSBMessage :=
  Call.index data 0 fun b0 =>
  if b0 = 0 then Call.ofPtr (readAirbornePositionType0 adsbVersion data) id
  else if adsbVersion = 0 then Call.ofPtr (readAirbornePositionV0 data) id
  else if adsbVersion = 1 then Call.ofPtr (readAirbornePositionV1 data nicSupplementA) id
  else if adsbVersion = 2 then Call.ofPtr (readAirbornePositionV2 data nicSupplementA) id
  else Call.fail

/-- `ReadSurfacePositionV0`, pkg/adsb/surface_position/surface_position_v0.go:38-50. -/
def readSurfacePositionV0 (data : List UInt8) : Go ADSBMessage := do
  let bds ← readBDS06 data
  return .surfaceV0 bds bds.formatTypeCode bds.formatTypeCode

/-- `ReadSurfacePositionV1`, pkg/adsb/surface_position/surface_position_v1.go:41-56. -/
def readSurfacePositionV1 (data : List UInt8) (nicSupplementA : Bool) : Go ADSBMessage := do
  let bds ← readBDS06 data
  let r := surfaceHCRAndNICV1 bds.formatTypeCode nicSupplementA
  return .surfaceV1 bds nicSupplementA r.1 r.2

/-- `ReadSurfacePositionV2`, pkg/adsb/surface_position/surface_position_v2.go:44-60. -/
def readSurfacePositionV2 (data : List UInt8) (nicSupplementA nicSupplementC : Bool) : Go ADSBMessage := do
  let bds ← readBDS06 data
  let r := surfaceHCRAndNICV2 bds.formatTypeCode nicSupplementA nicSupplementC
  return .surfaceV2 bds nicSupplementA nicSupplementC r.1 r.2

/-- `ReadSurfacePosition`, pkg/adsb/surface_position/surface_position.go:9-21. -/
def readSurfacePosition (adsbVersion : UInt8) (data : List UInt8) (nicSupplementA nicSupplementC : Bool) :
    Call ADSBMessage :=
  if adsbVersion = 0 then Call.ofPtr (readSurfacePositionV0 data) id
  else if adsbVersion = 1 then Call.ofPtr (readSurfacePositionV1 data nicSupplementA) id
  else if adsbVersion = 2 then Call.ofPtr (readSurfacePositionV2 data nicSupplementA nicSupplementC) id
  else Call.fail

/-- `ReadADSBMessage`, pkg/adsb/reader/reader.go:33-105. The readers called for the type codes 1-4, 19, 28, 29 and 31 are
aircraft_identification_and_category.go:31-42, airborne_velocity.go:31-42, aircraft_status.go:31-42,
target_state_status.go:31-42 and aircraft_operational_status.go:31-42; each wraps the register with the version it was given,
the last one with the register's `GetADSBLevel`. -/
def readADSBMessage (adsbLevel : UInt8) (nicSupplementA nicSupplementC : Bool) (data : List UInt8) : Call ADSBMessage :=
  if data.length ≠ 7 then Call.fail
  else Call.index data 0 fun b0 =>
  match ((b0 &&& 0xF8) >>> 3).toNat with
  | 0 =>
    Call.index data 2 fun b2 => Call.index data 3 fun b3 => Call.index data 4 fun b4 => Call.index data 5 fun b5 =>
    Call.index data 6 fun b6 =>
    if b2 &&& 0x0F = 0 ∧ b3 = 0 ∧ b4 = 0 ∧ b5 = 0 ∧ b6 = 0 then
      Call.ofPtr (readNoPositionInformation adsbLevel data) id
    else Call.ofPtr (readAirbornePositionType0 adsbLevel data) id
  | 1 | 2 | 3 | 4 => Call.ofPtr (readBDS08 data) (fun m => .identification m adsbLevel)
  | 5 | 6 | 7 | 8 => readSurfacePosition adsbLevel data nicSupplementA nicSupplementC
  | 9 | 10 | 11 | 12 | 13 | 14 | 15 | 16 | 17 | 18 | 20 | 21 | 22 => readAirbornePosition adsbLevel data nicSupplementA
  | 19 => Call.ofPtr (readBDS09 data) (fun m => .velocity m adsbLevel)
  | 28 => Call.ofPtr (readBDS61 data) (fun m => .status m adsbLevel)
  | 29 => Call.ofPtr (readBDS62 data) (fun m => .targetState m adsbLevel)
  | 31 => Call.ofPtr (readBDS65 data) (fun m => .operationalStatus m m.getADSBLevel)
  | _ => Call.fail

/-- `reader.ReadMessage` as the caller sees it, pkg/modes/reader/reader.go:16-67: the interface variable `modeS` gets the
pointer returned by the parser (a typed nil when that fails), but the final `if err != nil { return nil, err }` (lines 62-64)
hides it. The parsing itself is `readMessage`. -/
def readMessageCall (message : List UInt8) : Call ModeSMessage :=
  match Call.ofPtr (readMessage message) id with
  | .panics => .panics
  | .returns v err => if err then .returns .nil true else .returns v false

end Modes
