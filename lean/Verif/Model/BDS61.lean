import Verif.Model.BDS05
import Verif.Model.ACAS
/-!
# `pkg/bds/bds61`: aircraft status
-/
namespace Modes

/-- `bds61.AircraftStatusNoInformation`, aircraft_status_no_information.go:12-16. -/
structure StatusNoInformation where
  formatTypeCode : UInt8
  subtype : UInt8
  emergencyPriorityStatus : UInt8
  deriving DecidableEq, Repr

/-- `bds61.AircraftStatusEmergency`, aircraft_status_emergency.go:12-17. -/
structure StatusEmergency where
  formatTypeCode : UInt8
  subtype : UInt8
  emergencyPriorityStatus : UInt8
  modeACode : UInt16
  deriving DecidableEq, Repr

/-- `bds61.AircraftStatusACAS`, aircraft_status_acas.go:12-16. -/
structure StatusACAS where
  formatTypeCode : UInt8
  subtype : UInt8
  resolutionAdvisory : ResolutionAdvisory
  deriving DecidableEq, Repr

/-- The `AircraftStatus` interface and its implementations, aircraft_status.go:9-12. -/
inductive AircraftStatus
  | noInformation (m : StatusNoInformation)
  | emergency (m : StatusEmergency)
  | acas (m : StatusACAS)
  deriving DecidableEq, Repr

/-- `CheckCoherency` of the three messages, aircraft_status_no_information.go:28-35, aircraft_status_emergency.go:29-36,
aircraft_status_acas.go:28-30 (`true` is "no error"). -/
def AircraftStatus.coherent : AircraftStatus → Bool
  | .noInformation m => m.emergencyPriorityStatus == 0
  | .emergency m => !(m.emergencyPriorityStatus > 5)
  | .acas _ => true

/-- `fields.ReadSubtype`, fields/subtype.go:49-52. -/
def readSubtype61 (data : List UInt8) : Go UInt8 := do
  return (← idx data 0) &&& 0x07

/-- `fields.ReadEmergencyPriorityStatus`, fields/emergency_status.go:55-58. -/
def readEmergencyPriorityStatus (data : List UInt8) : Go UInt8 := do
  return ((← idx data 1) &&& 0xE0) >>> 5

/-- The loop of aircraft_status_no_information.go:69-73, `n` iterations left: it tests the same byte 1 every time. -/
def noInformationLoop (data : List UInt8) : Nat → Go Unit
  | 0 => .ok ()
  | n + 1 => do
    if (← idx data 1) &&& 0x1F ≠ 0 then fail
    noInformationLoop data n

/-- `ReadAircraftStatusNoInformation`, aircraft_status_no_information.go:49-80. -/
def readStatusNoInformation (data : List UInt8) : Go StatusNoInformation := do
  if data.length ≠ 7 then fail
  let formatTypeCode ← readFormatTypeCode data
  if formatTypeCode ≠ 28 then fail
  let subType ← readSubtype61 data
  if subType ≠ 0 then fail
  if (← idx data 1) &&& 0x1F ≠ 0 then fail
  noInformationLoop data 5
  return {
    formatTypeCode := formatTypeCode
    subtype := subType
    emergencyPriorityStatus := ← readEmergencyPriorityStatus data }

/-- The loops `for i := a; i < b; i++ { if data[i] != 0 { return error } }`: `n` iterations left from index `i`
(aircraft_status_emergency.go:69-73, bds07/status.go:61-65). -/
def expectZeros (data : List UInt8) : Nat → Nat → Go Unit
  | _, 0 => .ok ()
  | i, n + 1 => do
    if (← idx data i) ≠ 0 then fail
    expectZeros data (i + 1) n

/-- `ReadAircraftStatusEmergency`, aircraft_status_emergency.go:50-81. -/
def readStatusEmergency (data : List UInt8) : Go StatusEmergency := do
  if data.length ≠ 7 then fail
  let formatTypeCode ← readFormatTypeCode data
  if formatTypeCode ≠ 28 then fail
  let subType ← readSubtype61 data
  if subType ≠ 1 then fail
  let byte1 := (← idx data 1) &&& 0x1F
  let byte2 ← idx data 2
  expectZeros data 3 4
  return {
    formatTypeCode := formatTypeCode
    subtype := subType
    emergencyPriorityStatus := ← readEmergencyPriorityStatus data
    modeACode := pack2 byte1 byte2 }

/-- `ReadAircraftStatusACAS`, aircraft_status_acas.go:44-70. -/
def readStatusACAS (data : List UInt8) : Go StatusACAS := do
  if data.length ≠ 7 then fail
  let formatTypeCode ← readFormatTypeCode data
  if formatTypeCode ≠ 28 then fail
  let subType ← readSubtype61 data
  if subType ≠ 2 then fail
  let ra ← readResolutionAdvisory (← sliceFrom data 1)
  return { formatTypeCode := formatTypeCode, subtype := subType, resolutionAdvisory := ra }

/-- `bds61.ReadAircraftStatus`, aircraft_status.go:15-37. -/
def readBDS61 (data : List UInt8) : Go AircraftStatus := do
  if data.length ≠ 7 then fail
  let formatTypeCode ← readFormatTypeCode data
  if formatTypeCode ≠ 28 then fail
  let subType ← readSubtype61 data
  if subType = 0 then return .noInformation (← readStatusNoInformation data)
  else if subType = 1 then return .emergency (← readStatusEmergency data)
  else if subType = 2 then return .acas (← readStatusACAS data)
  else fail

end Modes
