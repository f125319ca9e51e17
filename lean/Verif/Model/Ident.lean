import Verif.Model.BDS05
/-!
# Identification: `pkg/bds/encoding`, `pkg/bds/bds08` and `pkg/bds/bds20`
-/
namespace Modes

/-- `encoding.IdentificationCharacterCoding`, pkg/bds/encoding/identification.go:3-8. -/
def identificationCharacterCoding : List UInt8 :=
  ['#', 'A', 'B', 'C', 'D', 'E', 'F', 'G', 'H', 'I', 'J', 'K', 'L', 'M', 'N', 'O',
   'P', 'Q', 'R', 'S', 'T', 'U', 'V', 'W', 'X', 'Y', 'Z', '#', '#', '#', '#', '#',
   ' ', '#', '#', '#', '#', '#', '#', '#', '#', '#', '#', '#', '#', '#', '#', '#',
   '0', '1', '2', '3', '4', '5', '6', '7', '8', '9', '#', '#', '#', '#', '#', '#'].map (fun c => UInt8.ofNat c.toNat)

/-- The `fields.AircraftCategory` interface and its four implementations, pkg/bds/bds08/fields/aircraft_category*.go:6-13. -/
inductive AircraftCategory
  | setA (c : UInt8)
  | setB (c : UInt8)
  | setC (c : UInt8)
  | setD (c : UInt8)
  deriving DecidableEq, Repr

/-- `AircraftCategory.CheckCoherency`, pkg/bds/bds08/fields/aircraft_category_set_{a:60-62,b:60-62,c:63-70,d:63-66}.go;
`true` is "no error". -/
def AircraftCategory.coherent : AircraftCategory → Bool
  | .setA _ => true
  | .setB _ => true
  | .setC c => !(c > 3)
  | .setD _ => false

/-- `bds08.AircraftIdentificationAndCategory`, pkg/bds/bds08/aircraft_identification_and_category.go:14-18. A Go `string` is
its sequence of bytes. -/
structure IdentificationAndCategory where
  formatTypeCode : UInt8
  category : AircraftCategory
  identification : List UInt8
  deriving DecidableEq, Repr

/-- `CheckCoherency`, pkg/bds/bds08/aircraft_identification_and_category.go:26-38 (`true` is "no error"). -/
def IdentificationAndCategory.coherent (m : IdentificationAndCategory) : Bool :=
  if m.identification.contains 0x23 then false else m.category.coherent

/-- The eight codes, pkg/bds/bds08/aircraft_identification_and_category.go:81-89 (and
pkg/bds/bds20/aircraft_identification.go:55-63, same expressions). -/
def readCodes (data : List UInt8) : Go (List UInt8) := do
  let d1 ← idx data 1
  let d2 ← idx data 2
  let d3 ← idx data 3
  let d4 ← idx data 4
  let d5 ← idx data 5
  let d6 ← idx data 6
  return [(d1 &&& 0xFC) >>> 2,
    (d1 &&& 0x03) <<< 4 + (d2 &&& 0xF0) >>> 4,
    (d2 &&& 0x0F) <<< 2 + (d3 &&& 0xC0) >>> 6,
    d3 &&& 0x3F,
    (d4 &&& 0xFC) >>> 2,
    (d4 &&& 0x03) <<< 4 + (d5 &&& 0xF0) >>> 4,
    (d5 &&& 0x0F) <<< 2 + (d6 &&& 0xC0) >>> 6,
    d6 &&& 0x3F]

/-- The characters, pkg/bds/bds08/aircraft_identification_and_category.go:92-95 (and
pkg/bds/bds20/aircraft_identification.go:66-69): each code indexes the table. -/
def codesToChars : List UInt8 → Go (List UInt8)
  | [] => .ok []
  | c :: l => do
    let ch ← idx identificationCharacterCoding c.toNat
    let rest ← codesToChars l
    return ch :: rest

/-- `bds08.ReadAircraftIdentificationAndCategory`, pkg/bds/bds08/aircraft_identification_and_category.go:53-102. -/
def readBDS08 (data : List UInt8) : Go IdentificationAndCategory := do
  if data.length ≠ 7 then fail
  let formatTypeCode ← readFormatTypeCode data
  if formatTypeCode < 1 ∨ formatTypeCode > 4 then fail
  let c := (← idx data 0) &&& 0x07
  let category :=
    if formatTypeCode = 1 then AircraftCategory.setD c
    else if formatTypeCode = 2 then .setC c
    else if formatTypeCode = 3 then .setB c
    else .setA c
  let codes ← readCodes data
  let chars ← codesToChars codes
  return { formatTypeCode := formatTypeCode, category := category, identification := chars }

/-- `bds20.AircraftIdentification`, pkg/bds/bds20/aircraft_identification.go:15-17. -/
structure AircraftIdentification where
  identification : List UInt8
  deriving DecidableEq, Repr

/-- `CheckCoherency`, pkg/bds/bds20/aircraft_identification.go:34-40. -/
def AircraftIdentification.coherent (m : AircraftIdentification) : Bool :=
  if m.identification.contains 0x23 then false else true

/-- `bds20.ReadAircraftIdentification`, pkg/bds/bds20/aircraft_identification.go:43-74. -/
def readBDS20 (data : List UInt8) : Go AircraftIdentification := do
  if data.length ≠ 7 then fail
  if (← idx data 0) ≠ 0x20 then fail
  let codes ← readCodes data
  let chars ← codesToChars codes
  return { identification := chars }

end Modes
