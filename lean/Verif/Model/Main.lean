import Verif.Model.CRC
import Verif.Model.CommB
/-!
# The command line program: `cmd/main.go`, and `pkg/common/printable.go`

What a line of text makes the program print is modelled by the structure of the output (`Report`); the wording of the texts
printed is in Model/Text*, Model/Program and Model/Errors. The operations of the printing functions that could panic are: the byte slices of
`MessageExtendedSquitter`, `MessageCommB` and `MessageCommD` are indexed, and methods are called on interfaces and pointers.
`main` itself (flags, reading of the file) is in Model/Program.
-/
namespace Modes

/-- `PrefixMultiLine`, pkg/common/printable.go:19-30. `strings.Split(lines, "\n")` and `strings.Join(newLines, "\n")` are the
library functions of the same meaning. Simplification: a string is its list of characters. -/
def prefixMultiLine (lines pre : List Char) : List Char :=
  let subLines := lines.splitOn '\n'
  let newLines := subLines.map fun line => pre ++ line
  ['\n'].intercalate newLines

/-- The value of a hexadecimal digit, `fromHexChar` of Go's encoding/hex. -/
def hexValue (c : UInt8) : Option UInt8 :=
  if 48 ≤ c ∧ c ≤ 57 then some (c - 48)
  else if 97 ≤ c ∧ c ≤ 102 then some (c - 97 + 10)
  else if 65 ≤ c ∧ c ≤ 70 then some (c - 65 + 10)
  else none

/-- `hex.DecodeString` of Go's library, called at cmd/main.go:90. A string is its bytes. -/
def hexDecode : List UInt8 → Go (List UInt8)
  | [] => .ok []
  | [_] => fail
  | a :: b :: rest =>
    match hexValue a, hexValue b with
    | some x, some y => do return ((x <<< 4) ||| y) :: (← hexDecode rest)
    | _, _ => fail

/-- `MessageExtendedSquitter.ToString` and `MessageCommB.ToString` (7 bytes) and `MessageCommD.ToString` (10 bytes):
pkg/modes/fields/message_extended_squitter.go:34-43, message_comm_b.go:32-41 and message_comm_d.go:34-46 index the slice. -/
def indexAll (data : List UInt8) : Nat → Go Unit
  | 0 => .ok ()
  | n + 1 => do
    indexAll data n
    let _ ← idx data n
    return ()

/-- `ToString` of a Mode S message, pkg/modes/messages/df0.go … df24.go: what can panic in it. The other fields are printed by
`switch`es and `fmt.Sprintf`. -/
def ModeSMessage.print : ModeSMessage → Go Unit
  | .df17 m => indexAll m.messageExtendedSquitter 7
  | .df18 m => indexAll m.messageExtendedSquitter 7
  | .df20 m => indexAll m.messageCommB 7
  | .df21 m => indexAll m.messageCommB 7
  | .df24 m => indexAll m.messageCommD 10
  | _ => .ok ()

/-- A method of a message called through an interface: `ToString` has value receivers, so a nil interface and a nil pointer
panic. `ResolutionAdvisory.ToString` (resolution_advisory.go:26-69) tests its four pointers before using them. -/
def Iface.print {α : Type} : Iface α → Go α
  | .val m => .ok m
  | .nil => goPanic
  | .typedNil => goPanic

/-- What is printed after the Mode S information, cmd/main.go:121-231. -/
inductive Details
  | nothing
  | acasUnknown (vds1 vds2 : UInt8)
  | acasUnreadable
  | acas (m : ResolutionAdvisory)
  | adsbUnreadable
  | adsb (m : ADSBMessage)
  | tisb
  | commBUnreadable
  | commBUnknown
  | commB (l : List CommBMessage)

/-- What the program prints for a line, after echoing it. `interrogator` is printed for all-call replies, `sender` for the
others. -/
inductive Report
  | notHexadecimal
  | frameUnreadable
  | parityError
  | replyToInterrogator (interrogator : UInt32) (m : ModeSMessage) (d : Details)
  | sentBy (sender : UInt32) (m : ModeSMessage) (d : Details)

/-- `postProcessMessage16`, cmd/main.go:143-164. -/
def postProcessMessage16 (m : MessageDF16) : Go Details := do
  let vds1 := ((← idx m.messageACAS 0) &&& 0xF0) >>> 4
  let vds2 := (← idx m.messageACAS 0) &&& 0x0F
  if vds1 = 3 ∧ vds2 = 0 then
    match readResolutionAdvisory (← sliceFrom m.messageACAS 1) with
    | .error .panic => goPanic
    | .error .err => return .acasUnreadable
    | .ok ra => return .acas ra
  else return .acasUnknown vds1 vds2

/-- `processADSBMessage`, cmd/main.go:186-198 (called at 166-169). -/
def processADSBMessage (data : List UInt8) (adsbVersion : UInt8) : Go Details :=
  match readADSBMessage adsbVersion false false data with
  | .panics => goPanic
  | .returns _ true => .ok .adsbUnreadable
  | .returns v false => do return .adsb (← v.print)

/-- `postProcessMessage18`, cmd/main.go:171-184. The control fields are 0, 1 (ADS-B) and 2 to 5 (TIS-B),
pkg/modes/fields/control_field.go:10-27. -/
def postProcessMessage18 (m : MessageDF18) (adsbVersion : UInt8) : Go Details :=
  if m.controlField = 0 ∨ m.controlField = 1 then processADSBMessage m.messageExtendedSquitter adsbVersion
  else if m.controlField = 2 ∨ m.controlField = 3 ∨ m.controlField = 4 ∨ m.controlField = 5 then .ok .tisb
  else .ok .nothing

/-- The messages printed one after the other, cmd/main.go:224-229. -/
def printAll {α : Type} : List (Iface α) → Go (List α)
  | [] => .ok []
  | v :: l => do
    let m ← v.print
    let rest ← printAll l
    return m :: rest

/-- `processCommBMessage`, cmd/main.go:210-231 (called at 200-208). -/
def processCommBMessage (data : List UInt8) : Go Details :=
  match readCommBMessage data with
  | .error .panic => goPanic
  | .error .err => .ok .commBUnreadable
  | .ok [] => .ok .commBUnknown
  | .ok (v :: l) => do return .commB (← printAll (v :: l))

/-- The `switch` on the format, cmd/main.go:125-138; a failed type assertion panics. -/
def postProcess (message : ModeSMessage) (readerLevel : UInt8) : Go Details :=
  match message.getDownLinkFormat with
  | 16 => match message with
    | .df16 m => postProcessMessage16 m
    | _ => goPanic
  | 17 => match message with
    | .df17 m => processADSBMessage m.messageExtendedSquitter readerLevel
    | _ => goPanic
  | 18 => match message with
    | .df18 m => postProcessMessage18 m readerLevel
    | _ => goPanic
  | 20 => match message with
    | .df20 m => processCommBMessage m.messageCommB
    | _ => goPanic
  | 21 => match message with
    | .df21 m => processCommBMessage m.messageCommB
    | _ => goPanic
  | _ => .ok .nothing

/-- The end of `processSingleLine`, from the parity check, cmd/main.go:103-141. -/
def processMessage (messageModeS : ModeSMessage) (binaryData : List UInt8) (readerLevel : UInt8) : Go Report :=
  match checkCRC messageModeS binaryData [] [] with
  | .error .panic => goPanic
  | .error .err => return .parityError
  | .ok address =>
    if messageModeS.getDownLinkFormat = 11 then
      match messageModeS with
      | .df11 _ => do
        messageModeS.print
        return .replyToInterrogator address messageModeS (← postProcess messageModeS readerLevel)
      | _ => goPanic
    else do
      messageModeS.print
      return .sentBy address messageModeS (← postProcess messageModeS readerLevel)

/-- `processSingleLine`, cmd/main.go:86-141. -/
def processSingleLine (str : List UInt8) (readerLevel : UInt8) : Go Report :=
  match hexDecode str with
  | .error .panic => goPanic
  | .error .err => .ok .notHexadecimal
  | .ok binaryData =>
    match readMessageCall binaryData with
    | .panics => goPanic
    | .returns _ true => .ok .frameUnreadable
    | .returns v false => do
      processMessage (← v.print) binaryData readerLevel

/-- The lines of a file, one after the other, cmd/main.go:40-43. -/
def processFile (lines : List (List UInt8)) (readerLevel : UInt8) : Go (List Report) :=
  match lines with
  | [] => .ok []
  | l :: rest => do
    let r ← processSingleLine l readerLevel
    let rs ← processFile rest readerLevel
    return r :: rs

end Modes
