import Verif.Model.CommBSmall
import Verif.Model.BDS40
import Verif.Model.BDS44
import Verif.Model.BDS45
import Verif.Model.BDS5060
/-!
# `pkg/commb`: inference of the register of a Comm-B message
-/
namespace Modes

/-- The `bds.Message` values the Comm-B reader can return (pkg/commb/reader.go:37-93). -/
inductive CommBMessage
  | bds00 (m : NoMessageAvailable)
  | bds07 (m : Status07)
  | bds20 (m : AircraftIdentification)
  | bds10 (m : DataLinkCapabilityReport)
  | bds17 (m : GICBCapabilityReport)
  | bds30 (m : ACASResolutionAdvisory)
  | bds40 (m : SelectedVerticalIntention)
  | bds44 (m : RoutineAirReport)
  | bds45 (m : HazardReport)
  | bds50 (m : TrackAndTurnReport)
  | bds60 (m : HeadingAndTrackReport)
  deriving DecidableEq

/-- `CheckCoherency` through the interface. -/
def CommBMessage.coherent : CommBMessage → Bool
  | .bds00 m => m.coherent
  | .bds07 m => m.coherent
  | .bds20 m => m.coherent
  | .bds10 m => m.coherent
  | .bds17 m => m.coherent
  | .bds30 m => m.coherent
  | .bds40 m => m.coherent
  | .bds44 m => m.coherent
  | .bds45 m => m.coherent
  | .bds50 m => m.coherent
  | .bds60 m => m.coherent

/-- A `bds.Message` call whose value is of one of the two report interfaces: the conversion keeps the value (nil stays nil). -/
def Call.map {α β : Type} (f : α → β) : Call α → Call β
  | .panics => .panics
  | .returns .nil e => .returns .nil e
  | .returns .typedNil e => .returns .typedNil e
  | .returns (.val a) e => .returns (.val (f a)) e

/-- `message, err = read(data); if err == nil { messages = append(messages, message) }`, pkg/commb/reader.go:64-95. -/
def appendReadable (messages : List (Iface CommBMessage)) : Call CommBMessage → Go (List (Iface CommBMessage))
  | .panics => goPanic
  | .returns v err => .ok (if err then messages else messages ++ [v])

/-- `message.CheckCoherency() == nil`: the methods have value receivers, so calling one on a nil interface or through a nil
pointer panics. -/
def Iface.coherent : Iface CommBMessage → Go Bool
  | .val m => .ok m.coherent
  | .nil => goPanic
  | .typedNil => goPanic

/-- The loop keeping the coherent messages, pkg/commb/reader.go:97-102. -/
def keepCoherent : List (Iface CommBMessage) → Go (List (Iface CommBMessage))
  | [] => .ok []
  | v :: l => do
    let c ← v.coherent
    let rest ← keepCoherent l
    return if c then v :: rest else rest

/-- `err == nil && message.CheckCoherency() == nil`, pkg/commb/reader.go:48 and 54: the message, when both hold. -/
def coherentResult : Call CommBMessage → Go (Option (Iface CommBMessage))
  | .panics => goPanic
  | .returns v err =>
    if err then .ok none
    else do
      let c ← v.coherent
      return if c then some v else none

/-- `ReadCommBMessage`, pkg/commb/reader.go:26-105. -/
def readCommBMessage (data : List UInt8) : Go (List (Iface CommBMessage)) := do
  if data.length ≠ 7 then fail
  match Call.ofPtr (readBDS00 data) CommBMessage.bds00 with
  | .panics => goPanic
  | .returns v false => return [v]
  | .returns _ true =>
    match ← coherentResult (Call.ofPtr (readBDS07 data) .bds07) with
    | some v => return [v]
    | none =>
      match ← coherentResult (Call.ofPtr (readBDS20 data) .bds20) with
      | some v => return [v]
      | none => do
        let messages ← appendReadable [] (Call.ofPtr (readBDS10 data) .bds10)
        let messages ← appendReadable messages (Call.ofPtr (readBDS17 data) .bds17)
        let messages ← appendReadable messages (Call.ofPtr (readBDS30 data) .bds30)
        let messages ← appendReadable messages (Call.ofPtr (readBDS40 data) .bds40)
        let messages ← appendReadable messages ((readBDS44 data).map .bds44)
        let messages ← appendReadable messages ((readBDS45 data).map .bds45)
        let messages ← appendReadable messages (Call.ofPtr (readBDS50 data) .bds50)
        let messages ← appendReadable messages (Call.ofPtr (readBDS60 data) .bds60)
        keepCoherent messages

end Modes
