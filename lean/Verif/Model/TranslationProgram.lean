import Verif.Model.TranslationWords
import Verif.Model.TranslationTexts
import Verif.Model.Errors
/-!
# cmd/main.go, translated mechanically

Written by `tools/go2lean/program.py` from the text of /repo; not edited by hand. A procedure of the program is what it prints, and how it ends.
The readers it calls are those of Model/TranslationWords (`Said`), the texts those of Model/TranslationTexts (`Shown`).
Not translated, but taken from the model: `hex.DecodeString` of Go's library (`hexDecode`, with the error `hexadecimalError`).
The flags as `flag.Parse` leaves them, `os.Args` and `readFile` are parameters of `Ran.main`.
-/
set_option linter.unusedVariables false
namespace Modes

noncomputable section

/-- How a sequence of statements ends: by reaching its end, by `return`, or by a panic. -/
inductive Ended
  | reached
  | returned
  | panicked
  deriving DecidableEq

/-- What statements have printed, and how they end. -/
structure Printed where
  out : Txt
  ended : Ended

/-- No statement. -/
def Ran.nothing : Printed := ⟨[], .reached⟩
/-- `fmt.Printf` -/
def Ran.print (t : Txt) : Printed := ⟨t, .reached⟩
/-- `return` -/
def Ran.leave : Printed := ⟨[], .returned⟩
/-- `panic` -/
def Ran.panicking : Printed := ⟨[], .panicked⟩
/-- One statement after the other. -/
def Printed.andThen (p q : Printed) : Printed := match p.ended with
  | .reached => ⟨p.out ++ q.out, q.ended⟩
  | e => ⟨p.out, e⟩
@[inherit_doc] infixr:60 " ;; " => Printed.andThen
/-- A call of a procedure: its `return` ends it alone. -/
def Ran.call (p : Printed) : Printed := match p.ended with
  | .panicked => p
  | _ => ⟨p.out, .reached⟩
/-- The value of an expression that can panic, in the statements that follow. -/
def Ran.withValue {α : Type} (x : Go α) (f : α → Printed) : Printed := match x with
  | .ok a => f a
  | .error _ => panicking
/-- `x, err := f()`, then `if err != nil { … }` and what follows. -/
def Ran.handing {α : Type} (x : Saying α) (failed : Txt → Printed) (f : α → Printed) : Printed := match x with
  | .ok a => f a
  | .error (.err words) => failed words
  | .error .panic => panicking
/-- `for i, x := range l { … }`, from the index `i`. -/
def Ran.ranging {α : Type} (body : Nat → α → Printed) : Nat → List α → Printed
  | _, [] => nothing
  | i, x :: l => body i x ;; ranging body (i + 1) l
/-- `%X` of a byte -/
def hexOf (b : UInt8) : Txt := if b.toNat < 16 then [hexDigit b.toNat] else hex02 b
/-- `hex.DecodeString` of Go's library. -/
def hexDecodeString (s : List UInt8) : Saying (List UInt8) := match hexDecode s with
  | .ok f => .ok f
  | .error .err => say ((hexadecimalError s).getD [])
  | .error .panic => .error .panic

/-- cmd/main.go:143-164 -/
def Ran.postProcessMessage16 (F : FloatTexts) (messageDF16 : MessageDF16) : Printed :=
  print (t! " -- ACAS Information --\n") ;;
  withValue (idx messageDF16.messageACAS 0) fun v1 =>
  let vds1 := ((v1 &&& 240) >>> 4)
  withValue (idx messageDF16.messageACAS 0) fun v2 =>
  let vds2 := (v2 &&& 15)
  if ((vds1 = 3) ∧ (vds2 = 0)) then
    withValue (sliceFrom messageDF16.messageACAS 1) fun v3 =>
    handing (Said.acas.ra.ReadResolutionAdvisory v3)
      (fun errACAS =>
      print (errACAS ++ t! "\n") ;;
      leave) fun messageACAS =>
    print (Shown.acas.ra.ResolutionAdvisory.ToString F messageACAS ++ t! "\n")
  else
    print (t! "Unknown message type: [" ++ hexOf vds1 ++ t! ":" ++ hexOf vds2 ++ t! "]\n")

/-- cmd/main.go:186-198 -/
def Ran.processADSBMessage (F : FloatTexts) (data : List UInt8) (adsbVersion : UInt8) : Printed :=
  print (t! " -- ADSB Information --\n") ;;
  handing (Said.adsb.reader.ReadADSBMessage adsbVersion false false data)
    (fun errADSB =>
    print (errADSB ++ t! "\n") ;;
    leave) fun messageADSB =>
  print (Shown.adsb.Message.ToString F messageADSB ++ t! "\n")

/-- cmd/main.go:166-169 -/
def Ran.postProcessMessage17 (F : FloatTexts) (messageDF17 : MessageDF17) (adsbVersion : UInt8) : Printed :=
  call (Ran.processADSBMessage F messageDF17.messageExtendedSquitter adsbVersion)

/-- cmd/main.go:171-184 -/
def Ran.postProcessMessage18 (F : FloatTexts) (messageDF18 : MessageDF18) (adsbVersion : UInt8) : Printed :=
  if ((messageDF18.controlField = 0) ∨ (messageDF18.controlField = 1)) then
    call (Ran.processADSBMessage F messageDF18.messageExtendedSquitter adsbVersion)
  else
    if ((((messageDF18.controlField = 2) ∨ (messageDF18.controlField = 3)) ∨ (messageDF18.controlField = 4)) ∨ (messageDF18.controlField = 5)) then
      print (t! " -- TISB Information --\n") ;;
      print (t! "Not implemented\n")
    else
      nothing

/-- cmd/main.go:210-231 -/
def Ran.processCommBMessage (F : FloatTexts) (data : List UInt8) : Printed :=
  print (t! " -- Comm-B Information --\n") ;;
  handing (Said.commb.ReadCommBMessage data)
    (fun err =>
    print (err ++ t! "\n") ;;
    leave) fun messages =>
  if (messages.length = 0) then
    print (t! "Unknown message format\n")
  else
    ranging (fun i message =>
      (if (i > 0) then
        print (t! "-------------------------------\n")
      else
        nothing) ;;
      print (Shown.bds.Message.ToString F message ++ t! "\n")) 0 messages

/-- cmd/main.go:200-203 -/
def Ran.postProcessMessage20 (F : FloatTexts) (messageDF20 : MessageDF20) : Printed :=
  call (Ran.processCommBMessage F messageDF20.messageCommB)

/-- cmd/main.go:205-208 -/
def Ran.postProcessMessage21 (F : FloatTexts) (messageDF21 : MessageDF21) : Printed :=
  call (Ran.processCommBMessage F messageDF21.messageCommB)

/-- cmd/main.go:86-141 -/
def Ran.processSingleLine (F : FloatTexts) (str : List UInt8) (readerLevel : UInt8) : Printed :=
  print (t! "Reading: " ++ asciiText str ++ t! "\n") ;;
  handing (hexDecodeString str)
    (fun err =>
    print (t! "unable to convert the given text to hexadecimal values due to: " ++ err) ;;
    leave) fun binaryData =>
  handing (Said.modes.reader.ReadMessage binaryData)
    (fun err =>
    print (err ++ t! "\n") ;;
    leave) fun messageModeS =>
  handing (Said.modes.reader.CheckCRC messageModeS binaryData [] [])
    (fun err =>
    print (err ++ t! "\n") ;;
    leave) fun address =>
  print (t! " -- Mode-S Information --\n") ;;
  (if (Gen.modes.messages.ModeSMessage.GetDownLinkFormat messageModeS = 11) then
    print (t! "In reply to interrogator: " ++ Shown.modes.common.ICAOAddress.ToString address ++ t! "\n") ;;
    withValue (match messageModeS with | .df11 m => .ok m | _ => goPanic) fun v1 =>
    let message11 := v1
    nothing
  else
    print (t! "From: " ++ Shown.modes.common.ICAOAddress.ToString address ++ t! "\n")) ;;
  withValue (Shown.modes.messages.ModeSMessage.ToString messageModeS) fun v2 =>
  print (v2 ++ t! "\n") ;;
  (if (Gen.modes.messages.ModeSMessage.GetDownLinkFormat messageModeS = 16) then
    withValue (match messageModeS with | .df16 m => .ok m | _ => goPanic) fun v3 =>
    call (Ran.postProcessMessage16 F v3)
  else if (Gen.modes.messages.ModeSMessage.GetDownLinkFormat messageModeS = 17) then
    withValue (match messageModeS with | .df17 m => .ok m | _ => goPanic) fun v4 =>
    call (Ran.postProcessMessage17 F v4 readerLevel)
  else if (Gen.modes.messages.ModeSMessage.GetDownLinkFormat messageModeS = 18) then
    withValue (match messageModeS with | .df18 m => .ok m | _ => goPanic) fun v5 =>
    call (Ran.postProcessMessage18 F v5 readerLevel)
  else if (Gen.modes.messages.ModeSMessage.GetDownLinkFormat messageModeS = 20) then
    withValue (match messageModeS with | .df20 m => .ok m | _ => goPanic) fun v6 =>
    call (Ran.postProcessMessage20 F v6)
  else if (Gen.modes.messages.ModeSMessage.GetDownLinkFormat messageModeS = 21) then
    withValue (match messageModeS with | .df21 m => .ok m | _ => goPanic) fun v7 =>
    call (Ran.postProcessMessage21 F v7)
  else
    print (t! "\n")) ;;
  print (t! "\n")

/-- cmd/main.go:21-52 -/
def Ran.main (F : FloatTexts) (readFile : List UInt8 → List (List UInt8)) (args : List (List UInt8)) (fileName : List UInt8) (adsbReaderLevelParam : Int) : Printed :=
  if (adsbReaderLevelParam = 0) then
    if (fileName.length > 0) then
      (ranging (fun _ str =>
        call (Ran.processSingleLine F str 0)) 0 (readFile fileName)) ;;
      leave
    else
      if (args.length > 1) then
        withValue (idx args 1) fun v1 =>
        call (Ran.processSingleLine F v1 0)
      else
        print (t! "No data provided")
  else if (adsbReaderLevelParam = 1) then
    if (fileName.length > 0) then
      (ranging (fun _ str =>
        call (Ran.processSingleLine F str 1)) 0 (readFile fileName)) ;;
      leave
    else
      if (args.length > 1) then
        withValue (idx args 1) fun v2 =>
        call (Ran.processSingleLine F v2 1)
      else
        print (t! "No data provided")
  else if (adsbReaderLevelParam = 2) then
    if (fileName.length > 0) then
      (ranging (fun _ str =>
        call (Ran.processSingleLine F str 2)) 0 (readFile fileName)) ;;
      leave
    else
      if (args.length > 1) then
        withValue (idx args 1) fun v3 =>
        call (Ran.processSingleLine F v3 2)
      else
        print (t! "No data provided")
  else
    panicking ;;
    if (fileName.length > 0) then
      (ranging (fun _ str =>
        call (Ran.processSingleLine F str 0)) 0 (readFile fileName)) ;;
      leave
    else
      if (args.length > 1) then
        withValue (idx args 1) fun v4 =>
        call (Ran.processSingleLine F v4 0)
      else
        print (t! "No data provided")

end

end Modes
