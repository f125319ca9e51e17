import Verif.Model.Main
import Verif.Model.TextRegisters
/-!
# The program: what it prints, its command line, the file it reads

cmd/main.go. `Report` (Model/Main) says what is decoded for a line; here it is printed. The texts of Go's `error` values are
parameters (`ErrorTexts`); the actual ones are in Model/Errors. Standard error is not modelled.
-/
namespace Modes

/-- The texts of the errors the program prints, as functions of the data that caused them. -/
structure ErrorTexts where
  hexadecimal : List UInt8 → Txt
  frame : List UInt8 → Txt
  parity : List UInt8 → Txt
  acas : List UInt8 → Txt
  adsb : List UInt8 → Txt
  commB : List UInt8 → Txt

/-- cmd/main.go:224-229: the messages, with a rule between them. -/
def commBTexts (F : FloatTexts) : List CommBMessage → Txt
  | [] => []
  | [m] => m.text F ++ t! "\n"
  | m :: m' :: l => m.text F ++ t! "\n" ++ t! "-------------------------------\n" ++ commBTexts F (m' :: l)

/-- What follows the Mode S information, cmd/main.go:123-138 and 143-231. For a message without further content a line break is printed
(136-137), but not for an extended squitter of format 18 that is neither ADS-B nor TIS-B (171-184). `%X` of a value below 16 is one
digit. -/
noncomputable def Details.text (F : FloatTexts) (E : ErrorTexts) (f : List UInt8) (m : ModeSMessage) : Details → Txt
  | .nothing => if m.getDownLinkFormat = 18 then [] else t! "\n"
  | .acasUnknown vds1 vds2 => t! " -- ACAS Information --\n" ++ t! "Unknown message type: [" ++ [hexDigit vds1.toNat] ++ t! ":" ++
      [hexDigit vds2.toNat] ++ t! "]\n"
  | .acasUnreadable => t! " -- ACAS Information --\n" ++ E.acas f ++ t! "\n"
  | .acas ra => t! " -- ACAS Information --\n" ++ linesText (ra.lines F) ++ t! "\n"
  | .adsbUnreadable => t! " -- ADSB Information --\n" ++ E.adsb f ++ t! "\n"
  | .adsb m => t! " -- ADSB Information --\n" ++ m.text F ++ t! "\n"
  | .tisb => t! " -- TISB Information --\n" ++ t! "Not implemented\n"
  | .commBUnreadable => t! " -- Comm-B Information --\n" ++ E.commB f ++ t! "\n"
  | .commBUnknown => t! " -- Comm-B Information --\n" ++ t! "Unknown message format\n"
  | .commB l => t! " -- Comm-B Information --\n" ++ commBTexts F l

/-- What follows the echo of the line `s`, whose bytes are `f`, cmd/main.go:90-141. -/
noncomputable def Report.text (F : FloatTexts) (E : ErrorTexts) (s f : List UInt8) : Report → Go Txt
  | .notHexadecimal => .ok (t! "unable to convert the given text to hexadecimal values due to: " ++ E.hexadecimal s)
  | .frameUnreadable => .ok (E.frame f ++ t! "\n")
  | .parityError => .ok (E.parity f ++ t! "\n")
  | .replyToInterrogator a m d => do
    let t ← m.text
    return t! " -- Mode-S Information --\n" ++ t! "In reply to interrogator: " ++ icaoAddressText a ++ t! "\n" ++ t ++ t! "\n" ++
      d.text F E f m ++ t! "\n"
  | .sentBy a m d => do
    let t ← m.text
    return t! " -- Mode-S Information --\n" ++ t! "From: " ++ icaoAddressText a ++ t! "\n" ++ t ++ t! "\n" ++ d.text F E f m ++ t! "\n"

/-- `processSingleLine`, cmd/main.go:86-141: its output. A Go string is its bytes. -/
noncomputable def printSingleLine (F : FloatTexts) (E : ErrorTexts) (s : List UInt8) (level : UInt8) : Go Txt := do
  let r ← processSingleLine s level
  let f := match hexDecode s with
    | .ok f => f
    | .error _ => []
  let t ← r.text F E s f
  return t! "Reading: " ++ asciiText s ++ '\n' :: t

/-- The loop of cmd/main.go:40-43. -/
noncomputable def printLines (F : FloatTexts) (E : ErrorTexts) (level : UInt8) : List (List UInt8) → Go Txt
  | [] => .ok []
  | s :: rest => do
    let t ← printSingleLine F E s level
    let ts ← printLines F E level rest
    return t ++ ts

/-- `dropCR` of Go's bufio. -/
def dropCR (l : List UInt8) : List UInt8 := if l.getLast? = some 13 then l.dropLast else l

/-- The lines a `bufio.Scanner` with its default split function finds (Go's library: `ScanLines`), or `none` if a line does not fit in its
buffer of 65536 bytes: it then stops with an error. Used in `readFile`, cmd/main.go:67-77. -/
def scanLines (content : List UInt8) : Option (List (List UInt8)) :=
  let pieces := content.splitOn 10
  if pieces.any (fun l => 65536 ≤ l.length) then none
  else some ((if pieces.getLast? = some [] then pieces.dropLast else pieces).map dropCR)

/-- What `flag.Parse` finds. -/
inductive FlagResult
  | ok (file : List UInt8) (level : Int)
  | help
  | bad
deriving DecidableEq

/-- The first argument seen by `parseOne` of Go's flag package. -/
inductive FlagArg
  | notFlag
  | terminator
  | bad
  | flag (name : List UInt8) (value : Option (List UInt8))
deriving DecidableEq

/-- The name of a flag and the value after the first `=` that is not its first character (Go's flag package, `parseOne`). -/
def flagNameValue (name : List UInt8) : FlagArg :=
  match name with
  | [] => .bad
  | c :: rest =>
    if c = 45 ∨ c = 61 then .bad
    else match rest.dropWhile (· ≠ 61) with
      | [] => .flag (c :: rest) none
      | _ :: value => .flag (c :: rest.takeWhile (· ≠ 61)) (some value)

/-- `parseOne` of Go's flag package, up to the lookup of the name. -/
def flagArg (s : List UInt8) : FlagArg :=
  match s with
  | a :: b :: name =>
    if a ≠ 45 then .notFlag
    else if b = 45 then (if name = [] then .terminator else flagNameValue name)
    else flagNameValue (b :: name)
  | _ => .notFlag

/-- The bytes of an ASCII text. -/
def ascii (s : String) : List UInt8 := s.toList.map fun c => UInt8.ofNat c.toNat

/-- `flag.Parse`, for the two flags of cmd/main.go:23-25. `parseInt` is `strconv.ParseInt(s, 0, 64)` (Go's library): a
parameter here, modelled by `goParseInt` of Model/Numeral. -/
def parseFlags (parseInt : List UInt8 → Option Int) (file : List UInt8) (level : Int) : List (List UInt8) → FlagResult
  | [] => .ok file level
  | s :: rest =>
    match flagArg s with
    | .notFlag => .ok file level
    | .terminator => .ok file level
    | .bad => .bad
    | .flag name value =>
      if name = ascii "file" then
        match value with
        | some v => parseFlags parseInt v level rest
        | none =>
          match rest with
          | [] => .bad
          | v :: rest' => parseFlags parseInt v level rest'
      else if name = ascii "adsb_reader_level" then
        match value with
        | some v =>
          match parseInt v with
          | none => .bad
          | some n => parseFlags parseInt file n rest
        | none =>
          match rest with
          | [] => .bad
          | v :: rest' =>
            match parseInt v with
            | none => .bad
            | some n => parseFlags parseInt file n rest'
      else if name = ascii "help" ∨ name = ascii "h" then .help
      else .bad

/-- How the program ends: normally, by `os.Exit`, or by a panic. -/
inductive Ending
  | returned
  | exited (code : Nat)
  | panicked
deriving DecidableEq

/-- What is seen of a run: the standard output and how it ends. -/
structure Run where
  output : Txt
  ending : Ending

/-- The end of a run that printed. What had been printed before a panic is not modelled. -/
def Run.ofGo : Go Txt → Run
  | .ok t => ⟨t, .returned⟩
  | .error _ => ⟨[], .panicked⟩

/-- `main` and `readFile`, cmd/main.go:21-80. `args` are `os.Args[1:]`; `files` gives the content of the files that can be opened and
read; `log.Fatal` exits with code 1, a wrong command line with code 2, `-help` with code 0. -/
noncomputable def runMain (F : FloatTexts) (E : ErrorTexts) (parseInt : List UInt8 → Option Int)
    (files : List UInt8 → Option (List UInt8)) (args : List (List UInt8)) : Run :=
  match parseFlags parseInt [] 0 args with
  | .help => ⟨[], .exited 0⟩
  | .bad => ⟨[], .exited 2⟩
  | .ok file level =>
    if level = 0 ∨ level = 1 ∨ level = 2 then
      if file ≠ [] then
        match files file with
        | none => ⟨[], .exited 1⟩
        | some content =>
          match scanLines content with
          | none => ⟨[], .exited 1⟩
          | some lines => .ofGo (printLines F E (UInt8.ofNat level.toNat) lines)
      else
        match args with
        | [] => ⟨t! "No data provided", .returned⟩
        | data :: _ => .ofGo (printSingleLine F E data (UInt8.ofNat level.toNat))
    else ⟨[], .panicked⟩

end Modes
