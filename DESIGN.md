# Formal model of twuillemin/modes — design

## Trusted base

* Lean 4.33.0 kernel; Mathlib only as a library of (kernel-checked) lemmas.
* Axioms: at most `propext` (P), `Classical.choice` (C), `Quot.sound` (Q); the table at the end gives those of each theorem
  (as printed by `#print axioms`; regenerate with `tools/gen_design.py`). No axiom is added, no native code evaluation
  (`native_decide`, `bv_decide`) is used. `decide +kernel` is used only for statements over a *whole* finite
  domain (all 256 bytes, all 4096 pulse patterns, all 64 characters, ...), which are then lifted to the real
  statement by a lemma.
* The correspondence between `/repo` and the definitions of `lean/Verif/Model/*`: it is by reading. Every model
  definition cites file and lines. Nothing was compiled or run. For every function of `pkg` and of `cmd` (except
  the flags and `readFile`) the reading is also done by a program (`tools/go2lean`) and the two readings are proved equal;
  see "Translation" below.

## How the code is modelled

* `byte`/`uint8`, `uint16`, `uint32` are `UInt8`, `UInt16`, `UInt32` (wrap-around is therefore that of Go); `bool` is
  `Bool`; a Go enumeration `type X byte` is its underlying `UInt8`. `int32`/`int16`/`int` results are `Int`; range
  theorems show the values fit, so no overflow is hidden.
* A slice is a `List`. Indexing and re-slicing are the functions `idx`, `sliceFrom`, `sliceTo`, which *panic*
  explicitly when out of range (capacity is taken equal to length). `Go a = Except Fail a`, `Fail = err | panic`:
  "returns an error" and "panics" are different outcomes, and "never panics" is a theorem. The words of the errors
  the program prints are modelled apart (`Model/Errors`, C100), and those of the functions called directly in `Model/Reasons` and `Model/ReaderErrors` (C103, C104); the theorems about its output hold for any words (`ErrorTexts`).
* `float32`/`float64` arithmetic of the decoders is modelled by rationals with an explicit IEEE rounding operator
  (round to nearest, ties to even, p = 24 or 53; unbounded exponent: overflow, infinities, NaN and
  subnormals are not modelled; none of the decoded ranges reaches them. Minus zero arises in two places, the computed track and the selected
  heading; there the sign is modelled apart, because it is printed). One rounding per Go operation (no fused
  multiply-add, which the Go specification permits on some targets).
* Geographic decoding (`pkg/geo`) is modelled twice: over the real numbers (`Model/Geo`, `Real.cos`, `Real.arccos`), and with the
  rounding of every float64 operation written out (`Model/GeoFloat`, rounding to 53 bits, half to even, unbounded exponent, no fused
  multiply-add). C54-C59 are about the first, C68 carries the decoding theorems over to the second, under the hypothesis `Geo.Accurate`
  on `math.Cos` and `math.Acos`. C83 does the same for the distance
  of C59, under `Geo.AccurateTrig` on `math.Sin`, `math.Cos` and `math.Atan2`; there NaN from the square root of a negative number is modelled.
  C99 is about a third model (`Model/GeoSpecial`), with NaN, the infinities and overflow, for all the arguments of type `float64`.
* `ToString` methods: a text is a list of characters. The tables of codes (`Model/Texts`), the Mode S messages (`Model/TextModeS`), the
  registers, ADS-B and Comm-B messages (`Model/TextRegisters`) are modelled line by line. The verbs of `fmt` are modelled as decimal
  and hexadecimal digits and true/false; how `fmt` prints floating point numbers is a parameter (`FloatTexts`), assumed injective and
  free of line breaks where a theorem says so (`FloatTexts.Faithful`); Go's way, the shortest decimal that reads back as the number, is
  modelled in `Model/FloatText` (`goFloats`) and proved to meet that assumption (C102). The operations that could panic are in `Model/Main`.
* The program `cmd/main.go` is modelled whole (`Model/Main`, `Model/Program`): arguments, the `flag` package as far as used, the lines of a
  file (`bufio.Scanner` with its 65536-byte limit), decoding, and the text printed on standard output. Parameters: the words of Go errors
  (`ErrorTexts`; `goErrors` of `Model/Errors` are the actual ones) and `strconv.ParseInt` (`goParseInt` of `Model/Numeral` is the actual one). Not modelled: standard error and the operating system (a file is its content or is unreadable).

## Translation: the model against a mechanical reading of the code

`tools/go2lean` (a Go parser and an emitter, in Python) turns the text of the functions of `/repo/pkg` into Lean:
`lean/Verif/Model/Translation.lean` (394 functions: bit utilities, field readers, register and message readers, `CheckCoherency`
methods, accessors, parity, `ReadMessage`, `CheckCRC`, `ReadADSBMessage`, `ReadCommBMessage`) and
`lean/Verif/Model/TranslationGeo.lean` (the 7 functions of `pkg/geo`, a rounding `fl` around every operation). Statements become `let`s,
a returning `if` becomes `if … then … else …`, indexing may panic, an error becomes `fail`, loops become folds or are unrolled.
It knows the names of the types of the model (`config.py`) and nothing of its functions. `Props/TranslationFields`, `Translation`,
`TranslationReaders`, `TranslationMessages`, `TranslationCoherency`, `TranslationFrame`, `TranslationCommB` and `TranslationGeo`
prove, for all inputs, that each translated function is the function of the hand-written model, up to two documented
abstractions: `Call.toGo` (whether an interface returned beside an error is nil)
and `checked` (the error of `CheckCoherency` as a `Bool`). The entry points are `same_ReadMessage`, `same_CheckCRC`,
`same_ReadADSBMessage`, `same_ReadCommBMessage` and `same_geo_*`; every theorem about the model's functions is through them a theorem about the translated text: `Props/CodeTheorems` (generated by `tools/gen_code.py`, 191 theorems `code_*`) and `Props/CodeEntry` state them.
The 136 functions that return an error are translated a second time with its words (`Model/TranslationWords`, names `Said.*`, written by
`tools/go2lean/words.py`): forgetting the words gives back the first translation (`erase_*` of `Props/TranslationErase` and
`TranslationWordsReaders`), and the words are those of the hand-written `Model/Errors`, `Model/Reasons` and `Model/ReaderErrors`
(`same_words_*`, `coherency_words_*`); `Props/CodeWords` (generated by `tools/gen_code_words.py`) and `CodeWordsEntry` restate C100, C103, C104 and C106 for them (`words_*`).
While doing it no difference with the model was found (one error of the translator was, by a proof that failed).

The texts are translated too (`Model/TranslationTexts`, names `Shown.*`, written by `tools/go2lean/texts.py`: 276 `ToString`, `GetName` and
`GetRegister` methods, with their format strings taken apart), and equal those of `Model/Texts`, `TextModeS` and `TextRegisters`, which other scripts
and hands wrote (`Props/TranslationTextsFields`, `…Lines`, `…Registers`, `TranslationTexts`: `shown_modes`, `shown_adsb`, `shown_commB`);
`Props/CodeTexts` (generated by `tools/gen_code_texts.py`) restates the theorems about texts for them.

The command is translated (`Model/TranslationProgram`, names `Ran.*`, written by `tools/go2lean/program.py` from `cmd/main.go`): a run is what was
printed and how it ended. `program_line` of `Props/TranslationProgram` says it prints, for every line, what the hand-written `Model/Program` says; `Props/CodeProgram` and `CodeReports` (generated by `tools/gen_code_reports.py`) restate the theorems about the output for it (`code_*`, `program_*`).

The last functions of `pkg` (`Model/TranslationVelocity`, written by `tools/go2lean/velocity.py`) are `GetSpeed`, `GetTrack` and the two helpers that
print them (a `float64` is a real number with its sign bit, rounded after every operation; `math.Atan2` is a parameter), `PrefixMultiLine` and
`DTESubAddressStatuses.ToString` (loops that fill a slice). `Props/TranslationVelocity` proves them equal to the model's (the minus zero of a track
for every accurate `math.Atan2`); in `Shown.*` the names of the model's stand for them.

Not translated: the words of the errors of `pkg/geo`, and of the command the flags, `readFile` and `hex.DecodeString` (all are in the hand-written model). What remains to trust is then the translator's
reading of the Go syntax it meets, and the meaning given to each operation in `Model/Go`, `Model/Float` and the head of `Model/Translation`.

## What is modelled and what is not

| part of `/repo` | model | not modelled |
|---|---|---|
| `pkg/bitutils` | all (`BitUtils`) | |
| `pkg/modes` (reader, common, fields, messages) | all readers, field decoders, parity, aliasing of the caller's slice, texts (`ModeS`, `Alias`, `CRC`, `Texts`, `TextModeS`, `Errors`) | |
| `pkg/acas` | all (`ACAS`, `Errors`) | |
| `pkg/bds/*` | every register reader, field decoder, coherency check, accessor and text (`BDS05` ... `BDS65`, `CommBSmall`, `CommBNum`, `Accessors`, `TextRegisters`) | exponent range of floats |
| `pkg/adsb`, `pkg/commb` | all (`ADSB`, `CommB`, `Bounds`, `Errors`) | |
| `pkg/geo` | all, over the reals (`Geo`), with rounding (`GeoFloat`), and with NaN, infinities and overflow (`GeoSpecial`) | sign of zero, subnormals |
| `cmd` | all (`Main`, `Program`, `Errors`) | standard error |
| `example` | nothing (sample data files) | |

Also not modelled: memory and time, the garbage collector. Concurrent use: the code starts no goroutine and has no package variable that is
written, so what calls made at the same time can share is the arrays of their arguments. For `ReadMessage`, the only entry point that
allocates and returns slices of its argument, `Model/Concurrent` has the steps of several calls on one heap in any order (C105); the memory
there is sequentially consistent, and the bytes that the decoding loads are loaded in one step.

Validation of the model: the code cannot be run here, so the model is checked against the executions the repository itself records. Its unit
tests are transcribed onto the model (`Props/UnitTests`, generated by tools/gen_unit_tests.py, and `Props/UnitTestsGeo`): on the literal data of
every test, what the Go test asserts of the code holds of the model. These are tests of the model, not proofs of properties, and no claim in
MANIFEST.json rests on them. Left out: the ground distance and ground speed tests, which need numerical trigonometry.

Non-vacuity: the theorems of MANIFEST.json that have hypotheses are applied to concrete, ordinary data, either in an `example` beside the
theorem or in the modules `Witness/*`, one for each area (frames, ADS-B, Comm-B, positions, texts, from aircraft to report). There every
hypothesis is discharged for real frames, or for aircraft at 45 N 10 E that move between two messages.

## Findings

Behaviour of the code at the pinned commit that contradicts the property a user would expect. Each is a theorem (usually `..._refuted`),
or follows from the exact characterisation the named property gives.

* Positions (`pkg/geo`): the airborne global decoder returns latitudes up to 270 for pairs that do not belong together; the surface decoder
  chooses the longitude without wrap-around (wrong near the antimeridian), the hemisphere by the sign of the reference, and panics for a
  reference longitude of about 1e7 or more; a latitude of a few nanodegrees relies on rounding to stay below 60 zones (C54-C58, C68);
  the ground distance of some antipodal positions, such as 8N 0E and 8S 180E, is NaN (C83).
* Program: the reader level is not applied to data given on the command line, since `os.Args[1]` is used as data even when it is a flag
  (C80); the report of a line that is not hexadecimal has no line break (C79); a line of 65536 bytes or more makes the whole file fail.
* ADS-B: errors come with a non-nil interface holding a nil pointer (C25); altitudes coded as zero are refused; type 0 positions always
  claim a GNSS altitude and drop surveillance status and antenna flag; surface NIC row 7 without supplement (C28); surface operational status
  of version 2 reports level 1; exported position readers panic on short data (C82).
* BDS 0,7 reserved bits 7-8 are not tested. BDS 1,0 the surveillance identifier code is taken from bit 18, doubled; the text prints the
  overlay capability in place of the continuation flag. BDS 1,7 bits 25-28 are not read. BDS 4,0 the two selected altitudes are swapped
  and the barometric status is bit 1, so that messages without MCP altitude are never coherent. BDS 4,4 the wind speed loses its first
  bit, the version 0 temperature its sign, `GetSource` is always invalid for versions 1 and 2. BDS 4,5 version 0 cannot be reached, the
  pressure of version 1 is never set. BDS 6,1 emergency state 6 is incoherent, the Mode A code is not printed, reserved bits of the
  no-information message are not tested. BDS 5,0 a report with a ground speed above 200 knots and no airspeed is never recognised, the
  missing airspeed being taken for zero (C85). BDS 6,2 target heading, altitude type and sign of the selected heading are taken from wrong bits.
* ACAS: altitude of the threat packed with a wrong shift, range with a wrong mask; the sense is always printed "Upward".
* Texts: wrong code numbers in four tables (C73); bearing of the threat overflows a byte for codes of 43 and more; surface track angle is
  labelled "NIC Baro"; a track due north whose (zero) westward speed has its direction bit set, and a selected heading of zero with its
  sign bit set, are printed as "-0" (C102).

## Specification vocabulary (`Verif/Spec/*`, separate from the model)

`bits d a b` is the number in bits `a..b` (ICAO numbering: bit 1 is the most significant bit of the first byte) of the
byte string `d`, defined from the big-endian value of the whole string. Standards-side *encoders* (Gillham pulses of an
altitude, squawk pulses, callsign characters, CPR encoding, frame layouts, the generator polynomial in `(ZMod 2)[X]`)
are written from the ICAO definition and never from the decoder.

## Plan per property

(see the table at the end of this file for status and theorem names)

| Id | Modelled | Proof |
|---|---|---|
| C01-C06, C63 | `ReadMessage`, all `ParseDFxx`, all field readers | case split on length, evaluation on symbolic bytes, arithmetic (omega) on bit fields |
| C07-C11 | `ReadAltitude`, `GillhamToAltitude`, `ReadIdentity` | Gray-code lemma over the full finite domain lifted to the code; arithmetic |
| C12 | heap model of byte slices (backing array + offset) | read-after-write lemma |
| C13-C19 | `computeParity`, `CheckCRC` | induction on the message; divisibility in `(ZMod 2)[X]` |
| C20-C23, C62 | `ReadResolutionAdvisory` and its fields | symbolic evaluation; refuted parts: witness + `_partial` |
| C24-C41 | `ReadADSBMessage`, BDS 0,5 0,6 0,8 0,9 6,1 6,2 6,5 readers, NIC tables | symbolic evaluation, tables by complete case split |
| C42-C53 | `ReadCommBMessage`, BDS 0,0 0,7 1,0 1,7 2,0 3,0 4,0 4,4 4,5 5,0 6,0 readers and coherency checks | symbolic evaluation |
| C54-C59 | `pkg/geo` over the reals | floor/mod arithmetic, Mathlib analysis |
| C60 | `processSingleLine` | composition of the no-panic theorems |
| C61 | `PrefixMultiLine` | induction on the text |
| C64-C65 | `computeParity`, `CheckCRC` | minimum distance of the code: weights of multiples of the generator, by complete enumeration of syndromes |
| C66 | `ReadNoPositionInformation`, `ReadAirbornePositionType0` | symbolic evaluation |
| C67 | `processSingleLine` | composition |
| C68 | `pkg/geo` with every float64 operation rounded | error analysis over the reals, margins of the zone limits (Taylor bounds) |
| C69 | `CheckCoherency` of the ADS-B messages | composition of the coherence theorems of the registers |
| C70 | `Pack8Bits`, `Pack16Bits` | arithmetic, one flag at a time |
| C71 | bounds getters of the version 0 surface codes | case split on the code, order of the reals |
| C72 | 130 `ToString` methods that are a table, generated from the source | decidable condition on each table (distinct, no line break, default text not in the table), lifted to all codes by a lemma |
| C73 | the same | decidable condition on each table, lifted; three refuted |
| C74 | `ToString` of the eleven Mode S messages, line by line | splitting of a text at line breaks, injectivity of each field's text |
| C75 | `ToString` of the ADS-B messages and of registers 0,5-0,9, 6,1, 6,2, 6,5 (`Model/TextRegisters`), printing of floats a parameter | a text determines its lines, the first line and the labels determine the kind, then each field's text is injective |
| C76 | `ToString` of the Comm-B registers and of the resolution advisories | as C75; the first line names the register |
| C77 | reader and `ToString` together | the content theorem of each register, then evaluation of the lines |
| C78 | an encoder of squitters (Spec/Transmit) and the whole chain of readers | composition of C03, C06, C13, C55-C57, C77 |
| C79 | `processSingleLine` with its output text (Model/Program) | evaluation for a squitter; lines of the output are separated by their line breaks |
| C80 | `main`, `readFile`, Go's `flag.Parse` and `bufio.ScanLines` (Model/Program) | induction over the arguments and over the lines |
| C81 | the `Get...` methods of the messages (Model/Accessors) | from the dispatch and content theorems, per constructor |
| C82 | the exported readers of one kind of message, already in the model | equality of the guarded readers on every length; panics characterised |
| C83 | `ground_distance.go` with every operation rounded | error budget: multiplicative factors for the relative bound, absolute errors and a Hölder bound of the angle by its squared sine for the global one; NaN by evaluation with Taylor bounds |
| C84 | `Spec/Transmit` (transmitter) composed with the frame reader, the parity check and the velocity reader | field extraction of C31-C36 plus rounding bounds of the codes |
| C85 | transmitter of Comm-B registers composed with the frame reader, the parity check and the inference | one lemma per kind of parameter (signed, angle, unsigned), then completeness of the inference (C43) and the exact coherency conditions (C46) |
| C86 | transmitter of surveillance replies composed with the frame reader and the parity check | the acceptance condition (C02), the field theorems (C04, C05), the meaning of altitude codes (C07, C08) and the recovery of the address (C16) |
| C87 | transmitter of status and target state messages composed with the frame reader, the parity check and the ADS-B reader | exact acceptance and content (C25, C38, C39) on the fields of the transmitter |
| C88 | a receiver that folds `ReadADSBMessage` over a history, keeping the reported version | exact effect of one message from C25 and C26, then induction on the history |
| C89 | transmitter in Spec/Transmit (selectedAltitudeField), receiver Model/ModeS, CRC, CommB, BDS40 | per-parameter encoding lemmas composed with the register content theorems and the soundness and completeness of the inference |
| C90 | transmitter in Spec/Transmit (routineReportField, hazardReportField), receiver Model/ModeS, CRC, CommB, BDS44, BDS45 | per-parameter encoding lemmas composed with the register content theorems and the soundness and completeness of the inference |
| C91 | Model/ACAS, BDS61, CommBSmall, ModeS; the transmitter is `advisoryField` with `Advice` and `Threat` in Props/EndToEndACAS | bits of the transmitted field, evaluation of the reader, exactness of the altitude by injectivity of the Mode C code, then the carriers' theorems (C87, C85, C86) |
| C92 | readBDS17, readBDS10, readCommBMessage and the frame reader composed | flags as a fold, one bit at a time by induction; bits of the register by arithmetic; candidates by commB_sound_complete and commB_unambiguous |
| C93 | GetTrack with the rounding of each operation (Model/VelocityFloat), the arc tangent a parameter | error bounds of each rounding; the smallest non-zero angle of two 16-bit components keeps the result below 360 |
| C94 | readMessage, checkCRC, readADSBMessage and readBDS65 composed | packing of fields read back by induction over the fields (Lemmas/Pack), then the layout theorems of C41 |
| C95 | readCommBMessage with its eleven readers and coherency checks | each reader and check reduced to bit conditions (says00 .. says60), sorted lists with the same members are equal, pairwise exclusions and implications over all fields (says_together), and one witness per answer |
| C96 | readCommBMessage and readADSBMessage with their readers | each content theorem read backwards: equal fields give equal bit ranges, the ranges cover all bits but the listed ones; concrete pairs for the refutations |
| C97 | checkCRC and computeParity as modelled for C13-C18 | passing is divisibility by the generator; evaluation at 1 for parities; degree argument for 25-bit windows; an explicit weight-six multiple of the generator; the recovered address is the remainder, which is linear |
| C98 | printSingleLine (Model/Program.lean) and the String methods (Text*) | the text of each part is a list of lines without line breaks, so splitting the output gives back the concatenation; the fields come from the end-to-end theorems of C85 and C86 |
| C99 | `pkg/geo` over NaN, infinities and finite numbers with overflow (`GeoSpecial`) | case analysis on the special values; for finite numbers a simulation carrying a magnitude bound through every operation, and the distance of the latitude grid from 87 degrees |
| C100 | the words of every error the program can print, with their values, in the order of the code's checks (`Errors`) | each text is brought to a condition on bits of the frame (byte arithmetic) and compared with a separate list of reasons; then the printed output is composed from the report of the line |
| C101 | `Model/Numeral`: `lower`, `underscoreOK`, `ParseUint` and `ParseInt` of Go's strconv, on uint64 and int64 values. `Props/Numeral`, namespace Spec: the grammar of numerals (`Digit`, `DigitsFrom`, `Magnitude`, `Numeral`). | Induction over the text: the loop computes the number if it fits (the two overflow tests are exactly `too large`), the check of underscores accepts exactly the separated digits; then case analysis on prefix and sign. The runs follow from the command line theorems of C80. |
| C102 | `Model/FloatText`: the shortest decimal of `strconv.FormatFloat`, on the rationals that `rnd` returns; `goFloats` instantiates the parameter of all texts. `Props/FloatText`, namespace Spec: `PlainDecimal`; `Props/Numbers`: `ShowsNumber`, `ShowsNear`. | Rounding is monotone, so if any decimal with k places reads back as x, so does x cut or raised at that place; the search stops at the exact expansion at the latest. Decimals of six digits are further apart than floats of 24 bits, so the float nearest to one is printed as it. That the settings are the floats nearest to the coded values is computed by the kernel for all 4096 and 511 codes (`rn`, natural numbers only). Texts come from the theorems of C77 with `goFloats`. |
| C103 | Model/Reasons: the words of the errors of the register readers (`bdsNNError`) and of `CheckCoherency` (`incoherence`), in the order of the tests in the code. Spec/Reasons: for each register the table of the words and what they say of the data in terms of the documented bit positions. | each reader error is none exactly when the reader of the model succeeds (the acceptance theorems); each link of the chain of tests is shown to imply its table entry through the proved layouts of the fields (Props/Reasons). Examples in Witness/Reasons. |
| C104 | Model/ReaderErrors (and Model/Errors): the words of the errors in the order of the checks in the code. Spec/ReaderReasons: for each function the table of the words and what they say of the data. | an error is given exactly when the reader of the model fails: the direct readers agree with the readers of their register (Props/Direct), whose acceptance is known; each link of the chain of checks implies its table entry (Props/ReaderReasons). Examples in Witness/ReaderReasons. |
| C105 | `Model/Concurrent`: each call is a small state machine (decode and allocate, load a byte, store a byte, return) over the heap of `Model/Alias`; a schedule is a list of events (a step of call i, an allocation, a write by someone else). | Invariant over schedules: frames unchanged, every allocated field array owned by one call and holding the bytes copied so far followed by zeros; a measure that every step of a call lowers. `call_alone`: the steps in a row are `readMessageH`. |
| C106 | `crcError` of `Model/Errors`: the one error of each of the three cases. | From C15-C17 (`checkCRC_squitter`, `checkCRC_df11`, `checkCRC_overlaid`), the format of the message, and the existence and uniqueness of the overlaid code. |
| C107 | `Model/TranslationWords`: the functions that return an error, translated from the text of /repo with the words of the error. | `erase_*`: without the words it is the translation of Model/Translation; then `words_same` reduces equality of words to: when the hand-written model gives a text, the translated function says it, by walking the tests in order. |
| C108 | `ResolutionAdvisory.lines` of `Model/TextRegisters` and the readers of `Model/ACAS`; the specification `advisoryLines` is written from the bits, independently. | `ra_ok` gives the fields from the bits, `splitOn_linesText` the lines; each line by cases on its bits. |
| C109 | `Model/TranslationTexts` (names `Shown.*`, written by tools/go2lean/texts.py from the text of /repo): fmt.Sprintf with its formats taken apart, switches as written, methods called through an interface by cases. | each coded field by evaluation over all 256 bytes or by its table; each register by `linesText_append`, `linesText_two` and the fields, as a simp set; nested texts by `prefix_linesText`; then the theorems on texts are rewritten along these equalities. |
| C110 | `Model/TranslationProgram` (names `Ran.*`, written by tools/go2lean/program.py from cmd/main.go): a run is what was printed and how it ended (reached the end, returned, panicked); Print calls, returns, panics, ifs, type switches, the range loop and calls become combinators. | each function by the cases of its switch, with the readers and texts rewritten to the model's by same_*, words_* (C107) and shown_* (C109); processSingleLine by the cases of line_report; main by induction on the lines. The theorems on the output (C78, C98, C100) are then rewritten along program_line. |

## Status

"partial" means that the property, as stated in properties.jsonl, is false of the code or proved only in part: theorems named
`*_refuted` prove a concrete counterexample about the model, theorems named `*_partial` prove what remains true. In the column of
theorems, the letters are the axioms.

<!-- status:begin -->
| Id | Property | Status | Theorems (axioms) | Note |
|---|---|---|---|---|
| C01 | Reading a frame never crashes | proved | `Modes.readMessage_noPanic` (PCQ), `Modes.code_readMessage_noPanic` (PCQ) | for every byte list; the model panics explicitly on out-of-range indexing and slicing |
| C02 | Exact acceptance condition of ReadMessage | proved | `Modes.readMessage_accepts_iff` (PCQ), `Modes.code_readMessage_accepts_iff` (PCQ) |  |
| C03 | Downlink format dispatch | proved | `Modes.readMessage_type` (PCQ), `Modes.code_readMessage_type` (PCQ) |  |
| C04 | Bit-exact fields of the short formats | proved | `Modes.df0_fields` (PCQ), `Modes.df4_fields` (PCQ), `Modes.df5_fields` (PCQ), `Modes.df11_fields` (PCQ), `Modes.code_df0_fields` (PCQ), `Modes.code_df4_fields` (PCQ), `Modes.code_df5_fields` (PCQ), `Modes.code_df11_fields` (PCQ) |  |
| C05 | Bit-exact fields of the long formats | proved | `Modes.df16_fields` (PCQ), `Modes.df17_fields` (PCQ), `Modes.df18_fields` (PCQ), `Modes.df19_fields` (PCQ), `Modes.df20_fields` (PCQ), `Modes.df21_fields` (PCQ), `Modes.df24_fields` (PCQ), `Modes.code_df16_fields` (PCQ), `Modes.code_df17_fields` (PCQ), `Modes.code_df18_fields` (PCQ), `Modes.code_df19_fields` (PCQ), `Modes.code_df20_fields` (PCQ), `Modes.code_df21_fields` (PCQ), `Modes.code_df24_fields` (PCQ) |  |
| C06 | Frame round trip | proved | `Modes.roundtrip_df11` (PCQ), `Modes.roundtrip_df17` (PCQ), `Modes.roundtrip_df4` (PCQ), `Modes.roundtrip_df4_altitude25` (PCQ), `Modes.roundtrip_df5` (PCQ) |  |
| C07 | 25-foot altitudes | proved | `Modes.altitude25_bijection` (PQ), `Modes.readAltitude_ok_iff` (PCQ), `Modes.encode25_unique` (PQ) |  |
| C08 | Gillham altitudes | proved | `Modes.gillham_decodes` (PQ), `Modes.gillham_rejects_iff` (PQ), `Modes.gillham_sound` (PQ), `Modes.gillham_injective` (PQ), `Modes.altitude100_complete` (PQ) |  |
| C09 | Gray property of the altitude code | proved | `Modes.modeC_distance` (P), `Modes.gillham_mixed` (PCQ) |  |
| C10 | Altitude code classification | proved | `Modes.readAltitude_ok_iff` (PCQ), `Modes.readAltitude_err_iff` (PCQ), `Modes.frame_altitude` (PCQ), `Modes.frame_altitude_formats` (PCQ) |  |
| C11 | Squawk decoding | proved | `Modes.frame_identity` (PCQ), `Modes.frame_identity_injective` (PCQ), `Modes.frame_identity_special` (PCQ), `Modes.squawk_squawkCode` (-), `Modes.roundtrip_df5` (PCQ) |  |
| C12 | Payload isolation | proved | `Modes.readMessage_isolation` (PCQ), `Modes.heap_write` (PCQ) | explicit heap of arrays, any history of writes to the array of the frame |
| C13 | Parity is the Mode S CRC | proved | `Modes.computeParity_is_crc` (PCQ), `Modes.code_computeParity_is_crc` (PCQ) |  |
| C14 | Extended squitter acceptance | proved | `Modes.checkCRC_squitter` (PCQ), `Modes.code_checkCRC_squitter` (PCQ) |  |
| C15 | Error detection | proved | `Modes.squitter_corruption_detected` (PCQ), `Modes.squitter_distance` (PCQ) |  |
| C16 | Address recovery from overlaid parity | proved | `Modes.checkCRC_recovers` (PCQ), `Modes.checkCRC_overlaid` (PCQ), `Modes.checkCRC_df11` (PCQ), `Modes.overlaid_exists` (PCQ), `Modes.code_checkCRC_recovers` (PCQ), `Modes.code_checkCRC_overlaid` (PCQ), `Modes.code_checkCRC_df11` (PCQ) |  |
| C17 | Allow lists | proved | `Modes.checkCRC_overlaid` (PCQ), `Modes.checkCRC_df11` (PCQ) |  |
| C18 | CRC check never crashes on a read frame | proved | `Modes.checkCRC_noPanic` (PCQ), `Modes.code_checkCRC_noPanic` (PCQ) |  |
| C19 | Linearity of the parity | proved | `Modes.computeParity_linear` (PCQ) |  |
| C20 | ACAS resolution advisory reading is total | partial | `Modes.ra_noPanic` (PCQ), `Modes.ra_accepts` (PCQ), `Modes.ra_fails_iff_partial` (PCQ), `Modes.threat_altitude_refuted` (PQ), `Modes.ra_refused_iff` (PCQ) | no panic is proved for all inputs; the exact error condition is false of the code (threat_altitude_refuted: a legal altitude code is rejected, because C1 A1 are packed over B2 D2, threat_identity_altitude.go:40) and proved when C1 = A1 = 0; ra_refused_iff gives the exact condition the code uses, for every six bytes |
| C21 | ACAS advisory content | proved | `Modes.ra_content` (PCQ) |  |
| C22 | ACAS threat identity | proved | `Modes.ra_threat_identity` (PCQ) |  |
| C23 | ACAS threat altitude and range | partial | `Modes.threat_altitude_partial` (PCQ), `Modes.threat_altitude_exact` (PCQ), `Modes.threat_altitude_refuted` (PQ), `Modes.threat_range_partial` (PCQ), `Modes.threat_range_refuted` (PQ) | false of the code: altitude when C1 or A1 is set (threat_identity_altitude.go:40, <<2 for <<10), range when bit 42 is set (threat_identity_range.go:42, mask 0xA0 for 0xC0); proved outside these cases, bearing always |
| C24 | Reading an ADS-B message never crashes | proved | `Modes.adsb_noPanic` (PCQ), `Modes.code_adsb_accepts` (PCQ) |  |
| C25 | ADS-B dispatch on the type code | proved | `Modes.adsb_accepts` (PCQ), `Modes.adsb_dispatch` (PCQ), `Modes.adsb_unsupported` (PCQ), `Modes.code_adsb_result` (PCQ) |  |
| C26 | ADS-B version reported | partial | `Modes.adsb_version_partial` (PCQ), `Modes.adsb_version_refuted` (PCQ) | false of the code for version 2 surface operational status messages, reported as version 1 (adsb_version_refuted); proved for everything else |
| C27 | Nil result on error | partial | `Modes.readMessage_nil_on_error` (PQ), `Modes.adsb_nil_on_error_partial` (PCQ), `Modes.adsb_nil_refuted` (PCQ) | holds for ReadMessage; false of ReadADSBMessage: a reader's nil pointer is returned as a non-nil interface (adsb_nil_refuted, every failure inside a reader); proved for the failures of ReadADSBMessage itself |
| C28 | Airborne position content | proved | `Modes.airborne_position_content` (PCQ), `Modes.airborne_position_accepts` (PCQ), `Modes.airborne_altitude_determined` (PQ) |  |
| C29 | Positions without altitude | partial | `Modes.altitude_available_partial` (PCQ), `Modes.zero_altitude_refuted` (PCQ) | false of the code: an airborne position whose altitude field is all zero is rejected (zero_altitude_refuted, the Gillham decoder refuses C=000); altitude_available_partial: every position with a non-zero legal altitude is read |
| C30 | Navigation integrity category consistency | partial | `Modes.nic_table_partial` (PCQ), `Modes.nic_rows_consistent` (PCQ), `Modes.nic_range` (PCQ), `Modes.nic_surface_refuted` (PCQ) | false of the code for version 1 surface positions of type code 7 without supplement A (surface_position_v1.go:68); proved for every other row of every version |
| C31 | Surface position content | proved | `Modes.surface_position_content` (PCQ), `Modes.surface_position_accepts` (PCQ), `Modes.surface_speed_monotone` (PCQ) |  |
| C32 | Velocity over ground | proved | `Modes.ground_velocity_content` (PCQ), `Modes.velocity_kind` (PCQ), `Modes.velocity_accepts` (PCQ) |  |
| C33 | Airspeed and heading | proved | `Modes.airspeed_content` (PCQ), `Modes.velocity_kind` (PCQ), `Modes.velocity_accepts` (PCQ) |  |
| C34 | Vertical rate and height difference | proved | `Modes.vertical_content` (PCQ), `Modes.vertical_range` (PCQ), `Modes.vertical_sign_flip` (PCQ) |  |
| C35 | Ground speed and track | proved | `Modes.ground_speed` (PCQ), `Modes.ground_track` (PCQ), `Modes.ground_track_margin` (PCQ), `Modes.ground_speed_of_bits` (PCQ), `Modes.code_ground_speed` (PCQ), `Modes.code_ground_speed_refused` (PCQ) | float64 rounding modelled for the speed; the track is modelled over the reals with Go's signed-zero cases (Atan2, scaling and float32 conversion not rounded), with a margin theorem |
| C36 | Callsign round trip | proved | `Modes.callsign_roundtrip_bds08` (PCQ), `Modes.callsign_roundtrip_bds20` (PCQ), `Modes.callsign_injective` (PCQ), `Modes.bds20_coherent_iff` (PCQ), `Modes.bds08_coherent_iff` (PCQ) |  |
| C37 | Emitter category | proved | `Modes.emitter_category` (PCQ), `Modes.identification_accepts` (PCQ) |  |
| C38 | Aircraft status | partial | `Modes.status_accepts_partial` (PCQ), `Modes.status_content` (PCQ), `Modes.status_reserved_refuted` (PCQ), `Modes.status_coherent_iff` (PCQ) | false of the code for the no-information message: bits 17-56 are not checked (status_reserved_refuted; aircraft_status_no_information.go:69-73 tests byte 1 again); everything else proved |
| C39 | Target state and status | partial | `Modes.target_state_accepts` (PCQ), `Modes.target_state_content` (PCQ), `Modes.target_heading_partial` (PCQ), `Modes.target_heading_refuted` (PCQ), `Modes.selected_altitude_type_partial` (PCQ), `Modes.selected_altitude_type_refuted` (PCQ), `Modes.selected_heading_partial` (PCQ), `Modes.selected_heading_refuted` (PCQ) | false of the code for three fields: subtype 0 heading (target_heading_track_angle.go reads byte 2 for byte 4), subtype 1 selected altitude type (bit 8 for bit 9), negative selected heading (sign and magnitude for two's complement); every other field proved |
| C40 | Operational status dispatch | partial | `Modes.operational_status_accepts` (PCQ), `Modes.operational_status_content` (PCQ), `Modes.adsb_level_partial` (PCQ), `Modes.adsb_level_refuted` (PCQ) | false of the code for version 2 surface messages: GetADSBLevel says 1 (adsb_level_refuted) |
| C41 | Operational status content | proved | `Modes.operational_status_content` (PCQ), `Modes.operational_status_accepts` (PCQ) |  |
| C42 | Comm-B inference is total | proved | `Modes.commB_total` (PCQ), `Modes.code_commB` (PCQ) |  |
| C43 | Comm-B inference is sound and complete | proved | `Modes.commB_sound_complete` (PCQ), `Modes.code_commB` (PCQ) |  |
| C44 | Comm-B unambiguous registers | proved | `Modes.commB_unambiguous` (PCQ), `Modes.bds20_excludes` (PCQ), `Modes.bds00_accepts` (PCQ) |  |
| C45 | Comm-B callsign | proved | `Modes.commB_callsign` (PCQ) |  |
| C46 | Unavailable parameters carry no value | proved | `Modes.bds40_coherent` (PCQ), `Modes.bds44V0_coherent` (PCQ), `Modes.bds44V1_coherent` (PCQ), `Modes.bds44V2_coherent` (PCQ), `Modes.bds50_coherent` (PCQ), `Modes.bds60_coherent` (PCQ) |  |
| C47 | BDS 4,0 content | partial | `Modes.bds40_accepts` (PCQ), `Modes.bds40_actual` (PCQ), `Modes.bds40_content_partial` (PCQ), `Modes.bds40_content_refuted` (PCQ) | false of the code: the MCP/FCU and FMS altitude values are exchanged and the barometric status is read from bit 1 (bds40_content_refuted); bds40_actual is the exact content the code computes, bds40_content_partial the fields for which the documented layout holds |
| C48 | BDS 5,0 and 6,0 content | proved | `Modes.bds50_60_accept` (PCQ), `Modes.bds50_content` (PCQ), `Modes.bds60_content` (PCQ), `Modes.bds50_range` (PCQ), `Modes.bds60_range` (PCQ) |  |
| C49 | BDS 4,4 content and layout choice | partial | `Modes.bds44_layout` (PCQ), `Modes.bds44_content_partial` (PCQ), `Modes.bds44_wind_partial` (PCQ), `Modes.bds44_wind_refuted` (PCQ), `Modes.bds44_temperature_refuted` (PCQ) | false of the code for the wind speed (bit 6 is dropped) and the temperature of the oldest layout (sign bit); every other field and the layout choice are proved |
| C50 | BDS 4,5 content and layout choice | proved | `Modes.bds45_layout` (PCQ), `Modes.bds45_content` (PCQ), `Modes.bds45V0_coherent` (PCQ), `Modes.bds45V1_coherent` (PCQ) | the older layout is never the one returned (its readable messages are all readable in the newer one); both layouts' contents are proved |
| C51 | BDS 1,0 content | partial | `Modes.bds10_accepts` (PCQ), `Modes.bds10_content_partial` (PCQ), `Modes.bds10_surveillance_refuted` (PQ), `Modes.bds10_coherent` (PCQ) | false of the code for the surveillance identifier capability, read from bit 18 instead of bit 35 |
| C52 | BDS 1,7 content | partial | `Modes.bds17_accepts` (PCQ), `Modes.bds17_content` (PCQ), `Modes.bds17_injective_partial` (PCQ), `Modes.bds17_injective_refuted` (PQ) | false of the code: bits 25-28 are neither read nor enforced, so two messages differing there give the same report; proved up to these bits |
| C53 | BDS 0,7 acceptance | partial | `Modes.bds07_accepts` (PCQ), `Modes.bds07_reserved_partial` (PCQ), `Modes.bds07_reserved_refuted` (PCQ), `Modes.bds07_content` (PCQ) | false of the code: reserved bits 7-8 are not checked (mask 0x1C) |
| C54 | Number of longitude zones | proved | `Modes.Geo.nl_properties` (PCQ), `Modes.Geo.nl_spec` (PCQ), `Modes.Geo.nl_domain` (PCQ) | exact arithmetic; with rounding: C68 |
| C55 | Airborne global position decoding | proved | `Modes.Geo.airborne_global` (PCQ), `Modes.Geo.airborne_global_fixed` (PCQ), `Modes.Geo.airborne_global_bands` (PCQ) | exact arithmetic (with rounding: C68); the aircraft may move between the messages; messages in different bands give an error |
| C56 | Airborne local position decoding | proved | `Modes.Geo.airborne_local` (PCQ) | exact arithmetic; with rounding: C68 |
| C57 | Surface position decoding | partial | `Modes.Geo.surface_global_partial` (PCQ), `Modes.Geo.surface_nearest` (PCQ), `Modes.Geo.surface_noPanic_partial` (PCQ), `Modes.Geo.surface_local` (PCQ), `Modes.Geo.surface_antimeridian_refuted` (PCQ), `Modes.Geo.surface_panic_refuted` (PCQ) | false of the code when the receiver and the aircraft are on different sides of the antimeridian (Geo.surface_antimeridian_refuted), and the decoder panics for receiver longitudes from about ten million degrees (Geo.surface_panic_refuted); everything else is proved, in exact arithmetic; with rounding: C68 |
| C58 | Decoded coordinates are on the globe | partial | `Modes.Geo.globe_partial` (PCQ), `Modes.Geo.globe_refuted` (PCQ) | false of the code: even latitude code 0 with odd code 65536 gives latitude 180 without error; proved: the longitude is always in [-180,180] and the latitude in [-90, 270) |
| C59 | Ground distance is a distance | proved | `Modes.Geo.groundDistance_properties` (PCQ), `Modes.Geo.groundDistance_spec` (PCQ), `Modes.Geo.groundDistance_eq_zero` (PCQ), `Modes.Geo.hav_range` (PCQ) | also the triangle inequality and equality with the great-circle distance; float64 modelled by the real numbers |
| C60 | A received line never crashes the program | proved | `Modes.line_total` (PCQ), `Modes.file_total` (PCQ) | the texts of the fields are not modelled here; the operations of the printing functions that could panic are |
| C61 | Indenting multi-line text | proved | `Modes.prefix_lines` (PCQ), `Modes.prefix_lines_recover` (PCQ), `Modes.text_has_lines` (PCQ), `Modes.code_prefix_lines` (PCQ) |  |
| C62 | ACAS bearing and range values | proved | `Modes.getBearing_spec` (PQ), `Modes.getRange_spec` (PCQ) | float64 rounding modelled |
| C63 | Decoded content does not depend on the parity bits | proved | `Modes.readMessage_parity` (PCQ), `Modes.readMessage_parity_eq` (PCQ) |  |
| C64 | Minimum distance of accepted squitters | proved | `Modes.squitter_distance` (PCQ), `Modes.squitter_corruption_detected` (PCQ) |  |
| C65 | Corruption changes the recovered address | proved | `Modes.overlaid_corruption_changes_address` (PCQ) |  |
| C66 | Messages without a position type | partial | `Modes.adsb_dispatch` (PCQ), `Modes.adsb_accepts` (PCQ), `Modes.type0_altitude_source` (PCQ) | the altitude, time, format and coordinates are proved (adsb_dispatch, clauses noPosition and airborneType0); the altitude source is false of the code: always GNSS (type0_altitude_source; airborne_position_type_0.go:40 uses type code 22), and the surveillance status and antenna bits are dropped |
| C67 | What the program reports for a line | proved | `Modes.line_report` (PCQ), `Modes.line_notHexadecimal` (PCQ), `Modes.report_unique` (PCQ), `Modes.hexDecode_iff` (PCQ) |  |
| C68 | Rounding does not change decoded positions | proved | `Modes.Geo.airborneGlobal_float` (PCQ), `Modes.Geo.nlF_agrees` (PCQ), `Modes.Geo.airborne_global_float64` (PCQ), `Modes.Geo.airborne_global_bands_float64` (PCQ), `Modes.Geo.airborne_local_float64` (PCQ), `Modes.Geo.surface_local_float64` (PCQ), `Modes.Geo.surfaceGlobal_float` (PCQ), `Modes.Geo.surface_global_float64` (PCQ), `Modes.Geo.airborneGlobalF_exact` (PCQ), `Modes.Geo.airborneLocalF_exact` (PCQ), `Modes.Geo.surfaceGlobalF_exact` (PCQ), `Modes.Geo.surfaceLocalF_exact` (PCQ), `Modes.Geo.getNumberOfLongitudeF_exact` (PCQ) | float64 as rounding of each operation to 53 bits, round half to even, unbounded exponent; no fused multiply-add; the accuracy of math.Cos and math.Acos is a hypothesis (Geo.Accurate, met by Geo.accurate_rounded) |
| C69 | Coherence of ADS-B messages | proved | `Modes.adsb_coherent_iff` (PCQ) |  |
| C70 | Packing of flags | proved | `Modes.pack8Bits_digits` (PQ), `Modes.pack16Bits_digits` (PCQ) |  |
| C71 | Bounds of the codes of surface positions | proved | `Modes.containment_bounds` (PCQ), `Modes.hpl_bounds` (PCQ), `Modes.containment_disjoint` (PCQ), `Modes.containment_covers` (PCQ), `Modes.hpl_nested` (PCQ) |  |
| C72 | Texts of coded fields identify the code | proved | `Modes.Text.texts_identify` (PCQ) | the tables are written into the model by tools/gen_texts.py from the source; texts that are not a table are outside this property |
| C73 | Number shown in the text of a coded field | partial | `Modes.Text.texts_numbered_partial` (PCQ), `Modes.Text.fieldTexts_split` (PQ), `Modes.Text.texts_numbered_refuted` (PQ) | false of the code for ModeSSubnetworkVersion, SourceIntegrityLevel of register 6,2 and GeometricVerticalAccuracy (Text.texts_numbered_refuted); proved for the 127 others |
| C74 | Text of a Mode S message | proved | `Modes.modeS_text_total` (PCQ), `Modes.modeS_text_identifies` (PCQ), `Modes.df11_text_frame` (PCQ), `Modes.df17_text_frame` (PCQ), `Modes.df18_text_frame` (PCQ) | a text is a list of characters; the %v, %X verbs of fmt are modelled as decimal and hexadecimal digits |
| C75 | Text of an ADS-B message | partial | `Modes.adsb_text_partial` (PCQ), `Modes.adsb_text_refuted` (PCQ) | false of the code: the Mode A code of an emergency message, the sense of a resolution advisory and the subtype of a version 0 operational status are not printed (adsb_text_refuted); proved for everything else that is decoded (Spec.shownADSB is the message with those fields left out); the printing of float32 numbers is a parameter assumed injective |
| C76 | Text of a Comm-B candidate | partial | `Modes.commB_text_partial` (PCQ), `Modes.commB_texts_differ` (PCQ), `Modes.commB_text_refuted` (PCQ) | false of the code: the continuation flag of BDS 1,0 and the sense of a resolution advisory are not printed (commB_text_refuted); proved for everything else, and that the candidates of one field always have different texts |
| C77 | The printed report shows the transmitted values | partial | `Modes.airborne_text` (PCQ), `Modes.type0_text` (PCQ), `Modes.surface_text` (PCQ), `Modes.velocity_text` (PCQ), `Modes.airspeed_text` (PCQ), `Modes.identification_text` (PCQ), `Modes.status_text` (PCQ), `Modes.commB_identification_text` (PCQ), `Modes.bds50_text` (PCQ), `Modes.bds60_text` (PCQ), `Modes.bds40_text_refuted` (PCQ), `Modes.bds17_text` (PCQ), `Modes.bds44_text_partial` (PCQ), `Modes.bds45_text` (PCQ), `Modes.bds10_text_partial` (PCQ), `Modes.bds10_text_refuted` (PCQ), `Modes.target_state_text_partial` (PCQ), `Modes.operationalV0_text` (PCQ), `Modes.operationalAirborneV1_text` (PCQ), `Modes.operationalAirborneV2_text` (PCQ), `Modes.operationalSurfaceV1_text_partial` (PCQ), `Modes.operationalSurfaceV2_text_partial` (PCQ), `Modes.operational_surface_text_refuted` (PCQ) | false of the code for BDS 4,0, where the two altitudes are printed under each other's label (bds40_text_refuted), and for BDS 1,0, where the continuation line shows the overlay bit and the surveillance identifier is always shown as absent (bds10_text_refuted); the surface operational status prints its track angle/heading bit under the label NIC Baro (operational_surface_text_refuted); bds44_text_partial takes the wind speed as the code reads it, without its first bit (C49), and target_state_text_partial the headings as the code reads them (C39); proved for the other values named |
| C78 | From the aircraft to the decoded report | proved | `Modes.squitter_received` (PCQ), `Modes.airborne_received` (PCQ), `Modes.surface_received` (PCQ), `Modes.airborne_frame_received` (PCQ), `Modes.surface_frame_received` (PCQ), `Modes.airborne_end_to_end` (PCQ), `Modes.airborne_local_end_to_end` (PCQ), `Modes.surface_end_to_end` (PCQ), `Modes.callsign_end_to_end` (PCQ), `Modes.altitude_end_to_end` (PCQ) | the transmitter is Spec/Transmit; the positions are computed in float64 with a cosine and arc cosine accurate to one ulp (Accurate); positions under the conditions of C55-C57 |
| C79 | What the program prints for a line | partial | `Modes.line_output` (PCQ), `Modes.file_output` (PCQ), `Modes.squitter_output` (PCQ), `Modes.squitter_shows` (PCQ), `Modes.reported_output` (PCQ), `Modes.output_identifies` (PCQ), `Modes.output_terminated` (PCQ), `Modes.output_terminated_refuted` (PCQ) | the last sentence is false of the code for a line that is not hexadecimal: no line break follows its report (output_terminated_refuted); the rest is proved. The words of Go errors are parameters |
| C80 | Command line of the program | partial | `Modes.run_data` (PCQ), `Modes.run_file` (PCQ), `Modes.run_file_unreadable` (PCQ), `Modes.run_wrong_level` (PCQ), `Modes.run_panics_only` (PCQ), `Modes.scanLines_file` (PQ), `Modes.run_level_refuted` (PCQ) | the last clause is false of the code: with flags and no file, the first flag itself is taken for the data (run_level_refuted); the rest is proved. flag.Parse and bufio.Scanner are modelled, strconv.ParseInt is a parameter |
| C81 | What a message says it is | partial | `Modes.commB_register` (PCQ), `Modes.adsb_register` (PCQ), `Modes.subtype_accessor` (PCQ), `Modes.category_set_name` (PCQ), `Modes.turbulence_accessor` (PCQ), `Modes.source_accessor_partial` (PCQ), `Modes.source_accessor_refuted` (PCQ) | false of the code for GetSource: it returns Invalid for every report that has a source (source_accessor_refuted); the rest is proved |
| C82 | Readers of one kind of message, called directly | partial | `Modes.direct_readers` (PCQ), `Modes.direct_meteo` (PCQ), `Modes.direct_surface` (PCQ), `Modes.direct_airborne` (PCQ), `Modes.direct_type0` (PCQ), `Modes.direct_panics_refuted` (PQ) | false of the code for ReadAirbornePosition, ReadAirbornePositionType0 and ReadNoPositionInformation, which index the data without testing its length (direct_panics_refuted; direct_airborne and direct_type0 say exactly when they panic); proved for the others |
| C83 | Ground distance in double arithmetic | partial | `Modes.Geo.groundDistanceF_close` (PCQ), `Modes.Geo.groundDistanceF_accurate` (PCQ), `Modes.Geo.groundDistanceF_exact` (PCQ), `Modes.Geo.accurateTrig_exact` (PCQ), `Modes.Geo.accurateTrig_rounded` (PCQ), `Modes.Geo.groundDistanceF_nan_refuted` (PCQ), `Modes.Geo.groundDistance_antipodal` (PCQ) | false of the code for some antipodal positions, for which it returns NaN (groundDistanceF_nan_refuted, with standard functions rounded to nearest); proved that positions more than four metres from antipodal give a number, and both accuracies. The accuracy of math.Sin, math.Cos and math.Atan2 is the hypothesis AccurateTrig |
| C84 | Velocity, from the aircraft to the decoded report | proved | `Modes.velocity_end_to_end` (PCQ), `Modes.airspeed_end_to_end` (PCQ), `Modes.velocity_delivered` (PCQ) | the transmitter is Spec/Transmit |
| C85 | Comm-B registers, from the aircraft to the candidates | partial | `Modes.commB_reply_received` (PCQ), `Modes.trackTurn_end_to_end_partial` (PCQ), `Modes.headingSpeed_end_to_end` (PCQ), `Modes.commB_callsign_end_to_end` (PCQ), `Modes.trackTurn_refuted` (PCQ) | false of the code for BDS 5,0 when only one of ground speed and airspeed is available and it is above 200 knots: the missing one is taken for zero and the report rejected (trackTurn_refuted); proved otherwise, and fully for BDS 6,0 and 2,0 |
| C86 | Surveillance replies, from the aircraft to the receiver | proved | `Modes.altitude_reply_end_to_end` (PCQ), `Modes.identity_reply_end_to_end` (PCQ), `Modes.airAir_reply_end_to_end` (PCQ), `Modes.allCall_end_to_end` (PCQ), `Modes.reply_received` (PCQ), `Modes.reply_exists` (PCQ) | the transmitter (codings, IsReply) is specified in Props/EndToEndSurveillance, namespace Spec, and Spec/Altitude |
| C87 | Emergencies and intentions, from the aircraft to the decoded report | partial | `Modes.adsb_accepted_delivered` (PCQ), `Modes.emergency_end_to_end` (PCQ), `Modes.target_end_to_end_partial` (PCQ), `Modes.selected_heading_refuted` (PCQ), `Modes.selected_altitude_type_refuted` (PCQ) | false of the code for selected headings from 180 degrees on and for the kind of the selected altitude (selected_heading_refuted, selected_altitude_type_refuted, C39); the rest is proved |
| C88 | Version learned from a history of messages | partial | `Modes.level_learned_partial` (PCQ), `Modes.level_valid` (PCQ), `Modes.level_ignores` (PCQ), `Modes.position_after_history_partial` (PCQ), `Modes.nextLevel_eq` (PCQ), `Modes.level_learned_refuted` (PCQ) | false of the code after the operational status of a version 2 aircraft on the surface, which reports version 1 (level_learned_refuted); proved for every history without one, and nextLevel_eq says exactly what each message does |
| C89 | Selected altitudes, from the aircraft to the candidates | partial | `Modes.selectedAltitude_end_to_end_partial` (PCQ), `Modes.selectedAltitude_shown` (PCQ), `Modes.selectedAltitude_refuted` (PCQ) | True when the two altitudes are equal and all three values are available. The code exchanges the two altitudes and ties the availability of the pressure to that of the MCP/FCU altitude: selectedAltitude_shown says what is shown for every pair of altitudes, selectedAltitude_refuted that reports with different altitudes are shown wrong and that reports without one of the altitudes are not understood at all. |
| C90 | Weather reports, from the aircraft to the candidates | partial | `Modes.routineReport_end_to_end` (PCQ), `Modes.hazardReport_end_to_end_partial` (PCQ), `Modes.hazardReport_refuted` (PCQ) | BDS 4,4 (appendix E layout, with or without source) holds without exception. BDS 4,5: a report of wind shear or icing alone may be taken for BDS 0,7, and hazardReport_refuted proves that it is for no or light wind shear; all other reports are understood. |
| C91 | Resolution advisories, from the ACAS to the decoded report | partial | `Modes.advisory_read_partial` (PCQ), `Modes.advisory_squitter_partial` (PCQ), `Modes.advisory_commB_partial` (PCQ), `Modes.advisory_airAir_partial` (PCQ), `Modes.threat_altitude_exact` (PCQ) | Proved as equivalences: the advisory is received with all it says if and only if the threat is not given at an altitude whose code has a C1 or A1 pulse. Partial because the code itself is wrong for those altitudes (it adds the two pulses at the wrong place) and drops the last bit of the range. |
| C92 | Capability reports, from the aircraft to the candidates | partial | `Modes.gicb_end_to_end_partial` (PCQ), `Modes.gicb_faithful` (PCQ), `Modes.gicb_refuted` (PCQ), `Modes.dataLink_end_to_end_partial` (PCQ), `Modes.dataLink_refuted` (PCQ) | Both characterisations are equivalences. Partial because the code itself is wrong: a short GICB report is accepted as BDS 0,7, whose reserved bits 7-8 are not checked, and the surveillance identifier capability is read from a bit of the subnetwork version. |
| C93 | The ground track as computed with rounding | proved | `Modes.ground_track_margin_all` (PCQ), `Modes.ground_track_float` (PCQ), `Modes.track_end_to_end_float` (PCQ), `Modes.accurateAtan2_rounded` (PCQ), `Modes.code_ground_track` (PCQ) | math.Atan2 is a parameter, assumed accurate to 2^-50 relative (Go does not document its accuracy); accurateAtan2_rounded shows the assumption is met by a correctly rounded one |
| C94 | Operational status reports, from the aircraft to the decoded report | partial | `Modes.operationalAirborneV2_end_to_end` (PCQ), `Modes.operationalSurfaceV2_end_to_end_partial` (PCQ), `Modes.operationalAirborneV1_end_to_end` (PCQ), `Modes.operationalSurfaceV1_end_to_end` (PCQ), `Modes.operationalV0_end_to_end` (PCQ), `Modes.operational_delivered` (PCQ) | the transmitter is a list of fields (width, value) in Props/EndToEndOperational and Spec/Pack; partial because the code itself announces every version 2 surface report as version 1 (C40) |
| C95 | Which registers a Comm-B field is offered as | proved | `Modes.commB_registers` (PCQ), `Modes.commB_answers` (PCQ), `Modes.commB_answers_occur` (PCQ), `Modes.commB_at_most_five` (PCQ), `Modes.ra_refused_iff` (PCQ) | the conditions are Spec/CommB.lean (bit numbers only), the table possibleAnswers; ra_refused_iff says exactly which resolution advisories are refused, for all six-byte fields |
| C96 | Different transmissions are told apart | partial | `Modes.commB_told_apart_partial` (PCQ), `Modes.commB_told_apart_refuted` (PCQ), `Modes.adsb_told_apart_partial` (PCQ), `Modes.adsb_told_apart_refuted` (PCQ) | the code drops information bits: the airspeed type of a velocity, the source of a selected altitude, four bits of a target heading, an overlay bit; commB_told_apart_refuted and adsb_told_apart_refuted give pairs reported as equal. Reports whose values are flagged unavailable or out of range, threats by position and empty advisories are outside the equalities |
| C97 | Exactly which corruptions go unnoticed | proved | `Modes.squitter_undetected_iff` (PCQ), `Modes.squitter_odd_detected` (PCQ), `Modes.squitter_even` (PCQ), `Modes.squitter_burst25` (PCQ), `Modes.squitter_parity_unique` (PCQ), `Modes.squitter_distance_attained` (PCQ), `Modes.overlaid_corruption_shifts_address` (PCQ), `Modes.overlaid_never_refused` (PCQ) | polynomials over GF(2); the error polynomial has one term for each differing bit, the last bit being the constant term |
| C98 | What the program prints for a reply, line by line | proved | `Modes.plain_output` (PCQ), `Modes.commB_output` (PCQ), `Modes.acas_output` (PCQ), `Modes.acas_unknown_output` (PCQ), `Modes.squitter_content_output` (PCQ), `Modes.squitter_not_adsb_output` (PCQ), `Modes.altitude_reply_printed` (PCQ), `Modes.identity_reply_printed` (PCQ), `Modes.allCall_printed` (PCQ), `Modes.commB_line_printed` (PCQ), `Modes.commB_callsign_printed` (PCQ) | the texts of floating-point numbers are abstract (FloatTexts), assumed only to be injective on float32 numbers and without line breaks (FloatTexts.Faithful); examples in Witness/Replies.lean |
| C99 | Coordinates that are not numbers, infinite or enormous | proved | `Modes.Geo.local_nonfinite` (PCQ), `Modes.Geo.local_numbers` (PCQ), `Modes.Geo.groundDistance_nonfinite` (PCQ), `Modes.Geo.groundDistance_finite` (PCQ), `Modes.Geo.groundDistance_finite_refuted` (PCQ), `Modes.Geo.surface_hemisphere` (PCQ), `Modes.Geo.surface_nonfinite_longitude` (PCQ), `Modes.Geo.surface_finite` (PCQ), `Modes.Geo.surface_panics` (PCQ), `Modes.Geo.nlX_finite` (PCQ), `Modes.Geo.maxX_documented` (PCQ) | Accurate, the hypothesis on math.Cos and math.Acos, is that of C68 and is met by correctly rounded functions (accurate_rounded). One zero, one NaN, no subnormals. |
| C100 | The reason printed for a refusal is true | partial | `Modes.hexadecimal_reason` (PCQ), `Modes.frame_reason` (PCQ), `Modes.advisory_reason_partial` (PCQ), `Modes.advisory_refused` (PCQ), `Modes.adsb_refused` (PCQ), `Modes.adsb_reason_partial` (PCQ), `Modes.adsb_reason_refuted` (PCQ), `Modes.hexadecimal_refusal_printed` (PCQ), `Modes.frame_refusal_printed` (PCQ), `Modes.parity_refusal_printed` (PCQ), `Modes.adsb_refusal_printed_partial` (PCQ), `Modes.acas_refusal_printed_partial` (PCQ), `Modes.program_acas_refusal_printed_partial` (PCQ), `Modes.program_adsb_refusal_printed_partial` (PCQ), `Modes.squitter_refusal_output` (PCQ) | false of the code for the version number of operational status messages (adsb_reason_refuted) and, as in C20, for advisories of type 2 whose 13-bit altitude begins with a 1; true otherwise. The words of the errors only the library can return (registers read directly) are not modelled. |
| C101 | The reader level is given as an integer numeral | proved | `Modes.parseUint_iff` (PCQ), `Modes.parseInt_iff` (PCQ), `Modes.numeral_unique` (PCQ), `Modes.decimal_numeral` (PCQ), `Modes.run_level_not_number` (PCQ), `Modes.run_file_at_level` (PCQ), `Modes.run_number_not_level` (PCQ), `Modes.run_panics_numeral` (PCQ) | Go's strconv.ParseInt(s, 0, 64), used by the flag package, is modelled (Model/Numeral) with its uint64 overflow tests and its separate check of underscores, instead of being a parameter as in C80. |
| C102 | The numbers in the printed reports are the values in decimal | partial | `Modes.float_printed` (PCQ), `Modes.float_printed_near` (PCQ), `Modes.float_printed_exact` (PCQ), `Modes.plainDecimal_unique` (PCQ), `Modes.plainDecimal_text` (PCQ), `Modes.floatText_inj` (PCQ), `Modes.goFloats_faithful` (PCQ), `Modes.surface_numbers` (PCQ), `Modes.ground_speed_numbers` (PCQ), `Modes.airspeed_numbers` (PCQ), `Modes.target_state_numbers` (PCQ), `Modes.bds40_numbers` (PCQ), `Modes.bds44_numbers` (PCQ), `Modes.bds45_numbers` (PCQ), `Modes.bds50_numbers` (PCQ), `Modes.bds60_numbers` (PCQ), `Modes.threat_range_number` (PCQ), `Modes.mach_number_refuted` (PCQ), `Modes.edr_number_refuted` (PCQ), `Modes.minusZero_not_plain` (PCQ), `Modes.selected_heading_minus_zero` (PCQ) | Partial because the code violates it for four fields: a zero track or selected heading may be printed as -0 (selected_heading_minus_zero, the first case of ground_speed_numbers); Mach numbers and eddy dissipation rates are computed with a rounded constant, and some are printed as 0.020000001 or 0.099999994 (refuted theorems). Not modelled: exponents (no value needs one). |
| C103 | The reason a Comm-B reader or a coherency check gives is true | partial | `Modes.bds00_reason` (PCQ), `Modes.bds07_reason` (PCQ), `Modes.bds10_reason` (PCQ), `Modes.bds17_reason` (PCQ), `Modes.bds20_reason` (PCQ), `Modes.bds30_reason_partial` (PCQ), `Modes.bds30_reason_refuted` (PCQ), `Modes.bds40_reason` (PCQ), `Modes.bds44V_reason` (PCQ), `Modes.bds44_reason_partial` (PCQ), `Modes.bds44_range_refuted` (PCQ), `Modes.bds45_reason` (PCQ), `Modes.bds50_60_reason` (PCQ), `Modes.commB_incoherence_iff` (PQ), `Modes.adsb_incoherence_iff` (P), `Modes.bds07_incoherence` (PCQ), `Modes.bds08_incoherence` (PCQ), `Modes.bds10_incoherence` (PCQ), `Modes.bds20_incoherence` (PCQ), `Modes.bds40_reason_actual` (PCQ), `Modes.bds40_incoherence_partial` (PCQ), `Modes.bds40_reasons_refuted` (PCQ), `Modes.bds44V0_incoherence_partial` (PCQ), `Modes.bds44V0_reasons_refuted` (PCQ), `Modes.bds44V1_incoherence_partial` (PCQ), `Modes.bds44V2_incoherence_partial` (PCQ), `Modes.bds44_reasons_refuted` (PCQ), `Modes.bds45V0_incoherence` (PCQ), `Modes.bds45V1_incoherence` (PCQ), `Modes.bds50_incoherence` (PCQ), `Modes.bds60_incoherence` (PCQ), `Modes.bds61_incoherence_partial` (PCQ), `Modes.bds61_reasons_refuted` (PCQ) | Proved for every register. The code itself gives false reasons in the cases proved by the _refuted theorems: BDS 3,0 says that the first byte is not 0x20 when it is; BDS 4,4 gives a range that is not the accepted one, calls a report with only the turbulence flag (or, in version 0, only a temperature) empty, and 25 degrees out of -80 to 60; BDS 4,0 swaps the two altitudes, takes the status of the pressure from the wrong bit and overlooks the mode bits; BDS 6,1 calls the downed aircraft a reserved value. The _partial theorems exclude exactly those. TIDIllegal (Props/ACAS) is the legality of an altitude code. |
| C104 | The reason an ADS-B reader or a Mode S parser gives when called directly is true | partial | `Modes.velocity_kind_reason` (PCQ), `Modes.status_kind_reason` (PCQ), `Modes.ra_broadcast_reason_partial` (PCQ), `Modes.target_state_kind_reason` (PCQ), `Modes.operational_kind_refused` (PCQ), `Modes.operational_kind_reason` (PCQ), `Modes.operational_kind_reason_partial` (PCQ), `Modes.operational_kind_reason_refuted` (PCQ), `Modes.airborne_register_reason` (PCQ), `Modes.surface_register_reason` (PCQ), `Modes.identification_register_reason` (PCQ), `Modes.velocity_register_reason` (PCQ), `Modes.target_state_register_reason` (PCQ), `Modes.status_register_refused` (PCQ), `Modes.status_register_reason_partial` (PCQ), `Modes.operational_register_refused` (PCQ), `Modes.operational_register_reason_partial` (PCQ), `Modes.operational_register_reason_refuted` (PCQ), `Modes.surface_reader_reason` (PCQ), `Modes.airborne_reader_reason` (PCQ), `Modes.ground_access_reason` (PCQ), `Modes.parser_reason` (PCQ) | Proved for every function. The code itself gives false reasons in the cases proved by the _refuted theorems: two readers of operational status say that the type code must be 29 (it must be 31, and they say it of data of type code 29 too), and for the versions 3 to 7 the text gives the subtype in place of the version. The _partial theorems exclude exactly those, and the advisories whose threat altitude the program does not read as it was sent (C23). airborne_reader_reason is for the calls that do not panic (C82). |
| C105 | Calls of ReadMessage made at the same time do not disturb one another | proved | `Modes.concurrent_calls` (PCQ), `Modes.call_alone` (PQ), `Modes.quiet_old` (PCQ) | The decoding of the value fields is one step (its loads see an unchanging frame by the first part of the theorem); sequentially consistent memory. |
| C106 | The error of CheckCRC says why the frame was refused | proved | `Modes.checkCRC_reasons` (PCQ) |  |
| C107 | A refusal is worded by what the source says | proved | `Modes.erase_modes.reader.ReadMessage` (PQ), `Modes.erase_modes.reader.CheckCRC` (PQ), `Modes.erase_adsb.reader.ReadADSBMessage` (PCQ), `Modes.erase_commb.ReadCommBMessage` (PCQ), `Modes.coherency_words_Status07` (P), `Modes.coherency_words_DataLinkCapabilityReport` (PQ), `Modes.coherency_words_AircraftIdentification` (PQ), `Modes.coherency_words_SelectedVerticalIntention` (PQ), `Modes.coherency_words_RoutineAirReportV0` (PQ), `Modes.coherency_words_RoutineAirReportV1` (PQ), `Modes.coherency_words_RoutineAirReportV2` (PQ), `Modes.coherency_words_HazardReportV0` (PQ), `Modes.coherency_words_HazardReportV1` (PQ), `Modes.coherency_words_TrackAndTurnReport` (PQ), `Modes.coherency_words_HeadingAndTrackReport` (PQ), `Modes.coherency_words_IdentificationAndCategory` (PQ), `Modes.coherency_words_AircraftStatus` (P), `Modes.coherency_words_CommB` (PQ), `Modes.coherency_words_ADSB` (PQ), `Modes.same_words_bds10Error` (PCQ), `Modes.same_words_bds00Error` (PCQ), `Modes.same_words_bds07Error` (PCQ), `Modes.same_words_bds17Error` (PCQ), `Modes.same_words_bds20Error` (PCQ), `Modes.same_words_bds40Error` (PCQ), `Modes.same_words_bds50Error` (PCQ), `Modes.same_words_bds60Error` (PCQ), `Modes.same_words_bds44V0Error` (PCQ), `Modes.same_words_bds44V1Error` (PCQ), `Modes.same_words_bds44V2Error` (PCQ), `Modes.same_words_bds45V0Error` (PCQ), `Modes.same_words_bds45V1Error` (PCQ), `Modes.same_words_advisoryError` (PCQ), `Modes.same_words_groundSpeedNormalError` (PCQ), `Modes.same_words_groundSpeedSupersonicError` (PCQ), `Modes.same_words_airSpeedNormalError` (PCQ), `Modes.same_words_airSpeedSupersonicError` (PCQ), `Modes.same_words_statusNoInformationError` (PCQ), `Modes.same_words_statusEmergencyError` (PCQ), `Modes.same_words_statusACASError` (PCQ), `Modes.same_words_targetState0Error` (PCQ), `Modes.same_words_targetState1Error` (PCQ), `Modes.same_words_operationalV0Error` (PCQ), `Modes.same_words_operationalAirborneV1Error` (PCQ), `Modes.same_words_operationalAirborneV2Error` (PCQ), `Modes.same_words_operationalSurfaceV1Error` (PCQ), `Modes.same_words_operationalSurfaceV2Error` (PCQ), `Modes.same_words_surfaceError` (PCQ), `Modes.same_words_identificationError` (PCQ), `Modes.same_words_airborneError` (PCQ), `Modes.same_words_statusError` (PCQ), `Modes.same_words_velocityError` (PCQ), `Modes.same_words_targetStateError` (PCQ), `Modes.same_words_operationalError` (PCQ), `Modes.same_words_bds30Error` (PCQ), `Modes.same_words_airbornePositionError` (PCQ), `Modes.same_words_surfacePositionError` (PCQ), `Modes.same_words_adsbError` (PCQ), `Modes.same_words_parseDF0Error` (PCQ), `Modes.same_words_parseDF4Error` (PCQ), `Modes.same_words_parseDF5Error` (PCQ), `Modes.same_words_parseDF11Error` (PCQ), `Modes.same_words_parseDF16Error` (PCQ), `Modes.same_words_parseDF17Error` (PCQ), `Modes.same_words_parseDF18Error` (PCQ), `Modes.same_words_parseDF19Error` (PCQ), `Modes.same_words_parseDF20Error` (PCQ), `Modes.same_words_parseDF21Error` (PCQ), `Modes.same_words_parseDF24Error` (PCQ), `Modes.same_words_frameError` (PCQ), `Modes.same_words_crcError` (PCQ), `Modes.same_words_bds44Error` (PCQ), `Modes.same_words_bds45Error` (PCQ), `Modes.same_words_commBError` (PCQ), `Modes.words_frame_reason` (PCQ), `Modes.words_advisory_reason_partial` (PCQ), `Modes.words_advisory_refused` (PCQ), `Modes.words_bds00_reason` (PCQ), `Modes.words_bds07_reason` (PCQ), `Modes.words_bds10_reason` (PCQ), `Modes.words_bds17_reason` (PCQ), `Modes.words_bds20_reason` (PCQ), `Modes.words_bds30_reason_partial` (PCQ), `Modes.words_bds30_reason_refuted` (PCQ), `Modes.words_bds40_reason` (PCQ), `Modes.words_bds44V_reason` (PCQ), `Modes.words_bds44_reason_partial` (PCQ), `Modes.words_bds44_range_refuted` (PCQ), `Modes.words_bds45_reason` (PCQ), `Modes.words_bds50_60_reason` (PCQ), `Modes.words_commB_incoherence_iff` (PQ), `Modes.words_adsb_incoherence_iff` (PQ), `Modes.words_bds07_incoherence` (PCQ), `Modes.words_bds08_incoherence` (PCQ), `Modes.words_bds10_incoherence` (PCQ), `Modes.words_bds20_incoherence` (PCQ), `Modes.words_bds40_reason_actual` (PCQ), `Modes.words_bds40_incoherence_partial` (PCQ), `Modes.words_bds44V0_incoherence_partial` (PCQ), `Modes.words_bds44V1_incoherence_partial` (PCQ), `Modes.words_bds44V2_incoherence_partial` (PCQ), `Modes.words_bds45V0_incoherence` (PCQ), `Modes.words_bds45V1_incoherence` (PCQ), `Modes.words_bds50_incoherence` (PCQ), `Modes.words_bds60_incoherence` (PCQ), `Modes.words_bds61_incoherence_partial` (PCQ), `Modes.words_velocity_kind_reason` (PCQ), `Modes.words_status_kind_reason` (PCQ), `Modes.words_ra_broadcast_reason_partial` (PCQ), `Modes.words_target_state_kind_reason` (PCQ), `Modes.words_operational_kind_refused` (PCQ), `Modes.words_operational_kind_reason` (PCQ), `Modes.words_operational_kind_reason_partial` (PCQ), `Modes.words_operational_kind_reason_refuted` (PCQ), `Modes.words_airborne_register_reason` (PCQ), `Modes.words_surface_register_reason` (PCQ), `Modes.words_identification_register_reason` (PCQ), `Modes.words_velocity_register_reason` (PCQ), `Modes.words_target_state_register_reason` (PCQ), `Modes.words_status_register_refused` (PCQ), `Modes.words_status_register_reason_partial` (PCQ), `Modes.words_operational_register_refused` (PCQ), `Modes.words_operational_register_reason_partial` (PCQ), `Modes.words_operational_register_reason_refuted` (PCQ), `Modes.words_surface_reader_reason` (PCQ), `Modes.words_parser_reason` (PCQ), `Modes.words_checkCRC_reasons` (PCQ), `Modes.words_adsb_refused` (PCQ), `Modes.words_adsb_reason_partial` (PCQ) | words_* restate C100, C103, C104, C106 for the translated code; the words of geo errors are not translated. |
| C108 | The text of a resolution advisory, line by line | partial | `Modes.advisory_text_actual` (PCQ), `Modes.advisory_text_partial` (PCQ), `Modes.advisory_text_refuted` (PCQ), `Modes.broadcast_advisory_text` (PCQ), `Modes.commB_advisory_text` (PCQ), `Modes.acas_advisory_printed` (PCQ) | Proved for every advisory what is printed (advisory_text_actual), which is as transmitted but for: the sense is always printed Upward (the switch of ActiveRASense.ToString is on a constant), the degrees of bearings 43 to 60 are computed in a byte and wrap (60 is printed as between 98 and 104), and the range loses bit 42 (C23): advisory_text_refuted. |
| C109 | The printed texts are those of the code as written | proved | `Modes.shown_adsb` (PCQ), `Modes.shown_commB` (PCQ), `Modes.shown_modes` (PCQ), `Modes.shown_modes_name` (-), `Modes.shown_resolutionAdvisory` (PCQ), `Modes.shown_adsb_read` (PCQ), `Modes.shown_commB_read` (PCQ), `Modes.code_frame_text_total` (PCQ), `Modes.code_frame_text_identifies` (PCQ), `Modes.code_identification_text` (PCQ), `Modes.code_commB_identification_text` (PCQ), `Modes.code_adsb_text_partial` (PCQ), `Modes.code_commB_text_partial` (PCQ), `Modes.code_commB_texts_differ` (PCQ), `Modes.code_advisory_text_actual` (PCQ), `Modes.code_adsb_text_refuted` (PCQ), `Modes.code_advisory_text_refuted` (PCQ), `Modes.code_airborne_text` (PCQ), `Modes.code_type0_text` (PCQ), `Modes.code_surface_text` (PCQ), `Modes.code_velocity_text` (PCQ), `Modes.code_airspeed_text` (PCQ), `Modes.code_status_text` (PCQ), `Modes.code_target_state_text_partial` (PCQ), `Modes.code_operationalV0_text` (PCQ), `Modes.code_operationalAirborneV1_text` (PCQ), `Modes.code_operationalAirborneV2_text` (PCQ), `Modes.code_operationalSurfaceV1_text_partial` (PCQ), `Modes.code_operationalSurfaceV2_text_partial` (PCQ), `Modes.code_operational_surface_text_refuted` (PCQ), `Modes.code_broadcast_advisory_text` (PCQ), `Modes.code_bds50_text` (PCQ), `Modes.code_bds60_text` (PCQ), `Modes.code_bds40_text_refuted` (PCQ), `Modes.code_bds17_text` (PCQ), `Modes.code_bds44_text_partial` (PCQ), `Modes.code_bds45_text` (PCQ), `Modes.code_bds10_text_partial` (PCQ), `Modes.code_bds10_text_refuted` (PCQ), `Modes.code_commB_advisory_text` (PCQ), `Modes.code_surface_numbers` (PCQ), `Modes.code_ground_speed_numbers` (PCQ), `Modes.code_airspeed_numbers` (PCQ), `Modes.code_target_state_numbers` (PCQ), `Modes.code_bds40_numbers` (PCQ), `Modes.code_bds44_numbers` (PCQ), `Modes.code_bds45_numbers` (PCQ), `Modes.code_bds50_numbers` (PCQ), `Modes.code_bds60_numbers` (PCQ), `Modes.speed_text` (PCQ), `Modes.track_text` (PCQ), `Modes.code_dte_text` (PCQ) | The helpers PrefixMultiLine, toSpeedString/toTrackString and DTESubAddressStatuses.ToString are those of the hand-written model (C61, C77). Where the texts themselves are wrong (the sense of an advisory, bearings over 42, ...) the restated theorems say so: code_*_refuted. |
| C110 | The command prints what its source says | proved | `Modes.program_line` (PCQ), `Modes.code_line_total` (PCQ), `Modes.code_line` (PCQ), `Modes.program_reported_output` (PCQ), `Modes.program_output_identifies` (PCQ), `Modes.program_plain_output` (PCQ), `Modes.program_commB_output` (PCQ), `Modes.program_acas_output` (PCQ), `Modes.program_acas_unknown_output` (PCQ), `Modes.program_squitter_content_output` (PCQ), `Modes.program_squitter_not_adsb_output` (PCQ), `Modes.program_squitter_output` (PCQ), `Modes.program_squitter_shows` (PCQ), `Modes.code_callsign_printed` (PCQ), `Modes.code_altitude_printed` (PCQ), `Modes.code_altitude_reply_printed` (PCQ), `Modes.code_identity_reply_printed` (PCQ), `Modes.code_allCall_printed` (PCQ), `Modes.code_commB_line_printed` (PCQ), `Modes.code_commB_callsign_printed` (PCQ), `Modes.code_acas_advisory_printed` (PCQ), `Modes.code_hexadecimal_refusal_printed` (PCQ), `Modes.code_frame_refusal_line` (PCQ), `Modes.code_parity_refusal_line` (PCQ), `Modes.code_squitter_refusal_printed` (PCQ), `Modes.code_output_terminated` (PCQ), `Modes.code_lines` (PCQ), `Modes.code_main_file` (PCQ), `Modes.code_main_data` (PCQ), `Modes.code_main_nothing` (PCQ), `Modes.code_main_panics_iff` (PCQ), `Modes.code_main` (PCQ) | flag.Parse, the file and hex.DecodeString are those of the hand-written model (C80, C79). |
<!-- status:end -->

