import Verif.Model.Program
/-!
# `strconv.ParseInt(s, 0, 64)`

The value of `-adsb_reader_level` (cmd/main.go:24) is read by Go's `flag` package with this function. Model of Go's library
(`strconv/atoi.go`): `lower`, `underscoreOK`, `ParseUint` and `ParseInt`, with base 0 and 64 bits. The two kinds of error are kept; their
words go to the error output and are not modelled.
-/
namespace Modes

/-- `lower` of Go's strconv: `c | ('x' - 'X')`. -/
def lowerByte (c : UInt8) : UInt8 := c ||| 32

/-- The two errors of `ParseUint`. -/
inductive NumError
  | syntax
  | range
deriving DecidableEq

/-- The digit a byte stands for in `ParseUint`: `none` is `ErrSyntax`. -/
def digitByte (c : UInt8) : Option UInt8 :=
  if 48 ≤ c ∧ c ≤ 57 then some (c - 48)
  else if 97 ≤ lowerByte c ∧ lowerByte c ≤ 122 then some (lowerByte c - 97 + 10)
  else none

/-- The loop of `ParseUint` (base0 is true), on uint64 values: the number and whether an underscore was seen. -/
def uintLoop (base : UInt8) (n : UInt64) (underscores : Bool) : List UInt8 → Except NumError (UInt64 × Bool)
  | [] => .ok (n, underscores)
  | c :: s =>
    if c = 95 then uintLoop base n true s
    else match digitByte c with
      | none => .error .syntax
      | some d =>
        if d ≥ base then .error .syntax
        else if n ≥ 18446744073709551615 / base.toUInt64 + 1 then .error .range
        else if n * base.toUInt64 + d.toUInt64 < n * base.toUInt64 then .error .range
        else uintLoop base (n * base.toUInt64 + d.toUInt64) underscores s

/-- The loop of `underscoreOK`; `saw` is the last class of character seen. -/
def underscoreLoop (hex : Bool) (saw : UInt8) : List UInt8 → Bool
  | [] => saw ≠ 95
  | c :: s =>
    if (48 ≤ c ∧ c ≤ 57) ∨ (hex = true ∧ 97 ≤ lowerByte c ∧ lowerByte c ≤ 102) then underscoreLoop hex 48 s
    else if c = 95 then (if saw ≠ 48 then false else underscoreLoop hex 95 s)
    else if saw = 95 then false
    else underscoreLoop hex 33 s

/-- `underscoreOK` of Go's strconv, after the optional sign (`ParseUint` is given none by `ParseInt`; a sign left there has already been
refused as a digit). -/
def underscoreOK (s : List UInt8) : Bool :=
  match s with
  | a :: b :: rest =>
    if a = 48 ∧ (lowerByte b = 98 ∨ lowerByte b = 111 ∨ lowerByte b = 120) then underscoreLoop (lowerByte b = 120) 48 rest
    else underscoreLoop false 94 s
  | _ => underscoreLoop false 94 s

/-- The base and the digits `ParseUint` finds with base 0. -/
def baseOf (s : List UInt8) : UInt8 × List UInt8 :=
  match s with
  | [] => (10, [])
  | a :: rest =>
    if a = 48 then
      match rest with
      | b :: c :: r =>
        if lowerByte b = 98 then (2, c :: r)
        else if lowerByte b = 111 then (8, c :: r)
        else if lowerByte b = 120 then (16, c :: r)
        else (8, rest)
      | _ => (8, rest)
    else (10, s)

/-- `ParseUint(s, 0, 64)`. -/
def goParseUint (s : List UInt8) : Except NumError UInt64 :=
  if s = [] then .error .syntax
  else match uintLoop (baseOf s).1 0 false (baseOf s).2 with
    | .error e => .error e
    | .ok (n, underscores) => if underscores = true ∧ underscoreOK s = false then .error .syntax else .ok n

/-- `ParseInt(s, 0, 64)`: the value, or `none` for an error (the value Go returns with an error is not used by the `flag` package). -/
def goParseInt (s : List UInt8) : Option Int :=
  match s with
  | [] => none
  | c :: rest =>
    let neg := c = 45
    match goParseUint (if c = 43 ∨ c = 45 then rest else s) with
    | .error _ => none
    | .ok un =>
      if ¬ neg ∧ un ≥ 9223372036854775808 then none
      else if neg ∧ un > 9223372036854775808 then none
      else some (if neg then (-un.toInt64).toInt else un.toInt64.toInt)

end Modes
