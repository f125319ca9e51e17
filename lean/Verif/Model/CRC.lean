import Verif.Model.ModeS
/-!
# `pkg/modes/reader/crc.go`
-/
namespace Modes

/-- The three-byte `crc` slice of `computeParity` (`crcLength = 3`). -/
structure CrcReg where
  c0 : UInt8
  c1 : UInt8
  c2 : UInt8
  deriving DecidableEq, Repr

/-- "Get next bit from message", crc.go:138-143: `c2` is the last byte of the register. The guarded `data[byteIdx]` (line
141) is a `match` on the element. -/
def crcNextBit (data : List UInt8) (c2 : UInt8) (i : Nat) : UInt8 :=
  let byteIdx := (3 * 8 + i) / 8
  let bitShift := UInt8.ofNat (7 - i % 8)
  match data[byteIdx]? with
  | some b => c2 ||| ((b >>> bitShift) &&& 0x1)
  | none => c2

/-- One turn of the loop of `computeParity`, crc.go:126-151, with the inner loops over the three bytes unrolled and
`crcPolynomial = {0xFF, 0xF4, 0x09}` (crc.go:106). -/
def crcStep (data : List UInt8) (crc : CrcReg) (i : Nat) : CrcReg :=
  let invert := (crc.c0 &&& 0x80) != 0
  let c0 := crc.c0 <<< 1
  let c0 := c0 ||| ((crc.c1 >>> 7) &&& 0x1)
  let c1 := crc.c1 <<< 1
  let c1 := c1 ||| ((crc.c2 >>> 7) &&& 0x1)
  let c2 := crc.c2 <<< 1
  let c2 := crcNextBit data c2 i
  if invert then { c0 := c0 ^^^ 0xFF, c1 := c1 ^^^ 0xF4, c2 := c2 ^^^ 0x09 }
  else { c0 := c0, c1 := c1, c2 := c2 }

/-- `computeParity`, crc.go:115-154. -/
def computeParity (data : List UInt8) : Go UInt32 := do
  let crc : CrcReg := { c0 := ← idx data 0, c1 := ← idx data 1, c2 := ← idx data 2 }
  let crc := (List.range (data.length * 8)).foldl (crcStep data) crc
  return pack3 crc.c0 crc.c1 crc.c2

/-- A Go `map[common.ICAOAddress]bool`: its entries (at most one per key), nil being the empty map. -/
abbrev AllowList := List (UInt32 × Bool)

/-- `_, ok := m[k]` -/
def AllowList.has (m : AllowList) (k : UInt32) : Bool := m.any (fun e => e.1 == k)

/-- `checkCRCDF11`, crc.go:43-62. -/
def checkCRCDF11 (data : List UInt8) (allowed : AllowList) : Go UInt32 := do
  let contentParity ← computeParity (← sliceTo data 4)
  let messageParity := pack3 (← idx data 4) (← idx data 5) (← idx data 6)
  let interrogatorIdentifier := contentParity ^^^ messageParity
  if allowed.length > 0 then
    if !allowed.has interrogatorIdentifier then
      fail
  return interrogatorIdentifier

/-- `checkCRCDF17And18`, crc.go:64-78. -/
def checkCRCDF17And18 (data : List UInt8) : Go UInt32 := do
  let messageICAO := pack3 (← idx data 1) (← idx data 2) (← idx data 3)
  let contentParity ← computeParity (← sliceTo data 11)
  let messageParity := pack3 (← idx data 11) (← idx data 12) (← idx data 13)
  if contentParity ≠ messageParity then
    fail
  return messageICAO

/-- `checkCRCOther`, crc.go:80-100. (`messageLength-3` is an `int`; a slice shorter than three bytes panics, which is what
`idx`/`sliceTo` at a truncated index would not show, hence the explicit test.) -/
def checkCRCOther (data : List UInt8) (allowed : AllowList) : Go UInt32 := do
  let messageLength := data.length
  if messageLength < 3 then goPanic
  let contentParity ← computeParity (← sliceTo data (messageLength - 3))
  let messageParity := pack3 (← idx data (messageLength - 3)) (← idx data (messageLength - 2))
    (← idx data (messageLength - 1))
  let address := contentParity ^^^ messageParity
  if allowed.length > 0 then
    if !allowed.has address then
      fail
  return address

/-- `CheckCRC`, crc.go:27-41. -/
def checkCRC (message : ModeSMessage) (data : List UInt8) (allowedAddresses allowedInterrogators : AllowList) :
    Go UInt32 :=
  match message.getDownLinkFormat with
  | 11 => checkCRCDF11 data allowedInterrogators
  | 17 | 18 => checkCRCDF17And18 data
  | _ => checkCRCOther data allowedAddresses

end Modes
