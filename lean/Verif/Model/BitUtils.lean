import Verif.Model.Go
/-!
# `pkg/bitutils`
-/
namespace Modes

/-- `bitutils.Pack2Bytes`, pkg/bitutils/bitutils.go:12-14. -/
def pack2 (b1 b0 : UInt8) : UInt16 := (b1.toUInt16 <<< 8) + b0.toUInt16

/-- `bitutils.Pack3Bytes`, pkg/bitutils/bitutils.go:26-28. -/
def pack3 (b2 b1 b0 : UInt8) : UInt32 := (b2.toUInt32 <<< 16) + (b1.toUInt32 <<< 8) + b0.toUInt32

/-- `bitutils.Pack4Bytes`, pkg/bitutils/bitutils.go:41-43. -/
def pack4 (b3 b2 b1 b0 : UInt8) : UInt32 :=
  (b3.toUInt32 <<< 24) + (b2.toUInt32 <<< 16) + (b1.toUInt32 <<< 8) + b0.toUInt32

/-- One `if b { result |= m }` step on a `byte`. -/
def orIf8 (r : UInt8) (b : Bool) (m : UInt8) : UInt8 := if b then r ||| m else r
/-- One `if b { result |= m }` step on a `uint16`. -/
def orIf16 (r : UInt16) (b : Bool) (m : UInt16) : UInt16 := if b then r ||| m else r

/-- `Pack8Bits`, pkg/bitutils/bitutils.go:55-83. -/
def pack8Bits (b7 b6 b5 b4 b3 b2 b1 b0 : Bool) : UInt8 :=
  let result : UInt8 := 0
  let result := orIf8 result b7 0x80
  let result := orIf8 result b6 0x40
  let result := orIf8 result b5 0x20
  let result := orIf8 result b4 0x10
  let result := orIf8 result b3 0x08
  let result := orIf8 result b2 0x04
  let result := orIf8 result b1 0x02
  orIf8 result b0 0x01

/-- `Pack16Bits`, pkg/bitutils/bitutils.go:95-147. -/
def pack16Bits (b15 b14 b13 b12 b11 b10 b9 b8 b7 b6 b5 b4 b3 b2 b1 b0 : Bool) : UInt16 :=
  let result : UInt16 := 0
  let result := orIf16 result b15 0x8000
  let result := orIf16 result b14 0x4000
  let result := orIf16 result b13 0x2000
  let result := orIf16 result b12 0x1000
  let result := orIf16 result b11 0x0800
  let result := orIf16 result b10 0x0400
  let result := orIf16 result b9 0x0200
  let result := orIf16 result b8 0x0100
  let result := orIf16 result b7 0x0080
  let result := orIf16 result b6 0x0040
  let result := orIf16 result b5 0x0020
  let result := orIf16 result b4 0x0010
  let result := orIf16 result b3 0x0008
  let result := orIf16 result b2 0x0004
  let result := orIf16 result b1 0x0002
  orIf16 result b0 0x0001

/-- `grayToBinary`, pkg/bitutils/gillham.go:69-79. -/
def grayToBinary (num : UInt16) : UInt16 :=
  let temp := num ^^^ (num >>> 8)
  let temp := temp ^^^ (temp >>> 4)
  let temp := temp ^^^ (temp >>> 2)
  temp ^^^ (temp >>> 1)

/-- `GillhamToAltitude`, pkg/bitutils/gillham.go:6-67. The `int32` arithmetic is done in `Int`; the values stay
between -1300 and 255*500. `int32(grayToBinary(..))` is at most 511. -/
def gillhamToAltitude (d1 d2 d4 a1 a2 a4 b1 b2 b4 c1 c2 c4 : Bool) : Go Int :=
  let f : UInt16 := 0
  let f := orIf16 f d1 0x0100
  let f := orIf16 f d2 0x0080
  let f := orIf16 f d4 0x0040
  let f := orIf16 f a1 0x0020
  let f := orIf16 f a2 0x0010
  let f := orIf16 f a4 0x0008
  let f := orIf16 f b1 0x0004
  let f := orIf16 f b2 0x0002
  let f := orIf16 f b4 0x0001
  let h : UInt16 := 0
  let h := orIf16 h c1 0x0004
  let h := orIf16 h c2 0x0002
  let h := orIf16 h c4 0x0001
  let oneHundred : Int := (grayToBinary h).toNat
  let fiveHundred : Int := (grayToBinary f).toNat
  if oneHundred = 5 ∨ oneHundred = 6 ∨ oneHundred = 0 then
    fail
  else
    let oneHundred := if oneHundred = 7 then 5 else oneHundred
    let oneHundred := if fiveHundred % 2 ≠ 0 then 6 - oneHundred else oneHundred
    .ok ((fiveHundred * 500 + oneHundred * 100) - 1300)

end Modes
