import Verif.Model.ModeS
/-!
# Slices as views of arrays

The list model of `Verif.Model.ModeS` forgets that a Go slice is a view of an array that others can write to. Here
`ReadMessage` is modelled once more with an explicit heap, for the slice-valued parts of a message only.
-/
namespace Modes

/-- The heap: array number `i` is `arrays[i]`. -/
structure Heap where
  arrays : List (List UInt8)
  deriving DecidableEq, Repr

/-- A slice: array, offset, length (the capacity is not needed: nothing is appended). -/
structure Slice where
  arr : Nat
  off : Nat
  len : Nat
  deriving DecidableEq, Repr

/-- The bytes seen through a slice. -/
def Heap.view (h : Heap) (s : Slice) : List UInt8 := ((h.arrays.getD s.arr []).drop s.off).take s.len

/-- `s[i]` -/
def Heap.read (h : Heap) (s : Slice) (i : Nat) : Go UInt8 := idx (h.view s) i

/-- `s[i] = v` -/
def Heap.write (h : Heap) (s : Slice) (i : Nat) (v : UInt8) : Go Heap :=
  if i < (h.view s).length then
    .ok { arrays := h.arrays.modify s.arr (fun a => a.set (s.off + i) v) }
  else goPanic

/-- `make([]byte, n)`: a new array. -/
def Heap.make (h : Heap) (n : Nat) : Heap × Slice :=
  ({ arrays := h.arrays ++ [List.replicate n 0] }, { arr := h.arrays.length, off := 0, len := n })

/-- `s[i:j]` -/
def Slice.sub (s : Slice) (i j : Nat) : Go Slice :=
  if i ≤ j ∧ j ≤ s.len then .ok { arr := s.arr, off := s.off + i, len := j - i } else goPanic

/-- The loop `for i := k; i < n; i++ { data[i] = payload[i+off] }` with `todo = n - k` turns left: message_acas.go:31-33,
message_comm_b.go:24-26, message_comm_d.go:26-28, message_extended_squitter.go:26-28 (pkg/modes/fields). -/
def copyLoop (payload data : Slice) (off k : Nat) : Nat → Heap → Go Heap
  | 0, h => .ok h
  | todo + 1, h => do
    let v ← h.read payload (k + off)
    let h ← h.write data k v
    copyLoop payload data off (k + 1) todo h

/-- `ReadMessageACAS`, `ReadMessageCommB`, `ReadMessageExtendedSquitter` (`n = 7, off = 3`) and `ReadMessageCommD`
(`n = 10, off = 0`), pkg/modes/fields/message_*.go: allocate, then copy. -/
def readFieldH (h : Heap) (payload : Slice) (n off : Nat) : Go (Heap × Slice) := do
  let (h, data) := h.make n
  let h ← copyLoop payload data off 0 n h
  return (h, data)

/-- The slices of a returned message. -/
structure MessageSlices where
  payload : Slice
  parity : Slice
  /-- MV, MB, ME or MD, when the format has one. -/
  field : Option Slice
  deriving DecidableEq, Repr

/-- Size and offset of the byte field a format copies, by downlink format: df16.go:62, df17.go:51, df18.go:51,
df20.go:62, df21.go:54, df24.go:51 (pkg/modes/messages). -/
def copiedField (df : Nat) : Option (Nat × Nat) :=
  if df = 16 ∨ df = 17 ∨ df = 18 ∨ df = 20 ∨ df = 21 then some (7, 3)
  else if 24 ≤ df ∧ df ≤ 31 then some (10, 0)
  else none

/-- `reader.ReadMessage` on the heap, pkg/modes/reader/reader.go:16-67: `Payload` and `Parity` are sub-slices of the
input (lines 25, 26), the byte field is a fresh array. The value-typed fields of the message are those of `readMessage`
on the bytes seen at the time of the call. -/
def readMessageH (h : Heap) (message : Slice) : Go (Heap × ModeSMessage × MessageSlices) := do
  let m ← readMessage (h.view message)
  let payload ← message.sub 1 (message.len - 3)
  let parity ← message.sub (message.len - 3) message.len
  let b0 ← h.read message 0
  match copiedField (((b0 &&& 0xF8) >>> 3).toNat) with
  | none => return (h, m, { payload := payload, parity := parity, field := none })
  | some (n, off) =>
    let (h, s) ← readFieldH h payload n off
    return (h, m, { payload := payload, parity := parity, field := some s })

/-- The byte field of a message in the value model. -/
def ModeSMessage.byteField : ModeSMessage → Option (List UInt8)
  | .df16 m => some m.messageACAS
  | .df17 m => some m.messageExtendedSquitter
  | .df18 m => some m.messageExtendedSquitter
  | .df20 m => some m.messageCommB
  | .df21 m => some m.messageCommB
  | .df24 m => some m.messageCommD
  | _ => none

end Modes
