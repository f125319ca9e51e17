import Verif.Model.Alias
/-!
# Calls of `ReadMessage` made at the same time

Several goroutines call `reader.ReadMessage` on slices of one heap, while others allocate and write. A schedule is a list of events, in the
order in which they reach the memory. The steps of a call: the decoding of the message and the allocation of the byte field (one step), each
load of a byte of the payload, each store into the field, and the return. Simplifications: the loads of the decoding are one step (that they
could be spread over time without a difference is the first part of `concurrent_calls`, which holds at every point of a schedule), and the
memory is sequentially consistent (Go promises it to programs without data races, and these calls share no array that one of them writes).
-/
namespace Modes

/-- Where a call is. -/
inductive CallState
  | start
  /-- In the loop that copies the byte field, at index `k` of `n`, with the byte just loaded. -/
  | copying (m : ModeSMessage) (payload parity data : Slice) (n off k : Nat) (loaded : Option UInt8)
  | done (r : Go (ModeSMessage × MessageSlices))

/-- The next step of a call of `reader.ReadMessage`, pkg/modes/reader/reader.go:16-67, with `ReadMessageACAS`, `ReadMessageCommB`,
`ReadMessageExtendedSquitter` and `ReadMessageCommD`, pkg/modes/fields/message_acas.go:21-36, message_comm_b.go:20-29,
message_extended_squitter.go:22-31, message_comm_d.go:22-31. -/
def callStep (message : Slice) (h : Heap) : CallState → Heap × CallState
  | .start =>
    match (do
      let m ← readMessage (h.view message)
      let payload ← message.sub 1 (message.len - 3)
      let parity ← message.sub (message.len - 3) message.len
      let b0 ← h.read message 0
      return (m, payload, parity, b0) : Go (ModeSMessage × Slice × Slice × UInt8)) with
    | .error e => (h, .done (.error e))
    | .ok (m, payload, parity, b0) =>
      match copiedField (((b0 &&& 0xF8) >>> 3).toNat) with
      | none => (h, .done (.ok (m, { payload := payload, parity := parity, field := none })))
      | some (n, off) =>
        let (h, data) := h.make n
        (h, .copying m payload parity data n off 0 none)
  | .copying m payload parity data n off k none =>
    if k < n then
      match h.read payload (k + off) with
      | .error e => (h, .done (.error e))
      | .ok v => (h, .copying m payload parity data n off k (some v))
    else (h, .done (.ok (m, { payload := payload, parity := parity, field := some data })))
  | .copying m payload parity data n off k (some v) =>
    match h.write data k v with
    | .error e => (h, .done (.error e))
    | .ok h => (h, .copying m payload parity data n off (k + 1) none)
  | .done r => (h, .done r)

/-- What happens next: a step of one of the calls, or another goroutine allocates an array or writes to a slice. -/
inductive Event
  | call (i : Nat)
  | make (n : Nat)
  | write (s : Slice) (i : Nat) (v : UInt8)
  deriving DecidableEq

/-- The heap and the states of the calls. -/
structure Calls where
  heap : Heap
  states : List CallState

/-- One event; `messages` are the arguments of the calls. -/
def Calls.step (messages : List Slice) (c : Calls) : Event → Calls
  | .call i =>
    match messages[i]?, c.states[i]? with
    | some message, some state =>
      let (h, state) := callStep message c.heap state
      { heap := h, states := c.states.set i state }
    | _, _ => c
  | .make n => { c with heap := (c.heap.make n).1 }
  | .write s i v =>
    match c.heap.write s i v with
    | .ok h => { c with heap := h }
    | .error _ => c

/-- A schedule of events, from the beginning of the calls. -/
def runCalls (h : Heap) (messages : List Slice) (schedule : List Event) : Calls :=
  schedule.foldl (Calls.step messages) { heap := h, states := messages.map fun _ => .start }

end Modes
