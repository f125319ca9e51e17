import Verif.Props.Concurrent
/-!
# C105: examples

Two calls on the same DF17 frame and one on seven bytes that overlap it, their steps interleaved with the allocations and writes of another
goroutine.
-/
namespace Modes

/-- A frame in a buffer, and a buffer of another goroutine. -/
def twoBuffers : Heap :=
  ⟨[[0, 0x8D, 0x48, 0x40, 0xD6, 0x20, 0x2C, 0xC3, 0x71, 0xC3, 0x2C, 0xE0, 0x57, 0x60, 0x98], [1, 2, 3]]⟩

def threeCalls : List Slice := [⟨0, 1, 14⟩, ⟨0, 1, 14⟩, ⟨0, 0, 7⟩]

/-- The calls take turns, and between two turns the other goroutine allocates and writes. -/
def turns : Nat → List Event
  | 0 => []
  | n + 1 => .call 1 :: .make 3 :: .call 0 :: .write ⟨1, 0, 3⟩ 1 0xFF :: .call 2 :: turns n

theorem turns_writes (n : Nat) (s : Slice) (i : Nat) (v : UInt8) (h : Event.write s i v ∈ turns n) : s = ⟨1, 0, 3⟩ := by
  induction n with
  | zero => cases h
  | succ n ih =>
    unfold turns at h
    simp only [List.mem_cons] at h
    rcases h with h | h | h | h | h | h
    · cases h
    · cases h
    · cases h
    · injection h
    · cases h
    · exact ih h

example : (∀ m ∈ threeCalls, m.Valid twoBuffers) ∧ Quiet twoBuffers threeCalls (turns 22) ∧
    ∀ i < threeCalls.length, 22 ≤ (turns 22).count (.call i) := by
  have hv : ∀ m ∈ threeCalls, m.Valid twoBuffers := by
    intro m hm
    simp only [threeCalls, List.mem_cons, List.not_mem_nil, or_false] at hm
    rcases hm with rfl | rfl | rfl <;> exact ⟨by decide, by decide⟩
  refine ⟨hv, quiet_old _ _ hv _ ?_, by decide +kernel⟩
  intro s i v h
  rw [turns_writes _ _ _ _ h]
  decide

set_option maxRecDepth 8000 in
/-- What the calls of `concurrent_calls` end with in this schedule: two messages with their own copies of ME. -/
example : ∃ v1 m1 v2 m2 r3 f1 f2, (runCalls twoBuffers threeCalls (turns 22)).states = [.done (.ok (v1, m1)), .done (.ok (v2, m2)), .done r3] ∧
    m1.field = some f1 ∧ m2.field = some f2 ∧ f1.arr ≠ f2.arr ∧
    (runCalls twoBuffers threeCalls (turns 22)).heap.view f1 = [0x20, 0x2C, 0xC3, 0x71, 0xC3, 0x2C, 0xE0] ∧
    (runCalls twoBuffers threeCalls (turns 22)).heap.view f2 = [0x20, 0x2C, 0xC3, 0x71, 0xC3, 0x2C, 0xE0] :=
  ⟨_, _, _, _, _, _, _, rfl, rfl, rfl, by decide, by decide +kernel, by decide +kernel⟩

set_option maxRecDepth 8000 in
/-- The condition `Quiet` is needed: a goroutine that writes to the frame while it is copied gives a field that is neither the old one nor
the new one. -/
example : ∃ v m f, (runCalls twoBuffers [⟨0, 1, 14⟩]
      (List.replicate 6 (.call 0) ++ [.write ⟨0, 0, 15⟩ 5 0xAA, .write ⟨0, 0, 15⟩ 11 0xBB] ++ List.replicate 16 (.call 0))).states =
        [.done (.ok (v, m))] ∧ m.field = some f ∧
    (runCalls twoBuffers [⟨0, 1, 14⟩]
      (List.replicate 6 (.call 0) ++ [.write ⟨0, 0, 15⟩ 5 0xAA, .write ⟨0, 0, 15⟩ 11 0xBB] ++ List.replicate 16 (.call 0))).heap.view f =
        [0x20, 0x2C, 0xC3, 0x71, 0xC3, 0x2C, 0xBB] :=
  ⟨_, _, _, rfl, rfl, by decide +kernel⟩

/-- `call_alone` on the frame. -/
example : ∃ h' m ms, readMessageH twoBuffers ⟨0, 1, 14⟩ = .ok (h', m, ms) ∧
    (fun p : Heap × CallState => callStep ⟨0, 1, 14⟩ p.1 p.2)^[30] (twoBuffers, .start) = (h', .done (.ok (m, ms))) :=
  ⟨_, _, _, rfl, call_alone twoBuffers ⟨0, 1, 14⟩ 30 (by decide)⟩

end Modes
