import Verif.Model.Concurrent
import Verif.Props.Alias
import Mathlib.Data.List.Induction
import Mathlib.Logic.Function.Iterate
/-!
# C105: calls of `ReadMessage` made at the same time

Any number of calls, on slices that may overlap, in any interleaving of their steps with each other and with what other goroutines allocate
and write.
-/
set_option linter.unusedSimpArgs false
open Spec
namespace Modes

/-- The array of the byte field a call has allocated. -/
def CallState.array : CallState → Option Nat
  | .start => none
  | .copying _ _ _ data _ _ _ _ => some data.arr
  | .done (.ok (_, ms)) => ms.field.map Slice.arr
  | .done (.error _) => none

/-- C105: the other goroutines write neither to the frames being read nor to the byte fields of the messages returned. -/
def Quiet (h : Heap) (messages : List Slice) (schedule : List Event) : Prop :=
  ∀ before s i v after, schedule = before ++ .write s i v :: after →
    (∀ m ∈ messages, s.arr ≠ m.arr) ∧ ∀ state ∈ (runCalls h messages before).states, state.array ≠ some s.arr

/-- The bytes of the byte field of a frame. -/
def fieldBytes (f : List UInt8) (n off : Nat) : List UInt8 := (((f.take (f.length - 3)).drop 1).drop off).take n

/-- What is true of a call at every point. -/
def CallOk (h0 h : Heap) (s : Slice) : CallState → Prop
  | .start => True
  | .copying m payload parity data n off k loaded =>
    readMessage (h0.view s) = .ok m ∧ payload = ⟨s.arr, s.off + 1, s.len - 3 - 1⟩ ∧
    parity = ⟨s.arr, s.off + (s.len - 3), s.len - (s.len - 3)⟩ ∧ copiedField (bits (h0.view s) 1 5) = some (n, off) ∧
    h0.arrays.length ≤ data.arr ∧ data.off = 0 ∧ data.len = n ∧ k ≤ n ∧
    h.arrays[data.arr]? = some ((fieldBytes (h0.view s) n off).take k ++ List.replicate (n - k) 0) ∧
    ∀ v, loaded = some v → (fieldBytes (h0.view s) n off)[k]? = some v
  | .done (.error e) => readMessage (h0.view s) = .error e
  | .done (.ok (m, ms)) =>
    readMessage (h0.view s) = .ok m ∧ ms.payload = ⟨s.arr, s.off + 1, s.len - 3 - 1⟩ ∧
    ms.parity = ⟨s.arr, s.off + (s.len - 3), s.len - (s.len - 3)⟩ ∧
    match copiedField (bits (h0.view s) 1 5) with
    | none => ms.field = none
    | some (n, off) => ∃ data, ms.field = some data ∧ h0.arrays.length ≤ data.arr ∧ data.off = 0 ∧ data.len = n ∧
      h.arrays[data.arr]? = some (fieldBytes (h0.view s) n off)

theorem callOk_mono (h0 h h' : Heap) (s : Slice) (st : CallState)
    (hh : ∀ a, st.array = some a → h'.arrays[a]? = h.arrays[a]?) (hok : CallOk h0 h s st) : CallOk h0 h' s st := by
  match st with
  | .start => trivial
  | .copying m payload parity data n off k loaded =>
    obtain ⟨a1, a2, a3, a4, a5, a6, a7, a8, a9, a10⟩ := hok
    exact ⟨a1, a2, a3, a4, a5, a6, a7, a8, by rw [hh _ rfl]; exact a9, a10⟩
  | .done (.error e) => exact hok
  | .done (.ok (m, ms)) =>
    obtain ⟨a1, a2, a3, a4⟩ := hok
    refine ⟨a1, a2, a3, ?_⟩
    cases hc : copiedField (bits (h0.view s) 1 5) with
    | none => rw [hc] at a4; exact a4
    | some p =>
      rw [hc] at a4
      obtain ⟨data, b1, b2, b3, b4, b5⟩ := a4
      exact ⟨data, b1, b2, b3, b4, by rw [hh data.arr (by simp [CallState.array, b1])]; exact b5⟩

theorem callOk_array (h0 h : Heap) (s : Slice) (st : CallState) (hok : CallOk h0 h s st) (a : Nat) (ha : st.array = some a) :
    h0.arrays.length ≤ a ∧ a < h.arrays.length := by
  match st with
  | .start => cases ha
  | .copying m payload parity data n off k loaded =>
    obtain ⟨a1, a2, a3, a4, a5, a6, a7, a8, a9, a10⟩ := hok
    injection ha with ha
    subst ha
    exact ⟨a5, (List.getElem?_eq_some_iff.1 a9).1⟩
  | .done (.error e) => cases ha
  | .done (.ok (m, ms)) =>
    obtain ⟨a1, a2, a3, a4⟩ := hok
    cases hc : copiedField (bits (h0.view s) 1 5) with
    | none => rw [hc] at a4; simp [CallState.array, show ms.field = none from a4] at ha
    | some p =>
      rw [hc] at a4
      obtain ⟨data, b1, b2, b3, b4, b5⟩ := a4
      simp only [CallState.array, b1, Option.map_some, Option.some.injEq] at ha
      subst ha
      exact ⟨b2, (List.getElem?_eq_some_iff.1 b5).1⟩

theorem view_arrays (h h' : Heap) (s : Slice) (e : h'.arrays[s.arr]? = h.arrays[s.arr]?) : h'.view s = h.view s := by
  unfold Heap.view
  simp only [List.getD_eq_getElem?_getD, e]

/-- How many steps a call still has to take. -/
def CallState.left : CallState → Nat
  | .start => 22
  | .copying _ _ _ _ n _ k none => 2 * (n - k) + 1
  | .copying _ _ _ _ n _ k (some _) => 2 * (n - k)
  | .done _ => 0

/-- One step of a call: what it leaves true, what it leaves alone, and that it gets closer to the end. -/
theorem callStep_ok (h0 h : Heap) (s : Slice) (hs : s.Valid h0) (st : CallState) (hle : h0.arrays.length ≤ h.arrays.length)
    (hin : h.arrays[s.arr]? = h0.arrays[s.arr]?) (hok : CallOk h0 h s st) :
    CallOk h0 (callStep s h st).1 s (callStep s h st).2 ∧
    (∀ a, a < h.arrays.length → st.array ≠ some a → (callStep s h st).1.arrays[a]? = h.arrays[a]?) ∧
    h.arrays.length ≤ (callStep s h st).1.arrays.length ∧
    (∀ a, (callStep s h st).2.array = some a → st.array = some a ∨ a = h.arrays.length) ∧
    (callStep s h st).2.left ≤ st.left - 1 := by
  obtain ⟨ha, hl⟩ := hs
  have hview : h.view s = h0.view s := view_arrays h0 h s hin
  match st with
  | .start =>
    unfold callStep
    rw [hview]
    cases hm : readMessage (h0.view s) with
    | error e =>
      rw [go_bind_err]
      exact ⟨hm, fun _ _ _ => rfl, Nat.le_refl _, (fun a h => nomatch h), Nat.zero_le _⟩
    | ok m =>
      have hlen : s.len = 7 ∨ s.len = 14 := by
        rw [← hl]
        rcases ((readMessage_accepts_iff _).1 ⟨_, hm⟩).1 with h | h <;> simp [h.1]
      rw [go_bind_ok]
      have s1 : s.sub 1 (s.len - 3) = .ok ⟨s.arr, s.off + 1, s.len - 3 - 1⟩ := by
        unfold Slice.sub; rw [if_pos (by omega)]
      have s2 : s.sub (s.len - 3) s.len = .ok ⟨s.arr, s.off + (s.len - 3), s.len - (s.len - 3)⟩ := by
        unfold Slice.sub; rw [if_pos (by omega)]
      have h0' : 0 < (h0.view s).length := by omega
      have hr : h.read s 0 = .ok (h0.view s)[0] := by
        unfold Heap.read idx; rw [hview, List.getElem?_eq_getElem h0']
      rw [s1, s2, go_bind_ok, go_bind_ok, hr, go_bind_ok]
      simp only [pure, Except.pure, df_of_first (h0.view s) _ (List.getElem?_eq_getElem h0')]
      cases hc : copiedField (bits (h0.view s) 1 5) with
      | none =>
        refine ⟨⟨hm, rfl, rfl, ?_⟩, fun _ _ _ => rfl, Nat.le_refl _, (fun a h => nomatch h), Nat.zero_le _⟩
        rw [hc]
      | some p =>
        obtain ⟨n, off⟩ := p
        have hn : n ≤ 10 := by
          unfold copiedField at hc
          split at hc
          · injection hc with hc; injection hc with hc1 hc2; omega
          · split at hc
            · injection hc with hc; injection hc with hc1 hc2; omega
            · cases hc
        refine ⟨⟨hm, rfl, rfl, hc, hle, rfl, rfl, Nat.zero_le _, ?_, (fun v hv => nomatch hv)⟩, ?_, ?_, ?_, ?_⟩
        · simp [Heap.make]
        · intro a ha' _
          simp only [Heap.make]
          rw [List.getElem?_append_left ha']
        · simp [Heap.make]
        · intro a h
          injection h with h
          exact .inr h.symm
        · show 2 * (n - 0) + 1 ≤ 22 - 1
          omega
  | .copying m payload parity data n off k none =>
    obtain ⟨a1, a2, a3, a4, a5, a6, a7, a8, a9, a10⟩ := hok
    obtain ⟨hb, hfit⟩ := byteField_eq _ m a1
    have hfit := hfit _ a4
    simp only at hfit
    have hlF : (fieldBytes (h0.view s) n off).length = n := by
      unfold fieldBytes
      simp only [List.length_take, List.length_drop]
      omega
    have hstep : callStep s h (.copying m payload parity data n off k none) =
        if k < n then
          match h.read payload (k + off) with
          | .error e => (h, .done (.error e))
          | .ok v => (h, .copying m payload parity data n off k (some v))
        else (h, .done (.ok (m, { payload := payload, parity := parity, field := some data }))) := rfl
    rw [hstep]
    by_cases hk : k < n
    · rw [if_pos hk]
      have hv : h.view payload = ((h0.view s).take ((h0.view s).length - 3)).drop 1 := by
        rw [a2, sub_view h s 1 (s.len - 3) (by rw [hl] at hfit; omega) (by omega), hview, hl]
      have hkF : k < (fieldBytes (h0.view s) n off).length := by omega
      have hrd : h.read payload (k + off) = .ok (fieldBytes (h0.view s) n off)[k] := by
        unfold Heap.read idx
        have : (h.view payload)[k + off]? = some (fieldBytes (h0.view s) n off)[k] := by
          rw [← List.getElem?_eq_getElem hkF, hv]
          unfold fieldBytes
          rw [List.getElem?_take_of_lt hk]
          simp only [List.getElem?_drop]
          congr 1
          omega
        rw [this]
      rw [hrd]
      refine ⟨⟨a1, a2, a3, a4, a5, a6, a7, a8, a9, ?_⟩, fun _ _ _ => rfl, Nat.le_refl _, fun a h => .inl h, ?_⟩
      · intro v hv'
        injection hv' with hv'
        rw [← hv', List.getElem?_eq_getElem hkF]
      · show 2 * (n - k) ≤ 2 * (n - k) + 1 - 1
        omega
    · rw [if_neg hk]
      refine ⟨⟨a1, a2, a3, ?_⟩, fun _ _ _ => rfl, Nat.le_refl _, fun a h => .inl h, Nat.zero_le _⟩
      rw [a4]
      refine ⟨data, rfl, a5, a6, a7, ?_⟩
      have hkn : k = n := by omega
      rw [a9, hkn, Nat.sub_self, List.take_of_length_le (by omega)]
      simp
  | .copying m payload parity data n off k (some v) =>
    obtain ⟨a1, a2, a3, a4, a5, a6, a7, a8, a9, a10⟩ := hok
    have hF := a10 v rfl
    have hkF : k < (fieldBytes (h0.view s) n off).length := (List.getElem?_eq_some_iff.1 hF).1
    have hkn : k < n := by
      unfold fieldBytes at hkF
      simp only [List.length_take] at hkF
      omega
    have hvd : (h.view data).length = n := by
      unfold Heap.view
      simp only [List.getD_eq_getElem?_getD, a9, a6, a7]
      simp only [Option.getD_some, List.drop_zero, List.length_take, List.length_append, List.length_replicate]
      omega
    have hw : h.write data k v = .ok { arrays := h.arrays.modify data.arr (fun a => a.set (data.off + k) v) } := by
      unfold Heap.write
      rw [if_pos (by omega)]
    have hstep : callStep s h (.copying m payload parity data n off k (some v)) =
        match h.write data k v with
        | .error e => (h, .done (.error e))
        | .ok h => (h, .copying m payload parity data n off (k + 1) none) := rfl
    rw [hstep, hw]
    refine ⟨⟨a1, a2, a3, a4, a5, a6, a7, hkn, ?_, (fun v hv => nomatch hv)⟩, ?_, ?_, fun a h => .inl h, ?_⟩
    · simp only [List.getElem?_modify, if_true, a9, a6, Nat.zero_add]
      simp only [Option.map_eq_map, Option.map_some, Option.some.injEq]
      have hlt : ((fieldBytes (h0.view s) n off).take k).length = k := by rw [List.length_take]; omega
      rw [List.set_append_right _ _ (by omega), hlt, Nat.sub_self]
      have hrep : List.replicate (n - k) (0 : UInt8) = 0 :: List.replicate (n - (k + 1)) 0 := by
        rw [← List.replicate_succ]; congr 1; omega
      rw [hrep, List.set_cons_zero, List.take_succ, hF]
      simp
    · intro a _ hne
      simp only [List.getElem?_modify]
      simp [show ¬ data.arr = a from fun e => hne (by rw [← e]; rfl)]
    · simp
    · show 2 * (n - (k + 1)) + 1 ≤ 2 * (n - k) - 1
      omega
  | .done r =>
    exact ⟨hok, fun _ _ _ => rfl, Nat.le_refl _, fun a h => .inl h, Nat.zero_le _⟩

/-- What is true at every point of a schedule. -/
structure CallsOk (h0 : Heap) (messages : List Slice) (c : Calls) : Prop where
  len : c.states.length = messages.length
  grows : h0.arrays.length ≤ c.heap.arrays.length
  inputs : ∀ m ∈ messages, c.heap.arrays[m.arr]? = h0.arrays[m.arr]?
  calls : ∀ (i : Nat) m st, messages[i]? = some m → c.states[i]? = some st → CallOk h0 c.heap m st
  apart : ∀ (i j : Nat) sti stj a, i ≠ j → c.states[i]? = some sti → c.states[j]? = some stj → sti.array = some a → stj.array ≠ some a

theorem write_arrays (h h' : Heap) (s : Slice) (i : Nat) (v : UInt8) (hw : h.write s i v = .ok h') (a : Nat) (hne : s.arr ≠ a) :
    h'.arrays[a]? = h.arrays[a]? := by
  unfold Heap.write at hw
  split at hw
  · injection hw with hw
    subst hw
    simp only [List.getElem?_modify]
    simp [hne]
  · cases hw

theorem mem_of_get {α : Type} {l : List α} {i : Nat} {x : α} (h : l[i]? = some x) : x ∈ l := List.mem_of_getElem? h

theorem callsStep_ok (h0 : Heap) (messages : List Slice) (hv : ∀ m ∈ messages, m.Valid h0) (c : Calls) (hc : CallsOk h0 messages c)
    (e : Event)
    (hq : ∀ s i v, e = .write s i v → (∀ m ∈ messages, s.arr ≠ m.arr) ∧ ∀ state ∈ c.states, state.array ≠ some s.arr) :
    CallsOk h0 messages (c.step messages e) ∧
    ∀ (i : Nat) st, c.states[i]? = some st → ∃ st', (c.step messages e).states[i]? = some st' ∧
      st'.left ≤ st.left - (if e = .call i then 1 else 0) := by
  have hsame : ∀ h' : Heap, h0.arrays.length ≤ h'.arrays.length → (∀ m ∈ messages, h'.arrays[m.arr]? = c.heap.arrays[m.arr]?) →
      (∀ st ∈ c.states, ∀ a, st.array = some a → h'.arrays[a]? = c.heap.arrays[a]?) →
      CallsOk h0 messages { c with heap := h' } := by
    intro h' g1 g2 g3
    refine ⟨hc.len, g1, fun m hm => by rw [← hc.inputs m hm]; exact g2 m hm, ?_, hc.apart⟩
    intro i m st hi hst
    exact callOk_mono h0 c.heap h' m st (g3 st (mem_of_get hst)) (hc.calls i m st hi hst)
  have htriv : ∀ (i : Nat) st, c.states[i]? = some st → ∃ st', c.states[i]? = some st' ∧ st'.left ≤ st.left - 0 :=
    fun i st h => ⟨st, h, Nat.le_refl _⟩
  have hown : ∀ st ∈ c.states, ∀ a, st.array = some a → a < c.heap.arrays.length := by
    intro st hst a ha
    obtain ⟨i, hi, he⟩ := List.mem_iff_getElem.1 hst
    have hst' : c.states[i]? = some st := by rw [List.getElem?_eq_getElem hi, he]
    have him : i < messages.length := by rw [← hc.len]; exact hi
    exact (callOk_array _ _ _ _ (hc.calls i _ st (List.getElem?_eq_getElem him) hst') a ha).2
  match e, hq with
  | .make n, _ =>
    have hstep : c.step messages (.make n) = { c with heap := (c.heap.make n).1 } := rfl
    rw [hstep]
    refine ⟨?_, fun i st h => by simpa using htriv i st h⟩
    refine hsame _ (by simpa [Heap.make] using Nat.le_succ_of_le hc.grows) ?_ ?_
    · intro m hm
      have hlt : m.arr < c.heap.arrays.length := Nat.lt_of_lt_of_le (hv m hm).1 hc.grows
      simp only [Heap.make]
      rw [List.getElem?_append_left hlt]
    · intro st hst a ha
      simp only [Heap.make]
      rw [List.getElem?_append_left (hown st hst a ha)]
  | .write s i v, hq =>
    obtain ⟨q1, q2⟩ := hq s i v rfl
    have hstep : c.step messages (.write s i v) =
      match c.heap.write s i v with
      | .ok h => { c with heap := h }
      | .error _ => c := rfl
    rw [hstep]
    cases hw : c.heap.write s i v with
    | error e =>
      refine ⟨hc, fun i st h => by simpa using htriv i st h⟩
    | ok h' =>
      refine ⟨?_, fun i st h => by simpa using htriv i st h⟩
      refine hsame _ (by rw [write_length _ _ _ _ _ hw]; exact hc.grows) ?_ ?_
      · intro m hm
        exact write_arrays _ _ _ _ _ hw _ (q1 m hm)
      · intro st hst a ha
        refine write_arrays _ _ _ _ _ hw _ ?_
        intro he
        exact q2 st hst (by rw [ha, he])
  | .call i, _ =>
    have hstep : c.step messages (.call i) =
      match messages[i]?, c.states[i]? with
      | some message, some state =>
        { heap := (callStep message c.heap state).1, states := c.states.set i (callStep message c.heap state).2 }
      | _, _ => c := rfl
    rw [hstep]
    cases hm : messages[i]? with
    | none =>
      simp only
      refine ⟨hc, ?_⟩
      intro j st hj
      refine ⟨st, hj, ?_⟩
      have : i ≠ j := by
        intro he
        subst he
        rw [List.getElem?_eq_none_iff] at hm
        have := (List.getElem?_eq_some_iff.1 hj).1
        rw [hc.len] at this
        omega
      rw [if_neg (by intro h; injection h with h; exact this h)]
      exact Nat.le_refl _
    | some m =>
      cases hst : c.states[i]? with
      | none =>
        simp only
        refine ⟨hc, ?_⟩
        intro j st hj
        refine ⟨st, hj, ?_⟩
        have : i ≠ j := by
          intro he
          subst he
          rw [hst] at hj
          cases hj
        rw [if_neg (by intro h; injection h with h; exact this h)]
        exact Nat.le_refl _
      | some st =>
        simp only
        have hmm := mem_of_get hm
        obtain ⟨k1, k2, k3, k4, k5⟩ := callStep_ok h0 c.heap m (hv m hmm) st hc.grows (hc.inputs m hmm) (hc.calls i m st hm hst)
        have hilt : i < c.states.length := (List.getElem?_eq_some_iff.1 hst).1
        have hself : (c.states.set i (callStep m c.heap st).2)[i]? = some (callStep m c.heap st).2 := by
          rw [List.getElem?_set_self hilt]
        have hother : ∀ j, i ≠ j → (c.states.set i (callStep m c.heap st).2)[j]? = c.states[j]? :=
          fun j hj => List.getElem?_set_ne hj
        have hst_in : ∀ m' ∈ messages, (callStep m c.heap st).1.arrays[m'.arr]? = c.heap.arrays[m'.arr]? := by
          intro m' hm'
          have hlt : m'.arr < h0.arrays.length := (hv m' hm').1
          refine k2 _ (Nat.lt_of_lt_of_le hlt hc.grows) ?_
          intro ha
          have := (callOk_array _ _ _ _ (hc.calls i m st hm hst) _ ha).1
          omega
        refine ⟨⟨by simpa using hc.len, Nat.le_trans hc.grows k3, ?_, ?_, ?_⟩, ?_⟩
        · intro m' hm'
          rw [← hc.inputs m' hm']
          exact hst_in m' hm'
        · intro j m' st' hj hst'
          by_cases hij : i = j
          · subst hij
            rw [hm] at hj
            injection hj with hj
            subst hj
            change (c.states.set i (callStep m c.heap st).2)[i]? = _ at hst'
            rw [hself] at hst'
            injection hst' with hst'
            rw [← hst']
            exact k1
          · change (c.states.set i (callStep m c.heap st).2)[j]? = _ at hst'
            rw [hother j hij] at hst'
            refine callOk_mono h0 c.heap _ m' st' ?_ (hc.calls j m' st' hj hst')
            intro a ha
            refine k2 a (hown st' (mem_of_get hst') a ha) ?_
            intro ha'
            exact hc.apart i j st st' a hij hst hst' ha' ha
        · intro j l stj stl a hjl hj hl ha
          change (c.states.set i (callStep m c.heap st).2)[j]? = _ at hj
          change (c.states.set i (callStep m c.heap st).2)[l]? = _ at hl
          by_cases hij : i = j
          · subst hij
            rw [hself] at hj
            injection hj with hj
            rw [hother l hjl] at hl
            rw [← hj] at ha
            rcases k4 a ha with h | h
            · exact hc.apart i l st stl a hjl hst hl h
            · intro h'
              have := hown stl (mem_of_get hl) a h'
              omega
          · rw [hother j hij] at hj
            by_cases hil : i = l
            · subst hil
              rw [hself] at hl
              injection hl with hl
              rw [← hl]
              intro h'
              rcases k4 a h' with h | h
              · exact hc.apart j i stj st a hjl hj hst ha h
              · have := hown stj (mem_of_get hj) a ha
                omega
            · rw [hother l hil] at hl
              exact hc.apart j l stj stl a hjl hj hl ha
        · intro j st' hj
          by_cases hij : i = j
          · subst hij
            rw [hst] at hj
            injection hj with hj
            subst hj
            exact ⟨_, hself, by simpa using k5⟩
          · refine ⟨st', by rw [← hj]; exact hother j hij, ?_⟩
            rw [if_neg (by intro h; injection h with h; exact hij h)]
            exact Nat.le_refl _

theorem runCalls_append (h : Heap) (messages : List Slice) (es : List Event) (e : Event) :
    runCalls h messages (es ++ [e]) = (runCalls h messages es).step messages e := by
  unfold runCalls
  rw [List.foldl_append]
  rfl

theorem runCalls_ok (h0 : Heap) (messages : List Slice) (hv : ∀ m ∈ messages, m.Valid h0) (schedule : List Event) :
    Quiet h0 messages schedule → CallsOk h0 messages (runCalls h0 messages schedule) ∧
      ∀ i < messages.length, ∃ st, (runCalls h0 messages schedule).states[i]? = some st ∧
        st.left ≤ 22 - schedule.count (.call i) := by
  induction schedule using List.reverseRecOn with
  | nil =>
    intro _
    refine ⟨⟨by simp [runCalls], Nat.le_refl _, fun _ _ => rfl, ?_, ?_⟩, ?_⟩
    · intro i m st hi hst
      simp only [runCalls, List.foldl_nil, List.getElem?_map, hi, Option.map_some, Option.some.injEq] at hst
      subst hst
      trivial
    · intro i j sti stj a _ hi _ ha
      simp only [runCalls, List.foldl_nil, List.getElem?_map] at hi
      cases hm : messages[i]? with
      | none => rw [hm] at hi; cases hi
      | some m =>
        rw [hm] at hi
        injection hi with hi
        subst hi
        cases ha
    · intro i hi
      refine ⟨.start, ?_, Nat.le_refl _⟩
      simp [runCalls, List.getElem?_eq_getElem hi]
  | append_singleton es e ih =>
    intro hq
    have hq' : Quiet h0 messages es := by
      intro before s i v after he
      exact hq before s i v (after ++ [e]) (by rw [he]; simp)
    obtain ⟨i1, i2⟩ := ih hq'
    rw [runCalls_append]
    obtain ⟨j1, j2⟩ := callsStep_ok h0 messages hv _ i1 e
      (fun s i v he => hq es s i v [] (by rw [he]))
    refine ⟨j1, ?_⟩
    intro i hi
    obtain ⟨st, hst, hle⟩ := i2 i hi
    obtain ⟨st', hst', hle'⟩ := j2 i st hst
    refine ⟨st', hst', ?_⟩
    rw [List.count_append, List.count_singleton]
    by_cases he : e = .call i
    · rw [if_pos he] at hle'
      simp only [he, beq_self_eq_true, if_true]
      omega
    · rw [if_neg he] at hle'
      rw [if_neg (by simpa using he)]
      omega

/-- C105: any number of calls of `ReadMessage` on slices of one heap (which may be slices of the same array, or the same slice), with any
interleaving of their steps, while other goroutines allocate and write where they please except to the frames and to the returned fields.
No call changes the bytes of a frame. A call that has returned gave the error, or the message, that reading its frame alone gives; its byte
field shows the bytes of its own frame, its payload and parity are its frame's; the fields of two calls are in different arrays. And a call
has returned once it was given 22 steps, whatever the others do. -/
theorem concurrent_calls (h : Heap) (messages : List Slice) (hv : ∀ m ∈ messages, m.Valid h) (schedule : List Event)
    (hq : Quiet h messages schedule) :
    (∀ m ∈ messages, (runCalls h messages schedule).heap.view m = h.view m) ∧
    (∀ (i : Nat) m r, messages[i]? = some m → (runCalls h messages schedule).states[i]? = some (.done r) →
      (∀ e, r = .error e → readMessage (h.view m) = .error e) ∧
      ∀ v ms, r = .ok (v, ms) → readMessage (h.view m) = .ok v ∧
        v.byteField = ms.field.map (runCalls h messages schedule).heap.view ∧
        (runCalls h messages schedule).heap.view ms.payload = ((h.view m).take (m.len - 3)).drop 1 ∧
        (runCalls h messages schedule).heap.view ms.parity = (h.view m).drop (m.len - 3)) ∧
    (∀ (i j : Nat) vi mi vj mj fi fj, i ≠ j → (runCalls h messages schedule).states[i]? = some (.done (.ok (vi, mi))) →
      (runCalls h messages schedule).states[j]? = some (.done (.ok (vj, mj))) → mi.field = some fi → mj.field = some fj →
      fi.arr ≠ fj.arr) ∧
    ∀ i < messages.length, 22 ≤ schedule.count (.call i) → ∃ r, (runCalls h messages schedule).states[i]? = some (.done r) := by
  obtain ⟨hc, hleft⟩ := runCalls_ok h messages hv schedule hq
  have hviews : ∀ m ∈ messages, (runCalls h messages schedule).heap.view m = h.view m :=
    fun m hm => view_arrays h _ m (hc.inputs m hm)
  refine ⟨hviews, ?_, ?_, ?_⟩
  · intro i m r hi hst
    have hok := hc.calls i m _ hi hst
    have hm := mem_of_get hi
    obtain ⟨ha, hl⟩ := hv m hm
    refine ⟨fun e he => (by subst he; exact hok), ?_⟩
    intro v ms he
    subst he
    obtain ⟨a1, a2, a3, a4⟩ := hok
    have hlen : m.len = 7 ∨ m.len = 14 := by
      rw [← hl]
      rcases ((readMessage_accepts_iff _).1 ⟨_, a1⟩).1 with h | h <;> simp [h.1]
    refine ⟨a1, ?_, ?_, ?_⟩
    · obtain ⟨hb, hfit⟩ := byteField_eq _ v a1
      rw [hb]
      cases hcf : copiedField (bits (h.view m) 1 5) with
      | none => rw [hcf] at a4; rw [show ms.field = none from a4]; rfl
      | some p =>
        have hfit := hfit _ hcf
        rw [hcf] at a4
        obtain ⟨data, b1, b2, b3, b4, b5⟩ := a4
        rw [b1]
        simp only [Option.map_some, Option.some.injEq]
        have hvw : (runCalls h messages schedule).heap.view data = fieldBytes (h.view m) p.1 p.2 := by
          conv => lhs; unfold Heap.view
          simp only [List.getD_eq_getElem?_getD, b5, b3, b4, Option.getD_some, List.drop_zero]
          unfold fieldBytes
          rw [List.take_take, Nat.min_self]
        rw [hvw]
        rfl
    · rw [a2, sub_view _ m 1 (m.len - 3) (by omega) (by omega), hviews m hm]
    · rw [a3, sub_view _ m (m.len - 3) m.len (by omega) (by omega), hviews m hm, List.take_of_length_le (by omega)]
  · intro i j vi mi vj mj fi fj hij hi hj hfi hfj he
    refine hc.apart i j _ _ fi.arr hij hi hj ?_ ?_
    · simp [CallState.array, hfi]
    · simp [CallState.array, hfj, he]
  · intro i hi hcount
    obtain ⟨st, hst, hle⟩ := hleft i hi
    have h0 : st.left = 0 := by omega
    have hm : i < messages.length := hi
    have hok := hc.calls i _ st (List.getElem?_eq_getElem hm) hst
    match st with
    | .start => cases h0
    | .copying m payload parity data n off k none => simp [CallState.left] at h0
    | .copying m payload parity data n off k (some v) =>
      obtain ⟨a1, a2, a3, a4, a5, a6, a7, a8, a9, a10⟩ := hok
      have hkF := (List.getElem?_eq_some_iff.1 (a10 v rfl)).1
      unfold fieldBytes at hkF
      simp only [List.length_take] at hkF
      simp only [CallState.left] at h0
      omega
    | .done r => exact ⟨r, hst⟩

/-- C105, a simple case of the condition on the other goroutines: they write only to arrays that existed before the calls and are not frames. -/
theorem quiet_old (h : Heap) (messages : List Slice) (hv : ∀ m ∈ messages, m.Valid h) (schedule : List Event) :
    (∀ s i v, Event.write s i v ∈ schedule → s.arr < h.arrays.length ∧ ∀ m ∈ messages, s.arr ≠ m.arr) →
    Quiet h messages schedule := by
  induction schedule using List.reverseRecOn with
  | nil =>
    intro _ before s i v after he
    simp at he
  | append_singleton es e ih =>
    intro hw before s i v after he
    have hq := ih (fun s i v hm => hw s i v (by simp [hm]))
    rcases List.eq_nil_or_concat after with ha | ⟨after', x, ha⟩
    · subst ha
      obtain ⟨e1, e2⟩ := List.append_inj' he rfl
      injection e2 with e2
      subst e1 e2
      obtain ⟨w1, w2⟩ := hw s i v (by simp)
      refine ⟨w2, ?_⟩
      intro st hst ha
      obtain ⟨hc, _⟩ := runCalls_ok h messages hv es hq
      obtain ⟨j, hj, hje⟩ := List.mem_iff_getElem.1 hst
      have hst' : (runCalls h messages es).states[j]? = some st := by rw [List.getElem?_eq_getElem hj, hje]
      have hjm : j < messages.length := by rw [← hc.len]; exact hj
      have := (callOk_array _ _ _ _ (hc.calls j _ st (List.getElem?_eq_getElem hjm) hst') _ ha).1
      omega
    · subst ha
      rw [List.concat_eq_append, ← List.cons_append, ← List.append_assoc] at he
      obtain ⟨e1, _⟩ := List.append_inj' he rfl
      exact hq before s i v after' e1

/-- The steps of a copy loop, taken one after the other, are the copy loop. -/
theorem copying_alone (s : Slice) (m : ModeSMessage) (payload parity data : Slice) (n off : Nat) :
    ∀ (todo k : Nat) (h : Heap), k + todo = n →
    ∀ extra,
    match copyLoop payload data off k todo h with
    | .error e => ((fun p : Heap × CallState => callStep s p.1 p.2)^[2 * todo + 1 + extra]
        (h, .copying m payload parity data n off k none)).2 = .done (.error e)
    | .ok h' => (fun p : Heap × CallState => callStep s p.1 p.2)^[2 * todo + 1 + extra]
        (h, .copying m payload parity data n off k none) =
          (h', .done (.ok (m, { payload := payload, parity := parity, field := some data }))) := by
  have hdone : ∀ (t : Nat) (h : Heap) (r : Go (ModeSMessage × MessageSlices)),
      (fun p : Heap × CallState => callStep s p.1 p.2)^[t] (h, .done r) = (h, .done r) := by
    intro t
    induction t with
    | zero => intro h r; rfl
    | succ t ih => intro h r; rw [Function.iterate_succ_apply]; exact ih h r
  intro todo
  induction todo with
  | zero =>
    intro k h hk extra
    have e : 2 * 0 + 1 + extra = extra + 1 := by omega
    simp only [copyLoop, e, Function.iterate_succ_apply]
    have hstep : callStep s h (.copying m payload parity data n off k none) =
        if k < n then
          match h.read payload (k + off) with
          | .error e => (h, .done (.error e))
          | .ok v => (h, .copying m payload parity data n off k (some v))
        else (h, .done (.ok (m, { payload := payload, parity := parity, field := some data }))) := rfl
    have : callStep s h (.copying m payload parity data n off k none) =
        (h, .done (.ok (m, { payload := payload, parity := parity, field := some data }))) := by
      rw [hstep, if_neg (by omega)]
    rw [this]
    exact hdone _ _ _
  | succ todo ih =>
    intro k h hk extra
    have e : 2 * (todo + 1) + 1 + extra = (2 * todo + 1 + extra) + 1 + 1 := by omega
    unfold copyLoop
    rw [e, Function.iterate_succ_apply]
    have hstep : callStep s h (.copying m payload parity data n off k none) =
        if k < n then
          match h.read payload (k + off) with
          | .error e => (h, .done (.error e))
          | .ok v => (h, .copying m payload parity data n off k (some v))
        else (h, .done (.ok (m, { payload := payload, parity := parity, field := some data }))) := rfl
    have h1 : callStep s h (.copying m payload parity data n off k none) =
        match h.read payload (k + off) with
        | .error e => (h, .done (.error e))
        | .ok v => (h, .copying m payload parity data n off k (some v)) := by
      rw [hstep, if_pos (by omega)]
    simp only [h1]
    cases hr : h.read payload (k + off) with
    | error e => simp only [go_bind_err]; rw [hdone]
    | ok v =>
      simp only [go_bind_ok]
      rw [Function.iterate_succ_apply]
      have h2 : callStep s h (.copying m payload parity data n off k (some v)) =
          match h.write data k v with
          | .error e => (h, .done (.error e))
          | .ok h => (h, .copying m payload parity data n off (k + 1) none) := rfl
      simp only [h2]
      cases hw : h.write data k v with
      | error e => simp only [go_bind_err]; rw [hdone]
      | ok h' =>
        simp only [go_bind_ok]
        exact ih (k + 1) h' (by omega) extra

/-- C105, the steps are the call: a call that runs alone ends, after 22 steps or more, with the result and the heap of `readMessageH`
(whether the slice is valid or not). -/
theorem call_alone (h : Heap) (s : Slice) (t : Nat) (ht : 22 ≤ t) :
    match readMessageH h s with
    | .error e => ((fun p : Heap × CallState => callStep s p.1 p.2)^[t] (h, .start)).2 = .done (.error e)
    | .ok (h', m, ms) => (fun p : Heap × CallState => callStep s p.1 p.2)^[t] (h, .start) = (h', .done (.ok (m, ms))) := by
  have hdone : ∀ (t : Nat) (h : Heap) (r : Go (ModeSMessage × MessageSlices)),
      (fun p : Heap × CallState => callStep s p.1 p.2)^[t] (h, .done r) = (h, .done r) := by
    intro t
    induction t with
    | zero => intro h r; rfl
    | succ t ih => intro h r; rw [Function.iterate_succ_apply]; exact ih h r
  obtain ⟨u, rfl⟩ : ∃ u, t = u + 1 := ⟨t - 1, by omega⟩
  simp only [Function.iterate_succ_apply]
  unfold readMessageH
  cases h1 : readMessage (h.view s) with
  | error e =>
    have : callStep s h .start = (h, .done (.error e)) := by unfold callStep; rw [h1]; rfl
    simp only [go_bind_err, this, hdone]
  | ok m =>
    cases h2 : s.sub 1 (s.len - 3) with
    | error e =>
      have : callStep s h .start = (h, .done (.error e)) := by unfold callStep; rw [h1, h2]; rfl
      simp only [go_bind_err, go_bind_ok, this, hdone]
    | ok payload =>
      cases h3 : s.sub (s.len - 3) s.len with
      | error e =>
        have : callStep s h .start = (h, .done (.error e)) := by unfold callStep; rw [h1, h2, h3]; rfl
        simp only [go_bind_err, go_bind_ok, this, hdone]
      | ok parity =>
        cases h4 : h.read s 0 with
        | error e =>
          have : callStep s h .start = (h, .done (.error e)) := by unfold callStep; rw [h1, h2, h3, h4]; rfl
          simp only [go_bind_err, go_bind_ok, this, hdone]
        | ok b0 =>
          simp only [go_bind_ok]
          cases hc : copiedField (((b0 &&& 0xF8) >>> 3).toNat) with
          | none =>
            have : callStep s h .start = (h, .done (.ok (m, { payload := payload, parity := parity, field := none }))) := by
              unfold callStep
              rw [h1, h2, h3, h4]
              simp only [go_bind_ok, pure, Except.pure, hc]
            simp only [this, hdone]
            rfl
          | some p =>
            obtain ⟨n, off⟩ := p
            have hn : n ≤ 10 := by
              unfold copiedField at hc
              split at hc
              · injection hc with hc; injection hc with hc1 hc2; omega
              · split at hc
                · injection hc with hc; injection hc with hc1 hc2; omega
                · cases hc
            have : callStep s h .start = ((h.make n).1, .copying m payload parity (h.make n).2 n off 0 none) := by
              unfold callStep
              rw [h1, h2, h3, h4]
              simp only [go_bind_ok, pure, Except.pure, hc]
            rw [this]
            have key := copying_alone s m payload parity (h.make n).2 n off n 0 (h.make n).1 (by omega) (u - 1 - 2 * n)
            rw [show 2 * n + 1 + (u - 1 - 2 * n) = u by omega] at key
            unfold readFieldH
            simp only
            cases hcl : copyLoop payload (h.make n).2 off 0 n (h.make n).1 with
            | error e =>
              rw [hcl] at key
              simp only [go_bind_err]
              exact key
            | ok h' =>
              rw [hcl] at key
              simp only [go_bind_ok, pure, Except.pure]
              exact key

end Modes
