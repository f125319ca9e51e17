import Verif.Model.Alias
import Verif.Props.Frame
/-!
# C12: the byte fields of a message are copies

`Heap` histories: any sequence of writes to the array the frame was read from.
-/
set_option linter.unusedSimpArgs false
open Spec
namespace Modes

/-- One write through some slice. -/
structure Write where
  slice : Slice
  i : Nat
  v : UInt8

/-- A history of writes (a write out of range panics and is not counted as a history). -/
def Heap.writes (h : Heap) : List Write → Go Heap
  | [] => .ok h
  | w :: ws => do
    let h ← h.write w.slice w.i w.v
    h.writes ws

theorem write_other (h h' : Heap) (s t : Slice) (i : Nat) (v : UInt8) (hw : h.write s i v = .ok h')
    (hne : t.arr ≠ s.arr) : h'.view t = h.view t := by
  unfold Heap.write at hw
  split at hw
  · injection hw with hw
    subst hw
    unfold Heap.view
    simp only [List.getD_eq_getElem?_getD, List.getElem?_modify]
    simp [Ne.symm hne]
  · cases hw

theorem write_length (h h' : Heap) (s : Slice) (i : Nat) (v : UInt8) (hw : h.write s i v = .ok h') :
    h'.arrays.length = h.arrays.length := by
  unfold Heap.write at hw
  split at hw
  · injection hw with hw
    subst hw
    simp
  · cases hw

/-- C12, the heap behaves as slices do: a write in range changes that byte of the slice and no other, a write out of range panics. -/
theorem heap_write (h : Heap) (s : Slice) (i : Nat) (v : UInt8) :
    (i < (h.view s).length → ∃ h', h.write s i v = .ok h' ∧ h'.view s = (h.view s).set i v) ∧
    (¬ i < (h.view s).length → h.write s i v = .error .panic) := by
  unfold Heap.write
  refine ⟨fun hi => ?_, fun hi => by rw [if_neg hi]; rfl⟩
  rw [if_pos hi]
  refine ⟨_, rfl, ?_⟩
  unfold Heap.view
  simp only [List.getD_eq_getElem?_getD, List.getElem?_modify, if_true]
  cases h.arrays[s.arr]? with
  | none => simp
  | some a =>
    simp only [Option.map_some, Option.getD_some]
    apply List.ext_getElem?
    intro j
    simp only [List.getElem?_take, List.getElem?_drop, List.getElem?_set, List.length_take, List.length_drop]
    by_cases hj : j < s.len <;> by_cases hij : i = j <;> simp [hj, hij, List.getElem?_set] <;>
      split <;> first | omega | (split <;> first | rfl | omega) | skip

example : (⟨[[1, 2, 3, 4]]⟩ : Heap).view ⟨0, 1, 2⟩ = [2, 3] ∧ (⟨[[1, 2, 3, 4]]⟩ : Heap).write ⟨0, 1, 2⟩ 1 9 = .ok ⟨[[1, 2, 9, 4]]⟩ := by
  decide

theorem writes_other (ws : List Write) : ∀ (h h' : Heap) (t : Slice), h.writes ws = .ok h' →
    (∀ w ∈ ws, t.arr ≠ w.slice.arr) → h'.view t = h.view t := by
  induction ws with
  | nil =>
    intro h h' t hw _
    injection hw with hw
    rw [hw]
  | cons w ws ih =>
    intro h h' t hw hne
    unfold Heap.writes at hw
    cases he : h.write w.slice w.i w.v with
    | error e => rw [he] at hw; cases hw
    | ok h1 =>
      rw [he] at hw
      rw [ih h1 h' t hw (fun w hw => hne w (by simp [hw])), write_other h h1 _ t _ _ he (hne w (by simp))]

/-- The copy loop touches nothing but its target and fills it with the source. -/
theorem copyLoop_spec (payload data : Slice) (off : Nat) (hne : payload.arr ≠ data.arr) (hoff : data.off = 0) :
    ∀ (todo k : Nat) (h h' : Heap) (pre : List UInt8),
    h.arrays[data.arr]? = some (pre ++ List.replicate todo 0) → pre.length = k → data.len = k + todo →
    copyLoop payload data off k todo h = .ok h' →
    h'.view payload = h.view payload ∧ (∀ t : Slice, t.arr ≠ data.arr → h'.view t = h.view t) ∧
    h'.arrays[data.arr]? = some (pre ++ ((h.view payload).drop (k + off)).take todo) ∧
    k + off + todo ≤ (h.view payload).length + (if todo = 0 then k + off else 0) := by
  intro todo
  induction todo with
  | zero =>
    intro k h h' pre ha hk hl hc
    injection hc with hc
    subst hc
    simp only [List.replicate_zero, List.append_nil] at ha
    exact ⟨rfl, fun _ _ => rfl, by simpa using ha, by simp⟩
  | succ todo ih =>
    intro k h h' pre ha hk hl hc
    unfold copyLoop at hc
    cases hr : h.read payload (k + off) with
    | error e => rw [hr] at hc; cases hc
    | ok v =>
      rw [hr] at hc
      change (do let h ← h.write data k v; copyLoop payload data off (k + 1) todo h) = _ at hc
      cases hw : h.write data k v with
      | error e => rw [hw] at hc; cases hc
      | ok h1 =>
        rw [hw] at hc
        change copyLoop payload data off (k + 1) todo h1 = _ at hc
        have hv : (h.view payload)[k + off]? = some v := by
          unfold Heap.read idx at hr
          split at hr
          · rename_i x hx; injection hr with hr; rw [hx, hr]
          · cases hr
        have hlt : k + off < (h.view payload).length := by
          rw [List.getElem?_eq_some_iff] at hv; exact hv.1
        have ha1 : h1.arrays[data.arr]? = some ((pre ++ [v]) ++ List.replicate todo 0) := by
          unfold Heap.write at hw
          split at hw
          · injection hw with hw
            subst hw
            simp only [List.getElem?_modify, if_true, ha, hoff, Nat.zero_add]
            simp only [Option.map_eq_map, Option.map_some, List.replicate_succ]
            rw [List.set_append_right _ _ (by omega), hk, Nat.sub_self]
            simp
          · cases hw
        have hp1 : h1.view payload = h.view payload := write_other h h1 data payload k v hw hne
        obtain ⟨i1, i2, i3, i4⟩ := ih (k + 1) h1 h' (pre ++ [v]) ha1 (by simp [hk]) (by omega) hc
        refine ⟨by rw [i1, hp1], fun t ht => by rw [i2 t ht, write_other h h1 data t k v hw ht], ?_, ?_⟩
        · rw [i3, hp1]
          have : (h.view payload).drop (k + off) = v :: (h.view payload).drop (k + 1 + off) := by
            rw [List.drop_eq_getElem_cons hlt]
            rw [List.getElem?_eq_some_iff] at hv
            obtain ⟨_, hv⟩ := hv
            rw [hv]
            congr 2
            omega
          rw [this, List.take_succ_cons]
          simp
        · rw [hp1] at i4
          simp only [Nat.succ_ne_zero, if_false]
          split at i4 <;> omega

/-- The copy loop does not panic when source and target are long enough. -/
theorem copyLoop_ok (payload data : Slice) (off : Nat) (hne : payload.arr ≠ data.arr) :
    ∀ (todo k : Nat) (h : Heap), k + off + todo ≤ (h.view payload).length → k + todo ≤ (h.view data).length →
    ∃ h', copyLoop payload data off k todo h = .ok h' := by
  intro todo
  induction todo with
  | zero => intro k h _ _; exact ⟨h, rfl⟩
  | succ todo ih =>
    intro k h hl hd
    unfold copyLoop
    have hk : k + off < (h.view payload).length := by omega
    have hr : h.read payload (k + off) = .ok (h.view payload)[k + off] := by
      unfold Heap.read idx
      rw [List.getElem?_eq_getElem hk]
    rw [hr, go_bind_ok]
    have hw : ∃ h1, h.write data k (h.view payload)[k + off] = .ok h1 := by
      unfold Heap.write
      rw [if_pos (by omega)]
      exact ⟨_, rfl⟩
    obtain ⟨h1, hw⟩ := hw
    rw [hw, go_bind_ok]
    apply ih
    · rw [write_other h h1 data payload _ _ hw hne]; omega
    · have : (h1.view data).length = (h.view data).length := by
        unfold Heap.write at hw
        split at hw
        · injection hw with hw
          subst hw
          unfold Heap.view
          simp only [List.getD_eq_getElem?_getD, List.getElem?_modify, if_true]
          cases h.arrays[data.arr]? <;> simp
        · cases hw
      omega

theorem readFieldH_spec (h : Heap) (payload : Slice) (n off : Nat) (hp : payload.arr < h.arrays.length)
    (hl : off + n ≤ (h.view payload).length) :
    ∃ h' s, readFieldH h payload n off = .ok (h', s) ∧ s.arr = h.arrays.length ∧
      h'.view s = ((h.view payload).drop off).take n ∧
      ∀ t : Slice, t.arr < h.arrays.length → h'.view t = h.view t := by
  unfold readFieldH Heap.make
  simp only
  generalize hh : ({ arrays := h.arrays ++ [List.replicate n 0] } : Heap) = h0
  have hv : ∀ t : Slice, t.arr < h.arrays.length → h0.view t = h.view t := by
    intro t ht
    subst hh
    unfold Heap.view
    simp only [List.getD_eq_getElem?_getD]
    rw [List.getElem?_append_left ht]
  have hd : h0.arrays[h.arrays.length]? = some (List.replicate n 0) := by
    subst hh
    simp
  have hdv : h0.view ⟨h.arrays.length, 0, n⟩ = List.replicate n 0 := by
    unfold Heap.view
    simp only [List.getD_eq_getElem?_getD, hd]
    simp
  obtain ⟨h', hc⟩ := copyLoop_ok payload ⟨h.arrays.length, 0, n⟩ off (by simp; omega) n 0 h0
    (by rw [hv payload hp]; omega) (by rw [hdv]; simp)
  rw [hc]
  refine ⟨h', ⟨h.arrays.length, 0, n⟩, rfl, rfl, ?_, ?_⟩
  · obtain ⟨_, _, i3, _⟩ := copyLoop_spec payload ⟨h.arrays.length, 0, n⟩ off (by simp; omega) rfl n 0 h0 h' []
      (by simpa using hd) rfl (by simp) hc
    rw [hv payload hp] at i3
    simp only [List.nil_append, Nat.zero_add] at i3
    unfold Heap.view
    simp only [List.getD_eq_getElem?_getD, i3]
    simp [Heap.view, List.take_take]
  · obtain ⟨_, i2, _⟩ := copyLoop_spec payload ⟨h.arrays.length, 0, n⟩ off (by simp; omega) rfl n 0 h0 h' []
      (by simpa using hd) rfl (by simp) hc
    intro t ht
    rw [i2 t (by simp; omega), hv t ht]

theorem sub_view (h : Heap) (s : Slice) (i j : Nat) (hij : i ≤ j) (hj : j ≤ s.len) :
    h.view ⟨s.arr, s.off + i, j - i⟩ = ((h.view s).take j).drop i := by
  unfold Heap.view
  simp only
  rw [List.take_take, Nat.min_eq_left hj, List.drop_take, List.drop_drop]

theorem df_of_first (f : List UInt8) (b0 : UInt8) (h0 : f[0]? = some b0) :
    ((b0 &&& 0xF8) >>> 3).toNat = bits f 1 5 := by
  cases f with
  | nil => simp at h0
  | cons b l =>
    simp only [List.getElem?_cons_zero, Option.some.injEq] at h0
    subst h0
    have hb := byte_lt b
    have hl := beNat_lt l
    have e1 : ((b &&& 0xF8) >>> 3).toNat = b.toNat / 8 := by bytes_nat; omega
    rw [e1]
    unfold bits
    simp only [beNat, List.length_cons]
    have e2 : 8 * (l.length + 1) - 5 = 8 * l.length + 3 := by omega
    rw [e2, Nat.pow_add, ← Nat.div_div_eq_div_mul, Nat.mul_comm b.toNat, Nat.mul_add_div (Nat.two_pow_pos _),
      Nat.div_eq_of_lt hl]
    simp only [Nat.add_zero, Nat.reduceAdd, Nat.reduceSub, Nat.reducePow]
    omega

/-- The byte field of an accepted frame, in terms of the payload. -/
theorem byteField_eq (f : List UInt8) (m : ModeSMessage) (h : readMessage f = .ok m) :
    m.byteField = (copiedField (bits f 1 5)).map
      (fun p => (((f.take (f.length - 3)).drop 1).drop p.2).take p.1) ∧
    ∀ p, copiedField (bits f 1 5) = some p → p.2 + p.1 ≤ f.length - 4 := by
  have hlt : bits f 1 5 < 32 := by unfold bits; exact Nat.mod_lt _ (by decide)
  have e7 : f.length = 14 → (f.drop 4).take 7 = (((f.take (f.length - 3)).drop 1).drop 3).take 7 := by
    intro hl
    obtain ⟨b0, b1, b2, b3, b4, b5, b6, b7, b8, b9, b10, b11, b12, b13, rfl⟩ := list14 f hl
    rfl
  have e10 : f.length = 14 → (f.drop 1).take 10 = (((f.take (f.length - 3)).drop 1).drop 0).take 10 := by
    intro hl
    obtain ⟨b0, b1, b2, b3, b4, b5, b6, b7, b8, b9, b10, b11, b12, b13, rfl⟩ := list14 f hl
    rfl
  cases m with
  | df0 m => have := df0_fields f m h; rw [this.2.1]; exact ⟨rfl, by intro p hp; cases hp⟩
  | df4 m => have := df4_fields f m h; rw [this.2.1]; exact ⟨rfl, by intro p hp; cases hp⟩
  | df5 m => have := df5_fields f m h; rw [this.2.1]; exact ⟨rfl, by intro p hp; cases hp⟩
  | df11 m => have := df11_fields f m h; rw [this.2.1]; exact ⟨rfl, by intro p hp; cases hp⟩
  | df19 m => have := df19_fields f m h; rw [this.2.1]; exact ⟨rfl, by intro p hp; cases hp⟩
  | df16 m =>
    have := df16_fields f m h
    rw [this.2.1]
    refine ⟨?_, by intro p hp; cases hp; rw [this.1]; decide⟩
    show some m.messageACAS = some _
    rw [this.2.2.2.2.2.1, e7 this.1]
  | df17 m =>
    have := df17_fields f m h
    rw [this.2.1]
    refine ⟨?_, by intro p hp; cases hp; rw [this.1]; decide⟩
    show some m.messageExtendedSquitter = some _
    rw [this.2.2.2.2.1, e7 this.1]
  | df18 m =>
    have := df18_fields f m h
    rw [this.2.1]
    refine ⟨?_, by intro p hp; cases hp; rw [this.1]; decide⟩
    show some m.messageExtendedSquitter = some _
    rw [this.2.2.2.2.1, e7 this.1]
  | df20 m =>
    have := df20_fields f m h
    rw [this.2.1]
    refine ⟨?_, by intro p hp; cases hp; rw [this.1]; decide⟩
    show some m.messageCommB = some _
    rw [this.2.2.2.2.2.2.1, e7 this.1]
  | df21 m =>
    have := df21_fields f m h
    rw [this.2.1]
    refine ⟨?_, by intro p hp; cases hp; rw [this.1]; decide⟩
    show some m.messageCommB = some _
    rw [this.2.2.2.2.2.2.1, e7 this.1]
  | df24 m =>
    have := df24_fields f m h
    have hc : copiedField (bits f 1 5) = some (10, 0) := by
      unfold copiedField
      rw [if_neg (by omega), if_pos (by omega)]
    rw [hc]
    refine ⟨?_, by intro p hp; cases hp; rw [this.1]; decide⟩
    show some m.messageCommD = some _
    rw [this.2.2.2.2.1, e10 this.1]

/-- C12: a slice argument that lies inside its array. -/
def Slice.Valid (h : Heap) (s : Slice) : Prop :=
  s.arr < h.arrays.length ∧ (h.view s).length = s.len

/-- C12: reading a frame from a (valid) slice succeeds exactly when reading its bytes does; the byte field of the message
shows the bytes of the frame; and after any history of writes to the array of the frame it still does, while the raw
payload and parity follow the writes. -/
theorem readMessage_isolation (h : Heap) (s : Slice) (hs : s.Valid h) :
    (∀ e, readMessageH h s = .error e ↔ readMessage (h.view s) = .error e) ∧
    ∀ h1 m ms, readMessageH h s = .ok (h1, m, ms) →
      readMessage (h.view s) = .ok m ∧ h1.view s = h.view s ∧
      ∀ ws h2, (∀ w ∈ ws, w.slice.arr = s.arr) → h1.writes ws = .ok h2 →
        m.byteField = ms.field.map h2.view ∧
        h2.view ms.payload = ((h2.view s).take (s.len - 3)).drop 1 ∧
        h2.view ms.parity = (h2.view s).drop (s.len - 3) := by
  obtain ⟨ha, hl⟩ := hs
  unfold readMessageH
  cases hm : readMessage (h.view s) with
  | error e =>
    refine ⟨fun e' => by rw [go_bind_err]; constructor <;> (intro h; injection h with h; rw [h]), ?_⟩
    intro h1 m ms h
    cases h
  | ok m =>
    have hlen : s.len = 7 ∨ s.len = 14 := by
      rw [← hl]
      rcases ((readMessage_accepts_iff _).1 ⟨_, hm⟩).1 with h | h <;> simp [h.1]
    rw [go_bind_ok]
    have s1 : s.sub 1 (s.len - 3) = .ok ⟨s.arr, s.off + 1, s.len - 3 - 1⟩ := by
      unfold Slice.sub; rw [if_pos (by omega)]
    have s2 : s.sub (s.len - 3) s.len = .ok ⟨s.arr, s.off + (s.len - 3), s.len - (s.len - 3)⟩ := by
      unfold Slice.sub; rw [if_pos (by omega)]
    have h0 : 0 < (h.view s).length := by omega
    have hr : h.read s 0 = .ok (h.view s)[0] := by
      unfold Heap.read idx; rw [List.getElem?_eq_getElem h0]
    rw [s1, s2, go_bind_ok, go_bind_ok, hr, go_bind_ok, df_of_first (h.view s) _ (List.getElem?_eq_getElem h0)]
    obtain ⟨hb, hle⟩ := byteField_eq _ m hm
    have v1 : ∀ h2 : Heap, h2.view ⟨s.arr, s.off + 1, s.len - 3 - 1⟩ = ((h2.view s).take (s.len - 3)).drop 1 := by
      intro h2; exact sub_view h2 s 1 (s.len - 3) (by omega) (by omega)
    have v2 : ∀ h2 : Heap, h2.view ⟨s.arr, s.off + (s.len - 3), s.len - (s.len - 3)⟩ = (h2.view s).drop (s.len - 3) := by
      intro h2
      rw [sub_view h2 s (s.len - 3) s.len (by omega) (by omega)]
      rw [List.take_of_length_le]
      unfold Heap.view
      simp [List.length_take]
    cases hc : copiedField (bits (h.view s) 1 5) with
    | none =>
      rw [hc] at hb
      refine ⟨fun e => (by constructor <;> intro h <;> cases h), ?_⟩
      intro h1 m' ms hres
      injection hres with hres
      injection hres with e1 hres
      injection hres with e2 e3
      subst e1 e2 e3
      refine ⟨rfl, rfl, ?_⟩
      intro ws h2 _ _
      exact ⟨hb, v1 h2, v2 h2⟩
    | some p =>
      obtain ⟨n, off⟩ := p
      rw [hc] at hb
      have hfit := hle _ hc
      rw [hl] at hfit
      simp only at hfit
      have hlv : (h.view ⟨s.arr, s.off + 1, s.len - 3 - 1⟩).length = s.len - 4 := by
        rw [v1, List.length_drop, List.length_take, hl]; omega
      obtain ⟨h', fs, hf, hfa, hfv, hft⟩ := readFieldH_spec h ⟨s.arr, s.off + 1, s.len - 3 - 1⟩ n off ha
        (by rw [hlv]; omega)
      simp only [hf, go_bind_ok]
      refine ⟨fun e => (by constructor <;> intro h <;> cases h), ?_⟩
      intro h1 m' ms hres
      injection hres with hres
      injection hres with e1 hres
      injection hres with e2 e3
      subst e1 e2 e3
      refine ⟨rfl, hft s ha, ?_⟩
      intro ws h2 hw hws
      refine ⟨?_, v1 h2, v2 h2⟩
      have : h2.view fs = h'.view fs := writes_other ws h' h2 fs hws (fun w hwm => by rw [hw w hwm, hfa]; omega)
      rw [hb, Option.map_some, Option.map_some, this, hfv, v1, hl]

/-- A DF17 frame read from the middle of a buffer that is then overwritten: the ME field does not change, the raw
payload does. -/
example : ∃ h1 m ms h2 fs, readMessageH ⟨[[0, 0x8D, 0x48, 0x40, 0xD6, 0x20, 0x2C, 0xC3, 0x71, 0xC3, 0x2C, 0xE0, 0x57, 0x60, 0x98]]⟩
      ⟨0, 1, 14⟩ = .ok (h1, m, ms) ∧ h1.writes [⟨⟨0, 1, 14⟩, 4, 0xFF⟩] = .ok h2 ∧ ms.field = some fs ∧
      h2.view fs = [0x20, 0x2C, 0xC3, 0x71, 0xC3, 0x2C, 0xE0] ∧
      h2.view ms.payload = [0x48, 0x40, 0xD6, 0xFF, 0x2C, 0xC3, 0x71, 0xC3, 0x2C, 0xE0] :=
  ⟨_, _, _, _, _, rfl, rfl, rfl, by decide, by decide⟩

end Modes
