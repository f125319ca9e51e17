import Verif.Model.CommB
import Verif.Props.CommBSmall
import Verif.Props.Ident
import Verif.Props.BDS40
import Verif.Props.BDS44
import Verif.Props.BDS45
import Verif.Props.BDS5060
/-!
# C42, C43, C44, C45: inference of the register of a Comm-B message
-/
set_option linter.unusedSimpArgs false
open Spec
namespace Modes

/-- The register number of a message (two hexadecimal digits). -/
def CommBMessage.register : CommBMessage → Nat
  | .bds00 _ => 0x00
  | .bds07 _ => 0x07
  | .bds20 _ => 0x20
  | .bds10 _ => 0x10
  | .bds17 _ => 0x17
  | .bds30 _ => 0x30
  | .bds40 _ => 0x40
  | .bds44 _ => 0x44
  | .bds45 _ => 0x45
  | .bds50 _ => 0x50
  | .bds60 _ => 0x60

/-- The reader of the register of `m`, given the data `d`, returns `m` and no error. -/
def ReadsAs (d : List UInt8) : CommBMessage → Prop
  | .bds00 m => readBDS00 d = .ok m
  | .bds07 m => readBDS07 d = .ok m
  | .bds20 m => readBDS20 d = .ok m
  | .bds10 m => readBDS10 d = .ok m
  | .bds17 m => readBDS17 d = .ok m
  | .bds30 m => readBDS30 d = .ok m
  | .bds40 m => readBDS40 d = .ok m
  | .bds44 m => readBDS44 d = .returns (.val m) false
  | .bds45 m => readBDS45 d = .returns (.val m) false
  | .bds50 m => readBDS50 d = .ok m
  | .bds60 m => readBDS60 d = .ok m

/-- `m` is what its reader makes of the data, and it passes the coherency check of its register. -/
def Candidate (d : List UInt8) (m : CommBMessage) : Prop := ReadsAs d m ∧ m.coherent = true

/-- What is needed of a reader: it returns an error, or a message of register `k` without error. -/
def Answers (r : Call CommBMessage) (k : Nat) (o : Option CommBMessage) : Prop :=
  (∀ m, o = some m → m.register = k) ∧ (∀ m, r = .returns (.val m) false ↔ o = some m) ∧
  ∀ l, appendReadable l r = .ok (l ++ o.toList.map Iface.val)

theorem answers_ptr {α : Type} (r : Go α) (f : α → CommBMessage) (k : Nat) (hk : ∀ a, (f a).register = k)
    (hp : r ≠ .error .panic) : ∃ o, Answers (Call.ofPtr r f) k o := by
  match r, hp with
  | .error .panic, hp => exact absurd rfl hp
  | .error .err, _ =>
    exact ⟨none, fun m h => (by cases h), fun m => by simp [Call.ofPtr], fun l => by
      simp only [Call.ofPtr, appendReadable, if_pos, Option.toList, List.map_nil, List.append_nil]⟩
  | .ok a, _ =>
    refine ⟨some (f a), fun m h => ?_, fun m => ?_, fun l => ?_⟩
    · cases h; exact hk a
    · simp only [Call.ofPtr, Call.returns.injEq, Iface.val.injEq, and_true, Option.some.injEq]
    · simp only [Call.ofPtr, appendReadable, Option.toList, List.map_cons, List.map_nil, Bool.false_eq_true, if_false]

theorem answers_call {α : Type} (r : Call α) (f : α → CommBMessage) (k : Nat) (hk : ∀ a, (f a).register = k)
    (hr : (∃ a, r = .returns (.val a) false) ∨ r = .returns .nil true) : ∃ o, Answers (r.map f) k o := by
  rcases hr with ⟨a, rfl⟩ | rfl
  · refine ⟨some (f a), fun m h => ?_, fun m => ?_, fun l => ?_⟩
    · cases h; exact hk a
    · simp only [Call.map, Call.returns.injEq, Iface.val.injEq, and_true, Option.some.injEq]
    · simp only [Call.map, appendReadable, Option.toList, List.map_cons, List.map_nil, Bool.false_eq_true, if_false]
  · exact ⟨none, fun m h => (by cases h), fun m => by simp [Call.map], fun l => by
      simp only [Call.map, appendReadable, if_pos, Option.toList, List.map_nil, List.append_nil]⟩

theorem keepCoherent_val (l : List CommBMessage) :
    keepCoherent (l.map Iface.val) = .ok ((l.filter CommBMessage.coherent).map Iface.val) := by
  induction l with
  | nil => rfl
  | cons m l ih =>
    simp only [List.map_cons, keepCoherent, Iface.coherent, ih]
    show Except.ok _ = _
    by_cases h : m.coherent
    · rw [List.filter_cons_of_pos h]; simp only [h, if_true, List.map_cons]
    · rw [List.filter_cons_of_neg h]; simp only [h, Bool.false_eq_true, if_false]

/-- A list in increasing register order, below `k`. -/
def Upto (k : Nat) (l : List CommBMessage) : Prop :=
  l.Pairwise (fun a b => a.register < b.register) ∧ ∀ m ∈ l, m.register < k

theorem Upto.app {k : Nat} {l : List CommBMessage} (h : Upto k l) {k' : Nat} {r : Call CommBMessage} {o : Option CommBMessage}
    (ho : Answers r k' o) (hk : k ≤ k') : Upto (k' + 1) (l ++ o.toList) := by
  refine ⟨List.pairwise_append.2 ⟨h.1, ?_, ?_⟩, ?_⟩
  · cases o <;> simp
  · intro a ha b hb
    rw [Option.mem_toList] at hb
    have h1 := ho.1 b hb
    have h2 := h.2 a ha
    omega
  · intro m hm
    rw [List.mem_append, Option.mem_toList] at hm
    rcases hm with hm | hm
    · have := h.2 m hm; omega
    · have := ho.1 m hm; omega

theorem call44 (d : List UInt8) : (∃ a, readBDS44 d = .returns (.val a) false) ∨ readBDS44 d = .returns .nil true := by
  have h := bds44_layout d
  match hr : readBDS44 d with
  | .panics => rw [hr] at h; exact h.elim
  | .returns (.val (.v1 m)) e => rw [hr] at h; rw [h.1]; exact Or.inl ⟨_, rfl⟩
  | .returns (.val (.v2 m)) e => rw [hr] at h; rw [h.1]; exact Or.inl ⟨_, rfl⟩
  | .returns (.val (.v0 m)) e => rw [hr] at h; exact h.elim
  | .returns .nil e => rw [hr] at h; rw [h.1]; exact Or.inr rfl
  | .returns .typedNil e => rw [hr] at h; exact h.elim

theorem call45 (d : List UInt8) : (∃ a, readBDS45 d = .returns (.val a) false) ∨ readBDS45 d = .returns .nil true := by
  have h := bds45_layout d
  match hr : readBDS45 d with
  | .panics => rw [hr] at h; exact h.elim
  | .returns (.val (.v1 m)) e => rw [hr] at h; rw [h.1]; exact Or.inl ⟨_, rfl⟩
  | .returns (.val (.v0 m)) e => rw [hr] at h; exact h.elim
  | .returns .nil e => rw [hr] at h; rw [h.1]; exact Or.inr rfl
  | .returns .typedNil e => rw [hr] at h; exact h.elim

theorem ofPtr_iff {α : Type} (r : Go α) (f : α → CommBMessage) (hf : Function.Injective f) (a : α) :
    Call.ofPtr r f = .returns (.val (f a)) false ↔ r = .ok a := by
  match r with
  | .error .panic => simp [Call.ofPtr]
  | .error .err => simp [Call.ofPtr]
  | .ok b => simp only [Call.ofPtr, Call.returns.injEq, Iface.val.injEq, and_true, Except.ok.injEq]; exact hf.eq_iff

theorem callmap_iff {α : Type} (r : Call α) (f : α → CommBMessage) (hf : Function.Injective f) (a : α) :
    r.map f = .returns (.val (f a)) false ↔ r = .returns (.val a) false := by
  match r with
  | .panics => simp [Call.map]
  | .returns .nil e => simp [Call.map]
  | .returns .typedNil e => simp [Call.map]
  | .returns (.val b) e =>
    simp only [Call.map, Call.returns.injEq, Iface.val.injEq]
    rw [hf.eq_iff]

theorem ofPtr_other {α : Type} (r : Go α) (f : α → CommBMessage) (m : CommBMessage) (h : ∀ a, f a ≠ m) :
    Call.ofPtr r f ≠ .returns (.val m) false := by
  match r with
  | .error .panic => simp [Call.ofPtr]
  | .error .err => simp [Call.ofPtr]
  | .ok b => simp only [Call.ofPtr, ne_eq, Call.returns.injEq, Iface.val.injEq, and_true]; exact h b

theorem callmap_other {α : Type} (r : Call α) (f : α → CommBMessage) (m : CommBMessage) (h : ∀ a, f a ≠ m) :
    r.map f ≠ .returns (.val m) false := by
  match r with
  | .panics => simp [Call.map]
  | .returns .nil e => simp [Call.map]
  | .returns .typedNil e => simp [Call.map]
  | .returns (.val b) e => simp only [Call.map, ne_eq, Call.returns.injEq, Iface.val.injEq, not_and]; exact fun hb => absurd hb (h b)

/-- The registers that are never returned together with another one. -/
def CommBMessage.unambiguous : CommBMessage → Bool
  | .bds00 _ => true
  | .bds07 _ => true
  | .bds20 _ => true
  | _ => false

/-- The part of `ReadCommBMessage` after the unambiguous registers, pkg/commb/reader.go:61-104. -/
def ambiguousPart (data : List UInt8) : Go (List (Iface CommBMessage)) := do
  let messages ← appendReadable [] (Call.ofPtr (readBDS10 data) .bds10)
  let messages ← appendReadable messages (Call.ofPtr (readBDS17 data) .bds17)
  let messages ← appendReadable messages (Call.ofPtr (readBDS30 data) .bds30)
  let messages ← appendReadable messages (Call.ofPtr (readBDS40 data) .bds40)
  let messages ← appendReadable messages ((readBDS44 data).map .bds44)
  let messages ← appendReadable messages ((readBDS45 data).map .bds45)
  let messages ← appendReadable messages (Call.ofPtr (readBDS50 data) .bds50)
  let messages ← appendReadable messages (Call.ofPtr (readBDS60 data) .bds60)
  keepCoherent messages

theorem noPanic_of_eval {α : Type} {r : Go α} {P Q : Prop} (h : (r = .error .err ∧ P) ∨ (Q ∧ ∃ m, r = .ok m)) :
    r ≠ .error .panic := by
  rcases h with ⟨h, -⟩ | ⟨-, m, h⟩ <;> rw [h] <;> exact fun h => by cases h

theorem ambiguousPart_spec (d : List UInt8) :
    ∃ l : List CommBMessage, ambiguousPart d = .ok (l.map Iface.val) ∧
      l.Pairwise (fun a b => a.register < b.register) ∧
      ∀ m, m ∈ l ↔ m.unambiguous = false ∧ Candidate d m := by
  obtain ⟨o1, h1⟩ := answers_ptr (readBDS10 d) .bds10 0x10 (fun _ => rfl) (bds10_accepts d).2
  obtain ⟨o2, h2⟩ := answers_ptr (readBDS17 d) .bds17 0x17 (fun _ => rfl) (bds17_accepts d).2
  obtain ⟨o3, h3⟩ := answers_ptr (readBDS30 d) .bds30 0x30 (fun _ => rfl) (bds30_accepts d).2
  obtain ⟨o4, h4⟩ := answers_ptr (readBDS40 d) .bds40 0x40 (fun _ => rfl) (by
    rcases bds40_eval d with ⟨h, -⟩ | ⟨-, m, h, -⟩ <;> rw [h] <;> exact fun h => by cases h)
  obtain ⟨o5, h5⟩ := answers_call (readBDS44 d) .bds44 0x44 (fun _ => rfl) (call44 d)
  obtain ⟨o6, h6⟩ := answers_call (readBDS45 d) .bds45 0x45 (fun _ => rfl) (call45 d)
  obtain ⟨o7, h7⟩ := answers_ptr (readBDS50 d) .bds50 0x50 (fun _ => rfl) (by
    rcases bds50_eval d with ⟨h, -⟩ | ⟨-, m, h, -⟩ <;> rw [h] <;> exact fun h => by cases h)
  obtain ⟨o8, h8⟩ := answers_ptr (readBDS60 d) .bds60 0x60 (fun _ => rfl) (by
    rcases bds60_eval d with ⟨h, -⟩ | ⟨-, m, h, -⟩ <;> rw [h] <;> exact fun h => by cases h)
  have hu : Upto 0x10 ([] : List CommBMessage) := ⟨List.Pairwise.nil, fun m h => by cases h⟩
  have hu := hu.app h1 (by decide)
  have hu := hu.app h2 (by decide)
  have hu := hu.app h3 (by decide)
  have hu := hu.app h4 (by decide)
  have hu := hu.app h5 (by decide)
  have hu := hu.app h6 (by decide)
  have hu := hu.app h7 (by decide)
  have hu := hu.app h8 (by decide)
  refine ⟨_, ?_, hu.1.filter CommBMessage.coherent, fun m => ?_⟩
  · rw [← keepCoherent_val]
    unfold ambiguousPart
    simp only [h1.2.2, h2.2.2, h3.2.2, h4.2.2, h5.2.2, h6.2.2, h7.2.2, h8.2.2, bind, Except.bind, List.map_append, List.nil_append]
  · rw [List.mem_filter]
    simp only [List.mem_append, Option.mem_toList, Option.mem_def, List.not_mem_nil, false_or]
    rw [← h1.2.1, ← h2.2.1, ← h3.2.1, ← h4.2.1, ← h5.2.1, ← h6.2.1, ← h7.2.1, ← h8.2.1, Candidate, ← and_assoc]
    refine and_congr_left fun _ => ?_
    have key : (Call.ofPtr (readBDS10 d) .bds10 = .returns (.val m) false ∨ Call.ofPtr (readBDS17 d) .bds17 = .returns (.val m) false ∨
        Call.ofPtr (readBDS30 d) .bds30 = .returns (.val m) false ∨ Call.ofPtr (readBDS40 d) .bds40 = .returns (.val m) false ∨
        (readBDS44 d).map .bds44 = .returns (.val m) false ∨ (readBDS45 d).map .bds45 = .returns (.val m) false ∨
        Call.ofPtr (readBDS50 d) .bds50 = .returns (.val m) false ∨ Call.ofPtr (readBDS60 d) .bds60 = .returns (.val m) false) ↔
        (m.unambiguous = false ∧ ReadsAs d m) := by
      cases m
      case bds10 m =>
        rw [ofPtr_iff _ CommBMessage.bds10 (fun a b h => by cases h; rfl)]
        simp [ofPtr_other, callmap_other, CommBMessage.unambiguous, ReadsAs]
      case bds17 m =>
        rw [ofPtr_iff _ CommBMessage.bds17 (fun a b h => by cases h; rfl)]
        simp [ofPtr_other, callmap_other, CommBMessage.unambiguous, ReadsAs]
      case bds30 m =>
        rw [ofPtr_iff _ CommBMessage.bds30 (fun a b h => by cases h; rfl)]
        simp [ofPtr_other, callmap_other, CommBMessage.unambiguous, ReadsAs]
      case bds40 m =>
        rw [ofPtr_iff _ CommBMessage.bds40 (fun a b h => by cases h; rfl)]
        simp [ofPtr_other, callmap_other, CommBMessage.unambiguous, ReadsAs]
      case bds44 m =>
        rw [callmap_iff _ CommBMessage.bds44 (fun a b h => by cases h; rfl)]
        simp [ofPtr_other, callmap_other, CommBMessage.unambiguous, ReadsAs]
      case bds45 m =>
        rw [callmap_iff _ CommBMessage.bds45 (fun a b h => by cases h; rfl)]
        simp [ofPtr_other, callmap_other, CommBMessage.unambiguous, ReadsAs]
      case bds50 m =>
        rw [ofPtr_iff _ CommBMessage.bds50 (fun a b h => by cases h; rfl)]
        simp [ofPtr_other, callmap_other, CommBMessage.unambiguous, ReadsAs]
      case bds60 m =>
        rw [ofPtr_iff _ CommBMessage.bds60 (fun a b h => by cases h; rfl)]
        simp [ofPtr_other, callmap_other, CommBMessage.unambiguous, ReadsAs]
      all_goals simp [ofPtr_other, callmap_other, CommBMessage.unambiguous, ReadsAs]
    rw [← key]
    simp only [or_assoc]

theorem readCommB_short (d : List UInt8) (h : d.length ≠ 7) : readCommBMessage d = .error .err := by
  unfold readCommBMessage; rw [if_pos h]; rfl

theorem readCommB_zero (d : List UInt8) (h : d.length = 7) (h0 : readBDS00 d = .ok {}) :
    readCommBMessage d = .ok [.val (.bds00 {})] := by
  unfold readCommBMessage; rw [if_neg (fun hn => hn h), h0]; rfl

theorem readCommB_07 (d : List UInt8) (h : d.length = 7) (h0 : readBDS00 d = .error .err) (m : Status07)
    (hm : readBDS07 d = .ok m) (hc : m.coherent = true) : readCommBMessage d = .ok [.val (.bds07 m)] := by
  unfold readCommBMessage; rw [if_neg (fun hn => hn h), h0, hm]
  simp only [Call.ofPtr, coherentResult, Iface.coherent, CommBMessage.coherent, hc]; rfl

theorem readCommB_20 (d : List UInt8) (h : d.length = 7) (h0 : readBDS00 d = .error .err)
    (h7 : readBDS07 d = .error .err ∨ ∃ m, readBDS07 d = .ok m ∧ m.coherent = false) (m : AircraftIdentification)
    (hm : readBDS20 d = .ok m) (hc : m.coherent = true) : readCommBMessage d = .ok [.val (.bds20 m)] := by
  unfold readCommBMessage; rw [if_neg (fun hn => hn h), h0, hm]
  rcases h7 with h7 | ⟨m7, h7, h7c⟩
  · rw [h7]
    simp only [Call.ofPtr, coherentResult, Iface.coherent, CommBMessage.coherent, hc]; rfl
  · rw [h7]
    simp only [Call.ofPtr, coherentResult, Iface.coherent, CommBMessage.coherent, hc, h7c]; rfl

theorem readCommB_rest (d : List UInt8) (h : d.length = 7) (h0 : readBDS00 d = .error .err)
    (h7 : readBDS07 d = .error .err ∨ ∃ m, readBDS07 d = .ok m ∧ m.coherent = false)
    (h2 : readBDS20 d = .error .err ∨ ∃ m, readBDS20 d = .ok m ∧ m.coherent = false) :
    readCommBMessage d = ambiguousPart d := by
  unfold readCommBMessage; rw [if_neg (fun hn => hn h), h0]
  rcases h7 with h7 | ⟨m7, h7, h7c⟩ <;> rcases h2 with h2 | ⟨m2, h2, h2c⟩ <;> rw [h7, h2]
  · simp only [Call.ofPtr, coherentResult]; rfl
  · simp only [Call.ofPtr, coherentResult, Iface.coherent, CommBMessage.coherent, h2c]; rfl
  · simp only [Call.ofPtr, coherentResult, Iface.coherent, CommBMessage.coherent, h7c]; rfl
  · simp only [Call.ofPtr, coherentResult, Iface.coherent, CommBMessage.coherent, h7c, h2c]; rfl

/-- BDS 2,0 and the two other unambiguous registers exclude each other: a coherent identification has a non-zero last byte
part, which the two others do not allow. -/
theorem bds20_excludes (d : List UInt8) (m : AircraftIdentification) (h : readBDS20 d = .ok m) (hc : m.coherent = true) :
    d.length = 7 ∧ readBDS00 d = .error .err ∧ readBDS07 d = .error .err := by
  have h7 : d.length = 7 := by
    rw [bds20_eval] at h
    split at h
    · rename_i h'; exact h'.1
    · cases h
  obtain ⟨c, hi, -⟩ := (bds20_coherent_iff d m h).1 hc 0 (by decide)
  have hz : bits d 9 14 ≠ 0 := by
    intro h0
    have : identField d 0 = 0 := h0
    rw [this] at hi
    cases hi
  refine ⟨h7, ?_, ?_⟩
  · rcases bds00_eval d with ⟨e, -⟩ | ⟨⟨-, h0⟩, -⟩
    · exact e
    · exfalso; apply hz
      obtain ⟨b0, b1, b2, b3, b4, b5, b6, rfl⟩ := list7 d h7
      clear h hc hi hz
      revert h0; byte_omega
  · rcases bds07_eval d with ⟨e, -⟩ | ⟨⟨-, -, h0⟩, -⟩
    · exact e
    · exfalso; apply hz
      obtain ⟨b0, b1, b2, b3, b4, b5, b6, rfl⟩ := list7 d h7
      clear h hc hi hz
      revert h0; byte_omega

theorem bds07_cases (d : List UInt8) : readBDS07 d = .error .err ∨ ∃ m, readBDS07 d = .ok m := by
  rcases bds07_eval d with ⟨e, -⟩ | ⟨-, m, e, -⟩
  · exact Or.inl e
  · exact Or.inr ⟨m, e⟩

theorem bds20_cases (d : List UInt8) : readBDS20 d = .error .err ∨ ∃ m, readBDS20 d = .ok m := by
  rw [bds20_eval]; split
  · exact Or.inr ⟨_, rfl⟩
  · exact Or.inl rfl

/-- C44. An all-zero field gives exactly the no-data message; a field that is not all-zero and is a coherent BDS 0,7 gives
exactly that message; and a coherent BDS 2,0 field (never all-zero, never a BDS 0,7) gives exactly that message. -/
theorem commB_unambiguous (d : List UInt8) :
    (d.length = 7 → bits d 1 56 = 0 → readCommBMessage d = .ok [.val (.bds00 {})]) ∧
    (∀ m, bits d 1 56 ≠ 0 → Candidate d (.bds07 m) → readCommBMessage d = .ok [.val (.bds07 m)]) ∧
    (∀ m, Candidate d (.bds20 m) → readCommBMessage d = .ok [.val (.bds20 m)]) := by
  refine ⟨fun h7 h0 => ?_, fun m h0 hm => ?_, fun m hm => ?_⟩
  · rcases bds00_eval d with ⟨-, hn⟩ | ⟨-, e⟩
    · exact absurd ⟨h7, h0⟩ hn
    · exact readCommB_zero d h7 e
  · have h7 : d.length = 7 := by
      rcases bds07_eval d with ⟨e, -⟩ | ⟨ha, -⟩
      · have := hm.1; simp only [ReadsAs, e] at this; cases this
      · exact ha.1
    rcases bds00_eval d with ⟨e, -⟩ | ⟨⟨-, hz⟩, -⟩
    · exact readCommB_07 d h7 e m hm.1 hm.2
    · exact absurd hz h0
  · obtain ⟨h7, e0, e7⟩ := bds20_excludes d m hm.1 hm.2
    exact readCommB_20 d h7 e0 (Or.inl e7) m hm.1 hm.2

/-- C43. For every 7-byte field, the candidates are messages (never nil), each what its own reader makes of the field and
coherent, in increasing register order (hence at most one of each register); and unless the field is one of the unambiguous
ones (all-zero, coherent BDS 0,7, coherent BDS 2,0: see `commB_unambiguous`), *every* register whose reader accepts the field and
whose check passes is in the list. -/
theorem commB_sound_complete (d : List UInt8) (h7 : d.length = 7) :
    ∃ l : List CommBMessage, readCommBMessage d = .ok (l.map Iface.val) ∧
      l.Pairwise (fun a b => a.register < b.register) ∧
      (∀ m ∈ l, Candidate d m) ∧
      ((∀ m, Candidate d m → m.unambiguous = false) → ∀ m, m ∈ l ↔ Candidate d m) := by
  have single (m : CommBMessage) (hu : m.unambiguous = true) (hm : Candidate d m) (h : readCommBMessage d = .ok [.val m]) :
      ∃ l : List CommBMessage, readCommBMessage d = .ok (l.map Iface.val) ∧
      l.Pairwise (fun a b => a.register < b.register) ∧
      (∀ m ∈ l, Candidate d m) ∧
      ((∀ m, Candidate d m → m.unambiguous = false) → ∀ m, m ∈ l ↔ Candidate d m) := by
    refine ⟨[m], h, List.pairwise_singleton _ _, fun m' h' => ?_, fun hall => ?_⟩
    · rw [List.mem_singleton] at h'; rw [h']; exact hm
    · have := hall m hm; rw [hu] at this; cases this
  rcases bds00_eval d with ⟨e0, -⟩ | ⟨-, e0⟩
  swap; · exact single (.bds00 {}) rfl ⟨e0, rfl⟩ (readCommB_zero d h7 e0)
  have h07 : readBDS07 d = .error .err ∨ ∃ m, readBDS07 d = .ok m := bds07_cases d
  by_cases hc7 : ∃ m, readBDS07 d = .ok m ∧ m.coherent = true
  · obtain ⟨m, hm, hc⟩ := hc7
    exact single (.bds07 m) rfl ⟨hm, hc⟩ (readCommB_07 d h7 e0 m hm hc)
  have k7 : readBDS07 d = .error .err ∨ ∃ m, readBDS07 d = .ok m ∧ m.coherent = false := by
    rcases h07 with h | ⟨m, hm⟩
    · exact Or.inl h
    · refine Or.inr ⟨m, hm, ?_⟩
      by_contra hc; exact hc7 ⟨m, hm, by simpa using hc⟩
  by_cases hc2 : ∃ m, readBDS20 d = .ok m ∧ m.coherent = true
  · obtain ⟨m, hm, hc⟩ := hc2
    exact single (.bds20 m) rfl ⟨hm, hc⟩ (readCommB_20 d h7 e0 k7 m hm hc)
  have k2 : readBDS20 d = .error .err ∨ ∃ m, readBDS20 d = .ok m ∧ m.coherent = false := by
    rcases bds20_cases d with h | ⟨m, hm⟩
    · exact Or.inl h
    · refine Or.inr ⟨m, hm, ?_⟩
      by_contra hc; exact hc2 ⟨m, hm, by simpa using hc⟩
  obtain ⟨l, hl, hp, hmem⟩ := ambiguousPart_spec d
  refine ⟨l, by rw [readCommB_rest d h7 e0 k7 k2, hl], hp, fun m hm => ((hmem m).1 hm).2, fun hall m => ?_⟩
  exact ⟨fun hm => ((hmem m).1 hm).2, fun hm => (hmem m).2 ⟨hall m hm, hm⟩⟩

/-- C42. Comm-B inference never panics and fails exactly when the data is not 7 bytes long. -/
theorem commB_total (d : List UInt8) :
    NoPanic (readCommBMessage d) ∧ (readCommBMessage d = .error .err ↔ d.length ≠ 7) := by
  by_cases h7 : d.length = 7
  · obtain ⟨l, hl, -⟩ := commB_sound_complete d h7
    rw [hl]
    exact ⟨by simp [NoPanic], fun h => (by cases h), fun h => absurd h7 h⟩
  · rw [readCommB_short d h7]
    exact ⟨by simp [NoPanic], fun _ => h7, fun _ => rfl⟩

/-- C45. For every callsign of 8 characters, its BDS 2,0 encoding (the register number, then eight six-bit codes) put through
the Comm-B inference gives exactly one candidate, an identification, which is that callsign. -/
theorem commB_callsign (cs : List UInt8) (h8 : cs.length = 8) (hc : ∀ c ∈ cs, IdentChar c) :
    readCommBMessage (0x20 :: toBytes 6 (encodeIdent cs)) = .ok [.val (.bds20 ⟨cs⟩)] :=
  (commB_unambiguous _).2.2 ⟨cs⟩ (callsign_roundtrip_bds20 cs h8 hc)

/-- "KLM1017 ": a callsign, and its known encoding 202CC371C31DE0. -/
example : let cs : List UInt8 := [75, 76, 77, 49, 48, 49, 55, 32]
    (cs.length = 8 ∧ ∀ c ∈ cs, IdentChar c) ∧
    (0x20 : UInt8) :: toBytes 6 (encodeIdent cs) = [0x20, 0x2C, 0xC3, 0x71, 0xC3, 0x1D, 0xE0] := by decide +kernel

/-- A field that is not unambiguous: the documented BDS 4,0 example 85E42F313000C4 is neither all-zero, nor a BDS 0,7, nor a
BDS 2,0. -/
example : let d : List UInt8 := [0x85, 0xE4, 0x2F, 0x31, 0x30, 0x00, 0xC4]
    d.length = 7 ∧ bits d 1 56 ≠ 0 ∧ bits d 9 56 ≠ 0 ∧ bits d 1 8 ≠ 0x20 := by decide

end Modes
