import Verif.Props.ADSB
/-!
# The level learned from a history of messages (C88)

`ReadADSBMessage` must be told the version (level) of the aircraft; the operational status messages of the aircraft carry it. A receiver that keeps, after each
message read without error, the version the message reports (`GetADSBVersion`) and gives it back for the next message, learns the version.
-/
open Modes Spec
namespace Spec

/-- The version carried by the last acceptable operational status of the history; the initial one before. -/
def lastVersion (v : Nat) (history : List (List UInt8)) : Nat :=
  match (history.filter (fun d => decide (OpAccepted d))).getLast? with
  | some d => bits d 41 43
  | none => v

/-- No acceptable operational status of the history is that of a surface aircraft of version 2. -/
def NoSurfaceV2 (history : List (List UInt8)) : Prop := ∀ d ∈ history, OpAccepted d → ¬ (bits d 41 43 = 2 ∧ bits d 6 8 = 1)

end Spec
namespace Modes

/-- One step of the receiver: read the message at the current level; if there is no error, its version is the new level. -/
def nextLevel (a c : Bool) (v : UInt8) (d : List UInt8) : UInt8 :=
  match readADSBMessage v a c d with
  | .returns (.val m) false => m.getADSBVersion
  | _ => v

theorem opAccepted_tc (d : List UInt8) (h : OpAccepted d) : bits d 1 5 = 31 ∧ d.length = 7 ∧ bits d 41 43 ≤ 2 := ⟨h.2.1, h.1, h.2.2.1⟩

/-- What one step does, for every message: an acceptable operational status sets the level to the version it carries, 1 for a surface message of
version 2; anything else leaves it. -/
theorem nextLevel_eq (a c : Bool) (v : UInt8) (d : List UInt8) : (nextLevel a c v d).toNat =
    if OpAccepted d then (if bits d 41 43 = 2 ∧ bits d 6 8 = 1 then 1 else bits d 41 43) else v.toNat := by
  unfold nextLevel
  rcases adsb_eval v a c d with ⟨e, hn, -⟩ | ⟨e, hn, -⟩ | ⟨ha, m, e, hc, -⟩
  · rw [e, if_neg (fun h => hn ⟨h.1, Or.inr (Or.inr (Or.inr (Or.inr (Or.inr (Or.inr (Or.inr h))))))⟩)]
  · rw [e, if_neg (fun h => hn ⟨h.1, Or.inr (Or.inr (Or.inr (Or.inr (Or.inr (Or.inr (Or.inr h))))))⟩)]
  · have hp := adsb_version_partial v a c d m false e
    rw [e]
    simp only
    by_cases h31 : bits d 1 5 = 31
    · have ho : OpAccepted d := by
        have := ha.2
        unfold AirborneTC SurfaceTC at this
        rcases this with h | h | h | h | h | h | h | h
        all_goals first | exact h | (exfalso; omega)
      rw [if_pos ho]
      by_cases h2 : bits d 41 43 = 2 ∧ bits d 6 8 = 1
      · rw [if_pos h2, adsb_version_refuted v a c d m false e h31 h2.1 h2.2]
      · rw [if_neg h2, hp.2 h31 h2]
    · rw [if_neg (fun h => h31 h.2.1), hp.1 h31]

/-- C88. After every history of messages, of whatever bytes, the level kept is the version carried by the last acceptable operational status. Missing: a
history with an operational status of a surface aircraft of version 2 (`level_learned_refuted`). -/
theorem level_learned_partial (a c : Bool) (v : UInt8) (history : List (List UInt8)) (h : NoSurfaceV2 history) :
    (history.foldl (nextLevel a c) v).toNat = lastVersion v.toNat history := by
  induction history using List.reverseRecOn with
  | nil => rfl
  | append_singleton l d ih =>
    have hl := ih (fun x hx => h x (List.mem_append_left _ hx))
    rw [List.foldl_append, List.foldl_cons, List.foldl_nil, nextLevel_eq]
    unfold lastVersion
    rw [List.filter_append]
    by_cases ho : OpAccepted d
    · rw [if_pos ho, if_neg (h d (List.mem_append_right _ List.mem_cons_self) ho)]
      simp [ho]
    · rw [if_neg ho, hl]
      simp [ho, lastVersion]

/-- The level kept is always one that the position readers know, if the initial one is. -/
theorem level_valid (a c : Bool) (v : UInt8) (hv : v.toNat ≤ 2) (history : List (List UInt8)) : (history.foldl (nextLevel a c) v).toNat ≤ 2 := by
  induction history using List.reverseRecOn with
  | nil => exact hv
  | append_singleton l d ih =>
    rw [List.foldl_append, List.foldl_cons, List.foldl_nil, nextLevel_eq]
    by_cases ho : OpAccepted d
    · rw [if_pos ho]
      have := ho.2.2.1
      split <;> omega
    · rw [if_neg ho]; exact ih

/-- C88. Messages that are not acceptable operational status messages, wherever they come, do not matter. -/
theorem level_ignores (a c : Bool) (v : UInt8) (l r : List (List UInt8)) (d : List UInt8) (h : ¬ OpAccepted d) :
    (l ++ d :: r).foldl (nextLevel a c) v = (l ++ r).foldl (nextLevel a c) v := by
  rw [List.foldl_append, List.foldl_append, List.foldl_cons]
  congr 1
  apply UInt8.toNat_inj.1
  rw [nextLevel_eq, if_neg h]

/-- C88 is false of the code for surface aircraft of version 2: after their operational status, whatever came before, the level kept is 1. -/
theorem level_learned_refuted (a c : Bool) (v : UInt8) (history : List (List UInt8)) (d : List UInt8) (hd : OpAccepted d) (h2 : bits d 41 43 = 2)
    (h1 : bits d 6 8 = 1) : ((history ++ [d]).foldl (nextLevel a c) v).toNat = 1 ∧ lastVersion v.toNat (history ++ [d]) = 2 := by
  constructor
  · rw [List.foldl_append, List.foldl_cons, List.foldl_nil, nextLevel_eq, if_pos hd, if_pos ⟨h2, h1⟩]
  · unfold lastVersion
    simp [List.filter_append, hd, h2]

/-- C88. A position read after a history is read as one of the version learned. -/
theorem position_after_history_partial (a c : Bool) (v : UInt8) (history : List (List UInt8)) (h : NoSurfaceV2 history) (d : List UInt8) (m : ADSBMessage)
    (hm : readADSBMessage (history.foldl (nextLevel a c) v) a c d = .returns (.val m) false) (hd : SurfaceTC (bits d 1 5) ∨ AirborneTC (bits d 1 5)) :
    m.getADSBVersion.toNat = lastVersion v.toNat history := by
  rw [← level_learned_partial a c v history h]
  have := (adsb_version_partial _ a c d m false hm).1 (by
    unfold SurfaceTC AirborneTC at hd; omega)
  rw [this]

/-- A version 2 airborne aircraft: position, operational status, and a message that is refused. -/
example : NoSurfaceV2 [[0x58, 0xC3, 0x82, 0xD6, 0x90, 0xC8, 0xAC], [0xF8, 0x23, 0x00, 0x02, 0x00, 0x49, 0xB8], [0xFF]] ∧
    lastVersion 0 [[0x58, 0xC3, 0x82, 0xD6, 0x90, 0xC8, 0xAC], [0xF8, 0x23, 0x00, 0x02, 0x00, 0x49, 0xB8], [0xFF]] = 2 := by
  refine ⟨?_, by decide +kernel⟩
  intro d hd
  simp only [List.mem_cons, List.not_mem_nil, or_false] at hd
  rcases hd with rfl | rfl | rfl <;> decide +kernel

/-- A version 2 surface operational status is acceptable. -/
example : let d : List UInt8 := [0xF9, 0x00, 0x00, 0x00, 0x00, 0x40, 0x00]; OpAccepted d ∧ bits d 41 43 = 2 ∧ bits d 6 8 = 1 := by decide +kernel

end Modes
