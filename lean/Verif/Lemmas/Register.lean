import Verif.Lemmas.Bits
import Verif.Lemmas.ModeS
/-! Evaluation of the register readers on literal byte lists. -/
open Spec
namespace Modes

attribute [goeval] idx List.getElem?_cons_succ List.getElem?_cons_zero List.getElem?_nil go_bind_ok go_bind_err
    go_pure go_fail go_panic go_map_ok go_map_err

/-- Runs a reader on a literal list; `defs` are unfolded. -/
macro "go_run" "[" defs:Lean.Parser.Tactic.simpLemma,* "]" loc:(Lean.Parser.Tactic.location)? : tactic =>
  `(tactic| simp only [goeval, ne_eq, List.length_cons, List.length_nil, Nat.reduceAdd, Nat.reduceEqDiff,
    not_true_eq_false, not_false_eq_true, if_true, if_false, ite_false, ite_true, List.nil_append,
    List.cons_append, $defs,*] $[$loc]?)

theorem u8_bne (x : UInt8) : (x != 0) = decide (x.toNat ≠ 0) := by
  rw [Bool.eq_iff_iff, bne_iff_ne, decide_eq_true_iff, ne_eq, ne_eq, ← UInt8.toNat_inj]; rfl
theorem u8_beq (x y : UInt8) : (x == y) = decide (x.toNat = y.toNat) := by
  rw [Bool.eq_iff_iff, beq_iff_eq, decide_eq_true_iff, ← UInt8.toNat_inj]
theorem u8_eq (x y : UInt8) : (x = y) = (x.toNat = y.toNat) := by rw [← UInt8.toNat_inj]
theorem u16_eq (x y : UInt16) : (x = y) = (x.toNat = y.toNat) := by rw [← UInt16.toNat_inj]
theorem u32_eq (x y : UInt32) : (x = y) = (x.toNat = y.toNat) := by rw [← UInt32.toNat_inj]

theorem u8_lt (x y : UInt8) : (x < y) = (x.toNat < y.toNat) := by rw [← UInt8.lt_iff_toNat_lt]
theorem u8_gt (x y : UInt8) : (x > y) = (y.toNat < x.toNat) := by rw [gt_iff_lt, UInt8.lt_iff_toNat_lt]
theorem u8_le (x y : UInt8) : (x ≤ y) = (x.toNat ≤ y.toNat) := by rw [← UInt8.le_iff_toNat_le]
theorem u8_ge (x y : UInt8) : (x ≥ y) = (y.toNat ≤ x.toNat) := by rw [ge_iff_le, UInt8.le_iff_toNat_le]
theorem u16_ge (x y : UInt16) : (x ≥ y) = (y.toNat ≤ x.toNat) := by rw [ge_iff_le, UInt16.le_iff_toNat_le]
theorem u16_bne (x : UInt16) : (x != 0) = decide (x.toNat ≠ 0) := by
  rw [Bool.eq_iff_iff, bne_iff_ne, decide_eq_true_iff, ne_eq, ne_eq, ← UInt16.toNat_inj]; rfl

attribute [bytenorm] UInt16.toNat_sub UInt16.toNat_mul UInt8.toNat_mul

/-- Comparisons of machine words become comparisons of numbers. -/
macro "word_nat" loc:(Lean.Parser.Tactic.location)? : tactic =>
  `(tactic| simp only [bit, u8_bne, u8_beq, u16_bne, decide_eq_true_iff, beq_iff_eq, u8_eq, u16_eq, u32_eq, u8_lt, u8_gt,
     u8_le, u8_ge, u16_ge, ne_eq] $[$loc]?)

/-- Close a goal about bit fields, comparisons included. -/
macro "word_omega" : tactic =>
  `(tactic| (word_nat; byte_bounds; (try bytes_nat); (repeat' split) <;> omega))

/-- An `if` rejecting a message: its condition is a condition on the bits. -/
macro "byte_iff" : tactic =>
  `(tactic| (rw [eq_iff_iff]; word_nat; byte_omega))

/-- A flag of the model is a bit of the message. -/
macro "byte_flag" : tactic =>
  `(tactic| (rw [Bool.eq_iff_iff]; simp only [bit, u8_bne, u8_beq, decide_eq_true_iff, beq_iff_eq]; byte_omega))

/-- Numbers, with comparisons of machine words inside. -/
macro "byte_cond" : tactic =>
  `(tactic| (simp only [bit, u8_bne, u8_beq, decide_eq_true_iff, beq_iff_eq, u8_eq, u16_eq, u32_eq, ne_eq];
             byte_bounds; bytes_nat; (repeat' split) <;> omega))

end Modes
