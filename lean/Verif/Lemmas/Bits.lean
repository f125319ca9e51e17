import Verif.Lemmas.Attr
import Verif.Model.BitUtils
import Verif.Spec.Bits
import Lean.Elab.Tactic.ElabTerm
/-!
# Arithmetic of bit masks

`bytenorm` turns masks, shifts and packings on bytes into natural-number arithmetic that `omega` decides.
-/
open Spec Modes

theorem forall_uint8 {P : UInt8 → Prop} (h : ∀ n < 256, P (UInt8.ofNat n)) (x : UInt8) : P x := by
  have := h x.toNat x.toNat_lt
  rwa [UInt8.ofNat_toNat] at this

namespace Modes

/-- A contiguous mask extracts a bit field. -/
theorem Nat.and_field (n s k : Nat) : n &&& ((2 ^ k - 1) * 2 ^ s) = n / 2 ^ s % 2 ^ k * 2 ^ s := by
  apply Nat.eq_of_testBit_eq
  intro i
  rw [Nat.testBit_and, Nat.testBit_mul_two_pow, Nat.testBit_mul_two_pow, Nat.testBit_mod_two_pow,
    Nat.testBit_div_two_pow, Nat.testBit_two_pow_sub_one]
  by_cases h : s ≤ i
  · simp [h, Nat.sub_add_cancel h, Bool.and_comm]
  · simp [h]

@[bytenorm] theorem land_1 (n : Nat) : n &&& 1 = n % 2 := by
  simp
@[bytenorm] theorem land_3 (n : Nat) : n &&& 3 = n % 4 := by
  simpa using Nat.and_field n 0 2
@[bytenorm] theorem land_7 (n : Nat) : n &&& 7 = n % 8 := by
  simpa using Nat.and_field n 0 3
@[bytenorm] theorem land_15 (n : Nat) : n &&& 15 = n % 16 := by
  simpa using Nat.and_field n 0 4
@[bytenorm] theorem land_31 (n : Nat) : n &&& 31 = n % 32 := by
  simpa using Nat.and_field n 0 5
@[bytenorm] theorem land_63 (n : Nat) : n &&& 63 = n % 64 := by
  simpa using Nat.and_field n 0 6
@[bytenorm] theorem land_127 (n : Nat) : n &&& 127 = n % 128 := by
  simpa using Nat.and_field n 0 7
@[bytenorm] theorem land_255 (n : Nat) : n &&& 255 = n % 256 := by
  simpa using Nat.and_field n 0 8
@[bytenorm] theorem land_2 (n : Nat) : n &&& 2 = n / 2 % 2 * 2 := by
  simpa using Nat.and_field n 1 1
@[bytenorm] theorem land_6 (n : Nat) : n &&& 6 = n / 2 % 4 * 2 := by
  simpa using Nat.and_field n 1 2
@[bytenorm] theorem land_14 (n : Nat) : n &&& 14 = n / 2 % 8 * 2 := by
  simpa using Nat.and_field n 1 3
@[bytenorm] theorem land_30 (n : Nat) : n &&& 30 = n / 2 % 16 * 2 := by
  simpa using Nat.and_field n 1 4
@[bytenorm] theorem land_62 (n : Nat) : n &&& 62 = n / 2 % 32 * 2 := by
  simpa using Nat.and_field n 1 5
@[bytenorm] theorem land_126 (n : Nat) : n &&& 126 = n / 2 % 64 * 2 := by
  simpa using Nat.and_field n 1 6
@[bytenorm] theorem land_254 (n : Nat) : n &&& 254 = n / 2 % 128 * 2 := by
  simpa using Nat.and_field n 1 7
@[bytenorm] theorem land_4 (n : Nat) : n &&& 4 = n / 4 % 2 * 4 := by
  simpa using Nat.and_field n 2 1
@[bytenorm] theorem land_12 (n : Nat) : n &&& 12 = n / 4 % 4 * 4 := by
  simpa using Nat.and_field n 2 2
@[bytenorm] theorem land_28 (n : Nat) : n &&& 28 = n / 4 % 8 * 4 := by
  simpa using Nat.and_field n 2 3
@[bytenorm] theorem land_60 (n : Nat) : n &&& 60 = n / 4 % 16 * 4 := by
  simpa using Nat.and_field n 2 4
@[bytenorm] theorem land_124 (n : Nat) : n &&& 124 = n / 4 % 32 * 4 := by
  simpa using Nat.and_field n 2 5
@[bytenorm] theorem land_252 (n : Nat) : n &&& 252 = n / 4 % 64 * 4 := by
  simpa using Nat.and_field n 2 6
@[bytenorm] theorem land_8 (n : Nat) : n &&& 8 = n / 8 % 2 * 8 := by
  simpa using Nat.and_field n 3 1
@[bytenorm] theorem land_24 (n : Nat) : n &&& 24 = n / 8 % 4 * 8 := by
  simpa using Nat.and_field n 3 2
@[bytenorm] theorem land_56 (n : Nat) : n &&& 56 = n / 8 % 8 * 8 := by
  simpa using Nat.and_field n 3 3
@[bytenorm] theorem land_120 (n : Nat) : n &&& 120 = n / 8 % 16 * 8 := by
  simpa using Nat.and_field n 3 4
@[bytenorm] theorem land_248 (n : Nat) : n &&& 248 = n / 8 % 32 * 8 := by
  simpa using Nat.and_field n 3 5
@[bytenorm] theorem land_16 (n : Nat) : n &&& 16 = n / 16 % 2 * 16 := by
  simpa using Nat.and_field n 4 1
@[bytenorm] theorem land_48 (n : Nat) : n &&& 48 = n / 16 % 4 * 16 := by
  simpa using Nat.and_field n 4 2
@[bytenorm] theorem land_112 (n : Nat) : n &&& 112 = n / 16 % 8 * 16 := by
  simpa using Nat.and_field n 4 3
@[bytenorm] theorem land_240 (n : Nat) : n &&& 240 = n / 16 % 16 * 16 := by
  simpa using Nat.and_field n 4 4
@[bytenorm] theorem land_32 (n : Nat) : n &&& 32 = n / 32 % 2 * 32 := by
  simpa using Nat.and_field n 5 1
@[bytenorm] theorem land_96 (n : Nat) : n &&& 96 = n / 32 % 4 * 32 := by
  simpa using Nat.and_field n 5 2
@[bytenorm] theorem land_224 (n : Nat) : n &&& 224 = n / 32 % 8 * 32 := by
  simpa using Nat.and_field n 5 3
@[bytenorm] theorem land_64 (n : Nat) : n &&& 64 = n / 64 % 2 * 64 := by
  simpa using Nat.and_field n 6 1
@[bytenorm] theorem land_192 (n : Nat) : n &&& 192 = n / 64 % 4 * 64 := by
  simpa using Nat.and_field n 6 2
@[bytenorm] theorem land_128 (n : Nat) : n &&& 128 = n / 128 % 2 * 128 := by
  simpa using Nat.and_field n 7 1

attribute [bytenorm] UInt8.toNat_and UInt8.toNat_add UInt8.toNat_sub UInt8.toNat_shiftLeft UInt8.toNat_shiftRight
  UInt8.toNat_toUInt16 UInt8.toNat_toUInt32 UInt16.toNat_toUInt32 UInt16.toNat_and UInt16.toNat_add UInt16.toNat_shiftLeft
  UInt16.toNat_shiftRight UInt32.toNat_and UInt32.toNat_add UInt32.toNat_shiftLeft UInt32.toNat_shiftRight
  Nat.shiftLeft_eq Nat.shiftRight_eq_div_pow
  pack2 pack3 pack4 Nat.zero_mul Nat.mul_one Nat.div_one Nat.add_zero Nat.zero_add

/-- Introduce the bound of a byte. -/
theorem byte_lt (x : UInt8) : x.toNat < 256 := x.toNat_lt


open Lean Elab Tactic Meta in
/-- Adds `x.toNat < 256` for every byte `x` of the context. -/
elab "byte_bounds" : tactic => do
  let g ← getMainGoal
  g.withContext do
    for ldecl in ← getLCtx do
      if ldecl.isImplementationDetail then continue
      if (← instantiateMVars ldecl.type).isConstOf ``UInt8 then
        let x := ldecl.toExpr
        let pf ← mkAppM ``Modes.byte_lt #[x]
        let ty ← inferType pf
        let g ← getMainGoal
        let g ← g.assert `hb ty pf
        let (_, g) ← g.intro1
        replaceMainGoal [g]

/-- Push everything to `Nat` arithmetic. -/
macro "bytes_nat" loc:(Lean.Parser.Tactic.location)? : tactic =>
  `(tactic| simp only [bytenorm, bits, beNat, List.length_cons, List.length_nil, UInt8.reduceToNat,
      UInt16.reduceToNat, UInt32.reduceToNat, Nat.reduceMod, Nat.reducePow, Nat.reduceMul, Nat.reduceAdd,
      Nat.reduceSub, Nat.reduceDiv, Nat.reduceEqDiff] $[$loc]?)

/-- Decide an equation between a machine expression and a bit field. -/
macro "byte_omega" : tactic => `(tactic| (byte_bounds; (try bytes_nat); omega))

theorem toBytes_length (n v : Nat) : (toBytes n v).length = n := by
  induction n with
  | zero => rfl
  | succ n ih => simp [toBytes, ih]

theorem beNat_toBytes (n v : Nat) : beNat (toBytes n v) = v % 256 ^ n := by
  induction n with
  | zero => simp [toBytes, beNat, Nat.mod_one]
  | succ n ih =>
    simp only [toBytes, beNat, toBytes_length, ih, UInt8.toNat_ofNat']
    have e : v % 256 ^ (n + 1) = v % 256 ^ n + 256 ^ n * (v / 256 ^ n % 256) := by
      rw [Nat.pow_succ, Nat.mod_mul]
    rw [e, Nat.pow_mul, Nat.mul_comm (256 ^ n), Nat.add_comm]


theorem beNat_cons_toBytes6 (b : UInt8) (v : Nat) :
    beNat (b :: toBytes 6 v) = b.toNat * 281474976710656 + v % 281474976710656 := by
  have h := beNat_toBytes 6 v
  have hl := toBytes_length 6 v
  generalize toBytes 6 v = l at h hl
  rw [beNat, h, hl]

end Modes
