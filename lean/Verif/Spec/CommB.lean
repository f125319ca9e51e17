import Verif.Spec.Bits
import Mathlib.Data.List.Basic
/-!
# Which registers a Comm-B field may be, from its bits alone

For each register, the condition on the 56 bits of the field under which the program offers that register as an
interpretation, written with bit numbers only (bit 1 first) and no mention of the reader.

-/
namespace Spec

/-- Register 0,0: nothing. -/
def Says00 (d : List UInt8) : Prop := bits d 1 56 = 0

/-- Register 0,7: the rate is not 3, bits 4-6 and everything from bit 9 on is zero (bits 7 and 8 are free). -/
def Says07 (d : List UInt8) : Prop := bits d 4 6 = 0 ∧ bits d 9 56 = 0 ∧ bits d 1 2 ≤ 2

/-- A six-bit code that stands for a letter, a space or a digit. -/
def CharCode (n : Nat) : Prop := (1 ≤ n ∧ n ≤ 26) ∨ n = 32 ∨ (48 ≤ n ∧ n ≤ 57)

/-- Register 2,0: its number, then eight characters. -/
def Says20 (d : List UInt8) : Prop :=
  bits d 1 8 = 0x20 ∧ CharCode (bits d 9 14) ∧ CharCode (bits d 15 20) ∧ CharCode (bits d 21 26) ∧ CharCode (bits d 27 32) ∧
  CharCode (bits d 33 38) ∧ CharCode (bits d 39 44) ∧ CharCode (bits d 45 50) ∧ CharCode (bits d 51 56)

/-- Register 1,0: its number, the reserved bits, no ACAS detail without ACAS, and no reserved value. -/
def Says10 (d : List UInt8) : Prop :=
  bits d 1 8 = 0x10 ∧ bits d 10 14 = 0 ∧ (bits d 16 16 = 0 → bits d 37 40 = 0) ∧ bits d 39 40 ≤ 2 ∧ bits d 17 23 ≤ 5 ∧
  bits d 26 28 ≤ 6 ∧ bits d 29 32 ≤ 6

/-- Register 1,7: zeros from bit 30 on. -/
def Says17 (d : List UInt8) : Prop := bits d 30 56 = 0

/-- The twelve-bit number the program makes of the altitude of a threat: bits 33-36 and 38-43, plus four times bits 31-32
(whose documented weights are different). -/
def threatNumber (d : List UInt8) : Nat := 64 * bits d 33 36 + bits d 38 43 + 4 * bits d 31 32

/-- Register 3,0: its number, and, if the threat is given by its altitude, one of the pulses C2 and C4 in a non-zero code. -/
def Says30 (d : List UInt8) : Prop :=
  bits d 1 8 = 0x30 ∧
  (bits d 29 30 = 2 → threatNumber d ≠ 0 → threatNumber d / 512 % 2 = 1 ∨ threatNumber d / 128 % 2 = 1)

/-- Register 4,0: the reserved bits, the status of the first altitude, and either the status of the second or a first number
that is zero. -/
def Says40 (d : List UInt8) : Prop :=
  bits d 40 47 = 0 ∧ bits d 52 53 = 0 ∧ bit d 1 = true ∧ (bit d 14 = true ∨ bits d 2 13 = 0)

/-- Register 4,4: a known source, some parameter, zero where the status is clear, wind at most 250 kt, temperature between
-80 and 60 degrees in eighths. -/
def Says44 (d : List UInt8) : Prop :=
  bits d 1 4 ≤ 4 ∧ (bit d 5 ∨ bit d 15 ∨ bit d 24 ∨ bit d 36 ∨ bit d 49) ∧
  (bit d 5 = false → bits d 7 14 = 0) ∧ (bit d 15 = false → bits d 16 23 = 0) ∧ (bit d 24 = false → bits d 25 35 = 0) ∧
  (bit d 36 = false → bits d 37 47 = 0) ∧ (bit d 49 = false → bits d 50 56 = 0) ∧
  bits d 7 14 ≤ 250 ∧ -640 ≤ sbits d 25 35 ∧ sbits d 25 35 ≤ 480

/-- Register 4,5: the reserved bits, some parameter, zero where the status is clear (except the temperature), and an available
temperature between -80 and 60 degrees. -/
def Says45 (d : List UInt8) : Prop :=
  bits d 55 56 = 0 ∧ (bit d 1 ∨ bit d 4 ∨ bit d 7 ∨ bit d 10 ∨ bit d 13 ∨ bit d 25 ∨ bit d 38) ∧
  (bit d 1 = false → bits d 2 3 = 0) ∧ (bit d 4 = false → bits d 5 6 = 0) ∧ (bit d 7 = false → bits d 8 9 = 0) ∧
  (bit d 10 = false → bits d 11 12 = 0) ∧ (bit d 13 = true → -640 ≤ sbits d 14 24 ∧ sbits d 14 24 ≤ 480) ∧
  (bit d 25 = false → bits d 26 37 = 0) ∧ (bit d 38 = false → bits d 39 54 = 0)

/-- Register 5,0: some parameter, zero where the status is clear, roll within 50 degrees, ground speed at most 600 kt, true
airspeed at most 500 kt, and the two at most 200 kt apart (the speeds are in units of 2 kt). -/
def Says50 (d : List UInt8) : Prop :=
  (bit d 1 ∨ bit d 12 ∨ bit d 24 ∨ bit d 35 ∨ bit d 46) ∧
  (bit d 1 = false → bits d 2 11 = 0) ∧ (bit d 12 = false → bits d 13 23 = 0) ∧ (bit d 24 = false → bits d 25 34 = 0) ∧
  (bit d 35 = false → bits d 36 45 = 0) ∧ (bit d 46 = false → bits d 47 56 = 0) ∧
  -284 ≤ sbits d 2 11 ∧ sbits d 2 11 ≤ 284 ∧ bits d 25 34 ≤ 300 ∧ bits d 47 56 ≤ 250 ∧
  bits d 25 34 ≤ bits d 47 56 + 100 ∧ bits d 47 56 ≤ bits d 25 34 + 100

/-- Register 6,0: some parameter, zero where the status is clear, indicated airspeed at most 500 kt, Mach at most 1, vertical
rates within 6000 ft/min. -/
def Says60 (d : List UInt8) : Prop :=
  (bit d 1 ∨ bit d 13 ∨ bit d 24 ∨ bit d 35 ∨ bit d 46) ∧
  (bit d 1 = false → bits d 2 12 = 0) ∧ (bit d 13 = false → bits d 14 23 = 0) ∧ (bit d 24 = false → bits d 25 34 = 0) ∧
  (bit d 35 = false → bits d 36 45 = 0) ∧ (bit d 46 = false → bits d 47 56 = 0) ∧
  bits d 14 23 ≤ 500 ∧ bits d 25 34 ≤ 250 ∧
  -187 ≤ sbits d 36 45 ∧ sbits d 36 45 ≤ 187 ∧ -187 ≤ sbits d 47 56 ∧ sbits d 47 56 ≤ 187

instance (d : List UInt8) : Decidable (Says00 d) := by unfold Says00; infer_instance
instance (d : List UInt8) : Decidable (Says07 d) := by unfold Says07; infer_instance
instance (n : Nat) : Decidable (CharCode n) := by unfold CharCode; infer_instance
instance (d : List UInt8) : Decidable (Says20 d) := by unfold Says20; infer_instance
instance (d : List UInt8) : Decidable (Says10 d) := by unfold Says10; infer_instance
instance (d : List UInt8) : Decidable (Says17 d) := by unfold Says17; infer_instance
instance (d : List UInt8) : Decidable (Says30 d) := by unfold Says30; infer_instance
instance (d : List UInt8) : Decidable (Says40 d) := by unfold Says40; infer_instance
instance (d : List UInt8) : Decidable (Says44 d) := by unfold Says44; infer_instance
instance (d : List UInt8) : Decidable (Says45 d) := by unfold Says45; infer_instance
instance (d : List UInt8) : Decidable (Says50 d) := by unfold Says50; infer_instance
instance (d : List UInt8) : Decidable (Says60 d) := by unfold Says60; infer_instance

/-- The register, if the field says so. -/
def ifSays (p : Prop) [Decidable p] (k : Nat) : List Nat := if p then [k] else []

/-- The registers a seven-byte Comm-B field may be: the first of 0,0, 0,7 and 2,0 that fits, alone, and otherwise all those of
the eight others that fit. -/
def registersOf (d : List UInt8) : List Nat :=
  if Says00 d then [0x00] else if Says07 d then [0x07] else if Says20 d then [0x20]
  else ifSays (Says10 d) 0x10 ++ ifSays (Says17 d) 0x17 ++ ifSays (Says30 d) 0x30 ++ ifSays (Says40 d) 0x40 ++
    ifSays (Says44 d) 0x44 ++ ifSays (Says45 d) 0x45 ++ ifSays (Says50 d) 0x50 ++ ifSays (Says60 d) 0x60

/-- The forty-nine answers that occur. -/
def possibleAnswers : List (List Nat) :=
  [[0x00], [0x07], [0x20], [],
   [0x10], [0x17], [0x30], [0x40], [0x44], [0x45], [0x50], [0x60],
   [0x10, 0x17], [0x10, 0x44], [0x10, 0x45], [0x17, 0x30], [0x17, 0x40], [0x17, 0x44], [0x17, 0x45], [0x17, 0x50],
   [0x17, 0x60], [0x30, 0x44], [0x40, 0x45], [0x40, 0x50], [0x40, 0x60], [0x44, 0x45], [0x44, 0x50], [0x44, 0x60],
   [0x50, 0x60],
   [0x10, 0x17, 0x44], [0x10, 0x17, 0x45], [0x10, 0x44, 0x45], [0x17, 0x30, 0x44], [0x17, 0x40, 0x45], [0x17, 0x40, 0x50],
   [0x17, 0x40, 0x60], [0x17, 0x44, 0x45], [0x17, 0x44, 0x60], [0x17, 0x45, 0x50], [0x17, 0x45, 0x60], [0x17, 0x50, 0x60],
   [0x40, 0x50, 0x60], [0x44, 0x50, 0x60],
   [0x10, 0x17, 0x44, 0x45], [0x17, 0x40, 0x45, 0x50], [0x17, 0x40, 0x50, 0x60], [0x17, 0x44, 0x50, 0x60],
   [0x17, 0x45, 0x50, 0x60],
   [0x17, 0x40, 0x45, 0x50, 0x60]]

end Spec
