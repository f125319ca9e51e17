import Verif.Model.ModeS
import Verif.Spec.ModeS
import Verif.Lemmas.Bits
import Verif.Lemmas.Gillham
/-! Symbolic evaluation of the Mode S frame reader. -/
set_option linter.unusedSimpArgs false
open Spec
namespace Modes

theorem land_pow_ne (c : UInt16) (i : Nat) (m : UInt16) (hm : m.toNat = 2 ^ i) :
    ((c &&& m) != 0) = c.toNat.testBit i := by
  rw [Bool.eq_iff_iff, bne_iff_ne, ne_eq, ← UInt16.toNat_inj, UInt16.toNat_and, hm]
  have := Nat.and_field c.toNat i 1
  have e : (2 ^ 1 - 1) * 2 ^ i = 2 ^ i := by omega
  rw [e] at this
  rw [this, Nat.testBit_eq_decide_div_mod_eq, UInt16.toNat_zero]
  have hp : 0 < 2 ^ i := Nat.two_pow_pos i
  rcases Nat.mod_two_eq_zero_or_one (c.toNat / 2 ^ i) with h | h <;> simp [h]

/-- `readAltitude` on a payload whose 13-bit code is `c`. -/
theorem readAltitude_eval (m : MessageData) (p0 p1 p2 : UInt8) (rest : List UInt8)
    (hp : m.payload = p0 :: p1 :: p2 :: rest) (c : Nat) (hc : c = p1.toNat % 32 * 256 + p2.toNat) :
    (∃ method a, readAltitude m = .ok (a, method) ∧ AltitudeMeaning c method a) ∨
    (readAltitude m = .error .err ∧ AltitudeIllegal c) := by
  have hb1 := byte_lt p1
  have hb2 := byte_lt p2
  have hc' : (((p1 &&& 0x1f).toUInt16 <<< 8) + p2.toUInt16).toNat = c := by
    bytes_nat; omega
  have hlt : c < 8192 := by omega
  unfold readAltitude
  simp only [hp, idx, List.getElem?_cons_succ, List.getElem?_cons_zero, bind, Except.bind]
  generalize ((p1 &&& 0x1f).toUInt16 <<< 8) + p2.toUInt16 = code at hc'
  have z : code = 0 ↔ c = 0 := by rw [← UInt16.toNat_inj, hc']; rfl
  have t (i : Nat) (mm : UInt16) (hm : mm.toNat = 2 ^ i) : ((code &&& mm) != 0) = c.testBit i := by
    rw [land_pow_ne code i mm hm, hc']
  rw [t 6 0x40 rfl, t 4 0x10 rfl, t 12 0x1000 rfl, t 11 0x800 rfl, t 10 0x400 rfl, t 9 0x200 rfl, t 8 0x100 rfl,
    t 7 0x80 rfl, t 5 0x20 rfl, t 3 0x8 rfl, t 2 0x4 rfl, t 1 0x2 rfl, t 0 0x1 rfl]
  by_cases h0 : c = 0
  · left
    exact ⟨.notAvailable, 0, by simp [z.2 h0, pure, Except.pure], h0, rfl⟩
  have h0' : ¬ code = 0 := fun e => h0 (z.1 e)
  simp only [h0', if_false]
  cases hm : c.testBit 6
  rotate_left
  · left
    exact ⟨.metricUnits, 0, by simp [pure, Except.pure], hm, rfl⟩
  cases hq : c.testBit 4
  rotate_left
  · left
    refine ⟨.feet25, 25 * (n25AC13 c : Int) - 1000, ?_, hm, hq, rfl⟩
    have m1 : (code &&& 0x1F80).toNat = c / 128 % 64 * 128 := by
      rw [UInt16.toNat_and, hc']; exact Nat.and_field c 7 6
    have m2 : (code &&& 0x20).toNat = c / 32 % 2 * 32 := by
      rw [UInt16.toNat_and, hc']; exact Nat.and_field c 5 1
    have m3 : (code &&& 0xF).toNat = c % 16 := by
      rw [UInt16.toNat_and, hc']; simpa using Nat.and_field c 0 4
    have e : ((((code &&& 0x1F80) >>> 2) ||| ((code &&& 0x20) >>> 1)) ||| (code &&& 0xF)).toNat = n25AC13 c := by
      simp only [UInt16.toNat_or, UInt16.toNat_shiftRight, m1, m2, m3]
      simp only [UInt16.reduceToNat, Nat.reduceMod, Nat.shiftRight_eq_div_pow, Nat.reducePow]
      have a1 : c / 128 % 64 * 128 / 4 = (c / 128 % 64) <<< 5 := by rw [Nat.shiftLeft_eq]; omega
      have a2 : c / 32 % 2 * 32 / 2 = (c / 32 % 2) * 16 := by omega
      rw [a1, a2, ← Nat.shiftLeft_add_eq_or_of_lt (by omega)]
      have a3 : (c / 128 % 64) <<< 5 + c / 32 % 2 * 16 = ((c / 128 % 64) * 2 + c / 32 % 2) <<< 4 := by
        simp only [Nat.shiftLeft_eq]; omega
      rw [a3, ← Nat.shiftLeft_add_eq_or_of_lt (by omega), Nat.shiftLeft_eq, n25AC13]
      omega
    simp only [pure, Except.pure, if_true]
    rw [← e, UInt16.zero_or]
    rfl
  · simp only [Bool.false_eq_true, if_false]
    have hg : gillhamToAltitude false (c.testBit 2) (c.testBit 0) (c.testBit 11) (c.testBit 9) (c.testBit 7)
      (c.testBit 5) (c.testBit 3) (c.testBit 1) (c.testBit 12) (c.testBit 10) (c.testBit 8) =
      gillham (pulsesAC13 c) := rfl
    rw [hg]
    cases hr : gillham (pulsesAC13 c) with
    | ok a =>
      left
      refine ⟨.feet100, a, rfl, hm, hq, ?_⟩
      obtain ⟨k, hk, ha, hpul⟩ := gillham_ok_inv _ _ hr
      refine ⟨k, ?_, hpul, ha⟩
      have hd : (pulsesAC13 c).d1 = false := rfl
      rw [hpul] at hd
      simp only [modeC, gray] at hd
      apply Classical.byContradiction
      intro hk2
      have : (k / 5 ^^^ k / 5 / 2).testBit 8 = true := by
        have h1 : (k / 5).testBit 8 = true := by
          rw [Nat.testBit_eq_decide_div_mod_eq]; simp; omega
        have h2 : (k / 5 / 2).testBit 8 = false := by
          rw [Nat.testBit_eq_decide_div_mod_eq]; simp; omega
        rw [Nat.testBit_xor, h1, h2]; rfl
      rw [this] at hd
      exact absurd hd (by simp)
    | error e =>
      cases e with
      | panic => exact absurd hr (gillham_noPanic _)
      | err =>
        right
        refine ⟨rfl, h0, hm, hq, ?_⟩
        exact (gillham_err_iff _).1 hr

theorem altitudeMeaning_not_illegal (c : Nat) (method : AltitudeReportMethod) (a : Int)
    (h : AltitudeMeaning c method a) : ¬ AltitudeIllegal c := by
  rintro ⟨h0, hm, hq, hl⟩
  cases method with
  | notAvailable => exact h0 h.1
  | metricUnits => rw [h.1] at hm; cases hm
  | feet25 => rw [h.2.1] at hq; cases hq
  | feet100 =>
    obtain ⟨_, _, k, hk, hp, _⟩ := h
    have := (gillham_err_iff (pulsesAC13 c)).2 hl
    rw [hp, gillham_modeC k (by omega)] at this
    cases this

theorem list7 {α : Type} (f : List α) (h : f.length = 7) :
    ∃ b0 b1 b2 b3 b4 b5 b6, f = [b0, b1, b2, b3, b4, b5, b6] := by
  match f, h with
  | [b0, b1, b2, b3, b4, b5, b6], _ => exact ⟨_, _, _, _, _, _, _, rfl⟩

theorem list14 {α : Type} (f : List α) (h : f.length = 14) :
    ∃ b0 b1 b2 b3 b4 b5 b6 b7 b8 b9 b10 b11 b12 b13,
      f = [b0, b1, b2, b3, b4, b5, b6, b7, b8, b9, b10, b11, b12, b13] := by
  match f, h with
  | [b0, b1, b2, b3, b4, b5, b6, b7, b8, b9, b10, b11, b12, b13], _ =>
    exact ⟨_, _, _, _, _, _, _, _, _, _, _, _, _, _, rfl⟩

theorem list6 {α : Type} (f : List α) (h : f.length = 6) :
    ∃ b0 b1 b2 b3 b4 b5, f = [b0, b1, b2, b3, b4, b5] := by
  match f, h with
  | [b0, b1, b2, b3, b4, b5], _ => exact ⟨_, _, _, _, _, _, rfl⟩

/-- The message data `ReadMessage` builds from a frame. -/
def frameData (f : List UInt8) (b0 : UInt8) : MessageData where
  downLinkFormat := (b0 &&& 0xF8) >>> 3
  firstField := b0 &&& 0x07
  payload := (f.take (f.length - 3)).drop 1
  parity := f.drop (f.length - 3)

/-- The parser dispatch of `ReadMessage`. -/
def dispatch (md : MessageData) : Go ModeSMessage :=
  match md.downLinkFormat.toNat with
  | 0 => .df0 <$> parseDF0 md
  | 4 => .df4 <$> parseDF4 md
  | 5 => .df5 <$> parseDF5 md
  | 11 => .df11 <$> parseDF11 md
  | 16 => .df16 <$> parseDF16 md
  | 17 => .df17 <$> parseDF17 md
  | 18 => .df18 <$> parseDF18 md
  | 19 => .df19 <$> parseDF19 md
  | 20 => .df20 <$> parseDF20 md
  | 21 => .df21 <$> parseDF21 md
  | 24 | 25 | 26 | 27 | 28 | 29 | 30 | 31 => .df24 <$> parseDF24 md
  | _ => fail

theorem go_bind_ok {α β : Type} (a : α) (f : α → Go β) : (Except.ok a : Go α) >>= f = f a := rfl
theorem go_bind_err {α β : Type} (e : Fail) (f : α → Go β) : (Except.error e : Go α) >>= f = .error e := rfl
theorem go_map_ok {α β : Type} (a : α) (f : α → β) : f <$> (Except.ok a : Go α) = .ok (f a) := rfl
theorem go_map_err {α β : Type} (e : Fail) (f : α → β) : f <$> (Except.error e : Go α) = .error e := rfl
theorem go_pure {α : Type} (a : α) : (pure a : Go α) = .ok a := rfl
theorem go_fail {α : Type} : (fail : Go α) = .error .err := rfl
theorem go_panic {α : Type} : (goPanic : Go α) = .error .panic := rfl
theorem go_bind_pure {α β : Type} (a : Go α) (f : α → β) : (a >>= fun x => (Except.ok (f x) : Go β)) = f <$> a := by
  cases a <;> rfl
theorem go_map_eq_ok {α β : Type} (a : Go α) (f : α → β) (y : β) : f <$> a = .ok y ↔ ∃ x, a = .ok x ∧ f x = y := by
  cases a with
  | ok x => simp [go_map_ok]
  | error e => simp [go_map_err]

theorem readMessage_eq (f : List UInt8) :
    readMessage f = if h : f.length = 7 ∨ f.length = 14 then dispatch (frameData f (f[0]'(by omega))) else fail := by
  unfold readMessage
  by_cases h : f.length = 7 ∨ f.length = 14
  · have h1 : ¬ (f.length ≠ 7 ∧ f.length ≠ 14) := by omega
    have h0 : 0 < f.length := by omega
    have hs : 1 ≤ f.length - 3 ∧ f.length - 3 ≤ f.length := by omega
    simp only [h1, h, if_false, idx, List.getElem?_eq_getElem h0, slice, sliceFrom, hs, if_true, dite_true, go_bind_ok,
      go_pure, and_self]
    unfold dispatch
    simp only [frameData, go_bind_pure]
    generalize ((f[0] &&& 248) >>> 3).toNat = n
    split <;> first | rfl | (split <;> first | rfl | simp_all)
  · have h1 : (f.length ≠ 7 ∧ f.length ≠ 14) := by omega
    rw [if_pos h1, dif_neg h]
    rfl

end Modes
