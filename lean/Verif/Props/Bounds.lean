import Verif.Model.BitUtils
import Verif.Model.Bounds
import Verif.Lemmas.Float
import Verif.Props.ADSB
/-!
# C70, C71: packing of bits; bounds of the codes of surface positions of version 0
-/
open Spec
namespace Spec
open Modes

/-- The number whose binary digits, most significant first, are the given ones. -/
def ofDigits : List Bool → Nat := fun l => l.foldl (fun n b => 2 * n + b.toNat) 0

/-- What a pair of bounds of the library says of a value: -1 stands for no bound, the lower bound is inclusive and the higher
one exclusive (as their documentation says). -/
def InBounds (lower higher : ℚ) (x : ℝ) : Prop := (lower = -1 ∨ (lower : ℝ) ≤ x) ∧ (higher = -1 ∨ x < (higher : ℝ))

/-- 95% containment radius of the type code (Doc 9871, table A-2-6): the bounds in metres, where there are. -/
def containmentBounds : Nat → Option ℚ × Option ℚ
  | 5 => (none, some 3)
  | 6 => (some 3, some 10)
  | 7 => (some 10, some (926 / 10))
  | 8 => (some (926 / 10), none)
  | _ => (none, none)

/-- Horizontal protection limit of the type code: below 7.5 m, 25 m, 0.1 NM, or not below. -/
def hplBounds : Nat → Option ℚ × Option ℚ
  | 5 => (none, some (75 / 10))
  | 6 => (none, some 25)
  | 7 => (none, some (1852 / 10))
  | 8 => (some (1852 / 10), none)
  | _ => (none, none)

/-- The value stands for that bound: -1 if there is none, otherwise the double nearest to it, itself at most one part in
2^53 away. -/
def Stands (b : Option ℚ) (x : ℚ) : Prop :=
  match b with
  | none => x = -1
  | some q => x = f64 q ∧ |x - q| ≤ q / 2 ^ 53

end Spec
namespace Modes

theorem toNat_orIf8 (r : UInt8) (b : Bool) (k : Nat) (hk : k < 8) (h : r.toNat % 2 ^ (k + 1) = 0) :
    (orIf8 r b (UInt8.ofNat (2 ^ k))).toNat = r.toNat + b.toNat * 2 ^ k := by
  have h2 : (2 : Nat) ^ k < 256 := lt_of_lt_of_le (Nat.pow_lt_pow_right (by omega) hk) (by norm_num)
  cases b
  · simp [orIf8]
  · simp only [orIf8, if_true, UInt8.toNat_or, UInt8.toNat_ofNat', Bool.toNat_true, one_mul]
    rw [Nat.mod_eq_of_lt (by simpa using h2)]
    obtain ⟨c, hc⟩ := Nat.dvd_of_mod_eq_zero h
    rw [hc, ← Nat.two_pow_add_eq_or_of_lt (Nat.pow_lt_pow_right (by omega) (by omega))]

theorem toNat_orIf16 (r : UInt16) (b : Bool) (k : Nat) (hk : k < 16) (h : r.toNat % 2 ^ (k + 1) = 0) :
    (orIf16 r b (UInt16.ofNat (2 ^ k))).toNat = r.toNat + b.toNat * 2 ^ k := by
  have h2 : (2 : Nat) ^ k < 65536 := lt_of_lt_of_le (Nat.pow_lt_pow_right (by omega) hk) (by norm_num)
  cases b
  · simp [orIf16]
  · simp only [orIf16, if_true, UInt16.toNat_or, UInt16.toNat_ofNat', Bool.toNat_true, one_mul]
    rw [Nat.mod_eq_of_lt (by simpa using h2)]
    obtain ⟨c, hc⟩ := Nat.dvd_of_mod_eq_zero h
    rw [hc, ← Nat.two_pow_add_eq_or_of_lt (Nat.pow_lt_pow_right (by omega) (by omega))]

/-- C70: the byte packed from eight flags is the number they are the binary digits of, first one first. -/
theorem pack8Bits_digits (b7 b6 b5 b4 b3 b2 b1 b0 : Bool) :
    (pack8Bits b7 b6 b5 b4 b3 b2 b1 b0).toNat = ofDigits [b7, b6, b5, b4, b3, b2, b1, b0] := by
  revert b7 b6 b5 b4 b3 b2 b1 b0; decide

/-- C70: likewise for sixteen. -/
theorem pack16Bits_digits (b15 b14 b13 b12 b11 b10 b9 b8 b7 b6 b5 b4 b3 b2 b1 b0 : Bool) :
    (pack16Bits b15 b14 b13 b12 b11 b10 b9 b8 b7 b6 b5 b4 b3 b2 b1 b0).toNat =
      ofDigits [b15, b14, b13, b12, b11, b10, b9, b8, b7, b6, b5, b4, b3, b2, b1, b0] := by
  unfold pack16Bits
  have z : (0 : UInt16).toNat = 0 := rfl
  have h15 := toNat_orIf16 0 b15 15 (by omega) (by simp)
  set r15 := orIf16 0 b15 0x8000 with e15
  have h15 : r15.toNat = b15.toNat * 32768 := by simpa using h15
  have h14 : (orIf16 r15 b14 0x4000).toNat = _ := toNat_orIf16 r15 b14 14 (by omega) (by omega)
  set r14 := orIf16 r15 b14 0x4000
  have h13 : (orIf16 r14 b13 0x2000).toNat = _ := toNat_orIf16 r14 b13 13 (by omega) (by omega)
  set r13 := orIf16 r14 b13 0x2000
  have h12 : (orIf16 r13 b12 0x1000).toNat = _ := toNat_orIf16 r13 b12 12 (by omega) (by omega)
  set r12 := orIf16 r13 b12 0x1000
  have h11 : (orIf16 r12 b11 0x0800).toNat = _ := toNat_orIf16 r12 b11 11 (by omega) (by omega)
  set r11 := orIf16 r12 b11 0x0800
  have h10 : (orIf16 r11 b10 0x0400).toNat = _ := toNat_orIf16 r11 b10 10 (by omega) (by omega)
  set r10 := orIf16 r11 b10 0x0400
  have h9 : (orIf16 r10 b9 0x0200).toNat = _ := toNat_orIf16 r10 b9 9 (by omega) (by omega)
  set r9 := orIf16 r10 b9 0x0200
  have h8 : (orIf16 r9 b8 0x0100).toNat = _ := toNat_orIf16 r9 b8 8 (by omega) (by omega)
  set r8 := orIf16 r9 b8 0x0100
  have h7 : (orIf16 r8 b7 0x0080).toNat = _ := toNat_orIf16 r8 b7 7 (by omega) (by omega)
  set r7 := orIf16 r8 b7 0x0080
  have h6 : (orIf16 r7 b6 0x0040).toNat = _ := toNat_orIf16 r7 b6 6 (by omega) (by omega)
  set r6 := orIf16 r7 b6 0x0040
  have h5 : (orIf16 r6 b5 0x0020).toNat = _ := toNat_orIf16 r6 b5 5 (by omega) (by omega)
  set r5 := orIf16 r6 b5 0x0020
  have h4 : (orIf16 r5 b4 0x0010).toNat = _ := toNat_orIf16 r5 b4 4 (by omega) (by omega)
  set r4 := orIf16 r5 b4 0x0010
  have h3 : (orIf16 r4 b3 0x0008).toNat = _ := toNat_orIf16 r4 b3 3 (by omega) (by omega)
  set r3 := orIf16 r4 b3 0x0008
  have h2 : (orIf16 r3 b2 0x0004).toNat = _ := toNat_orIf16 r3 b2 2 (by omega) (by omega)
  set r2 := orIf16 r3 b2 0x0004
  have h1 : (orIf16 r2 b1 0x0002).toNat = _ := toNat_orIf16 r2 b1 1 (by omega) (by omega)
  set r1 := orIf16 r2 b1 0x0002
  have h0 : (orIf16 r1 b0 0x0001).toNat = _ := toNat_orIf16 r1 b0 0 (by omega) (by omega)
  set r0 := orIf16 r1 b0 0x0001
  show r0.toNat = _
  simp only [ofDigits, List.foldl_cons, List.foldl_nil]
  omega

example : pack16Bits true false true false false false false true true true true true false false true true = 0xA1F3 := by
  decide

theorem stands_f64 (q : ℚ) (h : 0 ≤ q) : Stands (some q) (f64 q) := by
  have := rnd_err (K := ℚ) 53 q
  rw [abs_of_nonneg h] at this
  exact ⟨rfl, this⟩

theorem stands_none : Stands none (f64 (-1)) := f64_int (-1) (by decide)

/-- C71: the bounds given for any code are the published ones. -/
theorem containment_bounds (cr : UInt8) :
    Stands (containmentBounds cr.toNat).1 (containmentLowerBound cr) ∧
    Stands (containmentBounds cr.toNat).2 (containmentHigherBound cr) := by
  unfold containmentBounds containmentLowerBound containmentHigherBound
  generalize cr.toNat = n
  constructor <;> split <;> first
    | exact stands_none
    | exact stands_f64 _ (by norm_num)
    | (split <;> first | contradiction | exact stands_none)

theorem hpl_bounds (hpl : UInt8) :
    Stands (hplBounds hpl.toNat).1 (hplLowerBound hpl) ∧ Stands (hplBounds hpl.toNat).2 (hplHigherBound hpl) := by
  unfold hplBounds hplLowerBound hplHigherBound
  generalize hpl.toNat = n
  constructor <;> split <;> first
    | exact stands_none
    | exact stands_f64 _ (by norm_num)
    | (split <;> first | contradiction | exact stands_none)

theorem near926 : (92 : ℝ) < (f64 (926 / 10) : ℚ) ∧ ((f64 (926 / 10) : ℚ) : ℝ) < 93 := by
  have h := abs_le.1 (stands_f64 (926 / 10) (by norm_num)).2
  constructor
  · have : (92 : ℚ) < f64 (926 / 10) := by norm_num at h ⊢; linarith [h.1]
    exact_mod_cast this
  · have : f64 (926 / 10) < (93 : ℚ) := by norm_num at h ⊢; linarith [h.2]
    exact_mod_cast this

theorem near1852 : (185 : ℝ) < (f64 (1852 / 10) : ℚ) ∧ ((f64 (1852 / 10) : ℚ) : ℝ) < 186 := by
  have h := abs_le.1 (stands_f64 (1852 / 10) (by norm_num)).2
  constructor
  · have : (185 : ℚ) < f64 (1852 / 10) := by norm_num at h ⊢; linarith [h.1]
    exact_mod_cast this
  · have : f64 (1852 / 10) < (186 : ℚ) := by norm_num at h ⊢; linarith [h.2]
    exact_mod_cast this

theorem f64_exact3 : f64 3 = 3 ∧ f64 10 = 10 ∧ f64 25 = 25 ∧ f64 (75 / 10) = 75 / 10 ∧ f64 (-1) = -1 :=
  ⟨f64_int 3 (by decide), f64_int 10 (by decide), f64_int 25 (by decide),
    f64_exact _ 15 1 (by norm_num) (by decide), f64_int (-1) (by decide)⟩

/-- The radius is within the bounds given for the code. -/
def ContainmentAdmits (cr : UInt8) (x : ℝ) : Prop := InBounds (containmentLowerBound cr) (containmentHigherBound cr) x
/-- The limit is within the bounds given for the code. -/
def HplAdmits (hpl : UInt8) (x : ℝ) : Prop := InBounds (hplLowerBound hpl) (hplHigherBound hpl) x

theorem containmentAdmits_iff (x : ℝ) :
    (ContainmentAdmits 5 x ↔ x < 3) ∧ (ContainmentAdmits 6 x ↔ 3 ≤ x ∧ x < 10) ∧
    (ContainmentAdmits 7 x ↔ 10 ≤ x ∧ x < (f64 (926 / 10) : ℚ)) ∧ (ContainmentAdmits 8 x ↔ ((f64 (926 / 10) : ℚ) : ℝ) ≤ x) := by
  obtain ⟨e3, e10, e25, e75, em⟩ := f64_exact3
  have n : f64 (926 / 10) ≠ -1 := fun h => by have := near926.1; rw [h] at this; norm_num at this
  have c5 : containmentLowerBound 5 = -1 ∧ containmentHigherBound 5 = 3 := ⟨em, e3⟩
  have c6 : containmentLowerBound 6 = 3 ∧ containmentHigherBound 6 = 10 := ⟨e3, e10⟩
  have c7 : containmentLowerBound 7 = 10 ∧ containmentHigherBound 7 = f64 (926 / 10) := ⟨e10, rfl⟩
  have c8 : containmentLowerBound 8 = f64 (926 / 10) ∧ containmentHigherBound 8 = -1 := ⟨rfl, em⟩
  unfold ContainmentAdmits InBounds
  rw [c5.1, c5.2, c6.1, c6.2, c7.1, c7.2, c8.1, c8.2]
  generalize f64 (926 / 10) = q at n ⊢
  refine ⟨?_, ?_, ?_, ?_⟩ <;> norm_num [n]

theorem hplAdmits_iff (x : ℝ) :
    (HplAdmits 5 x ↔ x < 15 / 2) ∧ (HplAdmits 6 x ↔ x < 25) ∧
    (HplAdmits 7 x ↔ x < (f64 (1852 / 10) : ℚ)) ∧ (HplAdmits 8 x ↔ ((f64 (1852 / 10) : ℚ) : ℝ) ≤ x) := by
  obtain ⟨e3, e10, e25, e75, em⟩ := f64_exact3
  have n : f64 (1852 / 10) ≠ -1 := fun h => by have := near1852.1; rw [h] at this; norm_num at this
  have c5 : hplLowerBound 5 = -1 ∧ hplHigherBound 5 = 75 / 10 := ⟨em, e75⟩
  have c6 : hplLowerBound 6 = -1 ∧ hplHigherBound 6 = 25 := ⟨em, e25⟩
  have c7 : hplLowerBound 7 = -1 ∧ hplHigherBound 7 = f64 (1852 / 10) := ⟨em, rfl⟩
  have c8 : hplLowerBound 8 = f64 (1852 / 10) ∧ hplHigherBound 8 = -1 := ⟨rfl, em⟩
  unfold HplAdmits InBounds
  rw [c5.1, c5.2, c6.1, c6.2, c7.1, c7.2, c8.1, c8.2]
  generalize f64 (1852 / 10) = q at n ⊢
  refine ⟨?_, ?_, ?_, ?_⟩ <;> norm_num [n]

theorem surfaceCodes (v : UInt8) (a c : Bool) (d : List UInt8) (p : SurfacePosition) (h r : UInt8) (e : Bool)
    (hr : readADSBMessage v a c d = .returns (.val (.surfaceV0 p h r)) e) :
    h = r ∧ (r = 5 ∨ r = 6 ∨ r = 7 ∨ r = 8) := by
  obtain ⟨-, htc, -, -, h1, h2⟩ := adsb_dispatch v a c d _ e hr
  unfold SurfaceTC at htc
  refine ⟨UInt8.toNat_inj.1 (h1.trans h2.symm), ?_⟩
  rw [← h2] at htc
  have : r.toNat = 5 ∨ r.toNat = 6 ∨ r.toNat = 7 ∨ r.toNat = 8 := by omega
  rcases this with h | h | h | h
  · exact Or.inl (UInt8.toNat_inj.1 h)
  · exact Or.inr (Or.inl (UInt8.toNat_inj.1 h))
  · exact Or.inr (Or.inr (Or.inl (UInt8.toNat_inj.1 h)))
  · exact Or.inr (Or.inr (Or.inr (UInt8.toNat_inj.1 h)))

/-- C71: the radii of two surface positions read with version 0 never disagree without being in different classes: a
containment radius is within the bounds of both only if their codes are the same. -/
theorem containment_disjoint (a c a' c' : Bool) (d d' : List UInt8) (p p' : SurfacePosition) (h r h' r' : UInt8) (e e' : Bool)
    (hr : readADSBMessage 0 a c d = .returns (.val (.surfaceV0 p h r)) e)
    (hr' : readADSBMessage 0 a' c' d' = .returns (.val (.surfaceV0 p' h' r')) e') (x : ℝ)
    (hx : ContainmentAdmits r x) (hx' : ContainmentAdmits r' x) : r = r' := by
  obtain ⟨i5, i6, i7, i8⟩ := containmentAdmits_iff x
  have := near926.1
  rcases (surfaceCodes _ _ _ _ _ _ _ _ hr).2 with rfl | rfl | rfl | rfl <;>
    rcases (surfaceCodes _ _ _ _ _ _ _ _ hr').2 with rfl | rfl | rfl | rfl <;>
    first
      | rfl
      | (exfalso; simp only [i5, i6, i7, i8] at hx hx'
         first | linarith | linarith [hx.1] | linarith [hx.2] | linarith [hx'.1] | linarith [hx'.2]
               | linarith [hx.1, hx'.1, hx.2, hx'.2] | linarith [hx.1, hx.2] | linarith [hx'.1, hx'.2])

/-- C71: and no radius is left out: the classes of the four type codes cover all of them. -/
theorem containment_covers (x : ℝ) : ∃ cr : UInt8, 5 ≤ cr.toNat ∧ cr.toNat ≤ 8 ∧ ContainmentAdmits cr x := by
  obtain ⟨i5, i6, i7, i8⟩ := containmentAdmits_iff x
  by_cases h3 : x < 3
  · exact ⟨5, by decide, by decide, i5.2 h3⟩
  by_cases h10 : x < 10
  · exact ⟨6, by decide, by decide, i6.2 ⟨not_lt.1 h3, h10⟩⟩
  by_cases h9 : x < (f64 (926 / 10) : ℚ)
  · exact ⟨7, by decide, by decide, i7.2 ⟨not_lt.1 h10, h9⟩⟩
  · exact ⟨8, by decide, by decide, i8.2 (not_lt.1 h9)⟩

/-- C71: the protection limits are upper bounds that loosen with the code, the last class holding what exceeds them all. -/
theorem hpl_nested (x : ℝ) : (HplAdmits 5 x → HplAdmits 6 x) ∧ (HplAdmits 6 x → HplAdmits 7 x) ∧
    (HplAdmits 8 x ↔ ¬ HplAdmits 7 x) := by
  obtain ⟨i5, i6, i7, i8⟩ := hplAdmits_iff x
  have := near1852.1
  rw [i5, i6, i7, i8, not_lt]
  exact ⟨fun h => by linarith, fun h => by linarith, Iff.rfl⟩

example : ∃ p h r, readADSBMessage 0 false false [0x30, 0, 0, 0, 0, 0, 0] = .returns (.val (.surfaceV0 p h r)) false ∧
    r = 6 ∧ ContainmentAdmits r 5 := by
  obtain ⟨m, hm⟩ := (adsb_accepts 0 false false [0x30, 0, 0, 0, 0, 0, 0]).1.2
    ⟨rfl, Or.inr (Or.inr (Or.inl (by decide)))⟩
  have hc := (adsb_dispatch _ _ _ _ _ _ hm).2
  have t : bits [0x30, 0, 0, 0, 0, 0, 0] 1 5 = 6 := by decide
  cases m <;> simp only [AdsbContent, t] at hc <;> try (exfalso; simp [AirborneTC] at hc; done)
  rename_i p h r
  obtain rfl : r = 6 := UInt8.toNat_inj.1 hc.2.2.2.2
  exact ⟨p, h, 6, hm, rfl, (containmentAdmits_iff 5).2.1.2 (by norm_num)⟩

end Modes
