import Mathlib.Data.List.Induction
import Mathlib.Tactic.Ring
import Verif.Lemmas.Frame
import Verif.Props.Frame
import Verif.Spec.Pack
/-! Fields packed into bits, and read back from their positions. -/
namespace Modes
open Spec

theorem pack_append (l₁ l₂ : List (Nat × Nat)) : pack (l₁ ++ l₂) = pack l₁ * 2 ^ packWidth l₂ + pack l₂ := by
  induction l₂ using List.reverseRecOn with
  | nil => simp [pack, packWidth]
  | append_singleton l p ih =>
    have e (l : List (Nat × Nat)) : pack (l ++ [p]) = pack l * 2 ^ p.1 + p.2 := by simp [pack]
    have w : packWidth (l ++ [p]) = packWidth l + p.1 := by simp [packWidth]
    rw [← List.append_assoc, e, e, ih, w, pow_add]
    ring

theorem pack_lt (l : List (Nat × Nat)) (h : Fits l) : pack l < 2 ^ packWidth l := by
  induction l using List.reverseRecOn with
  | nil => decide
  | append_singleton l p ih =>
    have e : pack (l ++ [p]) = pack l * 2 ^ p.1 + p.2 := by simp [pack]
    have w : packWidth (l ++ [p]) = packWidth l + p.1 := by simp [packWidth]
    have h1 := ih (fun q hq => h q (List.mem_append_left _ hq))
    have h2 := h p (List.mem_append_right _ (by simp))
    rw [e, w, pow_add]
    calc pack l * 2 ^ p.1 + p.2 < pack l * 2 ^ p.1 + 2 ^ p.1 := by omega
      _ = (pack l + 1) * 2 ^ p.1 := by ring
      _ ≤ 2 ^ packWidth l * 2 ^ p.1 := Nat.mul_le_mul_right _ h1

/-- The field between `a` and `b` of the packed fields, when the fields before it take `a - 1` bits and those up to it `b`. -/
theorem bits_packed (n : Nat) (pre post : List (Nat × Nat)) (w v : Nat) (h : Fits (pre ++ (w, v) :: post))
    (hn : packWidth (pre ++ (w, v) :: post) = 8 * n) (hw : 0 < w) :
    bits (packed n (pre ++ (w, v) :: post)) (packWidth pre + 1) (packWidth pre + w) = v := by
  have hlt := pack_lt _ h
  unfold packed
  rw [bits_toBytes]
  rw [hn, pow_mul, show (2:Nat)^8 = 256 from rfl] at hlt
  rw [Nat.mod_eq_of_lt hlt]
  have e1 : packWidth (pre ++ (w, v) :: post) = packWidth pre + w + packWidth post := by simp [packWidth, add_assoc]
  have e2 : 8 * n - (packWidth pre + w) = packWidth post := by omega
  have e3 : packWidth pre + w + 1 - (packWidth pre + 1) = w := by omega
  rw [e2, e3]
  have e4 : pre ++ (w, v) :: post = pre ++ [(w, v)] ++ post := by simp
  have hpost := pack_lt post (fun q hq => h q (by simp [hq]))
  rw [e4, pack_append, pack_append, mul_comm, Nat.mul_add_div (by positivity), Nat.div_eq_of_lt hpost]
  have hv : v < 2 ^ w := h (w, v) (by simp)
  have e5 : pack [(w, v)] = v := by simp [pack]
  have e6 : packWidth [(w, v)] = w := by simp [packWidth]
  rw [e5, e6, add_zero, mul_comm, Nat.mul_add_mod, Nat.mod_eq_of_lt hv]

/-- The fields `l` are found one after the other from bit `p + 1` on. -/
def FieldsAt (d : List UInt8) : Nat → List (Nat × Nat) → Prop
  | _, [] => True
  | p, (w, v) :: l => bits d (p + 1) (p + w) = v ∧ FieldsAt d (p + w) l

theorem fieldsAt_packed (n : Nat) (l : List (Nat × Nat)) (h : Fits l) (hn : packWidth l = 8 * n) (hw : ∀ p ∈ l, 0 < p.1) : FieldsAt (packed n l) 0 l := by
  suffices H : ∀ post pre, l = pre ++ post → FieldsAt (packed n l) (packWidth pre) post from H l [] rfl
  intro post
  induction post with
  | nil => intro pre _; trivial
  | cons p post ih =>
    intro pre hl
    obtain ⟨w, v⟩ := p
    refine ⟨?_, ?_⟩
    · subst hl
      exact bits_packed n pre post w v h hn (hw (w, v) (by simp))
    · have := ih (pre ++ [(w, v)]) (by simp [hl])
      have e : packWidth (pre ++ [(w, v)]) = packWidth pre + w := by simp [packWidth]
      rwa [e] at this

end Modes
