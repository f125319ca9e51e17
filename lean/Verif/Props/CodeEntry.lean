import Verif.Props.CodeTheorems
import Verif.Props.ADSB
/-!
# The entry points of ADS-B and Comm-B, of the translated code
-/
namespace Modes
open Spec

/-- What the translated `ReadADSBMessage` gives is what the model gives. -/
theorem code_adsb_result (v : UInt8) (a c : Bool) (d : List UInt8) (m : ADSBMessage) :
    Gen.adsb.reader.ReadADSBMessage v a c d = .ok m ↔ readADSBMessage v a c d = .returns (.val m) false := by
  rw [same_ReadADSBMessage]
  rcases (adsb_accepts v a c d) with ⟨hi, hn⟩
  by_cases h : AdsbAccepted v.toNat d
  · obtain ⟨m', e⟩ := hi.2 h
    rw [e]
    constructor
    · intro hm; cases hm; rfl
    · intro hm; cases hm; rfl
  · rcases hn h with e | e <;> rw [e] <;>
      exact ⟨fun x => (nomatch x), fun x => (nomatch x)⟩

/-- C24, C25 of the translated code: it never panics, and succeeds exactly on the accepted messages. -/
theorem code_adsb_accepts (v : UInt8) (a c : Bool) (d : List UInt8) :
    NoPanic (Gen.adsb.reader.ReadADSBMessage v a c d) ∧
    (Succeeds (Gen.adsb.reader.ReadADSBMessage v a c d) ↔ AdsbAccepted v.toNat d) := by
  rw [same_ReadADSBMessage]
  rcases (adsb_accepts v a c d) with ⟨hi, hn⟩
  by_cases h : AdsbAccepted v.toNat d
  · obtain ⟨m', e⟩ := hi.2 h
    rw [e]
    exact ⟨fun x => (nomatch x), fun _ => h, fun _ => ⟨_, rfl⟩⟩
  · rcases hn h with e | e <;> rw [e] <;>
      exact ⟨fun x => (nomatch x), fun ⟨_, x⟩ => (nomatch x), fun x => absurd x h⟩

/-- C42, C43 of the translated code: `ReadCommBMessage` is total, sound and complete. -/
theorem code_commB (d : List UInt8) :
    NoPanic (Gen.commb.ReadCommBMessage d) ∧ (Gen.commb.ReadCommBMessage d = .error .err ↔ d.length ≠ 7) ∧
    (d.length = 7 → ∃ l : List CommBMessage, Gen.commb.ReadCommBMessage d = .ok l ∧
      l.Pairwise (fun a b => a.register < b.register) ∧ (∀ m ∈ l, Candidate d m) ∧
      ((∀ m, Candidate d m → m.unambiguous = false) → ∀ m, m ∈ l ↔ Candidate d m)) := by
  have hs := same_ReadCommBMessage d
  have ht := commB_total d
  have hc := commB_sound_complete d
  have hinj : Function.Injective (List.map (Iface.val : CommBMessage → Iface CommBMessage)) :=
    List.map_injective_iff.mpr fun x y h => by cases h; rfl
  rcases hr : Gen.commb.ReadCommBMessage d with e | l
  · rw [hr] at hs
    have hs' : readCommBMessage d = .error e := hs.symm
    rw [hs'] at ht hc
    refine ⟨fun x => ht.1 (by cases x; rfl), ⟨fun x => ht.2.1 (by cases x; rfl), fun x => ?_⟩, fun h7 => ?_⟩
    · have := ht.2.2 x; cases this; rfl
    · obtain ⟨l, x, _⟩ := hc h7; cases x
  · rw [hr] at hs
    have hs' : readCommBMessage d = .ok (l.map Iface.val) := hs.symm
    rw [hs'] at ht hc
    refine ⟨fun x => (nomatch x), ⟨fun x => (nomatch x), fun x => ?_⟩, fun h7 => ?_⟩
    · have := ht.2.2 x; cases this
    · obtain ⟨l', x, r⟩ := hc h7
      have : l = l' := hinj (Except.ok.inj x)
      exact ⟨l, rfl, this ▸ r⟩

end Modes
