import Verif.Model.Accessors
import Verif.Props.CommB
import Verif.Props.ADSB
/-!
# The methods through which a program asks a message what it is
-/
namespace Spec
open Modes

/-- One hexadecimal digit below ten, as a character. -/
def digit (n : Nat) : Char := Char.ofNat (48 + n)

/-- The published name of the register of number `n` (two hexadecimal digits). -/
def registerName (n : Nat) : Txt := ['B', 'D', 'S', ' ', digit (n / 16), ',', digit (n % 16)]

/-- The register an ADS-B message of a type code belongs to. -/
def registerOfTC (tc : Nat) : Nat :=
  if tc = 0 ∨ AirborneTC tc then 0x05
  else if SurfaceTC tc then 0x06
  else if tc ≤ 4 then 0x08
  else if tc = 19 then 0x09
  else if tc = 28 then 0x61
  else if tc = 29 then 0x62
  else 0x65

end Spec
namespace Modes
open Spec

/-- C81. The register a Comm-B candidate says it is has the published name of the register whose reader accepted the data;
two candidates never name the same register; and a candidate naming BDS 1,0, BDS 2,0 or BDS 3,0 was read from data starting
with that number. -/
theorem commB_register (d : List UInt8) (l : List (Iface CommBMessage)) (h : readCommBMessage d = .ok l) :
    ∃ ms : List CommBMessage, l = ms.map Iface.val ∧
      (ms.map fun m => m.getRegister.id).Nodup ∧
      ∀ m ∈ ms, Candidate d m ∧ m.getRegister.id = registerName m.register ∧
        (m.register = 0x10 ∨ m.register = 0x20 ∨ m.register = 0x30 → bits d 1 8 = m.register) := by
  have h7 : d.length = 7 := by
    by_contra hn
    rw [readCommB_short d hn] at h; cases h
  obtain ⟨ms, e, hp, hc, -⟩ := commB_sound_complete d h7
  rw [e] at h
  injection h with h
  have hid : ∀ m : CommBMessage, m.getRegister.id = registerName m.register := by
    intro m
    rcases m with m | m | m | m | m | m | m | (m | m | m) | (m | m) | m | m
    all_goals
      simp only [CommBMessage.getRegister, CommBMessage.register]
      decide +kernel
  refine ⟨ms, h.symm, ?_, fun m hm => ⟨hc m hm, hid m, fun hr => ?_⟩⟩
  · rw [List.Nodup, List.pairwise_map]
    refine hp.imp fun {a b} hab => ?_
    rw [hid, hid]
    rcases a with m | m | m | m | m | m | m | m | m | m | m <;> rcases b with k | k | k | k | k | k | k | k | k | k | k <;>
      revert hab <;> simp only [CommBMessage.register] <;> decide
  · have hd := (hc m hm).1
    rcases m with m | m | m | m | m | m | m | m | m | m | m <;> simp only [CommBMessage.register] at hr <;>
      first
      | omega
      | (simp only [CommBMessage.register, ReadsAs] at hd ⊢)
    · rw [bds20_eval] at hd
      split at hd
      · rename_i g; exact g.2
      · cases hd
    · rcases bds10_eval d with ⟨g, -⟩ | ⟨ha, -⟩
      · rw [g] at hd; cases hd
      · exact ha.2.1
    · exact (((bds30_accepts d).1 m).1 hd).2.1

/-- C81. The register an ADS-B message says it is is the one of its type code; only the message without position names none. -/
theorem adsb_register (v : UInt8) (a c : Bool) (d : List UInt8) (m : ADSBMessage) (e : Bool)
    (h : readADSBMessage v a c d = .returns (.val m) e) :
    (m.getRegister = none ↔ bits d 1 5 = 0 ∧ bits d 21 56 = 0) ∧
    ∀ r, m.getRegister = some r → r.id = registerName (registerOfTC (bits d 1 5)) := by
  obtain ⟨-, hc⟩ := adsb_dispatch v a c d m e h
  have key : ∀ n r, m.getRegister = some r → r.id = registerName n → registerOfTC (bits d 1 5) = n →
      ¬ (bits d 1 5 = 0 ∧ bits d 21 56 = 0) → (m.getRegister = none ↔ bits d 1 5 = 0 ∧ bits d 21 56 = 0) ∧
    ∀ r, m.getRegister = some r → r.id = registerName (registerOfTC (bits d 1 5)) := by
    intro n r hr hn htc h0
    rw [hr, htc]
    exact ⟨⟨fun g => (nomatch g), fun g => absurd g h0⟩, fun r' e => by injection e with e; rw [← e]; exact hn⟩
  have tc5 (ht : AirborneTC (bits d 1 5)) : registerOfTC (bits d 1 5) = 5 := by
    unfold registerOfTC; rw [if_pos (Or.inr ht)]
  have tc6 (ht : SurfaceTC (bits d 1 5)) : registerOfTC (bits d 1 5) = 6 := by
    unfold registerOfTC
    have : ¬ (bits d 1 5 = 0 ∨ AirborneTC (bits d 1 5)) := by unfold SurfaceTC at ht; unfold AirborneTC; omega
    rw [if_neg this, if_pos ht]
  rcases m with _ | _ | _ | _ | _ | _ | _ | _ | m | _ | m | m | m <;> simp only [AdsbContent] at hc
  · exact ⟨⟨fun _ => ⟨hc.1, hc.2.1⟩, fun _ => rfl⟩, fun r e => (nomatch e)⟩
  · exact key 5 _ rfl rfl (by unfold registerOfTC; rw [if_pos (Or.inl hc.1)]) (fun g => hc.2.1 g.2)
  · exact key 5 _ rfl rfl (tc5 hc.1) (fun g => by have := hc.1; unfold AirborneTC at this; omega)
  · exact key 5 _ rfl rfl (tc5 hc.1) (fun g => by have := hc.1; unfold AirborneTC at this; omega)
  · exact key 5 _ rfl rfl (tc5 hc.1) (fun g => by have := hc.1; unfold AirborneTC at this; omega)
  · exact key 6 _ rfl rfl (tc6 hc.1) (fun g => by have := hc.1; unfold SurfaceTC at this; omega)
  · exact key 6 _ rfl rfl (tc6 hc.1) (fun g => by have := hc.1; unfold SurfaceTC at this; omega)
  · exact key 6 _ rfl rfl (tc6 hc.1) (fun g => by have := hc.1; unfold SurfaceTC at this; omega)
  · rcases m with m | m | m | m <;> exact key 9 _ rfl rfl (by rw [hc.1]; decide) (fun g => by omega)
  · refine key 8 _ rfl rfl ?_ (fun g => by omega)
    obtain ⟨h1, h4, -⟩ := hc
    generalize bits d 1 5 = n at h1 h4
    have : n = 1 ∨ n = 2 ∨ n = 3 ∨ n = 4 := by omega
    rcases this with rfl | rfl | rfl | rfl <;> decide
  · rcases m with m | m | m <;> exact key 0x61 _ rfl rfl (by rw [hc.1]; decide) (fun g => by omega)
  · rcases m with m | m <;> exact key 0x62 _ rfl rfl (by rw [hc.1]; decide) (fun g => by omega)
  · rcases m with m | m | m | m | m <;> exact key 0x65 _ rfl rfl (by rw [hc.1]; decide) (fun g => by omega)

/-- C81. The subtype a message reports is the one transmitted: bits 6-8 of a velocity or status message, bits 6-7 of a target
state. -/
theorem subtype_accessor (d : List UInt8) :
    (∀ m, readBDS09 d = .ok m → m.getSubtype.toNat = bits d 6 8) ∧
    (∀ m, readBDS61 d = .ok m → m.getSubtype.toNat = bits d 6 8) ∧
    (∀ m, readBDS62 d = .ok m → m.getSubtype.toNat = bits d 6 7) := by
  refine ⟨fun m h => ?_, fun m h => ?_, fun m h => ?_⟩
  · rcases bds09_eval d with ⟨e, -⟩ | ⟨-, -, g⟩
    · rw [e] at h; cases h
    · rcases g with ⟨-, m', hm, hc⟩ | ⟨-, m', hm, hc⟩ | ⟨-, m', hm, hc⟩ | ⟨-, m', hm, hc⟩ <;> rw [hm] at h <;> cases h <;>
        exact hc.1.sub
  · have hc := status_content d m h
    rcases m with m | m | m
    · exact hc.2.2.1.trans hc.1.symm
    · exact hc.2.2.1.trans hc.1.symm
    · exact hc.2.2.1.trans hc.1.symm
  · have hc := target_state_content d m h
    rcases m with m | m
    · exact hc.2.2.subtype
    · exact hc.2.subtype

/-- C81. The category set named by an identification message is the one of its type code. -/
theorem category_set_name (d : List UInt8) (m : IdentificationAndCategory) (h : readBDS08 d = .ok m) :
    (m.category.setName = t! "Set A" ↔ bits d 1 5 = 4) ∧ (m.category.setName = t! "Set B" ↔ bits d 1 5 = 3) ∧
    (m.category.setName = t! "Set C" ↔ bits d 1 5 = 2) ∧ (m.category.setName = t! "Set D (Reserved)" ↔ bits d 1 5 = 1) := by
  obtain ⟨-, hc, -⟩ := emitter_category d m h
  rcases hc with ⟨h1, hc⟩ | ⟨h1, hc⟩ | ⟨h1, hc⟩ | ⟨h1, hc⟩ <;> rw [hc, h1] <;> simp [AircraftCategory.setName]

/-- C81. A hazard report says whether it reports turbulence, in the bit of its version (the reader reads version 1 only). -/
theorem turbulence_accessor (d : List UInt8) (m : HazardReport) (h : readBDS45 d = .returns (.val m) false) :
    ∃ m', m = .v1 m' ∧ m.getTurbulenceStatus = bit d 38 := by
  have hl := bds45_layout d
  rw [h] at hl
  rcases m with m | m
  · exact hl.elim
  · exact ⟨m, rfl, ((bds45_content d).2 m hl.2.2.2).turbulenceStatus⟩

/-- C81, the part that holds for the source of a routine air report: with no source (bits 1-4 zero) the method says so. Missing:
the reports with a source, see `source_accessor_refuted`. -/
theorem source_accessor_partial (d : List UInt8) (m : RoutineAirReport) (h : readBDS44 d = .returns (.val m) false)
    (h0 : bits d 1 4 = 0) : m.getSource.toNat = bits d 1 4 := by
  have hl := bds44_layout d
  rw [h] at hl
  rcases m with m | m | m
  · exact hl.elim
  · rw [h0]; rfl
  · have := hl.2.2.1; omega

/-- C81, the part that is false: a report read from the data never names its source, whenever there is one. -/
theorem source_accessor_refuted (d : List UInt8) (m : RoutineAirReport) (h : readBDS44 d = .returns (.val m) false)
    (h0 : bits d 1 4 ≠ 0) : m.getSource.toNat ≠ bits d 1 4 ∧ m.getSource = 0 := by
  have hl := bds44_layout d
  rw [h] at hl
  rcases m with m | m | m
  · exact hl.elim
  · exact absurd hl.2.2.1 h0
  · exact ⟨fun g => h0 g.symm, rfl⟩

/-- The identification BDS 2,0 of KLM1023: one candidate, which names BDS 2,0. -/
example : ∃ m, readCommBMessage [0x20, 0x2C, 0xC3, 0x71, 0xC3, 0x2C, 0xE0] = .ok [.val m] ∧ m.getRegister.id = t! "BDS 2,0" :=
  ⟨_, rfl, rfl⟩

/-- A routine air report with source 1 (bits 1-4): the method returns 0. -/
example : ∃ m, readBDS44 [0x11, 0, 0, 0, 0, 0, 0] = .returns (.val m) false ∧ bits [0x11, 0, 0, 0, 0, 0, 0] 1 4 = 1 ∧
    m.getSource = 0 := ⟨_, rfl, by decide, rfl⟩

/-- Messages of the kinds the subtypes are about. -/
example : Succeeds (readBDS09 [0x99, 0x44, 0x09, 0x94, 0x08, 0x38, 0x17]) ∧ Succeeds (readBDS61 [0xE1, 0x20, 0, 0, 0, 0, 0]) ∧
    Succeeds (readBDS62 [0xEA, 0, 0, 0, 0, 0, 0]) := ⟨⟨_, rfl⟩, ⟨_, rfl⟩, ⟨_, rfl⟩⟩

end Modes
