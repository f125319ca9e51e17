import Verif.Model.ADSB
import Verif.Props.BDS05
import Verif.Props.BDS06
import Verif.Props.Ident
import Verif.Props.BDS09
import Verif.Props.BDS61
import Verif.Props.BDS62
import Verif.Props.BDS65
/-!
# C24-C27, C30: reading ADS-B messages
-/
set_option linter.unusedSimpArgs false
open Spec
namespace Spec
open Modes

/-- The type codes of airborne positions. -/
def AirborneTC (tc : Nat) : Prop := (9 ≤ tc ∧ tc ≤ 18) ∨ (20 ≤ tc ∧ tc ≤ 22)
/-- The type codes of surface positions. -/
def SurfaceTC (tc : Nat) : Prop := 5 ≤ tc ∧ tc ≤ 8
/-- The type codes of ADS-B messages of any kind. -/
def SupportedTC (tc : Nat) : Prop := tc ≤ 22 ∨ tc = 28 ∨ tc = 29 ∨ tc = 31

instance (tc : Nat) : Decidable (AirborneTC tc) := by unfold AirborneTC; infer_instance
instance (tc : Nat) : Decidable (SurfaceTC tc) := by unfold SurfaceTC; infer_instance
instance (tc : Nat) : Decidable (SupportedTC tc) := by unfold SupportedTC; infer_instance

/-- Which messages can be read, with the version `v` the caller asks for: those of a supported type code whose body is
acceptable to the register of that type code; positions only for the versions 0, 1 and 2. -/
def AdsbAccepted (v : Nat) (d : List UInt8) : Prop :=
  d.length = 7 ∧
  ((bits d 1 5 = 0 ∧ ¬ AC12Illegal (bits d 9 20)) ∨
   (1 ≤ bits d 1 5 ∧ bits d 1 5 ≤ 4) ∨
   (SurfaceTC (bits d 1 5) ∧ v ≤ 2) ∨
   (AirborneTC (bits d 1 5) ∧ v ≤ 2 ∧ ¬ AC12Illegal (bits d 9 20)) ∨
   (bits d 1 5 = 19 ∧ 1 ≤ bits d 6 8 ∧ bits d 6 8 ≤ 4) ∨
   (bits d 1 5 = 28 ∧ (bits d 6 8 = 0 ∧ bits d 12 16 = 0 ∨ bits d 6 8 = 1 ∧ bits d 25 56 = 0 ∨
      bits d 6 8 = 2 ∧ Succeeds (readResolutionAdvisory (d.drop 1)))) ∨
   (bits d 1 5 = 29 ∧ (bits d 6 7 = 0 ∧ bits d 47 51 = 0 ∨ bits d 6 7 = 1)) ∨
   OpAccepted d)

/-- What the message is: of the family of the type code, holding what the register of that type code holds. The two
messages of type code 0 are distinguished by the position being absent (bits 21-56 zero). -/
def AdsbContent (v : UInt8) (a c : Bool) (d : List UInt8) : ADSBMessage → Prop
  | .noPosition v' ftc alt nic => bits d 1 5 = 0 ∧ bits d 21 56 = 0 ∧ v' = v ∧ ftc = 0 ∧ nic = 0 ∧
      ∃ method, AC12Meaning (bits d 9 20) method alt
  | .airborneType0 p nic v' => bits d 1 5 = 0 ∧ bits d 21 56 ≠ 0 ∧ v' = v ∧ nic = 0 ∧ p.formatTypeCode = 0 ∧
      AC12Meaning (bits d 9 20) p.altitudeReportMethod p.altitudeInFeet ∧ p.altitudeSource = 1 ∧
      p.surveillanceStatus = 0 ∧ p.singleAntennaFlag = 0 ∧
      p.time.toNat = bits d 21 21 ∧ p.cprFormat.toNat = bits d 22 22 ∧
      p.encodedLatitude.toNat = bits d 23 39 ∧ p.encodedLongitude.toNat = bits d 40 56
  | .airborneV0 p h r => AirborneTC (bits d 1 5) ∧ v = 0 ∧ readBDS05 d = .ok p ∧ h.toNat = bits d 1 5 ∧ r.toNat = bits d 1 5
  | .airborneV1 p a' _ _ => AirborneTC (bits d 1 5) ∧ v = 1 ∧ readBDS05 d = .ok p ∧ a' = a
  | .airborneV2 p a' b _ _ => AirborneTC (bits d 1 5) ∧ v = 2 ∧ readBDS05 d = .ok p ∧ a' = a ∧ b.toNat = bits d 8 8
  | .surfaceV0 p h r => SurfaceTC (bits d 1 5) ∧ v = 0 ∧ readBDS06 d = .ok p ∧ h.toNat = bits d 1 5 ∧ r.toNat = bits d 1 5
  | .surfaceV1 p a' _ _ => SurfaceTC (bits d 1 5) ∧ v = 1 ∧ readBDS06 d = .ok p ∧ a' = a
  | .surfaceV2 p a' c' _ _ => SurfaceTC (bits d 1 5) ∧ v = 2 ∧ readBDS06 d = .ok p ∧ a' = a ∧ c' = c
  | .velocity m v' => bits d 1 5 = 19 ∧ v' = v ∧ readBDS09 d = .ok m
  | .identification m v' => 1 ≤ bits d 1 5 ∧ bits d 1 5 ≤ 4 ∧ v' = v ∧ readBDS08 d = .ok m
  | .status m v' => bits d 1 5 = 28 ∧ v' = v ∧ readBDS61 d = .ok m
  | .targetState m v' => bits d 1 5 = 29 ∧ v' = v ∧ readBDS62 d = .ok m
  | .operationalStatus m v' => bits d 1 5 = 31 ∧ v' = m.getADSBLevel ∧ readBDS65 d = .ok m

end Spec
namespace Modes

/-- The integrity of a position comes from the table of its version. -/
def AdsbTables : ADSBMessage → Prop
  | .airborneV1 p a h n => (h, n) = airborneHCRAndNICV1 p.formatTypeCode a
  | .airborneV2 p a b h n => (h, n) = airborneHCRAndNICV2 p.formatTypeCode a b
  | .surfaceV1 p a h n => (h, n) = surfaceHCRAndNICV1 p.formatTypeCode a
  | .surfaceV2 p a c h n => (h, n) = surfaceHCRAndNICV2 p.formatTypeCode a c
  | _ => True

/-- The three outcomes the theorems distinguish. -/
def AdsbOutcome (v : UInt8) (a c : Bool) (d : List UInt8) (r : Call ADSBMessage) : Prop :=
  (r = .returns .nil true ∧ ¬ AdsbAccepted v.toNat d ∧
    (d.length ≠ 7 ∨ ¬ SupportedTC (bits d 1 5) ∨ (2 < v.toNat ∧ (SurfaceTC (bits d 1 5) ∨ AirborneTC (bits d 1 5))))) ∨
  (r = .returns .typedNil true ∧ ¬ AdsbAccepted v.toNat d ∧ d.length = 7 ∧ SupportedTC (bits d 1 5) ∧
    ¬ (2 < v.toNat ∧ (SurfaceTC (bits d 1 5) ∨ AirborneTC (bits d 1 5)))) ∨
  (AdsbAccepted v.toNat d ∧ ∃ m, r = .returns (.val m) false ∧ AdsbContent v a c d m ∧ AdsbTables m)

theorem call_index {α : Type} (s : List UInt8) (i : Nat) (k : UInt8 → Call α) (b : UInt8) (h : s[i]? = some b) :
    Call.index s i k = k b := by unfold Call.index; rw [h]

theorem noPosition_eval (v : UInt8) (b0 b1 b2 b3 b4 b5 b6 : UInt8) :
    (readNoPositionInformation v [b0, b1, b2, b3, b4, b5, b6] = .error .err ∧
      AC12Illegal (bits [b0, b1, b2, b3, b4, b5, b6] 9 20)) ∨
    (¬ AC12Illegal (bits [b0, b1, b2, b3, b4, b5, b6] 9 20) ∧ ∃ method alt,
      readNoPositionInformation v [b0, b1, b2, b3, b4, b5, b6] = .ok (.noPosition v 0 alt 0) ∧
      AC12Meaning (bits [b0, b1, b2, b3, b4, b5, b6] 9 20) method alt) := by
  have e1 : bits [0x78, b1, b2, 0, 0, 0, 0] 1 5 = 15 := by byte_omega
  have e2a : bits [0x78, b1, b2, 0, 0, 0, 0] 9 20 = b1.toNat * 16 + b2.toNat / 16 := by byte_omega
  have e2b : bits [b0, b1, b2, b3, b4, b5, b6] 9 20 = b1.toNat * 16 + b2.toNat / 16 := by byte_omega
  have key : readNoPositionInformation v [b0, b1, b2, b3, b4, b5, b6] =
      (readBDS05 [0x78, b1, b2, 0, 0, 0, 0] >>= fun bds => .ok (.noPosition v 0 bds.altitudeInFeet 0)) := by
    unfold readNoPositionInformation
    go_run []
  rw [key, e2b, ← e2a]
  rcases bds05_eval [0x78, b1, b2, 0, 0, 0, 0] with ⟨he, hn⟩ | ⟨-, -, -, -, m, hm, -, -, -, hc, -⟩
  · refine Or.inl ⟨by rw [he]; rfl, ?_⟩
    by_contra h
    exact hn ⟨rfl, by omega, by omega, by omega, h⟩
  · exact Or.inr ⟨ac12_meaning_legal _ _ _ hc, _, _, by rw [hm]; rfl, hc⟩

theorem type0_eval (v : UInt8) (b0 b1 b2 b3 b4 b5 b6 : UInt8) :
    (readAirbornePositionType0 v [b0, b1, b2, b3, b4, b5, b6] = .error .err ∧
      AC12Illegal (bits [b0, b1, b2, b3, b4, b5, b6] 9 20)) ∨
    (¬ AC12Illegal (bits [b0, b1, b2, b3, b4, b5, b6] 9 20) ∧ ∃ p,
      readAirbornePositionType0 v [b0, b1, b2, b3, b4, b5, b6] = .ok (.airborneType0 p 0 v) ∧ p.formatTypeCode = 0 ∧
      AC12Meaning (bits [b0, b1, b2, b3, b4, b5, b6] 9 20) p.altitudeReportMethod p.altitudeInFeet ∧ p.altitudeSource = 1 ∧
      p.surveillanceStatus = 0 ∧ p.singleAntennaFlag = 0 ∧
      p.time.toNat = bits [b0, b1, b2, b3, b4, b5, b6] 21 21 ∧ p.cprFormat.toNat = bits [b0, b1, b2, b3, b4, b5, b6] 22 22 ∧
      p.encodedLatitude.toNat = bits [b0, b1, b2, b3, b4, b5, b6] 23 39 ∧
      p.encodedLongitude.toNat = bits [b0, b1, b2, b3, b4, b5, b6] 40 56) := by
  have e1 : bits [0xB0, b1, b2, b3, b4, b5, b6] 1 5 = 22 := by byte_omega
  have e67 : bits [0xB0, b1, b2, b3, b4, b5, b6] 6 7 = 0 := by byte_omega
  have e88 : bits [0xB0, b1, b2, b3, b4, b5, b6] 8 8 = 0 := by byte_omega
  have e2 : bits [b0, b1, b2, b3, b4, b5, b6] 9 20 = bits [0xB0, b1, b2, b3, b4, b5, b6] 9 20 := by byte_omega
  have e3 : bits [b0, b1, b2, b3, b4, b5, b6] 21 21 = bits [0xB0, b1, b2, b3, b4, b5, b6] 21 21 := by byte_omega
  have e4 : bits [b0, b1, b2, b3, b4, b5, b6] 22 22 = bits [0xB0, b1, b2, b3, b4, b5, b6] 22 22 := by byte_omega
  have e5 : bits [b0, b1, b2, b3, b4, b5, b6] 23 39 = bits [0xB0, b1, b2, b3, b4, b5, b6] 23 39 := by byte_omega
  have e6 : bits [b0, b1, b2, b3, b4, b5, b6] 40 56 = bits [0xB0, b1, b2, b3, b4, b5, b6] 40 56 := by byte_omega
  have key : readAirbornePositionType0 v [b0, b1, b2, b3, b4, b5, b6] =
      (readBDS05 [0xB0, b1, b2, b3, b4, b5, b6] >>= fun bds => .ok (.airborneType0 { bds with formatTypeCode := 0 } 0 v)) := by
    unfold readAirbornePositionType0
    go_run []
  rw [key, e2, e3, e4, e5, e6]
  rcases bds05_eval [0xB0, b1, b2, b3, b4, b5, b6] with ⟨he, hn⟩ | ⟨-, -, -, -, m, hm, -, h67, h88, hc, hs, hr⟩
  · refine Or.inl ⟨by rw [he]; rfl, ?_⟩
    by_contra h
    exact hn ⟨rfl, by omega, by omega, by omega, h⟩
  · rw [e67] at h67
    rw [e88] at h88
    refine Or.inr ⟨ac12_meaning_legal _ _ _ hc, { m with formatTypeCode := 0 }, by rw [hm]; rfl, rfl, hc, ?_, ?_, ?_, hr⟩
    · show m.altitudeSource = 1
      rw [hs, e1]; rfl
    · exact UInt8.toNat_inj.1 h67
    · exact UInt8.toNat_inj.1 h88

theorem airborne_eval (v : UInt8) (a c : Bool) (d : List UInt8) (h7 : d.length = 7) (htc : AirborneTC (bits d 1 5)) :
    AdsbOutcome v a c d (readAirbornePosition v d a) := by
  obtain ⟨b0, b1, b2, b3, b4, b5, b6, rfl⟩ := list7 d h7
  have f1 : ((b0 &&& 248) >>> 3).toNat = bits [b0, b1, b2, b3, b4, b5, b6] 1 5 := by byte_omega
  have f2 : (b0 &&& 1).toNat = bits [b0, b1, b2, b3, b4, b5, b6] 8 8 := by byte_omega
  have h0 : b0 ≠ 0 := by
    rintro rfl
    have : ((0 &&& 248 : UInt8) >>> 3).toNat = 0 := rfl
    rw [← f1, this] at htc
    unfold AirborneTC at htc; omega
  have hi : idx [b0, b1, b2, b3, b4, b5, b6] 0 = .ok b0 := rfl
  unfold readAirbornePosition
  rw [call_index _ _ _ b0 rfl, if_neg h0]
  generalize hd : [b0, b1, b2, b3, b4, b5, b6] = d at *
  have sup : SupportedTC (bits d 1 5) := by unfold AirborneTC at htc; unfold SupportedTC; omega
  have acc : ∀ n, AdsbAccepted n d ↔ n ≤ 2 ∧ ¬ AC12Illegal (bits d 9 20) := by
    intro n
    unfold AdsbAccepted OpAccepted SurfaceTC
    have := htc
    unfold AirborneTC at this
    constructor
    · rintro ⟨-, h⟩
      rcases h with h | h | h | h | h | h | h | h
      all_goals first | exact ⟨h.2.1, h.2.2⟩ | (exfalso; omega)
    · rintro ⟨h1, h2⟩
      exact ⟨h7, Or.inr (Or.inr (Or.inr (Or.inl ⟨htc, h1, h2⟩)))⟩
  have hb := bds05_eval d
  unfold AirborneTC at htc
  unfold AdsbOutcome
  by_cases hv0 : v = 0
  · rw [if_pos hv0]
    rcases hb with ⟨he, hn⟩ | ⟨-, -, -, -, m, hm, hf, -, -, hc, -⟩
    · refine Or.inr (Or.inl ⟨by unfold readAirbornePositionV0; rw [he]; rfl, ?_, h7, sup, ?_⟩)
      · rw [acc]; rintro ⟨-, h⟩; exact hn ⟨h7, by omega, by omega, by omega, h⟩
      · rw [hv0]; rintro ⟨h, -⟩; exact absurd h (by decide)
    · refine Or.inr (Or.inr ⟨(acc _).2 ⟨by rw [hv0]; decide, ac12_meaning_legal _ _ _ hc⟩, .airborneV0 m m.formatTypeCode m.formatTypeCode, ?_, ⟨htc, hv0, hm, hf, hf⟩, trivial⟩)
      unfold readAirbornePositionV0; rw [hm]; rfl
  rw [if_neg hv0]
  by_cases hv1 : v = 1
  · rw [if_pos hv1]
    rcases hb with ⟨he, hn⟩ | ⟨-, -, -, -, m, hm, hf, -, -, hc, -⟩
    · refine Or.inr (Or.inl ⟨by unfold readAirbornePositionV1; rw [he]; rfl, ?_, h7, sup, ?_⟩)
      · rw [acc]; rintro ⟨-, h⟩; exact hn ⟨h7, by omega, by omega, by omega, h⟩
      · rw [hv1]; rintro ⟨h, -⟩; exact absurd h (by decide)
    · refine Or.inr (Or.inr ⟨(acc _).2 ⟨by rw [hv1]; decide, ac12_meaning_legal _ _ _ hc⟩,
        .airborneV1 m a (airborneHCRAndNICV1 m.formatTypeCode a).1 (airborneHCRAndNICV1 m.formatTypeCode a).2,
        ?_, ⟨htc, hv1, hm, rfl⟩, by show _ = _; rw [Prod.mk.eta]⟩)
      unfold readAirbornePositionV1; rw [hm]; rfl
  rw [if_neg hv1]
  by_cases hv2 : v = 2
  · rw [if_pos hv2]
    rcases hb with ⟨he, hn⟩ | ⟨-, -, -, -, m, hm, hf, -, -, hc, -⟩
    · refine Or.inr (Or.inl ⟨by unfold readAirbornePositionV2; rw [he]; rfl, ?_, h7, sup, ?_⟩)
      · rw [acc]; rintro ⟨-, h⟩; exact hn ⟨h7, by omega, by omega, by omega, h⟩
      · rw [hv2]; rintro ⟨h, -⟩; exact absurd h (by decide)
    · refine Or.inr (Or.inr ⟨(acc _).2 ⟨by rw [hv2]; decide, ac12_meaning_legal _ _ _ hc⟩,
        .airborneV2 m a (b0 &&& 1) (airborneHCRAndNICV2 m.formatTypeCode a (b0 &&& 1)).1
          (airborneHCRAndNICV2 m.formatTypeCode a (b0 &&& 1)).2, ?_, ⟨htc, hv2, hm, rfl, f2⟩, by show _ = _; rw [Prod.mk.eta]⟩)
      unfold readAirbornePositionV2; rw [hm, hi]; rfl
  rw [if_neg hv2]
  have hv : 2 < v.toNat := by
    rw [u8_eq] at hv0 hv1 hv2
    have : v.toNat ≠ 0 ∧ v.toNat ≠ 1 ∧ v.toNat ≠ 2 := ⟨hv0, hv1, hv2⟩
    omega
  refine Or.inl ⟨rfl, ?_, Or.inr (Or.inr ⟨hv, Or.inr htc⟩)⟩
  rw [acc]; omega

theorem surface_eval (v : UInt8) (a c : Bool) (d : List UInt8) (h7 : d.length = 7) (htc : SurfaceTC (bits d 1 5)) :
    AdsbOutcome v a c d (readSurfacePosition v d a c) := by
  unfold readSurfacePosition
  have sup : SupportedTC (bits d 1 5) := by unfold SurfaceTC at htc; unfold SupportedTC; omega
  have acc : ∀ n, AdsbAccepted n d ↔ n ≤ 2 := by
    intro n
    unfold AdsbAccepted OpAccepted AirborneTC
    have := htc
    unfold SurfaceTC at this
    constructor
    · rintro ⟨-, h⟩
      rcases h with h | h | h | h | h | h | h | h
      all_goals first | exact h.2 | (exfalso; omega)
    · intro h1
      exact ⟨h7, Or.inr (Or.inr (Or.inl ⟨htc, h1⟩))⟩
  obtain ⟨m, hm, hf⟩ : ∃ m, readBDS06 d = .ok m ∧ m.formatTypeCode.toNat = bits d 1 5 := by
    rcases bds06_eval d with ⟨_, hn⟩ | ⟨_, _, _, m, hm, hf, _⟩
    · exact absurd ⟨h7, htc⟩ hn
    · exact ⟨m, hm, hf⟩
  unfold AdsbOutcome
  by_cases hv0 : v = 0
  · rw [if_pos hv0]
    refine Or.inr (Or.inr ⟨(acc _).2 (by rw [hv0]; decide), .surfaceV0 m m.formatTypeCode m.formatTypeCode, ?_, ⟨htc, hv0, hm, hf, hf⟩, trivial⟩)
    unfold readSurfacePositionV0; rw [hm]; rfl
  rw [if_neg hv0]
  by_cases hv1 : v = 1
  · rw [if_pos hv1]
    refine Or.inr (Or.inr ⟨(acc _).2 (by rw [hv1]; decide),
      .surfaceV1 m a (surfaceHCRAndNICV1 m.formatTypeCode a).1 (surfaceHCRAndNICV1 m.formatTypeCode a).2,
      ?_, ⟨htc, hv1, hm, rfl⟩, by show _ = _; rw [Prod.mk.eta]⟩)
    unfold readSurfacePositionV1; rw [hm]; rfl
  rw [if_neg hv1]
  by_cases hv2 : v = 2
  · rw [if_pos hv2]
    refine Or.inr (Or.inr ⟨(acc _).2 (by rw [hv2]; decide),
      .surfaceV2 m a c (surfaceHCRAndNICV2 m.formatTypeCode a c).1 (surfaceHCRAndNICV2 m.formatTypeCode a c).2,
      ?_, ⟨htc, hv2, hm, rfl, rfl⟩, by show _ = _; rw [Prod.mk.eta]⟩)
    unfold readSurfacePositionV2; rw [hm]; rfl
  rw [if_neg hv2]
  have hv : 2 < v.toNat := by
    rw [u8_eq] at hv0 hv1 hv2
    have : v.toNat ≠ 0 ∧ v.toNat ≠ 1 ∧ v.toNat ≠ 2 := ⟨hv0, hv1, hv2⟩
    omega
  refine Or.inl ⟨rfl, ?_, Or.inr (Or.inr ⟨hv, Or.inl htc⟩)⟩
  rw [acc]; omega

/-- Lifting a register reader: it does not panic, succeeds exactly when the message is acceptable, and what it makes has the
right content. -/
theorem lift_eval {α : Type} (v : UInt8) (a c : Bool) (d : List UInt8) (r : Go α) (f : α → ADSBMessage)
    (h7 : d.length = 7) (sup : SupportedTC (bits d 1 5)) (hpos : ¬ (SurfaceTC (bits d 1 5) ∨ AirborneTC (bits d 1 5)))
    (hp : NoPanic r) (acc : AdsbAccepted v.toNat d ↔ Succeeds r) (hc : ∀ m, r = .ok m → AdsbContent v a c d (f m) ∧ AdsbTables (f m)) :
    AdsbOutcome v a c d (Call.ofPtr r f) := by
  unfold AdsbOutcome
  rcases hr : r with e | m
  · cases e
    · refine Or.inr (Or.inl ⟨rfl, ?_, h7, sup, fun h => hpos h.2⟩)
      rw [acc]; rintro ⟨m, hm⟩; rw [hr] at hm; cases hm
    · exact absurd hr hp
  · exact Or.inr (Or.inr ⟨acc.2 ⟨m, hr⟩, _, rfl, hc m hr⟩)

/-- Everything `ReadADSBMessage` can do. -/
theorem adsb_eval (v : UInt8) (a c : Bool) (d : List UInt8) : AdsbOutcome v a c d (readADSBMessage v a c d) := by
  by_cases h7 : d.length = 7
  rotate_left
  · left
    unfold readADSBMessage
    rw [if_pos h7]
    exact ⟨rfl, fun h => h7 h.1, Or.inl h7⟩
  have hlist := list7 d h7
  obtain ⟨b0, b1, b2, b3, b4, b5, b6, hd⟩ := hlist
  have f1 : ((b0 &&& 248) >>> 3).toNat = bits d 1 5 := by rw [hd]; byte_omega
  have f32 : bits d 1 5 < 32 := by unfold bits; exact Nat.mod_lt _ (by decide)
  have fz : bits d 21 56 = 0 ↔ (b2 &&& 15 = 0 ∧ b3 = 0 ∧ b4 = 0 ∧ b5 = 0 ∧ b6 = 0) := by
    rw [hd]; word_nat; byte_omega
  unfold readADSBMessage
  rw [if_neg (not_not_intro h7), call_index d 0 _ b0 (by rw [hd]; rfl), f1]
  have hnp8 := (identification_accepts d).1
  have hnp8' := (identification_accepts d).2.1
  have np8 : NoPanic (readBDS08 d) := by
    unfold NoPanic; intro h
    have : ¬ Succeeds (readBDS08 d) := by rw [h]; rintro ⟨m, hm⟩; cases hm
    rw [hnp8' this] at h; cases h
  split
  · rename_i h
    have h0 : ∀ x, AdsbAccepted x d ↔ ¬ AC12Illegal (bits d 9 20) := by
      intro x
      unfold AdsbAccepted OpAccepted AirborneTC SurfaceTC
      constructor
      · rintro ⟨-, g⟩
        rcases g with g | g | g | g | g | g | g | g
        all_goals first | exact g.2 | (exfalso; omega)
      · intro g; exact ⟨h7, Or.inl ⟨h, g⟩⟩
    have sup : SupportedTC (bits d 1 5) := by unfold SupportedTC; omega
    have hpos : ¬ (SurfaceTC (bits d 1 5) ∨ AirborneTC (bits d 1 5)) := by unfold SurfaceTC AirborneTC; omega
    rw [call_index d 2 _ b2 (by rw [hd]; rfl), call_index d 3 _ b3 (by rw [hd]; rfl), call_index d 4 _ b4 (by rw [hd]; rfl),
      call_index d 5 _ b5 (by rw [hd]; rfl), call_index d 6 _ b6 (by rw [hd]; rfl)]
    by_cases hz : b2 &&& 15 = 0 ∧ b3 = 0 ∧ b4 = 0 ∧ b5 = 0 ∧ b6 = 0
    · rw [if_pos hz]
      have hz' := fz.2 hz
      have g := noPosition_eval v b0 b1 b2 b3 b4 b5 b6
      rw [← hd] at g
      apply lift_eval v a c d _ _ h7 sup hpos
      · rcases g with ⟨g, -⟩ | ⟨-, _, _, g, -⟩ <;> rw [g] <;> simp [NoPanic]
      · rw [h0]
        rcases g with ⟨g, g'⟩ | ⟨g', _, _, g, -⟩ <;> rw [g] <;> simp [Succeeds, g']
      · intro m hm
        rcases g with ⟨g, g'⟩ | ⟨g', me, al, g, gm⟩
        · rw [g] at hm; cases hm
        · rw [g] at hm; cases hm
          exact ⟨⟨h, hz', rfl, rfl, rfl, me, gm⟩, trivial⟩
    · rw [if_neg hz]
      have hz' : bits d 21 56 ≠ 0 := fun e => hz (fz.1 e)
      have g := type0_eval v b0 b1 b2 b3 b4 b5 b6
      rw [← hd] at g
      apply lift_eval v a c d _ _ h7 sup hpos
      · rcases g with ⟨g, -⟩ | ⟨-, _, g, -⟩ <;> rw [g] <;> simp [NoPanic]
      · rw [h0]
        rcases g with ⟨g, g'⟩ | ⟨g', _, g, -⟩ <;> rw [g] <;> simp [Succeeds, g']
      · intro m hm
        rcases g with ⟨g, g'⟩ | ⟨g', p, g, gm⟩
        · rw [g] at hm; cases hm
        · rw [g] at hm; cases hm
          exact ⟨⟨h, hz', rfl, rfl, gm⟩, trivial⟩
  iterate 4
    · rename_i h
      have sup : SupportedTC (bits d 1 5) := by unfold SupportedTC; omega
      have hpos : ¬ (SurfaceTC (bits d 1 5) ∨ AirborneTC (bits d 1 5)) := by unfold SurfaceTC AirborneTC; omega
      refine lift_eval v a c d _ _ h7 sup hpos np8 ?_ (fun m hm => ⟨⟨by omega, by omega, rfl, hm⟩, trivial⟩)
      rw [hnp8]
      unfold AdsbAccepted OpAccepted AirborneTC SurfaceTC
      constructor
      · intro _; exact ⟨h7, by omega, by omega⟩
      · intro _; exact ⟨h7, Or.inr (Or.inl ⟨by omega, by omega⟩)⟩
  iterate 4
    · rename_i h
      exact surface_eval v a c d h7 (by unfold SurfaceTC; omega)
  iterate 13
    · rename_i h
      exact airborne_eval v a c d h7 (by unfold AirborneTC; omega)
  · rename_i h
    have sup : SupportedTC (bits d 1 5) := by unfold SupportedTC; omega
    have hpos : ¬ (SurfaceTC (bits d 1 5) ∨ AirborneTC (bits d 1 5)) := by unfold SurfaceTC AirborneTC; omega
    obtain ⟨ha, hp⟩ := velocity_accepts d
    refine lift_eval v a c d _ _ h7 sup hpos hp ?_ (fun m hm => ⟨⟨h, rfl, hm⟩, trivial⟩)
    unfold Succeeds
    rw [ha]
    unfold AdsbAccepted OpAccepted AirborneTC SurfaceTC
    constructor
    · rintro ⟨-, g⟩
      rcases g with g | g | g | g | g | g | g | g
      all_goals first | exact ⟨h7, g⟩ | (exfalso; omega)
    · intro g; exact ⟨h7, Or.inr (Or.inr (Or.inr (Or.inr (Or.inl g.2))))⟩
  · rename_i h
    have sup : SupportedTC (bits d 1 5) := by unfold SupportedTC; omega
    have hpos : ¬ (SurfaceTC (bits d 1 5) ∨ AirborneTC (bits d 1 5)) := by unfold SurfaceTC AirborneTC; omega
    obtain ⟨ha, hp⟩ := status_accepts_partial d
    refine lift_eval v a c d _ _ h7 sup hpos hp ?_ (fun m hm => ⟨⟨h, rfl, hm⟩, trivial⟩)
    rw [ha]
    unfold AdsbAccepted OpAccepted AirborneTC SurfaceTC
    constructor
    · rintro ⟨-, g⟩
      rcases g with g | g | g | g | g | g | g | g
      all_goals first | exact ⟨h7, g⟩ | (exfalso; omega)
    · intro g; exact ⟨h7, Or.inr (Or.inr (Or.inr (Or.inr (Or.inr (Or.inl g.2)))))⟩
  · rename_i h
    have sup : SupportedTC (bits d 1 5) := by unfold SupportedTC; omega
    have hpos : ¬ (SurfaceTC (bits d 1 5) ∨ AirborneTC (bits d 1 5)) := by unfold SurfaceTC AirborneTC; omega
    obtain ⟨ha, hp⟩ := target_state_accepts d
    refine lift_eval v a c d _ _ h7 sup hpos hp ?_ (fun m hm => ⟨⟨h, rfl, hm⟩, trivial⟩)
    rw [ha]
    unfold AdsbAccepted OpAccepted AirborneTC SurfaceTC
    constructor
    · rintro ⟨-, g⟩
      rcases g with g | g | g | g | g | g | g | g
      all_goals first | exact ⟨h7, g⟩ | (exfalso; omega)
    · intro g; exact ⟨h7, Or.inr (Or.inr (Or.inr (Or.inr (Or.inr (Or.inr (Or.inl g.2))))))⟩
  · rename_i h
    have sup : SupportedTC (bits d 1 5) := by unfold SupportedTC; omega
    have hpos : ¬ (SurfaceTC (bits d 1 5) ∨ AirborneTC (bits d 1 5)) := by unfold SurfaceTC AirborneTC; omega
    obtain ⟨ha, hp⟩ := operational_status_accepts d
    refine lift_eval v a c d _ _ h7 sup hpos hp ?_ (fun m hm => ⟨⟨h, rfl, hm⟩, trivial⟩)
    rw [ha]
    unfold AdsbAccepted AirborneTC SurfaceTC
    constructor
    · rintro ⟨-, g⟩
      rcases g with g | g | g | g | g | g | g | g
      all_goals first | exact g | (exfalso; omega)
    · intro g; exact ⟨h7, Or.inr (Or.inr (Or.inr (Or.inr (Or.inr (Or.inr (Or.inr g))))))⟩
  · have sup : ¬ SupportedTC (bits d 1 5) := by
      simp only [imp_false] at *
      unfold SupportedTC; omega
    refine Or.inl ⟨rfl, ?_, Or.inr (Or.inl sup)⟩
    unfold SupportedTC at sup
    unfold AdsbAccepted OpAccepted AirborneTC SurfaceTC
    rintro ⟨-, g⟩
    rcases g with g | g | g | g | g | g | g | g <;> omega

/-- C24: reading never panics, for any slice, version and supplements. -/
theorem adsb_noPanic (v : UInt8) (a c : Bool) (d : List UInt8) : readADSBMessage v a c d ≠ .panics := by
  rcases adsb_eval v a c d with ⟨h, -⟩ | ⟨h, -⟩ | ⟨-, m, h, -⟩ <;> rw [h] <;> simp

/-- C25: exactly the acceptable messages are read, everything else is an error. -/
theorem adsb_accepts (v : UInt8) (a c : Bool) (d : List UInt8) :
    ((∃ m, readADSBMessage v a c d = .returns (.val m) false) ↔ AdsbAccepted v.toNat d) ∧
    (¬ AdsbAccepted v.toNat d → readADSBMessage v a c d = .returns .nil true ∨ readADSBMessage v a c d = .returns .typedNil true) := by
  rcases adsb_eval v a c d with ⟨h, hn, -⟩ | ⟨h, hn, -⟩ | ⟨ha, m, h, -⟩
  · exact ⟨⟨fun ⟨m, hm⟩ => (by rw [h] at hm; cases hm), fun g => absurd g hn⟩, fun _ => Or.inl h⟩
  · exact ⟨⟨fun ⟨m, hm⟩ => (by rw [h] at hm; cases hm), fun g => absurd g hn⟩, fun _ => Or.inr h⟩
  · exact ⟨⟨fun _ => ha, fun _ => ⟨m, h⟩⟩, fun g => absurd ha g⟩

/-- C25: the message read is of the family of its type code and holds what its register holds. -/
theorem adsb_dispatch (v : UInt8) (a c : Bool) (d : List UInt8) (m : ADSBMessage) (e : Bool)
    (h : readADSBMessage v a c d = .returns (.val m) e) : e = false ∧ AdsbContent v a c d m := by
  rcases adsb_eval v a c d with ⟨g, -⟩ | ⟨g, -⟩ | ⟨-, m', g, hc, -⟩ <;> rw [g] at h <;> cases h
  exact ⟨rfl, hc⟩

/-- C25: unsupported type codes and other lengths are errors. -/
theorem adsb_unsupported (v : UInt8) (a c : Bool) (d : List UInt8) (h : d.length ≠ 7 ∨ ¬ SupportedTC (bits d 1 5)) :
    readADSBMessage v a c d = .returns .nil true := by
  rcases adsb_eval v a c d with ⟨g, -⟩ | ⟨-, -, h7, hs, -⟩ | ⟨ha, m, g, hc, -⟩
  · exact g
  · rcases h with h | h
    exacts [absurd h7 h, absurd hs h]
  · rcases h with h | h
    · exact absurd ha.1 h
    · exfalso
      unfold SupportedTC at h
      obtain ⟨-, ha⟩ := ha
      unfold OpAccepted AirborneTC SurfaceTC at ha
      rcases ha with g | g | g | g | g | g | g | g <;> omega

/-- C26: the version reported is the version asked for; for an operational status it is the number the message carries
(missing: version 2 surface operational status, `adsb_version_refuted`). -/
theorem adsb_version_partial (v : UInt8) (a c : Bool) (d : List UInt8) (m : ADSBMessage) (e : Bool)
    (h : readADSBMessage v a c d = .returns (.val m) e) :
    (bits d 1 5 ≠ 31 → m.getADSBVersion = v) ∧
    (bits d 1 5 = 31 → ¬ (bits d 41 43 = 2 ∧ bits d 6 8 = 1) → m.getADSBVersion.toNat = bits d 41 43) := by
  obtain ⟨-, hc⟩ := adsb_dispatch v a c d m e h
  cases m <;> simp only [AdsbContent, AirborneTC, SurfaceTC] at hc <;>
    refine ⟨fun h31 => ?_, fun h31 hne => ?_⟩ <;> simp only [ADSBMessage.getADSBVersion]
  all_goals try (exfalso; omega)
  all_goals try (first | exact hc.2.2.1 | exact hc.2.1 | exact hc.2.1.symm | exact hc.2.2.1.symm | exact hc.2.2.2.1)
  rw [hc.2.1]
  exact adsb_level_partial d _ hc.2.2 hne

/-- C26, the part that is false: every readable version 2 surface operational status is reported as version 1, whatever
version the caller asks for. -/
theorem adsb_version_refuted (v : UInt8) (a c : Bool) (d : List UInt8) (m : ADSBMessage) (e : Bool)
    (h : readADSBMessage v a c d = .returns (.val m) e) (h31 : bits d 1 5 = 31) (h2 : bits d 41 43 = 2) (h1 : bits d 6 8 = 1) :
    m.getADSBVersion.toNat = 1 := by
  obtain ⟨-, hc⟩ := adsb_dispatch v a c d m e h
  cases m <;> simp only [AdsbContent, AirborneTC, SurfaceTC] at hc
  all_goals try (exfalso; omega)
  simp only [ADSBMessage.getADSBVersion]
  rw [hc.2.1]
  exact adsb_level_refuted d _ hc.2.2 h2 h1

/-- C27, for Mode S messages: a failed call returns the interface nil. -/
theorem readMessage_nil_on_error (d : List UInt8) (m : Iface ModeSMessage) (h : readMessageCall d = .returns m true) :
    m = .nil := by
  unfold readMessageCall at h
  split at h
  · cases h
  · rename_i v err _
    cases err
    · simp at h
    · simp at h; exact h.symm

/-- C27, for ADS-B messages: a failed call returns the interface nil when the length, the type code or (for a position) the
version is not supported (missing: all other failures, `adsb_nil_refuted`). -/
theorem adsb_nil_on_error_partial (v : UInt8) (a c : Bool) (d : List UInt8) (m : Iface ADSBMessage)
    (h : readADSBMessage v a c d = .returns m true)
    (hc : d.length ≠ 7 ∨ ¬ SupportedTC (bits d 1 5) ∨ (2 < v.toNat ∧ (SurfaceTC (bits d 1 5) ∨ AirborneTC (bits d 1 5)))) :
    m = .nil := by
  rcases adsb_eval v a c d with ⟨g, -⟩ | ⟨-, -, h7, hs, hv⟩ | ⟨-, m', g, -⟩
  · rw [g] at h; cases h; rfl
  · rcases hc with hc | hc | hc
    exacts [absurd h7 hc, absurd hs hc, absurd hc hv]
  · rw [g] at h; cases h

/-- C27, the part that is false: every failure inside a reader (a 7-byte message of a supported type code and version that
is not acceptable) returns, with the error, a message that is *not* equal to nil. -/
theorem adsb_nil_refuted (v : UInt8) (a c : Bool) (d : List UInt8) (h7 : d.length = 7) (hs : SupportedTC (bits d 1 5))
    (hv : v.toNat ≤ 2) (hn : ¬ AdsbAccepted v.toNat d) : readADSBMessage v a c d = .returns .typedNil true := by
  rcases adsb_eval v a c d with ⟨-, -, h⟩ | ⟨h, -⟩ | ⟨h, -⟩
  · rcases h with h | h | h
    exacts [absurd h7 h, absurd hs h, absurd h.1 (by omega)]
  · exact h
  · exact absurd h hn

/-- The altitude of the position made of a message of type code 0 is always said to be a GNSS height (the reader pretends the
type code is 22, while its comment says barometric), and its surveillance status and antenna flag are always 0. -/
theorem type0_altitude_source (v : UInt8) (a c : Bool) (d : List UInt8) (p : AirbornePosition) (n w : UInt8) (e : Bool)
    (h : readADSBMessage v a c d = .returns (.val (.airborneType0 p n w)) e) :
    p.altitudeSource = 1 ∧ p.surveillanceStatus = 0 ∧ p.singleAntennaFlag = 0 := by
  obtain ⟨-, -, -, -, -, -, -, g1, g2, g3, -⟩ := adsb_dispatch v a c d _ e h
  exact ⟨g1, g2, g3⟩

end Modes
namespace Spec

/-- The containment radii of the standard: `Rc` below so many metres, or no bound. -/
inductive Radius
  | below (metres : ℚ)
  | unbounded
  deriving DecidableEq

/-- One nautical mile in metres. -/
def nm (x : ℚ) : Radius := .below (x * 1852)

/-- The radii that go with each navigation integrity category. -/
def NicRadius (nic : Nat) (r : Radius) : Prop :=
  (nic = 11 ∧ r = .below (75 / 10)) ∨ (nic = 10 ∧ r = .below 25) ∨ (nic = 9 ∧ r = .below 75) ∨ (nic = 8 ∧ r = nm (1 / 10)) ∨
  (nic = 7 ∧ r = nm (2 / 10)) ∨ (nic = 6 ∧ (r = nm (3 / 10) ∨ r = nm (5 / 10) ∨ r = nm (6 / 10))) ∨ (nic = 5 ∧ r = nm 1) ∨
  (nic = 4 ∧ r = nm 2) ∨ (nic = 3 ∧ r = nm 4) ∨ (nic = 2 ∧ r = nm 8) ∨ (nic = 1 ∧ r = nm 20) ∨ (nic = 0 ∧ r = .unbounded)

/-- The standard's table for airborne positions, version 1: type code, supplement A. -/
def airborneRowV1 (tc : Nat) (a : Bool) : Nat × Radius :=
  if tc = 9 ∨ tc = 20 then (11, .below (75 / 10))
  else if tc = 10 ∨ tc = 21 then (10, .below 25)
  else if tc = 11 then (if a then (9, .below 75) else (8, nm (1 / 10)))
  else if tc = 12 then (7, nm (2 / 10))
  else if tc = 13 then (6, if a then nm (6 / 10) else nm (5 / 10))
  else if tc = 14 then (5, nm 1)
  else if tc = 15 then (4, nm 2)
  else if tc = 16 then (if a then (3, nm 4) else (2, nm 8))
  else if tc = 17 then (1, nm 20)
  else (0, .unbounded)

/-- The standard's table for airborne positions, version 2: as for version 1, except that supplement B distinguishes two
radii of type code 13 and that the combinations of supplements it leaves undefined have no row. -/
def airborneRowV2 (tc : Nat) (a b : Bool) : Option (Nat × Radius) :=
  if (tc = 11 ∨ tc = 16) ∧ a ≠ b then none
  else if tc = 13 then
    (if a && !b then none else some (6, if a then nm (6 / 10) else if b then nm (3 / 10) else nm (5 / 10)))
  else some (airborneRowV1 tc a)

/-- The standard's table for surface positions, version 1. -/
def surfaceRowV1 (tc : Nat) (a : Bool) : Nat × Radius :=
  if tc = 5 then (11, .below (75 / 10))
  else if tc = 6 then (10, .below 25)
  else if tc = 7 then (if a then (9, .below 75) else (8, nm (1 / 10)))
  else (0, .unbounded)

/-- The standard's table for surface positions, version 2: supplements A and C. -/
def surfaceRowV2 (tc : Nat) (a c : Bool) : Option (Nat × Radius) :=
  if tc = 7 ∧ c then none
  else if tc = 8 then
    some (if a && c then (7, nm (2 / 10)) else if a then (6, nm (3 / 10)) else if c then (6, nm (6 / 10)) else (0, .unbounded))
  else some (surfaceRowV1 tc a)

/-- What the radius codes of airborne version 1 messages stand for (the documentation of the constants in
pkg/adsb/airborne_position/fields/horizontal_containment_limit_v1.go). -/
def airborneRadiusV1 : Nat → Option Radius
  | 9 => some (.below (75 / 10)) | 10 => some (.below 25) | 11 => some (nm (1 / 10)) | 12 => some (nm (2 / 10))
  | 13 => some (nm (5 / 10)) | 14 => some (nm 1) | 15 => some (nm 2) | 16 => some (nm 8) | 17 => some (nm 20)
  | 18 => some .unbounded | 111 => some (.below 75) | 113 => some (nm (6 / 10)) | 116 => some (nm 4)
  | 0 => some (.below (75 / 10)) | 1 => some (.below 25) | 2 => some .unbounded
  | _ => none

/-- What the radius codes of airborne version 2 messages stand for (horizontal_containment_limit_v2.go). -/
def airborneRadiusV2 : Nat → Option Radius
  | 9 => some (.below (75 / 10)) | 10 => some (.below 25) | 11 => some (nm (1 / 10)) | 12 => some (nm (2 / 10))
  | 13 => some (nm (5 / 10)) | 14 => some (nm 1) | 15 => some (nm 2) | 16 => some (nm 8) | 17 => some (nm 20)
  | 18 => some .unbounded | 111 => some (.below 75) | 113 => some (nm (6 / 10)) | 116 => some (nm 4)
  | 213 => some (nm (3 / 10)) | 20 => some (.below (75 / 10)) | 21 => some (.below 25) | 22 => some .unbounded
  | _ => none

/-- What the radius codes of surface version 1 messages stand for (surface_position/fields/
horizontal_containment_radius_v1.go). -/
def surfaceRadiusV1 : Nat → Option Radius
  | 0 => some (.below (75 / 10)) | 1 => some (.below 25) | 2 => some (.below 75) | 3 => some (nm (1 / 10))
  | 4 => some .unbounded
  | _ => none

/-- What the radius codes of surface version 2 messages stand for (surface_position/fields/
horizontal_containment_radius_v2.go). -/
def surfaceRadiusV2 : Nat → Option Radius
  | 0 => some (.below (75 / 10)) | 1 => some (.below 25) | 2 => some (.below 75) | 3 => some (nm (1 / 10))
  | 4 => some (nm (2 / 10)) | 5 => some (nm (3 / 10)) | 6 => some (nm (6 / 10)) | 7 => some .unbounded
  | _ => none

end Spec
namespace Modes

theorem adsb_tables (v : UInt8) (a c : Bool) (d : List UInt8) (m : ADSBMessage) (e : Bool)
    (h : readADSBMessage v a c d = .returns (.val m) e) : AdsbTables m := by
  rcases adsb_eval v a c d with ⟨g, -⟩ | ⟨g, -⟩ | ⟨-, m', g, -, hc⟩ <;> rw [g] at h <;> cases h
  exact hc

theorem tc_cases {P : UInt8 → Prop} (lo hi : Nat) (x : UInt8) (h1 : lo ≤ x.toNat) (h2 : x.toNat ≤ hi) (hh : hi < 256)
    (h : ∀ n, lo ≤ n → n ≤ hi → P (UInt8.ofNat n)) : P x := by
  have := h x.toNat h1 h2
  rwa [UInt8.ofNat_toNat] at this

theorem airborneV1_row (x : UInt8) (a : Bool) (h : AirborneTC x.toNat) :
    airborneRadiusV1 (airborneHCRAndNICV1 x a).1.toNat = some (airborneRowV1 x.toNat a).2 ∧
    (airborneHCRAndNICV1 x a).2.toNat = (airborneRowV1 x.toNat a).1 := by
  revert h a
  refine fun a => UInt8.ofNat_toNat (x := x) ▸ ?_
  have hx : x.toNat < 256 := x.toNat_lt
  generalize x.toNat = n at *
  intro h
  have h' : (UInt8.ofNat n).toNat = n := by simp; omega
  unfold airborneHCRAndNICV1
  rw [h'] at h ⊢
  unfold AirborneTC at h
  have : n = 9 ∨ n = 10 ∨ n = 11 ∨ n = 12 ∨ n = 13 ∨ n = 14 ∨ n = 15 ∨ n = 16 ∨ n = 17 ∨ n = 18 ∨ n = 20 ∨ n = 21 ∨
    n = 22 := by omega
  rcases this with rfl | rfl | rfl | rfl | rfl | rfl | rfl | rfl | rfl | rfl | rfl | rfl | rfl <;> cases a <;> exact ⟨rfl, rfl⟩

theorem airborneV2_row (x : UInt8) (a : Bool) (b : UInt8) (hb : b.toNat ≤ 1) (h : AirborneTC x.toNat) :
    (∀ r, airborneRowV2 x.toNat a (b == 1) = some r →
      airborneRadiusV2 (airborneHCRAndNICV2 x a b).1.toNat = some r.2 ∧ (airborneHCRAndNICV2 x a b).2.toNat = r.1) ∧
    ∃ r, airborneRadiusV2 (airborneHCRAndNICV2 x a b).1.toNat = some r ∧ NicRadius (airborneHCRAndNICV2 x a b).2.toNat r := by
  have hb' : b = 0 ∨ b = 1 := by
    rw [u8_eq, u8_eq]
    show b.toNat = 0 ∨ b.toNat = 1
    omega
  revert h
  refine UInt8.ofNat_toNat (x := x) ▸ ?_
  have hx : x.toNat < 256 := x.toNat_lt
  generalize x.toNat = n at *
  intro h
  have h' : (UInt8.ofNat n).toNat = n := by simp; omega
  unfold airborneHCRAndNICV2
  rw [h'] at h ⊢
  unfold AirborneTC at h
  have : n = 9 ∨ n = 10 ∨ n = 11 ∨ n = 12 ∨ n = 13 ∨ n = 14 ∨ n = 15 ∨ n = 16 ∨ n = 17 ∨ n = 18 ∨ n = 20 ∨ n = 21 ∨
    n = 22 := by omega
  rcases this with rfl | rfl | rfl | rfl | rfl | rfl | rfl | rfl | rfl | rfl | rfl | rfl | rfl <;> cases a <;>
    rcases hb' with rfl | rfl <;>
    refine ⟨fun r hr => ?_, _, rfl, ?_⟩ <;>
    first
    | (cases hr; exact ⟨rfl, rfl⟩)
    | (have hr' : none = some r := hr; cases hr')
    | (unfold NicRadius; simp [nm])

theorem surfaceV1_row (x : UInt8) (a : Bool) (h : SurfaceTC x.toNat) (hne : ¬ (x.toNat = 7 ∧ a = false)) :
    surfaceRadiusV1 (surfaceHCRAndNICV1 x a).1.toNat = some (surfaceRowV1 x.toNat a).2 ∧
    (surfaceHCRAndNICV1 x a).2.toNat = (surfaceRowV1 x.toNat a).1 := by
  revert h hne
  refine UInt8.ofNat_toNat (x := x) ▸ ?_
  have hx : x.toNat < 256 := x.toNat_lt
  generalize x.toNat = n at *
  intro h hne
  have h' : (UInt8.ofNat n).toNat = n := by simp; omega
  unfold surfaceHCRAndNICV1
  rw [h'] at h hne ⊢
  unfold SurfaceTC at h
  have : n = 5 ∨ n = 6 ∨ n = 7 ∨ n = 8 := by omega
  rcases this with rfl | rfl | rfl | rfl <;> cases a <;> first | exact ⟨rfl, rfl⟩ | exact absurd ⟨rfl, rfl⟩ hne

theorem surfaceV2_row (x : UInt8) (a c : Bool) (h : SurfaceTC x.toNat) :
    (∀ r, surfaceRowV2 x.toNat a c = some r →
      surfaceRadiusV2 (surfaceHCRAndNICV2 x a c).1.toNat = some r.2 ∧ (surfaceHCRAndNICV2 x a c).2.toNat = r.1) ∧
    ∃ r, surfaceRadiusV2 (surfaceHCRAndNICV2 x a c).1.toNat = some r ∧ NicRadius (surfaceHCRAndNICV2 x a c).2.toNat r := by
  revert h
  refine UInt8.ofNat_toNat (x := x) ▸ ?_
  have hx : x.toNat < 256 := x.toNat_lt
  generalize x.toNat = n at *
  intro h
  have h' : (UInt8.ofNat n).toNat = n := by simp; omega
  unfold surfaceHCRAndNICV2
  rw [h'] at h ⊢
  unfold SurfaceTC at h
  have : n = 5 ∨ n = 6 ∨ n = 7 ∨ n = 8 := by omega
  rcases this with rfl | rfl | rfl | rfl <;> cases a <;> cases c <;>
    refine ⟨fun r hr => ?_, _, rfl, ?_⟩ <;>
    first
    | (cases hr; exact ⟨rfl, rfl⟩)
    | (have hr' : none = some r := hr; cases hr')
    | (unfold NicRadius; simp [nm])

theorem airborneRowV1_consistent (tc : Nat) (a : Bool) : NicRadius (airborneRowV1 tc a).1 (airborneRowV1 tc a).2 := by
  unfold airborneRowV1
  cases a <;> repeat' split
  all_goals (unfold NicRadius; simp [nm])

theorem surfaceRowV1_consistent (tc : Nat) (a : Bool) : NicRadius (surfaceRowV1 tc a).1 (surfaceRowV1 tc a).2 := by
  unfold surfaceRowV1
  cases a <;> repeat' split
  all_goals (unfold NicRadius; simp [nm])

theorem nic_le_11 (n : Nat) (r : Radius) (h : NicRadius n r) : n ≤ 11 := by
  unfold NicRadius at h; omega

/-- C30: the integrity category and the radius reported for an airborne position of version 1 or 2 or a surface position of
version 2 are those of the standard's row for the type code and the supplements, and always belong to the same row, for
every message body (missing: surface positions of version 1, type code 7, supplement A not set, `nic_surface_refuted`). -/
theorem nic_table_partial (v : UInt8) (a c : Bool) (d : List UInt8) (m : ADSBMessage) (e : Bool)
    (h : readADSBMessage v a c d = .returns (.val m) e) :
    match m with
    | .airborneV1 _ a' hcr nic => a' = a ∧ nic.toNat = (airborneRowV1 (bits d 1 5) a).1 ∧
        airborneRadiusV1 hcr.toNat = some (airborneRowV1 (bits d 1 5) a).2
    | .airborneV2 _ a' b hcr nic => a' = a ∧ b.toNat = bits d 8 8 ∧
        (∀ row, airborneRowV2 (bits d 1 5) a (bit d 8) = some row →
          nic.toNat = row.1 ∧ airborneRadiusV2 hcr.toNat = some row.2) ∧
        ∃ r, airborneRadiusV2 hcr.toNat = some r ∧ NicRadius nic.toNat r
    | .surfaceV1 _ a' hcr nic => a' = a ∧ (¬ (bits d 1 5 = 7 ∧ a = false) →
        nic.toNat = (surfaceRowV1 (bits d 1 5) a).1 ∧ surfaceRadiusV1 hcr.toNat = some (surfaceRowV1 (bits d 1 5) a).2)
    | .surfaceV2 _ a' c' hcr nic => a' = a ∧ c' = c ∧
        (∀ row, surfaceRowV2 (bits d 1 5) a c = some row →
          nic.toNat = row.1 ∧ surfaceRadiusV2 hcr.toNat = some row.2) ∧
        ∃ r, surfaceRadiusV2 hcr.toNat = some r ∧ NicRadius nic.toNat r
    | .noPosition _ _ _ nic => nic = 0
    | .airborneType0 _ nic _ => nic = 0
    | _ => True := by
  have ht := adsb_tables v a c d m e h
  obtain ⟨-, hc⟩ := adsb_dispatch v a c d m e h
  cases m
  case noPosition => exact hc.2.2.2.2.1
  case airborneType0 => exact hc.2.2.2.1
  case airborneV1 p a' hcr nic =>
    obtain ⟨htc, hv, hp, rfl⟩ := hc
    have hf := (airborne_position_content d p hp).1
    have := airborneV1_row p.formatTypeCode a' (by rw [hf]; exact htc)
    rw [hf] at this
    have ht : (hcr, nic) = _ := ht
    rw [← ht] at this
    exact ⟨rfl, this.2, this.1⟩
  case airborneV2 p a' b hcr nic =>
    obtain ⟨htc, hv, hp, rfl, hb⟩ := hc
    have hf := (airborne_position_content d p hp).1
    have hb1 : bits d 8 8 < 2 := by unfold bits; exact Nat.mod_lt _ (by decide)
    have := airborneV2_row p.formatTypeCode a' b (by omega) (by rw [hf]; exact htc)
    rw [hf] at this
    have ht : (hcr, nic) = _ := ht
    rw [← ht] at this
    have hbit : (b == 1) = bit d 8 := by
      unfold bit
      rw [← hb]
      have hb2 : b.toNat = 0 ∨ b.toNat = 1 := by omega
      rw [Bool.eq_iff_iff]
      simp only [beq_iff_eq, decide_eq_true_eq]
      rw [u8_eq]
      rfl
    rw [hbit] at this
    exact ⟨rfl, hb, fun row hr => ⟨(this.1 row hr).2, (this.1 row hr).1⟩, this.2⟩
  case surfaceV1 p a' hcr nic =>
    obtain ⟨htc, hv, hp, rfl⟩ := hc
    have hf := (surface_position_content d p hp).1
    refine ⟨rfl, fun hne => ?_⟩
    have := surfaceV1_row p.formatTypeCode a' (by rw [hf]; exact htc) (by rw [hf]; exact hne)
    rw [hf] at this
    have ht : (hcr, nic) = _ := ht
    rw [← ht] at this
    exact ⟨this.2, this.1⟩
  case surfaceV2 p a' c' hcr nic =>
    obtain ⟨htc, hv, hp, rfl, rfl⟩ := hc
    have hf := (surface_position_content d p hp).1
    have := surfaceV2_row p.formatTypeCode a' c' (by rw [hf]; exact htc)
    rw [hf] at this
    have ht : (hcr, nic) = _ := ht
    rw [← ht] at this
    exact ⟨rfl, rfl, fun row hr => ⟨(this.1 row hr).2, (this.1 row hr).1⟩, this.2⟩
  all_goals trivial

/-- C30: the rows of the standard's tables agree with the categories, so a message of version 1 has a category and a radius
of the same row too. -/
theorem nic_rows_consistent (tc : Nat) (a : Bool) :
    NicRadius (airborneRowV1 tc a).1 (airborneRowV1 tc a).2 ∧ NicRadius (surfaceRowV1 tc a).1 (surfaceRowV1 tc a).2 :=
  ⟨airborneRowV1_consistent tc a, surfaceRowV1_consistent tc a⟩

/-- C30: the category is at most 11, for every message of every version. -/
theorem nic_range (v : UInt8) (a c : Bool) (d : List UInt8) (m : ADSBMessage) (e : Bool)
    (h : readADSBMessage v a c d = .returns (.val m) e) :
    match m with
    | .airborneV1 _ _ _ nic | .airborneV2 _ _ _ _ nic | .surfaceV1 _ _ _ nic | .surfaceV2 _ _ _ _ nic
    | .noPosition _ _ _ nic | .airborneType0 _ nic _ => nic.toNat ≤ 11
    | _ => True := by
  have hp := nic_table_partial v a c d m e h
  have ht := adsb_tables v a c d m e h
  cases m <;> simp only at hp ⊢
  case noPosition => rw [hp]; decide
  case airborneType0 => rw [hp]; decide
  case airborneV1 => rw [hp.2.1]; exact nic_le_11 _ _ (airborneRowV1_consistent _ _)
  case airborneV2 => obtain ⟨-, -, -, r, -, hr⟩ := hp; exact nic_le_11 _ _ hr
  case surfaceV1 p a' hcr nic =>
    have ht : (hcr, nic) = _ := ht
    have : nic = (surfaceHCRAndNICV1 p.formatTypeCode a').2 := by rw [← ht]
    rw [this]
    unfold surfaceHCRAndNICV1
    repeat' split
    all_goals decide
  case surfaceV2 => obtain ⟨-, -, -, r, -, hr⟩ := hp; exact nic_le_11 _ _ hr

/-- C30, the part that is false: every version 1 surface position of type code 7 read without supplement A has category 8
("below 0.1 NM") together with the radius "0.1 NM or more, or unknown". -/
theorem nic_surface_refuted (d : List UInt8) (c : Bool) (h7 : d.length = 7) (htc : bits d 1 5 = 7) :
    ∃ p hcr nic, readADSBMessage 1 false c d = .returns (.val (.surfaceV1 p false hcr nic)) false ∧ nic = 8 ∧
      surfaceRadiusV1 hcr.toNat = some .unbounded ∧ ¬ NicRadius nic.toNat .unbounded := by
  have hacc : AdsbAccepted (1 : UInt8).toNat d := ⟨h7, Or.inr (Or.inr (Or.inl ⟨by unfold SurfaceTC; omega, by decide⟩))⟩
  obtain ⟨m, hm⟩ := (adsb_accepts 1 false c d).1.2 hacc
  have ht := adsb_tables 1 false c d m false hm
  obtain ⟨-, hc⟩ := adsb_dispatch 1 false c d m false hm
  cases m
  case surfaceV1 p a' hcr nic =>
    obtain ⟨-, -, hp, rfl⟩ := hc
    have hf := (surface_position_content d p hp).1
    have ht : (hcr, nic) = surfaceHCRAndNICV1 p.formatTypeCode false := ht
    unfold surfaceHCRAndNICV1 at ht
    rw [hf, htc] at ht
    cases ht
    refine ⟨p, 4, 8, hm, rfl, rfl, ?_⟩
    show ¬ NicRadius 8 .unbounded
    unfold NicRadius nm
    simp
  case surfaceV0 => exact absurd hc.2.1 (by decide)
  case surfaceV2 => exact absurd hc.2.1 (by decide)
  all_goals (simp only [AdsbContent, AirborneTC] at hc; exfalso; omega)

/-- An airborne position of each version, a surface position, a no-position message and a type 0 position are acceptable. -/
example : AdsbAccepted 2 examplePosition := by
  refine ⟨rfl, Or.inr (Or.inr (Or.inr (Or.inl ⟨by decide, by decide, ?_⟩)))⟩
  exact ((airborne_position_accepts examplePosition).1.1 ⟨_, rfl⟩).2.2.2.2
example : AdsbAccepted 1 exampleSurface := ⟨rfl, Or.inr (Or.inr (Or.inl ⟨by decide, by decide⟩))⟩
example : AdsbAccepted 0 [0x00, 0xC3, 0x80, 0, 0, 0, 0] := by
  refine ⟨rfl, Or.inl ⟨by decide, ?_⟩⟩
  exact ((airborne_position_accepts [0x58, 0xC3, 0x80, 0, 0, 0, 0]).1.1 ⟨_, rfl⟩).2.2.2.2
example : ∃ p, readADSBMessage 1 true false [0x00, 0xC3, 0x82, 0xD6, 0x90, 0xC8, 0xAC] =
    .returns (.val (.airborneType0 p 0 1)) false := ⟨_, rfl⟩
/-- `adsb_version_refuted`: a readable version 2 surface operational status. -/
example : let d : List UInt8 := [0xF9, 0x13, 0x71, 0x02, 0x41, 0x49, 0xB2]
    AdsbAccepted 0 d ∧ bits d 1 5 = 31 ∧ bits d 41 43 = 2 ∧ bits d 6 8 = 1 :=
  ⟨⟨rfl, Or.inr (Or.inr (Or.inr (Or.inr (Or.inr (Or.inr (Or.inr (by decide)))))))⟩, by decide⟩
/-- `adsb_nil_refuted`: a velocity of subtype 0 is not acceptable. -/
example : let d : List UInt8 := [0x98, 0, 0, 0, 0, 0, 0]
    d.length = 7 ∧ SupportedTC (bits d 1 5) ∧ bits d 1 5 = 19 ∧ bits d 6 8 = 0 := by decide
/-- `nic_surface_refuted` is about a readable message. -/
example : exampleSurface.length = 7 ∧ bits exampleSurface 1 5 = 7 := by decide

end Modes
