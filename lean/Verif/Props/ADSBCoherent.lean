import Verif.Props.ADSB
/-!
# C69: the coherence check of ADS-B messages
-/
open Spec
namespace Spec

/-- The only messages `CheckCoherency` complains about: identifications with a character that stands for nothing, or with a
reserved category (all of set D, and 4-7 of set C); status messages telling of an emergency in a message that gives no
information, or of an emergency state above 5. -/
def AdsbIncoherent (d : List UInt8) : Prop :=
  (1 ≤ bits d 1 5 ∧ bits d 1 5 ≤ 4 ∧
    ((∃ i < 8, ¬ ∃ c, identOf (identField d i) = some c ∧ IdentChar c) ∨ bits d 1 5 = 1 ∨
      (bits d 1 5 = 2 ∧ 4 ≤ bits d 6 8))) ∨
  (bits d 1 5 = 28 ∧ ((bits d 6 8 = 0 ∧ bits d 9 11 ≠ 0) ∨ (bits d 6 8 = 1 ∧ 6 ≤ bits d 9 11)))

end Spec
namespace Modes

/-- C69: the message read is judged coherent exactly when it is not one of those. -/
theorem adsb_coherent_iff (v : UInt8) (a c : Bool) (d : List UInt8) (m : ADSBMessage) (e : Bool)
    (h : readADSBMessage v a c d = .returns (.val m) e) : m.coherent = true ↔ ¬ AdsbIncoherent d := by
  have hc := (adsb_dispatch v a c d m e h).2
  unfold AdsbIncoherent
  cases m with
  | identification m v' =>
    obtain ⟨h1, h2, -, hr⟩ := hc
    show m.coherent = true ↔ _
    rw [bds08_coherent_iff d m hr]
    constructor
    · rintro ⟨hi, h3, h4⟩ (⟨-, -, ⟨i, hi8, hn⟩ | h5 | ⟨h5, h6⟩⟩ | ⟨h5, -⟩)
      · exact hn (hi i hi8)
      · exact h3 h5
      · have := h4 h5; omega
      · omega
    · intro hn
      refine ⟨fun i hi => by_contra fun hh => hn (Or.inl ⟨h1, h2, Or.inl ⟨i, hi, hh⟩⟩),
        fun hh => hn (Or.inl ⟨h1, h2, Or.inr (Or.inl hh)⟩), fun hh => ?_⟩
      by_contra h6
      exact hn (Or.inl ⟨h1, h2, Or.inr (Or.inr ⟨hh, by omega⟩)⟩)
  | status m v' =>
    obtain ⟨h1, -, hr⟩ := hc
    show m.coherent = true ↔ _
    rw [status_coherent_iff d m hr]
    omega
  | noPosition => simp only [ADSBMessage.coherent, true_iff]; have := hc.1; omega
  | airborneType0 => simp only [ADSBMessage.coherent, true_iff]; have := hc.1; omega
  | airborneV0 => simp only [ADSBMessage.coherent, true_iff]; have := hc.1; unfold AirborneTC at this; omega
  | airborneV1 => simp only [ADSBMessage.coherent, true_iff]; have := hc.1; unfold AirborneTC at this; omega
  | airborneV2 => simp only [ADSBMessage.coherent, true_iff]; have := hc.1; unfold AirborneTC at this; omega
  | surfaceV0 => simp only [ADSBMessage.coherent, true_iff]; have := hc.1; unfold SurfaceTC at this; omega
  | surfaceV1 => simp only [ADSBMessage.coherent, true_iff]; have := hc.1; unfold SurfaceTC at this; omega
  | surfaceV2 => simp only [ADSBMessage.coherent, true_iff]; have := hc.1; unfold SurfaceTC at this; omega
  | velocity => simp only [ADSBMessage.coherent, true_iff]; have := hc.1; omega
  | targetState => simp only [ADSBMessage.coherent, true_iff]; have := hc.1; omega
  | operationalStatus => simp only [ADSBMessage.coherent, true_iff]; have := hc.1; omega

/-- An identification whose third character is reserved. -/
example : AdsbIncoherent [0x20, 0x2C, 0xC0, 0x31, 0xC3, 0x2C, 0xE0] :=
  Or.inl ⟨by decide, by decide, Or.inl ⟨2, by decide, by
    have : identOf (identField [0x20, 0x2C, 0xC0, 0x31, 0xC3, 0x2C, 0xE0] 2) = none := by decide
    rw [this]; rintro ⟨c, h, -⟩; cases h⟩⟩

/-- A downed aircraft. -/
example : AdsbIncoherent [0xE1, 0xC0, 0, 0, 0, 0, 0] ∧
    ∃ m, readADSBMessage 2 false false [0xE1, 0xC0, 0, 0, 0, 0, 0] = .returns (.val m) false :=
  ⟨Or.inr ⟨by decide, Or.inr (by decide)⟩, (adsb_accepts 2 false false _).1.2
    ⟨by decide, Or.inr (Or.inr (Or.inr (Or.inr (Or.inr (Or.inl ⟨by decide, Or.inr (Or.inl (by decide))⟩)))))⟩⟩

end Modes
