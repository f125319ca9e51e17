import Verif.Props.Reasons
/-!
# Examples for C103
-/
set_option linter.unusedSimpArgs false
open Spec
namespace Modes

/-- The readers, one refusal of each kind. -/
example : bds00Error [0, 0, 0, 0, 0, 0, 1] = some (t! "bits 1 to 56 must be zero") ∧ bds00Error [0, 0, 0, 0, 0, 0, 0] = none ∧
    bds07Error [0x08, 0, 0, 0, 0, 0, 0] = some (t! "the bits 4 to 8 are reserved and must be 0") ∧
    bds07Error [0xA0, 0, 1, 0, 0, 0, 0] = some (t! "the bits 9 to 56 are reserved and must be 0") ∧
    bds10Error [0x11, 0, 0, 0, 0, 0, 0] = some (t! "the first byte of data is not 0x10") ∧
    bds10Error [0x10, 0x20, 0, 0, 0, 0, 0] = some (t! "the bits 10 to 14 are reserved and must be 0") ∧
    bds10Error [0x10, 0x03, 0, 0, 0, 0, 0] = none := by decide

example : bds17Error [0, 0, 0, 1, 0, 0, 0] = some (t! "the bits 30 to 32 are reserved and must be 0") ∧
    bds17Error [0xFA, 0x81, 0xC1, 0, 0, 0, 0] = none ∧ bds17Error [0xFA, 0x81, 0xC1, 0, 0, 1, 0] =
      some (t! "the bits 33 to 56 are reserved and must be 0") ∧
    bds20Error [0x20, 0x2C, 0xC3, 0x71, 0xC3, 0x2C, 0xE0] = none ∧ bds20Error [0x20] =
      some (t! "the data for Comm-B AircraftIdentification message must be 7 bytes long") ∧
    bds40Error [0x85, 0xE4, 0x2F, 0x31, 0x30, 0, 0] = none ∧ bds40Error [0x85, 0xE4, 0x2F, 0x31, 0x31, 0, 0] = some (t! "the bit 40 must be zero") ∧
    bds40Error [0x85, 0xE4, 0x2F, 0x31, 0x30, 2, 0] = some (t! "the bits 41 to 47 must be zero") ∧
    bds40Error [0x85, 0xE4, 0x2F, 0x31, 0x30, 0, 8] = some (t! "the bits 52 to 53 must be zero") := by decide

example : bds44Error [] = some (t! "the data must be 7 bytes long (0 given)") ∧
    bds44Error [0x18, 0x5B, 0xD5, 0xCF, 0x40, 0, 0] = none ∧ bds44V1Error [0x18, 0x5B, 0xD5, 0xCF, 0x40, 0, 0] =
      some (t! "the bits 1 to 4 must be zero") ∧
    bds44Error [0xF0, 0, 0, 0, 0, 0, 0] = some (t! "the field SubType must be comprised between 0 and 1 included, got 15") ∧
    bds45Error [0, 0, 0, 0, 0, 0, 1] = some (t! "the bits 52 to 56 must be zero") ∧ bds45Error [0, 0, 0, 0, 0, 0, 4] = none ∧
    bds45V1Error [0, 0, 0, 0, 0, 0, 2] = some (t! "the bits 55 to 56 must be zero") ∧
    bds50Error [1, 2, 3] = some (t! "the data for Comm-B TrackAndTurnReport message must be 7 bytes long") := by decide

/-- The altitude code of the threat is illegal: the reason is true, and the hypotheses of `bds30_reason_partial` hold. -/
example : ∃ d : List UInt8, bits d 1 8 ≠ 0x20 ∧ (bits d 29 30 = 2 → bits d 31 32 = 0) ∧ bits d 29 30 = 2 ∧
    bds30Error d = some (t! "the Altitude field is malformed") ∧ TrueIn (readReasons30 d) (t! "the Altitude field is malformed") := by
  have h : bds30Error [0x30, 0, 0, 0x08, 0x10, 0, 0] = some (t! "the Altitude field is malformed") := by decide +kernel
  have h1 : bits [0x30, 0, 0, 0x08, 0x10, 0, 0] 1 8 ≠ 0x20 := by decide
  have h2 : bits [0x30, 0, 0, 0x08, 0x10, 0, 0] 29 30 = 2 → bits [0x30, 0, 0, 0x08, 0x10, 0, 0] 31 32 = 0 := by decide
  exact ⟨_, h1, h2, by decide, h, (bds30_reason_partial _).2 h1 h2 _ h⟩

example : bds30Error [0x20, 0, 0, 0, 0, 0, 0] = some (t! "the first byte of data is not 0x20") :=
  bds30_reason_refuted _ rfl (by decide)

/-- The coherency checks: a status, a call sign, a category. -/
example : ∃ d m t, readBDS07 d = .ok m ∧ m.incoherence = some t ∧ TrueIn (reasons07 d) t := by
  obtain ⟨m, hm⟩ := (bds07_accepts [0xC0, 0, 0, 0, 0, 0, 0]).1.2 (by decide)
  have hc : m.incoherence ≠ none := by
    rw [Ne, coherence07, (bds07_content _ m hm).2.2]; decide
  obtain ⟨t, ht⟩ := Option.ne_none_iff_exists'.1 hc
  exact ⟨_, m, t, hm, ht, bds07_incoherence _ m hm t ht⟩

example : ∃ d m, readBDS20 d = .ok m ∧ m.incoherence = some (t! "field Identification contains a non valid character") ∧ BadCharacter d := by
  refine ⟨[0x20, 0, 0, 0, 0, 0, 0], { identification := [0x23, 0x23, 0x23, 0x23, 0x23, 0x23, 0x23, 0x23] }, by rw [bds20_eval]; decide +kernel, by decide,
    0, by decide, by decide⟩

example : ∃ d m, readBDS08 d = .ok m ∧
    m.incoherence = some (t! "field FormatTypeCode is 2 (Category set C) and the Category is Reserved") ∧
    TrueIn (reasons08 d) (t! "field FormatTypeCode is 2 (Category set C) and the Category is Reserved") := by
  have hm : readBDS08 [0x15, 0x2C, 0xC3, 0x71, 0xC3, 0x2C, 0xE0] = .ok ⟨2, .setC 5, [75, 76, 77, 49, 48, 50, 51, 32]⟩ := by
    rw [bds08_eval]; decide +kernel
  have ht : IdentificationAndCategory.incoherence ⟨2, .setC 5, [75, 76, 77, 49, 48, 50, 51, 32]⟩ =
      some (t! "field FormatTypeCode is 2 (Category set C) and the Category is Reserved") := by decide
  exact ⟨_, _, hm, ht, bds08_incoherence _ _ hm _ ht⟩

example : ∃ d m t, readBDS10 d = .ok m ∧ m.incoherence = some t ∧ TrueIn (reasons10 d) t := by
  obtain ⟨m, hm⟩ := (bds10_accepts [0x10, 0x03, 0x0C, 0x70, 0xF4, 0, 0]).1.2 (by decide)
  have hl := bds10_content_partial _ m hm
  have hc : m.incoherence ≠ none := by
    rw [Ne, coherence10, bds10_coherent _ m hm]; decide
  obtain ⟨t, ht⟩ := Option.ne_none_iff_exists'.1 hc
  exact ⟨_, m, t, hm, ht, bds10_incoherence _ m hm t ht⟩

/-- A ground speed of 1000 knots. -/
example : ∃ d m t, readBDS50 d = .ok m ∧ m.incoherence = some t ∧ TrueIn (reasons50 d) t := by
  obtain ⟨m, hm⟩ := (bds50_60_accept [0, 0, 0x01, 0x7D, 0, 0, 0]).1.2 (by decide)
  have hc : m.incoherence ≠ none := by
    rw [Ne, coherence50, (bds50_coherent m _ hm).2]; decide +kernel
  obtain ⟨t, ht⟩ := Option.ne_none_iff_exists'.1 hc
  exact ⟨_, m, t, hm, ht, bds50_incoherence _ m hm t ht⟩

example : ∃ d m t, readBDS60 d = .ok m ∧ m.incoherence = some t ∧ TrueIn (reasons60 d) t := by
  obtain ⟨m, hm⟩ := (bds50_60_accept [0, 0, 0x01, 0x7D, 0, 0, 0]).2.2.1.2 (by decide)
  have hc : m.incoherence ≠ none := by
    rw [Ne, coherence60, (bds60_coherent m _ hm).2]; decide +kernel
  obtain ⟨t, ht⟩ := Option.ne_none_iff_exists'.1 hc
  exact ⟨_, m, t, hm, ht, bds60_incoherence _ m hm t ht⟩

/-- Routine air reports: nothing in it but zeros, no turbulence flag. -/
example : ∃ d m t, readBDS44V1 d = .ok m ∧ bit d 48 = false ∧ m.incoherence = some t ∧ TrueIn (reasons44 d) t := by
  rcases bds44V1_eval [0, 0, 0, 0, 0, 0, 0] with ⟨-, n⟩ | ⟨-, m, e, hl⟩
  · exact absurd (by decide) n
  · have hc : m.incoherence ≠ none := by
      rw [Ne, coherence44V1, bds44V1_coherent, hl.windSpeedStatus, hl.windDirectionStatus, hl.staticAirTemperatureStatus,
        hl.averageStaticPressureStatus, hl.humidityStatus]
      intro h
      exact absurd h.1 (by decide)
    obtain ⟨t, ht⟩ := Option.ne_none_iff_exists'.1 hc
    exact ⟨_, m, t, e, by decide, ht, bds44V1_incoherence_partial _ m e (by decide) t ht⟩

/-- A source of 9. -/
example : ∃ d m t, readBDS44V2 d = .ok m ∧ bit d 48 = false ∧ m.incoherence = some t ∧ TrueIn (reasons44 d) t := by
  rcases bds44V2_eval [0x98, 0x50, 0, 0, 0, 0, 0] with ⟨-, n⟩ | ⟨-, m, e, hl⟩
  · exact absurd (by decide) n
  · have ht : m.incoherence = some (t! "field Source is a Reserved value") := by
      unfold RoutineAirReportV2.incoherence
      rw [if_pos]
      rw [ge_iff_le, UInt8.le_iff_toNat_le, hl.source]; decide
    exact ⟨_, m, _, e, by decide, ht, bds44V2_incoherence_partial _ m e (by decide) _ ht⟩

example : ∃ d m t, readBDS44V0 d = .ok m ∧ m.incoherence = some t ∧ t ≠ t! "the message does not convey any information" ∧
    t ≠ t! "the static air temperature is to high or to low (-80 <= temp <= 60)" ∧ TrueIn (reasons44V0 d) t := by
  rcases bds44V0_eval [0x98, 0x50, 0, 0, 0, 0, 0] with ⟨-, n⟩ | ⟨-, m, e, hl⟩
  · exact absurd (by decide) n
  · have ht : m.incoherence = some (t! "field Source is a Reserved value") := by
      unfold RoutineAirReportV0.incoherence
      rw [if_neg, if_pos]
      · rw [ge_iff_le, UInt8.le_iff_toNat_le, hl.source]; decide
      · rw [hl.windSpeedStatus]; intro h; exact absurd h.1 (by decide)
    exact ⟨_, m, _, e, ht, by decide, by decide, bds44V0_incoherence_partial _ m e _ ht (by decide) (by decide)⟩

/-- Hazard reports: a turbulence level without its status; turbulence numbers without their status. -/
example : ∃ d m t, readBDS45V0 d = .ok m ∧ m.incoherence = some t ∧ TrueIn (reasons45V0 d) t := by
  rcases bds45V0_eval [0x70, 0, 0, 0, 0, 0, 0] with ⟨-, n⟩ | ⟨-, m, e, hl⟩
  · exact absurd (by decide) n
  · have hc : m.incoherence ≠ none := by
      rw [Ne, coherence45V0, bds45V0_coherent, hl.turbulenceStatus, u8_zero_iff, hl.turbulence]
      intro h
      have := h.2.1 (by decide)
      exact absurd this (by decide)
    obtain ⟨t, ht⟩ := Option.ne_none_iff_exists'.1 hc
    exact ⟨_, m, t, e, ht, bds45V0_incoherence _ m e t ht⟩

example : ∃ d m t, readBDS45V1 d = .ok m ∧ m.incoherence = some t ∧ TrueIn (reasons45V1 d) t := by
  rcases bds45V1_eval [0xC0, 0, 0, 0, 0, 0, 4] with ⟨-, n⟩ | ⟨-, m, e, hl⟩
  · exact absurd (by decide) n
  · have hp : m.turbulencePeakDelayInterval ≠ 0 := by rw [Ne, u8_zero_iff, hl.peakDelay]; decide
    have ht : m.incoherence = some (t! "the turbulence status is set to false, but some turbulence values are given") := by
      unfold HazardReportV1.incoherence
      rw [if_neg, if_pos]
      · exact ⟨by rw [hl.turbulenceStatus]; decide, Or.inr (Or.inr hp)⟩
      · rw [hl.windShearStatus]; intro h; exact absurd h.2.1 (by decide)
    exact ⟨_, m, _, e, ht, bds45V1_incoherence _ m e _ ht⟩

/-- A selected vertical intention for which the reason is true. -/
example : ∃ d m, readBDS40 d = .ok m ∧ (bits d 2 13 = 0 ↔ bits d 15 26 = 0) ∧ bit d 27 = bit d 1 ∧ bits d 28 39 ≠ 0 ∧ bit d 48 = false ∧
    bit d 54 = false ∧ ∃ t, m.incoherence = some t ∧ TrueIn (reasons40 d) t := by
  obtain ⟨m, hm⟩ := (bds40_accepts [0x01, 0x0C, 0x10, 0x01, 0x30, 0, 0]).1.2 (by decide)
  have ha := bds40_reason_actual _ m hm
  refine ⟨_, m, hm, by decide, by decide, by decide, by decide, by decide,
    t! "the MCP/FCU SelectedAltitude status is set to false, but a MCP/FCU SelectedAltitude value is given", ?_, ?_⟩
  · rw [ha]; decide +kernel
  · exact bds40_incoherence_partial _ m hm (by decide) (by decide) (by decide) (by decide) (by decide) _ (by rw [ha]; decide +kernel)

/-- The status 7 of an emergency. -/
example : ∃ d m t, readBDS61 d = .ok m ∧ bits d 9 11 ≠ 6 ∧ m.incoherence = some t ∧ TrueIn (reasons61 d) t := by
  obtain ⟨m, hm⟩ := (status_accepts_partial [0xE1, 0xE2, 0xB6, 0, 0, 0, 0]).1.2 ⟨by decide, by decide, Or.inr (Or.inl (by decide))⟩
  have hc : m.incoherence ≠ none := by
    have : m.incoherence = none ↔ m.coherent = true := adsb_incoherence_iff (.status m default)
    rw [Ne, this, status_coherent_iff _ m hm]; decide
  obtain ⟨t, ht⟩ := Option.ne_none_iff_exists'.1 hc
  exact ⟨_, m, t, hm, by decide, ht, bds61_incoherence_partial _ m hm (by decide) t ht⟩

end Modes
