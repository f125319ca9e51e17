import Verif.Model.CommBSmall
import Verif.Props.ACAS
import Verif.Props.BDS61
import Verif.Lemmas.Register
/-!
# C51, C52, C53: the registers 0,0 / 0,7 / 1,0 / 1,7 / 3,0

Positions: bits are numbered from 1, as in the documents. For each register: `_accepts` (exactly which data is readable, no
panic), `_content` (each field is the number in its position) and `_coherent` (the coherency check in terms of the bits).
-/
set_option linter.unusedSimpArgs false
open Spec
namespace Modes

theorem expectZeros7 (b0 b1 b2 b3 b4 b5 b6 : UInt8) : expectZeros [b0, b1, b2, b3, b4, b5, b6] 0 7 =
    if b0 = 0 ∧ b1 = 0 ∧ b2 = 0 ∧ b3 = 0 ∧ b4 = 0 ∧ b5 = 0 ∧ b6 = 0 then .ok () else .error .err := by
  have := expectZeros_all [b0, b1, b2, b3, b4, b5, b6]
  simp only [List.length_cons, List.length_nil] at this
  rw [this]
  simp [List.all_cons]

theorem expectZeros6 (b0 b1 b2 b3 b4 b5 b6 : UInt8) : expectZeros [b0, b1, b2, b3, b4, b5, b6] 1 6 =
    if b1 = 0 ∧ b2 = 0 ∧ b3 = 0 ∧ b4 = 0 ∧ b5 = 0 ∧ b6 = 0 then .ok () else .error .err := by
  rw [expectZeros_cons]
  have := expectZeros_all [b1, b2, b3, b4, b5, b6]
  simp only [List.length_cons, List.length_nil] at this
  rw [this]
  simp [List.all_cons]

theorem expectZeros3 (b0 b1 b2 b3 b4 b5 b6 : UInt8) : expectZeros [b0, b1, b2, b3, b4, b5, b6] 4 3 =
    if b4 = 0 ∧ b5 = 0 ∧ b6 = 0 then .ok () else .error .err := by
  rw [expectZeros_cons, expectZeros_cons, expectZeros_cons, expectZeros_cons]
  have := expectZeros_all [b4, b5, b6]
  simp only [List.length_cons, List.length_nil] at this
  rw [this]
  simp [List.all_cons]

theorem readBDS00_short (d : List UInt8) (h7 : d.length ≠ 7) : readBDS00 d = .error .err := by
  unfold readBDS00; rw [if_pos h7]; rfl
theorem readBDS07_short (d : List UInt8) (h7 : d.length ≠ 7) : readBDS07 d = .error .err := by
  unfold readBDS07; rw [if_pos h7]; rfl
theorem readBDS10_short (d : List UInt8) (h7 : d.length ≠ 7) : readBDS10 d = .error .err := by
  unfold readBDS10; rw [if_pos h7]; rfl
theorem readBDS17_short (d : List UInt8) (h7 : d.length ≠ 7) : readBDS17 d = .error .err := by
  unfold readBDS17; rw [if_pos h7]; rfl
theorem readBDS30_short (d : List UInt8) (h7 : d.length ≠ 7) : readBDS30 d = .error .err := by
  unfold readBDS30; rw [if_pos h7]; rfl

theorem bds00_eval (d : List UInt8) :
    (readBDS00 d = .error .err ∧ ¬ (d.length = 7 ∧ bits d 1 56 = 0)) ∨
    ((d.length = 7 ∧ bits d 1 56 = 0) ∧ readBDS00 d = .ok {}) := by
  by_cases h7 : d.length = 7
  swap; · exact Or.inl ⟨readBDS00_short d h7, fun h => h7 h.1⟩
  obtain ⟨b0, b1, b2, b3, b4, b5, b6, rfl⟩ := list7 d h7
  have e0 : (b0 = 0 ∧ b1 = 0 ∧ b2 = 0 ∧ b3 = 0 ∧ b4 = 0 ∧ b5 = 0 ∧ b6 = 0) ↔ bits [b0, b1, b2, b3, b4, b5, b6] 1 56 = 0 := by
    word_nat; byte_omega
  unfold readBDS00
  go_run [expectZeros7]
  by_cases h : (b0 = 0 ∧ b1 = 0 ∧ b2 = 0 ∧ b3 = 0 ∧ b4 = 0 ∧ b5 = 0 ∧ b6 = 0)
  · rw [if_pos h]; exact Or.inr ⟨⟨trivial, e0.1 h⟩, rfl⟩
  · rw [if_neg h]; exact Or.inl ⟨by trivial, fun ha => h (e0.2 ha.2)⟩

/-- C44. The "no message available" register is readable exactly when the 56 bits are zero; it never panics. -/
theorem bds00_accepts (d : List UInt8) :
    (Succeeds (readBDS00 d) ↔ d.length = 7 ∧ bits d 1 56 = 0) ∧ NoPanic (readBDS00 d) := by
  rcases bds00_eval d with ⟨h, hn⟩ | ⟨ha, hm⟩
  · exact ⟨⟨fun ⟨m, hm⟩ => (by rw [h] at hm; cases hm), fun h => absurd h hn⟩, by rw [h]; simp [NoPanic]⟩
  · exact ⟨⟨fun _ => ha, fun _ => ⟨_, hm⟩⟩, by rw [hm]; simp [NoPanic]⟩

example : Succeeds (readBDS00 [0, 0, 0, 0, 0, 0, 0]) ∧ ¬ Succeeds (readBDS00 [0, 0, 0, 0, 0, 0, 1]) := by
  rw [(bds00_accepts _).1, (bds00_accepts _).1]; decide

theorem bds07_eval (d : List UInt8) :
    (readBDS07 d = .error .err ∧ ¬ (d.length = 7 ∧ bits d 4 6 = 0 ∧ bits d 9 56 = 0)) ∨
    ((d.length = 7 ∧ bits d 4 6 = 0 ∧ bits d 9 56 = 0) ∧ ∃ m, readBDS07 d = .ok m ∧
      m.transmissionRateSubfield.toNat = bits d 1 2 ∧ m.altitudeTypeSubfield.toNat = bits d 3 3) := by
  by_cases h7 : d.length = 7
  swap; · exact Or.inl ⟨readBDS07_short d h7, fun h => h7 h.1⟩
  obtain ⟨b0, b1, b2, b3, b4, b5, b6, rfl⟩ := list7 d h7
  have e0 : b0 &&& 28 = 0 ↔ bits [b0, b1, b2, b3, b4, b5, b6] 4 6 = 0 := by word_nat; byte_omega
  have e1 : (b1 = 0 ∧ b2 = 0 ∧ b3 = 0 ∧ b4 = 0 ∧ b5 = 0 ∧ b6 = 0) ↔ bits [b0, b1, b2, b3, b4, b5, b6] 9 56 = 0 := by
    word_nat; byte_omega
  have f0 : ((b0 &&& 192) >>> 6).toNat = bits [b0, b1, b2, b3, b4, b5, b6] 1 2 := by byte_omega
  have f1 : ((b0 &&& 32) >>> 5).toNat = bits [b0, b1, b2, b3, b4, b5, b6] 3 3 := by byte_omega
  unfold readBDS07 readTransmissionRateSubfield readAltitudeTypeSubfield
  go_run [expectZeros6]
  by_cases h0 : b0 &&& 28 = 0
  swap; · rw [if_pos h0]; exact Or.inl ⟨by trivial, fun ha => h0 (e0.2 ha.2.1)⟩
  rw [if_neg (fun h => h h0)]
  by_cases h : (b1 = 0 ∧ b2 = 0 ∧ b3 = 0 ∧ b4 = 0 ∧ b5 = 0 ∧ b6 = 0)
  · simp only [if_pos h, go_bind_ok]; exact Or.inr ⟨⟨trivial, e0.1 h0, e1.1 h⟩, _, rfl, f0, f1⟩
  · simp only [if_neg h, go_bind_err]; exact Or.inl ⟨by trivial, fun ha => h (e1.2 ha.2.2)⟩

/-- C53. What a status register is readable for: bits 4-6 and 9-56 zero. Bits 7 and 8, also reserved, are not looked at, see
`bds07_reserved_refuted`. The reader never panics. -/
theorem bds07_accepts (d : List UInt8) :
    (Succeeds (readBDS07 d) ↔ d.length = 7 ∧ bits d 4 6 = 0 ∧ bits d 9 56 = 0) ∧ NoPanic (readBDS07 d) := by
  rcases bds07_eval d with ⟨h, hn⟩ | ⟨ha, m, hm, -⟩
  · exact ⟨⟨fun ⟨m, hm⟩ => (by rw [h] at hm; cases hm), fun h => absurd h hn⟩, by rw [h]; simp [NoPanic]⟩
  · exact ⟨⟨fun _ => ha, fun _ => ⟨_, hm⟩⟩, by rw [hm]; simp [NoPanic]⟩

/-- C53, acceptance, for the messages whose bits 7 and 8 are zero. Missing: the other messages, for which it is false
(`bds07_reserved_refuted`). -/
theorem bds07_reserved_partial (d : List UInt8) (h78 : bits d 7 8 = 0) :
    Succeeds (readBDS07 d) ↔ d.length = 7 ∧ bits d 4 56 = 0 := by
  rw [(bds07_accepts d).1]
  refine and_congr_right fun h7 => ?_
  obtain ⟨b0, b1, b2, b3, b4, b5, b6, rfl⟩ := list7 d h7
  revert h78
  byte_omega

/-- C53, the part that is false: a message with a reserved bit set is readable. -/
theorem bds07_reserved_refuted : ∃ d, d.length = 7 ∧ Succeeds (readBDS07 d) ∧ bits d 4 56 ≠ 0 :=
  ⟨[0x43, 0, 0, 0, 0, 0, 0], rfl, ((bds07_accepts _).1).2 (by decide), by decide⟩

/-- C53. The content of a status register, and its coherency: exactly when the transmission rate is not the reserved one. -/
theorem bds07_content (d : List UInt8) (m : Status07) (h : readBDS07 d = .ok m) :
    m.transmissionRateSubfield.toNat = bits d 1 2 ∧ m.altitudeTypeSubfield.toNat = bits d 3 3 ∧
    (m.coherent = true ↔ bits d 1 2 ≠ 3) := by
  rcases bds07_eval d with ⟨e, -⟩ | ⟨-, m', hm, h1, h2⟩
  · rw [e] at h; cases h
  rw [hm] at h; cases h
  refine ⟨h1, h2, ?_⟩
  have hl : bits d 1 2 < 4 := by unfold bits; exact Nat.mod_lt _ (by decide)
  simp only [Status07.coherent, Bool.not_eq_true', decide_eq_false_iff_not, u8_ge, UInt8.reduceToNat]
  omega

example : Succeeds (readBDS07 [0x40, 0, 0, 0, 0, 0, 0]) := ((bds07_accepts _).1).2 (by decide)

/-- The layout of BDS 1,0. The surveillance identifier code is documented at bit 35; the code reads bit 18 and doubles it. -/
structure DataLinkCapabilityReport.Layout (d : List UInt8) (m : DataLinkCapabilityReport) : Prop where
  continuationFlag : m.continuationFlag.toNat = bits d 9 9
  overlayCommandCapability : m.overlayCommandCapability.toNat = bits d 15 15
  acasStatus : m.acasStatus.toNat = bits d 16 16
  modeSSubnetworkVersion : m.modeSSubnetworkVersion.toNat = bits d 17 23
  transponderEnhancedProtocolIndicator : m.transponderEnhancedProtocolIndicator.toNat = bits d 24 24
  modeSSpecificServicesCapability : m.modeSSpecificServicesCapability.toNat = bits d 25 25
  uplinkELMThroughputCapability : m.uplinkELMThroughputCapability.toNat = bits d 26 28
  downlinkELMThroughputCapability : m.downlinkELMThroughputCapability.toNat = bits d 29 32
  aircraftIdentificationCapability : m.aircraftIdentificationCapability.toNat = bits d 33 33
  squitterCapabilitySubfield : m.squitterCapabilitySubfield.toNat = bits d 34 34
  surveillanceIdentifierCode : m.surveillanceIdentifierCode.toNat = 2 * bits d 18 18
  commonUsageGICBCapability : m.commonUsageGICBCapability.toNat = bits d 36 36
  acasHybridSurveillanceCapability : m.acasHybridSurveillanceCapability.toNat = bits d 37 37
  acasGenerationCapability : m.acasGenerationCapability.toNat = bits d 38 38
  acasApplicableDocument : m.acasApplicableDocument.toNat = bits d 39 40
  dteSubAddressStatuses : m.dteSubAddressStatuses.toNat = bits d 41 56

theorem ContinuationFlag10_bits (b0 b1 b2 b3 b4 b5 b6 : UInt8) : ((b1 &&& 128) >>> 7).toNat = bits [b0, b1, b2, b3, b4, b5, b6] 9 9 := by byte_omega
theorem OverlayCommandCapability10_bits (b0 b1 b2 b3 b4 b5 b6 : UInt8) : ((b1 &&& 2) >>> 1).toNat = bits [b0, b1, b2, b3, b4, b5, b6] 15 15 := by byte_omega
theorem ACASStatus10_bits (b0 b1 b2 b3 b4 b5 b6 : UInt8) : (b1 &&& 1).toNat = bits [b0, b1, b2, b3, b4, b5, b6] 16 16 := by byte_omega
theorem ModeSSubnetworkVersion10_bits (b0 b1 b2 b3 b4 b5 b6 : UInt8) : ((b2 &&& 254) >>> 1).toNat = bits [b0, b1, b2, b3, b4, b5, b6] 17 23 := by byte_omega
theorem TransponderEnhancedProtocolIndicator10_bits (b0 b1 b2 b3 b4 b5 b6 : UInt8) : (b2 &&& 1).toNat = bits [b0, b1, b2, b3, b4, b5, b6] 24 24 := by byte_omega
theorem ModeSSpecificServicesCapability10_bits (b0 b1 b2 b3 b4 b5 b6 : UInt8) : ((b3 &&& 128) >>> 7).toNat = bits [b0, b1, b2, b3, b4, b5, b6] 25 25 := by byte_omega
theorem UplinkELMThroughputCapability10_bits (b0 b1 b2 b3 b4 b5 b6 : UInt8) : ((b3 &&& 112) >>> 4).toNat = bits [b0, b1, b2, b3, b4, b5, b6] 26 28 := by byte_omega
theorem DownlinkELMThroughputCapability10_bits (b0 b1 b2 b3 b4 b5 b6 : UInt8) : (b3 &&& 15).toNat = bits [b0, b1, b2, b3, b4, b5, b6] 29 32 := by byte_omega
theorem AircraftIdentificationCapability10_bits (b0 b1 b2 b3 b4 b5 b6 : UInt8) : ((b4 &&& 128) >>> 7).toNat = bits [b0, b1, b2, b3, b4, b5, b6] 33 33 := by byte_omega
theorem SquitterCapabilitySubfield10_bits (b0 b1 b2 b3 b4 b5 b6 : UInt8) : ((b4 &&& 64) >>> 6).toNat = bits [b0, b1, b2, b3, b4, b5, b6] 34 34 := by byte_omega
theorem SurveillanceIdentifierCode10_bits (b0 b1 b2 b3 b4 b5 b6 : UInt8) : ((b2 &&& 64) >>> 5).toNat = 2 * bits [b0, b1, b2, b3, b4, b5, b6] 18 18 := by byte_omega
theorem CommonUsageGICBCapability10_bits (b0 b1 b2 b3 b4 b5 b6 : UInt8) : ((b4 &&& 16) >>> 4).toNat = bits [b0, b1, b2, b3, b4, b5, b6] 36 36 := by byte_omega
theorem ACASHybridSurveillanceCapability10_bits (b0 b1 b2 b3 b4 b5 b6 : UInt8) : ((b4 &&& 8) >>> 3).toNat = bits [b0, b1, b2, b3, b4, b5, b6] 37 37 := by byte_omega
theorem ACASGenerationCapability10_bits (b0 b1 b2 b3 b4 b5 b6 : UInt8) : ((b4 &&& 4) >>> 2).toNat = bits [b0, b1, b2, b3, b4, b5, b6] 38 38 := by byte_omega
theorem ACASApplicableDocument10_bits (b0 b1 b2 b3 b4 b5 b6 : UInt8) : (b4 &&& 3).toNat = bits [b0, b1, b2, b3, b4, b5, b6] 39 40 := by byte_omega
theorem DTE10_bits (b0 b1 b2 b3 b4 b5 b6 : UInt8) : (pack2 b5 b6).toNat = bits [b0, b1, b2, b3, b4, b5, b6] 41 56 := by byte_omega

/-- Which data link capability reports are acceptable: the register number 1,0 in bits 1-8 and the reserved bits 10-14 zero. -/
def Accepted10 (d : List UInt8) : Prop := d.length = 7 ∧ bits d 1 8 = 0x10 ∧ bits d 10 14 = 0

instance (d : List UInt8) : Decidable (Accepted10 d) := by unfold Accepted10; infer_instance

theorem bds10_eval (d : List UInt8) :
    (readBDS10 d = .error .err ∧ ¬ Accepted10 d) ∨
    (Accepted10 d ∧ ∃ m, readBDS10 d = .ok m ∧ DataLinkCapabilityReport.Layout d m) := by
  by_cases h7 : d.length = 7
  swap; · exact Or.inl ⟨readBDS10_short d h7, fun h => h7 h.1⟩
  obtain ⟨b0, b1, b2, b3, b4, b5, b6, rfl⟩ := list7 d h7
  have e0 : b0 = 16 ↔ bits [b0, b1, b2, b3, b4, b5, b6] 1 8 = 16 := by word_nat; byte_omega
  have e1 : b1 &&& 124 = 0 ↔ bits [b0, b1, b2, b3, b4, b5, b6] 10 14 = 0 := by word_nat; byte_omega
  unfold Accepted10
  unfold readBDS10 readContinuationFlag10 readOverlayCommandCapability10 readACASStatus10 readModeSSubnetworkVersion10 readTransponderEnhancedProtocolIndicator10 readModeSSpecificServicesCapability10 readUplinkELMThroughputCapability10 readDownlinkELMThroughputCapability10 readAircraftIdentificationCapability10 readSquitterCapabilitySubfield10 readSurveillanceIdentifierCode10 readCommonUsageGICBCapability10 readACASHybridSurveillanceCapability10 readACASGenerationCapability10 readACASApplicableDocument10 readDTESubAddressStatuses10
  go_run []
  by_cases h0 : b0 = 16
  swap; · rw [if_pos h0]; exact Or.inl ⟨by trivial, fun ha => h0 (e0.2 ha.2.1)⟩
  rw [if_neg (fun h => h h0)]
  by_cases h1 : b1 &&& 124 = 0
  swap; · simp only [if_pos h1]; exact Or.inl ⟨by trivial, fun ha => h1 (e1.2 ha.2.2)⟩
  rw [if_neg (fun h => h h1)]
  refine Or.inr ⟨⟨trivial, e0.1 h0, e1.1 h1⟩, _, rfl, ?_⟩
  exact ⟨ContinuationFlag10_bits b0 b1 b2 b3 b4 b5 b6, OverlayCommandCapability10_bits b0 b1 b2 b3 b4 b5 b6, ACASStatus10_bits b0 b1 b2 b3 b4 b5 b6, ModeSSubnetworkVersion10_bits b0 b1 b2 b3 b4 b5 b6, TransponderEnhancedProtocolIndicator10_bits b0 b1 b2 b3 b4 b5 b6, ModeSSpecificServicesCapability10_bits b0 b1 b2 b3 b4 b5 b6, UplinkELMThroughputCapability10_bits b0 b1 b2 b3 b4 b5 b6, DownlinkELMThroughputCapability10_bits b0 b1 b2 b3 b4 b5 b6, AircraftIdentificationCapability10_bits b0 b1 b2 b3 b4 b5 b6, SquitterCapabilitySubfield10_bits b0 b1 b2 b3 b4 b5 b6, SurveillanceIdentifierCode10_bits b0 b1 b2 b3 b4 b5 b6, CommonUsageGICBCapability10_bits b0 b1 b2 b3 b4 b5 b6, ACASHybridSurveillanceCapability10_bits b0 b1 b2 b3 b4 b5 b6, ACASGenerationCapability10_bits b0 b1 b2 b3 b4 b5 b6, ACASApplicableDocument10_bits b0 b1 b2 b3 b4 b5 b6, DTE10_bits b0 b1 b2 b3 b4 b5 b6⟩

/-- C51. A data link capability report is readable exactly when its register number and reserved bits are right; no panic. -/
theorem bds10_accepts (d : List UInt8) : (Succeeds (readBDS10 d) ↔ Accepted10 d) ∧ NoPanic (readBDS10 d) := by
  rcases bds10_eval d with ⟨h, hn⟩ | ⟨ha, m, hm, -⟩
  · exact ⟨⟨fun ⟨m, hm⟩ => (by rw [h] at hm; cases hm), fun h => absurd h hn⟩, by rw [h]; simp [NoPanic]⟩
  · exact ⟨⟨fun _ => ha, fun _ => ⟨_, hm⟩⟩, by rw [hm]; simp [NoPanic]⟩

/-- C51, content: every field is the number in its position. Missing: the surveillance identifier code, which the code takes
from another place (`bds10_surveillance_refuted`); `Layout` says from where. -/
theorem bds10_content_partial (d : List UInt8) (m : DataLinkCapabilityReport) (h : readBDS10 d = .ok m) :
    DataLinkCapabilityReport.Layout d m := by
  rcases bds10_eval d with ⟨e, -⟩ | ⟨-, m', hm, hl⟩
  · rw [e] at h; cases h
  rw [hm] at h; cases h; exact hl

/-- C51, the part that is false: a message with the surveillance identifier bit (35) set, reported as 0; and one with the bit
clear, reported as the out-of-range value 2. -/
theorem bds10_surveillance_refuted :
    (∃ d m, readBDS10 d = .ok m ∧ bits d 35 35 = 1 ∧ m.surveillanceIdentifierCode = 0) ∧
    (∃ d m, readBDS10 d = .ok m ∧ bits d 35 35 = 0 ∧ m.surveillanceIdentifierCode = 2) :=
  ⟨⟨[0x10, 0, 0, 0, 0x20, 0, 0], _, rfl, by decide, by decide⟩, ⟨[0x10, 0, 0x40, 0, 0, 0, 0], _, rfl, by decide, by decide⟩⟩

/-- C51. The coherency check in terms of the bits: with ACAS failed (bit 16 zero) no ACAS capability is announced (bits 37-40
zero), otherwise the applicable document is a known one; subnetwork version and throughputs are not reserved values. -/
theorem bds10_coherent (d : List UInt8) (m : DataLinkCapabilityReport) (h : readBDS10 d = .ok m) :
    m.coherent = true ↔ (bits d 16 16 = 0 → bits d 37 37 = 0 ∧ bits d 38 38 = 0 ∧ bits d 39 40 = 0) ∧
      (bits d 16 16 ≠ 0 → bits d 39 40 ≤ 2) ∧ bits d 17 23 ≤ 5 ∧ bits d 26 28 ≤ 6 ∧ bits d 29 32 ≤ 6 := by
  have hl := bds10_content_partial d m h
  have h1 := hl.acasStatus
  have h2 := hl.acasHybridSurveillanceCapability
  have h3 := hl.acasGenerationCapability
  have h4 := hl.acasApplicableDocument
  have h5 := hl.modeSSubnetworkVersion
  have h6 := hl.uplinkELMThroughputCapability
  have h7 := hl.downlinkELMThroughputCapability
  unfold DataLinkCapabilityReport.coherent
  simp only [u8_eq, u8_gt, ne_eq, h1, h2, h3, h4, h5, h6, h7, UInt8.reduceToNat, UInt8.toNat_zero]
  generalize bits d 16 16 = x1
  generalize bits d 37 37 = x2
  generalize bits d 38 38 = x3
  generalize bits d 39 40 = x4
  repeat' split
  all_goals first | (simp only [Bool.false_eq_true, false_iff]; omega) | (simp only [true_iff]; omega)

/-- The data link capability report 10 00 01 0A 3F FF 00 (a live capture shape): readable. -/
example : Accepted10 [0x10, 0x03, 0x0A, 0x80, 0xF5, 0x00, 0x00] := by decide

/-- The layout of BDS 1,7: each flag is its bit. -/
structure GICBCapabilityReport.Layout (d : List UInt8) (m : GICBCapabilityReport) : Prop where
  extendedSquitterAirbornePosition : m.extendedSquitterAirbornePosition = bit d 1
  extendedSquitterSurfacePosition : m.extendedSquitterSurfacePosition = bit d 2
  extendedSquitterStatus : m.extendedSquitterStatus = bit d 3
  extendedSquitterIdentificationAndCategory : m.extendedSquitterIdentificationAndCategory = bit d 4
  extendedSquitterAirborneVelocityInformation : m.extendedSquitterAirborneVelocityInformation = bit d 5
  extendedSquitterEventDrivenInformation : m.extendedSquitterEventDrivenInformation = bit d 6
  aircraftIdentification : m.aircraftIdentification = bit d 7
  aircraftRegistrationNumber : m.aircraftRegistrationNumber = bit d 8
  selectedVerticalIntention : m.selectedVerticalIntention = bit d 9
  nextWaypointIdentifier : m.nextWaypointIdentifier = bit d 10
  nextWaypointPosition : m.nextWaypointPosition = bit d 11
  nextWaypointInformation : m.nextWaypointInformation = bit d 12
  meteorologicalRoutineReport : m.meteorologicalRoutineReport = bit d 13
  meteorologicalHazardReport : m.meteorologicalHazardReport = bit d 14
  vhfChannelReport : m.vhfChannelReport = bit d 15
  trackAndTurnReport : m.trackAndTurnReport = bit d 16
  positionCoarse : m.positionCoarse = bit d 17
  positionFine : m.positionFine = bit d 18
  airReferencedStateVector : m.airReferencedStateVector = bit d 19
  waypoint1 : m.waypoint1 = bit d 20
  waypoint2 : m.waypoint2 = bit d 21
  waypoint3 : m.waypoint3 = bit d 22
  quasiStaticParameterMonitoring : m.quasiStaticParameterMonitoring = bit d 23
  headingAndSpeedReport : m.headingAndSpeedReport = bit d 24
  militaryApplications : m.militaryApplications = bit d 29

theorem gicb1_bits (b0 b1 b2 b3 b4 b5 b6 : UInt8) : ((b0 &&& 128) >>> 7 != 0) = bit [b0, b1, b2, b3, b4, b5, b6] 1 := by byte_flag
theorem gicb2_bits (b0 b1 b2 b3 b4 b5 b6 : UInt8) : ((b0 &&& 64) >>> 6 != 0) = bit [b0, b1, b2, b3, b4, b5, b6] 2 := by byte_flag
theorem gicb3_bits (b0 b1 b2 b3 b4 b5 b6 : UInt8) : ((b0 &&& 32) >>> 5 != 0) = bit [b0, b1, b2, b3, b4, b5, b6] 3 := by byte_flag
theorem gicb4_bits (b0 b1 b2 b3 b4 b5 b6 : UInt8) : ((b0 &&& 16) >>> 4 != 0) = bit [b0, b1, b2, b3, b4, b5, b6] 4 := by byte_flag
theorem gicb5_bits (b0 b1 b2 b3 b4 b5 b6 : UInt8) : ((b0 &&& 8) >>> 3 != 0) = bit [b0, b1, b2, b3, b4, b5, b6] 5 := by byte_flag
theorem gicb6_bits (b0 b1 b2 b3 b4 b5 b6 : UInt8) : ((b0 &&& 4) >>> 2 != 0) = bit [b0, b1, b2, b3, b4, b5, b6] 6 := by byte_flag
theorem gicb7_bits (b0 b1 b2 b3 b4 b5 b6 : UInt8) : ((b0 &&& 2) >>> 1 != 0) = bit [b0, b1, b2, b3, b4, b5, b6] 7 := by byte_flag
theorem gicb8_bits (b0 b1 b2 b3 b4 b5 b6 : UInt8) : ((b0 &&& 1) >>> 0 != 0) = bit [b0, b1, b2, b3, b4, b5, b6] 8 := by byte_flag
theorem gicb9_bits (b0 b1 b2 b3 b4 b5 b6 : UInt8) : ((b1 &&& 128) >>> 7 != 0) = bit [b0, b1, b2, b3, b4, b5, b6] 9 := by byte_flag
theorem gicb10_bits (b0 b1 b2 b3 b4 b5 b6 : UInt8) : ((b1 &&& 64) >>> 6 != 0) = bit [b0, b1, b2, b3, b4, b5, b6] 10 := by byte_flag
theorem gicb11_bits (b0 b1 b2 b3 b4 b5 b6 : UInt8) : ((b1 &&& 32) >>> 5 != 0) = bit [b0, b1, b2, b3, b4, b5, b6] 11 := by byte_flag
theorem gicb12_bits (b0 b1 b2 b3 b4 b5 b6 : UInt8) : ((b1 &&& 16) >>> 4 != 0) = bit [b0, b1, b2, b3, b4, b5, b6] 12 := by byte_flag
theorem gicb13_bits (b0 b1 b2 b3 b4 b5 b6 : UInt8) : ((b1 &&& 8) >>> 3 != 0) = bit [b0, b1, b2, b3, b4, b5, b6] 13 := by byte_flag
theorem gicb14_bits (b0 b1 b2 b3 b4 b5 b6 : UInt8) : ((b1 &&& 4) >>> 2 != 0) = bit [b0, b1, b2, b3, b4, b5, b6] 14 := by byte_flag
theorem gicb15_bits (b0 b1 b2 b3 b4 b5 b6 : UInt8) : ((b1 &&& 2) >>> 1 != 0) = bit [b0, b1, b2, b3, b4, b5, b6] 15 := by byte_flag
theorem gicb16_bits (b0 b1 b2 b3 b4 b5 b6 : UInt8) : ((b1 &&& 1) >>> 0 != 0) = bit [b0, b1, b2, b3, b4, b5, b6] 16 := by byte_flag
theorem gicb17_bits (b0 b1 b2 b3 b4 b5 b6 : UInt8) : ((b2 &&& 128) >>> 7 != 0) = bit [b0, b1, b2, b3, b4, b5, b6] 17 := by byte_flag
theorem gicb18_bits (b0 b1 b2 b3 b4 b5 b6 : UInt8) : ((b2 &&& 64) >>> 6 != 0) = bit [b0, b1, b2, b3, b4, b5, b6] 18 := by byte_flag
theorem gicb19_bits (b0 b1 b2 b3 b4 b5 b6 : UInt8) : ((b2 &&& 32) >>> 5 != 0) = bit [b0, b1, b2, b3, b4, b5, b6] 19 := by byte_flag
theorem gicb20_bits (b0 b1 b2 b3 b4 b5 b6 : UInt8) : ((b2 &&& 16) >>> 4 != 0) = bit [b0, b1, b2, b3, b4, b5, b6] 20 := by byte_flag
theorem gicb21_bits (b0 b1 b2 b3 b4 b5 b6 : UInt8) : ((b2 &&& 8) >>> 3 != 0) = bit [b0, b1, b2, b3, b4, b5, b6] 21 := by byte_flag
theorem gicb22_bits (b0 b1 b2 b3 b4 b5 b6 : UInt8) : ((b2 &&& 4) >>> 2 != 0) = bit [b0, b1, b2, b3, b4, b5, b6] 22 := by byte_flag
theorem gicb23_bits (b0 b1 b2 b3 b4 b5 b6 : UInt8) : ((b2 &&& 2) >>> 1 != 0) = bit [b0, b1, b2, b3, b4, b5, b6] 23 := by byte_flag
theorem gicb24_bits (b0 b1 b2 b3 b4 b5 b6 : UInt8) : ((b2 &&& 1) >>> 0 != 0) = bit [b0, b1, b2, b3, b4, b5, b6] 24 := by byte_flag
theorem gicb29_bits (b0 b1 b2 b3 b4 b5 b6 : UInt8) : ((b3 &&& 8) >>> 3 != 0) = bit [b0, b1, b2, b3, b4, b5, b6] 29 := by byte_flag

/-- Which GICB capability reports are acceptable: the reserved bits 30-56 zero. -/
def Accepted17 (d : List UInt8) : Prop := d.length = 7 ∧ bits d 30 56 = 0

instance (d : List UInt8) : Decidable (Accepted17 d) := by unfold Accepted17; infer_instance

theorem bds17_eval (d : List UInt8) :
    (readBDS17 d = .error .err ∧ ¬ Accepted17 d) ∨
    (Accepted17 d ∧ ∃ m, readBDS17 d = .ok m ∧ GICBCapabilityReport.Layout d m) := by
  by_cases h7 : d.length = 7
  swap; · exact Or.inl ⟨readBDS17_short d h7, fun h => h7 h.1⟩
  obtain ⟨b0, b1, b2, b3, b4, b5, b6, rfl⟩ := list7 d h7
  have e0 : (b3 &&& 7 = 0 ∧ (b4 = 0 ∧ b5 = 0 ∧ b6 = 0)) ↔ bits [b0, b1, b2, b3, b4, b5, b6] 30 56 = 0 := by word_nat; byte_omega
  unfold Accepted17
  unfold readBDS17
  go_run [expectZeros3]
  by_cases h0 : b3 &&& 7 = 0
  swap; · rw [if_pos h0]; exact Or.inl ⟨by trivial, fun ha => h0 (e0.2 ha.2).1⟩
  rw [if_neg (fun h => h h0)]
  by_cases h1 : b4 = 0 ∧ b5 = 0 ∧ b6 = 0
  swap; · simp only [if_neg h1, go_bind_err]; exact Or.inl ⟨by trivial, fun ha => h1 (e0.2 ha.2).2⟩
  simp only [if_pos h1, go_bind_ok]
  refine Or.inr ⟨⟨trivial, e0.1 ⟨h0, h1⟩⟩, _, rfl, ?_⟩
  exact ⟨gicb1_bits b0 b1 b2 b3 b4 b5 b6, gicb2_bits b0 b1 b2 b3 b4 b5 b6, gicb3_bits b0 b1 b2 b3 b4 b5 b6, gicb4_bits b0 b1 b2 b3 b4 b5 b6, gicb5_bits b0 b1 b2 b3 b4 b5 b6, gicb6_bits b0 b1 b2 b3 b4 b5 b6, gicb7_bits b0 b1 b2 b3 b4 b5 b6, gicb8_bits b0 b1 b2 b3 b4 b5 b6, gicb9_bits b0 b1 b2 b3 b4 b5 b6, gicb10_bits b0 b1 b2 b3 b4 b5 b6, gicb11_bits b0 b1 b2 b3 b4 b5 b6, gicb12_bits b0 b1 b2 b3 b4 b5 b6, gicb13_bits b0 b1 b2 b3 b4 b5 b6, gicb14_bits b0 b1 b2 b3 b4 b5 b6, gicb15_bits b0 b1 b2 b3 b4 b5 b6, gicb16_bits b0 b1 b2 b3 b4 b5 b6, gicb17_bits b0 b1 b2 b3 b4 b5 b6, gicb18_bits b0 b1 b2 b3 b4 b5 b6, gicb19_bits b0 b1 b2 b3 b4 b5 b6, gicb20_bits b0 b1 b2 b3 b4 b5 b6, gicb21_bits b0 b1 b2 b3 b4 b5 b6, gicb22_bits b0 b1 b2 b3 b4 b5 b6, gicb23_bits b0 b1 b2 b3 b4 b5 b6, gicb24_bits b0 b1 b2 b3 b4 b5 b6, gicb29_bits b0 b1 b2 b3 b4 b5 b6⟩

/-- C52. A common usage GICB capability report is readable exactly when its reserved bits are zero; no panic. -/
theorem bds17_accepts (d : List UInt8) : (Succeeds (readBDS17 d) ↔ Accepted17 d) ∧ NoPanic (readBDS17 d) := by
  rcases bds17_eval d with ⟨h, hn⟩ | ⟨ha, m, hm, -⟩
  · exact ⟨⟨fun ⟨m, hm⟩ => (by rw [h] at hm; cases hm), fun h => absurd h hn⟩, by rw [h]; simp [NoPanic]⟩
  · exact ⟨⟨fun _ => ha, fun _ => ⟨_, hm⟩⟩, by rw [hm]; simp [NoPanic]⟩

/-- C52. Each capability flag is its bit. -/
theorem bds17_content (d : List UInt8) (m : GICBCapabilityReport) (h : readBDS17 d = .ok m) : GICBCapabilityReport.Layout d m := by
  rcases bds17_eval d with ⟨e, -⟩ | ⟨-, m', hm, hl⟩
  · rw [e] at h; cases h
  rw [hm] at h; cases h; exact hl

set_option maxRecDepth 20000 in
theorem byte_flags (b : UInt8) : b = (if (b &&& 128) >>> 7 != 0 then 128 else 0) + (if (b &&& 64) >>> 6 != 0 then 64 else 0) + (if (b &&& 32) >>> 5 != 0 then 32 else 0) + (if (b &&& 16) >>> 4 != 0 then 16 else 0) + (if (b &&& 8) >>> 3 != 0 then 8 else 0) + (if (b &&& 4) >>> 2 != 0 then 4 else 0) + (if (b &&& 2) >>> 1 != 0 then 2 else 0) + (if (b &&& 1) >>> 0 != 0 then 1 else 0) :=
  forall_uint8 (P := fun b => b = (if (b &&& 128) >>> 7 != 0 then 128 else 0) + (if (b &&& 64) >>> 6 != 0 then 64 else 0) + (if (b &&& 32) >>> 5 != 0 then 32 else 0) + (if (b &&& 16) >>> 4 != 0 then 16 else 0) + (if (b &&& 8) >>> 3 != 0 then 8 else 0) + (if (b &&& 4) >>> 2 != 0 then 4 else 0) + (if (b &&& 2) >>> 1 != 0 then 2 else 0) + (if (b &&& 1) >>> 0 != 0 then 1 else 0)) (by decide +kernel) b

theorem byte_of_flags (b c : UInt8)
    (h7 : ((b &&& 128) >>> 7 != 0) = ((c &&& 128) >>> 7 != 0)) (h6 : ((b &&& 64) >>> 6 != 0) = ((c &&& 64) >>> 6 != 0))
    (h5 : ((b &&& 32) >>> 5 != 0) = ((c &&& 32) >>> 5 != 0)) (h4 : ((b &&& 16) >>> 4 != 0) = ((c &&& 16) >>> 4 != 0))
    (h3 : ((b &&& 8) >>> 3 != 0) = ((c &&& 8) >>> 3 != 0)) (h2 : ((b &&& 4) >>> 2 != 0) = ((c &&& 4) >>> 2 != 0))
    (h1 : ((b &&& 2) >>> 1 != 0) = ((c &&& 2) >>> 1 != 0)) (h0 : ((b &&& 1) >>> 0 != 0) = ((c &&& 1) >>> 0 != 0)) : b = c := by
  rw [byte_flags b, byte_flags c, h0, h1, h2, h3, h4, h5, h6, h7]

/-- C52, injectivity, for messages that agree on bits 25-28. Missing: messages that differ only there, for which it is false
(`bds17_injective_refuted`). -/
theorem bds17_injective_partial (d d' : List UInt8) (m : GICBCapabilityReport) (h : readBDS17 d = .ok m)
    (h' : readBDS17 d' = .ok m) (he : bits d 25 28 = bits d' 25 28) : d = d' := by
  have hl := bds17_content d m h
  have hl' := bds17_content d' m h'
  obtain ⟨ha7, ha⟩ := ((bds17_accepts d).1).1 ⟨_, h⟩
  obtain ⟨ha7', ha'⟩ := ((bds17_accepts d').1).1 ⟨_, h'⟩

  have g1 := hl.extendedSquitterAirbornePosition.symm.trans hl'.extendedSquitterAirbornePosition
  have g2 := hl.extendedSquitterSurfacePosition.symm.trans hl'.extendedSquitterSurfacePosition
  have g3 := hl.extendedSquitterStatus.symm.trans hl'.extendedSquitterStatus
  have g4 := hl.extendedSquitterIdentificationAndCategory.symm.trans hl'.extendedSquitterIdentificationAndCategory
  have g5 := hl.extendedSquitterAirborneVelocityInformation.symm.trans hl'.extendedSquitterAirborneVelocityInformation
  have g6 := hl.extendedSquitterEventDrivenInformation.symm.trans hl'.extendedSquitterEventDrivenInformation
  have g7 := hl.aircraftIdentification.symm.trans hl'.aircraftIdentification
  have g8 := hl.aircraftRegistrationNumber.symm.trans hl'.aircraftRegistrationNumber
  have g9 := hl.selectedVerticalIntention.symm.trans hl'.selectedVerticalIntention
  have g10 := hl.nextWaypointIdentifier.symm.trans hl'.nextWaypointIdentifier
  have g11 := hl.nextWaypointPosition.symm.trans hl'.nextWaypointPosition
  have g12 := hl.nextWaypointInformation.symm.trans hl'.nextWaypointInformation
  have g13 := hl.meteorologicalRoutineReport.symm.trans hl'.meteorologicalRoutineReport
  have g14 := hl.meteorologicalHazardReport.symm.trans hl'.meteorologicalHazardReport
  have g15 := hl.vhfChannelReport.symm.trans hl'.vhfChannelReport
  have g16 := hl.trackAndTurnReport.symm.trans hl'.trackAndTurnReport
  have g17 := hl.positionCoarse.symm.trans hl'.positionCoarse
  have g18 := hl.positionFine.symm.trans hl'.positionFine
  have g19 := hl.airReferencedStateVector.symm.trans hl'.airReferencedStateVector
  have g20 := hl.waypoint1.symm.trans hl'.waypoint1
  have g21 := hl.waypoint2.symm.trans hl'.waypoint2
  have g22 := hl.waypoint3.symm.trans hl'.waypoint3
  have g23 := hl.quasiStaticParameterMonitoring.symm.trans hl'.quasiStaticParameterMonitoring
  have g24 := hl.headingAndSpeedReport.symm.trans hl'.headingAndSpeedReport
  have g29 := hl.militaryApplications.symm.trans hl'.militaryApplications
  obtain ⟨b0, b1, b2, b3, b4, b5, b6, rfl⟩ := list7 d ha7
  obtain ⟨c0, c1, c2, c3, c4, c5, c6, rfl⟩ := list7 d' ha7'
  clear hl hl' h h' ha7 ha7'
  rw [← gicb1_bits, ← gicb1_bits] at g1
  rw [← gicb2_bits, ← gicb2_bits] at g2
  rw [← gicb3_bits, ← gicb3_bits] at g3
  rw [← gicb4_bits, ← gicb4_bits] at g4
  rw [← gicb5_bits, ← gicb5_bits] at g5
  rw [← gicb6_bits, ← gicb6_bits] at g6
  rw [← gicb7_bits, ← gicb7_bits] at g7
  rw [← gicb8_bits, ← gicb8_bits] at g8
  rw [← gicb9_bits, ← gicb9_bits] at g9
  rw [← gicb10_bits, ← gicb10_bits] at g10
  rw [← gicb11_bits, ← gicb11_bits] at g11
  rw [← gicb12_bits, ← gicb12_bits] at g12
  rw [← gicb13_bits, ← gicb13_bits] at g13
  rw [← gicb14_bits, ← gicb14_bits] at g14
  rw [← gicb15_bits, ← gicb15_bits] at g15
  rw [← gicb16_bits, ← gicb16_bits] at g16
  rw [← gicb17_bits, ← gicb17_bits] at g17
  rw [← gicb18_bits, ← gicb18_bits] at g18
  rw [← gicb19_bits, ← gicb19_bits] at g19
  rw [← gicb20_bits, ← gicb20_bits] at g20
  rw [← gicb21_bits, ← gicb21_bits] at g21
  rw [← gicb22_bits, ← gicb22_bits] at g22
  rw [← gicb23_bits, ← gicb23_bits] at g23
  rw [← gicb24_bits, ← gicb24_bits] at g24
  rw [← gicb29_bits, ← gicb29_bits] at g29
  have k0 : b0 = c0 := byte_of_flags b0 c0 g1 g2 g3 g4 g5 g6 g7 g8
  have k1 : b1 = c1 := byte_of_flags b1 c1 g9 g10 g11 g12 g13 g14 g15 g16
  have k2 : b2 = c2 := byte_of_flags b2 c2 g17 g18 g19 g20 g21 g22 g23 g24
  clear g1 g2 g3 g4 g5 g6 g7 g8 g9 g10 g11 g12 g13 g14 g15 g16 g17 g18 g19 g20 g21 g22 g23 g24
  have k3 : b3 = c3 ∧ b4 = c4 ∧ b5 = c5 ∧ b6 = c6 := by
    have q1 : ((b3 &&& 240) >>> 4).toNat = bits [b0, b1, b2, b3, b4, b5, b6] 25 28 := by byte_omega
    have q2 : ((c3 &&& 240) >>> 4).toNat = bits [c0, c1, c2, c3, c4, c5, c6] 25 28 := by byte_omega
    have q3 : bits [b0, b1, b2, b3, b4, b5, b6] 30 56 = (b3 &&& 7).toNat * 16777216 + b4.toNat * 65536 + b5.toNat * 256 + b6.toNat := by byte_omega
    have q4 : bits [c0, c1, c2, c3, c4, c5, c6] 30 56 = (c3 &&& 7).toNat * 16777216 + c4.toNat * 65536 + c5.toNat * 256 + c6.toNat := by byte_omega
    rw [← q1, ← q2] at he
    rw [q3] at ha
    rw [q4] at ha'
    clear q1 q2 q3 q4
    rw [Bool.eq_iff_iff] at g29
    simp only [u8_bne, decide_eq_true_iff] at g29
    rw [u8_eq, u8_eq, u8_eq, u8_eq]
    revert ha ha' he g29
    byte_omega
  rw [k0, k1, k2, k3.1, k3.2.1, k3.2.2.1, k3.2.2.2]

/-- C52, the part that is false: two readable messages with the same report. -/
theorem bds17_injective_refuted : ∃ d d' m, readBDS17 d = .ok m ∧ readBDS17 d' = .ok m ∧ d ≠ d' :=
  ⟨[0xFA, 0x81, 0xC1, 0x00, 0, 0, 0], [0xFA, 0x81, 0xC1, 0x80, 0, 0, 0], _, rfl, rfl, by decide⟩

example : Accepted17 [0xFA, 0x81, 0xC1, 0x08, 0, 0, 0] := by decide

/-- BDS 3,0: readable exactly when the register number is 3,0 and bits 9-56 hold a readable resolution advisory, which is the
content; it never panics. -/
theorem bds30_accepts (d : List UInt8) :
    (∀ m, readBDS30 d = .ok m ↔ d.length = 7 ∧ bits d 1 8 = 0x30 ∧
      readResolutionAdvisory (d.drop 1) = .ok m.resolutionAdvisory) ∧ NoPanic (readBDS30 d) := by
  by_cases h7 : d.length = 7
  swap
  · rw [readBDS30_short d h7]
    exact ⟨fun m => ⟨fun h => (by cases h), fun h => absurd h.1 h7⟩, by simp [NoPanic]⟩
  obtain ⟨b0, b1, b2, b3, b4, b5, b6, rfl⟩ := list7 d h7
  have e0 : b0 = 48 ↔ bits [b0, b1, b2, b3, b4, b5, b6] 1 8 = 0x30 := by word_nat; byte_omega
  have hp := ra_noPanic [b1, b2, b3, b4, b5, b6]
  have hs : sliceFrom [b0, b1, b2, b3, b4, b5, b6] 1 = .ok [b1, b2, b3, b4, b5, b6] := rfl
  have hd : List.drop 1 [b0, b1, b2, b3, b4, b5, b6] = [b1, b2, b3, b4, b5, b6] := rfl
  unfold readBDS30
  go_run [hs, hd]
  by_cases h0 : b0 = 48
  swap
  · rw [if_pos h0]
    exact ⟨fun m => ⟨fun h => (by cases h), fun h => absurd (e0.2 h.2.1) h0⟩, by simp [NoPanic]⟩
  rw [if_neg (fun h => h h0)]
  generalize readResolutionAdvisory [b1, b2, b3, b4, b5, b6] = r at *
  match r, hp with
  | .ok a, _ =>
    refine ⟨fun m => ⟨fun h => ?_, fun h => ?_⟩, by simp [NoPanic, go_bind_ok]⟩
    · cases h; exact ⟨trivial, e0.1 h0, rfl⟩
    · cases h.2.2; rfl
  | .error .err, _ => exact ⟨fun m => ⟨fun h => (by cases h), fun h => (by cases h.2.2)⟩, by simp [NoPanic, go_bind_err]⟩
  | .error .panic, hp => exact absurd rfl hp

/-- A resolution advisory without threat: readable. -/
example : ∃ m, readBDS30 [0x30, 0x80, 0, 0, 0, 0, 0] = .ok m := ⟨_, rfl⟩

end Modes
