import Verif.Props.EndToEndStatus
import Verif.Props.EndToEndACAS
import Verif.Lemmas.Pack
/-!
# C94: operational status reports, from the aircraft to the decoded report
-/
namespace Spec

/-- An airborne status, version 2: the fields in order (a number is a constant or reserved field). -/
def fieldsAirborneV2 (acas esIn arv ts tc uat ra ident single sda nicA nacp gva sil baro hrd sils : Nat) : List (Nat × Nat) :=
  [(5, 31), (3, 0), (2, 0), (1, acas), (1, esIn), (2, 0), (1, arv), (1, ts), (2, tc), (1, uat), (5, 0), (2, 0), (1, ra), (1, ident), (1, 0), (1, single), (2, sda), (8, 0), (3, 2), (1, nicA), (4, nacp), (2, gva), (2, sil), (1, baro), (1, hrd), (1, sils), (1, 0)]

/-- A surface status, version 2: the fields in order (a number is a constant or reserved field). -/
def fieldsSurfaceV2 (esIn b2 uat nacv nicC size ra ident single sda lateral longitudinal nicA nacp sil tah hrd sils : Nat) : List (Nat × Nat) :=
  [(5, 31), (3, 1), (2, 0), (1, 0), (1, esIn), (2, 0), (1, b2), (1, uat), (3, nacv), (1, nicC), (4, size), (2, 0), (1, ra), (1, ident), (1, 0), (1, single), (2, sda), (3, lateral), (5, longitudinal), (3, 2), (1, nicA), (4, nacp), (2, 0), (2, sil), (1, tah), (1, hrd), (1, sils), (1, 0)]

/-- An airborne status, version 1: the fields in order (a number is a constant or reserved field). -/
def fieldsAirborneV1 (notAcas cdti arv ts tc ra ident atc nic nacp sil baro hrd : Nat) : List (Nat × Nat) :=
  [(5, 31), (3, 0), (2, 0), (1, notAcas), (1, cdti), (2, 0), (1, arv), (1, ts), (2, tc), (6, 0), (2, 0), (1, ra), (1, ident), (1, atc), (11, 0), (3, 1), (1, nic), (4, nacp), (2, 0), (2, sil), (1, baro), (1, hrd), (2, 0)]

/-- A surface status, version 1: the fields in order (a number is a constant or reserved field). -/
def fieldsSurfaceV1 (poa cdti b2 size ra ident atc nic nacp sil tah hrd : Nat) : List (Nat × Nat) :=
  [(5, 31), (3, 1), (2, 0), (1, poa), (1, cdti), (2, 0), (1, b2), (5, 0), (4, size), (2, 0), (1, ra), (1, ident), (1, atc), (11, 0), (3, 1), (1, nic), (4, nacp), (2, 0), (2, sil), (1, tah), (1, hrd), (2, 0)]

/-- A status of version 0: the fields in order (a number is a constant or reserved field). -/
def fieldsV0 (cc4 cc3 cc2 cc1 om4 om3 om2 om1 : Nat) : List (Nat × Nat) :=
  [(5, 31), (3, 0), (4, cc4), (4, cc3), (4, cc2), (4, cc1), (4, om4), (4, om3), (4, om2), (4, om1), (16, 0)]

end Spec
namespace Modes
open Spec

theorem operational_delivered (v : UInt8) (s t : Bool) (capability address : Nat) (hca : capability < 8) (haa : address < 2 ^ 24) (d f : List UInt8)
    (hacc : OpAccepted d) (hf : IsSquitter capability address d f) :
    ∃ m, readBDS65 d = .ok m ∧ ReceivesADSB v s t f address (.operationalStatus m m.getADSBLevel) := by
  obtain ⟨x, hx, hc⟩ := adsb_accepted_delivered v s t capability address hca haa d f ⟨hacc.1, by simp only [hacc, or_true]⟩ hf
  have b0 := hacc.2.1
  cases x <;> simp only [AdsbContent] at hc
  case operationalStatus y z =>
    obtain ⟨-, h2, h3⟩ := hc
    rw [h2] at hx
    exact ⟨y, h3, hx⟩
  all_goals (exfalso; first | (unfold AirborneTC at hc; omega) | (unfold SurfaceTC at hc; omega) | omega)

theorem packed_len (n : Nat) (l : List (Nat × Nat)) : (packed n l).length = n := toBytes_length _ _


/-- C94. An airborne status, version 2. Received as sent. The version announced with it is 2. -/
theorem operationalAirborneV2_end_to_end (v : UInt8) (s t : Bool) (capability address : Nat) (hca : capability < 8) (haa : address < 2 ^ 24)
    (acas esIn arv ts tc uat ra ident single sda nicA nacp gva sil baro hrd sils : Nat) (hfit : Fits (fieldsAirborneV2 acas esIn arv ts tc uat ra ident single sda nicA nacp gva sil baro hrd sils)) (f : List UInt8)
    (hf : IsSquitter capability address (packed 7 (fieldsAirborneV2 acas esIn arv ts tc uat ra ident single sda nicA nacp gva sil baro hrd sils)) f) :
    ∃ m : OpStatusAirborneV2, ReceivesADSB v s t f address (.operationalStatus (.airborneV2 m) 2) ∧
        m.airborneCapabilityClass.acasOperational.toNat = acas ∧
        m.airborneCapabilityClass.extendedSquitterIn.toNat = esIn ∧
        m.airborneCapabilityClass.airReferencedVelocityReportCapability.toNat = arv ∧
        m.airborneCapabilityClass.targetStateReportCapability.toNat = ts ∧
        m.airborneCapabilityClass.targetChangeReportCapability.toNat = tc ∧
        m.airborneCapabilityClass.uatCapability.toNat = uat ∧
        m.operationalMode.acasRAActive.toNat = ra ∧
        m.operationalMode.identSwitchActive.toNat = ident ∧
        m.operationalMode.singleAntennaFlag.toNat = single ∧
        m.operationalMode.systemDesignAssurance.toNat = sda ∧
        m.nicSupplementA.toNat = nicA ∧
        m.navigationalAccuracyCategoryPosition.toNat = nacp ∧
        m.geometricVerticalAccuracy.toNat = gva ∧
        m.sourceIntegrityLevel.toNat = sil ∧
        m.nicBaro.toNat = baro ∧
        m.horizontalReferenceDirection.toNat = hrd ∧
        m.sourceIntegrityLevelSupplement.toNat = sils := by
  have hfa := fieldsAt_packed 7 _ hfit (by simp [packWidth, fieldsAirborneV2]) (by simp [fieldsAirborneV2])
  generalize hd : packed 7 (fieldsAirborneV2 acas esIn arv ts tc uat ra ident single sda nicA nacp gva sil baro hrd sils) = d at hf hfa
  have h7 : d.length = 7 := by rw [← hd]; exact packed_len _ _
  simp only [fieldsAirborneV2, FieldsAt, Nat.reduceAdd, and_true] at hfa
  obtain ⟨b0, b1, b2, b3, b4, b5, b6, b7, b8, b9, b10, b11, b12, b13, b14, b15, b16, b17, b18, b19, b20, b21, b22, b23, b24, b25, b26⟩ := hfa
  have bv := b18
  have hacc : OpAccepted d := ⟨h7, b0, by rw [bv], Or.inl b1, by rw [bv]; exact ⟨b2, b11, b26⟩⟩
  obtain ⟨x, hr, hx⟩ := operational_delivered v s t capability address hca haa d f hacc hf
  rcases bds65_eval d with ⟨-, hn⟩ | ⟨-, ⟨c1, c2, m, hm, hl⟩ | ⟨c1, c2, m, hm, hl⟩ | ⟨c1, c2, m, hm, hl⟩ | ⟨c1, c2, m, hm, hl⟩ | ⟨c1, c2, m, hm, hl⟩⟩
  · exact absurd hacc hn
  · first | exact absurd (c1.symm.trans bv) (by decide) | exact absurd (c2.symm.trans b1) (by decide)
  · first | exact absurd (c1.symm.trans bv) (by decide) | exact absurd (c2.symm.trans b1) (by decide)
  · rw [hm] at hr; cases hr
    exact ⟨m, hx, by rw [hl.airborneCapabilityClass_acasOperational, b3], by rw [hl.airborneCapabilityClass_extendedSquitterIn, b4], by rw [hl.airborneCapabilityClass_airReferencedVelocityReportCapability, b6], by rw [hl.airborneCapabilityClass_targetStateReportCapability, b7], by rw [hl.airborneCapabilityClass_targetChangeReportCapability, b8], by rw [hl.airborneCapabilityClass_uatCapability, b9], by rw [hl.operationalMode_acasRAActive, b12], by rw [hl.operationalMode_identSwitchActive, b13], by rw [hl.operationalMode_singleAntennaFlag, b15], by rw [hl.operationalMode_systemDesignAssurance, b16], by rw [hl.nicSupplementA, b19], by rw [hl.navigationalAccuracyCategoryPosition, b20], by rw [hl.geometricVerticalAccuracy, b21], by rw [hl.sourceIntegrityLevel, b22], by rw [hl.nicBaro, b23], by rw [hl.horizontalReferenceDirection, b24], by rw [hl.sourceIntegrityLevelSupplement, b25]⟩
  · first | exact absurd (c1.symm.trans bv) (by decide) | exact absurd (c2.symm.trans b1) (by decide)
  · first | exact absurd (c1.symm.trans bv) (by decide) | exact absurd (c2.symm.trans b1) (by decide)

/-- C94. A surface status, version 2. Received as sent. The version announced with it is 1, not 2 (C40). -/
theorem operationalSurfaceV2_end_to_end_partial (v : UInt8) (s t : Bool) (capability address : Nat) (hca : capability < 8) (haa : address < 2 ^ 24)
    (esIn b2 uat nacv nicC size ra ident single sda lateral longitudinal nicA nacp sil tah hrd sils : Nat) (hfit : Fits (fieldsSurfaceV2 esIn b2 uat nacv nicC size ra ident single sda lateral longitudinal nicA nacp sil tah hrd sils)) (f : List UInt8)
    (hf : IsSquitter capability address (packed 7 (fieldsSurfaceV2 esIn b2 uat nacv nicC size ra ident single sda lateral longitudinal nicA nacp sil tah hrd sils)) f) :
    ∃ m : OpStatusSurfaceV2, ReceivesADSB v s t f address (.operationalStatus (.surfaceV2 m) 1) ∧
        m.surfaceCapabilityClass.extendedSquitterIn.toNat = esIn ∧
        m.surfaceCapabilityClass.b2Low.toNat = b2 ∧
        m.surfaceCapabilityClass.uatCapability.toNat = uat ∧
        m.surfaceCapabilityClass.navigationAccuracyCategoryVelocity.toNat = nacv ∧
        m.surfaceCapabilityClass.nicSupplementC.toNat = nicC ∧
        m.lengthAndWidth.toNat = size ∧
        m.operationalMode.acasRAActive.toNat = ra ∧
        m.operationalMode.identSwitchActive.toNat = ident ∧
        m.operationalMode.singleAntennaFlag.toNat = single ∧
        m.operationalMode.systemDesignAssurance.toNat = sda ∧
        m.operationalMode.gpsAntennaLateral.toNat = lateral ∧
        m.operationalMode.gpsAntennaLongitudinal.toNat = longitudinal ∧
        m.nicSupplementA.toNat = nicA ∧
        m.navigationalAccuracyCategoryPosition.toNat = nacp ∧
        m.sourceIntegrityLevel.toNat = sil ∧
        m.trackAngleHeading.toNat = tah ∧
        m.horizontalReferenceDirection.toNat = hrd ∧
        m.sourceIntegrityLevelSupplement.toNat = sils := by
  have hfa := fieldsAt_packed 7 _ hfit (by simp [packWidth, fieldsSurfaceV2]) (by simp [fieldsSurfaceV2])
  generalize hd : packed 7 (fieldsSurfaceV2 esIn b2 uat nacv nicC size ra ident single sda lateral longitudinal nicA nacp sil tah hrd sils) = d at hf hfa
  have h7 : d.length = 7 := by rw [← hd]; exact packed_len _ _
  simp only [fieldsSurfaceV2, FieldsAt, Nat.reduceAdd, and_true] at hfa
  obtain ⟨b0, b1, b2, b3, b4, b5, b6, b7, b8, b9, b10, b11, b12, b13, b14, b15, b16, b17, b18, b19, b20, b21, b22, b23, b24, b25, b26, b27⟩ := hfa
  have bv := b19
  have hacc : OpAccepted d := ⟨h7, b0, by rw [bv], Or.inr ⟨b1, by rw [bv]; decide⟩, by rw [bv]; exact ⟨b2, b11, b27⟩⟩
  obtain ⟨x, hr, hx⟩ := operational_delivered v s t capability address hca haa d f hacc hf
  rcases bds65_eval d with ⟨-, hn⟩ | ⟨-, ⟨c1, c2, m, hm, hl⟩ | ⟨c1, c2, m, hm, hl⟩ | ⟨c1, c2, m, hm, hl⟩ | ⟨c1, c2, m, hm, hl⟩ | ⟨c1, c2, m, hm, hl⟩⟩
  · exact absurd hacc hn
  · first | exact absurd (c1.symm.trans bv) (by decide) | exact absurd (c2.symm.trans b1) (by decide)
  · first | exact absurd (c1.symm.trans bv) (by decide) | exact absurd (c2.symm.trans b1) (by decide)
  · first | exact absurd (c1.symm.trans bv) (by decide) | exact absurd (c2.symm.trans b1) (by decide)
  · first | exact absurd (c1.symm.trans bv) (by decide) | exact absurd (c2.symm.trans b1) (by decide)
  · rw [hm] at hr; cases hr
    exact ⟨m, hx, by rw [hl.surfaceCapabilityClass_extendedSquitterIn, b4], by rw [hl.surfaceCapabilityClass_b2Low, b6], by rw [hl.surfaceCapabilityClass_uatCapability, b7], by rw [hl.surfaceCapabilityClass_navigationAccuracyCategoryVelocity, b8], by rw [hl.surfaceCapabilityClass_nicSupplementC, b9], by rw [hl.lengthAndWidth, b10], by rw [hl.operationalMode_acasRAActive, b12], by rw [hl.operationalMode_identSwitchActive, b13], by rw [hl.operationalMode_singleAntennaFlag, b15], by rw [hl.operationalMode_systemDesignAssurance, b16], by rw [hl.operationalMode_gpsAntennaLateral, b17], by rw [hl.operationalMode_gpsAntennaLongitudinal, b18], by rw [hl.nicSupplementA, b20], by rw [hl.navigationalAccuracyCategoryPosition, b21], by rw [hl.sourceIntegrityLevel, b23], by rw [hl.trackAngleHeading, b24], by rw [hl.horizontalReferenceDirection, b25], by rw [hl.sourceIntegrityLevelSupplement, b26]⟩

/-- C94. An airborne status, version 1. Received as sent. The version announced with it is 1. -/
theorem operationalAirborneV1_end_to_end (v : UInt8) (s t : Bool) (capability address : Nat) (hca : capability < 8) (haa : address < 2 ^ 24)
    (notAcas cdti arv ts tc ra ident atc nic nacp sil baro hrd : Nat) (hfit : Fits (fieldsAirborneV1 notAcas cdti arv ts tc ra ident atc nic nacp sil baro hrd)) (f : List UInt8)
    (hf : IsSquitter capability address (packed 7 (fieldsAirborneV1 notAcas cdti arv ts tc ra ident atc nic nacp sil baro hrd)) f) :
    ∃ m : OpStatusAirborneV1, ReceivesADSB v s t f address (.operationalStatus (.airborneV1 m) 1) ∧
        m.airborneCapabilityClass.notACASStatus.toNat = notAcas ∧
        m.airborneCapabilityClass.cockpitDisplayOfTrafficInformationStatus.toNat = cdti ∧
        m.airborneCapabilityClass.airReferencedVelocityReportCapability.toNat = arv ∧
        m.airborneCapabilityClass.targetStateReportCapability.toNat = ts ∧
        m.airborneCapabilityClass.targetChangeReportCapability.toNat = tc ∧
        m.operationalMode.acasRAActive.toNat = ra ∧
        m.operationalMode.identSwitchActive.toNat = ident ∧
        m.operationalMode.receivingATCServices.toNat = atc ∧
        m.nicSupplement.toNat = nic ∧
        m.navigationalAccuracyCategoryPosition.toNat = nacp ∧
        m.surveillanceIntegrityLevel.toNat = sil ∧
        m.nicBaro.toNat = baro ∧
        m.horizontalReferenceDirection.toNat = hrd := by
  have hfa := fieldsAt_packed 7 _ hfit (by simp [packWidth, fieldsAirborneV1]) (by simp [fieldsAirborneV1])
  generalize hd : packed 7 (fieldsAirborneV1 notAcas cdti arv ts tc ra ident atc nic nacp sil baro hrd) = d at hf hfa
  have h7 : d.length = 7 := by rw [← hd]; exact packed_len _ _
  simp only [fieldsAirborneV1, FieldsAt, Nat.reduceAdd, and_true] at hfa
  obtain ⟨b0, b1, b2, b3, b4, b5, b6, b7, b8, b9, b10, b11, b12, b13, b14, b15, b16, b17, b18, b19, b20, b21, b22⟩ := hfa
  have bv := b15
  have hacc : OpAccepted d := ⟨h7, b0, by rw [bv]; decide, Or.inl b1, by rw [bv]; exact ⟨b2, b5, b10, b18, b22⟩⟩
  obtain ⟨x, hr, hx⟩ := operational_delivered v s t capability address hca haa d f hacc hf
  rcases bds65_eval d with ⟨-, hn⟩ | ⟨-, ⟨c1, c2, m, hm, hl⟩ | ⟨c1, c2, m, hm, hl⟩ | ⟨c1, c2, m, hm, hl⟩ | ⟨c1, c2, m, hm, hl⟩ | ⟨c1, c2, m, hm, hl⟩⟩
  · exact absurd hacc hn
  · first | exact absurd (c1.symm.trans bv) (by decide) | exact absurd (c2.symm.trans b1) (by decide)
  · rw [hm] at hr; cases hr
    exact ⟨m, hx, by rw [hl.airborneCapabilityClass_notACASStatus, b3], by rw [hl.airborneCapabilityClass_cockpitDisplayOfTrafficInformationStatus, b4], by rw [hl.airborneCapabilityClass_airReferencedVelocityReportCapability, b6], by rw [hl.airborneCapabilityClass_targetStateReportCapability, b7], by rw [hl.airborneCapabilityClass_targetChangeReportCapability, b8], by rw [hl.operationalMode_acasRAActive, b11], by rw [hl.operationalMode_identSwitchActive, b12], by rw [hl.operationalMode_receivingATCServices, b13], by rw [hl.nicSupplement, b16], by rw [hl.navigationalAccuracyCategoryPosition, b17], by rw [hl.surveillanceIntegrityLevel, b19], by rw [hl.nicBaro, b20], by rw [hl.horizontalReferenceDirection, b21]⟩
  · first | exact absurd (c1.symm.trans bv) (by decide) | exact absurd (c2.symm.trans b1) (by decide)
  · first | exact absurd (c1.symm.trans bv) (by decide) | exact absurd (c2.symm.trans b1) (by decide)
  · first | exact absurd (c1.symm.trans bv) (by decide) | exact absurd (c2.symm.trans b1) (by decide)

/-- C94. A surface status, version 1. Received as sent. The version announced with it is 1. -/
theorem operationalSurfaceV1_end_to_end (v : UInt8) (s t : Bool) (capability address : Nat) (hca : capability < 8) (haa : address < 2 ^ 24)
    (poa cdti b2 size ra ident atc nic nacp sil tah hrd : Nat) (hfit : Fits (fieldsSurfaceV1 poa cdti b2 size ra ident atc nic nacp sil tah hrd)) (f : List UInt8)
    (hf : IsSquitter capability address (packed 7 (fieldsSurfaceV1 poa cdti b2 size ra ident atc nic nacp sil tah hrd)) f) :
    ∃ m : OpStatusSurfaceV1, ReceivesADSB v s t f address (.operationalStatus (.surfaceV1 m) 1) ∧
        m.surfaceCapabilityClass.positionOffsetApplied.toNat = poa ∧
        m.surfaceCapabilityClass.cockpitDisplayOfTrafficInformationStatus.toNat = cdti ∧
        m.surfaceCapabilityClass.b2Low.toNat = b2 ∧
        m.lengthAndWidth.toNat = size ∧
        m.operationalMode.acasRAActive.toNat = ra ∧
        m.operationalMode.identSwitchActive.toNat = ident ∧
        m.operationalMode.receivingATCServices.toNat = atc ∧
        m.nicSupplement.toNat = nic ∧
        m.navigationalAccuracyCategoryPosition.toNat = nacp ∧
        m.surveillanceIntegrityLevel.toNat = sil ∧
        m.trackAngleHeading.toNat = tah ∧
        m.horizontalReferenceDirection.toNat = hrd := by
  have hfa := fieldsAt_packed 7 _ hfit (by simp [packWidth, fieldsSurfaceV1]) (by simp [fieldsSurfaceV1])
  generalize hd : packed 7 (fieldsSurfaceV1 poa cdti b2 size ra ident atc nic nacp sil tah hrd) = d at hf hfa
  have h7 : d.length = 7 := by rw [← hd]; exact packed_len _ _
  simp only [fieldsSurfaceV1, FieldsAt, Nat.reduceAdd, and_true] at hfa
  obtain ⟨b0, b1, b2, b3, b4, b5, b6, b7, b8, b9, b10, b11, b12, b13, b14, b15, b16, b17, b18, b19, b20, b21⟩ := hfa
  have bv := b14
  have hacc : OpAccepted d := ⟨h7, b0, by rw [bv]; decide, Or.inr ⟨b1, by rw [bv]⟩, by rw [bv]; exact ⟨b2, b5, b9, b17, b21⟩⟩
  obtain ⟨x, hr, hx⟩ := operational_delivered v s t capability address hca haa d f hacc hf
  rcases bds65_eval d with ⟨-, hn⟩ | ⟨-, ⟨c1, c2, m, hm, hl⟩ | ⟨c1, c2, m, hm, hl⟩ | ⟨c1, c2, m, hm, hl⟩ | ⟨c1, c2, m, hm, hl⟩ | ⟨c1, c2, m, hm, hl⟩⟩
  · exact absurd hacc hn
  · first | exact absurd (c1.symm.trans bv) (by decide) | exact absurd (c2.symm.trans b1) (by decide)
  · first | exact absurd (c1.symm.trans bv) (by decide) | exact absurd (c2.symm.trans b1) (by decide)
  · first | exact absurd (c1.symm.trans bv) (by decide) | exact absurd (c2.symm.trans b1) (by decide)
  · rw [hm] at hr; cases hr
    exact ⟨m, hx, by rw [hl.surfaceCapabilityClass_positionOffsetApplied, b3], by rw [hl.surfaceCapabilityClass_cockpitDisplayOfTrafficInformationStatus, b4], by rw [hl.surfaceCapabilityClass_b2Low, b6], by rw [hl.lengthAndWidth, b8], by rw [hl.operationalMode_acasRAActive, b10], by rw [hl.operationalMode_identSwitchActive, b11], by rw [hl.operationalMode_receivingATCServices, b12], by rw [hl.nicSupplement, b15], by rw [hl.navigationalAccuracyCategoryPosition, b16], by rw [hl.surveillanceIntegrityLevel, b18], by rw [hl.trackAngleHeading, b19], by rw [hl.horizontalReferenceDirection, b20]⟩
  · first | exact absurd (c1.symm.trans bv) (by decide) | exact absurd (c2.symm.trans b1) (by decide)

/-- C94. A status of version 0. Received as sent. The version announced with it is 0. -/
theorem operationalV0_end_to_end (v : UInt8) (s t : Bool) (capability address : Nat) (hca : capability < 8) (haa : address < 2 ^ 24)
    (cc4 cc3 cc2 cc1 om4 om3 om2 om1 : Nat) (hfit : Fits (fieldsV0 cc4 cc3 cc2 cc1 om4 om3 om2 om1)) (f : List UInt8)
    (hf : IsSquitter capability address (packed 7 (fieldsV0 cc4 cc3 cc2 cc1 om4 om3 om2 om1)) f) :
    ∃ m : OpStatusV0, ReceivesADSB v s t f address (.operationalStatus (.v0 m) 0) ∧
        m.enRouteOperationalCapabilities.toNat = cc4 ∧
        m.terminalAreaOperationalCapabilities.toNat = cc3 ∧
        m.approachLandingOperationalCapabilities.toNat = cc2 ∧
        m.surfaceOperationalCapabilities.toNat = cc1 ∧
        m.enRouteOperationalCapabilityStatus.toNat = om4 ∧
        m.terminalAreaOperationalCapabilityStatus.toNat = om3 ∧
        m.approachLandingOperationalCapabilityStatus.toNat = om2 ∧
        m.surfaceOperationalCapabilityStatus.toNat = om1 := by
  have hfa := fieldsAt_packed 7 _ hfit (by simp [packWidth, fieldsV0]) (by simp [fieldsV0])
  generalize hd : packed 7 (fieldsV0 cc4 cc3 cc2 cc1 om4 om3 om2 om1) = d at hf hfa
  have h7 : d.length = 7 := by rw [← hd]; exact packed_len _ _
  simp only [fieldsV0, FieldsAt, Nat.reduceAdd, and_true] at hfa
  obtain ⟨b0, b1, b2, b3, b4, b5, b6, b7, b8, b9, b10⟩ := hfa
  have bv : bits d 41 43 = 0 := by
    have := bits_sub d 41 56 41 43 (by decide) (by decide) (by decide) (by omega)
    rw [b10] at this; simpa using this
  have hacc : OpAccepted d := ⟨h7, b0, by rw [bv]; decide, Or.inl b1, by rw [bv]; exact b10⟩
  obtain ⟨x, hr, hx⟩ := operational_delivered v s t capability address hca haa d f hacc hf
  rcases bds65_eval d with ⟨-, hn⟩ | ⟨-, ⟨c1, c2, m, hm, hl⟩ | ⟨c1, c2, m, hm, hl⟩ | ⟨c1, c2, m, hm, hl⟩ | ⟨c1, c2, m, hm, hl⟩ | ⟨c1, c2, m, hm, hl⟩⟩
  · exact absurd hacc hn
  · rw [hm] at hr; cases hr
    exact ⟨m, hx, by rw [hl.enRouteOperationalCapabilities, b2], by rw [hl.terminalAreaOperationalCapabilities, b3], by rw [hl.approachLandingOperationalCapabilities, b4], by rw [hl.surfaceOperationalCapabilities, b5], by rw [hl.enRouteOperationalCapabilityStatus, b6], by rw [hl.terminalAreaOperationalCapabilityStatus, b7], by rw [hl.approachLandingOperationalCapabilityStatus, b8], by rw [hl.surfaceOperationalCapabilityStatus, b9]⟩
  · first | exact absurd (c1.symm.trans bv) (by decide) | exact absurd (c2.symm.trans b1) (by decide)
  · first | exact absurd (c1.symm.trans bv) (by decide) | exact absurd (c2.symm.trans b1) (by decide)
  · first | exact absurd (c1.symm.trans bv) (by decide) | exact absurd (c2.symm.trans b1) (by decide)
  · first | exact absurd (c1.symm.trans bv) (by decide) | exact absurd (c2.symm.trans b1) (by decide)

/-- A real status (version 2, airborne): 8D4CA7B8F82300020049B8C22E57, and a surface one: the hypotheses are met. -/
example : Fits (fieldsAirborneV2 1 0 1 1 0 0 0 0 0 2 0 9 2 3 1 0 0) ∧
    packed 7 (fieldsAirborneV2 1 0 1 1 0 0 0 0 0 2 0 9 2 3 1 0 0) = [0xF8, 0x23, 0x00, 0x02, 0x00, 0x49, 0xB8] ∧
    Fits (fieldsSurfaceV2 1 1 0 3 1 1 0 0 0 2 2 1 0 9 3 0 0 1) ∧ Fits (fieldsV0 1 2 3 4 5 6 7 8) ∧
    Fits (fieldsAirborneV1 1 1 1 0 1 1 0 1 1 10 2 1 0) ∧ Fits (fieldsSurfaceV1 1 1 1 4 1 0 1 1 10 2 1 0) := by decide

end Modes
