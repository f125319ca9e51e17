import Verif.Model.TranslationTexts
import Verif.Lemmas.TextAttr
/-!
# The texts of the fields: the code and the model agree

Written by tools/go2lean/generate_texts_props.py. `Shown.…` is the text of the code (Model/TranslationTexts), `Text.…` that of the model.
-/
namespace Modes

theorem tableText_cons (k : ℕ) (hk : k < 256) (t : Txt) (r : List (Nat × Txt)) (s : Txt) (c : UInt8) :
    tableText ((k, t) :: r) s c = if c = UInt8.ofNat k then t else tableText r s c := by
  have : (c = UInt8.ofNat k) ↔ c.toNat = k := by
    rw [← UInt8.toNat_inj]; simp [Nat.mod_eq_of_lt hk]
  by_cases h : c.toNat = k
  · rw [if_pos (this.2 h)]; simp [tableText, h]
  · rw [if_neg (fun x => h (this.1 x))]; simp [tableText, List.lookup_cons, beq_false_of_ne h]

theorem every_byte (f g : UInt8 → Txt) (h : ∀ n < 256, f (UInt8.ofNat n) = g (UInt8.ofNat n)) (c : UInt8) : f c = g c := by
  simpa using h c.toNat c.toNat_lt

theorem tableText_nil (s : Txt) (c : UInt8) : tableText [] s c = dec c.toNat ++ s := rfl

/-- pkg/acas/ra/fields/active_resolution_advisory_one_or_same_separation.go:99 -/
theorem shown_acasActiveRAPreventiveCorrective {n : ℕ} (hn : n < 256) : Shown.acas.ra.fields.ActiveRAPreventiveCorrective.ToString n = Text.acasActiveRAPreventiveCorrective (UInt8.ofNat n) := by
  have h : ∀ n < 256, Shown.acas.ra.fields.ActiveRAPreventiveCorrective.ToString n = Text.acasActiveRAPreventiveCorrective (UInt8.ofNat n) := by decide +kernel
  exact h n hn

/-- pkg/acas/ra/fields/active_resolution_advisory_one_or_same_separation.go:143 -/
theorem shown_acasActiveRAVerticalSpeedLimitOrPositive {n : ℕ} (hn : n < 256) : Shown.acas.ra.fields.ActiveRAVerticalSpeedLimitOrPositive.ToString n = Text.acasActiveRAVerticalSpeedLimitOrPositive (UInt8.ofNat n) := by
  have h : ∀ n < 256, Shown.acas.ra.fields.ActiveRAVerticalSpeedLimitOrPositive.ToString n = Text.acasActiveRAVerticalSpeedLimitOrPositive (UInt8.ofNat n) := by decide +kernel
  exact h n hn

/-- pkg/acas/ra/fields/multiple_threat_encounter.go:19 -/
@[shown_text] theorem shown_acasMultipleThreatEncounter (c : UInt8) : Shown.acas.ra.fields.MultipleThreatEncounter.ToString c = Text.acasMultipleThreatEncounter c := by
  first
  | simp only [Shown.acas.ra.fields.MultipleThreatEncounter.ToString, Text.acasMultipleThreatEncounter, tableText_cons, tableText_nil, Nat.reduceLT]; rfl
  | exact every_byte Shown.acas.ra.fields.MultipleThreatEncounter.ToString Text.acasMultipleThreatEncounter (by decide +kernel) c

/-- pkg/acas/ra/fields/resolution_advisory_terminated.go:18 -/
theorem shown_acasRATerminatedIndicator {n : ℕ} (hn : n < 256) : Shown.acas.ra.fields.RATerminatedIndicator.ToString n = Text.acasRATerminatedIndicator (UInt8.ofNat n) := by
  have h : ∀ n < 256, Shown.acas.ra.fields.RATerminatedIndicator.ToString n = Text.acasRATerminatedIndicator (UInt8.ofNat n) := by decide +kernel
  exact h n hn

/-- pkg/acas/ra/fields/threat_identity_altitude.go:75 -/
@[shown_text] theorem shown_acasAltitudeStatus (c : UInt8) : Shown.acas.ra.fields.AltitudeStatus.ToString c = Text.acasAltitudeStatus c := by
  first
  | simp only [Shown.acas.ra.fields.AltitudeStatus.ToString, Text.acasAltitudeStatus, tableText_cons, tableText_nil, Nat.reduceLT]; rfl
  | exact every_byte Shown.acas.ra.fields.AltitudeStatus.ToString Text.acasAltitudeStatus (by decide +kernel) c

/-- pkg/acas/ra/fields/threat_type_indicator.go:22 -/
theorem shown_acasThreatTypeIndicator {n : ℕ} (hn : n < 256) : Shown.acas.ra.fields.ThreatTypeIndicator.ToString n = Text.acasThreatTypeIndicator (UInt8.ofNat n) := by
  have h : ∀ n < 256, Shown.acas.ra.fields.ThreatTypeIndicator.ToString n = Text.acasThreatTypeIndicator (UInt8.ofNat n) := by decide +kernel
  exact h n hn

/-- pkg/adsb/airborne_position/fields/containment_radius.go:41 -/
@[shown_text] theorem shown_airborneContainmentRadius (c : UInt8) : Shown.adsb.airborne_position.fields.ContainmentRadius.ToString c = Text.airborneContainmentRadius c := by
  first
  | simp only [Shown.adsb.airborne_position.fields.ContainmentRadius.ToString, Text.airborneContainmentRadius, tableText_cons, tableText_nil, Nat.reduceLT]; rfl
  | exact every_byte Shown.adsb.airborne_position.fields.ContainmentRadius.ToString Text.airborneContainmentRadius (by decide +kernel) c

/-- pkg/adsb/airborne_position/fields/horizontal_containment_limit_v1.go:48 -/
@[shown_text] theorem shown_airborneHorizontalContainmentRadiusV1 (c : UInt8) : Shown.adsb.airborne_position.fields.HorizontalContainmentRadiusV1.ToString c = Text.airborneHorizontalContainmentRadiusV1 c := by
  first
  | simp only [Shown.adsb.airborne_position.fields.HorizontalContainmentRadiusV1.ToString, Text.airborneHorizontalContainmentRadiusV1, tableText_cons, tableText_nil, Nat.reduceLT]; rfl
  | exact every_byte Shown.adsb.airborne_position.fields.HorizontalContainmentRadiusV1.ToString Text.airborneHorizontalContainmentRadiusV1 (by decide +kernel) c

/-- pkg/adsb/airborne_position/fields/horizontal_containment_limit_v2.go:51 -/
@[shown_text] theorem shown_airborneHorizontalContainmentRadiusV2 (c : UInt8) : Shown.adsb.airborne_position.fields.HorizontalContainmentRadiusV2.ToString c = Text.airborneHorizontalContainmentRadiusV2 c := by
  first
  | simp only [Shown.adsb.airborne_position.fields.HorizontalContainmentRadiusV2.ToString, Text.airborneHorizontalContainmentRadiusV2, tableText_cons, tableText_nil, Nat.reduceLT]; rfl
  | exact every_byte Shown.adsb.airborne_position.fields.HorizontalContainmentRadiusV2.ToString Text.airborneHorizontalContainmentRadiusV2 (by decide +kernel) c

/-- pkg/adsb/airborne_position/fields/horizontal_protection_limit.go:41 -/
@[shown_text] theorem shown_airborneHorizontalProtectionLimit (c : UInt8) : Shown.adsb.airborne_position.fields.HorizontalProtectionLimit.ToString c = Text.airborneHorizontalProtectionLimit c := by
  first
  | simp only [Shown.adsb.airborne_position.fields.HorizontalProtectionLimit.ToString, Text.airborneHorizontalProtectionLimit, tableText_cons, tableText_nil, Nat.reduceLT]; rfl
  | exact every_byte Shown.adsb.airborne_position.fields.HorizontalProtectionLimit.ToString Text.airborneHorizontalProtectionLimit (by decide +kernel) c

/-- pkg/adsb/airborne_position/fields/navigation_integrity_code_supplement_b.go:18 -/
@[shown_text] theorem shown_airborneNavigationIntegrityCodeSupplementB (c : UInt8) : Shown.adsb.airborne_position.fields.NavigationIntegrityCodeSupplementB.ToString c = Text.airborneNavigationIntegrityCodeSupplementB c := by
  first
  | simp only [Shown.adsb.airborne_position.fields.NavigationIntegrityCodeSupplementB.ToString, Text.airborneNavigationIntegrityCodeSupplementB, tableText_cons, tableText_nil, Nat.reduceLT]; rfl
  | exact every_byte Shown.adsb.airborne_position.fields.NavigationIntegrityCodeSupplementB.ToString Text.airborneNavigationIntegrityCodeSupplementB (by decide +kernel) c

/-- pkg/adsb/surface_position/fields/containment_radius.go:57 -/
@[shown_text] theorem shown_surfaceContainmentRadius (c : UInt8) : Shown.adsb.surface_position.fields.ContainmentRadius.ToString c = Text.surfaceContainmentRadius c := by
  first
  | simp only [Shown.adsb.surface_position.fields.ContainmentRadius.ToString, Text.surfaceContainmentRadius, tableText_cons, tableText_nil, Nat.reduceLT]; rfl
  | exact every_byte Shown.adsb.surface_position.fields.ContainmentRadius.ToString Text.surfaceContainmentRadius (by decide +kernel) c

/-- pkg/adsb/surface_position/fields/horizontal_containment_radius_v1.go:28 -/
@[shown_text] theorem shown_surfaceHorizontalContainmentRadiusV1 (c : UInt8) : Shown.adsb.surface_position.fields.HorizontalContainmentRadiusV1.ToString c = Text.surfaceHorizontalContainmentRadiusV1 c := by
  first
  | simp only [Shown.adsb.surface_position.fields.HorizontalContainmentRadiusV1.ToString, Text.surfaceHorizontalContainmentRadiusV1, tableText_cons, tableText_nil, Nat.reduceLT]; rfl
  | exact every_byte Shown.adsb.surface_position.fields.HorizontalContainmentRadiusV1.ToString Text.surfaceHorizontalContainmentRadiusV1 (by decide +kernel) c

/-- pkg/adsb/surface_position/fields/horizontal_containment_radius_v2.go:37 -/
@[shown_text] theorem shown_surfaceHorizontalContainmentRadiusV2 (c : UInt8) : Shown.adsb.surface_position.fields.HorizontalContainmentRadiusV2.ToString c = Text.surfaceHorizontalContainmentRadiusV2 c := by
  first
  | simp only [Shown.adsb.surface_position.fields.HorizontalContainmentRadiusV2.ToString, Text.surfaceHorizontalContainmentRadiusV2, tableText_cons, tableText_nil, Nat.reduceLT]; rfl
  | exact every_byte Shown.adsb.surface_position.fields.HorizontalContainmentRadiusV2.ToString Text.surfaceHorizontalContainmentRadiusV2 (by decide +kernel) c

/-- pkg/adsb/surface_position/fields/horizontal_protection_limit.go:52 -/
@[shown_text] theorem shown_surfaceHorizontalProtectionLimit (c : UInt8) : Shown.adsb.surface_position.fields.HorizontalProtectionLimit.ToString c = Text.surfaceHorizontalProtectionLimit c := by
  first
  | simp only [Shown.adsb.surface_position.fields.HorizontalProtectionLimit.ToString, Text.surfaceHorizontalProtectionLimit, tableText_cons, tableText_nil, Nat.reduceLT]; rfl
  | exact every_byte Shown.adsb.surface_position.fields.HorizontalProtectionLimit.ToString Text.surfaceHorizontalProtectionLimit (by decide +kernel) c

/-- pkg/bds/bds05/fields/altitude.go:20 -/
theorem shown_bds05AltitudeSource {n : ℕ} (hn : n < 256) : Shown.bds.bds05.fields.AltitudeSource.ToString n = Text.bds05AltitudeSource (UInt8.ofNat n) := by
  have h : ∀ n < 256, Shown.bds.bds05.fields.AltitudeSource.ToString n = Text.bds05AltitudeSource (UInt8.ofNat n) := by decide +kernel
  exact h n hn

/-- pkg/bds/bds05/fields/altitude.go:42 -/
theorem shown_bds05AltitudeReportMethod {n : ℕ} (hn : n < 256) : Shown.bds.bds05.fields.AltitudeReportMethod.ToString n = Text.bds05AltitudeReportMethod (UInt8.ofNat n) := by
  have h : ∀ n < 256, Shown.bds.bds05.fields.AltitudeReportMethod.ToString n = Text.bds05AltitudeReportMethod (UInt8.ofNat n) := by decide +kernel
  exact h n hn

/-- pkg/bds/bds05/fields/compact_position_reporting_format.go:18 -/
@[shown_text] theorem shown_bds05CompactPositionReportingFormat (c : UInt8) : Shown.bds.bds05.fields.CompactPositionReportingFormat.ToString c = Text.bds05CompactPositionReportingFormat c := by
  first
  | simp only [Shown.bds.bds05.fields.CompactPositionReportingFormat.ToString, Text.bds05CompactPositionReportingFormat, tableText_cons, tableText_nil, Nat.reduceLT]; rfl
  | exact every_byte Shown.bds.bds05.fields.CompactPositionReportingFormat.ToString Text.bds05CompactPositionReportingFormat (by decide +kernel) c

/-- pkg/bds/bds05/fields/single_antenna_flag.go:18 -/
@[shown_text] theorem shown_bds05SingleAntennaFlag (c : UInt8) : Shown.bds.bds05.fields.SingleAntennaFlag.ToString c = Text.bds05SingleAntennaFlag c := by
  first
  | simp only [Shown.bds.bds05.fields.SingleAntennaFlag.ToString, Text.bds05SingleAntennaFlag, tableText_cons, tableText_nil, Nat.reduceLT]; rfl
  | exact every_byte Shown.bds.bds05.fields.SingleAntennaFlag.ToString Text.bds05SingleAntennaFlag (by decide +kernel) c

/-- pkg/bds/bds05/fields/surveillance_status.go:22 -/
@[shown_text] theorem shown_bds05SurveillanceStatus (c : UInt8) : Shown.bds.bds05.fields.SurveillanceStatus.ToString c = Text.bds05SurveillanceStatus c := by
  first
  | simp only [Shown.bds.bds05.fields.SurveillanceStatus.ToString, Text.bds05SurveillanceStatus, tableText_cons, tableText_nil, Nat.reduceLT]; rfl
  | exact every_byte Shown.bds.bds05.fields.SurveillanceStatus.ToString Text.bds05SurveillanceStatus (by decide +kernel) c

/-- pkg/bds/bds05/fields/time.go:18 -/
@[shown_text] theorem shown_bds05Time (c : UInt8) : Shown.bds.bds05.fields.Time.ToString c = Text.bds05Time c := by
  first
  | simp only [Shown.bds.bds05.fields.Time.ToString, Text.bds05Time, tableText_cons, tableText_nil, Nat.reduceLT]; rfl
  | exact every_byte Shown.bds.bds05.fields.Time.ToString Text.bds05Time (by decide +kernel) c

/-- pkg/bds/bds06/fields/compact_position_reporting_format.go:18 -/
@[shown_text] theorem shown_bds06CompactPositionReportingFormat (c : UInt8) : Shown.bds.bds06.fields.CompactPositionReportingFormat.ToString c = Text.bds06CompactPositionReportingFormat c := by
  first
  | simp only [Shown.bds.bds06.fields.CompactPositionReportingFormat.ToString, Text.bds06CompactPositionReportingFormat, tableText_cons, tableText_nil, Nat.reduceLT]; rfl
  | exact every_byte Shown.bds.bds06.fields.CompactPositionReportingFormat.ToString Text.bds06CompactPositionReportingFormat (by decide +kernel) c

/-- pkg/bds/bds06/fields/movement.go:28 -/
theorem shown_bds06MovementStatus {n : ℕ} (hn : n < 256) : Shown.bds.bds06.fields.MovementStatus.ToString n = Text.bds06MovementStatus (UInt8.ofNat n) := by
  have h : ∀ n < 256, Shown.bds.bds06.fields.MovementStatus.ToString n = Text.bds06MovementStatus (UInt8.ofNat n) := by decide +kernel
  exact h n hn

/-- pkg/bds/bds06/fields/time.go:18 -/
@[shown_text] theorem shown_bds06Time (c : UInt8) : Shown.bds.bds06.fields.Time.ToString c = Text.bds06Time c := by
  first
  | simp only [Shown.bds.bds06.fields.Time.ToString, Text.bds06Time, tableText_cons, tableText_nil, Nat.reduceLT]; rfl
  | exact every_byte Shown.bds.bds06.fields.Time.ToString Text.bds06Time (by decide +kernel) c

/-- pkg/bds/bds07/fields/altitude_type_subfield.go:18 -/
@[shown_text] theorem shown_bds07AltitudeTypeSubfield (c : UInt8) : Shown.bds.bds07.fields.AltitudeTypeSubfield.ToString c = Text.bds07AltitudeTypeSubfield c := by
  first
  | simp only [Shown.bds.bds07.fields.AltitudeTypeSubfield.ToString, Text.bds07AltitudeTypeSubfield, tableText_cons, tableText_nil, Nat.reduceLT]; rfl
  | exact every_byte Shown.bds.bds07.fields.AltitudeTypeSubfield.ToString Text.bds07AltitudeTypeSubfield (by decide +kernel) c

/-- pkg/bds/bds07/fields/transmission_rate_subfield.go:20 -/
@[shown_text] theorem shown_bds07TransmissionRateSubfield (c : UInt8) : Shown.bds.bds07.fields.TransmissionRateSubfield.ToString c = Text.bds07TransmissionRateSubfield c := by
  first
  | simp only [Shown.bds.bds07.fields.TransmissionRateSubfield.ToString, Text.bds07TransmissionRateSubfield, tableText_cons, tableText_nil, Nat.reduceLT]; rfl
  | exact every_byte Shown.bds.bds07.fields.TransmissionRateSubfield.ToString Text.bds07TransmissionRateSubfield (by decide +kernel) c

/-- pkg/bds/bds08/fields/aircraft_category_set_a.go:35 -/
@[shown_text] theorem shown_bds08AircraftCategorySetA (c : UInt8) : Shown.bds.bds08.fields.AircraftCategorySetA.ToString c = Text.bds08AircraftCategorySetA c := by
  first
  | simp only [Shown.bds.bds08.fields.AircraftCategorySetA.ToString, Text.bds08AircraftCategorySetA, tableText_cons, tableText_nil, Nat.reduceLT]; rfl
  | exact every_byte Shown.bds.bds08.fields.AircraftCategorySetA.ToString Text.bds08AircraftCategorySetA (by decide +kernel) c

/-- pkg/bds/bds08/fields/aircraft_category_set_b.go:35 -/
@[shown_text] theorem shown_bds08AircraftCategorySetB (c : UInt8) : Shown.bds.bds08.fields.AircraftCategorySetB.ToString c = Text.bds08AircraftCategorySetB c := by
  first
  | simp only [Shown.bds.bds08.fields.AircraftCategorySetB.ToString, Text.bds08AircraftCategorySetB, tableText_cons, tableText_nil, Nat.reduceLT]; rfl
  | exact every_byte Shown.bds.bds08.fields.AircraftCategorySetB.ToString Text.bds08AircraftCategorySetB (by decide +kernel) c

/-- pkg/bds/bds08/fields/aircraft_category_set_c.go:38 -/
@[shown_text] theorem shown_bds08AircraftCategorySetC (c : UInt8) : Shown.bds.bds08.fields.AircraftCategorySetC.ToString c = Text.bds08AircraftCategorySetC c := by
  first
  | simp only [Shown.bds.bds08.fields.AircraftCategorySetC.ToString, Text.bds08AircraftCategorySetC, tableText_cons, tableText_nil, Nat.reduceLT]; rfl
  | exact every_byte Shown.bds.bds08.fields.AircraftCategorySetC.ToString Text.bds08AircraftCategorySetC (by decide +kernel) c

/-- pkg/bds/bds08/fields/aircraft_category_set_d.go:38 -/
@[shown_text] theorem shown_bds08AircraftCategorySetD (c : UInt8) : Shown.bds.bds08.fields.AircraftCategorySetD.ToString c = Text.bds08AircraftCategorySetD c := by
  first
  | simp only [Shown.bds.bds08.fields.AircraftCategorySetD.ToString, Text.bds08AircraftCategorySetD, tableText_cons, tableText_nil, Nat.reduceLT]; rfl
  | exact every_byte Shown.bds.bds08.fields.AircraftCategorySetD.ToString Text.bds08AircraftCategorySetD (by decide +kernel) c

/-- pkg/bds/bds09/fields/ifr_capability.go:20 -/
@[shown_text] theorem shown_bds09IFRCapability (c : UInt8) : Shown.bds.bds09.fields.IFRCapability.ToString c = Text.bds09IFRCapability c := by
  first
  | simp only [Shown.bds.bds09.fields.IFRCapability.ToString, Text.bds09IFRCapability, tableText_cons, tableText_nil, Nat.reduceLT]; rfl
  | exact every_byte Shown.bds.bds09.fields.IFRCapability.ToString Text.bds09IFRCapability (by decide +kernel) c

/-- pkg/bds/bds09/fields/intent_change.go:18 -/
@[shown_text] theorem shown_bds09IntentChange (c : UInt8) : Shown.bds.bds09.fields.IntentChange.ToString c = Text.bds09IntentChange c := by
  first
  | simp only [Shown.bds.bds09.fields.IntentChange.ToString, Text.bds09IntentChange, tableText_cons, tableText_nil, Nat.reduceLT]; rfl
  | exact every_byte Shown.bds.bds09.fields.IntentChange.ToString Text.bds09IntentChange (by decide +kernel) c

/-- pkg/bds/bds09/fields/magnetic_heading.go:21 -/
@[shown_text] theorem shown_bds09MagneticHeadingStatus (c : UInt8) : Shown.bds.bds09.fields.MagneticHeadingStatus.ToString c = Text.bds09MagneticHeadingStatus c := by
  first
  | simp only [Shown.bds.bds09.fields.MagneticHeadingStatus.ToString, Text.bds09MagneticHeadingStatus, tableText_cons, tableText_nil, Nat.reduceLT]; rfl
  | exact every_byte Shown.bds.bds09.fields.MagneticHeadingStatus.ToString Text.bds09MagneticHeadingStatus (by decide +kernel) c

/-- pkg/bds/bds09/fields/numeric_value_status.go:18 -/
@[shown_text] theorem shown_bds09NumericValueStatus (c : NumericValueStatus) : Shown.bds.bds09.fields.NumericValueStatus.ToString c = c.text := by
  cases c <;> rfl

/-- pkg/bds/bds09/fields/subtype.go:24 -/
@[shown_text] theorem shown_bds09Subtype (c : UInt8) : Shown.bds.bds09.fields.Subtype.ToString c = Text.bds09Subtype c := by
  first
  | simp only [Shown.bds.bds09.fields.Subtype.ToString, Text.bds09Subtype, tableText_cons, tableText_nil, Nat.reduceLT]; rfl
  | exact every_byte Shown.bds.bds09.fields.Subtype.ToString Text.bds09Subtype (by decide +kernel) c

/-- pkg/bds/bds09/fields/velocity_ew.go:21 -/
@[shown_text] theorem shown_bds09DirectionEastWest (c : UInt8) : Shown.bds.bds09.fields.DirectionEastWest.ToString c = Text.bds09DirectionEastWest c := by
  first
  | simp only [Shown.bds.bds09.fields.DirectionEastWest.ToString, Text.bds09DirectionEastWest, tableText_cons, tableText_nil, Nat.reduceLT]; rfl
  | exact every_byte Shown.bds.bds09.fields.DirectionEastWest.ToString Text.bds09DirectionEastWest (by decide +kernel) c

/-- pkg/bds/bds09/fields/velocity_ns.go:21 -/
@[shown_text] theorem shown_bds09DirectionNorthSouth (c : UInt8) : Shown.bds.bds09.fields.DirectionNorthSouth.ToString c = Text.bds09DirectionNorthSouth c := by
  first
  | simp only [Shown.bds.bds09.fields.DirectionNorthSouth.ToString, Text.bds09DirectionNorthSouth, tableText_cons, tableText_nil, Nat.reduceLT]; rfl
  | exact every_byte Shown.bds.bds09.fields.DirectionNorthSouth.ToString Text.bds09DirectionNorthSouth (by decide +kernel) c

/-- pkg/bds/bds09/fields/vertical_rate_source.go:18 -/
@[shown_text] theorem shown_bds09VerticalRateSource (c : UInt8) : Shown.bds.bds09.fields.VerticalRateSource.ToString c = Text.bds09VerticalRateSource c := by
  first
  | simp only [Shown.bds.bds09.fields.VerticalRateSource.ToString, Text.bds09VerticalRateSource, tableText_cons, tableText_nil, Nat.reduceLT]; rfl
  | exact every_byte Shown.bds.bds09.fields.VerticalRateSource.ToString Text.bds09VerticalRateSource (by decide +kernel) c

/-- pkg/bds/bds10/fields/acas_applicable_document.go:22 -/
@[shown_text] theorem shown_bds10ACASApplicableDocument (c : UInt8) : Shown.bds.bds10.fields.ACASApplicableDocument.ToString c = Text.bds10ACASApplicableDocument c := by
  first
  | simp only [Shown.bds.bds10.fields.ACASApplicableDocument.ToString, Text.bds10ACASApplicableDocument, tableText_cons, tableText_nil, Nat.reduceLT]; rfl
  | exact every_byte Shown.bds.bds10.fields.ACASApplicableDocument.ToString Text.bds10ACASApplicableDocument (by decide +kernel) c

/-- pkg/bds/bds10/fields/acas_generation_capability.go:18 -/
@[shown_text] theorem shown_bds10ACASGenerationCapability (c : UInt8) : Shown.bds.bds10.fields.ACASGenerationCapability.ToString c = Text.bds10ACASGenerationCapability c := by
  first
  | simp only [Shown.bds.bds10.fields.ACASGenerationCapability.ToString, Text.bds10ACASGenerationCapability, tableText_cons, tableText_nil, Nat.reduceLT]; rfl
  | exact every_byte Shown.bds.bds10.fields.ACASGenerationCapability.ToString Text.bds10ACASGenerationCapability (by decide +kernel) c

/-- pkg/bds/bds10/fields/acas_hybrid_surveillance_capability.go:18 -/
@[shown_text] theorem shown_bds10ACASHybridSurveillanceCapability (c : UInt8) : Shown.bds.bds10.fields.ACASHybridSurveillanceCapability.ToString c = Text.bds10ACASHybridSurveillanceCapability c := by
  first
  | simp only [Shown.bds.bds10.fields.ACASHybridSurveillanceCapability.ToString, Text.bds10ACASHybridSurveillanceCapability, tableText_cons, tableText_nil, Nat.reduceLT]; rfl
  | exact every_byte Shown.bds.bds10.fields.ACASHybridSurveillanceCapability.ToString Text.bds10ACASHybridSurveillanceCapability (by decide +kernel) c

/-- pkg/bds/bds10/fields/acas_status.go:18 -/
@[shown_text] theorem shown_bds10ACASStatus (c : UInt8) : Shown.bds.bds10.fields.ACASStatus.ToString c = Text.bds10ACASStatus c := by
  first
  | simp only [Shown.bds.bds10.fields.ACASStatus.ToString, Text.bds10ACASStatus, tableText_cons, tableText_nil, Nat.reduceLT]; rfl
  | exact every_byte Shown.bds.bds10.fields.ACASStatus.ToString Text.bds10ACASStatus (by decide +kernel) c

/-- pkg/bds/bds10/fields/aircraft_identification_capability.go:18 -/
@[shown_text] theorem shown_bds10AircraftIdentificationCapability (c : UInt8) : Shown.bds.bds10.fields.AircraftIdentificationCapability.ToString c = Text.bds10AircraftIdentificationCapability c := by
  first
  | simp only [Shown.bds.bds10.fields.AircraftIdentificationCapability.ToString, Text.bds10AircraftIdentificationCapability, tableText_cons, tableText_nil, Nat.reduceLT]; rfl
  | exact every_byte Shown.bds.bds10.fields.AircraftIdentificationCapability.ToString Text.bds10AircraftIdentificationCapability (by decide +kernel) c

/-- pkg/bds/bds10/fields/common_gicb_capability.go:18 -/
@[shown_text] theorem shown_bds10CommonUsageGICBCapability (c : UInt8) : Shown.bds.bds10.fields.CommonUsageGICBCapability.ToString c = Text.bds10CommonUsageGICBCapability c := by
  first
  | simp only [Shown.bds.bds10.fields.CommonUsageGICBCapability.ToString, Text.bds10CommonUsageGICBCapability, tableText_cons, tableText_nil, Nat.reduceLT]; rfl
  | exact every_byte Shown.bds.bds10.fields.CommonUsageGICBCapability.ToString Text.bds10CommonUsageGICBCapability (by decide +kernel) c

/-- pkg/bds/bds10/fields/continuation_flag.go:18 -/
@[shown_text] theorem shown_bds10ContinuationFlag (c : UInt8) : Shown.bds.bds10.fields.ContinuationFlag.ToString c = Text.bds10ContinuationFlag c := by
  first
  | simp only [Shown.bds.bds10.fields.ContinuationFlag.ToString, Text.bds10ContinuationFlag, tableText_cons, tableText_nil, Nat.reduceLT]; rfl
  | exact every_byte Shown.bds.bds10.fields.ContinuationFlag.ToString Text.bds10ContinuationFlag (by decide +kernel) c

/-- pkg/bds/bds10/fields/downlink_elm_throughput.go:28 -/
@[shown_text] theorem shown_bds10DownlinkELMThroughputCapability (c : UInt8) : Shown.bds.bds10.fields.DownlinkELMThroughputCapability.ToString c = Text.bds10DownlinkELMThroughputCapability c := by
  first
  | simp only [Shown.bds.bds10.fields.DownlinkELMThroughputCapability.ToString, Text.bds10DownlinkELMThroughputCapability, tableText_cons, tableText_nil, Nat.reduceLT]; rfl
  | exact every_byte Shown.bds.bds10.fields.DownlinkELMThroughputCapability.ToString Text.bds10DownlinkELMThroughputCapability (by decide +kernel) c

/-- pkg/bds/bds10/fields/modes_specific_services_capability.go:18 -/
@[shown_text] theorem shown_bds10ModeSSpecificServicesCapability (c : UInt8) : Shown.bds.bds10.fields.ModeSSpecificServicesCapability.ToString c = Text.bds10ModeSSpecificServicesCapability c := by
  first
  | simp only [Shown.bds.bds10.fields.ModeSSpecificServicesCapability.ToString, Text.bds10ModeSSpecificServicesCapability, tableText_cons, tableText_nil, Nat.reduceLT]; rfl
  | exact every_byte Shown.bds.bds10.fields.ModeSSpecificServicesCapability.ToString Text.bds10ModeSSpecificServicesCapability (by decide +kernel) c

/-- pkg/bds/bds10/fields/modes_subnetwork_version.go:26 -/
@[shown_text] theorem shown_bds10ModeSSubnetworkVersion (c : UInt8) : Shown.bds.bds10.fields.ModeSSubnetworkVersion.ToString c = Text.bds10ModeSSubnetworkVersion c := by
  first
  | simp only [Shown.bds.bds10.fields.ModeSSubnetworkVersion.ToString, Text.bds10ModeSSubnetworkVersion, tableText_cons, tableText_nil, Nat.reduceLT]; rfl
  | exact every_byte Shown.bds.bds10.fields.ModeSSubnetworkVersion.ToString Text.bds10ModeSSubnetworkVersion (by decide +kernel) c

/-- pkg/bds/bds10/fields/overlay_command_capability.go:18 -/
@[shown_text] theorem shown_bds10OverlayCommandCapability (c : UInt8) : Shown.bds.bds10.fields.OverlayCommandCapability.ToString c = Text.bds10OverlayCommandCapability c := by
  first
  | simp only [Shown.bds.bds10.fields.OverlayCommandCapability.ToString, Text.bds10OverlayCommandCapability, tableText_cons, tableText_nil, Nat.reduceLT]; rfl
  | exact every_byte Shown.bds.bds10.fields.OverlayCommandCapability.ToString Text.bds10OverlayCommandCapability (by decide +kernel) c

/-- pkg/bds/bds10/fields/squitter_capability_subfield.go:19 -/
@[shown_text] theorem shown_bds10SquitterCapabilitySubfield (c : UInt8) : Shown.bds.bds10.fields.SquitterCapabilitySubfield.ToString c = Text.bds10SquitterCapabilitySubfield c := by
  first
  | simp only [Shown.bds.bds10.fields.SquitterCapabilitySubfield.ToString, Text.bds10SquitterCapabilitySubfield, tableText_cons, tableText_nil, Nat.reduceLT]; rfl
  | exact every_byte Shown.bds.bds10.fields.SquitterCapabilitySubfield.ToString Text.bds10SquitterCapabilitySubfield (by decide +kernel) c

/-- pkg/bds/bds10/fields/surveillance_identifier_code.go:18 -/
@[shown_text] theorem shown_bds10SurveillanceIdentifierCode (c : UInt8) : Shown.bds.bds10.fields.SurveillanceIdentifierCode.ToString c = Text.bds10SurveillanceIdentifierCode c := by
  first
  | simp only [Shown.bds.bds10.fields.SurveillanceIdentifierCode.ToString, Text.bds10SurveillanceIdentifierCode, tableText_cons, tableText_nil, Nat.reduceLT]; rfl
  | exact every_byte Shown.bds.bds10.fields.SurveillanceIdentifierCode.ToString Text.bds10SurveillanceIdentifierCode (by decide +kernel) c

/-- pkg/bds/bds10/fields/transponder_enhanced_protocol_indicator.go:18 -/
@[shown_text] theorem shown_bds10TransponderEnhancedProtocolIndicator (c : UInt8) : Shown.bds.bds10.fields.TransponderEnhancedProtocolIndicator.ToString c = Text.bds10TransponderEnhancedProtocolIndicator c := by
  first
  | simp only [Shown.bds.bds10.fields.TransponderEnhancedProtocolIndicator.ToString, Text.bds10TransponderEnhancedProtocolIndicator, tableText_cons, tableText_nil, Nat.reduceLT]; rfl
  | exact every_byte Shown.bds.bds10.fields.TransponderEnhancedProtocolIndicator.ToString Text.bds10TransponderEnhancedProtocolIndicator (by decide +kernel) c

/-- pkg/bds/bds10/fields/uplink_elm_throughput.go:28 -/
@[shown_text] theorem shown_bds10UplinkELMThroughputCapability (c : UInt8) : Shown.bds.bds10.fields.UplinkELMThroughputCapability.ToString c = Text.bds10UplinkELMThroughputCapability c := by
  first
  | simp only [Shown.bds.bds10.fields.UplinkELMThroughputCapability.ToString, Text.bds10UplinkELMThroughputCapability, tableText_cons, tableText_nil, Nat.reduceLT]; rfl
  | exact every_byte Shown.bds.bds10.fields.UplinkELMThroughputCapability.ToString Text.bds10UplinkELMThroughputCapability (by decide +kernel) c

/-- pkg/bds/bds40/fields/status_of_mode_bits.go:18 -/
@[shown_text] theorem shown_bds40StatusOfModeBits (c : UInt8) : Shown.bds.bds40.fields.StatusOfModeBits.ToString c = Text.bds40StatusOfModeBits c := by
  first
  | simp only [Shown.bds.bds40.fields.StatusOfModeBits.ToString, Text.bds40StatusOfModeBits, tableText_cons, tableText_nil, Nat.reduceLT]; rfl
  | exact every_byte Shown.bds.bds40.fields.StatusOfModeBits.ToString Text.bds40StatusOfModeBits (by decide +kernel) c

/-- pkg/bds/bds40/fields/status_of_target_altitude_source.go:18 -/
@[shown_text] theorem shown_bds40StatusOfTargetAltitudeSource (c : UInt8) : Shown.bds.bds40.fields.StatusOfTargetAltitudeSource.ToString c = Text.bds40StatusOfTargetAltitudeSource c := by
  first
  | simp only [Shown.bds.bds40.fields.StatusOfTargetAltitudeSource.ToString, Text.bds40StatusOfTargetAltitudeSource, tableText_cons, tableText_nil, Nat.reduceLT]; rfl
  | exact every_byte Shown.bds.bds40.fields.StatusOfTargetAltitudeSource.ToString Text.bds40StatusOfTargetAltitudeSource (by decide +kernel) c

/-- pkg/bds/bds40/fields/target_altitude_source.go:22 -/
@[shown_text] theorem shown_bds40TargetAltitudeSource (c : UInt8) : Shown.bds.bds40.fields.TargetAltitudeSource.ToString c = Text.bds40TargetAltitudeSource c := by
  first
  | simp only [Shown.bds.bds40.fields.TargetAltitudeSource.ToString, Text.bds40TargetAltitudeSource, tableText_cons, tableText_nil, Nat.reduceLT]; rfl
  | exact every_byte Shown.bds.bds40.fields.TargetAltitudeSource.ToString Text.bds40TargetAltitudeSource (by decide +kernel) c

/-- pkg/bds/bds44/fields/source.go:24 -/
@[shown_text] theorem shown_bds44Source (c : UInt8) : Shown.bds.bds44.fields.Source.ToString c = Text.bds44Source c := by
  first
  | simp only [Shown.bds.bds44.fields.Source.ToString, Text.bds44Source, tableText_cons, tableText_nil, Nat.reduceLT]; rfl
  | exact every_byte Shown.bds.bds44.fields.Source.ToString Text.bds44Source (by decide +kernel) c

/-- pkg/bds/bds44/fields/turbulence.go:25 -/
@[shown_text] theorem shown_bds44TurbulenceLevel (c : UInt8) : Shown.bds.bds44.fields.TurbulenceLevel.ToString c = Text.bds44TurbulenceLevel c := by
  first
  | simp only [Shown.bds.bds44.fields.TurbulenceLevel.ToString, Text.bds44TurbulenceLevel, tableText_cons, tableText_nil, Nat.reduceLT]; rfl
  | exact every_byte Shown.bds.bds44.fields.TurbulenceLevel.ToString Text.bds44TurbulenceLevel (by decide +kernel) c

/-- pkg/bds/bds44/fields/turbulence_flag.go:18 -/
@[shown_text] theorem shown_bds44TurbulenceFlag (c : UInt8) : Shown.bds.bds44.fields.TurbulenceFlag.ToString c = Text.bds44TurbulenceFlag c := by
  first
  | simp only [Shown.bds.bds44.fields.TurbulenceFlag.ToString, Text.bds44TurbulenceFlag, tableText_cons, tableText_nil, Nat.reduceLT]; rfl
  | exact every_byte Shown.bds.bds44.fields.TurbulenceFlag.ToString Text.bds44TurbulenceFlag (by decide +kernel) c

/-- pkg/bds/bds45/fields/hazard_level.go:24 -/
@[shown_text] theorem shown_bds45HazardLevel (c : UInt8) : Shown.bds.bds45.fields.HazardLevel.ToString c = Text.bds45HazardLevel c := by
  first
  | simp only [Shown.bds.bds45.fields.HazardLevel.ToString, Text.bds45HazardLevel, tableText_cons, tableText_nil, Nat.reduceLT]; rfl
  | exact every_byte Shown.bds.bds45.fields.HazardLevel.ToString Text.bds45HazardLevel (by decide +kernel) c

/-- pkg/bds/bds61/fields/emergency_status.go:30 -/
@[shown_text] theorem shown_bds61EmergencyPriorityStatus (c : UInt8) : Shown.bds.bds61.fields.EmergencyPriorityStatus.ToString c = Text.bds61EmergencyPriorityStatus c := by
  first
  | simp only [Shown.bds.bds61.fields.EmergencyPriorityStatus.ToString, Text.bds61EmergencyPriorityStatus, tableText_cons, tableText_nil, Nat.reduceLT]; rfl
  | exact every_byte Shown.bds.bds61.fields.EmergencyPriorityStatus.ToString Text.bds61EmergencyPriorityStatus (by decide +kernel) c

/-- pkg/bds/bds61/fields/subtype.go:32 -/
@[shown_text] theorem shown_bds61Subtype (c : UInt8) : Shown.bds.bds61.fields.Subtype.ToString c = Text.bds61Subtype c := by
  first
  | simp only [Shown.bds.bds61.fields.Subtype.ToString, Text.bds61Subtype, tableText_cons, tableText_nil, Nat.reduceLT]; rfl
  | exact every_byte Shown.bds.bds61.fields.Subtype.ToString Text.bds61Subtype (by decide +kernel) c

/-- pkg/bds/bds62/fields/capability_mode_code.go:22 -/
@[shown_text] theorem shown_bds62CapabilityModeCode (c : UInt8) : Shown.bds.bds62.fields.CapabilityModeCode.ToString c = Text.bds62CapabilityModeCode c := by
  first
  | simp only [Shown.bds.bds62.fields.CapabilityModeCode.ToString, Text.bds62CapabilityModeCode, tableText_cons, tableText_nil, Nat.reduceLT]; rfl
  | exact every_byte Shown.bds.bds62.fields.CapabilityModeCode.ToString Text.bds62CapabilityModeCode (by decide +kernel) c

/-- pkg/bds/bds62/fields/emergency_priority_status.go:30 -/
@[shown_text] theorem shown_bds62EmergencyPriorityStatus (c : UInt8) : Shown.bds.bds62.fields.EmergencyPriorityStatus.ToString c = Text.bds62EmergencyPriorityStatus c := by
  first
  | simp only [Shown.bds.bds62.fields.EmergencyPriorityStatus.ToString, Text.bds62EmergencyPriorityStatus, tableText_cons, tableText_nil, Nat.reduceLT]; rfl
  | exact every_byte Shown.bds.bds62.fields.EmergencyPriorityStatus.ToString Text.bds62EmergencyPriorityStatus (by decide +kernel) c

/-- pkg/bds/bds62/fields/horizontal_data_source_indicator.go:22 -/
@[shown_text] theorem shown_bds62HorizontalDataAvailableSourceIndicator (c : UInt8) : Shown.bds.bds62.fields.HorizontalDataAvailableSourceIndicator.ToString c = Text.bds62HorizontalDataAvailableSourceIndicator c := by
  first
  | simp only [Shown.bds.bds62.fields.HorizontalDataAvailableSourceIndicator.ToString, Text.bds62HorizontalDataAvailableSourceIndicator, tableText_cons, tableText_nil, Nat.reduceLT]; rfl
  | exact every_byte Shown.bds.bds62.fields.HorizontalDataAvailableSourceIndicator.ToString Text.bds62HorizontalDataAvailableSourceIndicator (by decide +kernel) c

/-- pkg/bds/bds62/fields/horizontal_mode_indicator.go:22 -/
@[shown_text] theorem shown_bds62HorizontalModeIndicator (c : UInt8) : Shown.bds.bds62.fields.HorizontalModeIndicator.ToString c = Text.bds62HorizontalModeIndicator c := by
  first
  | simp only [Shown.bds.bds62.fields.HorizontalModeIndicator.ToString, Text.bds62HorizontalModeIndicator, tableText_cons, tableText_nil, Nat.reduceLT]; rfl
  | exact every_byte Shown.bds.bds62.fields.HorizontalModeIndicator.ToString Text.bds62HorizontalModeIndicator (by decide +kernel) c

/-- pkg/bds/bds62/fields/navigational_accuracy_category_position_v1.go:46 -/
@[shown_text] theorem shown_bds62NavigationalAccuracyCategoryPositionV1 (c : UInt8) : Shown.bds.bds62.fields.NavigationalAccuracyCategoryPositionV1.ToString c = Text.bds62NavigationalAccuracyCategoryPositionV1 c := by
  first
  | simp only [Shown.bds.bds62.fields.NavigationalAccuracyCategoryPositionV1.ToString, Text.bds62NavigationalAccuracyCategoryPositionV1, tableText_cons, tableText_nil, Nat.reduceLT]; rfl
  | exact every_byte Shown.bds.bds62.fields.NavigationalAccuracyCategoryPositionV1.ToString Text.bds62NavigationalAccuracyCategoryPositionV1 (by decide +kernel) c

/-- pkg/bds/bds62/fields/navigational_accuracy_category_position_v2.go:46 -/
@[shown_text] theorem shown_bds62NavigationalAccuracyCategoryPositionV2 (c : UInt8) : Shown.bds.bds62.fields.NavigationalAccuracyCategoryPositionV2.ToString c = Text.bds62NavigationalAccuracyCategoryPositionV2 c := by
  first
  | simp only [Shown.bds.bds62.fields.NavigationalAccuracyCategoryPositionV2.ToString, Text.bds62NavigationalAccuracyCategoryPositionV2, tableText_cons, tableText_nil, Nat.reduceLT]; rfl
  | exact every_byte Shown.bds.bds62.fields.NavigationalAccuracyCategoryPositionV2.ToString Text.bds62NavigationalAccuracyCategoryPositionV2 (by decide +kernel) c

/-- pkg/bds/bds62/fields/nic_baro.go:22 -/
@[shown_text] theorem shown_bds62NICBaro (c : UInt8) : Shown.bds.bds62.fields.NICBaro.ToString c = Text.bds62NICBaro c := by
  first
  | simp only [Shown.bds.bds62.fields.NICBaro.ToString, Text.bds62NICBaro, tableText_cons, tableText_nil, Nat.reduceLT]; rfl
  | exact every_byte Shown.bds.bds62.fields.NICBaro.ToString Text.bds62NICBaro (by decide +kernel) c

/-- pkg/bds/bds62/fields/numeric_value_status.go:18 -/
@[shown_text] theorem shown_bds62NumericValueStatus (c : NumericValueStatus) : Shown.bds.bds62.fields.NumericValueStatus.ToString c = c.text := by
  cases c <;> rfl

/-- pkg/bds/bds62/fields/selected_altitude_type.go:18 -/
@[shown_text] theorem shown_bds62SelectedAltitudeType (c : UInt8) : Shown.bds.bds62.fields.SelectedAltitudeType.ToString c = Text.bds62SelectedAltitudeType c := by
  first
  | simp only [Shown.bds.bds62.fields.SelectedAltitudeType.ToString, Text.bds62SelectedAltitudeType, tableText_cons, tableText_nil, Nat.reduceLT]; rfl
  | exact every_byte Shown.bds.bds62.fields.SelectedAltitudeType.ToString Text.bds62SelectedAltitudeType (by decide +kernel) c

/-- pkg/bds/bds62/fields/selected_heading.go:21 -/
@[shown_text] theorem shown_bds62SelectedHeadingStatus (c : UInt8) : Shown.bds.bds62.fields.SelectedHeadingStatus.ToString c = Text.bds62SelectedHeadingStatus c := by
  first
  | simp only [Shown.bds.bds62.fields.SelectedHeadingStatus.ToString, Text.bds62SelectedHeadingStatus, tableText_cons, tableText_nil, Nat.reduceLT]; rfl
  | exact every_byte Shown.bds.bds62.fields.SelectedHeadingStatus.ToString Text.bds62SelectedHeadingStatus (by decide +kernel) c

/-- pkg/bds/bds62/fields/source_integrity_level.go:22 -/
@[shown_text] theorem shown_bds62SourceIntegrityLevel (c : UInt8) : Shown.bds.bds62.fields.SourceIntegrityLevel.ToString c = Text.bds62SourceIntegrityLevel c := by
  first
  | simp only [Shown.bds.bds62.fields.SourceIntegrityLevel.ToString, Text.bds62SourceIntegrityLevel, tableText_cons, tableText_nil, Nat.reduceLT]; rfl
  | exact every_byte Shown.bds.bds62.fields.SourceIntegrityLevel.ToString Text.bds62SourceIntegrityLevel (by decide +kernel) c

/-- pkg/bds/bds62/fields/source_integrity_level_supplement.go:18 -/
@[shown_text] theorem shown_bds62SourceIntegrityLevelSupplement (c : UInt8) : Shown.bds.bds62.fields.SourceIntegrityLevelSupplement.ToString c = Text.bds62SourceIntegrityLevelSupplement c := by
  first
  | simp only [Shown.bds.bds62.fields.SourceIntegrityLevelSupplement.ToString, Text.bds62SourceIntegrityLevelSupplement, tableText_cons, tableText_nil, Nat.reduceLT]; rfl
  | exact every_byte Shown.bds.bds62.fields.SourceIntegrityLevelSupplement.ToString Text.bds62SourceIntegrityLevelSupplement (by decide +kernel) c

/-- pkg/bds/bds62/fields/status_mcp_fcu_bits.go:20 -/
@[shown_text] theorem shown_bds62StatusMCPFCUBits (c : UInt8) : Shown.bds.bds62.fields.StatusMCPFCUBits.ToString c = Text.bds62StatusMCPFCUBits c := by
  first
  | simp only [Shown.bds.bds62.fields.StatusMCPFCUBits.ToString, Text.bds62StatusMCPFCUBits, tableText_cons, tableText_nil, Nat.reduceLT]; rfl
  | exact every_byte Shown.bds.bds62.fields.StatusMCPFCUBits.ToString Text.bds62StatusMCPFCUBits (by decide +kernel) c

/-- pkg/bds/bds62/fields/subtype.go:24 -/
@[shown_text] theorem shown_bds62Subtype (c : UInt8) : Shown.bds.bds62.fields.Subtype.ToString c = Text.bds62Subtype c := by
  first
  | simp only [Shown.bds.bds62.fields.Subtype.ToString, Text.bds62Subtype, tableText_cons, tableText_nil, Nat.reduceLT]; rfl
  | exact every_byte Shown.bds.bds62.fields.Subtype.ToString Text.bds62Subtype (by decide +kernel) c

/-- pkg/bds/bds62/fields/target_altitude_capability.go:24 -/
@[shown_text] theorem shown_bds62TargetAltitudeCapability (c : UInt8) : Shown.bds.bds62.fields.TargetAltitudeCapability.ToString c = Text.bds62TargetAltitudeCapability c := by
  first
  | simp only [Shown.bds.bds62.fields.TargetAltitudeCapability.ToString, Text.bds62TargetAltitudeCapability, tableText_cons, tableText_nil, Nat.reduceLT]; rfl
  | exact every_byte Shown.bds.bds62.fields.TargetAltitudeCapability.ToString Text.bds62TargetAltitudeCapability (by decide +kernel) c

/-- pkg/bds/bds62/fields/target_altitude_type.go:18 -/
@[shown_text] theorem shown_bds62TargetAltitudeType (c : UInt8) : Shown.bds.bds62.fields.TargetAltitudeType.ToString c = Text.bds62TargetAltitudeType c := by
  first
  | simp only [Shown.bds.bds62.fields.TargetAltitudeType.ToString, Text.bds62TargetAltitudeType, tableText_cons, tableText_nil, Nat.reduceLT]; rfl
  | exact every_byte Shown.bds.bds62.fields.TargetAltitudeType.ToString Text.bds62TargetAltitudeType (by decide +kernel) c

/-- pkg/bds/bds62/fields/target_heading_track_angle.go:21 -/
@[shown_text] theorem shown_bds62TargetHeadingTrackIndicator (c : UInt8) : Shown.bds.bds62.fields.TargetHeadingTrackIndicator.ToString c = Text.bds62TargetHeadingTrackIndicator c := by
  first
  | simp only [Shown.bds.bds62.fields.TargetHeadingTrackIndicator.ToString, Text.bds62TargetHeadingTrackIndicator, tableText_cons, tableText_nil, Nat.reduceLT]; rfl
  | exact every_byte Shown.bds.bds62.fields.TargetHeadingTrackIndicator.ToString Text.bds62TargetHeadingTrackIndicator (by decide +kernel) c

/-- pkg/bds/bds62/fields/vertical_data_source_indicator.go:22 -/
@[shown_text] theorem shown_bds62VerticalDataAvailableSourceIndicator (c : UInt8) : Shown.bds.bds62.fields.VerticalDataAvailableSourceIndicator.ToString c = Text.bds62VerticalDataAvailableSourceIndicator c := by
  first
  | simp only [Shown.bds.bds62.fields.VerticalDataAvailableSourceIndicator.ToString, Text.bds62VerticalDataAvailableSourceIndicator, tableText_cons, tableText_nil, Nat.reduceLT]; rfl
  | exact every_byte Shown.bds.bds62.fields.VerticalDataAvailableSourceIndicator.ToString Text.bds62VerticalDataAvailableSourceIndicator (by decide +kernel) c

/-- pkg/bds/bds62/fields/vertical_mode_indicator.go:22 -/
@[shown_text] theorem shown_bds62VerticalModeIndicator (c : UInt8) : Shown.bds.bds62.fields.VerticalModeIndicator.ToString c = Text.bds62VerticalModeIndicator c := by
  first
  | simp only [Shown.bds.bds62.fields.VerticalModeIndicator.ToString, Text.bds62VerticalModeIndicator, tableText_cons, tableText_nil, Nat.reduceLT]; rfl
  | exact every_byte Shown.bds.bds62.fields.VerticalModeIndicator.ToString Text.bds62VerticalModeIndicator (by decide +kernel) c

/-- pkg/bds/bds65/fields/acas_operational.go:18 -/
@[shown_text] theorem shown_bds65ACASOperational (c : UInt8) : Shown.bds.bds65.fields.ACASOperational.ToString c = Text.bds65ACASOperational c := by
  first
  | simp only [Shown.bds.bds65.fields.ACASOperational.ToString, Text.bds65ACASOperational, tableText_cons, tableText_nil, Nat.reduceLT]; rfl
  | exact every_byte Shown.bds.bds65.fields.ACASOperational.ToString Text.bds65ACASOperational (by decide +kernel) c

/-- pkg/bds/bds65/fields/acas_resolution_advisory_active_v1.go:18 -/
@[shown_text] theorem shown_bds65ACASResolutionAdvisoryActiveV1 (c : UInt8) : Shown.bds.bds65.fields.ACASResolutionAdvisoryActiveV1.ToString c = Text.bds65ACASResolutionAdvisoryActiveV1 c := by
  first
  | simp only [Shown.bds.bds65.fields.ACASResolutionAdvisoryActiveV1.ToString, Text.bds65ACASResolutionAdvisoryActiveV1, tableText_cons, tableText_nil, Nat.reduceLT]; rfl
  | exact every_byte Shown.bds.bds65.fields.ACASResolutionAdvisoryActiveV1.ToString Text.bds65ACASResolutionAdvisoryActiveV1 (by decide +kernel) c

/-- pkg/bds/bds65/fields/acas_resolution_advisory_active_v2.go:18 -/
@[shown_text] theorem shown_bds65ACASResolutionAdvisoryActiveV2 (c : UInt8) : Shown.bds.bds65.fields.ACASResolutionAdvisoryActiveV2.ToString c = Text.bds65ACASResolutionAdvisoryActiveV2 c := by
  first
  | simp only [Shown.bds.bds65.fields.ACASResolutionAdvisoryActiveV2.ToString, Text.bds65ACASResolutionAdvisoryActiveV2, tableText_cons, tableText_nil, Nat.reduceLT]; rfl
  | exact every_byte Shown.bds.bds65.fields.ACASResolutionAdvisoryActiveV2.ToString Text.bds65ACASResolutionAdvisoryActiveV2 (by decide +kernel) c

/-- pkg/bds/bds65/fields/air_referenced_velocity_report_capability.go:18 -/
@[shown_text] theorem shown_bds65AirReferencedVelocityReportCapability (c : UInt8) : Shown.bds.bds65.fields.AirReferencedVelocityReportCapability.ToString c = Text.bds65AirReferencedVelocityReportCapability c := by
  first
  | simp only [Shown.bds.bds65.fields.AirReferencedVelocityReportCapability.ToString, Text.bds65AirReferencedVelocityReportCapability, tableText_cons, tableText_nil, Nat.reduceLT]; rfl
  | exact every_byte Shown.bds.bds65.fields.AirReferencedVelocityReportCapability.ToString Text.bds65AirReferencedVelocityReportCapability (by decide +kernel) c

/-- pkg/bds/bds65/fields/approach_landing_operational_capabilities.go:46 -/
@[shown_text] theorem shown_bds65ApproachLandingOperationalCapabilities (c : UInt8) : Shown.bds.bds65.fields.ApproachLandingOperationalCapabilities.ToString c = Text.bds65ApproachLandingOperationalCapabilities c := by
  first
  | simp only [Shown.bds.bds65.fields.ApproachLandingOperationalCapabilities.ToString, Text.bds65ApproachLandingOperationalCapabilities, tableText_cons, tableText_nil, Nat.reduceLT]; rfl
  | exact every_byte Shown.bds.bds65.fields.ApproachLandingOperationalCapabilities.ToString Text.bds65ApproachLandingOperationalCapabilities (by decide +kernel) c

/-- pkg/bds/bds65/fields/approach_landing_operational_capability_status.go:46 -/
@[shown_text] theorem shown_bds65ApproachLandingOperationalCapabilityStatus (c : UInt8) : Shown.bds.bds65.fields.ApproachLandingOperationalCapabilityStatus.ToString c = Text.bds65ApproachLandingOperationalCapabilityStatus c := by
  first
  | simp only [Shown.bds.bds65.fields.ApproachLandingOperationalCapabilityStatus.ToString, Text.bds65ApproachLandingOperationalCapabilityStatus, tableText_cons, tableText_nil, Nat.reduceLT]; rfl
  | exact every_byte Shown.bds.bds65.fields.ApproachLandingOperationalCapabilityStatus.ToString Text.bds65ApproachLandingOperationalCapabilityStatus (by decide +kernel) c

/-- pkg/bds/bds65/fields/b2_low.go:18 -/
@[shown_text] theorem shown_bds65B2Low (c : UInt8) : Shown.bds.bds65.fields.B2Low.ToString c = Text.bds65B2Low c := by
  first
  | simp only [Shown.bds.bds65.fields.B2Low.ToString, Text.bds65B2Low, tableText_cons, tableText_nil, Nat.reduceLT]; rfl
  | exact every_byte Shown.bds.bds65.fields.B2Low.ToString Text.bds65B2Low (by decide +kernel) c

/-- pkg/bds/bds65/fields/cockpit_display_traffic_information_status.go:18 -/
@[shown_text] theorem shown_bds65CockpitDisplayOfTrafficInformationStatus (c : UInt8) : Shown.bds.bds65.fields.CockpitDisplayOfTrafficInformationStatus.ToString c = Text.bds65CockpitDisplayOfTrafficInformationStatus c := by
  first
  | simp only [Shown.bds.bds65.fields.CockpitDisplayOfTrafficInformationStatus.ToString, Text.bds65CockpitDisplayOfTrafficInformationStatus, tableText_cons, tableText_nil, Nat.reduceLT]; rfl
  | exact every_byte Shown.bds.bds65.fields.CockpitDisplayOfTrafficInformationStatus.ToString Text.bds65CockpitDisplayOfTrafficInformationStatus (by decide +kernel) c

/-- pkg/bds/bds65/fields/en_route_operational_capabilities.go:46 -/
@[shown_text] theorem shown_bds65EnRouteOperationalCapabilities (c : UInt8) : Shown.bds.bds65.fields.EnRouteOperationalCapabilities.ToString c = Text.bds65EnRouteOperationalCapabilities c := by
  first
  | simp only [Shown.bds.bds65.fields.EnRouteOperationalCapabilities.ToString, Text.bds65EnRouteOperationalCapabilities, tableText_cons, tableText_nil, Nat.reduceLT]; rfl
  | exact every_byte Shown.bds.bds65.fields.EnRouteOperationalCapabilities.ToString Text.bds65EnRouteOperationalCapabilities (by decide +kernel) c

/-- pkg/bds/bds65/fields/en_route_operational_capability_status.go:46 -/
@[shown_text] theorem shown_bds65EnRouteOperationalCapabilityStatus (c : UInt8) : Shown.bds.bds65.fields.EnRouteOperationalCapabilityStatus.ToString c = Text.bds65EnRouteOperationalCapabilityStatus c := by
  first
  | simp only [Shown.bds.bds65.fields.EnRouteOperationalCapabilityStatus.ToString, Text.bds65EnRouteOperationalCapabilityStatus, tableText_cons, tableText_nil, Nat.reduceLT]; rfl
  | exact every_byte Shown.bds.bds65.fields.EnRouteOperationalCapabilityStatus.ToString Text.bds65EnRouteOperationalCapabilityStatus (by decide +kernel) c

/-- pkg/bds/bds65/fields/extended_squitter_in.go:18 -/
@[shown_text] theorem shown_bds65ExtendedSquitterIn (c : UInt8) : Shown.bds.bds65.fields.ExtendedSquitterIn.ToString c = Text.bds65ExtendedSquitterIn c := by
  first
  | simp only [Shown.bds.bds65.fields.ExtendedSquitterIn.ToString, Text.bds65ExtendedSquitterIn, tableText_cons, tableText_nil, Nat.reduceLT]; rfl
  | exact every_byte Shown.bds.bds65.fields.ExtendedSquitterIn.ToString Text.bds65ExtendedSquitterIn (by decide +kernel) c

/-- pkg/bds/bds65/fields/geometric_vertical_accuracy.go:22 -/
@[shown_text] theorem shown_bds65GeometricVerticalAccuracy (c : UInt8) : Shown.bds.bds65.fields.GeometricVerticalAccuracy.ToString c = Text.bds65GeometricVerticalAccuracy c := by
  first
  | simp only [Shown.bds.bds65.fields.GeometricVerticalAccuracy.ToString, Text.bds65GeometricVerticalAccuracy, tableText_cons, tableText_nil, Nat.reduceLT]; rfl
  | exact every_byte Shown.bds.bds65.fields.GeometricVerticalAccuracy.ToString Text.bds65GeometricVerticalAccuracy (by decide +kernel) c

/-- pkg/bds/bds65/fields/gps_antenna_lateral.go:30 -/
@[shown_text] theorem shown_bds65GPSAntennaLateral (c : UInt8) : Shown.bds.bds65.fields.GPSAntennaLateral.ToString c = Text.bds65GPSAntennaLateral c := by
  first
  | simp only [Shown.bds.bds65.fields.GPSAntennaLateral.ToString, Text.bds65GPSAntennaLateral, tableText_cons, tableText_nil, Nat.reduceLT]; rfl
  | exact every_byte Shown.bds.bds65.fields.GPSAntennaLateral.ToString Text.bds65GPSAntennaLateral (by decide +kernel) c

/-- pkg/bds/bds65/fields/horizontal_reference_direction.go:18 -/
@[shown_text] theorem shown_bds65HorizontalReferenceDirection (c : UInt8) : Shown.bds.bds65.fields.HorizontalReferenceDirection.ToString c = Text.bds65HorizontalReferenceDirection c := by
  first
  | simp only [Shown.bds.bds65.fields.HorizontalReferenceDirection.ToString, Text.bds65HorizontalReferenceDirection, tableText_cons, tableText_nil, Nat.reduceLT]; rfl
  | exact every_byte Shown.bds.bds65.fields.HorizontalReferenceDirection.ToString Text.bds65HorizontalReferenceDirection (by decide +kernel) c

/-- pkg/bds/bds65/fields/ident_switch_active.go:18 -/
@[shown_text] theorem shown_bds65IdentSwitchActive (c : UInt8) : Shown.bds.bds65.fields.IdentSwitchActive.ToString c = Text.bds65IdentSwitchActive c := by
  first
  | simp only [Shown.bds.bds65.fields.IdentSwitchActive.ToString, Text.bds65IdentSwitchActive, tableText_cons, tableText_nil, Nat.reduceLT]; rfl
  | exact every_byte Shown.bds.bds65.fields.IdentSwitchActive.ToString Text.bds65IdentSwitchActive (by decide +kernel) c

/-- pkg/bds/bds65/fields/length_width.go:46 -/
@[shown_text] theorem shown_bds65LengthWidth (c : UInt8) : Shown.bds.bds65.fields.LengthWidth.ToString c = Text.bds65LengthWidth c := by
  first
  | simp only [Shown.bds.bds65.fields.LengthWidth.ToString, Text.bds65LengthWidth, tableText_cons, tableText_nil, Nat.reduceLT]; rfl
  | exact every_byte Shown.bds.bds65.fields.LengthWidth.ToString Text.bds65LengthWidth (by decide +kernel) c

/-- pkg/bds/bds65/fields/navigational_accuracy_category_position_v1.go:46 -/
@[shown_text] theorem shown_bds65NavigationalAccuracyCategoryPositionV1 (c : UInt8) : Shown.bds.bds65.fields.NavigationalAccuracyCategoryPositionV1.ToString c = Text.bds65NavigationalAccuracyCategoryPositionV1 c := by
  first
  | simp only [Shown.bds.bds65.fields.NavigationalAccuracyCategoryPositionV1.ToString, Text.bds65NavigationalAccuracyCategoryPositionV1, tableText_cons, tableText_nil, Nat.reduceLT]; rfl
  | exact every_byte Shown.bds.bds65.fields.NavigationalAccuracyCategoryPositionV1.ToString Text.bds65NavigationalAccuracyCategoryPositionV1 (by decide +kernel) c

/-- pkg/bds/bds65/fields/navigational_accuracy_category_position_v2.go:46 -/
@[shown_text] theorem shown_bds65NavigationalAccuracyCategoryPositionV2 (c : UInt8) : Shown.bds.bds65.fields.NavigationalAccuracyCategoryPositionV2.ToString c = Text.bds65NavigationalAccuracyCategoryPositionV2 c := by
  first
  | simp only [Shown.bds.bds65.fields.NavigationalAccuracyCategoryPositionV2.ToString, Text.bds65NavigationalAccuracyCategoryPositionV2, tableText_cons, tableText_nil, Nat.reduceLT]; rfl
  | exact every_byte Shown.bds.bds65.fields.NavigationalAccuracyCategoryPositionV2.ToString Text.bds65NavigationalAccuracyCategoryPositionV2 (by decide +kernel) c

/-- pkg/bds/bds65/fields/nic_baro.go:22 -/
@[shown_text] theorem shown_bds65NICBaro (c : UInt8) : Shown.bds.bds65.fields.NICBaro.ToString c = Text.bds65NICBaro c := by
  first
  | simp only [Shown.bds.bds65.fields.NICBaro.ToString, Text.bds65NICBaro, tableText_cons, tableText_nil, Nat.reduceLT]; rfl
  | exact every_byte Shown.bds.bds65.fields.NICBaro.ToString Text.bds65NICBaro (by decide +kernel) c

/-- pkg/bds/bds65/fields/nic_supplement_a.go:18 -/
@[shown_text] theorem shown_bds65NICSupplementA (c : UInt8) : Shown.bds.bds65.fields.NICSupplementA.ToString c = Text.bds65NICSupplementA c := by
  first
  | simp only [Shown.bds.bds65.fields.NICSupplementA.ToString, Text.bds65NICSupplementA, tableText_cons, tableText_nil, Nat.reduceLT]; rfl
  | exact every_byte Shown.bds.bds65.fields.NICSupplementA.ToString Text.bds65NICSupplementA (by decide +kernel) c

/-- pkg/bds/bds65/fields/nic_supplement_c.go:18 -/
@[shown_text] theorem shown_bds65NICSupplementC (c : UInt8) : Shown.bds.bds65.fields.NICSupplementC.ToString c = Text.bds65NICSupplementC c := by
  first
  | simp only [Shown.bds.bds65.fields.NICSupplementC.ToString, Text.bds65NICSupplementC, tableText_cons, tableText_nil, Nat.reduceLT]; rfl
  | exact every_byte Shown.bds.bds65.fields.NICSupplementC.ToString Text.bds65NICSupplementC (by decide +kernel) c

/-- pkg/bds/bds65/fields/not_acas_status.go:18 -/
@[shown_text] theorem shown_bds65NotACASStatus (c : UInt8) : Shown.bds.bds65.fields.NotACASStatus.ToString c = Text.bds65NotACASStatus c := by
  first
  | simp only [Shown.bds.bds65.fields.NotACASStatus.ToString, Text.bds65NotACASStatus, tableText_cons, tableText_nil, Nat.reduceLT]; rfl
  | exact every_byte Shown.bds.bds65.fields.NotACASStatus.ToString Text.bds65NotACASStatus (by decide +kernel) c

/-- pkg/bds/bds65/fields/position_offset_applied.go:18 -/
@[shown_text] theorem shown_bds65PositionOffsetApplied (c : UInt8) : Shown.bds.bds65.fields.PositionOffsetApplied.ToString c = Text.bds65PositionOffsetApplied c := by
  first
  | simp only [Shown.bds.bds65.fields.PositionOffsetApplied.ToString, Text.bds65PositionOffsetApplied, tableText_cons, tableText_nil, Nat.reduceLT]; rfl
  | exact every_byte Shown.bds.bds65.fields.PositionOffsetApplied.ToString Text.bds65PositionOffsetApplied (by decide +kernel) c

/-- pkg/bds/bds65/fields/receiving_atc_services.go:18 -/
@[shown_text] theorem shown_bds65ReceivingATCServices (c : UInt8) : Shown.bds.bds65.fields.ReceivingATCServices.ToString c = Text.bds65ReceivingATCServices c := by
  first
  | simp only [Shown.bds.bds65.fields.ReceivingATCServices.ToString, Text.bds65ReceivingATCServices, tableText_cons, tableText_nil, Nat.reduceLT]; rfl
  | exact every_byte Shown.bds.bds65.fields.ReceivingATCServices.ToString Text.bds65ReceivingATCServices (by decide +kernel) c

/-- pkg/bds/bds65/fields/single_antenna_flag.go:18 -/
@[shown_text] theorem shown_bds65SingleAntennaFlag (c : UInt8) : Shown.bds.bds65.fields.SingleAntennaFlag.ToString c = Text.bds65SingleAntennaFlag c := by
  first
  | simp only [Shown.bds.bds65.fields.SingleAntennaFlag.ToString, Text.bds65SingleAntennaFlag, tableText_cons, tableText_nil, Nat.reduceLT]; rfl
  | exact every_byte Shown.bds.bds65.fields.SingleAntennaFlag.ToString Text.bds65SingleAntennaFlag (by decide +kernel) c

/-- pkg/bds/bds65/fields/source_integrity_level.go:22 -/
@[shown_text] theorem shown_bds65SourceIntegrityLevel (c : UInt8) : Shown.bds.bds65.fields.SourceIntegrityLevel.ToString c = Text.bds65SourceIntegrityLevel c := by
  first
  | simp only [Shown.bds.bds65.fields.SourceIntegrityLevel.ToString, Text.bds65SourceIntegrityLevel, tableText_cons, tableText_nil, Nat.reduceLT]; rfl
  | exact every_byte Shown.bds.bds65.fields.SourceIntegrityLevel.ToString Text.bds65SourceIntegrityLevel (by decide +kernel) c

/-- pkg/bds/bds65/fields/source_integrity_level_supplement.go:18 -/
@[shown_text] theorem shown_bds65SourceIntegrityLevelSupplement (c : UInt8) : Shown.bds.bds65.fields.SourceIntegrityLevelSupplement.ToString c = Text.bds65SourceIntegrityLevelSupplement c := by
  first
  | simp only [Shown.bds.bds65.fields.SourceIntegrityLevelSupplement.ToString, Text.bds65SourceIntegrityLevelSupplement, tableText_cons, tableText_nil, Nat.reduceLT]; rfl
  | exact every_byte Shown.bds.bds65.fields.SourceIntegrityLevelSupplement.ToString Text.bds65SourceIntegrityLevelSupplement (by decide +kernel) c

/-- pkg/bds/bds65/fields/subtype.go:20 -/
@[shown_text] theorem shown_bds65Subtype (c : UInt8) : Shown.bds.bds65.fields.Subtype.ToString c = Text.bds65Subtype c := by
  first
  | simp only [Shown.bds.bds65.fields.Subtype.ToString, Text.bds65Subtype, tableText_cons, tableText_nil, Nat.reduceLT]; rfl
  | exact every_byte Shown.bds.bds65.fields.Subtype.ToString Text.bds65Subtype (by decide +kernel) c

/-- pkg/bds/bds65/fields/surface_operational_capabilities.go:46 -/
@[shown_text] theorem shown_bds65SurfaceOperationalCapabilities (c : UInt8) : Shown.bds.bds65.fields.SurfaceOperationalCapabilities.ToString c = Text.bds65SurfaceOperationalCapabilities c := by
  first
  | simp only [Shown.bds.bds65.fields.SurfaceOperationalCapabilities.ToString, Text.bds65SurfaceOperationalCapabilities, tableText_cons, tableText_nil, Nat.reduceLT]; rfl
  | exact every_byte Shown.bds.bds65.fields.SurfaceOperationalCapabilities.ToString Text.bds65SurfaceOperationalCapabilities (by decide +kernel) c

/-- pkg/bds/bds65/fields/surface_operational_capability_status.go:46 -/
@[shown_text] theorem shown_bds65SurfaceOperationalCapabilityStatus (c : UInt8) : Shown.bds.bds65.fields.SurfaceOperationalCapabilityStatus.ToString c = Text.bds65SurfaceOperationalCapabilityStatus c := by
  first
  | simp only [Shown.bds.bds65.fields.SurfaceOperationalCapabilityStatus.ToString, Text.bds65SurfaceOperationalCapabilityStatus, tableText_cons, tableText_nil, Nat.reduceLT]; rfl
  | exact every_byte Shown.bds.bds65.fields.SurfaceOperationalCapabilityStatus.ToString Text.bds65SurfaceOperationalCapabilityStatus (by decide +kernel) c

/-- pkg/bds/bds65/fields/system_design_assurance.go:22 -/
@[shown_text] theorem shown_bds65SystemDesignAssurance (c : UInt8) : Shown.bds.bds65.fields.SystemDesignAssurance.ToString c = Text.bds65SystemDesignAssurance c := by
  first
  | simp only [Shown.bds.bds65.fields.SystemDesignAssurance.ToString, Text.bds65SystemDesignAssurance, tableText_cons, tableText_nil, Nat.reduceLT]; rfl
  | exact every_byte Shown.bds.bds65.fields.SystemDesignAssurance.ToString Text.bds65SystemDesignAssurance (by decide +kernel) c

/-- pkg/bds/bds65/fields/target_change_report_capability.go:22 -/
@[shown_text] theorem shown_bds65TargetChangeReportCapability (c : UInt8) : Shown.bds.bds65.fields.TargetChangeReportCapability.ToString c = Text.bds65TargetChangeReportCapability c := by
  first
  | simp only [Shown.bds.bds65.fields.TargetChangeReportCapability.ToString, Text.bds65TargetChangeReportCapability, tableText_cons, tableText_nil, Nat.reduceLT]; rfl
  | exact every_byte Shown.bds.bds65.fields.TargetChangeReportCapability.ToString Text.bds65TargetChangeReportCapability (by decide +kernel) c

/-- pkg/bds/bds65/fields/target_state_report_capability.go:18 -/
@[shown_text] theorem shown_bds65TargetStateReportCapability (c : UInt8) : Shown.bds.bds65.fields.TargetStateReportCapability.ToString c = Text.bds65TargetStateReportCapability c := by
  first
  | simp only [Shown.bds.bds65.fields.TargetStateReportCapability.ToString, Text.bds65TargetStateReportCapability, tableText_cons, tableText_nil, Nat.reduceLT]; rfl
  | exact every_byte Shown.bds.bds65.fields.TargetStateReportCapability.ToString Text.bds65TargetStateReportCapability (by decide +kernel) c

/-- pkg/bds/bds65/fields/terminal_area_operational_capabilities.go:46 -/
@[shown_text] theorem shown_bds65TerminalAreaOperationalCapabilities (c : UInt8) : Shown.bds.bds65.fields.TerminalAreaOperationalCapabilities.ToString c = Text.bds65TerminalAreaOperationalCapabilities c := by
  first
  | simp only [Shown.bds.bds65.fields.TerminalAreaOperationalCapabilities.ToString, Text.bds65TerminalAreaOperationalCapabilities, tableText_cons, tableText_nil, Nat.reduceLT]; rfl
  | exact every_byte Shown.bds.bds65.fields.TerminalAreaOperationalCapabilities.ToString Text.bds65TerminalAreaOperationalCapabilities (by decide +kernel) c

/-- pkg/bds/bds65/fields/terminal_area_operational_capability_status.go:46 -/
@[shown_text] theorem shown_bds65TerminalAreaOperationalCapabilityStatus (c : UInt8) : Shown.bds.bds65.fields.TerminalAreaOperationalCapabilityStatus.ToString c = Text.bds65TerminalAreaOperationalCapabilityStatus c := by
  first
  | simp only [Shown.bds.bds65.fields.TerminalAreaOperationalCapabilityStatus.ToString, Text.bds65TerminalAreaOperationalCapabilityStatus, tableText_cons, tableText_nil, Nat.reduceLT]; rfl
  | exact every_byte Shown.bds.bds65.fields.TerminalAreaOperationalCapabilityStatus.ToString Text.bds65TerminalAreaOperationalCapabilityStatus (by decide +kernel) c

/-- pkg/bds/bds65/fields/track_angle_heading.go:18 -/
@[shown_text] theorem shown_bds65TrackAngleHeading (c : UInt8) : Shown.bds.bds65.fields.TrackAngleHeading.ToString c = Text.bds65TrackAngleHeading c := by
  first
  | simp only [Shown.bds.bds65.fields.TrackAngleHeading.ToString, Text.bds65TrackAngleHeading, tableText_cons, tableText_nil, Nat.reduceLT]; rfl
  | exact every_byte Shown.bds.bds65.fields.TrackAngleHeading.ToString Text.bds65TrackAngleHeading (by decide +kernel) c

/-- pkg/bds/bds65/fields/universal_access_transceiver_capability.go:18 -/
@[shown_text] theorem shown_bds65UniversalAccessTransceiverCapability (c : UInt8) : Shown.bds.bds65.fields.UniversalAccessTransceiverCapability.ToString c = Text.bds65UniversalAccessTransceiverCapability c := by
  first
  | simp only [Shown.bds.bds65.fields.UniversalAccessTransceiverCapability.ToString, Text.bds65UniversalAccessTransceiverCapability, tableText_cons, tableText_nil, Nat.reduceLT]; rfl
  | exact every_byte Shown.bds.bds65.fields.UniversalAccessTransceiverCapability.ToString Text.bds65UniversalAccessTransceiverCapability (by decide +kernel) c

/-- pkg/modes/fields/altitude_code.go:107 -/
@[shown_text] theorem shown_modesAltitudeReportMethod (c : AltitudeReportMethod) : Shown.modes.fields.AltitudeReportMethod.ToString c = c.text := by
  cases c <;> rfl

/-- pkg/modes/fields/application_field.go:45 -/
@[shown_text] theorem shown_modesApplicationField (c : UInt8) : Shown.modes.fields.ApplicationField.ToString c = Text.modesApplicationField c := by
  first
  | simp only [Shown.modes.fields.ApplicationField.ToString, Text.modesApplicationField, tableText_cons, tableText_nil, Nat.reduceLT]; rfl
  | exact every_byte Shown.modes.fields.ApplicationField.ToString Text.modesApplicationField (by decide +kernel) c

/-- pkg/modes/fields/capability.go:49 -/
@[shown_text] theorem shown_modesCapability (c : UInt8) : Shown.modes.fields.Capability.ToString c = Text.modesCapability c := by
  first
  | simp only [Shown.modes.fields.Capability.ToString, Text.modesCapability, tableText_cons, tableText_nil, Nat.reduceLT]; rfl
  | exact every_byte Shown.modes.fields.Capability.ToString Text.modesCapability (by decide +kernel) c

/-- pkg/modes/fields/control_elm.go:35 -/
@[shown_text] theorem shown_modesControlELM (c : UInt8) : Shown.modes.fields.ControlELM.ToString c = Text.modesControlELM c := by
  first
  | simp only [Shown.modes.fields.ControlELM.ToString, Text.modesControlELM, tableText_cons, tableText_nil, Nat.reduceLT]; rfl
  | exact every_byte Shown.modes.fields.ControlELM.ToString Text.modesControlELM (by decide +kernel) c

/-- pkg/modes/fields/control_field.go:45 -/
@[shown_text] theorem shown_modesControlField (c : UInt8) : Shown.modes.fields.ControlField.ToString c = Text.modesControlField c := by
  first
  | simp only [Shown.modes.fields.ControlField.ToString, Text.modesControlField, tableText_cons, tableText_nil, Nat.reduceLT]; rfl
  | exact every_byte Shown.modes.fields.ControlField.ToString Text.modesControlField (by decide +kernel) c

/-- pkg/modes/fields/cross_link_compatibility.go:37 -/
@[shown_text] theorem shown_modesCrossLinkCompatibility (c : UInt8) : Shown.modes.fields.CrossLinkCompatibility.ToString c = Text.modesCrossLinkCompatibility c := by
  first
  | simp only [Shown.modes.fields.CrossLinkCompatibility.ToString, Text.modesCrossLinkCompatibility, tableText_cons, tableText_nil, Nat.reduceLT]; rfl
  | exact every_byte Shown.modes.fields.CrossLinkCompatibility.ToString Text.modesCrossLinkCompatibility (by decide +kernel) c

/-- pkg/modes/fields/downlink_request.go:93 -/
@[shown_text] theorem shown_modesDownlinkRequest (c : UInt8) : Shown.modes.fields.DownlinkRequest.ToString c = Text.modesDownlinkRequest c := by
  first
  | simp only [Shown.modes.fields.DownlinkRequest.ToString, Text.modesDownlinkRequest, tableText_cons, tableText_nil, Nat.reduceLT]; rfl
  | exact every_byte Shown.modes.fields.DownlinkRequest.ToString Text.modesDownlinkRequest (by decide +kernel) c

/-- pkg/modes/fields/flight_status.go:45 -/
@[shown_text] theorem shown_modesFlightStatus (c : UInt8) : Shown.modes.fields.FlightStatus.ToString c = Text.modesFlightStatus c := by
  first
  | simp only [Shown.modes.fields.FlightStatus.ToString, Text.modesFlightStatus, tableText_cons, tableText_nil, Nat.reduceLT]; rfl
  | exact every_byte Shown.modes.fields.FlightStatus.ToString Text.modesFlightStatus (by decide +kernel) c

/-- pkg/modes/fields/reply_information_air_air.go:72 -/
@[shown_text] theorem shown_modesReplyInformationAirAir (c : UInt8) : Shown.modes.fields.ReplyInformationAirAir.ToString c = Text.modesReplyInformationAirAir c := by
  first
  | simp only [Shown.modes.fields.ReplyInformationAirAir.ToString, Text.modesReplyInformationAirAir, tableText_cons, tableText_nil, Nat.reduceLT]; rfl
  | exact every_byte Shown.modes.fields.ReplyInformationAirAir.ToString Text.modesReplyInformationAirAir (by decide +kernel) c

/-- pkg/modes/fields/sensitivity_level_report.go:49 -/
@[shown_text] theorem shown_modesSensitivityLevelReport (c : UInt8) : Shown.modes.fields.SensitivityLevelReport.ToString c = Text.modesSensitivityLevelReport c := by
  first
  | simp only [Shown.modes.fields.SensitivityLevelReport.ToString, Text.modesSensitivityLevelReport, tableText_cons, tableText_nil, Nat.reduceLT]; rfl
  | exact every_byte Shown.modes.fields.SensitivityLevelReport.ToString Text.modesSensitivityLevelReport (by decide +kernel) c

/-- pkg/modes/fields/utility_message.go:55 -/
@[shown_text] theorem shown_modesUtilityMessageIdentifierDesignator (c : UInt8) : Shown.modes.fields.UtilityMessageIdentifierDesignator.ToString c = Text.modesUtilityMessageIdentifierDesignator c := by
  first
  | simp only [Shown.modes.fields.UtilityMessageIdentifierDesignator.ToString, Text.modesUtilityMessageIdentifierDesignator, tableText_cons, tableText_nil, Nat.reduceLT]; rfl
  | exact every_byte Shown.modes.fields.UtilityMessageIdentifierDesignator.ToString Text.modesUtilityMessageIdentifierDesignator (by decide +kernel) c

/-- pkg/modes/fields/vertical_status.go:35 -/
@[shown_text] theorem shown_modesVerticalStatus (c : UInt8) : Shown.modes.fields.VerticalStatus.ToString c = Text.modesVerticalStatus c := by
  first
  | simp only [Shown.modes.fields.VerticalStatus.ToString, Text.modesVerticalStatus, tableText_cons, tableText_nil, Nat.reduceLT]; rfl
  | exact every_byte Shown.modes.fields.VerticalStatus.ToString Text.modesVerticalStatus (by decide +kernel) c

end Modes
