import Verif.Props.TranslationTextsFields
import Verif.Props.TextCommB
import Verif.Props.Translation
/-!
# The texts that are not tables: the code and the model agree

`Shown.…` is the text of the code (Model/TranslationTexts).
-/
namespace Modes
open Spec

theorem linesText_two (l v : Txt) (x : Txt × Txt) (r : List (Txt × Txt)) :
    linesText ((l, v) :: x :: r) = l ++ (v ++ (t! "\n" ++ linesText (x :: r))) := by
  simp [linesText]

theorem linesText_one (l v : Txt) : linesText [(l, v)] = l ++ v := rfl

theorem linesText_append (a b : List (Txt × Txt)) (ha : a ≠ []) (hb : b ≠ []) :
    linesText (a ++ b) = linesText a ++ (t! "\n" ++ linesText b) := by
  induction a with
  | nil => exact absurd rfl ha
  | cons x a ih =>
    cases a with
    | nil =>
      obtain ⟨y, b, rfl⟩ := List.exists_cons_of_ne_nil hb
      obtain ⟨l, v⟩ := x
      rw [linesText_one]
      exact (linesText_two l v y b).trans (List.append_assoc l v _).symm
    | cons y a =>
      obtain ⟨l, v⟩ := x
      rw [List.cons_append, List.cons_append, linesText_two, linesText_two, ← List.cons_append, ih (List.cons_ne_nil _ _)]
      simp only [List.append_assoc]

theorem nest_ne {l : List (Txt × Txt)} (h : l ≠ []) : nest l ≠ [] := fun e => h (List.map_eq_nil_iff.1 e)

theorem labelled_ne (l : Txt) (a : List (Txt × Txt)) : labelled l a ≠ [] := by
  unfold labelled; split <;> exact List.cons_ne_nil _ _

theorem linesText_labelled (l : Txt) (a : List (Txt × Txt)) (ha : a ≠ []) : linesText (labelled l a) = l ++ linesText a := by
  obtain ⟨⟨b, v⟩, r, rfl⟩ := List.exists_cons_of_ne_nil ha
  unfold labelled
  cases r with
  | nil => exact List.append_assoc _ _ _
  | cons x r => rw [linesText_two, linesText_two, List.append_assoc]

theorem sil_ne (c : UInt8) : silLines c ≠ [] := by
  unfold silLines; repeat' split
  all_goals exact List.cons_ne_nil _ _

theorem sil62_ne (c : UInt8) : sil62Lines c ≠ [] := by
  unfold sil62Lines; repeat' split
  all_goals exact List.cons_ne_nil _ _

theorem activeRA_ne (m : ActiveRA) : m.lines ≠ [] := by
  cases m <;> exact List.cons_ne_nil _ _

/-- Some lines are given. -/
macro "lines_ne" : tactic =>
  `(tactic| repeat' first | exact List.cons_ne_nil _ _ | exact sil_ne _ | exact sil62_ne _ | exact activeRA_ne _ | exact labelled_ne _ _ | apply nest_ne |
      apply List.append_ne_nil_of_left_ne_nil)

/-- pkg/bds/bds62/target_state_and_status_type_0.go, type_1.go: GetSubtype -/
@[shown_text] theorem shown_subtype0 (m : TargetStateAndStatus0) : Gen.bds.bds62.TargetStateAndStatus0.GetSubtype m = m.subtype := rfl
@[shown_text] theorem shown_subtype1 (m : TargetStateAndStatus1) : Gen.bds.bds62.TargetStateAndStatus1.GetSubtype m = m.subtype := rfl

/-- pkg/bds/register/register_reference.go:26 -/
@[shown_text] theorem shown_register (r : Register) : Shown.bds.register.Register.ToString r = registerText r := rfl

/-- pkg/acas/ra/fields/active_resolution_advisory_one_or_same_separation.go:121: the same text for the two senses -/
@[shown_text] theorem shown_activeRASense (n : ℕ) : Shown.acas.ra.fields.ActiveRASense.ToString n = activeRASenseText n := rfl

/-- pkg/bds/bds65/fields/version_number.go:20 -/
@[shown_text] theorem shown_versionNumber (c : UInt8) : Shown.bds.bds65.fields.VersionNumber.ToString c = versionNumberText c := by
  simp only [Shown.bds.bds65.fields.VersionNumber.ToString, versionNumberText, tableText_cons, tableText_nil, Nat.reduceLT, List.append_nil]
  rfl

/-- pkg/bds/bds09/fields/navigation_uncertainty_category.go:27 -/
@[shown_text] theorem shown_navigationUncertainty (c : UInt8) :
    Shown.bds.bds09.fields.NavigationUncertaintyCategory.ToString c = navigationUncertaintyText c :=
  every_byte _ _ (by decide +kernel) c

/-- pkg/bds/bds65/fields/gps_antenna_longitudinal.go:85 -/
@[shown_text] theorem shown_gpsAntennaLongitudinal (c : UInt8) :
    Shown.bds.bds65.fields.GPSAntennaLongitudinal.ToString c = gpsAntennaLongitudinalText c :=
  every_byte _ _ (by decide +kernel) c

/-- pkg/bds/bds65/fields/gps_antenna.go:14 -/
@[shown_text] theorem shown_gpsAntenna (m : SurfaceOperationalMode) :
    Shown.bds.bds65.fields.GPSAntenna.ToString (m.gpsAntennaLateral, m.gpsAntennaLongitudinal) = linesText m.gpsLines := by
  unfold Shown.bds.bds65.fields.GPSAntenna.ToString SurfaceOperationalMode.gpsLines
  simp only [linesText_two, linesText_one, List.append_assoc, shown_text]

/-- pkg/bds/bds65/fields/surveillance_integrity_level.go:33 -/
@[shown_text] theorem shown_sil (c : UInt8) :
    Shown.bds.bds65.fields.SurveillanceIntegrityLevel.ToString c = linesText (silLines c) :=
  every_byte _ (fun c => linesText (silLines c)) (by decide +kernel) c

/-- pkg/bds/bds62/fields/surveillance_integrity_level.go:33 -/
@[shown_text] theorem shown_sil62 (c : UInt8) :
    Shown.bds.bds62.fields.SurveillanceIntegrityLevel.ToString c = linesText (sil62Lines c) :=
  every_byte _ (fun c => linesText (sil62Lines c)) (by decide +kernel) c

/-- pkg/acas/ra/fields/threat_identity_bearing.go:12 -/
@[shown_text] theorem shown_threatBearing (c : UInt8) : Shown.acas.ra.fields.ThreatIdentityBearing.ToString c = threatBearingText c :=
  every_byte _ _ (by decide +kernel) c

/-- pkg/acas/ra/fields/threat_identity_range.go:12 -/
@[shown_text] theorem shown_threatRange (F : FloatTexts) (c : UInt8) :
    Shown.acas.ra.fields.ThreatIdentityRange.ToString F c = threatRangeText F c := by
  unfold Shown.acas.ra.fields.ThreatIdentityRange.ToString threatRangeText
  rw [same_GetRange]

/-- pkg/acas/ra/fields/threat_identity_address.go:13 -/
@[shown_text] theorem shown_threatAddress (a : UInt32) : Shown.acas.ra.fields.ThreatIdentityAddress.ToString a = icaoAddressText a := by
  unfold Shown.acas.ra.fields.ThreatIdentityAddress.ToString icaoAddressText hexText
  simp [hexText]

/-- pkg/modes/common/address.go:10 -/
@[shown_text] theorem shown_icaoAddress (a : UInt32) : Shown.modes.common.ICAOAddress.ToString a = icaoAddressText a := by
  unfold Shown.modes.common.ICAOAddress.ToString icaoAddressText hexText
  simp [hexText]

/-- pkg/modes/fields/address_announced.go:32 -/
@[shown_text] theorem shown_addressAnnounced (a : UInt32) : Shown.modes.fields.AddressAnnounced.ToString a = addressAnnouncedText a := by
  unfold Shown.modes.fields.AddressAnnounced.ToString addressAnnouncedText hexText
  simp [hexText]

/-- pkg/modes/fields/identity.go:83 -/
@[shown_text] theorem shown_identity (x : List Char) : Shown.modes.fields.Identity.ToString x = identityText x := rfl

/-- pkg/modes/fields/message_acas.go:39 -/
@[shown_text] theorem shown_messageACAS (x : List UInt8) : Shown.modes.fields.MessageACAS.ToString x = messageACASText x := rfl

/-- pkg/modes/fields/number_of_d_segment.go:26 -/
@[shown_text] theorem shown_numberOfDSegment (x : UInt8) : Shown.modes.fields.NumberOfDSegment.ToString x = numberOfDSegmentText x := rfl

/-- pkg/modes/fields/utility_message.go:71 -/
@[shown_text] theorem shown_utilityMessage (u : UtilityMessage) : Shown.modes.fields.UtilityMessage.ToString u = u.text := by
  unfold Shown.modes.fields.UtilityMessage.ToString UtilityMessage.text
  simp only [shown_text, List.append_assoc]

/-- pkg/acas/ra/fields/threat_identity_altitude.go:87 -/
@[shown_text] theorem shown_threatAltitude (a : ThreatAltitude) : Shown.acas.ra.fields.ThreatIdentityAltitude.ToString a = a.text := by
  unfold Shown.acas.ra.fields.ThreatIdentityAltitude.ToString ThreatAltitude.text
  simp only [shown_text]

/-- The four sets of categories of aircraft, pkg/bds/bds08/fields/aircraft_category_set_a.go:35 and the same of the others -/
@[shown_text] theorem shown_category (c : AircraftCategory) : Shown.bds.bds08.fields.AircraftCategory.ToString c = c.text := by
  cases c <;> simp only [Shown.bds.bds08.fields.AircraftCategory.ToString, AircraftCategory.text, shown_text]

end Modes
