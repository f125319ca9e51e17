import Verif.Props.CodeVelocity
/-!
# Cases of the theorems of Props/CodeVelocity
-/
namespace Modes

/-- A message going west at 3 knots and north at 4. -/
def westward : GroundSpeedVelocity :=
  { formatTypeCode := 19, subtype := 1, intentChange := 0, ifrCapability := 0, navigationUncertaintyCategory := 0,
    directionEastWest := 1, velocityEWStatus := .regular, velocityEW := 3, directionNorthSouth := 0, velocityNSStatus := .regular,
    velocityNS := 4, verticalRateSource := 0, verticalRateStatus := .regular, verticalRate := 0, heightDifferenceStatus := .regular,
    heightDifference := 0 }

theorem sqrt25 : Nat.sqrt (3 ^ 2 + 4 ^ 2) = 5 := by
  rw [show 3 ^ 2 + 4 ^ 2 = 5 * 5 from rfl, Nat.sqrt_eq]

/-- Its speed is 5 knots. -/
example : Gen.bds.bds09.AirborneVelocityGroundSpeedNormal.GetSpeed westward = .ok 5 := by
  rw [code_ground_speed]
  exact ⟨rfl, rfl, sqrt25.symm⟩

/-- Without the north component there is none, and the error says so. -/
example : Gen.bds.bds09.AirborneVelocityGroundSpeedNormal.GetSpeed { westward with velocityNSStatus := .maximum } =
    .error "velocity NS is not regular".toList := by
  rw [code_ground_speed_refused]
  exact Or.inr ⟨rfl, by decide, rfl⟩

/-- A message going north with the bit of the west: the track is minus zero, and is printed so. -/
example (F : FloatTexts) (hF : AccurateAtan2 F.atan2) :
    ∃ t, Gen.bds.bds09.AirborneVelocityGroundSpeedNormal.GetTrack F.atan2 { westward with velocityEW := 0 } = .ok t ∧ t.2 = true ∧ t.1 = 0 := by
  obtain ⟨h, -⟩ := code_ground_track F.atan2 hF { westward with velocityEW := 0 }
  obtain ⟨a, -, -, -, -, t, ht, -⟩ := h ⟨rfl, rfl⟩
  exact ⟨t, ht, (same_GetTrack_sign F.atan2 hF _ t ht).2 rfl⟩

/-- A correctly rounded `math.Atan2` meets the hypothesis. -/
example : ∃ A, AccurateAtan2 A := ⟨_, accurateAtan2_rounded⟩

example : Gen.common.PrefixMultiLine "a\n\nbc".toList "> ".toList = .ok "> a\n> \n> bc".toList := by
  rw [same_PrefixMultiLine]; decide

example : Gen.bds.bds10.fields.DTESubAddressStatuses.ToString 0x8001 =
    .ok "1, 0, 0, 0, 0, 0, 0, 0, 0, 0, 0, 0, 0, 0, 0, 1".toList := by
  rw [same_DTESubAddressStatuses]; decide +kernel

end Modes
