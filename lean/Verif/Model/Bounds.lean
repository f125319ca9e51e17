import Verif.Model.Float
/-!
# Bounds of the codes of surface positions of version 0: `pkg/adsb/surface_position/fields`

A decimal constant of the code is the `float64` nearest to it.
-/
namespace Modes

/-- `ContainmentRadius.GetHorizontalContainmentLowerBound`, pkg/adsb/surface_position/fields/containment_radius.go:26-37. -/
def containmentLowerBound (cr : UInt8) : ℚ :=
  match cr.toNat with
  | 6 => f64 3
  | 7 => f64 10
  | 8 => f64 (926 / 10)
  | _ => f64 (-1)

/-- `ContainmentRadius.GetHorizontalContainmentHigherBound`, pkg/adsb/surface_position/fields/containment_radius.go:43-54. -/
def containmentHigherBound (cr : UInt8) : ℚ :=
  match cr.toNat with
  | 5 => f64 3
  | 6 => f64 10
  | 7 => f64 (926 / 10)
  | _ => f64 (-1)

/-- `HorizontalProtectionLimit.GetHPLLowerBound`, pkg/adsb/surface_position/fields/horizontal_protection_limit.go:25-32. -/
def hplLowerBound (hpl : UInt8) : ℚ :=
  match hpl.toNat with
  | 8 => f64 (1852 / 10)
  | _ => f64 (-1)

/-- `HorizontalProtectionLimit.GetHPLHigherBound`, pkg/adsb/surface_position/fields/horizontal_protection_limit.go:38-49. -/
def hplHigherBound (hpl : UInt8) : ℚ :=
  match hpl.toNat with
  | 5 => f64 (75 / 10)
  | 6 => f64 25
  | 7 => f64 (1852 / 10)
  | _ => f64 (-1)

end Modes
