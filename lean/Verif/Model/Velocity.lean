import Verif.Model.BDS09
import Mathlib.Analysis.SpecialFunctions.Complex.Arg
/-!
# `pkg/bds/bds09`: ground speed and track computed from the components

`GetSpeed` is modelled with the rounding of every `float64` operation. In `GetTrack` the last three operations
(`math.Atan2`, the product with `180 / math.Pi` and the conversion to `float32`) are modelled without rounding, since
`math.Atan2` is not correctly rounded (`Model/VelocityFloat` has the roundings); the signed zeros it distinguishes are modelled.
-/
namespace Modes

/-- `GetSpeed`, airborne_velocity_ground_speed_normal.go:129-144 and airborne_velocity_ground_speed_supersonic.go:129-144
(identical). `none` is the error. -/
noncomputable def GroundSpeedVelocity.getSpeed (m : GroundSpeedVelocity) : Option ℕ :=
  if m.velocityEWStatus ≠ .regular then none
  else if m.velocityNSStatus ≠ .regular then none
  else
    let ew := f64 (m.velocityEW.toNat : ℚ)
    let ns := f64 (m.velocityNS.toNat : ℚ)
    some ⌊f64R (Real.sqrt ((f64 (f64 (ew * ew) + f64 (ns * ns)) : ℚ) : ℝ))⌋₊

/-- `math.Atan2` of `±y` and `±x` for magnitudes `y`, `x` and signs `yn`, `xn` (`true` for minus, also of zero): the
special cases documented in Go's math package for zero arguments, the angle otherwise. -/
noncomputable def goAtan2 (yn xn : Bool) (y x : ℕ) : ℝ :=
  if y = 0 then
    if xn then (if yn then -Real.pi else Real.pi) else 0
  else if x = 0 then
    if yn then -(Real.pi / 2) else Real.pi / 2
  else
    Complex.arg ⟨if xn then -(x : ℝ) else x, if yn then -(y : ℝ) else y⟩

/-- `GetTrack`, airborne_velocity_ground_speed_normal.go:155-182 and airborne_velocity_ground_speed_supersonic.go:155-182
(identical), in degrees; `none` is the error. Direction 1 is west, south (fields/velocity_ew.go:9-13,
fields/velocity_ns.go:9-13). -/
noncomputable def GroundSpeedVelocity.getTrack (m : GroundSpeedVelocity) : Option ℝ :=
  if m.velocityEWStatus ≠ .regular then none
  else if m.velocityNSStatus ≠ .regular then none
  else
    let trackRadian := goAtan2 (m.directionEastWest == 1) (m.directionNorthSouth == 1) m.velocityEW.toNat m.velocityNS.toNat
    let trackDegree := trackRadian * (180 / Real.pi)
    some (if trackDegree < 0 then trackDegree + 360 else trackDegree)

end Modes
