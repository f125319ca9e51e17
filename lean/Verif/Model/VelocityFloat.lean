import Verif.Model.Velocity
/-!
# `pkg/bds/bds09`: the track with the rounding of every operation

`math.Atan2` is a parameter: the function of the signs and magnitudes of its arguments (the signs matter for zeros). The constant
`180 / math.Pi` is exact in Go until it is used, as a `float64`.
-/
namespace Modes

/-- The `float32` nearest to a real number. -/
noncomputable def f32R (x : ℝ) : ℝ := rnd 24 x

/-- `GetTrack`, airborne_velocity_ground_speed_normal.go:155-182 and airborne_velocity_ground_speed_supersonic.go:155-182 (identical), with roundings;
`none` is the error. The conversions of the components to `float64` are exact. -/
noncomputable def GroundSpeedVelocity.getTrackF (atan2F : Bool → Bool → ℕ → ℕ → ℝ) (m : GroundSpeedVelocity) : Option ℝ :=
  if m.velocityEWStatus ≠ .regular then none
  else if m.velocityNSStatus ≠ .regular then none
  else
    let trackRadian := atan2F (m.directionEastWest == 1) (m.directionNorthSouth == 1) m.velocityEW.toNat m.velocityNS.toNat
    let trackDegree := f64R (trackRadian * f64R (180 / Real.pi))
    some (f32R (if trackDegree < 0 then f64R (trackDegree + 360) else trackDegree))

end Modes
