import Verif.Model.Float
import Verif.Model.BDS05
/-!
# Numbers of the Comm-B registers
-/
namespace Modes

/-- The common shape of the signed parameters of the Comm-B registers:
`value := float32(n) * num / den; if negative { value = value - base }`, in `float32` arithmetic
(pkg/bds/bds50/fields/roll_angle.go:13-17, true_track_angle.go:13-17, track_angle_rate.go:11-15,
pkg/bds/bds60/fields/magnetic_heading.go:13-17). -/
def signedF32 (negative : Bool) (n : Nat) (num den base : ℚ) : ℚ :=
  let value := f32 (f32 (f32 (n : ℚ) * num) / den)
  if negative then f32 (value - base) else value

/-- `rate := int32(n) * k; if negative { rate = rate - base }` (pkg/bds/bds60/fields/barometric_altitude_rate.go:11-15; the
`int32` values stay below 2^15, no wrap-around). -/
def signedInt (negative : Bool) (n : Nat) (k base : Int) : Int :=
  if negative then (n : Int) * k - base else (n : Int) * k

end Modes
