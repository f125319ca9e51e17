import Verif.Model.TextRegisters
import Verif.Model.VelocityFloat
import Verif.Model.Main
/-!
# The computed speed and track, and the texts filled by loops, translated mechanically

Written by `tools/go2lean/velocity.py` from the text of /repo; not edited by hand. A `float64` or a `float32` is a real number with
its sign bit (which matters for zeros); the operations round as Go's do. `math.Atan2` is a parameter, the function of the signs and
magnitudes of its arguments, and its result has the sign of its first argument. `Props/TranslationVelocity` proves that the
functions of the model agree.
-/
set_option linter.unusedVariables false
noncomputable section
namespace Modes

/-- `float64(x)` for an integer. -/
def realOf (x : UInt16) : ℝ × Bool := (f64R (x.toNat : ℝ), false)
/-- A constant, exact until it is used. -/
def realConst (x : ℝ) : ℝ × Bool := (f64R x, decide (x < 0))
/-- `-x`. -/
def realNeg (x : ℝ × Bool) : ℝ × Bool := (-x.1, !x.2)
/-- `x * y`. -/
def realMul (x y : ℝ × Bool) : ℝ × Bool := (f64R (x.1 * y.1), x.2 != y.2)
/-- `x + y`: a sum that is zero has a minus sign only when both terms have one. -/
def realAdd (x y : ℝ × Bool) : ℝ × Bool := (f64R (x.1 + y.1), if x.1 + y.1 = 0 then x.2 && y.2 else decide (x.1 + y.1 < 0))
/-- `math.Sqrt(x)`, of a number that is not negative. -/
def realSqrt (x : ℝ × Bool) : ℝ × Bool := (f64R (Real.sqrt x.1), x.2)
/-- `math.Atan2(y, x)`, of whole numbers: `atan2` applied to their signs and magnitudes. -/
def realAtan2 (atan2 : Bool → Bool → ℕ → ℕ → ℝ) (y x : ℝ × Bool) : ℝ × Bool := (atan2 y.2 x.2 ⌊|y.1|⌋₊ ⌊|x.1|⌋₊, y.2)
/-- `float32(x)`. -/
def realTo32 (x : ℝ × Bool) : ℝ × Bool := (f32R x.1, x.2)
/-- `uint32(x)`: the whole part. -/
def realToUInt32 (x : ℝ × Bool) : UInt32 := UInt32.ofNat ⌊x.1⌋₊
/-- `%v` of a `float32`. -/
def FloatTexts.realText (F : FloatTexts) (x : ℝ × Bool) : List Char := if x.2 = true ∧ x.1 = 0 then F.minusZero else F.degrees x.1
/-- `x >> n` of a `uint16` by any count: zero when nothing is left. -/
def shiftRight16 (x : UInt16) (n : UInt64) : UInt16 := if n.toNat < 16 then x >>> UInt16.ofNat n.toNat else 0
/-- `s[i] = x`; a panic when there is no such element. -/
def setAt {α : Type} (s : List α) (i : ℕ) (x : α) : Go (List α) := if i < s.length then .ok (s.set i x) else goPanic

/-- `GetSpeed`, pkg/bds/bds09/airborne_velocity_ground_speed_normal.go:129-144. -/
def Gen.bds.bds09.AirborneVelocityGroundSpeedNormal.GetSpeed (message : GroundSpeedVelocity) : Except (List Char) UInt32 :=
  if message.velocityEWStatus ≠ .regular then .error (t! "velocity EW is not regular")
  else
    if message.velocityNSStatus ≠ .regular then .error (t! "velocity NS is not regular")
    else
      let velocityEW := realOf message.velocityEW
      let velocityNS := realOf message.velocityNS
      let speed := realSqrt (realAdd (realMul velocityEW velocityEW) (realMul velocityNS velocityNS))
      .ok (realToUInt32 speed)

/-- `GetTrack`, pkg/bds/bds09/airborne_velocity_ground_speed_normal.go:155-182. -/
def Gen.bds.bds09.AirborneVelocityGroundSpeedNormal.GetTrack (atan2 : Bool → Bool → ℕ → ℕ → ℝ) (message : GroundSpeedVelocity) : Except (List Char) (ℝ × Bool) :=
  if message.velocityEWStatus ≠ .regular then .error (t! "velocity EW is not regular")
  else
    if message.velocityNSStatus ≠ .regular then .error (t! "velocity NS is not regular")
    else
      let velocityEW := realOf message.velocityEW
      let velocityNS := realOf message.velocityNS
      let velocityEW := if message.directionEastWest = 1 then (realNeg velocityEW) else velocityEW
      let velocityNS := if message.directionNorthSouth = 1 then (realNeg velocityNS) else velocityNS
      let trackRadian := realAtan2 atan2 velocityEW velocityNS
      let trackDegree := (realMul trackRadian (realConst (180 / Real.pi)))
      let trackDegree := if trackDegree.1 < 0 then (realAdd trackDegree (realConst 360)) else trackDegree
      .ok (realTo32 trackDegree)

/-- `toSpeedString`, pkg/bds/bds09/airborne_velocity_ground_speed_normal.go:146-153. -/
def Gen.bds.bds09.AirborneVelocityGroundSpeedNormal.toSpeedString (message : GroundSpeedVelocity) : List Char :=
  match Gen.bds.bds09.AirborneVelocityGroundSpeedNormal.GetSpeed message with
  | .error err => t! "not computable: " ++ err
  | .ok speed => dec speed.toNat ++ t! " (knots)"

/-- `toTrackString`, pkg/bds/bds09/airborne_velocity_ground_speed_normal.go:184-191. -/
def Gen.bds.bds09.AirborneVelocityGroundSpeedNormal.toTrackString (F : FloatTexts) (message : GroundSpeedVelocity) : List Char :=
  match Gen.bds.bds09.AirborneVelocityGroundSpeedNormal.GetTrack F.atan2 message with
  | .error err => t! "not computable: " ++ err
  | .ok track => F.realText track ++ t! " (degrees)"

/-- `GetSpeed`, pkg/bds/bds09/airborne_velocity_ground_speed_supersonic.go:129-144. -/
def Gen.bds.bds09.AirborneVelocityGroundSpeedSupersonic.GetSpeed (message : GroundSpeedVelocity) : Except (List Char) UInt32 :=
  if message.velocityEWStatus ≠ .regular then .error (t! "velocity EW is not regular")
  else
    if message.velocityNSStatus ≠ .regular then .error (t! "velocity NS is not regular")
    else
      let velocityEW := realOf message.velocityEW
      let velocityNS := realOf message.velocityNS
      let speed := realSqrt (realAdd (realMul velocityEW velocityEW) (realMul velocityNS velocityNS))
      .ok (realToUInt32 speed)

/-- `GetTrack`, pkg/bds/bds09/airborne_velocity_ground_speed_supersonic.go:155-182. -/
def Gen.bds.bds09.AirborneVelocityGroundSpeedSupersonic.GetTrack (atan2 : Bool → Bool → ℕ → ℕ → ℝ) (message : GroundSpeedVelocity) : Except (List Char) (ℝ × Bool) :=
  if message.velocityEWStatus ≠ .regular then .error (t! "velocity EW is not regular")
  else
    if message.velocityNSStatus ≠ .regular then .error (t! "velocity NS is not regular")
    else
      let velocityEW := realOf message.velocityEW
      let velocityNS := realOf message.velocityNS
      let velocityEW := if message.directionEastWest = 1 then (realNeg velocityEW) else velocityEW
      let velocityNS := if message.directionNorthSouth = 1 then (realNeg velocityNS) else velocityNS
      let trackRadian := realAtan2 atan2 velocityEW velocityNS
      let trackDegree := (realMul trackRadian (realConst (180 / Real.pi)))
      let trackDegree := if trackDegree.1 < 0 then (realAdd trackDegree (realConst 360)) else trackDegree
      .ok (realTo32 trackDegree)

/-- `toSpeedString`, pkg/bds/bds09/airborne_velocity_ground_speed_supersonic.go:146-153. -/
def Gen.bds.bds09.AirborneVelocityGroundSpeedSupersonic.toSpeedString (message : GroundSpeedVelocity) : List Char :=
  match Gen.bds.bds09.AirborneVelocityGroundSpeedSupersonic.GetSpeed message with
  | .error err => t! "not computable: " ++ err
  | .ok speed => dec speed.toNat ++ t! " (knots)"

/-- `toTrackString`, pkg/bds/bds09/airborne_velocity_ground_speed_supersonic.go:184-191. -/
def Gen.bds.bds09.AirborneVelocityGroundSpeedSupersonic.toTrackString (F : FloatTexts) (message : GroundSpeedVelocity) : List Char :=
  match Gen.bds.bds09.AirborneVelocityGroundSpeedSupersonic.GetTrack F.atan2 message with
  | .error err => t! "not computable: " ++ err
  | .ok track => F.realText track ++ t! " (degrees)"

/-- `PrefixMultiLine`, pkg/common/printable.go:19-30. -/
def Gen.common.PrefixMultiLine (lines : List Char) («prefix» : List Char) : Go (List Char) := do
  let subLines := List.splitOn '\n' lines
  let newLines : List (List Char) := List.replicate subLines.length []
  let newLines ← List.foldlM (fun newLines ((line, i) : List Char × ℕ) => setAt newLines i («prefix» ++ line)) newLines subLines.zipIdx
  return (t! "\n").intercalate newLines

/-- `DTESubAddressStatuses.ToString`, pkg/bds/bds10/fields/dte_sub_address_statuses.go:15-25. A `uint` has 64 bits. -/
def Gen.bds.bds10.fields.DTESubAddressStatuses.ToString (dss : UInt16) : Go (List Char) := do
  let statuses : List (List Char) := List.replicate 16 []
  let statuses ← List.foldlM (fun statuses (i : UInt64) => do
    let bitShift : UInt64 := 15 - i
    let dteStatus : UInt16 := (shiftRight16 dss bitShift) &&& 0x01
    setAt statuses i.toNat (dec dteStatus.toNat)) statuses ((List.range 16).map UInt64.ofNat)
  return (t! ", ").intercalate statuses

end Modes
