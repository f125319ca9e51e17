import Verif.Model.Translation
import Verif.Model.Text
/-!
# The Go functions of `pkg` that return an error, translated mechanically with the words of the errors

Written by `tools/go2lean/words.py` from the text of /repo; not edited by hand. The translation is that of Model/Translation, but
a returned error keeps its text: `errors.New("…")` and `fmt.Errorf("…", x)` become `say (…)`. Functions that return no error
are those of Model/Translation.
-/
set_option linter.unusedVariables false
namespace Modes

/-- How a Go call can fail: by returning an error, with its text (`Error()`), or by panicking. -/
inductive Failing
  | err (words : Txt)
  | panic
  deriving DecidableEq

/-- Result of a Go function `(T, error)`: a value, an error with its words, or a panic. -/
abbrev Saying (α : Type) := Except Failing α

/-- A call of a function that returns no error. -/
def Saying.lift {α : Type} : Go α → Saying α
  | .ok a => .ok a
  | .error .err => .error (.err [])
  | .error .panic => .error .panic

instance : MonadLift Go Saying := ⟨Saying.lift⟩

/-- `return nil, errors.New(words)` -/
def say {α : Type} (words : Txt) : Saying α := .error (.err words)
/-- `x, err := f()`, then `return nil, errors.New(words)` when there is an error. -/
def saying {α : Type} (words : Txt) : Saying α → Saying α
  | .error (.err _) => .error (.err words)
  | r => r
/-- `m, err := f()` followed by a test of `err == nil`; a panic goes on. -/
def attemptSaid {α : Type} : Saying α → Saying (Option α)
  | .ok a => .ok (some a)
  | .error (.err _) => .ok none
  | .error .panic => .error .panic
/-- `m, err := f()` followed by a test of `err == nil` and, in the end, `return err`; a panic goes on. -/
def attemptWords {α : Type} : Saying α → Saying (Except Txt α)
  | .ok a => .ok (.ok a)
  | .error (.err words) => .ok (.error words)
  | .error .panic => .error .panic
/-- `f() == nil` for a function returning an error -/
def saysNothing (r : Saying Unit) : Bool := match r with | .ok _ => true | .error _ => false

/-- pkg/bitutils/gillham.go:6-68 -/
def Said.bitutils.GillhamToAltitude (d1 : Bool) (d2 : Bool) (d4 : Bool) (a1 : Bool) (a2 : Bool) (a4 : Bool) (b1 : Bool) (b2 : Bool) (b4 : Bool) (c1 : Bool) (c2 : Bool) (c4 : Bool) : Saying Int := do
  let fiveHundredBits : UInt16 := 0
  let fiveHundredBits := if d1 then
      let fiveHundredBits := fiveHundredBits ||| 256
      fiveHundredBits
    else
      fiveHundredBits
  let fiveHundredBits := if d2 then
      let fiveHundredBits := fiveHundredBits ||| 128
      fiveHundredBits
    else
      fiveHundredBits
  let fiveHundredBits := if d4 then
      let fiveHundredBits := fiveHundredBits ||| 64
      fiveHundredBits
    else
      fiveHundredBits
  let fiveHundredBits := if a1 then
      let fiveHundredBits := fiveHundredBits ||| 32
      fiveHundredBits
    else
      fiveHundredBits
  let fiveHundredBits := if a2 then
      let fiveHundredBits := fiveHundredBits ||| 16
      fiveHundredBits
    else
      fiveHundredBits
  let fiveHundredBits := if a4 then
      let fiveHundredBits := fiveHundredBits ||| 8
      fiveHundredBits
    else
      fiveHundredBits
  let fiveHundredBits := if b1 then
      let fiveHundredBits := fiveHundredBits ||| 4
      fiveHundredBits
    else
      fiveHundredBits
  let fiveHundredBits := if b2 then
      let fiveHundredBits := fiveHundredBits ||| 2
      fiveHundredBits
    else
      fiveHundredBits
  let fiveHundredBits := if b4 then
      let fiveHundredBits := fiveHundredBits ||| 1
      fiveHundredBits
    else
      fiveHundredBits
  let oneHundredBits : UInt16 := 0
  let oneHundredBits := if c1 then
      let oneHundredBits := oneHundredBits ||| 4
      oneHundredBits
    else
      oneHundredBits
  let oneHundredBits := if c2 then
      let oneHundredBits := oneHundredBits ||| 2
      oneHundredBits
    else
      oneHundredBits
  let oneHundredBits := if c4 then
      let oneHundredBits := oneHundredBits ||| 1
      oneHundredBits
    else
      oneHundredBits
  let oneHundred := ((Gen.bitutils.grayToBinary oneHundredBits).toNat : Int)
  let fiveHundred := ((Gen.bitutils.grayToBinary fiveHundredBits).toNat : Int)
  if (oneHundred = 5 ∨ oneHundred = 6) ∨ oneHundred = 0 then say (t! "the bits C1 to to C4 are incorrect")
  let oneHundred := if oneHundred = 7 then
      let oneHundred : Int := 5
      oneHundred
    else
      oneHundred
  let oneHundred := if (Int.tmod fiveHundred 2) ≠ 0 then
      let oneHundred := 6 - oneHundred
      oneHundred
    else
      oneHundred
  return ((fiveHundred * 500) + (oneHundred * 100)) - 1300

/-- pkg/acas/ra/fields/threat_identity_altitude.go:26-72 -/
def Said.acas.ra.fields.ReadThreatIdentityAltitude (data : List UInt8) : Saying ThreatAltitude := do
  let altitudeCode := (((← idx data 4) &&& 224).toUInt16) >>> 5
  let altitudeCode := altitudeCode + ((((← idx data 3) &&& 7).toUInt16) <<< 3)
  let altitudeCode := altitudeCode + ((((← idx data 3) &&& 240).toUInt16) <<< 2)
  let altitudeCode := altitudeCode + ((((← idx data 2) &&& 3).toUInt16) <<< 2)
  if altitudeCode = 0 then
    return { status := 0, feet := 0 : ThreatAltitude }
  else
    let c1 := (altitudeCode &&& 2048) != 0
    let a1 := (altitudeCode &&& 1024) != 0
    let c2 := (altitudeCode &&& 512) != 0
    let a2 := (altitudeCode &&& 256) != 0
    let c4 := (altitudeCode &&& 128) != 0
    let a4 := (altitudeCode &&& 64) != 0
    let b1 := (altitudeCode &&& 32) != 0
    let d1 := (altitudeCode &&& 16) != 0
    let b2 := (altitudeCode &&& 8) != 0
    let d2 := (altitudeCode &&& 4) != 0
    let b4 := (altitudeCode &&& 2) != 0
    let d4 := (altitudeCode &&& 1) != 0
    let altitudeFeet ← saying ((t! "the Altitude field is malformed")) (Said.bitutils.GillhamToAltitude d1 d2 d4 a1 a2 a4 b1 b2 b4 c1 c2 c4)
    return { status := 1, feet := altitudeFeet : ThreatAltitude }

/-- pkg/acas/ra/resolution_advisory.go:76-123 -/
def Said.acas.ra.ReadResolutionAdvisory (data : List UInt8) : Saying ResolutionAdvisory := do
  if data.length ≠ 6 then say (t! "the data for ACAS ResolutionAdvisory message must be 6 bytes long")
  let threatIdentityAddress : Option UInt32 := none
  let threatIdentityAltitude : Option ThreatAltitude := none
  let threatIdentityRange : Option UInt8 := none
  let threatIdentityBearing : Option UInt8 := none
  let threatTypeIndicator ← Gen.acas.ra.fields.ReadThreatTypeIndicator data
  if threatTypeIndicator = 1 then
    let address : UInt32 := (← Gen.acas.ra.fields.ReadThreatIdentityAddress data)
    let threatIdentityAddress := some address
    return { activeRA := (← Gen.acas.ra.fields.ReadActiveResolutionAdvisory data),
             raComplement := (← Gen.acas.ra.fields.ReadRAComplement data),
             raTerminatedIndicator := (← Gen.acas.ra.fields.ReadRATerminatedIndicator data),
             multipleThreatEncounter := (← Gen.acas.ra.fields.ReadMultipleThreatEncounter data),
             threatTypeIndicator := threatTypeIndicator,
             threatIdentityAddress := threatIdentityAddress,
             threatIdentityAltitude := threatIdentityAltitude,
             threatIdentityRange := threatIdentityRange,
             threatIdentityBearing := threatIdentityBearing : ResolutionAdvisory }
  else
    if threatTypeIndicator = 2 then
      let threatAltitude ← Said.acas.ra.fields.ReadThreatIdentityAltitude data
      let threatRange : UInt8 := (← Gen.acas.ra.fields.ReadThreatIdentityRange data)
      let threatBearing : UInt8 := (← Gen.acas.ra.fields.ReadThreatIdentityBearing data)
      let threatIdentityAltitude := some threatAltitude
      let threatIdentityRange := some threatRange
      let threatIdentityBearing := some threatBearing
      return { activeRA := (← Gen.acas.ra.fields.ReadActiveResolutionAdvisory data),
               raComplement := (← Gen.acas.ra.fields.ReadRAComplement data),
               raTerminatedIndicator := (← Gen.acas.ra.fields.ReadRATerminatedIndicator data),
               multipleThreatEncounter := (← Gen.acas.ra.fields.ReadMultipleThreatEncounter data),
               threatTypeIndicator := threatTypeIndicator,
               threatIdentityAddress := threatIdentityAddress,
               threatIdentityAltitude := threatIdentityAltitude,
               threatIdentityRange := threatIdentityRange,
               threatIdentityBearing := threatIdentityBearing : ResolutionAdvisory }
    else
      return { activeRA := (← Gen.acas.ra.fields.ReadActiveResolutionAdvisory data),
               raComplement := (← Gen.acas.ra.fields.ReadRAComplement data),
               raTerminatedIndicator := (← Gen.acas.ra.fields.ReadRATerminatedIndicator data),
               multipleThreatEncounter := (← Gen.acas.ra.fields.ReadMultipleThreatEncounter data),
               threatTypeIndicator := threatTypeIndicator,
               threatIdentityAddress := threatIdentityAddress,
               threatIdentityAltitude := threatIdentityAltitude,
               threatIdentityRange := threatIdentityRange,
               threatIdentityBearing := threatIdentityBearing : ResolutionAdvisory }

/-- pkg/bds/bds05/fields/altitude.go:54-109 -/
def Said.bds.bds05.fields.ReadAltitude (data : List UInt8) : Saying (Int × Nat × Nat) := do
  let source : Nat := 0
  let format := ((← idx data 0) &&& 248) >>> 3
  let source := if 20 ≤ format ∧ format ≤ 22 then
      let source : Nat := 1
      source
    else
      source
  let qBit := ((← idx data 1) &&& 1) != 0
  if qBit then
    let n : UInt16 := 0
    let n := n ||| ((((← idx data 1) &&& 254).toUInt16) <<< 3)
    let n := n ||| ((((← idx data 2) &&& 240).toUInt16) >>> 4)
    return ((25 * (n.toNat : Int)) - 1000, source, 1)
  else
    let c1 := ((← idx data 1) &&& 128) != 0
    let a1 := ((← idx data 1) &&& 64) != 0
    let c2 := ((← idx data 1) &&& 32) != 0
    let a2 := ((← idx data 1) &&& 16) != 0
    let c4 := ((← idx data 1) &&& 8) != 0
    let a4 := ((← idx data 1) &&& 4) != 0
    let b1 := ((← idx data 1) &&& 2) != 0
    let b2 := ((← idx data 2) &&& 128) != 0
    let d2 := ((← idx data 2) &&& 64) != 0
    let b4 := ((← idx data 2) &&& 32) != 0
    let d4 := ((← idx data 2) &&& 16) != 0
    let altitudeFeet ← saying ((t! "the Altitude field is malformed")) (Said.bitutils.GillhamToAltitude false d2 d4 a1 a2 a4 b1 b2 b4 c1 c2 c4)
    return (altitudeFeet, source, 0)

/-- pkg/bds/bds05/airborne_position.go:60-89 -/
def Said.bds.bds05.ReadAirbornePosition (data : List UInt8) : Saying AirbornePosition := do
  if data.length ≠ 7 then say (t! "the data must be 7 bytes long (" ++ dec data.length ++ t! " given)")
  let formatTypeCode := ((← idx data 0) &&& 248) >>> 3
  if (formatTypeCode < 9 ∨ formatTypeCode > 22) ∨ formatTypeCode = 19 then say (t! "the field FormatTypeCode must be comprised between 9 and 18 included or 20 and 22 included, got " ++ dec formatTypeCode.toNat)
  let (altitude, altitudeSource, altitudeReportMethod) ← saying ((t! "the field Altitude is malformed")) (Said.bds.bds05.fields.ReadAltitude data)
  return { formatTypeCode := formatTypeCode,
           surveillanceStatus := (← Gen.bds.bds05.fields.ReadSurveillanceStatus data),
           singleAntennaFlag := (← Gen.bds.bds05.fields.ReadSingleAntennaFlag data),
           altitudeSource := altitudeSource,
           altitudeReportMethod := altitudeReportMethod,
           altitudeInFeet := altitude,
           time := (← Gen.bds.bds05.fields.ReadTime data),
           cprFormat := (← Gen.bds.bds05.fields.ReadCompactPositionReportingFormat data),
           encodedLatitude := (← Gen.bds.bds05.fields.ReadEncodedLatitude data),
           encodedLongitude := (← Gen.bds.bds05.fields.ReadEncodedLongitude data) : AirbornePosition }

/-- pkg/adsb/airborne_position/airborne_position_type_0.go:37-54 -/
def Said.adsb.airborne_position.ReadAirbornePositionType0 (adsbVersion : UInt8) (data : List UInt8) : Saying ADSBMessage := do
  let dataTmp := [176, (← idx data 1), (← idx data 2), (← idx data 3), (← idx data 4), (← idx data 5), (← idx data 6)]
  let bds ← Said.bds.bds05.ReadAirbornePosition dataTmp
  let bds := { bds with formatTypeCode := 0 }
  return .airborneType0 bds 0 adsbVersion

/-- pkg/adsb/airborne_position/airborne_position_v0.go:38-50 -/
def Said.adsb.airborne_position.ReadAirbornePositionV0 (data : List UInt8) : Saying ADSBMessage := do
  let bds ← Said.bds.bds05.ReadAirbornePosition data
  return .airborneV0 bds bds.formatTypeCode bds.formatTypeCode

/-- pkg/adsb/airborne_position/airborne_position_v1.go:41-56 -/
def Said.adsb.airborne_position.ReadAirbornePositionV1 (data : List UInt8) (nicSupplementA : Bool) : Saying ADSBMessage := do
  let bds ← Said.bds.bds05.ReadAirbornePosition data
  let (hcr, nic) := Gen.adsb.airborne_position.getHCRAndNICForV1 bds.formatTypeCode nicSupplementA
  return .airborneV1 bds nicSupplementA hcr nic

/-- pkg/adsb/airborne_position/airborne_position_v2.go:44-62 -/
def Said.adsb.airborne_position.ReadAirbornePositionV2 (data : List UInt8) (nicSupplementA : Bool) : Saying ADSBMessage := do
  let bds ← Said.bds.bds05.ReadAirbornePosition data
  let nicSupplementB ← Gen.adsb.airborne_position.fields.ReadNavigationIntegritySupplementB data
  let (hcr, nic) := Gen.adsb.airborne_position.getHCRAndNICForV2 bds.formatTypeCode nicSupplementA nicSupplementB
  return .airborneV2 bds nicSupplementA nicSupplementB hcr nic

/-- pkg/adsb/airborne_position/airborne_position.go:9-25 -/
def Said.adsb.airborne_position.ReadAirbornePosition (adsbVersion : UInt8) (data : List UInt8) (nicSupplementA : Bool) : Saying ADSBMessage := do
  if (← idx data 0) = 0 then
    Said.adsb.airborne_position.ReadAirbornePositionType0 adsbVersion data
  else
    if adsbVersion = 0 then
      Said.adsb.airborne_position.ReadAirbornePositionV0 data
    else
      if adsbVersion = 1 then
        Said.adsb.airborne_position.ReadAirbornePositionV1 data nicSupplementA
      else
        if adsbVersion = 2 then
          Said.adsb.airborne_position.ReadAirbornePositionV2 data nicSupplementA
        else
          say (t! "the ADS-B version " ++ dec adsbVersion.toNat ++ t! " does not allow to read AirbornePosition messages")

/-- pkg/bds/bds05/airborne_position.go:29-31 -/
def Said.bds.bds05.AirbornePosition.CheckCoherency (message : AirbornePosition) : Saying Unit := do
  return ()

/-- pkg/adsb/airborne_position/airborne_position_type_0.go:24-26 -/
def Said.adsb.airborne_position.AirbornePositionType0.CheckCoherency (airbornePosition : AirbornePosition) (navigationIntegrityCategory : UInt8) (adsbVersion : UInt8) : Saying Unit := do
  Said.bds.bds05.AirbornePosition.CheckCoherency airbornePosition

/-- pkg/adsb/airborne_position/airborne_position_v0.go:23-25 -/
def Said.adsb.airborne_position.AirbornePositionV0.CheckCoherency (airbornePosition : AirbornePosition) (horizontalProtectionLimit : UInt8) (containmentRadius : UInt8) : Saying Unit := do
  Said.bds.bds05.AirbornePosition.CheckCoherency airbornePosition

/-- pkg/adsb/airborne_position/airborne_position_v1.go:24-26 -/
def Said.adsb.airborne_position.AirbornePositionV1.CheckCoherency (airbornePosition : AirbornePosition) (navigationIntegrityCodeSupplementA : Bool) (horizontalContainmentRadius : UInt8) (navigationIntegrityCategory : UInt8) : Saying Unit := do
  Said.bds.bds05.AirbornePosition.CheckCoherency airbornePosition

/-- pkg/adsb/airborne_position/airborne_position_v2.go:25-27 -/
def Said.adsb.airborne_position.AirbornePositionV2.CheckCoherency (airbornePosition : AirbornePosition) (navigationIntegrityCodeSupplementA : Bool) (navigationIntegrityCodeSupplementB : UInt8) (horizontalContainmentRadius : UInt8) (navigationIntegrityCategory : UInt8) : Saying Unit := do
  Said.bds.bds05.AirbornePosition.CheckCoherency airbornePosition

/-- pkg/bds/bds09/airborne_velocity_ground_speed_normal.go:42-44 -/
def Said.bds.bds09.AirborneVelocityGroundSpeedNormal.CheckCoherency (message : GroundSpeedVelocity) : Saying Unit := do
  return ()

/-- pkg/bds/bds09/airborne_velocity_ground_speed_supersonic.go:42-44 -/
def Said.bds.bds09.AirborneVelocityGroundSpeedSupersonic.CheckCoherency (message : GroundSpeedVelocity) : Saying Unit := do
  return ()

/-- pkg/bds/bds09/airborne_velocity_air_speed_normal.go:38-40 -/
def Said.bds.bds09.AirborneVelocityAirSpeedNormal.CheckCoherency (message : AirSpeedVelocity) : Saying Unit := do
  return ()

/-- pkg/bds/bds09/airborne_velocity_air_speed_supersonic.go:38-40 -/
def Said.bds.bds09.AirborneVelocityAirSpeedSupersonic.CheckCoherency (message : AirSpeedVelocity) : Saying Unit := do
  return ()

/-- The method CheckCoherency called through the interface pkg/bds/bds09.AirborneVelocity; its implementations are in pkg/bds/bds09/airborne_velocity_air_speed_normal.go, pkg/bds/bds09/airborne_velocity_air_speed_supersonic.go, pkg/bds/bds09/airborne_velocity_ground_speed_normal.go, pkg/bds/bds09/airborne_velocity_ground_speed_supersonic.go. -/
def Said.bds.bds09.AirborneVelocity.CheckCoherency : AirborneVelocity → Saying Unit
  | .groundSpeedNormal x => Said.bds.bds09.AirborneVelocityGroundSpeedNormal.CheckCoherency x
  | .groundSpeedSupersonic x => Said.bds.bds09.AirborneVelocityGroundSpeedSupersonic.CheckCoherency x
  | .airSpeedNormal x => Said.bds.bds09.AirborneVelocityAirSpeedNormal.CheckCoherency x
  | .airSpeedSupersonic x => Said.bds.bds09.AirborneVelocityAirSpeedSupersonic.CheckCoherency x

/-- pkg/adsb/airborne_velocity/airborne_velocity.go:20-22 -/
def Said.adsb.airborne_velocity.AirborneVelocity.CheckCoherency (airborneVelocity : AirborneVelocity) (adsbVersion : UInt8) : Saying Unit := do
  Said.bds.bds09.AirborneVelocity.CheckCoherency airborneVelocity

/-- pkg/bds/bds09/fields/subtype.go:24-38 -/
def Said.bds.bds09.fields.Subtype.ToString (code : UInt8) : List Char :=
  if code = 1 then
    t! "1 - GroundSpeed / Normal"
  else
    if code = 2 then
      t! "2 - GroundSpeed / Supersonic"
    else
      if code = 3 then
        t! "3 - Airspeed,Heading / Normal"
      else
        if code = 4 then
          t! "4 - Airspeed,Heading / Supersonic"
        else
          dec code.toNat ++ t! " - Unknown code"

/-- pkg/bds/bds09/airborne_velocity_ground_speed_normal.go:88-127 -/
def Said.bds.bds09.ReadAirborneVelocityGroundSpeedNormal (data : List UInt8) : Saying GroundSpeedVelocity := do
  if data.length ≠ 7 then say (t! "the data must be 7 bytes long (" ++ dec data.length ++ t! " given)")
  let formatTypeCode := ((← idx data 0) &&& 248) >>> 3
  if formatTypeCode ≠ 19 then say (t! "the field FormatTypeCode must be 19, got " ++ dec formatTypeCode.toNat)
  let subType ← Gen.bds.bds09.fields.ReadSubtype data
  if subType ≠ 1 then say (t! "the data are given for subtype " ++ (Said.bds.bds09.fields.Subtype.ToString subType) ++ t! " format and can not be read by ReadFormat19GroundSpeedNormal")
  let (velocityEW, velocityEWStatus) ← Gen.bds.bds09.fields.ReadVelocityEWNormal data
  let (velocityNS, velocityNSStatus) ← Gen.bds.bds09.fields.ReadVelocityNSNormal data
  let (verticalRate, verticalRateStatus) ← Gen.bds.bds09.fields.ReadVerticalRate data
  let (diffBaro, diffBaroStatus) ← Gen.bds.bds09.fields.ReadHeightDifference data
  return { formatTypeCode := formatTypeCode,
           subtype := subType,
           intentChange := (← Gen.bds.bds09.fields.ReadIntentChange data),
           ifrCapability := (← Gen.bds.bds09.fields.ReadIFRCapability data),
           navigationUncertaintyCategory := (← Gen.bds.bds09.fields.ReadNavigationUncertaintyCategory data),
           directionEastWest := (← Gen.bds.bds09.fields.ReadDirectionEastWest data),
           velocityEWStatus := velocityEWStatus,
           velocityEW := velocityEW,
           directionNorthSouth := (← Gen.bds.bds09.fields.ReadDirectionNorthSouth data),
           velocityNSStatus := velocityNSStatus,
           velocityNS := velocityNS,
           verticalRateSource := (← Gen.bds.bds09.fields.ReadVerticalRateSource data),
           verticalRateStatus := verticalRateStatus,
           verticalRate := verticalRate,
           heightDifferenceStatus := diffBaroStatus,
           heightDifference := diffBaro : GroundSpeedVelocity }

/-- pkg/bds/bds09/airborne_velocity_ground_speed_supersonic.go:88-127 -/
def Said.bds.bds09.ReadAirborneVelocityGroundSpeedSupersonic (data : List UInt8) : Saying GroundSpeedVelocity := do
  if data.length ≠ 7 then say (t! "the data must be 7 bytes long (" ++ dec data.length ++ t! " given)")
  let formatTypeCode := ((← idx data 0) &&& 248) >>> 3
  if formatTypeCode ≠ 19 then say (t! "the field FormatTypeCode must be 19, got " ++ dec formatTypeCode.toNat)
  let subType ← Gen.bds.bds09.fields.ReadSubtype data
  if subType ≠ 2 then say (t! "the data are given for subtype " ++ (Said.bds.bds09.fields.Subtype.ToString subType) ++ t! " format and can not be read by ReadAirborneVelocityGroundSpeedSupersonic")
  let (velocityEW, velocityEWStatus) ← Gen.bds.bds09.fields.ReadVelocityEWSupersonic data
  let (velocityNS, velocityNSStatus) ← Gen.bds.bds09.fields.ReadVelocityNSSupersonic data
  let (verticalRate, verticalRateStatus) ← Gen.bds.bds09.fields.ReadVerticalRate data
  let (diffBaro, diffBaroStatus) ← Gen.bds.bds09.fields.ReadHeightDifference data
  return { formatTypeCode := formatTypeCode,
           subtype := subType,
           intentChange := (← Gen.bds.bds09.fields.ReadIntentChange data),
           ifrCapability := (← Gen.bds.bds09.fields.ReadIFRCapability data),
           navigationUncertaintyCategory := (← Gen.bds.bds09.fields.ReadNavigationUncertaintyCategory data),
           directionEastWest := (← Gen.bds.bds09.fields.ReadDirectionEastWest data),
           velocityEWStatus := velocityEWStatus,
           velocityEW := velocityEW,
           directionNorthSouth := (← Gen.bds.bds09.fields.ReadDirectionNorthSouth data),
           velocityNSStatus := velocityNSStatus,
           velocityNS := velocityNS,
           verticalRateSource := (← Gen.bds.bds09.fields.ReadVerticalRateSource data),
           verticalRateStatus := verticalRateStatus,
           verticalRate := verticalRate,
           heightDifferenceStatus := diffBaroStatus,
           heightDifference := diffBaro : GroundSpeedVelocity }

/-- pkg/bds/bds09/airborne_velocity_air_speed_normal.go:76-113 -/
def Said.bds.bds09.ReadAirborneVelocityAirSpeedNormal (data : List UInt8) : Saying AirSpeedVelocity := do
  if data.length ≠ 7 then say (t! "the data must be 7 bytes long (" ++ dec data.length ++ t! " given)")
  let formatTypeCode := ((← idx data 0) &&& 248) >>> 3
  if formatTypeCode ≠ 19 then say (t! "the field FormatTypeCode must be 19, got " ++ dec formatTypeCode.toNat)
  let subType ← Gen.bds.bds09.fields.ReadSubtype data
  if subType ≠ 3 then say (t! "the data are given for subtype " ++ (Said.bds.bds09.fields.Subtype.ToString subType) ++ t! " format and can not be read by ReadAirborneVelocityAirSpeedNormal")
  let (magneticHeading, magneticHeadingStatus) ← Gen.bds.bds09.fields.ReadMagneticHeading data
  let (airSpeed, airSpeedStatus) ← Gen.bds.bds09.fields.ReadAirspeedNormal data
  let (verticalRate, verticalRateStatus) ← Gen.bds.bds09.fields.ReadVerticalRate data
  let (diffBaro, diffBaroStatus) ← Gen.bds.bds09.fields.ReadHeightDifference data
  return { formatTypeCode := formatTypeCode,
           subtype := subType,
           intentChange := (← Gen.bds.bds09.fields.ReadIntentChange data),
           ifrCapability := (← Gen.bds.bds09.fields.ReadIFRCapability data),
           navigationUncertaintyCategory := (← Gen.bds.bds09.fields.ReadNavigationUncertaintyCategory data),
           magneticHeadingStatus := magneticHeadingStatus,
           magneticHeading := magneticHeading,
           airspeedStatus := airSpeedStatus,
           airspeed := airSpeed,
           verticalRateSource := (← Gen.bds.bds09.fields.ReadVerticalRateSource data),
           verticalRateStatus := verticalRateStatus,
           verticalRate := verticalRate,
           heightDifferenceStatus := diffBaroStatus,
           heightDifference := diffBaro : AirSpeedVelocity }

/-- pkg/bds/bds09/airborne_velocity_air_speed_supersonic.go:76-113 -/
def Said.bds.bds09.ReadAirborneVelocityAirSpeedSupersonic (data : List UInt8) : Saying AirSpeedVelocity := do
  if data.length ≠ 7 then say (t! "the data must be 7 bytes long (" ++ dec data.length ++ t! " given)")
  let formatTypeCode := ((← idx data 0) &&& 248) >>> 3
  if formatTypeCode ≠ 19 then say (t! "the field FormatTypeCode must be 19, got " ++ dec formatTypeCode.toNat)
  let subType ← Gen.bds.bds09.fields.ReadSubtype data
  if subType ≠ 4 then say (t! "the data are given for subtype " ++ (Said.bds.bds09.fields.Subtype.ToString subType) ++ t! " format and can not be read by ReadAirborneVelocityAirSpeedSupersonic")
  let (magneticHeading, magneticHeadingStatus) ← Gen.bds.bds09.fields.ReadMagneticHeading data
  let (airSpeed, airSpeedStatus) ← Gen.bds.bds09.fields.ReadAirspeedSupersonic data
  let (verticalRate, verticalRateStatus) ← Gen.bds.bds09.fields.ReadVerticalRate data
  let (diffBaro, diffBaroStatus) ← Gen.bds.bds09.fields.ReadHeightDifference data
  return { formatTypeCode := formatTypeCode,
           subtype := subType,
           intentChange := (← Gen.bds.bds09.fields.ReadIntentChange data),
           ifrCapability := (← Gen.bds.bds09.fields.ReadIFRCapability data),
           navigationUncertaintyCategory := (← Gen.bds.bds09.fields.ReadNavigationUncertaintyCategory data),
           magneticHeadingStatus := magneticHeadingStatus,
           magneticHeading := magneticHeading,
           airspeedStatus := airSpeedStatus,
           airspeed := airSpeed,
           verticalRateSource := (← Gen.bds.bds09.fields.ReadVerticalRateSource data),
           verticalRateStatus := verticalRateStatus,
           verticalRate := verticalRate,
           heightDifferenceStatus := diffBaroStatus,
           heightDifference := diffBaro : AirSpeedVelocity }

/-- pkg/bds/bds09/airborne_velocity.go:16-40 -/
def Said.bds.bds09.ReadAirborneVelocity (data : List UInt8) : Saying AirborneVelocity := do
  if data.length ≠ 7 then say (t! "the data must be 7 bytes long (" ++ dec data.length ++ t! " given)")
  let formatTypeCode := ((← idx data 0) &&& 248) >>> 3
  if formatTypeCode ≠ 19 then say (t! "the data are given at format " ++ dec formatTypeCode.toNat ++ t! " and can not be read by ReadAirborneVelocityAirSpeedNormal")
  let subType ← Gen.bds.bds09.fields.ReadSubtype data
  if subType = 1 then
    return AirborneVelocity.groundSpeedNormal (← Said.bds.bds09.ReadAirborneVelocityGroundSpeedNormal data)
  else
    if subType = 2 then
      return AirborneVelocity.groundSpeedSupersonic (← Said.bds.bds09.ReadAirborneVelocityGroundSpeedSupersonic data)
    else
      if subType = 3 then
        return AirborneVelocity.airSpeedNormal (← Said.bds.bds09.ReadAirborneVelocityAirSpeedNormal data)
      else
        if subType = 4 then
          return AirborneVelocity.airSpeedSupersonic (← Said.bds.bds09.ReadAirborneVelocityAirSpeedSupersonic data)
        else
          say (t! "the field SubType must be comprised between 1 and 4 included, got " ++ dec subType.toNat)

/-- pkg/adsb/airborne_velocity/airborne_velocity.go:31-42 -/
def Said.adsb.airborne_velocity.ReadAirborneVelocity (adsbVersion : UInt8) (data : List UInt8) : Saying ADSBMessage := do
  let bds ← Said.bds.bds09.ReadAirborneVelocity data
  return .velocity bds adsbVersion

/-- pkg/bds/bds08/fields/aircraft_category_set_a.go:60-62 -/
def Said.bds.bds08.fields.AircraftCategorySetA.CheckCoherency (category : UInt8) : Saying Unit := do
  return ()

/-- pkg/bds/bds08/fields/aircraft_category_set_b.go:60-62 -/
def Said.bds.bds08.fields.AircraftCategorySetB.CheckCoherency (category : UInt8) : Saying Unit := do
  return ()

/-- pkg/bds/bds08/fields/aircraft_category_set_c.go:63-70 -/
def Said.bds.bds08.fields.AircraftCategorySetC.CheckCoherency (category : UInt8) : Saying Unit := do
  if category > 3 then say (t! "field FormatTypeCode is 2 (Category set C) and the Category is Reserved")
  return ()

/-- pkg/bds/bds08/fields/aircraft_category_set_d.go:63-66 -/
def Said.bds.bds08.fields.AircraftCategorySetD.CheckCoherency (category : UInt8) : Saying Unit := do
  say (t! "field FormatTypeCode is 1 (Category set D) which is a reserved Category set")

/-- The method CheckCoherency called through the interface pkg/bds/bds08/fields.AircraftCategory; its implementations are in pkg/bds/bds08/fields/aircraft_category_set_a.go, pkg/bds/bds08/fields/aircraft_category_set_b.go, pkg/bds/bds08/fields/aircraft_category_set_c.go, pkg/bds/bds08/fields/aircraft_category_set_d.go. -/
def Said.bds.bds08.fields.AircraftCategory.CheckCoherency : AircraftCategory → Saying Unit
  | .setA x => Said.bds.bds08.fields.AircraftCategorySetA.CheckCoherency x
  | .setB x => Said.bds.bds08.fields.AircraftCategorySetB.CheckCoherency x
  | .setC x => Said.bds.bds08.fields.AircraftCategorySetC.CheckCoherency x
  | .setD x => Said.bds.bds08.fields.AircraftCategorySetD.CheckCoherency x

/-- pkg/bds/bds08/aircraft_identification_and_category.go:26-38 -/
def Said.bds.bds08.AircraftIdentificationAndCategory.CheckCoherency (message : IdentificationAndCategory) : Saying Unit := do
  if message.identification.any (fun c => [35].contains c) then say (t! "field Identification contains a non valid character")
  let _ ← Said.bds.bds08.fields.AircraftCategory.CheckCoherency message.category
  return ()

/-- pkg/adsb/aircraft_identification_and_category/aircraft_identification_and_category.go:20-22 -/
def Said.adsb.aircraft_identification_and_category.AircraftIdentificationAndCategory.CheckCoherency (aircraftIdentificationAndCategory : IdentificationAndCategory) (adsbVersion : UInt8) : Saying Unit := do
  Said.bds.bds08.AircraftIdentificationAndCategory.CheckCoherency aircraftIdentificationAndCategory

/-- pkg/bds/bds08/aircraft_identification_and_category.go:53-102 -/
def Said.bds.bds08.ReadAircraftIdentificationAndCategory (data : List UInt8) : Saying IdentificationAndCategory := do
  if data.length ≠ 7 then say (t! "the data must be 7 bytes long (" ++ dec data.length ++ t! " given)")
  let formatTypeCode := ((← idx data 0) &&& 248) >>> 3
  if formatTypeCode < 1 ∨ formatTypeCode > 4 then say (t! "the field FormatTypeCode must be comprised between 1 and 4 included, got " ++ dec formatTypeCode.toNat)
  let category ← if formatTypeCode = 1 then do
      let category := AircraftCategory.setD ((← idx data 0) &&& 7)
      pure category
    else do
      let category ← if formatTypeCode = 2 then do
          let category := AircraftCategory.setC ((← idx data 0) &&& 7)
          pure category
        else do
          let category ← if formatTypeCode = 3 then do
              let category := AircraftCategory.setB ((← idx data 0) &&& 7)
              pure category
            else do
              let category := AircraftCategory.setA ((← idx data 0) &&& 7)
              pure category
          pure category
      pure category
  let codes := List.replicate 8 (0 : UInt8)
  let codes ← setIdx codes 0 (((← idx data 1) &&& 252) >>> 2)
  let codes ← setIdx codes 1 ((((← idx data 1) &&& 3) <<< 4) + (((← idx data 2) &&& 240) >>> 4))
  let codes ← setIdx codes 2 ((((← idx data 2) &&& 15) <<< 2) + (((← idx data 3) &&& 192) >>> 6))
  let codes ← setIdx codes 3 ((← idx data 3) &&& 63)
  let codes ← setIdx codes 4 (((← idx data 4) &&& 252) >>> 2)
  let codes ← setIdx codes 5 ((((← idx data 4) &&& 3) <<< 4) + (((← idx data 5) &&& 240) >>> 4))
  let codes ← setIdx codes 6 ((((← idx data 5) &&& 15) <<< 2) + (((← idx data 6) &&& 192) >>> 6))
  let codes ← setIdx codes 7 ((← idx data 6) &&& 63)
  let chars := List.replicate 8 (0 : UInt8)
  let chars ← codes.zipIdx.foldlM (fun (chars : List UInt8) (code, i) => do
    let chars ← setIdx chars i (← idx ([35, 65, 66, 67, 68, 69, 70, 71, 72, 73, 74, 75, 76, 77, 78, 79, 80, 81, 82, 83, 84, 85, 86, 87, 88, 89, 90, 35, 35, 35, 35, 35, 32, 35, 35, 35, 35, 35, 35, 35, 35, 35, 35, 35, 35, 35, 35, 35, 48, 49, 50, 51, 52, 53, 54, 55, 56, 57, 35, 35, 35, 35, 35, 35] : List UInt8) code.toNat)
    pure chars) chars
  return { formatTypeCode := formatTypeCode, category := category, identification := chars : IdentificationAndCategory }

/-- pkg/adsb/aircraft_identification_and_category/aircraft_identification_and_category.go:31-42 -/
def Said.adsb.aircraft_identification_and_category.ReadAircraftIdentificationAndCategory (adsbVersion : UInt8) (data : List UInt8) : Saying ADSBMessage := do
  let bds ← Said.bds.bds08.ReadAircraftIdentificationAndCategory data
  return .identification bds adsbVersion

/-- pkg/bds/bds65/aircraft_operational_status_adsb0.go:33-35 -/
def Said.bds.bds65.AircraftOperationalStatusADSB0.CheckCoherency (message : OpStatusV0) : Saying Unit := do
  return ()

/-- pkg/bds/bds65/aircraft_operational_status_airborne_adsb1.go:38-40 -/
def Said.bds.bds65.AircraftOperationalStatusAirborneADSB1.CheckCoherency (message : OpStatusAirborneV1) : Saying Unit := do
  return ()

/-- pkg/bds/bds65/aircraft_operational_status_airborne_adsb2.go:40-42 -/
def Said.bds.bds65.AircraftOperationalStatusAirborneADSB2.CheckCoherency (message : OpStatusAirborneV2) : Saying Unit := do
  return ()

/-- pkg/bds/bds65/aircraft_operational_status_surface_adsb1.go:39-41 -/
def Said.bds.bds65.AircraftOperationalStatusSurfaceADSB1.CheckCoherency (message : OpStatusSurfaceV1) : Saying Unit := do
  return ()

/-- pkg/bds/bds65/aircraft_operational_status_surface_adsb2.go:40-42 -/
def Said.bds.bds65.AircraftOperationalStatusSurfaceADSB2.CheckCoherency (message : OpStatusSurfaceV2) : Saying Unit := do
  return ()

/-- The method CheckCoherency called through the interface pkg/bds/bds65.AircraftOperationalStatus; its implementations are in pkg/bds/bds65/aircraft_operational_status_adsb0.go, pkg/bds/bds65/aircraft_operational_status_airborne_adsb1.go, pkg/bds/bds65/aircraft_operational_status_airborne_adsb2.go, pkg/bds/bds65/aircraft_operational_status_surface_adsb1.go, pkg/bds/bds65/aircraft_operational_status_surface_adsb2.go. -/
def Said.bds.bds65.AircraftOperationalStatus.CheckCoherency : OperationalStatus → Saying Unit
  | .v0 x => Said.bds.bds65.AircraftOperationalStatusADSB0.CheckCoherency x
  | .airborneV1 x => Said.bds.bds65.AircraftOperationalStatusAirborneADSB1.CheckCoherency x
  | .airborneV2 x => Said.bds.bds65.AircraftOperationalStatusAirborneADSB2.CheckCoherency x
  | .surfaceV1 x => Said.bds.bds65.AircraftOperationalStatusSurfaceADSB1.CheckCoherency x
  | .surfaceV2 x => Said.bds.bds65.AircraftOperationalStatusSurfaceADSB2.CheckCoherency x

/-- pkg/adsb/aircraft_operational_status/aircraft_operational_status.go:20-22 -/
def Said.adsb.aircraft_operational_status.AircraftOperationalStatus.CheckCoherency (aircraftOperationalStatus : OperationalStatus) (adsbVersion : UInt8) : Saying Unit := do
  Said.bds.bds65.AircraftOperationalStatus.CheckCoherency aircraftOperationalStatus

/-- pkg/bds/bds65/aircraft_operational_status_adsb0.go:61-93 -/
def Said.bds.bds65.ReadAircraftOperationalStatusADSB0 (data : List UInt8) : Saying OpStatusV0 := do
  if data.length ≠ 7 then say (t! "the data must be 7 bytes long (" ++ dec data.length ++ t! " given)")
  let formatTypeCode := ((← idx data 0) &&& 248) >>> 3
  if formatTypeCode ≠ 31 then say (t! "the field FormatTypeCode must be 29, got " ++ dec formatTypeCode.toNat)
  let subType := (← idx data 0) &&& 7
  if subType ≠ 0 then say (t! "the data are given for subtype " ++ dec subType.toNat ++ t! " format and can not be read by ReadAircraftOperationalStatusADSB0")
  if (← orGo ((← idx data 5) != 0) (do pure ((← idx data 6) != 0))) then say (t! "the bits 41 to 56 are expected to be 0")
  return { formatTypeCode := formatTypeCode,
           subtype := subType,
           enRouteOperationalCapabilities := (← Gen.bds.bds65.fields.ReadEnRouteOperationalCapabilities data),
           enRouteOperationalCapabilityStatus := (← Gen.bds.bds65.fields.ReadEnRouteOperationalCapabilityStatus data),
           terminalAreaOperationalCapabilities := (← Gen.bds.bds65.fields.ReadTerminalAreaOperationalCapabilities data),
           terminalAreaOperationalCapabilityStatus := (← Gen.bds.bds65.fields.ReadTerminalAreaOperationalCapabilityStatus data),
           approachLandingOperationalCapabilities := (← Gen.bds.bds65.fields.ReadApproachLandingOperationalCapabilities data),
           approachLandingOperationalCapabilityStatus := (← Gen.bds.bds65.fields.ReadApproachLandingOperationalCapabilityStatus data),
           surfaceOperationalCapabilities := (← Gen.bds.bds65.fields.ReadSurfaceOperationalCapabilities data),
           surfaceOperationalCapabilityStatus := (← Gen.bds.bds65.fields.ReadSurfaceOperationalCapabilityStatus data) : OpStatusV0 }

/-- pkg/bds/bds65/fields/version_number.go:20-31 -/
def Said.bds.bds65.fields.VersionNumber.ToString (versionNumber : UInt8) : List Char :=
  if versionNumber = 0 then
    t! "0 - ADSB V0: Conformant to Doc 9871, Appendix A"
  else
    if versionNumber = 1 then
      t! "1 - ADSB V1: Conformant to Doc 9871, Appendix B"
    else
      if versionNumber = 2 then
        t! "2 - ADSB V2: Conformant to Doc 9871, Appendix C"
      else
        sprintfUint versionNumber.toNat

/-- pkg/bds/bds65/aircraft_operational_status_airborne_adsb1.go:68-120 -/
def Said.bds.bds65.ReadAircraftOperationalStatusAirborneADSB1 (data : List UInt8) : Saying OpStatusAirborneV1 := do
  if data.length ≠ 7 then say (t! "the data must be 7 bytes long (" ++ dec data.length ++ t! " given)")
  let formatTypeCode := ((← idx data 0) &&& 248) >>> 3
  if formatTypeCode ≠ 31 then say (t! "the field FormatTypeCode must be 29, got " ++ dec formatTypeCode.toNat)
  let subType ← Gen.bds.bds65.fields.ReadSubtype data
  if subType ≠ 0 then say (t! "the data are given for subtype " ++ dec subType.toNat ++ t! " format and can not be read by ReadAircraftOperationalStatusADSB0")
  let detectedADSBLevel ← Gen.bds.bds65.fields.ReadVersionNumber data
  if detectedADSBLevel ≠ 1 then say (t! "the data are given at " ++ (Said.bds.bds65.fields.VersionNumber.ToString detectedADSBLevel) ++ t! " format and can not be read by ReadAircraftOperationalStatusAirborneADSB1")
  let serviceLevel := (((← idx data 1) &&& 192) >>> 4) + (((← idx data 1) &&& 12) >>> 2)
  if serviceLevel ≠ 0 then say (t! "the ServiceLevel (field Capability Class) must be 0 (" ++ dec serviceLevel.toNat ++ t! " given)")
  let operationalModeFormat := ((← idx data 3) &&& 192) >>> 6
  if operationalModeFormat ≠ 0 then say (t! "the Operational Mode Format (field Operational Mode) must be 0 (" ++ dec operationalModeFormat.toNat ++ t! " given)")
  if ((← idx data 6) &&& 192) ≠ 0 then say (t! "the bits 49 and 50 must be 0")
  if ((← idx data 6) &&& 3) ≠ 0 then say (t! "the bits 55 and 56 must be 0")
  return { formatTypeCode := formatTypeCode,
           subtype := subType,
           airborneCapabilityClass := (← Gen.bds.bds65.fields.ReadAirborneCapabilityClassV1 data),
           operationalMode := (← Gen.bds.bds65.fields.ReadOperationalMode data),
           versionNumber := (← Gen.bds.bds65.fields.ReadVersionNumber data),
           nicSupplement := (← Gen.bds.bds65.fields.ReadNICSupplementA data),
           navigationalAccuracyCategoryPosition := (← Gen.bds.bds65.fields.ReadNavigationalAccuracyCategoryPositionV1 data),
           surveillanceIntegrityLevel := (← Gen.bds.bds65.fields.ReadSurveillanceIntegrityLevel data),
           nicBaro := (← Gen.bds.bds65.fields.ReadNICBaro data),
           horizontalReferenceDirection := (← Gen.bds.bds65.fields.ReadHorizontalReferenceDirection data) : OpStatusAirborneV1 }

/-- pkg/bds/bds65/fields/subtype.go:20-30 -/
def Said.bds.bds65.fields.Subtype.ToString (subtype : UInt8) : List Char :=
  if subtype = 0 then
    t! "0 - Airborne Status Message"
  else
    if subtype = 1 then
      t! "1 - Surface Status Message"
    else
      dec subtype.toNat ++ t! " - Unknown code"

/-- pkg/bds/bds65/aircraft_operational_status_surface_adsb1.go:71-124 -/
def Said.bds.bds65.ReadAircraftOperationalStatusSurfaceADSB1 (data : List UInt8) : Saying OpStatusSurfaceV1 := do
  if data.length ≠ 7 then say (t! "the data must be 7 bytes long (" ++ dec data.length ++ t! " given)")
  let formatTypeCode := ((← idx data 0) &&& 248) >>> 3
  if formatTypeCode ≠ 31 then say (t! "the field FormatTypeCode must be 31, got " ++ dec formatTypeCode.toNat)
  let subType ← Gen.bds.bds65.fields.ReadSubtype data
  if subType ≠ 1 then say (t! "the data are given for subtype " ++ (Said.bds.bds65.fields.Subtype.ToString subType) ++ t! " format and can not be read by ReadAircraftOperationalStatusSurfaceADSB1")
  let detectedADSBLevel ← Gen.bds.bds65.fields.ReadVersionNumber data
  if detectedADSBLevel ≠ 1 then say (t! "the data are given at " ++ (Said.bds.bds65.fields.VersionNumber.ToString detectedADSBLevel) ++ t! " format and can not be read by ReadAircraftOperationalStatusSurfaceADSB1")
  let serviceLevel := (((← idx data 1) &&& 192) >>> 4) + (((← idx data 1) &&& 12) >>> 2)
  if serviceLevel ≠ 0 then say (t! "the ServiceLevel (field Capability Class) must be 0 (" ++ dec serviceLevel.toNat ++ t! " given)")
  let operationalModeFormat := ((← idx data 3) &&& 192) >>> 6
  if operationalModeFormat ≠ 0 then say (t! "the Operational Mode Format (field Operational Mode) must be 0 (" ++ dec operationalModeFormat.toNat ++ t! " given)")
  if ((← idx data 6) &&& 192) ≠ 0 then say (t! "the bits 49 and 50 must be 0")
  if ((← idx data 6) &&& 3) ≠ 0 then say (t! "the bits 55 and 56 must be 0")
  return { formatTypeCode := formatTypeCode,
           subtype := subType,
           surfaceCapabilityClass := (← Gen.bds.bds65.fields.ReadSurfaceCapabilityClassV1 data),
           lengthAndWidth := (← Gen.bds.bds65.fields.ReadAircraftLengthAndWidth data),
           operationalMode := (← Gen.bds.bds65.fields.ReadOperationalMode data),
           versionNumber := (← Gen.bds.bds65.fields.ReadVersionNumber data),
           nicSupplement := (← Gen.bds.bds65.fields.ReadNICSupplementA data),
           navigationalAccuracyCategoryPosition := (← Gen.bds.bds65.fields.ReadNavigationalAccuracyCategoryPositionV1 data),
           surveillanceIntegrityLevel := (← Gen.bds.bds65.fields.ReadSurveillanceIntegrityLevel data),
           trackAngleHeading := (← Gen.bds.bds65.fields.ReadTrackAngleHeading data),
           horizontalReferenceDirection := (← Gen.bds.bds65.fields.ReadHorizontalReferenceDirection data) : OpStatusSurfaceV1 }

/-- pkg/bds/bds65/aircraft_operational_status_airborne_adsb2.go:74-124 -/
def Said.bds.bds65.ReadAircraftOperationalStatusAirborneADSB2 (data : List UInt8) : Saying OpStatusAirborneV2 := do
  if data.length ≠ 7 then say (t! "the data must be 7 bytes long (" ++ dec data.length ++ t! " given)")
  let formatTypeCode := ((← idx data 0) &&& 248) >>> 3
  if formatTypeCode ≠ 31 then say (t! "the field FormatTypeCode must be 31, got " ++ dec formatTypeCode.toNat)
  let subType ← Gen.bds.bds65.fields.ReadSubtype data
  if subType ≠ 0 then say (t! "the data are given for subtype " ++ dec subType.toNat ++ t! " format and can not be read by ReadAircraftOperationalStatusADSB0")
  let detectedADSBLevel ← Gen.bds.bds65.fields.ReadVersionNumber data
  if detectedADSBLevel ≠ 2 then say (t! "the data are given at at " ++ (Said.bds.bds65.fields.VersionNumber.ToString detectedADSBLevel) ++ t! " format and can not be read by ReadAircraftOperationalStatusAirborneADSB2")
  let capabilityContent := ((← idx data 1) &&& 192) >>> 6
  if capabilityContent ≠ 0 then say (t! "the Capability Content (field Capability Class) must be 0 (" ++ dec capabilityContent.toNat ++ t! " given)")
  let operationalModeFormat := ((← idx data 3) &&& 192) >>> 6
  if operationalModeFormat ≠ 0 then say (t! "the Operational Mode Format (field Operational Mode) must be 0 (" ++ dec operationalModeFormat.toNat ++ t! " given)")
  if ((← idx data 6) &&& 1) ≠ 0 then say (t! "the bit 56 must be 0")
  return { formatTypeCode := formatTypeCode,
           subtype := subType,
           airborneCapabilityClass := (← Gen.bds.bds65.fields.ReadAirborneCapabilityClassV2 data),
           operationalMode := (← Gen.bds.bds65.fields.ReadAirborneOperationalMode data),
           versionNumber := (← Gen.bds.bds65.fields.ReadVersionNumber data),
           nicSupplementA := (← Gen.bds.bds65.fields.ReadNICSupplementA data),
           navigationalAccuracyCategoryPosition := (← Gen.bds.bds65.fields.ReadNavigationalAccuracyCategoryPositionV2 data),
           geometricVerticalAccuracy := (← Gen.bds.bds65.fields.ReadGeometricVerticalAccuracy data),
           sourceIntegrityLevel := (← Gen.bds.bds65.fields.ReadSourceIntegrityLevel data),
           nicBaro := (← Gen.bds.bds65.fields.ReadNICBaro data),
           horizontalReferenceDirection := (← Gen.bds.bds65.fields.ReadHorizontalReferenceDirection data),
           sourceIntegrityLevelSupplement := (← Gen.bds.bds65.fields.ReadSourceIntegrityLevelSupplement data) : OpStatusAirborneV2 }

/-- pkg/bds/bds65/aircraft_operational_status_surface_adsb2.go:74-124 -/
def Said.bds.bds65.ReadAircraftOperationalStatusSurfaceADSB2 (data : List UInt8) : Saying OpStatusSurfaceV2 := do
  if data.length ≠ 7 then say (t! "the data must be 7 bytes long (" ++ dec data.length ++ t! " given)")
  let formatTypeCode := ((← idx data 0) &&& 248) >>> 3
  if formatTypeCode ≠ 31 then say (t! "the field FormatTypeCode must be 31, got " ++ dec formatTypeCode.toNat)
  let subType ← Gen.bds.bds65.fields.ReadSubtype data
  if subType ≠ 1 then say (t! "the data are given for subtype " ++ (Said.bds.bds65.fields.Subtype.ToString subType) ++ t! " format and can not be read by ReadAircraftOperationalStatusSurfaceADSB2")
  let detectedADSBLevel ← Gen.bds.bds65.fields.ReadVersionNumber data
  if detectedADSBLevel ≠ 2 then say (t! "the data are given at at " ++ (Said.bds.bds65.fields.VersionNumber.ToString detectedADSBLevel) ++ t! " format and can not be read by ReadAircraftOperationalStatusSurfaceADSB2")
  let capabilityContent := ((← idx data 1) &&& 192) >>> 6
  if capabilityContent ≠ 0 then say (t! "the Capability Content (field Capability Class) must be 0 (" ++ dec capabilityContent.toNat ++ t! " given)")
  let operationalModeFormat := ((← idx data 3) &&& 192) >>> 6
  if operationalModeFormat ≠ 0 then say (t! "the Operational Mode Format (field Operational Mode) must be 0 (" ++ dec operationalModeFormat.toNat ++ t! " given)")
  if ((← idx data 6) &&& 1) ≠ 0 then say (t! "the bit 56 must be 0")
  return { formatTypeCode := formatTypeCode,
           subtype := subType,
           surfaceCapabilityClass := (← Gen.bds.bds65.fields.ReadSurfaceCapabilityClassV2 data),
           lengthAndWidth := (← Gen.bds.bds65.fields.ReadAircraftLengthAndWidth data),
           operationalMode := (← Gen.bds.bds65.fields.ReadSurfaceOperationalMode data),
           versionNumber := (← Gen.bds.bds65.fields.ReadVersionNumber data),
           nicSupplementA := (← Gen.bds.bds65.fields.ReadNICSupplementA data),
           navigationalAccuracyCategoryPosition := (← Gen.bds.bds65.fields.ReadNavigationalAccuracyCategoryPositionV2 data),
           sourceIntegrityLevel := (← Gen.bds.bds65.fields.ReadSourceIntegrityLevel data),
           trackAngleHeading := (← Gen.bds.bds65.fields.ReadTrackAngleHeading data),
           horizontalReferenceDirection := (← Gen.bds.bds65.fields.ReadHorizontalReferenceDirection data),
           sourceIntegrityLevelSupplement := (← Gen.bds.bds65.fields.ReadSourceIntegrityLevelSupplement data) : OpStatusSurfaceV2 }

/-- pkg/bds/bds65/aircraft_operational_status.go:14-52 -/
def Said.bds.bds65.ReadAircraftOperationalStatus (data : List UInt8) : Saying OperationalStatus := do
  if data.length ≠ 7 then say (t! "the data must be 7 bytes long (" ++ dec data.length ++ t! " given)")
  let formatTypeCode := ((← idx data 0) &&& 248) >>> 3
  if formatTypeCode ≠ 31 then say (t! "the data are given at format " ++ dec formatTypeCode.toNat ++ t! " and can not be read by ReadAircraftOperationalStatus")
  let adsbLevel := ((← idx data 5) &&& 224) >>> 5
  let subType := (← idx data 0) &&& 7
  if adsbLevel = 0 then
    return OperationalStatus.v0 (← Said.bds.bds65.ReadAircraftOperationalStatusADSB0 data)
  else
    if adsbLevel = 1 then
      if subType = 0 then
        return OperationalStatus.airborneV1 (← Said.bds.bds65.ReadAircraftOperationalStatusAirborneADSB1 data)
      else
        if subType = 1 then
          return OperationalStatus.surfaceV1 (← Said.bds.bds65.ReadAircraftOperationalStatusSurfaceADSB1 data)
        else
          say (t! "the field SubType must be comprised between 0 and 1 included, got " ++ dec subType.toNat)
    else
      if adsbLevel = 2 then
        if subType = 0 then
          return OperationalStatus.airborneV2 (← Said.bds.bds65.ReadAircraftOperationalStatusAirborneADSB2 data)
        else
          if subType = 1 then
            return OperationalStatus.surfaceV2 (← Said.bds.bds65.ReadAircraftOperationalStatusSurfaceADSB2 data)
          else
            say (t! "the field SubType must be comprised between 0 and 1 included, got " ++ dec subType.toNat)
      else
        say (t! "the field VersionNumber must be comprised between 0 and 2 included, got " ++ dec subType.toNat)

/-- pkg/adsb/aircraft_operational_status/aircraft_operational_status.go:31-42 -/
def Said.adsb.aircraft_operational_status.ReadAircraftOperationalStatus (_ : UInt8) (data : List UInt8) : Saying ADSBMessage := do
  let bds ← Said.bds.bds65.ReadAircraftOperationalStatus data
  return .operationalStatus bds (Gen.bds.bds65.AircraftOperationalStatus.GetADSBLevel bds)

/-- pkg/bds/bds61/aircraft_status_no_information.go:28-35 -/
def Said.bds.bds61.AircraftStatusNoInformation.CheckCoherency (message : StatusNoInformation) : Saying Unit := do
  if message.emergencyPriorityStatus ≠ 0 then say (t! "field EmergencyPriorityStatus is expected to be NoEmergency")
  return ()

/-- pkg/bds/bds61/aircraft_status_emergency.go:29-36 -/
def Said.bds.bds61.AircraftStatusEmergency.CheckCoherency (message : StatusEmergency) : Saying Unit := do
  if message.emergencyPriorityStatus > 5 then say (t! "field EmergencyPriorityStatus is a Reserved value")
  return ()

/-- pkg/bds/bds61/aircraft_status_acas.go:28-30 -/
def Said.bds.bds61.AircraftStatusACAS.CheckCoherency (message : StatusACAS) : Saying Unit := do
  return ()

/-- The method CheckCoherency called through the interface pkg/bds/bds61.AircraftStatus; its implementations are in pkg/bds/bds61/aircraft_status_acas.go, pkg/bds/bds61/aircraft_status_emergency.go, pkg/bds/bds61/aircraft_status_no_information.go. -/
def Said.bds.bds61.AircraftStatus.CheckCoherency : AircraftStatus → Saying Unit
  | .noInformation x => Said.bds.bds61.AircraftStatusNoInformation.CheckCoherency x
  | .emergency x => Said.bds.bds61.AircraftStatusEmergency.CheckCoherency x
  | .acas x => Said.bds.bds61.AircraftStatusACAS.CheckCoherency x

/-- pkg/adsb/aircraft_status/aircraft_status.go:20-22 -/
def Said.adsb.aircraft_status.AircraftStatus.CheckCoherency (aircraftStatus : AircraftStatus) (adsbVersion : UInt8) : Saying Unit := do
  Said.bds.bds61.AircraftStatus.CheckCoherency aircraftStatus

/-- pkg/bds/bds61/fields/subtype.go:32-46 -/
def Said.bds.bds61.fields.Subtype.ToString (subtype : UInt8) : List Char :=
  if subtype = 0 then
    t! "0 - no information"
  else
    if subtype = 1 then
      t! "1 - emergency/priority status"
    else
      if subtype = 2 then
        t! "2 - TCAS/ACAS RA Broadcast"
      else
        if (((subtype = 3 ∨ subtype = 4) ∨ subtype = 5) ∨ subtype = 6) ∨ subtype = 7 then
          dec subtype.toNat ++ t! " - reserved"
        else
          dec subtype.toNat ++ t! " - Unknown code"

/-- pkg/bds/bds61/aircraft_status_no_information.go:49-80 -/
def Said.bds.bds61.ReadAircraftStatusNoInformation (data : List UInt8) : Saying StatusNoInformation := do
  if data.length ≠ 7 then say (t! "the data must be 7 bytes long (" ++ dec data.length ++ t! " given)")
  let formatTypeCode := ((← idx data 0) &&& 248) >>> 3
  if formatTypeCode ≠ 28 then say (t! "the field FormatTypeCode must be 28, got " ++ dec formatTypeCode.toNat)
  let subType ← Gen.bds.bds61.fields.ReadSubtype data
  if subType ≠ 0 then say (t! "the data are given for subtype " ++ (Said.bds.bds61.fields.Subtype.ToString subType) ++ t! " format and can not be read by ReadAircraftStatusNoInformation")
  if ((← idx data 1) &&& 31) ≠ 0 then say (t! "the bits 12 to 16 are expected to be 0")
  if ((← idx data 1) &&& 31) ≠ 0 then say (t! "the bits 17 to 56 are expected to be 0")
  if ((← idx data 1) &&& 31) ≠ 0 then say (t! "the bits 17 to 56 are expected to be 0")
  if ((← idx data 1) &&& 31) ≠ 0 then say (t! "the bits 17 to 56 are expected to be 0")
  if ((← idx data 1) &&& 31) ≠ 0 then say (t! "the bits 17 to 56 are expected to be 0")
  if ((← idx data 1) &&& 31) ≠ 0 then say (t! "the bits 17 to 56 are expected to be 0")
  return { formatTypeCode := formatTypeCode,
           subtype := subType,
           emergencyPriorityStatus := (← Gen.bds.bds61.fields.ReadEmergencyPriorityStatus data) : StatusNoInformation }

/-- pkg/bds/bds61/aircraft_status_emergency.go:50-81 -/
def Said.bds.bds61.ReadAircraftStatusEmergency (data : List UInt8) : Saying StatusEmergency := do
  if data.length ≠ 7 then say (t! "the data must be 7 bytes long (" ++ dec data.length ++ t! " given)")
  let formatTypeCode := ((← idx data 0) &&& 248) >>> 3
  if formatTypeCode ≠ 28 then say (t! "the field FormatTypeCode must be 28, got " ++ dec formatTypeCode.toNat)
  let subType ← Gen.bds.bds61.fields.ReadSubtype data
  if subType ≠ 1 then say (t! "the data are given for subtype " ++ (Said.bds.bds61.fields.Subtype.ToString subType) ++ t! " format and can not be read by ReadAircraftStatusEmergency")
  let byte1 := (← idx data 1) &&& 31
  let byte2 ← idx data 2
  if (← idx data 3) ≠ 0 then say (t! "the bits 25 to 56 are expected to be 0")
  if (← idx data 4) ≠ 0 then say (t! "the bits 25 to 56 are expected to be 0")
  if (← idx data 5) ≠ 0 then say (t! "the bits 25 to 56 are expected to be 0")
  if (← idx data 6) ≠ 0 then say (t! "the bits 25 to 56 are expected to be 0")
  return { formatTypeCode := formatTypeCode,
           subtype := subType,
           emergencyPriorityStatus := (← Gen.bds.bds61.fields.ReadEmergencyPriorityStatus data),
           modeACode := Gen.bitutils.Pack2Bytes byte1 byte2 : StatusEmergency }

/-- pkg/bds/bds61/aircraft_status_acas.go:44-70 -/
def Said.bds.bds61.ReadAircraftStatusACAS (data : List UInt8) : Saying StatusACAS := do
  if data.length ≠ 7 then say (t! "the data must be 7 bytes long (" ++ dec data.length ++ t! " given)")
  let formatTypeCode := ((← idx data 0) &&& 248) >>> 3
  if formatTypeCode ≠ 28 then say (t! "the field FormatTypeCode must be 28, got " ++ dec formatTypeCode.toNat)
  let subType ← Gen.bds.bds61.fields.ReadSubtype data
  if subType ≠ 2 then say (t! "the data are given for subtype " ++ (Said.bds.bds61.fields.Subtype.ToString subType) ++ t! " format and can not be read by ReadAircraftStatusACAS")
  let resolutionAdvisory ← Said.acas.ra.ReadResolutionAdvisory (← sliceFrom data 1)
  return { formatTypeCode := formatTypeCode, subtype := subType, resolutionAdvisory := resolutionAdvisory : StatusACAS }

/-- pkg/bds/bds61/aircraft_status.go:15-37 -/
def Said.bds.bds61.ReadAircraftStatus (data : List UInt8) : Saying AircraftStatus := do
  if data.length ≠ 7 then say (t! "the data must be 7 bytes long (" ++ dec data.length ++ t! " given)")
  let formatTypeCode := ((← idx data 0) &&& 248) >>> 3
  if formatTypeCode ≠ 28 then say (t! "the data are given at format " ++ dec formatTypeCode.toNat ++ t! " and can not be read by ReadAircraftStatus")
  let subType ← Gen.bds.bds61.fields.ReadSubtype data
  if subType = 0 then
    return AircraftStatus.noInformation (← Said.bds.bds61.ReadAircraftStatusNoInformation data)
  else
    if subType = 1 then
      return AircraftStatus.emergency (← Said.bds.bds61.ReadAircraftStatusEmergency data)
    else
      if subType = 2 then
        return AircraftStatus.acas (← Said.bds.bds61.ReadAircraftStatusACAS data)
      else
        say (t! "the field SubType must be comprised between 0 and 2 included, got " ++ dec subType.toNat)

/-- pkg/adsb/aircraft_status/aircraft_status.go:31-42 -/
def Said.adsb.aircraft_status.ReadAircraftStatus (adsbVersion : UInt8) (data : List UInt8) : Saying ADSBMessage := do
  let bds ← Said.bds.bds61.ReadAircraftStatus data
  return .status bds adsbVersion

/-- pkg/adsb/no_position_information/no_position_information.go:22-24 -/
def Said.adsb.no_position_information.NoPositionInformation.CheckCoherency (adsbVersion : UInt8) (formatTypeCode : UInt8) (altitudeBarometric : Int) (navigationIntegrityCategory : UInt8) : Saying Unit := do
  return ()

/-- pkg/adsb/no_position_information/no_position_information.go:38-54 -/
def Said.adsb.no_position_information.ReadNoPositionInformation (adsbVersion : UInt8) (data : List UInt8) : Saying ADSBMessage := do
  let dataTmp := [120, (← idx data 1), (← idx data 2), 0, 0, 0, 0]
  let bds ← Said.bds.bds05.ReadAirbornePosition dataTmp
  return .noPosition adsbVersion 0 bds.altitudeInFeet 0

/-- pkg/bds/bds06/surface_position.go:57-83 -/
def Said.bds.bds06.ReadSurfacePosition (data : List UInt8) : Saying SurfacePosition := do
  if data.length ≠ 7 then say (t! "the data must be 7 bytes long (" ++ dec data.length ++ t! " given)")
  let formatTypeCode := ((← idx data 0) &&& 248) >>> 3
  if formatTypeCode < 5 ∨ formatTypeCode > 8 then say (t! "the field FormatTypeCode must be comprised between 5 and 8 included, got " ++ dec formatTypeCode.toNat)
  let (speed, movementStatus) ← Gen.bds.bds06.fields.ReadMovement data
  let (groundTrack, groundTrackStatus) ← Gen.bds.bds06.fields.ReadGroundTrack data
  return { formatTypeCode := formatTypeCode,
           movementStatus := movementStatus,
           movementSpeed := speed,
           groundTrackStatus := groundTrackStatus,
           groundTrack := groundTrack,
           time := (← Gen.bds.bds06.fields.ReadTime data),
           cprFormat := (← Gen.bds.bds06.fields.ReadCompactPositionReportingFormat data),
           encodedLatitude := (← Gen.bds.bds06.fields.ReadEncodedLatitude data),
           encodedLongitude := (← Gen.bds.bds06.fields.ReadEncodedLongitude data) : SurfacePosition }

/-- pkg/adsb/surface_position/surface_position_v0.go:38-50 -/
def Said.adsb.surface_position.ReadSurfacePositionV0 (data : List UInt8) : Saying ADSBMessage := do
  let bds ← Said.bds.bds06.ReadSurfacePosition data
  return .surfaceV0 bds bds.formatTypeCode bds.formatTypeCode

/-- pkg/adsb/surface_position/surface_position_v1.go:41-56 -/
def Said.adsb.surface_position.ReadSurfacePositionV1 (data : List UInt8) (nicSupplementA : Bool) : Saying ADSBMessage := do
  let bds ← Said.bds.bds06.ReadSurfacePosition data
  let (hcr, nic) := Gen.adsb.surface_position.getHCRAndNICForV1 bds.formatTypeCode nicSupplementA
  return .surfaceV1 bds nicSupplementA hcr nic

/-- pkg/adsb/surface_position/surface_position_v2.go:44-60 -/
def Said.adsb.surface_position.ReadSurfacePositionV2 (data : List UInt8) (nicSupplementA : Bool) (nicSupplementC : Bool) : Saying ADSBMessage := do
  let bds ← Said.bds.bds06.ReadSurfacePosition data
  let (hcr, nic) := Gen.adsb.surface_position.getHCRAndNICForV2 bds.formatTypeCode nicSupplementA nicSupplementC
  return .surfaceV2 bds nicSupplementA nicSupplementC hcr nic

/-- pkg/adsb/surface_position/surface_position.go:9-21 -/
def Said.adsb.surface_position.ReadSurfacePosition (adsbVersion : UInt8) (data : List UInt8) (nicSupplementA : Bool) (nicSupplementC : Bool) : Saying ADSBMessage := do
  if adsbVersion = 0 then
    Said.adsb.surface_position.ReadSurfacePositionV0 data
  else
    if adsbVersion = 1 then
      Said.adsb.surface_position.ReadSurfacePositionV1 data nicSupplementA
    else
      if adsbVersion = 2 then
        Said.adsb.surface_position.ReadSurfacePositionV2 data nicSupplementA nicSupplementC
      else
        say (t! "the ADS-B version " ++ dec adsbVersion.toNat ++ t! " does not allow to read AirbornePosition messages")

/-- pkg/bds/bds62/fields/subtype.go:24-36 -/
def Said.bds.bds62.fields.Subtype.ToString (subtype : UInt8) : List Char :=
  if subtype = 0 then
    t! "0 - Subtype 0"
  else
    if subtype = 1 then
      t! "1 - Subtype 1"
    else
      if subtype = 2 ∨ subtype = 3 then
        dec subtype.toNat ++ t! " - reserved"
      else
        dec subtype.toNat ++ t! " - Unknown code"

/-- pkg/bds/bds62/target_state_and_status_type_0.go:91-138 -/
def Said.bds.bds62.ReadTargetStateAndStatus0 (data : List UInt8) : Saying TargetStateAndStatus0 := do
  if data.length ≠ 7 then say (t! "the data must be 7 bytes long (" ++ dec data.length ++ t! " given)")
  let formatTypeCode := ((← idx data 0) &&& 248) >>> 3
  if formatTypeCode ≠ 29 then say (t! "the field FormatTypeCode must be 29, got " ++ dec formatTypeCode.toNat)
  let subType ← Gen.bds.bds62.fields.ReadSubtype data
  if subType ≠ 0 then say (t! "the data are given for subtype " ++ (Said.bds.bds62.fields.Subtype.ToString subType) ++ t! " format and can not be read by ReadTargetStateAndStatus0")
  if ((← idx data 5) &&& 3) ≠ 0 then say (t! "the bits 47 to 48 are expected to be 0")
  if ((← idx data 6) &&& 224) ≠ 0 then say (t! "the bits 49 to 51 are expected to be 0")
  let (targetAltitude, targetAltitudeStatus) ← Gen.bds.bds62.fields.ReadTargetAltitude data
  let (targetHeading, targetHeadingStatus) ← Gen.bds.bds62.fields.ReadTargetHeadingTrackAngle data
  return { formatTypeCode := formatTypeCode,
           subtype := subType,
           verticalDataAvailableSourceIndicator := (← Gen.bds.bds62.fields.ReadVerticalDataAvailableSourceIndicator data),
           targetAltitudeType := (← Gen.bds.bds62.fields.ReadTargetAltitudeType data),
           targetAltitudeCapability := (← Gen.bds.bds62.fields.ReadTargetAltitudeCapability data),
           verticalModeIndicator := (← Gen.bds.bds62.fields.ReadVerticalModeIndicator data),
           targetAltitudeStatus := targetAltitudeStatus,
           targetAltitude := targetAltitude,
           horizontalDataAvailableSourceIndicator := (← Gen.bds.bds62.fields.ReadHorizontalDataAvailableSourceIndicator data),
           targetHeadingTrackAngleStatus := targetHeadingStatus,
           targetHeadingTrackAngle := targetHeading,
           targetHeadingTrackIndicator := (← Gen.bds.bds62.fields.ReadTargetHeadingTrackIndicator data),
           horizontalModeIndicator := (← Gen.bds.bds62.fields.ReadHorizontalModeIndicator data),
           navigationalAccuracyCategoryPosition := (← Gen.bds.bds62.fields.ReadNavigationalAccuracyCategoryPositionV1 data),
           nicBaro := (← Gen.bds.bds62.fields.ReadNICBaro data),
           surveillanceIntegrityLevel := (← Gen.bds.bds62.fields.ReadSurveillanceIntegrityLevel data),
           capabilityModeCode := (← Gen.bds.bds62.fields.ReadCapabilityModeCode data),
           emergencyPriorityStatus := (← Gen.bds.bds62.fields.ReadEmergencyPriorityStatus data) : TargetStateAndStatus0 }

/-- pkg/bds/bds62/target_state_and_status_type_1.go:96-138 -/
def Said.bds.bds62.ReadTargetStateAndStatus1 (data : List UInt8) : Saying TargetStateAndStatus1 := do
  if data.length ≠ 7 then say (t! "the data must be 7 bytes long (" ++ dec data.length ++ t! " given)")
  let formatTypeCode := ((← idx data 0) &&& 248) >>> 3
  if formatTypeCode ≠ 29 then say (t! "the field FormatTypeCode must be 29, got " ++ dec formatTypeCode.toNat)
  let subType ← Gen.bds.bds62.fields.ReadSubtype data
  if subType ≠ 1 then say (t! "the data are given for subtype " ++ (Said.bds.bds62.fields.Subtype.ToString subType) ++ t! " format and can not be read by ReadTargetStateAndStatus1")
  let (selectedAltitude, selectedAltitudeStatus) ← Gen.bds.bds62.fields.ReadSelectedAltitude data
  let (barometricPressureSetting, barometricPressureSettingStatus) ← Gen.bds.bds62.fields.ReadBarometricPressureSetting data
  let (selectedHeading, selectedHeadingStatus) ← Gen.bds.bds62.fields.ReadSelectedHeading data
  return { formatTypeCode := formatTypeCode,
           subtype := subType,
           sourceIntegrityLevelSupplement := (← Gen.bds.bds62.fields.ReadSourceIntegrityLevelSupplement data),
           selectedAltitudeType := (← Gen.bds.bds62.fields.ReadSelectedAltitudeType data),
           selectedAltitudeStatus := selectedAltitudeStatus,
           selectedAltitude := selectedAltitude,
           barometricPressureSettingStatus := barometricPressureSettingStatus,
           barometricPressureSetting := barometricPressureSetting,
           selectedHeadingStatus := selectedHeadingStatus,
           selectedHeading := selectedHeading.1,
           selectedHeadingMinus := selectedHeading.2,
           navigationalAccuracyCategoryPosition := (← Gen.bds.bds62.fields.ReadNavigationalAccuracyCategoryPositionV2 data),
           nicBaro := (← Gen.bds.bds62.fields.ReadNICBaro data),
           sourceIntegrityLevel := (← Gen.bds.bds62.fields.ReadSourceIntegrityLevel data),
           statusMCPFCUBits := (← Gen.bds.bds62.fields.ReadStatusMCPFCUBits data),
           autopilotEngaged := ((← idx data 5) &&& 1) != 0,
           vnavModeEngaged := ((← idx data 6) &&& 128) != 0,
           altitudeHoldModeEngaged := ((← idx data 6) &&& 64) != 0,
           approachModeEngaged := ((← idx data 6) &&& 16) != 0,
           tcasACASOperational := ((← idx data 6) &&& 8) != 0,
           lnavModeEngaged := ((← idx data 6) &&& 4) != 0 : TargetStateAndStatus1 }

/-- pkg/bds/bds62/target_state_and_status.go:15-35 -/
def Said.bds.bds62.ReadTargetStateAndStatus (data : List UInt8) : Saying TargetStateAndStatus := do
  if data.length ≠ 7 then say (t! "the data must be 7 bytes long (" ++ dec data.length ++ t! " given)")
  let formatTypeCode := ((← idx data 0) &&& 248) >>> 3
  if formatTypeCode ≠ 29 then say (t! "the data are given at format " ++ dec formatTypeCode.toNat ++ t! " and can not be read by ReadTargetStateAndStatus")
  let subType ← Gen.bds.bds62.fields.ReadSubtype data
  if subType = 0 then
    return TargetStateAndStatus.type0 (← Said.bds.bds62.ReadTargetStateAndStatus0 data)
  else
    if subType = 1 then
      return TargetStateAndStatus.type1 (← Said.bds.bds62.ReadTargetStateAndStatus1 data)
    else
      say (t! "the field SubType must be comprised between 0 and 1 included, got " ++ dec subType.toNat)

/-- pkg/adsb/target_state_and_status/target_state_status.go:31-42 -/
def Said.adsb.target_state_and_status.ReadTargetStateAndStatus (adsbVersion : UInt8) (data : List UInt8) : Saying ADSBMessage := do
  let bds ← Said.bds.bds62.ReadTargetStateAndStatus data
  return .targetState bds adsbVersion

/-- pkg/adsb/reader/reader.go:33-105 -/
def Said.adsb.reader.ReadADSBMessage (adsbLevel : UInt8) (nicSupplementA : Bool) (nicSupplementC : Bool) (data : List UInt8) : Saying ADSBMessage := do
  if data.length ≠ 7 then say (t! "the data for ADSB message must be 7 bytes long")
  let formatTypeCode := ((← idx data 0) &&& 248) >>> 3
  if formatTypeCode = 0 then
    if (← andGo (← andGo (← andGo (← andGo (((← idx data 2) &&& 15) == 0) (do pure ((← idx data 3) == 0))) (do pure ((← idx data 4) == 0))) (do pure ((← idx data 5) == 0))) (do pure ((← idx data 6) == 0))) then
      Said.adsb.no_position_information.ReadNoPositionInformation adsbLevel data
    else
      Said.adsb.airborne_position.ReadAirbornePositionType0 adsbLevel data
  else
    if ((formatTypeCode = 1 ∨ formatTypeCode = 2) ∨ formatTypeCode = 3) ∨ formatTypeCode = 4 then
      Said.adsb.aircraft_identification_and_category.ReadAircraftIdentificationAndCategory adsbLevel data
    else
      if ((formatTypeCode = 5 ∨ formatTypeCode = 6) ∨ formatTypeCode = 7) ∨ formatTypeCode = 8 then
        Said.adsb.surface_position.ReadSurfacePosition adsbLevel data nicSupplementA nicSupplementC
      else
        if (((((((((((formatTypeCode = 9 ∨ formatTypeCode = 10) ∨ formatTypeCode = 11) ∨ formatTypeCode = 12) ∨ formatTypeCode = 13) ∨ formatTypeCode = 14) ∨ formatTypeCode = 15) ∨ formatTypeCode = 16) ∨ formatTypeCode = 17) ∨ formatTypeCode = 18) ∨ formatTypeCode = 20) ∨ formatTypeCode = 21) ∨ formatTypeCode = 22 then
          Said.adsb.airborne_position.ReadAirbornePosition adsbLevel data nicSupplementA
        else
          if formatTypeCode = 19 then
            Said.adsb.airborne_velocity.ReadAirborneVelocity adsbLevel data
          else
            if formatTypeCode = 28 then
              Said.adsb.aircraft_status.ReadAircraftStatus adsbLevel data
            else
              if formatTypeCode = 29 then
                Said.adsb.target_state_and_status.ReadTargetStateAndStatus adsbLevel data
              else
                if formatTypeCode = 31 then
                  Said.adsb.aircraft_operational_status.ReadAircraftOperationalStatus adsbLevel data
                else
                  say (t! "the formatTypeCode " ++ dec formatTypeCode.toNat ++ t! " is not supported")

/-- pkg/bds/bds06/surface_position.go:28-30 -/
def Said.bds.bds06.SurfacePosition.CheckCoherency (message : SurfacePosition) : Saying Unit := do
  return ()

/-- pkg/adsb/surface_position/surface_position_v0.go:33-35 -/
def Said.adsb.surface_position.SurfacePositionV0.CheckCoherency (surfacePosition : SurfacePosition) (horizontalProtectionLimit : UInt8) (containmentRadius : UInt8) : Saying Unit := do
  Said.bds.bds06.SurfacePosition.CheckCoherency surfacePosition

/-- pkg/adsb/surface_position/surface_position_v1.go:36-38 -/
def Said.adsb.surface_position.SurfacePositionV1.CheckCoherency (surfacePosition : SurfacePosition) (nicSupplementA : Bool) (horizontalContainmentRadius : UInt8) (navigationIntegrityCategory : UInt8) : Saying Unit := do
  Said.bds.bds06.SurfacePosition.CheckCoherency surfacePosition

/-- pkg/adsb/surface_position/surface_position_v2.go:39-41 -/
def Said.adsb.surface_position.SurfacePositionV2.CheckCoherency (surfacePosition : SurfacePosition) (nicSupplementA : Bool) (nicSupplementC : Bool) (horizontalContainmentRadius : UInt8) (navigationIntegrityCategory : UInt8) : Saying Unit := do
  Said.bds.bds06.SurfacePosition.CheckCoherency surfacePosition

/-- pkg/bds/bds62/target_state_and_status_type_0.go:45-47 -/
def Said.bds.bds62.TargetStateAndStatus0.CheckCoherency (message : TargetStateAndStatus0) : Saying Unit := do
  return ()

/-- pkg/bds/bds62/target_state_and_status_type_1.go:46-48 -/
def Said.bds.bds62.TargetStateAndStatus1.CheckCoherency (message : TargetStateAndStatus1) : Saying Unit := do
  return ()

/-- The method CheckCoherency called through the interface pkg/bds/bds62.TargetStateAndStatus; its implementations are in pkg/bds/bds62/target_state_and_status_type_0.go, pkg/bds/bds62/target_state_and_status_type_1.go. -/
def Said.bds.bds62.TargetStateAndStatus.CheckCoherency : TargetStateAndStatus → Saying Unit
  | .type0 x => Said.bds.bds62.TargetStateAndStatus0.CheckCoherency x
  | .type1 x => Said.bds.bds62.TargetStateAndStatus1.CheckCoherency x

/-- pkg/adsb/target_state_and_status/target_state_status.go:20-22 -/
def Said.adsb.target_state_and_status.TargetStateAndStatus.CheckCoherency (targetStateAndStatus : TargetStateAndStatus) (adsbVersion : UInt8) : Saying Unit := do
  Said.bds.bds62.TargetStateAndStatus.CheckCoherency targetStateAndStatus

/-- pkg/bds/bds00/no_message_available.go:30-32 -/
def Said.bds.bds00.NoMessageAvailable.CheckCoherency (message : NoMessageAvailable) : Saying Unit := do
  return ()

/-- pkg/bds/bds00/no_message_available.go:35-48 -/
def Said.bds.bds00.ReadNoMessageAvailable (data : List UInt8) : Saying NoMessageAvailable := do
  if data.length ≠ 7 then say (t! "the data for Comm-B NoMessageAvailable message must be 7 bytes long")
  if (← idx data 0) ≠ 0 then say (t! "bits 1 to 56 must be zero")
  if (← idx data 1) ≠ 0 then say (t! "bits 1 to 56 must be zero")
  if (← idx data 2) ≠ 0 then say (t! "bits 1 to 56 must be zero")
  if (← idx data 3) ≠ 0 then say (t! "bits 1 to 56 must be zero")
  if (← idx data 4) ≠ 0 then say (t! "bits 1 to 56 must be zero")
  if (← idx data 5) ≠ 0 then say (t! "bits 1 to 56 must be zero")
  if (← idx data 6) ≠ 0 then say (t! "bits 1 to 56 must be zero")
  return ({} : NoMessageAvailable)

/-- pkg/bds/bds07/status.go:25-31 -/
def Said.bds.bds07.Status.CheckCoherency (message : Status07) : Saying Unit := do
  if message.transmissionRateSubfield ≥ 3 then say (t! "field TransmissionRateSubfield is a Reserved value")
  return ()

/-- pkg/bds/bds07/status.go:45-66 -/
def Said.bds.bds07.ReadStatus (data : List UInt8) : Saying Status07 := do
  if data.length ≠ 7 then say (t! "the data for Comm-B Status message must be 7 bytes long")
  if ((← idx data 0) &&& 28) ≠ 0 then say (t! "the bits 4 to 8 are reserved and must be 0")
  if (← idx data 1) ≠ 0 then say (t! "the bits 9 to 56 are reserved and must be 0")
  if (← idx data 2) ≠ 0 then say (t! "the bits 9 to 56 are reserved and must be 0")
  if (← idx data 3) ≠ 0 then say (t! "the bits 9 to 56 are reserved and must be 0")
  if (← idx data 4) ≠ 0 then say (t! "the bits 9 to 56 are reserved and must be 0")
  if (← idx data 5) ≠ 0 then say (t! "the bits 9 to 56 are reserved and must be 0")
  if (← idx data 6) ≠ 0 then say (t! "the bits 9 to 56 are reserved and must be 0")
  return { transmissionRateSubfield := (← Gen.bds.bds07.fields.ReadTransmissionRateSubfield data),
           altitudeTypeSubfield := (← Gen.bds.bds07.fields.ReadAltitudeTypeSubfield data) : Status07 }

/-- pkg/bds/bds10/data_link_capability_report.go:39-70 -/
def Said.bds.bds10.DataLinkCapabilityReport.CheckCoherency (message : DataLinkCapabilityReport) : Saying Unit := do
  if message.acasStatus = 0 then
    if message.acasHybridSurveillanceCapability ≠ 0 then say (t! "field ACASStatus is FailedOrStandBy but ACASHybridSurveillanceCapability is not HybridSurveillanceNotCapable")
    if message.acasGenerationCapability ≠ 0 then say (t! "field ACASStatus is FailedOrStandBy but ACASGenerationCapability is not ACASGenerationNotCapable")
    if message.acasApplicableDocument ≠ 0 then say (t! "field ACASStatus is FailedOrStandBy but ACASApplicableDocument is not ACASApplicableDocument185")
    if message.modeSSubnetworkVersion > 5 then say (t! "field ModeSSubnetworkVersion is a Reserved value")
    if message.uplinkELMThroughputCapability > 6 then say (t! "field UplinkELMThroughputCapability is a Reserved value")
    if message.downlinkELMThroughputCapability > 6 then say (t! "field DownlinkELMThroughputCapability is a Reserved value")
    return ()
  else
    if message.acasApplicableDocument > 2 then say (t! "field ACASApplicableDocument is a Reserved value")
    if message.modeSSubnetworkVersion > 5 then say (t! "field ModeSSubnetworkVersion is a Reserved value")
    if message.uplinkELMThroughputCapability > 6 then say (t! "field UplinkELMThroughputCapability is a Reserved value")
    if message.downlinkELMThroughputCapability > 6 then say (t! "field DownlinkELMThroughputCapability is a Reserved value")
    return ()

/-- pkg/bds/bds10/data_link_capability_report.go:110-144 -/
def Said.bds.bds10.ReadDataLinkCapabilityReport (data : List UInt8) : Saying DataLinkCapabilityReport := do
  if data.length ≠ 7 then say (t! "the data for Comm-B DataLinkCapabilityReport message must be 7 bytes long")
  if (← idx data 0) ≠ 16 then say (t! "the first byte of data is not 0x10")
  if ((← idx data 1) &&& 124) ≠ 0 then say (t! "the bits 10 to 14 are reserved and must be 0")
  return { continuationFlag := (← Gen.bds.bds10.fields.ReadContinuationFlag data),
           overlayCommandCapability := (← Gen.bds.bds10.fields.ReadOverlayCommandCapability data),
           acasStatus := (← Gen.bds.bds10.fields.ReadACASStatus data),
           modeSSubnetworkVersion := (← Gen.bds.bds10.fields.ReadModeSSubnetworkVersion data),
           transponderEnhancedProtocolIndicator := (← Gen.bds.bds10.fields.ReadTransponderEnhancedProtocolIndicator data),
           modeSSpecificServicesCapability := (← Gen.bds.bds10.fields.ReadModeSSpecificServicesCapability data),
           uplinkELMThroughputCapability := (← Gen.bds.bds10.fields.ReadUplinkELMThroughputCapability data),
           downlinkELMThroughputCapability := (← Gen.bds.bds10.fields.ReadDownlinkELMThroughputCapability data),
           aircraftIdentificationCapability := (← Gen.bds.bds10.fields.ReadAircraftIdentificationCapability data),
           squitterCapabilitySubfield := (← Gen.bds.bds10.fields.ReadSquitterCapabilitySubfield data),
           surveillanceIdentifierCode := (← Gen.bds.bds10.fields.ReadSurveillanceIdentifierCode data),
           commonUsageGICBCapability := (← Gen.bds.bds10.fields.ReadCommonUsageGICBCapability data),
           acasHybridSurveillanceCapability := (← Gen.bds.bds10.fields.ReadACASHybridSurveillanceCapability data),
           acasGenerationCapability := (← Gen.bds.bds10.fields.ReadACASGenerationCapability data),
           acasApplicableDocument := (← Gen.bds.bds10.fields.ReadACASApplicableDocument data),
           dteSubAddressStatuses := (← Gen.bds.bds10.fields.ReadDTESubAddressStatuses data) : DataLinkCapabilityReport }

/-- pkg/bds/bds17/common_usage_gicb_capability_report.go:100-102 -/
def Said.bds.bds17.CommonUsageGICBCapabilityReport.CheckCoherency (message : GICBCapabilityReport) : Saying Unit := do
  return ()

/-- pkg/bds/bds17/common_usage_gicb_capability_report.go:105-149 -/
def Said.bds.bds17.ReadCommonUsageGICBCapabilityReport (data : List UInt8) : Saying GICBCapabilityReport := do
  if data.length ≠ 7 then say (t! "the data for Comm-B CommonUsageGICBCapabilityReport message must be 7 bytes long")
  if ((← idx data 3) &&& 7) ≠ 0 then say (t! "the bits 30 to 32 are reserved and must be 0")
  if (← idx data 4) ≠ 0 then say (t! "the bits 33 to 56 are reserved and must be 0")
  if (← idx data 5) ≠ 0 then say (t! "the bits 33 to 56 are reserved and must be 0")
  if (← idx data 6) ≠ 0 then say (t! "the bits 33 to 56 are reserved and must be 0")
  return { extendedSquitterAirbornePosition := (((← idx data 0) &&& 128) >>> 7) != 0,
           extendedSquitterSurfacePosition := (((← idx data 0) &&& 64) >>> 6) != 0,
           extendedSquitterStatus := (((← idx data 0) &&& 32) >>> 5) != 0,
           extendedSquitterIdentificationAndCategory := (((← idx data 0) &&& 16) >>> 4) != 0,
           extendedSquitterAirborneVelocityInformation := (((← idx data 0) &&& 8) >>> 3) != 0,
           extendedSquitterEventDrivenInformation := (((← idx data 0) &&& 4) >>> 2) != 0,
           aircraftIdentification := (((← idx data 0) &&& 2) >>> 1) != 0,
           aircraftRegistrationNumber := (((← idx data 0) &&& 1) >>> 0) != 0,
           selectedVerticalIntention := (((← idx data 1) &&& 128) >>> 7) != 0,
           nextWaypointIdentifier := (((← idx data 1) &&& 64) >>> 6) != 0,
           nextWaypointPosition := (((← idx data 1) &&& 32) >>> 5) != 0,
           nextWaypointInformation := (((← idx data 1) &&& 16) >>> 4) != 0,
           meteorologicalRoutineReport := (((← idx data 1) &&& 8) >>> 3) != 0,
           meteorologicalHazardReport := (((← idx data 1) &&& 4) >>> 2) != 0,
           vhfChannelReport := (((← idx data 1) &&& 2) >>> 1) != 0,
           trackAndTurnReport := (((← idx data 1) &&& 1) >>> 0) != 0,
           positionCoarse := (((← idx data 2) &&& 128) >>> 7) != 0,
           positionFine := (((← idx data 2) &&& 64) >>> 6) != 0,
           airReferencedStateVector := (((← idx data 2) &&& 32) >>> 5) != 0,
           waypoint1 := (((← idx data 2) &&& 16) >>> 4) != 0,
           waypoint2 := (((← idx data 2) &&& 8) >>> 3) != 0,
           waypoint3 := (((← idx data 2) &&& 4) >>> 2) != 0,
           quasiStaticParameterMonitoring := (((← idx data 2) &&& 2) >>> 1) != 0,
           headingAndSpeedReport := (((← idx data 2) &&& 1) >>> 0) != 0,
           militaryApplications := (((← idx data 3) &&& 8) >>> 3) != 0 : GICBCapabilityReport }

/-- pkg/bds/bds20/aircraft_identification.go:34-40 -/
def Said.bds.bds20.AircraftIdentification.CheckCoherency (message : AircraftIdentification) : Saying Unit := do
  if message.identification.any (fun c => [35].contains c) then say (t! "field Identification contains a non valid character")
  return ()

/-- pkg/bds/bds20/aircraft_identification.go:43-74 -/
def Said.bds.bds20.ReadAircraftIdentification (data : List UInt8) : Saying AircraftIdentification := do
  if data.length ≠ 7 then say (t! "the data for Comm-B AircraftIdentification message must be 7 bytes long")
  if (← idx data 0) ≠ 32 then say (t! "the first byte of data is not 0x20")
  let codes := List.replicate 8 (0 : UInt8)
  let codes ← setIdx codes 0 (((← idx data 1) &&& 252) >>> 2)
  let codes ← setIdx codes 1 ((((← idx data 1) &&& 3) <<< 4) + (((← idx data 2) &&& 240) >>> 4))
  let codes ← setIdx codes 2 ((((← idx data 2) &&& 15) <<< 2) + (((← idx data 3) &&& 192) >>> 6))
  let codes ← setIdx codes 3 ((← idx data 3) &&& 63)
  let codes ← setIdx codes 4 (((← idx data 4) &&& 252) >>> 2)
  let codes ← setIdx codes 5 ((((← idx data 4) &&& 3) <<< 4) + (((← idx data 5) &&& 240) >>> 4))
  let codes ← setIdx codes 6 ((((← idx data 5) &&& 15) <<< 2) + (((← idx data 6) &&& 192) >>> 6))
  let codes ← setIdx codes 7 ((← idx data 6) &&& 63)
  let chars := List.replicate 8 (0 : UInt8)
  let chars ← codes.zipIdx.foldlM (fun (chars : List UInt8) (code, i) => do
    let chars ← setIdx chars i (← idx ([35, 65, 66, 67, 68, 69, 70, 71, 72, 73, 74, 75, 76, 77, 78, 79, 80, 81, 82, 83, 84, 85, 86, 87, 88, 89, 90, 35, 35, 35, 35, 35, 32, 35, 35, 35, 35, 35, 35, 35, 35, 35, 35, 35, 35, 35, 35, 35, 48, 49, 50, 51, 52, 53, 54, 55, 56, 57, 35, 35, 35, 35, 35, 35] : List UInt8) code.toNat)
    pure chars) chars
  return { identification := chars : AircraftIdentification }

/-- pkg/bds/bds30/acas_resolution_advisory.go:32-34 -/
def Said.bds.bds30.ACASResolutionAdvisory.CheckCoherency (message : ACASResolutionAdvisory) : Saying Unit := do
  return ()

/-- pkg/bds/bds30/acas_resolution_advisory.go:37-56 -/
def Said.bds.bds30.ReadACASResolutionAdvisory (data : List UInt8) : Saying ACASResolutionAdvisory := do
  if data.length ≠ 7 then say (t! "the data for Comm-B ACASResolutionAdvisory message must be 7 bytes long")
  if (← idx data 0) ≠ 48 then say (t! "the first byte of data is not 0x20")
  let resolutionAdvisory ← Said.acas.ra.ReadResolutionAdvisory (← sliceFrom data 1)
  return { resolutionAdvisory := resolutionAdvisory : ACASResolutionAdvisory }

/-- pkg/bds/bds40/selected_vertical_intention.go:66-88 -/
def Said.bds.bds40.SelectedVerticalIntention.CheckCoherency (message : SelectedVerticalIntention) : Saying Unit := do
  if (!message.mcpfcuSelectedAltitudeAvailable ∧ !message.fmsSelectedAltitudeAvailable) ∧ !message.barometricPressureSettingAvailable then say (t! "the message does not convey any information")
  if !message.mcpfcuSelectedAltitudeAvailable ∧ message.mcpfcuSelectedAltitude ≠ 0 then say (t! "the MCP/FCU SelectedAltitude status is set to false, but a MCP/FCU SelectedAltitude value is given")
  if !message.fmsSelectedAltitudeAvailable ∧ message.fmsSelectedAltitude ≠ 0 then say (t! "the FMS SelectedAltitude status is set to false, but a FMS SelectedAltitude value is given")
  if !message.barometricPressureSettingAvailable ∧ message.barometricPressureSetting ≠ 0 then say (t! "the BarometricPressureSetting status is set to false, but a BarometricPressureSetting value is given")
  return ()

/-- pkg/bds/bds40/selected_vertical_intention.go:91-127 -/
def Said.bds.bds40.ReadSelectedVerticalIntention (data : List UInt8) : Saying SelectedVerticalIntention := do
  if data.length ≠ 7 then say (t! "the data for Comm-B SelectedVerticalIntention message must be 7 bytes long")
  if ((← idx data 4) &&& 1) ≠ 0 then say (t! "the bit 40 must be zero")
  if ((← idx data 5) &&& 254) ≠ 0 then say (t! "the bits 41 to 47 must be zero")
  if ((← idx data 6) &&& 24) ≠ 0 then say (t! "the bits 52 to 53 must be zero")
  let (MCPFCUSelectedAltitudeAvailable, MCPFCUSelectedAltitude) ← Gen.bds.bds40.fields.ReadMCPSelectedAltitude data
  let (FMSSelectedAltitudeAvailable, FMSSelectedAltitude) ← Gen.bds.bds40.fields.ReadFMSSelectedAltitude data
  let (barometricPressureSettingAvailable, barometricPressureSetting) ← Gen.bds.bds40.fields.ReadBarometricPressure data
  return { mcpfcuSelectedAltitudeAvailable := MCPFCUSelectedAltitudeAvailable,
           mcpfcuSelectedAltitude := MCPFCUSelectedAltitude,
           fmsSelectedAltitudeAvailable := FMSSelectedAltitudeAvailable,
           fmsSelectedAltitude := FMSSelectedAltitude,
           barometricPressureSettingAvailable := barometricPressureSettingAvailable,
           barometricPressureSetting := barometricPressureSetting,
           statusOfModeBits := (← Gen.bds.bds40.fields.ReadStatusOfModeBits data),
           vnavMode := (((← idx data 6) &&& 128) >>> 7) == 1,
           altitudeHoldMode := (((← idx data 6) &&& 64) >>> 6) == 1,
           approachMode := (((← idx data 6) &&& 32) >>> 5) == 1,
           statusOfTargetAltitudeSource := (← Gen.bds.bds40.fields.ReadStatusOfTargetAltitudeSource data),
           targetAltitudeSource := (← Gen.bds.bds40.fields.ReadTargetAltitudeSource data) : SelectedVerticalIntention }

/-- pkg/bds/bds44/meteorological_routine_air_report_v2.go:113-140 -/
def Said.bds.bds44.ReadMeteorologicalRoutineAirReportV2 (data : List UInt8) : Saying RoutineAirReportV2 := do
  if data.length ≠ 7 then say (t! "the data for Comm-B MeteorologicalRoutineAirReport message must be 7 bytes long")
  let (windSpeedStatus, windSpeed) ← Gen.bds.bds44.fields.ReadWindSpeed data
  let (windDirectionStatus, windDirection) ← Gen.bds.bds44.fields.ReadWindDirectionV1AndV2 data
  let (staticAirTemperatureStatus, staticAirTemperature) ← Gen.bds.bds44.fields.ReadStaticAirTemperatureV1AndV2 data
  let (averageStaticPressureStatus, averageStaticPressure) ← Gen.bds.bds44.fields.ReadAverageStaticPressureV1AndV2 data
  let turbulenceFlag ← Gen.bds.bds44.fields.ReadTurbulenceFlag data
  let (humidityStatus, humidity) ← Gen.bds.bds44.fields.ReadHumidityV1AndV2 data
  return { source := (← Gen.bds.bds44.fields.ReadSource data),
           windSpeedStatus := windSpeedStatus,
           windSpeed := windSpeed,
           windDirectionStatus := windDirectionStatus,
           windDirection := windDirection,
           staticAirTemperatureStatus := staticAirTemperatureStatus,
           staticAirTemperature := staticAirTemperature,
           averageStaticPressureStatus := averageStaticPressureStatus,
           averageStaticPressure := averageStaticPressure,
           turbulenceFlag := turbulenceFlag,
           humidityStatus := humidityStatus,
           humidity := humidity : RoutineAirReportV2 }

/-- pkg/bds/bds44/meteorological_routine_air_report_v0.go:108-135 -/
def Said.bds.bds44.ReadMeteorologicalRoutineAirReportV0 (data : List UInt8) : Saying RoutineAirReportV0 := do
  if data.length ≠ 7 then say (t! "the data for Comm-B MeteorologicalRoutineAirReport message must be 7 bytes long")
  let (windSpeedStatus, windSpeed) ← Gen.bds.bds44.fields.ReadWindSpeed data
  let (windDirectionStatus, windDirection) ← Gen.bds.bds44.fields.ReadWindDirectionV0 data
  let staticAirTemperature ← Gen.bds.bds44.fields.ReadStaticAirTemperatureV0 data
  let (averageStaticPressureStatus, averageStaticPressure) ← Gen.bds.bds44.fields.ReadAverageStaticPressureV0 data
  let (turbulenceStatus, turbulence) ← Gen.bds.bds44.fields.ReadTurbulence data
  let (humidityStatus, humidity) ← Gen.bds.bds44.fields.ReadHumidityV0 data
  return { source := (← Gen.bds.bds44.fields.ReadSource data),
           windSpeedStatus := windSpeedStatus,
           windSpeed := windSpeed,
           windDirectionStatus := windDirectionStatus,
           windDirection := windDirection,
           staticAirTemperature := staticAirTemperature,
           averageStaticPressureStatus := averageStaticPressureStatus,
           averageStaticPressure := averageStaticPressure,
           turbulenceStatus := turbulenceStatus,
           turbulence := turbulence,
           humidityStatus := humidityStatus,
           humidity := humidity : RoutineAirReportV0 }

/-- pkg/bds/bds44/meteorological_routine_air_report_v1.go:105-135 -/
def Said.bds.bds44.ReadMeteorologicalRoutineAirReportV1 (data : List UInt8) : Saying RoutineAirReportV1 := do
  if data.length ≠ 7 then say (t! "the data for Comm-B MeteorologicalRoutineAirReport message must be 7 bytes long")
  if ((← idx data 0) &&& 240) ≠ 0 then say (t! "the bits 1 to 4 must be zero")
  let (windSpeedStatus, windSpeed) ← Gen.bds.bds44.fields.ReadWindSpeed data
  let (windDirectionStatus, windDirection) ← Gen.bds.bds44.fields.ReadWindDirectionV1AndV2 data
  let (staticAirTemperatureStatus, staticAirTemperature) ← Gen.bds.bds44.fields.ReadStaticAirTemperatureV1AndV2 data
  let (averageStaticPressureStatus, averageStaticPressure) ← Gen.bds.bds44.fields.ReadAverageStaticPressureV1AndV2 data
  let turbulenceFlag ← Gen.bds.bds44.fields.ReadTurbulenceFlag data
  let (humidityStatus, humidity) ← Gen.bds.bds44.fields.ReadHumidityV1AndV2 data
  return { windSpeedStatus := windSpeedStatus,
           windSpeed := windSpeed,
           windDirectionStatus := windDirectionStatus,
           windDirection := windDirection,
           staticAirTemperatureStatus := staticAirTemperatureStatus,
           staticAirTemperature := staticAirTemperature,
           averageStaticPressureStatus := averageStaticPressureStatus,
           averageStaticPressure := averageStaticPressure,
           turbulenceFlag := turbulenceFlag,
           humidityStatus := humidityStatus,
           humidity := humidity : RoutineAirReportV1 }

/-- pkg/bds/bds44/meteorological_routine_air_report.go:15-44 -/
def Said.bds.bds44.ReadMeteorologicalRoutineAirReport (data : List UInt8) : Saying RoutineAirReport := do
  if data.length ≠ 7 then say (t! "the data must be 7 bytes long (" ++ dec data.length ++ t! " given)")
  let source ← Gen.bds.bds44.fields.ReadSource data
  if ((source = 1 ∨ source = 2) ∨ source = 3) ∨ source = 4 then
    let message? ← attemptSaid (Said.bds.bds44.ReadMeteorologicalRoutineAirReportV2 data)
    match message? with
    | some message =>
      return RoutineAirReport.v2 message
    | none =>
      return RoutineAirReport.v0 (← Said.bds.bds44.ReadMeteorologicalRoutineAirReportV0 data)
  else
    if source = 0 then
      return RoutineAirReport.v1 (← Said.bds.bds44.ReadMeteorologicalRoutineAirReportV1 data)
    else
      say (t! "the field SubType must be comprised between 0 and 1 included, got " ++ dec source.toNat)

/-- pkg/bds/bds44/meteorological_routine_air_report_v0.go:70-105 -/
def Said.bds.bds44.MeteorologicalRoutineAirReportV0.CheckCoherency (message : RoutineAirReportV0) : Saying Unit := do
  if (((!message.windSpeedStatus ∧ !message.windDirectionStatus) ∧ !message.averageStaticPressureStatus) ∧ !message.turbulenceStatus) ∧ !message.humidityStatus then say (t! "the message does not convey any information")
  if message.source ≥ 5 then say (t! "field Source is a Reserved value")
  if !message.windSpeedStatus ∧ message.windSpeed ≠ 0 then say (t! "the wind speed status is set to false, but a wind speed value is given")
  if !message.windDirectionStatus ∧ message.windDirection ≠ 0 then say (t! "the wind direction status is set to false, but a wind direction value is given")
  if !message.averageStaticPressureStatus ∧ message.averageStaticPressure ≠ 0 then say (t! "the average static pressure status is set to false, but a average static pressure value is given")
  if !message.humidityStatus ∧ message.humidity ≠ 0 then say (t! "the humidity status is set to false, but a humidity value is given")
  if message.windSpeed > 250 then say (t! "the wind speed is too high (above 250 knots)")
  if message.staticAirTemperature < (-80) ∨ message.staticAirTemperature > 60 then say (t! "the static air temperature is to high or to low (-80 <= temp <= 60)")
  return ()

/-- pkg/bds/bds44/meteorological_routine_air_report_v1.go:67-102 -/
def Said.bds.bds44.MeteorologicalRoutineAirReportV1.CheckCoherency (message : RoutineAirReportV1) : Saying Unit := do
  if (((!message.windSpeedStatus ∧ !message.windDirectionStatus) ∧ !message.staticAirTemperatureStatus) ∧ !message.averageStaticPressureStatus) ∧ !message.humidityStatus then say (t! "the message does not convey any information")
  if !message.windSpeedStatus ∧ message.windSpeed ≠ 0 then say (t! "the wind speed status is set to false, but a wind speed value is given")
  if !message.windDirectionStatus ∧ message.windDirection ≠ 0 then say (t! "the wind direction status is set to false, but a wind direction value is given")
  if !message.staticAirTemperatureStatus ∧ message.staticAirTemperature ≠ 0 then say (t! "the static air temperature status is set to false, but a static air temperature value is given")
  if !message.averageStaticPressureStatus ∧ message.averageStaticPressure ≠ 0 then say (t! "the average static pressure status is set to false, but a average static pressure value is given")
  if !message.humidityStatus ∧ message.humidity ≠ 0 then say (t! "the humidity status is set to false, but a humidity value is given")
  if message.windSpeed > 250 then say (t! "the wind speed is too high (above 250 knots)")
  if message.staticAirTemperature < (-80) ∨ message.staticAirTemperature > 60 then say (t! "the static air temperature is to high or to low (-80 <= temp <= 60)")
  return ()

/-- pkg/bds/bds44/meteorological_routine_air_report_v2.go:71-110 -/
def Said.bds.bds44.MeteorologicalRoutineAirReportV2.CheckCoherency (message : RoutineAirReportV2) : Saying Unit := do
  if message.source ≥ 5 then say (t! "field Source is a Reserved value")
  if (((!message.windSpeedStatus ∧ !message.windDirectionStatus) ∧ !message.staticAirTemperatureStatus) ∧ !message.averageStaticPressureStatus) ∧ !message.humidityStatus then say (t! "the message does not convey any information")
  if !message.windSpeedStatus ∧ message.windSpeed ≠ 0 then say (t! "the wind speed status is set to false, but a wind speed value is given")
  if !message.windDirectionStatus ∧ message.windDirection ≠ 0 then say (t! "the wind direction status is set to false, but a wind direction value is given")
  if !message.staticAirTemperatureStatus ∧ message.staticAirTemperature ≠ 0 then say (t! "the static air temperature status is set to false, but a static air temperature value is given")
  if !message.averageStaticPressureStatus ∧ message.averageStaticPressure ≠ 0 then say (t! "the average static pressure status is set to false, but a average static pressure value is given")
  if !message.humidityStatus ∧ message.humidity ≠ 0 then say (t! "the humidity status is set to false, but a humidity value is given")
  if message.windSpeed > 250 then say (t! "the wind speed is too high (above 250 knots)")
  if message.staticAirTemperature < (-80) ∨ message.staticAirTemperature > 60 then say (t! "the static air temperature is to high or to low (-80 <= temp <= 60)")
  return ()

/-- pkg/bds/bds45/meteorological_hazard_report_v1.go:131-167 -/
def Said.bds.bds45.ReadMeteorologicalHazardReportV1 (data : List UInt8) : Saying HazardReportV1 := do
  if data.length ≠ 7 then say (t! "the data for Comm-B MeteorologicalHazardReport message must be 7 bytes long")
  if ((← idx data 6) &&& 3) ≠ 0 then say (t! "the bits 55 to 56 must be zero")
  let (windShearStatus, windShear) ← Gen.bds.bds45.fields.ReadWindShearV1 data
  let (microBurstStatus, microBurst) ← Gen.bds.bds45.fields.ReadMicroBurstV1 data
  let (icingStatus, icing) ← Gen.bds.bds45.fields.ReadIcingV1 data
  let (wakeVortexStatus, wakeVortex) ← Gen.bds.bds45.fields.ReadWakeVortexV1 data
  let (staticAirTemperatureStatus, staticAirTemperature) ← Gen.bds.bds45.fields.ReadStaticAirTemperatureV1 data
  let (radioHeightStatus, radioHeight) ← Gen.bds.bds45.fields.ReadRadioHeightV1 data
  let (turbulenceStatus, turbulenceAverage, turbulencePeak, turbulenceDelay) ← Gen.bds.bds45.fields.ReadTurbulenceV1 data
  return { windShearStatus := windShearStatus,
           windShear := windShear,
           microBurstStatus := microBurstStatus,
           microBurst := microBurst,
           icingStatus := icingStatus,
           icing := icing,
           wakeVortexStatus := wakeVortexStatus,
           wakeVortex := wakeVortex,
           staticAirTemperatureStatus := staticAirTemperatureStatus,
           staticAirTemperature := staticAirTemperature,
           radioHeightStatus := radioHeightStatus,
           radioHeight := radioHeight,
           turbulenceStatus := turbulenceStatus,
           turbulenceAverageEDR := turbulenceAverage,
           turbulencePeakEDR := turbulencePeak,
           turbulencePeakDelayInterval := turbulenceDelay,
           averageStaticPressureStatus := false,
           averageStaticPressure := 0 : HazardReportV1 }

/-- pkg/bds/bds45/meteorological_hazard_report_v0.go:127-164 -/
def Said.bds.bds45.ReadMeteorologicalHazardReportV0 (data : List UInt8) : Saying HazardReportV0 := do
  if data.length ≠ 7 then say (t! "the data for Comm-B MeteorologicalHazardReport message must be 7 bytes long")
  if ((← idx data 6) &&& 31) ≠ 0 then say (t! "the bits 52 to 56 must be zero")
  let (turbulenceStatus, turbulence) ← Gen.bds.bds45.fields.ReadTurbulenceV0 data
  let (windShearStatus, windShear) ← Gen.bds.bds45.fields.ReadWindShearV0 data
  let (microBurstStatus, microBurst) ← Gen.bds.bds45.fields.ReadMicroBurstV0 data
  let (icingStatus, icing) ← Gen.bds.bds45.fields.ReadIcingV0 data
  let (wakeVortexStatus, wakeVortex) ← Gen.bds.bds45.fields.ReadWakeVortexV0 data
  let (staticAirTemperatureStatus, staticAirTemperature) ← Gen.bds.bds45.fields.ReadStaticAirTemperatureV0 data
  let (averageStaticPressureStatus, averageStaticPressure) ← Gen.bds.bds45.fields.ReadAverageStaticPressure data
  let (radioHeightStatus, radioHeight) ← Gen.bds.bds45.fields.ReadRadioHeightV0 data
  return { turbulenceStatus := turbulenceStatus,
           turbulence := turbulence,
           windShearStatus := windShearStatus,
           windShear := windShear,
           microBurstStatus := microBurstStatus,
           microBurst := microBurst,
           icingStatus := icingStatus,
           icing := icing,
           wakeVortexStatus := wakeVortexStatus,
           wakeVortex := wakeVortex,
           staticAirTemperatureStatus := staticAirTemperatureStatus,
           staticAirTemperature := staticAirTemperature,
           averageStaticPressureStatus := averageStaticPressureStatus,
           averageStaticPressure := averageStaticPressure,
           radioHeightStatus := radioHeightStatus,
           radioHeight := radioHeight : HazardReportV0 }

/-- pkg/bds/bds45/meteorological_hazard_report.go:16-33 -/
def Said.bds.bds45.ReadMeteorologicalHazardReport (data : List UInt8) : Saying HazardReport := do
  if data.length ≠ 7 then say (t! "the data must be 7 bytes long (" ++ dec data.length ++ t! " given)")
  let messageV1? ← attemptWords (Said.bds.bds45.ReadMeteorologicalHazardReportV1 data)
  match messageV1? with
  | .ok messageV1 =>
    return HazardReport.v1 messageV1
  | .error err =>
    let messageV0? ← attemptWords (Said.bds.bds45.ReadMeteorologicalHazardReportV0 data)
    match messageV0? with
    | .ok messageV0 =>
      return HazardReport.v0 messageV0
    | .error err =>
      say err

/-- pkg/bds/bds45/meteorological_hazard_report_v0.go:81-124 -/
def Said.bds.bds45.MeteorologicalHazardReportV0.CheckCoherency (message : HazardReportV0) : Saying Unit := do
  if ((((((!message.turbulenceStatus ∧ !message.windShearStatus) ∧ !message.microBurstStatus) ∧ !message.icingStatus) ∧ !message.wakeVortexStatus) ∧ !message.staticAirTemperatureStatus) ∧ !message.averageStaticPressureStatus) ∧ !message.radioHeightStatus then say (t! "the message does not convey any information")
  if !message.turbulenceStatus ∧ message.turbulence ≠ 0 then say (t! "the turbulence status is set to false, but a turbulence value is given")
  if !message.windShearStatus ∧ message.windShear ≠ 0 then say (t! "the wind shear status is set to false, but a wind shear value is given")
  if !message.microBurstStatus ∧ message.microBurst ≠ 0 then say (t! "the micro burst status is set to false, but a micro burst value is given")
  if !message.icingStatus ∧ message.icing ≠ 0 then say (t! "the icing status is set to false, but a icing value is given")
  if !message.wakeVortexStatus ∧ message.wakeVortex ≠ 0 then say (t! "the wake vortex status is set to false, but a wake vortex value is given")
  if !message.staticAirTemperatureStatus ∧ message.staticAirTemperature ≠ 0 then say (t! "the static air temperature status is set to false, but a static air temperature value is given")
  if !message.averageStaticPressureStatus ∧ message.averageStaticPressure ≠ 0 then say (t! "the average static pressure status is set to false, but a average static pressure value is given")
  if !message.radioHeightStatus ∧ message.radioHeight ≠ 0 then say (t! "the radioHeight status is set to false, but a radioHeight value is given")
  if message.staticAirTemperature < (-80) ∨ message.staticAirTemperature > 60 then say (t! "the static air temperature is to high or to low (-80 <= temp <= 60)")
  return ()

/-- pkg/bds/bds45/meteorological_hazard_report_v1.go:87-128 -/
def Said.bds.bds45.MeteorologicalHazardReportV1.CheckCoherency (message : HazardReportV1) : Saying Unit := do
  if ((((((!message.turbulenceStatus ∧ !message.windShearStatus) ∧ !message.microBurstStatus) ∧ !message.icingStatus) ∧ !message.wakeVortexStatus) ∧ !message.staticAirTemperatureStatus) ∧ !message.averageStaticPressureStatus) ∧ !message.radioHeightStatus then say (t! "the message does not convey any information")
  if !message.turbulenceStatus ∧ ((message.turbulenceAverageEDR ≠ 0 ∨ message.turbulencePeakEDR ≠ 0) ∨ message.turbulencePeakDelayInterval ≠ 0) then say (t! "the turbulence status is set to false, but some turbulence values are given")
  if !message.windShearStatus ∧ message.windShear ≠ 0 then say (t! "the wind shear status is set to false, but a wind shear value is given")
  if !message.microBurstStatus ∧ message.microBurst ≠ 0 then say (t! "the micro burst status is set to false, but a micro burst value is given")
  if !message.icingStatus ∧ message.icing ≠ 0 then say (t! "the icing status is set to false, but a icing value is given")
  if !message.wakeVortexStatus ∧ message.wakeVortex ≠ 0 then say (t! "the wake vortex status is set to false, but a wake vortex value is given")
  if message.staticAirTemperatureStatus then
    if message.staticAirTemperature < (-80) ∨ message.staticAirTemperature > 60 then say (t! "the static air temperature is to high or to low (-80 <= temp <= 60)")
    if !message.averageStaticPressureStatus ∧ message.averageStaticPressure ≠ 0 then say (t! "the average static pressure status is set to false, but a average static pressure value is given")
    if !message.radioHeightStatus ∧ message.radioHeight ≠ 0 then say (t! "the radioHeight status is set to false, but a radioHeight value is given")
    return ()
  else
    if !message.averageStaticPressureStatus ∧ message.averageStaticPressure ≠ 0 then say (t! "the average static pressure status is set to false, but a average static pressure value is given")
    if !message.radioHeightStatus ∧ message.radioHeight ≠ 0 then say (t! "the radioHeight status is set to false, but a radioHeight value is given")
    return ()

/-- pkg/bds/bds50/track_and_turn_report.go:60-104 -/
def Said.bds.bds50.TrackAndTurnReport.CheckCoherency (message : TrackAndTurnReport) : Saying Unit := do
  if (((!message.rollAngleStatus ∧ !message.trueTrackAngleStatus) ∧ !message.groundSpeedStatus) ∧ !message.trackAngleRateStatus) ∧ !message.trueAirSpeedStatus then say (t! "the message does not convey any information")
  if !message.rollAngleStatus ∧ message.rollAngle ≠ 0 then say (t! "the roll angle status is set to false, but a roll angle value is given")
  if !message.trueTrackAngleStatus ∧ message.trueTrackAngle ≠ 0 then say (t! "the true track angle status is set to false, but a true track angle value is given")
  if !message.groundSpeedStatus ∧ message.groundSpeed ≠ 0 then say (t! "the ground speed status is set to false, but a ground speed value is given")
  if !message.trackAngleRateStatus ∧ message.trackAngleRate ≠ 0 then say (t! "the track angle rate status is set to false, but a track angle rate value is given")
  if !message.trueAirSpeedStatus ∧ message.trueAirSpeed ≠ 0 then say (t! "the true air speed status is set to false, but a true air speed rate value is given")
  if message.rollAngle > 50 ∨ message.rollAngle < (-50) then say (t! "the roll angle is too high (above 50 degrees)")
  if message.groundSpeed > 600 then say (t! "the ground speed is too high (above 600 knots)")
  if message.trueAirSpeed > 500 then say (t! "the true air speed is too high (above 500 knots)")
  let speedDifference := (message.groundSpeed.toNat : Int) - (message.trueAirSpeed.toNat : Int)
  if speedDifference < (-200) ∨ speedDifference > 200 then say (t! "the difference between true air speed and ground speed is too high (above 200 knots)")
  return ()

/-- pkg/bds/bds50/track_and_turn_report.go:107-131 -/
def Said.bds.bds50.ReadTrackAndTurnReport (data : List UInt8) : Saying TrackAndTurnReport := do
  if data.length ≠ 7 then say (t! "the data for Comm-B TrackAndTurnReport message must be 7 bytes long")
  let (rollAngleStatus, rollAngle) ← Gen.bds.bds50.fields.ReadRollAngle data
  let (trueTrackAngleStatus, trueTrackAngle) ← Gen.bds.bds50.fields.ReadTrueTrackAngle data
  let (groundSpeedStatus, groundSpeed) ← Gen.bds.bds50.fields.ReadGroundSpeed data
  let (trackAngleRateStatus, trackAngleRate) ← Gen.bds.bds50.fields.ReadTrackAngleRate data
  let (trueAirSpeedStatus, trueAirSpeed) ← Gen.bds.bds50.fields.ReadTrueAirSpeed data
  return { rollAngleStatus := rollAngleStatus,
           rollAngle := rollAngle,
           trueTrackAngleStatus := trueTrackAngleStatus,
           trueTrackAngle := trueTrackAngle,
           groundSpeedStatus := groundSpeedStatus,
           groundSpeed := groundSpeed,
           trackAngleRateStatus := trackAngleRateStatus,
           trackAngleRate := trackAngleRate,
           trueAirSpeedStatus := trueAirSpeedStatus,
           trueAirSpeed := trueAirSpeed : TrackAndTurnReport }

/-- pkg/bds/bds60/heading_and_speed_report.go:59-102 -/
def Said.bds.bds60.HeadingAndTrackReport.CheckCoherency (message : HeadingAndTrackReport) : Saying Unit := do
  if (((!message.magneticHeadingStatus ∧ !message.indicatedAirSpeedStatus) ∧ !message.machStatus) ∧ !message.barometricAltitudeRateStatus) ∧ !message.initialVerticalVelocityStatus then say (t! "the message does not convey any information")
  if !message.magneticHeadingStatus ∧ message.magneticHeading ≠ 0 then say (t! "the magnetic heading status is set to false, but a magnetic heading value is given")
  if !message.indicatedAirSpeedStatus ∧ message.indicatedAirSpeed ≠ 0 then say (t! "the indicated air speed status is set to false, but a indicated air speed value is given")
  if !message.machStatus ∧ message.mach ≠ 0 then say (t! "the mach status is set to false, but a mach value is given")
  if !message.barometricAltitudeRateStatus ∧ message.barometricAltitudeRate ≠ 0 then say (t! "the barometric altitude rate status is set to false, but a barometric altitude rate value is given")
  if !message.initialVerticalVelocityStatus ∧ message.initialVerticalVelocity ≠ 0 then say (t! "the initial vertical velocity status is set to false, but a initial vertical velocity value is given")
  if message.indicatedAirSpeed > 500 then say (t! "the indicated air speed is too high (above 500 knots)")
  if message.mach > 1 then say (t! "the mach is too high (above 1.0)")
  if message.barometricAltitudeRate < (-6000) ∨ message.barometricAltitudeRate > 6000 then say (t! "the barometric altitude rate is to high or to low (above or under 6000fpm)")
  if message.initialVerticalVelocity < (-6000) ∨ message.initialVerticalVelocity > 6000 then say (t! "the initial vertical velocity is to high or to low (above or under 6000fpm)")
  return ()

/-- pkg/bds/bds60/heading_and_speed_report.go:105-129 -/
def Said.bds.bds60.ReadHeadingAndSpeedReport (data : List UInt8) : Saying HeadingAndTrackReport := do
  if data.length ≠ 7 then say (t! "the data for Comm-B HeadingAndTrackReport message must be 7 bytes long")
  let (magneticHeadingStatus, magneticHeading) ← Gen.bds.bds60.fields.ReadMagneticHeading data
  let (indicatedAirSpeedStatus, indicatedAirSpeed) ← Gen.bds.bds60.fields.ReadIndicatedAirSpeed data
  let (machStatus, mach) ← Gen.bds.bds60.fields.ReadMach data
  let (barometricAltitudeRateStatus, barometricAltitudeRate) ← Gen.bds.bds60.fields.ReadBarometricAltitudeRate data
  let (initialVerticalVelocityStatus, initialVerticalVelocity) ← Gen.bds.bds60.fields.ReadInertialVerticalVelocity data
  return { magneticHeadingStatus := magneticHeadingStatus,
           magneticHeading := magneticHeading,
           indicatedAirSpeedStatus := indicatedAirSpeedStatus,
           indicatedAirSpeed := indicatedAirSpeed,
           machStatus := machStatus,
           mach := mach,
           barometricAltitudeRateStatus := barometricAltitudeRateStatus,
           barometricAltitudeRate := barometricAltitudeRate,
           initialVerticalVelocityStatus := initialVerticalVelocityStatus,
           initialVerticalVelocity := initialVerticalVelocity : HeadingAndTrackReport }

/-- The method CheckCoherency called through the interface pkg/bds/bds44.MeteorologicalRoutineAirReport; its implementations are in pkg/bds/bds44/meteorological_routine_air_report_v0.go, pkg/bds/bds44/meteorological_routine_air_report_v1.go, pkg/bds/bds44/meteorological_routine_air_report_v2.go. -/
def Said.bds.bds44.MeteorologicalRoutineAirReport.CheckCoherency : RoutineAirReport → Saying Unit
  | .v0 x => Said.bds.bds44.MeteorologicalRoutineAirReportV0.CheckCoherency x
  | .v1 x => Said.bds.bds44.MeteorologicalRoutineAirReportV1.CheckCoherency x
  | .v2 x => Said.bds.bds44.MeteorologicalRoutineAirReportV2.CheckCoherency x

/-- The method CheckCoherency called through the interface pkg/bds/bds45.MeteorologicalHazardReport; its implementations are in pkg/bds/bds45/meteorological_hazard_report_v0.go, pkg/bds/bds45/meteorological_hazard_report_v1.go. -/
def Said.bds.bds45.MeteorologicalHazardReport.CheckCoherency : HazardReport → Saying Unit
  | .v0 x => Said.bds.bds45.MeteorologicalHazardReportV0.CheckCoherency x
  | .v1 x => Said.bds.bds45.MeteorologicalHazardReportV1.CheckCoherency x

/-- The method CheckCoherency called through the interface pkg/bds.Message; its implementations are in pkg/bds/bds00/no_message_available.go, pkg/bds/bds07/status.go, pkg/bds/bds10/data_link_capability_report.go, pkg/bds/bds17/common_usage_gicb_capability_report.go, pkg/bds/bds20/aircraft_identification.go, pkg/bds/bds30/acas_resolution_advisory.go, pkg/bds/bds40/selected_vertical_intention.go, pkg/bds/bds50/track_and_turn_report.go, pkg/bds/bds60/heading_and_speed_report.go. -/
def Said.bds.Message.CheckCoherency : CommBMessage → Saying Unit
  | .bds00 x => Said.bds.bds00.NoMessageAvailable.CheckCoherency x
  | .bds07 x => Said.bds.bds07.Status.CheckCoherency x
  | .bds20 x => Said.bds.bds20.AircraftIdentification.CheckCoherency x
  | .bds10 x => Said.bds.bds10.DataLinkCapabilityReport.CheckCoherency x
  | .bds17 x => Said.bds.bds17.CommonUsageGICBCapabilityReport.CheckCoherency x
  | .bds30 x => Said.bds.bds30.ACASResolutionAdvisory.CheckCoherency x
  | .bds40 x => Said.bds.bds40.SelectedVerticalIntention.CheckCoherency x
  | .bds44 x => Said.bds.bds44.MeteorologicalRoutineAirReport.CheckCoherency x
  | .bds45 x => Said.bds.bds45.MeteorologicalHazardReport.CheckCoherency x
  | .bds50 x => Said.bds.bds50.TrackAndTurnReport.CheckCoherency x
  | .bds60 x => Said.bds.bds60.HeadingAndTrackReport.CheckCoherency x

/-- pkg/commb/reader.go:26-105 -/
def Said.commb.ReadCommBMessage (data : List UInt8) : Saying (List CommBMessage) := do
  if data.length ≠ 7 then say (t! "the data for Comm-B message must be 7 bytes long")
  let message? ← attemptSaid (Said.bds.bds00.ReadNoMessageAvailable data)
  match message? with
  | some message =>
    return [CommBMessage.bds00 message]
  | none =>
    let message? ← attemptSaid (Said.bds.bds07.ReadStatus data)
    let message? := message?.filter (fun message => saysNothing (Said.bds.Message.CheckCoherency (CommBMessage.bds07 message)))
    match message? with
    | some message =>
      return [CommBMessage.bds07 message]
    | none =>
      let message? ← attemptSaid (Said.bds.bds20.ReadAircraftIdentification data)
      let message? := message?.filter (fun message => saysNothing (Said.bds.Message.CheckCoherency (CommBMessage.bds20 message)))
      match message? with
      | some message =>
        return [CommBMessage.bds20 message]
      | none =>
        let messages := []
        let message? ← attemptSaid (Said.bds.bds10.ReadDataLinkCapabilityReport data)
        let messages := match message? with | some message => messages ++ [CommBMessage.bds10 message] | none => messages
        let message? ← attemptSaid (Said.bds.bds17.ReadCommonUsageGICBCapabilityReport data)
        let messages := match message? with | some message => messages ++ [CommBMessage.bds17 message] | none => messages
        let message? ← attemptSaid (Said.bds.bds30.ReadACASResolutionAdvisory data)
        let messages := match message? with | some message => messages ++ [CommBMessage.bds30 message] | none => messages
        let message? ← attemptSaid (Said.bds.bds40.ReadSelectedVerticalIntention data)
        let messages := match message? with | some message => messages ++ [CommBMessage.bds40 message] | none => messages
        let message? ← attemptSaid (Said.bds.bds44.ReadMeteorologicalRoutineAirReport data)
        let messages := match message? with | some message => messages ++ [CommBMessage.bds44 message] | none => messages
        let message? ← attemptSaid (Said.bds.bds45.ReadMeteorologicalHazardReport data)
        let messages := match message? with | some message => messages ++ [CommBMessage.bds45 message] | none => messages
        let message? ← attemptSaid (Said.bds.bds50.ReadTrackAndTurnReport data)
        let messages := match message? with | some message => messages ++ [CommBMessage.bds50 message] | none => messages
        let message? ← attemptSaid (Said.bds.bds60.ReadHeadingAndSpeedReport data)
        let messages := match message? with | some message => messages ++ [CommBMessage.bds60 message] | none => messages
        let coherentMessages := []
        let coherentMessages ← messages.foldlM (fun (coherentMessages : List CommBMessage) message => do
          let coherentMessages := if saysNothing (Said.bds.Message.CheckCoherency message) then
              let coherentMessages := coherentMessages ++ [message]
              coherentMessages
            else
              coherentMessages
          pure coherentMessages) coherentMessages
        return coherentMessages

/-- pkg/modes/fields/altitude_code.go:39-104 -/
def Said.modes.fields.ReadAltitude (message : MessageData) : Saying (Int × AltitudeReportMethod) := do
  let altitudeCode := ((((← idx message.payload 1) &&& 31).toUInt16) <<< 8) + ((← idx message.payload 2).toUInt16)
  if altitudeCode = 0 then
    return (0, .notAvailable)
  else
    let mBit := (altitudeCode &&& 64) != 0
    if mBit then
      return (0, .metricUnits)
    else
      let qBit := (altitudeCode &&& 16) != 0
      if qBit then
        let n : UInt16 := 0
        let n := n ||| ((altitudeCode &&& 8064) >>> 2)
        let n := n ||| ((altitudeCode &&& 32) >>> 1)
        let n := n ||| (altitudeCode &&& 15)
        let altitude := (25 * (n.toNat : Int)) - 1000
        return (altitude, .feet25)
      else
        let c1 := (altitudeCode &&& 4096) != 0
        let a1 := (altitudeCode &&& 2048) != 0
        let c2 := (altitudeCode &&& 1024) != 0
        let a2 := (altitudeCode &&& 512) != 0
        let c4 := (altitudeCode &&& 256) != 0
        let a4 := (altitudeCode &&& 128) != 0
        let b1 := (altitudeCode &&& 32) != 0
        let b2 := (altitudeCode &&& 8) != 0
        let d2 := (altitudeCode &&& 4) != 0
        let b4 := (altitudeCode &&& 2) != 0
        let d4 := (altitudeCode &&& 1) != 0
        let altitude ← saying ((t! "the Altitude field is malformed")) (Said.bitutils.GillhamToAltitude false d2 d4 a1 a2 a4 b1 b2 b4 c1 c2 c4)
        return (altitude, .feet100)

/-- pkg/modes/messages/df0.go:38-67 -/
def Said.modes.messages.ParseDF0 (message : MessageData) : Saying MessageDF0 := do
  if message.downLinkFormat ≠ 0 then say (t! "DF0 message must have a DownLinkFormat of 0")
  if message.payload.length ≠ 3 then say (t! "DF0 message must be 7 bytes long")
  let (altitude, altitudeReportMethod) ← saying ((t! "the field Altitude is not readable")) (Said.modes.fields.ReadAltitude message)
  return { data := message,
           verticalStatus := Gen.modes.fields.ReadVerticalStatus message,
           crossLinkCapability := Gen.modes.fields.ReadCrossLinkCompatibility message,
           sensitivityLevel := (← Gen.modes.fields.ReadSensitivityLevelReport message),
           replyInformation := (← Gen.modes.fields.ReadReplyInformationAirAir message),
           altitudeReportMethod := altitudeReportMethod,
           altitude := altitude : MessageDF0 }

/-- pkg/modes/messages/df11.go:32-51 -/
def Said.modes.messages.ParseDF11 (message : MessageData) : Saying MessageDF11 := do
  if message.downLinkFormat ≠ 11 then say (t! "DF11 message must have a DownLinkFormat of 11")
  if message.payload.length ≠ 3 then say (t! "DF11 message must be 7 bytes long")
  return { data := message,
           capability := Gen.modes.fields.ReadCapability message,
           addressAnnounced := (← Gen.modes.fields.ReadAddressAnnounced message) : MessageDF11 }

/-- pkg/modes/messages/df16.go:36-65 -/
def Said.modes.messages.ParseDF16 (message : MessageData) : Saying MessageDF16 := do
  if message.downLinkFormat ≠ 16 then say (t! "DF16 message must have a DownLinkFormat of 16")
  if message.payload.length ≠ 10 then say (t! "DF16 message must be 14 bytes long")
  let (altitude, altitudeReportMethod) ← saying ((t! "the field Altitude is not readable")) (Said.modes.fields.ReadAltitude message)
  return { data := message,
           verticalStatus := Gen.modes.fields.ReadVerticalStatus message,
           sensitivityLevel := (← Gen.modes.fields.ReadSensitivityLevelReport message),
           replyInformation := (← Gen.modes.fields.ReadReplyInformationAirAir message),
           altitudeReportMethod := altitudeReportMethod,
           altitude := altitude,
           messageACAS := (← Gen.modes.fields.ReadMessageACAS message) : MessageDF16 }

/-- pkg/modes/messages/df17.go:33-53 -/
def Said.modes.messages.ParseDF17 (message : MessageData) : Saying MessageDF17 := do
  if message.downLinkFormat ≠ 17 then say (t! "DF17 message must have a DownLinkFormat of 17")
  if message.payload.length ≠ 10 then say (t! "DF17 message must be 14 bytes long")
  return { data := message,
           capability := Gen.modes.fields.ReadCapability message,
           addressAnnounced := (← Gen.modes.fields.ReadAddressAnnounced message),
           messageExtendedSquitter := (← Gen.modes.fields.ReadMessageExtendedSquitter message) : MessageDF17 }

/-- pkg/modes/messages/df18.go:33-53 -/
def Said.modes.messages.ParseDF18 (message : MessageData) : Saying MessageDF18 := do
  if message.downLinkFormat ≠ 18 then say (t! "DF18 message must have a DownLinkFormat of 18")
  if message.payload.length ≠ 10 then say (t! "DF18 message must be 14 bytes long")
  return { data := message,
           controlField := Gen.modes.fields.ReadControlField message,
           addressAnnounced := (← Gen.modes.fields.ReadAddressAnnounced message),
           messageExtendedSquitter := (← Gen.modes.fields.ReadMessageExtendedSquitter message) : MessageDF18 }

/-- pkg/modes/messages/df19.go:31-49 -/
def Said.modes.messages.ParseDF19 (message : MessageData) : Saying MessageDF19 := do
  if message.downLinkFormat ≠ 19 then say (t! "DF19 message must have a DownLinkFormat of 19")
  if message.payload.length ≠ 10 then say (t! "DF19 message must be 14 bytes long")
  return { data := message, applicationField := Gen.modes.fields.ReadApplicationField message : MessageDF19 }

/-- pkg/modes/messages/df20.go:36-65 -/
def Said.modes.messages.ParseDF20 (message : MessageData) : Saying MessageDF20 := do
  if message.downLinkFormat ≠ 20 then say (t! "DF20 message must have a DownLinkFormat of 20")
  if message.payload.length ≠ 10 then say (t! "DF20 message must be 14 bytes long")
  let (altitude, altitudeReportMethod) ← saying ((t! "the field Altitude is not readable")) (Said.modes.fields.ReadAltitude message)
  return { data := message,
           flightStatus := Gen.modes.fields.ReadFlightStatus message,
           downlinkRequest := (← Gen.modes.fields.ReadDownlinkRequest message),
           utilityMessage := (← Gen.modes.fields.ReadUtilityMessage message),
           altitudeReportMethod := altitudeReportMethod,
           altitude := altitude,
           messageCommB := (← Gen.modes.fields.ReadMessageCommB message) : MessageDF20 }

/-- pkg/modes/messages/df21.go:35-57 -/
def Said.modes.messages.ParseDF21 (message : MessageData) : Saying MessageDF21 := do
  if message.downLinkFormat ≠ 21 then say (t! "DF21 message must have a DownLinkFormat of 21")
  if message.payload.length ≠ 10 then say (t! "DF21 message must be 14 bytes long")
  return { data := message,
           flightStatus := Gen.modes.fields.ReadFlightStatus message,
           downlinkRequest := (← Gen.modes.fields.ReadDownlinkRequest message),
           utilityMessage := (← Gen.modes.fields.ReadUtilityMessage message),
           identity := (← Gen.modes.fields.ReadIdentity message),
           messageCommB := (← Gen.modes.fields.ReadMessageCommB message) : MessageDF21 }

/-- pkg/modes/messages/df24.go:33-53 -/
def Said.modes.messages.ParseDF24 (message : MessageData) : Saying MessageDF24 := do
  if (message.downLinkFormat &&& 24) ≠ 24 then say (t! "DF24 message must have a DownLinkFormat of 24")
  if message.payload.length ≠ 10 then say (t! "DF24 message must be 14 bytes long")
  return { data := message,
           controlELM := Gen.modes.fields.ReadControlELM message,
           numberOfDSegment := Gen.modes.fields.ReadNumberOfDSegment message,
           messageCommD := (← Gen.modes.fields.ReadMessageCommD message) : MessageDF24 }

/-- pkg/modes/messages/df4.go:35-63 -/
def Said.modes.messages.ParseDF4 (message : MessageData) : Saying MessageDF4 := do
  if message.downLinkFormat ≠ 4 then say (t! "DF4 message must have a DownLinkFormat of 4")
  if message.payload.length ≠ 3 then say (t! "DF4 message must be 7 bytes long")
  let (altitude, altitudeReportMethod) ← saying ((t! "the field Altitude is not readable")) (Said.modes.fields.ReadAltitude message)
  return { data := message,
           flightStatus := Gen.modes.fields.ReadFlightStatus message,
           downlinkRequest := (← Gen.modes.fields.ReadDownlinkRequest message),
           utilityMessage := (← Gen.modes.fields.ReadUtilityMessage message),
           altitudeReportMethod := altitudeReportMethod,
           altitude := altitude : MessageDF4 }

/-- pkg/modes/messages/df5.go:34-55 -/
def Said.modes.messages.ParseDF5 (message : MessageData) : Saying MessageDF5 := do
  if message.downLinkFormat ≠ 5 then say (t! "DF5 message must have a DownLinkFormat of 5")
  if message.payload.length ≠ 3 then say (t! "DF5 message must be 7 bytes long")
  return { data := message,
           flightStatus := Gen.modes.fields.ReadFlightStatus message,
           downlinkRequest := (← Gen.modes.fields.ReadDownlinkRequest message),
           utilityMessage := (← Gen.modes.fields.ReadUtilityMessage message),
           identity := (← Gen.modes.fields.ReadIdentity message) : MessageDF5 }

/-- pkg/modes/reader/crc.go:43-62 -/
def Said.modes.reader.checkCRCDF11 (data : List UInt8) (allowedInterrogatorIdentifiers : AllowList) : Saying UInt32 := do
  let contentParity ← Gen.modes.reader.computeParity (← sliceTo data 4)
  let messageParity := Gen.bitutils.Pack3Bytes (← idx data 4) (← idx data 5) (← idx data 6)
  let interrogatorIdentifier := contentParity ^^^ messageParity
  if allowedInterrogatorIdentifiers.length > 0 then
    let ok := allowedInterrogatorIdentifiers.has interrogatorIdentifier
    if !ok then say (t! "the message parity resolves to an unknown Interrogator Identifier")
    return interrogatorIdentifier
  else
    return interrogatorIdentifier

/-- pkg/modes/reader/crc.go:64-78 -/
def Said.modes.reader.checkCRCDF17And18 (data : List UInt8) : Saying UInt32 := do
  let messageICAO := Gen.bitutils.Pack3Bytes (← idx data 1) (← idx data 2) (← idx data 3)
  let contentParity ← Gen.modes.reader.computeParity (← sliceTo data 11)
  let messageParity := Gen.bitutils.Pack3Bytes (← idx data 11) (← idx data 12) (← idx data 13)
  if contentParity ≠ messageParity then say (t! "the message does not have a valid CRC")
  return messageICAO

/-- pkg/modes/reader/crc.go:80-100 -/
def Said.modes.reader.checkCRCOther (data : List UInt8) (allowedAddresses : AllowList) : Saying UInt32 := do
  let messageLength := data.length
  let contentParity ← Gen.modes.reader.computeParity (← sliceToI data ((messageLength : Int) - 3))
  let messageParity := Gen.bitutils.Pack3Bytes (← idxI data ((messageLength : Int) - 3)) (← idxI data ((messageLength : Int) - 2)) (← idxI data ((messageLength : Int) - 1))
  let address := contentParity ^^^ messageParity
  if allowedAddresses.length > 0 then
    let ok := allowedAddresses.has address
    if !ok then say (t! "the message parity resolves to an unknown Address")
    return address
  else
    return address

/-- pkg/modes/reader/crc.go:27-41 -/
def Said.modes.reader.CheckCRC (message : ModeSMessage) (data : List UInt8) (allowedAddresses : AllowList) (allowedInterrogatorIdentifiers : AllowList) : Saying UInt32 := do
  let tag := Gen.modes.messages.ModeSMessage.GetDownLinkFormat message
  if tag = 11 then
    Said.modes.reader.checkCRCDF11 data allowedInterrogatorIdentifiers
  else
    if tag = 17 ∨ tag = 18 then
      Said.modes.reader.checkCRCDF17And18 data
    else
      Said.modes.reader.checkCRCOther data allowedAddresses

/-- pkg/modes/reader/reader.go:16-67 -/
def Said.modes.reader.ReadMessage (message : List UInt8) : Saying ModeSMessage := do
  if message.length ≠ 7 ∧ message.length ≠ 14 then say (t! "a Mode S message must be 7 or 14 bytes long")
  let messageData := { downLinkFormat := ((← idx message 0) &&& 248) >>> 3,
                       firstField := (← idx message 0) &&& 7,
                       payload := (← sliceI message 1 ((message.length : Int) - 3)),
                       parity := (← sliceFromI message ((message.length : Int) - 3)) : MessageData }
  if messageData.downLinkFormat = 0 then
    let modeS ← Said.modes.messages.ParseDF0 messageData
    return ModeSMessage.df0 modeS
  else
    if messageData.downLinkFormat = 4 then
      let modeS ← Said.modes.messages.ParseDF4 messageData
      return ModeSMessage.df4 modeS
    else
      if messageData.downLinkFormat = 5 then
        let modeS ← Said.modes.messages.ParseDF5 messageData
        return ModeSMessage.df5 modeS
      else
        if messageData.downLinkFormat = 11 then
          let modeS ← Said.modes.messages.ParseDF11 messageData
          return ModeSMessage.df11 modeS
        else
          if messageData.downLinkFormat = 16 then
            let modeS ← Said.modes.messages.ParseDF16 messageData
            return ModeSMessage.df16 modeS
          else
            if messageData.downLinkFormat = 17 then
              let modeS ← Said.modes.messages.ParseDF17 messageData
              return ModeSMessage.df17 modeS
            else
              if messageData.downLinkFormat = 18 then
                let modeS ← Said.modes.messages.ParseDF18 messageData
                return ModeSMessage.df18 modeS
              else
                if messageData.downLinkFormat = 19 then
                  let modeS ← Said.modes.messages.ParseDF19 messageData
                  return ModeSMessage.df19 modeS
                else
                  if messageData.downLinkFormat = 20 then
                    let modeS ← Said.modes.messages.ParseDF20 messageData
                    return ModeSMessage.df20 modeS
                  else
                    if messageData.downLinkFormat = 21 then
                      let modeS ← Said.modes.messages.ParseDF21 messageData
                      return ModeSMessage.df21 modeS
                    else
                      if ((((((messageData.downLinkFormat = 24 ∨ messageData.downLinkFormat = 25) ∨ messageData.downLinkFormat = 26) ∨ messageData.downLinkFormat = 27) ∨ messageData.downLinkFormat = 28) ∨ messageData.downLinkFormat = 29) ∨ messageData.downLinkFormat = 30) ∨ messageData.downLinkFormat = 31 then
                        let modeS ← Said.modes.messages.ParseDF24 messageData
                        return ModeSMessage.df24 modeS
                      else
                        say (t! "the downlink format " ++ dec messageData.downLinkFormat.toNat ++ t! " is not supported")

end Modes
