import Verif.Model.Translation
import Verif.Model.TextRegisters
import Verif.Model.Main
/-!
# The Go functions of `pkg` that return a text, translated mechanically

Written by `tools/go2lean/texts.py` from the text of /repo; not edited by hand. `fmt.Sprintf` is the concatenation of the parts of its
format and of the texts of its arguments; `%v` is `dec`, `decInt`, `boolText`, `asciiText` or a member of `F : FloatTexts` by the type
of the argument, `%02X` is `hex02`. `common.PrefixMultiLine` is `prefixMultiLine` of Model/Main. A pointer is an `Option`.
Not translated, but taken from the model: the computed speed and track of a velocity message (`GroundSpeedVelocity.speedText`,
`GroundSpeedVelocity.trackText`) and `DTESubAddressStatuses.ToString` (`dteText`): Model/TranslationVelocity has their translation.
-/
set_option linter.unusedVariables false
namespace Modes

noncomputable section

/-- pkg/acas/ra/fields/active_resolution_advisory_multiple_threats.go:23-37 -/
def Shown.acas.ra.fields.ActiveRAMultipleThreatsDifferentSeparation.ToString (multipleThreatsDifferentSeparation : MultipleThreats) : List Char :=
  t! "Type: Multiple threats with separation in different directions" ++
    t! "\n" ++
    t! "Require a correction in the upward sense: " ++
    boolText multipleThreatsDifferentSeparation.requiresCorrectionUpwardSense ++
    t! "\n" ++
    t! "Requires a positive climb: " ++
    boolText multipleThreatsDifferentSeparation.requiresPositiveClimb ++
    t! "\n" ++
    t! "Requires a correction in the downward sense: " ++
    boolText multipleThreatsDifferentSeparation.requiresCorrectionDownwardSense ++
    t! "\n" ++
    t! "Requires a positive descend: " ++
    boolText multipleThreatsDifferentSeparation.requiresPositiveDescend ++
    t! "\n" ++
    t! "Requires a crossing: " ++
    boolText multipleThreatsDifferentSeparation.requiresCrossing ++
    t! "\n" ++
    t! "Is a sense reversal: " ++
    boolText multipleThreatsDifferentSeparation.isSenseReversal

/-- pkg/acas/ra/fields/active_resolution_advisory_no.go:14-16 -/
def Shown.acas.ra.fields.ActiveRANoVerticalRAGenerated.ToString (noVerticalRAGenerated : ActiveRA) : List Char :=
  t! "Type: no Resolution Advisory has been generated"

/-- pkg/acas/ra/fields/active_resolution_advisory_one_or_same_separation.go:99-108 -/
def Shown.acas.ra.fields.ActiveRAPreventiveCorrective.ToString (preventiveCorrective : Nat) : List Char :=
  if preventiveCorrective = 0 then
    t! "Preventive"
  else
    if preventiveCorrective = 1 then
      t! "Corrective"
    else
      dec preventiveCorrective ++ t! " - Unknown code"

/-- pkg/acas/ra/fields/active_resolution_advisory_one_or_same_separation.go:121-130 -/
def Shown.acas.ra.fields.ActiveRASense.ToString (sense : Nat) : List Char :=
  if 0 = 0 then
    t! "Upward"
  else
    if 0 = 1 then
      t! "Downward"
    else
      dec sense ++ t! " - Unknown code"

/-- pkg/acas/ra/fields/active_resolution_advisory_one_or_same_separation.go:143-152 -/
def Shown.acas.ra.fields.ActiveRAVerticalSpeedLimitOrPositive.ToString (verticalSpeedLimitOrPositive : Nat) : List Char :=
  if verticalSpeedLimitOrPositive = 0 then
    t! "Vertical Speed Limit"
  else
    if verticalSpeedLimitOrPositive = 1 then
      t! "Positive"
    else
      dec verticalSpeedLimitOrPositive ++ t! " - Unknown code"

/-- pkg/acas/ra/fields/active_resolution_advisory_one_or_same_separation.go:23-37 -/
def Shown.acas.ra.fields.ActiveRAOneThreatOrSameSeparation.ToString (oneThreatOrSameSeparation : OneThreat) : List Char :=
  t! "Type: One threat or multiple threats with separation in same direction" ++
    t! "\n" ++
    t! "Preventive/Corrective: " ++
    (Shown.acas.ra.fields.ActiveRAPreventiveCorrective.ToString oneThreatOrSameSeparation.preventiveCorrective) ++
    t! "\n" ++
    t! "Sense generated: " ++
    (Shown.acas.ra.fields.ActiveRASense.ToString oneThreatOrSameSeparation.sense) ++
    t! "\n" ++
    t! "Is increased rate: " ++
    boolText oneThreatOrSameSeparation.isIncreasedRate ++
    t! "\n" ++
    t! "Is sense reversal: " ++
    boolText oneThreatOrSameSeparation.isSenseReversal ++
    t! "\n" ++
    t! "Is altitude crossing: " ++
    boolText oneThreatOrSameSeparation.isAltitudeCrossing ++
    t! "\n" ++
    t! "Vertical Speed Limit/Positive: " ++
    (Shown.acas.ra.fields.ActiveRAVerticalSpeedLimitOrPositive.ToString oneThreatOrSameSeparation.verticalSpeedLimitOrPositive)

/-- pkg/acas/ra/fields/multiple_threat_encounter.go:19-28 -/
def Shown.acas.ra.fields.MultipleThreatEncounter.ToString (multipleThreatEncounter : UInt8) : List Char :=
  if multipleThreatEncounter = 0 then
    t! "One or no threat is currently being processed by the ACAS"
  else
    if multipleThreatEncounter = 1 then
      t! "Two or more threats are currently being processed by the ACAS"
    else
      dec multipleThreatEncounter.toNat ++ t! " - Unknown code"

/-- pkg/acas/ra/fields/resolution_advisory_complement.go:18-27 -/
def Shown.acas.ra.fields.RAComplement.ToString (complement : RAComplement) : List Char :=
  t! "Do not pass below: " ++
    boolText complement.doNotPassBelow ++
    t! "\n" ++
    t! "Do not pass above: " ++
    boolText complement.doNotPassAbove ++
    t! "\n" ++
    t! "Do not turn left:  " ++
    boolText complement.doNotTurnLeft ++
    t! "\n" ++
    t! "Do not turn right: " ++
    boolText complement.doNotTurnRight

/-- pkg/acas/ra/fields/resolution_advisory_terminated.go:18-27 -/
def Shown.acas.ra.fields.RATerminatedIndicator.ToString (terminatedIndicator : Nat) : List Char :=
  if terminatedIndicator = 0 then
    t! "ACAS is currently generating the RA"
  else
    if terminatedIndicator = 1 then
      t! "the RA indicated has been terminated"
    else
      dec terminatedIndicator ++ t! " - Unknown code"

/-- pkg/acas/ra/fields/threat_identity_address.go:13-18 -/
def Shown.acas.ra.fields.ThreatIdentityAddress.ToString (address : UInt32) : List Char :=
  hex02 (((address &&& 16711680) >>> 16).toUInt8) ++
    t! " " ++
    hex02 (((address &&& 65280) >>> 8).toUInt8) ++
    t! " " ++
    hex02 ((address &&& 255).toUInt8) ++
    t! " "

/-- pkg/acas/ra/fields/threat_identity_altitude.go:75-84 -/
def Shown.acas.ra.fields.AltitudeStatus.ToString (altitudeStatus : UInt8) : List Char :=
  if altitudeStatus = 0 then
    t! "Not Available or Invalid"
  else
    if altitudeStatus = 1 then
      t! "Valid"
    else
      dec altitudeStatus.toNat ++ t! " - Unknown code"

/-- pkg/acas/ra/fields/threat_identity_altitude.go:87-89 -/
def Shown.acas.ra.fields.ThreatIdentityAltitude.ToString (altitude : ThreatAltitude) : List Char :=
  decInt altitude.feet ++ t! " ft / Status: " ++ (Shown.acas.ra.fields.AltitudeStatus.ToString altitude.status)

/-- pkg/acas/ra/fields/threat_identity_bearing.go:12-23 -/
def Shown.acas.ra.fields.ThreatIdentityBearing.ToString (threatBearing : UInt8) : List Char :=
  if threatBearing = 0 then
    t! " 0 - No bearing estimate available"
  else
    if 1 ≤ threatBearing ∧ threatBearing ≤ 60 then
      dec threatBearing.toNat ++
    t! " - between " ++
    dec ((threatBearing - 1) * 6).toNat ++
    t! " and " ++
    dec (threatBearing * 6).toNat
    else
      if 61 ≤ threatBearing ∧ threatBearing ≤ 63 then
        dec threatBearing.toNat ++ t! " - Not assigned"
      else
        dec threatBearing.toNat ++ t! " - Unknown code"

/-- pkg/acas/ra/fields/threat_identity_range.go:12-24 -/
def Shown.acas.ra.fields.ThreatIdentityRange.ToString (F : FloatTexts) (threatRange : UInt8) : List Char :=
  if threatRange = 0 then
    t! " 0 - No range estimate available"
  else
    if threatRange = 1 then
      t! " 1 - Less than 0.05"
    else
      if 2 ≤ threatRange ∧ threatRange ≤ 126 then
        dec threatRange.toNat ++
    t! " - " ++
    F.float64 (Gen.acas.ra.fields.ThreatIdentityRange.GetRange threatRange) ++
    t! " +/- 0.05 NM"
      else
        if threatRange = 127 then
          t! "Greater than 12.55"
        else
          dec threatRange.toNat ++ t! " - Unknown code"

/-- pkg/acas/ra/fields/threat_type_indicator.go:22-35 -/
def Shown.acas.ra.fields.ThreatTypeIndicator.ToString (indicator : Nat) : List Char :=
  if indicator = 0 then
    t! "0 - No identity data in TID"
  else
    if indicator = 1 then
      t! "1 - TID contains a Mode S transponder address"
    else
      if indicator = 2 then
        t! "2 - TID contains altitude, range and bearing data"
      else
        if indicator = 3 then
          t! "3 - Not assigned"
        else
          dec indicator ++ t! " - Unknown code"

/-- The method ToString called through the interface pkg/acas/ra/fields.ActiveResolutionAdvisory; its implementations are in pkg/acas/ra/fields/active_resolution_advisory_multiple_threats.go, pkg/acas/ra/fields/active_resolution_advisory_one_or_same_separation.go. -/
def Shown.acas.ra.fields.ActiveResolutionAdvisory.ToString : ActiveRA → List Char
  | .oneThreat x => Shown.acas.ra.fields.ActiveRAOneThreatOrSameSeparation.ToString x
  | .multiple x => Shown.acas.ra.fields.ActiveRAMultipleThreatsDifferentSeparation.ToString x
  | .none => Shown.acas.ra.fields.ActiveRANoVerticalRAGenerated.ToString .none

/-- pkg/acas/ra/resolution_advisory.go:26-67 -/
def Shown.acas.ra.ResolutionAdvisory.ToString (F : FloatTexts) (message : ResolutionAdvisory) : List Char :=
  let threatIdentity := t! ""
  let threatIdentity := if message.threatTypeIndicator = 0 then
      let threatIdentity := t! ""
      threatIdentity
    else
      let threatIdentity := if message.threatTypeIndicator = 1 then
          let threatIdentity := match message.threatIdentityAddress with
            | some threatIdentityAddress =>
              let threatIdentity := t! "\n" ++
    t! "Threat Mode-S Identity:                          " ++
    (Shown.acas.ra.fields.ThreatIdentityAddress.ToString threatIdentityAddress)
              threatIdentity
            | none =>
              let threatIdentity := t! "\n" ++ t! "Threat Mode-S Identity:                          [Error: Missing Mod-S Address]"
              threatIdentity
          threatIdentity
        else
          let threatIdentity := if message.threatTypeIndicator = 2 then
              let threatIdentity := match message.threatIdentityAltitude with
                | some threatIdentityAltitude =>
                  let threatIdentity := t! "\n" ++
    t! "Threat Altitude:                                 " ++
    (Shown.acas.ra.fields.ThreatIdentityAltitude.ToString threatIdentityAltitude)
                  threatIdentity
                | none =>
                  let threatIdentity := t! "\n" ++ t! "Threat Altitude:                                 [Error: Missing Threat Altitude]"
                  threatIdentity
              let threatIdentity := match message.threatIdentityRange with
                | some threatIdentityRange =>
                  let threatIdentity := threatIdentity ++ t! "\n" ++
    t! "Threat Range:                                    " ++
    (Shown.acas.ra.fields.ThreatIdentityRange.ToString F threatIdentityRange)
                  threatIdentity
                | none =>
                  let threatIdentity := threatIdentity ++ t! "\n" ++ t! "Threat Range:                                   [Error: Missing Threat Range]"
                  threatIdentity
              let threatIdentity := match message.threatIdentityBearing with
                | some threatIdentityBearing =>
                  let threatIdentity := threatIdentity ++ t! "\n" ++
    t! "Threat Bearing:                                  " ++
    (Shown.acas.ra.fields.ThreatIdentityBearing.ToString threatIdentityBearing)
                  threatIdentity
                | none =>
                  let threatIdentity := threatIdentity ++ t! "\n" ++ t! "Threat Bearing:                                 [Error: Missing Threat Bearing]"
                  threatIdentity
              threatIdentity
            else
              threatIdentity
          threatIdentity
      threatIdentity
  t! "Active Resolution Advisory:" ++
    t! "\n" ++
    (prefixMultiLine (Shown.acas.ra.fields.ActiveResolutionAdvisory.ToString message.activeRA) (t! "    ")) ++
    t! "\n" ++
    t! "Active Resolution Advisory Complement:" ++
    t! "\n" ++
    (prefixMultiLine (Shown.acas.ra.fields.RAComplement.ToString message.raComplement) (t! "    ")) ++
    t! "\n" ++
    t! "Active Resolution Advisory Terminated Indicator: " ++
    (Shown.acas.ra.fields.RATerminatedIndicator.ToString message.raTerminatedIndicator) ++
    t! "\n" ++
    t! "Multiple Threat Encounter:                       " ++
    (Shown.acas.ra.fields.MultipleThreatEncounter.ToString message.multipleThreatEncounter) ++
    t! "\n" ++
    t! "Threat Type Indicator:                           " ++
    (Shown.acas.ra.fields.ThreatTypeIndicator.ToString message.threatTypeIndicator) ++
    threatIdentity

/-- pkg/adsb/adsb_version.go:25-36 -/
def Shown.adsb.ADSBVersion.ToString (level : UInt8) : List Char :=
  if level = 0 then
    t! "ADSB V0"
  else
    if level = 1 then
      t! "ADSB V1"
    else
      if level = 2 then
        t! "ADSB V2"
      else
        t! "there is no ADSB ReaderLevel associated with value " ++ dec level.toNat

/-- pkg/bds/bds05/airborne_position.go:24-26 -/
def Shown.bds.bds05.AirbornePosition.GetRegister (message : AirbornePosition) : Register :=
  (⟨t! "BDS 0,5", t! "Extended squitter airborne position"⟩ : Register)

/-- pkg/bds/register/register_reference.go:26-29 -/
def Shown.bds.register.Register.ToString (register : Register) : List Char :=
  register.id ++ t! " - " ++ register.description

/-- pkg/bds/bds05/fields/surveillance_status.go:22-36 -/
def Shown.bds.bds05.fields.SurveillanceStatus.ToString (surveillanceStatus : UInt8) : List Char :=
  if surveillanceStatus = 0 then
    t! "0 - no status information"
  else
    if surveillanceStatus = 1 then
      t! "1 - permanent alert condition"
    else
      if surveillanceStatus = 2 then
        t! "2 - temporary alert condition"
      else
        if surveillanceStatus = 3 then
          t! "3 - SPI condition"
        else
          dec surveillanceStatus.toNat ++ t! " - Unknown code"

/-- pkg/bds/bds05/fields/single_antenna_flag.go:18-28 -/
def Shown.bds.bds05.fields.SingleAntennaFlag.ToString (saf : UInt8) : List Char :=
  if saf = 0 then
    t! "0 - dual transmit antenna system"
  else
    if saf = 1 then
      t! "1 - single transmit antenna system"
    else
      dec saf.toNat ++ t! " - Unknown code"

/-- pkg/bds/bds05/fields/altitude.go:20-29 -/
def Shown.bds.bds05.fields.AltitudeSource.ToString (altitudeSource : Nat) : List Char :=
  if altitudeSource = 0 then
    t! "0 - Barometric"
  else
    if altitudeSource = 1 then
      t! "1 - GNSS"
    else
      dec altitudeSource ++ t! " - Unknown code"

/-- pkg/bds/bds05/fields/altitude.go:42-51 -/
def Shown.bds.bds05.fields.AltitudeReportMethod.ToString (altitudeReportMethod : Nat) : List Char :=
  if altitudeReportMethod = 0 then
    t! "0 - 100 Foot Increments"
  else
    if altitudeReportMethod = 1 then
      t! "1 - 25 Foot Increments"
    else
      dec altitudeReportMethod ++ t! " - Unknown code"

/-- pkg/bds/bds05/fields/time.go:18-28 -/
def Shown.bds.bds05.fields.Time.ToString (time : UInt8) : List Char :=
  if time = 0 then
    t! "0 - not synchronized to UTC"
  else
    if time = 1 then
      t! "1 - synchronized to UTC"
    else
      dec time.toNat ++ t! " - Unknown code"

/-- pkg/bds/bds05/fields/compact_position_reporting_format.go:18-28 -/
def Shown.bds.bds05.fields.CompactPositionReportingFormat.ToString (format : UInt8) : List Char :=
  if format = 0 then
    t! "0 - even format coding"
  else
    if format = 1 then
      t! "1 - odd format coding"
    else
      dec format.toNat ++ t! " - Unknown code"

/-- pkg/bds/bds05/airborne_position.go:33-57 -/
def Shown.bds.bds05.AirbornePosition.ToString (message : AirbornePosition) : List Char :=
  t! "Message:                           " ++
    (Shown.bds.register.Register.ToString (Shown.bds.bds05.AirbornePosition.GetRegister message)) ++
    t! "\n" ++
    t! "Format Type Code:                  " ++
    dec message.formatTypeCode.toNat ++
    t! "\n" ++
    t! "Surveillance Status:               " ++
    (Shown.bds.bds05.fields.SurveillanceStatus.ToString message.surveillanceStatus) ++
    t! "\n" ++
    t! "Single Antenna Flag:               " ++
    (Shown.bds.bds05.fields.SingleAntennaFlag.ToString message.singleAntennaFlag) ++
    t! "\n" ++
    t! "Altitude Source:                   " ++
    (Shown.bds.bds05.fields.AltitudeSource.ToString message.altitudeSource) ++
    t! "\n" ++
    t! "Altitude Report Method:            " ++
    (Shown.bds.bds05.fields.AltitudeReportMethod.ToString message.altitudeReportMethod) ++
    t! "\n" ++
    t! "Altitude (feet):                   " ++
    decInt message.altitudeInFeet ++
    t! "\n" ++
    t! "Time:                              " ++
    (Shown.bds.bds05.fields.Time.ToString message.time) ++
    t! "\n" ++
    t! "Compact Position Reporting Format: " ++
    (Shown.bds.bds05.fields.CompactPositionReportingFormat.ToString message.cprFormat) ++
    t! "\n" ++
    t! "Encoded Latitude:                  " ++
    dec message.encodedLatitude.toNat ++
    t! "\n" ++
    t! "Encoded Longitude:                 " ++
    dec message.encodedLongitude.toNat

/-- pkg/adsb/airborne_position/airborne_position_type_0.go:28-34 -/
def Shown.adsb.airborne_position.AirbornePositionType0.ToString (airbornePosition : AirbornePosition) (navigationIntegrityCategory : UInt8) (adsbVersion : UInt8) : List Char :=
  (Shown.bds.bds05.AirbornePosition.ToString airbornePosition) ++
    t! "\n" ++
    t! "Navigation Integrity Category:     " ++
    dec navigationIntegrityCategory.toNat

/-- pkg/adsb/airborne_position/fields/horizontal_protection_limit.go:41-72 -/
def Shown.adsb.airborne_position.fields.HorizontalProtectionLimit.ToString (hpl : UInt8) : List Char :=
  if hpl = 9 then
    t! "(Baro) HorizontalProtectionLimit < 7.5 m"
  else
    if hpl = 10 then
      t! "(Baro) 7.5 m <= HorizontalProtectionLimit < 25 m"
    else
      if hpl = 11 then
        t! "(Baro) 25 m <= HorizontalProtectionLimit < 185.2 m (0.1NM)"
      else
        if hpl = 12 then
          t! "(Baro) 185.2 m <= HorizontalProtectionLimit < 370.4 m (0.1 NM <= HorizontalProtectionLimit < 0.2 NM)"
        else
          if hpl = 13 then
            t! "(Baro) 370.4 m <= HorizontalProtectionLimit < 926 m (0.2 NM <= HorizontalProtectionLimit < 0.5 NM)"
          else
            if hpl = 14 then
              t! "(Baro) 926 m <= HorizontalProtectionLimit < 1 852 m (0.5 NM <= HorizontalProtectionLimit < 1.0 NM)"
            else
              if hpl = 15 then
                t! "(Baro) 1 852 m <= HorizontalProtectionLimit < 3 704 m (1.0 NM <= HorizontalProtectionLimit < 2.0 NM)"
              else
                if hpl = 16 then
                  t! "(Baro) 3.704 km <= HorizontalProtectionLimit < 18.52 km (2.0 NM <= HorizontalProtectionLimit < 10 NM)"
                else
                  if hpl = 17 then
                    t! "(Baro) 18.52 km <= HorizontalProtectionLimit < 37.04 km (10 NM <= HorizontalProtectionLimit < 20 NM)"
                  else
                    if hpl = 18 then
                      t! "(Baro) HorizontalProtectionLimit >= 37.04 km (HorizontalProtectionLimit >= 20 NM)"
                    else
                      if hpl = 20 then
                        t! "(GNSS) HorizontalProtectionLimit < 7.5 m"
                      else
                        if hpl = 21 then
                          t! "(GNSS) HorizontalProtectionLimit < 25 m"
                        else
                          if hpl = 22 then
                            t! "(GNSS) 25 m <= HorizontalProtectionLimit"
                          else
                            dec hpl.toNat ++ t! " - Unknown code"

/-- pkg/adsb/airborne_position/fields/containment_radius.go:41-72 -/
def Shown.adsb.airborne_position.fields.ContainmentRadius.ToString (cr : UInt8) : List Char :=
  if cr = 9 then
    t! "(Baro) 0 μ < 3m"
  else
    if cr = 10 then
      t! "(Baro) 3 m <= μ < 10 m"
    else
      if cr = 11 then
        t! "(Baro) 10 m <= μ < 92.6 m (0.05 NM)"
      else
        if cr = 12 then
          t! "(Baro) 92.6 m <= μ < 185.2 m (0.05 NM <= μ < 0.1 NM)"
        else
          if cr = 13 then
            t! "(Baro) 185.2 m <= μ < 463 m (0.1 NM <= μ < 0.25 NM)"
          else
            if cr = 14 then
              t! "(Baro) 463 m <= μ < 926 m (0.25 NM <= μ < 0.5 NM)"
            else
              if cr = 15 then
                t! "(Baro) 926 m <= μ < 1852 m (0.5 NM <= μ < 1.0 NM)"
              else
                if cr = 16 then
                  t! "(Baro) 1.852 km <= μ < 9.26 km (1.0 NM <= μ < 5.0 NM)"
                else
                  if cr = 17 then
                    t! "(Baro) 9.26 km <= μ < 18.52 km (5.0 NM <= μ < 10.0 NM)"
                  else
                    if cr = 18 then
                      t! "(Baro) 18.52 km <= μ (10.0 NM <= μ)"
                    else
                      if cr = 20 then
                        t! "(GNSS) μ < 3 m and v < 4 m"
                      else
                        if cr = 21 then
                          t! "(GNSS) μ < 10 m and v < 15 m"
                        else
                          if cr = 22 then
                            t! "(GNSS) μ > 10 m or v >= 15 m"
                          else
                            dec cr.toNat ++ t! " - Unknown code"

/-- pkg/adsb/airborne_position/airborne_position_v0.go:27-35 -/
def Shown.adsb.airborne_position.AirbornePositionV0.ToString (airbornePosition : AirbornePosition) (horizontalProtectionLimit : UInt8) (containmentRadius : UInt8) : List Char :=
  (Shown.bds.bds05.AirbornePosition.ToString airbornePosition) ++
    t! "\n" ++
    t! "Horizontal Protection Limit:       " ++
    (Shown.adsb.airborne_position.fields.HorizontalProtectionLimit.ToString horizontalProtectionLimit) ++
    t! "\n" ++
    t! "Containment Radius:                " ++
    (Shown.adsb.airborne_position.fields.ContainmentRadius.ToString containmentRadius)

/-- pkg/adsb/airborne_position/fields/horizontal_containment_limit_v1.go:48-88 -/
def Shown.adsb.airborne_position.fields.HorizontalContainmentRadiusV1.ToString (hcr : UInt8) : List Char :=
  if hcr = 9 then
    t! "(Baro) Rc < 7.5 m and VPL < 11 m"
  else
    if hcr = 10 then
      t! "(Baro) Rc < 25 m and VPL < 37.5 m"
    else
      if hcr = 11 then
        t! "(Baro) Rc < 0.1 NM (185.2 m)"
      else
        if hcr = 12 then
          t! "(Baro) Rc < 0.2 NM (370.4 m)"
        else
          if hcr = 13 then
            t! "(Baro) Rc < 0.5 NM (926 m)"
          else
            if hcr = 14 then
              t! "(Baro) Rc < 1.0 NM (1852 m)"
            else
              if hcr = 15 then
                t! "(Baro) Rc < 2 NM (3.704 km)"
              else
                if hcr = 16 then
                  t! "(Baro) Rc < 8 NM (14.816 km)"
                else
                  if hcr = 17 then
                    t! "(Baro) Rc < 20 NM (37.04 km)"
                  else
                    if hcr = 18 then
                      t! "(Baro) Rc >= 20 NM (37.04 km) or unknown"
                    else
                      if hcr = 111 then
                        t! "(Baro) Rc < 75 m and VPL < 112 m"
                      else
                        if hcr = 113 then
                          t! "(Baro) Rc < 0.6 NM (1111.2 m)"
                        else
                          if hcr = 116 then
                            t! "(Baro) Rc < 4 NM (7.408 km)"
                          else
                            if hcr = 0 then
                              t! "(GNSS) Rc < 7.5 m and VPL < 11 m"
                            else
                              if hcr = 1 then
                                t! "(GNSS) Rc < 25 m and VPL < 37.5 m"
                              else
                                if hcr = 2 then
                                  t! "(GNSS) Rc >= 25 m or VPL >= 37.5 m or unknown"
                                else
                                  dec hcr.toNat ++ t! " - Unknown code"

/-- pkg/adsb/airborne_position/airborne_position_v1.go:28-38 -/
def Shown.adsb.airborne_position.AirbornePositionV1.ToString (airbornePosition : AirbornePosition) (navigationIntegrityCodeSupplementA : Bool) (horizontalContainmentRadius : UInt8) (navigationIntegrityCategory : UInt8) : List Char :=
  (Shown.bds.bds05.AirbornePosition.ToString airbornePosition) ++
    t! "\n" ++
    t! "Navigation Integrity Code A:       " ++
    boolText navigationIntegrityCodeSupplementA ++
    t! "\n" ++
    t! "Horizontal Containment Radius:     " ++
    (Shown.adsb.airborne_position.fields.HorizontalContainmentRadiusV1.ToString horizontalContainmentRadius) ++
    t! "\n" ++
    t! "Navigation Integrity Category:     " ++
    dec navigationIntegrityCategory.toNat

/-- pkg/adsb/airborne_position/fields/navigation_integrity_code_supplement_b.go:18-28 -/
def Shown.adsb.airborne_position.fields.NavigationIntegrityCodeSupplementB.ToString (nicb : UInt8) : List Char :=
  if nicb = 0 then
    t! "0"
  else
    if nicb = 1 then
      t! "1"
    else
      dec nicb.toNat ++ t! " - Unknown code"

/-- pkg/adsb/airborne_position/fields/horizontal_containment_limit_v2.go:51-94 -/
def Shown.adsb.airborne_position.fields.HorizontalContainmentRadiusV2.ToString (hcr : UInt8) : List Char :=
  if hcr = 9 then
    t! "(Baro) Rc < 7.5 m"
  else
    if hcr = 10 then
      t! "(Baro) Rc < 25 m"
    else
      if hcr = 11 then
        t! "(Baro) Rc < 0.1 NM (185.2 m)"
      else
        if hcr = 12 then
          t! "(Baro) Rc < 0.2 NM (370.4 m)"
        else
          if hcr = 13 then
            t! "(Baro) Rc < 0.5 NM (926 m)"
          else
            if hcr = 14 then
              t! "(Baro) Rc < 1.0 NM (1852 m)"
            else
              if hcr = 15 then
                t! "(Baro) Rc < 2 NM (3.704 km)"
              else
                if hcr = 16 then
                  t! "(Baro) Rc < 8 NM (14.816 km)"
                else
                  if hcr = 17 then
                    t! "(Baro) Rc < 20 NM (37.04 km)"
                  else
                    if hcr = 18 then
                      t! "(Baro) Rc >= 20 NM (37.04 km) or unknown"
                    else
                      if hcr = 111 then
                        t! "(Baro) Rc < 75 m"
                      else
                        if hcr = 113 then
                          t! "(Baro) Rc < 0.6 NM (1111.2 m)"
                        else
                          if hcr = 116 then
                            t! "(Baro) Rc < 4 NM (7.408 km)"
                          else
                            if hcr = 213 then
                              t! "(Baro) Rc < 0.3 NM (555.6 m)"
                            else
                              if hcr = 20 then
                                t! "(GNSS) Rc < 7.5 m"
                              else
                                if hcr = 21 then
                                  t! "(GNSS) Rc < 25 m"
                                else
                                  if hcr = 22 then
                                    t! "(GNSS) Rc >= 25 m or unknown"
                                  else
                                    dec hcr.toNat ++ t! " - Unknown code"

/-- pkg/adsb/airborne_position/airborne_position_v2.go:29-41 -/
def Shown.adsb.airborne_position.AirbornePositionV2.ToString (airbornePosition : AirbornePosition) (navigationIntegrityCodeSupplementA : Bool) (navigationIntegrityCodeSupplementB : UInt8) (horizontalContainmentRadius : UInt8) (navigationIntegrityCategory : UInt8) : List Char :=
  (Shown.bds.bds05.AirbornePosition.ToString airbornePosition) ++
    t! "\n" ++
    t! "Navigation Integrity Code A:       " ++
    boolText navigationIntegrityCodeSupplementA ++
    t! "\n" ++
    t! "Navigation Integrity Code B:       " ++
    (Shown.adsb.airborne_position.fields.NavigationIntegrityCodeSupplementB.ToString navigationIntegrityCodeSupplementB) ++
    t! "\n" ++
    t! "Horizontal Containment Radius:     " ++
    (Shown.adsb.airborne_position.fields.HorizontalContainmentRadiusV2.ToString horizontalContainmentRadius) ++
    t! "\n" ++
    t! "Navigation Integrity Category:     " ++
    dec navigationIntegrityCategory.toNat

/-- pkg/bds/bds09/airborne_velocity_ground_speed_normal.go:37-39 -/
def Shown.bds.bds09.AirborneVelocityGroundSpeedNormal.GetRegister (message : GroundSpeedVelocity) : Register :=
  (⟨t! "BDS 0,9", t! "Extended squitter airborne velocity"⟩ : Register)

/-- pkg/bds/bds09/fields/subtype.go:24-38 -/
def Shown.bds.bds09.fields.Subtype.ToString (code : UInt8) : List Char :=
  if code = 1 then
    t! "1 - GroundSpeed / Normal"
  else
    if code = 2 then
      t! "2 - GroundSpeed / Supersonic"
    else
      if code = 3 then
        t! "3 - Airspeed,Heading / Normal"
      else
        if code = 4 then
          t! "4 - Airspeed,Heading / Supersonic"
        else
          dec code.toNat ++ t! " - Unknown code"

/-- pkg/bds/bds09/fields/intent_change.go:18-28 -/
def Shown.bds.bds09.fields.IntentChange.ToString (flag : UInt8) : List Char :=
  if flag = 0 then
    t! "0 - no change in intent"
  else
    if flag = 1 then
      t! "1 - intent change"
    else
      dec flag.toNat ++ t! " - Unknown code"

/-- pkg/bds/bds09/fields/ifr_capability.go:20-30 -/
def Shown.bds.bds09.fields.IFRCapability.ToString (flag : UInt8) : List Char :=
  if flag = 0 then
    t! "0 - transmitting aircraft has no capability for ADS-B based conflict detection or higher level (class A1 or above) applications"
  else
    if flag = 1 then
      t! "1 - transmitting aircraft has capability for ADS-B-based conflict detection and higher level (class A1 or above) applications"
    else
      dec flag.toNat ++ t! " - Unknown code"

/-- pkg/bds/bds09/fields/navigation_uncertainty_category.go:27-52 -/
def Shown.bds.bds09.fields.NavigationUncertaintyCategory.ToString (category : UInt8) : List Char :=
  if category = 0 then
    t! "0 - Unknown "
  else
    if category = 1 then
      t! "1 - " ++
    (t! "Horizontal Velocity Error (95%):") ++
    t! " " ++
    (t! "< 10 m/s") ++
    t! " / " ++
    (t! "Vertical Velocity Error (95%):") ++
    t! " " ++
    (t! "< 15.2 m/s (50 fps)")
    else
      if category = 2 then
        t! "1 - " ++
    (t! "Horizontal Velocity Error (95%):") ++
    t! " " ++
    (t! "< 3 m/s") ++
    t! " / " ++
    (t! "Vertical Velocity Error (95%):") ++
    t! " " ++
    (t! "< 4.6 m/s (15 fps)")
      else
        if category = 3 then
          t! "1 - " ++
    (t! "Horizontal Velocity Error (95%):") ++
    t! " " ++
    (t! "< 2 m/s") ++
    t! " / " ++
    (t! "Vertical Velocity Error (95%):") ++
    t! " " ++
    (t! "< 1.5 m/s (5 fps)")
        else
          if category = 4 then
            t! "1 - " ++
    (t! "Horizontal Velocity Error (95%):") ++
    t! " " ++
    (t! "< 0.3 m/s") ++
    t! " / " ++
    (t! "Vertical Velocity Error (95%):") ++
    t! " " ++
    (t! "< 0.46 m/s (1.5 fps)")
          else
            dec category.toNat ++ t! " - Unknown code"

/-- pkg/bds/bds09/fields/velocity_ew.go:21-31 -/
def Shown.bds.bds09.fields.DirectionEastWest.ToString (bit : UInt8) : List Char :=
  if bit = 0 then
    t! "0 - East"
  else
    if bit = 1 then
      t! "1 - West"
    else
      dec bit.toNat ++ t! " - Unknown code"

/-- pkg/bds/bds09/fields/numeric_value_status.go:18-30 -/
def Shown.bds.bds09.fields.NumericValueStatus.ToString (vs : NumericValueStatus) : List Char :=
  if vs = .noInformation then
    t! "No information"
  else
    if vs = .regular then
      t! "Regular value"
    else
      if vs = .maximum then
        t! "Maximum"
      else
        dec (match vs with | .noInformation => 0 | .regular => 1 | .maximum => 2) ++ t! " - Unknown code"

/-- pkg/bds/bds09/fields/velocity_ns.go:21-31 -/
def Shown.bds.bds09.fields.DirectionNorthSouth.ToString (bit : UInt8) : List Char :=
  if bit = 0 then
    t! "0 - north"
  else
    if bit = 1 then
      t! "1 - south"
    else
      dec bit.toNat ++ t! " - Unknown code"

/-- pkg/bds/bds09/fields/vertical_rate_source.go:18-28 -/
def Shown.bds.bds09.fields.VerticalRateSource.ToString (bit : UInt8) : List Char :=
  if bit = 0 then
    t! "0 - GNSS"
  else
    if bit = 1 then
      t! "1 - Baro"
    else
      dec bit.toNat ++ t! " - Unknown code"

/-- pkg/bds/bds09/airborne_velocity_ground_speed_normal.go:47-85 -/
def Shown.bds.bds09.AirborneVelocityGroundSpeedNormal.ToString (F : FloatTexts) (message : GroundSpeedVelocity) : List Char :=
  t! "Message:                           " ++
    (Shown.bds.register.Register.ToString (Shown.bds.bds09.AirborneVelocityGroundSpeedNormal.GetRegister message)) ++
    t! "\n" ++
    t! "Subtype:                           " ++
    (Shown.bds.bds09.fields.Subtype.ToString message.subtype) ++
    t! "\n" ++
    t! "Intent Change:                     " ++
    (Shown.bds.bds09.fields.IntentChange.ToString message.intentChange) ++
    t! "\n" ++
    t! "IFR Capability:                    " ++
    (Shown.bds.bds09.fields.IFRCapability.ToString message.ifrCapability) ++
    t! "\n" ++
    t! "Navigation Uncertainty Category:   " ++
    (Shown.bds.bds09.fields.NavigationUncertaintyCategory.ToString message.navigationUncertaintyCategory) ++
    t! "\n" ++
    t! "Direction EW:                      " ++
    (Shown.bds.bds09.fields.DirectionEastWest.ToString message.directionEastWest) ++
    t! "\n" ++
    t! "Velocity EW Status:                " ++
    (Shown.bds.bds09.fields.NumericValueStatus.ToString message.velocityEWStatus) ++
    t! "\n" ++
    t! "Velocity EW (knots):               " ++
    dec message.velocityEW.toNat ++
    t! "\n" ++
    t! "Direction NS:                      " ++
    (Shown.bds.bds09.fields.DirectionNorthSouth.ToString message.directionNorthSouth) ++
    t! "\n" ++
    t! "Velocity NS Status:                " ++
    (Shown.bds.bds09.fields.NumericValueStatus.ToString message.velocityNSStatus) ++
    t! "\n" ++
    t! "Velocity NS (knots):               " ++
    dec message.velocityNS.toNat ++
    t! "\n" ++
    t! "Vertical Rate Source:              " ++
    (Shown.bds.bds09.fields.VerticalRateSource.ToString message.verticalRateSource) ++
    t! "\n" ++
    t! "Vertical Rate Status:              " ++
    (Shown.bds.bds09.fields.NumericValueStatus.ToString message.verticalRateStatus) ++
    t! "\n" ++
    t! "Vertical Rate (ft/min):            " ++
    decInt message.verticalRate ++
    t! "\n" ++
    t! "Difference Alt. GNSS Baro Status:  " ++
    (Shown.bds.bds09.fields.NumericValueStatus.ToString message.heightDifferenceStatus) ++
    t! "\n" ++
    t! "Difference Alt. GNSS Baro (ft):    " ++
    decInt message.heightDifference ++
    t! "\n" ++
    t! "Computed Speed:                    " ++
    (GroundSpeedVelocity.speedText message) ++
    t! "\n" ++
    t! "Computed Track:                    " ++
    (GroundSpeedVelocity.trackText F message)

/-- pkg/bds/bds09/airborne_velocity_ground_speed_supersonic.go:37-39 -/
def Shown.bds.bds09.AirborneVelocityGroundSpeedSupersonic.GetRegister (message : GroundSpeedVelocity) : Register :=
  (⟨t! "BDS 0,9", t! "Extended squitter airborne velocity"⟩ : Register)

/-- pkg/bds/bds09/airborne_velocity_ground_speed_supersonic.go:47-85 -/
def Shown.bds.bds09.AirborneVelocityGroundSpeedSupersonic.ToString (F : FloatTexts) (message : GroundSpeedVelocity) : List Char :=
  t! "Message:                           " ++
    (Shown.bds.register.Register.ToString (Shown.bds.bds09.AirborneVelocityGroundSpeedSupersonic.GetRegister message)) ++
    t! "\n" ++
    t! "Subtype:                           " ++
    (Shown.bds.bds09.fields.Subtype.ToString message.subtype) ++
    t! "\n" ++
    t! "Intent Change:                     " ++
    (Shown.bds.bds09.fields.IntentChange.ToString message.intentChange) ++
    t! "\n" ++
    t! "IFR Capability:                    " ++
    (Shown.bds.bds09.fields.IFRCapability.ToString message.ifrCapability) ++
    t! "\n" ++
    t! "Navigation Uncertainty Category:   " ++
    (Shown.bds.bds09.fields.NavigationUncertaintyCategory.ToString message.navigationUncertaintyCategory) ++
    t! "\n" ++
    t! "Direction EW:                      " ++
    (Shown.bds.bds09.fields.DirectionEastWest.ToString message.directionEastWest) ++
    t! "\n" ++
    t! "Velocity EW Status:                " ++
    (Shown.bds.bds09.fields.NumericValueStatus.ToString message.velocityEWStatus) ++
    t! "\n" ++
    t! "Velocity EW (knots):               " ++
    dec message.velocityEW.toNat ++
    t! "\n" ++
    t! "Direction NS:                      " ++
    (Shown.bds.bds09.fields.DirectionNorthSouth.ToString message.directionNorthSouth) ++
    t! "\n" ++
    t! "Velocity NS Status:                " ++
    (Shown.bds.bds09.fields.NumericValueStatus.ToString message.velocityNSStatus) ++
    t! "\n" ++
    t! "Velocity NS (knots):               " ++
    dec message.velocityNS.toNat ++
    t! "\n" ++
    t! "Vertical Rate Source:              " ++
    (Shown.bds.bds09.fields.VerticalRateSource.ToString message.verticalRateSource) ++
    t! "\n" ++
    t! "Vertical Rate Status:              " ++
    (Shown.bds.bds09.fields.NumericValueStatus.ToString message.verticalRateStatus) ++
    t! "\n" ++
    t! "Vertical Rate (ft/min):            " ++
    decInt message.verticalRate ++
    t! "\n" ++
    t! "Difference Alt. GNSS Baro Status:  " ++
    (Shown.bds.bds09.fields.NumericValueStatus.ToString message.heightDifferenceStatus) ++
    t! "\n" ++
    t! "Difference Alt. GNSS Baro (ft):    " ++
    decInt message.heightDifference ++
    t! "\n" ++
    t! "Computed Speed:                    " ++
    (GroundSpeedVelocity.speedText message) ++
    t! "\n" ++
    t! "Computed Track:                    " ++
    (GroundSpeedVelocity.trackText F message)

/-- pkg/bds/bds09/airborne_velocity_air_speed_normal.go:33-35 -/
def Shown.bds.bds09.AirborneVelocityAirSpeedNormal.GetRegister (message : AirSpeedVelocity) : Register :=
  (⟨t! "BDS 0,9", t! "Extended squitter airborne velocity"⟩ : Register)

/-- pkg/bds/bds09/fields/magnetic_heading.go:21-31 -/
def Shown.bds.bds09.fields.MagneticHeadingStatus.ToString (bit : UInt8) : List Char :=
  if bit = 0 then
    t! "0 - Magnetic heading not available"
  else
    if bit = 1 then
      t! "1 - Magnetic heading available"
    else
      dec bit.toNat ++ t! " - Unknown code"

/-- pkg/bds/bds09/airborne_velocity_air_speed_normal.go:43-73 -/
def Shown.bds.bds09.AirborneVelocityAirSpeedNormal.ToString (F : FloatTexts) (message : AirSpeedVelocity) : List Char :=
  t! "Message:                             " ++
    (Shown.bds.register.Register.ToString (Shown.bds.bds09.AirborneVelocityAirSpeedNormal.GetRegister message)) ++
    t! "\n" ++
    t! "Subtype:                             " ++
    (Shown.bds.bds09.fields.Subtype.ToString message.subtype) ++
    t! "\n" ++
    t! "Intent Change:                       " ++
    (Shown.bds.bds09.fields.IntentChange.ToString message.intentChange) ++
    t! "\n" ++
    t! "IFR Capability:                      " ++
    (Shown.bds.bds09.fields.IFRCapability.ToString message.ifrCapability) ++
    t! "\n" ++
    t! "Navigation Uncertainty Category:     " ++
    (Shown.bds.bds09.fields.NavigationUncertaintyCategory.ToString message.navigationUncertaintyCategory) ++
    t! "\n" ++
    t! "Magnetic Heading Status:             " ++
    (Shown.bds.bds09.fields.MagneticHeadingStatus.ToString message.magneticHeadingStatus) ++
    t! "\n" ++
    t! "Magnetic Heading (degrees):          " ++
    F.float32 message.magneticHeading ++
    t! "\n" ++
    t! "Air Speed Status:                    " ++
    (Shown.bds.bds09.fields.NumericValueStatus.ToString message.airspeedStatus) ++
    t! "\n" ++
    t! "Air Speed (knots):                   " ++
    dec message.airspeed.toNat ++
    t! "\n" ++
    t! "Vertical Rate Source:                " ++
    (Shown.bds.bds09.fields.VerticalRateSource.ToString message.verticalRateSource) ++
    t! "\n" ++
    t! "Vertical Rate Status:                " ++
    (Shown.bds.bds09.fields.NumericValueStatus.ToString message.verticalRateStatus) ++
    t! "\n" ++
    t! "Vertical Rate (ft/min):              " ++
    decInt message.verticalRate ++
    t! "\n" ++
    t! "Geom. Height Diff. From Baro Status: " ++
    (Shown.bds.bds09.fields.NumericValueStatus.ToString message.heightDifferenceStatus) ++
    t! "\n" ++
    t! "Geom. Height Diff. From Baro (ft):   " ++
    decInt message.heightDifference

/-- pkg/bds/bds09/airborne_velocity_air_speed_supersonic.go:33-35 -/
def Shown.bds.bds09.AirborneVelocityAirSpeedSupersonic.GetRegister (message : AirSpeedVelocity) : Register :=
  (⟨t! "BDS 0,9", t! "Extended squitter airborne velocity"⟩ : Register)

/-- pkg/bds/bds09/airborne_velocity_air_speed_supersonic.go:43-73 -/
def Shown.bds.bds09.AirborneVelocityAirSpeedSupersonic.ToString (F : FloatTexts) (message : AirSpeedVelocity) : List Char :=
  t! "Message:                             " ++
    (Shown.bds.register.Register.ToString (Shown.bds.bds09.AirborneVelocityAirSpeedSupersonic.GetRegister message)) ++
    t! "\n" ++
    t! "Subtype:                             " ++
    (Shown.bds.bds09.fields.Subtype.ToString message.subtype) ++
    t! "\n" ++
    t! "Intent Change:                       " ++
    (Shown.bds.bds09.fields.IntentChange.ToString message.intentChange) ++
    t! "\n" ++
    t! "IFR Capability:                      " ++
    (Shown.bds.bds09.fields.IFRCapability.ToString message.ifrCapability) ++
    t! "\n" ++
    t! "Navigation Uncertainty Category:     " ++
    (Shown.bds.bds09.fields.NavigationUncertaintyCategory.ToString message.navigationUncertaintyCategory) ++
    t! "\n" ++
    t! "Magnetic Heading Status:             " ++
    (Shown.bds.bds09.fields.MagneticHeadingStatus.ToString message.magneticHeadingStatus) ++
    t! "\n" ++
    t! "Magnetic Heading (degrees):          " ++
    F.float32 message.magneticHeading ++
    t! "\n" ++
    t! "Air Speed Status:                    " ++
    (Shown.bds.bds09.fields.NumericValueStatus.ToString message.airspeedStatus) ++
    t! "\n" ++
    t! "Air Speed (knots):                   " ++
    dec message.airspeed.toNat ++
    t! "\n" ++
    t! "Vertical Rate Source:                " ++
    (Shown.bds.bds09.fields.VerticalRateSource.ToString message.verticalRateSource) ++
    t! "\n" ++
    t! "Vertical Rate Status:                " ++
    (Shown.bds.bds09.fields.NumericValueStatus.ToString message.verticalRateStatus) ++
    t! "\n" ++
    t! "Vertical Rate (ft/min):              " ++
    decInt message.verticalRate ++
    t! "\n" ++
    t! "Geom. Height Diff. From Baro Status: " ++
    (Shown.bds.bds09.fields.NumericValueStatus.ToString message.heightDifferenceStatus) ++
    t! "\n" ++
    t! "Geom. Height Diff. From Baro (ft):   " ++
    decInt message.heightDifference

/-- The method ToString called through the interface pkg/bds/bds09.AirborneVelocity; its implementations are in pkg/bds/bds09/airborne_velocity_air_speed_normal.go, pkg/bds/bds09/airborne_velocity_air_speed_supersonic.go, pkg/bds/bds09/airborne_velocity_ground_speed_normal.go, pkg/bds/bds09/airborne_velocity_ground_speed_supersonic.go. -/
def Shown.bds.bds09.AirborneVelocity.ToString (F : FloatTexts) : AirborneVelocity → List Char
  | .groundSpeedNormal x => Shown.bds.bds09.AirborneVelocityGroundSpeedNormal.ToString F x
  | .groundSpeedSupersonic x => Shown.bds.bds09.AirborneVelocityGroundSpeedSupersonic.ToString F x
  | .airSpeedNormal x => Shown.bds.bds09.AirborneVelocityAirSpeedNormal.ToString F x
  | .airSpeedSupersonic x => Shown.bds.bds09.AirborneVelocityAirSpeedSupersonic.ToString F x

/-- pkg/adsb/airborne_velocity/airborne_velocity.go:24-28 -/
def Shown.adsb.airborne_velocity.AirborneVelocity.ToString (F : FloatTexts) (airborneVelocity : AirborneVelocity) (adsbVersion : UInt8) : List Char :=
  (Shown.bds.bds09.AirborneVelocity.ToString F airborneVelocity)

/-- pkg/bds/bds08/aircraft_identification_and_category.go:21-23 -/
def Shown.bds.bds08.AircraftIdentificationAndCategory.GetRegister (message : IdentificationAndCategory) : Register :=
  (⟨t! "BDS 0,8", t! "Extended squitter aircraft identification and category"⟩ : Register)

/-- pkg/bds/bds08/fields/aircraft_category_set_a.go:35-57 -/
def Shown.bds.bds08.fields.AircraftCategorySetA.ToString (category : UInt8) : List Char :=
  if category = 0 then
    t! "0 - No aircraft category information"
  else
    if category = 1 then
      t! "1 - Light (< 15_500 lbs or 7_031 kg)"
    else
      if category = 2 then
        t! "2 - Medium 1 (>15_500 to 75_000 lbs, or 7_031 to 34_019 kg)"
      else
        if category = 3 then
          t! "3 - Medium 2 (>75_000 to 300_000 lbs, or 34_019 to 136_078 kg)"
        else
          if category = 4 then
            t! "4 - High vortex aircraft"
          else
            if category = 5 then
              t! "5 - Heavy (> 300_000 lbs or 136_078 kg)"
            else
              if category = 6 then
                t! "6 - High performance (> 5g acceleration) and high speed (> 400 kt)"
              else
                if category = 7 then
                  t! "7 - Rotorcraft"
                else
                  dec category.toNat ++ t! " - Unknown code"

/-- pkg/bds/bds08/fields/aircraft_category_set_b.go:35-57 -/
def Shown.bds.bds08.fields.AircraftCategorySetB.ToString (category : UInt8) : List Char :=
  if category = 0 then
    t! "0 - No aircraft category information"
  else
    if category = 1 then
      t! "1 - Glider / sailplane"
    else
      if category = 2 then
        t! "2 - Lighter-than-air"
      else
        if category = 3 then
          t! "3 - Parachutist / skydiver"
        else
          if category = 4 then
            t! "4 - Ultralight / hang-glider / paraglider"
          else
            if category = 5 then
              t! "5 - Reserved"
            else
              if category = 6 then
                t! "6 - Unmanned aerial vehicle"
              else
                if category = 7 then
                  t! "7 - Space / transatmospheric vehicle"
                else
                  dec category.toNat ++ t! " - Unknown code"

/-- pkg/bds/bds08/fields/aircraft_category_set_c.go:38-60 -/
def Shown.bds.bds08.fields.AircraftCategorySetC.ToString (category : UInt8) : List Char :=
  if category = 0 then
    t! "0 - No aircraft category information"
  else
    if category = 1 then
      t! "1 - Surface vehicle - emergency vehicle"
    else
      if category = 2 then
        t! "2 - Surface vehicle - service vehicle"
      else
        if category = 3 then
          t! "3 - Fixed ground or tethered obstruction"
        else
          if category = 4 then
            t! "4 - Reserved"
          else
            if category = 5 then
              t! "5 - Reserved"
            else
              if category = 6 then
                t! "6 - Reserved"
              else
                if category = 7 then
                  t! "7 - Reserved"
                else
                  dec category.toNat ++ t! " - Unknown code"

/-- pkg/bds/bds08/fields/aircraft_category_set_d.go:38-60 -/
def Shown.bds.bds08.fields.AircraftCategorySetD.ToString (category : UInt8) : List Char :=
  if category = 0 then
    t! "0 - Reserved"
  else
    if category = 1 then
      t! "1 - Reserved"
    else
      if category = 2 then
        t! "2 - Reserved"
      else
        if category = 3 then
          t! "3 - Reserved"
        else
          if category = 4 then
            t! "4 - Reserved"
          else
            if category = 5 then
              t! "5 - Reserved"
            else
              if category = 6 then
                t! "6 - Reserved"
              else
                if category = 7 then
                  t! "7 - Reserved"
                else
                  dec category.toNat ++ t! " - Unknown code"

/-- The method ToString called through the interface pkg/bds/bds08/fields.AircraftCategory; its implementations are in pkg/bds/bds08/fields/aircraft_category_set_a.go, pkg/bds/bds08/fields/aircraft_category_set_b.go, pkg/bds/bds08/fields/aircraft_category_set_c.go, pkg/bds/bds08/fields/aircraft_category_set_d.go. -/
def Shown.bds.bds08.fields.AircraftCategory.ToString : AircraftCategory → List Char
  | .setA x => Shown.bds.bds08.fields.AircraftCategorySetA.ToString x
  | .setB x => Shown.bds.bds08.fields.AircraftCategorySetB.ToString x
  | .setC x => Shown.bds.bds08.fields.AircraftCategorySetC.ToString x
  | .setD x => Shown.bds.bds08.fields.AircraftCategorySetD.ToString x

/-- pkg/bds/bds08/aircraft_identification_and_category.go:40-50 -/
def Shown.bds.bds08.AircraftIdentificationAndCategory.ToString (message : IdentificationAndCategory) : List Char :=
  t! "Message:                           " ++
    (Shown.bds.register.Register.ToString (Shown.bds.bds08.AircraftIdentificationAndCategory.GetRegister message)) ++
    t! "\n" ++
    t! "Format Type Code:                  " ++
    dec message.formatTypeCode.toNat ++
    t! "\n" ++
    t! "Category:                          " ++
    (Shown.bds.bds08.fields.AircraftCategory.ToString message.category) ++
    t! "\n" ++
    t! "Identification:                    " ++
    asciiText message.identification

/-- pkg/adsb/aircraft_identification_and_category/aircraft_identification_and_category.go:24-28 -/
def Shown.adsb.aircraft_identification_and_category.AircraftIdentificationAndCategory.ToString (aircraftIdentificationAndCategory : IdentificationAndCategory) (adsbVersion : UInt8) : List Char :=
  (Shown.bds.bds08.AircraftIdentificationAndCategory.ToString aircraftIdentificationAndCategory)

/-- pkg/bds/bds65/aircraft_operational_status_adsb0.go:28-30 -/
def Shown.bds.bds65.AircraftOperationalStatusADSB0.GetRegister (message : OpStatusV0) : Register :=
  (⟨t! "BDS 6,5", t! "Extended squitter aircraft operational status"⟩ : Register)

/-- pkg/bds/bds65/fields/en_route_operational_capabilities.go:46-60 -/
def Shown.bds.bds65.fields.EnRouteOperationalCapabilities.ToString (capabilities : UInt8) : List Char :=
  if ((((((((((((((capabilities = 0 ∨ capabilities = 1) ∨ capabilities = 2) ∨ capabilities = 3) ∨ capabilities = 4) ∨ capabilities = 5) ∨ capabilities = 6) ∨ capabilities = 7) ∨ capabilities = 8) ∨ capabilities = 9) ∨ capabilities = 10) ∨ capabilities = 11) ∨ capabilities = 12) ∨ capabilities = 13) ∨ capabilities = 14) ∨ capabilities = 15 then
    dec capabilities.toNat ++ t! " - reserved"
  else
    dec capabilities.toNat ++ t! " - Unknown code"

/-- pkg/bds/bds65/fields/en_route_operational_capability_status.go:46-60 -/
def Shown.bds.bds65.fields.EnRouteOperationalCapabilityStatus.ToString (status : UInt8) : List Char :=
  if ((((((((((((((status = 0 ∨ status = 1) ∨ status = 2) ∨ status = 3) ∨ status = 4) ∨ status = 5) ∨ status = 6) ∨ status = 7) ∨ status = 8) ∨ status = 9) ∨ status = 10) ∨ status = 11) ∨ status = 12) ∨ status = 13) ∨ status = 14) ∨ status = 15 then
    dec status.toNat ++ t! " - reserved"
  else
    dec status.toNat ++ t! " - Unknown code"

/-- pkg/bds/bds65/fields/terminal_area_operational_capabilities.go:46-60 -/
def Shown.bds.bds65.fields.TerminalAreaOperationalCapabilities.ToString (capabilities : UInt8) : List Char :=
  if ((((((((((((((capabilities = 0 ∨ capabilities = 1) ∨ capabilities = 2) ∨ capabilities = 3) ∨ capabilities = 4) ∨ capabilities = 5) ∨ capabilities = 6) ∨ capabilities = 7) ∨ capabilities = 8) ∨ capabilities = 9) ∨ capabilities = 10) ∨ capabilities = 11) ∨ capabilities = 12) ∨ capabilities = 13) ∨ capabilities = 14) ∨ capabilities = 15 then
    dec capabilities.toNat ++ t! " - reserved"
  else
    dec capabilities.toNat ++ t! " - Unknown code"

/-- pkg/bds/bds65/fields/terminal_area_operational_capability_status.go:46-60 -/
def Shown.bds.bds65.fields.TerminalAreaOperationalCapabilityStatus.ToString (status : UInt8) : List Char :=
  if ((((((((((((((status = 0 ∨ status = 1) ∨ status = 2) ∨ status = 3) ∨ status = 4) ∨ status = 5) ∨ status = 6) ∨ status = 7) ∨ status = 8) ∨ status = 9) ∨ status = 10) ∨ status = 11) ∨ status = 12) ∨ status = 13) ∨ status = 14) ∨ status = 15 then
    dec status.toNat ++ t! " - reserved"
  else
    dec status.toNat ++ t! " - Unknown code"

/-- pkg/bds/bds65/fields/approach_landing_operational_capabilities.go:46-60 -/
def Shown.bds.bds65.fields.ApproachLandingOperationalCapabilities.ToString (capabilities : UInt8) : List Char :=
  if ((((((((((((((capabilities = 0 ∨ capabilities = 1) ∨ capabilities = 2) ∨ capabilities = 3) ∨ capabilities = 4) ∨ capabilities = 5) ∨ capabilities = 6) ∨ capabilities = 7) ∨ capabilities = 8) ∨ capabilities = 9) ∨ capabilities = 10) ∨ capabilities = 11) ∨ capabilities = 12) ∨ capabilities = 13) ∨ capabilities = 14) ∨ capabilities = 15 then
    dec capabilities.toNat ++ t! " - reserved"
  else
    dec capabilities.toNat ++ t! " - Unknown code"

/-- pkg/bds/bds65/fields/approach_landing_operational_capability_status.go:46-60 -/
def Shown.bds.bds65.fields.ApproachLandingOperationalCapabilityStatus.ToString (status : UInt8) : List Char :=
  if ((((((((((((((status = 0 ∨ status = 1) ∨ status = 2) ∨ status = 3) ∨ status = 4) ∨ status = 5) ∨ status = 6) ∨ status = 7) ∨ status = 8) ∨ status = 9) ∨ status = 10) ∨ status = 11) ∨ status = 12) ∨ status = 13) ∨ status = 14) ∨ status = 15 then
    dec status.toNat ++ t! " - reserved"
  else
    dec status.toNat ++ t! " - Unknown code"

/-- pkg/bds/bds65/fields/surface_operational_capabilities.go:46-60 -/
def Shown.bds.bds65.fields.SurfaceOperationalCapabilities.ToString (capabilities : UInt8) : List Char :=
  if ((((((((((((((capabilities = 0 ∨ capabilities = 1) ∨ capabilities = 2) ∨ capabilities = 3) ∨ capabilities = 4) ∨ capabilities = 5) ∨ capabilities = 6) ∨ capabilities = 7) ∨ capabilities = 8) ∨ capabilities = 9) ∨ capabilities = 10) ∨ capabilities = 11) ∨ capabilities = 12) ∨ capabilities = 13) ∨ capabilities = 14) ∨ capabilities = 15 then
    dec capabilities.toNat ++ t! " - reserved"
  else
    dec capabilities.toNat ++ t! " - Unknown code"

/-- pkg/bds/bds65/fields/surface_operational_capability_status.go:46-60 -/
def Shown.bds.bds65.fields.SurfaceOperationalCapabilityStatus.ToString (status : UInt8) : List Char :=
  if ((((((((((((((status = 0 ∨ status = 1) ∨ status = 2) ∨ status = 3) ∨ status = 4) ∨ status = 5) ∨ status = 6) ∨ status = 7) ∨ status = 8) ∨ status = 9) ∨ status = 10) ∨ status = 11) ∨ status = 12) ∨ status = 13) ∨ status = 14) ∨ status = 15 then
    dec status.toNat ++ t! " - reserved"
  else
    dec status.toNat ++ t! " - Unknown code"

/-- pkg/bds/bds65/aircraft_operational_status_adsb0.go:38-58 -/
def Shown.bds.bds65.AircraftOperationalStatusADSB0.ToString (message : OpStatusV0) : List Char :=
  t! "Message:                                        " ++
    (Shown.bds.register.Register.ToString (Shown.bds.bds65.AircraftOperationalStatusADSB0.GetRegister message)) ++
    t! "\n" ++
    t! "En Route Operational Capabilities:              " ++
    (Shown.bds.bds65.fields.EnRouteOperationalCapabilities.ToString message.enRouteOperationalCapabilities) ++
    t! "\n" ++
    t! "En Route Operational Capability Status:         " ++
    (Shown.bds.bds65.fields.EnRouteOperationalCapabilityStatus.ToString message.enRouteOperationalCapabilityStatus) ++
    t! "\n" ++
    t! "Terminal Area Operational Capabilities:         " ++
    (Shown.bds.bds65.fields.TerminalAreaOperationalCapabilities.ToString message.terminalAreaOperationalCapabilities) ++
    t! "\n" ++
    t! "Terminal Area Operational Capability Status:    " ++
    (Shown.bds.bds65.fields.TerminalAreaOperationalCapabilityStatus.ToString message.terminalAreaOperationalCapabilityStatus) ++
    t! "\n" ++
    t! "Approach/Landing Operational Capabilities:      " ++
    (Shown.bds.bds65.fields.ApproachLandingOperationalCapabilities.ToString message.approachLandingOperationalCapabilities) ++
    t! "\n" ++
    t! "Approach/Landing Operational Capability Status: " ++
    (Shown.bds.bds65.fields.ApproachLandingOperationalCapabilityStatus.ToString message.approachLandingOperationalCapabilityStatus) ++
    t! "\n" ++
    t! "SubtypeSurface Operational Capabilities:               " ++
    (Shown.bds.bds65.fields.SurfaceOperationalCapabilities.ToString message.surfaceOperationalCapabilities) ++
    t! "\n" ++
    t! "SubtypeSurface Operational Capability Status:          " ++
    (Shown.bds.bds65.fields.SurfaceOperationalCapabilityStatus.ToString message.surfaceOperationalCapabilityStatus)

/-- pkg/bds/bds65/aircraft_operational_status_airborne_adsb1.go:33-35 -/
def Shown.bds.bds65.AircraftOperationalStatusAirborneADSB1.GetRegister (message : OpStatusAirborneV1) : Register :=
  (⟨t! "BDS 6,5", t! "Extended squitter aircraft operational status"⟩ : Register)

/-- pkg/bds/bds65/fields/subtype.go:20-30 -/
def Shown.bds.bds65.fields.Subtype.ToString (subtype : UInt8) : List Char :=
  if subtype = 0 then
    t! "0 - Airborne Status Message"
  else
    if subtype = 1 then
      t! "1 - Surface Status Message"
    else
      dec subtype.toNat ++ t! " - Unknown code"

/-- pkg/bds/bds65/fields/not_acas_status.go:18-28 -/
def Shown.bds.bds65.fields.NotACASStatus.ToString (status : UInt8) : List Char :=
  if status = 0 then
    t! "0 - ACAS operational or unknown"
  else
    if status = 1 then
      t! "1 - ACAS not installed or not operational"
    else
      dec status.toNat ++ t! " - Unknown code"

/-- pkg/bds/bds65/fields/cockpit_display_traffic_information_status.go:18-28 -/
def Shown.bds.bds65.fields.CockpitDisplayOfTrafficInformationStatus.ToString (status : UInt8) : List Char :=
  if status = 0 then
    t! "0 - Traffic display not operational"
  else
    if status = 1 then
      t! "1 - Traffic display operational"
    else
      dec status.toNat ++ t! " - Unknown code"

/-- pkg/bds/bds65/fields/air_referenced_velocity_report_capability.go:18-28 -/
def Shown.bds.bds65.fields.AirReferencedVelocityReportCapability.ToString (status : UInt8) : List Char :=
  if status = 0 then
    t! "0 - No capability for sending messages to support Air-Referenced Velocity Reports"
  else
    if status = 1 then
      t! "1 - Capability of sending messages to support Air-Referenced Velocity Reports"
    else
      dec status.toNat ++ t! " - Unknown code"

/-- pkg/bds/bds65/fields/target_state_report_capability.go:18-28 -/
def Shown.bds.bds65.fields.TargetStateReportCapability.ToString (status : UInt8) : List Char :=
  if status = 0 then
    t! "0 - No capability for sending messages to support Target State Reports"
  else
    if status = 1 then
      t! "1 - Capability of sending messages to support Target State Reports"
    else
      dec status.toNat ++ t! " - Unknown code"

/-- pkg/bds/bds65/fields/target_change_report_capability.go:22-36 -/
def Shown.bds.bds65.fields.TargetChangeReportCapability.ToString (status : UInt8) : List Char :=
  if status = 0 then
    t! "0 - No capability for sending messages to support Trajectory Change Reports"
  else
    if status = 1 then
      t! "1 - Capability of sending messages to support TC+0 Report only"
    else
      if status = 2 then
        t! "2 - Capability of sending information for multiple TC Reports"
      else
        if status = 3 then
          t! "3 - Reserved"
        else
          dec status.toNat ++ t! " - Unknown code"

/-- pkg/bds/bds65/fields/airborne_capability_class_v1.go:17-29 -/
def Shown.bds.bds65.fields.AirborneCapabilityClassV1.ToString (capability : AirborneCapabilityClassV1) : List Char :=
  t! "Not ACAS Status:                               " ++
    (Shown.bds.bds65.fields.NotACASStatus.ToString capability.notACASStatus) ++
    t! "\n" ++
    t! "Cockpit Display Of Traffic Information Status: " ++
    (Shown.bds.bds65.fields.CockpitDisplayOfTrafficInformationStatus.ToString capability.cockpitDisplayOfTrafficInformationStatus) ++
    t! "\n" ++
    t! "Air Referenced Velocity Report Capability:     " ++
    (Shown.bds.bds65.fields.AirReferencedVelocityReportCapability.ToString capability.airReferencedVelocityReportCapability) ++
    t! "\n" ++
    t! "Target State Report Capability:                " ++
    (Shown.bds.bds65.fields.TargetStateReportCapability.ToString capability.targetStateReportCapability) ++
    t! "\n" ++
    t! "Target Change Report Capability:               " ++
    (Shown.bds.bds65.fields.TargetChangeReportCapability.ToString capability.targetChangeReportCapability)

/-- pkg/bds/bds65/fields/acas_resolution_advisory_active_v1.go:18-28 -/
def Shown.bds.bds65.fields.ACASResolutionAdvisoryActiveV1.ToString (status : UInt8) : List Char :=
  if status = 0 then
    t! "0 - ACAS II or ACAS RA not active"
  else
    if status = 1 then
      t! "1 - ACAS RA is active"
    else
      dec status.toNat ++ t! " - Unknown code"

/-- pkg/bds/bds65/fields/ident_switch_active.go:18-28 -/
def Shown.bds.bds65.fields.IdentSwitchActive.ToString (status : UInt8) : List Char :=
  if status = 0 then
    t! "0 - Ident switch not active"
  else
    if status = 1 then
      t! "1 - Ident switch active - retained for 18 +/-1 seconds"
    else
      dec status.toNat ++ t! " - Unknown code"

/-- pkg/bds/bds65/fields/receiving_atc_services.go:18-28 -/
def Shown.bds.bds65.fields.ReceivingATCServices.ToString (status : UInt8) : List Char :=
  if status = 0 then
    t! "0 - Aircraft not receiving ATC services"
  else
    if status = 1 then
      t! "1 - Aircraft receiving ATC services"
    else
      dec status.toNat ++ t! " - Unknown code"

/-- pkg/bds/bds65/fields/operational_mode.go:15-23 -/
def Shown.bds.bds65.fields.OperationalMode.ToString (mode : OperationalMode) : List Char :=
  t! "ACAS Resolution Advisory Active: " ++
    (Shown.bds.bds65.fields.ACASResolutionAdvisoryActiveV1.ToString mode.acasRAActive) ++
    t! "\n" ++
    t! "Ident Switch Active:             " ++
    (Shown.bds.bds65.fields.IdentSwitchActive.ToString mode.identSwitchActive) ++
    t! "\n" ++
    t! "Receiving ATC Services:          " ++
    (Shown.bds.bds65.fields.ReceivingATCServices.ToString mode.receivingATCServices)

/-- pkg/bds/bds65/fields/version_number.go:20-31 -/
def Shown.bds.bds65.fields.VersionNumber.ToString (versionNumber : UInt8) : List Char :=
  if versionNumber = 0 then
    t! "0 - ADSB V0: Conformant to Doc 9871, Appendix A"
  else
    if versionNumber = 1 then
      t! "1 - ADSB V1: Conformant to Doc 9871, Appendix B"
    else
      if versionNumber = 2 then
        t! "2 - ADSB V2: Conformant to Doc 9871, Appendix C"
      else
        dec versionNumber.toNat

/-- pkg/bds/bds65/fields/nic_supplement_a.go:18-28 -/
def Shown.bds.bds65.fields.NICSupplementA.ToString (supplement : UInt8) : List Char :=
  if supplement = 0 then
    t! "0"
  else
    if supplement = 1 then
      t! "1"
    else
      dec supplement.toNat ++ t! " - Unknown code"

/-- pkg/bds/bds65/fields/navigational_accuracy_category_position_v1.go:46-85 -/
def Shown.bds.bds65.fields.NavigationalAccuracyCategoryPositionV1.ToString (category : UInt8) : List Char :=
  if category = 0 then
    t! "0 - EPU >= 18.52 km (10 NM) - Unknown accuracy"
  else
    if category = 1 then
      t! "1 - EPU < 18.52 km (10 NM) - RNP-10 accuracy"
    else
      if category = 2 then
        t! "2 - EPU < 7.408 km (4 NM) - RNP-4 accuracy"
      else
        if category = 3 then
          t! "3 - EPU < 3.704 km (2 NM) - RNP-2 accuracy"
        else
          if category = 4 then
            t! "4 - EPU < 1 852 m (1 NM) - RNP-1 accuracy"
          else
            if category = 5 then
              t! "5 - EPU < 926 m (0.5 NM) - RNP-0.5 accuracy"
            else
              if category = 6 then
                t! "6 - EPU < 555.6 m ( 0.3 NM) - RNP-0.3 accuracy"
              else
                if category = 7 then
                  t! "7 - EPU < 185.2 m (0.1 NM) - RNP-0.1 accuracy"
                else
                  if category = 8 then
                    t! "8 - EPU < 92.6 m (0.05 NM) - e.g. GPS (with SA)"
                  else
                    if category = 9 then
                      t! "9 - EPU < 30 m and VEPU < 45 m - e.g. GPS (SA off)"
                    else
                      if category = 10 then
                        t! "10 - EPU < 10 m and VEPU < 15 m - e.g. WAAS"
                      else
                        if category = 11 then
                          t! "11 - EPU < 3 m and VEPU < 4 m - e.g. LAAS"
                        else
                          if category = 12 then
                            t! "12 - Reserved"
                          else
                            if category = 13 then
                              t! "13 - Reserved"
                            else
                              if category = 14 then
                                t! "14 - Reserved"
                              else
                                if category = 15 then
                                  t! "15 - Reserved"
                                else
                                  dec category.toNat ++ t! " - Unknown code"

/-- pkg/bds/bds65/fields/surveillance_integrity_level.go:33-55 -/
def Shown.bds.bds65.fields.SurveillanceIntegrityLevel.ToString (level : UInt8) : List Char :=
  if level = 0 then
    (t! "Probability of exceeding the Horizontal Containment Radius reported in the NIC Subfield without an indication: ") ++
    (t! "Unknown") ++
    t! "\n" ++
    (t! "Probability of exceeding the Vertical Integrity Containment Region (VPL) without an indication:                ") ++
    (t! "Unknown")
  else
    if level = 1 then
      (t! "Probability of exceeding the Horizontal Containment Radius reported in the NIC Subfield without an indication: ") ++
    (t! "<= 1 * 10^-3 per flight hour or per sample") ++
    t! "\n" ++
    (t! "Probability of exceeding the Vertical Integrity Containment Region (VPL) without an indication:                ") ++
    (t! "<= 1 * 10^-3 per flight hour or per sample")
    else
      if level = 2 then
        (t! "Probability of exceeding the Horizontal Containment Radius reported in the NIC Subfield without an indication: ") ++
    (t! "<= 1 * 10^-5 per flight hour or per sample") ++
    t! "\n" ++
    (t! "Probability of exceeding the Vertical Integrity Containment Region (VPL) without an indication:                ") ++
    (t! "<= 1 * 10^-5 per flight hour or per sample")
      else
        if level = 3 then
          (t! "Probability of exceeding the Horizontal Containment Radius reported in the NIC Subfield without an indication: ") ++
    (t! "<= 1 * 10^-7 per flight hour or per sample") ++
    t! "\n" ++
    (t! "Probability of exceeding the Vertical Integrity Containment Region (VPL) without an indication:                ") ++
    (t! "<= 2 * 10^-7 per 150 seconds or per sample")
        else
          dec level.toNat ++ t! " - Unknown code"

/-- pkg/bds/bds65/fields/nic_baro.go:22-32 -/
def Shown.bds.bds65.fields.NICBaro.ToString (baro : UInt8) : List Char :=
  if baro = 0 then
    t! "0 - barometric altitude based on a Gilham input that has not been cross-checked"
  else
    if baro = 1 then
      t! "1 - barometric altitude based on a Gilham input that has been cross-checked or on a non Gilham input"
    else
      dec baro.toNat ++ t! " - Unknown code"

/-- pkg/bds/bds65/fields/horizontal_reference_direction.go:18-28 -/
def Shown.bds.bds65.fields.HorizontalReferenceDirection.ToString (direction : UInt8) : List Char :=
  if direction = 0 then
    t! "0 - true north"
  else
    if direction = 1 then
      t! "1 - magnetic north"
    else
      dec direction.toNat ++ t! " - Unknown code"

/-- pkg/bds/bds65/aircraft_operational_status_airborne_adsb1.go:43-65 -/
def Shown.bds.bds65.AircraftOperationalStatusAirborneADSB1.ToString (message : OpStatusAirborneV1) : List Char :=
  t! "Message:                                 " ++
    (Shown.bds.register.Register.ToString (Shown.bds.bds65.AircraftOperationalStatusAirborneADSB1.GetRegister message)) ++
    t! "\n" ++
    t! "Subtype:                                 " ++
    (Shown.bds.bds65.fields.Subtype.ToString message.subtype) ++
    t! "\n" ++
    t! "Airborne Capability Class:               " ++
    t! "\n" ++
    (prefixMultiLine (Shown.bds.bds65.fields.AirborneCapabilityClassV1.ToString message.airborneCapabilityClass) (t! "    ")) ++
    t! "\n" ++
    t! "Operational Mode:                        " ++
    t! "\n" ++
    (prefixMultiLine (Shown.bds.bds65.fields.OperationalMode.ToString message.operationalMode) (t! "    ")) ++
    t! "\n" ++
    t! "ADSB Version Number:                     " ++
    (Shown.bds.bds65.fields.VersionNumber.ToString message.versionNumber) ++
    t! "\n" ++
    t! "NIC Supplement:                          " ++
    (Shown.bds.bds65.fields.NICSupplementA.ToString message.nicSupplement) ++
    t! "\n" ++
    t! "Navigational Accuracy Category Position: " ++
    (Shown.bds.bds65.fields.NavigationalAccuracyCategoryPositionV1.ToString message.navigationalAccuracyCategoryPosition) ++
    t! "\n" ++
    t! "Surveillance Integrity ReaderLevel:      " ++
    t! "\n" ++
    (prefixMultiLine (Shown.bds.bds65.fields.SurveillanceIntegrityLevel.ToString message.surveillanceIntegrityLevel) (t! "    ")) ++
    t! "\n" ++
    t! "NIC Baro:                                " ++
    (Shown.bds.bds65.fields.NICBaro.ToString message.nicBaro) ++
    t! "\n" ++
    t! "Horizontal Reference Direction:          " ++
    (Shown.bds.bds65.fields.HorizontalReferenceDirection.ToString message.horizontalReferenceDirection)

/-- pkg/bds/bds65/aircraft_operational_status_airborne_adsb2.go:35-37 -/
def Shown.bds.bds65.AircraftOperationalStatusAirborneADSB2.GetRegister (message : OpStatusAirborneV2) : Register :=
  (⟨t! "BDS 6,5", t! "Extended squitter aircraft operational status"⟩ : Register)

/-- pkg/bds/bds65/fields/acas_operational.go:18-28 -/
def Shown.bds.bds65.fields.ACASOperational.ToString (status : UInt8) : List Char :=
  if status = 0 then
    t! "0 - TCAS/ACAS is NOT Operational"
  else
    if status = 1 then
      t! "1 - TCAS/ACAS IS Operational"
    else
      dec status.toNat ++ t! " - Unknown code"

/-- pkg/bds/bds65/fields/extended_squitter_in.go:18-28 -/
def Shown.bds.bds65.fields.ExtendedSquitterIn.ToString (status : UInt8) : List Char :=
  if status = 0 then
    t! "0 - Aircraft has NO 1090ES Receive capability"
  else
    if status = 1 then
      t! "1 - Aircraft has 1090ES Receive capability"
    else
      dec status.toNat ++ t! " - Unknown code"

/-- pkg/bds/bds65/fields/universal_access_transceiver_capability.go:18-28 -/
def Shown.bds.bds65.fields.UniversalAccessTransceiverCapability.ToString (status : UInt8) : List Char :=
  if status = 0 then
    t! "0 - Aircraft has No UAT Receive capability"
  else
    if status = 1 then
      t! "1 - Aircraft has UAT Receive capability"
    else
      dec status.toNat ++ t! " - Unknown code"

/-- pkg/bds/bds65/fields/airborne_capability_class_v2.go:18-32 -/
def Shown.bds.bds65.fields.AirborneCapabilityClassV2.ToString (capability : AirborneCapabilityClassV2) : List Char :=
  t! "ACAS Operational:                                " ++
    (Shown.bds.bds65.fields.ACASOperational.ToString capability.acasOperational) ++
    t! "\n" ++
    t! "1090ES IN (1090 MHz Extended Squitter):          " ++
    (Shown.bds.bds65.fields.ExtendedSquitterIn.ToString capability.extendedSquitterIn) ++
    t! "\n" ++
    t! "ARV (Air-Referenced Velocity Report Capability): " ++
    (Shown.bds.bds65.fields.AirReferencedVelocityReportCapability.ToString capability.airReferencedVelocityReportCapability) ++
    t! "\n" ++
    t! "Target State Report Capability:                  " ++
    (Shown.bds.bds65.fields.TargetStateReportCapability.ToString capability.targetStateReportCapability) ++
    t! "\n" ++
    t! "Target Change Report Capability:                 " ++
    (Shown.bds.bds65.fields.TargetChangeReportCapability.ToString capability.targetChangeReportCapability) ++
    t! "\n" ++
    t! "UAT IN (Universal Access Transceiver):           " ++
    (Shown.bds.bds65.fields.UniversalAccessTransceiverCapability.ToString capability.uatCapability)

/-- pkg/bds/bds65/fields/acas_resolution_advisory_active_v2.go:18-28 -/
def Shown.bds.bds65.fields.ACASResolutionAdvisoryActiveV2.ToString (status : UInt8) : List Char :=
  if status = 0 then
    t! "0 - TCAS II or ACAS RA not active"
  else
    if status = 1 then
      t! "1 - TCAS/ACAS RA is active"
    else
      dec status.toNat ++ t! " - Unknown code"

/-- pkg/bds/bds65/fields/single_antenna_flag.go:18-28 -/
def Shown.bds.bds65.fields.SingleAntennaFlag.ToString (status : UInt8) : List Char :=
  if status = 0 then
    t! "0 - Systems with two functioning antennas"
  else
    if status = 1 then
      t! "1 - Systems that use only one antenna"
    else
      dec status.toNat ++ t! " - Unknown code"

/-- pkg/bds/bds65/fields/system_design_assurance.go:22-36 -/
def Shown.bds.bds65.fields.SystemDesignAssurance.ToString (status : UInt8) : List Char :=
  if status = 0 then
    t! "0 - Not Applicable"
  else
    if status = 1 then
      t! "1 - Level D"
    else
      if status = 2 then
        t! "2 - Level C"
      else
        if status = 3 then
          t! "3 - Level B"
        else
          dec status.toNat ++ t! " - Unknown code"

/-- pkg/bds/bds65/fields/airborne_operational_mode.go:16-27 -/
def Shown.bds.bds65.fields.AirborneOperationalMode.ToString (mode : AirborneOperationalMode) : List Char :=
  t! "ACAS Resolution Advisory Active: " ++
    (Shown.bds.bds65.fields.ACASResolutionAdvisoryActiveV2.ToString mode.acasRAActive) ++
    t! "\n" ++
    t! "Ident Switch Active:             " ++
    (Shown.bds.bds65.fields.IdentSwitchActive.ToString mode.identSwitchActive) ++
    t! "\n" ++
    t! "Single Antenna Flag:             " ++
    (Shown.bds.bds65.fields.SingleAntennaFlag.ToString mode.singleAntennaFlag) ++
    t! "\n" ++
    t! "System Design Assurance:         " ++
    (Shown.bds.bds65.fields.SystemDesignAssurance.ToString mode.systemDesignAssurance)

/-- pkg/bds/bds65/fields/navigational_accuracy_category_position_v2.go:46-85 -/
def Shown.bds.bds65.fields.NavigationalAccuracyCategoryPositionV2.ToString (category : UInt8) : List Char :=
  if category = 0 then
    t! "0 - EPU >= 18.52 km (10 NM) - Unknown accuracy"
  else
    if category = 1 then
      t! "1 - EPU < 18.52 km (10 NM) - RNP-10 accuracy"
    else
      if category = 2 then
        t! "2 - EPU < 7.408 km (4 NM) - RNP-4 accuracy"
      else
        if category = 3 then
          t! "3 - EPU < 3.704 km (2 NM) - RNP-2 accuracy"
        else
          if category = 4 then
            t! "4 - EPU < 1 852 m (1 NM) - RNP-1 accuracy"
          else
            if category = 5 then
              t! "5 - EPU < 926 m (0.5 NM) - RNP-0.5 accuracy"
            else
              if category = 6 then
                t! "6 - EPU < 555.6 m ( 0.3 NM) - RNP-0.3 accuracy"
              else
                if category = 7 then
                  t! "7 - EPU < 185.2 m (0.1 NM) - RNP-0.1 accuracy"
                else
                  if category = 8 then
                    t! "8 - EPU < 92.6 m (0.05 NM) - e.g. GPS (with SA)"
                  else
                    if category = 9 then
                      t! "9 - EPU < 30 m - e.g. GPS (SA off)"
                    else
                      if category = 10 then
                        t! "10 - EPU < 10 m - e.g. WAAS"
                      else
                        if category = 11 then
                          t! "11 - EPU < 3 m - e.g. LAAS"
                        else
                          if category = 12 then
                            t! "12 - Reserved"
                          else
                            if category = 13 then
                              t! "13 - Reserved"
                            else
                              if category = 14 then
                                t! "14 - Reserved"
                              else
                                if category = 15 then
                                  t! "15 - Reserved"
                                else
                                  dec category.toNat ++ t! " - Unknown code"

/-- pkg/bds/bds65/fields/geometric_vertical_accuracy.go:22-36 -/
def Shown.bds.bds65.fields.GeometricVerticalAccuracy.ToString (baro : UInt8) : List Char :=
  if baro = 0 then
    t! "0 - Unknown or GVA >= 150 meters"
  else
    if baro = 1 then
      t! "0 - GVA <= 150 meters"
    else
      if baro = 2 then
        t! "0 - GVA <= 45 meters"
      else
        if baro = 3 then
          t! "0 - reserved"
        else
          dec baro.toNat ++ t! " - Unknown code"

/-- pkg/bds/bds65/fields/source_integrity_level.go:22-36 -/
def Shown.bds.bds65.fields.SourceIntegrityLevel.ToString (level : UInt8) : List Char :=
  if level = 0 then
    t! "0 - Unknown or SIL > 1 * 10^-3 per flight hour or per sample"
  else
    if level = 1 then
      t! "1 - SIL <= 1 * 10^-3 per flight hour or per sample"
    else
      if level = 2 then
        t! "2 - SIL <= 1 * 10^-5 per flight hour or per sample"
      else
        if level = 3 then
          t! "3 - SIL <= 1 * 10^-7 per flight hour or per sample"
        else
          dec level.toNat ++ t! " - Unknown code"

/-- pkg/bds/bds65/fields/source_integrity_level_supplement.go:18-28 -/
def Shown.bds.bds65.fields.SourceIntegrityLevelSupplement.ToString (status : UInt8) : List Char :=
  if status = 0 then
    t! "0 - Probability of exceeding NIC radius of containment is based on \"per hour\""
  else
    if status = 1 then
      t! "1 - Probability of exceeding NIC radius of containment is based on \"per sample\""
    else
      dec status.toNat ++ t! " - Unknown code"

/-- pkg/bds/bds65/aircraft_operational_status_airborne_adsb2.go:45-71 -/
def Shown.bds.bds65.AircraftOperationalStatusAirborneADSB2.ToString (message : OpStatusAirborneV2) : List Char :=
  t! "Message:                                 " ++
    (Shown.bds.register.Register.ToString (Shown.bds.bds65.AircraftOperationalStatusAirborneADSB2.GetRegister message)) ++
    t! "\n" ++
    t! "Subtype:                                 " ++
    (Shown.bds.bds65.fields.Subtype.ToString message.subtype) ++
    t! "\n" ++
    t! "SubtypeAirborne Capability Class:        " ++
    t! "\n" ++
    (prefixMultiLine (Shown.bds.bds65.fields.AirborneCapabilityClassV2.ToString message.airborneCapabilityClass) (t! "    ")) ++
    t! "\n" ++
    t! "Operational Mode:                        " ++
    t! "\n" ++
    (prefixMultiLine (Shown.bds.bds65.fields.AirborneOperationalMode.ToString message.operationalMode) (t! "    ")) ++
    t! "\n" ++
    t! "ADSB Version Number:                     " ++
    (Shown.bds.bds65.fields.VersionNumber.ToString message.versionNumber) ++
    t! "\n" ++
    t! "NIC Supplement:                          " ++
    (Shown.bds.bds65.fields.NICSupplementA.ToString message.nicSupplementA) ++
    t! "\n" ++
    t! "Navigational Accuracy Category Position: " ++
    (Shown.bds.bds65.fields.NavigationalAccuracyCategoryPositionV2.ToString message.navigationalAccuracyCategoryPosition) ++
    t! "\n" ++
    t! "Geometric Vertical Accuracy:             " ++
    (Shown.bds.bds65.fields.GeometricVerticalAccuracy.ToString message.geometricVerticalAccuracy) ++
    t! "\n" ++
    t! "Source Integrity ReaderLevel:            " ++
    (Shown.bds.bds65.fields.SourceIntegrityLevel.ToString message.sourceIntegrityLevel) ++
    t! "\n" ++
    t! "Source Integrity ReaderLevel Supplement: " ++
    (Shown.bds.bds65.fields.SourceIntegrityLevelSupplement.ToString message.sourceIntegrityLevelSupplement) ++
    t! "\n" ++
    t! "NIC Baro:                                " ++
    (Shown.bds.bds65.fields.NICBaro.ToString message.nicBaro) ++
    t! "\n" ++
    t! "Horizontal Reference Direction:          " ++
    (Shown.bds.bds65.fields.HorizontalReferenceDirection.ToString message.horizontalReferenceDirection)

/-- pkg/bds/bds65/aircraft_operational_status_surface_adsb1.go:34-36 -/
def Shown.bds.bds65.AircraftOperationalStatusSurfaceADSB1.GetRegister (message : OpStatusSurfaceV1) : Register :=
  (⟨t! "BDS 6,5", t! "Extended squitter aircraft operational status"⟩ : Register)

/-- pkg/bds/bds65/fields/position_offset_applied.go:18-28 -/
def Shown.bds.bds65.fields.PositionOffsetApplied.ToString (status : UInt8) : List Char :=
  if status = 0 then
    t! "0 - Position transmitted is not the ADS-B position reference point"
  else
    if status = 1 then
      t! "1 - Position transmitted is the ADS-B position reference point"
    else
      dec status.toNat ++ t! " - Unknown code"

/-- pkg/bds/bds65/fields/b2_low.go:18-28 -/
def Shown.bds.bds65.fields.B2Low.ToString (status : UInt8) : List Char :=
  if status = 0 then
    t! "0 - Greater than or equal to 70 Watts transmit power"
  else
    if status = 1 then
      t! "1 - Less than 70 Watts transmit power"
    else
      dec status.toNat ++ t! " - Unknown code"

/-- pkg/bds/bds65/fields/surface_capability_class_v1.go:15-23 -/
def Shown.bds.bds65.fields.SurfaceCapabilityClassV1.ToString (capability : SurfaceCapabilityClassV1) : List Char :=
  t! "Position Offset Applied:                       " ++
    (Shown.bds.bds65.fields.PositionOffsetApplied.ToString capability.positionOffsetApplied) ++
    t! "\n" ++
    t! "Cockpit Display Of Traffic Information Status: " ++
    (Shown.bds.bds65.fields.CockpitDisplayOfTrafficInformationStatus.ToString capability.cockpitDisplayOfTrafficInformationStatus) ++
    t! "\n" ++
    t! "B2Low:                                         " ++
    (Shown.bds.bds65.fields.B2Low.ToString capability.b2Low)

/-- pkg/bds/bds65/fields/length_width.go:46-84 -/
def Shown.bds.bds65.fields.LengthWidth.ToString (status : UInt8) : List Char :=
  if status = 0 then
    t! "0 - Length lower than 15 meters and Width lower than 11.5 meters"
  else
    if status = 1 then
      t! "1 - Length lower than 15 meters and Width lower than 23 meters"
    else
      if status = 2 then
        t! "2 - Length lower than 25 meters and Width lower than 28.5 meters"
      else
        if status = 3 then
          t! "3 - Length lower than 25 meters and Width lower than 34 meters"
        else
          if status = 4 then
            t! "4 - Length lower than 35 meters and Width lower than 33 meters"
          else
            if status = 5 then
              t! "5 - Length lower than 35 meters and Width lower than 38 meters"
            else
              if status = 6 then
                t! "6 - Length lower than 45 meters and Width lower than 39.5 meters"
              else
                if status = 7 then
                  t! "7 - Length lower than 45 meters and Width lower than 45 meters"
                else
                  if status = 8 then
                    t! "8 - Length lower than 55 meters and Width lower than 45 meters"
                  else
                    if status = 9 then
                      t! "9 - Length lower than 55 meters and Width lower than 52 meters"
                    else
                      if status = 10 then
                        t! "10 - Length lower than 65 meters and Width lower than 59 meters"
                      else
                        if status = 11 then
                          t! "11 - Length lower than 65 meters and Width lower than 67 meters"
                        else
                          if status = 12 then
                            t! "12 - Length lower than 75 meters and Width lower than 72.5 meters"
                          else
                            if status = 13 then
                              t! "13 - Length lower than 75 meters and Width lower than 80 meters"
                            else
                              if status = 14 then
                                t! "14 - Length lower than 85 meters and Width lower than 80 meters"
                              else
                                if status = 15 then
                                  t! "15 - Length lower than 85 meters and Width lower than 90 meters"
                                else
                                  dec status.toNat ++ t! " - Unknown code"

/-- pkg/bds/bds65/fields/track_angle_heading.go:18-28 -/
def Shown.bds.bds65.fields.TrackAngleHeading.ToString (headingAngle : UInt8) : List Char :=
  if headingAngle = 0 then
    t! "0 - Target heading angle is being reported"
  else
    if headingAngle = 1 then
      t! "1 - Track angle is being reported"
    else
      dec headingAngle.toNat ++ t! " - Unknown code"

/-- pkg/bds/bds65/aircraft_operational_status_surface_adsb1.go:44-68 -/
def Shown.bds.bds65.AircraftOperationalStatusSurfaceADSB1.ToString (message : OpStatusSurfaceV1) : List Char :=
  t! "Message:                                 " ++
    (Shown.bds.register.Register.ToString (Shown.bds.bds65.AircraftOperationalStatusSurfaceADSB1.GetRegister message)) ++
    t! "\n" ++
    t! "Subtype:                                 " ++
    (Shown.bds.bds65.fields.Subtype.ToString message.subtype) ++
    t! "\n" ++
    t! "SubtypeAirborne Capability Class:        " ++
    t! "\n" ++
    (prefixMultiLine (Shown.bds.bds65.fields.SurfaceCapabilityClassV1.ToString message.surfaceCapabilityClass) (t! "    ")) ++
    t! "\n" ++
    t! "Aircraft Length And Width                " ++
    (Shown.bds.bds65.fields.LengthWidth.ToString message.lengthAndWidth) ++
    t! "\n" ++
    t! "Operational Mode:                        " ++
    t! "\n" ++
    (prefixMultiLine (Shown.bds.bds65.fields.OperationalMode.ToString message.operationalMode) (t! "    ")) ++
    t! "\n" ++
    t! "ADSB Version Number:                     " ++
    (Shown.bds.bds65.fields.VersionNumber.ToString message.versionNumber) ++
    t! "\n" ++
    t! "NIC Supplement:                          " ++
    (Shown.bds.bds65.fields.NICSupplementA.ToString message.nicSupplement) ++
    t! "\n" ++
    t! "Navigational Accuracy Category Position: " ++
    (Shown.bds.bds65.fields.NavigationalAccuracyCategoryPositionV1.ToString message.navigationalAccuracyCategoryPosition) ++
    t! "\n" ++
    t! "Surveillance Integrity ReaderLevel:      " ++
    t! "\n" ++
    (prefixMultiLine (Shown.bds.bds65.fields.SurveillanceIntegrityLevel.ToString message.surveillanceIntegrityLevel) (t! "    ")) ++
    t! "\n" ++
    t! "NIC Baro:                                " ++
    (Shown.bds.bds65.fields.TrackAngleHeading.ToString message.trackAngleHeading) ++
    t! "\n" ++
    t! "Horizontal Reference Direction:          " ++
    (Shown.bds.bds65.fields.HorizontalReferenceDirection.ToString message.horizontalReferenceDirection)

/-- pkg/bds/bds65/aircraft_operational_status_surface_adsb2.go:35-37 -/
def Shown.bds.bds65.AircraftOperationalStatusSurfaceADSB2.GetRegister (message : OpStatusSurfaceV2) : Register :=
  (⟨t! "BDS 6,5", t! "Extended squitter aircraft operational status"⟩ : Register)

/-- pkg/bds/bds65/fields/navigation_accuracy_category_velocity.go:11-13 -/
def Shown.bds.bds65.fields.NavigationAccuracyCategoryVelocity.ToString (category : UInt8) : List Char :=
  dec category.toNat

/-- pkg/bds/bds65/fields/nic_supplement_c.go:18-28 -/
def Shown.bds.bds65.fields.NICSupplementC.ToString (supplement : UInt8) : List Char :=
  if supplement = 0 then
    t! "0"
  else
    if supplement = 1 then
      t! "1"
    else
      dec supplement.toNat ++ t! " - Unknown code"

/-- pkg/bds/bds65/fields/surface_capability_class_v2.go:19-31 -/
def Shown.bds.bds65.fields.SurfaceCapabilityClassV2.ToString (capability : SurfaceCapabilityClassV2) : List Char :=
  t! "1090ES IN (1090 MHz Extended Squitter):                   " ++
    (Shown.bds.bds65.fields.ExtendedSquitterIn.ToString capability.extendedSquitterIn) ++
    t! "\n" ++
    t! "B2 Low (Class B2 Transmit Power Less Than 70 Watts):      " ++
    (Shown.bds.bds65.fields.B2Low.ToString capability.b2Low) ++
    t! "\n" ++
    t! "UAT IN (Universal Access Transceiver):                    " ++
    (Shown.bds.bds65.fields.UniversalAccessTransceiverCapability.ToString capability.uatCapability) ++
    t! "\n" ++
    t! "NACV (Navigation Accuracy Category for Velocity):         " ++
    (Shown.bds.bds65.fields.NavigationAccuracyCategoryVelocity.ToString capability.navigationAccuracyCategoryVelocity) ++
    t! "\n" ++
    t! "NIC Supplement-C (NIC Supplement for use on the Surface): " ++
    (Shown.bds.bds65.fields.NICSupplementC.ToString capability.nicSupplementC)

/-- pkg/bds/bds65/fields/gps_antenna_lateral.go:30-52 -/
def Shown.bds.bds65.fields.GPSAntennaLateral.ToString (data : UInt8) : List Char :=
  if data = 0 then
    t! "0 - no data"
  else
    if data = 1 then
      t! "1 - direction left, 2 meters"
    else
      if data = 2 then
        t! "2 - direction left, 4 meters"
      else
        if data = 3 then
          t! "3 - direction left, 6 meters"
        else
          if data = 4 then
            t! "4 - direction right, 0 meter"
          else
            if data = 5 then
              t! "5 - direction right, 2 meters"
            else
              if data = 6 then
                t! "6 - direction right, 4 meters"
              else
                if data = 7 then
                  t! "7 - direction right, 6 meters"
                else
                  dec data.toNat ++ t! " - Unknown code"

/-- pkg/bds/bds65/fields/gps_antenna_longitudinal.go:85-103 -/
def Shown.bds.bds65.fields.GPSAntennaLongitudinal.ToString (data : UInt8) : List Char :=
  if data = 0 then
    t! "0 - no data"
  else
    if data = 1 then
      t! "1 - Antenna Offset is compensated by the Sensor"
    else
      if ((((((((((((((((((((((((((((data = 2 ∨ data = 3) ∨ data = 4) ∨ data = 5) ∨ data = 6) ∨ data = 7) ∨ data = 8) ∨ data = 9) ∨ data = 10) ∨ data = 11) ∨ data = 12) ∨ data = 13) ∨ data = 14) ∨ data = 15) ∨ data = 16) ∨ data = 17) ∨ data = 18) ∨ data = 19) ∨ data = 20) ∨ data = 21) ∨ data = 22) ∨ data = 23) ∨ data = 24) ∨ data = 25) ∨ data = 26) ∨ data = 27) ∨ data = 28) ∨ data = 29) ∨ data = 30) ∨ data = 31 then
        dec data.toNat ++ t! " - " ++ dec ((data * 2) - 2).toNat
      else
        dec data.toNat ++ t! " - Unknown code"

/-- pkg/bds/bds65/fields/gps_antenna.go:14-20 -/
def Shown.bds.bds65.fields.GPSAntenna.ToString (antenna : (UInt8 × UInt8)) : List Char :=
  t! "Lateral Axis GPS Antenna:      " ++
    (Shown.bds.bds65.fields.GPSAntennaLateral.ToString antenna.1) ++
    t! "\n" ++
    t! "Longitudinal Axis GPS Antenna: " ++
    (Shown.bds.bds65.fields.GPSAntennaLongitudinal.ToString antenna.2)

/-- pkg/bds/bds65/fields/surface_operational_mode.go:20-33 -/
def Shown.bds.bds65.fields.SurfaceOperationalMode.ToString (mode : SurfaceOperationalMode) : List Char :=
  t! "ACAS Resolution Advisory Active: " ++
    (Shown.bds.bds65.fields.ACASResolutionAdvisoryActiveV2.ToString mode.acasRAActive) ++
    t! "\n" ++
    t! "Ident Switch Active:             " ++
    (Shown.bds.bds65.fields.IdentSwitchActive.ToString mode.identSwitchActive) ++
    t! "\n" ++
    t! "Single Antenna Flag:             " ++
    (Shown.bds.bds65.fields.SingleAntennaFlag.ToString mode.singleAntennaFlag) ++
    t! "\n" ++
    t! "System Design Assurance:         " ++
    (Shown.bds.bds65.fields.SystemDesignAssurance.ToString mode.systemDesignAssurance) ++
    t! "\n" ++
    t! "GPS Antenna:                     " ++
    (prefixMultiLine (Shown.bds.bds65.fields.GPSAntenna.ToString (mode.gpsAntennaLateral, mode.gpsAntennaLongitudinal)) (t! "    "))

/-- pkg/bds/bds65/aircraft_operational_status_surface_adsb2.go:45-71 -/
def Shown.bds.bds65.AircraftOperationalStatusSurfaceADSB2.ToString (message : OpStatusSurfaceV2) : List Char :=
  t! "Message:                                 " ++
    (Shown.bds.register.Register.ToString (Shown.bds.bds65.AircraftOperationalStatusSurfaceADSB2.GetRegister message)) ++
    t! "\n" ++
    t! "Subtype:                                 " ++
    (Shown.bds.bds65.fields.Subtype.ToString message.subtype) ++
    t! "\n" ++
    t! "SubtypeAirborne Capability Class:        " ++
    t! "\n" ++
    (prefixMultiLine (Shown.bds.bds65.fields.SurfaceCapabilityClassV2.ToString message.surfaceCapabilityClass) (t! "    ")) ++
    t! "\n" ++
    t! "Aircraft Length And Width                " ++
    (Shown.bds.bds65.fields.LengthWidth.ToString message.lengthAndWidth) ++
    t! "\n" ++
    t! "Operational Mode:                        " ++
    t! "\n" ++
    (prefixMultiLine (Shown.bds.bds65.fields.SurfaceOperationalMode.ToString message.operationalMode) (t! "    ")) ++
    t! "\n" ++
    t! "ADSB Version Number:                     " ++
    (Shown.bds.bds65.fields.VersionNumber.ToString message.versionNumber) ++
    t! "\n" ++
    t! "NIC Supplement:                          " ++
    (Shown.bds.bds65.fields.NICSupplementA.ToString message.nicSupplementA) ++
    t! "\n" ++
    t! "Navigational Accuracy Category Position: " ++
    (Shown.bds.bds65.fields.NavigationalAccuracyCategoryPositionV2.ToString message.navigationalAccuracyCategoryPosition) ++
    t! "\n" ++
    t! "Source Integrity ReaderLevel:            " ++
    (Shown.bds.bds65.fields.SourceIntegrityLevel.ToString message.sourceIntegrityLevel) ++
    t! "\n" ++
    t! "Source Integrity ReaderLevel Supplement: " ++
    (Shown.bds.bds65.fields.SourceIntegrityLevelSupplement.ToString message.sourceIntegrityLevelSupplement) ++
    t! "\n" ++
    t! "NIC Baro:                                " ++
    (Shown.bds.bds65.fields.TrackAngleHeading.ToString message.trackAngleHeading) ++
    t! "\n" ++
    t! "Horizontal Reference Direction:          " ++
    (Shown.bds.bds65.fields.HorizontalReferenceDirection.ToString message.horizontalReferenceDirection)

/-- The method ToString called through the interface pkg/bds/bds65.AircraftOperationalStatus; its implementations are in pkg/bds/bds65/aircraft_operational_status_adsb0.go, pkg/bds/bds65/aircraft_operational_status_airborne_adsb1.go, pkg/bds/bds65/aircraft_operational_status_airborne_adsb2.go, pkg/bds/bds65/aircraft_operational_status_surface_adsb1.go, pkg/bds/bds65/aircraft_operational_status_surface_adsb2.go. -/
def Shown.bds.bds65.AircraftOperationalStatus.ToString : OperationalStatus → List Char
  | .v0 x => Shown.bds.bds65.AircraftOperationalStatusADSB0.ToString x
  | .airborneV1 x => Shown.bds.bds65.AircraftOperationalStatusAirborneADSB1.ToString x
  | .airborneV2 x => Shown.bds.bds65.AircraftOperationalStatusAirborneADSB2.ToString x
  | .surfaceV1 x => Shown.bds.bds65.AircraftOperationalStatusSurfaceADSB1.ToString x
  | .surfaceV2 x => Shown.bds.bds65.AircraftOperationalStatusSurfaceADSB2.ToString x

/-- pkg/adsb/aircraft_operational_status/aircraft_operational_status.go:24-28 -/
def Shown.adsb.aircraft_operational_status.AircraftOperationalStatus.ToString (aircraftOperationalStatus : OperationalStatus) (adsbVersion : UInt8) : List Char :=
  (Shown.bds.bds65.AircraftOperationalStatus.ToString aircraftOperationalStatus)

/-- pkg/bds/bds61/aircraft_status_no_information.go:23-25 -/
def Shown.bds.bds61.AircraftStatusNoInformation.GetRegister (message : StatusNoInformation) : Register :=
  (⟨t! "BDS 6,1", t! "Extended squitter emergency/priority status"⟩ : Register)

/-- pkg/bds/bds61/fields/subtype.go:32-46 -/
def Shown.bds.bds61.fields.Subtype.ToString (subtype : UInt8) : List Char :=
  if subtype = 0 then
    t! "0 - no information"
  else
    if subtype = 1 then
      t! "1 - emergency/priority status"
    else
      if subtype = 2 then
        t! "2 - TCAS/ACAS RA Broadcast"
      else
        if (((subtype = 3 ∨ subtype = 4) ∨ subtype = 5) ∨ subtype = 6) ∨ subtype = 7 then
          dec subtype.toNat ++ t! " - reserved"
        else
          dec subtype.toNat ++ t! " - Unknown code"

/-- pkg/bds/bds61/fields/emergency_status.go:30-52 -/
def Shown.bds.bds61.fields.EmergencyPriorityStatus.ToString (capability : UInt8) : List Char :=
  if capability = 0 then
    t! "0 - no emergency"
  else
    if capability = 1 then
      t! "1 - general emergency"
    else
      if capability = 2 then
        t! "2 - lifeguard/medical emergency"
      else
        if capability = 3 then
          t! "3 - minimum fuel"
        else
          if capability = 4 then
            t! "4 - no communications"
          else
            if capability = 5 then
              t! "5 - unlawful interference"
            else
              if capability = 6 then
                t! "6 - downed aircraft"
              else
                if capability = 7 then
                  t! "7 - reserved"
                else
                  dec capability.toNat ++ t! " - Unknown code"

/-- pkg/bds/bds61/aircraft_status_no_information.go:38-46 -/
def Shown.bds.bds61.AircraftStatusNoInformation.ToString (message : StatusNoInformation) : List Char :=
  t! "Message:                   " ++
    (Shown.bds.register.Register.ToString (Shown.bds.bds61.AircraftStatusNoInformation.GetRegister message)) ++
    t! "\n" ++
    t! "Subtype:                   " ++
    (Shown.bds.bds61.fields.Subtype.ToString message.subtype) ++
    t! "\n" ++
    t! "Emergency State:           " ++
    (Shown.bds.bds61.fields.EmergencyPriorityStatus.ToString message.emergencyPriorityStatus)

/-- pkg/bds/bds61/aircraft_status_emergency.go:24-26 -/
def Shown.bds.bds61.AircraftStatusEmergency.GetRegister (message : StatusEmergency) : Register :=
  (⟨t! "BDS 6,1", t! "Extended squitter emergency/priority status"⟩ : Register)

/-- pkg/bds/bds61/aircraft_status_emergency.go:39-47 -/
def Shown.bds.bds61.AircraftStatusEmergency.ToString (message : StatusEmergency) : List Char :=
  t! "Message:                   " ++
    (Shown.bds.register.Register.ToString (Shown.bds.bds61.AircraftStatusEmergency.GetRegister message)) ++
    t! "\n" ++
    t! "Subtype:                   " ++
    (Shown.bds.bds61.fields.Subtype.ToString message.subtype) ++
    t! "\n" ++
    t! "Emergeny State:            " ++
    (Shown.bds.bds61.fields.EmergencyPriorityStatus.ToString message.emergencyPriorityStatus)

/-- pkg/bds/bds61/aircraft_status_acas.go:23-25 -/
def Shown.bds.bds61.AircraftStatusACAS.GetRegister (message : StatusACAS) : Register :=
  (⟨t! "BDS 6,1", t! "Extended squitter emergency/priority status"⟩ : Register)

/-- pkg/bds/bds61/aircraft_status_acas.go:33-41 -/
def Shown.bds.bds61.AircraftStatusACAS.ToString (F : FloatTexts) (message : StatusACAS) : List Char :=
  t! "Message:                   " ++
    (Shown.bds.register.Register.ToString (Shown.bds.bds61.AircraftStatusACAS.GetRegister message)) ++
    t! "\n" ++
    t! "Subtype:                   " ++
    (Shown.bds.bds61.fields.Subtype.ToString message.subtype) ++
    t! "\n" ++
    t! "ACAS Data:                 " ++
    t! "\n" ++
    (Shown.acas.ra.ResolutionAdvisory.ToString F message.resolutionAdvisory)

/-- The method ToString called through the interface pkg/bds/bds61.AircraftStatus; its implementations are in pkg/bds/bds61/aircraft_status_acas.go, pkg/bds/bds61/aircraft_status_emergency.go, pkg/bds/bds61/aircraft_status_no_information.go. -/
def Shown.bds.bds61.AircraftStatus.ToString (F : FloatTexts) : AircraftStatus → List Char
  | .noInformation x => Shown.bds.bds61.AircraftStatusNoInformation.ToString x
  | .emergency x => Shown.bds.bds61.AircraftStatusEmergency.ToString x
  | .acas x => Shown.bds.bds61.AircraftStatusACAS.ToString F x

/-- pkg/adsb/aircraft_status/aircraft_status.go:24-28 -/
def Shown.adsb.aircraft_status.AircraftStatus.ToString (F : FloatTexts) (aircraftStatus : AircraftStatus) (adsbVersion : UInt8) : List Char :=
  (Shown.bds.bds61.AircraftStatus.ToString F aircraftStatus)

/-- pkg/adsb/no_position_information/no_position_information.go:26-35 -/
def Shown.adsb.no_position_information.NoPositionInformation.ToString (adsbVersion : UInt8) (formatTypeCode : UInt8) (altitudeBarometric : Int) (navigationIntegrityCategory : UInt8) : List Char :=
  t! "Message:                           No Position Information" ++
    t! "\n" ++
    t! "Format Type Code:                  " ++
    dec formatTypeCode.toNat ++
    t! "\n" ++
    t! "Altitude Baro (feet):              " ++
    decInt altitudeBarometric ++
    t! "\n" ++
    t! "Navigation Integrity Category:     " ++
    dec navigationIntegrityCategory.toNat

/-- pkg/adsb/surface_position/fields/containment_radius.go:57-70 -/
def Shown.adsb.surface_position.fields.ContainmentRadius.ToString (cr : UInt8) : List Char :=
  if cr = 5 then
    t! "μ < 3 m"
  else
    if cr = 6 then
      t! "3 m <= μ < 10 m"
    else
      if cr = 7 then
        t! "10 m <= μ < 92.6 m (0.05 NM)"
      else
        if cr = 8 then
          t! "92.6 m (0.05 NM) <= μ"
        else
          dec cr.toNat ++ t! " - Unknown code"

/-- pkg/adsb/surface_position/fields/horizontal_containment_radius_v1.go:28-43 -/
def Shown.adsb.surface_position.fields.HorizontalContainmentRadiusV1.ToString (hcr : UInt8) : List Char :=
  if hcr = 0 then
    t! "Rc < 7.5 m"
  else
    if hcr = 1 then
      t! "Rc < 25 m"
    else
      if hcr = 2 then
        t! "Rc < 75 m"
      else
        if hcr = 3 then
          t! "Rc < 0.1 NM (185.2 m)"
        else
          if hcr = 4 then
            t! "Rc >= 0.1 NM (185.2 m) or unknown"
          else
            dec hcr.toNat ++ t! " - Unknown code"

/-- pkg/adsb/surface_position/fields/horizontal_containment_radius_v2.go:37-58 -/
def Shown.adsb.surface_position.fields.HorizontalContainmentRadiusV2.ToString (hcr : UInt8) : List Char :=
  if hcr = 0 then
    t! "Rc < 7.5 m"
  else
    if hcr = 1 then
      t! "Rc < 25 m"
    else
      if hcr = 2 then
        t! "Rc < 75 m"
      else
        if hcr = 3 then
          t! "Rc < 0.1 NM (185.2 m)"
        else
          if hcr = 4 then
            t! "Rc < 0.2 NM (370.4 m)"
          else
            if hcr = 5 then
              t! "Rc < 0.3 NM (555.6 m)"
            else
              if hcr = 6 then
                t! "Rc < 0.6 NM (1111.2 m)"
              else
                if hcr = 7 then
                  t! "Rc >= 0.6 NM (1111.2 m) or unknown"
                else
                  dec hcr.toNat ++ t! " - Unknown code"

/-- pkg/adsb/surface_position/fields/horizontal_protection_limit.go:52-65 -/
def Shown.adsb.surface_position.fields.HorizontalProtectionLimit.ToString (hpl : UInt8) : List Char :=
  if hpl = 5 then
    t! "HPL < 7.5 m"
  else
    if hpl = 6 then
      t! "HPL < 25 m"
    else
      if hpl = 7 then
        t! "HPL < 185.2 m (0.1 NM)"
      else
        if hpl = 8 then
          t! "185.2 m (0.1 NM) <= HPL"
        else
          dec hpl.toNat ++ t! " - Unknown code"

/-- pkg/bds/bds06/surface_position.go:23-25 -/
def Shown.bds.bds06.SurfacePosition.GetRegister (message : SurfacePosition) : Register :=
  (⟨t! "BDS 0,6", t! "Extended squitter surface position"⟩ : Register)

/-- pkg/bds/bds06/fields/movement.go:28-46 -/
def Shown.bds.bds06.fields.MovementStatus.ToString (movementStatus : Nat) : List Char :=
  if movementStatus = 0 then
    t! "0 - no information available"
  else
    if movementStatus = 1 then
      t! "1 - aircraft stopped (ground speed < 0.2315 km/h (0.125 kt))"
    else
      if movementStatus = 124 then
        t! "124 - ground speed ≥ 324.1 km/h (175 kt)"
      else
        if movementStatus = 125 then
          t! "125 - reserved for A/C Decelerating"
        else
          if movementStatus = 126 then
            t! "126 - reserved for A/C Accelerating"
          else
            if movementStatus = 127 then
              t! "127 - reserved for Backing Up"
            else
              dec movementStatus ++ t! " - valid"

/-- pkg/bds/bds06/fields/time.go:18-28 -/
def Shown.bds.bds06.fields.Time.ToString (time : UInt8) : List Char :=
  if time = 0 then
    t! "0 - not synchronized to UTC"
  else
    if time = 1 then
      t! "1 - synchronized to UTC"
    else
      dec time.toNat ++ t! " - Unknown code"

/-- pkg/bds/bds06/fields/compact_position_reporting_format.go:18-28 -/
def Shown.bds.bds06.fields.CompactPositionReportingFormat.ToString (format : UInt8) : List Char :=
  if format = 0 then
    t! "0 - even format coding"
  else
    if format = 1 then
      t! "1 - odd format coding"
    else
      dec format.toNat ++ t! " - Unknown code"

/-- pkg/bds/bds06/surface_position.go:32-54 -/
def Shown.bds.bds06.SurfacePosition.ToString (F : FloatTexts) (message : SurfacePosition) : List Char :=
  t! "Message:                           " ++
    (Shown.bds.register.Register.ToString (Shown.bds.bds06.SurfacePosition.GetRegister message)) ++
    t! "\n" ++
    t! "Format Type Code:                  " ++
    dec message.formatTypeCode.toNat ++
    t! "\n" ++
    t! "Movement Status:                   " ++
    (Shown.bds.bds06.fields.MovementStatus.ToString message.movementStatus) ++
    t! "\n" ++
    t! "Movement Speed (knots):            " ++
    F.float32 message.movementSpeed ++
    t! "\n" ++
    t! "Ground Track Status:               " ++
    boolText message.groundTrackStatus ++
    t! "\n" ++
    t! "Ground Track (degrees):            " ++
    F.float32 message.groundTrack ++
    t! "\n" ++
    t! "Time:                              " ++
    (Shown.bds.bds06.fields.Time.ToString message.time) ++
    t! "\n" ++
    t! "Compact Position Reporting Format: " ++
    (Shown.bds.bds06.fields.CompactPositionReportingFormat.ToString message.cprFormat) ++
    t! "\n" ++
    t! "Encoded Latitude:                  " ++
    dec message.encodedLatitude.toNat ++
    t! "\n" ++
    t! "Encoded Longitude:                 " ++
    dec message.encodedLongitude.toNat

/-- pkg/adsb/surface_position/surface_position_v0.go:17-25 -/
def Shown.adsb.surface_position.SurfacePositionV0.ToString (F : FloatTexts) (surfacePosition : SurfacePosition) (horizontalProtectionLimit : UInt8) (containmentRadius : UInt8) : List Char :=
  (Shown.bds.bds06.SurfacePosition.ToString F surfacePosition) ++
    t! "\n" ++
    t! "Horizontal Protection Limit:       " ++
    (Shown.adsb.surface_position.fields.HorizontalProtectionLimit.ToString horizontalProtectionLimit) ++
    t! "\n" ++
    t! "Containment Radius:                " ++
    (Shown.adsb.surface_position.fields.ContainmentRadius.ToString containmentRadius)

/-- pkg/adsb/surface_position/surface_position_v1.go:18-28 -/
def Shown.adsb.surface_position.SurfacePositionV1.ToString (F : FloatTexts) (surfacePosition : SurfacePosition) (nicSupplementA : Bool) (horizontalContainmentRadius : UInt8) (navigationIntegrityCategory : UInt8) : List Char :=
  (Shown.bds.bds06.SurfacePosition.ToString F surfacePosition) ++
    t! "\n" ++
    t! "Navigation Integrity Code A:       " ++
    boolText nicSupplementA ++
    t! "\n" ++
    t! "Horizontal Containment Limit:      " ++
    (Shown.adsb.surface_position.fields.HorizontalContainmentRadiusV1.ToString horizontalContainmentRadius) ++
    t! "\n" ++
    t! "Navigation Integrity Category:     " ++
    dec navigationIntegrityCategory.toNat

/-- pkg/adsb/surface_position/surface_position_v2.go:19-31 -/
def Shown.adsb.surface_position.SurfacePositionV2.ToString (F : FloatTexts) (surfacePosition : SurfacePosition) (nicSupplementA : Bool) (nicSupplementC : Bool) (horizontalContainmentRadius : UInt8) (navigationIntegrityCategory : UInt8) : List Char :=
  (Shown.bds.bds06.SurfacePosition.ToString F surfacePosition) ++
    t! "\n" ++
    t! "Navigation Integrity Code A:       " ++
    boolText nicSupplementA ++
    t! "\n" ++
    t! "Navigation Integrity Code C:       " ++
    boolText nicSupplementC ++
    t! "\n" ++
    t! "Horizontal Containment Limit:      " ++
    (Shown.adsb.surface_position.fields.HorizontalContainmentRadiusV2.ToString horizontalContainmentRadius) ++
    t! "\n" ++
    t! "Navigation Integrity Category:     " ++
    dec navigationIntegrityCategory.toNat

/-- pkg/bds/bds62/target_state_and_status_type_0.go:40-42 -/
def Shown.bds.bds62.TargetStateAndStatus0.GetRegister (message : TargetStateAndStatus0) : Register :=
  (⟨t! "BDS 6,2", t! "Target state and status information"⟩ : Register)

/-- pkg/bds/bds62/fields/subtype.go:24-36 -/
def Shown.bds.bds62.fields.Subtype.ToString (subtype : UInt8) : List Char :=
  if subtype = 0 then
    t! "0 - Subtype 0"
  else
    if subtype = 1 then
      t! "1 - Subtype 1"
    else
      if subtype = 2 ∨ subtype = 3 then
        dec subtype.toNat ++ t! " - reserved"
      else
        dec subtype.toNat ++ t! " - Unknown code"

/-- pkg/bds/bds62/fields/vertical_data_source_indicator.go:22-36 -/
def Shown.bds.bds62.fields.VerticalDataAvailableSourceIndicator.ToString (data : UInt8) : List Char :=
  if data = 0 then
    t! "0 - no valid Vertical Target State data is available"
  else
    if data = 1 then
      t! "1 - autopilot control panel selected value, such as Mode Control Panel (MCP) or Flight Control Unit (FCU)"
    else
      if data = 2 then
        t! "2 - holding altitude"
      else
        if data = 3 then
          t! "3 - FMS/RNAV system"
        else
          dec data.toNat ++ t! " - Unknown code"

/-- pkg/bds/bds62/fields/target_altitude_type.go:18-28 -/
def Shown.bds.bds62.fields.TargetAltitudeType.ToString (targetType : UInt8) : List Char :=
  if targetType = 0 then
    t! "0 - referenced to pressure-altitude (flight level)"
  else
    if targetType = 1 then
      t! "1 - referenced to barometric corrected altitude (mean sea level)"
    else
      dec targetType.toNat ++ t! " - Unknown code"

/-- pkg/bds/bds62/fields/target_altitude_capability.go:24-38 -/
def Shown.bds.bds62.fields.TargetAltitudeCapability.ToString (capability : UInt8) : List Char :=
  if capability = 0 then
    t! "0 - capability for reporting holding altitude only"
  else
    if capability = 1 then
      t! "1 - capability for reporting either holding altitude or autopilot control panel	selected altitude"
    else
      if capability = 2 then
        t! "2 - capability for reporting either holding altitude, autopilot control panel selected altitude, or any FMS/RNAV level-off altitude"
      else
        if capability = 3 then
          t! "3 - Reserved"
        else
          dec capability.toNat ++ t! " - Unknown code"

/-- pkg/bds/bds62/fields/vertical_mode_indicator.go:22-36 -/
def Shown.bds.bds62.fields.VerticalModeIndicator.ToString (indicator : UInt8) : List Char :=
  if indicator = 0 then
    t! "0 - unknown mode or information unavailable"
  else
    if indicator = 1 then
      t! "1 - \"Acquiring\" Mode"
    else
      if indicator = 2 then
        t! "2 - \"Capturing\" or \"Maintaining\" Mode"
      else
        if indicator = 3 then
          t! "3 - Reserved"
        else
          dec indicator.toNat ++ t! " - Unknown code"

/-- pkg/bds/bds62/fields/numeric_value_status.go:18-30 -/
def Shown.bds.bds62.fields.NumericValueStatus.ToString (vs : NumericValueStatus) : List Char :=
  if vs = .noInformation then
    t! "No information"
  else
    if vs = .regular then
      t! "Regular value"
    else
      if vs = .maximum then
        t! "Maximum"
      else
        dec (match vs with | .noInformation => 0 | .regular => 1 | .maximum => 2) ++ t! " - Unknown code"

/-- pkg/bds/bds62/fields/horizontal_data_source_indicator.go:22-36 -/
def Shown.bds.bds62.fields.HorizontalDataAvailableSourceIndicator.ToString (data : UInt8) : List Char :=
  if data = 0 then
    t! "0 - no valid horizontal target state data is available"
  else
    if data = 1 then
      t! "1 - autopilot control panel selected value, such as Mode Control Panel (MCP) or Flight Control Unit (FCU)"
    else
      if data = 2 then
        t! "2 - maintaining current heading or track angle (e.g. autopilot mode select)"
      else
        if data = 3 then
          t! "3 - FMS/RNAV system (indicates track angle specified by leg type)"
        else
          dec data.toNat ++ t! " - Unknown code"

/-- pkg/bds/bds62/fields/target_heading_track_angle.go:21-31 -/
def Shown.bds.bds62.fields.TargetHeadingTrackIndicator.ToString (targetType : UInt8) : List Char :=
  if targetType = 0 then
    t! "0 - target heading angle is being reported"
  else
    if targetType = 1 then
      t! "1 - track angle is being reported"
    else
      dec targetType.toNat ++ t! " - Unknown code"

/-- pkg/bds/bds62/fields/horizontal_mode_indicator.go:22-36 -/
def Shown.bds.bds62.fields.HorizontalModeIndicator.ToString (indicator : UInt8) : List Char :=
  if indicator = 0 then
    t! "0 - unknown mode or information unavailable"
  else
    if indicator = 1 then
      t! "1 - \"Acquiring\" Mode"
    else
      if indicator = 2 then
        t! "2 - \"Capturing\" or \"Maintaining\" Mode"
      else
        if indicator = 3 then
          t! "3 - Reserved"
        else
          dec indicator.toNat ++ t! " - Unknown code"

/-- pkg/bds/bds62/fields/navigational_accuracy_category_position_v1.go:46-85 -/
def Shown.bds.bds62.fields.NavigationalAccuracyCategoryPositionV1.ToString (category : UInt8) : List Char :=
  if category = 0 then
    t! "0 - EPU >= 18.52 km (10 NM) - Unknown accuracy"
  else
    if category = 1 then
      t! "1 - EPU < 18.52 km (10 NM) - RNP-10 accuracy"
    else
      if category = 2 then
        t! "2 - EPU < 7.408 km (4 NM) - RNP-4 accuracy"
      else
        if category = 3 then
          t! "3 - EPU < 3.704 km (2 NM) - RNP-2 accuracy"
        else
          if category = 4 then
            t! "4 - EPU < 1 852 m (1 NM) - RNP-1 accuracy"
          else
            if category = 5 then
              t! "5 - EPU < 926 m (0.5 NM) - RNP-0.5 accuracy"
            else
              if category = 6 then
                t! "6 - EPU < 555.6 m ( 0.3 NM) - RNP-0.3 accuracy"
              else
                if category = 7 then
                  t! "7 - EPU < 185.2 m (0.1 NM) - RNP-0.1 accuracy"
                else
                  if category = 8 then
                    t! "8 - EPU < 92.6 m (0.05 NM) - e.g. GPS (with SA)"
                  else
                    if category = 9 then
                      t! "9 - EPU < 30 m and VEPU < 45 m - e.g. GPS (SA off)"
                    else
                      if category = 10 then
                        t! "10 - EPU < 10 m and VEPU < 15 m - e.g. WAAS"
                      else
                        if category = 11 then
                          t! "11 - EPU < 3 m and VEPU < 4 m - e.g. LAAS"
                        else
                          if category = 12 then
                            t! "12 - Reserved"
                          else
                            if category = 13 then
                              t! "13 - Reserved"
                            else
                              if category = 14 then
                                t! "14 - Reserved"
                              else
                                if category = 15 then
                                  t! "15 - Reserved"
                                else
                                  dec category.toNat ++ t! " - Unknown code"

/-- pkg/bds/bds62/fields/nic_baro.go:22-32 -/
def Shown.bds.bds62.fields.NICBaro.ToString (baro : UInt8) : List Char :=
  if baro = 0 then
    t! "0 - barometric altitude based on a Gilham input that has not been cross-checked"
  else
    if baro = 1 then
      t! "1 - barometric altitude based on a Gilham input that has been cross-checked or on a non Gilham input"
    else
      dec baro.toNat ++ t! " - Unknown code"

/-- pkg/bds/bds62/fields/surveillance_integrity_level.go:33-55 -/
def Shown.bds.bds62.fields.SurveillanceIntegrityLevel.ToString (level : UInt8) : List Char :=
  if level = 0 then
    (t! "Probability of exceeding the Horizontal Containment Radius reported in the NIC Subfield without an indication: ") ++
    (t! "Unknown") ++
    t! "\n" ++
    (t! "Probability of exceeding the Vertical Integrity Containment Region (VPL) without an indication:                ") ++
    (t! "Unknown")
  else
    if level = 1 then
      (t! "Probability of exceeding the Horizontal Containment Radius reported in the NIC Subfield without an indication: ") ++
    (t! "<= 1 * 10^-3 per flight hour or per sample") ++
    t! "\n" ++
    (t! "Probability of exceeding the Vertical Integrity Containment Region (VPL) without an indication:                ") ++
    (t! "<= 1 * 10^-3 per flight hour or per sample")
    else
      if level = 2 then
        (t! "Probability of exceeding the Horizontal Containment Radius reported in the NIC Subfield without an indication: ") ++
    (t! "<= 1 * 10^-5 per flight hour or per sample") ++
    t! "\n" ++
    (t! "Probability of exceeding the Vertical Integrity Containment Region (VPL) without an indication:                ") ++
    (t! "<= 1 * 10^-5 per flight hour or per sample")
      else
        if level = 3 then
          (t! "Probability of exceeding the Horizontal Containment Radius reported in the NIC Subfield without an indication: ") ++
    (t! "<= 1 * 10^-7 per flight hour or per sample") ++
    t! "\n" ++
    (t! "Probability of exceeding the Vertical Integrity Containment Region (VPL) without an indication:                ") ++
    (t! "<= 2 * 10^-7 per 150 seconds or per sample")
        else
          dec level.toNat ++ t! " - Unknown code"

/-- pkg/bds/bds62/fields/capability_mode_code.go:22-36 -/
def Shown.bds.bds62.fields.CapabilityModeCode.ToString (capability : UInt8) : List Char :=
  if capability = 0 then
    t! "0 - TCAS/ACAS operational or unknown + No TCAS/ACAS Resolution Advisory active"
  else
    if capability = 1 then
      t! "1 - TCAS/ACAS operational or unknown + TCAS/ACAS Resolution Advisory active"
    else
      if capability = 2 then
        t! "2 - TCAS/ACAS not operational + No TCAS/ACAS Resolution Advisory active"
      else
        if capability = 3 then
          t! "3 - TCAS/ACAS not operational + TCAS/ACAS Resolution Advisory active"
        else
          dec capability.toNat ++ t! " - Unknown code"

/-- pkg/bds/bds62/fields/emergency_priority_status.go:30-52 -/
def Shown.bds.bds62.fields.EmergencyPriorityStatus.ToString (capability : UInt8) : List Char :=
  if capability = 0 then
    t! "0 - no emergency"
  else
    if capability = 1 then
      t! "1 - general emergency"
    else
      if capability = 2 then
        t! "2 - lifeguard/medical emergency"
      else
        if capability = 3 then
          t! "3 - minimum fuel"
        else
          if capability = 4 then
            t! "4 - no communications"
          else
            if capability = 5 then
              t! "5 - unlawful interference"
            else
              if capability = 6 then
                t! "6 - downed aircraft"
              else
                if capability = 7 then
                  t! "7 - reserved"
                else
                  dec capability.toNat ++ t! " - Unknown code"

/-- pkg/bds/bds62/target_state_and_status_type_0.go:50-88 -/
def Shown.bds.bds62.TargetStateAndStatus0.ToString (message : TargetStateAndStatus0) : List Char :=
  t! "Message:                                      " ++
    (Shown.bds.register.Register.ToString (Shown.bds.bds62.TargetStateAndStatus0.GetRegister message)) ++
    t! "\n" ++
    t! "Subtype:                                      " ++
    (Shown.bds.bds62.fields.Subtype.ToString (Gen.bds.bds62.TargetStateAndStatus0.GetSubtype message)) ++
    t! "\n" ++
    t! "Vertical Data Available / Source Indicator:   " ++
    (Shown.bds.bds62.fields.VerticalDataAvailableSourceIndicator.ToString message.verticalDataAvailableSourceIndicator) ++
    t! "\n" ++
    t! "Target Altitude Type:                         " ++
    (Shown.bds.bds62.fields.TargetAltitudeType.ToString message.targetAltitudeType) ++
    t! "\n" ++
    t! "Target Altitude Capability:                   " ++
    (Shown.bds.bds62.fields.TargetAltitudeCapability.ToString message.targetAltitudeCapability) ++
    t! "\n" ++
    t! "Vertical Mode Indicator:                      " ++
    (Shown.bds.bds62.fields.VerticalModeIndicator.ToString message.verticalModeIndicator) ++
    t! "\n" ++
    t! "Target Altitude Status:                       " ++
    (Shown.bds.bds62.fields.NumericValueStatus.ToString message.targetAltitudeStatus) ++
    t! "\n" ++
    t! "Target Altitude:                              " ++
    decInt message.targetAltitude ++
    t! "\n" ++
    t! "Horizontal Data Available / Source Indicator: " ++
    (Shown.bds.bds62.fields.HorizontalDataAvailableSourceIndicator.ToString message.horizontalDataAvailableSourceIndicator) ++
    t! "\n" ++
    t! "Target Heading / Track Angle Status:          " ++
    (Shown.bds.bds62.fields.NumericValueStatus.ToString message.targetHeadingTrackAngleStatus) ++
    t! "\n" ++
    t! "Target Heading / Track Angle:                 " ++
    dec message.targetHeadingTrackAngle.toNat ++
    t! "\n" ++
    t! "Target Heading / Track Indicator:             " ++
    (Shown.bds.bds62.fields.TargetHeadingTrackIndicator.ToString message.targetHeadingTrackIndicator) ++
    t! "\n" ++
    t! "Horizontal Mode Indicator:                    " ++
    (Shown.bds.bds62.fields.HorizontalModeIndicator.ToString message.horizontalModeIndicator) ++
    t! "\n" ++
    t! "Navigation Accuracy Category - Position:      " ++
    (Shown.bds.bds62.fields.NavigationalAccuracyCategoryPositionV1.ToString message.navigationalAccuracyCategoryPosition) ++
    t! "\n" ++
    t! "Navigation Integrity Category - Baro:         " ++
    (Shown.bds.bds62.fields.NICBaro.ToString message.nicBaro) ++
    t! "\n" ++
    t! "Surveillance Integrity ReaderLevel:           " ++
    (Shown.bds.bds62.fields.SurveillanceIntegrityLevel.ToString message.surveillanceIntegrityLevel) ++
    t! "\n" ++
    t! "Capability / Mode Codes:                      " ++
    (Shown.bds.bds62.fields.CapabilityModeCode.ToString message.capabilityModeCode) ++
    t! "\n" ++
    t! "Emergency / Priority Status:                  " ++
    (Shown.bds.bds62.fields.EmergencyPriorityStatus.ToString message.emergencyPriorityStatus)

/-- pkg/bds/bds62/target_state_and_status_type_1.go:41-43 -/
def Shown.bds.bds62.TargetStateAndStatus1.GetRegister (message : TargetStateAndStatus1) : Register :=
  (⟨t! "BDS 6,2", t! "Target state and status information"⟩ : Register)

/-- pkg/bds/bds62/fields/selected_altitude_type.go:18-28 -/
def Shown.bds.bds62.fields.SelectedAltitudeType.ToString (status : UInt8) : List Char :=
  if status = 0 then
    t! "0 - MCP/FCU (Mode Control Panel / Flight Control Unit)"
  else
    if status = 1 then
      t! "1 - FMS (Flight Management System)"
    else
      dec status.toNat ++ t! " - Unknown code"

/-- pkg/bds/bds62/fields/selected_heading.go:21-31 -/
def Shown.bds.bds62.fields.SelectedHeadingStatus.ToString (status : UInt8) : List Char :=
  if status = 0 then
    t! "0 - selected heading data is either not available or is invalid"
  else
    if status = 1 then
      t! "1 - selected heading data is valid"
    else
      dec status.toNat ++ t! " - Unknown code"

/-- pkg/bds/bds62/fields/navigational_accuracy_category_position_v2.go:46-85 -/
def Shown.bds.bds62.fields.NavigationalAccuracyCategoryPositionV2.ToString (category : UInt8) : List Char :=
  if category = 0 then
    t! "0 - EPU >= 18.52 km (10 NM) - Unknown accuracy"
  else
    if category = 1 then
      t! "1 - EPU < 18.52 km (10 NM) - RNP-10 accuracy"
    else
      if category = 2 then
        t! "2 - EPU < 7.408 km (4 NM) - RNP-4 accuracy"
      else
        if category = 3 then
          t! "3 - EPU < 3.704 km (2 NM) - RNP-2 accuracy"
        else
          if category = 4 then
            t! "4 - EPU < 1 852 m (1 NM) - RNP-1 accuracy"
          else
            if category = 5 then
              t! "5 - EPU < 926 m (0.5 NM) - RNP-0.5 accuracy"
            else
              if category = 6 then
                t! "6 - EPU < 555.6 m ( 0.3 NM) - RNP-0.3 accuracy"
              else
                if category = 7 then
                  t! "7 - EPU < 185.2 m (0.1 NM) - RNP-0.1 accuracy"
                else
                  if category = 8 then
                    t! "8 - EPU < 92.6 m (0.05 NM) - e.g. GPS (with SA)"
                  else
                    if category = 9 then
                      t! "9 - EPU < 30 m - e.g. GPS (SA off)"
                    else
                      if category = 10 then
                        t! "10 - EPU < 10 m - e.g. WAAS"
                      else
                        if category = 11 then
                          t! "11 - EPU < 3 m - e.g. LAAS"
                        else
                          if category = 12 then
                            t! "12 - Reserved"
                          else
                            if category = 13 then
                              t! "13 - Reserved"
                            else
                              if category = 14 then
                                t! "14 - Reserved"
                              else
                                if category = 15 then
                                  t! "15 - Reserved"
                                else
                                  dec category.toNat ++ t! " - Unknown code"

/-- pkg/bds/bds62/fields/source_integrity_level.go:22-36 -/
def Shown.bds.bds62.fields.SourceIntegrityLevel.ToString (level : UInt8) : List Char :=
  if level = 0 then
    t! "0 - Unknown or SIL > 1 * 10^-3 per flight hour or per sample"
  else
    if level = 1 then
      t! "1 - SIL <= 1 * 10^-3 per flight hour or per sample"
    else
      if level = 2 then
        t! "1 - SIL <= 1 * 10^-5 per flight hour or per sample"
      else
        if level = 3 then
          t! "1 - SIL <= 1 * 10^-7 per flight hour or per sample"
        else
          dec level.toNat ++ t! " - Unknown code"

/-- pkg/bds/bds62/fields/source_integrity_level_supplement.go:18-28 -/
def Shown.bds.bds62.fields.SourceIntegrityLevelSupplement.ToString (status : UInt8) : List Char :=
  if status = 0 then
    t! "0 - Probability of exceeding NIC radius of containment is based on \"per hour\""
  else
    if status = 1 then
      t! "1 - Probability of exceeding NIC radius of containment is based on \"per sample\""
    else
      dec status.toNat ++ t! " - Unknown code"

/-- pkg/bds/bds62/fields/status_mcp_fcu_bits.go:20-30 -/
def Shown.bds.bds62.fields.StatusMCPFCUBits.ToString (status : UInt8) : List Char :=
  if status = 0 then
    t! "0 - no information provided for MCP/FCU mode bits"
  else
    if status = 1 then
      t! "1 - information provided for MCP/FCU mode bits"
    else
      dec status.toNat ++ t! " - Unknown code"

/-- pkg/bds/bds62/target_state_and_status_type_1.go:51-93 -/
def Shown.bds.bds62.TargetStateAndStatus1.ToString (F : FloatTexts) (message : TargetStateAndStatus1) : List Char :=
  t! "Message:                                       " ++
    (Shown.bds.register.Register.ToString (Shown.bds.bds62.TargetStateAndStatus1.GetRegister message)) ++
    t! "\n" ++
    t! "Subtype:                                       " ++
    (Shown.bds.bds62.fields.Subtype.ToString (Gen.bds.bds62.TargetStateAndStatus1.GetSubtype message)) ++
    t! "\n" ++
    t! "Selected Altitude Type:                        " ++
    (Shown.bds.bds62.fields.SelectedAltitudeType.ToString message.selectedAltitudeType) ++
    t! "\n" ++
    t! "Selected Altitude Status:                      " ++
    (Shown.bds.bds62.fields.NumericValueStatus.ToString message.selectedAltitudeStatus) ++
    t! "\n" ++
    t! "Selected Altitude:                             " ++
    dec message.selectedAltitude.toNat ++
    t! "\n" ++
    t! "Barometric Pressure Setting Status:            " ++
    (Shown.bds.bds62.fields.NumericValueStatus.ToString message.barometricPressureSettingStatus) ++
    t! "\n" ++
    t! "Barometric Pressure Setting:                   " ++
    F.float32 message.barometricPressureSetting ++
    t! "\n" ++
    t! "Selected Heading Status:                       " ++
    (Shown.bds.bds62.fields.SelectedHeadingStatus.ToString message.selectedHeadingStatus) ++
    t! "\n" ++
    t! "Selected Heading :                             " ++
    F.signed message.selectedHeadingMinus message.selectedHeading ++
    t! "\n" ++
    t! "Navigation Accuracy Category - Position:       " ++
    (Shown.bds.bds62.fields.NavigationalAccuracyCategoryPositionV2.ToString message.navigationalAccuracyCategoryPosition) ++
    t! "\n" ++
    t! "Navigation Integrity Category - Baro:          " ++
    (Shown.bds.bds62.fields.NICBaro.ToString message.nicBaro) ++
    t! "\n" ++
    t! "Source Integrity ReaderLevel:                  " ++
    (Shown.bds.bds62.fields.SourceIntegrityLevel.ToString message.sourceIntegrityLevel) ++
    t! "\n" ++
    t! "Source Integrity ReaderLevel Supplement:       " ++
    (Shown.bds.bds62.fields.SourceIntegrityLevelSupplement.ToString message.sourceIntegrityLevelSupplement) ++
    t! "\n" ++
    t! "Status of MCP/FPU Mode Bits:                   " ++
    (Shown.bds.bds62.fields.StatusMCPFCUBits.ToString message.statusMCPFCUBits) ++
    t! "\n" ++
    t! "Autopilot Engaged:                             " ++
    boolText message.autopilotEngaged ++
    t! "\n" ++
    t! "VNAV Mode Engaged:                             " ++
    boolText message.vnavModeEngaged ++
    t! "\n" ++
    t! "Altitude Hold Mode Engaged:                    " ++
    boolText message.altitudeHoldModeEngaged ++
    t! "\n" ++
    t! "Approach Mode Engaged:                         " ++
    boolText message.approachModeEngaged ++
    t! "\n" ++
    t! "LNAV Mode Engaged:                             " ++
    boolText message.lnavModeEngaged ++
    t! "\n" ++
    t! "TCAS / ACAS Operational :                      " ++
    boolText message.tcasACASOperational

/-- The method ToString called through the interface pkg/bds/bds62.TargetStateAndStatus; its implementations are in pkg/bds/bds62/target_state_and_status_type_0.go, pkg/bds/bds62/target_state_and_status_type_1.go. -/
def Shown.bds.bds62.TargetStateAndStatus.ToString (F : FloatTexts) : TargetStateAndStatus → List Char
  | .type0 x => Shown.bds.bds62.TargetStateAndStatus0.ToString x
  | .type1 x => Shown.bds.bds62.TargetStateAndStatus1.ToString F x

/-- pkg/adsb/target_state_and_status/target_state_status.go:24-28 -/
def Shown.adsb.target_state_and_status.TargetStateAndStatus.ToString (F : FloatTexts) (targetStateAndStatus : TargetStateAndStatus) (adsbVersion : UInt8) : List Char :=
  (Shown.bds.bds62.TargetStateAndStatus.ToString F targetStateAndStatus)

/-- pkg/bds/bds00/no_message_available.go:18-20 -/
def Shown.bds.bds00.NoMessageAvailable.GetRegister (message : NoMessageAvailable) : Register :=
  (⟨t! "BDS 0,0", t! "No message waiting for transmission"⟩ : Register)

/-- pkg/bds/bds00/no_message_available.go:23-27 -/
def Shown.bds.bds00.NoMessageAvailable.ToString (message : NoMessageAvailable) : List Char :=
  t! "Message:                   " ++
    (Shown.bds.register.Register.ToString (Shown.bds.bds00.NoMessageAvailable.GetRegister message))

/-- pkg/bds/bds06/fields/encoded_latitude.go:14-16 -/
def Shown.bds.bds06.fields.EncodedLatitude.ToString (encodedLatitude : UInt32) : List Char :=
  dec encodedLatitude.toNat

/-- pkg/bds/bds06/fields/encoded_longitude.go:14-16 -/
def Shown.bds.bds06.fields.EncodedLongitude.ToString (encodedLongitude : UInt32) : List Char :=
  dec encodedLongitude.toNat

/-- pkg/bds/bds07/fields/altitude_type_subfield.go:18-28 -/
def Shown.bds.bds07.fields.AltitudeTypeSubfield.ToString (ats : UInt8) : List Char :=
  if ats = 0 then
    t! "0 - Barometric altitude"
  else
    if ats = 1 then
      t! "1 - GNSS height (HAE)"
    else
      dec ats.toNat ++ t! " - Unknown code"

/-- pkg/bds/bds07/fields/transmission_rate_subfield.go:20-32 -/
def Shown.bds.bds07.fields.TransmissionRateSubfield.ToString (trs : UInt8) : List Char :=
  if trs = 0 then
    t! "0 - Barometric altitude"
  else
    if trs = 1 then
      t! "1 - High surface squitter rate selected"
    else
      if trs = 2 then
        t! "2 - Low surface squitter rate selected"
      else
        dec trs.toNat ++ t! " - Unknown code"

/-- pkg/bds/bds07/status.go:20-22 -/
def Shown.bds.bds07.Status.GetRegister (message : Status07) : Register :=
  (⟨t! "BDS 0,7", t! " Extended squitter status"⟩ : Register)

/-- pkg/bds/bds07/status.go:34-42 -/
def Shown.bds.bds07.Status.ToString (message : Status07) : List Char :=
  t! "Message:                                 " ++
    (Shown.bds.register.Register.ToString (Shown.bds.bds07.Status.GetRegister message)) ++
    t! "\n" ++
    t! "Transmission Rate Subfield:              " ++
    (Shown.bds.bds07.fields.TransmissionRateSubfield.ToString message.transmissionRateSubfield) ++
    t! "\n" ++
    t! "Altitude Type Subfield                   " ++
    (Shown.bds.bds07.fields.AltitudeTypeSubfield.ToString message.altitudeTypeSubfield) ++
    t! "\n"

/-- pkg/bds/bds08/fields/aircraft_category_set_a.go:30-32 -/
def Shown.bds.bds08.fields.AircraftCategorySetA.GetCategorySetName (category : UInt8) : List Char :=
  t! "Set A"

/-- pkg/bds/bds08/fields/aircraft_category_set_b.go:30-32 -/
def Shown.bds.bds08.fields.AircraftCategorySetB.GetCategorySetName (category : UInt8) : List Char :=
  t! "Set B"

/-- pkg/bds/bds08/fields/aircraft_category_set_c.go:33-35 -/
def Shown.bds.bds08.fields.AircraftCategorySetC.GetCategorySetName (category : UInt8) : List Char :=
  t! "Set C"

/-- pkg/bds/bds08/fields/aircraft_category_set_d.go:33-35 -/
def Shown.bds.bds08.fields.AircraftCategorySetD.GetCategorySetName (category : UInt8) : List Char :=
  t! "Set D (Reserved)"

/-- pkg/bds/bds10/data_link_capability_report.go:34-36 -/
def Shown.bds.bds10.DataLinkCapabilityReport.GetRegister (message : DataLinkCapabilityReport) : Register :=
  (⟨t! "BDS 1,0", t! "Data link capability report"⟩ : Register)

/-- pkg/bds/bds10/fields/overlay_command_capability.go:18-28 -/
def Shown.bds.bds10.fields.OverlayCommandCapability.ToString (occ : UInt8) : List Char :=
  if occ = 0 then
    t! "0 - No Overlay Command Capability"
  else
    if occ = 1 then
      t! "1 - Overlay Command Capability"
    else
      dec occ.toNat ++ t! " - Unknown code"

/-- pkg/bds/bds10/fields/acas_status.go:18-28 -/
def Shown.bds.bds10.fields.ACASStatus.ToString (ac : UInt8) : List Char :=
  if ac = 0 then
    t! "0 - ACAS Failed or On Standby"
  else
    if ac = 1 then
      t! "1 - ACAS Operational"
    else
      dec ac.toNat ++ t! " - Unknown code"

/-- pkg/bds/bds10/fields/modes_subnetwork_version.go:26-44 -/
def Shown.bds.bds10.fields.ModeSSubnetworkVersion.ToString (mssv : UInt8) : List Char :=
  if mssv = 0 then
    t! "0 - Mode S subnetwork not available"
  else
    if mssv = 1 then
      t! "1 - Mode S subnetwork Version 1 - ICAO Doc 9688 (1996)"
    else
      if mssv = 2 then
        t! "1 - Mode S subnetwork Version 2 - ICAO Doc 9688 (1997)"
      else
        if mssv = 3 then
          t! "1 - Mode S subnetwork Version 3 - ICAO Annex 10, Vol III, Amdt 77"
        else
          if mssv = 4 then
            t! "1 - Mode S subnetwork Version 4 - ICAO Doc 9871, Edition 1"
          else
            if mssv = 5 then
              t! "1 - Mode S subnetwork Version 5 - ICAO Doc 9871, Edition 2"
            else
              dec mssv.toNat ++ t! " - Unknown code"

/-- pkg/bds/bds10/fields/transponder_enhanced_protocol_indicator.go:18-28 -/
def Shown.bds.bds10.fields.TransponderEnhancedProtocolIndicator.ToString (tepi : UInt8) : List Char :=
  if tepi = 0 then
    t! "0 - Transponder Level 2 to 4"
  else
    if tepi = 1 then
      t! "1 - Transponder Level 5"
    else
      dec tepi.toNat ++ t! " - Unknown code"

/-- pkg/bds/bds10/fields/modes_specific_services_capability.go:18-28 -/
def Shown.bds.bds10.fields.ModeSSpecificServicesCapability.ToString (mssc : UInt8) : List Char :=
  if mssc = 0 then
    t! "0 - no Mode S specific service is present"
  else
    if mssc = 1 then
      t! "1 - at least one Mode S specific service is present"
    else
      dec mssc.toNat ++ t! " - Unknown code"

/-- pkg/bds/bds10/fields/uplink_elm_throughput.go:28-48 -/
def Shown.bds.bds10.fields.UplinkELMThroughputCapability.ToString (uetc : UInt8) : List Char :=
  if uetc = 0 then
    t! "0 - No UELM Capability"
  else
    if uetc = 1 then
      t! "1 - 16 UELM segments in 1 second"
    else
      if uetc = 2 then
        t! "2 - 16 UELM segments in 500 milliseconds"
      else
        if uetc = 3 then
          t! "3 - 16 UELM segments in 250 milliseconds"
        else
          if uetc = 4 then
            t! "4 - 16 UELM segments in 125 milliseconds"
          else
            if uetc = 5 then
              t! "5 - 16 UELM segments in 60 milliseconds"
            else
              if uetc = 6 then
                t! "6 - 16 UELM segments in 30 milliseconds"
              else
                dec uetc.toNat ++ t! " - Unknown code"

/-- pkg/bds/bds10/fields/downlink_elm_throughput.go:28-48 -/
def Shown.bds.bds10.fields.DownlinkELMThroughputCapability.ToString (uetc : UInt8) : List Char :=
  if uetc = 0 then
    t! "0 - No DEML Capability"
  else
    if uetc = 1 then
      t! "1 - One 4 segments DELM every second"
    else
      if uetc = 2 then
        t! "2 - One 8 segments DELM every second"
      else
        if uetc = 3 then
          t! "3 - One 16 segments DELM every second"
        else
          if uetc = 4 then
            t! "4 - One 16 segments DELM every 500 ms"
          else
            if uetc = 5 then
              t! "5 - One 16 segments DELM every 250 ms"
            else
              if uetc = 6 then
                t! "6 - One 16 segments DELM every 125 ms"
              else
                dec uetc.toNat ++ t! " - Unknown code"

/-- pkg/bds/bds10/fields/aircraft_identification_capability.go:18-28 -/
def Shown.bds.bds10.fields.AircraftIdentificationCapability.ToString (aic : UInt8) : List Char :=
  if aic = 0 then
    t! "0 - Aircraft Identification is coming through ADLP"
  else
    if aic = 1 then
      t! "1 - Aircraft Identification is coming through a separate interface"
    else
      dec aic.toNat ++ t! " - Unknown code"

/-- pkg/bds/bds10/fields/squitter_capability_subfield.go:19-29 -/
def Shown.bds.bds10.fields.SquitterCapabilitySubfield.ToString (scs : UInt8) : List Char :=
  if scs = 0 then
    t! "0 - Both registers 05 and 06 have not been updated recently"
  else
    if scs = 1 then
      t! "1 - Both registers 05 and 06 have been updated within the last ten, plus or minus one, seconds"
    else
      dec scs.toNat ++ t! " - Unknown code"

/-- pkg/bds/bds10/fields/surveillance_identifier_code.go:18-28 -/
def Shown.bds.bds10.fields.SurveillanceIdentifierCode.ToString (sic : UInt8) : List Char :=
  if sic = 0 then
    t! "0 - No surveillance identifier code capability"
  else
    if sic = 1 then
      t! "1 - Surveillance identifier code capability"
    else
      dec sic.toNat ++ t! " - Unknown code"

/-- pkg/bds/bds10/fields/common_gicb_capability.go:18-28 -/
def Shown.bds.bds10.fields.CommonUsageGICBCapability.ToString (cugc : UInt8) : List Char :=
  if cugc = 0 then
    t! "0 - The common usage GICB capability report (register 17) is unchange"
  else
    if cugc = 1 then
      t! "1 - The common usage GICB capability report (register 17) changed"
    else
      dec cugc.toNat ++ t! " - Unknown code"

/-- pkg/bds/bds10/fields/acas_hybrid_surveillance_capability.go:18-28 -/
def Shown.bds.bds10.fields.ACASHybridSurveillanceCapability.ToString (ahsc : UInt8) : List Char :=
  if ahsc = 0 then
    t! "0 - No capability of hybrid surveillance"
  else
    if ahsc = 1 then
      t! "1 - Capability of hybrid surveillance"
    else
      dec ahsc.toNat ++ t! " - Unknown code"

/-- pkg/bds/bds10/fields/acas_generation_capability.go:18-28 -/
def Shown.bds.bds10.fields.ACASGenerationCapability.ToString (agc : UInt8) : List Char :=
  if agc = 0 then
    t! "0 - The ACAS is generating TAs only"
  else
    if agc = 1 then
      t! "1 - The ACAS is generating both TAs and RAs"
    else
      dec agc.toNat ++ t! " - Unknown code"

/-- pkg/bds/bds10/fields/acas_applicable_document.go:22-34 -/
def Shown.bds.bds10.fields.ACASApplicableDocument.ToString (aad : UInt8) : List Char :=
  if aad = 0 then
    t! "RTCA DO-185"
  else
    if aad = 2 then
      t! "RTCA DO-185A"
    else
      if aad = 1 then
        t! "RTCA DO-185B"
      else
        dec aad.toNat ++ t! " - Unknown code"

/-- pkg/bds/bds10/data_link_capability_report.go:73-107 -/
def Shown.bds.bds10.DataLinkCapabilityReport.ToString (message : DataLinkCapabilityReport) : List Char :=
  t! "Message:                                 " ++
    (Shown.bds.register.Register.ToString (Shown.bds.bds10.DataLinkCapabilityReport.GetRegister message)) ++
    t! "\n" ++
    t! "Continuation Flag:                       " ++
    (Shown.bds.bds10.fields.OverlayCommandCapability.ToString message.overlayCommandCapability) ++
    t! "\n" ++
    t! "ACAS Status                              " ++
    (Shown.bds.bds10.fields.ACASStatus.ToString message.acasStatus) ++
    t! "\n" ++
    t! "ModeS Subnetwork Version                 " ++
    (Shown.bds.bds10.fields.ModeSSubnetworkVersion.ToString message.modeSSubnetworkVersion) ++
    t! "\n" ++
    t! "Transponder Enhanced Protocol Indicator  " ++
    (Shown.bds.bds10.fields.TransponderEnhancedProtocolIndicator.ToString message.transponderEnhancedProtocolIndicator) ++
    t! "\n" ++
    t! "ModeS Specific Services Capability       " ++
    (Shown.bds.bds10.fields.ModeSSpecificServicesCapability.ToString message.modeSSpecificServicesCapability) ++
    t! "\n" ++
    t! "Uplink ELM Throughput Capability         " ++
    (Shown.bds.bds10.fields.UplinkELMThroughputCapability.ToString message.uplinkELMThroughputCapability) ++
    t! "\n" ++
    t! "Downlink ELM Throughput Capability       " ++
    (Shown.bds.bds10.fields.DownlinkELMThroughputCapability.ToString message.downlinkELMThroughputCapability) ++
    t! "\n" ++
    t! "Aircraft Identification Capability       " ++
    (Shown.bds.bds10.fields.AircraftIdentificationCapability.ToString message.aircraftIdentificationCapability) ++
    t! "\n" ++
    t! "Squitter Capability Subfield             " ++
    (Shown.bds.bds10.fields.SquitterCapabilitySubfield.ToString message.squitterCapabilitySubfield) ++
    t! "\n" ++
    t! "Surveillance Identifier Code             " ++
    (Shown.bds.bds10.fields.SurveillanceIdentifierCode.ToString message.surveillanceIdentifierCode) ++
    t! "\n" ++
    t! "Common Usage GICB Capability             " ++
    (Shown.bds.bds10.fields.CommonUsageGICBCapability.ToString message.commonUsageGICBCapability) ++
    t! "\n" ++
    t! "ACAS Hybrid Surveillance Capability      " ++
    (Shown.bds.bds10.fields.ACASHybridSurveillanceCapability.ToString message.acasHybridSurveillanceCapability) ++
    t! "\n" ++
    t! "ACAS Generation Capability               " ++
    (Shown.bds.bds10.fields.ACASGenerationCapability.ToString message.acasGenerationCapability) ++
    t! "\n" ++
    t! "ACAS Applicable Document                 " ++
    (Shown.bds.bds10.fields.ACASApplicableDocument.ToString message.acasApplicableDocument) ++
    t! "\n" ++
    t! "DTE SubAddress Statuses                  " ++
    (dteText message.dteSubAddressStatuses) ++
    t! "\n"

/-- pkg/bds/bds10/fields/continuation_flag.go:18-28 -/
def Shown.bds.bds10.fields.ContinuationFlag.ToString (cf : UInt8) : List Char :=
  if cf = 0 then
    t! "0 - last register"
  else
    if cf = 1 then
      t! "1 - subsequent register shall be extracted"
    else
      dec cf.toNat ++ t! " - Unknown code"

/-- pkg/bds/bds17/common_usage_gicb_capability_report.go:38-40 -/
def Shown.bds.bds17.CommonUsageGICBCapabilityReport.GetRegister (message : GICBCapabilityReport) : Register :=
  (⟨t! "BDS 1,7", t! "Common usage GICB capability report"⟩ : Register)

/-- pkg/bds/bds17/common_usage_gicb_capability_report.go:43-97 -/
def Shown.bds.bds17.CommonUsageGICBCapabilityReport.ToString (message : GICBCapabilityReport) : List Char :=
  t! "Message:                                             " ++
    (Shown.bds.register.Register.ToString (Shown.bds.bds17.CommonUsageGICBCapabilityReport.GetRegister message)) ++
    t! "\n" ++
    t! "0,5 Extended squitter airborne position:             " ++
    boolText message.extendedSquitterAirbornePosition ++
    t! "\n" ++
    t! "0,6 Extended squitter surface position:              " ++
    boolText message.extendedSquitterSurfacePosition ++
    t! "\n" ++
    t! "0,7 Extended squitter status:                        " ++
    boolText message.extendedSquitterStatus ++
    t! "\n" ++
    t! "0,8 Extended squitter identification and category:   " ++
    boolText message.extendedSquitterIdentificationAndCategory ++
    t! "\n" ++
    t! "0,9 Extended squitter airborne velocity information: " ++
    boolText message.extendedSquitterAirborneVelocityInformation ++
    t! "\n" ++
    t! "0,A Extended squitter event-driven information:      " ++
    boolText message.extendedSquitterEventDrivenInformation ++
    t! "\n" ++
    t! "2,0 Aircraft identification:                         " ++
    boolText message.aircraftIdentification ++
    t! "\n" ++
    t! "2,l Aircraft registration number:                    " ++
    boolText message.aircraftRegistrationNumber ++
    t! "\n" ++
    t! "4,0 Selected vertical intention:                     " ++
    boolText message.selectedVerticalIntention ++
    t! "\n" ++
    t! "4,l Next waypoint identifier:                        " ++
    boolText message.nextWaypointIdentifier ++
    t! "\n" ++
    t! "4,2 Next waypoint position:                          " ++
    boolText message.nextWaypointPosition ++
    t! "\n" ++
    t! "4,3 Next waypoint information:                       " ++
    boolText message.nextWaypointInformation ++
    t! "\n" ++
    t! "4,4 Meteorological routine report:                   " ++
    boolText message.meteorologicalRoutineReport ++
    t! "\n" ++
    t! "4,5 Meteorological hazard report:                    " ++
    boolText message.meteorologicalHazardReport ++
    t! "\n" ++
    t! "4.8 VHF channel report:                              " ++
    boolText message.vhfChannelReport ++
    t! "\n" ++
    t! "5,0 Track and turn report:                           " ++
    boolText message.trackAndTurnReport ++
    t! "\n" ++
    t! "5,1 Position coarse:                                 " ++
    boolText message.positionCoarse ++
    t! "\n" ++
    t! "5,2 Position fine:                                   " ++
    boolText message.positionFine ++
    t! "\n" ++
    t! "5,3 Air-referenced state vector:                     " ++
    boolText message.airReferencedStateVector ++
    t! "\n" ++
    t! "5,4 Waypoint 1:                                      " ++
    boolText message.waypoint1 ++
    t! "\n" ++
    t! "5,5 Waypoint 2:                                      " ++
    boolText message.waypoint2 ++
    t! "\n" ++
    t! "5,6 Waypoint 3:                                      " ++
    boolText message.waypoint3 ++
    t! "\n" ++
    t! "5,F Quasi-static parameter monitoring:               " ++
    boolText message.quasiStaticParameterMonitoring ++
    t! "\n" ++
    t! "6,0 Heading and speed report:                        " ++
    boolText message.headingAndSpeedReport ++
    t! "\n" ++
    t! "F,1 Military applications:                           " ++
    boolText message.militaryApplications ++
    t! "\n"

/-- pkg/bds/bds20/aircraft_identification.go:20-22 -/
def Shown.bds.bds20.AircraftIdentification.GetRegister (message : AircraftIdentification) : Register :=
  (⟨t! "BDS 2,0", t! "Aircraft identification"⟩ : Register)

/-- pkg/bds/bds20/aircraft_identification.go:25-31 -/
def Shown.bds.bds20.AircraftIdentification.ToString (message : AircraftIdentification) : List Char :=
  t! "Message:                                 " ++
    (Shown.bds.register.Register.ToString (Shown.bds.bds20.AircraftIdentification.GetRegister message)) ++
    t! "\n" ++
    t! "Identification:                          " ++
    asciiText message.identification ++
    t! "\n"

/-- pkg/bds/bds30/acas_resolution_advisory.go:18-20 -/
def Shown.bds.bds30.ACASResolutionAdvisory.GetRegister (message : ACASResolutionAdvisory) : Register :=
  (⟨t! "BDS 3,0", t! "ACAS active resolution advisory"⟩ : Register)

/-- pkg/bds/bds30/acas_resolution_advisory.go:23-29 -/
def Shown.bds.bds30.ACASResolutionAdvisory.ToString (F : FloatTexts) (message : ACASResolutionAdvisory) : List Char :=
  t! "Message:                   " ++
    (Shown.bds.register.Register.ToString (Shown.bds.bds30.ACASResolutionAdvisory.GetRegister message)) ++
    t! "\n" ++
    t! "ACAS Data:                 " ++
    t! "\n" ++
    (Shown.acas.ra.ResolutionAdvisory.ToString F message.resolutionAdvisory)

/-- pkg/bds/bds40/fields/status_of_mode_bits.go:18-28 -/
def Shown.bds.bds40.fields.StatusOfModeBits.ToString (smb : UInt8) : List Char :=
  if smb = 0 then
    t! "0 - No mode information provided"
  else
    if smb = 1 then
      t! "1 - Mode information deliberately provided"
    else
      dec smb.toNat ++ t! " - Unknown code"

/-- pkg/bds/bds40/fields/status_of_target_altitude_source.go:18-28 -/
def Shown.bds.bds40.fields.StatusOfTargetAltitudeSource.ToString (smb : UInt8) : List Char :=
  if smb = 0 then
    t! "0 - No source information provided"
  else
    if smb = 1 then
      t! "1 - Source information deliberately provided"
    else
      dec smb.toNat ++ t! " - Unknown code"

/-- pkg/bds/bds40/fields/target_altitude_source.go:22-36 -/
def Shown.bds.bds40.fields.TargetAltitudeSource.ToString (smb : UInt8) : List Char :=
  if smb = 0 then
    t! "0 - Unknown"
  else
    if smb = 1 then
      t! "1 - Aircraft altitude"
    else
      if smb = 2 then
        t! "2 - FCU/MCP selected altitude"
      else
        if smb = 3 then
          t! "3 - FMS selected altitude"
        else
          dec smb.toNat ++ t! " - Unknown code"

/-- pkg/bds/bds40/selected_vertical_intention.go:30-32 -/
def Shown.bds.bds40.SelectedVerticalIntention.GetRegister (message : SelectedVerticalIntention) : Register :=
  (⟨t! "BDS 4,0", t! "Selected vertical intention"⟩ : Register)

/-- pkg/bds/bds40/selected_vertical_intention.go:35-63 -/
def Shown.bds.bds40.SelectedVerticalIntention.ToString (F : FloatTexts) (message : SelectedVerticalIntention) : List Char :=
  t! "Message:                               " ++
    (Shown.bds.register.Register.ToString (Shown.bds.bds40.SelectedVerticalIntention.GetRegister message)) ++
    t! "\n" ++
    t! "MCP/FCU Selected Altitude Available:   " ++
    boolText message.mcpfcuSelectedAltitudeAvailable ++
    t! "\n" ++
    t! "MCP/FCU Selected Altitude:             " ++
    dec message.mcpfcuSelectedAltitude.toNat ++
    t! "\n" ++
    t! "FMS Selected Altitude Available:       " ++
    boolText message.fmsSelectedAltitudeAvailable ++
    t! "\n" ++
    t! "FMS Selected Altitude:                 " ++
    dec message.fmsSelectedAltitude.toNat ++
    t! "\n" ++
    t! "Barometric Pressure Setting Available: " ++
    boolText message.barometricPressureSettingAvailable ++
    t! "\n" ++
    t! "Barometric Pressure Setting:           " ++
    F.float32 message.barometricPressureSetting ++
    t! "\n" ++
    t! "Status Of Mode Bits:                   " ++
    (Shown.bds.bds40.fields.StatusOfModeBits.ToString message.statusOfModeBits) ++
    t! "\n" ++
    t! "VNAV Mode:                             " ++
    boolText message.vnavMode ++
    t! "\n" ++
    t! "Altitude Hold Mode:                    " ++
    boolText message.altitudeHoldMode ++
    t! "\n" ++
    t! "Approach Mode:                         " ++
    boolText message.approachMode ++
    t! "\n" ++
    t! "Status Of Target Altitude Source:      " ++
    (Shown.bds.bds40.fields.StatusOfTargetAltitudeSource.ToString message.statusOfTargetAltitudeSource) ++
    t! "\n" ++
    t! "Target Altitude Source:                " ++
    (Shown.bds.bds40.fields.TargetAltitudeSource.ToString message.targetAltitudeSource)

/-- pkg/bds/bds44/fields/source.go:24-40 -/
def Shown.bds.bds44.fields.Source.ToString (source : UInt8) : List Char :=
  if source = 0 then
    t! "0 - Invalid"
  else
    if source = 1 then
      t! "1 - INS"
    else
      if source = 2 then
        t! "2 - GNSS"
      else
        if source = 3 then
          t! "3 - DME/DME"
        else
          if source = 4 then
            t! "4 - VOR/DMS"
          else
            dec source.toNat ++ t! " - Unknown code"

/-- pkg/bds/bds44/fields/turbulence.go:25-39 -/
def Shown.bds.bds44.fields.TurbulenceLevel.ToString (tl : UInt8) : List Char :=
  if tl = 0 then
    t! "0 - Nil"
  else
    if tl = 1 then
      t! "1 - Light"
    else
      if tl = 2 then
        t! "2 - Moderate"
      else
        if tl = 3 then
          t! "3 - Severe"
        else
          dec tl.toNat ++ t! " - Unknown code"

/-- pkg/bds/bds44/fields/turbulence_flag.go:18-28 -/
def Shown.bds.bds44.fields.TurbulenceFlag.ToString (tf : UInt8) : List Char :=
  if tf = 0 then
    t! "0 - turbulence data not available in Register 45"
  else
    if tf = 1 then
      t! "1 - turbulence data available in Register 45"
    else
      dec tf.toNat ++ t! " - Unknown code"

/-- pkg/bds/bds44/meteorological_routine_air_report_v0.go:30-32 -/
def Shown.bds.bds44.MeteorologicalRoutineAirReportV0.GetRegister (message : RoutineAirReportV0) : Register :=
  (⟨t! "BDS 4,4", t! "Meteorological routine air report"⟩ : Register)

/-- pkg/bds/bds44/meteorological_routine_air_report_v0.go:39-67 -/
def Shown.bds.bds44.MeteorologicalRoutineAirReportV0.ToString (F : FloatTexts) (message : RoutineAirReportV0) : List Char :=
  t! "Message:                            " ++
    (Shown.bds.register.Register.ToString (Shown.bds.bds44.MeteorologicalRoutineAirReportV0.GetRegister message)) ++
    t! "\n" ++
    t! "Source:                             " ++
    (Shown.bds.bds44.fields.Source.ToString message.source) ++
    t! "\n" ++
    t! "Wind Speed Status:                  " ++
    boolText message.windSpeedStatus ++
    t! "\n" ++
    t! "Wind Speed (knot):                  " ++
    dec message.windSpeed.toNat ++
    t! "\n" ++
    t! "Wind Direction Status:              " ++
    boolText message.windDirectionStatus ++
    t! "\n" ++
    t! "Wind Direction (degrees):           " ++
    F.float32 message.windDirection ++
    t! "\n" ++
    t! "Static Air Temperature (degrees C): " ++
    F.float32 message.staticAirTemperature ++
    t! "\n" ++
    t! "Average Static Pressure Status:     " ++
    boolText message.averageStaticPressureStatus ++
    t! "\n" ++
    t! "Average Static Pressure (hPa):      " ++
    dec message.averageStaticPressure.toNat ++
    t! "\n" ++
    t! "Turbulence Status:                  " ++
    boolText message.turbulenceStatus ++
    t! "\n" ++
    t! "Turbulence:                         " ++
    (Shown.bds.bds44.fields.TurbulenceLevel.ToString message.turbulence) ++
    t! "\n" ++
    t! "Humidity Status:                    " ++
    boolText message.humidityStatus ++
    t! "\n" ++
    t! "Humidity (%):                       " ++
    F.float32 message.humidity

/-- pkg/bds/bds44/meteorological_routine_air_report_v1.go:29-31 -/
def Shown.bds.bds44.MeteorologicalRoutineAirReportV1.GetRegister (message : RoutineAirReportV1) : Register :=
  (⟨t! "BDS 4,4", t! "Meteorological routine air report"⟩ : Register)

/-- pkg/bds/bds44/meteorological_routine_air_report_v1.go:38-64 -/
def Shown.bds.bds44.MeteorologicalRoutineAirReportV1.ToString (F : FloatTexts) (message : RoutineAirReportV1) : List Char :=
  t! "Message:                            " ++
    (Shown.bds.register.Register.ToString (Shown.bds.bds44.MeteorologicalRoutineAirReportV1.GetRegister message)) ++
    t! "\n" ++
    t! "Wind Speed Status:                  " ++
    boolText message.windSpeedStatus ++
    t! "\n" ++
    t! "Wind Speed (knot):                  " ++
    dec message.windSpeed.toNat ++
    t! "\n" ++
    t! "Wind Direction Status:              " ++
    boolText message.windDirectionStatus ++
    t! "\n" ++
    t! "Wind Direction (degrees):           " ++
    F.float32 message.windDirection ++
    t! "\n" ++
    t! "Static Air Temperature Status:      " ++
    boolText message.staticAirTemperatureStatus ++
    t! "\n" ++
    t! "Static Air Temperature (degrees C): " ++
    F.float32 message.staticAirTemperature ++
    t! "\n" ++
    t! "Average Static Pressure Status:     " ++
    boolText message.averageStaticPressureStatus ++
    t! "\n" ++
    t! "Average Static Pressure (hPa):      " ++
    dec message.averageStaticPressure.toNat ++
    t! "\n" ++
    t! "Turbulence Flag:                    " ++
    (Shown.bds.bds44.fields.TurbulenceFlag.ToString message.turbulenceFlag) ++
    t! "\n" ++
    t! "Humidity Status:                    " ++
    boolText message.humidityStatus ++
    t! "\n" ++
    t! "Humidity (%):                       " ++
    F.float32 message.humidity

/-- pkg/bds/bds44/meteorological_routine_air_report_v2.go:31-33 -/
def Shown.bds.bds44.MeteorologicalRoutineAirReportV2.GetRegister (message : RoutineAirReportV2) : Register :=
  (⟨t! "BDS 4,4", t! "Meteorological routine air report"⟩ : Register)

/-- pkg/bds/bds44/meteorological_routine_air_report_v2.go:40-68 -/
def Shown.bds.bds44.MeteorologicalRoutineAirReportV2.ToString (F : FloatTexts) (message : RoutineAirReportV2) : List Char :=
  t! "Message:                            " ++
    (Shown.bds.register.Register.ToString (Shown.bds.bds44.MeteorologicalRoutineAirReportV2.GetRegister message)) ++
    t! "\n" ++
    t! "Source:                             " ++
    (Shown.bds.bds44.fields.Source.ToString message.source) ++
    t! "\n" ++
    t! "Wind Speed Status:                  " ++
    boolText message.windSpeedStatus ++
    t! "\n" ++
    t! "Wind Speed (knot):                  " ++
    dec message.windSpeed.toNat ++
    t! "\n" ++
    t! "Wind Direction Status:              " ++
    boolText message.windDirectionStatus ++
    t! "\n" ++
    t! "Wind Direction (degrees):           " ++
    F.float32 message.windDirection ++
    t! "\n" ++
    t! "Static Air Temperature Status:      " ++
    boolText message.staticAirTemperatureStatus ++
    t! "\n" ++
    t! "Static Air Temperature (degrees C): " ++
    F.float32 message.staticAirTemperature ++
    t! "\n" ++
    t! "Average Static Pressure Status:     " ++
    boolText message.averageStaticPressureStatus ++
    t! "\n" ++
    t! "Average Static Pressure (hPa):      " ++
    dec message.averageStaticPressure.toNat ++
    t! "\n" ++
    t! "Turbulence Flag:                    " ++
    (Shown.bds.bds44.fields.TurbulenceFlag.ToString message.turbulenceFlag) ++
    t! "\n" ++
    t! "Humidity Status:                    " ++
    boolText message.humidityStatus ++
    t! "\n" ++
    t! "Humidity (%):                       " ++
    F.float32 message.humidity

/-- pkg/bds/bds45/fields/hazard_level.go:24-38 -/
def Shown.bds.bds45.fields.HazardLevel.ToString (hl : UInt8) : List Char :=
  if hl = 0 then
    t! "0 - Nil"
  else
    if hl = 1 then
      t! "1 - Light"
    else
      if hl = 2 then
        t! "2 - Moderate"
      else
        if hl = 3 then
          t! "3 - Severe"
        else
          dec hl.toNat ++ t! " - Unknown code"

/-- pkg/bds/bds45/meteorological_hazard_report_v0.go:33-35 -/
def Shown.bds.bds45.MeteorologicalHazardReportV0.GetRegister (message : HazardReportV0) : Register :=
  (⟨t! "BDS 4,5", t! "Meteorological hazard report"⟩ : Register)

/-- pkg/bds/bds45/meteorological_hazard_report_v0.go:42-78 -/
def Shown.bds.bds45.MeteorologicalHazardReportV0.ToString (F : FloatTexts) (message : HazardReportV0) : List Char :=
  t! "Message:                            " ++
    (Shown.bds.register.Register.ToString (Shown.bds.bds45.MeteorologicalHazardReportV0.GetRegister message)) ++
    t! "\n" ++
    t! "Turbulence Status:                  " ++
    boolText message.turbulenceStatus ++
    t! "\n" ++
    t! "Turbulence:                         " ++
    (Shown.bds.bds45.fields.HazardLevel.ToString message.turbulence) ++
    t! "\n" ++
    t! "Wind Shear Status:                  " ++
    boolText message.windShearStatus ++
    t! "\n" ++
    t! "Wind Shear:                         " ++
    (Shown.bds.bds45.fields.HazardLevel.ToString message.windShear) ++
    t! "\n" ++
    t! "Micro Burst Status:                 " ++
    boolText message.microBurstStatus ++
    t! "\n" ++
    t! "Micro Burst:                        " ++
    (Shown.bds.bds45.fields.HazardLevel.ToString message.microBurst) ++
    t! "\n" ++
    t! "Icing Status:                       " ++
    boolText message.icingStatus ++
    t! "\n" ++
    t! "Icing:                              " ++
    (Shown.bds.bds45.fields.HazardLevel.ToString message.icing) ++
    t! "\n" ++
    t! "Wake Vortex Status:                 " ++
    boolText message.wakeVortexStatus ++
    t! "\n" ++
    t! "Wake Vortex:                        " ++
    (Shown.bds.bds45.fields.HazardLevel.ToString message.wakeVortex) ++
    t! "\n" ++
    t! "Static Air Temperature Status:      " ++
    boolText message.staticAirTemperatureStatus ++
    t! "\n" ++
    t! "Static Air Temperature (degrees C): " ++
    F.float32 message.staticAirTemperature ++
    t! "\n" ++
    t! "Average Static Pressure Status:     " ++
    boolText message.averageStaticPressureStatus ++
    t! "\n" ++
    t! "Average Static Pressure (hPa):      " ++
    dec message.averageStaticPressure.toNat ++
    t! "\n" ++
    t! "Radio Height Status:                " ++
    boolText message.radioHeightStatus ++
    t! "\n" ++
    t! "Radio Height (feet):                " ++
    dec message.radioHeight.toNat

/-- pkg/bds/bds45/meteorological_hazard_report_v1.go:35-37 -/
def Shown.bds.bds45.MeteorologicalHazardReportV1.GetRegister (message : HazardReportV1) : Register :=
  (⟨t! "BDS 4,5", t! "Meteorological hazard report"⟩ : Register)

/-- pkg/bds/bds45/meteorological_hazard_report_v1.go:44-84 -/
def Shown.bds.bds45.MeteorologicalHazardReportV1.ToString (F : FloatTexts) (message : HazardReportV1) : List Char :=
  t! "Message:                              " ++
    (Shown.bds.register.Register.ToString (Shown.bds.bds45.MeteorologicalHazardReportV1.GetRegister message)) ++
    t! "\n" ++
    t! "Wind Shear Status:                    " ++
    boolText message.windShearStatus ++
    t! "\n" ++
    t! "Wind Shear:                           " ++
    (Shown.bds.bds45.fields.HazardLevel.ToString message.windShear) ++
    t! "\n" ++
    t! "Micro Burst Status:                   " ++
    boolText message.microBurstStatus ++
    t! "\n" ++
    t! "Micro Burst:                          " ++
    (Shown.bds.bds45.fields.HazardLevel.ToString message.microBurst) ++
    t! "\n" ++
    t! "Icing Status:                         " ++
    boolText message.icingStatus ++
    t! "\n" ++
    t! "Icing:                                " ++
    (Shown.bds.bds45.fields.HazardLevel.ToString message.icing) ++
    t! "\n" ++
    t! "Wake Vortex Status:                   " ++
    boolText message.wakeVortexStatus ++
    t! "\n" ++
    t! "Wake Vortex:                          " ++
    (Shown.bds.bds45.fields.HazardLevel.ToString message.wakeVortex) ++
    t! "\n" ++
    t! "Static Air Temperature Status:        " ++
    boolText message.staticAirTemperatureStatus ++
    t! "\n" ++
    t! "Static Air Temperature (degrees C):   " ++
    F.float32 message.staticAirTemperature ++
    t! "\n" ++
    t! "Average Static Pressure Status:       " ++
    boolText message.averageStaticPressureStatus ++
    t! "\n" ++
    t! "Average Static Pressure (hPa):        " ++
    dec message.averageStaticPressure.toNat ++
    t! "\n" ++
    t! "Radio Height Status:                  " ++
    boolText message.radioHeightStatus ++
    t! "\n" ++
    t! "Radio Height (feet):                  " ++
    dec message.radioHeight.toNat ++
    t! "\n" ++
    t! "Turbulence Status:                    " ++
    boolText message.turbulenceStatus ++
    t! "\n" ++
    t! "Average Turbulence EDR Metric         " ++
    F.float32 message.turbulenceAverageEDR ++
    t! "\n" ++
    t! "Peak Turbulence EDR Metric:           " ++
    F.float32 message.turbulencePeakEDR ++
    t! "\n" ++
    t! "Turbulence Peak Delay Interval (min): " ++
    dec message.turbulencePeakDelayInterval.toNat

/-- pkg/bds/bds50/track_and_turn_report.go:28-30 -/
def Shown.bds.bds50.TrackAndTurnReport.GetRegister (message : TrackAndTurnReport) : Register :=
  (⟨t! "BDS 5,0", t! "Track and turn report"⟩ : Register)

/-- pkg/bds/bds50/track_and_turn_report.go:33-57 -/
def Shown.bds.bds50.TrackAndTurnReport.ToString (F : FloatTexts) (message : TrackAndTurnReport) : List Char :=
  t! "Message:                               " ++
    (Shown.bds.register.Register.ToString (Shown.bds.bds50.TrackAndTurnReport.GetRegister message)) ++
    t! "\n" ++
    t! "Roll Angle Status:                     " ++
    boolText message.rollAngleStatus ++
    t! "\n" ++
    t! "Roll Angle (degrees):                  " ++
    F.float32 message.rollAngle ++
    t! "\n" ++
    t! "True Track Angle Status:               " ++
    boolText message.trueTrackAngleStatus ++
    t! "\n" ++
    t! "True Track (degrees):                  " ++
    F.float32 message.trueTrackAngle ++
    t! "\n" ++
    t! "Ground Speed Status:                   " ++
    boolText message.groundSpeedStatus ++
    t! "\n" ++
    t! "Ground Speed (knots):                  " ++
    dec message.groundSpeed.toNat ++
    t! "\n" ++
    t! "Track Angle Rate Status:               " ++
    boolText message.trackAngleRateStatus ++
    t! "\n" ++
    t! "Track Angle Rate (degrees/second):     " ++
    F.float32 message.trackAngleRate ++
    t! "\n" ++
    t! "True Air Speed Status:                 " ++
    boolText message.trueAirSpeedStatus ++
    t! "\n" ++
    t! "True Air Speed (knots):                " ++
    dec message.trueAirSpeed.toNat

/-- pkg/bds/bds60/heading_and_speed_report.go:27-29 -/
def Shown.bds.bds60.HeadingAndTrackReport.GetRegister (message : HeadingAndTrackReport) : Register :=
  (⟨t! "BDS 6,0", t! "Heading and speed report"⟩ : Register)

/-- pkg/bds/bds60/heading_and_speed_report.go:32-56 -/
def Shown.bds.bds60.HeadingAndTrackReport.ToString (F : FloatTexts) (message : HeadingAndTrackReport) : List Char :=
  t! "Message:                                  " ++
    (Shown.bds.register.Register.ToString (Shown.bds.bds60.HeadingAndTrackReport.GetRegister message)) ++
    t! "\n" ++
    t! "Magnetic Heading Status:                  " ++
    boolText message.magneticHeadingStatus ++
    t! "\n" ++
    t! "Magnetic Heading (degrees):               " ++
    F.float32 message.magneticHeading ++
    t! "\n" ++
    t! "Indicated Air Speed Status:               " ++
    boolText message.indicatedAirSpeedStatus ++
    t! "\n" ++
    t! "Indicated Air Speed (knots):              " ++
    dec message.indicatedAirSpeed.toNat ++
    t! "\n" ++
    t! "Mach Status:                              " ++
    boolText message.machStatus ++
    t! "\n" ++
    t! "Mach:                                     " ++
    F.float32 message.mach ++
    t! "\n" ++
    t! "Barometric Altitude Rate Status:          " ++
    boolText message.barometricAltitudeRateStatus ++
    t! "\n" ++
    t! "Barometric Altitude Rate (feet/minute):   " ++
    decInt message.barometricAltitudeRate ++
    t! "\n" ++
    t! "Inertial Vertical Velocity Status:        " ++
    boolText message.initialVerticalVelocityStatus ++
    t! "\n" ++
    t! "Inertial Vertical Velocity (feet/minute): " ++
    decInt message.initialVerticalVelocity

/-- pkg/bds/register/register_reference.go:16-18 -/
def Shown.bds.register.Register.GetId (register : Register) : List Char :=
  register.id

/-- pkg/bds/register/register_reference.go:21-23 -/
def Shown.bds.register.Register.GetDescription (register : Register) : List Char :=
  register.description

/-- pkg/modes/common/address.go:10-15 -/
def Shown.modes.common.ICAOAddress.ToString (address : UInt32) : List Char :=
  hex02 (((address &&& 16711680) >>> 16).toUInt8) ++
    t! " " ++
    hex02 (((address &&& 65280) >>> 8).toUInt8) ++
    t! " " ++
    hex02 ((address &&& 255).toUInt8) ++
    t! " "

/-- pkg/modes/fields/address_announced.go:32-37 -/
def Shown.modes.fields.AddressAnnounced.ToString (addressAnnounced : UInt32) : List Char :=
  hex02 (((addressAnnounced &&& 16711680) >>> 16).toUInt8) ++
    t! " " ++
    hex02 (((addressAnnounced &&& 65280) >>> 8).toUInt8) ++
    t! " " ++
    hex02 ((addressAnnounced &&& 255).toUInt8)

/-- pkg/modes/fields/altitude_code.go:107-120 -/
def Shown.modes.fields.AltitudeReportMethod.ToString (altitudeReportMethod : AltitudeReportMethod) : List Char :=
  if altitudeReportMethod = .notAvailable then
    t! "1 - Not Available"
  else
    if altitudeReportMethod = .metricUnits then
      t! "2 - Metric Units"
    else
      if altitudeReportMethod = .feet100 then
        t! "3 - 100 Foot Increments"
      else
        if altitudeReportMethod = .feet25 then
          t! "4 - 25 Foot Increments"
        else
          dec (match altitudeReportMethod with | .notAvailable => 1 | .metricUnits => 2 | .feet100 => 3 | .feet25 => 4) ++
    t! " - Unknown code"

/-- pkg/modes/fields/application_field.go:45-66 -/
def Shown.modes.fields.ApplicationField.ToString (applicationField : UInt8) : List Char :=
  if applicationField = 0 then
    t! "0 - Reserved"
  else
    if applicationField = 1 then
      t! "1 - Reserved"
    else
      if applicationField = 2 then
        t! "2 - Reserved"
      else
        if applicationField = 3 then
          t! "3 - Reserved"
        else
          if applicationField = 4 then
            t! "4 - Reserved"
          else
            if applicationField = 5 then
              t! "5 - Reserved"
            else
              if applicationField = 6 then
                t! "6 - Reserved"
              else
                if applicationField = 7 then
                  t! "7 - Reserved"
                else
                  dec applicationField.toNat ++ t! " - Unknown code"

/-- pkg/modes/fields/capability.go:49-70 -/
def Shown.modes.fields.Capability.ToString (capability : UInt8) : List Char :=
  if capability = 0 then
    t! "0 - Level 1 Transponder (surveillance only)"
  else
    if capability = 1 then
      t! "1 - Reserved"
    else
      if capability = 2 then
        t! "2 - Reserved"
      else
        if capability = 3 then
          t! "3 - Reserved"
        else
          if capability = 4 then
            t! "4 - Level 2 On The Ground"
          else
            if capability = 5 then
              t! "5 - Level 2 Airborne"
            else
              if capability = 6 then
                t! "6 - Level 2 On The Ground or Airborne"
              else
                if capability = 7 then
                  t! "7 - Flight Status (FS) with alert or downlink request (DR)"
                else
                  dec capability.toNat ++ t! " - Unknown code"

/-- pkg/modes/fields/control_elm.go:35-44 -/
def Shown.modes.fields.ControlELM.ToString (controlELM : UInt8) : List Char :=
  if controlELM = 0 then
    t! "0 - Downlink ELM Transmission"
  else
    if controlELM = 1 then
      t! "1 - Uplink ELM Acknowledgement"
    else
      dec controlELM.toNat ++ t! " - Unknown code"

/-- pkg/modes/fields/control_field.go:45-66 -/
def Shown.modes.fields.ControlField.ToString (controlField : UInt8) : List Char :=
  if controlField = 0 then
    t! "0 - ADSB (ADS-B ES/NT devices that report the ICAO 24-bit address in the AA field)"
  else
    if controlField = 1 then
      t! "1 - ADSB Reserved (reserved for ADS-B for ES/NT devices that use other addressing techniques in the AA field)"
    else
      if controlField = 2 then
        t! "2 - TISB Fine Format"
      else
        if controlField = 3 then
          t! "3 - TISB Coarse Format"
        else
          if controlField = 4 then
            t! "4 - TISB Reserved Management"
          else
            if controlField = 5 then
              t! "5 - TISB Relay ADSB"
            else
              if controlField = 6 then
                t! "6 - ADSB Rebroadcast (ADS-B rebroadcast using the same type codes and message formats as defined for DF = 17 ADS-B messages)"
              else
                if controlField = 7 then
                  t! "7 - Reserved"
                else
                  dec controlField.toNat ++ t! " - Unknown code"

/-- pkg/modes/fields/cross_link_compatibility.go:37-46 -/
def Shown.modes.fields.CrossLinkCompatibility.ToString (crossLinkCompatibility : UInt8) : List Char :=
  if crossLinkCompatibility = 0 then
    t! "0 - Not Supported"
  else
    if crossLinkCompatibility = 1 then
      t! "1 - Supported"
    else
      dec crossLinkCompatibility.toNat ++ t! " - Unknown code"

/-- pkg/modes/fields/downlink_request.go:93-162 -/
def Shown.modes.fields.DownlinkRequest.ToString (downlinkRequest : UInt8) : List Char :=
  if downlinkRequest = 0 then
    t! "0 - No Downlink Request"
  else
    if downlinkRequest = 1 then
      t! "1 - Request To Send Comm-B Message"
    else
      if downlinkRequest = 2 then
        t! "2 - ACAS message available"
      else
        if downlinkRequest = 3 then
          t! "3 - Comm-B message available and ACAS message available"
        else
          if downlinkRequest = 4 then
            t! "4 - Comm-B Message 1 Available"
          else
            if downlinkRequest = 5 then
              t! "5 - Comm-B Message 2 Available"
            else
              if downlinkRequest = 6 then
                t! "6 - Comm-B broadcast message 1 available and ACAS message available"
              else
                if downlinkRequest = 7 then
                  t! "7 - Comm-B broadcast message 2 available and ACAS message available"
                else
                  if downlinkRequest = 8 then
                    t! "8 - Not Assigned"
                  else
                    if downlinkRequest = 9 then
                      t! "9 - Not Assigned"
                    else
                      if downlinkRequest = 10 then
                        t! "10 - Not Assigned"
                      else
                        if downlinkRequest = 11 then
                          t! "11 - Not Assigned"
                        else
                          if downlinkRequest = 12 then
                            t! "12 - Not Assigned"
                          else
                            if downlinkRequest = 13 then
                              t! "13 - Not Assigned"
                            else
                              if downlinkRequest = 14 then
                                t! "14 - Not Assigned"
                              else
                                if downlinkRequest = 15 then
                                  t! "15 - Not Assigned"
                                else
                                  if downlinkRequest = 16 then
                                    t! "16 - ELM Available 1 Segments"
                                  else
                                    if downlinkRequest = 17 then
                                      t! "17 - ELM Available 2 Segments"
                                    else
                                      if downlinkRequest = 18 then
                                        t! "18 - ELM Available 3 Segments"
                                      else
                                        if downlinkRequest = 19 then
                                          t! "19 - ELM Available 4 Segments"
                                        else
                                          if downlinkRequest = 20 then
                                            t! "20 - ELM Available 5 Segments"
                                          else
                                            if downlinkRequest = 21 then
                                              t! "21 - ELM Available 6 Segments"
                                            else
                                              if downlinkRequest = 22 then
                                                t! "22 - ELM Available 7 Segments"
                                              else
                                                if downlinkRequest = 23 then
                                                  t! "23 - ELM Available 8 Segments"
                                                else
                                                  if downlinkRequest = 24 then
                                                    t! "24 - ELM Available 9 Segments"
                                                  else
                                                    if downlinkRequest = 25 then
                                                      t! "25 - ELM Available 10 Segment"
                                                    else
                                                      if downlinkRequest = 26 then
                                                        t! "26 - ELM Available 11 Segments"
                                                      else
                                                        if downlinkRequest = 27 then
                                                          t! "27 - ELM Available 12 Segments"
                                                        else
                                                          if downlinkRequest = 28 then
                                                            t! "28 - ELM Available 13 Segments"
                                                          else
                                                            if downlinkRequest = 29 then
                                                              t! "29 - ELM Available 14 Segments"
                                                            else
                                                              if downlinkRequest = 30 then
                                                                t! "30 - ELM Available 15 Segments"
                                                              else
                                                                if downlinkRequest = 31 then
                                                                  t! "31 - ELM Available 16 Segments"
                                                                else
                                                                  dec downlinkRequest.toNat ++ t! " - Unknown code"

/-- pkg/modes/fields/flight_status.go:45-66 -/
def Shown.modes.fields.FlightStatus.ToString (flightStatus : UInt8) : List Char :=
  if flightStatus = 0 then
    t! "0 - No Alert, No SPI, Airborne"
  else
    if flightStatus = 1 then
      t! "1 - No Alert, No SPI, On The Ground"
    else
      if flightStatus = 2 then
        t! "2 - Alert, No SPI, Airborne"
      else
        if flightStatus = 3 then
          t! "3 - Alert, No SPI, On The Ground"
        else
          if flightStatus = 4 then
            t! "4 - Alert, SPI, Airborne"
          else
            if flightStatus = 5 then
              t! "5 - Alert, SPI, On The Ground"
            else
              if flightStatus = 6 then
                t! "6 - Reserved"
              else
                if flightStatus = 7 then
                  t! "7 - Reserved"
                else
                  dec flightStatus.toNat ++ t! " - Unknown code"

/-- pkg/modes/fields/identity.go:83-97 -/
def Shown.modes.fields.Identity.ToString (identity : List Char) : List Char :=
  let special := t! ""
  let special := if Gen.modes.fields.Identity.IsSpecialEmergency identity then
      let special := t! " [Emergency]"
      special
    else
      let special := if Gen.modes.fields.Identity.IsSpecialInstructionNotReceived identity then
          let special := t! " [Instruction Not Received]"
          special
        else
          let special := if Gen.modes.fields.Identity.IsSpecialRadiocommunicationFailure identity then
              let special := t! " [Radiocommunication Failure]"
              special
            else
              let special := if Gen.modes.fields.Identity.IsSpecialUnlawfulInterference identity then
                  let special := t! " [Unlawful Interference]"
                  special
                else
                  special
              special
          special
      special
  identity ++ special

/-- pkg/modes/fields/message_acas.go:39-41 -/
def Shown.modes.fields.MessageACAS.ToString (messageACAS : List UInt8) : List Char :=
  t! "[" ++ decList messageACAS ++ t! "]"

/-- pkg/modes/fields/message_comm_b.go:32-41 -/
def Shown.modes.fields.MessageCommB.ToString (messageCommB : List UInt8) : Go (List Char) := do
  return hex02 (← idx messageCommB 0) ++
    t! " " ++
    hex02 (← idx messageCommB 1) ++
    t! " " ++
    hex02 (← idx messageCommB 2) ++
    t! " " ++
    hex02 (← idx messageCommB 3) ++
    t! " " ++
    hex02 (← idx messageCommB 4) ++
    t! " " ++
    hex02 (← idx messageCommB 5) ++
    t! " " ++
    hex02 (← idx messageCommB 6)

/-- pkg/modes/fields/message_comm_d.go:34-46 -/
def Shown.modes.fields.MessageCommD.ToString (messageCommD : List UInt8) : Go (List Char) := do
  return hex02 (← idx messageCommD 0) ++
    t! " " ++
    hex02 (← idx messageCommD 1) ++
    t! " " ++
    hex02 (← idx messageCommD 2) ++
    t! " " ++
    hex02 (← idx messageCommD 3) ++
    t! " " ++
    hex02 (← idx messageCommD 4) ++
    t! " " ++
    hex02 (← idx messageCommD 5) ++
    t! " " ++
    hex02 (← idx messageCommD 6) ++
    t! " " ++
    hex02 (← idx messageCommD 7) ++
    t! " " ++
    hex02 (← idx messageCommD 8) ++
    t! " " ++
    hex02 (← idx messageCommD 9)

/-- pkg/modes/fields/message_extended_squitter.go:34-43 -/
def Shown.modes.fields.MessageExtendedSquitter.ToString (messageExtendedSquitter : List UInt8) : Go (List Char) := do
  return hex02 (← idx messageExtendedSquitter 0) ++
    t! " " ++
    hex02 (← idx messageExtendedSquitter 1) ++
    t! " " ++
    hex02 (← idx messageExtendedSquitter 2) ++
    t! " " ++
    hex02 (← idx messageExtendedSquitter 3) ++
    t! " " ++
    hex02 (← idx messageExtendedSquitter 4) ++
    t! " " ++
    hex02 (← idx messageExtendedSquitter 5) ++
    t! " " ++
    hex02 (← idx messageExtendedSquitter 6)

/-- pkg/modes/fields/number_of_d_segment.go:26-28 -/
def Shown.modes.fields.NumberOfDSegment.ToString (numberOfDSegment : UInt8) : List Char :=
  decInt (numberOfDSegment.toNat : Int)

/-- pkg/modes/fields/reply_information_air_air.go:72-109 -/
def Shown.modes.fields.ReplyInformationAirAir.ToString (replyInformationAirAir : UInt8) : List Char :=
  if replyInformationAirAir = 0 then
    t! "0 - No Operating ACAS"
  else
    if replyInformationAirAir = 1 then
      t! "1 - Reserved ACAS"
    else
      if replyInformationAirAir = 2 then
        t! "2 - ACAS with resolution capability inhibited"
      else
        if replyInformationAirAir = 3 then
          t! "3 - ACAS with vertical-only resolution capability"
        else
          if replyInformationAirAir = 4 then
            t! "4 - ACAS with vertical and horizontal resolution capability"
          else
            if replyInformationAirAir = 5 then
              t! "5 - Reserved ACAS"
            else
              if replyInformationAirAir = 6 then
                t! "6 - Reserved ACAS"
              else
                if replyInformationAirAir = 7 then
                  t! "7 - Reserved ACAS"
                else
                  if replyInformationAirAir = 8 then
                    t! "8 - Maximum Air Speed Not Available"
                  else
                    if replyInformationAirAir = 9 then
                      t! "9 - Maximum Air Speed 0 To 140 km/h (75 kt)"
                    else
                      if replyInformationAirAir = 10 then
                        t! "10 - Maximum AirSpeed 140 To 280 km/h (75 and 150 kt)"
                      else
                        if replyInformationAirAir = 11 then
                          t! "11 - Maximum AirSpeed 280 To 560 km/h (150 and 300 kt)"
                        else
                          if replyInformationAirAir = 12 then
                            t! "12 - Maximum AirSpeed 560 To 1110 km/h (300 and 600 kt)"
                          else
                            if replyInformationAirAir = 13 then
                              t! "13 - Maximum AirSpeed 1110 To 2220 km/h (600 and 1 200 kt)"
                            else
                              if replyInformationAirAir = 14 then
                                t! "14 - Maximum Air Speed Over 2220 km/h (1 200 kt)"
                              else
                                if replyInformationAirAir = 15 then
                                  t! "15 - Not Assigned"
                                else
                                  dec replyInformationAirAir.toNat ++ t! " - Unknown code"

/-- pkg/modes/fields/sensitivity_level_report.go:49-70 -/
def Shown.modes.fields.SensitivityLevelReport.ToString (sensitivityLevelReport : UInt8) : List Char :=
  if sensitivityLevelReport = 0 then
    t! "0 - ACAS Inoperative"
  else
    if sensitivityLevelReport = 1 then
      t! "1 - Level 1"
    else
      if sensitivityLevelReport = 2 then
        t! "2 - Level 2"
      else
        if sensitivityLevelReport = 3 then
          t! "3 - Level 3"
        else
          if sensitivityLevelReport = 4 then
            t! "4 - Level 4"
          else
            if sensitivityLevelReport = 5 then
              t! "5 - Level 5"
            else
              if sensitivityLevelReport = 6 then
                t! "6 - Level 6"
              else
                if sensitivityLevelReport = 7 then
                  t! "7 - Level 7"
                else
                  dec sensitivityLevelReport.toNat ++ t! " - Unknown code"

/-- pkg/modes/fields/utility_message.go:55-68 -/
def Shown.modes.fields.UtilityMessageIdentifierDesignator.ToString (utilityMessageIdentifierDesignator : UInt8) : List Char :=
  if utilityMessageIdentifierDesignator = 0 then
    t! "0 - No Information"
  else
    if utilityMessageIdentifierDesignator = 1 then
      t! "1 - Designator Comm-B"
    else
      if utilityMessageIdentifierDesignator = 2 then
        t! "2 - Designator Comm-C"
      else
        if utilityMessageIdentifierDesignator = 3 then
          t! "3 - Designator Comm-D"
        else
          dec utilityMessageIdentifierDesignator.toNat ++ t! " - Unknown code"

/-- pkg/modes/fields/utility_message.go:71-73 -/
def Shown.modes.fields.UtilityMessage.ToString (utilityMessage : UtilityMessage) : List Char :=
  t! "InterrogatorIdentifier: " ++
    dec utilityMessage.interrogatorIdentifier.toNat ++
    t! ", Reservation: " ++
    (Shown.modes.fields.UtilityMessageIdentifierDesignator.ToString utilityMessage.identifierDesignator)

/-- pkg/modes/fields/vertical_status.go:35-44 -/
def Shown.modes.fields.VerticalStatus.ToString (verticalStatus : UInt8) : List Char :=
  if verticalStatus = 0 then
    t! "0 - Airborne"
  else
    if verticalStatus = 1 then
      t! "1 - On The Ground"
    else
      dec verticalStatus.toNat ++ t! " - Unknown code"

/-- pkg/modes/messages/df0.go:28-30 -/
def Shown.modes.messages.MessageDF0.GetName (message : MessageDF0) : List Char :=
  t! "Short air-air surveillance (ACAS)"

/-- pkg/modes/messages/df0.go:70-87 -/
def Shown.modes.messages.MessageDF0.ToString (message : MessageDF0) : List Char :=
  t! "Downlink format:      " ++
    decInt (Gen.modes.messages.MessageDF0.GetDownLinkFormat message) ++
    t! " - " ++
    (Shown.modes.messages.MessageDF0.GetName message) ++
    t! "\n" ++
    t! "VerticalStatus:       " ++
    (Shown.modes.fields.VerticalStatus.ToString message.verticalStatus) ++
    t! "\n" ++
    t! "CrossLinkCapability:  " ++
    (Shown.modes.fields.CrossLinkCompatibility.ToString message.crossLinkCapability) ++
    t! "\n" ++
    t! "SensitivityLevel:     " ++
    (Shown.modes.fields.SensitivityLevelReport.ToString message.sensitivityLevel) ++
    t! "\n" ++
    t! "ReplyInformation:     " ++
    (Shown.modes.fields.ReplyInformationAirAir.ToString message.replyInformation) ++
    t! "\n" ++
    t! "AltitudeReportMethod: " ++
    (Shown.modes.fields.AltitudeReportMethod.ToString message.altitudeReportMethod) ++
    t! "\n" ++
    t! "Altitude:             " ++
    decInt message.altitude

/-- pkg/modes/messages/df11.go:22-24 -/
def Shown.modes.messages.MessageDF11.GetName (message : MessageDF11) : List Char :=
  t! "All-call reply"

/-- pkg/modes/messages/df11.go:54-62 -/
def Shown.modes.messages.MessageDF11.ToString (message : MessageDF11) : List Char :=
  t! "Downlink format:  " ++
    decInt (Gen.modes.messages.MessageDF11.GetDownLinkFormat message) ++
    t! " - " ++
    (Shown.modes.messages.MessageDF11.GetName message) ++
    t! "\n" ++
    t! "Capability:       " ++
    (Shown.modes.fields.Capability.ToString message.capability) ++
    t! "\n" ++
    t! "AddressAnnounced: " ++
    (Shown.modes.fields.AddressAnnounced.ToString message.addressAnnounced)

/-- pkg/modes/messages/df16.go:26-28 -/
def Shown.modes.messages.MessageDF16.GetName (message : MessageDF16) : List Char :=
  t! "Long air-air surveillance (ACAS)"

/-- pkg/modes/messages/df16.go:68-85 -/
def Shown.modes.messages.MessageDF16.ToString (message : MessageDF16) : List Char :=
  t! "Downlink format:      " ++
    decInt (Gen.modes.messages.MessageDF16.GetDownLinkFormat message) ++
    t! " - " ++
    (Shown.modes.messages.MessageDF16.GetName message) ++
    t! "\n" ++
    t! "VerticalStatus:       " ++
    (Shown.modes.fields.VerticalStatus.ToString message.verticalStatus) ++
    t! "\n" ++
    t! "SensitivityLevel:     " ++
    (Shown.modes.fields.SensitivityLevelReport.ToString message.sensitivityLevel) ++
    t! "\n" ++
    t! "ReplyInformation:     " ++
    (Shown.modes.fields.ReplyInformationAirAir.ToString message.replyInformation) ++
    t! "\n" ++
    t! "AltitudeReportMethod: " ++
    (Shown.modes.fields.AltitudeReportMethod.ToString message.altitudeReportMethod) ++
    t! "\n" ++
    t! "Altitude:             " ++
    decInt message.altitude ++
    t! "\n" ++
    t! "Message ACAS:         " ++
    (Shown.modes.fields.MessageACAS.ToString message.messageACAS)

/-- pkg/modes/messages/df17.go:23-25 -/
def Shown.modes.messages.MessageDF17.GetName (message : MessageDF17) : List Char :=
  t! "Extended squitter"

/-- pkg/modes/messages/df17.go:56-66 -/
def Shown.modes.messages.MessageDF17.ToString (message : MessageDF17) : Go (List Char) := do
  return t! "Downlink format:         " ++
    decInt (Gen.modes.messages.MessageDF17.GetDownLinkFormat message) ++
    t! " - " ++
    (Shown.modes.messages.MessageDF17.GetName message) ++
    t! "\n" ++
    t! "Capability:              " ++
    (Shown.modes.fields.Capability.ToString message.capability) ++
    t! "\n" ++
    t! "AddressAnnounced:        " ++
    (Shown.modes.fields.AddressAnnounced.ToString message.addressAnnounced) ++
    t! "\n" ++
    t! "MessageExtendedSquitter: " ++
    (← Shown.modes.fields.MessageExtendedSquitter.ToString message.messageExtendedSquitter)

/-- pkg/modes/messages/df18.go:23-25 -/
def Shown.modes.messages.MessageDF18.GetName (message : MessageDF18) : List Char :=
  t! "Extended squitter/non transponder"

/-- pkg/modes/messages/df18.go:56-66 -/
def Shown.modes.messages.MessageDF18.ToString (message : MessageDF18) : Go (List Char) := do
  return t! "Downlink format:         " ++
    decInt (Gen.modes.messages.MessageDF18.GetDownLinkFormat message) ++
    t! " - " ++
    (Shown.modes.messages.MessageDF18.GetName message) ++
    t! "\n" ++
    t! "ControlField:            " ++
    (Shown.modes.fields.ControlField.ToString message.controlField) ++
    t! "\n" ++
    t! "AddressAnnounced:        " ++
    (Shown.modes.fields.AddressAnnounced.ToString message.addressAnnounced) ++
    t! "\n" ++
    t! "MessageExtendedSquitter: " ++
    (← Shown.modes.fields.MessageExtendedSquitter.ToString message.messageExtendedSquitter)

/-- pkg/modes/messages/df19.go:21-23 -/
def Shown.modes.messages.MessageDF19.GetName (message : MessageDF19) : List Char :=
  t! "Military extended squitter"

/-- pkg/modes/messages/df19.go:52-58 -/
def Shown.modes.messages.MessageDF19.ToString (message : MessageDF19) : List Char :=
  t! "Downlink format:         " ++
    decInt (Gen.modes.messages.MessageDF19.GetDownLinkFormat message) ++
    t! " - " ++
    (Shown.modes.messages.MessageDF19.GetName message) ++
    t! "\n" ++
    t! "ApplicationField:        " ++
    (Shown.modes.fields.ApplicationField.ToString message.applicationField)

/-- pkg/modes/messages/df20.go:26-28 -/
def Shown.modes.messages.MessageDF20.GetName (message : MessageDF20) : List Char :=
  t! "Comm-B altitude reply"

/-- pkg/modes/messages/df20.go:68-85 -/
def Shown.modes.messages.MessageDF20.ToString (message : MessageDF20) : Go (List Char) := do
  return t! "Downlink format:      " ++
    decInt (Gen.modes.messages.MessageDF20.GetDownLinkFormat message) ++
    t! " - " ++
    (Shown.modes.messages.MessageDF20.GetName message) ++
    t! "\n" ++
    t! "FlightStatus:         " ++
    (Shown.modes.fields.FlightStatus.ToString message.flightStatus) ++
    t! "\n" ++
    t! "DownlinkRequest:      " ++
    (Shown.modes.fields.DownlinkRequest.ToString message.downlinkRequest) ++
    t! "\n" ++
    t! "UtilityMessage:       " ++
    (Shown.modes.fields.UtilityMessage.ToString message.utilityMessage) ++
    t! "\n" ++
    t! "AltitudeReportMethod: " ++
    (Shown.modes.fields.AltitudeReportMethod.ToString message.altitudeReportMethod) ++
    t! "\n" ++
    t! "Altitude:             " ++
    decInt message.altitude ++
    t! "\n" ++
    t! "MessageCommB:         " ++
    (← Shown.modes.fields.MessageCommB.ToString message.messageCommB)

/-- pkg/modes/messages/df21.go:25-27 -/
def Shown.modes.messages.MessageDF21.GetName (message : MessageDF21) : List Char :=
  t! "Comm-B identify reply"

/-- pkg/modes/messages/df21.go:60-74 -/
def Shown.modes.messages.MessageDF21.ToString (message : MessageDF21) : Go (List Char) := do
  return t! "Downlink format:  " ++
    decInt (Gen.modes.messages.MessageDF21.GetDownLinkFormat message) ++
    t! " - " ++
    (Shown.modes.messages.MessageDF21.GetName message) ++
    t! "\n" ++
    t! "FlightStatus:     " ++
    (Shown.modes.fields.FlightStatus.ToString message.flightStatus) ++
    t! "\n" ++
    t! "DownlinkRequest:  " ++
    (Shown.modes.fields.DownlinkRequest.ToString message.downlinkRequest) ++
    t! "\n" ++
    t! "UtilityMessage:   " ++
    (Shown.modes.fields.UtilityMessage.ToString message.utilityMessage) ++
    t! "\n" ++
    t! "Identity:         " ++
    (Shown.modes.fields.Identity.ToString message.identity) ++
    t! "\n" ++
    t! "MessageCommB:     " ++
    (← Shown.modes.fields.MessageCommB.ToString message.messageCommB)

/-- pkg/modes/messages/df24.go:23-25 -/
def Shown.modes.messages.MessageDF24.GetName (message : MessageDF24) : List Char :=
  t! "Comm-D (ELM)"

/-- pkg/modes/messages/df24.go:56-66 -/
def Shown.modes.messages.MessageDF24.ToString (message : MessageDF24) : Go (List Char) := do
  return t! "Downlink format:  " ++
    decInt (Gen.modes.messages.MessageDF24.GetDownLinkFormat message) ++
    t! " - " ++
    (Shown.modes.messages.MessageDF24.GetName message) ++
    t! "\n" ++
    t! "ControlELM:       " ++
    (Shown.modes.fields.ControlELM.ToString message.controlELM) ++
    t! "\n" ++
    t! "NumberOfDSegment: " ++
    (Shown.modes.fields.NumberOfDSegment.ToString message.numberOfDSegment) ++
    t! "\n" ++
    t! "MessageCommD:     " ++
    (← Shown.modes.fields.MessageCommD.ToString message.messageCommD)

/-- pkg/modes/messages/df4.go:25-27 -/
def Shown.modes.messages.MessageDF4.GetName (message : MessageDF4) : List Char :=
  t! "Surveillance, altitude reply"

/-- pkg/modes/messages/df4.go:66-81 -/
def Shown.modes.messages.MessageDF4.ToString (message : MessageDF4) : List Char :=
  t! "Downlink format:      " ++
    decInt (Gen.modes.messages.MessageDF4.GetDownLinkFormat message) ++
    t! " - " ++
    (Shown.modes.messages.MessageDF4.GetName message) ++
    t! "\n" ++
    t! "FlightStatus:         " ++
    (Shown.modes.fields.FlightStatus.ToString message.flightStatus) ++
    t! "\n" ++
    t! "DownlinkRequest:      " ++
    (Shown.modes.fields.DownlinkRequest.ToString message.downlinkRequest) ++
    t! "\n" ++
    t! "UtilityMessage:       " ++
    (Shown.modes.fields.UtilityMessage.ToString message.utilityMessage) ++
    t! "\n" ++
    t! "AltitudeReportMethod: " ++
    (Shown.modes.fields.AltitudeReportMethod.ToString message.altitudeReportMethod) ++
    t! "\n" ++
    t! "Altitude:             " ++
    decInt message.altitude

/-- pkg/modes/messages/df5.go:24-26 -/
def Shown.modes.messages.MessageDF5.GetName (message : MessageDF5) : List Char :=
  t! "Surveillance, identify reply"

/-- pkg/modes/messages/df5.go:58-70 -/
def Shown.modes.messages.MessageDF5.ToString (message : MessageDF5) : List Char :=
  t! "Downlink format:  " ++
    decInt (Gen.modes.messages.MessageDF5.GetDownLinkFormat message) ++
    t! " - " ++
    (Shown.modes.messages.MessageDF5.GetName message) ++
    t! "\n" ++
    t! "FlightStatus:     " ++
    (Shown.modes.fields.FlightStatus.ToString message.flightStatus) ++
    t! "\n" ++
    t! "DownlinkRequest:  " ++
    (Shown.modes.fields.DownlinkRequest.ToString message.downlinkRequest) ++
    t! "\n" ++
    t! "UtilityMessage:   " ++
    (Shown.modes.fields.UtilityMessage.ToString message.utilityMessage) ++
    t! "\n" ++
    t! "Identity:         " ++
    (Shown.modes.fields.Identity.ToString message.identity)

/-- The method ToString called through the interface pkg/bds/bds44.MeteorologicalRoutineAirReport; its implementations are in pkg/bds/bds44/meteorological_routine_air_report_v0.go, pkg/bds/bds44/meteorological_routine_air_report_v1.go, pkg/bds/bds44/meteorological_routine_air_report_v2.go. -/
def Shown.bds.bds44.MeteorologicalRoutineAirReport.ToString (F : FloatTexts) : RoutineAirReport → List Char
  | .v0 x => Shown.bds.bds44.MeteorologicalRoutineAirReportV0.ToString F x
  | .v1 x => Shown.bds.bds44.MeteorologicalRoutineAirReportV1.ToString F x
  | .v2 x => Shown.bds.bds44.MeteorologicalRoutineAirReportV2.ToString F x

/-- The method ToString called through the interface pkg/bds/bds45.MeteorologicalHazardReport; its implementations are in pkg/bds/bds45/meteorological_hazard_report_v0.go, pkg/bds/bds45/meteorological_hazard_report_v1.go. -/
def Shown.bds.bds45.MeteorologicalHazardReport.ToString (F : FloatTexts) : HazardReport → List Char
  | .v0 x => Shown.bds.bds45.MeteorologicalHazardReportV0.ToString F x
  | .v1 x => Shown.bds.bds45.MeteorologicalHazardReportV1.ToString F x

/-- The method ToString called through the interface pkg/bds.Message. -/
def Shown.bds.Message.ToString (F : FloatTexts) : CommBMessage → List Char
  | .bds00 x => Shown.bds.bds00.NoMessageAvailable.ToString x
  | .bds07 x => Shown.bds.bds07.Status.ToString x
  | .bds20 x => Shown.bds.bds20.AircraftIdentification.ToString x
  | .bds10 x => Shown.bds.bds10.DataLinkCapabilityReport.ToString x
  | .bds17 x => Shown.bds.bds17.CommonUsageGICBCapabilityReport.ToString x
  | .bds30 x => Shown.bds.bds30.ACASResolutionAdvisory.ToString F x
  | .bds40 x => Shown.bds.bds40.SelectedVerticalIntention.ToString F x
  | .bds44 x => Shown.bds.bds44.MeteorologicalRoutineAirReport.ToString F x
  | .bds45 x => Shown.bds.bds45.MeteorologicalHazardReport.ToString F x
  | .bds50 x => Shown.bds.bds50.TrackAndTurnReport.ToString F x
  | .bds60 x => Shown.bds.bds60.HeadingAndTrackReport.ToString F x

/-- The method ToString called through the interface pkg/modes/messages.ModeSMessage. -/
def Shown.modes.messages.ModeSMessage.ToString : ModeSMessage → Go (List Char)
  | .df0 x => pure (Shown.modes.messages.MessageDF0.ToString x)
  | .df4 x => pure (Shown.modes.messages.MessageDF4.ToString x)
  | .df5 x => pure (Shown.modes.messages.MessageDF5.ToString x)
  | .df11 x => pure (Shown.modes.messages.MessageDF11.ToString x)
  | .df16 x => pure (Shown.modes.messages.MessageDF16.ToString x)
  | .df17 x => Shown.modes.messages.MessageDF17.ToString x
  | .df18 x => Shown.modes.messages.MessageDF18.ToString x
  | .df19 x => pure (Shown.modes.messages.MessageDF19.ToString x)
  | .df20 x => Shown.modes.messages.MessageDF20.ToString x
  | .df21 x => Shown.modes.messages.MessageDF21.ToString x
  | .df24 x => Shown.modes.messages.MessageDF24.ToString x

/-- The method GetName called through the interface pkg/modes/messages.ModeSMessage. -/
def Shown.modes.messages.ModeSMessage.GetName : ModeSMessage → List Char
  | .df0 x => Shown.modes.messages.MessageDF0.GetName x
  | .df4 x => Shown.modes.messages.MessageDF4.GetName x
  | .df5 x => Shown.modes.messages.MessageDF5.GetName x
  | .df11 x => Shown.modes.messages.MessageDF11.GetName x
  | .df16 x => Shown.modes.messages.MessageDF16.GetName x
  | .df17 x => Shown.modes.messages.MessageDF17.GetName x
  | .df18 x => Shown.modes.messages.MessageDF18.GetName x
  | .df19 x => Shown.modes.messages.MessageDF19.GetName x
  | .df20 x => Shown.modes.messages.MessageDF20.GetName x
  | .df21 x => Shown.modes.messages.MessageDF21.GetName x
  | .df24 x => Shown.modes.messages.MessageDF24.GetName x

/-- The method ToString called through the interface pkg/adsb.Message. -/
def Shown.adsb.Message.ToString (F : FloatTexts) : ADSBMessage → List Char
  | .noPosition x0 x1 x2 x3 => Shown.adsb.no_position_information.NoPositionInformation.ToString x0 x1 x2 x3
  | .airborneType0 x0 x1 x2 => Shown.adsb.airborne_position.AirbornePositionType0.ToString x0 x1 x2
  | .airborneV0 x0 x1 x2 => Shown.adsb.airborne_position.AirbornePositionV0.ToString x0 x1 x2
  | .airborneV1 x0 x1 x2 x3 => Shown.adsb.airborne_position.AirbornePositionV1.ToString x0 x1 x2 x3
  | .airborneV2 x0 x1 x2 x3 x4 => Shown.adsb.airborne_position.AirbornePositionV2.ToString x0 x1 x2 x3 x4
  | .surfaceV0 x0 x1 x2 => Shown.adsb.surface_position.SurfacePositionV0.ToString F x0 x1 x2
  | .surfaceV1 x0 x1 x2 x3 => Shown.adsb.surface_position.SurfacePositionV1.ToString F x0 x1 x2 x3
  | .surfaceV2 x0 x1 x2 x3 x4 => Shown.adsb.surface_position.SurfacePositionV2.ToString F x0 x1 x2 x3 x4
  | .velocity x0 x1 => Shown.adsb.airborne_velocity.AirborneVelocity.ToString F x0 x1
  | .identification x0 x1 => Shown.adsb.aircraft_identification_and_category.AircraftIdentificationAndCategory.ToString x0 x1
  | .status x0 x1 => Shown.adsb.aircraft_status.AircraftStatus.ToString F x0 x1
  | .targetState x0 x1 => Shown.adsb.target_state_and_status.TargetStateAndStatus.ToString F x0 x1
  | .operationalStatus x0 x1 => Shown.adsb.aircraft_operational_status.AircraftOperationalStatus.ToString x0 x1

end

end Modes
