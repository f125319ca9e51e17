import Verif.Props.TextShowsCapability
/-!
# C77, continued: the text of the operational status
-/
set_option linter.unusedVariables false
namespace Spec
open Modes

/-- The printed values, code by code. -/
def operationalCapabilityNames : List (List Char) :=
  [t! "0 - reserved",
   t! "1 - reserved",
   t! "2 - reserved",
   t! "3 - reserved",
   t! "4 - reserved",
   t! "5 - reserved",
   t! "6 - reserved",
   t! "7 - reserved",
   t! "8 - reserved",
   t! "9 - reserved",
   t! "10 - reserved",
   t! "11 - reserved",
   t! "12 - reserved",
   t! "13 - reserved",
   t! "14 - reserved",
   t! "15 - reserved"]

/-- The printed values, code by code. -/
def subtypeNames : List (List Char) :=
  [t! "0 - Airborne Status Message",
   t! "1 - Surface Status Message"]

/-- The printed values, code by code. -/
def notACASStatusNames : List (List Char) :=
  [t! "0 - ACAS operational or unknown",
   t! "1 - ACAS not installed or not operational"]

/-- The printed values, code by code. -/
def cockpitDisplayOfTrafficInformationStatusNames : List (List Char) :=
  [t! "0 - Traffic display not operational",
   t! "1 - Traffic display operational"]

/-- The printed values, code by code. -/
def airReferencedVelocityReportCapabilityNames : List (List Char) :=
  [t! "0 - No capability for sending messages to support Air-Referenced Velocity Reports",
   t! "1 - Capability of sending messages to support Air-Referenced Velocity Reports"]

/-- The printed values, code by code. -/
def targetStateReportCapabilityNames : List (List Char) :=
  [t! "0 - No capability for sending messages to support Target State Reports",
   t! "1 - Capability of sending messages to support Target State Reports"]

/-- The printed values, code by code. -/
def targetChangeReportCapabilityNames : List (List Char) :=
  [t! "0 - No capability for sending messages to support Trajectory Change Reports",
   t! "1 - Capability of sending messages to support TC+0 Report only",
   t! "2 - Capability of sending information for multiple TC Reports",
   t! "3 - Reserved"]

/-- The printed values, code by code. -/
def acaSResolutionAdvisoryActiveV1Names : List (List Char) :=
  [t! "0 - ACAS II or ACAS RA not active",
   t! "1 - ACAS RA is active"]

/-- The printed values, code by code. -/
def identSwitchActiveNames : List (List Char) :=
  [t! "0 - Ident switch not active",
   t! "1 - Ident switch active - retained for 18 +/-1 seconds"]

/-- The printed values, code by code. -/
def receivingATCServicesNames : List (List Char) :=
  [t! "0 - Aircraft not receiving ATC services",
   t! "1 - Aircraft receiving ATC services"]

/-- The printed values, code by code. -/
def versionNumberNames : List (List Char) :=
  [t! "0 - ADSB V0: Conformant to Doc 9871, Appendix A",
   t! "1 - ADSB V1: Conformant to Doc 9871, Appendix B",
   t! "2 - ADSB V2: Conformant to Doc 9871, Appendix C"]

/-- The printed values, code by code. -/
def nicSupplementANames : List (List Char) :=
  [t! "0",
   t! "1"]

/-- The printed values, code by code. -/
def navigationalAccuracyCategoryPositionV1Names : List (List Char) :=
  [t! "0 - EPU >= 18.52 km (10 NM) - Unknown accuracy",
   t! "1 - EPU < 18.52 km (10 NM) - RNP-10 accuracy",
   t! "2 - EPU < 7.408 km (4 NM) - RNP-4 accuracy",
   t! "3 - EPU < 3.704 km (2 NM) - RNP-2 accuracy",
   t! "4 - EPU < 1 852 m (1 NM) - RNP-1 accuracy",
   t! "5 - EPU < 926 m (0.5 NM) - RNP-0.5 accuracy",
   t! "6 - EPU < 555.6 m ( 0.3 NM) - RNP-0.3 accuracy",
   t! "7 - EPU < 185.2 m (0.1 NM) - RNP-0.1 accuracy",
   t! "8 - EPU < 92.6 m (0.05 NM) - e.g. GPS (with SA)",
   t! "9 - EPU < 30 m and VEPU < 45 m - e.g. GPS (SA off)",
   t! "10 - EPU < 10 m and VEPU < 15 m - e.g. WAAS",
   t! "11 - EPU < 3 m and VEPU < 4 m - e.g. LAAS",
   t! "12 - Reserved",
   t! "13 - Reserved",
   t! "14 - Reserved",
   t! "15 - Reserved"]

/-- The printed values, code by code. -/
def nicBaroNames : List (List Char) :=
  [t! "0 - barometric altitude based on a Gilham input that has not been cross-checked",
   t! "1 - barometric altitude based on a Gilham input that has been cross-checked or on a non Gilham input"]

/-- The printed values, code by code. -/
def horizontalReferenceDirectionNames : List (List Char) :=
  [t! "0 - true north",
   t! "1 - magnetic north"]

/-- The printed values, code by code. -/
def acaSOperationalNames : List (List Char) :=
  [t! "0 - TCAS/ACAS is NOT Operational",
   t! "1 - TCAS/ACAS IS Operational"]

/-- The printed values, code by code. -/
def extendedSquitterInNames : List (List Char) :=
  [t! "0 - Aircraft has NO 1090ES Receive capability",
   t! "1 - Aircraft has 1090ES Receive capability"]

/-- The printed values, code by code. -/
def universalAccessTransceiverCapabilityNames : List (List Char) :=
  [t! "0 - Aircraft has No UAT Receive capability",
   t! "1 - Aircraft has UAT Receive capability"]

/-- The printed values, code by code. -/
def acaSResolutionAdvisoryActiveV2Names : List (List Char) :=
  [t! "0 - TCAS II or ACAS RA not active",
   t! "1 - TCAS/ACAS RA is active"]

/-- The printed values, code by code. -/
def singleAntennaFlagNames : List (List Char) :=
  [t! "0 - Systems with two functioning antennas",
   t! "1 - Systems that use only one antenna"]

/-- The printed values, code by code. -/
def systemDesignAssuranceNames : List (List Char) :=
  [t! "0 - Not Applicable",
   t! "1 - Level D",
   t! "2 - Level C",
   t! "3 - Level B"]

/-- The printed values, code by code. -/
def navigationalAccuracyCategoryPositionV2Names : List (List Char) :=
  [t! "0 - EPU >= 18.52 km (10 NM) - Unknown accuracy",
   t! "1 - EPU < 18.52 km (10 NM) - RNP-10 accuracy",
   t! "2 - EPU < 7.408 km (4 NM) - RNP-4 accuracy",
   t! "3 - EPU < 3.704 km (2 NM) - RNP-2 accuracy",
   t! "4 - EPU < 1 852 m (1 NM) - RNP-1 accuracy",
   t! "5 - EPU < 926 m (0.5 NM) - RNP-0.5 accuracy",
   t! "6 - EPU < 555.6 m ( 0.3 NM) - RNP-0.3 accuracy",
   t! "7 - EPU < 185.2 m (0.1 NM) - RNP-0.1 accuracy",
   t! "8 - EPU < 92.6 m (0.05 NM) - e.g. GPS (with SA)",
   t! "9 - EPU < 30 m - e.g. GPS (SA off)",
   t! "10 - EPU < 10 m - e.g. WAAS",
   t! "11 - EPU < 3 m - e.g. LAAS",
   t! "12 - Reserved",
   t! "13 - Reserved",
   t! "14 - Reserved",
   t! "15 - Reserved"]

/-- The printed values, code by code. -/
def sourceIntegrityLevelNames : List (List Char) :=
  [t! "0 - Unknown or SIL > 1 * 10^-3 per flight hour or per sample",
   t! "1 - SIL <= 1 * 10^-3 per flight hour or per sample",
   t! "2 - SIL <= 1 * 10^-5 per flight hour or per sample",
   t! "3 - SIL <= 1 * 10^-7 per flight hour or per sample"]

/-- The printed values, code by code. -/
def sourceIntegrityLevelSupplementNames : List (List Char) :=
  [t! "0 - Probability of exceeding NIC radius of containment is based on \"per hour\"",
   t! "1 - Probability of exceeding NIC radius of containment is based on \"per sample\""]

/-- The printed values, code by code. -/
def positionOffsetAppliedNames : List (List Char) :=
  [t! "0 - Position transmitted is not the ADS-B position reference point",
   t! "1 - Position transmitted is the ADS-B position reference point"]

/-- The printed values, code by code. -/
def b2LowNames : List (List Char) :=
  [t! "0 - Greater than or equal to 70 Watts transmit power",
   t! "1 - Less than 70 Watts transmit power"]

/-- The printed values, code by code. -/
def lengthWidthNames : List (List Char) :=
  [t! "0 - Length lower than 15 meters and Width lower than 11.5 meters",
   t! "1 - Length lower than 15 meters and Width lower than 23 meters",
   t! "2 - Length lower than 25 meters and Width lower than 28.5 meters",
   t! "3 - Length lower than 25 meters and Width lower than 34 meters",
   t! "4 - Length lower than 35 meters and Width lower than 33 meters",
   t! "5 - Length lower than 35 meters and Width lower than 38 meters",
   t! "6 - Length lower than 45 meters and Width lower than 39.5 meters",
   t! "7 - Length lower than 45 meters and Width lower than 45 meters",
   t! "8 - Length lower than 55 meters and Width lower than 45 meters",
   t! "9 - Length lower than 55 meters and Width lower than 52 meters",
   t! "10 - Length lower than 65 meters and Width lower than 59 meters",
   t! "11 - Length lower than 65 meters and Width lower than 67 meters",
   t! "12 - Length lower than 75 meters and Width lower than 72.5 meters",
   t! "13 - Length lower than 75 meters and Width lower than 80 meters",
   t! "14 - Length lower than 85 meters and Width lower than 80 meters",
   t! "15 - Length lower than 85 meters and Width lower than 90 meters"]

/-- The printed values, code by code. -/
def trackAngleHeadingNames : List (List Char) :=
  [t! "0 - Target heading angle is being reported",
   t! "1 - Track angle is being reported"]

/-- The printed values, code by code. -/
def nicSupplementCNames : List (List Char) :=
  [t! "0",
   t! "1"]

/-- The printed values, code by code. -/
def gpsAntennaLateralNames : List (List Char) :=
  [t! "0 - no data",
   t! "1 - direction left, 2 meters",
   t! "2 - direction left, 4 meters",
   t! "3 - direction left, 6 meters",
   t! "4 - direction right, 0 meter",
   t! "5 - direction right, 2 meters",
   t! "6 - direction right, 4 meters",
   t! "7 - direction right, 6 meters"]

/-- The printed values, code by code. -/
def gpsAntennaLongitudinalNames : List (List Char) :=
  [t! "0 - no data",
   t! "1 - Antenna Offset is compensated by the Sensor",
   t! "2 - 2",
   t! "3 - 4",
   t! "4 - 6",
   t! "5 - 8",
   t! "6 - 10",
   t! "7 - 12",
   t! "8 - 14",
   t! "9 - 16",
   t! "10 - 18",
   t! "11 - 20",
   t! "12 - 22",
   t! "13 - 24",
   t! "14 - 26",
   t! "15 - 28",
   t! "16 - 30",
   t! "17 - 32",
   t! "18 - 34",
   t! "19 - 36",
   t! "20 - 38",
   t! "21 - 40",
   t! "22 - 42",
   t! "23 - 44",
   t! "24 - 46",
   t! "25 - 48",
   t! "26 - 50",
   t! "27 - 52",
   t! "28 - 54",
   t! "29 - 56",
   t! "30 - 58",
   t! "31 - 60"]

/-- The printed containment probabilities of a surveillance integrity level. -/
def horizontalSILNames : List (List Char) :=
  [t! "Unknown", t! "<= 1 * 10^-3 per flight hour or per sample", t! "<= 1 * 10^-5 per flight hour or per sample",
   t! "<= 1 * 10^-7 per flight hour or per sample"]

/-- The printed containment probabilities of a surveillance integrity level. -/
def verticalSILNames : List (List Char) :=
  [t! "Unknown", t! "<= 1 * 10^-3 per flight hour or per sample", t! "<= 1 * 10^-5 per flight hour or per sample",
   t! "<= 2 * 10^-7 per 150 seconds or per sample"]

end Spec
namespace Modes
open Spec

theorem names_code (names : List (List Char)) (f : UInt8 → Txt) (hf : ∀ n < names.length, names[n]? = some (f (UInt8.ofNat n)))
    (text label : List Char) (x : UInt8) (n : Nat) (hn : n < names.length) (h : x.toNat = n) (hs : ShowsLine text label (f x)) :
    ShowsName text label names n :=
  ⟨f x, by rw [hf n hn, ← h, UInt8.ofNat_toNat], hs⟩

theorem operational_of (v : UInt8) (a c : Bool) (d : List UInt8) (m : ADSBMessage) (h : readADSBMessage v a c d = .returns (.val m) false)
    (htc : bits d 1 5 = 31) : ∃ p x, m = .operationalStatus p x ∧ readBDS65 d = .ok p := by
  obtain ⟨-, hc⟩ := adsb_dispatch v a c d m false h
  cases m with
  | operationalStatus p x => exact ⟨p, x, rfl, hc.2.2⟩
  | surfaceV0 => have := hc.1; unfold SurfaceTC at this; omega
  | surfaceV1 => have := hc.1; unfold SurfaceTC at this; omega
  | surfaceV2 => have := hc.1; unfold SurfaceTC at this; omega
  | airborneV0 => have := hc.1; unfold AirborneTC at this; omega
  | airborneV1 => have := hc.1; unfold AirborneTC at this; omega
  | airborneV2 => have := hc.1; unfold AirborneTC at this; omega
  | identification => have := hc.2.1; omega
  | _ => have := hc.1; omega

/-- C77. The text of a version 0 operational status shows the eight codes of its capabilities, each the code of its documented bits. -/
theorem operationalV0_text (F : FloatTexts) (hF : F.Faithful) (v : UInt8) (a c : Bool) (d : List UInt8) (m : ADSBMessage)
    (h : readADSBMessage v a c d = .returns (.val m) false) (htc : bits d 1 5 = 31) (hk : bits d 6 8 = 0 ∧ bits d 41 43 = 0) :
    let t := m.text F
    ShowsName t (t! "En Route Operational Capabilities:              ") operationalCapabilityNames (bits d 9 12) ∧
    ShowsName t (t! "En Route Operational Capability Status:         ") operationalCapabilityNames (bits d 25 28) ∧
    ShowsName t (t! "Terminal Area Operational Capabilities:         ") operationalCapabilityNames (bits d 13 16) ∧
    ShowsName t (t! "Terminal Area Operational Capability Status:    ") operationalCapabilityNames (bits d 29 32) ∧
    ShowsName t (t! "Approach/Landing Operational Capabilities:      ") operationalCapabilityNames (bits d 17 20) ∧
    ShowsName t (t! "Approach/Landing Operational Capability Status: ") operationalCapabilityNames (bits d 33 36) ∧
    ShowsName t (t! "SubtypeSurface Operational Capabilities:               ") operationalCapabilityNames (bits d 21 24) ∧
    ShowsName t (t! "SubtypeSurface Operational Capability Status:          ") operationalCapabilityNames (bits d 37 40) := by
  have hs := adsb_splitOn F hF v a c d m h
  obtain ⟨p, x, rfl, hp⟩ := operational_of v a c d m h htc
  obtain ⟨-, hc⟩ := operational_status_content d p hp
  intro t
  cases p with
  | v0 p =>
    obtain ⟨h41, h6, hl⟩ := hc
    have hs' : t.splitOn '\n' = p.lines.map cat := hs
    have l0 := names_code operationalCapabilityNames Text.bds65EnRouteOperationalCapabilities (by decide +kernel) t (t! "En Route Operational Capabilities:              ") p.enRouteOperationalCapabilities _ (bits_lt d 9 12 4 rfl) hl.enRouteOperationalCapabilities (by unfold ShowsLine; rw [hs']; rfl)
    have l1 := names_code operationalCapabilityNames Text.bds65EnRouteOperationalCapabilityStatus (by decide +kernel) t (t! "En Route Operational Capability Status:         ") p.enRouteOperationalCapabilityStatus _ (bits_lt d 25 28 4 rfl) hl.enRouteOperationalCapabilityStatus (by unfold ShowsLine; rw [hs']; rfl)
    have l2 := names_code operationalCapabilityNames Text.bds65TerminalAreaOperationalCapabilities (by decide +kernel) t (t! "Terminal Area Operational Capabilities:         ") p.terminalAreaOperationalCapabilities _ (bits_lt d 13 16 4 rfl) hl.terminalAreaOperationalCapabilities (by unfold ShowsLine; rw [hs']; rfl)
    have l3 := names_code operationalCapabilityNames Text.bds65TerminalAreaOperationalCapabilityStatus (by decide +kernel) t (t! "Terminal Area Operational Capability Status:    ") p.terminalAreaOperationalCapabilityStatus _ (bits_lt d 29 32 4 rfl) hl.terminalAreaOperationalCapabilityStatus (by unfold ShowsLine; rw [hs']; rfl)
    have l4 := names_code operationalCapabilityNames Text.bds65ApproachLandingOperationalCapabilities (by decide +kernel) t (t! "Approach/Landing Operational Capabilities:      ") p.approachLandingOperationalCapabilities _ (bits_lt d 17 20 4 rfl) hl.approachLandingOperationalCapabilities (by unfold ShowsLine; rw [hs']; rfl)
    have l5 := names_code operationalCapabilityNames Text.bds65ApproachLandingOperationalCapabilityStatus (by decide +kernel) t (t! "Approach/Landing Operational Capability Status: ") p.approachLandingOperationalCapabilityStatus _ (bits_lt d 33 36 4 rfl) hl.approachLandingOperationalCapabilityStatus (by unfold ShowsLine; rw [hs']; rfl)
    have l6 := names_code operationalCapabilityNames Text.bds65SurfaceOperationalCapabilities (by decide +kernel) t (t! "SubtypeSurface Operational Capabilities:               ") p.surfaceOperationalCapabilities _ (bits_lt d 21 24 4 rfl) hl.surfaceOperationalCapabilities (by unfold ShowsLine; rw [hs']; rfl)
    have l7 := names_code operationalCapabilityNames Text.bds65SurfaceOperationalCapabilityStatus (by decide +kernel) t (t! "SubtypeSurface Operational Capability Status:          ") p.surfaceOperationalCapabilityStatus _ (bits_lt d 37 40 4 rfl) hl.surfaceOperationalCapabilityStatus (by unfold ShowsLine; rw [hs']; rfl)
    exact ⟨l0, l1, l2, l3, l4, l5, l6, l7⟩
  | _ => have := hc.1; have := hc.2.1; omega

/-- C77. The text of a version 1 airborne operational status shows the name of the code of each documented field. -/
theorem operationalAirborneV1_text (F : FloatTexts) (hF : F.Faithful) (v : UInt8) (a c : Bool) (d : List UInt8) (m : ADSBMessage)
    (h : readADSBMessage v a c d = .returns (.val m) false) (htc : bits d 1 5 = 31) (hk : bits d 6 8 = 0 ∧ bits d 41 43 = 1) :
    let t := m.text F
    ShowsName t (t! "Subtype:                                 ") subtypeNames (bits d 6 8) ∧
    ShowsName t (t! "    Not ACAS Status:                               ") notACASStatusNames (bits d 11 11) ∧
    ShowsName t (t! "    Cockpit Display Of Traffic Information Status: ") cockpitDisplayOfTrafficInformationStatusNames (bits d 12 12) ∧
    ShowsName t (t! "    Air Referenced Velocity Report Capability:     ") airReferencedVelocityReportCapabilityNames (bits d 15 15) ∧
    ShowsName t (t! "    Target State Report Capability:                ") targetStateReportCapabilityNames (bits d 16 16) ∧
    ShowsName t (t! "    Target Change Report Capability:               ") targetChangeReportCapabilityNames (bits d 17 18) ∧
    ShowsName t (t! "    ACAS Resolution Advisory Active: ") acaSResolutionAdvisoryActiveV1Names (bits d 27 27) ∧
    ShowsName t (t! "    Ident Switch Active:             ") identSwitchActiveNames (bits d 28 28) ∧
    ShowsName t (t! "    Receiving ATC Services:          ") receivingATCServicesNames (bits d 29 29) ∧
    ShowsName t (t! "ADSB Version Number:                     ") versionNumberNames (bits d 41 43) ∧
    ShowsName t (t! "NIC Supplement:                          ") nicSupplementANames (bits d 44 44) ∧
    ShowsName t (t! "Navigational Accuracy Category Position: ") navigationalAccuracyCategoryPositionV1Names (bits d 45 48) ∧
    ShowsName t (t! "NIC Baro:                                ") nicBaroNames (bits d 53 53) ∧
    ShowsName t (t! "Horizontal Reference Direction:          ") horizontalReferenceDirectionNames (bits d 54 54) ∧
    ShowsName t (t! "    Probability of exceeding the Horizontal Containment Radius reported in the NIC Subfield without an indication: ") horizontalSILNames (bits d 51 52) ∧
    ShowsName t (t! "    Probability of exceeding the Vertical Integrity Containment Region (VPL) without an indication:                ") verticalSILNames (bits d 51 52) := by
  have hs := adsb_splitOn F hF v a c d m h
  obtain ⟨p, x, rfl, hp⟩ := operational_of v a c d m h htc
  obtain ⟨-, hc⟩ := operational_status_content d p hp
  intro t
  cases p with
  | airborneV1 p =>
    obtain ⟨h41, h6, hl⟩ := hc
    have hs' : t.splitOn '\n' = p.lines.map cat := hs
    have q : p.surveillanceIntegrityLevel = 0 ∨ p.surveillanceIntegrityLevel = 1 ∨ p.surveillanceIntegrityLevel = 2 ∨
        p.surveillanceIntegrityLevel = 3 := by
      have := bits_lt d 51 52 2 rfl
      have := hl.surveillanceIntegrityLevel
      simp only [← UInt8.toNat_inj, UInt8.reduceToNat]
      omega
    have l0 := names_code subtypeNames Text.bds65Subtype (by decide +kernel) t (t! "Subtype:                                 ") p.subtype _ (by show _ < 2; omega) hl.subtype (by unfold ShowsLine; rw [hs']; unfold OpStatusAirborneV1.lines; rcases q with q | q | q | q <;> rw [q] <;> rfl)
    have l1 := names_code notACASStatusNames Text.bds65NotACASStatus (by decide +kernel) t (t! "    Not ACAS Status:                               ") p.airborneCapabilityClass.notACASStatus _ (bits_lt d 11 11 1 rfl) hl.airborneCapabilityClass_notACASStatus (by unfold ShowsLine; rw [hs']; unfold OpStatusAirborneV1.lines; rcases q with q | q | q | q <;> rw [q] <;> rfl)
    have l2 := names_code cockpitDisplayOfTrafficInformationStatusNames Text.bds65CockpitDisplayOfTrafficInformationStatus (by decide +kernel) t (t! "    Cockpit Display Of Traffic Information Status: ") p.airborneCapabilityClass.cockpitDisplayOfTrafficInformationStatus _ (bits_lt d 12 12 1 rfl) hl.airborneCapabilityClass_cockpitDisplayOfTrafficInformationStatus (by unfold ShowsLine; rw [hs']; unfold OpStatusAirborneV1.lines; rcases q with q | q | q | q <;> rw [q] <;> rfl)
    have l3 := names_code airReferencedVelocityReportCapabilityNames Text.bds65AirReferencedVelocityReportCapability (by decide +kernel) t (t! "    Air Referenced Velocity Report Capability:     ") p.airborneCapabilityClass.airReferencedVelocityReportCapability _ (bits_lt d 15 15 1 rfl) hl.airborneCapabilityClass_airReferencedVelocityReportCapability (by unfold ShowsLine; rw [hs']; unfold OpStatusAirborneV1.lines; rcases q with q | q | q | q <;> rw [q] <;> rfl)
    have l4 := names_code targetStateReportCapabilityNames Text.bds65TargetStateReportCapability (by decide +kernel) t (t! "    Target State Report Capability:                ") p.airborneCapabilityClass.targetStateReportCapability _ (bits_lt d 16 16 1 rfl) hl.airborneCapabilityClass_targetStateReportCapability (by unfold ShowsLine; rw [hs']; unfold OpStatusAirborneV1.lines; rcases q with q | q | q | q <;> rw [q] <;> rfl)
    have l5 := names_code targetChangeReportCapabilityNames Text.bds65TargetChangeReportCapability (by decide +kernel) t (t! "    Target Change Report Capability:               ") p.airborneCapabilityClass.targetChangeReportCapability _ (bits_lt d 17 18 2 rfl) hl.airborneCapabilityClass_targetChangeReportCapability (by unfold ShowsLine; rw [hs']; unfold OpStatusAirborneV1.lines; rcases q with q | q | q | q <;> rw [q] <;> rfl)
    have l6 := names_code acaSResolutionAdvisoryActiveV1Names Text.bds65ACASResolutionAdvisoryActiveV1 (by decide +kernel) t (t! "    ACAS Resolution Advisory Active: ") p.operationalMode.acasRAActive _ (bits_lt d 27 27 1 rfl) hl.operationalMode_acasRAActive (by unfold ShowsLine; rw [hs']; unfold OpStatusAirborneV1.lines; rcases q with q | q | q | q <;> rw [q] <;> rfl)
    have l7 := names_code identSwitchActiveNames Text.bds65IdentSwitchActive (by decide +kernel) t (t! "    Ident Switch Active:             ") p.operationalMode.identSwitchActive _ (bits_lt d 28 28 1 rfl) hl.operationalMode_identSwitchActive (by unfold ShowsLine; rw [hs']; unfold OpStatusAirborneV1.lines; rcases q with q | q | q | q <;> rw [q] <;> rfl)
    have l8 := names_code receivingATCServicesNames Text.bds65ReceivingATCServices (by decide +kernel) t (t! "    Receiving ATC Services:          ") p.operationalMode.receivingATCServices _ (bits_lt d 29 29 1 rfl) hl.operationalMode_receivingATCServices (by unfold ShowsLine; rw [hs']; unfold OpStatusAirborneV1.lines; rcases q with q | q | q | q <;> rw [q] <;> rfl)
    have l9 := names_code versionNumberNames versionNumberText (by decide +kernel) t (t! "ADSB Version Number:                     ") p.versionNumber _ (by show _ < 3; omega) hl.versionNumber (by unfold ShowsLine; rw [hs']; unfold OpStatusAirborneV1.lines; rcases q with q | q | q | q <;> rw [q] <;> rfl)
    have l10 := names_code nicSupplementANames Text.bds65NICSupplementA (by decide +kernel) t (t! "NIC Supplement:                          ") p.nicSupplement _ (bits_lt d 44 44 1 rfl) hl.nicSupplement (by unfold ShowsLine; rw [hs']; unfold OpStatusAirborneV1.lines; rcases q with q | q | q | q <;> rw [q] <;> rfl)
    have l11 := names_code navigationalAccuracyCategoryPositionV1Names Text.bds65NavigationalAccuracyCategoryPositionV1 (by decide +kernel) t (t! "Navigational Accuracy Category Position: ") p.navigationalAccuracyCategoryPosition _ (bits_lt d 45 48 4 rfl) hl.navigationalAccuracyCategoryPosition (by unfold ShowsLine; rw [hs']; unfold OpStatusAirborneV1.lines; rcases q with q | q | q | q <;> rw [q] <;> rfl)
    have l12 := names_code nicBaroNames Text.bds65NICBaro (by decide +kernel) t (t! "NIC Baro:                                ") p.nicBaro _ (bits_lt d 53 53 1 rfl) hl.nicBaro (by unfold ShowsLine; rw [hs']; unfold OpStatusAirborneV1.lines; rcases q with q | q | q | q <;> rw [q] <;> rfl)
    have l13 := names_code horizontalReferenceDirectionNames Text.bds65HorizontalReferenceDirection (by decide +kernel) t (t! "Horizontal Reference Direction:          ") p.horizontalReferenceDirection _ (bits_lt d 54 54 1 rfl) hl.horizontalReferenceDirection (by unfold ShowsLine; rw [hs']; unfold OpStatusAirborneV1.lines; rcases q with q | q | q | q <;> rw [q] <;> rfl)
    have lh : ShowsName t (t! "    Probability of exceeding the Horizontal Containment Radius reported in the NIC Subfield without an indication: ") horizontalSILNames (bits d 51 52) := by
      unfold ShowsName ShowsLine
      rw [hs', ← hl.surveillanceIntegrityLevel]
      unfold OpStatusAirborneV1.lines
      rcases q with q | q | q | q <;> rw [q] <;> exact ⟨_, rfl, rfl⟩
    have lv : ShowsName t (t! "    Probability of exceeding the Vertical Integrity Containment Region (VPL) without an indication:                ") verticalSILNames (bits d 51 52) := by
      unfold ShowsName ShowsLine
      rw [hs', ← hl.surveillanceIntegrityLevel]
      unfold OpStatusAirborneV1.lines
      rcases q with q | q | q | q <;> rw [q] <;> exact ⟨_, rfl, rfl⟩
    exact ⟨l0, l1, l2, l3, l4, l5, l6, l7, l8, l9, l10, l11, l12, l13, lh, lv⟩
  | _ => have := hc.1; have := hc.2.1; omega

/-- C77. The text of a version 2 airborne operational status shows the name of the code of each documented field, and the class of
its vertical accuracy, whose number is not shown (C73). -/
theorem operationalAirborneV2_text (F : FloatTexts) (hF : F.Faithful) (v : UInt8) (a c : Bool) (d : List UInt8) (m : ADSBMessage)
    (h : readADSBMessage v a c d = .returns (.val m) false) (htc : bits d 1 5 = 31) (hk : bits d 6 8 = 0 ∧ bits d 41 43 = 2) :
    let t := m.text F
    ShowsName t (t! "Subtype:                                 ") subtypeNames (bits d 6 8) ∧
    ShowsName t (t! "    ACAS Operational:                                ") acaSOperationalNames (bits d 11 11) ∧
    ShowsName t (t! "    1090ES IN (1090 MHz Extended Squitter):          ") extendedSquitterInNames (bits d 12 12) ∧
    ShowsName t (t! "    ARV (Air-Referenced Velocity Report Capability): ") airReferencedVelocityReportCapabilityNames (bits d 15 15) ∧
    ShowsName t (t! "    Target State Report Capability:                  ") targetStateReportCapabilityNames (bits d 16 16) ∧
    ShowsName t (t! "    Target Change Report Capability:                 ") targetChangeReportCapabilityNames (bits d 17 18) ∧
    ShowsName t (t! "    UAT IN (Universal Access Transceiver):           ") universalAccessTransceiverCapabilityNames (bits d 19 19) ∧
    ShowsName t (t! "    ACAS Resolution Advisory Active: ") acaSResolutionAdvisoryActiveV2Names (bits d 27 27) ∧
    ShowsName t (t! "    Ident Switch Active:             ") identSwitchActiveNames (bits d 28 28) ∧
    ShowsName t (t! "    Single Antenna Flag:             ") singleAntennaFlagNames (bits d 30 30) ∧
    ShowsName t (t! "    System Design Assurance:         ") systemDesignAssuranceNames (bits d 31 32) ∧
    ShowsName t (t! "ADSB Version Number:                     ") versionNumberNames (bits d 41 43) ∧
    ShowsName t (t! "NIC Supplement:                          ") nicSupplementANames (bits d 44 44) ∧
    ShowsName t (t! "Navigational Accuracy Category Position: ") navigationalAccuracyCategoryPositionV2Names (bits d 45 48) ∧
    ShowsName t (t! "Source Integrity ReaderLevel:            ") sourceIntegrityLevelNames (bits d 51 52) ∧
    ShowsName t (t! "Source Integrity ReaderLevel Supplement: ") sourceIntegrityLevelSupplementNames (bits d 55 55) ∧
    ShowsName t (t! "NIC Baro:                                ") nicBaroNames (bits d 53 53) ∧
    ShowsName t (t! "Horizontal Reference Direction:          ") horizontalReferenceDirectionNames (bits d 54 54) ∧
    (∃ name, [t! "0 - Unknown or GVA >= 150 meters", t! "0 - GVA <= 150 meters", t! "0 - GVA <= 45 meters", t! "0 - reserved"][bits d 49 50]? = some name ∧
      ShowsLine t (t! "Geometric Vertical Accuracy:             ") name) := by
  have hs := adsb_splitOn F hF v a c d m h
  obtain ⟨p, x, rfl, hp⟩ := operational_of v a c d m h htc
  obtain ⟨-, hc⟩ := operational_status_content d p hp
  intro t
  cases p with
  | airborneV2 p =>
    obtain ⟨h41, h6, hl⟩ := hc
    have hs' : t.splitOn '\n' = p.lines.map cat := hs
    have l0 := names_code subtypeNames Text.bds65Subtype (by decide +kernel) t (t! "Subtype:                                 ") p.subtype _ (by show _ < 2; omega) hl.subtype (by unfold ShowsLine; rw [hs']; rfl)
    have l1 := names_code acaSOperationalNames Text.bds65ACASOperational (by decide +kernel) t (t! "    ACAS Operational:                                ") p.airborneCapabilityClass.acasOperational _ (bits_lt d 11 11 1 rfl) hl.airborneCapabilityClass_acasOperational (by unfold ShowsLine; rw [hs']; rfl)
    have l2 := names_code extendedSquitterInNames Text.bds65ExtendedSquitterIn (by decide +kernel) t (t! "    1090ES IN (1090 MHz Extended Squitter):          ") p.airborneCapabilityClass.extendedSquitterIn _ (bits_lt d 12 12 1 rfl) hl.airborneCapabilityClass_extendedSquitterIn (by unfold ShowsLine; rw [hs']; rfl)
    have l3 := names_code airReferencedVelocityReportCapabilityNames Text.bds65AirReferencedVelocityReportCapability (by decide +kernel) t (t! "    ARV (Air-Referenced Velocity Report Capability): ") p.airborneCapabilityClass.airReferencedVelocityReportCapability _ (bits_lt d 15 15 1 rfl) hl.airborneCapabilityClass_airReferencedVelocityReportCapability (by unfold ShowsLine; rw [hs']; rfl)
    have l4 := names_code targetStateReportCapabilityNames Text.bds65TargetStateReportCapability (by decide +kernel) t (t! "    Target State Report Capability:                  ") p.airborneCapabilityClass.targetStateReportCapability _ (bits_lt d 16 16 1 rfl) hl.airborneCapabilityClass_targetStateReportCapability (by unfold ShowsLine; rw [hs']; rfl)
    have l5 := names_code targetChangeReportCapabilityNames Text.bds65TargetChangeReportCapability (by decide +kernel) t (t! "    Target Change Report Capability:                 ") p.airborneCapabilityClass.targetChangeReportCapability _ (bits_lt d 17 18 2 rfl) hl.airborneCapabilityClass_targetChangeReportCapability (by unfold ShowsLine; rw [hs']; rfl)
    have l6 := names_code universalAccessTransceiverCapabilityNames Text.bds65UniversalAccessTransceiverCapability (by decide +kernel) t (t! "    UAT IN (Universal Access Transceiver):           ") p.airborneCapabilityClass.uatCapability _ (bits_lt d 19 19 1 rfl) hl.airborneCapabilityClass_uatCapability (by unfold ShowsLine; rw [hs']; rfl)
    have l7 := names_code acaSResolutionAdvisoryActiveV2Names Text.bds65ACASResolutionAdvisoryActiveV2 (by decide +kernel) t (t! "    ACAS Resolution Advisory Active: ") p.operationalMode.acasRAActive _ (bits_lt d 27 27 1 rfl) hl.operationalMode_acasRAActive (by unfold ShowsLine; rw [hs']; rfl)
    have l8 := names_code identSwitchActiveNames Text.bds65IdentSwitchActive (by decide +kernel) t (t! "    Ident Switch Active:             ") p.operationalMode.identSwitchActive _ (bits_lt d 28 28 1 rfl) hl.operationalMode_identSwitchActive (by unfold ShowsLine; rw [hs']; rfl)
    have l9 := names_code singleAntennaFlagNames Text.bds65SingleAntennaFlag (by decide +kernel) t (t! "    Single Antenna Flag:             ") p.operationalMode.singleAntennaFlag _ (bits_lt d 30 30 1 rfl) hl.operationalMode_singleAntennaFlag (by unfold ShowsLine; rw [hs']; rfl)
    have l10 := names_code systemDesignAssuranceNames Text.bds65SystemDesignAssurance (by decide +kernel) t (t! "    System Design Assurance:         ") p.operationalMode.systemDesignAssurance _ (bits_lt d 31 32 2 rfl) hl.operationalMode_systemDesignAssurance (by unfold ShowsLine; rw [hs']; rfl)
    have l11 := names_code versionNumberNames versionNumberText (by decide +kernel) t (t! "ADSB Version Number:                     ") p.versionNumber _ (by show _ < 3; omega) hl.versionNumber (by unfold ShowsLine; rw [hs']; rfl)
    have l12 := names_code nicSupplementANames Text.bds65NICSupplementA (by decide +kernel) t (t! "NIC Supplement:                          ") p.nicSupplementA _ (bits_lt d 44 44 1 rfl) hl.nicSupplementA (by unfold ShowsLine; rw [hs']; rfl)
    have l13 := names_code navigationalAccuracyCategoryPositionV2Names Text.bds65NavigationalAccuracyCategoryPositionV2 (by decide +kernel) t (t! "Navigational Accuracy Category Position: ") p.navigationalAccuracyCategoryPosition _ (bits_lt d 45 48 4 rfl) hl.navigationalAccuracyCategoryPosition (by unfold ShowsLine; rw [hs']; rfl)
    have l14 := names_code sourceIntegrityLevelNames Text.bds65SourceIntegrityLevel (by decide +kernel) t (t! "Source Integrity ReaderLevel:            ") p.sourceIntegrityLevel _ (bits_lt d 51 52 2 rfl) hl.sourceIntegrityLevel (by unfold ShowsLine; rw [hs']; rfl)
    have l15 := names_code sourceIntegrityLevelSupplementNames Text.bds65SourceIntegrityLevelSupplement (by decide +kernel) t (t! "Source Integrity ReaderLevel Supplement: ") p.sourceIntegrityLevelSupplement _ (bits_lt d 55 55 1 rfl) hl.sourceIntegrityLevelSupplement (by unfold ShowsLine; rw [hs']; rfl)
    have l16 := names_code nicBaroNames Text.bds65NICBaro (by decide +kernel) t (t! "NIC Baro:                                ") p.nicBaro _ (bits_lt d 53 53 1 rfl) hl.nicBaro (by unfold ShowsLine; rw [hs']; rfl)
    have l17 := names_code horizontalReferenceDirectionNames Text.bds65HorizontalReferenceDirection (by decide +kernel) t (t! "Horizontal Reference Direction:          ") p.horizontalReferenceDirection _ (bits_lt d 54 54 1 rfl) hl.horizontalReferenceDirection (by unfold ShowsLine; rw [hs']; rfl)
    have lg := names_code [t! "0 - Unknown or GVA >= 150 meters", t! "0 - GVA <= 150 meters", t! "0 - GVA <= 45 meters", t! "0 - reserved"]
      Text.bds65GeometricVerticalAccuracy (by decide +kernel) t (t! "Geometric Vertical Accuracy:             ") p.geometricVerticalAccuracy _
      (bits_lt d 49 50 2 rfl) hl.geometricVerticalAccuracy (by unfold ShowsLine; rw [hs']; rfl)
    exact ⟨l0, l1, l2, l3, l4, l5, l6, l7, l8, l9, l10, l11, l12, l13, l14, l15, l16, l17, lg⟩
  | _ => have := hc.1; have := hc.2.1; omega

/-- C77. The text of a version 1 surface operational status shows the name of the code of each documented field. Missing: the track angle
or heading bit is shown under the label of another field (`operational_surface_text_refuted`). -/
theorem operationalSurfaceV1_text_partial (F : FloatTexts) (hF : F.Faithful) (v : UInt8) (a c : Bool) (d : List UInt8) (m : ADSBMessage)
    (h : readADSBMessage v a c d = .returns (.val m) false) (htc : bits d 1 5 = 31) (hk : bits d 6 8 = 1 ∧ bits d 41 43 = 1) :
    let t := m.text F
    ShowsName t (t! "Subtype:                                 ") subtypeNames (bits d 6 8) ∧
    ShowsName t (t! "    Position Offset Applied:                       ") positionOffsetAppliedNames (bits d 11 11) ∧
    ShowsName t (t! "    Cockpit Display Of Traffic Information Status: ") cockpitDisplayOfTrafficInformationStatusNames (bits d 12 12) ∧
    ShowsName t (t! "    B2Low:                                         ") b2LowNames (bits d 15 15) ∧
    ShowsName t (t! "Aircraft Length And Width                ") lengthWidthNames (bits d 21 24) ∧
    ShowsName t (t! "    ACAS Resolution Advisory Active: ") acaSResolutionAdvisoryActiveV1Names (bits d 27 27) ∧
    ShowsName t (t! "    Ident Switch Active:             ") identSwitchActiveNames (bits d 28 28) ∧
    ShowsName t (t! "    Receiving ATC Services:          ") receivingATCServicesNames (bits d 29 29) ∧
    ShowsName t (t! "ADSB Version Number:                     ") versionNumberNames (bits d 41 43) ∧
    ShowsName t (t! "NIC Supplement:                          ") nicSupplementANames (bits d 44 44) ∧
    ShowsName t (t! "Navigational Accuracy Category Position: ") navigationalAccuracyCategoryPositionV1Names (bits d 45 48) ∧
    ShowsName t (t! "Horizontal Reference Direction:          ") horizontalReferenceDirectionNames (bits d 54 54) ∧
    ShowsName t (t! "    Probability of exceeding the Horizontal Containment Radius reported in the NIC Subfield without an indication: ") horizontalSILNames (bits d 51 52) ∧
    ShowsName t (t! "    Probability of exceeding the Vertical Integrity Containment Region (VPL) without an indication:                ") verticalSILNames (bits d 51 52) := by
  have hs := adsb_splitOn F hF v a c d m h
  obtain ⟨p, x, rfl, hp⟩ := operational_of v a c d m h htc
  obtain ⟨-, hc⟩ := operational_status_content d p hp
  intro t
  cases p with
  | surfaceV1 p =>
    obtain ⟨h41, h6, hl⟩ := hc
    have hs' : t.splitOn '\n' = p.lines.map cat := hs
    have q : p.surveillanceIntegrityLevel = 0 ∨ p.surveillanceIntegrityLevel = 1 ∨ p.surveillanceIntegrityLevel = 2 ∨
        p.surveillanceIntegrityLevel = 3 := by
      have := bits_lt d 51 52 2 rfl
      have := hl.surveillanceIntegrityLevel
      simp only [← UInt8.toNat_inj, UInt8.reduceToNat]
      omega
    have l0 := names_code subtypeNames Text.bds65Subtype (by decide +kernel) t (t! "Subtype:                                 ") p.subtype _ (by show _ < 2; omega) hl.subtype (by unfold ShowsLine; rw [hs']; unfold OpStatusSurfaceV1.lines; rcases q with q | q | q | q <;> rw [q] <;> rfl)
    have l1 := names_code positionOffsetAppliedNames Text.bds65PositionOffsetApplied (by decide +kernel) t (t! "    Position Offset Applied:                       ") p.surfaceCapabilityClass.positionOffsetApplied _ (bits_lt d 11 11 1 rfl) hl.surfaceCapabilityClass_positionOffsetApplied (by unfold ShowsLine; rw [hs']; unfold OpStatusSurfaceV1.lines; rcases q with q | q | q | q <;> rw [q] <;> rfl)
    have l2 := names_code cockpitDisplayOfTrafficInformationStatusNames Text.bds65CockpitDisplayOfTrafficInformationStatus (by decide +kernel) t (t! "    Cockpit Display Of Traffic Information Status: ") p.surfaceCapabilityClass.cockpitDisplayOfTrafficInformationStatus _ (bits_lt d 12 12 1 rfl) hl.surfaceCapabilityClass_cockpitDisplayOfTrafficInformationStatus (by unfold ShowsLine; rw [hs']; unfold OpStatusSurfaceV1.lines; rcases q with q | q | q | q <;> rw [q] <;> rfl)
    have l3 := names_code b2LowNames Text.bds65B2Low (by decide +kernel) t (t! "    B2Low:                                         ") p.surfaceCapabilityClass.b2Low _ (bits_lt d 15 15 1 rfl) hl.surfaceCapabilityClass_b2Low (by unfold ShowsLine; rw [hs']; unfold OpStatusSurfaceV1.lines; rcases q with q | q | q | q <;> rw [q] <;> rfl)
    have l4 := names_code lengthWidthNames Text.bds65LengthWidth (by decide +kernel) t (t! "Aircraft Length And Width                ") p.lengthAndWidth _ (bits_lt d 21 24 4 rfl) hl.lengthAndWidth (by unfold ShowsLine; rw [hs']; unfold OpStatusSurfaceV1.lines; rcases q with q | q | q | q <;> rw [q] <;> rfl)
    have l5 := names_code acaSResolutionAdvisoryActiveV1Names Text.bds65ACASResolutionAdvisoryActiveV1 (by decide +kernel) t (t! "    ACAS Resolution Advisory Active: ") p.operationalMode.acasRAActive _ (bits_lt d 27 27 1 rfl) hl.operationalMode_acasRAActive (by unfold ShowsLine; rw [hs']; unfold OpStatusSurfaceV1.lines; rcases q with q | q | q | q <;> rw [q] <;> rfl)
    have l6 := names_code identSwitchActiveNames Text.bds65IdentSwitchActive (by decide +kernel) t (t! "    Ident Switch Active:             ") p.operationalMode.identSwitchActive _ (bits_lt d 28 28 1 rfl) hl.operationalMode_identSwitchActive (by unfold ShowsLine; rw [hs']; unfold OpStatusSurfaceV1.lines; rcases q with q | q | q | q <;> rw [q] <;> rfl)
    have l7 := names_code receivingATCServicesNames Text.bds65ReceivingATCServices (by decide +kernel) t (t! "    Receiving ATC Services:          ") p.operationalMode.receivingATCServices _ (bits_lt d 29 29 1 rfl) hl.operationalMode_receivingATCServices (by unfold ShowsLine; rw [hs']; unfold OpStatusSurfaceV1.lines; rcases q with q | q | q | q <;> rw [q] <;> rfl)
    have l8 := names_code versionNumberNames versionNumberText (by decide +kernel) t (t! "ADSB Version Number:                     ") p.versionNumber _ (by show _ < 3; omega) hl.versionNumber (by unfold ShowsLine; rw [hs']; unfold OpStatusSurfaceV1.lines; rcases q with q | q | q | q <;> rw [q] <;> rfl)
    have l9 := names_code nicSupplementANames Text.bds65NICSupplementA (by decide +kernel) t (t! "NIC Supplement:                          ") p.nicSupplement _ (bits_lt d 44 44 1 rfl) hl.nicSupplement (by unfold ShowsLine; rw [hs']; unfold OpStatusSurfaceV1.lines; rcases q with q | q | q | q <;> rw [q] <;> rfl)
    have l10 := names_code navigationalAccuracyCategoryPositionV1Names Text.bds65NavigationalAccuracyCategoryPositionV1 (by decide +kernel) t (t! "Navigational Accuracy Category Position: ") p.navigationalAccuracyCategoryPosition _ (bits_lt d 45 48 4 rfl) hl.navigationalAccuracyCategoryPosition (by unfold ShowsLine; rw [hs']; unfold OpStatusSurfaceV1.lines; rcases q with q | q | q | q <;> rw [q] <;> rfl)
    have l11 := names_code horizontalReferenceDirectionNames Text.bds65HorizontalReferenceDirection (by decide +kernel) t (t! "Horizontal Reference Direction:          ") p.horizontalReferenceDirection _ (bits_lt d 54 54 1 rfl) hl.horizontalReferenceDirection (by unfold ShowsLine; rw [hs']; unfold OpStatusSurfaceV1.lines; rcases q with q | q | q | q <;> rw [q] <;> rfl)
    have lh : ShowsName t (t! "    Probability of exceeding the Horizontal Containment Radius reported in the NIC Subfield without an indication: ") horizontalSILNames (bits d 51 52) := by
      unfold ShowsName ShowsLine
      rw [hs', ← hl.surveillanceIntegrityLevel]
      unfold OpStatusSurfaceV1.lines
      rcases q with q | q | q | q <;> rw [q] <;> exact ⟨_, rfl, rfl⟩
    have lv : ShowsName t (t! "    Probability of exceeding the Vertical Integrity Containment Region (VPL) without an indication:                ") verticalSILNames (bits d 51 52) := by
      unfold ShowsName ShowsLine
      rw [hs', ← hl.surveillanceIntegrityLevel]
      unfold OpStatusSurfaceV1.lines
      rcases q with q | q | q | q <;> rw [q] <;> exact ⟨_, rfl, rfl⟩
    exact ⟨l0, l1, l2, l3, l4, l5, l6, l7, l8, l9, l10, l11, lh, lv⟩
  | _ => have := hc.1; have := hc.2.1; omega

/-- C77. The text of a version 2 surface operational status shows the name of the code of each documented field. Missing: the track angle
or heading bit is shown under the label of another field (`operational_surface_text_refuted`). -/
theorem operationalSurfaceV2_text_partial (F : FloatTexts) (hF : F.Faithful) (v : UInt8) (a c : Bool) (d : List UInt8) (m : ADSBMessage)
    (h : readADSBMessage v a c d = .returns (.val m) false) (htc : bits d 1 5 = 31) (hk : bits d 6 8 = 1 ∧ bits d 41 43 = 2) :
    let t := m.text F
    ShowsName t (t! "Subtype:                                 ") subtypeNames (bits d 6 8) ∧
    ShowsName t (t! "    1090ES IN (1090 MHz Extended Squitter):                   ") extendedSquitterInNames (bits d 12 12) ∧
    ShowsName t (t! "    B2 Low (Class B2 Transmit Power Less Than 70 Watts):      ") b2LowNames (bits d 15 15) ∧
    ShowsName t (t! "    UAT IN (Universal Access Transceiver):                    ") universalAccessTransceiverCapabilityNames (bits d 16 16) ∧
    ShowsLine t (t! "    NACV (Navigation Accuracy Category for Velocity):         ") (decimal (bits d 17 19)) ∧
    ShowsName t (t! "    NIC Supplement-C (NIC Supplement for use on the Surface): ") nicSupplementCNames (bits d 20 20) ∧
    ShowsName t (t! "Aircraft Length And Width                ") lengthWidthNames (bits d 21 24) ∧
    ShowsName t (t! "    ACAS Resolution Advisory Active: ") acaSResolutionAdvisoryActiveV2Names (bits d 27 27) ∧
    ShowsName t (t! "    Ident Switch Active:             ") identSwitchActiveNames (bits d 28 28) ∧
    ShowsName t (t! "    Single Antenna Flag:             ") singleAntennaFlagNames (bits d 30 30) ∧
    ShowsName t (t! "    System Design Assurance:         ") systemDesignAssuranceNames (bits d 31 32) ∧
    ShowsName t (t! "    GPS Antenna:                         Lateral Axis GPS Antenna:      ") gpsAntennaLateralNames (bits d 33 35) ∧
    ShowsName t (t! "        Longitudinal Axis GPS Antenna: ") gpsAntennaLongitudinalNames (bits d 36 40) ∧
    ShowsName t (t! "ADSB Version Number:                     ") versionNumberNames (bits d 41 43) ∧
    ShowsName t (t! "NIC Supplement:                          ") nicSupplementANames (bits d 44 44) ∧
    ShowsName t (t! "Navigational Accuracy Category Position: ") navigationalAccuracyCategoryPositionV2Names (bits d 45 48) ∧
    ShowsName t (t! "Source Integrity ReaderLevel:            ") sourceIntegrityLevelNames (bits d 51 52) ∧
    ShowsName t (t! "Source Integrity ReaderLevel Supplement: ") sourceIntegrityLevelSupplementNames (bits d 55 55) ∧
    ShowsName t (t! "Horizontal Reference Direction:          ") horizontalReferenceDirectionNames (bits d 54 54) := by
  have hs := adsb_splitOn F hF v a c d m h
  obtain ⟨p, x, rfl, hp⟩ := operational_of v a c d m h htc
  obtain ⟨-, hc⟩ := operational_status_content d p hp
  intro t
  cases p with
  | surfaceV2 p =>
    obtain ⟨h41, h6, hl⟩ := hc
    have hs' : t.splitOn '\n' = p.lines.map cat := hs
    have l0 := names_code subtypeNames Text.bds65Subtype (by decide +kernel) t (t! "Subtype:                                 ") p.subtype _ (by show _ < 2; omega) hl.subtype (by unfold ShowsLine; rw [hs']; rfl)
    have l1 := names_code extendedSquitterInNames Text.bds65ExtendedSquitterIn (by decide +kernel) t (t! "    1090ES IN (1090 MHz Extended Squitter):                   ") p.surfaceCapabilityClass.extendedSquitterIn _ (bits_lt d 12 12 1 rfl) hl.surfaceCapabilityClass_extendedSquitterIn (by unfold ShowsLine; rw [hs']; rfl)
    have l2 := names_code b2LowNames Text.bds65B2Low (by decide +kernel) t (t! "    B2 Low (Class B2 Transmit Power Less Than 70 Watts):      ") p.surfaceCapabilityClass.b2Low _ (bits_lt d 15 15 1 rfl) hl.surfaceCapabilityClass_b2Low (by unfold ShowsLine; rw [hs']; rfl)
    have l3 := names_code universalAccessTransceiverCapabilityNames Text.bds65UniversalAccessTransceiverCapability (by decide +kernel) t (t! "    UAT IN (Universal Access Transceiver):                    ") p.surfaceCapabilityClass.uatCapability _ (bits_lt d 16 16 1 rfl) hl.surfaceCapabilityClass_uatCapability (by unfold ShowsLine; rw [hs']; rfl)
    have l4 : ShowsLine t (t! "    NACV (Navigation Accuracy Category for Velocity):         ") (decimal (bits d 17 19)) := by
      unfold ShowsLine
      rw [hs', ← hl.surfaceCapabilityClass_navigationAccuracyCategoryVelocity]
      rfl
    have l5 := names_code nicSupplementCNames Text.bds65NICSupplementC (by decide +kernel) t (t! "    NIC Supplement-C (NIC Supplement for use on the Surface): ") p.surfaceCapabilityClass.nicSupplementC _ (bits_lt d 20 20 1 rfl) hl.surfaceCapabilityClass_nicSupplementC (by unfold ShowsLine; rw [hs']; rfl)
    have l6 := names_code lengthWidthNames Text.bds65LengthWidth (by decide +kernel) t (t! "Aircraft Length And Width                ") p.lengthAndWidth _ (bits_lt d 21 24 4 rfl) hl.lengthAndWidth (by unfold ShowsLine; rw [hs']; rfl)
    have l7 := names_code acaSResolutionAdvisoryActiveV2Names Text.bds65ACASResolutionAdvisoryActiveV2 (by decide +kernel) t (t! "    ACAS Resolution Advisory Active: ") p.operationalMode.acasRAActive _ (bits_lt d 27 27 1 rfl) hl.operationalMode_acasRAActive (by unfold ShowsLine; rw [hs']; rfl)
    have l8 := names_code identSwitchActiveNames Text.bds65IdentSwitchActive (by decide +kernel) t (t! "    Ident Switch Active:             ") p.operationalMode.identSwitchActive _ (bits_lt d 28 28 1 rfl) hl.operationalMode_identSwitchActive (by unfold ShowsLine; rw [hs']; rfl)
    have l9 := names_code singleAntennaFlagNames Text.bds65SingleAntennaFlag (by decide +kernel) t (t! "    Single Antenna Flag:             ") p.operationalMode.singleAntennaFlag _ (bits_lt d 30 30 1 rfl) hl.operationalMode_singleAntennaFlag (by unfold ShowsLine; rw [hs']; rfl)
    have l10 := names_code systemDesignAssuranceNames Text.bds65SystemDesignAssurance (by decide +kernel) t (t! "    System Design Assurance:         ") p.operationalMode.systemDesignAssurance _ (bits_lt d 31 32 2 rfl) hl.operationalMode_systemDesignAssurance (by unfold ShowsLine; rw [hs']; rfl)
    have l11 := names_code gpsAntennaLateralNames Text.bds65GPSAntennaLateral (by decide +kernel) t (t! "    GPS Antenna:                         Lateral Axis GPS Antenna:      ") p.operationalMode.gpsAntennaLateral _ (bits_lt d 33 35 3 rfl) hl.operationalMode_gpsAntennaLateral (by unfold ShowsLine; rw [hs']; rfl)
    have l12 := names_code gpsAntennaLongitudinalNames gpsAntennaLongitudinalText (by decide +kernel) t (t! "        Longitudinal Axis GPS Antenna: ") p.operationalMode.gpsAntennaLongitudinal _ (bits_lt d 36 40 5 rfl) hl.operationalMode_gpsAntennaLongitudinal (by unfold ShowsLine; rw [hs']; rfl)
    have l13 := names_code versionNumberNames versionNumberText (by decide +kernel) t (t! "ADSB Version Number:                     ") p.versionNumber _ (by show _ < 3; omega) hl.versionNumber (by unfold ShowsLine; rw [hs']; rfl)
    have l14 := names_code nicSupplementANames Text.bds65NICSupplementA (by decide +kernel) t (t! "NIC Supplement:                          ") p.nicSupplementA _ (bits_lt d 44 44 1 rfl) hl.nicSupplementA (by unfold ShowsLine; rw [hs']; rfl)
    have l15 := names_code navigationalAccuracyCategoryPositionV2Names Text.bds65NavigationalAccuracyCategoryPositionV2 (by decide +kernel) t (t! "Navigational Accuracy Category Position: ") p.navigationalAccuracyCategoryPosition _ (bits_lt d 45 48 4 rfl) hl.navigationalAccuracyCategoryPosition (by unfold ShowsLine; rw [hs']; rfl)
    have l16 := names_code sourceIntegrityLevelNames Text.bds65SourceIntegrityLevel (by decide +kernel) t (t! "Source Integrity ReaderLevel:            ") p.sourceIntegrityLevel _ (bits_lt d 51 52 2 rfl) hl.sourceIntegrityLevel (by unfold ShowsLine; rw [hs']; rfl)
    have l17 := names_code sourceIntegrityLevelSupplementNames Text.bds65SourceIntegrityLevelSupplement (by decide +kernel) t (t! "Source Integrity ReaderLevel Supplement: ") p.sourceIntegrityLevelSupplement _ (bits_lt d 55 55 1 rfl) hl.sourceIntegrityLevelSupplement (by unfold ShowsLine; rw [hs']; rfl)
    have l18 := names_code horizontalReferenceDirectionNames Text.bds65HorizontalReferenceDirection (by decide +kernel) t (t! "Horizontal Reference Direction:          ") p.horizontalReferenceDirection _ (bits_lt d 54 54 1 rfl) hl.horizontalReferenceDirection (by unfold ShowsLine; rw [hs']; rfl)
    exact ⟨l0, l1, l2, l3, l4, l5, l6, l7, l8, l9, l10, l11, l12, l13, l14, l15, l16, l17, l18⟩
  | _ => have := hc.1; have := hc.2.1; omega

/-- C77, refuted: the text of a surface operational status shows the bit that tells a track angle from a heading (bit 53) on the line
labelled "NIC Baro", which names a field that a surface message does not have, and no line of it carries a label for that bit. -/
theorem operational_surface_text_refuted (F : FloatTexts) (hF : F.Faithful) (v : UInt8) (a c : Bool) (d : List UInt8) (m : ADSBMessage)
    (h : readADSBMessage v a c d = .returns (.val m) false) (htc : bits d 1 5 = 31) (hk : bits d 6 8 = 1) :
    let t := m.text F
    ShowsName t (t! "NIC Baro:                                ") trackAngleHeadingNames (bits d 53 53) ∧
    (t.splitOn '\n').filter (fun l => (t! "Track").isPrefixOf l || (t! "Heading").isPrefixOf l) = [] := by
  have hs := adsb_splitOn F hF v a c d m h
  obtain ⟨p, x, rfl, hp⟩ := operational_of v a c d m h htc
  obtain ⟨-, hc⟩ := operational_status_content d p hp
  intro t
  cases p with
  | surfaceV1 p =>
    obtain ⟨h41, h6, hl⟩ := hc
    have hs' : t.splitOn '\n' = p.lines.map cat := hs
    have q : p.surveillanceIntegrityLevel = 0 ∨ p.surveillanceIntegrityLevel = 1 ∨ p.surveillanceIntegrityLevel = 2 ∨
        p.surveillanceIntegrityLevel = 3 := by
      have := bits_lt d 51 52 2 rfl
      have := hl.surveillanceIntegrityLevel
      simp only [← UInt8.toNat_inj, UInt8.reduceToNat]
      omega
    refine ⟨names_code trackAngleHeadingNames Text.bds65TrackAngleHeading (by decide +kernel) t _ p.trackAngleHeading _ (bits_lt d 53 53 1 rfl)
      hl.trackAngleHeading (by unfold ShowsLine; rw [hs']; unfold OpStatusSurfaceV1.lines; rcases q with q | q | q | q <;> rw [q] <;> rfl), ?_⟩
    rw [hs']
    unfold OpStatusSurfaceV1.lines
    rcases q with q | q | q | q <;> rw [q] <;> rfl
  | surfaceV2 p =>
    obtain ⟨h41, h6, hl⟩ := hc
    have hs' : t.splitOn '\n' = p.lines.map cat := hs
    refine ⟨names_code trackAngleHeadingNames Text.bds65TrackAngleHeading (by decide +kernel) t _ p.trackAngleHeading _ (bits_lt d 53 53 1 rfl)
      hl.trackAngleHeading (by unfold ShowsLine; rw [hs']; rfl), ?_⟩
    rw [hs']
    rfl
  | _ => have := hc.2.1; omega

end Modes
