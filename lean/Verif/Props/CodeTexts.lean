import Verif.Props.TranslationTexts
import Verif.Props.CodeEntry
import Verif.Props.Numbers
import Verif.Props.TextAdvisory
import Verif.Props.TextShows
import Verif.Props.TextShowsCapability
import Verif.Props.TextShowsOperational
/-!
# The theorems about texts, of the translated code

Written by `tools/gen_code_texts.py`. `Shown.….ToString` are the functions that `tools/go2lean` translated from the text of /repo.
-/
set_option linter.unusedVariables false
namespace Modes
open Spec Text
variable {A : Bool → Bool → ℕ → ℕ → ℝ}

/-- An ADS-B message that was read: `ToString` of the code gives the text of the model. -/
theorem shown_adsb_read (F : FloatTexts) {v : UInt8} {a c : Bool} {d : List UInt8} {m : ADSBMessage}
    (h : readADSBMessage v a c d = .returns (.val m) false) : Shown.adsb.Message.ToString F m = m.text F :=
  shown_adsb F m (adsb_printable v a c d m h)

/-- A Comm-B message that was read. -/
theorem shown_commB_read (F : FloatTexts) {d : List UInt8} {l : List (Iface CommBMessage)} (h : readCommBMessage d = .ok l)
    {m : CommBMessage} (hm : .val m ∈ l) : Shown.bds.Message.ToString F m = m.text F :=
  shown_commB F m (commB_printable d m (commB_reads d l h m hm))

/-- What the translated `ReadCommBMessage` gives is what the model gives. -/
theorem code_commB_read {d : List UInt8} {l : List CommBMessage} (h : Gen.commb.ReadCommBMessage d = .ok l) :
    readCommBMessage d = .ok (l.map .val) := by
  rw [← same_ReadCommBMessage, h]; rfl

/-! ### Frames -/

/-- `modeS_text_total`: a frame that the code reads has a text, without panic, and it begins with its format. -/
theorem code_frame_text_total (f : List UInt8) (m : ModeSMessage) (h : Gen.modes.reader.ReadMessage f = .ok m) :
    ∃ spaces rest, Shown.modes.messages.ModeSMessage.ToString m = .ok (t! "Downlink format:" ++ List.replicate spaces ' ' ++
      dec m.getDownLinkFormat ++ t! " - " ++ Shown.modes.messages.ModeSMessage.GetName m ++ '\n' :: rest) := by
  rw [same_ReadMessage] at h
  rw [shown_modes, shown_modes_name]
  exact modeS_text_total f m h

/-- `modeS_text_identifies` -/
theorem code_frame_text_identifies (f g : List UInt8) (m n : ModeSMessage) (t : Txt) (hf : Gen.modes.reader.ReadMessage f = .ok m)
    (hg : Gen.modes.reader.ReadMessage g = .ok n) (hm : Shown.modes.messages.ModeSMessage.ToString m = .ok t)
    (hn : Shown.modes.messages.ModeSMessage.ToString n = .ok t) : decodedFields m = decodedFields n := by
  rw [same_ReadMessage] at hf hg
  rw [shown_modes] at hm hn
  exact modeS_text_identifies f g m n t hf hg hm hn

/-! ### ADS-B and Comm-B -/

/-- `identification_text` -/
theorem code_identification_text (F : FloatTexts) (hF : F.Faithful) (v : UInt8) (a c : Bool) (first : UInt8)
    (hf : 8 ≤ first.toNat ∧ first.toNat < 40) (cs : List UInt8) (h8 : cs.length = 8) (hc : ∀ x ∈ cs, IdentChar x) :
    ∃ m, readADSBMessage v a c (first :: toBytes 6 (encodeIdent cs)) = .returns (.val m) false ∧
      ShowsLine (Shown.adsb.Message.ToString F m) (t! "Identification:                    ") (cs.map fun x => Char.ofNat x.toNat) := by
  obtain ⟨m, h, hl⟩ := identification_text F hF v a c first hf cs h8 hc
  exact ⟨m, h, by rw [shown_adsb_read F h]; exact hl⟩

/-- `commB_identification_text` -/
theorem code_commB_identification_text (F : FloatTexts) (hF : F.Faithful) (cs : List UInt8) (h8 : cs.length = 8)
    (hc : ∀ x ∈ cs, IdentChar x) :
    ∃ m, readCommBMessage (0x20 :: toBytes 6 (encodeIdent cs)) = .ok [.val m] ∧
      ShowsLine (Shown.bds.Message.ToString F m) (t! "Identification:                          ") (cs.map fun x => Char.ofNat x.toNat) := by
  obtain ⟨m, h, hl⟩ := commB_identification_text F hF cs h8 hc
  exact ⟨m, h, by rw [shown_commB_read F h (List.mem_singleton.2 rfl)]; exact hl⟩

/-- `adsb_text_partial`: two messages with the same text have the same decoded content. -/
theorem code_adsb_text_partial (F : FloatTexts) (hF : F.Faithful) (v w : UInt8) (a b c e : Bool) (d d' : List UInt8) (m n : ADSBMessage)
    (hm : readADSBMessage v a b d = .returns (.val m) false) (hn : readADSBMessage w c e d' = .returns (.val n) false)
    (h : Shown.adsb.Message.ToString F m = Shown.adsb.Message.ToString F n) : shownADSB m = shownADSB n := by
  rw [shown_adsb_read F hm, shown_adsb_read F hn] at h
  exact adsb_text_partial F hF v w a b c e d d' m n hm hn h

/-- `commB_text_partial` -/
theorem code_commB_text_partial (F : FloatTexts) (hF : F.Faithful) (d d' : List UInt8) (l l' : List CommBMessage)
    (hd : Gen.commb.ReadCommBMessage d = .ok l) (hd' : Gen.commb.ReadCommBMessage d' = .ok l') (m n : CommBMessage) (hm : m ∈ l)
    (hn : n ∈ l') (h : Shown.bds.Message.ToString F m = Shown.bds.Message.ToString F n) : shownCommB m = shownCommB n := by
  have km : Iface.val m ∈ l.map Iface.val := List.mem_map_of_mem hm
  have kn : Iface.val n ∈ l'.map Iface.val := List.mem_map_of_mem hn
  rw [shown_commB_read F (code_commB_read hd) km, shown_commB_read F (code_commB_read hd') kn] at h
  exact commB_text_partial F hF d d' _ _ (code_commB_read hd) (code_commB_read hd') m n km kn h

/-- `commB_texts_differ`: two candidates of one register are printed differently. -/
theorem code_commB_texts_differ (F : FloatTexts) (hF : F.Faithful) (d : List UInt8) (l : List CommBMessage)
    (hd : Gen.commb.ReadCommBMessage d = .ok l) (m n : CommBMessage) (hm : m ∈ l) (hn : n ∈ l) (hne : m ≠ n) :
    Shown.bds.Message.ToString F m ≠ Shown.bds.Message.ToString F n := by
  have km : Iface.val m ∈ l.map Iface.val := List.mem_map_of_mem hm
  have kn : Iface.val n ∈ l.map Iface.val := List.mem_map_of_mem hn
  rw [shown_commB_read F (code_commB_read hd) km, shown_commB_read F (code_commB_read hd) kn]
  exact commB_texts_differ F hF d _ (code_commB_read hd) m n km kn hne

/-- `advisory_text_actual` -/
theorem code_advisory_text_actual (F : FloatTexts) (hF : F.Faithful) (d : List UInt8) (m : ResolutionAdvisory)
    (h : Gen.acas.ra.ReadResolutionAdvisory d = .ok m) :
    (Shown.acas.ra.ResolutionAdvisory.ToString F m).splitOn '\n' =
      advisoryLines (t! "Upward") (altitudeLine m.threatIdentityAltitude) (threatRangeLine F (2 * bits d 36 41))
        (bearingWritten (bits d 43 48)) d := by
  simp only [translated] at h
  rw [shown_resolutionAdvisory F m (ra_printable d m h)]
  exact advisory_text_actual F hF d m h

/-- `adsb_text_refuted` -/
theorem code_adsb_text_refuted (F : FloatTexts) :
    (∃ d d' m n, readADSBMessage 2 false false d = .returns (.val m) false ∧ readADSBMessage 2 false false d' = .returns (.val n) false ∧
      bits d 12 24 ≠ bits d' 12 24 ∧ m ≠ n ∧ Shown.adsb.Message.ToString F m = Shown.adsb.Message.ToString F n) ∧
    (∃ d d' m n, readADSBMessage 2 false false d = .returns (.val m) false ∧ readADSBMessage 2 false false d' = .returns (.val n) false ∧
      bits d 11 11 ≠ bits d' 11 11 ∧ m ≠ n ∧ Shown.adsb.Message.ToString F m = Shown.adsb.Message.ToString F n) := by
  obtain ⟨⟨d, d', m, n, h1, h2, h3, h4, h5⟩, e, e', p, q, k1, k2, k3, k4, k5⟩ := adsb_text_refuted F
  exact ⟨⟨d, d', m, n, h1, h2, h3, h4, by rw [shown_adsb_read F h1, shown_adsb_read F h2]; exact h5⟩,
    e, e', p, q, k1, k2, k3, k4, by rw [shown_adsb_read F k1, shown_adsb_read F k2]; exact k5⟩

/-- `advisory_text_refuted` -/
theorem code_advisory_text_refuted (F : FloatTexts) (hF : F.Faithful) :
    (∃ d m, readResolutionAdvisory d = .ok m ∧ bit d 1 = true ∧ senseWord d = t! "Downward" ∧
      t! "    Sense generated: Upward" ∈ (Shown.acas.ra.ResolutionAdvisory.ToString F m).splitOn '\n') ∧
    (∃ d m, readResolutionAdvisory d = .ok m ∧ bits d 21 22 = 2 ∧ bits d 43 48 = 60 ∧
      threatBearingLine (bits d 43 48) = t! "60 - between 354 and 360" ∧
      t! "Threat Bearing:                                  60 - between 98 and 104" ∈ (Shown.acas.ra.ResolutionAdvisory.ToString F m).splitOn '\n') := by
  obtain ⟨⟨d, m, h, h1, h2, h3⟩, e, n, k, k1, k2, k3, k4⟩ := advisory_text_refuted F hF
  exact ⟨⟨d, m, h, h1, h2, by rw [shown_resolutionAdvisory F m (ra_printable d m h)]; exact h3⟩,
    e, n, k, k1, k2, k3, by rw [shown_resolutionAdvisory F n (ra_printable e n k)]; exact k4⟩

/-! ### The lines that the texts show -/

/-- `airborne_text` -/
theorem code_airborne_text (F : FloatTexts) (hF : F.Faithful) (v : UInt8) (a c : Bool) (d : List UInt8) (m : ADSBMessage)
    (h : readADSBMessage v a c d = .returns (.val m) false) (htc : AirborneTC (bits d 1 5)) :
    ShowsLine (Shown.adsb.Message.ToString F m) (t! "Format Type Code:                  ") (decimal (bits d 1 5)) ∧
    (∃ method altitude, AC12Meaning (bits d 9 20) method altitude ∧
      ShowsLine (Shown.adsb.Message.ToString F m) (t! "Altitude (feet):                   ") (decimalInt altitude)) ∧
    ShowsLine (Shown.adsb.Message.ToString F m) (t! "Compact Position Reporting Format: ")
      (if bit d 22 then t! "1 - odd format coding" else t! "0 - even format coding") ∧
    ShowsLine (Shown.adsb.Message.ToString F m) (t! "Encoded Latitude:                  ") (decimal (bits d 23 39)) ∧
    ShowsLine (Shown.adsb.Message.ToString F m) (t! "Encoded Longitude:                 ") (decimal (bits d 40 56)) := by
  rw [shown_adsb_read F h]
  exact airborne_text F hF v a c d m h htc

/-- `type0_text` -/
theorem code_type0_text (F : FloatTexts) (hF : F.Faithful) (v : UInt8) (a c : Bool) (d : List UInt8) (m : ADSBMessage)
    (h : readADSBMessage v a c d = .returns (.val m) false) (htc : bits d 1 5 = 0) :
    ∃ method altitude, AC12Meaning (bits d 9 20) method altitude ∧
      (bits d 21 56 = 0 → ShowsLine (Shown.adsb.Message.ToString F m) (t! "Altitude Baro (feet):              ") (decimalInt altitude)) ∧
      (bits d 21 56 ≠ 0 → ShowsLine (Shown.adsb.Message.ToString F m) (t! "Altitude (feet):                   ") (decimalInt altitude) ∧
        ShowsLine (Shown.adsb.Message.ToString F m) (t! "Encoded Latitude:                  ") (decimal (bits d 23 39)) ∧
        ShowsLine (Shown.adsb.Message.ToString F m) (t! "Encoded Longitude:                 ") (decimal (bits d 40 56))) := by
  rw [shown_adsb_read F h]
  exact type0_text F hF v a c d m h htc

/-- `surface_text` -/
theorem code_surface_text (F : FloatTexts) (hF : F.Faithful) (v : UInt8) (a c : Bool) (d : List UInt8) (m : ADSBMessage)
    (h : readADSBMessage v a c d = .returns (.val m) false) (htc : SurfaceTC (bits d 1 5)) :
    ShowsLine (Shown.adsb.Message.ToString F m) (t! "Format Type Code:                  ") (decimal (bits d 1 5)) ∧
    ShowsLine (Shown.adsb.Message.ToString F m) (t! "Movement Speed (knots):            ") (F.float32 (movementSpeed (bits d 6 12))) ∧
    ShowsLine (Shown.adsb.Message.ToString F m) (t! "Ground Track Status:               ") (if bit d 13 then t! "true" else t! "false") ∧
    ShowsLine (Shown.adsb.Message.ToString F m) (t! "Ground Track (degrees):            ") (F.float32 (bits d 14 20 * (360 / 128))) ∧
    ShowsLine (Shown.adsb.Message.ToString F m) (t! "Compact Position Reporting Format: ")
      (if bit d 22 then t! "1 - odd format coding" else t! "0 - even format coding") ∧
    ShowsLine (Shown.adsb.Message.ToString F m) (t! "Encoded Latitude:                  ") (decimal (bits d 23 39)) ∧
    ShowsLine (Shown.adsb.Message.ToString F m) (t! "Encoded Longitude:                 ") (decimal (bits d 40 56)) := by
  rw [shown_adsb_read F h]
  exact surface_text F hF v a c d m h htc

/-- `velocity_text` -/
theorem code_velocity_text (F : FloatTexts) (hF : F.Faithful) (v : UInt8) (a c : Bool) (d : List UInt8) (m : ADSBMessage)
    (h : readADSBMessage v a c d = .returns (.val m) false) (htc : bits d 1 5 = 19) (hst : bits d 6 8 = 1 ∨ bits d 6 8 = 2) :
    ∃ ew ns ewStatus nsStatus vr vrStatus hd hdStatus,
      SpeedCoding (bits d 15 24) (if bits d 6 8 = 1 then 1 else 4) (if bits d 6 8 = 1 then 1023 else 4088) ew ewStatus ∧
      SpeedCoding (bits d 26 35) (if bits d 6 8 = 1 then 1 else 4) (if bits d 6 8 = 1 then 1023 else 4088) ns nsStatus ∧
      SignedCoding (bit d 37) (bits d 38 46) 511 64 32640 vr vrStatus ∧
      SignedCoding (bit d 49) (bits d 50 56) 127 25 3150 hd hdStatus ∧
      ShowsLine (Shown.adsb.Message.ToString F m) (t! "Direction EW:                      ") (if bit d 14 then t! "1 - West" else t! "0 - East") ∧
      ShowsLine (Shown.adsb.Message.ToString F m) (t! "Velocity EW (knots):               ") (decimal ew) ∧
      ShowsLine (Shown.adsb.Message.ToString F m) (t! "Direction NS:                      ") (if bit d 25 then t! "1 - south" else t! "0 - north") ∧
      ShowsLine (Shown.adsb.Message.ToString F m) (t! "Velocity NS (knots):               ") (decimal ns) ∧
      ShowsLine (Shown.adsb.Message.ToString F m) (t! "Vertical Rate (ft/min):            ") (decimalInt vr) ∧
      ShowsLine (Shown.adsb.Message.ToString F m) (t! "Difference Alt. GNSS Baro (ft):    ") (decimalInt hd) := by
  rw [shown_adsb_read F h]
  exact velocity_text F hF v a c d m h htc hst

/-- `airspeed_text` -/
theorem code_airspeed_text (F : FloatTexts) (hF : F.Faithful) (v : UInt8) (a c : Bool) (d : List UInt8) (m : ADSBMessage)
    (h : readADSBMessage v a c d = .returns (.val m) false) (htc : bits d 1 5 = 19) (hst : bits d 6 8 = 3 ∨ bits d 6 8 = 4) :
    ∃ speed status vr vrStatus hd hdStatus,
      SpeedCoding (bits d 26 35) (if bits d 6 8 = 3 then 1 else 4) (if bits d 6 8 = 3 then 1023 else 4088) speed status ∧
      SignedCoding (bit d 37) (bits d 38 46) 511 64 32640 vr vrStatus ∧
      SignedCoding (bit d 49) (bits d 50 56) 127 25 3150 hd hdStatus ∧
      ShowsLine (Shown.adsb.Message.ToString F m) (t! "Magnetic Heading (degrees):          ") (F.float32 (bits d 15 24 * (360 / 1024))) ∧
      ShowsLine (Shown.adsb.Message.ToString F m) (t! "Air Speed (knots):                   ") (decimal speed) ∧
      ShowsLine (Shown.adsb.Message.ToString F m) (t! "Vertical Rate (ft/min):              ") (decimalInt vr) ∧
      ShowsLine (Shown.adsb.Message.ToString F m) (t! "Geom. Height Diff. From Baro (ft):   ") (decimalInt hd) := by
  rw [shown_adsb_read F h]
  exact airspeed_text F hF v a c d m h htc hst

/-- `status_text` -/
theorem code_status_text (F : FloatTexts) (hF : F.Faithful) (v : UInt8) (a c : Bool) (d : List UInt8) (m : ADSBMessage)
    (h : readADSBMessage v a c d = .returns (.val m) false) (htc : bits d 1 5 = 28) :
    ∃ state, emergencyNames[bits d 9 11]? = some state ∧
      (bits d 6 8 = 0 → ShowsLine (Shown.adsb.Message.ToString F m) (t! "Emergency State:           ") state) ∧
      (bits d 6 8 = 1 → ShowsLine (Shown.adsb.Message.ToString F m) (t! "Emergeny State:            ") state) := by
  rw [shown_adsb_read F h]
  exact status_text F hF v a c d m h htc

/-- `target_state_text_partial` -/
theorem code_target_state_text_partial (F : FloatTexts) (hF : F.Faithful) (v : UInt8) (a c : Bool) (d : List UInt8) (m : ADSBMessage)
    (h : readADSBMessage v a c d = .returns (.val m) false) (htc : bits d 1 5 = 29) :
    let t := Shown.adsb.Message.ToString F m
    (bits d 6 7 = 1 →
      (∃ altitude status, SelectedAltitudeCoding (bits d 10 20) altitude status ∧
        ShowsLine t (t! "Selected Altitude:                             ") (decimal altitude)) ∧
      (∃ pressure status, BarometricCoding (bits d 21 29) pressure status ∧
        ShowsLine t (t! "Barometric Pressure Setting:                   ") (F.float32 pressure)) ∧
      (bit d 31 = false →
        ShowsLine t (t! "Selected Heading :                             ") (F.float32 (bits d 32 39 * (180 / 256)))) ∧
      ShowsLine t (t! "Autopilot Engaged:                             ") (if bit d 48 then t! "true" else t! "false") ∧
      ShowsLine t (t! "VNAV Mode Engaged:                             ") (if bit d 49 then t! "true" else t! "false") ∧
      ShowsLine t (t! "Altitude Hold Mode Engaged:                    ") (if bit d 50 then t! "true" else t! "false") ∧
      ShowsLine t (t! "Approach Mode Engaged:                         ") (if bit d 52 then t! "true" else t! "false") ∧
      ShowsLine t (t! "TCAS / ACAS Operational :                      ") (if bit d 53 then t! "true" else t! "false") ∧
      ShowsLine t (t! "LNAV Mode Engaged:                             ") (if bit d 54 then t! "true" else t! "false")) ∧
    (bits d 6 7 = 0 →
      ∃ altitude status, TargetAltitudeCoding (bits d 16 25) altitude status ∧
        ShowsLine t (t! "Target Altitude:                              ") (decimalInt altitude)) := by
  rw [shown_adsb_read F h]
  exact target_state_text_partial F hF v a c d m h htc

/-- `operationalV0_text` -/
theorem code_operationalV0_text (F : FloatTexts) (hF : F.Faithful) (v : UInt8) (a c : Bool) (d : List UInt8) (m : ADSBMessage)
    (h : readADSBMessage v a c d = .returns (.val m) false) (htc : bits d 1 5 = 31) (hk : bits d 6 8 = 0 ∧ bits d 41 43 = 0) :
    let t := Shown.adsb.Message.ToString F m
    ShowsName t (t! "En Route Operational Capabilities:              ") operationalCapabilityNames (bits d 9 12) ∧
    ShowsName t (t! "En Route Operational Capability Status:         ") operationalCapabilityNames (bits d 25 28) ∧
    ShowsName t (t! "Terminal Area Operational Capabilities:         ") operationalCapabilityNames (bits d 13 16) ∧
    ShowsName t (t! "Terminal Area Operational Capability Status:    ") operationalCapabilityNames (bits d 29 32) ∧
    ShowsName t (t! "Approach/Landing Operational Capabilities:      ") operationalCapabilityNames (bits d 17 20) ∧
    ShowsName t (t! "Approach/Landing Operational Capability Status: ") operationalCapabilityNames (bits d 33 36) ∧
    ShowsName t (t! "SubtypeSurface Operational Capabilities:               ") operationalCapabilityNames (bits d 21 24) ∧
    ShowsName t (t! "SubtypeSurface Operational Capability Status:          ") operationalCapabilityNames (bits d 37 40) := by
  rw [shown_adsb_read F h]
  exact operationalV0_text F hF v a c d m h htc hk

/-- `operationalAirborneV1_text` -/
theorem code_operationalAirborneV1_text (F : FloatTexts) (hF : F.Faithful) (v : UInt8) (a c : Bool) (d : List UInt8) (m : ADSBMessage)
    (h : readADSBMessage v a c d = .returns (.val m) false) (htc : bits d 1 5 = 31) (hk : bits d 6 8 = 0 ∧ bits d 41 43 = 1) :
    let t := Shown.adsb.Message.ToString F m
    ShowsName t (t! "Subtype:                                 ") subtypeNames (bits d 6 8) ∧
    ShowsName t (t! "    Not ACAS Status:                               ") notACASStatusNames (bits d 11 11) ∧
    ShowsName t (t! "    Cockpit Display Of Traffic Information Status: ") cockpitDisplayOfTrafficInformationStatusNames (bits d 12 12) ∧
    ShowsName t (t! "    Air Referenced Velocity Report Capability:     ") airReferencedVelocityReportCapabilityNames (bits d 15 15) ∧
    ShowsName t (t! "    Target State Report Capability:                ") targetStateReportCapabilityNames (bits d 16 16) ∧
    ShowsName t (t! "    Target Change Report Capability:               ") targetChangeReportCapabilityNames (bits d 17 18) ∧
    ShowsName t (t! "    ACAS Resolution Advisory Active: ") acaSResolutionAdvisoryActiveV1Names (bits d 27 27) ∧
    ShowsName t (t! "    Ident Switch Active:             ") identSwitchActiveNames (bits d 28 28) ∧
    ShowsName t (t! "    Receiving ATC Services:          ") receivingATCServicesNames (bits d 29 29) ∧
    ShowsName t (t! "ADSB Version Number:                     ") versionNumberNames (bits d 41 43) ∧
    ShowsName t (t! "NIC Supplement:                          ") nicSupplementANames (bits d 44 44) ∧
    ShowsName t (t! "Navigational Accuracy Category Position: ") navigationalAccuracyCategoryPositionV1Names (bits d 45 48) ∧
    ShowsName t (t! "NIC Baro:                                ") nicBaroNames (bits d 53 53) ∧
    ShowsName t (t! "Horizontal Reference Direction:          ") horizontalReferenceDirectionNames (bits d 54 54) ∧
    ShowsName t (t! "    Probability of exceeding the Horizontal Containment Radius reported in the NIC Subfield without an indication: ") horizontalSILNames (bits d 51 52) ∧
    ShowsName t (t! "    Probability of exceeding the Vertical Integrity Containment Region (VPL) without an indication:                ") verticalSILNames (bits d 51 52) := by
  rw [shown_adsb_read F h]
  exact operationalAirborneV1_text F hF v a c d m h htc hk

/-- `operationalAirborneV2_text` -/
theorem code_operationalAirborneV2_text (F : FloatTexts) (hF : F.Faithful) (v : UInt8) (a c : Bool) (d : List UInt8) (m : ADSBMessage)
    (h : readADSBMessage v a c d = .returns (.val m) false) (htc : bits d 1 5 = 31) (hk : bits d 6 8 = 0 ∧ bits d 41 43 = 2) :
    let t := Shown.adsb.Message.ToString F m
    ShowsName t (t! "Subtype:                                 ") subtypeNames (bits d 6 8) ∧
    ShowsName t (t! "    ACAS Operational:                                ") acaSOperationalNames (bits d 11 11) ∧
    ShowsName t (t! "    1090ES IN (1090 MHz Extended Squitter):          ") extendedSquitterInNames (bits d 12 12) ∧
    ShowsName t (t! "    ARV (Air-Referenced Velocity Report Capability): ") airReferencedVelocityReportCapabilityNames (bits d 15 15) ∧
    ShowsName t (t! "    Target State Report Capability:                  ") targetStateReportCapabilityNames (bits d 16 16) ∧
    ShowsName t (t! "    Target Change Report Capability:                 ") targetChangeReportCapabilityNames (bits d 17 18) ∧
    ShowsName t (t! "    UAT IN (Universal Access Transceiver):           ") universalAccessTransceiverCapabilityNames (bits d 19 19) ∧
    ShowsName t (t! "    ACAS Resolution Advisory Active: ") acaSResolutionAdvisoryActiveV2Names (bits d 27 27) ∧
    ShowsName t (t! "    Ident Switch Active:             ") identSwitchActiveNames (bits d 28 28) ∧
    ShowsName t (t! "    Single Antenna Flag:             ") singleAntennaFlagNames (bits d 30 30) ∧
    ShowsName t (t! "    System Design Assurance:         ") systemDesignAssuranceNames (bits d 31 32) ∧
    ShowsName t (t! "ADSB Version Number:                     ") versionNumberNames (bits d 41 43) ∧
    ShowsName t (t! "NIC Supplement:                          ") nicSupplementANames (bits d 44 44) ∧
    ShowsName t (t! "Navigational Accuracy Category Position: ") navigationalAccuracyCategoryPositionV2Names (bits d 45 48) ∧
    ShowsName t (t! "Source Integrity ReaderLevel:            ") sourceIntegrityLevelNames (bits d 51 52) ∧
    ShowsName t (t! "Source Integrity ReaderLevel Supplement: ") sourceIntegrityLevelSupplementNames (bits d 55 55) ∧
    ShowsName t (t! "NIC Baro:                                ") nicBaroNames (bits d 53 53) ∧
    ShowsName t (t! "Horizontal Reference Direction:          ") horizontalReferenceDirectionNames (bits d 54 54) ∧
    (∃ name, [t! "0 - Unknown or GVA >= 150 meters", t! "0 - GVA <= 150 meters", t! "0 - GVA <= 45 meters", t! "0 - reserved"][bits d 49 50]? = some name ∧
      ShowsLine t (t! "Geometric Vertical Accuracy:             ") name) := by
  rw [shown_adsb_read F h]
  exact operationalAirborneV2_text F hF v a c d m h htc hk

/-- `operationalSurfaceV1_text_partial` -/
theorem code_operationalSurfaceV1_text_partial (F : FloatTexts) (hF : F.Faithful) (v : UInt8) (a c : Bool) (d : List UInt8) (m : ADSBMessage)
    (h : readADSBMessage v a c d = .returns (.val m) false) (htc : bits d 1 5 = 31) (hk : bits d 6 8 = 1 ∧ bits d 41 43 = 1) :
    let t := Shown.adsb.Message.ToString F m
    ShowsName t (t! "Subtype:                                 ") subtypeNames (bits d 6 8) ∧
    ShowsName t (t! "    Position Offset Applied:                       ") positionOffsetAppliedNames (bits d 11 11) ∧
    ShowsName t (t! "    Cockpit Display Of Traffic Information Status: ") cockpitDisplayOfTrafficInformationStatusNames (bits d 12 12) ∧
    ShowsName t (t! "    B2Low:                                         ") b2LowNames (bits d 15 15) ∧
    ShowsName t (t! "Aircraft Length And Width                ") lengthWidthNames (bits d 21 24) ∧
    ShowsName t (t! "    ACAS Resolution Advisory Active: ") acaSResolutionAdvisoryActiveV1Names (bits d 27 27) ∧
    ShowsName t (t! "    Ident Switch Active:             ") identSwitchActiveNames (bits d 28 28) ∧
    ShowsName t (t! "    Receiving ATC Services:          ") receivingATCServicesNames (bits d 29 29) ∧
    ShowsName t (t! "ADSB Version Number:                     ") versionNumberNames (bits d 41 43) ∧
    ShowsName t (t! "NIC Supplement:                          ") nicSupplementANames (bits d 44 44) ∧
    ShowsName t (t! "Navigational Accuracy Category Position: ") navigationalAccuracyCategoryPositionV1Names (bits d 45 48) ∧
    ShowsName t (t! "Horizontal Reference Direction:          ") horizontalReferenceDirectionNames (bits d 54 54) ∧
    ShowsName t (t! "    Probability of exceeding the Horizontal Containment Radius reported in the NIC Subfield without an indication: ") horizontalSILNames (bits d 51 52) ∧
    ShowsName t (t! "    Probability of exceeding the Vertical Integrity Containment Region (VPL) without an indication:                ") verticalSILNames (bits d 51 52) := by
  rw [shown_adsb_read F h]
  exact operationalSurfaceV1_text_partial F hF v a c d m h htc hk

/-- `operationalSurfaceV2_text_partial` -/
theorem code_operationalSurfaceV2_text_partial (F : FloatTexts) (hF : F.Faithful) (v : UInt8) (a c : Bool) (d : List UInt8) (m : ADSBMessage)
    (h : readADSBMessage v a c d = .returns (.val m) false) (htc : bits d 1 5 = 31) (hk : bits d 6 8 = 1 ∧ bits d 41 43 = 2) :
    let t := Shown.adsb.Message.ToString F m
    ShowsName t (t! "Subtype:                                 ") subtypeNames (bits d 6 8) ∧
    ShowsName t (t! "    1090ES IN (1090 MHz Extended Squitter):                   ") extendedSquitterInNames (bits d 12 12) ∧
    ShowsName t (t! "    B2 Low (Class B2 Transmit Power Less Than 70 Watts):      ") b2LowNames (bits d 15 15) ∧
    ShowsName t (t! "    UAT IN (Universal Access Transceiver):                    ") universalAccessTransceiverCapabilityNames (bits d 16 16) ∧
    ShowsLine t (t! "    NACV (Navigation Accuracy Category for Velocity):         ") (decimal (bits d 17 19)) ∧
    ShowsName t (t! "    NIC Supplement-C (NIC Supplement for use on the Surface): ") nicSupplementCNames (bits d 20 20) ∧
    ShowsName t (t! "Aircraft Length And Width                ") lengthWidthNames (bits d 21 24) ∧
    ShowsName t (t! "    ACAS Resolution Advisory Active: ") acaSResolutionAdvisoryActiveV2Names (bits d 27 27) ∧
    ShowsName t (t! "    Ident Switch Active:             ") identSwitchActiveNames (bits d 28 28) ∧
    ShowsName t (t! "    Single Antenna Flag:             ") singleAntennaFlagNames (bits d 30 30) ∧
    ShowsName t (t! "    System Design Assurance:         ") systemDesignAssuranceNames (bits d 31 32) ∧
    ShowsName t (t! "    GPS Antenna:                         Lateral Axis GPS Antenna:      ") gpsAntennaLateralNames (bits d 33 35) ∧
    ShowsName t (t! "        Longitudinal Axis GPS Antenna: ") gpsAntennaLongitudinalNames (bits d 36 40) ∧
    ShowsName t (t! "ADSB Version Number:                     ") versionNumberNames (bits d 41 43) ∧
    ShowsName t (t! "NIC Supplement:                          ") nicSupplementANames (bits d 44 44) ∧
    ShowsName t (t! "Navigational Accuracy Category Position: ") navigationalAccuracyCategoryPositionV2Names (bits d 45 48) ∧
    ShowsName t (t! "Source Integrity ReaderLevel:            ") sourceIntegrityLevelNames (bits d 51 52) ∧
    ShowsName t (t! "Source Integrity ReaderLevel Supplement: ") sourceIntegrityLevelSupplementNames (bits d 55 55) ∧
    ShowsName t (t! "Horizontal Reference Direction:          ") horizontalReferenceDirectionNames (bits d 54 54) := by
  rw [shown_adsb_read F h]
  exact operationalSurfaceV2_text_partial F hF v a c d m h htc hk

/-- `operational_surface_text_refuted` -/
theorem code_operational_surface_text_refuted (F : FloatTexts) (hF : F.Faithful) (v : UInt8) (a c : Bool) (d : List UInt8) (m : ADSBMessage)
    (h : readADSBMessage v a c d = .returns (.val m) false) (htc : bits d 1 5 = 31) (hk : bits d 6 8 = 1) :
    let t := Shown.adsb.Message.ToString F m
    ShowsName t (t! "NIC Baro:                                ") trackAngleHeadingNames (bits d 53 53) ∧
    (t.splitOn '\n').filter (fun l => (t! "Track").isPrefixOf l || (t! "Heading").isPrefixOf l) = [] := by
  rw [shown_adsb_read F h]
  exact operational_surface_text_refuted F hF v a c d m h htc hk

/-- `broadcast_advisory_text` -/
theorem code_broadcast_advisory_text (F : FloatTexts) (hF : F.Faithful) (v : UInt8) (a c : Bool) (d : List UInt8) (m : ADSBMessage)
    (h : readADSBMessage v a c d = .returns (.val m) false) (htc : bits d 1 5 = 28) (hst : bits d 6 8 = 2) :
    ∃ ra, readResolutionAdvisory (d.drop 1) = .ok ra ∧
      (Shown.adsb.Message.ToString F m).splitOn '\n' = [
        t! "Message:                   BDS 6,1 - Extended squitter emergency/priority status",
        t! "Subtype:                   2 - TCAS/ACAS RA Broadcast",
        t! "ACAS Data:                 "] ++
        advisoryLines (t! "Upward") (altitudeLine ra.threatIdentityAltitude)
          (threatRangeLine F (2 * bits d 44 49)) (bearingWritten (bits d 51 56)) (d.drop 1) := by
  rw [shown_adsb_read F h]
  exact broadcast_advisory_text F hF v a c d m h htc hst

/-- `bds50_text` -/
theorem code_bds50_text (F : FloatTexts) (hF : F.Faithful) (d : List UInt8) (l : List CommBMessage) (h : Gen.commb.ReadCommBMessage d = .ok l)
    (r : TrackAndTurnReport) (hm : .bds50 r ∈ l) :
    let t := Shown.bds.Message.ToString F (.bds50 r)
    ShowsLine t (t! "Roll Angle Status:                     ") (if bit d 1 then t! "true" else t! "false") ∧
    ShowsLine t (t! "Roll Angle (degrees):                  ") (F.float32 (sbits d 2 11 * (45 / 256))) ∧
    ShowsLine t (t! "True Track Angle Status:               ") (if bit d 12 then t! "true" else t! "false") ∧
    ShowsLine t (t! "True Track (degrees):                  ") (F.float32 (sbits d 13 23 * (90 / 512))) ∧
    ShowsLine t (t! "Ground Speed Status:                   ") (if bit d 24 then t! "true" else t! "false") ∧
    ShowsLine t (t! "Ground Speed (knots):                  ") (decimal (2 * bits d 25 34)) ∧
    ShowsLine t (t! "Track Angle Rate Status:               ") (if bit d 35 then t! "true" else t! "false") ∧
    ShowsLine t (t! "Track Angle Rate (degrees/second):     ") (F.float32 (sbits d 36 45 * (8 / 256))) ∧
    ShowsLine t (t! "True Air Speed Status:                 ") (if bit d 46 then t! "true" else t! "false") ∧
    ShowsLine t (t! "True Air Speed (knots):                ") (decimal (2 * bits d 47 56)) := by
  rw [shown_commB_read F (code_commB_read h) (List.mem_map_of_mem hm)]
  exact bds50_text F hF d (l.map .val) (code_commB_read h) r (List.mem_map_of_mem hm)

/-- `bds60_text` -/
theorem code_bds60_text (F : FloatTexts) (hF : F.Faithful) (d : List UInt8) (l : List CommBMessage) (h : Gen.commb.ReadCommBMessage d = .ok l)
    (r : HeadingAndTrackReport) (hm : .bds60 r ∈ l) :
    let t := Shown.bds.Message.ToString F (.bds60 r)
    ShowsLine t (t! "Magnetic Heading Status:                  ") (if bit d 1 then t! "true" else t! "false") ∧
    ShowsLine t (t! "Magnetic Heading (degrees):               ") (F.float32 (sbits d 2 12 * (90 / 512))) ∧
    ShowsLine t (t! "Indicated Air Speed Status:               ") (if bit d 13 then t! "true" else t! "false") ∧
    ShowsLine t (t! "Indicated Air Speed (knots):              ") (decimal (bits d 14 23)) ∧
    ShowsLine t (t! "Mach Status:                              ") (if bit d 24 then t! "true" else t! "false") ∧
    (∃ mach : ℚ, |mach - bits d 25 34 * (4 / 1000)| ≤ 1 / 2 ^ 20 ∧
      ShowsLine t (t! "Mach:                                     ") (F.float32 mach)) ∧
    ShowsLine t (t! "Barometric Altitude Rate Status:          ") (if bit d 35 then t! "true" else t! "false") ∧
    ShowsLine t (t! "Barometric Altitude Rate (feet/minute):   ") (decimalInt (sbits d 36 45 * 32)) ∧
    ShowsLine t (t! "Inertial Vertical Velocity Status:        ") (if bit d 46 then t! "true" else t! "false") ∧
    ShowsLine t (t! "Inertial Vertical Velocity (feet/minute): ") (decimalInt (sbits d 47 56 * 32)) := by
  rw [shown_commB_read F (code_commB_read h) (List.mem_map_of_mem hm)]
  exact bds60_text F hF d (l.map .val) (code_commB_read h) r (List.mem_map_of_mem hm)

/-- `bds40_text_refuted` -/
theorem code_bds40_text_refuted (F : FloatTexts) (hF : F.Faithful) (d : List UInt8) (l : List CommBMessage) (h : Gen.commb.ReadCommBMessage d = .ok l)
    (r : SelectedVerticalIntention) (hm : .bds40 r ∈ l) :
    let t := Shown.bds.Message.ToString F (.bds40 r)
    ShowsLine t (t! "MCP/FCU Selected Altitude:             ") (decimal (16 * bits d 15 26)) ∧
    ShowsLine t (t! "FMS Selected Altitude:                 ") (decimal (16 * bits d 2 13)) := by
  rw [shown_commB_read F (code_commB_read h) (List.mem_map_of_mem hm)]
  exact bds40_text_refuted F hF d (l.map .val) (code_commB_read h) r (List.mem_map_of_mem hm)

/-- `bds17_text` -/
theorem code_bds17_text (F : FloatTexts) (hF : F.Faithful) (d : List UInt8) (l : List CommBMessage) (h : Gen.commb.ReadCommBMessage d = .ok l)
    (r : GICBCapabilityReport) (hm : .bds17 r ∈ l) :
    let t := Shown.bds.Message.ToString F (.bds17 r)
    ShowsLine t (t! "0,5 Extended squitter airborne position:             ") (if bit d 1 then t! "true" else t! "false") ∧
    ShowsLine t (t! "0,6 Extended squitter surface position:              ") (if bit d 2 then t! "true" else t! "false") ∧
    ShowsLine t (t! "0,7 Extended squitter status:                        ") (if bit d 3 then t! "true" else t! "false") ∧
    ShowsLine t (t! "0,8 Extended squitter identification and category:   ") (if bit d 4 then t! "true" else t! "false") ∧
    ShowsLine t (t! "0,9 Extended squitter airborne velocity information: ") (if bit d 5 then t! "true" else t! "false") ∧
    ShowsLine t (t! "0,A Extended squitter event-driven information:      ") (if bit d 6 then t! "true" else t! "false") ∧
    ShowsLine t (t! "2,0 Aircraft identification:                         ") (if bit d 7 then t! "true" else t! "false") ∧
    ShowsLine t (t! "2,l Aircraft registration number:                    ") (if bit d 8 then t! "true" else t! "false") ∧
    ShowsLine t (t! "4,0 Selected vertical intention:                     ") (if bit d 9 then t! "true" else t! "false") ∧
    ShowsLine t (t! "4,l Next waypoint identifier:                        ") (if bit d 10 then t! "true" else t! "false") ∧
    ShowsLine t (t! "4,2 Next waypoint position:                          ") (if bit d 11 then t! "true" else t! "false") ∧
    ShowsLine t (t! "4,3 Next waypoint information:                       ") (if bit d 12 then t! "true" else t! "false") ∧
    ShowsLine t (t! "4,4 Meteorological routine report:                   ") (if bit d 13 then t! "true" else t! "false") ∧
    ShowsLine t (t! "4,5 Meteorological hazard report:                    ") (if bit d 14 then t! "true" else t! "false") ∧
    ShowsLine t (t! "4.8 VHF channel report:                              ") (if bit d 15 then t! "true" else t! "false") ∧
    ShowsLine t (t! "5,0 Track and turn report:                           ") (if bit d 16 then t! "true" else t! "false") ∧
    ShowsLine t (t! "5,1 Position coarse:                                 ") (if bit d 17 then t! "true" else t! "false") ∧
    ShowsLine t (t! "5,2 Position fine:                                   ") (if bit d 18 then t! "true" else t! "false") ∧
    ShowsLine t (t! "5,3 Air-referenced state vector:                     ") (if bit d 19 then t! "true" else t! "false") ∧
    ShowsLine t (t! "5,4 Waypoint 1:                                      ") (if bit d 20 then t! "true" else t! "false") ∧
    ShowsLine t (t! "5,5 Waypoint 2:                                      ") (if bit d 21 then t! "true" else t! "false") ∧
    ShowsLine t (t! "5,6 Waypoint 3:                                      ") (if bit d 22 then t! "true" else t! "false") ∧
    ShowsLine t (t! "5,F Quasi-static parameter monitoring:               ") (if bit d 23 then t! "true" else t! "false") ∧
    ShowsLine t (t! "6,0 Heading and speed report:                        ") (if bit d 24 then t! "true" else t! "false") ∧
    ShowsLine t (t! "F,1 Military applications:                           ") (if bit d 29 then t! "true" else t! "false") := by
  rw [shown_commB_read F (code_commB_read h) (List.mem_map_of_mem hm)]
  exact bds17_text F hF d (l.map .val) (code_commB_read h) r (List.mem_map_of_mem hm)

/-- `bds44_text_partial` -/
theorem code_bds44_text_partial (F : FloatTexts) (hF : F.Faithful) (d : List UInt8) (l : List CommBMessage) (h : Gen.commb.ReadCommBMessage d = .ok l)
    (r : RoutineAirReport) (hm : .bds44 r ∈ l) :
    let t := Shown.bds.Message.ToString F (.bds44 r)
    ShowsLine t (t! "Wind Speed Status:                  ") (if bit d 5 then t! "true" else t! "false") ∧
    ShowsLine t (t! "Wind Speed (knot):                  ") (decimal (bits d 7 14)) ∧
    ShowsLine t (t! "Wind Direction Status:              ") (if bit d 15 then t! "true" else t! "false") ∧
    ShowsLine t (t! "Wind Direction (degrees):           ") (F.float32 (bits d 16 23 * (180 / 128))) ∧
    ShowsLine t (t! "Static Air Temperature Status:      ") (if bit d 24 then t! "true" else t! "false") ∧
    ShowsLine t (t! "Static Air Temperature (degrees C): ") (F.float32 (sbits d 25 35 * (1 / 8))) ∧
    ShowsLine t (t! "Average Static Pressure Status:     ") (if bit d 36 then t! "true" else t! "false") ∧
    ShowsLine t (t! "Average Static Pressure (hPa):      ") (decimal (bits d 37 47)) ∧
    ShowsName t (t! "Turbulence Flag:                    ") turbulenceFlagNames (bits d 48 48) ∧
    ShowsLine t (t! "Humidity Status:                    ") (if bit d 49 then t! "true" else t! "false") ∧
    ShowsLine t (t! "Humidity (%):                       ") (F.float32 (bits d 50 56)) ∧
    (1 ≤ bits d 1 4 → ShowsName t (t! "Source:                             ") sourceNames (bits d 1 4)) := by
  rw [shown_commB_read F (code_commB_read h) (List.mem_map_of_mem hm)]
  exact bds44_text_partial F hF d (l.map .val) (code_commB_read h) r (List.mem_map_of_mem hm)

/-- `bds45_text` -/
theorem code_bds45_text (F : FloatTexts) (hF : F.Faithful) (d : List UInt8) (l : List CommBMessage) (h : Gen.commb.ReadCommBMessage d = .ok l)
    (r : HazardReport) (hm : .bds45 r ∈ l) :
    let t := Shown.bds.Message.ToString F (.bds45 r)
    ShowsLine t (t! "Wind Shear Status:                    ") (if bit d 1 then t! "true" else t! "false") ∧
    ShowsName t (t! "Wind Shear:                           ") hazardNames (bits d 2 3) ∧
    ShowsLine t (t! "Micro Burst Status:                   ") (if bit d 4 then t! "true" else t! "false") ∧
    ShowsName t (t! "Micro Burst:                          ") hazardNames (bits d 5 6) ∧
    ShowsLine t (t! "Icing Status:                         ") (if bit d 7 then t! "true" else t! "false") ∧
    ShowsName t (t! "Icing:                                ") hazardNames (bits d 8 9) ∧
    ShowsLine t (t! "Wake Vortex Status:                   ") (if bit d 10 then t! "true" else t! "false") ∧
    ShowsName t (t! "Wake Vortex:                          ") hazardNames (bits d 11 12) ∧
    ShowsLine t (t! "Static Air Temperature Status:        ") (if bit d 13 then t! "true" else t! "false") ∧
    ShowsLine t (t! "Static Air Temperature (degrees C):   ") (F.float32 (sbits d 14 24 * (1 / 8))) ∧
    ShowsLine t (t! "Radio Height Status:                  ") (if bit d 25 then t! "true" else t! "false") ∧
    ShowsLine t (t! "Radio Height (feet):                  ") (decimal (2 * bits d 26 37)) ∧
    ShowsLine t (t! "Turbulence Status:                    ") (if bit d 38 then t! "true" else t! "false") ∧
    (∃ edr : ℚ, |edr - bits d 39 44 / 50| ≤ 1 / 1048576 ∧ ShowsLine t (t! "Average Turbulence EDR Metric         ") (F.float32 edr)) ∧
    (∃ edr : ℚ, |edr - bits d 45 50 / 50| ≤ 1 / 1048576 ∧ ShowsLine t (t! "Peak Turbulence EDR Metric:           ") (F.float32 edr)) ∧
    ShowsLine t (t! "Turbulence Peak Delay Interval (min): ") (decimal (bits d 51 54)) := by
  rw [shown_commB_read F (code_commB_read h) (List.mem_map_of_mem hm)]
  exact bds45_text F hF d (l.map .val) (code_commB_read h) r (List.mem_map_of_mem hm)

/-- `bds10_text_partial` -/
theorem code_bds10_text_partial (F : FloatTexts) (hF : F.Faithful) (d : List UInt8) (l : List CommBMessage) (h : Gen.commb.ReadCommBMessage d = .ok l)
    (r : DataLinkCapabilityReport) (hm : .bds10 r ∈ l) :
    let t := Shown.bds.Message.ToString F (.bds10 r)
    ShowsName t (t! "ACAS Status                              ") names10ACASStatus (bits d 16 16) ∧
    ShowsName t (t! "ModeS Subnetwork Version                 ") names10ModeSSubnetworkVersion (bits d 17 23) ∧
    ShowsName t (t! "Transponder Enhanced Protocol Indicator  ") names10TransponderEnhancedProtocolIndicator (bits d 24 24) ∧
    ShowsName t (t! "ModeS Specific Services Capability       ") names10ModeSSpecificServicesCapability (bits d 25 25) ∧
    ShowsName t (t! "Uplink ELM Throughput Capability         ") names10UplinkELMThroughputCapability (bits d 26 28) ∧
    ShowsName t (t! "Downlink ELM Throughput Capability       ") names10DownlinkELMThroughputCapability (bits d 29 32) ∧
    ShowsName t (t! "Aircraft Identification Capability       ") names10AircraftIdentificationCapability (bits d 33 33) ∧
    ShowsName t (t! "Squitter Capability Subfield             ") names10SquitterCapabilitySubfield (bits d 34 34) ∧
    ShowsName t (t! "Common Usage GICB Capability             ") names10CommonUsageGICBCapability (bits d 36 36) ∧
    ShowsName t (t! "ACAS Hybrid Surveillance Capability      ") names10ACASHybridSurveillanceCapability (bits d 37 37) ∧
    ShowsName t (t! "ACAS Generation Capability               ") names10ACASGenerationCapability (bits d 38 38) ∧
    ShowsName t (t! "ACAS Applicable Document                 ") names10ACASApplicableDocument (bits d 39 40) := by
  rw [shown_commB_read F (code_commB_read h) (List.mem_map_of_mem hm)]
  exact bds10_text_partial F hF d (l.map .val) (code_commB_read h) r (List.mem_map_of_mem hm)

/-- `bds10_text_refuted` -/
theorem code_bds10_text_refuted (F : FloatTexts) (hF : F.Faithful) (d : List UInt8) (l : List CommBMessage) (h : Gen.commb.ReadCommBMessage d = .ok l)
    (r : DataLinkCapabilityReport) (hm : .bds10 r ∈ l) :
    let t := Shown.bds.Message.ToString F (.bds10 r)
    ShowsName t (t! "Continuation Flag:                       ") names10OverlayCommandCapability (bits d 15 15) ∧
    ShowsLine t (t! "Surveillance Identifier Code             ") (t! "0 - No surveillance identifier code capability") := by
  rw [shown_commB_read F (code_commB_read h) (List.mem_map_of_mem hm)]
  exact bds10_text_refuted F hF d (l.map .val) (code_commB_read h) r (List.mem_map_of_mem hm)

/-- `commB_advisory_text` -/
theorem code_commB_advisory_text (F : FloatTexts) (hF : F.Faithful) (d : List UInt8) (l : List CommBMessage)
    (h : Gen.commb.ReadCommBMessage d = .ok l) (r : ACASResolutionAdvisory) (hm : .bds30 r ∈ l) :
    ∃ ra, readResolutionAdvisory (d.drop 1) = .ok ra ∧
      (Shown.bds.Message.ToString F (.bds30 r)).splitOn '\n' = [
        t! "Message:                   BDS 3,0 - ACAS active resolution advisory",
        t! "ACAS Data:                 "] ++
        advisoryLines (t! "Upward") (altitudeLine ra.threatIdentityAltitude)
          (threatRangeLine F (2 * bits d 44 49)) (bearingWritten (bits d 51 56)) (d.drop 1) := by
  rw [shown_commB_read F (code_commB_read h) (List.mem_map_of_mem hm)]
  exact commB_advisory_text F hF d (l.map .val) (code_commB_read h) r (List.mem_map_of_mem hm)

/-- `surface_numbers` -/
theorem code_surface_numbers (v : UInt8) (a c : Bool) (d : List UInt8) (m : ADSBMessage)
    (h : readADSBMessage v a c d = .returns (.val m) false) (htc : SurfaceTC (bits d 1 5)) :
    ShowsNumber (Shown.adsb.Message.ToString (goFloats A) m) (t! "Movement Speed (knots):            ") (movementSpeed (bits d 6 12)) ∧
    ShowsNumber (Shown.adsb.Message.ToString (goFloats A) m) (t! "Ground Track (degrees):            ") (bits d 14 20 * (360 / 128)) := by
  rw [shown_adsb_read (goFloats A) h]
  exact surface_numbers v a c d m h htc

/-- `ground_speed_numbers` -/
theorem code_ground_speed_numbers (ha : AccurateAtan2 A) (v : UInt8) (a c : Bool) (d : List UInt8) (m : ADSBMessage)
    (h : readADSBMessage v a c d = .returns (.val m) false) (htc : bits d 1 5 = 19) (hst : bits d 6 8 = 1 ∨ bits d 6 8 = 2)
    (he : 1 ≤ bits d 15 24 ∧ bits d 15 24 ≤ 1022) (hn : 1 ≤ bits d 26 35 ∧ bits d 26 35 ≤ 1022) :
    let k := if bits d 6 8 = 1 then 1 else 4
    ShowsLine (Shown.adsb.Message.ToString (goFloats A) m) (t! "Computed Speed:                    ")
      (decimal (Nat.sqrt ((k * (bits d 15 24 - 1)) ^ 2 + (k * (bits d 26 35 - 1)) ^ 2)) ++ t! " (knots)") ∧
    ∃ track : ℝ, 0 ≤ track ∧ track < 360 ∧
      (let east := velocityComponent (bit d 14) k (bits d 15 24); let north := velocityComponent (bit d 25) k (bits d 26 35)
       Real.sqrt (north ^ 2 + east ^ 2) * Real.cos (track * Real.pi / 180) = north ∧
       Real.sqrt (north ^ 2 + east ^ 2) * Real.sin (track * Real.pi / 180) = east) ∧
      (MinusZeroTrack d → ShowsLine (Shown.adsb.Message.ToString (goFloats A) m) (t! "Computed Track:                    ") (t! "-0 (degrees)")) ∧
      (¬ MinusZeroTrack d → ∃ (q : ℚ) (t : Txt), |(q : ℝ) - track| ≤ 1 / 15000 ∧ PlainDecimal t q ∧
        ShowsLine (Shown.adsb.Message.ToString (goFloats A) m) (t! "Computed Track:                    ") (t ++ t! " (degrees)")) := by
  rw [shown_adsb_read (goFloats A) h]
  exact ground_speed_numbers ha v a c d m h htc hst he hn

/-- `airspeed_numbers` -/
theorem code_airspeed_numbers (v : UInt8) (a c : Bool) (d : List UInt8) (m : ADSBMessage)
    (h : readADSBMessage v a c d = .returns (.val m) false) (htc : bits d 1 5 = 19) (hst : bits d 6 8 = 3 ∨ bits d 6 8 = 4) :
    ShowsNear (Shown.adsb.Message.ToString (goFloats A) m) (t! "Magnetic Heading (degrees):          ") (bits d 15 24 * (360 / 1024)) (1 / 20000) := by
  rw [shown_adsb_read (goFloats A) h]
  exact airspeed_numbers v a c d m h htc hst

/-- `target_state_numbers` -/
theorem code_target_state_numbers (v : UInt8) (a c : Bool) (d : List UInt8) (m : ADSBMessage)
    (h : readADSBMessage v a c d = .returns (.val m) false) (htc : bits d 1 5 = 29) (hst : bits d 6 7 = 1) :
    ShowsNumber (Shown.adsb.Message.ToString (goFloats A) m) (t! "Barometric Pressure Setting:                   ")
      (if bits d 21 29 = 0 then 0 else 800 + 8 / 10 * (bits d 21 29 - 1)) ∧
    (bit d 31 = false → ShowsNear (Shown.adsb.Message.ToString (goFloats A) m) (t! "Selected Heading :                             ") (bits d 32 39 * (180 / 256)) (1 / 20000)) := by
  rw [shown_adsb_read (goFloats A) h]
  exact target_state_numbers v a c d m h htc hst

/-- `bds40_numbers` -/
theorem code_bds40_numbers (d : List UInt8) (l : List CommBMessage) (h : Gen.commb.ReadCommBMessage d = .ok l)
    (r : SelectedVerticalIntention) (hm : .bds40 r ∈ l) :
    ShowsNumber (Shown.bds.Message.ToString (goFloats A) (.bds40 r)) (t! "Barometric Pressure Setting:           ") (800 + bits d 28 39 * (1 / 10)) := by
  rw [shown_commB_read (goFloats A) (code_commB_read h) (List.mem_map_of_mem hm)]
  exact bds40_numbers d (l.map .val) (code_commB_read h) r (List.mem_map_of_mem hm)

/-- `bds44_numbers` -/
theorem code_bds44_numbers (d : List UInt8) (l : List CommBMessage) (h : Gen.commb.ReadCommBMessage d = .ok l)
    (r : RoutineAirReport) (hm : .bds44 r ∈ l) :
    ShowsNear (Shown.bds.Message.ToString (goFloats A) (.bds44 r)) (t! "Wind Direction (degrees):           ") (bits d 16 23 * (180 / 128)) (1 / 20000) ∧
    ShowsNumber (Shown.bds.Message.ToString (goFloats A) (.bds44 r)) (t! "Static Air Temperature (degrees C): ") (sbits d 25 35 * (1 / 8)) ∧
    ShowsNumber (Shown.bds.Message.ToString (goFloats A) (.bds44 r)) (t! "Humidity (%):                       ") (bits d 50 56) := by
  rw [shown_commB_read (goFloats A) (code_commB_read h) (List.mem_map_of_mem hm)]
  exact bds44_numbers d (l.map .val) (code_commB_read h) r (List.mem_map_of_mem hm)

/-- `bds45_numbers` -/
theorem code_bds45_numbers (d : List UInt8) (l : List CommBMessage) (h : Gen.commb.ReadCommBMessage d = .ok l)
    (r : HazardReport) (hm : .bds45 r ∈ l) :
    ShowsNumber (Shown.bds.Message.ToString (goFloats A) (.bds45 r)) (t! "Static Air Temperature (degrees C):   ") (sbits d 14 24 * (1 / 8)) ∧
    ShowsNear (Shown.bds.Message.ToString (goFloats A) (.bds45 r)) (t! "Average Turbulence EDR Metric         ") (bits d 39 44 / 50) (1 / 500000) ∧
    ShowsNear (Shown.bds.Message.ToString (goFloats A) (.bds45 r)) (t! "Peak Turbulence EDR Metric:           ") (bits d 45 50 / 50) (1 / 500000) := by
  rw [shown_commB_read (goFloats A) (code_commB_read h) (List.mem_map_of_mem hm)]
  exact bds45_numbers d (l.map .val) (code_commB_read h) r (List.mem_map_of_mem hm)

/-- `bds50_numbers` -/
theorem code_bds50_numbers (d : List UInt8) (l : List CommBMessage) (h : Gen.commb.ReadCommBMessage d = .ok l)
    (r : TrackAndTurnReport) (hm : .bds50 r ∈ l) :
    ShowsNear (Shown.bds.Message.ToString (goFloats A) (.bds50 r)) (t! "Roll Angle (degrees):                  ") (sbits d 2 11 * (45 / 256)) (1 / 20000) ∧
    ShowsNear (Shown.bds.Message.ToString (goFloats A) (.bds50 r)) (t! "True Track (degrees):                  ") (sbits d 13 23 * (90 / 512)) (1 / 20000) ∧
    ShowsNumber (Shown.bds.Message.ToString (goFloats A) (.bds50 r)) (t! "Track Angle Rate (degrees/second):     ") (sbits d 36 45 * (8 / 256)) := by
  rw [shown_commB_read (goFloats A) (code_commB_read h) (List.mem_map_of_mem hm)]
  exact bds50_numbers d (l.map .val) (code_commB_read h) r (List.mem_map_of_mem hm)

/-- `bds60_numbers` -/
theorem code_bds60_numbers (d : List UInt8) (l : List CommBMessage) (h : Gen.commb.ReadCommBMessage d = .ok l)
    (r : HeadingAndTrackReport) (hm : .bds60 r ∈ l) :
    ShowsNear (Shown.bds.Message.ToString (goFloats A) (.bds60 r)) (t! "Magnetic Heading (degrees):               ") (sbits d 2 12 * (90 / 512)) (1 / 20000) ∧
    ShowsNear (Shown.bds.Message.ToString (goFloats A) (.bds60 r)) (t! "Mach:                                     ") (bits d 25 34 * (4 / 1000)) (1 / 500000) := by
  rw [shown_commB_read (goFloats A) (code_commB_read h) (List.mem_map_of_mem hm)]
  exact bds60_numbers d (l.map .val) (code_commB_read h) r (List.mem_map_of_mem hm)

end Modes
