import Verif.Props.TextShows
/-!
# C77, continued: the text of the capability, weather and hazard reports
-/
set_option linter.unusedVariables false
namespace Spec

/-- The text has exactly one line with the label, and it shows the name of the number `n`. -/
def ShowsName (text label : List Char) (names : List (List Char)) (n : Nat) : Prop :=
  ∃ name, names[n]? = some name ∧ ShowsLine text label name

end Spec
namespace Modes
open Spec

theorem commB_coherent (d : List UInt8) (l : List (Iface CommBMessage)) (h : readCommBMessage d = .ok l) (m : CommBMessage)
    (hm : .val m ∈ l) : m.coherent = true := by
  by_cases h7 : d.length = 7
  · obtain ⟨l', hl, -, hc, -⟩ := commB_sound_complete d h7
    rw [hl] at h
    cases h
    obtain ⟨m', hm', he⟩ := List.mem_map.1 hm
    cases he
    exact (hc m hm').2
  · rw [readCommB_short d h7] at h
    cases h

/-- C77. The text of the BDS 1,7 candidate shows, for each register, whether its bit is set. -/
theorem bds17_text (F : FloatTexts) (hF : F.Faithful) (d : List UInt8) (l : List (Iface CommBMessage)) (h : readCommBMessage d = .ok l)
    (r : GICBCapabilityReport) (hm : .val (.bds17 r) ∈ l) :
    let t := CommBMessage.text F (.bds17 r)
    ShowsLine t (t! "0,5 Extended squitter airborne position:             ") (if bit d 1 then t! "true" else t! "false") ∧
    ShowsLine t (t! "0,6 Extended squitter surface position:              ") (if bit d 2 then t! "true" else t! "false") ∧
    ShowsLine t (t! "0,7 Extended squitter status:                        ") (if bit d 3 then t! "true" else t! "false") ∧
    ShowsLine t (t! "0,8 Extended squitter identification and category:   ") (if bit d 4 then t! "true" else t! "false") ∧
    ShowsLine t (t! "0,9 Extended squitter airborne velocity information: ") (if bit d 5 then t! "true" else t! "false") ∧
    ShowsLine t (t! "0,A Extended squitter event-driven information:      ") (if bit d 6 then t! "true" else t! "false") ∧
    ShowsLine t (t! "2,0 Aircraft identification:                         ") (if bit d 7 then t! "true" else t! "false") ∧
    ShowsLine t (t! "2,l Aircraft registration number:                    ") (if bit d 8 then t! "true" else t! "false") ∧
    ShowsLine t (t! "4,0 Selected vertical intention:                     ") (if bit d 9 then t! "true" else t! "false") ∧
    ShowsLine t (t! "4,l Next waypoint identifier:                        ") (if bit d 10 then t! "true" else t! "false") ∧
    ShowsLine t (t! "4,2 Next waypoint position:                          ") (if bit d 11 then t! "true" else t! "false") ∧
    ShowsLine t (t! "4,3 Next waypoint information:                       ") (if bit d 12 then t! "true" else t! "false") ∧
    ShowsLine t (t! "4,4 Meteorological routine report:                   ") (if bit d 13 then t! "true" else t! "false") ∧
    ShowsLine t (t! "4,5 Meteorological hazard report:                    ") (if bit d 14 then t! "true" else t! "false") ∧
    ShowsLine t (t! "4.8 VHF channel report:                              ") (if bit d 15 then t! "true" else t! "false") ∧
    ShowsLine t (t! "5,0 Track and turn report:                           ") (if bit d 16 then t! "true" else t! "false") ∧
    ShowsLine t (t! "5,1 Position coarse:                                 ") (if bit d 17 then t! "true" else t! "false") ∧
    ShowsLine t (t! "5,2 Position fine:                                   ") (if bit d 18 then t! "true" else t! "false") ∧
    ShowsLine t (t! "5,3 Air-referenced state vector:                     ") (if bit d 19 then t! "true" else t! "false") ∧
    ShowsLine t (t! "5,4 Waypoint 1:                                      ") (if bit d 20 then t! "true" else t! "false") ∧
    ShowsLine t (t! "5,5 Waypoint 2:                                      ") (if bit d 21 then t! "true" else t! "false") ∧
    ShowsLine t (t! "5,6 Waypoint 3:                                      ") (if bit d 22 then t! "true" else t! "false") ∧
    ShowsLine t (t! "5,F Quasi-static parameter monitoring:               ") (if bit d 23 then t! "true" else t! "false") ∧
    ShowsLine t (t! "6,0 Heading and speed report:                        ") (if bit d 24 then t! "true" else t! "false") ∧
    ShowsLine t (t! "F,1 Military applications:                           ") (if bit d 29 then t! "true" else t! "false") := by
  have hr := commB_reads d l h _ hm
  have hs := commB_splitOn F hF d _ hr
  have hl := bds17_content d r hr
  intro t
  unfold ShowsLine
  rw [hs, ← hl.extendedSquitterAirbornePosition, ← hl.extendedSquitterSurfacePosition, ← hl.extendedSquitterStatus, ← hl.extendedSquitterIdentificationAndCategory, ← hl.extendedSquitterAirborneVelocityInformation, ← hl.extendedSquitterEventDrivenInformation, ← hl.aircraftIdentification, ← hl.aircraftRegistrationNumber, ← hl.selectedVerticalIntention, ← hl.nextWaypointIdentifier, ← hl.nextWaypointPosition, ← hl.nextWaypointInformation, ← hl.meteorologicalRoutineReport, ← hl.meteorologicalHazardReport, ← hl.vhfChannelReport, ← hl.trackAndTurnReport, ← hl.positionCoarse, ← hl.positionFine, ← hl.airReferencedStateVector, ← hl.waypoint1, ← hl.waypoint2, ← hl.waypoint3, ← hl.quasiStaticParameterMonitoring, ← hl.headingAndSpeedReport, ← hl.militaryApplications]
  exact ⟨rfl, rfl, rfl, rfl, rfl, rfl, rfl, rfl, rfl, rfl, rfl, rfl, rfl, rfl, rfl, rfl, rfl, rfl, rfl, rfl, rfl, rfl, rfl, rfl, rfl⟩

/-- The printed sources of a weather report. -/
def _root_.Spec.sourceNames : List (List Char) :=
  [t! "0 - Invalid", t! "1 - INS", t! "2 - GNSS", t! "3 - DME/DME", t! "4 - VOR/DMS"]

theorem sourceNames_spec (x : UInt8) (n : Nat) (hn : n < 5) (h : x.toNat = n) : sourceNames[n]? = some (Text.bds44Source x) := by
  have : ∀ n < 5, sourceNames[n]? = some (Text.bds44Source (UInt8.ofNat n)) := by decide +kernel
  rw [this n hn, ← h, UInt8.ofNat_toNat]

/-- The printed turbulence flag. -/
def _root_.Spec.turbulenceFlagNames : List (List Char) :=
  [t! "0 - turbulence data not available in Register 45", t! "1 - turbulence data available in Register 45"]

theorem turbulenceFlagNames_spec (x : UInt8) (n : Nat) (hn : n < 2) (h : x.toNat = n) : turbulenceFlagNames[n]? = some (Text.bds44TurbulenceFlag x) := by
  have : ∀ n < 2, turbulenceFlagNames[n]? = some (Text.bds44TurbulenceFlag (UInt8.ofNat n)) := by decide +kernel
  rw [this n hn, ← h, UInt8.ofNat_toNat]

/-- The printed hazard levels. -/
def _root_.Spec.hazardNames : List (List Char) :=
  [t! "0 - Nil", t! "1 - Light", t! "2 - Moderate", t! "3 - Severe"]

theorem hazardNames_spec (x : UInt8) (n : Nat) (hn : n < 4) (h : x.toNat = n) : hazardNames[n]? = some (Text.bds45HazardLevel x) := by
  have : ∀ n < 4, hazardNames[n]? = some (Text.bds45HazardLevel (UInt8.ofNat n)) := by decide +kernel
  rw [this n hn, ← h, UInt8.ofNat_toNat]

/-- C77, weather: the text of the BDS 4,4 candidate shows the status flags and the numbers of the field, in the documented units,
and for a report with a source that source. Missing: the first bit of the wind speed, bit 6, which the code does not read (C49). -/
theorem bds44_text_partial (F : FloatTexts) (hF : F.Faithful) (d : List UInt8) (l : List (Iface CommBMessage)) (h : readCommBMessage d = .ok l)
    (r : RoutineAirReport) (hm : .val (.bds44 r) ∈ l) :
    let t := CommBMessage.text F (.bds44 r)
    ShowsLine t (t! "Wind Speed Status:                  ") (if bit d 5 then t! "true" else t! "false") ∧
    ShowsLine t (t! "Wind Speed (knot):                  ") (decimal (bits d 7 14)) ∧
    ShowsLine t (t! "Wind Direction Status:              ") (if bit d 15 then t! "true" else t! "false") ∧
    ShowsLine t (t! "Wind Direction (degrees):           ") (F.float32 (bits d 16 23 * (180 / 128))) ∧
    ShowsLine t (t! "Static Air Temperature Status:      ") (if bit d 24 then t! "true" else t! "false") ∧
    ShowsLine t (t! "Static Air Temperature (degrees C): ") (F.float32 (sbits d 25 35 * (1 / 8))) ∧
    ShowsLine t (t! "Average Static Pressure Status:     ") (if bit d 36 then t! "true" else t! "false") ∧
    ShowsLine t (t! "Average Static Pressure (hPa):      ") (decimal (bits d 37 47)) ∧
    ShowsName t (t! "Turbulence Flag:                    ") turbulenceFlagNames (bits d 48 48) ∧
    ShowsLine t (t! "Humidity Status:                    ") (if bit d 49 then t! "true" else t! "false") ∧
    ShowsLine t (t! "Humidity (%):                       ") (F.float32 (bits d 50 56)) ∧
    (1 ≤ bits d 1 4 → ShowsName t (t! "Source:                             ") sourceNames (bits d 1 4)) := by
  have hr := commB_reads d l h _ hm
  have hs := commB_splitOn F hF d _ hr
  have hl := bds44_layout d
  have hc := bds44_content_partial d
  have hf : bits d 48 48 < 2 := bits_lt d 48 48 1 rfl
  rw [show readBDS44 d = .returns (.val r) false from hr] at hl
  intro t
  unfold ShowsName ShowsLine
  rw [hs]
  cases r with
  | v0 r => exact hl.elim
  | v1 r =>
    have hl' := hc.2.1 r hl.2.2.2
    rw [← hl'.windSpeedStatus, ← hl'.windSpeed, ← hl'.windDirectionStatus, ← hl'.windDirection, ← hl'.staticAirTemperatureStatus,
      ← hl'.staticAirTemperature, ← hl'.averageStaticPressureStatus, ← hl'.averageStaticPressure, ← hl'.humidityStatus, ← hl'.humidity]
    refine ⟨rfl, rfl, rfl, rfl, rfl, rfl, rfl, rfl, ⟨_, turbulenceFlagNames_spec _ _ hf hl'.turbulenceFlag, rfl⟩, rfl, rfl, fun h1 => ?_⟩
    have := hl.2.2.1
    omega
  | v2 r =>
    have hl' := hc.2.2 r hl.2.2.2.2
    rw [← hl'.windSpeedStatus, ← hl'.windSpeed, ← hl'.windDirectionStatus, ← hl'.windDirection, ← hl'.staticAirTemperatureStatus,
      ← hl'.staticAirTemperature, ← hl'.averageStaticPressureStatus, ← hl'.averageStaticPressure, ← hl'.humidityStatus, ← hl'.humidity]
    exact ⟨rfl, rfl, rfl, rfl, rfl, rfl, rfl, rfl, ⟨_, turbulenceFlagNames_spec _ _ hf hl'.turbulenceFlag, rfl⟩, rfl, rfl,
      fun _ => ⟨_, sourceNames_spec _ _ (by have := hl.2.2.2.1; omega) hl'.source, rfl⟩⟩

/-- C77. The text of the BDS 4,5 candidate shows the status flags, the hazard levels by name and the numbers of the field, in the
documented units (the eddy dissipation rates within the rounding of a `float32`). -/
theorem bds45_text (F : FloatTexts) (hF : F.Faithful) (d : List UInt8) (l : List (Iface CommBMessage)) (h : readCommBMessage d = .ok l)
    (r : HazardReport) (hm : .val (.bds45 r) ∈ l) :
    let t := CommBMessage.text F (.bds45 r)
    ShowsLine t (t! "Wind Shear Status:                    ") (if bit d 1 then t! "true" else t! "false") ∧
    ShowsName t (t! "Wind Shear:                           ") hazardNames (bits d 2 3) ∧
    ShowsLine t (t! "Micro Burst Status:                   ") (if bit d 4 then t! "true" else t! "false") ∧
    ShowsName t (t! "Micro Burst:                          ") hazardNames (bits d 5 6) ∧
    ShowsLine t (t! "Icing Status:                         ") (if bit d 7 then t! "true" else t! "false") ∧
    ShowsName t (t! "Icing:                                ") hazardNames (bits d 8 9) ∧
    ShowsLine t (t! "Wake Vortex Status:                   ") (if bit d 10 then t! "true" else t! "false") ∧
    ShowsName t (t! "Wake Vortex:                          ") hazardNames (bits d 11 12) ∧
    ShowsLine t (t! "Static Air Temperature Status:        ") (if bit d 13 then t! "true" else t! "false") ∧
    ShowsLine t (t! "Static Air Temperature (degrees C):   ") (F.float32 (sbits d 14 24 * (1 / 8))) ∧
    ShowsLine t (t! "Radio Height Status:                  ") (if bit d 25 then t! "true" else t! "false") ∧
    ShowsLine t (t! "Radio Height (feet):                  ") (decimal (2 * bits d 26 37)) ∧
    ShowsLine t (t! "Turbulence Status:                    ") (if bit d 38 then t! "true" else t! "false") ∧
    (∃ edr : ℚ, |edr - bits d 39 44 / 50| ≤ 1 / 1048576 ∧ ShowsLine t (t! "Average Turbulence EDR Metric         ") (F.float32 edr)) ∧
    (∃ edr : ℚ, |edr - bits d 45 50 / 50| ≤ 1 / 1048576 ∧ ShowsLine t (t! "Peak Turbulence EDR Metric:           ") (F.float32 edr)) ∧
    ShowsLine t (t! "Turbulence Peak Delay Interval (min): ") (decimal (bits d 51 54)) := by
  have hr := commB_reads d l h _ hm
  have hs := commB_splitOn F hF d _ hr
  have hl := bds45_layout d
  have hc := bds45_content d
  rw [show readBDS45 d = .returns (.val r) false from hr] at hl
  intro t
  unfold ShowsName ShowsLine
  rw [hs]
  cases r with
  | v0 r => exact hl.elim
  | v1 r =>
    have hl' := hc.2 r hl.2.2.2
    have q (i j : Nat) (e : j + 1 - i = 2) : bits d i j < 4 := bits_lt d i j 2 e
    rw [← hl'.windShearStatus, ← hl'.microBurstStatus, ← hl'.icingStatus, ← hl'.wakeVortexStatus, ← hl'.staticAirTemperatureStatus,
      ← hl'.staticAirTemperature, ← hl'.radioHeightStatus, ← hl'.radioHeight, ← hl'.turbulenceStatus, ← hl'.peakDelay]
    exact ⟨rfl, ⟨_, hazardNames_spec _ _ (q 2 3 rfl) hl'.windShear, rfl⟩, rfl, ⟨_, hazardNames_spec _ _ (q 5 6 rfl) hl'.microBurst, rfl⟩,
      rfl, ⟨_, hazardNames_spec _ _ (q 8 9 rfl) hl'.icing, rfl⟩, rfl, ⟨_, hazardNames_spec _ _ (q 11 12 rfl) hl'.wakeVortex, rfl⟩,
      rfl, rfl, rfl, rfl, rfl, ⟨_, hl'.averageEDR, rfl⟩, ⟨_, hl'.peakEDR, rfl⟩, rfl⟩

/-- The printed values of this field of a data link capability report. -/
def _root_.Spec.names10OverlayCommandCapability : List (List Char) :=
  [t! "0 - No Overlay Command Capability", t! "1 - Overlay Command Capability"]

theorem names10OverlayCommandCapability_spec (x : UInt8) (n : Nat) (hn : n < 2) (h : x.toNat = n) : names10OverlayCommandCapability[n]? = some (Text.bds10OverlayCommandCapability x) := by
  have : ∀ n < 2, names10OverlayCommandCapability[n]? = some (Text.bds10OverlayCommandCapability (UInt8.ofNat n)) := by decide +kernel
  rw [this n hn, ← h, UInt8.ofNat_toNat]

/-- The printed values of this field of a data link capability report. -/
def _root_.Spec.names10ACASStatus : List (List Char) :=
  [t! "0 - ACAS Failed or On Standby", t! "1 - ACAS Operational"]

theorem names10ACASStatus_spec (x : UInt8) (n : Nat) (hn : n < 2) (h : x.toNat = n) : names10ACASStatus[n]? = some (Text.bds10ACASStatus x) := by
  have : ∀ n < 2, names10ACASStatus[n]? = some (Text.bds10ACASStatus (UInt8.ofNat n)) := by decide +kernel
  rw [this n hn, ← h, UInt8.ofNat_toNat]

/-- The printed values of this field of a data link capability report (the number in front is 1 for the versions 2 to 5 too). -/
def _root_.Spec.names10ModeSSubnetworkVersion : List (List Char) :=
  [t! "0 - Mode S subnetwork not available", t! "1 - Mode S subnetwork Version 1 - ICAO Doc 9688 (1996)", t! "1 - Mode S subnetwork Version 2 - ICAO Doc 9688 (1997)", t! "1 - Mode S subnetwork Version 3 - ICAO Annex 10, Vol III, Amdt 77", t! "1 - Mode S subnetwork Version 4 - ICAO Doc 9871, Edition 1", t! "1 - Mode S subnetwork Version 5 - ICAO Doc 9871, Edition 2"]

theorem names10ModeSSubnetworkVersion_spec (x : UInt8) (n : Nat) (hn : n < 6) (h : x.toNat = n) : names10ModeSSubnetworkVersion[n]? = some (Text.bds10ModeSSubnetworkVersion x) := by
  have : ∀ n < 6, names10ModeSSubnetworkVersion[n]? = some (Text.bds10ModeSSubnetworkVersion (UInt8.ofNat n)) := by decide +kernel
  rw [this n hn, ← h, UInt8.ofNat_toNat]

/-- The printed values of this field of a data link capability report. -/
def _root_.Spec.names10TransponderEnhancedProtocolIndicator : List (List Char) :=
  [t! "0 - Transponder Level 2 to 4", t! "1 - Transponder Level 5"]

theorem names10TransponderEnhancedProtocolIndicator_spec (x : UInt8) (n : Nat) (hn : n < 2) (h : x.toNat = n) : names10TransponderEnhancedProtocolIndicator[n]? = some (Text.bds10TransponderEnhancedProtocolIndicator x) := by
  have : ∀ n < 2, names10TransponderEnhancedProtocolIndicator[n]? = some (Text.bds10TransponderEnhancedProtocolIndicator (UInt8.ofNat n)) := by decide +kernel
  rw [this n hn, ← h, UInt8.ofNat_toNat]

/-- The printed values of this field of a data link capability report. -/
def _root_.Spec.names10ModeSSpecificServicesCapability : List (List Char) :=
  [t! "0 - no Mode S specific service is present", t! "1 - at least one Mode S specific service is present"]

theorem names10ModeSSpecificServicesCapability_spec (x : UInt8) (n : Nat) (hn : n < 2) (h : x.toNat = n) : names10ModeSSpecificServicesCapability[n]? = some (Text.bds10ModeSSpecificServicesCapability x) := by
  have : ∀ n < 2, names10ModeSSpecificServicesCapability[n]? = some (Text.bds10ModeSSpecificServicesCapability (UInt8.ofNat n)) := by decide +kernel
  rw [this n hn, ← h, UInt8.ofNat_toNat]

/-- The printed values of this field of a data link capability report. -/
def _root_.Spec.names10UplinkELMThroughputCapability : List (List Char) :=
  [t! "0 - No UELM Capability", t! "1 - 16 UELM segments in 1 second", t! "2 - 16 UELM segments in 500 milliseconds", t! "3 - 16 UELM segments in 250 milliseconds", t! "4 - 16 UELM segments in 125 milliseconds", t! "5 - 16 UELM segments in 60 milliseconds", t! "6 - 16 UELM segments in 30 milliseconds"]

theorem names10UplinkELMThroughputCapability_spec (x : UInt8) (n : Nat) (hn : n < 7) (h : x.toNat = n) : names10UplinkELMThroughputCapability[n]? = some (Text.bds10UplinkELMThroughputCapability x) := by
  have : ∀ n < 7, names10UplinkELMThroughputCapability[n]? = some (Text.bds10UplinkELMThroughputCapability (UInt8.ofNat n)) := by decide +kernel
  rw [this n hn, ← h, UInt8.ofNat_toNat]

/-- The printed values of this field of a data link capability report. -/
def _root_.Spec.names10DownlinkELMThroughputCapability : List (List Char) :=
  [t! "0 - No DEML Capability", t! "1 - One 4 segments DELM every second", t! "2 - One 8 segments DELM every second", t! "3 - One 16 segments DELM every second", t! "4 - One 16 segments DELM every 500 ms", t! "5 - One 16 segments DELM every 250 ms", t! "6 - One 16 segments DELM every 125 ms"]

theorem names10DownlinkELMThroughputCapability_spec (x : UInt8) (n : Nat) (hn : n < 7) (h : x.toNat = n) : names10DownlinkELMThroughputCapability[n]? = some (Text.bds10DownlinkELMThroughputCapability x) := by
  have : ∀ n < 7, names10DownlinkELMThroughputCapability[n]? = some (Text.bds10DownlinkELMThroughputCapability (UInt8.ofNat n)) := by decide +kernel
  rw [this n hn, ← h, UInt8.ofNat_toNat]

/-- The printed values of this field of a data link capability report. -/
def _root_.Spec.names10AircraftIdentificationCapability : List (List Char) :=
  [t! "0 - Aircraft Identification is coming through ADLP", t! "1 - Aircraft Identification is coming through a separate interface"]

theorem names10AircraftIdentificationCapability_spec (x : UInt8) (n : Nat) (hn : n < 2) (h : x.toNat = n) : names10AircraftIdentificationCapability[n]? = some (Text.bds10AircraftIdentificationCapability x) := by
  have : ∀ n < 2, names10AircraftIdentificationCapability[n]? = some (Text.bds10AircraftIdentificationCapability (UInt8.ofNat n)) := by decide +kernel
  rw [this n hn, ← h, UInt8.ofNat_toNat]

/-- The printed values of this field of a data link capability report. -/
def _root_.Spec.names10SquitterCapabilitySubfield : List (List Char) :=
  [t! "0 - Both registers 05 and 06 have not been updated recently", t! "1 - Both registers 05 and 06 have been updated within the last ten, plus or minus one, seconds"]

theorem names10SquitterCapabilitySubfield_spec (x : UInt8) (n : Nat) (hn : n < 2) (h : x.toNat = n) : names10SquitterCapabilitySubfield[n]? = some (Text.bds10SquitterCapabilitySubfield x) := by
  have : ∀ n < 2, names10SquitterCapabilitySubfield[n]? = some (Text.bds10SquitterCapabilitySubfield (UInt8.ofNat n)) := by decide +kernel
  rw [this n hn, ← h, UInt8.ofNat_toNat]

/-- The printed values of this field of a data link capability report. -/
def _root_.Spec.names10CommonUsageGICBCapability : List (List Char) :=
  [t! "0 - The common usage GICB capability report (register 17) is unchange", t! "1 - The common usage GICB capability report (register 17) changed"]

theorem names10CommonUsageGICBCapability_spec (x : UInt8) (n : Nat) (hn : n < 2) (h : x.toNat = n) : names10CommonUsageGICBCapability[n]? = some (Text.bds10CommonUsageGICBCapability x) := by
  have : ∀ n < 2, names10CommonUsageGICBCapability[n]? = some (Text.bds10CommonUsageGICBCapability (UInt8.ofNat n)) := by decide +kernel
  rw [this n hn, ← h, UInt8.ofNat_toNat]

/-- The printed values of this field of a data link capability report. -/
def _root_.Spec.names10ACASHybridSurveillanceCapability : List (List Char) :=
  [t! "0 - No capability of hybrid surveillance", t! "1 - Capability of hybrid surveillance"]

theorem names10ACASHybridSurveillanceCapability_spec (x : UInt8) (n : Nat) (hn : n < 2) (h : x.toNat = n) : names10ACASHybridSurveillanceCapability[n]? = some (Text.bds10ACASHybridSurveillanceCapability x) := by
  have : ∀ n < 2, names10ACASHybridSurveillanceCapability[n]? = some (Text.bds10ACASHybridSurveillanceCapability (UInt8.ofNat n)) := by decide +kernel
  rw [this n hn, ← h, UInt8.ofNat_toNat]

/-- The printed values of this field of a data link capability report. -/
def _root_.Spec.names10ACASGenerationCapability : List (List Char) :=
  [t! "0 - The ACAS is generating TAs only", t! "1 - The ACAS is generating both TAs and RAs"]

theorem names10ACASGenerationCapability_spec (x : UInt8) (n : Nat) (hn : n < 2) (h : x.toNat = n) : names10ACASGenerationCapability[n]? = some (Text.bds10ACASGenerationCapability x) := by
  have : ∀ n < 2, names10ACASGenerationCapability[n]? = some (Text.bds10ACASGenerationCapability (UInt8.ofNat n)) := by decide +kernel
  rw [this n hn, ← h, UInt8.ofNat_toNat]

/-- The printed values of this field of a data link capability report. -/
def _root_.Spec.names10ACASApplicableDocument : List (List Char) :=
  [t! "RTCA DO-185", t! "RTCA DO-185B", t! "RTCA DO-185A"]

theorem names10ACASApplicableDocument_spec (x : UInt8) (n : Nat) (hn : n < 3) (h : x.toNat = n) : names10ACASApplicableDocument[n]? = some (Text.bds10ACASApplicableDocument x) := by
  have : ∀ n < 3, names10ACASApplicableDocument[n]? = some (Text.bds10ACASApplicableDocument (UInt8.ofNat n)) := by decide +kernel
  rw [this n hn, ← h, UInt8.ofNat_toNat]

/-- C77, data link capability: the text of the BDS 1,0 candidate shows the meaning of each field. Missing: the continuation flag,
which is not shown (`bds10_text_refuted`), and the surveillance identifier code, which is read at another place (C51). -/
theorem bds10_text_partial (F : FloatTexts) (hF : F.Faithful) (d : List UInt8) (l : List (Iface CommBMessage)) (h : readCommBMessage d = .ok l)
    (r : DataLinkCapabilityReport) (hm : .val (.bds10 r) ∈ l) :
    let t := CommBMessage.text F (.bds10 r)
    ShowsName t (t! "ACAS Status                              ") names10ACASStatus (bits d 16 16) ∧
    ShowsName t (t! "ModeS Subnetwork Version                 ") names10ModeSSubnetworkVersion (bits d 17 23) ∧
    ShowsName t (t! "Transponder Enhanced Protocol Indicator  ") names10TransponderEnhancedProtocolIndicator (bits d 24 24) ∧
    ShowsName t (t! "ModeS Specific Services Capability       ") names10ModeSSpecificServicesCapability (bits d 25 25) ∧
    ShowsName t (t! "Uplink ELM Throughput Capability         ") names10UplinkELMThroughputCapability (bits d 26 28) ∧
    ShowsName t (t! "Downlink ELM Throughput Capability       ") names10DownlinkELMThroughputCapability (bits d 29 32) ∧
    ShowsName t (t! "Aircraft Identification Capability       ") names10AircraftIdentificationCapability (bits d 33 33) ∧
    ShowsName t (t! "Squitter Capability Subfield             ") names10SquitterCapabilitySubfield (bits d 34 34) ∧
    ShowsName t (t! "Common Usage GICB Capability             ") names10CommonUsageGICBCapability (bits d 36 36) ∧
    ShowsName t (t! "ACAS Hybrid Surveillance Capability      ") names10ACASHybridSurveillanceCapability (bits d 37 37) ∧
    ShowsName t (t! "ACAS Generation Capability               ") names10ACASGenerationCapability (bits d 38 38) ∧
    ShowsName t (t! "ACAS Applicable Document                 ") names10ACASApplicableDocument (bits d 39 40) := by
  have hr := commB_reads d l h _ hm
  have hs := commB_splitOn F hF d _ hr
  have hl := bds10_content_partial d r hr
  have hcoh := (bds10_coherent d r hr).1 (commB_coherent d l h _ hm)
  have h40 : bits d 39 40 ≤ 2 := by
    by_cases h16 : bits d 16 16 = 0
    · rw [(hcoh.1 h16).2.2]; omega
    · exact hcoh.2.1 h16
  intro t
  unfold ShowsName ShowsLine
  rw [hs]
  exact ⟨⟨_, names10ACASStatus_spec _ _ (bits_lt d 16 16 1 rfl) hl.acasStatus, rfl⟩,
    ⟨_, names10ModeSSubnetworkVersion_spec _ _ (Nat.lt_succ_of_le hcoh.2.2.1) hl.modeSSubnetworkVersion, rfl⟩,
    ⟨_, names10TransponderEnhancedProtocolIndicator_spec _ _ (bits_lt d 24 24 1 rfl) hl.transponderEnhancedProtocolIndicator, rfl⟩,
    ⟨_, names10ModeSSpecificServicesCapability_spec _ _ (bits_lt d 25 25 1 rfl) hl.modeSSpecificServicesCapability, rfl⟩,
    ⟨_, names10UplinkELMThroughputCapability_spec _ _ (Nat.lt_succ_of_le hcoh.2.2.2.1) hl.uplinkELMThroughputCapability, rfl⟩,
    ⟨_, names10DownlinkELMThroughputCapability_spec _ _ (Nat.lt_succ_of_le hcoh.2.2.2.2) hl.downlinkELMThroughputCapability, rfl⟩,
    ⟨_, names10AircraftIdentificationCapability_spec _ _ (bits_lt d 33 33 1 rfl) hl.aircraftIdentificationCapability, rfl⟩,
    ⟨_, names10SquitterCapabilitySubfield_spec _ _ (bits_lt d 34 34 1 rfl) hl.squitterCapabilitySubfield, rfl⟩,
    ⟨_, names10CommonUsageGICBCapability_spec _ _ (bits_lt d 36 36 1 rfl) hl.commonUsageGICBCapability, rfl⟩,
    ⟨_, names10ACASHybridSurveillanceCapability_spec _ _ (bits_lt d 37 37 1 rfl) hl.acasHybridSurveillanceCapability, rfl⟩,
    ⟨_, names10ACASGenerationCapability_spec _ _ (bits_lt d 38 38 1 rfl) hl.acasGenerationCapability, rfl⟩,
    ⟨_, names10ACASApplicableDocument_spec _ _ (Nat.lt_succ_of_le h40) hl.acasApplicableDocument, rfl⟩⟩

/-- C77, the part that is false: under "Continuation Flag" the text shows the overlay command capability, bit 15, and the
continuation flag, bit 9, nowhere; and it says that there is no surveillance identifier code capability, whatever bit 35 is. -/
theorem bds10_text_refuted (F : FloatTexts) (hF : F.Faithful) (d : List UInt8) (l : List (Iface CommBMessage)) (h : readCommBMessage d = .ok l)
    (r : DataLinkCapabilityReport) (hm : .val (.bds10 r) ∈ l) :
    let t := CommBMessage.text F (.bds10 r)
    ShowsName t (t! "Continuation Flag:                       ") names10OverlayCommandCapability (bits d 15 15) ∧
    ShowsLine t (t! "Surveillance Identifier Code             ") (t! "0 - No surveillance identifier code capability") := by
  have hr := commB_reads d l h _ hm
  have hs := commB_splitOn F hF d _ hr
  have hl := bds10_content_partial d r hr
  have hcoh := (bds10_coherent d r hr).1 (commB_coherent d l h _ hm)
  have h7 : d.length = 7 := ((bds10_accepts d).1.1 ⟨r, hr⟩).1
  have h18 : bits d 18 18 = 0 := by
    have h5 := hcoh.2.2.1
    obtain ⟨b0, b1, b2, b3, b4, b5, b6, rfl⟩ := list7 d h7
    clear hm hr hs hl hcoh h
    revert h5; byte_omega
  have hz : r.surveillanceIdentifierCode = 0 := by
    apply UInt8.toNat_inj.1
    rw [hl.surveillanceIdentifierCode, h18]; rfl
  intro t
  unfold ShowsName ShowsLine
  rw [hs]
  refine ⟨⟨_, names10OverlayCommandCapability_spec _ _ (bits_lt d 15 15 1 rfl) hl.overlayCommandCapability, rfl⟩, ?_⟩
  have e : (t! "0 - No surveillance identifier code capability") = Text.bds10SurveillanceIdentifierCode r.surveillanceIdentifierCode := by
    rw [hz]; rfl
  rw [e]
  rfl

/-- C77, target state: the text of a target state message shows, for subtype 1, the selected altitude, the barometric setting, the
selected heading and the flags of the modes, and for subtype 0 the target altitude, each the number coded in its documented bits.
Missing: the sign of the selected heading, which is not two's complement (C39), and the target heading of subtype 0, read from other
bits (C39). -/
theorem target_state_text_partial (F : FloatTexts) (hF : F.Faithful) (v : UInt8) (a c : Bool) (d : List UInt8) (m : ADSBMessage)
    (h : readADSBMessage v a c d = .returns (.val m) false) (htc : bits d 1 5 = 29) :
    let t := m.text F
    (bits d 6 7 = 1 →
      (∃ altitude status, SelectedAltitudeCoding (bits d 10 20) altitude status ∧
        ShowsLine t (t! "Selected Altitude:                             ") (decimal altitude)) ∧
      (∃ pressure status, BarometricCoding (bits d 21 29) pressure status ∧
        ShowsLine t (t! "Barometric Pressure Setting:                   ") (F.float32 pressure)) ∧
      (bit d 31 = false →
        ShowsLine t (t! "Selected Heading :                             ") (F.float32 (bits d 32 39 * (180 / 256)))) ∧
      ShowsLine t (t! "Autopilot Engaged:                             ") (if bit d 48 then t! "true" else t! "false") ∧
      ShowsLine t (t! "VNAV Mode Engaged:                             ") (if bit d 49 then t! "true" else t! "false") ∧
      ShowsLine t (t! "Altitude Hold Mode Engaged:                    ") (if bit d 50 then t! "true" else t! "false") ∧
      ShowsLine t (t! "Approach Mode Engaged:                         ") (if bit d 52 then t! "true" else t! "false") ∧
      ShowsLine t (t! "TCAS / ACAS Operational :                      ") (if bit d 53 then t! "true" else t! "false") ∧
      ShowsLine t (t! "LNAV Mode Engaged:                             ") (if bit d 54 then t! "true" else t! "false")) ∧
    (bits d 6 7 = 0 →
      ∃ altitude status, TargetAltitudeCoding (bits d 16 25) altitude status ∧
        ShowsLine t (t! "Target Altitude:                              ") (decimalInt altitude)) := by
  have hs := adsb_splitOn F hF v a c d m h
  obtain ⟨-, hc⟩ := adsb_dispatch v a c d m false h
  intro t
  cases m with
  | targetState p x =>
    have hp := target_state_content d p hc.2.2
    cases p with
    | type0 p =>
      obtain ⟨h6, -, hl⟩ := hp
      refine ⟨fun h => by omega, fun _ => ⟨_, _, hl.targetAltitude, ?_⟩⟩
      unfold ShowsLine
      rw [hs, ← decInt_decimal, show ADSBMessage.lines F (.targetState (.type0 p) x) = p.lines from rfl]
      have q : p.surveillanceIntegrityLevel = 0 ∨ p.surveillanceIntegrityLevel = 1 ∨ p.surveillanceIntegrityLevel = 2 ∨
          p.surveillanceIntegrityLevel = 3 := by
        have := bits_lt d 45 46 2 rfl
        have := hl.surveillanceIntegrityLevel
        simp only [← UInt8.toNat_inj, UInt8.reduceToNat]
        omega
      unfold TargetStateAndStatus0.lines
      rcases q with q | q | q | q <;> rw [q] <;> rfl
    | type1 p =>
      obtain ⟨h6, hl⟩ := hp
      refine ⟨fun _ => ⟨⟨_, _, hl.selectedAltitude, ?_⟩, ⟨_, _, hl.barometric, ?_⟩, fun h31 => ?_, ?_⟩, fun h => by omega⟩
      · unfold ShowsLine; rw [hs]; rfl
      · unfold ShowsLine; rw [hs]; rfl
      · have e := hl.selectedHeading
        rw [h31, if_neg (by decide)] at e
        have e' : F.signed p.selectedHeadingMinus p.selectedHeading = F.float32 p.selectedHeading := by
          unfold FloatTexts.signed
          rw [hl.selectedHeadingMinus, h31, if_neg (fun h => absurd h.1 (by decide))]
        unfold ShowsLine; rw [hs, ← e, ← e']; rfl
      · unfold ShowsLine
        rw [hs, ← hl.autopilotEngaged, ← hl.vnavModeEngaged, ← hl.altitudeHoldModeEngaged, ← hl.approachModeEngaged,
          ← hl.tcasACASOperational, ← hl.lnavModeEngaged]
        exact ⟨rfl, rfl, rfl, rfl, rfl, rfl⟩
  | surfaceV0 => have := hc.1; unfold SurfaceTC at this; omega
  | surfaceV1 => have := hc.1; unfold SurfaceTC at this; omega
  | surfaceV2 => have := hc.1; unfold SurfaceTC at this; omega
  | airborneV0 => have := hc.1; unfold AirborneTC at this; omega
  | airborneV1 => have := hc.1; unfold AirborneTC at this; omega
  | airborneV2 => have := hc.1; unfold AirborneTC at this; omega
  | identification => have := hc.2.1; omega
  | _ => have := hc.1; omega

/-! Concrete fields that meet the hypotheses of these theorems are in `Witness/Text`. -/

end Modes
