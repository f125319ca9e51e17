import Verif.Props.EndToEnd
import Verif.Props.ADSBCoherent
import Verif.Props.EndToEndSurveillance
import Verif.Props.EndToEndCommB
/-!
# Status, intent and version messages, from the aircraft to the decoded report (C87)
-/
open Modes Spec
namespace Spec

/-- An emergency message: type code 28, subtype 1, emergency state (3 bits), Mode A code (13 bits), 32 reserved bits. -/
def emergencyField (state a b c d : Nat) : List UInt8 := toBytes 7 (28 * 2 ^ 51 + 1 * 2 ^ 48 + state * 2 ^ 45 + squawkCode a b c d * 2 ^ 32)

/-- A target state and status message of version 2: type code 29, subtype 1 (2 bits), integrity level supplement (1), kind of selected altitude (1: FMS),
selected altitude (11), barometric setting (9), status and value of the selected heading (1 + 9), accuracy of the position (4), barometric integrity (1),
integrity level (2), status of the mode bits (1), autopilot, VNAV, altitude hold (1 + 1 + 1), reserved (1), approach, TCAS, LNAV (1 + 1 + 1), reserved (2). -/
def targetField (supplement kind altitude setting headingStatus heading nacp baro sil modeStatus ap vnav hold approach tcas lnav : Nat) : List UInt8 :=
  toBytes 7 (29 * 2 ^ 51 + 1 * 2 ^ 49 + supplement * 2 ^ 48 + kind * 2 ^ 47 + altitude * 2 ^ 36 + setting * 2 ^ 27 + headingStatus * 2 ^ 26 + heading * 2 ^ 17 +
    nacp * 2 ^ 13 + baro * 2 ^ 12 + sil * 2 ^ 10 + modeStatus * 2 ^ 9 + ap * 2 ^ 8 + vnav * 2 ^ 7 + hold * 2 ^ 6 + approach * 2 ^ 4 + tcas * 2 ^ 3 + lnav * 2 ^ 2)

/-- The code of a selected altitude (feet): one more than the nearest number of steps of 32 feet; 0 when there is none. -/
noncomputable def selectedAltitudeCode : Option ℝ → Nat
  | some h => ⌊h / 32 + 1 / 2⌋₊ + 1
  | none => 0

/-- The code of a barometric setting (millibars): one more than the nearest number of steps of 0.8 above 800; 0 when there is none. -/
noncomputable def settingCode : Option ℝ → Nat
  | some p => ⌊(p - 800) / (8 / 10) + 1 / 2⌋₊ + 1
  | none => 0

/-- The code of a selected heading between 0 and 180 degrees: the nearest number of steps of 180/256 degrees (the sign bit being 0). -/
noncomputable def positiveHeadingCode : Option ℝ → Nat
  | some h => ⌊h / (180 / 256) + 1 / 2⌋₊
  | none => 0

end Spec
namespace Modes

/-- The frame is read, its parity accepted, and the message it carries read as `x`. -/
def ReceivesADSB (v : UInt8) (a c : Bool) (f : List UInt8) (address : Nat) (x : ADSBMessage) : Prop :=
  ∃ m ad, readMessage f = .ok (.df17 m) ∧ checkCRC (.df17 m) f [] [] = .ok ad ∧ ad.toNat = address ∧
    readADSBMessage v a c m.messageExtendedSquitter = .returns (.val x) false

theorem adsb_delivered (v : UInt8) (a c : Bool) (capability address : Nat) (hca : capability < 8) (haa : address < 2 ^ 24) (d f : List UInt8)
    (h7 : d.length = 7) (x : ADSBMessage) (hx : readADSBMessage v a c d = .returns (.val x) false) (hf : IsSquitter capability address d f) :
    ReceivesADSB v a c f address x := by
  obtain ⟨m, r1, r2, -, -, r5⟩ := squitter_received capability address d f hca haa h7 hf
  obtain ⟨ad, r6, r7⟩ := r5 [] []
  exact ⟨m, ad, r1, r6, r7, by rw [r2]; exact hx⟩

/-- C87. Every accepted message of the type codes 28, 29 and 31 is delivered, as what its register holds. -/
theorem adsb_accepted_delivered (v : UInt8) (a c : Bool) (capability address : Nat) (hca : capability < 8) (haa : address < 2 ^ 24) (d f : List UInt8)
    (hd : AdsbAccepted v.toNat d) (hf : IsSquitter capability address d f) : ∃ x, ReceivesADSB v a c f address x ∧ AdsbContent v a c d x := by
  rcases adsb_eval v a c d with ⟨-, hn, -⟩ | ⟨-, hn, -⟩ | ⟨-, x, hx, hc, -⟩
  · exact absurd hd hn
  · exact absurd hd hn
  · exact ⟨x, adsb_delivered v a c capability address hca haa d f hd.1 x hx hf, hc⟩

theorem emergencyField_bits (state a b c d : Nat) (hs : state < 8) :
    let m := emergencyField state a b c d
    m.length = 7 ∧ bits m 1 5 = 28 ∧ bits m 6 8 = 1 ∧ bits m 9 11 = state ∧ bits m 12 24 = squawkCode a b c d ∧ bits m 25 56 = 0 := by
  intro m
  have hsq : squawkCode a b c d < 2 ^ 13 := by unfold squawkCode; omega
  have hv : 28 * 2 ^ 51 + 1 * 2 ^ 48 + state * 2 ^ 45 + squawkCode a b c d * 2 ^ 32 < 2 ^ 56 := by omega
  have e := fun a b => bits_toBytes7 _ a b hv
  refine ⟨toBytes_length _ _, ?_, ?_, ?_, ?_, ?_⟩ <;> refine (e _ _).trans ?_ <;> norm_num <;> omega

/-- C87, emergencies: the state and the four digits of the Mode A code; the message is coherent for the states 0 to 5. -/
theorem emergency_end_to_end (v : UInt8) (s t : Bool) (capability address state a b c d : Nat) (hca : capability < 8) (haa : address < 2 ^ 24) (hs : state < 8)
    (ha : a < 8) (hb : b < 8) (hc : c < 8) (hd : d < 8) (f : List UInt8) (hf : IsSquitter capability address (emergencyField state a b c d) f) :
    ∃ m : StatusEmergency, ReceivesADSB v s t f address (.status (.emergency m) v) ∧ m.emergencyPriorityStatus.toNat = state ∧
      squawk m.modeACode.toNat = [a, b, c, d] ∧ ((AircraftStatus.emergency m).coherent = true ↔ state ≤ 5) := by
  obtain ⟨h7, b1, b2, b3, b4, b5⟩ := emergencyField_bits state a b c d hs
  obtain ⟨x, hx, hcx⟩ := adsb_accepted_delivered v s t capability address hca haa _ f
    ⟨h7, Or.inr (Or.inr (Or.inr (Or.inr (Or.inr (Or.inl ⟨b1, Or.inr (Or.inl ⟨b2, b5⟩)⟩)))))⟩ hf
  cases x with
  | status m w =>
    obtain ⟨-, rfl, hm⟩ := hcx
    have hk := status_content _ _ hm
    have hco := status_coherent_iff _ _ hm
    cases m with
    | emergency m =>
      refine ⟨m, hx, ?_, ?_, ?_⟩
      · rw [hk.2.2.2.1, b3]
      · rw [hk.2.2.2.2, b4]; exact squawk_squawkCode a ha b hb c hc d hd
      · rw [hco, b2, b3]; omega
    | noInformation m => have := hk.1; omega
    | acas m => have := hk.1; omega
  | surfaceV0 => have := hcx.1; unfold SurfaceTC at this; omega
  | surfaceV1 => have := hcx.1; unfold SurfaceTC at this; omega
  | surfaceV2 => have := hcx.1; unfold SurfaceTC at this; omega
  | airborneV0 => have := hcx.1; unfold AirborneTC at this; omega
  | airborneV1 => have := hcx.1; unfold AirborneTC at this; omega
  | airborneV2 => have := hcx.1; unfold AirborneTC at this; omega
  | identification => have := hcx.2.1; omega
  | _ => have := hcx.1; omega

theorem targetField_bits (supplement kind altitude setting headingStatus heading nacp baro sil modeStatus ap vnav hold approach tcas lnav : Nat)
    (h1 : supplement < 2) (h2 : kind < 2) (h3 : altitude < 2048) (h4 : setting < 512) (h5 : headingStatus < 2) (h6 : heading < 256) (h7 : nacp < 16)
    (h8 : baro < 2) (h9 : sil < 4) (h10 : modeStatus < 2) (h11 : ap < 2) (h12 : vnav < 2) (h13 : hold < 2) (h14 : approach < 2) (h15 : tcas < 2) (h16 : lnav < 2) :
    let m := targetField supplement kind altitude setting headingStatus heading nacp baro sil modeStatus ap vnav hold approach tcas lnav
    m.length = 7 ∧ bits m 1 5 = 29 ∧ bits m 6 7 = 1 ∧ bits m 8 8 = supplement ∧ bits m 9 9 = kind ∧ bits m 10 20 = altitude ∧ bits m 21 29 = setting ∧
      bits m 30 30 = headingStatus ∧ bits m 31 39 = heading ∧ bits m 40 43 = nacp ∧ bits m 44 44 = baro ∧ bits m 45 46 = sil ∧ bits m 47 47 = modeStatus ∧
      bits m 48 48 = ap ∧ bits m 49 49 = vnav ∧ bits m 50 50 = hold ∧ bits m 52 52 = approach ∧ bits m 53 53 = tcas ∧ bits m 54 54 = lnav := by
  intro m
  have hv : 29 * 2 ^ 51 + 1 * 2 ^ 49 + supplement * 2 ^ 48 + kind * 2 ^ 47 + altitude * 2 ^ 36 + setting * 2 ^ 27 + headingStatus * 2 ^ 26 + heading * 2 ^ 17 +
    nacp * 2 ^ 13 + baro * 2 ^ 12 + sil * 2 ^ 10 + modeStatus * 2 ^ 9 + ap * 2 ^ 8 + vnav * 2 ^ 7 + hold * 2 ^ 6 + approach * 2 ^ 4 + tcas * 2 ^ 3 + lnav * 2 ^ 2 < 2 ^ 56 := by omega
  have e := fun a b => bits_toBytes7 _ a b hv
  refine ⟨toBytes_length _ _, ?_, ?_, ?_, ?_, ?_, ?_, ?_, ?_, ?_, ?_, ?_, ?_, ?_, ?_, ?_, ?_, ?_, ?_⟩ <;> refine (e _ _).trans ?_ <;> norm_num <;> omega

theorem step_code (x step : ℝ) (N : ℕ) (hs : 0 < step) (h0 : 0 ≤ x) (hx : x ≤ step * N) :
    ⌊x / step + 1 / 2⌋₊ ≤ N ∧ |step * (⌊x / step + 1 / 2⌋₊ : ℝ) - x| ≤ step / 2 := by
  refine ⟨?_, nearest_step x step hs h0⟩
  have h1 : x / step ≤ N := by rw [div_le_iff₀ hs]; linarith
  have : ⌊x / step + 1 / 2⌋₊ < N + 1 := by
    rw [Nat.floor_lt (by positivity)]; push_cast; linarith
  omega

theorem selectedAltitude_received (o : Option ℝ) (ho : ∀ h, o = some h → 0 ≤ h ∧ h ≤ 65472) :
    selectedAltitudeCode o < 2048 ∧ ∀ value status, SelectedAltitudeCoding (selectedAltitudeCode o) value status →
      Received o (status == .regular) value 16 := by
  cases o with
  | none =>
    refine ⟨by decide, fun value status h => ⟨fun x hx => (nomatch hx), fun _ => ?_⟩⟩
    rcases h with ⟨-, rfl, rfl⟩ | ⟨h, -⟩
    · exact ⟨rfl, by norm_num⟩
    · exact absurd h (by decide)
  | some x =>
    obtain ⟨h0, h1⟩ := ho x rfl
    obtain ⟨g1, g2⟩ := step_code x 32 2046 (by norm_num) h0 (by norm_num; linarith)
    refine ⟨by simp only [selectedAltitudeCode]; omega, fun value status h => ⟨fun y hy => ?_, fun hn => (nomatch hn)⟩⟩
    cases hy
    rcases h with ⟨h, -⟩ | ⟨-, rfl, rfl⟩
    · exact absurd h (by simp only [selectedAltitudeCode]; omega)
    · refine ⟨rfl, ?_⟩
      unfold selectedAltitudeCode
      push_cast [Nat.add_sub_cancel]
      linarith

theorem setting_received (o : Option ℝ) (ho : ∀ h, o = some h → 800 ≤ h ∧ h ≤ 1208) :
    settingCode o < 512 ∧ ∀ (value : ℚ) status, BarometricCoding (settingCode o) value status →
      Received o (status == .regular) value (4 / 10 + 1 / 4096) := by
  cases o with
  | none =>
    refine ⟨by decide, fun value status h => ⟨fun x hx => (nomatch hx), fun _ => ?_⟩⟩
    rcases h with ⟨-, rfl, rfl⟩ | ⟨h, -⟩
    · exact ⟨rfl, by norm_num⟩
    · exact absurd h (by decide)
  | some x =>
    obtain ⟨h0, h1⟩ := ho x rfl
    obtain ⟨g1, g2⟩ := step_code (x - 800) (8 / 10) 510 (by norm_num) (by linarith) (by norm_num; linarith)
    refine ⟨by simp only [settingCode]; omega, fun value status h => ⟨fun y hy => ?_, fun hn => (nomatch hn)⟩⟩
    cases hy
    rcases BarometricCoding_near h (by simp only [settingCode]; omega) with ⟨h, -⟩ | ⟨-, rfl, near⟩
    · exact absurd h (by simp only [settingCode]; omega)
    · refine ⟨rfl, ?_⟩
      have h' : |(value : ℝ) - (800 + 8 / 10 * ((settingCode (some x) : ℝ) - 1))| ≤ 1 / 4096 := by
        have := (Rat.cast_le (K := ℝ)).2 near
        push_cast at this; exact this
      unfold settingCode at h'
      push_cast at h'
      generalize (⌊(x - 800) / (8 / 10) + 1 / 2⌋₊ : ℝ) = n at *
      rw [abs_le] at *
      constructor <;> linarith [h'.1, h'.2, g2.1, g2.2]

/-- C87, intentions of version 2 aircraft: selected altitude within 16 feet, barometric setting within half a step, selected heading (between 0 and 180
degrees) within half a step, modes engaged and quality of the position. Missing: headings between 180 and 360 degrees and the kind of the selected
altitude (`selected_heading_refuted`, `selected_altitude_type_refuted`). -/
theorem target_end_to_end_partial (v : UInt8) (s t : Bool) (capability address : Nat) (hca : capability < 8) (haa : address < 2 ^ 24)
    (supplement kind nacp baro sil modeStatus : Nat) (ap vnav hold approach tcas lnav : Bool) (altitude setting heading : Option ℝ)
    (h1 : supplement < 2) (h2 : kind < 2) (h7 : nacp < 16) (h8 : baro < 2) (h9 : sil < 4) (h10 : modeStatus < 2)
    (halt : ∀ h, altitude = some h → 0 ≤ h ∧ h ≤ 65472) (hset : ∀ p, setting = some p → 800 ≤ p ∧ p ≤ 1208)
    (hhead : ∀ h, heading = some h → 0 ≤ h ∧ h ≤ 255 * 180 / 256) (f : List UInt8)
    (hf : IsSquitter capability address (targetField supplement kind (selectedAltitudeCode altitude) (settingCode setting) heading.isSome.toNat
      (positiveHeadingCode heading) nacp baro sil modeStatus ap.toNat vnav.toNat hold.toNat approach.toNat tcas.toNat lnav.toNat) f) :
    ∃ m : TargetStateAndStatus1, ReceivesADSB v s t f address (.targetState (.type1 m) v) ∧
      Received altitude (m.selectedAltitudeStatus == .regular) m.selectedAltitude.toNat 16 ∧
      Received setting (m.barometricPressureSettingStatus == .regular) m.barometricPressureSetting (4 / 10 + 1 / 4096) ∧
      Received heading (m.selectedHeadingStatus == 1) m.selectedHeading (180 / 512) ∧
      m.navigationalAccuracyCategoryPosition.toNat = nacp ∧ m.nicBaro.toNat = baro ∧ m.sourceIntegrityLevel.toNat = sil ∧
      m.sourceIntegrityLevelSupplement.toNat = supplement ∧ m.statusMCPFCUBits.toNat = modeStatus ∧
      m.autopilotEngaged = ap ∧ m.vnavModeEngaged = vnav ∧ m.altitudeHoldModeEngaged = hold ∧ m.approachModeEngaged = approach ∧
      m.tcasACASOperational = tcas ∧ m.lnavModeEngaged = lnav := by
  obtain ⟨ca, cb⟩ := selectedAltitude_received altitude halt
  obtain ⟨sa, sb⟩ := setting_received setting hset
  have ha : positiveHeadingCode heading < 256 ∧ ∀ value : ℚ, value = (positiveHeadingCode heading : ℚ) * (180 / 256) → Received heading heading.isSome value (180 / 512) := by
    cases heading with
    | none => exact ⟨by decide, fun value h => ⟨fun x hx => (nomatch hx), fun _ => ⟨rfl, by rw [h]; unfold positiveHeadingCode; norm_num⟩⟩⟩
    | some x =>
      obtain ⟨h0, h1⟩ := hhead x rfl
      obtain ⟨g1, g2⟩ := step_code x (180 / 256) 255 (by norm_num) h0 (by norm_num at h1 ⊢; linarith)
      refine ⟨by simp only [positiveHeadingCode]; omega, fun value h => ⟨fun y hy => ?_, fun hn => (nomatch hn)⟩⟩
      cases hy
      refine ⟨rfl, ?_⟩
      rw [h]; unfold positiveHeadingCode; push_cast
      rw [mul_comm]
      refine g2.trans (by norm_num)
  have bt (b : Bool) : b.toNat < 2 := by cases b <;> decide
  obtain ⟨l7, b1, b2, b3, b4, b5, b6, b7, b8, b9, b10, b11, b12, b13, b14, b15, b16, b17, b18⟩ := targetField_bits supplement kind (selectedAltitudeCode altitude)
    (settingCode setting) heading.isSome.toNat (positiveHeadingCode heading) nacp baro sil modeStatus ap.toNat vnav.toNat hold.toNat approach.toNat tcas.toNat
    lnav.toNat h1 h2 ca sa (bt _) ha.1 h7 h8 h9 h10 (bt _) (bt _) (bt _) (bt _) (bt _) (bt _)
  generalize targetField supplement kind (selectedAltitudeCode altitude) (settingCode setting) heading.isSome.toNat
      (positiveHeadingCode heading) nacp baro sil modeStatus ap.toNat vnav.toNat hold.toNat approach.toNat tcas.toNat lnav.toNat = d at *
  obtain ⟨x, hx, hcx⟩ := adsb_accepted_delivered v s t capability address hca haa _ f
    ⟨l7, Or.inr (Or.inr (Or.inr (Or.inr (Or.inr (Or.inr (Or.inl ⟨b1, Or.inr b2⟩))))))⟩ hf
  have flag (i : Nat) (b : Bool) (h : bits d i i = b.toNat) : bit d i = b := by
    unfold bit; rw [h]; cases b <;> rfl
  cases x with
  | targetState m w =>
    obtain ⟨-, rfl, hm⟩ := hcx
    have hk := target_state_content _ _ hm
    cases m with
    | type0 m => have := hk.1; omega
    | type1 m =>
      have hl := hk.2
      have e31 : bit d 31 = false := by
        have h8' := ha.1
        rw [← b8] at h8'
        unfold bit
        obtain ⟨c0, c1, c2, c3, c4, c5, c6, rfl⟩ := list7 d l7
        rw [beq_eq_false_iff_ne]
        revert h8'
        byte_omega
      have e39 : m.selectedHeading = (positiveHeadingCode heading : ℚ) * (180 / 256) := by
        have := selected_heading_partial d m hm e31
        rw [this]; unfold sbits; rw [e31, b8]; simp
      have est : (m.selectedHeadingStatus == 1) = heading.isSome := by
        have := hl.selectedHeadingStatus
        rw [b7] at this
        cases hh : heading.isSome <;> rw [hh] at this
        · rw [beq_eq_false_iff_ne]; intro h; rw [h] at this; exact absurd this (by decide)
        · rw [beq_iff_eq]; exact UInt8.toNat_inj.1 this
      refine ⟨m, hx, cb _ _ (b5 ▸ hl.selectedAltitude), sb _ _ (b6 ▸ hl.barometric), ?_, ?_, ?_, ?_, ?_, ?_, ?_, ?_, ?_, ?_, ?_, ?_⟩
      · rw [est]; exact ha.2 _ e39
      · rw [hl.navigationalAccuracyCategoryPosition, b9]
      · rw [hl.nicBaro, b10]
      · rw [hl.sourceIntegrityLevel, b11]
      · rw [hl.sourceIntegrityLevelSupplement, b3]
      · rw [hl.statusMCPFCUBits, b12]
      · rw [hl.autopilotEngaged]; exact flag _ _ b13
      · rw [hl.vnavModeEngaged]; exact flag _ _ b14
      · rw [hl.altitudeHoldModeEngaged]; exact flag _ _ b15
      · rw [hl.approachModeEngaged]; exact flag _ _ b16
      · rw [hl.tcasACASOperational]; exact flag _ _ b17
      · rw [hl.lnavModeEngaged]; exact flag _ _ b18
  | surfaceV0 => have := hcx.1; unfold SurfaceTC at this; omega
  | surfaceV1 => have := hcx.1; unfold SurfaceTC at this; omega
  | surfaceV2 => have := hcx.1; unfold SurfaceTC at this; omega
  | airborneV0 => have := hcx.1; unfold AirborneTC at this; omega
  | airborneV1 => have := hcx.1; unfold AirborneTC at this; omega
  | airborneV2 => have := hcx.1; unfold AirborneTC at this; omega
  | identification => have := hcx.2.1; omega
  | _ => have := hcx.1; omega

/-- Squawk 7700, general emergency (state 1). -/
example : ∃ f m, IsSquitter 5 0x4840D6 (emergencyField 1 7 7 0 0) f ∧ ReceivesADSB 2 false false f 0x4840D6 (.status (.emergency m) 2) ∧
    squawk m.modeACode.toNat = [7, 7, 0, 0] := by
  obtain ⟨f, hf⟩ := isSquitter_exists 5 0x4840D6 (emergencyField 1 7 7 0 0)
  obtain ⟨m, h1, -, h2, -⟩ := emergency_end_to_end 2 false false 5 0x4840D6 1 7 7 0 0 (by norm_num) (by norm_num) (by norm_num) (by norm_num) (by norm_num)
    (by norm_num) (by norm_num) f hf
  exact ⟨f, m, hf, h1, h2⟩

/-- An aircraft cleared to 34000 feet, on the standard setting, heading 90. -/
example : (∀ h, (some 34000 : Option ℝ) = some h → 0 ≤ h ∧ h ≤ 65472) ∧ (∀ p, (some 1013.25 : Option ℝ) = some p → 800 ≤ p ∧ p ≤ 1208) ∧
    (∀ h, (some 90 : Option ℝ) = some h → 0 ≤ h ∧ h ≤ 255 * 180 / 256) := by
  refine ⟨fun h e => ?_, fun h e => ?_, fun h e => ?_⟩ <;> cases e <;> norm_num

end Modes
