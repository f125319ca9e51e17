import Verif.Props.TextCommB
/-!
# The texts show the transmitted values

From the bits of a message to the lines of its text: reader and printer together.
-/
namespace Spec

/-- The number in decimal. -/
def decimal (n : Nat) : List Char := Nat.toDigits 10 n

/-- The number in decimal, with a minus sign if it is negative. -/
def decimalInt (n : Int) : List Char := if n < 0 then '-' :: decimal n.natAbs else decimal n.natAbs

/-- The text has exactly one line that starts with the label, and that line is the label followed by the value. -/
def ShowsLine (text label value : List Char) : Prop :=
  (text.splitOn '\n').filter (fun l => label.isPrefixOf l) = [label ++ value]

end Spec
namespace Modes
open Spec

theorem decInt_decimal (n : Int) : decInt n = decimalInt n := by
  cases n with
  | ofNat n => simp [decInt, decimalInt, dec, decimal]
  | negSucc n => simp [decInt, decimalInt, dec, decimal]

theorem splitOn_linesText (l : List (Txt × Txt)) (hne : l ≠ []) (h : AllLine l) : (linesText l).splitOn '\n' = l.map cat := by
  rw [linesText_eq]
  refine splitOn_textOfLines _ (by simpa using hne) ?_
  intro x hx
  obtain ⟨y, hy, rfl⟩ := List.mem_map.1 hx
  exact h y hy

theorem adsb_splitOn (F : FloatTexts) (hF : F.Faithful) (v : UInt8) (a c : Bool) (d : List UInt8) (m : ADSBMessage)
    (h : readADSBMessage v a c d = .returns (.val m) false) : (m.text F).splitOn '\n' = (m.lines F).map cat := by
  have hp := adsb_printable v a c d m h
  exact splitOn_linesText _ (adsb_lines_ne F m hp) (adsb_allLine F hF m hp)

/-- The lines of an airborne position message. -/
theorem airborne_shows (F : FloatTexts) (p : AirbornePosition) (m : ADSBMessage) (hs : (m.text F).splitOn '\n' = (m.lines F).map cat)
    (hm : (∃ x y, m = .airborneV0 p x y) ∨ (∃ x y z, m = .airborneV1 p x y z) ∨ (∃ x y z u, m = .airborneV2 p x y z u) ∨
      ∃ x y, m = .airborneType0 p x y) :
    ShowsLine (m.text F) (t! "Format Type Code:                  ") (dec p.formatTypeCode.toNat) ∧
    ShowsLine (m.text F) (t! "Altitude (feet):                   ") (decInt p.altitudeInFeet) ∧
    ShowsLine (m.text F) (t! "Compact Position Reporting Format: ") (Text.bds05CompactPositionReportingFormat p.cprFormat) ∧
    ShowsLine (m.text F) (t! "Encoded Latitude:                  ") (dec p.encodedLatitude.toNat) ∧
    ShowsLine (m.text F) (t! "Encoded Longitude:                 ") (dec p.encodedLongitude.toNat) := by
  unfold ShowsLine
  rw [hs]
  rcases hm with ⟨x, y, rfl⟩ | ⟨x, y, z, rfl⟩ | ⟨x, y, z, u, rfl⟩ | ⟨x, y, rfl⟩ <;> exact ⟨rfl, rfl, rfl, rfl, rfl⟩

/-- A one-bit code is printed as the text of its value. -/
theorem flag_code (t : UInt8 → Txt) (x : UInt8) (d : List UInt8) (i : Nat) (h : x.toNat = bits d i i) :
    t x = if bit d i then t 1 else t 0 := by
  have h2 : bits d i i < 2 := by unfold bits; rw [Nat.add_sub_cancel_left]; exact Nat.mod_lt _ (by decide)
  cases hb : bit d i with
  | true =>
    have e : bits d i i = 1 := by simpa [bit] using hb
    rw [e] at h
    rw [show x = 1 from UInt8.toNat_inj.1 h]; rfl
  | false =>
    have e : bits d i i = 0 := by
      have : ¬ bits d i i = 1 := by simpa [bit] using hb
      omega
    rw [e] at h
    rw [show x = 0 from UInt8.toNat_inj.1 h]; rfl

/-- C77. The text of an airborne position shows the type code, the altitude, the format and the encoded latitude and longitude that
are in the message. -/
theorem airborne_text (F : FloatTexts) (hF : F.Faithful) (v : UInt8) (a c : Bool) (d : List UInt8) (m : ADSBMessage)
    (h : readADSBMessage v a c d = .returns (.val m) false) (htc : AirborneTC (bits d 1 5)) :
    ShowsLine (m.text F) (t! "Format Type Code:                  ") (decimal (bits d 1 5)) ∧
    (∃ method altitude, AC12Meaning (bits d 9 20) method altitude ∧
      ShowsLine (m.text F) (t! "Altitude (feet):                   ") (decimalInt altitude)) ∧
    ShowsLine (m.text F) (t! "Compact Position Reporting Format: ")
      (if bit d 22 then t! "1 - odd format coding" else t! "0 - even format coding") ∧
    ShowsLine (m.text F) (t! "Encoded Latitude:                  ") (decimal (bits d 23 39)) ∧
    ShowsLine (m.text F) (t! "Encoded Longitude:                 ") (decimal (bits d 40 56)) := by
  have hs := adsb_splitOn F hF v a c d m h
  obtain ⟨-, hc⟩ := adsb_dispatch v a c d m false h
  have key : ∃ p : AirbornePosition, readBDS05 d = .ok p ∧ ((∃ x y, m = .airborneV0 p x y) ∨ (∃ x y z, m = .airborneV1 p x y z) ∨
      (∃ x y z u, m = .airborneV2 p x y z u) ∨ ∃ x y, m = .airborneType0 p x y) := by
    unfold AirborneTC at htc
    cases m with
    | airborneV0 p x y => exact ⟨p, hc.2.2.1, Or.inl ⟨_, _, rfl⟩⟩
    | airborneV1 p x y z => exact ⟨p, hc.2.2.1, Or.inr (Or.inl ⟨_, _, _, rfl⟩)⟩
    | airborneV2 p x y z u => exact ⟨p, hc.2.2.1, Or.inr (Or.inr (Or.inl ⟨_, _, _, _, rfl⟩))⟩
    | surfaceV0 => have := hc.1; unfold SurfaceTC at this; omega
    | surfaceV1 => have := hc.1; unfold SurfaceTC at this; omega
    | surfaceV2 => have := hc.1; unfold SurfaceTC at this; omega
    | identification => have := hc.2.1; omega
    | _ => have := hc.1; omega
  obtain ⟨p, hp, hm⟩ := key
  have hl := airborne_shows F p m hs hm
  obtain ⟨h1, -, -, ha, -, -, hf, hla, hlo⟩ := airborne_position_content d p hp
  rw [h1, hla, hlo, flag_code Text.bds05CompactPositionReportingFormat _ d 22 hf] at hl
  exact ⟨hl.1, ⟨_, _, ha, by rw [← decInt_decimal]; exact hl.2.1⟩, hl.2.2⟩

/-- C77. The text of a message of type code 0 shows its altitude; if the rest of the message is not zero, also the position. -/
theorem type0_text (F : FloatTexts) (hF : F.Faithful) (v : UInt8) (a c : Bool) (d : List UInt8) (m : ADSBMessage)
    (h : readADSBMessage v a c d = .returns (.val m) false) (htc : bits d 1 5 = 0) :
    ∃ method altitude, AC12Meaning (bits d 9 20) method altitude ∧
      (bits d 21 56 = 0 → ShowsLine (m.text F) (t! "Altitude Baro (feet):              ") (decimalInt altitude)) ∧
      (bits d 21 56 ≠ 0 → ShowsLine (m.text F) (t! "Altitude (feet):                   ") (decimalInt altitude) ∧
        ShowsLine (m.text F) (t! "Encoded Latitude:                  ") (decimal (bits d 23 39)) ∧
        ShowsLine (m.text F) (t! "Encoded Longitude:                 ") (decimal (bits d 40 56))) := by
  have hs := adsb_splitOn F hF v a c d m h
  obtain ⟨-, hc⟩ := adsb_dispatch v a c d m false h
  cases m with
  | noPosition v' f alt nic =>
    obtain ⟨-, h0, -, -, -, method, hm⟩ := hc
    refine ⟨method, alt, hm, fun _ => ?_, fun hne => absurd h0 hne⟩
    unfold ShowsLine
    rw [hs, ← decInt_decimal]
    rfl
  | airborneType0 p nic v' =>
    obtain ⟨-, h0, -, -, -, ha, -, -, -, -, -, hla, hlo⟩ := hc
    have hl := airborne_shows F p _ hs (Or.inr (Or.inr (Or.inr ⟨_, _, rfl⟩)))
    refine ⟨_, _, ha, fun hz => absurd hz h0, fun _ => ?_⟩
    rw [← decInt_decimal, ← hla, ← hlo]
    exact ⟨hl.2.1, hl.2.2.2⟩
  | airborneV0 => have := hc.1; unfold AirborneTC at this; omega
  | airborneV1 => have := hc.1; unfold AirborneTC at this; omega
  | airborneV2 => have := hc.1; unfold AirborneTC at this; omega
  | surfaceV0 => have := hc.1; unfold SurfaceTC at this; omega
  | surfaceV1 => have := hc.1; unfold SurfaceTC at this; omega
  | surfaceV2 => have := hc.1; unfold SurfaceTC at this; omega
  | _ => have := hc.1; omega

/-- The lines of a surface position message. -/
theorem surface_shows (F : FloatTexts) (p : SurfacePosition) (m : ADSBMessage) (hs : (m.text F).splitOn '\n' = (m.lines F).map cat)
    (hm : (∃ x y, m = .surfaceV0 p x y) ∨ (∃ x y z, m = .surfaceV1 p x y z) ∨ (∃ x y z u, m = .surfaceV2 p x y z u)) :
    ShowsLine (m.text F) (t! "Format Type Code:                  ") (dec p.formatTypeCode.toNat) ∧
    ShowsLine (m.text F) (t! "Movement Speed (knots):            ") (F.float32 p.movementSpeed) ∧
    ShowsLine (m.text F) (t! "Ground Track Status:               ") (boolText p.groundTrackStatus) ∧
    ShowsLine (m.text F) (t! "Ground Track (degrees):            ") (F.float32 p.groundTrack) ∧
    ShowsLine (m.text F) (t! "Compact Position Reporting Format: ") (Text.bds06CompactPositionReportingFormat p.cprFormat) ∧
    ShowsLine (m.text F) (t! "Encoded Latitude:                  ") (dec p.encodedLatitude.toNat) ∧
    ShowsLine (m.text F) (t! "Encoded Longitude:                 ") (dec p.encodedLongitude.toNat) := by
  unfold ShowsLine
  rw [hs]
  rcases hm with ⟨x, y, rfl⟩ | ⟨x, y, z, rfl⟩ | ⟨x, y, z, u, rfl⟩ <;> exact ⟨rfl, rfl, rfl, rfl, rfl, rfl, rfl⟩

/-- C77. The text of a surface position shows the type code, the speed and the track of the documented coding, the format and the
encoded latitude and longitude that are in the message. -/
theorem surface_text (F : FloatTexts) (hF : F.Faithful) (v : UInt8) (a c : Bool) (d : List UInt8) (m : ADSBMessage)
    (h : readADSBMessage v a c d = .returns (.val m) false) (htc : SurfaceTC (bits d 1 5)) :
    ShowsLine (m.text F) (t! "Format Type Code:                  ") (decimal (bits d 1 5)) ∧
    ShowsLine (m.text F) (t! "Movement Speed (knots):            ") (F.float32 (movementSpeed (bits d 6 12))) ∧
    ShowsLine (m.text F) (t! "Ground Track Status:               ") (if bit d 13 then t! "true" else t! "false") ∧
    ShowsLine (m.text F) (t! "Ground Track (degrees):            ") (F.float32 (bits d 14 20 * (360 / 128))) ∧
    ShowsLine (m.text F) (t! "Compact Position Reporting Format: ")
      (if bit d 22 then t! "1 - odd format coding" else t! "0 - even format coding") ∧
    ShowsLine (m.text F) (t! "Encoded Latitude:                  ") (decimal (bits d 23 39)) ∧
    ShowsLine (m.text F) (t! "Encoded Longitude:                 ") (decimal (bits d 40 56)) := by
  have hs := adsb_splitOn F hF v a c d m h
  obtain ⟨-, hc⟩ := adsb_dispatch v a c d m false h
  have key : ∃ p : SurfacePosition, readBDS06 d = .ok p ∧ ((∃ x y, m = .surfaceV0 p x y) ∨ (∃ x y z, m = .surfaceV1 p x y z) ∨
      (∃ x y z u, m = .surfaceV2 p x y z u)) := by
    unfold SurfaceTC at htc
    cases m with
    | surfaceV0 p x y => exact ⟨p, hc.2.2.1, Or.inl ⟨_, _, rfl⟩⟩
    | surfaceV1 p x y z => exact ⟨p, hc.2.2.1, Or.inr (Or.inl ⟨_, _, _, rfl⟩)⟩
    | surfaceV2 p x y z u => exact ⟨p, hc.2.2.1, Or.inr (Or.inr ⟨_, _, _, _, rfl⟩)⟩
    | airborneV0 => have := hc.1; unfold AirborneTC at this; omega
    | airborneV1 => have := hc.1; unfold AirborneTC at this; omega
    | airborneV2 => have := hc.1; unfold AirborneTC at this; omega
    | identification => have := hc.2.1; omega
    | _ => have := hc.1; omega
  obtain ⟨p, hp, hm⟩ := key
  have hl := surface_shows F p m hs hm
  obtain ⟨h1, -, hsp, hts, ht, -, hf, hla, hlo⟩ := surface_position_content d p hp
  rw [h1, hsp, hts, ht, hla, hlo, flag_code Text.bds06CompactPositionReportingFormat _ d 22 hf] at hl
  exact hl

/-- C77. The text of a ground velocity (subtypes 1 and 2) shows the directions and the speeds along both axes, the vertical rate and
the height difference of the documented coding. -/
theorem velocity_text (F : FloatTexts) (hF : F.Faithful) (v : UInt8) (a c : Bool) (d : List UInt8) (m : ADSBMessage)
    (h : readADSBMessage v a c d = .returns (.val m) false) (htc : bits d 1 5 = 19) (hst : bits d 6 8 = 1 ∨ bits d 6 8 = 2) :
    ∃ ew ns ewStatus nsStatus vr vrStatus hd hdStatus,
      SpeedCoding (bits d 15 24) (if bits d 6 8 = 1 then 1 else 4) (if bits d 6 8 = 1 then 1023 else 4088) ew ewStatus ∧
      SpeedCoding (bits d 26 35) (if bits d 6 8 = 1 then 1 else 4) (if bits d 6 8 = 1 then 1023 else 4088) ns nsStatus ∧
      SignedCoding (bit d 37) (bits d 38 46) 511 64 32640 vr vrStatus ∧
      SignedCoding (bit d 49) (bits d 50 56) 127 25 3150 hd hdStatus ∧
      ShowsLine (m.text F) (t! "Direction EW:                      ") (if bit d 14 then t! "1 - West" else t! "0 - East") ∧
      ShowsLine (m.text F) (t! "Velocity EW (knots):               ") (decimal ew) ∧
      ShowsLine (m.text F) (t! "Direction NS:                      ") (if bit d 25 then t! "1 - south" else t! "0 - north") ∧
      ShowsLine (m.text F) (t! "Velocity NS (knots):               ") (decimal ns) ∧
      ShowsLine (m.text F) (t! "Vertical Rate (ft/min):            ") (decimalInt vr) ∧
      ShowsLine (m.text F) (t! "Difference Alt. GNSS Baro (ft):    ") (decimalInt hd) := by
  have hs := adsb_splitOn F hF v a c d m h
  obtain ⟨-, hc⟩ := adsb_dispatch v a c d m false h
  have key : ∃ p : AirborneVelocity, readBDS09 d = .ok p ∧ m = .velocity p v := by
    cases m with
    | velocity p x => exact ⟨p, hc.2.2, by rw [hc.2.1]⟩
    | surfaceV0 => have := hc.1; unfold SurfaceTC at this; omega
    | surfaceV1 => have := hc.1; unfold SurfaceTC at this; omega
    | surfaceV2 => have := hc.1; unfold SurfaceTC at this; omega
    | airborneV0 => have := hc.1; unfold AirborneTC at this; omega
    | airborneV1 => have := hc.1; unfold AirborneTC at this; omega
    | airborneV2 => have := hc.1; unfold AirborneTC at this; omega
    | identification => have := hc.2.1; omega
    | _ => have := hc.1; omega
  obtain ⟨p, hp, rfl⟩ := key
  obtain ⟨hv, hh⟩ := vertical_content d p hp
  rcases hst with hst | hst
  · simp only [hst, if_true]
    cases p with
    | groundSpeedNormal g =>
      obtain ⟨-, h1, h2, h3, h4⟩ := (ground_velocity_content d g).1 hp
      refine ⟨_, _, _, _, _, _, _, _, h2, h4, hv, hh, ?_⟩
      have e1 := flag_code Text.bds09DirectionEastWest _ d 14 h1
      have e2 := flag_code Text.bds09DirectionNorthSouth _ d 25 h3
      unfold ShowsLine
      rw [hs, ← decInt_decimal, ← decInt_decimal]
      exact ⟨congrArg (fun x => [_ ++ x]) e1, rfl, congrArg (fun x => [_ ++ x]) e2, rfl, rfl, rfl⟩
    | groundSpeedSupersonic g => have := ((ground_velocity_content d g).2 hp).1; omega
    | airSpeedNormal g => have := ((airspeed_content d g).1 hp).1; omega
    | airSpeedSupersonic g => have := ((airspeed_content d g).2 hp).1; omega
  · simp only [hst, OfNat.ofNat_ne_one, if_false]
    cases p with
    | groundSpeedSupersonic g =>
      obtain ⟨-, h1, h2, h3, h4⟩ := (ground_velocity_content d g).2 hp
      refine ⟨_, _, _, _, _, _, _, _, h2, h4, hv, hh, ?_⟩
      have e1 := flag_code Text.bds09DirectionEastWest _ d 14 h1
      have e2 := flag_code Text.bds09DirectionNorthSouth _ d 25 h3
      unfold ShowsLine
      rw [hs, ← decInt_decimal, ← decInt_decimal]
      exact ⟨congrArg (fun x => [_ ++ x]) e1, rfl, congrArg (fun x => [_ ++ x]) e2, rfl, rfl, rfl⟩
    | groundSpeedNormal g => have := ((ground_velocity_content d g).1 hp).1; omega
    | airSpeedNormal g => have := ((airspeed_content d g).1 hp).1; omega
    | airSpeedSupersonic g => have := ((airspeed_content d g).2 hp).1; omega

/-- C77. The text of an airspeed velocity (subtypes 3 and 4) shows the heading, the airspeed and the vertical rate. -/
theorem airspeed_text (F : FloatTexts) (hF : F.Faithful) (v : UInt8) (a c : Bool) (d : List UInt8) (m : ADSBMessage)
    (h : readADSBMessage v a c d = .returns (.val m) false) (htc : bits d 1 5 = 19) (hst : bits d 6 8 = 3 ∨ bits d 6 8 = 4) :
    ∃ speed status vr vrStatus hd hdStatus,
      SpeedCoding (bits d 26 35) (if bits d 6 8 = 3 then 1 else 4) (if bits d 6 8 = 3 then 1023 else 4088) speed status ∧
      SignedCoding (bit d 37) (bits d 38 46) 511 64 32640 vr vrStatus ∧
      SignedCoding (bit d 49) (bits d 50 56) 127 25 3150 hd hdStatus ∧
      ShowsLine (m.text F) (t! "Magnetic Heading (degrees):          ") (F.float32 (bits d 15 24 * (360 / 1024))) ∧
      ShowsLine (m.text F) (t! "Air Speed (knots):                   ") (decimal speed) ∧
      ShowsLine (m.text F) (t! "Vertical Rate (ft/min):              ") (decimalInt vr) ∧
      ShowsLine (m.text F) (t! "Geom. Height Diff. From Baro (ft):   ") (decimalInt hd) := by
  have hs := adsb_splitOn F hF v a c d m h
  obtain ⟨-, hc⟩ := adsb_dispatch v a c d m false h
  have key : ∃ p : AirborneVelocity, readBDS09 d = .ok p ∧ m = .velocity p v := by
    cases m with
    | velocity p x => exact ⟨p, hc.2.2, by rw [hc.2.1]⟩
    | surfaceV0 => have := hc.1; unfold SurfaceTC at this; omega
    | surfaceV1 => have := hc.1; unfold SurfaceTC at this; omega
    | surfaceV2 => have := hc.1; unfold SurfaceTC at this; omega
    | airborneV0 => have := hc.1; unfold AirborneTC at this; omega
    | airborneV1 => have := hc.1; unfold AirborneTC at this; omega
    | airborneV2 => have := hc.1; unfold AirborneTC at this; omega
    | identification => have := hc.2.1; omega
    | _ => have := hc.1; omega
  obtain ⟨p, hp, rfl⟩ := key
  obtain ⟨hv, hh⟩ := vertical_content d p hp
  rcases hst with hst | hst
  · simp only [hst, if_true]
    cases p with
    | airSpeedNormal g =>
      obtain ⟨-, -, h2, -, -, h4⟩ := (airspeed_content d g).1 hp
      refine ⟨_, _, _, _, _, _, h4, hv, hh, ?_⟩
      unfold ShowsLine
      rw [hs, ← decInt_decimal, ← decInt_decimal, ← h2]
      exact ⟨rfl, rfl, rfl, rfl⟩
    | groundSpeedSupersonic g => have := ((ground_velocity_content d g).2 hp).1; omega
    | groundSpeedNormal g => have := ((ground_velocity_content d g).1 hp).1; omega
    | airSpeedSupersonic g => have := ((airspeed_content d g).2 hp).1; omega
  · rw [if_neg (by omega), if_neg (by omega)]
    cases p with
    | airSpeedSupersonic g =>
      obtain ⟨-, -, h2, -, -, h4⟩ := (airspeed_content d g).2 hp
      refine ⟨_, _, _, _, _, _, h4, hv, hh, ?_⟩
      unfold ShowsLine
      rw [hs, ← decInt_decimal, ← decInt_decimal, ← h2]
      exact ⟨rfl, rfl, rfl, rfl⟩
    | groundSpeedSupersonic g => have := ((ground_velocity_content d g).2 hp).1; omega
    | groundSpeedNormal g => have := ((ground_velocity_content d g).1 hp).1; omega
    | airSpeedNormal g => have := ((airspeed_content d g).1 hp).1; omega

/-- C77. Every callsign of eight letters, digits and spaces, encoded in an identification message of any type code 1-4 and any
category, is the one the text shows. -/
theorem identification_text (F : FloatTexts) (hF : F.Faithful) (v : UInt8) (a c : Bool) (first : UInt8)
    (hf : 8 ≤ first.toNat ∧ first.toNat < 40) (cs : List UInt8) (h8 : cs.length = 8) (hc : ∀ x ∈ cs, IdentChar x) :
    ∃ m, readADSBMessage v a c (first :: toBytes 6 (encodeIdent cs)) = .returns (.val m) false ∧
      ShowsLine (m.text F) (t! "Identification:                    ") (cs.map fun x => Char.ofNat x.toNat) := by
  obtain ⟨p, hp, hi⟩ := callsign_roundtrip_bds08 first hf cs h8 hc
  have hb : bits (first :: toBytes 6 (encodeIdent cs)) 1 5 = first.toNat / 8 := by
    generalize encodeIdent cs = v
    unfold bits
    rw [beNat_cons_toBytes6, List.length_cons, toBytes_length]
    simp only [Nat.reduceAdd, Nat.reduceMul, Nat.reducePow, Nat.reduceSub]
    omega
  have h7 : (first :: toBytes 6 (encodeIdent cs)).length = 7 := by rw [List.length_cons, toBytes_length]
  have hacc : AdsbAccepted v.toNat (first :: toBytes 6 (encodeIdent cs)) := by
    exact ⟨h7, Or.inr (Or.inl (by omega))⟩
  rcases adsb_eval v a c (first :: toBytes 6 (encodeIdent cs)) with ⟨-, hn, -⟩ | ⟨-, hn, -⟩ | ⟨-, m, hm, hcn, -⟩
  · exact absurd hacc hn
  · exact absurd hacc hn
  refine ⟨m, hm, ?_⟩
  have hs := adsb_splitOn F hF v a c _ m hm
  have key : ∃ w, m = .identification p w := by
    cases m with
    | identification q x =>
      have := hcn.2.2.2
      rw [hp] at this
      cases this
      exact ⟨_, rfl⟩
    | surfaceV0 => have := hcn.1; unfold SurfaceTC at this; omega
    | surfaceV1 => have := hcn.1; unfold SurfaceTC at this; omega
    | surfaceV2 => have := hcn.1; unfold SurfaceTC at this; omega
    | airborneV0 => have := hcn.1; unfold AirborneTC at this; omega
    | airborneV1 => have := hcn.1; unfold AirborneTC at this; omega
    | airborneV2 => have := hcn.1; unfold AirborneTC at this; omega
    | _ => have := hcn.1; omega
  obtain ⟨w, rfl⟩ := key
  unfold ShowsLine
  rw [hs, ← hi]
  rfl

/-- The printed emergency states. -/
def _root_.Spec.emergencyNames : List (List Char) :=
  [t! "0 - no emergency", t! "1 - general emergency", t! "2 - lifeguard/medical emergency", t! "3 - minimum fuel",
   t! "4 - no communications", t! "5 - unlawful interference", t! "6 - downed aircraft", t! "7 - reserved"]

theorem emergency_name (x : UInt8) (n : Nat) (hn : n < 8) (h : x.toNat = n) :
    emergencyNames[n]? = some (Text.bds61EmergencyPriorityStatus x) := by
  have : ∀ n < 8, emergencyNames[n]? = some (Text.bds61EmergencyPriorityStatus (UInt8.ofNat n)) := by decide +kernel
  rw [this n hn, ← h, UInt8.ofNat_toNat]

/-- C77. The text of an aircraft status of subtype 0 or 1 shows the emergency state (with subtype 1 the label is misspelt). -/
theorem status_text (F : FloatTexts) (hF : F.Faithful) (v : UInt8) (a c : Bool) (d : List UInt8) (m : ADSBMessage)
    (h : readADSBMessage v a c d = .returns (.val m) false) (htc : bits d 1 5 = 28) :
    ∃ state, emergencyNames[bits d 9 11]? = some state ∧
      (bits d 6 8 = 0 → ShowsLine (m.text F) (t! "Emergency State:           ") state) ∧
      (bits d 6 8 = 1 → ShowsLine (m.text F) (t! "Emergeny State:            ") state) := by
  have hs := adsb_splitOn F hF v a c d m h
  obtain ⟨-, hc⟩ := adsb_dispatch v a c d m false h
  have hl : bits d 9 11 < 8 := by unfold bits; exact Nat.mod_lt _ (by decide)
  cases m with
  | status p x =>
    have hp := status_content d p hc.2.2
    cases p with
    | noInformation p =>
      obtain ⟨h6, -, -, he⟩ := hp
      refine ⟨_, emergency_name _ _ hl he, fun _ => ?_, fun h => ?_⟩
      · unfold ShowsLine; rw [hs]; rfl
      · omega
    | emergency p =>
      obtain ⟨h6, -, -, he, -⟩ := hp
      refine ⟨_, emergency_name _ _ hl he, fun _ => ?_, fun h => ?_⟩
      · omega
      · unfold ShowsLine; rw [hs]; rfl
    | acas p =>
      have h6 : bits d 6 8 = 2 := hp.1
      exact ⟨_, emergency_name (UInt8.ofNat (bits d 9 11)) _ hl (by rw [UInt8.toNat_ofNat']; omega), fun h => by omega, fun h => by omega⟩
  | surfaceV0 => have := hc.1; unfold SurfaceTC at this; omega
  | surfaceV1 => have := hc.1; unfold SurfaceTC at this; omega
  | surfaceV2 => have := hc.1; unfold SurfaceTC at this; omega
  | airborneV0 => have := hc.1; unfold AirborneTC at this; omega
  | airborneV1 => have := hc.1; unfold AirborneTC at this; omega
  | airborneV2 => have := hc.1; unfold AirborneTC at this; omega
  | identification => have := hc.2.1; omega
  | _ => have := hc.1; omega

theorem commB_splitOn (F : FloatTexts) (hF : F.Faithful) (d : List UInt8) (m : CommBMessage) (h : ReadsAs d m) :
    (m.text F).splitOn '\n' = (m.lines F).map cat := by
  have hp := commB_printable d m h
  exact splitOn_linesText _ (commB_lines_ne F m hp) (commB_allLine F hF m hp)

/-- C77. Every callsign of eight letters, digits and spaces, encoded in a BDS 2,0 Comm-B field, is the one the text shows. -/
theorem commB_identification_text (F : FloatTexts) (hF : F.Faithful) (cs : List UInt8) (h8 : cs.length = 8) (hc : ∀ x ∈ cs, IdentChar x) :
    ∃ m, readCommBMessage (0x20 :: toBytes 6 (encodeIdent cs)) = .ok [.val m] ∧
      ShowsLine (m.text F) (t! "Identification:                          ") (cs.map fun x => Char.ofNat x.toNat) := by
  refine ⟨_, commB_callsign cs h8 hc, ?_⟩
  have hs := commB_splitOn F hF _ (.bds20 ⟨cs⟩) (callsign_roundtrip_bds20 cs h8 hc).1
  unfold ShowsLine
  rw [hs]
  rfl

/-- C77. The text of the BDS 5,0 candidate shows the status flags and the numbers that are in the field, in the documented units. -/
theorem bds50_text (F : FloatTexts) (hF : F.Faithful) (d : List UInt8) (l : List (Iface CommBMessage)) (h : readCommBMessage d = .ok l)
    (r : TrackAndTurnReport) (hm : .val (.bds50 r) ∈ l) :
    let t := CommBMessage.text F (.bds50 r)
    ShowsLine t (t! "Roll Angle Status:                     ") (if bit d 1 then t! "true" else t! "false") ∧
    ShowsLine t (t! "Roll Angle (degrees):                  ") (F.float32 (sbits d 2 11 * (45 / 256))) ∧
    ShowsLine t (t! "True Track Angle Status:               ") (if bit d 12 then t! "true" else t! "false") ∧
    ShowsLine t (t! "True Track (degrees):                  ") (F.float32 (sbits d 13 23 * (90 / 512))) ∧
    ShowsLine t (t! "Ground Speed Status:                   ") (if bit d 24 then t! "true" else t! "false") ∧
    ShowsLine t (t! "Ground Speed (knots):                  ") (decimal (2 * bits d 25 34)) ∧
    ShowsLine t (t! "Track Angle Rate Status:               ") (if bit d 35 then t! "true" else t! "false") ∧
    ShowsLine t (t! "Track Angle Rate (degrees/second):     ") (F.float32 (sbits d 36 45 * (8 / 256))) ∧
    ShowsLine t (t! "True Air Speed Status:                 ") (if bit d 46 then t! "true" else t! "false") ∧
    ShowsLine t (t! "True Air Speed (knots):                ") (decimal (2 * bits d 47 56)) := by
  have hr := commB_reads d l h _ hm
  have hs := commB_splitOn F hF d _ hr
  have hl := bds50_content d r hr
  intro t
  unfold ShowsLine
  rw [hs, ← hl.rollAngleStatus, ← hl.rollAngle, ← hl.trueTrackAngleStatus, ← hl.trueTrackAngle, ← hl.groundSpeedStatus, ← hl.groundSpeed,
    ← hl.trackAngleRateStatus, ← hl.trackAngleRate, ← hl.trueAirSpeedStatus, ← hl.trueAirSpeed]
  exact ⟨rfl, rfl, rfl, rfl, rfl, rfl, rfl, rfl, rfl, rfl⟩

/-- C77. The text of the BDS 6,0 candidate shows the status flags and the numbers that are in the field, in the documented units. -/
theorem bds60_text (F : FloatTexts) (hF : F.Faithful) (d : List UInt8) (l : List (Iface CommBMessage)) (h : readCommBMessage d = .ok l)
    (r : HeadingAndTrackReport) (hm : .val (.bds60 r) ∈ l) :
    let t := CommBMessage.text F (.bds60 r)
    ShowsLine t (t! "Magnetic Heading Status:                  ") (if bit d 1 then t! "true" else t! "false") ∧
    ShowsLine t (t! "Magnetic Heading (degrees):               ") (F.float32 (sbits d 2 12 * (90 / 512))) ∧
    ShowsLine t (t! "Indicated Air Speed Status:               ") (if bit d 13 then t! "true" else t! "false") ∧
    ShowsLine t (t! "Indicated Air Speed (knots):              ") (decimal (bits d 14 23)) ∧
    ShowsLine t (t! "Mach Status:                              ") (if bit d 24 then t! "true" else t! "false") ∧
    (∃ mach : ℚ, |mach - bits d 25 34 * (4 / 1000)| ≤ 1 / 2 ^ 20 ∧
      ShowsLine t (t! "Mach:                                     ") (F.float32 mach)) ∧
    ShowsLine t (t! "Barometric Altitude Rate Status:          ") (if bit d 35 then t! "true" else t! "false") ∧
    ShowsLine t (t! "Barometric Altitude Rate (feet/minute):   ") (decimalInt (sbits d 36 45 * 32)) ∧
    ShowsLine t (t! "Inertial Vertical Velocity Status:        ") (if bit d 46 then t! "true" else t! "false") ∧
    ShowsLine t (t! "Inertial Vertical Velocity (feet/minute): ") (decimalInt (sbits d 47 56 * 32)) := by
  have hr := commB_reads d l h _ hm
  have hs := commB_splitOn F hF d _ hr
  have hl := bds60_content d r hr
  intro t
  unfold ShowsLine
  rw [hs, ← hl.magneticHeadingStatus, ← hl.magneticHeading, ← hl.indicatedAirSpeedStatus, ← hl.indicatedAirSpeed, ← hl.machStatus,
    ← hl.barometricAltitudeRateStatus, ← hl.barometricAltitudeRate, ← hl.initialVerticalVelocityStatus, ← hl.initialVerticalVelocity,
    ← decInt_decimal, ← decInt_decimal]
  exact ⟨rfl, rfl, rfl, rfl, rfl, ⟨_, hl.mach, rfl⟩, rfl, rfl, rfl, rfl⟩

/-- C77, the part that is false: the text of the BDS 4,0 candidate shows the MCP/FCU altitude under the FMS label and conversely. -/
theorem bds40_text_refuted (F : FloatTexts) (hF : F.Faithful) (d : List UInt8) (l : List (Iface CommBMessage)) (h : readCommBMessage d = .ok l)
    (r : SelectedVerticalIntention) (hm : .val (.bds40 r) ∈ l) :
    let t := CommBMessage.text F (.bds40 r)
    ShowsLine t (t! "MCP/FCU Selected Altitude:             ") (decimal (16 * bits d 15 26)) ∧
    ShowsLine t (t! "FMS Selected Altitude:                 ") (decimal (16 * bits d 2 13)) := by
  have hr := commB_reads d l h _ hm
  have hs := commB_splitOn F hF d _ hr
  have hl := bds40_actual d r hr
  intro t
  unfold ShowsLine
  rw [hs, ← hl.mcpfcuSelectedAltitude, ← hl.fmsSelectedAltitude]
  exact ⟨rfl, rfl⟩

/-! ### Messages that meet the hypotheses -/

/-- 8D40621D58C382D690C8AC2863A7: airborne, 38000 feet, even. -/
example : AirborneTC (bits [0x58, 0xC3, 0x82, 0xD6, 0x90, 0xC8, 0xAC] 1 5) ∧
    ∃ m, readADSBMessage 0 false false [0x58, 0xC3, 0x82, 0xD6, 0x90, 0xC8, 0xAC] = .returns (.val m) false ∧
      ShowsLine (m.text fractionTexts) (t! "Altitude (feet):                   ") (t! "38000") ∧
      ShowsLine (m.text fractionTexts) (t! "Encoded Latitude:                  ") (t! "93000") ∧
      ShowsLine (m.text fractionTexts) (t! "Encoded Longitude:                 ") (t! "51372") := by
  refine ⟨by decide, _, rfl, ?_⟩
  unfold ShowsLine
  decide +kernel
/-- 8C4841753A9A153237AEF0F275BE: surface. -/
example : SurfaceTC (bits [0x3A, 0x9A, 0x15, 0x32, 0x37, 0xAE, 0xF0] 1 5) ∧ ∃ m,
    readADSBMessage 0 false false [0x3A, 0x9A, 0x15, 0x32, 0x37, 0xAE, 0xF0] = .returns (.val m) false :=
  ⟨by decide, _, rfl⟩
/-- 8D485020994409940838175B284F: ground speed; 8DA05F219B06B6AF189400CBC33F: airspeed. -/
example : (let d : List UInt8 := [0x99, 0x44, 0x09, 0x94, 0x08, 0x38, 0x17]
    bits d 1 5 = 19 ∧ bits d 6 8 = 1 ∧ ∃ m, readADSBMessage 0 false false d = .returns (.val m) false) ∧
    (let d : List UInt8 := [0x9B, 0x06, 0xB6, 0xAF, 0x18, 0x94, 0x00]
    bits d 1 5 = 19 ∧ bits d 6 8 = 3 ∧ ∃ m, readADSBMessage 0 false false d = .returns (.val m) false) :=
  ⟨⟨by decide, by decide, _, rfl⟩, by decide, by decide, _, rfl⟩
/-- An emergency, unlawful interference. -/
example : let d : List UInt8 := [0xE1, 0xA0, 0, 0, 0, 0, 0]
    bits d 1 5 = 28 ∧ bits d 6 8 = 1 ∧ bits d 9 11 = 5 ∧ ∃ m, readADSBMessage 2 false false d = .returns (.val m) false :=
  ⟨by decide, by decide, by decide, _, rfl⟩
/-- No position, and a position of type code 0. -/
example : (let d : List UInt8 := [0, 0xC3, 0x80, 0, 0, 0, 0]
    bits d 1 5 = 0 ∧ bits d 21 56 = 0 ∧ ∃ m, readADSBMessage 2 false false d = .returns (.val m) false) ∧
    (let d : List UInt8 := [0, 0xC3, 0x82, 0xD6, 0x90, 0xC8, 0xAC]
    bits d 1 5 = 0 ∧ bits d 21 56 ≠ 0 ∧ ∃ m, readADSBMessage 2 false false d = .returns (.val m) false) :=
  ⟨⟨by decide, by decide, _, rfl⟩, by decide, by decide, _, rfl⟩

/-- A000139381951536E024D4CCF6B5 has a BDS 5,0 candidate, A00004128F39F91A7E27C46ADC21 a BDS 6,0 candidate and
A000029C85E42F313000007047D3 a BDS 4,0 candidate. -/
example : ∃ l r, readCommBMessage [0x81, 0x95, 0x15, 0x36, 0xE0, 0x24, 0xD4] = .ok l ∧ .val (.bds50 r) ∈ l := by
  obtain ⟨-, r, hr, -⟩ := (bds50_eval [0x81, 0x95, 0x15, 0x36, 0xE0, 0x24, 0xD4]).resolve_left (fun h => h.2 rfl)
  obtain ⟨l, hl, hm⟩ := commB_listed _ (.bds50 r) rfl ⟨hr, (bds50_coherent r _ hr).2.2 (by decide)⟩ (by rfl) (by rfl) (by rfl)
  exact ⟨l, r, hl, hm⟩
example : ∃ l r, readCommBMessage [0x8F, 0x39, 0xF9, 0x1A, 0x7E, 0x27, 0xC4] = .ok l ∧ .val (.bds60 r) ∈ l := by
  obtain ⟨-, r, hr, -⟩ := (bds60_eval [0x8F, 0x39, 0xF9, 0x1A, 0x7E, 0x27, 0xC4]).resolve_left (fun h => h.2 rfl)
  obtain ⟨l, hl, hm⟩ := commB_listed _ (.bds60 r) rfl ⟨hr, (bds60_coherent r _ hr).2.2 (by decide)⟩ (by rfl) (by rfl) (by rfl)
  exact ⟨l, r, hl, hm⟩
example : ∃ l r, readCommBMessage [0x85, 0xE4, 0x2F, 0x31, 0x30, 0x00, 0x00] = .ok l ∧ .val (.bds40 r) ∈ l := by
  rcases bds40_eval [0x85, 0xE4, 0x2F, 0x31, 0x30, 0x00, 0x00] with h | ⟨-, r, hr, -⟩
  · exact absurd h.2 (by decide)
  obtain ⟨l, hl, hm⟩ := commB_listed _ (.bds40 r) rfl ⟨hr, (bds40_coherent _ r hr).2.2 (by decide)⟩ (by rfl) (by rfl) (by rfl)
  exact ⟨l, r, hl, hm⟩

end Modes
