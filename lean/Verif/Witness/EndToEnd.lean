import Verif.Props.EndToEnd
import Verif.Props.EndToEndVelocity
import Verif.Props.EndToEndCommB
import Verif.Props.EndToEndSurveillance
import Verif.Props.EndToEndStatus
import Verif.Props.EndToEndMet
import Verif.Props.EndToEndACAS
import Verif.Props.EndToEndCapability
import Verif.Props.EndToEndOperational
import Verif.Props.History
import Verif.Props.Program
import Verif.Props.CommandLine
import Verif.Props.Accessors
import Verif.Props.CommBRegisters
import Verif.Witness.Geo

/-!
# Concrete cases for the theorems from the aircraft to the report, for the program and for the accessors

Each example applies one theorem to concrete data and discharges all its hypotheses: they can be met.
-/

namespace Modes

open Spec Geo Text

/-! ### C78: squitters -/

/-- An identification, 4840D6. -/
example : ∃ f m, readMessage f = .ok (.df17 m) ∧ m.addressAnnounced.toNat = 0x4840D6 := by
  obtain ⟨f, hf⟩ := isSquitter_exists 5 0x4840D6 [0x20, 0x2C, 0xC3, 0x71, 0xC3, 0x2C, 0xE0]
  obtain ⟨m, h, -, -, ha, -⟩ := squitter_received 5 0x4840D6 _ f (by norm_num) (by norm_num) rfl hf
  exact ⟨f, m, h, ha⟩

example := airborne_received 2 (by decide) true false 11 0 0 1560 0 0 93000 51372 (by decide) (by decide) (by decide) (by decide) (by decide)
  (by decide) (by decide) (by decide)
example := surface_received 1 (by decide) true false 7 41 1 64 0 1 39195 110320 (by decide) (by decide) (by decide) (by decide) (by decide)
  (by decide) (by decide) (by decide)

example : ∃ f p, ReceivesAirborne 2 f 0x4840D6 p ∧ p.altitudeInFeet = 38000 := by
  obtain ⟨f, hf⟩ := isSquitter_exists 5 0x4840D6 (airborneField 11 0 0 (altitudeField 1560) 0 0 (93000 : UInt32).toNat (51372 : UInt32).toNat)
  obtain ⟨p, h, ha, -⟩ := airborne_frame_received 2 (by decide) 5 0x4840D6 (by norm_num) (by norm_num) 11 0 0 1560 0 0 93000 51372 (by decide)
    (by decide) (by decide) (by decide) (by decide) (by decide) (by decide) (by decide) f hf
  exact ⟨f, p, h, by rw [ha]; norm_num⟩

example : ∃ f p, ReceivesSurface 1 f 0x4840D6 p ∧ p.groundTrackStatus = true := by
  obtain ⟨f, hf⟩ := isSquitter_exists 5 0x4840D6 (surfaceField 7 41 1 64 0 1 (39195 : UInt32).toNat (110320 : UInt32).toNat)
  obtain ⟨p, h, -, ha, -⟩ := surface_frame_received 1 (by decide) 5 0x4840D6 (by norm_num) (by norm_num) 7 41 1 64 0 1 39195 110320 (by decide)
    (by decide) (by decide) (by decide) (by decide) (by decide) (by decide) (by decide) f hf
  exact ⟨f, p, h, ha⟩

/-- 45 N 10 E, received by a station at 44 N 12 E. -/
example : ∃ f p lat' lon', ReceivesAirborne 2 f 0x4840D6 p ∧
    airborneLocalF f64R (getNumberOfLongitudeF f64R (fun x => f64R (Real.cos x)) (fun x => f64R (Real.arccos x))) p.encodedLatitude
      p.encodedLongitude 44 12 (p.cprFormat == 1) = (lat', lon') ∧ |lat' - 45| ≤ dLat 0 / 2 ^ 18 + 1 / 2 ^ 43 := by
  obtain ⟨f, hf⟩ := isSquitter_exists 5 0x4840D6 (airborneField 11 0 0 (altitudeField 1560) 0 0 (encodeLat 17 0 45).toNat (encodeLon 17 0 45 10).toNat)
  obtain ⟨p, lat', lon', h1, -, -, h2, h3, -⟩ := airborne_local_end_to_end _ _ accurate_rounded 2 (by decide) 5 0x4840D6 (by norm_num)
    (by norm_num) 11 0 0 1560 0 (by decide) (by decide) (by decide) (by decide) (by decide) 45 10 44 12 false (by norm_num) (by norm_num) 0 rfl
    (by rw [dLat0]; norm_num) (by rw [dLon_45]; norm_num) f hf
  exact ⟨f, p, lat', lon', h1, h2, h3⟩

/-! ### C78, C79: what the program prints -/

theorem hexDigit_exists (v : Nat) (hv : v < 16) : ∃ c, HexDigit c v := by
  by_cases h : v < 10
  · exact ⟨UInt8.ofNat (48 + v), Or.inl ⟨h, by simp; omega⟩⟩
  · exact ⟨UInt8.ofNat (65 + (v - 10)), Or.inr ⟨by omega, hv, Or.inl (by simp; omega)⟩⟩

/-- Every frame can be spelled. -/
theorem spelled (f : List UInt8) : ∃ s, Spells s f := by
  induction f with
  | nil => exact ⟨[], .nil⟩
  | cons b l ih =>
    obtain ⟨s, hs⟩ := ih
    have hb := b.toNat_lt
    obtain ⟨x, hx⟩ := hexDigit_exists (b.toNat / 16) (by omega)
    obtain ⟨y, hy⟩ := hexDigit_exists (b.toNat % 16) (by omega)
    exact ⟨x :: y :: s, .cons hx hy (by omega) hs⟩

example (E : ErrorTexts) : ∃ s t, printSingleLine fractionTexts E s 2 = .ok t ∧ ShowsLine t (t! "Identification:                    ") (t! "KLM1023 ") := by
  obtain ⟨f, hf⟩ := isSquitter_exists 5 0x4840D6 (0x20 :: toBytes 6 (encodeIdent [0x4B, 0x4C, 0x4D, 0x31, 0x30, 0x32, 0x33, 0x20]))
  obtain ⟨s, hs⟩ := spelled f
  obtain ⟨t, h1, -, h2⟩ := callsign_end_to_end _ fractionTexts_faithful E 2 5 0x4840D6 (by norm_num) (by norm_num) 0x20 (by decide) _ rfl
    (by decide) f s hf hs
  exact ⟨s, t, h1, h2⟩

example (E : ErrorTexts) : ∃ s t, printSingleLine fractionTexts E s 2 = .ok t ∧ ShowsLine t (t! "Altitude (feet):                   ") (decimalInt 38000) := by
  obtain ⟨f, hf⟩ := isSquitter_exists 5 0x4840D6 (airborneField 11 0 0 (altitudeField 1560) 0 0 (93000 : UInt32).toNat (51372 : UInt32).toNat)
  obtain ⟨s, hs⟩ := spelled f
  obtain ⟨t, h1, -, h2, -⟩ := altitude_end_to_end _ fractionTexts_faithful E 2 (by decide) 5 0x4840D6 (by norm_num) (by norm_num) 11 0 0 1560 0 0
    93000 51372 (by decide) (by decide) (by decide) (by decide) (by decide) (by decide) (by decide) (by decide) f s hf hs
  exact ⟨s, t, h1, h2⟩

example (E : ErrorTexts) : ∃ f s t M, readADSBMessage 2 false false examplePosition = .returns (.val M) false ∧
    printSingleLine fractionTexts E s 2 = .ok t ∧ Spells s f ∧
    t.splitOn '\n' = squitterHeader s 5 0x4840D6 examplePosition ++ (M.text fractionTexts).splitOn '\n' ++ [[], []] := by
  obtain ⟨f, hf⟩ := isSquitter_exists 5 0x4840D6 examplePosition
  obtain ⟨s, hs⟩ := spelled f
  obtain ⟨t, h1, h2⟩ := squitter_output _ fractionTexts_faithful E s f _ 5 0x4840D6 (by norm_num) (by norm_num) rfl hf hs 2 _ rfl
  obtain ⟨t', h1', -⟩ := squitter_shows _ fractionTexts_faithful E s f _ 5 0x4840D6 (by norm_num) (by norm_num) rfl hf hs 2 _ rfl
  exact ⟨f, s, t, _, rfl, h1, hs, h2⟩

/-- An all-call reply. -/
theorem reported_df11 : Reported [0x5D, 0x48, 0x40, 0xD6, 0x11, 0x22, 0x33] :=
  ⟨⟨Or.inl ⟨rfl, by decide⟩, fun h => absurd h (by decide)⟩, fun h => absurd h (by decide)⟩

theorem spells_df11 : Spells (ascii "5D4840d6112233") [0x5D, 0x48, 0x40, 0xD6, 0x11, 0x22, 0x33] := (hexDecode_iff _ _).1 (by decide +kernel)

example (F : FloatTexts) (E : ErrorTexts) := reported_output F E _ _ 1 spells_df11 reported_df11
example (F : FloatTexts) (E : ErrorTexts) := output_terminated F E _ _ 1 spells_df11
example (F : FloatTexts) (E : ErrorTexts) : ∃ t a m, printSingleLine F E (ascii "5D4840d6112233") 1 =
    .ok (t! "Reading: " ++ asciiText (ascii "5D4840d6112233") ++ '\n' :: t) ∧ HeadNumber [0x5D, 0x48, 0x40, 0xD6, 0x11, 0x22, 0x33] a ∧
    readMessage [0x5D, 0x48, 0x40, 0xD6, 0x11, 0x22, 0x33] = .ok m := by
  obtain ⟨a, m, t, d, -, -, -, h⟩ := reported_output F E _ _ 1 spells_df11 reported_df11
  obtain ⟨a, m, m', h1, h2, h3, -⟩ := output_identifies F E _ _ _ _ 1 1 spells_df11 spells_df11 reported_df11 reported_df11 _ h h
  exact ⟨_, a, m, h, h1, h3⟩

/-! ### C80: runs of the program -/

/-- `-file=f.txt` when the file is missing; `-adsb_reader_level=7`. -/
example (F : FloatTexts) (E : ErrorTexts) (pi : List UInt8 → Option Int) :
    runMain F E pi (fun _ => none) [bytes "-file=f.txt"] = ⟨[], .exited 1⟩ :=
  run_file_unreadable F E pi (fun _ => none) [.file (bytes "f.txt")] [bytes "-file=f.txt"] []
    (by intro n t h; simp at h) (.file (a := [bytes "-file=f.txt"]) .joined .nil) (by intro a h; cases h) (by decide) (by decide) (Or.inl rfl)

example (F : FloatTexts) (E : ErrorTexts) (pi : List UInt8 → Option Int) (h7 : pi (bytes "7") = some 7)
    (files : List UInt8 → Option (List UInt8)) :
    runMain F E pi files [bytes "-adsb_reader_level=7"] = ⟨[], .panicked⟩ ∧ ∃ text n, pi text = some n ∧ ¬ (0 ≤ n ∧ n ≤ 2) := by
  have h := run_wrong_level F E pi files [.level 7 (bytes "7")] [bytes "-adsb_reader_level=7"] []
    (by
      intro n t h
      simp only [List.mem_cons, Setting.level.injEq, List.not_mem_nil, or_false] at h
      rw [h.1, h.2]; exact h7)
    (.level (a := [bytes "-adsb_reader_level=7"]) .joined .nil) (by intro a h; cases h) (by decide)
  rw [List.append_nil] at h
  obtain ⟨text, n, h1, h2, -⟩ := run_panics_only F E pi files [bytes "-adsb_reader_level=7"] (by rw [h])
  exact ⟨h, text, n, h1, h2⟩

/-! ### C81: accessors -/

example := commB_register [0x20, 0x2C, 0xC3, 0x71, 0xC3, 0x2C, 0xE0] _ rfl
example := adsb_register 2 true false examplePosition _ false rfl
example := (subtype_accessor [0x99, 0x44, 0x09, 0x94, 0x08, 0x38, 0x17]).1 _ rfl
example := (subtype_accessor [0xE1, 0x20, 0, 0, 0, 0, 0]).2.1 _ rfl
example := (subtype_accessor [0xEA, 0, 0, 0, 0, 0, 0]).2.2 _ rfl
example := category_set_name [0x14, 0x2C, 0xC3, 0x71, 0xC3, 0x2C, 0xE0] _ rfl
example := turbulence_accessor [0xA0, 0x08, 0x51, 0x80, 0x04, 0x32, 0x80] _ rfl
example := source_accessor_partial [0x08, 0x5B, 0xD5, 0xCF, 0x40, 0, 0] _ rfl (by decide)

/-! ### C84 - C94: other messages -/

example : ∃ f x, readBDS09 exampleVelocity = .ok x ∧ ReceivesVelocity 2 f 0x4840D6 x := by
  obtain ⟨f, hf⟩ := isSquitter_exists 5 0x4840D6 exampleVelocity
  exact ⟨f, _, rfl, velocity_delivered 2 5 0x4840D6 (by norm_num) (by norm_num) _ f rfl (by decide) _ rfl hf⟩

example : ∃ f m, readMessage f = .ok m ∧ ∃ a, checkCRC m f [] [] = .ok a ∧ a.toNat = 0x4840D6 := by
  obtain ⟨f, hf⟩ := isCommBReply_exists 21 0x1A2B3 0x4840D6 [0x20, 0x2C, 0xC3, 0x71, 0xC3, 0x2C, 0xE0] (by norm_num)
  obtain ⟨m, h1, -, h2⟩ := commB_reply_received 21 0x1A2B3 0x4840D6 _ f (Or.inr rfl) (by norm_num) nofun rfl hf
  exact ⟨f, m, h1, h2⟩

example : ∃ f, ReceivesCommB f 0x4840D6 [.bds20 ⟨[0x4B, 0x4C, 0x4D, 0x31, 0x30, 0x32, 0x33, 0x20]⟩] := by
  obtain ⟨f, hf⟩ := isCommBReply_exists 21 0x1A2B3 0x4840D6 (0x20 :: toBytes 6 (encodeIdent [0x4B, 0x4C, 0x4D, 0x31, 0x30, 0x32, 0x33, 0x20]))
    (by norm_num)
  exact ⟨f, commB_callsign_end_to_end 21 0x1A2B3 0x4840D6 _ ⟨Or.inr rfl, by norm_num, nofun⟩ rfl (by decide) f hf⟩

/-- DF0, on the ground, sensitivity 5, 35612 ft. -/
example : ∃ f m, readMessage f = .ok (.df0 m) ∧ m.sensitivityLevel.toNat = 5 ∧ |(m.altitude : ℝ) - 35612| ≤ 25 / 2 := by
  obtain ⟨f, hf⟩ := reply_exists 0 (1 * 2 ^ 13 + 0 * 2 ^ 12 + 5 * 2 ^ 8 + 3 * 2 ^ 2) (code25 35612) [] 0x4840D6 (by norm_num)
  obtain ⟨m, h1, -, -, h2, -, -, h3, -⟩ := (airAir_reply_end_to_end 1 0 5 3 0x4840D6 (by norm_num) (by norm_num) (by norm_num) (by norm_num) 35612
    _ _ (Or.inl ⟨by norm_num, by norm_num, rfl, rfl⟩) f []).1 hf
  exact ⟨f, m, h1, h2, h3⟩

/-- DF11, whatever parity was received. -/
example : ∃ m a, readMessage [0x5D, 0x48, 0x40, 0xD6, 0x11, 0x22, 0x33] = .ok (.df11 m) ∧ m.addressAnnounced.toNat = 0x4840D6 ∧
    Overlaid [0x5D, 0x48, 0x40, 0xD6, 0x11, 0x22, 0x33] a := by
  obtain ⟨a, ha, -⟩ := overlaid_exists [0x5D, 0x48, 0x40, 0xD6, 0x11, 0x22, 0x33] (by decide)
  obtain ⟨m, h1, -, h2, -⟩ := allCall_end_to_end 5 0x4840D6 a (by norm_num) (by norm_num) _ [0x11, 0x22, 0x33] rfl (by decide) ha
  exact ⟨m, a, h1, h2, ha⟩

example : ∃ f m, readMessage f = .ok m ∧ m.getDownLinkFormat = 5 := by
  obtain ⟨f, hf⟩ := reply_exists 5 (2 * 2 ^ 11) (squawkCode 7 7 0 0) [] 0x510AF9 (by norm_num)
  obtain ⟨m, h1, h2, -⟩ := reply_received (Or.inl ⟨by decide, rfl⟩) (by norm_num) (by decide) (by decide) hf
  exact ⟨f, m, h1, h2⟩

example : ∃ f x, ReceivesADSB 1 true false f 0x4840D6 x := by
  obtain ⟨f, hf⟩ := isSquitter_exists 5 0x4840D6 exampleSurface
  obtain ⟨x, h, -⟩ := adsb_accepted_delivered 1 true false 5 0x4840D6 (by norm_num) (by norm_num) exampleSurface f
    ⟨rfl, Or.inr (Or.inr (Or.inl ⟨by decide, by decide⟩))⟩ hf
  exact ⟨f, x, h⟩

/-- A position, a version 2 status of an airborne aircraft, and noise. -/
example := level_learned_partial true false 0 [[0x58, 0xC3, 0x82, 0xD6, 0x90, 0xC8, 0xAC], [0xF8, 0x23, 0x00, 0x02, 0x00, 0x49, 0xB8], [0xFF]]
  (by unfold NoSurfaceV2; decide)
example := level_valid true false 1 (by decide) [[0xF8, 0x23, 0x00, 0x02, 0x00, 0x49, 0xB8], [0xF9, 0x13, 0x71, 0x02, 0x41, 0x49, 0xB2]]
example := level_ignores true false 1 [[0xF8, 0x23, 0x00, 0x02, 0x00, 0x49, 0xB8]] [[0xFF]] [0x58, 0xC3, 0x82, 0xD6, 0x90, 0xC8, 0xAC] (by decide)
example := level_learned_refuted true false 0 [[0xF8, 0x23, 0x00, 0x02, 0x00, 0x49, 0xB8]] [0xF9, 0x13, 0x71, 0x02, 0x41, 0x49, 0xB2] (by decide)
  (by decide) (by decide)

/-- 37008 ft on the panel, 24000 ft in the flight management system. -/
example : ∃ f l r, ReceivesCommB f 0x4840D6 l ∧ CommBMessage.bds40 r ∈ l := by
  obtain ⟨f, hf⟩ := isCommBReply_exists 21 0x1A2B3 0x4840D6 (selectedAltitudeField (some 37008) (some 24000) (some 1013.2) 1 0 1 0 1 2) (by norm_num)
  obtain ⟨l, r, h1, h2, -⟩ := selectedAltitude_shown 21 0x1A2B3 0x4840D6 37008 24000 (some 1013.2) 1 0 1 0 1 2
    ⟨Or.inr rfl, by norm_num, nofun⟩ (by norm_num) (by norm_num) (fun x e => (by cases e; norm_num)) (by norm_num) (by norm_num)
    (by norm_num) (by norm_num) (by norm_num) (by norm_num) f hf
  exact ⟨f, l, r, h1, h2⟩

example := advisory_read_partial (.sameSense true false false false false true) false false true false false false (.position 72 21 5)
  (by simp only [Threat.Fits]; decide)

example : ∃ f m, ReceivesADSB 2 true false f 0x4840D6 (.status (.acas m) 2) := by
  obtain ⟨f, hf⟩ := isSquitter_exists 5 0x4840D6
    (0xE2 :: advisoryField (.sameSense true false false false false true) false false true false false false (.position 72 21 5))
  obtain ⟨m, h, -⟩ := (advisory_squitter_partial 2 true false 5 0x4840D6 (by norm_num) (by norm_num) _ _ _ _ _ _ _ _
    (by simp only [Threat.Fits]; decide) f hf).2 (by simp only [ReadableThreat]; decide +kernel)
  exact ⟨f, m, h⟩

example : ∃ f l m, ReceivesCommB f 0x4840D6 l ∧ CommBMessage.bds30 m ∈ l := by
  obtain ⟨f, hf⟩ := isCommBReply_exists 21 0x1A2B3 0x4840D6
    (0x30 :: advisoryField (.sameSense true false false false false true) false false true false false false (.position 72 21 5)) (by norm_num)
  obtain ⟨l, m, h1, h2, -⟩ := (advisory_commB_partial 21 0x1A2B3 0x4840D6 ⟨Or.inr rfl, by norm_num, nofun⟩ _ _ _ _ _ _ _ _
    (by simp only [Threat.Fits]; decide) f hf).2 (by simp only [ReadableThreat]; decide +kernel)
  exact ⟨f, l, m, h1, h2⟩

example : ∃ f l m, ReceivesCommB f 0x4840D6 l ∧ CommBMessage.bds17 m ∈ l := by
  obtain ⟨f, hf⟩ := isCommBReply_exists 21 0x1A2B3 0x4840D6
    (gicbField fun r => decide (r ∈ [0x05, 0x06, 0x07, 0x08, 0x09, 0x20, 0x40, 0x50, 0x51, 0x52, 0x60])) (by norm_num)
  obtain ⟨l, m, h1, h2, -⟩ := (gicb_end_to_end_partial 21 0x1A2B3 0x4840D6 _ ⟨Or.inr rfl, by norm_num, nofun⟩ f hf).2 (Or.inl ⟨by decide, by decide⟩)
  exact ⟨f, l, m, h1, h2⟩

example : ∃ f l m, ReceivesCommB f 0x4840D6 l ∧ CommBMessage.bds10 m ∈ l := by
  obtain ⟨f, hf⟩ := isCommBReply_exists 21 0x1A2B3 0x4840D6
    (dataLinkField ⟨false, true, true, 5, false, true, 0, 6, true, true, true, true, true, true, 2, 0⟩) (by norm_num)
  obtain ⟨l, m, h1, h2, -⟩ := dataLink_end_to_end_partial 21 0x1A2B3 0x4840D6 _
    ⟨by decide, by decide, by decide, by decide, by decide, by decide⟩ ⟨Or.inr rfl, by norm_num, nofun⟩ f hf
  exact ⟨f, l, m, h1, h2⟩

example : ∃ f m, ReceivesADSB 0 true false f 0x4840D6 (.operationalStatus (.airborneV2 m) 2) := by
  obtain ⟨f, hf⟩ := isSquitter_exists 5 0x4840D6 (packed 7 (fieldsAirborneV2 1 0 1 1 0 0 0 0 0 2 0 9 2 3 1 0 0))
  obtain ⟨m, h, -⟩ := operationalAirborneV2_end_to_end 0 true false 5 0x4840D6 (by norm_num) (by norm_num) 1 0 1 1 0 0 0 0 0 2 0 9 2 3 1 0 0
    (by decide) f hf
  exact ⟨f, m, h⟩

example : ∃ f m, readBDS65 [0xF8, 0x23, 0x00, 0x02, 0x00, 0x49, 0xB8] = .ok m ∧
    ReceivesADSB 0 true false f 0x4840D6 (.operationalStatus m m.getADSBLevel) := by
  obtain ⟨f, hf⟩ := isSquitter_exists 5 0x4840D6 [0xF8, 0x23, 0x00, 0x02, 0x00, 0x49, 0xB8]
  obtain ⟨m, h⟩ := operational_delivered 0 true false 5 0x4840D6 (by norm_num) (by norm_num) _ f (by decide) hf
  exact ⟨f, m, h⟩

example : ∃ f m, ReceivesADSB 0 true false f 0x4840D6 (.operationalStatus (.airborneV1 m) 1) := by
  obtain ⟨f, hf⟩ := isSquitter_exists 5 0x4840D6 (packed 7 (fieldsAirborneV1 1 1 1 0 1 1 0 1 1 10 2 1 0))
  obtain ⟨m, h, -⟩ := operationalAirborneV1_end_to_end 0 true false 5 0x4840D6 (by norm_num) (by norm_num) 1 1 1 0 1 1 0 1 1 10 2 1 0 (by decide) f hf
  exact ⟨f, m, h⟩

example : ∃ f m, ReceivesADSB 0 true false f 0x4840D6 (.operationalStatus (.surfaceV1 m) 1) := by
  obtain ⟨f, hf⟩ := isSquitter_exists 5 0x4840D6 (packed 7 (fieldsSurfaceV1 1 1 1 4 1 0 1 1 10 2 1 0))
  obtain ⟨m, h, -⟩ := operationalSurfaceV1_end_to_end 0 true false 5 0x4840D6 (by norm_num) (by norm_num) 1 1 1 4 1 0 1 1 10 2 1 0 (by decide) f hf
  exact ⟨f, m, h⟩

/-- The version 2 status of an aircraft on the ground is delivered as one of version 1. -/
example : ∃ f m, ReceivesADSB 0 true false f 0x4840D6 (.operationalStatus (.surfaceV2 m) 1) := by
  obtain ⟨f, hf⟩ := isSquitter_exists 5 0x4840D6 (packed 7 (fieldsSurfaceV2 1 1 0 3 1 1 0 0 0 2 2 1 0 9 3 0 0 1))
  obtain ⟨m, h, -⟩ := operationalSurfaceV2_end_to_end_partial 0 true false 5 0x4840D6 (by norm_num) (by norm_num) 1 1 0 3 1 1 0 0 0 2 2 1 0 9 3 0 0 1
    (by decide) f hf
  exact ⟨f, m, h⟩

/-- A hazard report with only a light wind shear. -/
example : ∃ f m, ReceivesCommB f 0x4840D6 [.bds07 m] := by
  obtain ⟨f, hf⟩ := isCommBReply_exists 21 0x1A2B3 0x4840D6 (hazardReportField (some 1) none none none none none none) (by norm_num)
  have h7 : (hazardReportField (some 1) none none none none none none).length = 7 := toBytes_length 7 _
  obtain ⟨m, h1, h2, a, h3, h4⟩ := commB_reply_received 21 0x1A2B3 0x4840D6 _ f (Or.inr rfl) (by norm_num) nofun h7 hf
  obtain ⟨l, hl, -⟩ := commB_registers _ h7
  have h : ReceivesCommB f 0x4840D6 l := ⟨m, _, a, h1, h2.imp (fun h => h.2) (fun h => h.2), h3, h4, hl⟩
  obtain ⟨x, rfl⟩ := hazardReport_refuted 21 0x1A2B3 0x4840D6 1 le_rfl ⟨Or.inr rfl, by norm_num, nofun⟩ f hf l h
  exact ⟨f, x, h⟩

end Modes
