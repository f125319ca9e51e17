import Verif.Props.ProgramReplies
import Verif.Props.TextRA
import Verif.Props.ACAS
/-!
# C108: the text of a resolution advisory, line by line
-/
namespace Spec

/-- How a flag is written. -/
def flagWord (b : Bool) : List Char := if b then t! "true" else t! "false"

/-- The lines of the active advisory, from the bits of the advisory (ICAO Annex 10 volume IV, 4.3.8.4.2.2.1; bit 1 here is bit 41 there).
`sense` is the word for the sense of the advisory. -/
def activeAdvisoryLines (sense : List Char) (d : List UInt8) : List (List Char) :=
  if bit d 1 then [
    t! "Type: One threat or multiple threats with separation in same direction",
    t! "Preventive/Corrective: " ++ (if bit d 2 then t! "Corrective" else t! "Preventive"),
    t! "Sense generated: " ++ sense,
    t! "Is increased rate: " ++ flagWord (bit d 4),
    t! "Is sense reversal: " ++ flagWord (bit d 5),
    t! "Is altitude crossing: " ++ flagWord (bit d 6),
    t! "Vertical Speed Limit/Positive: " ++ (if bit d 7 then t! "Positive" else t! "Vertical Speed Limit")]
  else if bit d 20 then [
    t! "Type: Multiple threats with separation in different directions",
    t! "Require a correction in the upward sense: " ++ flagWord (bit d 2),
    t! "Requires a positive climb: " ++ flagWord (bit d 3),
    t! "Requires a correction in the downward sense: " ++ flagWord (bit d 4),
    t! "Requires a positive descend: " ++ flagWord (bit d 5),
    t! "Requires a crossing: " ++ flagWord (bit d 6),
    t! "Is a sense reversal: " ++ flagWord (bit d 7)]
  else [t! "Type: no Resolution Advisory has been generated"]

/-- The sense of the advisory: bit 3 is set for a downward sense. -/
def senseWord (d : List UInt8) : List Char := if bit d 3 then t! "Downward" else t! "Upward"

/-- A range code of 7 bits: tenths of nautical miles from 2 to 126. -/
def threatRangeLine (F : Modes.FloatTexts) (n : Nat) : List Char :=
  if n = 0 then t! " 0 - No range estimate available"
  else if n = 1 then t! " 1 - Less than 0.05"
  else if n ≤ 126 then decimal n ++ t! " - " ++ F.float64 (Modes.f64 (((n : ℚ) - 1) / 10)) ++ t! " +/- 0.05 NM"
  else t! "Greater than 12.55"

/-- A bearing code of 6 bits: sectors of 6 degrees. -/
def threatBearingLine (n : Nat) : List Char :=
  if n = 0 then t! " 0 - No bearing estimate available"
  else if n ≤ 60 then decimal n ++ t! " - between " ++ decimal (6 * (n - 1)) ++ t! " and " ++ decimal (6 * n)
  else decimal n ++ t! " - Not assigned"

/-- The lines of the threat: none, its address, or its altitude, range and bearing. -/
def threatLinesOf (altitude range bearing : List Char) (d : List UInt8) : List (List Char) :=
  if bits d 21 22 = 1 then [t! "Threat Mode-S Identity:                          " ++ addressText (bits d 23 46) ++ t! " "]
  else if bits d 21 22 = 2 then [
    t! "Threat Altitude:                                 " ++ altitude,
    t! "Threat Range:                                    " ++ range,
    t! "Threat Bearing:                                  " ++ bearing]
  else []

/-- The meaning of the threat type indicator. -/
def threatTypeName : Nat → List Char
  | 0 => t! "0 - No identity data in TID"
  | 1 => t! "1 - TID contains a Mode S transponder address"
  | 2 => t! "2 - TID contains altitude, range and bearing data"
  | _ => t! "3 - Not assigned"

/-- All the lines of an advisory. -/
def advisoryLines (sense altitude range bearing : List Char) (d : List UInt8) : List (List Char) :=
  [t! "Active Resolution Advisory:"] ++ (activeAdvisoryLines sense d).map (t! "    " ++ ·) ++
  [t! "Active Resolution Advisory Complement:",
    t! "    Do not pass below: " ++ flagWord (bit d 15),
    t! "    Do not pass above: " ++ flagWord (bit d 16),
    t! "    Do not turn left:  " ++ flagWord (bit d 17),
    t! "    Do not turn right: " ++ flagWord (bit d 18),
    t! "Active Resolution Advisory Terminated Indicator: " ++
      (if bit d 19 then t! "the RA indicated has been terminated" else t! "ACAS is currently generating the RA"),
    t! "Multiple Threat Encounter:                       " ++
      (if bit d 20 then t! "Two or more threats are currently being processed by the ACAS"
        else t! "One or no threat is currently being processed by the ACAS"),
    t! "Threat Type Indicator:                           " ++
      threatTypeName (bits d 21 22)] ++
  threatLinesOf altitude range bearing d

end Spec
namespace Modes
open Spec

/-- The text of an altitude that was read: the feet and whether it is valid. -/
def altitudeLine (o : Option ThreatAltitude) : Txt := match o with
  | some a => decimalInt a.feet ++ t! " ft / Status: " ++ (if a.status = 0 then t! "Not Available or Invalid" else t! "Valid")
  | none => []

theorem bits_one (d : List UInt8) (i : Nat) : bits d i i = if bit d i then 1 else 0 := by
  unfold bit
  have : bits d i i < 2 := by unfold bits; rw [show i + 1 - i = 1 by omega]; exact Nat.mod_lt _ (by decide)
  rcases (by omega : bits d i i = 0 ∨ bits d i i = 1) with e | e <;> rw [e] <;> rfl

theorem flagWord_eq (b : Bool) : boolText b = flagWord b := rfl

theorem two_bits_lt (d : List UInt8) (i : Nat) : bits d i (i + 1) < 4 := by
  unfold bits; rw [show i + 1 + 1 - i = 2 by omega]; exact Nat.mod_lt _ (by decide)

/-- What the code writes for a bearing code: the products are products of bytes. -/
def bearingWritten (n : Nat) : Txt :=
  if n = 0 then t! " 0 - No bearing estimate available"
  else if n ≤ 60 then decimal n ++ t! " - between " ++ decimal (6 * (n - 1) % 256) ++ t! " and " ++ decimal (6 * n % 256)
  else decimal n ++ t! " - Not assigned"

theorem bearing_written (n : Nat) (hn : n < 64) : threatBearingText (UInt8.ofNat n) = bearingWritten n := by
  interval_cases n <;> decide +kernel

theorem range_written (F : FloatTexts) (n : Nat) (hn : n < 128) : threatRangeText F (UInt8.ofNat n) = threatRangeLine F n := by
  have e : (UInt8.ofNat n).toNat = n := by rw [UInt8.toNat_ofNat']; omega
  have k : ∀ k : Nat, k < 256 → (UInt8.ofNat n = UInt8.ofNat k ↔ n = k) := fun k hk => by
    rw [u8_eq, e, UInt8.toNat_ofNat']; omega
  have k0 : UInt8.ofNat n = 0 ↔ n = 0 := k 0 (by decide)
  have k1 : UInt8.ofNat n = 1 ↔ n = 1 := k 1 (by decide)
  have k127 : UInt8.ofNat n = 127 ↔ n = 127 := k 127 (by decide)
  unfold threatRangeText threatRangeLine
  by_cases h0 : n = 0
  · rw [if_pos (k0.2 h0), if_pos h0]
  rw [if_neg (fun h => h0 (k0.1 h)), if_neg h0]
  by_cases h1 : n = 1
  · rw [if_pos (k1.2 h1), if_pos h1]
  rw [if_neg (fun h => h1 (k1.1 h)), if_neg h1]
  by_cases h2 : n ≤ 126
  · have hr : getRange (UInt8.ofNat n) = f64 (((n : ℚ) - 1) / 10) := by
      rcases getRange_cases (UInt8.ofNat n) with h | h | h
      · omega
      · omega
      · rw [h.2.2, e]
    rw [if_pos ⟨UInt8.le_iff_toNat_le.2 (by rw [e]; show 2 ≤ n; omega), UInt8.le_iff_toNat_le.2 (by rw [e]; exact h2)⟩, if_pos h2, e, hr]
    rfl
  · rw [if_neg (fun h => h2 (by have := UInt8.le_iff_toNat_le.1 h.2; rw [e] at this; exact this)), if_neg h2,
      if_pos (k127.2 (by omega))]

theorem read_altitude_status (d : List UInt8) (a : ThreatAltitude) (h : readThreatAltitude d = .ok a) : a.status = 0 ∨ a.status = 1 := by
  unfold readThreatAltitude at h
  rcases e2 : idx d 2 with _ | x2
  · rw [e2] at h; cases h
  rcases e3 : idx d 3 with _ | x3
  · rw [e2, e3] at h; cases h
  rcases e4 : idx d 4 with _ | x4
  · rw [e2, e3, e4] at h; cases h
  rw [e2, e3, e4] at h
  simp only [go_bind_ok] at h
  split at h
  · injection h with h; subst h; exact Or.inl rfl
  · revert h
    generalize gillhamToAltitude _ _ _ _ _ _ _ _ _ _ _ _ = g
    intro h
    cases g with
    | error e => cases h
    | ok v => injection h with h; subst h; exact Or.inr rfl

theorem altitude_written (a : ThreatAltitude) (h : a.status = 0 ∨ a.status = 1) : a.text = altitudeLine (some a) := by
  obtain ⟨s, f⟩ := a
  unfold ThreatAltitude.text altitudeLine
  rw [decInt_decimal]
  rcases h with h | h <;> simp only at h <;> subst h <;> rfl

theorem active_written (d : List UInt8) : (nest (specARA d).lines).map cat = (activeAdvisoryLines (t! "Upward") d).map (t! "    " ++ ·) := by
  unfold specARA activeAdvisoryLines
  by_cases h1 : bit d 1 = true
  · rw [if_pos h1, if_pos h1]
    simp only [ActiveRA.lines, OneThreat.lines, nest, List.map, cat, bits_one, activeRASenseText, flagWord_eq]
    cases bit d 2 <;> cases bit d 7 <;> simp [Text.acasActiveRAPreventiveCorrective, Text.acasActiveRAVerticalSpeedLimitOrPositive, tableText, List.lookup]
  · rw [if_neg h1, if_neg h1]
    by_cases h2 : bit d 20 = true
    · rw [if_pos h2, if_pos h2]
      rfl
    · rw [if_neg h2, if_neg h2]; rfl

theorem threat_type_written (n : Nat) (h : n < 4) : Text.acasThreatTypeIndicator (UInt8.ofNat n) = threatTypeName n := by
  interval_cases n <;> decide +kernel

/-- C108, what the code prints for every advisory it reads: the sense is always written `Upward`, the degrees of the bearing are taken
modulo 256 and the range is printed without its last bit; everything else is as transmitted. -/
theorem advisory_text_actual (F : FloatTexts) (hF : F.Faithful) (d : List UInt8) (m : ResolutionAdvisory)
    (h : readResolutionAdvisory d = .ok m) :
    (linesText (m.lines F)).splitOn '\n' = advisoryLines (t! "Upward") (altitudeLine m.threatIdentityAltitude)
      (threatRangeLine F (2 * bits d 36 41)) (bearingWritten (bits d 43 48)) d := by
  rw [splitOn_linesText _ (by unfold ResolutionAdvisory.lines; simp) (ResolutionAdvisory.allLine F hF m (ra_printable d m h))]
  have hr : bits d 36 41 < 64 := by unfold bits; exact Nat.mod_lt _ (by decide)
  have hb : bits d 43 48 < 64 := by unfold bits; exact Nat.mod_lt _ (by decide)
  have ht : bits d 21 22 < 4 := by unfold bits; exact Nat.mod_lt _ (by decide)
  have ha : bits d 23 46 < 2 ^ 24 := by unfold bits; exact Nat.mod_lt _ (by decide)
  have key : ∀ m : ResolutionAdvisory, m.activeRA = specARA d → m.raComplement = ⟨bit d 15, bit d 16, bit d 17, bit d 18⟩ →
      m.raTerminatedIndicator = bits d 19 19 → m.multipleThreatEncounter = UInt8.ofNat (bits d 20 20) →
      m.threatTypeIndicator = bits d 21 22 → ∀ alt rge brg : Txt, (m.threatLines F).map cat = threatLinesOf alt rge brg d →
      (m.lines F).map cat = advisoryLines (t! "Upward") alt rge brg d := by
    intro m e1 e2 e3 e4 e5 alt rge brg e6
    unfold ResolutionAdvisory.lines advisoryLines
    simp only [List.map_append, e1, e2, e3, e4, e5, e6, active_written, bits_one]
    rw [threat_type_written _ ht]
    simp only [List.append_assoc]
    cases bit d 19 <;> cases bit d 20 <;> rfl
  obtain ⟨h6, ⟨h1, rfl⟩ | ⟨h1, a, rfl⟩ | ⟨h1, h2, rfl⟩⟩ := ra_ok d m h
  · refine key _ rfl rfl rfl rfl rfl _ _ _ ?_
    unfold ResolutionAdvisory.threatLines threatLinesOf
    rw [if_pos h1]
    simp only [specRA, h1]
    rw [if_neg (by decide), if_pos trivial, icaoAddressText_eq, UInt32.toNat_ofNat', Nat.mod_eq_of_lt (by omega)]
    rfl
  · have ok : readThreatAltitude d = .ok a := by
      rw [ra_eval d h6, h1, if_neg (by decide), if_pos rfl] at h
      cases e : readThreatAltitude d with
      | error _ => rw [e] at h; cases h
      | ok b =>
        rw [e, go_bind_ok] at h
        injection h with h
        have := congrArg ResolutionAdvisory.threatIdentityAltitude h
        simp only [specRA, Option.some.injEq] at this
        rw [this]
    refine key _ rfl rfl rfl rfl rfl _ _ _ ?_
    unfold ResolutionAdvisory.threatLines threatLinesOf
    rw [h1]
    simp only [specRA, h1]
    rw [if_neg (by decide), if_neg (by decide), if_pos trivial, if_neg (by decide), if_pos trivial, altitude_written a (read_altitude_status d a ok),
      range_written F _ (by omega), bearing_written _ hb]
    rfl
  · refine key _ rfl rfl rfl rfl rfl _ _ _ ?_
    unfold ResolutionAdvisory.threatLines threatLinesOf
    rw [if_neg h1, if_neg h2]
    simp [specRA, h1, h2]

theorem range_split (d : List UInt8) (h6 : d.length = 6) : bits d 36 42 = 2 * bits d 36 41 + bits d 42 42 := by
  obtain ⟨b0, b1, b2, b3, b4, b5, rfl⟩ := list6 d h6
  byte_omega

/-- C108 where the code is right: an advisory of upward sense (or without a sense), with a bearing below 258 degrees and an even range code,
is printed as transmitted. -/
theorem advisory_text_partial (F : FloatTexts) (hF : F.Faithful) (d : List UInt8) (m : ResolutionAdvisory)
    (h : readResolutionAdvisory d = .ok m) (hs : bit d 1 = true → bit d 3 = false)
    (h2 : bits d 21 22 = 2 → bits d 43 48 ≤ 42 ∧ bit d 42 = false) :
    (linesText (m.lines F)).splitOn '\n' = advisoryLines (senseWord d) (altitudeLine m.threatIdentityAltitude)
      (threatRangeLine F (bits d 36 42)) (threatBearingLine (bits d 43 48)) d := by
  have es : activeAdvisoryLines (t! "Upward") d = activeAdvisoryLines (senseWord d) d := by
    by_cases h1 : bit d 1 = true
    · have : senseWord d = t! "Upward" := if_neg (by rw [hs h1]; exact Bool.false_ne_true)
      rw [this]
    · unfold activeAdvisoryLines; rw [if_neg h1, if_neg h1]
  have et : threatLinesOf (altitudeLine m.threatIdentityAltitude) (threatRangeLine F (2 * bits d 36 41)) (bearingWritten (bits d 43 48)) d =
      threatLinesOf (altitudeLine m.threatIdentityAltitude) (threatRangeLine F (bits d 36 42)) (threatBearingLine (bits d 43 48)) d := by
    by_cases ht : bits d 21 22 = 2
    · obtain ⟨hb, h42⟩ := h2 ht
      have e1 : bits d 36 42 = 2 * bits d 36 41 := by
        have h0 : bits d 42 42 = 0 := (bits_one d 42).trans (if_neg (by rw [h42]; exact Bool.false_ne_true))
        obtain ⟨h6, _⟩ := ra_ok d m h
        exact (range_split d h6).trans (by rw [h0, Nat.add_zero])
      have e2 : bearingWritten (bits d 43 48) = threatBearingLine (bits d 43 48) := by
        unfold bearingWritten threatBearingLine
        rw [Nat.mod_eq_of_lt (by omega), Nat.mod_eq_of_lt (by omega)]
      rw [e1, e2]
    · unfold threatLinesOf
      rw [if_neg ht, if_neg ht]
  refine (advisory_text_actual F hF d m h).trans ?_
  unfold advisoryLines
  rw [es, et]

/-- C108 is false of the code for a downward sense and for bearings of 258 degrees and more. -/
theorem advisory_text_refuted (F : FloatTexts) (hF : F.Faithful) :
    (∃ d m, readResolutionAdvisory d = .ok m ∧ bit d 1 = true ∧ senseWord d = t! "Downward" ∧
      t! "    Sense generated: Upward" ∈ (linesText (m.lines F)).splitOn '\n') ∧
    (∃ d m, readResolutionAdvisory d = .ok m ∧ bits d 21 22 = 2 ∧ bits d 43 48 = 60 ∧
      threatBearingLine (bits d 43 48) = t! "60 - between 354 and 360" ∧
      t! "Threat Bearing:                                  60 - between 98 and 104" ∈ (linesText (m.lines F)).splitOn '\n') := by
  constructor
  · obtain ⟨m, hm⟩ : ∃ m, readResolutionAdvisory [0xE0, 0x02, 0x24, 0x12, 0x34, 0x56] = .ok m := ⟨_, rfl⟩
    refine ⟨_, m, hm, by decide, by decide +kernel, ?_⟩
    rw [advisory_text_actual F hF _ m hm]
    unfold advisoryLines activeAdvisoryLines
    rw [if_pos (by decide)]
    refine List.mem_append_left _ (List.mem_append_left _ (List.mem_append_right _ (List.mem_map.2 ⟨t! "Sense generated: " ++ t! "Upward", ?_, rfl⟩)))
    exact .tail _ (.tail _ (.head _))
  · obtain ⟨m, hm⟩ : ∃ m, readResolutionAdvisory [0xC0, 0x02, 0x08, 0, 0, 0x3C] = .ok m := ⟨_, rfl⟩
    refine ⟨_, m, hm, by decide +kernel, by decide +kernel, by decide +kernel, ?_⟩
    rw [advisory_text_actual F hF _ m hm, show bits [0xC0, 0x02, 0x08, 0, 0, 0x3C] 43 48 = 60 by decide +kernel]
    have : bearingWritten 60 = t! "60 - between 98 and 104" := by decide +kernel
    rw [this]
    unfold advisoryLines threatLinesOf
    refine List.mem_append_right _ ?_
    rw [if_neg (by decide +kernel), if_pos (by decide +kernel)]
    exact .tail _ (.tail _ (.head _))

theorem drop_bits (d : List UInt8) (h7 : d.length = 7) :
    bits (d.drop 1) 36 41 = bits d 44 49 ∧ bits (d.drop 1) 43 48 = bits d 51 56 := by
  obtain ⟨b0, b1, b2, b3, b4, b5, b6, rfl⟩ := list7 d h7
  simp only [List.drop]
  constructor <;> byte_omega

/-- C108, the broadcast of an advisory (ADS-B type 28, subtype 2): three lines, then those of the advisory. -/
theorem broadcast_advisory_text (F : FloatTexts) (hF : F.Faithful) (v : UInt8) (a c : Bool) (d : List UInt8) (m : ADSBMessage)
    (h : readADSBMessage v a c d = .returns (.val m) false) (htc : bits d 1 5 = 28) (hst : bits d 6 8 = 2) :
    ∃ ra, readResolutionAdvisory (d.drop 1) = .ok ra ∧
      (m.text F).splitOn '\n' = [
        t! "Message:                   BDS 6,1 - Extended squitter emergency/priority status",
        t! "Subtype:                   2 - TCAS/ACAS RA Broadcast",
        t! "ACAS Data:                 "] ++
        advisoryLines (t! "Upward") (altitudeLine ra.threatIdentityAltitude)
          (threatRangeLine F (2 * bits d 44 49)) (bearingWritten (bits d 51 56)) (d.drop 1) := by
  have hs := adsb_splitOn F hF v a c d m h
  obtain ⟨-, hc⟩ := adsb_dispatch v a c d m false h
  cases m with
  | status p x =>
    have hp := status_content d p hc.2.2
    cases p with
    | acas p =>
      obtain ⟨-, -, h2, hr⟩ := hp
      have ht := advisory_text_actual F hF _ _ hr
      rw [splitOn_linesText _ (by unfold ResolutionAdvisory.lines; simp) (ResolutionAdvisory.allLine F hF _ (ra_printable _ _ hr))] at ht
      have h6 := (ra_ok _ _ hr).1
      rw [List.length_drop] at h6
      obtain ⟨e1, e2⟩ := drop_bits d (by omega)
      rw [e1, e2] at ht
      have h2 : p.subtype = 2 := UInt8.toNat_inj.1 h2
      refine ⟨_, hr, hs.trans ?_⟩
      show (StatusACAS.lines F p).map cat = _
      unfold StatusACAS.lines
      rw [List.map_append, ht, h2]
      rfl
    | noInformation p => have := hp.1; omega
    | emergency p => have := hp.1; omega
  | surfaceV0 => have := hc.1; unfold SurfaceTC at this; omega
  | surfaceV1 => have := hc.1; unfold SurfaceTC at this; omega
  | surfaceV2 => have := hc.1; unfold SurfaceTC at this; omega
  | airborneV0 => have := hc.1; unfold AirborneTC at this; omega
  | airborneV1 => have := hc.1; unfold AirborneTC at this; omega
  | airborneV2 => have := hc.1; unfold AirborneTC at this; omega
  | identification => have := hc.2.1; omega
  | _ => have := hc.1; omega

/-- C108, the advisory of Comm-B register 3,0: two lines, then those of the advisory. -/
theorem commB_advisory_text (F : FloatTexts) (hF : F.Faithful) (d : List UInt8) (l : List (Iface CommBMessage))
    (h : readCommBMessage d = .ok l) (r : ACASResolutionAdvisory) (hm : .val (.bds30 r) ∈ l) :
    ∃ ra, readResolutionAdvisory (d.drop 1) = .ok ra ∧
      ((CommBMessage.bds30 r).text F).splitOn '\n' = [
        t! "Message:                   BDS 3,0 - ACAS active resolution advisory",
        t! "ACAS Data:                 "] ++
        advisoryLines (t! "Upward") (altitudeLine ra.threatIdentityAltitude)
          (threatRangeLine F (2 * bits d 44 49)) (bearingWritten (bits d 51 56)) (d.drop 1) := by
  have hr := commB_reads d l h _ hm
  have hs := commB_splitOn F hF d _ hr
  have hr : readBDS30 d = .ok r := hr
  obtain ⟨h7, -, hra⟩ := ((bds30_accepts d).1 r).1 hr
  have ht := advisory_text_actual F hF _ _ hra
  rw [splitOn_linesText _ (by unfold ResolutionAdvisory.lines; simp) (ResolutionAdvisory.allLine F hF _ (ra_printable _ _ hra))] at ht
  obtain ⟨e1, e2⟩ := drop_bits d h7
  rw [e1, e2] at ht
  refine ⟨_, hra, hs.trans ?_⟩
  show (ACASResolutionAdvisory.lines F r).map cat = _
  unfold ACASResolutionAdvisory.lines
  rw [List.map_append, ht]
  rfl

/-- C108, what the program prints for a long air-air surveillance reply (DF16) that carries an advisory. -/
theorem acas_advisory_printed (F : FloatTexts) (hF : F.Faithful) (E : ErrorTexts) (s f : List UInt8) (level : UInt8) (hs : Spells s f)
    (hf : FrameAccepted f) (hfmt : bits f 1 5 = 16) (h30 : bits f 33 40 = 0x30) (ra : ResolutionAdvisory)
    (hra : readResolutionAdvisory ((field56 f).drop 1) = .ok ra) :
    ∃ a m l t, Overlaid f a ∧ readMessage f = .ok m ∧ m.lines = .ok l ∧ printSingleLine F E s level = .ok t ∧
      t.splitOn '\n' = replyHead s 16 a ++ l.map cat ++ (t! " -- ACAS Information --" ::
        advisoryLines (t! "Upward") (altitudeLine ra.threatIdentityAltitude) (threatRangeLine F (2 * bits ((field56 f).drop 1) 36 41))
          (bearingWritten (bits ((field56 f).drop 1) 43 48)) ((field56 f).drop 1)) ++ [[], []] := by
  obtain ⟨a, m, l, t, h1, h2, h3, h4, h5⟩ := acas_output F hF E s f level hs hf hfmt h30 ra hra
  have ht := advisory_text_actual F hF _ _ hra
  rw [splitOn_linesText _ (by unfold ResolutionAdvisory.lines; simp) (ResolutionAdvisory.allLine F hF _ (ra_printable _ _ hra))] at ht
  rw [ht] at h5
  exact ⟨a, m, l, t, h1, h2, h3, h4, h5⟩

/-- An advisory of upward sense against an aircraft with an address; one of upward sense against an aircraft at bearing 10 and range 2. -/
example : ∃ m, readResolutionAdvisory [0xC0, 0x02, 0x24, 0x12, 0x34, 0x56] = .ok m ∧ bit [0xC0, 0x02, 0x24, 0x12, 0x34, 0x56] 1 = true ∧
    bit [0xC0, 0x02, 0x24, 0x12, 0x34, 0x56] 3 = false ∧ bits [0xC0, 0x02, 0x24, 0x12, 0x34, 0x56] 21 22 = 1 :=
  ⟨_, rfl, by decide, by decide, by decide +kernel⟩
example : ∃ m, readResolutionAdvisory [0xC0, 0x02, 0x08, 0, 0x01, 0x0A] = .ok m ∧ bits [0xC0, 0x02, 0x08, 0, 0x01, 0x0A] 21 22 = 2 ∧
    bits [0xC0, 0x02, 0x08, 0, 0x01, 0x0A] 43 48 = 10 ∧ bit [0xC0, 0x02, 0x08, 0, 0x01, 0x0A] 42 = false ∧
    threatBearingLine 10 = t! "10 - between 54 and 60" :=
  ⟨_, rfl, by decide +kernel, by decide +kernel, by decide +kernel, by decide +kernel⟩

end Modes
