import Verif.Props.TextRA
import Verif.Props.ADSB
/-!
# Texts of the ADS-B messages
-/
namespace Spec
open Modes

/-- What a text of an aircraft status message does not show: the Mode A code, and the sense of a resolution advisory. -/
def shownStatus : AircraftStatus → AircraftStatus
  | .noInformation m => .noInformation m
  | .emergency m => .emergency { m with modeACode := 0 }
  | .acas m => .acas { m with resolutionAdvisory := match m.resolutionAdvisory.activeRA with
      | .oneThreat a => { m.resolutionAdvisory with activeRA := .oneThreat { a with sense := 0 } }
      | _ => m.resolutionAdvisory }

/-- What the text of an ADS-B message shows: everything but the version given by the caller of the reader, the Mode A code and the
sense of a resolution advisory. -/
def shownADSB : ADSBMessage → ADSBMessage
  | .noPosition _ formatTypeCode altitude nic => .noPosition 0 formatTypeCode altitude nic
  | .airborneType0 position nic _ => .airborneType0 position nic 0
  | .velocity m _ => .velocity m 0
  | .identification m _ => .identification m 0
  | .status m _ => .status (shownStatus m) 0
  | .targetState m _ => .targetState m 0
  | .operationalStatus m _ => .operationalStatus m 0
  | m => m

end Spec
namespace Modes
open Spec

/-- The first line and the first characters of all lines. -/
def sig (l : List (Txt × Txt)) : Option Txt × List Txt := ((l.map cat).head?, (l.map cat).map (List.take 12))

theorem sig_congr {a b : List (Txt × Txt)} (h : a.map cat = b.map cat) : sig a = sig b := by unfold sig; rw [h]

/-- Kinds of advisories: 3 for the active advisory, 3 for the threat. -/
def ResolutionAdvisory.kind (m : ResolutionAdvisory) : Nat :=
  3 * (match m.activeRA with | .oneThreat _ => 0 | .multiple _ => 1 | .none => 2) +
    (if m.threatTypeIndicator = 1 then 1 else if m.threatTypeIndicator = 2 then 2 else 0)

theorem ResolutionAdvisory.kind_lt (m : ResolutionAdvisory) : m.kind < 9 := by
  unfold ResolutionAdvisory.kind
  split <;> split <;> (try split) <;> omega

/-- Kinds of ADS-B messages, told apart by their lines. -/
def ADSBMessage.kind : ADSBMessage → Nat
  | .noPosition .. => 0
  | .airborneType0 .. => 1
  | .airborneV0 .. => 2
  | .airborneV1 .. => 3
  | .airborneV2 .. => 4
  | .surfaceV0 .. => 5
  | .surfaceV1 .. => 6
  | .surfaceV2 .. => 7
  | .velocity (.groundSpeedNormal _) _ => 8
  | .velocity (.groundSpeedSupersonic _) _ => 8
  | .velocity (.airSpeedNormal _) _ => 9
  | .velocity (.airSpeedSupersonic _) _ => 9
  | .identification .. => 10
  | .status (.noInformation _) _ => 11
  | .status (.emergency _) _ => 12
  | .status (.acas m) _ => 20 + m.resolutionAdvisory.kind
  | .targetState (.type0 _) _ => 13
  | .targetState (.type1 _) _ => 14
  | .operationalStatus (.v0 _) _ => 15
  | .operationalStatus (.airborneV1 _) _ => 16
  | .operationalStatus (.airborneV2 _) _ => 17
  | .operationalStatus (.surfaceV1 _) _ => 18
  | .operationalStatus (.surfaceV2 _) _ => 19

/-- Facts about the messages that were read. -/
def ADSBMessage.Printable : ADSBMessage → Prop
  | .noPosition .. => True
  | .airborneType0 p _ _ => p.Printable
  | .airborneV0 p _ _ => p.Printable
  | .airborneV1 p _ _ _ => p.Printable
  | .airborneV2 p _ _ _ _ => p.Printable
  | .surfaceV0 p _ _ => p.Printable
  | .surfaceV1 p _ _ _ => p.Printable
  | .surfaceV2 p _ _ _ _ => p.Printable
  | .velocity (.groundSpeedNormal m) _ => m.formatTypeCode = 19 ∧ m.subtype = 1
  | .velocity (.groundSpeedSupersonic m) _ => m.formatTypeCode = 19 ∧ m.subtype = 2
  | .velocity (.airSpeedNormal m) _ => m.formatTypeCode = 19 ∧ m.subtype = 3
  | .velocity (.airSpeedSupersonic m) _ => m.formatTypeCode = 19 ∧ m.subtype = 4
  | .identification m _ => 10 ∉ m.identification ∧
      ((m.formatTypeCode = 1 ∧ ∃ c, m.category = .setD c) ∨ (m.formatTypeCode = 2 ∧ ∃ c, m.category = .setC c) ∨
       (m.formatTypeCode = 3 ∧ ∃ c, m.category = .setB c) ∨ (m.formatTypeCode = 4 ∧ ∃ c, m.category = .setA c))
  | .status (.noInformation m) _ => m.formatTypeCode = 28
  | .status (.emergency m) _ => m.formatTypeCode = 28
  | .status (.acas m) _ => m.formatTypeCode = 28 ∧ m.resolutionAdvisory.Printable
  | .targetState (.type0 m) _ => m.formatTypeCode = 29 ∧ m.Printable
  | .targetState (.type1 m) _ => m.formatTypeCode = 29 ∧ m.Printable
  | .operationalStatus (.v0 m) _ => m.formatTypeCode = 31 ∧ m.subtype = 0
  | .operationalStatus (.airborneV1 m) _ => m.formatTypeCode = 31 ∧ m.Printable
  | .operationalStatus (.airborneV2 m) _ => m.formatTypeCode = 31
  | .operationalStatus (.surfaceV1 m) _ => m.formatTypeCode = 31 ∧ m.Printable
  | .operationalStatus (.surfaceV2 m) _ => m.formatTypeCode = 31

theorem u8_of_toNat {x : UInt8} {n : Nat} (h : x.toNat = n) (hn : n < 256) : x = UInt8.ofNat n :=
  UInt8.toNat_inj.1 (by rw [h, UInt8.toNat_ofNat']; omega)

theorem airborne_printable (d : List UInt8) (p : AirbornePosition) (h : readBDS05 d = .ok p) : p.Printable := by
  rcases bds05_eval d with ⟨he, -⟩ | ⟨-, -, -, -, m, hm, -, -, -, ha, hs, -⟩
  · rw [he] at h; cases h
  · rw [hm] at h
    cases h
    refine ⟨by rw [hs]; split <;> decide, ?_⟩
    rcases ha with ⟨-, h, -⟩ | ⟨-, h, -⟩ <;> rw [h] <;> decide

theorem surface_printable (d : List UInt8) (p : SurfacePosition) (h : readBDS06 d = .ok p) : p.Printable := by
  obtain ⟨-, h, -⟩ := surface_position_content d p h
  unfold SurfacePosition.Printable
  rw [h]
  unfold bits
  exact Nat.lt_of_lt_of_le (Nat.mod_lt _ (by decide)) (by decide)

theorem identification_line (d : List UInt8) : 10 ∉ (List.range 8).map (fun i => (identOf (identField d i)).getD 0x23) := by
  intro h
  obtain ⟨i, -, hi⟩ := List.mem_map.1 h
  have hb : identField d i < 64 := by
    unfold identField bits
    have : 14 + 6 * i + 1 - (9 + 6 * i) = 6 := by omega
    rw [this]; exact Nat.mod_lt _ (by decide)
  have e : ∀ n < 64, (identOf n).getD 0x23 ≠ 10 := by decide +kernel
  exact e _ hb hi

theorem adsb_printable (v : UInt8) (a c : Bool) (d : List UInt8) (m : ADSBMessage)
    (h : readADSBMessage v a c d = .returns (.val m) false) : m.Printable := by
  rcases adsb_eval v a c d with ⟨e, -⟩ | ⟨e, -⟩ | ⟨-, m', e, hc, -⟩
  · rw [e] at h; cases h
  · rw [e] at h; cases h
  rw [e] at h
  cases h
  unfold AdsbContent at hc
  split at hc
  · trivial
  · obtain ⟨-, -, -, -, -, ha, hs, -⟩ := hc
    refine ⟨by rw [hs]; decide, ?_⟩
    rcases ha with ⟨-, h, -⟩ | ⟨-, h, -⟩ <;> rw [h] <;> decide
  · exact airborne_printable d _ hc.2.2.1
  · exact airborne_printable d _ hc.2.2.1
  · exact airborne_printable d _ hc.2.2.1
  · exact surface_printable d _ hc.2.2.1
  · exact surface_printable d _ hc.2.2.1
  · exact surface_printable d _ hc.2.2.1
  · next m v' =>
    obtain ⟨h19, -, hr⟩ := hc
    rcases bds09_eval d with ⟨e, -⟩ | ⟨-, -, ⟨hs, m', hm, hg⟩ | ⟨hs, m', hm, hg⟩ | ⟨hs, m', hm, hg⟩ | ⟨hs, m', hm, hg⟩⟩
    · rw [e] at hr; cases hr
    all_goals
      rw [hm] at hr
      cases hr
      exact ⟨u8_of_toNat (n := 19) (by rw [hg.1.ftc, h19]) (by decide),
        u8_of_toNat (by rw [hg.1.sub, hs]) (by decide)⟩
  · next m v' =>
    obtain ⟨h1, h4, -, hr⟩ := hc
    obtain ⟨hf, hk, -⟩ := emitter_category d _ hr
    refine ⟨?_, ?_⟩
    · rw [bds08_eval] at hr
      split at hr
      · cases hr; exact identification_line d
      · cases hr
    · rcases hk with ⟨k, hk⟩ | ⟨k, hk⟩ | ⟨k, hk⟩ | ⟨k, hk⟩ <;> rw [k] at hf
      · exact Or.inl ⟨UInt8.toNat_inj.1 hf, _, hk⟩
      · exact Or.inr (Or.inl ⟨UInt8.toNat_inj.1 hf, _, hk⟩)
      · exact Or.inr (Or.inr (Or.inl ⟨UInt8.toNat_inj.1 hf, _, hk⟩))
      · exact Or.inr (Or.inr (Or.inr ⟨UInt8.toNat_inj.1 hf, _, hk⟩))
  · next m v' =>
    obtain ⟨h28, -, hr⟩ := hc
    have hs := status_content d m hr
    rw [h28] at hs
    cases m with
    | noInformation m => exact UInt8.toNat_inj.1 hs.2.1
    | emergency m => exact UInt8.toNat_inj.1 hs.2.1
    | acas m => exact ⟨UInt8.toNat_inj.1 hs.2.1, ra_printable _ _ hs.2.2.2⟩
  · next m v' =>
    obtain ⟨h29, -, hr⟩ := hc
    have hs := target_state_content d m hr
    cases m with
    | type0 m =>
      refine ⟨UInt8.toNat_inj.1 (hs.2.2.formatTypeCode.trans h29), ?_⟩
      show m.surveillanceIntegrityLevel.toNat < 4
      rw [hs.2.2.surveillanceIntegrityLevel]
      unfold bits; exact Nat.mod_lt _ (by decide)
    | type1 m =>
      refine ⟨UInt8.toNat_inj.1 (hs.2.formatTypeCode.trans h29), fun h0 => ?_⟩
      rw [hs.2.selectedHeading] at h0 ⊢
      rw [hs.2.selectedHeadingMinus]
      have hp : (0 : ℚ) ≤ bits d 32 39 := by positivity
      cases hb : bit d 31 <;> simp only [hb, if_true, if_false, Bool.false_eq_true] at h0 ⊢
      · simp only [false_iff, not_lt]; positivity
      · simp only [true_iff]
        have : (bits d 32 39 : ℚ) ≠ 0 := fun e => h0 (by rw [e]; norm_num)
        have : (0 : ℚ) < bits d 32 39 := lt_of_le_of_ne hp (Ne.symm this)
        linarith
  · next m v' =>
    obtain ⟨h31, -, hr⟩ := hc
    obtain ⟨-, hs⟩ := operational_status_content d m hr
    cases m with
    | v0 m => exact ⟨UInt8.toNat_inj.1 (hs.2.2.formatTypeCode.trans h31), UInt8.toNat_inj.1 (hs.2.2.subtype.trans hs.2.1)⟩
    | airborneV1 m =>
      refine ⟨UInt8.toNat_inj.1 (hs.2.2.formatTypeCode.trans h31), ?_⟩
      show m.surveillanceIntegrityLevel.toNat < 4
      rw [hs.2.2.surveillanceIntegrityLevel]
      unfold bits; exact Nat.mod_lt _ (by decide)
    | airborneV2 m => exact UInt8.toNat_inj.1 (hs.2.2.formatTypeCode.trans h31)
    | surfaceV1 m =>
      refine ⟨UInt8.toNat_inj.1 (hs.2.2.formatTypeCode.trans h31), ?_⟩
      show m.surveillanceIntegrityLevel.toNat < 4
      rw [hs.2.2.surveillanceIntegrityLevel]
      unfold bits; exact Nat.mod_lt _ (by decide)
    | surfaceV2 m => exact UInt8.toNat_inj.1 (hs.2.2.formatTypeCode.trans h31)

/-- Every kind has its own first line and labels. -/
theorem adsbSig_inj : ∀ i < 29, ∀ j < 29, adsbSig i = adsbSig j → i = j := by decide +kernel

theorem ADSBMessage.kind_lt (m : ADSBMessage) : m.kind < 29 := by
  unfold ADSBMessage.kind
  split <;> first | decide | skip
  next m _ => have := m.resolutionAdvisory.kind_lt; omega

theorem adsb_sig (F : FloatTexts) (m : ADSBMessage) (hm : m.Printable) : sig (m.lines F) = adsbSig m.kind := by
  cases m with
  | velocity m v => cases m <;> rfl
  | identification m v => rfl
  | status m v =>
    cases m with
    | noInformation m => rfl
    | emergency m => rfl
    | acas m =>
      obtain ⟨f, st, ra, c, t, e, tti, x1, x2, x3, x4⟩ := m
      obtain ⟨-, -, -, -, hs⟩ := hm
      unfold ResolutionAdvisory.ThreatShape at hs
      simp only at hs
      rcases hs with ⟨rfl, ⟨y, -, rfl⟩, rfl, rfl, rfl⟩ | ⟨rfl, rfl, ⟨y, rfl⟩, ⟨z, rfl⟩, w, rfl⟩ | ⟨h1, h2, rfl, rfl, rfl, rfl⟩
      · cases ra <;> rfl
      · cases ra <;> rfl
      · have e1 : ∀ ra, ResolutionAdvisory.threatLines F ⟨ra, c, t, e, tti, none, none, none, none⟩ = [] := fun ra => by
          unfold ResolutionAdvisory.threatLines
          simp only [if_neg h1, if_neg h2, ite_self]
        have e2 : (if tti = 1 then 1 else if tti = 2 then 2 else 0) = 0 := by rw [if_neg h1, if_neg h2]
        simp only [ADSBMessage.lines, AircraftStatus.lines, StatusACAS.lines, ResolutionAdvisory.lines, e1, ADSBMessage.kind,
          ResolutionAdvisory.kind, e2]
        cases ra <;> rfl
  | targetState m v =>
    cases m with
    | type0 m =>
      have hs := small4 hm.2
      cases m
      simp only at hs
      rcases hs with rfl | rfl | rfl | rfl <;> rfl
    | type1 m => rfl
  | operationalStatus m v =>
    cases m with
    | v0 m => rfl
    | airborneV1 m =>
      have hs := small4 hm.2
      cases m
      simp only at hs
      rcases hs with rfl | rfl | rfl | rfl <;> rfl
    | airborneV2 m => rfl
    | surfaceV1 m =>
      have hs := small4 hm.2
      cases m
      simp only at hs
      rcases hs with rfl | rfl | rfl | rfl <;> rfl
    | surfaceV2 m => rfl
  | _ => rfl

theorem identification_lines_inj (m n : IdentificationAndCategory) (hm : (ADSBMessage.identification m 0).Printable)
    (hn : (ADSBMessage.identification n 0).Printable) (h : m.lines.map cat = n.lines.map cat) : m = n := by
  unfold IdentificationAndCategory.lines at h
  simp only [cat, List.map_cons, List.map_nil, List.cons.injEq, List.append_cancel_left_eq, true_and, and_true] at h
  obtain ⟨x1, x2, x3⟩ := h
  replace x1 := UInt8.toNat_inj.1 (dec_inj x1)
  replace x3 := asciiText_inj x3
  obtain ⟨f, c, i⟩ := m
  obtain ⟨g, c', i'⟩ := n
  obtain ⟨-, hm⟩ := hm
  obtain ⟨-, hn⟩ := hn
  simp only at x1 x2 x3 hm hn
  subst x1 x3
  rcases hm with ⟨rfl, a, rfl⟩ | ⟨rfl, a, rfl⟩ | ⟨rfl, a, rfl⟩ | ⟨rfl, a, rfl⟩ <;>
    rcases hn with ⟨k, b, rfl⟩ | ⟨k, b, rfl⟩ | ⟨k, b, rfl⟩ | ⟨k, b, rfl⟩ <;>
    first
    | exact absurd k (by decide)
    | rw [Text.bds08AircraftCategorySetA_identifies.inj x2]
    | rw [Text.bds08AircraftCategorySetB_identifies.inj x2]
    | rw [Text.bds08AircraftCategorySetC_identifies.inj x2]
    | rw [Text.bds08AircraftCategorySetD_identifies.inj x2]

theorem categoryText_line (c : AircraftCategory) : OneLine c.text := by
  cases c
  · exact Text.bds08AircraftCategorySetA_identifies.line _
  · exact Text.bds08AircraftCategorySetB_identifies.line _
  · exact Text.bds08AircraftCategorySetC_identifies.line _
  · exact Text.bds08AircraftCategorySetD_identifies.line _

theorem adsb_allLine (F : FloatTexts) (hF : F.Faithful) (m : ADSBMessage) (hm : m.Printable) : AllLine (m.lines F) := by
  cases m with
  | noPosition => exact .cons (by decide +kernel) (by unfold OneLine; decide) (.cons (by decide +kernel) (oneLine_dec _)
      (.cons (by decide +kernel) (oneLine_decInt _) (.cons (by decide +kernel) (oneLine_dec _) .nil)))
  | airborneType0 p => exact .append (p.allLine hm) (.cons (by decide +kernel) (oneLine_dec _) .nil)
  | airborneV0 p => exact .append (p.allLine hm) (.cons (by decide +kernel) (Text.airborneHorizontalProtectionLimit_identifies.line _)
      (.cons (by decide +kernel) (Text.airborneContainmentRadius_identifies.line _) .nil))
  | airborneV1 p => exact .append (p.allLine hm) (.cons (by decide +kernel) (oneLine_bool _) (.cons (by decide +kernel)
      (Text.airborneHorizontalContainmentRadiusV1_identifies.line _) (.cons (by decide +kernel) (oneLine_dec _) .nil)))
  | airborneV2 p => exact .append (p.allLine hm) (.cons (by decide +kernel) (oneLine_bool _) (.cons (by decide +kernel)
      (Text.airborneNavigationIntegrityCodeSupplementB_identifies.line _) (.cons (by decide +kernel)
      (Text.airborneHorizontalContainmentRadiusV2_identifies.line _) (.cons (by decide +kernel) (oneLine_dec _) .nil))))
  | surfaceV0 p => exact .append (p.allLine F hF hm) (.cons (by decide +kernel) (Text.surfaceHorizontalProtectionLimit_identifies.line _)
      (.cons (by decide +kernel) (Text.surfaceContainmentRadius_identifies.line _) .nil))
  | surfaceV1 p => exact .append (p.allLine F hF hm) (.cons (by decide +kernel) (oneLine_bool _) (.cons (by decide +kernel)
      (Text.surfaceHorizontalContainmentRadiusV1_identifies.line _) (.cons (by decide +kernel) (oneLine_dec _) .nil)))
  | surfaceV2 p => exact .append (p.allLine F hF hm) (.cons (by decide +kernel) (oneLine_bool _) (.cons (by decide +kernel)
      (oneLine_bool _) (.cons (by decide +kernel)
      (Text.surfaceHorizontalContainmentRadiusV2_identifies.line _) (.cons (by decide +kernel) (oneLine_dec _) .nil))))
  | velocity m v =>
    cases m with
    | groundSpeedNormal m => exact m.allLine F hF
    | groundSpeedSupersonic m => exact m.allLine F hF
    | airSpeedNormal m => exact m.allLine F hF
    | airSpeedSupersonic m => exact m.allLine F hF
  | identification m v => exact .cons (by decide +kernel) (by unfold OneLine; decide +kernel) (.cons (by decide +kernel)
      (oneLine_dec _) (.cons (by decide +kernel) (categoryText_line _) (.cons (by decide +kernel) (asciiText_line hm.1) .nil)))
  | status m v =>
    cases m with
    | noInformation m => exact m.allLine
    | emergency m => exact m.allLine
    | acas m =>
      exact AllLine.append (a := [_, _, _]) (.cons (by decide +kernel)
        (show OneLine (registerText Register.bds61) by unfold OneLine; decide +kernel) (.cons (by decide +kernel)
        (Text.bds61Subtype_identifies.line _) (.cons (by decide +kernel) (by unfold OneLine; decide) .nil)))
          (m.resolutionAdvisory.allLine F hF hm.2)
  | targetState m v =>
    cases m with
    | type0 m => exact m.allLine hm.2
    | type1 m => exact m.allLine F hF hm.2
  | operationalStatus m v =>
    cases m with
    | v0 m => exact m.allLine
    | airborneV1 m => exact m.allLine hm.2
    | airborneV2 m => exact m.allLine
    | surfaceV1 m => exact m.allLine hm.2
    | surfaceV2 m => exact m.allLine

theorem adsb_lines_ne (F : FloatTexts) (m : ADSBMessage) (hm : m.Printable) : m.lines F ≠ [] := by
  intro h
  have := adsb_sig F m hm
  rw [h] at this
  have h1 : ∀ i < 29, adsbSig i ≠ (none, []) := by decide +kernel
  exact h1 _ m.kind_lt this.symm

/-- Two messages of the same kind. -/
inductive SameKind : ADSBMessage → ADSBMessage → Prop
  | noPosition v f a n v' f' a' n' : SameKind (.noPosition v f a n) (.noPosition v' f' a' n')
  | airborneType0 p n v p' n' v' : SameKind (.airborneType0 p n v) (.airborneType0 p' n' v')
  | airborneV0 p h r p' h' r' : SameKind (.airborneV0 p h r) (.airborneV0 p' h' r')
  | airborneV1 p a h n p' a' h' n' : SameKind (.airborneV1 p a h n) (.airborneV1 p' a' h' n')
  | airborneV2 p a b h n p' a' b' h' n' : SameKind (.airborneV2 p a b h n) (.airborneV2 p' a' b' h' n')
  | surfaceV0 p h r p' h' r' : SameKind (.surfaceV0 p h r) (.surfaceV0 p' h' r')
  | surfaceV1 p a h n p' a' h' n' : SameKind (.surfaceV1 p a h n) (.surfaceV1 p' a' h' n')
  | surfaceV2 p a c h n p' a' c' h' n' : SameKind (.surfaceV2 p a c h n) (.surfaceV2 p' a' c' h' n')
  | identification m v m' v' : SameKind (.identification m v) (.identification m' v')
  | groundSpeedNormal_groundSpeedNormal m m' v v' : SameKind (.velocity (.groundSpeedNormal m) v) (.velocity (.groundSpeedNormal m') v')
  | groundSpeedNormal_groundSpeedSupersonic m m' v v' : SameKind (.velocity (.groundSpeedNormal m) v) (.velocity (.groundSpeedSupersonic m') v')
  | groundSpeedSupersonic_groundSpeedNormal m m' v v' : SameKind (.velocity (.groundSpeedSupersonic m) v) (.velocity (.groundSpeedNormal m') v')
  | groundSpeedSupersonic_groundSpeedSupersonic m m' v v' : SameKind (.velocity (.groundSpeedSupersonic m) v) (.velocity (.groundSpeedSupersonic m') v')
  | airSpeedNormal_airSpeedNormal m m' v v' : SameKind (.velocity (.airSpeedNormal m) v) (.velocity (.airSpeedNormal m') v')
  | airSpeedNormal_airSpeedSupersonic m m' v v' : SameKind (.velocity (.airSpeedNormal m) v) (.velocity (.airSpeedSupersonic m') v')
  | airSpeedSupersonic_airSpeedNormal m m' v v' : SameKind (.velocity (.airSpeedSupersonic m) v) (.velocity (.airSpeedNormal m') v')
  | airSpeedSupersonic_airSpeedSupersonic m m' v v' : SameKind (.velocity (.airSpeedSupersonic m) v) (.velocity (.airSpeedSupersonic m') v')
  | status_noInformation m m' v v' : SameKind (.status (.noInformation m) v) (.status (.noInformation m') v')
  | status_emergency m m' v v' : SameKind (.status (.emergency m) v) (.status (.emergency m') v')
  | status_acas m m' v v' : SameKind (.status (.acas m) v) (.status (.acas m') v')
  | targetState_type0 m m' v v' : SameKind (.targetState (.type0 m) v) (.targetState (.type0 m') v')
  | targetState_type1 m m' v v' : SameKind (.targetState (.type1 m) v) (.targetState (.type1 m') v')
  | operationalStatus_v0 m m' v v' : SameKind (.operationalStatus (.v0 m) v) (.operationalStatus (.v0 m') v')
  | operationalStatus_airborneV1 m m' v v' : SameKind (.operationalStatus (.airborneV1 m) v) (.operationalStatus (.airborneV1 m') v')
  | operationalStatus_airborneV2 m m' v v' : SameKind (.operationalStatus (.airborneV2 m) v) (.operationalStatus (.airborneV2 m') v')
  | operationalStatus_surfaceV1 m m' v v' : SameKind (.operationalStatus (.surfaceV1 m) v) (.operationalStatus (.surfaceV1 m') v')
  | operationalStatus_surfaceV2 m m' v v' : SameKind (.operationalStatus (.surfaceV2 m) v) (.operationalStatus (.surfaceV2 m') v')

theorem sameKind (m n : ADSBMessage) (h : m.kind = n.kind) : SameKind m n := by
  cases m with
  | velocity m v => cases m <;> cases n with
    | velocity n w => cases n <;> first | constructor | (simp only [ADSBMessage.kind] at h <;> omega)
    | status n w => cases n <;> first | constructor | (simp only [ADSBMessage.kind] at h <;> omega)
    | targetState n w => cases n <;> first | constructor | (simp only [ADSBMessage.kind] at h <;> omega)
    | operationalStatus n w => cases n <;> first | constructor | (simp only [ADSBMessage.kind] at h <;> omega)
    | _ => first | constructor | (simp only [ADSBMessage.kind] at h <;> omega)
  | status m v => cases m <;> cases n with
    | velocity n w => cases n <;> first | constructor | (simp only [ADSBMessage.kind] at h <;> omega)
    | status n w => cases n <;> first | constructor | (simp only [ADSBMessage.kind] at h <;> omega)
    | targetState n w => cases n <;> first | constructor | (simp only [ADSBMessage.kind] at h <;> omega)
    | operationalStatus n w => cases n <;> first | constructor | (simp only [ADSBMessage.kind] at h <;> omega)
    | _ => first | constructor | (simp only [ADSBMessage.kind] at h <;> omega)
  | targetState m v => cases m <;> cases n with
    | velocity n w => cases n <;> first | constructor | (simp only [ADSBMessage.kind] at h <;> omega)
    | status n w => cases n <;> first | constructor | (simp only [ADSBMessage.kind] at h <;> omega)
    | targetState n w => cases n <;> first | constructor | (simp only [ADSBMessage.kind] at h <;> omega)
    | operationalStatus n w => cases n <;> first | constructor | (simp only [ADSBMessage.kind] at h <;> omega)
    | _ => first | constructor | (simp only [ADSBMessage.kind] at h <;> omega)
  | operationalStatus m v => cases m <;> cases n with
    | velocity n w => cases n <;> first | constructor | (simp only [ADSBMessage.kind] at h <;> omega)
    | status n w => cases n <;> first | constructor | (simp only [ADSBMessage.kind] at h <;> omega)
    | targetState n w => cases n <;> first | constructor | (simp only [ADSBMessage.kind] at h <;> omega)
    | operationalStatus n w => cases n <;> first | constructor | (simp only [ADSBMessage.kind] at h <;> omega)
    | _ => first | constructor | (simp only [ADSBMessage.kind] at h <;> omega)
  | _ => cases n with
    | velocity n w => cases n <;> first | constructor | (simp only [ADSBMessage.kind] at h <;> omega)
    | status n w => cases n <;> first | constructor | (simp only [ADSBMessage.kind] at h <;> omega)
    | targetState n w => cases n <;> first | constructor | (simp only [ADSBMessage.kind] at h <;> omega)
    | operationalStatus n w => cases n <;> first | constructor | (simp only [ADSBMessage.kind] at h <;> omega)
    | _ => first | constructor | (simp only [ADSBMessage.kind] at h <;> omega)

theorem lines_append {a b x y : List (Txt × Txt)} (h : (a ++ x).map cat = (b ++ y).map cat)
    (hl : (x.map cat).length = (y.map cat).length) : a.map cat = b.map cat ∧ x.map cat = y.map cat := by
  rw [List.map_append, List.map_append] at h
  exact List.append_inj' h hl

theorem ground_restore {m n : GroundSpeedVelocity} (hm : m.formatTypeCode = 19) (hn : n.formatTypeCode = 19)
    (h : { m with formatTypeCode := 0 } = { n with formatTypeCode := 0 }) : m = n := by
  cases m; cases n; simp_all

theorem air_restore {m n : AirSpeedVelocity} (hm : m.formatTypeCode = 19) (hn : n.formatTypeCode = 19)
    (h : { m with formatTypeCode := 0 } = { n with formatTypeCode := 0 }) : m = n := by
  cases m; cases n; simp_all

/-- Two messages with the same lines show the same. -/
theorem adsb_lines_inj (F : FloatTexts) (hF : F.Faithful) (m n : ADSBMessage) (hm : m.Printable) (hn : n.Printable)
    (h : (m.lines F).map cat = (n.lines F).map cat) : shownADSB m = shownADSB n := by
  have hk : m.kind = n.kind := adsbSig_inj _ m.kind_lt _ n.kind_lt (by rw [← adsb_sig F m hm, ← adsb_sig F n hn, sig_congr h])
  cases sameKind m n hk with
  | noPosition =>
    simp only [ADSBMessage.lines, cat, List.map_cons, List.map_nil, List.cons.injEq, List.append_cancel_left_eq, true_and,
      and_true] at h
    obtain ⟨x1, x2, x3⟩ := h
    rw [shownADSB, shownADSB, UInt8.toNat_inj.1 (dec_inj x1), decInt_inj x2, UInt8.toNat_inj.1 (dec_inj x3)]
  | airborneType0 p n v p' n' v' =>
    obtain ⟨h1, h2⟩ := lines_append h rfl
    simp only [cat, List.map_cons, List.map_nil, List.cons.injEq, List.append_cancel_left_eq, and_true] at h2
    rw [shownADSB, shownADSB, AirbornePosition.lines_inj p p' hm hn h1, UInt8.toNat_inj.1 (dec_inj h2)]
  | airborneV0 p _ _ p' _ _ =>
    obtain ⟨h1, h2⟩ := lines_append h rfl
    simp only [cat, List.map_cons, List.map_nil, List.cons.injEq, List.append_cancel_left_eq, and_true] at h2
    rw [AirbornePosition.lines_inj p p' hm hn h1, Text.airborneHorizontalProtectionLimit_identifies.inj h2.1,
      Text.airborneContainmentRadius_identifies.inj h2.2]
  | airborneV1 p _ _ _ p' _ _ _ =>
    obtain ⟨h1, h2⟩ := lines_append h rfl
    simp only [cat, List.map_cons, List.map_nil, List.cons.injEq, List.append_cancel_left_eq, and_true] at h2
    rw [AirbornePosition.lines_inj p p' hm hn h1, boolText_inj h2.1,
      Text.airborneHorizontalContainmentRadiusV1_identifies.inj h2.2.1, UInt8.toNat_inj.1 (dec_inj h2.2.2)]
  | airborneV2 p _ _ _ _ p' _ _ _ _ =>
    obtain ⟨h1, h2⟩ := lines_append h rfl
    simp only [cat, List.map_cons, List.map_nil, List.cons.injEq, List.append_cancel_left_eq, and_true] at h2
    rw [AirbornePosition.lines_inj p p' hm hn h1, boolText_inj h2.1,
      Text.airborneNavigationIntegrityCodeSupplementB_identifies.inj h2.2.1,
      Text.airborneHorizontalContainmentRadiusV2_identifies.inj h2.2.2.1, UInt8.toNat_inj.1 (dec_inj h2.2.2.2)]
  | surfaceV0 p _ _ p' _ _ =>
    obtain ⟨h1, h2⟩ := lines_append h rfl
    simp only [cat, List.map_cons, List.map_nil, List.cons.injEq, List.append_cancel_left_eq, and_true] at h2
    rw [SurfacePosition.lines_inj F hF p p' hm hn h1, Text.surfaceHorizontalProtectionLimit_identifies.inj h2.1,
      Text.surfaceContainmentRadius_identifies.inj h2.2]
  | surfaceV1 p _ _ _ p' _ _ _ =>
    obtain ⟨h1, h2⟩ := lines_append h rfl
    simp only [cat, List.map_cons, List.map_nil, List.cons.injEq, List.append_cancel_left_eq, and_true] at h2
    rw [SurfacePosition.lines_inj F hF p p' hm hn h1, boolText_inj h2.1,
      Text.surfaceHorizontalContainmentRadiusV1_identifies.inj h2.2.1, UInt8.toNat_inj.1 (dec_inj h2.2.2)]
  | surfaceV2 p _ _ _ _ p' _ _ _ _ =>
    obtain ⟨h1, h2⟩ := lines_append h rfl
    simp only [cat, List.map_cons, List.map_nil, List.cons.injEq, List.append_cancel_left_eq, and_true] at h2
    rw [SurfacePosition.lines_inj F hF p p' hm hn h1, boolText_inj h2.1, boolText_inj h2.2.1,
      Text.surfaceHorizontalContainmentRadiusV2_identifies.inj h2.2.2.1, UInt8.toNat_inj.1 (dec_inj h2.2.2.2)]
  | identification m v m' v' => rw [shownADSB, shownADSB, identification_lines_inj m m' hm hn h]
  | groundSpeedNormal_groundSpeedNormal m m' v v' =>
    rw [shownADSB, shownADSB, ground_restore hm.1 hn.1 (GroundSpeedVelocity.lines_inj F hF m m' h)]
  | groundSpeedNormal_groundSpeedSupersonic m m' v v' =>
    have e := congrArg GroundSpeedVelocity.subtype (ground_restore hm.1 hn.1 (GroundSpeedVelocity.lines_inj F hF m m' h))
    rw [hm.2, hn.2] at e; exact absurd e (by decide)
  | groundSpeedSupersonic_groundSpeedNormal m m' v v' =>
    have e := congrArg GroundSpeedVelocity.subtype (ground_restore hm.1 hn.1 (GroundSpeedVelocity.lines_inj F hF m m' h))
    rw [hm.2, hn.2] at e; exact absurd e (by decide)
  | groundSpeedSupersonic_groundSpeedSupersonic m m' v v' =>
    rw [shownADSB, shownADSB, ground_restore hm.1 hn.1 (GroundSpeedVelocity.lines_inj F hF m m' h)]
  | airSpeedNormal_airSpeedNormal m m' v v' =>
    rw [shownADSB, shownADSB, air_restore hm.1 hn.1 (AirSpeedVelocity.lines_inj F hF m m' h)]
  | airSpeedNormal_airSpeedSupersonic m m' v v' =>
    have e := congrArg AirSpeedVelocity.subtype (air_restore hm.1 hn.1 (AirSpeedVelocity.lines_inj F hF m m' h))
    rw [hm.2, hn.2] at e; exact absurd e (by decide)
  | airSpeedSupersonic_airSpeedNormal m m' v v' =>
    have e := congrArg AirSpeedVelocity.subtype (air_restore hm.1 hn.1 (AirSpeedVelocity.lines_inj F hF m m' h))
    rw [hm.2, hn.2] at e; exact absurd e (by decide)
  | airSpeedSupersonic_airSpeedSupersonic m m' v v' =>
    rw [shownADSB, shownADSB, air_restore hm.1 hn.1 (AirSpeedVelocity.lines_inj F hF m m' h)]
  | status_noInformation m m' v v' =>
    have e := StatusNoInformation.lines_inj m m' h
    have e1 : m.formatTypeCode = 28 := hm
    have e2 : m'.formatTypeCode = 28 := hn
    cases m; cases m'
    simp_all [shownADSB, shownStatus]
  | status_emergency m m' v v' =>
    have e := StatusEmergency.lines_inj m m' h
    have e1 : m.formatTypeCode = 28 := hm
    have e2 : m'.formatTypeCode = 28 := hn
    cases m; cases m'
    simp_all [shownADSB, shownStatus]
  | status_acas m m' v v' =>
    rw [ADSBMessage.lines, ADSBMessage.lines, AircraftStatus.lines, AircraftStatus.lines, StatusACAS.lines, StatusACAS.lines,
      List.map_append, List.map_append] at h
    obtain ⟨h1, h2⟩ := List.append_inj h rfl
    have e := ResolutionAdvisory.lines_inj F _ _ hm.2 hn.2 h2
    simp only [cat, List.map_cons, List.map_nil, List.cons.injEq, List.append_cancel_left_eq, true_and, and_true] at h1
    have e0 := Text.bds61Subtype_identifies.inj h1
    have e1 := hm.1
    have e2 := hn.1
    obtain ⟨f, s, ra, _⟩ := m
    obtain ⟨f', s', ra', _⟩ := m'
    simp only at e0 e1 e2 e
    subst e0 e1 e2
    simp only [shownADSB, shownStatus]
    unfold ResolutionAdvisory.shown at e
    cases ra <;> cases ra' <;> simp_all [ActiveRA.shown]
  | targetState_type0 m m' v v' =>
    have e := TargetStateAndStatus0.lines_inj m m' hm.2 hn.2 h
    have e1 := hm.1
    have e2 := hn.1
    cases m; cases m'
    simp_all [shownADSB]
  | targetState_type1 m m' v v' =>
    have e := TargetStateAndStatus1.lines_inj F hF m m' hm.2 hn.2 h
    have e1 : m.formatTypeCode = 29 := hm.1
    have e2 : m'.formatTypeCode = 29 := hn.1
    cases m; cases m'
    simp_all [shownADSB]
  | operationalStatus_v0 m m' v v' =>
    have e := OpStatusV0.lines_inj m m' h
    have e1 := hm
    have e2 := hn
    cases m; cases m'
    simp only [ADSBMessage.Printable] at e1 e2
    obtain ⟨e1, e1'⟩ := e1
    obtain ⟨e2, e2'⟩ := e2
    simp_all [shownADSB]
  | operationalStatus_airborneV1 m m' v v' =>
    have e := OpStatusAirborneV1.lines_inj m m' hm.2 hn.2 h
    have e1 := hm.1
    have e2 := hn.1
    cases m; cases m'
    simp_all [shownADSB]
  | operationalStatus_airborneV2 m m' v v' =>
    have e := OpStatusAirborneV2.lines_inj m m' h
    have e1 : m.formatTypeCode = 31 := hm
    have e2 : m'.formatTypeCode = 31 := hn
    cases m; cases m'
    simp_all [shownADSB]
  | operationalStatus_surfaceV1 m m' v v' =>
    have e := OpStatusSurfaceV1.lines_inj m m' hm.2 hn.2 h
    have e1 := hm.1
    have e2 := hn.1
    cases m; cases m'
    simp_all [shownADSB]
  | operationalStatus_surfaceV2 m m' v v' =>
    have e := OpStatusSurfaceV2.lines_inj m m' h
    have e1 : m.formatTypeCode = 31 := hm
    have e2 : m'.formatTypeCode = 31 := hn
    cases m; cases m'
    simp_all [shownADSB]

/-- C75. Two ADS-B messages that were read and are printed alike are the same message, except for the version given by the caller,
the Mode A code of an emergency status and the sense of a resolution advisory. -/
theorem adsb_text_partial (F : FloatTexts) (hF : F.Faithful) (v w : UInt8) (a b c e : Bool) (d d' : List UInt8)
    (m n : ADSBMessage) (hm : readADSBMessage v a b d = .returns (.val m) false)
    (hn : readADSBMessage w c e d' = .returns (.val n) false) (h : m.text F = n.text F) : shownADSB m = shownADSB n := by
  have pm := adsb_printable v a b d m hm
  have pn := adsb_printable w c e d' n hn
  exact adsb_lines_inj F hF m n pm pn
    (lines_of_linesText (adsb_lines_ne F m pm) (adsb_lines_ne F n pn) (adsb_allLine F hF m pm) (adsb_allLine F hF n pn) h)

/-- An example of a way to print numbers as assumed: fractions. -/
def fractionTexts : FloatTexts where
  float32 x := decInt x.num ++ '/' :: dec x.den
  float64 x := decInt x.num ++ '/' :: dec x.den
  degrees _ := t! "some"
  minusZero := t! "-0"
  atan2 _ _ _ _ := 0

theorem fractionTexts_faithful : fractionTexts.Faithful := by
  have line : ∀ x : ℚ, OneLine (decInt x.num ++ '/' :: dec x.den) := fun x =>
    OneLine.append (oneLine_decInt _) (OneLine.append (a := t! "/") (by unfold OneLine; decide) (oneLine_dec _))
  have no : ∀ n : ℤ, '/' ∉ decInt n := by
    intro n
    cases n with
    | ofNat n => exact not_mem_dec rfl
    | negSucc n =>
      intro h
      rcases List.mem_cons.1 h with h | h
      · exact absurd h (by decide)
      · exact not_mem_dec rfl h
  refine ⟨fun x y h => ?_, line, line, fun _ => (by unfold OneLine; decide : OneLine (t! "some")), by unfold OneLine; decide,
    fun x e => (by decide : '/' ∉ t! "-0") ((show decInt x.num ++ '/' :: dec x.den = t! "-0" from e) ▸ List.mem_append_right _ List.mem_cons_self)⟩
  have key : ∀ (a b r s : Txt), '/' ∉ a → '/' ∉ b → a ++ '/' :: r = b ++ '/' :: s → a = b ∧ r = s := by
    intro a
    induction a with
    | nil =>
      intro b r s _ hb h
      cases b with
      | nil => exact ⟨rfl, (List.cons.inj h).2⟩
      | cons c b => exact absurd ((List.cons.inj h).1 ▸ List.mem_cons_self) hb
    | cons c a ih =>
      intro b r s ha hb h
      cases b with
      | nil => exact absurd ((List.cons.inj h).1 ▸ List.mem_cons_self) ha
      | cons d b =>
        have := ih b r s (fun hm => ha (List.mem_cons_of_mem _ hm)) (fun hm => hb (List.mem_cons_of_mem _ hm)) (List.cons.inj h).2
        exact ⟨by rw [(List.cons.inj h).1, this.1], this.2⟩
  obtain ⟨h1, h2⟩ := key _ _ _ _ (no _) (no _) h
  exact Rat.ext (decInt_inj h1) (dec_inj h2)

/-- A message that was read, and its text: a callsign. -/
example : ∃ m, readADSBMessage 0 false false [0x20, 0x2C, 0xC3, 0x71, 0xC3, 0x2C, 0xE0] = .returns (.val m) false ∧
    m.text fractionTexts = t! "Message:                           BDS 0,8 - Extended squitter aircraft identification and category\nFormat Type Code:                  4\nCategory:                          0 - No aircraft category information\nIdentification:                    KLM1023 " :=
  ⟨_, rfl, by decide +kernel⟩

/-- C75, what the texts do not show: two emergency messages with different Mode A codes (0000 and all ones), two resolution
advisories, one to climb and one to descend, are printed alike. -/
theorem adsb_text_refuted (F : FloatTexts) :
    (∃ d d' m n, readADSBMessage 2 false false d = .returns (.val m) false ∧
      readADSBMessage 2 false false d' = .returns (.val n) false ∧ bits d 12 24 ≠ bits d' 12 24 ∧ m ≠ n ∧
      m.text F = n.text F) ∧
    (∃ d d' m n, readADSBMessage 2 false false d = .returns (.val m) false ∧
      readADSBMessage 2 false false d' = .returns (.val n) false ∧ bits d 11 11 ≠ bits d' 11 11 ∧ m ≠ n ∧
      m.text F = n.text F) := by
  refine ⟨⟨[0xE1, 0x20, 0, 0, 0, 0, 0], [0xE1, 0x3F, 0xFF, 0, 0, 0, 0], .status (.emergency ⟨28, 1, 1, 0⟩) 2,
      .status (.emergency ⟨28, 1, 1, 0x1FFF⟩) 2, by rfl, by rfl, by decide, ?_, rfl⟩,
    [0xE2, 0x80, 0, 0, 0, 0, 0], [0xE2, 0xA0, 0, 0, 0, 0, 0], _, _, rfl, rfl, by decide, ?_, rfl⟩
  · intro h; cases h
  · intro h; cases h

end Modes
