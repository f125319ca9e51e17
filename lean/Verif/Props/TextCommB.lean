import Verif.Props.TextADSB
import Verif.Props.CommB
/-!
# Texts of the Comm-B messages
-/
namespace Spec
open Modes

/-- What the text of a Comm-B message shows: everything but the continuation flag of a data link capability report and the sense of
a resolution advisory. -/
def shownCommB : CommBMessage → CommBMessage
  | .bds10 m => .bds10 { m with continuationFlag := 0 }
  | .bds30 m => .bds30 ⟨match m.resolutionAdvisory.activeRA with
      | .oneThreat a => { m.resolutionAdvisory with activeRA := .oneThreat { a with sense := 0 } }
      | _ => m.resolutionAdvisory⟩
  | m => m

end Spec
namespace Modes
open Spec

/-- Kinds of Comm-B messages, told apart by their lines. -/
def CommBMessage.kind : CommBMessage → Nat
  | .bds00 _ => 0
  | .bds07 _ => 1
  | .bds20 _ => 2
  | .bds10 _ => 3
  | .bds17 _ => 4
  | .bds40 _ => 5
  | .bds44 (.v0 _) => 6
  | .bds44 (.v1 _) => 7
  | .bds44 (.v2 _) => 8
  | .bds45 (.v0 _) => 9
  | .bds45 (.v1 _) => 10
  | .bds50 _ => 11
  | .bds60 _ => 12
  | .bds30 m => 13 + m.resolutionAdvisory.kind

/-- Facts about the messages that were read. -/
def CommBMessage.Printable : CommBMessage → Prop
  | .bds20 m => m.Printable
  | .bds30 m => m.resolutionAdvisory.Printable
  | _ => True

theorem commB_printable (d : List UInt8) (m : CommBMessage) (h : ReadsAs d m) : m.Printable := by
  cases m with
  | bds20 m =>
    have h : readBDS20 d = .ok m := h
    rw [bds20_eval] at h
    split at h
    · cases h; exact identification_line d
    · cases h
  | bds30 m =>
    exact ra_printable _ _ (((bds30_accepts d).1 m).1 h).2.2
  | _ => trivial

theorem commBSig_inj : ∀ i < 22, ∀ j < 22, commBSig i = commBSig j → i = j := by decide +kernel

theorem CommBMessage.kind_lt (m : CommBMessage) : m.kind < 22 := by
  unfold CommBMessage.kind
  split <;> first | decide | skip
  next m => have := m.resolutionAdvisory.kind_lt; omega

theorem commB_sig (F : FloatTexts) (m : CommBMessage) (hm : m.Printable) : sig (m.lines F) = commBSig m.kind := by
  cases m with
  | bds44 m => cases m <;> rfl
  | bds45 m => cases m <;> rfl
  | bds30 m =>
    obtain ⟨ra, c, t, e, tti, x1, x2, x3, x4⟩ := m
    obtain ⟨-, -, -, hs⟩ := hm
    unfold ResolutionAdvisory.ThreatShape at hs
    simp only at hs
    rcases hs with ⟨rfl, ⟨y, -, rfl⟩, rfl, rfl, rfl⟩ | ⟨rfl, rfl, ⟨y, rfl⟩, ⟨z, rfl⟩, w, rfl⟩ | ⟨h1, h2, rfl, rfl, rfl, rfl⟩
    · cases ra <;> rfl
    · cases ra <;> rfl
    · have e1 : ∀ ra, ResolutionAdvisory.threatLines F ⟨ra, c, t, e, tti, none, none, none, none⟩ = [] := fun ra => by
        unfold ResolutionAdvisory.threatLines
        simp only [if_neg h1, if_neg h2, ite_self]
      have e2 : (if tti = 1 then 1 else if tti = 2 then 2 else 0) = 0 := by rw [if_neg h1, if_neg h2]
      simp only [CommBMessage.lines, ACASResolutionAdvisory.lines, ResolutionAdvisory.lines, e1, CommBMessage.kind,
        ResolutionAdvisory.kind, e2]
      cases ra <;> rfl
  | _ => rfl

theorem commB_allLine (F : FloatTexts) (hF : F.Faithful) (m : CommBMessage) (hm : m.Printable) : AllLine (m.lines F) := by
  cases m with
  | bds00 m => exact .cons (by decide +kernel) (by unfold OneLine; decide +kernel) .nil
  | bds07 m => exact m.allLine
  | bds20 m => exact m.allLine hm
  | bds10 m => exact m.allLine
  | bds17 m => exact m.allLine
  | bds30 m =>
    exact AllLine.append (a := [_, _]) (.cons (by decide +kernel)
      (show OneLine (registerText Register.bds30) by unfold OneLine; decide +kernel)
      (.cons (by decide +kernel) (by unfold OneLine; decide) .nil)) (m.resolutionAdvisory.allLine F hF hm)
  | bds40 m => exact m.allLine F hF
  | bds44 m =>
    cases m with
    | v0 m => exact m.allLine F hF
    | v1 m => exact m.allLine F hF
    | v2 m => exact m.allLine F hF
  | bds45 m =>
    cases m with
    | v0 m => exact m.allLine F hF
    | v1 m => exact m.allLine F hF
  | bds50 m => exact m.allLine F hF
  | bds60 m => exact m.allLine F hF

theorem commB_lines_ne (F : FloatTexts) (m : CommBMessage) (hm : m.Printable) : m.lines F ≠ [] := by
  intro h
  have := commB_sig F m hm
  rw [h] at this
  have h1 : ∀ i < 22, commBSig i ≠ (none, []) := by decide +kernel
  exact h1 _ m.kind_lt this.symm

/-- Two messages of the same kind. -/
inductive SameCommB : CommBMessage → CommBMessage → Prop
  | bds00 m m' : SameCommB (.bds00 m) (.bds00 m')
  | bds07 m m' : SameCommB (.bds07 m) (.bds07 m')
  | bds20 m m' : SameCommB (.bds20 m) (.bds20 m')
  | bds10 m m' : SameCommB (.bds10 m) (.bds10 m')
  | bds17 m m' : SameCommB (.bds17 m) (.bds17 m')
  | bds30 m m' : SameCommB (.bds30 m) (.bds30 m')
  | bds40 m m' : SameCommB (.bds40 m) (.bds40 m')
  | bds50 m m' : SameCommB (.bds50 m) (.bds50 m')
  | bds60 m m' : SameCommB (.bds60 m) (.bds60 m')
  | bds44_v0 m m' : SameCommB (.bds44 (.v0 m)) (.bds44 (.v0 m'))
  | bds44_v1 m m' : SameCommB (.bds44 (.v1 m)) (.bds44 (.v1 m'))
  | bds44_v2 m m' : SameCommB (.bds44 (.v2 m)) (.bds44 (.v2 m'))
  | bds45_v0 m m' : SameCommB (.bds45 (.v0 m)) (.bds45 (.v0 m'))
  | bds45_v1 m m' : SameCommB (.bds45 (.v1 m)) (.bds45 (.v1 m'))

theorem sameCommB (m n : CommBMessage) (h : m.kind = n.kind) : SameCommB m n := by
  cases m with
  | bds44 m => cases m <;> cases n with
    | bds44 n => cases n <;> first | constructor | (simp only [CommBMessage.kind] at h <;> omega)
    | bds45 n => cases n <;> (simp only [CommBMessage.kind] at h <;> omega)
    | _ => simp only [CommBMessage.kind] at h <;> omega
  | bds45 m => cases m <;> cases n with
    | bds44 n => cases n <;> (simp only [CommBMessage.kind] at h <;> omega)
    | bds45 n => cases n <;> first | constructor | (simp only [CommBMessage.kind] at h <;> omega)
    | _ => simp only [CommBMessage.kind] at h <;> omega
  | _ => cases n with
    | bds44 n => cases n <;> (simp only [CommBMessage.kind] at h <;> omega)
    | bds45 n => cases n <;> (simp only [CommBMessage.kind] at h <;> omega)
    | _ => first | constructor | (simp only [CommBMessage.kind] at h <;> omega)

/-- Two messages with the same lines show the same. -/
theorem commB_lines_inj (F : FloatTexts) (hF : F.Faithful) (m n : CommBMessage) (hm : m.Printable) (hn : n.Printable)
    (h : (m.lines F).map cat = (n.lines F).map cat) : shownCommB m = shownCommB n := by
  have hk : m.kind = n.kind :=
    commBSig_inj _ m.kind_lt _ n.kind_lt (by rw [← commB_sig F m hm, ← commB_sig F n hn, sig_congr h])
  cases sameCommB m n hk with
  | bds00 m m' => cases m; cases m'; rfl
  | bds07 m m' => rw [Status07.lines_inj m m' h]
  | bds20 m m' => rw [AircraftIdentification.lines_inj m m' hm hn h]
  | bds10 m m' => exact congrArg CommBMessage.bds10 (DataLinkCapabilityReport.lines_inj m m' h)
  | bds17 m m' => rw [GICBCapabilityReport.lines_inj m m' h]
  | bds30 m m' =>
    rw [CommBMessage.lines, CommBMessage.lines, ACASResolutionAdvisory.lines, ACASResolutionAdvisory.lines,
      List.map_append, List.map_append] at h
    obtain ⟨-, h2⟩ := List.append_inj h rfl
    have e := ResolutionAdvisory.lines_inj F _ _ hm hn h2
    obtain ⟨ra, _⟩ := m
    obtain ⟨ra', _⟩ := m'
    simp only at e
    simp only [shownCommB]
    unfold ResolutionAdvisory.shown at e
    cases ra <;> cases ra' <;> simp_all [ActiveRA.shown]
  | bds40 m m' => rw [SelectedVerticalIntention.lines_inj F hF m m' h]
  | bds44_v0 m m' => rw [RoutineAirReportV0.lines_inj F hF m m' h]
  | bds44_v1 m m' => rw [RoutineAirReportV1.lines_inj F hF m m' h]
  | bds44_v2 m m' => rw [RoutineAirReportV2.lines_inj F hF m m' h]
  | bds45_v0 m m' => rw [HazardReportV0.lines_inj F hF m m' h]
  | bds45_v1 m m' => rw [HazardReportV1.lines_inj F hF m m' h]
  | bds50 m m' => rw [TrackAndTurnReport.lines_inj F hF m m' h]
  | bds60 m m' => rw [HeadingAndTrackReport.lines_inj F hF m m' h]

theorem commB_reads (d : List UInt8) (l : List (Iface CommBMessage)) (h : readCommBMessage d = .ok l) (m : CommBMessage)
    (hm : .val m ∈ l) : ReadsAs d m := by
  by_cases h7 : d.length = 7
  · obtain ⟨l', hl, -, hc, -⟩ := commB_sound_complete d h7
    rw [hl] at h
    cases h
    obtain ⟨x, hx, e⟩ := List.mem_map.1 hm
    cases e
    exact (hc m hx).1
  · rw [readCommB_short d h7] at h; cases h

/-- C76. Two candidates given for Comm-B fields that are printed alike are the same message, except for the continuation flag of a
data link capability report and the sense of a resolution advisory. -/
theorem commB_text_partial (F : FloatTexts) (hF : F.Faithful) (d d' : List UInt8) (l l' : List (Iface CommBMessage))
    (hd : readCommBMessage d = .ok l) (hd' : readCommBMessage d' = .ok l') (m n : CommBMessage) (hm : .val m ∈ l)
    (hn : .val n ∈ l') (h : m.text F = n.text F) : shownCommB m = shownCommB n := by
  have pm := commB_printable d m (commB_reads d l hd m hm)
  have pn := commB_printable d' n (commB_reads d' l' hd' n hn)
  exact commB_lines_inj F hF m n pm pn
    (lines_of_linesText (commB_lines_ne F m pm) (commB_lines_ne F n pn) (commB_allLine F hF m pm) (commB_allLine F hF n pn) h)

/-- C76: in particular the candidates for one field are printed differently. -/
theorem commB_texts_differ (F : FloatTexts) (hF : F.Faithful) (d : List UInt8) (l : List (Iface CommBMessage))
    (hd : readCommBMessage d = .ok l) (m n : CommBMessage) (hm : .val m ∈ l) (hn : .val n ∈ l) (hne : m ≠ n) :
    m.text F ≠ n.text F := by
  intro h
  have e := commB_text_partial F hF d d l l hd hd m n hm hn h
  have rm := commB_reads d l hd m hm
  have rn := commB_reads d l hd n hn
  apply hne
  cases m <;> cases n <;> first | exact e | (cases e; done) | skip
  · next m n => rw [show m = n from Except.ok.inj (Eq.trans (Eq.symm rm) rn)]
  · next m n => rw [show m = n from Except.ok.inj (Eq.trans (Eq.symm rm) rn)]

theorem commB_listed (d : List UInt8) (m : CommBMessage) (h7 : d.length = 7) (hm : Candidate d m) (h0 : readBDS00 d = .error .err)
    (h1 : readBDS07 d = .error .err) (h2 : readBDS20 d = .error .err) : ∃ l, readCommBMessage d = .ok l ∧ .val m ∈ l := by
  obtain ⟨l, hl, -, -, hc⟩ := commB_sound_complete d h7
  refine ⟨_, hl, List.mem_map.2 ⟨m, (hc (fun x hx => ?_) m).2 hm, rfl⟩⟩
  cases x with
  | bds00 x => exact absurd (h0.symm.trans hx.1) (by simp)
  | bds07 x => exact absurd (h1.symm.trans hx.1) (by simp)
  | bds20 x => exact absurd (h2.symm.trans hx.1) (by simp)
  | _ => rfl

/-- C76, what the texts do not show: two data link capability reports, one with and one without the continuation flag, two
resolution advisories, one to climb and one to descend, are printed alike. -/
theorem commB_text_refuted (F : FloatTexts) :
    (∃ d d' l l' m n, readCommBMessage d = .ok l ∧ readCommBMessage d' = .ok l' ∧ .val m ∈ l ∧ .val n ∈ l' ∧
      bits d 9 9 ≠ bits d' 9 9 ∧ m ≠ n ∧ m.text F = n.text F) ∧
    (∃ d d' l l' m n, readCommBMessage d = .ok l ∧ readCommBMessage d' = .ok l' ∧ .val m ∈ l ∧ .val n ∈ l' ∧
      bits d 11 11 ≠ bits d' 11 11 ∧ m ≠ n ∧ m.text F = n.text F) := by
  have key : ∀ (d d' : List UInt8) (m n : CommBMessage) (P : Prop), d.length = 7 → d'.length = 7 → Candidate d m → Candidate d' n →
      readBDS00 d = .error .err → readBDS00 d' = .error .err → readBDS07 d = .error .err → readBDS07 d' = .error .err →
      readBDS20 d = .error .err → readBDS20 d' = .error .err → P →
      ∃ l l', readCommBMessage d = .ok l ∧ readCommBMessage d' = .ok l' ∧ .val m ∈ l ∧ .val n ∈ l' ∧ P := by
    intro d d' m n P h7 h7' hm hn h0 h0' h1 h1' h2 h2' hP
    obtain ⟨l, hl, hl'⟩ := commB_listed d m h7 hm h0 h1 h2
    obtain ⟨k, hk, hk'⟩ := commB_listed d' n h7' hn h0' h1' h2'
    exact ⟨l, k, hl, hk, hl', hk', hP⟩
  constructor
  · let m (c : UInt8) : DataLinkCapabilityReport := ⟨c, 0, 0, 0, 0, 0, 0, 0, 0, 0, 0, 0, 0, 0, 0, 0⟩
    obtain ⟨l, l', h⟩ := key [0x10, 0, 0, 0, 0, 0, 0] [0x10, 0x80, 0, 0, 0, 0, 0] (.bds10 (m 0)) (.bds10 (m 1))
      (bits [0x10, 0, 0, 0, 0, 0, 0] 9 9 ≠ bits [0x10, 0x80, 0, 0, 0, 0, 0] 9 9 ∧ CommBMessage.bds10 (m 0) ≠ .bds10 (m 1) ∧
        CommBMessage.text F (.bds10 (m 0)) = CommBMessage.text F (.bds10 (m 1))) rfl rfl ⟨rfl, by decide⟩ ⟨rfl, by decide⟩
      (by rfl) (by rfl) (by rfl) (by rfl) (by rfl) (by rfl) ⟨by decide, by decide, rfl⟩
    exact ⟨_, _, l, l', _, _, h⟩
  · let m (s : Nat) : ACASResolutionAdvisory := ⟨.oneThreat ⟨0, s, false, false, false, 0⟩, ⟨false, false, false, false⟩, 0, 0, 0,
      none, none, none, none⟩
    obtain ⟨l, l', h⟩ := key [0x30, 0x80, 0, 0, 0, 0, 0] [0x30, 0xA0, 0, 0, 0, 0, 0] (.bds30 (m 0)) (.bds30 (m 1))
      (bits [0x30, 0x80, 0, 0, 0, 0, 0] 11 11 ≠ bits [0x30, 0xA0, 0, 0, 0, 0, 0] 11 11 ∧ CommBMessage.bds30 (m 0) ≠ .bds30 (m 1) ∧
        CommBMessage.text F (.bds30 (m 0)) = CommBMessage.text F (.bds30 (m 1))) rfl rfl ⟨rfl, by decide⟩ ⟨rfl, by decide⟩
      (by rfl) (by rfl) (by rfl) (by rfl) (by rfl) (by rfl) ⟨by decide, by decide, rfl⟩
    exact ⟨_, _, l, l', _, _, h⟩

/-- A field with a candidate, and its text. -/
example : ∃ l m, readCommBMessage [0x20, 0x2C, 0xC3, 0x71, 0xC3, 0x1D, 0xE0] = .ok l ∧ .val m ∈ l ∧
    m.text fractionTexts = t! "Message:                                 BDS 2,0 - Aircraft identification\nIdentification:                          KLM1017 \n" := by
  refine ⟨_, .bds20 ⟨[75, 76, 77, 49, 48, 49, 55, 32]⟩, (commB_unambiguous _).2.2 _ ⟨rfl, by decide +kernel⟩, List.mem_singleton.2 rfl,
    by decide +kernel⟩

end Modes
