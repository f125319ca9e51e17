import Verif.Props.TranslationWords
import Verif.Props.ReaderReasons
import Verif.Props.CRCReasons
/-!
# The words of errors: the other readers

The rest of the readers of Model/TranslationWords: the registers of ADS-B, the advisories, the formats of Mode S, the parity, and the readers
that try several registers. See Props/TranslationWords.
-/
set_option linter.unusedSimpArgs false
namespace Modes
open Saying

theorem chain_or {α : Type} {p q : Prop} {i : Decidable (p ∨ q)} {j : Decidable p} [k : Decidable q] {x t : Txt} {o : Option Txt} {r : Saying α}
    (h : (@ite _ q k (some x) o) = some t → r = say t) :
    (@ite _ (p ∨ q) i (some x) o) = some t → (@ite _ p j (say x) r) = say t := by
  intro h'
  by_cases hp : p
  · rw [if_pos (Or.inl hp)] at h'; rw [if_pos hp]; injection h' with h'; rw [h']
  · rw [if_neg hp]; refine h ?_
    by_cases hq : q
    · rw [if_pos (Or.inr hq)] at h'; rw [if_pos hq]; exact h'
    · rw [if_neg (fun e => e.elim hp hq)] at h'; rw [if_neg hq]; exact h'
theorem chain_again {α : Type} {c : Prop} {i j k : Decidable c} {x y t : Txt} {r r' : Saying α}
    (h : @ite _ c i (some x) none = some t → @ite _ c j (say x) r = say t) :
    @ite _ c i (some x) none = some t → @ite _ c j (say x) (@ite _ c k (say y) r') = say t := by
  intro h'
  by_cases hc : c
  · have := h h'; rw [if_pos hc] at this ⊢; exact this
  · rw [if_neg hc] at h'; cases h'
theorem call_say {α β : Type} {s : Saying α} {f : α → Saying β} {o : Option Txt} {t : Txt} (h : s.words = o) :
    o = some t → (s >>= f) = say t := by
  intro h'
  rw [h'] at h
  rcases s with (_ | _) | _
  · cases h; rfl
  · cases h
  · cases h
theorem end_say {α : Type} {s : Saying α} {o : Option Txt} {t : Txt} (h : s.words = o) : o = some t → s = say t := by
  intro h'
  rw [h'] at h
  rcases s with (_ | _) | _
  · cases h; rfl
  · cases h
  · cases h

theorem slice7 {b0 b1 b2 b3 b4 b5 b6 : UInt8} : sliceFrom [b0, b1, b2, b3, b4, b5, b6] 1 = .ok [b1, b2, b3, b4, b5, b6] := rfl
theorem orGo_ok (a b : Bool) : orGo a (.ok b) = .ok (a || b) := by cases a <;> rfl
/-! ### Errors that can only have one text -/

/-- An error, if there is one, has these words. -/
def OnlySays {α : Type} (w : Txt) (s : Saying α) : Prop := ∀ t, s = say t → t = w
/-- No error is returned. -/
def NoErr {α : Type} (g : Go α) : Prop := g ≠ .error .err

theorem only_pure {α : Type} {w : Txt} (a : α) : OnlySays w (pure a : Saying α) := fun _ h => nomatch h
theorem only_bind {α β : Type} {w : Txt} {s : Saying α} {f : α → Saying β} (h1 : OnlySays w s) (h2 : ∀ a, OnlySays w (f a)) :
    OnlySays w (s >>= f) := by
  intro t h
  rcases s with (x | _) | a
  · cases h; exact h1 _ rfl
  · cases h
  · exact h2 a t h
theorem only_ite {α : Type} {w : Txt} {c : Prop} {i : Decidable c} {a b : Saying α} (h1 : OnlySays w a) (h2 : OnlySays w b) :
    OnlySays w (@ite _ c i a b) := by split <;> assumption
theorem only_say {α : Type} {w : Txt} : OnlySays w (say w : Saying α) := by intro t h; injection h with h; injection h with h; exact h.symm
theorem only_saying {α : Type} {w : Txt} {s : Saying α} : OnlySays w (saying w s) := by
  intro t h
  rcases s with (x | _) | a
  · exact only_say t h
  · cases h
  · cases h
theorem only_lift {α : Type} {w : Txt} {g : Go α} (h : NoErr g) : OnlySays w (liftM g : Saying α) := by
  intro t h'
  rcases g with (_ | _) | a
  · exact absurd rfl h
  · cases h'
  · cases h'
theorem noerr_pure {α : Type} (a : α) : NoErr (pure a : Go α) := nofun
theorem noerr_ok {α : Type} (a : α) : NoErr (.ok a : Go α) := nofun
theorem noerr_bind {α β : Type} {g : Go α} {f : α → Go β} (h1 : NoErr g) (h2 : ∀ a, NoErr (f a)) : NoErr (g >>= f) := by
  rcases g with (_ | _) | a
  · exact absurd rfl h1
  · exact nofun
  · exact h2 a
theorem noerr_idx {α : Type} (s : List α) (i : Nat) : NoErr (idx s i) := by unfold idx; split <;> exact nofun
theorem noerr_ite {α : Type} {c : Prop} {i : Decidable c} {a b : Go α} (h1 : NoErr a) (h2 : NoErr b) : NoErr (@ite _ c i a b) := by
  split <;> assumption

macro "only_walk" : tactic => `(tactic|
  (repeat' (first
    | with_reducible exact only_pure _
    | with_reducible exact only_saying
    | with_reducible exact only_say
    | with_reducible exact noerr_pure _
    | with_reducible exact noerr_ok _
    | with_reducible exact noerr_idx _ _
    | with_reducible refine only_lift ?_
    | with_reducible refine only_bind ?_ fun _ => ?_
    | with_reducible refine only_ite ?_ ?_
    | with_reducible refine noerr_bind ?_ fun _ => ?_
    | with_reducible refine noerr_ite ?_ ?_)))

/-- A reader whose only error has these words. -/
theorem only_same {α : Type} {w : Txt} {s : Saying α} {r : Go α} (he : s.erase = r) (hp : r ≠ .error .panic) (ho : OnlySays w s) :
    (∃ a, r = .ok a ∧ s.words = none) ∨ (r = .error .err ∧ s.words = some w) := by
  subst he
  rcases s with (x | _) | a
  · have e : x = w := ho x rfl
    subst e; exact Or.inr ⟨rfl, rfl⟩
  · exact absurd rfl hp
  · exact Or.inl ⟨a, rfl, rfl⟩

/-! ### ACAS -/

theorem same_words_advisoryError (d : List UInt8) : (Said.acas.ra.ReadResolutionAdvisory d).words = advisoryError d := by
  have he : (Said.acas.ra.ReadResolutionAdvisory d).erase = readResolutionAdvisory d :=
    (erase_acas.ra.ReadResolutionAdvisory d).trans (by simp only [translated])
  by_cases h6 : d.length = 6
  · unfold advisoryError
    rw [if_neg (not_not.2 h6)]
    suffices k : OnlySays (t! "the Altitude field is malformed") (Said.acas.ra.ReadResolutionAdvisory d) by
      rcases only_same he (ra_noPanic d) k with ⟨a, e1, e2⟩ | ⟨e1, e2⟩ <;> rw [e1, e2]
    unfold Said.acas.ra.ReadResolutionAdvisory
    rw [if_neg (not_not.2 h6)]
    simp only [Said.acas.ra.fields.ReadThreatIdentityAltitude, Gen.acas.ra.fields.ReadARAOneThreatOrSameSeparation, Gen.acas.ra.fields.ReadARAMultipleThreatsDifferentSeparation, Gen.acas.ra.fields.ReadActiveResolutionAdvisory, Gen.acas.ra.fields.ReadMultipleThreatEncounter, Gen.acas.ra.fields.ReadRAComplement, Gen.acas.ra.fields.ReadRATerminatedIndicator, Gen.acas.ra.fields.ReadThreatIdentityAddress, Gen.acas.ra.fields.ReadThreatIdentityAltitude, Gen.acas.ra.fields.ReadThreatIdentityBearing, Gen.acas.ra.fields.ReadThreatIdentityRange, Gen.acas.ra.fields.ReadThreatTypeIndicator]
    only_walk
  · unfold advisoryError Said.acas.ra.ReadResolutionAdvisory
    rw [if_pos h6, if_pos h6]; rfl

/-! ### Names printed in errors -/

theorem lookup_skip {c : UInt8} {k : Nat} (q : UInt8) (hq : q.toNat = k) (h : c ≠ q) {t : Txt} {l : List (Nat × Txt)} :
    List.lookup c.toNat ((k, t) :: l) = List.lookup c.toNat l := by
  have e : (c.toNat == k) = false := beq_false_of_ne fun e => h (UInt8.toNat_inj.1 (by rw [e, hq]))
  simp only [List.lookup, e]

theorem said_bds09Subtype : Said.bds.bds09.fields.Subtype.ToString = Text.bds09Subtype := by
  funext code
  unfold Said.bds.bds09.fields.Subtype.ToString Text.bds09Subtype tableText
  by_cases h1 : code = 1
  · subst h1; rfl
  rw [lookup_skip (k := 1) 1 rfl h1]
  by_cases h2 : code = 2
  · subst h2; rfl
  rw [lookup_skip (k := 2) 2 rfl h2]
  by_cases h3 : code = 3
  · subst h3; rfl
  rw [lookup_skip (k := 3) 3 rfl h3]
  by_cases h4 : code = 4
  · subst h4; rfl
  rw [lookup_skip (k := 4) 4 rfl h4]
  simp only [if_neg h1, if_neg h2, if_neg h3, if_neg h4, List.lookup, false_or, or_false, if_false]

theorem said_bds61Subtype : Said.bds.bds61.fields.Subtype.ToString = Text.bds61Subtype := by
  funext code
  unfold Said.bds.bds61.fields.Subtype.ToString Text.bds61Subtype tableText
  by_cases h0 : code = 0
  · subst h0; rfl
  rw [lookup_skip (k := 0) 0 rfl h0]
  by_cases h1 : code = 1
  · subst h1; rfl
  rw [lookup_skip (k := 1) 1 rfl h1]
  by_cases h2 : code = 2
  · subst h2; rfl
  rw [lookup_skip (k := 2) 2 rfl h2]
  by_cases h3 : code = 3
  · subst h3; rfl
  rw [lookup_skip (k := 3) 3 rfl h3]
  by_cases h4 : code = 4
  · subst h4; rfl
  rw [lookup_skip (k := 4) 4 rfl h4]
  by_cases h5 : code = 5
  · subst h5; rfl
  rw [lookup_skip (k := 5) 5 rfl h5]
  by_cases h6 : code = 6
  · subst h6; rfl
  rw [lookup_skip (k := 6) 6 rfl h6]
  by_cases h7 : code = 7
  · subst h7; rfl
  rw [lookup_skip (k := 7) 7 rfl h7]
  simp only [if_neg h0, if_neg h1, if_neg h2, if_neg h3, if_neg h4, if_neg h5, if_neg h6, if_neg h7, List.lookup, false_or, or_false, if_false, h3, h4, h5, h6, h7]

theorem said_bds62Subtype : Said.bds.bds62.fields.Subtype.ToString = Text.bds62Subtype := by
  funext code
  unfold Said.bds.bds62.fields.Subtype.ToString Text.bds62Subtype tableText
  by_cases h0 : code = 0
  · subst h0; rfl
  rw [lookup_skip (k := 0) 0 rfl h0]
  by_cases h1 : code = 1
  · subst h1; rfl
  rw [lookup_skip (k := 1) 1 rfl h1]
  by_cases h2 : code = 2
  · subst h2; rfl
  rw [lookup_skip (k := 2) 2 rfl h2]
  by_cases h3 : code = 3
  · subst h3; rfl
  rw [lookup_skip (k := 3) 3 rfl h3]
  simp only [if_neg h0, if_neg h1, if_neg h2, if_neg h3, List.lookup, false_or, or_false, if_false, h2, h3]

theorem said_bds65Subtype : Said.bds.bds65.fields.Subtype.ToString = Text.bds65Subtype := by
  funext code
  unfold Said.bds.bds65.fields.Subtype.ToString Text.bds65Subtype tableText
  by_cases h0 : code = 0
  · subst h0; rfl
  rw [lookup_skip (k := 0) 0 rfl h0]
  by_cases h1 : code = 1
  · subst h1; rfl
  rw [lookup_skip (k := 1) 1 rfl h1]
  simp only [if_neg h0, if_neg h1, List.lookup, false_or, or_false, if_false]

theorem said_versionNumberText : Said.bds.bds65.fields.VersionNumber.ToString = versionNumberText := by
  funext code
  unfold Said.bds.bds65.fields.VersionNumber.ToString versionNumberText tableText
  by_cases h0 : code = 0
  · subst h0; rfl
  rw [lookup_skip (k := 0) 0 rfl h0]
  by_cases h1 : code = 1
  · subst h1; rfl
  rw [lookup_skip (k := 1) 1 rfl h1]
  by_cases h2 : code = 2
  · subst h2; rfl
  rw [lookup_skip (k := 2) 2 rfl h2]
  simp only [if_neg h0, if_neg h1, if_neg h2, List.lookup, false_or, or_false, if_false, List.append_nil, sprintfUint, dec]

/-! ### The registers of ADS-B, one reader per kind -/

theorem dec_19 : dec 19 = ['1', '9'] := by decide
theorem dec_28 : dec 28 = ['2', '8'] := by decide
theorem dec_29 : dec 29 = ['2', '9'] := by decide
theorem dec_31 : dec 31 = ['3', '1'] := by decide

/-- As `read_seven`, with the texts put together. -/
macro "read_kind" e:ident "[" defs:Lean.Parser.Tactic.simpLemma,* "]" : tactic =>
  `(tactic| (dsimp only [$e:ident, kindError, operationalError1, operationalError2, at7_0, at7_1, at7_2, at7_3, at7_4, at7_5, at7_6, lengthError]
             simp only [$defs,*, idx7_0, idx7_1, idx7_2, idx7_3, idx7_4, idx7_5, idx7_6, dec_19, dec_28, dec_29, dec_31,
    said_bds09Subtype, said_bds61Subtype, said_bds62Subtype, said_bds65Subtype, said_versionNumberText,
    lift_ok, go_bind_ok, go_pure, pure_bind, or_assoc, say_bind, seven, if_false, orGo_ok, Bool.or_eq_true, bne_iff_ne, List.cons_append, List.nil_append, List.append_assoc]))

/-- The checks of a reader, one after the other. -/
macro "said_walk" : tactic => `(tactic|
  (repeat' (first
    | with_reducible refine chain_say ?_
    | with_reducible exact last_say
    | with_reducible exact no_say
    | refine chain_say ?_
    | with_reducible refine chain_or ?_
    | refine chain_or ?_)))

/-- `bds09.ReadAirborneVelocityGroundSpeedNormal`: the words of the code are those of the model. -/
theorem same_words_groundSpeedNormalError (d : List UInt8) : (Said.bds.bds09.ReadAirborneVelocityGroundSpeedNormal d).words = groundSpeedNormalError d := by
  refine words_same ((erase_bds.bds09.ReadAirborneVelocityGroundSpeedNormal d).trans (by simp only [translated])) (velocity_kind_reason d).1.1 fun t => ?_
  by_cases h7 : d.length = 7
  · obtain ⟨b0, b1, b2, b3, b4, b5, b6, rfl⟩ := list7 d h7
    read_kind groundSpeedNormalError [Said.bds.bds09.ReadAirborneVelocityGroundSpeedNormal, Gen.bds.bds09.fields.ReadSubtype]
    said_walk
  · unfold groundSpeedNormalError Said.bds.bds09.ReadAirborneVelocityGroundSpeedNormal
    unfold kindError; rw [if_pos h7, if_pos h7]; exact last_say

/-- `bds09.ReadAirborneVelocityGroundSpeedSupersonic`: the words of the code are those of the model. -/
theorem same_words_groundSpeedSupersonicError (d : List UInt8) : (Said.bds.bds09.ReadAirborneVelocityGroundSpeedSupersonic d).words = groundSpeedSupersonicError d := by
  refine words_same ((erase_bds.bds09.ReadAirborneVelocityGroundSpeedSupersonic d).trans (by simp only [translated])) (velocity_kind_reason d).2.1.1 fun t => ?_
  by_cases h7 : d.length = 7
  · obtain ⟨b0, b1, b2, b3, b4, b5, b6, rfl⟩ := list7 d h7
    read_kind groundSpeedSupersonicError [Said.bds.bds09.ReadAirborneVelocityGroundSpeedSupersonic, Gen.bds.bds09.fields.ReadSubtype]
    said_walk
  · unfold groundSpeedSupersonicError Said.bds.bds09.ReadAirborneVelocityGroundSpeedSupersonic
    unfold kindError; rw [if_pos h7, if_pos h7]; exact last_say

/-- `bds09.ReadAirborneVelocityAirSpeedNormal`: the words of the code are those of the model. -/
theorem same_words_airSpeedNormalError (d : List UInt8) : (Said.bds.bds09.ReadAirborneVelocityAirSpeedNormal d).words = airSpeedNormalError d := by
  refine words_same ((erase_bds.bds09.ReadAirborneVelocityAirSpeedNormal d).trans (by simp only [translated])) (velocity_kind_reason d).2.2.1.1 fun t => ?_
  by_cases h7 : d.length = 7
  · obtain ⟨b0, b1, b2, b3, b4, b5, b6, rfl⟩ := list7 d h7
    read_kind airSpeedNormalError [Said.bds.bds09.ReadAirborneVelocityAirSpeedNormal, Gen.bds.bds09.fields.ReadSubtype]
    said_walk
  · unfold airSpeedNormalError Said.bds.bds09.ReadAirborneVelocityAirSpeedNormal
    unfold kindError; rw [if_pos h7, if_pos h7]; exact last_say

/-- `bds09.ReadAirborneVelocityAirSpeedSupersonic`: the words of the code are those of the model. -/
theorem same_words_airSpeedSupersonicError (d : List UInt8) : (Said.bds.bds09.ReadAirborneVelocityAirSpeedSupersonic d).words = airSpeedSupersonicError d := by
  refine words_same ((erase_bds.bds09.ReadAirborneVelocityAirSpeedSupersonic d).trans (by simp only [translated])) (velocity_kind_reason d).2.2.2.1 fun t => ?_
  by_cases h7 : d.length = 7
  · obtain ⟨b0, b1, b2, b3, b4, b5, b6, rfl⟩ := list7 d h7
    read_kind airSpeedSupersonicError [Said.bds.bds09.ReadAirborneVelocityAirSpeedSupersonic, Gen.bds.bds09.fields.ReadSubtype]
    said_walk
  · unfold airSpeedSupersonicError Said.bds.bds09.ReadAirborneVelocityAirSpeedSupersonic
    unfold kindError; rw [if_pos h7, if_pos h7]; exact last_say

/-- `bds61.ReadAircraftStatusNoInformation`: the words of the code are those of the model. -/
theorem same_words_statusNoInformationError (d : List UInt8) : (Said.bds.bds61.ReadAircraftStatusNoInformation d).words = statusNoInformationError d := by
  refine words_same ((erase_bds.bds61.ReadAircraftStatusNoInformation d).trans (by simp only [translated])) (status_kind_reason d).1.1 fun t => ?_
  by_cases h7 : d.length = 7
  · obtain ⟨b0, b1, b2, b3, b4, b5, b6, rfl⟩ := list7 d h7
    read_kind statusNoInformationError [Said.bds.bds61.ReadAircraftStatusNoInformation, Gen.bds.bds61.fields.ReadSubtype]
    said_walk
  · unfold statusNoInformationError Said.bds.bds61.ReadAircraftStatusNoInformation
    unfold kindError; rw [if_pos h7, if_pos h7]; exact last_say

/-- `bds61.ReadAircraftStatusEmergency`: the words of the code are those of the model. -/
theorem same_words_statusEmergencyError (d : List UInt8) : (Said.bds.bds61.ReadAircraftStatusEmergency d).words = statusEmergencyError d := by
  refine words_same ((erase_bds.bds61.ReadAircraftStatusEmergency d).trans (by simp only [translated])) (status_kind_reason d).2.1.1 fun t => ?_
  by_cases h7 : d.length = 7
  · obtain ⟨b0, b1, b2, b3, b4, b5, b6, rfl⟩ := list7 d h7
    read_kind statusEmergencyError [Said.bds.bds61.ReadAircraftStatusEmergency, Gen.bds.bds61.fields.ReadSubtype]
    said_walk
  · unfold statusEmergencyError Said.bds.bds61.ReadAircraftStatusEmergency
    unfold kindError; rw [if_pos h7, if_pos h7]; exact last_say

/-- `bds61.ReadAircraftStatusACAS`: the words of the code are those of the model. -/
theorem same_words_statusACASError (d : List UInt8) : (Said.bds.bds61.ReadAircraftStatusACAS d).words = statusACASError d := by
  refine words_same ((erase_bds.bds61.ReadAircraftStatusACAS d).trans (by simp only [translated])) (status_kind_reason d).2.2 fun t => ?_
  by_cases h7 : d.length = 7
  · obtain ⟨b0, b1, b2, b3, b4, b5, b6, rfl⟩ := list7 d h7
    read_kind statusACASError [Said.bds.bds61.ReadAircraftStatusACAS, Gen.bds.bds61.fields.ReadSubtype, sliceFrom]
    said_walk
    exact call_say (same_words_advisoryError _)
  · unfold statusACASError Said.bds.bds61.ReadAircraftStatusACAS
    unfold kindError; rw [if_pos h7, if_pos h7]; exact last_say

/-- `bds62.ReadTargetStateAndStatus0`: the words of the code are those of the model. -/
theorem same_words_targetState0Error (d : List UInt8) : (Said.bds.bds62.ReadTargetStateAndStatus0 d).words = targetState0Error d := by
  refine words_same ((erase_bds.bds62.ReadTargetStateAndStatus0 d).trans (by simp only [translated])) (target_state_kind_reason d).1.1 fun t => ?_
  by_cases h7 : d.length = 7
  · obtain ⟨b0, b1, b2, b3, b4, b5, b6, rfl⟩ := list7 d h7
    read_kind targetState0Error [Said.bds.bds62.ReadTargetStateAndStatus0, Gen.bds.bds62.fields.ReadSubtype]
    said_walk
  · unfold targetState0Error Said.bds.bds62.ReadTargetStateAndStatus0
    unfold kindError; rw [if_pos h7, if_pos h7]; exact last_say

/-- `bds62.ReadTargetStateAndStatus1`: the words of the code are those of the model. -/
theorem same_words_targetState1Error (d : List UInt8) : (Said.bds.bds62.ReadTargetStateAndStatus1 d).words = targetState1Error d := by
  refine words_same ((erase_bds.bds62.ReadTargetStateAndStatus1 d).trans (same_TargetStateAndStatus1 d)) ((target_state_kind_reason d).2.1) fun t => ?_
  by_cases h7 : d.length = 7
  · obtain ⟨b0, b1, b2, b3, b4, b5, b6, rfl⟩ := list7 d h7
    read_kind targetState1Error [Said.bds.bds62.ReadTargetStateAndStatus1, Gen.bds.bds62.fields.ReadSubtype]
    said_walk
  · unfold targetState1Error Said.bds.bds62.ReadTargetStateAndStatus1
    unfold kindError; rw [if_pos h7, if_pos h7]; exact last_say

/-- `bds65.ReadAircraftOperationalStatusADSB0`: the words of the code are those of the model. -/
theorem same_words_operationalV0Error (d : List UInt8) : (Said.bds.bds65.ReadAircraftOperationalStatusADSB0 d).words = operationalV0Error d := by
  refine words_same ((erase_bds.bds65.ReadAircraftOperationalStatusADSB0 d).trans (by simp only [translated])) (operational_kind_refused d).1 fun t => ?_
  by_cases h7 : d.length = 7
  · obtain ⟨b0, b1, b2, b3, b4, b5, b6, rfl⟩ := list7 d h7
    read_kind operationalV0Error [Said.bds.bds65.ReadAircraftOperationalStatusADSB0, Gen.bds.bds65.fields.ReadSubtype, Gen.bds.bds65.fields.ReadVersionNumber]
    said_walk
  · unfold operationalV0Error Said.bds.bds65.ReadAircraftOperationalStatusADSB0
    unfold kindError; rw [if_pos h7, if_pos h7]; exact last_say

/-- `bds65.ReadAircraftOperationalStatusAirborneADSB1`: the words of the code are those of the model. -/
theorem same_words_operationalAirborneV1Error (d : List UInt8) : (Said.bds.bds65.ReadAircraftOperationalStatusAirborneADSB1 d).words = operationalAirborneV1Error d := by
  refine words_same ((erase_bds.bds65.ReadAircraftOperationalStatusAirborneADSB1 d).trans (by simp only [translated])) (operational_kind_refused d).2.1 fun t => ?_
  by_cases h7 : d.length = 7
  · obtain ⟨b0, b1, b2, b3, b4, b5, b6, rfl⟩ := list7 d h7
    read_kind operationalAirborneV1Error [Said.bds.bds65.ReadAircraftOperationalStatusAirborneADSB1, Gen.bds.bds65.fields.ReadSubtype, Gen.bds.bds65.fields.ReadVersionNumber]
    said_walk
  · unfold operationalAirborneV1Error Said.bds.bds65.ReadAircraftOperationalStatusAirborneADSB1
    unfold kindError; rw [if_pos h7, if_pos h7]; exact last_say

/-- `bds65.ReadAircraftOperationalStatusAirborneADSB2`: the words of the code are those of the model. -/
theorem same_words_operationalAirborneV2Error (d : List UInt8) : (Said.bds.bds65.ReadAircraftOperationalStatusAirborneADSB2 d).words = operationalAirborneV2Error d := by
  refine words_same ((erase_bds.bds65.ReadAircraftOperationalStatusAirborneADSB2 d).trans (by simp only [translated])) (operational_kind_refused d).2.2.1 fun t => ?_
  by_cases h7 : d.length = 7
  · obtain ⟨b0, b1, b2, b3, b4, b5, b6, rfl⟩ := list7 d h7
    read_kind operationalAirborneV2Error [Said.bds.bds65.ReadAircraftOperationalStatusAirborneADSB2, Gen.bds.bds65.fields.ReadSubtype, Gen.bds.bds65.fields.ReadVersionNumber]
    said_walk
  · unfold operationalAirborneV2Error Said.bds.bds65.ReadAircraftOperationalStatusAirborneADSB2
    unfold kindError; rw [if_pos h7, if_pos h7]; exact last_say

/-- `bds65.ReadAircraftOperationalStatusSurfaceADSB1`: the words of the code are those of the model. -/
theorem same_words_operationalSurfaceV1Error (d : List UInt8) : (Said.bds.bds65.ReadAircraftOperationalStatusSurfaceADSB1 d).words = operationalSurfaceV1Error d := by
  refine words_same ((erase_bds.bds65.ReadAircraftOperationalStatusSurfaceADSB1 d).trans (by simp only [translated])) (operational_kind_refused d).2.2.2.1 fun t => ?_
  by_cases h7 : d.length = 7
  · obtain ⟨b0, b1, b2, b3, b4, b5, b6, rfl⟩ := list7 d h7
    read_kind operationalSurfaceV1Error [Said.bds.bds65.ReadAircraftOperationalStatusSurfaceADSB1, Gen.bds.bds65.fields.ReadSubtype, Gen.bds.bds65.fields.ReadVersionNumber]
    said_walk
  · unfold operationalSurfaceV1Error Said.bds.bds65.ReadAircraftOperationalStatusSurfaceADSB1
    unfold kindError; rw [if_pos h7, if_pos h7]; exact last_say

/-- `bds65.ReadAircraftOperationalStatusSurfaceADSB2`: the words of the code are those of the model. -/
theorem same_words_operationalSurfaceV2Error (d : List UInt8) : (Said.bds.bds65.ReadAircraftOperationalStatusSurfaceADSB2 d).words = operationalSurfaceV2Error d := by
  refine words_same ((erase_bds.bds65.ReadAircraftOperationalStatusSurfaceADSB2 d).trans (by simp only [translated])) (operational_kind_refused d).2.2.2.2 fun t => ?_
  by_cases h7 : d.length = 7
  · obtain ⟨b0, b1, b2, b3, b4, b5, b6, rfl⟩ := list7 d h7
    read_kind operationalSurfaceV2Error [Said.bds.bds65.ReadAircraftOperationalStatusSurfaceADSB2, Gen.bds.bds65.fields.ReadSubtype, Gen.bds.bds65.fields.ReadVersionNumber]
    said_walk
  · unfold operationalSurfaceV2Error Said.bds.bds65.ReadAircraftOperationalStatusSurfaceADSB2
    unfold kindError; rw [if_pos h7, if_pos h7]; exact last_say

/-- `bds06.ReadSurfacePosition`: the words of the code are those of the model. -/
theorem same_words_surfaceError (d : List UInt8) : (Said.bds.bds06.ReadSurfacePosition d).words = surfaceError d := by
  refine words_same ((erase_bds.bds06.ReadSurfacePosition d).trans (by simp only [translated])) (surface_register_reason d).1 fun t => ?_
  by_cases h7 : d.length = 7
  · obtain ⟨b0, b1, b2, b3, b4, b5, b6, rfl⟩ := list7 d h7
    read_kind surfaceError [Said.bds.bds06.ReadSurfacePosition]
    said_walk
  · unfold surfaceError Said.bds.bds06.ReadSurfacePosition
    rw [if_pos h7, if_pos h7]; exact last_say

/-- `bds08.ReadAircraftIdentificationAndCategory`: the words of the code are those of the model. -/
theorem same_words_identificationError (d : List UInt8) : (Said.bds.bds08.ReadAircraftIdentificationAndCategory d).words = identificationError d := by
  refine words_same ((erase_bds.bds08.ReadAircraftIdentificationAndCategory d).trans (by simp only [translated])) (identification_register_reason d).1 fun t => ?_
  by_cases h7 : d.length = 7
  · obtain ⟨b0, b1, b2, b3, b4, b5, b6, rfl⟩ := list7 d h7
    read_kind identificationError [Said.bds.bds08.ReadAircraftIdentificationAndCategory]
    said_walk
  · unfold identificationError Said.bds.bds08.ReadAircraftIdentificationAndCategory
    rw [if_pos h7, if_pos h7]; exact last_say

/-! ### The registers of ADS-B -/

theorem chain_know {α : Type} {c : Prop} {i j : Decidable c} {x t : Txt} {o : Option Txt} {r : Saying α} (h : ¬c → o = some t → r = say t) :
    (@ite _ c i (some x) o) = some t → (@ite _ c j (say x) r) = say t := by
  intro h'; split at h'
  · next hc => rw [if_pos hc]; injection h' with h'; rw [h']
  · next hc => rw [if_neg hc]; exact h hc h'
theorem call_kind {α β : Type} {s : Saying α} {f : α → Saying β} {o e : Option Txt} {t : Txt} (h : s.words = e) (h' : o = e) :
    o = some t → (s >>= f) = say t := call_say (h.trans h'.symm)
theorem last_kind {α : Type} {x t : Txt} {o : Option Txt} (h : o = some x) : o = some t → (say x : Saying α) = say t := by
  rw [h]; exact last_say
theorem toNat_ne {a k : UInt8} (h : a ≠ k) : a.toNat ≠ k.toNat := fun e => h (UInt8.toNat_inj.1 e)

theorem same_words_airborneError (d : List UInt8) : (Said.bds.bds05.ReadAirbornePosition d).words = airborneError d := by
  have he : (Said.bds.bds05.ReadAirbornePosition d).erase = readBDS05 d :=
    (erase_bds.bds05.ReadAirbornePosition d).trans (by simp only [translated])
  refine words_same he (airborne_register_reason d).1 fun t => ?_
  by_cases h7 : d.length = 7
  swap
  · unfold airborneError Said.bds.bds05.ReadAirbornePosition
    rw [if_pos h7, if_pos h7]; exact last_say
  obtain ⟨b0, b1, b2, b3, b4, b5, b6, rfl⟩ := list7 d h7
  have hp : readBDS05 [b0, b1, b2, b3, b4, b5, b6] ≠ .error .panic := noPanic_of (airborne_position_accepts _).2
  by_cases hf : (b0 &&& 248) >>> 3 < 9 ∨ (b0 &&& 248) >>> 3 > 22 ∨ (b0 &&& 248) >>> 3 = 19
  · simp only [airborneError, at7_0, Said.bds.bds05.ReadAirbornePosition, idx7_0, lift_ok, pure_bind, or_assoc, say_bind, seven, if_false]
    exact chain_know fun h => absurd hf h
  · suffices ho : OnlySays (t! "the field Altitude is malformed") (Said.bds.bds05.ReadAirbornePosition [b0, b1, b2, b3, b4, b5, b6]) by
      refine end_say ?_
      simp only [airborneError, at7_0, seven, if_false]
      refine Eq.trans ?_ (if_neg hf).symm
      rcases only_same he hp ho with ⟨a, e1, e2⟩ | ⟨e1, e2⟩ <;> rw [e1, e2]
    simp only [Said.bds.bds05.ReadAirbornePosition, idx7_0, lift_ok, pure_bind, or_assoc, say_bind, seven, if_false, if_neg hf,
      Gen.bds.bds05.fields.ReadSurveillanceStatus, Gen.bds.bds05.fields.ReadSingleAntennaFlag, Gen.bds.bds05.fields.ReadTime, Gen.bds.bds05.fields.ReadCompactPositionReportingFormat, Gen.bds.bds05.fields.ReadEncodedLatitude, Gen.bds.bds05.fields.ReadEncodedLongitude]
    only_walk

/-- `bds61.ReadAircraftStatus`: the words of the code are those of the model. -/
theorem same_words_statusError (d : List UInt8) : (Said.bds.bds61.ReadAircraftStatus d).words = statusError d := by
  refine words_same ((erase_bds.bds61.ReadAircraftStatus d).trans (by simp only [translated])) (status_register_refused d) fun t => ?_
  by_cases h7 : d.length = 7
  swap
  · unfold statusError Said.bds.bds61.ReadAircraftStatus
    rw [if_pos h7, if_pos h7]; exact last_say
  obtain ⟨b0, b1, b2, b3, b4, b5, b6, rfl⟩ := list7 d h7
  simp only [statusError, at7_0, at7_5, Said.bds.bds61.ReadAircraftStatus, Gen.bds.bds61.fields.ReadSubtype, idx7_0, idx7_5, lift_ok, go_bind_ok, go_pure, pure_bind, say_bind, seven, if_false, List.cons_append, List.nil_append, List.append_assoc]
  refine chain_know fun hf => ?_
  rw [not_not] at hf
  by_cases h0 : (b0 &&& 7) = 0
  · rw [if_pos h0]
    refine call_kind (same_words_statusNoInformationError _) ?_
    dsimp only [statusNoInformationError, kindError, at7_0]
    simp only [h0, hf, seven, ne_eq, not_true, if_false]
    rfl
  rw [if_neg h0]
  by_cases h1 : (b0 &&& 7) = 1
  · rw [if_pos h1]
    refine call_kind (same_words_statusEmergencyError _) ?_
    dsimp only [statusEmergencyError, kindError, at7_0]
    simp only [h1, hf, seven, ne_eq, not_true, if_false]
    rfl
  rw [if_neg h1]
  by_cases h2 : (b0 &&& 7) = 2
  · rw [if_pos h2]
    refine call_kind (same_words_statusACASError _) ?_
    dsimp only [statusACASError, kindError, at7_0]
    simp only [h2, hf, seven, ne_eq, not_true, if_false]
    rfl
  rw [if_neg h2]
  refine last_kind ?_
  split
  · next h => exact absurd h (toNat_ne (k := 0) h0)
  · next h => exact absurd h (toNat_ne (k := 1) h1)
  · next h => exact absurd h (toNat_ne (k := 2) h2)
  · rfl

/-- `bds09.ReadAirborneVelocity`: the words of the code are those of the model. -/
theorem same_words_velocityError (d : List UInt8) : (Said.bds.bds09.ReadAirborneVelocity d).words = velocityError d := by
  refine words_same ((erase_bds.bds09.ReadAirborneVelocity d).trans (by simp only [translated])) (velocity_register_reason d).1 fun t => ?_
  by_cases h7 : d.length = 7
  swap
  · unfold velocityError Said.bds.bds09.ReadAirborneVelocity
    rw [if_pos h7, if_pos h7]; exact last_say
  obtain ⟨b0, b1, b2, b3, b4, b5, b6, rfl⟩ := list7 d h7
  simp only [velocityError, at7_0, at7_5, Said.bds.bds09.ReadAirborneVelocity, Gen.bds.bds09.fields.ReadSubtype, idx7_0, idx7_5, lift_ok, go_bind_ok, go_pure, pure_bind, say_bind, seven, if_false, List.cons_append, List.nil_append, List.append_assoc]
  refine chain_know fun hf => ?_
  rw [not_not] at hf
  by_cases h1 : (b0 &&& 7) = 1
  · rw [if_pos h1]
    refine call_kind (same_words_groundSpeedNormalError _) ?_
    dsimp only [groundSpeedNormalError, kindError, at7_0]
    simp only [h1, hf, seven, ne_eq, not_true, if_false]
    rfl
  rw [if_neg h1]
  by_cases h2 : (b0 &&& 7) = 2
  · rw [if_pos h2]
    refine call_kind (same_words_groundSpeedSupersonicError _) ?_
    dsimp only [groundSpeedSupersonicError, kindError, at7_0]
    simp only [h2, hf, seven, ne_eq, not_true, if_false]
    rfl
  rw [if_neg h2]
  by_cases h3 : (b0 &&& 7) = 3
  · rw [if_pos h3]
    refine call_kind (same_words_airSpeedNormalError _) ?_
    dsimp only [airSpeedNormalError, kindError, at7_0]
    simp only [h3, hf, seven, ne_eq, not_true, if_false]
    rfl
  rw [if_neg h3]
  by_cases h4 : (b0 &&& 7) = 4
  · rw [if_pos h4]
    refine call_kind (same_words_airSpeedSupersonicError _) ?_
    dsimp only [airSpeedSupersonicError, kindError, at7_0]
    simp only [h4, hf, seven, ne_eq, not_true, if_false]
    rfl
  rw [if_neg h4]
  refine last_kind ?_
  split
  · next h => exact absurd h (toNat_ne (k := 1) h1)
  · next h => exact absurd h (toNat_ne (k := 2) h2)
  · next h => exact absurd h (toNat_ne (k := 3) h3)
  · next h => exact absurd h (toNat_ne (k := 4) h4)
  · rfl

/-- `bds62.ReadTargetStateAndStatus`: the words of the code are those of the model. -/
theorem same_words_targetStateError (d : List UInt8) : (Said.bds.bds62.ReadTargetStateAndStatus d).words = targetStateError d := by
  refine words_same ((erase_bds.bds62.ReadTargetStateAndStatus d).trans (same_TargetStateAndStatus d)) ((target_state_register_reason d).1) fun t => ?_
  by_cases h7 : d.length = 7
  swap
  · unfold targetStateError Said.bds.bds62.ReadTargetStateAndStatus
    rw [if_pos h7, if_pos h7]; exact last_say
  obtain ⟨b0, b1, b2, b3, b4, b5, b6, rfl⟩ := list7 d h7
  simp only [targetStateError, at7_0, at7_5, Said.bds.bds62.ReadTargetStateAndStatus, Gen.bds.bds62.fields.ReadSubtype, idx7_0, idx7_5, lift_ok, go_bind_ok, go_pure, pure_bind, say_bind, seven, if_false, List.cons_append, List.nil_append, List.append_assoc]
  refine chain_know fun hf => ?_
  rw [not_not] at hf
  by_cases h0 : ((b0 &&& 6) >>> 1) = 0
  · rw [if_pos h0]
    refine call_kind (same_words_targetState0Error _) ?_
    dsimp only [targetState0Error, kindError, at7_0]
    simp only [h0, hf, seven, ne_eq, not_true, if_false]
    rfl
  rw [if_neg h0]
  by_cases h1 : ((b0 &&& 6) >>> 1) = 1
  · rw [if_pos h1]
    refine call_kind (same_words_targetState1Error _) ?_
    dsimp only [targetState1Error, kindError, at7_0]
    simp only [h1, hf, seven, ne_eq, not_true, if_false]
    rfl
  rw [if_neg h1]
  refine last_kind ?_
  split
  · next h => exact absurd h (toNat_ne (k := 0) h0)
  · next h => exact absurd h (toNat_ne (k := 1) h1)
  · rfl

/-- `bds65.ReadAircraftOperationalStatus`: the words of the code are those of the model. -/
theorem same_words_operationalError (d : List UInt8) : (Said.bds.bds65.ReadAircraftOperationalStatus d).words = operationalError d := by
  refine words_same ((erase_bds.bds65.ReadAircraftOperationalStatus d).trans (by simp only [translated])) (operational_register_refused d) fun t => ?_
  by_cases h7 : d.length = 7
  swap
  · unfold operationalError Said.bds.bds65.ReadAircraftOperationalStatus
    rw [if_pos h7, if_pos h7]; exact last_say
  obtain ⟨b0, b1, b2, b3, b4, b5, b6, rfl⟩ := list7 d h7
  simp only [operationalError, at7_0, at7_5, Said.bds.bds65.ReadAircraftOperationalStatus, idx7_0, idx7_5, lift_ok, go_bind_ok, go_pure,
    pure_bind, say_bind, seven, if_false, List.cons_append, List.nil_append, List.append_assoc]
  refine chain_know fun hf => ?_
  rw [not_not] at hf
  by_cases l0 : (b5 &&& 224) >>> 5 = 0
  · rw [if_pos l0]
    refine call_kind (same_words_operationalV0Error _) ?_
    dsimp only [operationalV0Error, kindError, at7_0, at7_5]
    simp only [l0, hf, seven, ne_eq, not_true, if_false, List.cons_append, List.nil_append, List.append_assoc]
    rfl
  rw [if_neg l0]
  by_cases l1 : (b5 &&& 224) >>> 5 = 1
  · rw [if_pos l1]
    by_cases h0 : b0 &&& 7 = 0
    · rw [if_pos h0]
      refine call_kind (same_words_operationalAirborneV1Error _) ?_
      dsimp only [operationalAirborneV1Error, kindError, at7_0, at7_5]
      simp only [l1, h0, hf, seven, ne_eq, not_true, if_false]
      rfl
    rw [if_neg h0]
    by_cases h1 : b0 &&& 7 = 1
    · rw [if_pos h1]
      refine call_kind (same_words_operationalSurfaceV1Error _) ?_
      dsimp only [operationalSurfaceV1Error, kindError, at7_0, at7_5]
      simp only [l1, h1, hf, seven, ne_eq, not_true, if_false]
      rfl
    rw [if_neg h1]
    refine last_kind ?_
    simp only [l1, UInt8.reduceToNat]
    split
    · next h => exact absurd h (toNat_ne (k := 0) h0)
    · next h => exact absurd h (toNat_ne (k := 1) h1)
    · rfl
  rw [if_neg l1]
  by_cases l2 : (b5 &&& 224) >>> 5 = 2
  · rw [if_pos l2]
    by_cases h0 : b0 &&& 7 = 0
    · rw [if_pos h0]
      refine call_kind (same_words_operationalAirborneV2Error _) ?_
      dsimp only [operationalAirborneV2Error, kindError, at7_0, at7_5]
      simp only [l2, h0, hf, seven, ne_eq, not_true, if_false]
      rfl
    rw [if_neg h0]
    by_cases h1 : b0 &&& 7 = 1
    · rw [if_pos h1]
      refine call_kind (same_words_operationalSurfaceV2Error _) ?_
      dsimp only [operationalSurfaceV2Error, kindError, at7_0, at7_5]
      simp only [l2, h1, hf, seven, ne_eq, not_true, if_false]
      rfl
    rw [if_neg h1]
    refine last_kind ?_
    simp only [l2, UInt8.reduceToNat]
    split
    · next h => exact absurd h (toNat_ne (k := 0) h0)
    · next h => exact absurd h (toNat_ne (k := 1) h1)
    · rfl
  rw [if_neg l2]
  refine last_kind ?_
  split
  · next h => exact absurd h (toNat_ne (k := 0) l0)
  · next h => exact absurd h (toNat_ne (k := 1) l1)
  · next h => exact absurd h (toNat_ne (k := 2) l2)
  · rfl

/-- `bds30.ReadACASResolutionAdvisory`: the words of the code are those of the model. -/
theorem same_words_bds30Error (d : List UInt8) : (Said.bds.bds30.ReadACASResolutionAdvisory d).words = bds30Error d := by
  refine words_same ((erase_bds.bds30.ReadACASResolutionAdvisory d).trans (by simp only [translated])) (bds30_reason_partial d).1 fun t => ?_
  by_cases h7 : d.length = 7
  · obtain ⟨b0, b1, b2, b3, b4, b5, b6, rfl⟩ := list7 d h7
    read_kind bds30Error [Said.bds.bds30.ReadACASResolutionAdvisory, slice7, drop_one]
    refine chain_say ?_
    exact call_say (same_words_advisoryError _)
  · unfold bds30Error Said.bds.bds30.ReadACASResolutionAdvisory
    rw [if_pos h7, if_pos h7]; exact last_say

/-! ### The messages of ADS-B -/

/-- What follows never returns an error. -/
theorem words_tail {α β : Type} {s : Saying α} {f : α → Saying β} (h : ∀ a, (f a).words = none) : (s >>= f).words = s.words := by
  rcases s with (_ | _) | a
  · rfl
  · rfl
  · exact h a
theorem words_pure {α : Type} (a : α) : (pure a : Saying α).words = none := rfl
theorem words_say {α : Type} (t : Txt) : (say t : Saying α).words = some t := rfl
theorem words_lift {α : Type} {g : Go α} (h : NoErr g) : (liftM g : Saying α).words = none := by
  rcases g with (_ | _) | a
  · exact absurd rfl h
  · rfl
  · rfl
theorem words_ite {α : Type} {c : Prop} [Decidable c] (a b : Saying α) : (if c then a else b).words = if c then a.words else b.words := by
  split <;> rfl
theorem words_read {α β : Type} {g : Go α} {f : α → Saying β} (hg : NoErr g) (hf : ∀ a, (f a).words = none) :
    ((liftM g : Saying α) >>= f).words = none := (words_tail hf).trans (words_lift hg)

theorem words_positionType0 (v : UInt8) (d : List UInt8) (h : 7 ≤ d.length) :
    (Said.adsb.airborne_position.ReadAirbornePositionType0 v d).words =
      airborneError [0xB0, byteAt d 1, byteAt d 2, byteAt d 3, byteAt d 4, byteAt d 5, byteAt d 6] := by
  obtain ⟨b0, b1, b2, b3, b4, b5, b6, l, rfl⟩ : ∃ b0 b1 b2 b3 b4 b5 b6 l, d = b0 :: b1 :: b2 :: b3 :: b4 :: b5 :: b6 :: l := by
    match d, h with
    | b0 :: b1 :: b2 :: b3 :: b4 :: b5 :: b6 :: l, _ => exact ⟨b0, b1, b2, b3, b4, b5, b6, l, rfl⟩
  exact (words_tail fun _ => words_pure _).trans (same_words_airborneError _)
theorem words_positionV0 (d : List UInt8) : (Said.adsb.airborne_position.ReadAirbornePositionV0 d).words = airborneError d :=
  (words_tail fun _ => words_pure _).trans (same_words_airborneError _)
theorem words_positionV1 (d : List UInt8) (a : Bool) : (Said.adsb.airborne_position.ReadAirbornePositionV1 d a).words = airborneError d :=
  (words_tail fun _ => words_pure _).trans (same_words_airborneError _)
theorem words_positionV2 (d : List UInt8) (a : Bool) : (Said.adsb.airborne_position.ReadAirbornePositionV2 d a).words = airborneError d := by
  unfold Said.adsb.airborne_position.ReadAirbornePositionV2
  refine (words_tail fun _ => words_read ?_ fun _ => words_pure _).trans (same_words_airborneError _)
  unfold Gen.adsb.airborne_position.fields.ReadNavigationIntegritySupplementB
  only_walk
theorem words_surfaceV0 (d : List UInt8) : (Said.adsb.surface_position.ReadSurfacePositionV0 d).words = surfaceError d :=
  (words_tail fun _ => words_pure _).trans (same_words_surfaceError _)
theorem words_surfaceV1 (d : List UInt8) (a : Bool) : (Said.adsb.surface_position.ReadSurfacePositionV1 d a).words = surfaceError d :=
  (words_tail fun _ => words_pure _).trans (same_words_surfaceError _)
theorem words_surfaceV2 (d : List UInt8) (a c : Bool) : (Said.adsb.surface_position.ReadSurfacePositionV2 d a c).words = surfaceError d :=
  (words_tail fun _ => words_pure _).trans (same_words_surfaceError _)

/-- `airborne_position.ReadAirbornePosition`, on all the data it can read without a panic: the words of the code are those of the model. -/
theorem same_words_airbornePositionError (v : UInt8) (d : List UInt8) (a : Bool) (h : 1 ≤ d.length) (h0 : byteAt d 0 = 0 → 7 ≤ d.length) :
    (Said.adsb.airborne_position.ReadAirbornePosition v d a).words = airbornePositionError v d := by
  obtain ⟨b0, l, rfl⟩ : ∃ b0 l, d = b0 :: l := by cases d with | nil => simp at h | cons b l => exact ⟨b, l, rfl⟩
  unfold Said.adsb.airborne_position.ReadAirbornePosition airbornePositionError
  have hi : idx (b0 :: l) 0 = .ok b0 := rfl
  rw [hi, lift_ok]
  have hb : byteAt (b0 :: l) 0 = b0 := rfl
  rw [hb] at h0 ⊢
  by_cases e0 : b0 = 0
  · rw [if_pos e0, if_pos e0]; exact words_positionType0 v _ (h0 e0)
  rw [if_neg e0, if_neg e0]
  by_cases v0 : v = 0
  · rw [if_pos v0, if_pos (Or.inl v0)]; exact words_positionV0 _
  by_cases v1 : v = 1
  · rw [if_neg v0, if_pos v1, if_pos (Or.inr (Or.inl v1))]; exact words_positionV1 _ _
  by_cases v2 : v = 2
  · rw [if_neg v0, if_neg v1, if_pos v2, if_pos (Or.inr (Or.inr v2))]; exact words_positionV2 _ _
  rw [if_neg v0, if_neg v1, if_neg v2, if_neg (fun e => e.elim v0 fun e => e.elim v1 v2), words_say]

/-- `surface_position.ReadSurfacePosition`: the words of the code are those of the model. -/
theorem same_words_surfacePositionError (v : UInt8) (d : List UInt8) (a c : Bool) :
    (Said.adsb.surface_position.ReadSurfacePosition v d a c).words = surfacePositionError v d := by
  unfold Said.adsb.surface_position.ReadSurfacePosition surfacePositionError
  by_cases v0 : v = 0
  · rw [if_pos v0, if_pos (Or.inl v0)]; exact words_surfaceV0 _
  by_cases v1 : v = 1
  · rw [if_neg v0, if_pos v1, if_pos (Or.inr (Or.inl v1))]; exact words_surfaceV1 _ _
  by_cases v2 : v = 2
  · rw [if_neg v0, if_neg v1, if_pos v2, if_pos (Or.inr (Or.inr v2))]; exact words_surfaceV2 _ _ _
  rw [if_neg v0, if_neg v1, if_neg v2, if_neg (fun e => e.elim v0 fun e => e.elim v1 v2), words_say]

theorem andGo_ok (a b : Bool) : andGo a (.ok b) = .ok (a && b) := by cases a <;> rfl
theorem words_noPosition (v : UInt8) (b0 b1 b2 : UInt8) (l : List UInt8) :
    (Said.adsb.no_position_information.ReadNoPositionInformation v (b0 :: b1 :: b2 :: l)).words = airborneError [0x78, b1, b2, 0, 0, 0, 0] :=
  (words_tail fun _ => words_pure _).trans (same_words_airborneError _)
theorem words_identification (v : UInt8) (d : List UInt8) :
    (Said.adsb.aircraft_identification_and_category.ReadAircraftIdentificationAndCategory v d).words = identificationError d :=
  (words_tail fun _ => words_pure _).trans (same_words_identificationError _)
theorem words_velocity (v : UInt8) (d : List UInt8) : (Said.adsb.airborne_velocity.ReadAirborneVelocity v d).words = velocityError d :=
  (words_tail fun _ => words_pure _).trans (same_words_velocityError _)
theorem words_status (v : UInt8) (d : List UInt8) : (Said.adsb.aircraft_status.ReadAircraftStatus v d).words = statusError d :=
  (words_tail fun _ => words_pure _).trans (same_words_statusError _)
theorem words_targetState (v : UInt8) (d : List UInt8) :
    (Said.adsb.target_state_and_status.ReadTargetStateAndStatus v d).words = targetStateError d :=
  (words_tail fun _ => words_pure _).trans (same_words_targetStateError _)
theorem words_operational (v : UInt8) (d : List UInt8) :
    (Said.adsb.aircraft_operational_status.ReadAircraftOperationalStatus v d).words = operationalError d :=
  (words_tail fun _ => words_pure _).trans (same_words_operationalError _)

/-- `reader.ReadADSBMessage`, for the ADS-B levels there are: the words of the code are those of the model. -/
theorem same_words_adsbError (v : UInt8) (hv : v.toNat ≤ 2) (a c : Bool) (d : List UInt8) :
    (Said.adsb.reader.ReadADSBMessage v a c d).words = adsbError d := by
  by_cases h7 : d.length = 7
  swap
  · unfold Said.adsb.reader.ReadADSBMessage adsbError; rw [if_pos h7, if_pos h7]; rfl
  have hv' : v = 0 ∨ v = 1 ∨ v = 2 := by
    rcases (show v.toNat = 0 ∨ v.toNat = 1 ∨ v.toNat = 2 by omega) with e | e | e
    · exact Or.inl (UInt8.toNat_inj.1 e)
    · exact Or.inr (Or.inl (UInt8.toNat_inj.1 e))
    · exact Or.inr (Or.inr (UInt8.toNat_inj.1 e))
  obtain ⟨b0, b1, b2, b3, b4, b5, b6, rfl⟩ := list7 d h7
  have hb : (b0 &&& 248) >>> 3 ≠ 0 → b0 ≠ 0 := fun h e => h (by rw [e]; rfl)
  obtain ⟨x, hid⟩ : ∃ x, identificationError [b0, b1, b2, b3, b4, b5, b6] =
      if (b0 &&& 248) >>> 3 < 1 ∨ (b0 &&& 248) >>> 3 > 4 then some x else none := by
    unfold identificationError; rw [if_neg seven]; exact ⟨_, rfl⟩
  obtain ⟨y, hsu⟩ : ∃ y, surfacePositionError v [b0, b1, b2, b3, b4, b5, b6] =
      if (b0 &&& 248) >>> 3 < 5 ∨ (b0 &&& 248) >>> 3 > 8 then some y else none := by
    unfold surfacePositionError surfaceError; rw [if_pos hv', if_neg seven]; exact ⟨_, rfl⟩
  have hai : b0 ≠ 0 → airbornePositionError v [b0, b1, b2, b3, b4, b5, b6] = airborneError [b0, b1, b2, b3, b4, b5, b6] := by
    intro h; unfold airbornePositionError; rw [at7_0, if_neg h, if_pos hv']
  have hpos := same_words_airbornePositionError v [b0, b1, b2, b3, b4, b5, b6] a (by simp) (fun _ => by simp)
  simp only [Said.adsb.reader.ReadADSBMessage, adsbError, seven, if_false, at7_0, at7_1, at7_2, at7_3, at7_4, at7_5, at7_6, idx7_0, idx7_2, idx7_3,
    idx7_4, idx7_5, idx7_6, lift_ok, go_bind_ok, go_pure, andGo_ok, words_ite, say_bind, pure_bind, words_noPosition, words_identification, words_velocity, words_status,
    words_targetState, words_operational, same_words_surfacePositionError, hpos, words_say,
    words_positionType0 v [b0, b1, b2, b3, b4, b5, b6] (by simp)]
  have hlt : ((b0 &&& 248) >>> 3).toNat < 32 := by byte_omega
  generalize (b0 &&& 248) >>> 3 = tc at hb hid hsu hlt ⊢
  obtain ⟨n, hn, rfl⟩ : ∃ n, n < 32 ∧ tc = UInt8.ofNat n := ⟨tc.toNat, hlt, by simp⟩
  rcases Nat.eq_zero_or_pos n with rfl | hpos0
  · simp [and_assoc]; congr
  rw [hid, hsu, hai (hb ?_)]
  clear hid hsu hai hpos hb hlt hv' hv
  · interval_cases n <;> simp
  · interval_cases n <;> simp

/-! ### Mode S -/

theorem words_saying {α : Type} {w : Txt} {s : Saying α} {r : Go α} (he : s.erase = r) (hp : r ≠ .error .panic) :
    (∃ a, r = .ok a ∧ (saying w s).words = none) ∨ (r = .error .err ∧ (saying w s).words = some w) := by
  subst he
  rcases s with (x | _) | a
  · exact Or.inr ⟨rfl, rfl⟩
  · exact absurd rfl hp
  · exact Or.inl ⟨a, rfl, rfl⟩
theorem erase_altitude (m : MessageData) : (Said.modes.fields.ReadAltitude m).erase = readAltitude m :=
  (erase_modes.fields.ReadAltitude m).trans (by simp only [translated])

theorem nopanic_pure {α : Type} (a : α) : (pure a : Go α) ≠ .error .panic := nofun
theorem nopanic_ite {α : Type} {c : Prop} {i : Decidable c} {a b : Go α} (h1 : a ≠ .error .panic) (h2 : b ≠ .error .panic) :
    @ite _ c i a b ≠ .error .panic := by split <;> assumption
theorem gillham_nopanic (d1 d2 d4 a1 a2 a4 b1 b2 b4 c1 c2 c4 : Bool) :
    gillhamToAltitude d1 d2 d4 a1 a2 a4 b1 b2 b4 c1 c2 c4 ≠ .error .panic := gillham_noPanic ⟨d1, d2, d4, a1, a2, a4, b1, b2, b4, c1, c2, c4⟩
theorem altitude_noPanic (m : MessageData) (h : 3 ≤ m.payload.length) : readAltitude m ≠ .error .panic := by
  obtain ⟨df, ff, pl, pa⟩ := m
  obtain ⟨p0, p1, p2, l, rfl⟩ : ∃ p0 p1 p2 l, pl = p0 :: p1 :: p2 :: l := by
    match pl, h with
    | p0 :: p1 :: p2 :: l, _ => exact ⟨p0, p1, p2, l, rfl⟩
  unfold readAltitude
  have e1 : idx (p0 :: p1 :: p2 :: l) 1 = .ok p1 := rfl
  have e2 : idx (p0 :: p1 :: p2 :: l) 2 = .ok p2 := rfl
  simp only [e1, e2, go_bind_ok]
  refine nopanic_ite (nopanic_pure _) (nopanic_ite (nopanic_pure _) (nopanic_ite (nopanic_pure _) ?_))
  split
  · next h => exact absurd h (gillham_nopanic _ _ _ _ _ _ _ _ _ _ _ _)
  · exact nofun
  · exact nopanic_pure _
theorem noerr_setIdx {α : Type} (s : List α) (i : Nat) (v : α) : NoErr (setIdx s i v) := by unfold setIdx; split <;> exact nofun
macro "word_walk" : tactic => `(tactic|
  (repeat' (first
    | with_reducible exact words_pure _
    | with_reducible exact noerr_pure _
    | with_reducible exact noerr_idx _ _
    | with_reducible exact noerr_setIdx _ _ _
    | with_reducible refine words_read ?_ fun _ => ?_
    | with_reducible refine noerr_bind ?_ fun _ => ?_
    | with_reducible refine noerr_ite ?_ ?_)))

/-- `ParseDF0`: the words of the code are those of the model. -/
theorem same_words_parseDF0Error (m : MessageData) : (Said.modes.messages.ParseDF0 m).words = parseDF0Error m := by
  unfold Said.modes.messages.ParseDF0 parseDF0Error parserError altitudeFormatError
  by_cases hf : m.downLinkFormat = 0
  swap
  · rw [if_pos hf, if_pos hf]; rfl
  rw [if_neg (not_not.2 hf), if_neg (not_not.2 hf)]
  by_cases hl : m.payload.length = 3
  swap
  · simp only [pure_bind]; rw [if_pos hl, if_pos hl]; rfl
  simp only [pure_bind]
  rw [if_neg (not_not.2 hl), if_neg (not_not.2 hl)]
  refine (words_tail fun _ => ?_).trans ?_
  · simp only [Gen.modes.fields.ReadReplyInformationAirAir, Gen.modes.fields.ReadSensitivityLevelReport]
    word_walk
  · rcases words_saying (w := t! "the field Altitude is not readable") (erase_altitude m) (altitude_noPanic m (by omega)) with ⟨a, e1, e2⟩ | ⟨e1, e2⟩ <;>
      rw [e1, e2]

/-- `ParseDF4`: the words of the code are those of the model. -/
theorem same_words_parseDF4Error (m : MessageData) : (Said.modes.messages.ParseDF4 m).words = parseDF4Error m := by
  unfold Said.modes.messages.ParseDF4 parseDF4Error parserError altitudeFormatError
  by_cases hf : m.downLinkFormat = 4
  swap
  · rw [if_pos hf, if_pos hf]; rfl
  rw [if_neg (not_not.2 hf), if_neg (not_not.2 hf)]
  by_cases hl : m.payload.length = 3
  swap
  · simp only [pure_bind]; rw [if_pos hl, if_pos hl]; rfl
  simp only [pure_bind]
  rw [if_neg (not_not.2 hl), if_neg (not_not.2 hl)]
  refine (words_tail fun _ => ?_).trans ?_
  · simp only [Gen.modes.fields.ReadDownlinkRequest, Gen.modes.fields.ReadUtilityMessage]
    word_walk
  · rcases words_saying (w := t! "the field Altitude is not readable") (erase_altitude m) (altitude_noPanic m (by omega)) with ⟨a, e1, e2⟩ | ⟨e1, e2⟩ <;>
      rw [e1, e2]

/-- `ParseDF5`: the words of the code are those of the model. -/
theorem same_words_parseDF5Error (m : MessageData) : (Said.modes.messages.ParseDF5 m).words = parseDF5Error m := by
  unfold Said.modes.messages.ParseDF5 parseDF5Error parserError plainFormatError
  by_cases hf : m.downLinkFormat = 5
  swap
  · rw [if_pos hf, if_pos hf]; rfl
  rw [if_neg (not_not.2 hf), if_neg (not_not.2 hf)]
  by_cases hl : m.payload.length = 3
  swap
  · simp only [pure_bind]; rw [if_pos hl, if_pos hl]; rfl
  simp only [pure_bind]
  rw [if_neg (not_not.2 hl), if_neg (not_not.2 hl)]
  simp only [Gen.modes.fields.ReadDownlinkRequest, Gen.modes.fields.ReadIdentity, Gen.modes.fields.ReadUtilityMessage]
  word_walk

/-- `ParseDF11`: the words of the code are those of the model. -/
theorem same_words_parseDF11Error (m : MessageData) : (Said.modes.messages.ParseDF11 m).words = parseDF11Error m := by
  unfold Said.modes.messages.ParseDF11 parseDF11Error parserError plainFormatError
  by_cases hf : m.downLinkFormat = 11
  swap
  · rw [if_pos hf, if_pos hf]; rfl
  rw [if_neg (not_not.2 hf), if_neg (not_not.2 hf)]
  by_cases hl : m.payload.length = 3
  swap
  · simp only [pure_bind]; rw [if_pos hl, if_pos hl]; rfl
  simp only [pure_bind]
  rw [if_neg (not_not.2 hl), if_neg (not_not.2 hl)]
  simp only [Gen.modes.fields.ReadAddressAnnounced]
  word_walk

/-- `ParseDF16`: the words of the code are those of the model. -/
theorem same_words_parseDF16Error (m : MessageData) : (Said.modes.messages.ParseDF16 m).words = parseDF16Error m := by
  unfold Said.modes.messages.ParseDF16 parseDF16Error parserError altitudeFormatError
  by_cases hf : m.downLinkFormat = 16
  swap
  · rw [if_pos hf, if_pos hf]; rfl
  rw [if_neg (not_not.2 hf), if_neg (not_not.2 hf)]
  by_cases hl : m.payload.length = 10
  swap
  · simp only [pure_bind]; rw [if_pos hl, if_pos hl]; rfl
  simp only [pure_bind]
  rw [if_neg (not_not.2 hl), if_neg (not_not.2 hl)]
  refine (words_tail fun _ => ?_).trans ?_
  · simp only [Gen.modes.fields.ReadMessageACAS, Gen.modes.fields.ReadReplyInformationAirAir, Gen.modes.fields.ReadSensitivityLevelReport]
    word_walk
  · rcases words_saying (w := t! "the field Altitude is not readable") (erase_altitude m) (altitude_noPanic m (by omega)) with ⟨a, e1, e2⟩ | ⟨e1, e2⟩ <;>
      rw [e1, e2]

/-- `ParseDF17`: the words of the code are those of the model. -/
theorem same_words_parseDF17Error (m : MessageData) : (Said.modes.messages.ParseDF17 m).words = parseDF17Error m := by
  unfold Said.modes.messages.ParseDF17 parseDF17Error parserError plainFormatError
  by_cases hf : m.downLinkFormat = 17
  swap
  · rw [if_pos hf, if_pos hf]; rfl
  rw [if_neg (not_not.2 hf), if_neg (not_not.2 hf)]
  by_cases hl : m.payload.length = 10
  swap
  · simp only [pure_bind]; rw [if_pos hl, if_pos hl]; rfl
  simp only [pure_bind]
  rw [if_neg (not_not.2 hl), if_neg (not_not.2 hl)]
  simp only [Gen.modes.fields.ReadAddressAnnounced, Gen.modes.fields.ReadMessageExtendedSquitter]
  word_walk

/-- `ParseDF18`: the words of the code are those of the model. -/
theorem same_words_parseDF18Error (m : MessageData) : (Said.modes.messages.ParseDF18 m).words = parseDF18Error m := by
  unfold Said.modes.messages.ParseDF18 parseDF18Error parserError plainFormatError
  by_cases hf : m.downLinkFormat = 18
  swap
  · rw [if_pos hf, if_pos hf]; rfl
  rw [if_neg (not_not.2 hf), if_neg (not_not.2 hf)]
  by_cases hl : m.payload.length = 10
  swap
  · simp only [pure_bind]; rw [if_pos hl, if_pos hl]; rfl
  simp only [pure_bind]
  rw [if_neg (not_not.2 hl), if_neg (not_not.2 hl)]
  simp only [Gen.modes.fields.ReadAddressAnnounced, Gen.modes.fields.ReadMessageExtendedSquitter]
  word_walk

/-- `ParseDF19`: the words of the code are those of the model. -/
theorem same_words_parseDF19Error (m : MessageData) : (Said.modes.messages.ParseDF19 m).words = parseDF19Error m := by
  unfold Said.modes.messages.ParseDF19 parseDF19Error parserError plainFormatError
  by_cases hf : m.downLinkFormat = 19
  swap
  · rw [if_pos hf, if_pos hf]; rfl
  rw [if_neg (not_not.2 hf), if_neg (not_not.2 hf)]
  by_cases hl : m.payload.length = 10
  swap
  · simp only [pure_bind]; rw [if_pos hl, if_pos hl]; rfl
  simp only [pure_bind]
  rw [if_neg (not_not.2 hl), if_neg (not_not.2 hl)]

  word_walk

/-- `ParseDF20`: the words of the code are those of the model. -/
theorem same_words_parseDF20Error (m : MessageData) : (Said.modes.messages.ParseDF20 m).words = parseDF20Error m := by
  unfold Said.modes.messages.ParseDF20 parseDF20Error parserError altitudeFormatError
  by_cases hf : m.downLinkFormat = 20
  swap
  · rw [if_pos hf, if_pos hf]; rfl
  rw [if_neg (not_not.2 hf), if_neg (not_not.2 hf)]
  by_cases hl : m.payload.length = 10
  swap
  · simp only [pure_bind]; rw [if_pos hl, if_pos hl]; rfl
  simp only [pure_bind]
  rw [if_neg (not_not.2 hl), if_neg (not_not.2 hl)]
  refine (words_tail fun _ => ?_).trans ?_
  · simp only [Gen.modes.fields.ReadDownlinkRequest, Gen.modes.fields.ReadMessageCommB, Gen.modes.fields.ReadUtilityMessage]
    word_walk
  · rcases words_saying (w := t! "the field Altitude is not readable") (erase_altitude m) (altitude_noPanic m (by omega)) with ⟨a, e1, e2⟩ | ⟨e1, e2⟩ <;>
      rw [e1, e2]

/-- `ParseDF21`: the words of the code are those of the model. -/
theorem same_words_parseDF21Error (m : MessageData) : (Said.modes.messages.ParseDF21 m).words = parseDF21Error m := by
  unfold Said.modes.messages.ParseDF21 parseDF21Error parserError plainFormatError
  by_cases hf : m.downLinkFormat = 21
  swap
  · rw [if_pos hf, if_pos hf]; rfl
  rw [if_neg (not_not.2 hf), if_neg (not_not.2 hf)]
  by_cases hl : m.payload.length = 10
  swap
  · simp only [pure_bind]; rw [if_pos hl, if_pos hl]; rfl
  simp only [pure_bind]
  rw [if_neg (not_not.2 hl), if_neg (not_not.2 hl)]
  simp only [Gen.modes.fields.ReadDownlinkRequest, Gen.modes.fields.ReadIdentity, Gen.modes.fields.ReadMessageCommB, Gen.modes.fields.ReadUtilityMessage]
  word_walk

/-- `ParseDF24`: the words of the code are those of the model. -/
theorem same_words_parseDF24Error (m : MessageData) : (Said.modes.messages.ParseDF24 m).words = parseDF24Error m := by
  unfold Said.modes.messages.ParseDF24 parseDF24Error plainFormatError
  by_cases hf : m.downLinkFormat &&& 24 = 24
  swap
  · rw [if_pos hf, if_pos hf]; rfl
  rw [if_neg (not_not.2 hf), if_neg (not_not.2 hf)]
  by_cases hl : m.payload.length = 10
  swap
  · simp only [pure_bind]; rw [if_pos hl, if_pos hl]; rfl
  simp only [pure_bind]
  rw [if_neg (not_not.2 hl), if_neg (not_not.2 hl)]
  simp only [Gen.modes.fields.ReadMessageCommD]
  word_walk

theorem words_map {α β : Type} {s : Saying α} (f : α → β) : (s >>= fun a => pure (f a)).words = s.words := words_tail fun _ => rfl

/-- The part of `ReadMessage` that chooses the parser. -/
def saidParse (messageData : MessageData) : Saying ModeSMessage := do
  if messageData.downLinkFormat = 0 then
    let modeS ← Said.modes.messages.ParseDF0 messageData
    return ModeSMessage.df0 modeS
  else
    if messageData.downLinkFormat = 4 then
      let modeS ← Said.modes.messages.ParseDF4 messageData
      return ModeSMessage.df4 modeS
    else
      if messageData.downLinkFormat = 5 then
        let modeS ← Said.modes.messages.ParseDF5 messageData
        return ModeSMessage.df5 modeS
      else
        if messageData.downLinkFormat = 11 then
          let modeS ← Said.modes.messages.ParseDF11 messageData
          return ModeSMessage.df11 modeS
        else
          if messageData.downLinkFormat = 16 then
            let modeS ← Said.modes.messages.ParseDF16 messageData
            return ModeSMessage.df16 modeS
          else
            if messageData.downLinkFormat = 17 then
              let modeS ← Said.modes.messages.ParseDF17 messageData
              return ModeSMessage.df17 modeS
            else
              if messageData.downLinkFormat = 18 then
                let modeS ← Said.modes.messages.ParseDF18 messageData
                return ModeSMessage.df18 modeS
              else
                if messageData.downLinkFormat = 19 then
                  let modeS ← Said.modes.messages.ParseDF19 messageData
                  return ModeSMessage.df19 modeS
                else
                  if messageData.downLinkFormat = 20 then
                    let modeS ← Said.modes.messages.ParseDF20 messageData
                    return ModeSMessage.df20 modeS
                  else
                    if messageData.downLinkFormat = 21 then
                      let modeS ← Said.modes.messages.ParseDF21 messageData
                      return ModeSMessage.df21 modeS
                    else
                      if ((((((messageData.downLinkFormat = 24 ∨ messageData.downLinkFormat = 25) ∨ messageData.downLinkFormat = 26) ∨ messageData.downLinkFormat = 27) ∨ messageData.downLinkFormat = 28) ∨ messageData.downLinkFormat = 29) ∨ messageData.downLinkFormat = 30) ∨ messageData.downLinkFormat = 31 then
                        let modeS ← Said.modes.messages.ParseDF24 messageData
                        return ModeSMessage.df24 modeS
                      else
                        say (t! "the downlink format " ++ dec messageData.downLinkFormat.toNat ++ t! " is not supported")

theorem words_saidParse (m : MessageData) (h : m.downLinkFormat.toNat < 32) :
    (saidParse m).words = match m.downLinkFormat.toNat with
    | 0 => altitudeFormatError 0 7 3 m
    | 4 => altitudeFormatError 4 7 3 m
    | 5 => plainFormatError 5 7 3 m
    | 11 => plainFormatError 11 7 3 m
    | 16 => altitudeFormatError 16 14 10 m
    | 17 => plainFormatError 17 14 10 m
    | 18 => plainFormatError 18 14 10 m
    | 19 => plainFormatError 19 14 10 m
    | 20 => altitudeFormatError 20 14 10 m
    | 21 => plainFormatError 21 14 10 m
    | 24 | 25 | 26 | 27 | 28 | 29 | 30 | 31 => plainFormatError 24 14 10 m
    | n => some (t! "the downlink format " ++ dec n ++ t! " is not supported") := by
  unfold saidParse
  simp only [words_ite, words_map, words_say, same_words_parseDF0Error, same_words_parseDF4Error, same_words_parseDF5Error, same_words_parseDF11Error, same_words_parseDF16Error, same_words_parseDF17Error, same_words_parseDF18Error, same_words_parseDF19Error, same_words_parseDF20Error, same_words_parseDF21Error, same_words_parseDF24Error]
  obtain ⟨df, ff, pl, pa⟩ := m
  obtain ⟨n, hn, rfl⟩ : ∃ n, n < 32 ∧ df = UInt8.ofNat n := ⟨df.toNat, h, by simp⟩
  clear h
  interval_cases n <;> simp [parserError, parseDF0Error, parseDF4Error, parseDF5Error, parseDF11Error, parseDF16Error, parseDF17Error, parseDF18Error, parseDF19Error, parseDF20Error, parseDF21Error, parseDF24Error] <;> exact fun h => absurd (by decide) h

/-- `reader.ReadMessage`: the words of the code are those of the model. -/
theorem same_words_frameError (f : List UInt8) : (Said.modes.reader.ReadMessage f).words = frameError f := by
  by_cases hl : f.length ≠ 7 ∧ f.length ≠ 14
  · unfold Said.modes.reader.ReadMessage frameError; rw [if_pos hl, if_pos hl]; rfl
  have key : ∃ b0 : UInt8, byteAt f 0 = b0 ∧ idx f 0 = .ok b0 ∧ sliceI f 1 ((f.length : Int) - 3) = .ok ((f.take (f.length - 3)).drop 1) ∧
      sliceFromI f ((f.length : Int) - 3) = .ok (f.drop (f.length - 3)) := by
    rcases (show f.length = 7 ∨ f.length = 14 by omega) with h | h
    · obtain ⟨b0, b1, b2, b3, b4, b5, b6, rfl⟩ := list7 f h
      exact ⟨b0, rfl, rfl, rfl, rfl⟩
    · obtain ⟨b0, b1, b2, b3, b4, b5, b6, b7, b8, b9, b10, b11, b12, b13, rfl⟩ := list14 f h
      exact ⟨b0, rfl, rfl, rfl, rfl⟩
  obtain ⟨b0, k0, k1, k2, k3⟩ := key
  have e : Said.modes.reader.ReadMessage f = saidParse ⟨(b0 &&& 248) >>> 3, b0 &&& 7, (f.take (f.length - 3)).drop 1, f.drop (f.length - 3)⟩ := by
    unfold Said.modes.reader.ReadMessage saidParse
    rw [if_neg hl]
    simp only [pure_bind, k1, k2, k3, lift_ok]
  rw [e, words_saidParse _ (by byte_omega)]
  unfold frameError
  rw [if_neg hl]
  simp only [k0]
  rfl

/-! ### The parity -/

theorem noerr_sliceTo {α : Type} (s : List α) (i : Nat) : NoErr (sliceTo s i) := by unfold sliceTo; split <;> exact nofun
theorem noerr_sliceToI {α : Type} (s : List α) (i : Int) : NoErr (sliceToI s i) := by
  unfold sliceToI; split
  · exact nofun
  · exact noerr_sliceTo _ _
theorem noerr_idxI {α : Type} (s : List α) (i : Int) : NoErr (idxI s i) := by
  unfold idxI; split
  · exact nofun
  · exact noerr_idx _ _
theorem noerr_parity (s : List UInt8) : NoErr (Gen.modes.reader.computeParity s) := by
  rw [same_computeParity]; unfold computeParity
  only_walk

theorem only_crc11 (d : List UInt8) (il : AllowList) :
    OnlySays (t! "the message parity resolves to an unknown Interrogator Identifier") (Said.modes.reader.checkCRCDF11 d il) := by
  unfold Said.modes.reader.checkCRCDF11
  repeat' (first
    | with_reducible exact noerr_parity _
    | with_reducible exact noerr_sliceTo _ _
    | with_reducible exact only_pure _
    | with_reducible exact only_say
    | with_reducible exact noerr_idx _ _
    | with_reducible refine only_lift ?_
    | with_reducible refine only_bind ?_ fun _ => ?_
    | with_reducible refine only_ite ?_ ?_)
theorem only_crc17 (d : List UInt8) : OnlySays (t! "the message does not have a valid CRC") (Said.modes.reader.checkCRCDF17And18 d) := by
  unfold Said.modes.reader.checkCRCDF17And18
  repeat' (first
    | with_reducible exact noerr_parity _
    | with_reducible exact noerr_sliceTo _ _
    | with_reducible exact only_pure _
    | with_reducible exact only_say
    | with_reducible exact noerr_idx _ _
    | with_reducible refine only_lift ?_
    | with_reducible refine only_bind ?_ fun _ => ?_
    | with_reducible refine only_ite ?_ ?_)
theorem only_crcOther (d : List UInt8) (al : AllowList) :
    OnlySays (t! "the message parity resolves to an unknown Address") (Said.modes.reader.checkCRCOther d al) := by
  unfold Said.modes.reader.checkCRCOther
  repeat' (first
    | with_reducible exact noerr_parity _
    | with_reducible exact noerr_sliceToI _ _
    | with_reducible exact noerr_idxI _ _
    | with_reducible exact only_pure _
    | with_reducible exact only_say
    | with_reducible refine only_lift ?_
    | with_reducible refine only_bind ?_ fun _ => ?_
    | with_reducible refine only_ite ?_ ?_)

/-- `reader.CheckCRC`, when it does not panic: the words of the code are those of the model. -/
theorem same_words_crcError (m : ModeSMessage) (d : List UInt8) (al il : AllowList) (hp : checkCRC m d al il ≠ .error .panic) :
    (Said.modes.reader.CheckCRC m d al il).words = crcError m d al il := by
  have he : (Said.modes.reader.CheckCRC m d al il).erase = checkCRC m d al il :=
    (erase_modes.reader.CheckCRC m d al il).trans (same_CheckCRC m d al il)
  have ho : OnlySays (parityErrorText m) (Said.modes.reader.CheckCRC m d al il) := by
    unfold Said.modes.reader.CheckCRC parityErrorText
    simp only [same_GetDownLinkFormat]
    generalize m.getDownLinkFormat = tag
    split
    · exact only_crc11 d il
    · exact only_crc17 d
    · exact only_crc17 d
    · next h1 h2 h3 =>
      rw [if_neg (fun e => h1 (by exact_mod_cast e)), if_neg (fun e => e.elim (fun e => h2 (by exact_mod_cast e)) (fun e => h3 (by exact_mod_cast e)))]
      exact only_crcOther d al
  unfold crcError
  rcases only_same he hp ho with ⟨a, e1, e2⟩ | ⟨e1, e2⟩ <;> rw [e1, e2]

/-! ### The readers that try several registers -/

theorem told_cases {α : Type} {s : Saying α} {r : Go α} {e : Option Txt} (he : s.erase = r) (hn : e = none ↔ Succeeds r) (hw : s.words = e) :
    (∃ a, s = .ok a ∧ e = none) ∨ (∃ t, s = say t ∧ e = some t) := by
  subst he hw
  rcases s with (x | _) | a
  · exact Or.inr ⟨x, rfl, rfl⟩
  · obtain ⟨a, ha⟩ := hn.1 rfl
    cases ha
  · exact Or.inl ⟨a, rfl, rfl⟩

theorem erase_bds.bds44.ReadMeteorologicalRoutineAirReport (d : List UInt8) :
    erase (Said.bds.bds44.ReadMeteorologicalRoutineAirReport d) = Gen.bds.bds44.ReadMeteorologicalRoutineAirReport d := by
  unfold Said.bds.bds44.ReadMeteorologicalRoutineAirReport Gen.bds.bds44.ReadMeteorologicalRoutineAirReport
  simp only [erase_bind, erase_pure, erase_say, erase_lift, erase_ite, erase_attempt, erase_bds.bds44.ReadMeteorologicalRoutineAirReportV1,
    erase_bds.bds44.ReadMeteorologicalRoutineAirReportV2]
  refine go_ite_congr Iff.rfl rfl ?_
  refine go_bind_congr _ fun _ => ?_
  refine go_ite_congr Iff.rfl ?_ rfl
  refine go_bind_congr _ fun o => ?_
  cases o
  · simp only [erase_bind, erase_pure, erase_bds.bds44.ReadMeteorologicalRoutineAirReportV0]
  · rfl

theorem erase_attemptWords {α β : Type} (x : Saying α) (f : α → Saying β) (g : Txt → Saying β) :
    erase (attemptWords x >>= fun r => match r with | .ok a => f a | .error t => g t) =
      match x with | .ok a => erase (f a) | .error (.err t) => erase (g t) | .error .panic => .error .panic := by
  rcases x with (_ | _) | _ <;> rfl

theorem erase_bds.bds45.ReadMeteorologicalHazardReport (d : List UInt8) :
    erase (Said.bds.bds45.ReadMeteorologicalHazardReport d) = Gen.bds.bds45.ReadMeteorologicalHazardReport d := by
  unfold Said.bds.bds45.ReadMeteorologicalHazardReport Gen.bds.bds45.ReadMeteorologicalHazardReport
  rw [← erase_bds.bds45.ReadMeteorologicalHazardReportV1, ← erase_bds.bds45.ReadMeteorologicalHazardReportV0]
  split
  · rfl
  · generalize Said.bds.bds45.ReadMeteorologicalHazardReportV1 d = x
    generalize Said.bds.bds45.ReadMeteorologicalHazardReportV0 d = y
    rcases x with (_ | _) | _ <;> rcases y with (_ | _) | _ <;> rfl

theorem erase_filter {α : Type} (o : Option α) (f : α → Saying Unit) :
    o.filter (fun m => saysNothing (f m)) = o.filter (fun m => returnsNil (erase (f m))) := by simp only [saysNothing_eq]

theorem erase_commb.ReadCommBMessage (d : List UInt8) : erase (Said.commb.ReadCommBMessage d) = Gen.commb.ReadCommBMessage d := by
  unfold Said.commb.ReadCommBMessage Gen.commb.ReadCommBMessage
  simp only [erase_bind, erase_pure, erase_say, erase_ite, erase_attempt, erase_bds.bds00.ReadNoMessageAvailable, erase_bds.bds07.ReadStatus, erase_bds.bds20.ReadAircraftIdentification, erase_bds.bds10.ReadDataLinkCapabilityReport, erase_bds.bds17.ReadCommonUsageGICBCapabilityReport, erase_bds.bds30.ReadACASResolutionAdvisory, erase_bds.bds40.ReadSelectedVerticalIntention, erase_bds.bds44.ReadMeteorologicalRoutineAirReport, erase_bds.bds45.ReadMeteorologicalHazardReport, erase_bds.bds50.ReadTrackAndTurnReport, erase_bds.bds60.ReadHeadingAndSpeedReport, erase_bds.Message.CheckCoherency]
  refine go_ite_congr Iff.rfl rfl ?_
  refine go_bind_congr _ fun o => ?_
  cases o with
  | some _ => rfl
  | none =>
    simp only [erase_bind, erase_pure, erase_attempt, saysNothing_eq, erase_bds.bds00.ReadNoMessageAvailable, erase_bds.bds07.ReadStatus, erase_bds.bds20.ReadAircraftIdentification, erase_bds.bds10.ReadDataLinkCapabilityReport, erase_bds.bds17.ReadCommonUsageGICBCapabilityReport, erase_bds.bds30.ReadACASResolutionAdvisory, erase_bds.bds40.ReadSelectedVerticalIntention, erase_bds.bds44.ReadMeteorologicalRoutineAirReport, erase_bds.bds45.ReadMeteorologicalHazardReport, erase_bds.bds50.ReadTrackAndTurnReport, erase_bds.bds60.ReadHeadingAndSpeedReport, erase_bds.Message.CheckCoherency]
    refine go_bind_congr _ fun o => ?_
    generalize Option.filter _ o = q
    cases q with
    | some _ => rfl
    | none =>
      simp only [erase_bind, erase_pure, erase_attempt, saysNothing_eq, erase_bds.bds00.ReadNoMessageAvailable, erase_bds.bds07.ReadStatus, erase_bds.bds20.ReadAircraftIdentification, erase_bds.bds10.ReadDataLinkCapabilityReport, erase_bds.bds17.ReadCommonUsageGICBCapabilityReport, erase_bds.bds30.ReadACASResolutionAdvisory, erase_bds.bds40.ReadSelectedVerticalIntention, erase_bds.bds44.ReadMeteorologicalRoutineAirReport, erase_bds.bds45.ReadMeteorologicalHazardReport, erase_bds.bds50.ReadTrackAndTurnReport, erase_bds.bds60.ReadHeadingAndSpeedReport, erase_bds.Message.CheckCoherency]
      refine go_bind_congr _ fun o => ?_
      generalize Option.filter _ o = q
      cases q with
      | some _ => rfl
      | none =>
        simp only [erase_bind, erase_pure, erase_attempt, erase_foldlM, erase_ite, saysNothing_eq, erase_bds.bds00.ReadNoMessageAvailable, erase_bds.bds07.ReadStatus, erase_bds.bds20.ReadAircraftIdentification, erase_bds.bds10.ReadDataLinkCapabilityReport, erase_bds.bds17.ReadCommonUsageGICBCapabilityReport, erase_bds.bds30.ReadACASResolutionAdvisory, erase_bds.bds40.ReadSelectedVerticalIntention, erase_bds.bds44.ReadMeteorologicalRoutineAirReport, erase_bds.bds45.ReadMeteorologicalHazardReport, erase_bds.bds50.ReadTrackAndTurnReport, erase_bds.bds60.ReadHeadingAndSpeedReport, erase_bds.Message.CheckCoherency]
        rfl

/-- `bds44.ReadMeteorologicalRoutineAirReport`: the words of the code are those of the model. -/
theorem same_words_bds44Error (d : List UInt8) : (Said.bds.bds44.ReadMeteorologicalRoutineAirReport d).words = bds44Error d := by
  by_cases h7 : d.length = 7
  swap
  · unfold Said.bds.bds44.ReadMeteorologicalRoutineAirReport bds44Error
    rw [if_pos h7, if_pos h7]; rfl
  obtain ⟨b0, b1, b2, b3, b4, b5, b6, rfl⟩ := list7 d h7
  simp only [Said.bds.bds44.ReadMeteorologicalRoutineAirReport, bds44Error, seven, if_false, Gen.bds.bds44.fields.ReadSource, idx7_0, at7_0,
    go_bind_ok, go_pure, pure_bind, lift_ok, or_assoc, words_ite, words_say, words_map, same_words_bds44V1Error]
  have k2 := told_cases ((erase_bds.bds44.ReadMeteorologicalRoutineAirReportV2 [b0, b1, b2, b3, b4, b5, b6]).trans (by simp only [translated]))
    (bds44V_reason _).2.2.1 (same_words_bds44V2Error _)
  refine if_congr Iff.rfl ?_ rfl
  rcases k2 with ⟨a, e1, e2⟩ | ⟨t, e1, e2⟩
  · rw [e1, e2, if_pos rfl]; rfl
  · rw [e1, e2, if_neg nofun]
    refine Eq.trans (show _ = (Said.bds.bds44.ReadMeteorologicalRoutineAirReportV0 [b0, b1, b2, b3, b4, b5, b6] >>= fun m =>
      pure (RoutineAirReport.v0 m)).words from rfl) ?_
    exact (words_map _).trans (same_words_bds44V0Error _)

/-- `bds45.ReadMeteorologicalHazardReport`: the words of the code are those of the model. -/
theorem same_words_bds45Error (d : List UInt8) : (Said.bds.bds45.ReadMeteorologicalHazardReport d).words = bds45Error d := by
  unfold Said.bds.bds45.ReadMeteorologicalHazardReport bds45Error
  by_cases h7 : d.length = 7
  swap
  · rw [if_pos h7, if_pos h7]; rfl
  rw [if_neg (not_not.2 h7), if_neg (not_not.2 h7)]
  simp only [pure_bind]
  rcases told_cases ((erase_bds.bds45.ReadMeteorologicalHazardReportV1 d).trans (by simp only [translated]))
    (bds45_reason _).2.1.1 (same_words_bds45V1Error d) with ⟨a, e1, e2⟩ | ⟨t, e1, e2⟩
  · rw [e1, e2, if_pos rfl]; rfl
  · rw [e1, e2, if_neg nofun]
    rcases told_cases ((erase_bds.bds45.ReadMeteorologicalHazardReportV0 d).trans (by simp only [translated]))
      (bds45_reason _).1.1 (same_words_bds45V0Error d) with ⟨a, e3, e4⟩ | ⟨t, e3, e4⟩
    · rw [e3, e4]; rfl
    · rw [e3, e4]; rfl

theorem words_attempt {α β : Type} {s : Saying α} {f : Option α → Saying β} (h : ∀ o, (f o).words = none) : (attemptSaid s >>= f).words = none := by
  rcases s with (_ | _) | _
  · exact h none
  · rfl
  · exact h (some _)
theorem words_fold {α β : Type} (f : β → α → β) (l : List α) (b : β) : (l.foldlM (fun b a => (pure (f b a) : Saying β)) b).words = none := by
  induction l generalizing b with
  | nil => rfl
  | cons a l ih => exact ih (f b a)

/-- `commb.ReadCommBMessage`: the words of the code are those of the model. -/
theorem same_words_commBError (d : List UInt8) : (Said.commb.ReadCommBMessage d).words = commBError d := by
  unfold Said.commb.ReadCommBMessage commBError
  by_cases h7 : d.length = 7
  swap
  · rw [if_pos h7, if_pos h7]; rfl
  rw [if_neg (not_not.2 h7), if_neg (not_not.2 h7)]
  simp only [pure_bind]
  refine words_attempt fun o => ?_
  split
  · rfl
  refine words_attempt fun o => ?_
  split
  · rfl
  refine words_attempt fun o => ?_
  split
  · rfl
  iterate 8 refine words_attempt fun o => ?_
  exact words_fold _ _ _

end Modes
