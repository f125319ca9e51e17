import Verif.Model.TranslationProgram
import Verif.Props.TranslationWordsReaders
import Verif.Props.CodeTexts
import Verif.Props.CommandLine
import Verif.Props.Errors
/-!
# cmd/main.go: the translated program prints what the model says (C110)
-/
namespace Modes
open Spec Text
open Ran (print nothing leave panicking withValue handing ranging)

theorem andThen_print (t : Txt) (p : Printed) : (Ran.print t ;; p) = ⟨t ++ p.out, p.ended⟩ := rfl

theorem call_refused (h t : Txt) : Ran.call (print h ;; print t ;; leave) = ⟨h ++ t, .reached⟩ := by
  simp [Ran.call, Printed.andThen, print, leave]

/-- What follows a call, by the result of the model. -/
def onGo {α : Type} (r : Go α) (e : Txt) (failed : Txt → Printed) (k : α → Printed) : Printed := match r with
  | .ok a => k a
  | .error .err => failed e
  | .error .panic => panicking

theorem handing_eq {α : Type} {s : Saying α} {r : Go α} {e : Txt} (he : s.erase = r) (hw : ∀ t, s.words = some t → t = e)
    (failed : Txt → Printed) (k : α → Printed) :
    handing s failed k = onGo r e failed k := by
  subst he
  rcases s with (t | _) | a
  · rw [← hw t rfl]; rfl
  · rfl
  · rfl

theorem handing_ok {α : Type} (a : α) (failed : Txt → Printed) (k : α → Printed) : handing (.ok a) failed k = k a := rfl

/-- `processADSBMessage` -/
theorem ran_adsb (F : FloatTexts) (level : UInt8) (hl : level.toNat ≤ 2) (me : List UInt8) :
    (∃ m, processADSBMessage me level = .ok (.adsb m) ∧
      Ran.call (Ran.processADSBMessage F me level) = ⟨t! " -- ADSB Information --\n" ++ (m.text F ++ t! "\n"), .reached⟩) ∨
    (processADSBMessage me level = .ok .adsbUnreadable ∧
      Ran.call (Ran.processADSBMessage F me level) =
        ⟨t! " -- ADSB Information --\n" ++ ((adsbError me).getD [] ++ t! "\n"), .reached⟩) := by
  have he : (Said.adsb.reader.ReadADSBMessage level false false me).erase = _ :=
    (erase_adsb.reader.ReadADSBMessage level false false me).trans (same_ReadADSBMessage level false false me)
  have hw : ∀ t, (Said.adsb.reader.ReadADSBMessage level false false me).words = some t → t = (adsbError me).getD [] := by
    intro t ht; rw [same_words_adsbError level hl] at ht; rw [ht]; rfl
  unfold Ran.processADSBMessage processADSBMessage
  rw [handing_eq he hw]
  rcases adsb_eval level false false me with ⟨h, -, -⟩ | ⟨h, -, -⟩ | ⟨-, m, h, -, -⟩
  · exact Or.inr (by rw [h]; exact ⟨rfl, call_refused _ _⟩)
  · exact Or.inr (by rw [h]; exact ⟨rfl, call_refused _ _⟩)
  · refine Or.inl ⟨m, ?_⟩
    have hp := shown_adsb F m (adsb_printable _ _ _ _ _ h)
    rw [h]
    refine ⟨rfl, ?_⟩
    show Ran.call (print _ ;; print (Shown.adsb.Message.ToString F m ++ _)) = _
    rw [hp]; rfl

theorem ranging_commB (F : FloatTexts) (l : List CommBMessage) (hp : ∀ m ∈ l, m.Printable) (hne : l ≠ []) (i : Nat) :
    ranging (fun i message =>
      (if (i > 0) then print (t! "-------------------------------\n") else nothing) ;;
      print (Shown.bds.Message.ToString F message ++ t! "\n")) i l =
      ⟨(if i > 0 then t! "-------------------------------\n" else []) ++ commBTexts F l, .reached⟩ := by
  induction l generalizing i with
  | nil => exact absurd rfl hne
  | cons m l ih =>
    have e := shown_commB F m (hp m List.mem_cons_self)
    cases l with
    | nil =>
      simp only [ranging, e]
      by_cases h : i > 0
      · simp only [if_pos h]; simp [Printed.andThen, print, nothing, commBTexts]
      · simp only [if_neg h]; simp [Printed.andThen, print, nothing, commBTexts]
    | cons m' l =>
      rw [ranging, ih (fun x hx => hp x (List.mem_cons_of_mem _ hx)) (by simp) (i + 1)]
      simp only [e, if_pos (Nat.succ_pos i)]
      by_cases h : i > 0
      · simp only [if_pos h]; simp [Printed.andThen, print, commBTexts]
      · simp only [if_neg h]; simp [Printed.andThen, print, nothing, commBTexts]

/-- `processCommBMessage` -/
theorem ran_commB (F : FloatTexts) (mb : List UInt8) (h7 : mb.length = 7) :
    (∃ l, processCommBMessage mb = .ok (.commB l) ∧
      Ran.call (Ran.processCommBMessage F mb) = ⟨t! " -- Comm-B Information --\n" ++ commBTexts F l, .reached⟩) ∨
    (processCommBMessage mb = .ok .commBUnknown ∧
      Ran.call (Ran.processCommBMessage F mb) = ⟨t! " -- Comm-B Information --\n" ++ t! "Unknown message format\n", .reached⟩) := by
  obtain ⟨d, hd, l, hl, hdl⟩ := commB_details mb h7
  have hg : Gen.commb.ReadCommBMessage mb = .ok l := by
    have := same_ReadCommBMessage mb
    rw [hl] at this
    cases hg : Gen.commb.ReadCommBMessage mb with
    | error e => rw [hg] at this; cases this
    | ok l' =>
      rw [hg] at this
      have h2 : l'.map Iface.val = l.map Iface.val := by
        have : (Except.ok (l'.map Iface.val) : Go _) = .ok (l.map Iface.val) := this
        injection this
      rw [List.map_injective_iff.2 (fun a b h => by injection h) h2]
  have he : (Said.commb.ReadCommBMessage mb).erase = .ok l := (erase_commb.ReadCommBMessage mb).trans hg
  unfold Ran.processCommBMessage
  rw [handing_eq (e := []) he (fun t ht => (by
    rw [same_words_commBError] at ht
    unfold commBError at ht; rw [if_neg (not_not.2 h7)] at ht; cases ht)), hd]
  cases l with
  | nil => exact Or.inr ⟨by rw [hdl]; rfl, rfl⟩
  | cons m l =>
    refine Or.inl ⟨m :: l, by rw [hdl]; rfl, ?_⟩
    have hp : ∀ x ∈ m :: l, x.Printable := fun x hx =>
      commB_printable mb x (commB_reads mb _ hl x (List.mem_map_of_mem hx))
    have hn : ¬ (m :: l).length = 0 := by simp
    simp only [onGo, if_neg hn, ranging_commB F _ hp (by simp)]
    rfl

theorem hexOf_small (b : UInt8) (h : b.toNat < 16) : hexOf b = [hexDigit b.toNat] := by unfold hexOf; rw [if_pos h]

/-- `postProcessMessage16` -/
theorem ran_acas (F : FloatTexts) (m : MessageDF16) (h7 : m.messageACAS.length = 7) :
    (∃ ra, postProcessMessage16 m = .ok (.acas ra) ∧
      Ran.call (Ran.postProcessMessage16 F m) = ⟨t! " -- ACAS Information --\n" ++ (linesText (ra.lines F) ++ t! "\n"), .reached⟩) ∨
    (postProcessMessage16 m = .ok .acasUnreadable ∧
      Ran.call (Ran.postProcessMessage16 F m) =
        ⟨t! " -- ACAS Information --\n" ++ ((advisoryError (m.messageACAS.drop 1)).getD [] ++ t! "\n"), .reached⟩) ∨
    (∃ x y, postProcessMessage16 m = .ok (.acasUnknown x y) ∧
      Ran.call (Ran.postProcessMessage16 F m) = ⟨t! " -- ACAS Information --\n" ++ (t! "Unknown message type: [" ++ [hexDigit x.toNat] ++
        t! ":" ++ [hexDigit y.toNat] ++ t! "]\n"), .reached⟩) := by
  obtain ⟨b0, b1, b2, b3, b4, b5, b6, hb⟩ := list7 _ h7
  unfold Ran.postProcessMessage16 postProcessMessage16
  rw [hb]
  have hi : idx [b0, b1, b2, b3, b4, b5, b6] 0 = .ok b0 := rfl
  have hs : sliceFrom [b0, b1, b2, b3, b4, b5, b6] 1 = .ok [b1, b2, b3, b4, b5, b6] := rfl
  have hd : [b0, b1, b2, b3, b4, b5, b6].drop 1 = [b1, b2, b3, b4, b5, b6] := rfl
  simp only [hi, hs, hd, go_bind_ok, go_pure]
  have hx : ((b0 &&& 240) >>> 4).toNat < 16 := by byte_omega
  have hy : (b0 &&& 15).toNat < 16 := by byte_omega
  by_cases h30 : (b0 &&& 240) >>> 4 = 3 ∧ b0 &&& 15 = 0
  · simp only [withValue, if_pos h30]
    have he : (Said.acas.ra.ReadResolutionAdvisory [b1, b2, b3, b4, b5, b6]).erase = readResolutionAdvisory [b1, b2, b3, b4, b5, b6] :=
      (erase_acas.ra.ReadResolutionAdvisory _).trans (by simp only [translated])
    rw [handing_eq (e := (advisoryError [b1, b2, b3, b4, b5, b6]).getD []) he (fun t ht => (by
      rw [same_words_advisoryError] at ht; rw [ht]; rfl))]
    have np := ra_noPanic [b1, b2, b3, b4, b5, b6]
    cases hr : readResolutionAdvisory [b1, b2, b3, b4, b5, b6] with
    | error e =>
      cases e with
      | panic => exact absurd hr np
      | err => exact Or.inr (Or.inl ⟨rfl, call_refused _ _⟩)
    | ok ra =>
      refine Or.inl ⟨ra, rfl, ?_⟩
      simp only [onGo, shown_resolutionAdvisory F ra (ra_printable _ ra hr)]
      rfl
  · refine Or.inr (Or.inr ⟨_, _, by rw [if_neg h30], ?_⟩)
    simp only [withValue, if_neg h30, hexOf_small _ hx, hexOf_small _ hy]
    rfl

/-- The `switch` of `processSingleLine`, as translated. -/
noncomputable def switchOf (F : FloatTexts) (messageModeS : ModeSMessage) (readerLevel : UInt8) : Printed :=
  open Ran in
  if (Gen.modes.messages.ModeSMessage.GetDownLinkFormat messageModeS = 16) then
    withValue (match messageModeS with | .df16 m => .ok m | _ => goPanic) fun v3 =>
    Ran.call (Ran.postProcessMessage16 F v3)
  else if (Gen.modes.messages.ModeSMessage.GetDownLinkFormat messageModeS = 17) then
    withValue (match messageModeS with | .df17 m => .ok m | _ => goPanic) fun v4 =>
    Ran.call (Ran.postProcessMessage17 F v4 readerLevel)
  else if (Gen.modes.messages.ModeSMessage.GetDownLinkFormat messageModeS = 18) then
    withValue (match messageModeS with | .df18 m => .ok m | _ => goPanic) fun v5 =>
    Ran.call (Ran.postProcessMessage18 F v5 readerLevel)
  else if (Gen.modes.messages.ModeSMessage.GetDownLinkFormat messageModeS = 20) then
    withValue (match messageModeS with | .df20 m => .ok m | _ => goPanic) fun v6 =>
    Ran.call (Ran.postProcessMessage20 F v6)
  else if (Gen.modes.messages.ModeSMessage.GetDownLinkFormat messageModeS = 21) then
    withValue (match messageModeS with | .df21 m => .ok m | _ => goPanic) fun v7 =>
    Ran.call (Ran.postProcessMessage21 F v7)
  else
    print (t! "\n")

set_option linter.unusedVariables false in
/-- The end of `processSingleLine`, as translated. -/
noncomputable def tailOf (F : FloatTexts) (messageModeS : ModeSMessage) (address : UInt32) (readerLevel : UInt8) : Printed :=
  print (t! " -- Mode-S Information --\n") ;;
  (if (Gen.modes.messages.ModeSMessage.GetDownLinkFormat messageModeS = 11) then
    print (t! "In reply to interrogator: " ++ Shown.modes.common.ICAOAddress.ToString address ++ t! "\n") ;;
    withValue (match messageModeS with | .df11 m => .ok m | _ => goPanic) fun v1 =>
    let message11 := v1
    nothing
  else
    print (t! "From: " ++ Shown.modes.common.ICAOAddress.ToString address ++ t! "\n")) ;;
  withValue (Shown.modes.messages.ModeSMessage.ToString messageModeS) fun v2 =>
  print (v2 ++ t! "\n") ;;
  switchOf F messageModeS readerLevel ;;
  print (t! "\n")

theorem ran_switch (F : FloatTexts) (level : UInt8) (hl : level.toNat ≤ 2) (f : List UInt8) (m : ModeSMessage) (h : readMessage f = .ok m) :
    ∃ d, postProcess m level = .ok d ∧ switchOf F m level = ⟨d.text F goErrors f m, .reached⟩ := by
  unfold switchOf
  simp only [same_GetDownLinkFormat]
  cases m with
  | df16 m =>
    have h7 : m.messageACAS.length = 7 := by
      obtain ⟨h14, -, -, -, -, hm, -⟩ := df16_fields f m h
      rw [hm]; exact me_length f h14
    have hE : goErrors.acas f = (advisoryError (m.messageACAS.drop 1)).getD [] := by simp only [goErrors, h]
    rcases ran_acas F m h7 with ⟨ra, h1, h2⟩ | ⟨h1, h2⟩ | ⟨x, y, h1, h2⟩
    · exact ⟨_, h1, h2.trans (by simp only [Details.text, List.append_assoc])⟩
    · exact ⟨_, h1, h2.trans (by simp only [Details.text, List.append_assoc, hE])⟩
    · exact ⟨_, h1, h2.trans (by simp only [Details.text, List.append_assoc])⟩
  | df17 m =>
    have hE : goErrors.adsb f = (adsbError m.messageExtendedSquitter).getD [] := by simp only [goErrors, h]
    rcases ran_adsb F level hl m.messageExtendedSquitter with ⟨x, h1, h2⟩ | ⟨h1, h2⟩
    · refine ⟨_, h1, Eq.trans (b := Ran.call (Ran.call (Ran.processADSBMessage F m.messageExtendedSquitter level))) rfl ?_⟩
      rw [h2]
      simp only [Ran.call, Details.text, List.append_assoc]
    · refine ⟨_, h1, Eq.trans (b := Ran.call (Ran.call (Ran.processADSBMessage F m.messageExtendedSquitter level))) rfl ?_⟩
      rw [h2]
      simp only [Ran.call, Details.text, List.append_assoc, hE]
  | df18 m =>
    have hE : goErrors.adsb f = (adsbError m.messageExtendedSquitter).getD [] := by simp only [goErrors, h]
    show ∃ d, postProcessMessage18 m level = .ok d ∧ Ran.call (Ran.postProcessMessage18 F m level) = _
    unfold postProcessMessage18 Ran.postProcessMessage18
    by_cases h1 : m.controlField = 0 ∨ m.controlField = 1
    · simp only [if_pos h1]
      rcases ran_adsb F level hl m.messageExtendedSquitter with ⟨x, h1, h2⟩ | ⟨h1, h2⟩
      · refine ⟨_, h1, ?_⟩
        rw [h2]
        simp only [Ran.call, Details.text, List.append_assoc]
      · refine ⟨_, h1, ?_⟩
        rw [h2]
        simp only [Ran.call, Details.text, List.append_assoc, hE]
    · simp only [if_neg h1]
      by_cases h2 : m.controlField = 2 ∨ m.controlField = 3 ∨ m.controlField = 4 ∨ m.controlField = 5
      · rw [if_pos h2, if_pos (by tauto)]
        exact ⟨_, rfl, rfl⟩
      · rw [if_neg h2, if_neg (by tauto)]
        exact ⟨_, rfl, rfl⟩
  | df20 m =>
    have h7 : m.messageCommB.length = 7 := by
      obtain ⟨h14, -, -, -, -, -, hm, -⟩ := df20_fields f m h
      rw [hm]; exact me_length f h14
    rcases ran_commB F m.messageCommB h7 with ⟨x, h1, h2⟩ | ⟨h1, h2⟩
    · refine ⟨_, h1, Eq.trans (b := Ran.call (Ran.call (Ran.processCommBMessage F m.messageCommB))) rfl ?_⟩
      rw [h2]
      simp only [Ran.call, Details.text]
    · refine ⟨_, h1, Eq.trans (b := Ran.call (Ran.call (Ran.processCommBMessage F m.messageCommB))) rfl ?_⟩
      rw [h2]
      simp only [Ran.call, Details.text]
  | df21 m =>
    have h7 : m.messageCommB.length = 7 := by
      obtain ⟨h14, -, -, -, -, -, hm, -⟩ := df21_fields f m h
      rw [hm]; exact me_length f h14
    rcases ran_commB F m.messageCommB h7 with ⟨x, h1, h2⟩ | ⟨h1, h2⟩
    · refine ⟨_, h1, Eq.trans (b := Ran.call (Ran.call (Ran.processCommBMessage F m.messageCommB))) rfl ?_⟩
      rw [h2]
      simp only [Ran.call, Details.text]
    · refine ⟨_, h1, Eq.trans (b := Ran.call (Ran.call (Ran.processCommBMessage F m.messageCommB))) rfl ?_⟩
      rw [h2]
      simp only [Ran.call, Details.text]
  | _ => exact ⟨_, rfl, rfl⟩

theorem ran_tail (F : FloatTexts) (level : UInt8) (hl : level.toNat ≤ 2) (f : List UInt8) (m : ModeSMessage) (h : readMessage f = .ok m)
    (s : List UInt8) (a : UInt32) :
    ∃ d t, postProcess m level = .ok d ∧ tailOf F m a level = ⟨t, .reached⟩ ∧
      (if m.getDownLinkFormat = 11 then Report.replyToInterrogator a m d else .sentBy a m d).text F goErrors s f = .ok t := by
  obtain ⟨d, hd, hsw⟩ := ran_switch F level hl f m h
  obtain ⟨l, -, ht⟩ := text_ok m (readMessage_shaped f m h)
  suffices hs : ∃ t, tailOf F m a level = ⟨t, .reached⟩ ∧
      (if m.getDownLinkFormat = 11 then Report.replyToInterrogator a m d else .sentBy a m d).text F goErrors s f = .ok t by
    obtain ⟨t, h1, h2⟩ := hs
    exact ⟨d, t, hd, h1, h2⟩
  unfold tailOf
  simp only [hsw, shown_modes, ht, withValue, same_GetDownLinkFormat, shown_icaoAddress]
  have hty := readMessage_type f m h
  by_cases h11 : m.getDownLinkFormat = 11
  · have h11' : (m.getDownLinkFormat : Int) = 11 := by rw [h11]; rfl
    simp only [if_pos h11', if_pos h11]
    cases m with
    | df11 m =>
      simp only [Report.text, ht, go_bind_ok, go_pure]
      refine ⟨_, ?_, rfl⟩
      simp [Printed.andThen, print, nothing, List.append_assoc]
    | _ => revert h11; simp [ModeSMessage.getDownLinkFormat]
  · have h11' : ¬ (m.getDownLinkFormat : Int) = 11 := fun h => h11 (by exact_mod_cast h)
    simp only [if_neg h11', if_neg h11]
    simp only [Report.text, ht, go_bind_ok, go_pure]
    refine ⟨_, ?_, rfl⟩
    simp [Printed.andThen, print, List.append_assoc]

/-- The bytes a line spells, if it does. -/
def bytesOf (s : List UInt8) : List UInt8 := match hexDecode s with
  | .ok f => f
  | .error _ => []

/-- C110. `processSingleLine` of the code, for every line and the three reader levels: it does not panic, and it prints the echo of the line and
the report of the model. -/
theorem program_line (F : FloatTexts) (level : UInt8) (hl : level.toNat ≤ 2) (s : List UInt8) :
    ∃ r t, processSingleLine s level = .ok r ∧ r.text F goErrors s (bytesOf s) = .ok t ∧
      Ran.call (Ran.processSingleLine F s level) = ⟨t! "Reading: " ++ asciiText s ++ '\n' :: t, .reached⟩ := by
  have call_print (t : Txt) (p : Printed) (u : Txt) (hp : Ran.call p = ⟨u, .reached⟩) :
      Ran.call (print t ;; p) = ⟨t ++ u, .reached⟩ := by
    rcases p with ⟨o, e⟩
    cases e <;> simp_all [Ran.call, Printed.andThen, print]
  have call_leave (t : Txt) : Ran.call (print t ;; leave) = ⟨t, .reached⟩ := by simp [Ran.call, Printed.andThen, print, leave]
  unfold Ran.processSingleLine processSingleLine bytesOf
  cases hx : hexDecode s with
  | error e =>
    cases e with
    | panic => exact absurd hx (hexDecode_noPanic s)
    | err =>
      refine ⟨_, _, rfl, rfl, ?_⟩
      rw [call_print _ _ (t! "unable to convert the given text to hexadecimal values due to: " ++ goErrors.hexadecimal s) (by
        simp only [hexDecodeString, hx, say, handing]
        exact call_leave _)]
      simp
  | ok f =>
    have hhex : hexDecodeString s = .ok f := by simp only [hexDecodeString, hx]
    rw [hhex, handing_ok]
    simp only
    have he := (erase_modes.reader.ReadMessage f).trans (same_ReadMessage f)
    rw [handing_eq (e := goErrors.frame f) he (fun t ht => (by
      rw [same_words_frameError] at ht; simp only [goErrors, ht, Option.getD_some]))]
    rcases readMessageCall_eq f with ⟨hn, hc⟩ | ⟨ha, m, hm, hc⟩
    · have hr : readMessage f = .error .err := by
        have hp := readMessage_noPanic f
        have hA := readMessage_accepts_iff f
        cases hr : readMessage f with
        | error e => cases e with
          | panic => exact absurd hr hp
          | err => rfl
        | ok m => exact absurd (hA.1 ⟨m, hr⟩) hn
      rw [hc, hr]
      refine ⟨_, _, rfl, rfl, ?_⟩
      refine (call_print _ _ (goErrors.frame f ++ t! "\n") (call_leave _)).trans ?_
      simp
    · rw [hc, hm]
      have np := checkCRC_noPanic f m hm [] []
      have he2 := (erase_modes.reader.CheckCRC m f [] []).trans (same_CheckCRC m f [] [])
      simp only [onGo]
      rw [handing_eq (e := parityErrorText m) he2 (fun t ht => (by
        rw [same_words_crcError m f [] [] np] at ht
        unfold crcError at ht
        split at ht
        · cases ht
        · injection ht with ht; exact ht.symm))]
      show ∃ r t, processMessage m f level = .ok r ∧ _
      unfold processMessage
      cases hcrc : checkCRC m f [] [] with
      | error e =>
        cases e with
        | panic => exact absurd hcrc np
        | err =>
          refine ⟨_, _, rfl, rfl, ?_⟩
          have hE : goErrors.parity f = parityErrorText m := by simp only [goErrors, hm]
          refine (call_print _ _ (goErrors.parity f ++ t! "\n") (by rw [hE]; exact call_leave _)).trans ?_
          simp
      | ok a =>
        obtain ⟨d, t, hd, ht, hr⟩ := ran_tail F level hl f m hm s a
        have hpr := print_ok f m hm
        refine ⟨_, t, ?_, hr, ?_⟩
        · simp only [hpr, hd]
          by_cases h11 : m.getDownLinkFormat = 11
          · simp only [if_pos h11]
            cases m with
            | df11 m => rfl
            | _ => revert h11; simp [ModeSMessage.getDownLinkFormat]
          · simp only [if_neg h11]; rfl
        · refine (call_print _ (tailOf F m a level) t (by rw [ht]; rfl)).trans ?_
          simp

end Modes
