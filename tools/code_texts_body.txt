
/-- An ADS-B message that was read: `ToString` of the code gives the text of the model. -/
theorem shown_adsb_read (F : FloatTexts) {v : UInt8} {a c : Bool} {d : List UInt8} {m : ADSBMessage}
    (h : readADSBMessage v a c d = .returns (.val m) false) : Shown.adsb.Message.ToString F m = m.text F :=
  shown_adsb F m (adsb_printable v a c d m h)

/-- A Comm-B message that was read. -/
theorem shown_commB_read (F : FloatTexts) {d : List UInt8} {l : List (Iface CommBMessage)} (h : readCommBMessage d = .ok l)
    {m : CommBMessage} (hm : .val m ∈ l) : Shown.bds.Message.ToString F m = m.text F :=
  shown_commB F m (commB_printable d m (commB_reads d l h m hm))

/-- What the translated `ReadCommBMessage` gives is what the model gives. -/
theorem code_commB_read {d : List UInt8} {l : List CommBMessage} (h : Gen.commb.ReadCommBMessage d = .ok l) :
    readCommBMessage d = .ok (l.map .val) := by
  rw [← same_ReadCommBMessage, h]; rfl

/-! ### Frames -/

/-- `modeS_text_total`: a frame that the code reads has a text, without panic, and it begins with its format. -/
theorem code_frame_text_total (f : List UInt8) (m : ModeSMessage) (h : Gen.modes.reader.ReadMessage f = .ok m) :
    ∃ spaces rest, Shown.modes.messages.ModeSMessage.ToString m = .ok (t! "Downlink format:" ++ List.replicate spaces ' ' ++
      dec m.getDownLinkFormat ++ t! " - " ++ Shown.modes.messages.ModeSMessage.GetName m ++ '\n' :: rest) := by
  rw [same_ReadMessage] at h
  rw [shown_modes, shown_modes_name]
  exact modeS_text_total f m h

/-- `modeS_text_identifies` -/
theorem code_frame_text_identifies (f g : List UInt8) (m n : ModeSMessage) (t : Txt) (hf : Gen.modes.reader.ReadMessage f = .ok m)
    (hg : Gen.modes.reader.ReadMessage g = .ok n) (hm : Shown.modes.messages.ModeSMessage.ToString m = .ok t)
    (hn : Shown.modes.messages.ModeSMessage.ToString n = .ok t) : decodedFields m = decodedFields n := by
  rw [same_ReadMessage] at hf hg
  rw [shown_modes] at hm hn
  exact modeS_text_identifies f g m n t hf hg hm hn

/-! ### ADS-B and Comm-B -/

/-- `identification_text` -/
theorem code_identification_text (F : FloatTexts) (hF : F.Faithful) (v : UInt8) (a c : Bool) (first : UInt8)
    (hf : 8 ≤ first.toNat ∧ first.toNat < 40) (cs : List UInt8) (h8 : cs.length = 8) (hc : ∀ x ∈ cs, IdentChar x) :
    ∃ m, readADSBMessage v a c (first :: toBytes 6 (encodeIdent cs)) = .returns (.val m) false ∧
      ShowsLine (Shown.adsb.Message.ToString F m) (t! "Identification:                    ") (cs.map fun x => Char.ofNat x.toNat) := by
  obtain ⟨m, h, hl⟩ := identification_text F hF v a c first hf cs h8 hc
  exact ⟨m, h, by rw [shown_adsb_read F h]; exact hl⟩

/-- `commB_identification_text` -/
theorem code_commB_identification_text (F : FloatTexts) (hF : F.Faithful) (cs : List UInt8) (h8 : cs.length = 8)
    (hc : ∀ x ∈ cs, IdentChar x) :
    ∃ m, readCommBMessage (0x20 :: toBytes 6 (encodeIdent cs)) = .ok [.val m] ∧
      ShowsLine (Shown.bds.Message.ToString F m) (t! "Identification:                          ") (cs.map fun x => Char.ofNat x.toNat) := by
  obtain ⟨m, h, hl⟩ := commB_identification_text F hF cs h8 hc
  exact ⟨m, h, by rw [shown_commB_read F h (List.mem_singleton.2 rfl)]; exact hl⟩

/-- `adsb_text_partial`: two messages with the same text have the same decoded content. -/
theorem code_adsb_text_partial (F : FloatTexts) (hF : F.Faithful) (v w : UInt8) (a b c e : Bool) (d d' : List UInt8) (m n : ADSBMessage)
    (hm : readADSBMessage v a b d = .returns (.val m) false) (hn : readADSBMessage w c e d' = .returns (.val n) false)
    (h : Shown.adsb.Message.ToString F m = Shown.adsb.Message.ToString F n) : shownADSB m = shownADSB n := by
  rw [shown_adsb_read F hm, shown_adsb_read F hn] at h
  exact adsb_text_partial F hF v w a b c e d d' m n hm hn h

/-- `commB_text_partial` -/
theorem code_commB_text_partial (F : FloatTexts) (hF : F.Faithful) (d d' : List UInt8) (l l' : List CommBMessage)
    (hd : Gen.commb.ReadCommBMessage d = .ok l) (hd' : Gen.commb.ReadCommBMessage d' = .ok l') (m n : CommBMessage) (hm : m ∈ l)
    (hn : n ∈ l') (h : Shown.bds.Message.ToString F m = Shown.bds.Message.ToString F n) : shownCommB m = shownCommB n := by
  have km : Iface.val m ∈ l.map Iface.val := List.mem_map_of_mem hm
  have kn : Iface.val n ∈ l'.map Iface.val := List.mem_map_of_mem hn
  rw [shown_commB_read F (code_commB_read hd) km, shown_commB_read F (code_commB_read hd') kn] at h
  exact commB_text_partial F hF d d' _ _ (code_commB_read hd) (code_commB_read hd') m n km kn h

/-- `commB_texts_differ`: two candidates of one register are printed differently. -/
theorem code_commB_texts_differ (F : FloatTexts) (hF : F.Faithful) (d : List UInt8) (l : List CommBMessage)
    (hd : Gen.commb.ReadCommBMessage d = .ok l) (m n : CommBMessage) (hm : m ∈ l) (hn : n ∈ l) (hne : m ≠ n) :
    Shown.bds.Message.ToString F m ≠ Shown.bds.Message.ToString F n := by
  have km : Iface.val m ∈ l.map Iface.val := List.mem_map_of_mem hm
  have kn : Iface.val n ∈ l.map Iface.val := List.mem_map_of_mem hn
  rw [shown_commB_read F (code_commB_read hd) km, shown_commB_read F (code_commB_read hd) kn]
  exact commB_texts_differ F hF d _ (code_commB_read hd) m n km kn hne

/-- `advisory_text_actual` -/
theorem code_advisory_text_actual (F : FloatTexts) (hF : F.Faithful) (d : List UInt8) (m : ResolutionAdvisory)
    (h : Gen.acas.ra.ReadResolutionAdvisory d = .ok m) :
    (Shown.acas.ra.ResolutionAdvisory.ToString F m).splitOn '\n' =
      advisoryLines (t! "Upward") (altitudeLine m.threatIdentityAltitude) (threatRangeLine F (2 * bits d 36 41))
        (bearingWritten (bits d 43 48)) d := by
  simp only [translated] at h
  rw [shown_resolutionAdvisory F m (ra_printable d m h)]
  exact advisory_text_actual F hF d m h

/-- `adsb_text_refuted` -/
theorem code_adsb_text_refuted (F : FloatTexts) :
    (∃ d d' m n, readADSBMessage 2 false false d = .returns (.val m) false ∧ readADSBMessage 2 false false d' = .returns (.val n) false ∧
      bits d 12 24 ≠ bits d' 12 24 ∧ m ≠ n ∧ Shown.adsb.Message.ToString F m = Shown.adsb.Message.ToString F n) ∧
    (∃ d d' m n, readADSBMessage 2 false false d = .returns (.val m) false ∧ readADSBMessage 2 false false d' = .returns (.val n) false ∧
      bits d 11 11 ≠ bits d' 11 11 ∧ m ≠ n ∧ Shown.adsb.Message.ToString F m = Shown.adsb.Message.ToString F n) := by
  obtain ⟨⟨d, d', m, n, h1, h2, h3, h4, h5⟩, e, e', p, q, k1, k2, k3, k4, k5⟩ := adsb_text_refuted F
  exact ⟨⟨d, d', m, n, h1, h2, h3, h4, by rw [shown_adsb_read F h1, shown_adsb_read F h2]; exact h5⟩,
    e, e', p, q, k1, k2, k3, k4, by rw [shown_adsb_read F k1, shown_adsb_read F k2]; exact k5⟩

/-- `advisory_text_refuted` -/
theorem code_advisory_text_refuted (F : FloatTexts) (hF : F.Faithful) :
    (∃ d m, readResolutionAdvisory d = .ok m ∧ bit d 1 = true ∧ senseWord d = t! "Downward" ∧
      t! "    Sense generated: Upward" ∈ (Shown.acas.ra.ResolutionAdvisory.ToString F m).splitOn '\n') ∧
    (∃ d m, readResolutionAdvisory d = .ok m ∧ bits d 21 22 = 2 ∧ bits d 43 48 = 60 ∧
      threatBearingLine (bits d 43 48) = t! "60 - between 354 and 360" ∧
      t! "Threat Bearing:                                  60 - between 98 and 104" ∈ (Shown.acas.ra.ResolutionAdvisory.ToString F m).splitOn '\n') := by
  obtain ⟨⟨d, m, h, h1, h2, h3⟩, e, n, k, k1, k2, k3, k4⟩ := advisory_text_refuted F hF
  exact ⟨⟨d, m, h, h1, h2, by rw [shown_resolutionAdvisory F m (ra_printable d m h)]; exact h3⟩,
    e, n, k, k1, k2, k3, by rw [shown_resolutionAdvisory F n (ra_printable e n k)]; exact k4⟩

/-! ### The lines that the texts show -/
