import Verif.Props.TranslationCoherency
import Verif.Props.Bounds
import Verif.Model.Accessors
/-!
# The translated accessors, parity and entry points are those of the model
-/
set_option linter.unusedSimpArgs false
namespace Modes

/-! ## Accessors -/

/-- `GetDownLinkFormat` of every Mode S message. -/
theorem same_GetDownLinkFormat (m : ModeSMessage) :
    Gen.modes.messages.ModeSMessage.GetDownLinkFormat m = (m.getDownLinkFormat : Int) := by
  cases m <;> rfl

/-- `GetSubtype` of every airborne velocity. -/
theorem same_velocity_GetSubtype :
    (∀ m, Gen.bds.bds09.AirborneVelocityGroundSpeedNormal.GetSubtype m = (AirborneVelocity.groundSpeedNormal m).getSubtype) ∧
    (∀ m, Gen.bds.bds09.AirborneVelocityGroundSpeedSupersonic.GetSubtype m = (AirborneVelocity.groundSpeedSupersonic m).getSubtype) ∧
    (∀ m, Gen.bds.bds09.AirborneVelocityAirSpeedNormal.GetSubtype m = (AirborneVelocity.airSpeedNormal m).getSubtype) ∧
    (∀ m, Gen.bds.bds09.AirborneVelocityAirSpeedSupersonic.GetSubtype m = (AirborneVelocity.airSpeedSupersonic m).getSubtype) :=
  ⟨fun _ => rfl, fun _ => rfl, fun _ => rfl, fun _ => rfl⟩

/-- `GetSubtype` of every aircraft status. -/
theorem same_status_GetSubtype :
    (∀ m, Gen.bds.bds61.AircraftStatusNoInformation.GetSubtype m = (AircraftStatus.noInformation m).getSubtype) ∧
    (∀ m, Gen.bds.bds61.AircraftStatusEmergency.GetSubtype m = (AircraftStatus.emergency m).getSubtype) ∧
    (∀ m, Gen.bds.bds61.AircraftStatusACAS.GetSubtype m = (AircraftStatus.acas m).getSubtype) :=
  ⟨fun _ => rfl, fun _ => rfl, fun _ => rfl⟩

/-- `GetSubtype` of the two target states. -/
theorem same_targetState_GetSubtype :
    (∀ m, Gen.bds.bds62.TargetStateAndStatus0.GetSubtype m = (TargetStateAndStatus.type0 m).getSubtype) ∧
    (∀ m, Gen.bds.bds62.TargetStateAndStatus1.GetSubtype m = (TargetStateAndStatus.type1 m).getSubtype) :=
  ⟨fun _ => rfl, fun _ => rfl⟩

/-- `GetTurbulenceStatus` of the two hazard reports. -/
theorem same_GetTurbulenceStatus :
    (∀ m, Gen.bds.bds45.MeteorologicalHazardReportV0.GetTurbulenceStatus m = (HazardReport.v0 m).getTurbulenceStatus) ∧
    (∀ m, Gen.bds.bds45.MeteorologicalHazardReportV1.GetTurbulenceStatus m = (HazardReport.v1 m).getTurbulenceStatus) :=
  ⟨fun _ => rfl, fun _ => rfl⟩

/-! ## Bounds -/

theorem f64_neg1 : f64 (-1) = -1 := by decide +kernel
theorem f64_3 : f64 3 = 3 := by decide +kernel
theorem f64_10 : f64 10 = 10 := by decide +kernel
theorem f64_25 : f64 25 = 25 := by decide +kernel
theorem f64_75 : f64 (75 / 10) = 15 / 2 := by decide +kernel

/-- A byte is compared through its value. -/
theorem byte_eq_iff (b : UInt8) (n : Nat) (h : n < 256) : b = UInt8.ofNat n ↔ b.toNat = n := by
  rw [← UInt8.toNat_inj, UInt8.toNat_ofNat', Nat.mod_eq_of_lt h]

/-- `ContainmentRadius.GetHorizontalContainmentLowerBound`. -/
theorem same_containmentLowerBound (c : UInt8) :
    Gen.adsb.surface_position.fields.ContainmentRadius.GetHorizontalContainmentLowerBound c =
      containmentLowerBound c := by
  unfold Gen.adsb.surface_position.fields.ContainmentRadius.GetHorizontalContainmentLowerBound containmentLowerBound
  have e : (926 / 10 : ℚ) = 463 / 5 ∧ (1852 / 10 : ℚ) = 926 / 5 := by norm_num
  rw [show (6 : UInt8) = UInt8.ofNat 6 from rfl, show (7 : UInt8) = UInt8.ofNat 7 from rfl, show (8 : UInt8) = UInt8.ofNat 8 from rfl]
  simp only [byte_eq_iff _ _ (by decide : 6 < 256), byte_eq_iff _ _ (by decide : 7 < 256), byte_eq_iff _ _ (by decide : 8 < 256),
    f64_neg1, f64_3, f64_10, f64_25, f64_75, e]
  split_ifs <;> split <;> first | rfl | simp_all

/-- `ContainmentRadius.GetHorizontalContainmentHigherBound`. -/
theorem same_containmentHigherBound (c : UInt8) :
    Gen.adsb.surface_position.fields.ContainmentRadius.GetHorizontalContainmentHigherBound c =
      containmentHigherBound c := by
  unfold Gen.adsb.surface_position.fields.ContainmentRadius.GetHorizontalContainmentHigherBound containmentHigherBound
  have e : (926 / 10 : ℚ) = 463 / 5 ∧ (1852 / 10 : ℚ) = 926 / 5 := by norm_num
  rw [show (5 : UInt8) = UInt8.ofNat 5 from rfl, show (6 : UInt8) = UInt8.ofNat 6 from rfl, show (7 : UInt8) = UInt8.ofNat 7 from rfl]
  simp only [byte_eq_iff _ _ (by decide : 5 < 256), byte_eq_iff _ _ (by decide : 6 < 256), byte_eq_iff _ _ (by decide : 7 < 256),
    f64_neg1, f64_3, f64_10, f64_25, f64_75, e]
  split_ifs <;> split <;> first | rfl | simp_all

/-- `HorizontalProtectionLimit.GetHPLLowerBound`. -/
theorem same_hplLowerBound (c : UInt8) :
    Gen.adsb.surface_position.fields.HorizontalProtectionLimit.GetHPLLowerBound c =
      hplLowerBound c := by
  unfold Gen.adsb.surface_position.fields.HorizontalProtectionLimit.GetHPLLowerBound hplLowerBound
  have e : (926 / 10 : ℚ) = 463 / 5 ∧ (1852 / 10 : ℚ) = 926 / 5 := by norm_num
  rw [show (8 : UInt8) = UInt8.ofNat 8 from rfl]
  simp only [byte_eq_iff _ _ (by decide : 8 < 256),
    f64_neg1, f64_3, f64_10, f64_25, f64_75, e]
  split_ifs <;> split <;> first | rfl | simp_all

/-- `HorizontalProtectionLimit.GetHPLHigherBound`. -/
theorem same_hplHigherBound (c : UInt8) :
    Gen.adsb.surface_position.fields.HorizontalProtectionLimit.GetHPLHigherBound c =
      hplHigherBound c := by
  unfold Gen.adsb.surface_position.fields.HorizontalProtectionLimit.GetHPLHigherBound hplHigherBound
  have e : (926 / 10 : ℚ) = 463 / 5 ∧ (1852 / 10 : ℚ) = 926 / 5 := by norm_num
  rw [show (5 : UInt8) = UInt8.ofNat 5 from rfl, show (6 : UInt8) = UInt8.ofNat 6 from rfl, show (7 : UInt8) = UInt8.ofNat 7 from rfl]
  simp only [byte_eq_iff _ _ (by decide : 5 < 256), byte_eq_iff _ _ (by decide : 6 < 256), byte_eq_iff _ _ (by decide : 7 < 256),
    f64_neg1, f64_3, f64_10, f64_25, f64_75, e]
  split_ifs <;> split <;> first | rfl | simp_all

/-! ## Parity -/

/-- The byte the loop looks at, `data[byteIdx]` with an index of type `int`. -/
theorem idxI_nat {α : Type} (s : List α) (n : Nat) : idxI s (n : Int) = idx s n := by
  simp [idxI]

/-- The body of the loop of `computeParity`, as translated. -/
def genCrcStep (data : List UInt8) (crc : List UInt8) (i : Nat) : Go (List UInt8) := do
  let invert := ((← idx crc 0) &&& 128) != 0
  let crc ← setIdx crc 0 ((← idx crc 0) <<< 1)
  let crc ← setIdx crc 0 ((← idx crc 0) ||| (((← idx crc 1) >>> 7) &&& 1))
  let crc ← setIdx crc 1 ((← idx crc 1) <<< 1)
  let crc ← setIdx crc 1 ((← idx crc 1) ||| (((← idx crc 2) >>> 7) &&& 1))
  let crc ← setIdx crc 2 ((← idx crc 2) <<< 1)
  let byteIdx := Int.tdiv (24 + (i : Int)) 8
  let bitShift := uintOf (7 - (i % 8 : Int))
  let crc ← if byteIdx < (data.length : Int) then do
      let crc ← setIdx crc 2 ((← idx crc 2) ||| ((shiftRight8 (← idxI data byteIdx) bitShift) &&& 1))
      pure crc
    else do
      pure crc
  let crc ← if invert then do
      let crc ← setIdx crc 0 ((← idx crc 0) ^^^ (← idx ([255, 244, 9] : List UInt8) 0))
      let crc ← setIdx crc 1 ((← idx crc 1) ^^^ (← idx ([255, 244, 9] : List UInt8) 1))
      let crc ← setIdx crc 2 ((← idx crc 2) ^^^ (← idx ([255, 244, 9] : List UInt8) 2))
      pure crc
    else do
      pure crc
  pure crc

/-- One turn of the loop of `computeParity`. -/
theorem same_crcStep (data : List UInt8) (c0 c1 c2 : UInt8) (i : Nat) :
    genCrcStep data [c0, c1, c2] i =
    .ok [(crcStep data ⟨c0, c1, c2⟩ i).c0, (crcStep data ⟨c0, c1, c2⟩ i).c1, (crcStep data ⟨c0, c1, c2⟩ i).c2] := by
  have hb : Int.tdiv (24 + (i : Int)) 8 = (((3 * 8 + i) / 8 : Nat) : Int) := by
    rw [Int.tdiv_eq_ediv_of_nonneg (by omega)]; omega
  have hs : uintOf (7 - (i % 8 : Int)) = 7 - i % 8 := by
    unfold uintOf; omega
  have hsh : ∀ b : UInt8, shiftRight8 b (7 - i % 8) = b >>> UInt8.ofNat (7 - i % 8) := by
    intro b; unfold shiftRight8; rw [if_pos (by omega)]
  unfold genCrcStep crcStep crcNextBit
  simp only [hb, hs, hsh, idxI_nat, Int.ofNat_lt]
  generalize (3 * 8 + i) / 8 = k
  rcases hd : data[k]? with _ | b
  · have hl : ¬ k < data.length := by
      intro h; rw [List.getElem?_eq_getElem h] at hd; cases hd
    simp only [if_neg hl]
    cases hv : (c0 &&& 128 != 0) <;>
      simp [idx, setIdx, bind, Except.bind, pure, Except.pure, hv, hd]
  · have hl : k < data.length := by
      obtain ⟨h, -⟩ := List.getElem?_eq_some_iff.mp hd; exact h
    have hi : idx data (k) = .ok b := by simp only [idx, hd]
    simp only [if_pos hl, hi]
    cases hv : (c0 &&& 128 != 0) <;>
      simp [idx, setIdx, bind, Except.bind, pure, Except.pure, hv, hd]

/-- A loop over the register kept as a list of three bytes is the loop over the register. -/
theorem foldlM_crc (data : List UInt8) (f : List UInt8 → Nat → Go (List UInt8))
    (hf : ∀ c0 c1 c2 i, f [c0, c1, c2] i =
      .ok [(crcStep data ⟨c0, c1, c2⟩ i).c0, (crcStep data ⟨c0, c1, c2⟩ i).c1, (crcStep data ⟨c0, c1, c2⟩ i).c2])
    (l : List Nat) (c : CrcReg) :
    l.foldlM f [c.c0, c.c1, c.c2] =
      .ok [(l.foldl (crcStep data) c).c0, (l.foldl (crcStep data) c).c1, (l.foldl (crcStep data) c).c2] := by
  induction l generalizing c with
  | nil => rfl
  | cons i t ih =>
    rw [List.foldlM_cons, hf]
    exact ih (crcStep data c i)

/-- `computeParity`. -/
theorem same_computeParity (data : List UInt8) : Gen.modes.reader.computeParity data = computeParity data := by
  unfold Gen.modes.reader.computeParity computeParity
  rcases data with _ | ⟨b0, _ | ⟨b1, _ | ⟨b2, t⟩⟩⟩
  · rfl
  · rfl
  · rfl
  · have h := foldlM_crc (b0 :: b1 :: b2 :: t) (genCrcStep (b0 :: b1 :: b2 :: t)) (fun c0 c1 c2 i => same_crcStep (b0 :: b1 :: b2 :: t) c0 c1 c2 i)
      (List.range ((b0 :: b1 :: b2 :: t).length * 8)) ⟨b0, b1, b2⟩
    generalize List.range ((b0 :: b1 :: b2 :: t).length * 8) = l at h ⊢
    exact (congrArg (fun r : Go (List UInt8) => r >>= fun crc => do
      return Gen.bitutils.Pack3Bytes (← idx crc 0) (← idx crc 1) (← idx crc 2)) h)

/-- `checkCRCDF11`. -/
theorem same_checkCRCDF11 (data : List UInt8) (a : AllowList) :
    Gen.modes.reader.checkCRCDF11 data a = checkCRCDF11 data a := by
  unfold Gen.modes.reader.checkCRCDF11 checkCRCDF11
  simp only [same_computeParity]
  go_walk

/-- `checkCRCDF17And18`. -/
theorem same_checkCRCDF17And18 (data : List UInt8) :
    Gen.modes.reader.checkCRCDF17And18 data = checkCRCDF17And18 data := by
  unfold Gen.modes.reader.checkCRCDF17And18 checkCRCDF17And18
  simp only [same_computeParity]
  go_walk

/-- `checkCRCOther`. -/
theorem same_checkCRCOther (data : List UInt8) (a : AllowList) :
    Gen.modes.reader.checkCRCOther data a = checkCRCOther data a := by
  unfold Gen.modes.reader.checkCRCOther checkCRCOther
  simp only [same_computeParity]
  by_cases h : data.length < 3
  · rw [if_pos h]; unfold sliceToI; rw [if_pos (by omega)]; rfl
  · have e1 : (data.length : Int) - 3 = ((data.length - 3 : Nat) : Int) := by omega
    have e2 : (data.length : Int) - 2 = ((data.length - 2 : Nat) : Int) := by omega
    have e3 : (data.length : Int) - 1 = ((data.length - 1 : Nat) : Int) := by omega
    have e : ∀ n : Nat, sliceToI data (n : Int) = sliceTo data n := fun n => by simp [sliceToI]
    rw [if_neg h, e1, e2, e3]
    simp only [idxI_nat, e]
    go_walk

/-- `CheckCRC`. -/
theorem same_CheckCRC (m : ModeSMessage) (data : List UInt8) (a i : AllowList) :
    Gen.modes.reader.CheckCRC m data a i = checkCRC m data a i := by
  unfold Gen.modes.reader.CheckCRC checkCRC
  simp only [same_checkCRCDF11, same_checkCRCDF17And18, same_checkCRCOther]
  cases m <;> rfl

/-! ## ReadMessage -/

/-- `ReadMessage`. -/
theorem same_ReadMessage (message : List UInt8) : Gen.modes.reader.ReadMessage message = readMessage message := by
  unfold Gen.modes.reader.ReadMessage readMessage
  simp only [translated]
  by_cases hl : message.length ≠ 7 ∧ message.length ≠ 14
  · rw [if_pos hl, if_pos hl]; rfl
  rw [if_neg hl, if_neg hl]
  have e1 : (message.length : Int) - 3 = ((message.length - 3 : Nat) : Int) := by omega
  have e2 : ∀ n : Nat, sliceI message 1 (n : Int) = slice message 1 n := fun n => by simp [sliceI]
  have e3 : ∀ n : Nat, sliceFromI message (n : Int) = sliceFrom message n := fun n => by simp [sliceFromI]
  rw [e1]
  simp only [e2, e3, or_assoc]
  cases hb : idx message 0 with
  | error e => rfl
  | ok b0 =>
    simp only [go_bind_ok]
    cases slice message 1 (message.length - 3) with
    | error e => rfl
    | ok p =>
      cases sliceFrom message (message.length - 3) with
      | error e => rfl
      | ok q =>
        simp only [go_bind_ok]
        have hf : ((b0 &&& 248) >>> 3).toNat < 32 := by byte_omega
        generalize hn : ((b0 &&& 248) >>> 3).toNat = n at hf
        have hn' : (b0 &&& 248) >>> 3 = UInt8.ofNat n := by rw [← hn, UInt8.ofNat_toNat]
        rw [hn']
        interval_cases n <;> rfl

end Modes
