import Verif.Spec.Transmit
import Verif.Props.Main
import Verif.Props.GeoFloatSurface
/-!
# From the aircraft to the map

What the transmitter encodes (`Spec/Transmit`, `Spec/CPR`), the library decodes: frame, parity, message, position.
-/
namespace Spec
open Modes

/-- The message is an airborne position, of any version, holding `p`. -/
def IsAirborne (m : ADSBMessage) (p : AirbornePosition) : Prop :=
  (∃ x y, m = .airborneV0 p x y) ∨ (∃ x y z, m = .airborneV1 p x y z) ∨ ∃ x y z u, m = .airborneV2 p x y z u

/-- The message is a surface position, of any version, holding `p`. -/
def IsSurface (m : ADSBMessage) (p : SurfacePosition) : Prop :=
  (∃ x y, m = .surfaceV0 p x y) ∨ (∃ x y z, m = .surfaceV1 p x y z) ∨ ∃ x y z u, m = .surfaceV2 p x y z u

end Spec
namespace Modes
open Spec Geo Polynomial

/-- Every message can be sent. -/
theorem isSquitter_exists (capability address : Nat) (me : List UInt8) : ∃ f, IsSquitter capability address me f := by
  obtain ⟨c, -, hc, hp⟩ := computeParity_spec (toBytes 4 (17 * 2 ^ 27 + capability * 2 ^ 24 + address) ++ me)
    (by rw [List.length_append, toBytes_length]; omega)
  refine ⟨_, toBytes 3 c.toNat, toBytes_length 3 _, rfl, ?_⟩
  unfold messagePoly parityPoly
  rw [beNat_toBytes, Nat.mod_eq_of_lt (by simpa using hc)]
  exact hp

/-- C78. Every extended squitter is read, its parity checks, the address found is the one sent, and the message is the one sent. -/
theorem squitter_received (capability address : Nat) (me f : List UInt8) (hca : capability < 8) (haa : address < 2 ^ 24)
    (hme : me.length = 7) (h : IsSquitter capability address me f) :
    ∃ m, readMessage f = .ok (.df17 m) ∧ m.messageExtendedSquitter = me ∧ m.capability.toNat = capability ∧
      m.addressAnnounced.toNat = address ∧
      ∀ al il, ∃ a, checkCRC (.df17 m) f al il = .ok a ∧ a.toNat = address := by
  obtain ⟨p, hp, rfl, hpar⟩ := h
  have hpb : toBytes 3 (beNat p) = p := by
    refine beNat_inj _ _ ?_ ?_
    · rw [toBytes_length, hp]
    · rw [beNat_toBytes, Nat.mod_eq_of_lt]
      have := beNat_lt p
      rw [hp] at this
      simpa using this
  have hlt : beNat p < 2 ^ 24 := by have := beNat_lt p; rw [hp] at this; simpa using this
  obtain ⟨m, hm, h1, h2, h3, -⟩ := roundtrip_df17 capability address (beNat p) me hca haa hlt hme
  rw [hpb] at hm
  refine ⟨m, hm, h3, h1, h2, fun al il => ?_⟩
  have hdf : bits (toBytes 4 (17 * 2 ^ 27 + capability * 2 ^ 24 + address) ++ me ++ p) 1 5 = 17 :=
    (df17_fields _ _ hm).2.1
  have hc := checkCRC_squitter _ _ hm (Or.inl hdf) al il
  have hh : (toBytes 4 (17 * 2 ^ 27 + capability * 2 ^ 24 + address) ++ me).length = 11 := by
    rw [List.length_append, toBytes_length, hme]
  have hd : generator ∣ messagePoly (toBytes 4 (17 * 2 ^ 27 + capability * 2 ^ 24 + address) ++ me ++ p) := by
    rw [hc.2.2, List.take_left' hh, List.drop_left' hh]
    exact hpar.symm
  obtain ⟨-, -, -, e2, -, -⟩ := df17_fields _ _ hm
  exact ⟨m.addressAnnounced, (hc.2.1 _).2 ⟨hd, e2⟩, h2⟩


/-- The bits of a 56-bit message. -/
theorem bits_toBytes7 (v a b : Nat) (hv : v < 2 ^ 56) : bits (toBytes 7 v) a b = v / 2 ^ (56 - b) % 2 ^ (b + 1 - a) := by
  unfold bits
  have h : v % 256 ^ 7 = v := Nat.mod_eq_of_lt (lt_of_lt_of_eq hv (by norm_num))
  rw [beNat_toBytes, toBytes_length, h]

theorem airborneField_bits (tc status antenna altitude time format lat lon : Nat) (h1 : tc < 32) (h2 : status < 4) (h3 : antenna < 2)
    (h4 : altitude < 4096) (h5 : time < 2) (h6 : format < 2) (h7 : lat < 2 ^ 17) (h8 : lon < 2 ^ 17) :
    let d := airborneField tc status antenna altitude time format lat lon
    bits d 1 5 = tc ∧ bits d 9 20 = altitude ∧ bits d 22 22 = format ∧ bits d 23 39 = lat ∧ bits d 40 56 = lon := by
  intro d
  have hv : tc * 2 ^ 51 + status * 2 ^ 49 + antenna * 2 ^ 48 + altitude * 2 ^ 36 + time * 2 ^ 35 + format * 2 ^ 34 + lat * 2 ^ 17 + lon <
      2 ^ 56 := by omega
  have e := fun a b => bits_toBytes7 _ a b hv
  refine ⟨?_, ?_, ?_, ?_, ?_⟩ <;> refine (e _ _).trans ?_ <;> norm_num <;> omega

theorem surfaceField_bits (tc movement status track time format lat lon : Nat) (h1 : tc < 32) (h2 : movement < 128) (h3 : status < 2)
    (h4 : track < 128) (h5 : time < 2) (h6 : format < 2) (h7 : lat < 2 ^ 17) (h8 : lon < 2 ^ 17) :
    let d := surfaceField tc movement status track time format lat lon
    bits d 1 5 = tc ∧ bits d 6 12 = movement ∧ bits d 13 13 = status ∧ bits d 14 20 = track ∧ bits d 22 22 = format ∧
      bits d 23 39 = lat ∧ bits d 40 56 = lon := by
  intro d
  have hv : tc * 2 ^ 51 + movement * 2 ^ 44 + status * 2 ^ 43 + track * 2 ^ 36 + time * 2 ^ 35 + format * 2 ^ 34 + lat * 2 ^ 17 + lon <
      2 ^ 56 := by omega
  have e := fun a b => bits_toBytes7 _ a b hv
  refine ⟨?_, ?_, ?_, ?_, ?_, ?_, ?_⟩ <;> refine (e _ _).trans ?_ <;> norm_num <;> omega

theorem altitudeField_meaning (n : Nat) (hn : n < 2048) :
    altitudeField n < 4096 ∧ ¬ AC12Illegal (altitudeField n) ∧
      ∀ method a, AC12Meaning (altitudeField n) method a → a = 25 * (n : ℤ) - 1000 := by
  have key : ∀ n < 2048, altitudeField n < 4096 ∧ (altitudeField n).testBit 4 = true ∧ n25AC12 (altitudeField n) = n := by decide +kernel
  obtain ⟨k1, k2, k3⟩ := key n hn
  refine ⟨k1, fun h => ?_, fun method a h => ?_⟩
  · rw [h.1] at k2; cases k2
  · rcases h with ⟨-, -, h⟩ | ⟨h, -⟩
    · rw [h, k3]
    · rw [k2] at h; cases h

/-- C78. An airborne position message is decoded, by the reader of any version, to the position and the altitude sent. -/
theorem airborne_received (v : UInt8) (hv : v.toNat ≤ 2) (a c : Bool) (tc status antenna n time format : Nat) (lat lon : UInt32)
    (htc : AirborneTC tc) (h2 : status < 4) (h3 : antenna < 2) (h4 : n < 2048) (h5 : time < 2) (h6 : format < 2)
    (h7 : lat.toNat < 2 ^ 17) (h8 : lon.toNat < 2 ^ 17) :
    ∃ m p, readADSBMessage v a c (airborneField tc status antenna (altitudeField n) time format lat.toNat lon.toNat) =
        .returns (.val m) false ∧ IsAirborne m p ∧ p.altitudeInFeet = 25 * (n : ℤ) - 1000 ∧ p.cprFormat.toNat = format ∧
        p.encodedLatitude = lat ∧ p.encodedLongitude = lon := by
  have htc' := htc
  unfold AirborneTC at htc'
  obtain ⟨a1, a2, a3⟩ := altitudeField_meaning n h4
  obtain ⟨b1, b2, b3, b4, b5⟩ := airborneField_bits tc status antenna (altitudeField n) time format lat.toNat lon.toNat (by omega) h2 h3
    a1 h5 h6 h7 h8
  generalize hd : airborneField tc status antenna (altitudeField n) time format lat.toNat lon.toNat = d at *
  have hl : d.length = 7 := by rw [← hd]; exact toBytes_length 7 _
  rcases adsb_eval v a c d with ⟨-, hn, -⟩ | ⟨-, hn, -⟩ | ⟨-, m, hm, hc, -⟩
  · exact absurd ⟨hl, Or.inr (Or.inr (Or.inr (Or.inl ⟨by rw [b1]; exact htc, hv, by rw [b2]; exact a2⟩)))⟩ hn
  · exact absurd ⟨hl, Or.inr (Or.inr (Or.inr (Or.inl ⟨by rw [b1]; exact htc, hv, by rw [b2]; exact a2⟩)))⟩ hn
  have key : ∃ p : AirbornePosition, readBDS05 d = .ok p ∧ IsAirborne m p := by
    unfold IsAirborne
    cases m with
    | airborneV0 p x y => exact ⟨p, hc.2.2.1, Or.inl ⟨_, _, rfl⟩⟩
    | airborneV1 p x y z => exact ⟨p, hc.2.2.1, Or.inr (Or.inl ⟨_, _, _, rfl⟩)⟩
    | airborneV2 p x y z u => exact ⟨p, hc.2.2.1, Or.inr (Or.inr ⟨_, _, _, _, rfl⟩)⟩
    | surfaceV0 => have := hc.1; unfold SurfaceTC at this; omega
    | surfaceV1 => have := hc.1; unfold SurfaceTC at this; omega
    | surfaceV2 => have := hc.1; unfold SurfaceTC at this; omega
    | identification => have := hc.2.1; omega
    | _ => have := hc.1; omega
  obtain ⟨p, hp, hi⟩ := key
  obtain ⟨-, -, -, ha, -, -, hf, hla, hlo⟩ := airborne_position_content d p hp
  refine ⟨m, p, hm, hi, ?_, ?_, ?_, ?_⟩
  · exact a3 _ _ (by rw [← b2]; exact ha)
  · rw [hf, b3]
  · exact UInt32.toNat_inj.1 (by rw [hla, b4])
  · exact UInt32.toNat_inj.1 (by rw [hlo, b5])

/-- C78. A surface position message is decoded, by the reader of any version, to the position and the speed sent. -/
theorem surface_received (v : UInt8) (hv : v.toNat ≤ 2) (a c : Bool) (tc movement status track time format : Nat) (lat lon : UInt32)
    (htc : SurfaceTC tc) (h2 : movement < 128) (h3 : status < 2) (h4 : track < 128) (h5 : time < 2) (h6 : format < 2)
    (h7 : lat.toNat < 2 ^ 17) (h8 : lon.toNat < 2 ^ 17) :
    ∃ m p, readADSBMessage v a c (surfaceField tc movement status track time format lat.toNat lon.toNat) =
        .returns (.val m) false ∧ IsSurface m p ∧ p.movementSpeed = movementSpeed movement ∧ p.groundTrackStatus = (status == 1) ∧
        p.groundTrack = track * (360 / 128) ∧ p.cprFormat.toNat = format ∧ p.encodedLatitude = lat ∧ p.encodedLongitude = lon := by
  have htc' := htc
  unfold SurfaceTC at htc'
  obtain ⟨b1, b2, b3, b4, b5, b6, b7⟩ := surfaceField_bits tc movement status track time format lat.toNat lon.toNat (by omega) h2 h3 h4
    h5 h6 h7 h8
  generalize hd : surfaceField tc movement status track time format lat.toNat lon.toNat = d at *
  have hl : d.length = 7 := by rw [← hd]; exact toBytes_length 7 _
  rcases adsb_eval v a c d with ⟨-, hn, -⟩ | ⟨-, hn, -⟩ | ⟨-, m, hm, hc, -⟩
  · exact absurd ⟨hl, Or.inr (Or.inr (Or.inl ⟨by rw [b1]; exact htc, hv⟩))⟩ hn
  · exact absurd ⟨hl, Or.inr (Or.inr (Or.inl ⟨by rw [b1]; exact htc, hv⟩))⟩ hn
  have key : ∃ p : SurfacePosition, readBDS06 d = .ok p ∧ IsSurface m p := by
    unfold IsSurface
    cases m with
    | surfaceV0 p x y => exact ⟨p, hc.2.2.1, Or.inl ⟨_, _, rfl⟩⟩
    | surfaceV1 p x y z => exact ⟨p, hc.2.2.1, Or.inr (Or.inl ⟨_, _, _, rfl⟩)⟩
    | surfaceV2 p x y z u => exact ⟨p, hc.2.2.1, Or.inr (Or.inr ⟨_, _, _, _, rfl⟩)⟩
    | airborneV0 => have := hc.1; unfold AirborneTC at this; omega
    | airborneV1 => have := hc.1; unfold AirborneTC at this; omega
    | airborneV2 => have := hc.1; unfold AirborneTC at this; omega
    | identification => have := hc.2.1; omega
    | _ => have := hc.1; omega
  obtain ⟨p, hp, hi⟩ := key
  obtain ⟨-, -, hs, hts, ht, -, hf, hla, hlo⟩ := surface_position_content d p hp
  refine ⟨m, p, hm, hi, ?_, ?_, ?_, ?_, ?_, ?_⟩
  · rw [hs, b2]
  · rw [hts, bit, b3]
  · rw [ht, b4]
  · rw [hf, b5]
  · exact UInt32.toNat_inj.1 (by rw [hla, b6])
  · exact UInt32.toNat_inj.1 (by rw [hlo, b7])

/-- What a receiver does with the frame of an airborne position: read it, check the parity, read the message it carries. -/
def ReceivesAirborne (v : UInt8) (f : List UInt8) (address : Nat) (p : AirbornePosition) : Prop :=
  ∃ m a msg, readMessage f = .ok (.df17 m) ∧ checkCRC (.df17 m) f [] [] = .ok a ∧ a.toNat = address ∧
    readADSBMessage v false false m.messageExtendedSquitter = .returns (.val msg) false ∧ IsAirborne msg p

/-- As `ReceivesAirborne`, for the frame of a surface position. -/
def ReceivesSurface (v : UInt8) (f : List UInt8) (address : Nat) (p : SurfacePosition) : Prop :=
  ∃ m a msg, readMessage f = .ok (.df17 m) ∧ checkCRC (.df17 m) f [] [] = .ok a ∧ a.toNat = address ∧
    readADSBMessage v false false m.messageExtendedSquitter = .returns (.val msg) false ∧ IsSurface msg p

theorem airborne_frame_received (v : UInt8) (hv : v.toNat ≤ 2) (capability address : Nat) (hca : capability < 8) (haa : address < 2 ^ 24)
    (tc status antenna n time format : Nat) (lat lon : UInt32)
    (htc : AirborneTC tc) (h2 : status < 4) (h3 : antenna < 2) (h4 : n < 2048) (h5 : time < 2) (h6 : format < 2)
    (h7 : lat.toNat < 2 ^ 17) (h8 : lon.toNat < 2 ^ 17) (f : List UInt8)
    (hf : IsSquitter capability address (airborneField tc status antenna (altitudeField n) time format lat.toNat lon.toNat) f) :
    ∃ p, ReceivesAirborne v f address p ∧ p.altitudeInFeet = 25 * (n : ℤ) - 1000 ∧ p.cprFormat.toNat = format ∧
      p.encodedLatitude = lat ∧ p.encodedLongitude = lon := by
  obtain ⟨m, r1, r2, -, -, r5⟩ := squitter_received capability address _ f hca haa (toBytes_length 7 _) hf
  obtain ⟨a, r6, r7⟩ := r5 [] []
  obtain ⟨msg, p, q1, q2, q3⟩ := airborne_received v hv false false tc status antenna n time format lat lon htc h2 h3 h4 h5 h6 h7 h8
  exact ⟨p, ⟨m, a, msg, r1, r6, r7, by rw [r2]; exact q1, q2⟩, q3⟩

theorem surface_frame_received (v : UInt8) (hv : v.toNat ≤ 2) (capability address : Nat) (hca : capability < 8) (haa : address < 2 ^ 24)
    (tc movement status track time format : Nat) (lat lon : UInt32)
    (htc : SurfaceTC tc) (h2 : movement < 128) (h3 : status < 2) (h4 : track < 128) (h5 : time < 2) (h6 : format < 2)
    (h7 : lat.toNat < 2 ^ 17) (h8 : lon.toNat < 2 ^ 17) (f : List UInt8)
    (hf : IsSquitter capability address (surfaceField tc movement status track time format lat.toNat lon.toNat) f) :
    ∃ p, ReceivesSurface v f address p ∧ p.movementSpeed = movementSpeed movement ∧ p.groundTrackStatus = (status == 1) ∧
        p.groundTrack = track * (360 / 128) ∧ p.cprFormat.toNat = format ∧ p.encodedLatitude = lat ∧ p.encodedLongitude = lon := by
  obtain ⟨m, r1, r2, -, -, r5⟩ := squitter_received capability address _ f hca haa (toBytes_length 7 _) hf
  obtain ⟨a, r6, r7⟩ := r5 [] []
  obtain ⟨msg, p, q1, q2, q3⟩ := surface_received v hv false false tc movement status track time format lat lon htc h2 h3 h4 h5 h6 h7 h8
  exact ⟨p, ⟨m, a, msg, r1, r6, r7, by rw [r2]; exact q1, q2⟩, q3⟩

/-- C78, from the aircraft to the map. An aircraft sends its position in an even and an odd squitter, moving little in between (see
C55), at altitudes `25 n0 - 1000` and `25 n1 - 1000` feet. Reading the two frames gives its address, its altitudes, and two encoded
positions from which the global decoding, computed in `float64`, gives the position of the more recent message within half a step
and 2^-43 degree (about 5 metres). -/
theorem airborne_end_to_end (cosF acosF : ℝ → ℝ) (hF : Accurate cosF acosF) (v : UInt8) (hv : v.toNat ≤ 2) (capability address : Nat)
    (hca : capability < 8) (haa : address < 2 ^ 24) (tc0 tc1 st0 st1 an0 an1 n0 n1 t0 t1 : Nat)
    (htc0 : AirborneTC tc0) (htc1 : AirborneTC tc1) (hst0 : st0 < 4) (hst1 : st1 < 4) (han0 : an0 < 2) (han1 : an1 < 2)
    (hn0 : n0 < 2048) (hn1 : n1 < 2048) (ht0 : t0 < 2) (ht1 : t1 < 2) (lat0 lon0 lat1 lon1 : ℝ) (e : Bool)
    (h0 : |lat0| ≤ 90) (h1 : |lat1| ≤ 90) (hlat : |lat0 - lat1| ≤ 1 / 20) (hband : NL (rLat 17 0 lat0) = NL (rLat 17 1 lat1)) (s : ℤ)
    (hlon : (NL (rLat 17 0 lat0) : ℝ) * (NL (rLat 17 0 lat0) - 1) * |lon0 - lon1 - 360 * s| ≤ 179) (f0 f1 : List UInt8)
    (hf0 : IsSquitter capability address (airborneField tc0 st0 an0 (altitudeField n0) t0 0 (encodeLat 17 0 lat0).toNat
      (encodeLon 17 0 lat0 lon0).toNat) f0)
    (hf1 : IsSquitter capability address (airborneField tc1 st1 an1 (altitudeField n1) t1 1 (encodeLat 17 1 lat1).toNat
      (encodeLon 17 1 lat1 lon1).toNat) f1) :
    ∃ p0 p1 lat lon, ReceivesAirborne v f0 address p0 ∧ ReceivesAirborne v f1 address p1 ∧
      p0.cprFormat = 0 ∧ p1.cprFormat = 1 ∧
      p0.altitudeInFeet = 25 * (n0 : ℤ) - 1000 ∧ p1.altitudeInFeet = 25 * (n1 : ℤ) - 1000 ∧
      airborneGlobalF f64R (getNumberOfLongitudeF f64R cosF acosF) p0.encodedLatitude p0.encodedLongitude p1.encodedLatitude
        p1.encodedLongitude e = .ok (lat, lon) ∧
      |lat - (if e then lat0 else lat1)| ≤ (if e then dLat 0 else dLat 1) / 2 ^ 18 + 1 / 2 ^ 43 ∧
      -180 < lon ∧ lon ≤ 180 ∧
      ∃ t : ℤ, |lon - (if e then lon0 else lon1) - 360 * t| ≤ (if e then dLon 17 0 lat0 else dLon 17 1 lat1) / 2 ^ 18 + 1 / 2 ^ 43 := by
  obtain ⟨p0, r0, a0, c0, x0, y0⟩ := airborne_frame_received v hv capability address hca haa tc0 st0 an0 n0 t0 0 _ _ htc0 hst0 han0 hn0 ht0
    (by norm_num) (encode_lt _ _ _) (encode_lt _ _ _) f0 hf0
  obtain ⟨p1, r1, a1, c1, x1, y1⟩ := airborne_frame_received v hv capability address hca haa tc1 st1 an1 n1 t1 1 _ _ htc1 hst1 han1 hn1 ht1
    (by norm_num) (encode_lt _ _ _) (encode_lt _ _ _) f1 hf1
  obtain ⟨lat, lon, g⟩ := airborne_global_float64 cosF acosF hF lat0 lon0 lat1 lon1 e h0 h1 hlat hband s hlon
  refine ⟨p0, p1, lat, lon, r0, r1, UInt8.toNat_inj.1 c0, UInt8.toNat_inj.1 c1, a0, a1, ?_, g.2⟩
  rw [x0, y0, x1, y1]
  exact g.1

/-- C78, local decoding: one squitter and a reference less than half a zone away (C56). -/
theorem airborne_local_end_to_end (cosF acosF : ℝ → ℝ) (hF : Accurate cosF acosF) (v : UInt8) (hv : v.toNat ≤ 2) (capability address : Nat)
    (hca : capability < 8) (haa : address < 2 ^ 24) (tc st an n time : Nat) (htc : AirborneTC tc) (hst : st < 4) (han : an < 2)
    (hn : n < 2048) (ht : time < 2) (lat lon refLat refLon : ℝ) (isOdd : Bool) (h : |lat| ≤ 90) (hlon : |lon| ≤ 359)
    (i : ℕ) (hi : i = if isOdd then 1 else 0) (hrl : |lat - refLat| ≤ dLat i / 2 - dLat i / 2 ^ 17)
    (hrn : |lon - refLon| ≤ dLon 17 i lat / 2 - dLon 17 i lat / 2 ^ 17) (f : List UInt8)
    (hf : IsSquitter capability address (airborneField tc st an (altitudeField n) time i (encodeLat 17 i lat).toNat
      (encodeLon 17 i lat lon).toNat) f) :
    ∃ p lat' lon', ReceivesAirborne v f address p ∧ p.cprFormat.toNat = i ∧ p.altitudeInFeet = 25 * (n : ℤ) - 1000 ∧
      airborneLocalF f64R (getNumberOfLongitudeF f64R cosF acosF) p.encodedLatitude p.encodedLongitude refLat refLon (p.cprFormat == 1) =
        (lat', lon') ∧
      |lat' - lat| ≤ dLat i / 2 ^ 18 + 1 / 2 ^ 43 ∧ |lon' - lon| ≤ dLon 17 i lat / 2 ^ 18 + 1 / 2 ^ 43 := by
  have hi2 : i < 2 := by rw [hi]; split <;> omega
  obtain ⟨p, r, a, c, x, y⟩ := airborne_frame_received v hv capability address hca haa tc st an n time i _ _ htc hst han hn ht
    hi2 (encode_lt _ _ _) (encode_lt _ _ _) f hf
  have hodd : (p.cprFormat == 1) = isOdd := by
    cases isOdd with
    | true => rw [show p.cprFormat = 1 from UInt8.toNat_inj.1 (c.trans hi)]; rfl
    | false => rw [show p.cprFormat = 0 from UInt8.toNat_inj.1 (c.trans hi)]; rfl
  subst hi
  obtain ⟨lat', lon', g⟩ := airborne_local_float64 cosF acosF hF lat lon refLat refLon isOdd h hlon hrl hrn
  refine ⟨p, lat', lon', r, c, a, ?_, g.2⟩
  rw [x, y, hodd]
  exact g.1

/-- C78, on the ground: an even and an odd surface squitter and a reference in the same hemisphere within 45 degrees of longitude
(C57, C68). -/
theorem surface_end_to_end (cosF acosF : ℝ → ℝ) (hF : Accurate cosF acosF) (v : UInt8) (hv : v.toNat ≤ 2) (capability address : Nat)
    (hca : capability < 8) (haa : address < 2 ^ 24) (tc0 tc1 mv0 mv1 st0 st1 tr0 tr1 t0 t1 : Nat)
    (htc0 : SurfaceTC tc0) (htc1 : SurfaceTC tc1) (hmv0 : mv0 < 128) (hmv1 : mv1 < 128) (hst0 : st0 < 2) (hst1 : st1 < 2)
    (htr0 : tr0 < 128) (htr1 : tr1 < 128) (ht0 : t0 < 2) (ht1 : t1 < 2) (lat0 lon0 lat1 lon1 refLat refLon : ℝ) (e : Bool)
    (h0 : SameHemisphere 0 refLat lat0) (h1 : SameHemisphere 1 refLat lat1)
    (s0 : rLat 19 0 lat0 = 0 ∨ dLat 0 / 2 ^ 17 ≤ |rLat 19 0 lat0|) (s1 : rLat 19 1 lat1 = 0 ∨ dLat 1 / 2 ^ 17 ≤ |rLat 19 1 lat1|)
    (hlat : |lat0 - lat1| ≤ 1 / 80) (hband : NL (rLat 19 0 lat0) = NL (rLat 19 1 lat1))
    (hlon : (NL (rLat 19 0 lat0) : ℝ) * (NL (rLat 19 0 lat0) - 1) * |lon0 - lon1| ≤ 44)
    (hl : |if e then lon0 else lon1| ≤ 17998 / 100) (hr : |(if e then lon0 else lon1) - refLon| ≤ 4498 / 100) (f0 f1 : List UInt8)
    (hf0 : IsSquitter capability address (surfaceField tc0 mv0 st0 tr0 t0 0 (encodeLat 19 0 lat0).toNat (encodeLon 19 0 lat0 lon0).toNat) f0)
    (hf1 : IsSquitter capability address (surfaceField tc1 mv1 st1 tr1 t1 1 (encodeLat 19 1 lat1).toNat (encodeLon 19 1 lat1 lon1).toNat) f1) :
    ∃ p0 p1 lat lon, ReceivesSurface v f0 address p0 ∧ ReceivesSurface v f1 address p1 ∧
      p0.cprFormat = 0 ∧ p1.cprFormat = 1 ∧ p0.movementSpeed = movementSpeed mv0 ∧ p1.movementSpeed = movementSpeed mv1 ∧
      p0.groundTrack = tr0 * (360 / 128) ∧ p1.groundTrack = tr1 * (360 / 128) ∧
      surfaceGlobalF f64R (getNumberOfLongitudeF f64R cosF acosF) p0.encodedLatitude p0.encodedLongitude p1.encodedLatitude
        p1.encodedLongitude e refLat refLon = .ok (lat, lon) ∧
      |lat - (if e then lat0 else lat1)| ≤ (if e then dLat 0 else dLat 1) / 2 ^ 20 + 1 / 2 ^ 43 ∧
      |lon - (if e then lon0 else lon1)| ≤ (if e then dLon 19 0 lat0 else dLon 19 1 lat1) / 2 ^ 20 + 1 / 10 ^ 11 := by
  obtain ⟨p0, r0, a0, -, b0, c0, x0, y0⟩ := surface_frame_received v hv capability address hca haa tc0 mv0 st0 tr0 t0 0 _ _ htc0 hmv0 hst0
    htr0 ht0 (by norm_num) (encode_lt _ _ _) (encode_lt _ _ _) f0 hf0
  obtain ⟨p1, r1, a1, -, b1, c1, x1, y1⟩ := surface_frame_received v hv capability address hca haa tc1 mv1 st1 tr1 t1 1 _ _ htc1 hmv1 hst1
    htr1 ht1 (by norm_num) (encode_lt _ _ _) (encode_lt _ _ _) f1 hf1
  obtain ⟨lat, lon, g1, g2, g3⟩ := surface_global_float64 cosF acosF hF lat0 lon0 lat1 lon1 refLat refLon e h0 h1 s0 s1 hlat hband hlon hl hr
  refine ⟨p0, p1, lat, lon, r0, r1, UInt8.toNat_inj.1 c0, UInt8.toNat_inj.1 c1, a0, a1, b0, b1, ?_, ?_, ?_⟩
  · rw [x0, y0, x1, y1]; exact g1
  · refine le_trans g2 (le_of_eq ?_); ring
  · refine le_trans g3 (le_of_eq ?_); ring

/-- The hypotheses of `airborne_end_to_end` are met: an aircraft at 4.8 degrees east over the equator, flying at 38000 feet. -/
example : ∃ f0 f1 p0 p1 lat lon, ReceivesAirborne 0 f0 0x4840D6 p0 ∧ ReceivesAirborne 0 f1 0x4840D6 p1 ∧
    p0.altitudeInFeet = 38000 ∧ p1.altitudeInFeet = 38025 ∧
    airborneGlobalF f64R (getNumberOfLongitudeF f64R (fun x => f64R (Real.cos x)) (fun x => f64R (Real.arccos x))) p0.encodedLatitude
      p0.encodedLongitude p1.encodedLatitude p1.encodedLongitude true = .ok (lat, lon) ∧ |lat - 0| ≤ dLat 0 / 2 ^ 18 + 1 / 2 ^ 43 ∧
    ∃ t : ℤ, |lon - 48 / 10 - 360 * t| ≤ dLon 17 0 0 / 2 ^ 18 + 1 / 2 ^ 43 := by
  have hz (i : ℕ) (hi : i ≤ 1) : rLat 17 i 0 = 0 := by
    rw [rLat_eq i hi]
    have : grid 17 (dLat i) 0 = 0 := by unfold grid; rw [Int.floor_eq_iff]; norm_num
    rw [this]; norm_num
  obtain ⟨f0, hf0⟩ := isSquitter_exists 5 0x4840D6 (airborneField 11 0 0 (altitudeField 1560) 0 0 (encodeLat 17 0 0).toNat
    (encodeLon 17 0 0 (48 / 10)).toNat)
  obtain ⟨f1, hf1⟩ := isSquitter_exists 5 0x4840D6 (airborneField 11 0 0 (altitudeField 1561) 0 1 (encodeLat 17 1 0).toNat
    (encodeLon 17 1 0 (48 / 10)).toNat)
  obtain ⟨p0, p1, lat, lon, r0, r1, -, -, a0, a1, g, g1, -, -, g2⟩ := airborne_end_to_end _ _ accurate_rounded 0 (by decide) 5 0x4840D6
    (by norm_num) (by norm_num) 11 11 0 0 0 0 1560 1561 0 0 (by unfold AirborneTC; norm_num) (by unfold AirborneTC; norm_num) (by norm_num)
    (by norm_num) (by norm_num) (by norm_num) (by norm_num) (by norm_num) (by norm_num) (by norm_num) 0 (48 / 10) 0 (48 / 10) true
    (by norm_num) (by norm_num) (by norm_num) (by rw [hz 0 (by norm_num), hz 1 le_rfl]) 0 (by norm_num) f0 f1 hf0 hf1
  exact ⟨f0, f1, p0, p1, lat, lon, r0, r1, by rw [a0]; norm_num, by rw [a1]; norm_num, g, by simpa using g1, by simpa using g2⟩

end Modes
