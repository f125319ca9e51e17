import Verif.Spec.Transmit
import Verif.Props.CommB
import Verif.Props.EndToEnd
/-!
# C85: Comm-B registers, from the aircraft to the candidates
-/
namespace Spec
open Polynomial

/-- `f` is the 112-bit Comm-B reply (downlink format 20 or 21) of an aircraft: format (5 bits), the other 27 bits of the header, the register, and the
parity overlaid with the address. -/
def IsCommBReply (format header address : Nat) (mb f : List UInt8) : Prop :=
  ∃ p : List UInt8, p.length = 3 ∧ f = toBytes 4 (format * 2 ^ 27 + header) ++ mb ++ p ∧ Overlaid f address

/-- The value received for a parameter: available and within `tolerance` of the value sent, or not available and zero. -/
def Received (sent : Option ℝ) (status : Bool) (value tolerance : ℝ) : Prop :=
  (∀ x, sent = some x → status = true ∧ |value - x| ≤ tolerance) ∧ (sent = none → status = false ∧ value = 0)

/-- As `Received`, for an angle in degrees. -/
def ReceivedAngle (sent : Option ℝ) (status : Bool) (value tolerance : ℝ) : Prop :=
  (∀ x, sent = some x → status = true ∧ ∃ j : ℤ, |value - x - 360 * j| ≤ tolerance) ∧ (sent = none → status = false ∧ value = 0)

/-- The state of flight an airliner may report in BDS 5,0: roll below 49.9 degrees, ground speed up to 600 knots, airspeed up to 500, not more than 200 knots
apart, turning at less than 15.9 degrees per second. -/
structure FlightState50 (roll track groundSpeed rate airspeed : Option ℝ) : Prop where
  roll_range : ∀ x, roll = some x → |x| ≤ 49.9
  groundSpeed_range : ∀ x, groundSpeed = some x → 0 ≤ x ∧ x ≤ 600
  rate_range : ∀ x, rate = some x → |x| ≤ 15.9
  airspeed_range : ∀ x, airspeed = some x → 0 ≤ x ∧ x ≤ 500
  wind : ∀ g t, groundSpeed = some g → airspeed = some t → |g - t| ≤ 200

/-- The state of flight an airliner may report in BDS 6,0: indicated airspeed up to 500 knots, not supersonic, vertical speeds up to 5984 feet per minute. -/
structure FlightState60 (heading airspeed mach barometric inertial : Option ℝ) : Prop where
  airspeed_range : ∀ x, airspeed = some x → 0 ≤ x ∧ x ≤ 500
  mach_range : ∀ x, mach = some x → 0 ≤ x ∧ x ≤ 1
  barometric_range : ∀ x, barometric = some x → |x| ≤ 5984
  inertial_range : ∀ x, inertial = some x → |x| ≤ 5984

end Spec
namespace Modes
open Spec

/-! ## One parameter -/

theorem bits_status (d : List UInt8) (s n : Nat) (hl : s + n ≤ 8 * d.length) :
    bits d s s = bits d s (s + n) / 2 ^ n ∧ bits d (s + 1) (s + n) = bits d s (s + n) % 2 ^ n := by
  unfold bits
  have e1 : s + 1 - s = 1 := by omega
  have e2 : s + n + 1 - s = n + 1 := by omega
  have e3 : s + n + 1 - (s + 1) = n := by omega
  have e4 : 8 * d.length - s = (8 * d.length - (s + n)) + n := by omega
  rw [e1, e2, e3, e4, pow_add, ← Nat.div_div_eq_div_mul]
  generalize beNat d / 2 ^ (8 * d.length - (s + n)) = u
  refine ⟨?_, ?_⟩
  · rw [pow_succ 2 n, Nat.mod_mul_right_div_self, pow_one]
  · rw [Nat.mod_mod_of_dvd _ (Dvd.intro _ (pow_succ 2 n).symm)]

/-- The status bit and the code of a parameter. -/
theorem param_bits (d : List UInt8) (s n : Nat) (o : Option Nat) (hl : s + n ≤ 8 * d.length) (ho : ∀ c, o = some c → c < 2 ^ n)
    (h : bits d s (s + n) = param n o) :
    bit d s = o.isSome ∧ bits d (s + 1) (s + n) = o.getD 0 := by
  obtain ⟨h1, h2⟩ := bits_status d s n hl
  unfold bit
  rw [h1, h2, h]
  have hp : 0 < 2 ^ n := by positivity
  cases o with
  | none => simp [param]
  | some c =>
    have hc := ho c rfl
    have e1 : (2 ^ n + c) / 2 ^ n = 1 := by
      rw [Nat.add_div_left _ hp, Nat.div_eq_of_lt hc]
    have e2 : (2 ^ n + c) % 2 ^ n = c := by rw [Nat.add_mod_left, Nat.mod_eq_of_lt hc]
    simp [param, e1, e2]

theorem bits_pos (d : List UInt8) (s p l : Nat) (h1 : s ≤ p) (h2 : p ≤ l) (hl : l ≤ 8 * d.length) (hb : bit d p = true) : bits d s l ≠ 0 := by
  intro h0
  unfold bit bits at *
  have e1 : p + 1 - p = 1 := by omega
  rw [e1] at hb
  obtain ⟨k, hk⟩ : ∃ k, l = p + k := ⟨l - p, by omega⟩
  subst hk
  have e4 : 8 * d.length - p = (8 * d.length - (p + k)) + k := by omega
  rw [e4, pow_add, ← Nat.div_div_eq_div_mul] at hb
  generalize beNat d / 2 ^ (8 * d.length - (p + k)) = u at *
  have h := Nat.dvd_of_mod_eq_zero h0
  obtain ⟨q, rfl⟩ := h
  have e2 : p + k + 1 - s = (p - s + 1) + k := by omega
  have e3 : 2 ^ (p + k + 1 - s) * q / 2 ^ k = 2 ^ (p - s + 1) * q := by
    rw [e2, pow_add, mul_right_comm, Nat.mul_div_cancel _ (by positivity)]
  rw [e3, pow_succ, mul_right_comm, pow_one, Nat.mul_mod_left] at hb
  cases hb

theorem sbits_mod (d : List UInt8) (f l : Nat) : ∃ j : ℤ, sbits d f l = bits d f l - 2 ^ (l + 1 - f) * j := by
  unfold sbits
  split
  · exact ⟨1, by ring⟩
  · exact ⟨0, by ring⟩

theorem twosCode_lt (n : Nat) (step x : ℝ) : twosCode n step x < 2 ^ n := by
  unfold twosCode
  have h : ⌊x / step + 1 / 2⌋ % 2 ^ n < 2 ^ n := Int.emod_lt_of_pos _ (by positivity)
  have h0 : 0 ≤ ⌊x / step + 1 / 2⌋ % 2 ^ n := Int.emod_nonneg _ (by positivity)
  zify
  rw [Int.toNat_of_nonneg h0]
  exact h

theorem twosCode_mod (n : Nat) (step x : ℝ) : ∃ j : ℤ, (twosCode n step x : ℤ) = ⌊x / step + 1 / 2⌋ - 2 ^ n * j := by
  unfold twosCode
  have h0 : 0 ≤ ⌊x / step + 1 / 2⌋ % 2 ^ n := Int.emod_nonneg _ (by positivity)
  rw [Int.toNat_of_nonneg h0]
  exact ⟨⌊x / step + 1 / 2⌋ / 2 ^ n, by have := Int.emod_add_mul_ediv ⌊x / step + 1 / 2⌋ (2 ^ n); linarith⟩

theorem floor_close (step x : ℝ) (hs : 0 < step) : |(⌊x / step + 1 / 2⌋ : ℝ) * step - x| ≤ step / 2 := by
  have f1 := Int.floor_le (x / step + 1 / 2)
  have f2 := Int.lt_floor_add_one (x / step + 1 / 2)
  have e : x = x / step * step := by field_simp
  generalize x / step = y at *
  rw [e, ← sub_mul, abs_mul, abs_of_pos hs]
  have : |(⌊y + 1 / 2⌋ : ℝ) - y| ≤ 1 / 2 := abs_le.2 ⟨by linarith, by linarith⟩
  nlinarith

theorem floor_range (step x : ℝ) (N : ℕ) (hs : 0 < step) (hx : |x| ≤ step * N) : -(N : ℤ) ≤ ⌊x / step + 1 / 2⌋ ∧ ⌊x / step + 1 / 2⌋ ≤ N := by
  have ⟨h1, h2⟩ := abs_le.1 hx
  have g1 : -(N : ℝ) ≤ x / step := by rw [le_div_iff₀ hs]; linarith
  have g2 : x / step ≤ N := by rw [div_le_iff₀ hs]; linarith
  refine ⟨Int.le_floor.2 (by push_cast; linarith), ?_⟩
  have : ⌊x / step + 1 / 2⌋ < (N : ℤ) + 1 := Int.floor_lt.2 (by push_cast; linarith)
  omega

theorem unsigned_range (step x : ℝ) (N : ℕ) (hs : 0 < step) (h0 : 0 ≤ x) (hx : x ≤ step * N) :
    unsignedCode step x ≤ N ∧ |(unsignedCode step x : ℝ) * step - x| ≤ step / 2 := by
  unfold unsignedCode
  have g0 : 0 ≤ x / step := div_nonneg h0 hs.le
  have g2 : x / step ≤ N := by rw [div_le_iff₀ hs]; linarith
  refine ⟨?_, ?_⟩
  · have : ⌊x / step + 1 / 2⌋₊ < N + 1 := (Nat.floor_lt (by linarith)).2 (by push_cast; linarith)
    omega
  · have := floor_close step x hs
    rwa [← natCast_floor_eq_intCast_floor (by linarith : 0 ≤ x / step + 1 / 2)] at this

/-- A signed parameter (two's complement). -/
theorem signed_param (d : List UInt8) (s n N : Nat) (step : ℝ) (o : Option ℝ) (hs : 0 < step) (hn : 1 < n) (hl : s + n ≤ 8 * d.length) (hN : N < 2 ^ (n - 1))
    (ho : ∀ x, o = some x → |x| ≤ step * N) (h : bits d s (s + n) = param n (o.map (twosCode n step))) :
    bit d s = o.isSome ∧ Received o (bit d s) (sbits d (s + 1) (s + n) * step) (step / 2) ∧
    (-(N : ℤ) ≤ sbits d (s + 1) (s + n) ∧ sbits d (s + 1) (s + n) ≤ N) ∧ (bit d s = false → sbits d (s + 1) (s + n) = 0) := by
  obtain ⟨h1, h2⟩ := param_bits d s n _ hl (by
    intro c hc
    cases o with
    | none => cases hc
    | some x => simp only [Option.map_some, Option.some.injEq] at hc; rw [← hc]; exact twosCode_lt n step x) h
  have e1 : s + n + 1 - (s + 1) = n := by omega
  have e2 : s + n - (s + 1) = n - 1 := by omega
  have hr := sbits_range d (s + 1) (s + n) (by omega) hl
  rw [e2] at hr
  obtain ⟨j, hj⟩ := sbits_mod d (s + 1) (s + n)
  rw [e1, h2] at hj
  have hpow : (2 : ℤ) ^ n = 2 * 2 ^ (n - 1) := by rw [← pow_succ']; congr 1; omega
  have hN' : (N : ℤ) < 2 ^ (n - 1) := by exact_mod_cast hN
  generalize sbits d (s + 1) (s + n) = z at *
  cases o with
  | none =>
    simp only [Option.map_none, Option.isSome_none, Option.getD_none] at h1 hj
    have hz : z = 0 := by
      have hp : (0 : ℤ) < 2 ^ (n - 1) := by positivity
      push_cast at hj
      rw [hpow] at hj
      have : j = 0 := by nlinarith [lt_trichotomy j 0]
      subst this; simpa using hj
    refine ⟨h1, ⟨fun x hx => (by cases hx), fun _ => ⟨h1, by rw [hz]; simp⟩⟩, by omega, fun _ => hz⟩
  | some x =>
    simp only [Option.map_some, Option.isSome_some, Option.getD_some] at h1 hj
    obtain ⟨i, hi⟩ := twosCode_mod n step x
    obtain ⟨r1, r2⟩ := floor_range step x N hs (ho x rfl)
    have hc := floor_close step x hs
    have hz : z = ⌊x / step + 1 / 2⌋ := by
      rw [hi] at hj
      generalize ⌊x / step + 1 / 2⌋ = y at *
      rw [hpow] at hj
      have : i + j = 0 := by
        by_contra hne
        rcases lt_or_gt_of_ne hne with g | g
        · nlinarith [Int.add_one_le_iff.2 g]
        · nlinarith [Int.add_one_le_iff.2 g]
      have : j = -i := by omega
      subst this; linarith
    rw [← hz] at hc r1 r2
    refine ⟨h1, ⟨fun y hy => ?_, fun hy => (by cases hy)⟩, ⟨r1, r2⟩, fun hb => (by rw [h1] at hb; cases hb)⟩
    cases hy
    exact ⟨h1, hc⟩

/-- An angle: no condition on the angle sent. -/
theorem angle_param (d : List UInt8) (s n : Nat) (step : ℝ) (o : Option ℝ) (hs : 0 < step) (hn : 1 < n) (hl : s + n ≤ 8 * d.length)
    (hc : step * 2 ^ n = 360) (h : bits d s (s + n) = param n (o.map (twosCode n step))) :
    bit d s = o.isSome ∧ ReceivedAngle o (bit d s) (sbits d (s + 1) (s + n) * step) (step / 2) ∧ (bit d s = false → sbits d (s + 1) (s + n) = 0) := by
  cases o with
  | none =>
    obtain ⟨h1, h2, -, h4⟩ := signed_param d s n 0 step none hs hn hl (by positivity) (fun x hx => (by cases hx)) h
    exact ⟨h1, ⟨fun x hx => (by cases hx), h2.2⟩, h4⟩
  | some x =>
    obtain ⟨h1, h2⟩ := param_bits d s n _ hl (by
      intro c hc
      simp only [Option.map_some, Option.some.injEq] at hc; rw [← hc]; exact twosCode_lt n step x) h
    have e1 : s + n + 1 - (s + 1) = n := by omega
    obtain ⟨j, hj⟩ := sbits_mod d (s + 1) (s + n)
    rw [e1, h2] at hj
    simp only [Option.map_some, Option.isSome_some, Option.getD_some] at h1 hj
    obtain ⟨i, hi⟩ := twosCode_mod n step x
    have hcl := floor_close step x hs
    refine ⟨h1, ⟨fun y hy => ?_, fun hy => (by cases hy)⟩, fun hb => (by rw [h1] at hb; cases hb)⟩
    cases hy
    refine ⟨h1, -(i + j), ?_⟩
    rw [hj, hi]
    push_cast
    have e : ((⌊x / step + 1 / 2⌋ : ℝ) - 2 ^ n * i - 2 ^ n * j) * step - x - 360 * (-(i + j)) = (⌊x / step + 1 / 2⌋ : ℝ) * step - x := by
      rw [← hc]; ring
    rw [e]; exact hcl

/-- An unsigned parameter. -/
theorem unsigned_param (d : List UInt8) (s n N : Nat) (step : ℝ) (o : Option ℝ) (hs : 0 < step) (hl : s + n ≤ 8 * d.length) (hN : N < 2 ^ n)
    (ho : ∀ x, o = some x → 0 ≤ x ∧ x ≤ step * N) (h : bits d s (s + n) = param n (o.map (unsignedCode step))) :
    bit d s = o.isSome ∧ Received o (bit d s) (bits d (s + 1) (s + n) * step) (step / 2) ∧
    bits d (s + 1) (s + n) ≤ N ∧ (bit d s = false → bits d (s + 1) (s + n) = 0) := by
  obtain ⟨h1, h2⟩ := param_bits d s n _ hl (by
    intro c hc
    cases o with
    | none => cases hc
    | some x =>
      simp only [Option.map_some, Option.some.injEq] at hc
      have := (unsigned_range step x N hs (ho x rfl).1 (ho x rfl).2).1
      omega) h
  rw [h2]
  cases o with
  | none => exact ⟨h1, ⟨fun x hx => (by cases hx), fun _ => ⟨h1, by simp⟩⟩, Nat.zero_le _, fun _ => rfl⟩
  | some x =>
    obtain ⟨r1, r2⟩ := unsigned_range step x N hs (ho x rfl).1 (ho x rfl).2
    refine ⟨h1, ⟨fun y hy => ?_, fun hy => (by cases hy)⟩, r1, fun hb => (by rw [h1] at hb; cases hb)⟩
    cases hy
    exact ⟨h1, r2⟩

theorem div_80 (w x y : Nat) (hx : x < 2 ^ (8 * 7)) (hy : y < 2 ^ (8 * 3)) : ((w * 2 ^ (8 * 7) + x) * 2 ^ (8 * 3) + y) / 2 ^ 80 = w := by
  have e : (2 : Nat) ^ 80 = 2 ^ (8 * 3) * 2 ^ (8 * 7) := by norm_num
  rw [e, ← Nat.div_div_eq_div_mul, mul_comm _ (2 ^ (8 * 3)), Nat.mul_add_div (by norm_num), Nat.div_eq_of_lt hy, add_zero, mul_comm, Nat.mul_add_div (by norm_num),
    Nat.div_eq_of_lt hx, add_zero]

/-- C85. Every Comm-B reply whose altitude (format 20) can be decoded is read, and gives the register sent and the address of the sender. -/
theorem commB_reply_received (format header address : Nat) (mb f : List UInt8) (hfo : format = 20 ∨ format = 21) (hh : header < 2 ^ 27)
    (halt : format = 20 → ¬ AltitudeIllegal (header % 2 ^ 13)) (hmb : mb.length = 7) (h : IsCommBReply format header address mb f) :
    ∃ m, readMessage f = .ok m ∧
      ((format = 20 ∧ ∃ x, m = .df20 x ∧ x.messageCommB = mb) ∨ (format = 21 ∧ ∃ x, m = .df21 x ∧ x.messageCommB = mb)) ∧
      ∃ a, checkCRC m f [] [] = .ok a ∧ a.toNat = address := by
  obtain ⟨p, hp, hf, ho⟩ := h
  have hl : f.length = 14 := by rw [hf]; simp [toBytes_length, hmb, hp]
  have hv : format * 2 ^ 27 + header < 2 ^ 32 := by omega
  have hb : ∀ a b, b ≤ 32 → bits f a b = (format * 2 ^ 27 + header) / 2 ^ (32 - b) % 2 ^ (b + 1 - a) := by
    intro a b hb
    unfold bits
    rw [hl, hf, beNat_append, beNat_append, hmb, hp, beNat_toBytes]
    have e : (format * 2 ^ 27 + header) % 256 ^ 4 = format * 2 ^ 27 + header := Nat.mod_eq_of_lt (lt_of_lt_of_eq hv (by norm_num))
    have h1 := beNat_lt mb
    have h2 := beNat_lt p
    rw [hmb] at h1; rw [hp] at h2
    have e2 : 8 * 14 - b = 80 + (32 - b) := by omega
    rw [e, e2, pow_add, ← Nat.div_div_eq_div_mul, div_80 _ _ _ h1 h2]
  have hdf : bits f 1 5 = format := by rw [hb 1 5 (by norm_num)]; norm_num; omega
  have hac : bits f 20 32 = header % 2 ^ 13 := by rw [hb 20 32 (by norm_num)]; norm_num; omega
  obtain ⟨m, hm⟩ := (readMessage_accepts_iff f).2 ⟨Or.inr ⟨hl, by rw [hdf]; rcases hfo with h | h <;> rw [h] <;> decide⟩, fun hmem => by
    rw [hac]; apply halt
    rw [hdf] at hmem
    rcases hfo with h | h
    · exact h
    · rw [h] at hmem; exact absurd hmem (by decide)⟩
  have ht := readMessage_type f m hm
  have hdrop : (f.drop 4).take 7 = mb := by
    rw [hf, List.append_assoc, List.drop_left' (toBytes_length 4 _), List.take_left' hmb]
  refine ⟨m, hm, ?_, UInt32.ofNat address, ?_, ?_⟩
  · rw [hdf] at ht
    rcases hfo with h | h
    · left; refine ⟨h, ?_⟩
      rw [h] at ht
      cases m <;> simp [ModeSMessage.getDownLinkFormat] at ht
      next x => exact ⟨x, rfl, by rw [(df20_fields f x hm).2.2.2.2.2.2.1, hdrop]⟩
    · right; refine ⟨h, ?_⟩
      rw [h] at ht
      cases m <;> simp [ModeSMessage.getDownLinkFormat] at ht
      next x => exact ⟨x, rfl, by rw [(df21_fields f x hm).2.2.2.2.2.2.1, hdrop]⟩
  · exact checkCRC_recovers f m hm (by rw [hdf]; rcases hfo with h | h <;> rw [h] <;> decide) address ho
  · have := ho.1
    exact Nat.mod_eq_of_lt (by omega : address < 2 ^ 32)

/-! ## Registers -/

/-- `ReadMessage`, `CheckCRC` and `ReadCommBMessage` turn the frame `f` into the candidates `l` for the aircraft `address`. -/
def ReceivesCommB (f : List UInt8) (address : Nat) (l : List CommBMessage) : Prop :=
  ∃ m mb a, readMessage f = .ok m ∧ ((∃ x, m = .df20 x ∧ x.messageCommB = mb) ∨ ∃ x, m = .df21 x ∧ x.messageCommB = mb) ∧
    checkCRC m f [] [] = .ok a ∧ a.toNat = address ∧ readCommBMessage mb = .ok (l.map Iface.val)

/-- The header of a reply that can be read: the altitude of a format 20 is not one of the illegal codes. -/
def ReadableHeader (format header : Nat) : Prop :=
  (format = 20 ∨ format = 21) ∧ header < 2 ^ 27 ∧ (format = 20 → ¬ AltitudeIllegal (header % 2 ^ 13))

theorem commB_delivered (format header address : Nat) (mb f : List UInt8) (hh : ReadableHeader format header) (hmb : mb.length = 7)
    (h : IsCommBReply format header address mb f) (l : List CommBMessage) (hl : readCommBMessage mb = .ok (l.map Iface.val)) : ReceivesCommB f address l := by
  obtain ⟨m, hm, hx, a, ha, haa⟩ := commB_reply_received format header address mb f hh.1 hh.2.1 hh.2.2 hmb h
  refine ⟨m, mb, a, hm, ?_, ha, haa, hl⟩
  rcases hx with ⟨-, x⟩ | ⟨-, x⟩
  · exact Or.inl x
  · exact Or.inr x

/-- A register with a status bit first, zeroes in bits 2 to 11 if it is not set, and something in its last 6 bytes is not one of the unambiguous ones. -/
theorem ambiguous_register (d : List UInt8) (h7 : d.length = 7) (h1 : bit d 1 = true ∨ bits d 2 8 = 0) (p : Nat) (hp : 9 ≤ p ∧ p ≤ 56) (hb : bit d p = true)
    (m : CommBMessage) (hm : Candidate d m) : m.unambiguous = false := by
  have hz : bits d 9 56 ≠ 0 := bits_pos d 9 p 56 hp.1 hp.2 (by omega) hb
  have hz1 : bits d 1 56 ≠ 0 := bits_pos d 1 p 56 (by omega) hp.2 (by omega) hb
  cases m with
  | bds00 x =>
    exfalso
    have := hm.1
    rcases bds00_eval d with ⟨e, -⟩ | ⟨⟨-, h0⟩, -⟩
    · simp only [ReadsAs, e] at this; cases this
    · exact hz1 h0
  | bds07 x =>
    exfalso
    have := hm.1
    rcases bds07_eval d with ⟨e, -⟩ | ⟨⟨-, -, h0⟩, -⟩
    · simp only [ReadsAs, e] at this; cases this
    · exact hz h0
  | bds20 x =>
    exfalso
    have := hm.1
    simp only [ReadsAs, bds20_eval] at this
    split at this
    · rename_i hc
      have e := bits_status d 1 7 (by omega)
      norm_num at e
      rw [hc.2] at e
      rcases h1 with h1 | h1
      · unfold bit at h1; rw [e.1] at h1; cases h1
      · rw [h1] at e; exact absurd e.2 (by decide)
    · cases this
  | _ => rfl

theorem unsigned_gap (x y : ℝ) (N : ℕ) (hy : 0 ≤ y) (h : x - y ≤ 2 * N) : unsignedCode 2 x ≤ unsignedCode 2 y + N := by
  unfold unsignedCode
  rw [← Nat.floor_add_natCast (by positivity)]
  exact Nat.floor_le_floor (by linarith)

/-- The code of an unsigned parameter. -/
theorem unsigned_code (d : List UInt8) (s n N : Nat) (step : ℝ) (o : Option ℝ) (hs : 0 < step) (hl : s + n ≤ 8 * d.length) (hN : N < 2 ^ n)
    (ho : ∀ x, o = some x → 0 ≤ x ∧ x ≤ step * N) (h : bits d s (s + n) = param n (o.map (unsignedCode step))) :
    bits d (s + 1) (s + n) = (o.map (unsignedCode step)).getD 0 :=
  (param_bits d s n _ hl (by
    intro c hc
    obtain ⟨x, hx, rfl⟩ := Option.map_eq_some_iff.1 hc
    have := (unsigned_range step x N hs (ho x hx).1 (ho x hx).2).1
    omega) h).2

theorem trackTurn_bits (roll track gs rate tas : Option ℝ) (h : FlightState50 roll track gs rate tas) :
    let d := trackTurnField roll track gs rate tas
    bits d 1 (1 + 10) = param 10 (roll.map (twosCode 10 (45 / 256))) ∧ bits d 12 (12 + 11) = param 11 (track.map (twosCode 11 (90 / 512))) ∧
    bits d 24 (24 + 10) = param 10 (gs.map (unsignedCode 2)) ∧ bits d 35 (35 + 10) = param 10 (rate.map (twosCode 10 (8 / 256))) ∧
    bits d 46 (46 + 10) = param 10 (tas.map (unsignedCode 2)) := by
  intro d
  have hp (n : Nat) (o : Option Nat) (ho : ∀ c, o = some c → c < 2 ^ n) : param n o < 2 ^ (n + 1) := by
    cases o with
    | none => simp [param]
    | some c => have := ho c rfl; simp only [param]; omega
  have h1 := hp 10 (roll.map (twosCode 10 (45 / 256))) (by
    intro c hc; obtain ⟨x, -, rfl⟩ := Option.map_eq_some_iff.1 hc; exact twosCode_lt _ _ _)
  have h2 := hp 11 (track.map (twosCode 11 (90 / 512))) (by
    intro c hc; obtain ⟨x, -, rfl⟩ := Option.map_eq_some_iff.1 hc; exact twosCode_lt _ _ _)
  have h3 := hp 10 (gs.map (unsignedCode 2)) (by
    intro c hc; obtain ⟨x, hx, rfl⟩ := Option.map_eq_some_iff.1 hc
    have := (unsigned_range 2 x 300 (by norm_num) (h.groundSpeed_range x hx).1 (by have := (h.groundSpeed_range x hx).2; push_cast; linarith)).1; omega)
  have h4 := hp 10 (rate.map (twosCode 10 (8 / 256))) (by
    intro c hc; obtain ⟨x, -, rfl⟩ := Option.map_eq_some_iff.1 hc; exact twosCode_lt _ _ _)
  have h5 := hp 10 (tas.map (unsignedCode 2)) (by
    intro c hc; obtain ⟨x, hx, rfl⟩ := Option.map_eq_some_iff.1 hc
    have := (unsigned_range 2 x 250 (by norm_num) (h.airspeed_range x hx).1 (by have := (h.airspeed_range x hx).2; push_cast; linarith)).1; omega)
  have hd : d = toBytes 7 (param 10 (roll.map (twosCode 10 (45 / 256))) * 2 ^ 45 + param 11 (track.map (twosCode 11 (90 / 512))) * 2 ^ 33 +
    param 10 (gs.map (unsignedCode 2)) * 2 ^ 22 + param 10 (rate.map (twosCode 10 (8 / 256))) * 2 ^ 11 + param 10 (tas.map (unsignedCode 2))) := rfl
  generalize param 10 (roll.map (twosCode 10 (45 / 256))) = a at *
  generalize param 11 (track.map (twosCode 11 (90 / 512))) = b at *
  generalize param 10 (gs.map (unsignedCode 2)) = c at *
  generalize param 10 (rate.map (twosCode 10 (8 / 256))) = e at *
  generalize param 10 (tas.map (unsignedCode 2)) = g at *
  rw [hd]
  norm_num at h1 h2 h3 h4 h5 ⊢
  refine ⟨?_, ?_, ?_, ?_, ?_⟩ <;> (rw [bits_toBytes7 _ _ _ (by norm_num; omega)]; norm_num; omega)

theorem received_cast {o : Option ℝ} {b b' : Bool} {v v' t : ℝ} (h : Received o b v t) (e1 : b' = b) (e2 : v' = v) : Received o b' v' t := by
  rw [e1, e2]; exact h

theorem receivedAngle_cast {o : Option ℝ} {b b' : Bool} {v v' t : ℝ} (h : ReceivedAngle o b v t) (e1 : b' = b) (e2 : v' = v) : ReceivedAngle o b' v' t := by
  rw [e1, e2]; exact h

/-- C85, BDS 5,0. An aircraft reports its state of flight; the report is among the candidates, with the values sent up to half a step of their coding. Missing:
only one of the two speeds available and above 200 knots, for which it is false (`trackTurn_refuted`). -/
theorem trackTurn_end_to_end_partial (format header address : Nat) (roll track gs rate tas : Option ℝ) (hh : ReadableHeader format header)
    (hs : FlightState50 roll track gs rate tas) (hany : track.isSome ∨ gs.isSome ∨ rate.isSome ∨ tas.isSome)
    (hg : gs = none → ∀ t, tas = some t → t ≤ 200) (ht : tas = none → ∀ g, gs = some g → g ≤ 200) (f : List UInt8)
    (h : IsCommBReply format header address (trackTurnField roll track gs rate tas) f) :
    ∃ l r, ReceivesCommB f address l ∧ CommBMessage.bds50 r ∈ l ∧
      Received roll r.rollAngleStatus r.rollAngle (45 / 512) ∧ ReceivedAngle track r.trueTrackAngleStatus r.trueTrackAngle (45 / 512) ∧
      Received gs r.groundSpeedStatus r.groundSpeed.toNat 1 ∧ Received rate r.trackAngleRateStatus r.trackAngleRate (1 / 64) ∧
      Received tas r.trueAirSpeedStatus r.trueAirSpeed.toNat 1 := by
  obtain ⟨b1, b2, b3, b4, b5⟩ := trackTurn_bits roll track gs rate tas hs
  have h7 : (trackTurnField roll track gs rate tas).length = 7 := toBytes_length 7 _
  generalize hd : trackTurnField roll track gs rate tas = d at *
  obtain ⟨s1, v1, r1, z1⟩ := signed_param d 1 10 284 (45 / 256) roll (by norm_num) (by norm_num) (by omega) (by norm_num)
    (fun x hx => (hs.roll_range x hx).trans (by norm_num)) b1
  obtain ⟨s2, v2, z2⟩ := angle_param d 12 11 (90 / 512) track (by norm_num) (by norm_num) (by omega) (by norm_num) b2
  obtain ⟨s3, v3, r3, z3⟩ := unsigned_param d 24 10 300 2 gs (by norm_num) (by omega) (by norm_num)
    (fun x hx => ⟨(hs.groundSpeed_range x hx).1, (hs.groundSpeed_range x hx).2.trans (by norm_num)⟩) b3
  obtain ⟨s4, v4, r4, z4⟩ := signed_param d 35 10 509 (8 / 256) rate (by norm_num) (by norm_num) (by omega) (by norm_num)
    (fun x hx => (hs.rate_range x hx).trans (by norm_num)) b4
  obtain ⟨s5, v5, r5, z5⟩ := unsigned_param d 46 10 250 2 tas (by norm_num) (by omega) (by norm_num)
    (fun x hx => ⟨(hs.airspeed_range x hx).1, (hs.airspeed_range x hx).2.trans (by norm_num)⟩) b5
  norm_num at v1 v2 v3 v4 v5 r1 r3 r4 r5 z1 z2 z3 z4 z5
  obtain ⟨m, hm⟩ := (bds50_60_accept d).1.2 h7
  have hc := bds50_content d m hm
  have c3 := unsigned_code d 24 10 300 2 gs (by norm_num) (by omega) (by norm_num)
    (fun x hx => ⟨(hs.groundSpeed_range x hx).1, (hs.groundSpeed_range x hx).2.trans (by norm_num)⟩) b3
  have c5 := unsigned_code d 46 10 250 2 tas (by norm_num) (by omega) (by norm_num)
    (fun x hx => ⟨(hs.airspeed_range x hx).1, (hs.airspeed_range x hx).2.trans (by norm_num)⟩) b5
  norm_num at c3 c5
  have gap : bits d 25 34 ≤ bits d 47 56 + 100 ∧ bits d 47 56 ≤ bits d 25 34 + 100 := by
    rw [c3, c5]
    cases hgs : gs with
    | none =>
      cases hta : tas with
      | none => simp
      | some t =>
        have := (unsigned_range 2 t 100 (by norm_num) (hs.airspeed_range t hta).1 (by have := hg hgs t hta; norm_num; linarith)).1
        simp; omega
    | some g =>
      cases hta : tas with
      | none =>
        have := (unsigned_range 2 g 100 (by norm_num) (hs.groundSpeed_range g hgs).1 (by have := ht hta g hgs; norm_num; linarith)).1
        simp; omega
      | some t =>
        have ⟨w1, w2⟩ := abs_le.1 (hs.wind g t hgs hta)
        exact ⟨unsigned_gap g t 100 (hs.airspeed_range t hta).1 (by norm_num; linarith), unsigned_gap t g 100 (hs.groundSpeed_range g hgs).1 (by norm_num; linarith)⟩
  have hany' : bit d 12 = true ∨ bit d 24 = true ∨ bit d 35 = true ∨ bit d 46 = true := by rw [s2, s3, s4, s5]; exact hany
  have hco : m.coherent = true := (bds50_coherent m d hm).2.2 ⟨Or.inr hany', z1, z2, z3, z4, z5, r1, r3, r5, gap⟩
  have hcand : Candidate d (.bds50 m) := ⟨hm, hco⟩
  obtain ⟨p, hp, hpb⟩ : ∃ p, (9 ≤ p ∧ p ≤ 56) ∧ bit d p = true := by
    rcases hany' with g | g | g | g
    · exact ⟨12, by norm_num, g⟩
    · exact ⟨24, by norm_num, g⟩
    · exact ⟨35, by norm_num, g⟩
    · exact ⟨46, by norm_num, g⟩
  have h1 : bit d 1 = true ∨ bits d 2 8 = 0 := by
    cases hroll : roll with
    | some x => left; rw [s1, hroll]; rfl
    | none =>
      right
      rw [hroll] at b1
      by_contra hne
      have e := bits_status d 1 7 (by omega)
      have e2 : bits d 1 8 = bits d 1 11 / 8 := by
        unfold bits; rw [h7]; norm_num; omega
      norm_num [param] at e b1
      rw [e2, b1] at e
      exact hne e.2
  obtain ⟨l, hl, -, -, hall⟩ := commB_sound_complete d h7
  refine ⟨l, m, commB_delivered format header address d f hh h7 h l hl, (hall (ambiguous_register d h7 h1 p hp hpb) _).2 hcand, ?_, ?_, ?_, ?_, ?_⟩
  · exact received_cast v1 hc.rollAngleStatus (by rw [hc.rollAngle]; push_cast; ring)
  · exact receivedAngle_cast v2 hc.trueTrackAngleStatus (by rw [hc.trueTrackAngle]; push_cast; ring)
  · exact received_cast v3 hc.groundSpeedStatus (by rw [hc.groundSpeed]; push_cast; ring)
  · exact received_cast v4 hc.trackAngleRateStatus (by rw [hc.trackAngleRate]; push_cast; ring)
  · exact received_cast v5 hc.trueAirSpeedStatus (by rw [hc.trueAirSpeed]; push_cast; ring)

theorem param_lt (n : Nat) (o : Option Nat) (ho : ∀ c, o = some c → c < 2 ^ n) : param n o < 2 ^ (n + 1) := by
  cases o with
  | none => simp [param]
  | some c => have := ho c rfl; simp only [param]; omega

theorem headingSpeed_bits (heading ias mach baro ivv : Option ℝ) (h : FlightState60 heading ias mach baro ivv) :
    let d := headingSpeedField heading ias mach baro ivv
    bits d 1 (1 + 11) = param 11 (heading.map (twosCode 11 (90 / 512))) ∧ bits d 13 (13 + 10) = param 10 (ias.map (unsignedCode 1)) ∧
    bits d 24 (24 + 10) = param 10 (mach.map (unsignedCode (4 / 1000))) ∧ bits d 35 (35 + 10) = param 10 (baro.map (twosCode 10 32)) ∧
    bits d 46 (46 + 10) = param 10 (ivv.map (twosCode 10 32)) := by
  intro d
  have h1 := param_lt 11 (heading.map (twosCode 11 (90 / 512))) (by
    intro c hc; obtain ⟨x, -, rfl⟩ := Option.map_eq_some_iff.1 hc; exact twosCode_lt _ _ _)
  have h2 := param_lt 10 (ias.map (unsignedCode 1)) (by
    intro c hc; obtain ⟨x, hx, rfl⟩ := Option.map_eq_some_iff.1 hc
    have := (unsigned_range 1 x 500 (by norm_num) (h.airspeed_range x hx).1 (by have := (h.airspeed_range x hx).2; push_cast; linarith)).1; omega)
  have h3 := param_lt 10 (mach.map (unsignedCode (4 / 1000))) (by
    intro c hc; obtain ⟨x, hx, rfl⟩ := Option.map_eq_some_iff.1 hc
    have := (unsigned_range (4 / 1000) x 250 (by norm_num) (h.mach_range x hx).1 (by have := (h.mach_range x hx).2; push_cast; linarith)).1; omega)
  have h4 := param_lt 10 (baro.map (twosCode 10 32)) (by
    intro c hc; obtain ⟨x, -, rfl⟩ := Option.map_eq_some_iff.1 hc; exact twosCode_lt _ _ _)
  have h5 := param_lt 10 (ivv.map (twosCode 10 32)) (by
    intro c hc; obtain ⟨x, -, rfl⟩ := Option.map_eq_some_iff.1 hc; exact twosCode_lt _ _ _)
  have hd : d = toBytes 7 (param 11 (heading.map (twosCode 11 (90 / 512))) * 2 ^ 44 + param 10 (ias.map (unsignedCode 1)) * 2 ^ 33 +
    param 10 (mach.map (unsignedCode (4 / 1000))) * 2 ^ 22 + param 10 (baro.map (twosCode 10 32)) * 2 ^ 11 + param 10 (ivv.map (twosCode 10 32))) := rfl
  generalize param 11 (heading.map (twosCode 11 (90 / 512))) = a at *
  generalize param 10 (ias.map (unsignedCode 1)) = b at *
  generalize param 10 (mach.map (unsignedCode (4 / 1000))) = c at *
  generalize param 10 (baro.map (twosCode 10 32)) = e at *
  generalize param 10 (ivv.map (twosCode 10 32)) = g at *
  rw [hd]
  norm_num at h1 h2 h3 h4 h5 ⊢
  refine ⟨?_, ?_, ?_, ?_, ?_⟩ <;> (rw [bits_toBytes7 _ _ _ (by norm_num; omega)]; norm_num; omega)

/-- C85, BDS 6,0. An aircraft reports its state of flight; the report is among the candidates, with the values sent up to half a step of their coding (and the
rounding of the Mach number to a `float32`). -/
theorem headingSpeed_end_to_end (format header address : Nat) (heading ias mach baro ivv : Option ℝ) (hh : ReadableHeader format header)
    (hs : FlightState60 heading ias mach baro ivv) (hany : ias.isSome ∨ mach.isSome ∨ baro.isSome ∨ ivv.isSome) (f : List UInt8)
    (h : IsCommBReply format header address (headingSpeedField heading ias mach baro ivv) f) :
    ∃ l r, ReceivesCommB f address l ∧ CommBMessage.bds60 r ∈ l ∧
      ReceivedAngle heading r.magneticHeadingStatus r.magneticHeading (45 / 512) ∧ Received ias r.indicatedAirSpeedStatus r.indicatedAirSpeed.toNat (1 / 2) ∧
      Received mach r.machStatus r.mach (2 / 1000 + 1 / 2 ^ 20) ∧ Received baro r.barometricAltitudeRateStatus r.barometricAltitudeRate 16 ∧
      Received ivv r.initialVerticalVelocityStatus r.initialVerticalVelocity 16 := by
  obtain ⟨b1, b2, b3, b4, b5⟩ := headingSpeed_bits heading ias mach baro ivv hs
  have h7 : (headingSpeedField heading ias mach baro ivv).length = 7 := toBytes_length 7 _
  generalize hd : headingSpeedField heading ias mach baro ivv = d at *
  obtain ⟨s1, v1, z1⟩ := angle_param d 1 11 (90 / 512) heading (by norm_num) (by norm_num) (by omega) (by norm_num) b1
  obtain ⟨s2, v2, r2, z2⟩ := unsigned_param d 13 10 500 1 ias (by norm_num) (by omega) (by norm_num)
    (fun x hx => ⟨(hs.airspeed_range x hx).1, (hs.airspeed_range x hx).2.trans (by norm_num)⟩) b2
  obtain ⟨s3, v3, r3, z3⟩ := unsigned_param d 24 10 250 (4 / 1000) mach (by norm_num) (by omega) (by norm_num)
    (fun x hx => ⟨(hs.mach_range x hx).1, (hs.mach_range x hx).2.trans (by norm_num)⟩) b3
  obtain ⟨s4, v4, r4, z4⟩ := signed_param d 35 10 187 32 baro (by norm_num) (by norm_num) (by omega) (by norm_num)
    (fun x hx => (hs.barometric_range x hx).trans (by norm_num)) b4
  obtain ⟨s5, v5, r5, z5⟩ := signed_param d 46 10 187 32 ivv (by norm_num) (by norm_num) (by omega) (by norm_num)
    (fun x hx => (hs.inertial_range x hx).trans (by norm_num)) b5
  norm_num at v1 v2 v4 v5 r2 r3 r4 r5 z1 z2 z3 z4 z5
  obtain ⟨m, hm⟩ := (bds50_60_accept d).2.2.1.2 h7
  have hc := bds60_content d m hm
  have hany' : bit d 13 = true ∨ bit d 24 = true ∨ bit d 35 = true ∨ bit d 46 = true := by rw [s2, s3, s4, s5]; exact hany
  have hco : m.coherent = true := (bds60_coherent m d hm).2.2 ⟨Or.inr hany', z1, z2, z3, z4, z5, r2, r3, r4, r5⟩
  have hcand : Candidate d (.bds60 m) := ⟨hm, hco⟩
  obtain ⟨p, hp, hpb⟩ : ∃ p, (9 ≤ p ∧ p ≤ 56) ∧ bit d p = true := by
    rcases hany' with g | g | g | g
    · exact ⟨13, by norm_num, g⟩
    · exact ⟨24, by norm_num, g⟩
    · exact ⟨35, by norm_num, g⟩
    · exact ⟨46, by norm_num, g⟩
  have h1 : bit d 1 = true ∨ bits d 2 8 = 0 := by
    cases hroll : heading with
    | some x => left; rw [s1, hroll]; rfl
    | none =>
      right
      rw [hroll] at b1
      by_contra hne
      have e := bits_status d 1 7 (by omega)
      have e2 : bits d 1 8 = bits d 1 12 / 16 := by
        unfold bits; rw [h7]; norm_num; omega
      norm_num [param] at e b1
      rw [e2, b1] at e
      exact hne e.2
  obtain ⟨l, hl, -, -, hall⟩ := commB_sound_complete d h7
  refine ⟨l, m, commB_delivered format header address d f hh h7 h l hl, (hall (ambiguous_register d h7 h1 p hp hpb) _).2 hcand, ?_, ?_, ?_, ?_, ?_⟩
  · exact receivedAngle_cast v1 hc.magneticHeadingStatus (by rw [hc.magneticHeading]; push_cast; ring)
  · exact received_cast v2 hc.indicatedAirSpeedStatus (by rw [hc.indicatedAirSpeed])
  · have hmach : |(m.mach : ℝ) - bits d 25 34 * (4 / 1000)| ≤ 1 / 2 ^ 20 := by
      have := (Rat.cast_le (K := ℝ)).2 hc.mach
      push_cast at this
      exact this
    rw [hc.machStatus]
    refine ⟨fun x hx => ⟨(v3.1 x hx).1, ?_⟩, fun hn => ⟨(v3.2 hn).1, ?_⟩⟩
    · have := (v3.1 x hx).2
      rw [abs_le] at *
      norm_num at this hmach ⊢
      constructor <;> linarith
    · have := hc.mach_zero.2 (z3 (v3.2 hn).1)
      rw [this]; simp
  · exact received_cast v4 hc.barometricAltitudeRateStatus (by rw [hc.barometricAltitudeRate]; push_cast; ring)
  · exact received_cast v5 hc.initialVerticalVelocityStatus (by rw [hc.initialVerticalVelocity]; push_cast; ring)

/-- C85, BDS 2,0. The callsign an aircraft reports is the only candidate. -/
theorem commB_callsign_end_to_end (format header address : Nat) (cs : List UInt8) (hh : ReadableHeader format header) (h8 : cs.length = 8)
    (hcs : ∀ c ∈ cs, IdentChar c) (f : List UInt8) (h : IsCommBReply format header address (0x20 :: toBytes 6 (encodeIdent cs)) f) :
    ReceivesCommB f address [.bds20 ⟨cs⟩] :=
  commB_delivered format header address _ f hh (by simp [toBytes_length]) h [.bds20 ⟨cs⟩] (commB_callsign cs h8 hcs)

/-- Every register can be sent. -/
theorem isCommBReply_exists (format header address : Nat) (mb : List UInt8) (ha : address < 2 ^ 24) : ∃ f, IsCommBReply format header address mb f := by
  obtain ⟨c, -, hc, hp⟩ := computeParity_spec (toBytes 4 (format * 2 ^ 27 + header) ++ mb) (by rw [List.length_append, toBytes_length]; omega)
  have hx : c.toNat ^^^ address < 2 ^ 24 := Nat.xor_lt_two_pow hc ha
  have hlen : (toBytes 3 (c.toNat ^^^ address)).length = 3 := toBytes_length 3 _
  refine ⟨_, toBytes 3 (c.toNat ^^^ address), hlen, rfl, ha, ?_⟩
  have e1 (hd p : List UInt8) (h : p.length = 3) : (hd ++ p).take ((hd ++ p).length - 3) = hd := by
    rw [List.length_append, h, Nat.add_sub_cancel, List.take_left]
  have e2 (hd p : List UInt8) (h : p.length = 3) : (hd ++ p).drop ((hd ++ p).length - 3) = p := by
    rw [List.length_append, h, Nat.add_sub_cancel, List.drop_left]
  rw [e1 _ _ hlen, e2 _ _ hlen, beNat_toBytes, Nat.mod_eq_of_lt (by simpa using hx), polyOf_xor, hp]

/-- C85 is false of the code without the condition on the speeds: an aircraft that reports its ground speed, above 201 knots, and not its airspeed, is never
understood: its report is not among the candidates, since the missing airspeed is taken for a speed of zero. -/
theorem trackTurn_refuted (roll track rate : Option ℝ) (g : ℝ) (hs : FlightState50 roll track (some g) rate none) (hg : 201 < g) (f : List UInt8) (address : Nat)
    (format header : Nat) (hh : ReadableHeader format header) (h : IsCommBReply format header address (trackTurnField roll track (some g) rate none) f)
    (l : List CommBMessage) (hl : ReceivesCommB f address l) (r : TrackAndTurnReport) : CommBMessage.bds50 r ∉ l := by
  intro hr
  obtain ⟨b1, b2, b3, b4, b5⟩ := trackTurn_bits roll track (some g) rate none hs
  have h7 : (trackTurnField roll track (some g) rate none).length = 7 := toBytes_length 7 _
  obtain ⟨m, mb, a, hm, hx, -, -, hread⟩ := hl
  obtain ⟨m', hm', hx', -⟩ := commB_reply_received format header address _ f hh.1 hh.2.1 hh.2.2 h7 h
  rw [hm] at hm'; cases hm'
  have hmb : mb = trackTurnField roll track (some g) rate none := by
    rcases hx with ⟨x, rfl, rfl⟩ | ⟨x, rfl, rfl⟩ <;> rcases hx' with ⟨-, y, hy, hy'⟩ | ⟨-, y, hy, hy'⟩ <;> cases hy <;> exact hy'
  rw [hmb] at hread
  clear hmb hx hx'
  generalize hd : trackTurnField roll track (some g) rate none = d at *
  obtain ⟨l', hl', -, hcand, -⟩ := commB_sound_complete d h7
  rw [hread] at hl'
  have hinj : l = l' := by
    have : Function.Injective (Iface.val : CommBMessage → Iface CommBMessage) := fun a b e => by cases e; rfl
    exact List.map_injective_iff.2 this (Except.ok.inj hl')
  rw [hinj] at hr
  obtain ⟨hrd, hco⟩ := hcand _ hr
  have hc := (bds50_coherent r d hrd).2.1 hco
  have c3 := unsigned_code d 24 10 300 2 (some g) (by norm_num) (by omega) (by norm_num)
    (fun x hx => ⟨(hs.groundSpeed_range x hx).1, (hs.groundSpeed_range x hx).2.trans (by norm_num)⟩) b3
  have c5 := unsigned_code d 46 10 250 2 none (by norm_num) (by omega) (by norm_num) (fun x hx => (by cases hx)) b5
  have := hc.2.2.2.2.2.2.2.2.2.1
  norm_num at c3 c5
  rw [c3, c5] at this
  have hf : 101 ≤ unsignedCode 2 g := by
    unfold unsignedCode
    exact Nat.le_floor (by norm_num; linarith)
  omega

/-- The hypotheses are met: 430 knots over ground on track 275. -/
example : FlightState50 none (some 275) (some 430) none none ∧ (201 : ℝ) < 430 ∧
    ∃ f, IsCommBReply 21 0 0x4840D6 (trackTurnField none (some 275) (some 430) none none) f :=
  ⟨{ roll_range := fun x hx => by cases hx
     groundSpeed_range := fun x hx => by cases hx; norm_num
     rate_range := fun x hx => by cases hx
     airspeed_range := fun x hx => by cases hx
     wind := fun g t hg ht => by cases ht }, by norm_num, isCommBReply_exists _ _ _ _ (by norm_num)⟩

/-- The hypotheses are met: a reply (format 21) of an aircraft banking at 12.3 degrees, track 275 degrees, 430 knots over ground, airspeed 400 knots. -/
example : ∃ f l r, ReceivesCommB f 0x4840D6 l ∧ CommBMessage.bds50 r ∈ l ∧ r.rollAngleStatus = true ∧ |(r.rollAngle : ℝ) - 12.3| ≤ 45 / 512 ∧
    |(r.groundSpeed.toNat : ℝ) - 430| ≤ 1 ∧ r.trackAngleRateStatus = false := by
  obtain ⟨f, hf⟩ := isCommBReply_exists 21 0x123456 0x4840D6 (trackTurnField (some 12.3) (some 275) (some 430) none (some 400)) (by norm_num)
  obtain ⟨l, r, h1, h2, h3, -, h5, h6, -⟩ := trackTurn_end_to_end_partial 21 0x123456 0x4840D6 (some 12.3) (some 275) (some 430) none (some 400)
    ⟨Or.inr rfl, by norm_num, fun h => (by cases h)⟩
    { roll_range := fun x hx => by cases hx; rw [abs_of_pos] <;> norm_num
      groundSpeed_range := fun x hx => by cases hx; norm_num
      rate_range := fun x hx => by cases hx
      airspeed_range := fun x hx => by cases hx; norm_num
      wind := fun g t hg ht => by cases hg; cases ht; rw [abs_of_pos] <;> norm_num }
    (Or.inl rfl) (fun h => (by cases h)) (fun h => (by cases h)) f hf
  exact ⟨f, l, r, h1, h2, (h3.1 _ rfl).1, (h3.1 _ rfl).2, (h5.1 _ rfl).2, (h6.2 rfl).1⟩

/-- The hypotheses are met: a reply (format 20, altitude 3000 ft) of an aircraft at Mach 0.78, 300 knots, descending at 1500 feet per minute. -/
example : ∃ f l r, ReceivesCommB f 0x4840D6 l ∧ CommBMessage.bds60 r ∈ l ∧ |(r.mach : ℝ) - 0.78| ≤ 0.0021 ∧
    |(r.barometricAltitudeRate : ℝ) + 1500| ≤ 16 := by
  obtain ⟨f, hf⟩ := isCommBReply_exists 20 0x518 0x4840D6 (headingSpeedField none (some 300) (some 0.78) (some (-1500)) none) (by norm_num)
  obtain ⟨l, r, h1, h2, -, -, h5, h6, -⟩ := headingSpeed_end_to_end 20 0x518 0x4840D6 none (some 300) (some 0.78) (some (-1500)) none
    ⟨Or.inl rfl, by norm_num, fun _ => by decide⟩
    { airspeed_range := fun x hx => by cases hx; norm_num
      mach_range := fun x hx => by cases hx; norm_num
      barometric_range := fun x hx => by cases hx; rw [abs_of_neg] <;> norm_num
      inertial_range := fun x hx => by cases hx }
    (Or.inl rfl) f hf
  exact ⟨f, l, r, h1, h2, (h5.1 _ rfl).2.trans (by norm_num), by have := (h6.1 _ rfl).2; rwa [sub_neg_eq_add] at this⟩

end Modes
