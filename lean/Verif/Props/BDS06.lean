import Verif.Model.BDS06
import Verif.Lemmas.Register
import Verif.Lemmas.Float
/-!
# C31: surface position content

Bits: 1-5 type code, 6-12 movement, 13 track status, 14-20 ground track, 21 time, 22 CPR format, 23-39 encoded latitude,
40-56 encoded longitude.
-/
set_option linter.unusedSimpArgs false
open Spec
namespace Spec

/-- Ground speed in knots of a movement code: the table of the standard (lower bound of the class the code stands for). -/
def movementSpeed (m : ℚ) : ℚ :=
  if m < 2 then 0                                     -- no information, stopped
  else if m ≤ 8 then 1 / 8 + (m - 2) * (1 / 8)        -- 0.125 kt up to 1 kt, steps of 0.125 kt
  else if m ≤ 12 then 1 + (m - 9) * (1 / 4)           -- up to 2 kt, steps of 0.25 kt
  else if m ≤ 38 then 2 + (m - 13) * (1 / 2)          -- up to 15 kt, steps of 0.5 kt
  else if m ≤ 93 then 15 + (m - 39)                   -- up to 70 kt, steps of 1 kt
  else if m ≤ 108 then 70 + (m - 94) * 2              -- up to 100 kt, steps of 2 kt
  else if m ≤ 123 then 100 + (m - 109) * 5            -- up to 175 kt, steps of 5 kt
  else if m ≤ 124 then 175                            -- 175 kt or more
  else 0                                              -- reserved

end Spec
namespace Modes

theorem f32_lin (n a b s : ℤ) (hs : 0 ≤ s) (h : |a + b * n| ≤ 16777216) (h' : |b * n| ≤ 16777216) (hn : |n| ≤ 16777216) :
    f32 ((a : ℚ) / 2 ^ s + f32 (f32 ((n : ℤ) : ℚ) * (b / 2 ^ s))) = a / 2 ^ s + n * (b / 2 ^ s) := by
  obtain ⟨s, rfl⟩ := Int.eq_ofNat_of_zero_le hs
  simp only [zpow_natCast, Int.ofNat_eq_natCast]
  rw [f32_int n hn]
  have e : ((n : ℤ) : ℚ) * ((b : ℚ) / 2 ^ s) = ((b * n : ℤ) : ℚ) / 2 ^ s := by push_cast; ring
  rw [e, f32_exact _ (b * n) s rfl h']
  have e2 : (a : ℚ) / 2 ^ s + ((b * n : ℤ) : ℚ) / 2 ^ s = ((a + b * n : ℤ) : ℚ) / 2 ^ s := by push_cast; ring
  rw [e2, f32_exact _ (a + b * n) s rfl h]

theorem movementGetSpeed_eq (m : ℕ) (hm : m < 128) : movementGetSpeed m = movementSpeed m := by
  have c (k : ℕ) : ((m : ℚ) ≤ k) = (m ≤ k) := by simp
  have c2 : ((m : ℚ) < 2) = (m < 2) := by
    rw [eq_iff_iff]; exact_mod_cast Iff.rfl
  unfold movementGetSpeed movementSpeed
  have e (k : ℕ) : ((m : ℤ) = k) = (m = k) := by simp
  have n8 := c 8; have n12 := c 12; have n38 := c 38; have n93 := c 93; have n108 := c 108; have n123 := c 123
  have n124 := c 124
  push_cast at n8 n12 n38 n93 n108 n123 n124
  simp only [c2, n8, n12, n38, n93, n108, n123, n124]
  have b (k : ℤ) (hk : 0 ≤ k) (hk2 : k ≤ 1000) : |(m : ℤ) - k| ≤ 10000 := by rw [abs_le]; omega
  by_cases h1 : m < 2 ∨ m > 124
  · rw [if_pos (by omega)]
    rcases h1 with h1 | h1
    · rw [if_pos h1]
    · simp only [show ¬ m < 2 by omega, show ¬ m ≤ 8 by omega, show ¬ m ≤ 12 by omega, show ¬ m ≤ 38 by omega,
        show ¬ m ≤ 93 by omega, show ¬ m ≤ 108 by omega, show ¬ m ≤ 123 by omega, show ¬ m ≤ 124 by omega, if_false]
  · rw [if_neg (by omega), if_neg (show ¬ m < 2 by omega)]
    by_cases g : m ≤ 8
    · rw [if_pos (by omega), if_pos g]
      have := f32_lin ((m : ℤ) - 2) 1 1 3 (by norm_num) (by rw [abs_le]; omega) (by rw [abs_le]; omega) (by rw [abs_le]; omega)
      norm_num at this ⊢
      exact this
    rw [if_neg (by omega), if_neg g]
    by_cases g : m ≤ 12
    · rw [if_pos (by omega), if_pos g]
      have := f32_lin ((m : ℤ) - 9) 4 1 2 (by norm_num) (by rw [abs_le]; omega) (by rw [abs_le]; omega) (by rw [abs_le]; omega)
      norm_num at this ⊢
      exact this
    rw [if_neg (by omega), if_neg g]
    by_cases g : m ≤ 38
    · rw [if_pos (by omega), if_pos g]
      have := f32_lin ((m : ℤ) - 13) 4 1 1 (by norm_num) (by rw [abs_le]; omega) (by rw [abs_le]; omega) (by rw [abs_le]; omega)
      norm_num at this ⊢
      exact this
    rw [if_neg (by omega), if_neg g]
    by_cases g : m ≤ 93
    · rw [if_pos (by omega), if_pos g]
      have := f32_lin ((m : ℤ) - 39) 15 1 0 (by norm_num) (by rw [abs_le]; omega) (by rw [abs_le]; omega) (by rw [abs_le]; omega)
      norm_num at this ⊢
      exact this
    rw [if_neg (by omega), if_neg g]
    by_cases g : m ≤ 108
    · rw [if_pos (by omega), if_pos g]
      have := f32_lin ((m : ℤ) - 94) 70 2 0 (by norm_num) (by rw [abs_le]; omega) (by rw [abs_le]; omega) (by rw [abs_le]; omega)
      norm_num at this ⊢
      exact this
    rw [if_neg (by omega), if_neg g]
    by_cases g : m ≤ 123
    · rw [if_pos (by omega), if_pos g]
      have := f32_lin ((m : ℤ) - 109) 100 5 0 (by norm_num) (by rw [abs_le]; omega) (by rw [abs_le]; omega) (by rw [abs_le]; omega)
      norm_num at this ⊢
      exact this
    rw [if_neg (by omega), if_neg g, if_pos (by omega)]

/-- `float32(n) * 360.0 / 2^s`, exact for the raw values of the decoders. -/
theorem f32_scale (n : ℕ) (a : ℤ) (s : ℕ) (hn : n ≤ 16777216) (h : |a * n| ≤ 16777216) :
    f32 (f32 (f32 (n : ℚ) * a) / 2 ^ s) = n * a / 2 ^ s := by
  have e1 : f32 (n : ℚ) = n := by
    have := f32_int (n : ℤ) (by rw [abs_of_nonneg (by omega)]; omega)
    exact_mod_cast this
  rw [e1]
  have e2 : f32 ((n : ℚ) * a) = n * a := by
    have := f32_int (a * n) h
    push_cast at this
    rw [mul_comm]; exact this
  rw [e2]
  exact f32_exact _ (a * n) s (by push_cast; ring) h

/-- Everything the reader can do. -/
theorem bds06_eval (d : List UInt8) :
    (readBDS06 d = .error .err ∧ ¬ (d.length = 7 ∧ 5 ≤ bits d 1 5 ∧ bits d 1 5 ≤ 8)) ∨
    (d.length = 7 ∧ 5 ≤ bits d 1 5 ∧ bits d 1 5 ≤ 8 ∧ ∃ m, readBDS06 d = .ok m ∧
      m.formatTypeCode.toNat = bits d 1 5 ∧
      m.movementStatus = bits d 6 12 ∧
      m.movementSpeed = movementSpeed (bits d 6 12) ∧
      m.groundTrackStatus = bit d 13 ∧
      m.groundTrack = bits d 14 20 * (360 / 128) ∧
      m.time.toNat = bits d 21 21 ∧
      m.cprFormat.toNat = bits d 22 22 ∧
      m.encodedLatitude.toNat = bits d 23 39 ∧
      m.encodedLongitude.toNat = bits d 40 56) := by
  by_cases h7 : d.length = 7
  rotate_left
  · left
    refine ⟨?_, fun h => h7 h.1⟩
    unfold readBDS06
    simp [h7, fail, bind, Except.bind]
  obtain ⟨b0, b1, b2, b3, b4, b5, b6, rfl⟩ := list7 d h7
  unfold readBDS06 readFormatTypeCode readMovement readGroundTrack readTime readCPRFormat
    readEncodedLatitude06 readEncodedLongitude
  go_run []
  have hf : ((b0 &&& 248) >>> 3 < 5 ∨ (b0 &&& 248) >>> 3 > 8) =
      ¬ (5 ≤ bits [b0, b1, b2, b3, b4, b5, b6] 1 5 ∧ bits [b0, b1, b2, b3, b4, b5, b6] 1 5 ≤ 8) := by byte_iff
  simp only [hf]
  split
  · rename_i hn
    exact Or.inl ⟨rfl, fun h => hn h.2⟩
  · rename_i hn
    obtain ⟨h1, h2⟩ := Classical.not_not.1 hn
    right
    have hm : ((b0 &&& 7) <<< 4 + (b1 &&& 240) >>> 4).toNat = bits [b0, b1, b2, b3, b4, b5, b6] 6 12 := by byte_omega
    have hmb : bits [b0, b1, b2, b3, b4, b5, b6] 6 12 < 128 := by unfold bits; exact Nat.mod_lt _ (by decide)
    have ht : (pack2 (b1 &&& 7) (b2 &&& 240) >>> 4).toNat = bits [b0, b1, b2, b3, b4, b5, b6] 14 20 := by byte_omega
    have htb : bits [b0, b1, b2, b3, b4, b5, b6] 14 20 < 128 := by unfold bits; exact Nat.mod_lt _ (by decide)
    refine ⟨trivial, h1, h2, _, rfl, ?_, hm, ?_, ?_, ?_, ?_, ?_, ?_, ?_⟩
    · byte_omega
    · rw [hm]; exact movementGetSpeed_eq _ hmb
    · byte_flag
    · rw [ht]
      have := f32_scale (bits [b0, b1, b2, b3, b4, b5, b6] 14 20) 360 7 (by omega) (by rw [abs_le]; omega)
      norm_num at this ⊢
      rw [this]; ring
    · byte_omega
    · byte_omega
    · byte_omega
    · byte_omega

/-- C31: every field of a surface position that was read. -/
theorem surface_position_content (d : List UInt8) (m : SurfacePosition) (h : readBDS06 d = .ok m) :
    m.formatTypeCode.toNat = bits d 1 5 ∧
    m.movementStatus = bits d 6 12 ∧
    m.movementSpeed = movementSpeed (bits d 6 12) ∧
    m.groundTrackStatus = bit d 13 ∧
    m.groundTrack = bits d 14 20 * (360 / 128) ∧
    m.time.toNat = bits d 21 21 ∧
    m.cprFormat.toNat = bits d 22 22 ∧
    m.encodedLatitude.toNat = bits d 23 39 ∧
    m.encodedLongitude.toNat = bits d 40 56 := by
  rcases bds06_eval d with ⟨he, _⟩ | ⟨_, _, _, m', hm, hc⟩
  · rw [he] at h; cases h
  · rw [hm] at h
    injection h with h
    subst h
    exact hc

/-- C31: exactly the 7-byte messages of type codes 5-8 are read; every other slice is refused with an error. -/
theorem surface_position_accepts (d : List UInt8) :
    (Succeeds (readBDS06 d) ↔ d.length = 7 ∧ 5 ≤ bits d 1 5 ∧ bits d 1 5 ≤ 8) ∧
    (¬ Succeeds (readBDS06 d) → readBDS06 d = .error .err) := by
  rcases bds06_eval d with ⟨he, hn⟩ | ⟨h7, h1, h2, m', hm, hc⟩
  · refine ⟨⟨?_, fun h => absurd h hn⟩, fun _ => he⟩
    rintro ⟨m, hm⟩
    rw [he] at hm; cases hm
  · exact ⟨⟨fun _ => ⟨h7, h1, h2⟩, fun _ => ⟨m', hm⟩⟩, fun h => absurd ⟨m', hm⟩ h⟩

theorem movementSpeed_step : ∀ n < 124, movementSpeed (n : ℕ) ≤ movementSpeed ((n + 1 : ℕ) : ℚ) := by decide +kernel

theorem movementSpeed_mono (x y : ℕ) (h : x ≤ y) (hy : y ≤ 124) : movementSpeed x ≤ movementSpeed y := by
  induction y, h using Nat.le_induction with
  | base => exact le_refl _
  | succ n hn ih => exact le_trans (ih (by omega)) (movementSpeed_step n (by omega))

/-- C31: the speed never decreases with the movement code on 1..124, lies between 0 and 175 kt, and is 0 for the codes that
give no speed; the track lies in [0, 360). -/
theorem surface_speed_monotone (d d' : List UInt8) (m m' : SurfacePosition) (h : readBDS06 d = .ok m)
    (h' : readBDS06 d' = .ok m') :
    (1 ≤ m.movementStatus → m.movementStatus ≤ m'.movementStatus → m'.movementStatus ≤ 124 →
      m.movementSpeed ≤ m'.movementSpeed) ∧
    0 ≤ m.movementSpeed ∧ m.movementSpeed ≤ 175 ∧
    (m.movementStatus = 0 ∨ m.movementStatus = 1 ∨ 125 ≤ m.movementStatus → m.movementSpeed = 0) ∧
    (m.movementStatus = 124 → m.movementSpeed = 175) ∧
    0 ≤ m.groundTrack ∧ m.groundTrack < 360 := by
  obtain ⟨_, hs, hv, _, ht, _⟩ := surface_position_content d m h
  obtain ⟨_, hs', hv', _⟩ := surface_position_content d' m' h'
  rw [← hs] at hv
  rw [← hs'] at hv'
  have hb : bits d 14 20 < 128 := by unfold bits; exact Nat.mod_lt _ (by decide)
  have hb' : ((bits d 14 20 : ℕ) : ℚ) ≤ 127 := by exact_mod_cast (by omega : bits d 14 20 ≤ 127)
  have hb0 : (0 : ℚ) ≤ ((bits d 14 20 : ℕ) : ℚ) := by positivity
  rw [hv, ht]
  refine ⟨?_, ?_, ?_, ?_, ?_, by linarith, by linarith⟩
  · intro h1 h2 h3
    rw [hv']
    exact movementSpeed_mono _ _ h2 h3
  · have : (0 : ℚ) ≤ m.movementStatus := by positivity
    unfold movementSpeed
    split_ifs <;> linarith
  · unfold movementSpeed
    split_ifs <;> linarith
  · intro hh
    unfold movementSpeed
    rcases hh with hh | hh | hh
    · rw [hh]; norm_num
    · rw [hh]; norm_num
    · have : (125 : ℚ) ≤ m.movementStatus := by exact_mod_cast hh
      split_ifs <;> linarith
  · intro hh
    rw [hh]; norm_num [movementSpeed]

/-- A surface position: type code 7, movement 28, track 92.8 degrees, odd. -/
def exampleSurface : List UInt8 := [0x39, 0xCA, 0x14, 0x6B, 0x12, 0x34, 0x56]
example : ∃ m, readBDS06 exampleSurface = .ok m ∧ m.movementStatus = 28 ∧ m.groundTrackStatus = true ∧ m.cprFormat = 1 :=
  ⟨_, rfl, by decide, by decide, by decide⟩
example : movementSpeed 28 = 19 / 2 := by norm_num [movementSpeed]

end Modes
