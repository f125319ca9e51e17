import Verif.Model.Geo
import Verif.Spec.CPR
import Verif.Props.GeoNL
import Mathlib.Tactic.FieldSimp
/-!
# Arithmetic of compact position reporting
-/
open Spec
noncomputable section
namespace Modes
namespace Geo

/-- The number of a position on the grid of step `d / 2^nb`, rounded to the nearest. -/
def grid (nb : ℕ) (d x : ℝ) : ℤ := ⌊2 ^ nb * (x / d) + 1 / 2⌋

theorem zoneCode_eq (nb : ℕ) (d x : ℝ) (hd : d ≠ 0) : zoneCode nb d x = grid nb d x - 2 ^ nb * ⌊x / d⌋ := by
  unfold zoneCode grid
  have : (2 : ℝ) ^ nb * ((x - d * ⌊x / d⌋) / d) + 1 / 2 = 2 ^ nb * (x / d) + 1 / 2 - ((2 ^ nb * ⌊x / d⌋ : ℤ) : ℝ) := by
    push_cast; field_simp; ring
  rw [this, Int.floor_sub_intCast]

theorem zoneValue_eq (nb : ℕ) (d x : ℝ) (hd : d ≠ 0) : zoneValue nb d x = d * (grid nb d x / 2 ^ nb) := by
  unfold zoneValue
  rw [zoneCode_eq nb d x hd]
  have : (2 : ℝ) ^ nb ≠ 0 := by positivity
  push_cast; field_simp; ring

theorem grid_near (nb : ℕ) (d x : ℝ) : |(grid nb d x : ℝ) / 2 ^ nb - x / d| ≤ 1 / 2 ^ (nb + 1) := by
  have h1 := Int.floor_le ((2 : ℝ) ^ nb * (x / d) + 1 / 2)
  have h2 := Int.lt_floor_add_one ((2 : ℝ) ^ nb * (x / d) + 1 / 2)
  have hp : (0 : ℝ) < 2 ^ nb := by positivity
  have e : (grid nb d x : ℝ) / 2 ^ nb - x / d = (grid nb d x - 2 ^ nb * (x / d)) / 2 ^ nb := by field_simp
  rw [e, abs_div, abs_of_pos hp, div_le_div_iff₀ hp (by positivity), pow_succ]
  have : |(grid nb d x : ℝ) - 2 ^ nb * (x / d)| ≤ 1 / 2 := by
    unfold grid; rw [abs_le]; constructor <;> linarith
  nlinarith

/-- The position recovered is within half a step of the true one. -/
theorem zoneValue_near (nb : ℕ) (d x : ℝ) (hd : 0 < d) : |zoneValue nb d x - x| ≤ d / 2 ^ (nb + 1) := by
  rw [zoneValue_eq nb d x hd.ne']
  have h := grid_near nb d x
  have e : d * (grid nb d x / 2 ^ nb) - x = d * (grid nb d x / 2 ^ nb - x / d) := by field_simp
  rw [e, abs_mul, abs_of_pos hd, div_eq_mul_one_div d]
  exact mul_le_mul_of_nonneg_left h hd.le

/-- The rounding to the grid is monotone and keeps the grid points. -/
theorem grid_le (nb : ℕ) (d x : ℝ) (g : ℤ) (h : 2 ^ nb * (x / d) ≤ g) : grid nb d x ≤ g := by
  unfold grid
  rw [← Int.lt_add_one_iff, Int.floor_lt]; push_cast; linarith

theorem le_grid (nb : ℕ) (d x : ℝ) (g : ℤ) (h : (g : ℝ) ≤ 2 ^ nb * (x / d)) : g ≤ grid nb d x := by
  unfold grid
  rw [Int.le_floor]; linarith

/-- A 19-bit code in a zone of size `4 d` is a 17-bit grid number in a zone of size `d`. -/
theorem grid_19 (d x : ℝ) : grid 19 (4 * d) x = grid 17 d x := by
  unfold grid
  congr 1
  rw [mul_comm 4 d, div_mul_eq_div_div]; ring

/-- The transmitted 17 bits. -/
theorem cpr_encode (nb : ℕ) (hnb : 17 ≤ nb) (d x : ℝ) (hd : d ≠ 0) :
    cpr (UInt32.ofNat ((zoneCode nb d x) % 2 ^ 17).toNat) = ((grid nb d x % 131072 : ℤ) : ℝ) / 131072 := by
  have e : zoneCode nb d x % 2 ^ 17 = grid nb d x % 131072 := by
    rw [zoneCode_eq nb d x hd]
    obtain ⟨k, rfl⟩ := Nat.exists_eq_add_of_le hnb
    rw [pow_add, show ((2 : ℤ) ^ 17) = 131072 by norm_num, mul_assoc, Int.sub_mul_emod_self_left]
  rw [e]
  have h0 : 0 ≤ grid nb d x % 131072 := Int.emod_nonneg _ (by norm_num)
  have h1 : grid nb d x % 131072 < 131072 := Int.emod_lt_of_pos _ (by norm_num)
  unfold cpr maxBinaryValue
  rw [UInt32.toNat_ofNat_of_lt' (by
    have : UInt32.size = 4294967296 := rfl
    omega)]
  congr 1
  rw [← Int.cast_natCast, Int.toNat_of_nonneg h0]

/-- The decoder's `mod` of whole numbers. -/
theorem mod_int (j : ℤ) (n : ℕ) (hn : 0 < n) : mod (j : ℝ) (n : ℝ) = ((j % n : ℤ) : ℝ) := by
  unfold mod
  have hn' : (0 : ℝ) < n := by exact_mod_cast hn
  have : ⌊(j : ℝ) / (n : ℝ)⌋ = j / n := by
    rw [Int.floor_eq_iff]
    have h1 := Int.emod_add_mul_ediv j n
    have h2 := Int.emod_nonneg j (by omega : (n : ℤ) ≠ 0)
    have h3 := Int.emod_lt_of_pos j (by omega : 0 < (n : ℤ))
    have e : ((j % n : ℤ) : ℝ) + n * ((j / n : ℤ) : ℝ) = j := by exact_mod_cast h1
    have h2' : (0 : ℝ) ≤ ((j % n : ℤ) : ℝ) := by exact_mod_cast h2
    have h3' : ((j % n : ℤ) : ℝ) < n := by exact_mod_cast h3
    constructor
    · rw [le_div_iff₀ hn']; nlinarith
    · rw [div_lt_iff₀ hn']; nlinarith
  rw [this]
  have := Int.emod_def j n
  rw [this]; push_cast; ring

/-- The part of a grid number within its zone, and the zone number. -/
theorem grid_split (G : ℤ) : ((G % 131072 : ℤ) : ℝ) / 131072 = (G : ℝ) / 131072 - ((G / 131072 : ℤ) : ℝ) := by
  have h : G % 131072 = G - 131072 * (G / 131072) := Int.emod_def G 131072
  rw [h]; push_cast; ring

theorem frac_range (G : ℤ) : 0 ≤ ((G % 131072 : ℤ) : ℝ) / 131072 ∧ ((G % 131072 : ℤ) : ℝ) / 131072 < 1 := by
  have h2 := Int.emod_nonneg G (by norm_num : (131072 : ℤ) ≠ 0)
  have h3 := Int.emod_lt_of_pos G (by norm_num : 0 < (131072 : ℤ))
  have h2' : (0 : ℝ) ≤ ((G % 131072 : ℤ) : ℝ) := by exact_mod_cast h2
  have h3' : ((G % 131072 : ℤ) : ℝ) < 131072 := by exact_mod_cast h3
  exact ⟨by positivity, by rw [div_lt_one (by norm_num)]; exact h3'⟩

/-- The zone index computed from an even and an odd coordinate: `n` zones in even messages, `n - 1` in odd ones. -/
theorem zone_index (n : ℕ) (G0 G1 : ℤ) (h : |((n : ℝ) - 1) * ((G0 : ℝ) / 131072) - n * ((G1 : ℝ) / 131072)| < 1 / 2) :
    ⌊((n : ℝ) - 1) * (((G0 % 131072 : ℤ) : ℝ) / 131072) - n * (((G1 % 131072 : ℤ) : ℝ) / 131072) + 1 / 2⌋ =
      n * (G1 / 131072) - (n - 1) * (G0 / 131072) := by
  rw [grid_split, grid_split, Int.floor_eq_iff]
  rw [abs_lt] at h
  push_cast
  constructor <;> nlinarith [h.1, h.2]

/-- The decoded coordinate, before it is brought back into range: the true grid position, up to whole turns. -/
theorem zone_decode (n : ℕ) (hn : 0 < n) (span : ℝ) (G k : ℤ) (hk : ∃ q : ℤ, k = G / 131072 + n * q) :
    ∃ t : ℤ, span / n * (mod (k : ℝ) n + ((G % 131072 : ℤ) : ℝ) / 131072) = span / n * ((G : ℝ) / 131072) + span * t := by
  obtain ⟨q, rfl⟩ := hk
  refine ⟨-(G / 131072 / n), ?_⟩
  have hn' : (n : ℝ) ≠ 0 := by exact_mod_cast hn.ne'
  rw [mod_int _ n hn, Int.add_mul_emod_self_left, grid_split, Int.emod_def]
  push_cast
  field_simp
  ring

theorem zone_decode_range (n : ℕ) (hn : 0 < n) (span : ℝ) (hs : 0 < span) (k : ℤ) (c : ℝ) (h0 : 0 ≤ c) (h1 : c < 1) :
    0 ≤ span / n * (mod (k : ℝ) n + c) ∧ span / n * (mod (k : ℝ) n + c) < span := by
  have hn' : (0 : ℝ) < n := by exact_mod_cast hn
  rw [mod_int _ n hn]
  have h2 := Int.emod_nonneg k (by omega : (n : ℤ) ≠ 0)
  have h3 := Int.emod_lt_of_pos k (by omega : 0 < (n : ℤ))
  have h3a : k % n + 1 ≤ n := by omega
  have h2' : (0 : ℝ) ≤ ((k % n : ℤ) : ℝ) := by exact_mod_cast h2
  have h3' : ((k % n : ℤ) : ℝ) + 1 ≤ n := by exact_mod_cast h3a
  refine ⟨by positivity, ?_⟩
  have : span / n * (((k % n : ℤ) : ℝ) + c) < span / n * n := mul_lt_mul_of_pos_left (by linarith) (by positivity)
  rwa [div_mul_cancel₀ _ hn'.ne'] at this

/-- A number known up to whole turns, whose value is in a given range, is known. -/
theorem turn_unique (span x y lo : ℝ) (hs : 0 < span) (t : ℤ) (e : x = y + span * t) (hx : lo ≤ x) (hx' : x < lo + span)
    (hy : lo ≤ y) (hy' : y < lo + span) : x = y := by
  have h1 : (-1 : ℝ) < t := by
    by_contra h
    push Not at h
    nlinarith
  have h2 : (t : ℝ) < 1 := by
    by_contra h
    push Not at h
    nlinarith
  have h3 : t = 0 := by
    have h1' : (-1 : ℤ) < t := by exact_mod_cast h1
    have h2' : t < (1 : ℤ) := by exact_mod_cast h2
    omega
  rw [e, h3]; simp

/-- The local decoding: the value congruent to the code nearest to the reference. -/
theorem local_decode (d ref : ℝ) (hd : 0 < d) (G : ℤ) (h : |d * ((G : ℝ) / 131072) - ref| < d / 2) :
    d * (((⌊ref / d⌋ : ℝ) + ⌊mod ref d / d - ((G % 131072 : ℤ) : ℝ) / 131072 + 1 / 2⌋) + ((G % 131072 : ℤ) : ℝ) / 131072) =
      d * ((G : ℝ) / 131072) := by
  have e : mod ref d / d - ((G % 131072 : ℤ) : ℝ) / 131072 + 1 / 2 =
      (ref / d - (G : ℝ) / 131072 + 1 / 2) + ((G / 131072 - ⌊ref / d⌋ : ℤ) : ℝ) := by
    rw [grid_split]; unfold mod; push_cast; field_simp; ring
  have h' : |(G : ℝ) / 131072 - ref / d| < 1 / 2 := by
    have : d * ((G : ℝ) / 131072) - ref = d * ((G : ℝ) / 131072 - ref / d) := by field_simp
    rw [this, abs_mul, abs_of_pos hd] at h
    by_contra hc
    push Not at hc
    nlinarith
  rw [abs_lt] at h'
  have hf : ⌊ref / d - (G : ℝ) / 131072 + 1 / 2⌋ = 0 := by
    rw [Int.floor_eq_iff]; push_cast; constructor <;> linarith [h'.1, h'.2]
  rw [e, Int.floor_add_intCast, hf, grid_split]
  push_cast
  ring

end Geo
end Modes
