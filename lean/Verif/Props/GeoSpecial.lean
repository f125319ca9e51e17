import Verif.Model.GeoSpecial
import Verif.Props.GeoFloatSurface
import Verif.Props.GeoFloatDistance
/-!
# C99: coordinates that are not numbers, infinite or enormous
-/
noncomputable section
namespace Modes
namespace Geo
open Classical F64

section any
variable (fl : ℝ → ℝ)

/-! ### Whatever the rounding -/

/-- `math.Max` as Go documents it: plus infinity wins over everything, then NaN, then the larger number. -/
theorem maxX_documented (x y : F64) :
    (x = inf false ∨ y = inf false → F64.max x y = inf false) ∧
    (x ≠ inf false ∧ y ≠ inf false →
      (x = nan ∨ y = nan → F64.max x y = nan) ∧
      (x ≠ nan ∧ y ≠ nan → (x = inf true → F64.max x y = y) ∧ (y = inf true → F64.max x y = x) ∧
        ∀ a b : ℝ, x = num a → y = num b → F64.max x y = num (if a < b then b else a))) := by
  rcases x with _ | s | a <;> rcases y with _ | t | b <;> (try cases s) <;> (try cases t) <;> simp [F64.max]
  split
  · rename_i h; exact max_eq_right h.le
  · rename_i h; exact max_eq_left (not_lt.1 h)

theorem modX_nonfinite (v d : F64) (h : ¬ v.Finite) : modX fl v d = nan := by
  rcases v with _ | s | x
  · rfl
  · rcases d with _ | t | y
    · rfl
    · rfl
    · by_cases hy : y = 0
      · simp [modX, div, floor, mul, hy, sub, neg, add]
      · by_cases hn : y < 0 <;> cases s <;> simp [modX, div, floor, mul, hy, hn, sub, neg, add]
  · exact absurd trivial h

theorem add_nan (v : F64) : add fl v nan = nan := by cases v <;> rfl
theorem mul_nan (v : F64) : mul fl v nan = nan := by cases v <;> rfl
theorem div_nan (v : F64) : div fl v nan = nan := by cases v <;> rfl

theorem localX_nonfinite (d v c : F64) (h : ¬ v.Finite) : localX fl d v c = nan := by
  simp only [localX, modX_nonfinite fl v d h]
  have : div fl nan d = nan := by cases d <;> rfl
  rw [this]
  have e : floor (add fl (sub fl nan c) (num (1 / 2))) = nan := by cases c <;> rfl
  rw [e, add_nan]
  have e : add fl nan c = nan := by cases c <;> rfl
  rw [e, mul_nan]

theorem localX_nan (v c : F64) : localX fl nan v c = nan := rfl

theorem nlX_nan (cosF acosF : ℝ → ℝ) : getNumberOfLongitudeX fl cosF acosF nan = nan := by
  simp only [getNumberOfLongitudeX, F64.abs, F64.eq, F64.lt, if_false, mul_nan, periodic, div_nan, sub, neg, add_nan, acos, floor]

/-- C99, local decoding. A receiver latitude that is NaN or infinite gives NaN for both coordinates; a receiver longitude that is NaN or
infinite gives NaN for the longitude and does not change the latitude. -/
theorem local_nonfinite (turn : ℝ) (cosF acosF : ℝ → ℝ) (la lo : UInt32) (refLat refLon other : F64) (isOdd : Bool) :
    (¬ refLat.Finite → localPositionX fl turn (getNumberOfLongitudeX fl cosF acosF) la lo refLat refLon isOdd = (nan, nan)) ∧
    (¬ refLon.Finite → localPositionX fl turn (getNumberOfLongitudeX fl cosF acosF) la lo refLat refLon isOdd =
      ((localPositionX fl turn (getNumberOfLongitudeX fl cosF acosF) la lo refLat other isOdd).1, nan)) := by
  constructor
  · intro h
    simp only [localPositionX]
    rw [localX_nonfinite fl _ _ _ h, nlX_nan]
    rfl
  · intro h
    simp only [localPositionX]
    rw [localX_nonfinite fl _ _ _ h]

theorem mul_nonfinite (v w : F64) (h : ¬ v.Finite) : ¬ (mul fl v w).Finite := by
  rcases v with _ | s | x
  · exact id
  · rcases w with _ | t | y
    · exact id
    · exact id
    · simp only [mul]; split <;> exact id
  · exact absurd trivial h

theorem divNum_nonfinite (v : F64) (y : ℝ) (h : ¬ v.Finite) : ¬ (div fl v (num y)).Finite := by
  rcases v with _ | s | x
  · exact id
  · exact id
  · exact absurd trivial h

theorem sub_nonfinite (v w : F64) (h : ¬ v.Finite ∨ ¬ w.Finite) : ¬ (sub fl v w).Finite := by
  rcases v with _ | s | x
  · exact id
  · rcases w with _ | t | y
    · exact id
    · simp only [sub, neg, add]; split <;> exact id
    · exact id
  · rcases w with _ | t | y
    · exact id
    · exact id
    · exact (h.elim (absurd trivial) (absurd trivial))

theorem periodic_nonfinite (f : ℝ → ℝ) (v : F64) (h : ¬ v.Finite) : periodic f v = nan := by
  rcases v with _ | s | x
  · rfl
  · rfl
  · exact absurd trivial h

/-- C99, ground distance: NaN as soon as one of the four coordinates is NaN or infinite. -/
theorem groundDistance_nonfinite (sinF cosF : ℝ → ℝ) (atan2F : ℝ → ℝ → ℝ) (lat1 long1 lat2 long2 : F64)
    (h : ¬ lat1.Finite ∨ ¬ long1.Finite ∨ ¬ lat2.Finite ∨ ¬ long2.Finite) :
    groundDistanceX fl sinF cosF atan2F lat1 long1 lat2 long2 = nan := by
  have fin : ∀ a : F64, a = nan →
      mul fl (num 6371000) (mul fl (num 2) (F64.atan2 atan2F (F64.sqrt fl a) (F64.sqrt fl (sub fl (num 1) a)))) = nan := by
    rintro _ rfl; rfl
  apply fin
  have hn : ∀ w : F64, mul fl nan w = nan := fun _ => rfl
  by_cases hlat : lat1.Finite ∧ lat2.Finite
  · have hlon : ¬ long2.Finite ∨ ¬ long1.Finite := by tauto
    rw [periodic_nonfinite sinF (div fl (div fl (mul fl (sub fl long2 long1) _) _) _)
      (divNum_nonfinite fl _ _ (divNum_nonfinite fl _ _ (mul_nonfinite fl _ _ (sub_nonfinite fl _ _ hlon))))]
    rw [hn, mul_nan, add_nan]
  · have hl : ¬ lat2.Finite ∨ ¬ lat1.Finite := by tauto
    rw [periodic_nonfinite sinF (div fl (div fl (mul fl (sub fl lat2 lat1) _) _) _)
      (divNum_nonfinite fl _ _ (divNum_nonfinite fl _ _ (mul_nonfinite fl _ _ (sub_nonfinite fl _ _ hl))))]
    rfl

/-- The hemisphere is the only thing the surface decoder takes from the receiver latitude: NaN counts as north, and the infinities as
their signs. -/
theorem surface_hemisphere (nl : F64 → F64) (el en ol on : UInt32) (e : Bool) (refLat refLat' refLon : F64)
    (h : F64.lt refLat (num 0) ↔ F64.lt refLat' (num 0)) :
    surfaceGlobalX fl nl el en ol on e refLat refLon = surfaceGlobalX fl nl el en ol on e refLat' refLon := by
  simp only [surfaceGlobalX, h]

/-- The search: nothing is nearer than the start, or the index of an element strictly nearer is returned. -/
theorem nearestFoldX (l : List F64) (k : ℕ) (best : F64 × Option ℕ) :
    (((l.zipIdx k).foldl (fun best x => nearestStepX best x.2 x.1) best = best ∧ ∀ d ∈ l, ¬ F64.lt d best.1) ∨
    ((∃ d ∈ l, F64.lt d best.1) ∧ ∃ i, k ≤ i ∧ i < k + l.length ∧ ((l.zipIdx k).foldl (fun best x => nearestStepX best x.2 x.1) best).2 = some i)) := by
  induction l generalizing k best with
  | nil => exact Or.inl ⟨rfl, nofun⟩
  | cons d l ih =>
    rw [List.zipIdx_cons, List.foldl_cons]
    by_cases h : F64.lt d best.1
    · right
      refine ⟨⟨d, by simp, h⟩, ?_⟩
      simp only [nearestStepX, if_pos h] at ih ⊢
      rcases ih (k + 1) (d, some k) with ⟨h1, -⟩ | ⟨-, i, h1, h2, h3⟩
      · exact ⟨k, le_refl _, by simp, by rw [h1]⟩
      · exact ⟨i, by omega, by simp only [List.length_cons]; omega, h3⟩
    · simp only [nearestStepX, if_neg h] at ih ⊢
      rcases ih (k + 1) best with ⟨h1, h2⟩ | ⟨⟨d', hd', hlt⟩, i, h1, h2, h3⟩
      · exact Or.inl ⟨h1, by simpa [h] using h2⟩
      · exact Or.inr ⟨⟨d', by simp [hd'], hlt⟩, i, by omega, by simp only [List.length_cons]; omega, h3⟩

/-- The choice of the longitude panics exactly when no candidate is nearer than ten million degrees; otherwise it succeeds. -/
theorem nearestLongitudeX_spec (ref : F64) (cs : List F64) :
    (nearestLongitudeX fl ref cs = .error .panic ∧ ∀ c ∈ cs, ¬ F64.lt (F64.abs (sub fl ref c)) (num 10000000)) ∨
    ((∃ c ∈ cs, F64.lt (F64.abs (sub fl ref c)) (num 10000000)) ∧ ∃ c ∈ cs, nearestLongitudeX fl ref cs = .ok c) := by
  have := nearestFoldX (cs.map fun c => F64.abs (sub fl ref c)) 0 (num 10000000, none)
  simp only [nearestLongitudeX]
  rcases this with ⟨h1, h2⟩ | ⟨⟨d, hd, hlt⟩, i, -, h2, h3⟩
  · left
    rw [h1]
    exact ⟨rfl, fun c hc => h2 _ (List.mem_map_of_mem hc)⟩
  · right
    obtain ⟨c, hc, rfl⟩ := List.mem_map.1 hd
    refine ⟨⟨c, hc, hlt⟩, ?_⟩
    rw [h3]
    rw [List.length_map, zero_add] at h2
    simp only [List.getElem?_eq_getElem h2]
    exact ⟨_, List.getElem_mem h2, rfl⟩

theorem far_nonfinite (ref c : F64) (h : ¬ ref.Finite) (b : ℝ) : ¬ F64.lt (F64.abs (sub fl ref c)) (num b) := by
  have := sub_nonfinite fl ref c (Or.inl h)
  cases hs : sub fl ref c with
  | nan => exact id
  | inf s => simp [F64.abs, F64.lt]
  | num x => rw [hs] at this; exact absurd trivial this

/-- The receiver longitude is used only in the choice of the candidate. -/
theorem surfaceGlobalX_shape (nl : F64 → F64) (el en ol on : UInt32) (e : Bool) (refLat : F64) :
    ∃ (C : Prop) (_ : Decidable C) (lat : F64) (cs : List F64), ∀ refLon, surfaceGlobalX fl nl el en ol on e refLat refLon =
      if C then .error .err else
        match nearestLongitudeX fl refLon cs with
        | .error f => .error f
        | .ok longitude => .ok (lat, longitude) := ⟨_, _, _, _, fun _ => rfl⟩

/-- C99, surface decoding with a receiver longitude that is NaN or infinite: never a position. The two latitudes being in different
zones is an error, as with any other longitude; otherwise the decoder panics. -/
theorem surface_nonfinite_longitude (nl : F64 → F64) (el en ol on : UInt32) (e : Bool) (refLat refLon other : F64) (h : ¬ refLon.Finite) :
    (surfaceGlobalX fl nl el en ol on e refLat other = .error .err ∧ surfaceGlobalX fl nl el en ol on e refLat refLon = .error .err) ∨
    (surfaceGlobalX fl nl el en ol on e refLat other ≠ .error .err ∧ surfaceGlobalX fl nl el en ol on e refLat refLon = .error .panic) := by
  obtain ⟨C, _, lat, cs, hsh⟩ := surfaceGlobalX_shape fl nl el en ol on e refLat
  rw [hsh, hsh]
  by_cases hC : C
  · rw [if_pos hC, if_pos hC]; exact Or.inl ⟨rfl, rfl⟩
  · rw [if_neg hC, if_neg hC]
    right
    constructor
    · rcases nearestLongitudeX_spec fl other cs with ⟨h1, -⟩ | ⟨-, c, -, h1⟩
      · rw [h1]; simp
      · rw [h1]; simp
    · rcases nearestLongitudeX_spec fl refLon cs with ⟨h1, -⟩ | ⟨⟨c, -, hc⟩, -⟩
      · rw [h1]
      · exact absurd hc (far_nonfinite fl _ _ h _)

end any

/-! ### Finite coordinates, rounded to `float64` -/

/-- A value that is the number `x`, at most `B` in absolute value. -/
def Is (v : F64) (x B : ℝ) : Prop := v = num x ∧ |x| ≤ B

theorem f64R_grow (x : ℝ) : |f64R x| ≤ 1001 / 1000 * |x| := by
  have h := f64R_err x
  have h2 : |f64R x| ≤ |f64R x - x| + |x| := by
    have := abs_add_le (f64R x - x) x
    simpa using this
  have : |x| / 9007199254740992 ≤ 1 / 1000 * |x| := by
    have := abs_nonneg x
    linarith
  linarith

theorem largest_big : (10 : ℝ) ^ 60 ≤ largest := by
  have h1 : (10 : ℝ) ^ 60 ≤ 2 ^ 200 := by norm_num
  have h3 : (2 : ℝ) ^ 200 ≤ 2 ^ 971 := pow_le_pow_right₀ (by norm_num) (by norm_num)
  unfold largest
  generalize (2 : ℝ) ^ 971 = z at *
  norm_num at h1 h3 ⊢
  linarith

theorem round_is {x B C : ℝ} (h : |x| ≤ B) (hC : 1001 / 1000 * B ≤ C) (hC' : C ≤ 10 ^ 60) : Is (F64.round f64R x) (f64R x) C := by
  have h1 : |f64R x| ≤ C := by
    have := f64R_grow x
    linarith
  refine ⟨?_, h1⟩
  rw [F64.round, if_pos (h1.trans (hC'.trans largest_big))]

theorem Is.mono {v : F64} {x A B : ℝ} (h : Is v x A) (hB : A ≤ B) : Is v x B := ⟨h.1, h.2.trans hB⟩

theorem Is.add {u v : F64} {x y A B C : ℝ} (h1 : Is u x A) (h2 : Is v y B) (hC : 1001 / 1000 * (A + B) ≤ C) (hC' : C ≤ 10 ^ 60) :
    Is (F64.add f64R u v) (f64R (x + y)) C := by
  rw [h1.1, h2.1]
  exact round_is ((abs_add_le x y).trans (add_le_add h1.2 h2.2)) hC hC'

theorem Is.sub {u v : F64} {x y A B C : ℝ} (h1 : Is u x A) (h2 : Is v y B) (hC : 1001 / 1000 * (A + B) ≤ C) (hC' : C ≤ 10 ^ 60) :
    Is (F64.sub f64R u v) (f64R (x - y)) C := by
  rw [sub_eq_add_neg]
  refine Is.add h1 (v := F64.neg v) ⟨by rw [h2.1]; rfl, by rw [abs_neg]; exact h2.2⟩ hC hC'

theorem Is.mul {u v : F64} {x y A B C : ℝ} (h1 : Is u x A) (h2 : Is v y B) (hC : 1001 / 1000 * (A * B) ≤ C) (hC' : C ≤ 10 ^ 60) :
    Is (F64.mul f64R u v) (f64R (x * y)) C := by
  rw [h1.1, h2.1]
  refine round_is (B := A * B) ?_ hC hC'
  rw [abs_mul]
  exact mul_le_mul h1.2 h2.2 (abs_nonneg _) ((abs_nonneg _).trans h1.2)

theorem Is.div {u v : F64} {x y A B C D : ℝ} (h1 : Is u x A) (h2 : Is v y B) (hD : 0 < D) (hy : D ≤ |y|) (hC : 1001 / 1000 * (A / D) ≤ C)
    (hC' : C ≤ 10 ^ 60) : Is (F64.div f64R u v) (f64R (x / y)) C := by
  rw [h1.1, h2.1]
  have h0 : y ≠ 0 := by rintro rfl; rw [abs_zero] at hy; linarith
  simp only [F64.div, if_neg h0]
  refine round_is (B := A / D) ?_ hC hC'
  rw [abs_div]
  exact div_le_div₀ ((abs_nonneg _).trans h1.2) h1.2 hD hy

theorem Is.floor {v : F64} {x A B : ℝ} (h : Is v x A) (hB : A + 1 ≤ B) : Is (F64.floor v) (⌊x⌋ : ℝ) B := by
  refine ⟨by rw [h.1]; rfl, ?_⟩
  have h1 := Int.floor_le x
  have h2 := Int.lt_floor_add_one x
  have := abs_le.1 h.2
  rw [abs_le]
  constructor <;> linarith

theorem Is.max {u v : F64} {x y A : ℝ} (h1 : Is u x A) (h2 : Is v y A) : Is (F64.max u v) (Max.max x y) A := by
  refine ⟨by rw [h1.1, h2.1]; rfl, ?_⟩
  rcases max_choice x y with h | h <;> rw [h]
  · exact h1.2
  · exact h2.2

theorem Is.ite {a b : F64} {x y A : ℝ} {P Q : Prop} [Decidable P] [Decidable Q] (h : P ↔ Q) (h1 : Is a x A) (h2 : Is b y A) :
    Is (if P then a else b) (if Q then x else y) A := by
  by_cases hp : P
  · rw [if_pos hp, if_pos (h.1 hp)]; exact h1
  · rw [if_neg hp, if_neg fun q => hp (h.2 q)]; exact h2

theorem is_num (x : ℝ) {B : ℝ} (h : |x| ≤ B) : Is (num x) x B := ⟨rfl, h⟩

theorem is_cpr (a : UInt32) : Is (num (cprF f64R a)) (cprF f64R a) 33000 := by
  refine ⟨rfl, ?_⟩
  have h : (a.toNat : ℝ) < 4294967296 := by exact_mod_cast a.toNat_lt
  have h1 := f64R_grow (a.toNat : ℝ)
  have h2 := f64R_grow (f64R (a.toNat : ℝ) / maxBinaryValue)
  rw [abs_div, show |maxBinaryValue| = 131072 by norm_num [maxBinaryValue]] at h2
  rw [abs_of_nonneg (Nat.cast_nonneg (α := ℝ) a.toNat)] at h1
  have h3 : |f64R (a.toNat : ℝ)| / 131072 ≤ 1001 / 1000 * 4294967296 / 131072 := by
    apply div_le_div_of_nonneg_right _ (by norm_num)
    linarith
  unfold cprF
  linarith

theorem is_mod {u v : F64} {x y A B C D : ℝ} (h1 : Is u x A) (h2 : Is v y B) (hA : 0 ≤ A) (hD : 1 ≤ D) (hy : D ≤ |y|) (hB : B ≤ 361)
    (hC : 400 * A + 400 ≤ C) (hC' : C ≤ 10 ^ 60) : Is (modX f64R u v) (modF f64R x y) C := by
  have hq : Is (F64.div f64R u v) _ (1001 / 1000 * A) := h1.div h2 (by linarith) hy (by
    apply mul_le_mul_of_nonneg_left _ (by norm_num)
    exact div_le_self hA hD) (by linarith)
  have hB0 : 0 ≤ B := (abs_nonneg _).trans h2.2
  have hm : Is (F64.mul f64R v (F64.floor (F64.div f64R u v))) _ (1001 / 1000 * (361 * (1001 / 1000 * A + 1))) :=
    (h2.mono hB).mul (hq.floor (le_refl _)) (le_refl _) (by linarith)
  exact h1.sub hm (by linarith) hC'

theorem is_local {d ref c : F64} {dx rx cx B : ℝ} (hd : Is d dx 361) (hd1 : 1 ≤ |dx|) (hr : Is ref rx B) (hc : Is c cx 33000) (hB1 : 1 ≤ B) (hB : B ≤ 10 ^ 50) :
    Is (localX f64R d ref c) (localF f64R dx rx cx) (10 ^ 59) := by
  have h1 : Is (F64.div f64R ref d) _ (1001 / 1000 * B) := hr.div hd one_pos hd1 (by simp) (by linarith)
  have h2 : Is (modX f64R ref d) _ (400 * B + 400) := is_mod hr hd (by linarith) (le_refl _) hd1 (le_refl _) (le_refl _) (by linarith)
  have h3 : Is (F64.div f64R (modX f64R ref d) d) _ (1001 / 1000 * (400 * B + 400)) := h2.div hd one_pos hd1 (by simp) (by linarith)
  have h4 : Is (F64.sub f64R (F64.div f64R (modX f64R ref d) d) c) _ (500 * B + 34000) := h3.sub hc (by linarith) (by linarith)
  have h5 : Is (F64.add f64R (F64.sub f64R (F64.div f64R (modX f64R ref d) d) c) (num (1 / 2))) _ (600 * B + 35000) :=
    h4.add (is_num (1 / 2) (B := 1) (by norm_num)) (by linarith) (by linarith)
  have h6 := (h1.floor (le_refl _)).add (h5.floor (le_refl _)) (C := 700 * B + 36000) (by linarith) (by linarith)
  have h7 := h6.add hc (C := 800 * B + 70000) (by linarith) (by linarith)
  exact hd.mul h7 (by linarith) (by norm_num)

theorem f64R_shrink (x : ℝ) : 999 / 1000 * |x| ≤ |f64R x| := by
  have h := f64R_err x
  have h2 : |x| ≤ |x - f64R x| + |f64R x| := by
    have := abs_add_le (x - f64R x) (f64R x)
    simpa using this
  rw [abs_sub_comm] at h2
  have : |x| / 9007199254740992 ≤ 1 / 1000 * |x| := by
    have := abs_nonneg x
    linarith
  linarith

/-- The rounded quotient of a quarter turn or a full turn by a number of zones. -/
theorem is_zone {turn n : ℝ} (ht : turn = 90 ∨ turn = 360) {v : F64} (hn : Is v n 80) (h1 : 1 ≤ n) :
    Is (F64.div f64R (num turn) v) (f64R (turn / n)) 361 ∧ 1 ≤ |f64R (turn / n)| := by
  have hn2 : n ≤ 80 := (abs_le.1 hn.2).2
  have ha : |n| = n := abs_of_nonneg (by linarith)
  have ht0 : |turn| ≤ 360 := by rcases ht with rfl | rfl <;> norm_num
  refine ⟨(is_num turn ht0).div hn one_pos (by rw [ha]; exact h1) (by norm_num) (by norm_num), ?_⟩
  have := f64R_shrink (turn / n)
  rw [abs_div, ha] at this
  have h2 : 1.125 ≤ |turn| / n := by
    rw [le_div_iff₀ (by linarith)]
    rcases ht with rfl | rfl <;> norm_num <;> linarith
  linarith

/-- The computed latitude of local decoding. -/
def localLatitudeF (turn refLat : ℝ) (la : UInt32) (isOdd : Bool) : ℝ :=
  localF f64R (f64R (turn / f64R (4 * nz - parity isOdd))) refLat (cprF f64R la)

theorem local_latitude_num (turn : ℝ) (ht : turn = 90 ∨ turn = 360) (la : UInt32) (refLat : ℝ) (isOdd : Bool) (h1 : |refLat| ≤ 10 ^ 50) :
    localX f64R (F64.div f64R (num turn) (F64.sub f64R (num (4 * nz)) (num (parity isOdd)))) (num refLat) (num (cprF f64R la)) =
    num (localLatitudeF turn refLat la isOdd) := by
  have hi : Is (num (parity isOdd)) (parity isOdd) 1 := is_num _ (by cases isOdd <;> norm_num [parity])
  have h60 : Is (F64.sub f64R (num (4 * nz)) (num (parity isOdd))) _ 70 :=
    (is_num (4 * nz) (B := 60) (by norm_num [nz])).sub hi (by norm_num) (by norm_num)
  have hlow : 1 ≤ f64R (4 * nz - parity isOdd) := by
    have e : f64R (4 * nz - parity isOdd) = 4 * nz - parity isOdd := by
      cases isOdd
      · exact f64R_exact _ 60 0 (by norm_num [nz, parity]) (by norm_num)
      · exact f64R_exact _ 59 0 (by norm_num [nz, parity]) (by norm_num)
    rw [e]
    cases isOdd <;> norm_num [nz, parity]
  obtain ⟨hd, hd1⟩ := is_zone ht (h60.mono (by norm_num)) hlow
  have hlat := is_local hd hd1 (is_num refLat (h1.trans (le_max_right 1 _))) (is_cpr la) (le_max_left _ _) (by
    rw [max_eq_right (by norm_num)])
  exact hlat.1

theorem local_finite_aux (turn : ℝ) (ht : turn = 90 ∨ turn = 360) (nlX : F64 → F64) (nl : ℝ → ℝ) (la lo : UInt32) (refLat refLon : ℝ) (isOdd : Bool)
    (h1 : |refLat| ≤ 10 ^ 50) (h2 : |refLon| ≤ 10 ^ 50)
    (hnl : nlX (num (localLatitudeF turn refLat la isOdd)) = num (nl (localLatitudeF turn refLat la isOdd)))
    (hnl' : |nl (localLatitudeF turn refLat la isOdd)| ≤ 75) :
    localPositionX f64R turn nlX la lo (num refLat) (num refLon) isOdd =
      (num (localLatitudeF turn refLat la isOdd),
       num (localF f64R (f64R (turn / max (f64R (nl (localLatitudeF turn refLat la isOdd) - parity isOdd)) 1)) refLon (cprF f64R lo))) := by
  have hi : Is (num (parity isOdd)) (parity isOdd) 1 := is_num _ (by cases isOdd <;> norm_num [parity])
  have hlat' := local_latitude_num turn ht la refLat isOdd h1
  simp only [localPositionX]
  rw [hlat', hnl]
  have hs := (is_num _ hnl').sub hi (C := 80) (by norm_num) (by norm_num)
  have hm := hs.max (is_num 1 (B := 80) (by norm_num))
  obtain ⟨hd, hd1⟩ := is_zone ht hm (le_max_right _ _)
  have hlon := is_local hd hd1 (is_num refLon (h2.trans (le_max_right 1 _))) (is_cpr lo) (le_max_left _ _) (by
    rw [max_eq_right (by norm_num)])
  rw [hlon.1]

/-- C99: for finite receiver coordinates, even enormous ones, local decoding gives two numbers, those of the arithmetic without special
values (Model/GeoFloat), provided that the number of zones at the decoded latitude is a number. -/
theorem local_finite (nlX : F64 → F64) (nl : ℝ → ℝ) (la lo : UInt32) (refLat refLon : ℝ) (isOdd : Bool)
    (h1 : |refLat| ≤ 10 ^ 50) (h2 : |refLon| ≤ 10 ^ 50) :
    (let p := airborneLocalF f64R nl la lo refLat refLon isOdd
     nlX (num p.1) = num (nl p.1) → |nl p.1| ≤ 75 → localPositionX f64R 360 nlX la lo (num refLat) (num refLon) isOdd = (num p.1, num p.2)) ∧
    (let p := surfaceLocalF f64R nl la lo refLat refLon isOdd
     nlX (num p.1) = num (nl p.1) → |nl p.1| ≤ 75 → localPositionX f64R 90 nlX la lo (num refLat) (num refLon) isOdd = (num p.1, num p.2)) :=
  ⟨fun h3 h4 => local_finite_aux 360 (Or.inr rfl) nlX nl la lo refLat refLon isOdd h1 h2 h3 h4,
   fun h3 h4 => local_finite_aux 90 (Or.inl rfl) nlX nl la lo refLat refLon isOdd h1 h2 h3 h4⟩

/-- A latitude 10^-12 degree below 87 degrees has a larger cosine. -/
theorem cos_far (x : ℝ) (hfar : |x| ≤ 87 - 1 / 10 ^ 12) : Real.sin (Real.pi / 60) ^ 2 + 15 / 10 ^ 16 ≤ Real.cos (Real.pi / 180 * |x|) ^ 2 := by
  have hp3 := Real.pi_gt_three
  have hp4 := Real.pi_lt_d2
  obtain ⟨hs1, hs2⟩ := sin60_bounds
  have hx0 := abs_nonneg x
  generalize hCdef : Real.cos (Real.pi / 180 * |x|) = C
  have hb : C ≥ Real.sin (Real.pi / 60 + 1 / (6 * 10 ^ 13)) := by
    have e4 : Real.sin (Real.pi / 60 + 1 / (6 * 10 ^ 13)) = Real.cos (Real.pi / 2 - (Real.pi / 60 + 1 / (6 * 10 ^ 13))) := by
      rw [Real.cos_pi_div_two_sub]
    rw [e4, ← hCdef]
    apply Real.cos_le_cos_of_nonneg_of_le_pi (by positivity) (by norm_num; linarith)
    have e5 : Real.pi / 180 * |x| ≤ Real.pi / 180 * (87 - 1 / 10 ^ 12) := mul_le_mul_of_nonneg_left hfar (by positivity)
    norm_num at e5 ⊢
    linarith
  have hs : Real.sin (Real.pi / 60) + 15 / 10 ^ 15 ≤ Real.sin (Real.pi / 60 + 1 / (6 * 10 ^ 13)) := by
    rw [Real.sin_add]
    have f1 := Real.one_sub_sq_div_two_le_cos (x := (1 / (6 * 10 ^ 13) : ℝ))
    have f2 := Real.sin_gt_sub_cube (x := (1 / (6 * 10 ^ 13) : ℝ)) (by norm_num)
    have f3 := Real.one_sub_sq_div_two_le_cos (x := Real.pi / 60)
    have f4 : (99 / 100 : ℝ) ≤ Real.cos (Real.pi / 60) := by nlinarith
    have f5 : (166 / 10 ^ 16 : ℝ) ≤ Real.sin (1 / (6 * 10 ^ 13)) := le_trans (by norm_num) f2.le
    have f6 : (99 / 100 : ℝ) * (166 / 10 ^ 16) ≤ Real.cos (Real.pi / 60) * Real.sin (1 / (6 * 10 ^ 13)) :=
      mul_le_mul f4 f5 (by norm_num) (by linarith)
    have f7 : Real.sin (Real.pi / 60) * (1 - (1 / (6 * 10 ^ 13)) ^ 2 / 2) ≤ Real.sin (Real.pi / 60) * Real.cos (1 / (6 * 10 ^ 13)) :=
      mul_le_mul_of_nonneg_left f1 (by linarith)
    norm_num at f6 f7 ⊢
    linarith
  have hCs : Real.sin (Real.pi / 60) + 15 / 10 ^ 15 ≤ C := hs.trans hb
  generalize Real.sin (Real.pi / 60) = sn at *
  have hsq : sn ^ 2 + 15 / 10 ^ 16 ≤ C ^ 2 := by
    have : (sn + 15 / 10 ^ 15) ^ 2 ≤ C ^ 2 := pow_le_pow_left₀ (by linarith) hCs 2
    have e : (sn + 15 / 10 ^ 15) ^ 2 = sn ^ 2 + 2 * (15 / 10 ^ 15) * sn + (15 / 10 ^ 15) ^ 2 := by ring
    rw [e] at this
    norm_num at this ⊢
    have h3 : (0 : ℝ) ≤ (sn - 523 / 10000) * (15 / 10 ^ 15) := mul_nonneg (by linarith) (by norm_num)
    norm_num at h3
    linarith
  exact hsq

/-- The number of zones at a finite latitude is a number between 0 and 75, the one of the arithmetic without special values, or NaN, which
can only happen less than 10^-12 degree below 87 degrees, where the argument of the arccosine may be below -1. -/
theorem nlX_finite (cosF acosF : ℝ → ℝ) (hF : Accurate cosF acosF) (x : ℝ) :
    (getNumberOfLongitudeX f64R cosF acosF (num x) = nan ∧ 87 - 1 / 10 ^ 12 < |x| ∧ |x| < 87) ∨
    (getNumberOfLongitudeX f64R cosF acosF (num x) = num (getNumberOfLongitudeF f64R cosF acosF x) ∧
      |getNumberOfLongitudeF f64R cosF acosF x| ≤ 75) := by
  unfold getNumberOfLongitudeX getNumberOfLongitudeF
  simp only [F64.eq, F64.abs, F64.lt, gt_iff_lt]
  by_cases h0 : x = 0
  · right; simp [h0]; norm_num
  by_cases h1 : |x| = 87
  · right; simp [h0, h1]; norm_num
  by_cases h2 : 87 < |x|
  · right; simp [h0, h1, h2]
  simp only [h0, h1, h2, if_false]
  have hx : |x| < 87 := lt_of_le_of_ne (not_lt.1 h2) h1
  have hp3 := Real.pi_gt_three
  have hp4 := Real.pi_lt_d2
  obtain ⟨hs1, hs2⟩ := sin60_bounds
  have hx0 := abs_nonneg x
  have hCgt : Real.sin (Real.pi / 60) < Real.cos (Real.pi / 180 * |x|) := by
    have : Real.sin (Real.pi / 60) = Real.cos (Real.pi / 180 * 87) := by
      rw [← Real.cos_pi_div_two_sub]; congr 1; ring
    rw [this]
    exact Real.cos_lt_cos_of_nonneg_of_le_pi (by positivity) (by linarith) (by
      apply mul_lt_mul_of_pos_left hx (by positivity))
  have harg := nlF_arg cosF acosF hF x x _ _ _ _ _ _ _ hx (by simp) rfl rfl hCgt rfl rfl rfl rfl rfl
  -- the cosine of the latitude
  generalize htdef : f64R (f64R (Real.pi / 180) * |x|) = t at harg ⊢
  generalize hCdef : Real.cos (Real.pi / 180 * |x|) = C at *
  have hC1 : C ≤ 1 := by rw [← hCdef]; exact Real.cos_le_one _
  have hP : f64R (Real.pi / 180) ≤ 2 / 100 ∧ 0 ≤ f64R (Real.pi / 180) ∧ |f64R (Real.pi / 180) - Real.pi / 180| ≤ 1 / 10 ^ 10 := by
    have := f64R_err (Real.pi / 180)
    rw [abs_of_pos (by positivity : 0 < Real.pi / 180)] at this
    have h3 : |f64R (Real.pi / 180) - Real.pi / 180| ≤ 1 / 10 ^ 10 := by norm_num at this ⊢; linarith
    have := abs_le.1 h3
    norm_num at this
    exact ⟨by linarith, by linarith, h3⟩
  have ht : |t - Real.pi / 180 * (|x|)| ≤ 1 / 10 ^ 6 := by
    have e1 := f64R_err (f64R (Real.pi / 180) * |x|)
    rw [htdef, abs_of_nonneg (mul_nonneg hP.2.1 hx0)] at e1
    have e2 : f64R (Real.pi / 180) * |x| ≤ 2 / 100 * 87 := mul_le_mul hP.1 hx.le hx0 (by norm_num)
    have e3 : |f64R (Real.pi / 180) * (|x|) - Real.pi / 180 * (|x|)| ≤ 1 / 10 ^ 10 * 87 := by
      rw [← sub_mul, abs_mul, abs_abs]
      exact mul_le_mul hP.2.2 hx.le hx0 (by norm_num)
    have e4 := abs_sub_le t (f64R (Real.pi / 180) * |x|) (Real.pi / 180 * |x|)
    norm_num at e1 e2 e3 ⊢
    linarith
  have hc : |cosF t - C| ≤ 1 / 10 ^ 5 := by
    have e1 := hF.cos t
    have e2 := Real.abs_cos_sub_cos_le t (Real.pi / 180 * |x|)
    rw [hCdef] at e2
    have e4 := abs_sub_le (cosF t) (Real.cos t) C
    norm_num at e1 ht ⊢
    linarith
  have hcb := abs_le.1 hc
  norm_num at hcb
  have hc1 : (52 / 1000 : ℝ) ≤ cosF t := by linarith
  have hc2 : |cosF t| ≤ 2 := by rw [abs_of_nonneg (by linarith)]; linarith
  -- the steps
  have hK : |cosF (f64R (Real.pi / (2 * nz)))| ≤ 2 := by
    have e1 := hF.cos (f64R (Real.pi / (2 * nz)))
    have e2 := Real.abs_cos_le_one (f64R (Real.pi / (2 * nz)))
    have e3 := abs_sub_abs_le_abs_sub (cosF (f64R (Real.pi / (2 * nz)))) (Real.cos (f64R (Real.pi / (2 * nz))))
    norm_num at e1
    linarith
  have i1 := (is_num 1 (B := 1) (by norm_num)).sub (is_num _ hK) (C := 4) (by norm_num) (by norm_num)
  have i2 := (is_num (f64R (Real.pi / 180)) (B := 1) (by rw [abs_of_nonneg hP.2.1]; linarith)).mul (is_num |x| (B := 87) (by rw [abs_abs]; exact hx.le))
    (C := 100) (by norm_num) (by norm_num)
  rw [htdef] at i2
  have i3 := (is_num _ hc2).mul (is_num _ hc2) (C := 5) (by norm_num) (by norm_num)
  rw [← pow_two] at i3
  have hb : (1 / 1000 : ℝ) ≤ |f64R (cosF t ^ 2)| := by
    have := f64R_shrink (cosF t ^ 2)
    rw [abs_of_nonneg (by positivity)] at this
    nlinarith
  have i4 := i1.div i3 (by norm_num) hb (C := 4005) (by norm_num) (by norm_num)
  have i5 := (is_num 1 (B := 1) (by norm_num)).sub i4 (C := 5000) (by norm_num) (by norm_num)
  rw [i2.1]
  simp only [periodic]
  rw [i5.1]
  generalize hydef : f64R (1 - f64R (f64R (1 - cosF (f64R (Real.pi / (2 * nz)))) / f64R (cosF t ^ 2))) = y at *
  simp only [acos]
  have hC0 : 0 < C := by linarith
  have hC2 : 0 < C ^ 2 := by positivity
  have hC21 : C ^ 2 ≤ 1 := by nlinarith
  have e2 : (y - (1 - 2 * Real.sin (Real.pi / 60) ^ 2 / C ^ 2)) * C ^ 2 = (y - 1) * C ^ 2 + 2 * Real.sin (Real.pi / 60) ^ 2 := by
    field_simp
    ring
  rw [← abs_of_pos hC2, ← abs_mul, abs_of_pos hC2, e2] at harg
  obtain ⟨eL, eU⟩ := abs_le.1 harg
  have hylt : y ≤ 1 - 5 / 1000 := by
    norm_num at eU
    nlinarith
  by_cases hy : |y| ≤ 1
  · rw [if_pos hy]
    obtain ⟨z, hz1, hz2, hz3, hz4⟩ := hF.acos y (abs_le.1 hy).1 (abs_le.1 hy).2
    have hz : z ≤ Real.cos (9 / 100) := by
      have := Real.one_sub_sq_div_two_le_cos (x := 9 / 100)
      have := abs_le.1 hz3
      norm_num at this ⊢
      norm_num at *
      linarith
    have hac : 9 / 100 ≤ Real.arccos z := by
      have := Real.arccos_le_arccos hz
      rwa [Real.arccos_cos (by norm_num) (by linarith)] at this
    have hac2 : Real.arccos z ≤ 4 := (Real.arccos_le_pi z).trans (by linarith)
    have h4 := abs_le.1 hz4
    norm_num at h4
    have hA1 : 89 / 1000 ≤ acosF y := by linarith
    have hA2 : |acosF y| ≤ 5 := by rw [abs_of_nonneg (by linarith)]; linarith
    have hT : |f64R (2 * Real.pi)| ≤ 65 / 10 := by
      have := f64R_grow (2 * Real.pi)
      rw [abs_of_pos (by positivity : (0 : ℝ) < 2 * Real.pi)] at this
      linarith
    have i6 := ((is_num _ hT).div (is_num _ hA2) (D := 89 / 1000) (by norm_num) (by rw [abs_of_nonneg (by linarith)]; exact hA1) (C := 74)
      (by norm_num) (by norm_num)).floor (B := 75) (by norm_num)
    exact Or.inr i6
  · rw [if_neg hy]
    left
    refine ⟨rfl, ?_, hx⟩
    by_contra hfar
    rw [not_lt] at hfar
    apply hy
    rw [abs_le]
    refine ⟨?_, by linarith⟩
    have hsq := cos_far x hfar
    rw [hCdef] at hsq
    by_contra hlt
    rw [not_le] at hlt
    have : (y + 1) * C ^ 2 < 0 := mul_neg_of_neg_of_pos (by linarith) hC2
    have e9 : (y + 1) * C ^ 2 = (y - 1) * C ^ 2 + 2 * C ^ 2 := by ring
    norm_num at eL hsq
    linarith

/-- C99, local decoding with finite receiver coordinates, even enormous ones: the latitude is always the number of the arithmetic without special
values (Model/GeoFloat), and so is the longitude, except that it may be NaN at a decoded latitude less than 10^-12 degree below 87 degrees. -/
theorem local_numbers (cosF acosF : ℝ → ℝ) (hF : Accurate cosF acosF) (la lo : UInt32) (refLat refLon : ℝ) (isOdd : Bool)
    (h1 : |refLat| ≤ 10 ^ 50) (h2 : |refLon| ≤ 10 ^ 50) :
    (let p := airborneLocalF f64R (getNumberOfLongitudeF f64R cosF acosF) la lo refLat refLon isOdd
     let r := localPositionX f64R 360 (getNumberOfLongitudeX f64R cosF acosF) la lo (num refLat) (num refLon) isOdd
     r = (num p.1, num p.2) ∨ (r = (num p.1, nan) ∧ 87 - 1 / 10 ^ 12 < |p.1| ∧ |p.1| < 87)) ∧
    (let p := surfaceLocalF f64R (getNumberOfLongitudeF f64R cosF acosF) la lo refLat refLon isOdd
     let r := localPositionX f64R 90 (getNumberOfLongitudeX f64R cosF acosF) la lo (num refLat) (num refLon) isOdd
     r = (num p.1, num p.2) ∨ (r = (num p.1, nan) ∧ 87 - 1 / 10 ^ 12 < |p.1| ∧ |p.1| < 87)) := by
  have key : ∀ turn : ℝ, turn = 90 ∨ turn = 360 →
      getNumberOfLongitudeX f64R cosF acosF (num (localLatitudeF turn refLat la isOdd)) = nan →
      localPositionX f64R turn (getNumberOfLongitudeX f64R cosF acosF) la lo (num refLat) (num refLon) isOdd =
        (num (localLatitudeF turn refLat la isOdd), nan) := by
    intro turn ht h
    simp only [localPositionX]
    rw [local_latitude_num turn ht la refLat isOdd h1, h]
    rfl
  constructor
  · intro p r
    rcases nlX_finite cosF acosF hF p.1 with ⟨h, hb⟩ | ⟨h, hb⟩
    · exact Or.inr ⟨key 360 (Or.inr rfl) h, hb⟩
    · exact Or.inl ((local_finite _ _ la lo refLat refLon isOdd h1 h2).1 h hb)
  · intro p r
    rcases nlX_finite cosF acosF hF p.1 with ⟨h, hb⟩ | ⟨h, hb⟩
    · exact Or.inr ⟨key 90 (Or.inl rfl) h, hb⟩
    · exact Or.inl ((local_finite _ _ la lo refLat refLon isOdd h1 h2).2 h hb)

theorem mod_tight {x y : ℝ} (hx : |x| ≤ 10 ^ 9) (hy1 : 1 ≤ y) (hy2 : y ≤ 400) : |modF f64R x y| ≤ y + 1 := by
  unfold modF
  have hy0 : 0 < y := by linarith
  have e1 := f64R_err (x / y)
  generalize f64R (x / y) = q at *
  have hq : |y * q - x| ≤ 1 / 10 ^ 6 := by
    have : y * q - x = y * (q - x / y) := by field_simp
    rw [this, abs_mul, abs_of_pos hy0]
    have h2 : y * |q - x / y| ≤ y * (|x / y| / 9007199254740992) := mul_le_mul_of_nonneg_left e1 hy0.le
    rw [abs_div, abs_of_pos hy0] at h2
    have h3 : y * (|x| / y / 9007199254740992) = |x| / 9007199254740992 := by field_simp
    rw [h3] at h2
    norm_num at hx ⊢
    linarith
  have f1 := Int.floor_le q
  have f2 := Int.lt_floor_add_one q
  have hn1 : y * (⌊q⌋ : ℝ) ≤ y * q := mul_le_mul_of_nonneg_left f1 hy0.le
  have hn2 : y * q - y ≤ y * (⌊q⌋ : ℝ) := by
    have := mul_le_mul_of_nonneg_left f2.le hy0.le
    linarith
  have hqb := abs_le.1 hq
  have hxb := abs_le.1 hx
  norm_num at hqb hxb
  have e2 := f64R_err (y * (⌊q⌋ : ℝ))
  have hb : |y * (⌊q⌋ : ℝ)| ≤ 2 * 10 ^ 9 := by
    rw [abs_le]
    constructor <;> norm_num <;> linarith
  generalize f64R (y * (⌊q⌋ : ℝ)) = p at *
  have hp := abs_le.1 (e2.trans (div_le_div_of_nonneg_right hb (by norm_num)))
  norm_num at hp
  have e3 := f64R_err (x - p)
  have hd : |x - p| ≤ y + 1 / 10 := by
    rw [abs_le]
    constructor <;> norm_num <;> linarith
  have e4 : |f64R (x - p)| ≤ |f64R (x - p) - (x - p)| + |x - p| := by
    have := abs_add_le (f64R (x - p) - (x - p)) (x - p)
    simpa using this
  have e5 : |x - p| / 9007199254740992 ≤ 1 / 10 := by
    rw [div_le_iff₀ (by norm_num)]
    norm_num
    linarith
  linarith

theorem is_mod_tight {u v : F64} {x y A B C : ℝ} (h1 : Is u x A) (h2 : Is v y B) (hA : A ≤ 10 ^ 9) (hy : 1 ≤ y) (hB : B ≤ 361) (hC : B + 1 ≤ C) :
    Is (modX f64R u v) (modF f64R x y) C := by
  have hyB : y ≤ B := (abs_le.1 h2.2).2
  have h := is_mod (h1.mono hA) h2 (by norm_num) (le_refl 1) (by rw [abs_of_nonneg (by linarith)]; exact hy) hB (C := 10 ^ 12) (by norm_num) (by norm_num)
  exact ⟨h.1, (mod_tight (h1.2.trans hA) hy (by linarith)).trans (by linarith)⟩

/-- The candidates for the longitude are all within 600 degrees of zero, and are those of the arithmetic without special values. -/
theorem surfaceGlobalX_eval (nlX : F64 → F64) (nl : ℝ → ℝ) (hnl : ∀ x, (nlX (num x) = nan ∧ 87 - 1 / 10 ^ 12 < |x| ∧ |x| < 87) ∨ (nlX (num x) = num (nl x) ∧ |nl x| ≤ 75))
    (el en ol on : UInt32) (e : Bool) (refLat : F64) (r : ℝ) (hr : F64.lt refLat (num 0) ↔ r < 0) (le lo : ℝ)
    (hle : (if r < 0 then f64R (f64R (f64R (90 / (4 * nz)) * f64R (modF f64R (⌊f64R (f64R (f64R ((4 * nz - 1) * cprF f64R el) -
        f64R (4 * nz * cprF f64R ol)) + 1 / 2)⌋ : ℝ) (4 * nz) + cprF f64R el)) - 90)
      else f64R (f64R (90 / (4 * nz)) * f64R (modF f64R (⌊f64R (f64R (f64R ((4 * nz - 1) * cprF f64R el) -
        f64R (4 * nz * cprF f64R ol)) + 1 / 2)⌋ : ℝ) (4 * nz) + cprF f64R el))) = le)
    (hlo : (if r < 0 then f64R (f64R (f64R (90 / (4 * nz - 1)) * f64R (modF f64R (⌊f64R (f64R (f64R ((4 * nz - 1) * cprF f64R el) -
        f64R (4 * nz * cprF f64R ol)) + 1 / 2)⌋ : ℝ) (4 * nz - 1) + cprF f64R ol)) - 90)
      else f64R (f64R (90 / (4 * nz - 1)) * f64R (modF f64R (⌊f64R (f64R (f64R ((4 * nz - 1) * cprF f64R el) -
        f64R (4 * nz * cprF f64R ol)) + 1 / 2)⌋ : ℝ) (4 * nz - 1) + cprF f64R ol))) = lo) :
    ((∀ refLon, surfaceGlobalX f64R nlX el en ol on e refLat refLon = .error .err) ∧
      ((87 - 1 / 10 ^ 12 < |le| ∧ |le| < 87) ∨ (87 - 1 / 10 ^ 12 < |lo| ∧ |lo| < 87) ∨
        ∀ refLon, surfaceGlobalF f64R nl el en ol on e r refLon = .error .err)) ∨
    ∃ (lat : ℝ) (cs : List ℝ), cs ≠ [] ∧ (∀ c ∈ cs, |c| ≤ 600) ∧
      (∀ refLon, surfaceGlobalX f64R nlX el en ol on e refLat refLon =
        match nearestLongitudeX f64R refLon (cs.map num) with
        | .error f => .error f
        | .ok longitude => .ok (num lat, longitude)) ∧
      (∀ refLon, surfaceGlobalF f64R nl el en ol on e r refLon =
        match nearestLongitudeF f64R refLon cs with
        | .error f => .error f
        | .ok longitude => .ok (lat, longitude)) := by
  have n60 : Is (num (4 * nz)) (4 * nz) 60 := is_num _ (by norm_num [nz])
  have n59 : Is (num (4 * nz - 1)) (4 * nz - 1) 59 := is_num _ (by norm_num [nz])
  have half : Is (num (1 / 2)) (1 / 2) 1 := is_num _ (by norm_num)
  have d60 : Is (num (f64R (90 / (4 * nz)))) (f64R (90 / (4 * nz))) 2 :=
    is_num _ ((f64R_grow _).trans (by norm_num [nz]))
  have d59 : Is (num (f64R (90 / (4 * nz - 1)))) (f64R (90 / (4 * nz - 1))) 2 :=
    is_num _ ((f64R_grow _).trans (by norm_num [nz, abs_of_pos]))
  have hj := ((((n59.mul (is_cpr el) (C := 2000000) (by norm_num) (by norm_num)).sub (n60.mul (is_cpr ol) (C := 2000000) (by norm_num) (by norm_num))
    (C := 5000000) (by norm_num) (by norm_num)).add half (C := 6000000) (by norm_num) (by norm_num)).floor (B := 7000000) (by norm_num))
  have hE := d60.mul ((is_mod_tight hj n60 (by norm_num) (by norm_num [nz]) (by norm_num) (C := 61) (by norm_num)).add (is_cpr el) (C := 34000)
    (by norm_num) (by norm_num)) (C := 70000) (by norm_num) (by norm_num)
  have hO := d59.mul ((is_mod_tight hj n59 (by norm_num) (by norm_num [nz]) (by norm_num) (C := 61) (by norm_num)).add (is_cpr ol) (C := 34000)
    (by norm_num) (by norm_num)) (C := 70000) (by norm_num) (by norm_num)
  have n90 : Is (num 90) 90 90 := is_num _ (by norm_num)
  have hE' := Is.ite hr (hE.sub n90 (C := 80000) (by norm_num) (by norm_num)) (hE.mono (by norm_num))
  have hO' := Is.ite hr (hO.sub n90 (C := 80000) (by norm_num) (by norm_num)) (hO.mono (by norm_num))
  simp only [surfaceGlobalX, surfaceGlobalF]
  rw [hE'.1, hO'.1, hle, hlo]
  clear hE' hO' hE hO hj hle hlo
  rcases hnl le with ⟨h, hb⟩ | ⟨hl, hlb⟩
  · left; refine ⟨?_, Or.inl hb⟩; intro refLon; rw [h]; simp [F64.eq]
  rcases hnl lo with ⟨h, hb⟩ | ⟨hl', hlb'⟩
  · left; refine ⟨?_, Or.inr (Or.inl hb)⟩; intro refLon; rw [hl, h]; simp [F64.eq]
  by_cases heq : nl le = nl lo
  swap
  · left; refine ⟨?_, Or.inr (Or.inr ?_)⟩
    · intro refLon; rw [hl, hl']; simp [F64.eq, heq]
    · intro refLon; rw [if_pos heq]
  right
  rw [hl, hl']
  have hcond : ¬ ¬ F64.eq (num (nl le)) (num (nl lo)) := by simp [F64.eq, heq]
  have hcond' : ¬ nl le ≠ nl lo := by simp [heq]
  simp only [hcond, hcond', if_false]
  have n1 : Is (num 1) 1 1 := is_num _ (by norm_num)
  have n0 : Is (num 0) 0 0 := is_num _ (by norm_num)
  have hn : Is (num (nl le)) (nl le) 75 := is_num _ hlb
  have hm := ((((is_cpr en).mul (hn.sub n1 (C := 80) (by norm_num) (by norm_num)) (C := 3000000) (by norm_num) (by norm_num)).sub
    ((is_cpr on).mul hn (C := 3000000) (by norm_num) (by norm_num)) (C := 7000000) (by norm_num) (by norm_num)).add half (C := 8000000)
    (by norm_num) (by norm_num)).floor (B := 9000000) (by norm_num)
  have hnE := (hn.sub n0 (C := 80) (by norm_num) (by norm_num)).max (n1.mono (by norm_num))
  have hnO := (hn.sub n1 (C := 80) (by norm_num) (by norm_num)).max (n1.mono (by norm_num))
  have hlE := (n90.div hnE one_pos (by rw [abs_of_nonneg ((zero_le_one).trans (le_max_right _ _))]; exact le_max_right _ _) (C := 91) (by norm_num)
    (by norm_num)).mul ((is_mod_tight hm hnE (by norm_num) (le_max_right _ _) (by norm_num) (C := 81) (by norm_num)).add (is_cpr en) (C := 34000)
    (by norm_num) (by norm_num)) (C := 4000000) (by norm_num) (by norm_num)
  have hlO := (n90.div hnO one_pos (by rw [abs_of_nonneg ((zero_le_one).trans (le_max_right _ _))]; exact le_max_right _ _) (C := 91) (by norm_num)
    (by norm_num)).mul ((is_mod_tight hm hnO (by norm_num) (le_max_right _ _) (by norm_num) (C := 81) (by norm_num)).add (is_cpr on) (C := 34000)
    (by norm_num) (by norm_num)) (C := 4000000) (by norm_num) (by norm_num)
  have hq := Is.ite (P := e = true) (Q := e = true) Iff.rfl hlE hlO
  rw [hq.1]
  have hqb := hq.2
  generalize (if e = true then f64R _ else f64R _) = q at *
  clear hq hlE hlO hnE hnO hm
  have wrap : ∀ {v : F64} {x : ℝ}, Is v x 5000000 →
      Is (F64.sub f64R (modX f64R (F64.add f64R v (num 180)) (num 360)) (num 180)) (f64R (modF f64R (f64R (x + 180)) 360 - 180)) 600 := by
    intro v x h
    exact ((is_mod_tight (h.add (is_num 180 (B := 180) (by norm_num)) (C := 6000000) (by norm_num) (by norm_num)) (is_num 360 (B := 360) (by norm_num))
      (by norm_num) (by norm_num) (by norm_num) (C := 361) (by norm_num)).sub (is_num 180 (B := 180) (by norm_num)) (by norm_num) (by norm_num))
  have hq0 : Is (num q) q 4000000 := ⟨rfl, hqb⟩
  have w0 := wrap (hq0.mono (by norm_num))
  have w1 := wrap (hq0.add n90 (by norm_num) (by norm_num))
  have w2 := wrap (hq0.add (is_num 180 (B := 180) (by norm_num)) (by norm_num) (by norm_num))
  have w3 := wrap (hq0.add (is_num 270 (B := 270) (by norm_num)) (by norm_num) (by norm_num))
  refine ⟨if e = true then le else lo, [f64R (modF f64R (f64R (q + 180)) 360 - 180), f64R (modF f64R (f64R (f64R (q + 90) + 180)) 360 - 180),
    f64R (modF f64R (f64R (f64R (q + 180) + 180)) 360 - 180), f64R (modF f64R (f64R (f64R (q + 270) + 180)) 360 - 180)], by simp, ?_, ?_, ?_⟩
  · simp only [List.forall_mem_cons, List.not_mem_nil, false_imp_iff, implies_true, and_true]
    exact ⟨w0.2, w1.2, w2.2, w3.2⟩
  · intro refLon
    simp only [List.map_cons, List.map_nil]
    rw [w0.1, w1.1, w2.1, w3.1]
    cases e <;> rfl
  · intro refLon
    rfl

theorem nearestFold_num (l : List ℝ) (k : ℕ) (b : ℝ) (o : Option ℕ) :
    ((l.map num).zipIdx k).foldl (fun best x => nearestStepX best x.2 x.1) (num b, o) =
      (num ((l.zipIdx k).foldl (fun best x => nearestStep best x.2 x.1) (b, o)).1,
        ((l.zipIdx k).foldl (fun best x => nearestStep best x.2 x.1) (b, o)).2) := by
  induction l generalizing k b o with
  | nil => rfl
  | cons d l ih =>
    rw [List.map_cons, List.zipIdx_cons, List.zipIdx_cons, List.foldl_cons, List.foldl_cons]
    have : nearestStepX (num b, o) k (num d) = (num (nearestStep (b, o) k d).1, (nearestStep (b, o) k d).2) := by
      simp only [nearestStepX, nearestStep, F64.lt]
      by_cases h : d < b
      · simp [h]
      · simp [h]
    simp only [this]
    exact ih (k + 1) _ _

theorem is_distance {x c : ℝ} (hx : |x| ≤ 10 ^ 50) (hc : |c| ≤ 600) : F64.abs (F64.sub f64R (num x) (num c)) = num |f64R (x - c)| := by
  rw [((is_num x hx).sub (is_num c hc) (C := 10 ^ 52) (by norm_num) (by norm_num)).1]
  rfl

theorem nearestLongitude_num (x : ℝ) (cs : List ℝ) (hx : |x| ≤ 10 ^ 50) (hc : ∀ c ∈ cs, |c| ≤ 600) :
    nearestLongitudeX f64R (num x) (cs.map num) = (nearestLongitudeF f64R x cs).map num := by
  have e : ((cs.map num).map fun c => F64.abs (F64.sub f64R (num x) c)) = (cs.map fun c => |f64R (x - c)|).map num := by
    rw [List.map_map, List.map_map]
    apply List.map_congr_left
    intro c h
    exact is_distance hx (hc c h)
  simp only [nearestLongitudeX, nearestLongitudeF]
  rw [e, nearestFold_num]
  generalize ((cs.map fun c => |f64R (x - c)|).zipIdx.foldl (fun best x => nearestStep best x.2 x.1) (10000000, none)).2 = o
  cases o with
  | none => rfl
  | some i =>
    simp only [List.getElem?_map]
    cases cs[i]? <;> rfl

/-- No latitude computed from 17-bit coordinates is in the narrow band below 87 degrees where the number of zones is NaN. -/
theorem grid_away (i : ℕ) (hi : i < 2) (G : ℤ) (x : ℝ) (hx : |x - gridLatitude i G| ≤ 1 / 2 ^ 43) (h0 : i = 0 → x = gridLatitude i G) :
    ¬ (87 - 1 / 10 ^ 12 < |x| ∧ |x| < 87) := by
  rintro ⟨h1, h2⟩
  have hA : |gridLatitude i G| = 90 / (60 - i) * (((|G| : ℤ) : ℝ) / 131072) := by
    unfold gridLatitude
    have : (0 : ℝ) < 60 - i := by have : (i : ℝ) < 2 := by exact_mod_cast hi
                                  linarith
    rw [abs_mul, abs_div, abs_div, abs_of_pos this, Int.cast_abs]
    norm_num
  generalize |G| = K at *
  have hd : |(|x|) - (|gridLatitude i G|)| ≤ 1 / 2 ^ 43 := (abs_abs_sub_abs_le _ _).trans hx
  rw [hA, abs_le] at hd
  interval_cases i
  · rw [h0 rfl, hA] at h1 h2
    have k2 : K < 7602176 := by
      have : (K : ℝ) < 7602176 := by push_cast at h2; linarith
      exact_mod_cast this
    have k3 : (K : ℝ) ≤ 7602175 := by exact_mod_cast (by omega : K ≤ 7602175)
    push_cast at h1
    norm_num at h1
    linarith
  · have e : 90 / (60 - ((1 : ℕ) : ℝ)) * ((K : ℝ) / 131072) = 3 * (30 * K) / 7733248 := by push_cast; ring
    rw [e] at hd
    norm_num at hd
    rcases (by omega : 30 * K ≤ 224264191 ∨ 224264193 ≤ 30 * K) with hk | hk
    · have : (30 * K : ℝ) ≤ 224264191 := by exact_mod_cast hk
      norm_num at h1
      linarith
    · have : (224264193 : ℝ) ≤ 30 * K := by exact_mod_cast hk
      linarith

/-- C99, surface decoding with finite receiver coordinates: for 17-bit coordinates the result, error, panic or position, is exactly that of the
arithmetic without special values (Model/GeoFloat). -/
theorem surface_finite (cosF acosF : ℝ → ℝ) (hF : Accurate cosF acosF) (el en ol on : UInt32) (e : Bool) (refLat refLon : ℝ)
    (he : el.toNat < 131072) (ho : ol.toNat < 131072) (h : |refLon| ≤ 10 ^ 50) :
    surfaceGlobalX f64R (getNumberOfLongitudeX f64R cosF acosF) el en ol on e (num refLat) (num refLon) =
      (surfaceGlobalF f64R (getNumberOfLongitudeF f64R cosF acosF) el en ol on e refLat refLon).map fun p => (num p.1, num p.2) := by
  have a1 : 4 * nz = ((60 : ℕ) : ℝ) := by unfold nz; norm_num
  have a2 : ((60 : ℕ) : ℝ) - 1 = ((59 : ℕ) : ℝ) := by norm_num
  obtain ⟨j, hj⟩ : ∃ j : ℤ, ⌊((60 : ℕ) - 1 : ℝ) * cpr el - (60 : ℕ) * cpr ol + 1 / 2⌋ = j := ⟨_, rfl⟩
  have hj' : ⌊f64R (f64R (f64R (((59 : ℕ) : ℝ) * cpr el) - f64R (((60 : ℕ) : ℝ) * cpr ol)) + 1 / 2)⌋ = j := by
    have := indexF_eq 60 (by norm_num) (by norm_num) el ol
    rw [a2] at this
    rw [this, ← hj, a2]
  have hjb : |j| ≤ 1099511627776 := by rw [← hj]; exact index_bound 60 (by norm_num) (by norm_num) el ol
  have key := surfaceGlobalX_eval _ _ (nlX_finite cosF acosF hF) el en ol on e (num refLat) refLat Iff.rfl _ _ rfl rfl
  simp only [cprF_eq, a1, a2, hj'] at key
  obtain ⟨hE, G, hG⟩ := surfaceEvenF_eq refLat j hjb el he _ rfl
  obtain ⟨hO, G', hG', -⟩ := surfaceOddF_err refLat j hjb ol ho _ _ rfl rfl
  rw [hG] at hE
  rw [hG'] at hO
  rcases key with ⟨h1, h2 | h2 | h2⟩ | ⟨lat, cs, -, hc, h1, h2⟩
  · exact absurd h2 (grid_away 0 (by norm_num) G _ (by rw [hE, sub_self, abs_zero]; positivity) (fun _ => hE))
  · exact absurd h2 (grid_away 1 (by norm_num) G' _ hO (by simp))
  · rw [h1, h2]; rfl
  · rw [h1, h2, nearestLongitude_num refLon cs h hc]
    cases nearestLongitudeF f64R refLon cs <;> rfl

theorem lt_num (a b : ℝ) : F64.lt (num a) (num b) ↔ a < b := Iff.rfl

/-- C99, when surface decoding panics. A receiver longitude within 9 990 000 degrees of zero never makes it panic. A receiver longitude that is NaN,
infinite, or beyond 10 010 000 degrees never gives a position: it panics on all the pairs of messages that give a position with the longitude
zero. The receiver latitude, whatever it is, plays no part. -/
theorem surface_panics (cosF acosF : ℝ → ℝ) (hF : Accurate cosF acosF) (el en ol on : UInt32) (e : Bool) (refLat refLon : F64) :
    let f := fun lon => surfaceGlobalX f64R (getNumberOfLongitudeX f64R cosF acosF) el en ol on e refLat lon
    ((∃ x, refLon = num x ∧ |x| ≤ 9990000) → f refLon ≠ .error .panic) ∧
    ((¬ refLon.Finite ∨ ∃ x, refLon = num x ∧ 10010000 ≤ |x| ∧ |x| ≤ 10 ^ 50) →
      (f (num 0) = .error .err ∧ f refLon = .error .err) ∨ ((∃ p, f (num 0) = .ok p) ∧ f refLon = .error .panic)) := by
  intro f
  rcases surfaceGlobalX_eval _ _ (nlX_finite cosF acosF hF) el en ol on e refLat (if F64.lt refLat (num 0) then -1 else 1)
    (by split <;> simp_all <;> norm_num) _ _ rfl rfl with ⟨h1, -⟩ | ⟨lat, cs, hne, hc, h1, -⟩
  · refine ⟨fun _ => by simp only [f]; rw [h1]; simp, fun _ => Or.inl ⟨h1 _, h1 _⟩⟩
  · have near : ∀ x : ℝ, |x| ≤ 9990000 → ∃ c ∈ cs.map num, nearestLongitudeX f64R (num x) (cs.map num) = .ok c := by
      intro x hx
      rcases nearestLongitudeX_spec f64R (num x) (cs.map num) with ⟨-, h2⟩ | ⟨-, h2⟩
      · exfalso
        obtain ⟨c, l, rfl⟩ := List.exists_cons_of_ne_nil hne
        have h3 := h2 (num c) (by simp)
        have hcc := hc c (by simp)
        rw [is_distance (hx.trans (by norm_num)) hcc, lt_num] at h3
        apply h3
        have e1 := f64R_err (x - c)
        have e2 : |f64R (x - c)| ≤ |f64R (x - c) - (x - c)| + |x - c| := by
          have := abs_add_le (f64R (x - c) - (x - c)) (x - c)
          simpa using this
        have e3 := abs_sub x c
        linarith
      · exact h2
    constructor
    · rintro ⟨x, rfl, hx⟩
      obtain ⟨c, -, h2⟩ := near x hx
      simp only [f]
      rw [h1, h2]
      simp
    · intro hfar
      right
      constructor
      · obtain ⟨c, -, h2⟩ := near 0 (by norm_num)
        exact ⟨_, by simp only [f]; rw [h1, h2]⟩
      · simp only [f]
        rw [h1]
        rcases nearestLongitudeX_spec f64R refLon (cs.map num) with ⟨h2, -⟩ | ⟨⟨c, hcm, hlt⟩, -⟩
        · rw [h2]
        · exfalso
          rcases hfar with hn | ⟨x, rfl, hx, hx'⟩
          · exact far_nonfinite f64R _ _ hn _ hlt
          · obtain ⟨c', hcm', rfl⟩ := List.mem_map.1 hcm
            rw [is_distance hx' (hc c' hcm'), lt_num] at hlt
            have hcc := hc c' hcm'
            have e1 := f64R_err (x - c')
            have e2 : |x - c'| ≤ |x - c' - f64R (x - c')| + |f64R (x - c')| := by
              have := abs_add_le (x - c' - f64R (x - c')) (f64R (x - c'))
              simpa using this
            rw [abs_sub_comm] at e1
            have e3 := abs_sub_abs_le_abs_sub x c'
            linarith

/-- C99, ground distance of finite coordinates, even enormous ones: the number of the arithmetic without special values (Model/GeoFloat), or NaN when
that computes the square root of a negative number. -/
theorem groundDistance_finite (sinF cosF : ℝ → ℝ) (atan2F : ℝ → ℝ → ℝ) (hs : ∀ x, |sinF x| ≤ 2) (hc : ∀ x, |cosF x| ≤ 2) (ha : ∀ y x, |atan2F y x| ≤ 4)
    (lat1 long1 lat2 long2 : ℝ) (h1 : |lat1| ≤ 10 ^ 50) (h2 : |long1| ≤ 10 ^ 50) (h3 : |lat2| ≤ 10 ^ 50) (h4 : |long2| ≤ 10 ^ 50) :
    groundDistanceX f64R sinF cosF atan2F (num lat1) (num long1) (num lat2) (num long2) =
      match groundDistanceF f64R sinF cosF atan2F lat1 long1 lat2 long2 with
      | none => nan
      | some d => num d := by
  have hpi : Is (num (f64R Real.pi)) (f64R Real.pi) 4 := is_num _ ((f64R_grow _).trans (by
    rw [abs_of_pos Real.pi_pos]; have := Real.pi_lt_d2; norm_num at *; linarith))
  have n180 : Is (num 180) 180 180 := is_num _ (by norm_num)
  have n2 : Is (num 2) 2 2 := is_num _ (by norm_num)
  have rad : ∀ {v : F64} {x : ℝ}, Is v x (10 ^ 52) →
      Is (F64.div f64R (F64.mul f64R v (num (f64R Real.pi))) (num 180)) (f64R (f64R (x * f64R Real.pi) / 180)) (10 ^ 54) := fun h =>
    (h.mul hpi (C := 10 ^ 53) (by norm_num) (by norm_num)).div n180 (D := 1) one_pos (by norm_num) (by norm_num) (by norm_num)
  have p1 := rad ((is_num lat1 h1).mono (by norm_num))
  have p2 := rad ((is_num lat2 h3).mono (by norm_num))
  have p3 := (rad ((is_num lat2 h3).sub (is_num lat1 h1) (by norm_num) (by norm_num))).div n2 (D := 1) one_pos (by norm_num) (C := 10 ^ 55) (by norm_num)
    (by norm_num)
  have p4 := (rad ((is_num long2 h4).sub (is_num long1 h2) (by norm_num) (by norm_num))).div n2 (D := 1) one_pos (by norm_num) (C := 10 ^ 55) (by norm_num)
    (by norm_num)
  simp only [groundDistanceX, groundDistanceF]
  rw [p1.1, p2.1, p3.1, p4.1]
  simp only [periodic]
  have sq : ∀ z : ℝ, |z| ≤ 2 → Is (F64.mul f64R (num z) (num z)) (f64R (z ^ 2)) 5 := by
    intro z hz
    rw [pow_two]
    exact (is_num z hz).mul (is_num z hz) (by norm_num) (by norm_num)
  have a1 := sq _ (hs (f64R (f64R (f64R (f64R (lat2 - lat1) * f64R Real.pi) / 180) / 2)))
  have a2 := sq _ (hs (f64R (f64R (f64R (f64R (long2 - long1) * f64R Real.pi) / 180) / 2)))
  have a3 := (is_num _ (hc (f64R (f64R (lat1 * f64R Real.pi) / 180)))).mul (is_num _ (hc (f64R (f64R (lat2 * f64R Real.pi) / 180)))) (C := 5)
    (by norm_num) (by norm_num)
  have a4 := a1.add (a3.mul a2 (C := 30) (by norm_num) (by norm_num)) (C := 40) (by norm_num) (by norm_num)
  rw [a4.1]
  have a5 := (is_num 1 (B := 1) (by norm_num)).sub ⟨rfl, a4.2⟩ (C := 50) (by norm_num) (by norm_num)
  rw [a5.1]
  generalize f64R (1 - _) = b at *
  generalize f64R (f64R (sinF _ ^ 2) + _) = a at *
  by_cases hA : a < 0
  · have : F64.sqrt f64R (num a) = nan := by simp [F64.sqrt, hA]
    rw [this, if_pos (Or.inl hA)]
    rfl
  by_cases hB : b < 0
  · have : F64.sqrt f64R (num b) = nan := by simp [F64.sqrt, hB]
    rw [this, if_pos (Or.inr hB)]
    simp only [F64.sqrt, if_neg hA]
    rfl
  rw [if_neg (by tauto)]
  have r1 : F64.sqrt f64R (num a) = num (f64R (Real.sqrt a)) := by simp [F64.sqrt, hA]
  have r2 : F64.sqrt f64R (num b) = num (f64R (Real.sqrt b)) := by simp [F64.sqrt, hB]
  rw [r1, r2]
  have c1 := n2.mul (is_num _ (ha (f64R (Real.sqrt a)) (f64R (Real.sqrt b)))) (C := 10) (by norm_num) (by norm_num)
  have c2 := (is_num 6371000 (B := 6371000) (by norm_num)).mul c1 (C := 10 ^ 8) (by norm_num) (by norm_num)
  exact c2.1

/-- C99, a part that is false of finite coordinates: the largest `float64` as a latitude overflows and the distance is NaN. -/
theorem groundDistance_finite_refuted (sinF cosF : ℝ → ℝ) (atan2F : ℝ → ℝ → ℝ) (long1 lat2 long2 : F64) :
    groundDistanceX f64R sinF cosF atan2F (num largest) long1 lat2 long2 = nan := by
  have hpos : 0 < largest := lt_of_lt_of_le (by norm_num) largest_big
  have hpi : 2 ≤ f64R Real.pi := by
    have := f64R_err Real.pi
    rw [abs_of_pos Real.pi_pos] at this
    have := abs_le.1 this
    have := Real.pi_gt_three
    linarith
  have hov : ¬ |f64R (largest * f64R Real.pi)| ≤ largest := by
    have := f64R_shrink (largest * f64R Real.pi)
    rw [abs_of_pos (mul_pos hpos (by linarith))] at this
    have : largest * 2 ≤ largest * f64R Real.pi := mul_le_mul_of_nonneg_left hpi hpos.le
    intro h
    linarith
  have hphi : periodic cosF (F64.div f64R (F64.mul f64R (num largest) (num (f64R Real.pi))) (num 180)) = nan := by
    have : F64.mul f64R (num largest) (num (f64R Real.pi)) = inf (decide (f64R (largest * f64R Real.pi) < 0)) := by
      show F64.round f64R _ = _
      rw [F64.round, if_neg hov]
    rw [this]
    rfl
  simp only [groundDistanceX]
  rw [hphi]
  have hadd : ∀ u v w : F64, F64.add f64R u (F64.mul f64R (F64.mul f64R nan v) w) = nan := by
    intro u v w; exact add_nan f64R u
  rw [hadd]
  rfl

end Geo
end Modes
