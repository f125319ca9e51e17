import Verif.Props.GeoSpecial
/-!
Concrete cases of the theorems of Props/GeoSpecial.
-/
noncomputable section
namespace Modes
namespace Geo
open F64 Spec

/-- A correctly rounded cosine and arccosine. -/
abbrev cosR (x : ℝ) : ℝ := f64R (Real.cos x)
/-- A correctly rounded arccosine. -/
abbrev acosR (x : ℝ) : ℝ := f64R (Real.arccos x)
/-- The number of zones computed with them. -/
abbrev nlR : F64 → F64 := getNumberOfLongitudeX f64R cosR acosR

/-- A receiver without a position. -/
example (la lo : UInt32) (isOdd : Bool) : localPositionX f64R 360 nlR la lo nan (num 5) isOdd = (nan, nan) :=
  (local_nonfinite f64R 360 _ _ la lo nan (num 5) (num 5) isOdd).1 (fun h => h)

/-- A receiver with an infinite longitude: the latitude is that found with the longitude 5. -/
example (la lo : UInt32) (isOdd : Bool) :
    localPositionX f64R 90 nlR la lo (num 52) (inf true) isOdd = ((localPositionX f64R 90 nlR la lo (num 52) (num 5) isOdd).1, nan) :=
  (local_nonfinite f64R 90 _ _ la lo (num 52) (inf true) (num 5) isOdd).2 (fun h => h)

/-- A receiver a million degrees away. -/
example (la lo : UInt32) (isOdd : Bool) :
    ∃ lat lon, localPositionX f64R 360 nlR la lo (num 1000000) (num (-1000000)) isOdd = (num lat, lon) := by
  rcases (local_numbers cosR acosR accurate_rounded la lo 1000000 (-1000000) isOdd (by norm_num) (by norm_num)).1 with h | ⟨h, -⟩
  · exact ⟨_, _, h⟩
  · exact ⟨_, _, h⟩

/-- An aircraft on the equator gives a position to a receiver at longitude 12, and a panic to a receiver at an infinite longitude, at a longitude
that is not a number, or at the longitude 20 000 000. -/
example :
    let f := fun lat lon => surfaceGlobalX f64R nlR (encodeLat 19 0 0) (encodeLon 19 0 0 10) (encodeLat 19 1 0) (encodeLon 19 1 0 10) true lat lon
    (∃ lat lon, f (num 0) (num 12) = .ok (num lat, num lon)) ∧ (∃ lat lon, f nan (num 12) = .ok (num lat, num lon)) ∧
    f nan nan = .error .panic ∧ f (num 0) (inf false) = .error .panic ∧ f (num 0) (num 20000000) = .error .panic := by
  intro f
  have hz (i : ℕ) (hi : i ≤ 1) : rLat 19 i 0 = 0 := by
    rw [rLat19_eq i hi]
    have : grid 17 (dLat i / 4) 0 = 0 := by unfold grid; rw [Int.floor_eq_iff]; norm_num
    rw [this]; norm_num
  obtain ⟨lat, lon, h, -, -⟩ := surface_global_float64 _ _ accurate_rounded 0 10 0 10 0 12 true (Or.inl ⟨le_rfl, le_rfl, by rw [dLat0]; norm_num⟩)
    (Or.inl ⟨le_rfl, le_rfl, by rw [dLat1]; norm_num⟩) (Or.inl (hz 0 (by norm_num))) (Or.inl (hz 1 le_rfl)) (by norm_num)
    (by rw [hz 0 (by norm_num), hz 1 le_rfl]) (by norm_num) (by simp only [if_true]; norm_num [abs_of_pos])
    (by simp only [if_true]; norm_num [abs_of_neg])
  have h0 : f (num 0) (num 12) = .ok (num lat, num lon) := by
    have := surface_finite cosR acosR accurate_rounded (encodeLat 19 0 0) (encodeLon 19 0 0 10) (encodeLat 19 1 0) (encodeLon 19 1 0 10) true 0 12
      (encode_lt _ _ _) (encode_lt _ _ _) (by norm_num)
    rw [show surfaceGlobalF _ _ _ _ _ _ _ _ _ = _ from h] at this
    exact this
  have h1 : f nan (num 12) = .ok (num lat, num lon) := by
    simp only [f]
    rw [surface_hemisphere f64R nlR _ _ _ _ true nan (num 0) (num 12) (by simp [F64.lt])]
    exact h0
  have bad : ∀ r v, f r (num 12) = .ok (num lat, num lon) → ¬ v.Finite → f r v = .error .panic := by
    intro r v hr hv
    rcases surface_nonfinite_longitude f64R nlR _ _ _ _ true r v (num 12) hv with ⟨h, -⟩ | ⟨-, h⟩
    · rw [show surfaceGlobalX _ _ _ _ _ _ _ _ _ = _ from hr] at h; cases h
    · exact h
  refine ⟨⟨lat, lon, h0⟩, ⟨lat, lon, h1⟩, bad _ _ h1 (fun h => h), bad _ _ h0 (fun h => h), ?_⟩
  have p := (surface_panics cosR acosR accurate_rounded (encodeLat 19 0 0) (encodeLon 19 0 0 10) (encodeLat 19 1 0) (encodeLon 19 1 0 10) true (num 0)
    (num 20000000)).2 (Or.inr ⟨_, rfl, by norm_num, by norm_num⟩)
  have q := (surface_panics cosR acosR accurate_rounded (encodeLat 19 0 0) (encodeLon 19 0 0 10) (encodeLat 19 1 0) (encodeLon 19 1 0 10) true (num 0)
    nan).2 (Or.inl (fun h => h))
  rcases p with ⟨p1, -⟩ | ⟨-, p2⟩
  · rcases q with ⟨-, q2⟩ | ⟨⟨_, q1⟩, -⟩
    · exact nomatch (show surfaceGlobalX _ _ _ _ _ _ _ _ _ = _ from bad (num 0) nan h0 (fun h => h)).symm.trans q2
    · exact nomatch q1.symm.trans p1
  · exact p2

/-- A distance from a point that is not one. -/
example (sinF cosF : ℝ → ℝ) (atan2F : ℝ → ℝ → ℝ) : groundDistanceX f64R sinF cosF atan2F (num 1) (num 2) (inf false) (num 4) = nan :=
  groundDistance_nonfinite f64R sinF cosF atan2F _ _ _ _ (Or.inr (Or.inr (Or.inl (fun h => h))))

/-- Coordinates of a billion degrees, with correctly rounded functions. -/
example : groundDistanceX f64R (fun x => f64R (Real.sin x)) cosR (fun y x => f64R (Complex.arg ⟨x, y⟩)) (num (10 ^ 9)) (num 2) (num 3) (num 4) =
    match groundDistanceF f64R (fun x => f64R (Real.sin x)) cosR (fun y x => f64R (Complex.arg ⟨x, y⟩)) (10 ^ 9) 2 3 4 with
    | none => nan
    | some d => num d := by
  apply groundDistance_finite
  · intro x; have h1 := f64R_grow (Real.sin x); have h2 := Real.abs_sin_le_one x; show |f64R (Real.sin x)| ≤ 2; linarith
  · intro x; have h1 := f64R_grow (Real.cos x); have h2 := Real.abs_cos_le_one x; show |f64R (Real.cos x)| ≤ 2; linarith
  · intro y x
    have h1 := f64R_grow (Complex.arg ⟨x, y⟩)
    have h2 := Complex.abs_arg_le_pi ⟨x, y⟩
    have h3 := Real.pi_lt_d2
    show |f64R (Complex.arg ⟨x, y⟩)| ≤ 4
    norm_num at h3
    linarith
  all_goals norm_num

/-- At 87 degrees exactly, the number of zones is a number. -/
example : getNumberOfLongitudeX f64R cosR acosR (num 87) = num (getNumberOfLongitudeF f64R cosR acosR 87) := by
  rcases nlX_finite cosR acosR accurate_rounded 87 with ⟨-, -, h⟩ | ⟨h, -⟩
  · norm_num at h
  · exact h

end Geo
end Modes
