import Verif.Lemmas.Flat
import Mathlib.Analysis.Real.Pi.Bounds
import Mathlib.Tactic.NormNum

/-! Angular separations: `skysep_h` (C33) and the flat separation used without `-H` (C34, C69, C70). -/

namespace SatSky.Props

open SatSky.Spec SatSky.Geo Real

/-! ### C33 -/

/-- C33: for all angles the result is the angle between the two directions, in degrees. -/
theorem C33_great_circle (a b c d : ℝ) :
    skysep_h a b c d = Spec.angle (dir a b) (dir c d) * (180 / π) := skysep_eq a b c d

/-- C33: the result is in `[0, 180]`. -/
theorem C33_range (a b c d : ℝ) : 0 ≤ skysep_h a b c d ∧ skysep_h a b c d ≤ 180 := by
  rw [C33_great_circle]
  have h0 := InnerProductGeometry.angle_nonneg (dir a b).toE (dir c d).toE
  have h1 := InnerProductGeometry.angle_le_pi (dir a b).toE (dir c d).toE
  have hp : 0 < 180 / π := r2d_pos
  refine ⟨mul_nonneg h0 hp.le, ?_⟩
  calc Spec.angle (dir a b) (dir c d) * (180 / π) ≤ π * (180 / π) := mul_le_mul_of_nonneg_right h1 hp.le
    _ = 180 := by field_simp

/-- C33: symmetric. -/
theorem C33_symmetric (a b c d : ℝ) : skysep_h a b c d = skysep_h c d a b := by
  rw [C33_great_circle, C33_great_circle, Spec.angle, InnerProductGeometry.angle_comm]
  rfl

/-- C33: zero exactly for coinciding directions. -/
theorem C33_zero (a b c d : ℝ) : skysep_h a b c d = 0 ↔ dir a b = dir c d := by
  rw [C33_great_circle, mul_eq_zero, angle_eq_zero, or_iff_left]
  exact (show (180 / π : ℝ) ≠ 0 from r2d_pos.ne')

/-- C33: full turns in right ascension do not matter. -/
theorem C33_turns {a a' c c' : ℝ} (b d : ℝ) (ha : Turns (2 * π) a' a) (hc : Turns (2 * π) c' c) :
    skysep_h a' b c' d = skysep_h a b c d := by
  obtain ⟨k, rfl⟩ := ha
  obtain ⟨l, rfl⟩ := hc
  have e : ∀ x y : ℝ, ∀ m : ℤ, dir (x + 2 * π * m) y = dir x y := by
    intro x y m
    simp only [dir]
    rw [show x + 2 * π * m = x + m * (2 * π) by ring, cos_add_int_mul_two_pi, sin_add_int_mul_two_pi]
  rw [C33_great_circle, C33_great_circle, e, e]

/-- C33: triangle inequality. -/
theorem C33_triangle (a b c d e f : ℝ) : skysep_h a b e f ≤ skysep_h a b c d + skysep_h c d e f := by
  rw [C33_great_circle, C33_great_circle, C33_great_circle, ← add_mul]
  exact mul_le_mul_of_nonneg_right (InnerProductGeometry.angle_le_angle_add_angle _ _ _)
    (show (0 : ℝ) ≤ 180 / π from r2d_pos.le)

/-- A quarter turn along the equator given once as a negative longitude; the pole is 90 degrees from the equator. -/
example : skysep_h (-(π / 4)) 0 (π / 4) 0 = 90 := by
  rw [C33_great_circle, angle_dir, dot_dir]
  rw [show π / 4 - -(π / 4) = π / 2 by ring]
  simp only [sub_zero, cos_zero, cos_pi_div_two]
  norm_num

example (a c : ℝ) : skysep_h a 0 c (π / 2) = 90 := by
  rw [C33_great_circle, angle_dir, dot_dir]
  simp only [sub_zero, cos_zero, cos_pi_div_two]
  norm_num

/-! ### C34 -/

theorem deltaRa_wrapped {ra ra0 : ℝ} (h1 : -(3 * π) < ra - ra0) (h2 : ra - ra0 ≤ π) :
    Wrapped (deltaRa ra ra0) (ra - ra0) := by
  unfold deltaRa
  dsimp only
  split_ifs with h
  · exact ⟨by linarith, by linarith, 0, by push_cast; ring⟩
  · exact ⟨by linarith, by linarith, 1, by push_cast; ring⟩

/-- C34 where the satellite is at most half a turn ahead of the target (it may be one and a half turns behind): the right
ascension is taken round the circle.  Missing: satellites more than half a turn ahead, see `C34_ahead`. -/
theorem C34_wrap_partial {ra ra0 : ℝ} (dec dec0 : ℝ) (h1 : -(3 * π) < ra - ra0) (h2 : ra - ra0 ≤ π) :
    FlatSep (flatSep ra dec ra0 dec0) ra dec ra0 dec0 := by
  refine ⟨deltaRa ra ra0, deltaRa_wrapped h1 h2, ?_⟩
  unfold flatSep r2d
  rw [sq, sq]

theorem wrapped_unique {w w' x : ℝ} (h : Wrapped w x) (h' : Wrapped w' x) : w = w' := by
  obtain ⟨a, b, k, e⟩ := h
  obtain ⟨a', b', k', e'⟩ := h'
  have hd : w - w' = 2 * π * ((k - k' : ℤ) : ℝ) := by push_cast; linarith
  have hp := pi_pos
  have h0 : k - k' = 0 := by
    have u1 : ((k - k' : ℤ) : ℝ) < 1 := by
      by_contra hc
      push Not at hc
      nlinarith
    have u2 : (-1 : ℝ) < ((k - k' : ℤ) : ℝ) := by
      by_contra hc
      push Not at hc
      nlinarith
    have v1 : k - k' < 1 := by exact_mod_cast u1
    have v2 : -1 < k - k' := by exact_mod_cast u2
    omega
  rw [h0] at hd
  push_cast at hd
  linarith

/-- C34 fails for right ascensions in `[0, 2π)` exactly where the satellite is more than half a turn ahead of the target:
there the difference keeps a whole turn too much. -/
theorem C34_ahead {ra ra0 dec dec0 : ℝ} (hra : 0 ≤ ra ∧ ra < 2 * π) (hra0 : 0 ≤ ra0 ∧ ra0 < 2 * π) :
    FlatSep (flatSep ra dec ra0 dec0) ra dec ra0 dec0 ↔ ra - ra0 ≤ π := by
  constructor
  · rintro ⟨w, hw, e⟩
    by_contra hc
    push Not at hc
    have hd : deltaRa ra ra0 = ra - ra0 := by
      unfold deltaRa
      rw [if_pos (by linarith)]
      ring
    unfold flatSep at e
    rw [hd] at e
    have hw2 : w = ra - ra0 - 2 * π :=
      wrapped_unique hw ⟨by linarith, by linarith, -1, by push_cast; ring⟩
    have e1 := mul_right_cancel₀ (show (180 / π : ℝ) ≠ 0 from r2d_pos.ne') e
    rw [sqrt_inj (by nlinarith [mul_self_nonneg (ra - ra0), mul_self_nonneg (dec - dec0)]) (by positivity), hw2] at e1
    nlinarith [pi_pos]
  · intro h
    exact C34_wrap_partial dec dec0 (by linarith [pi_pos]) h

/-- C34 is violated: for a target at right ascension 1° and a satellite at 359° (both on the equator) the separation used is
358°, not 2°; with the same satellite at -1° it is 2°. -/
theorem C34_violated :
    flatSep (359 * d2r) 0 (1 * d2r) 0 = 358 ∧ flatSep (359 * d2r - 2 * π) 0 (1 * d2r) 0 = 2 ∧
      skysep_h (1 * d2r) 0 (359 * d2r) 0 = 2 := by
  have hp := pi_pos
  have e1 : deltaRa (359 * d2r) (1 * d2r) = 358 * d2r := by
    unfold deltaRa d2r
    rw [if_pos (by nlinarith)]
    ring
  have e2 : deltaRa (359 * d2r - 2 * π) (1 * d2r) = -(2 * d2r) := by
    unfold deltaRa d2r
    rw [if_pos (by nlinarith)]
    ring
  have k : ∀ x : ℝ, 0 ≤ x → sqrt (x * d2r * (x * d2r) + (0 - 0) * (0 - 0)) * r2d = x := by
    intro x hx
    have : 0 ≤ x * d2r := mul_nonneg hx (by unfold d2r; positivity)
    rw [sub_zero, mul_zero, add_zero, sqrt_mul_self this, d2r, r2d]
    field_simp
  refine ⟨?_, ?_, ?_⟩
  · unfold flatSep
    rw [e1]
    exact k 358 (by norm_num)
  · unfold flatSep
    rw [e2, neg_mul_neg]
    exact k 2 (by norm_num)
  · rw [C33_great_circle, angle_dir, dot_dir]
    simp only [sub_zero, cos_zero, one_mul, mul_one]
    rw [show (359 : ℝ) * d2r - d2r = 2 * π - 2 * d2r by unfold d2r; ring, cos_two_pi_sub]
    rw [show (1 : ℝ) - (1 - cos (2 * d2r)) = cos (2 * d2r) by ring,
      arccos_cos (by unfold d2r; positivity) (by unfold d2r; nlinarith)]
    unfold d2r
    field_simp

/-- The other direction works: target at 359°, satellite at 1°. -/
example : FlatSep (flatSep (1 * d2r) 0 (359 * d2r) 0) (1 * d2r) 0 (359 * d2r) 0 :=
  C34_wrap_partial 0 0 (by unfold d2r; nlinarith [pi_pos]) (by unfold d2r; nlinarith [pi_pos])

/-! ### C69 -/

/-- C69: the flat separation is never smaller than the true one, so every satellite selected by the flat test is within the
radius. -/
theorem C69_flat_is_safe (ra dec ra0 dec0 : ℝ) : skysep_h ra0 dec0 ra dec ≤ flatSep ra dec ra0 dec0 := by
  have ht : ∃ k : ℤ, deltaRa ra ra0 = ra + 2 * π * k - ra0 := by
    unfold deltaRa
    dsimp only
    split_ifs
    · exact ⟨0, by push_cast; ring⟩
    · exact ⟨1, by push_cast; ring⟩
  obtain ⟨k, hk⟩ := ht
  rw [← C33_turns (a := ra0) (a' := ra0) (c := ra) (c' := ra + 2 * π * k) dec0 dec ⟨0, by push_cast; ring⟩ ⟨k, rfl⟩,
    C33_great_circle]
  unfold flatSep
  rw [hk, ← sq, ← sq]
  exact mul_le_mul_of_nonneg_right (angle_le_flat ra0 dec0 (ra + 2 * π * k) dec) (show (0 : ℝ) ≤ 180 / π from r2d_pos.le)

/-- C69: selected by the flat test means within the search radius on the sky. -/
theorem C69_selected_within {ra dec ra0 dec0 radius : ℝ} (h : flatSep ra dec ra0 dec0 ≤ radius) :
    Spec.angle (dir ra0 dec0) (dir ra dec) * (180 / π) ≤ radius := by
  rw [← C33_great_circle]
  exact le_trans (C69_flat_is_safe ra dec ra0 dec0) h

/-- The converse fails, also without wrapping: two directions near the pole, 90° of right ascension apart. -/
theorem C69_not_complete : flatSep (π / 2) (π / 2) 0 (π / 2) = 90 ∧ skysep_h 0 (π / 2) (π / 2) (π / 2) = 0 := by
  constructor
  · unfold flatSep deltaRa
    dsimp only
    rw [if_pos (by linarith [pi_pos]), show (π / 2 - 0 + 2 * π - 2 * π) = π / 2 by ring, sub_self, mul_zero, add_zero,
      sqrt_mul_self (by positivity), r2d]
    field_simp
    norm_num
  · rw [C33_zero]
    simp [dir]

example : skysep_h 0 0 1 1 ≤ flatSep 1 1 0 0 := C69_flat_is_safe 1 1 0 0

/-! ### C70 -/

/-- C70 is violated: with `-E` and without `-H`, a satellite exactly above the given place at latitude 45° has a separation
of more than 2500 degrees (the latitude of the satellite is in degrees, that of the place in radians). -/
theorem C70_geo_violated : flatGeoSep 0 45 0 (45 * d2r) > 2500 ∧ skysep_h 0 (45 * d2r) (0 * d2r) (45 * d2r) = 0 := by
  have hp := pi_pos
  have hp3 := pi_lt_d2
  constructor
  · unfold flatGeoSep d2r r2d
    dsimp only
    rw [if_pos (by linarith), show (0 : ℝ) * (π / 180) - 0 + 2 * π - 2 * π = 0 by ring, zero_mul, zero_add,
      sqrt_mul_self (by linarith), gt_iff_lt, mul_div_assoc', lt_div_iff₀ hp]
    nlinarith
  · rw [C33_zero]
    simp [dir]

/-- C70 on the equator (target and satellite at latitude 0): the flat test is the difference of the longitudes, taken round the
circle for longitudes at most half a turn ahead.  Missing: any other latitude. -/
theorem C70_geo_partial {lon lon0 : ℝ} (h1 : -(3 * π) < lon * d2r - lon0) (h2 : lon * d2r - lon0 ≤ π) :
    FlatSep (flatGeoSep lon 0 lon0 0) (lon * d2r) 0 lon0 0 := by
  refine ⟨deltaRa (lon * d2r) lon0, deltaRa_wrapped h1 h2, ?_⟩
  unfold flatGeoSep deltaRa r2d
  rw [sq, sq]

/-- What is computed is the flat separation between the place and a satellite at latitude `lat` *radians*. -/
theorem flatGeoSep_eq (lon lat lon0 lat0 : ℝ) : flatGeoSep lon lat lon0 lat0 = flatSep (lon * d2r) lat lon0 lat0 := by
  unfold flatGeoSep flatSep deltaRa
  rfl

example : flatGeoSep 10 0 0 0 = 10 := by
  rw [flatGeoSep_eq]
  unfold flatSep deltaRa d2r r2d
  dsimp only
  have hp := pi_pos
  rw [if_pos (by nlinarith), show (10 : ℝ) * (π / 180) - 0 + 2 * π - 2 * π = π / 18 by ring, sub_self, mul_zero, add_zero,
    sqrt_mul_self (by positivity)]
  field_simp
  norm_num

end SatSky.Props
