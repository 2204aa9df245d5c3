import Verif.Lemmas.HealpixEval
import Verif.Spec.HealpixRegion
import Verif.Spec.Sphere
import Mathlib.Analysis.Complex.Norm
import Mathlib.Analysis.SpecialFunctions.Trigonometric.Bounds

/-! Distances on the sphere and in the plane of the HEALPix projection. -/

namespace SatSky.Healpix

open SatSky SatSky.Spec SatSky.Spec.Healpix

/-- Point of the meridian. -/
noncomputable def merid (z : ℝ) : ℂ := ⟨z, Real.sqrt (1 - z ^ 2)⟩

theorem merid_bound {z w s r : ℝ} (hs : s ^ 2 = 1 - z ^ 2) (hr : r ^ 2 = 1 - w ^ 2) (s0 : 0 ≤ s) (r0 : 0 ≤ r) :
    ((z - w) ^ 2 + (s - r) ^ 2) * (s + r) ^ 2 ≤ (2 * (z - w)) ^ 2 := by
  have e : ((z - w) ^ 2 + (s - r) ^ 2) * (s + r) ^ 2 = (z - w) ^ 2 * ((z + w) ^ 2 + (s + r) ^ 2) := by
    have : (s - r) ^ 2 * (s + r) ^ 2 = (z - w) ^ 2 * (z + w) ^ 2 := by
      have h : (s - r) * (s + r) = -((z - w) * (z + w)) := by linear_combination hs - hr
      calc (s - r) ^ 2 * (s + r) ^ 2 = ((s - r) * (s + r)) ^ 2 := by ring
        _ = _ := by rw [h]; ring
    linear_combination this
  rw [e]
  have h2 : (z + w) ^ 2 + (s + r) ^ 2 ≤ 4 := by nlinarith [sq_nonneg (z - w), sq_nonneg (s - r)]
  nlinarith [sq_nonneg (z - w)]

/-- On the meridian the distance is not more than `|Δz|` over the mean distance from the axis. -/
theorem merid_dist {z w c : ℝ} (hz : |z| ≤ 1) (hw : |w| ≤ 1) (hc : 0 < c) (h : 2 * c ≤ Real.sqrt (1 - z ^ 2) + Real.sqrt (1 - w ^ 2)) :
    ‖merid z - merid w‖ ≤ |z - w| / c := by
  have hz2 : z ^ 2 ≤ 1 := by rw [← sq_abs]; nlinarith [abs_nonneg z]
  have hw2 : w ^ 2 ≤ 1 := by rw [← sq_abs]; nlinarith [abs_nonneg w]
  have hs : Real.sqrt (1 - z ^ 2) ^ 2 = 1 - z ^ 2 := Real.sq_sqrt (by linarith)
  have hr : Real.sqrt (1 - w ^ 2) ^ 2 = 1 - w ^ 2 := Real.sq_sqrt (by linarith)
  have s0 := Real.sqrt_nonneg (1 - z ^ 2)
  have r0 := Real.sqrt_nonneg (1 - w ^ 2)
  have key := merid_bound hs hr s0 r0
  have en : ‖merid z - merid w‖ ^ 2 = (z - w) ^ 2 + (Real.sqrt (1 - z ^ 2) - Real.sqrt (1 - w ^ 2)) ^ 2 := by
    rw [← Complex.normSq_eq_norm_sq, Complex.normSq_apply]
    simp only [merid, Complex.sub_re, Complex.sub_im]
    ring
  rw [← en] at key
  generalize Real.sqrt (1 - z ^ 2) + Real.sqrt (1 - w ^ 2) = S at *
  have n0 := norm_nonneg (merid z - merid w)
  generalize ‖merid z - merid w‖ = m at *
  rw [le_div_iff₀ hc]
  have h1 : m * S ≤ 2 * |z - w| := by
    apply abs_le_of_sq_le_sq' _ (by positivity) |>.2
    calc (m * S) ^ 2 = m ^ 2 * S ^ 2 := by ring
      _ ≤ (2 * (z - w)) ^ 2 := key
      _ = (2 * |z - w|) ^ 2 := by rw [mul_pow, mul_pow, sq_abs]
  nlinarith

/-- The circle shrinks by this factor in the plane. -/
noncomputable def hat (z : ℝ) : ℝ := if |z| ≤ 2 / 3 then 1 else Real.sqrt (3 * (1 - |z|))

theorem plane_abs_belt {z : ℝ} (h : |z| ≤ 2 / 3) : |planeY z| ≤ 1 / 2 ∧ hat z = 1 := by
  unfold planeY hat
  rw [if_pos h, if_pos h, abs_mul, abs_of_pos (by norm_num : (0 : ℝ) < 3 / 4)]
  exact ⟨by linarith, rfl⟩

theorem plane_abs_cap {z : ℝ} (h : 2 / 3 < |z|) : hat z = 2 * (1 - |planeY z|) ∧ 0 ≤ hat z ∧ hat z < 1 := by
  obtain ⟨r0, r1⟩ := cap_root h
  unfold planeY hat
  rw [if_neg (not_le.mpr h), if_neg (not_le.mpr h)]
  refine ⟨?_, r0, r1⟩
  generalize Real.sqrt (3 * (1 - |z|)) = r at *
  split_ifs
  · rw [abs_of_pos (by linarith)]; ring
  · rw [abs_neg, abs_of_pos (by linarith)]; ring

theorem hat_range (z : ℝ) : 0 ≤ hat z ∧ hat z ≤ 1 := by
  rcases le_or_gt |z| (2 / 3) with h | h
  · rw [(plane_abs_belt h).2]; norm_num
  · exact ⟨(plane_abs_cap h).2.1, (plane_abs_cap h).2.2.le⟩

theorem hat_lipschitz (z w : ℝ) : |hat z - hat w| ≤ 2 * |planeY z - planeY w| := by
  have hl := abs_abs_sub_abs_le (planeY z) (planeY w)
  have hl' := abs_le.mp hl
  rw [abs_le]
  rcases le_or_gt |z| (2 / 3) with h | h <;> rcases le_or_gt |w| (2 / 3) with g | g
  · rw [(plane_abs_belt h).2, (plane_abs_belt g).2]
    have := abs_nonneg (planeY z - planeY w)
    constructor <;> linarith
  · obtain ⟨a1, a2⟩ := plane_abs_belt h
    obtain ⟨b1, b2, b3⟩ := plane_abs_cap g
    rw [a2, b1]
    constructor <;> linarith
  · obtain ⟨a1, a2⟩ := plane_abs_belt g
    obtain ⟨b1, b2, b3⟩ := plane_abs_cap h
    rw [a2, b1]
    constructor <;> linarith
  · obtain ⟨b1, b2, b3⟩ := plane_abs_cap h
    obtain ⟨d1, d2, d3⟩ := plane_abs_cap g
    rw [b1, d1]
    constructor <;> linarith

/-- Distance from the axis. -/
theorem axis_le_hat {z : ℝ} (hz : |z| ≤ 1) : Real.sqrt (1 - z ^ 2) ≤ hat z := by
  unfold hat
  split_ifs with h
  · rw [Real.sqrt_le_left (by norm_num)]; nlinarith [sq_nonneg z]
  · apply Real.sqrt_le_sqrt
    rw [← sq_abs]
    nlinarith [abs_nonneg z]

theorem axis_belt {z : ℝ} (h : |z| ≤ 2 / 3) : 20 / 27 ≤ Real.sqrt (1 - z ^ 2) := by
  apply Real.le_sqrt_of_sq_le
  have : z ^ 2 ≤ (2 / 3) ^ 2 := by rw [← sq_abs]; exact pow_le_pow_left₀ (abs_nonneg z) h 2
  linarith

theorem axis_cap {z : ℝ} (h : 2 / 3 ≤ |z|) (hz : |z| ≤ 1) : 20 / 27 * Real.sqrt (3 * (1 - |z|)) ≤ Real.sqrt (1 - z ^ 2) := by
  apply Real.le_sqrt_of_sq_le
  rw [mul_pow, Real.sq_sqrt (by linarith), ← sq_abs z]
  nlinarith

/-- Both in the belt. -/
theorem merid_belt {z w : ℝ} (hz : |z| ≤ 2 / 3) (hw : |w| ≤ 2 / 3) : ‖merid z - merid w‖ ≤ 9 / 5 * |planeY z - planeY w| := by
  have h := merid_dist (c := 20 / 27) (by linarith : |z| ≤ 1) (by linarith : |w| ≤ 1) (by norm_num) (by linarith [axis_belt hz, axis_belt hw])
  unfold planeY
  rw [if_pos hz, if_pos hw, ← mul_sub, abs_mul, abs_of_pos (by norm_num : (0 : ℝ) < 3 / 4)]
  calc _ ≤ _ := h
    _ = _ := by ring

theorem planeY_north {z : ℝ} (h : 2 / 3 ≤ z) : planeY z = 1 - Real.sqrt (3 * (1 - z)) / 2 := by
  have hz : |z| = z := abs_of_pos (by linarith)
  unfold planeY
  rw [hz]
  rcases h.eq_or_lt with e | e
  · rw [if_pos (le_of_eq e.symm), ← e, show (3 : ℝ) * (1 - 2 / 3) = 1 by norm_num, Real.sqrt_one]; norm_num
  · rw [if_neg (not_le.mpr e), if_pos (by linarith)]

theorem planeY_neg {z : ℝ} (h : 2 / 3 ≤ |z|) : planeY (-z) = -planeY z := by
  unfold planeY
  rw [abs_neg]
  split_ifs with a b c
  · ring
  · exfalso
    have : z = 0 := by linarith
    rw [this, abs_zero] at h; norm_num at h
  · ring
  · ring
  · exfalso; linarith

/-- Both in the north cap. -/
theorem merid_north {z w : ℝ} (hz : 2 / 3 ≤ z) (hw : 2 / 3 ≤ w) (hz1 : z ≤ 1) (hw1 : w ≤ 1) : ‖merid z - merid w‖ ≤ 9 / 5 * |planeY z - planeY w| := by
  rw [planeY_north hz, planeY_north hw]
  have az : |z| = z := abs_of_pos (by linarith)
  have aw : |w| = w := abs_of_pos (by linarith)
  have a1 := axis_cap (z := z) (by rwa [az]) (by rwa [az])
  have a2 := axis_cap (z := w) (by rwa [aw]) (by rwa [aw])
  rw [az] at a1
  rw [aw] at a2
  have q1 : Real.sqrt (3 * (1 - z)) ^ 2 = 3 * (1 - z) := Real.sq_sqrt (by linarith)
  have q2 : Real.sqrt (3 * (1 - w)) ^ 2 = 3 * (1 - w) := Real.sq_sqrt (by linarith)
  have p1 := Real.sqrt_nonneg (3 * (1 - z))
  have p2 := Real.sqrt_nonneg (3 * (1 - w))
  generalize Real.sqrt (3 * (1 - z)) = a at *
  generalize Real.sqrt (3 * (1 - w)) = b at *
  rcases (add_nonneg p1 p2).eq_or_lt with h | h
  · have e1 : a = 0 := by linarith
    have e2 : b = 0 := by linarith
    rw [e1] at q1
    rw [e2] at q2
    have : z = w := by linarith
    rw [this, sub_self, norm_zero]; positivity
  · have hd := merid_dist (z := z) (w := w) (c := 10 / 27 * (a + b)) (by rwa [az]) (by rwa [aw]) (by positivity) (by linarith)
    refine hd.trans (le_of_eq ?_)
    have e : z - w = -((a - b) * (a + b) / 3) := by linear_combination (1 / 3) * q1 - (1 / 3) * q2
    rw [e, abs_neg, abs_div, abs_mul, abs_of_pos h, abs_of_pos (by norm_num : (0 : ℝ) < 3),
      show 1 - a / 2 - (1 - b / 2) = -((a - b) / 2) by ring, abs_neg, abs_div, abs_of_pos (by norm_num : (0 : ℝ) < 2)]
    field_simp
    ring

theorem merid_flip (z w : ℝ) : ‖merid (-z) - merid (-w)‖ = ‖merid z - merid w‖ := by
  have h : ‖merid (-z) - merid (-w)‖ ^ 2 = ‖merid z - merid w‖ ^ 2 := by
    rw [← Complex.normSq_eq_norm_sq, ← Complex.normSq_eq_norm_sq, Complex.normSq_apply, Complex.normSq_apply]
    simp only [merid, Complex.sub_re, Complex.sub_im, neg_sq]
    ring
  exact (pow_left_inj₀ (norm_nonneg _) (norm_nonneg _) two_ne_zero).mp h

theorem merid_south {z w : ℝ} (hz : z ≤ -(2 / 3)) (hw : w ≤ -(2 / 3)) (hz1 : -1 ≤ z) (hw1 : -1 ≤ w) :
    ‖merid z - merid w‖ ≤ 9 / 5 * |planeY z - planeY w| := by
  have h := merid_north (z := -z) (w := -w) (by linarith) (by linarith) (by linarith) (by linarith)
  rw [merid_flip, planeY_neg (by rw [abs_of_neg (by linarith)]; linarith), planeY_neg (by rw [abs_of_neg (by linarith)]; linarith)] at h
  rwa [show -planeY z - -planeY w = -(planeY z - planeY w) by ring, abs_neg] at h

theorem planeY_edge : planeY (2 / 3) = 1 / 2 ∧ planeY (-(2 / 3)) = -(1 / 2) := by
  unfold planeY
  rw [if_pos (by rw [abs_of_pos] <;> norm_num), if_pos (by rw [abs_neg, abs_of_pos] <;> norm_num)]
  norm_num

theorem planeY_ge {z : ℝ} (h : 2 / 3 ≤ z) : 1 / 2 ≤ planeY z := by
  rw [planeY_north h]
  have : Real.sqrt (3 * (1 - z)) ≤ 1 := Real.sqrt_le_iff.mpr ⟨by norm_num, by linarith⟩
  linarith

theorem planeY_le {z : ℝ} (h : z ≤ 2 / 3) (hz : |z| ≤ 1) : planeY z ≤ 1 / 2 := by
  rcases le_or_gt |z| (2 / 3) with g | g
  · exact (abs_le.mp (plane_abs_belt g).1).2
  · have : z < 0 := by
      by_contra hc
      rw [abs_of_nonneg (not_lt.mp hc)] at g
      linarith
    unfold planeY
    rw [if_neg (not_le.mpr g), if_neg (not_le.mpr this)]
    linarith [(cap_root g).2]

theorem planeY_ge' {z : ℝ} (h : -(2 / 3) ≤ z) (hz : |z| ≤ 1) : -(1 / 2) ≤ planeY z := by
  rcases le_or_gt |z| (2 / 3) with g | g
  · exact (abs_le.mp (plane_abs_belt g).1).1
  · have : 0 ≤ z := by
      by_contra hc
      rw [abs_of_neg (not_le.mp hc)] at g
      linarith
    unfold planeY
    rw [if_neg (not_le.mpr g), if_pos this]
    linarith [(cap_root g).2]

theorem planeY_le' {z : ℝ} (h : z ≤ -(2 / 3)) : planeY z ≤ -(1 / 2) := by
  have := planeY_ge (z := -z) (by linarith)
  rw [planeY_neg (by rw [abs_of_neg (by linarith)]; linarith)] at this
  linarith

/-- From the cap into the rest. -/
theorem merid_le {z w : ℝ} (hz : |z| ≤ 1) (hw : |w| ≤ 1) (h : w ≤ z) : ‖merid z - merid w‖ ≤ 9 / 5 * |planeY z - planeY w| := by
  obtain ⟨z0, z1⟩ := abs_le.mp hz
  obtain ⟨w0, w1⟩ := abs_le.mp hw
  have ed := planeY_edge
  have tri : ∀ a : ℝ, ‖merid z - merid w‖ ≤ ‖merid z - merid a‖ + ‖merid a - merid w‖ := fun a => by
    have := norm_add_le (merid z - merid a) (merid a - merid w)
    rwa [sub_add_sub_cancel] at this
  -- everything but the south cap
  have north : ∀ a b : ℝ, |a| ≤ 1 → -(2 / 3) ≤ b → b ≤ a → ‖merid a - merid b‖ ≤ 9 / 5 * |planeY a - planeY b| := by
    intro a b ha hb hab
    obtain ⟨a0, a1⟩ := abs_le.mp ha
    rcases le_or_gt (2 / 3) b with g | g
    · exact merid_north (by linarith) g a1 (by linarith)
    · have hb' : |b| ≤ 2 / 3 := by rw [abs_le]; constructor <;> linarith
      rcases le_or_gt a (2 / 3) with k | k
      · exact merid_belt (by rw [abs_le]; constructor <;> linarith) hb'
      · have t := norm_add_le (merid a - merid (2 / 3)) (merid (2 / 3) - merid b)
        rw [sub_add_sub_cancel] at t
        have m1 := merid_north (z := a) (w := 2 / 3) k.le le_rfl a1 (by norm_num)
        have m2 := merid_belt (z := 2 / 3) (w := b) (by rw [abs_of_pos] <;> norm_num) hb'
        have y1 := planeY_ge k.le
        have y2 := (abs_le.mp (plane_abs_belt hb').1).2
        rw [ed.1, abs_of_nonneg (by linarith)] at m1 m2
        rw [abs_of_nonneg (by linarith)]
        linarith
  rcases le_or_gt (-(2 / 3)) w with g | g
  · exact north z w hz g h
  · rcases le_or_gt z (-(2 / 3)) with k | k
    · exact merid_south k g.le z0 w0
    · have m1 := north z (-(2 / 3)) hz le_rfl k.le
      have m2 := merid_south (z := -(2 / 3)) (w := w) le_rfl g.le (by norm_num) w0
      have t := tri (-(2 / 3))
      have y1 := planeY_ge' k.le hz
      have y2 := planeY_le' g.le
      rw [ed.2, abs_of_nonneg (by linarith)] at m1 m2
      rw [abs_of_nonneg (by linarith)]
      linarith

/-- Along a meridian, the sphere is at most 9/5 times as long as the plane. -/
theorem merid_plane {z w : ℝ} (hz : |z| ≤ 1) (hw : |w| ≤ 1) : ‖merid z - merid w‖ ≤ 9 / 5 * |planeY z - planeY w| := by
  rcases le_total w z with h | h
  · exact merid_le hz hw h
  · rw [norm_sub_rev, abs_sub_comm]
    exact merid_le hw hz h

/-- Distance of two points of the sphere. -/
theorem sphere_dist {z w a b : ℝ} (hz : |z| ≤ 1) (hw : |w| ≤ 1) :
    ((dir a (Real.arcsin z)).sub (dir b (Real.arcsin w))).len ≤ ‖merid z - merid w‖ + Real.sqrt (1 - z ^ 2) * |a - b| := by
  have hz2 : z ^ 2 ≤ 1 := by rw [← sq_abs]; nlinarith [abs_nonneg z]
  have hw2 : w ^ 2 ≤ 1 := by rw [← sq_abs]; nlinarith [abs_nonneg w]
  obtain ⟨z0, z1⟩ := abs_le.mp hz
  obtain ⟨w0, w1⟩ := abs_le.mp hw
  have hs : Real.sqrt (1 - z ^ 2) ^ 2 = 1 - z ^ 2 := Real.sq_sqrt (by linarith)
  have hr : Real.sqrt (1 - w ^ 2) ^ 2 = 1 - w ^ 2 := Real.sq_sqrt (by linarith)
  have s0 := Real.sqrt_nonneg (1 - z ^ 2)
  have r0 := Real.sqrt_nonneg (1 - w ^ 2)
  have en : ‖merid z - merid w‖ ^ 2 = (z - w) ^ 2 + (Real.sqrt (1 - z ^ 2) - Real.sqrt (1 - w ^ 2)) ^ 2 := by
    rw [← Complex.normSq_eq_norm_sq, Complex.normSq_apply]
    simp only [merid, Complex.sub_re, Complex.sub_im]
    ring
  have n0 := norm_nonneg (merid z - merid w)
  unfold V3.len
  rw [Real.sqrt_le_left (by positivity)]
  unfold V3.sub V3.dot dir
  simp only [Real.cos_arcsin, Real.sin_arcsin z0 z1, Real.sin_arcsin w0 w1]
  -- the half angle
  have hd : Real.cos (a - b) = 1 - (2 * |Real.sin ((a - b) / 2)|) ^ 2 / 2 := by
    have h := Real.cos_two_mul ((a - b) / 2)
    rw [mul_div_cancel₀ _ (two_ne_zero)] at h
    rw [mul_pow, sq_abs, h]
    linarith [Real.sin_sq_add_cos_sq ((a - b) / 2)]
  have d0 : 0 ≤ 2 * |Real.sin ((a - b) / 2)| := by positivity
  have d2 : 2 * |Real.sin ((a - b) / 2)| ≤ 2 := by linarith [Real.abs_sin_le_one ((a - b) / 2)]
  have d1 : 2 * |Real.sin ((a - b) / 2)| ≤ |a - b| := by
    have h1 : |Real.sin ((a - b) / 2)| ≤ |(a - b) / 2| := Real.abs_sin_le_abs
    rw [abs_div, abs_of_pos (by norm_num : (0 : ℝ) < 2)] at h1
    linarith
  generalize 2 * |Real.sin ((a - b) / 2)| = d at *
  have hab : Real.cos a * Real.cos b + Real.sin a * Real.sin b = 1 - d ^ 2 / 2 := by rw [← hd, Real.cos_sub]
  have ca := Real.sin_sq_add_cos_sq a
  have cb := Real.sin_sq_add_cos_sq b
  have hsm : Real.sqrt (1 - w ^ 2) ≤ Real.sqrt (1 - z ^ 2) + ‖merid z - merid w‖ := by
    have : (Real.sqrt (1 - w ^ 2) - Real.sqrt (1 - z ^ 2)) ^ 2 ≤ ‖merid z - merid w‖ ^ 2 := by rw [en]; nlinarith [sq_nonneg (z - w)]
    linarith [(abs_le_of_sq_le_sq' this n0).2]
  generalize Real.sqrt (1 - z ^ 2) = s at *
  generalize Real.sqrt (1 - w ^ 2) = r at *
  generalize ‖merid z - merid w‖ = m at *
  have e1 : (s * Real.cos a - r * Real.cos b) * (s * Real.cos a - r * Real.cos b) + (s * Real.sin a - r * Real.sin b) * (s * Real.sin a - r * Real.sin b) +
      (z - w) * (z - w) = m ^ 2 + s * r * d ^ 2 := by
    rw [en]
    linear_combination s ^ 2 * ca + r ^ 2 * cb - 2 * s * r * hab
  rw [e1]
  have h1 : s * r * d ^ 2 ≤ s * (s + m) * d ^ 2 := by
    have := mul_le_mul_of_nonneg_left hsm s0
    exact mul_le_mul_of_nonneg_right this (sq_nonneg d)
  have h2 : s * m * (d * d) ≤ s * m * (2 * d) := mul_le_mul_of_nonneg_left (mul_le_mul_of_nonneg_right d2 d0) (mul_nonneg s0 n0)
  have h3 : m ^ 2 + s * r * d ^ 2 ≤ (m + s * d) ^ 2 := by nlinarith
  refine h3.trans (pow_le_pow_left₀ (by positivity) ?_ 2)
  have := mul_le_mul_of_nonneg_left d1 s0
  linarith

end SatSky.Healpix
