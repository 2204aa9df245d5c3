import Verif.Model.Geometry
import Mathlib.Geometry.Euclidean.Angle.Unoriented.TriangleInequality
import Mathlib.Tactic.Linarith
import Mathlib.Tactic.Ring
import Mathlib.Tactic.FieldSimp

namespace SatSky.Geo

open SatSky.Spec Real

theorem inner_toE (a b : V3) : inner ℝ a.toE b.toE = a.dot b := by
  simp only [V3.toE, V3.dot, PiLp.inner_apply, Fin.sum_univ_three, RCLike.inner_apply, conj_trivial]
  simp
  ring

theorem dot_dir_self (a b : ℝ) : (dir a b).dot (dir a b) = 1 := by
  simp only [dir, V3.dot]
  have h1 := sin_sq_add_cos_sq a
  have h2 := sin_sq_add_cos_sq b
  linear_combination (cos b) ^ 2 * h1 + h2

theorem norm_dir (a b : ℝ) : ‖(dir a b).toE‖ = 1 := by
  have h : ‖(dir a b).toE‖ ^ 2 = 1 := by
    rw [← real_inner_self_eq_norm_sq, inner_toE, dot_dir_self]
  nlinarith [norm_nonneg (dir a b).toE]

theorem angle_dir (a b c d : ℝ) : Spec.angle (dir a b) (dir c d) = arccos ((dir a b).dot (dir c d)) := by
  rw [Spec.angle, InnerProductGeometry.angle, inner_toE, norm_dir, norm_dir]
  norm_num

theorem abs_dot_dir_le (a b c d : ℝ) : |(dir a b).dot (dir c d)| ≤ 1 := by
  have h := abs_real_inner_le_norm (dir a b).toE (dir c d).toE
  rw [inner_toE, norm_dir, norm_dir] at h
  simpa using h

theorem two_arcsin {d : ℝ} (h : |d| ≤ 1) : 2 * arcsin (sqrt ((1 - d) / 2)) = arccos d := by
  obtain ⟨h1, h2⟩ := abs_le.mp h
  have e : (1 - d) / 2 = sin (arccos d / 2) ^ 2 := by
    have := cos_sq (arccos d / 2)
    have h3 := sin_sq_add_cos_sq (arccos d / 2)
    rw [mul_div_cancel₀ _ (two_ne_zero), cos_arccos h1 h2] at this
    linarith
  have hn : 0 ≤ sin (arccos d / 2) :=
    sin_nonneg_of_nonneg_of_le_pi (by linarith [arccos_nonneg d]) (by linarith [arccos_le_pi d, arccos_nonneg d])
  rw [e, sqrt_sq hn, arcsin_sin (by linarith [arccos_nonneg d, pi_pos]) (by linarith [arccos_le_pi d])]
  ring

/-- The haversine of an angle, from its cosine. -/
theorem sin_half_mul (x : ℝ) : sin (x / 2) * sin (x / 2) = (1 - cos x) / 2 := by
  have h1 := cos_sq (x / 2)
  rw [mul_div_cancel₀ _ (two_ne_zero)] at h1
  have h2 := sin_sq_add_cos_sq (x / 2)
  nlinarith

theorem dot_dir (a b c d : ℝ) :
    (dir a b).dot (dir c d) = cos (d - b) - cos b * cos d * (1 - cos (c - a)) := by
  simp only [dir, V3.dot]
  rw [cos_sub, cos_sub]
  ring

theorem cos_wrapped (a c : ℝ) :
    let t1 := if a < 0 then a + 2 * π else a
    let t2 := if c < 0 then c + 2 * π else c
    cos (if |t2 - t1| > π then 2 * π - |t2 - t1| else |t2 - t1|) = cos (c - a) := by
  intro t1 t2
  have h : cos (if |t2 - t1| > π then 2 * π - |t2 - t1| else |t2 - t1|) = cos (t2 - t1) := by
    split_ifs
    · rw [cos_two_pi_sub, cos_abs]
    · rw [cos_abs]
  rw [h]
  show cos ((if c < 0 then c + 2 * π else c) - (if a < 0 then a + 2 * π else a)) = _
  split_ifs
  · congr 1; ring
  · rw [show c + 2 * π - a = c - a + 2 * π by ring, cos_add_two_pi]
  · rw [show c - (a + 2 * π) = c - a - 2 * π by ring, cos_sub_two_pi]
  · rfl

theorem skysep_eq (a b c d : ℝ) : skysep_h a b c d = Spec.angle (dir a b) (dir c d) * r2d := by
  have hw := cos_wrapped a c
  simp only at hw
  rw [angle_dir, ← two_arcsin (abs_dot_dir_le a b c d), dot_dir]
  unfold skysep_h
  dsimp only
  rw [sin_half_mul, sin_half_mul, hw]
  congr 4
  ring

/-- Directions are equal exactly if their coordinates are. -/
theorem toE_inj {a b : V3} : a.toE = b.toE ↔ a = b := by
  constructor
  · intro h
    have h0 := congrFun (congrArg WithLp.ofLp h) 0
    have h1 := congrFun (congrArg WithLp.ofLp h) 1
    have h2 := congrFun (congrArg WithLp.ofLp h) 2
    simp [V3.toE] at h0 h1 h2
    ext <;> assumption
  · rintro rfl; rfl

theorem angle_eq_zero (a b c d : ℝ) : Spec.angle (dir a b) (dir c d) = 0 ↔ dir a b = dir c d := by
  rw [Spec.angle, ← toE_inj]
  constructor
  · intro h
    have h1 := InnerProductGeometry.inner_eq_mul_norm_iff_angle_eq_zero
      (x := (dir a b).toE) (y := (dir c d).toE) (by intro h; have := norm_dir a b; rw [h] at this; simp at this)
      (by intro h; have := norm_dir c d; rw [h] at this; simp at this)
    have h2 := h1.mpr h
    rw [norm_dir, norm_dir, mul_one] at h2
    exact (inner_eq_one_iff_of_norm_eq_one (norm_dir a b) (norm_dir c d)).mp h2
  · intro h
    rw [h]
    exact InnerProductGeometry.angle_self (by intro h; have := norm_dir c d; rw [h] at this; simp at this)

theorem r2d_pos : 0 < r2d := div_pos (by norm_num) pi_pos

end SatSky.Geo
