import Verif.Spec.Shadow
import Verif.Model.Geometry
import Mathlib.Tactic.Linarith
import Mathlib.Tactic.Ring
import Mathlib.Tactic.FieldSimp
import Mathlib.Tactic.NormNum
import Mathlib.Tactic.Positivity

/-! The shadow test (C35). -/

namespace SatSky.Props

open SatSky.Spec SatSky.Geo Real

theorem ERAD_pos : 0 < ERAD := by unfold ERAD; norm_num

theorem dot_nonneg (v : V3) : 0 ≤ v.dot v := by
  unfold V3.dot
  nlinarith [mul_self_nonneg v.x, mul_self_nonneg v.y, mul_self_nonneg v.z]

theorem len_le_iff {v : V3} {R : ℝ} (hR : 0 ≤ R) : v.len ≤ R ↔ v.dot v ≤ R * R := by
  unfold V3.len
  rw [sqrt_le_left hR, sq]

theorem dot_pos {v w : V3} (h : v ≠ w) : 0 < (w.sub v).dot (w.sub v) := by
  rcases (dot_nonneg (w.sub v)).lt_or_eq with h1 | h1
  · exact h1
  · exfalso
    apply h
    unfold V3.dot V3.sub at h1
    dsimp only at h1
    have a := mul_self_nonneg (w.x - v.x)
    have b := mul_self_nonneg (w.y - v.y)
    have c := mul_self_nonneg (w.z - v.z)
    have ex : w.x - v.x = 0 := mul_self_eq_zero.mp (by linarith)
    have ey : w.y - v.y = 0 := mul_self_eq_zero.mp (by linarith)
    have ez : w.z - v.z = 0 := mul_self_eq_zero.mp (by linarith)
    ext <;> linarith

/-- The square of the distance from the centre at distance `s` along the ray. -/
theorem along (p q : V3) (s : ℝ) (h : p ≠ q) :
    let e := q.sub p
    let l := sqrt (e.dot e)
    let mb := 2 * (e.x / l * -p.x + e.y / l * -p.y + e.z / l * -p.z)
    (p.add (V3.smul (s / l) e)).dot (p.add (V3.smul (s / l) e)) = s * s - mb * s + p.dot p := by
  intro e l mb
  have hl : 0 < l := sqrt_pos.mpr (dot_pos h)
  have hll : e.x * e.x + e.y * e.y + e.z * e.z = l * l := (mul_self_sqrt (dot_nonneg e)).symm
  show _ = s * s - 2 * (e.x / l * -p.x + e.y / l * -p.y + e.z / l * -p.z) * s + p.dot p
  simp only [V3.add, V3.smul, V3.dot]
  field_simp
  linear_combination (s ^ 2) * hll

/-- The smaller quadratic: roots. -/
theorem quad_le {mb c s : ℝ} (hd : 0 ≤ mb * mb - 4 * c) :
    s * s - mb * s + c ≤ 0 ↔ (mb - sqrt (mb * mb - 4 * c)) / 2 ≤ s ∧ s ≤ (mb + sqrt (mb * mb - 4 * c)) / 2 := by
  set d := sqrt (mb * mb - 4 * c) with hds
  have h0 : 0 ≤ d := sqrt_nonneg _
  have hd2 : d * d = mb * mb - 4 * c := mul_self_sqrt hd
  have e : s * s - mb * s + c = (s - (mb - d) / 2) * (s - (mb + d) / 2) := by
    linear_combination (1 / 4) * hd2
  rw [e]
  constructor
  · intro h
    constructor
    · by_contra hc
      push Not at hc
      nlinarith
    · by_contra hc
      push Not at hc
      nlinarith
  · rintro ⟨a, b⟩
    nlinarith

/-- The test in terms of the distance along the ray. -/
theorem test_iff {sat sun : V3} (h : sat ≠ sun) :
    (intersect_satsun_sphere sat sun).1 = 1 ↔ RayMeets ERAD sat sun := by
  have hl : 0 < sqrt ((sun.sub sat).dot (sun.sub sat)) := sqrt_pos.mpr (dot_pos h)
  have hal := fun s => along sat sun s h
  dsimp only at hal
  unfold intersect_satsun_sphere
  dsimp only
  generalize hmb : 2 * ((sun.sub sat).x / sqrt ((sun.sub sat).dot (sun.sub sat)) * -sat.x
    + (sun.sub sat).y / sqrt ((sun.sub sat).dot (sun.sub sat)) * -sat.y
    + (sun.sub sat).z / sqrt ((sun.sub sat).dot (sun.sub sat)) * -sat.z) = mb at hal ⊢
  generalize hl' : sqrt ((sun.sub sat).dot (sun.sub sat)) = l at hal hl ⊢
  generalize hc' : sat.dot sat - ERAD * ERAD = c at ⊢
  -- the ray in terms of the distance
  have key : RayMeets ERAD sat sun ↔ ∃ s, 0 ≤ s ∧ s * s - mb * s + c ≤ 0 := by
    constructor
    · rintro ⟨t, ht, hm⟩
      refine ⟨t * l, mul_nonneg ht hl.le, ?_⟩
      rw [len_le_iff ERAD_pos.le] at hm
      have := hal (t * l)
      rw [mul_div_cancel_right₀ _ hl.ne'] at this
      rw [this] at hm
      linarith
    · rintro ⟨s, hs, hm⟩
      refine ⟨s / l, div_nonneg hs hl.le, ?_⟩
      rw [len_le_iff ERAD_pos.le, hal s]
      linarith
  rw [key]
  by_cases hd : mb * mb - 4 * c < 0
  · rw [if_pos hd]
    constructor
    · intro h; simp at h
    · rintro ⟨s, _, hm⟩
      nlinarith [mul_self_nonneg (2 * s - mb)]
  · rw [if_neg hd]
    push Not at hd
    by_cases hr : (mb + sqrt (mb * mb - 4 * c)) / 2 < 0
    · rw [if_pos hr]
      constructor
      · intro h; simp at h
      · rintro ⟨s, hs, hm⟩
        have := ((quad_le hd).mp hm).2
        linarith
    · rw [if_neg hr]
      push Not at hr
      refine ⟨fun _ => ⟨_, hr, (quad_le hd).mpr ⟨?_, le_refl _⟩⟩, fun _ => rfl⟩
      have := sqrt_nonneg (mb * mb - 4 * c)
      linarith

/-- C35: the test returns 1 exactly if the half line from the satellite towards the Sun meets the Earth's sphere (also for a
satellite inside or on the sphere, and for a grazing ray). -/
theorem C35_ray {sat sun : V3} (h : sat ≠ sun) :
    (intersect_satsun_sphere sat sun).1 = 1 ↔ RayMeets ERAD sat sun := test_iff h

/-- C35: the returned value is 0 or 1. -/
theorem C35_binary (sat sun : V3) :
    (intersect_satsun_sphere sat sun).1 = 0 ∨ (intersect_satsun_sphere sat sun).1 = 1 := by
  unfold intersect_satsun_sphere
  dsimp only
  split_ifs <;> simp

/-- The triangle inequality for `len`. -/
theorem len_add_le (a b : V3) : (a.add b).len ≤ a.len + b.len := by
  have ha : 0 ≤ a.len := sqrt_nonneg _
  have hb : 0 ≤ b.len := sqrt_nonneg _
  have ea : a.len * a.len = a.dot a := mul_self_sqrt (dot_nonneg a)
  have eb : b.len * b.len = b.dot b := mul_self_sqrt (dot_nonneg b)
  rw [len_le_iff (by positivity)]
  have hcs : a.dot b ≤ a.len * b.len := by
    apply le_of_sq_le_sq _ (by positivity)
    rw [mul_pow, sq, sq, sq, ea, eb]
    unfold V3.dot
    nlinarith [mul_self_nonneg (a.x * b.y - a.y * b.x), mul_self_nonneg (a.x * b.z - a.z * b.x),
      mul_self_nonneg (a.y * b.z - a.z * b.y)]
  have : (a.add b).dot (a.add b) = a.dot a + 2 * a.dot b + b.dot b := by
    unfold V3.dot V3.add; dsimp only; ring
  nlinarith

/-- C35: if the Sun is farther from the satellite than any point of the Earth, the segment from the satellite to the Sun is
meant. -/
theorem C35_segment {sat sun : V3} (h : sat ≠ sun) (hfar : sat.len + ERAD ≤ (sun.sub sat).len) :
    (intersect_satsun_sphere sat sun).1 = 1 ↔ SegmentMeets ERAD sat sun := by
  rw [C35_ray h]
  constructor
  · rintro ⟨t, h0, hm⟩
    by_cases h1 : t ≤ 1
    · exact ⟨t, h0, h1, hm⟩
    push Not at h1
    exfalso
    have hl : 0 < (sun.sub sat).len := sqrt_pos.mpr (dot_pos h)
    -- t * |e| ≤ |p + t e| + |p| ≤ R + |p| ≤ |e|
    have e1 : V3.smul t (sun.sub sat) = (sat.add (V3.smul t (sun.sub sat))).add (V3.smul (-1) sat) := by
      ext <;> simp only [V3.smul, V3.add] <;> ring
    have e2 : (V3.smul t (sun.sub sat)).len = t * (sun.sub sat).len := by
      unfold V3.len
      rw [show (V3.smul t (sun.sub sat)).dot (V3.smul t (sun.sub sat)) = t ^ 2 * (sun.sub sat).dot (sun.sub sat) by
        unfold V3.dot V3.smul; dsimp only; ring, sqrt_mul (sq_nonneg t), sqrt_sq h0]
    have e3 : (V3.smul (-1) sat).len = sat.len := by
      unfold V3.len
      congr 1
      unfold V3.dot V3.smul; dsimp only; ring
    have := len_add_le (sat.add (V3.smul t (sun.sub sat))) (V3.smul (-1) sat)
    rw [← e1, e2, e3] at this
    nlinarith
  · rintro ⟨t, h0, _, hm⟩
    exact ⟨t, h0, hm⟩

/-- A satellite behind the Earth, seen from the Sun, and one in front of it. -/
example : (intersect_satsun_sphere ⟨-7000, 0, 0⟩ ⟨AU_KM, 0, 0⟩).1 = 1 := by
  rw [C35_ray (by intro h; have := congrArg V3.x h; unfold AU_KM at this; norm_num at this)]
  refine ⟨7000 / (AU_KM + 7000), by unfold AU_KM; norm_num, ?_⟩
  rw [len_le_iff ERAD_pos.le]
  unfold V3.dot V3.add V3.smul V3.sub ERAD AU_KM
  norm_num

example : (intersect_satsun_sphere ⟨7000, 0, 0⟩ ⟨AU_KM, 0, 0⟩).1 = 0 := by
  refine (C35_binary _ _).resolve_right ?_
  rw [C35_ray (by intro h; have := congrArg V3.x h; unfold AU_KM at this; norm_num at this)]
  rintro ⟨t, h0, hm⟩
  rw [len_le_iff ERAD_pos.le] at hm
  unfold V3.dot V3.add V3.smul V3.sub ERAD AU_KM at hm
  norm_num at hm
  nlinarith

end SatSky.Props
