import Verif.Model.Geometry
import Mathlib.Tactic.Linarith
import Mathlib.Tactic.Ring
import Mathlib.Tactic.FieldSimp
import Mathlib.Tactic.Positivity

namespace SatSky.Geo

open SatSky.Spec Real

theorem trunc_pos {x : ℝ} (h : 0 ≤ x) : (trunc x : ℝ) ≤ x ∧ x < trunc x + 1 ∧ 0 ≤ trunc x := by
  unfold trunc
  rw [if_pos h]
  exact ⟨Int.floor_le x, Int.lt_floor_add_one x, Int.floor_nonneg.mpr h⟩

theorem trunc_neg {x : ℝ} (h : x < 0) : x ≤ (trunc x : ℝ) ∧ (trunc x : ℝ) - 1 < x ∧ trunc x ≤ 0 := by
  unfold trunc
  rw [if_neg (not_le.mpr h)]
  exact ⟨Int.le_ceil x, by linarith [Int.ceil_lt_add_one x], Int.ceil_le.mpr (by simpa using h.le)⟩

theorem fmod_nonneg {x m : ℝ} (hm : 0 < m) (h : 0 ≤ x) : 0 ≤ fmod x m ∧ fmod x m < m := by
  have ⟨a, b, _⟩ := trunc_pos (div_nonneg h hm.le)
  have e : x = m * (x / m) := by field_simp
  unfold fmod
  constructor <;> nlinarith

theorem fmod_neg {x m : ℝ} (hm : 0 < m) (h : x < 0) : -m < fmod x m ∧ fmod x m ≤ 0 := by
  have ⟨a, b, _⟩ := trunc_neg (div_neg_of_neg_of_pos h hm)
  have e : x = m * (x / m) := by field_simp
  unfold fmod
  constructor <;> nlinarith

theorem fmod_turns (x m : ℝ) : Turns m (fmod x m) x := ⟨-trunc (x / m), by unfold fmod; push_cast; ring⟩

theorem _root_.SatSky.Spec.Turns.trans {m a b c : ℝ} (h : Turns m a b) (h' : Turns m b c) : Turns m a c := by
  obtain ⟨k, rfl⟩ := h
  obtain ⟨l, rfl⟩ := h'
  exact ⟨k + l, by push_cast; ring⟩

theorem _root_.SatSky.Spec.Turns.symm {m a b : ℝ} (h : Turns m a b) : Turns m b a := by
  obtain ⟨k, rfl⟩ := h
  exact ⟨-k, by push_cast; ring⟩

theorem turns_add (m a : ℝ) : Turns m (a + m) a := ⟨1, by push_cast; ring⟩
theorem turns_sub (m a : ℝ) : Turns m (a - m) a := ⟨-1, by push_cast; ring⟩
theorem turns_refl (m a : ℝ) : Turns m a a := ⟨0, by push_cast; ring⟩

theorem atan2_range (y x : ℝ) : -π < atan2 y x ∧ atan2 y x ≤ π := ⟨Complex.neg_pi_lt_arg _, Complex.arg_le_pi _⟩

theorem norm_eq (x y : ℝ) : ‖(⟨x, y⟩ : ℂ)‖ = sqrt (x * x + y * y) := by
  rw [Complex.norm_def, Complex.normSq_mk]

/-- `atan2` is the polar angle. -/
theorem atan2_polar (y x : ℝ) :
    sqrt (x * x + y * y) * cos (atan2 y x) = x ∧ sqrt (x * x + y * y) * sin (atan2 y x) = y := by
  rw [← norm_eq]
  exact ⟨Complex.norm_mul_cos_arg _, Complex.norm_mul_sin_arg _⟩

end SatSky.Geo
