import Verif.Lemmas.StepError
import Mathlib.Analysis.ODE.ExistUnique
import Mathlib.Analysis.Calculus.Deriv.Prod

/-! A motion with a bounded acceleration exists for any length of time. -/

namespace SatSky.StepError

open Set Metric

variable {f f1 : ℝ → ℝ → ℝ} {A0 A1 A2 D : ℝ}

theorem Bounded.picard (h : Bounded f f1 A0 A1 A2 D) {S : ℝ} (hS : 0 < S) (x0 u0 : ℝ) :
    ∃ α : ℝ → ℝ × ℝ, α 0 = (x0, u0) ∧
      ∀ t ∈ Icc (-S) S, HasDerivWithinAt α ((1 / (2 * S)) * (α t).2, 2 * S * f t (α t).1) (Icc (-S) S) t := by
  obtain ⟨n0, n1, n2, nD⟩ := h.nonneg
  set a : ℝ := |u0| + 2 * A0 * S ^ 2 with ha
  have a0 : 0 ≤ a := by positivity
  have ball : ∀ y ∈ closedBall ((x0, u0) : ℝ × ℝ) a, |y.2| ≤ 2 * a := by
    intro y hy
    rw [mem_closedBall, Prod.dist_eq] at hy
    have h1 : |y.2 - u0| ≤ a := (le_max_right _ _).trans hy
    have h2 : |y.2| ≤ |y.2 - u0| + |u0| := by
      have := abs_add_le (y.2 - u0) u0
      rwa [sub_add_cancel] at this
    have h3 : |u0| ≤ a := by rw [ha]; linarith [show 0 ≤ 2 * A0 * S ^ 2 by positivity]
    linarith
  have hP : IsPicardLindelof (fun t (y : ℝ × ℝ) => ((1 / (2 * S)) * y.2, 2 * S * f t y.1)) (tmin := -S) (tmax := S) ⟨0, by constructor <;> linarith⟩
      ((x0, u0) : ℝ × ℝ) ⟨a, a0⟩ 0 ⟨a / S, by positivity⟩ ⟨1 / (2 * S) + 2 * S * A1, by positivity⟩ := by
    refine ⟨fun t _ => ?_, fun y _ => ?_, fun t _ y hy => ?_, ?_⟩
    · refine LipschitzWith.lipschitzOnWith (LipschitzWith.of_dist_le_mul fun y z => ?_)
      rw [Prod.dist_eq, Prod.dist_eq]
      have hd0 : 0 ≤ max (dist y.1 z.1) (dist y.2 z.2) := le_max_of_le_left dist_nonneg
      refine max_le ?_ ?_
      · rw [Real.dist_eq, ← mul_sub, abs_mul, abs_of_pos (by positivity : 0 < 1 / (2 * S))]
        have : |y.2 - z.2| ≤ max (dist y.1 z.1) (dist y.2 z.2) := le_max_right _ _
        show _ ≤ (1 / (2 * S) + 2 * S * A1) * _
        refine mul_le_mul ?_ this (abs_nonneg _) (by positivity)
        linarith [show 0 ≤ 2 * S * A1 by positivity]
      · rw [Real.dist_eq, ← mul_sub, abs_mul, abs_of_pos (by positivity : 0 < 2 * S)]
        have h1 : |y.1 - z.1| ≤ max (dist y.1 z.1) (dist y.2 z.2) := le_max_left _ _
        have h2 := h.lip t z.1 y.1
        show _ ≤ (1 / (2 * S) + 2 * S * A1) * _
        calc 2 * S * |f t y.1 - f t z.1| ≤ 2 * S * (A1 * max (dist y.1 z.1) (dist y.2 z.2)) := by gcongr; exact h2.trans (by gcongr)
          _ ≤ _ := by
            have : 0 ≤ 1 / (2 * S) * max (dist y.1 z.1) (dist y.2 z.2) := by positivity
            nlinarith
    · refine ContinuousOn.prodMk continuousOn_const (Continuous.continuousOn ?_)
      refine continuous_const.mul ?_
      refine (LipschitzWith.of_dist_le_mul (K := ⟨D, nD⟩) fun s t => ?_).continuous
      rw [Real.dist_eq, Real.dist_eq]
      exact h.time s t y.1
    · show max _ _ ≤ a / S
      refine max_le ?_ ?_
      · rw [Real.norm_eq_abs, abs_mul, abs_of_pos (by positivity : 0 < 1 / (2 * S)), le_div_iff₀ hS]
        have := ball y hy
        rw [show 1 / (2 * S) * |y.2| * S = |y.2| / 2 by field_simp]
        linarith
      · rw [Real.norm_eq_abs, abs_mul, abs_of_pos (by positivity : 0 < 2 * S), le_div_iff₀ hS]
        have := h.val t y.1
        have h2 : 2 * S * |f t y.1| * S ≤ 2 * S * A0 * S := by gcongr
        rw [ha]
        nlinarith [abs_nonneg u0]
    · show a / S * max (S - 0) (0 - -S) ≤ a - 0
      rw [sub_zero, sub_neg_eq_add, zero_add, max_self, sub_zero, div_mul_cancel₀ _ hS.ne']
  exact hP.exists_eq_forall_mem_Icc_hasDerivWithinAt₀

/-- For any length of time there is a motion from a given place with a given speed. -/
theorem Bounded.motion (h : Bounded f f1 A0 A1 A2 D) {R : ℝ} (hR : 0 ≤ R) (x0 v0 : ℝ) : ∃ x v, Motion f R x v ∧ x 0 = x0 ∧ v 0 = v0 := by
  have hS : 0 < R + 1 := by linarith
  obtain ⟨α, h0, h1⟩ := h.picard hS x0 (2 * (R + 1) * v0)
  have hat : ∀ t, |t| ≤ R → HasDerivAt α ((1 / (2 * (R + 1))) * (α t).2, 2 * (R + 1) * f t (α t).1) t := by
    intro t ht
    obtain ⟨t1, t2⟩ := abs_le.1 ht
    exact (h1 t ⟨by linarith, by linarith⟩).hasDerivAt (Icc_mem_nhds (by linarith) (by linarith))
  refine ⟨fun t => (α t).1, fun t => 1 / (2 * (R + 1)) * (α t).2, ⟨fun t ht => ?_, fun t ht => ?_⟩, ?_, ?_⟩
  · exact (hat t ht).fst
  · have h2 : HasDerivAt (fun s => (α s).2) (2 * (R + 1) * f t (α t).1) t := (hat t ht).snd
    refine der_of (h2.const_mul (1 / (2 * (R + 1)))) (fun y => rfl) ?_
    field_simp
  · dsimp only
    rw [h0]
  · dsimp only
    rw [h0]
    field_simp

end SatSky.StepError
