import Mathlib.Analysis.Asymptotics.Lemmas
import Mathlib.Analysis.Normed.Field.Basic
import Mathlib.Topology.Algebra.Field
import Mathlib.Analysis.RCLike.Basic
import Mathlib.Tactic.Ring

/-! Expansions in powers of the time up to the fourth. -/

namespace SatSky.Jet

open Asymptotics Filter Topology

/-- A polynomial of degree four. -/
def quartic (a0 a1 a2 a3 a4 t : ℝ) : ℝ := a0 + a1 * t + a2 * t ^ 2 + a3 * t ^ 3 + a4 * t ^ 4

/-- `F` is the polynomial up to terms of the fifth order. -/
def Is (F : ℝ → ℝ) (a0 a1 a2 a3 a4 : ℝ) : Prop := (fun t => F t - quartic a0 a1 a2 a3 a4 t) =O[𝓝 0] fun t => t ^ 5

theorem bounded {g : ℝ → ℝ} (h : ContinuousAt g 0) : g =O[𝓝 0] (1 : ℝ → ℝ) := h.isBigO_one ℝ

theorem mul_bounded {f g : ℝ → ℝ} {n : ℕ} (hf : f =O[𝓝 0] fun t : ℝ => t ^ n) (hg : ContinuousAt g 0) :
    (fun t => f t * g t) =O[𝓝 0] fun t : ℝ => t ^ n := by
  simpa using hf.mul (bounded hg)

theorem refl (a0 a1 a2 a3 a4 : ℝ) : Is (quartic a0 a1 a2 a3 a4) a0 a1 a2 a3 a4 := by
  unfold Is; simp only [sub_self]; exact isBigO_zero _ _

theorem quartic_continuous (a0 a1 a2 a3 a4 : ℝ) : Continuous (quartic a0 a1 a2 a3 a4) := by unfold quartic; fun_prop

theorem mul {F G : ℝ → ℝ} {a0 a1 a2 a3 a4 b0 b1 b2 b3 b4 : ℝ} (hF : Is F a0 a1 a2 a3 a4) (hG : Is G b0 b1 b2 b3 b4) (hc : ContinuousAt G 0) :
    Is (fun t => F t * G t) (a0 * b0) (a0 * b1 + a1 * b0) (a0 * b2 + a1 * b1 + a2 * b0) (a0 * b3 + a1 * b2 + a2 * b1 + a3 * b0)
      (a0 * b4 + a1 * b3 + a2 * b2 + a3 * b1 + a4 * b0) := by
  unfold Is at *
  have h1 := mul_bounded hF hc
  have h2 := mul_bounded hG (quartic_continuous a0 a1 a2 a3 a4).continuousAt
  have h3 : (fun t : ℝ => t ^ 5 * ((a1 * b4 + a2 * b3 + a3 * b2 + a4 * b1) + (a2 * b4 + a3 * b3 + a4 * b2) * t + (a3 * b4 + a4 * b3) * t ^ 2
      + a4 * b4 * t ^ 3)) =O[𝓝 0] fun t => t ^ 5 := mul_bounded (isBigO_refl _ _) (by fun_prop)
  refine ((h1.add h2).add h3).congr_left fun t => ?_
  unfold quartic
  ring

theorem affine {F : ℝ → ℝ} {a0 a1 a2 a3 a4 : ℝ} (c k : ℝ) (hF : Is F a0 a1 a2 a3 a4) :
    Is (fun t => c + k * F t) (c + k * a0) (k * a1) (k * a2) (k * a3) (k * a4) := by
  unfold Is at *
  refine (hF.const_mul_left k).congr_left fun t => ?_
  unfold quartic
  ring

theorem congr {F : ℝ → ℝ} {a0 a1 a2 a3 a4 b0 b1 b2 b3 b4 : ℝ} (hF : Is F a0 a1 a2 a3 a4) (h0 : b0 = a0) (h1 : b1 = a1) (h2 : b2 = a2) (h3 : b3 = a3)
    (h4 : b4 = a4) : Is F b0 b1 b2 b3 b4 := by rw [h0, h1, h2, h3, h4]; exact hF

/-- A function without terms below the fourth order. -/
theorem order4 {F : ℝ → ℝ} {a0 a1 a2 a3 a4 : ℝ} (hF : Is F a0 a1 a2 a3 a4) (h0 : a0 = 0) (h1 : a1 = 0) (h2 : a2 = 0) (h3 : a3 = 0) :
    F =O[𝓝 0] fun t => t ^ 4 := by
  subst h0 h1 h2 h3
  unfold Is at hF
  have h5 : (fun t : ℝ => t ^ 4 * t) =O[𝓝 0] fun t => t ^ 4 := mul_bounded (isBigO_refl _ _) continuousAt_id
  have h : (fun t : ℝ => t ^ 4 * a4) =O[𝓝 0] fun t => t ^ 4 := mul_bounded (isBigO_refl _ _) continuousAt_const
  refine ((hF.trans (h5.congr_left fun t => by ring)).add h).congr_left fun t => ?_
  unfold quartic
  ring

theorem order5 {F : ℝ → ℝ} {a0 a1 a2 a3 a4 : ℝ} (hF : Is F a0 a1 a2 a3 a4) (h0 : a0 = 0) (h1 : a1 = 0) (h2 : a2 = 0) (h3 : a3 = 0) (h4 : a4 = 0) :
    F =O[𝓝 0] fun t => t ^ 5 := by
  subst h0 h1 h2 h3 h4
  refine hF.congr_left fun t => ?_
  unfold quartic
  ring

end SatSky.Jet
