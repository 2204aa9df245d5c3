import Mathlib.Analysis.Analytic.Basic
import Mathlib.Analysis.Calculus.MeanValue
import Mathlib.Analysis.Calculus.Deriv.Pow
import Mathlib.Analysis.Calculus.Deriv.Add
import Mathlib.Analysis.Calculus.Deriv.Mul
import Mathlib.Analysis.Normed.Module.Multilinear.Curry
import Mathlib.Tactic.Module
import Mathlib.Tactic.Linarith

/-! The classical method of Runge and Kutta is of the fourth order, for a right hand side that is analytic. -/

namespace SatSky.RK

open Asymptotics Filter Topology

variable {E : Type*} [NormedAddCommGroup E] [NormedSpace ℝ E]

/-- One step of the method of Runge and Kutta for `y' = f y`. -/
noncomputable def rk4 (f : E → E) (y : E) (h : ℝ) : E :=
  let k1 := f y
  let k2 := f (y + (h / 2) • k1)
  let k3 := f (y + (h / 2) • k2)
  let k4 := f (y + h • k3)
  y + (h / 6) • (k1 + (2 : ℝ) • (k2 + k3) + k4)

/-- An expansion of `f` at `y0` to the third order. -/
structure Expansion (f : E → E) (y0 : E) (L : E →L[ℝ] E) (Q : E →L[ℝ] E →L[ℝ] E) (C : E →L[ℝ] E →L[ℝ] E →L[ℝ] E) : Prop where
  rest : (fun v => f (y0 + v) - (f y0 + L v + Q v v + C v v v)) =O[𝓝 0] fun v => ‖v‖ ^ 4

theorem pow_isBigO {m n : ℕ} (h : n ≤ m) : (fun t : ℝ => t ^ m) =O[𝓝 0] fun t : ℝ => t ^ n := by
  rw [IsBigO_def]
  refine ⟨1, IsBigOWith.of_bound ?_⟩
  filter_upwards [Metric.ball_mem_nhds (0 : ℝ) one_pos] with t ht
  rw [mem_ball_zero_iff] at ht
  rw [norm_pow, norm_pow, one_mul]
  exact pow_le_pow_of_le_one (norm_nonneg t) ht.le h

theorem smul_isBigO {m n : ℕ} (h : n ≤ m) {g : ℝ → E} (hg : g =O[𝓝 0] fun _ => (1 : ℝ)) : (fun t : ℝ => t ^ m • g t) =O[𝓝 0] fun t : ℝ => t ^ n := by
  have := (pow_isBigO h).smul hg
  simpa using this

theorem cont_isBigO {g : ℝ → E} (hg : Continuous g) : g =O[𝓝 0] fun _ => (1 : ℝ) := hg.continuousAt.norm.isBoundedUnder_le.isBigO_one ℝ

theorem apply1 (L : E →L[ℝ] E) {r : ℝ → E} {u : ℝ → ℝ} (hr : r =O[𝓝 0] u) : (fun h => L (r h)) =O[𝓝 0] u :=
  (L.isBigO_comp r (𝓝 0)).trans hr

theorem apply2 (Q : E →L[ℝ] E →L[ℝ] E) {a b : ℝ → E} {u v : ℝ → ℝ} (ha : a =O[𝓝 0] u) (hb : b =O[𝓝 0] v) :
    (fun h => Q (a h) (b h)) =O[𝓝 0] fun h => u h * v h := by
  refine IsBigO.trans (IsBigO.of_bound ‖Q‖ (Eventually.of_forall fun h => ?_)) (ha.norm_left.mul hb.norm_left)
  rw [norm_mul, norm_norm, norm_norm, ← mul_assoc]
  exact Q.le_opNorm₂ _ _

set_option maxSynthPendingDepth 3 in
theorem apply3 (C : E →L[ℝ] E →L[ℝ] E →L[ℝ] E) {a b c : ℝ → E} {u v w : ℝ → ℝ} (ha : a =O[𝓝 0] u) (hb : b =O[𝓝 0] v) (hc : c =O[𝓝 0] w) :
    (fun h => C (a h) (b h) (c h)) =O[𝓝 0] fun h => u h * v h * w h := by
  refine IsBigO.trans (IsBigO.of_bound ‖C‖ (Eventually.of_forall fun h => ?_)) ((ha.norm_left.mul hb.norm_left).mul hc.norm_left)
  rw [norm_mul, norm_mul, norm_norm, norm_norm, norm_norm]
  calc ‖C (a h) (b h) (c h)‖ ≤ ‖C (a h) (b h)‖ * ‖c h‖ := (C (a h) (b h)).le_opNorm _
    _ ≤ ‖C‖ * ‖a h‖ * ‖b h‖ * ‖c h‖ := mul_le_mul_of_nonneg_right (C.le_opNorm₂ _ _) (norm_nonneg _)
    _ = _ := by ring

section
variable {f : E → E} {y0 : E} {L : E →L[ℝ] E} {Q : E →L[ℝ] E →L[ℝ] E} {C : E →L[ℝ] E →L[ℝ] E →L[ℝ] E}

/-- `f` along a curve with a known expansion. -/
theorem along (hf : Expansion f y0 L Q C) {n : ℕ} (h1 : 1 ≤ n) (h4 : n ≤ 4) {v : ℝ → E} {v1 v2 v3 : E}
    (hv : (fun h => v h - (h • v1 + h ^ 2 • v2 + h ^ 3 • v3)) =O[𝓝 0] fun h : ℝ => h ^ n) :
    (fun h => f (y0 + v h) - (f y0 + h • L v1 + h ^ 2 • (L v2 + Q v1 v1) + h ^ 3 • (L v3 + (Q v1 v2 + Q v2 v1) + C v1 v1 v1)))
      =O[𝓝 0] fun h : ℝ => h ^ n := by
  obtain ⟨p, hp⟩ : ∃ p : ℝ → E, p = fun h => h • v1 + h ^ 2 • v2 + h ^ 3 • v3 := ⟨_, rfl⟩
  obtain ⟨x, hx⟩ : ∃ x : ℝ → E, x = fun h => v2 + h • v3 := ⟨_, rfl⟩
  obtain ⟨w, hw⟩ : ∃ w : ℝ → E, w = fun h => v1 + h • x h := ⟨_, rfl⟩
  have xc : Continuous x := by rw [hx]; fun_prop
  have wc : Continuous w := by rw [hw]; fun_prop
  have pw : ∀ h, p h = h • w h := by intro h; rw [hp, hw, hx]; dsimp only; module
  have p1 : p =O[𝓝 0] fun h : ℝ => h ^ 1 := by
    have := smul_isBigO (le_refl 1) (cont_isBigO wc)
    refine this.congr_left fun h => ?_
    rw [pw, pow_one]
  have pB : p =O[𝓝 0] fun _ : ℝ => (1 : ℝ) := by simpa using p1.trans (pow_isBigO (Nat.zero_le 1))
  have r : (fun h => v h - p h) =O[𝓝 0] fun h : ℝ => h ^ n := by rw [hp]; exact hv
  have v1' : v =O[𝓝 0] fun h : ℝ => h ^ 1 := by
    have := (r.trans (pow_isBigO h1)).add p1
    exact this.congr_left fun h => by abel
  have vB : v =O[𝓝 0] fun _ : ℝ => (1 : ℝ) := by simpa using v1'.trans (pow_isBigO (Nat.zero_le 1))
  have vt : Tendsto v (𝓝 0) (𝓝 0) := by
    refine v1'.trans_tendsto ?_
    have : Tendsto (fun h : ℝ => h ^ 1) (𝓝 0) (𝓝 (0 ^ 1)) := (continuous_pow 1).tendsto 0
    simpa using this
  have e1 : (fun h => f (y0 + v h) - (f y0 + L (v h) + Q (v h) (v h) + C (v h) (v h) (v h))) =O[𝓝 0] fun h : ℝ => h ^ n := by
    refine (hf.rest.comp_tendsto vt).trans ?_
    have : (fun h => ‖v h‖ ^ 4) =O[𝓝 0] fun h : ℝ => (h ^ 1) ^ 4 := v1'.norm_left.pow 4
    refine IsBigO.trans this ?_
    simpa using pow_isBigO (m := 4) h4
  have e2 : (fun h => L (v h - p h) + (Q (v h) (v h - p h) + Q (v h - p h) (p h))
      + (C (v h) (v h) (v h - p h) + C (v h) (v h - p h) (p h) + C (v h - p h) (p h) (p h))) =O[𝓝 0] fun h : ℝ => h ^ n := by
    have a1 := apply1 L r
    have a2 := apply2 Q vB r
    have a3 := apply2 Q r pB
    have a4 := apply3 C vB vB r
    have a5 := apply3 C vB r pB
    have a6 := apply3 C r pB pB
    simp only [one_mul, mul_one] at a2 a3 a4 a5 a6
    exact (a1.add (a2.add a3)).add ((a4.add a5).add a6)
  have e3 : (fun h => h ^ 4 • (Q v1 v3 + Q v3 v1 + Q (x h) (x h) + (C (x h) (w h) (w h) + C v1 (x h) (w h) + C v1 v1 (x h)))) =O[𝓝 0] fun h : ℝ => h ^ n := by
    refine smul_isBigO h4 (cont_isBigO ?_)
    fun_prop
  refine ((e1.add e2).add e3).congr_left fun h => ?_
  have eL : L (p h) = h • L v1 + h ^ 2 • L v2 + h ^ 3 • L v3 := by rw [hp]; simp only [map_add, map_smul]
  have eQ : Q (p h) (p h) = h ^ 2 • Q v1 v1 + h ^ 3 • (Q v1 v2 + Q v2 v1) + h ^ 4 • (Q v1 v3 + Q v3 v1 + Q (x h) (x h)) := by
    have e : p h = h • v1 + h ^ 2 • x h := by rw [hp, hx]; dsimp only; module
    rw [e]
    simp only [map_add, map_smul, add_apply, smul_apply]
    have ex1 : Q v1 (x h) = Q v1 v2 + h • Q v1 v3 := by rw [hx]; simp only [map_add, map_smul]
    have ex2 : Q (x h) v1 = Q v2 v1 + h • Q v3 v1 := by
      rw [hx]; simp only [map_add, map_smul, add_apply, smul_apply]
    rw [ex1, ex2]
    module
  have eC : C (p h) (p h) (p h) = h ^ 3 • C v1 v1 v1 + h ^ 4 • (C (x h) (w h) (w h) + C v1 (x h) (w h) + C v1 v1 (x h)) := by
    rw [pw]
    have ew : ∀ z : E, ∀ T : E →L[ℝ] E, T (w h) = T v1 + h • T (x h) := by intro z T; rw [hw]; simp only [map_add, map_smul]
    have a1 : C (w h) (w h) (w h) = C v1 (w h) (w h) + h • C (x h) (w h) (w h) := by
      conv_lhs => enter [1, 1, 2]; rw [hw]
      simp only [map_add, map_smul, add_apply, smul_apply]
    have a2 : C v1 (w h) (w h) = C v1 v1 (w h) + h • C v1 (x h) (w h) := by
      conv_lhs => enter [1, 2]; rw [hw]
      simp only [map_add, map_smul, add_apply, smul_apply]
    have a3 := ew 0 (C v1 v1)
    simp only [map_smul, smul_apply]
    rw [a1, a2, a3]
    module
  simp only [map_sub, sub_apply]
  rw [eL, eQ, eC]
  module

/-- Integration of an expansion. -/
theorem integrate {n : ℕ} {y g : ℝ → E} {c0 c1 c2 c3 : E} (hy : ∀ᶠ h in 𝓝 (0 : ℝ), HasDerivAt y (g h) h)
    (hg : (fun h => g h - (c0 + h • c1 + h ^ 2 • c2 + h ^ 3 • c3)) =O[𝓝 0] fun h : ℝ => h ^ n) :
    (fun h => y h - y 0 - (h • c0 + (h ^ 2 / 2) • c1 + (h ^ 3 / 3) • c2 + (h ^ 4 / 4) • c3)) =O[𝓝 0] fun h : ℝ => h ^ (n + 1) := by
  obtain ⟨K, hK⟩ := hg.bound
  obtain ⟨δ, hδ, hb⟩ := Metric.eventually_nhds_iff.mp (hy.and hK)
  obtain ⟨z, hz⟩ : ∃ z : ℝ → E, z = fun h => y h - (h • c0 + (h ^ 2 / 2) • c1 + (h ^ 3 / 3) • c2 + (h ^ 4 / 4) • c3) := ⟨_, rfl⟩
  have dz : ∀ h : ℝ, |h| < δ → HasDerivAt z (g h - (c0 + h • c1 + h ^ 2 • c2 + h ^ 3 • c3)) h := by
    intro h hh
    rw [hz]
    refine HasDerivAt.sub (hb (by simpa using hh)).1 ?_
    have d1 : HasDerivAt (fun h : ℝ => h • c0) ((1 : ℝ) • c0) h := (hasDerivAt_id h).smul_const c0
    have d2 : HasDerivAt (fun h : ℝ => (h ^ 2 / 2) • c1) (h • c1) h := by
      have := ((hasDerivAt_pow 2 h).div_const 2).smul_const c1
      refine this.congr_deriv ?_
      congr 1
      push_cast
      ring
    have d3 : HasDerivAt (fun h : ℝ => (h ^ 3 / 3) • c2) (h ^ 2 • c2) h := by
      have := ((hasDerivAt_pow 3 h).div_const 3).smul_const c2
      refine this.congr_deriv ?_
      congr 1
      push_cast
      ring
    have d4 : HasDerivAt (fun h : ℝ => (h ^ 4 / 4) • c3) (h ^ 3 • c3) h := by
      have := ((hasDerivAt_pow 4 h).div_const 4).smul_const c3
      refine this.congr_deriv ?_
      congr 1
      push_cast
      ring
    rw [one_smul] at d1
    exact ((d1.add d2).add d3).add d4
  refine IsBigO.of_bound K (Metric.eventually_nhds_iff.mpr ⟨δ, hδ, fun h hh => ?_⟩)
  have hh : |h| < δ := by simpa using hh
  have key := Convex.norm_image_sub_le_of_norm_hasDerivWithin_le (f := z) (f' := fun h => g h - (c0 + h • c1 + h ^ 2 • c2 + h ^ 3 • c3)) (C := K * |h| ^ n)
    (s := Metric.closedBall (0 : ℝ) |h|) (x := 0) (y := h)
    (fun u hu => (dz u (lt_of_le_of_lt (by simpa using hu) hh)).hasDerivWithinAt)
    (fun u hu => by
      have hu' : |u| ≤ |h| := by simpa using hu
      have h1 := (hb (y := u) (by simpa using lt_of_le_of_lt hu' hh)).2
      rw [norm_pow, Real.norm_eq_abs] at h1
      rcases le_or_gt 0 K with hK0 | hK0
      · exact h1.trans (mul_le_mul_of_nonneg_left (pow_le_pow_left₀ (abs_nonneg u) hu' n) hK0)
      · have h0 := (hb (y := h) (by simpa using hh)).2
        rw [norm_pow, Real.norm_eq_abs] at h0
        rcases eq_or_ne (|u| ^ n) 0 with hz0 | hz0
        · have : |h| ^ n ≤ 0 := by
            by_contra hc
            push Not at hc
            have := norm_nonneg (g h - (c0 + h • c1 + h ^ 2 • c2 + h ^ 3 • c3))
            nlinarith
          have h2 : |h| ^ n = 0 := le_antisymm this (by positivity)
          rw [h2, mul_zero]
          rw [hz0, mul_zero] at h1
          exact h1
        · have hp : 0 < |u| ^ n := lt_of_le_of_ne (by positivity) (Ne.symm hz0)
          have := norm_nonneg (g u - (c0 + u • c1 + u ^ 2 • c2 + u ^ 3 • c3))
          nlinarith)
    (convex_closedBall 0 |h|) (by simp) (by simp)
  have e : z h - z 0 = y h - y 0 - (h • c0 + (h ^ 2 / 2) • c1 + (h ^ 3 / 3) • c2 + (h ^ 4 / 4) • c3) := by
    rw [hz]; simp; abel
  rw [← e]
  refine key.trans (le_of_eq ?_)
  rw [sub_zero, norm_pow, Real.norm_eq_abs]
  ring

/-- One more order of the solution. -/
theorem improve (hf : Expansion f y0 L Q C) {y : ℝ → E} (h0 : y 0 = y0) (hy : ∀ᶠ h in 𝓝 (0 : ℝ), HasDerivAt y (f (y h)) h) {n : ℕ} (h1 : 1 ≤ n) (h4 : n ≤ 4)
    {v1 v2 v3 : E} (hv : (fun h => y h - y0 - (h • v1 + h ^ 2 • v2 + h ^ 3 • v3)) =O[𝓝 0] fun h : ℝ => h ^ n) :
    (fun h => y h - y0 - (h • f y0 + (h ^ 2 / 2) • L v1 + (h ^ 3 / 3) • (L v2 + Q v1 v1)
      + (h ^ 4 / 4) • (L v3 + (Q v1 v2 + Q v2 v1) + C v1 v1 v1))) =O[𝓝 0] fun h : ℝ => h ^ (n + 1) := by
  have h := along hf h1 h4 hv
  simp only [add_sub_cancel] at h
  have := integrate hy h
  rw [h0] at this
  exact this

/-- The solution to the fourth order. -/
theorem solution (hf : Expansion f y0 L Q C) {y : ℝ → E} (h0 : y 0 = y0) (hy : ∀ᶠ h in 𝓝 (0 : ℝ), HasDerivAt y (f (y h)) h) (hc : ContinuousAt f y0) :
    (fun h => y h - y0 - (h • f y0 + (h ^ 2 / 2) • L (f y0) + (h ^ 3 / 3) • ((1 / 2 : ℝ) • L (L (f y0)) + Q (f y0) (f y0))
      + (h ^ 4 / 4) • ((1 / 3 : ℝ) • L ((1 / 2 : ℝ) • L (L (f y0)) + Q (f y0) (f y0)) + (1 / 2 : ℝ) • (Q (f y0) (L (f y0)) + Q (L (f y0)) (f y0))
        + C (f y0) (f y0) (f y0)))) =O[𝓝 0] fun h : ℝ => h ^ 5 := by
  have yc : ContinuousAt y 0 := hy.self_of_nhds.continuousAt
  have s0 : (fun h => f (y h)) =O[𝓝 0] fun h : ℝ => h ^ 0 := by
    have : ContinuousAt (fun h => f (y h)) 0 := ContinuousAt.comp (by rw [h0]; exact hc) yc
    simpa using this.norm.isBoundedUnder_le.isBigO_one ℝ
  have s1 : (fun h => y h - y0 - (h • (0 : E) + h ^ 2 • (0 : E) + h ^ 3 • (0 : E))) =O[𝓝 0] fun h : ℝ => h ^ 1 := by
    have := integrate (c0 := 0) (c1 := 0) (c2 := 0) (c3 := 0) hy (n := 0) (by simpa using s0)
    rw [h0] at this
    simpa using this
  have drop : ∀ {n : ℕ} (a b c d : E), n ≤ 4 → (fun h => y h - y0 - (h • a + (h ^ 2 / 2) • b + (h ^ 3 / 3) • c + (h ^ 4 / 4) • d)) =O[𝓝 0] (fun h : ℝ => h ^ n) →
      (fun h => y h - y0 - (h • a + h ^ 2 • ((1 / 2 : ℝ) • b) + h ^ 3 • ((1 / 3 : ℝ) • c))) =O[𝓝 0] (fun h : ℝ => h ^ n) := by
    intro n a b c d hn h
    have := h.add (smul_isBigO hn (cont_isBigO (g := fun _ => (1 / 4 : ℝ) • d) continuous_const))
    refine this.congr_left fun h => ?_
    module
  have s2 := drop _ _ _ _ (by norm_num) (improve hf h0 hy (le_refl 1) (by norm_num) s1)
  have s3 := drop _ _ _ _ (by norm_num) (improve hf h0 hy (by norm_num) (by norm_num) s2)
  have s4 := drop _ _ _ _ (by norm_num) (improve hf h0 hy (by norm_num) (by norm_num) s3)
  have s5 := improve hf h0 hy (by norm_num) (by norm_num) s4
  refine s5.congr_left fun h => ?_
  simp only [map_smul, smul_apply, map_add, smul_add]
  try module

/-- A step of the method of Runge and Kutta agrees with the solution up to the fifth power of its length. -/
theorem rk4_order (hf : Expansion f y0 L Q C) {y : ℝ → E} (h0 : y 0 = y0) (hy : ∀ᶠ h in 𝓝 (0 : ℝ), HasDerivAt y (f (y h)) h) (hc : ContinuousAt f y0) :
    (fun h => y h - rk4 f y0 h) =O[𝓝 0] fun h : ℝ => h ^ 5 := by
  obtain ⟨a, ha⟩ : ∃ a, a = f y0 := ⟨_, rfl⟩
  have k2 : (fun h : ℝ => f (y0 + (h / 2) • a) - (a + h • ((1 / 2 : ℝ) • L a) + h ^ 2 • ((1 / 4 : ℝ) • Q a a) + h ^ 3 • ((1 / 8 : ℝ) • C a a a)))
      =O[𝓝 0] fun h : ℝ => h ^ 4 := by
    have := along hf (n := 4) (by norm_num) (le_refl 4) (v := fun h => (h / 2) • a) (v1 := (1 / 2 : ℝ) • a) (v2 := 0) (v3 := 0) (by
      refine (isBigO_zero (fun h : ℝ => h ^ 4) (𝓝 0)).congr_left fun h => ?_
      module)
    refine this.congr_left fun h => ?_
    rw [← ha]
    simp only [map_smul, smul_apply, map_zero, zero_apply]
    module
  have timesH : ∀ {n : ℕ} {g : ℝ → E}, g =O[𝓝 0] (fun h : ℝ => h ^ n) → ∀ c : ℝ, (fun h : ℝ => (h * c) • g h) =O[𝓝 0] fun h : ℝ => h ^ (n + 1) := by
    intro n g hg c
    have h1 : (fun h : ℝ => h * c) =O[𝓝 0] fun h : ℝ => h := by
      simpa [mul_comm] using (isBigO_refl (fun h : ℝ => h) (𝓝 0)).const_mul_left c
    have := h1.smul hg
    refine this.congr_right fun h => ?_
    rw [smul_eq_mul, pow_succ, mul_comm]
  have k3 : (fun h : ℝ => f (y0 + (h / 2) • f (y0 + (h / 2) • a)) - (a + h • ((1 / 2 : ℝ) • L a) + h ^ 2 • ((1 / 4 : ℝ) • (L (L a) + Q a a))
      + h ^ 3 • ((1 / 8 : ℝ) • (L (Q a a) + (Q a (L a) + Q (L a) a) + C a a a)))) =O[𝓝 0] fun h : ℝ => h ^ 4 := by
    have := along hf (n := 4) (by norm_num) (le_refl 4) (v := fun h => (h / 2) • f (y0 + (h / 2) • a)) (v1 := (1 / 2 : ℝ) • a) (v2 := (1 / 4 : ℝ) • L a)
      (v3 := (1 / 8 : ℝ) • Q a a) (by
      have h1 := (timesH k2 (1 / 2)).trans (pow_isBigO (by norm_num : 4 ≤ 4 + 1))
      have h2 := h1.add (smul_isBigO (m := 4) (le_refl 4) (cont_isBigO (g := fun _ => (1 / 16 : ℝ) • C a a a) continuous_const))
      refine h2.congr_left fun h => ?_
      module)
    refine this.congr_left fun h => ?_
    rw [← ha]
    simp only [map_smul, smul_apply]
    module
  have k4 : (fun h : ℝ => f (y0 + h • f (y0 + (h / 2) • f (y0 + (h / 2) • a))) - (a + h • L a + h ^ 2 • ((1 / 2 : ℝ) • L (L a) + Q a a)
      + h ^ 3 • ((1 / 4 : ℝ) • L (L (L a) + Q a a) + (1 / 2 : ℝ) • (Q a (L a) + Q (L a) a) + C a a a))) =O[𝓝 0] fun h : ℝ => h ^ 4 := by
    have := along hf (n := 4) (by norm_num) (le_refl 4) (v := fun h => h • f (y0 + (h / 2) • f (y0 + (h / 2) • a))) (v1 := a) (v2 := (1 / 2 : ℝ) • L a)
      (v3 := (1 / 4 : ℝ) • (L (L a) + Q a a)) (by
      have h1 := (timesH k3 1).trans (pow_isBigO (by norm_num : 4 ≤ 4 + 1))
      have h2 := h1.add (smul_isBigO (m := 4) (le_refl 4) (cont_isBigO (g := fun _ => (1 / 8 : ℝ) • (L (Q a a) + (Q a (L a) + Q (L a) a) + C a a a)) continuous_const))
      refine h2.congr_left fun h => ?_
      rw [mul_one]
      module)
    refine this.congr_left fun h => ?_
    rw [← ha]
    simp only [map_smul, smul_apply]
    module
  have sol := solution hf h0 hy hc
  rw [← ha] at sol
  have t2 := timesH k2 (1 / 3)
  have t3 := timesH k3 (1 / 3)
  have t4 := timesH k4 (1 / 6)
  refine (sol.sub ((t2.add t3).add t4)).congr_left fun h => ?_
  unfold rk4
  dsimp only
  rw [← ha]
  simp only [map_smul, smul_apply, map_add, smul_add]
  module

end

/-- An analytic function has an expansion. -/
theorem expansion_of_analytic {f : E → E} {y0 : E} (hf : AnalyticAt ℝ f y0) : ∃ L Q C, Expansion f y0 L Q C := by
  obtain ⟨p, hp⟩ := hf
  have h := hp.isBigO_sub_partialSum_pow 4
  let c1 : (E [×1]→L[ℝ] E) →L[ℝ] (E →L[ℝ] E) := (continuousMultilinearCurryFin1 ℝ E E).toContinuousLinearEquiv
  let c2 : (E [×2]→L[ℝ] E) →L[ℝ] (E →L[ℝ] (E [×1]→L[ℝ] E)) := (continuousMultilinearCurryLeftEquiv ℝ (fun _ : Fin 2 => E) E).toContinuousLinearEquiv
  let d2 : (E [×2]→L[ℝ] E) →L[ℝ] (E →L[ℝ] E →L[ℝ] E) := (ContinuousLinearMap.compL ℝ E (E [×1]→L[ℝ] E) (E →L[ℝ] E) c1).comp c2
  refine ⟨c1 (p 1), d2 (p 2), d2.comp (p 3).curryLeft, ⟨h.congr_left fun v => ?_⟩⟩
  have e0 : p 0 (fun _ => v) = f y0 := hp.coeff_zero _
  have e1 : c1 (p 1) v = p 1 fun _ => v := by
    change p 1 (Fin.snoc 0 v) = _
    congr 1
  have e2 : d2 (p 2) v v = p 2 fun _ => v := by
    change p 2 (Fin.cons v (Fin.snoc 0 v)) = _
    congr 1; ext i; fin_cases i <;> rfl
  have e3 : d2.comp (p 3).curryLeft v v v = p 3 fun _ => v := by
    change p 3 (Fin.cons v (Fin.cons v (Fin.snoc 0 v))) = _
    congr 1; ext i; fin_cases i <;> rfl
  rw [e1, e2, e3]
  unfold FormalMultilinearSeries.partialSum
  rw [Finset.sum_range_succ, Finset.sum_range_succ, Finset.sum_range_succ, Finset.sum_range_one, e0]

/-- The order of the method, for analytic right hand sides. -/
theorem rk4_analytic {f : E → E} {y : ℝ → E} (hf : AnalyticAt ℝ f (y 0)) (hy : ∀ᶠ h in 𝓝 (0 : ℝ), HasDerivAt y (f (y h)) h) :
    (fun h => y h - rk4 f (y 0) h) =O[𝓝 0] fun h : ℝ => h ^ 5 := by
  obtain ⟨L, Q, C, h⟩ := expansion_of_analytic hf
  exact rk4_order h rfl hy hf.continuousAt

end SatSky.RK
