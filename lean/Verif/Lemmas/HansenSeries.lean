import Verif.Lemmas.Hansen
import Mathlib.Analysis.SpecificLimits.Normed
import Mathlib.Analysis.Normed.Algebra.Exponential
import Mathlib.Analysis.Normed.Ring.InfiniteSum
import Mathlib.MeasureTheory.Integral.DominatedConvergence

/-! Hansen's coefficients as series in the tangent of half the angle of eccentricity. -/

namespace SatSky.Hansen

open SatSky.Spec

/-- Coefficients of `(1 - w)^(-p)`. -/
def mc : ℕ → ℕ → ℕ
  | 0, 0 => 1
  | 0, _ + 1 => 0
  | p + 1, i => (i + p).choose p

theorem hasSum_mc (p : ℕ) {r : ℂ} (hr : ‖r‖ < 1) : HasSum (fun i => (mc p i : ℂ) * r ^ i) ((1 - r) ^ p)⁻¹ := by
  cases p with
  | zero =>
    have := hasSum_single (f := fun i => (mc 0 i : ℂ) * r ^ i) 0 (fun i hi => by
      obtain ⟨n, rfl⟩ := Nat.exists_eq_succ_of_ne_zero hi
      simp [mc])
    simpa [mc] using this
  | succ p =>
    have := hasSum_choose_mul_geometric_of_norm_lt_one p hr
    simpa [mc, one_div] using this

theorem summable_mc (p : ℕ) {r : ℂ} (hr : ‖r‖ < 1) : Summable fun i => ‖(mc p i : ℂ) * r ^ i‖ := by
  have h := (hasSum_mc p (r := ((‖r‖ : ℝ) : ℂ)) (by rw [Complex.norm_real, norm_norm]; exact hr)).summable
  have : ∀ i, ‖(mc p i : ℂ) * r ^ i‖ = (mc p i : ℝ) * ‖r‖ ^ i := fun i => by rw [norm_mul, norm_pow, Complex.norm_natCast]
  simp only [this]
  rw [← Complex.summable_ofReal]
  simpa using h

/-- Coefficients of `(1 - β w)^(-p) e^(ν w)`. -/
noncomputable def cs (β ν : ℝ) (p n : ℕ) : ℝ := ∑ k ∈ Finset.range (n + 1), mc p k * β ^ k * (ν ^ (n - k) / (n - k).factorial)

theorem hasSum_cs {β : ℝ} (ν : ℝ) (p : ℕ) (hβ : |β| < 1) {w : ℂ} (hw : ‖w‖ = 1) :
    HasSum (fun n => (cs β ν p n : ℂ) * w ^ n) (((1 - β * w) ^ p)⁻¹ * Complex.exp (ν * w)) ∧ Summable fun n => ‖(cs β ν p n : ℂ) * w ^ n‖ := by
  have hr : ‖(β : ℂ) * w‖ < 1 := by rw [norm_mul, hw, mul_one, Complex.norm_real]; exact hβ
  have s1 := summable_mc p hr
  have s2 := NormedSpace.norm_expSeries_div_summable ((ν : ℂ) * w)
  have h := hasSum_sum_range_mul_of_summable_norm s1 s2
  have h' := summable_norm_sum_mul_range_of_summable_norm s1 s2
  have e : ∀ n, ∑ k ∈ Finset.range (n + 1), (mc p k : ℂ) * ((β : ℂ) * w) ^ k * (((ν : ℂ) * w) ^ (n - k) / ((n - k).factorial : ℂ)) = (cs β ν p n : ℂ) * w ^ n := by
    intro n
    unfold cs
    push_cast
    rw [Finset.sum_mul]
    refine Finset.sum_congr rfl fun k hk => ?_
    have : w ^ n = w ^ k * w ^ (n - k) := by rw [← pow_add, Nat.add_sub_cancel' (Nat.lt_succ_iff.1 (Finset.mem_range.1 hk))]
    rw [this, mul_pow, mul_pow]
    ring
  simp only [e] at h h'
  rw [(hasSum_mc p hr).tsum_eq, (NormedSpace.expSeries_div_hasSum_exp ((ν : ℂ) * w)).tsum_eq, ← Complex.exp_eq_exp_ℂ] at h
  exact ⟨h, h'⟩

theorem summable_cs {β : ℝ} (ν : ℝ) (p : ℕ) (hβ : |β| < 1) : Summable fun n => ‖(cs β ν p n : ℂ)‖ := by
  have := (hasSum_cs ν p hβ (w := 1) norm_one).2
  simpa using this

/-- The mean over a revolution of a product of two such functions and a power of `e^(iE)`. -/
theorem mean_product {a b : ℕ → ℂ} (ha : Summable fun n => ‖a n‖) (hb : Summable fun n => ‖b n‖) {A B : ℝ → ℂ}
    (hA : ∀ E, HasSum (fun n => a n * z E ^ n) (A E)) (hB : ∀ E, HasSum (fun n => b n * (z E)⁻¹ ^ n) (B E)) {d : ℤ} {D1 D2 : ℕ} (hd : d = D2 - D1)
    (h0 : D1 = 0 ∨ D2 = 0) :
    HasSum (fun i => a (i + D1) * b (i + D2)) ((∫ E in -Real.pi..Real.pi, A E * B E * z E ^ d) / (2 * Real.pi)) := by
  have hz : ∀ n : ℤ, Continuous fun E => z E ^ n := fun n => by simp only [z_zpow]; fun_prop
  let G : ℕ × ℕ → ℝ → ℂ := fun x E => a x.1 * b x.2 * z E ^ ((x.1 : ℤ) - x.2 + d)
  have hs : Summable fun x : ℕ × ℕ => ‖a x.1‖ * ‖b x.2‖ := Summable.mul_of_nonneg ha hb (fun _ => norm_nonneg _) fun _ => norm_nonneg _
  have hG : ∀ E, HasSum (fun x => G x E) (A E * B E * z E ^ d) := by
    intro E
    have n1 : ∀ n, ‖a n * z E ^ n‖ = ‖a n‖ := fun n => by rw [norm_mul, norm_pow, z_norm, one_pow, mul_one]
    have n2 : ∀ n, ‖b n * (z E)⁻¹ ^ n‖ = ‖b n‖ := fun n => by rw [norm_mul, norm_pow, z_inv_norm, one_pow, mul_one]
    have s1 : Summable fun n => ‖a n * z E ^ n‖ := by simp only [n1]; exact ha
    have s2 : Summable fun n => ‖b n * (z E)⁻¹ ^ n‖ := by simp only [n2]; exact hb
    have s3 := summable_mul_of_summable_norm s1 s2
    have hm := ((hA E).mul (hB E) s3).mul_right (z E ^ d)
    have e : (fun x => G x E) = fun x : ℕ × ℕ => a x.1 * z E ^ x.1 * (b x.2 * (z E)⁻¹ ^ x.2) * z E ^ d := by
      funext x
      simp only [G]
      rw [zpow_add₀ (z_ne E), zpow_sub₀ (z_ne E), zpow_natCast, zpow_natCast, inv_pow]
      ring
    rw [e]
    exact hm
  have hsum := intervalIntegral.hasSum_integral_of_dominated_convergence (μ := MeasureTheory.volume) (a := -Real.pi) (b := Real.pi) (F := G)
    (f := fun E => A E * B E * z E ^ d) (fun x _ => ‖a x.1‖ * ‖b x.2‖)
    (fun x => by
      have := hz ((x.1 : ℤ) - x.2 + d)
      exact Continuous.aestronglyMeasurable (by fun_prop))
    (fun x => Filter.Eventually.of_forall fun E _ => by
      simp only [G]
      rw [norm_mul, norm_mul, norm_zpow, z_norm, one_zpow, mul_one])
    (Filter.Eventually.of_forall fun E _ => hs) (Continuous.intervalIntegrable (by fun_prop) _ _) (Filter.Eventually.of_forall fun E _ => hG E)
  have hpi : (2 * Real.pi : ℂ) ≠ 0 := by
    have := Real.pi_ne_zero
    exact mul_ne_zero two_ne_zero (by exact_mod_cast this)
  have hint : ∀ x : ℕ × ℕ, ∫ E in -Real.pi..Real.pi, G x E = if (x.1 : ℤ) - x.2 + d = 0 then 2 * Real.pi * (a x.1 * b x.2) else 0 := by
    intro x
    simp only [G]
    rw [intervalIntegral.integral_const_mul]
    split_ifs with h
    · rw [h]
      simp only [zpow_zero]
      rw [intervalIntegral.integral_const, Complex.real_smul]
      push_cast
      ring
    · rw [mean_zpow h, mul_zero]
  simp only [hint] at hsum
  have inj : Function.Injective fun i : ℕ => (i + D1, i + D2) := fun i k h => by simpa using (Prod.ext_iff.1 h).1
  rw [← inj.hasSum_iff] at hsum
  · have := hsum.div_const (2 * Real.pi : ℂ)
    have e : (fun i => a (i + D1) * b (i + D2)) = fun i : ℕ => (((fun x : ℕ × ℕ => if (x.1 : ℤ) - x.2 + d = 0 then 2 * Real.pi * (a x.1 * b x.2) else 0) ∘
        fun i : ℕ => (i + D1, i + D2)) i) / (2 * Real.pi : ℂ) := by
      funext i
      simp only [Function.comp]
      rw [if_pos (by rw [hd]; push_cast; ring), mul_div_cancel_left₀ _ hpi]
    rw [e]
    exact this
  · intro x hx
    rw [if_neg]
    intro h
    apply hx
    rcases h0 with h0 | h0
    · exact ⟨x.1, Prod.ext (by dsimp only; omega) (by dsimp only; omega)⟩
    · exact ⟨x.2, Prod.ext (by dsimp only; omega) (by dsimp only; omega)⟩

/-! With `e = 2β/(1 + β²)` -/

theorem one_sub_ne {β : ℝ} (hβ : |β| < 1) {w : ℂ} (hw : ‖w‖ = 1) : 1 - (β : ℂ) * w ≠ 0 := by
  intro h
  have : ‖(β : ℂ) * w‖ = 1 := by rw [← sub_eq_zero.1 h, norm_one]
  rw [norm_mul, hw, mul_one, Complex.norm_real, Real.norm_eq_abs] at this
  linarith

theorem dist_factor (β E : ℝ) : ((1 - 2 * β / (1 + β ^ 2) * Real.cos E : ℝ) : ℂ) = (1 - β * z E) * (1 - β * (z E)⁻¹) / (1 + β ^ 2 : ℝ) := by
  have hm : ((1 + β ^ 2 : ℝ) : ℂ) ≠ 0 := by
    have : (1 + β ^ 2 : ℝ) ≠ 0 := by positivity
    exact_mod_cast this
  have hz := z_ne E
  push_cast [-Complex.ofReal_cos]
  push_cast at hm
  rw [cos_z]
  field_simp
  ring

theorem trueAnomaly_factor {β : ℝ} (h0 : 0 ≤ β) (h1 : β < 1) (E : ℝ) :
    trueAnomaly (2 * β / (1 + β ^ 2)) E = z E * (1 - β * (z E)⁻¹) / (1 - β * z E) := by
  have hβ : |β| < 1 := by rw [abs_of_nonneg h0]; exact h1
  have hX := one_sub_ne hβ (z_norm E)
  have hY := one_sub_ne hβ (z_inv_norm E)
  have hmr : (1 + β ^ 2 : ℝ) ≠ 0 := by positivity
  have hm : (1 + (β : ℂ) ^ 2) ≠ 0 := by exact_mod_cast hmr
  have hz := z_ne E
  have hs : Real.sqrt (1 - (2 * β / (1 + β ^ 2)) ^ 2) = (1 - β ^ 2) / (1 + β ^ 2) := by
    rw [show 1 - (2 * β / (1 + β ^ 2)) ^ 2 = ((1 - β ^ 2) / (1 + β ^ 2)) ^ 2 by field_simp; ring]
    exact Real.sqrt_sq (div_nonneg (by nlinarith) (by positivity))
  have hd := dist_factor β E
  have e1 : trueAnomaly (2 * β / (1 + β ^ 2)) E = ((Real.cos E : ℂ) - (2 * β / (1 + β ^ 2) : ℝ) + ((1 - β ^ 2) / (1 + β ^ 2) : ℝ) * (Real.sin E * Complex.I)) /
      ((1 - 2 * β / (1 + β ^ 2) * Real.cos E : ℝ) : ℂ) := by
    unfold trueAnomaly
    rw [hs]
    generalize (1 - β ^ 2) / (1 + β ^ 2) = η
    generalize 2 * β / (1 + β ^ 2) = e
    apply Complex.ext
    · rw [Complex.div_ofReal_re]
      simp [-Complex.ofReal_cos, -Complex.ofReal_sin]
    · rw [Complex.div_ofReal_im]
      simp [-Complex.ofReal_cos, -Complex.ofReal_sin]
  rw [e1, hd, sin_z, cos_z]
  push_cast
  generalize z E = w at *
  have hX' : 1 - (β : ℂ) * w ≠ 0 := hX
  have hY' : w - (β : ℂ) ≠ 0 := by
    intro h
    apply hY
    rw [show (β : ℂ) = w from (sub_eq_zero.1 h).symm, mul_inv_cancel₀ hz, sub_self]
  rw [div_eq_div_iff (by
    apply div_ne_zero (mul_ne_zero hX hY) hm) hX]
  field_simp
  ring

theorem hansen_series {β : ℝ} (h0 : 0 ≤ β) (h1 : β < 1) {l p q j : ℕ} {k : ℤ} (hp : (p : ℤ) = l + k) (hq : (q : ℤ) = l - k) {D1 D2 : ℕ}
    (hd : k - j = D2 - D1) (hD : D1 = 0 ∨ D2 = 0) :
    HasSum (fun i => cs β (j * β / (1 + β ^ 2)) p (i + D1) * cs β (-(j * β / (1 + β ^ 2))) q (i + D2)) (hansen l k j (2 * β / (1 + β ^ 2)) / (1 + β ^ 2) ^ l) := by
  have hβ : |β| < 1 := by rw [abs_of_nonneg h0]; exact h1
  have hmr : (1 + β ^ 2 : ℝ) ≠ 0 := by positivity
  have hm : ((1 + β ^ 2 : ℝ) : ℂ) ≠ 0 := by exact_mod_cast hmr
  have key := mean_product (summable_cs (j * β / (1 + β ^ 2)) p hβ) (summable_cs (-(j * β / (1 + β ^ 2))) q hβ)
    (fun E => (hasSum_cs (j * β / (1 + β ^ 2)) p hβ (z_norm E)).1) (fun E => (hasSum_cs (-(j * β / (1 + β ^ 2))) q hβ (z_inv_norm E)).1) hd hD
  have hint : ∀ E : ℝ, 1 / (1 - 2 * β / (1 + β ^ 2) * Real.cos E) ^ (l + 1) *
      (trueAnomaly (2 * β / (1 + β ^ 2)) E ^ k * Complex.exp (-(((j : ℤ) : ℂ) * ((E : ℂ) - ((2 * β / (1 + β ^ 2) : ℝ) : ℂ) * Real.sin E)) * Complex.I)).re *
        (1 - 2 * β / (1 + β ^ 2) * Real.cos E) =
      (((1 + β ^ 2) ^ l : ℝ) * (((1 - (β : ℂ) * z E) ^ p)⁻¹ * Complex.exp ((j * β / (1 + β ^ 2) : ℝ) * z E) *
        (((1 - (β : ℂ) * (z E)⁻¹) ^ q)⁻¹ * Complex.exp ((-(j * β / (1 + β ^ 2)) : ℝ) * (z E)⁻¹)) * z E ^ (k - j))).re := by
    intro E
    have hX := one_sub_ne hβ (z_norm E)
    have hY := one_sub_ne hβ (z_inv_norm E)
    have hz := z_ne E
    rw [exp_eq, trueAnomaly_factor h0 h1]
    have hback : back ((j : ℤ) : ℝ) (2 * β / (1 + β ^ 2)) E =
        Complex.exp ((j * β / (1 + β ^ 2) : ℝ) * z E) * Complex.exp ((-(j * β / (1 + β ^ 2)) : ℝ) * (z E)⁻¹) := by
      unfold back
      rw [sin_z, ← Complex.exp_add]
      congr 1
      push_cast
      ring
    rw [hback]
    have hc : ((1 / (1 - 2 * β / (1 + β ^ 2) * Real.cos E) ^ (l + 1) * (1 - 2 * β / (1 + β ^ 2) * Real.cos E) : ℝ) : ℂ) =
        ((1 + β ^ 2) ^ l : ℝ) * (((1 - (β : ℂ) * z E) ^ l)⁻¹ * ((1 - (β : ℂ) * (z E)⁻¹) ^ l)⁻¹) := by
      rw [Complex.ofReal_mul, Complex.ofReal_div, Complex.ofReal_pow, dist_factor, Complex.ofReal_one, Complex.ofReal_pow]
      generalize 1 - (β : ℂ) * z E = X at *
      generalize 1 - (β : ℂ) * (z E)⁻¹ = Y at *
      generalize ((1 + β ^ 2 : ℝ) : ℂ) = m at *
      rw [pow_succ, div_pow, mul_pow]
      field_simp
    rw [mul_right_comm, ← Complex.re_ofReal_mul, hc]
    congr 1
    have eX : ((1 - (β : ℂ) * z E) ^ p)⁻¹ = ((1 - (β : ℂ) * z E) ^ l)⁻¹ * ((1 - (β : ℂ) * z E) ^ k)⁻¹ := by
      rw [← zpow_natCast _ p, hp, zpow_add₀ hX, zpow_natCast, mul_inv]
    have eY : ((1 - (β : ℂ) * (z E)⁻¹) ^ q)⁻¹ = ((1 - (β : ℂ) * (z E)⁻¹) ^ l)⁻¹ * (1 - (β : ℂ) * (z E)⁻¹) ^ k := by
      rw [← zpow_natCast _ q, hq, zpow_sub₀ hY, zpow_natCast, inv_div]
      ring
    rw [eX, eY, div_zpow, mul_zpow, sub_eq_add_neg k, zpow_add₀ hz]
    ring
  have hre : (∫ E in -Real.pi..Real.pi, ((1 - (β : ℂ) * z E) ^ p)⁻¹ * Complex.exp ((j * β / (1 + β ^ 2) : ℝ) * z E) *
        (((1 - (β : ℂ) * (z E)⁻¹) ^ q)⁻¹ * Complex.exp ((-(j * β / (1 + β ^ 2)) : ℝ) * (z E)⁻¹)) * z E ^ (k - j)).re =
      ∫ E in -Real.pi..Real.pi, (((1 - (β : ℂ) * z E) ^ p)⁻¹ * Complex.exp ((j * β / (1 + β ^ 2) : ℝ) * z E) *
        (((1 - (β : ℂ) * (z E)⁻¹) ^ q)⁻¹ * Complex.exp ((-(j * β / (1 + β ^ 2)) : ℝ) * (z E)⁻¹)) * z E ^ (k - j)).re := by
    have hzc := z_continuous
    have hyc := z_inv_continuous
    have hzn : Continuous fun E => z E ^ (k - j) := by simp only [z_zpow]; fun_prop
    have c1 : Continuous fun E => ((1 - (β : ℂ) * z E) ^ p)⁻¹ := Continuous.inv₀ (by fun_prop) fun E => pow_ne_zero _ (one_sub_ne hβ (z_norm E))
    have c2 : Continuous fun E => ((1 - (β : ℂ) * (z E)⁻¹) ^ q)⁻¹ := Continuous.inv₀ (by fun_prop) fun E => pow_ne_zero _ (one_sub_ne hβ (z_inv_norm E))
    have := Complex.reCLM.intervalIntegral_comp_comm (μ := MeasureTheory.volume) (a := -Real.pi) (b := Real.pi)
      (f := fun E => ((1 - (β : ℂ) * z E) ^ p)⁻¹ * Complex.exp ((j * β / (1 + β ^ 2) : ℝ) * z E) *
        (((1 - (β : ℂ) * (z E)⁻¹) ^ q)⁻¹ * Complex.exp ((-(j * β / (1 + β ^ 2)) : ℝ) * (z E)⁻¹)) * z E ^ (k - j))
      (Continuous.intervalIntegrable (by fun_prop) _ _)
    simpa using this.symm
  have hval : hansen l k j (2 * β / (1 + β ^ 2)) / (1 + β ^ 2) ^ l =
      ((∫ E in -Real.pi..Real.pi, ((1 - (β : ℂ) * z E) ^ p)⁻¹ * Complex.exp ((j * β / (1 + β ^ 2) : ℝ) * z E) *
        (((1 - (β : ℂ) * (z E)⁻¹) ^ q)⁻¹ * Complex.exp ((-(j * β / (1 + β ^ 2)) : ℝ) * (z E)⁻¹)) * z E ^ (k - j)) / (2 * Real.pi)).re := by
    have e2 : (2 * Real.pi : ℂ) = ((2 * Real.pi : ℝ) : ℂ) := by push_cast; rfl
    rw [e2, Complex.div_ofReal_re, hre]
    unfold hansen overRevolution
    rw [intervalIntegral.integral_congr fun E _ => hint E]
    simp only [Complex.re_ofReal_mul]
    rw [intervalIntegral.integral_const_mul, mul_div_assoc, mul_div_cancel_left₀ _ (pow_ne_zero l hmr)]
  rw [hval]
  have := Complex.hasSum_re key
  simpa [← Complex.ofReal_mul] using this

end SatSky.Hansen
