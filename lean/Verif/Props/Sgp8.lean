import Verif.Lemmas.Sgp8Rates
import Verif.Spec.Decay
import Mathlib.Analysis.ODE.ExistUnique
import Mathlib.Analysis.Calculus.IteratedDeriv.Defs
import Mathlib.Analysis.SpecialFunctions.Sqrt
import Mathlib.Analysis.SpecialFunctions.Trigonometric.Deriv
import Mathlib.MeasureTheory.Integral.IntervalIntegral.FundThmCalculus
import Mathlib.Analysis.SpecialFunctions.Integrals.Basic

/-! C146, C147: the higher derivatives that `SGP8_init` computes, and the laws of decay fitted to them. -/

namespace SatSky.Props

open SatSky.Sxp SatSky.Sgp8 SatSky.Spec Filter Topology

/-- The rates of SGP8 as functions of axis, mean motion, eccentricity and perigee. -/
noncomputable def rate8N (k : Fixed) (a n e g : ℝ) : ℝ := xndt k ⟨a, n, e, g⟩
noncomputable def rate8E (k : Fixed) (a n e g : ℝ) : ℝ := edot k ⟨a, n, e, g⟩
noncomputable def rate8G (k : Fixed) (a n e g : ℝ) : ℝ := xgdt1 k ⟨a, n, e, g⟩

/-- The orbit decays near the time `t` as SGP8 has it. -/
def Decays8 (k : Fixed) (μ : ℝ) (n e g : ℝ → ℝ) (t : ℝ) : Prop := ∀ᶠ s in 𝓝 t, DecaysBy μ (rate8N k) (rate8E k) (rate8G k) n e g s

/-- The orbit at the time `t`. -/
noncomputable def orbAt (μ : ℝ) (n e g : ℝ → ℝ) (t : ℝ) : Orb := ⟨axisFor μ (n t), n t, e t, g t⟩

/-- An ellipse with the perigee above the level where the density law ends. -/
structure Above (x : Orb) : Prop where
  n : 0 < x.n
  e : |x.e| < 1
  perigee : sConst < x.a * (1 - |x.e|)

theorem above_good {x : Orb} (h : Above x) : Good x := by
  have he := abs_lt.1 h.e
  have h1 : 0 < 1 - |x.e| := by linarith [h.e]
  have hs := sConst_pos
  have ha : 0 < x.a := by
    by_contra hc
    have := mul_nonneg (by linarith : (0:ℝ) ≤ -x.a) h1.le
    linarith [h.perigee]
  have hb : betao2 x = (1 - |x.e|) * (1 + |x.e|) := by
    unfold betao2 eosq; rw [← abs_mul_abs_self x.e]; ring
  have h2 : 0 < 1 + |x.e| := by linarith [abs_nonneg x.e]
  have hb0 : 0 < betao2 x := by rw [hb]; positivity
  have hpo : sConst * (1 + |x.e|) < po x := by
    unfold po; rw [hb]; linarith [mul_lt_mul_of_pos_right h.perigee h2]
  have hps : 0 < po x - sConst := by nlinarith [mul_nonneg hs.le (abs_nonneg x.e)]
  refine ⟨ha, h.n, hb0.ne', hps, ?_⟩
  have hη : |eta x| < 1 := by
    unfold eta tsi
    rw [abs_mul, abs_mul, abs_of_pos hs, abs_of_pos (one_div_pos.2 hps), mul_one_div, div_lt_one hps]
    linarith
  unfold eta2
  nlinarith [abs_lt.1 hη]

theorem axisFor_deriv {μ : ℝ} (hμ : 0 < μ) {n : ℝ → ℝ} {t n' : ℝ} (hn : 0 < n t) (h : HasDerivAt n n' t) :
    HasDerivAt (fun t => axisFor μ (n t)) (-2 * (1 / 3 * (n' / n t)) * axisFor μ (n t)) t := by
  have hp : 0 < μ / n t ^ 2 := by positivity
  have h1 := ((h.pow 2).inv (by positivity : n t ^ 2 ≠ 0)).const_mul μ
  have h2 := h1.rpow_const (p := 1 / 3) (Or.inl (by simpa [div_eq_mul_inv] using hp.ne'))
  have h3 : HasDerivAt (fun t => axisFor μ (n t)) _ t := h2.congr_of_eventuallyEq (.of_forall fun s => by
    simp [axisFor, div_eq_mul_inv])
  refine h3.congr_deriv ?_
  unfold axisFor
  have e1 : μ * (n ^ 2)⁻¹ t = μ / n t ^ 2 := by simp [div_eq_mul_inv]
  rw [e1, Real.rpow_sub hp, Real.rpow_one]
  generalize (μ / n t ^ 2) ^ (1 / 3 : ℝ) = A
  simp only [Pi.pow_apply]
  field_simp
  norm_num
  ring

theorem follows_of {k : Fixed} {μ : ℝ} (hμ : 0 < μ) {n e g : ℝ → ℝ} {t : ℝ} (hn : 0 < n t)
    (h : DecaysBy μ (rate8N k) (rate8E k) (rate8G k) n e g t) : Follows k (orbAt μ n e g) t where
  n := h.dn
  e := h.de
  g := h.dg
  a := (axisFor_deriv hμ hn h.dn).congr_deriv (by
    show _ = -2 * d20 k (orbAt μ n e g t) * axisFor μ (n t)
    unfold d20 xndtn
    show -2 * (1 / 3 * (xndt k (orbAt μ n e g t) / n t)) * _ = -2 * (2 / 3 * (1 / 2) * (xndt k (orbAt μ n e g t) / n t)) * _
    ring)

/-- The perigee stays above the level for a while. -/
theorem above_near {k : Fixed} {μ : ℝ} (hμ : 0 < μ) {n e g : ℝ → ℝ} {t : ℝ} (h : DecaysBy μ (rate8N k) (rate8E k) (rate8G k) n e g t)
    (hx : Above (orbAt μ n e g t)) : ∀ᶠ s in 𝓝 t, Above (orbAt μ n e g s) := by
  have cn := h.dn.continuousAt
  have ce := h.de.continuousAt
  have ca := (axisFor_deriv hμ hx.n h.dn).continuousAt
  have c1 := cn.eventually (lt_mem_nhds hx.n)
  have c2 := (ce.abs).eventually (gt_mem_nhds hx.e)
  have c3 := (ca.mul (continuousAt_const.sub ce.abs)).eventually (lt_mem_nhds hx.perigee)
  filter_upwards [c1, c2, c3] with s h1 h2 h3
  exact ⟨h1, h2, h3⟩

/-- The second derivatives. -/
theorem C146_second {k : Fixed} {μ : ℝ} (hμ : 0 < μ) {n e g : ℝ → ℝ} {t : ℝ} (h : Decays8 k μ n e g t) (hx : Above (orbAt μ n e g t)) :
    iteratedDeriv 2 n t = xnddt k (orbAt μ n e g t) ∧ iteratedDeriv 2 e t = eddot k (orbAt μ n e g t) := by
  have hf := follows_of hμ hx.n h.self_of_nhds
  have hg := above_good hx
  rw [iteratedDeriv_succ, iteratedDeriv_one, iteratedDeriv_succ, iteratedDeriv_one]
  constructor
  · have : deriv n =ᶠ[𝓝 t] fun s => xndt k (orbAt μ n e g s) := h.mono fun s hs => hs.dn.deriv
    rw [this.deriv_eq]
    exact (D_xndt hf hg).deriv
  · have : deriv e =ᶠ[𝓝 t] fun s => edot k (orbAt μ n e g s) := h.mono fun s hs => hs.de.deriv
    rw [this.deriv_eq]
    exact (D_edot hf hg).deriv

/-- The third derivative of the mean motion, on an orbit that is not circular. -/
theorem C146_third {k : Fixed} {μ : ℝ} (hμ : 0 < μ) {n e g : ℝ → ℝ} {t : ℝ} (h : Decays8 k μ n e g t) (hx : Above (orbAt μ n e g t))
    (he : e t ≠ 0) : iteratedDeriv 3 n t = xntrdt k (orbAt μ n e g t) := by
  have hf := follows_of hμ hx.n h.self_of_nhds
  have hg := above_good hx
  have hη : eta (orbAt μ n e g t) ≠ 0 := by
    unfold eta tsi
    have := hg.ps
    have := sConst_pos
    have he' : (orbAt μ n e g t).e ≠ 0 := he
    positivity
  rw [iteratedDeriv_succ]
  have : iteratedDeriv 2 n =ᶠ[𝓝 t] fun s => xnddt k (orbAt μ n e g s) := by
    filter_upwards [h.eventually_nhds, above_near hμ h.self_of_nhds hx] with s h1 h2
    exact (C146_second hμ h1 h2).1
  rw [this.deriv_eq]
  exact (D_xnddt hf hg hη).deriv

/-! ### There is such a decay -/

section
variable {k : Fixed} {μ : ℝ} {p : ℝ × ℝ × ℝ}

/-- The orbit for mean motion, eccentricity and perigee. -/
noncomputable def orbFor (μ : ℝ) (p : ℝ × ℝ × ℝ) : Orb := ⟨axisFor μ p.1, p.1, p.2.1, p.2.2⟩

theorem smooth_axis (hμ : 0 < μ) (hn : 0 < p.1) : ContDiffAt ℝ 1 (fun p : ℝ × ℝ × ℝ => axisFor μ p.1) p := by
  unfold axisFor
  refine ContDiffAt.rpow_const_of_ne ?_ (by positivity)
  exact contDiffAt_const.div (by fun_prop) (by positivity)

theorem smooth_field (hμ : 0 < μ) (hx : Above (orbFor μ p)) :
    ContDiffAt ℝ 1 (fun p : ℝ × ℝ × ℝ => (xndt k (orbFor μ p), edot k (orbFor μ p), xgdt1 k (orbFor μ p))) p := by
  have hg := above_good hx
  have ca : ContDiffAt ℝ 1 (fun p : ℝ × ℝ × ℝ => (orbFor μ p).a) p := smooth_axis hμ hx.n
  have cn : ContDiffAt ℝ 1 (fun p : ℝ × ℝ × ℝ => (orbFor μ p).n) p := contDiffAt_fst
  have ce : ContDiffAt ℝ 1 (fun p : ℝ × ℝ × ℝ => (orbFor μ p).e) p := by unfold orbFor; fun_prop
  have cg : ContDiffAt ℝ 1 (fun p : ℝ × ℝ × ℝ => (orbFor μ p).g) p := by unfold orbFor; fun_prop
  have w1 : ContDiffAt ℝ 1 (fun p => eosq (orbFor μ p)) p := ce.mul ce
  have w2 : ContDiffAt ℝ 1 (fun p => betao2 (orbFor μ p)) p := contDiffAt_const.sub w1
  have w3 : ContDiffAt ℝ 1 (fun p => po (orbFor μ p)) p := ca.mul w2
  have w4 : ContDiffAt ℝ 1 (fun p => tsi (orbFor μ p)) p := contDiffAt_const.div (w3.sub contDiffAt_const) hg.ps.ne'
  have w5 : ContDiffAt ℝ 1 (fun p => eta (orbFor μ p)) p := (ce.mul contDiffAt_const).mul w4
  have w6 : ContDiffAt ℝ 1 (fun p => eta2 (orbFor μ p)) p := w5.mul w5
  have w7 : ContDiffAt ℝ 1 (fun p => psim2 (orbFor μ p)) p := by
    have h1 : (1 : ℝ) - eta2 (orbFor μ p) ≠ 0 := by have := hg.eta; intro h0; linarith
    refine (contDiffAt_const (c := (1:ℝ)).div (contDiffAt_const.sub w6) h1).congr_of_eventuallyEq ?_
    filter_upwards [w6.continuousAt.eventually (gt_mem_nhds hg.eta)] with q hq
    exact psim2_eq hq
  have hpp : psim2 (orbFor μ p) ≠ 0 := by
    rw [psim2_eq hg.eta]; exact (one_div_pos.2 (by linarith [hg.eta])).ne'
  have w8 : ContDiffAt ℝ 1 (fun p => alpha2 (orbFor μ p)) p := w1.add contDiffAt_const
  have w9 : ContDiffAt ℝ 1 (fun p => eeta (orbFor μ p)) p := ce.mul w5
  have w10 : ContDiffAt ℝ 1 (fun p => Real.sin (orbFor μ p).g) p := Real.contDiff_sin.contDiffAt.comp p cg
  have w11' : ContDiffAt ℝ 1 (fun p => Real.cos (orbFor μ p).g) p := Real.contDiff_cos.contDiffAt.comp p cg
  have w11 : ContDiffAt ℝ 1 (fun p => cos2g (orbFor μ p)) p := ((w11'.mul w11').mul contDiffAt_const).sub contDiffAt_const
  have w12 : ContDiffAt ℝ 1 (fun p => d5 (orbFor μ p)) p := w4.mul w7
  have w13 : ContDiffAt ℝ 1 (fun p => d1 (orbFor μ p)) p := w12.div w3 hg.po
  have cc0 : ContDiffAt ℝ 1 (fun p => c0 k (orbFor μ p)) p := by
    unfold c0
    refine ContDiffAt.div ?_ (w8.sqrt (alpha_pos _).ne') (Real.sqrt_pos.2 (alpha_pos _)).ne'
    exact (((contDiffAt_const.mul cn).mul ca).mul ((w4.mul w4).mul (w4.mul w4))).mul (w7.rpow_const_of_ne hpp)
  have cc1 : ContDiffAt ℝ 1 (fun p => Sgp8.c1 k (orbFor μ p)) p := ((cn.mul contDiffAt_const).mul (w8.mul w8)).mul cc0
  refine ContDiffAt.prodMk ?_ (ContDiffAt.prodMk ?_ ?_)
  · unfold xndt Sgp8.c4 Sgp8.c5 d2 d3 d4
    fun_prop
  · unfold edot Sgp8.c8 Sgp8.c9 d6 d7 d8
    fun_prop
  · unfold xgdt1
    have : ContDiffAt ℝ 1 (fun p => 1 / (po (orbFor μ p) * po (orbFor μ p))) p := contDiffAt_const.div (w3.mul w3) (mul_ne_zero hg.po hg.po)
    fun_prop

/-- Every orbit above the level starts a decay. -/
theorem C146_exists (k : Fixed) (hμ : 0 < μ) {n0 e0 g0 : ℝ} (hx : Above ⟨axisFor μ n0, n0, e0, g0⟩) :
    ∃ n e g : ℝ → ℝ, n 0 = n0 ∧ e 0 = e0 ∧ g 0 = g0 ∧ Decays8 k μ n e g 0 := by
  obtain ⟨α, h0, ε, hε, hα⟩ :=
    (smooth_field (k := k) (p := (n0, e0, g0)) hμ hx).exists_forall_mem_closedBall_exists_eq_forall_mem_Ioo_hasDerivAt₀ 0
  refine ⟨fun t => (α t).1, fun t => (α t).2.1, fun t => (α t).2.2, by simp [h0], by simp [h0], by simp [h0], ?_⟩
  filter_upwards [Ioo_mem_nhds (show 0 - ε < 0 by linarith) (show 0 < 0 + ε by linarith)] with t ht
  have := hα t ht
  exact ⟨this.fst, this.snd.fst, this.snd.snd⟩

/-- An orbit of eccentricity 1/10 at twice the Earth's radius. -/
example (k : Fixed) : ∃ n e g : ℝ → ℝ, n 0 = 1 ∧ e 0 = 1 / 10 ∧ Decays8 k 8 n e g 0 ∧
    iteratedDeriv 2 n 0 = xnddt k ⟨2, 1, 1 / 10, 3⟩ ∧ iteratedDeriv 3 n 0 = xntrdt k ⟨2, 1, 1 / 10, 3⟩ := by
  have ha : axisFor 8 1 = 2 := by
    unfold axisFor
    rw [show (8 : ℝ) / 1 ^ 2 = 2 ^ (3 : ℝ) by norm_num, ← Real.rpow_mul (by norm_num)]
    norm_num
  have hx : Above ⟨axisFor 8 1, 1, 1 / 10, 3⟩ := by
    refine ⟨by norm_num, by norm_num [abs_of_pos], ?_⟩
    rw [ha]
    unfold sConst earthRadius
    norm_num [abs_of_pos]
  obtain ⟨n, e, g, hn, he, hg, hd⟩ := C146_exists k (by norm_num : (0:ℝ) < 8) hx
  have ho : orbAt 8 n e g 0 = ⟨2, 1, 1 / 10, 3⟩ := by unfold orbAt; rw [hn, he, hg, ha]
  have hx' : Above (orbAt 8 n e g 0) := by rw [ho, ← ha]; exact hx
  refine ⟨n, e, g, hn, he, hd, ?_, ?_⟩
  · rw [(C146_second (by norm_num) hd hx').1, ho]
  · rw [C146_third (by norm_num) hd hx' (by rw [he]; norm_num), ho]

end

/-! ### The fitted laws -/

/-- The laws for the mean motion and the eccentricity that the parameters stand for. -/
noncomputable def lawN (l : Law) (n0 t : ℝ) : ℝ := n0 + l.xnd * (1 - (1 - l.gamma * t) ^ l.pp)
noncomputable def lawE (l : Law) (e0 t : ℝ) : ℝ := e0 + l.ed * (1 - (1 - l.gamma * t) ^ l.qq)

theorem pow_deriv (γ q : ℝ) {t : ℝ} (h : 0 < 1 - γ * t) : HasDerivAt (fun t => (1 - γ * t) ^ q) (-(γ * q) * (1 - γ * t) ^ (q - 1)) t := by
  have h1 := (((hasDerivAt_id t).const_mul γ).const_sub 1).rpow_const (p := q) (Or.inl h.ne')
  exact h1.congr_deriv (by simp only [id]; ring)

theorem near_zero (γ : ℝ) : ∀ᶠ t in 𝓝 (0 : ℝ), 0 < 1 - γ * t := by
  have : ContinuousAt (fun t => 1 - γ * t) (0 : ℝ) := by fun_prop
  exact this.eventually (lt_mem_nhds (by simp))

/-- The derivatives of `c (1 - (1 - γ t) ^ q)` at the epoch. -/
theorem fit_one (x0 c γ q : ℝ) : ∀ᶠ t in 𝓝 (0 : ℝ), iteratedDeriv 1 (fun t => x0 + c * (1 - (1 - γ * t) ^ q)) t = c * γ * q * (1 - γ * t) ^ (q - 1) := by
  filter_upwards [near_zero γ] with t ht
  rw [iteratedDeriv_one]
  exact (((((pow_deriv γ q ht).const_sub 1).const_mul c).const_add x0).deriv).trans (by ring)

theorem fit_two (x0 c γ q : ℝ) : ∀ᶠ t in 𝓝 (0 : ℝ),
    iteratedDeriv 2 (fun t => x0 + c * (1 - (1 - γ * t) ^ q)) t = -(c * γ * q * (γ * (q - 1))) * (1 - γ * t) ^ (q - 2) := by
  filter_upwards [near_zero γ, (fit_one x0 c γ q).eventually_nhds] with t ht h1
  rw [iteratedDeriv_succ, (show iteratedDeriv 1 _ =ᶠ[𝓝 t] _ from h1).deriv_eq]
  refine (((pow_deriv γ (q - 1) ht).const_mul (c * γ * q)).deriv).trans ?_
  rw [show q - 1 - 1 = q - 2 by ring]; ring

theorem fit_three (x0 c γ q : ℝ) : iteratedDeriv 3 (fun t => x0 + c * (1 - (1 - γ * t) ^ q)) 0 = c * γ * q * (γ * (q - 1)) * (γ * (q - 2)) := by
  rw [iteratedDeriv_succ, (show iteratedDeriv 2 _ =ᶠ[𝓝 (0 : ℝ)] _ from fit_two x0 c γ q).deriv_eq]
  refine (((pow_deriv γ (q - 2) (t := 0) (by simp)).const_mul (-(c * γ * q * (γ * (q - 1))))).deriv).trans ?_
  simp only [mul_zero, sub_zero, Real.one_rpow]; ring

/-- The parameters of the laws from the derivatives. -/
theorem law_fits {n1 n2 n3 e1 e2 : ℝ} {l : Law} (h : lawOf n1 n2 n3 e1 e2 = some l) :
    l.xnd * l.gamma * l.pp = n1 ∧ -(l.gamma * (l.pp - 1)) * n1 = n2 ∧ l.gamma * (l.pp - 1) * (l.gamma * (l.pp - 2)) * n1 = n3 ∧
      l.ed * l.gamma * l.qq = e1 ∧ -(l.gamma * (l.qq - 1)) * e1 = e2 ∧ l.ovgpp * (l.gamma * (l.pp + 1)) = 1 := by
  unfold lawOf at h
  dsimp only at h
  split_ifs at h with hc
  push Not at hc
  obtain ⟨t0, t1, t2, t3, t4, t5⟩ := hc
  injection h with h
  subst h
  dsimp only
  set T := n2 * 10 ^ 9 * (n2 * 10 ^ 9) - n1 * 10 ^ 18 * n3 with hT
  have hp1 : (T + n2 * 10 ^ 9 * (n2 * 10 ^ 9)) / T - 1 = n2 * 10 ^ 9 * (n2 * 10 ^ 9) / T := by field_simp; ring
  have hp2 : (T + n2 * 10 ^ 9 * (n2 * 10 ^ 9)) / T - 2 = n1 * 10 ^ 18 * n3 / T := by field_simp; rw [hT]; ring
  rw [hp2] at t1 t2 t3 t4 t5
  have hn2 : n2 ≠ 0 := left_ne_zero_of_mul t1
  have h13 : n1 * 10 ^ 18 * n3 ≠ 0 := fun h0 => t1 (by rw [h0]; simp)
  have hn1 : n1 ≠ 0 := left_ne_zero_of_mul (left_ne_zero_of_mul h13)
  have hn3 : n3 ≠ 0 := right_ne_zero_of_mul h13
  have he1 : e1 ≠ 0 := left_ne_zero_of_mul t3
  have hγ : -n3 / (n2 * ((T + n2 * 10 ^ 9 * (n2 * 10 ^ 9)) / T - 2)) = -T / (n1 * n2 * 10 ^ 18) := by rw [hp2]; field_simp
  rw [hp2] at hγ
  rw [hγ] at t2 t3 t4 t5
  rw [hp2, hp1, hγ]
  set γ := -T / (n1 * n2 * 10 ^ 18) with hγd
  have hγ0 : γ ≠ 0 := right_ne_zero_of_mul t2
  have hg : γ * (n2 * 10 ^ 9 * (n2 * 10 ^ 9) / T) = -(n2 / n1) := by rw [hγd]; field_simp
  have hg2 : γ * (n1 * 10 ^ 18 * n3 / T) = -(n3 / n2) := by rw [hγd]; field_simp
  refine ⟨?_, ?_, ?_, ?_, ?_, ?_⟩
  · rw [div_mul_eq_mul_div, div_mul_eq_mul_div, div_eq_iff t2]; ring
  · rw [hg]; field_simp
  · rw [hg, hg2]; field_simp
  · rw [div_mul_eq_mul_div, div_mul_eq_mul_div, div_eq_iff t4]; ring
  · field_simp; ring
  · exact one_div_mul_cancel t5

/-- Derivatives 1, -1, 3 of the mean motion and -1, 1 of the eccentricity. -/
example : lawOf 1 (-1) 3 (-1) 1 = some ⟨1 / 2, -2, -1, 1 / 2, 1, -(1 / 3)⟩ := by
  unfold lawOf
  norm_num

/-- The parameters after a successful initialisation with strong drag. -/
theorem init_law {e : Elem} {p : Par8} {l : Law} (hi : SGP8_init e = some p) (hl : p.law = some l) :
    p.xnodp = (orbOf e).n ∧ lawOf (xndt (fixedOf e) (orbOf e)) (xnddt (fixedOf e) (orbOf e)) (xntrdt (fixedOf e) (orbOf e)) (edot (fixedOf e) (orbOf e))
      (eddot (fixedOf e) (orbOf e)) = some l ∧ (orbOf e).e ≠ 0 := by
  unfold SGP8_init at hi
  dsimp only at hi
  split_ifs at hi with h1 h2
  · rw [Option.map_eq_some_iff] at hi
    obtain ⟨l', hl', hp⟩ := hi
    subst hp
    simp only [Option.some.injEq] at hl
    subst hl
    refine ⟨rfl, hl', fun h0 => h2 ?_⟩
    unfold eta2 eta
    rw [h0]; simp
  · simp only [Option.some.injEq] at hi
    subst hi
    simp at hl

/-- The strength of the field that belongs to the recovered mean motion and axis. -/
noncomputable def fieldOf (e : Elem) : ℝ := (orbOf e).a ^ 3 * (orbOf e).n ^ 2

theorem axisFor_self {a n : ℝ} (ha : 0 < a) (hn : 0 < n) : axisFor (a ^ 3 * n ^ 2) n = a := by
  unfold axisFor
  rw [mul_div_cancel_right₀ _ (by positivity), ← Real.rpow_natCast, ← Real.rpow_mul ha.le]
  norm_num

/-- The laws have the derivatives of the decay: the mean motion three, the eccentricity two. -/
theorem C147_derivatives {e : Elem} {p : Par8} {l : Law} (hi : SGP8_init e = some p) (hl : p.law = some l) (hx : Above (orbOf e))
    {n ecc g : ℝ → ℝ} (h : Decays8 (fixedOf e) (fieldOf e) n ecc g 0) (hn0 : n 0 = p.xnodp) (he0 : ecc 0 = e.eo) (hg0 : g 0 = e.omegao) :
    (∀ j ≤ 3, iteratedDeriv j (lawN l p.xnodp) 0 = iteratedDeriv j n 0) ∧ ∀ j ≤ 2, iteratedDeriv j (lawE l e.eo) 0 = iteratedDeriv j ecc 0 := by
  obtain ⟨hp, hl, hne⟩ := init_law hi hl
  obtain ⟨f1, f2, f3, f4, f5, -⟩ := law_fits hl
  have ha := (above_good hx).a
  have hμ : 0 < fieldOf e := by have := hx.n; unfold fieldOf; positivity
  have horb : orbAt (fieldOf e) n ecc g 0 = orbOf e := by
    unfold orbAt
    rw [hn0, he0, hg0, hp, fieldOf, axisFor_self ha hx.n]
    rfl
  have hx' : Above (orbAt (fieldOf e) n ecc g 0) := by rw [horb]; exact hx
  have h2 := C146_second hμ h hx'
  have h3 := C146_third hμ h hx' (by rw [he0]; exact hne)
  rw [horb] at h2 h3
  have d1 : iteratedDeriv 1 n 0 = xndt (fixedOf e) (orbOf e) := by
    rw [iteratedDeriv_one, ← horb]; exact h.self_of_nhds.dn.deriv
  have d2 : iteratedDeriv 1 ecc 0 = edot (fixedOf e) (orbOf e) := by
    rw [iteratedDeriv_one, ← horb]; exact h.self_of_nhds.de.deriv
  refine ⟨fun j hj => ?_, fun j hj => ?_⟩
  · interval_cases j
    · simp [lawN, hn0]
    · rw [d1, ← f1]
      refine (fit_one p.xnodp l.xnd l.gamma l.pp).self_of_nhds.trans ?_
      simp
    · rw [h2.1]
      refine (fit_two p.xnodp l.xnd l.gamma l.pp).self_of_nhds.trans ?_
      rw [f1, ← f2]; simp; ring
    · rw [h3]
      refine (fit_three p.xnodp l.xnd l.gamma l.pp).trans ?_
      rw [f1, ← f3]; ring
  · interval_cases j
    · simp [lawE, he0]
    · rw [d2, ← f4]
      refine (fit_one e.eo l.ed l.gamma l.qq).self_of_nhds.trans ?_
      simp
    · rw [h2.2]
      refine (fit_two e.eo l.ed l.gamma l.qq).self_of_nhds.trans ?_
      rw [f4, ← f5]; simp; ring

/-- What the program takes from the laws at the time `t`; the third component is the mean anomaly gained by the change of the mean motion. -/
theorem C147_integral {e : Elem} {p : Par8} {l : Law} (hi : SGP8_init e = some p) (hl : p.law = some l) {t : ℝ} (ht : l.gamma * t < 1) :
    decay8 p e.eo t = some (lawN l p.xnodp t, lawE l e.eo t, ∫ s in (0)..t, (lawN l p.xnodp s - p.xnodp)) := by
  obtain ⟨f1, f2, f3, f4, f5, f6⟩ := law_fits (init_law hi hl).2.1
  have hpos : ∀ s ∈ Set.uIcc 0 t, 0 < 1 - l.gamma * s := by
    intro s hs
    rcases Set.mem_uIcc.1 hs with ⟨h1, h2⟩ | ⟨h1, h2⟩ <;> rcases le_total 0 l.gamma with hγ | hγ <;> nlinarith
  have hd : ∀ s ∈ Set.uIcc 0 t, HasDerivAt (fun s => l.xnd * (s + l.ovgpp * ((1 - l.gamma * s) ^ (l.pp + 1) - 1))) (lawN l p.xnodp s - p.xnodp) s := by
    intro s hs
    have h1 := ((hasDerivAt_id s).add (((pow_deriv l.gamma (l.pp + 1) (hpos s hs)).sub_const 1).const_mul l.ovgpp)).const_mul l.xnd
    refine h1.congr_deriv ?_
    rw [show l.pp + 1 - 1 = l.pp by ring]
    unfold lawN
    linear_combination (-l.xnd * (1 - l.gamma * s) ^ l.pp) * f6
  have hint : IntervalIntegrable (fun s => lawN l p.xnodp s - p.xnodp) MeasureTheory.volume 0 t := by
    apply ContinuousOn.intervalIntegrable
    intro s hs
    have : ContinuousAt (fun s => (1 - l.gamma * s) ^ l.pp) s := (pow_deriv l.gamma l.pp (hpos s hs)).continuousAt
    unfold lawN
    exact (((continuousAt_const.add (continuousAt_const.mul (continuousAt_const.sub this)))).sub continuousAt_const).continuousWithinAt
  rw [intervalIntegral.integral_eq_sub_of_hasDerivAt hd hint]
  unfold decay8
  rw [hl]
  dsimp only
  have h1 : 0 < 1 - l.gamma * t := by linarith
  rw [if_neg (by linarith), Real.rpow_add h1, Real.rpow_one]
  simp only [mul_zero, sub_zero, Real.one_rpow, sub_self, add_zero, lawN, lawE]
  rw [mul_comm (1 - l.gamma * t)]

/-- With weak drag the mean motion and the eccentricity are linear in the time, the mean motion has its rate, and the perigee distance does not change
at the epoch. -/
theorem C147_simple {e : Elem} {p : Par8} (hi : SGP8_init e = some p) (hl : p.law = none) (hn : 0 < (orbOf e).n) (ha : 0 < (orbOf e).a) :
    (∀ t, decay8 p e.eo t = some (p.xnodp + p.xndt * t, e.eo + p.edot * t, ∫ s in (0)..t, (p.xnodp + p.xndt * s - p.xnodp))) ∧
      p.xnodp = (orbOf e).n ∧ p.xndt = xndt (fixedOf e) (orbOf e) ∧
      HasDerivAt (fun t => axisFor (fieldOf e) (p.xnodp + p.xndt * t) * (1 - (e.eo + p.edot * t))) 0 0 := by
  have hp : p.xnodp = (orbOf e).n ∧ p.xndt = xndt (fixedOf e) (orbOf e) ∧ p.edot = -(2 / 3) * xndtn (fixedOf e) (orbOf e) * (1 - e.eo) := by
    unfold SGP8_init at hi
    dsimp only at hi
    split_ifs at hi with h1 h2
    · rw [Option.map_eq_some_iff] at hi
      obtain ⟨l', hl', hp⟩ := hi
      subst hp
      simp at hl
    · simp only [Option.some.injEq] at hi
      subst hi
      exact ⟨rfl, rfl, rfl⟩
  obtain ⟨h1, h2, h3⟩ := hp
  refine ⟨fun t => ?_, h1, h2, ?_⟩
  · unfold decay8
    rw [hl]
    dsimp only
    have : ∀ s : ℝ, p.xnodp + p.xndt * s - p.xnodp = p.xndt * s := fun s => by ring
    simp only [this]
    rw [intervalIntegral.integral_const_mul, integral_id]
    congr 3
    ring
  · have hμ : 0 < fieldOf e := by unfold fieldOf; positivity
    have d1 : HasDerivAt (fun t => p.xnodp + p.xndt * t) p.xndt 0 := (((hasDerivAt_id (0 : ℝ)).const_mul p.xndt).const_add p.xnodp).congr_deriv (by ring)
    have d2 : HasDerivAt (fun t => 1 - (e.eo + p.edot * t)) (-p.edot) 0 :=
      ((((hasDerivAt_id (0 : ℝ)).const_mul p.edot).const_add e.eo).const_sub 1).congr_deriv (by ring)
    have d3 := axisFor_deriv hμ (n := fun t => p.xnodp + p.xndt * t) (t := 0) (by simp only [mul_zero, add_zero]; rw [h1]; exact hn) d1
    refine (d3.mul d2).congr_deriv ?_
    simp only [mul_zero, add_zero]
    rw [h3, h2, h1]
    unfold xndtn
    ring

end SatSky.Props
