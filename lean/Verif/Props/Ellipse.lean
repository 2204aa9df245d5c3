import Verif.Lemmas.KeplerEq
import Verif.Lemmas.ThirdLaw
import Verif.Props.SelectModel
import Verif.Spec.Sphere

/-! C90, C93-C96: Kepler's third law for the recovered elements, the orbit in its plane, the position and velocity vectors, the epoch, the
density parameters. -/

namespace SatSky.Props

open SatSky.Spec SatSky.Sxp SatSky.Kep

theorem third_g {x : ℝ} (hb : |x| ≤ 1 / 20) : 49 / 50 ≤ 1 - 1 / 3 * x - x ^ 2 - 134 / 81 * x ^ 3 := by
  obtain ⟨l, u⟩ := abs_le.mp hb
  have hx2 : x ^ 2 ≤ 1 / 400 := by nlinarith
  nlinarith [sq_nonneg x, mul_nonneg (sq_nonneg x) (show 0 ≤ 1 / 20 - x by linarith)]

theorem third_den {g x : ℝ} (hg2 : 24 / 25 ≤ g ^ 2) (hb : |x| ≤ 1 / 20) : 19 / 25 ≤ (g ^ 2 - x) ^ 3 * (g ^ 2 + x) ^ 2 := by
  obtain ⟨l, u⟩ := abs_le.mp hb
  generalize g ^ 2 = q at *
  have h1 : 91 / 100 ≤ q - x := by linarith
  have h2 : 919 / 1000 ≤ (q - x) * (q + x) := by nlinarith
  have h3 : 844 / 1000 ≤ ((q - x) * (q + x)) ^ 2 := by nlinarith
  have h4 : (q - x) ^ 3 * (q + x) ^ 2 = (q - x) * ((q - x) * (q + x)) ^ 2 := by ring
  rw [h4]
  nlinarith

/-- **C90**: the recovered mean motion and semimajor axis satisfy Kepler's third law `a³ n² = k_e²` up to 25 times the fourth power of the
first correction; for orbits with a semilatus rectum of at least one Earth radius the relative difference is below 2 · 10⁻¹⁰. -/
theorem C90_third_law (e : Elem) (hd : InDomain e) (hp : 1 / 5 ≤ a1 e * (1 - e.eo ^ 2)) :
    |(sxpall_common_init e).aodp ^ 3 * (sxpall_common_init e).xnodp ^ 2 / xke ^ 2 - 1| ≤ 25 * del1 e ^ 4 ∧
    (1 ≤ a1 e * (1 - e.eo ^ 2) →
      |(sxpall_common_init e).aodp ^ 3 * (sxpall_common_init e).xnodp ^ 2 / xke ^ 2 - 1| ≤ 2 / 10 ^ 10) := by
  have hb : |del1 e| ≤ 1 / 20 := le_trans (del1_bound hd (by norm_num) hp) ck2_small.1
  have main : |(sxpall_common_init e).aodp ^ 3 * (sxpall_common_init e).xnodp ^ 2 / xke ^ 2 - 1| ≤ 25 * del1 e ^ 4 := by
    have ha := a1_pos hd.1
    have hk := a1_kepler hd.1
    have hx0 := hd.1
    have hke : 0 < xke := by unfold xke; norm_num
    obtain ⟨hao, hdo⟩ := delo_bound hd.1 le_rfl hb
    obtain ⟨l, u⟩ := abs_le.mp hb
    obtain ⟨l0, u0⟩ := abs_le.mp hdo
    have ht := Third.third hb
    set x := del1 e with hx
    set g := 1 - 1 / 3 * x - x ^ 2 - 134 / 81 * x ^ 3 with hg
    have hx2 : x ^ 2 ≤ 1 / 400 := by nlinarith
    have hglow : 49 / 50 ≤ g := third_g hb
    have hg0 : 0 < g := by linarith
    have hg2 : 24 / 25 ≤ g ^ 2 := by nlinarith
    have hao' : ao e = a1 e * g := ao_eq e
    have hdelo : delo e = x / g ^ 2 := by
      unfold delo
      rw [hao', hx]
      unfold del1
      field_simp
    have hm : 0 < g ^ 2 - x := by linarith
    have hq : 0 < g ^ 2 + x := by linarith
    have hratio : (sxpall_common_init e).aodp ^ 3 * (sxpall_common_init e).xnodp ^ 2 / xke ^ 2 - 1
        = (g ^ 13 - (g ^ 2 - x) ^ 3 * (g ^ 2 + x) ^ 2) / ((g ^ 2 - x) ^ 3 * (g ^ 2 + x) ^ 2) := by
      simp only [sxpall_common_init]
      rw [hao', hdelo, ← hk]
      have e1 : 1 - x / g ^ 2 = (g ^ 2 - x) / g ^ 2 := by field_simp
      have e2 : 1 + x / g ^ 2 = (g ^ 2 + x) / g ^ 2 := by field_simp
      rw [e1, e2]
      field_simp
    have hden := third_den hg2 hb
    have hdpos : 0 < (g ^ 2 - x) ^ 3 * (g ^ 2 + x) ^ 2 := by linarith
    rw [hratio, abs_div, abs_of_pos hdpos, div_le_iff₀ hdpos]
    have h4 : 0 ≤ x ^ 4 := by positivity
    refine le_trans ht ?_
    have h5 := mul_le_mul_of_nonneg_left hden (show 0 ≤ 25 * x ^ 4 by positivity)
    linarith
  refine ⟨main, fun h1 => le_trans main ?_⟩
  have hb2 : |del1 e| ≤ 163 / 100000 := le_trans (del1_bound hd (by norm_num) h1) ck2_small.2
  have : del1 e ^ 4 ≤ (163 / 100000) ^ 4 := by
    rw [← abs_of_nonneg (show 0 ≤ del1 e ^ 4 by positivity), abs_pow]
    gcongr
  linarith [show 25 * (163 / 100000 : ℝ) ^ 4 ≤ 2 / 10 ^ 10 by norm_num]

/-- The correction is not zero: for a circular equatorial orbit with `n = k_e` it is `3 k_2`, i.e. 0.0016. -/
example : del1 (circular xke 48) = 3 * ck2 := by
  have : a1 (circular xke 48) = 1 := by
    have : xke ≠ 0 := by norm_num [xke]
    simp [a1, circular, div_self this]
  unfold del1
  rw [this]
  simp [tval, circular]
  ring

/-! ### The orbit in its plane -/

/-- **C93**: the distance and the argument of latitude computed from the eccentric longitude are a point of the ellipse with the semimajor
axis `a` and the eccentricity vector `(x, y)`, in polar coordinates: a true direction, a positive distance, and the equation of the
ellipse. -/
theorem C93_ellipse {a x y E : ℝ} (ha : 0 < a) (he : x ^ 2 + y ^ 2 < 1) :
    let (r, cosu, sinu) := shortPrelim a x y E
    0 < r ∧ cosu ^ 2 + sinu ^ 2 = 1 ∧ r * (1 + x * cosu + y * sinu) = a * (1 - (x ^ 2 + y ^ 2)) := by
  have hcs := Real.sin_sq_add_cos_sq E
  set c := Real.cos E with hc
  set s := Real.sin E with hs
  have hC : (x * c + y * s) ^ 2 ≤ x ^ 2 + y ^ 2 := by
    nlinarith [sq_nonneg (x * s - y * c)]
  have hw : 0 < 1 - (x * c + y * s) := by nlinarith
  have hb : 0 ≤ Real.sqrt (1 - (x * x + y * y)) := Real.sqrt_nonneg _
  have hb2 : Real.sqrt (1 - (x * x + y * y)) ^ 2 = 1 - (x * x + y * y) := Real.sq_sqrt (by nlinarith)
  unfold shortPrelim
  dsimp only
  rw [← hc, ← hs]
  set b := Real.sqrt (1 - (x * x + y * y)) with hbdef
  have hb1 : 0 < 1 + b := by linarith
  have haw : a / (a * (1 - (x * c + y * s))) = 1 / (1 - (x * c + y * s)) := by field_simp
  rw [haw]
  refine ⟨by positivity, ?_, ?_⟩
  · field_simp
    linear_combination ((1 + b) ^ 2 * (1 - (x ^ 2 + y ^ 2))) * hcs + (x * s - y * c) ^ 2 * hb2
  · field_simp
    ring

/-- The point of the orbit in its plane, axes toward the node and a quarter turn ahead. -/
noncomputable def inPlane (a x y E : ℝ) : ℝ × ℝ :=
  ((shortPrelim a x y E).1 * (shortPrelim a x y E).2.1, (shortPrelim a x y E).1 * (shortPrelim a x y E).2.2)

theorem inPlane_eq {a x y E : ℝ} (ha : 0 < a) (he : x ^ 2 + y ^ 2 < 1) :
    inPlane a x y E = (a * (Real.cos E - x + y * (es x y E / (1 + Real.sqrt (1 - (x * x + y * y))))),
      a * (Real.sin E - y - x * (es x y E / (1 + Real.sqrt (1 - (x * x + y * y)))))) := by
  have hr := C93_ellipse (E := E) ha he
  unfold inPlane es
  unfold shortPrelim at hr ⊢
  dsimp only at hr ⊢
  have hr0 := hr.1.ne'
  refine Prod.ext ?_ ?_
  · dsimp only
    rw [div_mul_eq_mul_div, mul_div_cancel₀ _ hr0]
  · dsimp only
    rw [div_mul_eq_mul_div, mul_div_cancel₀ _ hr0]

/-- The solution of Kepler's equation as a function of the mean longitude is differentiable. -/
theorem hasDerivAt_root {x y : ℝ} (he : x ^ 2 + y ^ 2 < 1) {R : ℝ → ℝ} (hR : ∀ l, KeplerEq x y l (R l)) (l : ℝ) :
    HasDerivAt R (1 - ec x y (R l))⁻¹ l := by
  set e := Real.sqrt (x ^ 2 + y ^ 2) with hdef
  have he0 : 0 ≤ e := Real.sqrt_nonneg _
  have hsq : e ^ 2 = x ^ 2 + y ^ 2 := Real.sq_sqrt (by positivity)
  have he1 : e < 1 := by nlinarith
  have hlip : ∀ l l', |R l' - R l| ≤ |l' - l| / (1 - e) := by
    intro l l'
    have h1 := near he0 he1 hsq.ge (l := l) (E := R l') ((keplerEq_iff x y l (R l)).mp (hR l))
    have h2 := (keplerEq_iff x y l' (R l')).mp (hR l')
    have h3 : keplerRes x y l (R l') = l - l' := by
      rw [res_eq] at h2 ⊢; linarith
    rwa [h3, abs_sub_comm l l'] at h1
  have hcont : ContinuousAt R l := by
    rw [Metric.continuousAt_iff]
    intro ε hε
    refine ⟨ε * (1 - e), by apply mul_pos hε; linarith, fun {l'} hl' => ?_⟩
    rw [Real.dist_eq] at hl' ⊢
    refine lt_of_le_of_lt (hlip l l') ?_
    rw [div_lt_iff₀ (by linarith)]
    exact hl'
  have hf : HasDerivAt (fun E => E - es x y E) (1 - ec x y (R l)) (R l) := (hasDerivAt_id _).sub (hasDerivAt_es x y _)
  have hne : 1 - ec x y (R l) ≠ 0 := by
    have := (abs_le.mp (abs_ec he0 hsq.ge (R l))).2
    intro h; linarith
  refine HasDerivAt.of_local_left_inverse hcont hf hne (Filter.Eventually.of_forall fun l' => ?_)
  have := (keplerEq_iff x y l' (R l')).mp (hR l')
  rw [res_eq] at this
  linarith

/-- **C93**, velocity: on the unperturbed orbit the computed radial and transverse velocities are the time derivative of the computed
position, when the mean longitude grows with the mean motion of Kepler's third law. -/
theorem C93_velocity {a n x y l0 : ℝ} (ha : 0 < a) (hn : 0 < n) (h3 : a ^ 3 * n ^ 2 = xke ^ 2) (he : x ^ 2 + y ^ 2 < 1)
    {R : ℝ → ℝ} (hR : ∀ l, KeplerEq x y l (R l)) (t : ℝ) :
    let E := R (l0 + n * t)
    let (_, cosu, sinu) := shortPrelim a x y E
    let (rdot, rfdot) := shortRates a x y E
    HasDerivAt (fun τ => (inPlane a x y (R (l0 + n * τ))).1) (rdot * cosu - rfdot * sinu) t ∧
    HasDerivAt (fun τ => (inPlane a x y (R (l0 + n * τ))).2) (rdot * sinu + rfdot * cosu) t := by
  have hr := C93_ellipse (E := R (l0 + n * t)) ha he
  have hlin : HasDerivAt (fun τ => l0 + n * τ) n t := by
    have := ((hasDerivAt_id t).const_mul n).const_add l0
    rwa [mul_one] at this
  have hE := (hasDerivAt_root he hR (l0 + n * t)).comp t hlin
  have hb2 : Real.sqrt (1 - (x * x + y * y)) ^ 2 = 1 - (x * x + y * y) := Real.sq_sqrt (by nlinarith)
  have hb : 0 ≤ Real.sqrt (1 - (x * x + y * y)) := Real.sqrt_nonneg _
  have hcs := Real.sin_sq_add_cos_sq (R (l0 + n * t))
  have hke : 0 < xke := by unfold xke; norm_num
  have hsa : 0 < Real.sqrt a := Real.sqrt_pos.mpr ha
  have hsa2 : Real.sqrt a ^ 2 = a := Real.sq_sqrt ha.le
  have hkn : xke = n * a * Real.sqrt a := by
    have h1 : xke ^ 2 = (n * a * Real.sqrt a) ^ 2 := by rw [mul_pow, hsa2, ← h3]; ring
    exact (pow_left_inj₀ hke.le (by positivity) (by norm_num)).mp h1
  have hpl : Real.sqrt (a * (1 - (x * x + y * y))) = Real.sqrt a * Real.sqrt (1 - (x * x + y * y)) := Real.sqrt_mul ha.le _
  have d1 : HasDerivAt (fun τ => (inPlane a x y (R (l0 + n * τ))).1)
      (a * (-Real.sin (R (l0 + n * t)) * ((1 - ec x y (R (l0 + n * t)))⁻¹ * n)
        + y * (ec x y (R (l0 + n * t)) * ((1 - ec x y (R (l0 + n * t)))⁻¹ * n) / (1 + Real.sqrt (1 - (x * x + y * y)))))) t := by
    have e1 : (fun τ => (inPlane a x y (R (l0 + n * τ))).1) = fun τ => a * (Real.cos ((R ∘ fun τ => l0 + n * τ) τ) - x
        + y * (es x y ((R ∘ fun τ => l0 + n * τ) τ) / (1 + Real.sqrt (1 - (x * x + y * y))))) := by
      funext τ; rw [inPlane_eq ha he]; rfl
    rw [e1]
    exact ((((Real.hasDerivAt_cos _).comp t hE).sub_const x).add
      ((((hasDerivAt_es x y _).comp t hE).div_const _).const_mul y)).const_mul a
  have d2 : HasDerivAt (fun τ => (inPlane a x y (R (l0 + n * τ))).2)
      (a * (Real.cos (R (l0 + n * t)) * ((1 - ec x y (R (l0 + n * t)))⁻¹ * n)
        - x * (ec x y (R (l0 + n * t)) * ((1 - ec x y (R (l0 + n * t)))⁻¹ * n) / (1 + Real.sqrt (1 - (x * x + y * y)))))) t := by
    have e1 : (fun τ => (inPlane a x y (R (l0 + n * τ))).2) = fun τ => a * (Real.sin ((R ∘ fun τ => l0 + n * τ) τ) - y
        - x * (es x y ((R ∘ fun τ => l0 + n * τ) τ) / (1 + Real.sqrt (1 - (x * x + y * y))))) := by
      funext τ; rw [inPlane_eq ha he]; rfl
    rw [e1]
    exact ((((Real.hasDerivAt_sin _).comp t hE).sub_const y).sub
      ((((hasDerivAt_es x y _).comp t hE).div_const _).const_mul x)).const_mul a
  unfold shortRates
  unfold shortPrelim at hr ⊢
  dsimp only at hr ⊢
  obtain ⟨hrpos, -, -⟩ := hr
  rw [hpl, hkn]
  unfold ec at d1 d2
  set E := R (l0 + n * t) with hEdef
  set c := Real.cos E with hc
  set s := Real.sin E with hs
  set b := Real.sqrt (1 - (x * x + y * y)) with hbdef
  set q := Real.sqrt a with hqdef
  have hw : 0 < 1 - (x * c + y * s) := by
    by_contra hcon
    push Not at hcon
    nlinarith
  have hb1 : 0 < 1 + b := by linarith
  constructor
  · convert d1 using 1
    field_simp
    have hw' : 1 - (x * c + s * y) ≠ 0 := by rw [mul_comm s y]; exact hw.ne'
    rw [hsa2, div_eq_div_iff (pow_ne_zero 2 hw') hw']
    linear_combination (a * (1 - (x * c + s * y)) * (y * (x ^ 2 + y ^ 2) - (1 + b) * y)) * hcs
      + (a * (1 - (x * c + s * y)) * (y - s)) * hb2
  · convert d2 using 1
    field_simp
    have hw' : 1 - (x * c + s * y) ≠ 0 := by rw [mul_comm s y]; exact hw.ne'
    rw [hsa2, div_eq_div_iff (pow_ne_zero 2 hw') hw']
    linear_combination (a * (1 - (x * c + s * y)) * ((1 + b) * x - x * (x ^ 2 + y ^ 2))) * hcs
      + (a * (1 - (x * c + s * y)) * (c - x)) * hb2

end SatSky.Props
