import Verif.Props.HighBodies
import Verif.Spec.Newton
import Verif.Lemmas.RungeKutta
import Mathlib.Analysis.SpecialFunctions.Sqrt
import Mathlib.Analysis.SpecialFunctions.Trigonometric.Deriv
import Mathlib.Analysis.Calculus.Deriv.Prod
import Mathlib.Analysis.ODE.ExistUnique

/-! C119: the integration for elements of type 'H' follows Newton's law to the fourth order. -/

namespace SatSky.Props

open Real SatSky.Spec SatSky.High SatSky.RK Asymptotics Filter Topology

/-- The positions of the Moon and of the Sun at a date, from the distances, longitudes and latitudes of C116, C117. -/
noncomputable def moonAt (jd : ℝ) : Fin 3 → ℝ := polar (lunarR (tCen jd)) (lunarLon (tCen jd)) (lunarLat (tCen jd))
@[inherit_doc moonAt] noncomputable def sunAt (jd : ℝ) : Fin 3 → ℝ := polar (solarR (tCen jd)) (solarLon (tCen jd)) 0

theorem norm3_polar {r lon lat : ℝ} (h : 0 ≤ r) : norm3 (polar r lon lat) = r := by
  have : ∑ i, polar r lon lat i ^ 2 = r ^ 2 := by
    rw [Fin.sum_univ_three]
    change (r * (cos lat * cos lon)) ^ 2 + (r * (cos lat * sin lon)) ^ 2 + (r * sin lat) ^ 2 = r ^ 2
    linear_combination r ^ 2 * cos lat ^ 2 * sin_sq_add_cos_sq lon + r ^ 2 * sin_sq_add_cos_sq lat
  unfold norm3
  rw [this, sqrt_sq h]

theorem lunarR_pos (t : ℝ) : 0 < lunarR t := by
  unfold lunarR
  dsimp only
  linarith [cos_le_one (mPrime t), cos_le_one (2 * lunarMeanElong t - mPrime t), cos_le_one (2 * lunarMeanElong t), cos_le_one (2 * mSolar t)]

theorem solarR_pos (t : ℝ) : 0 < solarR t := by
  unfold solarR
  linarith [cos_le_one (mSolar t)]

theorem vectorLen_eq (v : Vec 3) : vectorLen v = norm3 v := by
  unfold vectorLen norm3
  rw [Fin.sum_univ_three]
  congr 1
  ring

theorem addBody_eq (gm : ℝ) (o : Vec 4) (pos acc : Vec 3) (h : o 3 = norm3 ![o 0, o 1, o 2]) :
    addBody gm o pos acc = acc + (pull gm ![o 0, o 1, o 2] pos - pull gm ![o 0, o 1, o 2] 0) := by
  have hd : (![o 0 - pos 0, o 1 - pos 1, o 2 - pos 2] : Vec 3) = ![o 0, o 1, o 2] - pos := by
    ext i; fin_cases i <;> rfl
  unfold addBody pull
  dsimp only
  rw [vectorLen_eq, hd, sub_zero, ← h]
  generalize norm3 (![o 0, o 1, o 2] - pos) = d
  rw [← hd]
  ext i
  fin_cases i <;> simp <;> ring

theorem accel_eq (jd : ℝ) (x : Vec 3) : accelOf (lunarSolar jd).1 (lunarSolar jd).2 x = newton (moonAt jd) (sunAt jd) x := by
  have hm : (![(lunarSolar jd).1 0, (lunarSolar jd).1 1, (lunarSolar jd).1 2] : Vec 3) = moonAt jd := by
    unfold lunarSolar moonAt polar
    ext i
    fin_cases i <;> simp <;> ring
  have hs : (![(lunarSolar jd).2 0, (lunarSolar jd).2 1, (lunarSolar jd).2 2] : Vec 3) = sunAt jd := by
    unfold lunarSolar sunAt polar
    ext i
    fin_cases i <;> simp
  have h1 : (lunarSolar jd).1 3 = norm3 ![(lunarSolar jd).1 0, (lunarSolar jd).1 1, (lunarSolar jd).1 2] := by
    rw [hm]
    exact (norm3_polar (lunarR_pos _).le).symm
  have h2 : (lunarSolar jd).2 3 = norm3 ![(lunarSolar jd).2 0, (lunarSolar jd).2 1, (lunarSolar jd).2 2] := by
    rw [hs]
    exact (norm3_polar (solarR_pos _).le).symm
  unfold accelOf newton
  dsimp only
  rw [addBody_eq _ _ _ _ h1, addBody_eq _ _ _ _ h2, hm, hs]
  have e : (![-3.9860044e+14 / (vectorLen x * vectorLen x * vectorLen x) * x 0, -3.9860044e+14 / (vectorLen x * vectorLen x * vectorLen x) * x 1,
      -3.9860044e+14 / (vectorLen x * vectorLen x * vectorLen x) * x 2] : Vec 3) = pull 3.9860044e14 0 x := by
    unfold pull
    have hn : norm3 (0 - x) = vectorLen x := by
      rw [vectorLen_eq]; unfold norm3; simp
    rw [hn]
    ext i
    fin_cases i <;> simp <;> ring
  rw [e]
  abel

/-- C119, the law: the derivative computed for a date (with whatever the cache holds) is the velocity and the acceleration of Newton's law for that date. -/
theorem C119_law (s : Cache) (hs : CacheOk s) (jd : ℝ) (h : jd ≠ 0) (v : Vec 6) :
    fore (derivAt s jd v).2 = back v ∧ back (derivAt s jd v).2 = newton (moonAt jd) (sunAt jd) (fore v) := by
  obtain ⟨s', e, _⟩ := derivAt_ok hs h v
  rw [e]
  unfold fresh
  rw [accel_eq]
  constructor <;> (ext i; fin_cases i <;> rfl)

theorem norm3_pos {x : Fin 3 → ℝ} (h : x ≠ 0) : 0 < ∑ i, x i ^ 2 := by
  rw [Fin.sum_univ_three]
  by_contra hc
  push Not at hc
  apply h
  have h0 : x 0 ^ 2 = 0 := by nlinarith [sq_nonneg (x 0), sq_nonneg (x 1), sq_nonneg (x 2)]
  have h1 : x 1 ^ 2 = 0 := by nlinarith [sq_nonneg (x 0), sq_nonneg (x 1), sq_nonneg (x 2)]
  have h2 : x 2 ^ 2 = 0 := by nlinarith [sq_nonneg (x 0), sq_nonneg (x 1), sq_nonneg (x 2)]
  ext i
  fin_cases i
  · exact pow_eq_zero_iff (by norm_num) |>.mp h0
  · exact pow_eq_zero_iff (by norm_num) |>.mp h1
  · exact pow_eq_zero_iff (by norm_num) |>.mp h2

open scoped ContDiff

theorem pull_smooth {X : Type*} [NormedAddCommGroup X] [NormedSpace ℝ X] (gm : ℝ) {c x : X → Fin 3 → ℝ} {q : X} (hc : ContDiffAt ℝ ω c q) (hx : ContDiffAt ℝ ω x q)
    (h : c q - x q ≠ 0) : ContDiffAt ℝ ω (fun p => pull gm (c p) (x p)) q := by
  have hd : ContDiffAt ℝ ω (fun p => c p - x p) q := hc.sub hx
  have hn : ContDiffAt ℝ ω (fun p => norm3 (c p - x p)) q := by
    unfold norm3
    refine ContDiffAt.sqrt ?_ (norm3_pos h).ne'
    refine ContDiffAt.sum fun i _ => ?_
    exact ((contDiffAt_pi.mp hd) i).pow 2
  have hf : ContDiffAt ℝ ω (fun p => gm / norm3 (c p - x p) ^ 3) q :=
    contDiffAt_const.div (hn.pow 3) (pow_ne_zero 3 (sqrt_pos.mpr (norm3_pos h)).ne')
  exact hf.smul hd

theorem moonAt_smooth (jd : ℝ) : ContDiffAt ℝ ω moonAt jd := by
  have h1 : ContDiffAt ℝ ω (fun jd => lunarR (tCen jd)) jd := by unfold lunarR mPrime mSolar lunarMeanElong tCen; fun_prop
  have h2 : ContDiffAt ℝ ω (fun jd => lunarLon (tCen jd)) jd := by unfold lunarLon lPrime mPrime mSolar fArg lunarMeanElong tCen; fun_prop
  have h3 : ContDiffAt ℝ ω (fun jd => lunarLat (tCen jd)) jd := by unfold lunarLat mPrime fArg lunarMeanElong tCen; fun_prop
  refine contDiffAt_pi.mpr fun i => ?_
  fin_cases i
  · exact h1.mul (h3.cos.mul h2.cos)
  · exact h1.mul (h3.cos.mul h2.sin)
  · exact h1.mul h3.sin

theorem sunAt_smooth (jd : ℝ) : ContDiffAt ℝ ω sunAt jd := by
  have h1 : ContDiffAt ℝ ω (fun jd => solarR (tCen jd)) jd := by unfold solarR mSolar tCen; fun_prop
  have h2 : ContDiffAt ℝ ω (fun jd => solarLon (tCen jd)) jd := by unfold solarLon lSolar mSolar tCen; fun_prop
  refine contDiffAt_pi.mpr fun i => ?_
  fin_cases i
  · exact h1.mul (contDiffAt_const.mul h2.cos)
  · exact h1.mul (contDiffAt_const.mul h2.sin)
  · exact h1.mul contDiffAt_const

/-- The equations with the time as another variable (seconds after `jd`). -/
noncomputable def field (jd : ℝ) (q : ℝ × Vec 6) : ℝ × Vec 6 := (1, glue (back q.2) (newton (moonAt (jd + q.1 / 86400)) (sunAt (jd + q.1 / 86400)) (fore q.2)))

theorem coord_smooth (i : Fin 6) (q : ℝ × Vec 6) : ContDiffAt ℝ ω (fun q : ℝ × Vec 6 => q.2 i) q :=
  contDiffAt_pi.mp contDiffAt_snd i

theorem field_smooth (jd : ℝ) (q : ℝ × Vec 6) (h0 : fore q.2 ≠ 0) (h1 : fore q.2 ≠ moonAt (jd + q.1 / 86400)) (h2 : fore q.2 ≠ sunAt (jd + q.1 / 86400)) :
    ContDiffAt ℝ ω (field jd) q := by
  have hx : ContDiffAt ℝ ω (fun q : ℝ × Vec 6 => fore q.2) q := by
    refine contDiffAt_pi.mpr fun i => ?_
    fin_cases i
    · exact coord_smooth 0 q
    · exact coord_smooth 1 q
    · exact coord_smooth 2 q
  have ht : ContDiffAt ℝ ω (fun q : ℝ × Vec 6 => jd + q.1 / 86400) q := contDiffAt_const.add (contDiffAt_fst.div_const _)
  have hm : ContDiffAt ℝ ω (fun q : ℝ × Vec 6 => moonAt (jd + q.1 / 86400)) q := (moonAt_smooth _).comp q ht
  have hs : ContDiffAt ℝ ω (fun q : ℝ × Vec 6 => sunAt (jd + q.1 / 86400)) q := (sunAt_smooth _).comp q ht
  have hz : ∀ {r lon lat : ℝ}, 0 < r → polar r lon lat ≠ 0 := by
    intro r lon lat hr h
    have := norm3_polar (lon := lon) (lat := lat) hr.le
    rw [h] at this
    simp [norm3] at this
    exact hr.ne this
  have hn : ContDiffAt ℝ ω (fun q : ℝ × Vec 6 => newton (moonAt (jd + q.1 / 86400)) (sunAt (jd + q.1 / 86400)) (fore q.2)) q := by
    unfold newton
    refine ((pull_smooth _ contDiffAt_const hx (by rw [zero_sub]; exact neg_ne_zero.mpr h0)).add
      ((pull_smooth _ hm hx (sub_ne_zero.mpr h1.symm)).sub (pull_smooth _ hm contDiffAt_const ?_))).add
      ((pull_smooth _ hs hx (sub_ne_zero.mpr h2.symm)).sub (pull_smooth _ hs contDiffAt_const ?_))
    · rw [sub_zero]; exact hz (lunarR_pos _)
    · rw [sub_zero]; exact hz (solarR_pos _)
  refine contDiffAt_const.prodMk (contDiffAt_pi.mpr fun i => ?_)
  have hn' := contDiffAt_pi.mp hn
  fin_cases i
  · exact coord_smooth 3 q
  · exact coord_smooth 4 q
  · exact coord_smooth 5 q
  · exact hn' 0
  · exact hn' 1
  · exact hn' 2

theorem freshStep_rk4 (jd : ℝ) (v : Vec 6) (h : ℝ) : rk4 (field jd) (0, v) h = (h, freshStep jd v (h / 86400)) := by
  have hf : ∀ (τ : ℝ) (w : Vec 6), field jd (τ, w) = (1, fresh (jd + τ / 86400) w) := by
    intro τ w
    unfold field fresh
    rw [accel_eq]
  unfold rk4 freshStep
  simp only [hf, Prod.smul_mk, Prod.mk_add_mk, smul_eq_mul, mul_one, zero_add]
  rw [show h / 86400 * 86400 = h by ring, show h * 0.5 = h / 2 by norm_num; ring, zero_div, add_zero, show h / 2 / 86400 = h / 86400 / 2 by ring]
  rw [show h / 6 * (1 + 2 * (1 + 1) + 1) = h by ring]

/-- C119: `x`, `u` are position and velocity (in ecliptic coordinates, metres and metres per second, the time in seconds after the date `jd`) of any
motion according to Newton's law that starts where the integration stands and not at the centre of one of the bodies.  A step of the integration agrees with
it up to the fifth power of the length of the step. -/
theorem C119_order (s : Cache) (hs : CacheOk s) (jd : ℝ) (hjd : 0 < jd) (v : Vec 6) (x u : ℝ → Fin 3 → ℝ)
    (hx0 : x 0 = fore v) (hu0 : u 0 = back v)
    (hx : ∀ᶠ h in 𝓝 (0 : ℝ), HasDerivAt x (u h) h) (hu : ∀ᶠ h in 𝓝 (0 : ℝ), HasDerivAt u (newton (moonAt (jd + h / 86400)) (sunAt (jd + h / 86400)) (x h)) h)
    (h0 : x 0 ≠ 0) (h1 : x 0 ≠ moonAt jd) (h2 : x 0 ≠ sunAt jd) :
    (fun h => x h - fore (step s jd v (h / 86400)).2) =O[𝓝 0] (fun h : ℝ => h ^ 5) ∧
    (fun h => u h - back (step s jd v (h / 86400)).2) =O[𝓝 0] (fun h : ℝ => h ^ 5) := by
  have gf : ∀ a b : Vec 3, fore (glue a b) = a := by intro a b; ext i; fin_cases i <;> rfl
  have gb : ∀ a b : Vec 3, back (glue a b) = b := by intro a b; ext i; fin_cases i <;> rfl
  have gv : glue (x 0) (u 0) = v := by
    rw [hx0, hu0]; ext i; fin_cases i <;> rfl
  have key := rk4_analytic (f := field jd) (y := fun h => (h, glue (x h) (u h)))
    (ContDiffAt.analyticAt (field_smooth jd _ (by dsimp only; rw [gf]; exact h0) (by dsimp only; rw [gf, zero_div, add_zero]; exact h1)
      (by dsimp only; rw [gf, zero_div, add_zero]; exact h2)))
    (by
      filter_upwards [hx, hu] with h hxh huh
      refine (hasDerivAt_id h).prodMk (hasDerivAt_pi.mpr fun i => ?_)
      dsimp only
      rw [gf, gb]
      have dx := hasDerivAt_pi.mp hxh
      have du := hasDerivAt_pi.mp huh
      fin_cases i
      · exact dx 0
      · exact dx 1
      · exact dx 2
      · exact du 0
      · exact du 1
      · exact du 2)
  rw [gv] at key
  simp only [freshStep_rk4] at key
  have key2 : (fun h => glue (x h) (u h) - freshStep jd v (h / 86400)) =O[𝓝 0] fun h : ℝ => h ^ 5 := by
    refine IsBigO.trans (IsBigO.of_bound 1 (Eventually.of_forall fun h => ?_)) key
    rw [one_mul]
    exact norm_snd_le (((h, glue (x h) (u h)) : ℝ × Vec 6) - (h, freshStep jd v (h / 86400)))
  have ev : ∀ᶠ h : ℝ in 𝓝 0, (step s jd v (h / 86400)).2 = freshStep jd v (h / 86400) := by
    have hc : ContinuousAt (fun h : ℝ => jd + h / 86400) 0 := by fun_prop
    filter_upwards [hc.eventually (lt_mem_nhds (by simpa using hjd))] with h hh
    obtain ⟨s', e, _⟩ := step_ok hs hjd hh v
    rw [e]
  have comp := isBigO_pi.mp key2
  constructor
  · rw [isBigO_pi]
    intro i
    have : ∀ j : Fin 6, (∀ h, (glue (x h) (u h)) j = x h i) → (∀ w : Vec 6, fore w i = w j) → (fun h => (x h - fore (step s jd v (h / 86400)).2) i) =O[𝓝 0] fun h : ℝ => h ^ 5 := by
      intro j e1 e2
      refine (comp j).congr' ?_ (EventuallyEq.refl _ _)
      filter_upwards [ev] with h hh
      rw [hh, Pi.sub_apply, Pi.sub_apply, e1, e2]
    fin_cases i
    · exact this 0 (fun _ => rfl) fun _ => rfl
    · exact this 1 (fun _ => rfl) fun _ => rfl
    · exact this 2 (fun _ => rfl) fun _ => rfl
  · rw [isBigO_pi]
    intro i
    have : ∀ j : Fin 6, (∀ h, (glue (x h) (u h)) j = u h i) → (∀ w : Vec 6, back w i = w j) → (fun h => (u h - back (step s jd v (h / 86400)).2) i) =O[𝓝 0] fun h : ℝ => h ^ 5 := by
      intro j e1 e2
      refine (comp j).congr' ?_ (EventuallyEq.refl _ _)
      filter_upwards [ev] with h hh
      rw [hh, Pi.sub_apply, Pi.sub_apply, e1, e2]
    fin_cases i
    · exact this 3 (fun _ => rfl) fun _ => rfl
    · exact this 4 (fun _ => rfl) fun _ => rfl
    · exact this 5 (fun _ => rfl) fun _ => rfl

/-- C119 is not empty: from every start that is not the centre of a body there is such a motion. -/
theorem C119_exists (jd : ℝ) (v : Vec 6) (h0 : fore v ≠ 0) (h1 : fore v ≠ moonAt jd) (h2 : fore v ≠ sunAt jd) : ∃ x u : ℝ → Fin 3 → ℝ,
    x 0 = fore v ∧ u 0 = back v ∧ (∀ᶠ h in 𝓝 (0 : ℝ), HasDerivAt x (u h) h) ∧
    ∀ᶠ h in 𝓝 (0 : ℝ), HasDerivAt u (newton (moonAt (jd + h / 86400)) (sunAt (jd + h / 86400)) (x h)) h := by
  have hf := (field_smooth jd (0, v) h0 (by simpa using h1) (by simpa using h2)).of_le (m := 1) (by simp)
  obtain ⟨α, hα, ε, hε, H⟩ := hf.exists_forall_mem_closedBall_exists_eq_forall_mem_Ioo_hasDerivAt₀ 0
  rw [zero_sub, zero_add] at H
  have d1 : ∀ t ∈ Set.Ioo (-ε) ε, HasDerivAt (fun t => (α t).1) 1 t := fun t ht => (H t ht).fst
  have d2 : ∀ t ∈ Set.Ioo (-ε) ε, ∀ i, HasDerivAt (fun t => (α t).2 i) ((field jd (α t)).2 i) t := fun t ht i => hasDerivAt_pi.mp (H t ht).snd i
  have ht : ∀ t ∈ Set.Ioo (-ε) ε, (α t).1 = t := by
    intro t ht
    have := Convex.norm_image_sub_le_of_norm_hasDerivWithin_le (f := fun t => (α t).1 - t) (f' := fun _ => (0 : ℝ)) (C := 0) (s := Set.Ioo (-ε) ε) (x := 0) (y := t)
      (fun u hu => (((d1 u hu).sub (hasDerivAt_id u)).congr_deriv (sub_self 1)).hasDerivWithinAt) (fun _ _ => by simp) (convex_Ioo _ _) ⟨by linarith, hε⟩ ht
    rw [hα, zero_mul] at this
    have h0 := norm_le_zero_iff.mp this
    dsimp only at h0
    linarith
  have near : ∀ᶠ t in 𝓝 (0 : ℝ), t ∈ Set.Ioo (-ε) ε := Ioo_mem_nhds (by linarith) hε
  refine ⟨fun t => fore (α t).2, fun t => back (α t).2, by dsimp only; rw [hα], by dsimp only; rw [hα], ?_, ?_⟩
  · filter_upwards [near] with t hT
    refine hasDerivAt_pi.mpr fun i => ?_
    fin_cases i
    · exact d2 t hT 0
    · exact d2 t hT 1
    · exact d2 t hT 2
  · filter_upwards [near] with t hT
    refine hasDerivAt_pi.mpr fun i => ?_
    have e : (field jd (α t)).2 = glue (back (α t).2) (newton (moonAt (jd + t / 86400)) (sunAt (jd + t / 86400)) (fore (α t).2)) := by
      unfold field
      rw [ht t hT]
    have d := d2 t hT
    rw [e] at d
    fin_cases i
    · exact d 3
    · exact d 4
    · exact d 5

end SatSky.Props
