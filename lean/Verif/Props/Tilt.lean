import Verif.Props.Nutation
import Mathlib.Analysis.Real.Pi.Bounds
import Mathlib.Analysis.SpecialFunctions.Trigonometric.Bounds

/-! C55 (the arguments), C54: nutation as a function of the date, and the values kept between calls of `earthtilt`. -/

namespace SatSky.Props

open Real SatSky.Spec SatSky.Nut

/-- The arguments of the program as a function on `Fin 5`. -/
noncomputable def argsOf (t : ℝ) : Fin 5 → ℝ := fun i => (arguments t)[(i : ℕ)]'(by simp [arguments])

theorem argsOf_eq (t : ℝ) : arguments t = [argsOf t 0, argsOf t 1, argsOf t 2, argsOf t 3, argsOf t 4] := by
  simp [argsOf, arguments]

/-- `calcnutation` is the series of the theory, for the arguments of the program. -/
theorem calcnutation_eq (t : ℝ) : calcnutation t = some (nutLon (argsOf t) t, nutObl (argsOf t) t) := by
  unfold calcnutation
  rw [argsOf_eq, C55_series]

theorem poly_near {t a b c d : ℝ} (ht : |t| ≤ 10) (h1 : |a| ≤ 1 / 10 ^ 15) (h2 : |b| ≤ 2 / 10 ^ 12) (h3 : |c| ≤ 1 / 10 ^ 19) (h4 : |d| ≤ 1 / 10 ^ 22) :
    |a + b * t + c * t ^ 2 + d * t ^ 3| ≤ 21 / 10 ^ 12 := by
  have e1 : |b * t| ≤ 2 / 10 ^ 12 * 10 := by rw [abs_mul]; exact mul_le_mul h2 ht (abs_nonneg _) (by norm_num)
  have e2 : |c * t ^ 2| ≤ 1 / 10 ^ 19 * 10 ^ 2 := by
    rw [abs_mul, abs_pow]; exact mul_le_mul h3 (pow_le_pow_left₀ (abs_nonneg _) ht 2) (by positivity) (by norm_num)
  have e3 : |d * t ^ 3| ≤ 1 / 10 ^ 22 * 10 ^ 3 := by
    rw [abs_mul, abs_pow]; exact mul_le_mul h4 (pow_le_pow_left₀ (abs_nonneg _) ht 3) (by positivity) (by norm_num)
  have := abs_add_le (a + b * t + c * t ^ 2) (d * t ^ 3)
  have := abs_add_le (a + b * t) (c * t ^ 2)
  have := abs_add_le a (b * t)
  norm_num at *
  linarith

/-- C55: the five arguments are those of the theory, within 0.00000000003 radian for a thousand years before and after 2000. -/
theorem C55_arguments (t : ℝ) (ht : |t| ≤ 10) (i : Fin 5) : |argsOf t i - delaunay t i| ≤ 21 / 10 ^ 12 := by
  have p1 := pi_gt_d20
  have p2 := pi_lt_d20
  fin_cases i
  · refine le_of_eq_of_le (congrArg _ ?_) (poly_near (a := 2.3555483935439407 - 485866.733 * arcsec) (b := 8328.691422883896 - (1325 * 1296000 + 715922.633) * arcsec)
      (c := 1.517951635553957e-4 - 31.310 * arcsec) (d := 3.1028075591010306e-7 - 0.064 * arcsec) ht ?_ ?_ ?_ ?_)
    · simp [argsOf, arguments, delaunay]; ring
    all_goals unfold arcsec; rw [abs_le]; constructor <;> norm_num at * <;> linarith
  · refine le_of_eq_of_le (congrArg _ ?_) (poly_near (a := 6.240035939326023 - 1287099.804 * arcsec) (b := 628.3019560241842 - (99 * 1296000 + 1292581.224) * arcsec)
      (c := -2.7973749400020225e-6 + 0.577 * arcsec) (d := -5.817764173314431e-8 + 0.012 * arcsec) ht ?_ ?_ ?_ ?_)
    · simp [argsOf, arguments, delaunay]; ring
    all_goals unfold arcsec; rw [abs_le]; constructor <;> norm_num at * <;> linarith
  · refine le_of_eq_of_le (congrArg _ ?_) (poly_near (a := 1.6279019339719611 - 335778.877 * arcsec) (b := 8433.466158318453 - (1342 * 1296000 + 295263.137) * arcsec)
      (c := -6.427174970469119e-5 + 13.257 * arcsec) (d := 5.332950492204896e-8 - 0.011 * arcsec) ht ?_ ?_ ?_ ?_)
    · simp [argsOf, arguments, delaunay]; ring
    all_goals unfold arcsec; rw [abs_le]; constructor <;> norm_num at * <;> linarith
  · refine le_of_eq_of_le (congrArg _ ?_) (poly_near (a := 5.198469513579922 - 1072261.307 * arcsec) (b := 7771.377146170642 - (1236 * 1296000 + 1105601.328) * arcsec)
      (c := -3.340851076525812e-5 + 6.891 * arcsec) (d := 9.211459941081184e-8 - 0.019 * arcsec) ht ?_ ?_ ?_ ?_)
    · simp [argsOf, arguments, delaunay]; ring
    all_goals unfold arcsec; rw [abs_le]; constructor <;> norm_num at * <;> linarith
  · refine le_of_eq_of_le (congrArg _ ?_) (poly_near (a := 2.1824386243609943 - 450160.280 * arcsec) (b := -33.75704593375351 + (5 * 1296000 + 482890.539) * arcsec)
      (c := 3.614285992671591e-5 - 7.455 * arcsec) (d := 3.878509448876288e-8 - 0.008 * arcsec) ht ?_ ?_ ?_ ?_)
    · simp [argsOf, arguments, delaunay]; ring
    all_goals unfold arcsec; rw [abs_le]; constructor <;> norm_num at * <;> linarith

/-! ### How much the series can change -/

theorem sum_close {l : List NutTerm} {f g : NutTerm → ℝ} {b : NutTerm → ℚ} {k : ℝ} (h : ∀ x, |f x - g x| ≤ b x * k) :
    |(l.map f).sum - (l.map g).sum| ≤ ((l.map b).sum : ℚ) * k := by
  induction l with
  | nil => simp
  | cons x l ih =>
    simp only [List.map_cons, List.sum_cons]
    push_cast
    have := h x
    have e : f x + (l.map f).sum - (g x + (l.map g).sum) = (f x - g x) + ((l.map f).sum - (l.map g).sum) := by ring
    rw [e]
    have := abs_add_le (f x - g x) ((l.map f).sum - (l.map g).sum)
    push_cast at ih
    linarith

theorem term_close {F : ℝ → ℝ} (hF : ∀ x y, |F x - F y| ≤ |x - y|) (hF1 : ∀ x, |F x| ≤ 1) {u v t t' θ θ' : ℝ} (ht : |t'| ≤ 10) :
    |(u + v / 10 * t) * F θ - (u + v / 10 * t') * F θ'| ≤ |v| / 10 * |t - t'| + (|u| + |v|) * |θ - θ'| := by
  have e : (u + v / 10 * t) * F θ - (u + v / 10 * t') * F θ' = v / 10 * (t - t') * F θ + (u + v / 10 * t') * (F θ - F θ') := by ring
  rw [e]
  refine (abs_add_le _ _).trans (add_le_add ?_ ?_)
  · rw [abs_mul, abs_mul, abs_div, abs_of_pos (by norm_num : (0 : ℝ) < 10)]
    exact mul_le_of_le_one_right (by positivity) (hF1 _)
  · rw [abs_mul]
    refine mul_le_mul ?_ (hF θ θ') (abs_nonneg _) (by positivity)
    refine (abs_add_le _ _).trans (add_le_add le_rfl ?_)
    rw [abs_mul, abs_div, abs_of_pos (by norm_num : (0 : ℝ) < 10)]
    nlinarith [abs_nonneg v]

theorem sin_lip (x y : ℝ) : |sin x - sin y| ≤ |x - y| := by
  rw [sin_sub_sin, abs_mul, abs_mul]
  have h1 := abs_cos_le_one ((x + y) / 2)
  have h2 : |sin ((x - y) / 2)| ≤ |(x - y) / 2| := abs_sin_le_abs
  rw [abs_div] at h2
  norm_num at h2 ⊢
  nlinarith [abs_nonneg (sin ((x - y) / 2)), abs_nonneg (cos ((x + y) / 2))]

theorem cos_lip (x y : ℝ) : |cos x - cos y| ≤ |x - y| := by
  have h := sin_lip (π / 2 - x) (π / 2 - y)
  rw [sin_pi_div_two_sub, sin_pi_div_two_sub] at h
  rwa [show π / 2 - x - (π / 2 - y) = -(x - y) by ring, abs_neg] at h

/-- The sum of the multiples without sign. -/
def mult (k : Fin 5 → ℤ) : ℚ := |(k 0 : ℚ)| + |(k 1 : ℚ)| + |(k 2 : ℚ)| + |(k 3 : ℚ)| + |(k 4 : ℚ)|

theorem combo_close {k : Fin 5 → ℤ} {a b : Fin 5 → ℝ} {δ : ℝ} (h : ∀ i, |a i - b i| ≤ δ) : |combo k a - combo k b| ≤ mult k * δ := by
  have e : combo k a - combo k b = k 0 * (a 0 - b 0) + k 1 * (a 1 - b 1) + k 2 * (a 2 - b 2) + k 3 * (a 3 - b 3) + k 4 * (a 4 - b 4) := by
    unfold combo; ring
  rw [e]
  have f : ∀ i, |(k i : ℝ) * (a i - b i)| ≤ |(k i : ℝ)| * δ := fun i => by
    rw [abs_mul]; exact mul_le_mul_of_nonneg_left (h i) (abs_nonneg _)
  have h0 := f 0; have h1 := f 1; have h2 := f 2; have h3 := f 3; have h4 := f 4
  unfold mult
  push_cast
  have a1 := abs_add_le (k 0 * (a 0 - b 0) + k 1 * (a 1 - b 1) + k 2 * (a 2 - b 2) + k 3 * (a 3 - b 3)) (k 4 * (a 4 - b 4))
  have a2 := abs_add_le (k 0 * (a 0 - b 0) + k 1 * (a 1 - b 1) + k 2 * (a 2 - b 2)) (k 3 * (a 3 - b 3))
  have a3 := abs_add_le (k 0 * (a 0 - b 0) + k 1 * (a 1 - b 1)) (k 2 * (a 2 - b 2))
  have a4 := abs_add_le (k 0 * (a 0 - b 0)) (k 1 * (a 1 - b 1))
  linarith

theorem lon_mult : (iau1980.map fun x => (|(x.lon : ℚ)| + |(x.lonT : ℚ)|) * mult x.k).sum = 281685 := by decide +kernel
theorem obl_mult : (iau1980.map fun x => (|(x.obl : ℚ)| + |(x.oblT : ℚ)|) * mult x.k).sum ≤ 281685 := by decide +kernel

/-- C55: nutation as the program computes it and as the theory gives it, for a thousand years before and after 2000. -/
theorem C55_nutation (t : ℝ) (ht : |t| ≤ 10) : ∃ ψ ε, calcnutation t = some (ψ, ε) ∧
    |ψ - nutLon (delaunay t) t| ≤ 1 / 10 ^ 9 ∧ |ε - nutObl (delaunay t) t| ≤ 1 / 10 ^ 9 := by
  refine ⟨_, _, calcnutation_eq t, ?_, ?_⟩
  · unfold nutLon
    rw [← sub_div, abs_div, abs_of_pos (by norm_num : (0 : ℝ) < 10 ^ 4)]
    have key := sum_close (l := iau1980) (f := fun x => (x.lon + x.lonT / 10 * t) * sin (combo x.k (argsOf t)))
      (g := fun x => (x.lon + x.lonT / 10 * t) * sin (combo x.k (delaunay t))) (b := fun x => (|(x.lon : ℚ)| + |(x.lonT : ℚ)|) * mult x.k) (k := 21 / 10 ^ 12) ?_
    · rw [lon_mult] at key
      rw [div_le_iff₀ (by norm_num)]
      push_cast at key
      refine key.trans ?_
      norm_num
    · intro x
      refine (term_close sin_lip abs_sin_le_one ht).trans ?_
      push_cast
      rw [sub_self, abs_zero, mul_zero, zero_add, mul_assoc]
      exact mul_le_mul_of_nonneg_left (combo_close (C55_arguments t ht)) (by positivity)
  · unfold nutObl
    rw [← sub_div, abs_div, abs_of_pos (by norm_num : (0 : ℝ) < 10 ^ 4)]
    have key := sum_close (l := iau1980) (f := fun x => (x.obl + x.oblT / 10 * t) * cos (combo x.k (argsOf t)))
      (g := fun x => (x.obl + x.oblT / 10 * t) * cos (combo x.k (delaunay t))) (b := fun x => (|(x.obl : ℚ)| + |(x.oblT : ℚ)|) * mult x.k) (k := 21 / 10 ^ 12) ?_
    · have h2 : (((iau1980.map fun x => (|(x.obl : ℚ)| + |(x.oblT : ℚ)|) * mult x.k).sum : ℚ) : ℝ) ≤ 281685 := by exact_mod_cast obl_mult
      rw [div_le_iff₀ (by norm_num)]
      refine key.trans ((mul_le_mul_of_nonneg_right h2 (by norm_num)).trans ?_)
      norm_num
    · intro x
      refine (term_close cos_lip abs_cos_le_one ht).trans ?_
      push_cast
      rw [sub_self, abs_zero, mul_zero, zero_add, mul_assoc]
      exact mul_le_mul_of_nonneg_left (combo_close (C55_arguments t ht)) (by positivity)

/-! ### C54 -/

/-- The rates of the five arguments per century. -/
def rate : Fin 5 → ℚ := ![8328.691422883896, 628.3019560241842, 8433.466158318453, 7771.377146170642, -33.75704593375351]

theorem cubic_rate {t t' a b c d : ℝ} (ht : |t| ≤ 10) (ht' : |t'| ≤ 10) (hc : |c| ≤ 1 / 10 ^ 4 * 2) (hd : |d| ≤ 1 / 10 ^ 6) :
    |a + t * (b + t * (c + d * t)) - (a + t' * (b + t' * (c + d * t'))) - b * (t - t')| ≤ 1 / 100 * |t - t'| := by
  have e : a + t * (b + t * (c + d * t)) - (a + t' * (b + t' * (c + d * t'))) - b * (t - t') = (c * (t + t') + d * (t * t + t * t' + t' * t')) * (t - t') := by ring
  rw [e, abs_mul]
  refine mul_le_mul_of_nonneg_right ?_ (abs_nonneg _)
  have h1 : |t + t'| ≤ 20 := (abs_add_le _ _).trans (by linarith)
  have h2 : |t * t + t * t' + t' * t'| ≤ 300 := by
    have := abs_add_le (t * t + t * t') (t' * t')
    have := abs_add_le (t * t) (t * t')
    have a1 : |t * t| ≤ 100 := by rw [abs_mul]; nlinarith [abs_nonneg t]
    have a2 : |t * t'| ≤ 100 := by rw [abs_mul]; nlinarith [abs_nonneg t, abs_nonneg t']
    have a3 : |t' * t'| ≤ 100 := by rw [abs_mul]; nlinarith [abs_nonneg t']
    linarith
  have h3 := abs_add_le (c * (t + t')) (d * (t * t + t * t' + t' * t'))
  have h4 : |c * (t + t')| ≤ 1 / 10 ^ 4 * 2 * 20 := by rw [abs_mul]; exact mul_le_mul hc h1 (abs_nonneg _) (by norm_num)
  have h5 : |d * (t * t + t * t' + t' * t')| ≤ 1 / 10 ^ 6 * 300 := by rw [abs_mul]; exact mul_le_mul hd h2 (abs_nonneg _) (by norm_num)
  have h6 : (1 : ℝ) / 10 ^ 4 * 2 * 20 + 1 / 10 ^ 6 * 300 ≤ 1 / 100 := by norm_num
  linarith

theorem argsOf_rate {t t' : ℝ} (ht : |t| ≤ 10) (ht' : |t'| ≤ 10) (i : Fin 5) : |argsOf t i - argsOf t' i - rate i * (t - t')| ≤ 1 / 100 * |t - t'| := by
  fin_cases i
  · have h := cubic_rate (a := 2.3555483935439407) (b := 8328.691422883896) (c := 1.517951635553957e-4) (d := 3.1028075591010306e-7) ht ht'
      (by rw [abs_of_pos] <;> norm_num) (by rw [abs_of_pos] <;> norm_num)
    simpa [argsOf, arguments, rate] using h
  · have h := cubic_rate (a := 6.240035939326023) (b := 628.3019560241842) (c := -2.7973749400020225e-6) (d := -5.817764173314431e-8) ht ht'
      (by rw [abs_of_neg] <;> norm_num) (by rw [abs_of_neg] <;> norm_num)
    simpa [argsOf, arguments, rate, sub_eq_add_neg] using h
  · have h := cubic_rate (a := 1.6279019339719611) (b := 8433.466158318453) (c := -6.427174970469119e-5) (d := 5.332950492204896e-8) ht ht'
      (by rw [abs_of_neg] <;> norm_num) (by rw [abs_of_pos] <;> norm_num)
    simpa [argsOf, arguments, rate] using h
  · have h := cubic_rate (a := 5.198469513579922) (b := 7771.377146170642) (c := -3.340851076525812e-5) (d := 9.211459941081184e-8) ht ht'
      (by rw [abs_of_neg] <;> norm_num) (by rw [abs_of_pos] <;> norm_num)
    simpa [argsOf, arguments, rate] using h
  · have h := cubic_rate (a := 2.1824386243609943) (b := -33.75704593375351) (c := 3.614285992671591e-5) (d := 3.878509448876288e-8) ht ht'
      (by rw [abs_of_pos] <;> norm_num) (by rw [abs_of_pos] <;> norm_num)
    simpa [argsOf, arguments, rate] using h

/-- A bound of the speed of a combination, radians per century. -/
def speed (k : Fin 5 → ℤ) : ℚ := |k 0 * rate 0 + k 1 * rate 1 + k 2 * rate 2 + k 3 * rate 3 + k 4 * rate 4| + mult k / 100

theorem combo_speed {t t' : ℝ} (ht : |t| ≤ 10) (ht' : |t'| ≤ 10) (k : Fin 5 → ℤ) :
    |combo k (argsOf t) - combo k (argsOf t')| ≤ speed k * |t - t'| := by
  have h1 : |combo k (argsOf t) - combo k (fun i => argsOf t' i + rate i * (t - t'))| ≤ mult k * (1 / 100 * |t - t'|) := by
    refine combo_close fun i => ?_
    rw [show argsOf t i - (argsOf t' i + rate i * (t - t')) = argsOf t i - argsOf t' i - rate i * (t - t') by ring]
    exact argsOf_rate ht ht' i
  have e : combo k (fun i => argsOf t' i + rate i * (t - t')) - combo k (argsOf t')
      = ((k 0 * rate 0 + k 1 * rate 1 + k 2 * rate 2 + k 3 * rate 3 + k 4 * rate 4 : ℚ) : ℝ) * (t - t') := by
    unfold combo; push_cast; ring
  have h2 : |combo k (fun i => argsOf t' i + rate i * (t - t')) - combo k (argsOf t')|
      = |((k 0 * rate 0 + k 1 * rate 1 + k 2 * rate 2 + k 3 * rate 3 + k 4 * rate 4 : ℚ) : ℝ)| * |t - t'| := by rw [e, abs_mul]
  have h3 := abs_sub_le (combo k (argsOf t)) (combo k (fun i => argsOf t' i + rate i * (t - t'))) (combo k (argsOf t'))
  unfold speed
  push_cast at h2 ⊢
  linarith

theorem lon_speed : (iau1980.map fun x => |(x.lonT : ℚ)| / 10 + (|(x.lon : ℚ)| + |(x.lonT : ℚ)|) * speed x.k).sum ≤ 98000000 := by decide +kernel
theorem obl_speed : (iau1980.map fun x => |(x.oblT : ℚ)| / 10 + (|(x.obl : ℚ)| + |(x.oblT : ℚ)|) * speed x.k).sum ≤ 40000000 := by decide +kernel
theorem lon_size : (iau1980.map fun x => |(x.lon : ℚ)| + |(x.lonT : ℚ)|).sum ≤ 200000 := by decide +kernel

theorem lon_change {t t' : ℝ} (ht : |t| ≤ 10) (ht' : |t'| ≤ 10) : |nutLon (argsOf t) t - nutLon (argsOf t') t'| ≤ 9800 * |t - t'| := by
  unfold nutLon
  rw [← sub_div, abs_div, abs_of_pos (by norm_num : (0 : ℝ) < 10 ^ 4)]
  have key := sum_close (l := iau1980) (f := fun x => (x.lon + x.lonT / 10 * t) * sin (combo x.k (argsOf t)))
    (g := fun x => (x.lon + x.lonT / 10 * t') * sin (combo x.k (argsOf t')))
    (b := fun x => |(x.lonT : ℚ)| / 10 + (|(x.lon : ℚ)| + |(x.lonT : ℚ)|) * speed x.k) (k := |t - t'|) ?_
  · have h2 : (((iau1980.map fun x => |(x.lonT : ℚ)| / 10 + (|(x.lon : ℚ)| + |(x.lonT : ℚ)|) * speed x.k).sum : ℚ) : ℝ) ≤ 98000000 := by exact_mod_cast lon_speed
    rw [div_le_iff₀ (by norm_num)]
    refine key.trans ((mul_le_mul_of_nonneg_right h2 (abs_nonneg _)).trans (le_of_eq ?_))
    ring
  · intro x
    refine (term_close sin_lip abs_sin_le_one ht').trans ?_
    push_cast
    have h := mul_le_mul_of_nonneg_left (combo_speed ht ht' x.k) (show 0 ≤ |(x.lon : ℝ)| + |(x.lonT : ℝ)| by positivity)
    linarith

theorem obl_change {t t' : ℝ} (ht : |t| ≤ 10) (ht' : |t'| ≤ 10) : |nutObl (argsOf t) t - nutObl (argsOf t') t'| ≤ 4000 * |t - t'| := by
  unfold nutObl
  rw [← sub_div, abs_div, abs_of_pos (by norm_num : (0 : ℝ) < 10 ^ 4)]
  have key := sum_close (l := iau1980) (f := fun x => (x.obl + x.oblT / 10 * t) * cos (combo x.k (argsOf t)))
    (g := fun x => (x.obl + x.oblT / 10 * t') * cos (combo x.k (argsOf t')))
    (b := fun x => |(x.oblT : ℚ)| / 10 + (|(x.obl : ℚ)| + |(x.oblT : ℚ)|) * speed x.k) (k := |t - t'|) ?_
  · have h2 : (((iau1980.map fun x => |(x.oblT : ℚ)| / 10 + (|(x.obl : ℚ)| + |(x.oblT : ℚ)|) * speed x.k).sum : ℚ) : ℝ) ≤ 40000000 := by exact_mod_cast obl_speed
    rw [div_le_iff₀ (by norm_num)]
    refine key.trans ((mul_le_mul_of_nonneg_right h2 (abs_nonneg _)).trans (le_of_eq ?_))
    ring
  · intro x
    refine (term_close cos_lip abs_cos_le_one ht').trans ?_
    push_cast
    have h := mul_le_mul_of_nonneg_left (combo_speed ht ht' x.k) (show 0 ≤ |(x.obl : ℝ)| + |(x.oblT : ℝ)| by positivity)
    linarith

theorem lon_le {t : ℝ} (ht : |t| ≤ 10) : |nutLon (argsOf t) t| ≤ 20 := by
  unfold nutLon
  rw [abs_div, abs_of_pos (by norm_num : (0 : ℝ) < 10 ^ 4), div_le_iff₀ (by norm_num)]
  have key := sum_close (l := iau1980) (f := fun x => (x.lon + x.lonT / 10 * t) * sin (combo x.k (argsOf t)))
    (g := fun x => 0) (b := fun x => |(x.lon : ℚ)| + |(x.lonT : ℚ)|) (k := 1) ?_
  · have h2 : (((iau1980.map fun x => |(x.lon : ℚ)| + |(x.lonT : ℚ)|).sum : ℚ) : ℝ) ≤ 200000 := by exact_mod_cast lon_size
    simp only [List.map_const', List.sum_replicate, smul_zero, sub_zero, mul_one] at key
    refine key.trans (h2.trans (by norm_num))
  · intro x
    push_cast
    rw [sub_zero, mul_one, abs_mul]
    refine mul_le_of_le_one_right (abs_nonneg _) (abs_sin_le_one _) |>.trans ?_
    refine (abs_add_le _ _).trans (add_le_add le_rfl ?_)
    rw [abs_mul, abs_div, abs_of_pos (by norm_num : (0 : ℝ) < 10)]
    nlinarith [abs_nonneg (x.lonT : ℝ)]

/-- The date in centuries. -/
noncomputable def century (d : ℝ) : ℝ := (d - 2451545) / 36525

/-- `earthtilt` without memory. -/
noncomputable def tiltFresh (d : ℝ) : Tilt :=
  let ψ := nutLon (argsOf (century d)) (century d)
  let ε := nutObl (argsOf (century d)) (century d)
  let t := century d
  let m := 84381.4480 - 46.8150 * t - 0.00059 * t ^ 2 + 0.001813 * t ^ 3
  ⟨ψ, ε, ψ / 15 * cos ((m + ε) * 4.848136811095359936e-6), m / 3600, (m + ε) / 3600⟩

theorem tiltAt_eq (d : ℝ) : tiltAt d = some (tiltFresh d) := by
  unfold tiltAt
  dsimp only
  rw [calcnutation_eq]
  rfl

/-- Values for two dates a hundredth of a day apart. -/
def TiltNear (v w : Tilt) : Prop :=
  |v.dpsi - w.dpsi| ≤ 27 / 10 ^ 4 ∧ |v.deps - w.deps| ≤ 11 / 10 ^ 4 ∧ |v.eq - w.eq| ≤ 2 / 10 ^ 4 ∧ |v.mobl - w.mobl| ≤ 1 / 10 ^ 8 ∧ |v.tobl - w.tobl| ≤ 4 / 10 ^ 7

theorem mean_change {t t' : ℝ} (ht : |t| ≤ 10) (ht' : |t'| ≤ 10) :
    |(84381.4480 - 46.8150 * t - 0.00059 * t ^ 2 + 0.001813 * t ^ 3) - (84381.4480 - 46.8150 * t' - 0.00059 * t' ^ 2 + 0.001813 * t' ^ 3)| ≤ 48 * |t - t'| := by
  have e : (84381.4480 - 46.8150 * t - 0.00059 * t ^ 2 + 0.001813 * t ^ 3) - (84381.4480 - 46.8150 * t' - 0.00059 * t' ^ 2 + 0.001813 * t' ^ 3)
      = (-46.8150 - 0.00059 * (t + t') + 0.001813 * (t ^ 2 + t * t' + t' ^ 2)) * (t - t') := by ring
  rw [e, abs_mul]
  refine mul_le_mul_of_nonneg_right ?_ (abs_nonneg _)
  rw [abs_le] at *
  obtain ⟨a, b⟩ := ht
  obtain ⟨c, d⟩ := ht'
  have s1 : 0 ≤ t ^ 2 + t * t' + t' ^ 2 := by nlinarith [sq_nonneg (t + t'), sq_nonneg t, sq_nonneg t']
  have s2 : t ^ 2 + t * t' + t' ^ 2 ≤ 300 := by nlinarith
  constructor <;> norm_num at * <;> linarith

theorem fresh_near {d d' : ℝ} (hd : |d - 2451545| ≤ 365250) (hd' : |d' - 2451545| ≤ 365250) (h : |d - d'| ≤ 1 / 100) :
    TiltNear (tiltFresh d) (tiltFresh d') := by
  have ht : |century d| ≤ 10 := by unfold century; rw [abs_div, abs_of_pos (by norm_num : (0 : ℝ) < 36525), div_le_iff₀ (by norm_num)]; linarith
  have ht' : |century d'| ≤ 10 := by unfold century; rw [abs_div, abs_of_pos (by norm_num : (0 : ℝ) < 36525), div_le_iff₀ (by norm_num)]; linarith
  have hc : |century d - century d'| ≤ 1 / 3652500 := by
    unfold century
    rw [← sub_div, abs_div, abs_of_pos (by norm_num : (0 : ℝ) < 36525), div_le_iff₀ (by norm_num), show d - 2451545 - (d' - 2451545) = d - d' by ring]
    norm_num; linarith
  have h1 := lon_change ht ht'
  have h2 := obl_change ht ht'
  have h3 := mean_change ht ht'
  have h4 := lon_le ht'
  have h5 := lon_le ht
  unfold TiltNear tiltFresh
  dsimp only
  generalize century d = t at *
  generalize century d' = t' at *
  generalize nutLon (argsOf t) t = ψ at *
  generalize nutLon (argsOf t') t' = ψ' at *
  generalize nutObl (argsOf t) t = ε at *
  generalize nutObl (argsOf t') t' = ε' at *
  generalize 84381.4480 - 46.8150 * t - 0.00059 * t ^ 2 + 0.001813 * t ^ 3 = m at *
  generalize 84381.4480 - 46.8150 * t' - 0.00059 * t' ^ 2 + 0.001813 * t' ^ 3 = m' at *
  have k1 : |ψ - ψ'| ≤ 9800 * (1 / 3652500) := h1.trans (mul_le_mul_of_nonneg_left hc (by norm_num))
  have k2 : |ε - ε'| ≤ 4000 * (1 / 3652500) := h2.trans (mul_le_mul_of_nonneg_left hc (by norm_num))
  have k3 : |m - m'| ≤ 48 * (1 / 3652500) := h3.trans (mul_le_mul_of_nonneg_left hc (by norm_num))
  have k4 : |m + ε - (m' + ε')| ≤ 4048 * (1 / 3652500) := by
    rw [show m + ε - (m' + ε') = (m - m') + (ε - ε') by ring]
    have := abs_add_le (m - m') (ε - ε')
    linarith
  refine ⟨k1.trans (by norm_num), k2.trans (by norm_num), ?_, ?_, ?_⟩
  · have e : ψ / 15 * cos ((m + ε) * 4.848136811095359936e-6) - ψ' / 15 * cos ((m' + ε') * 4.848136811095359936e-6)
        = (ψ - ψ') / 15 * cos ((m + ε) * 4.848136811095359936e-6) + ψ' / 15 * (cos ((m + ε) * 4.848136811095359936e-6) - cos ((m' + ε') * 4.848136811095359936e-6)) := by ring
    rw [e]
    refine (abs_add_le _ _).trans ?_
    have l1 : |(ψ - ψ') / 15 * cos ((m + ε) * 4.848136811095359936e-6)| ≤ 9800 * (1 / 3652500) / 15 := by
      rw [abs_mul, abs_div, abs_of_pos (by norm_num : (0 : ℝ) < 15)]
      refine (mul_le_of_le_one_right (by positivity) (abs_cos_le_one _)).trans ?_
      exact div_le_div_of_nonneg_right k1 (by norm_num)
    have l2 : |ψ' / 15 * (cos ((m + ε) * 4.848136811095359936e-6) - cos ((m' + ε') * 4.848136811095359936e-6))| ≤ 20 / 15 * (4048 * (1 / 3652500) * 5e-6) := by
      rw [abs_mul, abs_div, abs_of_pos (by norm_num : (0 : ℝ) < 15)]
      refine mul_le_mul (div_le_div_of_nonneg_right h4 (by norm_num)) ?_ (abs_nonneg _) (by norm_num)
      refine (cos_lip _ _).trans ?_
      rw [← sub_mul, abs_mul]
      refine mul_le_mul k4 ?_ (abs_nonneg _) (by norm_num)
      rw [abs_of_pos] <;> norm_num
    refine (add_le_add l1 l2).trans (by norm_num)
  · rw [← sub_div, abs_div, abs_of_pos (by norm_num : (0 : ℝ) < 3600), div_le_iff₀ (by norm_num)]
    exact k3.trans (by norm_num)
  · rw [← sub_div, abs_div, abs_of_pos (by norm_num : (0 : ℝ) < 3600), div_le_iff₀ (by norm_num)]
    exact k4.trans (by norm_num)

/-- The state holds the values of the date it names, or no date has been asked for. -/
def TiltOk (s : TiltState) : Prop := s.last = 0 ∨ (s.val = tiltFresh s.last ∧ |s.last - 2451545| ≤ 365250)

theorem earthtilt_ok {s : TiltState} {d : ℝ} (hs : TiltOk s) (h0 : 1 / 100 < |d|) (hd : |d - 2451545| ≤ 365250) :
    ∃ s', earthtilt s d = some s' ∧ TiltOk s' ∧ ∃ d', |d - d'| ≤ 1 / 100 ∧ |d' - 2451545| ≤ 365250 ∧ s'.val = tiltFresh d' := by
  unfold earthtilt
  by_cases h : |d - s.last| > 1 / 100
  · rw [if_pos h, tiltAt_eq]
    exact ⟨_, rfl, Or.inr ⟨rfl, hd⟩, d, by simp, hd, rfl⟩
  · rw [if_neg h]
    rcases hs with hs | hs
    · rw [hs, sub_zero] at h; exact absurd h0 h
    · exact ⟨s, rfl, Or.inr hs, s.last, not_lt.mp h, hs.2, hs.1⟩

/-- C54: in any sequence of calls, for dates within a thousand years of 2000, each answer is the one for a date not more than a hundredth of a day away, and
differs from the one for the date asked for by the stated amounts at most. -/
theorem C54_cached (ds : List ℝ) (hd : ∀ d ∈ ds, |d - 2451545| ≤ 365250) (s : TiltState) (hs : TiltOk s) :
    ∃ vs, tiltCalls s ds = some vs ∧
      List.Forall₂ (fun d v => (∃ d', |d - d'| ≤ 1 / 100 ∧ tiltAt d' = some v) ∧ ∃ w, tiltAt d = some w ∧ TiltNear w v) ds vs := by
  induction ds generalizing s with
  | nil => exact ⟨[], rfl, List.Forall₂.nil⟩
  | cons d ds ih =>
    have h1 := hd d (by simp)
    have h0 : 1 / 100 < |d| := by
      rw [abs_le] at h1
      rw [abs_of_pos] <;> linarith
    obtain ⟨s', e1, ok, d', k1, k2, k3⟩ := earthtilt_ok hs h0 h1
    obtain ⟨vs, e2, hv⟩ := ih (fun x hx => hd x (by simp [hx])) s' ok
    refine ⟨s'.val :: vs, by simp [tiltCalls, e1, e2], List.Forall₂.cons ⟨⟨d', k1, by rw [tiltAt_eq, k3]⟩, _, tiltAt_eq d, ?_⟩ hv⟩
    rw [k3]
    exact fresh_near h1 k2 k1

/-- The program starts in such a state. -/
theorem C54_start : TiltOk tiltStart := Or.inl rfl

/-- The first call for a date next to zero gives no obliquity: the exclusion of dates near zero in the property is needed. -/
theorem C54_zero_excluded : (earthtilt tiltStart (1 / 200)).map (fun s => s.val.mobl) = some 0 ∧ (tiltAt (1 / 200)).map (fun v => v.mobl) ≠ some 0 := by
  constructor
  · unfold earthtilt tiltStart
    rw [if_neg (by norm_num)]
    rfl
  · rw [tiltAt_eq]
    unfold tiltFresh century
    norm_num

/-- Two calls half an hour apart: the second is answered from memory only if less than 0.01 day (14.4 minutes) has passed. -/
example : |(2451545 + 1 / 48 : ℝ) - 2451545| > 1 / 100 ∧ ¬ |(2451545 + 1 / 144 : ℝ) - 2451545| > 1 / 100 := by
  constructor <;> norm_num

end SatSky.Props
