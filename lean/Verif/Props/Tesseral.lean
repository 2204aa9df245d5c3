import Verif.Lemmas.Tesseral
import Verif.Model.Deep
import Verif.Props.DeepStep
import Verif.Props.SelectModel

/-! C141, C142: the resonance terms come from the gravity field that turns with the Earth. -/

namespace SatSky.Props

open SatSky.Spec SatSky.Sxp Polynomial

theorem harmonic_re (l m : ℕ) (C S : ℝ) (v : V3) :
    harmonic l m C S v = ((C - Complex.I * S) * ((((derivative^[m] (legendre l)).eval v.z : ℝ) : ℂ) * (⟨v.x, v.y⟩ : ℂ) ^ m)).re := by
  unfold harmonic
  generalize (⟨v.x, v.y⟩ : ℂ) ^ m = W
  generalize (derivative^[m] (legendre l)).eval v.z = P
  simp
  ring

theorem wave_re (l m : ℕ) (C S ψ : ℝ) : ((C - Complex.I * S) * parity l m * Complex.exp (ψ * Complex.I)).re = wave l m C S ψ := by
  unfold parity wave
  split_ifs
  · simp [Complex.exp_ofReal_mul_I_re, Complex.exp_ofReal_mul_I_im]
  · simp [Complex.exp_ofReal_mul_I_re, Complex.exp_ofReal_mul_I_im]

/-- A harmonic at a satellite, in terms of the unit complex number `z` of its argument of latitude. -/
theorem harmonic_towards {l m : ℕ} (hlm : (l, m) ∈ resonant) {z : ℂ} (hz : z * (starRingEnd ℂ) z = 1) (C S h i : ℝ) :
    harmonic l m C S (towards z h i) =
      ∑ p ∈ Finset.range (l + 1), inclination l m p i * ((C - Complex.I * S) * parity l m * (z ^ ((l : ℤ) - 2 * p) * Complex.exp ((m * h : ℝ) * Complex.I))).re := by
  rw [harmonic_re, alongOrbit, mul_pow, show (towards z h i).z = Real.sin i * z.im from rfl, mul_left_comm _ (_ ^ m),
    inclination_sum l m hlm z _ hz rfl i, Finset.mul_sum, Finset.mul_sum, Complex.re_sum]
  refine Finset.sum_congr rfl fun p _ => ?_
  rw [← Complex.re_ofReal_mul, ← Complex.exp_nat_mul]
  congr 1
  push_cast
  rw [mul_assoc (m : ℂ)]
  ring

theorem exp_zpow (u : ℝ) (k : ℤ) : Complex.exp (u * Complex.I) ^ k = Complex.exp ((k * u : ℝ) * Complex.I) := by
  rw [← Complex.exp_int_mul]
  push_cast
  ring_nf

theorem exp_unit (u : ℝ) : Complex.exp (u * Complex.I) * (starRingEnd ℂ) (Complex.exp (u * Complex.I)) = 1 := by
  rw [Complex.mul_conj, Complex.normSq_eq_norm_sq, Complex.norm_exp_ofReal_mul_I]
  simp

/-- **C141**: a harmonic of the rotating field seen by a satellite with the argument of latitude `u`, on an orbit with the inclination `i` whose
node is at the longitude `h`, is the sum of waves in `(l - 2p) u + m h` whose amplitudes are the inclination functions. -/
theorem C141_expansion {l m : ℕ} (hlm : (l, m) ∈ resonant) (C S u h i : ℝ) :
    harmonic l m C S (towards (Complex.exp (u * Complex.I)) h i) =
      ∑ p ∈ Finset.range (l + 1), inclination l m p i * wave l m C S (((l : ℤ) - 2 * p : ℤ) * u + m * h) := by
  rw [harmonic_towards hlm (exp_unit u)]
  refine Finset.sum_congr rfl fun p _ => ?_
  rw [exp_zpow, ← Complex.exp_add, ← wave_re]
  congr 4
  push_cast
  ring

/-! ### Means over a revolution -/

theorem one_sub_ecos_pos {e : ℝ} (he : |e| < 1) (E : ℝ) : 0 < 1 - e * Real.cos E := by
  have h1 : |e * Real.cos E| ≤ |e| := by
    rw [abs_mul]
    exact mul_le_of_le_one_right (abs_nonneg e) (Real.abs_cos_le_one E)
  linarith [le_abs_self (e * Real.cos E)]

theorem trueAnomaly_unit {e : ℝ} (he : |e| < 1) (E : ℝ) : trueAnomaly e E * (starRingEnd ℂ) (trueAnomaly e E) = 1 := by
  have hd := one_sub_ecos_pos he E
  have hb : 0 ≤ 1 - e ^ 2 := by nlinarith [abs_nonneg e, sq_abs e]
  have hs := Real.sq_sqrt hb
  have hc := Real.sin_sq_add_cos_sq E
  rw [Complex.mul_conj, Complex.normSq_apply]
  norm_cast
  unfold trueAnomaly
  dsimp only
  generalize Real.sqrt (1 - e ^ 2) = b at *
  field_simp
  rw [div_eq_one_iff_eq (pow_ne_zero 2 (by rw [mul_comm]; exact hd.ne'))]
  linear_combination Real.sin E ^ 2 * hs + (1 - e ^ 2) * hc

theorem trueAnomaly_neg (e E : ℝ) : trueAnomaly e (-E) = (starRingEnd ℂ) (trueAnomaly e E) := by
  apply Complex.ext
  · simp [trueAnomaly]
  · simp [trueAnomaly, neg_div]

theorem trueAnomaly_continuous {e : ℝ} (he : |e| < 1) : Continuous (trueAnomaly e) := by
  have h : ∀ E, 1 - e * Real.cos E ≠ 0 := fun E => (one_sub_ecos_pos he E).ne'
  have : trueAnomaly e = fun E => (((Real.cos E - e) / (1 - e * Real.cos E) : ℝ) : ℂ) +
      ((Real.sqrt (1 - e ^ 2) * Real.sin E / (1 - e * Real.cos E) : ℝ) : ℂ) * Complex.I := by
    funext E
    exact (Complex.re_add_im (trueAnomaly e E)).symm
  rw [this]
  refine (Complex.continuous_ofReal.comp ?_).add ((Complex.continuous_ofReal.comp ?_).mul continuous_const)
  · exact Continuous.div (by fun_prop) (by fun_prop) h
  · exact Continuous.div (by fun_prop) (by fun_prop) h

/-- The complex number whose real part is averaged in `hansen`. -/
noncomputable def spiral (k j : ℤ) (e E : ℝ) : ℂ := trueAnomaly e E ^ k * Complex.exp (-(j * (E - e * Real.sin E)) * Complex.I)

theorem spiral_continuous {e : ℝ} (he : |e| < 1) (k j : ℤ) : Continuous (spiral k j e) := by
  unfold spiral
  refine Continuous.mul ?_ (by fun_prop)
  exact (trueAnomaly_continuous he).zpow₀ k fun E => Or.inl (left_ne_zero_of_mul_eq_one (trueAnomaly_unit he E))

theorem spiral_neg (k j : ℤ) (e E : ℝ) : spiral k j e (-E) = (starRingEnd ℂ) (spiral k j e E) := by
  unfold spiral
  rw [trueAnomaly_neg, map_mul, map_zpow₀, ← Complex.exp_conj]
  congr 2
  push_cast
  rw [show (starRingEnd ℂ) (-((j : ℂ) * ((E : ℂ) - e * Complex.sin E)) * Complex.I) =
      (starRingEnd ℂ) (((-(j * (E - e * Real.sin E)) : ℝ) : ℂ) * Complex.I) by push_cast; rfl, map_mul, Complex.conj_ofReal, Complex.conj_I]
  push_cast
  rw [Complex.sin_neg]
  ring

theorem integral_odd (g : ℝ → ℝ) (h : ∀ x, g (-x) = -g x) (b : ℝ) : ∫ x in -b..b, g x = 0 := by
  have h1 : ∫ x in -b..b, g (-x) = ∫ x in -b..b, g x := by
    rw [intervalIntegral.integral_comp_neg, neg_neg]
  have h2 : ∫ x in -b..b, g (-x) = -∫ x in -b..b, g x := by
    rw [← intervalIntegral.integral_neg]
    exact intervalIntegral.integral_congr fun x _ => h x
  linarith

theorem overRevolution_spiral {e : ℝ} (he : |e| < 1) (l : ℕ) (k j : ℤ) (A : ℂ) :
    overRevolution e (fun E => 1 / (1 - e * Real.cos E) ^ (l + 1) * (A * spiral k j e E).re) = A.re * hansen l k j e := by
  have h : ∀ E, 1 - e * Real.cos E ≠ 0 := fun E => (one_sub_ecos_pos he E).ne'
  have hc := spiral_continuous he k j
  have c1 : Continuous fun E => 1 / (1 - e * Real.cos E) ^ (l + 1) * (spiral k j e E).re * (1 - e * Real.cos E) :=
    ((Continuous.div continuous_const (by fun_prop) fun E => pow_ne_zero _ (h E)).mul (Complex.continuous_re.comp hc)).mul (by fun_prop)
  have c2 : Continuous fun E => 1 / (1 - e * Real.cos E) ^ (l + 1) * (spiral k j e E).im * (1 - e * Real.cos E) :=
    ((Continuous.div continuous_const (by fun_prop) fun E => pow_ne_zero _ (h E)).mul (Complex.continuous_im.comp hc)).mul (by fun_prop)
  have z2 : ∫ E in -Real.pi..Real.pi, 1 / (1 - e * Real.cos E) ^ (l + 1) * (spiral k j e E).im * (1 - e * Real.cos E) = 0 := by
    apply integral_odd
    intro E
    rw [spiral_neg, Complex.conj_im, Real.cos_neg]
    ring
  unfold hansen overRevolution
  rw [mul_div_assoc', ← intervalIntegral.integral_const_mul]
  congr 1
  have : ∀ E, 1 / (1 - e * Real.cos E) ^ (l + 1) * (A * spiral k j e E).re * (1 - e * Real.cos E) =
      A.re * (1 / (1 - e * Real.cos E) ^ (l + 1) * (spiral k j e E).re * (1 - e * Real.cos E)) -
        A.im * (1 / (1 - e * Real.cos E) ^ (l + 1) * (spiral k j e E).im * (1 - e * Real.cos E)) := by
    intro E
    rw [Complex.mul_re]
    ring
  simp only [this]
  rw [intervalIntegral.integral_sub ((c1.intervalIntegrable _ _).const_mul _) ((c2.intervalIntegrable _ _).const_mul _),
    intervalIntegral.integral_const_mul A.im, z2, mul_zero, sub_zero]
  rfl

/-- **C142**: the part `l`, `m` of the potential, averaged over a revolution during which the node moves so that `m h + j M` keeps the value `ψ`, is
the sum of waves whose amplitudes are the products of inclination and eccentricity functions. -/
theorem C142_mean {l m : ℕ} (hlm : (l, m) ∈ resonant) {e : ℝ} (he : |e| < 1) (j : ℤ) (C S a i ω ψ : ℝ) (h : ℝ → ℝ) (hh : ∀ M, m * h M = ψ - j * M) :
    meanTesseral l m C S a e i ω h = 1 / a ^ (l + 1) *
      ∑ p ∈ Finset.range (l + 1), inclination l m p i * hansen l (l - 2 * p) j e * wave l m C S (((l : ℤ) - 2 * p : ℤ) * ω + ψ) := by
  have hne : ∀ E, 1 - e * Real.cos E ≠ 0 := fun E => (one_sub_ecos_pos he E).ne'
  have key : ∀ p, inclination l m p i * hansen l (l - 2 * p) j e * wave l m C S (((l : ℤ) - 2 * p : ℤ) * ω + ψ) =
      overRevolution e fun E => 1 / (1 - e * Real.cos E) ^ (l + 1) *
        (((inclination l m p i : ℂ) * ((C - Complex.I * S) * parity l m * Complex.exp (((((l : ℤ) - 2 * p : ℤ) * ω + ψ : ℝ) : ℂ) * Complex.I))) *
          spiral (l - 2 * p) j e E).re := by
    intro p
    rw [overRevolution_spiral he, Complex.re_ofReal_mul, wave_re]
    ring
  rw [Finset.sum_congr rfl fun p _ => key p]
  unfold meanTesseral overRevolution
  rw [← Finset.sum_div, ← intervalIntegral.integral_finset_sum, mul_div_assoc', ← intervalIntegral.integral_const_mul]
  · congr 1
    refine intervalIntegral.integral_congr fun E _ => ?_
    dsimp only
    rw [harmonic_towards hlm (z := Complex.exp (ω * Complex.I) * trueAnomaly e E)
      (by rw [map_mul, mul_mul_mul_comm, exp_unit, trueAnomaly_unit he, one_mul]), ← Finset.sum_mul, ← Finset.mul_sum, mul_pow, ← mul_assoc, ← mul_assoc,
      one_div_mul_one_div]
    congr 2
    refine Finset.sum_congr rfl fun p _ => ?_
    rw [mul_assoc (inclination l m p i : ℂ), Complex.re_ofReal_mul, hh, mul_zpow, exp_zpow]
    congr 2
    unfold spiral
    rw [mul_assoc ((C : ℂ) - Complex.I * S), mul_assoc, mul_assoc, mul_assoc ((C : ℂ) - Complex.I * S)]
    congr 2
    rw [show Complex.exp (((((l : ℤ) - 2 * p : ℤ) * ω + ψ : ℝ) : ℂ) * Complex.I) * (trueAnomaly e E ^ ((l : ℤ) - 2 * p) *
        Complex.exp (-(j * (E - e * Real.sin E)) * Complex.I)) = trueAnomaly e E ^ ((l : ℤ) - 2 * p) *
        (Complex.exp (((((l : ℤ) - 2 * p : ℤ) * ω + ψ : ℝ) : ℂ) * Complex.I) * Complex.exp (-(j * (E - e * Real.sin E)) * Complex.I)) by ring,
      ← Complex.exp_add, mul_left_comm, ← Complex.exp_add]
    congr 2
    push_cast
    ring
  · intro p _
    refine Continuous.intervalIntegrable ?_ _ _
    refine ((Continuous.div continuous_const (by fun_prop) fun E => pow_ne_zero _ (hne E)).mul ?_).mul (by fun_prop)
    exact Complex.continuous_re.comp (continuous_const.mul (spiral_continuous he _ j))

/-! ### The inclination functions of the program -/

/-- The inclination functions of the 12-hour resonance. -/
noncomputable def kaula (x : ℝ) : HalfIncl where
  f220 := inclination 2 2 0 x
  f221 := inclination 2 2 1 x
  f321 := inclination 3 2 1 x
  f322 := inclination 3 2 2 x
  f441 := inclination 4 4 1 x
  f442 := inclination 4 4 2 x
  f522 := inclination 5 2 2 x
  f523 := inclination 5 2 3 x
  f542 := inclination 5 4 2 x
  f543 := inclination 5 4 3 x

/-- What the initialisation stores of the inclination. -/
def Inclined (i : Init) (x : ℝ) : Prop := i.cosio = Real.cos x ∧ i.cosio2 = Real.cos x * Real.cos x ∧ i.sinio = Real.sin x

theorem inclined_init (e : Elem) : Inclined (sxpx_common_init e) e.xincl := ⟨rfl, rfl, rfl⟩

/-- **C141**: the functions of the inclination in the coefficients for 12-hour orbits are Kaula's; two of them have constants rounded to 8 digits and
differ by at most 10⁻⁶. -/
theorem C141_half {i : Init} {x : ℝ} (h : Inclined i x) :
    (halfIncl i).f220 = (kaula x).f220 ∧ (halfIncl i).f221 = (kaula x).f221 ∧ (halfIncl i).f321 = (kaula x).f321 ∧ (halfIncl i).f322 = (kaula x).f322 ∧
    (halfIncl i).f441 = (kaula x).f441 ∧ (halfIncl i).f442 = (kaula x).f442 ∧ (halfIncl i).f542 = (kaula x).f542 ∧ (halfIncl i).f543 = (kaula x).f543 ∧
    |(halfIncl i).f522 - (kaula x).f522| ≤ 1 / 10 ^ 6 ∧ |(halfIncl i).f523 - (kaula x).f523| ≤ 4 / 10 ^ 6 := by
  obtain ⟨h1, h2, h3⟩ := h
  have hs := Real.sin_sq_add_cos_sq x
  have hs1 := abs_le.1 (Real.abs_sin_le_one x)
  have hc1 := abs_le.1 (Real.abs_cos_le_one x)
  simp only [halfIncl, kaula, h1, h2, h3, incl220, incl221, incl321, incl322, incl441, incl442, incl522, incl523, incl542, incl543]
  generalize Real.sin x = s at *
  generalize Real.cos x = c at *
  have hs2 : s * s = 1 - c ^ 2 := by linear_combination hs
  have hab : |s| ≤ 1 := abs_le.2 hs1
  refine ⟨by ring, by rw [hs2], by ring, by ring, by rw [hs2]; ring, by rw [mul_assoc, hs2]; ring, by ring, by ring, ?_, ?_⟩
  · rw [show 984375 / 10 ^ 5 * s * (s * s * (1 - 2 * c - 5 * (c * c)) + 33333333 / 10 ^ 8 * (-2 + 4 * c + 6 * (c * c))) -
        315 / 32 * s * (s ^ 2 * (1 - 2 * c - 5 * c ^ 2) + 1 / 3 * (-2 + 4 * c + 6 * c ^ 2)) =
        s * (-(984375 / 10 ^ 5 / (3 * 10 ^ 8)) * (-2 + 4 * c + 6 * (c * c))) by ring, abs_mul]
    have : |-(984375 / 10 ^ 5 / (3 * 10 ^ 8)) * (-2 + 4 * c + 6 * (c * c))| ≤ 1 / 10 ^ 6 := by rw [abs_le]; constructor <;> nlinarith
    nlinarith [abs_nonneg s, abs_nonneg (-(984375 / 10 ^ 5 / (3 * 10 ^ 8)) * (-2 + 4 * c + 6 * (c * c)))]
  · rw [show s * (492187512 / 10 ^ 8 * (s * s) * (-2 - 4 * c + 10 * (c * c)) + 656250012 / 10 ^ 8 * (1 + 2 * c - 3 * (c * c))) -
        s * (315 / 64 * s ^ 2 * (-2 - 4 * c + 10 * c ^ 2) + 105 / 16 * (1 + 2 * c - 3 * c ^ 2)) =
        s * (12 / 10 ^ 8 * ((s * s) * (-2 - 4 * c + 10 * (c * c)) + (1 + 2 * c - 3 * (c * c)))) by ring, abs_mul]
    have : |12 / 10 ^ 8 * ((s * s) * (-2 - 4 * c + 10 * (c * c)) + (1 + 2 * c - 3 * (c * c)))| ≤ 4 / 10 ^ 6 := by
      rw [hs2, abs_le]
      constructor <;> nlinarith [sq_nonneg c, sq_nonneg (c ^ 2), mul_nonneg (sq_nonneg c) (sub_nonneg.2 hc1.2)]
    nlinarith [abs_nonneg s, abs_nonneg (12 / 10 ^ 8 * ((s * s) * (-2 - 4 * c + 10 * (c * c)) + (1 + 2 * c - 3 * (c * c))))]

/-- **C141**: the functions of the inclination in the coefficients for synchronous orbits are Kaula's. -/
theorem C141_full {i : Init} {x : ℝ} (h : Inclined i x) : fullIncl i = (inclination 3 1 1 x, inclination 2 2 0 x, inclination 3 3 0 x) := by
  obtain ⟨h1, -, h3⟩ := h
  rw [incl311, incl220, incl330]
  unfold fullIncl
  rw [h1, h3]
  refine Prod.ext ?_ (Prod.ext ?_ ?_) <;> dsimp only <;> ring

/-! ### The acceleration is the derivative of the mean potential -/

/-- One term of the mean potential, with the functions of inclination and eccentricity `F`, `G` (C142_mean). -/
noncomputable def meanTerm (l m : ℕ) (C S a F G ψ : ℝ) : ℝ := 1 / a ^ (l + 1) * (F * G * wave l m C S ψ)

theorem mean_terms {l m : ℕ} (hlm : (l, m) ∈ resonant) {e : ℝ} (he : |e| < 1) (j : ℤ) (C S a i ω ψ : ℝ) (h : ℝ → ℝ) (hh : ∀ M, m * h M = ψ - j * M) :
    meanTesseral l m C S a e i ω h =
      ∑ p ∈ Finset.range (l + 1), meanTerm l m C S a (inclination l m p i) (hansen l (l - 2 * p) j e) (((l : ℤ) - 2 * p : ℤ) * ω + ψ) := by
  rw [C142_mean hlm he j C S a i ω ψ h hh, Finset.mul_sum]
  rfl

/-- A harmonic of amplitude `J` and phase `g` (`c`, `s` the cosine and sine of `g`), as coefficients. -/
noncomputable def coeffC (l m : ℕ) (J c s : ℝ) : ℝ := if Even (l - m) then J * c else J * s
noncomputable def coeffS (l m : ℕ) (J c s : ℝ) : ℝ := if Even (l - m) then J * s else -(J * c)

theorem wave_coeff (l m : ℕ) (J c s ψ : ℝ) :
    wave l m (coeffC l m J c s) (coeffS l m J c s) ψ = J * (c * Real.cos ψ + s * Real.sin ψ) := by
  unfold wave coeffC coeffS
  split_ifs <;> ring

theorem wave_deriv (l m : ℕ) (J c s k : ℝ) (n : ℕ) (ξ : ℝ) :
    HasDerivAt (fun ξ => wave l m (coeffC l m J c s) (coeffS l m J c s) (k + n * ξ)) (-((⟨J * n, n, k, c, s⟩ : Wave).at ξ)) ξ := by
  have h : HasDerivAt (fun ξ : ℝ => k + n * ξ) n ξ := by simpa using ((hasDerivAt_id ξ).const_mul (n : ℝ)).const_add k
  simp only [wave_coeff]
  refine (((h.cos.const_mul c).add (h.sin.const_mul s)).const_mul J).congr_deriv ?_
  unfold Wave.at
  dsimp only
  rw [add_comm k]
  ring

/-- `(3/a²) ×` the derivative of a term of the potential, for the gravitational parameter `n²a³`. -/
theorem meanTerm_deriv (l m : ℕ) {a : ℝ} (ha : a ≠ 0) (N J c s F G k : ℝ) (n : ℕ) (ξ : ℝ) :
    HasDerivAt (fun ξ => N ^ 2 * a ^ 3 * meanTerm l m (coeffC l m J c s) (coeffS l m J c s) a F G (k + n * ξ))
      (-(a ^ 2 / 3 * (⟨n * (3 * N ^ 2 * (1 / a) ^ l) * J * F * G, n, k, c, s⟩ : Wave).at ξ)) ξ := by
  unfold meanTerm
  refine ((((wave_deriv l m J c s k n ξ).const_mul (F * G)).const_mul (1 / a ^ (l + 1))).const_mul (N ^ 2 * a ^ 3)).congr_deriv ?_
  unfold Wave.at
  dsimp only
  rw [one_div_pow]
  field_simp
  ring

/-- The terms of the mean potential that are kept for 12-hour orbits (`F`, `G` the functions of inclination and eccentricity). -/
noncomputable def halfMean (f : HalfIncl) (g : HalfEcc) (a ω ξ : ℝ) : ℝ :=
  let T := fun (l m : ℕ) (J c s F G ψ : ℝ) => meanTerm l m (coeffC l m J c s) (coeffS l m J c s) a F G ψ
  T 2 2 (17891679 / 10 ^ 13) c_g22 s_g22 f.f220 g.g201 (2 * ω + (1 : ℕ) * ξ) + T 2 2 (17891679 / 10 ^ 13) c_g22 s_g22 f.f221 g.g211 (0 + (1 : ℕ) * ξ) +
  (T 3 2 (37393792 / 10 ^ 14) c_g32 s_g32 f.f321 g.g310 (ω + (1 : ℕ) * ξ) + T 3 2 (37393792 / 10 ^ 14) c_g32 s_g32 f.f322 g.g322 (-ω + (1 : ℕ) * ξ)) +
  (T 5 2 (11428639 / 10 ^ 14) c_g52 s_g52 f.f522 g.g520 (ω + (1 : ℕ) * ξ) + T 5 2 (11428639 / 10 ^ 14) c_g52 s_g52 f.f523 g.g532 (-ω + (1 : ℕ) * ξ)) +
  (T 4 4 (73636953 / 10 ^ 16) c_g44 s_g44 f.f441 g.g410 (2 * ω + (2 : ℕ) * ξ) + T 4 4 (73636953 / 10 ^ 16) c_g44 s_g44 f.f442 g.g422 (0 + (2 : ℕ) * ξ)) +
  (T 5 4 (21765803 / 10 ^ 16) c_g54 s_g54 f.f542 g.g521 (ω + (2 : ℕ) * ξ) + T 5 4 (21765803 / 10 ^ 16) c_g54 s_g54 f.f543 g.g533 (-ω + (2 : ℕ) * ξ))

/-- **C142**: the acceleration of 12-hour orbits is `-3/a²` times the derivative of the kept terms of the mean potential with respect to the
resonant longitude. -/
theorem C142_half {c : Deep} {f : HalfIncl} {g : HalfEcc} (hc : c.d = halfDayOf f g c.i) (hr : c.res ≠ .full) (ha : c.i.aodp ≠ 0) (t ξ : ℝ) :
    HasDerivAt (fun ξ => c.i.xnodp ^ 2 * c.i.aodp ^ 3 * halfMean f g c.i.aodp (c.omegaq + c.i.omgdot * t) ξ) (-(c.i.aodp ^ 2 / 3 * accel c t ξ)) ξ := by
  unfold accel
  rw [if_neg hr]
  generalize c.omegaq + c.i.omgdot * t = ω
  unfold halfMean
  dsimp only
  simp only [mul_add]
  refine (((((meanTerm_deriv 2 2 ha _ _ _ _ _ _ _ _ ξ).add (meanTerm_deriv 2 2 ha _ _ _ _ _ _ _ _ ξ)).add
    ((meanTerm_deriv 3 2 ha _ _ _ _ _ _ _ _ ξ).add (meanTerm_deriv 3 2 ha _ _ _ _ _ _ _ _ ξ))).add
    ((meanTerm_deriv 5 2 ha _ _ _ _ _ _ _ _ ξ).add (meanTerm_deriv 5 2 ha _ _ _ _ _ _ _ _ ξ))).add
    ((meanTerm_deriv 4 4 ha _ _ _ _ _ _ _ _ ξ).add (meanTerm_deriv 4 4 ha _ _ _ _ _ _ _ _ ξ))).add
    ((meanTerm_deriv 5 4 ha _ _ _ _ _ _ _ _ ξ).add (meanTerm_deriv 5 4 ha _ _ _ _ _ _ _ _ ξ)) |>.congr_deriv ?_
  simp only [waves, halfWaves, hc, halfDayOf, Wave.at, List.map_cons, List.map_nil, List.sum_cons, List.sum_nil, Nat.cast_one, Nat.cast_ofNat]
  ring

/-- The eccentricity functions that go with the terms kept for 12-hour orbits. -/
noncomputable def hansenHalf (e : ℝ) : HalfEcc where
  g201 := hansen 2 2 1 e
  g211 := hansen 2 0 1 e
  g310 := hansen 3 1 1 e
  g322 := hansen 3 (-1) 1 e
  g410 := hansen 4 2 2 e
  g422 := hansen 4 0 2 e
  g520 := hansen 5 1 1 e
  g532 := hansen 5 (-1) 1 e
  g521 := hansen 5 1 2 e
  g533 := hansen 5 (-1) 2 e

/-- The terms of the mean potential that are left out for 12-hour orbits: degree, order, and the index `p` of Kaula. -/
def halfLeft : List (ℕ × ℕ × List ℕ) := [(2, 2, [2]), (3, 2, [0, 3]), (4, 4, [0, 3, 4]), (5, 2, [0, 1, 4, 5]), (5, 4, [0, 1, 4, 5])]

/-- The harmonics kept for 12-hour orbits: degree, order, amplitude and cosine and sine of the phase. -/
noncomputable def halfHarmonics : List (ℕ × ℕ × ℝ × ℝ × ℝ) :=
  [(2, 2, 17891679 / 10 ^ 13, c_g22, s_g22), (3, 2, 37393792 / 10 ^ 14, c_g32, s_g32), (4, 4, 73636953 / 10 ^ 16, c_g44, s_g44),
   (5, 2, 11428639 / 10 ^ 14, c_g52, s_g52), (5, 4, 21765803 / 10 ^ 16, c_g54, s_g54)]

/-- **C142**: with Kaula's functions, the kept terms and the terms left out make up the potential of the five harmonics averaged over a revolution
during which the Earth turns by half a turn. -/
theorem C142_kept {e : ℝ} (he : |e| < 1) (a x ω ξ : ℝ) :
    (halfHarmonics.map fun q => meanTesseral q.1 q.2.1 (coeffC q.1 q.2.1 q.2.2.1 q.2.2.2.1 q.2.2.2.2) (coeffS q.1 q.2.1 q.2.2.1 q.2.2.2.1 q.2.2.2.2)
        a e x ω fun M => (ξ - M) / 2).sum =
      halfMean (kaula x) (hansenHalf e) a ω ξ +
      ((halfHarmonics.zip halfLeft).map fun q => (q.2.2.2.map fun p => meanTerm q.1.1 q.1.2.1 (coeffC q.1.1 q.1.2.1 q.1.2.2.1 q.1.2.2.2.1 q.1.2.2.2.2)
        (coeffS q.1.1 q.1.2.1 q.1.2.2.1 q.1.2.2.2.1 q.1.2.2.2.2) a (inclination q.1.1 q.1.2.1 p x) (hansen q.1.1 (q.1.1 - 2 * p) (q.1.2.1 / 2) e)
        (((q.1.1 : ℤ) - 2 * p : ℤ) * ω + q.1.2.1 / 2 * ξ)).sum).sum := by
  have h2 : ∀ M : ℝ, ((2 : ℕ) : ℝ) * ((ξ - M) / 2) = ξ - (1 : ℤ) * M := fun M => by push_cast; ring
  have h4 : ∀ M : ℝ, ((4 : ℕ) : ℝ) * ((ξ - M) / 2) = 2 * ξ - (2 : ℤ) * M := fun M => by push_cast; ring
  simp only [halfHarmonics, List.map_cons, List.map_nil, List.sum_cons, List.sum_nil]
  rw [mean_terms (l := 2) (m := 2) (by decide) he 1 _ _ a x ω ξ _ h2, mean_terms (l := 3) (m := 2) (by decide) he 1 _ _ a x ω ξ _ h2,
    mean_terms (l := 5) (m := 2) (by decide) he 1 _ _ a x ω ξ _ h2, mean_terms (l := 4) (m := 4) (by decide) he 2 _ _ a x ω (2 * ξ) _ h4,
    mean_terms (l := 5) (m := 4) (by decide) he 2 _ _ a x ω (2 * ξ) _ h4]
  simp only [halfMean, kaula, hansenHalf, halfLeft, List.zip_cons_cons, List.zip_nil_right, List.map_cons, List.map_nil, List.sum_cons, List.sum_nil,
    Finset.sum_range_succ, Finset.sum_range_zero]
  norm_num
  ring

/-! ### Synchronous orbits -/

/-- The terms of the mean potential that are kept for synchronous orbits. -/
noncomputable def fullMean (f g : ℝ × ℝ × ℝ) (a ξ : ℝ) : ℝ :=
  let T := fun (l m : ℕ) (J c s F G ψ : ℝ) => meanTerm l m (coeffC l m J c s) (coeffS l m J c s) a F G ψ
  T 3 1 (21460748 / 10 ^ 13) c_fasx2 s_fasx2 f.1 g.1 (0 + (1 : ℕ) * ξ) + T 2 2 (17891679 / 10 ^ 13) c_2fasx4 s_2fasx4 f.2.1 g.2.1 (0 + (2 : ℕ) * ξ) +
  T 3 3 (22123015 / 10 ^ 14) c_3fasx6 s_3fasx6 f.2.2 g.2.2 (0 + (3 : ℕ) * ξ)

/-- **C142**: the acceleration of synchronous orbits is `-3/a²` times the derivative of the kept terms of the mean potential with respect to the
resonant longitude. -/
theorem C142_full {c : Deep} {f g : ℝ × ℝ × ℝ} (hc : (c.del1, c.del2, c.del3) = fullDayOf f g c.i) (hr : c.res = .full) (ha : c.i.aodp ≠ 0) (t ξ : ℝ) :
    HasDerivAt (fun ξ => c.i.xnodp ^ 2 * c.i.aodp ^ 3 * fullMean f g c.i.aodp ξ) (-(c.i.aodp ^ 2 / 3 * accel c t ξ)) ξ := by
  unfold accel
  rw [if_pos hr]
  obtain ⟨e1, e2⟩ := Prod.ext_iff.1 hc
  obtain ⟨e2, e3⟩ := Prod.ext_iff.1 e2
  dsimp only at e1 e2 e3
  unfold fullMean
  dsimp only
  simp only [mul_add]
  refine ((meanTerm_deriv 3 1 ha _ _ _ _ _ _ _ _ ξ).add (meanTerm_deriv 2 2 ha _ _ _ _ _ _ _ _ ξ)).add (meanTerm_deriv 3 3 ha _ _ _ _ _ _ _ _ ξ)
    |>.congr_deriv ?_
  simp only [waves, fullWaves, e1, e2, e3, fullDayOf, Wave.at, List.map_cons, List.map_nil, List.sum_cons, List.sum_nil, Nat.cast_one, Nat.cast_ofNat]
  ring

theorem hansen_circle (l : ℕ) (k j : ℤ) : hansen l k j 0 = if k = j then 1 else 0 := by
  have e : ∀ E : ℝ, (trueAnomaly 0 E ^ k * Complex.exp (-(j * ((E : ℂ) - ((0 : ℝ) : ℂ) * Real.sin E)) * Complex.I)).re = Real.cos ((k - j : ℤ) * E) := by
    intro E
    rw [show trueAnomaly 0 E = Complex.exp (E * Complex.I) by
      apply Complex.ext <;> simp [trueAnomaly, Complex.exp_ofReal_mul_I_re, Complex.exp_ofReal_mul_I_im], exp_zpow, ← Complex.exp_add,
      show ((k * E : ℝ) : ℂ) * Complex.I + -(j * ((E : ℂ) - ((0 : ℝ) : ℂ) * Real.sin E)) * Complex.I = (((k - j : ℤ) * E : ℝ) : ℂ) * Complex.I by
        push_cast; ring, Complex.exp_ofReal_mul_I_re]
  unfold hansen overRevolution
  simp only [e, zero_mul, sub_zero, one_pow, div_one, one_mul, mul_one]
  split_ifs with h
  · simp [h]
    field_simp
    ring
  · have hk : ((k - j : ℤ) : ℝ) ≠ 0 := by exact_mod_cast sub_ne_zero.2 h
    rw [intervalIntegral.integral_comp_mul_left (fun x => Real.cos x) hk, integral_cos, mul_neg, Real.sin_neg, Real.sin_int_mul_pi]
    simp

/-- **C142**: for a synchronous circular orbit, the acceleration is exactly `-3/a²` times the derivative of the potential of the three harmonics,
averaged over a revolution during which the Earth turns once. -/
theorem C142_synchronous {e : Elem} (he : e.eo = 0) (hr : (SDP4_init e).res = .full) (ha : (SDP4_init e).i.aodp ≠ 0) (ω t ξ : ℝ) :
    HasDerivAt (fun ξ => (SDP4_init e).i.xnodp ^ 2 * (SDP4_init e).i.aodp ^ 3 *
      (([(3, 1, 21460748 / 10 ^ 13, c_fasx2, s_fasx2), (2, 2, 17891679 / 10 ^ 13, c_2fasx4, s_2fasx4), (3, 3, 22123015 / 10 ^ 14, c_3fasx6, s_3fasx6)] :
        List (ℕ × ℕ × ℝ × ℝ × ℝ)).map fun q =>
        meanTesseral q.1 q.2.1 (coeffC q.1 q.2.1 q.2.2.1 q.2.2.2.1 q.2.2.2.2) (coeffS q.1 q.2.1 q.2.2.1 q.2.2.2.1 q.2.2.2.2) (SDP4_init e).i.aodp 0
          e.xincl ω fun M => ξ - M - ω).sum)
      (-((SDP4_init e).i.aodp ^ 2 / 3 * accel (SDP4_init e) t ξ)) ξ := by
  have h0 : |(0 : ℝ)| < 1 := by norm_num
  have hfg : ((SDP4_init e).del1, (SDP4_init e).del2, (SDP4_init e).del3) = fullDayOf (inclination 3 1 1 e.xincl, inclination 2 2 0 e.xincl,
      inclination 3 3 0 e.xincl) (1, 1, 1) (SDP4_init e).i := by
    rw [← C141_full (inclined_init e)]
    change fullDayOf (fullIncl (sxpx_common_init e)) (fullEcc (e.eo * e.eo)) (sxpx_common_init e) = fullDayOf (fullIncl (sxpx_common_init e)) (1, 1, 1) (sxpx_common_init e)
    congr 1
    rw [he]
    simp [fullEcc]
  convert C142_full hfg hr ha t ξ using 1
  funext ξ
  congr 1
  have hh : ∀ (m : ℕ) (M : ℝ), (m : ℝ) * (ξ - M - ω) = m * (ξ - ω) - (m : ℤ) * M := fun m M => by push_cast; ring
  simp only [List.map_cons, List.map_nil, List.sum_cons, List.sum_nil]
  rw [mean_terms (l := 3) (m := 1) (by decide) h0 _ _ _ _ _ ω _ _ (hh 1), mean_terms (l := 2) (m := 2) (by decide) h0 _ _ _ _ _ ω _ _ (hh 2),
    mean_terms (l := 3) (m := 3) (by decide) h0 _ _ _ _ _ ω _ _ (hh 3)]
  simp only [fullMean, hansen_circle, Finset.sum_range_succ, Finset.sum_range_zero]
  norm_num
  simp only [meanTerm, wave_coeff]
  ring_nf

/-! ### Examples -/

/-- At the inclination with `cos² i = 1/3` the oblateness does not change the mean motion. -/
theorem magic_axis {e : Elem} (h : e.xincl = Real.arccos (1 / √3)) :
    (sxpx_common_init e).xnodp = e.xno ∧ (sxpx_common_init e).aodp = (xke / e.xno) ^ (2 / 3 : ℝ) := by
  have h3 : (0 : ℝ) < √3 := Real.sqrt_pos.mpr (by norm_num)
  have hc : Real.cos e.xincl * Real.cos e.xincl = 1 / 3 := by
    have h1 : (1 : ℝ) ≤ √3 := Real.one_le_sqrt.mpr (by norm_num)
    rw [h, Real.cos_arccos (by have : 0 < 1 / √3 := by positivity
                               linarith) ((div_le_one h3).mpr h1), div_mul_div_comm, Real.mul_self_sqrt (by norm_num)]
    norm_num
  have ht : tval e = 0 := by unfold tval; rw [hc]; norm_num
  have hd : delo e = 0 := by unfold delo; rw [ht, zero_div]
  constructor
  · show e.xno / (1 + delo e) = _
    rw [hd]; simp
  · show ao e / (1 - delo e) = _
    rw [hd]; unfold ao del1; rw [ht]; unfold a1; norm_num

/-- A synchronous satellite on a circular orbit. -/
noncomputable def geo : Elem where
  epoch := 2451545
  bstar := 0
  xincl := Real.arccos (1 / √3)
  xnodeo := 0
  eo := 0
  omegao := 0
  xmo := 0
  xno := 2 * Real.pi / 1440
  ephType := 0

/-- The hypotheses of C142_synchronous hold for a circular orbit with a period of one day. -/
example : (SDP4_init geo).res = .full ∧ (SDP4_init geo).i.aodp ≠ 0 := by
  obtain ⟨h1, h2⟩ := magic_axis (e := geo) rfl
  have hp := Real.pi_pos
  constructor
  · show resonanceOf geo (sxpx_common_init geo) = _
    unfold resonanceOf
    rw [if_neg (by rintro ⟨-, -, h⟩; norm_num [geo] at h), if_pos]
    rw [h1]
    unfold geo
    dsimp only
    constructor <;> linarith
  · show (sxpx_common_init geo).aodp ≠ 0
    rw [h2]
    refine (Real.rpow_pos_of_pos (div_pos (by unfold xke; norm_num) ?_) _).ne'
    unfold geo
    dsimp only
    positivity

/-- Over the equator the terms of the degrees 3, 2, 3 have the factors -3/2, 3 and 15. -/
example (i : Init) (h : Inclined i 0) : fullIncl i = (-(3 / 2), 3, 15) := by
  rw [C141_full h, incl311, incl220, incl330]
  norm_num

/-- On a circular orbit the harmonic 2,2 does not accelerate a 12-hour satellite. -/
example : (hansenHalf 0).g201 = 0 ∧ (hansenHalf 0).g211 = 0 := ⟨by simp [hansenHalf, hansen_circle], by simp [hansenHalf, hansen_circle]⟩

end SatSky.Props
