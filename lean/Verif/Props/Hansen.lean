import Verif.Lemmas.Hansen
import Verif.Props.Tesseral

/-! C173: the functions of the eccentricity for synchronous orbits are Hansen's coefficients. -/

namespace SatSky.Props

open SatSky.Spec SatSky.Sxp SatSky.Hansen

/-- Coefficients of an expansion that is given term by term. -/
theorem hansen_expansion {l n : ℕ} {c0 c1 c2 c3 c4 p01 p02 p03 p04 q01 q02 q03 q04 p11 p12 p13 p14 q11 q12 q13 q14 p21 p22 p23 p24 q21 q22 q23 q24
    p31 p32 p33 p34 q31 q32 q33 q34 p41 p42 p43 p44 q41 q42 q43 q44 : ℂ} {m0 m1 m2 m3 m4 : ℝ}
    (h : Ser (integrand l n n) (lau c0 p01 p02 p03 p04 q01 q02 q03 q04) (lau c1 p11 p12 p13 p14 q11 q12 q13 q14) (lau c2 p21 p22 p23 p24 q21 q22 q23 q24)
      (lau c3 p31 p32 p33 p34 q31 q32 q33 q34) (lau c4 p41 p42 p43 p44 q41 q42 q43 q44))
    (h0 : c0 = m0) (h1 : c1 = m1) (h2 : c2 = m2) (h3 : c3 = m3) (h4 : c4 = m4) :
    ∃ K : ℝ, ∀ e, 0 ≤ e → e ≤ 1 / 4 → |hansen l n n e - (m0 + m1 * e + m2 * e ^ 2 + m3 * e ^ 3 + m4 * e ^ 4)| ≤ K * e ^ 5 := by
  obtain ⟨K, hK⟩ := h.mean (fun e h0 h1 => integrand_continuous l n n h0 h1) (lau_continuous ..) (lau_continuous ..) (lau_continuous ..) (lau_continuous ..)
    (lau_continuous ..) (by rw [mean_lau, h0]) (by rw [mean_lau, h1]) (by rw [mean_lau, h2]) (by rw [mean_lau, h3]) (by rw [mean_lau, h4])
  exact ⟨K, fun e h0 h1 => by rw [hansen_eq l n n h0 h1]; exact hK e h0 h1⟩

/-- **C173**: `g200` is Hansen's coefficient for degree 2 and the angle `2f - 2M` up to the fifth power of the eccentricity. -/
theorem C173_g200 : ∃ K : ℝ, ∀ e, 0 ≤ e → e ≤ 1 / 4 → |hansen 2 2 2 e - (fullEcc (e * e)).2.1| ≤ K * e ^ 5 := by
  obtain ⟨K, hK⟩ := hansen_expansion (l := 2) (n := 2) (m0 := 1) (m1 := 0) (m2 := -5 / 2) (m3 := 0) (m4 := 13 / 16) ser_22 (by norm_num) (by norm_num)
    (by norm_num) (by norm_num) (by norm_num)
  refine ⟨K, fun e h0 h1 => ?_⟩
  have h := hK e h0 h1
  unfold fullEcc
  dsimp only
  ring_nf at h ⊢
  exact h

/-- **C173**: `g300` is Hansen's coefficient for degree 3 and the angle `3f - 3M`; 6.60937 is 423/64 up to 5e-6. -/
theorem C173_g300 : ∃ K : ℝ, ∀ e, 0 ≤ e → e ≤ 1 / 4 → |hansen 3 3 3 e - (fullEcc (e * e)).2.2| ≤ 5 / 10 ^ 6 * e ^ 4 + K * e ^ 5 := by
  obtain ⟨K, hK⟩ := hansen_expansion (l := 3) (n := 3) (m0 := 1) (m1 := 0) (m2 := -6) (m3 := 0) (m4 := 423 / 64) ser_33 (by norm_num) (by norm_num)
    (by norm_num) (by norm_num) (by norm_num)
  refine ⟨K, fun e h0 h1 => ?_⟩
  have h := abs_le.mp (hK e h0 h1)
  have h4 : 0 ≤ e ^ 4 := by positivity
  unfold fullEcc
  dsimp only
  rw [abs_le]
  constructor <;> nlinarith

/-- **C173**: `g310` is Hansen's coefficient for degree 3 and the angle `f - M`, up to the fourth power of the eccentricity, which it lacks. -/
theorem C173_g310 : ∃ K : ℝ, ∀ e, 0 ≤ e → e ≤ 1 / 4 → |hansen 3 1 1 e - ((fullEcc (e * e)).1 + 239 / 64 * e ^ 4)| ≤ K * e ^ 5 := by
  obtain ⟨K, hK⟩ := hansen_expansion (l := 3) (n := 1) (m0 := 1) (m1 := 0) (m2 := 2) (m3 := 0) (m4 := 239 / 64) ser_31 (by norm_num) (by norm_num)
    (by norm_num) (by norm_num) (by norm_num)
  refine ⟨K, fun e h0 h1 => ?_⟩
  have h := hK e h0 h1
  unfold fullEcc
  dsimp only
  ring_nf at h ⊢
  exact h

/-- **C173**: the terms of the three harmonics that are left out are small of the second order. -/
theorem C173_dropped {l m p : ℕ} (h : (l, m) ∈ [(3, 1), (2, 2), (3, 3)]) (hp : p ≤ l) (hk : (l : ℤ) - 2 * p ≠ m) :
    ∃ K : ℝ, ∀ e, 0 ≤ e → e ≤ 1 / 4 → |hansen l (l - 2 * p) m e| ≤ K * e ^ 2 := by
  simp only [List.mem_cons, Prod.mk.injEq, List.not_mem_nil, or_false] at h
  have ev : 2 ≤ |(l : ℤ) - 2 * p - m| := by rcases h with ⟨rfl, rfl⟩ | ⟨rfl, rfl⟩ | ⟨rfl, rfl⟩ <;> (rw [le_abs]; omega)
  exact hansen_small l _ m (by rcases h with ⟨rfl, rfl⟩ | ⟨rfl, rfl⟩ | ⟨rfl, rfl⟩ <;> norm_num) ev

/-! ### The acceleration of synchronous orbits that are not circles -/

theorem abs_inclination_le (l m p : ℕ) : ∃ B : ℝ, ∀ x, |inclination l m p x| ≤ B := by
  have hpow : ∀ (y : ℝ) (n : ℕ), |y| ≤ 1 → |y ^ n| ≤ 1 := fun y n h => by rw [abs_pow]; exact pow_le_one₀ (abs_nonneg y) h
  have inner : ∀ t, ∃ B : ℝ, ∀ x, |∑ s ∈ Finset.range (m + 1), (m.choose s : ℝ) * Real.cos x ^ s *
        ∑ c ∈ Finset.range (p - t + 1), ((l - m - 2 * t + s).choose c : ℝ) * ((m - s).choose (p - t - c) : ℝ) * (-1) ^ (c + (l - m) / 2)| ≤ B := by
    intro t
    refine ⟨∑ s ∈ Finset.range (m + 1), |(m.choose s : ℝ) *
        ∑ c ∈ Finset.range (p - t + 1), ((l - m - 2 * t + s).choose c : ℝ) * ((m - s).choose (p - t - c) : ℝ) * (-1) ^ (c + (l - m) / 2)|, fun x => ?_⟩
    refine (Finset.abs_sum_le_sum_abs _ _).trans (Finset.sum_le_sum fun s _ => ?_)
    rw [mul_right_comm, abs_mul _ (Real.cos x ^ s)]
    exact mul_le_of_le_one_right (abs_nonneg _) (hpow _ _ (Real.abs_cos_le_one x))
  choose B hB using inner
  refine ⟨∑ t ∈ Finset.range (min p ((l - m) / 2) + 1),
    |((2 * l - 2 * t).factorial : ℝ) / (t.factorial * (l - t).factorial * (l - m - 2 * t).factorial * 2 ^ (2 * l - 2 * t))| * B t, fun x => ?_⟩
  unfold inclination
  refine (Finset.abs_sum_le_sum_abs _ _).trans (Finset.sum_le_sum fun t _ => ?_)
  rw [abs_mul, abs_mul]
  exact mul_le_mul (mul_le_of_le_one_right (abs_nonneg _) (hpow _ _ (Real.abs_sin_le_one x))) (hB t x) (abs_nonneg _) (abs_nonneg _)

/-- The derivative of one term, when its function of the eccentricity is small of the second order. -/
theorem wave_small {l : ℕ} (hl : 2 ≤ l) (n : ℕ) (J c s : ℝ) {G : ℝ → ℝ} {F : ℝ → ℝ} (hF : ∃ B : ℝ, ∀ x, |F x| ≤ B)
    (hG : ∃ K : ℝ, ∀ e, 0 ≤ e → e ≤ 1 / 4 → |G e| ≤ K * e ^ 2) :
    ∃ K : ℝ, ∀ a N e x k ξ : ℝ, 1 ≤ a → 0 ≤ e → e ≤ 1 / 4 →
      |a ^ 2 / 3 * (⟨n * (3 * N ^ 2 * (1 / a) ^ l) * J * F x * G e, n, k, c, s⟩ : Wave).at ξ| ≤ K * e ^ 2 * N ^ 2 := by
  obtain ⟨B, hB⟩ := hF
  obtain ⟨K, hK⟩ := hG
  refine ⟨n * |J| * B * K * (|c| + |s|), fun a N e x k ξ ha h0 h1 => ?_⟩
  have hw : ∀ A : ℝ, ∃ y, |y| ≤ |c| + |s| ∧ (⟨A, n, k, c, s⟩ : Wave).at ξ = A * y := by
    intro A
    refine ⟨(⟨1, n, k, c, s⟩ : Wave).at ξ, ?_, ?_⟩
    · unfold Wave.at
      dsimp only
      rw [one_mul]
      refine (abs_sub _ _).trans ?_
      rw [abs_mul, abs_mul]
      exact add_le_add (mul_le_of_le_one_left (abs_nonneg _) (Real.abs_sin_le_one _)) (mul_le_of_le_one_left (abs_nonneg _) (Real.abs_cos_le_one _))
    · unfold Wave.at
      dsimp only
      ring
  obtain ⟨y, hy, e1⟩ := hw (n * (3 * N ^ 2 * (1 / a) ^ l) * J * F x * G e)
  rw [e1]
  have a0 : 0 < a := by linarith
  have ea : a ^ 2 / 3 * (n * (3 * N ^ 2 * (1 / a) ^ l) * J * F x * G e * y) = ((1 / a) ^ (l - 2) * N ^ 2) * (n * (J * (F x * (G e * y)))) := by
    obtain ⟨d, rfl⟩ := Nat.exists_eq_add_of_le hl
    rw [Nat.add_sub_cancel_left, pow_add]
    field_simp
  rw [ea, abs_mul, abs_mul, abs_mul, abs_mul, abs_mul, abs_mul]
  have p1 : |(1 / a) ^ (l - 2)| ≤ 1 := by
    rw [abs_of_nonneg (by positivity)]
    exact pow_le_one₀ (by positivity) (by rw [div_le_one a0]; exact ha)
  have hB0 : 0 ≤ B := (abs_nonneg _).trans (hB 0)
  have hK0 : 0 ≤ K * e ^ 2 := (abs_nonneg _).trans (hK e h0 h1)
  rw [abs_of_nonneg (sq_nonneg N), Nat.abs_cast]
  calc _ ≤ (1 * N ^ 2) * (n * (|J| * (B * (K * e ^ 2 * (|c| + |s|))))) := by gcongr <;> first | exact hB x | exact hK e h0 h1
    _ = _ := by ring

/-- The derivative of the potential of one harmonic differs from the derivative of the term that is kept only by terms of the second order. -/
theorem harmonic_force {l m p0 : ℕ} (h : (l, m, p0) ∈ [(3, 1, 1), (2, 2, 0), (3, 3, 0)]) {g : ℝ → ℝ}
    (hg : ∃ K : ℝ, ∀ e, 0 ≤ e → e ≤ 1 / 4 → |hansen l (l - 2 * p0) m e - g e| ≤ K * e ^ 2) (J c s : ℝ) :
    ∃ K : ℝ, ∀ a N e x ω ξ : ℝ, 1 ≤ a → 0 ≤ e → e ≤ 1 / 4 →
      ∃ D : ℝ, HasDerivAt (fun ξ => N ^ 2 * a ^ 3 * meanTesseral l m (coeffC l m J c s) (coeffS l m J c s) a e x ω fun M => ξ - M - ω) D ξ ∧
        |D + a ^ 2 / 3 * (⟨m * (3 * N ^ 2 * (1 / a) ^ l) * J * inclination l m p0 x * g e, m, 0, c, s⟩ : Wave).at ξ| ≤ K * e ^ 2 * N ^ 2 := by
  have hlm : (l, m) ∈ resonant := by
    simp only [List.mem_cons, Prod.mk.injEq, List.not_mem_nil, or_false] at h
    rcases h with ⟨rfl, rfl, -⟩ | ⟨rfl, rfl, -⟩ | ⟨rfl, rfl, -⟩ <;> decide
  have hl : 2 ≤ l := by
    simp only [List.mem_cons, Prod.mk.injEq, List.not_mem_nil, or_false] at h
    omega
  have hp0 : (l : ℤ) - 2 * p0 = m ∧ p0 ≤ l := by
    simp only [List.mem_cons, Prod.mk.injEq, List.not_mem_nil, or_false] at h
    omega
  have hlm3 : (l, m) ∈ [(3, 1), (2, 2), (3, 3)] := by
    simp only [List.mem_cons, Prod.mk.injEq, List.not_mem_nil, or_false] at h ⊢
    omega
  -- the error of each term
  have err : ∀ p ∈ Finset.range (l + 1), ∃ K : ℝ, ∀ a N e x k ξ : ℝ, 1 ≤ a → 0 ≤ e → e ≤ 1 / 4 →
      |a ^ 2 / 3 * (⟨m * (3 * N ^ 2 * (1 / a) ^ l) * J * inclination l m p x * (hansen l (l - 2 * p) m e - if p = p0 then g e else 0), m, k, c, s⟩ : Wave).at ξ| ≤
        K * e ^ 2 * N ^ 2 := by
    intro p hp
    refine wave_small hl m J c s (abs_inclination_le l m p) ?_
    by_cases hpp : p = p0
    · simp only [hpp, if_true]
      exact hg
    · simp only [hpp, if_false, sub_zero]
      refine C173_dropped hlm3 (by simpa [Nat.lt_succ_iff] using hp) ?_
      omega
  choose! K hK using err
  refine ⟨∑ p ∈ Finset.range (l + 1), K p, fun a N e x ω ξ ha h0 h1 => ?_⟩
  have ha0 : a ≠ 0 := by linarith
  have he : |e| < 1 := by rw [abs_of_nonneg h0]; linarith
  have hh : ∀ ξ M : ℝ, (m : ℝ) * (ξ - M - ω) = m * (ξ - ω) - (m : ℤ) * M := fun ξ M => by push_cast; ring
  have terms : ∀ ξ, N ^ 2 * a ^ 3 * meanTesseral l m (coeffC l m J c s) (coeffS l m J c s) a e x ω (fun M => ξ - M - ω) =
      ∑ p ∈ Finset.range (l + 1), N ^ 2 * a ^ 3 * meanTerm l m (coeffC l m J c s) (coeffS l m J c s) a (inclination l m p x) (hansen l (l - 2 * p) m e)
        (((((l : ℤ) - 2 * p : ℤ) : ℝ) * ω - m * ω) + m * ξ) := by
    intro ξ
    rw [mean_terms hlm he m _ _ _ _ ω _ _ (hh ξ), Finset.mul_sum]
    refine Finset.sum_congr rfl fun p _ => ?_
    congr 2
    ring
  refine ⟨_, (HasDerivAt.fun_sum fun p _ => meanTerm_deriv l m ha0 N J c s (inclination l m p x) (hansen l (l - 2 * p) m e)
    ((((l : ℤ) - 2 * p : ℤ) : ℝ) * ω - m * ω) m ξ).congr_of_eventuallyEq (Filter.Eventually.of_forall terms), ?_⟩
  have kept : a ^ 2 / 3 * (⟨m * (3 * N ^ 2 * (1 / a) ^ l) * J * inclination l m p0 x * g e, m, 0, c, s⟩ : Wave).at ξ =
      ∑ p ∈ Finset.range (l + 1), a ^ 2 / 3 * (⟨m * (3 * N ^ 2 * (1 / a) ^ l) * J * inclination l m p x * (if p = p0 then g e else 0), m,
        (((l : ℤ) - 2 * p : ℤ) : ℝ) * ω - m * ω, c, s⟩ : Wave).at ξ := by
    rw [Finset.sum_eq_single p0]
    · rw [if_pos rfl, hp0.1]
      push_cast
      rw [sub_self]
    · intro p _ hp
      rw [if_neg hp]
      unfold Wave.at
      simp
    · intro hp
      exact absurd (Finset.mem_range.2 (Nat.lt_succ_of_le hp0.2)) hp
  rw [kept, ← Finset.sum_add_distrib, Finset.sum_mul, Finset.sum_mul]
  refine (Finset.abs_sum_le_sum_abs _ _).trans (Finset.sum_le_sum fun p hp => ?_)
  have := hK p hp a N e x ((((l : ℤ) - 2 * p : ℤ) : ℝ) * ω - m * ω) ξ ha h0 h1
  rw [← abs_neg] at this
  refine le_trans (le_of_eq (congrArg _ ?_)) this
  unfold Wave.at
  dsimp only
  ring

theorem second_order {f g : ℝ → ℝ} {a : ℝ} (h : ∃ K : ℝ, ∀ e, 0 ≤ e → e ≤ 1 / 4 → |f e - g e| ≤ a * e ^ 4 + K * e ^ 5) :
    ∃ K : ℝ, ∀ e, 0 ≤ e → e ≤ 1 / 4 → |f e - g e| ≤ K * e ^ 2 := by
  obtain ⟨K, hK⟩ := h
  refine ⟨|a| + |K|, fun e h0 h1 => (hK e h0 h1).trans ?_⟩
  have e4 : e ^ 4 ≤ e ^ 2 := pow_le_pow_of_le_one h0 (by linarith) (by norm_num)
  have e5 : e ^ 5 ≤ e ^ 2 := pow_le_pow_of_le_one h0 (by linarith) (by norm_num)
  have p4 : 0 ≤ e ^ 4 := by positivity
  have p5 : 0 ≤ e ^ 5 := by positivity
  nlinarith [le_abs_self a, le_abs_self K, abs_nonneg a, abs_nonneg K]

/-- **C173**: for synchronous orbits that are not circles, the acceleration is `-3/a²` times the derivative of the potential of the three harmonics,
averaged over a revolution, up to the square of the eccentricity. -/
theorem C173_synchronous : ∃ K : ℝ, ∀ e : Elem, 0 ≤ e.eo → e.eo ≤ 1 / 4 → (SDP4_init e).res = .full → 1 ≤ (SDP4_init e).i.aodp → ∀ ω t ξ : ℝ,
    ∃ D : ℝ, HasDerivAt (fun ξ => (SDP4_init e).i.xnodp ^ 2 * (SDP4_init e).i.aodp ^ 3 *
      (([(3, 1, 21460748 / 10 ^ 13, c_fasx2, s_fasx2), (2, 2, 17891679 / 10 ^ 13, c_2fasx4, s_2fasx4), (3, 3, 22123015 / 10 ^ 14, c_3fasx6, s_3fasx6)] :
        List (ℕ × ℕ × ℝ × ℝ × ℝ)).map fun q =>
        meanTesseral q.1 q.2.1 (coeffC q.1 q.2.1 q.2.2.1 q.2.2.2.1 q.2.2.2.2) (coeffS q.1 q.2.1 q.2.2.1 q.2.2.2.1 q.2.2.2.2) (SDP4_init e).i.aodp e.eo
          e.xincl ω fun M => ξ - M - ω).sum) D ξ ∧
      |D - -((SDP4_init e).i.aodp ^ 2 / 3 * accel (SDP4_init e) t ξ)| ≤ K * e.eo ^ 2 * (SDP4_init e).i.xnodp ^ 2 := by
  obtain ⟨K1, h1⟩ := harmonic_force (l := 3) (m := 1) (p0 := 1) (by simp) (g := fun e => (fullEcc (e * e)).1)
    (second_order (a := 239 / 64) (by
      obtain ⟨K, hK⟩ := C173_g310
      refine ⟨K, fun e h0 h1 => ?_⟩
      have := abs_le.mp (hK e h0 h1)
      have h4 : 0 ≤ e ^ 4 := by positivity
      push_cast
      norm_num only
      rw [abs_le]
      constructor <;> linarith)) (21460748 / 10 ^ 13) c_fasx2 s_fasx2
  obtain ⟨K2, h2⟩ := harmonic_force (l := 2) (m := 2) (p0 := 0) (by simp) (g := fun e => (fullEcc (e * e)).2.1)
    (second_order (a := 0) (by
      obtain ⟨K, hK⟩ := C173_g200
      refine ⟨K, fun e h0 h1 => ?_⟩
      rw [zero_mul, zero_add]
      exact hK e h0 h1)) (17891679 / 10 ^ 13) c_2fasx4 s_2fasx4
  obtain ⟨K3, h3⟩ := harmonic_force (l := 3) (m := 3) (p0 := 0) (by simp) (g := fun e => (fullEcc (e * e)).2.2)
    (second_order (a := 5 / 10 ^ 6) (by exact C173_g300)) (22123015 / 10 ^ 14) c_3fasx6 s_3fasx6
  refine ⟨K1 + K2 + K3, fun e e0 e1 hr ha ω t ξ => ?_⟩
  obtain ⟨D1, d1, b1⟩ := h1 _ (SDP4_init e).i.xnodp e.eo e.xincl ω ξ ha e0 e1
  obtain ⟨D2, d2, b2⟩ := h2 _ (SDP4_init e).i.xnodp e.eo e.xincl ω ξ ha e0 e1
  obtain ⟨D3, d3, b3⟩ := h3 _ (SDP4_init e).i.xnodp e.eo e.xincl ω ξ ha e0 e1
  refine ⟨D1 + (D2 + D3), ?_, ?_⟩
  · simp only [List.map_cons, List.map_nil, List.sum_cons, List.sum_nil, add_zero, mul_add]
    exact d1.add (d2.add d3)
  · have hfg : ((SDP4_init e).del1, (SDP4_init e).del2, (SDP4_init e).del3) = fullDayOf (inclination 3 1 1 e.xincl, inclination 2 2 0 e.xincl,
        inclination 3 3 0 e.xincl) (fullEcc (e.eo * e.eo)) (SDP4_init e).i := by
      rw [← C141_full (inclined_init e)]
      rfl
    obtain ⟨f1, f2⟩ := Prod.ext_iff.1 hfg
    obtain ⟨f2, f3⟩ := Prod.ext_iff.1 f2
    dsimp only at f1 f2 f3
    have ea : accel (SDP4_init e) t ξ =
        (⟨(1 : ℕ) * (3 * (SDP4_init e).i.xnodp ^ 2 * (1 / (SDP4_init e).i.aodp) ^ 3) * (21460748 / 10 ^ 13) * inclination 3 1 1 e.xincl *
          (fullEcc (e.eo * e.eo)).1, (1 : ℕ), 0, c_fasx2, s_fasx2⟩ : Wave).at ξ +
        (⟨(2 : ℕ) * (3 * (SDP4_init e).i.xnodp ^ 2 * (1 / (SDP4_init e).i.aodp) ^ 2) * (17891679 / 10 ^ 13) * inclination 2 2 0 e.xincl *
          (fullEcc (e.eo * e.eo)).2.1, (2 : ℕ), 0, c_2fasx4, s_2fasx4⟩ : Wave).at ξ +
        (⟨(3 : ℕ) * (3 * (SDP4_init e).i.xnodp ^ 2 * (1 / (SDP4_init e).i.aodp) ^ 3) * (22123015 / 10 ^ 14) * inclination 3 3 0 e.xincl *
          (fullEcc (e.eo * e.eo)).2.2, (3 : ℕ), 0, c_3fasx6, s_3fasx6⟩ : Wave).at ξ := by
      unfold accel
      rw [if_pos hr]
      simp only [waves, fullWaves, f1, f2, f3, fullDayOf, Wave.at, List.map_cons, List.map_nil, List.sum_cons, List.sum_nil, Nat.cast_one, Nat.cast_ofNat]
      ring
    rw [ea]
    have c1 := abs_le.mp b1
    have c2 := abs_le.mp b2
    have c3 := abs_le.mp b3
    rw [abs_le]
    constructor <;> linarith [c1.1, c1.2, c2.1, c2.2, c3.1, c3.2]

/-- The hypotheses of C173_synchronous hold for an orbit with a period of one day and the eccentricity 1/10. -/
example : let e := { geo with eo := 1 / 10 }
    (SDP4_init e).res = .full ∧ 1 ≤ (SDP4_init e).i.aodp := by
  intro e
  obtain ⟨h1, h2⟩ := magic_axis (e := e) rfl
  have hp := Real.pi_pos
  have h3 := Real.pi_lt_d2
  constructor
  · show resonanceOf e (sxpx_common_init e) = _
    unfold resonanceOf
    rw [if_neg (by rintro ⟨-, -, h⟩; norm_num [e] at h), if_pos]
    rw [h1]
    dsimp only [e, geo]
    constructor <;> linarith [Real.pi_gt_d2]
  · show 1 ≤ (sxpx_common_init e).aodp
    rw [h2]
    refine Real.one_le_rpow ?_ (by norm_num)
    dsimp only [e, geo]
    rw [le_div_iff₀ (by positivity), one_mul]
    unfold xke
    linarith

/-- The mean of `(a/r)³ cos (2f - 2M)` is close to the mean for a circle only if the eccentricity is small. -/
example : (fullEcc (1 / 10 * (1 / 10))).2.1 = 97508125 / 10 ^ 8 := by norm_num [fullEcc]

end SatSky.Props
