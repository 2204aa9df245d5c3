import Verif.Spec.Tesseral
import Mathlib.Analysis.SpecialFunctions.Exponential
import Mathlib.Analysis.Complex.Exponential
import Mathlib.Tactic.Linarith
import Mathlib.Tactic.Ring
import Mathlib.Tactic.FieldSimp
import Mathlib.Tactic.Positivity
import Mathlib.Tactic.LinearCombination

/-! Expansions in powers of the eccentricity up to the fourth, uniformly along the orbit. -/

namespace SatSky.Hansen

open SatSky.Spec

/-- The polynomial with these coefficients. -/
def poly (e : ℝ) (a0 a1 a2 a3 a4 : ℂ) : ℂ := a0 + a1 * e + a2 * e ^ 2 + a3 * e ^ 3 + a4 * e ^ 4

/-- For eccentricities up to 1/4, `F` is the polynomial in the eccentricity with these (bounded) coefficients, up to its fifth power. -/
def Ser (F : ℝ → ℝ → ℂ) (a0 a1 a2 a3 a4 : ℝ → ℂ) : Prop :=
  ∃ K, 0 ≤ K ∧ (∀ E, ‖a0 E‖ ≤ K ∧ ‖a1 E‖ ≤ K ∧ ‖a2 E‖ ≤ K ∧ ‖a3 E‖ ≤ K ∧ ‖a4 E‖ ≤ K) ∧
    ∀ e, 0 ≤ e → e ≤ 1 / 4 → ∀ E, ‖F e E - poly e (a0 E) (a1 E) (a2 E) (a3 E) (a4 E)‖ ≤ K * e ^ 5

theorem poly_le {e K : ℝ} {a0 a1 a2 a3 a4 : ℂ} (h0 : 0 ≤ e) (h1 : e ≤ 1 / 4) (hK : 0 ≤ K)
    (h : ‖a0‖ ≤ K ∧ ‖a1‖ ≤ K ∧ ‖a2‖ ≤ K ∧ ‖a3‖ ≤ K ∧ ‖a4‖ ≤ K) : ‖poly e a0 a1 a2 a3 a4‖ ≤ 5 * K := by
  obtain ⟨b0, b1, b2, b3, b4⟩ := h
  have he : ‖(e : ℂ)‖ ≤ 1 := by rw [Complex.norm_real, Real.norm_of_nonneg h0]; linarith
  have t : ∀ (a : ℂ) (n : ℕ), ‖a‖ ≤ K → ‖a * (e : ℂ) ^ n‖ ≤ K := by
    intro a n ha
    rw [norm_mul, norm_pow]
    exact le_trans (mul_le_of_le_one_right (norm_nonneg _) (pow_le_one₀ (norm_nonneg _) he)) ha
  have t1 := t a1 1 b1
  rw [pow_one] at t1
  unfold poly
  have := norm_add_le (a0 + a1 * e + a2 * e ^ 2 + a3 * e ^ 3) (a4 * (e : ℂ) ^ 4)
  have := norm_add_le (a0 + a1 * e + a2 * e ^ 2) (a3 * (e : ℂ) ^ 3)
  have := norm_add_le (a0 + a1 * e) (a2 * (e : ℂ) ^ 2)
  have := norm_add_le a0 (a1 * (e : ℂ))
  have := t a2 2 b2
  have := t a3 3 b3
  have := t a4 4 b4
  linarith

theorem Ser.mul {F G : ℝ → ℝ → ℂ} {a0 a1 a2 a3 a4 b0 b1 b2 b3 b4 : ℝ → ℂ} (hF : Ser F a0 a1 a2 a3 a4) (hG : Ser G b0 b1 b2 b3 b4) :
    Ser (fun e E => F e E * G e E) (fun E => a0 E * b0 E) (fun E => a0 E * b1 E + a1 E * b0 E)
      (fun E => a0 E * b2 E + a1 E * b1 E + a2 E * b0 E) (fun E => a0 E * b3 E + a1 E * b2 E + a2 E * b1 E + a3 E * b0 E)
      (fun E => a0 E * b4 E + a1 E * b3 E + a2 E * b2 E + a3 E * b1 E + a4 E * b0 E) := by
  obtain ⟨K, hK, ka, kF⟩ := hF
  obtain ⟨L, hL, lb, lG⟩ := hG
  have pr : ∀ {x y : ℂ}, ‖x‖ ≤ K → ‖y‖ ≤ L → ‖x * y‖ ≤ K * L := fun hx hy => by
    rw [norm_mul]; exact mul_le_mul hx hy (norm_nonneg _) hK
  have hKL : 0 ≤ K * L := mul_nonneg hK hL
  refine ⟨31 * (K * L), by positivity, ?_, ?_⟩
  · intro E
    obtain ⟨x0, x1, x2, x3, x4⟩ := ka E
    obtain ⟨y0, y1, y2, y3, y4⟩ := lb E
    dsimp only
    refine ⟨?_, ?_, ?_, ?_, ?_⟩
    · linarith [pr x0 y0]
    · linarith [norm_add_le (a0 E * b1 E) (a1 E * b0 E), pr x0 y1, pr x1 y0]
    · linarith [norm_add_le (a0 E * b2 E + a1 E * b1 E) (a2 E * b0 E), norm_add_le (a0 E * b2 E) (a1 E * b1 E), pr x0 y2, pr x1 y1, pr x2 y0]
    · linarith [norm_add_le (a0 E * b3 E + a1 E * b2 E + a2 E * b1 E) (a3 E * b0 E), norm_add_le (a0 E * b3 E + a1 E * b2 E) (a2 E * b1 E),
        norm_add_le (a0 E * b3 E) (a1 E * b2 E), pr x0 y3, pr x1 y2, pr x2 y1, pr x3 y0]
    · linarith [norm_add_le (a0 E * b4 E + a1 E * b3 E + a2 E * b2 E + a3 E * b1 E) (a4 E * b0 E),
        norm_add_le (a0 E * b4 E + a1 E * b3 E + a2 E * b2 E) (a3 E * b1 E), norm_add_le (a0 E * b4 E + a1 E * b3 E) (a2 E * b2 E),
        norm_add_le (a0 E * b4 E) (a1 E * b3 E), pr x0 y4, pr x1 y3, pr x2 y2, pr x3 y1, pr x4 y0]
  · intro e h0 h1 E
    have dX := kF e h0 h1 E
    have dY := lG e h0 h1 E
    have nX := poly_le h0 h1 hK (ka E)
    have nY := poly_le h0 h1 hL (lb E)
    obtain ⟨x0, x1, x2, x3, x4⟩ := ka E
    obtain ⟨y0, y1, y2, y3, y4⟩ := lb E
    dsimp only
    generalize hP : poly e (a0 E) (a1 E) (a2 E) (a3 E) (a4 E) = P at *
    generalize hQ : poly e (b0 E) (b1 E) (b2 E) (b3 E) (b4 E) = Q at *
    have e5 : (0 : ℝ) ≤ e ^ 5 := by positivity
    have e51 : e ^ 5 ≤ 1 := pow_le_one₀ h0 (by linarith)
    have en : ‖(e : ℂ)‖ ≤ 1 := by rw [Complex.norm_real, Real.norm_of_nonneg h0]; linarith
    -- terms of higher order
    have hR : ‖poly e (a1 E * b4 E + a2 E * b3 E + a3 E * b2 E + a4 E * b1 E) (a2 E * b4 E + a3 E * b3 E + a4 E * b2 E)
        (a3 E * b4 E + a4 E * b3 E) (a4 E * b4 E) 0‖ ≤ 5 * (4 * (K * L)) := by
      apply poly_le h0 h1 (by positivity)
      refine ⟨?_, ?_, ?_, ?_, ?_⟩
      · linarith [norm_add_le (a1 E * b4 E + a2 E * b3 E + a3 E * b2 E) (a4 E * b1 E), norm_add_le (a1 E * b4 E + a2 E * b3 E) (a3 E * b2 E),
          norm_add_le (a1 E * b4 E) (a2 E * b3 E), pr x1 y4, pr x2 y3, pr x3 y2, pr x4 y1]
      · linarith [norm_add_le (a2 E * b4 E + a3 E * b3 E) (a4 E * b2 E), norm_add_le (a2 E * b4 E) (a3 E * b3 E), pr x2 y4, pr x3 y3, pr x4 y2]
      · linarith [norm_add_le (a3 E * b4 E) (a4 E * b3 E), pr x3 y4, pr x4 y3]
      · linarith [pr x4 y4]
      · rw [norm_zero]; positivity
    generalize hT : poly e (a1 E * b4 E + a2 E * b3 E + a3 E * b2 E + a4 E * b1 E) (a2 E * b4 E + a3 E * b3 E + a4 E * b2 E)
        (a3 E * b4 E + a4 E * b3 E) (a4 E * b4 E) 0 = R at hR
    have split : F e E * G e E - poly e (a0 E * b0 E) (a0 E * b1 E + a1 E * b0 E) (a0 E * b2 E + a1 E * b1 E + a2 E * b0 E)
        (a0 E * b3 E + a1 E * b2 E + a2 E * b1 E + a3 E * b0 E) (a0 E * b4 E + a1 E * b3 E + a2 E * b2 E + a3 E * b1 E + a4 E * b0 E) =
        (F e E - P) * (G e E - Q) + (F e E - P) * Q + P * (G e E - Q) + R * (e : ℂ) ^ 5 := by
      rw [← hT, ← hP, ← hQ]
      unfold poly
      ring
    rw [split]
    have n1 : ‖(F e E - P) * (G e E - Q)‖ ≤ K * L * e ^ 5 := by
      rw [norm_mul]
      calc _ ≤ (K * e ^ 5) * (L * e ^ 5) := mul_le_mul dX dY (norm_nonneg _) (by positivity)
        _ = K * L * e ^ 5 * e ^ 5 := by ring
        _ ≤ K * L * e ^ 5 * 1 := mul_le_mul_of_nonneg_left e51 (by positivity)
        _ = _ := mul_one _
    have n2 : ‖(F e E - P) * Q‖ ≤ 5 * (K * L * e ^ 5) := by
      rw [norm_mul]
      calc _ ≤ (K * e ^ 5) * (5 * L) := mul_le_mul dX nY (norm_nonneg _) (by positivity)
        _ = _ := by ring
    have n3 : ‖P * (G e E - Q)‖ ≤ 5 * (K * L * e ^ 5) := by
      rw [norm_mul]
      calc _ ≤ (5 * K) * (L * e ^ 5) := mul_le_mul nX dY (norm_nonneg _) (by positivity)
        _ = _ := by ring
    have n4 : ‖R * (e : ℂ) ^ 5‖ ≤ 20 * (K * L * e ^ 5) := by
      rw [norm_mul, norm_pow, Complex.norm_real, Real.norm_of_nonneg h0]
      calc _ ≤ (5 * (4 * (K * L))) * e ^ 5 := mul_le_mul_of_nonneg_right hR e5
        _ = _ := by ring
    have := norm_add_le ((F e E - P) * (G e E - Q) + (F e E - P) * Q + P * (G e E - Q)) (R * (e : ℂ) ^ 5)
    have := norm_add_le ((F e E - P) * (G e E - Q) + (F e E - P) * Q) (P * (G e E - Q))
    have := norm_add_le ((F e E - P) * (G e E - Q)) ((F e E - P) * Q)
    linarith

/-- The coefficients may be written in another way. -/
theorem Ser.coeff {F : ℝ → ℝ → ℂ} {a0 a1 a2 a3 a4 b0 b1 b2 b3 b4 : ℝ → ℂ} (hF : Ser F a0 a1 a2 a3 a4) (h0 : ∀ E, a0 E = b0 E)
    (h1 : ∀ E, a1 E = b1 E) (h2 : ∀ E, a2 E = b2 E) (h3 : ∀ E, a3 E = b3 E) (h4 : ∀ E, a4 E = b4 E) : Ser F b0 b1 b2 b3 b4 := by
  rw [← funext h0, ← funext h1, ← funext h2, ← funext h3, ← funext h4]
  exact hF

/-- `e^(iE)`. -/
noncomputable def z (E : ℝ) : ℂ := Complex.exp (E * Complex.I)

theorem z_ne (E : ℝ) : z E ≠ 0 := Complex.exp_ne_zero _

theorem z_norm (E : ℝ) : ‖z E‖ = 1 := Complex.norm_exp_ofReal_mul_I E

theorem z_inv_norm (E : ℝ) : ‖(z E)⁻¹‖ = 1 := by rw [norm_inv, z_norm, inv_one]

theorem cos_z (E : ℝ) : (Real.cos E : ℂ) = (z E + (z E)⁻¹) / 2 := by
  unfold z
  rw [← Complex.exp_neg, Complex.ofReal_cos, Complex.cos]
  ring_nf

theorem sin_z (E : ℝ) : (Real.sin E : ℂ) * Complex.I = (z E - (z E)⁻¹) / 2 := by
  unfold z
  rw [← Complex.exp_neg, Complex.ofReal_sin, Complex.sin]
  linear_combination (norm := ring_nf) ((Complex.exp (-(E * Complex.I)) - Complex.exp (E * Complex.I)) / 2) * Complex.I_sq

/-- A factor that does not depend on the eccentricity. -/
theorem ser_const {a : ℝ → ℂ} (h : ∀ E, ‖a E‖ ≤ 1) : Ser (fun _ E => a E) a 0 0 0 0 := by
  refine ⟨1, zero_le_one, fun E => ⟨h E, ?_, ?_, ?_, ?_⟩, fun e h0 h1 E => ?_⟩
  · simp
  · simp
  · simp
  · simp
  · simp [poly]; positivity

theorem e_cos_le {e : ℝ} (h0 : 0 ≤ e) (h1 : e ≤ 1 / 4) (E : ℝ) : |e * Real.cos E| ≤ 1 / 4 := by
  rw [abs_mul, abs_of_nonneg h0]
  nlinarith [Real.abs_cos_le_one E, abs_nonneg (Real.cos E)]

/-- The inverse of the distance. -/
theorem ser_dist : Ser (fun e E => ((1 / (1 - e * Real.cos E) : ℝ) : ℂ)) (fun _ => 1) (fun E => (Real.cos E : ℂ)) (fun E => (Real.cos E : ℂ) ^ 2)
    (fun E => (Real.cos E : ℂ) ^ 3) (fun E => (Real.cos E : ℂ) ^ 4) := by
  have hc : ∀ (E : ℝ) (n : ℕ), ‖(Real.cos E : ℂ) ^ n‖ ≤ 1 := by
    intro E n
    rw [norm_pow, Complex.norm_real]
    exact pow_le_one₀ (norm_nonneg _) (Real.abs_cos_le_one E)
  refine ⟨2, by norm_num, fun E => ⟨?_, ?_, ?_, ?_, ?_⟩, fun e h0 h1 E => ?_⟩
  · simp
  · have := hc E 1; rw [pow_one] at this; linarith
  · linarith [hc E 2]
  · linarith [hc E 3]
  · linarith [hc E 4]
  · have hb := abs_le.mp (e_cos_le h0 h1 E)
    have hd : 0 < 1 - e * Real.cos E := by linarith
    have : ((1 / (1 - e * Real.cos E) : ℝ) : ℂ) - poly e 1 (Real.cos E) ((Real.cos E : ℂ) ^ 2) ((Real.cos E : ℂ) ^ 3) ((Real.cos E : ℂ) ^ 4) =
        (((e * Real.cos E) ^ 5 / (1 - e * Real.cos E) : ℝ) : ℂ) := by
      have : 1 / (1 - e * Real.cos E) - (1 + Real.cos E * e + Real.cos E ^ 2 * e ^ 2 + Real.cos E ^ 3 * e ^ 3 + Real.cos E ^ 4 * e ^ 4) =
          (e * Real.cos E) ^ 5 / (1 - e * Real.cos E) := by
        field_simp
        ring
      rw [← this]
      unfold poly
      push_cast
      ring
    rw [this, Complex.norm_real, Real.norm_eq_abs, abs_div, abs_of_pos hd, div_le_iff₀ hd, abs_pow, abs_mul, mul_pow, abs_of_nonneg h0]
    have c5 : |Real.cos E| ^ 5 ≤ 1 := pow_le_one₀ (abs_nonneg _) (Real.abs_cos_le_one E)
    have e5 : (0 : ℝ) ≤ e ^ 5 := by positivity
    nlinarith

/-- The factor from the mean anomaly, `e^(i n e sin E)`. -/
theorem ser_exp (n : ℝ) (hn : |n| ≤ 4) : Ser (fun e E => Complex.exp (n * e * (Real.sin E * Complex.I))) (fun _ => 1) (fun E => n * (Real.sin E * Complex.I))
    (fun E => n ^ 2 * (Real.sin E * Complex.I) ^ 2 / 2) (fun E => n ^ 3 * (Real.sin E * Complex.I) ^ 3 / 6)
    (fun E => n ^ 4 * (Real.sin E * Complex.I) ^ 4 / 24) := by
  have hs : ∀ E : ℝ, ‖(Real.sin E : ℂ) * Complex.I‖ ≤ 1 := by
    intro E
    rw [norm_mul, Complex.norm_I, mul_one, Complex.norm_real]
    exact Real.abs_sin_le_one E
  have hn' : ‖(n : ℂ)‖ ≤ 4 := by rw [Complex.norm_real]; exact hn
  have hp : ∀ (E : ℝ) (k : ℕ), ‖(n : ℂ) ^ k * ((Real.sin E : ℂ) * Complex.I) ^ k‖ ≤ 4 ^ k := by
    intro E k
    rw [norm_mul, norm_pow, norm_pow]
    calc _ ≤ (4 : ℝ) ^ k * 1 := mul_le_mul (pow_le_pow_left₀ (norm_nonneg _) hn' k) (pow_le_one₀ (norm_nonneg _) (hs E)) (by positivity) (by positivity)
      _ = _ := mul_one _
  have hdv : ∀ (x : ℂ) (d : ℕ), 1 ≤ d → ‖x / (d : ℂ)‖ ≤ ‖x‖ := by
    intro x d hd
    rw [norm_div, Complex.norm_natCast]
    exact div_le_self (norm_nonneg _) (by exact_mod_cast hd)
  refine ⟨4 ^ 5, by norm_num, fun E => ⟨?_, ?_, ?_, ?_, ?_⟩, fun e h0 h1 E => ?_⟩
  · rw [norm_one]; norm_num
  · have := hp E 1; rw [pow_one, pow_one] at this; linarith
  · exact le_trans (hdv (n ^ 2 * (Real.sin E * Complex.I) ^ 2) 2 (by norm_num)) (le_trans (hp E 2) (by norm_num))
  · exact le_trans (hdv (n ^ 3 * (Real.sin E * Complex.I) ^ 3) 6 (by norm_num)) (le_trans (hp E 3) (by norm_num))
  · exact le_trans (hdv (n ^ 4 * (Real.sin E * Complex.I) ^ 4) 24 (by norm_num)) (le_trans (hp E 4) (by norm_num))
  · have hx : ‖(n : ℂ) * e * (Real.sin E * Complex.I)‖ ≤ 4 * e := by
      rw [norm_mul, norm_mul, Complex.norm_real e, Real.norm_of_nonneg h0]
      calc _ ≤ (4 * e) * 1 := mul_le_mul (mul_le_mul_of_nonneg_right hn' h0) (hs E) (norm_nonneg _) (by positivity)
        _ = _ := mul_one _
    have b := Complex.exp_bound (x := n * e * (Real.sin E * Complex.I)) (by linarith) (n := 5) (by norm_num)
    simp only [Finset.sum_range_succ, Finset.sum_range_zero, Nat.factorial] at b
    have e1 : poly e 1 (n * (Real.sin E * Complex.I)) (n ^ 2 * (Real.sin E * Complex.I) ^ 2 / 2) (n ^ 3 * (Real.sin E * Complex.I) ^ 3 / 6)
        (n ^ 4 * (Real.sin E * Complex.I) ^ 4 / 24) = 0 + (n * e * (Real.sin E * Complex.I)) ^ 0 / ((1 : ℕ) : ℂ) +
          (n * e * (Real.sin E * Complex.I)) ^ 1 / (((0 + 1) * 1 : ℕ) : ℂ) + (n * e * (Real.sin E * Complex.I)) ^ 2 / (((1 + 1) * ((0 + 1) * 1) : ℕ) : ℂ) +
          (n * e * (Real.sin E * Complex.I)) ^ 3 / (((2 + 1) * ((1 + 1) * ((0 + 1) * 1)) : ℕ) : ℂ) +
          (n * e * (Real.sin E * Complex.I)) ^ 4 / (((3 + 1) * ((2 + 1) * ((1 + 1) * ((0 + 1) * 1))) : ℕ) : ℂ) := by
      unfold poly
      push_cast
      ring
    rw [e1]
    refine le_trans b ?_
    have x5 := pow_le_pow_left₀ (norm_nonneg _) hx 5
    calc _ ≤ (4 * e) ^ 5 * 1 := mul_le_mul x5 (by norm_num) (by positivity) (by positivity)
      _ = _ := by ring

/-- The direction to the satellite from the focus, turned back by the eccentric anomaly and times the distance. -/
noncomputable def turned (e E : ℝ) : ℂ := ⟨Real.cos E - e, Real.sqrt (1 - e ^ 2) * Real.sin E⟩ * (z E)⁻¹

theorem root_near {e : ℝ} (h0 : 0 ≤ e) (h1 : e ≤ 1 / 4) : |Real.sqrt (1 - e ^ 2) - (1 - e ^ 2 / 2 - e ^ 4 / 8)| ≤ e ^ 5 := by
  have hb : 0 ≤ 1 - e ^ 2 := by nlinarith
  have hs := Real.sq_sqrt hb
  have hp := Real.sqrt_nonneg (1 - e ^ 2)
  generalize Real.sqrt (1 - e ^ 2) = b at *
  have he2 : e ^ 2 ≤ 1 / 16 := by nlinarith
  have he4 : e ^ 4 ≤ 1 / 256 := by nlinarith [sq_nonneg e]
  have hd : 1 / 2 ≤ 1 - e ^ 2 / 2 - e ^ 4 / 8 + b := by linarith
  have key : (1 - e ^ 2 / 2 - e ^ 4 / 8 - b) * (1 - e ^ 2 / 2 - e ^ 4 / 8 + b) = e ^ 6 * (1 / 8 + e ^ 2 / 64) := by
    linear_combination -hs
  have hr : 0 ≤ e ^ 6 * (1 / 8 + e ^ 2 / 64) := by positivity
  have p0 : 0 ≤ 1 - e ^ 2 / 2 - e ^ 4 / 8 - b := by
    by_contra h
    push Not at h
    nlinarith
  rw [abs_sub_comm, abs_of_nonneg p0]
  have : (1 - e ^ 2 / 2 - e ^ 4 / 8 - b) * (1 / 2) ≤ e ^ 6 * (1 / 8 + e ^ 2 / 64) := by
    rw [← key]; exact mul_le_mul_of_nonneg_left hd p0
  have e6 : e ^ 6 * (1 / 8 + e ^ 2 / 64) ≤ e ^ 5 * (1 / 2) := by
    rw [show e ^ 6 = e ^ 5 * e by ring, mul_assoc]
    apply mul_le_mul_of_nonneg_left _ (by positivity)
    nlinarith
  linarith

/-- The turned direction. -/
theorem ser_turned : Ser turned (fun _ => 1) (fun E => -(z E)⁻¹) (fun E => -(1 - (z E)⁻¹ ^ 2) / 4) 0 (fun E => -(1 - (z E)⁻¹ ^ 2) / 16) := by
  have hn : ∀ E, ‖1 - (z E)⁻¹ ^ 2‖ ≤ 2 := by
    intro E
    refine le_trans (norm_sub_le _ _) ?_
    rw [norm_pow, z_inv_norm, norm_one]; norm_num
  refine ⟨1, zero_le_one, fun E => ⟨?_, ?_, ?_, ?_, ?_⟩, fun e h0 h1 E => ?_⟩
  · simp
  · rw [norm_neg, z_inv_norm]
  · rw [norm_div, norm_neg, Complex.norm_ofNat]; linarith [hn E]
  · simp
  · rw [norm_div, norm_neg, Complex.norm_ofNat]; linarith [hn E]
  · have h := root_near h0 h1
    have hz := z_ne E
    have : turned e E - poly e 1 (-(z E)⁻¹) (-(1 - (z E)⁻¹ ^ 2) / 4) ((0 : ℝ → ℂ) E) (-(1 - (z E)⁻¹ ^ 2) / 16) =
        ((Real.sqrt (1 - e ^ 2) - (1 - e ^ 2 / 2 - e ^ 4 / 8) : ℝ) : ℂ) * (Real.sin E * Complex.I) * (z E)⁻¹ := by
      have e1 : (⟨Real.cos E - e, Real.sqrt (1 - e ^ 2) * Real.sin E⟩ : ℂ) = (Real.cos E : ℂ) - e + (Real.sqrt (1 - e ^ 2) : ℂ) * (Real.sin E * Complex.I) := by
        apply Complex.ext <;> simp [-Complex.ofReal_cos, -Complex.ofReal_sin]
      unfold turned poly
      rw [e1, sin_z, cos_z]
      push_cast
      generalize (Real.sqrt (1 - e ^ 2) : ℂ) = b
      generalize z E = w at *
      simp only [Pi.zero_apply]
      field_simp
      ring
    rw [this, norm_mul, norm_mul, z_inv_norm, mul_one, norm_mul, Complex.norm_I, mul_one, Complex.norm_real, Complex.norm_real, Real.norm_eq_abs]
    calc _ ≤ e ^ 5 * 1 := mul_le_mul h (Real.abs_sin_le_one E) (abs_nonneg _) (by positivity)
      _ = _ := by ring

/-! The mean over a revolution -/

theorem z_continuous : Continuous z := by unfold z; fun_prop

theorem z_inv_continuous : Continuous fun E => (z E)⁻¹ := z_continuous.inv₀ z_ne

theorem z_zpow (E : ℝ) (n : ℤ) : z E ^ n = Complex.exp (n * Complex.I * E) := by
  unfold z
  rw [← Complex.exp_int_mul]
  ring_nf

theorem mean_zpow {n : ℤ} (hn : n ≠ 0) : ∫ E in -Real.pi..Real.pi, z E ^ n = 0 := by
  simp only [z_zpow]
  have hc : (n : ℂ) * Complex.I ≠ 0 := mul_ne_zero (by exact_mod_cast hn) Complex.I_ne_zero
  rw [integral_exp_mul_complex hc, div_eq_zero_iff]
  left
  rw [sub_eq_zero, Complex.exp_eq_exp_iff_exists_int]
  exact ⟨n, by push_cast; ring⟩

/-- A sum of powers of `e^(iE)`: `c` is the constant term, `p` and `q` the coefficients of the positive and negative powers. -/
noncomputable def lau (c p1 p2 p3 p4 q1 q2 q3 q4 : ℂ) (E : ℝ) : ℂ :=
  c + p1 * z E + p2 * z E ^ 2 + p3 * z E ^ 3 + p4 * z E ^ 4 + q1 * (z E)⁻¹ + q2 * (z E)⁻¹ ^ 2 + q3 * (z E)⁻¹ ^ 3 + q4 * (z E)⁻¹ ^ 4

theorem lau_continuous (c p1 p2 p3 p4 q1 q2 q3 q4 : ℂ) : Continuous (lau c p1 p2 p3 p4 q1 q2 q3 q4) := by
  unfold lau
  have := z_continuous
  have := z_inv_continuous
  fun_prop

theorem mean_lau (c p1 p2 p3 p4 q1 q2 q3 q4 : ℂ) : ∫ E in -Real.pi..Real.pi, lau c p1 p2 p3 p4 q1 q2 q3 q4 E = 2 * Real.pi * c := by
  have hz := z_continuous
  have hy := z_inv_continuous
  have hp : ∀ n : ℕ, n ≠ 0 → ∫ E in -Real.pi..Real.pi, z E ^ n = 0 := fun n hn => by
    have := mean_zpow (n := (n : ℤ)) (by exact_mod_cast hn)
    simpa using this
  have hq : ∀ n : ℕ, n ≠ 0 → ∫ E in -Real.pi..Real.pi, (z E)⁻¹ ^ n = 0 := fun n hn => by
    have := mean_zpow (n := -(n : ℤ)) (by simpa using hn)
    simpa [zpow_neg, inv_pow] using this
  have ip : ∀ (a : ℂ) (n : ℕ), IntervalIntegrable (fun E => a * z E ^ n) MeasureTheory.volume (-Real.pi) Real.pi := fun a n =>
    Continuous.intervalIntegrable (by fun_prop) _ _
  have iq : ∀ (a : ℂ) (n : ℕ), IntervalIntegrable (fun E => a * (z E)⁻¹ ^ n) MeasureTheory.volume (-Real.pi) Real.pi := fun a n =>
    Continuous.intervalIntegrable (by fun_prop) _ _
  have ic : IntervalIntegrable (fun _ : ℝ => c) MeasureTheory.volume (-Real.pi) Real.pi := Continuous.intervalIntegrable (by fun_prop) _ _
  have e1 : ∀ E, lau c p1 p2 p3 p4 q1 q2 q3 q4 E = c + p1 * z E ^ 1 + p2 * z E ^ 2 + p3 * z E ^ 3 + p4 * z E ^ 4 + q1 * (z E)⁻¹ ^ 1 + q2 * (z E)⁻¹ ^ 2 +
      q3 * (z E)⁻¹ ^ 3 + q4 * (z E)⁻¹ ^ 4 := fun E => by unfold lau; ring
  simp only [e1]
  rw [intervalIntegral.integral_add ((((((((ic.add (ip _ _)).add (ip _ _)).add (ip _ _)).add (ip _ _)).add (iq _ _)).add (iq _ _)).add (iq _ _))) (iq _ _),
    intervalIntegral.integral_add (((((((ic.add (ip _ _)).add (ip _ _)).add (ip _ _)).add (ip _ _)).add (iq _ _)).add (iq _ _))) (iq _ _),
    intervalIntegral.integral_add ((((((ic.add (ip _ _)).add (ip _ _)).add (ip _ _)).add (ip _ _)).add (iq _ _))) (iq _ _),
    intervalIntegral.integral_add (((((ic.add (ip _ _)).add (ip _ _)).add (ip _ _)).add (ip _ _))) (iq _ _),
    intervalIntegral.integral_add ((((ic.add (ip _ _)).add (ip _ _)).add (ip _ _))) (ip _ _),
    intervalIntegral.integral_add (((ic.add (ip _ _)).add (ip _ _))) (ip _ _),
    intervalIntegral.integral_add ((ic.add (ip _ _))) (ip _ _),
    intervalIntegral.integral_add ic (ip _ _)]
  simp only [intervalIntegral.integral_const_mul]
  rw [hp 1 (by norm_num), hp 2 (by norm_num), hp 3 (by norm_num), hp 4 (by norm_num), hq 1 (by norm_num), hq 2 (by norm_num), hq 3 (by norm_num), hq 4 (by norm_num),
    intervalIntegral.integral_const]
  simp only [mul_zero, add_zero]
  rw [Complex.real_smul]
  push_cast
  ring

/-- The mean over a revolution of a function with a given expansion. -/
theorem Ser.mean {F : ℝ → ℝ → ℂ} {a0 a1 a2 a3 a4 : ℝ → ℂ} (hF : Ser F a0 a1 a2 a3 a4) (hc : ∀ e, 0 ≤ e → e ≤ 1 / 4 → Continuous (F e))
    {m0 m1 m2 m3 m4 : ℝ} (c0 : Continuous a0) (c1 : Continuous a1) (c2 : Continuous a2) (c3 : Continuous a3) (c4 : Continuous a4)
    (i0 : ∫ E in -Real.pi..Real.pi, a0 E = 2 * Real.pi * m0) (i1 : ∫ E in -Real.pi..Real.pi, a1 E = 2 * Real.pi * m1)
    (i2 : ∫ E in -Real.pi..Real.pi, a2 E = 2 * Real.pi * m2) (i3 : ∫ E in -Real.pi..Real.pi, a3 E = 2 * Real.pi * m3)
    (i4 : ∫ E in -Real.pi..Real.pi, a4 E = 2 * Real.pi * m4) :
    ∃ K : ℝ, ∀ e, 0 ≤ e → e ≤ 1 / 4 →
      |(∫ E in -Real.pi..Real.pi, (F e E).re) / (2 * Real.pi) - (m0 + m1 * e + m2 * e ^ 2 + m3 * e ^ 3 + m4 * e ^ 4)| ≤ K * e ^ 5 := by
  obtain ⟨K, hK, -, hb⟩ := hF
  refine ⟨K, fun e h0 h1 => ?_⟩
  have hF := hc e h0 h1
  have iF : IntervalIntegrable (F e) MeasureTheory.volume (-Real.pi) Real.pi := hF.intervalIntegrable _ _
  have cP : Continuous fun E => poly e (a0 E) (a1 E) (a2 E) (a3 E) (a4 E) := by unfold poly; fun_prop
  have iP : IntervalIntegrable (fun E => poly e (a0 E) (a1 E) (a2 E) (a3 E) (a4 E)) MeasureTheory.volume (-Real.pi) Real.pi := cP.intervalIntegrable _ _
  have hre : ∫ E in -Real.pi..Real.pi, (F e E).re = (∫ E in -Real.pi..Real.pi, F e E).re := by
    have := Complex.reCLM.intervalIntegral_comp_comm iF
    simpa using this
  have hP : ∫ E in -Real.pi..Real.pi, poly e (a0 E) (a1 E) (a2 E) (a3 E) (a4 E) =
      ((2 * Real.pi * (m0 + m1 * e + m2 * e ^ 2 + m3 * e ^ 3 + m4 * e ^ 4) : ℝ) : ℂ) := by
    have j0 := c0.intervalIntegrable (μ := MeasureTheory.volume) (-Real.pi) Real.pi
    have j1 : IntervalIntegrable (fun E => a1 E * (e : ℂ)) MeasureTheory.volume (-Real.pi) Real.pi := Continuous.intervalIntegrable (by fun_prop) _ _
    have j2 : IntervalIntegrable (fun E => a2 E * (e : ℂ) ^ 2) MeasureTheory.volume (-Real.pi) Real.pi := Continuous.intervalIntegrable (by fun_prop) _ _
    have j3 : IntervalIntegrable (fun E => a3 E * (e : ℂ) ^ 3) MeasureTheory.volume (-Real.pi) Real.pi := Continuous.intervalIntegrable (by fun_prop) _ _
    have j4 : IntervalIntegrable (fun E => a4 E * (e : ℂ) ^ 4) MeasureTheory.volume (-Real.pi) Real.pi := Continuous.intervalIntegrable (by fun_prop) _ _
    unfold poly
    rw [intervalIntegral.integral_add (((j0.add j1).add j2).add j3) j4, intervalIntegral.integral_add ((j0.add j1).add j2) j3,
      intervalIntegral.integral_add (j0.add j1) j2, intervalIntegral.integral_add j0 j1]
    simp only [intervalIntegral.integral_mul_const]
    rw [i0, i1, i2, i3, i4]
    push_cast
    ring
  have hd : ‖∫ E in -Real.pi..Real.pi, (F e E - poly e (a0 E) (a1 E) (a2 E) (a3 E) (a4 E))‖ ≤ K * e ^ 5 * |Real.pi - -Real.pi| :=
    intervalIntegral.norm_integral_le_of_norm_le_const fun E _ => hb e h0 h1 E
  have pp := Real.pi_pos
  rw [intervalIntegral.integral_sub iF iP, hP, show Real.pi - -Real.pi = 2 * Real.pi by ring, abs_of_pos (by linarith : 0 < 2 * Real.pi)] at hd
  have := (Complex.abs_re_le_norm _).trans hd
  rw [Complex.sub_re, Complex.ofReal_re, ← hre] at this
  rw [div_sub' (by linarith : 2 * Real.pi ≠ 0) , abs_div, abs_of_pos (by linarith : 0 < 2 * Real.pi), div_le_iff₀ (by linarith)]
  exact this

/-! Hansen's coefficients -/

open SatSky.Spec

/-- The inverse of the distance. -/
noncomputable def inv (e E : ℝ) : ℂ := ((1 / (1 - e * Real.cos E) : ℝ) : ℂ)

/-- The factor from the mean anomaly. -/
noncomputable def back (n e E : ℝ) : ℂ := Complex.exp (n * e * (Real.sin E * Complex.I))

theorem dist_pos {e : ℝ} (h0 : 0 ≤ e) (h1 : e ≤ 1 / 4) (E : ℝ) : 0 < 1 - e * Real.cos E := by
  linarith [(abs_le.mp (e_cos_le h0 h1 E)).2]

theorem inv_continuous {e : ℝ} (h0 : 0 ≤ e) (h1 : e ≤ 1 / 4) : Continuous (inv e) := by
  unfold inv
  exact Complex.continuous_ofReal.comp (Continuous.div (by fun_prop) (by fun_prop) fun E => (dist_pos h0 h1 E).ne')

theorem turned_continuous (e : ℝ) : Continuous (turned e) := by
  have : turned e = fun E => ((Real.cos E : ℂ) - e + (Real.sqrt (1 - e ^ 2) : ℂ) * (Real.sin E * Complex.I)) * (z E)⁻¹ := by
    funext E
    unfold turned
    congr 1
    apply Complex.ext <;> simp [-Complex.ofReal_cos, -Complex.ofReal_sin]
  rw [this]
  have := z_inv_continuous
  fun_prop

theorem back_continuous (n e : ℝ) : Continuous (back n e) := by unfold back; fun_prop

theorem trueAnomaly_eq (e E : ℝ) : trueAnomaly e E = turned e E * z E * inv e E := by
  unfold turned inv
  rw [inv_mul_cancel_right₀ (z_ne E)]
  unfold trueAnomaly
  rw [div_eq_mul_one_div, div_eq_mul_one_div (Real.sqrt (1 - e ^ 2) * Real.sin E)]
  generalize 1 / (1 - e * Real.cos E) = v
  apply Complex.ext <;> simp

theorem exp_eq (j : ℤ) (e E : ℝ) : Complex.exp (-(j * ((E : ℂ) - e * Real.sin E)) * Complex.I) = z E ^ (-j) * back j e E := by
  rw [z_zpow]
  unfold back
  rw [← Complex.exp_add]
  congr 1
  push_cast
  ring

/-- What is averaged. -/
noncomputable def integrand (l n : ℕ) (j : ℤ) (e E : ℝ) : ℂ := inv e E ^ (l + n) * turned e E ^ n * z E ^ ((n : ℤ) - j) * back j e E

theorem hansen_eq (l n : ℕ) (j : ℤ) {e : ℝ} (h0 : 0 ≤ e) (h1 : e ≤ 1 / 4) :
    hansen l n j e = (∫ E in -Real.pi..Real.pi, (integrand l n j e E).re) / (2 * Real.pi) := by
  unfold hansen overRevolution
  congr 1
  apply intervalIntegral.integral_congr
  intro E _
  have hd := (dist_pos h0 h1 E).ne'
  dsimp only
  rw [exp_eq, zpow_natCast, trueAnomaly_eq]
  have : integrand l n j e E = ((1 / (1 - e * Real.cos E) ^ (l + 1) * (1 - e * Real.cos E) : ℝ) : ℂ) * ((turned e E * z E * inv e E) ^ n * (z E ^ (-j) * back j e E)) := by
    have e1 : ((1 / (1 - e * Real.cos E) ^ (l + 1) * (1 - e * Real.cos E) : ℝ) : ℂ) = inv e E ^ l := by
      unfold inv
      rw [← Complex.ofReal_pow]
      congr 1
      rw [pow_succ, one_div_pow]
      field_simp
    rw [e1]
    unfold integrand
    rw [sub_eq_add_neg, zpow_add₀ (z_ne E), zpow_natCast, mul_pow, mul_pow, pow_add]
    ring
  rw [this, Complex.re_ofReal_mul]
  ring

theorem integrand_continuous (l n : ℕ) (j : ℤ) {e : ℝ} (h0 : 0 ≤ e) (h1 : e ≤ 1 / 4) : Continuous (integrand l n j e) := by
  unfold integrand
  have := inv_continuous h0 h1
  have := turned_continuous e
  have := back_continuous j e
  have hz : Continuous fun E => z E ^ ((n : ℤ) - j) := by simp only [z_zpow]; fun_prop
  fun_prop

theorem Ser.congr {F G : ℝ → ℝ → ℂ} {a0 a1 a2 a3 a4 : ℝ → ℂ} (hF : Ser F a0 a1 a2 a3 a4) (h : ∀ e E, F e E = G e E) : Ser G a0 a1 a2 a3 a4 := by
  rw [← funext fun e => funext (h e)]
  exact hF

theorem ser_inv : Ser inv (fun _ => 1) (fun E => (Real.cos E : ℂ)) (fun E => (Real.cos E : ℂ) ^ 2) (fun E => (Real.cos E : ℂ) ^ 3)
    (fun E => (Real.cos E : ℂ) ^ 4) := ser_dist

theorem ser_inv2 : Ser (fun e E => inv e E ^ 2) (fun E => 1 * (Real.cos E : ℂ) ^ 0) (fun E => 2 * (Real.cos E : ℂ) ^ 1) (fun E => 3 * (Real.cos E : ℂ) ^ 2) (fun E => 4 * (Real.cos E : ℂ) ^ 3) (fun E => 5 * (Real.cos E : ℂ) ^ 4) := by
  refine ((ser_inv.mul ser_inv).congr fun e E => by ring).coeff ?_ ?_ ?_ ?_ ?_ <;> intro E <;> ring

theorem ser_inv3 : Ser (fun e E => inv e E ^ 3) (fun E => 1 * (Real.cos E : ℂ) ^ 0) (fun E => 3 * (Real.cos E : ℂ) ^ 1) (fun E => 6 * (Real.cos E : ℂ) ^ 2) (fun E => 10 * (Real.cos E : ℂ) ^ 3) (fun E => 15 * (Real.cos E : ℂ) ^ 4) := by
  refine ((ser_inv2.mul ser_inv).congr fun e E => by ring).coeff ?_ ?_ ?_ ?_ ?_ <;> intro E <;> ring

theorem ser_inv4 : Ser (fun e E => inv e E ^ 4) (fun E => 1 * (Real.cos E : ℂ) ^ 0) (fun E => 4 * (Real.cos E : ℂ) ^ 1) (fun E => 10 * (Real.cos E : ℂ) ^ 2) (fun E => 20 * (Real.cos E : ℂ) ^ 3) (fun E => 35 * (Real.cos E : ℂ) ^ 4) := by
  refine ((ser_inv2.mul ser_inv2).congr fun e E => by ring).coeff ?_ ?_ ?_ ?_ ?_ <;> intro E <;> ring

theorem ser_inv6 : Ser (fun e E => inv e E ^ 6) (fun E => 1 * (Real.cos E : ℂ) ^ 0) (fun E => 6 * (Real.cos E : ℂ) ^ 1) (fun E => 21 * (Real.cos E : ℂ) ^ 2) (fun E => 56 * (Real.cos E : ℂ) ^ 3) (fun E => 126 * (Real.cos E : ℂ) ^ 4) := by
  refine ((ser_inv4.mul ser_inv2).congr fun e E => by ring).coeff ?_ ?_ ?_ ?_ ?_ <;> intro E <;> ring

theorem ser_turned2 : Ser (fun e E => turned e E ^ 2) (fun E => 1 * (z E)⁻¹ ^ 0) (fun E => (-2) * (z E)⁻¹ ^ 1) (fun E => (-1 / 2) * (z E)⁻¹ ^ 0 + (3 / 2) * (z E)⁻¹ ^ 2) (fun E => (1 / 2) * (z E)⁻¹ ^ 1 + (-1 / 2) * (z E)⁻¹ ^ 3) (fun E => (-1 / 16) * (z E)⁻¹ ^ 0 + (1 / 16) * (z E)⁻¹ ^ 4) := by
  refine ((ser_turned.mul ser_turned).congr fun e E => by ring).coeff ?_ ?_ ?_ ?_ ?_ <;> intro E <;> (try simp only [Pi.zero_apply]) <;> ring

theorem ser_turned3 : Ser (fun e E => turned e E ^ 3) (fun E => 1 * (z E)⁻¹ ^ 0) (fun E => (-3) * (z E)⁻¹ ^ 1) (fun E => (-3 / 4) * (z E)⁻¹ ^ 0 + (15 / 4) * (z E)⁻¹ ^ 2) (fun E => (3 / 2) * (z E)⁻¹ ^ 1 + (-5 / 2) * (z E)⁻¹ ^ 3) (fun E => (-15 / 16) * (z E)⁻¹ ^ 2 + (15 / 16) * (z E)⁻¹ ^ 4) := by
  refine ((ser_turned2.mul ser_turned).congr fun e E => by ring).coeff ?_ ?_ ?_ ?_ ?_ <;> intro E <;> (try simp only [Pi.zero_apply]) <;> ring

theorem ser_back (n : ℝ) (hn : |n| ≤ 4) : Ser (back n) (fun _ => 1) (fun E => n * (Real.sin E * Complex.I))
    (fun E => n ^ 2 * (Real.sin E * Complex.I) ^ 2 / 2) (fun E => n ^ 3 * (Real.sin E * Complex.I) ^ 3 / 6)
    (fun E => n ^ 4 * (Real.sin E * Complex.I) ^ 4 / 24) := ser_exp n hn

theorem ser_22 : Ser (integrand 2 2 2)
    (lau 1 0 0 0 0 0 0 0 0)
    (lau 0 3 0 0 0 (-1) 0 0 0)
    (lau (-5 / 2) 0 5 0 0 0 (1 / 2) 0 0)
    (lau 0 (-3) 0 (37 / 6) 0 1 0 (-1 / 6) 0)
    (lau (13 / 16) 0 (-23 / 12) 0 (101 / 16) 0 (-1 / 4) 0 (1 / 24)) := by
  refine (((ser_inv4.mul ser_turned2).mul (ser_back ((2 : ℤ) : ℝ) (by norm_num))).congr fun e E => by
    simp [integrand]).coeff ?_ ?_ ?_ ?_ ?_ <;> intro E <;> dsimp only [lau, Pi.zero_apply] <;> simp only [cos_z, sin_z] <;> have hz := z_ne E <;>
    generalize z E = w at * <;> push_cast <;> (try field_simp) <;> ring

theorem ser_33 : Ser (integrand 3 3 3)
    (lau 1 0 0 0 0 0 0 0 0)
    (lau 0 (9 / 2) 0 0 0 (-3 / 2) 0 0 0)
    (lau (-6) 0 (87 / 8) 0 0 0 (9 / 8) 0 0)
    (lau 0 (-195 / 16) 0 (301 / 16) 0 (63 / 16) 0 (-9 / 16) 0)
    (lau (423 / 64) 0 (-261 / 16) 0 (3351 / 128) 0 (-27 / 16) 0 (27 / 128)) := by
  refine (((ser_inv6.mul ser_turned3).mul (ser_back ((3 : ℤ) : ℝ) (by norm_num))).congr fun e E => by
    simp [integrand]).coeff ?_ ?_ ?_ ?_ ?_ <;> intro E <;> dsimp only [lau, Pi.zero_apply] <;> simp only [cos_z, sin_z] <;> have hz := z_ne E <;>
    generalize z E = w at * <;> push_cast <;> (try field_simp) <;> ring

theorem ser_31 : Ser (integrand 3 1 1)
    (lau 1 0 0 0 0 0 0 0 0)
    (lau 0 (5 / 2) 0 0 0 (1 / 2) 0 0 0)
    (lau 2 0 (29 / 8) 0 0 0 (3 / 8) 0 0)
    (lau 0 (67 / 16) 0 (193 / 48) 0 (25 / 16) 0 (11 / 48) 0)
    (lau (239 / 64) 0 (299 / 48) 0 (1457 / 384) 0 (53 / 48) 0 (53 / 384)) := by
  refine (((ser_inv4.mul ser_turned).mul (ser_back ((1 : ℤ) : ℝ) (by norm_num))).congr fun e E => by
    simp [integrand]).coeff ?_ ?_ ?_ ?_ ?_ <;> intro E <;> dsimp only [lau, Pi.zero_apply] <;> simp only [cos_z, sin_z] <;> have hz := z_ne E <;>
    generalize z E = w at * <;> push_cast <;> (try field_simp) <;> ring

/-! The first order only -/

/-- `F = 1 + a e + O(e²)`. -/
def Lin (F : ℝ → ℝ → ℂ) (a : ℝ → ℂ) : Prop :=
  ∃ K : ℝ, 0 ≤ K ∧ (∀ E, ‖a E‖ ≤ K) ∧ ∀ e, 0 ≤ e → e ≤ 1 / 4 → ∀ E, ‖F e E - (1 + a E * e)‖ ≤ K * e ^ 2

theorem Lin.mul {F G : ℝ → ℝ → ℂ} {a b : ℝ → ℂ} (hF : Lin F a) (hG : Lin G b) : Lin (fun e E => F e E * G e E) fun E => a E + b E := by
  obtain ⟨K, hK, ha, hF⟩ := hF
  obtain ⟨L, hL, hb, hG⟩ := hG
  refine ⟨K * (1 + L) + L * (1 + K) + 2 * (K * L), by positivity, fun E => ?_, fun e h0 h1 E => ?_⟩
  · have := norm_add_le (a E) (b E)
    nlinarith [ha E, hb E, mul_nonneg hK hL]
  · have split : F e E * G e E - (1 + (a E + b E) * e) =
        (F e E - (1 + a E * e)) * (G e E - (1 + b E * e)) + (F e E - (1 + a E * e)) * (1 + b E * e) + (1 + a E * e) * (G e E - (1 + b E * e)) +
          a E * b E * (e : ℂ) ^ 2 := by ring
    have e2 : (0 : ℝ) ≤ e ^ 2 := sq_nonneg e
    have e21 : e ^ 2 ≤ 1 := by nlinarith
    have lin : ∀ (x : ℂ) (M : ℝ), 0 ≤ M → ‖x‖ ≤ M → ‖1 + x * e‖ ≤ 1 + M := by
      intro x M hM hx
      refine le_trans (norm_add_le _ _) ?_
      rw [norm_one, norm_mul, Complex.norm_real, Real.norm_of_nonneg h0]
      nlinarith [norm_nonneg x]
    have la := lin (a E) K hK (ha E)
    have lb := lin (b E) L hL (hb E)
    have dX := hF e h0 h1 E
    have dY := hG e h0 h1 E
    rw [split]
    have n1 : ‖(F e E - (1 + a E * e)) * (G e E - (1 + b E * e))‖ ≤ K * L * e ^ 2 := by
      rw [norm_mul]
      calc _ ≤ (K * e ^ 2) * (L * e ^ 2) := mul_le_mul dX dY (norm_nonneg _) (by positivity)
        _ = K * L * e ^ 2 * e ^ 2 := by ring
        _ ≤ K * L * e ^ 2 * 1 := mul_le_mul_of_nonneg_left e21 (by positivity)
        _ = _ := mul_one _
    have n2 : ‖(F e E - (1 + a E * e)) * (1 + b E * e)‖ ≤ K * (1 + L) * e ^ 2 := by
      rw [norm_mul]
      calc _ ≤ (K * e ^ 2) * (1 + L) := mul_le_mul dX lb (norm_nonneg _) (by positivity)
        _ = _ := by ring
    have n3 : ‖(1 + a E * e) * (G e E - (1 + b E * e))‖ ≤ L * (1 + K) * e ^ 2 := by
      rw [norm_mul]
      calc _ ≤ (1 + K) * (L * e ^ 2) := mul_le_mul la dY (norm_nonneg _) (by positivity)
        _ = _ := by ring
    have n4 : ‖a E * b E * (e : ℂ) ^ 2‖ ≤ K * L * e ^ 2 := by
      rw [norm_mul, norm_mul, norm_pow, Complex.norm_real, Real.norm_of_nonneg h0]
      exact mul_le_mul_of_nonneg_right (mul_le_mul (ha E) (hb E) (norm_nonneg _) hK) e2
    have := norm_add_le ((F e E - (1 + a E * e)) * (G e E - (1 + b E * e)) + (F e E - (1 + a E * e)) * (1 + b E * e) + (1 + a E * e) * (G e E - (1 + b E * e)))
      (a E * b E * (e : ℂ) ^ 2)
    have := norm_add_le ((F e E - (1 + a E * e)) * (G e E - (1 + b E * e)) + (F e E - (1 + a E * e)) * (1 + b E * e)) ((1 + a E * e) * (G e E - (1 + b E * e)))
    have := norm_add_le ((F e E - (1 + a E * e)) * (G e E - (1 + b E * e))) ((F e E - (1 + a E * e)) * (1 + b E * e))
    linarith

theorem Lin.congr {F G : ℝ → ℝ → ℂ} {a b : ℝ → ℂ} (hF : Lin F a) (h : ∀ e E, F e E = G e E) (h' : ∀ E, a E = b E) : Lin G b := by
  rw [← funext fun e => funext (h e), ← funext h']
  exact hF

theorem Lin.pow {F : ℝ → ℝ → ℂ} {a : ℝ → ℂ} (hF : Lin F a) (n : ℕ) : Lin (fun e E => F e E ^ n) fun E => n * a E := by
  induction n with
  | zero => exact ⟨0, le_rfl, fun E => by simp, fun e _ _ E => by simp⟩
  | succ n ih => exact (ih.mul hF).congr (fun e E => (pow_succ _ _).symm) fun E => by push_cast; ring

theorem Ser.lin {F : ℝ → ℝ → ℂ} {a1 a2 a3 a4 : ℝ → ℂ} (hF : Ser F (fun _ => 1) a1 a2 a3 a4) : Lin F a1 := by
  obtain ⟨K, hK, ha, hF⟩ := hF
  refine ⟨4 * K, by positivity, fun E => by linarith [(ha E).2.1], fun e h0 h1 E => ?_⟩
  obtain ⟨-, -, n2, n3, n4⟩ := ha E
  have h := hF e h0 h1 E
  have split : F e E - (1 + a1 E * e) = (F e E - poly e 1 (a1 E) (a2 E) (a3 E) (a4 E)) + a2 E * (e : ℂ) ^ 2 + a3 E * (e : ℂ) ^ 3 + a4 E * (e : ℂ) ^ 4 := by
    unfold poly; ring
  have hp : ∀ (x : ℂ) (n : ℕ), 2 ≤ n → ‖x‖ ≤ K → ‖x * (e : ℂ) ^ n‖ ≤ K * e ^ 2 := by
    intro x n hn hx
    rw [norm_mul, norm_pow, Complex.norm_real, Real.norm_of_nonneg h0]
    exact mul_le_mul hx (pow_le_pow_of_le_one h0 (by linarith) hn) (by positivity) hK
  have h5 : K * e ^ 5 ≤ K * e ^ 2 := mul_le_mul_of_nonneg_left (pow_le_pow_of_le_one h0 (by linarith) (by norm_num)) hK
  rw [split]
  have := norm_add_le (F e E - poly e 1 (a1 E) (a2 E) (a3 E) (a4 E) + a2 E * (e : ℂ) ^ 2 + a3 E * (e : ℂ) ^ 3) (a4 E * (e : ℂ) ^ 4)
  have := norm_add_le (F e E - poly e 1 (a1 E) (a2 E) (a3 E) (a4 E) + a2 E * (e : ℂ) ^ 2) (a3 E * (e : ℂ) ^ 3)
  have := norm_add_le (F e E - poly e 1 (a1 E) (a2 E) (a3 E) (a4 E)) (a2 E * (e : ℂ) ^ 2)
  linarith [hp _ 2 le_rfl n2, hp _ 3 (by norm_num) n3, hp _ 4 (by norm_num) n4]

theorem Lin.conj {F : ℝ → ℝ → ℂ} {a : ℝ → ℂ} (hF : Lin F a) : Lin (fun e E => (starRingEnd ℂ) (F e E)) fun E => (starRingEnd ℂ) (a E) := by
  obtain ⟨K, hK, ha, hF⟩ := hF
  refine ⟨K, hK, fun E => by rw [RCLike.norm_conj]; exact ha E, fun e h0 h1 E => ?_⟩
  have : (starRingEnd ℂ) (F e E) - (1 + (starRingEnd ℂ) (a E) * e) = (starRingEnd ℂ) (F e E - (1 + a E * e)) := by simp
  rw [this, RCLike.norm_conj]
  exact hF e h0 h1 E

theorem conj_z (E : ℝ) : (starRingEnd ℂ) (z E) = (z E)⁻¹ := by
  unfold z
  rw [← Complex.exp_conj, ← Complex.exp_neg]
  simp

/-- The mean over a revolution when all the powers of `e^(iE)` of the first orders differ from 0. -/
theorem Lin.mean {F : ℝ → ℝ → ℂ} {a : ℝ → ℂ} (hF : Lin F a) {n : ℤ} (hn : n ≠ 0) (hc : ∀ e, 0 ≤ e → e ≤ 1 / 4 → Continuous (F e)) {p q : ℂ}
    (ha : ∀ E, a E = p * z E + q * (z E)⁻¹) (hp : n + 1 ≠ 0) (hq : n - 1 ≠ 0) :
    ∃ K : ℝ, ∀ e, 0 ≤ e → e ≤ 1 / 4 → |(∫ E in -Real.pi..Real.pi, (F e E * z E ^ n).re) / (2 * Real.pi)| ≤ K * e ^ 2 := by
  obtain ⟨K, hK, -, hb⟩ := hF
  refine ⟨K, fun e h0 h1 => ?_⟩
  have hF := hc e h0 h1
  have hz : ∀ n : ℤ, Continuous fun E => z E ^ n := fun n => by simp only [z_zpow]; fun_prop
  have hzn := hz n
  have hzp := hz (n + 1)
  have hzq := hz (n - 1)
  have iF : IntervalIntegrable (fun E => F e E * z E ^ n) MeasureTheory.volume (-Real.pi) Real.pi := Continuous.intervalIntegrable (by fun_prop) _ _
  have e1 : ∀ E, (1 + a E * e) * z E ^ n = z E ^ n + p * e * z E ^ (n + 1) + q * e * z E ^ (n - 1) := by
    intro E
    rw [ha, zpow_add_one₀ (z_ne E), zpow_sub_one₀ (z_ne E)]
    ring
  have j0 : IntervalIntegrable (fun E => z E ^ n) MeasureTheory.volume (-Real.pi) Real.pi := Continuous.intervalIntegrable (by fun_prop) _ _
  have j1 : IntervalIntegrable (fun E => p * e * z E ^ (n + 1)) MeasureTheory.volume (-Real.pi) Real.pi := Continuous.intervalIntegrable (by fun_prop) _ _
  have j2 : IntervalIntegrable (fun E => q * e * z E ^ (n - 1)) MeasureTheory.volume (-Real.pi) Real.pi := Continuous.intervalIntegrable (by fun_prop) _ _
  have iP : IntervalIntegrable (fun E => (1 + a E * e) * z E ^ n) MeasureTheory.volume (-Real.pi) Real.pi := by
    simp only [e1]
    exact (j0.add j1).add j2
  have hP : ∫ E in -Real.pi..Real.pi, (1 + a E * e) * z E ^ n = 0 := by
    simp only [e1]
    rw [intervalIntegral.integral_add (j0.add j1) j2, intervalIntegral.integral_add j0 j1]
    simp only [intervalIntegral.integral_const_mul]
    rw [mean_zpow hn, mean_zpow hp, mean_zpow hq]
    ring
  have hre : ∫ E in -Real.pi..Real.pi, (F e E * z E ^ n).re = (∫ E in -Real.pi..Real.pi, F e E * z E ^ n).re := by
    have := Complex.reCLM.intervalIntegral_comp_comm iF
    simpa using this
  have hd : ‖∫ E in -Real.pi..Real.pi, (F e E * z E ^ n - (1 + a E * e) * z E ^ n)‖ ≤ K * e ^ 2 * |Real.pi - -Real.pi| :=
    intervalIntegral.norm_integral_le_of_norm_le_const fun E _ => by
      rw [← sub_mul, norm_mul, norm_zpow, z_norm, one_zpow, mul_one]
      exact hb e h0 h1 E
  have pp := Real.pi_pos
  rw [intervalIntegral.integral_sub iF iP, hP, sub_zero, show Real.pi - -Real.pi = 2 * Real.pi by ring, abs_of_pos (by linarith : 0 < 2 * Real.pi)] at hd
  have := (Complex.abs_re_le_norm _).trans hd
  rw [← hre] at this
  rw [abs_div, abs_of_pos (by linarith : 0 < 2 * Real.pi), div_le_iff₀ (by linarith)]
  exact this

/-- What is averaged, for a negative multiple of the true anomaly. -/
noncomputable def integrandN (l n : ℕ) (j : ℤ) (e E : ℝ) : ℂ := inv e E ^ (l + n) * (starRingEnd ℂ) (turned e E) ^ n * back j e E

theorem trueAnomaly_inv {e : ℝ} (h0 : 0 ≤ e) (h1 : e ≤ 1 / 4) (E : ℝ) : (trueAnomaly e E)⁻¹ = (starRingEnd ℂ) (turned e E) * (z E)⁻¹ * inv e E := by
  have hd := dist_pos h0 h1 E
  have hb : 0 ≤ 1 - e ^ 2 := by nlinarith
  have hs := Real.sq_sqrt hb
  have hc := Real.sin_sq_add_cos_sq E
  have hu : trueAnomaly e E * (starRingEnd ℂ) (trueAnomaly e E) = 1 := by
    rw [Complex.mul_conj, Complex.normSq_apply]
    norm_cast
    unfold trueAnomaly
    dsimp only
    generalize Real.sqrt (1 - e ^ 2) = b at *
    have hd' := hd.ne'
    rw [← sub_eq_zero]
    have : ∀ x y d : ℝ, d ≠ 0 → x * x + y * y = d * d → x / d * (x / d) + y / d * (y / d) - 1 = 0 := by
      intro x y d hd h
      field_simp
      linear_combination h
    exact this _ _ _ hd' (by linear_combination Real.sin E ^ 2 * hs + (1 - e ^ 2) * hc)
  rw [inv_eq_of_mul_eq_one_right hu, trueAnomaly_eq, map_mul, map_mul, conj_z]
  congr 1
  unfold inv
  exact Complex.conj_ofReal _

theorem hansen_neg_eq (l n : ℕ) (j : ℤ) {e : ℝ} (h0 : 0 ≤ e) (h1 : e ≤ 1 / 4) :
    hansen l (-n) j e = (∫ E in -Real.pi..Real.pi, (integrandN l n j e E * z E ^ (-(n : ℤ) - j)).re) / (2 * Real.pi) := by
  unfold hansen overRevolution
  congr 1
  apply intervalIntegral.integral_congr
  intro E _
  have hd := (dist_pos h0 h1 E).ne'
  dsimp only
  rw [exp_eq, zpow_neg, ← inv_zpow, zpow_natCast, trueAnomaly_inv h0 h1]
  have : integrandN l n j e E * z E ^ (-(n : ℤ) - j) = ((1 / (1 - e * Real.cos E) ^ (l + 1) * (1 - e * Real.cos E) : ℝ) : ℂ) *
      (((starRingEnd ℂ) (turned e E) * (z E)⁻¹ * inv e E) ^ n * (z E ^ (-j) * back j e E)) := by
    have e1 : ((1 / (1 - e * Real.cos E) ^ (l + 1) * (1 - e * Real.cos E) : ℝ) : ℂ) = inv e E ^ l := by
      unfold inv
      rw [← Complex.ofReal_pow]
      congr 1
      rw [pow_succ, one_div_pow]
      field_simp
    rw [e1]
    unfold integrandN
    rw [sub_eq_add_neg, zpow_add₀ (z_ne E), zpow_neg, ← inv_zpow, zpow_natCast, mul_pow, mul_pow, pow_add]
    ring
  rw [this, Complex.re_ofReal_mul]
  ring

/-- Hansen's coefficients far from the diagonal are small of the second order. -/
theorem hansen_small (l : ℕ) (k j : ℤ) (hj : |j| ≤ 4) (hkj : 2 ≤ |k - j|) : ∃ K : ℝ, ∀ e, 0 ≤ e → e ≤ 1 / 4 → |hansen l k j e| ≤ K * e ^ 2 := by
  have hj' : |((j : ℤ) : ℝ)| ≤ 4 := by exact_mod_cast hj
  have lb := (ser_back j hj').lin
  rcases Int.eq_nat_or_neg k with ⟨n, rfl | rfl⟩
  · have h := ((ser_inv.lin.pow (l + n)).mul (ser_turned.lin.pow n)).mul lb
    obtain ⟨K, hK⟩ := h.mean (n := n - j) (p := (l + n) / 2 + j / 2) (q := (l + n) / 2 - n - j / 2) (by intro h; rw [h] at hkj; norm_num at hkj)
      (fun e h0 h1 => by
        have := inv_continuous h0 h1
        have := turned_continuous e
        have := back_continuous j e
        fun_prop)
      (fun E => by rw [cos_z, sin_z]; push_cast; ring)
      (by intro h; rw [show (n : ℤ) - j = -1 by linarith] at hkj; norm_num at hkj) (by intro h; rw [show (n : ℤ) - j = 1 by linarith] at hkj; norm_num at hkj)
    refine ⟨K, fun e h0 h1 => ?_⟩
    rw [hansen_eq l n j h0 h1]
    have := hK e h0 h1
    have e1 : ∀ E, integrand l n j e E = inv e E ^ (l + n) * turned e E ^ n * back j e E * z E ^ ((n : ℤ) - j) := fun E => by
      unfold integrand
      ring
    simp only [e1]
    exact this
  · have h := ((ser_inv.lin.pow (l + n)).mul (ser_turned.lin.conj.pow n)).mul lb
    obtain ⟨K, hK⟩ := h.mean (n := -n - j) (p := (l + n) / 2 - n + j / 2) (q := (l + n) / 2 - j / 2) (by intro h; rw [h] at hkj; norm_num at hkj)
      (fun e h0 h1 => by
        have := inv_continuous h0 h1
        have := turned_continuous e
        have := back_continuous j e
        have : Continuous fun E => (starRingEnd ℂ) (turned e E) := Complex.continuous_conj.comp (turned_continuous e)
        fun_prop)
      (fun E => by rw [cos_z, sin_z, map_neg, map_inv₀, conj_z, inv_inv]; push_cast; ring)
      (by intro h; rw [show -(n : ℤ) - j = -1 by linarith] at hkj; norm_num at hkj) (by intro h; rw [show -(n : ℤ) - j = 1 by linarith] at hkj; norm_num at hkj)
    refine ⟨K, fun e h0 h1 => ?_⟩
    rw [hansen_neg_eq l n j h0 h1]
    exact hK e h0 h1

end SatSky.Hansen
