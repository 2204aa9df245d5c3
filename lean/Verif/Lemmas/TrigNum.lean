import Mathlib.Analysis.Complex.Trigonometric
import Mathlib.Analysis.Complex.Exponential
import Mathlib.Analysis.SpecialFunctions.Trigonometric.Bounds
import Mathlib.Analysis.Real.Pi.Bounds
import Mathlib.Tactic.NormNum
import Mathlib.Tactic.Ring
import Mathlib.Tactic.Linarith

/-! Numerical values of sine and cosine. -/

namespace SatSky.Trig

/-- Taylor polynomial of the cosine. -/
def cosP (x : ℚ) : ℚ :=
  1 - x ^ 2 / 2 + x ^ 4 / 24 - x ^ 6 / 720 + x ^ 8 / 40320 - x ^ 10 / 3628800 + x ^ 12 / 479001600 - x ^ 14 / 87178291200

/-- Taylor polynomial of the sine. -/
def sinP (x : ℚ) : ℚ :=
  x - x ^ 3 / 6 + x ^ 5 / 120 - x ^ 7 / 5040 + x ^ 9 / 362880 - x ^ 11 / 39916800 + x ^ 13 / 6227020800 - x ^ 15 / 1307674368000

theorem taylor_sharp (x : ℝ) (h : |x| ≤ 1) :
    |Real.cos x - (1 - x ^ 2 / 2 + x ^ 4 / 24 - x ^ 6 / 720 + x ^ 8 / 40320 - x ^ 10 / 3628800 + x ^ 12 / 479001600 - x ^ 14 / 87178291200)|
        ≤ |x| ^ 16 / 10 ^ 13 ∧
      |Real.sin x - (x - x ^ 3 / 6 + x ^ 5 / 120 - x ^ 7 / 5040 + x ^ 9 / 362880 - x ^ 11 / 39916800 + x ^ 13 / 6227020800
        - x ^ 15 / 1307674368000)| ≤ |x| ^ 16 / 10 ^ 13 := by
  have hn : ‖(x : ℂ) * Complex.I‖ = |x| := by simp
  have hb := Complex.exp_bound (x := x * Complex.I) (by rw [hn]; exact h) (n := 16) (by norm_num)
  rw [hn] at hb
  have hb2 : |x| ^ 16 * ((16 : ℕ).succ * ((16 : ℕ).factorial * (16 : ℕ) : ℝ)⁻¹) ≤ |x| ^ 16 / 10 ^ 13 := by
    have h2 : ((16 : ℕ).succ * ((16 : ℕ).factorial * (16 : ℕ) : ℝ)⁻¹) ≤ 1 / 10 ^ 13 := by norm_num [Nat.factorial]
    have := mul_le_mul_of_nonneg_left h2 (pow_nonneg (abs_nonneg x) 16)
    linarith
  have hb := hb.trans hb2
  have hI : ∀ k : ℕ, ((x : ℂ) * Complex.I) ^ (4 * k) = ((x ^ (4 * k) : ℝ) : ℂ) ∧ ((x : ℂ) * Complex.I) ^ (4 * k + 1) = ((x ^ (4 * k + 1) : ℝ) : ℂ) * Complex.I ∧
      ((x : ℂ) * Complex.I) ^ (4 * k + 2) = ((-x ^ (4 * k + 2) : ℝ) : ℂ) ∧ ((x : ℂ) * Complex.I) ^ (4 * k + 3) = ((-x ^ (4 * k + 3) : ℝ) : ℂ) * Complex.I := by
    intro k
    have h4 : Complex.I ^ (4 * k) = 1 := by rw [pow_mul, Complex.I_pow_four, one_pow]
    refine ⟨?_, ?_, ?_, ?_⟩
    · rw [mul_pow, h4]; push_cast; ring
    · rw [mul_pow, pow_add Complex.I, h4]; push_cast; ring
    · rw [mul_pow, pow_add Complex.I, h4, Complex.I_sq]; push_cast; ring
    · rw [mul_pow, pow_add Complex.I, h4, show Complex.I ^ 3 = -Complex.I from Complex.I_pow_three]; push_cast; ring
  have e : Complex.exp (x * Complex.I) - ∑ m ∈ Finset.range 16, (x * Complex.I) ^ m / (m.factorial : ℂ) =
      (((Real.cos x - (1 - x ^ 2 / 2 + x ^ 4 / 24 - x ^ 6 / 720 + x ^ 8 / 40320 - x ^ 10 / 3628800 + x ^ 12 / 479001600 - x ^ 14 / 87178291200)) : ℝ) : ℂ)
      + (((Real.sin x - (x - x ^ 3 / 6 + x ^ 5 / 120 - x ^ 7 / 5040 + x ^ 9 / 362880 - x ^ 11 / 39916800 + x ^ 13 / 6227020800
        - x ^ 15 / 1307674368000)) : ℝ) : ℂ) * Complex.I := by
    obtain ⟨a0, a1, a2, a3⟩ := hI 0
    obtain ⟨b0, b1, b2, b3⟩ := hI 1
    obtain ⟨c0, c1, c2, c3⟩ := hI 2
    obtain ⟨d0, d1, d2, d3⟩ := hI 3
    simp only [Nat.mul_zero, Nat.zero_add, Nat.mul_one, Nat.reduceAdd, Nat.reduceMul] at a0 a1 a2 a3 b0 b1 b2 b3 c0 c1 c2 c3 d0 d1 d2 d3
    simp only [Finset.sum_range_succ, Finset.sum_range_zero, a0, a1, a2, a3, b0, b1, b2, b3, c0, c1, c2, c3, d0, d1, d2, d3,
      Complex.exp_mul_I, ← Complex.ofReal_cos, ← Complex.ofReal_sin]
    norm_num [Nat.factorial]
    ring
  rw [e] at hb
  revert hb
  generalize Real.cos x - _ = A
  generalize Real.sin x - _ = B
  intro hb
  constructor
  · refine le_trans ?_ hb
    simpa using Complex.abs_re_le_norm ((A : ℂ) + (B : ℂ) * Complex.I)
  · refine le_trans ?_ hb
    simpa using Complex.abs_im_le_norm ((A : ℂ) + (B : ℂ) * Complex.I)

theorem taylor16 (x : ℝ) (h : |x| ≤ 1) :
    |Real.cos x - (1 - x ^ 2 / 2 + x ^ 4 / 24 - x ^ 6 / 720 + x ^ 8 / 40320 - x ^ 10 / 3628800 + x ^ 12 / 479001600 - x ^ 14 / 87178291200)|
        ≤ 1 / 10 ^ 13 ∧
      |Real.sin x - (x - x ^ 3 / 6 + x ^ 5 / 120 - x ^ 7 / 5040 + x ^ 9 / 362880 - x ^ 11 / 39916800 + x ^ 13 / 6227020800
        - x ^ 15 / 1307674368000)| ≤ 1 / 10 ^ 13 := by
  have hb : |x| ^ 16 / 10 ^ 13 ≤ 1 / 10 ^ 13 := div_le_div_of_nonneg_right (pow_le_one₀ (abs_nonneg _) h) (by norm_num)
  obtain ⟨h1, h2⟩ := taylor_sharp x h
  exact ⟨h1.trans hb, h2.trans hb⟩

/-- Cosine and sine of a number near the rational `q`. -/
theorem near {x : ℝ} {q : ℚ} {c s : ℝ} {cq sq : ℚ} (hq : |q| ≤ 1) (hx : |x - q| ≤ 1 / 10 ^ 13) (hc : |cosP q - cq| ≤ 1 / 10 ^ 13)
    (hs : |sinP q - sq| ≤ 1 / 10 ^ 13) (ec : c = cq) (es : s = sq) : |c - Real.cos x| ≤ 1 / 10 ^ 12 ∧ |s - Real.sin x| ≤ 1 / 10 ^ 12 := by
  have hq' : |(q : ℝ)| ≤ 1 := by exact_mod_cast hq
  obtain ⟨t1, t2⟩ := taylor16 q hq'
  have hc' : |((cosP q : ℚ) : ℝ) - cq| ≤ 1 / 10 ^ 13 := by
    have : ((|cosP q - cq| : ℚ) : ℝ) ≤ ((1 / 10 ^ 13 : ℚ) : ℝ) := by exact_mod_cast hc
    push_cast at this ⊢
    exact this
  have hs' : |((sinP q : ℚ) : ℝ) - sq| ≤ 1 / 10 ^ 13 := by
    have : ((|sinP q - sq| : ℚ) : ℝ) ≤ ((1 / 10 ^ 13 : ℚ) : ℝ) := by exact_mod_cast hs
    push_cast at this ⊢
    exact this
  have l1 : |Real.cos x - Real.cos q| ≤ |x - q| := Real.abs_cos_sub_cos_le x q
  have l2 : |Real.sin x - Real.sin q| ≤ |x - q| := Real.abs_sin_sub_sin_le x q
  unfold cosP at hc'
  unfold sinP at hs'
  push_cast at hc' hs'
  rw [ec, es]
  obtain ⟨l1, l1'⟩ := abs_le.mp (l1.trans hx)
  obtain ⟨l2, l2'⟩ := abs_le.mp (l2.trans hx)
  obtain ⟨t1, t1'⟩ := abs_le.mp t1
  obtain ⟨t2, t2'⟩ := abs_le.mp t2
  obtain ⟨k1, k1'⟩ := abs_le.mp hc'
  obtain ⟨k2, k2'⟩ := abs_le.mp hs'
  exact ⟨abs_le.mpr ⟨by linarith, by linarith⟩, abs_le.mpr ⟨by linarith, by linarith⟩⟩

end SatSky.Trig
