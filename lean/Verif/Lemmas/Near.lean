import Mathlib.Analysis.SpecialFunctions.Pow.Real
import Mathlib.Tactic.Linarith
import Mathlib.Tactic.FieldSimp
import Mathlib.Tactic.Ring

/-! How an error of the arguments changes a product, a quotient and a square root. -/

namespace SatSky.Near

open Real

theorem mul {a a' b b' d1 d2 A B : ℝ} (h1 : |a' - a| ≤ d1) (h2 : |b' - b| ≤ d2) (ha : |a'| ≤ A) (hb : |b| ≤ B) : |a' * b' - a * b| ≤ A * d2 + B * d1 := by
  rw [show a' * b' - a * b = a' * (b' - b) + (a' - a) * b by ring]
  refine (abs_add_le _ _).trans ?_
  rw [abs_mul, abs_mul]
  have h3 := mul_le_mul ha h2 (abs_nonneg _) ((abs_nonneg _).trans ha)
  have h4 := mul_le_mul h1 hb (abs_nonneg _) ((abs_nonneg _).trans h1)
  linarith

theorem sqrt {x y m d : ℝ} (hm : 0 < m) (hx : m * m ≤ x) (hy : m * m ≤ y) (h : |x - y| ≤ d) : |√x - √y| ≤ d / (2 * m) := by
  have hx0 : 0 ≤ x := (mul_self_nonneg m).trans hx
  have hy0 : 0 ≤ y := (mul_self_nonneg m).trans hy
  have h1 : m ≤ √x := le_sqrt_of_sq_le (by rw [sq]; exact hx)
  have h2 : m ≤ √y := le_sqrt_of_sq_le (by rw [sq]; exact hy)
  rw [le_div_iff₀ (by linarith)]
  refine le_trans ?_ h
  have e : x - y = (√x - √y) * (√x + √y) := by
    have := mul_self_sqrt hx0
    have := mul_self_sqrt hy0
    linarith [show (√x - √y) * (√x + √y) = √x * √x - √y * √y by ring]
  rw [e, abs_mul, abs_of_nonneg (by linarith : 0 ≤ √x + √y)]
  exact mul_le_mul_of_nonneg_left (by linarith) (abs_nonneg _)

theorem div {a a' s s' d1 d2 m A : ℝ} (h1 : |a' - a| ≤ d1) (h2 : |s' - s| ≤ d2) (hm : 0 < m) (hs' : m ≤ s') (hs : m ≤ s) (ha : |a| ≤ A) :
    |a' / s' - a / s| ≤ d1 / m + A * d2 / (m * m) := by
  have p1 : 0 < s' := lt_of_lt_of_le hm hs'
  have p2 : 0 < s := lt_of_lt_of_le hm hs
  have e : a' / s' - a / s = (a' - a) / s' - a * (s' - s) / (s' * s) := by
    field_simp
    ring
  rw [e]
  refine (abs_sub _ _).trans (add_le_add ?_ ?_)
  · rw [abs_div, abs_of_pos p1]
    exact div_le_div₀ ((abs_nonneg _).trans h1) h1 hm hs'
  · rw [abs_div, abs_mul, abs_of_pos (mul_pos p1 p2)]
    exact div_le_div₀ (mul_nonneg ((abs_nonneg _).trans ha) ((abs_nonneg _).trans h2))
      (mul_le_mul ha h2 (abs_nonneg _) ((abs_nonneg _).trans ha)) (mul_pos hm hm) (mul_le_mul hs' hs hm.le p1.le)

/-- A number and a sum. -/
theorem add {a a' b b' d1 d2 : ℝ} (h1 : |a' - a| ≤ d1) (h2 : |b' - b| ≤ d2) : |a' + b' - (a + b)| ≤ d1 + d2 := by
  rw [show a' + b' - (a + b) = (a' - a) + (b' - b) by ring]
  exact (abs_add_le _ _).trans (add_le_add h1 h2)

theorem sub {a a' b b' d1 d2 : ℝ} (h1 : |a' - a| ≤ d1) (h2 : |b' - b| ≤ d2) : |a' - b' - (a - b)| ≤ d1 + d2 := by
  rw [show a' - b' - (a - b) = (a' - a) - (b' - b) by ring]
  exact (abs_sub _ _).trans (add_le_add h1 h2)

theorem refl (a : ℝ) : |a - a| ≤ 0 := by simp

/-- The polar angle of a point near the unit circle. -/
theorem circle {x y c s r d : ℝ} (hx : |r * c - x| ≤ d) (hy : |r * s - y| ≤ d) (hcs : s ^ 2 + c ^ 2 = 1) (hxy : y ^ 2 + x ^ 2 = 1) (hr : 0 ≤ r) :
    |c - x| ≤ 3 * d ∧ |s - y| ≤ 3 * d := by
  have hd : 0 ≤ d := (abs_nonneg _).trans hx
  have hc1 : |c| ≤ 1 := abs_le.mpr ⟨by nlinarith, by nlinarith⟩
  have hs1 : |s| ≤ 1 := abs_le.mpr ⟨by nlinarith, by nlinarith⟩
  -- r is near 1
  have hr1 : |r - 1| ≤ 2 * d := by
    obtain ⟨a1, a2⟩ := abs_le.mp hx
    obtain ⟨b1, b2⟩ := abs_le.mp hy
    obtain ⟨c1, c2⟩ := abs_le.mp hc1
    obtain ⟨s1, s2⟩ := abs_le.mp hs1
    -- r = c (r c) + s (r s), and |c x + s y| ≤ 1
    have hx1 : |x| ≤ 1 := abs_le.mpr ⟨by nlinarith, by nlinarith⟩
    have hy1 : |y| ≤ 1 := abs_le.mpr ⟨by nlinarith, by nlinarith⟩
    obtain ⟨x1, x2⟩ := abs_le.mp hx1
    obtain ⟨y1, y2⟩ := abs_le.mp hy1
    rw [abs_le]
    constructor
    · -- 1 = x² + y² = x·(x - r c) + y·(y - r s) + r (c x + s y)
      have h1 : c * x + s * y ≤ 1 := by nlinarith [sq_nonneg (c - x), sq_nonneg (s - y)]
      have h2 : r * (c * x + s * y) ≤ r := by nlinarith
      have h3 : x * (x - r * c) ≤ d := by
        have := abs_mul x (x - r * c)
        have h4 : |x - r * c| ≤ d := by rw [abs_sub_comm]; exact hx
        have h5 : |x * (x - r * c)| ≤ 1 * d := by rw [abs_mul]; exact mul_le_mul hx1 h4 (abs_nonneg _) (by norm_num)
        exact (le_abs_self _).trans (by linarith)
      have h3' : y * (y - r * s) ≤ d := by
        have h4 : |y - r * s| ≤ d := by rw [abs_sub_comm]; exact hy
        have h5 : |y * (y - r * s)| ≤ 1 * d := by rw [abs_mul]; exact mul_le_mul hy1 h4 (abs_nonneg _) (by norm_num)
        exact (le_abs_self _).trans (by linarith)
      nlinarith
    · have h1 : c * x + s * y ≤ 1 := by nlinarith [sq_nonneg (c - x), sq_nonneg (s - y)]
      have h3 : c * (r * c - x) ≤ d := by
        have h5 : |c * (r * c - x)| ≤ 1 * d := by rw [abs_mul]; exact mul_le_mul hc1 hx (abs_nonneg _) (by norm_num)
        exact (le_abs_self _).trans (by linarith)
      have h3' : s * (r * s - y) ≤ d := by
        have h5 : |s * (r * s - y)| ≤ 1 * d := by rw [abs_mul]; exact mul_le_mul hs1 hy (abs_nonneg _) (by norm_num)
        exact (le_abs_self _).trans (by linarith)
      nlinarith
  constructor
  · rw [show c - x = (r * c - x) - (r - 1) * c by ring]
    refine (abs_sub _ _).trans ?_
    rw [abs_mul]
    have := mul_le_mul hr1 hc1 (abs_nonneg _) (by linarith)
    linarith
  · rw [show s - y = (r * s - y) - (r - 1) * s by ring]
    refine (abs_sub _ _).trans ?_
    rw [abs_mul]
    have := mul_le_mul hr1 hs1 (abs_nonneg _) (by linarith)
    linarith

end SatSky.Near
