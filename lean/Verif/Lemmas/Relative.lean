import Mathlib.Analysis.SpecialFunctions.Trigonometric.Bounds
import Mathlib.Analysis.SpecialFunctions.Trigonometric.InverseDeriv
import Mathlib.Analysis.Calculus.MeanValue
import Verif.Lemmas.FloatLemmas
import Verif.Model.SepDouble

/-! Errors that are partly relative and partly absolute. -/

namespace SatSky.Relative

open SatSky SatSky.Geo

/-- `x` is near `X ≥ 0`: relative error `a`, absolute error `α`. -/
def Approx (a α x X : ℝ) : Prop := |x - X| ≤ a * X + α

theorem Approx.mono {a α a' α' x X : ℝ} (h : Approx a α x X) (hX : 0 ≤ X) (ha : a ≤ a') (hα : α ≤ α') : Approx a' α' x X := by
  unfold Approx at *
  nlinarith

theorem Approx.mul {a α b β c γ x X y Y : ℝ} (hx : Approx a α x X) (hy : Approx b β y Y) (hX : 0 ≤ X) (hX1 : X ≤ 1) (hY : 0 ≤ Y) (hY1 : Y ≤ 1) (ha : 0 ≤ a)
    (hα : 0 ≤ α) (hb : 0 ≤ b) (hβ : 0 ≤ β) (hc : a + b + a * b ≤ c) (hγ : α + β + a * β + α * b + α * β ≤ γ) : Approx c γ (x * y) (X * Y) := by
  unfold Approx at *
  rw [show x * y - X * Y = (x - X) * Y + X * (y - Y) + (x - X) * (y - Y) by ring]
  have h1 : |(x - X) * Y| ≤ (a * X + α) * Y := by rw [abs_mul, abs_of_nonneg hY]; exact mul_le_mul_of_nonneg_right hx hY
  have h2 : |X * (y - Y)| ≤ X * (b * Y + β) := by rw [abs_mul, abs_of_nonneg hX]; exact mul_le_mul_of_nonneg_left hy hX
  have h3 : |(x - X) * (y - Y)| ≤ (a * X + α) * (b * Y + β) := by
    rw [abs_mul]; exact mul_le_mul hx hy (abs_nonneg _) (by positivity)
  have h4 := abs_add_le ((x - X) * Y + X * (y - Y)) ((x - X) * (y - Y))
  have h5 := abs_add_le ((x - X) * Y) (X * (y - Y))
  have e1 := mul_nonneg hX hY
  have e2 := mul_le_mul_of_nonneg_right hc e1
  have e3 := mul_le_mul_of_nonneg_left hX1 hβ
  have e4 := mul_le_mul_of_nonneg_left hY1 hα
  have e5 := mul_le_mul_of_nonneg_left hX1 (mul_nonneg ha hβ)
  have e6 := mul_le_mul_of_nonneg_left hY1 (mul_nonneg hα hb)
  nlinarith

theorem Approx.scale {a α b c γ x X y Y : ℝ} (hx : Approx a α x X) (hy : Approx b 0 y Y) (hX : 0 ≤ X) (hY : 0 ≤ Y) (ha : 0 ≤ a) (hα : 0 ≤ α)
    (hb : 0 ≤ b) (hc : a + b + a * b ≤ c) (hγ : α * (1 + b) * Y ≤ γ) : Approx c γ (x * y) (X * Y) := by
  unfold Approx at *
  rw [add_zero] at hy
  rw [show x * y - X * Y = (x - X) * Y + X * (y - Y) + (x - X) * (y - Y) by ring]
  have h1 : |(x - X) * Y| ≤ (a * X + α) * Y := by rw [abs_mul, abs_of_nonneg hY]; exact mul_le_mul_of_nonneg_right hx hY
  have h2 : |X * (y - Y)| ≤ X * (b * Y) := by rw [abs_mul, abs_of_nonneg hX]; exact mul_le_mul_of_nonneg_left hy hX
  have h3 : |(x - X) * (y - Y)| ≤ (a * X + α) * (b * Y) := by
    rw [abs_mul]; exact mul_le_mul hx hy (abs_nonneg _) (by positivity)
  have h4 := abs_add_le ((x - X) * Y + X * (y - Y)) ((x - X) * (y - Y))
  have h5 := abs_add_le ((x - X) * Y) (X * (y - Y))
  have e2 := mul_le_mul_of_nonneg_right hc (mul_nonneg hX hY)
  nlinarith

theorem Approx.add {a α β x X y Y : ℝ} (hx : Approx a α x X) (hy : Approx a β y Y) : Approx a (α + β) (x + y) (X + Y) := by
  unfold Approx at *
  rw [show x + y - (X + Y) = (x - X) + (y - Y) by ring]
  have := abs_add_le (x - X) (y - Y)
  linarith

theorem err_real (F : Fl64) (z : ℚ) : |(F.rnd z : ℝ) - z| ≤ 1 / 2 ^ 53 * |(z : ℝ)| + 1 / 2 ^ 200 := by
  have := F.err z
  have h : ((|F.rnd z - z| : ℚ) : ℝ) ≤ ((|z| / 2 ^ 53 + 1 / 2 ^ 200 : ℚ) : ℝ) := by exact_mod_cast this
  push_cast at h
  linarith

/-- Rounding adds one unit. -/
theorem Approx.rnd {a α c γ X : ℝ} {z : ℚ} (F : Fl64) (h : Approx a α z X) (hX : 0 ≤ X) (hc : a + 1 / 2 ^ 53 * (1 + a) ≤ c)
    (hγ : α + 1 / 2 ^ 53 * α + 1 / 2 ^ 200 ≤ γ) : Approx c γ (F.rnd z) X := by
  unfold Approx at *
  have h1 := err_real F z
  have h2 : |(z : ℝ)| ≤ X + (a * X + α) := by
    have := abs_sub_abs_le_abs_sub (z : ℝ) X
    rw [abs_of_nonneg hX] at this
    linarith
  have h3 := abs_sub_le (F.rnd z : ℝ) z X
  have h4 := mul_le_mul_of_nonneg_right hc hX
  nlinarith

/-- The root halves the relative error. -/
theorem rel_sqrt {a α b β x X : ℝ} (h : Approx a α x X) (hX : 0 ≤ X) (ha : 0 ≤ a) (ha1 : a ≤ 1) (hα : 0 ≤ α) (hb : a ≤ 2 * b - b * b) (hb0 : 0 ≤ b)
    (hb1 : b ≤ 1) (hβ : 0 ≤ β) (hβ1 : α ≤ β * β) : Approx b β √x √X := by
  unfold Approx at *
  obtain ⟨h1, h2⟩ := abs_le.1 h
  have hs := Real.sqrt_nonneg X
  have hq := Real.mul_self_sqrt hX
  have e1 : √x ≤ √X + (b * √X + β) := by
    rw [Real.sqrt_le_left (by positivity)]
    have : (1 + a) * X ≤ (1 + b) * (1 + b) * X := mul_le_mul_of_nonneg_right (by nlinarith) hX
    nlinarith [mul_nonneg (mul_nonneg hb0 hs) hβ, mul_nonneg hs hβ]
  have e2 : √X - (b * √X + β) ≤ √x := by
    rcases le_or_gt (√X - (b * √X + β)) 0 with h0 | h0
    · exact h0.trans (Real.sqrt_nonneg _)
    · refine Real.le_sqrt_of_sq_le ?_
      have : (1 - b) * (1 - b) * X ≤ (1 - a) * X := mul_le_mul_of_nonneg_right (by nlinarith) hX
      nlinarith
  rw [abs_le]
  constructor <;> linarith

/-- The inverse sine below `m`. -/
theorem arcsin_near {x y m k : ℝ} (hx0 : 0 ≤ x) (hy0 : 0 ≤ y) (hx : x ≤ m) (hy : y ≤ m) (hm : m < 1) (hk : 1 ≤ k * k * (1 - m * m)) (hk0 : 0 < k) :
    |Real.arcsin x - Real.arcsin y| ≤ k * |x - y| := by
  have key : ∀ z ∈ Set.Icc 0 m, HasDerivWithinAt Real.arcsin (1 / √(1 - z ^ 2)) (Set.Icc 0 m) z := fun z hz =>
    (Real.hasDerivAt_arcsin (by linarith [hz.1]) (by linarith [hz.2])).hasDerivWithinAt
  have bound : ∀ z ∈ Set.Icc 0 m, ‖1 / √(1 - z ^ 2)‖ ≤ k := by
    intro z hz
    have h1 : 1 / k ≤ √(1 - z ^ 2) := by
      refine Real.le_sqrt_of_sq_le ?_
      rw [div_pow, one_pow, div_le_iff₀ (by positivity)]
      have : z ^ 2 ≤ m * m := by nlinarith [hz.1, hz.2]
      nlinarith [mul_pos hk0 hk0]
    have h2 : 0 < 1 / k := by positivity
    rw [Real.norm_of_nonneg (by positivity), div_le_iff₀ (by linarith)]
    rw [div_le_iff₀ hk0] at h1
    linarith
  have := (convex_Icc (0 : ℝ) m).norm_image_sub_le_of_norm_hasDerivWithin_le key bound ⟨hy0, hy⟩ ⟨hx0, hx⟩
  simpa [Real.norm_eq_abs] using this

end SatSky.Relative
