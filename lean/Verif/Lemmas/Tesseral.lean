import Verif.Spec.Tesseral
import Mathlib.Tactic.LinearCombination
import Mathlib.Tactic.FieldSimp
import Mathlib.Tactic.NormNum

/-! Expansion of spherical harmonics along an orbit. -/

namespace SatSky.Props

open SatSky.Spec Polynomial

/-! ### The associated Legendre functions that occur -/

theorem plm22 (x : ℝ) : (derivative^[2] (legendre 2)).eval x = 3 := by
  have : ((X : ℝ[X]) ^ 2 - 1) ^ 2 = X ^ 4 - 2 * X ^ 2 + 1 := by ring
  simp only [legendre, this, Function.iterate_succ, Function.iterate_zero, Function.comp_apply, id]
  simp [derivative_mul, Nat.factorial]
  norm_num

theorem plm31 (x : ℝ) : (derivative^[1] (legendre 3)).eval x = (15 * x ^ 2 - 3) / 2 := by
  have : ((X : ℝ[X]) ^ 2 - 1) ^ 3 = X ^ 6 - 3 * X ^ 4 + 3 * X ^ 2 - 1 := by ring
  simp only [legendre, this, Function.iterate_succ, Function.iterate_zero, Function.comp_apply, id]
  simp [derivative_mul, Nat.factorial]
  ring

theorem plm32 (x : ℝ) : (derivative^[2] (legendre 3)).eval x = 15 * x := by
  have : ((X : ℝ[X]) ^ 2 - 1) ^ 3 = X ^ 6 - 3 * X ^ 4 + 3 * X ^ 2 - 1 := by ring
  simp only [legendre, this, Function.iterate_succ, Function.iterate_zero, Function.comp_apply, id]
  simp [derivative_mul, Nat.factorial]
  ring

theorem plm33 (x : ℝ) : (derivative^[3] (legendre 3)).eval x = 15 := by
  have : ((X : ℝ[X]) ^ 2 - 1) ^ 3 = X ^ 6 - 3 * X ^ 4 + 3 * X ^ 2 - 1 := by ring
  simp only [legendre, this, Function.iterate_succ, Function.iterate_zero, Function.comp_apply, id]
  simp [derivative_mul, Nat.factorial]
  norm_num

theorem plm44 (x : ℝ) : (derivative^[4] (legendre 4)).eval x = 105 := by
  have : ((X : ℝ[X]) ^ 2 - 1) ^ 4 = X ^ 8 - 4 * X ^ 6 + 6 * X ^ 4 - 4 * X ^ 2 + 1 := by ring
  simp only [legendre, this, Function.iterate_succ, Function.iterate_zero, Function.comp_apply, id]
  simp [derivative_mul, Nat.factorial]
  norm_num

theorem plm52 (x : ℝ) : (derivative^[2] (legendre 5)).eval x = (315 * x ^ 3 - 105 * x) / 2 := by
  have : ((X : ℝ[X]) ^ 2 - 1) ^ 5 = X ^ 10 - 5 * X ^ 8 + 10 * X ^ 6 - 10 * X ^ 4 + 5 * X ^ 2 - 1 := by ring
  simp only [legendre, this, Function.iterate_succ, Function.iterate_zero, Function.comp_apply, id]
  simp [derivative_mul, Nat.factorial]
  ring

theorem plm54 (x : ℝ) : (derivative^[4] (legendre 5)).eval x = 945 * x := by
  have : ((X : ℝ[X]) ^ 2 - 1) ^ 5 = X ^ 10 - 5 * X ^ 8 + 10 * X ^ 6 - 10 * X ^ 4 + 5 * X ^ 2 - 1 := by ring
  simp only [legendre, this, Function.iterate_succ, Function.iterate_zero, Function.comp_apply, id]
  simp [derivative_mul, Nat.factorial]
  ring

/-! ### Expansion of a harmonic along the orbit -/

/-- The degrees and orders of the resonance terms. -/
def resonant : List (ℕ × ℕ) := [(2, 2), (3, 1), (3, 2), (3, 3), (4, 4), (5, 2), (5, 4)]

/-- The factor of the terms: 1 or `-i`. -/
noncomputable def parity (l m : ℕ) : ℂ := if Even (l - m) then 1 else -Complex.I

theorem alongOrbit (z : ℂ) (h i : ℝ) : (⟨(towards z h i).x, (towards z h i).y⟩ : ℂ) =
    Complex.exp (h * Complex.I) * (z.re + Complex.I * Real.cos i * z.im) := by
  unfold towards
  generalize Real.cos i = c
  apply Complex.ext
  · simp [Complex.exp_ofReal_mul_I_re, Complex.exp_ofReal_mul_I_im]
    ring
  · simp [Complex.exp_ofReal_mul_I_re, Complex.exp_ofReal_mul_I_im]
    ring

theorem zpow_unit {z w : ℂ} (h : z * w = 1) (l p : ℕ) (hp : p ≤ l) : z ^ ((l : ℤ) - 2 * p) = z ^ (l - p) * w ^ p := by
  have hz : z ≠ 0 := left_ne_zero_of_mul_eq_one h
  have hw : w = z⁻¹ := eq_inv_of_mul_eq_one_right h
  rw [hw, inv_pow, ← zpow_natCast z (l - p), ← zpow_natCast z p, ← zpow_neg, ← zpow_add₀ hz]
  congr 1
  omega

/-- The statement of `inclination_sum` for one degree and order, in terms of `z` and its conjugate. -/
def KaulaExpansion (l m : ℕ) : Prop := ∀ (z w : ℂ) (i : ℝ), z * w = 1 → (z.re : ℂ) = (z + w) / 2 → (z.im : ℂ) = -Complex.I * (z - w) / 2 →
    (((derivative^[m] (legendre l)).eval (Real.sin i * z.im) : ℝ) : ℂ) * (((1 + Real.cos i) * z + (1 - Real.cos i) * w) / 2) ^ m =
      ∑ p ∈ Finset.range (l + 1), parity l m * inclination l m p i * (z ^ (l - p) * w ^ p)

theorem expansion22 : KaulaExpansion 2 2 := by
  intro z w i h hr hi
  have II : Complex.I * Complex.I = -1 := Complex.I_mul_I
  rw [plm22]
  simp [Finset.sum_range_succ, inclination, parity, Nat.factorial, Nat.choose, (by decide : ¬ Even 3)]
  ring

theorem expansion31 : KaulaExpansion 3 1 := by
  intro z w i h hr hi
  have II : Complex.I * Complex.I = -1 := Complex.I_mul_I
  rw [plm31]
  have e : (((15 * (Real.sin i * z.im) ^ 2 - 3) / 2 : ℝ) : ℂ) = (-15 * (Real.sin i : ℂ) ^ 2 * (z - w) ^ 2 / 4 - 3 * (z * w)) / 2 := by
    push_cast
    rw [hi]
    linear_combination (15 / 8 * Complex.sin i ^ 2 * (z - w) ^ 2 * II + 3 / 2 * h)
  rw [e]
  simp [Finset.sum_range_succ, inclination, parity, Nat.factorial, Nat.choose, (by decide : ¬ Even 3)]
  ring

theorem expansion32 : KaulaExpansion 3 2 := by
  intro z w i h hr hi
  have II : Complex.I * Complex.I = -1 := Complex.I_mul_I
  rw [plm32]
  have e : ((15 * (Real.sin i * z.im) : ℝ) : ℂ) = -Complex.I * (15 * (Real.sin i : ℂ) * (z - w) / 2) := by
    push_cast
    rw [hi]
    linear_combination (0 * h)
  rw [e]
  simp [Finset.sum_range_succ, inclination, parity, Nat.factorial, Nat.choose, (by decide : ¬ Even 3)]
  ring

theorem expansion33 : KaulaExpansion 3 3 := by
  intro z w i h hr hi
  have II : Complex.I * Complex.I = -1 := Complex.I_mul_I
  rw [plm33]
  simp [Finset.sum_range_succ, inclination, parity, Nat.factorial, Nat.choose, (by decide : ¬ Even 3)]
  ring

theorem expansion44 : KaulaExpansion 4 4 := by
  intro z w i h hr hi
  have II : Complex.I * Complex.I = -1 := Complex.I_mul_I
  rw [plm44]
  simp [Finset.sum_range_succ, inclination, parity, Nat.factorial, Nat.choose, (by decide : ¬ Even 3)]
  ring

set_option maxHeartbeats 2000000 in
theorem expansion52 : KaulaExpansion 5 2 := by
  intro z w i h hr hi
  have II : Complex.I * Complex.I = -1 := Complex.I_mul_I
  rw [plm52]
  have e : (((315 * (Real.sin i * z.im) ^ 3 - 105 * (Real.sin i * z.im)) / 2 : ℝ) : ℂ) =
      -Complex.I * (-315 * (Real.sin i : ℂ) ^ 3 * (z - w) ^ 3 / 8 - 105 * (Real.sin i : ℂ) * (z - w) / 2 * (z * w)) / 2 := by
    push_cast
    rw [hi]
    linear_combination (-(315 / 16) * Complex.I * Complex.sin i ^ 3 * (z - w) ^ 3 * II - 105 / 4 * Complex.I * Complex.sin i * (z - w) * h)
  rw [e]
  simp [Finset.sum_range_succ, inclination, parity, Nat.factorial, Nat.choose, (by decide : ¬ Even 3)]
  ring

set_option maxHeartbeats 2000000 in
theorem expansion54 : KaulaExpansion 5 4 := by
  intro z w i h hr hi
  have II : Complex.I * Complex.I = -1 := Complex.I_mul_I
  rw [plm54]
  have e : ((945 * (Real.sin i * z.im) : ℝ) : ℂ) = -Complex.I * (945 * (Real.sin i : ℂ) * (z - w) / 2) := by
    push_cast
    rw [hi]
    linear_combination (0 * h)
  rw [e]
  simp [Finset.sum_range_succ, inclination, parity, Nat.factorial, Nat.choose, (by decide : ¬ Even 3)]
  ring

theorem inclination_sum (l m : ℕ) (hlm : (l, m) ∈ resonant) (z w : ℂ) (h : z * w = 1) (hw : w = (starRingEnd ℂ) z) (i : ℝ) :
    (((derivative^[m] (legendre l)).eval (Real.sin i * z.im) : ℝ) : ℂ) * (z.re + Complex.I * Real.cos i * z.im) ^ m =
      ∑ p ∈ Finset.range (l + 1), parity l m * inclination l m p i * z ^ ((l : ℤ) - 2 * p) := by
  have hr : (z.re : ℂ) = (z + w) / 2 := by rw [hw, Complex.re_eq_add_conj]
  have hi : (z.im : ℂ) = -Complex.I * (z - w) / 2 := by
    rw [hw, Complex.im_eq_sub_conj]
    have := Complex.I_ne_zero
    field_simp
    rw [Complex.I_sq]
    ring
  have II : Complex.I * Complex.I = -1 := Complex.I_mul_I
  have hx : (z.re : ℂ) + Complex.I * Real.cos i * z.im = ((1 + Real.cos i) * z + (1 - Real.cos i) * w) / 2 := by
    rw [hr, hi]
    linear_combination (-(Real.cos i : ℂ) * (z - w) / 2) * II
  rw [hx, Finset.sum_congr rfl fun p hp => by rw [zpow_unit h l p (by simpa using Nat.lt_succ_iff.mp (Finset.mem_range.mp hp))]]
  simp only [resonant, List.mem_cons, Prod.mk.injEq, List.not_mem_nil, or_false] at hlm
  rcases hlm with ⟨rfl, rfl⟩ | ⟨rfl, rfl⟩ | ⟨rfl, rfl⟩ | ⟨rfl, rfl⟩ | ⟨rfl, rfl⟩ | ⟨rfl, rfl⟩ | ⟨rfl, rfl⟩
  · exact expansion22 z w i h hr hi
  · exact expansion31 z w i h hr hi
  · exact expansion32 z w i h hr hi
  · exact expansion33 z w i h hr hi
  · exact expansion44 z w i h hr hi
  · exact expansion52 z w i h hr hi
  · exact expansion54 z w i h hr hi

/-! ### The inclination functions used -/

theorem incl220 (x : ℝ) : inclination 2 2 0 x = 3 / 4 * (1 + Real.cos x) ^ 2 := by
  generalize hr : 3 / 4 * (1 + Real.cos x) ^ 2 = r
  simp [inclination, Finset.sum_range_succ, Nat.choose, Nat.factorial]
  rw [← hr]
  ring

theorem incl221 (x : ℝ) : inclination 2 2 1 x = 3 / 2 * (1 - Real.cos x ^ 2) := by
  generalize hr : 3 / 2 * (1 - Real.cos x ^ 2) = r
  simp [inclination, Finset.sum_range_succ, Nat.choose, Nat.factorial]
  rw [← hr]
  ring

theorem incl311 (x : ℝ) : inclination 3 1 1 x = 15 / 16 * Real.sin x ^ 2 * (1 + 3 * Real.cos x) - 3 / 4 * (1 + Real.cos x) := by
  generalize hr : 15 / 16 * Real.sin x ^ 2 * (1 + 3 * Real.cos x) - 3 / 4 * (1 + Real.cos x) = r
  simp [inclination, Finset.sum_range_succ, Nat.choose, Nat.factorial]
  rw [← hr]
  ring

theorem incl321 (x : ℝ) : inclination 3 2 1 x = 15 / 8 * Real.sin x * (1 - 2 * Real.cos x - 3 * Real.cos x ^ 2) := by
  generalize hr : 15 / 8 * Real.sin x * (1 - 2 * Real.cos x - 3 * Real.cos x ^ 2) = r
  simp [inclination, Finset.sum_range_succ, Nat.choose, Nat.factorial]
  rw [← hr]
  ring

theorem incl322 (x : ℝ) : inclination 3 2 2 x = -(15 / 8) * Real.sin x * (1 + 2 * Real.cos x - 3 * Real.cos x ^ 2) := by
  generalize hr : -(15 / 8) * Real.sin x * (1 + 2 * Real.cos x - 3 * Real.cos x ^ 2) = r
  simp [inclination, Finset.sum_range_succ, Nat.choose, Nat.factorial]
  rw [← hr]
  ring

theorem incl330 (x : ℝ) : inclination 3 3 0 x = 15 / 8 * (1 + Real.cos x) ^ 3 := by
  generalize hr : 15 / 8 * (1 + Real.cos x) ^ 3 = r
  simp [inclination, Finset.sum_range_succ, Nat.choose, Nat.factorial]
  rw [← hr]
  ring

theorem incl441 (x : ℝ) : inclination 4 4 1 x = 105 / 4 * (1 + Real.cos x) ^ 3 * (1 - Real.cos x) := by
  generalize hr : 105 / 4 * (1 + Real.cos x) ^ 3 * (1 - Real.cos x) = r
  simp [inclination, Finset.sum_range_succ, Nat.choose, Nat.factorial]
  rw [← hr]
  ring

theorem incl442 (x : ℝ) : inclination 4 4 2 x = 315 / 8 * (1 - Real.cos x ^ 2) ^ 2 := by
  generalize hr : 315 / 8 * (1 - Real.cos x ^ 2) ^ 2 = r
  simp [inclination, Finset.sum_range_succ, Nat.choose, Nat.factorial]
  rw [← hr]
  ring

theorem incl522 (x : ℝ) : inclination 5 2 2 x = 315 / 32 * Real.sin x * (Real.sin x ^ 2 * (1 - 2 * Real.cos x - 5 * Real.cos x ^ 2) + 1 / 3 * (-2 + 4 * Real.cos x + 6 * Real.cos x ^ 2)) := by
  generalize hr : 315 / 32 * Real.sin x * (Real.sin x ^ 2 * (1 - 2 * Real.cos x - 5 * Real.cos x ^ 2) + 1 / 3 * (-2 + 4 * Real.cos x + 6 * Real.cos x ^ 2)) = r
  simp [inclination, Finset.sum_range_succ, Nat.choose, Nat.factorial]
  rw [← hr]
  ring

theorem incl523 (x : ℝ) : inclination 5 2 3 x = Real.sin x * (315 / 64 * Real.sin x ^ 2 * (-2 - 4 * Real.cos x + 10 * Real.cos x ^ 2) + 105 / 16 * (1 + 2 * Real.cos x - 3 * Real.cos x ^ 2)) := by
  generalize hr : Real.sin x * (315 / 64 * Real.sin x ^ 2 * (-2 - 4 * Real.cos x + 10 * Real.cos x ^ 2) + 105 / 16 * (1 + 2 * Real.cos x - 3 * Real.cos x ^ 2)) = r
  simp [inclination, Finset.sum_range_succ, Nat.choose, Nat.factorial]
  rw [← hr]
  ring

theorem incl542 (x : ℝ) : inclination 5 4 2 x = 945 / 32 * Real.sin x * (2 - 8 * Real.cos x + Real.cos x ^ 2 * (-12 + 8 * Real.cos x + 10 * Real.cos x ^ 2)) := by
  generalize hr : 945 / 32 * Real.sin x * (2 - 8 * Real.cos x + Real.cos x ^ 2 * (-12 + 8 * Real.cos x + 10 * Real.cos x ^ 2)) = r
  simp [inclination, Finset.sum_range_succ, Nat.choose, Nat.factorial]
  rw [← hr]
  ring

theorem incl543 (x : ℝ) : inclination 5 4 3 x = 945 / 32 * Real.sin x * (-2 - 8 * Real.cos x + Real.cos x ^ 2 * (12 + 8 * Real.cos x - 10 * Real.cos x ^ 2)) := by
  generalize hr : 945 / 32 * Real.sin x * (-2 - 8 * Real.cos x + Real.cos x ^ 2 * (12 + 8 * Real.cos x - 10 * Real.cos x ^ 2)) = r
  simp [inclination, Finset.sum_range_succ, Nat.choose, Nat.factorial]
  rw [← hr]
  ring

end SatSky.Props
