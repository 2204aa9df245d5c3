import Mathlib.Analysis.SpecialFunctions.PolarCoord
import Verif.Spec.HealpixRegion

/-! From the squares of the HEALPix faces to the sphere with the coordinates `(z, φ)`: maps that stretch areas by the constant `π / (3 n²)`. -/

namespace SatSky.Healpix

open MeasureTheory

/-- Linear map of the plane with the matrix `a b; c d`. -/
noncomputable def lin2 (a b c d : ℝ) : ℝ × ℝ →L[ℝ] ℝ × ℝ :=
  (a • ContinuousLinearMap.fst ℝ ℝ ℝ + b • ContinuousLinearMap.snd ℝ ℝ ℝ).prod (c • ContinuousLinearMap.fst ℝ ℝ ℝ + d • ContinuousLinearMap.snd ℝ ℝ ℝ)

theorem lin2_det (a b c d : ℝ) : (lin2 a b c d).det = a * d - b * c := by
  unfold lin2
  rw [← Matrix.toLin_finTwoProd_toContinuousLinearMap]
  simp only [LinearMap.det_toContinuousLinearMap, LinearMap.det_toLin, Matrix.det_fin_two_of]

/-- A map whose derivative has a constant determinant stretches areas at most by it. -/
theorem image_area {P : Set (ℝ × ℝ)} (hP : MeasurableSet P) {f : ℝ × ℝ → ℝ × ℝ} {f' : ℝ × ℝ → ℝ × ℝ →L[ℝ] ℝ × ℝ} {a : ℝ}
    (hf : ∀ q ∈ P, HasFDerivAt f (f' q) q) (hd : ∀ q ∈ P, |(f' q).det| = a) : volume (f '' P) ≤ ENNReal.ofReal a * volume P := by
  have h := addHaar_image_le_lintegral_abs_det_fderiv (volume : Measure (ℝ × ℝ)) hP (f := f) (f' := f') (fun q hq => (hf q hq).hasFDerivWithinAt)
  refine h.trans (le_of_eq ?_)
  rw [← setLIntegral_const]
  exact setLIntegral_congr_fun hP (fun q hq => by simp only [hd q hq])

/-- The belt. -/
noncomputable def beltMap (n fx fy : ℝ) (q : ℝ × ℝ) : ℝ × ℝ :=
  (4 / 3 * (fy + (q.1 + q.2) / (2 * n) - 1 / 2), Real.pi / 2 * (fx + (q.1 - q.2) / (2 * n)))

/-- The north cap; `g` the quarter. -/
noncomputable def northMap (n g : ℝ) (q : ℝ × ℝ) : ℝ × ℝ :=
  (1 - (2 * n - q.1 - q.2) ^ 2 / (3 * n ^ 2), Real.pi / 2 * (g + 1 / 2 + (q.1 - q.2) * (2 * (2 * n - q.1 - q.2))⁻¹))

/-- The south cap. -/
noncomputable def southMap (n g : ℝ) (q : ℝ × ℝ) : ℝ × ℝ :=
  (-1 + (q.1 + q.2) ^ 2 / (3 * n ^ 2), Real.pi / 2 * (g + 1 / 2 + (q.1 - q.2) * (2 * (q.1 + q.2))⁻¹))

variable {n : ℝ}

theorem hasFDeriv_fst (q : ℝ × ℝ) : HasFDerivAt (fun q : ℝ × ℝ => q.1) (ContinuousLinearMap.fst ℝ ℝ ℝ) q := hasFDerivAt_fst
theorem hasFDeriv_snd (q : ℝ × ℝ) : HasFDerivAt (fun q : ℝ × ℝ => q.2) (ContinuousLinearMap.snd ℝ ℝ ℝ) q := hasFDerivAt_snd

theorem beltMap_deriv (hn : n ≠ 0) (fx fy : ℝ) (q : ℝ × ℝ) :
    HasFDerivAt (beltMap n fx fy) (lin2 (2 / (3 * n)) (2 / (3 * n)) (Real.pi / (4 * n)) (-(Real.pi / (4 * n)))) q := by
  have e1 : HasFDerivAt (fun q : ℝ × ℝ => 4 / 3 * (fy + (q.1 + q.2) / (2 * n) - 1 / 2)) ((2 / (3 * n)) • ContinuousLinearMap.fst ℝ ℝ ℝ + (2 / (3 * n)) • ContinuousLinearMap.snd ℝ ℝ ℝ) q := by
    have h := ((((hasFDeriv_fst q).add (hasFDeriv_snd q)).mul_const ((2 * n)⁻¹)).const_mul (4 / 3)).add_const (4 / 3 * (fy - 1 / 2))
    refine (h.congr_of_eventuallyEq (Filter.Eventually.of_forall fun q => ?_)).congr_fderiv ?_
    · simp only [Pi.add_apply]; ring
    · ext <;> simp <;> field_simp <;> ring
  have e2 : HasFDerivAt (fun q : ℝ × ℝ => Real.pi / 2 * (fx + (q.1 - q.2) / (2 * n))) ((Real.pi / (4 * n)) • ContinuousLinearMap.fst ℝ ℝ ℝ + (-(Real.pi / (4 * n))) • ContinuousLinearMap.snd ℝ ℝ ℝ) q := by
    have h := ((((hasFDeriv_fst q).sub (hasFDeriv_snd q)).mul_const ((2 * n)⁻¹)).const_mul (Real.pi / 2)).add_const (Real.pi / 2 * fx)
    refine (h.congr_of_eventuallyEq (Filter.Eventually.of_forall fun q => ?_)).congr_fderiv ?_
    · simp only [Pi.sub_apply]; ring
    · ext <;> simp <;> field_simp <;> ring
  exact e1.prodMk e2

theorem beltMap_det (hn : 0 < n) : |(lin2 (2 / (3 * n)) (2 / (3 * n)) (Real.pi / (4 * n)) (-(Real.pi / (4 * n)))).det| = Real.pi / (3 * n ^ 2) := by
  rw [lin2_det]
  have : 2 / (3 * n) * -(Real.pi / (4 * n)) - 2 / (3 * n) * (Real.pi / (4 * n)) = -(Real.pi / (3 * n ^ 2)) := by field_simp; ring
  rw [this, abs_neg, abs_of_pos (by have := Real.pi_pos; positivity)]

theorem northMap_deriv (hn : n ≠ 0) (g : ℝ) {q : ℝ × ℝ} (hw : 2 * n - q.1 - q.2 ≠ 0) :
    HasFDerivAt (northMap n g) (lin2 (2 * (2 * n - q.1 - q.2) / (3 * n ^ 2)) (2 * (2 * n - q.1 - q.2) / (3 * n ^ 2))
      (Real.pi / 2 * ((n - q.2) / (2 * n - q.1 - q.2) ^ 2)) (-(Real.pi / 2 * ((n - q.1) / (2 * n - q.1 - q.2) ^ 2)))) q := by
  have hlin : HasFDerivAt (fun q : ℝ × ℝ => 2 * n - q.1 - q.2) (-ContinuousLinearMap.fst ℝ ℝ ℝ - ContinuousLinearMap.snd ℝ ℝ ℝ) q := by
    have h := ((hasFDeriv_fst q).const_sub (2 * n)).sub (hasFDeriv_snd q)
    exact h
  have e1 : HasFDerivAt (fun q : ℝ × ℝ => 1 - (2 * n - q.1 - q.2) ^ 2 / (3 * n ^ 2))
      ((2 * (2 * n - q.1 - q.2) / (3 * n ^ 2)) • ContinuousLinearMap.fst ℝ ℝ ℝ + (2 * (2 * n - q.1 - q.2) / (3 * n ^ 2)) • ContinuousLinearMap.snd ℝ ℝ ℝ) q := by
    have h := ((hlin.pow 2).mul_const ((3 * n ^ 2)⁻¹)).const_sub 1
    refine (h.congr_of_eventuallyEq (Filter.Eventually.of_forall fun q => ?_)).congr_fderiv ?_
    · simp only [Pi.pow_apply]; ring
    · ext <;> simp <;> field_simp
  have e2 : HasFDerivAt (fun q : ℝ × ℝ => Real.pi / 2 * (g + 1 / 2 + (q.1 - q.2) * (2 * (2 * n - q.1 - q.2))⁻¹))
      ((Real.pi / 2 * ((n - q.2) / (2 * n - q.1 - q.2) ^ 2)) • ContinuousLinearMap.fst ℝ ℝ ℝ +
        (-(Real.pi / 2 * ((n - q.1) / (2 * n - q.1 - q.2) ^ 2))) • ContinuousLinearMap.snd ℝ ℝ ℝ) q := by
    have hi := (hasDerivAt_inv (mul_ne_zero two_ne_zero hw)).comp_hasFDerivAt q (hlin.const_mul 2)
    have h := ((((hasFDeriv_fst q).sub (hasFDeriv_snd q)).mul hi).const_mul (Real.pi / 2)).add_const (Real.pi / 2 * (g + 1 / 2))
    refine (h.congr_of_eventuallyEq (Filter.Eventually.of_forall fun q => ?_)).congr_fderiv ?_
    · simp only [Pi.sub_apply, Pi.mul_apply, Function.comp_apply]; ring
    · ext <;> simp <;> field_simp <;> ring
  exact e1.prodMk e2

theorem northMap_det (hn : 0 < n) {q : ℝ × ℝ} (hw : 2 * n - q.1 - q.2 ≠ 0) : |(lin2 (2 * (2 * n - q.1 - q.2) / (3 * n ^ 2)) (2 * (2 * n - q.1 - q.2) / (3 * n ^ 2))
      (Real.pi / 2 * ((n - q.2) / (2 * n - q.1 - q.2) ^ 2)) (-(Real.pi / 2 * ((n - q.1) / (2 * n - q.1 - q.2) ^ 2)))).det| = Real.pi / (3 * n ^ 2) := by
  rw [lin2_det]
  have : 2 * (2 * n - q.1 - q.2) / (3 * n ^ 2) * -(Real.pi / 2 * ((n - q.1) / (2 * n - q.1 - q.2) ^ 2)) -
      2 * (2 * n - q.1 - q.2) / (3 * n ^ 2) * (Real.pi / 2 * ((n - q.2) / (2 * n - q.1 - q.2) ^ 2)) = -(Real.pi / (3 * n ^ 2)) := by field_simp; ring
  rw [this, abs_neg, abs_of_pos (by have := Real.pi_pos; positivity)]

theorem southMap_deriv (hn : n ≠ 0) (g : ℝ) {q : ℝ × ℝ} (hw : q.1 + q.2 ≠ 0) :
    HasFDerivAt (southMap n g) (lin2 (2 * (q.1 + q.2) / (3 * n ^ 2)) (2 * (q.1 + q.2) / (3 * n ^ 2))
      (Real.pi / 2 * (q.2 / (q.1 + q.2) ^ 2)) (-(Real.pi / 2 * (q.1 / (q.1 + q.2) ^ 2)))) q := by
  have hlin : HasFDerivAt (fun q : ℝ × ℝ => q.1 + q.2) (ContinuousLinearMap.fst ℝ ℝ ℝ + ContinuousLinearMap.snd ℝ ℝ ℝ) q :=
    (hasFDeriv_fst q).add (hasFDeriv_snd q)
  have e1 : HasFDerivAt (fun q : ℝ × ℝ => -1 + (q.1 + q.2) ^ 2 / (3 * n ^ 2))
      ((2 * (q.1 + q.2) / (3 * n ^ 2)) • ContinuousLinearMap.fst ℝ ℝ ℝ + (2 * (q.1 + q.2) / (3 * n ^ 2)) • ContinuousLinearMap.snd ℝ ℝ ℝ) q := by
    have h := ((hlin.pow 2).mul_const ((3 * n ^ 2)⁻¹)).const_add (-1)
    refine (h.congr_of_eventuallyEq (Filter.Eventually.of_forall fun q => ?_)).congr_fderiv ?_
    · simp only [Pi.pow_apply]; ring
    · ext <;> simp <;> field_simp
  have e2 : HasFDerivAt (fun q : ℝ × ℝ => Real.pi / 2 * (g + 1 / 2 + (q.1 - q.2) * (2 * (q.1 + q.2))⁻¹))
      ((Real.pi / 2 * (q.2 / (q.1 + q.2) ^ 2)) • ContinuousLinearMap.fst ℝ ℝ ℝ +
        (-(Real.pi / 2 * (q.1 / (q.1 + q.2) ^ 2))) • ContinuousLinearMap.snd ℝ ℝ ℝ) q := by
    have hi := (hasDerivAt_inv (mul_ne_zero two_ne_zero hw)).comp_hasFDerivAt q (hlin.const_mul 2)
    have h := ((((hasFDeriv_fst q).sub (hasFDeriv_snd q)).mul hi).const_mul (Real.pi / 2)).add_const (Real.pi / 2 * (g + 1 / 2))
    refine (h.congr_of_eventuallyEq (Filter.Eventually.of_forall fun q => ?_)).congr_fderiv ?_
    · simp only [Pi.sub_apply, Pi.mul_apply, Function.comp_apply]; ring
    · ext <;> simp <;> field_simp <;> ring
  exact e1.prodMk e2

theorem southMap_det (hn : 0 < n) {q : ℝ × ℝ} (hw : q.1 + q.2 ≠ 0) : |(lin2 (2 * (q.1 + q.2) / (3 * n ^ 2)) (2 * (q.1 + q.2) / (3 * n ^ 2))
      (Real.pi / 2 * (q.2 / (q.1 + q.2) ^ 2)) (-(Real.pi / 2 * (q.1 / (q.1 + q.2) ^ 2)))).det| = Real.pi / (3 * n ^ 2) := by
  rw [lin2_det]
  have : 2 * (q.1 + q.2) / (3 * n ^ 2) * -(Real.pi / 2 * (q.1 / (q.1 + q.2) ^ 2)) -
      2 * (q.1 + q.2) / (3 * n ^ 2) * (Real.pi / 2 * (q.2 / (q.1 + q.2) ^ 2)) = -(Real.pi / (3 * n ^ 2)) := by field_simp; ring
  rw [this, abs_neg, abs_of_pos (by have := Real.pi_pos; positivity)]

end SatSky.Healpix
