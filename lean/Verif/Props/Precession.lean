import Verif.Lemmas.Angles
import Verif.Model.HealpixDir
import Verif.Props.HealpixAng
import Mathlib.Analysis.Real.Pi.Bounds

/-! Precession to 2000: C41 (right ascension), C82 (declination and the HEALPix pixel). -/

namespace SatSky.Props

open SatSky.Spec SatSky.Geo Real

theorem prec_bounds {t : ℝ} (h : |t| ≤ 1) : (0 < precM t ∧ precM t * 100 ≤ 225 / 10000) ∧ (0 < precN t ∧ precN t * 100 ≤ 98 / 10000) := by
  obtain ⟨h1, h2⟩ := abs_le.mp h
  have p1 := pi_gt_d2
  have p2 := pi_lt_d2
  unfold precM precN d2r
  refine ⟨⟨?_, ?_⟩, ?_, ?_⟩
  · have : 0 < 307496 / 100000 + 186 / 100000 * t / 2 := by linarith
    positivity
  · nlinarith
  · have : 0 < 133621 / 100000 - 57 / 100000 * t / 2 := by linarith
    positivity
  · nlinarith

/-- C41: at the epoch 2000 nothing changes. -/
theorem C41_identity {ra : ℝ} (dec : ℝ) (h : 0 ≤ ra ∧ ra < 2 * π) : epoch_of_date_to_j2000 JD2000 ra dec = (ra, dec) := by
  have ht : centuries JD2000 = 0 := by unfold centuries; simp
  unfold epoch_of_date_to_j2000
  dsimp only
  rw [ht]
  simp only [zero_mul, sub_zero]
  rw [if_neg (not_lt.mpr h.1), if_neg (not_le.mpr h.2)]

theorem prec_ra_step {jd ra dec : ℝ} (ht : |centuries jd| ≤ 1) (hd : |tan dec| ≤ 600) :
    |centuries jd * (precM (centuries jd) + precN (centuries jd) * sin ra * tan dec) * 100| < 2 * π := by
  have ⟨⟨m1, m2⟩, n1, n2⟩ := prec_bounds ht
  generalize centuries jd = t at *
  have hs := abs_sin_le_one ra
  have h1 : |(precM t + precN t * sin ra * tan dec) * 100| ≤ 225 / 10000 + 98 / 10000 * 600 := by
    have e : (precM t + precN t * sin ra * tan dec) * 100 = precM t * 100 + precN t * 100 * (sin ra * tan dec) := by ring
    rw [e]
    refine le_trans (abs_add_le _ _) ?_
    rw [abs_mul (precN t * 100), abs_mul (sin ra), abs_of_pos (by linarith : 0 < precM t * 100), abs_of_pos (by linarith : 0 < precN t * 100)]
    have : |sin ra| * |tan dec| ≤ 1 * 600 := mul_le_mul hs hd (abs_nonneg _) (by norm_num)
    have h3 : precN t * 100 * (|sin ra| * |tan dec|) ≤ 98 / 10000 * 600 := mul_le_mul n2 (by linarith) (by positivity) (by norm_num)
    linarith
  rw [mul_assoc, abs_mul]
  have h2 : |t| * |(precM t + precN t * sin ra * tan dec) * 100| ≤ 1 * (225 / 10000 + 98 / 10000 * 600) :=
    mul_le_mul ht h1 (abs_nonneg _) (by norm_num)
  have := pi_gt_d2
  linarith

/-- C41: within a century of 2000 and for declinations with `|tan dec| ≤ 600` (up to 89.9 degrees) the right ascension stays in `[0, 2π)`; it
changes by the rate of precession times the time, up to whole turns. -/
theorem C41_range {jd ra dec ra' dec' : ℝ} (h : epoch_of_date_to_j2000 jd ra dec = (ra', dec')) (hr : 0 ≤ ra ∧ ra < 2 * π)
    (ht : |centuries jd| ≤ 1) (hd : |tan dec| ≤ 600) : 0 ≤ ra' ∧ ra' < 2 * π := by
  have hst := abs_lt.mp (prec_ra_step (ra := ra) ht hd)
  unfold epoch_of_date_to_j2000 at h
  simp only [Prod.mk.injEq] at h
  obtain ⟨rfl, _⟩ := h
  split_ifs with c1 c2
  · constructor <;> linarith
  · constructor <;> linarith
  · constructor <;> linarith

/-- C41: precession in right ascension is `m + n sin ra tan dec` and in declination `n cos ra` per year, with small positive rates `m` and
`n`; the change from 2000 to the date is undone, up to whole turns. -/
theorem C41_first_order {jd ra dec ra' dec' : ℝ} (h : epoch_of_date_to_j2000 jd ra dec = (ra', dec')) :
    ∃ m n : ℝ, (|centuries jd| ≤ 1 → (0 < m ∧ m * 100 ≤ 225 / 10000) ∧ 0 < n ∧ n * 100 ≤ 98 / 10000) ∧
      Turns (2 * π) ra' (ra - 100 * centuries jd * (m + n * sin ra * tan dec)) ∧ dec' = dec - 100 * centuries jd * (n * cos ra) := by
  refine ⟨precM (centuries jd), precN (centuries jd), prec_bounds, ?_, ?_⟩
  · unfold epoch_of_date_to_j2000 at h
    simp only [Prod.mk.injEq] at h
    obtain ⟨rfl, _⟩ := h
    split_ifs
    · exact ⟨1, by push_cast; ring⟩
    · exact ⟨-1, by push_cast; ring⟩
    · exact ⟨0, by push_cast; ring⟩
  · unfold epoch_of_date_to_j2000 at h
    simp only [Prod.mk.injEq] at h
    rw [← h.2]
    ring

theorem cent1 : centuries (JD2000 + 36525) = 1 := by unfold centuries; norm_num

/-- Nearer to the pole the right ascension leaves `[0, 2π)`: at right ascension 90 degrees and `tan dec = 10^6` (0.2 arc seconds from the pole),
2100. -/
theorem C41_pole_excluded : (epoch_of_date_to_j2000 (JD2000 + 36525) (π / 2) (arctan (10 ^ 6))).1 < 0 := by
  have ⟨⟨m1, m2⟩, n1, n2⟩ := prec_bounds (t := 1) (by norm_num)
  have p1 := pi_gt_d2
  have p2 := pi_lt_d2
  have hn : 96 / 10000 ≤ precN 1 * 100 := by
    unfold precN d2r
    nlinarith
  unfold epoch_of_date_to_j2000
  dsimp only
  rw [cent1, sin_pi_div_two, tan_arctan, mul_one, one_mul]
  rw [if_pos (by nlinarith)]
  nlinarith

/-- C82: if the declination is at least 0.6 degrees per century away from the poles, the precessed declination is in `[-π/2, π/2]` and the
HEALPix pixel exists.  Missing: declinations nearer to the poles. -/
theorem C82_partial {jd ra dec ra' dec' : ℝ} (h : epoch_of_date_to_j2000 jd ra dec = (ra', dec')) (ht : |centuries jd| ≤ 1)
    (hd : |dec| ≤ π / 2 - 98 / 10000 * |centuries jd|) :
    (-(π / 2) ≤ dec' ∧ dec' ≤ π / 2) ∧ ∃ p, Healpix.ang2pix_nest 256 (π / 2 - dec') ra' = some p ∧ 0 ≤ p ∧ p < 786432 := by
  have ⟨_, n1, n2⟩ := prec_bounds ht
  have hdec : -(π / 2) ≤ dec' ∧ dec' ≤ π / 2 := by
    unfold epoch_of_date_to_j2000 at h
    simp only [Prod.mk.injEq] at h
    obtain ⟨_, rfl⟩ := h
    have : |centuries jd * (precN (centuries jd) * cos ra) * 100| ≤ 98 / 10000 * |centuries jd| := by
      have e : centuries jd * (precN (centuries jd) * cos ra) * 100 = centuries jd * (precN (centuries jd) * 100 * cos ra) := by ring
      rw [e, abs_mul, mul_comm]
      apply mul_le_mul_of_nonneg_right _ (abs_nonneg _)
      rw [abs_mul, abs_of_pos (by linarith)]
      have := abs_cos_le_one ra
      nlinarith [abs_nonneg (cos ra)]
    obtain ⟨a, b⟩ := abs_le.mp this
    obtain ⟨c, d⟩ := abs_le.mp hd
    constructor <;> linarith
  refine ⟨hdec, ?_⟩
  obtain ⟨p, hp, a, b⟩ := C44_printed hdec.1 hdec.2 ra'
  exact ⟨p, hp, a, by omega⟩

/-- C82 is violated near the poles: for a satellite 0.001 radians (3.4 arc minutes) from the pole at right ascension 180 degrees in 2100 the
declination exceeds 90 degrees and `ang2pix_nest` ends the program. -/
theorem C82_violated : ∃ ra' dec', epoch_of_date_to_j2000 (JD2000 + 36525) π (π / 2 - 1 / 1000) = (ra', dec') ∧ π / 2 < dec' ∧
    Healpix.ang2pix_nest 256 (π / 2 - dec') ra' = none := by
  refine ⟨_, _, rfl, ?_, ?_⟩
  all_goals
    have hn : 96 / 10000 ≤ precN 1 * 100 := by
      have p1 := pi_gt_d2
      unfold precN d2r
      nlinarith
  · rw [cent1, cos_pi]
    linarith
  · apply (C44_refused _ (Or.inl _) _).1
    rw [cent1, cos_pi]
    linarith

/-- On the equator at right ascension 0 in 2100: the declination decreases by the rate, the right ascension wraps below 2π. -/
example : ∃ ra' dec', epoch_of_date_to_j2000 (JD2000 + 36525) 0 0 = (ra', dec') ∧ dec' < 0 ∧ π < ra' ∧ ra' < 2 * π := by
  have ⟨⟨m1, m2⟩, n1, n2⟩ := prec_bounds (t := 1) (by norm_num)
  have p1 := pi_gt_d2
  refine ⟨_, _, rfl, ?_, ?_⟩
  · rw [cent1, cos_zero]
    linarith
  · rw [cent1, sin_zero, tan_zero, mul_zero, add_zero, one_mul, zero_sub]
    rw [if_pos (by linarith)]
    constructor <;> linarith

end SatSky.Props
