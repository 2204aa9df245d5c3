import Verif.Model.ZenithDouble
import Verif.Props.SunSkyDouble
import Verif.Props.RegionDouble
import Verif.Props.TopoDouble

/-! Zenith distance and altitude of a satellite belong together. -/

namespace SatSky.Props

open SatSky Spec Geo Relative

/-- The direction of the zenith makes with a direction the complement of its altitude. -/
theorem zenith_angle (t l ra dec : ℝ) : Spec.angle (dir t l) (dir ra dec) = Real.pi / 2 - Real.arcsin (sinAlt dec (t - ra) l) := by
  rw [angle_dir, Real.arccos]
  congr 2
  unfold sinAlt dir V3.dot
  dsimp only
  rw [Real.cos_sub]
  ring

theorem zenithRa_near {l : ℚ} (l0 : 0 ≤ l) (l1 : l ≤ 24) :
    |zenithRaD Fl64.ieee l| ≤ twopiD ∧ |(zenithRaD Fl64.ieee l : ℝ) - l * (Real.pi / 12)| ≤ 2 / 10 ^ 15 := by
  have hp := Real.pi_gt_d6
  have hp' := Real.pi_lt_d6
  have hr0 : (0 : ℚ) < r2hD := by unfold r2hD; norm_num
  have h0 : 0 ≤ zenithRaD Fl64.ieee l := fl_nonneg _ (div_nonneg l0 hr0.le)
  have h1 : zenithRaD Fl64.ieee l ≤ twopiD := by
    have e : Fl64.ieee.rnd (24 / r2hD) = twopiD := by decide +kernel
    rw [← e]
    exact Fl64.ieee.mono _ _ (div_le_div_of_nonneg_right l1 hr0.le)
  refine ⟨abs_le.2 ⟨by linarith, h1⟩, ?_⟩
  have l0' : (0 : ℝ) ≤ l := by exact_mod_cast l0
  have l1' : (l : ℝ) ≤ 24 := by exact_mod_cast l1
  have hr := hours_near
  have r3 : (3 : ℝ) ≤ r2hD := by unfold r2hD; norm_num
  have key : |1 / (r2hD : ℝ) - Real.pi / 12| ≤ 5 / 10 ^ 17 := by
    rw [show 1 / (r2hD : ℝ) - Real.pi / 12 = -((r2hD - 12 / Real.pi) * (Real.pi / 12 / r2hD)) by field_simp; ring, abs_neg, abs_mul,
      abs_of_pos (by positivity : 0 < Real.pi / 12 / (r2hD : ℝ))]
    have : Real.pi / 12 / (r2hD : ℝ) ≤ 1 / 10 := by rw [div_le_iff₀ (by linarith)]; linarith
    have := mul_le_mul hr this (by positivity) (by norm_num)
    linarith
  have hm : |((l / r2hD : ℚ) : ℝ) - l * (Real.pi / 12)| ≤ 12 / 10 ^ 16 := by
    push_cast
    rw [show (l : ℝ) / r2hD - l * (Real.pi / 12) = l * (1 / r2hD - Real.pi / 12) by ring, abs_mul, abs_of_nonneg l0']
    have := mul_le_mul l1' key (abs_nonneg _) (by norm_num)
    linarith
  refine rnd_real _ hm (A := 7) ?_ (by norm_num)
  rw [abs_of_nonneg (by positivity)]
  nlinarith

/-- C199: in `double` the zenith distance and the altitude of a satellite add up to 90 degrees, to 4e-11 degrees (3e-5 near the zenith), except
where the declination is within 2e-6 radian of the latitude. -/
theorem C199_sum_partial (M : Libm) {l lat ra dec : ℚ} {X : ℝ} (l0 : 0 ≤ l) (l1 : l ≤ 24) (r0 : 0 ≤ ra) (r1 : ra ≤ twopiD) (hl : |lat| ≤ 8999 / 100)
    (hd : |dec| ≤ piD / 2) (hz : 2 / 10 ^ 6 ≤ |(dec : ℝ) - lat * (Real.pi / 180)|)
    (hX : X = sinAlt dec (l * (Real.pi / 12) - ra) (lat * (Real.pi / 180))) (hX0 : -(99 / 100) ≤ X) :
    ∃ s a, zenithSepD Fl64.ieee M l lat ra dec = some s ∧ satAltD Fl64.ieee M l lat ra dec = some a ∧ |(s : ℝ) + a - 90| ≤ 3 / 10 ^ 5 ∧
      (|X| ≤ 97 / 100 → |(s : ℝ) + a - 90| ≤ 4 / 10 ^ 11) := by
  have hp := Real.pi_gt_d6
  have hp' := Real.pi_lt_d6
  have hpd : ((piD : ℚ) : ℝ) ≤ Real.pi := by
    have := Real.pi_gt_d20
    norm_num [piD] at this ⊢
    linarith
  have hd' : |(dec : ℝ)| ≤ Real.pi / 2 := by
    have : |(dec : ℝ)| ≤ (piD : ℝ) / 2 := by simpa using abs_real hd
    linarith
  obtain ⟨z1, z2⟩ := zenithRa_near l0 l1
  have hX1 : |X| ≤ 1 := hX ▸ sinAlt_le _ _ _
  have ang : Spec.angle (dir (l * (Real.pi / 12)) (lat * (Real.pi / 180))) (dir ra dec) = Real.pi / 2 - Real.arcsin X := by rw [zenith_angle, hX]
  have tl := lat_near Fl64.ieee (l := lat) (by linarith)
  have tl1 : |Fl64.ieee.rnd (lat * d2rD)| ≤ piD / 2 := by
    obtain ⟨a1, a2⟩ := abs_le.1 hl
    have hdr : (0 : ℚ) < d2rD ∧ d2rD ≤ 174533 / 10 ^ 7 := by unfold d2rD; norm_num
    have u := fl_le Fl64.ieee (x := lat * d2rD) 12867 13 (by norm_num) (by norm_num) (by push_cast; nlinarith)
    have v := fl_ge Fl64.ieee (x := lat * d2rD) (-12867) 13 (by norm_num) (by norm_num) (by push_cast; nlinarith)
    have hpi : (12867 : ℚ) / 2 ^ 13 ≤ piD / 2 := by unfold piD; norm_num
    push_cast at u v
    rw [abs_le]
    constructor <;> linarith
  have lowX : -(88 / 180 * Real.pi) ≤ Real.arcsin X := by
    rw [Real.le_arcsin_iff_sin_le ⟨by linarith, by linarith⟩ (abs_le.1 hX1), Real.sin_neg, ← Real.cos_pi_div_two_sub]
    have := Real.one_sub_sq_div_two_le_cos (x := Real.pi / 2 - 88 / 180 * Real.pi)
    have h4 : (Real.pi / 2 - 88 / 180 * Real.pi) ^ 2 ≤ (4 / 100) ^ 2 := pow_le_pow_left₀ (by linarith) (by linarith) 2
    norm_num at h4
    linarith
  obtain ⟨s, hs, hs'⟩ := separation_near Fl64.ieee M (i := 0) (j := 0) (e1 := 2 / 10 ^ 15) (e2 := 0) (A := l * (Real.pi / 12)) (B := lat * (Real.pi / 180)) (C := ra)
    (D := dec) z1 (by rwa [abs_of_nonneg r0]) tl1 hd (by simpa using z2) (tl.trans (by norm_num)) (by simp) (by simp) (by norm_num) (by norm_num)
    (ang.le.trans (by linarith))
  obtain ⟨ha1, ha⟩ := sunHa_near Fl64.ieee r0 r1 l0 l1
  have turn : |(sunHaD Fl64.ieee ra l : ℝ) * (Real.pi / 12) - (l * (Real.pi / 12) - ra)| ≤ 6 / 10 ^ 15 := by
    rw [show (sunHaD Fl64.ieee ra l : ℝ) * (Real.pi / 12) - (l * (Real.pi / 12) - ra) = (sunHaD Fl64.ieee ra l - (l - 12 / Real.pi * ra)) * (Real.pi / 12) by
      field_simp, abs_mul, abs_of_pos (by positivity : 0 < Real.pi / 12)]
    have := mul_le_mul ha (by linarith : Real.pi / 12 ≤ 27 / 100) (by positivity) (by norm_num)
    linarith
  have move := sinAlt_move (l := (lat : ℝ) * (Real.pi / 180)) (d := dec) (d' := dec) (a := 0) (by simp) turn
  rw [← hX] at move
  generalize hY : sinAlt dec (sunHaD Fl64.ieee ra l * (Real.pi / 12)) (lat * (Real.pi / 180)) = Y at move
  have hY1 : |Y| ≤ 1 := hY ▸ sinAlt_le _ _ _
  obtain ⟨a, hsome, hco, hfine⟩ := C180_altitude Fl64.ieee M hY.symm hl ha1 hd' hz (by linarith [(abs_le.1 move).1])
  refine ⟨s, a, hs, hsome, ?_, ?_⟩
  all_goals
    rw [ang, show (Real.pi / 2 - Real.arcsin X) * (180 / Real.pi) = 90 - 180 / Real.pi * Real.arcsin X by field_simp; ring] at hs'
    have h58 : 180 / Real.pi ≤ 58 := by rw [div_le_iff₀ (by positivity)]; linarith
  · have g := arcsin_any hY1 hX1
    have g2 : √(|Y - X| / 2) ≤ 56 / 10 ^ 9 := by
      rw [Real.sqrt_le_iff]
      refine ⟨by norm_num, ?_⟩
      norm_num at move ⊢
      linarith
    have g' : |180 / Real.pi * (Real.arcsin Y - Real.arcsin X)| ≤ 58 * (3.1416 * (56 / 10 ^ 9)) := by
      rw [abs_mul, abs_of_pos (by positivity : 0 < 180 / Real.pi)]
      exact mul_le_mul h58 (g.trans (mul_le_mul (by linarith) g2 (Real.sqrt_nonneg _) (by norm_num))) (abs_nonneg _) (by norm_num)
    rw [mul_sub] at g'
    rw [abs_le] at hs' hco g' ⊢
    constructor <;> linarith
  · intro hX97
    have hY97 : |Y| ≤ 98 / 100 := by
      have := abs_sub_abs_le_abs_sub Y X
      linarith
    have f := hfine hY97
    have g := arcsin_mid hY97 (hX97.trans (by norm_num)) (by norm_num) (k := 51 / 10) (by norm_num) (by norm_num)
    have g' : |180 / Real.pi * (Real.arcsin Y - Real.arcsin X)| ≤ 58 * (51 / 10 * (6 / 10 ^ 15)) := by
      rw [abs_mul, abs_of_pos (by positivity : 0 < 180 / Real.pi)]
      exact mul_le_mul h58 (g.trans (by linarith)) (abs_nonneg _) (by norm_num)
    rw [mul_sub] at g'
    rw [abs_le] at hs' f g' ⊢
    constructor <;> linarith

/-- C199 fails where the declination is the latitude: over the equator, six hours from the meridian, a satellite in the horizon has the zenith
distance 90 degrees and the altitude 90 degrees. -/
theorem C199_zenith_violated (M : Libm) :
    ∃ s, zenithSepD Fl64.ieee M 6 0 0 0 = some s ∧ satAltD Fl64.ieee M 6 0 0 0 = some 90 ∧ |(s : ℝ) - 90| ≤ 4 / 10 ^ 11 := by
  have hp := Real.pi_gt_d6
  obtain ⟨z1, z2⟩ := zenithRa_near (l := 6) (by norm_num) (by norm_num)
  have e0 : Fl64.ieee.rnd (0 * d2rD) = 0 := by rw [zero_mul]; exact Fl64.ieee.zero
  have ang : Spec.angle (dir (((6 : ℚ) : ℝ) * (Real.pi / 12)) 0) (dir 0 0) = Real.pi / 2 := by
    rw [zenith_angle]
    unfold sinAlt
    rw [show ((6 : ℚ) : ℝ) * (Real.pi / 12) - 0 = Real.pi / 2 by push_cast; ring]
    simp
  have hpd : (0 : ℚ) ≤ piD / 2 := by unfold piD; norm_num
  have htd : (0 : ℚ) ≤ twopiD := by unfold twopiD; norm_num
  obtain ⟨s, hs, hs'⟩ := separation_near Fl64.ieee M (t1 := zenithRaD Fl64.ieee 6) (p1 := 0) (t2 := 0) (p2 := 0) (i := 0) (j := 0) (e1 := 2 / 10 ^ 15) (e2 := 0)
    (A := ((6 : ℚ) : ℝ) * (Real.pi / 12)) (B := 0) (C := 0) (D := 0) z1 (by simpa using htd) (by simpa using hpd) (by simpa using hpd) (by simpa using z2) (by norm_num)
    (by simp) (by simp) (by norm_num) (by norm_num) (ang.le.trans (by linarith))
  rw [ang, show Real.pi / 2 * (180 / Real.pi) = 90 by field_simp; norm_num] at hs'
  refine ⟨s, ?_, ?_, hs'.trans (by norm_num)⟩
  · unfold zenithSepD
    rw [e0]
    exact hs
  · unfold satAltD altD
    dsimp only
    rw [if_pos (by decide +kernel)]

/-- A satellite on the meridian of a station on the equator, one radian to the north. -/
example (M : Libm) : ∃ s a, zenithSepD Fl64.ieee M 0 0 0 1 = some s ∧ satAltD Fl64.ieee M 0 0 0 1 = some a ∧ |(s : ℝ) + a - 90| ≤ 3 / 10 ^ 5 := by
  obtain ⟨s, a, h1, h2, h3, _⟩ := C199_sum_partial M (l := 0) (lat := 0) (ra := 0) (dec := 1) le_rfl (by norm_num) le_rfl (by unfold twopiD; norm_num) (by norm_num)
    (by unfold piD; norm_num) (by norm_num) rfl (by
      unfold sinAlt
      simp only [Rat.cast_one, Rat.cast_zero, zero_mul, sub_zero, Real.cos_zero, Real.sin_zero, mul_one, mul_zero, add_zero]
      linarith [Real.cos_one_pos])
  exact ⟨s, a, h1, h2, h3⟩

end SatSky.Props
