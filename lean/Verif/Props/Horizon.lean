import Verif.Model.Horizon
import Verif.Props.AltAz

/-! C171: the functions `slaDh2e` and `sph2v`. -/

namespace SatSky.Props

open SatSky.Spec SatSky.Geo Real

/-- `slaDh2e`: the hour angle and declination it gives are those of the object seen at the azimuth and elevation, for all real
arguments. -/
theorem C171_place (az el phi : ℝ) :
    horizontal phi (slaDh2e az el phi).1 (slaDh2e az el phi).2 = dir az el := by
  have A := sin_sq_add_cos_sq az
  have B := sin_sq_add_cos_sq el
  have C := sin_sq_add_cos_sq phi
  rw [horizontal_eq]
  unfold slaDh2e dir
  dsimp only
  generalize hx : -cos az * cos el * sin phi + sin el * cos phi = x
  generalize hy : -sin az * cos el = y
  generalize hz : cos az * cos el * cos phi + sin el * sin phi = z
  have hu : x * x + y * y + z * z = 1 := by
    rw [← hx, ← hy, ← hz]
    linear_combination (cos az ^ 2 * cos el ^ 2 + sin el ^ 2) * C + cos el ^ 2 * A + B
  have hs : 0 ≤ x * x + y * y := add_nonneg (mul_self_nonneg x) (mul_self_nonneg y)
  have hr : sqrt (x * x + y * y) * sqrt (x * x + y * y) = x * x + y * y := mul_self_sqrt hs
  obtain ⟨p1, p2⟩ := atan2_polar y x
  obtain ⟨q1, q2⟩ := atan2_polar z (sqrt (x * x + y * y))
  rw [hr, hu, sqrt_one, one_mul] at q1 q2
  rw [q1, q2]
  have hc : sqrt (x * x + y * y) * cos (if sqrt (x * x + y * y) = 0 then 0 else atan2 y x) = x ∧
      sqrt (x * x + y * y) * sin (if sqrt (x * x + y * y) = 0 then 0 else atan2 y x) = y := by
    by_cases h : sqrt (x * x + y * y) = 0
    · rw [h, zero_mul] at p1 p2
      rw [if_pos h, h, ← p1, ← p2]
      simp
    · rw [if_neg h]
      exact ⟨p1, p2⟩
  generalize (if sqrt (x * x + y * y) = 0 then 0 else atan2 y x) = ha at hc ⊢
  rw [mul_assoc (-1), hc.1, hc.2]
  ext
  · dsimp only
    rw [← hx, ← hz]; linear_combination cos az * cos el * C
  · dsimp only
    rw [← hy]; ring
  · dsimp only
    rw [← hx, ← hz]; linear_combination sin el * C

/-- `slaDh2e`: the hour angle is in `(-π, π]` and the declination in `[-π/2, π/2]`. -/
theorem C171_range (az el phi : ℝ) :
    (-π < (slaDh2e az el phi).1 ∧ (slaDh2e az el phi).1 ≤ π) ∧
      (-(π / 2) ≤ (slaDh2e az el phi).2 ∧ (slaDh2e az el phi).2 ≤ π / 2) := by
  have hp := pi_pos
  unfold slaDh2e
  dsimp only
  generalize -cos az * cos el * sin phi + sin el * cos phi = x
  generalize -sin az * cos el = y
  generalize cos az * cos el * cos phi + sin el * sin phi = z
  constructor
  · by_cases h : sqrt (x * x + y * y) = 0
    · rw [if_pos h]; constructor <;> linarith
    · rw [if_neg h]; exact atan2_range y x
  · have : |atan2 z (sqrt (x * x + y * y))| ≤ π / 2 := by
      unfold atan2
      rw [Complex.abs_arg_le_pi_div_two_iff]
      exact sqrt_nonneg _
    exact abs_le.mp this

/-- Direction determines hour angle (up to turns) and declination. -/
theorem equatorial_of_horizontal {lat h d h' d' : ℝ} (e : horizontal lat h d = horizontal lat h' d') :
    equatorial h d = equatorial h' d' := by
  have C := sin_sq_add_cos_sq lat
  rw [horizontal_eq, horizontal_eq] at e
  injection e with e1 e2 e3
  unfold equatorial
  ext
  · dsimp only
    linear_combination -sin lat * e1 + cos lat * e3 + (cos d' * cos h' - cos d * cos h) * C
  · dsimp only
    linear_combination e2
  · dsimp only
    linear_combination cos lat * e1 + sin lat * e3 + (sin d' - sin d) * C

theorem equatorial_inj {h d h' d' : ℝ} (e : equatorial h d = equatorial h' d') (hd : |d| < π / 2) (hd' : |d'| ≤ π / 2) :
    d' = d ∧ Turns (2 * π) h' h := by
  unfold equatorial at e
  injection e with e1 e2 e3
  obtain ⟨a1, a2⟩ := abs_lt.mp hd
  obtain ⟨b1, b2⟩ := abs_le.mp hd'
  have hdd : d = d' := injOn_sin ⟨a1.le, a2.le⟩ ⟨b1, b2⟩ e3
  subst hdd
  have hc : 0 < cos d := cos_pos_of_mem_Ioo ⟨a1, a2⟩
  have c1 : cos h' = cos h := (mul_left_cancel₀ hc.ne' e1).symm
  have c2 : sin h' = sin h := mul_left_cancel₀ hc.ne' (by linarith)
  refine ⟨rfl, ?_⟩
  have h1 : cos (h' - h) = 1 := by rw [cos_sub, c1, c2]; linarith [sin_sq_add_cos_sq h, sq (sin h), sq (cos h)]
  obtain ⟨k, hk⟩ := (cos_eq_one_iff _).mp h1
  exact ⟨k, by linarith⟩

/-- `slaDh2e` undoes `dechalat2alt` outside the special cases of the latter (`C38_partial`): from its altitude and azimuth (degrees)
come back the declination and the hour angle (wrapped into `(-π, π]`). -/
theorem C171_undoes {dec ha latDeg : ℝ} (h0 : ha ≠ 0) (h1 : 1 / 10 ^ 6 ≤ cos (latDeg * d2r))
    (h2 : 1 / 10 ^ 6 ≤ |dec - latDeg * d2r|) (hd : |dec| < π / 2) :
    let v := dechalat2alt dec ha latDeg
    (slaDh2e (v.2.1 * d2r) (v.1 * d2r) (latDeg * d2r)).2 = dec ∧
      Wrapped (slaDh2e (v.2.1 * d2r) (v.1 * d2r) (latDeg * d2r)).1 (ha * 15 * d2r) := by
  intro v
  obtain ⟨-, -, e⟩ := C38_partial h0 h1 h2
  have p := C171_place (v.2.1 * d2r) (v.1 * d2r) (latDeg * d2r)
  obtain ⟨⟨r1, r2⟩, r3⟩ := C171_range (v.2.1 * d2r) (v.1 * d2r) (latDeg * d2r)
  obtain ⟨i1, i2⟩ := equatorial_inj (equatorial_of_horizontal (p.trans e).symm) hd (abs_le.mpr r3)
  exact ⟨i1, r1, r2, i2⟩

/-- `sph2v` is the unit vector with the right ascension and declination. -/
theorem C171_sph2v (ra dec : ℝ) :
    sph2v ra dec = dir (ra * (π / 180)) (dec * (π / 180)) ∧ (sph2v ra dec).len = 1 := by
  have e : sph2v ra dec = dir (ra * (π / 180)) (dec * (π / 180)) := by
    unfold sph2v dir d2r
    ext <;> dsimp only <;> ring
  refine ⟨e, ?_⟩
  rw [e]
  unfold V3.len V3.dot dir
  have A := sin_sq_add_cos_sq (ra * (π / 180))
  have B := sin_sq_add_cos_sq (dec * (π / 180))
  dsimp only
  rw [sqrt_eq_one]
  linear_combination cos (dec * (π / 180)) ^ 2 * A + B

/-- In the east on the horizon of latitude 45° an object has hour angle -6 h and declination 0. -/
example : slaDh2e (π / 2) 0 (π / 4) = (-(π / 2), 0) := by
  unfold slaDh2e
  simp only [sin_pi_div_two, cos_pi_div_two, sin_zero, cos_zero]
  norm_num
  refine ⟨?_, ?_⟩
  · have : atan2 (-1) 0 = -(π / 2) := by
      unfold atan2
      have : ((⟨0, -1⟩ : ℂ)) = -Complex.I := by apply Complex.ext <;> simp
      rw [this, Complex.arg_neg_I]
    exact this
  · unfold atan2
    have : ((⟨1, 0⟩ : ℂ)) = 1 := rfl
    rw [this, Complex.arg_one]

end SatSky.Props
