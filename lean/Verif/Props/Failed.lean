import Verif.Props.Sgp4
import Verif.Props.Record

/-! C48: what `sat_skymap` does with a failed propagation. -/

namespace SatSky.Props

open SatSky.Spec SatSky.Sxp SatSky.Geo

/-- Elements with the greatest eccentricity that the format can express, marked for SGP4. -/
noncomputable def parabolic : Elem :=
  { epoch := 2451545, bstar := 0, xincl := 0, xnodeo := 0, eo := 9999999 / 10 ^ 7, omegao := 0, xmo := 0, xno := 1 / 20, ephType := 50 }

/-- At the epoch they are refused as nearly parabolic. -/
theorem parabolic_refused : chosen parabolic = .sgp4 ∧ SGP4 (SGP4_init parabolic) parabolic 0 = (-1, ⟨0, 0, 0⟩, ⟨0, 0, 0⟩) := by
  constructor
  · have := (C47_types_partial parabolic (by norm_num [parabolic])).2.1 (by norm_num [parabolic]) (Or.inl rfl)
    unfold chosen; rw [this]; simp
  · unfold SGP4
    rw [C95_epoch]
    have hax : (9999999 / 10 ^ 7 : ℝ) = max (9999999 / 10 ^ 7) (1 / 10 ^ 6) := by rw [max_eq_left]; norm_num
    unfold sxpx_posn_vel
    simp only [Mean.axn, Mean.ayn, parabolic, Real.sin_zero, Real.cos_zero, mul_zero, add_zero, mul_one, ← hax]
    rw [if_pos (show (9999999 / 10 ^ 7 : ℝ) * (9999999 / 10 ^ 7) > 1 - 1 / 10 ^ 6 by norm_num)]
    rw [if_pos (by norm_num)]
    rfl

theorem half_observer : half.observer = V3.smul (axis / 1000) (dir (half.lon * d2r + ThetaG half.jd) 0) := by
  have ea : earth_lat_alt_to_parallax (half.lat * d2r) half.ht = (1, 0) := by
    unfold earth_lat_alt_to_parallax half
    simp
  unfold Run.observer
  rw [ea]
  dsimp only
  unfold observer_cartesian_coords dir
  rw [Real.cos_zero, Real.sin_zero]
  ext <;> simp only [V3.smul] <;> ring

theorem half_observer_len : half.observer.len = axis / 1000 := by
  rw [half_observer, len_smul_dir (by unfold axis; norm_num)]

/-- **C48** fails in `sat_skymap`: the code is ignored, and the refused satellite is reported, as seen in the direction of the centre of the
Earth and at the distance of 6378 km. -/
theorem C48_reported_violated :
    ∃ rec, satellite 0 half (fun t => (SGP4 (SGP4_init parabolic) parabolic t).2.1) 0 = some (some rec) ∧
      (SGP4 (SGP4_init parabolic) parabolic 0).1 = -1 ∧ |rec.dist - 6378| < 1 := by
  have hz : (SGP4 (SGP4_init parabolic) parabolic 0).2.1 = ⟨0, 0, 0⟩ := by rw [parabolic_refused.2]
  have hne : half.observer ≠ (fun t => (SGP4 (SGP4_init parabolic) parabolic t).2.1) 0 := by
    dsimp only
    rw [hz]
    intro h
    have h2 := congrArg V3.len h
    rw [half_observer_len] at h2
    have : V3.len ⟨0, 0, 0⟩ = 0 := by unfold V3.len V3.dot; simp
    rw [this] at h2
    unfold axis at h2
    norm_num at h2
  obtain ⟨rec, hrec⟩ := reported_named (r := half) (fun t => (SGP4 (SGP4_init parabolic) parabolic t).2.1) 0 rfl rfl rfl rfl rfl rfl
    (by decide) hne
  refine ⟨rec, hrec, by rw [parabolic_refused.2], ?_⟩
  obtain ⟨ra, dec, h1, h2, -⟩ := C85_coordinates hrec hne
  have h3 := congrArg V3.len h1
  rw [len_smul_dir h2.le] at h3
  have h4 : ((fun t => (SGP4 (SGP4_init parabolic) parabolic t).2.1) 0).sub half.observer = V3.smul (-1) half.observer := by
    dsimp only
    rw [hz]
    ext <;> simp [V3.sub, V3.smul]
  have h5 : (V3.smul (-1) half.observer).len = half.observer.len := by
    unfold V3.len V3.dot V3.smul
    congr 1
    dsimp only
    ring
  rw [h3, h4, h5, half_observer_len, abs_lt]
  unfold axis
  norm_num

end SatSky.Props
