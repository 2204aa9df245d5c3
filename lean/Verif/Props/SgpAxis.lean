import Verif.Props.Sgp
import Verif.Props.Ellipse

/-! C175: the semimajor axis of SGP and the mean motion of the set. -/

namespace SatSky.Props

open Real SatSky.Sxp SatSky.Sgp

theorem rpow_three_halves {x : ℝ} (hx : 0 < x) : x ^ (3 / 2 : ℝ) = √x * x := by
  rw [show (3 / 2 : ℝ) = 1 / 2 + 1 by norm_num, rpow_add hx, rpow_one, sqrt_eq_rpow]

theorem aoOf_eq {e : Elem} (h : InDomain e) : aoOf ck2 e = ao e := by
  have hb : 0 < 1 - e.eo * e.eo := by obtain ⟨-, h2, h3⟩ := h; nlinarith
  have ha := a1_pos h.1
  have hd : ck2 * (3 / 2) / a1 e / a1 e * (Real.cos e.xincl * 3 * Real.cos e.xincl - 1) / (1 - e.eo * e.eo) ^ (3 / 2 : ℝ) = del1 e := by
    rw [rpow_three_halves hb]
    have hs : 0 < √(1 - e.eo * e.eo) := sqrt_pos.mpr hb
    unfold del1 tval
    field_simp
  have h1 : aoOf ck2 e = a1 e * (1 - del1 e * (1 / 3) - del1 e * del1 e - del1 e * (134 / 81) * del1 e * del1 e) := by
    rw [← hd]; rfl
  rw [h1, ao_eq]
  ring

/-- The part of the mean motion that the flattening adds in an orbit with the axis `a`, eccentricity `ecc` and inclination `i`
(secular rate of the mean anomaly, to the first order in `k2`). -/
noncomputable def flattening (k2 a ecc i : ℝ) : ℝ := 3 / 2 * k2 * (3 * cos i ^ 2 - 1) / (a ^ 2 * √(1 - ecc ^ 2) ^ 3)

theorem flattening_eq {e : Elem} (hd : InDomain e) : flattening ck2 (ao e) e.eo e.xincl = delo e := by
  unfold flattening delo
  rw [tval_eq hd, div_div]
  congr 1; ring

/-- **C175**: with `d` the part that the flattening adds at the axis of `SGP_init`, the mean motion `xno / (1 + d)` of the unperturbed orbit
and the axis `ao / (1 - d)` satisfy Kepler's third law up to 2·10⁻¹⁰, for every orbit whose semilatus rectum is at least one radius of
the Earth. -/
theorem C175_axis (e : Elem) (hd : InDomain e) (hp : 1 ≤ (xke / e.xno) ^ (2 / 3 : ℝ) * (1 - e.eo ^ 2)) :
    let a := (SGP_initOf ck2 xj3 e).ao
    let d := flattening ck2 a e.eo e.xincl
    0 < a ∧ |(a / (1 - d)) ^ 3 * (e.xno / (1 + d)) ^ 2 / xke ^ 2 - 1| ≤ 2 / 10 ^ 10 := by
  have hp' : 1 ≤ a1 e * (1 - e.eo ^ 2) := hp
  have h := (C90_third_law e hd (by linarith)).2 hp'
  have hao := (delo_bound hd.1 le_rfl (le_trans (del1_bound hd (by norm_num) (show 1 / 5 ≤ a1 e * (1 - e.eo ^ 2) by linarith)) ck2_small.1)).1
  dsimp only
  rw [show (SGP_initOf ck2 xj3 e).ao = ao e from aoOf_eq hd, flattening_eq hd]
  exact ⟨hao, h⟩

/-- C175: the axis and the mean motion that the other propagators start from are that axis and that mean motion. -/
theorem C175_common (e : Elem) (hd : InDomain e) :
    let a := (SGP_initOf ck2 xj3 e).ao
    let d := flattening ck2 a e.eo e.xincl
    (sxpall_common_init e).aodp = a / (1 - d) ∧ (sxpall_common_init e).xnodp = e.xno / (1 + d) := by
  dsimp only
  rw [show (SGP_initOf ck2 xj3 e).ao = ao e from aoOf_eq hd, flattening_eq hd]
  exact ⟨rfl, rfl⟩

/-- At the inclination with `3 cos² i = 1` the flattening adds nothing: an eighth of the mean motion at the surface belongs to four radii. -/
example : (SGP_initOf ck2 xj3 ⟨0, 0, arccos √(1 / 3), 0, 0, 0, 0, xke / 8, 0⟩).ao = 4 := by
  have hk : xke ≠ 0 := by unfold xke; norm_num
  have hc : cos (arccos √(1 / 3)) = √(1 / 3) :=
    cos_arccos (by linarith [sqrt_nonneg (1 / 3 : ℝ)]) (by rw [sqrt_le_left (by norm_num)]; norm_num)
  have h3 : √(1 / 3 : ℝ) * 3 * √(1 / 3) - 1 = 0 := by
    have := mul_self_sqrt (show (0 : ℝ) ≤ 1 / 3 by norm_num)
    linarith
  have h8 : (xke / (xke / 8)) ^ (2 / 3 : ℝ) = 4 := by
    rw [div_div_cancel₀ hk, show (8 : ℝ) = 2 ^ (3 : ℝ) by norm_num, ← rpow_mul (by norm_num)]
    norm_num
  simp only [SGP_initOf, aoOf, hc, h3, h8]
  norm_num

end SatSky.Props
