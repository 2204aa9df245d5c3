import Verif.Model.Deep
import Verif.Props.Oblate
import Mathlib.Analysis.Real.Pi.Bounds

/-! C111, C112: how the periodic terms of Sun and Moon move the satellite. -/

namespace SatSky.Props

open Real SatSky.Spec SatSky.Sxp SatSky.Geo

/-- The terms multiplied by a factor. -/
def _root_.SatSky.Sxp.Periodic.times (p : Periodic) (k : ℝ) : Periodic := ⟨k * p.pe, k * p.pinc, k * p.pl, k * p.pgh, k * p.ph⟩

/-- The normal of the orbit, independent of the program. -/
noncomputable def orbitPole (i h : ℝ) : V3 := ⟨sin h * sin i, -(cos h * sin i), cos i⟩

/-- The displacement of the direction of the satellite: `x` along the orbit and `y` across. -/
noncomputable def moved (i h u x y : ℝ) : V3 := ((latus i h u).smul x).add ((orbitPole i h).smul y)

theorem orientU_apse (u h i : ℝ) : orientU u h i = apse i h u := by
  unfold orientU apse; ext <;> dsimp only <;> ring

theorem orientV_latus (u h i : ℝ) : orientV u h i = latus i h u := by
  unfold orientV latus; ext <;> dsimp only <;> ring

/-- The direction of a satellite `v` from the perigee, after the terms have been applied. -/
noncomputable def seen (v : ℝ) (w : Work) : V3 := apse w.xinc w.xnode (v + w.omgadf)

theorem moved_of {w : ℝ → Work} {v g' h' i' x y : ℝ} (hg : HasDerivAt (fun k => (w k).omgadf) g' 0) (hh : HasDerivAt (fun k => (w k).xnode) h' 0)
    (hi : HasDerivAt (fun k => (w k).xinc) i' 0) (hx : x = g' + cos (w 0).xinc * h')
    (hy : y = sin (v + (w 0).omgadf) * i' - cos (v + (w 0).omgadf) * (sin (w 0).xinc * h')) :
    HasVel (fun k => seen v (w k)) (moved (w 0).xinc (w 0).xnode (v + (w 0).omgadf) x y) 0 := by
  refine hasVel_congr (orientU_deriv (hg.const_add v) hh hi) (funext fun k => (orientU_apse _ _ _).symm) ?_
  rw [orientV_latus, hx, hy]
  unfold moved orbitPole orientW
  rw [mul_assoc]

theorem times_zero (p : Periodic) : p.times 0 = ⟨0, 0, 0, 0, 0⟩ := by
  simp [Periodic.times]

theorem lin_deriv (a b x : ℝ) : HasDerivAt (fun k : ℝ => a + k * b) b x := by
  simpa using ((hasDerivAt_id x).mul_const b).const_add a

/-- C111: at inclinations of 0.2 radian or more the terms move the satellite along the orbit by `pgh` and across by `pinc sin u - ph cos u`, to the first
order in the terms. -/
theorem C111_direct (e : Elem) (p : Periodic) (w : Work) (v : ℝ) (he : 2 / 10 ≤ e.xincl) (hi : sin w.xinc ≠ 0) :
    HasVel (fun k => seen v (applyPeriodic e (p.times k) w))
      (moved w.xinc w.xnode (v + w.omgadf) p.pgh (p.pinc * sin (v + w.omgadf) - p.ph * cos (v + w.omgadf))) 0 ∧
    seen v (applyPeriodic e (p.times 0) w) = seen v w ∧
    ∀ k, (applyPeriodic e (p.times k) w).em = w.em + k * p.pe ∧ (applyPeriodic e (p.times k) w).xll = w.xll + k * p.pl ∧
      (applyPeriodic e (p.times k) w).xn = w.xn := by
  have hw : ∀ k, applyPeriodic e (p.times k) w = { w with
      xinc := w.xinc + k * p.pinc, em := w.em + k * p.pe, xll := w.xll + k * p.pl,
      omgadf := w.omgadf + k * p.pgh - cos (w.xinc + k * p.pinc) * (k * p.ph / sin (w.xinc + k * p.pinc)),
      xnode := w.xnode + k * p.ph / sin (w.xinc + k * p.pinc) } := by
    intro k
    unfold applyPeriodic
    dsimp only
    rw [if_pos he]
    rfl
  have h0 : applyPeriodic e (p.times 0) w = w := by rw [hw]; simp
  refine ⟨?_, by rw [h0], fun k => by rw [hw]; exact ⟨rfl, rfl, rfl⟩⟩
  have hI := lin_deriv w.xinc p.pinc 0
  have hN : HasDerivAt (fun k : ℝ => k * p.ph / sin (w.xinc + k * p.pinc)) (p.ph / sin w.xinc) 0 := by
    refine hda' (((hasDerivAt_id (0 : ℝ)).mul_const p.ph).div hI.sin (by simpa using hi)) (fun k => rfl) ?_
    simp
    field_simp
  have key := moved_of (w := fun k => applyPeriodic e (p.times k) w) (v := v) (g' := p.pgh - cos w.xinc * (p.ph / sin w.xinc)) (h' := p.ph / sin w.xinc)
    (i' := p.pinc) (x := p.pgh) (y := p.pinc * sin (v + w.omgadf) - p.ph * cos (v + w.omgadf)) ?_ ?_ ?_ ?_ ?_
  · rw [h0] at key; exact key
  · simp only [hw]
    refine hda' ((lin_deriv w.omgadf p.pgh 0).sub (hI.cos.mul hN)) (fun k => rfl) ?_
    simp
  · simp only [hw]
    exact hN.const_add w.xnode
  · simp only [hw]
    exact hI
  · rw [h0]; ring
  · rw [h0]; field_simp

/-- The node of the modified form, for a node less than one turn from zero: exactly. -/
theorem lyddane_node {i h ph pinc : ℝ} (hs : 0 < sin i + pinc * cos i) (hh : |h| ≤ 2 * π) :
    deltaNode (atan2 (ph * cos h + (pinc * cos i + sin i) * sin h) (-ph * sin h + (pinc * cos i + sin i) * cos h) - h)
      = arctan (ph / (sin i + pinc * cos i)) := by
  set s := sin i + pinc * cos i with hsd
  have es : pinc * cos i + sin i = s := by rw [hsd]; ring
  rw [es]
  set α := arctan (ph / s) with hα
  have ha := arctan_lt_pi_div_two (ph / s)
  have hb := neg_pi_div_two_lt_arctan (ph / s)
  rw [← hα] at ha hb
  have hc : 0 < cos α := cos_pos_of_mem_Ioo ⟨hb, ha⟩
  have ht : sin α = ph / s * cos α := by
    have := tan_arctan (ph / s)
    rw [← hα, tan_eq_sin_div_cos] at this
    field_simp at this ⊢
    linarith
  have hp : ph = s / cos α * sin α := by rw [ht]; field_simp
  have hq : s = s / cos α * cos α := by field_simp
  obtain ⟨h1, h2⟩ := atan2_range (ph * cos h + s * sin h) (-ph * sin h + s * cos h)
  have hT : ∃ n : ℤ, atan2 (ph * cos h + s * sin h) (-ph * sin h + s * cos h) = α + h + n * (2 * π) := by
    have e1 : (⟨-ph * sin h + s * cos h, ph * cos h + s * sin h⟩ : ℂ) = ((s / cos α : ℝ) : ℂ) * (Complex.cos (α + h : ℝ) + Complex.sin (α + h : ℝ) * Complex.I) := by
      apply Complex.ext
      · rw [← Complex.ofReal_cos, ← Complex.ofReal_sin]
        simp only [Complex.mul_re, Complex.mul_im, Complex.add_re, Complex.add_im, Complex.ofReal_re, Complex.ofReal_im, Complex.I_re, Complex.I_im]
        rw [cos_add]
        linear_combination (-sin h) * hp + cos h * hq
      · rw [← Complex.ofReal_cos, ← Complex.ofReal_sin]
        simp only [Complex.mul_re, Complex.mul_im, Complex.add_re, Complex.add_im, Complex.ofReal_re, Complex.ofReal_im, Complex.I_re, Complex.I_im]
        rw [sin_add]
        linear_combination (cos h) * hp + sin h * hq
    unfold atan2
    rw [e1, Complex.arg_mul_cos_add_sin_mul_I_eq_toIocMod (by positivity)]
    refine ⟨-toIocDiv two_pi_pos (-π) (α + h), ?_⟩
    rw [toIocMod, zsmul_eq_mul]
    push_cast
    ring
  obtain ⟨n, hn⟩ := hT
  rw [hn] at h1 h2 ⊢
  have hπ := pi_pos
  rw [abs_le] at hh
  have e2 : α + h + n * (2 * π) - h = α + n * (2 * π) := by ring
  rw [e2]
  have n1 : n < 2 := by
    by_contra hc
    have : (2 : ℝ) ≤ n := by exact_mod_cast not_lt.mp hc
    nlinarith
  have n2 : -2 < n := by
    by_contra hc
    have : (n : ℝ) ≤ -2 := by exact_mod_cast not_lt.mp hc
    nlinarith
  unfold deltaNode
  have : n = -1 ∨ n = 0 ∨ n = 1 := by omega
  rcases this with rfl | rfl | rfl
  · rw [if_pos (by push_cast; linarith)]; push_cast; ring
  · rw [if_neg (by push_cast; linarith), if_neg (by push_cast; linarith)]; push_cast; ring
  · rw [if_neg (by push_cast; linarith), if_pos (by push_cast; linarith)]; push_cast; ring

/-- C112: with the modification for small inclinations the satellite moves across the orbit as it should; along the orbit there is the additional term
`-xnode sin i pinc`. -/
theorem C112_lyddane_partial (e : Elem) (p : Periodic) (w : Work) (v : ℝ) (he : e.xincl < 2 / 10) (hi : 0 < sin w.xinc) (hh : |w.xnode| ≤ 2 * π) :
    HasVel (fun k => seen v (applyPeriodic e (p.times k) w))
      (moved w.xinc w.xnode (v + w.omgadf) (p.pgh - w.xnode * sin w.xinc * p.pinc) (p.pinc * sin (v + w.omgadf) - p.ph * cos (v + w.omgadf))) 0 ∧
    seen v (applyPeriodic e (p.times 0) w) = seen v w ∧
    ∀ k, (applyPeriodic e (p.times k) w).em = w.em + k * p.pe ∧ (applyPeriodic e (p.times k) w).xll = w.xll + k * p.pl ∧
      (applyPeriodic e (p.times k) w).xn = w.xn := by
  have hI := lin_deriv w.xinc p.pinc 0
  obtain ⟨D, hD⟩ : ∃ D : ℝ → ℝ, ∀ k, D k = deltaNode (atan2 (k * p.ph * cos w.xnode + (k * p.pinc * cos (w.xinc + k * p.pinc) + sin (w.xinc + k * p.pinc)) * sin w.xnode)
      (-(k * p.ph) * sin w.xnode + (k * p.pinc * cos (w.xinc + k * p.pinc) + sin (w.xinc + k * p.pinc)) * cos w.xnode) - w.xnode) := ⟨_, fun _ => rfl⟩
  have hw : ∀ k, applyPeriodic e (p.times k) w = { w with
      xinc := w.xinc + k * p.pinc, em := w.em + k * p.pe, xll := w.xll + k * p.pl,
      omgadf := w.omgadf + k * p.pgh + (-w.xnode * sin (w.xinc + k * p.pinc) * (k * p.pinc) - cos (w.xinc + k * p.pinc) * D k),
      xnode := w.xnode + D k } := by
    intro k
    unfold applyPeriodic
    dsimp only
    rw [if_neg (not_le.mpr he), hD]
    rfl
  have hS : HasDerivAt (fun k : ℝ => sin (w.xinc + k * p.pinc) + k * p.pinc * cos (w.xinc + k * p.pinc)) (2 * p.pinc * cos w.xinc) 0 := by
    refine hda' (hI.sin.add (((hasDerivAt_id (0 : ℝ)).mul_const p.pinc).mul hI.cos)) (fun k => rfl) ?_
    simp; ring
  have hev : ∀ᶠ k in nhds (0 : ℝ), D k = arctan (k * p.ph / (sin (w.xinc + k * p.pinc) + k * p.pinc * cos (w.xinc + k * p.pinc))) := by
    have h1 := hS.continuousAt.eventually_const_lt (u := 0) (by simpa using hi)
    filter_upwards [h1] with k hk
    rw [hD]
    exact lyddane_node hk hh
  have hD0 : D 0 = 0 := by rw [hev.self_of_nhds]; simp
  have hN : HasDerivAt D (p.ph / sin w.xinc) 0 := by
    have h1 := (((hasDerivAt_id (0 : ℝ)).mul_const p.ph).div hS (by simpa using hi.ne')).arctan
    refine (h1.congr_of_eventuallyEq hev).congr_deriv ?_
    simp
    field_simp
  have h0 : applyPeriodic e (p.times 0) w = w := by rw [hw, hD0]; simp
  refine ⟨?_, by rw [h0], fun k => by rw [hw]; exact ⟨rfl, rfl, rfl⟩⟩
  have key := moved_of (w := fun k => applyPeriodic e (p.times k) w) (v := v)
    (g' := p.pgh - w.xnode * sin w.xinc * p.pinc - cos w.xinc * (p.ph / sin w.xinc)) (h' := p.ph / sin w.xinc)
    (i' := p.pinc) (x := p.pgh - w.xnode * sin w.xinc * p.pinc) (y := p.pinc * sin (v + w.omgadf) - p.ph * cos (v + w.omgadf)) ?_ ?_ ?_ ?_ ?_
  · rw [h0] at key; exact key
  · simp only [hw]
    refine hda' ((lin_deriv w.omgadf p.pgh 0).add (((hI.sin.const_mul (-w.xnode)).mul ((hasDerivAt_id (0 : ℝ)).mul_const p.pinc)).sub (hI.cos.mul hN))) (fun k => rfl) ?_
    simp [hD0]
    ring
  · simp only [hw]
    exact hN.const_add w.xnode
  · simp only [hw]
    exact hI
  · rw [h0]; ring
  · rw [h0]; field_simp

/-- C111: a whole turn of the node makes no difference. -/
theorem C111_turn (e : Elem) (p : Periodic) (w : Work) (v : ℝ) (n : ℤ) (he : 2 / 10 ≤ e.xincl) :
    seen v (applyPeriodic e p { w with xnode := w.xnode + n * (2 * π) }) = seen v (applyPeriodic e p w) := by
  unfold applyPeriodic
  dsimp only
  rw [if_pos he, if_pos he]
  unfold applyDirect seen apse
  dsimp only
  rw [show w.xnode + n * (2 * π) + p.ph / sin (w.xinc + p.pinc) = w.xnode + p.ph / sin (w.xinc + p.pinc) + n * (2 * π) by ring,
    sin_add_int_mul_two_pi, cos_add_int_mul_two_pi]

theorem moved_inj {i h u x y x' y' : ℝ} (hm : moved i h u x y = moved i h u x' y') : x = x' := by
  have e1 := sin_sq_add_cos_sq i; have e2 := sin_sq_add_cos_sq h; have e3 := sin_sq_add_cos_sq u
  simp only [moved, V3.add, V3.smul, latus, orbitPole, V3.mk.injEq] at hm
  obtain ⟨h1, h2, h3⟩ := hm
  have key : ∀ x y : ℝ, x = (-(cos h * sin u) - sin h * cos u * cos i) * (x * (-(cos h * sin u) - sin h * cos u * cos i) + y * (sin h * sin i))
      + (-(sin h * sin u) + cos h * cos u * cos i) * (x * (-(sin h * sin u) + cos h * cos u * cos i) + y * (-(cos h * sin i)))
      + cos u * sin i * (x * (cos u * sin i) + y * cos i) := by
    intro x y
    linear_combination (-x * cos u ^ 2) * e1 + (-x * sin u ^ 2 - x * cos u ^ 2 * cos i ^ 2 + y * cos u * cos i * sin i) * e2 - x * e3
  rw [key x y, key x' y', h1, h2, h3]

theorem hasVel_unique {f : ℝ → V3} {v w : V3} {t : ℝ} (h : HasVel f v t) (h' : HasVel f w t) : v = w :=
  V3.ext (h.1.unique h'.1) (h.2.1.unique h'.2.1) (h.2.2.unique h'.2.2)

/-- An orbit of inclination 0.1 with the node at 1 radian; and the terms that change the inclination only. -/
noncomputable def lowElem : Elem := ⟨2450000, 0, 1 / 10, 1, 0, 0, 0, 1 / 100, 48⟩
noncomputable def lowWork : Work := ⟨0, 0, 1, 0, 1 / 10, 1 / 100⟩
noncomputable def tiltOnly : Periodic := ⟨0, 1, 0, 0, 0⟩

theorem low_sin : 0 < sin (1 / 10 : ℝ) := sin_pos_of_pos_of_lt_pi (by norm_num) (by linarith [pi_gt_three])

/-- C112 is violated: a change of the inclination alone moves the satellite along its orbit. -/
theorem C112_along_violated : ∃ (e : Elem) (p : Periodic) (w : Work) (v : ℝ), e.xincl < 2 / 10 ∧ 0 < sin w.xinc ∧ |w.xnode| ≤ 2 * π ∧
    ¬ HasVel (fun k => seen v (applyPeriodic e (p.times k) w))
      (moved w.xinc w.xnode (v + w.omgadf) p.pgh (p.pinc * sin (v + w.omgadf) - p.ph * cos (v + w.omgadf))) 0 := by
  have h2 : sin lowWork.xinc = sin (1 / 10 : ℝ) := rfl
  have h3 : |lowWork.xnode| ≤ 2 * π := by show |(1 : ℝ)| ≤ _; rw [abs_one]; linarith [pi_gt_three]
  have h1 : lowElem.xincl < 2 / 10 := by show (1 / 10 : ℝ) < 2 / 10; norm_num
  refine ⟨lowElem, tiltOnly, lowWork, 0, h1, by rw [h2]; exact low_sin, h3, fun hv => ?_⟩
  have := moved_inj (hasVel_unique (C112_lyddane_partial lowElem tiltOnly lowWork 0 h1 (by rw [h2]; exact low_sin) h3).1 hv)
  have hs := low_sin
  simp only [tiltOnly, lowWork] at this
  linarith

/-- C112 is violated: a whole turn of the node makes a difference. -/
theorem C112_turn_violated : ∃ (e : Elem) (p : Periodic) (w : Work) (v : ℝ), e.xincl < 2 / 10 ∧ 0 < sin w.xinc ∧ |w.xnode| ≤ 2 * π ∧
    seen v { w with xnode := w.xnode - 2 * π } = seen v w ∧
    seen v (applyPeriodic e p { w with xnode := w.xnode - 2 * π }) ≠ seen v (applyPeriodic e p w) := by
  have h2 : sin lowWork.xinc = sin (1 / 10 : ℝ) := rfl
  have hπ := pi_gt_three
  have h3 : |lowWork.xnode| ≤ 2 * π := by show |(1 : ℝ)| ≤ _; rw [abs_one]; linarith
  have h4 : |lowWork.xnode - 2 * π| ≤ 2 * π := by show |(1 : ℝ) - 2 * π| ≤ _; rw [abs_le]; constructor <;> linarith
  have h1 : lowElem.xincl < 2 / 10 := by show (1 / 10 : ℝ) < 2 / 10; norm_num
  have hne : ∃ k, seen 0 (applyPeriodic lowElem (tiltOnly.times k) { lowWork with xnode := lowWork.xnode - 2 * π })
      ≠ seen 0 (applyPeriodic lowElem (tiltOnly.times k) lowWork) := by
    by_contra hc
    push Not at hc
    have d1 := (C112_lyddane_partial lowElem tiltOnly lowWork 0 h1 (by rw [h2]; exact low_sin) h3).1
    have d2 := (C112_lyddane_partial lowElem tiltOnly { lowWork with xnode := lowWork.xnode - 2 * π } 0 h1 (by rw [h2]; exact low_sin) h4).1
    simp only [hc] at d2
    have d3 := hasVel_unique d1 d2
    have hm : ∀ i h u x y, moved i (h - 2 * π) u x y = moved i h u x y := by
      intro i h u x y
      unfold moved latus orbitPole
      rw [sin_sub_two_pi, cos_sub_two_pi]
    rw [hm] at d3
    have d4 := moved_inj d3
    have hs := low_sin
    simp only [tiltOnly, lowWork] at d4
    nlinarith
  obtain ⟨k, hk⟩ := hne
  refine ⟨lowElem, tiltOnly.times k, lowWork, 0, h1, by rw [h2]; exact low_sin, h3, ?_, hk⟩
  unfold seen apse
  dsimp only
  rw [sin_sub_two_pi, cos_sub_two_pi]

/-- C112 is violated on the equator: the pole of an orbit of inclination zero does not move by `ph` and `pinc`. -/
theorem C112_equator_violated : ∃ (e : Elem) (p : Periodic) (w : Work), e.xincl < 2 / 10 ∧ w.xinc = 0 ∧ w.xnode = 0 ∧ p.ph = 1 ∧
    ¬ HasDerivAt (fun k => (orbitPole (applyPeriodic e (p.times k) w).xinc (applyPeriodic e (p.times k) w).xnode).x) p.ph 0 := by
  refine ⟨lowElem, ⟨0, 1, 0, 0, 1⟩, ⟨0, 0, 0, 0, 0, 1 / 100⟩, by show (1 / 10 : ℝ) < 2 / 10; norm_num, rfl, rfl, rfl, fun hd => ?_⟩
  have h1 : ∀ᶠ k in nhds (0 : ℝ), |sin k - k| ≤ |k| / 10 ∧ 9 / 10 ≤ cos k := by
    have hs := (hasDerivAt_sin 0).isLittleO.def (c := 1 / 10) (by norm_num)
    have hc := (continuous_cos.continuousAt (x := (0 : ℝ))).eventually_const_le (u := 9 / 10) (by rw [cos_zero]; norm_num)
    filter_upwards [hs, hc] with k h1 h2
    simp at h1
    exact ⟨by linarith, h2⟩
  have h2 := hd.isLittleO.def (c := 1 / 10) (by norm_num)
  obtain ⟨k, ⟨⟨h1, h3⟩, h2⟩, hk⟩ : ∃ k : ℝ, ((|sin k - k| ≤ |k| / 10 ∧ 9 / 10 ≤ cos k) ∧ _) ∧ 0 < k :=
    (((h1.and h2).filter_mono nhdsWithin_le_nhds).and (self_mem_nhdsWithin (s := Set.Ioi (0 : ℝ)))).exists
  rw [abs_of_pos hk, abs_le] at h1
  have hs : 0 < sin k + k * cos k := by nlinarith
  have hw : ∀ k : ℝ, 0 < sin k + k * cos k → (orbitPole (applyPeriodic lowElem ((⟨0, 1, 0, 0, 1⟩ : Periodic).times k) ⟨0, 0, 0, 0, 0, 1 / 100⟩).xinc
      (applyPeriodic lowElem ((⟨0, 1, 0, 0, 1⟩ : Periodic).times k) ⟨0, 0, 0, 0, 0, 1 / 100⟩).xnode).x = sin (arctan (k / (sin k + k * cos k))) * sin k := by
    intro k hk
    unfold applyPeriodic
    dsimp only
    rw [if_neg (by show ¬ ((1 / 10 : ℝ) ≥ 2 / 10); norm_num)]
    have := lyddane_node (i := k) (h := 0) (ph := k) (pinc := k) hk (by simp [pi_pos.le])
    unfold applyLyddane orbitPole Periodic.times
    dsimp only
    simp only [mul_one, zero_add]
    rw [this]
  rw [hw k hs] at h2
  have hw0 : (orbitPole (applyPeriodic lowElem ((⟨0, 1, 0, 0, 1⟩ : Periodic).times 0) ⟨0, 0, 0, 0, 0, 1 / 100⟩).xinc
      (applyPeriodic lowElem ((⟨0, 1, 0, 0, 1⟩ : Periodic).times 0) ⟨0, 0, 0, 0, 0, 1 / 100⟩).xnode).x = 0 := by
    unfold applyPeriodic
    dsimp only
    rw [if_neg (by show ¬ ((1 / 10 : ℝ) ≥ 2 / 10); norm_num)]
    unfold applyLyddane orbitPole Periodic.times
    simp
  rw [hw0] at h2
  simp at h2
  rw [abs_of_pos hk] at h2
  have hx : 0 < k / (sin k + k * cos k) := by positivity
  have hy : k / (sin k + k * cos k) ≤ 3 / 5 := by rw [div_le_iff₀ hs]; nlinarith
  have ha : 0 < arctan (k / (sin k + k * cos k)) := arctan_pos.mpr hx
  have hb : arctan (k / (sin k + k * cos k)) ≤ k / (sin k + k * cos k) := by
    have := arctan_lt_pi_div_two (k / (sin k + k * cos k))
    have h := lt_tan ha this
    rw [tan_arctan] at h
    exact h.le
  have hc := sin_le ha.le
  have hl := (abs_le.mp h2).1
  have hs0 : 0 < sin k := by linarith
  nlinarith [mul_le_mul_of_nonneg_right (hc.trans (hb.trans hy)) hs0.le]

/-- The terms of a geostationary orbit: at the inclination 0.1 with the node at 1, a term of 0.001 in the inclination moves the satellite by 0.0001 along
its orbit. -/
example : lowWork.xnode * sin lowWork.xinc * (1 / 1000) > 9 / 10 ^ 5 := by
  show 1 * sin (1 / 10 : ℝ) * (1 / 1000) > _
  have := sin_gt_sub_cube (x := (1 / 10 : ℝ)) (by norm_num)
  linarith

/-- The direct form at the inclination of 90 degrees: the term `ph` turns the node by itself. -/
example : (applyDirect ⟨0, 0, 0, 0, 1 / 1000⟩ ⟨0, 0, 1, 0, π / 2, 0⟩).xnode = 1 + 1 / 1000 := by
  simp [applyDirect]

end SatSky.Props
