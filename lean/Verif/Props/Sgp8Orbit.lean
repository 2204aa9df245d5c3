import Verif.Props.Sgp8Motion
import Verif.Props.Oblate

/-! C155, C156: the orbit of SGP8 without and with the harmonics of the field. -/

namespace SatSky.Props

open Real SatSky.Sxp SatSky.Sgp8 SatSky.Spec SatSky.Geo SatSky.Kep

/-- The constants of SGP8 are those of the inclination `i`. -/
structure Inclined8 (p : Par8) (i : ℝ) : Prop where
  tthmun : p.c.tthmun = 3 * (cos i * cos i) - 1
  unm5th : p.c.unm5th = 1 - 5 * (cos i * cos i)
  unmth2 : p.c.unmth2 = 1 - cos i * cos i
  sini2 : p.c.sini2 = sin (i / 2)
  cosi2 : p.c.cosi2 = cos (i / 2)
  sini : p.sini = sin i
  cosi : p.cosi = cos i
  cosio2 : p.cosio2 = cos i * cos i

theorem init_inclined {e : Elem} {p : Par8} (hi : SGP8_init e = some p) : Inclined8 p e.xincl := by
  obtain ⟨h1, h2, h3, h4⟩ := init_shape hi
  refine ⟨?_, ?_, ?_, ?_, ?_, h2, h3, h4⟩ <;> rw [h1] <;> simp only [sxp8_common_init, sxpall_common_init] <;> ring_nf

/-! ### Without harmonics -/

theorem axis8_of {a : ℝ} (ha : 0 < a) : (xke / (xke / (a * √a))) ^ (2 / 3 : ℝ) = a := by
  have hk := xke_pos'
  have h2 : a * √a = a ^ (3 / 2 : ℝ) := by
    rw [sqrt_eq_rpow, ← rpow_one_add' ha.le (by norm_num)]
    norm_num
  rw [div_div_cancel₀ hk.ne', h2, ← rpow_mul ha.le]
  norm_num

/-- Without harmonics the position is the point of the ellipse for the eccentric anomaly, and the velocity the derivative with respect to it over the time
an anomaly takes. -/
theorem C155_ellipse {p : Par8} {i : ℝ} (hp : Inclined8 p i) (hi : 0 ≤ cos (i / 2)) {m : Mean8} (hn : 0 < m.xn) (he : 0 ≤ m.em) (he1 : m.em < 1) (E : ℝ) :
    let a := (xke / m.xn) ^ (2 / 3 : ℝ)
    (posVel8 (short8 0 0 p m E)).1 = (orbitPos a m.em i m.xnodes m.omgasm E).smul earthRadius ∧
    HasVel (fun E => (orbitPos a m.em i m.xnodes m.omgasm E).smul earthRadius)
      ((posVel8 (short8 0 0 p m E)).2.smul ((1 - m.em * cos E) / m.xn)) E := by
  intro a
  have ha : 0 < a := rpow_pos_of_pos (div_pos xke_pos' hn) _
  have ea : (xke / m.xn) ^ (2 / 3 : ℝ) = a := rfl
  clear_value a
  obtain ⟨f1, f2, -, -⟩ := fm8_polar he he1 E
  have hf : 0 < 1 - m.em * cos E := by nlinarith [neg_one_le_cos E, cos_le_one E]
  have hb : 0 < 1 - m.em * m.em := by nlinarith
  have hb2 : √(1 - m.em * m.em) ^ 2 = 1 - m.em * m.em := sq_sqrt hb.le
  have hb0 : 0 < √(1 - m.em * m.em) := sqrt_pos.2 hb
  obtain ⟨o1, o2⟩ := C151_orientation (fm8 m.em E + m.omgasm) m.xnodes i hi
  have hsn : √(1 - m.em * m.em) * sin E * (1 / (1 - m.em * cos E)) = sin (fm8 m.em E) := by rw [f2]; ring
  have hcs : (cos E - m.em) * (1 / (1 - m.em * cos E)) = cos (fm8 m.em E) := by rw [f1]; ring
  have hU : orient8U (short8 0 0 p m E).xlamb (short8 0 0 p m E).y4 (short8 0 0 p m E).y5 = orientU (fm8 m.em E + m.omgasm) m.xnodes i := by
    rw [← o1]
    simp only [short8, hsn, hcs, hp.sini2, hp.cosi2, hp.sini, hp.cosi]
    congr 1 <;> simp [sin_add, cos_add]
  have hV : orient8V (short8 0 0 p m E).xlamb (short8 0 0 p m E).y4 (short8 0 0 p m E).y5 = orientV (fm8 m.em E + m.omgasm) m.xnodes i := by
    rw [← o2]
    simp only [short8, hsn, hcs, hp.sini2, hp.cosi2, hp.sini, hp.cosi]
    congr 1 <;> simp [sin_add, cos_add]
  have h1 : 1 + m.em * cos (fm8 m.em E) = (1 - m.em * m.em) / (1 - m.em * cos E) := by
    rw [f1]; field_simp; ring
  have hr : (short8 0 0 p m E).rr = a * (1 - m.em * cos E) := by
    simp only [short8, hcs, ea]
    rw [add_comm (m.em * cos (fm8 m.em E)) 1, h1]
    simp only [zero_mul, mul_zero, sub_zero, add_zero]
    generalize √(1 - m.em * m.em) = b at *
    generalize 1 - m.em * m.em = q at *
    field_simp
  have hd : (short8 0 0 p m E).rdot = m.xn * a * m.em * sin E / (1 - m.em * cos E) := by
    simp only [short8, ea, zero_mul, mul_zero, add_zero]
    generalize √(1 - m.em * m.em) = b at *
    field_simp
  have hv : (short8 0 0 p m E).rvdot = m.xn * a * √(1 - m.em * m.em) / (1 - m.em * cos E) := by
    simp only [short8, hcs, ea]
    rw [add_comm (m.em * cos (fm8 m.em E)) 1, h1]
    simp only [zero_mul, mul_zero, sub_zero, add_zero]
    generalize √(1 - m.em * m.em) = b at *
    generalize 1 - m.em * m.em = q at *
    field_simp
  have hs := sin_sq_add_cos_sq E
  constructor
  · unfold posVel8
    rw [hU, hr]
    unfold orientU orbitPos apse latus
    rw [sin_add, cos_add, f1, f2]
    rw [← pow_two m.em]
    ext <;> simp only [V3.add, V3.smul] <;> field_simp <;> ring
  · unfold posVel8
    rw [hU, hV, hd, hv]
    have d1 : HasDerivAt (fun E => a * (cos E - m.em)) (a * -sin E) E := ((hasDerivAt_cos E).sub_const _).const_mul _
    have d2 : HasDerivAt (fun E => a * √(1 - m.em ^ 2) * sin E) (a * √(1 - m.em ^ 2) * cos E) E := (hasDerivAt_sin E).const_mul _
    unfold orientU orientV orbitPos
    have hs' : sin E ^ 2 = 1 - cos E ^ 2 := by linarith
    rw [sin_add, cos_add, f1, f2]
    rw [← pow_two m.em] at *
    refine ⟨hda' (((d1.mul_const (apse i m.xnodes m.omgasm).x).add (d2.mul_const (latus i m.xnodes m.omgasm).x)).const_mul earthRadius) (fun _ => rfl) ?_,
      hda' (((d1.mul_const (apse i m.xnodes m.omgasm).y).add (d2.mul_const (latus i m.xnodes m.omgasm).y)).const_mul earthRadius) (fun _ => rfl) ?_,
      hda' (((d1.mul_const (apse i m.xnodes m.omgasm).z).add (d2.mul_const (latus i m.xnodes m.omgasm).z)).const_mul earthRadius) (fun _ => rfl) ?_⟩
    all_goals
      simp only [V3.smul, apse, latus]
      generalize √(1 - m.em ^ 2) = b at *
      generalize sin E = S at *
      generalize cos E = C at *
      generalize earthRadius = R
      generalize sin m.omgasm = sg
      generalize cos m.omgasm = cg
      field_simp
    · linear_combination (-(S * R * (cg * cos m.xnodes - sg * sin m.xnodes * cos i))) * hb2
        + (b * m.em * R * (-(sg * cos m.xnodes) - cg * sin m.xnodes * cos i)) * hs
    · linear_combination (-(S * R * (cg * sin m.xnodes + sg * cos m.xnodes * cos i))) * hb2
        + (b * m.em * R * (-(sg * sin m.xnodes) + cg * cos m.xnodes * cos i)) * hs
    · linear_combination (-(S * R * sg * sin i)) * hb2 + (b * m.em * R * cg * sin i) * hs

/-- Along the solution of Kepler's equation the velocity is the derivative of the position. -/
theorem C155_kepler {p : Par8} {i : ℝ} (hp : Inclined8 p i) (hi : 0 ≤ cos (i / 2)) {m : Mean8} (hn : 0 < m.xn) (he : 0 ≤ m.em) (he1 : m.em < 1)
    {R : ℝ → ℝ} (hR : ∀ l, R l - m.em * sin (R l) = l) (t : ℝ) :
    HasVel (fun t => (posVel8 (short8 0 0 p { m with xmam := m.xmam + m.xn * t } (R (m.xmam + m.xn * t)))).1)
      (posVel8 (short8 0 0 p { m with xmam := m.xmam + m.xn * t } (R (m.xmam + m.xn * t)))).2 t := by
  have hE := (hasDerivAt_root (x := m.em) (y := 0) (by nlinarith) (R := R) (fun l => by unfold KeplerEq; rw [zero_mul, add_zero]; exact hR l)
    (m.xmam + m.xn * t)).comp t (((hasDerivAt_id t).const_mul m.xn).const_add m.xmam)
  rw [show (fun t => (posVel8 (short8 0 0 p { m with xmam := m.xmam + m.xn * t } (R (m.xmam + m.xn * t)))).1)
    = fun t => (orbitPos ((xke / m.xn) ^ (2 / 3 : ℝ)) m.em i m.xnodes m.omgasm (R (m.xmam + m.xn * t))).smul earthRadius from
    funext fun t => (C155_ellipse hp hi (m := { m with xmam := m.xmam + m.xn * t }) hn he he1 _).1]
  obtain ⟨vx, vy, vz⟩ := (C155_ellipse hp hi (m := { m with xmam := m.xmam + m.xn * t }) hn he he1 (R (m.xmam + m.xn * t))).2
  have hf : 0 < 1 - m.em * cos (R (m.xmam + m.xn * t)) := by
    nlinarith [neg_one_le_cos (R (m.xmam + m.xn * t)), cos_le_one (R (m.xmam + m.xn * t))]
  have hec : ec m.em 0 (R (m.xmam + m.xn * t)) = m.em * cos (R (m.xmam + m.xn * t)) := by unfold ec; ring
  simp only [id] at hE
  rw [hec] at hE
  refine ⟨hda' (HasDerivAt.comp t vx hE) (fun _ => rfl) ?_, hda' (HasDerivAt.comp t vy hE) (fun _ => rfl) ?_, hda' (HasDerivAt.comp t vz hE) (fun _ => rfl) ?_⟩ <;>
  · simp only [V3.smul]
    generalize 1 - m.em * cos (R (m.xmam + m.xn * t)) = f at *
    field_simp

/-- Such constants exist: those of a circular orbit without drag. -/
example : ∃ p, SGP8_init (lowCircle 0) = some p ∧ Inclined8 p (lowCircle 0).xincl := by
  have h0 : xndtn (fixedOf (lowCircle 0)) (orbOf (lowCircle 0)) = 0 := by rw [lowCircle_xndtn]; ring
  have h : ∃ p, SGP8_init (lowCircle 0) = some p := ⟨_, by unfold SGP8_init; dsimp only; rw [if_neg (by rw [h0]; norm_num)]⟩
  obtain ⟨p, hp⟩ := h
  exact ⟨p, hp, init_inclined hp⟩

/-! ### With harmonics, on a circular orbit -/

/-- How the vectors change with their arguments, in general. -/
theorem orient8_chain {L y z : ℝ → ℝ} {L' y' z' x : ℝ} (hL : HasDerivAt L L' x) (hy : HasDerivAt y y' x) (hz : HasDerivAt z z' x)
    (h1 : 0 < 1 - y x * y x - z x * z x) :
    let w := √(1 - y x * y x - z x * z x)
    let w' := -(y x * y' + z x * z') / w
    HasVel (fun k => orient8U (L k) (y k) (z k))
      ⟨y' * ((z x * sin (L x) - y x * cos (L x)) * 2) + y x * ((z' * sin (L x) + z x * (cos (L x) * L') - (y' * cos (L x) + y x * (-sin (L x) * L'))) * 2)
        + -sin (L x) * L',
       -y' * ((z x * cos (L x) + y x * sin (L x)) * 2) + -y x * ((z' * cos (L x) + z x * (-sin (L x) * L') + (y' * sin (L x) + y x * (cos (L x) * L'))) * 2)
        + cos (L x) * L', y' * (w * 2) + y x * (w' * 2)⟩ x ∧
    HasVel (fun k => orient8V (L k) (y k) (z k))
      ⟨z' * ((z x * sin (L x) - y x * cos (L x)) * 2) + z x * ((z' * sin (L x) + z x * (cos (L x) * L') - (y' * cos (L x) + y x * (-sin (L x) * L'))) * 2)
        - cos (L x) * L',
       -z' * ((z x * cos (L x) + y x * sin (L x)) * 2) + -z x * ((z' * cos (L x) + z x * (-sin (L x) * L') + (y' * sin (L x) + y x * (cos (L x) * L'))) * 2)
        + -sin (L x) * L', z' * (w * 2) + z x * (w' * 2)⟩ x := by
  intro w w'
  have hs := hL.sin; have hc := hL.cos
  have hw : HasDerivAt (fun k => √(1 - y k * y k - z k * z k)) w' x := by
    refine hda' ((((hy.mul hy).const_sub 1).sub (hz.mul hz)).sqrt h1.ne') (fun _ => rfl) ?_
    have hw0 : √(1 - y x * y x - z x * z x) ≠ 0 := (sqrt_pos.2 h1).ne'
    simp only [w', w, Pi.sub_apply, Pi.mul_apply]
    field_simp
    ring
  have a1 := ((hz.mul hs).sub (hy.mul hc)).mul_const 2
  have a2 := ((hz.mul hc).add (hy.mul hs)).mul_const 2
  have a3 := hw.mul_const 2
  exact ⟨⟨hda' ((hy.mul a1).add hc) (fun _ => rfl) rfl, hda' ((hy.neg.mul a2).add hs) (fun _ => rfl) rfl, hda' (hy.mul a3) (fun _ => rfl) rfl⟩,
    ⟨hda' ((hz.mul a1).sub hs) (fun _ => rfl) rfl, hda' ((hz.neg.mul a2).add hc) (fun _ => rfl) rfl, hda' (hz.mul a3) (fun _ => rfl) rfl⟩⟩

theorem hasVel_single {f : ℝ → V3} {v w : V3} {t : ℝ} (h : HasVel f v t) (h' : HasVel f w t) : v = w :=
  V3.ext (h.1.unique h'.1) (h.2.1.unique h'.2.1) (h.2.2.unique h'.2.2)

theorem hasVel_near {f g : ℝ → V3} {v : V3} {t : ℝ} (h : HasVel f v t) (hg : ∀ᶠ s in nhds t, g s = f s) : HasVel g v t :=
  ⟨h.1.congr_of_eventuallyEq (hg.mono fun s hs => by dsimp only; rw [hs]), h.2.1.congr_of_eventuallyEq (hg.mono fun s hs => by dsimp only; rw [hs]),
    h.2.2.congr_of_eventuallyEq (hg.mono fun s hs => by dsimp only; rw [hs])⟩

/-- The vectors change like those of the orbital plane whose angles change by `u'`, `h'`, `i'`. -/
theorem orient8_deriv {L y z : ℝ → ℝ} {u h i u' h' i' x : ℝ} (hi : 0 < cos (i / 2)) (eL : L x = u + h) (ey : y x = sin (i / 2) * sin u)
    (ez : z x = sin (i / 2) * cos u) (hL : HasDerivAt L (u' + h') x) (hy : HasDerivAt y (cos (i / 2) * (i' / 2) * sin u + sin (i / 2) * (cos u * u')) x)
    (hz : HasDerivAt z (cos (i / 2) * (i' / 2) * cos u + sin (i / 2) * (-sin u * u')) x) :
    HasVel (fun k => orient8U (L k) (y k) (z k)) (inFrame u h i 0 (u' + cos i * h') (sin u * i' - cos u * sin i * h')) x ∧
    HasVel (fun k => orient8V (L k) (y k) (z k)) (inFrame u h i (-(u' + cos i * h')) 0 (cos u * i' + sin u * sin i * h')) x := by
  have hlin : ∀ c c' : ℝ, HasDerivAt (fun k : ℝ => c + c' * (k - x)) c' x := fun c c' =>
    hda' ((((hasDerivAt_id x).sub_const x).const_mul c').const_add c) (fun _ => rfl) (by simp)
  have hu := hlin u u'; have hh := hlin h h'; have hI := hlin i i'
  have dL : HasDerivAt (fun k => (u + u' * (k - x)) + (h + h' * (k - x))) (u' + h') x := hu.add hh
  have dS := (hI.div_const 2).sin
  have dy : HasDerivAt (fun k => sin ((i + i' * (k - x)) / 2) * sin (u + u' * (k - x))) (cos (i / 2) * (i' / 2) * sin u + sin (i / 2) * (cos u * u')) x :=
    hda' (dS.mul hu.sin) (fun _ => rfl) (by simp)
  have dz : HasDerivAt (fun k => sin ((i + i' * (k - x)) / 2) * cos (u + u' * (k - x))) (cos (i / 2) * (i' / 2) * cos u + sin (i / 2) * (-sin u * u')) x :=
    hda' (dS.mul hu.cos) (fun _ => rfl) (by simp)
  have hpos : 0 < 1 - y x * y x - z x * z x := by
    rw [ey, ez]
    have h1 := sin_sq_add_cos_sq u
    have h2 := sin_sq_add_cos_sq (i / 2)
    rw [show 1 - sin (i / 2) * sin u * (sin (i / 2) * sin u) - sin (i / 2) * cos u * (sin (i / 2) * cos u) = cos (i / 2) ^ 2 by
      linear_combination -h2 - sin (i / 2) ^ 2 * h1]
    positivity
  have near : ∀ᶠ k in nhds x, 0 ≤ cos ((i + i' * (k - x)) / 2) := by
    have : ContinuousAt (fun k => cos ((i + i' * (k - x)) / 2)) x := (hI.div_const 2).cos.continuousAt
    refine (this.eventually (lt_mem_nhds (a := 0) ?_)).mono fun k hk => hk.le
    simpa using hi
  obtain ⟨c1, c2⟩ := orient8_chain hL hy hz hpos
  obtain ⟨l1, l2⟩ := orient8_chain dL dy dz (by simpa [ey, ez] using hpos)
  have oU := orientU_deriv hu hh hI
  have oV := orientV_deriv hu hh hI
  have m1 := hasVel_single l1 (hasVel_near oU (near.mono fun k hk => (C151_orientation _ _ _ hk).1))
  have m2 := hasVel_single l2 (hasVel_near oV (near.mono fun k hk => (C151_orientation _ _ _ hk).2))
  simp only [sub_self, mul_zero, add_zero] at m1 m2
  rw [eL, ey, ez] at c1 c2
  constructor
  · refine hasVel_congr c1 rfl ?_
    rw [m1]
    unfold inFrame
    ext <;> simp only [V3.add, V3.smul] <;> ring
  · refine hasVel_congr c2 rfl ?_
    rw [m2]
    unfold inFrame
    ext <;> simp only [V3.add, V3.smul] <;> ring

/-- Two angles of one turn with the same sine and cosine. -/
theorem angle_unique {x y : ℝ} (hx : 0 ≤ x) (hx1 : x < 2 * π) (hy : 0 ≤ y) (hy1 : y < 2 * π) (hc : cos x = cos y) (hs : sin x = sin y) : x = y := by
  have h : cos (x - y) = 1 := by rw [cos_sub, hc, hs]; nlinarith [sin_sq_add_cos_sq y]
  have := (cos_eq_one_iff_of_lt_of_lt (by linarith) (by linarith)).1 h
  linarith

theorem fm8_zero {M : ℝ} (h0 : 0 ≤ M) (h1 : M < 2 * π) : fm8 0 M = M := by
  obtain ⟨f1, f2, f3, f4⟩ := fm8_polar (le_refl 0) one_pos M
  exact angle_unique f3 f4 h0 h1 (by rw [f1]; simp) (by rw [f2]; simp)

/-- What SGP8 computes on a circular orbit of radius `a` for the argument of latitude `W` and the node `h`. -/
noncomputable def ring8 (k α a i W h : ℝ) : Short8 :=
  let n := xke / (a * √a)
  let S := 2 * sin W * cos W
  let C := 2 * cos W * cos W - 1
  let dr := k / (2 * a) * ((1 - cos i * cos i) * C - 3 * (3 * (cos i * cos i) - 1)) - α / 4 * sin i * sin W
  let du := k / (4 * a ^ 2) * (1 - 7 * (cos i * cos i)) * S - α / (2 * a) * sin i * cos W
  let di := 3 * k / (2 * a ^ 2) * sin i * cos i * C
  { rr := a + dr
    rdot := -n * (k / a * (1 - cos i * cos i) * S + α / 4 * sin i * cos W)
    rvdot := n * a - n * dr + n * (3 * k / (2 * a)) * sin i * sin i * C
    xlamb := W + h + (du + 3 * k / (2 * a ^ 2) * cos i * S)
    y4 := sin (i / 2) * sin W + cos W * (sin (i / 2) * du) + sin W * (1 / 2) * cos (i / 2) * di
    y5 := sin (i / 2) * cos W - sin W * (sin (i / 2) * du) + cos W * (1 / 2) * cos (i / 2) * di }

theorem short8_ring {p : Par8} {i a : ℝ} (hp : Inclined8 p i) (ha : 0 < a) (k α x ω h : ℝ) :
    posVel8 (short8 k α p ⟨xke / (a * √a), 0, FMod2p x, ω, h⟩ (FMod2p x)) = posVel8 (ring8 k α a i (x + ω) h) := by
  obtain ⟨h0, h1, j, hj⟩ := C40_FMod2p x
  have hfm := fm8_zero h0 h1
  have hax := axis8_of ha
  have hj' : FMod2p x = x + j * (2 * π) := by rw [hj]; ring
  have es : sin (FMod2p x) = sin x := by rw [hj', sin_add_int_mul_two_pi]
  have ec : cos (FMod2p x) = cos x := by rw [hj', cos_add_int_mul_two_pi]
  have hs : short8 k α p ⟨xke / (a * √a), 0, FMod2p x, ω, h⟩ (FMod2p x) = { ring8 k α a i (x + ω) h with xlamb := (ring8 k α a i (x + ω) h).xlamb + j * (2 * π) } := by
    simp only [short8, hfm, hax, ring8, hp.tthmun, hp.unm5th, hp.unmth2, hp.sini2, hp.cosi2, hp.sini, hp.cosi, hp.cosio2, es, ec, sin_add, cos_add, zero_mul,
      mul_zero, sub_zero, sqrt_one, mul_one, one_div, zero_add, add_zero, div_one, one_mul, zero_div, sub_self]
    generalize xke / (a * √a) = n
    congr 1
    · field_simp
    · field_simp
    · field_simp
      ring
    · rw [hj']
      field_simp
      ring
    · field_simp
      ring
    · field_simp
      ring
  rw [hs]
  unfold posVel8 orient8U orient8V
  simp only [sin_add_int_mul_two_pi, cos_add_int_mul_two_pi]

theorem inFrame_add (w h i A B C A' B' C' : ℝ) : (inFrame w h i A B C).add (inFrame w h i A' B' C') = inFrame w h i (A + A') (B + B') (C + C') := by
  unfold inFrame
  ext <;> simp only [V3.add, V3.smul] <;> ring

/-- A multiple of a moving vector. -/
theorem scaled_deriv {f : ℝ → V3} {r : ℝ → ℝ} {v : V3} {r' x : ℝ} (hr : HasDerivAt r r' x) (hf : HasVel f v x) :
    HasVel (fun k => (f k).smul (r k)) (((f x).smul r').add (v.smul (r x))) x :=
  ⟨hda' (hr.mul hf.1) (fun _ => rfl) rfl, hda' (hr.mul hf.2.1) (fun _ => rfl) rfl, hda' (hr.mul hf.2.2) (fun _ => rfl) rfl⟩

theorem fixed_deriv (v : V3) (x : ℝ) : HasVel (fun _ => v) ⟨0, 0, 0⟩ x := ⟨hasDerivAt_const _ _, hasDerivAt_const _ _, hasDerivAt_const _ _⟩

theorem sum_deriv {f g : ℝ → V3} {v w : V3} {x : ℝ} (hf : HasVel f v x) (hg : HasVel g w x) : HasVel (fun k => (f k).add (g k)) (v.add w) x :=
  ⟨hf.1.add hg.1, hf.2.1.add hg.2.1, hf.2.2.add hg.2.2⟩

/-- Position and velocity on a circular orbit to the first order in the harmonics. -/
theorem ring8_first {a i : ℝ} (ha : 0 < a) (hi : 0 < cos (i / 2)) {K A W H : ℝ → ℝ} {K' A' W' H' : ℝ} (hK : HasDerivAt K K' 0) (hA : HasDerivAt A A' 0)
    (hW : HasDerivAt W W' 0) (hH : HasDerivAt H H' 0) (hK0 : K 0 = 0) (hA0 : A 0 = 0) :
    let n := xke / (a * √a)
    let w := W 0
    let S := 2 * sin w * cos w
    let C := 2 * cos w * cos w - 1
    let r' := K' / (2 * a) * ((1 - cos i * cos i) * C - 3 * (3 * (cos i * cos i) - 1)) - A' / 4 * sin i * sin w
    let u' := W' + (K' / (4 * a ^ 2) * (1 - 7 * (cos i * cos i)) * S - A' / (2 * a) * sin i * cos w)
    let h' := H' + 3 * K' / (2 * a ^ 2) * cos i * S
    let i' := 3 * K' / (2 * a ^ 2) * sin i * cos i * C
    let d' := -n * (K' / a * (1 - cos i * cos i) * S + A' / 4 * sin i * cos w)
    let v' := -n * r' + n * (3 * K' / (2 * a)) * sin i * sin i * C
    HasVel (fun s => (posVel8 (ring8 (K s) (A s) a i (W s) (H s))).1)
      (inFrame w (H 0) i (earthRadius * r') (earthRadius * (a * (u' + cos i * h'))) (earthRadius * (a * (sin w * i' - cos w * sin i * h')))) 0 ∧
    HasVel (fun s => (posVel8 (ring8 (K s) (A s) a i (W s) (H s))).2)
      (inFrame w (H 0) i (earthRadius * (d' - n * a * (u' + cos i * h'))) (earthRadius * v')
        (earthRadius * (n * a * (cos w * i' + sin w * sin i * h')))) 0 := by
  intro n w S C r' u' h' i' d' v'
  have hs := hW.sin; have hc := hW.cos
  have hS : HasDerivAt (fun s => 2 * sin (W s) * cos (W s)) _ 0 := (hs.const_mul 2).mul hc
  have hC : HasDerivAt (fun s => 2 * cos (W s) * cos (W s) - 1) _ 0 := ((hc.const_mul 2).mul hc).sub_const 1
  have hr : HasDerivAt (fun s => (ring8 (K s) (A s) a i (W s) (H s)).rr) r' 0 := by
    refine hda' ((((hK.div_const (2 * a)).mul ((hC.const_mul (1 - cos i * cos i)).sub_const (3 * (3 * (cos i * cos i) - 1)))).sub
      (((hA.div_const 4).mul_const (sin i)).mul hs)).const_add a) (fun _ => rfl) ?_
    rw [hK0, hA0]
    simp only [r', w, C]
    ring
  have hdu : HasDerivAt (fun s => K s / (4 * a ^ 2) * (1 - 7 * (cos i * cos i)) * (2 * sin (W s) * cos (W s)) - A s / (2 * a) * sin i * cos (W s)) (u' - W') 0 := by
    refine hda' ((((hK.div_const (4 * a ^ 2)).mul_const (1 - 7 * (cos i * cos i))).mul hS).sub (((hA.div_const (2 * a)).mul_const (sin i)).mul hc)) (fun _ => rfl) ?_
    rw [hK0, hA0]
    simp only [u', w, S]
    ring
  have hdi : HasDerivAt (fun s => 3 * K s / (2 * a ^ 2) * sin i * cos i * (2 * cos (W s) * cos (W s) - 1)) i' 0 := by
    refine hda' (((((hK.const_mul 3).div_const (2 * a ^ 2)).mul_const (sin i)).mul_const (cos i)).mul hC) (fun _ => rfl) ?_
    rw [hK0]
    simp only [i', w, C]
    ring
  have hL : HasDerivAt (fun s => (ring8 (K s) (A s) a i (W s) (H s)).xlamb) (u' + h') 0 := by
    refine hda' ((hW.add hH).add (hdu.add ((((hK.const_mul 3).div_const (2 * a ^ 2)).mul_const (cos i)).mul hS))) (fun _ => rfl) ?_
    rw [hK0]
    simp only [h', w, S]
    ring
  have hy : HasDerivAt (fun s => (ring8 (K s) (A s) a i (W s) (H s)).y4) (cos (i / 2) * (i' / 2) * sin w + sin (i / 2) * (cos w * u')) 0 := by
    refine hda' (((hs.const_mul (sin (i / 2))).add (hc.mul (hdu.const_mul (sin (i / 2))))).add (((hs.mul_const (1 / 2)).mul_const (cos (i / 2))).mul hdi))
      (fun _ => rfl) ?_
    rw [hK0, hA0]
    simp only [w]
    ring
  have hz : HasDerivAt (fun s => (ring8 (K s) (A s) a i (W s) (H s)).y5) (cos (i / 2) * (i' / 2) * cos w + sin (i / 2) * (-sin w * u')) 0 := by
    refine hda' (((hc.const_mul (sin (i / 2))).sub (hs.mul (hdu.const_mul (sin (i / 2))))).add (((hc.mul_const (1 / 2)).mul_const (cos (i / 2))).mul hdi))
      (fun _ => rfl) ?_
    rw [hK0, hA0]
    simp only [w]
    ring
  have hd : HasDerivAt (fun s => (ring8 (K s) (A s) a i (W s) (H s)).rdot) d' 0 := by
    refine hda' (((((hK.div_const a).mul_const (1 - cos i * cos i)).mul hS).add (((hA.div_const 4).mul_const (sin i)).mul hc)).const_mul (-n)) (fun _ => rfl) ?_
    rw [hK0, hA0]
    simp only [d', w, S]
    ring
  have hv : HasDerivAt (fun s => (ring8 (K s) (A s) a i (W s) (H s)).rvdot) v' 0 := by
    refine hda' ((((hr.sub_const a).const_mul n).const_sub (n * a)).add ((((((hK.const_mul 3).div_const (2 * a)).const_mul n).mul_const (sin i)).mul_const (sin i)).mul hC))
      (fun s => ?_) ?_
    · simp only [ring8, Pi.mul_apply, Pi.add_apply, n]
      ring
    · rw [hK0]
      simp only [v', w, C]
      ring
  obtain ⟨o1, o2⟩ := orient8_deriv (u := w) (h := H 0) (i := i) hi (by simp [ring8, hK0, hA0, w]) (by simp [ring8, hK0, hA0, w])
    (by simp [ring8, hK0, hA0, w]) hL hy hz
  have e0 : orient8U (ring8 (K 0) (A 0) a i (W 0) (H 0)).xlamb (ring8 (K 0) (A 0) a i (W 0) (H 0)).y4 (ring8 (K 0) (A 0) a i (W 0) (H 0)).y5 = orientU w (H 0) i := by
    rw [← (C151_orientation w (H 0) i hi.le).1]
    simp [ring8, hK0, hA0, w]
  have e1 : orient8V (ring8 (K 0) (A 0) a i (W 0) (H 0)).xlamb (ring8 (K 0) (A 0) a i (W 0) (H 0)).y4 (ring8 (K 0) (A 0) a i (W 0) (H 0)).y5 = orientV w (H 0) i := by
    rw [← (C151_orientation w (H 0) i hi.le).2]
    simp [ring8, hK0, hA0, w]
  have r0 : (ring8 (K 0) (A 0) a i (W 0) (H 0)).rr = a := by simp [ring8, hK0, hA0]
  have d0 : (ring8 (K 0) (A 0) a i (W 0) (H 0)).rdot = 0 := by simp [ring8, hK0, hA0]
  have v0 : (ring8 (K 0) (A 0) a i (W 0) (H 0)).rvdot = n * a := by simp [ring8, hK0, hA0, n]
  constructor
  · refine hasVel_congr (scaled_deriv (hr.const_mul earthRadius) o1) (funext fun s => ?_) ?_
    · unfold posVel8
      ext <;> simp only [V3.smul] <;> ring
    · rw [e0, r0]
      unfold inFrame
      ext <;> simp only [V3.add, V3.smul] <;> ring
  · have p1 := scaled_deriv (hd.const_mul earthRadius) o1
    have p2 := scaled_deriv (hv.const_mul earthRadius) o2
    refine hasVel_congr (sum_deriv p1 p2) (funext fun s => ?_) ?_
    · unfold posVel8
      ext <;> simp only [V3.smul, V3.add] <;> ring
    · rw [e0, e1, d0, v0]
      unfold inFrame
      ext <;> simp only [V3.add, V3.smul] <;> ring

/-- Position and velocity of SGP8 at the time `t` on a circular orbit, in the same field as in `circularAt`. -/
noncomputable def circular8At (p : Par8) (a i h u k t : ℝ) : V3 × V3 :=
  let k4 := ck4 / ck2 ^ 2 * k ^ 2
  let r := circularRecov a i
  let M := FMod2p (u + xmdotOf k r * t)
  posVel8 (short8 k 0 p ⟨xke / (a * √a), 0, M, omgdotOf k k4 r * t, h + xnodotOf k k4 r * t⟩ M)

theorem circular8_first {p : Par8} {a i : ℝ} (hp : Inclined8 p i) (hi : 0 < cos (i / 2)) (h u t : ℝ) (ha : 0 < a) :
    HasVel (fun k => (circular8At p a i h u k t).1) (shift earthRadius a i h u (xke / (a * √a)) t) 0 ∧
    HasVel (fun k => (circular8At p a i h u k t).2) (shift1 earthRadius a i h u (xke / (a * √a)) t) 0 := by
  obtain ⟨N, hN⟩ := node_rate a i ha.ne'
  obtain ⟨M, hM⟩ := latitude_rate a i ha.ne'
  have e : ∀ k, circular8At p a i h u k t = posVel8 (ring8 k 0 a i (u + (xmdotOf k (circularRecov a i)
      + omgdotOf k (ck4 / ck2 ^ 2 * k ^ 2) (circularRecov a i)) * t) (h + xnodotOf k (ck4 / ck2 ^ 2 * k ^ 2) (circularRecov a i) * t)) := fun k => by
    unfold circular8At
    dsimp only
    rw [short8_ring hp ha]
    congr 2
    ring
  simp only [e, hN, hM]
  set n := xke / (a * √a) with hn
  have hU : HasDerivAt (fun k => u + (n + k * (3 * n * (4 * (cos i * cos i) - 1) / a ^ 2) + k ^ 2 * M) * t) (3 * n * (4 * (cos i * cos i) - 1) / a ^ 2 * t) 0 :=
    hda' (quadratic_deriv (u + n * t) _ (M * t)) (fun k => by ring) rfl
  have hH : HasDerivAt (fun k => h + (k * (-(3 * n * cos i / a ^ 2)) + k ^ 2 * N) * t) (-(3 * n * cos i / a ^ 2) * t) 0 :=
    hda' (quadratic_deriv h _ (N * t)) (fun k => by ring) rfl
  obtain ⟨f1, f2⟩ := ring8_first ha hi (hasDerivAt_id (0 : ℝ)) (hasDerivAt_const (0 : ℝ) (0 : ℝ)) hU hH rfl rfl
  simp only [id, zero_mul, zero_div, add_zero, sub_zero, ne_eq, OfNat.ofNat_ne_zero, not_false_eq_true, zero_pow, ← hn] at f1 f2
  have e1 := sin_sq_add_cos_sq i
  have e2 := sin_sq_add_cos_sq (u + n * t)
  constructor
  · refine hasVel_congr f1 rfl ?_
    unfold shift
    congr 1
    · unfold xi; field_simp; ring
    · unfold eta'; field_simp; ring
    · unfold zeta'; field_simp; ring
  · refine hasVel_congr f2 rfl ?_
    unfold shift1
    congr 1
    · unfold eta'; field_simp; ring
    · unfold xi; field_simp; linear_combination (-3 * earthRadius * n * (2 * cos (u + n * t) ^ 2 - 1)) * e1
    · field_simp
      linear_combination (-2 * earthRadius * cos i * sin i * n * cos (u + n * t)) * e2

theorem circular8_start {p : Par8} {a i : ℝ} (hp : Inclined8 p i) (hi : 0 < cos (i / 2)) (h u t : ℝ) (ha : 0 < a) :
    circular8At p a i h u 0 t = circularAt a i h u 0 t := by
  obtain ⟨N, hN⟩ := node_rate a i ha.ne'
  obtain ⟨M, hM⟩ := latitude_rate a i ha.ne'
  have hM0 := hM 0
  rw [circular_start i h u t ha]
  unfold circular8At
  dsimp only
  rw [short8_ring hp ha, hN]
  rw [show u + xmdotOf 0 (circularRecov a i) * t + omgdotOf 0 (ck4 / ck2 ^ 2 * 0 ^ 2) (circularRecov a i) * t = u + xke / (a * √a) * t by
    rw [add_assoc, ← add_mul, hM0]; ring, show h + (0 * -(3 * (xke / (a * √a)) * cos i / a ^ 2) + 0 ^ 2 * N) * t = h by ring]
  generalize u + xke / (a * √a) * t = w
  obtain ⟨o1, o2⟩ := C151_orientation w h i hi.le
  unfold posVel8
  have e : ring8 0 0 a i w h = ⟨a, 0, xke / (a * √a) * a, w + h, sin (i / 2) * sin w, sin (i / 2) * cos w⟩ := by
    unfold ring8
    simp
  rw [e]
  dsimp only
  rw [o1, o2]
  ext <;> simp only [V3.smul] <;> ring

/-- C156: to the first order in the coefficient `k` of the second zonal harmonic, SGP8 has the positions and velocities of SGP4 on a circular orbit, and these
are the motion around the oblate Earth. -/
theorem C156_flattening {p : Par8} {a i : ℝ} (hp : Inclined8 p i) (hi : 0 < cos (i / 2)) (h u : ℝ) (ha : 0 < a) : ∃ δ δ' δ'' : ℝ → V3,
    (∀ t, circular8At p a i h u 0 t = circularAt a i h u 0 t) ∧
    (∀ t, HasVel (fun k => (circularAt a i h u k t).1) (δ t) 0 ∧ HasVel (fun k => (circular8At p a i h u k t).1) (δ t) 0) ∧
    (∀ t, HasVel (fun k => (circularAt a i h u k t).2) (δ' t) 0 ∧ HasVel (fun k => (circular8At p a i h u k t).2) (δ' t) 0) ∧
    (∀ t, HasVel δ (δ' t) t) ∧ (∀ t, HasVel δ' (δ'' t) t) ∧
    (∀ t, HasVel (fun k => gradient (oblate (xke ^ 2 * earthRadius ^ 3) earthRadius k) (circular8At p a i h u k t).1) (δ'' t) 0) := by
  obtain ⟨δ, δ', δ'', h1, h2, h3, h4, h5⟩ := C107_circular a i h u ha
  have p1 : ∀ t, HasVel (fun k => (circular8At p a i h u k t).1) (δ t) 0 := fun t => by
    rw [hasVel_single (h1 t) (circular_first i h u t ha).1]; exact (circular8_first hp hi h u t ha).1
  have p2 : ∀ t, HasVel (fun k => (circular8At p a i h u k t).2) (δ' t) 0 := fun t => by
    rw [hasVel_single (h4 t) (circular_first i h u t ha).2]; exact (circular8_first hp hi h u t ha).2
  refine ⟨δ, δ', δ'', fun t => circular8_start hp hi h u t ha, fun t => ⟨h1 t, p1 t⟩, fun t => ⟨h4 t, p2 t⟩, h2, h3, fun t => ?_⟩
  have hs := circular8_start hp hi h u t ha
  have hl' : (circularAt a i h u 0 t).1.len = earthRadius * a := by
    rw [circular_start i h u t ha]
    exact len_smul_orientU _ h i (by have := earthRadius_pos; positivity)
  have hpos : 0 < (circularAt a i h u 0 t).1.len := by rw [hl']; have := earthRadius_pos; positivity
  have g1 := gradient_deriv (xke ^ 2 * earthRadius ^ 3) earthRadius (h1 t) hpos
  have g2 := gradient_deriv (xke ^ 2 * earthRadius ^ 3) earthRadius (p1 t) (by rw [hs]; exact hpos)
  refine hasVel_congr g2 rfl ?_
  rw [hasVel_single (h5 t) g1, hs]

/-- C156, the program: on a circular orbit the eccentric anomaly is the mean anomaly, and the mean elements are those of `circular8At` with its
coefficients in the place of `k` and of the fourth harmonic. -/
theorem C156_program {e : Elem} {p : Par8} (hi : SGP8_init e = some p) :
    Inclined8 p e.xincl ∧ (∀ M, anomaly8 0 M = M) ∧ p.c.xmdot = xmdotOf ck2 (sxpall_common_init e) ∧
      p.c.omgdot = omgdotOf ck2 (ck4 / ck2 ^ 2 * ck2 ^ 2) (sxpall_common_init e) ∧ p.c.xnodot = xnodotOf ck2 (ck4 / ck2 ^ 2 * ck2 ^ 2) (sxpall_common_init e) := by
  have h : ck4 / ck2 ^ 2 * ck2 ^ 2 = ck4 := by
    have : ck2 ≠ 0 := by unfold ck2 xj2; norm_num
    field_simp
  rw [h, (init_shape hi).1]
  refine ⟨init_inclined hi, fun M => ?_, C148_rates _ _⟩
  unfold anomaly8
  rw [zero_mul, zero_mul, add_zero]
  exact kepler8_small le_rfl (by norm_num) (by unfold res8; simp)

/-! ### The third harmonic -/

/-- The solution of Kepler's equation for a small eccentricity. -/
theorem root_deriv {y E : ℝ → ℝ} {y' U : ℝ} (hy : HasDerivAt y y' 0) (y0 : y 0 = 0) (hE : ∀ s, KeplerEq 0 (y s) U (E s)) :
    E 0 = U ∧ HasDerivAt E (-(y' * cos U)) 0 := by
  have e : ∀ s, E s = U - y s * cos (E s) := fun s => by have := hE s; unfold KeplerEq at this; linarith
  have e0 : E 0 = U := by rw [e 0, y0]; ring
  have hc : ContinuousAt E 0 := by
    rw [ContinuousAt, tendsto_iff_dist_tendsto_zero]
    refine squeeze_zero (fun _ => dist_nonneg) (fun s => ?_) (g := fun s => |y s|) ?_
    · rw [Real.dist_eq, e s, e0, show U - y s * cos (E s) - U = -(y s * cos (E s)) by ring, abs_neg, abs_mul]
      exact mul_le_of_le_one_right (abs_nonneg _) (abs_cos_le_one _)
    · have := hy.continuousAt.abs
      rw [ContinuousAt, y0, abs_zero] at this
      exact this
  refine ⟨e0, ?_⟩
  rw [show E = fun s => U - y s * cos (E s) from funext e]
  have hm : HasDerivAt (fun s => y s * cos (E s)) (y' * cos U) 0 := by
    rw [hasDerivAt_iff_tendsto_slope] at hy ⊢
    have hcos : Filter.Tendsto (fun s => cos (E s)) (nhdsWithin 0 {0}ᶜ) (nhds (cos U)) := by
      rw [← e0]
      exact (continuous_cos.continuousAt.comp hc).tendsto.mono_left nhdsWithin_le_nhds
    refine (hy.mul hcos).congr fun s => ?_
    simp only [slope_def_field, y0]
    ring
  exact (hm.const_sub U).congr_deriv rfl

/-- The vectors of the orbital plane toward the node and a quarter turn ahead. -/
theorem orient_split (u h i : ℝ) : orientU u h i = ((orientU 0 h i).smul (cos u)).add ((orientV 0 h i).smul (sin u)) ∧
    orientV u h i = ((orientU 0 h i).smul (-sin u)).add ((orientV 0 h i).smul (cos u)) := by
  constructor <;> unfold orientU orientV <;> ext <;> simp [V3.add, V3.smul] <;> ring

/-- The position of SGP4 on an orbit that is circular but for the third harmonic. -/
theorem posVelOf_third {a y : ℝ} (ha : 0 < a) (hy : y ^ 2 < 1) (i h E : ℝ) :
    let r := a * (1 - y * sin E)
    let β := √(1 - y * y)
    let cu := a / r * (cos E - y * (y * cos E / (1 + β)))
    let su := a / r * (sin E - y)
    let rd := -(xke * √a * (y * cos E) / r)
    let rf := xke * √a * β / r
    posVelOf 0 0 y (circularMean a i h) E
      = ((((orientU 0 h i).smul cu).add ((orientV 0 h i).smul su)).smul (earthRadius * r),
         (((orientU 0 h i).smul (rd * cu - rf * su)).add ((orientV 0 h i).smul (rd * su + rf * cu))).smul earthRadius) := by
  intro r β cu su rd rf
  obtain ⟨c1, c2, -⟩ := C93_ellipse (a := a) (x := 0) (y := y) (E := E) ha (by linarith)
  have hp : shortPrelim a 0 y E = (r, cu, su) := by
    simp only [shortPrelim, r, cu, su, β]
    refine Prod.ext ?_ (Prod.ext ?_ ?_) <;> simp only [zero_mul, zero_add, zero_sub, sub_zero] <;> ring
  have hr : shortRates a 0 y E = (rd, rf) := by
    unfold shortRates
    rw [hp]
    refine Prod.ext ?_ ?_
    · simp only [rd]; ring
    · simp only [rf, β, zero_mul, zero_add]
      rw [sqrt_mul ha.le]; ring
  have hu : cu ^ 2 + su ^ 2 = 1 := by
    have : (shortPrelim a 0 y E).2.1 ^ 2 + (shortPrelim a 0 y E).2.2 ^ 2 = 1 := c2
    rw [hp] at this
    exact this
  obtain ⟨t1, t2⟩ := atan2_unit hu
  obtain ⟨o1, o2⟩ := orient_split (atan2 su cu) h i
  rw [t1, t2] at o1 o2
  unfold posVelOf
  simp only [circularMean, hp, hr, zero_div, mul_zero, zero_mul, sub_zero, add_zero, mul_one]
  rw [o1, o2]
  ext <;> simp only [V3.smul, V3.add] <;> ring

/-- C156, the third harmonic: to the first order in its coefficient `s`, SGP8 and SGP4 have the same positions and velocities on a circular orbit. -/
theorem C156_third {p : Par8} {a i : ℝ} (hp : Inclined8 p i) (hi : 0 < cos (i / 2)) (M ω h : ℝ) (ha : 0 < a) {E : ℝ → ℝ}
    (hE : ∀ s, KeplerEq 0 (s * (sin i / (4 * a))) (M + ω) (E s)) : ∃ δ δ' : V3,
    HasVel (fun s => (posVelOf 0 0 (s * (sin i / (4 * a))) (circularMean a i h) (E s)).1) δ 0 ∧
    HasVel (fun s => (posVel8 (short8 0 s p ⟨xke / (a * √a), 0, FMod2p M, ω, h⟩ (FMod2p M))).1) δ 0 ∧
    HasVel (fun s => (posVelOf 0 0 (s * (sin i / (4 * a))) (circularMean a i h) (E s)).2) δ' 0 ∧
    HasVel (fun s => (posVel8 (short8 0 s p ⟨xke / (a * √a), 0, FMod2p M, ω, h⟩ (FMod2p M))).2) δ' 0 := by
  simp only [short8_ring hp ha]
  obtain ⟨f1, f2⟩ := ring8_first ha hi (hasDerivAt_const (0 : ℝ) (0 : ℝ)) (hasDerivAt_id (0 : ℝ)) (hasDerivAt_const (0 : ℝ) (M + ω))
    (hasDerivAt_const (0 : ℝ) h) rfl rfl
  refine ⟨_, _, ?_, f1, ?_, f2⟩
  all_goals
    set c := sin i / (4 * a) with hc
    set U := M + ω with hU
    have hy : HasDerivAt (fun s : ℝ => s * c) c 0 := hda' ((hasDerivAt_id (0 : ℝ)).mul_const c) (fun _ => rfl) (by simp)
    obtain ⟨e0, dE⟩ := root_deriv hy (by simp) hE
    have near : ∀ᶠ s in nhds (0 : ℝ), (s * c) ^ 2 < 1 := by
      have : ContinuousAt (fun s : ℝ => (s * c) ^ 2) 0 := (hy.pow 2).continuousAt
      exact this.eventually (gt_mem_nhds (by simp))
    have ds := dE.sin
    have dc := dE.cos
    rw [e0] at ds dc
    have dr : HasDerivAt (fun s => a * (1 - s * c * sin (E s))) (-(a * c * sin U)) 0 :=
      hda' (((hy.mul ds).const_sub 1).const_mul a) (fun _ => rfl) (by rw [e0]; ring)
    have r0 : a * (1 - 0 * c * sin (E 0)) = a := by ring
    have dβ : HasDerivAt (fun s : ℝ => √(1 - s * c * (s * c))) 0 0 := hda' (((hy.mul hy).const_sub 1).sqrt (by simp)) (fun _ => rfl) (by simp)
    have dq : HasDerivAt (fun s => a / (a * (1 - s * c * sin (E s)))) (c * sin U) 0 :=
      hda' ((hasDerivAt_const (0 : ℝ) a).div dr (by rw [r0]; exact ha.ne')) (fun _ => rfl) (by rw [r0]; field_simp; ring)
    have q0 : a / (a * (1 - 0 * c * sin (E 0))) = 1 := by rw [r0, div_self ha.ne']
    have dcu : HasDerivAt (fun s => a / (a * (1 - s * c * sin (E s))) * (cos (E s) - s * c * (s * c * cos (E s) / (1 + √(1 - s * c * (s * c))))))
        (2 * c * sin U * cos U) 0 :=
      hda' (dq.mul (dc.sub (hy.mul ((hy.mul dc).div (dβ.const_add 1) (by simp))))) (fun _ => rfl) (by simp [e0, div_self ha.ne']; ring)
    have dsu : HasDerivAt (fun s => a / (a * (1 - s * c * sin (E s))) * (sin (E s) - s * c)) (c * (sin U ^ 2 - cos U ^ 2 - 1)) 0 :=
      hda' (dq.mul (ds.sub hy)) (fun _ => rfl) (by simp [e0, div_self ha.ne']; ring)
    have drd : HasDerivAt (fun s => -(xke * √a * (s * c * cos (E s)) / (a * (1 - s * c * sin (E s))))) (-(xke * √a * (c * cos U) / a)) 0 :=
      hda' ((((hy.mul dc).const_mul (xke * √a)).div dr (by rw [r0]; exact ha.ne')).neg) (fun _ => rfl) (by simp [e0]; field_simp)
    have drf : HasDerivAt (fun s => xke * √a * √(1 - s * c * (s * c)) / (a * (1 - s * c * sin (E s)))) (xke * √a * (c * sin U) / a) 0 :=
      hda' ((dβ.const_mul (xke * √a)).div dr (by rw [r0]; exact ha.ne')) (fun _ => rfl) (by simp [e0]; field_simp)
    have hq2 : √a ^ 2 = a := sq_sqrt ha.le
    have hq : 0 < √a := sqrt_pos.2 ha
    have cs := sin_sq_add_cos_sq U
  · refine hasVel_near (hasVel_congr (scaled_deriv (dr.const_mul earthRadius) (sum_deriv (scaled_deriv dcu (fixed_deriv (orientU 0 h i) 0))
      (scaled_deriv dsu (fixed_deriv (orientV 0 h i) 0)))) rfl ?_)
      (near.mono fun s hs => by rw [posVelOf_third ha hs])
    unfold inFrame
    rw [(orient_split U h i).1, (orient_split U h i).2, e0]
    generalize orientU 0 h i = N
    generalize orientV 0 h i = T
    have hs' : sin i = 4 * a * c := by rw [hc]; field_simp
    rw [hs']
    ext <;> simp [V3.smul, V3.add] <;> field_simp
    · linear_combination (-2 * earthRadius * c * T.x) * cs
    · linear_combination (-2 * earthRadius * c * T.y) * cs
    · linear_combination (-2 * earthRadius * c * T.z) * cs
  · refine hasVel_near (hasVel_congr (scaled_deriv (hasDerivAt_const (0 : ℝ) earthRadius) (sum_deriv (scaled_deriv ((drd.mul dcu).sub (drf.mul dsu)) (fixed_deriv (orientU 0 h i) 0))
      (scaled_deriv ((drd.mul dsu).add (drf.mul dcu)) (fixed_deriv (orientV 0 h i) 0)))) rfl ?_)
      (near.mono fun s hs => by rw [posVelOf_third ha hs]; rfl)
    unfold inFrame
    rw [(orient_split U h i).1, (orient_split U h i).2, e0]
    generalize orientU 0 h i = N
    generalize orientV 0 h i = T
    have hs' : sin i = 4 * a * c := by rw [hc]; field_simp
    rw [hs']
    ext <;> simp [V3.smul, V3.add, e0] <;> field_simp
    · rw [hq2]; linear_combination (2 * earthRadius * xke * a * c * N.x) * cs
    · rw [hq2]; linear_combination (2 * earthRadius * xke * a * c * N.y) * cs
    · rw [hq2]; linear_combination (2 * earthRadius * xke * a * c * N.z) * cs

/-- C156, the program: in SGP4 the third harmonic enters a circular orbit by this component of the eccentricity only. -/
theorem C156_third_program (a i h : ℝ) : (circularMean a i h).axn = 0 ∧ (circularMean a i h).ayn = a3ovk2 * (sin i / (4 * a)) := by
  unfold Mean.axn Mean.ayn Mean.temp circularMean
  constructor <;> simp
  ring

/-- A quarter of a turn after the node a polar orbit of one Earth radius is displaced away from the north pole by a quarter of the coefficient. -/
example {p : Par8} (hp : Inclined8 p (π / 2)) : HasVel (fun s => (posVel8 (short8 0 s p ⟨xke, 0, FMod2p (π / 2), 0, 0⟩ (FMod2p (π / 2)))).1)
    ⟨0, 0, -earthRadius / 4⟩ 0 := by
  have h1 := short8_ring hp one_pos
  have hc : 0 < cos (π / 2 / 2) := cos_pos_of_mem_Ioo ⟨by linarith [pi_pos], by linarith [pi_pos]⟩
  have h2 := (ring8_first one_pos hc (hasDerivAt_const (0 : ℝ) (0 : ℝ)) (hasDerivAt_id (0 : ℝ)) (hasDerivAt_const (0 : ℝ) (π / 2 + 0))
    (hasDerivAt_const (0 : ℝ) (0 : ℝ)) rfl rfl).1
  simp only [sqrt_one, mul_one, div_one] at h1
  simp only [h1]
  refine hasVel_congr h2 rfl ?_
  unfold inFrame orientU orientV orientW
  ext <;> simp [V3.add, V3.smul]
  ring

end SatSky.Props
