import Verif.Model.Sdp8
import Verif.Props.DeepPer
import Verif.Props.DeepWrites
import Verif.Props.Sgp8Orbit

/-! C157, C158, C159: the deep-space model SDP8. -/

namespace SatSky.Props

open Real SatSky.Sxp SatSky.Sgp8 SatSky.Sdp8 SatSky.Spec SatSky.Kep

/-! ### The perturbations -/

/-- What `deep.c` computes for SDP8 and for SDP4 differs only in the members that belong to SDP4. -/
theorem deep8_eq (e : Elem) : (SDP8_init e).deep = { SDP4_init e with i := init8 e } := by
  obtain ⟨h1, h2, h3⟩ := C148_rates e (sxpall_common_init e)
  have e1 : (init8 e).xmdot = (sxpx_common_init e).xmdot := h1
  have e2 : (init8 e).omgdot = (sxpx_common_init e).omgdot := h2
  have e3 : (init8 e).xnodot = (sxpx_common_init e).xnodot := h3
  show Deep_dpinit e (init8 e) = { Deep_dpinit e (sxpx_common_init e) with i := init8 e }
  unfold Deep_dpinit
  simp only [e1, e2, e3]
  rfl

theorem init8_motion (e : Elem) : (init8 e).xmdot = (sxpx_common_init e).xmdot ∧ (init8 e).omgdot = (sxpx_common_init e).omgdot ∧
    (init8 e).xnodot = (sxpx_common_init e).xnodot := C148_rates e (sxpall_common_init e)

/-- Of the members of `Init` only the rate of the perigee enters the integration. -/
theorem derivs_congr {cfg : Cfg} (c : Deep) {j : Init} (h : j.omgdot = c.i.omgdot) (atime xli : ℝ) :
    compute_dpsec_derivs cfg { c with i := j } atime xli = compute_dpsec_derivs cfg c atime xli := by
  unfold compute_dpsec_derivs halfTerms fullTerms
  simp only [h]

theorem dpsecStep_congr {cfg : Cfg} (c : Deep) {j : Init} (h : j.omgdot = c.i.omgdot) (atime xli xni delt : ℝ) :
    dpsecStep cfg { c with i := j } atime xli xni delt = dpsecStep cfg c atime xli xni delt := by
  unfold dpsecStep
  rw [derivs_congr c h]

theorem dpsecLoop_congr {cfg : Cfg} (c : Deep) {j : Init} (h : j.omgdot = c.i.omgdot) (t : ℝ) : ∀ (fuel : ℕ) (atime xli xni : ℝ),
    dpsecLoop cfg { c with i := j } t fuel atime xli xni = dpsecLoop cfg c t fuel atime xli xni
  | 0, _, _, _ => rfl
  | fuel + 1, atime, xli, xni => by
    unfold dpsecLoop
    simp only [dpsecStep_congr c h]
    have ih := dpsecLoop_congr (cfg := cfg) c h t fuel
    simp only [ih]

theorem dpsec_congr {fuel : ℕ} {cfg : Cfg} (c : Deep) {j : Init} (h : j.omgdot = c.i.omgdot) (e : Elem) (s : State) (t : ℝ) (w : Work) :
    Deep_dpsec fuel cfg { c with i := j } e s t w = Deep_dpsec fuel cfg c e s t w := by
  unfold Deep_dpsec
  have hr : restart cfg { c with i := j } s t = restart cfg c s t := rfl
  simp only [dpsecLoop_congr c h, hr]

theorem dpper_congr {cfg : Cfg} (c : Deep) (j : Init) (e : Elem) (s : State) (t : ℝ) (w : Work) :
    Deep_dpper cfg { c with i := j } e s t w = Deep_dpper cfg c e s t w := rfl

/-- The elements from which SDP4 computes the position, before the answer: what SDP4 does when the mean motion is not negative. -/
noncomputable def elements4 (fuel : ℕ) (cfg : Cfg) (c : Deep) (e : Elem) (s : State) (t : ℝ) : Option (State × Work) :=
  (Deep_dpsec fuel cfg c e s t (secular c e t)).map fun (s, w) =>
    Deep_dpper cfg c e s t { w with em := w.em - e.bstar * c.i.c4 * t, xll := w.xll + c.i.xnodp * c.i.t2cof * (t * t) }

/-- The answer of SDP4 is computed from these elements. -/
theorem SDP4_elements {fuel : ℕ} {cfg : Cfg} {c : Deep} {e : Elem} {s s' : State} {t : ℝ} {code : ℤ} {v : V3 × V3}
    (h : SDP4 fuel cfg c e s t = some (s', code, some v)) :
    ∃ w, elements4 fuel cfg c e s t = some (s', w) ∧
      (code, v) = sxpx_posn_vel (w.mean ((xke / w.xn) ^ (2 / 3 : ℝ) * (1 - c.i.c1 * t) * (1 - c.i.c1 * t))) := by
  unfold SDP4 at h
  obtain ⟨⟨s1, w⟩, hd, h⟩ := Option.map_eq_some_iff.mp h
  dsimp only at h
  split_ifs at h
  · simp at h
  · have hx : ∀ w : Work, (Deep_dpper cfg c e s1 t w).2.xn = w.xn := by
      intro w
      unfold Deep_dpper applyPeriodic applyDirect applyLyddane
      dsimp only
      split_ifs <;> rfl
    simp only [Prod.mk.injEq, Option.some.injEq] at h
    obtain ⟨h1, h2, h3⟩ := h
    refine ⟨_, by unfold elements4; rw [hd, Option.map_some]; dsimp only; rw [← h1], ?_⟩
    rw [hx]
    dsimp only
    rw [← h2, ← h3]

/-- Without drag SDP8 and SDP4 compute the position from the same elements, whatever was kept from earlier calls, and keep the same for the next call. -/
theorem C157_elements (fuel : ℕ) (cfg : Cfg) {e : Elem} (hb : e.bstar = 0) (s : State) (t : ℝ) :
    elements8 fuel cfg (SDP8_init e) e s t = elements4 fuel cfg (SDP4_init e) e s t := by
  have hx : xndt (fixedOf e) (orbOf e) = 0 := by
    have : (fixedOf e).bstar = 0 := hb
    unfold xndt Sgp8.c1 c0 bOf
    rw [this]
    ring
  have hc : (SDP4_init e).i.c1 = 0 := by
    show e.bstar * _ = 0
    rw [hb, zero_mul]
  have hz : ∀ t, z1Of (SDP8_init e) t = 0 := fun t => by unfold z1Of; show xndt (fixedOf e) (orbOf e) * _ * _ * _ = 0; rw [hx]; ring
  have hz7 : ∀ t, z7Of (SDP8_init e) t = 0 := fun t => by unfold z7Of; rw [hz]; ring
  obtain ⟨m1, m2, m3⟩ := init8_motion e
  have hi : (SDP8_init e).deep.i = init8 e := rfl
  have hs : secular8 (SDP8_init e) e t = secular (SDP4_init e) e t := by
    have hn : (SDP4_init e).i.xnodcf = 0 := by
      show 7 / 2 * _ * _ * (SDP4_init e).i.c1 = 0
      rw [hc, mul_zero]
    unfold secular8 secular
    rw [hz7, hi, m1, m2, m3, hn]
    simp only [zero_mul, add_zero]
    rfl
  have hd : ∀ w : Work, drag8 (SDP8_init e) t w
      = { w with em := w.em - e.bstar * (SDP4_init e).i.c4 * t, xll := w.xll + (SDP4_init e).i.xnodp * (SDP4_init e).i.t2cof * (t * t) } := by
    intro w
    have h1 : (SDP8_init e).xndt = 0 := hx
    have h2 : (SDP8_init e).edot = 0 := by
      show -(2 / 3) * (xndt (fixedOf e) (orbOf e) / _) * _ = 0
      rw [hx]; ring
    have h3 : (SDP4_init e).i.t2cof = 0 := by
      show 3 / 2 * (SDP4_init e).i.c1 = 0
      rw [hc, mul_zero]
    unfold drag8
    rw [hz, hz7, h1, h2, h3, hb]
    simp
  unfold elements8 elements4
  rw [deep8_eq, dpsec_congr _ m2, hs]
  congr 1
  funext ⟨s, w⟩
  dsimp only
  rw [hd, dpper_congr]

/-- At the epoch the elements are the same with drag. -/
theorem C157_epoch (fuel : ℕ) (cfg : Cfg) (e : Elem) (s : State) : elements8 fuel cfg (SDP8_init e) e s 0 = elements4 fuel cfg (SDP4_init e) e s 0 := by
  obtain ⟨m1, m2, m3⟩ := init8_motion e
  unfold elements8 elements4
  rw [deep8_eq, dpsec_congr _ m2]
  have hs : secular8 (SDP8_init e) e 0 = secular (SDP4_init e) e 0 := by
    unfold secular8 secular z7Of z1Of
    simp only [mul_zero, zero_div, zero_mul, add_zero]
    rfl
  rw [hs]
  congr 1
  funext ⟨s, w⟩
  dsimp only
  rw [dpper_congr]
  congr 1
  unfold drag8 z7Of z1Of
  simp

/-- The calls of SDP8 for the times `ts`, one after the other. -/
noncomputable def calls8 (fuel : ℕ) (cfg : Cfg) (p : Par8d) (e : Elem) : List ℝ → State → Option State
  | [], s => some s
  | t :: ts, s => (SDP8 fuel cfg p e s t).bind fun r => calls8 fuel cfg p e ts r.1

/-- A call of SDP4 that writes a position leaves what the same call of SDP8 leaves. -/
theorem SDP8_state {fuel : ℕ} {cfg : Cfg} {e : Elem} (hb : e.bstar = 0) {s s' : State} {t : ℝ} {code : ℤ} {v : V3 × V3}
    (h : SDP4 fuel cfg (SDP4_init e) e s t = some (s', code, some v)) :
    ∃ w, SDP8 fuel cfg (SDP8_init e) e s t = some (s', 0, vectors8 (SDP8_init e) w) ∧ (code, v) = sxpx_posn_vel (w.mean ((xke / w.xn) ^ (2 / 3 : ℝ))) := by
  obtain ⟨w, hw, hv⟩ := SDP4_elements h
  refine ⟨w, ?_, ?_⟩
  · unfold SDP8
    rw [C157_elements fuel cfg hb, hw]
    rfl
  · have hc : (SDP4_init e).i.c1 = 0 := by
      show e.bstar * _ = 0
      rw [hb, zero_mul]
    rw [hv, hc]
    simp

/-- The times after which SDP4 has always written a position. -/
def AllWritten (fuel : ℕ) (cfg : Cfg) (c : Deep) (e : Elem) : List ℝ → State → Prop
  | [], _ => True
  | t :: ts, s => ∃ s' code v, SDP4 fuel cfg c e s t = some (s', code, some v) ∧ AllWritten fuel cfg c e ts s'

/-- C157: without drag, after any calls in which SDP4 wrote positions, SDP8 called for the same times has kept the same, and the two compute the next
position from the same elements. -/
theorem C157_calls {fuel : ℕ} {cfg : Cfg} {e : Elem} (hb : e.bstar = 0) : ∀ (ts : List ℝ) (s : State), AllWritten fuel cfg (SDP4_init e) e ts s →
    ∃ s', calls fuel cfg (SDP4_init e) e ts s = some s' ∧ calls8 fuel cfg (SDP8_init e) e ts s = some s' ∧
      ∀ t, elements8 fuel cfg (SDP8_init e) e s' t = elements4 fuel cfg (SDP4_init e) e s' t
  | [], s, _ => ⟨s, rfl, rfl, C157_elements fuel cfg hb s⟩
  | t :: ts, s, ⟨s1, code, v, h, hw⟩ => by
    obtain ⟨s', h1, h2, h3⟩ := C157_calls hb ts s1 hw
    obtain ⟨w, h8, -⟩ := SDP8_state hb h
    refine ⟨s', ?_, ?_, h3⟩
    · unfold calls
      rw [h, Option.bind_some]
      exact h1
    · unfold calls8
      rw [h8, Option.bind_some]
      exact h2

/-- For the satellite of C50 all calls write positions. -/
theorem polar_written (fuel : ℕ) (cfg : Cfg) : ∀ (ts : List ℝ) (s : State), AllWritten fuel cfg (SDP4_init polar) polar ts s
  | [], _ => trivial
  | t :: ts, s => by
    have hd : ∃ r, SDP4 fuel cfg (SDP4_init polar) polar s t = some r := by
      unfold SDP4 Deep_dpsec
      dsimp only
      rw [if_pos polar_res]
      exact ⟨_, rfl⟩
    obtain ⟨⟨s', code, r⟩, h⟩ := hd
    obtain ⟨v, rfl⟩ := Option.ne_none_iff_exists'.1 (C143_nonresonant polar_res polar_xnodp.1.le h)
    exact ⟨s', code, v, h, polar_written fuel cfg ts s'⟩

/-- For it the histories of both propagators agree. -/
example (ts : List ℝ) (s : State) : ∃ s', calls 1 .initial (SDP4_init polar) polar ts s = some s' ∧ calls8 1 .initial (SDP8_init polar) polar ts s = some s' :=
  let ⟨s', h1, h2, _⟩ := C157_calls rfl ts s (polar_written 1 .initial ts s)
  ⟨s', h1, h2⟩

/-! ### The ellipse -/

/-- Without harmonics the periodic terms of SDP8 are those of SGP8 for an orbit with the perturbed inclination. -/
theorem shortD_plain (p : Par8d) (q : Par8) (w : Work) (hq : Inclined8 q w.xinc) (xmam E : ℝ) :
    shortD 0 0 p w xmam E = short8 0 0 q ⟨w.xn, w.em, xmam, w.omgadf, w.xnode⟩ E := by
  unfold shortD short8
  simp only [zero_mul, zero_div, mul_zero, sub_zero, add_zero, hq.sini2, show w.xinc * (1 / 2) = w.xinc / 2 by ring]

/-- Some constants of SGP8 for the inclination `i`. -/
noncomputable def par8 (i : ℝ) : Par8 where
  c := { tthmun := 3 * (cos i * cos i) - 1, unm5th := 1 - 5 * (cos i * cos i), unmth2 := 1 - cos i * cos i, sini2 := sin (i / 2), cosi2 := cos (i / 2),
         xmdt1 := 0, xgdt1 := 0, xhdt1 := 0, xmdot := 0, omgdot := 0, xnodot := 0 }
  xnodp := 0
  sini := sin i
  cosi := cos i
  cosio2 := cos i * cos i
  xndt := 0
  edot := 0
  law := none

theorem par8_inclined (i : ℝ) : Inclined8 (par8 i) i := ⟨rfl, rfl, rfl, rfl, rfl, rfl, rfl, rfl⟩

/-- C158: without harmonics SDP8 is on the ellipse of the perturbed elements, and moves on it. -/
theorem C158_ellipse (p : Par8d) {w : Work} (hi : 0 ≤ cos (w.xinc / 2)) (hn : 0 < w.xn) (he : 0 ≤ w.em) (he1 : w.em < 1) (xmam E : ℝ) :
    let a := (xke / w.xn) ^ (2 / 3 : ℝ)
    (posVel8 (shortD 0 0 p w xmam E)).1 = (orbitPos a w.em w.xinc w.xnode w.omgadf E).smul earthRadius ∧
    HasVel (fun E => (orbitPos a w.em w.xinc w.xnode w.omgadf E).smul earthRadius)
      ((posVel8 (shortD 0 0 p w xmam E)).2.smul ((1 - w.em * cos E) / w.xn)) E := by
  rw [shortD_plain p (par8 w.xinc) w (par8_inclined _)]
  exact C155_ellipse (par8_inclined _) hi (m := ⟨w.xn, w.em, xmam, w.omgadf, w.xnode⟩) hn he he1 E

/-- A polar orbit of eccentricity 1/2 at the perigee, on the node. -/
example (p : Par8d) (M : ℝ) : (posVel8 (shortD 0 0 p { omgadf := 0, xnode := 0, xn := xke, xll := 0, em := 1 / 2, xinc := π / 2 } M 0)).1
    = ⟨1 / 2 * earthRadius, 0, 0⟩ := by
  have hk := xke_pos'
  have h := (C158_ellipse p (w := { omgadf := 0, xnode := 0, xn := xke, xll := 0, em := 1 / 2, xinc := π / 2 })
    (cos_nonneg_of_neg_pi_div_two_le_of_le (by dsimp only; linarith [pi_pos]) (by dsimp only; linarith [pi_pos])) hk (by norm_num) (by norm_num) M 0).1
  rw [h]
  simp [div_self hk.ne', orbitPos, apse, latus, V3.smul, V3.add]
  ring

/-- The distance and the argument of latitude of SDP4 in terms of the true anomaly. -/
theorem prelim_true {e : ℝ} (he : 0 ≤ e) (he1 : e < 1) {a : ℝ} (ha : 0 < a) (ω E : ℝ) :
    shortPrelim a (e * cos ω) (e * sin ω) (E + ω) = (a * (1 - e * cos E), cos (fm8 e E + ω), sin (fm8 e E + ω)) := by
  obtain ⟨f1, f2, -, -⟩ := fm8_polar he he1 E
  have hω := sin_sq_add_cos_sq ω
  have hf : 0 < 1 - e * cos E := by nlinarith [neg_one_le_cos E, cos_le_one E]
  have hb : 0 < 1 - e * e := by nlinarith
  have hb2 : √(1 - e * e) ^ 2 = 1 - e * e := sq_sqrt hb.le
  have hb0 : 0 < √(1 - e * e) := sqrt_pos.2 hb
  have e1 : e * cos ω * cos (E + ω) + e * sin ω * sin (E + ω) = e * cos E := by
    rw [cos_add, sin_add]; linear_combination (e * cos E) * hω
  have e2 : e * cos ω * sin (E + ω) - e * sin ω * cos (E + ω) = e * sin E := by
    rw [cos_add, sin_add]; linear_combination (e * sin E) * hω
  have e3 : e * cos ω * (e * cos ω) + e * sin ω * (e * sin ω) = e * e := by linear_combination (e * e) * hω
  unfold shortPrelim
  dsimp only
  rw [e1, e2, e3, cos_add (fm8 e E), sin_add (fm8 e E), f1, f2, cos_add, sin_add]
  generalize √(1 - e * e) = b at *
  have hb1 : 0 < 1 + b := by linarith
  refine Prod.ext rfl (Prod.ext ?_ ?_)
  · dsimp only
    field_simp
    linear_combination (sin ω * sin E) * hb2
  · dsimp only
    field_simp
    linear_combination (-(cos ω * sin E)) * hb2

/-- C158: without drag and harmonics SDP8 and SDP4 have the same position and velocity. -/
theorem C158_same (p : Par8d) {w : Work} (hi : 0 ≤ cos (w.xinc / 2)) (hn : 0 < w.xn) (he : 0 ≤ w.em) (he1 : w.em < 1) (xmam E : ℝ) :
    posVelOf 0 (w.em * cos w.omgadf) (w.em * sin w.omgadf) (w.mean ((xke / w.xn) ^ (2 / 3 : ℝ))) (E + w.omgadf) = posVel8 (shortD 0 0 p w xmam E) := by
  have hk := xke_pos'
  have ha : 0 < (xke / w.xn) ^ (2 / 3 : ℝ) := rpow_pos_of_pos (div_pos hk hn) _
  have hxn : w.xn * ((xke / w.xn) ^ (2 / 3 : ℝ) * √((xke / w.xn) ^ (2 / 3 : ℝ))) = xke := by
    rw [sqrt_eq_rpow, ← rpow_mul (div_pos hk hn).le, ← rpow_add (div_pos hk hn)]
    norm_num
    field_simp
  obtain ⟨f1, f2, -, -⟩ := fm8_polar he he1 E
  have hpre := prelim_true he he1 ha w.omgadf E
  obtain ⟨o1, o2⟩ := C151_orientation (fm8 w.em E + w.omgadf) w.xnode w.xinc hi
  have hat := atan2_unit (c := cos (fm8 w.em E + w.omgadf)) (s := sin (fm8 w.em E + w.omgadf)) (by rw [add_comm]; exact sin_sq_add_cos_sq _)
  have hf : 0 < 1 - w.em * cos E := by nlinarith [neg_one_le_cos E, cos_le_one E]
  have hb : 0 < 1 - w.em * w.em := by nlinarith
  have hb' : 1 - w.em ^ 2 ≠ 0 := by rw [sq]; exact hb.ne'
  have hb2 : √(1 - w.em * w.em) ^ 2 = 1 - w.em * w.em := sq_sqrt hb.le
  have hb0 : 0 < √(1 - w.em * w.em) := sqrt_pos.2 hb
  have hω := sin_sq_add_cos_sq w.omgadf
  have e2 : w.em * cos w.omgadf * sin (E + w.omgadf) - w.em * sin w.omgadf * cos (E + w.omgadf) = w.em * sin E := by
    rw [cos_add, sin_add]; linear_combination (w.em * sin E) * hω
  have e3 : w.em * cos w.omgadf * (w.em * cos w.omgadf) + w.em * sin w.omgadf * (w.em * sin w.omgadf) = w.em * w.em := by
    linear_combination (w.em * w.em) * hω
  have hrates : shortRates ((xke / w.xn) ^ (2 / 3 : ℝ)) (w.em * cos w.omgadf) (w.em * sin w.omgadf) (E + w.omgadf)
      = ((shortD 0 0 p w xmam E).rdot, (shortD 0 0 p w xmam E).rvdot) := by
    unfold shortRates shortD
    rw [hpre, e2, e3]
    dsimp only
    rw [show √((xke / w.xn) ^ (2 / 3 : ℝ) * (1 - w.em * w.em)) = √((xke / w.xn) ^ (2 / 3 : ℝ)) * √(1 - w.em * w.em) from sqrt_mul ha.le _]
    generalize hA : (xke / w.xn) ^ (2 / 3 : ℝ) = a at *
    have hq2 : √a ^ 2 = a := sq_sqrt ha.le
    have hq0 : 0 < √a := sqrt_pos.2 ha
    generalize √(1 - w.em * w.em) = b at *
    generalize √a = q at *
    rw [← hxn]
    refine Prod.ext ?_ ?_
    · dsimp only
      simp only [zero_mul, mul_zero, add_zero]
      field_simp
      linear_combination (w.em * sin E) * hq2
    · dsimp only
      simp only [zero_mul, mul_zero, add_zero, sub_zero]
      have hh : 0 < w.em * ((cos E - w.em) * (1 / (1 - w.em * cos E))) + 1 := by
        rw [show w.em * ((cos E - w.em) * (1 / (1 - w.em * cos E))) + 1 = (1 - w.em * w.em) / (1 - w.em * cos E) by field_simp; ring]
        positivity
      rw [show w.em * ((cos E - w.em) * (1 / (1 - w.em * cos E))) + 1 = (1 - w.em * w.em) / (1 - w.em * cos E) by field_simp; ring]
      field_simp
      linear_combination hq2
  have hshort : (shortD 0 0 p w xmam E).rr = (xke / w.xn) ^ (2 / 3 : ℝ) * (1 - w.em * cos E) ∧
      (shortD 0 0 p w xmam E).xlamb = fm8 w.em E + w.omgadf + w.xnode ∧
      (shortD 0 0 p w xmam E).y4 = sin (w.xinc / 2) * sin (fm8 w.em E + w.omgadf) ∧
      (shortD 0 0 p w xmam E).y5 = sin (w.xinc / 2) * cos (fm8 w.em E + w.omgadf) := by
    have hsn : √(1 - w.em * w.em) * sin E * (1 / (1 - w.em * cos E)) = sin (fm8 w.em E) := by rw [f2]; field_simp
    have hcs : (cos E - w.em) * (1 / (1 - w.em * cos E)) = cos (fm8 w.em E) := by rw [f1]; field_simp
    unfold shortD
    dsimp only
    simp only [zero_mul, mul_zero, add_zero, sub_zero, zero_div]
    rw [hsn, hcs, show w.xinc * (1 / 2) = w.xinc / 2 by ring, sin_add, cos_add]
    refine ⟨?_, ?_⟩
    swap; · simp
    rw [f1]
    have hh : w.em * ((cos E - w.em) / (1 - w.em * cos E)) + 1 = (1 - w.em * w.em) / (1 - w.em * cos E) := by field_simp; ring
    rw [hh]
    field_simp
  have hA : (w.mean ((xke / w.xn) ^ (2 / 3 : ℝ))).a = (xke / w.xn) ^ (2 / 3 : ℝ) := rfl
  unfold posVelOf posVel8
  rw [hA, hpre, hrates]
  dsimp only
  rw [hshort.1, hshort.2.1, hshort.2.2.1, hshort.2.2.2, o1, o2]
  have hU : orientU (Geo.atan2 (sin (fm8 w.em E + w.omgadf)) (cos (fm8 w.em E + w.omgadf))) w.xnode w.xinc = orientU (fm8 w.em E + w.omgadf) w.xnode w.xinc := by
    unfold orientU; rw [hat.1, hat.2]
  have hV : orientV (Geo.atan2 (sin (fm8 w.em E + w.omgadf)) (cos (fm8 w.em E + w.omgadf))) w.xnode w.xinc = orientV (fm8 w.em E + w.omgadf) w.xnode w.xinc := by
    unfold orientV; rw [hat.1, hat.2]
  simp only [Work.mean, zero_div, mul_zero, zero_mul, sub_zero, add_zero, mul_one, hU, hV]

end SatSky.Props
