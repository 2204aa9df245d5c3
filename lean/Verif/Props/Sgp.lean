import Verif.Model.Sgp
import Verif.Lemmas.KeplerEq
import Verif.Props.Oblate
import Verif.Props.Angles
import Verif.Props.Sgp4

/-! C137-C140: the propagator SGP: mean elements, codes, Kepler's equation, the vectors. -/

namespace SatSky.Props

open Real SatSky.Spec SatSky.Sxp SatSky.Geo SatSky.Sgp SatSky.Kep

/-! ### Mean elements -/

/-- C137: the mean longitude moves with the mean motion and the rates of node and perigee. -/
theorem C137_longitude (p : SgpPar) (e : ElemN) (t : ℝ) : HasDerivAt (longitudeAt p e) (motionAt e t + p.omgdt + p.xnodot) t := by
  have hx := hasDerivAt_id t
  refine hda' (((((((hx.const_mul e.xndd6o).const_add e.xndt2o).mul hx).const_add (e.xno + p.omgdt + p.xnodot)).mul hx).const_add p.xlo))
    (fun y => rfl) ?_
  simp only [motionAt, id, Pi.mul_apply]
  ring

/-- C137: `xndt2o` is half the first derivative of the mean motion, `xndd6o` a sixth of the second. -/
theorem C137_motion (e : ElemN) (t : ℝ) : motionAt e 0 = e.xno ∧ HasDerivAt (motionAt e) (2 * e.xndt2o + 6 * e.xndd6o * t) t ∧
    HasDerivAt (fun s => 2 * e.xndt2o + 6 * e.xndd6o * s) (6 * e.xndd6o) t := by
  have hx := hasDerivAt_id t
  refine ⟨by simp [motionAt], hda' ((((hx.const_mul (e.xndd6o * 3)).const_add (e.xndt2o * 2)).mul hx).const_add e.xno) (fun y => rfl) ?_,
    hda' ((hx.const_mul (6 * e.xndd6o)).const_add (2 * e.xndt2o)) (fun y => rfl) (by ring)⟩
  simp only [id]
  ring

theorem rpow_two_thirds {x : ℝ} (hx : 0 ≤ x) : (x ^ (2 / 3 : ℝ)) ^ 3 = x ^ 2 := by
  rw [← rpow_natCast, ← rpow_mul hx, ← rpow_natCast]
  norm_num

/-- C137: the semimajor axis follows the mean motion by Kepler's third law. -/
theorem C137_axis (p : SgpPar) (e : ElemN) (t : ℝ) (h0 : 0 < p.ao) (hn : 0 < e.xno) (ht : 0 < motionAt e t) :
    0 < axisAt p e t ∧ axisAt p e t ^ 3 * motionAt e t ^ 2 = p.ao ^ 3 * e.xno ^ 2 := by
  have hq : 0 < e.xno / motionAt e t := by positivity
  constructor
  · unfold axisAt; positivity
  · unfold axisAt
    rw [mul_pow, rpow_two_thirds hq.le, div_pow]
    field_simp

/-- C137: while the axis is longer than the distance of the perigee at the epoch, that distance is kept. -/
theorem C137_perigee (p : SgpPar) (a : ℝ) (hq : 0 < p.qo) (ha : p.qo < a) :
    a * (1 - eccOf p a) = p.qo ∧ 0 < eccOf p a ∧ eccOf p a < 1 := by
  have h0 : 0 < a := hq.trans ha
  unfold eccOf
  rw [if_pos ha]
  refine ⟨by field_simp; ring, ?_, ?_⟩
  · rw [sub_pos, div_lt_one h0]; exact ha
  · have : 0 < p.qo / a := by positivity
    linarith

/-- C137: afterwards the orbit is almost circular. -/
theorem C137_round (p : SgpPar) (a : ℝ) (ha : a ≤ p.qo) : eccOf p a = 1 / 10 ^ 6 := by
  unfold eccOf
  rw [if_neg (not_lt.mpr ha)]

theorem axis_epoch (p : SgpPar) (e : ElemN) (hn : 0 < e.xno) : axisAt p e 0 = p.ao := by
  unfold axisAt motionAt
  simp [hn.ne']

/-- C137: at the epoch the elements are those of the set. -/
theorem C137_epoch (k2 j3 : ℝ) (e : ElemN) (hn : 0 < e.xno) (ha : 0 < aoOf k2 e.toElem) (he : 0 < e.eo) :
    axisAt (SGP_initOf k2 j3 e.toElem) e 0 = aoOf k2 e.toElem ∧ eccOf (SGP_initOf k2 j3 e.toElem) (axisAt (SGP_initOf k2 j3 e.toElem) e 0) = e.eo ∧
    longitudeAt (SGP_initOf k2 j3 e.toElem) e 0 = e.xmo + e.omegao + e.xnodeo := by
  rw [axis_epoch _ e hn]
  refine ⟨rfl, ?_, by simp [longitudeAt, SGP_initOf]⟩
  unfold eccOf
  have h1 : (SGP_initOf k2 j3 e.toElem).qo = aoOf k2 e.toElem * (1 - e.eo) := rfl
  have h2 : (SGP_initOf k2 j3 e.toElem).ao = aoOf k2 e.toElem := rfl
  rw [h1, h2, if_pos (by nlinarith)]
  field_simp
  ring

/-- The exclusion of the circular orbit: an eccentricity of zero is replaced by 10⁻⁶. -/
theorem C137_circular_excluded (k2 j3 : ℝ) (e : ElemN) (hn : 0 < e.xno) (he : e.eo = 0) :
    eccOf (SGP_initOf k2 j3 e.toElem) (axisAt (SGP_initOf k2 j3 e.toElem) e 0) = 1 / 10 ^ 6 := by
  rw [axis_epoch _ e hn]
  apply C137_round
  simp [SGP_initOf, he]

/-- A decaying orbit: after a time at which the mean motion is eight times the first one the axis is a quarter. -/
example : axisAt ⟨8, 1, 0, 0, 0, 0, 0, 0, 0, 0, 0⟩ ⟨⟨0, 0, 0, 0, 7 / 8, 0, 0, 1, 0⟩, 7 / 2, 0⟩ 1 = 2 ∧
    eccOf ⟨8, 1, 0, 0, 0, 0, 0, 0, 0, 0, 0⟩ 2 = 1 / 2 := by
  constructor
  · unfold axisAt motionAt
    norm_num
  · unfold eccOf
    norm_num

/-! ### Codes -/

theorem ck2_nonneg : 0 ≤ ck2 := by unfold ck2 xj2; norm_num

/-- C138: what `SGP` returns. -/
theorem C138_codes (p : SgpPar) (e : ElemN) (t : ℝ) :
    ((SGP p e t).1 = -2 ↔ motionAt e t < 0) ∧ ((SGP p e t).1 = -2 → (SGP p e t).2 = (zero3, zero3)) ∧
    ((SGP p e t).1 = -4 ↔ 0 ≤ motionAt e t ∧ axisAt p e t * (1 - 1 / 10 ^ 6) < 1) ∧
    ((SGP p e t).1 = 0 ∨ (SGP p e t).1 = -2 ∨ (SGP p e t).1 = -4) := by
  have e1 : ¬ ((1 / 10 ^ 6 : ℝ) > 1 - 1 / 10 ^ 6) := by norm_num
  unfold SGP
  dsimp only
  rw [if_neg e1]
  by_cases h : motionAt e t < 0
  · rw [if_pos h, if_pos (by decide)]
    refine ⟨by simp [h], fun _ => rfl, ?_, by simp⟩
    simp only [show (-2 : ℤ) ≠ -4 by decide, false_iff]
    exact fun h' => absurd h (not_lt.mpr h'.1)
  · rw [if_neg h, if_neg (by decide)]
    have ha : (sgpMean p e t).a = axisAt p e t := rfl
    simp only [ha]
    by_cases h2 : axisAt p e t * (1 - 1 / 10 ^ 6) < 1
    · rw [if_pos (Or.inl h2)]
      simp only [h, h2]
      exact ⟨by decide, fun h => absurd h (by decide), ⟨fun _ => ⟨not_lt.mp h, trivial⟩, fun _ => trivial⟩, by simp⟩
    · have h3 : ¬ axisAt p e t * (1 + 1 / 10 ^ 6) < 1 := by
        intro h3
        by_cases h4 : 0 ≤ axisAt p e t
        · nlinarith
        · nlinarith
      rw [if_neg (by tauto), if_neg (by tauto)]
      simp only [h, h2]
      exact ⟨by decide, fun h => absurd h (by decide), ⟨fun h => absurd h (by decide), fun h => absurd h.2 (by simp)⟩, by simp⟩

/-- A set of elements with a long ellipse: the axis is four Earth radii (without the correction), the perigee far inside the Earth. -/
noncomputable def plunging : ElemN := ⟨⟨0, 0, 0, 0, 9 / 10, 0, 0, xke / 8, 0⟩, 0, 0⟩

theorem plunging_axis : 39 / 10 ≤ aoOf ck2 plunging.toElem ∧ aoOf ck2 plunging.toElem ≤ 4 := by
  have h8 : (xke / (xke / 8)) ^ (2 / 3 : ℝ) = 4 := by
    have : xke ≠ 0 := by unfold xke; norm_num
    rw [show xke / (xke / 8) = 2 ^ (3 : ℝ) by field_simp; norm_num, ← rpow_mul (by norm_num)]
    norm_num
  have hq : (361 / 10000 : ℝ) ≤ (1 - 9 / 10 * (9 / 10)) ^ (3 / 2 : ℝ) := by
    calc (361 / 10000 : ℝ) = (19 / 100) ^ (2 : ℝ) := by norm_num
      _ ≤ (1 - 9 / 10 * (9 / 10)) ^ (3 / 2 : ℝ) := by
        rw [show (1 - 9 / 10 * (9 / 10) : ℝ) = 19 / 100 by norm_num]
        exact rpow_le_rpow_of_exponent_ge (by norm_num) (by norm_num) (by norm_num)
  unfold aoOf plunging
  simp only [h8, cos_zero]
  generalize ((1 - 9 / 10 * (9 / 10)) ^ (3 / 2 : ℝ) : ℝ) = q at *
  have hd0 : 0 ≤ ck2 * (3 / 2) / 4 / 4 * (1 * 3 * 1 - 1) / q := by
    have := ck2_nonneg
    positivity
  have hd1 : ck2 * (3 / 2) / 4 / 4 * (1 * 3 * 1 - 1) / q ≤ 1 / 100 := by
    rw [div_le_iff₀ (by linarith)]
    unfold ck2 xj2
    linarith
  generalize ck2 * (3 / 2) / 4 / 4 * (1 * 3 * 1 - 1) / q = d at *
  have h2 : d * d ≤ 1 / 10000 := by nlinarith
  have h3 : d * (134 / 81) * d * d ≤ 1 / 10000 := by nlinarith
  have h4 : 0 ≤ d * (134 / 81) * d * d := by positivity
  constructor <;> nlinarith

/-- C138: a satellite whose perigee lies inside the Earth is not reported: the test is made with the eccentricity 10⁻⁶ instead of that of the orbit. -/
theorem C138_perigee_violated :
    let p := SGP_init plunging.toElem
    let a := axisAt p plunging 0
    a * (1 - eccOf p a) < 1 / 2 ∧ eccOf p a = 9 / 10 ∧ (SGP p plunging 0).1 = 0 := by
  intro p a
  obtain ⟨l, u⟩ := plunging_axis
  have hn : 0 < plunging.xno := by simp only [plunging, xke]; norm_num
  obtain ⟨e1, e2, -⟩ := C137_epoch ck2 xj3 plunging hn (by linarith) (by simp only [plunging]; norm_num)
  have e2' : eccOf p a = 9 / 10 := e2
  have e1' : a = aoOf ck2 plunging.toElem := e1
  refine ⟨by rw [e2', e1']; linarith, e2', ?_⟩
  obtain ⟨c1, -, c3, c4⟩ := C138_codes p plunging 0
  have hm : motionAt plunging 0 = plunging.xno := (C137_motion plunging 0).1
  rcases c4 with h | h | h
  · exact h
  · exact absurd (c1.mp h) (by rw [hm]; linarith)
  · have h5 := (c3.mp h).2
    rw [show axisAt p plunging 0 = a from rfl, e1'] at h5
    linarith

/-- A satellite whose mean motion has become negative. -/
example (p : SgpPar) : SGP p ⟨⟨0, 0, 0, 0, 0, 0, 0, 1, 0⟩, -1, 0⟩ 1 = (-2, zero3, zero3) := by
  have h := C138_codes p ⟨⟨0, 0, 0, 0, 0, 0, 0, 1, 0⟩, -1, 0⟩ 1
  have h1 := h.1.mpr (by unfold motionAt; norm_num)
  exact Prod.ext h1 (h.2.1 h1)

/-! ### Kepler's equation -/

theorem tem5_small {x y l E : ℝ} (h : |tem5Of x y l E| < 1) : tem5Of x y l E = keplerRes x y l E / (1 - ec x y E) := by
  have hd : 1 - cos E * x - sin E * y = 1 - ec x y E := by unfold ec; ring
  have hr : l - y * cos E + x * sin E - E = keplerRes x y l E := by unfold keplerRes; ring
  unfold tem5Of at h ⊢
  dsimp only at h ⊢
  rw [hd, hr] at h ⊢
  split_ifs with hc
  · rw [if_pos hc, abs_div, abs_abs, div_self (by intro h0; rw [h0] at hc; linarith)] at h
    exact absurd h (lt_irrefl 1)
  · rfl

theorem newton_res {x y e l E : ℝ} (he : 0 ≤ e) (he1 : e < 1) (h : x ^ 2 + y ^ 2 ≤ e ^ 2)
    (ht : |keplerRes x y l E / (1 - ec x y E)| ≤ 1) :
    |keplerRes x y l (E + keplerRes x y l E / (1 - ec x y E))| ≤ 3 / 4 * e * (keplerRes x y l E / (1 - ec x y E)) ^ 2 := by
  have hc := (abs_le.mp (abs_ec he h E)).2
  have hd : 1 - ec x y E ≠ 0 := by intro h0; linarith
  have hr := rem2 he h E ht
  have hnew : ∀ d, keplerRes x y l (E + d) = keplerRes x y l E - (1 - ec x y E) * d + (es x y (E + d) - es x y E - ec x y E * d) := by
    intro d; rw [res_eq, res_eq]; ring
  rw [hnew, mul_div_cancel₀ _ hd, sub_self, zero_add]
  exact hr

theorem sgpLoop_left {x y e l : ℝ} (he : 0 ≤ e) (he1 : e < 1) (h : x ^ 2 + y ^ 2 ≤ e ^ 2) : ∀ (n : ℕ) (E t : ℝ),
    (|t| < 1 / 10 ^ 6 → |keplerRes x y l E| ≤ 3 / 4 * e * t ^ 2) → (sgpLoop x y l n E t).2 = true →
    |keplerRes x y l (sgpLoop x y l n E t).1| ≤ 3 / 4 * e / 10 ^ 12 := by
  intro n
  induction n with
  | zero =>
    intro E t hE hb
    unfold sgpLoop at hb ⊢
    split_ifs at hb ⊢ with hc
    refine le_trans (hE hc) ?_
    have : t ^ 2 ≤ (1 / 10 ^ 6) ^ 2 := by rw [← sq_abs]; gcongr
    calc 3 / 4 * e * t ^ 2 ≤ 3 / 4 * e * (1 / 10 ^ 6) ^ 2 := by gcongr
      _ = 3 / 4 * e / 10 ^ 12 := by ring
  | succ n ih =>
    intro E t hE hb
    unfold sgpLoop at hb ⊢
    by_cases hc : |t| < 1 / 10 ^ 6
    · rw [if_pos hc]
      refine le_trans (hE hc) ?_
      have : t ^ 2 ≤ (1 / 10 ^ 6) ^ 2 := by rw [← sq_abs]; gcongr
      calc 3 / 4 * e * t ^ 2 ≤ 3 / 4 * e * (1 / 10 ^ 6) ^ 2 := by gcongr
        _ = 3 / 4 * e / 10 ^ 12 := by ring
    · rw [if_neg hc] at hb ⊢
      dsimp only at hb ⊢
      refine ih _ _ (fun hs => ?_) hb
      have h1 : |tem5Of x y l E| < 1 := hs.trans (by norm_num)
      have h2 := tem5_small h1
      rw [h2] at h1 ⊢
      exact newton_res he he1 h h1.le

/-- C139: when the loop is left by its test, the equation is solved: the residual is below 10⁻¹² and the eccentric longitude is near the solution. -/
theorem C139_residual {x y e l : ℝ} (he : 0 ≤ e) (he1 : e < 1) (h : x ^ 2 + y ^ 2 ≤ e ^ 2) (hb : (sgpKepler x y l).2 = true) :
    let E := (sgpKepler x y l).1
    |E - x * sin E + y * cos E - l| ≤ 3 / 4 * e / 10 ^ 12 ∧ ∃ R, KeplerEq x y l R ∧ |E - R| ≤ 3 / 4 * e / 10 ^ 12 / (1 - e) := by
  intro E
  have h1 : |keplerRes x y l E| ≤ 3 / 4 * e / 10 ^ 12 := sgpLoop_left he he1 h 10 l 1 (fun h => by norm_num at h) hb
  refine ⟨?_, ?_⟩
  · rw [show E - x * sin E + y * cos E - l = -keplerRes x y l E by unfold keplerRes; ring, abs_neg]
    exact h1
  · obtain ⟨R, hR⟩ := root_exists l he he1 h
    refine ⟨R, (keplerEq_iff x y l R).mpr hR, le_trans (near he he1 h hR) ?_⟩
    have : 0 < 1 - e := by linarith
    gcongr

/-- The step that follows a step `t`. -/
theorem tem5_next {x y l : ℝ} (h : x ^ 2 + y ^ 2 ≤ (1 / 2) ^ 2) {E b : ℝ} (hb : b ≤ 1) (hE : |keplerRes x y l E| ≤ 1 / 2 * b) :
    |tem5Of x y l E| ≤ b ∧ |keplerRes x y l (E + tem5Of x y l E)| ≤ 1 / 2 * (3 / 4 * b ^ 2) := by
  have hc := (abs_le.mp (abs_ec (by norm_num) h E)).2
  have hp : 1 / 2 ≤ 1 - ec x y E := by linarith
  have hq : |keplerRes x y l E / (1 - ec x y E)| ≤ b := by
    rw [abs_div, abs_of_pos (by linarith : 0 < 1 - ec x y E), div_le_iff₀ (by linarith)]
    nlinarith [abs_nonneg (keplerRes x y l E)]
  have ht : tem5Of x y l E = keplerRes x y l E / (1 - ec x y E) := by
    have hd : 1 - cos E * x - sin E * y = 1 - ec x y E := by unfold ec; ring
    have hr : l - y * cos E + x * sin E - E = keplerRes x y l E := by unfold keplerRes; ring
    unfold tem5Of
    dsimp only
    rw [hd, hr, if_neg (not_lt.mpr (le_trans hq hb))]
  rw [ht]
  refine ⟨hq, le_trans (newton_res (by norm_num) (by norm_num) h (le_trans hq hb)) ?_⟩
  have : (keplerRes x y l E / (1 - ec x y E)) ^ 2 ≤ b ^ 2 := by
    rw [← sq_abs]
    gcongr
  linarith

theorem sgpLoop_converges {x y l : ℝ} (h : x ^ 2 + y ^ 2 ≤ (1 / 2) ^ 2) {n : ℕ} {E t b c : ℝ} (hb : b ≤ 1) (hc : 3 / 4 * b ^ 2 ≤ c)
    (hE : |keplerRes x y l E| ≤ 1 / 2 * b)
    (hn : ∀ E' t', |t'| ≤ b → |keplerRes x y l E'| ≤ 1 / 2 * c → (sgpLoop x y l n E' t').2 = true) :
    (sgpLoop x y l (n + 1) E t).2 = true := by
  unfold sgpLoop
  split_ifs with hs
  · rfl
  · obtain ⟨h1, h2⟩ := tem5_next h hb hE
    exact hn _ _ h1 (by linarith)

/-- C139: for eccentricities up to one half the loop is always left by its test. -/
theorem C139_converges (x y l : ℝ) (h : x ^ 2 + y ^ 2 ≤ (1 / 2) ^ 2) : (sgpKepler x y l).2 = true := by
  have h0 : |keplerRes x y l l| ≤ 1 / 2 * 1 := by
    rw [res_eq, sub_self, zero_add]
    have := abs_es (by norm_num) h l
    linarith
  unfold sgpKepler
  refine sgpLoop_converges (c := 3 / 4) h le_rfl (by norm_num) h0 fun E t _ hE => ?_
  refine sgpLoop_converges (c := 43 / 100) h (by norm_num) (by norm_num) hE fun E t _ hE => ?_
  refine sgpLoop_converges (c := 14 / 100) h (by norm_num) (by norm_num) hE fun E t _ hE => ?_
  refine sgpLoop_converges (c := 15 / 1000) h (by norm_num) (by norm_num) hE fun E t _ hE => ?_
  refine sgpLoop_converges (c := 2 / 10000) h (by norm_num) (by norm_num) hE fun E t _ hE => ?_
  refine sgpLoop_converges (c := 4 / 10 ^ 8) h (by norm_num) (by norm_num) hE fun E t _ hE => ?_
  refine sgpLoop_converges (c := 1 / 10 ^ 9) h (by norm_num) (by norm_num) hE fun E t ht _ => ?_
  unfold sgpLoop
  rw [if_pos (lt_of_le_of_lt ht (by norm_num))]

/-- The theorems speak of orbits that are not circular. -/
example : (sgpKepler (3 / 10) (2 / 5) 1).2 = true := C139_converges _ _ _ (by norm_num)

/-! A long ellipse near its perigee: eccentricity 1 - 10⁻⁹, mean anomaly 2 · 10⁻⁹. -/

theorem sin_upper {E : ℝ} (h0 : 0 ≤ E) (h1 : E ≤ 11 / 10) : sin E ≤ E - E ^ 3 / 8 := by
  have h2 : sin E = 3 * sin (E / 3) - 4 * sin (E / 3) ^ 3 := by
    rw [← sin_three_mul]; ring_nf
  have l := sin_ge_sub_cube (x := E / 3) (by positivity)
  have u := sin_le (x := E / 3) (by positivity)
  have hE2 : E ^ 2 ≤ 121 / 100 := by nlinarith
  have l0 : 19 / 20 * (E / 3) ≤ E / 3 - (E / 3) ^ 3 / 6 := by
    have : (E / 3) ^ 3 / 6 = E / 3 * (E ^ 2 / 54) := by ring
    rw [this]
    nlinarith
  have l3 : (19 / 20 * (E / 3)) ^ 3 ≤ sin (E / 3) ^ 3 := pow_le_pow_left₀ (by positivity) (le_trans l0 l) 3
  have h3 : 0 ≤ E ^ 3 := by positivity
  rw [h2]
  nlinarith

theorem cos_upper {E : ℝ} (h0 : 0 ≤ E) (h1 : E ≤ 11 / 10) : cos E ≤ 1 - E ^ 2 / 2 + E ^ 4 / 24 := by
  have h2 : cos E = 1 - 2 * sin (E / 2) ^ 2 := by
    have h := cos_two_mul (E / 2)
    have := sin_sq_add_cos_sq (E / 2)
    rw [show 2 * (E / 2) = E by ring] at h
    linarith
  have l := sin_ge_sub_cube (x := E / 2) (by positivity)
  have l0 : 0 ≤ E / 2 - (E / 2) ^ 3 / 6 := by nlinarith [mul_nonneg h0 h0]
  have l2 := pow_le_pow_left₀ l0 l 2
  have : (E / 2 - (E / 2) ^ 3 / 6) ^ 2 = E ^ 2 / 4 - E ^ 4 / 48 + E ^ 6 / 2304 := by ring
  have : 0 ≤ E ^ 6 := by positivity
  rw [h2]
  linarith

/-- The eccentricity and the mean anomaly. -/
noncomputable def eLong : ℝ := 1 - 1 / 10 ^ 9
noncomputable def mLong : ℝ := 2 / 10 ^ 9

theorem res_long {E : ℝ} (h0 : 1 / 100 ≤ E) (h1 : E ≤ 11 / 10) : E ^ 3 / 8 - mLong ≤ -keplerRes eLong 0 mLong E ∧
    -keplerRes eLong 0 mLong E ≤ E / 10 ^ 9 + E ^ 3 / 6 := by
  have hs1 := sin_ge_sub_cube (x := E) (by linarith)
  have hs2 := sin_upper (by linarith) h1
  have hs0 : 0 ≤ sin E := sin_nonneg_of_nonneg_of_le_pi (by linarith) (by linarith [pi_gt_three])
  have h3 : 0 ≤ E ^ 3 := by positivity
  unfold keplerRes eLong mLong
  constructor <;> nlinarith

theorem den_long {E : ℝ} (h0 : 1 / 100 ≤ E) (h1 : E ≤ 11 / 10) : E ^ 2 / 2 - E ^ 4 / 24 ≤ 1 - ec eLong 0 E ∧
    1 - ec eLong 0 E ≤ E ^ 2 / 2 + 1 / 10 ^ 9 := by
  have hc1 := cos_upper (by linarith) h1
  have hc2 : 1 - E ^ 2 / 2 ≤ cos E := one_sub_sq_div_two_le_cos
  have hc0 : 0 ≤ cos E := by nlinarith
  have hc3 := cos_le_one E
  unfold ec eLong
  constructor <;> nlinarith

theorem slow_step {E : ℝ} (h0 : 1 / 100 ≤ E) (h1 : E ≤ 11 / 10) :
    3 / 5 * E ≤ E + tem5Of eLong 0 mLong E ∧ tem5Of eLong 0 mLong E ≤ -(1 / 10 ^ 4) := by
  obtain ⟨g1, g2⟩ := res_long h0 h1
  obtain ⟨d1, d2⟩ := den_long h0 h1
  have hE2 : E ^ 2 ≤ 121 / 100 := by nlinarith
  have hE2' : 1 / 10000 ≤ E ^ 2 := by nlinarith
  have hd : 1 - cos E * eLong - sin E * 0 = 1 - ec eLong 0 E := by unfold ec; ring
  have hr : mLong - 0 * cos E + eLong * sin E - E = keplerRes eLong 0 mLong E := by unfold keplerRes; ring
  have hd0 : 0 < 1 - ec eLong 0 E := by nlinarith
  have hq : -keplerRes eLong 0 mLong E / (1 - ec eLong 0 E) ≤ 2 / 5 * E := by
    rw [div_le_iff₀ hd0]
    have : E ^ 2 / 6 + 1 / 10 ^ 9 ≤ 2 / 5 * (E ^ 2 / 2 - E ^ 4 / 24) := by nlinarith
    calc -keplerRes eLong 0 mLong E ≤ E / 10 ^ 9 + E ^ 3 / 6 := g2
      _ = E * (E ^ 2 / 6 + 1 / 10 ^ 9) := by ring
      _ ≤ E * (2 / 5 * (E ^ 2 / 2 - E ^ 4 / 24)) := by gcongr
      _ ≤ E * (2 / 5 * (1 - ec eLong 0 E)) := by gcongr
      _ = 2 / 5 * E * (1 - ec eLong 0 E) := by ring
  have hl : 1 / 10 ^ 4 ≤ -keplerRes eLong 0 mLong E / (1 - ec eLong 0 E) := by
    rw [le_div_iff₀ hd0]
    have h3 : 1 / 100 * E ^ 2 ≤ E ^ 3 := by nlinarith
    unfold mLong at g1 ⊢
    linarith
  have ht : tem5Of eLong 0 mLong E = -(-keplerRes eLong 0 mLong E / (1 - ec eLong 0 E)) := by
    unfold tem5Of
    dsimp only
    rw [hd, hr, if_neg]
    · ring
    · rw [not_lt, show keplerRes eLong 0 mLong E / (1 - ec eLong 0 E) = -(-keplerRes eLong 0 mLong E / (1 - ec eLong 0 E)) by ring, abs_neg,
        abs_of_nonneg (by linarith)]
      linarith
  rw [ht]
  constructor <;> linarith

theorem slow_loop : ∀ (n : ℕ) (E t : ℝ), 1 / 100 ≤ (3 / 5) ^ n * E → E ≤ 11 / 10 → 1 / 10 ^ 4 ≤ |t| → 1 / 100 ≤ E →
    (sgpLoop eLong 0 mLong n E t).2 = false ∧ 1 / 100 ≤ (sgpLoop eLong 0 mLong n E t).1 ∧ (sgpLoop eLong 0 mLong n E t).1 ≤ 11 / 10 := by
  intro n
  induction n with
  | zero =>
    intro E t h0 h1 ht h2
    unfold sgpLoop
    rw [if_neg (by rw [not_lt]; exact le_trans (by norm_num) ht)]
    exact ⟨rfl, h2, h1⟩
  | succ n ih =>
    intro E t h0 h1 ht h2
    unfold sgpLoop
    rw [if_neg (by rw [not_lt]; exact le_trans (by norm_num) ht)]
    obtain ⟨s1, s2⟩ := slow_step h2 h1
    have h3 : 1 / 100 ≤ (3 / 5) ^ n * (E + tem5Of eLong 0 mLong E) := by
      refine le_trans h0 ?_
      rw [pow_succ, mul_assoc]
      gcongr
    refine ih _ _ h3 (by linarith) (by rw [abs_of_nonpos (by linarith)]; linarith) ?_
    have h4 : (3 / 5 : ℝ) ^ n ≤ 1 := pow_le_one₀ (by norm_num) (by norm_num)
    have h5 : 0 ≤ E + tem5Of eLong 0 mLong E := by linarith
    nlinarith

theorem first_step : tem5Of eLong 0 mLong mLong = 1 := by
  have hs := sin_ge_sub_cube (x := mLong) (by unfold mLong; norm_num)
  have hc2 : 1 - mLong ^ 2 / 2 ≤ cos mLong := one_sub_sq_div_two_le_cos
  have hc3 := cos_le_one mLong
  unfold tem5Of
  dsimp only
  have hd : 0 < 1 - cos mLong * eLong - sin mLong * 0 := by unfold eLong; linarith
  have hq : 1 < (mLong - 0 * cos mLong + eLong * sin mLong - mLong) / (1 - cos mLong * eLong - sin mLong * 0) := by
    rw [lt_div_iff₀ hd]
    have h1 : eLong * (mLong - mLong ^ 3 / 6) ≤ eLong * sin mLong := mul_le_mul_of_nonneg_left hs (by unfold eLong; norm_num)
    have h2 : (1 - mLong ^ 2 / 2) * eLong ≤ cos mLong * eLong := mul_le_mul_of_nonneg_right hc2 (by unfold eLong; norm_num)
    have h3 : 1 - (1 - mLong ^ 2 / 2) * eLong < eLong * (mLong - mLong ^ 3 / 6) := by unfold eLong mLong; norm_num
    linarith
  rw [abs_of_pos (by linarith), if_pos hq, div_self (by linarith)]

/-- C139: for long ellipses the loop can run out; the position is then computed from a longitude that does not solve the equation, and the code does
not tell. -/
theorem C139_unchecked_violated : eLong ^ 2 + 0 ^ 2 < 1 ∧ (sgpKepler eLong 0 mLong).2 = false ∧
    let E := (sgpKepler eLong 0 mLong).1
    1 / 10 ^ 7 < |E - eLong * sin E + 0 * cos E - mLong| := by
  have h : (sgpKepler eLong 0 mLong) = sgpLoop eLong 0 mLong 9 (mLong + 1) 1 := by
    unfold sgpKepler
    rw [sgpLoop, if_neg (by norm_num), first_step]
  obtain ⟨h1, h2, h3⟩ := slow_loop 9 (mLong + 1) 1 (by unfold mLong; norm_num) (by unfold mLong; norm_num) (by norm_num) (by unfold mLong; norm_num)
  rw [h]
  refine ⟨by unfold eLong; norm_num, h1, ?_⟩
  intro E
  have hr := (res_long h2 h3).1
  have h4 : (1 / 100 : ℝ) ^ 3 ≤ E ^ 3 := pow_le_pow_left₀ (by norm_num) h2 3
  rw [show E - eLong * sin E + 0 * cos E - mLong = -keplerRes eLong 0 mLong E by unfold keplerRes; ring]
  refine lt_of_lt_of_le ?_ (le_abs_self _)
  refine lt_of_lt_of_le ?_ hr
  change 1 / 10 ^ 7 < E ^ 3 / 8 - mLong
  have : mLong = 2 / 10 ^ 9 := rfl
  rw [this]
  linarith

/-! ### Position and velocity -/

theorem atan2_unit {c s : ℝ} (h : c ^ 2 + s ^ 2 = 1) : cos (atan2 s c) = c ∧ sin (atan2 s c) = s := by
  have h1 := atan2_polar s c
  rw [show c * c + s * s = 1 by nlinarith, sqrt_one, one_mul, one_mul] at h1
  exact h1

/-- The position and the velocity of `SGP` in terms of the point of the ellipse, `(r, cosu, sinu)`. -/
theorem sgpPosVel_eq (p : SgpPar) (xincl xnodes a x y E : ℝ) :
    let q := shortPrelim a x y E
    let pl := a * (1 - (x * x + y * y))
    let S := 2 * q.2.2 * q.2.1
    let C := 1 - 2 * q.2.2 * q.2.2
    let U := orientU (atan2 q.2.2 q.2.1 - p.d2o / (pl * pl) * S) (xnodes + p.d3o * S / (pl * pl)) (xincl + p.d4o / (pl * pl) * C)
    let V := orientV (atan2 q.2.2 q.2.1 - p.d2o / (pl * pl) * S) (xnodes + p.d3o * S / (pl * pl)) (xincl + p.d4o / (pl * pl) * C)
    sgpPosVel p xincl xnodes a x y E = (U.smul ((q.1 + p.d1o / pl * C) * earthRadius),
      (U.smul ((shortRates a x y E).1 * earthRadius)).add (V.smul ((shortRates a x y E).2 * earthRadius))) := by
  intro q pl S C U V
  have e1 : sqrt (1 - (x * x + y * y)) + 1 = 1 + sqrt (1 - (x * x + y * y)) := add_comm _ _
  have e2 : ∀ c s : ℝ, (c + c) * s = 2 * s * c := fun c s => by ring
  unfold sgpPosVel
  simp only [e1, e2]
  ext
  all_goals simp only [V3.smul, V3.add, U, V, orientU, orientV, S, C, pl, q, shortPrelim, shortRates]
  all_goals ring

theorem frame_plane (u node i v1 v2 : ℝ) :
    ((V3.smul v1 (orientU u node i)).add (V3.smul v2 (orientV u node i))).dot (orientW node i) = 0 ∧
    (V3.smul v1 (orientU u node i)).dot (orientW node i) = 0 ∧ (V3.smul v1 (orientU u node i)).len = |v1| := by
  have h : orientW node i = normalOf node i := by unfold orientW normalOf; rw [neg_mul]
  rw [h]
  exact in_frame u node i v1 v2

theorem frame_norm (u node i v1 v2 : ℝ) :
    ((V3.smul v1 (orientU u node i)).add (V3.smul v2 (orientV u node i))).dot ((V3.smul v1 (orientU u node i)).add (V3.smul v2 (orientV u node i)))
      = v1 ^ 2 + v2 ^ 2 := by
  obtain ⟨f1, f2, f3, -, -⟩ := orient_frame u node i
  unfold V3.dot V3.smul V3.add at *
  dsimp only
  linear_combination v1 ^ 2 * f1 + v2 ^ 2 * f2 + 2 * v1 * v2 * f3

/-- C140: position and velocity of SGP lie in one plane through the centre of the Earth, whose node and inclination differ from those of the mean
orbit by at most 1.5 k₂/p² and 0.75 k₂/p²; the distance is within k₂/(2p) of the distance `r` on the ellipse, and the velocity is that on the
ellipse: its square is `k_e² (2/r - 1/a)`. -/
theorem C140_vectors (k2 j3 xnodes a x y E : ℝ) (e : Elem) (hk : 0 < k2) (ha : 0 < a) (he : x ^ 2 + y ^ 2 < 1) :
    let p := a * (1 - (x * x + y * y))
    let r := a * (1 - (x * cos E + y * sin E))
    let pv := sgpPosVel (SGP_initOf k2 j3 e) e.xincl xnodes a x y E
    ∃ node i rk, |node - xnodes| ≤ 3 / 2 * k2 / p ^ 2 ∧ |i - e.xincl| ≤ 3 / 4 * k2 / p ^ 2 ∧
      pv.1.dot (orientW node i) = 0 ∧ pv.2.dot (orientW node i) = 0 ∧ pv.1.len = |rk| * earthRadius ∧ |rk - r| ≤ k2 / (2 * p) ∧
      pv.2.dot pv.2 = xke ^ 2 * (2 / r - 1 / a) * earthRadius ^ 2 := by
  intro p r pv
  have hp : 0 < p := mul_pos ha (by nlinarith)
  have hell : 0 < r ∧ (shortPrelim a x y E).2.1 ^ 2 + (shortPrelim a x y E).2.2 ^ 2 = 1 :=
    ⟨(C93_ellipse (E := E) ha he).1, (C93_ellipse (E := E) ha he).2.1⟩
  obtain ⟨hr0, hcs⟩ := hell
  have hr : (shortPrelim a x y E).1 = r := rfl
  have hpv := sgpPosVel_eq (SGP_initOf k2 j3 e) e.xincl xnodes a x y E
  dsimp only at hpv
  rw [hr] at hpv
  generalize (shortPrelim a x y E).2.1 = c at *
  generalize (shortPrelim a x y E).2.2 = s at *
  obtain ⟨hS, hC⟩ := double_angle hcs
  have hC' : |1 - 2 * s * s| ≤ 1 := by
    rw [show 1 - 2 * s * s = 2 * c * c - 1 by linear_combination -2 * hcs]; exact hC
  have hsi := sin_sq_add_cos_sq e.xincl
  refine ⟨xnodes + (SGP_initOf k2 j3 e).d3o * (2 * s * c) / (p * p), e.xincl + (SGP_initOf k2 j3 e).d4o / (p * p) * (1 - 2 * s * s),
    r + (SGP_initOf k2 j3 e).d1o / p * (1 - 2 * s * s), ?_, ?_, ?_, ?_, ?_, ?_, ?_⟩
  · rw [add_sub_cancel_left, show (SGP_initOf k2 j3 e).d3o * (2 * s * c) / (p * p) = 3 / 2 * k2 / p ^ 2 * cos e.xincl * (2 * s * c) by
      simp only [SGP_initOf]; ring]
    have := abs_le_of_mul (k := 3 / 2 * k2 / p ^ 2) (by positivity) zero_le_one (abs_cos_le_one e.xincl) hS
    rwa [mul_one] at this
  · rw [add_sub_cancel_left, show (SGP_initOf k2 j3 e).d4o / (p * p) * (1 - 2 * s * s)
      = 3 / 2 * k2 / p ^ 2 * (cos e.xincl * sin e.xincl) * (1 - 2 * s * s) by simp only [SGP_initOf]; ring]
    have hcis : |cos e.xincl * sin e.xincl| ≤ 1 / 2 := by
      rw [abs_le]; constructor <;> nlinarith [sq_nonneg (cos e.xincl + sin e.xincl), sq_nonneg (cos e.xincl - sin e.xincl)]
    refine le_trans (abs_le_of_mul (k := 3 / 2 * k2 / p ^ 2) (by positivity) (by norm_num) hcis hC') (le_of_eq ?_)
    ring
  · rw [show pv = _ from hpv]
    exact (frame_plane _ _ _ _ 0).2.1
  · rw [show pv = _ from hpv]
    exact (frame_plane _ _ _ _ _).1
  · rw [show pv = _ from hpv]
    exact ((frame_plane _ _ _ _ 0).2.2).trans (by rw [abs_mul, abs_of_pos earthRadius_pos])
  · rw [add_sub_cancel_left, show (SGP_initOf k2 j3 e).d1o / p * (1 - 2 * s * s) = k2 / (2 * p) * sin e.xincl ^ 2 * (1 - 2 * s * s) by
      simp only [SGP_initOf]; ring]
    have h1 : |sin e.xincl ^ 2| ≤ 1 := by
      rw [abs_of_nonneg (sq_nonneg _)]; nlinarith [sq_nonneg (cos e.xincl)]
    have := abs_le_of_mul (k := k2 / (2 * p)) (by positivity) zero_le_one h1 hC'
    rwa [mul_one] at this
  · rw [show pv = _ from hpv]
    have hq : sqrt a ^ 2 = a := sq_sqrt ha.le
    have hb : sqrt (a * (1 - (x * x + y * y))) ^ 2 = a * (1 - (x * x + y * y)) := sq_sqrt hp.le
    refine (frame_norm _ _ _ _ _).trans ?_
    unfold shortRates
    dsimp only
    rw [hr]
    have hE := sin_sq_add_cos_sq E
    have e1 : (xke * √a * (x * sin E - y * cos E) / r * earthRadius) ^ 2 + (xke * √(a * (1 - (x * x + y * y))) / r * earthRadius) ^ 2
        = xke ^ 2 * earthRadius ^ 2 / r ^ 2 * (√a ^ 2 * (x * sin E - y * cos E) ^ 2 + √(a * (1 - (x * x + y * y))) ^ 2) := by
      field_simp
    rw [e1, hq, hb]
    have e2 : a * (x * sin E - y * cos E) ^ 2 + a * (1 - (x * x + y * y)) = (2 * a - r) * r / a := by
      simp only [r]
      field_simp
      linear_combination (x ^ 2 + y ^ 2) * hE
    rw [e2]
    field_simp

/-- At the perigee of an orbit with eccentricity 1/2 the speed is that of the law of energy. -/
example : (2 / (2 * (1 - (1 / 2 * cos 0 + 0 * sin 0))) - 1 / 2 : ℝ) = 3 / 2 := by norm_num

end SatSky.Props
