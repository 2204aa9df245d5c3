import Verif.Spec.LongPeriod
import Verif.Props.Zonal
import Verif.Props.Sgp8Orbit
import Verif.Props.Sdp8
import Verif.Model.Sgp

/-! C160, C161: the terms of SGP8, of SGP4 and of SGP for the third zonal harmonic. -/

namespace SatSky.Props

open Real SatSky.Sxp SatSky.Sgp8 SatSky.Spec SatSky.Sdp8

/-! ### The slow variation -/

theorem sin_turn {k : ℕ} (hk : k ≠ 0) (φ : ℝ) : ∫ v in (0)..(2 * π), sin (k * v + φ) = 0 := by
  have hk' : (k : ℝ) ≠ 0 := Nat.cast_ne_zero.2 hk
  rw [intervalIntegral.integral_comp_mul_add (fun x => sin x) hk', integral_sin]
  rw [show (k : ℝ) * (2 * π) + φ = φ + k * (2 * π) by ring, cos_add_nat_mul_two_pi]
  simp

theorem sin_back (φ : ℝ) : ∫ v in (0)..(2 * π), sin (φ - v) = 0 := by
  rw [intervalIntegral.integral_comp_sub_left (fun x => sin x), integral_sin, cos_sub_two_pi, sub_zero, sub_self]

theorem third_split (e A B g v : ℝ) : (1 + e * cos v) ^ 2 * (A * sin (g + v) ^ 3 + B * sin (g + v))
    = (A * (3 / 4) + B) * ((1 + e ^ 2 / 2) * sin ((1 : ℕ) * v + g) + e * sin ((2 : ℕ) * v + g) + e * sin g
        + e ^ 2 / 4 * sin ((3 : ℕ) * v + g) + e ^ 2 / 4 * sin (g - v))
      - A / 4 * ((1 + e ^ 2 / 2) * sin ((3 : ℕ) * v + 3 * g) + e * sin ((4 : ℕ) * v + 3 * g) + e * sin ((2 : ℕ) * v + 3 * g)
        + e ^ 2 / 4 * sin ((5 : ℕ) * v + 3 * g) + e ^ 2 / 4 * sin ((1 : ℕ) * v + 3 * g)) := by
  push_cast
  have h3 : sin (3 * (g + v)) = 3 * sin (g + v) - 4 * sin (g + v) ^ 3 := sin_three_mul _
  have e3 : sin (g + v) ^ 3 = 3 / 4 * sin (g + v) - 1 / 4 * sin (3 * (g + v)) := by linarith
  have hc : cos (2 * v) = 2 * cos v ^ 2 - 1 := cos_two_mul v
  have p : ∀ x y : ℝ, sin (x + y) + sin (x - y) = 2 * sin x * cos y := fun x y => by rw [sin_add, sin_sub]; ring
  have p1 := p (g + v) v
  have p2 := p (g + v) (2 * v)
  have p3 := p (3 * (g + v)) v
  have p4 := p (3 * (g + v)) (2 * v)
  rw [show g + v + v = 2 * v + g by ring, show g + v - v = g by ring] at p1
  rw [show g + v + 2 * v = 3 * v + g by ring, show g + v - 2 * v = g - v by ring, hc] at p2
  rw [show 3 * (g + v) + v = 4 * v + 3 * g by ring, show 3 * (g + v) - v = 2 * v + 3 * g by ring] at p3
  rw [show 3 * (g + v) + 2 * v = 5 * v + 3 * g by ring, show 3 * (g + v) - 2 * v = 1 * v + 3 * g by ring, hc] at p4
  rw [e3, show (3 : ℝ) * v + 3 * g = 3 * (g + v) by ring, show (1 : ℝ) * v + g = g + v by ring]
  linear_combination -(A * (3 / 4) + B) * e * p1 - (A * (3 / 4) + B) * (e ^ 2 / 4) * p2 + A / 4 * e * p3 + A / 4 * (e ^ 2 / 4) * p4

theorem third_integral (e A B g : ℝ) :
    ∫ v in (0)..(2 * π), (1 + e * cos v) ^ 2 * (A * sin (g + v) ^ 3 + B * sin (g + v)) = 2 * π * ((A * (3 / 4) + B) * e * sin g) := by
  simp only [third_split]
  have ii : ∀ f : ℝ → ℝ, Continuous f → IntervalIntegrable f MeasureTheory.volume 0 (2 * π) := fun f hf => hf.intervalIntegrable _ _
  rw [intervalIntegral.integral_sub (ii _ (by fun_prop)) (ii _ (by fun_prop)), intervalIntegral.integral_const_mul, intervalIntegral.integral_const_mul]
  iterate 4 rw [intervalIntegral.integral_add (ii _ (by fun_prop)) (ii _ (by fun_prop))]
  iterate 4 rw [intervalIntegral.integral_add (ii _ (by fun_prop)) (ii _ (by fun_prop))]
  simp only [intervalIntegral.integral_const_mul, sin_turn (show (1 : ℕ) ≠ 0 by norm_num), sin_turn (show (2 : ℕ) ≠ 0 by norm_num),
    sin_turn (show (3 : ℕ) ≠ 0 by norm_num), sin_turn (show (4 : ℕ) ≠ 0 by norm_num), sin_turn (show (5 : ℕ) ≠ 0 by norm_num), sin_back,
    intervalIntegral.integral_const, smul_eq_mul]
  ring

/-- The third harmonic, averaged over the orbit. -/
theorem mean_pear (μ J3 : ℝ) {a e : ℝ} (i h g : ℝ) (ha : 0 < a) (he : 0 < e) (he1 : e < 1) :
    meanOverPass a e i h g (pear μ J3) = -(3 / 8) * μ * J3 * sin i * (1 - 5 * cos i ^ 2) * e * sin g / (a ^ 2 * √(1 - e ^ 2) * (a * (1 - e ^ 2)) ^ 2) := by
  have he2 : 0 < 1 - e ^ 2 := by nlinarith
  have hq : 0 < √(1 - e ^ 2) := sqrt_pos.mpr he2
  have hpos : ∀ v, 0 < 1 + e * cos v := fun v => by nlinarith [neg_one_le_cos v, cos_le_one v]
  have hr : ∀ v, 0 < conicRadius a e v := fun v => div_pos (mul_pos ha he2) (hpos v)
  have key : ∀ v, pear μ J3 (conicPos a e i h g v) * (conicRadius a e v ^ 2 / (a ^ 2 * √(1 - e ^ 2)))
      = -(μ * J3 / (2 * (a ^ 2 * √(1 - e ^ 2) * (a * (1 - e ^ 2)) ^ 2)))
        * ((1 + e * cos v) ^ 2 * (5 * sin i ^ 3 * sin (g + v) ^ 3 + -3 * sin i * sin (g + v))) := fun v => by
    unfold pear
    rw [conicPos_len i h g v (hr v).le, conicPos_z, mul_div_cancel_left₀ _ (hr v).ne']
    unfold conicRadius
    have := hpos v
    generalize sin (g + v) = S at *
    generalize √(1 - e ^ 2) = q at *
    generalize 1 + e * cos v = x at *
    generalize 1 - e ^ 2 = y at *
    field_simp
    ring
  unfold meanOverPass
  simp only [key]
  rw [intervalIntegral.integral_const_mul, third_integral]
  have hp := pi_pos
  have hs : sin i ^ 3 = sin i * (1 - cos i ^ 2) := by linear_combination sin i * sin_sq_add_cos_sq i
  rw [hs]
  generalize √(1 - e ^ 2) = q at *
  generalize 1 - e ^ 2 = y at *
  field_simp
  ring

/-- The rate of the perigee by the oblateness. -/
theorem perigee_rate {J2 n a e i h g hdot gdot ldot : ℝ} (ha : 0 < a) (hn : 0 < n) (he : 0 < e) (he1 : e < 1) (hi : sin i ≠ 0)
    (hL : Lagrange (fun x y z w _ => secularMean x y z w (zonal (n ^ 2 * a ^ 3) J2 0)) n a e i h g 0 0 hdot gdot ldot) :
    gdot = -(3 / 4) * J2 * n * (1 - 5 * cos i ^ 2) / (a * (1 - e ^ 2)) ^ 2 := by
  obtain ⟨h', g', l', hL', -, hg, -⟩ := C108_zonal J2 0 n a e i h g ha hn he he1 hi
  have e1 : gdot = g' := by rw [hL.arg, hL'.arg, hL.node, hL'.node]
  rw [e1]
  have he2 : 0 < 1 - e ^ 2 := by nlinarith
  have hr : HasDerivAt (fun ε => omgdotOf (ε * (J2 / 2)) (ε * (-(3 / 8) * 0)) ⟨cos i, cos i * cos i, e * e, 1 - e * e, √(1 - e * e), n, a⟩)
      (-(3 / 4) * J2 * n * (1 - 5 * cos i ^ 2) / (a * (1 - e ^ 2)) ^ 2) 0 := by
    refine linear_rate (c := 0) (x := 3 * (J2 / 2) / (a * (1 - e ^ 2)) ^ 2 * n * (5 * cos i ^ 2 - 1) / 2)
      (y := 3 * (J2 / 2) ^ 2 / (a * (1 - e ^ 2)) ^ 4 * n * (7 - 114 * cos i ^ 2 + 395 * cos i ^ 4) / 16) (fun ε => ?_) ?_
    · simp only [omgdotOf, show 1 - e * e = 1 - e ^ 2 by ring]
      generalize 1 - e ^ 2 = y at *
      field_simp
      ring
    · generalize 1 - e ^ 2 = y at *
      field_simp
      ring
  have := hg.unique hr
  simpa using this

/-- The generator of the slow variation; `A` is `-J3 / (J2 / 2)`. -/
noncomputable def slow (μ A : ℝ) (a e i _h g : ℝ) : ℝ := √μ * (A / 4) * e * sin i * cos g / √(a * (1 - e ^ 2))

theorem sqrt_axis {n a μ e : ℝ} (hn : 0 < n) (ha : 0 < a) (hμ : n ^ 2 * a ^ 3 = μ) (he : 0 < 1 - e ^ 2) :
    √μ / √(a * (1 - e ^ 2)) = n * a / √(1 - e ^ 2) := by
  have h1 : √μ = n * a * √a := by
    rw [← hμ, show n ^ 2 * a ^ 3 = (n * a) ^ 2 * a by ring, sqrt_mul (by positivity), sqrt_sq (by positivity)]
  have h2 := sqrt_pos.2 ha
  have h3 := sqrt_pos.2 he
  rw [h1, sqrt_mul ha.le]
  field_simp

/-- C160: the generator. -/
theorem C160_generator {μ J2 J3 : ℝ} (h2 : J2 ≠ 0) : LongPeriod μ J2 J3 (slow μ (-J3 / (J2 / 2))) := by
  intro n a e i h hn ha hμ he he1 hi
  have he2 : 0 < 1 - e ^ 2 := by nlinarith
  have hq : 0 < √(1 - e ^ 2) := sqrt_pos.mpr he2
  have hs := sq_sqrt he2.le
  have e1 : ∀ g, slow μ (-J3 / (J2 / 2)) a e i h g = n * a / √(1 - e ^ 2) * (-J3 / (J2 / 2) / 4) * e * sin i * cos g := fun g => by
    rw [← sqrt_axis hn ha hμ he2]
    unfold slow
    ring
  constructor
  · simp only [e1]
    rw [intervalIntegral.integral_const_mul, integral_cos]
    simp
  · intro g hdot gdot ldot hL
    refine ⟨n * a / √(1 - e ^ 2) * (-J3 / (J2 / 2) / 4) * e * sin i * -sin g, ?_, ?_⟩
    · simp only [e1]
      exact (hasDerivAt_cos g).const_mul _
    · rw [← hμ] at hL
      rw [perigee_rate ha hn he he1 hi hL, mean_pear μ J3 i h g ha he he1, ← hμ]
      generalize √(1 - e ^ 2) = q at *
      generalize 1 - e ^ 2 = y at *
      field_simp
      ring

/-! ### The displacement -/

/-- What Lagrange's equations give for the generator. -/
theorem slow_rates {μ n a e i h g : ℝ} (hn : 0 < n) (ha : 0 < a) (hμ : n ^ 2 * a ^ 3 = μ) (he : 0 < e) (he1 : e < 1) (hi : sin i ≠ 0)
    (de di dh dg dl : ℝ) :
    Lagrange (slow μ 1) n a e i h g de di dh dg dl ↔ de = sin i * sin g / (4 * a) ∧ di = -(cos i * e * sin g) / (4 * (a * (1 - e ^ 2))) ∧
      dh = cos i * e * cos g / (4 * (a * (1 - e ^ 2)) * sin i) ∧
      dg = sin i * cos g / (4 * (a * (1 - e ^ 2)) * e) - cos i * (cos i * e * cos g / (4 * (a * (1 - e ^ 2)) * sin i)) ∧
      dl = -(sin i * cos g * √(1 - e ^ 2)) / (4 * a * e) := by
  have he2 : 0 < 1 - e ^ 2 := by nlinarith
  have hq : 0 < √(1 - e ^ 2) := sqrt_pos.mpr he2
  have hs := sq_sqrt he2.le
  have hax := sqrt_axis hn ha hμ he2
  have hp : 0 < a * (1 - e ^ 2) := mul_pos ha he2
  have hsp := sqrt_pos.2 hp
  have e1 : ∀ i g, slow μ 1 a e i h g = n * a / √(1 - e ^ 2) * (1 / 4) * e * sin i * cos g := fun i g => by
    rw [← hax]
    unfold slow
    ring
  have dG : HasDerivAt (fun x => slow μ 1 a e i h x) (n * a / √(1 - e ^ 2) * (1 / 4) * e * sin i * -sin g) g := by
    simp only [e1]
    exact (hasDerivAt_cos g).const_mul _
  have dI : HasDerivAt (fun x => slow μ 1 a e x h g) (n * a / √(1 - e ^ 2) * (1 / 4) * e * cos i * cos g) i := by
    simp only [e1]
    exact ((hasDerivAt_sin i).const_mul _).mul_const _
  have dH : HasDerivAt (fun x => slow μ 1 a e i x g) 0 h := hasDerivAt_const _ _
  have dA : HasDerivAt (fun x => slow μ 1 x e i h g) (-(n * a / √(1 - e ^ 2) * (1 / 4) * e * sin i * cos g) / (2 * a)) a := by
    have d := ((hasDerivAt_id a).mul_const (1 - e ^ 2)).sqrt hp.ne'
    refine hda' ((hasDerivAt_const a (√μ * (1 / 4) * e * sin i * cos g)).div d hsp.ne') (fun x => rfl) ?_
    have h4 : √(a * (1 - e ^ 2)) ^ 2 = a * (1 - e ^ 2) := sq_sqrt hp.le
    rw [show n * a / √(1 - e ^ 2) * (1 / 4) * e * sin i * cos g = √μ / √(a * (1 - e ^ 2)) * ((1 / 4) * e * sin i * cos g) by rw [hax]; ring]
    simp only [id, one_mul]
    generalize √(a * (1 - e ^ 2)) = z at *
    generalize 1 - e ^ 2 = y at *
    field_simp
    rw [h4]
    ring
  have dE : HasDerivAt (fun x => slow μ 1 a x i h g) (n * a / √(1 - e ^ 2) ^ 3 * (1 / 4) * sin i * cos g) e := by
    have d := (((hasDerivAt_pow 2 e).const_sub 1).const_mul a).sqrt hp.ne'
    refine hda' (((((hasDerivAt_id e).const_mul (√μ * (1 / 4))).mul_const (sin i)).mul_const (cos g)).div d hsp.ne') (fun x => rfl) ?_
    have h4 : √(a * (1 - e ^ 2)) ^ 2 = a * (1 - e ^ 2) := sq_sqrt hp.le
    have h5 : n * a / √(1 - e ^ 2) ^ 3 * (1 / 4) * sin i * cos g = √μ / √(a * (1 - e ^ 2)) * (1 / 4) * sin i * cos g / (1 - e ^ 2) := by
      rw [hax]
      generalize √(1 - e ^ 2) = q at *
      rw [← hs]
      field_simp
    rw [h5]
    simp only [id, Nat.cast_ofNat, Nat.add_one_sub_one, pow_one, mul_one]
    generalize √(a * (1 - e ^ 2)) = z at *
    have h6 : a * e ^ 2 = a - z ^ 2 := by rw [h4]; ring
    field_simp
    rw [h4]
    ring
  constructor
  · intro hL
    have hH := hL.node
    have hG := hL.arg
    rw [hH] at hG
    refine ⟨hL.ecc.trans ?_, hL.inc.trans ?_, hH.trans ?_, hG.trans ?_, hL.anomaly.trans ?_⟩
    all_goals
      simp only [dG.deriv, dI.deriv, dH.deriv, dA.deriv, dE.deriv]
      generalize √(1 - e ^ 2) = q at *
      try rw [← hs]
      field_simp
    · ring
    · linear_combination cos g * hs
  · rintro ⟨rfl, rfl, rfl, rfl, rfl⟩
    refine ⟨⟨dA.differentiableAt, dE.differentiableAt, dI.differentiableAt, dH.differentiableAt, dG.differentiableAt⟩, ?_, ?_, ?_, ?_, ?_⟩
    all_goals
      simp only [dG.deriv, dI.deriv, dH.deriv, dA.deriv, dE.deriv]
      generalize √(1 - e ^ 2) = q at *
      try rw [← hs]
      field_simp
    · ring
    · linear_combination -cos g * hs

/-- How a point of an ellipse moves with the elements. -/
theorem orbit_moves {ec ic hc gc Ec : ℝ → ℝ} {de di dh dg dE x : ℝ} (a : ℝ) (he : 0 < 1 - ec x ^ 2) (h1 : HasDerivAt ec de x) (h2 : HasDerivAt ic di x)
    (h3 : HasDerivAt hc dh x) (h4 : HasDerivAt gc dg x) (h5 : HasDerivAt Ec dE x) :
    let X := a * (cos (Ec x) - ec x)
    let Y := a * √(1 - ec x ^ 2) * sin (Ec x)
    HasVel (fun ε => orbitPos a (ec ε) (ic ε) (hc ε) (gc ε) (Ec ε))
      (inFrame (gc x) (hc x) (ic x)
        (a * (-sin (Ec x) * dE - de) - Y * (dg + cos (ic x) * dh))
        (a * (√(1 - ec x ^ 2) * (cos (Ec x) * dE) - ec x * de / √(1 - ec x ^ 2) * sin (Ec x)) + X * (dg + cos (ic x) * dh))
        (X * (sin (gc x) * di - cos (gc x) * sin (ic x) * dh) + Y * (cos (gc x) * di + sin (gc x) * sin (ic x) * dh))) x := by
  intro X Y
  have hq := sqrt_pos.2 he
  have dX : HasDerivAt (fun ε => a * (cos (Ec ε) - ec ε)) (a * (-sin (Ec x) * dE - de)) x := (h5.cos.sub h1).const_mul a
  have dY : HasDerivAt (fun ε => a * √(1 - ec ε ^ 2) * sin (Ec ε))
      (a * (√(1 - ec x ^ 2) * (cos (Ec x) * dE) - ec x * de / √(1 - ec x ^ 2) * sin (Ec x))) x := by
    refine hda' (((((h1.pow 2).const_sub 1).sqrt he.ne').const_mul a).mul h5.sin) (fun _ => rfl) ?_
    simp only [Nat.cast_ofNat, Nat.add_one_sub_one, pow_one, Pi.pow_apply]
    field_simp
    ring
  have hU := scaled_deriv dX (orientU_deriv h4 h3 h2)
  have hV := scaled_deriv dY (orientV_deriv h4 h3 h2)
  refine hasVel_congr (sum_deriv hU hV) (funext fun ε => ?_) ?_
  · unfold orbitPos apse latus orientU orientV
    ext <;> simp only [V3.add, V3.smul] <;> ring
  · simp only [inFrame, X, Y]
    ext <;> simp only [V3.add, V3.smul] <;> ring

theorem inFrame_turn (f g h i A B C : ℝ) : inFrame (f + g) h i A B C = inFrame g h i (cos f * A - sin f * B) (sin f * A + cos f * B) C := by
  unfold inFrame orientU orientV
  rw [sin_add, cos_add]
  ext <;> simp only [V3.add, V3.smul] <;> ring

/-- Position of SGP8 to the first order in the third harmonic alone. -/
theorem short8_third {p : Par8} {i : ℝ} (hp : Inclined8 p i) (hi : 0 < cos (i / 2)) (hi0 : sin i ≠ 0) {m : Mean8} (hn : 0 < m.xn) (he : 0 ≤ m.em) (he1 : m.em < 1)
    (E : ℝ) :
    let a := (xke / m.xn) ^ (2 / 3 : ℝ)
    let f := fm8 m.em E
    let u := f + m.omgasm
    let q := a * (1 - m.em ^ 2)
    HasVel (fun α => (posVel8 (short8 0 α p m E)).1)
      (inFrame u m.xnodes i (earthRadius * (-(sin i * sin u) / 4))
        (earthRadius * (a * (1 - m.em * cos E) * (-(sin i * cos u * (2 + m.em * cos f)) / (4 * q))))
        (earthRadius * (a * (1 - m.em * cos E) * (sin u * (-(cos i * m.em * sin m.omgasm) / (4 * q))
          - cos u * sin i * (cos i * m.em * cos m.omgasm / (4 * q * sin i)))))) 0 := by
  intro a f u q
  have ha : 0 < a := rpow_pos_of_pos (div_pos xke_pos' hn) _
  have ea : (xke / m.xn) ^ (2 / 3 : ℝ) = a := rfl
  obtain ⟨f1, f2, -, -⟩ := fm8_polar he he1 E
  have hf : 0 < 1 - m.em * cos E := by nlinarith [neg_one_le_cos E, cos_le_one E]
  have hb : 0 < 1 - m.em ^ 2 := by nlinarith
  have hq : 0 < q := mul_pos ha hb
  have hsn : √(1 - m.em * m.em) * sin E * (1 / (1 - m.em * cos E)) = sin f := by simp only [f]; rw [f2]; ring
  have hcs : (cos E - m.em) * (1 / (1 - m.em * cos E)) = cos f := by simp only [f]; rw [f1]; ring
  have h1 : 1 + m.em * cos f = (1 - m.em ^ 2) / (1 - m.em * cos E) := by
    simp only [f]; rw [f1]; field_simp; ring
  have su : sin f * cos m.omgasm + cos f * sin m.omgasm = sin u := by simp only [u]; rw [sin_add]
  have cu : cos f * cos m.omgasm - sin f * sin m.omgasm = cos u := by simp only [u]; rw [cos_add]
  have eq' : a * (1 - m.em * m.em) = q := by simp only [q]; ring
  have hrm : q / (m.em * cos f + 1) = a * (1 - m.em * cos E) := by
    rw [add_comm, h1]
    simp only [q]
    generalize 1 - m.em ^ 2 = y at *
    field_simp
  have s2 : sin i = 2 * sin (i / 2) * cos (i / 2) := by rw [← sin_two_mul]; ring_nf
  have c2 : cos i = 2 * cos (i / 2) ^ 2 - 1 := by rw [← cos_two_mul]; ring_nf
  have hs2 : sin (i / 2) ≠ 0 := fun h => hi0 (by rw [s2, h]; ring)
  have sh : ∀ α, short8 0 α p m E = { short8 0 α p m E with
      rr := a * (1 - m.em * cos E) + α * (-(sin i * sin u) / 4)
      xlamb := u + m.xnodes + α * (sin i / (4 * q) * (cos i * (m.em * cos m.omgasm) / (cos i + 1) - (2 + m.em * cos f) * cos u))
      y4 := sin (i / 2) * sin u + α * (cos u * (-(sin (i / 2) * (sin i * cos u * (2 + m.em * cos f)) / (4 * q)) - cos i ^ 2 * (m.em * cos m.omgasm) / (8 * q * cos (i / 2)))
        + sin u * (1 / 2) * cos (i / 2) * (-(cos i * m.em * sin m.omgasm) / (4 * q)))
      y5 := sin (i / 2) * cos u + α * (-sin u * (-(sin (i / 2) * (sin i * cos u * (2 + m.em * cos f)) / (4 * q)) - cos i ^ 2 * (m.em * cos m.omgasm) / (8 * q * cos (i / 2)))
        + cos u * (1 / 2) * cos (i / 2) * (-(cos i * m.em * sin m.omgasm) / (4 * q))) } := fun α => by
    simp only [short8, hsn, hcs, su, cu, ea, eq', hrm, hp.sini2, hp.cosi2, hp.sini, hp.cosi, hp.cosio2, zero_mul, mul_zero, add_zero, sub_zero, zero_sub, zero_add,
      Short8.mk.injEq, true_and]
    refine ⟨?_, ?_, ?_, ?_⟩
    · ring
    · simp only [u, f]
      ring
    · ring
    · ring
  have hci : cos i + 1 ≠ 0 := by rw [c2]; nlinarith [pow_pos hi 2]
  have lin : ∀ c d : ℝ, HasDerivAt (fun α : ℝ => c + α * d) d 0 := fun c d => by simpa using ((hasDerivAt_id (0 : ℝ)).mul_const d).const_add c
  have dL : HasDerivAt (fun α => u + m.xnodes + α * (sin i / (4 * q) * (cos i * (m.em * cos m.omgasm) / (cos i + 1) - (2 + m.em * cos f) * cos u)))
      ((-(sin i * cos u * (2 + m.em * cos f)) / (4 * q) - cos i * (cos i * m.em * cos m.omgasm / (4 * q * sin i)))
        + cos i * m.em * cos m.omgasm / (4 * q * sin i)) 0 := by
    refine (lin _ _).congr_deriv ?_
    have hsc := sin_sq_add_cos_sq i
    generalize cos f = F at *
    generalize cos u = C at *
    clear_value q
    field_simp
    linear_combination (m.em * cos m.omgasm * cos i) * hsc
  have dy : HasDerivAt (fun α => sin (i / 2) * sin u + α * (cos u * (-(sin (i / 2) * (sin i * cos u * (2 + m.em * cos f)) / (4 * q))
        - cos i ^ 2 * (m.em * cos m.omgasm) / (8 * q * cos (i / 2))) + sin u * (1 / 2) * cos (i / 2) * (-(cos i * m.em * sin m.omgasm) / (4 * q))))
      (cos (i / 2) * (-(cos i * m.em * sin m.omgasm) / (4 * q) / 2) * sin u + sin (i / 2) * (cos u
        * (-(sin i * cos u * (2 + m.em * cos f)) / (4 * q) - cos i * (cos i * m.em * cos m.omgasm / (4 * q * sin i))))) 0 := by
    refine (lin _ _).congr_deriv ?_
    generalize cos f = F at *
    generalize cos u = C at *
    generalize sin u = S at *
    clear_value q
    rw [s2]
    field_simp
    ring
  have dz : HasDerivAt (fun α => sin (i / 2) * cos u + α * (-sin u * (-(sin (i / 2) * (sin i * cos u * (2 + m.em * cos f)) / (4 * q))
        - cos i ^ 2 * (m.em * cos m.omgasm) / (8 * q * cos (i / 2))) + cos u * (1 / 2) * cos (i / 2) * (-(cos i * m.em * sin m.omgasm) / (4 * q))))
      (cos (i / 2) * (-(cos i * m.em * sin m.omgasm) / (4 * q) / 2) * cos u + sin (i / 2) * (-sin u
        * (-(sin i * cos u * (2 + m.em * cos f)) / (4 * q) - cos i * (cos i * m.em * cos m.omgasm / (4 * q * sin i))))) 0 := by
    refine (lin _ _).congr_deriv ?_
    generalize cos f = F at *
    generalize cos u = C at *
    generalize sin u = S at *
    clear_value q
    rw [s2]
    field_simp
    ring
  obtain ⟨o1, -⟩ := orient8_deriv (u := u) (h := m.xnodes) (i := i) hi (by simp) (by simp) (by simp) dL dy dz
  have := scaled_deriv ((lin (a * (1 - m.em * cos E)) (-(sin i * sin u) / 4)).const_mul earthRadius) o1
  refine hasVel_congr this (funext fun α => ?_) ?_
  · rw [sh α]
    unfold posVel8
    ext <;> simp only [V3.smul] <;> ring
  · simp only [zero_mul, add_zero]
    rw [(C151_orientation u m.xnodes i hi.le).1]
    unfold inFrame
    ext <;> simp only [V3.add, V3.smul] <;> ring

theorem slow_linear (μ A a e i h g : ℝ) : slow μ A a e i h g = A * slow μ 1 a e i h g := by
  unfold slow
  ring

theorem axis_law {n : ℝ} (hn : 0 < n) : n ^ 2 * ((xke / n) ^ (2 / 3 : ℝ)) ^ 3 = xke ^ 2 := by
  have hk := xke_pos'
  have h1 : 0 < xke / n := div_pos hk hn
  rw [← rpow_natCast ((xke / n) ^ (2 / 3 : ℝ)) 3, ← rpow_mul h1.le, show (2 / 3 : ℝ) * (3 : ℕ) = (2 : ℕ) by norm_num, rpow_natCast]
  field_simp

/-- C160: to the first order the position of SGP8 moves with the third harmonic exactly as the point of the ellipse whose elements have the slow variation. -/
theorem C160_position {p : Par8} {i : ℝ} (hp : Inclined8 p i) (hi : 0 < cos (i / 2)) (hi0 : sin i ≠ 0) {m : Mean8} (hn : 0 < m.xn) (he : 0 < m.em) (he1 : m.em < 1)
    {E : ℝ} {ec ic hc gc Ec : ℝ → ℝ}
    (hD : Displaced (slow (xke ^ 2) 1) m.xn ((xke / m.xn) ^ (2 / 3 : ℝ)) m.em i m.xnodes m.omgasm E ec ic hc gc Ec) :
    ∃ v, HasVel (fun α => (posVel8 (short8 0 α p m E)).1) v 0 ∧
      HasVel (fun α => (orbitPos ((xke / m.xn) ^ (2 / 3 : ℝ)) (ec α) (ic α) (hc α) (gc α) (Ec α)).smul earthRadius) v 0 := by
  obtain ⟨⟨s1, s2, s3, s4, s5⟩, sm, de, di, dh, dg, dl, hL, d1, d2, d3, d4, d5⟩ := hD
  have hax := axis_law hn
  have hs := short8_third hp hi hi0 hn he.le he1 E
  have ha : 0 < (xke / m.xn) ^ (2 / 3 : ℝ) := rpow_pos_of_pos (div_pos xke_pos' hn) _
  dsimp only at hs
  generalize (xke / m.xn) ^ (2 / 3 : ℝ) = a at *
  obtain ⟨rfl, rfl, rfl, rfl, rfl⟩ := (slow_rates hn ha hax he he1 hi0 de di dh dg dl).1 hL
  refine ⟨_, hs, ?_⟩
  have dE := sm.hasDerivAt
  have hb : 0 < 1 - m.em ^ 2 := by nlinarith
  have mv := scaled_deriv (hasDerivAt_const (0 : ℝ) earthRadius) (orbit_moves a (by rw [s1]; exact hb) d1 d2 d3 d4 dE)
  rw [s1, s2, s3, s4, s5] at mv
  have kep := d5.unique (dE.sub (d1.mul dE.sin))
  rw [s1, s5] at kep
  obtain ⟨f1, f2, -, -⟩ := fm8_polar he.le he1 E
  have hf : 0 < 1 - m.em * cos E := by nlinarith [neg_one_le_cos E, cos_le_one E]
  have hee : √(1 - m.em * m.em) = √(1 - m.em ^ 2) := by rw [pow_two]
  rw [hee] at f2
  have hq := sqrt_pos.2 hb
  have hq2 := sq_sqrt hb.le
  refine hasVel_congr mv rfl ?_
  rw [inFrame_turn, sin_add, cos_add, f1, f2]
  have hcs := sin_sq_add_cos_sq E
  have kep' : deriv Ec 0 = (-(sin i * cos m.omgasm * √(1 - m.em ^ 2)) / (4 * a * m.em) + sin i * sin m.omgasm / (4 * a) * sin E) / (1 - m.em * cos E) := by
    rw [eq_div_iff hf.ne']
    linear_combination -kep
  rw [kep']
  generalize √(1 - m.em ^ 2) = b at *
  generalize m.em = e at *
  generalize m.omgasm = g at *
  generalize m.xnodes = h at *
  have hS : sin E ^ 2 = 1 - cos E ^ 2 := by linarith
  generalize sin E = S at *
  generalize cos E = C at *
  rw [← hq2]
  have key : ∀ {A B C' A' B' D : ℝ}, A = earthRadius * A' → B = earthRadius * B' → C' = earthRadius * D →
      inFrame g h i A B C' = (V3.smul 0 (orbitPos a e i h g E)).add (V3.smul earthRadius (inFrame g h i A' B' D)) := by
    rintro A B C' A' B' D rfl rfl rfl
    unfold inFrame
    ext <;> simp only [V3.add, V3.smul] <;> ring
  refine key ?_ ?_ ?_
  · clear * - ha he hf hq hq2 hS hi0
    have hf' : 1 - C * e ≠ 0 := by rw [mul_comm]; exact hf.ne'
    field_simp
    generalize sin g = y
    generalize cos g = x
    linear_combination (-earthRadius * b * e * sin i ^ 2 * y * (1 - e ^ 2)) * hS + (-earthRadius * S * sin i ^ 2 * x * (1 - e ^ 2)) * hq2
  · clear * - ha he hf hq hq2 hS hi0
    field_simp
    generalize sin g = y
    generalize cos g = x
    linear_combination (-earthRadius * b ^ 4 * e * sin i ^ 2 * x) * hS + earthRadius * sin i ^ 2 * (-2 * C * S * b * e * y + C * b ^ 2 * x - C * e ^ 2 * x + C * x
      + C ^ 2 * S * b * e ^ 2 * y + S * b * e ^ 2 * y - b ^ 2 * e * x - e * x + e ^ 3 * x) * hq2
  · field_simp
    ring

/-- C160: the coefficient the program uses is the one of the generator. -/
theorem C160_constants : LongPeriod (xke ^ 2) xj2 Sgp.xj3 (fun a e i h g => a3ovk2 * slow (xke ^ 2) 1 a e i h g) := by
  have h2 : xj2 ≠ 0 := by unfold xj2; norm_num
  have h := C160_generator (μ := xke ^ 2) (J3 := Sgp.xj3) h2
  rw [show (fun a e i h g => a3ovk2 * slow (xke ^ 2) 1 a e i h g) = slow (xke ^ 2) (-Sgp.xj3 / (xj2 / 2)) from ?_]
  · exact h
  · funext a e i h g
    rw [slow_linear _ (-Sgp.xj3 / (xj2 / 2))]
    congr 1
    unfold a3ovk2 Sgp.xj3 ck2
    ring

/-- There are such curves of elements. -/
theorem displaced_exists {μ n a e i : ℝ} (hn : 0 < n) (ha : 0 < a) (hμ : n ^ 2 * a ^ 3 = μ) (he : 0 < e) (he1 : e < 1) (hi : sin i ≠ 0) (h g E : ℝ) :
    ∃ ec ic hc gc Ec, Displaced (slow μ 1) n a e i h g E ec ic hc gc Ec := by
  have lin : ∀ c d : ℝ, HasDerivAt (fun α : ℝ => c + α * d) d 0 := fun c d => by simpa using ((hasDerivAt_id (0 : ℝ)).mul_const d).const_add c
  have hf : 0 < 1 - e * cos E := by nlinarith [neg_one_le_cos E, cos_le_one E]
  obtain ⟨de, di, dh, dg, dl, hL⟩ : ∃ de di dh dg dl, Lagrange (slow μ 1) n a e i h g de di dh dg dl :=
    ⟨_, _, _, _, _, (slow_rates hn ha hμ he he1 hi _ _ _ _ _).2 ⟨rfl, rfl, rfl, rfl, rfl⟩⟩
  have hE := lin E ((dl + de * sin E) / (1 - e * cos E))
  refine ⟨fun α => e + α * de, fun α => i + α * di, fun α => h + α * dh, fun α => g + α * dg, fun α => E + α * ((dl + de * sin E) / (1 - e * cos E)),
    ⟨by simp, by simp, by simp, by simp, by simp⟩, hE.differentiableAt, de, di, dh, dg, dl, hL, lin _ _, lin _ _, lin _ _, lin _ _, ?_⟩
  refine hda' (hE.sub ((lin e de).mul hE.sin)) (fun _ => rfl) ?_
  simp only [zero_mul, add_zero]
  field_simp
  ring

/-- An orbit of eccentricity 1/2 and inclination 30 degrees whose perigee is 90 degrees from the node. -/
example : ∃ ec ic hc gc Ec, Displaced (slow (xke ^ 2) 1) xke 1 (1 / 2) (π / 6) 0 (π / 2) 0 ec ic hc gc Ec :=
  displaced_exists xke_pos' one_pos (by ring) (by norm_num) (by norm_num) (by rw [sin_pi_div_six]; norm_num) _ _ _

/-- At the perigee of this orbit the height above the plane of the equator decreases by an eighth of the coefficient: one half because the perigee comes
nearer, the other because the plane turns. -/
example : ∃ x y, HasVel (fun α => (posVel8 (short8 0 α (par8 (π / 6)) ⟨xke, 1 / 2, 0, π / 2, 0⟩ 0)).1) ⟨x, y, -(earthRadius / 8)⟩ 0 := by
  have hs : sin (π / 6) ≠ 0 := by rw [sin_pi_div_six]; norm_num
  have hc : 0 < cos (π / 6 / 2) := cos_pos_of_mem_Ioo ⟨by linarith [pi_pos], by linarith [pi_pos]⟩
  have h := short8_third (par8_inclined (π / 6)) hc hs (m := ⟨xke, 1 / 2, 0, π / 2, 0⟩) xke_pos' (by norm_num) (by norm_num) 0
  dsimp only at h
  obtain ⟨f1, f2, -, -⟩ := fm8_polar (e := 1 / 2) (by norm_num) (by norm_num) 0
  have g1 : cos (fm8 (1 / 2) 0) = 1 := by rw [f1]; norm_num
  have g2 : sin (fm8 (1 / 2) 0) = 0 := by rw [f2]; simp
  have h3 : √3 ^ 2 = 3 := sq_sqrt (by norm_num)
  refine ⟨_, _, hasVel_congr h rfl (V3.ext rfl rfl ?_)⟩
  simp only [inFrame, orientU, orientV, orientW, V3.add, V3.smul, sin_add, cos_add, g1, g2, sin_pi_div_two, cos_pi_div_two, div_self xke_pos'.ne', one_rpow,
    sin_pi_div_six, cos_pi_div_six, cos_zero]
  norm_num
  linear_combination (earthRadius / 48) * h3

/-- SDP8 has the same terms, for the inclination its constants were made for. -/
theorem C160_deep {p : Par8d} {i : ℝ} (hp : Inclined8 { par8 i with c := p.c, sini := p.deep.i.sinio, cosi := p.deep.i.cosio, cosio2 := p.deep.i.cosio2 } i)
    (hi : 0 < cos (i / 2)) (hi0 : sin i ≠ 0) {w : Work} (hw : w.xinc = i) (hn : 0 < w.xn) (he : 0 < w.em) (he1 : w.em < 1) (xmam : ℝ)
    {E : ℝ} {ec ic hc gc Ec : ℝ → ℝ}
    (hD : Displaced (slow (xke ^ 2) 1) w.xn ((xke / w.xn) ^ (2 / 3 : ℝ)) w.em i w.xnode w.omgadf E ec ic hc gc Ec) :
    ∃ v, HasVel (fun α => (posVel8 (shortD 0 α p w xmam E)).1) v 0 ∧
      HasVel (fun α => (orbitPos ((xke / w.xn) ^ (2 / 3 : ℝ)) (ec α) (ic α) (hc α) (gc α) (Ec α)).smul earthRadius) v 0 := by
  have h : ∀ α, shortD 0 α p w xmam E = short8 0 α { par8 i with c := p.c, sini := p.deep.i.sinio, cosi := p.deep.i.cosio, cosio2 := p.deep.i.cosio2 }
      ⟨w.xn, w.em, xmam, w.omgadf, w.xnode⟩ E := fun α => by
    have h2 : sin (w.xinc * (1 / 2)) = p.c.sini2 := by
      rw [hw, show i * (1 / 2) = i / 2 by ring]
      exact hp.sini2.symm
    simp only [shortD, short8, h2]
  simp only [h]
  exact C160_position hp hi hi0 (m := ⟨w.xn, w.em, xmam, w.omgadf, w.xnode⟩) hn he he1 hD

/-- The constants `SDP8_init` makes are of this kind. -/
theorem init8_inclined (e : Elem) : Inclined8 { par8 e.xincl with
    c := (SDP8_init e).c, sini := (SDP8_init e).deep.i.sinio, cosi := (SDP8_init e).deep.i.cosio, cosio2 := (SDP8_init e).deep.i.cosio2 } e.xincl := by
  have h : (SDP8_init e).deep.i = init8 e := rfl
  refine ⟨?_, ?_, ?_, ?_, ?_, ?_, ?_, ?_⟩ <;> simp only [h] <;>
    simp only [SDP8_init, init8, sxp8_common_init, sxpall_common_init] <;> ring_nf

/-! ### SGP4 and SGP -/

theorem cube_root_bound {x : ℝ} (h0 : 0 ≤ x) (h1 : x ≤ 1) : |1 - √(1 - x) ^ 3 - 3 / 2 * x| ≤ x ^ 2 / 2 := by
  have hq := sqrt_nonneg (1 - x)
  have hs : √(1 - x) ^ 2 = 1 - x := sq_sqrt (by linarith)
  have hq1 : √(1 - x) ≤ 1 := sqrt_le_one.2 (by linarith)
  generalize √(1 - x) = q at *
  obtain rfl : x = 1 - q ^ 2 := by linarith
  rw [abs_le]
  constructor
  · nlinarith [mul_nonneg (sub_nonneg.2 hq1) (sub_nonneg.2 hq1), mul_nonneg hq (mul_nonneg (sub_nonneg.2 hq1) (sub_nonneg.2 hq1)),
      mul_nonneg (mul_nonneg hq hq) (mul_nonneg (sub_nonneg.2 hq1) (sub_nonneg.2 hq1))]
  · nlinarith [mul_nonneg (sub_nonneg.2 hq1) (sub_nonneg.2 hq1), mul_nonneg hq (mul_nonneg (sub_nonneg.2 hq1) (sub_nonneg.2 hq1)),
      mul_nonneg (mul_nonneg hq hq) (mul_nonneg (sub_nonneg.2 hq1) (sub_nonneg.2 hq1))]

/-- C161: the slow variation of the components of the eccentricity and of the mean longitude, to the leading order in the eccentricity. -/
theorem C161_leading {μ n a e i h g E : ℝ} (hn : 0 < n) (ha : 0 < a) (hμ : n ^ 2 * a ^ 3 = μ) (he : 0 < e) (he1 : e < 1) (hi : 0 < sin i)
    {ec ic hc gc Ec : ℝ → ℝ} (hD : Displaced (slow μ 1) n a e i h g E ec ic hc gc Ec) :
    let p := a * (1 - e ^ 2)
    ∃ dx dy dl, HasDerivAt (fun α => ec α * cos (gc α)) dx 0 ∧ HasDerivAt (fun α => ec α * sin (gc α)) dy 0 ∧
      HasDerivAt (fun α => Ec α - ec α * sin (Ec α) + gc α + hc α) dl 0 ∧
      |dx| ≤ e ^ 2 / (8 * p * sin i) ∧ |dy - sin i / (4 * p)| ≤ e ^ 2 / (4 * p * sin i) ∧
      |dl - sin i * (3 + 5 * cos i) / (8 * p * (1 + cos i)) * (e * cos g)| ≤ e ^ 3 / (8 * p) := by
  intro p
  obtain ⟨⟨s1, s2, s3, s4, s5⟩, sm, de, di, dh, dg, dl, hL, d1, d2, d3, d4, d5⟩ := hD
  obtain ⟨rfl, rfl, rfl, rfl, rfl⟩ := (slow_rates hn ha hμ he he1 hi.ne' de di dh dg dl).1 hL
  have hb : 0 < 1 - e ^ 2 := by nlinarith
  have hp : 0 < p := mul_pos ha hb
  have ep : a * (1 - e ^ 2) = p := rfl
  have hq := sqrt_pos.2 hb
  have hq2 := sq_sqrt hb.le
  have hx := cube_root_bound (sq_nonneg e) (by nlinarith : e ^ 2 ≤ 1)
  refine ⟨_, _, _, d1.mul d4.cos, d1.mul d4.sin, (d5.add d4).add d3, ?_, ?_, ?_⟩
  · rw [s1, s4, ep]
    have hsc := sin_sq_add_cos_sq i
    rw [show sin i * sin g / (4 * a) * cos g + e * (-sin g * (sin i * cos g / (4 * p * e) - cos i * (cos i * e * cos g / (4 * p * sin i))))
      = e ^ 2 / (8 * p * sin i) * ((cos i ^ 2 - sin i ^ 2) * (2 * sin g * cos g)) by
        simp only [p]
        generalize sin i = s at *
        field_simp
        ring]
    rw [abs_mul, abs_of_pos (by positivity)]
    refine mul_le_of_le_one_right (by positivity) ?_
    rw [← sin_two_mul, abs_mul, ← cos_two_mul' i]
    exact mul_le_one₀ (abs_cos_le_one _) (abs_nonneg _) (abs_sin_le_one _)
  · rw [s1, s4, ep]
    have hsg := sin_sq_add_cos_sq g
    have hsi := sin_sq_add_cos_sq i
    rw [show sin i * sin g / (4 * a) * sin g + e * (cos g * (sin i * cos g / (4 * p * e) - cos i * (cos i * e * cos g / (4 * p * sin i)))) - sin i / (4 * p)
      = -(e ^ 2 / (4 * p * sin i) * (sin i ^ 2 * sin g ^ 2 + cos i ^ 2 * cos g ^ 2)) by
        simp only [p]
        generalize sin i = s at *
        field_simp
        linear_combination s ^ 2 * hsg]
    rw [abs_neg, abs_mul, abs_of_pos (by positivity), abs_of_nonneg (by positivity)]
    refine mul_le_of_le_one_right (by positivity) ?_
    nlinarith [mul_nonneg (sq_nonneg (sin i)) (sq_nonneg (cos g)), mul_nonneg (sq_nonneg (cos i)) (sq_nonneg (sin g))]
  · have hsi := sin_sq_add_cos_sq i
    have hc : 0 < 1 + cos i := by
      rcases (neg_one_le_cos i).lt_or_eq with h | h
      · linarith
      · rw [← h] at hsi
        nlinarith
    rw [ep, show -(sin i * cos g * √(1 - e ^ 2)) / (4 * a * e) + (sin i * cos g / (4 * p * e) - cos i * (cos i * e * cos g / (4 * p * sin i)))
        + cos i * e * cos g / (4 * p * sin i) - sin i * (3 + 5 * cos i) / (8 * p * (1 + cos i)) * (e * cos g)
      = cos g * sin i * ((1 - √(1 - e ^ 2) ^ 3 - 3 / 2 * e ^ 2) / (4 * p * e)) by
        simp only [p]
        generalize √(1 - e ^ 2) = q at *
        rw [← hq2]
        generalize sin i = s at *
        generalize cos i = c at *
        field_simp
        linear_combination (-16 * cos g * c * e ^ 2) * hsi]
    rw [abs_mul, abs_mul, abs_div, abs_of_pos (show 0 < 4 * p * e by positivity)]
    refine (mul_le_of_le_one_left (by positivity) (mul_le_one₀ (abs_cos_le_one _) (abs_nonneg _) (abs_sin_le_one _))).trans ?_
    rw [div_le_div_iff₀ (by positivity) (by positivity)]
    calc _ ≤ (e ^ 2) ^ 2 / 2 * (8 * p) := mul_le_mul_of_nonneg_right hx (by positivity)
      _ = e ^ 3 * (4 * p * e) := by ring

/-- C161: SGP4 uses these leading terms, times the coefficient of the generator, for the components of the eccentricity and the longitude from the node. -/
theorem C161_program {m : Mean} {i : ℝ} (hs : m.sinio = sin i) (hc : m.cosio = cos i) :
    let p := m.a * (1 - m.ecc ^ 2)
    m.axn = m.ecc * cos m.omega ∧ m.ayn = m.ecc * sin m.omega + a3ovk2 * (sin i / (4 * p)) ∧
    ∃ k : ℤ, m.capu = m.xl + a3ovk2 * (sin i * (3 + 5 * cos i) / (8 * p * (1 + cos i)) * (m.ecc * cos m.omega)) - m.xnode + k * (2 * π) := by
  intro p
  refine ⟨rfl, ?_, ?_⟩
  · unfold Mean.ayn Mean.temp
    rw [hs, ← pow_two]
    simp only [p, div_eq_mul_inv, mul_inv]
    ring
  · obtain ⟨-, -, k, hk⟩ := C40_centralize (m.xl + m.temp * (1 / 8 * a3ovk2 * m.sinio * (3 + 5 * m.cosio) / (1 + m.cosio)) * m.axn - m.xnode)
    refine ⟨k, ?_⟩
    unfold Mean.capu
    rw [hk]
    unfold Mean.temp Mean.axn
    rw [hs, hc, ← pow_two]
    simp only [p, div_eq_mul_inv, mul_inv]
    ring

/-- C161: SGP uses the same terms. -/
theorem C161_sgp (e : Sgp.ElemN) (t : ℝ) :
    let p := SatSky.Sgp.SGP_init e.toElem
    let m := Sgp.sgpMean p e t
    let ecc := Sgp.eccOf p m.a
    let ω := e.omegao + p.omgdt * t
    let q := m.a * (1 - ecc ^ 2)
    m.axn = ecc * cos ω ∧ m.ayn = ecc * sin ω + a3ovk2 * (sin e.xincl / (4 * q)) ∧
    ∃ k : ℤ, m.u = Sgp.longitudeAt p e t + a3ovk2 * (sin e.xincl * (3 + 5 * cos e.xincl) / (8 * q * (1 + cos e.xincl)) * (ecc * cos ω)) - m.xnodes + k * (2 * π) := by
  intro p m ecc ω q
  have h3 : Sgp.xj3 / (ck2 * 4) = -(a3ovk2 / 4) := by
    unfold Sgp.xj3 a3ovk2
    ring
  have h5 : p.c5 = -(a3ovk2 / 4) * (1 / 2) * sin e.xincl * (cos e.xincl * 5 + 3) / (cos e.xincl + 1) := by
    rw [← h3]; rfl
  have h6 : p.c6 = -(a3ovk2 / 4) * sin e.xincl := by
    rw [← h3]; rfl
  have hq : Sgp.axisAt p e t * (1 - Sgp.eccOf p (Sgp.axisAt p e t) * Sgp.eccOf p (Sgp.axisAt p e t)) = q := by
    simp only [q, ecc, m, Sgp.sgpMean]
    ring
  refine ⟨rfl, ?_, ?_⟩
  · show ecc * sin ω - p.c6 / _ = _
    rw [hq, h6]
    clear_value q ω ecc
    simp only [div_eq_mul_inv, mul_inv]
    ring
  · obtain ⟨-, -, k1, hk1⟩ := C40_FMod2p (Sgp.longitudeAt p e t)
    obtain ⟨-, -, k2, hk2⟩ := C40_FMod2p (Geo.FMod2p (Sgp.longitudeAt p e t) - p.c5 / q * (ecc * cos ω))
    obtain ⟨-, -, k3, hk3⟩ := C40_FMod2p (Geo.FMod2p (Geo.FMod2p (Sgp.longitudeAt p e t) - p.c5 / q * (ecc * cos ω)) - m.xnodes)
    refine ⟨k1 + k2 + k3, ?_⟩
    have : m.u = Geo.FMod2p (Geo.FMod2p (Geo.FMod2p (Sgp.longitudeAt p e t) - p.c5 / q * (ecc * cos ω)) - m.xnodes) := by
      rw [← hq]; rfl
    rw [this, hk3, hk2, hk1, h5]
    push_cast
    rw [add_comm (cos e.xincl) 1]
    simp only [div_eq_mul_inv, mul_inv]
    ring

/-- What both leave out: the slow variation also moves the plane of the orbit, by amounts proportional to the eccentricity. -/
theorem C161_plane {μ n a e i h g E : ℝ} (hn : 0 < n) (ha : 0 < a) (hμ : n ^ 2 * a ^ 3 = μ) (he : 0 < e) (he1 : e < 1) (hi : 0 < sin i)
    {ec ic hc gc Ec : ℝ → ℝ} (hD : Displaced (slow μ 1) n a e i h g E ec ic hc gc Ec) :
    let p := a * (1 - e ^ 2)
    ∃ di dh, HasDerivAt ic di 0 ∧ HasDerivAt hc dh 0 ∧ di ^ 2 + (sin i * dh) ^ 2 = (e * cos i / (4 * p)) ^ 2 := by
  intro p
  obtain ⟨-, sm, de, di, dh, dg, dl, hL, d1, d2, d3, d4, d5⟩ := hD
  obtain ⟨rfl, rfl, rfl, rfl, rfl⟩ := (slow_rates hn ha hμ he he1 hi.ne' de di dh dg dl).1 hL
  have hb : 0 < 1 - e ^ 2 := by nlinarith
  refine ⟨_, _, d2, d3, ?_⟩
  have hsg := sin_sq_add_cos_sq g
  generalize sin i = s at *
  simp only [p]
  field_simp
  linear_combination cos i ^ 2 * hsg

/-- The orbit of the example above: the exact variation of `e sin g` is less than the leading term by a quarter. -/
example {ec ic hc gc Ec : ℝ → ℝ} (hD : Displaced (slow (xke ^ 2) 1) xke 1 (1 / 2) (π / 6) 0 (π / 2) 0 ec ic hc gc Ec) :
    HasDerivAt (fun α => ec α * sin (gc α)) (1 / 8) 0 ∧ sin (π / 6) / (4 * (1 * (1 - (1 / 2 : ℝ) ^ 2))) = 1 / 6 := by
  have hs : sin (π / 6) ≠ 0 := by rw [sin_pi_div_six]; norm_num
  obtain ⟨⟨s1, s2, s3, s4, s5⟩, sm, de, di, dh, dg, dl, hL, d1, d2, d3, d4, d5⟩ := hD
  obtain ⟨rfl, rfl, rfl, rfl, rfl⟩ := (slow_rates xke_pos' one_pos (by ring) (by norm_num) (by norm_num) hs de di dh dg dl).1 hL
  refine ⟨hda' (d1.mul d4.sin) (fun _ => rfl) ?_, ?_⟩
  · rw [s1, s4, sin_pi_div_two, cos_pi_div_two, sin_pi_div_six]
    norm_num
  · rw [sin_pi_div_six]
    norm_num

end SatSky.Props
