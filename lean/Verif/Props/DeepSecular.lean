import Verif.Lemmas.ThirdBody
import Verif.Props.DeepPer

/-! The perturbations by Sun and Moon: C104 (secular rates) and C105 (periodic terms). -/

namespace SatSky.Props

open SatSky.Spec SatSky.Sxp SatSky.Tide Real

/-! ### The rates for a body in one direction -/

/-- The bracket of the averaged potential, for the components of the direction along the axes of the orbit. -/
def bracket (e X Y : ℝ) : ℝ := 3 * ((1 + 4 * e ^ 2) * X ^ 2 + (1 - e ^ 2) * Y ^ 2) - 2 - 3 * e ^ 2

theorem potential_bracket (k : ℝ) (n : V3) {a e i h g : ℝ} (he : e ^ 2 ≤ 1) :
    potential k n a e i h g = k * a ^ 2 / 4 * bracket e (n.dot (apse i h g)) (n.dot (latus i h g)) := potential_eq k n he

theorem hda {f g : ℝ → ℝ} {a b x : ℝ} (h : HasDerivAt f a x) (hf : g = f) (hab : b = a) : HasDerivAt g b x := by
  subst hf hab
  exact h

theorem hasDerivAt_bracket {X Y : ℝ → ℝ} {X' Y' x : ℝ} (e c : ℝ) (hX : HasDerivAt X X' x) (hY : HasDerivAt Y Y' x) :
    HasDerivAt (fun x => c * bracket e (X x) (Y x)) (c * (6 * ((1 + 4 * e ^ 2) * (X x * X') + (1 - e ^ 2) * (Y x * Y')))) x := by
  have h1 := ((hX.pow 2).const_mul (1 + 4 * e ^ 2)).add ((hY.pow 2).const_mul (1 - e ^ 2))
  have h2 := (((h1.const_mul 3).sub_const 2).sub_const (3 * e ^ 2)).const_mul c
  refine hda h2 ?_ ?_
  · funext x; unfold bracket; simp
  · push_cast; ring

theorem dpot_g (k : ℝ) (n : V3) {a e i h g : ℝ} (he : e ^ 2 ≤ 1) :
    HasDerivAt (fun x => potential k n a e i h x) (k * a ^ 2 / 4 * (30 * e ^ 2 * n.dot (apse i h g) * n.dot (latus i h g))) g := by
  have e1 : (fun x => potential k n a e i h x) = fun x => k * a ^ 2 / 4 * bracket e (n.dot (apse i h x)) (n.dot (latus i h x)) :=
    funext fun x => potential_bracket k n he
  rw [e1]
  convert hasDerivAt_bracket e (k * a ^ 2 / 4) (dapse_g n i h g) (dlatus_g n i h g) using 1
  ring

theorem dpot_i (k : ℝ) (n : V3) {a e i h g : ℝ} (he : e ^ 2 ≤ 1) :
    HasDerivAt (fun x => potential k n a e x h g) (k * a ^ 2 / 4 * (6 * n.dot (normal i h) *
      ((1 + 4 * e ^ 2) * n.dot (apse i h g) * sin g + (1 - e ^ 2) * n.dot (latus i h g) * cos g))) i := by
  have e1 : (fun x => potential k n a e x h g) = fun x => k * a ^ 2 / 4 * bracket e (n.dot (apse x h g)) (n.dot (latus x h g)) :=
    funext fun x => potential_bracket k n he
  rw [e1]
  convert hasDerivAt_bracket e (k * a ^ 2 / 4) (dapse_i n i h g) (dlatus_i n i h g) using 1
  ring

theorem dpot_h (k : ℝ) (n : V3) {a e i h g : ℝ} (he : e ^ 2 ≤ 1) :
    HasDerivAt (fun x => potential k n a e i x g) (k * a ^ 2 / 4 * (cos i * (30 * e ^ 2 * n.dot (apse i h g) * n.dot (latus i h g))
      - sin i * (6 * n.dot (normal i h) * ((1 + 4 * e ^ 2) * n.dot (apse i h g) * cos g - (1 - e ^ 2) * n.dot (latus i h g) * sin g)))) h := by
  have e1 : (fun x => potential k n a e i x g) = fun x => k * a ^ 2 / 4 * bracket e (n.dot (apse i x g)) (n.dot (latus i x g)) :=
    funext fun x => potential_bracket k n he
  rw [e1]
  convert hasDerivAt_bracket e (k * a ^ 2 / 4) (dapse_h n i h g) (dlatus_h n i h g) using 1
  ring

theorem dpot_a (k : ℝ) (n : V3) {a e i h g : ℝ} (he : e ^ 2 ≤ 1) :
    HasDerivAt (fun x => potential k n x e i h g) (k * a / 2 * bracket e (n.dot (apse i h g)) (n.dot (latus i h g))) a := by
  have e1 : (fun x => potential k n x e i h g) = fun x => k / 4 * bracket e (n.dot (apse i h g)) (n.dot (latus i h g)) * x ^ 2 :=
    funext fun x => by rw [potential_bracket k n he]; ring
  rw [e1]
  refine hda ((hasDerivAt_pow 2 a).const_mul (k / 4 * bracket e (n.dot (apse i h g)) (n.dot (latus i h g)))) rfl ?_
  push_cast
  ring

theorem dpot_e (k : ℝ) (n : V3) {a e i h g : ℝ} (he : e ^ 2 < 1) :
    HasDerivAt (fun x => potential k n a x i h g) (k * a ^ 2 / 4 * (e * (24 * n.dot (apse i h g) ^ 2 - 6 * n.dot (latus i h g) ^ 2 - 6))) e := by
  have e1 : (fun x => potential k n a x i h g) =ᶠ[nhds e]
      fun x => k * a ^ 2 / 4 * (3 * (n.dot (apse i h g) ^ 2 + n.dot (latus i h g) ^ 2) - 2
        + (12 * n.dot (apse i h g) ^ 2 - 3 * n.dot (latus i h g) ^ 2 - 3) * x ^ 2) := by
    have : ∀ᶠ x in nhds e, x ^ 2 < 1 := (continuous_pow 2).continuousAt.eventually_lt continuousAt_const he
    filter_upwards [this] with x hx
    rw [potential_bracket k n hx.le]
    unfold bracket
    ring
  refine HasDerivAt.congr_of_eventuallyEq ?_ e1
  refine hda ((((hasDerivAt_pow 2 e).const_mul (12 * n.dot (apse i h g) ^ 2 - 3 * n.dot (latus i h g) ^ 2 - 3)).const_add
    (3 * (n.dot (apse i h g) ^ 2 + n.dot (latus i h g) ^ 2) - 2)).const_mul (k * a ^ 2 / 4)) rfl ?_
  push_cast
  ring

/-- Lagrange's equations for the potential of a body in the direction `n`. -/
theorem lagrange_dir (k : ℝ) (n : V3) {m a e i h g : ℝ} (hm : m ≠ 0) (ha : a ≠ 0) (he0 : e ≠ 0) (he : e ^ 2 < 1) (hi : sin i ≠ 0) {X Y Z : ℝ}
    (hX : n.dot (apse i h g) = X) (hY : n.dot (latus i h g) = Y) (hZ : n.dot (normal i h) = Z) :
    Lagrange (potential k n) m a e i h g
      (-(15 / 2) * (k / m) * √(1 - e ^ 2) * e * X * Y)
      (3 / 2 * (k / m) / √(1 - e ^ 2) * Z * ((1 + 4 * e ^ 2) * X * cos g - (1 - e ^ 2) * Y * sin g))
      (3 / 2 * (k / m) / √(1 - e ^ 2) * Z * ((1 + 4 * e ^ 2) * X * sin g + (1 - e ^ 2) * Y * cos g) / sin i)
      (k / m * √(1 - e ^ 2) * (6 * X ^ 2 - 3 / 2 * Y ^ 2 - 3 / 2)
        - cos i * (3 / 2 * (k / m) / √(1 - e ^ 2) * Z * ((1 + 4 * e ^ 2) * X * sin g + (1 - e ^ 2) * Y * cos g) / sin i))
      (-(k / m) * (bracket e X Y + (1 - e ^ 2) * (6 * X ^ 2 - 3 / 2 * Y ^ 2 - 3 / 2))) := by
  subst hX hY hZ
  have hb : √(1 - e ^ 2) ≠ 0 := (sqrt_pos.mpr (by linarith)).ne'
  constructor
  · exact ⟨(dpot_a k n he.le).differentiableAt, (dpot_e k n he).differentiableAt, (dpot_i k n he.le).differentiableAt,
      (dpot_h k n he.le).differentiableAt, (dpot_g k n he.le).differentiableAt⟩
  · rw [(dpot_g k n he.le).deriv]
    field_simp
    ring
  · rw [(dpot_g k n he.le).deriv, (dpot_h k n he.le).deriv]
    field_simp
    ring
  · rw [(dpot_i k n he.le).deriv]
    field_simp
    ring
  · rw [(dpot_e k n he).deriv]
    field_simp
    ring
  · rw [(dpot_a k n he.le).deriv, (dpot_e k n he).deriv]
    unfold bracket
    field_simp
    ring

/-- Potentials add up, and so do the rates. -/
theorem Lagrange_add {R S : ℝ → ℝ → ℝ → ℝ → ℝ → ℝ} {m a e i h g : ℝ} {e1 i1 h1 g1 l1 e2 i2 h2 g2 l2 : ℝ}
    (H : Lagrange R m a e i h g e1 i1 h1 g1 l1) (K : Lagrange S m a e i h g e2 i2 h2 g2 l2) :
    Lagrange (fun a e i h g => R a e i h g + S a e i h g) m a e i h g (e1 + e2) (i1 + i2) (h1 + h2) (g1 + g2) (l1 + l2) := by
  obtain ⟨⟨d1, d2, d3, d4, d5⟩, a1, a2, a3, a4, a5⟩ := H
  obtain ⟨⟨c1, c2, c3, c4, c5⟩, b1, b2, b3, b4, b5⟩ := K
  have E1 : deriv (fun x => R x e i h g + S x e i h g) a = _ := deriv_fun_add d1 c1
  have E2 : deriv (fun x => R a x i h g + S a x i h g) e = _ := deriv_fun_add d2 c2
  have E3 : deriv (fun x => R a e x h g + S a e x h g) i = _ := deriv_fun_add d3 c3
  have E4 : deriv (fun x => R a e i x g + S a e i x g) h = _ := deriv_fun_add d4 c4
  have E5 : deriv (fun x => R a e i h x + S a e i h x) g = _ := deriv_fun_add d5 c5
  refine ⟨⟨d1.add c1, d2.add c2, d3.add c3, d4.add c4, d5.add c5⟩, ?_, ?_, ?_, ?_, ?_⟩
  · rw [E5, a1, b1]; ring
  · rw [E5, E4, a2, b2]; ring
  · rw [E3, a3, b3]; ring
  · rw [E2, a4, b4]; ring
  · rw [E1, E2, a5, b5]; ring

/-- The rates follow from the potential. -/
theorem Lagrange_unique {R : ℝ → ℝ → ℝ → ℝ → ℝ → ℝ} {m a e i h g : ℝ} {e1 i1 h1 g1 l1 e2 i2 h2 g2 l2 : ℝ}
    (H : Lagrange R m a e i h g e1 i1 h1 g1 l1) (K : Lagrange R m a e i h g e2 i2 h2 g2 l2) :
    e1 = e2 ∧ i1 = i2 ∧ h1 = h2 ∧ g1 = g2 ∧ l1 = l2 := by
  have hh : h1 = h2 := H.node.trans K.node.symm
  refine ⟨H.ecc.trans K.ecc.symm, H.inc.trans K.inc.symm, hh, ?_, H.anomaly.trans K.anomaly.symm⟩
  rw [H.arg, K.arg, hh]

/-- The potential averaged over both orbits is that of two half bodies in the directions of the axes. -/
theorem meanPotential_half (k : ℝ) (p q : V3) {a e i h g : ℝ} (he : e ^ 2 ≤ 1) :
    meanPotential k p q a e i h g = potential (k / 2) p a e i h g + potential (k / 2) q a e i h g := by
  rw [meanPotential_eq k p q he, potential_eq _ p he, potential_eq _ q he]
  ring

theorem Lagrange_congr {R S : ℝ → ℝ → ℝ → ℝ → ℝ → ℝ} {m a e i h g e1 i1 h1 g1 l1 : ℝ} (he : e ^ 2 < 1)
    (hRS : ∀ a e i h g, e ^ 2 ≤ 1 → R a e i h g = S a e i h g) (H : Lagrange S m a e i h g e1 i1 h1 g1 l1) :
    Lagrange R m a e i h g e1 i1 h1 g1 l1 := by
  obtain ⟨⟨d1, d2, d3, d4, d5⟩, a1, a2, a3, a4, a5⟩ := H
  have E1 : (fun x => R x e i h g) = fun x => S x e i h g := funext fun x => hRS x e i h g he.le
  have E3 : (fun x => R a e x h g) = fun x => S a e x h g := funext fun x => hRS a e x h g he.le
  have E4 : (fun x => R a e i x g) = fun x => S a e i x g := funext fun x => hRS a e i x g he.le
  have E5 : (fun x => R a e i h x) = fun x => S a e i h x := funext fun x => hRS a e i h x he.le
  have E2 : (fun x => R a x i h g) =ᶠ[nhds e] fun x => S a x i h g := by
    have : ∀ᶠ x in nhds e, x ^ 2 < 1 := (continuous_pow 2).continuousAt.eventually_lt continuousAt_const he
    filter_upwards [this] with x hx
    exact hRS a x i h g hx.le
  exact ⟨⟨E1 ▸ d1, d2.congr_of_eventuallyEq E2, E3 ▸ d3, E4 ▸ d4, E5 ▸ d5⟩, by rw [E5]; exact a1, by rw [E5, E4]; exact a2, by rw [E3]; exact a3,
    by rw [E2.deriv_eq]; exact a4, by rw [E1, E2.deriv_eq]; exact a5⟩

/-! ### The rates of the program -/

/-- The axes of the orbit of a body (perigee and a quarter of a turn further) in equatorial coordinates, from its orientation relative to the
equinox. -/
noncomputable def axisP (o : Orient) : V3 :=
  ⟨o.cosg * o.cosh + o.sing * o.cosi * o.sinh, -o.cosg * o.sinh + o.sing * o.cosi * o.cosh, o.sing * o.sini⟩
noncomputable def axisQ (o : Orient) : V3 :=
  ⟨-o.sing * o.cosh + o.cosg * o.cosi * o.sinh, o.sing * o.sinh + o.cosg * o.cosi * o.cosh, o.cosg * o.sini⟩

/-- The orientation relative to the node `h` of the satellite instead of the equinox. -/
noncomputable def turned (o : Orient) (h : ℝ) : Orient :=
  { o with cosh := o.cosh * cos h - o.sinh * sin h, sinh := o.sinh * cos h + o.cosh * sin h }

theorem solar_turned (h : ℝ) : solarOrient h = turned (solarOrient 0) h := by
  unfold turned solarOrient
  simp

theorem lunar_turned (d h : ℝ) : lunarOrient d h = turned (lunarOrient d 0) h := by
  unfold turned lunarOrient
  simp only [cos_zero, sin_zero]
  congr 1 <;> ring

/-- What `bodyTerms` needs from the preparation. -/
structure Prepared (e : Elem) (i : Init) : Prop where
  cosio : i.cosio = cos e.xincl
  sinio : i.sinio = sin e.xincl
  eosq : i.eosq = e.eo ^ 2
  betao2 : i.betao2 = 1 - e.eo ^ 2
  betao : i.betao = √(1 - e.eo ^ 2)

theorem prepared (e : Elem) : Prepared e (sxpx_common_init e) :=
  ⟨rfl, rfl, (sq e.eo).symm, by rw [sq]; rfl, by rw [sq]; rfl⟩

/-- The second half of `bodyTerms`, from the components `a1` … `a6` of the axes of the body's orbit. -/
noncomputable def bodyCore (a1 a2 a3 a4 a5 a6 sg cg n b esq e cc zn ze : ℝ) (small : Prop) [Decidable small] : Body :=
  let x1 := a1 * cg + a2 * sg
  let x2 := a3 * cg + a4 * sg
  let x3 := -a1 * sg + a2 * cg
  let x4 := -a3 * sg + a4 * cg
  let x5 := a5 * sg
  let x6 := a6 * sg
  let x7 := a5 * cg
  let x8 := a6 * cg
  let z31 := 12 * x1 * x1 - 3 * x3 * x3
  let z32 := 24 * x1 * x2 - 6 * x3 * x4
  let z33 := 12 * x2 * x2 - 3 * x4 * x4
  let z11 := -6 * a1 * a5 + esq * (-24 * x1 * x7 - 6 * x3 * x5)
  let z12 := -6 * (a1 * a6 + a3 * a5) + esq * (-24 * (x2 * x7 + x1 * x8) - 6 * (x3 * x6 + x4 * x5))
  let z13 := -6 * a3 * a6 + esq * (-24 * x2 * x8 - 6 * x4 * x6)
  let z21 := 6 * a2 * a5 + esq * (24 * x1 * x5 - 6 * x3 * x7)
  let z22 := 6 * (a4 * a5 + a2 * a6) + esq * (24 * (x2 * x5 + x1 * x6) - 6 * (x4 * x7 + x3 * x8))
  let z23 := 6 * a4 * a6 + esq * (24 * x2 * x6 - 6 * x4 * x8)
  let s3 := cc / n
  let s2 := -(1 / 2) * s3 / b
  let s4 := s3 * b
  let s1 := -15 * e * s4
  let z1 := 3 * (a1 * a1 + a2 * a2) + z31 * esq
  let z2 := 6 * (a1 * a3 + a2 * a4) + z32 * esq
  let z3 := 3 * (a3 * a3 + a4 * a4) + z33 * esq
  let z1 := z1 + z1 + (1 - esq) * z31
  let z2 := z2 + z2 + (1 - esq) * z32
  let z3 := z3 + z3 + (1 - esq) * z33
  { se := s1 * zn * (x1 * x3 + x2 * x4)
    si := s2 * zn * (z11 + z13)
    sl := -zn * s3 * (z1 + z3 - 14 - 6 * esq)
    sgh := s4 * zn * (z31 + z33 - 6)
    sh := if small then 0 else -zn * s2 * (z21 + z23)
    e2 := 2 * s1 * (x2 * x3 + x1 * x4)
    e3 := 2 * s1 * (x2 * x4 - x1 * x3)
    i2 := 2 * s2 * z12
    i3 := 2 * s2 * (z13 - z11)
    l2 := -2 * s3 * z2
    l3 := -2 * s3 * (z3 - z1)
    l4 := -2 * s3 * (-21 - 9 * esq) * ze
    gh2 := 2 * s4 * z32
    gh3 := 2 * s4 * (z33 - z31)
    gh4 := -18 * s4 * ze
    h2 := -2 * s2 * z22
    h3 := -2 * s2 * (z23 - z21) }

/-- The components: `a1`, `a2` of the first axis along the node and perpendicular to it in the plane of the satellite's orbit, `a5` along its
normal. -/
noncomputable def alongNode (p : V3) (h : ℝ) : ℝ := p.x * cos h + p.y * sin h
noncomputable def acrossNode (p : V3) (i h : ℝ) : ℝ := cos i * (-p.x * sin h + p.y * cos h) + sin i * p.z

theorem dot_apse (p : V3) (i h g : ℝ) : p.dot (apse i h g) = alongNode p h * cos g + acrossNode p i h * sin g := by
  unfold apse V3.dot alongNode acrossNode; ring
theorem dot_latus (p : V3) (i h g : ℝ) : p.dot (latus i h g) = -alongNode p h * sin g + acrossNode p i h * cos g := by
  unfold latus V3.dot alongNode acrossNode; ring

theorem bodyTerms_core (o : Orient) (cc zn ze : ℝ) {e : Elem} {i : Init} (hp : Prepared e i) :
    bodyTerms (turned o e.xnodeo) cc zn ze e i =
      bodyCore (alongNode (axisP o) e.xnodeo) (acrossNode (axisP o) e.xincl e.xnodeo) (alongNode (axisQ o) e.xnodeo) (acrossNode (axisQ o) e.xincl e.xnodeo)
        ((axisP o).dot (normal e.xincl e.xnodeo)) ((axisQ o).dot (normal e.xincl e.xnodeo)) (sin e.omegao) (cos e.omegao) i.xnodp
        (√(1 - e.eo ^ 2)) (e.eo ^ 2) e.eo cc zn ze (e.xincl < π / 60) := by
  obtain ⟨p1, p2, p3, p4, p5⟩ := hp
  have e1 : alongNode (axisP o) e.xnodeo = (turned o e.xnodeo).cosg * (turned o e.xnodeo).cosh
      + (turned o e.xnodeo).sing * (turned o e.xnodeo).cosi * (turned o e.xnodeo).sinh := by unfold alongNode axisP turned; ring
  have e3 : alongNode (axisQ o) e.xnodeo = -(turned o e.xnodeo).sing * (turned o e.xnodeo).cosh
      + (turned o e.xnodeo).cosg * (turned o e.xnodeo).cosi * (turned o e.xnodeo).sinh := by unfold alongNode axisQ turned; ring
  have e2 : acrossNode (axisP o) e.xincl e.xnodeo = cos e.xincl * (-(turned o e.xnodeo).cosg * (turned o e.xnodeo).sinh
      + (turned o e.xnodeo).sing * (turned o e.xnodeo).cosi * (turned o e.xnodeo).cosh)
      + sin e.xincl * ((turned o e.xnodeo).sing * (turned o e.xnodeo).sini) := by unfold acrossNode axisP turned; ring
  have e4 : acrossNode (axisQ o) e.xincl e.xnodeo = cos e.xincl * ((turned o e.xnodeo).sing * (turned o e.xnodeo).sinh
      + (turned o e.xnodeo).cosg * (turned o e.xnodeo).cosi * (turned o e.xnodeo).cosh)
      + sin e.xincl * ((turned o e.xnodeo).cosg * (turned o e.xnodeo).sini) := by unfold acrossNode axisQ turned; ring
  have e5 : (axisP o).dot (normal e.xincl e.xnodeo) = -sin e.xincl * (-(turned o e.xnodeo).cosg * (turned o e.xnodeo).sinh
      + (turned o e.xnodeo).sing * (turned o e.xnodeo).cosi * (turned o e.xnodeo).cosh)
      + cos e.xincl * ((turned o e.xnodeo).sing * (turned o e.xnodeo).sini) := by unfold normal axisP turned V3.dot; ring
  have e6 : (axisQ o).dot (normal e.xincl e.xnodeo) = -sin e.xincl * ((turned o e.xnodeo).sing * (turned o e.xnodeo).sinh
      + (turned o e.xnodeo).cosg * (turned o e.xnodeo).cosi * (turned o e.xnodeo).cosh)
      + cos e.xincl * ((turned o e.xnodeo).cosg * (turned o e.xnodeo).sini) := by unfold normal axisQ turned V3.dot; ring
  unfold bodyTerms
  dsimp only
  rw [p1, p2, p3, p4, p5, ← e1, ← e2, ← e3, ← e4, ← e5, ← e6]
  rfl

section Core

variable {a1 a2 a3 a4 a5 a6 sg cg n b e cc zn ze si : ℝ} {small : Prop} [Decidable small]

/-- The rates of `lagrange_dir`, `k` the strength divided by the mean motion. -/
noncomputable def rateE (k b e X Y : ℝ) : ℝ := -(15 / 2) * k * b * e * X * Y
noncomputable def rateI (k b e sg cg X Y Z : ℝ) : ℝ := 3 / 2 * k / b * Z * ((1 + 4 * e ^ 2) * X * cg - (1 - e ^ 2) * Y * sg)
noncomputable def rateH (k b e sg cg X Y Z : ℝ) : ℝ := 3 / 2 * k / b * Z * ((1 + 4 * e ^ 2) * X * sg + (1 - e ^ 2) * Y * cg)
noncomputable def rateG (k b X Y : ℝ) : ℝ := k * b * (6 * X ^ 2 - 3 / 2 * Y ^ 2 - 3 / 2)
noncomputable def rateL (k e X Y : ℝ) : ℝ := -k * (bracket e X Y + (1 - e ^ 2) * (6 * X ^ 2 - 3 / 2 * Y ^ 2 - 3 / 2))

theorem core_se : (bodyCore a1 a2 a3 a4 a5 a6 sg cg n b (e ^ 2) e cc zn ze small).se =
    rateE (4 * cc * zn / 2 / n) b e (a1 * cg + a2 * sg) (-a1 * sg + a2 * cg) + rateE (4 * cc * zn / 2 / n) b e (a3 * cg + a4 * sg) (-a3 * sg + a4 * cg) := by
  unfold bodyCore rateE
  dsimp only
  ring

theorem core_si (hg : sg ^ 2 + cg ^ 2 = 1) : (bodyCore a1 a2 a3 a4 a5 a6 sg cg n b (e ^ 2) e cc zn ze small).si =
    rateI (4 * cc * zn / 2 / n) b e sg cg (a1 * cg + a2 * sg) (-a1 * sg + a2 * cg) a5
      + rateI (4 * cc * zn / 2 / n) b e sg cg (a3 * cg + a4 * sg) (-a3 * sg + a4 * cg) a6 := by
  unfold bodyCore rateI
  dsimp only
  linear_combination (-(3 * (cc / n) / b * zn) * (a1 * a5 + a3 * a6)) * hg

theorem core_sh (hg : sg ^ 2 + cg ^ 2 = 1) (hs : ¬ small) : (bodyCore a1 a2 a3 a4 a5 a6 sg cg n b (e ^ 2) e cc zn ze small).sh =
    rateH (4 * cc * zn / 2 / n) b e sg cg (a1 * cg + a2 * sg) (-a1 * sg + a2 * cg) a5
      + rateH (4 * cc * zn / 2 / n) b e sg cg (a3 * cg + a4 * sg) (-a3 * sg + a4 * cg) a6 := by
  unfold bodyCore rateH
  dsimp only
  rw [if_neg hs]
  linear_combination (-(3 * (cc / n) / b * zn) * (a2 * a5 + a4 * a6)) * hg

theorem core_sgh : (bodyCore a1 a2 a3 a4 a5 a6 sg cg n b (e ^ 2) e cc zn ze small).sgh =
    rateG (4 * cc * zn / 2 / n) b (a1 * cg + a2 * sg) (-a1 * sg + a2 * cg) + rateG (4 * cc * zn / 2 / n) b (a3 * cg + a4 * sg) (-a3 * sg + a4 * cg) := by
  unfold bodyCore rateG
  dsimp only
  ring

theorem core_sl (hg : sg ^ 2 + cg ^ 2 = 1) : (bodyCore a1 a2 a3 a4 a5 a6 sg cg n b (e ^ 2) e cc zn ze small).sl =
    rateL (4 * cc * zn / 2 / n) e (a1 * cg + a2 * sg) (-a1 * sg + a2 * cg) + rateL (4 * cc * zn / 2 / n) e (a3 * cg + a4 * sg) (-a3 * sg + a4 * cg) := by
  unfold bodyCore rateL bracket
  dsimp only
  linear_combination (6 * zn * (cc / n) * (a1 ^ 2 + a2 ^ 2 + a3 ^ 2 + a4 ^ 2)) * hg

end Core

/-- Lagrange's equations with these names. -/
theorem lagrange_rates (k : ℝ) (p : V3) {m a e i h g : ℝ} (hm : m ≠ 0) (ha : a ≠ 0) (he0 : e ≠ 0) (he : e ^ 2 < 1) (hi : sin i ≠ 0) {X Y Z : ℝ}
    (hX : p.dot (apse i h g) = X) (hY : p.dot (latus i h g) = Y) (hZ : p.dot (normal i h) = Z) :
    Lagrange (potential k p) m a e i h g (rateE (k / m) (√(1 - e ^ 2)) e X Y) (rateI (k / m) (√(1 - e ^ 2)) e (sin g) (cos g) X Y Z)
      (rateH (k / m) (√(1 - e ^ 2)) e (sin g) (cos g) X Y Z / sin i)
      (rateG (k / m) (√(1 - e ^ 2)) X Y - cos i * (rateH (k / m) (√(1 - e ^ 2)) e (sin g) (cos g) X Y Z / sin i)) (rateL (k / m) e X Y) :=
  lagrange_dir k p hm ha he0 he hi hX hY hZ

/-- C104 for one body: the secular rates follow Lagrange's equations for the tidal potential of a body of strength `4 cc zn`, averaged over the
orbit of the satellite and that of the body. -/
theorem secular_body (o : Orient) (cc zn ze : ℝ) {e : Elem} {i : Init} (hp : Prepared e i) {a : ℝ} (ha : a ≠ 0) (hn : i.xnodp ≠ 0) (he0 : e.eo ≠ 0)
    (he : e.eo ^ 2 < 1) (hs : sin e.xincl ≠ 0) (hi : π / 60 ≤ e.xincl) {b : Body} (hbt : b = bodyTerms (turned o e.xnodeo) cc zn ze e i) :
    Lagrange (meanPotential (4 * cc * zn) (axisP o) (axisQ o)) i.xnodp a e.eo e.xincl e.xnodeo e.omegao
      b.se b.si (b.sh / i.sinio) (b.sgh - i.cosio * (b.sh / i.sinio)) b.sl := by
  rw [bodyTerms_core o cc zn ze hp] at hbt
  refine Lagrange_congr he (S := fun a e i h g => potential (4 * cc * zn / 2) (axisP o) a e i h g + potential (4 * cc * zn / 2) (axisQ o) a e i h g)
    (fun _ _ _ _ _ h => meanPotential_half _ _ _ h) ?_
  have L := Lagrange_add
    (lagrange_rates (4 * cc * zn / 2) (axisP o) hn ha he0 he hs (dot_apse _ e.xincl e.xnodeo e.omegao) (dot_latus _ _ _ _) rfl)
    (lagrange_rates (4 * cc * zn / 2) (axisQ o) hn ha he0 he hs (dot_apse _ e.xincl e.xnodeo e.omegao) (dot_latus _ _ _ _) rfl)
  have hg := sin_sq_add_cos_sq e.omegao
  have hsm : ¬ e.xincl < π / 60 := not_lt.mpr hi
  rw [hp.sinio, hp.cosio, hbt, core_se, core_si hg, core_sh hg hsm, core_sgh, core_sl hg]
  convert L using 1 <;> ring

/-- The potential of Sun and Moon, averaged over the orbits; the axes are those of the orbit of the Sun and of that of the Moon at the epoch. -/
noncomputable def lunisolar (e : Elem) (a x i h g : ℝ) : ℝ :=
  meanPotential (4 * (29864797 / 10 ^ 13) * znsMin) (axisP (solarOrient 0)) (axisQ (solarOrient 0)) a x i h g
    + meanPotential (4 * (47968065 / 10 ^ 14) * znlMin) (axisP (lunarOrient (e.epoch - 2415020) 0)) (axisQ (lunarOrient (e.epoch - 2415020) 0)) a x i h g

/-- C104: the secular rates of the elements caused by Sun and Moon follow Lagrange's equations for their potential averaged over the orbits. -/
theorem C104_secular (e : Elem) {a : ℝ} (ha : a ≠ 0) (hn : (SDP4_init e).i.xnodp ≠ 0) (he0 : 0 < e.eo) (he1 : e.eo < 1) (hi : π / 60 ≤ e.xincl)
    (hi' : e.xincl < π) :
    Lagrange (lunisolar e) (SDP4_init e).i.xnodp a e.eo e.xincl e.xnodeo e.omegao
      (SDP4_init e).sse (SDP4_init e).ssi (SDP4_init e).ssh (SDP4_init e).ssg (SDP4_init e).ssl := by
  have hs : sin e.xincl ≠ 0 := (sin_pos_of_pos_of_lt_pi (lt_of_lt_of_le (by positivity) hi) hi').ne'
  have he : e.eo ^ 2 < 1 := by nlinarith
  have hp := prepared e
  have hs' : (sxpx_common_init e).sinio ≠ 0 := by rw [hp.sinio]; exact hs
  have L := Lagrange_add
    (secular_body (solarOrient 0) (29864797 / 10 ^ 13) znsMin zes hp ha hn he0.ne' he hs hi (congrArg (bodyTerms · _ _ _ e _) (solar_turned e.xnodeo)))
    (secular_body (lunarOrient (e.epoch - 2415020) 0) (47968065 / 10 ^ 14) znlMin zel hp ha hn he0.ne' he hs hi
      (congrArg (bodyTerms · _ _ _ e _) (lunar_turned (e.epoch - 2415020) e.xnodeo)))
  have h1 : (SDP4_init e).ssh = (SDP4_init e).sun.sh / (sxpx_common_init e).sinio + (SDP4_init e).moon.sh / (sxpx_common_init e).sinio := by
    simp only [SDP4_init, Deep_dpinit]
    rw [if_pos hs', if_pos hs']
  have h2 : (SDP4_init e).ssg = (SDP4_init e).sun.sgh - (sxpx_common_init e).cosio * ((SDP4_init e).sun.sh / (sxpx_common_init e).sinio)
      + ((SDP4_init e).moon.sgh - (sxpx_common_init e).cosio * ((SDP4_init e).moon.sh / (sxpx_common_init e).sinio)) := by
    simp only [SDP4_init, Deep_dpinit]
    rw [if_pos hs', if_pos hs']
    ring
  rw [h1, h2]
  exact L

/-- C104 for orbits near the equator: the node and with it the argument of the perigee are not moved by the terms of Sun and Moon that belong to
the change of the node. -/
theorem C104_small_excluded (e : Elem) (hi : e.xincl < π / 60) (hs : sin e.xincl ≠ 0) : (SDP4_init e).ssh = 0 := by
  have hs' : (sxpx_common_init e).sinio ≠ 0 := by rw [(prepared e).sinio]; exact hs
  simp only [SDP4_init, Deep_dpinit, bodyTerms]
  rw [if_pos hs', if_pos hs', if_pos hi, if_pos hi]
  simp

/-- C104: the strengths are those of Sun and Moon: the square of the mean motion, for the Moon divided by 82.3 (the ratio of the mass of Earth and
Moon to that of the Moon). -/
theorem C104_strength : |4 * (29864797 / 10 ^ 13) * znsMin / znsMin ^ 2 - 1| < 1 / 10 ^ 5 ∧
    |4 * (47968065 / 10 ^ 14) * znlMin / znlMin ^ 2 * (823 / 10) - 1| < 1 / 200 := by
  unfold znsMin znlMin
  constructor <;> rw [abs_lt] <;> constructor <;> norm_num

/-! ### The periodic terms -/

/-- What the Sun or the Moon contributes to the periodic terms at the true anomaly `f`. -/
noncomputable def termsAt (b : Body) (f : ℝ) : Periodic where
  pe := b.e2 * (1 / 2 * sin f ^ 2 - 1 / 4) + b.e3 * (-(1 / 2) * sin f * cos f)
  pinc := b.i2 * (1 / 2 * sin f ^ 2 - 1 / 4) + b.i3 * (-(1 / 2) * sin f * cos f)
  pl := b.l2 * (1 / 2 * sin f ^ 2 - 1 / 4) + b.l3 * (-(1 / 2) * sin f * cos f) + b.l4 * sin f
  pgh := b.gh2 * (1 / 2 * sin f ^ 2 - 1 / 4) + b.gh3 * (-(1 / 2) * sin f * cos f) + b.gh4 * sin f
  ph := b.h2 * (1 / 2 * sin f ^ 2 - 1 / 4) + b.h3 * (-(1 / 2) * sin f * cos f)

theorem hasDerivAt_terms (p q r f : ℝ) :
    HasDerivAt (fun f => p * (1 / 2 * sin f ^ 2 - 1 / 4) + q * (-(1 / 2) * sin f * cos f) + r * sin f)
      (p * (sin f * cos f) + q * (-(1 / 2) * (cos f ^ 2 - sin f ^ 2)) + r * cos f) f := by
  have h1 := (((hasDerivAt_sin f).pow 2).const_mul (1 / 2 : ℝ)).sub_const (1 / 4)
  have h2 := ((hasDerivAt_sin f).const_mul (-(1 / 2) : ℝ)).mul (hasDerivAt_cos f)
  refine hda (((h1.const_mul p).add (h2.const_mul q)).add ((hasDerivAt_sin f).const_mul r)) ?_ ?_
  · funext x; simp
  · push_cast; ring

theorem hasDerivAt_terms0 (p q f : ℝ) :
    HasDerivAt (fun f => p * (1 / 2 * sin f ^ 2 - 1 / 4) + q * (-(1 / 2) * sin f * cos f)) (p * (sin f * cos f) + q * (-(1 / 2) * (cos f ^ 2 - sin f ^ 2))) f :=
  hda (hasDerivAt_terms p q 0 f) (by funext x; ring) (by ring)

/-- The direction of a body at the true anomaly `f`. -/
noncomputable def dirAt (o : Orient) (f : ℝ) : V3 := ((axisP o).smul (cos f)).add ((axisQ o).smul (sin f))

section Core

variable {a1 a2 a3 a4 a5 a6 sg cg n b e cc zn ze C S : ℝ} {small : Prop} [Decidable small]

theorem rate_core_e (hf : S ^ 2 + C ^ 2 = 1) (B : Body) (hB : B = bodyCore a1 a2 a3 a4 a5 a6 sg cg n b (e ^ 2) e cc zn ze small) :
    zn * (B.e2 * (S * C) + B.e3 * (-(1 / 2) * (C ^ 2 - S ^ 2))) =
      rateE (4 * cc * zn / n) b e ((a1 * C + a3 * S) * cg + (a2 * C + a4 * S) * sg) (-(a1 * C + a3 * S) * sg + (a2 * C + a4 * S) * cg) - B.se := by
  subst hB
  unfold bodyCore rateE
  dsimp only
  linear_combination ((15 * zn * (cc / n) * b * e) * ((a1 * cg + a2 * sg) * (-a1 * sg + a2 * cg) + (a3 * cg + a4 * sg) * (-a3 * sg + a4 * cg))) * hf

theorem rate_core_i (hf : S ^ 2 + C ^ 2 = 1) (hg : sg ^ 2 + cg ^ 2 = 1) (B : Body)
    (hB : B = bodyCore a1 a2 a3 a4 a5 a6 sg cg n b (e ^ 2) e cc zn ze small) :
    zn * (B.i2 * (S * C) + B.i3 * (-(1 / 2) * (C ^ 2 - S ^ 2))) =
      rateI (4 * cc * zn / n) b e sg cg ((a1 * C + a3 * S) * cg + (a2 * C + a4 * S) * sg) (-(a1 * C + a3 * S) * sg + (a2 * C + a4 * S) * cg)
        (a5 * C + a6 * S) - B.si := by
  subst hB
  unfold bodyCore rateI
  dsimp only
  linear_combination (1 / 2 * (cc / n) / b * zn * (-6 * a1 * a5 + e ^ 2 * (-24 * (a1 * cg + a2 * sg) * (a5 * cg) - 6 * (-a1 * sg + a2 * cg) * (a5 * sg))
      + (-6 * a3 * a6 + e ^ 2 * (-24 * (a3 * cg + a4 * sg) * (a6 * cg) - 6 * (-a3 * sg + a4 * cg) * (a6 * sg))))) * hf
    - (6 * (cc * zn / n) / b * (a5 * C + a6 * S) * (a1 * C + a3 * S)) * hg

theorem rate_core_h (hf : S ^ 2 + C ^ 2 = 1) (hg : sg ^ 2 + cg ^ 2 = 1) (hs : ¬ small) (B : Body)
    (hB : B = bodyCore a1 a2 a3 a4 a5 a6 sg cg n b (e ^ 2) e cc zn ze small) :
    zn * (B.h2 * (S * C) + B.h3 * (-(1 / 2) * (C ^ 2 - S ^ 2))) =
      rateH (4 * cc * zn / n) b e sg cg ((a1 * C + a3 * S) * cg + (a2 * C + a4 * S) * sg) (-(a1 * C + a3 * S) * sg + (a2 * C + a4 * S) * cg)
        (a5 * C + a6 * S) - B.sh := by
  subst hB
  unfold bodyCore rateH
  dsimp only
  rw [if_neg hs]
  linear_combination (-(1 / 2) * (cc / n) / b * zn * (6 * a2 * a5 + e ^ 2 * (24 * (a1 * cg + a2 * sg) * (a5 * sg) - 6 * (-a1 * sg + a2 * cg) * (a5 * cg))
      + (6 * a4 * a6 + e ^ 2 * (24 * (a3 * cg + a4 * sg) * (a6 * sg) - 6 * (-a3 * sg + a4 * cg) * (a6 * cg))))) * hf
    - (6 * (cc * zn / n) / b * (a5 * C + a6 * S) * (a2 * C + a4 * S)) * hg

theorem rate_core_g (hf : S ^ 2 + C ^ 2 = 1) (B : Body) (hB : B = bodyCore a1 a2 a3 a4 a5 a6 sg cg n b (e ^ 2) e cc zn ze small) :
    zn * (B.gh2 * (S * C) + B.gh3 * (-(1 / 2) * (C ^ 2 - S ^ 2)) + B.gh4 * C) =
      rateG (4 * cc * zn / n) b ((a1 * C + a3 * S) * cg + (a2 * C + a4 * S) * sg) (-(a1 * C + a3 * S) * sg + (a2 * C + a4 * S) * cg) - B.sgh
        + 3 * ze * C * rateG (4 * cc * zn / n) b 0 0 := by
  subst hB
  unfold bodyCore rateG
  dsimp only
  linear_combination (-(cc / n * b * zn) * (12 * (a1 * cg + a2 * sg) * (a1 * cg + a2 * sg) - 3 * (-a1 * sg + a2 * cg) * (-a1 * sg + a2 * cg)
      + (12 * (a3 * cg + a4 * sg) * (a3 * cg + a4 * sg) - 3 * (-a3 * sg + a4 * cg) * (-a3 * sg + a4 * cg)))) * hf

theorem rate_core_l (hf : S ^ 2 + C ^ 2 = 1) (hg : sg ^ 2 + cg ^ 2 = 1) (B : Body)
    (hB : B = bodyCore a1 a2 a3 a4 a5 a6 sg cg n b (e ^ 2) e cc zn ze small) :
    zn * (B.l2 * (S * C) + B.l3 * (-(1 / 2) * (C ^ 2 - S ^ 2)) + B.l4 * C) =
      rateL (4 * cc * zn / n) e ((a1 * C + a3 * S) * cg + (a2 * C + a4 * S) * sg) (-(a1 * C + a3 * S) * sg + (a2 * C + a4 * S) * cg) - B.sl
        + 3 * ze * C * rateL (4 * cc * zn / n) e 0 0 := by
  subst hB
  unfold bodyCore rateL bracket
  dsimp only
  linear_combination ((cc / n * zn) * (2 * (3 * (a1 * a1 + a2 * a2))
      + (1 + e ^ 2) * (12 * (a1 * cg + a2 * sg) * (a1 * cg + a2 * sg) - 3 * (-a1 * sg + a2 * cg) * (-a1 * sg + a2 * cg))
      + (2 * (3 * (a3 * a3 + a4 * a4)) + (1 + e ^ 2) * (12 * (a3 * cg + a4 * sg) * (a3 * cg + a4 * sg) - 3 * (-a3 * sg + a4 * cg) * (-a3 * sg + a4 * cg))))) * hf
    + (12 * (cc * zn / n) * ((a1 * C + a3 * S) ^ 2 + (a2 * C + a4 * S) ^ 2)) * hg

end Core

theorem dirAt_dot (o : Orient) (f : ℝ) (v : V3) : (dirAt o f).dot v = (axisP o).dot v * cos f + (axisQ o).dot v * sin f := by
  unfold dirAt
  rw [add_dot, smul_dot, smul_dot]
  ring

/-- C105 for one body. -/
structure PeriodicFrom (k zn ze : ℝ) (o : Orient) (b : Body) (n a e i h g f : ℝ) : Prop where
  rates : ∃ e1 i1 h1 g1 l1 e0 i0 h0 g0 l0, Lagrange (potential k (dirAt o f)) n a e i h g e1 i1 h1 g1 l1 ∧
    Lagrange (potential k ⟨0, 0, 0⟩) n a e i h g e0 i0 h0 g0 l0 ∧
    HasDerivAt (fun f => (termsAt b f).pe) ((e1 - b.se) / zn) f ∧
    HasDerivAt (fun f => (termsAt b f).pinc) ((i1 - b.si) / zn) f ∧
    HasDerivAt (fun f => (termsAt b f).ph) ((sin i * h1 - b.sh) / zn) f ∧
    HasDerivAt (fun f => (termsAt b f).pgh) ((g1 + cos i * h1 - b.sgh + 3 * ze * cos f * (g0 + cos i * h0)) / zn) f ∧
    HasDerivAt (fun f => (termsAt b f).pl) ((l1 - b.sl + 3 * ze * cos f * l0) / zn) f
  opposite : (termsAt b (f + π / 2)).pe = -(termsAt b f).pe ∧ (termsAt b (f + π / 2)).pinc = -(termsAt b f).pinc ∧
    (termsAt b (f + π / 2)).ph = -(termsAt b f).ph ∧ (termsAt b (f + π)).pgh + (termsAt b f).pgh = -((termsAt b (f + π / 2)).pgh + (termsAt b (f - π / 2)).pgh) ∧
    (termsAt b (f + π)).pl + (termsAt b f).pl = -((termsAt b (f + π / 2)).pl + (termsAt b (f - π / 2)).pl)

theorem opposite_aux (p q f : ℝ) : p * (1 / 2 * cos f ^ 2 - 1 / 4) + q * (-(1 / 2) * cos f * -sin f)
    = -(p * (1 / 2 * sin f ^ 2 - 1 / 4) + q * (-(1 / 2) * sin f * cos f)) := by
  linear_combination (p / 2) * sin_sq_add_cos_sq f

theorem div_of {z x y : ℝ} (hz : z ≠ 0) (h : z * y = x) : x / z = y := by rw [← h, mul_div_cancel_left₀ y hz]

theorem periodic_body (o : Orient) (cc ze : ℝ) {zn : ℝ} (hz : zn ≠ 0) {e : Elem} {i : Init} (hp : Prepared e i) {a : ℝ} (ha : a ≠ 0)
    (hn : i.xnodp ≠ 0) (he0 : e.eo ≠ 0) (he : e.eo ^ 2 < 1) (hs : sin e.xincl ≠ 0) (hi : π / 60 ≤ e.xincl) {b : Body}
    (hbt : b = bodyTerms (turned o e.xnodeo) cc zn ze e i) (f : ℝ) :
    PeriodicFrom (4 * cc * zn) zn ze o b i.xnodp a e.eo e.xincl e.xnodeo e.omegao f := by
  have hf := sin_sq_add_cos_sq f
  have hg := sin_sq_add_cos_sq e.omegao
  have hsm : ¬ e.xincl < π / 60 := not_lt.mpr hi
  rw [bodyTerms_core o cc zn ze hp] at hbt
  constructor
  · have L := lagrange_rates (4 * cc * zn) (dirAt o f) hn ha he0 he hs (dot_apse _ e.xincl e.xnodeo e.omegao) (dot_latus _ _ _ _) rfl
    have L0 := lagrange_rates (4 * cc * zn) ⟨0, 0, 0⟩ (X := 0) (Y := 0) (Z := 0) hn ha he0 he hs (i := e.xincl) (h := e.xnodeo) (g := e.omegao)
      (by simp [V3.dot]) (by simp [V3.dot]) (by simp [V3.dot])
    have hal : alongNode (dirAt o f) e.xnodeo = alongNode (axisP o) e.xnodeo * cos f + alongNode (axisQ o) e.xnodeo * sin f := by
      unfold alongNode dirAt V3.add V3.smul; dsimp only; ring
    have hac : acrossNode (dirAt o f) e.xincl e.xnodeo = acrossNode (axisP o) e.xincl e.xnodeo * cos f + acrossNode (axisQ o) e.xincl e.xnodeo * sin f := by
      unfold acrossNode dirAt V3.add V3.smul; dsimp only; ring
    rw [hal, hac, dirAt_dot] at L
    refine ⟨_, _, _, _, _, _, _, _, _, _, L, L0, ?_, ?_, ?_, ?_, ?_⟩
    · refine hda (hasDerivAt_terms0 b.e2 b.e3 f) rfl ?_
      exact div_of hz (rate_core_e hf b hbt)
    · refine hda (hasDerivAt_terms0 b.i2 b.i3 f) rfl ?_
      exact div_of hz (rate_core_i hf hg b hbt)
    · refine hda (hasDerivAt_terms0 b.h2 b.h3 f) rfl ?_
      rw [mul_div_cancel₀ _ hs]
      exact div_of hz (rate_core_h hf hg hsm b hbt)
    · refine hda (hasDerivAt_terms b.gh2 b.gh3 b.gh4 f) rfl ?_
      rw [sub_add_cancel, sub_add_cancel]
      exact div_of hz (rate_core_g hf b hbt)
    · refine hda (hasDerivAt_terms b.l2 b.l3 b.l4 f) rfl ?_
      exact div_of hz (rate_core_l hf hg b hbt)
  · simp only [termsAt, sin_add_pi_div_two, cos_add_pi_div_two, sin_add_pi, cos_add_pi, sin_sub_pi_div_two, cos_sub_pi_div_two]
    refine ⟨opposite_aux _ _ f, opposite_aux _ _ f, opposite_aux _ _ f, ?_, ?_⟩
    · linear_combination b.gh2 * hf
    · linear_combination b.l2 * hf

/-- The terms of Sun and Moon together. -/
noncomputable def Periodic.plus (p q : Periodic) : Periodic := ⟨p.pe + q.pe, p.pinc + q.pinc, p.pl + q.pl, p.pgh + q.pgh, p.ph + q.ph⟩

/-- C105: the periodic terms applied at time `t` are those of the Sun and of the Moon at their true anomalies (to first order in the eccentricity).
Each has as its derivative with respect to the true anomaly the deviation of the rates of Lagrange's equations, for the body in that direction, from
the secular rates, divided by the mean motion of the body, plus for argument of the perigee and mean anomaly the variation of the isotropic part with
the distance; and each has the mean zero. -/
theorem C105_periodic (e : Elem) {a : ℝ} (ha : a ≠ 0) (hn : (SDP4_init e).i.xnodp ≠ 0) (he0 : 0 < e.eo) (he1 : e.eo < 1) (hi : π / 60 ≤ e.xincl)
    (hi' : e.xincl < π) :
    (∀ t, periodic (SDP4_init e) t = Periodic.plus (termsAt (SDP4_init e).sun (centre ((SDP4_init e).zmos + znsMin * t) zes))
      (termsAt (SDP4_init e).moon (centre ((SDP4_init e).zmol + znlMin * t) zel))) ∧
    ∀ f, PeriodicFrom (4 * (29864797 / 10 ^ 13) * znsMin) znsMin zes (solarOrient 0) (SDP4_init e).sun (SDP4_init e).i.xnodp a
        e.eo e.xincl e.xnodeo e.omegao f ∧
      PeriodicFrom (4 * (47968065 / 10 ^ 14) * znlMin) znlMin zel (lunarOrient (e.epoch - 2415020) 0) (SDP4_init e).moon (SDP4_init e).i.xnodp a
        e.eo e.xincl e.xnodeo e.omegao f := by
  have hs : sin e.xincl ≠ 0 := (sin_pos_of_pos_of_lt_pi (lt_of_lt_of_le (by positivity) hi) hi').ne'
  have he : e.eo ^ 2 < 1 := by nlinarith
  have hp := prepared e
  refine ⟨fun t => ?_, fun f => ⟨?_, ?_⟩⟩
  · unfold periodic anomalies Periodic.plus termsAt centre
    dsimp only
    congr 1 <;> ring
  · exact periodic_body (solarOrient 0) _ _ (by unfold znsMin; norm_num) hp ha hn he0.ne' he hs hi
      (congrArg (bodyTerms · _ _ _ e _) (solar_turned e.xnodeo)) f
  · exact periodic_body (lunarOrient (e.epoch - 2415020) 0) _ _ (by unfold znlMin; norm_num) hp ha hn he0.ne' he hs hi
      (congrArg (bodyTerms · _ _ _ e _) (lunar_turned (e.epoch - 2415020) e.xnodeo)) f

/-- A satellite to which C104 and C105 apply. -/
example : Lagrange (lunisolar polar) (SDP4_init polar).i.xnodp 9 (1 / 2) polar.xincl π 0
    (SDP4_init polar).sse (SDP4_init polar).ssi (SDP4_init polar).ssh (SDP4_init polar).ssg (SDP4_init polar).ssl := by
  have hp := pi_gt_d2
  have hp2 := pi_lt_d2
  have h1 : π / 4 < polar.xincl := by
    unfold polar
    rw [← arctan_one]
    exact arctan_strictMono (by unfold zcosi0 zsini0; norm_num)
  have h2 : polar.xincl < π / 2 := arctan_lt_pi_div_two _
  exact C104_secular polar (by norm_num) polar_xnodp.1.ne' (by unfold polar; norm_num) (by unfold polar; norm_num) (by linarith) (by linarith)

/-- A body in the direction of the perigee of a circular orbit moves it forward, by 9/2 of its strength over the mean motion. -/
example : rateG 1 1 1 0 = 9 / 2 := by unfold rateG; norm_num

end SatSky.Props
