import Verif.Model.Propagate
import Verif.Spec.Oblate
import Verif.Lemmas.Angles
import Mathlib.Analysis.SpecialFunctions.Sqrt
import Mathlib.Analysis.SpecialFunctions.Trigonometric.Deriv

/-! C107: the near-circular orbit of SGP4 is the motion around an oblate Earth to the first order of the oblateness. -/

namespace SatSky.Props

open Real SatSky.Spec SatSky.Sxp SatSky.Geo

/-- The normal of the orbit. -/
noncomputable def orientW (h i : ℝ) : V3 := ⟨sin h * sin i, -(cos h * sin i), cos i⟩

theorem hasVel_congr {f g : ℝ → V3} {v w : V3} {t : ℝ} (h : HasVel f v t) (hf : g = f) (hv : w = v) : HasVel g w t := by rw [hf, hv]; exact h

theorem hda' {f g : ℝ → ℝ} {a b x : ℝ} (h : HasDerivAt f a x) (hf : ∀ y, g y = f y) (hab : b = a) : HasDerivAt g b x := by
  rw [show g = f from funext hf, hab]; exact h

/-- How the direction of the satellite changes with its angles. -/
theorem orientU_deriv {u h i : ℝ → ℝ} {u' h' i' x : ℝ} (hu : HasDerivAt u u' x) (hh : HasDerivAt h h' x) (hi : HasDerivAt i i' x) :
    HasVel (fun k => orientU (u k) (h k) (i k))
      (((orientV (u x) (h x) (i x)).smul (u' + cos (i x) * h')).add ((orientW (h x) (i x)).smul (sin (u x) * i' - cos (u x) * sin (i x) * h'))) x := by
  have su := hu.sin; have cu := hu.cos; have sh := hh.sin; have ch := hh.cos; have si := hi.sin; have ci := hi.cos
  have e1 := sin_sq_add_cos_sq (i x)
  refine ⟨hda' (((sh.neg.mul ci).mul su).add (ch.mul cu)) (fun y => rfl) ?_, hda' (((ch.mul ci).mul su).add (sh.mul cu)) (fun y => rfl) ?_,
    hda' (si.mul su) (fun y => rfl) ?_⟩ <;> simp only [V3.add, V3.smul, orientV, orientW, Pi.mul_apply, Pi.neg_apply]
  · linear_combination (-sin (h x) * cos (u x) * h') * e1
  · linear_combination (cos (h x) * cos (u x) * h') * e1
  · ring

theorem orientV_deriv {u h i : ℝ → ℝ} {u' h' i' x : ℝ} (hu : HasDerivAt u u' x) (hh : HasDerivAt h h' x) (hi : HasDerivAt i i' x) :
    HasVel (fun k => orientV (u k) (h k) (i k))
      (((orientU (u x) (h x) (i x)).smul (-(u' + cos (i x) * h'))).add ((orientW (h x) (i x)).smul (cos (u x) * i' + sin (u x) * sin (i x) * h'))) x := by
  have su := hu.sin; have cu := hu.cos; have sh := hh.sin; have ch := hh.cos; have si := hi.sin; have ci := hi.cos
  have e1 := sin_sq_add_cos_sq (i x)
  refine ⟨hda' (((sh.neg.mul ci).mul cu).sub (ch.mul su)) (fun y => rfl) ?_, hda' (((ch.mul ci).mul cu).sub (sh.mul su)) (fun y => rfl) ?_,
    hda' (si.mul cu) (fun y => rfl) ?_⟩ <;> simp only [V3.add, V3.smul, orientU, orientW, Pi.mul_apply, Pi.neg_apply]
  · linear_combination (sin (h x) * sin (u x) * h') * e1
  · linear_combination (-cos (h x) * sin (u x) * h') * e1
  · ring

/-- The derivative of the distance. -/
theorem len_deriv {f : ℝ → V3} {v : V3} {t : ℝ} (h : HasVel f v t) (h0 : 0 < (f t).len) :
    HasDerivAt (fun s => (f s).len) ((f t).dot v / (f t).len) t := by
  obtain ⟨hx, hy, hz⟩ := h
  have hd := ((hx.mul hx).add (hy.mul hy)).add (hz.mul hz)
  have hne : (f t).dot (f t) ≠ 0 := by
    intro h; unfold V3.len at h0; rw [h] at h0; simp at h0
  refine hda' (hd.sqrt hne) (fun y => rfl) ?_
  have : √((f t).dot (f t)) = (f t).len := rfl
  simp only [Pi.add_apply, Pi.mul_apply]
  rw [show (f t).x * (f t).x + (f t).y * (f t).y + (f t).z * (f t).z = (f t).dot (f t) from rfl, this, div_eq_div_iff h0.ne' (by positivity)]
  unfold V3.dot; ring

/-- The attraction of the oblate Earth. -/
noncomputable def pull (μ R k : ℝ) (p : V3) (ρ : ℝ) : V3 :=
  let f := -(μ / ρ ^ 3) + μ * k * R ^ 2 * (15 * p.z ^ 2 / ρ ^ 7 - 3 / ρ ^ 5)
  ⟨p.x * f, p.y * f, p.z * f - 6 * μ * k * R ^ 2 * p.z / ρ ^ 5⟩

theorem oblate_deriv (μ R k : ℝ) {f : ℝ → V3} {v : V3} {t : ℝ} (h : HasVel f v t) (h0 : 0 < (f t).len) :
    HasDerivAt (fun s => oblate μ R k (f s)) ((pull μ R k (f t) (f t).len).dot v) t := by
  have hl := len_deriv h h0
  have hn : (f t).len ≠ 0 := h0.ne'
  have h1 := (hasDerivAt_const t μ).div hl hn
  have h2 := ((hasDerivAt_const t (μ * k * R ^ 2)).div (hl.pow 3) (pow_ne_zero 3 hn)).mul ((((h.2.2.div hl hn).pow 2).const_mul 3).sub_const 1)
  refine hda' (h1.sub h2) (fun y => rfl) ?_
  simp only [Pi.pow_apply, Pi.div_apply, pull]
  generalize (f t).len = ρ at *
  generalize hD : (f t).dot v = D at *
  have hD' : D = (f t).x * v.x + (f t).y * v.y + (f t).z * v.z := hD.symm
  unfold V3.dot
  dsimp only
  generalize (f t).x = x at *
  generalize (f t).y = y at *
  generalize (f t).z = z at *
  simp only [hD']
  push_cast
  norm_num
  field_simp
  ring

theorem gradient_oblate (μ R k : ℝ) (p : V3) (h0 : 0 < p.len) : gradient (oblate μ R k) p = pull μ R k p p.len := by
  have hx := oblate_deriv μ R k (f := fun x => ⟨x, p.y, p.z⟩) (v := ⟨1, 0, 0⟩) (t := p.x)
    ⟨hasDerivAt_id _, hasDerivAt_const _ _, hasDerivAt_const _ _⟩ h0
  have hy := oblate_deriv μ R k (f := fun y => ⟨p.x, y, p.z⟩) (v := ⟨0, 1, 0⟩) (t := p.y)
    ⟨hasDerivAt_const _ _, hasDerivAt_id _, hasDerivAt_const _ _⟩ h0
  have hz := oblate_deriv μ R k (f := fun z => ⟨p.x, p.y, z⟩) (v := ⟨0, 0, 1⟩) (t := p.z)
    ⟨hasDerivAt_const _ _, hasDerivAt_const _ _, hasDerivAt_id _⟩ h0
  unfold gradient
  rw [hx.deriv, hy.deriv, hz.deriv]
  simp [V3.dot]

/-- How the attraction changes with the oblateness when the position changes with it. -/
theorem gradient_deriv (μ R : ℝ) {P : ℝ → V3} {δ : V3} (h : HasVel P δ 0) (h0 : 0 < (P 0).len) :
    HasVel (fun k => gradient (oblate μ R k) (P k))
      (let p := P 0; let ρ := p.len
       let f := 3 * μ * (p.dot δ) / ρ ^ 5 + μ * R ^ 2 * (15 * p.z ^ 2 / ρ ^ 7 - 3 / ρ ^ 5)
       ⟨-(μ / ρ ^ 3) * δ.x + p.x * f, -(μ / ρ ^ 3) * δ.y + p.y * f, -(μ / ρ ^ 3) * δ.z + p.z * f - 6 * μ * R ^ 2 * p.z / ρ ^ 5⟩) 0 := by
  have hl := len_deriv h h0
  have hn : (P 0).len ≠ 0 := h0.ne'
  have hev : ∀ᶠ k in nhds (0 : ℝ), gradient (oblate μ R k) (P k) = pull μ R k (P k) (P k).len := by
    filter_upwards [hl.continuousAt.eventually (lt_mem_nhds h0)] with k hk
    exact gradient_oblate μ R k (P k) hk
  have hx := h.1; have hy := h.2.1; have hz := h.2.2
  have hk := hasDerivAt_id (0 : ℝ)
  have hf := ((hasDerivAt_const (0 : ℝ) μ).div (hl.pow 3) (pow_ne_zero 3 hn)).neg.add
    (((hk.const_mul μ).mul_const (R ^ 2)).mul ((((hz.pow 2).const_mul 15).div (hl.pow 7) (pow_ne_zero 7 hn)).sub
      ((hasDerivAt_const (0 : ℝ) (3 : ℝ)).div (hl.pow 5) (pow_ne_zero 5 hn))))
  have hw := ((((hk.const_mul (6 * μ)).mul_const (R ^ 2)).mul hz).div (hl.pow 5) (pow_ne_zero 5 hn))
  refine ⟨HasDerivAt.congr_of_eventuallyEq (hda' (hx.mul hf) (fun y => rfl) ?_) (hev.mono fun k hk => by dsimp only; rw [hk]; rfl),
    HasDerivAt.congr_of_eventuallyEq (hda' (hy.mul hf) (fun y => rfl) ?_) (hev.mono fun k hk => by dsimp only; rw [hk]; rfl),
    HasDerivAt.congr_of_eventuallyEq (hda' ((hz.mul hf).sub hw) (fun y => rfl) ?_) (hev.mono fun k hk => by dsimp only; rw [hk]; rfl)⟩ <;>
  · simp only [Pi.pow_apply, Pi.div_apply, Pi.mul_apply, Pi.add_apply, Pi.sub_apply, Pi.neg_apply, id]
    generalize (P 0).dot δ = D at *
    generalize (P 0).len = ρ at *
    field_simp
    ring

/-- The mean elements of a circular orbit. -/
noncomputable def circularMean (a i h : ℝ) : Mean where
  xnode := h
  a := a
  ecc := 0
  cosio := cos i
  sinio := sin i
  xincl := i
  omega := 0
  xl := h

theorem atan2_angle (u : ℝ) : cos (atan2 (sin u) (cos u)) = cos u ∧ sin (atan2 (sin u) (cos u)) = sin u := by
  have h := atan2_polar (sin u) (cos u)
  rw [show cos u * cos u + sin u * sin u = 1 by have := sin_sq_add_cos_sq u; linarith, sqrt_one, one_mul, one_mul] at h
  exact h

theorem orient_atan2 (u d h i : ℝ) : orientU (atan2 (sin u) (cos u) - d) h i = orientU (u - d) h i ∧
    orientV (atan2 (sin u) (cos u) - d) h i = orientV (u - d) h i := by
  obtain ⟨h1, h2⟩ := atan2_angle u
  constructor <;> simp only [orientU, orientV, cos_sub, sin_sub, h1, h2]

/-- The position and the velocity of a circular orbit in the program. -/
theorem posVelOf_circular (k i h u : ℝ) {a : ℝ} (ha : 0 < a) :
    let x3 := 3 * (cos i * cos i) - 1
    let s2 := 1 - cos i * cos i
    let e := k / a / a
    let n := xke / (a * √a)
    let S := 2 * sin u * cos u
    let C := 2 * cos u * cos u - 1
    let rk := a * (1 - 3 / 2 * e * x3) + 1 / 2 * (k / a) * s2 * C
    let uk := u - 1 / 4 * e * (7 * (cos i * cos i) - 1) * S
    let hk := h + 3 / 2 * e * cos i * S
    let ik := i + 3 / 2 * e * cos i * sin i * C
    posVelOf k 0 0 (circularMean a i h) u
      = ((orientU uk hk ik).smul (earthRadius * rk),
         ((orientU uk hk ik).smul (earthRadius * (-(n * (k / a) * s2 * S)))).add
           ((orientV uk hk ik).smul (earthRadius * (a * n + n * (k / a) * (s2 * C + 3 / 2 * x3))))) := by
  intro x3 s2 e n S C rk uk hk ik
  have hp : shortPrelim a 0 0 u = (a, cos u, sin u) := by
    unfold shortPrelim
    simp [ha.ne']
  have hr : shortRates a 0 0 u = (0, a * n) := by
    unfold shortRates
    rw [hp]
    have : √a ≠ 0 := (sqrt_pos.mpr ha).ne'
    have h2 : √a * √a = a := mul_self_sqrt ha.le
    simp only [n, zero_mul, sub_zero, mul_zero, add_zero, mul_one, zero_div, Prod.mk.injEq, true_and]
    field_simp
    rw [sq_sqrt ha.le]
  obtain ⟨h1, h2⟩ := orient_atan2 u (1 / 4 * e * (7 * (cos i * cos i) - 1) * S) hk ik
  unfold posVelOf
  simp only [circularMean, hp, hr, mul_zero, add_zero, sub_zero, mul_one, sqrt_one, zero_sub]
  ext <;> simp only [V3.smul, V3.add]
  all_goals (try rw [show orientU (atan2 (sin u) (cos u) - 1 / 4 * (k / a / a) * (7 * (cos i * cos i) - 1) * (2 * sin u * cos u)) hk ik = orientU uk hk ik from h1])
  all_goals (try rw [show orientV (atan2 (sin u) (cos u) - 1 / 4 * (k / a / a) * (7 * (cos i * cos i) - 1) * (2 * sin u * cos u)) hk ik = orientV uk hk ik from h2])
  all_goals simp only [rk, e, x3, s2, S, C, n]; ring

/-- A combination of the three vectors of the orbit. -/
noncomputable def inFrame (u h i A B C : ℝ) : V3 := (((orientU u h i).smul A).add ((orientV u h i).smul B)).add ((orientW h i).smul C)

/-- A vector given in the frame that turns with the satellite. -/
theorem frame_deriv {A B C u : ℝ → ℝ} {A' B' C' n t : ℝ} (h i : ℝ) (hA : HasDerivAt A A' t) (hB : HasDerivAt B B' t) (hC : HasDerivAt C C' t)
    (hu : HasDerivAt u n t) :
    HasVel (fun s => inFrame (u s) h i (A s) (B s) (C s)) (inFrame (u t) h i (A' - n * B t) (B' + n * A t) C') t := by
  have hU := orientU_deriv hu (hasDerivAt_const t h) (hasDerivAt_const t i)
  have hV := orientV_deriv hu (hasDerivAt_const t h) (hasDerivAt_const t i)
  refine ⟨hda' (((hA.mul hU.1).add (hB.mul hV.1)).add (hC.mul_const (orientW h i).x)) (fun y => rfl) ?_,
    hda' (((hA.mul hU.2.1).add (hB.mul hV.2.1)).add (hC.mul_const (orientW h i).y)) (fun y => rfl) ?_,
    hda' (((hA.mul hU.2.2).add (hB.mul hV.2.2)).add (hC.mul_const (orientW h i).z)) (fun y => rfl) ?_⟩ <;>
  · simp only [inFrame, V3.add, V3.smul]
    ring

/-- A multiple of the direction of the satellite, and of the direction of motion. -/
theorem radial_deriv {r u h i : ℝ → ℝ} {r' u' h' i' x : ℝ} (R : ℝ) (hr : HasDerivAt r r' x) (hu : HasDerivAt u u' x) (hh : HasDerivAt h h' x)
    (hi : HasDerivAt i i' x) :
    HasVel (fun k => (orientU (u k) (h k) (i k)).smul (R * r k))
      (inFrame (u x) (h x) (i x) (R * r') (R * (r x * (u' + cos (i x) * h'))) (R * (r x * (sin (u x) * i' - cos (u x) * sin (i x) * h')))) x := by
  have hU := orientU_deriv hu hh hi
  have hr' := hr.const_mul R
  refine ⟨hda' (hr'.mul hU.1) (fun y => rfl) ?_, hda' (hr'.mul hU.2.1) (fun y => rfl) ?_, hda' (hr'.mul hU.2.2) (fun y => rfl) ?_⟩ <;>
  · simp only [inFrame, V3.add, V3.smul]
    ring

theorem transverse_deriv {r u h i : ℝ → ℝ} {r' u' h' i' x : ℝ} (R : ℝ) (hr : HasDerivAt r r' x) (hu : HasDerivAt u u' x) (hh : HasDerivAt h h' x)
    (hi : HasDerivAt i i' x) :
    HasVel (fun k => (orientV (u k) (h k) (i k)).smul (R * r k))
      (inFrame (u x) (h x) (i x) (R * -(r x * (u' + cos (i x) * h'))) (R * r') (R * (r x * (cos (u x) * i' + sin (u x) * sin (i x) * h')))) x := by
  have hU := orientV_deriv hu hh hi
  have hr' := hr.const_mul R
  refine ⟨hda' (hr'.mul hU.1) (fun y => rfl) ?_, hda' (hr'.mul hU.2.1) (fun y => rfl) ?_, hda' (hr'.mul hU.2.2) (fun y => rfl) ?_⟩ <;>
  · simp only [inFrame, V3.add, V3.smul]
    ring

/-- What the program prepares for a circular orbit. -/
noncomputable def circularRecov (a i : ℝ) : Recov where
  cosio := cos i
  cosio2 := cos i * cos i
  eosq := 0
  betao2 := 1
  betao := 1
  xnodp := xke / (a * √a)
  aodp := a

/-- Position and velocity of the program at the time `t` on a circular orbit of radius `a`, inclination `i`, node `h` and argument of latitude `u`
at the time zero, if the second zonal harmonic of the field had the coefficient `k` and the fourth one were proportional to its square; the long
periodic terms (of the third harmonic) and drag left out. -/
noncomputable def circularAt (a i h u k t : ℝ) : V3 × V3 :=
  let k4 := ck4 / ck2 ^ 2 * k ^ 2
  posVelOf k 0 0 (circularMean a i (h + xnodotOf k k4 (circularRecov a i) * t))
    (u + (xmdotOf k (circularRecov a i) + omgdotOf k k4 (circularRecov a i)) * t)

theorem node_rate (a i : ℝ) (ha : a ≠ 0) : ∃ N : ℝ, ∀ k, xnodotOf k (ck4 / ck2 ^ 2 * k ^ 2) (circularRecov a i)
    = k * (-(3 * (xke / (a * √a)) * cos i / a ^ 2)) + k ^ 2 * N := by
  refine ⟨(3 / a ^ 4 * (xke / (a * √a)) * (4 - 19 * (cos i * cos i)) / 2 + 2 * (5 / 4 * (ck4 / ck2 ^ 2) / a ^ 4 * (xke / (a * √a))) *
    (3 - 7 * (cos i * cos i))) * cos i, fun k => ?_⟩
  unfold xnodotOf xhdot1Of
  simp only [circularRecov]
  generalize xke / (a * √a) = n
  generalize ck4 / ck2 ^ 2 = κ
  field_simp

theorem latitude_rate (a i : ℝ) (ha : a ≠ 0) : ∃ M : ℝ, ∀ k,
    xmdotOf k (circularRecov a i) + omgdotOf k (ck4 / ck2 ^ 2 * k ^ 2) (circularRecov a i)
    = xke / (a * √a) + k * (3 * (xke / (a * √a)) * (4 * (cos i * cos i) - 1) / a ^ 2) + k ^ 2 * M := by
  refine ⟨3 / a ^ 4 * (xke / (a * √a)) * (20 - 192 * (cos i * cos i) + 532 * (cos i * cos i) ^ 2) / 16 +
    5 / 4 * (ck4 / ck2 ^ 2) / a ^ 4 * (xke / (a * √a)) * (3 - 36 * (cos i * cos i) + 49 * (cos i * cos i) ^ 2), fun k => ?_⟩
  unfold xmdotOf omgdotOf
  simp only [circularRecov]
  generalize xke / (a * √a) = n
  generalize ck4 / ck2 ^ 2 = κ
  field_simp
  ring

theorem quadratic_deriv (c x y : ℝ) : HasDerivAt (fun k : ℝ => c + k * x + k ^ 2 * y) x 0 :=
  hda' ((((hasDerivAt_id (0 : ℝ)).mul_const x).const_add c).add (((hasDerivAt_id (0 : ℝ)).pow 2).mul_const y)) (fun _ => rfl) (by simp)

theorem small_deriv {f g : ℝ → ℝ} {f' g' : ℝ} (hf : HasDerivAt f f' 0) (hg : HasDerivAt g g' 0) :
    HasDerivAt (fun k => f k + k * g k) (f' + g 0) 0 :=
  hda' (hf.add ((hasDerivAt_id (0 : ℝ)).mul hg)) (fun _ => rfl) (by simp)

/-- The displacement that the oblateness causes, in the frame that turns with the satellite, and its derivatives. -/
noncomputable def xi (a i u : ℝ) : ℝ := (-(3 / 2) * (3 * (cos i * cos i) - 1) + 1 / 2 * (1 - cos i * cos i) * (2 * cos u * cos u - 1)) / a
noncomputable def eta' (a i n u t : ℝ) : ℝ := (1 / 4 * (1 - cos i * cos i) * (2 * sin u * cos u) + 3 * n * (3 * (cos i * cos i) - 1) * t) / a
noncomputable def zeta' (a i n u t : ℝ) : ℝ := cos i * sin i * (-(3 / 2) * sin u + 3 * n * t * cos u) / a

theorem moving (u n t : ℝ) : HasDerivAt (fun s => u + n * s) n t := by
  simpa using ((hasDerivAt_id t).const_mul n).const_add u

theorem xi_deriv (a i n u t : ℝ) : HasDerivAt (fun s => xi a i (u + n * s)) (-(n * (1 - cos i * cos i) * (2 * sin (u + n * t) * cos (u + n * t))) / a) t := by
  have hu := moving u n t
  refine hda' (((((hu.cos.const_mul 2).mul hu.cos).sub_const 1).const_mul (1 / 2 * (1 - cos i * cos i))).const_add
    (-(3 / 2) * (3 * (cos i * cos i) - 1)) |>.div_const a) (fun y => rfl) ?_
  ring

theorem xi_deriv2 (a i n u t : ℝ) : HasDerivAt (fun s => -(n * (1 - cos i * cos i) * (2 * sin (u + n * s) * cos (u + n * s))) / a)
    (-(2 * n ^ 2 * (1 - cos i * cos i) * (2 * cos (u + n * t) * cos (u + n * t) - 1)) / a) t := by
  have hu := moving u n t
  refine hda' ((((hu.sin.const_mul 2).mul hu.cos).const_mul (n * (1 - cos i * cos i))).neg.div_const a) (fun y => rfl) ?_
  have := sin_sq_add_cos_sq (u + n * t)
  congr 1
  linear_combination (-2 * n ^ 2 * (1 - cos i ^ 2)) * this

theorem eta_deriv (a i n u t : ℝ) : HasDerivAt (fun s => eta' a i n (u + n * s) s)
    ((1 / 2 * n * (1 - cos i * cos i) * (2 * cos (u + n * t) * cos (u + n * t) - 1) + 3 * n * (3 * (cos i * cos i) - 1)) / a) t := by
  have hu := moving u n t
  refine hda' ((((hu.sin.const_mul 2).mul hu.cos).const_mul (1 / 4 * (1 - cos i * cos i))).add
    ((hasDerivAt_id t).const_mul (3 * n * (3 * (cos i * cos i) - 1))) |>.div_const a) (fun y => rfl) ?_
  have := sin_sq_add_cos_sq (u + n * t)
  congr 1
  linear_combination (1 / 2 * n * (1 - cos i ^ 2)) * this

theorem eta_deriv2 (a i n u t : ℝ) : HasDerivAt (fun s =>
    (1 / 2 * n * (1 - cos i * cos i) * (2 * cos (u + n * s) * cos (u + n * s) - 1) + 3 * n * (3 * (cos i * cos i) - 1)) / a)
    (-(n ^ 2 * (1 - cos i * cos i) * (2 * sin (u + n * t) * cos (u + n * t))) / a) t := by
  have hu := moving u n t
  refine hda' (((((hu.cos.const_mul 2).mul hu.cos).sub_const 1).const_mul (1 / 2 * n * (1 - cos i * cos i))).add_const
    (3 * n * (3 * (cos i * cos i) - 1)) |>.div_const a) (fun y => rfl) ?_
  ring

theorem zeta_deriv (a i n u t : ℝ) : HasDerivAt (fun s => zeta' a i n (u + n * s) s)
    (cos i * sin i * (3 / 2 * n * cos (u + n * t) - 3 * n ^ 2 * t * sin (u + n * t)) / a) t := by
  have hu := moving u n t
  refine hda' (((hu.sin.const_mul (-(3 / 2))).add (((hasDerivAt_id t).const_mul (3 * n)).mul hu.cos)).const_mul (cos i * sin i) |>.div_const a)
    (fun y => rfl) ?_
  simp only [id]
  ring

theorem zeta_deriv2 (a i n u t : ℝ) : HasDerivAt (fun s => cos i * sin i * (3 / 2 * n * cos (u + n * s) - 3 * n ^ 2 * s * sin (u + n * s)) / a)
    (cos i * sin i * (-(9 / 2) * n ^ 2 * sin (u + n * t) - 3 * n ^ 3 * t * cos (u + n * t)) / a) t := by
  have hu := moving u n t
  refine hda' (((hu.cos.const_mul (3 / 2 * n)).sub (((hasDerivAt_id t).const_mul (3 * n ^ 2)).mul hu.sin)).const_mul (cos i * sin i) |>.div_const a)
    (fun y => rfl) ?_
  simp only [id]
  ring

/-- The displacement, its velocity and its acceleration, km. -/
noncomputable def shift (R a i h u n t : ℝ) : V3 :=
  inFrame (u + n * t) h i (R * xi a i (u + n * t)) (R * eta' a i n (u + n * t) t) (R * zeta' a i n (u + n * t) t)
noncomputable def shift1 (R a i h u n t : ℝ) : V3 :=
  inFrame (u + n * t) h i
    (R * (-(n * (1 - cos i * cos i) * (2 * sin (u + n * t) * cos (u + n * t))) / a) - n * (R * eta' a i n (u + n * t) t))
    (R * ((1 / 2 * n * (1 - cos i * cos i) * (2 * cos (u + n * t) * cos (u + n * t) - 1) + 3 * n * (3 * (cos i * cos i) - 1)) / a)
      + n * (R * xi a i (u + n * t)))
    (R * (cos i * sin i * (3 / 2 * n * cos (u + n * t) - 3 * n ^ 2 * t * sin (u + n * t)) / a))
noncomputable def shift2 (R a i h u n t : ℝ) : V3 :=
  inFrame (u + n * t) h i
    (R * (-(2 * n ^ 2 * (1 - cos i * cos i) * (2 * cos (u + n * t) * cos (u + n * t) - 1)) / a)
      - 2 * n * (R * ((1 / 2 * n * (1 - cos i * cos i) * (2 * cos (u + n * t) * cos (u + n * t) - 1) + 3 * n * (3 * (cos i * cos i) - 1)) / a))
      - n ^ 2 * (R * xi a i (u + n * t)))
    (R * (-(n ^ 2 * (1 - cos i * cos i) * (2 * sin (u + n * t) * cos (u + n * t))) / a)
      + 2 * n * (R * (-(n * (1 - cos i * cos i) * (2 * sin (u + n * t) * cos (u + n * t))) / a)) - n ^ 2 * (R * eta' a i n (u + n * t) t))
    (R * (cos i * sin i * (-(9 / 2) * n ^ 2 * sin (u + n * t) - 3 * n ^ 3 * t * cos (u + n * t)) / a))

theorem shift_deriv (R a i h u n t : ℝ) : HasVel (shift R a i h u n) (shift1 R a i h u n t) t :=
  frame_deriv h i ((xi_deriv a i n u t).const_mul R) ((eta_deriv a i n u t).const_mul R) ((zeta_deriv a i n u t).const_mul R) (moving u n t)

theorem shift1_deriv (R a i h u n t : ℝ) : HasVel (shift1 R a i h u n) (shift2 R a i h u n t) t := by
  have h1 := ((xi_deriv2 a i n u t).const_mul R).sub (((eta_deriv a i n u t).const_mul R).const_mul n)
  have h2 := ((eta_deriv2 a i n u t).const_mul R).add (((xi_deriv a i n u t).const_mul R).const_mul n)
  refine hasVel_congr (frame_deriv h i h1 h2 ((zeta_deriv2 a i n u t).const_mul R) (moving u n t)) rfl ?_
  unfold shift2
  congr 1
  · simp only [Pi.add_apply]; ring
  · simp only [Pi.sub_apply]; ring

/-- The first order of the position and of the velocity of the program. -/
theorem circular_first {a : ℝ} (i h u t : ℝ) (ha : 0 < a) :
    HasVel (fun k => (circularAt a i h u k t).1) (shift earthRadius a i h u (xke / (a * √a)) t) 0 ∧
    HasVel (fun k => (circularAt a i h u k t).2) (shift1 earthRadius a i h u (xke / (a * √a)) t) 0 := by
  obtain ⟨N, hN⟩ := node_rate a i ha.ne'
  obtain ⟨M, hM⟩ := latitude_rate a i ha.ne'
  simp only [circularAt, hN, hM]
  simp only [posVelOf_circular _ _ _ _ ha]
  generalize xke / (a * √a) = n
  generalize earthRadius = R
  set w : ℝ := u + n * t with hw
  obtain ⟨U, eU⟩ : ∃ U : ℝ → ℝ, ∀ k, U k = u + (n + k * (3 * n * (4 * (cos i * cos i) - 1) / a ^ 2) + k ^ 2 * M) * t := ⟨_, fun k => rfl⟩
  obtain ⟨H, eH⟩ : ∃ H : ℝ → ℝ, ∀ k, H k = h + (k * (-(3 * n * cos i / a ^ 2)) + k ^ 2 * N) * t := ⟨_, fun k => rfl⟩
  simp only [← eU, ← eH]
  have hU : HasDerivAt U (3 * n * (4 * (cos i * cos i) - 1) / a ^ 2 * t) 0 :=
    hda' (quadratic_deriv (u + n * t) _ (M * t)) (fun k => by rw [eU]; ring) rfl
  have hH : HasDerivAt H (-(3 * n * cos i / a ^ 2) * t) 0 := hda' (quadratic_deriv h _ (N * t)) (fun k => by rw [eH]; ring) rfl
  have hU0 : U 0 = w := by simp [w, eU]
  have hH0 : H 0 = h := by simp [eH]
  have hS : HasDerivAt (fun k => 2 * sin (U k) * cos (U k)) _ 0 := (hU.sin.const_mul 2).mul hU.cos
  have hC : HasDerivAt (fun k => 2 * cos (U k) * cos (U k) - 1) _ 0 := ((hU.cos.const_mul 2).mul hU.cos).sub_const 1
  have hr : HasDerivAt (fun k => a * (1 - 3 / 2 * (k / a / a) * (3 * (cos i * cos i) - 1)) + 1 / 2 * (k / a) * (1 - cos i * cos i) * (2 * cos (U k) * cos (U k) - 1))
      (xi a i w) 0 := by
    refine hda' (small_deriv (hasDerivAt_const (0 : ℝ) a) ((hC.const_mul (1 / 2 * (1 - cos i * cos i) / a)).const_add
      (-(3 / 2) * (3 * (cos i * cos i) - 1) / a))) (fun k => ?_) ?_
    · field_simp
      ring
    · rw [hU0]; unfold xi; ring
  have hu : HasDerivAt (fun k => U k - 1 / 4 * (k / a / a) * (7 * (cos i * cos i) - 1) * (2 * sin (U k) * cos (U k)))
      (3 * n * (4 * (cos i * cos i) - 1) / a ^ 2 * t - 1 / 4 * (7 * (cos i * cos i) - 1) * (2 * sin w * cos w) / a ^ 2) 0 := by
    refine hda' (small_deriv hU (hS.const_mul (-(1 / 4) * (7 * (cos i * cos i) - 1) / a ^ 2))) (fun k => ?_) ?_
    · field_simp
      ring
    · rw [hU0]; ring
  have hh : HasDerivAt (fun k => H k + 3 / 2 * (k / a / a) * cos i * (2 * sin (U k) * cos (U k)))
      (-(3 * n * cos i / a ^ 2) * t + 3 / 2 * cos i * (2 * sin w * cos w) / a ^ 2) 0 := by
    refine hda' (small_deriv hH (hS.const_mul (3 / 2 * cos i / a ^ 2))) (fun k => ?_) ?_
    · field_simp
    · rw [hU0]; ring
  have hi : HasDerivAt (fun k => i + 3 / 2 * (k / a / a) * cos i * sin i * (2 * cos (U k) * cos (U k) - 1))
      (3 / 2 * cos i * sin i * (2 * cos w * cos w - 1) / a ^ 2) 0 := by
    refine hda' (small_deriv (hasDerivAt_const (0 : ℝ) i) (hC.const_mul (3 / 2 * cos i * sin i / a ^ 2))) (fun k => ?_) ?_
    · field_simp
    · rw [hU0]; ring
  have hd : HasDerivAt (fun k => -(n * (k / a) * (1 - cos i * cos i) * (2 * sin (U k) * cos (U k))))
      (-(n * (1 - cos i * cos i) * (2 * sin w * cos w)) / a) 0 := by
    refine hda' (small_deriv (hasDerivAt_const (0 : ℝ) 0) (hS.const_mul (-(n * (1 - cos i * cos i)) / a))) (fun k => ?_) ?_
    · field_simp
      ring
    · rw [hU0]; ring
  have hf : HasDerivAt (fun k => a * n + n * (k / a) * ((1 - cos i * cos i) * (2 * cos (U k) * cos (U k) - 1) + 3 / 2 * (3 * (cos i * cos i) - 1)))
      (n * ((1 - cos i * cos i) * (2 * cos w * cos w - 1) + 3 / 2 * (3 * (cos i * cos i) - 1)) / a) 0 := by
    refine hda' (small_deriv (hasDerivAt_const (0 : ℝ) (a * n)) (((hC.const_mul (1 - cos i * cos i)).add_const (3 / 2 * (3 * (cos i * cos i) - 1))).const_mul
      (n / a))) (fun k => ?_) ?_
    · field_simp
    · rw [hU0]; ring
  have e1 := sin_sq_add_cos_sq i
  have e2 := sin_sq_add_cos_sq w
  constructor
  · refine hasVel_congr (radial_deriv R hr hu hh hi) rfl ?_
    simp only [zero_div, mul_zero, zero_mul, add_zero, sub_zero, mul_one, hU0, hH0, shift]
    rw [← hw]
    congr 1
    · unfold eta'
      field_simp
      ring
    · unfold zeta'
      field_simp
      ring
  · have p1 := radial_deriv R hd hu hh hi
    have p2 := transverse_deriv R hf hu hh hi
    refine hasVel_congr (v := (inFrame _ _ _ _ _ _).add (inFrame _ _ _ _ _ _)) ⟨p1.1.add p2.1, p1.2.1.add p2.2.1, p1.2.2.add p2.2.2⟩ rfl ?_
    simp only [zero_div, mul_zero, zero_mul, add_zero, sub_zero, mul_one, hU0, hH0, shift1, neg_zero]
    rw [← hw]
    have hadd : ∀ A B C A' B' C' : ℝ, (inFrame w h i A B C).add (inFrame w h i A' B' C') = inFrame w h i (A + A') (B + B') (C + C') := by
      intro A B C A' B' C'
      unfold inFrame
      ext <;> simp only [V3.add, V3.smul] <;> ring
    rw [hadd]
    congr 1
    · unfold eta'
      field_simp
      ring
    · unfold xi
      field_simp
      ring
    · field_simp
      linear_combination (-6 * R * cos i * sin i * n * cos w) * e2

theorem frame_products (u h i : ℝ) : (orientU u h i).dot (orientU u h i) = 1 ∧ (orientU u h i).dot (orientV u h i) = 0 ∧
    (orientU u h i).dot (orientW h i) = 0 := by
  have e1 := sin_sq_add_cos_sq i
  have e2 := sin_sq_add_cos_sq u
  have e3 := sin_sq_add_cos_sq h
  refine ⟨?_, ?_, ?_⟩ <;> simp only [V3.dot, orientU, orientV, orientW]
  · linear_combination e2 + (sin u ^ 2) * e1 + (cos i ^ 2 * sin u ^ 2 + cos u ^ 2) * e3
  · linear_combination (sin u * cos u) * e1 + (cos i ^ 2 * sin u * cos u - sin u * cos u) * e3
  · linear_combination (-(sin i * cos i * sin u)) * e3

theorem vertical (u h i : ℝ) : (⟨0, 0, 1⟩ : V3) = inFrame u h i (sin i * sin u) (sin i * cos u) (cos i) := by
  have e1 := sin_sq_add_cos_sq i
  have e2 := sin_sq_add_cos_sq u
  ext <;> simp only [inFrame, V3.add, V3.smul, orientU, orientV, orientW]
  · linear_combination (sin h * sin i * cos i) * e2
  · linear_combination (-(cos h * sin i * cos i)) * e2
  · linear_combination (-1 : ℝ) * e1 - (sin i ^ 2) * e2

/-- An acceleration given by the displacement, the direction of the satellite and the direction of the pole. -/
theorem frame_force (u h i m ρ f g A B C A' B' C' : ℝ) (hA : A' = -m * A + ρ * f - g * (sin i * sin u)) (hB : B' = -m * B - g * (sin i * cos u))
    (hC : C' = -m * C - g * cos i) :
    (⟨-m * (inFrame u h i A B C).x + ((orientU u h i).smul ρ).x * f, -m * (inFrame u h i A B C).y + ((orientU u h i).smul ρ).y * f,
      -m * (inFrame u h i A B C).z + ((orientU u h i).smul ρ).z * f - g⟩ : V3) = inFrame u h i A' B' C' := by
  have hv := vertical u h i
  simp only [V3.ext_iff, inFrame, V3.add, V3.smul] at hv
  subst hA hB hC
  ext <;> simp only [inFrame, V3.add, V3.smul]
  · linear_combination (-g) * hv.1
  · linear_combination (-g) * hv.2.1
  · linear_combination (-g) * hv.2.2

theorem circular_start {a : ℝ} (i h u t : ℝ) (ha : 0 < a) :
    circularAt a i h u 0 t = ((orientU (u + xke / (a * √a) * t) h i).smul (earthRadius * a),
      (orientV (u + xke / (a * √a) * t) h i).smul (earthRadius * (a * (xke / (a * √a))))) := by
  obtain ⟨N, hN⟩ := node_rate a i ha.ne'
  obtain ⟨M, hM⟩ := latitude_rate a i ha.ne'
  simp only [circularAt, hN, hM]
  rw [posVelOf_circular _ _ _ _ ha]
  simp [V3.smul, V3.add]

theorem earthRadius_pos : 0 < earthRadius := by unfold earthRadius; norm_num

theorem motion_sq {a : ℝ} (ha : 0 < a) : (xke / (a * √a)) ^ 2 = xke ^ 2 / a ^ 3 := by
  rw [div_pow, mul_pow, sq_sqrt ha.le]; ring

theorem len_smul_orientU (u h i : ℝ) {r : ℝ} (hr : 0 ≤ r) : ((orientU u h i).smul r).len = r := by
  have h1 := (frame_products u h i).1
  have : ((orientU u h i).smul r).dot ((orientU u h i).smul r) = r ^ 2 := by
    have : ((orientU u h i).smul r).dot ((orientU u h i).smul r) = r ^ 2 * (orientU u h i).dot (orientU u h i) := by
      simp only [V3.dot, V3.smul]; ring
    rw [this, h1, mul_one]
  unfold V3.len
  rw [this, sqrt_sq hr]

/-- C107, without oblateness: the circular orbit of the program is the motion around a point mass. -/
theorem C107_round (a i h u t : ℝ) (ha : 0 < a) :
    HasVel (fun t => (circularAt a i h u 0 t).1) (circularAt a i h u 0 t).2 t ∧
    HasVel (fun t => (circularAt a i h u 0 t).2) (gradient (oblate (xke ^ 2 * earthRadius ^ 3) earthRadius 0) (circularAt a i h u 0 t).1) t := by
  have hR := earthRadius_pos
  have hn := motion_sq ha
  simp only [circular_start i h u _ ha]
  have hl := len_smul_orientU (u + xke / (a * √a) * t) h i (r := earthRadius * a) (by positivity)
  rw [gradient_oblate _ _ _ _ (by rw [hl]; positivity), hl]
  generalize xke / (a * √a) = n at *
  have c : ∀ x : ℝ, HasDerivAt (fun _ : ℝ => x) 0 t := hasDerivAt_const t
  constructor
  · refine hasVel_congr (frame_deriv h i (c (earthRadius * a)) (c 0) (c 0) (moving u n t)) (funext fun s => ?_) ?_ <;>
    · simp only [inFrame, V3.add, V3.smul]
      congr 1 <;> ring
  · refine hasVel_congr (frame_deriv h i (c 0) (c (earthRadius * (a * n))) (c 0) (moving u n t)) (funext fun s => ?_) ?_
    · simp only [inFrame, V3.add, V3.smul]
      congr 1 <;> ring
    · have hx : xke ^ 2 = n ^ 2 * a ^ 3 := by rw [hn]; field_simp
      simp only [inFrame, V3.add, V3.smul, pull, hx]
      congr 1 <;> field_simp <;> ring

/-- C107, the program: its coefficients in the place of `k` and of the fourth harmonic. -/
theorem C107_program (e : Elem) (m : Mean) (E : ℝ) :
    posVel m E = posVelOf ck2 m.axn m.ayn m E ∧
    (sxpx_common_init e).xmdot = xmdotOf ck2 (sxpall_common_init e) ∧
    (sxpx_common_init e).omgdot = omgdotOf ck2 (ck4 / ck2 ^ 2 * ck2 ^ 2) (sxpall_common_init e) ∧
    (sxpx_common_init e).xnodot = xnodotOf ck2 (ck4 / ck2 ^ 2 * ck2 ^ 2) (sxpall_common_init e) := by
  have h : ck4 / ck2 ^ 2 * ck2 ^ 2 = ck4 := by
    have : ck2 ≠ 0 := by unfold ck2 xj2; norm_num
    field_simp
  rw [h]
  exact ⟨rfl, rfl, rfl, rfl⟩

/-- C107: to the first order in the coefficient `k` of the second zonal harmonic the velocity of the program is the derivative of its position, and the
derivative of the velocity is the attraction of the oblate Earth at that position. -/
theorem C107_circular (a i h u : ℝ) (ha : 0 < a) : ∃ δ δ' δ'' : ℝ → V3,
    (∀ t, HasVel (fun k => (circularAt a i h u k t).1) (δ t) 0) ∧ (∀ t, HasVel δ (δ' t) t) ∧ (∀ t, HasVel δ' (δ'' t) t) ∧
    (∀ t, HasVel (fun k => (circularAt a i h u k t).2) (δ' t) 0) ∧
    (∀ t, HasVel (fun k => gradient (oblate (xke ^ 2 * earthRadius ^ 3) earthRadius k) (circularAt a i h u k t).1) (δ'' t) 0) := by
  refine ⟨_, _, _, fun t => (circular_first i h u t ha).1, fun t => shift_deriv _ _ _ _ _ _ t, fun t => shift1_deriv _ _ _ _ _ _ t,
    fun t => (circular_first i h u t ha).2, fun t => ?_⟩
  have hR := earthRadius_pos
  have hn := motion_sq ha
  have hs := circular_start i h u t ha
  have hl := len_smul_orientU (u + xke / (a * √a) * t) h i (r := earthRadius * a) (by positivity)
  have hl' : (circularAt a i h u 0 t).1.len = earthRadius * a := by rw [hs]; exact hl
  refine hasVel_congr (gradient_deriv (xke ^ 2 * earthRadius ^ 3) earthRadius (circular_first i h u t ha).1 (by rw [hl']; positivity)) rfl ?_
  simp only [hs, hl]
  generalize xke / (a * √a) = n at *
  have hx : xke ^ 2 = n ^ 2 * a ^ 3 := by rw [hn]; field_simp
  rw [hx]
  obtain ⟨p1, p2, p3⟩ := frame_products (u + n * t) h i
  have hv := vertical (u + n * t) h i
  have hz : (orientU (u + n * t) h i).z = sin i * sin (u + n * t) := rfl
  have hdot : ((orientU (u + n * t) h i).smul (earthRadius * a)).dot (shift earthRadius a i h u n t) = earthRadius ^ 2 * a * xi a i (u + n * t) := by
    have : ((orientU (u + n * t) h i).smul (earthRadius * a)).dot (shift earthRadius a i h u n t)
      = earthRadius * a * (earthRadius * xi a i (u + n * t) * (orientU (u + n * t) h i).dot (orientU (u + n * t) h i)
        + earthRadius * eta' a i n (u + n * t) t * (orientU (u + n * t) h i).dot (orientV (u + n * t) h i)
        + earthRadius * zeta' a i n (u + n * t) t * (orientU (u + n * t) h i).dot (orientW h i)) := by
      simp only [shift, inFrame, V3.dot, V3.add, V3.smul]; ring
    rw [this, p1, p2, p3]; ring
  rw [hdot]
  have e1 := sin_sq_add_cos_sq i
  have e2 := sin_sq_add_cos_sq (u + n * t)
  simp only [shift, shift2]
  generalize hw : u + n * t = w at *
  refine (frame_force w h i _ _ _ _ _ _ _ _ _ _ ?_ ?_ ?_).symm
  · unfold xi
    simp only [V3.smul, hz]
    field_simp
    linear_combination (-18 * n ^ 2 * sin w ^ 2) * e1 - 18 * n ^ 2 * (1 - cos i ^ 2) * e2
  · simp only [V3.smul, hz]
    field_simp
    linear_combination (6 * n ^ 2 * sin w * cos w) * e1
  · unfold zeta'
    simp only [V3.smul, hz]
    field_simp
    ring

/-- The displacement is not zero: over the pole an orbit of one Earth radius is displaced by twice the coefficient. -/
example : (shift 1 1 (π / 2) 0 0 1 0).x = 2 := by
  simp only [shift, inFrame, V3.add, V3.smul, xi, eta', zeta', orientU, orientV, orientW]
  norm_num

end SatSky.Props
