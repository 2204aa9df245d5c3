import Verif.Spec.ThirdBody
import Mathlib.Tactic.LinearCombination
import Mathlib.Analysis.SpecialFunctions.Trigonometric.Deriv

/-! The averages and derivatives of the tidal potential. -/

namespace SatSky.Tide

open SatSky.Spec Real

theorem integral_trig (a0 a1 a2 a3 b1 b2 b3 : ℝ) :
    ∫ E in (0)..(2 * π), (a0 + a1 * cos E + a2 * cos E ^ 2 + a3 * cos E ^ 3 + b1 * sin E + b2 * (sin E ^ 1 * cos E ^ (2 * 0 + 1))
      + b3 * (sin E * cos E ^ 2)) = 2 * π * a0 + π * a2 := by
  rw [intervalIntegral.integral_add, intervalIntegral.integral_add, intervalIntegral.integral_add, intervalIntegral.integral_add,
    intervalIntegral.integral_add, intervalIntegral.integral_add]
  · have h1 : ∫ E in (0)..(2 * π), sin E ^ 1 * cos E ^ (2 * 0 + 1) = 0 := by
      rw [integral_sin_pow_mul_cos_pow_odd]; simp
    have h2 : ∫ E in (0)..(2 * π), sin E * cos E ^ 2 = 0 := by simp
    simp only [intervalIntegral.integral_const_mul, h1, h2]
    simp [integral_cos_sq]
    ring
  all_goals (apply Continuous.intervalIntegrable; fun_prop)

theorem apse_apse (i h g : ℝ) : (apse i h g).dot (apse i h g) = 1 := by
  unfold apse V3.dot
  dsimp only
  have h1 := sin_sq_add_cos_sq i
  have h2 := sin_sq_add_cos_sq h
  have h3 := sin_sq_add_cos_sq g
  linear_combination (cos g ^ 2 + sin g ^ 2 * cos i ^ 2) * h2 + sin g ^ 2 * h1 + h3

theorem latus_latus (i h g : ℝ) : (latus i h g).dot (latus i h g) = 1 := by
  unfold latus V3.dot
  dsimp only
  have h1 := sin_sq_add_cos_sq i
  have h2 := sin_sq_add_cos_sq h
  have h3 := sin_sq_add_cos_sq g
  linear_combination (sin g ^ 2 + cos g ^ 2 * cos i ^ 2) * h2 + cos g ^ 2 * h1 + h3

theorem apse_latus (i h g : ℝ) : (apse i h g).dot (latus i h g) = 0 := by
  unfold apse latus V3.dot
  dsimp only
  have h1 := sin_sq_add_cos_sq i
  have h2 := sin_sq_add_cos_sq h
  linear_combination (sin g * cos g * cos i ^ 2 - sin g * cos g) * h2 + sin g * cos g * h1

theorem dot_add (n p q : V3) : n.dot (p.add q) = n.dot p + n.dot q := by unfold V3.dot V3.add; ring
theorem dot_smul (n p : V3) (k : ℝ) : n.dot (p.smul k) = k * n.dot p := by unfold V3.dot V3.smul; ring
theorem add_dot (n p q : V3) : (p.add q).dot n = p.dot n + q.dot n := by unfold V3.dot V3.add; ring
theorem smul_dot (n p : V3) (k : ℝ) : (p.smul k).dot n = k * p.dot n := by unfold V3.dot V3.smul; ring

/-- The potential averaged over the orbit of the satellite, `x` and `y` the components of the direction along the axes of the orbit. -/
theorem potential_eq (k : ℝ) (n : V3) {a e i h g : ℝ} (he : e ^ 2 ≤ 1) :
    potential k n a e i h g =
      k * a ^ 2 / 4 * (3 * ((1 + 4 * e ^ 2) * n.dot (apse i h g) ^ 2 + (1 - e ^ 2) * n.dot (latus i h g) ^ 2) - 2 - 3 * e ^ 2) := by
  unfold potential meanOverOrbit
  have hb : √(1 - e ^ 2) ^ 2 = 1 - e ^ 2 := sq_sqrt (by linarith)
  have key : ∀ E, tide k n (orbitPos a e i h g E) * (1 - e * cos E) =
      (k * a ^ 2 / 2 * (3 * (e ^ 2 * n.dot (apse i h g) ^ 2 + (1 - e ^ 2) * n.dot (latus i h g) ^ 2) - 1))
      + (k * a ^ 2 / 2 * (3 * (-2 * e * n.dot (apse i h g) ^ 2 - e * (e ^ 2 * n.dot (apse i h g) ^ 2 + (1 - e ^ 2) * n.dot (latus i h g) ^ 2))
          + 3 * e)) * cos E
      + (k * a ^ 2 / 2 * (3 * ((1 + 2 * e ^ 2) * n.dot (apse i h g) ^ 2 - (1 - e ^ 2) * n.dot (latus i h g) ^ 2) - 3 * e ^ 2)) * cos E ^ 2
      + (k * a ^ 2 / 2 * (-3 * e * (n.dot (apse i h g) ^ 2 - (1 - e ^ 2) * n.dot (latus i h g) ^ 2) + e ^ 3)) * cos E ^ 3
      + (k * a ^ 2 / 2 * (-6 * e * √(1 - e ^ 2) * n.dot (apse i h g) * n.dot (latus i h g))) * sin E
      + (k * a ^ 2 / 2 * (6 * (1 + e ^ 2) * √(1 - e ^ 2) * n.dot (apse i h g) * n.dot (latus i h g))) * (sin E ^ 1 * cos E ^ (2 * 0 + 1))
      + (k * a ^ 2 / 2 * (-6 * e * √(1 - e ^ 2) * n.dot (apse i h g) * n.dot (latus i h g))) * (sin E * cos E ^ 2) := by
    intro E
    have h1 := sin_sq_add_cos_sq E
    have hr : (orbitPos a e i h g E).dot (orbitPos a e i h g E) = a ^ 2 * (1 - e * cos E) ^ 2 := by
      unfold orbitPos
      rw [dot_add, add_dot, add_dot, dot_smul, dot_smul, dot_smul, dot_smul, smul_dot, smul_dot, smul_dot, smul_dot, apse_apse, latus_latus,
        apse_latus, show (latus i h g).dot (apse i h g) = 0 by rw [← apse_latus i h g]; unfold V3.dot; ring]
      linear_combination a ^ 2 * (1 - e ^ 2) * h1 + a ^ 2 * sin E ^ 2 * hb
    have hn : n.dot (orbitPos a e i h g E) = a * (cos E - e) * n.dot (apse i h g) + a * √(1 - e ^ 2) * sin E * n.dot (latus i h g) := by
      unfold orbitPos
      rw [dot_add, dot_smul, dot_smul]
    unfold tide
    rw [hr, hn]
    generalize n.dot (apse i h g) = X
    generalize n.dot (latus i h g) = Y
    generalize √(1 - e ^ 2) = b at *
    generalize sin E = s at *
    generalize cos E = c at *
    linear_combination (3 / 2 * k * a ^ 2 * Y ^ 2 * (1 - e * c)) * (s ^ 2 * hb + (1 - e ^ 2) * h1)
  rw [intervalIntegral.integral_congr (fun E _ => key E), integral_trig]
  have := pi_pos
  field_simp
  ring

/-- The components of the axes of the orbit of the body along those of the satellite's orbit: the potential averaged over both. -/
theorem meanPotential_eq (k : ℝ) (p q : V3) {a e i h g : ℝ} (he : e ^ 2 ≤ 1) :
    meanPotential k p q a e i h g =
      k * a ^ 2 / 8 * (3 * ((1 + 4 * e ^ 2) * (p.dot (apse i h g) ^ 2 + q.dot (apse i h g) ^ 2)
        + (1 - e ^ 2) * (p.dot (latus i h g) ^ 2 + q.dot (latus i h g) ^ 2)) - 4 - 6 * e ^ 2) := by
  unfold meanPotential meanOverCircle
  have key : ∀ f, potential k ((p.smul (cos f)).add (q.smul (sin f))) a e i h g =
      (k * a ^ 2 / 4 * (3 * ((1 + 4 * e ^ 2) * q.dot (apse i h g) ^ 2 + (1 - e ^ 2) * q.dot (latus i h g) ^ 2) - 2 - 3 * e ^ 2))
      + 0 * cos f
      + (k * a ^ 2 / 4 * (3 * ((1 + 4 * e ^ 2) * (p.dot (apse i h g) ^ 2 - q.dot (apse i h g) ^ 2)
          + (1 - e ^ 2) * (p.dot (latus i h g) ^ 2 - q.dot (latus i h g) ^ 2)))) * cos f ^ 2
      + 0 * cos f ^ 3 + 0 * sin f
      + (k * a ^ 2 / 4 * (6 * ((1 + 4 * e ^ 2) * p.dot (apse i h g) * q.dot (apse i h g)
          + (1 - e ^ 2) * p.dot (latus i h g) * q.dot (latus i h g)))) * (sin f ^ 1 * cos f ^ (2 * 0 + 1))
      + 0 * (sin f * cos f ^ 2) := by
    intro f
    have h1 := sin_sq_add_cos_sq f
    rw [potential_eq k _ he, add_dot, add_dot, smul_dot, smul_dot, smul_dot, smul_dot]
    generalize p.dot (apse i h g) = x1
    generalize q.dot (apse i h g) = x2
    generalize p.dot (latus i h g) = x3
    generalize q.dot (latus i h g) = x4
    linear_combination (k * a ^ 2 / 4 * 3 * ((1 + 4 * e ^ 2) * x2 ^ 2 + (1 - e ^ 2) * x4 ^ 2)) * h1
  rw [intervalIntegral.integral_congr (fun f _ => key f), integral_trig]
  have := pi_pos
  field_simp
  ring

/-! ### Derivatives of the axes -/

/-- The normal of the orbit. -/
noncomputable def normal (i h : ℝ) : V3 := ⟨sin h * sin i, -(cos h * sin i), cos i⟩

theorem hasDerivAt_trig (A B C x : ℝ) : HasDerivAt (fun x => A + B * cos x + C * sin x) (B * -sin x + C * cos x) x := by
  have := (((hasDerivAt_cos x).const_mul B).const_add A).add ((hasDerivAt_sin x).const_mul C)
  exact this

theorem dapse_g (p : V3) (i h g : ℝ) : HasDerivAt (fun x => p.dot (apse i h x)) (p.dot (latus i h g)) g := by
  have e1 : (fun x => p.dot (apse i h x)) = fun x => 0 + (p.x * cos h + p.y * sin h) * cos x
      + (-p.x * sin h * cos i + p.y * cos h * cos i + p.z * sin i) * sin x := by
    funext x; unfold apse V3.dot; ring
  have := hasDerivAt_trig 0 (p.x * cos h + p.y * sin h) (-p.x * sin h * cos i + p.y * cos h * cos i + p.z * sin i) g
  rw [e1]
  convert this using 1
  unfold latus V3.dot; ring

theorem dlatus_g (p : V3) (i h g : ℝ) : HasDerivAt (fun x => p.dot (latus i h x)) (-p.dot (apse i h g)) g := by
  have e1 : (fun x => p.dot (latus i h x)) = fun x => 0 + (-p.x * sin h * cos i + p.y * cos h * cos i + p.z * sin i) * cos x
      + (-(p.x * cos h + p.y * sin h)) * sin x := by
    funext x; unfold latus V3.dot; ring
  have := hasDerivAt_trig 0 (-p.x * sin h * cos i + p.y * cos h * cos i + p.z * sin i) (-(p.x * cos h + p.y * sin h)) g
  rw [e1]
  convert this using 1
  unfold apse V3.dot; ring

theorem dapse_i (p : V3) (i h g : ℝ) : HasDerivAt (fun x => p.dot (apse x h g)) (sin g * p.dot (normal i h)) i := by
  have e1 : (fun x => p.dot (apse x h g)) = fun x => (p.x * cos h * cos g + p.y * sin h * cos g)
      + (-p.x * sin h * sin g + p.y * cos h * sin g) * cos x + (p.z * sin g) * sin x := by
    funext x; unfold apse V3.dot; ring
  have := hasDerivAt_trig (p.x * cos h * cos g + p.y * sin h * cos g) (-p.x * sin h * sin g + p.y * cos h * sin g) (p.z * sin g) i
  rw [e1]
  convert this using 1
  unfold normal V3.dot; ring

theorem dlatus_i (p : V3) (i h g : ℝ) : HasDerivAt (fun x => p.dot (latus x h g)) (cos g * p.dot (normal i h)) i := by
  have e1 : (fun x => p.dot (latus x h g)) = fun x => (-(p.x * cos h * sin g) - p.y * sin h * sin g)
      + (-p.x * sin h * cos g + p.y * cos h * cos g) * cos x + (p.z * cos g) * sin x := by
    funext x; unfold latus V3.dot; ring
  have := hasDerivAt_trig (-(p.x * cos h * sin g) - p.y * sin h * sin g) (-p.x * sin h * cos g + p.y * cos h * cos g) (p.z * cos g) i
  rw [e1]
  convert this using 1
  unfold normal V3.dot; ring

/-- Turning the node turns the orbit around the pole: along the orbit by the cosine, along the normal by the sine of the inclination. -/
theorem dapse_h (p : V3) (i h g : ℝ) :
    HasDerivAt (fun x => p.dot (apse i x g)) (cos i * p.dot (latus i h g) - sin i * cos g * p.dot (normal i h)) h := by
  have e1 : (fun x => p.dot (apse i x g)) = fun x => p.z * sin g * sin i
      + (p.x * cos g + p.y * sin g * cos i) * cos x + (-p.x * sin g * cos i + p.y * cos g) * sin x := by
    funext x; unfold apse V3.dot; ring
  have := hasDerivAt_trig (p.z * sin g * sin i) (p.x * cos g + p.y * sin g * cos i) (-p.x * sin g * cos i + p.y * cos g) h
  rw [e1]
  convert this using 1
  unfold latus normal V3.dot
  have h1 := sin_sq_add_cos_sq i
  linear_combination (-(p.x * sin h * cos g) + p.y * cos h * cos g) * h1

theorem dlatus_h (p : V3) (i h g : ℝ) :
    HasDerivAt (fun x => p.dot (latus i x g)) (-(cos i * p.dot (apse i h g)) + sin i * sin g * p.dot (normal i h)) h := by
  have e1 : (fun x => p.dot (latus i x g)) = fun x => p.z * cos g * sin i
      + (-p.x * sin g + p.y * cos g * cos i) * cos x + (-p.x * cos g * cos i - p.y * sin g) * sin x := by
    funext x; unfold latus V3.dot; ring
  have := hasDerivAt_trig (p.z * cos g * sin i) (-p.x * sin g + p.y * cos g * cos i) (-p.x * cos g * cos i - p.y * sin g) h
  rw [e1]
  convert this using 1
  unfold apse normal V3.dot
  have h1 := sin_sq_add_cos_sq i
  linear_combination (p.x * sin h * sin g - p.y * cos h * sin g) * h1

end SatSky.Tide
