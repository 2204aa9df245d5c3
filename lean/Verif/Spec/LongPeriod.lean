import Verif.Spec.Oblate

/-! The slow variation of an orbit by the third zonal harmonic, independent of the program. -/

namespace SatSky.Spec

open Real

/-- The part of the potential that the third zonal harmonic adds to the point mass, lengths in units of the equatorial radius. -/
noncomputable def pear (μ J3 : ℝ) (p : V3) : ℝ := -(μ / p.len ^ 4 * J3 * ((5 * (p.z / p.len) ^ 3 - 3 * (p.z / p.len)) / 2))

/-- The mean over time of a function of the position, as an integral over the true anomaly (see `secularMean`). -/
noncomputable def meanOverPass (a e i h g : ℝ) (F : V3 → ℝ) : ℝ :=
  (∫ v in (0)..(2 * π), F (conicPos a e i h g v) * (conicRadius a e v ^ 2 / (a ^ 2 * √(1 - e ^ 2)))) / (2 * π)

/-- The oblateness turns the perigee at the rate `gdot` that Lagrange's equations give for the averaged second harmonic, and meanwhile the averaged third
harmonic acts. `W` is the integral of that potential over the time of the motion of the perigee, without its mean over one turn of the perigee. -/
def LongPeriod (μ J2 J3 : ℝ) (W : ℝ → ℝ → ℝ → ℝ → ℝ → ℝ) : Prop :=
  ∀ n a e i h, 0 < n → 0 < a → n ^ 2 * a ^ 3 = μ → 0 < e → e < 1 → sin i ≠ 0 →
    (∫ g in (0)..(2 * π), W a e i h g) = 0 ∧
    ∀ g hdot gdot ldot, Lagrange (fun x y z w _ => secularMean x y z w (zonal μ J2 0)) n a e i h g 0 0 hdot gdot ldot →
      ∃ w, HasDerivAt (fun x => W a e i h x) w g ∧ gdot * w = meanOverPass a e i h g (pear μ J3)

/-- Curves of elements through the given ones whose derivatives are those that Lagrange's equations give for `W`, and the eccentric anomaly that belongs
to them by Kepler's equation. -/
structure Displaced (W : ℝ → ℝ → ℝ → ℝ → ℝ → ℝ) (n a e i h g E : ℝ) (ec ic hc gc Ec : ℝ → ℝ) : Prop where
  start : ec 0 = e ∧ ic 0 = i ∧ hc 0 = h ∧ gc 0 = g ∧ Ec 0 = E
  smooth : DifferentiableAt ℝ Ec 0
  move : ∃ de di dh dg dl, Lagrange W n a e i h g de di dh dg dl ∧ HasDerivAt ec de 0 ∧ HasDerivAt ic di 0 ∧ HasDerivAt hc dh 0 ∧ HasDerivAt gc dg 0 ∧
    HasDerivAt (fun ε => Ec ε - ec ε * sin (Ec ε)) dl 0

end SatSky.Spec
