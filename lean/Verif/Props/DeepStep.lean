import Verif.Spec.Resonance
import Verif.Model.Deep
import Mathlib.Analysis.Calculus.IteratedDeriv.Lemmas
import Mathlib.Tactic.LinearCombination

/-! One step of the resonance integration: C99 (derivatives and Taylor polynomial). -/

namespace SatSky.Props

open SatSky.Spec SatSky.Sxp Real

/-! ### The derivatives -/

/-- The acceleration in the case of a synchronous orbit. -/
noncomputable def fullWaves (c : Deep) : List Wave :=
  [⟨c.del1, 1, 0, c_fasx2, s_fasx2⟩, ⟨c.del2, 2, 0, c_2fasx4, s_2fasx4⟩, ⟨c.del3, 3, 0, c_3fasx6, s_3fasx6⟩]

/-- The acceleration in the case of a 12-hour orbit whose argument of perigee is `om`. -/
noncomputable def halfWaves (c : Deep) (om : ℝ) : List Wave :=
  [⟨c.d.d2201, 1, 2 * om, c_g22, s_g22⟩, ⟨c.d.d2211, 1, 0, c_g22, s_g22⟩, ⟨c.d.d3210, 1, om, c_g32, s_g32⟩, ⟨c.d.d3222, 1, -om, c_g32, s_g32⟩,
   ⟨c.d.d5220, 1, om, c_g52, s_g52⟩, ⟨c.d.d5232, 1, -om, c_g52, s_g52⟩,
   ⟨c.d.d4410, 2, 2 * om, c_g44, s_g44⟩, ⟨c.d.d4422, 2, 0, c_g44, s_g44⟩, ⟨c.d.d5421, 2, om, c_g54, s_g54⟩, ⟨c.d.d5433, 2, -om, c_g54, s_g54⟩]

/-- The acceleration at the time `atime` (the argument of perigee moves on with `omgdot`). -/
noncomputable def accel (c : Deep) (atime : ℝ) : ℝ → ℝ :=
  waves (if c.res = .full then fullWaves c else halfWaves c (c.omegaq + c.i.omgdot * atime))

/-- The derivative of a term. -/
noncomputable def waveDeriv (w : Wave) : Wave := ⟨w.amp * w.n, w.n, w.k + π / 2, w.cosPhase, w.sinPhase⟩

theorem hasDerivAt_wave (w : Wave) (l : ℝ) : HasDerivAt w.at ((waveDeriv w).at l) l := by
  have h : HasDerivAt (fun l : ℝ => (w.n : ℝ) * l + w.k) (w.n : ℝ) l := by
    simpa using ((hasDerivAt_id l).const_mul (w.n : ℝ)).add_const w.k
  have := ((h.sin.mul_const w.cosPhase).sub (h.cos.mul_const w.sinPhase)).const_mul w.amp
  have e : (waveDeriv w).at l = w.amp * (cos (w.n * l + w.k) * w.n * w.cosPhase - -sin (w.n * l + w.k) * w.n * w.sinPhase) := by
    unfold waveDeriv Wave.at
    dsimp only
    rw [← add_assoc, sin_add_pi_div_two, cos_add_pi_div_two]
    ring
  rw [e]
  exact this

theorem hasDerivAt_waves (ws : List Wave) (l : ℝ) : HasDerivAt (waves ws) (waves (ws.map waveDeriv) l) l := by
  induction ws with
  | nil => exact hasDerivAt_const l 0
  | cons w ws ih =>
    have := (hasDerivAt_wave w l).add ih
    have e1 : waves (w :: ws) = fun l => w.at l + waves ws l := by funext l; simp [waves]
    have e2 : waves ((w :: ws).map waveDeriv) l = (waveDeriv w).at l + waves (ws.map waveDeriv) l := by simp [waves]
    rw [e1, e2]
    exact this

theorem iteratedDeriv_waves (ws : List Wave) : ∀ k, iteratedDeriv k (waves ws) = waves (ws.map (waveDeriv^[k]))
  | 0 => by simp
  | k + 1 => by
    rw [iteratedDeriv_succ, iteratedDeriv_waves ws k]
    funext l
    rw [(hasDerivAt_waves _ l).deriv, List.map_map]
    congr 2
    funext w
    exact (Function.iterate_succ_apply' waveDeriv k w).symm

theorem waveDeriv_twice (w : Wave) (l : ℝ) : (waveDeriv (waveDeriv w)).at l = -(w.n : ℝ) ^ 2 * w.at l := by
  unfold waveDeriv Wave.at
  dsimp only
  rw [show (w.n : ℝ) * l + (w.k + π / 2 + π / 2) = w.n * l + w.k + π by ring, sin_add_pi, cos_add_pi]
  ring

theorem waveDeriv_iter_n (w : Wave) : ∀ k, (waveDeriv^[k] w).n = w.n
  | 0 => rfl
  | k + 1 => by rw [Function.iterate_succ_apply']; exact waveDeriv_iter_n w k

theorem waveDeriv_even (w : Wave) (l : ℝ) (v : ℕ → Wave) (hv : ∀ k, v k = waveDeriv^[k] w) :
    ∀ m, (v (2 * m)).at l = (-(w.n : ℝ) ^ 2) ^ m * w.at l ∧ (v (2 * m + 1)).at l = (-(w.n : ℝ) ^ 2) ^ m * (waveDeriv w).at l
  | 0 => by simp [hv]
  | m + 1 => by
    obtain ⟨h1, h2⟩ := waveDeriv_even w l v hv m
    have e : ∀ j, (v (j + 2)).at l = -(w.n : ℝ) ^ 2 * (v j).at l := by
      intro j
      rw [hv (j + 2), hv j, Function.iterate_succ_apply', Function.iterate_succ_apply', waveDeriv_twice, waveDeriv_iter_n]
    constructor
    · rw [show 2 * (m + 1) = 2 * m + 2 by ring, e, h1]; ring
    · rw [show 2 * (m + 1) + 1 = 2 * m + 1 + 2 by ring, e, h2]; ring

/-- What is written in pass `m`. -/
theorem derivLoop_get (n : ℕ) : ∀ (ts : List Term) (m : ℕ), m < n →
    (derivLoop n ts)[2 * m]? = some (ts.map fun t => (-t.n2) ^ m * t.a).sum ∧
      (derivLoop n ts)[2 * m + 1]? = some (ts.map fun t => (-t.n2) ^ m * t.b).sum := by
  induction n with
  | zero => intro ts m h; omega
  | succ n ih =>
    intro ts m h
    cases m with
    | zero => simp [derivLoop]
    | succ m =>
      have := ih (ts.map fun t => ⟨t.n2, -t.n2 * t.a, -t.n2 * t.b⟩) m (by omega)
      rw [show 2 * (m + 1) = 2 * m + 1 + 1 by ring]
      simp only [derivLoop, List.getElem?_cons_succ, this, List.map_map, Function.comp_def]
      constructor
      · congr 3; funext t; ring
      · congr 3; funext t; ring

theorem derivLoop_length (n : ℕ) : ∀ ts, (derivLoop n ts).length = 2 * n := by
  induction n with
  | zero => intro; rfl
  | succ n ih => intro ts; simp [derivLoop, ih]; ring

/-- The sums of the terms are those of the waves. -/
def SameSums (ts : List Term) (ws : List Wave) (l : ℝ) : Prop :=
  ∀ m : ℕ, (ts.map fun t => (-t.n2) ^ m * t.a).sum = (ws.map fun w => (-(w.n : ℝ) ^ 2) ^ m * w.at l).sum ∧
    (ts.map fun t => (-t.n2) ^ m * t.b).sum = (ws.map fun w => (-(w.n : ℝ) ^ 2) ^ m * (waveDeriv w).at l).sum

theorem sameSums_full (c : Deep) (l : ℝ) : SameSums (fullTerms c l) (fullWaves c) l := by
  intro m
  have h2 : sin (2 * l) = 2 * sin l * cos l := sin_two_mul l
  have c2 : cos (2 * l) = 2 * cos l * cos l - 1 := by rw [cos_two_mul]; ring
  have h3 : sin (3 * l) = sin (2 * l) * cos l + cos (2 * l) * sin l := by rw [← sin_add]; congr 1; ring
  have c3 : cos (3 * l) = cos (2 * l) * cos l - sin (2 * l) * sin l := by rw [← cos_add]; congr 1; ring
  have e4 : (-4 : ℝ) = -2 ^ 2 := by norm_num
  have e9 : (-9 : ℝ) = -3 ^ 2 := by norm_num
  constructor
  · simp only [fullTerms, fullWaves, Wave.at, List.map_cons, List.map_nil, List.sum_cons, List.sum_nil, Nat.cast_one, Nat.cast_ofNat,
      add_zero, one_mul, ← h2, ← c2, ← h3, ← c3, e4, e9, one_pow]
  · simp only [fullTerms, fullWaves, Wave.at, waveDeriv, List.map_cons, List.map_nil, List.sum_cons, List.sum_nil, Nat.cast_one,
      Nat.cast_ofNat, add_zero, zero_add, one_mul, ← h2, ← c2, ← h3, ← c3, e4, e9, one_pow, sin_add_pi_div_two, cos_add_pi_div_two]
    ring

theorem sameSums_half (c : Deep) (atime l : ℝ) : SameSums (halfTerms c atime l) (halfWaves c (c.omegaq + c.i.omgdot * atime)) l := by
  intro m
  generalize ho : c.omegaq + c.i.omgdot * atime = om
  have h2 : sin (2 * l) = 2 * sin l * cos l := sin_two_mul l
  have c2 : cos (2 * l) = 2 * cos l * cos l - 1 := by rw [cos_two_mul]; ring
  have ho2 : sin (2 * om) = 2 * sin om * cos om := sin_two_mul om
  have co2 : cos (2 * om) = 2 * cos om * cos om - 1 := by rw [cos_two_mul]; ring
  have e4 : (-4 : ℝ) = -2 ^ 2 := by norm_num
  constructor
  · simp only [halfTerms, ho, halfWaves, Wave.at, List.map_cons, List.map_nil, List.sum_cons, List.sum_nil, Nat.cast_one, Nat.cast_ofNat,
      add_zero, one_mul, e4, one_pow, ← h2, ← c2, ← ho2, ← co2, sin_add, cos_add, sin_neg, cos_neg, sin_zero, cos_zero]
    generalize (-1 : ℝ) ^ m = p1
    generalize (-2 ^ 2 : ℝ) ^ m = p2
    ring
  · simp only [halfTerms, ho, halfWaves, Wave.at, waveDeriv, List.map_cons, List.map_nil, List.sum_cons, List.sum_nil, Nat.cast_one,
      Nat.cast_ofNat, add_zero, zero_add, one_mul, mul_one, e4, one_pow, ← h2, ← c2, ← ho2, ← co2, sin_add, cos_add, sin_neg, cos_neg, sin_pi_div_two,
      cos_pi_div_two, sin_zero, cos_zero]
    generalize (-1 : ℝ) ^ m = p1
    generalize (-2 ^ 2 : ℝ) ^ m = p2
    ring

theorem sameSums (c : Deep) (atime l : ℝ) :
    SameSums (if c.res = .full then fullTerms c l else halfTerms c atime l)
      (if c.res = .full then fullWaves c else halfWaves c (c.omegaq + c.i.omgdot * atime)) l := by
  split_ifs
  · exact sameSums_full c l
  · exact sameSums_half c atime l

theorem passes_pos {order : ℤ} {k : ℕ} (h : (k : ℤ) < order) : k / 2 < passes order := by
  unfold passes
  omega

/-- C99: the numbers computed for a step are the acceleration and its successive derivatives with respect to the longitude, as many as the order
of the integration. -/
theorem C99_derivatives {cfg : Cfg} {c : Deep} {atime xli : ℝ} {ds : List ℝ} (h : compute_dpsec_derivs cfg c atime xli = some ds) {k : ℕ}
    (hk : (k : ℤ) < cfg.order) : ds[k]? = some (iteratedDeriv k (accel c atime) xli) := by
  have hS := sameSums c atime xli
  unfold accel
  rw [iteratedDeriv_waves]
  unfold compute_dpsec_derivs at h
  dsimp only at h
  have hp := passes_pos hk
  rw [if_neg (show passes cfg.order ≠ 0 by omega)] at h
  simp only [Option.ite_none_right_eq_some, Option.some.injEq] at h
  obtain ⟨_, rfl⟩ := h
  generalize (if c.res = .full then fullTerms c xli else halfTerms c atime xli) = ts at *
  generalize (if c.res = .full then fullWaves c else halfWaves c (c.omegaq + c.i.omgdot * atime)) = ws at *
  obtain ⟨g1, g2⟩ := derivLoop_get _ ts (k / 2) hp
  obtain ⟨s1, s2⟩ := hS (k / 2)
  unfold waves
  rw [List.map_map]
  rcases Nat.even_or_odd' k with ⟨m, rfl | rfl⟩
  · rw [show 2 * m / 2 = m by omega] at g1 s1
    rw [g1, s1]
    congr 3
    funext w
    exact ((waveDeriv_even w xli (fun k => waveDeriv^[k] w) (fun _ => rfl) m).1).symm
  · rw [show (2 * m + 1) / 2 = m by omega] at g2 s2
    rw [g2, s2]
    congr 3
    funext w
    exact ((waveDeriv_even w xli (fun k => waveDeriv^[k] w) (fun _ => rfl) m).2).symm

/-! ### The step -/

theorem taylorLoop_eq (x h : ℝ) (D : ℕ → ℝ) : ∀ (m k : ℕ) (l n : ℝ),
    taylorLoop x h ((List.range m).map fun j => D (k + 1 + j)) (k + 2) (x ^ k) (h ^ (k + 1) / (k + 1).factorial) (D k * x ^ k) l n =
      (l + ∑ j ∈ Finset.range m, h ^ (k + 2 + j) / (k + 2 + j).factorial * (x ^ (k + j) * D (k + j)),
       n + ∑ j ∈ Finset.range m, h ^ (k + 2 + j) / (k + 2 + j).factorial * (x ^ (k + 1 + j) * D (k + 1 + j)))
  | 0, k, l, n => by simp [taylorLoop]
  | m + 1, k, l, n => by
    rw [List.range_succ_eq_map, List.map_cons, List.map_map, taylorLoop]
    have ef : h ^ (k + 1) / (k + 1).factorial * (h / ((k + 2 : ℕ) : ℝ)) = h ^ (k + 1 + 1) / (k + 1 + 1).factorial := by
      rw [Nat.factorial_succ (k + 1)]
      push_cast
      have : ((k + 1).factorial : ℝ) ≠ 0 := by exact_mod_cast (Nat.factorial_pos _).ne'
      have : (k : ℝ) + 2 ≠ 0 := by positivity
      have : (k : ℝ) + 1 + 1 ≠ 0 := by positivity
      field_simp
      ring
    have el : ((List.range m).map ((fun j => D (k + 1 + j)) ∘ Nat.succ)) = (List.range m).map fun j => D (k + 1 + 1 + j) := by
      congr 1; funext j; simp only [Function.comp_apply]; congr 1; omega
    rw [ef, el, show x ^ k * x = x ^ (k + 1) from (pow_succ x k).symm, show k + 1 + 0 = k + 1 from rfl, show k + 2 + 1 = k + 1 + 2 by omega,
      taylorLoop_eq x h D m (k + 1)]
    rw [Finset.sum_range_succ', Finset.sum_range_succ']
    have s1 : ∀ (f : ℕ → ℝ), ∑ j ∈ Finset.range m, h ^ (k + 2 + (j + 1)) / (k + 2 + (j + 1)).factorial * f (j + 1) =
        ∑ j ∈ Finset.range m, h ^ (k + 1 + 2 + j) / (k + 1 + 2 + j).factorial * f (j + 1) :=
      fun f => Finset.sum_congr rfl fun j _ => by rw [show k + 2 + (j + 1) = k + 1 + 2 + j by omega]
    have s2 : ∀ (g : ℕ → ℝ), ∑ j ∈ Finset.range m, g j * (x ^ (k + (j + 1)) * D (k + (j + 1))) =
        ∑ j ∈ Finset.range m, g j * (x ^ (k + 1 + j) * D (k + 1 + j)) :=
      fun g => Finset.sum_congr rfl fun j _ => by rw [show k + (j + 1) = k + 1 + j by omega]
    have s3 : ∀ (g : ℕ → ℝ), ∑ j ∈ Finset.range m, g j * (x ^ (k + 1 + (j + 1)) * D (k + 1 + (j + 1))) =
        ∑ j ∈ Finset.range m, g j * (x ^ (k + 1 + 1 + j) * D (k + 1 + 1 + j)) :=
      fun g => Finset.sum_congr rfl fun j _ => by rw [show k + 1 + (j + 1) = k + 1 + 1 + j by omega]
    rw [s1 (fun j => x ^ (k + j) * D (k + j)), s1 (fun j => x ^ (k + 1 + j) * D (k + 1 + j)), s2, s3]
    simp only [add_zero]
    congr 1 <;> ring

/-- C99: a step over `h` with order `N ≥ 1` adds to mean motion and longitude the sums of the Taylor terms with the derivatives of the
acceleration along the unperturbed motion. -/
theorem C99_step {cfg : Cfg} {c : Deep} {atime xli xni h l n : ℝ} {N : ℕ} (hN : cfg.order = N + 1)
    (hs : dpsecStep cfg c atime xli xni h = some (l, n)) :
    n = xni + ∑ j ∈ Finset.range (N + 1), h ^ (j + 1) / (j + 1).factorial * ((xni + c.xfact) ^ j * iteratedDeriv j (accel c atime) xli) ∧
    l = xli + h * (xni + c.xfact) +
      ∑ j ∈ Finset.range N, h ^ (j + 2) / (j + 2).factorial * ((xni + c.xfact) ^ j * iteratedDeriv j (accel c atime) xli) := by
  unfold dpsecStep at hs
  obtain ⟨ds, hd, hs⟩ := Option.map_eq_some_iff.mp hs
  have hg : ∀ k, k < N + 1 → ds[k]? = some (iteratedDeriv k (accel c atime) xli) :=
    fun k hk => C99_derivatives hd (by rw [hN]; exact_mod_cast hk)
  generalize hD : (fun k => iteratedDeriv k (accel c atime) xli) = D at *
  have hg : ∀ k, k < N + 1 → ds[k]? = some (D k) := fun k hk => by rw [hg k hk, ← hD]
  have e0 : ds.headD 0 = D 0 := by
    have := hg 0 (by omega)
    cases ds with
    | nil => simp at this
    | cons d ds => simpa using this
  have et : (ds.take cfg.order.toNat).tail = (List.range N).map fun j => D (0 + 1 + j) := by
    apply List.ext_getElem?
    intro i
    rw [hN, show ((N : ℤ) + 1).toNat = N + 1 by omega, List.getElem?_tail]
    by_cases hi : i < N
    · rw [List.getElem?_take_of_lt (by omega), hg (i + 1) (by omega), List.getElem?_map, List.getElem?_range hi]
      simp [add_comm]
    · rw [List.getElem?_take_eq_none (by omega), List.getElem?_eq_none (by simpa using hi)]
  dsimp only at hs
  rw [e0, et] at hs
  have := taylorLoop_eq (xni + c.xfact) h D N 0 (xli + h * (xni + c.xfact)) (xni + h * D 0)
  simp only [zero_add, pow_zero, pow_one, Nat.factorial_one, Nat.cast_one, div_one, mul_one] at this hs
  rw [this, Prod.mk.injEq] at hs
  obtain ⟨rfl, rfl⟩ := hs
  have hD' : ∀ j, iteratedDeriv j (accel c atime) xli = D j := fun j => by rw [← hD]
  simp only [hD']
  constructor
  · rw [Finset.sum_range_succ', add_assoc, add_comm (h * D 0)]
    congr 2
    · exact Finset.sum_congr rfl fun j _ => by rw [show 2 + j = j + 1 + 1 by omega, show 1 + j = j + 1 by omega]
    · norm_num
  · simp only [add_comm 2]

/-- C99: with the order 2 of the programs a step is the Taylor polynomial of second degree of the motion that follows the equations of
resonance (for 12-hour orbits: with the argument of perigee held at its value at the beginning of the step). -/
theorem C99_second_order {cfg : Cfg} {c : Deep} {atime h l' n' t : ℝ} {l n : ℝ → ℝ} (hm : ResonantMotion (accel c atime) c.xfact l n)
    (hN : cfg.order = 2) (hs : dpsecStep cfg c atime (l t) (n t) h = some (l', n')) :
    l' = l t + h * deriv l t + h ^ 2 / 2 * iteratedDeriv 2 l t ∧ n' = n t + h * deriv n t + h ^ 2 / 2 * iteratedDeriv 2 n t := by
  obtain ⟨e1, e2⟩ := C99_step (N := 1) (by rw [hN]; norm_num) hs
  have d1 : deriv l = fun t => n t + c.xfact := funext fun t => (hm.dl t).deriv
  have d2 : deriv n = fun t => accel c atime (l t) := funext fun t => (hm.dn t).deriv
  have d3 : iteratedDeriv 2 l t = accel c atime (l t) := by
    rw [iteratedDeriv_succ, iteratedDeriv_one, d1]
    exact ((hm.dn t).add_const _).deriv
  have hA : HasDerivAt (accel c atime) (iteratedDeriv 1 (accel c atime) (l t)) (l t) := by
    rw [iteratedDeriv_one]
    exact (hasDerivAt_waves _ (l t)).differentiableAt.hasDerivAt
  have d4 : iteratedDeriv 2 n t = iteratedDeriv 1 (accel c atime) (l t) * (n t + c.xfact) := by
    rw [iteratedDeriv_succ, iteratedDeriv_one, d2]
    exact (hA.comp t (hm.dl t)).deriv
  rw [d3, d4, d1, d2, e1, e2]
  simp only [Finset.sum_range_succ, Finset.sum_range_zero, iteratedDeriv_zero]
  norm_num
  ring

/-- The step exists for the settings of the programs, and there is something to integrate: a synchronous orbit with `del1 = 1`. -/
example (c : Deep) (h1 : c.res = .full) (hd : c.del1 = 1) (h2 : c.del2 = 0) (h3 : c.del3 = 0) :
    (dpsecStep Cfg.initial c 0 0 0 1).isSome ∧ accel c 0 0 = -s_fasx2 := by
  constructor
  · simp [dpsecStep, compute_dpsec_derivs, Cfg.initial, passes]
  · simp [accel, h1, waves, fullWaves, Wave.at, hd, h2, h3]

end SatSky.Props
