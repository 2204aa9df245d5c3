import Verif.Lemmas.HansenFit
import Verif.Props.DeepWrites

/-! C174: the functions of the eccentricity for 12-hour orbits are near Hansen's coefficients. -/

namespace SatSky.Props

open SatSky.Spec SatSky.Sxp SatSky.Hansen

/-- **C174**: `g201` is near Hansen's coefficient for degree 2 and the angle `2f - M`. -/
theorem C174_g201 {e : Elem} {i : Init} (h1 : 1 / 2 ≤ e.eo) (h2 : e.eo ≤ 77 / 100) :
    |(halfEcc e i).g201 - hansen 2 2 1 e.eo| ≤ 1 / 500 := by
  simp only [halfEcc]
  have h := near_g201_1 (e := e.eo) h1 h2
  rw [abs_sub_comm] at h
  norm_num only at h ⊢
  ring_nf at h ⊢
  exact h

/-- **C174**: `g211` is near Hansen's coefficient for degree 2 and the angle `-M`. -/
theorem C174_g211 {e : Elem} {i : Init} (hi : i.eosq = e.eo * e.eo) (h1 : 1 / 2 ≤ e.eo) (h2 : e.eo ≤ 77 / 100) :
    |(halfEcc e i).g211 - hansen 2 0 1 e.eo| ≤ if e.eo ≤ 65 / 100 then 1 / 50 else 3 / 200 := by
  simp only [halfEcc, cubic, hi, decide_eq_true_eq]
  by_cases h3 : e.eo ≤ 65 / 100
  · rw [if_pos h3, if_pos h3]
    have h := near_g211_1 (e := e.eo) h1 (by linarith)
    rw [abs_sub_comm] at h
    norm_num only at h ⊢
    ring_nf at h ⊢
    exact h
  · rw [if_neg h3, if_neg h3]
    have h := near_g211_2 (e := e.eo) (by push Not at h3; linarith) h2
    rw [abs_sub_comm] at h
    norm_num only at h ⊢
    ring_nf at h ⊢
    exact h

/-- **C174**: `g310` is near Hansen's coefficient for degree 3 and the angle `f - M`. -/
theorem C174_g310 {e : Elem} {i : Init} (h1 : 1 / 2 ≤ e.eo) (h2 : e.eo ≤ 77 / 100) :
    |(halfEcc e i).g310 - hansen 3 1 1 e.eo| ≤ if e.eo ≤ 65 / 100 then 11 / 1000 else 9 / 500 := by
  simp only [halfEcc, cubic, decide_eq_true_eq]
  by_cases h3 : e.eo ≤ 65 / 100
  · rw [if_pos h3, if_pos h3]
    have h := near_g310_1 (e := e.eo) h1 (by linarith)
    rw [abs_sub_comm] at h
    norm_num only at h ⊢
    ring_nf at h ⊢
    exact h
  · rw [if_neg h3, if_neg h3]
    have h := near_g310_2 (e := e.eo) (by push Not at h3; linarith) h2
    rw [abs_sub_comm] at h
    norm_num only at h ⊢
    ring_nf at h ⊢
    exact h

/-- **C174**: `g322` is near Hansen's coefficient for degree 3 and the angle `-f - M`. -/
theorem C174_g322 {e : Elem} {i : Init} (h1 : 1 / 2 ≤ e.eo) (h2 : e.eo ≤ 77 / 100) :
    |(halfEcc e i).g322 - hansen 3 (-1) 1 e.eo| ≤ if e.eo ≤ 65 / 100 then 3 / 500 else 9 / 500 := by
  simp only [halfEcc, cubic, decide_eq_true_eq]
  by_cases h3 : e.eo ≤ 65 / 100
  · rw [if_pos h3, if_pos h3]
    have h := near_g322_1 (e := e.eo) h1 (by linarith)
    rw [abs_sub_comm] at h
    norm_num only at h ⊢
    ring_nf at h ⊢
    exact h
  · rw [if_neg h3, if_neg h3]
    have h := near_g322_2 (e := e.eo) (by push Not at h3; linarith) h2
    rw [abs_sub_comm] at h
    norm_num only at h ⊢
    ring_nf at h ⊢
    exact h

/-- **C174**: `g410` is near Hansen's coefficient for degree 4 and the angle `2f - 2M`. -/
theorem C174_g410 {e : Elem} {i : Init} (h1 : 1 / 2 ≤ e.eo) (h2 : e.eo ≤ 77 / 100) :
    |(halfEcc e i).g410 - hansen 4 2 2 e.eo| ≤ if e.eo ≤ 65 / 100 then 3 / 200 else 2 / 25 := by
  simp only [halfEcc, cubic, decide_eq_true_eq]
  by_cases h3 : e.eo ≤ 65 / 100
  · rw [if_pos h3, if_pos h3]
    have h := near_g410_1 (e := e.eo) h1 (by linarith)
    rw [abs_sub_comm] at h
    norm_num only at h ⊢
    ring_nf at h ⊢
    exact h
  · rw [if_neg h3, if_neg h3]
    have h := near_g410_2 (e := e.eo) (by push Not at h3; linarith) h2
    rw [abs_sub_comm] at h
    norm_num only at h ⊢
    ring_nf at h ⊢
    exact h

/-- **C174**: `g422` is near Hansen's coefficient for degree 4 and the angle `-2M`. -/
theorem C174_g422 {e : Elem} {i : Init} (h1 : 1 / 2 ≤ e.eo) (h2 : e.eo ≤ 77 / 100) :
    |(halfEcc e i).g422 - hansen 4 0 2 e.eo| ≤ if e.eo ≤ 65 / 100 then 1 / 20 else 1 / 4 := by
  simp only [halfEcc, cubic, decide_eq_true_eq]
  by_cases h3 : e.eo ≤ 65 / 100
  · rw [if_pos h3, if_pos h3]
    have h := near_g422_1 (e := e.eo) h1 (by linarith)
    rw [abs_sub_comm] at h
    norm_num only at h ⊢
    ring_nf at h ⊢
    exact h
  · rw [if_neg h3, if_neg h3]
    have h := near_g422_2 (e := e.eo) (by push Not at h3; linarith) h2
    rw [abs_sub_comm] at h
    norm_num only at h ⊢
    ring_nf at h ⊢
    exact h

/-- **C174**: `g520` is near Hansen's coefficient for degree 5 and the angle `f - M`. -/
theorem C174_g520 {e : Elem} {i : Init} (h1 : 1 / 2 ≤ e.eo) (h2 : e.eo ≤ 77 / 100) :
    |(halfEcc e i).g520 - hansen 5 1 1 e.eo| ≤ if e.eo ≤ 65 / 100 then 23 / 100 else if e.eo ≤ 715 / 10 ^ 3 then 7 / 20 else 9 / 10 := by
  simp only [halfEcc, cubic, decide_eq_true_eq]
  by_cases h3 : e.eo ≤ 65 / 100
  · rw [if_pos h3, if_pos h3]
    have h := near_g520_1 (e := e.eo) h1 (h3.trans (by norm_num))
    rw [abs_sub_comm] at h
    norm_num only at h ⊢
    ring_nf at h ⊢
    exact h
  · rw [if_neg h3, if_neg h3]
    by_cases h4 : e.eo ≤ 715 / 10 ^ 3
    · rw [if_pos h4, if_pos h4]
      have h := near_g520_2 (e := e.eo) (by push Not at h3; linarith) (h4.trans (by norm_num))
      rw [abs_sub_comm] at h
      norm_num only at h ⊢
      ring_nf at h ⊢
      exact h
    · rw [if_neg h4, if_neg h4]
      have h := near_g520_3 (e := e.eo) (by push Not at h4; linarith) h2
      rw [abs_sub_comm] at h
      norm_num only at h ⊢
      ring_nf at h ⊢
      exact h

/-- **C174**: `g533` is near Hansen's coefficient for degree 5 and the angle `-f - 2M`. -/
theorem C174_g533 {e : Elem} {i : Init} (h1 : 1 / 2 ≤ e.eo) (h2 : e.eo ≤ 77 / 100) :
    |(halfEcc e i).g533 - hansen 5 (-1) 2 e.eo| ≤ if e.eo < 7 / 10 then 9 / 10 else 1 := by
  simp only [halfEcc, cubic, decide_eq_true_eq]
  by_cases h3 : e.eo < 7 / 10
  · rw [if_pos h3, if_pos h3]
    have h := near_g533_1 (e := e.eo) h1 (by linarith)
    rw [abs_sub_comm] at h
    norm_num only at h ⊢
    ring_nf at h ⊢
    exact h
  · rw [if_neg h3, if_neg h3]
    have h := near_g533_2 (e := e.eo) (by push Not at h3; linarith) h2
    rw [abs_sub_comm] at h
    norm_num only at h ⊢
    ring_nf at h ⊢
    exact h

/-- **C174**: `g521` is near Hansen's coefficient for degree 5 and the angle `f - 2M`. -/
theorem C174_g521 {e : Elem} {i : Init} (h1 : 1 / 2 ≤ e.eo) (h2 : e.eo ≤ 77 / 100) :
    |(halfEcc e i).g521 - hansen 5 1 2 e.eo| ≤ if e.eo < 7 / 10 then 3 / 2 else 7 / 10 := by
  simp only [halfEcc, cubic, decide_eq_true_eq]
  by_cases h3 : e.eo < 7 / 10
  · rw [if_pos h3, if_pos h3]
    have h := near_g521_1 (e := e.eo) h1 (by linarith)
    rw [abs_sub_comm] at h
    norm_num only at h ⊢
    ring_nf at h ⊢
    exact h
  · rw [if_neg h3, if_neg h3]
    have h := near_g521_2 (e := e.eo) (by push Not at h3; linarith) h2
    rw [abs_sub_comm] at h
    norm_num only at h ⊢
    ring_nf at h ⊢
    exact h

/-- **C174**: `g532` is near Hansen's coefficient for degree 5 and the angle `-f - M`. -/
theorem C174_g532 {e : Elem} {i : Init} (h1 : 1 / 2 ≤ e.eo) (h2 : e.eo ≤ 77 / 100) :
    |(halfEcc e i).g532 - hansen 5 (-1) 1 e.eo| ≤ if e.eo < 7 / 10 then 7 / 10 else 9 / 20 := by
  simp only [halfEcc, cubic, decide_eq_true_eq]
  by_cases h3 : e.eo < 7 / 10
  · rw [if_pos h3, if_pos h3]
    have h := near_g532_1 (e := e.eo) h1 (by linarith)
    rw [abs_sub_comm] at h
    norm_num only at h ⊢
    ring_nf at h ⊢
    exact h
  · rw [if_neg h3, if_neg h3]
    have h := near_g532_2 (e := e.eo) (by push Not at h3; linarith) h2
    rw [abs_sub_comm] at h
    norm_num only at h ⊢
    ring_nf at h ⊢
    exact h

/-- The difference of two sets of functions of the eccentricity. -/
noncomputable def eccDiff (g g' : HalfEcc) : HalfEcc where
  g201 := g.g201 - g'.g201
  g211 := g.g211 - g'.g211
  g310 := g.g310 - g'.g310
  g322 := g.g322 - g'.g322
  g410 := g.g410 - g'.g410
  g422 := g.g422 - g'.g422
  g520 := g.g520 - g'.g520
  g532 := g.g532 - g'.g532
  g521 := g.g521 - g'.g521
  g533 := g.g533 - g'.g533

theorem waves_diff (c : Deep) (f : HalfIncl) (g g' : HalfEcc) (om ξ : ℝ) :
    waves (halfWaves { c with d := halfDayOf f g c.i } om) ξ - waves (halfWaves { c with d := halfDayOf f g' c.i } om) ξ =
      waves (halfWaves { c with d := halfDayOf f (eccDiff g g') c.i } om) ξ := by
  simp only [waves, halfWaves, halfDayOf, eccDiff, Wave.at, List.map_cons, List.map_nil, List.sum_cons, List.sum_nil]
  ring

theorem ite_le' {p : Prop} [Decidable p] {a b c : ℝ} (h1 : a ≤ c) (h2 : b ≤ c) : (if p then a else b) ≤ c := by
  split_ifs <;> assumption

/-- The amplitudes of the differences. -/
theorem diff_amp {c : Deep} {e : Elem} {x : ℝ} (h1 : c.i.cosio = Real.cos x) (h2 : c.i.cosio2 = Real.cos x * Real.cos x) (h3 : c.i.sinio = Real.sin x)
    (h4 : c.i.eosq = e.eo * e.eo) (he1 : 1 / 2 ≤ e.eo) (he2 : e.eo ≤ 77 / 100) (hn0 : 0 ≤ c.i.xnodp) (hn : c.i.xnodp ≤ 924 / 10 ^ 5)
    (ha : 4 ≤ c.i.aodp) (om : ℝ) : ampSum (halfWaves { c with d := halfDayOf (halfIncl c.i) (eccDiff (halfEcc e c.i) (hansenHalf e.eo)) c.i } om) ≤ 39 / 10 ^ 13 := by
  obtain ⟨f1, f2, f3, f4, f5, f6, f7, f8, f9, f10⟩ := incl_le h1 h2 h3
  have g1 : |(eccDiff (halfEcc e c.i) (hansenHalf e.eo)).g201| ≤ 1 / 500 := C174_g201 he1 he2
  have g2 : |(eccDiff (halfEcc e c.i) (hansenHalf e.eo)).g211| ≤ 1 / 50 := (C174_g211 h4 he1 he2).trans (ite_le' (by norm_num) (by norm_num))
  have g3 : |(eccDiff (halfEcc e c.i) (hansenHalf e.eo)).g310| ≤ 9 / 500 := (C174_g310 he1 he2).trans (ite_le' (by norm_num) (by norm_num))
  have g4 : |(eccDiff (halfEcc e c.i) (hansenHalf e.eo)).g322| ≤ 9 / 500 := (C174_g322 he1 he2).trans (ite_le' (by norm_num) (by norm_num))
  have g5 : |(eccDiff (halfEcc e c.i) (hansenHalf e.eo)).g410| ≤ 2 / 25 := (C174_g410 he1 he2).trans (ite_le' (by norm_num) (by norm_num))
  have g6 : |(eccDiff (halfEcc e c.i) (hansenHalf e.eo)).g422| ≤ 1 / 4 := (C174_g422 he1 he2).trans (ite_le' (by norm_num) (by norm_num))
  have g7 : |(eccDiff (halfEcc e c.i) (hansenHalf e.eo)).g520| ≤ 9 / 10 :=
    (C174_g520 he1 he2).trans (ite_le' (by norm_num) (ite_le' (by norm_num) (by norm_num)))
  have g8 : |(eccDiff (halfEcc e c.i) (hansenHalf e.eo)).g532| ≤ 7 / 10 := (C174_g532 he1 he2).trans (ite_le' (by norm_num) (by norm_num))
  have g9 : |(eccDiff (halfEcc e c.i) (hansenHalf e.eo)).g521| ≤ 3 / 2 := (C174_g521 he1 he2).trans (ite_le' (by norm_num) (by norm_num))
  have g10 : |(eccDiff (halfEcc e c.i) (hansenHalf e.eo)).g533| ≤ 1 := (C174_g533 he1 he2).trans (ite_le' (by norm_num) (by norm_num))
  have p := powers_le hn0 hn (by norm_num) ha
  simp only [ampSum, halfWaves, List.map_cons, List.map_nil, List.sum_cons, List.sum_nil, halfDayOf]
  generalize halfIncl c.i = f at *
  generalize eccDiff (halfEcc e c.i) (hansenHalf e.eo) = g at *
  generalize c.i.xnodp = n at *
  generalize c.i.aodp = a at *
  have e2 : 3 * n * n * (1 / a) * (1 / a) = 3 * n * n * (1 / a) ^ 2 := by ring
  have e3 : 3 * n * n * (1 / a) * (1 / a) * (1 / a) = 3 * n * n * (1 / a) ^ 3 := by ring
  have e4 : 3 * n * n * (1 / a) * (1 / a) * (1 / a) * (1 / a) = 3 * n * n * (1 / a) ^ 4 := by ring
  have e5 : 3 * n * n * (1 / a) * (1 / a) * (1 / a) * (1 / a) * (1 / a) = 3 * n * n * (1 / a) ^ 5 := by ring
  rw [e5, e4, e3, e2]
  have k1 := amp_le (r := 17891679 / 10 ^ 13) (p 2).1 (p 2).2 (by norm_num) f1 g1
  have k2 := amp_le (r := 17891679 / 10 ^ 13) (p 2).1 (p 2).2 (by norm_num) f2 g2
  have k3 := amp_le (r := 37393792 / 10 ^ 14) (p 3).1 (p 3).2 (by norm_num) f3 g3
  have k4 := amp_le (r := 37393792 / 10 ^ 14) (p 3).1 (p 3).2 (by norm_num) f4 g4
  have k5 := amp_le (r := 73636953 / 10 ^ 16) (mul_nonneg zero_le_two (p 4).1) (mul_le_mul_of_nonneg_left (p 4).2 zero_le_two) (by norm_num) f5 g5
  have k6 := amp_le (r := 73636953 / 10 ^ 16) (mul_nonneg zero_le_two (p 4).1) (mul_le_mul_of_nonneg_left (p 4).2 zero_le_two) (by norm_num) f6 g6
  have k7 := amp_le (r := 11428639 / 10 ^ 14) (p 5).1 (p 5).2 (by norm_num) f7 g7
  have k8 := amp_le (r := 11428639 / 10 ^ 14) (p 5).1 (p 5).2 (by norm_num) f8 g8
  have k9 := amp_le (r := 21765803 / 10 ^ 16) (mul_nonneg zero_le_two (p 5).1) (mul_le_mul_of_nonneg_left (p 5).2 zero_le_two) (by norm_num) f9 g9
  have k10 := amp_le (r := 21765803 / 10 ^ 16) (mul_nonneg zero_le_two (p 5).1) (mul_le_mul_of_nonneg_left (p 5).2 zero_le_two) (by norm_num) f10 g10
  refine (add_le_add k1 (add_le_add k2 (add_le_add k3 (add_le_add k4 (add_le_add k7 (add_le_add k8 (add_le_add k5 (add_le_add k6 (add_le_add k9
    (add_le_add k10 le_rfl)))))))))).trans ?_
  norm_num

/-- **C174**: for 12-hour orbits with eccentricity up to 0.77, the acceleration differs from `-3/a²` times the derivative of the kept terms of the mean
potential, with Hansen's coefficients, by at most 4·10⁻¹² rad/min². -/
theorem C174_force {e : Elem} (hr : (SDP4_init e).res = .half) (he : e.eo ≤ 77 / 100) (h0 : 0 < e.xno) (hk : e.xno ≤ xke) (t ξ : ℝ) :
    ∃ D : ℝ, HasDerivAt (fun ξ => (SDP4_init e).i.xnodp ^ 2 * (SDP4_init e).i.aodp ^ 3 *
      halfMean (halfIncl (SDP4_init e).i) (hansenHalf e.eo) (SDP4_init e).i.aodp ((SDP4_init e).omegaq + (SDP4_init e).i.omgdot * t) ξ) D ξ ∧
      |-(3 / (SDP4_init e).i.aodp ^ 2) * D - accel (SDP4_init e) t ξ| ≤ 4 / 10 ^ 12 := by
  have hres : resonanceOf e (sxpx_common_init e) = .half := hr
  have hb : 826 / 10 ^ 5 ≤ (SDP4_init e).i.xnodp ∧ (SDP4_init e).i.xnodp ≤ 924 / 10 ^ 5 ∧ 1 / 2 ≤ e.eo := by
    unfold resonanceOf at hres
    split_ifs at hres with h1
    exact h1
  have ha : 4 ≤ (SDP4_init e).i.aodp := half_axis (by linarith [hb.2.2]) (by linarith) h0 hk hb.2.1
  have hamp := diff_amp (c := SDP4_init e) (e := e) (x := e.xincl) rfl rfl rfl rfl hb.2.2 he (by linarith [hb.1]) hb.2.1 ha
  have ha0 : (SDP4_init e).i.aodp ≠ 0 := by linarith
  have hd := C142_half (c := { SDP4_init e with d := halfDayOf (halfIncl (SDP4_init e).i) (hansenHalf e.eo) (SDP4_init e).i }) rfl
    (by show (SDP4_init e).res ≠ .full; rw [hr]; decide) ha0 t ξ
  refine ⟨_, hd, ?_⟩
  have e1 : accel { SDP4_init e with d := halfDayOf (halfIncl (SDP4_init e).i) (hansenHalf e.eo) (SDP4_init e).i } t ξ =
      waves (halfWaves { SDP4_init e with d := halfDayOf (halfIncl (SDP4_init e).i) (hansenHalf e.eo) (SDP4_init e).i }
        ((SDP4_init e).omegaq + (SDP4_init e).i.omgdot * t)) ξ := by
    unfold accel
    rw [if_neg]
    show (SDP4_init e).res ≠ .full
    rw [hr]
    decide
  have e2 : accel (SDP4_init e) t ξ = waves (halfWaves { SDP4_init e with d := halfDayOf (halfIncl (SDP4_init e).i) (halfEcc e (SDP4_init e).i) (SDP4_init e).i }
        ((SDP4_init e).omegaq + (SDP4_init e).i.omgdot * t)) ξ := by
    unfold accel
    rw [if_neg (by rw [hr]; decide)]
    rfl
  have e3 : ∀ a A : ℝ, a ≠ 0 → -(3 / a ^ 2) * -(a ^ 2 / 3 * A) = A := fun a A h => by field_simp
  have e4 := e3 (SDP4_init e).i.aodp (accel { SDP4_init e with d := halfDayOf (halfIncl (SDP4_init e).i) (hansenHalf e.eo) (SDP4_init e).i } t ξ) ha0
  refine le_trans (le_of_eq (congrArg (fun z => |z - accel (SDP4_init e) t ξ|) e4)) ?_
  dsimp only
  rw [e1, e2, abs_sub_comm, waves_diff]
  refine (waves_le (half_phases _ _) ξ).trans ?_
  linarith [hamp ((SDP4_init e).omegaq + (SDP4_init e).i.omgdot * t)]

/-- Bounds of an integral that has no closed form, from the program: the mean of `(a/r)^4 cos(f - M)` for the eccentricity 0.7. -/
example {e : Elem} (i : Init) (h : e.eo = 7 / 10) : |hansen 3 1 1 (7 / 10) - 4765 / 1000| ≤ 19 / 1000 := by
  have h1 := C174_g310 (e := e) (i := i) (by rw [h]; norm_num) (by rw [h]; norm_num)
  rw [h, if_neg (by norm_num)] at h1
  have h2 : (halfEcc e i).g310 = 4765209 / 10 ^ 6 := by
    simp only [halfEcc, cubic, h]
    norm_num
  rw [h2, abs_le] at h1
  rw [abs_le]
  constructor <;> linarith [h1.1, h1.2]

end SatSky.Props
