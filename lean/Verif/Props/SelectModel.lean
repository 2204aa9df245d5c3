import Verif.Model.Propagate
import Verif.Spec.Orbit
import Mathlib.Tactic.NormNum
import Mathlib.Tactic.Positivity
import Mathlib.Tactic.Linarith
import Mathlib.Tactic.FieldSimp
import Mathlib.Tactic.Ring
import Mathlib.Analysis.Real.Pi.Bounds

/-! C47: the choice of the propagation model. -/

namespace SatSky.Props

open SatSky.Spec SatSky.Sxp

/-- The element type demands no particular model. -/
def Unmarked (e : Elem) : Prop := e.ephType ≠ 104 ∧ e.ephType ≠ 50 ∧ e.ephType ≠ 51 ∧ e.ephType ≠ 52 ∧ e.ephType ≠ 53

/-- Elements in the domain of the models: positive mean motion, elliptic. -/
def InDomain (e : Elem) : Prop := 0 < e.xno ∧ 0 ≤ e.eo ∧ e.eo < 1

theorem a1_pos {e : Elem} (h : 0 < e.xno) : 0 < a1 e := by
  unfold a1
  apply Real.rpow_pos_of_pos
  unfold xke
  positivity

theorem a1_kepler {e : Elem} (h : 0 < e.xno) : a1 e ^ 3 * e.xno ^ 2 = xke ^ 2 := by
  have hk : 0 < xke / e.xno := by unfold xke; positivity
  unfold a1
  rw [← Real.rpow_natCast, ← Real.rpow_mul hk.le]
  norm_num
  rw [div_pow]
  field_simp

/-- The size of the corrections for an orbit whose semilatus rectum is at least `c`. -/
theorem del1_bound {e : Elem} (h : InDomain e) {c : ℝ} (hc : 0 < c) (hp : c ≤ a1 e * (1 - e.eo ^ 2)) :
    |del1 e| ≤ 3 * ck2 / c ^ 2 := by
  obtain ⟨h1, h2, h3⟩ := h
  have hb2 : 0 < 1 - e.eo ^ 2 := by nlinarith
  have hb2' : 1 - e.eo ^ 2 ≤ 1 := by nlinarith [sq_nonneg e.eo]
  have ha := a1_pos h1
  set b := Real.sqrt (1 - e.eo ^ 2) with hb
  have hbpos : 0 < b := Real.sqrt_pos.mpr hb2
  have hbsq : b ^ 2 = 1 - e.eo ^ 2 := Real.sq_sqrt hb2.le
  have hb1 : b ≤ 1 := by nlinarith
  have hk : 0 < ck2 := by unfold ck2 xj2; norm_num
  have hcos : |3 * (Real.cos e.xincl * Real.cos e.xincl) - 1| ≤ 2 := by
    have := Real.cos_sq_le_one e.xincl
    rw [abs_le]
    constructor <;> nlinarith [sq_nonneg (Real.cos e.xincl)]
  have hdel : del1 e = 3 / 2 * ck2 * (3 * (Real.cos e.xincl * Real.cos e.xincl) - 1) / (b ^ 3 * a1 e ^ 2) := by
    unfold del1 tval
    rw [show 1 - e.eo * e.eo = b ^ 2 by rw [hbsq]; ring, Real.sqrt_sq hbpos.le]
    field_simp
  have hden : c ^ 2 ≤ b ^ 3 * a1 e ^ 2 := by
    have h4 : c ≤ a1 e * b ^ 2 := by rw [hbsq]; exact hp
    have h5 : c ^ 2 ≤ (a1 e * b ^ 2) ^ 2 := by gcongr
    have h6 : (a1 e * b ^ 2) ^ 2 = (b ^ 3 * a1 e ^ 2) * b := by ring
    have h7 : 0 < b ^ 3 * a1 e ^ 2 := by positivity
    nlinarith
  have hdpos : 0 < b ^ 3 * a1 e ^ 2 := by positivity
  rw [hdel, abs_div, abs_mul, abs_of_pos hdpos, abs_of_pos (show 0 < 3 / 2 * ck2 by positivity)]
  apply div_le_div₀ (by positivity) ?_ (by positivity) hden
  nlinarith

theorem ao_eq (e : Elem) : ao e = a1 e * (1 - 1 / 3 * del1 e - del1 e ^ 2 - 134 / 81 * del1 e ^ 3) := by
  unfold ao; ring

theorem tval_eq {e : Elem} (h : InDomain e) :
    tval e = 3 / 2 * ck2 * (3 * Real.cos e.xincl ^ 2 - 1) / Real.sqrt (1 - e.eo ^ 2) ^ 3 := by
  have hb2 : 0 < 1 - e.eo ^ 2 := by obtain ⟨h1, h2, h3⟩ := h; nlinarith
  have hbsq : Real.sqrt (1 - e.eo ^ 2) ^ 2 = 1 - e.eo ^ 2 := Real.sq_sqrt hb2.le
  unfold tval
  rw [show 1 - e.eo * e.eo = 1 - e.eo ^ 2 by ring]
  congr 1
  · ring
  · rw [show Real.sqrt (1 - e.eo ^ 2) ^ 3 = Real.sqrt (1 - e.eo ^ 2) * Real.sqrt (1 - e.eo ^ 2) ^ 2 by ring, hbsq]

/-- The second correction, from a bound `d` of the first. -/
theorem delo_bound {e : Elem} (h : 0 < e.xno) {d : ℝ} (hd : d ≤ 1 / 20) (h1 : |del1 e| ≤ d) :
    0 < ao e ∧ |delo e| ≤ d * (1 + d) := by
  have ha := a1_pos h
  have hd0 : 0 ≤ d := le_trans (abs_nonneg _) h1
  obtain ⟨l, u⟩ := abs_le.mp h1
  set x := del1 e with hx
  set g := 1 - 1 / 3 * x - x ^ 2 - 134 / 81 * x ^ 3 with hg
  have hx2 : x ^ 2 ≤ d ^ 2 := by nlinarith
  have hd2 : d ^ 2 ≤ 1 / 20 * d := by nlinarith
  have hx3 : |x ^ 3| ≤ 1 / 400 * d := by
    rw [abs_pow]
    calc |x| ^ 3 = |x| ^ 2 * |x| := by ring
      _ ≤ d ^ 2 * d := by gcongr
      _ ≤ 1 / 400 * d := by nlinarith
  obtain ⟨l3, u3⟩ := abs_le.mp hx3
  have hglow : 1 - 2 / 5 * d ≤ g := by
    rw [hg]; nlinarith [sq_nonneg x]
  have hg0 : 0 < g := by linarith
  have hao : ao e = a1 e * g := ao_eq e
  refine ⟨by rw [hao]; positivity, ?_⟩
  have hdelo : delo e = x / g ^ 2 := by
    unfold delo
    rw [hao, hx]
    unfold del1
    field_simp
  rw [hdelo, abs_div, abs_of_pos (show 0 < g ^ 2 by positivity), div_le_iff₀ (by positivity)]
  have hg2 : 1 ≤ (1 + d) * g ^ 2 := by
    have : (1 - 2 / 5 * d) ^ 2 ≤ g ^ 2 := by
      have : 0 ≤ 1 - 2 / 5 * d := by linarith
      gcongr
    nlinarith
  calc |x| ≤ d * 1 := by linarith
    _ ≤ d * ((1 + d) * g ^ 2) := by gcongr
    _ = d * (1 + d) * g ^ 2 := by ring

theorem ck2_small : 3 * ck2 / (1 / 5 : ℝ) ^ 2 ≤ 1 / 20 ∧ 3 * ck2 / (1 : ℝ) ^ 2 ≤ 163 / 100000 := by
  unfold ck2 xj2
  constructor <;> norm_num

/-- **C47** (partial), elements marked for a model: `'2'`, `'4'` select SGP4 and `'3'`, `'5'` the deep-space model, elements outside the
domain get the error answer. -/
theorem C47_types_partial (e : Elem) (hh : e.ephType ≠ 104) :
    (select_ephemeris e = -1 ↔ ¬ (0 < e.xno ∧ 0 ≤ e.eo ∧ e.eo ≤ 1)) ∧
    (0 < e.xno ∧ 0 ≤ e.eo ∧ e.eo ≤ 1 → e.ephType = 50 ∨ e.ephType = 52 → select_ephemeris e = 0) ∧
    (0 < e.xno ∧ 0 ≤ e.eo ∧ e.eo ≤ 1 → e.ephType = 51 ∨ e.ephType = 53 → select_ephemeris e = 1) := by
  have hdom : (e.xno ≤ 0 ∨ e.eo > 1 ∨ e.eo < 0) ↔ ¬ (0 < e.xno ∧ 0 ≤ e.eo ∧ e.eo ≤ 1) := by
    constructor
    · rintro (h | h | h) ⟨a, b, c⟩ <;> linarith
    · intro h
      by_contra hc
      push Not at hc
      exact h ⟨hc.1, hc.2.2, hc.2.1⟩
  unfold select_ephemeris
  rw [if_neg hh]
  by_cases hd : e.xno ≤ 0 ∨ e.eo > 1 ∨ e.eo < 0
  · rw [if_pos hd]
    exact ⟨by simp [hdom.mp hd], fun h => absurd h (hdom.mp hd), fun h => absurd h (hdom.mp hd)⟩
  · rw [if_neg hd]
    have hd' : 0 < e.xno ∧ 0 ≤ e.eo ∧ e.eo ≤ 1 := by
      by_contra hc; exact hd (hdom.mpr hc)
    refine ⟨?_, fun _ ht => by rw [if_pos ht], fun _ ht => ?_⟩
    · constructor
      · intro h
        split_ifs at h <;> simp at h
      · intro h; exact absurd hd' h
    · rw [if_neg (by rcases ht with ht | ht <;> rw [ht] <;> decide), if_pos ht]

/-- **C89**: for elements of no special type, of an orbit whose semilatus rectum is at least 0.2 Earth radii, the equations of the report
have exactly one solution, and the deep-space model is chosen exactly if the period of the recovered mean motion is at least 225 minutes. -/
theorem C89_period (e : Elem) (hd : InDomain e) (ht : Unmarked e)
    (hp : 1 / 5 ≤ a1 e * (1 - e.eo ^ 2)) :
    ∃ n a, Recovered xke ck2 e.xno e.eo e.xincl n a ∧
      (∀ n' a', Recovered xke ck2 e.xno e.eo e.xincl n' a' → n' = n ∧ a' = a) ∧ 0 < n ∧
      (select_ephemeris e = 1 ↔ 225 ≤ 2 * Real.pi / n) ∧ (select_ephemeris e = 0 ↔ 2 * Real.pi / n < 225) := by
  have hb := del1_bound hd (by norm_num) hp
  have hb' : |del1 e| ≤ 1 / 20 := le_trans hb ck2_small.1
  obtain ⟨hao, hdo⟩ := delo_bound hd.1 le_rfl hb'
  obtain ⟨l, u⟩ := abs_le.mp hdo
  have hpos : 0 < 1 + delo e := by linarith
  have hpos' : 0 < 1 - delo e := by linarith
  have ha1 := a1_pos hd.1
  refine ⟨(sxpall_common_init e).xnodp, (sxpall_common_init e).aodp, ?_, ?_, ?_, ?_⟩
  · refine ⟨a1 e, del1 e, ao e, delo e, ha1, a1_kepler hd.1, ?_, ao_eq e, ?_, ?_, ?_⟩
    · rw [← tval_eq hd]; unfold del1; field_simp
    · rw [← tval_eq hd]; unfold delo; field_simp
    · simp only [sxpall_common_init]; field_simp
    · simp only [sxpall_common_init]; field_simp
  · rintro n' a' ⟨b1, d1, b0, d0, hb1, k1, k2, k3, k4, k5, k6⟩
    have e1 : b1 = a1 e := by
      have h3 : b1 ^ 3 = a1 e ^ 3 := by
        have hx : e.xno ^ 2 ≠ 0 := by have := hd.1; positivity
        have := a1_kepler hd.1
        exact mul_right_cancel₀ hx (k1.trans this.symm)
      exact (pow_left_inj₀ hb1.le ha1.le (by norm_num)).mp h3
    have e2 : d1 = del1 e := by
      rw [← tval_eq hd, e1] at k2
      unfold del1
      rw [eq_div_iff (by positivity), ← k2]; ring
    have e3 : b0 = ao e := by rw [k3, e1, e2, ao_eq]
    have e4 : d0 = delo e := by
      rw [← tval_eq hd, e3] at k4
      unfold delo
      rw [eq_div_iff (by positivity), ← k4]; ring
    constructor
    · simp only [sxpall_common_init]
      rw [eq_div_iff hpos.ne', ← k5, e4]
    · simp only [sxpall_common_init]
      rw [eq_div_iff hpos'.ne', ← e4, k6, e3]
  · simp only [sxpall_common_init]
    exact div_pos hd.1 hpos
  · unfold select_ephemeris
    obtain ⟨h1, h2, h3⟩ := hd
    have hne : e.ephType ≠ 104 ∧ ¬ (e.ephType = 50 ∨ e.ephType = 52) ∧ ¬ (e.ephType = 51 ∨ e.ephType = 53) := by
      obtain ⟨t1, t2, t3, t4, t5⟩ := ht
      exact ⟨t1, by tauto, by tauto⟩
    rw [if_neg hne.1, if_neg (by push Not; exact ⟨h1, h3.le, h2⟩), if_neg hne.2.1, if_neg hne.2.2]
    by_cases hq : 225 ≤ 2 * Real.pi / (sxpall_common_init e).xnodp
    · rw [if_pos hq]; exact ⟨by simp [hq], by simp [hq]⟩
    · rw [if_neg hq]; exact ⟨by simp [hq], by simpa using hq⟩

/-- **C89**, in terms of the mean motion in the file: if the semilatus rectum is at least one Earth radius, a period of at least 225.4
minutes gives the deep-space model and one of at most 224.6 minutes the near-Earth one. -/
theorem C89_band (e : Elem) (hd : InDomain e) (ht : Unmarked e) (hp : 1 ≤ a1 e * (1 - e.eo ^ 2)) :
    (225.4 ≤ 2 * Real.pi / e.xno → select_ephemeris e = 1) ∧ (2 * Real.pi / e.xno ≤ 224.6 → select_ephemeris e = 0) := by
  have hb := le_trans (del1_bound hd (by norm_num) hp) ck2_small.2
  obtain ⟨hao, hdo⟩ := delo_bound hd.1 (by norm_num) hb
  obtain ⟨l, u⟩ := abs_le.mp hdo
  norm_num at l u
  obtain ⟨n, a, hr, huniq, hn, hs1, hs0⟩ := C89_period e hd ht (by linarith)
  have hpos : 0 < 1 + delo e := by linarith
  have hx := hd.1
  have hper : 2 * Real.pi / (sxpall_common_init e).xnodp = 2 * Real.pi / e.xno * (1 + delo e) := by
    simp only [sxpall_common_init]
    field_simp
  unfold select_ephemeris
  obtain ⟨t1, t2, t3, t4, t5⟩ := ht
  rw [if_neg t1, if_neg (by push Not; exact ⟨hd.1, hd.2.2.le, hd.2.1⟩), if_neg (by tauto), if_neg (by tauto), hper]
  constructor
  · intro h
    rw [if_pos]
    norm_num at h ⊢
    nlinarith
  · intro h
    have h0 : 0 < 2 * Real.pi / e.xno := by positivity
    rw [if_neg]
    norm_num at h ⊢
    nlinarith

/-- A circular equatorial orbit with the mean motion `n`. -/
def circular (n : ℝ) (t : ℤ) : Elem :=
  { epoch := 2459580.5, bstar := 0, xincl := 0, xnodeo := 0, eo := 0, omegao := 0, xmo := 0, xno := n, ephType := t }

theorem circular_p {n : ℝ} (t : ℤ) (h0 : 0 < n) (h : n ≤ xke) : 1 ≤ a1 (circular n t) * (1 - (circular n t).eo ^ 2) := by
  have h1 : 1 ≤ xke / n := by rw [le_div_iff₀ h0]; linarith
  have := Real.one_le_rpow h1 (show (0 : ℝ) ≤ 2 / 3 by norm_num)
  simpa [circular, a1] using this

/-- A low orbit of 2 π / 0.0676 = 92.9 minutes uses SGP4, a geostationary one the deep-space model. -/
example : select_ephemeris (circular (676 / 10000) 48) = 0 ∧ select_ephemeris (circular (4375 / 1000000) 48) = 1 := by
  have hlo := Real.pi_gt_d2
  have hhi := Real.pi_lt_d2
  constructor
  · refine (C89_band _ ⟨by norm_num [circular], by norm_num [circular], by norm_num [circular]⟩ (by norm_num [Unmarked, circular])
      (circular_p 48 (by norm_num) (by norm_num [xke]))).2 ?_
    simp only [circular]
    rw [div_le_iff₀ (by norm_num)]
    linarith
  · refine (C89_band _ ⟨by norm_num [circular], by norm_num [circular], by norm_num [circular]⟩ (by norm_num [Unmarked, circular])
      (circular_p 48 (by norm_num) (by norm_num [xke]))).1 ?_
    simp only [circular]
    rw [le_div_iff₀ (by norm_num)]
    linarith

/-- **C47** fails for the state vectors that the reader marks `'H'` (72): `select_ephemeris` tests for `'h'`. The members of the element
set are then a position in metres (`xincl`, `xnodeo`, `eo`) and a velocity in metres per second; here the satellite crosses the equator
7000 km from the centre, and SGP4, which knows nothing of state vectors, is chosen. -/
theorem C47_high_violated :
    chosen { epoch := 2459580.5, bstar := 0, xincl := 0, xnodeo := 7000000, eo := 0, omegao := 7500, xmo := 0, xno := 1 / 20,
             ephType := 72 } = .sgp4 := by
  have hhi := Real.pi_lt_d2
  have h := (C89_band
    { epoch := 2459580.5, bstar := 0, xincl := 0, xnodeo := 7000000, eo := 0, omegao := 7500, xmo := 0, xno := 1 / 20, ephType := 72 }
    ⟨by norm_num, by norm_num, by norm_num⟩ (by norm_num [Unmarked]) ?_).2 ?_
  · unfold chosen; rw [h]; simp
  · have h1 : (1 : ℝ) ≤ xke / (1 / 20) := by norm_num [xke]
    have := Real.one_le_rpow h1 (show (0 : ℝ) ≤ 2 / 3 by norm_num)
    simpa [a1] using this
  · dsimp only
    rw [div_le_iff₀ (by norm_num)]
    linarith

/-- **C47** fails for rejected elements: the answer −1 is not zero, and the callers propagate them with the deep-space model. -/
theorem C47_rejected_violated (e : Elem) (hh : e.ephType ≠ 104) (h : e.xno ≤ 0 ∨ e.eo > 1 ∨ e.eo < 0) :
    select_ephemeris e = -1 ∧ chosen e = .sdp4 := by
  have : select_ephemeris e = -1 := by unfold select_ephemeris; rw [if_neg hh, if_pos h]
  refine ⟨this, ?_⟩
  unfold chosen
  rw [this]
  simp

example : chosen (circular 0 48) = .sdp4 := (C47_rejected_violated _ (by norm_num [circular]) (by norm_num [circular])).2

end SatSky.Props
