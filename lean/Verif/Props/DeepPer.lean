import Verif.Props.DeepHist
import Mathlib.Analysis.SpecialFunctions.Trigonometric.Bounds
import Mathlib.Analysis.Real.Pi.Bounds
import Mathlib.Analysis.SpecialFunctions.Trigonometric.Arctan
import Mathlib.Analysis.SpecialFunctions.Trigonometric.ArctanDeriv

/-! The periodic terms of Sun and Moon are kept for half an hour: C50 in the default mode. -/

namespace SatSky.Props

open SatSky.Spec SatSky.Sxp Real

/-! ### Which terms are applied -/

/-- The terms in the state are those of the time noted with them, or none have been computed yet. -/
def TermsOf (c : Deep) (s : State) : Prop := s.savtsn = 10 ^ 20 ∨ s.per = periodic c s.savtsn

theorem termsOf_dpsec {fuel : ℕ} {cfg : Cfg} {c : Deep} {e : Elem} {s s1 : State} {t : ℝ} {w w' : Work} (h : TermsOf c s)
    (hd : Deep_dpsec fuel cfg c e s t w = some (s1, w')) : TermsOf c s1 ∧ s1.savtsn = s.savtsn ∧ s1.per = s.per := by
  unfold Deep_dpsec at hd
  dsimp only at hd
  by_cases h1 : c.res = .none
  · rw [if_pos h1, Option.some.injEq, Prod.mk.injEq] at hd
    rw [← hd.1]
    exact ⟨h, rfl, rfl⟩
  · rw [if_neg h1] at hd
    obtain ⟨⟨⟨l, n⟩, a, l', n'⟩, -, hd⟩ := Option.map_eq_some_iff.mp hd
    rw [Prod.mk.injEq] at hd
    rw [← hd.1]
    exact ⟨h, rfl, rfl⟩

theorem termsOf_refresh {cfg : Cfg} {c : Deep} {s : State} {t : ℝ} (h : TermsOf c s) : TermsOf c (refresh cfg c s t) := by
  unfold refresh
  split_ifs
  · exact Or.inr rfl
  · exact h

theorem termsOf_calls {fuel : ℕ} {cfg : Cfg} {c : Deep} {e : Elem} :
    ∀ {ts : List ℝ} {s s' : State}, TermsOf c s → calls fuel cfg c e ts s = some s' → TermsOf c s'
  | [], s, s', h, hc => by
    unfold calls at hc
    exact Option.some.inj hc ▸ h
  | t :: ts, s, s', h, hc => by
    unfold calls at hc
    obtain ⟨⟨s2, r⟩, h2, hc⟩ := Option.bind_eq_some_iff.mp hc
    refine termsOf_calls (ts := ts) (s := s2) ?_ hc
    unfold SDP4 at h2
    obtain ⟨⟨s1, w⟩, hd, h2⟩ := Option.map_eq_some_iff.mp h2
    have h1 := (termsOf_dpsec h hd).1
    dsimp only at h2
    split_ifs at h2
    · rw [Prod.mk.injEq] at h2
      rw [← h2.1]
      exact h1
    · rw [Prod.mk.injEq] at h2
      rw [← h2.1]
      exact termsOf_refresh h1

/-- The answer of `SDP4` when `w` is the long-period part and `p` the periodic terms that are applied. -/
noncomputable def answer (c : Deep) (e : Elem) (t : ℝ) (p : Periodic) (w : Work) : ℤ × Option (V3 × V3) :=
  if w.xn < 0 then (-5, none)
  else
    let tempa := 1 - c.i.c1 * t
    let w' := applyPeriodic e p { w with em := w.em - e.bstar * c.i.c4 * t, xll := w.xll + c.i.xnodp * c.i.t2cof * (t * t) }
    let r := sxpx_posn_vel (w'.mean ((xke / w.xn) ^ (2 / 3 : ℝ) * tempa * tempa))
    (r.1, some r.2)

/-- The long-period part of an orbit without resonance. -/
noncomputable def secularWork (c : Deep) (e : Elem) (t : ℝ) : Work where
  xll := e.xmo + c.i.xmdot * t + c.ssl * t
  omgadf := e.omegao + c.i.omgdot * t + c.ssg * t
  xnode := e.xnodeo + c.i.xnodot * t + c.i.xnodcf * (t * t) + c.ssh * t
  em := e.eo + c.sse * t
  xinc := e.xincl + c.ssi * t
  xn := c.i.xnodp

/-- C50 (default mode, orbits without resonance): whatever was asked for before, the answer for `t` is computed with the secular elements of `t`
and the periodic terms of Sun and Moon of a time less than 30 minutes from `t`.  Missing: the terms are not those of `t` itself
(`C50_default_violated`), and for resonant orbits the integration depends on the times asked for before. -/
theorem C50_default_partial {f f1 : ℕ} {cfg : Cfg} {c : Deep} {e : Elem} {ts : List ℝ} {p : Periodic} {s s1 : State} {t : ℝ}
    {r : ℤ × Option (V3 × V3)} (hr : c.res = .none) (ht : |(10 : ℝ) ^ 20 - t| ≥ 30) (hc : calls f cfg c e ts (Deep.start c p) = some s)
    (h : SDP4 f1 cfg c e s t = some (s1, r)) : ∃ u, |u - t| < 30 ∧ r = answer c e t (periodic c u) (secularWork c e t) := by
  have hT : TermsOf c s := termsOf_calls (Or.inl rfl) hc
  unfold SDP4 at h
  obtain ⟨⟨s2, w⟩, hd, h⟩ := Option.map_eq_some_iff.mp h
  obtain ⟨hT2, -, -⟩ := termsOf_dpsec hT hd
  have hw : w = secularWork c e t := by
    unfold Deep_dpsec at hd
    dsimp only at hd
    rw [if_pos hr, Option.some.injEq, Prod.mk.injEq] at hd
    rw [← hd.2]
    rfl
  subst hw
  have hu : ∃ u, |u - t| < 30 ∧ (refresh cfg c s2 t).per = periodic c u := by
    unfold refresh
    split_ifs with h1
    · exact ⟨t, by simp, rfl⟩
    · push Not at h1
      rcases hT2 with h2 | h2
      · rw [h2] at h1
        linarith [h1.1]
      · exact ⟨s2.savtsn, h1.1, h2⟩
  obtain ⟨u, hu1, hu2⟩ := hu
  refine ⟨u, hu1, ?_⟩
  dsimp only at h
  unfold answer
  split_ifs at h ⊢ with h1
  · rw [Prod.mk.injEq] at h
    exact h.2.symm
  · rw [Prod.mk.injEq] at h
    rw [← h.2]
    unfold Deep_dpper
    dsimp only
    rw [hu2]

/-! ### How much the terms change -/

/-- The equation of the centre. -/
noncomputable def centre (zm ze : ℝ) : ℝ := zm + 2 * ze * sin zm

theorem abs_sin_sub (x y : ℝ) : |sin x - sin y| ≤ |x - y| := Real.abs_sin_sub_sin_le x y

theorem abs_cos_sub (x y : ℝ) : |cos x - cos y| ≤ |x - y| := by
  have := abs_sin_sub (x + π / 2) (y + π / 2)
  rwa [sin_add_pi_div_two, sin_add_pi_div_two, add_sub_add_right_eq_sub] at this

theorem anomalies_eq (zm ze : ℝ) :
    anomalies zm ze = (-(1 / 4) * cos (2 * centre zm ze), -(1 / 4) * sin (2 * centre zm ze), sin (centre zm ze)) := by
  unfold anomalies
  dsimp only
  rw [show zm + 2 * ze * sin zm = centre zm ze from rfl, sin_two_mul, cos_two_mul]
  have := sin_sq_add_cos_sq (centre zm ze)
  ext
  · dsimp only; linarith [this, sq (sin (centre zm ze)), sq (cos (centre zm ze))]
  · dsimp only; ring
  · rfl

theorem centre_sub {ze : ℝ} (h : 0 ≤ ze) (x y : ℝ) : |centre x ze - centre y ze| ≤ (1 + 2 * ze) * |x - y| := by
  unfold centre
  have e : x + 2 * ze * sin x - (y + 2 * ze * sin y) = (x - y) + 2 * ze * (sin x - sin y) := by ring
  rw [e]
  refine (abs_add_le _ _).trans ?_
  rw [abs_mul, abs_of_nonneg (by linarith : 0 ≤ 2 * ze)]
  nlinarith [abs_sin_sub x y, abs_nonneg (x - y)]

/-- The change of the angular functions of one body between two times. -/
theorem anomalies_sub {z zn ze : ℝ} (hn : 0 ≤ zn) (h : 0 ≤ ze) (u t : ℝ) :
    |(anomalies (z + zn * u) ze).1 - (anomalies (z + zn * t) ze).1| ≤ 1 / 2 * (zn * (1 + 2 * ze) * |u - t|) ∧
    |(anomalies (z + zn * u) ze).2.1 - (anomalies (z + zn * t) ze).2.1| ≤ 1 / 2 * (zn * (1 + 2 * ze) * |u - t|) ∧
    |(anomalies (z + zn * u) ze).2.2 - (anomalies (z + zn * t) ze).2.2| ≤ zn * (1 + 2 * ze) * |u - t| := by
  have hb := centre_sub h (z + zn * u) (z + zn * t)
  have e : z + zn * u - (z + zn * t) = zn * (u - t) := by ring
  rw [e, abs_mul, abs_of_nonneg hn] at hb
  rw [anomalies_eq, anomalies_eq]
  generalize centre (z + zn * u) ze = a at *
  generalize centre (z + zn * t) ze = b at *
  have h2 : |2 * a - 2 * b| = 2 * |a - b| := by rw [← mul_sub, abs_mul, abs_two]
  refine ⟨?_, ?_, ?_⟩
  · dsimp only
    rw [← mul_sub, abs_mul, abs_neg, abs_of_pos (by norm_num : (0 : ℝ) < 1 / 4)]
    have := abs_cos_sub (2 * a) (2 * b)
    linarith
  · dsimp only
    rw [← mul_sub, abs_mul, abs_neg, abs_of_pos (by norm_num : (0 : ℝ) < 1 / 4)]
    have := abs_sin_sub (2 * a) (2 * b)
    linarith
  · dsimp only
    have := abs_sin_sub a b
    linarith

theorem abs_two_terms {p q x y x' y' b : ℝ} (hx : |x - x'| ≤ b) (hy : |y - y'| ≤ b) : |p * x + q * y - (p * x' + q * y')| ≤ (|p| + |q|) * b := by
  have e : p * x + q * y - (p * x' + q * y') = p * (x - x') + q * (y - y') := by ring
  rw [e]
  refine (abs_add_le _ _).trans ?_
  rw [abs_mul, abs_mul]
  nlinarith [abs_nonneg p, abs_nonneg q]

/-- C50: the error of the eccentricity, inclination and node from using the terms of `u` instead of those of `t`. -/
theorem C50_bound_partial (c : Deep) (u t : ℝ) :
    |(periodic c u).pe - (periodic c t).pe| ≤
      ((|c.sun.e2| + |c.sun.e3|) * (1235 / 10 ^ 8) + (|c.moon.e2| + |c.moon.e3|) * (17575 / 10 ^ 8)) / 2 * |u - t| ∧
    |(periodic c u).pinc - (periodic c t).pinc| ≤
      ((|c.sun.i2| + |c.sun.i3|) * (1235 / 10 ^ 8) + (|c.moon.i2| + |c.moon.i3|) * (17575 / 10 ^ 8)) / 2 * |u - t| ∧
    |(periodic c u).ph - (periodic c t).ph| ≤
      ((|c.sun.h2| + |c.sun.h3|) * (1235 / 10 ^ 8) + (|c.moon.h2| + |c.moon.h3|) * (17575 / 10 ^ 8)) / 2 * |u - t| := by
  obtain ⟨s2, s3, -⟩ := anomalies_sub (z := c.zmos) (zn := znsMin) (ze := zes) (by unfold znsMin; norm_num) (by unfold zes; norm_num) u t
  obtain ⟨m2, m3, -⟩ := anomalies_sub (z := c.zmol) (zn := znlMin) (ze := zel) (by unfold znlMin; norm_num) (by unfold zel; norm_num) u t
  have bs : znsMin * (1 + 2 * zes) ≤ 1235 / 10 ^ 8 := by unfold znsMin zes; norm_num
  have bm : znlMin * (1 + 2 * zel) ≤ 17575 / 10 ^ 8 := by unfold znlMin zel; norm_num
  have hn := abs_nonneg (u - t)
  have bs' : 1 / 2 * (znsMin * (1 + 2 * zes) * |u - t|) ≤ 1235 / 10 ^ 8 / 2 * |u - t| := by nlinarith
  have bm' : 1 / 2 * (znlMin * (1 + 2 * zel) * |u - t|) ≤ 17575 / 10 ^ 8 / 2 * |u - t| := by nlinarith
  have s2 := s2.trans bs'
  have s3 := s3.trans bs'
  have m2 := m2.trans bm'
  have m3 := m3.trans bm'
  have key : ∀ p q p' q' x y x' y' X Y X' Y' : ℝ, |x - x'| ≤ 1235 / 10 ^ 8 / 2 * |u - t| → |y - y'| ≤ 1235 / 10 ^ 8 / 2 * |u - t| →
      |X - X'| ≤ 17575 / 10 ^ 8 / 2 * |u - t| → |Y - Y'| ≤ 17575 / 10 ^ 8 / 2 * |u - t| →
      |p * x + q * y + (p' * X + q' * Y) - (p * x' + q * y' + (p' * X' + q' * Y'))| ≤
        ((|p| + |q|) * (1235 / 10 ^ 8) + (|p'| + |q'|) * (17575 / 10 ^ 8)) / 2 * |u - t| := by
    intro p q p' q' x y x' y' X Y X' Y' h1 h2 h3 h4
    have e : p * x + q * y + (p' * X + q' * Y) - (p * x' + q * y' + (p' * X' + q' * Y')) =
      (p * x + q * y - (p * x' + q * y')) + (p' * X + q' * Y - (p' * X' + q' * Y')) := by ring
    rw [e]
    refine (abs_add_le _ _).trans ?_
    have a1 := abs_two_terms (p := p) (q := q) h1 h2
    have a2 := abs_two_terms (p := p') (q := q') h3 h4
    linarith
  unfold periodic
  exact ⟨key _ _ _ _ _ _ _ _ _ _ _ _ s2 s3 m2 m3, key _ _ _ _ _ _ _ _ _ _ _ _ s2 s3 m2 m3, key _ _ _ _ _ _ _ _ _ _ _ _ s2 s3 m2 m3⟩

/-- For a satellite whose terms have coefficients of 0.01 (larger than those of any Earth satellite of interest) the error is at most 3e-5. -/
example (c : Deep) (u t : ℝ) (h : |u - t| < 30) (h1 : |c.sun.e2| ≤ 1 / 200) (h2 : |c.sun.e3| ≤ 1 / 200) (h3 : |c.moon.e2| ≤ 1 / 200)
    (h4 : |c.moon.e3| ≤ 1 / 200) : |(periodic c u).pe - (periodic c t).pe| ≤ 3 / 10 ^ 5 := by
  have := (C50_bound_partial c u t).1
  nlinarith [abs_nonneg (u - t), abs_nonneg c.sun.e2, abs_nonneg c.sun.e3, abs_nonneg c.moon.e2, abs_nonneg c.moon.e3]

/-! ### A satellite for which the terms differ -/

/-- A satellite far from the Earth whose apsides are in the plane of the ecliptic and whose orbit is perpendicular to it, at a time when the node
of the Moon's orbit is at the equinox. -/
noncomputable def polar : Elem where
  epoch := 2415020 + 45236020 / 10 ^ 7 / (92422029 / 10 ^ 11)
  bstar := 0
  xincl := arctan (zcosi0 / zsini0)
  xnodeo := π
  eo := 1 / 2
  omegao := 0
  xmo := 0
  xno := xke / 27
  ephType := 0

theorem polar_node : lunarNode (polar.epoch - 2415020) = 0 := by
  unfold lunarNode polar
  norm_num

theorem polar_delo : |delo polar| ≤ 1 / 1000 := by
  have ha : a1 polar = 9 := by
    have hx : xke ≠ 0 := by unfold xke; norm_num
    have : xke / polar.xno = 27 := by
      unfold polar; field_simp
    unfold a1
    rw [this, show (27 : ℝ) = 3 ^ (3 : ℝ) by norm_num, ← rpow_mul (by norm_num)]
    norm_num
  have hb : (4 / 5 : ℝ) ≤ √(1 - polar.eo * polar.eo) := by
    apply le_sqrt_of_sq_le
    unfold polar; norm_num
  have hc0 : 0 ≤ cos polar.xincl * cos polar.xincl := mul_self_nonneg _
  have hc1 : cos polar.xincl * cos polar.xincl ≤ 1 := by nlinarith [cos_sq_add_sin_sq polar.xincl, sq_nonneg (sin polar.xincl)]
  have he : 1 - polar.eo * polar.eo = 3 / 4 := by unfold polar; norm_num
  have ht : |tval polar| ≤ 1 / 200 := by
    unfold tval
    rw [he] at hb ⊢
    have hk : (0 : ℝ) ≤ ck2 ∧ ck2 ≤ 6 / 10 ^ 4 := by unfold ck2 xj2; constructor <;> norm_num
    have hd : (3 / 5 : ℝ) ≤ √(3 / 4) * (3 / 4) := by linarith
    rw [abs_div, abs_of_pos (by linarith : (0 : ℝ) < √(3 / 4) * (3 / 4)), div_le_iff₀ (by linarith), abs_mul, abs_mul,
      abs_of_nonneg hk.1, abs_of_pos (by norm_num : (0 : ℝ) < 3 / 2)]
    have h3 : |3 * (cos polar.xincl * cos polar.xincl) - 1| ≤ 2 := by rw [abs_le]; constructor <;> linarith
    nlinarith [abs_nonneg (3 * (cos polar.xincl * cos polar.xincl) - 1)]
  have h1 : |del1 polar| ≤ 1 / 10000 := by
    unfold del1
    rw [ha, abs_div, abs_of_pos (by norm_num : (0 : ℝ) < 9 * 9), div_le_iff₀ (by norm_num)]
    linarith
  have hao : 8 ≤ ao polar := by
    unfold ao
    rw [ha]
    obtain ⟨h2, h3⟩ := abs_le.mp h1
    generalize del1 polar = d at *
    have h4 : d * d ≤ 1 / 10 ^ 8 := by nlinarith
    have h5 : d * (d * d) ≤ 1 / 10 ^ 8 := by nlinarith [mul_self_nonneg d]
    nlinarith
  unfold delo
  rw [abs_div, abs_of_pos (by positivity : 0 < ao polar * ao polar), div_le_iff₀ (by positivity)]
  nlinarith

theorem polar_xnodp : 0 < (sxpx_common_init polar).xnodp ∧ (sxpx_common_init polar).xnodp < 28 / 10 ^ 4 := by
  have h : (sxpx_common_init polar).xnodp = polar.xno / (1 + delo polar) := rfl
  obtain ⟨h1, h2⟩ := abs_le.mp polar_delo
  have hx : polar.xno = xke / 27 := rfl
  rw [h, hx]
  constructor
  · exact div_pos (by unfold xke; norm_num) (by linarith)
  · rw [div_lt_iff₀ (by linarith)]
    unfold xke
    nlinarith

theorem polar_res : (SDP4_init polar).res = .none := by
  have h : (SDP4_init polar).res = resonanceOf polar (sxpx_common_init polar) := rfl
  obtain ⟨-, h2⟩ := polar_xnodp
  have hp := pi_gt_d2
  rw [h]
  unfold resonanceOf
  rw [if_neg (by rintro ⟨h3, -⟩; norm_num at *; linarith), if_neg (by rintro ⟨-, h3⟩; norm_num at *; linarith)]

/-- The Sun does not change the eccentricity of this orbit. -/
theorem polar_sun : (SDP4_init polar).sun.e2 = 0 ∧ (SDP4_init polar).sun.e3 = 0 := by
  have hs : (SDP4_init polar).sun = bodyTerms (solarOrient polar.xnodeo) (29864797 / 10 ^ 13) znsMin zes polar (sxpx_common_init polar) := rfl
  have hc : (sxpx_common_init polar).cosio = cos polar.xincl := rfl
  have hi : (sxpx_common_init polar).sinio = sin polar.xincl := rfl
  have key : -(cos polar.xincl * zcosi0) + sin polar.xincl * zsini0 = 0 := by
    have ht : tan polar.xincl = zcosi0 / zsini0 := tan_arctan _
    have hcp : cos polar.xincl ≠ 0 := (cos_arctan_pos _).ne'
    have hz : zsini0 ≠ 0 := by unfold zsini0; norm_num
    rw [tan_eq_sin_div_cos, div_eq_div_iff hcp hz] at ht
    linarith
  rw [hs]
  unfold bodyTerms solarOrient
  dsimp only
  rw [hc, hi, show polar.xnodeo = π from rfl, show polar.omegao = 0 from rfl]
  simp only [sin_pi, cos_pi, sin_zero, cos_zero, mul_zero, mul_one, zero_add, add_zero]
  generalize sin polar.xincl = S at *
  generalize cos polar.xincl = C at *
  generalize (sxpx_common_init polar).xnodp = n at *
  generalize (sxpx_common_init polar).betao = b at *
  have hx : S * zsini0 = C * zcosi0 := by linarith
  constructor
  · linear_combination (2 * (-15 * polar.eo * (29864797 / 10 ^ 13 / n * b)) * ((98088458 / 10 ^ 8) ^ 2 - (1945905 / 10 ^ 7) ^ 2)) * hx
  · linear_combination (2 * (-15 * polar.eo * (29864797 / 10 ^ 13 / n * b)) * (-2 * (98088458 / 10 ^ 8) * (1945905 / 10 ^ 7))) * hx

/-- The amplitude of the Moon's terms in the eccentricity. -/
noncomputable def polarAmp : ℝ :=
  1 / 2 * (-15 * polar.eo * (47968065 / 10 ^ 14 / (sxpx_common_init polar).xnodp * (sxpx_common_init polar).betao)) *
    (sin polar.xincl * zsinil (polar.epoch - 2415020) - cos polar.xincl * zcosil (polar.epoch - 2415020))

theorem polarAmp_ne : polarAmp ≠ 0 := by
  obtain ⟨hn, -⟩ := polar_xnodp
  have hb : (sxpx_common_init polar).betao ≠ 0 := by
    have : (sxpx_common_init polar).betao = √(1 - polar.eo * polar.eo) := rfl
    rw [this]
    exact (sqrt_pos.mpr (by unfold polar; norm_num)).ne'
  have hl : zcosil (polar.epoch - 2415020) = 87807068 / 10 ^ 8 := by
    unfold zcosil
    rw [polar_node, cos_zero]
    norm_num
  have hs : (47 / 100 : ℝ) ≤ zsinil (polar.epoch - 2415020) := by
    unfold zsinil
    rw [hl]
    apply le_sqrt_of_sq_le
    norm_num
  have hcp : 0 < cos polar.xincl := cos_arctan_pos _
  have ht : tan polar.xincl = zcosi0 / zsini0 := tan_arctan _
  have hz : zsini0 ≠ 0 := by unfold zsini0; norm_num
  rw [tan_eq_sin_div_cos, div_eq_div_iff hcp.ne' hz] at ht
  have hk : sin polar.xincl * zsinil (polar.epoch - 2415020) - cos polar.xincl * zcosil (polar.epoch - 2415020) ≠ 0 := by
    rw [hl]
    unfold zcosi0 zsini0 at ht
    intro h
    have hS : 0 < sin polar.xincl := by nlinarith
    nlinarith
  unfold polarAmp
  have he : polar.eo ≠ 0 := by unfold polar; norm_num
  have : (47968065 / 10 ^ 14 : ℝ) ≠ 0 := by norm_num
  exact mul_ne_zero (mul_ne_zero (by norm_num) (mul_ne_zero (mul_ne_zero (by norm_num) he) (mul_ne_zero (div_ne_zero this hn.ne') hb))) hk

theorem polar_moon (g : ℝ) (hg : g = lunarPerigee (polar.epoch - 2415020)) :
    (SDP4_init polar).moon.e2 = -(4 * polarAmp * cos (2 * g)) ∧ (SDP4_init polar).moon.e3 = 4 * polarAmp * sin (2 * g) := by
  have hs : (SDP4_init polar).moon =
      bodyTerms (lunarOrient (polar.epoch - 2415020) polar.xnodeo) (47968065 / 10 ^ 14) znlMin zel polar (sxpx_common_init polar) := rfl
  have hc : (sxpx_common_init polar).cosio = cos polar.xincl := rfl
  have hi : (sxpx_common_init polar).sinio = sin polar.xincl := rfl
  have h1 : zsinhl (polar.epoch - 2415020) = 0 := by unfold zsinhl; rw [polar_node]; simp
  have h2 : zcoshl (polar.epoch - 2415020) = 1 := by unfold zcoshl; rw [h1]; simp
  rw [hs]
  unfold bodyTerms lunarOrient polarAmp
  dsimp only
  rw [hc, hi, h1, h2, ← hg, show polar.xnodeo = π from rfl, show polar.omegao = 0 from rfl]
  simp only [sin_pi, cos_pi, sin_zero, cos_zero, mul_zero, mul_one, zero_add, add_zero, sub_zero, zero_mul, one_mul]
  rw [sin_two_mul, cos_two_mul']
  constructor <;> ring

/-- The terms in the eccentricity of this orbit. -/
theorem polar_pe (g : ℝ) (hg : g = lunarPerigee (polar.epoch - 2415020)) (t : ℝ) :
    (periodic (SDP4_init polar) t).pe = polarAmp * cos (2 * (g + centre ((SDP4_init polar).zmol + znlMin * t) zel)) := by
  obtain ⟨s2, s3⟩ := polar_sun
  obtain ⟨m2, m3⟩ := polar_moon g hg
  unfold periodic
  dsimp only
  rw [anomalies_eq (_ + znlMin * t), s2, s3, m2, m3, mul_add, cos_add]
  dsimp only
  ring

/-- They change within half an hour. -/
theorem polar_differs : ∃ u t : ℝ, |u - t| < 30 ∧ (0 ≤ u ∧ u ≤ 50000) ∧ (0 ≤ t ∧ t ≤ 50000) ∧
    (periodic (SDP4_init polar) u).pe ≠ (periodic (SDP4_init polar) t).pe := by
  by_contra hcon
  push Not at hcon
  generalize hg : lunarPerigee (polar.epoch - 2415020) = g
  have hpe := polar_pe g hg.symm
  generalize (SDP4_init polar).zmol = z at hpe
  generalize hF : (fun t => (periodic (SDP4_init polar) t).pe) = F at *
  have hpe : ∀ t, F t = polarAmp * cos (2 * (g + centre (z + znlMin * t) zel)) := fun t => by rw [← hF]; exact hpe t
  have hcon : ∀ u t : ℝ, |u - t| < 30 → 0 ≤ u ∧ u ≤ 50000 → 0 ≤ t ∧ t ≤ 50000 → F u = F t := fun u t h1 h2 h3 => by
    rw [← hF]; exact hcon u t h1 h2 h3
  have hconst : ∀ n : ℕ, ∀ t : ℝ, 0 ≤ t → t ≤ 50000 → t ≤ 29 * n → F t = F 0 := by
    intro n
    induction n with
    | zero =>
      intro t h1 _ h3
      have : t = 0 := by simp at h3; linarith
      rw [this]
    | succ n ih =>
      intro t h1 h2 h3
      push_cast at h3
      by_cases h4 : t ≤ 29
      · exact hcon t 0 (by rw [sub_zero, abs_of_nonneg h1]; linarith) ⟨h1, h2⟩ ⟨le_refl _, by norm_num⟩
      · push Not at h4
        rw [hcon t (t - 29) (by rw [sub_sub_cancel]; norm_num) ⟨h1, h2⟩ ⟨by linarith, by linarith⟩]
        exact ih (t - 29) (by linarith) (by linarith) (by linarith)
  have hall : ∀ t : ℝ, 0 ≤ t → t ≤ 50000 → F t = F 0 := fun t h1 h2 => hconst 2000 t h1 h2 (by norm_num; linarith)
  generalize hh : (fun t : ℝ => 2 * (g + centre (z + znlMin * t) zel)) = h
  have hpe : ∀ t, F t = polarAmp * cos (h t) := fun t => by rw [← hh]; exact hpe t
  have hcont : Continuous h := by rw [← hh]; unfold centre; fun_prop
  have hgrow : h 0 + 4 * π ≤ h 50000 := by
    rw [← hh]
    unfold centre znlMin zel
    have a1 := neg_one_le_sin (z + 15835218 / 10 ^ 11 * 50000)
    have a2 := sin_le_one (z + 15835218 / 10 ^ 11 * 0)
    have := pi_lt_d2
    norm_num at *
    linarith
  obtain ⟨k, hk1, hk2⟩ : ∃ k : ℤ, h 0 ≤ k * (2 * π) ∧ (k : ℝ) * (2 * π) ≤ h 0 + 2 * π := by
    have hp : 0 < 2 * π := by linarith [pi_pos]
    refine ⟨⌈h 0 / (2 * π)⌉, ?_, ?_⟩
    · have := Int.le_ceil (h 0 / (2 * π))
      rwa [div_le_iff₀ hp] at this
    · have := (Int.ceil_lt_add_one (h 0 / (2 * π))).le
      have h2 : h 0 / (2 * π) * (2 * π) = h 0 := div_mul_cancel₀ _ hp.ne'
      nlinarith
  have hp := pi_pos
  have ivt := intermediate_value_Icc (by norm_num : (0 : ℝ) ≤ 50000) hcont.continuousOn
  obtain ⟨t1, ⟨a1, b1⟩, e1⟩ := ivt (show (k : ℝ) * (2 * π) ∈ Set.Icc (h 0) (h 50000) from ⟨hk1, by linarith⟩)
  obtain ⟨t2, ⟨a2, b2⟩, e2⟩ := ivt (show π + (k : ℝ) * (2 * π) ∈ Set.Icc (h 0) (h 50000) from ⟨by linarith, by linarith⟩)
  have v1 : F t1 = polarAmp := by rw [hpe, e1, cos_int_mul_two_pi, mul_one]
  have v2 : F t2 = -polarAmp := by rw [hpe, e2, cos_add_int_mul_two_pi, cos_pi, mul_neg, mul_one]
  have := polarAmp_ne
  have w1 := hall t1 a1 b1
  have w2 := hall t2 a2 b2
  apply this
  linarith

/-- C50 is violated in the default mode, the one the programs use: there is a satellite and there are two times less than half an hour apart for
which, after a call for the first, the call for the second perturbs the eccentricity by another amount than a first call does. -/
theorem C50_default_violated : ∃ (e : Elem) (u t : ℝ), |u - t| < 30 ∧ (SDP4_init e).res = .none ∧ ∀ p p' : Periodic, ∃ s,
    calls 1 Cfg.initial (SDP4_init e) e [u] (Deep.start (SDP4_init e) p) = some s ∧
    ∀ w, (Deep_dpper Cfg.initial (SDP4_init e) e s t w).2.em ≠ (Deep_dpper Cfg.initial (SDP4_init e) e (Deep.start (SDP4_init e) p') t w).2.em := by
  obtain ⟨u, t, h1, ⟨hu0, hu1⟩, ⟨ht0, ht1⟩, hne⟩ := polar_differs
  refine ⟨polar, u, t, h1, polar_res, fun p p' => ?_⟩
  have hxn : ¬ (sxpx_common_init polar).xnodp < 0 := not_lt.mpr polar_xnodp.1.le
  have far : ∀ x : ℝ, 0 ≤ x → x ≤ 50000 → |(10 : ℝ) ^ 20 - x| ≥ 30 := fun x h0 h1 => by
    rw [ge_iff_le, le_abs]
    left
    norm_num
    linarith
  refine ⟨refresh Cfg.initial (SDP4_init polar) (Deep.start (SDP4_init polar) p) u, ?_, ?_⟩
  · unfold calls SDP4 Deep_dpsec
    dsimp only
    rw [if_pos polar_res, Option.map_some]
    have : (secular (SDP4_init polar) polar u).xn = (sxpx_common_init polar).xnodp := rfl
    dsimp only
    rw [this, if_neg hxn]
    rfl
  · intro w
    have r1 : refresh Cfg.initial (SDP4_init polar) (Deep.start (SDP4_init polar) p) u =
        { Deep.start (SDP4_init polar) p with savtsn := u, per := periodic (SDP4_init polar) u } := by
      unfold refresh
      exact if_pos (Or.inl (far u hu0 hu1))
    have r2 : refresh Cfg.initial (SDP4_init polar) (Deep.start (SDP4_init polar) p') t =
        { Deep.start (SDP4_init polar) p' with savtsn := t, per := periodic (SDP4_init polar) t } := by
      unfold refresh
      exact if_pos (Or.inl (far t ht0 ht1))
    have r3 : ∀ s : State, refresh Cfg.initial (SDP4_init polar) { s with savtsn := u, per := periodic (SDP4_init polar) u } t =
        { s with savtsn := u, per := periodic (SDP4_init polar) u } := by
      intro s
      unfold refresh
      rw [if_neg]
      push Not
      exact ⟨h1, by simp [Cfg.initial]⟩
    have em : ∀ (q : Periodic), (applyPeriodic polar q w).em = w.em + q.pe := by
      intro q
      unfold applyPeriodic
      dsimp only
      split_ifs <;> rfl
    unfold Deep_dpper
    dsimp only
    rw [r1, r2, r3, em, em]
    dsimp only
    intro h
    exact hne (by linarith)

end SatSky.Props
