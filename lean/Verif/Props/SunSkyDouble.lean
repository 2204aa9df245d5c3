import Verif.Model.SunSkyDouble
import Verif.Props.SunDouble
import Verif.Props.SiderealDouble
import Verif.Props.AltDouble
import Verif.Props.DataText
import Verif.Props.HealpixDouble
import Verif.Props.TimeDouble

/-! The longitude of the Sun and its altitude in `double` arithmetic, as functions of date and place. -/

namespace SatSky.Props

open SatSky Spec Geo Relative

theorem hours_near : |(r2hD : ℝ) - 12 / Real.pi| ≤ 5 / 10 ^ 16 := by
  have h1 := Real.pi_gt_d20
  have h2 := Real.pi_lt_d20
  unfold r2hD
  push_cast
  rw [abs_le]
  constructor
  · have : 12 / Real.pi ≤ 12 / 3.14159265358979323846 := div_le_div_of_nonneg_left (by norm_num) (by norm_num) h1.le
    norm_num at this ⊢
    linarith
  · have : 12 / 3.14159265358979323847 ≤ 12 / Real.pi := div_le_div_of_nonneg_left (by norm_num) (by positivity) h2.le
    norm_num at this ⊢
    linarith

theorem fmod_turn {y : ℚ} (h : 0 ≤ y) : ∃ m : ℤ, fmodD y 360 = y - 360 * m ∧ 0 ≤ fmodD y 360 ∧ fmodD y 360 < 360 := by
  refine ⟨truncQ (y / 360), rfl, ?_⟩
  unfold fmodD truncQ
  rw [if_pos (by positivity)]
  have h1 := Int.floor_le (y / 360)
  have h2 := Int.lt_floor_add_one (y / 360)
  constructor <;> linarith

/-- The longitude of the Sun from its right ascension and the Greenwich time. -/
theorem sunLon_near (F : Fl64) {ra g : ℚ} (h0 : 0 ≤ ra) (h1 : ra ≤ twopiD) (g0 : -51 ≤ g) (g1 : g ≤ 24) :
    -180 ≤ sunLonD F ra g ∧ sunLonD F ra g ≤ 180 ∧ ∃ m : ℤ, |(sunLonD F ra g : ℝ) - (180 / Real.pi * ra - 15 * g) - 360 * m| ≤ 2 / 10 ^ 12 := by
  have h7 : ra ≤ 7 := h1.trans (by unfold twopiD; norm_num)
  have a := angle_deg F (a := ra) (by rw [abs_of_nonneg h0]; exact h7)
  have a0 : 0 ≤ F.rnd (ra * r2dD) := fl_nonneg F (mul_nonneg h0 (by unfold r2dD; norm_num))
  have a1 : F.rnd (ra * r2dD) ≤ 402 := by
    have := fl_int_le F (x := ra * r2dD) 402 (by norm_num) (by unfold r2dD; push_cast; nlinarith)
    simpa using this
  have b1 : F.rnd (g * 15) ≤ 360 := by
    have := fl_int_le F (x := g * 15) 360 (by norm_num) (by push_cast; linarith)
    simpa using this
  have b0 : -765 ≤ F.rnd (g * 15) := by
    have := fl_ge F (x := g * 15) (-765) 0 (by norm_num) (by norm_num) (by push_cast; linarith)
    simpa using this
  have b : |F.rnd (g * 15) - g * 15| ≤ 1 / 10 ^ 13 :=
    rnd_rat F (e := 0) (A := 765) (by simp) (by rw [abs_le]; constructor <;> linarith) (by norm_num)
  unfold sunLonD
  dsimp only
  generalize F.rnd (ra * r2dD) = a' at *
  generalize F.rnd (g * 15) = b' at *
  have c : |F.rnd (a' - b') - (a' - b')| ≤ 2 / 10 ^ 13 :=
    rnd_rat F (e := 0) (A := 1167) (by simp) (by rw [abs_le]; constructor <;> linarith) (by norm_num)
  have c0 : -360 ≤ F.rnd (a' - b') := by
    have := fl_ge F (x := a' - b') (-360) 0 (by norm_num) (by norm_num) (by push_cast; linarith)
    simpa using this
  have c1 : F.rnd (a' - b') ≤ 1167 := by
    have := fl_int_le F (x := a' - b') 1167 (by norm_num) (by push_cast; linarith)
    simpa using this
  generalize F.rnd (a' - b') = c' at *
  have d : |F.rnd (c' + 360) - (c' + 360)| ≤ 2 / 10 ^ 13 :=
    rnd_rat F (e := 0) (A := 1527) (by simp) (by rw [abs_le]; constructor <;> linarith) (by norm_num)
  have d0 : 0 ≤ F.rnd (c' + 360) := fl_nonneg F (by linarith)
  generalize F.rnd (c' + 360) = d' at *
  obtain ⟨m, hm, x0, x1⟩ := fmod_turn d0
  generalize fmodD d' 360 = x at *
  suffices h : ∀ (z : ℚ) (q : ℤ), |z - (x - 360 * q)| ≤ 1 / 10 ^ 13 → ∃ m : ℤ, |(z : ℝ) - (180 / Real.pi * ra - 15 * g) - 360 * m| ≤ 2 / 10 ^ 12 by
    by_cases hx : x > 180
    · rw [if_pos hx]
      have e : |F.rnd (x - 360) - (x - 360)| ≤ 1 / 10 ^ 13 :=
        rnd_rat F (e := 0) (A := 180) (by simp) (by rw [abs_le]; constructor <;> linarith) (by norm_num)
      have e0 : -180 ≤ F.rnd (x - 360) := by
        have := fl_ge F (x := x - 360) (-180) 0 (by norm_num) (by norm_num) (by push_cast; linarith)
        simpa using this
      have e1 : F.rnd (x - 360) ≤ 0 := by
        have := fl_int_le F (x := x - 360) 0 (by norm_num) (by push_cast; linarith)
        simpa using this
      exact ⟨e0, by linarith, h _ 1 (by simpa using e)⟩
    · rw [if_neg hx]
      exact ⟨by linarith, not_lt.1 hx, h _ 0 (by simp)⟩
  intro z q hz
  refine ⟨1 - m - q, ?_⟩
  have hz' : |z - (a' - g * 15) - 360 * (1 - m - q)| ≤ 6 / 10 ^ 13 := by
    rw [abs_le] at *
    constructor <;> linarith
  have hz2 : |(z : ℝ) - (a' - g * 15) - 360 * (1 - m - q)| ≤ 6 / 10 ^ 13 := by
    have := abs_real hz'
    push_cast at this
    exact this
  push_cast
  clear hz' hz b c d
  rw [abs_le] at *
  constructor <;> linarith

/-- The hour angle of the Sun. -/
theorem sunHa_near (F : Fl64) {ra l : ℚ} (h0 : 0 ≤ ra) (h1 : ra ≤ twopiD) (l0 : 0 ≤ l) (l1 : l ≤ 24) :
    |sunHaD F ra l| ≤ 24 ∧ |(sunHaD F ra l : ℝ) - (l - 12 / Real.pi * ra)| ≤ 2 / 10 ^ 14 := by
  have h7 : ra ≤ 7 := h1.trans (by unfold twopiD; norm_num)
  have hr : ra * r2hD ≤ 24 := by
    have := mul_le_mul_of_nonneg_right h1 (show (0 : ℚ) ≤ r2hD by unfold r2hD; norm_num)
    exact this.trans (by unfold twopiD r2hD; norm_num)
  have hr0 : 0 ≤ ra * r2hD := mul_nonneg h0 (by unfold r2hD; norm_num)
  have a0 : 0 ≤ F.rnd (ra * r2hD) := fl_nonneg F hr0
  have a1 : F.rnd (ra * r2hD) ≤ 24 := by
    have := fl_int_le F (x := ra * r2hD) 24 (by norm_num) (by simpa using hr)
    simpa using this
  have a : |F.rnd (ra * r2hD) - ra * r2hD| ≤ 3 / 10 ^ 15 :=
    rnd_rat F (e := 0) (A := 24) (by simp) (by rw [abs_of_nonneg hr0]; exact hr) (by norm_num)
  unfold sunHaD
  generalize F.rnd (ra * r2hD) = a' at *
  have c : |F.rnd (l - a') - (l - a')| ≤ 3 / 10 ^ 15 :=
    rnd_rat F (e := 0) (A := 24) (by simp) (by rw [abs_le]; constructor <;> linarith) (by norm_num)
  have c0 : -24 ≤ F.rnd (l - a') := by
    have := fl_ge F (x := l - a') (-24) 0 (by norm_num) (by norm_num) (by push_cast; linarith)
    simpa using this
  have c1 : F.rnd (l - a') ≤ 24 := by
    have := fl_int_le F (x := l - a') 24 (by norm_num) (by push_cast; linarith)
    simpa using this
  refine ⟨abs_le.2 ⟨c0, c1⟩, ?_⟩
  have hz : |F.rnd (l - a') - (l - ra * r2hD)| ≤ 6 / 10 ^ 15 := by
    rw [abs_le] at *
    constructor <;> linarith
  have hz2 : |(F.rnd (l - a') : ℝ) - (l - ra * r2hD)| ≤ 6 / 10 ^ 15 := by
    have := abs_real hz
    push_cast at this
    exact this
  have hp : |(ra : ℝ) * (r2hD - 12 / Real.pi)| ≤ 4 / 10 ^ 15 := by
    have h0' : (0 : ℝ) ≤ ra := by exact_mod_cast h0
    have h7' : (ra : ℝ) ≤ 7 := by exact_mod_cast h7
    rw [abs_mul, abs_of_nonneg h0']
    have := mul_le_mul h7' hours_near (abs_nonneg _) (by norm_num)
    linarith
  rw [mul_sub] at hp
  clear hz c a
  rw [abs_le] at *
  constructor <;> linarith

/-- The Greenwich time is not far below zero. -/
theorem gmst_ge (F : Fl64) {n : ℕ} {jd lon l g : ℚ} (hJ : F.rnd jd = jd) (h : |jd - 2451545| ≤ 73050) (hD : lmstD F n jd lon = some (l, g)) : -51 ≤ g := by
  obtain ⟨h1, _⟩ := dates F hJ.symm h
  obtain ⟨hg, _⟩ := lmstD_some hD
  have hb : -51 ≤ F.rnd (gDayD F jd * 24) := by
    have := F.mono (-51) (gDayD F jd * 24) (by linarith [(abs_le.1 h1).1])
    rwa [show F.rnd (-51) = -51 by simpa using F.int (-51) (by norm_num)] at this
  have low : ∀ (n : ℕ) {x g : ℚ}, -51 ≤ x → below24D F n x = some g → -51 ≤ g := by
    intro n
    induction n with
    | zero =>
      intro x g hx h
      rw [below24D] at h
      split_ifs at h
      cases h
      exact hx
    | succ n ih =>
      intro x g hx h
      rw [below24D] at h
      by_cases hc : x > 24
      · rw [if_pos hc] at h
        exact ih (by linarith [fl_nonneg F (x := x - 24) (by linarith)]) h
      · rw [if_neg hc] at h
        cases h
        exact hx
  exact low n hb hg

/-- The sine of the altitude hardly depends on small changes of declination and hour angle. -/
theorem sinAlt_move {d d' h h' l a b : ℝ} (hd : |d - d'| ≤ a) (hh : |h - h'| ≤ b) : |sinAlt d h l - sinAlt d' h' l| ≤ 2 * a + b := by
  have h1 : |Real.cos d - Real.cos d'| ≤ a := (Real.abs_cos_sub_cos_le _ _).trans hd
  have h2 : |Real.sin d - Real.sin d'| ≤ a := (Real.abs_sin_sub_sin_le _ _).trans hd
  have h3 : |Real.cos h - Real.cos h'| ≤ b := (Real.abs_cos_sub_cos_le _ _).trans hh
  unfold sinAlt
  rw [show Real.cos d * Real.cos h * Real.cos l + Real.sin d * Real.sin l - (Real.cos d' * Real.cos h' * Real.cos l + Real.sin d' * Real.sin l) =
    (Real.cos d - Real.cos d') * (Real.cos h * Real.cos l) + (Real.cos h - Real.cos h') * (Real.cos d' * Real.cos l) + (Real.sin d - Real.sin d') * Real.sin l by ring]
  have small : ∀ {u v c : ℝ}, |u| ≤ c → |v| ≤ 1 → |u * v| ≤ c := by
    intro u v c hu hv
    rw [abs_mul]
    have := mul_le_mul hu hv (abs_nonneg _) ((abs_nonneg _).trans hu)
    linarith
  have one : ∀ {u v : ℝ}, |u| ≤ 1 → |v| ≤ 1 → |u * v| ≤ 1 := fun hu hv => small hu hv
  have t1 := small h1 (one (Real.abs_cos_le_one h) (Real.abs_cos_le_one l))
  have t2 := small h3 (one (Real.abs_cos_le_one d') (Real.abs_cos_le_one l))
  have t3 := small h2 (Real.abs_sin_le_one l)
  refine (abs_add_le _ _).trans ?_
  linarith [abs_add_le ((Real.cos d - Real.cos d') * (Real.cos h * Real.cos l)) ((Real.cos h - Real.cos h') * (Real.cos d' * Real.cos l))]

/-- C196: in `double`, the longitude reported for the Sun is that of the place with the Sun's right ascension in the meridian, to 6e-7 degrees, in
`[-180, 180]`. -/
theorem C196_longitude (F : Fl64) (M : SunLib) {n : ℕ} {jd lon : ℚ} {RA DEC : ℝ} (hJ : F.rnd jd = jd) (h : |jd - 2451545| ≤ 40000) (hn : 2 ≤ n)
    (hlon : |lon| ≤ 360) (hd : dir RA DEC = sunDir jd) (hD : |DEC| ≤ Real.pi / 2) :
    ∃ l g ra dec, lmstD F n jd lon = some (l, g) ∧ sunD F M jd = some (ra, dec) ∧ -180 ≤ sunLonD F ra g ∧ sunLonD F ra g ≤ 180 ∧
      ∃ m : ℤ, |(sunLonD F ra g : ℝ) - (180 / Real.pi * RA - siderealDeg jd) - 360 * m| ≤ 6 / 10 ^ 7 := by
  have hp := Real.pi_gt_d6
  have h' : |jd - 2451545| ≤ 73050 := h.trans (by norm_num)
  obtain ⟨⟨l, g⟩, hl⟩ := C178_ends F hn lon hJ.symm h'
  obtain ⟨ra, dec, hs, r0, r1, ⟨k, hk⟩, _⟩ := C191_sun F M h hd hD
  have hl' := hl
  rw [← hJ] at hl'
  obtain ⟨_, q, hq⟩ := C178_clock (h.trans (by norm_num)) hlon hn hl'
  obtain ⟨⟨l2, g2⟩, hE⟩ := C39_ends n hn (jd : ℝ) lon
  obtain ⟨_, hg, _⟩ := C178_numerical hJ.symm h' hlon hl hE
  obtain ⟨x0, x1, m, hm⟩ := sunLon_near F r0 r1 (gmst_ge F hJ h' hl) hg
  refine ⟨l, g, ra, dec, hl, hs, x0, x1, m + k - q, ?_⟩
  have hk' : |180 / Real.pi * (ra - RA - 2 * Real.pi * k)| ≤ 3 / 10 ^ 10 := by
    rw [abs_mul, abs_of_pos (by positivity : 0 < 180 / Real.pi)]
    have h60 : 180 / Real.pi ≤ 60 := by rw [div_le_iff₀ (by positivity)]; linarith
    have := mul_le_mul h60 hk (abs_nonneg _) (by norm_num)
    linarith
  rw [show 180 / Real.pi * ((ra : ℝ) - RA - 2 * Real.pi * k) = 180 / Real.pi * ra - 180 / Real.pi * RA - 360 * k by field_simp; ring] at hk'
  push_cast
  clear hk
  rw [abs_le] at hm hq hk' ⊢
  constructor <;> linarith

/-- C196: the longitude in the answer, whenever there is one. -/
theorem C196_reported {F : Fl64} {M : SunLib} {n : ℕ} {jd lon lat x a : ℚ} {RA DEC : ℝ} (hJ : F.rnd jd = jd) (h : |jd - 2451545| ≤ 40000) (hn : 2 ≤ n)
    (hlon : |lon| ≤ 360) (hd : dir RA DEC = sunDir jd) (hD : |DEC| ≤ Real.pi / 2) (hs : sunSkyD F M n jd lon lat = some (x, a)) :
    -180 ≤ x ∧ x ≤ 180 ∧ ∃ m : ℤ, |(x : ℝ) - (180 / Real.pi * RA - siderealDeg jd) - 360 * m| ≤ 6 / 10 ^ 7 := by
  obtain ⟨l, g, ra, dec, h1, h2, h3⟩ := C196_longitude F M hJ h hn hlon hd hD
  unfold sunSkyD at hs
  rw [h1, h2] at hs
  simp only [Option.bind_some, Option.map_eq_some_iff, Prod.mk.injEq] at hs
  obtain ⟨_, _, rfl, _⟩ := hs
  exact h3

/-- The Sun stays within 30 degrees of the equator. -/
theorem sun_dec_small (F : Fl64) (M : SunLib) {jd : ℚ} {DEC RA : ℝ} (hj : |jd - 2451545| ≤ 40000) (hd : dir RA DEC = sunDir jd) (hD : |DEC| ≤ Real.pi / 2) :
    |DEC| ≤ 53 / 100 := by
  have hp := Real.pi_gt_d6
  have hp' := Real.pi_lt_d6
  have hN : |(jd : ℝ) - 2451545| ≤ 40000 := by simpa using abs_real hj
  have hn : |(F.rnd (jd - 2451545) : ℝ) - (jd - 2451545)| ≤ 45 / 10 ^ 13 := rnd_real F (e := 0) (by push_cast; simp) hN (by norm_num)
  obtain ⟨_, _, _, hz⟩ := sun_components F M.toLibm (v := dir RA DEC) hd hn hN
  have hz' : |Real.sin DEC| ≤ 41 / 100 := hz
  obtain ⟨D1, D2⟩ := abs_le.1 hD
  obtain ⟨s1, s2⟩ := abs_le.1 hz'
  have up : DEC ≤ Real.pi / 6 := by
    by_contra hc
    have := Real.sin_lt_sin_of_lt_of_le_pi_div_two (by linarith : -(Real.pi / 2) ≤ Real.pi / 6) D2 (not_le.1 hc)
    rw [Real.sin_pi_div_six] at this
    linarith
  have lo : -(Real.pi / 6) ≤ DEC := by
    by_contra hc
    have := Real.sin_lt_sin_of_lt_of_le_pi_div_two D1 (by linarith : -(Real.pi / 6) ≤ Real.pi / 2) (not_le.1 hc)
    rw [Real.sin_neg, Real.sin_pi_div_six] at this
    linarith
  rw [abs_le]
  constructor <;> linarith

/-- The hour angle computed is that of the sphere, up to whole turns. -/
theorem sun_hour {H l ra RA S : ℝ} {k q : ℤ} (hH : |H - (l - 12 / Real.pi * ra)| ≤ 2 / 10 ^ 14) (hk : |ra - RA - 2 * Real.pi * k| ≤ 5 / 10 ^ 12)
    (hq : |3600 * l - 240 * S - 86400 * q| ≤ 13 / 10 ^ 5) :
    |H * (Real.pi / 12) - ((S * (Real.pi / 180) - RA) + (q - k : ℤ) * (2 * Real.pi))| ≤ 96 / 10 ^ 10 := by
  have hp := Real.pi_gt_d6
  have hp' := Real.pi_lt_d6
  have hl : |l - S / 15 - 24 * q| ≤ 13 / 10 ^ 5 / 3600 := by
    rw [abs_le] at *
    constructor <;> linarith
  have e : H * (Real.pi / 12) - ((S * (Real.pi / 180) - RA) + (q - k : ℤ) * (2 * Real.pi)) =
      (H - (l - 12 / Real.pi * ra)) * (Real.pi / 12) + (l - S / 15 - 24 * q) * (Real.pi / 12) - (ra - RA - 2 * Real.pi * k) := by
    push_cast
    field_simp
    ring
  rw [e]
  generalize H - (l - 12 / Real.pi * ra) = u at *
  generalize l - S / 15 - 24 * (q : ℝ) = v at *
  generalize ra - RA - 2 * Real.pi * (k : ℝ) = w at *
  have hc0 : 0 < Real.pi / 12 := by positivity
  have hc : Real.pi / 12 ≤ 2618 / 10000 := by linarith
  have scale : ∀ {x a : ℝ}, |x| ≤ a → |x * (Real.pi / 12)| ≤ a * (2618 / 10000) := by
    intro x a hx
    rw [abs_mul, abs_of_pos hc0]
    exact mul_le_mul hx hc hc0.le ((abs_nonneg _).trans hx)
  have t1 := scale hH
  have t2 := scale hl
  generalize u * (Real.pi / 12) = u' at *
  generalize v * (Real.pi / 12) = v' at *
  rw [abs_le] at t1 t2 hk ⊢
  constructor <;> linarith

/-- C197: in `double`, the altitude of the Sun at the site is within 4e-6 degrees of that of its place on the sphere, where this is below 75 degrees
and the Sun does not pass within a second of arc of the zenith. -/
theorem C197_altitude (F : Fl64) (M : SunLib) {n : ℕ} {jd lon lat : ℚ} {RA DEC X : ℝ} (hJ : F.rnd jd = jd) (h : |jd - 2451545| ≤ 40000) (hn : 2 ≤ n)
    (hlon : |lon| ≤ 360) (hlat : |lat| ≤ 8999 / 100) (hd : dir RA DEC = sunDir jd) (hD : |DEC| ≤ Real.pi / 2)
    (hz : 3 / 10 ^ 6 ≤ |DEC - lat * (Real.pi / 180)|)
    (hX : X = sinAlt DEC ((siderealDeg jd + lon) * (Real.pi / 180) - RA) (lat * (Real.pi / 180))) (hX1 : |X| ≤ 97 / 100) :
    ∃ x a, sunSkyD F M n jd lon lat = some (x, a) ∧ |(a : ℝ) - 180 / Real.pi * Real.arcsin X| ≤ 4 / 10 ^ 6 := by
  have hp := Real.pi_gt_d6
  have h' : |jd - 2451545| ≤ 73050 := h.trans (by norm_num)
  obtain ⟨⟨l, g⟩, hl⟩ := C178_ends F hn lon hJ.symm h'
  obtain ⟨ra, dec, hs, r0, r1, ⟨k, hk⟩, hdec⟩ := C191_sun F M h hd hD
  have hl' := hl
  rw [← hJ] at hl'
  obtain ⟨⟨q, hq⟩, _⟩ := C178_clock (h.trans (by norm_num)) hlon hn hl'
  obtain ⟨⟨l2, g2⟩, hE⟩ := C39_ends n hn (jd : ℝ) lon
  obtain ⟨⟨l0, l1, _⟩, _, _⟩ := C178_numerical hJ.symm h' hlon hl hE
  obtain ⟨ha1, ha⟩ := sunHa_near F r0 r1 l0 l1
  have turn := sun_hour ha hk hq
  have small := sun_dec_small F M h hd hD
  have move := sinAlt_move (l := (lat : ℝ) * (Real.pi / 180)) hdec turn
  have per : sinAlt DEC ((siderealDeg jd + lon) * (Real.pi / 180) - RA + (q - k : ℤ) * (2 * Real.pi)) (lat * (Real.pi / 180)) = X := by
    rw [hX]
    unfold sinAlt
    rw [Real.cos_add_int_mul_two_pi]
  rw [per] at move
  have hdec1 : |(dec : ℝ)| ≤ Real.pi / 2 := by
    rw [abs_le] at *
    constructor <;> linarith
  have hz' : 2 / 10 ^ 6 ≤ |(dec : ℝ) - lat * (Real.pi / 180)| := by
    have := abs_sub_abs_le_abs_sub (DEC - lat * (Real.pi / 180)) (dec - lat * (Real.pi / 180))
    rw [show DEC - lat * (Real.pi / 180) - (dec - lat * (Real.pi / 180)) = -(dec - DEC) by ring, abs_neg] at this
    linarith
  generalize hY : sinAlt dec (sunHaD F ra l * (Real.pi / 12)) (lat * (Real.pi / 180)) = Y at move
  have hY1 : |Y| ≤ 98 / 100 := by
    have := abs_sub_abs_le_abs_sub Y X
    linarith
  obtain ⟨a, hsome, _, hfine⟩ := C180_altitude F M.toLibm hY.symm hlat ha1 hdec1 hz' (by linarith [(abs_le.1 hY1).1])
  refine ⟨sunLonD F ra g, a, ?_, ?_⟩
  · unfold sunSkyD
    rw [hl, hs]
    simp [hsome]
  · have f := hfine hY1
    have g := arcsin_mid hY1 (hX1.trans (by norm_num)) (by norm_num) (k := 51 / 10) (by norm_num) (by norm_num)
    have h60 : 180 / Real.pi ≤ 58 := by rw [div_le_iff₀ (by positivity)]; linarith
    have g' : |180 / Real.pi * (Real.arcsin Y - Real.arcsin X)| ≤ 58 * (51 / 10 * (2 * (2 / 10 ^ 12) + 96 / 10 ^ 10)) := by
      rw [abs_mul, abs_of_pos (by positivity : 0 < 180 / Real.pi)]
      exact mul_le_mul h60 (g.trans (by linarith)) (abs_nonneg _) (by norm_num)
    rw [mul_sub] at g'
    have := abs_sub_le (a : ℝ) (180 / Real.pi * Real.arcsin Y) (180 / Real.pi * Real.arcsin X)
    linarith

/-- At latitude 60 degrees the altitude is right at noon of 2000-01-01, and the longitude of the Sun is in range. -/
example : ∃ RA DEC x a, dir RA DEC = sunDir 2451545 ∧ sunSkyD Fl64.ieee sunLib 2 2451545 10 60 = some (x, a) ∧
    |(a : ℝ) - 180 / Real.pi * Real.arcsin (sinAlt DEC ((siderealDeg 2451545 + 10) * (Real.pi / 180) - RA) (Real.pi / 3))| ≤ 4 / 10 ^ 6 := by
  have hp := Real.pi_gt_d6
  obtain ⟨_, hD, hd⟩ := C72_sun_direction 2451545 (ra := (lpsun_radec 2451545).1) (dec := (lpsun_radec 2451545).2) rfl
  generalize (lpsun_radec 2451545).1 = RA at *
  generalize (lpsun_radec 2451545).2 = DEC at *
  have hD' : |DEC| ≤ Real.pi / 2 := abs_le.2 hD
  have hd' : dir RA DEC = sunDir ((2451545 : ℚ) : ℝ) := by rw [hd]; norm_num
  have small := sun_dec_small Fl64.ieee sunLib (by norm_num) hd' hD'
  have e60 : ((60 : ℚ) : ℝ) * (Real.pi / 180) = Real.pi / 3 := by push_cast; ring
  obtain ⟨x, a, h1, h2⟩ := C197_altitude Fl64.ieee sunLib (n := 2) (lon := 10) (lat := 60) (by decide +kernel) (by norm_num) le_rfl (by norm_num [abs_le]) (by norm_num [abs_le]) hd' hD' (by
    rw [e60, abs_sub_comm]
    refine le_trans ?_ (le_abs_self _)
    linarith [(abs_le.1 small).2]) rfl (by
    rw [e60]
    unfold sinAlt
    rw [Real.cos_pi_div_three, Real.sin_pi_div_three]
    have s1 : |Real.sin DEC| ≤ 53 / 100 := Real.abs_sin_le_abs.trans small
    have s3 : √3 ≤ 1733 / 1000 := Real.sqrt_le_iff.2 ⟨by norm_num, by norm_num⟩
    have t1 : |Real.cos DEC * Real.cos ((siderealDeg ((2451545 : ℚ) : ℝ) + ((10 : ℚ) : ℝ)) * (Real.pi / 180) - RA)| ≤ 1 := by
      rw [abs_mul]
      exact mul_le_one₀ (Real.abs_cos_le_one _) (abs_nonneg _) (Real.abs_cos_le_one _)
    have t2 : |Real.sin DEC * (√3 / 2)| ≤ 46 / 100 := by
      rw [abs_mul, abs_of_nonneg (by positivity : 0 ≤ √3 / 2)]
      have := mul_le_mul s1 (by linarith : √3 / 2 ≤ 1733 / 2000) (by positivity) (by norm_num)
      linarith
    generalize Real.cos DEC * _ = u at *
    rw [abs_le] at *
    constructor <;> linarith [t1.1, t1.2, t2.1, t2.2])
  rw [e60] at h2
  push_cast at h2
  exact ⟨RA, DEC, x, a, hd, h1, h2⟩

example : sunLonD Fl64.ieee 0 6 = -90 ∧ sunLonD Fl64.ieee 0 18 = 90 ∧ sunLonD Fl64.ieee 0 (-3) = 45 := by decide +kernel

end SatSky.Props
