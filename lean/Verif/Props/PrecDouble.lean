import Mathlib.Tactic.Linarith
import Mathlib.Tactic.Ring
import Mathlib.Tactic.NormNum
import Mathlib.Tactic.FieldSimp
import Verif.Model.PrecDouble
import Verif.Model.Geometry
import Verif.Props.AltDouble
import Verif.Props.TopoDouble

/-! C183: the precession in `double` arithmetic. -/

namespace SatSky.Props

open SatSky Geo Relative

/-- The error of a product. -/
theorem mul_real {x X y Y e f A B : ℝ} (hx : |x - X| ≤ e) (hy : |y - Y| ≤ f) (hX : |X| ≤ A) (hY : |Y| ≤ B) : |x * y - X * Y| ≤ e * B + A * f + e * f := by
  rw [show x * y - X * Y = (x - X) * Y + X * (y - Y) + (x - X) * (y - Y) by ring]
  have he := (abs_nonneg _).trans hx
  have hf := (abs_nonneg _).trans hy
  have hA := (abs_nonneg _).trans hX
  have h1 : |(x - X) * Y| ≤ e * B := by rw [abs_mul]; exact mul_le_mul hx hY (abs_nonneg _) he
  have h2 : |X * (y - Y)| ≤ A * f := by rw [abs_mul]; exact mul_le_mul hX hy (abs_nonneg _) hA
  have h3 : |(x - X) * (y - Y)| ≤ e * f := by rw [abs_mul]; exact mul_le_mul hx hy (abs_nonneg _) he
  have h4 := abs_add_le ((x - X) * Y + X * (y - Y)) ((x - X) * (y - Y))
  have h5 := abs_add_le ((x - X) * Y) (X * (y - Y))
  linarith

/-- A rounded constant. -/
theorem const_real (F : Fl64) (c : ℚ) {E : ℝ} (h : |(c : ℝ)| / 2 ^ 53 + 1 / 2 ^ 200 ≤ E) : |(F.rnd c : ℝ) - c| ≤ E := by
  have := err_real F c
  linarith

theorem centuries_near (F : Fl64) {jd : ℚ} (h : |jd - 2451545| ≤ 73050) :
    |(centuriesD F jd : ℝ) - centuries jd| ≤ 1 / 10 ^ 15 ∧ |centuries jd| ≤ 2 := by
  have h' : |(jd : ℝ) - 2451545| ≤ 73050 := by exact_mod_cast h
  have hT : |((jd : ℝ) - 2451545) / 36525| ≤ 2 := by
    rw [abs_div, abs_of_pos (show (0 : ℝ) < 36525 by norm_num), div_le_iff₀ (by norm_num)]
    linarith
  unfold centuriesD centuries JD2000
  refine ⟨?_, hT⟩
  have r1 : |(F.rnd (jd - 2451545) : ℝ) - (jd - 2451545)| ≤ 82 / 10 ^ 13 := by
    refine rnd_real F (e := 0) (A := 73050) ?_ h' (by norm_num)
    push_cast; simp
  refine rnd_real F (e := 3 / 10 ^ 16) ?_ hT (by norm_num)
  push_cast
  rw [← sub_div, abs_div, abs_of_pos (show (0 : ℝ) < 36525 by norm_num), div_le_iff₀ (by norm_num)]
  norm_num at r1 ⊢
  linarith

/-- `(a ± b * t / 2) * DEG2RAD / 240`. -/
theorem rate_near (F : Fl64) {t a b : ℚ} {T s : ℝ} (hs : s = 1 ∨ s = -1) (ht : |(t : ℝ) - T| ≤ 1 / 10 ^ 15) (hT : |T| ≤ 2) (ha : |a| ≤ 308 / 100)
    (hb : |b| ≤ 2 / 1000) {z : ℚ} (hz : (z : ℝ) = F.rnd a + s * F.rnd (F.rnd (F.rnd b * t) / 2)) :
    |(F.rnd (F.rnd (F.rnd z * d2rD) / 240) : ℝ) - (a + s * (b * T / 2)) * (Real.pi / 180) / 240| ≤ 2 / 10 ^ 19 := by
  have ha' : |(a : ℝ)| ≤ 308 / 100 := by simpa using abs_real ha
  have hb' : |(b : ℝ)| ≤ 2 / 1000 := by simpa using abs_real hb
  have hs1 : |s| = 1 := by rcases hs with h | h <;> rw [h] <;> norm_num
  have hd := d2r_near
  have hp := Real.pi_gt_d6
  have hp' := Real.pi_lt_d6
  have hpi : |Real.pi / 180| ≤ 17454 / 10 ^ 6 := by
    rw [abs_of_pos (by positivity)]; linarith
  have ca := const_real F a (E := 35 / 10 ^ 17) (by
    have : |(a : ℝ)| / 2 ^ 53 ≤ 308 / 100 / 2 ^ 53 := div_le_div_of_nonneg_right ha' (by positivity)
    norm_num at this ⊢; linarith)
  have cb := const_real F b (E := 3 / 10 ^ 19) (by
    have : |(b : ℝ)| / 2 ^ 53 ≤ 2 / 1000 / 2 ^ 53 := div_le_div_of_nonneg_right hb' (by positivity)
    norm_num at this ⊢; linarith)
  have hbT : |(b : ℝ) * T| ≤ 4 / 1000 := by
    rw [abs_mul]; have := mul_le_mul hb' hT (abs_nonneg _) (by norm_num); linarith
  have p1 : |(F.rnd (F.rnd b * t) : ℝ) - b * T| ≤ 4 / 10 ^ 18 := by
    refine rnd_real F (e := 3 / 10 ^ 18) ?_ hbT (by norm_num)
    push_cast
    refine (mul_real cb ht hb' hT).trans (by norm_num)
  have hbT2 : |(b : ℝ) * T / 2| ≤ 2 / 1000 := by rw [abs_div, abs_of_pos (show (0 : ℝ) < 2 by norm_num)]; linarith
  have p2 : |(F.rnd (F.rnd (F.rnd b * t) / 2) : ℝ) - b * T / 2| ≤ 3 / 10 ^ 18 := by
    refine rnd_real F (e := 2 / 10 ^ 18) ?_ hbT2 (by norm_num)
    push_cast
    rw [← sub_div, abs_div]; norm_num at p1 ⊢; linarith
  have hS : |s * ((b : ℝ) * T / 2)| ≤ 2 / 1000 := by rw [abs_mul, hs1, one_mul]; exact hbT2
  have hA : |(a : ℝ) + s * (b * T / 2)| ≤ 3083 / 1000 := by
    have := abs_add_le (a : ℝ) (s * (b * T / 2)); linarith
  have p3 : |(F.rnd z : ℝ) - (a + s * (b * T / 2))| ≤ 7 / 10 ^ 16 := by
    refine rnd_real F (e := 354 / 10 ^ 18) ?_ hA (by norm_num)
    rw [hz, show (F.rnd a : ℝ) + s * F.rnd (F.rnd (F.rnd b * t) / 2) - (a + s * (b * T / 2)) = (F.rnd a - a) + s * (F.rnd (F.rnd (F.rnd b * t) / 2) - b * T / 2) by ring]
    have h1 := abs_add_le ((F.rnd a : ℝ) - a) (s * (F.rnd (F.rnd (F.rnd b * t) / 2) - b * T / 2))
    have h2 : |s * ((F.rnd (F.rnd (F.rnd b * t) / 2) : ℝ) - b * T / 2)| ≤ 3 / 10 ^ 18 := by rw [abs_mul, hs1, one_mul]; exact p2
    linarith
  generalize (a : ℝ) + s * (b * T / 2) = X at *
  have hXd : |X * (Real.pi / 180)| ≤ 54 / 1000 := by
    rw [abs_mul]; have := mul_le_mul hA hpi (abs_nonneg _) (by norm_num); linarith
  have p4 : |(F.rnd (F.rnd z * d2rD) : ℝ) - X * (Real.pi / 180)| ≤ 3 / 10 ^ 17 := by
    refine rnd_real F (e := 22 / 10 ^ 18) ?_ hXd (by norm_num)
    push_cast
    refine (mul_real p3 hd hA hpi).trans (by norm_num)
  have hXe : |X * (Real.pi / 180) / 240| ≤ 3 / 10 ^ 4 := by
    rw [abs_div, abs_of_pos (show (0 : ℝ) < 240 by norm_num), div_le_iff₀ (by norm_num)]; linarith
  refine rnd_real F (e := 13 / 10 ^ 20) ?_ hXe (by norm_num)
  push_cast
  rw [← sub_div, abs_div, abs_of_pos (show (0 : ℝ) < 240 by norm_num), div_le_iff₀ (by norm_num)]
  norm_num at p4 ⊢; linarith

theorem precM_near (F : Fl64) {t : ℚ} {T : ℝ} (ht : |(t : ℝ) - T| ≤ 1 / 10 ^ 15) (hT : |T| ≤ 2) :
    |(precMD F t : ℝ) - precM T| ≤ 2 / 10 ^ 19 ∧ |precM T| ≤ 23 / 10 ^ 5 := by
  have hp' := Real.pi_lt_d6
  obtain ⟨t1, t2⟩ := abs_le.1 hT
  constructor
  · have h := rate_near F (a := 307496 / 10 ^ 5) (b := 186 / 10 ^ 5) (Or.inl rfl) ht hT (by norm_num) (by norm_num)
      (z := F.rnd (307496 / 10 ^ 5) + F.rnd (F.rnd (F.rnd (186 / 10 ^ 5) * t) / 2)) (by push_cast; ring)
    have e : precM T = (((307496 / 10 ^ 5 : ℚ) : ℝ) + 1 * (((186 / 10 ^ 5 : ℚ) : ℝ) * T / 2)) * (Real.pi / 180) / 240 := by
      unfold precM d2r; push_cast; norm_num
    rw [e]
    exact h
  · unfold precM d2r
    rw [abs_div, abs_mul, abs_of_pos (show 0 < Real.pi / 180 by positivity), abs_of_pos (show (0 : ℝ) < 307496 / 100000 + 186 / 100000 * T / 2 by linarith),
      abs_of_pos (show (0 : ℝ) < 240 by norm_num), div_le_iff₀ (by norm_num)]
    have := mul_le_mul (show (307496 / 100000 + 186 / 100000 * T / 2 : ℝ) ≤ 3077 / 1000 by linarith) (show Real.pi / 180 ≤ 17454 / 10 ^ 6 by linarith)
      (by positivity) (by norm_num)
    linarith

theorem precN_near (F : Fl64) {t : ℚ} {T : ℝ} (ht : |(t : ℝ) - T| ≤ 1 / 10 ^ 15) (hT : |T| ≤ 2) :
    |(precND F t : ℝ) - precN T| ≤ 2 / 10 ^ 19 ∧ |precN T| ≤ 1 / 10 ^ 4 := by
  have hp' := Real.pi_lt_d6
  obtain ⟨t1, t2⟩ := abs_le.1 hT
  constructor
  · have h := rate_near F (a := 133621 / 10 ^ 5) (b := 57 / 10 ^ 5) (Or.inr rfl) ht hT (by norm_num) (by norm_num)
      (z := F.rnd (133621 / 10 ^ 5) - F.rnd (F.rnd (F.rnd (57 / 10 ^ 5) * t) / 2)) (by push_cast; ring)
    have e : precN T = (((133621 / 10 ^ 5 : ℚ) : ℝ) + -1 * (((57 / 10 ^ 5 : ℚ) : ℝ) * T / 2)) * (Real.pi / 180) / 240 := by
      unfold precN d2r; push_cast; norm_num; ring
    rw [e]
    exact h
  · unfold precN d2r
    rw [abs_div, abs_mul, abs_of_pos (show 0 < Real.pi / 180 by positivity), abs_of_pos (show (0 : ℝ) < 133621 / 100000 - 57 / 100000 * T / 2 by linarith),
      abs_of_pos (show (0 : ℝ) < 240 by norm_num), div_le_iff₀ (by norm_num)]
    have := mul_le_mul (show (133621 / 100000 - 57 / 100000 * T / 2 : ℝ) ≤ 1337 / 1000 by linarith) (show Real.pi / 180 ≤ 17454 / 10 ^ 6 by linarith)
      (by positivity) (by norm_num)
    linarith

/-- The tangent away from the poles. -/
theorem tan_near (M : PrecLib) {x : ℚ} {X e : ℝ} (h : |(x : ℝ) - X| ≤ e) (he : e ≤ 1 / 10 ^ 6) (hc : 198 / 1000 ≤ Real.cos X) :
    |(M.tan x : ℝ) - Real.tan X| ≤ 256 / 10 * e + 2 / 10 ^ 15 ∧ |Real.tan X| ≤ 506 / 100 := by
  have h1 := Real.abs_cos_sub_cos_le (x : ℝ) X
  have hcx : 1979 / 10000 ≤ Real.cos (x : ℝ) := by linarith [(abs_le.1 h1).1]
  have hX : |Real.tan X| ≤ 506 / 100 := by
    rw [Real.tan_eq_sin_div_cos, abs_div, abs_of_pos (by linarith : 0 < Real.cos X), div_le_iff₀ (by linarith)]
    linarith [Real.abs_sin_le_one X]
  have hd : |Real.tan (x : ℝ) - Real.tan X| ≤ 2556 / 100 * e := by
    have hpos : 0 < Real.cos (x : ℝ) * Real.cos X := mul_pos (by linarith) (by linarith)
    have e1 : Real.tan (x : ℝ) - Real.tan X = Real.sin ((x : ℝ) - X) / (Real.cos x * Real.cos X) := by
      rw [Real.tan_eq_sin_div_cos, Real.tan_eq_sin_div_cos, Real.sin_sub]
      have a1 : Real.cos (x : ℝ) ≠ 0 := by linarith
      have a2 : Real.cos X ≠ 0 := by linarith
      field_simp
    rw [e1, abs_div, abs_of_pos hpos, div_le_iff₀ hpos]
    have a3 : |Real.sin ((x : ℝ) - X)| ≤ e := by
      have := Real.abs_sin_sub_sin_le ((x : ℝ) - X) 0
      simp only [Real.sin_zero, sub_zero] at this
      linarith
    have a4 : 1979 / 10000 * (198 / 1000) ≤ Real.cos (x : ℝ) * Real.cos X := mul_le_mul hcx hc (by norm_num) (by linarith)
    have he0 := (abs_nonneg _).trans h
    have := mul_le_mul_of_nonneg_left a4 he0
    nlinarith
  refine ⟨?_, hX⟩
  have h2 := M.tan_err x
  have h3 := abs_sub_le (M.tan x : ℝ) (Real.tan x) (Real.tan X)
  have h4 := abs_sub_abs_le_abs_sub (Real.tan (x : ℝ)) (Real.tan X)
  have h5 : |Real.tan (x : ℝ)| ≤ 507 / 100 := by linarith
  have h6 : 2 / 2 ^ 53 * |Real.tan (x : ℝ)| ≤ 2 / 2 ^ 53 * (507 / 100) := mul_le_mul_of_nonneg_left h5 (by positivity)
  have he0 := (abs_nonneg _).trans h
  norm_num at h2 h6 ⊢
  linarith

theorem turnD_near (F : Fl64) {x : ℚ} {X e : ℝ} (h0 : -1 ≤ x) (h1 : x ≤ 7) (h : |(x : ℝ) - X| ≤ e) :
    0 ≤ turnD F x ∧ turnD F x ≤ twopiD ∧ ∃ k : ℤ, |(turnD F x : ℝ) - X - 2 * Real.pi * k| ≤ e + 2 / 10 ^ 15 := by
  have ht := twopi_near
  have t0 : F.rnd 0 = 0 := by
    have := F.exact 0 0 (by norm_num) (by norm_num)
    simpa using this
  have t1 : F.rnd twopiD = twopiD := F.exact 884279719003555 47 (by norm_num) (by norm_num)
  have v1 : 6 ≤ twopiD := by norm_num [twopiD]
  have v2 : twopiD ≤ 63 / 10 := by norm_num [twopiD]
  have hx0 : (-1 : ℝ) ≤ x := by exact_mod_cast h0
  have hx1 : (x : ℝ) ≤ 7 := by exact_mod_cast h1
  have v1' : (6 : ℝ) ≤ twopiD := by exact_mod_cast v1
  have v2' : (twopiD : ℝ) ≤ 63 / 10 := by have : ((twopiD : ℚ) : ℝ) ≤ ((63 / 10 : ℚ) : ℝ) := by exact_mod_cast v2
                                          push_cast at this; exact this
  unfold turnD
  split
  · next hn =>
    refine ⟨?_, ?_, 1, ?_⟩
    · have := F.mono 0 (x + twopiD) (by linarith); rwa [t0] at this
    · have := F.mono (x + twopiD) twopiD (by linarith); rwa [t1] at this
    · have hn' : (x : ℝ) ≤ 0 := by exact_mod_cast hn.le
      have r : |(F.rnd (x + twopiD) : ℝ) - ((x : ℝ) + twopiD)| ≤ 1 / 10 ^ 15 := by
        refine rnd_real F (e := 0) (A := 63 / 10) (by push_cast; simp) ?_ (by norm_num)
        rw [abs_le]; constructor <;> linarith
      push_cast
      rw [show (F.rnd (x + twopiD) : ℝ) - X - 2 * Real.pi * 1 = (F.rnd (x + twopiD) - ((x : ℝ) + twopiD)) + ((x : ℝ) - X) + (twopiD - 2 * Real.pi) by ring]
      have a1 := abs_add_le ((F.rnd (x + twopiD) : ℝ) - ((x : ℝ) + twopiD) + ((x : ℝ) - X)) (twopiD - 2 * Real.pi)
      have a2 := abs_add_le ((F.rnd (x + twopiD) : ℝ) - ((x : ℝ) + twopiD)) ((x : ℝ) - X)
      linarith
  · next hn =>
    split
    · next hg =>
      refine ⟨?_, ?_, -1, ?_⟩
      · have := F.mono 0 (x - twopiD) (by linarith); rwa [t0] at this
      · have := F.mono (x - twopiD) twopiD (by linarith); rwa [t1] at this
      · have hg' : (twopiD : ℝ) ≤ x := by exact_mod_cast hg
        have r : |(F.rnd (x - twopiD) : ℝ) - ((x : ℝ) - twopiD)| ≤ 1 / 10 ^ 15 := by
          refine rnd_real F (e := 0) (A := 63 / 10) (by push_cast; simp) ?_ (by norm_num)
          rw [abs_le]; constructor <;> linarith
        push_cast
        rw [show (F.rnd (x - twopiD) : ℝ) - X - 2 * Real.pi * -1 = (F.rnd (x - twopiD) - ((x : ℝ) - twopiD)) + ((x : ℝ) - X) - (twopiD - 2 * Real.pi) by ring]
        have a1 := abs_sub ((F.rnd (x - twopiD) : ℝ) - ((x : ℝ) - twopiD) + ((x : ℝ) - X)) (twopiD - 2 * Real.pi)
        have a2 := abs_add_le ((F.rnd (x - twopiD) : ℝ) - ((x : ℝ) - twopiD)) ((x : ℝ) - X)
        linarith
    · next hg =>
      push Not at hn hg
      refine ⟨hn, hg.le, 0, ?_⟩
      push_cast
      rw [mul_zero, sub_zero]
      linarith [show (0 : ℝ) ≤ 2 / 10 ^ 15 by positivity]

/-- From 1800 to 2199 and away from the poles by 11.5 degrees, the precession computed in `double` is the one of the exact formulas for the exact
direction, up to twice the error of the direction and `6 * 10 ^ -15`.  The right ascension is between 0 and `TWOPI`, the declination below
`PI / 2`. -/
theorem C183_precession (F : Fl64) (M : PrecLib) {jd ra dec : ℚ} {RA DEC e : ℝ} (h : |jd - 2451545| ≤ 73050) (h0 : 0 ≤ ra) (h1 : ra ≤ twopiD)
    (hra : ∃ k : ℤ, |(ra : ℝ) - RA - 2 * Real.pi * k| ≤ e) (hdec : |(dec : ℝ) - DEC| ≤ e) (he : e ≤ 1 / 10 ^ 6) (hD : |DEC| ≤ Real.pi / 2)
    (hc : 198 / 1000 ≤ Real.cos DEC) {ra' dec' : ℚ} (hp : precD F M jd ra dec = (ra', dec')) {RA' DEC' : ℝ}
    (hE : epoch_of_date_to_j2000 jd RA DEC = (RA', DEC')) :
    0 ≤ ra' ∧ ra' ≤ twopiD ∧ |dec'| ≤ piD / 2 ∧ (∃ k : ℤ, |(ra' : ℝ) - RA' - 2 * Real.pi * k| ≤ 2 * e + 6 / 10 ^ 15) ∧
      |(dec' : ℝ) - DEC'| ≤ 2 * e + 6 / 10 ^ 15 := by
  obtain ⟨k, hk⟩ := hra
  have he0 := (abs_nonneg _).trans hdec
  obtain ⟨ht, hT⟩ := centuries_near F h
  unfold precD at hp
  unfold epoch_of_date_to_j2000 at hE
  dsimp only at hp hE
  generalize centuriesD F jd = t at *
  generalize centuries (jd : ℝ) = T at *
  obtain ⟨m1, m2⟩ := precM_near F ht hT
  obtain ⟨n1, n2⟩ := precN_near F ht hT
  generalize precMD F t = m at *
  generalize precND F t = n at *
  generalize precM T = P at *
  generalize precN T = N at *
  obtain ⟨tn1, tn2⟩ := tan_near M hdec he hc
  have hk' : |(ra : ℝ) - (RA + k * (2 * Real.pi))| ≤ e := by
    rwa [show (ra : ℝ) - (RA + k * (2 * Real.pi)) = ra - RA - 2 * Real.pi * k by ring]
  have s1 := sin_lib M.toLibm hk'
  have c1 := cos_lib M.toLibm hk'
  rw [Real.sin_add_int_mul_two_pi] at s1
  rw [Real.cos_add_int_mul_two_pi] at c1
  have bs := Real.abs_sin_le_one RA
  have bc := Real.abs_cos_le_one RA
  simp only [Prod.mk.injEq] at hp hE
  obtain ⟨hp1, hp2⟩ := hp
  obtain ⟨hE1, hE2⟩ := hE
  generalize M.sin ra = s at *
  generalize M.cos ra = c at *
  generalize M.tan dec = u at *
  generalize Real.sin RA = S at *
  generalize Real.cos RA = C at *
  generalize Real.tan DEC = U at *
  -- the rates
  have hNS : |N * S| ≤ 1 / 10 ^ 4 := by rw [abs_mul]; have := mul_le_mul n2 bs (abs_nonneg _) (by norm_num); linarith
  have hNC : |N * C| ≤ 1 / 10 ^ 4 := by rw [abs_mul]; have := mul_le_mul n2 bc (abs_nonneg _) (by norm_num); linarith
  have a1 : |(F.rnd (n * s) : ℝ) - N * S| ≤ 101 / 10 ^ 6 * e + 3 / 10 ^ 19 := by
    refine rnd_real F (e := 1001 / 10 ^ 7 * e + 25 / 10 ^ 20) ?_ hNS ?_
    · push_cast
      have := mul_real n1 s1 n2 bs
      norm_num at this ⊢; linarith
    · norm_num; linarith
  have a2 : |(F.rnd (n * c) : ℝ) - N * C| ≤ 101 / 10 ^ 6 * e + 3 / 10 ^ 19 := by
    refine rnd_real F (e := 1001 / 10 ^ 7 * e + 25 / 10 ^ 20) ?_ hNC ?_
    · push_cast
      have := mul_real n1 c1 n2 bc
      norm_num at this ⊢; linarith
    · norm_num; linarith
  have hNSU : |N * S * U| ≤ 6 / 10 ^ 4 := by rw [abs_mul]; have := mul_le_mul hNS tn2 (abs_nonneg _) (by norm_num); linarith
  have a3 : |(F.rnd (F.rnd (n * s) * u) : ℝ) - N * S * U| ≤ 4 / 10 ^ 3 * e + 3 / 10 ^ 18 := by
    refine rnd_real F (e := 39 / 10 ^ 4 * e + 2 / 10 ^ 18) ?_ hNSU ?_
    · push_cast
      have h2 := mul_real a1 tn1 hNS tn2
      have h3 : e * e ≤ 1 / 10 ^ 6 * e := mul_le_mul_of_nonneg_right he he0
      have h4 : (101 / 10 ^ 6 * e + 3 / 10 ^ 19) * (256 / 10 * e + 2 / 10 ^ 15) = 101 / 10 ^ 6 * (256 / 10) * (e * e) +
        (101 / 10 ^ 6 * (2 / 10 ^ 15) + 3 / 10 ^ 19 * (256 / 10)) * e + 3 / 10 ^ 19 * (2 / 10 ^ 15) := by ring
      rw [h4] at h2
      norm_num at h2 h3 ⊢; linarith
    · norm_num; linarith
  have hR : |P + N * S * U| ≤ 83 / 10 ^ 5 := by have := abs_add_le P (N * S * U); linarith
  have a4 : |(F.rnd (m + F.rnd (F.rnd (n * s) * u)) : ℝ) - (P + N * S * U)| ≤ 41 / 10 ^ 4 * e + 4 / 10 ^ 18 := by
    refine rnd_real F (e := 4 / 10 ^ 3 * e + 32 / 10 ^ 19) ?_ hR ?_
    · push_cast
      rw [show (m : ℝ) + F.rnd (F.rnd (n * s) * u) - (P + N * S * U) = (m - P) + (F.rnd (F.rnd (n * s) * u) - N * S * U) by ring]
      have := abs_add_le ((m : ℝ) - P) (F.rnd (F.rnd (n * s) * u) - N * S * U)
      norm_num at this a3 m1 ⊢; linarith
    · norm_num; linarith
  -- the displacement for any rate
  have shift : ∀ {q : ℚ} {Q : ℝ}, |(q : ℝ) - Q| ≤ 41 / 10 ^ 4 * e + 4 / 10 ^ 18 → |Q| ≤ 83 / 10 ^ 5 →
      |(F.rnd (F.rnd (t * q) * 100) : ℝ) - T * Q * 100| ≤ 9 / 10 * e + 2 / 10 ^ 15 ∧ |T * Q * 100| ≤ 17 / 100 := by
    intro q Q hq hQ
    have hTQ : |T * Q| ≤ 166 / 10 ^ 5 := by rw [abs_mul]; have := mul_le_mul hT hQ (abs_nonneg _) (by norm_num); linarith
    have b1 : |(F.rnd (t * q) : ℝ) - T * Q| ≤ 83 / 10 ^ 4 * e + 1 / 10 ^ 17 := by
      refine rnd_real F (e := 821 / 10 ^ 5 * e + 9 / 10 ^ 18) ?_ hTQ ?_
      · push_cast
        have := mul_real ht hq hT hQ
        norm_num at this ⊢; linarith
      · norm_num; linarith
    have hTQ' : |T * Q * 100| ≤ 17 / 100 := by rw [abs_mul, abs_of_pos (show (0 : ℝ) < 100 by norm_num)]; linarith
    refine ⟨rnd_real F (e := 83 / 10 ^ 2 * e + 1 / 10 ^ 15) ?_ hTQ' ?_, hTQ'⟩
    · push_cast
      rw [show (F.rnd (t * q) : ℝ) * 100 - T * Q * 100 = (F.rnd (t * q) - T * Q) * 100 by ring, abs_mul, abs_of_pos (show (0 : ℝ) < 100 by norm_num)]
      norm_num at b1 ⊢; linarith
    · norm_num; linarith
  obtain ⟨d1, d2⟩ := shift a4 hR
  have hC2 : |N * C| ≤ 83 / 10 ^ 5 := hNC.trans (by norm_num)
  obtain ⟨d3, d4⟩ := shift (a2.trans (by norm_num; linarith)) hC2
  have v2 : twopiD ≤ 63 / 10 := by norm_num [twopiD]
  have r0 : (0 : ℝ) ≤ ra := by exact_mod_cast h0
  have r1 : (ra : ℝ) ≤ 63 / 10 := by
    have : ((ra : ℚ) : ℝ) ≤ ((63 / 10 : ℚ) : ℝ) := by exact_mod_cast h1.trans v2
    push_cast at this; exact this
  have hpi := Real.pi_gt_d6
  have hpi' := Real.pi_lt_d6
  -- right ascension
  have hx : |(F.rnd (ra - F.rnd (F.rnd (t * F.rnd (m + F.rnd (F.rnd (n * s) * u))) * 100)) : ℝ) - (RA + k * (2 * Real.pi) - T * (P + N * S * U) * 100)|
      ≤ 2 * e + 4 / 10 ^ 15 := by
    have hb : |RA + k * (2 * Real.pi) - T * (P + N * S * U) * 100| ≤ 7 := by
      obtain ⟨q1, q2⟩ := abs_le.1 hk'
      obtain ⟨q3, q4⟩ := abs_le.1 d2
      rw [abs_le]; constructor <;> linarith
    refine rnd_real F (e := 19 / 10 * e + 2 / 10 ^ 15) ?_ hb ?_
    · push_cast
      rw [show ∀ w : ℝ, (ra : ℝ) - w - (RA + k * (2 * Real.pi) - T * (P + N * S * U) * 100) =
        (ra - (RA + k * (2 * Real.pi))) - (w - T * (P + N * S * U) * 100) from fun w => by ring]
      have := abs_sub ((ra : ℝ) - (RA + k * (2 * Real.pi))) (F.rnd (F.rnd (t * F.rnd (m + F.rnd (F.rnd (n * s) * u))) * 100) - T * (P + N * S * U) * 100)
      linarith
    · norm_num; linarith
  obtain ⟨x1, x2⟩ := abs_le.1 hx
  obtain ⟨q1, q2⟩ := abs_le.1 hk'
  obtain ⟨q3, q4⟩ := abs_le.1 d2
  generalize F.rnd (ra - F.rnd (F.rnd (t * F.rnd (m + F.rnd (F.rnd (n * s) * u))) * 100)) = x at *
  have x3 : (-1 : ℝ) ≤ x := by norm_num at x1; linarith
  have x4 : (x : ℝ) ≤ 7 := by norm_num at x2; linarith
  obtain ⟨y1, y2, j, y3⟩ := turnD_near F (x := x) (by exact_mod_cast x3) (by exact_mod_cast x4) hx
  rw [hp1] at y1 y2 y3
  -- declination
  have hz : |(dec' : ℝ) - DEC'| ≤ 2 * e + 6 / 10 ^ 15 := by
    rw [← hp2, ← hE2]
    have hb : |DEC - T * (N * C) * 100| ≤ 7 := by
      obtain ⟨q5, q6⟩ := abs_le.1 d4
      obtain ⟨q7, q8⟩ := abs_le.1 hD
      rw [abs_le]; constructor <;> linarith
    refine rnd_real F (e := 19 / 10 * e + 2 / 10 ^ 15) ?_ hb ?_
    · push_cast
      rw [show ∀ w : ℝ, (dec : ℝ) - w - (DEC - T * (N * C) * 100) = (dec - DEC) - (w - T * (N * C) * 100) from fun w => by ring]
      have := abs_sub ((dec : ℝ) - DEC) (F.rnd (F.rnd (t * F.rnd (n * c)) * 100) - T * (N * C) * 100)
      linarith
    · norm_num; linarith
  refine ⟨y1, y2, ?_, ?_, hz⟩
  · have hs1 : 198 / 1000 ≤ Real.pi / 2 - |DEC| := by
      have h3 : Real.sin (Real.pi / 2 - |DEC|) = Real.cos DEC := by rw [Real.sin_pi_div_two_sub, Real.cos_abs]
      have h4 := Real.sin_le (x := Real.pi / 2 - |DEC|) (by linarith)
      linarith
    have h5 := abs_sub_abs_le_abs_sub (dec' : ℝ) DEC'
    have h6 : |DEC'| ≤ |DEC| + 17 / 100 := by rw [← hE2]; have := abs_sub DEC (T * (N * C) * 100); linarith
    have h7 : |(dec' : ℝ)| ≤ 157 / 100 := by norm_num at hz h5 ⊢; linarith
    have h8 : |dec'| ≤ 157 / 100 := by
      have : ((|dec'| : ℚ) : ℝ) ≤ ((157 / 100 : ℚ) : ℝ) := by push_cast; exact h7
      exact_mod_cast this
    refine h8.trans ?_
    norm_num [piD]
  · have hw : ∃ i : ℤ, RA' = RA - T * (P + N * S * U) * 100 + 2 * Real.pi * i := by
      rw [← hE1]
      split
      · exact ⟨1, by push_cast; ring⟩
      · split
        · exact ⟨-1, by push_cast; ring⟩
        · exact ⟨0, by push_cast; ring⟩
    obtain ⟨i, hi⟩ := hw
    refine ⟨k + j - i, ?_⟩
    rw [hi]
    push_cast
    rw [show (ra' : ℝ) - (RA - T * (P + N * S * U) * 100 + 2 * Real.pi * i) - 2 * Real.pi * (k + j - i) =
      ra' - (RA + k * (2 * Real.pi) - T * (P + N * S * U) * 100) - 2 * Real.pi * j by ring]
    linarith

/-! ### Examples -/

/-- There are such libraries. -/
noncomputable def precLib : PrecLib where
  toLibm := bestLib
  tan x := rounded (Real.tan x)
  tan_err x := rounded_err _ (by norm_num)

/-- In 2024 a direction at the vernal equinox on the equator is moved back by the general precession in right ascension. -/
example {ra' dec' : ℚ} (h : precD Fl64.ieee precLib 2460311 0 0 = (ra', dec')) :
    ∃ k : ℤ, |(ra' : ℝ) - (-(centuries 2460311 * precM (centuries 2460311) * 100)) - 2 * Real.pi * k| ≤ 6 / 10 ^ 15 := by
  obtain ⟨_, _, _, ⟨k, hk⟩, _⟩ := C183_precession Fl64.ieee precLib (jd := 2460311) (ra := 0) (dec := 0) (RA := 0) (DEC := 0) (e := 0) (by norm_num)
    (by norm_num) (by norm_num [twopiD]) ⟨0, by norm_num⟩ (by norm_num) (by norm_num) (by rw [abs_zero]; positivity) (by rw [Real.cos_zero]; norm_num) h
    (RA' := (epoch_of_date_to_j2000 2460311 0 0).1) (DEC' := (epoch_of_date_to_j2000 2460311 0 0).2) (by push_cast; rfl)
  have e : ∃ i : ℤ, (epoch_of_date_to_j2000 2460311 0 0).1 = -(centuries 2460311 * precM (centuries 2460311) * 100) + 2 * Real.pi * i := by
    unfold epoch_of_date_to_j2000
    dsimp only
    rw [Real.sin_zero, mul_zero, zero_mul, add_zero, zero_sub]
    split
    · exact ⟨1, by push_cast; ring⟩
    · split
      · exact ⟨-1, by push_cast; ring⟩
      · exact ⟨0, by push_cast; ring⟩
  obtain ⟨i, hi⟩ := e
  refine ⟨i + k, ?_⟩
  rw [hi] at hk
  push_cast
  rw [mul_zero, zero_add] at hk
  rw [show ∀ a : ℝ, (ra' : ℝ) - -a - 2 * Real.pi * (i + k) = ra' - (-a + 2 * Real.pi * i) - 2 * Real.pi * k from fun a => by ring]
  exact hk

end SatSky.Props
