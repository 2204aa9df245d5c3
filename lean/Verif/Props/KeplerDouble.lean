import Verif.Model.KeplerDouble
import Verif.Props.Kepler
import Verif.Props.FieldsDouble
import Verif.Props.FlatDouble
import Verif.Props.TimeDouble

/-! C203, C204: Kepler's equation of `sxpx_posn_vel` in `double` arithmetic. -/

namespace SatSky.Props

open SatSky.Spec SatSky.Geo SatSky.Relative SatSky.Sxp SatSky.Kep

/-! ### The products with the eccentricity vector -/

theorem ecc_part (F : Fl64) {x s : ℚ} {S : ℝ} (hx : |(x : ℝ)| ≤ 1) (hs : |(s : ℝ) - S| ≤ 23 / 10 ^ 17) (hS : |S| ≤ 1) :
    |(F.rnd (x * s) : ℝ) - x * S| ≤ 342 / 10 ^ 18 := by
  refine rnd_real F (e := 23 / 10 ^ 17) (A := 1) ?_ ?_ (by norm_num)
  · push_cast
    rw [← mul_sub, abs_mul]
    calc |(x : ℝ)| * |(s : ℝ) - S| ≤ 1 * (23 / 10 ^ 17) := mul_le_mul hx hs (abs_nonneg _) (by norm_num)
      _ = 23 / 10 ^ 17 := one_mul _
  · rw [abs_mul]
    calc |(x : ℝ)| * |S| ≤ 1 * 1 := mul_le_mul hx hS (abs_nonneg _) (by norm_num)
      _ = 1 := one_mul _

theorem comp_le {x y : ℝ} (h : x ^ 2 + y ^ 2 ≤ 1 ^ 2) : |x| ≤ 1 ∧ |y| ≤ 1 := by
  constructor <;> refine abs_le_of_sq_le_sq ?_ (by norm_num) <;> nlinarith [sq_nonneg x, sq_nonneg y]

theorem esinE_near (F : Fl64) (M : Libm) {x y : ℚ} (h : (x : ℝ) ^ 2 + (y : ℝ) ^ 2 ≤ 1 ^ 2) (E : ℚ) :
    |(esinED F M x y E : ℝ) - es x y E| ≤ 8 / 10 ^ 16 := by
  obtain ⟨hx, hy⟩ := comp_le h
  have s1 := sin_lib M (x := E) (X := E) (e := 0) (by simp)
  have c1 := cos_lib M (x := E) (X := E) (e := 0) (by simp)
  rw [zero_add] at s1 c1
  have p1 := ecc_part F hx s1 (Real.abs_sin_le_one _)
  have p2 := ecc_part F hy c1 (Real.abs_cos_le_one _)
  have hb := abs_es (by norm_num) h (E : ℝ)
  unfold esinED
  refine rnd_real F (e := 684 / 10 ^ 18) (A := 1) ?_ hb (by norm_num)
  unfold es
  push_cast
  rw [abs_le] at *
  constructor <;> linarith [p1.1, p1.2, p2.1, p2.2]

theorem ecosE_near (F : Fl64) (M : Libm) {x y : ℚ} (h : (x : ℝ) ^ 2 + (y : ℝ) ^ 2 ≤ 1 ^ 2) (E : ℚ) :
    |(ecosED F M x y E : ℝ) - ec x y E| ≤ 8 / 10 ^ 16 := by
  obtain ⟨hx, hy⟩ := comp_le h
  have s1 := sin_lib M (x := E) (X := E) (e := 0) (by simp)
  have c1 := cos_lib M (x := E) (X := E) (e := 0) (by simp)
  rw [zero_add] at s1 c1
  have p1 := ecc_part F hx c1 (Real.abs_cos_le_one _)
  have p2 := ecc_part F hy s1 (Real.abs_sin_le_one _)
  have hb := abs_ec (by norm_num) h (E : ℝ)
  unfold ecosED
  refine rnd_real F (e := 684 / 10 ^ 18) (A := 1) ?_ hb (by norm_num)
  unfold ec
  push_cast
  rw [abs_le] at *
  constructor <;> linarith [p1.1, p1.2, p2.1, p2.2]

/-- The residual, in terms of the difference from the mean longitude. -/
theorem resD_near (F : Fl64) (M : Libm) {x y l E : ℚ} {B : ℝ} (h : (x : ℝ) ^ 2 + (y : ℝ) ^ 2 ≤ 1 ^ 2) (hB : |(l : ℝ) - E| ≤ B) (hr : |keplerRes x y l E| ≤ 1)
    (hB1 : B ≤ 2) : |(keplerResD F M x y l E : ℝ) - keplerRes x y l E| ≤ 12 / 10 ^ 16 := by
  have h1 : |(F.rnd (l - E) : ℝ) - (l - E)| ≤ 23 / 10 ^ 17 :=
    rnd_real F (e := 0) (A := 2) (by push_cast; simp) (hB.trans hB1) (by norm_num)
  have h2 := esinE_near F M h E
  unfold keplerResD
  refine rnd_real F (e := 103 / 10 ^ 17) (A := 1) ?_ hr (by norm_num)
  rw [res_eq]
  push_cast
  rw [abs_le] at *
  constructor <;> linarith [h1.1, h1.2, h2.1, h2.2]

theorem tol_near (F : Fl64) : |(F.rnd (1 / 10 ^ 12) : ℝ) - 1 / 10 ^ 12| ≤ 1 / 10 ^ 27 := by
  have := const_real F (1 / 10 ^ 12) (E := 1 / 10 ^ 27) (by norm_num [abs_of_pos])
  simpa using this

/-- The test that ends the loop. -/
theorem accept_res (F : Fl64) (M : Libm) {x y l E : ℚ} (h : (x : ℝ) ^ 2 + (y : ℝ) ^ 2 ≤ 1 ^ 2)
    (ha : |keplerResD F M x y l E| < F.rnd (1 / 10 ^ 12)) : |keplerRes x y l E| ≤ 1001 / 10 ^ 15 := by
  have ht := (abs_le.1 (tol_near F)).2
  have ha' : |(keplerResD F M x y l E : ℝ)| < (F.rnd (1 / 10 ^ 12) : ℝ) := by exact_mod_cast ha
  unfold keplerResD at ha'
  have h2 := esinE_near F M h E
  have hb := abs_es (by norm_num) h (E : ℝ)
  have r1 := err_real F (F.rnd (l - E) + esinED F M x y E)
  have r2 := err_real F (l - E)
  rw [res_eq]
  push_cast at r1 r2
  generalize (F.rnd (F.rnd (l - E) + esinED F M x y E) : ℝ) = v at *
  generalize (F.rnd (l - E) : ℝ) = w at *
  generalize (esinED F M x y E : ℝ) = s at *
  generalize es x y E = S at *
  generalize (F.rnd (1 / 10 ^ 12) : ℝ) = t at *
  generalize (l : ℝ) - E = d at *
  have q1 : |w + s| ≤ 11 / 10 ^ 13 := by
    have := abs_sub_abs_le_abs_sub (w + s) v
    rw [abs_sub_comm (w + s) v] at this
    have h3 : (1 : ℝ) / 2 ^ 53 * |w + s| + 1 / 2 ^ 200 ≤ |w + s| / 10 ^ 6 + 1 / 10 ^ 30 := by
      have := abs_nonneg (w + s)
      have h4 : (1 : ℝ) / 2 ^ 53 ≤ 1 / 10 ^ 6 := by norm_num
      have := mul_le_mul_of_nonneg_right h4 this
      have h5 : (1 : ℝ) / 2 ^ 200 ≤ 1 / 10 ^ 30 := by norm_num
      linarith
    linarith
  have q2 : |w| ≤ 10001 / 10000 := by
    rw [abs_le] at *
    constructor <;> linarith [q1.1, q1.2, h2.1, h2.2, hb.1, hb.2]
  have q3 : |d| ≤ 10002 / 10000 := by
    have := abs_sub_abs_le_abs_sub d w
    rw [abs_sub_comm d w] at this
    have h4 := mul_le_mul_of_nonneg_right (show (1 : ℝ) / 2 ^ 53 ≤ 1 / 10 ^ 6 by norm_num) (abs_nonneg d)
    have h5 : (1 : ℝ) / 2 ^ 200 ≤ 1 / 10 ^ 30 := by norm_num
    linarith
  have e1 : |v - (w + s)| ≤ 1 / 10 ^ 27 := r1.trans (by
    have := mul_le_mul_of_nonneg_left q1 (show (0 : ℝ) ≤ 1 / 2 ^ 53 by norm_num)
    have h5 : (1 : ℝ) / 2 ^ 53 * (11 / 10 ^ 13) + 1 / 2 ^ 200 ≤ 1 / 10 ^ 27 := by norm_num
    linarith)
  have e2 : |w - d| ≤ 12 / 10 ^ 17 := r2.trans (by
    have := mul_le_mul_of_nonneg_left q3 (show (0 : ℝ) ≤ 1 / 2 ^ 53 by norm_num)
    have h5 : (1 : ℝ) / 2 ^ 53 * (10002 / 10000) + 1 / 2 ^ 200 ≤ 12 / 10 ^ 17 := by norm_num
    linarith)
  clear r1 r2 q1 q2 q3 hb ha
  have ha2 := ha'.le
  rw [abs_le] at *
  constructor <;> linarith [e1.1, e1.2, e2.1, e2.2, h2.1, h2.2, ha2.1, ha2.2]

theorem keplerLoopD_some (F : Fl64) (M : Libm) {x y l c E : ℚ} : ∀ {n : ℕ} {b : Bool} {E0 : ℚ}, keplerLoopD F M x y l c n b E0 = some E →
    |keplerResD F M x y l E| < F.rnd (1 / 10 ^ 12)
  | 0, _, _, h => by simp [keplerLoopD] at h
  | n + 1, b, E0, h => by
    unfold keplerLoopD at h
    by_cases hc : |keplerResD F M x y l E0| < F.rnd (1 / 10 ^ 12)
    · rw [if_pos hc] at h
      rw [← Option.some.inj h]; exact hc
    · rw [if_neg hc] at h
      cases hs : keplerStepD F M x y l c b E0 with
      | none => rw [hs] at h; simp at h
      | some E1 => rw [hs] at h; exact keplerLoopD_some F M h

/-! ### The mean longitude -/

theorem centralizeD_bound (F : Fl64) (x : ℚ) : |centralizeD F x| ≤ piD := by
  have hp : F.rnd piD = piD := by unfold piD; exact F.exact 884279719003555 48 (by norm_num) (by norm_num)
  have hn : F.rnd (-piD) = -piD := by
    have := F.exact (-884279719003555) 48 (by norm_num) (by norm_num)
    unfold piD
    push_cast at this
    rw [neg_div] at this
    exact this
  have ht : twopiD = 2 * piD := by unfold twopiD piD; norm_num
  have h0 : 0 < piD := by unfold piD; norm_num
  have hf : |fmodD x twopiD| ≤ twopiD := by
    have := frac_bound (x / twopiD)
    have e : fmodD x twopiD = (x / twopiD - truncQ (x / twopiD)) * twopiD := by
      unfold fmodD
      rw [sub_mul, div_mul_cancel₀ _ (by rw [ht]; positivity)]
      ring
    rw [e, abs_mul, abs_of_pos (show 0 < twopiD by rw [ht]; positivity)]
    have := mul_le_mul_of_nonneg_right this (show 0 ≤ twopiD by rw [ht]; positivity)
    linarith
  unfold centralizeD
  dsimp only
  generalize fmodD x twopiD = r at *
  rw [ht] at *
  obtain ⟨a, b⟩ := abs_le.1 hf
  by_cases h1 : r > piD
  · rw [if_pos h1, abs_le]
    constructor
    · rw [← hn]; exact F.mono _ _ (by linarith)
    · rw [← hp]; exact F.mono _ _ (by linarith)
  · rw [if_neg h1]
    by_cases h2 : r < -piD
    · rw [if_pos h2, abs_le]
      constructor
      · rw [← hn]; exact F.mono _ _ (by linarith)
      · rw [← hp]; exact F.mono _ _ (by linarith)
    · rw [if_neg h2, abs_le]
      push Not at h1 h2
      exact ⟨h2, h1⟩

/-- The reduced angle is the angle up to whole turns; `2.4 * 10 ^ -16` per turn because `twopi` is not `2 π`. -/
theorem centralizeD_near (F : Fl64) (x : ℚ) :
    ∃ k : ℤ, |(centralizeD F x : ℝ) - (x + 2 * Real.pi * k)| ≤ 4 / 10 ^ 16 * |(k : ℝ)| + 4 / 10 ^ 16 := by
  have hb := centralizeD_bound F x
  have htw := twopi_close
  have key : ∃ k : ℤ, |centralizeD F x - (x + twopiD * k)| ≤ 4 / 10 ^ 16 := by
    have hf : fmodD x twopiD = x + twopiD * ((-truncQ (x / twopiD) : ℤ) : ℚ) := by unfold fmodD; push_cast; ring
    have ht : twopiD = 2 * piD := by unfold twopiD piD; norm_num
    have h0 : piD ≤ 32 / 10 := by unfold piD; norm_num
    have hfb : |fmodD x twopiD| ≤ twopiD := by
      have := frac_bound (x / twopiD)
      have e : fmodD x twopiD = (x / twopiD - truncQ (x / twopiD)) * twopiD := by
        unfold fmodD
        rw [sub_mul, div_mul_cancel₀ _ (by unfold twopiD; norm_num)]
        ring
      have tp : 0 ≤ twopiD := by unfold twopiD; norm_num
      rw [e, abs_mul, abs_of_nonneg tp]
      have := mul_le_mul_of_nonneg_right this tp
      linarith
    unfold centralizeD
    dsimp only
    rw [hf] at hfb ⊢
    generalize -truncQ (x / twopiD) = k at *
    obtain ⟨a, b⟩ := abs_le.1 hfb
    by_cases h1 : x + twopiD * (k : ℚ) > piD
    · rw [if_pos h1]
      refine ⟨k - 1, ?_⟩
      push_cast
      rw [show x + twopiD * ((k : ℚ) - 1) = x + twopiD * k - twopiD by ring]
      exact rnd_rat F (e := 0) (A := 32 / 10) (by simp) (by rw [abs_le]; constructor <;> linarith) (by norm_num)
    · rw [if_neg h1]
      by_cases h2 : x + twopiD * (k : ℚ) < -piD
      · rw [if_pos h2]
        refine ⟨k + 1, ?_⟩
        push_cast
        rw [show x + twopiD * ((k : ℚ) + 1) = x + twopiD * k + twopiD by ring]
        exact rnd_rat F (e := 0) (A := 32 / 10) (by simp) (by rw [abs_le]; constructor <;> linarith) (by norm_num)
      · rw [if_neg h2]
        exact ⟨k, by rw [sub_self, abs_zero]; norm_num⟩
  obtain ⟨k, hk⟩ := key
  refine ⟨k, ?_⟩
  have hk' : |(centralizeD F x : ℝ) - (x + twopiD * k)| ≤ 4 / 10 ^ 16 := by simpa using abs_real hk
  have h2 : |((twopiD : ℝ) - 2 * Real.pi) * k| ≤ 4 / 10 ^ 16 * |(k : ℝ)| := by
    rw [abs_mul]; exact mul_le_mul_of_nonneg_right htw (abs_nonneg _)
  rw [show (centralizeD F x : ℝ) - (x + 2 * Real.pi * k) = (centralizeD F x - (x + twopiD * k)) + (twopiD - 2 * Real.pi) * k by ring]
  exact (abs_add_le _ _).trans (by linarith)

/-- **C203**: the mean longitude is reduced to at most half a turn either way, and only by whole turns: for a reduction by `k` turns the
error is at most `4 * 10 ^ -16 (|k| + 1)`. -/
theorem C203_centralize (F : Fl64) (x : ℚ) : |centralizeD F x| ≤ piD ∧
    ∃ k : ℤ, |(centralizeD F x : ℝ) - (x + 2 * Real.pi * k)| ≤ 4 / 10 ^ 16 * |(k : ℝ)| + 4 / 10 ^ 16 :=
  ⟨centralizeD_bound F x, centralizeD_near F x⟩

/-- **C203**: with the eccentricity `e = √(x² + y²)` below one, an eccentric longitude that the loop accepts in `double` differs from the only
solution of Kepler's equation by at most `1.001 * 10 ^ -12 / (1 - e)`. -/
theorem C203_root (F : Fl64) (M : Libm) {x y w c E : ℚ} (h : keplerD F M x y w c = some E) (he : (x : ℝ) ^ 2 + (y : ℝ) ^ 2 < 1) :
    ∃ R, KeplerEq x y (centralizeD F w) R ∧ (∀ R', KeplerEq x y (centralizeD F w) R' → R' = R) ∧
      |(E : ℝ) - R| ≤ 1001 / 10 ^ 15 / (1 - √((x : ℝ) ^ 2 + (y : ℝ) ^ 2)) := by
  unfold keplerD at h
  have hres := accept_res F M (by linarith) (keplerLoopD_some F M h)
  set e := √((x : ℝ) ^ 2 + (y : ℝ) ^ 2) with hdef
  have he0 : 0 ≤ e := Real.sqrt_nonneg _
  have hsq : e ^ 2 = (x : ℝ) ^ 2 + (y : ℝ) ^ 2 := Real.sq_sqrt (by positivity)
  have he1 : e < 1 := by nlinarith
  generalize centralizeD F w = l at *
  obtain ⟨R, hR⟩ := root_exists (l : ℝ) he0 he1 hsq.ge
  refine ⟨R, (keplerEq_iff _ _ _ R).mpr hR, ?_, ?_⟩
  · intro R' h'
    have h1 := near he0 he1 hsq.ge (E := R') hR
    rw [(keplerEq_iff _ _ _ R').mp h', abs_zero, zero_div] at h1
    exact sub_eq_zero.mp (abs_eq_zero.mp (le_antisymm h1 (abs_nonneg _)))
  · exact (near he0 he1 hsq.ge hR).trans (div_le_div_of_nonneg_right hres (by linarith))

theorem elliptic_sum (F : Fl64) {x y : ℚ} (h : ellipticD F x y = true) : (x : ℝ) ^ 2 + (y : ℝ) ^ 2 ≤ 1 - 9999 / 10 ^ 10 := by
  unfold ellipticD at h
  have h1 := of_decide_eq_true h
  have c1 : |F.rnd (1 / 10 ^ 6) - 1 / 10 ^ 6| ≤ 1 / 10 ^ 20 := rnd_rat F (e := 0) (A := 1 / 10 ^ 6) (by simp) (by norm_num [abs_of_pos]) (by norm_num)
  have c2 : |F.rnd (1 - F.rnd (1 / 10 ^ 6)) - (1 - 1 / 10 ^ 6)| ≤ 1 / 10 ^ 15 :=
    rnd_rat F (e := 1 / 10 ^ 20) (A := 1) (by rw [abs_le] at *; constructor <;> linarith [c1.1, c1.2]) (by norm_num [abs_of_pos]) (by norm_num)
  have e1 := F.err (x * x)
  have e2 := F.err (y * y)
  have e3 := F.err (F.rnd (x * x) + F.rnd (y * y))
  have px : 0 ≤ x * x := mul_self_nonneg x
  have py : 0 ≤ y * y := mul_self_nonneg y
  have rx : 0 ≤ F.rnd (x * x) := F.nonneg px
  have ry : 0 ≤ F.rnd (y * y) := F.nonneg py
  rw [abs_of_nonneg px] at e1
  rw [abs_of_nonneg py] at e2
  rw [abs_of_nonneg (add_nonneg rx ry)] at e3
  have key : x * x + y * y ≤ 1 - 9999 / 10 ^ 10 := by
    generalize F.rnd (F.rnd (x * x) + F.rnd (y * y)) = s at *
    generalize F.rnd (1 - F.rnd (1 / 10 ^ 6)) = t at *
    generalize F.rnd (x * x) = a at *
    generalize F.rnd (y * y) = b at *
    generalize x * x = X at *
    generalize y * y = Y at *
    have e1' := (abs_le.1 e1).1
    have e2' := (abs_le.1 e2).1
    have e3' := (abs_le.1 e3).1
    have c2' := (abs_le.1 c2).2
    have k1 : (1 : ℚ) / 2 ^ 53 ≤ 1 / 10 ^ 15 := by norm_num
    have k2 : (1 : ℚ) / 2 ^ 200 ≤ 1 / 10 ^ 30 := by norm_num
    have m1 := mul_le_mul_of_nonneg_left k1 px
    have m2 := mul_le_mul_of_nonneg_left k1 py
    have m3 := mul_le_mul_of_nonneg_left k1 (add_nonneg rx ry)
    rw [mul_one_div, mul_one_div] at m1 m2 m3
    linarith
  have := (Rat.cast_le (K := ℝ)).2 key
  push_cast at this
  linarith

/-- **C203**: for every orbit that is not refused as nearly parabolic the accepted eccentric longitude is within `2.1 * 10 ^ -6` of the solution. -/
theorem C203_accepted (F : Fl64) (M : Libm) {x y w c E : ℚ} (h : keplerD F M x y w c = some E) (he : ellipticD F x y = true) :
    ∃ R, KeplerEq x y (centralizeD F w) R ∧ |(E : ℝ) - R| ≤ 21 / 10 ^ 7 := by
  have hs := elliptic_sum F he
  obtain ⟨R, h1, _, h2⟩ := C203_root F M h (by linarith)
  refine ⟨R, h1, h2.trans ?_⟩
  set e := √((x : ℝ) ^ 2 + (y : ℝ) ^ 2) with hdef
  have he0 : 0 ≤ e := Real.sqrt_nonneg _
  have hsq : e ^ 2 = (x : ℝ) ^ 2 + (y : ℝ) ^ 2 := Real.sq_sqrt (by positivity)
  have : 4999 / 10 ^ 10 ≤ 1 - e := by nlinarith
  have hpos : 0 < 1 - e := lt_of_lt_of_le (by norm_num) this
  rw [div_le_iff₀ hpos]
  nlinarith

/-! ### Convergence -/

theorem quot_real {a A b B e g m Q E : ℝ} (ha : |a - A| ≤ e) (hb : |b - B| ≤ g) (hB : m + g ≤ B) (hm : 0 < m) (hQ : |A / B| ≤ Q)
    (hE : (e + Q * g) / m ≤ E) : |a / b - A / B| ≤ E := by
  have hb1 : m ≤ b := by linarith [(abs_le.1 hb).1]
  have hb0 : 0 < b := by linarith
  have hg : 0 ≤ g := (abs_nonneg _).trans hb
  have hB0 : B ≠ 0 := by
    have : 0 < B := by linarith
    exact this.ne'
  have e1 : a / b - A / B = ((a - A) - A / B * (b - B)) / b := by field_simp; ring
  have e2 : |(a - A) - A / B * (b - B)| ≤ e + Q * g := by
    have h1 : |A / B * (b - B)| ≤ Q * g := by rw [abs_mul]; exact mul_le_mul hQ hb (abs_nonneg _) ((abs_nonneg _).trans hQ)
    have := abs_sub (a - A) (A / B * (b - B))
    linarith
  rw [e1, abs_div, abs_of_pos hb0, div_le_iff₀ hb0]
  have h0 : 0 ≤ E := le_trans (div_nonneg ((abs_nonneg _).trans e2) hm.le) hE
  rw [div_le_iff₀ hm] at hE
  calc _ ≤ e + Q * g := e2
    _ ≤ E * m := hE
    _ ≤ E * b := mul_le_mul_of_nonneg_left hb1 h0

/-- A shortened Newton step does not increase the residual (the bound of `short_step` without the last estimate). -/
theorem short_step_le {x y l : ℝ} (h : x ^ 2 + y ^ 2 ≤ (2 / 5) ^ 2) {E t : ℝ} (hf : |keplerRes x y l E| ≤ 2 / 5) (ht : 0 ≤ t) (ht1 : t ≤ 1) :
    |keplerRes x y l (E + t * (keplerRes x y l E / (1 - ec x y E)))| ≤ |keplerRes x y l E| := by
  have hc := abs_le.mp (abs_ec (by norm_num) h E)
  set f := keplerRes x y l E with hf'
  set p := 1 - ec x y E with hp
  have hp0 : 3 / 5 ≤ p := by linarith [hc.2]
  have hpp : 0 < p := by linarith
  set d := t * (f / p) with hd
  have hfp : |f / p| ≤ 2 / 3 := by
    rw [abs_div, abs_of_pos hpp, div_le_iff₀ hpp]; linarith
  have hd1 : |d| ≤ t * |f / p| := by rw [hd, abs_mul, abs_of_nonneg ht]
  have hd2 : |d| ≤ 1 := by nlinarith [abs_nonneg (f / p)]
  have hr := rem2 (by norm_num) h E hd2
  have hnew : keplerRes x y l (E + d) = f - p * d + (es x y (E + d) - es x y E - ec x y E * d) := by
    rw [hf', res_eq, res_eq, hp]; ring
  have hlin : f - p * d = (1 - t) * f := by rw [hd]; field_simp
  rw [hnew, hlin]
  have hdsq : d ^ 2 ≤ t * (10 / 9 * |f|) := by
    have h1 : |d| ≤ t * (5 / 3 * |f|) := by
      refine le_trans hd1 (mul_le_mul_of_nonneg_left ?_ ht)
      rw [abs_div, abs_of_pos hpp, div_le_iff₀ hpp]
      nlinarith [abs_nonneg f]
    have h2 : |d| ≤ 2 / 3 := by nlinarith [abs_nonneg (f / p)]
    rw [← sq_abs]
    nlinarith [abs_nonneg d, abs_nonneg f, mul_nonneg ht (abs_nonneg f)]
  calc _ ≤ |(1 - t) * f| + |es x y (E + d) - es x y E - ec x y E * d| := abs_add_le _ _
    _ ≤ (1 - t) * |f| + 3 / 4 * (2 / 5) * d ^ 2 := by
        rw [abs_mul, abs_of_nonneg (by linarith : (0 : ℝ) ≤ 1 - t)]
        linarith
    _ ≤ (1 - t) * |f| + t * |f| := by nlinarith [mul_nonneg ht (abs_nonneg f)]
    _ ≤ |f| := by linarith

theorem res_lipschitz {x y : ℝ} (h : x ^ 2 + y ^ 2 ≤ (2 / 5) ^ 2) (l a b : ℝ) : |keplerRes x y l a - keplerRes x y l b| ≤ 9 / 5 * |a - b| := by
  have hx : |x| ≤ 2 / 5 := abs_le_of_sq_le_sq (by nlinarith [sq_nonneg y]) (by norm_num)
  have hy : |y| ≤ 2 / 5 := abs_le_of_sq_le_sq (by nlinarith [sq_nonneg x]) (by norm_num)
  have h1 := Real.abs_sin_sub_sin_le a b
  have h2 := Real.abs_cos_sub_cos_le a b
  have e : keplerRes x y l a - keplerRes x y l b = -(a - b) + x * (Real.sin a - Real.sin b) + -(y * (Real.cos a - Real.cos b)) := by
    unfold keplerRes; ring
  rw [e]
  refine (abs_add_three _ _ _).trans ?_
  rw [abs_neg, abs_neg, abs_mul, abs_mul]
  have p1 := mul_le_mul hx h1 (abs_nonneg _) (by norm_num)
  have p2 := mul_le_mul hy h2 (abs_nonneg _) (by norm_num)
  linarith

/-- The parts of one correction. -/
theorem stepD_parts (F : Fl64) (M : Libm) {x y l E : ℚ} (h : (x : ℝ) ^ 2 + (y : ℝ) ^ 2 ≤ (2 / 5) ^ 2) (hr : |keplerRes x y l E| ≤ 2 / 5) :
    |(keplerResD F M x y l E : ℝ) - keplerRes x y l E| ≤ 12 / 10 ^ 16 ∧
    |(F.rnd (1 - ecosED F M x y E) : ℝ) - (1 - ec x y E)| ≤ 1 / 10 ^ 15 ∧
    |(F.rnd (keplerResD F M x y l E / F.rnd (1 - ecosED F M x y E)) : ℝ) - keplerRes x y l E / (1 - ec x y E)| ≤ 4 / 10 ^ 15 ∧
    3 / 5 ≤ 1 - ec x y E ∧ |keplerRes x y l E / (1 - ec x y E)| ≤ 2 / 3 ∧ |(l : ℝ) - E| ≤ 4 / 5 := by
  have h1 : (x : ℝ) ^ 2 + (y : ℝ) ^ 2 ≤ 1 ^ 2 := h.trans (by norm_num)
  have hs := abs_es (by norm_num) h (E : ℝ)
  have hc := abs_ec (by norm_num) h (E : ℝ)
  have hl : |(l : ℝ) - E| ≤ 4 / 5 := by
    rw [res_eq] at hr
    rw [abs_le] at *
    constructor <;> linarith [hr.1, hr.2, hs.1, hs.2]
  have hp : 3 / 5 ≤ 1 - ec x y E := by linarith [(abs_le.1 hc).2]
  have hp2 : |1 - ec x y E| ≤ 7 / 5 := by rw [abs_le] at *; constructor <;> linarith [hc.1, hc.2]
  have hq : |keplerRes x y l E / (1 - ec x y E)| ≤ 2 / 3 := by
    rw [abs_div, abs_of_pos (by linarith : 0 < 1 - ec x y E), div_le_iff₀ (by linarith)]; linarith
  have a1 := resD_near F M h1 hl (hr.trans (by norm_num)) (by norm_num)
  have a2 : |(F.rnd (1 - ecosED F M x y E) : ℝ) - (1 - ec x y E)| ≤ 1 / 10 ^ 15 := by
    refine rnd_real F (e := 8 / 10 ^ 16) (A := 7 / 5) ?_ hp2 (by norm_num)
    have := ecosE_near F M h1 E
    push_cast
    rw [show (1 - (ecosED F M x y E : ℝ) - (1 - ec x y E)) = -(ecosED F M x y E - ec x y E) by ring, abs_neg]
    exact this
  refine ⟨a1, a2, ?_, hp, hq, hl⟩
  refine rnd_real F (e := 35 / 10 ^ 16) (A := 2 / 3) ?_ hq (by norm_num)
  push_cast
  exact quot_real a1 a2 (m := 59 / 100) (by linarith) (by norm_num) hq (by norm_num)

/-- The second-order correction. -/
theorem stepD_full (F : Fl64) (M : Libm) {x y l E : ℚ} (h : (x : ℝ) ^ 2 + (y : ℝ) ^ 2 ≤ (2 / 5) ^ 2) (hl : |(l : ℝ)| ≤ 32 / 10)
    (hr : |keplerRes x y l E| ≤ 2 / 5) :
    let f := keplerResD F M x y l E
    let fdot := F.rnd (1 - ecosED F M x y E)
    let den := F.rnd (fdot + F.rnd (F.rnd (1 / 2 * esinED F M x y E) * F.rnd (f / fdot)))
    den ≠ 0 ∧ |keplerRes x y l (F.rnd (E + F.rnd (f / den)) : ℚ)| ≤ 17 / 10 * |keplerRes x y l E| ^ 3 + 2 / 10 ^ 14 := by
  obtain ⟨a1, a2, a3, hp, hq, hd⟩ := stepD_parts F M h hr
  have hfull := full_step h (l := l) (E := E) hr
  have h1 : (x : ℝ) ^ 2 + (y : ℝ) ^ 2 ≤ 1 ^ 2 := h.trans (by norm_num)
  have hs := abs_es (by norm_num) h (E : ℝ)
  have hc := abs_ec (by norm_num) h (E : ℝ)
  have hes := esinE_near F M h1 E
  have hlip := res_lipschitz h (l : ℝ)
  intro f fdot den
  have hE : |(E : ℝ)| ≤ 4 := by rw [abs_le] at *; constructor <;> linarith [hl.1, hl.2, hd.1, hd.2]
  have b1 : |(F.rnd (1 / 2 * esinED F M x y E) : ℝ) - 1 / 2 * es x y E| ≤ 5 / 10 ^ 16 := by
    refine rnd_real F (e := 4 / 10 ^ 16) (A := 1 / 5) ?_ ?_ (by norm_num)
    · push_cast
      rw [← mul_sub, abs_mul, abs_of_pos (by norm_num : (0 : ℝ) < 1 / 2)]
      linarith
    · rw [abs_mul, abs_of_pos (by norm_num : (0 : ℝ) < 1 / 2)]
      linarith
  have c1 : |1 / 2 * es x y E| ≤ 1 / 5 := by
    rw [abs_mul, abs_of_pos (by norm_num : (0 : ℝ) < 1 / 2)]
    linarith
  have c2 : |1 / 2 * es x y E * (keplerRes x y l E / (1 - ec x y E))| ≤ 2 / 15 := by
    rw [abs_mul]
    have := mul_le_mul c1 hq (abs_nonneg _) (by norm_num)
    linarith
  have b2 : |(F.rnd (F.rnd (1 / 2 * esinED F M x y E) * F.rnd (f / fdot)) : ℝ) - 1 / 2 * es x y E * (keplerRes x y l E / (1 - ec x y E))| ≤ 13 / 10 ^ 16 := by
    refine rnd_real F (e := 12 / 10 ^ 16) (A := 2 / 15) ?_ c2 (by norm_num)
    have := mul_real b1 a3 c1 hq
    push_cast
    refine this.trans (by norm_num)
  have b3 : |(den : ℝ) - (1 - ec x y E + 1 / 2 * es x y E * (keplerRes x y l E / (1 - ec x y E)))| ≤ 25 / 10 ^ 16 := by
    refine rnd_real F (e := 23 / 10 ^ 16) (A := 8 / 5) ?_ ?_ (by norm_num)
    · push_cast
      rw [abs_le] at *
      constructor <;> linarith [a2.1, a2.2, b2.1, b2.2]
    · rw [abs_le] at *
      constructor <;> linarith [hc.1, hc.2, c2.1, c2.2]
  have hD : 7 / 15 ≤ 1 - ec x y E + 1 / 2 * es x y E * (keplerRes x y l E / (1 - ec x y E)) := by
    linarith [(abs_le.1 c2).1]
  generalize 1 - ec x y E + 1 / 2 * es x y E * (keplerRes x y l E / (1 - ec x y E)) = D at *
  have hden : den ≠ 0 := by
    intro h0
    rw [h0] at b3
    have := (abs_le.1 b3).1
    push_cast at this
    linarith
  refine ⟨hden, ?_⟩
  have hQ : |keplerRes x y l E / D| ≤ 6 / 7 := by
    rw [abs_div, abs_of_pos (by linarith : 0 < D), div_le_iff₀ (by linarith)]; linarith
  have b4 : |(F.rnd (f / den) : ℝ) - keplerRes x y l E / D| ≤ 8 / 10 ^ 15 := by
    refine rnd_real F (e := 75 / 10 ^ 16) (A := 6 / 7) ?_ hQ (by norm_num)
    push_cast
    exact quot_real a1 b3 (m := 46 / 100) (by linarith) (by norm_num) hQ (by norm_num)
  have b5 : |(F.rnd (E + F.rnd (f / den)) : ℝ) - (E + keplerRes x y l E / D)| ≤ 9 / 10 ^ 15 := by
    refine rnd_real F (e := 8 / 10 ^ 15) (A := 5) ?_ ?_ (by norm_num)
    · push_cast
      rw [show (E : ℝ) + F.rnd (f / den) - (E + keplerRes x y l E / D) = F.rnd (f / den) - keplerRes x y l E / D by ring]
      exact b4
    · have := abs_add_le (E : ℝ) (keplerRes x y l E / D)
      linarith
  have b6 := hlip (F.rnd (E + F.rnd (f / den))) (E + keplerRes x y l E / D)
  have b7 := abs_sub_abs_le_abs_sub (keplerRes x y l (F.rnd (E + F.rnd (f / den)) : ℚ)) (keplerRes x y l (E + keplerRes x y l E / D))
  linarith

/-- The first correction, when it is limited. -/
theorem stepD_short (F : Fl64) {x y l E d m : ℚ} (h : (x : ℝ) ^ 2 + (y : ℝ) ^ 2 ≤ (2 / 5) ^ 2) (hE : |(E : ℝ)| ≤ 4)
    (hr : |keplerRes x y l E| ≤ 2 / 5) (hd : |(d : ℝ) - keplerRes x y l E / (1 - ec x y E)| ≤ 4 / 10 ^ 15)
    (hq : |keplerRes x y l E / (1 - ec x y E)| ≤ 2 / 3) (hm : 0 ≤ m ∧ m ≤ d ∨ d ≤ m ∧ m ≤ 0) :
    |keplerRes x y l (F.rnd (E + m) : ℚ)| ≤ |keplerRes x y l E| + 2 / 10 ^ 14 := by
  have hlip := res_lipschitz h (l : ℝ)
  have hstep : ∀ t : ℝ, 0 ≤ t → t ≤ 1 → |keplerRes x y l (E + t * (keplerRes x y l E / (1 - ec x y E)))| ≤ |keplerRes x y l E| :=
    fun t h0 h1 => short_step_le h hr h0 h1
  generalize keplerRes x y l E / (1 - ec x y E) = q at *
  obtain ⟨t, t0, t1, ht⟩ : ∃ t : ℝ, 0 ≤ t ∧ t ≤ 1 ∧ |(m : ℝ) - t * q| ≤ 4 / 10 ^ 15 := by
    obtain ⟨d0, d1⟩ := abs_le.1 hd
    rcases hm with ⟨m0, md⟩ | ⟨md, m0⟩
    · have m0' : (0 : ℝ) ≤ m := by exact_mod_cast m0
      have md' : (m : ℝ) ≤ d := by exact_mod_cast md
      by_cases hmq : (m : ℝ) < q
      · have hq0 : 0 < q := by linarith
        exact ⟨m / q, by positivity, by rw [div_le_one hq0]; exact hmq.le, by rw [div_mul_cancel₀ _ hq0.ne']; norm_num⟩
      · by_cases hq0 : 0 ≤ q
        · exact ⟨1, by norm_num, le_rfl, by rw [one_mul, abs_le]; constructor <;> linarith⟩
        · exact ⟨0, le_rfl, by norm_num, by rw [zero_mul, abs_le]; constructor <;> linarith⟩
    · have m0' : (m : ℝ) ≤ 0 := by exact_mod_cast m0
      have md' : (d : ℝ) ≤ m := by exact_mod_cast md
      by_cases hmq : q < (m : ℝ)
      · have hq0 : q < 0 := by linarith
        exact ⟨m / q, div_nonneg_of_nonpos m0' hq0.le, by rw [div_le_one_of_neg hq0]; exact hmq.le, by rw [div_mul_cancel₀ _ hq0.ne]; norm_num⟩
      · by_cases hq0 : q ≤ 0
        · exact ⟨1, by norm_num, le_rfl, by rw [one_mul, abs_le]; constructor <;> linarith⟩
        · exact ⟨0, le_rfl, by norm_num, by rw [zero_mul, abs_le]; constructor <;> linarith⟩
  have htq : |t * q| ≤ 2 / 3 := by
    rw [abs_mul, abs_of_nonneg t0]
    have := mul_le_mul t1 hq (abs_nonneg _) (by norm_num)
    linarith
  have b5 : |(F.rnd (E + m) : ℝ) - (E + t * q)| ≤ 5 / 10 ^ 15 := by
    refine rnd_real F (e := 4 / 10 ^ 15) (A := 5) ?_ ?_ (by norm_num)
    · push_cast
      rw [show (E : ℝ) + m - (E + t * q) = m - t * q by ring]
      exact ht
    · have := abs_add_le (E : ℝ) (t * q)
      linarith
  have b6 := hlip (F.rnd (E + m)) (E + t * q)
  have b7 := abs_sub_abs_le_abs_sub (keplerRes x y l (F.rnd (E + m) : ℚ)) (keplerRes x y l (E + t * q))
  have := hstep t t0 t1
  linarith

theorem keplerLoopD_small (F : Fl64) (M : Libm) {x y l c E : ℚ} (h : (x : ℝ) ^ 2 + (y : ℝ) ^ 2 ≤ (2 / 5) ^ 2) {n : ℕ} {b : Bool}
    (hE : |keplerRes x y l E| ≤ 9 / 10 ^ 13) : ∃ R, keplerLoopD F M x y l c (n + 1) b E = some R := by
  have h1 := (stepD_parts F M h (hE.trans (by norm_num))).1
  have ht := (abs_le.1 (tol_near F)).1
  have h2 := abs_sub_abs_le_abs_sub (keplerResD F M x y l E : ℝ) (keplerRes x y l E)
  have h3 : |(keplerResD F M x y l E : ℝ)| < (F.rnd (1 / 10 ^ 12) : ℝ) := by linarith
  have h4 : |keplerResD F M x y l E| < F.rnd (1 / 10 ^ 12) := by exact_mod_cast h3
  unfold keplerLoopD
  rw [if_pos h4]
  exact ⟨E, rfl⟩

theorem keplerLoopD_cubic (F : Fl64) (M : Libm) {x y l c E : ℚ} (h : (x : ℝ) ^ 2 + (y : ℝ) ^ 2 ≤ (2 / 5) ^ 2) (hl : |(l : ℝ)| ≤ 32 / 10) {n : ℕ} {b : ℝ}
    (hb : b ≤ 2 / 5) (hE : |keplerRes x y l E| ≤ b)
    (hn : ∀ E' : ℚ, |keplerRes x y l E'| ≤ 17 / 10 * b ^ 3 + 2 / 10 ^ 14 → ∃ R, keplerLoopD F M x y l c n false E' = some R) :
    ∃ R, keplerLoopD F M x y l c (n + 1) false E = some R := by
  have hr := hE.trans hb
  unfold keplerLoopD
  by_cases hc : |keplerResD F M x y l E| < F.rnd (1 / 10 ^ 12)
  · rw [if_pos hc]; exact ⟨E, rfl⟩
  · rw [if_neg hc]
    obtain ⟨_, a2, _, hp, _, _⟩ := stepD_parts F M h hr
    obtain ⟨g1, g2⟩ := stepD_full F M h hl hr
    have hf : F.rnd (1 - ecosED F M x y E) ≠ 0 := by
      intro h0
      rw [h0] at a2
      have := (abs_le.1 a2).1
      push_cast at this
      linarith
    unfold keplerStepD
    dsimp only
    rw [if_neg hf]
    simp only [Bool.false_eq_true, false_and, if_false]
    rw [if_neg g1]
    change ∃ R, keplerLoopD F M x y l c n false _ = some R
    apply hn
    refine g2.trans ?_
    have := abs_nonneg (keplerRes x y l E)
    gcongr

theorem keplerLoopD_five (F : Fl64) (M : Libm) {x y l c E : ℚ} (h : (x : ℝ) ^ 2 + (y : ℝ) ^ 2 ≤ (2 / 5) ^ 2) (hl : |(l : ℝ)| ≤ 32 / 10) (n : ℕ)
    (hE : |keplerRes x y l E| ≤ 2 / 5) : ∃ R, keplerLoopD F M x y l c (n + 5) false E = some R := by
  refine keplerLoopD_cubic F M h hl le_rfl hE fun E1 h1 => ?_
  have g1 : |keplerRes x y l E1| ≤ 11 / 100 := le_trans h1 (by norm_num)
  refine keplerLoopD_cubic F M h hl (by norm_num) g1 fun E2 h2 => ?_
  have g2 : |keplerRes x y l E2| ≤ 23 / 10000 := le_trans h2 (by norm_num)
  refine keplerLoopD_cubic F M h hl (by norm_num) g2 fun E3 h3 => ?_
  have g3 : |keplerRes x y l E3| ≤ 3 / 10 ^ 8 := le_trans h3 (by norm_num)
  refine keplerLoopD_cubic F M h hl (by norm_num) g3 fun E4 h4 => ?_
  exact keplerLoopD_small F M h (le_trans h4 (by norm_num))

/-- **C204**: for eccentricities up to 0.39 the loop in `double` accepts a solution of Kepler's equation, whatever the mean longitude and the
limit of the first step; six of the ten passes are enough, so the convergence code is never returned. -/
theorem C204_converges (F : Fl64) (M : Libm) (x y w c : ℚ) (h : (x : ℝ) ^ 2 + (y : ℝ) ^ 2 ≤ (39 / 100) ^ 2) :
    (∃ E, keplerD F M x y w c = some E) ∧ ∃ E, keplerLoopD F M x y (centralizeD F w) c 6 true (centralizeD F w) = some E := by
  have hb := centralizeD_bound F w
  unfold keplerD
  generalize centralizeD F w = l at *
  have hl : |(l : ℝ)| ≤ 32 / 10 := by
    have := abs_real hb
    have h2 : (piD : ℝ) ≤ 32 / 10 := by unfold piD; norm_num
    linarith
  have h' : (x : ℝ) ^ 2 + (y : ℝ) ^ 2 ≤ (2 / 5) ^ 2 := h.trans (by norm_num)
  have hf : |keplerRes x y l l| ≤ 39 / 100 := by
    rw [res_eq, sub_self, zero_add]
    exact abs_es (by norm_num) h l
  have hf' : |keplerRes x y l l| ≤ 2 / 5 := hf.trans (by norm_num)
  have key : ∀ n, ∃ E, keplerLoopD F M x y l c (n + 6) true l = some E := by
    intro n
    rw [show n + 6 = (n + 5) + 1 by ring]
    unfold keplerLoopD
    by_cases hc : |keplerResD F M x y l l| < F.rnd (1 / 10 ^ 12)
    · rw [if_pos hc]; exact ⟨l, rfl⟩
    rw [if_neg hc]
    obtain ⟨_, a2, a3, hp, hq, _⟩ := stepD_parts F M h' hf'
    obtain ⟨g1, g2⟩ := stepD_full F M h' hl hf'
    have hfd : F.rnd (1 - ecosED F M x y l) ≠ 0 := by
      intro h0
      rw [h0] at a2
      have := (abs_le.1 a2).1
      push_cast at this
      linarith
    have hm : 0 ≤ F.rnd (5 / 4 * |c|) := F.nonneg (by positivity)
    have hl4 : |(l : ℝ)| ≤ 4 := hl.trans (by norm_num)
    unfold keplerStepD
    dsimp only
    rw [if_neg hfd]
    by_cases h1 : (true = true ∧ F.rnd (keplerResD F M x y l l / F.rnd (1 - ecosED F M x y l)) > F.rnd (5 / 4 * |c|))
    · rw [if_pos h1]
      change ∃ E, keplerLoopD F M x y l c (n + 5) false _ = some E
      apply keplerLoopD_five F M h' hl
      have := stepD_short F h' hl4 hf' a3 hq (Or.inl ⟨hm, h1.2.le⟩)
      linarith
    rw [if_neg h1]
    by_cases h2 : (true = true ∧ F.rnd (keplerResD F M x y l l / F.rnd (1 - ecosED F M x y l)) < -F.rnd (5 / 4 * |c|))
    · rw [if_pos h2]
      change ∃ E, keplerLoopD F M x y l c (n + 5) false _ = some E
      apply keplerLoopD_five F M h' hl
      have := stepD_short F h' hl4 hf' a3 hq (Or.inr ⟨h2.2.le, by linarith⟩)
      linarith
    rw [if_neg h2, if_neg g1]
    change ∃ E, keplerLoopD F M x y l c (n + 5) false _ = some E
    apply keplerLoopD_five F M h' hl
    refine g2.trans ?_
    have h0 := abs_nonneg (keplerRes x y l l)
    have : 17 / 10 * |keplerRes x y l l| ^ 3 ≤ 17 / 10 * (39 / 100) ^ 3 := by gcongr
    linarith
  exact ⟨key 4, key 0⟩

/-- **C204**: so for eccentricities up to 0.39 the eccentric longitude of the program is the solution of Kepler's equation to
`1.7 * 10 ^ -12`. -/
theorem C204_solved (F : Fl64) (M : Libm) (x y w c : ℚ) (h : (x : ℝ) ^ 2 + (y : ℝ) ^ 2 ≤ (39 / 100) ^ 2) :
    ∃ (E : ℚ) (R : ℝ), keplerD F M x y w c = some E ∧ KeplerEq x y (centralizeD F w) R ∧ |(E : ℝ) - R| ≤ 17 / 10 ^ 13 := by
  obtain ⟨E, hE⟩ := (C204_converges F M x y w c h).1
  obtain ⟨R, h1, _, h2⟩ := C203_root F M hE (by linarith)
  refine ⟨E, R, hE, h1, h2.trans ?_⟩
  have hs : √((x : ℝ) ^ 2 + (y : ℝ) ^ 2) ≤ 39 / 100 := by
    rw [show (39 / 100 : ℝ) = √((39 / 100) ^ 2) by rw [Real.sqrt_sq (by norm_num)]]
    exact Real.sqrt_le_sqrt h
  rw [div_le_iff₀ (by linarith)]
  linarith

/-- One and a half turns become a half turn, with the sign of `fmod`'s result. -/
example : centralizeD Fl64.ieee (3 * piD) = piD ∧ centralizeD Fl64.ieee 4 = 4 - twopiD ∧ centralizeD Fl64.ieee (-4) = twopiD - 4 := by decide +kernel

/-- The hypotheses hold for orbits that are not circular; the largest eccentricity vector that is not refused is short of one. -/
example : ((1 / 4 : ℚ) : ℝ) ^ 2 + ((-1 / 8 : ℚ) : ℝ) ^ 2 ≤ (39 / 100) ^ 2 := by norm_num
example : ellipticD Fl64.ieee (9 / 10) (2 / 5) = true ∧ ellipticD Fl64.ieee (9 / 10) (1 / 2) = false := by decide +kernel

/-- The loop corrects: the mean longitude itself is not accepted. -/
example (F : Fl64) (M : Libm) : ¬ |keplerResD F M (1 / 4) 0 1 1| < F.rnd (1 / 10 ^ 12) := by
  intro ha
  have h := accept_res F M (by norm_num) ha
  have hs := Real.sin_gt_sub_cube (x := 1) (by norm_num)
  unfold keplerRes at h
  push_cast at h
  have := (abs_le.1 h).2
  linarith

end SatSky.Props
