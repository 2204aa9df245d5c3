import Verif.Lemmas.FloatLemmas
import Verif.Model.SiderealDouble
import Verif.Props.Greenwich

/-! C178: sidereal time in `double` arithmetic. -/

namespace SatSky.Props

open SatSky.Spec SatSky.Geo

theorem prod_err {x X y Y e f A B : ℚ} (hx : |x - X| ≤ e) (hy : |y - Y| ≤ f) (hX : |X| ≤ A) (hY : |Y| ≤ B) : |x * y - X * Y| ≤ e * B + A * f + e * f := by
  rw [show x * y - X * Y = (x - X) * Y + X * (y - Y) + (x - X) * (y - Y) by ring]
  have h1 : |(x - X) * Y| ≤ e * B := by rw [abs_mul]; exact mul_le_mul hx hY (abs_nonneg _) ((abs_nonneg _).trans hx)
  have h2 : |X * (y - Y)| ≤ A * f := by rw [abs_mul]; exact mul_le_mul hX hy (abs_nonneg _) ((abs_nonneg _).trans hX)
  have h3 : |(x - X) * (y - Y)| ≤ e * f := by rw [abs_mul]; exact mul_le_mul hx hy (abs_nonneg _) ((abs_nonneg _).trans hx)
  have h4 := abs_add_le ((x - X) * Y + X * (y - Y)) ((x - X) * (y - Y))
  have h5 := abs_add_le ((x - X) * Y) (X * (y - Y))
  linarith

theorem rnd_err (F : Fl64) {z Z e A E : ℚ} (h : |z - Z| ≤ e) (hZ : |Z| ≤ A) (hE : e + (A + e) / 2 ^ 53 + 1 / 2 ^ 200 ≤ E) : |F.rnd z - Z| ≤ E := by
  have h1 := F.err z
  have h2 := abs_sub_abs_le_abs_sub z Z
  have h3 := abs_sub_le (F.rnd z) z Z
  have h4 : |z| / 2 ^ 53 ≤ (A + e) / 2 ^ 53 := div_le_div_of_nonneg_right (by linarith) (by positivity)
  linarith

theorem rnd_const (F : Fl64) {Z A E : ℚ} (hZ : |Z| ≤ A) (hE : A / 2 ^ 53 + 1 / 2 ^ 200 ≤ E) : |F.rnd Z - Z| ≤ E :=
  rnd_err F (e := 0) (by simp) hZ (by simpa using hE)

theorem add_err {x X y Y e f : ℚ} (hx : |x - X| ≤ e) (hy : |y - Y| ≤ f) : |x + y - (X + Y)| ≤ e + f := by
  rw [show x + y - (X + Y) = (x - X) + (y - Y) by ring]
  exact (abs_add_le _ _).trans (add_le_add hx hy)

theorem sub_err {x X y Y e f : ℚ} (hx : |x - X| ≤ e) (hy : |y - Y| ≤ f) : |x - y - (X - Y)| ≤ e + f := by
  rw [show x - y - (X - Y) = (x - X) - (y - Y) by ring]
  exact (abs_sub _ _).trans (add_le_add hx hy)

theorem abs_real {x E : ℚ} (h : |x| ≤ E) : |(x : ℝ)| ≤ (E : ℝ) := by exact_mod_cast h

/-- The polynomial for 0h UT, in days. -/
def gmstQ (t : ℚ) : ℚ := (2411054841 / 10 ^ 5 + t * (8640184812866 / 10 ^ 6 + t * (93104 / 10 ^ 6 - t * (62 / 10 ^ 7)))) / 86400

/-- The polynomial in seconds. -/
theorem gmst_poly_near (F : Fl64) {t T : ℚ} (hT : |T| ≤ 20001 / 10 ^ 4) (ht : |t - T| ≤ 21 / 10 / 2 ^ 53) :
    |F.rnd (F.rnd (2411054841 / 10 ^ 5) + F.rnd (t * F.rnd (F.rnd (8640184812866 / 10 ^ 6) +
        F.rnd (t * F.rnd (F.rnd (93104 / 10 ^ 6) - F.rnd (t * F.rnd (62 / 10 ^ 7)))))))
      - (2411054841 / 10 ^ 5 + T * (8640184812866 / 10 ^ 6 + T * (93104 / 10 ^ 6 - T * (62 / 10 ^ 7))))| ≤ 11 / 10 ^ 9 ∧
      |2411054841 / 10 ^ 5 + T * (8640184812866 / 10 ^ 6 + T * (93104 / 10 ^ 6 - T * (62 / 10 ^ 7)))| ≤ 17305348 := by
  have c0 := rnd_const F (Z := 2411054841 / 10 ^ 5) (A := 24111) (E := 1 / 10 ^ 11) (by norm_num [abs_le]) (by norm_num)
  have c1 := rnd_const F (Z := 8640184812866 / 10 ^ 6) (A := 8640185) (E := 97 / 10 ^ 11) (by norm_num [abs_le]) (by norm_num)
  have c2 := rnd_const F (Z := 93104 / 10 ^ 6) (A := 1 / 10) (E := 1 / 10 ^ 16) (by norm_num [abs_le]) (by norm_num)
  have c3 := rnd_const F (Z := 62 / 10 ^ 7) (A := 1 / 10 ^ 5) (E := 1 / 10 ^ 20) (by norm_num [abs_le]) (by norm_num)
  have a3 : |(62 / 10 ^ 7 : ℚ)| ≤ 1 / 10 ^ 5 := by norm_num [abs_le]
  obtain ⟨T1, T2⟩ := abs_le.1 hT
  have b1 : |T * (62 / 10 ^ 7)| ≤ 3 / 10 ^ 5 := by rw [abs_le]; constructor <;> linarith
  have k1 := rnd_err F (prod_err ht c3 hT a3) b1 (E := 1 / 10 ^ 19) (by norm_num)
  have b2 : |93104 / 10 ^ 6 - T * (62 / 10 ^ 7)| ≤ 94 / 10 ^ 3 := by
    rw [abs_le] at b1 ⊢; constructor <;> linarith [b1.1, b1.2]
  have k2 := rnd_err F (sub_err c2 k1) b2 (E := 2 / 10 ^ 16) (by norm_num)
  generalize hP : (93104 / 10 ^ 6 - T * (62 / 10 ^ 7) : ℚ) = P at *
  have b3 : |T * P| ≤ 1 / 5 := by
    rw [abs_mul]
    have := mul_le_mul hT b2 (abs_nonneg _) (by norm_num)
    linarith
  have k3 := rnd_err F (prod_err ht k2 hT b2) b3 (E := 1 / 10 ^ 15) (by norm_num)
  have b4 : |8640184812866 / 10 ^ 6 + T * P| ≤ 8640186 := by
    rw [abs_le] at b3 ⊢; constructor <;> linarith [b3.1, b3.2]
  have k4 := rnd_err F (add_err c1 k3) b4 (E := 2 / 10 ^ 9) (by norm_num)
  generalize hQ : (8640184812866 / 10 ^ 6 + T * P : ℚ) = Q at *
  have b5 : |T * Q| ≤ 17281237 := by
    rw [abs_mul]
    have := mul_le_mul hT b4 (abs_nonneg _) (by norm_num)
    linarith
  have k5 := rnd_err F (prod_err ht k4 hT b4) b5 (E := 85 / 10 ^ 10) (by norm_num)
  have b6 : |2411054841 / 10 ^ 5 + T * Q| ≤ 17305348 := by
    rw [abs_le] at b5 ⊢; constructor <;> linarith [b5.1, b5.2]
  have k6 := rnd_err F (add_err c0 k5) b6 (E := 11 / 10 ^ 9) (by norm_num)
  exact ⟨k6, b6⟩

theorem gmst0D_near (F : Fl64) {D : ℚ} (hD : |D - 2451545| ≤ 73051) (hx : F.rnd (D - 2451545) = D - 2451545) :
    |gmst0D F D - gmstQ ((D - 2451545) / 36525)| ≤ 18 / 10 ^ 14 := by
  unfold gmst0D gmstQ
  dsimp only
  rw [hx]
  generalize D - 2451545 = d at *
  have hT : |d / 36525| ≤ 20001 / 10 ^ 4 := by
    rw [abs_div, abs_of_pos (by norm_num : (0 : ℚ) < 36525), div_le_iff₀ (by norm_num)]
    linarith
  have ht := rnd_const F hT (E := 21 / 10 / 2 ^ 53) (by norm_num)
  generalize F.rnd (d / 36525) = t at *
  generalize d / 36525 = T at *
  obtain ⟨k6, b6⟩ := gmst_poly_near F hT ht
  generalize (2411054841 / 10 ^ 5 + T * (8640184812866 / 10 ^ 6 + T * (93104 / 10 ^ 6 - T * (62 / 10 ^ 7))) : ℚ) = R at *
  generalize F.rnd (F.rnd (2411054841 / 10 ^ 5) + F.rnd (t * F.rnd (F.rnd (8640184812866 / 10 ^ 6) +
    F.rnd (t * F.rnd (F.rnd (93104 / 10 ^ 6) - F.rnd (t * F.rnd (62 / 10 ^ 7))))))) = r at *
  refine rnd_err F (e := 128 / 10 ^ 15) (A := 201) ?_ ?_ (by norm_num)
  · rw [← sub_div, abs_div, abs_of_pos (by norm_num : (0 : ℚ) < 86400), div_le_iff₀ (by norm_num)]
    linarith
  · rw [abs_div, abs_of_pos (by norm_num : (0 : ℚ) < 86400), div_le_iff₀ (by norm_num)]
    linarith

/-! ### The split of the date is exact -/

theorem trunc_cast (x : ℚ) : trunc (x : ℝ) = truncQ x := by
  unfold trunc truncQ
  have h : (0 : ℝ) ≤ (x : ℝ) ↔ 0 ≤ x := by exact_mod_cast Iff.rfl
  by_cases h0 : 0 ≤ x
  · rw [if_pos h0, if_pos (h.2 h0), Rat.floor_cast]
  · rw [if_neg h0, if_neg (fun hc => h0 (h.1 hc)), Rat.ceil_cast]

/-- The split of a date that is a `double`. -/
theorem splitDayD_exact (F : Fl64) {J jd : ℚ} (hJ : jd = F.rnd J) (h0 : 2 ≤ jd) (h1 : jd ≤ 10 ^ 9) :
    (splitDay jd).1 = ((splitDayD F jd).1 : ℝ) ∧ (splitDay jd).2 = ((splitDayD F jd).2 : ℝ) ∧
      0 ≤ (splitDayD F jd).2 ∧ (splitDayD F jd).2 < 1 ∧ (splitDayD F jd).1 + (splitDayD F jd).2 = jd ∧
      F.rnd ((splitDayD F jd).1 - 2451545) = (splitDayD F jd).1 - 2451545 := by
  obtain ⟨k, hk⟩ := F.grid J 0 (by rw [← hJ, abs_of_nonneg (by linarith)]; norm_num; linarith)
  rw [← hJ] at hk
  have hfl : truncQ jd = ⌊jd⌋ := if_pos (by linarith)
  have a := Int.floor_le jd
  have b := Int.lt_floor_add_one jd
  have hN0 : 2 ≤ ⌊jd⌋ := by rw [Int.le_floor]; exact_mod_cast h0
  have hN1 : ⌊jd⌋ ≤ 10 ^ 9 := by
    have : (⌊jd⌋ : ℚ) ≤ 10 ^ 9 := a.trans h1
    exact_mod_cast this
  have hfr : ∃ q : ℤ, jd - ⌊jd⌋ = q / 2 ^ 52 ∧ 0 ≤ q ∧ q < 2 ^ 52 := by
    refine ⟨k - ⌊jd⌋ * 2 ^ 52, ?_, ?_, ?_⟩
    · have e : (k : ℚ) = jd * 2 ^ 52 := by rw [hk]; ring
      push_cast
      rw [e]
      ring
    · have : (0 : ℚ) ≤ ((k - ⌊jd⌋ * 2 ^ 52 : ℤ) : ℚ) := by
        have e : (k : ℚ) = jd * 2 ^ 52 := by rw [hk]; ring
        push_cast
        rw [e]
        nlinarith
      exact_mod_cast this
    · have : ((k - ⌊jd⌋ * 2 ^ 52 : ℤ) : ℚ) < 2 ^ 52 := by
        have e : (k : ℚ) = jd * 2 ^ 52 := by rw [hk]; ring
        push_cast
        rw [e]
        nlinarith
      exact_mod_cast this
  obtain ⟨q, hq, q0, q1⟩ := hfr
  have r1 : F.rnd (jd - ⌊jd⌋) = jd - ⌊jd⌋ := by
    rw [hq]; exact F.exact q 52 (by rw [abs_le]; constructor <;> linarith) (by norm_num)
  have r2 : F.rnd (jd - ⌊jd⌋ + 1 / 2) = jd - ⌊jd⌋ + 1 / 2 := by
    have := F.exact (q + 2 ^ 51) 52 (by rw [abs_le]; constructor <;> linarith) (by norm_num)
    have e : jd - ⌊jd⌋ + 1 / 2 = ((q + 2 ^ 51 : ℤ) : ℚ) / 2 ^ 52 := by rw [hq]; push_cast; ring
    rw [e, this]
  have r3 : F.rnd (jd - ⌊jd⌋ - 1 / 2) = jd - ⌊jd⌋ - 1 / 2 := by
    have := F.exact (q - 2 ^ 51) 52 (by rw [abs_le]; constructor <;> linarith) (by norm_num)
    have e : jd - ⌊jd⌋ - 1 / 2 = ((q - 2 ^ 51 : ℤ) : ℚ) / 2 ^ 52 := by rw [hq]; push_cast; ring
    rw [e, this]
  have r4 : F.rnd ((⌊jd⌋ : ℚ) - 1 / 2) = ⌊jd⌋ - 1 / 2 := by
    have := F.half (2 * ⌊jd⌋ - 1) (by rw [abs_le]; constructor <;> linarith)
    have e : (⌊jd⌋ : ℚ) - 1 / 2 = ((2 * ⌊jd⌋ - 1 : ℤ) : ℚ) / 2 := by push_cast; ring
    rw [e, this]
  have r5 : F.rnd ((⌊jd⌋ : ℚ) + 1 / 2) = ⌊jd⌋ + 1 / 2 := by
    have := F.half (2 * ⌊jd⌋ + 1) (by rw [abs_le]; constructor <;> linarith)
    have e : (⌊jd⌋ : ℚ) + 1 / 2 = ((2 * ⌊jd⌋ + 1 : ℤ) : ℚ) / 2 := by push_cast; ring
    rw [e, this]
  have r6 : F.rnd ((⌊jd⌋ : ℚ) - 1 / 2 - 2451545) = ⌊jd⌋ - 1 / 2 - 2451545 := by
    have := F.half (2 * ⌊jd⌋ - 1 - 4903090) (by rw [abs_le]; constructor <;> linarith)
    have e : (⌊jd⌋ : ℚ) - 1 / 2 - 2451545 = ((2 * ⌊jd⌋ - 1 - 4903090 : ℤ) : ℚ) / 2 := by push_cast; ring
    rw [e, this]
  have r7 : F.rnd ((⌊jd⌋ : ℚ) + 1 / 2 - 2451545) = ⌊jd⌋ + 1 / 2 - 2451545 := by
    have := F.half (2 * ⌊jd⌋ + 1 - 4903090) (by rw [abs_le]; constructor <;> linarith)
    have e : (⌊jd⌋ : ℚ) + 1 / 2 - 2451545 = ((2 * ⌊jd⌋ + 1 - 4903090 : ℤ) : ℚ) / 2 := by push_cast; ring
    rw [e, this]
  unfold splitDay splitDayD
  dsimp only
  rw [trunc_cast, hfl, r1]
  by_cases hc : jd - ⌊jd⌋ < 1 / 2
  · have hc' : (jd : ℝ) - (⌊jd⌋ : ℤ) < 1 / 2 := by
      have : ((jd - ⌊jd⌋ : ℚ) : ℝ) < ((1 / 2 : ℚ) : ℝ) := by exact_mod_cast hc
      push_cast at this; exact this
    rw [if_pos hc, if_pos hc', r2, r4]
    refine ⟨by push_cast; rfl, by push_cast; rfl, by dsimp only; linarith, by dsimp only; linarith, by dsimp only; ring, r6⟩
  · have hc' : ¬ (jd : ℝ) - (⌊jd⌋ : ℤ) < 1 / 2 := by
      intro h
      apply hc
      have : ((jd - ⌊jd⌋ : ℚ) : ℝ) < ((1 / 2 : ℚ) : ℝ) := by push_cast; exact h
      exact_mod_cast this
    rw [if_neg hc, if_neg hc', r3, r5]
    push Not at hc
    refine ⟨by push_cast; rfl, by push_cast; rfl, by dsimp only; linarith, by dsimp only; linarith, by dsimp only; ring, r7⟩

/-! ### The errors -/

theorem frac_bound (x : ℚ) : |x - truncQ x| ≤ 1 := by
  obtain ⟨a, b, _, _⟩ := fmod1_bounds x
  unfold fmod1 at a b
  rw [abs_le]; constructor <;> linarith

theorem gDayD_near (F : Fl64) {jd : ℚ} (hD : |(splitDayD F jd).1 - 2451545| ≤ 73051)
    (hx : F.rnd ((splitDayD F jd).1 - 2451545) = (splitDayD F jd).1 - 2451545)
    (h0 : 0 ≤ (splitDayD F jd).2) (h1 : (splitDayD F jd).2 < 1) :
    |gDayD F jd| ≤ 21 / 10 ∧ ∃ m : ℤ, |gDayD F jd - (gmstQ (((splitDayD F jd).1 - 2451545) / 36525) - m + 100273790934 / 10 ^ 11 * (splitDayD F jd).2)|
      ≤ 182 / 10 ^ 15 := by
  have hs := gmst0D_near F hD hx
  unfold gDayD
  dsimp only
  generalize gmst0D F (splitDayD F jd).1 = s at *
  generalize gmstQ (((splitDayD F jd).1 - 2451545) / 36525) = S at *
  generalize (splitDayD F jd).2 = u at *
  have hu : |u| ≤ 1 := by rw [abs_le]; constructor <;> linarith
  have hf := frac_bound s
  generalize truncQ s = m at *
  have f1 := rnd_const F hf (E := 12 / 10 ^ 17) (by norm_num)
  have f2 : |F.rnd (s - m) - (S - m)| ≤ 18 / 10 ^ 14 + 12 / 10 ^ 17 := by
    rw [abs_le] at *
    constructor <;> linarith [f1.1, f1.2, hs.1, hs.2]
  have kk := rnd_const F (Z := 100273790934 / 10 ^ 11) (A := 101 / 100) (E := 12 / 10 ^ 17) (by norm_num [abs_le]) (by norm_num)
  have kb : |(100273790934 / 10 ^ 11 : ℚ)| ≤ 101 / 100 := by norm_num [abs_le]
  have ku : |100273790934 / 10 ^ 11 * u| ≤ 101 / 100 := by
    rw [abs_mul]
    have := mul_le_mul kb hu (abs_nonneg _) (by norm_num)
    linarith
  have k1 := rnd_err F (prod_err kk (show |u - u| ≤ 0 by simp) kb hu) ku (E := 25 / 10 ^ 17) (by norm_num)
  have fb : |F.rnd (s - m)| ≤ 1 + 12 / 10 ^ 17 := by
    have := abs_add_le (F.rnd (s - m) - (s - m)) (s - m)
    rw [sub_add_cancel] at this
    linarith
  have pb : |F.rnd (F.rnd (100273790934 / 10 ^ 11) * u)| ≤ 101 / 100 + 25 / 10 ^ 17 := by
    have := abs_add_le (F.rnd (F.rnd (100273790934 / 10 ^ 11) * u) - 100273790934 / 10 ^ 11 * u) (100273790934 / 10 ^ 11 * u)
    rw [sub_add_cancel] at this
    linarith
  have sb : |F.rnd (s - m) + F.rnd (F.rnd (100273790934 / 10 ^ 11) * u)| ≤ 202 / 100 := by
    have := abs_add_le (F.rnd (s - m)) (F.rnd (F.rnd (100273790934 / 10 ^ 11) * u))
    linarith
  have g1 := rnd_const F sb (E := 25 / 10 ^ 17) (by norm_num)
  have g2 := add_err f2 k1
  generalize F.rnd (s - m) + F.rnd (F.rnd (100273790934 / 10 ^ 11) * u) = w at *
  refine ⟨?_, m, ?_⟩
  · have := abs_add_le (F.rnd w - w) w
    rw [sub_add_cancel] at this
    linarith
  · have := abs_sub_le (F.rnd w) w (S - m + 100273790934 / 10 ^ 11 * u)
    linarith

theorem below24D_near (F : Fl64) : ∀ (n : ℕ) {x g : ℚ}, |x| ≤ 51 → below24D F n x = some g → ∃ k : ℤ, |g - x - 24 * k| ≤ 4 / 10 ^ 15 ∧ g ≤ 24 := by
  have step : ∀ {x : ℚ}, 24 < x → x ≤ 52 → |F.rnd (x - 24) - (x - 24)| ≤ (x - 24) / 2 ^ 53 + 1 / 2 ^ 200 := by
    intro x h0 h1
    exact F.err_le (by rw [abs_of_nonneg (by linarith)])
  have small : ∀ (n : ℕ) {x g : ℚ}, x ≤ 24 → below24D F n x = some g → g = x := by
    intro n x g hx h
    cases n <;> (rw [below24D, if_neg (by linarith), Option.some.injEq] at h; exact h.symm)
  have one : ∀ (n : ℕ) {x g : ℚ}, x ≤ 28 → below24D F n x = some g → ∃ k : ℤ, |g - x - 24 * k| ≤ 1 / 10 ^ 15 ∧ g ≤ 24 := by
    intro n x g hx h
    by_cases hc : x > 24
    · cases n with
      | zero => rw [below24D, if_pos hc] at h; cases h
      | succ n =>
        rw [below24D, if_pos hc] at h
        have e := step hc (by linarith)
        have e2 : (x - 24) / 2 ^ 53 ≤ 4 / 2 ^ 53 := div_le_div_of_nonneg_right (by linarith) (by norm_num)
        have hg := small n (by rw [abs_le] at e; linarith [e.2]) h
        refine ⟨-1, ?_, ?_⟩
        · rw [hg, show F.rnd (x - 24) - x - 24 * ((-1 : ℤ) : ℚ) = F.rnd (x - 24) - (x - 24) by push_cast; ring]
          linarith
        · rw [abs_le] at e; rw [hg]; linarith [e.2]
    · exact ⟨0, by rw [small n (not_lt.1 hc) h]; norm_num, by rw [small n (not_lt.1 hc) h]; exact not_lt.1 hc⟩
  intro n x g hx h
  rw [abs_le] at hx
  by_cases hc : x > 24
  · cases n with
    | zero => rw [below24D, if_pos hc] at h; cases h
    | succ n =>
      rw [below24D, if_pos hc] at h
      have e := step hc (by linarith [hx.2])
      have e2 : (x - 24) / 2 ^ 53 ≤ 27 / 2 ^ 53 := div_le_div_of_nonneg_right (by linarith [hx.2]) (by norm_num)
      obtain ⟨k, hk, hg⟩ := one n (by rw [abs_le] at e; linarith [e.2, hx.2]) h
      refine ⟨k - 1, ?_, hg⟩
      push_cast
      rw [abs_le] at *
      constructor <;> linarith [e.1, e.2, hk.1, hk.2]
  · obtain ⟨k, hk, hg⟩ := one n (by linarith) h
    exact ⟨k, by linarith, hg⟩

theorem below24D_some (F : Fl64) {n : ℕ} (hn : 2 ≤ n) {x : ℚ} (hx : x ≤ 51) : ∃ g, below24D F n x = some g := by
  obtain ⟨m, rfl⟩ := Nat.exists_eq_add_of_le' hn
  show ∃ g, below24D F (m + 1 + 1) x = some g
  by_cases h1 : x > 24
  · rw [below24D, if_pos h1]
    by_cases h2 : F.rnd (x - 24) > 24
    · rw [below24D, if_pos h2]
      have h3 : F.rnd (x - 24) ≤ 28 := by
        have := F.mono (x - 24) 28 (by linarith)
        rwa [show F.rnd 28 = 28 by simpa using F.int 28 (by norm_num)] at this
      have h4 : F.rnd (F.rnd (x - 24) - 24) ≤ 4 := by
        have := F.mono (F.rnd (x - 24) - 24) 4 (by linarith)
        rwa [show F.rnd 4 = 4 by simpa using F.int 4 (by norm_num)] at this
      cases m <;> exact ⟨_, by rw [below24D, if_neg (by linarith)]⟩
    · exact ⟨_, by rw [below24D, if_neg h2]⟩
  · exact ⟨_, by rw [below24D, if_neg h1]⟩

theorem gmstQ_cast (t : ℚ) : (gmstQ t : ℝ) = gmst0 t / 86400 := by
  unfold gmstQ gmst0
  push_cast
  ring

/-- The steps of the local time. -/
theorem local_near (F : Fl64) {d lon X : ℚ} {l : ℚ} (hd : |d| ≤ 21 / 10) (hX : |d - X| ≤ 182 / 10 ^ 15) (hlon : |lon| ≤ 360)
    (hl : l = let sid := F.rnd (d + F.rnd (lon / 360)); let s := F.rnd (F.rnd (sid - truncQ sid) * 24); if s < 0 then F.rnd (s + 24) else s) :
    0 ≤ l ∧ l ≤ 24 ∧ ∃ k : ℤ, |l - 24 * (X + lon / 360) - 24 * k| ≤ 5 / 10 ^ 12 := by
  dsimp only at hl
  have b1 : |lon / 360| ≤ 1 := by
    rw [abs_div, abs_of_pos (by norm_num : (0 : ℚ) < 360), div_le_iff₀ (by norm_num)]
    linarith
  have e1 := rnd_const F b1 (E := 12 / 10 ^ 17) (by norm_num)
  have b2 : |d + F.rnd (lon / 360)| ≤ 32 / 10 := by
    rw [abs_le] at *
    constructor <;> linarith [e1.1, e1.2, b1.1, b1.2, hd.1, hd.2]
  have e2 := rnd_const F b2 (E := 4 / 10 ^ 16) (by norm_num)
  have e3 : |F.rnd (d + F.rnd (lon / 360)) - (X + lon / 360)| ≤ 183 / 10 ^ 15 := by
    rw [abs_le] at *
    constructor <;> linarith [e1.1, e1.2, e2.1, e2.2, hX.1, hX.2]
  generalize F.rnd (d + F.rnd (lon / 360)) = sid at *
  have b4 := frac_bound sid
  have e4 := rnd_const F b4 (E := 12 / 10 ^ 17) (by norm_num)
  have i1 : F.rnd 1 = 1 := by simpa using F.int 1 (by norm_num)
  have i2 : F.rnd (-1) = -1 := by simpa using F.int (-1) (by norm_num)
  have i3 : F.rnd 24 = 24 := by simpa using F.int 24 (by norm_num)
  have i4 : F.rnd (-24) = -24 := by simpa using F.int (-24) (by norm_num)
  have m1 := F.mono _ _ (abs_le.1 b4).1
  have m2 := F.mono _ _ (abs_le.1 b4).2
  rw [i2] at m1
  rw [i1] at m2
  generalize truncQ sid = t at *
  generalize F.rnd (sid - t) = r at *
  have m3 := F.mono (-24) (r * 24) (by linarith)
  have m4 := F.mono (r * 24) 24 (by linarith)
  rw [i4] at m3
  rw [i3] at m4
  have e5 := rnd_const F (show |r * 24| ≤ 24 by rw [abs_le]; constructor <;> linarith) (E := 27 / 10 ^ 16) (by norm_num)
  generalize F.rnd (r * 24) = s at *
  have e6 : |s - 24 * (X + lon / 360 - t)| ≤ 44 / 10 ^ 13 := by
    rw [abs_le] at *
    constructor <;> linarith [e3.1, e3.2, e4.1, e4.2, e5.1, e5.2]
  by_cases hs : s < 0
  · rw [if_pos hs] at hl
    have m5 := F.nonneg (x := s + 24) (by linarith)
    have m6 := F.mono (s + 24) 24 (by linarith)
    rw [i3] at m6
    have e7 := rnd_const F (show |s + 24| ≤ 24 by rw [abs_le]; constructor <;> linarith) (E := 27 / 10 ^ 16) (by norm_num)
    rw [← hl] at m5 m6 e7
    refine ⟨m5, m6, 1 - t, ?_⟩
    push_cast
    rw [abs_le] at *
    constructor <;> linarith [e6.1, e6.2, e7.1, e7.2]
  · rw [if_neg hs] at hl
    push Not at hs
    rw [hl]
    refine ⟨hs, m4, -t, ?_⟩
    push_cast
    rw [abs_le] at *
    constructor <;> linarith [e6.1, e6.2]

theorem lmstD_some {F : Fl64} {n : ℕ} {jd lon l g : ℚ} (h : lmstD F n jd lon = some (l, g)) :
    below24D F n (F.rnd (gDayD F jd * 24)) = some g ∧
      l = let sid := F.rnd (gDayD F jd + F.rnd (lon / 360)); let s := F.rnd (F.rnd (sid - truncQ sid) * 24); if s < 0 then F.rnd (s + 24) else s := by
  unfold lmstD at h
  dsimp only at h
  obtain ⟨g', hg, h⟩ := Option.map_eq_some_iff.1 h
  simp only [Prod.mk.injEq] at h
  obtain ⟨h1, rfl⟩ := h
  exact ⟨hg, h1.symm⟩

theorem dates (F : Fl64) {J jd : ℚ} (hJ : jd = F.rnd J) (h : |jd - 2451545| ≤ 73050) :
    |gDayD F jd| ≤ 21 / 10 ∧ ∃ (m : ℤ) (X : ℚ), |gDayD F jd - X| ≤ 182 / 10 ^ 15 ∧ gDay jd = X + m := by
  obtain ⟨a, b⟩ := abs_le.1 h
  obtain ⟨s1, s2, s3, s4, s5, s6⟩ := splitDayD_exact F hJ (by linarith) (by linarith)
  obtain ⟨h1, m, h2⟩ := gDayD_near F (by rw [abs_le]; constructor <;> linarith) s6 s3 s4
  refine ⟨h1, m - trunc (gmst0 (((splitDay jd).1 - JD2000) / 36525) / 86400), _, h2, ?_⟩
  unfold gDay
  rw [s1, s2]
  have e : (JD2000 : ℝ) = ((2451545 : ℚ) : ℝ) := by unfold JD2000; norm_num
  rw [e]
  have e2 : gmst0 ((((splitDayD F jd).1 : ℝ) - ((2451545 : ℚ) : ℝ)) / 36525) / 86400 = ((gmstQ (((splitDayD F jd).1 - 2451545) / 36525) : ℚ) : ℝ) := by
    rw [gmstQ_cast]; push_cast; rfl
  rw [e2]
  push_cast
  ring

/-- C178: the loop ends. -/
theorem C178_ends (F : Fl64) {n : ℕ} (hn : 2 ≤ n) {J jd : ℚ} (lon : ℚ) (hJ : jd = F.rnd J) (h : |jd - 2451545| ≤ 73050) : ∃ r, lmstD F n jd lon = some r := by
  obtain ⟨h1, _⟩ := dates F hJ h
  have hb : F.rnd (gDayD F jd * 24) ≤ 51 := by
    have := F.mono (gDayD F jd * 24) 51 (by linarith [(abs_le.1 h1).2])
    rwa [show F.rnd 51 = 51 by simpa using F.int 51 (by norm_num)] at this
  obtain ⟨g, hg⟩ := below24D_some F hn hb
  unfold lmstD
  dsimp only
  rw [hg]
  exact ⟨_, rfl⟩

/-- C178: the values computed in `double` differ from those of exact arithmetic by at most 18 nanoseconds, up to whole days; the local time is
in `[0, 24]` and the Greenwich time at most 24. -/
theorem C178_numerical {F : Fl64} {n n' : ℕ} {J jd lon l g : ℚ} {l' g' : ℝ} (hJ : jd = F.rnd J) (h : |jd - 2451545| ≤ 73050) (hlon : |lon| ≤ 360)
    (hD : lmstD F n jd lon = some (l, g)) (hE : lmst_hr n' jd lon = some (l', g')) :
    (0 ≤ l ∧ l ≤ 24 ∧ ∃ k : ℤ, |l - l' - 24 * k| ≤ 5 / 10 ^ 12) ∧ g ≤ 24 ∧ ∃ k : ℤ, |g - g' - 24 * k| ≤ 5 / 10 ^ 12 := by
  obtain ⟨h1, m, X, h2, h3⟩ := dates F hJ h
  obtain ⟨hg, hl⟩ := lmstD_some hD
  obtain ⟨hg', hl'⟩ := lmst_hr_some hE
  obtain ⟨kg, hkg⟩ := (below24_turns hg').1
  obtain ⟨l0, l1, k, hk⟩ := local_near F h1 h2 hlon hl
  constructor
  · refine ⟨l0, l1, ?_⟩
    have hl2 : ∃ q : ℤ, l' = 24 * (gDay jd + lon / 360) + 24 * q := by
      dsimp only at hl'
      split_ifs at hl'
      · exact ⟨1 - trunc (gDay jd + lon / 360), by rw [hl']; push_cast; ring⟩
      · exact ⟨- trunc (gDay jd + lon / 360), by rw [hl']; push_cast; ring⟩
    obtain ⟨q, hq⟩ := hl2
    refine ⟨k - q - m, ?_⟩
    have hk' : |(l : ℝ) - 24 * (X + lon / 360) - 24 * k| ≤ 5 / 10 ^ 12 := by simpa using abs_real hk
    rw [hq, h3]
    push_cast
    rw [show (l : ℝ) - (24 * (X + m + lon / 360) + 24 * q) - 24 * (k - q - m) = l - 24 * (X + lon / 360) - 24 * k by ring]
    exact hk'
  · have hb : |gDayD F jd * 24| ≤ 504 / 10 := by rw [abs_le] at *; constructor <;> linarith [h1.1, h1.2]
    have e1 := rnd_const F hb (E := 57 / 10 ^ 16) (by norm_num)
    obtain ⟨k2, hk2, hle⟩ := below24D_near F n (by rw [abs_le] at *; constructor <;> linarith [e1.1, e1.2, hb.1, hb.2]) hg
    refine ⟨hle, k2 - m - kg, ?_⟩
    have h4 : |g - 24 * X - 24 * k2| ≤ 5 / 10 ^ 12 := by
      rw [abs_le] at *
      constructor <;> linarith [e1.1, e1.2, hk2.1, hk2.2, h2.1, h2.2]
    have h5 : |(g : ℝ) - 24 * X - 24 * k2| ≤ 5 / 10 ^ 12 := by simpa using abs_real h4
    rw [hkg, h3]
    push_cast
    rw [show (g : ℝ) - ((X + m) * 24 + 24 * kg) - 24 * (k2 - m - kg) = g - 24 * X - 24 * k2 by ring]
    exact h5

theorem siderealDeg_lip {x y : ℝ} (hx : |x - 2451545| ≤ 73050) (hy : |y - 2451545| ≤ 73050) : |siderealDeg x - siderealDeg y| ≤ 361 * |x - y| := by
  unfold siderealDeg
  dsimp only
  generalize hX : x - 2451545 = X at *
  generalize hY : y - 2451545 = Y at *
  have e : x - y = X - Y := by rw [← hX, ← hY]; ring
  rw [e, show (280.46061837 + 360.98564736629 * X + 0.000387933 * (X / 36525) ^ 2 - (X / 36525) ^ 3 / 38710000 : ℝ)
    - (280.46061837 + 360.98564736629 * Y + 0.000387933 * (Y / 36525) ^ 2 - (Y / 36525) ^ 3 / 38710000)
    = (360.98564736629 + 0.000387933 * ((X / 36525 + Y / 36525) / 36525)
      - ((X / 36525) ^ 2 + X / 36525 * (Y / 36525) + (Y / 36525) ^ 2) / 36525 / 38710000) * (X - Y) by ring, abs_mul]
  refine mul_le_mul_of_nonneg_right ?_ (abs_nonneg _)
  obtain ⟨a, b⟩ := abs_le.1 hx
  obtain ⟨c, d⟩ := abs_le.1 hy
  have a' : |X / 36525| ≤ 2 := by rw [abs_le]; constructor <;> linarith
  have b' : |Y / 36525| ≤ 2 := by rw [abs_le]; constructor <;> linarith
  generalize X / 36525 = S at *
  generalize Y / 36525 = T at *
  have s2 : |S ^ 2| ≤ 4 := by rw [abs_pow]; nlinarith [abs_nonneg S]
  have t2 : |T ^ 2| ≤ 4 := by rw [abs_pow]; nlinarith [abs_nonneg T]
  have st : |S * T| ≤ 4 := by rw [abs_mul]; nlinarith [abs_nonneg S, abs_nonneg T]
  rw [abs_le] at *
  constructor <;> linarith [a'.1, a'.2, b'.1, b'.2, s2.1, s2.2, t2.1, t2.2, st.1, st.2]

/-- C178: from 1800 to 2199, for every instant `J`, the sidereal times computed in `double` from the date rounded to `double` are within 0.13
milliseconds of the polynomial of the instant, up to whole days. -/
theorem C178_clock {F : Fl64} {n : ℕ} {J lon l g : ℚ} (h : |J - 2451545| ≤ 73049) (hlon : |lon| ≤ 360) (hn : 2 ≤ n)
    (hD : lmstD F n (F.rnd J) lon = some (l, g)) :
    (∃ k : ℤ, |3600 * (l : ℝ) - 240 * (siderealDeg J + lon) - 86400 * k| ≤ 13 / 10 ^ 5) ∧
      ∃ k : ℤ, |3600 * (g : ℝ) - 240 * siderealDeg J - 86400 * k| ≤ 13 / 10 ^ 5 := by
  obtain ⟨a, b⟩ := abs_le.1 h
  have e1 := rnd_const F (Z := J) (A := 2524594) (E := 281 / 10 ^ 12) (by rw [abs_le]; constructor <;> linarith) (by norm_num)
  have e2 : |F.rnd J - 2451545| ≤ 73050 := by rw [abs_le] at *; constructor <;> linarith [e1.1, e1.2]
  obtain ⟨⟨l', g'⟩, hE⟩ := C39_ends n hn (F.rnd J : ℝ) lon
  obtain ⟨⟨_, _, k1, hk1⟩, _, k2, hk2⟩ := C178_numerical rfl e2 hlon hD hE
  have e2' : |(F.rnd J : ℝ) - 2451545| ≤ 73050 := by exact_mod_cast e2
  have h' : |(J : ℝ) - 2451545| ≤ 73050 := by
    have : |(J : ℝ) - 2451545| ≤ 73049 := by exact_mod_cast h
    linarith
  obtain ⟨k3, hk3⟩ := C113_reported e2' hE
  obtain ⟨_, _, k4, hk4⟩ := C39_local hE
  have e3 := siderealDeg_lip e2' h'
  have e4 : |(F.rnd J : ℝ) - J| ≤ 281 / 10 ^ 12 := by simpa using abs_real e1
  generalize siderealDeg (F.rnd J : ℝ) = A at *
  generalize siderealDeg (J : ℝ) = B at *
  have e5 : |A - B| ≤ 1015 / 10 ^ 10 := by linarith
  constructor
  · refine ⟨k1 + k3 + k4, ?_⟩
    rw [hk4] at hk1
    push_cast
    rw [abs_le] at *
    constructor <;> linarith [hk1.1, hk1.2, hk3.1, hk3.2, e5.1, e5.2]
  · refine ⟨k2 + k3, ?_⟩
    push_cast
    rw [abs_le] at *
    constructor <;> linarith [hk2.1, hk2.2, hk3.1, hk3.2, e5.1, e5.2]

/-- C178: 24 itself is returned, on 2023 February 25, 0h UT, at 154.6019447988083 degrees west. -/
theorem C178_24 : (lmstD Fl64.ieee 2 (24600005 / 10) (-169986635983073 / 2 ^ 40)).map Prod.fst = some 24 := by decide +kernel

/-- Noon of 1 January 2000 at Greenwich: 18.697 hours. -/
example : ((lmstD Fl64.ieee 2 2451545 0).map fun r => (⌊r.1 * 1000⌋, ⌊r.2 * 1000⌋)) = some (18697, 18697) := by decide +kernel

example : Fl64.ieee.rnd 2451545 = 2451545 := by decide +kernel

end SatSky.Props
