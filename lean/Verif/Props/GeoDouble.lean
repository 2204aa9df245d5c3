import Verif.Model.GeoDouble
import Verif.Props.Geolocation
import Verif.Props.PrecDouble
import Verif.Props.DataText
import Verif.Props.AltDouble

/-! C187: the point below a satellite in `double` arithmetic. -/

namespace SatSky.Props

open SatSky Spec Geo Relative

/-! ### One pass of the loop -/

theorem e2_near (F : Fl64) : |(e2D F : ℝ) - e2| ≤ 3 / 10 ^ 18 := by
  unfold e2D e2 Geo.F
  have h1 : |(flatD F : ℝ) - 3352819697896193 / 10 ^ 18| ≤ 38 / 10 ^ 20 := by
    have := const_real F (3352819697896193 / 10 ^ 18) (E := 38 / 10 ^ 20) (by
      push_cast
      rw [abs_of_pos (by norm_num)]
      norm_num)
    unfold flatD
    push_cast at this
    exact this
  have h2 : |(F.rnd (2 - flatD F) : ℝ) - (2 - 3352819697896193 / 10 ^ 18)| ≤ 223 / 10 ^ 18 := by
    refine rnd_real F (e := 38 / 10 ^ 20) (A := 1997 / 1000) ?_ (by rw [abs_of_pos (by norm_num)]; norm_num) (by norm_num)
    push_cast
    rw [abs_le] at h1 ⊢
    constructor <;> linarith
  have h3 := mul_real h1 h2 (A := 336 / 10 ^ 5) (B := 2) (by rw [abs_of_pos (by norm_num)]; norm_num) (by rw [abs_of_pos (by norm_num)]; norm_num)
  refine rnd_real F (e := 16 / 10 ^ 19) (A := 67 / 10 ^ 4) ?_ (by rw [abs_of_pos (by norm_num)]; norm_num) (by norm_num)
  push_cast
  exact h3.trans (by norm_num)

/-- The argument of the root. -/
theorem radicand_near (F : Fl64) {s : ℚ} {S : ℝ} (h : |(s : ℝ) - S| ≤ 23 / 10 ^ 17) (hS : |S| ≤ 1) :
    |(F.rnd (1 - F.rnd (F.rnd (e2D F * s) * s)) : ℝ) - (1 - e2 * S * S)| ≤ 13 / 10 ^ 17 := by
  have ⟨v1, v2⟩ := e2_val
  have he : |e2| ≤ 67 / 10 ^ 4 := by rw [abs_of_pos (by linarith)]; linarith
  have m1 := mul_real (e2_near F) h he hS
  have a1 : |e2 * S| ≤ 67 / 10 ^ 4 := by
    rw [abs_mul]
    have := mul_le_mul he hS (abs_nonneg _) (by norm_num)
    linarith
  have r1 : |(F.rnd (e2D F * s) : ℝ) - e2 * S| ≤ 6 / 10 ^ 18 := by
    refine rnd_real F (by push_cast; exact m1) a1 (by norm_num)
  have m2 := mul_real r1 h a1 hS
  have a2 : |e2 * S * S| ≤ 67 / 10 ^ 4 := by
    rw [abs_mul]
    have := mul_le_mul a1 hS (abs_nonneg _) (by norm_num)
    linarith
  have r2 : |(F.rnd (F.rnd (e2D F * s) * s) : ℝ) - e2 * S * S| ≤ 9 / 10 ^ 18 := by
    refine rnd_real F (by push_cast; exact m2) a2 (by norm_num)
  have a3 : 0 ≤ e2 * S * S := by
    rw [mul_assoc]; exact mul_nonneg (by linarith) (mul_self_nonneg S)
  refine rnd_real F (e := 9 / 10 ^ 18) (A := 1) ?_ ?_ (by norm_num)
  · push_cast
    rw [show (1 : ℝ) - F.rnd (F.rnd (e2D F * s) * s) - (1 - e2 * S * S) = -((F.rnd (F.rnd (e2D F * s) * s) : ℝ) - e2 * S * S) by ring, abs_neg]
    exact r2
  · rw [abs_le]
    have := (abs_le.1 a2).2
    constructor <;> linarith

/-- The root is near 1, so that the division is one by a positive number. -/
theorem curv_root_near (F : Fl64) (M : GeoLib) {s : ℚ} {S : ℝ} (h : |(s : ℝ) - S| ≤ 23 / 10 ^ 17) (hS : |S| ≤ 1) :
    |(M.sqrt (F.rnd (1 - F.rnd (F.rnd (e2D F * s) * s))) : ℝ) - √(1 - e2 * S * S)| ≤ 25 / 10 ^ 17 := by
  have h1 := radicand_near F h hS
  have ⟨b1, b2⟩ := root_bounds S hS
  generalize F.rnd (1 - F.rnd (F.rnd (e2D F * s) * s)) = a at *
  have hq : √(1 - e2 * S * S) * √(1 - e2 * S * S) = 1 - e2 * S * S := by
    refine Real.mul_self_sqrt ?_
    by_contra hc
    rw [Real.sqrt_eq_zero_of_nonpos (by linarith)] at b1
    norm_num at b1
  rw [← hq] at h1
  generalize √(1 - e2 * S * S) = q at *
  obtain ⟨c1, c2⟩ := abs_le.1 h1
  have ha : (0 : ℝ) ≤ a := by nlinarith
  have ha' : 0 ≤ a := by exact_mod_cast ha
  have hs := M.sqrt_err a ha'
  have hm := Real.mul_self_sqrt ha
  have hn := Real.sqrt_nonneg (a : ℝ)
  generalize √(a : ℝ) = t at *
  have d : |t - q| ≤ 131 / 10 ^ 18 := by
    have e : (t - q) * (t + q) = a - q * q := by linear_combination hm
    have : |t - q| * (t + q) ≤ 13 / 10 ^ 17 := by
      rw [← abs_of_nonneg (show 0 ≤ t + q by linarith), ← abs_mul, e]; exact h1
    have := abs_nonneg (t - q)
    nlinarith
  have ht : t ≤ 1001 / 1000 := by linarith [(abs_le.1 d).2]
  have := abs_sub_le (M.sqrt a : ℝ) t q
  linarith

theorem curv_near (F : Fl64) (M : GeoLib) (phi : ℚ) : |(curvD F M (M.sin phi) : ℝ) - curv phi| ≤ 4 / 10 ^ 16 := by
  have hs : |(M.sin phi : ℝ) - Real.sin phi| ≤ 23 / 10 ^ 17 := by
    have := sin_lib M.toLibm (x := phi) (X := phi) (e := 0) (by simp)
    linarith
  have h := curv_root_near F M hs (Real.abs_sin_le_one _)
  have ⟨b1, b2⟩ := root_bounds (Real.sin phi) (Real.abs_sin_le_one _)
  have ⟨c1, c2⟩ := curv_bounds (phi : ℝ)
  unfold curvD
  generalize M.sqrt (F.rnd (1 - F.rnd (F.rnd (e2D F * M.sin phi) * M.sin phi))) = t at *
  unfold curv at *
  generalize √(1 - e2 * Real.sin phi * Real.sin phi) = q at *
  obtain ⟨t1, t2⟩ := abs_le.1 h
  refine rnd_real F (e := 253 / 10 ^ 18) (A := 1005 / 1000) ?_ (by rw [abs_of_nonneg (by linarith)]; exact c2) (by norm_num)
  push_cast
  have ht : (995 : ℝ) / 1000 ≤ t := by norm_num at t1 ⊢; linarith
  have hpos : 0 < (t : ℝ) * q := by nlinarith
  rw [show 1 / (t : ℝ) - 1 / q = (q - t) / (t * q) by field_simp, abs_div, abs_of_pos hpos, div_le_iff₀ hpos, abs_sub_comm]
  have : (991 : ℝ) / 1000 ≤ t * q := by nlinarith
  norm_num at h this ⊢
  linarith

theorem shift_near (F : Fl64) (M : GeoLib) (phi : ℚ) : |(shiftD F M phi : ℝ) - shift phi| ≤ 7 / 10 ^ 14 := by
  have hs : |(M.sin phi : ℝ) - Real.sin phi| ≤ 23 / 10 ^ 17 := by
    have := sin_lib M.toLibm (x := phi) (X := phi) (e := 0) (by simp)
    linarith
  have hc := curv_near F M phi
  have ⟨c1, c2⟩ := curv_bounds (phi : ℝ)
  have ⟨v1, v2⟩ := e2_val
  have he : |e2| ≤ 67 / 10 ^ 4 := by rw [abs_of_pos (by linarith)]; linarith
  have hE : |(eradD F : ℝ) - ERAD| ≤ 71 / 10 ^ 14 := by
    have := const_real F (63781366 / 10000) (E := 71 / 10 ^ 14) (by
      push_cast
      rw [abs_of_pos (by norm_num)]
      norm_num)
    unfold eradD ERAD
    push_cast at this
    exact this
  have hE0 : |ERAD| ≤ 63782 / 10 := by unfold ERAD; rw [abs_of_pos (by norm_num)]; norm_num
  have hcv : |curv (phi : ℝ)| ≤ 1005 / 1000 := by rw [abs_of_nonneg (by linarith)]; exact c2
  unfold shiftD shift
  have m1 := mul_real hE hc hE0 hcv
  have a1 : |ERAD * curv phi| ≤ 6411 := by
    rw [abs_mul]
    have := mul_le_mul hE0 hcv (abs_nonneg _) (by norm_num)
    linarith
  have r1 : |(F.rnd (eradD F * curvD F M (M.sin phi)) : ℝ) - ERAD * curv phi| ≤ 42 / 10 ^ 13 := by
    refine rnd_real F (by push_cast; exact m1) a1 (by norm_num)
  have m2 := mul_real r1 (e2_near F) a1 he
  have a2 : |ERAD * curv phi * e2| ≤ 43 := by
    rw [abs_mul]
    have := mul_le_mul a1 he (abs_nonneg _) (by norm_num)
    linarith
  have r2 : |(F.rnd (F.rnd (eradD F * curvD F M (M.sin phi)) * e2D F) : ℝ) - ERAD * curv phi * e2| ≤ 54 / 10 ^ 15 := by
    refine rnd_real F (by push_cast; exact m2) a2 (by norm_num)
  have m3 := mul_real r2 hs a2 (Real.abs_sin_le_one _)
  have a3 : |ERAD * curv phi * e2 * Real.sin phi| ≤ 43 := shift_abs phi
  exact rnd_real F (by push_cast; exact m3) a3 (by norm_num)

/-- One pass, in `double` and exactly. -/
theorem next_near (F : Fl64) (M : GeoLib) {r z : ℚ} (hr : 0 ≤ r) (hd : (200 : ℝ) * 200 ≤ r * r + z * z) (phi : ℚ) :
    |(nextLatD F M r z phi : ℝ) - nextLat r z phi| ≤ 13 / 10 ^ 16 := by
  have hs := shift_near F M phi
  have hr' : (0 : ℝ) ≤ r := by exact_mod_cast hr
  rw [nextLat_eq]
  unfold nextLatD
  have hw := err_real F (z + shiftD F M phi)
  have ha := M.atan2_err (F.rnd (z + shiftD F M phi)) r
  have hb := shift_abs (phi : ℝ)
  push_cast at hw
  generalize F.rnd (z + shiftD F M phi) = w at *
  generalize (shiftD F M phi : ℝ) = s at *
  generalize shift (phi : ℝ) = S at *
  -- the distance of the exact point
  have hD : (156 : ℝ) * 156 ≤ r * r + (z + S) * (z + S) := by
    obtain ⟨s1, s2⟩ := abs_le.1 hb
    have h0 : |(z : ℝ)| * |(z : ℝ)| = z * z := abs_mul_abs_self _
    have hz0 := abs_nonneg (z : ℝ)
    have hzS : -(43 * |(z : ℝ)|) ≤ z * S := by
      have := neg_abs_le ((z : ℝ) * S)
      rw [abs_mul] at this
      nlinarith
    rcases le_or_gt |(z : ℝ)| 157 with hq | hq
    · nlinarith [mul_self_nonneg S, mul_self_nonneg (|(z : ℝ)| - 43 - S), mul_self_nonneg (|(z : ℝ)| - 43 + S)]
    · nlinarith [mul_self_nonneg S, mul_self_nonneg (r : ℝ)]
  have hm := Real.mul_self_sqrt (show 0 ≤ (r : ℝ) * r + (z + S) * (z + S) by nlinarith)
  have h156 : 156 ≤ √((r : ℝ) * r + (z + S) * (z + S)) := Real.le_sqrt_of_sq_le (by nlinarith)
  have hyd : |(z : ℝ) + S| ≤ √((r : ℝ) * r + (z + S) * (z + S)) := Real.abs_le_sqrt (by nlinarith [mul_self_nonneg (r : ℝ)])
  generalize √((r : ℝ) * r + (z + S) * (z + S)) = d at *
  have hdiff : |(w : ℝ) - (z + S)| ≤ 5636 / 10 ^ 19 * d := by
    have h1 := abs_sub_le (w : ℝ) (z + s) (z + S)
    rw [show (z : ℝ) + s - (z + S) = s - S by ring] at h1
    have h2 : |(z : ℝ) + s| ≤ d + 7 / 10 ^ 14 := by
      have := abs_add_le ((z : ℝ) + S) (s - S)
      rw [show (z : ℝ) + S + (s - S) = z + s by ring] at this
      linarith
    linarith
  have hcos : 0 ≤ (r : ℝ) * r + (z + S) * w := by
    have e : (r : ℝ) * r + (z + S) * w = d * d + (z + S) * (w - (z + S)) := by rw [hm]; ring
    have h1 : |((z : ℝ) + S) * (w - (z + S))| ≤ d * (5636 / 10 ^ 19 * d) := by
      rw [abs_mul]; exact mul_le_mul hyd hdiff (abs_nonneg _) (by linarith)
    rw [e]
    nlinarith [(abs_le.1 h1).1]
  have hpos : 0 < (r : ℝ) * r + w * w := by
    by_contra hc
    have q1 : (r : ℝ) * r = 0 := by nlinarith [mul_self_nonneg (r : ℝ), mul_self_nonneg (w : ℝ)]
    have q2 : (w : ℝ) = 0 := by
      have : (w : ℝ) * w = 0 := by nlinarith [mul_self_nonneg (r : ℝ), mul_self_nonneg (w : ℝ)]
      exact mul_self_eq_zero.1 this
    rw [q2, zero_sub, abs_neg] at hdiff
    rw [q1, zero_add, ← abs_mul_abs_self ((z : ℝ) + S)] at hm
    have : |(z : ℝ) + S| = d := by nlinarith [abs_nonneg ((z : ℝ) + S)]
    rw [this] at hdiff
    linarith
  have hl := atan2_lip hr' (by linarith : 0 < d) (le_of_eq hm) hpos hcos
  have h2 : |(w : ℝ) - (z + S)| / d ≤ 5636 / 10 ^ 19 := by rw [div_le_iff₀ (by linarith)]; exact hdiff
  have hp := Real.pi_lt_d2
  have hp0 := Real.pi_pos
  have h3 : Real.pi / 2 * (|(w : ℝ) - (z + S)| / d) ≤ 1575 / 1000 * (5636 / 10 ^ 19) :=
    mul_le_mul (by linarith) h2 (by have := abs_nonneg ((w : ℝ) - (z + S)); positivity) (by norm_num)
  have h4 : |Complex.arg ⟨r, w⟩| ≤ Real.pi / 2 := Complex.abs_arg_le_pi_div_two_iff.mpr hr'
  have h5 := abs_sub_le (M.atan2 w r : ℝ) (Complex.arg ⟨r, w⟩) (atan2 (z + S) r)
  have h6 : Complex.arg ⟨r, w⟩ = atan2 (w : ℝ) r := rfl
  rw [h6] at h4 h5 ha
  linarith

/-! ### The loop -/

theorem loopD_ends (F : Fl64) (M : GeoLib) {r z : ℚ} (hr : 0 ≤ r) (hd : (200 : ℝ) * 200 ≤ r * r + z * z) (n : ℕ) :
    ∀ phi, |(nextLatD F M r z phi : ℝ) - phi| < 2 ^ n * (99 / 10 ^ 12) → ∃ p, latLoopD F M r z (n + 1) phi = some p := by
  have hr' : (0 : ℝ) ≤ r := by exact_mod_cast hr
  have hc := const_real F (1 / 10 ^ 10) (E := 1 / 10 ^ 25) (by
    push_cast
    rw [abs_of_pos (by norm_num)]
    norm_num)
  induction n with
  | zero =>
    intro phi h
    rw [latLoopD]
    have he := err_real F (nextLatD F M r z phi - phi)
    push_cast at he hc
    have hlt : |(F.rnd (nextLatD F M r z phi - phi) : ℝ)| < (F.rnd (1 / 10 ^ 10) : ℝ) := by
      have h1 := abs_sub_abs_le_abs_sub (F.rnd (nextLatD F M r z phi - phi) : ℝ) (nextLatD F M r z phi - phi)
      have h2 := (abs_le.1 hc).1
      norm_num at h h2 he
      linarith
    rw [if_neg (by rw [ge_iff_le, not_le]; exact_mod_cast hlt)]
    exact ⟨_, rfl⟩
  | succ n ih =>
    intro phi h
    rw [latLoopD]
    split_ifs with hg
    · apply ih
      have n1 := next_near F M hr hd phi
      have n2 := next_near F M hr hd (nextLatD F M r z phi)
      have h1 := contract hr' hd (shift_abs (phi : ℝ)) (shift_abs (nextLatD F M r z phi : ℝ))
      have h2 := shift_lip (nextLatD F M r z phi : ℝ) phi
      rw [← nextLat_eq, ← nextLat_eq] at h1
      have h3 : (1 : ℝ) ≤ 2 ^ n := one_le_pow₀ (by norm_num)
      rw [pow_succ] at h
      generalize (2 : ℝ) ^ n = N at *
      have h4 : |(nextLatD F M r z (nextLatD F M r z phi) : ℝ) - nextLatD F M r z phi| ≤ |nextLat r z (nextLatD F M r z phi) - nextLat r z phi| + 26 / 10 ^ 16 := by
        rw [show (nextLatD F M r z (nextLatD F M r z phi) : ℝ) - nextLatD F M r z phi = (nextLatD F M r z (nextLatD F M r z phi) - nextLat r z (nextLatD F M r z phi)) +
          (nextLat r z (nextLatD F M r z phi) - nextLat r z phi) - (nextLatD F M r z phi - nextLat r z phi) by ring]
        have a := abs_sub ((nextLatD F M r z (nextLatD F M r z phi) - nextLat r z (nextLatD F M r z phi)) + (nextLat r z (nextLatD F M r z phi) - nextLat r z phi) : ℝ)
          (nextLatD F M r z phi - nextLat r z phi)
        have b := abs_add_le ((nextLatD F M r z (nextLatD F M r z phi) - nextLat r z (nextLatD F M r z phi)) : ℝ) (nextLat r z (nextLatD F M r z phi) - nextLat r z phi)
        linarith
      linarith
    · exact ⟨_, rfl⟩

/-- The latitudes of the last pass. -/
theorem loopD_some (F : Fl64) (M : GeoLib) {r z : ℚ} {n : ℕ} {phi lat c : ℚ} (h : latLoopD F M r z n phi = some (lat, c)) :
    ∃ p, lat = nextLatD F M r z p ∧ c = curvD F M (M.sin p) ∧ |(lat : ℝ) - p| ≤ 101 / 10 ^ 12 := by
  induction n generalizing phi with
  | zero => simp [latLoopD] at h
  | succ n ih =>
    rw [latLoopD] at h
    split_ifs at h with hc
    · exact ih h
    · simp only [Option.some.injEq, Prod.mk.injEq] at h
      obtain ⟨rfl, rfl⟩ := h
      refine ⟨phi, rfl, rfl, ?_⟩
      have hk := const_real F (1 / 10 ^ 10) (E := 1 / 10 ^ 25) (by
        push_cast
        rw [abs_of_pos (by norm_num)]
        norm_num)
      have he := err_real F (nextLatD F M r z phi - phi)
      have hlt : |(F.rnd (nextLatD F M r z phi - phi) : ℝ)| < (F.rnd (1 / 10 ^ 10) : ℝ) := by exact_mod_cast not_le.1 hc
      push_cast at he hk
      have h2 := (abs_le.1 hk).2
      have h1 := abs_sub_abs_le_abs_sub ((nextLatD F M r z phi - phi : ℝ)) (F.rnd (nextLatD F M r z phi - phi) : ℝ)
      rw [abs_sub_comm ((nextLatD F M r z phi - phi : ℝ))] at h1
      norm_num at h2 he ⊢
      linarith

/-! ### The distance from the axis and the altitude -/

theorem axisD_near (F : Fl64) (M : GeoLib) {x y : ℚ} {R : ℝ} (hR : R = √((x : ℝ) * x + y * y)) (h0 : 60 ≤ R) (h1 : R ≤ 50000) :
    0 ≤ axisD F M x y ∧ |(axisD F M x y : ℝ) - R| ≤ 3 / 10 ^ 11 := by
  have hx := mul_self_nonneg (x : ℝ)
  have hy := mul_self_nonneg (y : ℝ)
  have hm := Real.mul_self_sqrt (show 0 ≤ (x : ℝ) * x + y * y by linarith)
  rw [← hR] at hm
  have e1 := err_real F (x * x)
  have e2 := err_real F (y * y)
  have e3 := err_real F (F.rnd (x * x) + F.rnd (y * y))
  push_cast at e1 e2 e3
  rw [abs_of_nonneg hx] at e1
  rw [abs_of_nonneg hy] at e2
  have hs : |(F.rnd (x * x) : ℝ) + F.rnd (y * y) - R * R| ≤ 1 / 2 ^ 53 * (R * R) + 2 / 2 ^ 200 := by
    rw [hm]
    rw [abs_le] at e1 e2 ⊢
    constructor <;> linarith
  have hs2 : |(F.rnd (x * x) : ℝ) + F.rnd (y * y)| ≤ 101 / 100 * (R * R) := by
    rw [abs_le] at hs ⊢
    constructor <;> nlinarith
  have ha : |(F.rnd (F.rnd (x * x) + F.rnd (y * y)) : ℝ) - R * R| ≤ 3 / 2 ^ 53 * (R * R) := by
    have := abs_sub_le (F.rnd (F.rnd (x * x) + F.rnd (y * y)) : ℝ) (F.rnd (x * x) + F.rnd (y * y)) (R * R)
    have h60 : (3600 : ℝ) ≤ R * R := by nlinarith
    linarith
  unfold axisD
  generalize F.rnd (F.rnd (x * x) + F.rnd (y * y)) = a at *
  obtain ⟨a1, a2⟩ := abs_le.1 ha
  have hap : (0 : ℝ) ≤ a := by nlinarith
  have hap' : 0 ≤ a := by exact_mod_cast hap
  refine ⟨M.sqrt_sign a hap', ?_⟩
  have hse := M.sqrt_err a hap'
  have hq := Real.mul_self_sqrt hap
  have hn := Real.sqrt_nonneg (a : ℝ)
  generalize √(a : ℝ) = t at *
  have d : |t - R| ≤ 3 / 2 ^ 53 * R := by
    have e : (t - R) * (t + R) = a - R * R := by linear_combination hq
    have g : |t - R| * (t + R) ≤ 3 / 2 ^ 53 * R * R := by
      rw [← abs_of_nonneg (show 0 ≤ t + R by linarith), ← abs_mul, e, mul_assoc]; exact ha
    have g2 : |t - R| * R ≤ 3 / 2 ^ 53 * R * R := by
      have := mul_nonneg (abs_nonneg (t - R)) hn
      linarith
    exact le_of_mul_le_mul_right g2 (by linarith)
  have ht : t ≤ 101 / 100 * R := by
    have := (abs_le.1 d).2
    linarith
  have := abs_sub_le (M.sqrt a : ℝ) t R
  linarith

/-- Latitude and altitude that nearly satisfy the equations of the last pass give back the point. -/
theorem geodetic_close {r R z lat p alt : ℝ} (hr : 0 ≤ r) (hrR : |r - R| ≤ 3 / 10 ^ 11) (hl : |lat - nextLat r z p| ≤ 13 / 10 ^ 16)
    (hp : |lat - p| ≤ 101 / 10 ^ 12) (hc : 1 / 100 ≤ Real.cos lat) (hD : √(r * r + (z + shift p) * (z + shift p)) ≤ 71000)
    (ha : |alt - (r / Real.cos lat - ERAD * curv p)| ≤ 1 / 10 ^ 10) :
    |(geodetic ERAD Geo.F lat alt).1 - R| ≤ 1 / 10 ^ 8 ∧ |(geodetic ERAD Geo.F lat alt).2 - z| ≤ 2 / 10 ^ 8 := by
  have hN : primeVertical ERAD Geo.F lat = ERAD * curv lat := by
    unfold primeVertical curv e2
    rw [mul_one_div]
    congr 2
    ring
  have hF : (1 - Geo.F) ^ 2 = 1 - e2 := by unfold e2; ring
  unfold geodetic
  rw [hN, hF]
  dsimp only
  have ⟨q1, q2⟩ := atan2_polar (z + shift p) r
  rw [nextLat_eq] at hl
  have hD0 := Real.sqrt_nonneg (r * r + (z + shift p) * (z + shift p))
  generalize atan2 (z + shift p) r = L at *
  generalize √(r * r + (z + shift p) * (z + shift p)) = D at *
  have hcp : 0 < Real.cos lat := by linarith
  have htan : |r / Real.cos lat * Real.sin lat - (z + shift p)| ≤ 93 / 10 ^ 10 := by
    have e : r / Real.cos lat * Real.sin lat - (z + shift p) = D * Real.sin (lat - L) / Real.cos lat := by
      rw [Real.sin_sub, ← q1, ← q2]
      field_simp
    have hs : |Real.sin (lat - L)| ≤ 13 / 10 ^ 16 := (Real.abs_sin_le_abs).trans hl
    rw [e, abs_div, abs_mul, abs_of_nonneg hD0, abs_of_pos hcp, div_le_iff₀ hcp]
    have h1 := mul_le_mul hD hs (abs_nonneg _) (by norm_num)
    norm_num at h1 hc ⊢
    linarith
  have hcl := curv_lip lat p
  have hsl := sin_lip lat p
  have ⟨v1, v2⟩ := e2_val
  have ⟨c1, c2⟩ := curv_bounds p
  have hE := ERAD_pos
  have hcc := Real.abs_cos_le_one lat
  have hss := Real.abs_sin_le_one lat
  have hK : |ERAD * (curv lat - curv p)| ≤ 44 / 10 ^ 10 := by
    rw [abs_mul, abs_of_pos hE]
    have : |curv lat - curv p| ≤ 679 / 10 ^ 5 * (101 / 10 ^ 12) := hcl.trans (mul_le_mul_of_nonneg_left (hsl.trans hp) (by norm_num))
    have h2 : ERAD ≤ 63782 / 10 := by unfold ERAD; norm_num
    have := mul_le_mul h2 this (abs_nonneg _) (by norm_num)
    norm_num at this ⊢
    linarith
  have one : ∀ {u v b : ℝ}, |u| ≤ b → |v| ≤ 1 → |u * v| ≤ b := by
    intro u v b h1 h2
    rw [abs_mul]
    have := mul_le_mul h1 h2 (abs_nonneg _) ((abs_nonneg _).trans h1)
    linarith
  have ha' := ha
  generalize hη : alt - (r / Real.cos lat - ERAD * curv p) = η at *
  constructor
  · have e : (ERAD * curv lat + alt) * Real.cos lat - R = ERAD * (curv lat - curv p) * Real.cos lat + η * Real.cos lat + (r - R) := by
      rw [← hη]
      field_simp
      ring
    rw [e]
    have b1 := one hK hcc
    have b2 := one ha hcc
    have := abs_add_le (ERAD * (curv lat - curv p) * Real.cos lat + η * Real.cos lat) (r - R)
    have := abs_add_le (ERAD * (curv lat - curv p) * Real.cos lat) (η * Real.cos lat)
    linarith
  · have e : (ERAD * curv lat * (1 - e2) + alt) * Real.sin lat - z = ERAD * (curv lat - curv p) * (1 - e2) * Real.sin lat + η * Real.sin lat +
        (r / Real.cos lat * Real.sin lat - (z + shift p)) - ERAD * curv p * e2 * (Real.sin lat - Real.sin p) := by
      have hsh : shift p = ERAD * curv p * e2 * Real.sin p := rfl
      rw [← hη, hsh]
      ring
    rw [e]
    have b1 := one (one hK (v := 1 - e2) (by rw [abs_of_pos (by linarith)]; linarith)) hss
    have b2 := one ha hss
    have b3 : |ERAD * curv p * e2 * (Real.sin lat - Real.sin p)| ≤ 43 * (101 / 10 ^ 12) := by
      rw [abs_mul]
      refine mul_le_mul ?_ (hsl.trans hp) (abs_nonneg _) (by norm_num)
      have h2 : ERAD ≤ 63782 / 10 := by unfold ERAD; norm_num
      have k1 : ERAD * curv p ≤ 63782 / 10 * (1005 / 1000) := mul_le_mul h2 c2 (by linarith) (by norm_num)
      have k2 : 0 ≤ ERAD * curv p := mul_nonneg hE.le (by linarith)
      rw [abs_of_nonneg (mul_nonneg k2 (by linarith))]
      have := mul_le_mul k1 v2.le (by linarith) (by norm_num)
      norm_num at this ⊢
      linarith
    have := abs_sub (ERAD * (curv lat - curv p) * (1 - e2) * Real.sin lat + η * Real.sin lat + (r / Real.cos lat * Real.sin lat - (z + shift p)))
      (ERAD * curv p * e2 * (Real.sin lat - Real.sin p))
    have := abs_add_le (ERAD * (curv lat - curv p) * (1 - e2) * Real.sin lat + η * Real.sin lat) (r / Real.cos lat * Real.sin lat - (z + shift p))
    have := abs_add_le (ERAD * (curv lat - curv p) * (1 - e2) * Real.sin lat) (η * Real.sin lat)
    linarith

theorem erad_near (F : Fl64) (M : GeoLib) (phi : ℚ) : |(F.rnd (eradD F * curvD F M (M.sin phi)) : ℝ) - ERAD * curv phi| ≤ 42 / 10 ^ 13 ∧ |ERAD * curv phi| ≤ 6411 := by
  have hc := curv_near F M phi
  have ⟨c1, c2⟩ := curv_bounds (phi : ℝ)
  have hE : |(eradD F : ℝ) - ERAD| ≤ 71 / 10 ^ 14 := by
    have := const_real F (63781366 / 10000) (E := 71 / 10 ^ 14) (by
      push_cast
      rw [abs_of_pos (by norm_num)]
      norm_num)
    unfold eradD ERAD
    push_cast at this
    exact this
  have hE0 : |ERAD| ≤ 63782 / 10 := by unfold ERAD; rw [abs_of_pos (by norm_num)]; norm_num
  have hcv : |curv (phi : ℝ)| ≤ 1005 / 1000 := by rw [abs_of_nonneg (by linarith)]; exact c2
  have m1 := mul_real hE hc hE0 hcv
  have a1 : |ERAD * curv phi| ≤ 6411 := by
    rw [abs_mul]
    have := mul_le_mul hE0 hcv (abs_nonneg _) (by norm_num)
    linarith
  exact ⟨rnd_real F (by push_cast; exact m1) a1 (by norm_num), a1⟩

/-- The altitude from the last pass. -/
theorem alt_near (F : Fl64) (M : GeoLib) {r lat p : ℚ} (hr : 0 ≤ r) (hc : 1 / 100 ≤ Real.cos lat) (hT : (r : ℝ) / Real.cos lat ≤ 71001) :
    M.cos lat ≠ 0 ∧ |(F.rnd (F.rnd (r / M.cos lat) - F.rnd (eradD F * curvD F M (M.sin p))) : ℝ) - (r / Real.cos lat - ERAD * curv p)| ≤ 1 / 10 ^ 10 := by
  have hr' : (0 : ℝ) ≤ r := by exact_mod_cast hr
  obtain ⟨g1, g2⟩ := erad_near F M p
  have hC := M.cos_err lat
  have hcp : 0 < Real.cos lat := by linarith
  rw [abs_of_pos hcp] at hC
  have hC' : |(M.cos lat : ℝ) - Real.cos lat| ≤ 201 / 100 / 2 ^ 53 * Real.cos lat := by linarith
  have hCp : 99 / 100 * Real.cos lat ≤ M.cos lat := by linarith [(abs_le.1 hC').1]
  have hCpos : (0 : ℝ) < M.cos lat := by linarith
  have hT0 : 0 ≤ (r : ℝ) / Real.cos lat := by positivity
  have d1 : |(r : ℝ) / M.cos lat - r / Real.cos lat| ≤ 17 / 10 ^ 12 := by
    have e : (r : ℝ) / M.cos lat - r / Real.cos lat = r / Real.cos lat * ((Real.cos lat - M.cos lat) / M.cos lat) := by
      field_simp
    rw [e, abs_mul, abs_of_nonneg hT0, abs_div, abs_of_pos hCpos, abs_sub_comm]
    have h2 : |(M.cos lat : ℝ) - Real.cos lat| / M.cos lat ≤ 204 / 100 / 2 ^ 53 := by
      rw [div_le_iff₀ hCpos]; linarith
    have := mul_le_mul hT h2 (by positivity) (by norm_num)
    refine this.trans (by norm_num)
  refine ⟨fun h => by rw [h] at hCpos; norm_num at hCpos, ?_⟩
  have r1 : |(F.rnd (r / M.cos lat) : ℝ) - r / Real.cos lat| ≤ 26 / 10 ^ 12 := by
    refine rnd_real F (e := 17 / 10 ^ 12) (A := 71001) (by push_cast; exact d1) (by rw [abs_of_nonneg hT0]; exact hT) (by norm_num)
  refine rnd_real F (e := 31 / 10 ^ 12) (A := 78000) ?_ ?_ (by norm_num)
  · push_cast
    rw [abs_le] at r1 g1 ⊢
    constructor <;> linarith
  · rw [abs_le] at g2 ⊢
    constructor <;> linarith

/-! ### The longitude -/

theorem lon_near (F : Fl64) (M : GeoLib) {gmst x y : ℚ} (h0 : 0 ≤ gmst) (h1 : gmst ≤ 24) :
    |(geoLonD F M gmst x y : ℝ)| ≤ 180 + 1 / 10 ^ 9 ∧
      ∃ k : ℤ, |(geoLonD F M gmst x y : ℝ) - (180 / Real.pi * Complex.arg ⟨x, y⟩ - 15 * gmst) - 360 * k| ≤ 2 / 10 ^ 12 := by
  have hp := Real.pi_gt_d6
  have hp' := Real.pi_lt_d6
  have ha := M.atan2_err y x
  have hA := Complex.abs_arg_le_pi (⟨x, y⟩ : ℂ)
  have g0 : (0 : ℝ) ≤ gmst := by exact_mod_cast h0
  have g1 : (gmst : ℝ) ≤ 24 := by exact_mod_cast h1
  unfold geoLonD
  dsimp only
  generalize M.atan2 y x = a at *
  generalize Complex.arg ⟨x, y⟩ = A at *
  have ha2 : |(a : ℝ) - A| ≤ 8 / 10 ^ 16 := by norm_num at ha hp' ⊢; linarith
  have ha7 : |a| ≤ 7 := by
    have : |(a : ℝ)| ≤ 7 := by
      have := abs_sub_abs_le_abs_sub (a : ℝ) A
      norm_num at ha2 hp'
      linarith
    exact_mod_cast this
  have hdeg := angle_deg F ha7
  have h57 : 180 / Real.pi ≤ 573 / 10 := by rw [div_le_iff₀ Real.pi_pos]; norm_num at hp ⊢; linarith
  have hpos : 0 < 180 / Real.pi := by positivity
  have hA180 : |180 / Real.pi * A| ≤ 180 := by
    rw [abs_mul, abs_of_pos hpos]
    have := mul_le_mul_of_nonneg_left hA hpos.le
    rwa [show 180 / Real.pi * Real.pi = 180 by field_simp] at this
  have hth : |(F.rnd (a * r2dD) : ℝ) - 180 / Real.pi * A| ≤ 105 / 10 ^ 14 := by
    have e : |180 / Real.pi * (a : ℝ) - 180 / Real.pi * A| ≤ 573 / 10 * (8 / 10 ^ 16) := by
      rw [← mul_sub, abs_mul, abs_of_pos hpos]
      exact mul_le_mul h57 ha2 (abs_nonneg _) (by norm_num)
    have := abs_sub_le (F.rnd (a * r2dD) : ℝ) (180 / Real.pi * a) (180 / Real.pi * A)
    norm_num at e hdeg ⊢
    linarith
  generalize 180 / Real.pi * A = B at *
  have hg : |(F.rnd (gmst * 15) : ℝ) - 15 * gmst| ≤ 5 / 10 ^ 14 := by
    refine rnd_real F (e := 0) (A := 360) (by push_cast; rw [mul_comm, sub_self, abs_zero]) (by rw [abs_of_nonneg (by linarith)]; linarith) (by norm_num)
  have hB := abs_le.1 hA180
  have hl : |(F.rnd (F.rnd (a * r2dD) - F.rnd (gmst * 15)) : ℝ) - (B - 15 * gmst)| ≤ 118 / 10 ^ 14 := by
    refine rnd_real F (e := 110 / 10 ^ 14) (A := 540) ?_ ?_ (by norm_num)
    · push_cast
      rw [abs_le] at hth hg ⊢
      constructor <;> linarith
    · rw [abs_le]; constructor <;> linarith
  generalize F.rnd (F.rnd (a * r2dD) - F.rnd (gmst * 15)) = l at *
  obtain ⟨l1, l2⟩ := abs_le.1 hl
  by_cases c1 : l > 180
  · rw [if_pos c1]
    have c1' : (180 : ℝ) < l := by exact_mod_cast c1
    have r : |(F.rnd (l - 360) : ℝ) - (B - 15 * gmst - 360)| ≤ 2 / 10 ^ 12 := by
      refine rnd_real F (e := 118 / 10 ^ 14) (A := 1000) ?_ ?_ (by norm_num)
      · push_cast
        rw [abs_le]; constructor <;> linarith
      · rw [abs_le]; constructor <;> linarith
    refine ⟨?_, -1, ?_⟩
    · rw [abs_le] at r ⊢; constructor <;> linarith
    · push_cast
      rw [abs_le] at r ⊢; constructor <;> linarith
  · rw [if_neg c1]
    have c1' : (l : ℝ) ≤ 180 := by exact_mod_cast not_lt.1 c1
    by_cases c2 : l < -180
    · rw [if_pos c2]
      have c2' : (l : ℝ) < -180 := by exact_mod_cast c2
      have r : |(F.rnd (l + 360) : ℝ) - (B - 15 * gmst + 360)| ≤ 2 / 10 ^ 12 := by
        refine rnd_real F (e := 118 / 10 ^ 14) (A := 1000) ?_ ?_ (by norm_num)
        · push_cast
          rw [abs_le]; constructor <;> linarith
        · rw [abs_le]; constructor <;> linarith
      refine ⟨?_, 1, ?_⟩
      · rw [abs_le] at r ⊢; constructor <;> linarith
      · push_cast
        rw [abs_le] at r ⊢; constructor <;> linarith
    · rw [if_neg c2]
      have c2' : (-180 : ℝ) ≤ l := by exact_mod_cast not_lt.1 c2
      refine ⟨by rw [abs_le]; constructor <;> linarith, 0, ?_⟩
      push_cast
      rw [abs_le]; constructor <;> linarith

/-! ### The whole -/

/-- The latitude of the last pass is away from the poles. -/
theorem lat_cos {r R z p lat : ℝ} (r0 : 0 ≤ r) (hr : |r - R| ≤ 3 / 10 ^ 11) (hR60 : 60 ≤ R) (hR1 : R ≤ 50000) (hz1 : |z| ≤ 50000) (hz : |z| ≤ 90 * R)
    (hnear : |lat - nextLat r z p| ≤ 13 / 10 ^ 16) :
    √(r * r + (z + shift p) * (z + shift p)) ≤ 71000 ∧ 1 / 100 ≤ Real.cos lat ∧ r / Real.cos lat ≤ 71001 := by
  obtain ⟨ra, rb⟩ := abs_le.1 hr
  have hsh := shift_abs p
  have hza := abs_nonneg z
  have ⟨q1, _⟩ := atan2_polar (z + shift p) r
  have hDm := Real.mul_self_sqrt (show 0 ≤ r * r + (z + shift p) * (z + shift p) by nlinarith [mul_self_nonneg r, mul_self_nonneg (z + shift p)])
  have hD0 := Real.sqrt_nonneg (r * r + (z + shift p) * (z + shift p))
  have hw : |z + shift p| ≤ |z| + 43 := (abs_add_le _ _).trans (by linarith)
  have hww : |z + shift p| * |z + shift p| = (z + shift p) * (z + shift p) := abs_mul_abs_self _
  have hwa := abs_nonneg (z + shift p)
  have hD1 : √(r * r + (z + shift p) * (z + shift p)) ≤ r + |z + shift p| := by
    refine Real.sqrt_le_iff.2 ⟨by linarith, ?_⟩
    rw [← hww]
    nlinarith
  have hD2 : √(r * r + (z + shift p) * (z + shift p)) ≤ 71000 := by
    refine Real.sqrt_le_iff.2 ⟨by norm_num, ?_⟩
    rw [← hww]
    have w1 : |z + shift p| ≤ 50043 := by linarith
    have w2 : r ≤ 50001 := by norm_num at rb; linarith
    nlinarith
  have hcosL : Real.cos (nextLat r z p) * √(r * r + (z + shift p) * (z + shift p)) = r := by rw [mul_comm]; exact q1
  have hDpos : 0 < √(r * r + (z + shift p) * (z + shift p)) := by
    rcases eq_or_lt_of_le hD0 with h | h
    · rw [← h, mul_zero] at hcosL
      norm_num at ra
      linarith
    · exact h
  have hcL : 1 / 95 ≤ Real.cos (nextLat r z p) := by
    by_contra hc
    push Not at hc
    have : Real.cos (nextLat r z p) * √(r * r + (z + shift p) * (z + shift p)) < 1 / 95 * (r + |z + shift p|) := by
      calc _ < 1 / 95 * √(r * r + (z + shift p) * (z + shift p)) := mul_lt_mul_of_pos_right hc hDpos
        _ ≤ _ := mul_le_mul_of_nonneg_left hD1 (by norm_num)
    rw [hcosL] at this
    norm_num at ra rb
    linarith
  have hcd := Real.abs_cos_sub_cos_le lat (nextLat r z p)
  have hcos : 1 / 100 ≤ Real.cos lat := by
    have := (abs_le.1 (hcd.trans hnear)).1
    norm_num at this ⊢
    linarith
  have hT : r / Real.cos lat ≤ 71001 := by
    rw [div_le_iff₀ (by linarith), ← hcosL]
    have h1 : Real.cos (nextLat r z p) ≤ Real.cos lat + 13 / 10 ^ 16 := by linarith [(abs_le.1 (hcd.trans hnear)).1]
    have h2 : 0 ≤ Real.cos (nextLat r z p) := by linarith
    have := mul_le_mul h1 hD2 hD0 (by linarith)
    norm_num at this
    linarith
  exact ⟨hD2, hcos, hT⟩

theorem lat_deg {lat deg : ℚ} (hcos : 1 / 100 ≤ Real.cos lat) (hlat : |(lat : ℝ)| ≤ 158 / 100) (hdeg : |(deg : ℝ) - 180 / Real.pi * lat| ≤ 1 / 10 ^ 12) :
    |(lat : ℝ)| ≤ Real.pi / 2 ∧ ¬ deg > 90 := by
  have hp := Real.pi_gt_d6
  have hp' := Real.pi_lt_d6
  have hhalf : |(lat : ℝ)| ≤ Real.pi / 2 - 9 / 1000 := by
    have hce : Real.cos |(lat : ℝ)| = Real.cos lat := Real.cos_abs _
    rw [← hce, ← Real.sin_pi_div_two_sub] at hcos
    by_contra hc
    push Not at hc
    rcases le_or_gt 0 (Real.pi / 2 - |(lat : ℝ)|) with hs | hs
    · have := Real.sin_le hs
      linarith
    · have := Real.sin_neg_of_neg_of_neg_pi_lt hs (by linarith)
      linarith
  have hle : ¬ deg > 90 := by
    rw [gt_iff_lt, not_lt]
    have : (deg : ℝ) ≤ 90 := by
      have h57 : 57 ≤ 180 / Real.pi := by rw [le_div_iff₀ Real.pi_pos]; linarith
      have h1 : 180 / Real.pi * (lat : ℝ) ≤ 180 / Real.pi * (Real.pi / 2 - 9 / 1000) :=
        mul_le_mul_of_nonneg_left ((le_abs_self _).trans hhalf) (by positivity)
      rw [mul_sub, show 180 / Real.pi * (Real.pi / 2) = 90 by field_simp; norm_num] at h1
      have := (abs_le.1 hdeg).2
      norm_num at this
      linarith
    exact_mod_cast this
  exact ⟨by linarith, hle⟩

/-- The point below the satellite: the loop ends after at most 37 passes, nothing is NaN, and latitude and altitude are geodetic to `2 * 10 ^ -8`
km; the longitude is the exact one to `2 * 10 ^ -12` degrees. -/
theorem C187_geolocation (F : Fl64) (M : GeoLib) {gmst x y z : ℚ} {R : ℝ} (h0 : 0 ≤ gmst) (h1 : gmst ≤ 24) (hR : R = √((x : ℝ) * x + y * y))
    (hR1 : R ≤ 50000) (hz1 : |(z : ℝ)| ≤ 50000) (hd : (6000 : ℝ) * 6000 ≤ R * R + z * z) (hz : |(z : ℝ)| ≤ 90 * R) :
    ∃ deg lon alt, geoD F M 37 gmst x y z = some (deg, lon, alt) ∧
      (∃ lat : ℝ, |(deg : ℝ) - 180 / Real.pi * lat| ≤ 1 / 10 ^ 12 ∧ |lat| ≤ Real.pi / 2 ∧
        |(geodetic ERAD Geo.F lat alt).1 - R| ≤ 1 / 10 ^ 8 ∧ |(geodetic ERAD Geo.F lat alt).2 - z| ≤ 2 / 10 ^ 8) ∧
      |(lon : ℝ)| ≤ 180 + 1 / 10 ^ 9 ∧ ∃ k : ℤ, |(lon : ℝ) - (180 / Real.pi * Complex.arg ⟨x, y⟩ - 15 * gmst) - 360 * k| ≤ 2 / 10 ^ 12 := by
  have hp := Real.pi_gt_d6
  have hp' := Real.pi_lt_d6
  have hR0 : 0 ≤ R := by rw [hR]; exact Real.sqrt_nonneg _
  have hzz : |(z : ℝ)| * |(z : ℝ)| = z * z := abs_mul_abs_self _
  have hza := abs_nonneg (z : ℝ)
  have hR60 : 60 ≤ R := by
    by_contra hc
    push Not at hc
    nlinarith
  obtain ⟨r0, hr⟩ := axisD_near F M hR hR60 hR1
  obtain ⟨hl1, hl2⟩ := lon_near F M (x := x) (y := y) h0 h1
  unfold geoD
  dsimp only
  generalize axisD F M x y = r at *
  have r0' : (0 : ℝ) ≤ r := by exact_mod_cast r0
  obtain ⟨ra, rb⟩ := abs_le.1 hr
  have hd' : (200 : ℝ) * 200 ≤ r * r + z * z := by nlinarith
  have hstart : ∀ w : ℚ, |(M.atan2 w r : ℝ)| ≤ 158 / 100 := by
    intro w
    have h4 : |Complex.arg ⟨r, w⟩| ≤ Real.pi / 2 := Complex.abs_arg_le_pi_div_two_iff.mpr r0'
    have h5 := M.atan2_err w r
    have h6 := abs_sub_abs_le_abs_sub (M.atan2 w r : ℝ) (Complex.arg ⟨r, w⟩)
    norm_num at hp' h5 ⊢
    linarith
  obtain ⟨⟨lat, c⟩, hloop⟩ := loopD_ends F M r0 hd' 36 (M.atan2 z r) (by
    have a := hstart z
    have b : |(nextLatD F M r z (M.atan2 z r) : ℝ)| ≤ 158 / 100 := hstart _
    have := abs_sub (nextLatD F M r z (M.atan2 z r) : ℝ) (M.atan2 z r)
    norm_num at a b ⊢
    linarith)
  rw [hloop]
  obtain ⟨p, e1, e2, e3⟩ := loopD_some F M hloop
  have hnear : |(lat : ℝ) - nextLat r z p| ≤ 13 / 10 ^ 16 := by rw [e1]; exact next_near F M r0 hd' p
  have hlat : |(lat : ℝ)| ≤ 158 / 100 := by rw [e1]; exact hstart _
  obtain ⟨hD2, hcos, hT⟩ := lat_cos r0' hr hR60 hR1 hz1 hz hnear
  obtain ⟨hne, halt⟩ := alt_near F M (p := p) r0 hcos hT
  have hdeg := angle_deg F (a := lat) (by
    have : |(lat : ℝ)| ≤ 7 := by linarith
    exact_mod_cast this)
  obtain ⟨hhalf, hle⟩ := lat_deg hcos hlat hdeg
  refine ⟨F.rnd (lat * r2dD), geoLonD F M gmst x y, F.rnd (F.rnd (r / M.cos lat) - F.rnd (eradD F * c)), ?_, ⟨lat, hdeg, hhalf, ?_⟩, hl1, hl2⟩
  · rw [Option.bind_some]
    dsimp only
    rw [if_neg hne, if_neg hle]
  · rw [e2]
    exact geodetic_close r0' hr hnear e3 hcos hD2 halt

/-! ### Example -/

/-- There are such libraries. -/
noncomputable def geoLib : GeoLib where
  toLibm := bestLib
  atan2 y x := rounded (Complex.arg ⟨x, y⟩)
  atan2_err y x := rounded_err _ (by norm_num)

/-- A satellite 5000 km from the axis and 5000 km north of the equator, at 6 hours: the loop ends and the longitude is 90 degrees west. -/
example : ∃ deg lon alt, geoD Fl64.ieee geoLib 37 6 5000 0 5000 = some (deg, lon, alt) ∧ |(lon : ℝ) + 90| ≤ 2 / 10 ^ 12 ∧
    ∃ lat : ℝ, |(deg : ℝ) - 180 / Real.pi * lat| ≤ 1 / 10 ^ 12 ∧ |(geodetic ERAD Geo.F lat alt).1 - 5000| ≤ 1 / 10 ^ 8 ∧
      |(geodetic ERAD Geo.F lat alt).2 - 5000| ≤ 2 / 10 ^ 8 := by
  have hR : (5000 : ℝ) = √(((5000 : ℚ) : ℝ) * (5000 : ℚ) + ((0 : ℚ) : ℝ) * (0 : ℚ)) := by
    push_cast
    rw [mul_zero, add_zero, Real.sqrt_mul_self (by norm_num)]
  have hA : Complex.arg ⟨((5000 : ℚ) : ℝ), ((0 : ℚ) : ℝ)⟩ = 0 := by
    rw [show (⟨((5000 : ℚ) : ℝ), ((0 : ℚ) : ℝ)⟩ : ℂ) = ((5000 : ℝ) : ℂ) by apply Complex.ext <;> simp, Complex.arg_ofReal_of_nonneg (by norm_num)]
  obtain ⟨deg, lon, alt, e, ⟨lat, l1, _, l3, l4⟩, m1, k, m2⟩ := C187_geolocation Fl64.ieee geoLib (gmst := 6) (z := 5000) (by norm_num) (by norm_num) hR
    (by norm_num) (by norm_num) (by norm_num) (by norm_num)
  rw [hA] at m2
  push_cast at m2 l4
  refine ⟨deg, lon, alt, e, ?_, lat, l1, l3, l4⟩
  have hk : k = 0 := by
    obtain ⟨a1, a2⟩ := abs_le.1 m1
    obtain ⟨b1, b2⟩ := abs_le.1 m2
    norm_num at a1 a2 b1 b2
    have u : (k : ℝ) < 1 := by linarith
    have v : (-1 : ℝ) < k := by linarith
    have u' : k < 1 := by exact_mod_cast u
    have v' : -1 < k := by exact_mod_cast v
    omega
  rw [hk] at m2
  push_cast at m2
  rwa [mul_zero, zero_sub, show (15 : ℝ) * 6 = 90 by norm_num, mul_zero, sub_zero, sub_neg_eq_add] at m2

end SatSky.Props
