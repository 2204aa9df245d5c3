import Mathlib.Geometry.Euclidean.Angle.Unoriented.TriangleInequality
import Verif.Lemmas.Sphere
import Verif.Props.PipeDouble
import Verif.Props.SepDouble

/-! C185: separation, speed and selection in `double` arithmetic. -/

namespace SatSky.Props

open SatSky Spec Geo Relative Spec.Decimal Opts

/-- A direction moves by no more than its coordinates do. -/
theorem angle_move {a b c d e : ℝ} {k : ℤ} (h1 : |c - a - 2 * Real.pi * k| ≤ e) (h2 : |d - b| ≤ e) (he : e ≤ 1 / 2) :
    Spec.angle (dir a b) (dir c d) ≤ 23 / 10 * e := by
  have he0 := (abs_nonneg _).trans h1
  have hd := abs_dot_dir_le a b c d
  rw [angle_dir, ← two_arcsin hd]
  have hdot : 1 - e ^ 2 ≤ (dir a b).dot (dir c d) := by
    rw [dot_dir]
    have c1 := Real.one_sub_sq_div_two_le_cos (x := d - b)
    have c2 := Real.one_sub_sq_div_two_le_cos (x := c - a - 2 * Real.pi * k)
    have hc : Real.cos (c - a - 2 * Real.pi * k) = Real.cos (c - a) := by
      rw [show c - a - 2 * Real.pi * k = c - a - k * (2 * Real.pi) by ring, Real.cos_sub_int_mul_two_pi]
    rw [hc] at c2
    have q1 : (d - b) ^ 2 ≤ e ^ 2 := sq_le_sq' (by linarith [(abs_le.1 h2).1]) (abs_le.1 h2).2
    have q2 : (c - a - 2 * Real.pi * k) ^ 2 ≤ e ^ 2 := sq_le_sq' (by linarith [(abs_le.1 h1).1]) (abs_le.1 h1).2
    have p : |Real.cos b * Real.cos d| ≤ 1 := by
      rw [abs_mul]
      have := mul_le_mul (Real.abs_cos_le_one b) (Real.abs_cos_le_one d) (abs_nonneg _) (by norm_num)
      linarith
    have hn : 0 ≤ 1 - Real.cos (c - a) := by linarith [Real.cos_le_one (c - a)]
    have := mul_le_mul_of_nonneg_right (abs_le.1 p).2 hn
    linarith
  have hs : √((1 - (dir a b).dot (dir c d)) / 2) ≤ 7072 / 10 ^ 4 * e := by
    refine Real.sqrt_le_iff.2 ⟨by positivity, ?_⟩
    norm_num
    nlinarith [sq_nonneg e]
  have hb := arcsin_small (Real.sqrt_nonneg ((1 - (dir a b).dot (dir c d)) / 2)) (by linarith)
  have hp := Real.pi_lt_d2
  have := mul_le_mul (show Real.pi / 2 ≤ 1.575 by linarith) hs (Real.sqrt_nonneg _) (by norm_num)
  linarith

theorem angle_triangle (u v w : V3) : |Spec.angle u w - Spec.angle u v| ≤ Spec.angle v w := by
  unfold Spec.angle
  have h1 := InnerProductGeometry.angle_le_angle_add_angle u.toE v.toE w.toE
  have h2 := InnerProductGeometry.angle_le_angle_add_angle u.toE w.toE v.toE
  rw [InnerProductGeometry.angle_comm w.toE v.toE] at h2
  rw [abs_le]
  constructor <;> linarith

theorem angle_sym (u v : V3) : Spec.angle u v = Spec.angle v u := InnerProductGeometry.angle_comm _ _

/-- The separation of two computed directions is that of the exact ones. -/
theorem separation_near (F : Fl64) (M : Libm) {t1 p1 t2 p2 : ℚ} {A B C D e1 e2 : ℝ} {i j : ℤ} (ht1 : |t1| ≤ twopiD) (ht2 : |t2| ≤ twopiD)
    (h1 : |p1| ≤ piD / 2) (h2 : |p2| ≤ piD / 2) (a1 : |(t1 : ℝ) - A - 2 * Real.pi * i| ≤ e1) (b1 : |(p1 : ℝ) - B| ≤ e1)
    (a2 : |(t2 : ℝ) - C - 2 * Real.pi * j| ≤ e2) (b2 : |(p2 : ℝ) - D| ≤ e2) (he1 : e1 ≤ 1 / 10 ^ 6) (he2 : e2 ≤ 1 / 10 ^ 6)
    (hA : Spec.angle (dir A B) (dir C D) ≤ 178 / 180 * Real.pi) :
    ∃ y, skysepD F M t1 p1 t2 p2 = some y ∧ |(y : ℝ) - Spec.angle (dir A B) (dir C D) * (180 / Real.pi)| ≤ 132 * (e1 + e2) + 3 / 10 ^ 11 := by
  have hp := Real.pi_gt_d6
  have hpd : ((piD : ℚ) : ℝ) ≤ Real.pi := by
    have := Real.pi_gt_d20
    norm_num [piD] at this ⊢
    linarith
  have k1 : |(p1 : ℝ)| ≤ Real.pi / 2 := by
    have : |(p1 : ℝ)| ≤ (piD : ℝ) / 2 := by simpa using abs_real h1
    linarith
  have k2 : |(p2 : ℝ)| ≤ Real.pi / 2 := by
    have : |(p2 : ℝ)| ≤ (piD : ℝ) / 2 := by simpa using abs_real h2
    linarith
  have m1 := angle_move a1 b1 (by norm_num at he1 ⊢; linarith)
  have m2 := angle_move a2 b2 (by norm_num at he2 ⊢; linarith)
  have t1' := angle_triangle (dir C D) (dir A B) (dir t1 p1)
  have t2' := angle_triangle (dir t1 p1) (dir C D) (dir t2 p2)
  rw [angle_sym (dir C D) (dir t1 p1), angle_sym (dir C D) (dir A B)] at t1'
  have hdiff : |Spec.angle (dir t1 p1) (dir t2 p2) - Spec.angle (dir A B) (dir C D)| ≤ 23 / 10 * (e1 + e2) := by
    have := abs_sub_le (Spec.angle (dir (t1 : ℝ) p1) (dir t2 p2)) (Spec.angle (dir t1 p1) (dir C D)) (Spec.angle (dir A B) (dir C D))
    linarith
  obtain ⟨y, hy, hb⟩ := C177_far F M ht1 ht2 k1 k2 (by
    have := (abs_le.1 hdiff).2
    norm_num at he1 he2
    linarith)
  refine ⟨y, hy, ?_⟩
  have hpos : 0 < 180 / Real.pi := by positivity
  have h57 : 180 / Real.pi ≤ 573 / 10 := by rw [div_le_iff₀ Real.pi_pos]; norm_num at hp ⊢; linarith
  have e : |Spec.angle (dir (t1 : ℝ) p1) (dir t2 p2) * (180 / Real.pi) - Spec.angle (dir A B) (dir C D) * (180 / Real.pi)| ≤ 23 / 10 * (e1 + e2) * (573 / 10) := by
    rw [← sub_mul, abs_mul, abs_of_pos hpos]
    exact mul_le_mul hdiff h57 hpos.le ((abs_nonneg _).trans hdiff)
  have := abs_sub_le (y : ℝ) (Spec.angle (dir (t1 : ℝ) p1) (dir t2 p2) * (180 / Real.pi)) (Spec.angle (dir A B) (dir C D) * (180 / Real.pi))
  have e10 := (abs_nonneg _).trans b1
  have e20 := (abs_nonneg _).trans b2
  linarith

/-- `(ra, dec)` are a direction in the ranges the program keeps, within `5 * 10 ^ -9` radians of the exact one: what C184 gives. -/
structure Near (ra dec : ℚ) (RA DEC : ℝ) : Prop where
  low : 0 ≤ ra
  up : ra ≤ twopiD
  lat : |dec| ≤ piD / 2
  lon_near : ∃ k : ℤ, |(ra : ℝ) - RA - 2 * Real.pi * k| ≤ 5 / 10 ^ 9
  lat_near : |(dec : ℝ) - DEC| ≤ 5 / 10 ^ 9

/-- From a station, an instant and a satellite the program computes a direction near the exact one (C184). -/
theorem C185_near (MO : ObsLib) (MD : DirLib Fl64.ieee) (MP : PrecLib) {jdo jd lon lat ht s0 s1 s2 : ℚ} {m : ℤ} (hm : jdo = m / 2 ^ 31)
    (ho : |jdo - 2451545| ≤ 73050) (hj : |jd - 2451545| ≤ 73050) (hlon : |lon| ≤ 7) (hlat : 1 / 10 ^ 17 ≤ Real.cos lat) (hh : |ht| ≤ 637814)
    {RA DEC D RA' DEC' : ℝ}
    (hE : get_satellite_ra_dec_delta
      (observer_cartesian_coords jdo lon (earth_lat_alt_to_parallax lat ht).1 (earth_lat_alt_to_parallax lat ht).2) ⟨s0, s1, s2⟩ = (RA, DEC, D))
    (hP : epoch_of_date_to_j2000 jd RA DEC = (RA', DEC')) (hD : 100 ≤ D) (hs : |Real.sin DEC| ≤ 97 / 100) :
    ∃ ra dec d, positionD MO MD MP jdo jd lon lat ht s0 s1 s2 = some (ra, dec, d) ∧ Near ra dec RA' DEC' := by
  obtain ⟨ra, dec, d, e, h1, h2, h3, h4, h5, _⟩ := C184_position MO MD MP hm ho hj hlon hlat hh hE hP hD hs
  exact ⟨ra, dec, d, e, h1, h2, h3, h4, h5⟩

/-- The separation from the target, computed and as printed. -/
theorem C185_separation (F : Fl64) (M : Libm) {tra tdec ra dec : ℚ} {RA DEC : ℝ} (ht : |tra| ≤ twopiD) (hp : |tdec| ≤ piD / 2) (h : Near ra dec RA DEC)
    (hA : Spec.angle (dir tra tdec) (dir RA DEC) ≤ 178 / 180 * Real.pi) :
    ∃ y v, skysepD F M tra tdec ra dec = some y ∧ |(y : ℝ) - Spec.angle (dir tra tdec) (dir RA DEC) * (180 / Real.pi)| ≤ 7 / 10 ^ 7 ∧
      value (padLeft 6 (fmtF 4 y)) = some v ∧ |(v : ℝ) - Spec.angle (dir tra tdec) (dir RA DEC) * (180 / Real.pi)| ≤ 507 / 10 ^ 7 := by
  obtain ⟨k, hk⟩ := h.lon_near
  obtain ⟨y, hy, hb⟩ := separation_near F M (A := tra) (B := tdec) (i := 0) (e1 := 0) ht (by rw [abs_of_nonneg h.low]; exact h.up) hp h.lat (by simp)
    (by simp) hk h.lat_near (by norm_num) (by norm_num) hA
  obtain ⟨v, e1, e2⟩ := C182_number 6 4 (by norm_num) y
  have e3 : |(((v : ℚ) / 10 ^ 4 : ℚ) : ℝ) - y| ≤ 1 / 2 / 10 ^ 4 := by simpa using abs_real e2
  have hb' : |(y : ℝ) - Spec.angle (dir tra tdec) (dir RA DEC) * (180 / Real.pi)| ≤ 7 / 10 ^ 7 := hb.trans (by norm_num)
  refine ⟨y, _, hy, hb', e1, ?_⟩
  have := abs_sub_le (((v : ℚ) / 10 ^ 4 : ℚ) : ℝ) y (Spec.angle (dir tra tdec) (dir RA DEC) * (180 / Real.pi))
  linarith

/-- The speed, computed and as printed, is the angle between the exact directions divided by the time. -/
theorem C185_speed (F : Fl64) (M : Libm) {ra dec ra1 dec1 : ℚ} {RA DEC RA1 DEC1 : ℝ} {dt : ℤ} (h : Near ra dec RA DEC) (h1 : Near ra1 dec1 RA1 DEC1)
    (hdt : 1 ≤ dt) (hdt2 : dt ≤ 2 ^ 31) (hA : Spec.angle (dir RA DEC) (dir RA1 DEC1) ≤ 178 / 180 * Real.pi) :
    ∃ y v, speedD F M ra dec ra1 dec1 dt = some y ∧ |(y : ℝ) - Spec.angle (dir RA DEC) (dir RA1 DEC1) * (180 / Real.pi) * 60 / dt| ≤ 8 / 10 ^ 5 / dt ∧
      value (padLeft 6 (fmtF 3 y)) = some v ∧ |(v : ℝ) - Spec.angle (dir RA DEC) (dir RA1 DEC1) * (180 / Real.pi) * 60 / dt| ≤ 5 / 10 ^ 4 + 8 / 10 ^ 5 / dt := by
  obtain ⟨k, hk⟩ := h.lon_near
  obtain ⟨j, hj⟩ := h1.lon_near
  obtain ⟨s, hs, hb⟩ := separation_near F M (by rw [abs_of_nonneg h.low]; exact h.up) (by rw [abs_of_nonneg h1.low]; exact h1.up) h.lat h1.lat hk h.lat_near
    hj h1.lat_near (by norm_num) (by norm_num) hA
  have hd : (1 : ℝ) ≤ dt := by exact_mod_cast hdt
  have hd0 : (0 : ℝ) < dt := by linarith
  have hA0 : 0 ≤ Spec.angle (dir RA DEC) (dir RA1 DEC1) := InnerProductGeometry.angle_nonneg _ _
  have hA1 : Spec.angle (dir RA DEC) (dir RA1 DEC1) * (180 / Real.pi) ≤ 178 := by
    have := mul_le_mul_of_nonneg_right hA (show 0 ≤ 180 / Real.pi by positivity)
    rwa [show 178 / 180 * Real.pi * (180 / Real.pi) = 178 by field_simp] at this
  have hA2 : 0 ≤ Spec.angle (dir RA DEC) (dir RA1 DEC1) * (180 / Real.pi) := mul_nonneg hA0 (by positivity)
  generalize Spec.angle (dir RA DEC) (dir RA1 DEC1) * (180 / Real.pi) = X at *
  have hb' : |(s : ℝ) - X| ≤ 1321 / 10 ^ 9 := hb.trans (by norm_num)
  have r1 : |(F.rnd (s * 60) : ℝ) - X * 60| ≤ 793 / 10 ^ 7 := by
    refine rnd_real F (e := 1321 / 10 ^ 9 * 60) (A := 178 * 60) ?_ ?_ (by norm_num)
    · push_cast
      rw [← sub_mul, abs_mul, abs_of_pos (show (0 : ℝ) < 60 by norm_num)]
      exact mul_le_mul_of_nonneg_right hb' (by norm_num)
    · rw [abs_of_nonneg (by linarith)]; linarith
  have r2 : |(F.rnd (F.rnd (s * 60) / dt) : ℝ) - X * 60 / dt| ≤ 8 / 10 ^ 5 / dt := by
    have e0 := err_real F (F.rnd (s * 60) / dt)
    push_cast at e0
    have e1 : |(F.rnd (s * 60) : ℝ) / dt - X * 60 / dt| ≤ 793 / 10 ^ 7 / dt := by
      rw [← sub_div, abs_div, abs_of_pos hd0]; exact div_le_div_of_nonneg_right r1 hd0.le
    have e2 : |(F.rnd (s * 60) : ℝ) / dt| ≤ 10681 / dt := by
      rw [abs_div, abs_of_pos hd0]
      refine div_le_div_of_nonneg_right ?_ hd0.le
      have := abs_sub_abs_le_abs_sub (F.rnd (s * 60) : ℝ) (X * 60)
      rw [abs_of_nonneg (show 0 ≤ X * 60 by linarith)] at this
      norm_num at r1 ⊢; linarith
    have e3 := abs_sub_le (F.rnd (F.rnd (s * 60) / dt) : ℝ) ((F.rnd (s * 60) : ℝ) / dt) (X * 60 / dt)
    have e4 : 0 < 1 / (dt : ℝ) := by positivity
    have e5 : 1 / (2 : ℝ) ^ 31 ≤ 1 / dt := one_div_le_one_div_of_le hd0 (by exact_mod_cast hdt2)
    rw [div_eq_mul_one_div (10681 : ℝ)] at e2
    rw [div_eq_mul_one_div (793 / 10 ^ 7 : ℝ)] at e1
    rw [div_eq_mul_one_div (8 / 10 ^ 5 : ℝ)]
    linarith
  obtain ⟨v, f1, f2⟩ := C182_number 6 3 (by norm_num) (F.rnd (F.rnd (s * 60) / dt))
  have f3 : |(((v : ℚ) / 10 ^ 3 : ℚ) : ℝ) - F.rnd (F.rnd (s * 60) / dt)| ≤ 1 / 2 / 10 ^ 3 := by simpa using abs_real f2
  refine ⟨_, _, ?_, r2, f1, ?_⟩
  · unfold speedD
    rw [if_neg (by omega), hs]
    rfl
  · have := abs_sub_le (((v : ℚ) / 10 ^ 3 : ℚ) : ℝ) (F.rnd (F.rnd (s * 60) / dt)) (X * 60 / dt)
    linarith

/-- Whether a satellite is reported: surely if one of its exact directions is within the radius by `7 * 10 ^ -7` degrees, surely not if both are
outside by as much. -/
theorem C185_region (F : Fl64) (M : Libm) {tra tdec radius ra dec ra1 dec1 : ℚ} {RA DEC RA1 DEC1 : ℝ} (ht : |tra| ≤ twopiD) (hp : |tdec| ≤ piD / 2)
    (h : Near ra dec RA DEC) (h1 : Near ra1 dec1 RA1 DEC1) (hA : Spec.angle (dir tra tdec) (dir RA DEC) ≤ 178 / 180 * Real.pi)
    (hA1 : Spec.angle (dir tra tdec) (dir RA1 DEC1) ≤ 178 / 180 * Real.pi) :
    ∃ b, inRegionD F M tra tdec radius ra dec ra1 dec1 = some b ∧
      (Spec.angle (dir tra tdec) (dir RA DEC) * (180 / Real.pi) ≤ radius - 7 / 10 ^ 7 ∨
        Spec.angle (dir tra tdec) (dir RA1 DEC1) * (180 / Real.pi) ≤ radius - 7 / 10 ^ 7 → b = true) ∧
      (radius + 7 / 10 ^ 7 < Spec.angle (dir tra tdec) (dir RA DEC) * (180 / Real.pi) →
        radius + 7 / 10 ^ 7 < Spec.angle (dir tra tdec) (dir RA1 DEC1) * (180 / Real.pi) → b = false) := by
  obtain ⟨s, _, e1, e2, _⟩ := C185_separation F M ht hp h hA
  obtain ⟨s1, _, e3, e4, _⟩ := C185_separation F M ht hp h1 hA1
  obtain ⟨u1, u2⟩ := abs_le.1 e2
  obtain ⟨u3, u4⟩ := abs_le.1 e4
  refine ⟨decide (s ≤ radius ∨ s1 ≤ radius), by unfold inRegionD; rw [e1, e3]; rfl, ?_, ?_⟩
  · intro hor
    rw [decide_eq_true_iff]
    rcases hor with hor | hor
    · left
      have : (s : ℝ) ≤ radius := by linarith
      exact_mod_cast this
    · right
      have : (s1 : ℝ) ≤ radius := by linarith
      exact_mod_cast this
  · intro g1 g2
    rw [decide_eq_false_iff_not, not_or, not_le, not_le]
    have f1 : (radius : ℝ) < s := by linarith
    have f2 : (radius : ℝ) < s1 := by linarith
    exact ⟨by exact_mod_cast f1, by exact_mod_cast f2⟩

/-! ### Example -/

theorem near_self {ra dec : ℚ} (h1 : 0 ≤ ra) (h2 : ra ≤ twopiD) (h3 : |dec| ≤ piD / 2) : Near ra dec ra dec :=
  ⟨h1, h2, h3, ⟨0, by norm_num⟩, by norm_num⟩

theorem angle_equator {a : ℝ} (h0 : 0 ≤ a) (h1 : a ≤ Real.pi) : Spec.angle (dir 0 0) (dir a 0) = a := by
  rw [angle_dir, dot_dir]
  simp only [sub_zero, sub_self, Real.cos_zero, mul_one, one_mul, sub_sub_cancel]
  exact Real.arccos_cos h0 h1

/-- A satellite moving from 0.1 to 0.2 radians east of the target: within 10 degrees of it, not within 5. -/
example (M : Libm) : inRegionD Fl64.ieee M 0 0 10 (1 / 10) 0 (2 / 10) 0 = some true ∧ inRegionD Fl64.ieee M 0 0 5 (1 / 10) 0 (2 / 10) 0 = some false := by
  have hp := Real.pi_gt_d2
  have hp' := Real.pi_lt_d2
  have n1 : Near (1 / 10) 0 (1 / 10) 0 := by simpa using near_self (ra := 1 / 10) (dec := 0) (by norm_num) (by norm_num [twopiD, piD]) (by norm_num [piD])
  have n2 : Near (2 / 10) 0 (2 / 10) 0 := by simpa using near_self (ra := 2 / 10) (dec := 0) (by norm_num) (by norm_num [twopiD, piD]) (by norm_num [piD])
  have a1 : Spec.angle (dir ((0 : ℚ) : ℝ) ((0 : ℚ) : ℝ)) (dir (1 / 10) 0) = 1 / 10 := by
    push_cast
    exact angle_equator (by norm_num) (by linarith)
  have a2 : Spec.angle (dir ((0 : ℚ) : ℝ) ((0 : ℚ) : ℝ)) (dir (2 / 10) 0) = 2 / 10 := by
    push_cast
    exact angle_equator (by norm_num) (by linarith)
  have b1 : 1 / 10 * (180 / Real.pi) ≤ 9 := by
    rw [mul_div_assoc', div_le_iff₀ Real.pi_pos]; linarith
  have b2 : 57 / 10 ≤ 1 / 10 * (180 / Real.pi) := by
    rw [mul_div_assoc', le_div_iff₀ Real.pi_pos]; linarith
  have key := fun r : ℚ => C185_region Fl64.ieee M (tra := 0) (tdec := 0) (radius := r) (by norm_num [twopiD, piD]) (by norm_num [piD]) n1 n2
    (by rw [a1]; linarith) (by rw [a2]; linarith)
  constructor
  · obtain ⟨b, e, h, _⟩ := key 10
    rw [e, h (Or.inl (by rw [a1]; push_cast; linarith))]
  · obtain ⟨b, e, _, h⟩ := key 5
    rw [e, h (by rw [a1]; push_cast; linarith) (by rw [a2]; push_cast; linarith)]

end SatSky.Props
