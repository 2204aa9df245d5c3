import Verif.Model.AzDouble
import Verif.Props.AltAz
import Verif.Props.GeoDouble
import Verif.Props.PipeDouble

/-! The azimuth in `double` arithmetic is the exact one to `3 * 10 ^ -12` degrees over the cosine of the altitude. -/

namespace SatSky.Props

open SatSky Spec Geo Relative

/-- The folding: into the range, by whole turns. -/
theorem fold360_near (F : Fl64) {a : ℚ} (h : |a| ≤ 181) : 0 ≤ fold360D F a ∧ fold360D F a < 360 ∧ ∃ k : ℤ, |(fold360D F a : ℝ) - a - 360 * k| ≤ 5 / 10 ^ 14 := by
  obtain ⟨h1, h2⟩ := abs_le.1 h
  have e360 : F.rnd 360 = 360 := by
    have := F.exact 360 0 (by norm_num) (by norm_num)
    norm_num at this
    exact this
  have e0 : F.rnd 0 = 0 := by
    have := F.exact 0 0 (by norm_num) (by norm_num)
    norm_num at this
    exact this
  unfold fold360D
  dsimp only
  by_cases hn : a < 0
  · rw [if_pos hn]
    have up : F.rnd (a + 360) ≤ 360 := by
      have := F.mono (a + 360) 360 (by linarith)
      rwa [e360] at this
    have er : |(F.rnd (a + 360) : ℝ) - (a + 360)| ≤ 5 / 10 ^ 14 := by
      refine rnd_real F (e := 0) (A := 360) (by push_cast; simp) ?_ (by norm_num)
      have h1' : (-181 : ℝ) ≤ a := by exact_mod_cast h1
      have hn' : (a : ℝ) < 0 := by exact_mod_cast hn
      rw [abs_le]
      constructor <;> linarith
    by_cases hb : F.rnd (a + 360) ≥ 360
    · rw [if_pos hb]
      have e : F.rnd (a + 360) = 360 := le_antisymm up hb
      rw [e, sub_self, e0]
      refine ⟨le_refl _, by norm_num, 0, ?_⟩
      rw [e] at er
      push_cast at er ⊢
      rw [abs_le] at er ⊢
      constructor <;> linarith
    · rw [if_neg hb]
      refine ⟨F.nonneg (by linarith), lt_of_not_ge hb, 1, ?_⟩
      push_cast
      rw [abs_le] at er ⊢
      constructor <;> linarith
  · rw [if_neg hn, if_neg (by linarith)]
    refine ⟨by linarith, by linarith, 0, ?_⟩
    push_cast
    rw [sub_self, mul_zero, sub_zero, abs_zero]
    norm_num

/-- The two arguments of `atan2`. -/
theorem az_args (F : Fl64) (M : Libm) {dec h lat : ℚ} {H L : ℝ} (e1 : |(lat : ℝ) - L| ≤ 5 / 10 ^ 16) (e2 : |(h : ℝ) - H| ≤ 3 / 10 ^ 15) :
    |(F.rnd (F.rnd (-1 * M.cos dec) * M.sin h) : ℝ) - (horizontal L H dec).y| ≤ 4 / 10 ^ 15 ∧
      |(F.rnd (F.rnd (M.sin dec * M.cos lat) - F.rnd (F.rnd (M.cos dec * M.cos h) * M.sin lat)) : ℝ) - (horizontal L H dec).x| ≤ 6 / 10 ^ 15 := by
  have cl := cos_lib M e1
  have sl := sin_lib M e1
  have cd := cos_lib M (show |(dec : ℝ) - dec| ≤ 0 by simp)
  have sd := sin_lib M (show |(dec : ℝ) - dec| ≤ 0 by simp)
  have ch := cos_lib M e2
  have sh := sin_lib M e2
  have bd := Real.abs_cos_le_one (dec : ℝ)
  have bsd := Real.abs_sin_le_one (dec : ℝ)
  have bl := Real.abs_cos_le_one L
  have bsl := Real.abs_sin_le_one L
  have bh := Real.abs_cos_le_one H
  have bsh := Real.abs_sin_le_one H
  rw [horizontal_eq]
  dsimp only
  generalize Real.cos (dec : ℝ) = CD at *
  generalize Real.sin (dec : ℝ) = SD at *
  generalize Real.cos L = CL at *
  generalize Real.sin L = SL at *
  generalize Real.cos H = CH at *
  generalize Real.sin H = SH at *
  constructor
  · have n1 : |-1 * CD| ≤ 1 := by rw [abs_mul]; simpa using bd
    have m1 : |(F.rnd (-1 * M.cos dec) : ℝ) - -1 * CD| ≤ 35 / 10 ^ 17 := by
      refine rnd_real F (e := 23 / 10 ^ 17) (A := 1) ?_ n1 (by norm_num)
      push_cast
      rw [← mul_sub, abs_mul]
      simpa using cd
    have m2 := prod_real m1 sh n1 bsh
    have q : |-1 * CD * SH| ≤ 1 := by rw [abs_mul]; exact mul_le_one₀ n1 (abs_nonneg _) bsh
    exact rnd_real F (by push_cast; exact m2) q (by norm_num)
  · have p1 := prod_real cd ch bd bh
    have q1 : |CD * CH| ≤ 1 := by rw [abs_mul]; exact mul_le_one₀ bd (abs_nonneg _) bh
    have r1 : |(F.rnd (M.cos dec * M.cos h) : ℝ) - CD * CH| ≤ 36 / 10 ^ 16 := rnd_real F (by push_cast; exact p1) q1 (by norm_num)
    have p2 := prod_real r1 sl q1 bsl
    have q2 : |CD * CH * SL| ≤ 1 := by rw [abs_mul]; exact mul_le_one₀ q1 (abs_nonneg _) bsl
    have r2 : |(F.rnd (F.rnd (M.cos dec * M.cos h) * M.sin lat) : ℝ) - CD * CH * SL| ≤ 45 / 10 ^ 16 := rnd_real F (by push_cast; exact p2) q2 (by norm_num)
    have p3 := prod_real sd cl bsd bl
    have q3 : |SD * CL| ≤ 1 := by rw [abs_mul]; exact mul_le_one₀ bsd (abs_nonneg _) bl
    have r3 : |(F.rnd (M.sin dec * M.cos lat) : ℝ) - SD * CL| ≤ 11 / 10 ^ 16 := rnd_real F (by push_cast; exact p3) q3 (by norm_num)
    refine rnd_real F (e := 56 / 10 ^ 16) (A := 2) ?_ ?_ (by norm_num)
    · push_cast
      rw [abs_le] at r2 r3 ⊢
      constructor <;> linarith
    · rw [abs_le] at q2 q3 ⊢
      constructor <;> linarith

/-- Away from the poles the cosine of the latitude passes the test of line 37. -/
theorem coslat_big (F : Fl64) (M : Libm) {l : ℚ} (hl : |l| ≤ 8999 / 100) : ¬ M.cos (F.rnd (l * d2rD)) < F.rnd (1 / 10 ^ 6) := by
  have e1 := lat_near F (l := l) (by linarith)
  generalize F.rnd (l * d2rD) = lat at *
  have cl := cos_lib M e1
  have hcos : 1 / 10 ^ 5 ≤ Real.cos (l * (Real.pi / 180)) := by
    have hp := Real.pi_gt_three
    have hl' : |(l : ℝ)| ≤ 8999 / 100 := by simpa using abs_real hl
    rw [← Real.cos_abs, abs_mul, abs_of_pos (by positivity : (0 : ℝ) < Real.pi / 180)]
    have hx : |(l : ℝ)| * (Real.pi / 180) ≤ Real.pi / 2 - 1 / 10000 := by nlinarith
    have hx0 : 0 ≤ |(l : ℝ)| * (Real.pi / 180) := by positivity
    have := Real.one_sub_mul_le_cos hx0 (by linarith)
    have h5 : 2 / Real.pi * (|(l : ℝ)| * (Real.pi / 180)) = |(l : ℝ)| / 90 := by field_simp; ring
    rw [h5] at this
    linarith
  intro hlt
  have h1 : (M.cos lat : ℝ) < F.rnd (1 / 10 ^ 6) := by exact_mod_cast hlt
  have h2 := err_real F (1 / 10 ^ 6)
  push_cast at h2
  rw [abs_of_pos (by norm_num : (0 : ℝ) < 1 / 10 ^ 6)] at h2
  linarith [(abs_le.1 h2).2, (abs_le.1 cl).1]

/-- The azimuth in radians. -/
theorem azRad_near (F : Fl64) (M : GeoLib) {dec h lat : ℚ} {H L : ℝ} {v : V3} {r : ℝ} (hv : v = horizontal L H dec)
    (hr : r = √(v.x * v.x + v.y * v.y)) (e1 : |(lat : ℝ) - L| ≤ 5 / 10 ^ 16) (e2 : |(h : ℝ) - H| ≤ 3 / 10 ^ 15) (hr0 : 1 / 10 ^ 11 ≤ r) :
    r ≤ 1 ∧ r * Real.cos (Complex.arg ⟨v.x, v.y⟩) = v.x ∧ r * Real.sin (Complex.arg ⟨v.x, v.y⟩) = v.y ∧ |(azRadD F M dec h lat : ℝ)| ≤ 3141594 / 10 ^ 6 ∧
      ∃ j : ℤ, |(azRadD F M dec h lat : ℝ) - Complex.arg ⟨v.x, v.y⟩ - 2 * Real.pi * j| ≤ 17 / 10 ^ 15 / r := by
  have hp' := Real.pi_lt_d6
  have hu := horizontal_unit L H dec
  have harg := az_args F M.toLibm (dec := dec) e1 e2
  unfold azRadD
  dsimp only
  rw [← hv] at harg hu
  obtain ⟨ey, ex⟩ := harg
  generalize F.rnd (F.rnd (-1 * M.cos dec) * M.sin h) = y at *
  generalize F.rnd (F.rnd (M.sin dec * M.cos lat) - F.rnd (F.rnd (M.cos dec * M.cos h) * M.sin lat)) = x at *
  have hrp : 0 < r := lt_of_lt_of_le (by norm_num) hr0
  have hrn : r = ‖(⟨v.x, v.y⟩ : ℂ)‖ := by
    rw [hr, Complex.norm_def, Complex.normSq_mk]
  have hr1 : r ≤ 1 := by
    rw [hr]
    refine Real.sqrt_le_iff.2 ⟨by norm_num, ?_⟩
    unfold V3.dot at hu
    nlinarith [mul_self_nonneg v.z]
  have hz : (⟨v.x, v.y⟩ : ℂ) ≠ 0 := by
    rw [← norm_pos_iff, ← hrn]; exact hrp
  obtain ⟨j, hj⟩ := arg_shift (z := ⟨x, y⟩) (e := 1 / 10 ^ 14 / r) hz (by
    rw [← hrn, div_mul_cancel₀ _ hrp.ne']
    refine (Complex.norm_le_abs_re_add_abs_im _).trans ?_
    simp only [Complex.sub_re, Complex.sub_im]
    refine (add_le_add ex ey).trans (by norm_num)) (by
    rw [div_le_iff₀ hrp]; norm_num at hr0 ⊢; linarith)
  have ha := M.atan2_err y x
  have hA := Complex.abs_arg_le_pi (⟨x, y⟩ : ℂ)
  have hc := Complex.norm_mul_cos_arg (⟨v.x, v.y⟩ : ℂ)
  have hs := Complex.norm_mul_sin_arg (⟨v.x, v.y⟩ : ℂ)
  rw [← hrn] at hc hs
  generalize M.atan2 y x = a at *
  generalize Complex.arg (⟨x, y⟩ : ℂ) = A at *
  generalize Complex.arg (⟨v.x, v.y⟩ : ℂ) = B at *
  have ha1 : |(a : ℝ) - A| ≤ 1 / 10 ^ 15 := ha.trans (by norm_num; linarith)
  refine ⟨hr1, hc, hs, ?_, j, ?_⟩
  · rw [abs_le] at *
    norm_num at *
    constructor <;> linarith
  · have i1 : 1 ≤ 1 / r := by rw [le_div_iff₀ hrp]; linarith
    have c2 : 1 / 10 ^ 15 + 16 / 10 * (1 / 10 ^ 14 / r) ≤ 17 / 10 ^ 15 / r := by
      rw [show (1 : ℝ) / 10 ^ 14 / r = 1 / 10 ^ 14 * (1 / r) by ring, show (17 : ℝ) / 10 ^ 15 / r = 17 / 10 ^ 15 * (1 / r) by ring]
      generalize 1 / r = w at *
      norm_num
      linarith
    rw [show (a : ℝ) - B - 2 * Real.pi * j = (a - A) + (A - B - 2 * Real.pi * j) by ring]
    exact ((abs_add_le _ _).trans (add_le_add ha1 hj)).trans c2

/-- An angle in degrees. -/
theorem turn_degrees (F : Fl64) {a : ℚ} {B e : ℝ} {j : ℤ} (ha : |(a : ℝ)| ≤ 3141594 / 10 ^ 6) (h : |(a : ℝ) - B - 2 * Real.pi * j| ≤ e) :
    |F.rnd (a * r2dD)| ≤ 181 ∧ |(F.rnd (a * r2dD) : ℝ) - 180 / Real.pi * B - 360 * j| ≤ 57296 / 1000 * e + 1 / 10 ^ 12 := by
  have hp := Real.pi_gt_d6
  have hdeg := angle_deg F (a := a) (by
    have : |(a : ℝ)| ≤ 7 := by norm_num at ha; linarith
    exact_mod_cast this)
  have h57 : 180 / Real.pi ≤ 57296 / 1000 := by rw [div_le_iff₀ (by linarith)]; linarith
  have h57p : 0 < 180 / Real.pi := by positivity
  constructor
  · have : |(F.rnd (a * r2dD) : ℝ)| ≤ 181 := by
      have := abs_sub_abs_le_abs_sub (F.rnd (a * r2dD) : ℝ) (180 / Real.pi * a)
      have e : |180 / Real.pi * (a : ℝ)| ≤ 57296 / 1000 * (3141594 / 10 ^ 6) := by
        rw [abs_mul, abs_of_pos h57p]
        exact mul_le_mul h57 ha (abs_nonneg _) (by norm_num)
      norm_num at *
      linarith
    exact_mod_cast this
  · have c1 : |180 / Real.pi * (a : ℝ) - 180 / Real.pi * B - 360 * j| ≤ 57296 / 1000 * e := by
      rw [show 180 / Real.pi * (a : ℝ) - 180 / Real.pi * B - 360 * j = 180 / Real.pi * (a - B - 2 * Real.pi * j) by field_simp; ring, abs_mul,
        abs_of_pos h57p]
      exact mul_le_mul h57 h (abs_nonneg _) (by norm_num)
    rw [abs_le] at c1 hdeg ⊢
    constructor <;> linarith

/-- The azimuth, away from the meridian `ha == 0`, the poles and the zenith. -/
theorem C189_azimuth (F : Fl64) (M : GeoLib) {dec ha l : ℚ} {v : V3} {r : ℝ} (hv : v = horizontal (l * (Real.pi / 180)) (ha * (Real.pi / 12)) dec)
    (hr : r = √(v.x * v.x + v.y * v.y)) (hl : |l| ≤ 8999 / 100) (hh : |ha| ≤ 24) (h0 : ha ≠ 0) (hr0 : 1 / 10 ^ 11 ≤ r) :
    0 ≤ azD F M dec ha l ∧ azD F M dec ha l < 360 ∧
      ∃ k : ℤ, |(azD F M dec ha l : ℝ) - 180 / Real.pi * Complex.arg ⟨v.x, v.y⟩ - 360 * k| ≤ 3 / 10 ^ 12 / r := by
  obtain ⟨hr1, _, _, ha3, j, hj⟩ := azRad_near F M hv hr (lat_near F (l := l) (by linarith)) (ha_near F hh) hr0
  unfold azD
  dsimp only
  rw [if_neg h0, if_neg (coslat_big F M.toLibm hl)]
  obtain ⟨h181, hd⟩ := turn_degrees F ha3 hj
  obtain ⟨f1, f2, k, hk⟩ := fold360_near F h181
  refine ⟨f1, f2, k + j, ?_⟩
  have hrp : 0 < r := lt_of_lt_of_le (by norm_num) hr0
  have i1 : 1 ≤ 1 / r := by rw [le_div_iff₀ hrp]; linarith
  have c2 : 57296 / 1000 * (17 / 10 ^ 15 / r) + 1 / 10 ^ 12 + 5 / 10 ^ 14 ≤ 3 / 10 ^ 12 / r := by
    rw [show (17 : ℝ) / 10 ^ 15 / r = 17 / 10 ^ 15 * (1 / r) by ring, show (3 : ℝ) / 10 ^ 12 / r = 3 / 10 ^ 12 * (1 / r) by ring]
    generalize 1 / r = w at *
    norm_num
    linarith
  refine le_trans ?_ c2
  push_cast
  rw [abs_le] at hd hk ⊢
  constructor <;> linarith

/-- The sine of the parallactic angle. -/
theorem par_sin (F : Fl64) (M : GeoLib) {a dec h lat : ℚ} {H L A r κ : ℝ} {j : ℤ} (e1 : |(lat : ℝ) - L| ≤ 5 / 10 ^ 16) (e2 : |(h : ℝ) - H| ≤ 3 / 10 ^ 15)
    (e3 : |(a : ℝ) - A - 2 * Real.pi * j| ≤ 17 / 10 ^ 15 / r) (hr1 : r ≤ 1) (hκ : κ = Real.cos dec) (hk0 : 0 ≤ κ) (hm : 1 / 10 ^ 10 ≤ r * κ) (hr0 : 0 < r)
    (hS : |-1 * Real.sin A * Real.cos L / κ| ≤ 1) :
    |((parSinCosD F M a dec h lat).1 : ℝ) - -1 * Real.sin A * Real.cos L / κ| ≤ 2 / 10 ^ 14 / (r * κ) := by
  have cd := cos_lib M.toLibm (show |(dec : ℝ) - dec| ≤ 0 by simp)
  rw [← hκ] at cd
  have hκ1 : κ ≤ 1 := hκ ▸ Real.cos_le_one _
  have e3' : |(a : ℝ) - (A + j * (2 * Real.pi))| ≤ 17 / 10 ^ 15 / r := by
    rw [show (a : ℝ) - (A + j * (2 * Real.pi)) = a - A - 2 * Real.pi * j by ring]; exact e3
  have sa := sin_lib M.toLibm e3'
  have ca := cos_lib M.toLibm e3'
  rw [Real.sin_add_int_mul_two_pi] at sa
  rw [Real.cos_add_int_mul_two_pi] at ca
  have cl := cos_lib M.toLibm e1
  have sl := sin_lib M.toLibm e1
  have ch := cos_lib M.toLibm e2
  have sh := sin_lib M.toLibm e2
  have bsa := Real.abs_sin_le_one A
  have bca := Real.abs_cos_le_one A
  have bl := Real.abs_cos_le_one L
  have bsl := Real.abs_sin_le_one L
  have bh := Real.abs_cos_le_one H
  have bsh := Real.abs_sin_le_one H
  have hκ0 : 1 / 10 ^ 10 ≤ κ := by nlinarith
  have hκp : 0 < κ := lt_of_lt_of_le (by norm_num) hκ0
  have i1 : 1 ≤ 1 / r := by rw [le_div_iff₀ hr0]; linarith
  have i2 : 1 / r ≤ 10 ^ 10 := by
    rw [div_le_iff₀ hr0]; nlinarith
  have i3 : 1 / (r * κ) = 1 / r * (1 / κ) := by rw [one_div_mul_one_div]
  have i4 : 1 ≤ 1 / κ := by rw [le_div_iff₀ hκp]; linarith
  rw [show 17 / 10 ^ 15 / r = 17 / 10 ^ 15 * (1 / r) by ring] at sa ca
  rw [show 2 / 10 ^ 14 / (r * κ) = 2 / 10 ^ 14 * (1 / (r * κ)) by ring, i3]
  unfold parSinCosD
  dsimp only
  generalize Real.cos L = CL at *
  generalize Real.sin L = SL at *
  generalize Real.cos H = CH at *
  generalize Real.sin H = SH at *
  generalize Real.cos A = CA at *
  generalize Real.sin A = SA at *
  generalize hw : 1 / r = w at *
  have hwp : 0 < w := by linarith
  have neg : ∀ {x : ℚ} {X e : ℝ}, |(x : ℝ) - X| ≤ e → |X| ≤ 1 → |(F.rnd (-1 * x) : ℝ) - -1 * X| ≤ e + (1 + e) / 2 ^ 53 + 1 / 2 ^ 200 := by
    intro x X e h hX
    refine rnd_real F (e := e) (A := 1) ?_ (by rw [abs_mul]; simpa using hX) (le_refl _)
    push_cast
    rw [← mul_sub, abs_mul]
    simpa using h
  have nb : ∀ {X : ℝ}, |X| ≤ 1 → |-1 * X| ≤ 1 := fun h => by rw [abs_mul]; simpa using h
  have pb : ∀ {X Y : ℝ}, |X| ≤ 1 → |Y| ≤ 1 → |X * Y| ≤ 1 := fun h k => by rw [abs_mul]; exact mul_le_one₀ h (abs_nonneg _) k
  have m1 := neg sa bsa
  have m1' : |(F.rnd (-1 * M.sin a) : ℝ) - -1 * SA| ≤ 175 / 10 ^ 16 * w := m1.trans (by norm_num; linarith)
  have m2 := prod_real m1' cl (nb bsa) bl
  have m3 : |(F.rnd (F.rnd (-1 * M.sin a) * M.cos lat) : ℝ) - -1 * SA * CL| ≤ 184 / 10 ^ 16 * w :=
    rnd_real F (by push_cast; exact m2) (pb (nb bsa) bl) (by norm_num; linarith)
  generalize F.rnd (F.rnd (-1 * M.sin a) * M.cos lat) = n at *
  generalize -1 * SA * CL = N at *
  generalize M.cos dec = c at *
  obtain ⟨c1, c2⟩ := abs_le.1 cd
  have hc : 999 / 1000 * κ ≤ c := by norm_num at c1 hκ0 ⊢; linarith
  have hcp : (0 : ℝ) < c := lt_of_lt_of_le (by positivity) hc
  have hq : |(n : ℝ) / c - N / κ| ≤ 187 / 10 ^ 16 * (w * (1 / κ)) := by
    rw [show (n : ℝ) / c - N / κ = ((n - N) - N / κ * (c - κ)) / c by field_simp; ring, abs_div, abs_of_pos hcp, div_le_iff₀ hcp]
    have t1 : |N / κ * (c - κ)| ≤ 23 / 10 ^ 17 := by
      rw [abs_mul]
      have := mul_le_mul hS cd (abs_nonneg _) (by norm_num)
      linarith
    have t2 : |((n : ℝ) - N) - N / κ * (c - κ)| ≤ 184 / 10 ^ 16 * w + 23 / 10 ^ 17 := (abs_sub _ _).trans (add_le_add m3 t1)
    refine t2.trans ?_
    have t3 : 187 / 10 ^ 16 * (w * (1 / κ)) * (999 / 1000 * κ) = 187 / 10 ^ 16 * (999 / 1000) * w := by field_simp
    have t4 := mul_le_mul_of_nonneg_left hc (show 0 ≤ 187 / 10 ^ 16 * (w * (1 / κ)) by positivity)
    rw [t3] at t4
    refine le_trans ?_ t4
    norm_num
    linarith
  have hwk : 1 ≤ w * (1 / κ) := by nlinarith
  generalize w * (1 / κ) = g at *
  refine rnd_real F (by push_cast; exact hq) hS ?_
  norm_num
  linarith

/-- The cosine of the parallactic angle. -/
theorem par_cos (F : Fl64) (M : GeoLib) {a dec h lat : ℚ} {H L A r κ : ℝ} {j : ℤ} (e1 : |(lat : ℝ) - L| ≤ 5 / 10 ^ 16) (e2 : |(h : ℝ) - H| ≤ 3 / 10 ^ 15)
    (e3 : |(a : ℝ) - A - 2 * Real.pi * j| ≤ 17 / 10 ^ 15 / r) (hr1 : r ≤ 1) (hκ : κ = Real.cos dec) (hk0 : 0 ≤ κ) (hm : 1 / 10 ^ 10 ≤ r * κ) (hr0 : 0 < r) :
    |((parSinCosD F M a dec h lat).2 : ℝ) - (-1 * Real.cos A * Real.cos H - Real.sin A * Real.sin H * Real.sin L)| ≤ 5 / 10 ^ 14 / (r * κ) := by
  have cd := cos_lib M.toLibm (show |(dec : ℝ) - dec| ≤ 0 by simp)
  rw [← hκ] at cd
  have hκ1 : κ ≤ 1 := hκ ▸ Real.cos_le_one _
  have e3' : |(a : ℝ) - (A + j * (2 * Real.pi))| ≤ 17 / 10 ^ 15 / r := by
    rw [show (a : ℝ) - (A + j * (2 * Real.pi)) = a - A - 2 * Real.pi * j by ring]; exact e3
  have sa := sin_lib M.toLibm e3'
  have ca := cos_lib M.toLibm e3'
  rw [Real.sin_add_int_mul_two_pi] at sa
  rw [Real.cos_add_int_mul_two_pi] at ca
  have cl := cos_lib M.toLibm e1
  have sl := sin_lib M.toLibm e1
  have ch := cos_lib M.toLibm e2
  have sh := sin_lib M.toLibm e2
  have bsa := Real.abs_sin_le_one A
  have bca := Real.abs_cos_le_one A
  have bl := Real.abs_cos_le_one L
  have bsl := Real.abs_sin_le_one L
  have bh := Real.abs_cos_le_one H
  have bsh := Real.abs_sin_le_one H
  have hκ0 : 1 / 10 ^ 10 ≤ κ := by nlinarith
  have hκp : 0 < κ := lt_of_lt_of_le (by norm_num) hκ0
  have i1 : 1 ≤ 1 / r := by rw [le_div_iff₀ hr0]; linarith
  have i2 : 1 / r ≤ 10 ^ 10 := by
    rw [div_le_iff₀ hr0]; nlinarith
  have i3 : 1 / (r * κ) = 1 / r * (1 / κ) := by rw [one_div_mul_one_div]
  have i4 : 1 ≤ 1 / κ := by rw [le_div_iff₀ hκp]; linarith
  rw [show 17 / 10 ^ 15 / r = 17 / 10 ^ 15 * (1 / r) by ring] at sa ca
  rw [show 5 / 10 ^ 14 / (r * κ) = 5 / 10 ^ 14 * (1 / (r * κ)) by ring, i3]
  unfold parSinCosD
  dsimp only
  generalize Real.cos L = CL at *
  generalize Real.sin L = SL at *
  generalize Real.cos H = CH at *
  generalize Real.sin H = SH at *
  generalize Real.cos A = CA at *
  generalize Real.sin A = SA at *
  generalize hw : 1 / r = w at *
  have hwp : 0 < w := by linarith
  have neg : ∀ {x : ℚ} {X e : ℝ}, |(x : ℝ) - X| ≤ e → |X| ≤ 1 → |(F.rnd (-1 * x) : ℝ) - -1 * X| ≤ e + (1 + e) / 2 ^ 53 + 1 / 2 ^ 200 := by
    intro x X e h hX
    refine rnd_real F (e := e) (A := 1) ?_ (by rw [abs_mul]; simpa using hX) (le_refl _)
    push_cast
    rw [← mul_sub, abs_mul]
    simpa using h
  have nb : ∀ {X : ℝ}, |X| ≤ 1 → |-1 * X| ≤ 1 := fun h => by rw [abs_mul]; simpa using h
  have pb : ∀ {X Y : ℝ}, |X| ≤ 1 → |Y| ≤ 1 → |X * Y| ≤ 1 := fun h k => by rw [abs_mul]; exact mul_le_one₀ h (abs_nonneg _) k
  have m1 := neg ca bca
  have m1' : |(F.rnd (-1 * M.cos a) : ℝ) - -1 * CA| ≤ 175 / 10 ^ 16 * w := m1.trans (by norm_num; linarith)
  have m2 := prod_real m1' ch (nb bca) bh
  have m3 : |(F.rnd (F.rnd (-1 * M.cos a) * M.cos h) : ℝ) - -1 * CA * CH| ≤ 209 / 10 ^ 16 * w :=
    rnd_real F (by push_cast; exact m2) (pb (nb bca) bh) (by norm_num; linarith)
  have sa' : |(M.sin a : ℝ) - SA| ≤ 173 / 10 ^ 16 * w := sa.trans (by norm_num; linarith)
  have n2 := prod_real sa' sh bsa bsh
  have n3 : |(F.rnd (M.sin a * M.sin h) : ℝ) - SA * SH| ≤ 207 / 10 ^ 16 * w :=
    rnd_real F (by push_cast; exact n2) (pb bsa bsh) (by norm_num; linarith)
  have n4 := prod_real n3 sl (pb bsa bsh) bsl
  have n5 : |(F.rnd (F.rnd (M.sin a * M.sin h) * M.sin lat) : ℝ) - SA * SH * SL| ≤ 216 / 10 ^ 16 * w :=
    rnd_real F (by push_cast; exact n4) (pb (pb bsa bsh) bsl) (by norm_num; linarith)
  have b1 := pb (nb bca) bh
  have b2 := pb (pb bsa bsh) bsl
  generalize -1 * CA * CH = U at *
  generalize SA * SH * SL = V at *
  generalize F.rnd (F.rnd (-1 * M.cos a) * M.cos h) = u at *
  generalize F.rnd (F.rnd (M.sin a * M.sin h) * M.sin lat) = v at *
  have hd : |((u - v : ℚ) : ℝ) - (U - V)| ≤ 425 / 10 ^ 16 * w := by
    push_cast
    rw [abs_le] at m3 n5 ⊢
    constructor <;> linarith
  have hb : |U - V| ≤ 2 := by
    rw [abs_le] at b1 b2 ⊢
    constructor <;> linarith
  have hwk : w ≤ w * (1 / κ) := by nlinarith
  generalize w * (1 / κ) = g at *
  refine rnd_real F hd hb ?_
  norm_num
  linarith

/-- From sine and cosine to degrees. -/
theorem par_angle (F : Fl64) (M : GeoLib) {p q : ℚ} {C S r m : ℝ} (hunit : C ^ 2 + S ^ 2 = 1) (hrp : 0 < r) (hm : 1 / 10 ^ 10 ≤ m) (hm1 : m ≤ 1)
    (g1 : |(p : ℝ) - S| ≤ 2 / 10 ^ 14 / m) (g2 : |(q : ℝ) - C| ≤ 5 / 10 ^ 14 / m) :
    |F.rnd (M.atan2 p q * r2dD)| ≤ 181 ∧
      ∃ k : ℤ, |(F.rnd (M.atan2 p q * r2dD) : ℝ) - 180 / Real.pi * Complex.arg ⟨r * C, r * S⟩ - 360 * k| ≤ 8 / 10 ^ 12 / m := by
  have hmp : 0 < m := lt_of_lt_of_le (by norm_num) hm
  have hz : ‖(⟨C, S⟩ : ℂ)‖ = 1 := by
    rw [Complex.norm_def, Complex.normSq_mk, show C * C + S * S = 1 by linarith, Real.sqrt_one]
  have harg : Complex.arg (⟨r * C, r * S⟩ : ℂ) = Complex.arg ⟨C, S⟩ := by
    rw [← Complex.arg_real_mul (⟨C, S⟩ : ℂ) hrp]
    congr 1
    apply Complex.ext <;> simp
  obtain ⟨k, hk⟩ := arg_shift (z := ⟨q, p⟩) (Z := ⟨C, S⟩) (e := 7 / 10 ^ 14 / m) (by rw [← norm_pos_iff, hz]; norm_num) (by
    rw [hz, mul_one]
    refine (Complex.norm_le_abs_re_add_abs_im _).trans ?_
    simp only [Complex.sub_re, Complex.sub_im]
    refine (add_le_add g2 g1).trans (le_of_eq (by ring))) (by
    rw [div_le_iff₀ hmp]; norm_num at hm ⊢; linarith)
  have hp' := Real.pi_lt_d6
  have ha := M.atan2_err p q
  have hA := Complex.abs_arg_le_pi (⟨q, p⟩ : ℂ)
  rw [harg]
  generalize M.atan2 p q = a at *
  generalize Complex.arg (⟨q, p⟩ : ℂ) = Y at *
  generalize Complex.arg (⟨C, S⟩ : ℂ) = B at *
  have ha1 : |(a : ℝ) - Y| ≤ 1 / 10 ^ 15 := ha.trans (by norm_num; linarith)
  have ha4 : |(a : ℝ)| ≤ 3141594 / 10 ^ 6 := by
    rw [abs_le] at hA ha1 ⊢
    norm_num at *
    constructor <;> linarith
  have hak : |(a : ℝ) - B - 2 * Real.pi * k| ≤ 1 / 10 ^ 15 + 16 / 10 * (7 / 10 ^ 14 / m) := by
    rw [show (a : ℝ) - B - 2 * Real.pi * k = (a - Y) + (Y - B - 2 * Real.pi * k) by ring]
    exact (abs_add_le _ _).trans (add_le_add ha1 hk)
  obtain ⟨h181, hd⟩ := turn_degrees F ha4 hak
  refine ⟨h181, k, hd.trans ?_⟩
  have i1 : 1 ≤ 1 / m := by rw [le_div_iff₀ hmp]; linarith
  rw [show (7 : ℝ) / 10 ^ 14 / m = 7 / 10 ^ 14 * (1 / m) by ring, show (8 : ℝ) / 10 ^ 12 / m = 8 / 10 ^ 12 * (1 / m) by ring]
  generalize 1 / m = w at *
  norm_num
  linarith

/-- The parallactic angle, away from the meridian `ha == 0`, the poles of the Earth and of the sky, and the zenith. -/
theorem C190_parallactic (F : Fl64) (M : GeoLib) {dec ha l : ℚ} {v : V3} {r L H : ℝ} (hL : L = l * (Real.pi / 180)) (hH : H = ha * (Real.pi / 12))
    (hv : v = horizontal L H dec) (hr : r = √(v.x * v.x + v.y * v.y)) (hl : |l| ≤ 8999 / 100) (hh : |ha| ≤ 24) (h0 : ha ≠ 0)
    (hd : 0 ≤ Real.cos dec) (hm : 1 / 10 ^ 10 ≤ r * Real.cos dec) :
    |parangD F M dec ha l| ≤ 181 ∧
      ∃ k : ℤ, |(parangD F M dec ha l : ℝ) - 180 / Real.pi * Complex.arg ⟨(upAxis L).dot (decAxis H dec), (upAxis L).dot (raAxis H)⟩ - 360 * k| ≤
        8 / 10 ^ 12 / (r * Real.cos dec) := by
  have hd1 := Real.cos_le_one (dec : ℝ)
  have hr00 : 0 ≤ r := hr ▸ Real.sqrt_nonneg _
  have hr0 : 1 / 10 ^ 10 ≤ r := by nlinarith
  have hrp : 0 < r := lt_of_lt_of_le (by norm_num) hr0
  have hdp : 0 < Real.cos dec := by
    rcases eq_or_lt_of_le hd with h | h
    · rw [← h, mul_zero] at hm; norm_num at hm
    · exact h
  have e1 := lat_near F (l := l) (by linarith)
  have e2 := ha_near F hh
  rw [← hL] at e1
  rw [← hH] at e2
  obtain ⟨hr1, pc, ps, ha3, j, hj⟩ := azRad_near F M hv hr e1 e2 (by norm_num at hr0 ⊢; linarith)
  have hbig := coslat_big F M.toLibm hl
  generalize Complex.arg (⟨v.x, v.y⟩ : ℂ) = A at *
  have hvx : v.x = Real.sin dec * Real.cos L - Real.cos dec * Real.cos H * Real.sin L := by rw [hv, horizontal_eq]
  have hvy : v.y = -1 * Real.cos dec * Real.sin H := by rw [hv, horizontal_eq]
  have hQ : (upAxis L).dot (raAxis H) = r * (-1 * Real.sin A * Real.cos L / Real.cos dec) := by
    rw [show r * (-1 * Real.sin A * Real.cos L / Real.cos dec) = -(r * Real.sin A) * Real.cos L / Real.cos dec by ring, ps, hvy]
    simp only [V3.dot, upAxis, equatorial, raAxis, Real.cos_zero, Real.sin_zero]
    field_simp
    ring
  have hP : (upAxis L).dot (decAxis H dec) = r * (-1 * Real.cos A * Real.cos H - Real.sin A * Real.sin H * Real.sin L) := by
    simp only [V3.dot, upAxis, equatorial, decAxis, Real.cos_zero, Real.sin_zero]
    have hh := Real.sin_sq_add_cos_sq H
    rw [hvx] at pc
    rw [hvy] at ps
    linear_combination (Real.cos H) * pc + (Real.sin H * Real.sin L) * ps - Real.cos dec * Real.sin L * hh
  have hn : ((upAxis L).dot (decAxis H dec)) ^ 2 + ((upAxis L).dot (raAxis H)) ^ 2 = r ^ 2 := by
    rw [hr, Real.sq_sqrt (add_nonneg (mul_self_nonneg _) (mul_self_nonneg _)), hvx, hvy]
    simp only [V3.dot, upAxis, equatorial, decAxis, raAxis, Real.cos_zero, Real.sin_zero]
    have h1 := Real.sin_sq_add_cos_sq H
    have h2 := Real.sin_sq_add_cos_sq L
    have h3 := Real.sin_sq_add_cos_sq (dec : ℝ)
    generalize Real.cos (dec : ℝ) = CD at *
    generalize Real.sin (dec : ℝ) = SD at *
    generalize Real.cos L = CL at *
    generalize Real.sin L = SL at *
    generalize Real.cos H = CH at *
    generalize Real.sin H = SH at *
    have q1 : SH ^ 2 = 1 - CH ^ 2 := by linarith
    have q2 : SL ^ 2 = 1 - CL ^ 2 := by linarith
    have q3 : SD ^ 2 = 1 - CD ^ 2 := by linarith
    ring_nf
    simp only [q1, q2, q3]
    ring
  generalize hS : -1 * Real.sin A * Real.cos L / Real.cos dec = S at *
  generalize hC : -1 * Real.cos A * Real.cos H - Real.sin A * Real.sin H * Real.sin L = C at *
  rw [hP, hQ] at hn ⊢
  have hunit : C ^ 2 + S ^ 2 = 1 := by
    have : r ^ 2 * (C ^ 2 + S ^ 2) = r ^ 2 * 1 := by linear_combination hn
    exact mul_left_cancel₀ (by positivity) this
  have hS1 : |S| ≤ 1 := by
    refine abs_le_of_sq_le_sq ?_ (by norm_num)
    nlinarith [sq_nonneg C]
  have g1 := par_sin F M e1 e2 hj hr1 rfl hd hm hrp (by rw [hS]; exact hS1)
  have g2 := par_cos F M e1 e2 hj hr1 rfl hd hm hrp
  rw [hS] at g1
  rw [hC] at g2
  have hne : M.cos dec ≠ 0 := by
    intro h
    have cd := cos_lib M.toLibm (show |(dec : ℝ) - dec| ≤ 0 by simp)
    rw [h] at cd
    push_cast at cd
    have : 1 / 10 ^ 10 ≤ Real.cos dec := by nlinarith
    obtain ⟨c1, c2⟩ := abs_le.1 cd
    norm_num at this c1 c2
    linarith
  unfold parangD
  dsimp only
  rw [if_neg hne, if_neg h0, if_neg hbig]
  exact par_angle F M hunit hrp hm (by nlinarith) g1 g2

/-! ### Example -/

/-- On the equator of the Earth, 6 hours before the meridian, an object on the celestial equator is in the east. -/
example : |(azD Fl64.ieee geoLib 0 (-6) 0 : ℝ) - 90| ≤ 3 / 10 ^ 12 := by
  have hv : horizontal (((0 : ℚ) : ℝ) * (Real.pi / 180)) (((-6 : ℚ) : ℝ) * (Real.pi / 12)) ((0 : ℚ) : ℝ) = ⟨0, 1, 0⟩ := by
    rw [horizontal_eq]
    push_cast
    rw [show (-6 : ℝ) * (Real.pi / 12) = -(Real.pi / 2) by ring, Real.sin_neg, Real.cos_neg]
    simp
  obtain ⟨h1, h2, k, h3⟩ := C189_azimuth Fl64.ieee geoLib (dec := 0) (ha := -6) (l := 0) (r := 1) hv.symm (by simp) (by norm_num) (by norm_num) (by norm_num) (by norm_num)
  dsimp only at h3
  rw [show (⟨0, 1⟩ : ℂ) = Complex.I from rfl, Complex.arg_I] at h3
  have hp := Real.pi_pos
  rw [show 180 / Real.pi * (Real.pi / 2) = 90 by field_simp; norm_num] at h3
  have h1' : (0 : ℝ) ≤ azD Fl64.ieee geoLib 0 (-6) 0 := by exact_mod_cast h1
  have h2' : (azD Fl64.ieee geoLib 0 (-6) 0 : ℝ) < 360 := by exact_mod_cast h2
  have hk : k = 0 := by
    obtain ⟨b1, b2⟩ := abs_le.1 h3
    norm_num at b1 b2
    have u : (k : ℝ) < 1 := by linarith
    have w : (-1 : ℝ) < k := by linarith
    have u' : k < 1 := by exact_mod_cast u
    have w' : -1 < k := by exact_mod_cast w
    omega
  rw [hk] at h3
  simpa using h3

/-- When it sets, the zenith is 90 degrees from the pole, on the side of growing right ascension. -/
example : |(parangD Fl64.ieee geoLib 0 6 0 : ℝ) - 90| ≤ 8 / 10 ^ 12 := by
  have hp := Real.pi_pos
  have hv : horizontal 0 (Real.pi / 2) ((0 : ℚ) : ℝ) = ⟨0, -1, 0⟩ := by
    rw [horizontal_eq]
    simp
  obtain ⟨h1, k, h3⟩ := C190_parallactic Fl64.ieee geoLib (dec := 0) (ha := 6) (l := 0) (r := 1) (L := 0) (H := Real.pi / 2) (by simp) (by push_cast; ring) hv.symm
    (by simp) (by norm_num) (by norm_num) (by norm_num) (by simp) (by simp; norm_num)
  have e : (⟨(upAxis 0).dot (decAxis (Real.pi / 2) ((0 : ℚ) : ℝ)), (upAxis 0).dot (raAxis (Real.pi / 2))⟩ : ℂ) = Complex.I := by
    simp [V3.dot, upAxis, equatorial, decAxis, raAxis]
    rfl
  rw [e, Complex.arg_I, show 180 / Real.pi * (Real.pi / 2) = 90 by field_simp; norm_num] at h3
  have h1' : |(parangD Fl64.ieee geoLib 0 6 0 : ℝ)| ≤ 181 := by exact_mod_cast h1
  rw [show 8 / 10 ^ 12 / (1 * Real.cos ((0 : ℚ) : ℝ)) = 8 / 10 ^ 12 by simp] at h3
  have hk : k = 0 := by
    obtain ⟨b1, b2⟩ := abs_le.1 h3
    obtain ⟨c1, c2⟩ := abs_le.1 h1'
    norm_num at b1 b2
    have u : (k : ℝ) < 1 := by linarith
    have w : (-1 : ℝ) < k := by linarith
    have u' : k < 1 := by exact_mod_cast u
    have w' : -1 < k := by exact_mod_cast w
    omega
  rw [hk] at h3
  simpa using h3

end SatSky.Props
