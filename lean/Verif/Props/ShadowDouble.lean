import Verif.Model.ShadowDouble
import Verif.Props.Shadow
import Verif.Props.GeoDouble

/-! C188: the shadow of the Earth in `double` arithmetic. -/

namespace SatSky.Props

open SatSky Spec Geo Relative

/-- A sum of three squares of numbers up to `A`. -/
theorem squares_near (F : Fl64) {a b c : ℚ} {x y z e A E : ℝ} (ha : |(a : ℝ) - x| ≤ e) (hb : |(b : ℝ) - y| ≤ e) (hc : |(c : ℝ) - z| ≤ e)
    (hx : |x| ≤ A) (hy : |y| ≤ A) (hz : |z| ≤ A) (he : e ≤ A / 2 ^ 40) (hA : 1 ≤ A) (hE : 6 * A * e + 11 * (A * A) / 2 ^ 53 ≤ E) :
    |(dist2D F a b c : ℝ) - (x * x + y * y + z * z)| ≤ E := by
  have he0 := (abs_nonneg _).trans ha
  have hAA : 1 ≤ A * A := by nlinarith
  have hAe : 0 ≤ A * e := by positivity
  have hee : e * e ≤ A * A / 2 ^ 80 := by
    have := mul_le_mul he he he0 (by positivity)
    rwa [show A / 2 ^ 40 * (A / 2 ^ 40) = A * A / 2 ^ 80 by ring] at this
  have sq : ∀ {u : ℚ} {v : ℝ}, |(u : ℝ) - v| ≤ e → |v| ≤ A →
      |(F.rnd (u * u) : ℝ) - v * v| ≤ 2 * (A * e) + 101 / 100 * (A * A) / 2 ^ 53 ∧ |v * v| ≤ A * A := by
    intro u v h1 h2
    have m := mul_real h1 h1 h2 h2
    have n : |v * v| ≤ A * A := by
      rw [abs_mul]; exact mul_le_mul h2 h2 (abs_nonneg _) (by linarith)
    refine ⟨rnd_real F (e := e * A + A * e + e * e) (by push_cast; exact m) n ?_, n⟩
    have k : A * e ≤ A * A / 2 ^ 40 := by
      have := mul_le_mul_of_nonneg_left he (by linarith : 0 ≤ A)
      rwa [mul_div_assoc'] at this
    generalize A * A = Q at *
    rw [mul_comm e A]
    generalize A * e = P at *
    norm_num at *
    linarith
  obtain ⟨a1, a2⟩ := sq ha hx
  obtain ⟨b1, b2⟩ := sq hb hy
  obtain ⟨c1, c2⟩ := sq hc hz
  have k : A * e ≤ A * A / 2 ^ 40 := by
    have := mul_le_mul_of_nonneg_left he (by linarith : 0 ≤ A)
    rwa [mul_div_assoc'] at this
  have s1 : |(F.rnd (0 + F.rnd (a * a)) : ℝ) - x * x| ≤ 2 * (A * e) + 205 / 100 * (A * A) / 2 ^ 53 := by
    refine rnd_real F (e := 2 * (A * e) + 101 / 100 * (A * A) / 2 ^ 53) (by rw [zero_add]; exact a1) a2 ?_
    generalize A * A = Q at *
    generalize A * e = P at *
    norm_num at *
    linarith
  have s2 : |(F.rnd (F.rnd (0 + F.rnd (a * a)) + F.rnd (b * b)) : ℝ) - (x * x + y * y)| ≤ 4 * (A * e) + 52 / 10 * (A * A) / 2 ^ 53 := by
    refine rnd_real F (e := 4 * (A * e) + 306 / 100 * (A * A) / 2 ^ 53) (A := 2 * (A * A)) ?_ ?_ ?_
    · push_cast
      rw [abs_le] at s1 b1 ⊢
      constructor <;> linarith
    · rw [abs_le] at a2 b2 ⊢
      constructor <;> linarith
    · generalize A * A = Q at *
      generalize A * e = P at *
      norm_num at *
      linarith
  unfold dist2D
  refine rnd_real F (e := 6 * (A * e) + 625 / 100 * (A * A) / 2 ^ 53) (A := 3 * (A * A)) ?_ ?_ ?_
  · push_cast
    rw [abs_le] at s2 c1 ⊢
    constructor <;> linarith
  · rw [abs_le] at a2 b2 c2 ⊢
    constructor <;> linarith
  · rw [mul_assoc 6 A e] at hE
    generalize A * A = Q at *
    generalize A * e = P at *
    norm_num at *
    linarith

/-- `c`. -/
theorem sphere_near (F : Fl64) {s0 s1 s2 : ℚ} (h0 : |(s0 : ℝ)| ≤ 50000) (h1 : |(s1 : ℝ)| ≤ 50000) (h2 : |(s2 : ℝ)| ≤ 50000) :
    |(sphereCD F s0 s1 s2 : ℝ) - ((s0 : ℝ) * s0 + s1 * s1 + s2 * s2 - ERAD * ERAD)| ≤ 5 / 10 ^ 6 := by
  have hd := squares_near F (a := -s0) (b := -s1) (c := -s2) (x := -s0) (y := -s1) (z := -s2) (e := 0) (A := 50000) (E := 31 / 10 ^ 7)
    (by push_cast; simp) (by push_cast; simp) (by push_cast; simp) (by rwa [abs_neg]) (by rwa [abs_neg]) (by rwa [abs_neg]) (by norm_num) (by norm_num) (by norm_num)
  simp only [neg_mul_neg] at hd
  have hE : |(eradD F : ℝ) - ERAD| ≤ 71 / 10 ^ 14 := by
    have := const_real F (63781366 / 10000) (E := 71 / 10 ^ 14) (by
      push_cast
      rw [abs_of_pos (by norm_num)]
      norm_num)
    unfold eradD ERAD
    push_cast at this
    exact this
  have hE0 : |ERAD| ≤ 63782 / 10 := by unfold ERAD; rw [abs_of_pos (by norm_num)]; norm_num
  have m := mul_real hE hE hE0 hE0
  have hq : |ERAD * ERAD| ≤ 41 * 10 ^ 6 := by unfold ERAD; rw [abs_of_pos (by norm_num)]; norm_num
  have r1 : |(F.rnd (eradD F * eradD F) : ℝ) - ERAD * ERAD| ≤ 1 / 10 ^ 7 :=
    rnd_real F (by push_cast; exact m) hq (by norm_num)
  unfold sphereCD
  have sq : ∀ {v : ℝ}, |v| ≤ 50000 → 0 ≤ v * v ∧ v * v ≤ 25 * 10 ^ 8 := by
    intro v hv
    refine ⟨mul_self_nonneg v, ?_⟩
    rw [← abs_mul_abs_self]
    have := mul_le_mul hv hv (abs_nonneg _) (by norm_num)
    norm_num at this ⊢
    linarith
  obtain ⟨p0, p0'⟩ := sq h0
  obtain ⟨p1, p1'⟩ := sq h1
  obtain ⟨p2, p2'⟩ := sq h2
  obtain ⟨q1, q2⟩ := abs_le.1 hq
  refine rnd_real F (e := 32 / 10 ^ 7) (A := 8 * 10 ^ 9) ?_ ?_ (by norm_num)
  · push_cast
    rw [abs_le] at hd r1 ⊢
    constructor <;> linarith
  · rw [abs_le]
    constructor <;> linarith

/-- A component of the direction to the Sun. -/
theorem unit_near (F : Fl64) {e l : ℚ} {x L : ℝ} (he : |(e : ℝ) - x| ≤ 172 / 10 ^ 10) (hl : |(l : ℝ) - L| ≤ 35 / 10 ^ 8) (hL : 145 * 10 ^ 6 ≤ L) (hx : |x| ≤ L) :
    |(F.rnd (e / l) : ℝ) - x / L| ≤ 27 / 10 ^ 16 ∧ |x / L| ≤ 1 := by
  have hLp : 0 < L := by linarith
  have hl1 : (144 * 10 ^ 6 : ℝ) ≤ l := by have := (abs_le.1 hl).1; norm_num at this ⊢; linarith
  have hlp : (0 : ℝ) < l := by linarith
  have h1 : |x / L| ≤ 1 := by rw [abs_div, abs_of_pos hLp, div_le_one hLp]; exact hx
  refine ⟨rnd_real F (e := 256 / 10 ^ 17) (A := 1) ?_ h1 (by norm_num), h1⟩
  push_cast
  have e1 : (e : ℝ) / l - x / L = ((e - x) - x / L * (l - L)) / l := by field_simp; ring
  rw [e1, abs_div, abs_of_pos hlp, div_le_iff₀ hlp]
  have h2 : |x / L * (l - L)| ≤ 35 / 10 ^ 8 := by
    rw [abs_mul]
    have := mul_le_mul h1 hl (abs_nonneg _) (by norm_num)
    linarith
  have := abs_sub ((e : ℝ) - x) (x / L * (l - L))
  linarith

/-- Twice the distance along the ray of the nearest point. -/
theorem minusB_near (F : Fl64) {l e0 e1 e2 s0 s1 s2 : ℚ} {u0 u1 u2 : ℝ} (h0 : |(s0 : ℝ)| ≤ 50000) (h1 : |(s1 : ℝ)| ≤ 50000) (h2 : |(s2 : ℝ)| ≤ 50000)
    (a0 : |(F.rnd (e0 / l) : ℝ) - u0| ≤ 27 / 10 ^ 16) (a1 : |(F.rnd (e1 / l) : ℝ) - u1| ≤ 27 / 10 ^ 16) (a2 : |(F.rnd (e2 / l) : ℝ) - u2| ≤ 27 / 10 ^ 16)
    (b0 : |u0| ≤ 1) (b1 : |u1| ≤ 1) (b2 : |u2| ≤ 1) :
    |(minusBD F l e0 e1 e2 s0 s1 s2 : ℝ) - 2 * (u0 * -s0 + u1 * -s1 + u2 * -s2)| ≤ 96 / 10 ^ 11 ∧ |2 * (u0 * -s0 + u1 * -s1 + u2 * -s2)| ≤ 300000 := by
  have pr : ∀ {v : ℚ} {u : ℝ} {s : ℚ}, |(v : ℝ) - u| ≤ 27 / 10 ^ 16 → |u| ≤ 1 → |(s : ℝ)| ≤ 50000 →
      |(F.rnd (v * -s) : ℝ) - u * -s| ≤ 141 / 10 ^ 12 ∧ |u * -(s : ℝ)| ≤ 50000 := by
    intro v u s k1 k2 k3
    have m := mul_real k1 (show |(((-s : ℚ)) : ℝ) - -s| ≤ 0 by push_cast; simp) k2 (show |-(s : ℝ)| ≤ 50000 by rwa [abs_neg])
    have n : |u * -(s : ℝ)| ≤ 50000 := by
      rw [abs_mul, abs_neg]
      have := mul_le_mul k2 k3 (abs_nonneg _) (by norm_num)
      linarith
    refine ⟨rnd_real F (by push_cast at m ⊢; exact m) n (by norm_num), n⟩
  obtain ⟨p0, q0⟩ := pr a0 b0 h0
  obtain ⟨p1, q1⟩ := pr a1 b1 h1
  obtain ⟨p2, q2⟩ := pr a2 b2 h2
  unfold minusBD
  generalize F.rnd (e0 / l) = v0 at *
  generalize F.rnd (e1 / l) = v1 at *
  generalize F.rnd (e2 / l) = v2 at *
  have r0 : |(F.rnd (0 + F.rnd (v0 * -s0)) : ℝ) - u0 * -s0| ≤ 147 / 10 ^ 12 :=
    rnd_real F (e := 141 / 10 ^ 12) (by rw [zero_add]; exact p0) q0 (by norm_num)
  generalize F.rnd (0 + F.rnd (v0 * -s0)) = w0 at *
  generalize F.rnd (v1 * -s1) = w1 at *
  generalize F.rnd (v2 * -s2) = w2 at *
  generalize u0 * -(s0 : ℝ) = t0 at *
  generalize u1 * -(s1 : ℝ) = t1 at *
  generalize u2 * -(s2 : ℝ) = t2 at *
  have r1 : |(F.rnd (w0 + w1) : ℝ) - (t0 + t1)| ≤ 300 / 10 ^ 12 := by
    refine rnd_real F (e := 288 / 10 ^ 12) (A := 100000) ?_ ?_ (by norm_num)
    · push_cast
      rw [abs_le] at r0 p1 ⊢
      constructor <;> linarith
    · rw [abs_le] at q0 q1 ⊢
      constructor <;> linarith
  have q3 : |t0 + t1 + t2| ≤ 150000 := by
    rw [abs_le] at q0 q1 q2 ⊢
    constructor <;> linarith
  have r2 : |(F.rnd (F.rnd (w0 + w1) + w2) : ℝ) - (t0 + t1 + t2)| ≤ 459 / 10 ^ 12 := by
    refine rnd_real F (e := 441 / 10 ^ 12) (A := 150000) ?_ q3 (by norm_num)
    push_cast
    rw [abs_le] at r1 p2 ⊢
    constructor <;> linarith
  have q4 : |2 * (t0 + t1 + t2)| ≤ 300000 := by
    rw [abs_le] at q3 ⊢
    constructor <;> linarith
  refine ⟨rnd_real F (e := 918 / 10 ^ 12) (A := 300000) ?_ q4 (by norm_num), q4⟩
  push_cast
  rw [abs_le] at r2 ⊢
  constructor <;> linarith

/-- The discriminant. -/
theorem disc_near (F : Fl64) {mb c : ℚ} {B C : ℝ} (hb : |(mb : ℝ) - B| ≤ 96 / 10 ^ 11) (hc : |(c : ℝ) - C| ≤ 5 / 10 ^ 6) (hB : |B| ≤ 300000) (hC : |C| ≤ 8 * 10 ^ 9) :
    |(F.rnd (F.rnd (mb * mb) - F.rnd (4 * c)) : ℝ) - (B * B - 4 * C)| ≤ 7 / 10 ^ 4 := by
  have m := mul_real hb hb hB hB
  have n : |B * B| ≤ 9 * 10 ^ 10 := by
    rw [abs_mul]
    have := mul_le_mul hB hB (abs_nonneg _) (by norm_num)
    norm_num at this ⊢
    linarith
  have r1 : |(F.rnd (mb * mb) : ℝ) - B * B| ≤ 6 / 10 ^ 4 := rnd_real F (by push_cast; exact m) n (by norm_num)
  have n2 : |4 * C| ≤ 32 * 10 ^ 9 := by
    rw [abs_le] at hC ⊢
    constructor <;> linarith
  have r2 : |(F.rnd (4 * c) : ℝ) - 4 * C| ≤ 3 / 10 ^ 5 := by
    refine rnd_real F (e := 2 / 10 ^ 5) (A := 32 * 10 ^ 9) ?_ n2 (by norm_num)
    push_cast
    rw [abs_le] at hc ⊢
    constructor <;> linarith
  refine rnd_real F (e := 63 / 10 ^ 5) (A := 122 * 10 ^ 9) ?_ ?_ (by norm_num)
  · push_cast
    rw [abs_le] at r1 r2 ⊢
    constructor <;> linarith
  · rw [abs_le] at n n2 ⊢
    constructor <;> linarith

/-- The result of the test from its discriminant. -/
def flagD (F : Fl64) (M : Libm) (mb disc : ℚ) : ℤ × ℚ × ℚ :=
  if disc < 0 then (0, 0, 0)
  else
    let ds := M.sqrt disc
    let r0 := F.rnd (F.rnd (mb - ds) / 2)
    let r1 := F.rnd (F.rnd (mb + ds) / 2)
    if r1 < 0 then (0, r0, r1) else (1, r0, r1)

theorem rnd_nonneg (F : Fl64) {x : ℚ} (h : 0 ≤ x) : 0 ≤ F.rnd x := by
  have h := F.mono 0 x h
  have e := F.exact 0 0 (by norm_num) (by norm_num)
  norm_num at e
  rwa [e] at h

theorem flag_one (F : Fl64) (M : Libm) {mb disc : ℚ} (hm : 0 ≤ mb) (hd : 0 ≤ disc) : (flagD F M mb disc).1 = 1 := by
  unfold flagD
  rw [if_neg (not_lt.2 hd)]
  dsimp only
  have h1 := rnd_nonneg F (add_nonneg hm (M.sqrt_sign disc hd))
  have h2 := rnd_nonneg F (div_nonneg h1 (by norm_num : (0 : ℚ) ≤ 2))
  rw [if_neg (not_lt.2 h2)]

theorem flag_zero (F : Fl64) (M : Libm) {mb disc : ℚ} {B C : ℝ} (hb : |(mb : ℝ) - B| ≤ 96 / 10 ^ 11) (hB : |B| ≤ 300000) (hB0 : B ≤ 0) (hC : 12000 ≤ C)
    (hd : |(disc : ℝ) - (B * B - 4 * C)| ≤ 7 / 10 ^ 4) : (flagD F M mb disc).1 = 0 := by
  unfold flagD
  by_cases h0 : disc < 0
  · rw [if_pos h0]
  · rw [if_neg h0]
    dsimp only
    have h0' : (0 : ℝ) ≤ disc := by exact_mod_cast not_lt.1 h0
    obtain ⟨d1, d2⟩ := abs_le.1 hd
    obtain ⟨b1, b2⟩ := abs_le.1 hb
    obtain ⟨c1, _⟩ := abs_le.1 hB
    have hB1 : B ≤ -200 := by
      by_contra hc
      push Not at hc
      nlinarith
    have hr : √(disc : ℝ) ≤ -B - 7 / 100 := by
      refine Real.sqrt_le_iff.2 ⟨by linarith, ?_⟩
      nlinarith
    have hs := (abs_le.1 (M.sqrt_err disc (not_lt.1 h0))).2
    have hsum : (mb : ℝ) + M.sqrt disc ≤ -(6 / 100) := by
      norm_num at hs b2 ⊢
      linarith
    have hsum' : mb + M.sqrt disc ≤ -(6 / 100) := by
      have : ((mb + M.sqrt disc : ℚ) : ℝ) ≤ ((-(6 / 100) : ℚ) : ℝ) := by push_cast; exact hsum
      exact_mod_cast this
    have neg : ∀ {x a : ℚ}, x ≤ -a → 1 / 1000 ≤ a → F.rnd x ≤ -(a / 2) := by
      intro x a hx ha
      have e := (abs_le.1 (F.err x)).2
      rw [abs_of_neg (by linarith)] at e
      norm_num at e
      linarith
    have n1 := neg hsum' (by norm_num)
    have n2 := neg (x := F.rnd (mb + M.sqrt disc) / 2) (a := 15 / 1000) (by linarith) (by norm_num)
    rw [if_pos (by linarith)]

/-- What is computed, and the exact numbers. -/
theorem shadow_parts (F : Fl64) (M : Libm) {s0 s1 s2 q0 q1 q2 : ℚ} (h0 : |(s0 : ℝ)| ≤ 50000) (h1 : |(s1 : ℝ)| ≤ 50000) (h2 : |(s2 : ℝ)| ≤ 50000)
    (k0 : |(q0 : ℝ)| ≤ 153 * 10 ^ 6) (k1 : |(q1 : ℝ)| ≤ 153 * 10 ^ 6) (k2 : |(q2 : ℝ)| ≤ 153 * 10 ^ 6)
    {u0 u1 u2 L : ℝ} (hL : L = √(((q0 : ℝ) - s0) * (q0 - s0) + (q1 - s1) * (q1 - s1) + (q2 - s2) * (q2 - s2))) (hL1 : 145 * 10 ^ 6 ≤ L)
    (hu0 : u0 = (q0 - s0) / L) (hu1 : u1 = (q1 - s1) / L) (hu2 : u2 = (q2 - s2) / L) :
    ∃ mb disc, shadowD F M s0 s1 s2 q0 q1 q2 = flagD F M mb disc ∧ |(mb : ℝ) - 2 * (u0 * -s0 + u1 * -s1 + u2 * -s2)| ≤ 96 / 10 ^ 11 ∧
      |2 * (u0 * -s0 + u1 * -s1 + u2 * -s2)| ≤ 300000 ∧
      |(disc : ℝ) - (2 * (u0 * -s0 + u1 * -s1 + u2 * -s2) * (2 * (u0 * -s0 + u1 * -s1 + u2 * -s2)) - 4 * ((s0 : ℝ) * s0 + s1 * s1 + s2 * s2 - ERAD * ERAD))| ≤ 7 / 10 ^ 4 := by
  have cmp : ∀ {q s : ℚ}, |(q : ℝ)| ≤ 153 * 10 ^ 6 → |(s : ℝ)| ≤ 50000 → |(F.rnd (q - s) : ℝ) - (q - s)| ≤ 172 / 10 ^ 10 ∧ |(q : ℝ) - s| ≤ 1531 * 10 ^ 5 := by
    intro q s kq ks
    have n : |(q : ℝ) - s| ≤ 1531 * 10 ^ 5 := by
      rw [abs_le] at kq ks ⊢
      constructor <;> linarith
    exact ⟨rnd_real F (e := 0) (by push_cast; simp) n (by norm_num), n⟩
  obtain ⟨a0, n0⟩ := cmp k0 h0
  obtain ⟨a1, n1⟩ := cmp k1 h1
  obtain ⟨a2, n2⟩ := cmp k2 h2
  have hsq := squares_near F (E := 46) a0 a1 a2 n0 n1 n2 (by norm_num) (by norm_num) (by norm_num)
  have hN : 0 ≤ ((q0 : ℝ) - s0) * (q0 - s0) + (q1 - s1) * (q1 - s1) + (q2 - s2) * (q2 - s2) :=
    add_nonneg (add_nonneg (mul_self_nonneg _) (mul_self_nonneg _)) (mul_self_nonneg _)
  have hm := Real.mul_self_sqrt hN
  rw [← hL] at hm
  have comp : ∀ {x : ℝ}, x * x ≤ L * L → |x| ≤ L := fun h => abs_le_of_sq_le_sq' (by nlinarith) (by linarith) |> abs_le.2
  have m0 := mul_self_nonneg ((q0 : ℝ) - s0)
  have m1 := mul_self_nonneg ((q1 : ℝ) - s1)
  have m2 := mul_self_nonneg ((q2 : ℝ) - s2)
  have w0 : |(q0 : ℝ) - s0| ≤ L := comp (by rw [hm]; linarith)
  have w1 : |(q1 : ℝ) - s1| ≤ L := comp (by rw [hm]; linarith)
  have w2 : |(q2 : ℝ) - s2| ≤ L := comp (by rw [hm]; linarith)
  have hLup : L ≤ 266 * 10 ^ 6 := by
    rw [hL]
    refine Real.sqrt_le_iff.2 ⟨by norm_num, ?_⟩
    have b : ∀ {x : ℝ}, |x| ≤ 1531 * 10 ^ 5 → x * x ≤ (1531 * 10 ^ 5) * (1531 * 10 ^ 5) := by
      intro x hx
      rw [← abs_mul_abs_self]
      exact mul_le_mul hx hx (abs_nonneg _) (by norm_num)
    have := b n0
    have := b n1
    have := b n2
    norm_num at *
    linarith
  rw [← hm] at hsq
  unfold shadowD
  dsimp only
  generalize F.rnd (q0 - s0) = e0 at *
  generalize F.rnd (q1 - s1) = e1 at *
  generalize F.rnd (q2 - s2) = e2 at *
  have hl : |(M.sqrt (dist2D F e0 e1 e2) : ℝ) - L| ≤ 35 / 10 ^ 8 := by
    generalize dist2D F e0 e1 e2 = a at *
    obtain ⟨c1, c2⟩ := abs_le.1 hsq
    have ha : (0 : ℝ) ≤ a := by nlinarith
    have hs := M.sqrt_err a (by exact_mod_cast ha)
    have hq := Real.mul_self_sqrt ha
    have hn := Real.sqrt_nonneg (a : ℝ)
    generalize √(a : ℝ) = t at *
    have d : |t - L| ≤ 3173 / 10 ^ 10 := by
      have e : (t - L) * (t + L) = a - L * L := by linear_combination hq
      have g : |t - L| * (t + L) ≤ 46 := by
        rw [← abs_of_nonneg (show 0 ≤ t + L by linarith), ← abs_mul, e]; exact hsq
      have := abs_nonneg (t - L)
      by_contra hc
      push Not at hc
      have : 3173 / 10 ^ 10 * (145 * 10 ^ 6) ≤ |t - L| * (t + L) := mul_le_mul hc.le (by linarith) (by norm_num) (abs_nonneg _)
      norm_num at this g
      linarith
    have ht : t ≤ 267 * 10 ^ 6 := by have := (abs_le.1 d).2; norm_num at *; linarith
    have := abs_sub_le (M.sqrt a : ℝ) t L
    norm_num at *
    linarith
  generalize M.sqrt (dist2D F e0 e1 e2) = l at *
  obtain ⟨v0, v0'⟩ := unit_near F a0 hl hL1 w0
  obtain ⟨v1, v1'⟩ := unit_near F a1 hl hL1 w1
  obtain ⟨v2, v2'⟩ := unit_near F a2 hl hL1 w2
  rw [← hu0] at v0 v0'
  rw [← hu1] at v1 v1'
  rw [← hu2] at v2 v2'
  obtain ⟨b1, b2⟩ := minusB_near F h0 h1 h2 v0 v1 v2 v0' v1' v2'
  have hc := sphere_near F h0 h1 h2
  refine ⟨_, _, rfl, b1, b2, disc_near F b1 hc b2 ?_⟩
  have sq : ∀ {v : ℝ}, |v| ≤ 50000 → 0 ≤ v * v ∧ v * v ≤ 25 * 10 ^ 8 := by
    intro v hv
    refine ⟨mul_self_nonneg v, ?_⟩
    rw [← abs_mul_abs_self]
    have := mul_le_mul hv hv (abs_nonneg _) (by norm_num)
    norm_num at this ⊢
    linarith
  obtain ⟨p0, p0'⟩ := sq h0
  obtain ⟨p1, p1'⟩ := sq h1
  obtain ⟨p2, p2'⟩ := sq h2
  have hE : 0 ≤ ERAD * ERAD ∧ ERAD * ERAD ≤ 41 * 10 ^ 6 := by unfold ERAD; constructor <;> norm_num
  rw [abs_le]
  constructor <;> linarith [hE.1, hE.2]

/-- A satellite at least 1 km up: in the shadow if the ray to the Sun meets a ball smaller by 0.02 mm than the Earth, in the light if it does not
meet one larger by as much. -/
theorem C188_shadow (F : Fl64) (M : Libm) {s0 s1 s2 q0 q1 q2 : ℚ} (h0 : |(s0 : ℝ)| ≤ 50000) (h1 : |(s1 : ℝ)| ≤ 50000) (h2 : |(s2 : ℝ)| ≤ 50000)
    (k0 : |(q0 : ℝ)| ≤ 153 * 10 ^ 6) (k1 : |(q1 : ℝ)| ≤ 153 * 10 ^ 6) (k2 : |(q2 : ℝ)| ≤ 153 * 10 ^ 6)
    (hs : ERAD + 1 ≤ (⟨s0, s1, s2⟩ : V3).len) (hq : 145 * 10 ^ 6 ≤ ((⟨q0, q1, q2⟩ : V3).sub ⟨s0, s1, s2⟩).len) :
    (RayMeets (ERAD - 2 / 10 ^ 8) ⟨s0, s1, s2⟩ ⟨q0, q1, q2⟩ → (shadowD F M s0 s1 s2 q0 q1 q2).1 = 1) ∧
      (¬ RayMeets (ERAD + 2 / 10 ^ 8) ⟨s0, s1, s2⟩ ⟨q0, q1, q2⟩ → (shadowD F M s0 s1 s2 q0 q1 q2).1 = 0) := by
  have hE : (0 : ℝ) < ERAD := ERAD_pos
  have hE1 : ERAD = 63781366 / 10000 := rfl
  have hne : (⟨s0, s1, s2⟩ : V3) ≠ ⟨q0, q1, q2⟩ := by
    intro h
    rw [← h] at hq
    unfold V3.len V3.sub V3.dot at hq
    simp only [sub_self, mul_zero, add_zero, Real.sqrt_zero] at hq
    norm_num at hq
  have hal := fun t => along ⟨s0, s1, s2⟩ ⟨q0, q1, q2⟩ t hne
  have hC : 12000 ≤ (s0 : ℝ) * s0 + s1 * s1 + s2 * s2 - ERAD * ERAD := by
    have hd : (0 : ℝ) ≤ (s0 : ℝ) * s0 + s1 * s1 + s2 * s2 := add_nonneg (add_nonneg (mul_self_nonneg _) (mul_self_nonneg _)) (mul_self_nonneg _)
    have hm := Real.mul_self_sqrt hd
    have hs' : ERAD + 1 ≤ √((s0 : ℝ) * s0 + s1 * s1 + s2 * s2) := hs
    rw [← hm]
    have := mul_le_mul hs' hs' (by linarith) (by linarith)
    rw [hE1] at *
    linarith
  unfold V3.len V3.dot V3.sub at hq
  unfold V3.sub V3.dot at hal
  dsimp only at hq hal
  generalize hL : √(((q0 : ℝ) - s0) * (q0 - s0) + (q1 - s1) * (q1 - s1) + (q2 - s2) * (q2 - s2)) = L at hq hal
  have hLp : 0 < L := by linarith
  obtain ⟨mb, disc, e, b1, b2, b3⟩ := shadow_parts F M h0 h1 h2 k0 k1 k2 hL.symm hq rfl rfl rfl
  rw [e]
  generalize 2 * (((q0 : ℝ) - s0) / L * -s0 + (q1 - s1) / L * -s1 + (q2 - s2) / L * -s2) = B at *
  have key : ∀ R : ℝ, 0 ≤ R → (RayMeets R ⟨s0, s1, s2⟩ ⟨q0, q1, q2⟩ ↔ ∃ t, 0 ≤ t ∧ t * t - B * t + ((s0 : ℝ) * s0 + s1 * s1 + s2 * s2) ≤ R * R) := by
    intro R hR
    constructor
    · rintro ⟨t, ht, hm⟩
      refine ⟨t * L, mul_nonneg ht hLp.le, ?_⟩
      rw [len_le_iff hR] at hm
      have := hal (t * L)
      rw [mul_div_cancel_right₀ _ hLp.ne'] at this
      rw [← this]
      exact hm
    · rintro ⟨t, ht, hm⟩
      refine ⟨t / L, div_nonneg ht hLp.le, ?_⟩
      rw [len_le_iff hR]
      rw [← hal t] at hm
      exact hm
  obtain ⟨d1, d2⟩ := abs_le.1 b3
  obtain ⟨m1, m2⟩ := abs_le.1 b1
  generalize (s0 : ℝ) * s0 + s1 * s1 + s2 * s2 = N at *
  constructor
  · intro hR
    obtain ⟨t, ht, hm⟩ := (key _ (by rw [hE1]; norm_num)).1 hR
    have hB : 0 ≤ B := by
      by_contra hc
      push Not at hc
      have : 0 ≤ -B * t := mul_nonneg (by linarith) ht
      rw [hE1] at *
      nlinarith [mul_self_nonneg t]
    have hdisc : 1 / 1000 ≤ B * B - 4 * (N - ERAD * ERAD) := by
      have := mul_self_nonneg (2 * t - B)
      rw [hE1] at *
      nlinarith
    have hB2 : 200 ≤ B := by
      by_contra hc
      push Not at hc
      nlinarith
    apply flag_one
    · have : (0 : ℝ) ≤ mb := by norm_num at m1; linarith
      exact_mod_cast this
    · have : (0 : ℝ) ≤ disc := by norm_num at d1; linarith
      exact_mod_cast this
  · intro hR
    rcases le_or_gt B 0 with hB | hB
    · exact flag_zero F M b1 b2 hB hC b3
    · have hneg : disc < 0 := by
        by_contra hc
        have hc' : (0 : ℝ) ≤ disc := by exact_mod_cast not_lt.1 hc
        apply hR
        rw [key _ (by linarith)]
        refine ⟨B / 2, by linarith, ?_⟩
        rw [hE1] at *
        norm_num at d1 d2 ⊢
        linarith
      unfold flagD
      rw [if_pos hneg]

/-- Two satellites behind the Earth, 136 m inside and 863 m outside the edge of the shadow. -/
example (F : Fl64) (M : Libm) : (shadowD F M (-7000) 6378 0 149600000 6378 0).1 = 1 ∧ (shadowD F M (-7000) 6379 0 149600000 6379 0).1 = 0 := by
  have hE1 : ERAD = 63781366 / 10000 := rfl
  have far : ∀ y : ℝ, 6000 ≤ y → ERAD + 1 ≤ (⟨(-7000 : ℚ), y, (0 : ℚ)⟩ : V3).len := by
    intro y hy
    unfold V3.len V3.dot
    dsimp only
    refine Real.le_sqrt_of_sq_le ?_
    rw [hE1]
    norm_num
    nlinarith
  have sun : ∀ y : ℝ, 145 * 10 ^ 6 ≤ ((⟨(149600000 : ℚ), y, (0 : ℚ)⟩ : V3).sub ⟨(-7000 : ℚ), y, (0 : ℚ)⟩).len := by
    intro y
    unfold V3.len V3.dot V3.sub
    dsimp only
    refine Real.le_sqrt_of_sq_le ?_
    rw [sub_self]
    norm_num
  constructor
  · refine (C188_shadow F M (by norm_num) (by norm_num) (by norm_num) (by norm_num) (by norm_num) (by norm_num) (by simpa using far 6378 (by norm_num)) (by simpa using sun 6378)).1 ?_
    refine ⟨7000 / 149607000, by norm_num, ?_⟩
    rw [len_le_iff (by rw [hE1]; norm_num), hE1]
    unfold V3.add V3.smul V3.sub V3.dot
    norm_num
  · refine (C188_shadow F M (by norm_num) (by norm_num) (by norm_num) (by norm_num) (by norm_num) (by norm_num) (by simpa using far 6379 (by norm_num)) (by simpa using sun 6379)).2 ?_
    rintro ⟨t, _, h⟩
    rw [len_le_iff (by rw [hE1]; norm_num), hE1] at h
    unfold V3.add V3.smul V3.sub V3.dot at h
    dsimp only at h
    push_cast at h
    nlinarith [mul_self_nonneg ((-7000 : ℝ) + t * (149600000 - -7000))]

end SatSky.Props
