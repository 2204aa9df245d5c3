import Verif.Lemmas.HealpixDist
import Verif.Props.HealpixArea
import Mathlib.Analysis.Real.Pi.Bounds

/-! C168: how far a direction is from the centre of its pixel. -/

namespace SatSky.Props

open SatSky SatSky.Healpix SatSky.Spec SatSky.Spec.Healpix

/-- A point of a pixel in the unrolled plane: `j` is 0, or 4 beyond the seam. -/
theorem unrolled {n x y f : ℕ} (hn : 0 < n) (hx : x < n) (hy : y < n) (hf : f < 12) {z t j : ℝ} (t0 : 0 ≤ t) (t1 : t < 4) (hj : j = 0 ∨ j = 4)
    (h : InSquare n x y f (planeX z t - j) (planeY z)) :
    hat z * (t - j - faceX f) = planeX z t - j - faceX f ∧ |t - j - faceX f| ≤ 1 / 2 := by
  have hn' : (0 : ℝ) < n := by exact_mod_cast hn
  have hx' : (x : ℝ) + 1 ≤ n := by exact_mod_cast hx
  have hy' : (y : ℝ) + 1 ≤ n := by exact_mod_cast hy
  have hx0 : (0 : ℝ) ≤ x := by positivity
  have hy0 : (0 : ℝ) ≤ y := by positivity
  obtain ⟨⟨u0, u1⟩, v0, v1⟩ := h
  have w1 : planeX z t - j - faceX f + (planeY z - faceY f) ≤ 1 / 2 := by
    have : (n : ℝ) * (planeX z t - j - faceX f + (planeY z - faceY f) + 1 / 2) ≤ n * 1 := by linarith
    linarith [le_of_mul_le_mul_left this hn']
  have w2 : planeY z - faceY f - (planeX z t - j - faceX f) ≤ 1 / 2 := by
    have : (n : ℝ) * (planeY z - faceY f - (planeX z t - j - faceX f) + 1 / 2) ≤ n * 1 := by linarith
    linarith [le_of_mul_le_mul_left this hn']
  have w3 : -(1 / 2) ≤ planeX z t - j - faceX f + (planeY z - faceY f) := by
    have : (n : ℝ) * 0 ≤ (n : ℝ) * (planeX z t - j - faceX f + (planeY z - faceY f) + 1 / 2) := by linarith
    linarith [le_of_mul_le_mul_left this hn']
  have w4 : -(1 / 2) ≤ planeY z - faceY f - (planeX z t - j - faceX f) := by
    have : (n : ℝ) * 0 ≤ (n : ℝ) * (planeY z - faceY f - (planeX z t - j - faceX f) + 1 / 2) := by linarith
    linarith [le_of_mul_le_mul_left this hn']
  clear u0 u1 v0 v1
  rcases le_or_gt |z| (2 / 3) with hb | hb
  · have eX : planeX z t = t := by unfold planeX; rw [if_pos hb]
    rw [eX] at w1 w2 w3 w4
    rw [(plane_abs_belt hb).2, eX]
    refine ⟨one_mul _, ?_⟩
    rw [abs_le]
    constructor <;> linarith
  · have eX : planeX z t = ⌊t⌋ + 1 / 2 + (t - ⌊t⌋ - 1 / 2) * Real.sqrt (3 * (1 - |z|)) := by unfold planeX; rw [if_neg (not_le.mpr hb)]
    have eY : planeY z = if 0 ≤ z then 1 - Real.sqrt (3 * (1 - |z|)) / 2 else -(1 - Real.sqrt (3 * (1 - |z|)) / 2) := by
      unfold planeY; rw [if_neg (not_le.mpr hb)]
    have eH : hat z = Real.sqrt (3 * (1 - |z|)) := by unfold hat; rw [if_neg (not_le.mpr hb)]
    obtain ⟨r0, r1⟩ := cap_root hb
    have n0 : 0 ≤ ⌊t⌋ := Int.floor_nonneg.mpr t0
    have n1 : ⌊t⌋ < 4 := Int.floor_lt.mpr (by push_cast; exact t1)
    have tp0 : 0 ≤ t - ⌊t⌋ := by linarith [Int.floor_le t]
    have tp1 : t - ⌊t⌋ < 1 := by linarith [Int.lt_floor_add_one t]
    generalize Real.sqrt (3 * (1 - |z|)) = r at *
    have b1 : |planeX z t - (⌊t⌋ + 1 / 2)| ≤ r / 2 := by
      rw [eX, abs_le]; constructor <;> nlinarith
    obtain ⟨b1, b2⟩ := abs_le.mp b1
    have place : ∀ g : ℕ, g < 4 → faceX f = g + 1 / 2 → |planeX z t - j - faceX f| ≤ r / 2 →
        hat z * (t - j - faceX f) = planeX z t - j - faceX f ∧ |t - j - faceX f| ≤ 1 / 2 := by
      intro g hg e hh
      obtain ⟨c1, c2⟩ := abs_le.mp hh
      rw [e] at c1 c2
      have ht : ⌊t⌋ = g ∧ j = 0 := by
        rcases hj with rfl | rfl
        · have k1 : (⌊t⌋ : ℝ) - g < 1 := by linarith
          have k2 : (g : ℝ) - ⌊t⌋ < 1 := by linarith
          have k3 : ⌊t⌋ - (g : ℤ) < 1 := by exact_mod_cast k1
          have k4 : (g : ℤ) - ⌊t⌋ < 1 := by exact_mod_cast k2
          exact ⟨by omega, rfl⟩
        · exfalso
          have k2 : (g : ℝ) + 4 - ⌊t⌋ < 1 := by linarith
          have k4 : (g : ℤ) + 4 - ⌊t⌋ < 1 := by exact_mod_cast k2
          omega
      obtain ⟨ht, rfl⟩ := ht
      have htr : ((⌊t⌋ : ℤ) : ℝ) = (g : ℝ) := by rw [ht]; push_cast; rfl
      rw [htr] at eX tp0 tp1
      rw [e, eX, eH]
      refine ⟨by ring, ?_⟩
      rw [abs_le]
      constructor <;> linarith
    by_cases hp : 0 ≤ z
    · rw [if_pos hp] at eY
      have hf4 : f < 4 := by
        by_contra hc
        have : faceY f ≤ 0 := by
          unfold faceY; rw [if_neg hc]; split_ifs <;> norm_num
        linarith
      obtain ⟨g1, g2⟩ := face_north hf4
      exact place f hf4 g1 (by rw [abs_le]; constructor <;> linarith)
    · rw [if_neg hp] at eY
      have hf8 : 8 ≤ f := by
        by_contra hc
        have : 0 ≤ faceY f := by
          unfold faceY
          split_ifs
          · norm_num
          · exact le_refl _
          · omega
        linarith
      obtain ⟨g, rfl⟩ : ∃ g, f = g + 8 := ⟨f - 8, by omega⟩
      obtain ⟨g1, g2⟩ := face_south g
      exact place g (by omega) g1 (by rw [abs_le]; constructor <;> linarith)

/-- Two points of one pixel: the distance on the sphere and the distance in the plane. -/
theorem sphere_plane {n x y f : ℕ} (hn : 0 < n) (hx : x < n) (hy : y < n) (hf : f < 12) {z t j w s i : ℝ} (hz : |z| ≤ 1) (hw : |w| ≤ 1)
    (t0 : 0 ≤ t) (t1 : t < 4) (s0 : 0 ≤ s) (s1 : s < 4) (hj : j = 0 ∨ j = 4) (hi : i = 0 ∨ i = 4)
    (h : InSquare n x y f (planeX z t - j) (planeY z)) (g : InSquare n x y f (planeX w s - i) (planeY w)) :
    ((dir (t * (Real.pi / 2)) (Real.arcsin z)).sub (dir (s * (Real.pi / 2)) (Real.arcsin w))).len ≤
      9 / 5 * |planeY z - planeY w| + Real.pi / 2 * (|(planeX z t - j) - (planeX w s - i)| + |planeY z - planeY w|) := by
  obtain ⟨a1, a2⟩ := unrolled hn hx hy hf t0 t1 hj h
  obtain ⟨b1, b2⟩ := unrolled hn hx hy hf s0 s1 hi g
  have per : ∀ u k b : ℝ, (k = 0 ∨ k = 4) → dir (u * (Real.pi / 2)) b = dir ((u - k) * (Real.pi / 2)) b := by
    intro u k b hk
    rcases hk with rfl | rfl
    · rw [sub_zero]
    · unfold dir
      rw [show (u - 4) * (Real.pi / 2) = u * (Real.pi / 2) - 2 * Real.pi by ring, Real.cos_sub_two_pi, Real.sin_sub_two_pi]
  rw [per t j _ hj, per s i _ hi]
  refine (sphere_dist hz hw).trans ?_
  have m := merid_plane hz hw
  have ax := axis_le_hat hz
  have hl := hat_lipschitz z w
  have h0 := (hat_range z).1
  have e : hat z * ((t - j) - (s - i)) = (planeX z t - j) - (planeX w s - i) - (hat z - hat w) * (s - i - faceX f) := by
    linear_combination a1 - b1
  have q : hat z * |(t - j) - (s - i)| ≤ |(planeX z t - j) - (planeX w s - i)| + |planeY z - planeY w| := by
    have q1 : hat z * |(t - j) - (s - i)| = |hat z * ((t - j) - (s - i))| := by rw [abs_mul, abs_of_nonneg h0]
    have q2 : |(hat z - hat w) * (s - i - faceX f)| ≤ |planeY z - planeY w| := by
      rw [abs_mul]
      have := mul_le_mul hl b2 (abs_nonneg _) (by positivity)
      linarith
    rw [q1, e]
    exact (abs_sub _ _).trans (by linarith)
  have ab : |(t - j) * (Real.pi / 2) - (s - i) * (Real.pi / 2)| = Real.pi / 2 * |(t - j) - (s - i)| := by
    rw [← sub_mul, abs_mul, abs_of_pos (by positivity : 0 < Real.pi / 2), mul_comm]
  rw [ab]
  have q3 : Real.sqrt (1 - z ^ 2) * (Real.pi / 2 * |(t - j) - (s - i)|) ≤ Real.pi / 2 * (hat z * |(t - j) - (s - i)|) := by
    rw [mul_left_comm]
    exact mul_le_mul_of_nonneg_left (mul_le_mul_of_nonneg_right ax (abs_nonneg _)) (by positivity)
  have q4 := mul_le_mul_of_nonneg_left q (by positivity : 0 ≤ Real.pi / 2)
  linarith

/-- The place of the centre of a pixel in the plane is the centre of the square. -/
theorem centre_place {c u isq : ℤ → Option ℤ} {n : ℤ} {N x y f : ℕ} (E : Env c u isq n) (hN : n = N) (h : OnFace N x y f) :
    ∃ z t j : ℝ, xyf2ang exact c n x y f = some (z, t * (Real.pi / 2)) ∧ |z| ≤ 1 ∧ 0 ≤ t ∧ t < 4 ∧ (j = 0 ∨ j = 4) ∧
      planeX z t - j = faceX f + ((x : ℝ) - y) / (2 * N) ∧ planeY z = faceY f + ((x : ℝ) + y + 1) / (2 * N) - 1 / 2 := by
  have hn := E.pos
  have hNr : (n : ℝ) = N := by rw [hN]; rfl
  have n0 : (0 : ℝ) < N := by rw [← hNr]; exact_mod_cast (by omega : 0 < n)
  obtain ⟨hx, hy, hf⟩ := h
  have hx' : (0 : ℤ) ≤ x ∧ (x : ℤ) < n := by omega
  have hy' : (0 : ℤ) ≤ y ∧ (y : ℤ) < n := by omega
  have ⟨jl, hjl⟩ : ∃ jl, jrll[f]? = some jl := by interval_cases f <;> exact ⟨_, rfl⟩
  have ⟨pl, hpl⟩ : ∃ pl, jpll[f]? = some pl := by interval_cases f <;> exact ⟨_, rfl⟩
  -- in the caps
  have cap : ∀ (g : ℕ) (i a : ℤ) (z : ℝ), 1 ≤ i → i < n → |z| = 1 - (i : ℝ) ^ 2 / (3 * n ^ 2) → 1 ≤ a → a ≤ i → g < 4 →
      |z| ≤ 1 ∧ 2 / 3 < |z| ∧ Real.sqrt (3 * (1 - |z|)) = i / N ∧ 0 ≤ (g : ℝ) + (a - 1 / 2) / i ∧ (g : ℝ) + (a - 1 / 2) / i < 4 ∧
        planeX z ((g : ℝ) + (a - 1 / 2) / i) = g + 1 / 2 + (2 * a - 1 - i) / (2 * N) := by
    intro g i a z hi1 hi2 hz ha1 ha2 hg
    obtain ⟨z1, z2, z3⟩ := cap_height hi1 hi2
    have i0 : (0 : ℝ) < i := by exact_mod_cast (by omega : 0 < i)
    have a1 : (1 : ℝ) ≤ a := by exact_mod_cast ha1
    have a2 : (a : ℝ) ≤ i := by exact_mod_cast ha2
    have g3 : (g : ℝ) ≤ 3 := by exact_mod_cast (by omega : g ≤ 3)
    have g0 : (0 : ℝ) ≤ g := by positivity
    have q0 : 0 ≤ ((a : ℝ) - 1 / 2) / i := div_nonneg (by linarith) i0.le
    have q1 : ((a : ℝ) - 1 / 2) / i < 1 := by rw [div_lt_one i0]; linarith
    rw [← hz] at z1 z2 z3
    have hs : Real.sqrt (3 * (1 - |z|)) = i / N := by rw [← z3, hNr]; field_simp
    refine ⟨z2, z1, hs, by linarith, by linarith, ?_⟩
    have hfl : ⌊(g : ℝ) + (a - 1 / 2) / i⌋ = g := by
      rw [Int.floor_eq_iff]; push_cast; constructor <;> linarith
    unfold planeX
    rw [if_neg (not_le.mpr z1), hfl, hs]
    push_cast
    field_simp
    ring
  by_cases h1 : jl * n - x - y - 1 < n
  · rcases belt_cases hf hjl hpl with ⟨a, h, hf4⟩ | ⟨a, h, hf4, hf8⟩ | ⟨a, h, hf4⟩
    · subst a
      obtain ⟨z1, z2, z3⟩ := cap_height (n := n) (i := 2 * n - x - y - 1) (by omega) h1
      obtain ⟨c1, c2, c3, c4, c5, c6⟩ := cap f (2 * n - x - y - 1) (n - y) _ (by omega) h1 (abs_pos_height z1) (by omega) (by omega) hf4
      refine ⟨_, _, 0, xyf2ang_north E hf4 hx' hy' h1, c1, c4, c5, Or.inl rfl, ?_, ?_⟩
      · rw [sub_zero, c6, (face_north hf4).1]
        push_cast
        rw [hNr]
        ring
      · unfold planeY
        rw [if_neg (not_le.mpr c2), if_pos (by linarith), c3, (face_north hf4).2]
        push_cast
        rw [hNr]
        field_simp
        ring
    · subst a; omega
    · subst a; omega
  · by_cases h2 : jl * n - x - y - 1 > 3 * n
    · rcases belt_cases hf hjl hpl with ⟨a, h, hf4⟩ | ⟨a, h, hf4, hf8⟩ | ⟨a, h, hf4⟩
      · subst a; omega
      · subst a; omega
      · subst a
        obtain ⟨g, rfl⟩ : ∃ g, f = 8 + g := ⟨f - 8, by omega⟩
        obtain ⟨z1, z2, z3⟩ := cap_height (n := n) (i := x + y + 1) (by omega) (by omega)
        obtain ⟨c1, c2, c3, c4, c5, c6⟩ := cap g (x + y + 1) (x + 1) _ (by omega) (by omega) (abs_neg_height z1) (by omega) (by omega) (by omega)
        obtain ⟨g1, g2⟩ := face_south g
        refine ⟨_, _, 0, xyf2ang_south E (by omega : g < 4) hx' hy' h2, c1, c4, c5, Or.inl rfl, ?_, ?_⟩
        · rw [sub_zero, c6, add_comm 8 g, g1]
          push_cast
          ring
        · unfold planeY
          rw [if_neg (not_le.mpr c2), if_neg (by linarith), c3, add_comm 8 g, g2]
          push_cast
          field_simp
          ring
    · push Not at h1 h2
      obtain ⟨m, hm, m0, m1, -, e⟩ := xyf2ang_belt E hf hx' hy' hjl hpl h1 h2
      have zb := belt_height hn h1 h2
      have m0' : (0 : ℝ) ≤ m := by exact_mod_cast m0
      have m1' : (m : ℝ) < 8 * n := by exact_mod_cast m1
      have t0 : 0 ≤ (m : ℝ) / (2 * n) := by rw [hNr]; positivity
      have t1 : (m : ℝ) / (2 * n) < 4 := by rw [hNr] at m1' ⊢; rw [div_lt_iff₀ (by positivity)]; linarith
      -- where the face is
      have face : faceX f = pl / 2 ∧ faceY f = 3 / 2 - jl / 2 := by
        rcases belt_cases hf hjl hpl with ⟨rfl, rfl, hf4⟩ | ⟨rfl, rfl, hf4, hf8⟩ | ⟨rfl, rfl, hf4⟩
        · obtain ⟨g1, g2⟩ := face_north hf4
          rw [g1, g2]; push_cast; constructor <;> ring
        · obtain ⟨g, rfl⟩ : ∃ g, f = g + 4 := ⟨f - 4, by omega⟩
          obtain ⟨g1, g2⟩ := face_equator (g := g) (by omega)
          rw [g1, g2]; push_cast; constructor <;> ring
        · obtain ⟨g, rfl⟩ : ∃ g, f = g + 8 := ⟨f - 8, by omega⟩
          obtain ⟨g1, g2⟩ := face_south g
          rw [g1, g2]; push_cast; constructor <;> ring
      have eY : planeY (4 / 3 - 2 * ((jl * n - x - y - 1 : ℤ) : ℝ) / (3 * n)) = faceY f + ((x : ℝ) + y + 1) / (2 * N) - 1 / 2 := by
        unfold planeY
        rw [if_pos zb, face.2]
        push_cast
        rw [hNr]
        field_simp
        ring
      have eX : planeX (4 / 3 - 2 * ((jl * n - x - y - 1 : ℤ) : ℝ) / (3 * n)) ((m : ℝ) / (2 * n)) = (m : ℝ) / (2 * n) := by
        unfold planeX; rw [if_pos zb]
      rcases hm with hm | ⟨hf', hm⟩
      · refine ⟨_, _, 0, e, by linarith, t0, t1, Or.inl rfl, ?_, eY⟩
        rw [eX, sub_zero, hm, face.1]
        push_cast
        rw [hNr]
        field_simp
        ring
      · refine ⟨_, _, 4, e, by linarith, t0, t1, Or.inr rfl, ?_, eY⟩
        rw [eX, hm, face.1]
        push_cast
        rw [hNr]
        field_simp
        ring

/-- The square and its centre. -/
theorem diamond {n x y f : ℕ} (hn : 0 < n) {X Y : ℝ} (h : InSquare n x y f X Y) :
    |X - (faceX f + ((x : ℝ) - y) / (2 * n))| + |Y - (faceY f + ((x : ℝ) + y + 1) / (2 * n) - 1 / 2)| ≤ 1 / (2 * n) := by
  have n0 : (0 : ℝ) < n := by exact_mod_cast hn
  obtain ⟨⟨u0, u1⟩, v0, v1⟩ := h
  obtain ⟨X', hX⟩ : ∃ X', X' = X - (faceX f + ((x : ℝ) - y) / (2 * n)) := ⟨_, rfl⟩
  obtain ⟨Y', hY⟩ : ∃ Y', Y' = Y - (faceY f + ((x : ℝ) + y + 1) / (2 * n) - 1 / 2) := ⟨_, rfl⟩
  rw [← hX, ← hY]
  have eX : X - faceX f = X' + ((x : ℝ) - y) / (2 * n) := by rw [hX]; ring
  have eY : Y - faceY f = Y' + ((x : ℝ) + y + 1) / (2 * n) - 1 / 2 := by rw [hY]; ring
  have U : (n : ℝ) * (X - faceX f + (Y - faceY f) + 1 / 2) = n * (X' + Y') + x + 1 / 2 := by rw [eX, eY]; field_simp; ring
  have V : (n : ℝ) * (Y - faceY f - (X - faceX f) + 1 / 2) = n * (Y' - X') + y + 1 / 2 := by rw [eX, eY]; field_simp; ring
  rw [U] at u0 u1
  rw [V] at v0 v1
  rw [le_div_iff₀ (by positivity)]
  have a1 : -(1 / 2) ≤ n * (X' + Y') := by linarith
  have a2 : n * (X' + Y') ≤ 1 / 2 := by linarith
  have a3 : -(1 / 2) ≤ n * (Y' - X') := by linarith
  have a4 : n * (Y' - X') ≤ 1 / 2 := by linarith
  rcases abs_cases X' with ⟨e, -⟩ | ⟨e, -⟩ <;> rcases abs_cases Y' with ⟨e', -⟩ | ⟨e', -⟩ <;> rw [e, e'] <;> linarith

/-- And the centre is in the square. -/
theorem centre_square {n x y f : ℕ} (hn : 0 < n) :
    InSquare n x y f (faceX f + ((x : ℝ) - y) / (2 * n)) (faceY f + ((x : ℝ) + y + 1) / (2 * n) - 1 / 2) := by
  have n0 : (0 : ℝ) < n := by exact_mod_cast hn
  have U : (n : ℝ) * (faceX f + ((x : ℝ) - y) / (2 * n) - faceX f + (faceY f + ((x : ℝ) + y + 1) / (2 * n) - 1 / 2 - faceY f) + 1 / 2) = x + 1 / 2 := by
    field_simp; ring
  have V : (n : ℝ) * (faceY f + ((x : ℝ) + y + 1) / (2 * n) - 1 / 2 - faceY f - (faceX f + ((x : ℝ) - y) / (2 * n) - faceX f) + 1 / 2) = y + 1 / 2 := by
    field_simp; ring
  unfold InSquare
  rw [U, V]
  refine ⟨⟨?_, ?_⟩, ?_, ?_⟩ <;> linarith

/-- The direction of the angles of HEALPix: `theta` from the north pole. -/
noncomputable def sphDir (theta phi : ℝ) : V3 := dir phi (Real.pi / 2 - theta)

theorem sphDir_turn (theta t : ℝ) (m : ℤ) : sphDir theta ((t + 4 * m) * (Real.pi / 2)) = sphDir theta (t * (Real.pi / 2)) := by
  unfold sphDir dir
  rw [show (t + 4 * m) * (Real.pi / 2) = t * (Real.pi / 2) + m * (2 * Real.pi) by ring, Real.cos_add_int_mul_two_pi, Real.sin_add_int_mul_two_pi]

theorem any_longitude (phi : ℝ) : ∃ (t : ℝ) (m : ℤ), 0 ≤ t ∧ t < 4 ∧ phi = (t + 4 * m) * (Real.pi / 2) := by
  have hp := Real.pi_pos
  refine ⟨4 * Int.fract (phi / (2 * Real.pi)), ⌊phi / (2 * Real.pi)⌋, by linarith [Int.fract_nonneg (phi / (2 * Real.pi))],
    by linarith [Int.fract_lt_one (phi / (2 * Real.pi))], ?_⟩
  have h := Int.floor_add_fract (phi / (2 * Real.pi))
  have e : phi = phi / (2 * Real.pi) * (2 * Real.pi) := by field_simp
  conv_lhs => rw [e, ← h]
  ring

/-- From the pixel to its centre. -/
theorem near_centre {c u isq : ℤ → Option ℤ} {n : ℤ} {N x y f : ℕ} (E : Env c u isq n) (hN : n = N) (h : OnFace N x y f) {theta t : ℝ}
    (h0 : 0 ≤ theta) (h1 : theta ≤ Real.pi) (t0 : 0 ≤ t) (t1 : t < 4) (m : ℤ) (hp : InPixel N x y f (Real.cos theta) t) :
    ∃ z phi : ℝ, xyf2ang exact c n x y f = some (z, phi) ∧ |z| ≤ 1 ∧
      ((sphDir theta ((t + 4 * m) * (Real.pi / 2))).sub (sphDir (Real.arccos z) phi)).len < 17 / 10 / N := by
  have hn := E.pos
  have n0 : 0 < N := by omega
  have n0' : (0 : ℝ) < N := by exact_mod_cast n0
  obtain ⟨z, s, i, e, hz, s0, s1, hi, eX, eY⟩ := centre_place E hN h
  refine ⟨z, s * (Real.pi / 2), e, hz, ?_⟩
  obtain ⟨j, hj, hs⟩ : ∃ j : ℝ, (j = 0 ∨ j = 4) ∧ InSquare N x y f (planeX (Real.cos theta) t - j) (planeY (Real.cos theta)) := by
    rcases hp with h | h
    · exact ⟨0, Or.inl rfl, by rwa [sub_zero]⟩
    · exact ⟨4, Or.inr rfl, h⟩
  have hd := diamond n0 hs
  have hc := centre_square (x := x) (y := y) (f := f) n0
  rw [← eX, ← eY] at hc hd
  have hb := sphere_plane n0 h.x h.y h.f (Real.abs_cos_le_one theta) hz t0 t1 s0 s1 hj hi hs hc
  rw [sphDir_turn]
  have e1 : sphDir theta (t * (Real.pi / 2)) = dir (t * (Real.pi / 2)) (Real.arcsin (Real.cos theta)) := by
    unfold sphDir
    rw [Real.arcsin_eq_pi_div_two_sub_arccos, Real.arccos_cos h0 h1]
  have e2 : sphDir (Real.arccos z) (s * (Real.pi / 2)) = dir (s * (Real.pi / 2)) (Real.arcsin z) := by
    unfold sphDir
    rw [Real.arcsin_eq_pi_div_two_sub_arccos]
  rw [e1, e2]
  refine hb.trans_lt ?_
  have A0 := abs_nonneg (planeX (Real.cos theta) t - j - (planeX z s - i))
  generalize |planeX (Real.cos theta) t - j - (planeX z s - i)| = A at *
  have B0 := abs_nonneg (planeY (Real.cos theta) - planeY z)
  generalize |planeY (Real.cos theta) - planeY z| = B at *
  have pi1 := Real.pi_lt_d2
  have pi0 := Real.pi_pos
  have k1 : Real.pi / 2 * (A + B) ≤ Real.pi / 2 * (1 / (2 * N)) := mul_le_mul_of_nonneg_left hd (by positivity)
  have hinv : 0 < 1 / (2 * (N : ℝ)) := by positivity
  have k2 : Real.pi / 2 * (1 / (2 * (N : ℝ))) ≤ 3.15 / 2 * (1 / (2 * N)) := mul_le_mul_of_nonneg_right (by linarith) hinv.le
  have eq : 17 / 10 / (N : ℝ) = 17 / 5 * (1 / (2 * N)) := by field_simp; norm_num
  rw [eq]
  linarith

/-- The RING search, any `nside`. -/
theorem ring_near {c u isq : ℤ → Option ℤ} {n : ℤ} {N : ℕ} (E : Env c u isq n) (hN : n = N) {theta s : ℝ}
    (h0 : 0 ≤ theta) (h1 : theta ≤ Real.pi) (hs : s = -5 ∨ s = Real.sqrt (1 - |Real.cos theta| ^ 2)) (phi : ℝ) :
    ∃ (p : ℤ) (z phi' : ℝ), ang2pixRing exact c n (Real.cos theta) s phi = some p ∧ pix2angRing exact c isq n p = some (z, phi') ∧ |z| ≤ 1 ∧
      ((sphDir theta phi).sub (sphDir (Real.arccos z) phi')).len < 17 / 10 / N := by
  have hn := E.pos
  obtain ⟨t, m, t0, t1, rfl⟩ := any_longitude phi
  obtain ⟨x, y, f, e, hf, hr⟩ := region_place (z := Real.cos theta) hn hN t0 t1
  obtain ⟨p, i, j, e2, hp, e3⟩ := same_centre E (x := x) (y := y) hf.f ⟨by omega, by have := hf.x; omega⟩ ⟨by omega, by have := hf.y; omega⟩
  obtain ⟨z, phi', e4, hz, hd⟩ := near_centre E hN hf h0 h1 t0 t1 m hr
  rw [e3] at e4
  refine ⟨p, z, phi', ?_, ?_, hz, hd⟩
  · rw [ring_place E (Real.abs_cos_le_one theta) hs (quarter_turns t0 t1 m) t0 t1 e, e2]
  · rw [pix2ang_ring_spec E hp, e4]

/-- **C168**, RING, 32 bit: a direction is less than `1.7 / nside` (length of the chord of the unit sphere) from the centre of its pixel. -/
theorem C168_ring (F : Fl64) (R : Root) {N : ℕ} (hn1 : 1 ≤ N) (hn2 : N ≤ 8192) {theta : ℝ} (h0 : 0 ≤ theta) (h1 : theta ≤ Real.pi) (phi : ℝ) :
    ∃ (p : ℤ) (theta' phi' : ℝ), ang2pix_ring N theta phi = some p ∧ pix2ang_ring F R N p = some (theta', phi') ∧
      ((sphDir theta phi).sub (sphDir theta' phi')).len < 17 / 10 / N := by
  obtain ⟨p, z, phi', e1, e2, -, hd⟩ := ring_near (env32 F R (n := N) (by omega) (by omega)) rfl h0 h1 (Or.inl rfl) phi
  refine ⟨p, Real.arccos z, phi', ?_, ?_, hd⟩
  · unfold ang2pix_ring
    rw [if_pos ⟨h0, h1⟩, e1]
  · unfold pix2ang_ring
    exact ring_eval (n := N) (p := p) e2

/-- **C168**, RING, 64 bit. -/
theorem C168_ring64 (F : Fl64) (R : Root) {N : ℕ} (hn1 : 1 ≤ N) (hn2 : N ≤ 2 ^ 29) {theta : ℝ} (h0 : 0 ≤ theta) (h1 : theta ≤ Real.pi) (phi : ℝ) :
    ∃ (p : ℤ) (theta' phi' : ℝ), ang2pix_ring64 N theta phi = some p ∧ pix2ang_ring64 F R N p = some (theta', phi') ∧
      ((sphDir theta phi).sub (sphDir theta' phi')).len < 17 / 10 / N := by
  obtain ⟨p, z, phi', e1, e2, hz, hd⟩ := ring_near (env64 F R (n := N) (by omega) (by exact_mod_cast hn2)) rfl h0 h1 (sth_ok h0 h1) phi
  refine ⟨p, Real.arccos z, phi', ?_, ?_, hd⟩
  · unfold ang2pix_ring64
    rw [if_pos ⟨h0, h1⟩, e1]
  · rw [← theta64_eq hz]
    unfold pix2ang_ring64
    exact ring_eval (n := N) (p := p) e2

/-- **C168**, NESTED, 32 bit. -/
theorem C168_nest {k : ℕ} (hk : k ≤ 13) {theta : ℝ} (h0 : 0 ≤ theta) (h1 : theta ≤ Real.pi) (phi : ℝ) :
    ∃ (p : ℤ) (theta' phi' : ℝ), ang2pix_nest (2 ^ k) theta phi = some p ∧ pix2ang_nest (2 ^ k) p = some (theta', phi') ∧
      ((sphDir theta phi).sub (sphDir theta' phi')).len < 17 / 10 / (2 ^ k : ℕ) := by
  obtain ⟨u, isq, E⟩ := env32' (n := 2 ^ k) (one_le_z k) (pow_le_z hk)
  obtain ⟨t, m, t0, t1, rfl⟩ := any_longitude phi
  obtain ⟨x, y, f, p, e, hp, hf, hr⟩ := C164_nest hk h0 h1 t0 t1 m
  obtain ⟨z, phi', e4, hz, hd⟩ := near_centre E (z_pow k).symm hf h0 h1 t0 t1 m hr
  obtain ⟨p', e2, hp', hlt, e3⟩ := (C42_nest hk).1 x y f hf
  obtain rfl := nested_unique hp hp'
  refine ⟨p, Real.arccos z, phi', e, ?_, hd⟩
  exact centre_eval (Int.natCast_nonneg p) (by rw [pow_toNat]; exact e3) e4

/-- **C168**, NESTED, 64 bit. -/
theorem C168_nest64 {k : ℕ} (hk : k ≤ 29) {theta : ℝ} (h0 : 0 ≤ theta) (h1 : theta ≤ Real.pi) (phi : ℝ) :
    ∃ (p : ℤ) (theta' phi' : ℝ), ang2pix_nest64 (2 ^ k) theta phi = some p ∧ pix2ang_nest64 (2 ^ k) p = some (theta', phi') ∧
      ((sphDir theta phi).sub (sphDir theta' phi')).len < 17 / 10 / (2 ^ k : ℕ) := by
  obtain ⟨u, isq, E⟩ := env64' (n := 2 ^ k) (one_le_z k) (pow_le_z hk)
  obtain ⟨t, m, t0, t1, rfl⟩ := any_longitude phi
  obtain ⟨x, y, f, p, e, hp, hf, hr⟩ := C164_nest64 hk h0 h1 t0 t1 m
  obtain ⟨z, phi', e4, hz, hd⟩ := near_centre E (z_pow k).symm hf h0 h1 t0 t1 m hr
  obtain ⟨p', e2, hp', hlt, e3⟩ := (C42_nest64 hk).1 x y f hf
  obtain rfl := nested_unique hp hp'
  refine ⟨p, theta64 z, phi', e, ?_, by rwa [theta64_eq hz]⟩
  exact centre_eval (Int.natCast_nonneg p) (by rw [pow_toNat]; exact e3) e4

/-- **C168** for the pixel that `sat_skymap` prints (lines 572 and 881-882: `nside` 256, colatitude `π/2 - dec`): its centre is less than 0.0067 rad,
0.39 degrees, from the printed position. -/
theorem C168_printed {dec : ℝ} (h0 : -(Real.pi / 2) ≤ dec) (h1 : dec ≤ Real.pi / 2) (ra : ℝ) :
    ∃ (p : ℤ) (theta' phi' : ℝ), ang2pix_nest 256 (Real.pi / 2 - dec) ra = some p ∧ pix2ang_nest 256 p = some (theta', phi') ∧
      ((dir ra dec).sub (dir phi' (Real.pi / 2 - theta'))).len < 67 / 10000 := by
  obtain ⟨p, a, b, e1, e2, h⟩ := C168_nest (k := 8) (by norm_num) (theta := Real.pi / 2 - dec) (by linarith) (by linarith) ra
  refine ⟨p, a, b, e1, e2, ?_⟩
  unfold sphDir at h
  rw [sub_sub_cancel] at h
  refine h.trans ?_
  norm_num

/-- The north pole with `nside` 8192: some pixel centre is within `1.7 / 8192`, 43 seconds of arc. -/
example (F : Fl64) (R : Root) : ∃ (p : ℤ) (theta' phi' : ℝ), ang2pix_ring (8192 : ℕ) 0 1 = some p ∧ pix2ang_ring F R (8192 : ℕ) p = some (theta', phi') ∧
    ((⟨0, 0, 1⟩ : V3).sub (sphDir theta' phi')).len < 1 / 4800 := by
  obtain ⟨p, a, b, e1, e2, h⟩ := C168_ring F R (N := 8192) (by norm_num) (by norm_num) (le_refl 0) Real.pi_pos.le 1
  refine ⟨p, a, b, e1, e2, ?_⟩
  have e : sphDir 0 1 = ⟨0, 0, 1⟩ := by unfold sphDir dir; simp
  rw [← e]
  refine h.trans ?_
  norm_num

end SatSky.Props
