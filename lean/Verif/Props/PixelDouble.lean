import Verif.Model.PixelDouble
import Verif.Props.HealpixDouble
import Verif.Props.HealpixRegion
import Verif.Props.SunDouble

/-! C193: the HEALPix pixel in `double` arithmetic contains a direction next to the given one. -/

namespace SatSky.Props

open SatSky SatSky.Healpix SatSky.Spec.Healpix SatSky.Geo SatSky.Relative

/-! ### Squares from edge lines -/

/-- The square between two pairs of edge lines in the belt. -/
theorem belt_square {n : ℤ} {N : ℕ} (hn : 1 ≤ n) (hN : n = N) {jp jm : ℤ} {a b : ℝ} (ha : jp ≤ a ∧ a ≤ jp + 1) (hb : jm ≤ b ∧ b ≤ jm + 1)
    (p0 : 0 ≤ jp) (p1 : jp < 5 * n) (q0 : 0 ≤ jm) (q1 : jm < 5 * n) (h1 : jp / n ≤ jm / n + 1) (h2 : jm / n ≤ jp / n + 1) :
    ∃ f : ℕ, (f : ℤ) = beltFace (jp / n) (jm / n) ∧ f < 12 ∧
      (InSquare N (jm % n).toNat (n - jp % n - 1).toNat f ((a + b) / (2 * n) - 1 / 2) ((b - a) / (2 * n)) ∨
        (3 ≤ (a + b) / (2 * n) - 1 / 2 ∧ InSquare N (jm % n).toNat (n - jp % n - 1).toNat f ((a + b) / (2 * n) - 1 / 2 - 4) ((b - a) / (2 * n)))) := by
  have hn' : (1 : ℝ) ≤ n := by exact_mod_cast hn
  have m1 := Int.emod_nonneg jm (show n ≠ 0 by omega)
  have m2 := Int.emod_lt_of_pos jm (show 0 < n by omega)
  have m3 := Int.emod_nonneg jp (show n ≠ 0 by omega)
  have m4 := Int.emod_lt_of_pos jp (show 0 < n by omega)
  have dm : (jm : ℝ) = n * (jm / n : ℤ) + (jm % n : ℤ) := by exact_mod_cast (Int.mul_ediv_add_emod jm n).symm
  have dp : (jp : ℝ) = n * (jp / n : ℤ) + (jp % n : ℤ) := by exact_mod_cast (Int.mul_ediv_add_emod jp n).symm
  have i0 : 0 ≤ jp / n := Int.ediv_nonneg p0 (by omega)
  have i1 : jp / n < 5 := Int.ediv_lt_of_lt_mul (by omega) p1
  have k0 : 0 ≤ jm / n := Int.ediv_nonneg q0 (by omega)
  have k1 : jm / n < 5 := Int.ediv_lt_of_lt_mul (by omega) q1
  generalize jm / n = im at *
  generalize jp / n = ip at *
  generalize hx : jm % n = x at *
  generalize hy : jp % n = w at *
  have cy : ((n - w - 1 : ℤ) : ℝ) = n - w - 1 := by push_cast; ring
  obtain ⟨a1, a2⟩ := ha
  obtain ⟨b1, b2⟩ := hb
  rw [dp] at a1 a2
  rw [dm] at b1 b2
  obtain ⟨X, hX⟩ : ∃ X : ℝ, X = (a + b) / (2 * n) - 1 / 2 := ⟨_, rfl⟩
  obtain ⟨Y, hY⟩ : ∃ Y : ℝ, Y = (b - a) / (2 * n) := ⟨_, rfl⟩
  have eX : n * (2 * X + 1) = a + b := by rw [hX]; field_simp; ring
  have eY : n * (2 * Y) = b - a := by rw [hY]; field_simp
  rw [← hX, ← hY]
  have key : ∀ (f : ℕ) (j : ℝ), X - j - faceX f + (Y - faceY f) + 1 / 2 = 1 / 2 + X + Y - im → Y - faceY f - (X - j - faceX f) + 1 / 2 = 1 - (1 / 2 + X - Y - ip) →
      InSquare N x.toNat (n - w - 1).toNat f (X - j) Y := by
    intro f j e1 e2
    refine square_of hN m1 (by omega) rfl rfl ?_ ?_ ?_ ?_
    · rw [e1]; linarith
    · rw [e1]; linarith
    · rw [e2, cy]; linarith
    · rw [e2, cy]; linarith
  obtain ⟨s, rfl⟩ : ∃ a : ℕ, ip = a := ⟨ip.toNat, by omega⟩
  obtain ⟨r, rfl⟩ : ∃ b : ℕ, im = b := ⟨im.toNat, by omega⟩
  rcases lt_trichotomy (s : ℤ) r with h | h | h
  · have hb1 : r = s + 1 := by omega
    obtain ⟨g1, g2⟩ := face_north (show s < 4 by omega)
    refine ⟨s, ?_, by omega, Or.inl ?_⟩
    · unfold beltFace; rw [if_neg (by omega), if_pos h]
    · have := key s 0 (by rw [g1, g2, hb1]; push_cast; ring) (by rw [g1, g2]; push_cast; ring)
      rwa [sub_zero] at this
  · have hab : s = r := by omega
    subst hab
    by_cases h4 : s = 4
    · subst h4
      obtain ⟨g1, g2⟩ := face_equator (show 0 < 4 by omega)
      rw [zero_add] at g1 g2
      refine ⟨4, by decide, by omega, Or.inr ⟨?_, key 4 4 (by rw [g1, g2]; push_cast; ring) (by rw [g1, g2]; push_cast; ring)⟩⟩
      have z1 : (0 : ℝ) ≤ x := by exact_mod_cast m1
      have z2 : (0 : ℝ) ≤ w := by exact_mod_cast m3
      push_cast at a1 b1
      by_contra h
      push Not at h
      nlinarith
    · have ha : s < 4 := by omega
      obtain ⟨g1, g2⟩ := face_equator ha
      refine ⟨s + 4, ?_, by omega, Or.inl ?_⟩
      · interval_cases s <;> decide
      · have := key (s + 4) 0 (by rw [g1, g2]; push_cast; ring) (by rw [g1, g2]; push_cast; ring)
        rwa [sub_zero] at this
  · have hb1 : s = r + 1 := by omega
    obtain ⟨g1, g2⟩ := face_south r
    refine ⟨r + 8, ?_, by omega, Or.inl ?_⟩
    · unfold beltFace; rw [if_neg (by omega), if_neg (by omega)]; push_cast; rfl
    · have := key (r + 8) 0 (by rw [g1, g2]; push_cast; ring) (by rw [g1, g2, hb1]; push_cast; ring)
      rwa [sub_zero] at this

/-- Into the belt without leaving the square. -/
theorem into_belt {n jp jm : ℤ} {a b d : ℝ} (ha : jp ≤ a ∧ a ≤ jp + 1) (hb : jm ≤ b ∧ b ≤ jm + 1) (hd : d < 1) (h : b - a ≤ n + d) (h' : n < b - a) :
    ∃ a' b' : ℝ, (jp ≤ a' ∧ a' ≤ jp + 1) ∧ (jm ≤ b' ∧ b' ≤ jm + 1) ∧ b' - a' = n ∧ |a' - a| ≤ d ∧ |b' - b| ≤ d := by
  by_cases hc : (jm : ℝ) ≤ a + n
  · exact ⟨a, a + n, ha, ⟨hc, by linarith [hb.2]⟩, by ring, by rw [sub_self, abs_zero]; linarith, by rw [abs_le]; constructor <;> linarith⟩
  · push Not at hc
    have hj : jm ≤ jp + n + 1 := by
      have : (jm : ℝ) < jp + n + 2 := by linarith [hb.1, ha.2]
      have : jm < jp + n + 2 := by exact_mod_cast this
      omega
    have hj' : (jm : ℝ) ≤ jp + n + 1 := by exact_mod_cast hj
    refine ⟨jm - n, jm, ⟨by linarith [ha.1], by linarith⟩, ⟨le_refl _, by linarith⟩, by ring, ?_, ?_⟩
    · rw [abs_le]; constructor <;> linarith [hb.1]
    · rw [abs_le]; constructor <;> linarith [hb.1]

theorem unscale {n x c : ℝ} (hn : 1 ≤ n) (h : |n * x| ≤ c * n) : |x| ≤ c := by
  rw [abs_mul, abs_of_pos (by linarith), mul_comm] at h
  exact le_of_mul_le_mul_right h (by linarith)

/-- A direction of the belt in the square, near given edge lines. -/
theorem belt_direction {n : ℤ} {N : ℕ} (hn : 1 ≤ n) (hN : n = N) {jp jm : ℤ} {a b d t z : ℝ} (ha : jp ≤ a ∧ a ≤ jp + 1) (hb : jm ≤ b ∧ b ≤ jm + 1)
    (p0 : 0 ≤ jp) (p1 : jp < 5 * n) (q0 : 0 ≤ jm) (q1 : jm < 5 * n) (h1 : jp / n ≤ jm / n + 1) (h2 : jm / n ≤ jp / n + 1)
    (hz : |z| ≤ 2 / 3) (d0 : 0 ≤ d) (hd : 2 * d * n < 1) (hA : |a - n * (1 / 2 + t - 3 / 4 * z)| ≤ d * n) (hB : |b - n * (1 / 2 + t + 3 / 4 * z)| ≤ d * n)
    (t0 : 0 ≤ t) (t1 : t + 4 * d < 4) :
    ∃ f : ℕ, (f : ℤ) = beltFace (jp / n) (jm / n) ∧ f < 12 ∧ ∃ z' t' : ℝ, |z'| ≤ 1 ∧ 0 ≤ t' ∧ t' < 4 ∧ |z' - z| ≤ 4 * d ∧ (∃ m : ℤ, |t' - 4 * m - t| ≤ 3 * d) ∧
      InPixel N (jm % n).toNat (n - jp % n - 1).toNat f z' t' := by
  have hn' : (1 : ℝ) ≤ n := by exact_mod_cast hn
  obtain ⟨z1, z2⟩ := abs_le.1 hz
  obtain ⟨A1, A2⟩ := abs_le.1 hA
  obtain ⟨B1, B2⟩ := abs_le.1 hB
  -- lines that meet in the belt
  obtain ⟨a', b', ha', hb', hab, e1, e2⟩ : ∃ a' b' : ℝ, (jp ≤ a' ∧ a' ≤ jp + 1) ∧ (jm ≤ b' ∧ b' ≤ jm + 1) ∧ |b' - a'| ≤ n ∧ |a' - a| ≤ 2 * d * n ∧ |b' - b| ≤ 2 * d * n := by
    have hdn : 0 ≤ 2 * d * n := by positivity
    by_cases c1 : (n : ℝ) < b - a
    · obtain ⟨a', b', k1, k2, k3, k4, k5⟩ := into_belt ha hb hd (by nlinarith) c1
      exact ⟨a', b', k1, k2, by rw [k3, abs_of_nonneg (by linarith)], k4, k5⟩
    · by_cases c2 : (n : ℝ) < a - b
      · obtain ⟨b', a', k1, k2, k3, k4, k5⟩ := into_belt hb ha hd (by nlinarith) c2
        exact ⟨a', b', k2, k1, by rw [abs_sub_comm, k3, abs_of_nonneg (by linarith)], k5, k4⟩
      · exact ⟨a, b, ha, hb, by rw [abs_le]; constructor <;> linarith, by rw [sub_self, abs_zero]; exact hdn, by rw [sub_self, abs_zero]; exact hdn⟩
  obtain ⟨f, hf, hf12, hsq⟩ := belt_square hn hN ha' hb' p0 p1 q0 q1 h1 h2
  refine ⟨f, hf, hf12, ?_⟩
  obtain ⟨X, hX⟩ : ∃ X : ℝ, X = (a' + b') / (2 * n) - 1 / 2 := ⟨_, rfl⟩
  obtain ⟨Y, hY⟩ : ∃ Y : ℝ, Y = (b' - a') / (2 * n) := ⟨_, rfl⟩
  have eX : n * (2 * X + 1) = a' + b' := by rw [hX]; field_simp; ring
  have eY : n * (2 * Y) = b' - a' := by rw [hY]; field_simp
  rw [← hX, ← hY] at hsq
  obtain ⟨E1, E2⟩ := abs_le.1 e1
  obtain ⟨E3, E4⟩ := abs_le.1 e2
  obtain ⟨D1, D2⟩ := abs_le.1 hab
  have hXt : |X - t| ≤ 3 * d := unscale hn' (by
    rw [show n * (X - t) = (n * (2 * X + 1) - n * (1 / 2 + t - 3 / 4 * z) - n * (1 / 2 + t + 3 / 4 * z)) / 2 by ring, eX, abs_le]
    constructor <;> linarith)
  have hYz : |Y - 3 / 4 * z| ≤ 3 * d := unscale hn' (by
    rw [show n * (Y - 3 / 4 * z) = (n * (2 * Y) + n * (1 / 2 + t - 3 / 4 * z) - n * (1 / 2 + t + 3 / 4 * z)) / 2 by ring, eY, abs_le]
    constructor <;> linarith)
  have hY2 : |Y| ≤ 1 / 2 := unscale hn' (by
    rw [show n * Y = n * (2 * Y) / 2 by ring, eY, abs_le]
    constructor <;> linarith)
  have hz' : |4 / 3 * Y| ≤ 2 / 3 := by rw [abs_mul, abs_of_pos (by norm_num : (0 : ℝ) < 4 / 3)]; linarith
  obtain ⟨X1, X2⟩ := abs_le.1 hXt
  obtain ⟨Y1, Y2⟩ := abs_le.1 hYz
  have pY : planeY (4 / 3 * Y) = Y := by unfold planeY; rw [if_pos hz']; ring
  have pX : ∀ t', planeX (4 / 3 * Y) t' = t' := fun t' => by unfold planeX; rw [if_pos hz']
  have hdz : |4 / 3 * Y - z| ≤ 4 * d := by rw [abs_le]; constructor <;> linarith
  by_cases hneg : X < 0
  · refine ⟨4 / 3 * Y, X + 4, by linarith, by linarith, by linarith, hdz, ⟨1, ?_⟩, ?_⟩
    · rw [show X + 4 - 4 * ((1 : ℤ) : ℝ) - t = X - t by push_cast; ring]; exact hXt
    · unfold InPixel
      rw [pX, pY, add_sub_cancel_right]
      rcases hsq with h | ⟨h, _⟩
      · exact Or.inr h
      · linarith
  · push Not at hneg
    refine ⟨4 / 3 * Y, X, by linarith, hneg, by linarith, hdz, ⟨0, ?_⟩, ?_⟩
    · rw [show X - 4 * ((0 : ℤ) : ℝ) - t = X - t by push_cast; ring]; exact hXt
    · unfold InPixel
      rw [pX, pY]
      rcases hsq with h | ⟨_, h⟩
      · exact Or.inl h
      · exact Or.inr h

/-- The square between edge lines in a cap: `u` and `v` are the distances from the two meridians of the quarter, in pixels. -/
theorem cap_square {n : ℤ} {N : ℕ} (hn : 1 ≤ n) (hN : n = N) {jp jm : ℤ} {u v : ℝ} {g : ℕ} (hg : g < 4) (hu : jp ≤ u ∧ u ≤ jp + 1) (hv : jm ≤ v ∧ v ≤ jm + 1)
    (p0 : 0 ≤ jp) (p1 : jp < n) (q0 : 0 ≤ jm) (q1 : jm < n) (u0 : 0 ≤ u) (v0 : 0 < v) (huv : u + v ≤ n) :
    InPixel N (n - jm - 1).toNat (n - jp - 1).toNat g (1 - ((u + v) / n) ^ 2 / 3) (g + u / (u + v)) ∧
      InPixel N jp.toNat jm.toNat (g + 8) (-(1 - ((u + v) / n) ^ 2 / 3)) (g + u / (u + v)) := by
  have hn' : (1 : ℝ) ≤ n := by exact_mod_cast hn
  obtain ⟨r, hr⟩ : ∃ r : ℝ, r = (u + v) / n := ⟨_, rfl⟩
  obtain ⟨q, hq⟩ : ∃ q : ℝ, q = u / (u + v) := ⟨_, rfl⟩
  have er : n * r = u + v := by rw [hr]; field_simp
  have eq : q * (n * r) = u := by rw [er, hq]; field_simp
  have r0 : 0 < r := by rw [hr]; positivity
  have r1 : r ≤ 1 := by rw [hr, div_le_one (by linarith)]; exact huv
  have q00 : 0 ≤ q := by rw [hq]; positivity
  have q11 : q < 1 := by rw [hq, div_lt_one (by linarith)]; linarith
  rw [← hr, ← hq]
  have hfl : ⌊(g : ℝ) + q⌋ = g := by
    rw [Int.floor_eq_iff]; push_cast; constructor <;> linarith
  have hz0 : 0 ≤ 1 - r ^ 2 / 3 := by nlinarith
  have habs : |1 - r ^ 2 / 3| = 1 - r ^ 2 / 3 := abs_of_nonneg hz0
  have hpos : ¬ 0 ≤ -(1 - r ^ 2 / 3) := by nlinarith
  have hs : Real.sqrt (3 * (1 - (1 - r ^ 2 / 3))) = r := by
    rw [show 3 * (1 - (1 - r ^ 2 / 3)) = r ^ 2 by ring, Real.sqrt_sq r0.le]
  -- the place in the plane
  have pX : ∀ z, |z| = 1 - r ^ 2 / 3 → planeX z (g + q) = g + 1 / 2 + (q - 1 / 2) * r := by
    intro z hz
    unfold planeX
    by_cases h : |z| ≤ 2 / 3
    · have : r = 1 := by rw [hz] at h; nlinarith
      rw [if_pos h, this]; ring
    · rw [if_neg h, hfl, hz, hs]; push_cast; ring
  have pYn : planeY (1 - r ^ 2 / 3) = 1 - r / 2 := by
    unfold planeY
    by_cases h : |1 - r ^ 2 / 3| ≤ 2 / 3
    · have : r = 1 := by rw [habs] at h; nlinarith
      rw [if_pos h, this]; ring
    · rw [if_neg h, if_pos hz0, habs, hs]
  have pYs : planeY (-(1 - r ^ 2 / 3)) = -(1 - r / 2) := by
    unfold planeY
    rw [abs_neg]
    by_cases h : |1 - r ^ 2 / 3| ≤ 2 / 3
    · have : r = 1 := by rw [habs] at h; nlinarith
      rw [if_pos h, this]; ring
    · rw [if_neg h, if_neg hpos, habs, hs]
  unfold InPixel
  rw [pX _ habs, pX _ (by rw [abs_neg]; exact habs), pYn, pYs]
  constructor
  · left
    obtain ⟨g1, g2⟩ := face_north hg
    have c1 : ((n - jm - 1 : ℤ) : ℝ) = n - jm - 1 := by push_cast; ring
    have c2 : ((n - jp - 1 : ℤ) : ℝ) = n - jp - 1 := by push_cast; ring
    refine square_of hN (by omega) (by omega) (U := n - v) (V := n - u) ?_ ?_ ?_ ?_ ?_ ?_
    · rw [g1, g2]; linear_combination eq - er
    · rw [g1, g2]; linear_combination -eq
    · rw [c1]; linarith
    · rw [c1]; linarith
    · rw [c2]; linarith
    · rw [c2]; linarith
  · left
    obtain ⟨g1, g2⟩ := face_south g
    refine square_of hN p0 q0 (U := u) (V := v) ?_ ?_ hu.1 hu.2 hv.1 hv.2
    · rw [g1, g2]; linear_combination eq
    · rw [g1, g2]; linear_combination er - eq

/-- Within the cap without leaving the square. -/
theorem into_cap {n jp jm : ℤ} {u v d : ℝ} (hu : jp ≤ u ∧ u ≤ jp + 1) (hv : jm ≤ v ∧ v ≤ jm + 1) (p1 : jp < n) (v0 : 0 < v) (hd : d < 1) (d0 : 0 ≤ d)
    (p0 : 0 ≤ jp) (u0 : 0 ≤ u) (h : u + v ≤ n + d) :
    ∃ u' v' : ℝ, (jp ≤ u' ∧ u' ≤ jp + 1) ∧ (jm ≤ v' ∧ v' ≤ jm + 1) ∧ 0 ≤ u' ∧ 0 < v' ∧ u' + v' ≤ n ∧ |u' - u| ≤ d ∧ |v' - v| ≤ d := by
  by_cases c : u + v ≤ n
  · exact ⟨u, v, hu, hv, u0, v0, c, by rw [sub_self, abs_zero]; exact d0, by rw [sub_self, abs_zero]; exact d0⟩
  · push Not at c
    have p0' : (0 : ℝ) ≤ jp := by exact_mod_cast p0
    have hj : (jp : ℝ) + jm ≤ n := by
      have : (jp : ℝ) + jm < n + 1 := by linarith [hu.1, hv.1]
      have : jp + jm < n + 1 := by exact_mod_cast this
      exact_mod_cast Int.lt_add_one_iff.1 this
    by_cases c2 : (jp : ℝ) ≤ n - v
    · refine ⟨n - v, v, ⟨c2, by linarith [hu.2]⟩, hv, by linarith, v0, by linarith, ?_, by rw [sub_self, abs_zero]; exact d0⟩
      rw [abs_le]; constructor <;> linarith
    · push Not at c2
      have : (jp : ℝ) + 1 ≤ n := by exact_mod_cast p1
      refine ⟨jp, n - jp, ⟨le_refl _, by linarith⟩, ⟨by linarith, by linarith [hv.2, hu.1]⟩, p0', by linarith, by linarith, ?_, ?_⟩
      · rw [abs_le]; constructor <;> linarith [hu.1]
      · rw [abs_le]; constructor <;> linarith [hu.1]

/-- The height and the longitude from the distances in a cap. -/
theorem cap_values {n u v R p d : ℝ} (hn : 1 ≤ n) (R0 : 0 < R) (d0 : 0 ≤ d) (hd : d ≤ 1 / 100) (hR : R ≤ 1 + d) (p0 : 0 ≤ p) (p1 : p ≤ 1 + d)
    (hu : |u - p * (n * R)| ≤ d * (n * R)) (hv : |v - (1 - p) * (n * R)| ≤ d * (n * R)) :
    |((u + v) / n) ^ 2 / 3 - R ^ 2 / 3| ≤ 2 * d ∧ |u / (u + v) - p| ≤ 4 * d := by
  have hnR : 0 < n * R := by positivity
  obtain ⟨u1, u2⟩ := abs_le.1 hu
  obtain ⟨v1, v2⟩ := abs_le.1 hv
  constructor
  · have e : |(u + v) / n - R| ≤ 2 * d * R := by
      rw [show (u + v) / n - R = (u + v - n * R) / n by field_simp, abs_div, abs_of_pos (by linarith : 0 < n), div_le_iff₀ (by linarith), abs_le]
      constructor <;> linarith
    obtain ⟨e1, e2⟩ := abs_le.1 e
    generalize (u + v) / n = w at *
    have : |w + R| ≤ 21 / 10 := by rw [abs_le]; constructor <;> nlinarith
    rw [show w ^ 2 / 3 - R ^ 2 / 3 = (w - R) * (w + R) / 3 by ring, abs_div, abs_mul, abs_of_pos (by norm_num : (0 : ℝ) < 3)]
    have h1 : |w - R| * |w + R| ≤ (2 * d * R) * (21 / 10) := mul_le_mul e this (abs_nonneg _) (by positivity)
    nlinarith
  · have hs : 0 < u + v := by nlinarith
    rw [show u / (u + v) - p = ((u - p * (n * R)) * (1 - p) - (v - (1 - p) * (n * R)) * p) / (u + v) by field_simp; ring, abs_div, abs_of_pos hs, div_le_iff₀ hs]
    have a1 : |(u - p * (n * R)) * (1 - p)| ≤ d * (n * R) * (1 + d) := by
      rw [abs_mul]; exact mul_le_mul hu (by rw [abs_le]; constructor <;> linarith) (abs_nonneg _) (by positivity)
    have a2 : |(v - (1 - p) * (n * R)) * p| ≤ d * (n * R) * (1 + d) := by
      rw [abs_mul]; exact mul_le_mul hv (by rw [abs_of_nonneg p0]; exact p1) (abs_nonneg _) (by positivity)
    have a3 := abs_sub ((u - p * (n * R)) * (1 - p)) ((v - (1 - p) * (n * R)) * p)
    have a4 : 98 / 100 * (n * R) ≤ u + v := by nlinarith
    have a5 : 0 ≤ d * (n * R) := by positivity
    nlinarith

/-! ### The longitude -/

theorem mtwopi_near : |((884279719003555 / 2 ^ 47 : ℚ) : ℝ) - 2 * Real.pi| ≤ 1 / 10 ^ 15 := twopi_near

theorem fmodulo_near (F : Fl64) (sq : ℚ → ℚ) {phi : ℚ} (h : |phi| ≤ 12) :
    ∃ m : ℤ, |((fmodulo (double F sq) phi (double F sq).twopi : ℚ) : ℝ) - (phi - 2 * Real.pi * m)| ≤ 5 / 10 ^ 15 := by
  have hm : (6 : ℚ) < 884279719003555 / 2 ^ 47 := by norm_num
  have hm2 : (884279719003555 / 2 ^ 47 : ℚ) < 7 := by norm_num
  have hnear := mtwopi_near
  show ∃ m : ℤ, |((fmodulo (double F sq) phi (884279719003555 / 2 ^ 47) : ℚ) : ℝ) - (phi - 2 * Real.pi * m)| ≤ 5 / 10 ^ 15
  generalize (884279719003555 / 2 ^ 47 : ℚ) = c at *
  have hc0 : (0 : ℚ) < c := by linarith
  obtain ⟨P1, P2⟩ := abs_le.1 h
  unfold fmodulo
  by_cases h0 : phi ≥ 0
  · rw [if_pos h0]
    by_cases h2 : phi < c
    · rw [if_pos h2]
      exact ⟨0, by push_cast; rw [mul_zero, sub_zero, sub_self, abs_zero]; norm_num⟩
    · rw [if_neg h2]
      unfold Healpix.fmod
      have hq : Healpix.trunc (phi / c) = 1 := by
        rw [truncq_nonneg (by positivity), Int.floor_eq_iff]
        push Not at h2
        constructor
        · push_cast; rwa [one_le_div hc0]
        · rw [div_lt_iff₀ hc0]; push_cast; linarith
      rw [hq]
      refine ⟨1, ?_⟩
      push_cast
      rw [show (phi : ℝ) - c * 1 - (phi - 2 * Real.pi * 1) = -((c : ℝ) - 2 * Real.pi) by ring, abs_neg]
      linarith
  · rw [if_neg h0]
    push Not at h0
    have key : ∀ x : ℚ, |x| ≤ 12 → |(F.rnd x : ℝ) - x| ≤ 2 / 10 ^ 15 := fun x hx => by
      have h1 := err_real F x
      have h2 : |(x : ℝ)| ≤ 12 := by simpa using abs_real hx
      have : 1 / 2 ^ 53 * |(x : ℝ)| ≤ 12 / 2 ^ 53 := by linarith
      have e : (12 : ℝ) / 2 ^ 53 + 1 / 2 ^ 200 ≤ 2 / 10 ^ 15 := by norm_num
      linarith
    have hq : Healpix.trunc (phi / c) = 0 ∨ Healpix.trunc (phi / c) = -1 := by
      unfold Healpix.trunc
      rw [if_neg (not_le.mpr (div_neg_of_neg_of_pos h0 hc0))]
      by_cases hh : -c < phi
      · left
        rw [Int.ceil_eq_iff]
        push_cast
        constructor
        · rw [lt_div_iff₀ hc0]; linarith
        · exact (div_neg_of_neg_of_pos h0 hc0).le
      · right
        push Not at hh
        rw [Int.ceil_eq_iff]
        push_cast
        constructor
        · rw [lt_div_iff₀ hc0]; linarith
        · rw [div_le_iff₀ hc0]; linarith
    have hj : ∃ j : ℤ, Healpix.fmod phi c + c = phi - c * j ∧ (j = -1 ∨ j = -2) ∧ |phi - c * j| ≤ 12 := by
      unfold Healpix.fmod
      rcases hq with e | e
      · refine ⟨-1, by rw [e]; push_cast; ring, Or.inl rfl, ?_⟩
        push_cast; rw [abs_le]; constructor <;> linarith
      · have : phi ≤ -c := by
          by_contra hh
          push Not at hh
          have : Healpix.trunc (phi / c) = 0 := by
            unfold Healpix.trunc
            rw [if_neg (not_le.mpr (div_neg_of_neg_of_pos h0 hc0)), Int.ceil_eq_iff]
            push_cast
            exact ⟨by rw [lt_div_iff₀ hc0]; linarith, (div_neg_of_neg_of_pos h0 hc0).le⟩
          omega
        refine ⟨-2, by rw [e]; push_cast; ring, Or.inr rfl, ?_⟩
        push_cast; rw [abs_le]; constructor <;> linarith
    obtain ⟨j, ej, hj, hj12⟩ := hj
    have k1 := key _ hj12
    have hjr : |2 * Real.pi * (j : ℝ) - c * j| ≤ 2 / 10 ^ 15 := by
      rw [show 2 * Real.pi * (j : ℝ) - c * j = -(((c : ℝ) - 2 * Real.pi) * j) by ring, abs_neg, abs_mul]
      have : |(j : ℝ)| ≤ 2 := by rcases hj with rfl | rfl <;> norm_num
      calc |(c : ℝ) - 2 * Real.pi| * |(j : ℝ)| ≤ 1 / 10 ^ 15 * 2 := mul_le_mul hnear this (abs_nonneg _) (by norm_num)
        _ = _ := by norm_num
    dsimp only
    rw [ej, show (double F sq).rnd = F.rnd from rfl]
    push_cast at k1
    have k2 : |(F.rnd (phi - c * j) : ℝ) - (phi - 2 * Real.pi * j)| ≤ 4 / 10 ^ 15 := by
      rw [show (F.rnd (phi - c * j) : ℝ) - (phi - 2 * Real.pi * j) = (F.rnd (phi - c * j) - (phi - c * j)) + (2 * Real.pi * (j : ℝ) - c * j) by ring]
      exact (abs_add_le _ _).trans (by linarith)
    by_cases h3 : F.rnd (phi - c * j) = c
    · rw [if_pos h3]
      rw [h3] at k2
      refine ⟨j + 1, ?_⟩
      push_cast
      rw [show (0 : ℝ) - (phi - 2 * Real.pi * (j + 1)) = (c - (phi - 2 * Real.pi * j)) - (c - 2 * Real.pi) by ring]
      exact (abs_sub _ _).trans (by linarith)
    · rw [if_neg h3]
      exact ⟨j, k2.trans (by norm_num)⟩

/-- The longitude in quarter turns. -/
theorem quarter_near (F : Fl64) (sq : ℚ → ℚ) {phi : ℚ} (h : |phi| ≤ 12) :
    ∃ m : ℤ, |((quarter (double F sq) phi : ℚ) : ℝ) - (phi * (2 / Real.pi) - 4 * m)| ≤ 5 / 10 ^ 15 := by
  obtain ⟨m, hm⟩ := fmodulo_near F sq h
  obtain ⟨v0, v1⟩ := fmodulo_double F sq phi
  refine ⟨m, ?_⟩
  unfold quarter
  have v1' : fmodulo (double F sq) phi (double F sq).twopi ≤ 884279719003555 / 2 ^ 47 := v1
  generalize fmodulo (double F sq) phi (double F sq).twopi = v at *
  show |(F.rnd (v * (5734161139222659 / 2 ^ 53)) : ℝ) - _| ≤ _
  have hp := Real.pi_gt_d20
  have hp' := Real.pi_lt_d20
  have hi : |((5734161139222659 / 2 ^ 53 : ℚ) : ℝ) - 2 / Real.pi| ≤ 1 / 10 ^ 16 := by
    rw [show ((5734161139222659 / 2 ^ 53 : ℚ) : ℝ) - 2 / Real.pi = (5734161139222659 / 2 ^ 53 * Real.pi - 2) / Real.pi by push_cast; field_simp, abs_div,
      abs_of_pos (by linarith : 0 < Real.pi), div_le_iff₀ (by linarith), abs_le]
    constructor <;> linarith
  have v0r : (0 : ℝ) ≤ v := by exact_mod_cast v0
  have v1r : (v : ℝ) ≤ 7 := by
    have : v ≤ 7 := le_trans v1' (by norm_num)
    exact_mod_cast this
  have hX : |(phi : ℝ) - 2 * Real.pi * m| ≤ 71 / 10 := by
    obtain ⟨a1, a2⟩ := abs_le.1 hm
    rw [abs_le]; constructor <;> linarith
  have h2 : |2 / Real.pi| ≤ 64 / 100 := by
    rw [abs_of_pos (by positivity), div_le_iff₀ (by linarith)]; linarith
  have hmul := mul_real hm hi hX h2
  have e : (phi : ℝ) * (2 / Real.pi) - 4 * m = (phi - 2 * Real.pi * m) * (2 / Real.pi) := by
    have := Real.pi_ne_zero
    field_simp
    ring
  rw [e]
  refine rnd_real F (e := 4 / 10 ^ 15) (A := 71 / 10 * (64 / 100)) (by push_cast at hmul ⊢; exact hmul.trans (by norm_num)) (by
    rw [abs_mul]; exact mul_le_mul hX h2 (abs_nonneg _) (by norm_num)) (by norm_num)

/-! ### The belt -/

/-- The edge lines of the belt are at most one face apart, also when they are rounded. -/
theorem lines_adjacent (F : Fl64G) {k : ℕ} (hk : k ≤ 29) {w Z : ℚ} (hZ : |Z| ≤ 2 ^ k * (1 / 2)) {m : ℤ} (hm : m = 1 ∨ m = 2 ∨ m = 3)
    (h : (2 : ℚ) ^ k * (m + 1) ≤ F.rnd (F.rnd (2 ^ k * F.rnd w) + Z)) : (2 : ℚ) ^ k * m ≤ F.rnd (F.rnd (2 ^ k * F.rnd w) - Z) := by
  obtain ⟨Z1, Z2⟩ := abs_le.1 hZ
  have n0 : (0 : ℚ) < 2 ^ k := by positivity
  have down : ∀ (K : ℤ), ((K : ℚ) / 2 ^ (52 - k)) = 2 ^ k * (K / 2 ^ 52) := by
    intro K
    have : (2 : ℚ) ^ 52 = 2 ^ (52 - k) * 2 ^ k := by rw [← pow_add]; congr 1; omega
    rw [this]; field_simp
  have down' : ∀ (K : ℤ), ((K : ℚ) / 2 ^ (51 - k)) = 2 ^ k * (K / 2 ^ 51) := by
    intro K
    have : (2 : ℚ) ^ 51 = 2 ^ (51 - k) * 2 ^ k := by rw [← pow_add]; congr 1; omega
    rw [this]; field_simp
  by_cases hw : (m : ℚ) + 1 / 2 ≤ F.rnd w
  · -- both lines are beyond the corner
    have hT : (2 : ℚ) ^ k * (m + 1 / 2) ≤ F.rnd (2 ^ k * F.rnd w) := by
      have := fl_ge F.toFl64 (x := 2 ^ k * F.rnd w) (2 ^ 51 * m + 2 ^ 50) (51 - k) (by rcases hm with rfl | rfl | rfl <;> norm_num) (by omega) (by
        rw [down']; refine mul_le_mul_of_nonneg_left ?_ n0.le; push_cast; linarith)
      rw [down'] at this
      push_cast at this
      linarith
    have := fl_ge F.toFl64 (x := F.rnd (2 ^ k * F.rnd w) - Z) (2 ^ 51 * m) (51 - k) (by rcases hm with rfl | rfl | rfl <;> norm_num) (by omega) (by
      rw [down']; push_cast; linarith)
    rw [down'] at this
    push_cast at this
    linarith
  · exfalso
    push Not at hw
    -- the next number below
    obtain ⟨K, e, he1, he2, hK0, hK1, hK2, hK3⟩ : ∃ (K : ℤ) (e : ℕ), 51 ≤ e ∧ e ≤ 52 ∧ 0 ≤ K ∧ F.rnd w ≤ K / 2 ^ e ∧ K + 2 ^ (e - 1) < 2 ^ e * (m + 1) ∧ K + 2 ^ (e - 1) ≤ 2 ^ 53 := by
      rcases hm with rfl | hm
      · by_cases h1 : F.rnd w < 1
        · exact ⟨2 ^ 52, 52, by norm_num, by norm_num, by norm_num, by push_cast; linarith, by norm_num, by norm_num⟩
        · push Not at h1
          obtain ⟨K, hK⟩ := F.coarse w 0 (by rw [abs_of_nonneg (by linarith), pow_zero]; exact h1)
          rw [pow_zero, mul_one] at hK
          have h2 : (K : ℚ) < 3 * 2 ^ 51 := by rw [hK, div_lt_iff₀ (by norm_num)] at hw; push_cast at hw; linarith
          have h3 : K < 3 * 2 ^ 51 := by exact_mod_cast h2
          have h4 : (2 ^ 52 : ℚ) ≤ K := by rw [hK, le_div_iff₀ (by norm_num)] at h1; linarith
          have h5 : (2 ^ 52 : ℤ) ≤ K := by exact_mod_cast h4
          exact ⟨K, 52, by norm_num, by norm_num, by omega, hK.le, by norm_num; omega, by norm_num; omega⟩
      · have hm2 : 2 ≤ m := by omega
        have hm3 : m ≤ 3 := by omega
        by_cases h1 : F.rnd w < 2
        · exact ⟨2 ^ 52, 51, by norm_num, by norm_num, by norm_num, by push_cast; linarith, by norm_num; omega, by norm_num⟩
        · push Not at h1
          obtain ⟨K, hK⟩ := F.coarse w 1 (by rw [abs_of_nonneg (by linarith), pow_one]; exact h1)
          have hK' : F.rnd w = K / 2 ^ 51 := by rw [hK]; ring
          have h2 : (K : ℚ) < 2 ^ 51 * m + 2 ^ 50 := by rw [hK', div_lt_iff₀ (by norm_num)] at hw; linarith
          have h3 : K < 2 ^ 51 * m + 2 ^ 50 := by exact_mod_cast h2
          have h4 : (2 ^ 52 : ℚ) ≤ K := by rw [hK', le_div_iff₀ (by norm_num)] at h1; linarith
          have h5 : (2 ^ 52 : ℤ) ≤ K := by exact_mod_cast h4
          exact ⟨K, 51, by norm_num, by norm_num, by omega, hK'.le, by norm_num; omega, by norm_num; omega⟩
    have dn : ∀ (K : ℤ), ((K : ℚ) / 2 ^ (e - k)) = 2 ^ k * (K / 2 ^ e) := by
      intro K
      have : (2 : ℚ) ^ e = 2 ^ (e - k) * 2 ^ k := by rw [← pow_add]; congr 1; omega
      rw [this]; field_simp
    have hp : (0 : ℤ) < 2 ^ (e - 1) := by positivity
    have hpe : (2 : ℚ) ^ e = 2 * 2 ^ (e - 1) := by rw [← pow_succ']; congr 1; omega
    have hT : F.rnd (2 ^ k * F.rnd w) ≤ 2 ^ k * (K / 2 ^ e) := by
      have := fl_le F.toFl64 (x := 2 ^ k * F.rnd w) K (e - k) (by rw [abs_of_nonneg hK0]; omega) (by omega) (by
        rw [dn]; exact mul_le_mul_of_nonneg_left hK1 n0.le)
      rwa [dn] at this
    have hhalf : ((K + 2 ^ (e - 1) : ℤ) : ℚ) / 2 ^ e = K / 2 ^ e + 1 / 2 := by
      rw [hpe]; push_cast; field_simp
    have hS := fl_le F.toFl64 (x := F.rnd (2 ^ k * F.rnd w) + Z) (K + 2 ^ (e - 1)) (e - k) (by rw [abs_of_nonneg (by omega)]; exact hK3) (by omega) (by
      rw [dn, hhalf]; linarith)
    rw [dn] at hS
    have hlt : ((K + 2 ^ (e - 1) : ℤ) : ℚ) / 2 ^ e < m + 1 := by
      rw [div_lt_iff₀ (by positivity)]
      have : ((K + 2 ^ (e - 1) : ℤ) : ℚ) < ((2 ^ e * (m + 1) : ℤ) : ℚ) := by exact_mod_cast hK2
      push_cast at this ⊢
      linarith
    have := mul_lt_mul_of_pos_left hlt n0
    linarith

/-- The rounded edge lines. -/
theorem lines_near (F : Fl64) {n : ℤ} {t z : ℚ} (n1 : (1 : ℝ) ≤ n) (t0 : 0 ≤ t) (t1 : t ≤ 4) (hz : |z| ≤ 1) :
    |(F.rnd (F.rnd (n * F.rnd (1 / 2 + t)) - F.rnd (n * F.rnd (z * (3 / 4)))) : ℝ) - n * (1 / 2 + t - 3 / 4 * z)| ≤ 2 / 10 ^ 15 * n ∧
      |(F.rnd (F.rnd (n * F.rnd (1 / 2 + t)) + F.rnd (n * F.rnd (z * (3 / 4)))) : ℝ) - n * (1 / 2 + t + 3 / 4 * z)| ≤ 2 / 10 ^ 15 * n := by
  have hzr : |(z : ℝ)| ≤ 1 := by simpa using abs_real hz
  have t0r : (0 : ℝ) ≤ t := by exact_mod_cast t0
  have t1r : (t : ℝ) ≤ 4 := by exact_mod_cast t1
  have n0 : (0 : ℝ) ≤ n := by linarith
  obtain ⟨z1, z2⟩ := abs_le.1 hzr
  have a1 : |(F.rnd (1 / 2 + t) : ℝ) - (1 / 2 + t)| ≤ 6 / 10 ^ 16 :=
    rnd_real F (e := 0) (A := 9 / 2) (by push_cast; rw [sub_self, abs_zero]) (by rw [abs_le]; constructor <;> linarith) (by norm_num)
  have b1 : |(F.rnd (z * (3 / 4)) : ℝ) - z * (3 / 4)| ≤ 1 / 10 ^ 16 :=
    rnd_real F (e := 0) (A := 3 / 4) (by push_cast; rw [sub_self, abs_zero]) (by rw [abs_le]; constructor <;> linarith) (by norm_num)
  have scale : ∀ {x : ℚ} {X e : ℝ}, |(x : ℝ) - X| ≤ e → |((n * x : ℚ) : ℝ) - n * X| ≤ e * n := fun {x X e} h => by
    push_cast
    rw [← mul_sub, abs_mul, abs_of_nonneg n0, mul_comm]
    exact mul_le_mul_of_nonneg_right h n0
  have a2 : |(F.rnd (n * F.rnd (1 / 2 + t)) : ℝ) - n * (1 / 2 + t)| ≤ 12 / 10 ^ 16 * n :=
    rnd_real F (A := 9 / 2 * n) (scale a1) (by
      rw [abs_mul, abs_of_nonneg n0, mul_comm]
      exact mul_le_mul_of_nonneg_right (by rw [abs_le]; constructor <;> linarith) n0) (by nlinarith)
  have b2 : |(F.rnd (n * F.rnd (z * (3 / 4))) : ℝ) - n * (z * (3 / 4))| ≤ 2 / 10 ^ 16 * n :=
    rnd_real F (A := 3 / 4 * n) (scale b1) (by
      rw [abs_mul, abs_of_nonneg n0, mul_comm]
      exact mul_le_mul_of_nonneg_right (by rw [abs_le]; constructor <;> linarith) n0) (by nlinarith)
  generalize F.rnd (n * F.rnd (1 / 2 + t)) = T at *
  generalize F.rnd (n * F.rnd (z * (3 / 4))) = Z at *
  obtain ⟨A1, A2⟩ := abs_le.1 a2
  obtain ⟨B1, B2⟩ := abs_le.1 b2
  constructor
  · refine rnd_real F (e := 14 / 10 ^ 16 * n) (A := 21 / 4 * n) ?_ ?_ (by nlinarith)
    · push_cast
      rw [abs_le]
      constructor <;> nlinarith
    · rw [abs_mul, abs_of_nonneg n0, mul_comm]
      exact mul_le_mul_of_nonneg_right (by rw [abs_le]; constructor <;> linarith) n0
  · refine rnd_real F (e := 14 / 10 ^ 16 * n) (A := 21 / 4 * n) ?_ ?_ (by nlinarith)
    · push_cast
      rw [abs_le]
      constructor <;> nlinarith
    · rw [abs_mul, abs_of_nonneg n0, mul_comm]
      exact mul_le_mul_of_nonneg_right (by rw [abs_le]; constructor <;> linarith) n0

/-- From lines to faces. -/
theorem faces_of_lines {k : ℕ} {A B : ℚ} (h0 : 0 ≤ A) (h1 : ∀ m : ℤ, m = 1 ∨ m = 2 ∨ m = 3 → (2 : ℚ) ^ k * (m + 1) ≤ B → (2 : ℚ) ^ k * m ≤ A)
    (hB : ⌊B⌋ < 5 * 2 ^ k) : ⌊B⌋ / 2 ^ k ≤ ⌊A⌋ / 2 ^ k + 1 := by
  have n0 : (0 : ℤ) < 2 ^ k := by positivity
  have a0 : 0 ≤ ⌊A⌋ / 2 ^ k := Int.ediv_nonneg (Int.floor_nonneg.mpr h0) n0.le
  have b5 : ⌊B⌋ / 2 ^ k < 5 := Int.ediv_lt_of_lt_mul n0 hB
  by_contra hc
  push Not at hc
  have hq : ⌊B⌋ / 2 ^ k * 2 ^ k ≤ ⌊B⌋ := Int.ediv_mul_le _ n0.ne'
  generalize ⌊B⌋ / 2 ^ k = q at *
  have hq' : (2 : ℚ) ^ k * (((q - 1 : ℤ) : ℚ) + 1) ≤ B := by
    have : ((q * 2 ^ k : ℤ) : ℚ) ≤ B := le_trans (by exact_mod_cast hq) (Int.floor_le B)
    push_cast at this ⊢
    linarith
  have := h1 (q - 1) (by omega) hq'
  have h2 : (q - 1) * 2 ^ k ≤ ⌊A⌋ := by
    rw [Int.le_floor]; push_cast at this ⊢; linarith
  have h3 : q - 1 ≤ ⌊A⌋ / 2 ^ k := (Int.le_ediv_iff_mul_le n0).2 h2
  omega

/-- The pixel in the belt. -/
theorem belt_double (F : Fl64G) (sq : ℚ → ℚ) {c : ℤ → Option ℤ} {k : ℕ} (hk : k ≤ 13) (hc : ∀ v, 0 ≤ v → v ≤ 5 * 2 ^ k → c v = some v) {z phi : ℚ}
    (hb : |z| ≤ 6004799503160661 / 2 ^ 53) (ht : quarter (double F.toFl64 sq) phi ≤ 4 - 1 / 2 ^ 40) :
    ∃ x y f : ℕ, ang2xyf (double F.toFl64 sq) c (2 ^ k) z (-5) phi = some ((x : ℤ), (y : ℤ), (f : ℤ)) ∧ OnFace (2 ^ k) x y f ∧
      ∃ z' t' : ℝ, |z'| ≤ 1 ∧ 0 ≤ t' ∧ t' < 4 ∧ |z' - z| ≤ 8 / 10 ^ 15 ∧
        (∃ m : ℤ, |t' - 4 * m - ((quarter (double F.toFl64 sq) phi : ℚ) : ℝ)| ≤ 6 / 10 ^ 15) ∧ InPixel (2 ^ k) x y f z' t' := by
  have hn : (1 : ℤ) ≤ 2 ^ k := one_le_z k
  have hnr : (1 : ℝ) ≤ ((2 ^ k : ℤ) : ℝ) := by exact_mod_cast hn
  have hnq : ((2 ^ k : ℤ) : ℚ) = 2 ^ k := by push_cast; rfl
  have hk13 : ((2 ^ k : ℤ) : ℝ) ≤ 2 ^ 13 := by
    have : (2 : ℤ) ^ k ≤ 2 ^ 13 := pow_le_z hk
    exact_mod_cast this
  obtain ⟨t0, _⟩ := quarter_double F.toFl64 sq phi
  unfold ang2xyf
  have hbd : |z| ≤ (double F.toFl64 sq).twothird := hb
  generalize quarter (double F.toFl64 sq) phi = t at *
  dsimp only
  rw [if_pos hbd]
  simp only [show (double F.toFl64 sq).rnd = F.rnd from rfl, Option.bind_eq_bind]
  obtain ⟨LA, LB⟩ := lines_near F.toFl64 (n := 2 ^ k) (t := t) (z := z) hnr t0 (ht.trans (by norm_num)) (hb.trans (by norm_num))
  -- ranges as in `ang2xyf_double`
  obtain ⟨z0, z1⟩ := abs_le.mp hb
  have down : ∀ (m : ℤ), ((m : ℚ) / 2 ^ (40 - k)) = 2 ^ k * (m / 2 ^ 40) := by
    intro m
    have : (2 : ℚ) ^ 40 = 2 ^ (40 - k) * 2 ^ k := by rw [← pow_add]; congr 1; omega
    rw [this]; field_simp
  have u1 : F.rnd (1 / 2 + t) ≤ 9 / 2 - 1 / 2 ^ 40 := by
    have := fl_le F.toFl64 (x := 1 / 2 + t) (9 * 2 ^ 39 - 1) 40 (by norm_num) (by norm_num) (by push_cast; norm_num at ht ⊢; linarith)
    push_cast at this; norm_num at this ⊢; exact this
  have u0 : 1 / 2 ≤ F.rnd (1 / 2 + t) := by
    have := fl_ge F.toFl64 (x := 1 / 2 + t) 1 1 (by norm_num) (by norm_num) (by push_cast; norm_num; exact t0)
    push_cast at this; norm_num at this ⊢; exact this
  have v1 : F.rnd (z * (3 / 4)) ≤ 1 / 2 := by
    have := fl_le F.toFl64 (x := z * (3 / 4)) 1 1 (by norm_num) (by norm_num) (by push_cast; norm_num at z1 ⊢; linarith)
    push_cast at this; norm_num at this ⊢; exact this
  have v0 : -(1 / 2) ≤ F.rnd (z * (3 / 4)) := by
    have := fl_ge F.toFl64 (x := z * (3 / 4)) (-1) 1 (by norm_num) (by norm_num) (by push_cast; norm_num at z0 ⊢; linarith)
    push_cast at this; norm_num at this ⊢; exact this
  rw [hnq] at LA LB ⊢
  generalize F.rnd (z * (3 / 4)) = zz at *
  have b1 : F.rnd (2 ^ k * zz) ≤ 2 ^ k * (1 / 2) := by
    have := fl_le F.toFl64 (x := 2 ^ k * zz) (2 ^ 39) (40 - k) (by norm_num) (by omega) (by
      rw [down]; apply mul_le_mul_of_nonneg_left _ (by positivity); push_cast; norm_num at v1 ⊢; exact v1)
    rw [down] at this; push_cast at this; norm_num at this ⊢; exact this
  have b0 : -(2 ^ k * (1 / 2)) ≤ F.rnd (2 ^ k * zz) := by
    have := fl_ge F.toFl64 (x := 2 ^ k * zz) (-2 ^ 39) (40 - k) (by norm_num) (by omega) (by
      rw [down]
      have : (2 : ℚ) ^ k * (-(1 / 2)) ≤ 2 ^ k * zz := mul_le_mul_of_nonneg_left v0 (by positivity)
      push_cast; norm_num at this ⊢; linarith)
    rw [down] at this; push_cast at this; norm_num at this ⊢; linarith
  generalize F.rnd (2 ^ k * zz) = Z at *
  have a1 : F.rnd (2 ^ k * F.rnd (1 / 2 + t)) ≤ 2 ^ k * (9 / 2 - 1 / 2 ^ 40) := by
    have := fl_le F.toFl64 (x := 2 ^ k * F.rnd (1 / 2 + t)) (9 * 2 ^ 39 - 1) (40 - k) (by norm_num) (by omega) (by
      rw [down]; apply mul_le_mul_of_nonneg_left _ (by positivity); push_cast; norm_num at u1 ⊢; exact u1)
    rw [down] at this; push_cast at this; norm_num at this ⊢; exact this
  have a0 : 2 ^ k * (1 / 2) ≤ F.rnd (2 ^ k * F.rnd (1 / 2 + t)) := by
    have := fl_ge F.toFl64 (x := 2 ^ k * F.rnd (1 / 2 + t)) (2 ^ 39) (40 - k) (by norm_num) (by omega) (by
      rw [down]; apply mul_le_mul_of_nonneg_left _ (by positivity); push_cast; norm_num at u0 ⊢; exact u0)
    rw [down] at this; push_cast at this; norm_num at this ⊢; exact this
  have adj1 : ∀ m : ℤ, m = 1 ∨ m = 2 ∨ m = 3 → (2 : ℚ) ^ k * (m + 1) ≤ F.rnd (F.rnd (2 ^ k * F.rnd (1 / 2 + t)) + Z) →
      (2 : ℚ) ^ k * m ≤ F.rnd (F.rnd (2 ^ k * F.rnd (1 / 2 + t)) - Z) := fun m hm h => lines_adjacent F (by omega) (abs_le.2 ⟨b0, b1⟩) hm h
  have adj2 : ∀ m : ℤ, m = 1 ∨ m = 2 ∨ m = 3 → (2 : ℚ) ^ k * (m + 1) ≤ F.rnd (F.rnd (2 ^ k * F.rnd (1 / 2 + t)) - Z) →
      (2 : ℚ) ^ k * m ≤ F.rnd (F.rnd (2 ^ k * F.rnd (1 / 2 + t)) + Z) := fun m hm h => by
    have := lines_adjacent F (k := k) (w := 1 / 2 + t) (Z := -Z) (by omega) (by rw [abs_neg]; exact abs_le.2 ⟨b0, b1⟩) hm (by rwa [← sub_eq_add_neg])
    rwa [sub_neg_eq_add] at this
  generalize F.rnd (2 ^ k * F.rnd (1 / 2 + t)) = T at *
  have up : ∀ {x : ℚ}, x ≤ 2 ^ k * (5 - 1 / 2 ^ 40) → F.rnd x ≤ 2 ^ k * (5 - 1 / 2 ^ 40) := by
    intro x hx
    have := fl_le F.toFl64 (x := x) (5 * 2 ^ 40 - 1) (40 - k) (by norm_num) (by omega) (by
      rw [down]; push_cast; norm_num at hx ⊢; exact hx)
    rw [down] at this; push_cast at this; norm_num at this ⊢; exact this
  have fl5 : ∀ {x : ℚ}, x ≤ 2 ^ k * (5 - 1 / 2 ^ 40) → ⌊x⌋ < 5 * 2 ^ k := by
    intro x hx
    rw [Int.floor_lt]; push_cast
    have : (0 : ℚ) < 2 ^ k * (1 / 2 ^ 40) := by positivity
    nlinarith
  have A1 := up (x := T - Z) (by linarith)
  have B1 := up (x := T + Z) (by linarith)
  have A0 : 0 ≤ F.rnd (T - Z) := fl_nonneg F.toFl64 (by linarith)
  have B0 : 0 ≤ F.rnd (T + Z) := fl_nonneg F.toFl64 (by linarith)
  generalize F.rnd (T - Z) = A at *
  generalize F.rnd (T + Z) = B at *
  have c1 := fl5 A1
  have c2 := fl5 B1
  have c3 := Int.floor_nonneg.mpr A0
  have c4 := Int.floor_nonneg.mpr B0
  have hf1 := faces_of_lines B0 adj2 c1
  have hf2 := faces_of_lines A0 adj1 c2
  rw [truncq_nonneg A0, truncq_nonneg B0]
  have fA : ((⌊A⌋ : ℤ) : ℝ) ≤ A ∧ (A : ℝ) ≤ (⌊A⌋ : ℤ) + 1 := by
    have l := Int.floor_le A
    have r := (Int.lt_floor_add_one A).le
    exact ⟨by exact_mod_cast l, by exact_mod_cast r⟩
  have fB : ((⌊B⌋ : ℤ) : ℝ) ≤ B ∧ (B : ℝ) ≤ (⌊B⌋ : ℤ) + 1 := by
    have l := Int.floor_le B
    have r := (Int.lt_floor_add_one B).le
    exact ⟨by exact_mod_cast l, by exact_mod_cast r⟩
  generalize ⌊A⌋ = jp at *
  generalize ⌊B⌋ = jm at *
  have hzr : |(z : ℝ)| ≤ 2 / 3 := by
    have : |(z : ℝ)| ≤ ((6004799503160661 / 2 ^ 53 : ℚ) : ℝ) := by exact_mod_cast hb
    refine this.trans ?_
    push_cast
    norm_num
  have t0r : (0 : ℝ) ≤ t := by exact_mod_cast t0
  have t1r : (t : ℝ) ≤ 4 - 1 / 2 ^ 40 := by
    have : (t : ℝ) ≤ ((4 - 1 / 2 ^ 40 : ℚ) : ℝ) := by exact_mod_cast ht
    push_cast at this; exact this
  obtain ⟨f, ef, f12, z', t', r1, r2, r3, r4, r5, r6⟩ := belt_direction (n := 2 ^ k) (N := 2 ^ k) (jp := jp) (jm := jm) (a := A) (b := B) (d := 2 / 10 ^ 15) (t := t) (z := z) hn
    (by push_cast; rfl) fA fB c3 c1 c4 c2 hf1 hf2 hzr (by norm_num) (by norm_num at hk13 ⊢; linarith) LA LB t0r (by norm_num at t1r ⊢; linarith)
  rw [hc _ c3 c1.le, Option.bind_some, hc _ c4 c2.le, Option.bind_some, Option.pure_def, andPred_pow c3, andPred_pow c4, Int.tdiv_eq_ediv_of_nonneg c3, Int.tdiv_eq_ediv_of_nonneg c4, ← ef]
  have m1 := Int.emod_nonneg jm (show (2 : ℤ) ^ k ≠ 0 by omega)
  have m2 := Int.emod_lt_of_pos jm (show (0 : ℤ) < 2 ^ k by omega)
  have m3 := Int.emod_nonneg jp (show (2 : ℤ) ^ k ≠ 0 by omega)
  have m4 := Int.emod_lt_of_pos jp (show (0 : ℤ) < 2 ^ k by omega)
  refine ⟨(jm % 2 ^ k).toNat, (2 ^ k - jp % 2 ^ k - 1).toNat, f, ?_, ?_, z', t', r1, r2, r3, r4.trans (by norm_num), ?_, r6⟩
  · rw [Int.toNat_of_nonneg m1, Int.toNat_of_nonneg (by omega)]
  · have := nat_face (k := k) (n := 2 ^ k) rfl ⟨m1, m2⟩ (y := 2 ^ k - jp % 2 ^ k - 1) ⟨by omega, by omega⟩ (f := f) ⟨by omega, by omega⟩
    rwa [Int.toNat_natCast] at this
  · obtain ⟨m, hm⟩ := r5
    exact ⟨m, hm.trans (by norm_num)⟩

/-! ### The caps -/

/-- The rounded distance from the pole. -/
theorem cap_root_near (F : Fl64) (M : Libm) {z : ℚ} {R : ℝ} (hz : |z| ≤ 1) (hR : R = √(3 * (1 - |(z : ℝ)|))) (R0 : 1 / 2 ^ 40 ≤ R) (R1 : R ≤ 2) :
    |(M.sqrt (F.rnd (3 * F.rnd (1 - |z|))) : ℝ) - R| ≤ 5 / 10 ^ 16 * R := by
  have hzr : |(z : ℝ)| ≤ 1 := by simpa using abs_real hz
  have Rp : 0 < R := lt_of_lt_of_le (by positivity) R0
  have hR2 : R ^ 2 = 3 * (1 - |(z : ℝ)|) := by rw [hR, Real.sq_sqrt (by linarith)]
  have Rsq : 1 / 2 ^ 80 ≤ R ^ 2 := by
    have := mul_self_le_mul_self (by positivity) R0
    have e : (1 : ℝ) / 2 ^ 40 * (1 / 2 ^ 40) = 1 / 2 ^ 80 := by norm_num
    rw [e] at this
    nlinarith
  have h1 : |(F.rnd (1 - |z|) : ℝ) - R ^ 2 / 3| ≤ 12 / 10 ^ 17 * (R ^ 2 / 3) :=
    rnd_real F (e := 0) (A := R ^ 2 / 3) (by push_cast; rw [hR2, abs_nonpos_iff]; ring) (by rw [abs_of_nonneg (by positivity)]) (by norm_num at Rsq ⊢; linarith)
  have h2 : |(F.rnd (3 * F.rnd (1 - |z|)) : ℝ) - R ^ 2| ≤ 24 / 10 ^ 17 * R ^ 2 :=
    rnd_real F (e := 12 / 10 ^ 17 * R ^ 2) (A := R ^ 2) (by
      push_cast
      rw [show 3 * (F.rnd (1 - |z|) : ℝ) - R ^ 2 = 3 * (F.rnd (1 - |z|) - R ^ 2 / 3) by ring, abs_mul, abs_of_pos (by norm_num : (0 : ℝ) < 3)]
      linarith) (by rw [abs_of_nonneg (by positivity)]) (by norm_num at Rsq ⊢; linarith)
  have hw0 : 0 ≤ F.rnd (3 * F.rnd (1 - |z|)) := fl_nonneg F (by
    have := fl_nonneg F (x := 1 - |z|) (by linarith)
    linarith)
  generalize F.rnd (3 * F.rnd (1 - |z|)) = w at *
  have hw0r : (0 : ℝ) ≤ w := by exact_mod_cast hw0
  have h3 := M.sqrt_err w hw0
  have hs := Real.sq_sqrt hw0r
  have hs0 := Real.sqrt_nonneg (w : ℝ)
  generalize √(w : ℝ) = q at *
  have h4 : |q - R| ≤ 24 / 10 ^ 17 * R := by
    rw [← hs, show q ^ 2 - R ^ 2 = (q - R) * (q + R) by ring, abs_mul, abs_of_nonneg (by linarith : 0 ≤ q + R)] at h2
    have : |q - R| * R ≤ 24 / 10 ^ 17 * R * R := by nlinarith [abs_nonneg (q - R)]
    exact le_of_mul_le_mul_right this Rp
  obtain ⟨a1, a2⟩ := abs_le.1 h4
  obtain ⟨b1, b2⟩ := abs_le.1 h3
  rw [abs_le]
  norm_num at *
  constructor <;> linarith

/-- The rounded distances from the meridians. -/
theorem cap_lines (F : Fl64) (M : Libm) {n : ℤ} {z tp : ℚ} {R : ℝ} (hn : (1 : ℝ) ≤ n) (hz : |z| ≤ 1) (hR : R = √(3 * (1 - |(z : ℝ)|))) (R0 : 1 / 2 ^ 40 ≤ R) (R1 : R ≤ 2)
    (p0 : (0 : ℝ) ≤ tp) (p1 : (tp : ℝ) ≤ 1 + 1 / 2 ^ 49) :
    |(F.rnd (tp * F.rnd (n * M.sqrt (F.rnd (3 * F.rnd (1 - |z|))))) : ℝ) - tp * (n * R)| ≤ 9 / 10 ^ 16 * (n * R) ∧
      |(F.rnd (F.rnd (1 - tp) * F.rnd (n * M.sqrt (F.rnd (3 * F.rnd (1 - |z|))))) : ℝ) - (1 - tp) * (n * R)| ≤ 11 / 10 ^ 16 * (n * R) := by
  have h := cap_root_near F M hz hR R0 R1
  generalize M.sqrt (F.rnd (3 * F.rnd (1 - |z|))) = r at *
  have n0 : (0 : ℝ) ≤ n := by linarith
  have Rp : 0 < R := lt_of_lt_of_le (by positivity) R0
  have W0 : 1 / 2 ^ 40 ≤ n * R := by nlinarith
  have h1 : |(F.rnd (n * r) : ℝ) - n * R| ≤ 63 / 10 ^ 17 * (n * R) :=
    rnd_real F (e := 5 / 10 ^ 16 * (n * R)) (A := n * R) (by
      push_cast
      rw [← mul_sub, abs_mul, abs_of_nonneg n0]
      have := mul_le_mul_of_nonneg_left h n0
      linarith) (by rw [abs_of_nonneg (by positivity)]) (by norm_num at W0 ⊢; linarith)
  generalize F.rnd (n * r) = T at *
  generalize (n : ℝ) * R = W at *
  have Wp : 0 < W := lt_of_lt_of_le (by positivity) W0
  have hq : |(F.rnd (1 - tp) : ℝ) - (1 - tp)| ≤ 12 / 10 ^ 17 :=
    rnd_real F (e := 0) (A := 1) (by push_cast; rw [sub_self, abs_zero]) (by rw [abs_le]; constructor <;> linarith) (by norm_num)
  generalize F.rnd (1 - tp) = tq at *
  have ha : |(tp : ℝ)| ≤ 101 / 100 := by rw [abs_le]; constructor <;> linarith
  have hb : |1 - (tp : ℝ)| ≤ 1 := by rw [abs_le]; constructor <;> linarith
  have m1 := mul_real (x := (tp : ℝ)) (X := tp) (e := 0) (by rw [sub_self, abs_zero]) h1 ha (abs_of_pos Wp).le
  have m2 := mul_real hq h1 hb (abs_of_pos Wp).le
  have bb1 : |(tp : ℝ) * W| ≤ 101 / 100 * W := by rw [abs_mul, abs_of_pos Wp]; exact mul_le_mul_of_nonneg_right ha Wp.le
  have bb2 : |(1 - (tp : ℝ)) * W| ≤ 1 * W := by rw [abs_mul, abs_of_pos Wp]; exact mul_le_mul_of_nonneg_right hb Wp.le
  constructor
  · refine rnd_real F (e := 64 / 10 ^ 17 * W) (A := 101 / 100 * W) (by push_cast; refine m1.trans ?_; norm_num; linarith) bb1 (by norm_num at W0 ⊢; linarith)
  · refine rnd_real F (e := 76 / 10 ^ 17 * W) (A := 1 * W) (by push_cast; refine m2.trans ?_; norm_num; linarith) bb2 (by norm_num at W0 ⊢; linarith)

/-- A direction of the cap in the square, near given distances from the meridians. -/
theorem cap_choose {n jp jm : ℤ} {u v W p : ℝ} (hn : 1 ≤ n) (hn2 : (n : ℝ) ≤ 2 ^ 13) (W0 : 0 < W) (W1 : W ≤ (1 + 1 / 10 ^ 15) * n) (p0 : 0 ≤ p) (p1 : p ≤ 1 + 1 / 2 ^ 49)
    (hu : |u - p * W| ≤ 9 / 10 ^ 16 * W) (hv : |v - (1 - p) * W| ≤ 11 / 10 ^ 16 * W) (u0 : 0 ≤ u)
    (hjp : jp = if ⌊u⌋ ≥ n then n - 1 else ⌊u⌋) (hjm : jm = if (if 0 ≤ v then ⌊v⌋ else 0) ≥ n then n - 1 else (if 0 ≤ v then ⌊v⌋ else 0)) :
    ∃ u' v' : ℝ, (jp ≤ u' ∧ u' ≤ jp + 1) ∧ (jm ≤ v' ∧ v' ≤ jm + 1) ∧ (0 ≤ jp ∧ jp < n) ∧ (0 ≤ jm ∧ jm < n) ∧ 0 ≤ u' ∧ 0 < v' ∧ u' + v' ≤ n ∧
      |u' - p * W| ≤ 11 / 10 ^ 15 * W ∧ |v' - (1 - p) * W| ≤ 11 / 10 ^ 15 * W := by
  have hn' : (1 : ℝ) ≤ n := by exact_mod_cast hn
  obtain ⟨u1, u2⟩ := abs_le.1 hu
  obtain ⟨v1, v2⟩ := abs_le.1 hv
  have pW : 0 ≤ p * W := by positivity
  have pW1 : p * W ≤ W + 1 / 2 ^ 49 * W := by nlinarith
  have W9 : W ≤ 8193 := by norm_num at hn2 W1 ⊢; linarith
  have e1 : (1 - p) * W = W - p * W := by ring
  rw [e1] at v1 v2
  rw [e1]
  -- into the boxes
  have bu : (jp : ℝ) ≤ min u n ∧ min u n ≤ jp + 1 := by
    by_cases h : ⌊u⌋ ≥ n
    · rw [if_pos h] at hjp
      have h' : (n : ℝ) ≤ u := by exact_mod_cast Int.le_floor.1 h
      rw [hjp, min_eq_right h']; push_cast; constructor <;> linarith
    · rw [if_neg h] at hjp
      push Not at h
      have h' : u < n := Int.floor_lt.1 h
      rw [hjp, min_eq_left h'.le]
      exact ⟨Int.floor_le u, (Int.lt_floor_add_one u).le⟩
  have rp : 0 ≤ jp ∧ jp < n := by
    have := Int.floor_nonneg.mpr u0
    by_cases h : ⌊u⌋ ≥ n
    · rw [if_pos h] at hjp; omega
    · rw [if_neg h] at hjp; omega
  have hη : 1 / 10 ^ 15 * W < 1 := by norm_num; linarith
  have hη0 : 0 < 1 / 10 ^ 15 * W := by positivity
  have bv : ((jm : ℝ) ≤ min (max v (1 / 10 ^ 15 * W)) n ∧ min (max v (1 / 10 ^ 15 * W)) n ≤ jm + 1) ∧ 0 ≤ jm ∧ jm < n := by
    by_cases hc : v < 1 / 10 ^ 15 * W
    · have h0 : (if 0 ≤ v then ⌊v⌋ else 0) = 0 := by
        split_ifs with h
        · rw [Int.floor_eq_zero_iff]; exact ⟨h, by linarith⟩
        · rfl
      rw [h0, if_neg (by omega)] at hjm
      rw [hjm, max_eq_right hc.le, min_eq_left (by linarith), Int.cast_zero]
      exact ⟨⟨by linarith, by linarith⟩, by omega, by omega⟩
    · push Not at hc
      have hv0 : 0 ≤ v := by linarith
      rw [if_pos hv0] at hjm
      rw [max_eq_left hc]
      have := Int.floor_nonneg.mpr hv0
      by_cases h : ⌊v⌋ ≥ n
      · rw [if_pos h] at hjm
        have h' : (n : ℝ) ≤ v := by exact_mod_cast Int.le_floor.1 h
        rw [hjm, min_eq_right h']; push_cast; exact ⟨⟨by linarith, by linarith⟩, by omega, by omega⟩
      · rw [if_neg h] at hjm
        push Not at h
        have h' : v < n := Int.floor_lt.1 h
        rw [hjm, min_eq_left h'.le]
        exact ⟨⟨Int.floor_le v, (Int.lt_floor_add_one v).le⟩, by omega, by omega⟩
  obtain ⟨bv, rm⟩ := bv
  have W1' : W ≤ n + 11 / 10 ^ 16 * W := by norm_num at W1 ⊢; linarith
  have du : |min u n - u| ≤ 4 / 10 ^ 15 * W := by
    rcases le_total u n with h | h
    · rw [min_eq_left h, sub_self, abs_zero]; positivity
    · rw [min_eq_right h, abs_le]; constructor <;> linarith
  have dv : |min (max v (1 / 10 ^ 15 * W)) n - v| ≤ 4 / 10 ^ 15 * W := by
    rcases le_total v (1 / 10 ^ 15 * W) with h | h
    · rw [max_eq_right h, min_eq_left (by linarith), abs_le]; constructor <;> linarith
    · rw [max_eq_left h]
      rcases le_total v n with h | h
      · rw [min_eq_left h, sub_self, abs_zero]; positivity
      · rw [min_eq_right h, abs_le]; constructor <;> linarith
  have hv0 : 0 < min (max v (1 / 10 ^ 15 * W)) n := lt_min (lt_max_of_lt_right hη0) (by linarith)
  have hu0 : 0 ≤ min u n := le_min u0 (by linarith)
  have hsum : min u n + min (max v (1 / 10 ^ 15 * W)) n ≤ n + 5 / 10 ^ 15 * W := by
    have h1 := min_le_left u (n : ℝ)
    have h2 := min_le_left (max v (1 / 10 ^ 15 * W)) (n : ℝ)
    rcases le_total v (1 / 10 ^ 15 * W) with h | h
    · rw [max_eq_right h] at h2 ⊢; linarith
    · rw [max_eq_left h] at h2 ⊢; linarith
  obtain ⟨u', v', k1, k2, k3, k4, k5, k6, k7⟩ := into_cap bu bv rp.2 hv0 (by norm_num; linarith : 5 / 10 ^ 15 * W < 1) (by positivity) rp.1 hu0 hsum
  refine ⟨u', v', k1, k2, rp, rm, k3, k4, k5, ?_, ?_⟩
  · rw [show u' - p * W = (u' - min u n) + (min u n - u) + (u - p * W) by ring]
    refine (abs_add_three _ _ _).trans ?_
    linarith
  · rw [show v' - (W - p * W) = (v' - min (max v (1 / 10 ^ 15 * W)) n) + (min (max v (1 / 10 ^ 15 * W)) n - v) + (v - (1 - p) * W) by ring]
    refine (abs_add_three _ _ _).trans ?_
    linarith

/-- Close to the pole the rounded distance is small. -/
theorem cap_root_small (F : Fl64) (M : Libm) {z : ℚ} (hz : |z| ≤ 1) (hR : √(3 * (1 - |(z : ℝ)|)) < 1 / 2 ^ 40) :
    0 ≤ M.sqrt (F.rnd (3 * F.rnd (1 - |z|))) ∧ (M.sqrt (F.rnd (3 * F.rnd (1 - |z|))) : ℝ) ≤ 1 / 2 ^ 30 ∧ 1 - |(z : ℝ)| ≤ 1 / 2 ^ 80 := by
  have hzr : |(z : ℝ)| ≤ 1 := by simpa using abs_real hz
  have hw : 3 * (1 - |(z : ℝ)|) < (1 / 2 ^ 40) ^ 2 := (Real.sqrt_lt' (by positivity)).1 hR
  have hw' : 1 - |(z : ℝ)| ≤ 1 / 2 ^ 80 := by norm_num at hw ⊢; linarith
  have h1 : |(F.rnd (1 - |z|) : ℝ) - (1 - |(z : ℝ)|)| ≤ 1 / 2 ^ 100 :=
    rnd_real F (e := 0) (A := 1 / 2 ^ 80) (by push_cast; rw [sub_self, abs_zero]) (by rw [abs_of_nonneg (by linarith)]; exact hw') (by norm_num)
  have h2 : |(F.rnd (3 * F.rnd (1 - |z|)) : ℝ) - 3 * (1 - |(z : ℝ)|)| ≤ 4 / 2 ^ 100 :=
    rnd_real F (e := 3 / 2 ^ 100) (A := 3 / 2 ^ 80) (by
      push_cast
      rw [← mul_sub, abs_mul, abs_of_pos (by norm_num : (0 : ℝ) < 3)]
      linarith) (by rw [abs_of_nonneg (by linarith)]; linarith) (by norm_num)
  have hw0 : 0 ≤ F.rnd (3 * F.rnd (1 - |z|)) := fl_nonneg F (by
    have := fl_nonneg F (x := 1 - |z|) (by linarith)
    linarith)
  generalize F.rnd (3 * F.rnd (1 - |z|)) = w at *
  have hb : (w : ℝ) ≤ (1 / 2 ^ 39) ^ 2 := by
    have := (abs_le.1 h2).2
    norm_num at this hw' ⊢
    linarith
  have hs : √(w : ℝ) ≤ 1 / 2 ^ 39 := (Real.sqrt_le_left (by positivity)).2 hb
  have h3 := (abs_le.1 (M.sqrt_err w hw0)).2
  refine ⟨M.sqrt_sign w hw0, ?_, hw'⟩
  norm_num at *
  linarith

/-- A direction of the cap in the square that the rounded arithmetic gives. -/
theorem cap_any (F : Fl64) (M : Libm) {n jp jm : ℤ} {z tp : ℚ} (hn : 1 ≤ n) (hn2 : (n : ℝ) ≤ 2 ^ 13) (hz : |z| ≤ 1) (hb : 6004799503160661 / 2 ^ 53 < |z|) (p0 : 0 ≤ tp) (p1 : tp ≤ 1 + 1 / 2 ^ 49)
    {u v : ℚ} (hu : u = F.rnd (tp * F.rnd (n * M.sqrt (F.rnd (3 * F.rnd (1 - |z|)))))) (hv : v = F.rnd (F.rnd (1 - tp) * F.rnd (n * M.sqrt (F.rnd (3 * F.rnd (1 - |z|))))))
    (hjp : jp = if ⌊u⌋ ≥ n then n - 1 else ⌊u⌋) (hjm : jm = if (if 0 ≤ v then ⌊v⌋ else 0) ≥ n then n - 1 else (if 0 ≤ v then ⌊v⌋ else 0)) :
    ∃ u' v' : ℝ, (jp ≤ u' ∧ u' ≤ jp + 1) ∧ (jm ≤ v' ∧ v' ≤ jm + 1) ∧ (0 ≤ jp ∧ jp < n) ∧ (0 ≤ jm ∧ jm < n) ∧ 0 ≤ u' ∧ 0 < v' ∧ u' + v' ≤ n ∧
      |((u' + v') / n) ^ 2 / 3 - (1 - |(z : ℝ)|)| ≤ 22 / 10 ^ 15 ∧ |u' / (u' + v') - tp| ≤ 44 / 10 ^ 15 := by
  have hn' : (1 : ℝ) ≤ n := by exact_mod_cast hn
  have hzr : |(z : ℝ)| ≤ 1 := by simpa using abs_real hz
  have hbr : (6004799503160661 : ℝ) / 2 ^ 53 < |(z : ℝ)| := by
    have : ((6004799503160661 / 2 ^ 53 : ℚ) : ℝ) < ((|z| : ℚ) : ℝ) := by exact_mod_cast hb
    push_cast at this; exact this
  have p0r : (0 : ℝ) ≤ tp := by exact_mod_cast p0
  have p1r : (tp : ℝ) ≤ 1 + 1 / 2 ^ 49 := by
    have : (tp : ℝ) ≤ ((1 + 1 / 2 ^ 49 : ℚ) : ℝ) := by exact_mod_cast p1
    push_cast at this; exact this
  have fl : ∀ x : ℚ, ⌊x⌋ = ⌊(x : ℝ)⌋ := fun x => (Rat.floor_cast x).symm
  obtain ⟨R, hR⟩ : ∃ R : ℝ, R = √(3 * (1 - |(z : ℝ)|)) := ⟨_, rfl⟩
  by_cases hs : 1 / 2 ^ 40 ≤ R
  · have R1 : R ≤ 1 + 1 / 10 ^ 15 := by
      rw [hR, Real.sqrt_le_left (by positivity)]
      norm_num at hbr ⊢
      linarith
    have Rp : 0 < R := lt_of_lt_of_le (by positivity) hs
    obtain ⟨L1, L2⟩ := cap_lines F M (n := n) hn' hz hR hs (R1.trans (by norm_num)) p0r p1r
    rw [← hu] at L1
    rw [← hv] at L2
    have u0 : 0 ≤ u := by
      rw [hu]
      refine fl_nonneg F (mul_nonneg p0 (fl_nonneg F (mul_nonneg (by exact_mod_cast (by omega : 0 ≤ n)) (M.sqrt_sign _ (fl_nonneg F ?_)))))
      have := fl_nonneg F (x := 1 - |z|) (by linarith)
      linarith
    have u0r : (0 : ℝ) ≤ u := by exact_mod_cast u0
    have c0 : (0 ≤ v) = ((0 : ℝ) ≤ v) := by rw [eq_iff_iff]; constructor <;> intro h <;> exact_mod_cast h
    simp only [fl, c0] at hjp hjm
    obtain ⟨u', v', k1, k2, k3, k4, k5, k6, k7, k8, k9⟩ := cap_choose (jp := jp) (jm := jm) hn hn2 (by positivity : 0 < n * R) (by nlinarith) p0r p1r L1 L2 u0r hjp hjm
    obtain ⟨e1, e2⟩ := cap_values (d := 11 / 10 ^ 15) hn' Rp (by norm_num) (by norm_num) (R1.trans (by norm_num)) p0r (p1r.trans (by norm_num)) k8 k9
    have hR2 : R ^ 2 / 3 = 1 - |(z : ℝ)| := by rw [hR, Real.sq_sqrt (by linarith)]; ring
    rw [hR2] at e1
    exact ⟨u', v', k1, k2, k3, k4, k5, k6, k7, e1.trans (by norm_num), e2.trans (by norm_num)⟩
  · push Not at hs
    rw [hR] at hs
    obtain ⟨r0, r1, w1⟩ := cap_root_small F M hz hs
    generalize M.sqrt (F.rnd (3 * F.rnd (1 - |z|))) = r at *
    have r0r : (0 : ℝ) ≤ r := by exact_mod_cast r0
    have t1 : |(F.rnd (n * r) : ℝ) - 0| ≤ 1 / 2 ^ 16 :=
      rnd_real F (e := 1 / 2 ^ 17) (A := 0) (by
        push_cast
        rw [sub_zero, abs_of_nonneg (by positivity)]
        calc (n : ℝ) * r ≤ 2 ^ 13 * (1 / 2 ^ 30) := mul_le_mul hn2 r1 r0r (by norm_num)
          _ = 1 / 2 ^ 17 := by norm_num) (by rw [abs_zero]) (by norm_num)
    rw [sub_zero] at t1
    have TT : 0 ≤ F.rnd (n * r) := fl_nonneg F (mul_nonneg (by exact_mod_cast (by omega : 0 ≤ n)) r0)
    generalize F.rnd (n * r) = T at *
    have q1 : |(F.rnd (1 - tp) : ℝ) - (1 - tp)| ≤ 1 / 2 ^ 40 :=
      rnd_real F (e := 0) (A := 1) (by push_cast; rw [sub_self, abs_zero]) (by rw [abs_le]; constructor <;> linarith) (by norm_num)
    have q2 : |(F.rnd (1 - tp) : ℝ)| ≤ 2 := by
      obtain ⟨a, b⟩ := abs_le.1 q1
      rw [abs_le]; constructor <;> linarith
    generalize F.rnd (1 - tp) = tq at *
    have ub : |(u : ℝ) - 0| ≤ 1 / 2 ^ 10 := by
      rw [hu]
      refine rnd_real F (e := 1 / 2 ^ 15) (A := 0) ?_ (by rw [abs_zero]) (by norm_num)
      push_cast
      rw [sub_zero, abs_mul, abs_of_nonneg p0r]
      calc (tp : ℝ) * |(T : ℝ)| ≤ 2 * (1 / 2 ^ 16) := mul_le_mul (by linarith) t1 (abs_nonneg _) (by norm_num)
        _ = 1 / 2 ^ 15 := by norm_num
    have vb : |(v : ℝ) - 0| ≤ 1 / 2 ^ 10 := by
      rw [hv]
      refine rnd_real F (e := 1 / 2 ^ 15) (A := 0) ?_ (by rw [abs_zero]) (by norm_num)
      push_cast
      rw [sub_zero, abs_mul]
      calc |(tq : ℝ)| * |(T : ℝ)| ≤ 2 * (1 / 2 ^ 16) := mul_le_mul q2 t1 (abs_nonneg _) (by norm_num)
        _ = 1 / 2 ^ 15 := by norm_num
    rw [sub_zero] at ub vb
    have T0 : 0 ≤ u := hu ▸ fl_nonneg F (mul_nonneg p0 TT)
    have fu : ⌊u⌋ = 0 := by
      rw [fl, Int.floor_eq_zero_iff]
      exact ⟨by exact_mod_cast T0, by linarith [(abs_le.1 ub).2]⟩
    have fv : (if 0 ≤ v then ⌊v⌋ else 0) = 0 := by
      split_ifs with h
      · rw [fl, Int.floor_eq_zero_iff]
        exact ⟨by exact_mod_cast h, by linarith [(abs_le.1 vb).2]⟩
      · rfl
    rw [fu, if_neg (by omega)] at hjp
    rw [fv, if_neg (by omega)] at hjm
    rw [hjp, hjm]
    obtain ⟨q, hq0, hq1, hq2⟩ : ∃ q : ℝ, 0 ≤ q ∧ q < 1 ∧ |q - tp| ≤ 1 / 10 ^ 14 := by
      by_cases h : (tp : ℝ) < 1
      · exact ⟨tp, p0r, h, by rw [sub_self, abs_zero]; norm_num⟩
      · push Not at h
        refine ⟨1 - 1 / 10 ^ 15, by norm_num, by norm_num, ?_⟩
        rw [abs_le]; norm_num at p1r ⊢; constructor <;> linarith
    have n1 : (n : ℝ) * (1 / 10 ^ 8) ≤ 1 := by norm_num at hn2 ⊢; linarith
    have n0 : (0 : ℝ) < n * (1 / 10 ^ 8) := by positivity
    have es : q * (n * (1 / 10 ^ 8)) + (1 - q) * (n * (1 / 10 ^ 8)) = n * (1 / 10 ^ 8) := by ring
    refine ⟨q * (n * (1 / 10 ^ 8)), (1 - q) * (n * (1 / 10 ^ 8)), ?_, ?_, ⟨le_refl _, by omega⟩, ⟨le_refl _, by omega⟩, by positivity, mul_pos (by linarith) n0, ?_, ?_, ?_⟩
    · rw [Int.cast_zero]; constructor
      · positivity
      · nlinarith
    · rw [Int.cast_zero]; constructor
      · exact (mul_pos (by linarith) n0).le
      · nlinarith
    · rw [es]; linarith
    · rw [es, mul_div_cancel_left₀ _ (by linarith : (n : ℝ) ≠ 0), abs_le]
      norm_num at w1 ⊢
      constructor <;> linarith
    · rw [es, mul_div_assoc, div_self n0.ne', mul_one]
      exact hq2.trans (by norm_num)

/-- The integers of the cap are in range. -/
theorem cap_ranges (F : Fl64) {k : ℕ} (hk : k ≤ 29) {r tp : ℚ} (s0 : 0 ≤ r) (s1 : r ≤ 2) (w0 : 0 ≤ tp) (w1 : tp ≤ 1 + 1 / 2 ^ 49) {u v : ℚ}
    (hu : u = F.rnd (tp * F.rnd (((2 ^ k : ℤ) : ℚ) * r))) (hv : v = F.rnd (F.rnd (1 - tp) * F.rnd (((2 ^ k : ℤ) : ℚ) * r))) :
    (Healpix.trunc u = ⌊u⌋ ∧ 0 ≤ ⌊u⌋ ∧ ⌊u⌋ ≤ 3 * 2 ^ k) ∧ (Healpix.trunc v = if 0 ≤ v then ⌊v⌋ else 0) ∧ 0 ≤ (if 0 ≤ v then ⌊v⌋ else 0) ∧ (if 0 ≤ v then ⌊v⌋ else 0) ≤ 2 * 2 ^ k := by
  have hnq : ((2 ^ k : ℤ) : ℚ) = 2 ^ k := by push_cast; rfl
  have hk29 : (2 : ℤ) ^ k ≤ 2 ^ 29 := pow_le_z hk
  have n1 : (1 : ℚ) ≤ 2 ^ k := one_le_pow₀ (by norm_num)
  rw [hnq] at hu hv
  have r0 : 0 ≤ F.rnd (2 ^ k * r) := fl_nonneg F (by positivity)
  have r1 : F.rnd (2 ^ k * r) ≤ 2 * 2 ^ k := by
    have := fl_int_le F (x := 2 ^ k * r) (2 * 2 ^ k) (by rw [abs_of_nonneg (by positivity)]; omega) (by push_cast; nlinarith)
    push_cast at this; exact this
  generalize F.rnd (2 ^ k * r) = tmp at *
  have x0 : 0 ≤ u := hu ▸ fl_nonneg F (by positivity)
  have hk30 : (2 : ℚ) ^ k ≤ 2 ^ 29 := pow_le_pow_right₀ (by norm_num) hk
  have x1 : u ≤ 3 * 2 ^ k := by
    have h2 : tp * tmp ≤ 3 * 2 ^ k := by
      have : tp * tmp ≤ (1 + 1 / 2 ^ 49) * (2 * 2 ^ k) := mul_le_mul w1 r1 r0 (by positivity)
      have : (1 + 1 / 2 ^ 49 : ℚ) * (2 * 2 ^ k) ≤ 3 * 2 ^ k := by nlinarith
      linarith
    have := fl_int_le F (x := tp * tmp) (3 * 2 ^ k) (by rw [abs_of_nonneg (by positivity)]; omega) (by push_cast; exact h2)
    push_cast at this; rw [hu]; exact this
  have y0 : -(1 / 2 ^ 49) ≤ F.rnd (1 - tp) := by
    have := fl_ge F (x := 1 - tp) (-1) 49 (by norm_num) (by norm_num) (by push_cast; norm_num at w1 ⊢; linarith)
    push_cast at this; norm_num at this ⊢; exact this
  have y1 : F.rnd (1 - tp) ≤ 1 := by
    have := fl_int_le F (x := 1 - tp) 1 (by norm_num) (by push_cast; linarith)
    simpa using this
  generalize F.rnd (1 - tp) = tq at *
  have z0' : -(1 / 2) ≤ v := by
    have h2 : -(1 / 2) ≤ tq * tmp := by
      have : -(1 / 2 ^ 49) * tmp ≤ tq * tmp := mul_le_mul_of_nonneg_right y0 r0
      have : (1 / 2 ^ 49 : ℚ) * tmp ≤ 1 / 2 ^ 49 * (2 * 2 ^ 29) := mul_le_mul_of_nonneg_left (by linarith) (by positivity)
      norm_num at *
      linarith
    have := fl_ge F (x := tq * tmp) (-1) 1 (by norm_num) (by norm_num) (by push_cast; norm_num at h2 ⊢; linarith)
    push_cast at this; rw [hv]; norm_num at this ⊢; exact this
  have z1' : v ≤ 2 * 2 ^ k := by
    have := fl_int_le F (x := tq * tmp) (2 * 2 ^ k) (by rw [abs_of_nonneg (by positivity)]; omega) (by push_cast; nlinarith)
    push_cast at this; rw [hv]; exact this
  refine ⟨⟨truncq_nonneg x0, Int.floor_nonneg.mpr x0, ?_⟩, ?_⟩
  · have : (⌊u⌋ : ℚ) ≤ 3 * 2 ^ k := le_trans (Int.floor_le _) x1
    exact_mod_cast this
  · unfold Healpix.trunc
    by_cases hs : 0 ≤ v
    · simp only [if_pos hs]
      refine ⟨trivial, Int.floor_nonneg.mpr hs, ?_⟩
      have : (⌊v⌋ : ℚ) ≤ 2 * 2 ^ k := le_trans (Int.floor_le _) z1'
      exact_mod_cast this
    · simp only [if_neg hs]
      push Not at hs
      have : ⌈v⌉ = 0 := by
        rw [Int.ceil_eq_zero_iff]; constructor <;> linarith
      exact ⟨this, le_refl _, by positivity⟩

/-- The pixel of a direction of a cap in `double`. -/
theorem cap_double (F : Fl64) (M : Libm) {c : ℤ → Option ℤ} {k : ℕ} (hk : k ≤ 13) (hc : ∀ v, 0 ≤ v → v ≤ 5 * 2 ^ k → c v = some v) {z phi : ℚ}
    (hz : |z| ≤ 1) (hb : ¬ |z| ≤ 6004799503160661 / 2 ^ 53) :
    ∃ x y f : ℕ, ang2xyf (double F M.sqrt) c (2 ^ k) z (-5) phi = some ((x : ℤ), (y : ℤ), (f : ℤ)) ∧ OnFace (2 ^ k) x y f ∧
      ∃ z' t' : ℝ, |z'| ≤ 1 ∧ 0 ≤ t' ∧ t' < 4 ∧ |z' - z| ≤ 22 / 10 ^ 15 ∧
        |t' - ((quarter (double F M.sqrt) phi : ℚ) : ℝ)| ≤ 45 / 10 ^ 15 ∧ InPixel (2 ^ k) x y f z' t' := by
  have hn : (1 : ℤ) ≤ 2 ^ k := one_le_z k
  have hk13 : ((2 ^ k : ℤ) : ℝ) ≤ 2 ^ 13 := by
    have : (2 : ℤ) ^ k ≤ 2 ^ 13 := pow_le_z hk
    exact_mod_cast this
  obtain ⟨t0, t1⟩ := quarter_double F M.sqrt phi
  unfold ang2xyf
  have hbd : ¬ |z| ≤ (double F M.sqrt).twothird := hb
  generalize quarter (double F M.sqrt) phi = t at *
  dsimp only
  rw [if_neg hbd]
  have pe : polar (double F M.sqrt) (2 ^ k) |z| (-5) = F.rnd (((2 ^ k : ℤ) : ℚ) * M.sqrt (F.rnd (3 * F.rnd (1 - |z|)))) := by
    unfold polar; rw [if_neg (by norm_num)]; rfl
  rw [pe]
  simp only [show (double F M.sqrt).rnd = F.rnd from rfl, Option.bind_eq_bind]
  push Not at hb
  have n0 : 0 ≤ ⌊t⌋ := Int.floor_nonneg.mpr t0
  have n4 : ⌊t⌋ < 5 := Int.floor_lt.mpr (by push_cast; norm_num at t1; linarith)
  rw [truncq_nonneg t0, hc _ n0 (by omega), Option.bind_some]
  obtain ⟨g, hg, g3, tg0, tg1⟩ : ∃ g : ℕ, (if ⌊t⌋ ≥ 4 then 3 else ⌊t⌋) = (g : ℤ) ∧ g < 4 ∧ 0 ≤ t - ((g : ℤ) : ℚ) ∧ t - ((g : ℤ) : ℚ) ≤ 1 + 1 / 2 ^ 49 := by
    by_cases h4 : ⌊t⌋ ≥ 4
    · have : (4 : ℚ) ≤ t := by exact_mod_cast Int.le_floor.mp h4
      exact ⟨3, if_pos h4, by norm_num, by push_cast; linarith, by push_cast; linarith⟩
    · have e : ((⌊t⌋.toNat : ℕ) : ℤ) = ⌊t⌋ := Int.toNat_of_nonneg n0
      refine ⟨⌊t⌋.toNat, by rw [if_neg h4, e], by omega, by rw [e]; linarith [Int.floor_le t], ?_⟩
      rw [e]
      have := Int.lt_floor_add_one t
      have : (0 : ℚ) ≤ 1 / 2 ^ 49 := by positivity
      linarith
  rw [hg]
  have w0 : 0 ≤ F.rnd (t - (g : ℤ)) := fl_nonneg F tg0
  have w1 : F.rnd (t - (g : ℤ)) ≤ 1 + 1 / 2 ^ 49 := by
    have := fl_le F (x := t - (g : ℤ)) (2 ^ 49 + 1) 49 (by norm_num) (by norm_num) (by push_cast; norm_num at tg1 ⊢; linarith)
    push_cast at this; norm_num at this ⊢; exact this
  have tg0r : (0 : ℝ) ≤ t - (g : ℤ) := by exact_mod_cast tg0
  have tg1r : (t : ℝ) - (g : ℤ) ≤ 2 := by
    have : t - ((g : ℤ) : ℚ) ≤ 2 := tg1.trans (by norm_num)
    exact_mod_cast this
  have w2 : |(F.rnd (t - (g : ℤ)) : ℝ) - (t - (g : ℤ))| ≤ 3 / 10 ^ 16 :=
    rnd_real F (e := 0) (A := 2) (by push_cast; rw [sub_self, abs_zero]) (by rw [abs_of_nonneg tg0r]; exact tg1r) (by norm_num)
  generalize F.rnd (t - (g : ℤ)) = tp at *
  have hw0 : 0 ≤ F.rnd (3 * F.rnd (1 - |z|)) := fl_nonneg F (by
    have := fl_nonneg F (x := 1 - |z|) (by linarith)
    linarith)
  have hw3 : F.rnd (3 * F.rnd (1 - |z|)) ≤ 3 := by
    have p1 : F.rnd (1 - |z|) ≤ 1 := by
      have := fl_int_le F (x := 1 - |z|) 1 (by norm_num) (by push_cast; linarith [abs_nonneg z])
      simpa using this
    have := fl_int_le F (x := 3 * F.rnd (1 - |z|)) 3 (by norm_num) (by push_cast; linarith)
    simpa using this
  have hs2 : M.sqrt (F.rnd (3 * F.rnd (1 - |z|))) ≤ 2 := by
    have h3 := (abs_le.1 (M.sqrt_err _ hw0)).2
    have hw3r : (F.rnd (3 * F.rnd (1 - |z|)) : ℝ) ≤ (19 / 10) ^ 2 := by
      have : (F.rnd (3 * F.rnd (1 - |z|)) : ℝ) ≤ 3 := by exact_mod_cast hw3
      norm_num; linarith
    have := (Real.sqrt_le_left (by norm_num)).2 hw3r
    have h4 : (M.sqrt (F.rnd (3 * F.rnd (1 - |z|))) : ℝ) ≤ 2 := by norm_num at *; linarith
    exact_mod_cast h4
  obtain ⟨u, hu⟩ : ∃ u, u = F.rnd (tp * F.rnd (((2 ^ k : ℤ) : ℚ) * M.sqrt (F.rnd (3 * F.rnd (1 - |z|))))) := ⟨_, rfl⟩
  obtain ⟨v, hv⟩ : ∃ v, v = F.rnd (F.rnd (1 - tp) * F.rnd (((2 ^ k : ℤ) : ℚ) * M.sqrt (F.rnd (3 * F.rnd (1 - |z|))))) := ⟨_, rfl⟩
  obtain ⟨⟨a1, a2, a3⟩, b1, b2, b3⟩ := cap_ranges F (by omega : k ≤ 29) (M.sqrt_sign _ hw0) hs2 w0 w1 hu hv
  rw [← hu, ← hv, a1, b1, hc _ a2 (by omega), Option.bind_some, hc _ b2 (by omega), Option.bind_some]
  obtain ⟨u', v', k1, k2, k3, k4, k5, k6, k7, k8, k9⟩ := cap_any F M hn hk13 hz hb w0 w1 hu hv rfl rfl
  generalize (if ⌊u⌋ ≥ 2 ^ k then 2 ^ k - 1 else ⌊u⌋) = jp at *
  generalize (if (if 0 ≤ v then ⌊v⌋ else 0) ≥ 2 ^ k then 2 ^ k - 1 else (if 0 ≤ v then ⌊v⌋ else 0)) = jm at *
  obtain ⟨s1, s2⟩ := cap_square (N := 2 ^ k) hn (by push_cast; rfl) g3 k1 k2 k3.1 k3.2 k4.1 k4.2 k5 k6 k7
  have hq : |(g : ℝ) + u' / (u' + v') - t| ≤ 45 / 10 ^ 15 := by
    rw [show (g : ℝ) + u' / (u' + v') - t = (u' / (u' + v') - tp) + (tp - (t - (g : ℤ))) by push_cast; ring]
    refine (abs_add_le _ _).trans ?_
    norm_num at *
    linarith
  have hq0 : 0 ≤ u' / (u' + v') := by positivity
  have hq1 : u' / (u' + v') < 1 := by rw [div_lt_one (by linarith)]; linarith
  have g4 : (g : ℝ) ≤ 3 := by exact_mod_cast (by omega : g ≤ 3)
  have hrr : 0 ≤ (u' + v') / ((2 ^ k : ℤ) : ℝ) ∧ (u' + v') / ((2 ^ k : ℤ) : ℝ) ≤ 1 := by
    have : (0 : ℝ) < ((2 ^ k : ℤ) : ℝ) := by exact_mod_cast (by omega : (0 : ℤ) < 2 ^ k)
    constructor
    · positivity
    · rw [div_le_one this]; exact k7
  generalize (u' + v') / ((2 ^ k : ℤ) : ℝ) = rr at *
  have hz1 : |1 - rr ^ 2 / 3| ≤ 1 := by
    rw [abs_le]; constructor <;> nlinarith [hrr.1, hrr.2]
  by_cases hpos : z ≥ 0
  · rw [if_pos hpos]
    have zr : (0 : ℝ) ≤ z := by exact_mod_cast hpos
    refine ⟨(2 ^ k - jm - 1).toNat, (2 ^ k - jp - 1).toNat, g, ?_, ?_, 1 - rr ^ 2 / 3, g + u' / (u' + v'), hz1, by positivity, by linarith, ?_, hq, s1⟩
    · rw [Int.toNat_of_nonneg (by omega), Int.toNat_of_nonneg (by omega)]; rfl
    · have := nat_face (k := k) (n := 2 ^ k) rfl (x := 2 ^ k - jm - 1) ⟨by omega, by omega⟩ (y := 2 ^ k - jp - 1) ⟨by omega, by omega⟩ (f := g) ⟨by omega, by omega⟩
      rwa [Int.toNat_natCast] at this
    · rw [abs_of_nonneg zr] at k8
      rw [← abs_neg]
      convert k8 using 2
      ring
  · rw [if_neg hpos]
    have zr : (z : ℝ) < 0 := by exact_mod_cast (not_le.1 hpos)
    refine ⟨jp.toNat, jm.toNat, g + 8, ?_, ?_, -(1 - rr ^ 2 / 3), g + u' / (u' + v'), by rw [abs_neg]; exact hz1, by positivity, by linarith, ?_, hq, s2⟩
    · rw [Int.toNat_of_nonneg (by omega), Int.toNat_of_nonneg (by omega)]; push_cast; rfl
    · have := nat_face (k := k) (n := 2 ^ k) rfl (x := jp) ⟨by omega, by omega⟩ (y := jm) ⟨by omega, by omega⟩ (f := ((g + 8 : ℕ) : ℤ)) ⟨by omega, by omega⟩
      rwa [Int.toNat_natCast] at this
    · rw [abs_of_neg zr] at k8
      convert k8 using 2
      ring

/-! ### The theorems -/

/-- **C193**: in `double`, with roundings and a root as accurate as the standard asks, for every `nside = 2^k` up to 8192, every height and every longitude of
at most 12 rad either way, `ang2pix_nest` returns the NESTED number of a pixel that contains a direction whose height is within `3e-14` and whose longitude is
within `6e-14` quarter turns of the given one.  In the belt the longitudes within `2^-39` quarter turns of a whole turn are left out: there the code fails
(`C67_nest_violated`). -/
theorem C193_nest (F : Fl64G) (M : Libm) {k : ℕ} (hk : k ≤ 13) {z phi : ℚ} (hz : |z| ≤ 1) (hphi : |phi| ≤ 12)
    (hlast : |z| ≤ 6004799503160661 / 2 ^ 53 → ∀ m : ℤ, 1 / 2 ^ 39 ≤ |(phi : ℝ) * (2 / Real.pi) - 4 * m|) :
    ∃ x y f p : ℕ, ang2pixNest (double F.toFl64 M.sqrt) (2 ^ k) z phi = some (p : ℤ) ∧ Nested (2 ^ k) x y f p ∧ OnFace (2 ^ k) x y f ∧
      ∃ z' t' : ℝ, InPixel (2 ^ k) x y f z' t' ∧ |z'| ≤ 1 ∧ 0 ≤ t' ∧ t' < 4 ∧ |z' - z| ≤ 3 / 10 ^ 14 ∧ ∃ m : ℤ, |t' - 4 * m - phi * (2 / Real.pi)| ≤ 6 / 10 ^ 14 := by
  have hk2 : (2 : ℤ) ^ k ≤ 2 ^ 13 := pow_le_z hk
  have hc : ∀ v : ℤ, 0 ≤ v → v ≤ 5 * 2 ^ k → signed 31 v = some v := fun v a b => by unfold signed; rw [if_pos (by omega)]
  obtain ⟨m0, hm0⟩ := quarter_near F.toFl64 M.sqrt hphi
  obtain ⟨t0, t1⟩ := quarter_double F.toFl64 M.sqrt phi
  suffices h : ∃ x y f : ℕ, ang2xyf (double F.toFl64 M.sqrt) (signed 31) (2 ^ k) z (-5) phi = some ((x : ℤ), (y : ℤ), (f : ℤ)) ∧ OnFace (2 ^ k) x y f ∧
      ∃ z' t' : ℝ, |z'| ≤ 1 ∧ 0 ≤ t' ∧ t' < 4 ∧ |z' - z| ≤ 22 / 10 ^ 15 ∧
        (∃ m : ℤ, |t' - 4 * m - ((quarter (double F.toFl64 M.sqrt) phi : ℚ) : ℝ)| ≤ 45 / 10 ^ 15) ∧ InPixel (2 ^ k) x y f z' t' by
    obtain ⟨x, y, f, e, hf, z', t', r1, r2, r3, r4, ⟨m, r5⟩, r6⟩ := h
    obtain ⟨p, e2, hp⟩ := xyf2nest_nested hk hf
    refine ⟨x, y, f, p, ?_, hp, hf, z', t', r6, r1, r2, r3, r4.trans (by norm_num), m - m0, ?_⟩
    · unfold ang2pixNest
      rw [e]
      simp only [Option.bind_eq_bind, Option.bind_some]
      rw [if_neg (cast_not_neg x y f), pow_toNat, Int.toNat_natCast, Int.toNat_natCast, Int.toNat_natCast, e2, Option.bind_some, Option.pure_def]
    · generalize ((quarter (double F.toFl64 M.sqrt) phi : ℚ) : ℝ) = q at *
      push_cast
      rw [show t' - 4 * ((m : ℝ) - m0) - phi * (2 / Real.pi) = (t' - 4 * m - q) + (q - (phi * (2 / Real.pi) - 4 * m0)) by ring]
      refine (abs_add_le _ _).trans ?_
      norm_num at r5 hm0 ⊢
      linarith
  by_cases hb : |z| ≤ 6004799503160661 / 2 ^ 53
  · have ht : quarter (double F.toFl64 M.sqrt) phi ≤ 4 - 1 / 2 ^ 40 := by
      by_contra hn
      push Not at hn
      have h1 := hlast hb (m0 + 1)
      have a : (4 : ℝ) - 1 / 2 ^ 40 < ((quarter (double F.toFl64 M.sqrt) phi : ℚ) : ℝ) := by
        have : ((4 - 1 / 2 ^ 40 : ℚ) : ℝ) < ((quarter (double F.toFl64 M.sqrt) phi : ℚ) : ℝ) := by exact_mod_cast hn
        push_cast at this; exact this
      have b : ((quarter (double F.toFl64 M.sqrt) phi : ℚ) : ℝ) ≤ 4 + 1 / 2 ^ 49 := by
        have : ((quarter (double F.toFl64 M.sqrt) phi : ℚ) : ℝ) ≤ ((4 + 1 / 2 ^ 49 : ℚ) : ℝ) := by exact_mod_cast t1
        push_cast at this; exact this
      generalize ((quarter (double F.toFl64 M.sqrt) phi : ℚ) : ℝ) = q at *
      obtain ⟨c1, c2⟩ := abs_le.1 hm0
      have : |(phi : ℝ) * (2 / Real.pi) - 4 * ((m0 + 1 : ℤ) : ℝ)| < 1 / 2 ^ 39 := by
        push_cast
        rw [abs_lt]
        norm_num at a b c1 c2 ⊢
        constructor <;> linarith
      linarith
    obtain ⟨x, y, f, e, hf, z', t', r1, r2, r3, r4, ⟨m, r5⟩, r6⟩ := belt_double F M.sqrt hk hc hb ht
    exact ⟨x, y, f, e, hf, z', t', r1, r2, r3, r4.trans (by norm_num), ⟨m, r5.trans (by norm_num)⟩, r6⟩
  · obtain ⟨x, y, f, e, hf, z', t', r1, r2, r3, r4, r5, r6⟩ := cap_double F.toFl64 M hk hc (phi := phi) hz hb
    exact ⟨x, y, f, e, hf, z', t', r1, r2, r3, r4, ⟨0, by rw [Int.cast_zero, mul_zero, sub_zero]; exact r5⟩, r6⟩

/-- **C193** for the pixel that `sat_skymap` prints (`nside` 256): for every declination and every right ascension of at most 12 rad either way, not within
`2^-39` quarter turns of 0 h unless well inside a cap, the printed number is that of a pixel that contains a direction whose height (the sine of the
declination) is within `4e-14` and whose longitude is within `6e-14` quarter turns of the position. -/
theorem C193_printed (F : Fl64G) (M : Libm) (hcos : ∀ x, |M.cos x| ≤ 1) {ra dec : ℚ} (hdec : |dec| ≤ piD / 2) (hra : |ra| ≤ 12)
    (hlast : (∀ m : ℤ, 1 / 2 ^ 39 ≤ |(ra : ℝ) * (2 / Real.pi) - 4 * m|) ∨ 2 / 3 + 1 / 10 ^ 14 ≤ |Real.sin dec|) :
    ∃ x y f p : ℕ, pixelD F.toFl64 M ra dec = some (p : ℤ) ∧ Nested 256 x y f p ∧ OnFace 256 x y f ∧
      ∃ z' t' : ℝ, InPixel 256 x y f z' t' ∧ |z'| ≤ 1 ∧ 0 ≤ t' ∧ t' < 4 ∧ |z' - Real.sin dec| ≤ 4 / 10 ^ 14 ∧ ∃ m : ℤ, |t' - 4 * m - ra * (2 / Real.pi)| ≤ 6 / 10 ^ 14 := by
  obtain ⟨d0, d1⟩ := abs_le.1 hdec
  have th0 : 0 ≤ F.rnd (piD / 2 - dec) := fl_nonneg F.toFl64 (by linarith)
  have th1 : F.rnd (piD / 2 - dec) ≤ piD := by
    have := fl_le F.toFl64 (x := piD / 2 - dec) 884279719003555 48 (by norm_num) (by norm_num) (by unfold piD at *; push_cast; linarith)
    unfold piD; push_cast at this; exact this
  have hth : |(F.rnd (piD / 2 - dec) : ℝ) - (Real.pi / 2 - dec)| ≤ 2 / 10 ^ 15 := by
    have hp := pi_close
    have hd : |(dec : ℝ)| ≤ ((piD / 2 : ℚ) : ℝ) := by simpa using abs_real hdec
    unfold piD at hp hd ⊢
    push_cast at hp hd
    obtain ⟨a1, a2⟩ := abs_le.1 hd
    refine rnd_real F.toFl64 (e := 1 / 10 ^ 15) (A := 4) ?_ ?_ (by norm_num)
    · push_cast
      rw [abs_le] at hp ⊢
      norm_num at hp ⊢
      constructor <;> linarith [hp.1, hp.2]
    · have := Real.pi_gt_d2
      have := Real.pi_lt_d2
      rw [abs_le]
      norm_num at *
      constructor <;> linarith
  have hzz : |(M.cos (F.rnd (piD / 2 - dec)) : ℝ) - Real.sin dec| ≤ 3 / 10 ^ 15 := by
    rw [← Real.cos_pi_div_two_sub]
    refine (cos_lib M hth).trans ?_
    norm_num
  unfold pixelD
  dsimp only
  rw [if_pos ⟨th0, th1⟩]
  obtain ⟨x, y, f, p, e, hp, hf, z', t', r1, r2, r3, r4, r5, r6⟩ := C193_nest F M (k := 8) (by norm_num) (hcos (F.rnd (piD / 2 - dec))) hra (fun h => by
    rcases hlast with hl | hl
    · exact hl
    · exfalso
      have h' : |(M.cos (F.rnd (piD / 2 - dec)) : ℝ)| ≤ ((6004799503160661 / 2 ^ 53 : ℚ) : ℝ) := by simpa using abs_real h
      push_cast at h'
      have := abs_sub_abs_le_abs_sub (Real.sin dec) (M.cos (F.rnd (piD / 2 - dec)) : ℝ)
      rw [abs_sub_comm] at hzz
      norm_num at *
      linarith)
  refine ⟨x, y, f, p, e, hp, hf, z', t', r1, r2, r3, r4, ?_, r6⟩
  refine (abs_sub_le _ (M.cos (F.rnd (piD / 2 - dec)) : ℝ) _).trans ?_
  norm_num at r5 hzz ⊢
  linarith

/-- Half a radian of longitude on the equator: the height found is within `3e-14` of the equator, the number is 285097. -/
example : ang2pixNest (double Fl64G.ieee.toFl64 id) 256 0 (1 / 2) = some 285097 ∧
    ∃ x y f p : ℕ, ang2pixNest (double Fl64G.ieee.toFl64 bestLib.sqrt) (2 ^ 8) 0 (1 / 2) = some (p : ℤ) ∧ Nested (2 ^ 8) x y f p ∧ OnFace (2 ^ 8) x y f ∧
      ∃ z' t' : ℝ, InPixel (2 ^ 8) x y f z' t' ∧ |z'| ≤ 1 ∧ 0 ≤ t' ∧ t' < 4 ∧ |z' - (0 : ℚ)| ≤ 3 / 10 ^ 14 ∧ ∃ m : ℤ, |t' - 4 * m - ((1 / 2 : ℚ) : ℝ) * (2 / Real.pi)| ≤ 6 / 10 ^ 14 := by
  refine ⟨by decide +kernel, C193_nest Fl64G.ieee bestLib (by norm_num) (by norm_num) (by rw [abs_of_pos (by norm_num)]; norm_num) fun _ m => ?_⟩
  have h : ((1 / 2 : ℚ) : ℝ) * (2 / Real.pi) = 1 / Real.pi := by push_cast; ring
  rw [h]
  have h1 : 1 / Real.pi < 1 / 3 := one_div_lt_one_div_of_lt (by norm_num) Real.pi_gt_three
  have h2 : 1 / 4 < 1 / Real.pi := one_div_lt_one_div_of_lt Real.pi_pos Real.pi_lt_four
  rcases le_or_gt m 0 with hm | hm
  · have : (m : ℝ) ≤ 0 := by exact_mod_cast hm
    rw [abs_of_pos (by linarith)]
    norm_num at h1 h2 ⊢
    linarith
  · have : (1 : ℝ) ≤ m := by exact_mod_cast hm
    rw [abs_of_neg (by linarith)]
    norm_num at h1 h2 ⊢
    linarith

/-- A direction in the northern cap, at any order: no condition on the longitude. -/
example (phi : ℚ) (h : |phi| ≤ 12) : ∃ x y f p : ℕ, ang2pixNest (double Fl64G.ieee.toFl64 bestLib.sqrt) (2 ^ 13) (9 / 10) phi = some (p : ℤ) ∧ Nested (2 ^ 13) x y f p ∧
    ∃ z' t' : ℝ, InPixel (2 ^ 13) x y f z' t' ∧ |z' - 9 / 10| ≤ 3 / 10 ^ 14 := by
  obtain ⟨x, y, f, p, e, hp, _, z', t', r1, _, _, _, r5, _⟩ := C193_nest Fl64G.ieee bestLib (k := 13) (le_refl _) (z := 9 / 10) (by rw [abs_of_pos (by norm_num)]; norm_num) h
    (fun h => absurd h (by rw [abs_of_pos (by norm_num)]; norm_num))
  exact ⟨x, y, f, p, e, hp, z', t', r1, by push_cast at r5; exact r5⟩

end SatSky.Props
