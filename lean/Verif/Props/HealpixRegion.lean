import Verif.Lemmas.HealpixEval
import Verif.Spec.HealpixRegion
import Verif.Props.HealpixAng

/-! C164, C165: the pixel of a direction contains it, and the pixels of finer divisions lie in those of coarser ones. -/

namespace SatSky.Props

open SatSky SatSky.Healpix SatSky.Spec.Healpix

/-! ### The pixel contains the direction -/

theorem face_north {g : ℕ} (h : g < 4) : faceX g = g + 1 / 2 ∧ faceY g = 1 / 2 := by
  unfold faceX faceY; rw [if_pos h, if_pos h]; exact ⟨rfl, rfl⟩

theorem face_equator {g : ℕ} (h : g < 4) : faceX (g + 4) = g ∧ faceY (g + 4) = 0 := by
  unfold faceX faceY; rw [if_neg (by omega), if_pos (by omega), if_neg (by omega), if_pos (by omega)]; push_cast; exact ⟨by ring, rfl⟩

theorem face_south (g : ℕ) : faceX (g + 8) = g + 1 / 2 ∧ faceY (g + 8) = -(1 / 2) := by
  unfold faceX faceY; rw [if_neg (by omega), if_neg (by omega), if_neg (by omega), if_neg (by omega)]; push_cast; exact ⟨by ring, rfl⟩

/-- From integer parts to squares. -/
theorem square_of {n : ℤ} {N : ℕ} (hN : n = N) {x y : ℤ} (hx : 0 ≤ x) (hy : 0 ≤ y) {f : ℕ} {X Y U V : ℝ}
    (hU : n * ((X - faceX f) + (Y - faceY f) + 1 / 2) = U) (hV : n * ((Y - faceY f) - (X - faceX f) + 1 / 2) = V)
    (h1 : x ≤ U) (h2 : U ≤ x + 1) (h3 : y ≤ V) (h4 : V ≤ y + 1) : InSquare N x.toNat y.toNat f X Y := by
  have ex : ((x.toNat : ℕ) : ℝ) = x := by
    have : ((x.toNat : ℤ) : ℝ) = x := by rw [Int.toNat_of_nonneg hx]
    exact_mod_cast this
  have ey : ((y.toNat : ℕ) : ℝ) = y := by
    have : ((y.toNat : ℤ) : ℝ) = y := by rw [Int.toNat_of_nonneg hy]
    exact_mod_cast this
  have en : (N : ℝ) = n := by rw [hN]; push_cast; rfl
  unfold InSquare
  rw [en, hU, hV, ex, ey]
  exact ⟨⟨h1, h2⟩, h3, h4⟩

variable {c : ℤ → Option ℤ} {n : ℤ} {N k : ℕ} {z s phi t : ℝ}

/-- In the belt. -/
theorem region_belt (hn : 1 ≤ n) (hN : n = N) (hb : |z| ≤ 2 / 3) (t0 : 0 ≤ t)
    (t1 : t < 4) : ∃ x y f : ℕ, place n z t = ((x : ℤ), (y : ℤ), (f : ℤ)) ∧ OnFace N x y f ∧ InPixel N x y f z t := by
  obtain ⟨f0, f1, f2, f3, f4, f5⟩ := belt_faces hn t0 t1 hb
  unfold place
  rw [if_pos hb]
  have hX : planeX z t = t := by unfold planeX; rw [if_pos hb]
  have hY : planeY z = 3 / 4 * z := by unfold planeY; rw [if_pos hb]
  unfold InPixel
  rw [hX, hY]
  have hA := Int.floor_le ((n : ℝ) * (1 / 2 + t) - n * (z * (3 / 4)))
  have hA' := Int.lt_floor_add_one ((n : ℝ) * (1 / 2 + t) - n * (z * (3 / 4)))
  have hB := Int.floor_le ((n : ℝ) * (1 / 2 + t) + n * (z * (3 / 4)))
  have hB' := Int.lt_floor_add_one ((n : ℝ) * (1 / 2 + t) + n * (z * (3 / 4)))
  generalize ⌊(n : ℝ) * (1 / 2 + t) - (n : ℝ) * (z * (3 / 4))⌋ = jp at *
  generalize ⌊(n : ℝ) * (1 / 2 + t) + (n : ℝ) * (z * (3 / 4))⌋ = jm at *
  have m1 := Int.emod_nonneg jm (show n ≠ 0 by omega)
  have m2 := Int.emod_lt_of_pos jm (show 0 < n by omega)
  have m3 := Int.emod_nonneg jp (show n ≠ 0 by omega)
  have m4 := Int.emod_lt_of_pos jp (show 0 < n by omega)
  have dm : (jm : ℝ) = n * (jm / n : ℤ) + (jm % n : ℤ) := by exact_mod_cast (Int.mul_ediv_add_emod jm n).symm
  have dp : (jp : ℝ) = n * (jp / n : ℤ) + (jp % n : ℤ) := by exact_mod_cast (Int.mul_ediv_add_emod jp n).symm
  generalize jm / n = im at *
  generalize jp / n = ip at *
  generalize hx : jm % n = x at *
  generalize hy : jp % n = w at *
  have cy : ((n - w - 1 : ℤ) : ℝ) = n - w - 1 := by push_cast; ring
  have key : ∀ f : ℕ, f < 12 → ((f : ℤ) = beltFace ip im) → (∃ j : ℝ, (j = 0 ∨ j = 4) ∧ t - j - faceX f + (3 / 4 * z - faceY f) + 1 / 2 = 1 / 2 + t + z * (3 / 4) - im ∧
      3 / 4 * z - faceY f - (t - j - faceX f) + 1 / 2 = 1 - (1 / 2 + t - z * (3 / 4) - ip)) →
      ∃ x' y' f' : ℕ, (x, n - w - 1, beltFace ip im) = ((x' : ℤ), (y' : ℤ), (f' : ℤ)) ∧ OnFace N x' y' f' ∧
        (InSquare N x' y' f' t (3 / 4 * z) ∨ InSquare N x' y' f' (t - 4) (3 / 4 * z)) := by
    rintro f hf hbf ⟨j, hj, e1, e2⟩
    refine ⟨x.toNat, (n - w - 1).toNat, f, ?_, ⟨by omega, by omega, hf⟩, ?_⟩
    · rw [Int.toNat_of_nonneg m1, Int.toNat_of_nonneg (by omega), hbf]
    · have hsq : InSquare N x.toNat (n - w - 1).toNat f (t - j) (3 / 4 * z) := by
        refine square_of hN m1 (by omega) rfl rfl ?_ ?_ ?_ ?_
        · rw [e1]; nlinarith
        · rw [e1]; nlinarith
        · rw [e2, cy]; nlinarith
        · rw [e2, cy]; nlinarith
      rcases hj with rfl | rfl
      · left; rwa [sub_zero] at hsq
      · right; exact hsq
  obtain ⟨a, rfl⟩ : ∃ a : ℕ, ip = a := ⟨ip.toNat, by omega⟩
  obtain ⟨b, rfl⟩ : ∃ b : ℕ, im = b := ⟨im.toNat, by omega⟩
  rcases lt_trichotomy (a : ℤ) b with h | h | h
  · have hb1 : b = a + 1 := by omega
    obtain ⟨g1, g2⟩ := face_north (show a < 4 by omega)
    refine key a (by omega) ?_ ⟨0, Or.inl rfl, ?_, ?_⟩
    · unfold beltFace; rw [if_neg (by omega), if_pos h]
    · rw [g1, g2, hb1]; push_cast; ring
    · rw [g1, g2]; push_cast; ring
  · have hab : a = b := by omega
    subst hab
    by_cases h4 : a = 4
    · subst h4
      obtain ⟨g1, g2⟩ := face_equator (show 0 < 4 by omega)
      rw [zero_add] at g1 g2
      refine key 4 (by omega) (by decide) ⟨4, Or.inr rfl, ?_, ?_⟩
      · rw [g1, g2]; push_cast; ring
      · rw [g1, g2]; push_cast; ring
    · have ha : a < 4 := by omega
      obtain ⟨g1, g2⟩ := face_equator ha
      refine key (a + 4) (by omega) ?_ ⟨0, Or.inl rfl, ?_, ?_⟩
      · interval_cases a <;> decide
      · rw [g1, g2]; push_cast; ring
      · rw [g1, g2]; push_cast; ring
  · have hb1 : a = b + 1 := by omega
    obtain ⟨g1, g2⟩ := face_south b
    refine key (b + 8) (by omega) ?_ ⟨0, Or.inl rfl, ?_, ?_⟩
    · unfold beltFace; rw [if_neg (by omega), if_neg (by omega)]; push_cast; rfl
    · rw [g1, g2]; push_cast; ring
    · rw [g1, g2, hb1]; push_cast; ring

/-- In the caps. -/
theorem region_cap (hn : 1 ≤ n) (hN : n = N) (hb : 2 / 3 < |z|) (t0 : 0 ≤ t) (t1 : t < 4) :
    ∃ x y f : ℕ, place n z t = ((x : ℤ), (y : ℤ), (f : ℤ)) ∧ OnFace N x y f ∧ InPixel N x y f z t := by
  have hn' : (1 : ℝ) ≤ n := by exact_mod_cast hn
  unfold place
  rw [if_neg (not_le.mpr hb)]
  obtain ⟨r0, r1⟩ := cap_root hb
  have n0 : 0 ≤ ⌊t⌋ := Int.floor_nonneg.mpr t0
  have n1 : ⌊t⌋ < 4 := Int.floor_lt.mpr (by push_cast; exact t1)
  have tp0 : 0 ≤ t - ⌊t⌋ := by linarith [Int.floor_le t]
  have tp1 : t - ⌊t⌋ < 1 := by linarith [Int.lt_floor_add_one t]
  have hX : planeX z t = ⌊t⌋ + 1 / 2 + (t - ⌊t⌋ - 1 / 2) * Real.sqrt (3 * (1 - |z|)) := by unfold planeX; rw [if_neg (not_le.mpr hb)]
  have hY : planeY z = if 0 ≤ z then 1 - Real.sqrt (3 * (1 - |z|)) / 2 else -(1 - Real.sqrt (3 * (1 - |z|)) / 2) := by
    unfold planeY; rw [if_neg (not_le.mpr hb)]
  unfold InPixel
  rw [hX, hY]
  generalize Real.sqrt (3 * (1 - |z|)) = r at *
  obtain ⟨g, hg⟩ : ∃ g : ℕ, ⌊t⌋ = g := ⟨⌊t⌋.toNat, by omega⟩
  have hgr : ((⌊t⌋ : ℤ) : ℝ) = (g : ℝ) := by rw [hg]; push_cast; rfl
  rw [hgr] at tp0 tp1 ⊢
  rw [hg]
  obtain ⟨a0, b0, ab⟩ := cap_floor hn r0 r1 tp0 tp1
  generalize htp : t - (g : ℝ) = tp at *
  have hA := Int.floor_le (tp * ((n : ℝ) * r))
  have hA' := Int.lt_floor_add_one (tp * ((n : ℝ) * r))
  have hB := Int.floor_le ((1 - tp) * ((n : ℝ) * r))
  have hB' := Int.lt_floor_add_one ((1 - tp) * ((n : ℝ) * r))
  generalize ⌊tp * ((n : ℝ) * r)⌋ = jp at *
  generalize ⌊(1 - tp) * ((n : ℝ) * r)⌋ = jm at *
  by_cases hpos : z ≥ 0
  · rw [if_pos hpos, if_pos hpos]
    obtain ⟨g1, g2⟩ := face_north (show g < 4 by omega)
    refine ⟨(n - jm - 1).toNat, (n - jp - 1).toNat, g, ?_, ⟨by omega, by omega, by omega⟩, Or.inl ?_⟩
    · rw [Int.toNat_of_nonneg (by omega), Int.toNat_of_nonneg (by omega)]
    · have c1 : ((n - jm - 1 : ℤ) : ℝ) = n - jm - 1 := by push_cast; ring
      have c2 : ((n - jp - 1 : ℤ) : ℝ) = n - jp - 1 := by push_cast; ring
      refine square_of hN (by omega) (by omega) (U := n - (1 - tp) * (n * r)) (V := n - tp * (n * r)) ?_ ?_ ?_ ?_ ?_ ?_
      · rw [g1, g2]; ring
      · rw [g1, g2]; ring
      · rw [c1]; linarith
      · rw [c1]; linarith
      · rw [c2]; linarith
      · rw [c2]; linarith
  · rw [if_neg hpos, if_neg hpos]
    obtain ⟨g1, g2⟩ := face_south g
    refine ⟨jp.toNat, jm.toNat, g + 8, ?_, ⟨by omega, by omega, by omega⟩, Or.inl ?_⟩
    · rw [Int.toNat_of_nonneg a0, Int.toNat_of_nonneg b0]; push_cast; rfl
    · refine square_of hN a0 b0 (U := tp * (n * r)) (V := (1 - tp) * (n * r)) ?_ ?_ hA hA'.le hB hB'.le
      · rw [g1, g2]; ring
      · rw [g1, g2]; ring

theorem region_place (hn : 1 ≤ n) (hN : n = N) (t0 : 0 ≤ t) (t1 : t < 4) :
    ∃ x y f : ℕ, place n z t = ((x : ℤ), (y : ℤ), (f : ℤ)) ∧ OnFace N x y f ∧ InPixel N x y f z t := by
  rcases le_or_gt |z| (2 / 3) with hb | hb
  · exact region_belt hn hN hb t0 t1
  · exact region_cap hn hN hb t0 t1

theorem region_xyf (hnk : n = 2 ^ k) (hc : ∀ v, 0 ≤ v → v ≤ 5 * n → c v = some v) (hz : |z| ≤ 1) (hs : s = -5 ∨ s = Real.sqrt (1 - |z| ^ 2))
    (ht : quarter exact phi = t) (t0 : 0 ≤ t) (t1 : t < 4) :
    ∃ x y f : ℕ, ang2xyf exact c n z s phi = some ((x : ℤ), (y : ℤ), (f : ℤ)) ∧ OnFace (2 ^ k) x y f ∧ InPixel (2 ^ k) x y f z t := by
  have hn : 1 ≤ n := by rw [hnk]; exact one_le_pow₀ (by norm_num)
  rw [nest_place hnk hc hz hs ht t0 t1]
  simp only [Option.some.injEq]
  exact region_place hn (by rw [hnk]; push_cast; rfl) t0 t1

theorem signed_ok {k : ℕ} {b : ℕ} (hk : 5 * 2 ^ k < 2 ^ b) : ∀ v, 0 ≤ v → v ≤ 5 * (2 : ℤ) ^ k → signed b v = some v := fun v h0 h1 => by
  have : (5 * 2 ^ k : ℤ) < 2 ^ b := by exact_mod_cast hk
  unfold signed
  rw [if_pos ⟨by omega, by omega⟩]

/-- **C164**, 32 bit: the pixel of a direction, at whatever turn its longitude is given, contains it. -/
theorem C164_nest {k : ℕ} (hk : k ≤ 13) {theta t : ℝ} (h0 : 0 ≤ theta) (h1 : theta ≤ Real.pi) (t0 : 0 ≤ t) (t1 : t < 4) (m : ℤ) :
    ∃ x y f p : ℕ, ang2pix_nest (2 ^ k) theta ((t + 4 * m) * (Real.pi / 2)) = some (p : ℤ) ∧ Nested (2 ^ k) x y f p ∧ OnFace (2 ^ k) x y f ∧
      InPixel (2 ^ k) x y f (Real.cos theta) t := by
  have hk2 : 2 ^ k ≤ 2 ^ 13 := Nat.pow_le_pow_right (by omega) hk
  obtain ⟨x, y, f, e, hf, hr⟩ := region_xyf (n := 2 ^ k) (s := -5) rfl (signed_ok (b := 31) (by omega)) (Real.abs_cos_le_one theta) (Or.inl rfl)
    (quarter_turns t0 t1 m) t0 t1
  obtain ⟨p, e2, hp⟩ := xyf2nest_nested hk hf
  refine ⟨x, y, f, p, ?_, hp, hf, hr⟩
  unfold ang2pix_nest ang2pixNest
  rw [if_pos ⟨h0, h1⟩, e]
  simp only [Option.bind_eq_bind, Option.bind_some]
  rw [if_neg (cast_not_neg x y f), pow_toNat, Int.toNat_natCast, Int.toNat_natCast, Int.toNat_natCast, e2, Option.bind_some, Option.pure_def]

/-- **C164**, 64 bit. -/
theorem C164_nest64 {k : ℕ} (hk : k ≤ 29) {theta t : ℝ} (h0 : 0 ≤ theta) (h1 : theta ≤ Real.pi) (t0 : 0 ≤ t) (t1 : t < 4) (m : ℤ) :
    ∃ x y f p : ℕ, ang2pix_nest64 (2 ^ k) theta ((t + 4 * m) * (Real.pi / 2)) = some (p : ℤ) ∧ Nested (2 ^ k) x y f p ∧ OnFace (2 ^ k) x y f ∧
      InPixel (2 ^ k) x y f (Real.cos theta) t := by
  have hk2 : 2 ^ k ≤ 2 ^ 29 := Nat.pow_le_pow_right (by omega) hk
  obtain ⟨x, y, f, e, hf, hr⟩ := region_xyf (n := 2 ^ k) (s := sth theta) rfl (signed_ok (b := 63) (by omega)) (Real.abs_cos_le_one theta) (sth_ok h0 h1)
    (quarter_turns t0 t1 m) t0 t1
  obtain ⟨p, e2, hp⟩ := xyf2nest64_nested hk hf
  refine ⟨x, y, f, p, ?_, hp, hf, hr⟩
  unfold ang2pix_nest64 ang2pixNest64
  rw [if_pos ⟨h0, h1⟩, e]
  simp only [Option.bind_eq_bind, Option.bind_some]
  rw [if_neg (cast_not_neg x y f), pow_toNat, Int.toNat_natCast, Int.toNat_natCast, Int.toNat_natCast, e2, Option.bind_some, Option.pure_def]

/-! ### Finer divisions -/

theorem half_floor (a : ℝ) : ⌊2 * a⌋ / 2 = ⌊a⌋ := by
  have h1 := Int.floor_le (2 * a)
  have h2 := Int.lt_floor_add_one (2 * a)
  have h3 := Int.floor_le a
  have h4 := Int.lt_floor_add_one a
  have a1 : ⌊2 * a⌋ < 2 * ⌊a⌋ + 2 := by
    have : (⌊2 * a⌋ : ℝ) < 2 * ⌊a⌋ + 2 := by linarith
    exact_mod_cast this
  have a2 : 2 * ⌊a⌋ < ⌊2 * a⌋ + 1 := by
    have : 2 * (⌊a⌋ : ℝ) < ⌊2 * a⌋ + 1 := by linarith
    exact_mod_cast this
  omega

theorem half_mod {n : ℤ} (hn : 0 < n) (a : ℤ) : a % (2 * n) / 2 = a / 2 % n := by
  have h0 := Int.emod_nonneg (a / 2) hn.ne'
  have h1 := Int.emod_lt_of_pos (a / 2) hn
  have h2 := Int.mul_ediv_add_emod (a / 2) n
  have h3 : a = 2 * (a / 2 % n) + a % 2 + 2 * n * (a / 2 / n) := by
    have := Int.mul_ediv_add_emod a 2
    linear_combination 2 * (-h2) - this
  have h4 : a % (2 * n) = 2 * (a / 2 % n) + a % 2 := by
    conv_lhs => rw [h3]
    rw [Int.add_mul_emod_self_left, Int.emod_eq_of_lt (by omega) (by omega)]
  omega

theorem half_div {n : ℤ} (a : ℤ) : a / (2 * n) = a / 2 / n := (Int.ediv_ediv_of_nonneg (by norm_num)).symm

/-- One step of the division. -/
theorem finer_xyf (hnk : n = 2 ^ k) (hc : ∀ v, 0 ≤ v → v ≤ 10 * n → c v = some v) {c' : ℤ → Option ℤ} (hc' : ∀ v, 0 ≤ v → v ≤ 10 * n → c' v = some v)
    (hz : |z| ≤ 1) (hs : s = -5 ∨ s = Real.sqrt (1 - |z| ^ 2))
    (ht : quarter exact phi = t) (t0 : 0 ≤ t) (t1 : t < 4) {x y f x' y' f' : ℤ} (h1 : ang2xyf exact c n z s phi = some (x, y, f))
    (h2 : ang2xyf exact c' (2 * n) z s phi = some (x', y', f')) : x' / 2 = x ∧ y' / 2 = y ∧ f' = f := by
  have hn : 1 ≤ n := by rw [hnk]; exact one_le_pow₀ (by norm_num)
  have hn2 : (2 * n : ℤ) = 2 ^ (k + 1) := by rw [hnk]; ring
  have c2 : ((2 * n : ℤ) : ℝ) = 2 * (n : ℝ) := by push_cast; ring
  rcases le_or_gt |z| (2 / 3) with hb | hb
  · rw [nest_belt hnk (fun v a b => hc v a (by omega)) hb ht t0 t1] at h1
    rw [nest_belt hn2 (fun v a b => hc' v a (by omega)) hb ht t0 t1, c2,
      show 2 * (n : ℝ) * (1 / 2 + t) + 2 * n * (z * (3 / 4)) = 2 * (n * (1 / 2 + t) + n * (z * (3 / 4))) by ring,
      show 2 * (n : ℝ) * (1 / 2 + t) - 2 * n * (z * (3 / 4)) = 2 * (n * (1 / 2 + t) - n * (z * (3 / 4))) by ring] at h2
    have ha := half_floor ((n : ℝ) * (1 / 2 + t) + n * (z * (3 / 4)))
    have hb := half_floor ((n : ℝ) * (1 / 2 + t) - n * (z * (3 / 4)))
    generalize ⌊2 * ((n : ℝ) * (1 / 2 + t) + n * (z * (3 / 4)))⌋ = jm' at *
    generalize ⌊2 * ((n : ℝ) * (1 / 2 + t) - n * (z * (3 / 4)))⌋ = jp' at *
    rw [← ha, ← hb] at h1
    injection h1 with h1
    injection h2 with h2
    simp only [Prod.mk.injEq] at h1 h2
    obtain ⟨e1, e2, e3⟩ := h1
    obtain ⟨e4, e5, e6⟩ := h2
    have q1 := half_mod (by omega : 0 < n) jm'
    have q2 := half_mod (by omega : 0 < n) jp'
    rw [half_div, half_div] at e6
    refine ⟨by omega, by omega, by rw [← e6, e3]⟩
  · rw [nest_cap hn (fun v a b => hc v a (by omega)) hz hb hs ht t0 t1] at h1
    rw [nest_cap (by omega) (fun v a b => hc' v a (by omega)) hz hb hs ht t0 t1, c2,
      show (1 - (t - ⌊t⌋)) * (2 * (n : ℝ) * Real.sqrt (3 * (1 - |z|))) = 2 * ((1 - (t - ⌊t⌋)) * (n * Real.sqrt (3 * (1 - |z|)))) by ring,
      show (t - ⌊t⌋) * (2 * (n : ℝ) * Real.sqrt (3 * (1 - |z|))) = 2 * ((t - ⌊t⌋) * (n * Real.sqrt (3 * (1 - |z|)))) by ring] at h2
    have ha := half_floor ((1 - (t - ⌊t⌋)) * (n * Real.sqrt (3 * (1 - |z|))))
    have hb := half_floor ((t - ⌊t⌋) * (n * Real.sqrt (3 * (1 - |z|))))
    generalize ⌊2 * ((1 - (t - ⌊t⌋)) * (n * Real.sqrt (3 * (1 - |z|))))⌋ = jm' at *
    generalize ⌊2 * ((t - ⌊t⌋) * (n * Real.sqrt (3 * (1 - |z|))))⌋ = jp' at *
    rw [← ha, ← hb] at h1
    injection h1 with h1
    injection h2 with h2
    split_ifs at h1 h2 <;>
    · simp only [Prod.mk.injEq] at h1 h2
      obtain ⟨e1, e2, e3⟩ := h1
      obtain ⟨e4, e5, e6⟩ := h2
      refine ⟨by omega, by omega, by omega⟩

theorem interleaved_quarter {x y m : ℕ} (h : Interleaved x y m) : Interleaved (x / 2) (y / 2) (m / 4) := fun i => by
  have h1 := h (i + 1)
  have e4 : m / 4 = m / 2 ^ 2 := by norm_num
  have ex : x / 2 = x / 2 ^ 1 := by norm_num
  have ey : y / 2 = y / 2 ^ 1 := by norm_num
  rw [e4, ex, ey, Nat.testBit_div_two_pow, Nat.testBit_div_two_pow, Nat.testBit_div_two_pow, Nat.testBit_div_two_pow]
  exact h1

theorem nested_quarter {n x y f p : ℕ} (h : Nested (2 * n) x y f p) : Nested n (x / 2) (y / 2) f (p / 4) := by
  obtain ⟨m, h1, h2, h3⟩ := h
  refine ⟨m / 4, interleaved_quarter h1, ?_, ?_⟩
  · rw [Nat.div_lt_iff_lt_mul (by norm_num)]; nlinarith
  · rw [h3, show f * (2 * n * (2 * n)) + m = m + 4 * (f * (n * n)) by ring, Nat.add_mul_div_left _ _ (by norm_num)]; ring

theorem nested_unique {n x y f p q : ℕ} (h1 : Nested n x y f p) (h2 : Nested n x y f q) : p = q := by
  obtain ⟨a, i1, -, e1⟩ := h1
  obtain ⟨b, i2, -, e2⟩ := h2
  have : a = b := Nat.eq_of_testBit_eq fun i => by
    rcases Nat.even_or_odd' i with ⟨j, rfl | rfl⟩
    · rw [(i1 j).1, (i2 j).1]
    · rw [(i1 j).2, (i2 j).2]
  rw [e1, e2, this]

/-- What `ang2pix_nest` gives, through the coordinates on the face. -/
theorem nest_through {k : ℕ} (hk : k ≤ 13) {theta phi : ℝ} (h0 : 0 ≤ theta) (h1 : theta ≤ Real.pi) :
    ∃ x y f p : ℕ, ang2xyf exact (signed 31) (2 ^ k) (Real.cos theta) (-5) phi = some ((x : ℤ), (y : ℤ), (f : ℤ)) ∧
      ang2pix_nest (2 ^ k) theta phi = some (p : ℤ) ∧ Nested (2 ^ k) x y f p ∧ OnFace (2 ^ k) x y f := by
  have hk2 : 2 ^ k ≤ 2 ^ 13 := Nat.pow_le_pow_right (by omega) hk
  obtain ⟨t0, t1⟩ := quarter_range phi
  obtain ⟨x, y, f, e, hf, -⟩ := region_xyf (n := 2 ^ k) (s := -5) rfl (signed_ok (b := 31) (by omega)) (Real.abs_cos_le_one theta) (Or.inl rfl) rfl t0 t1
  obtain ⟨p, e2, hp⟩ := xyf2nest_nested hk hf
  refine ⟨x, y, f, p, e, ?_, hp, hf⟩
  unfold ang2pix_nest ang2pixNest
  rw [if_pos ⟨h0, h1⟩, e]
  simp only [Option.bind_eq_bind, Option.bind_some]
  rw [if_neg (cast_not_neg x y f), pow_toNat, Int.toNat_natCast, Int.toNat_natCast, Int.toNat_natCast, e2, Option.bind_some, Option.pure_def]

theorem nest_through64 {k : ℕ} (hk : k ≤ 29) {theta phi : ℝ} (h0 : 0 ≤ theta) (h1 : theta ≤ Real.pi) :
    ∃ x y f p : ℕ, ang2xyf exact (signed 63) (2 ^ k) (Real.cos theta) (sth theta) phi = some ((x : ℤ), (y : ℤ), (f : ℤ)) ∧
      ang2pix_nest64 (2 ^ k) theta phi = some (p : ℤ) ∧ Nested (2 ^ k) x y f p ∧ OnFace (2 ^ k) x y f := by
  have hk2 : 2 ^ k ≤ 2 ^ 29 := Nat.pow_le_pow_right (by omega) hk
  obtain ⟨t0, t1⟩ := quarter_range phi
  obtain ⟨x, y, f, e, hf, -⟩ := region_xyf (n := 2 ^ k) (s := sth theta) rfl (signed_ok (b := 63) (by omega)) (Real.abs_cos_le_one theta) (sth_ok h0 h1) rfl t0 t1
  obtain ⟨p, e2, hp⟩ := xyf2nest64_nested hk hf
  refine ⟨x, y, f, p, e, ?_, hp, hf⟩
  unfold ang2pix_nest64 ang2pixNest64
  rw [if_pos ⟨h0, h1⟩, e]
  simp only [Option.bind_eq_bind, Option.bind_some]
  rw [if_neg (cast_not_neg x y f), pow_toNat, Int.toNat_natCast, Int.toNat_natCast, Int.toNat_natCast, e2, Option.bind_some, Option.pure_def]

theorem nested_int_quarter {n x y f p x' y' p' : ℕ} (h : Nested n x y f p) (h' : Nested (2 * n) x' y' f p') (hx : (x' : ℤ) / 2 = x) (hy : (y' : ℤ) / 2 = y) :
    (p' : ℤ) / 4 = p := by
  have ex : x' / 2 = x := by exact_mod_cast hx
  have ey : y' / 2 = y := by exact_mod_cast hy
  have h2 := nested_quarter h'
  rw [ex, ey] at h2
  exact_mod_cast nested_unique h2 h

/-- The pixel of a direction at the next finer division is one of the four parts of its pixel. -/
theorem finer_step {k : ℕ} (hk : k + 1 ≤ 13) {theta : ℝ} (phi : ℝ) (h0 : 0 ≤ theta) (h1 : theta ≤ Real.pi) :
    ∃ p q : ℤ, ang2pix_nest (2 ^ k) theta phi = some p ∧ ang2pix_nest (2 ^ (k + 1)) theta phi = some q ∧ q / 4 = p := by
  obtain ⟨x, y, f, p, e, ep, hp, hf⟩ := nest_through (k := k) (phi := phi) (by omega) h0 h1
  obtain ⟨x', y', f', p', e', ep', hp', hf'⟩ := nest_through (phi := phi) hk h0 h1
  have hk2 : 2 ^ (k + 1) ≤ 2 ^ 13 := Nat.pow_le_pow_right (by omega) hk
  have hc : ∀ v, 0 ≤ v → v ≤ 10 * (2 : ℤ) ^ k → signed 31 v = some v := fun v a b =>
    signed_ok (k := k + 1) (b := 31) (by omega) v a (by rw [pow_succ]; linarith)
  obtain ⟨t0, t1⟩ := quarter_range phi
  rw [show (2 : ℤ) ^ (k + 1) = 2 * 2 ^ k by ring] at e'
  obtain ⟨a, b, d⟩ := finer_xyf rfl hc hc (Real.abs_cos_le_one theta) (Or.inl rfl) rfl t0 t1 e e'
  have hff : f' = f := by exact_mod_cast d
  subst hff
  exact ⟨p, p', ep, ep', nested_int_quarter hp (by rw [show 2 * 2 ^ k = 2 ^ (k + 1) by ring]; exact hp') a b⟩

theorem finer_step64 {k : ℕ} (hk : k + 1 ≤ 29) {theta : ℝ} (phi : ℝ) (h0 : 0 ≤ theta) (h1 : theta ≤ Real.pi) :
    ∃ p q : ℤ, ang2pix_nest64 (2 ^ k) theta phi = some p ∧ ang2pix_nest64 (2 ^ (k + 1)) theta phi = some q ∧ q / 4 = p := by
  obtain ⟨x, y, f, p, e, ep, hp, hf⟩ := nest_through64 (k := k) (phi := phi) (by omega) h0 h1
  obtain ⟨x', y', f', p', e', ep', hp', hf'⟩ := nest_through64 (phi := phi) hk h0 h1
  have hk2 : 2 ^ (k + 1) ≤ 2 ^ 29 := Nat.pow_le_pow_right (by omega) hk
  have hc : ∀ v, 0 ≤ v → v ≤ 10 * (2 : ℤ) ^ k → signed 63 v = some v := fun v a b =>
    signed_ok (k := k + 1) (b := 63) (by omega) v a (by rw [pow_succ]; linarith)
  obtain ⟨t0, t1⟩ := quarter_range phi
  rw [show (2 : ℤ) ^ (k + 1) = 2 * 2 ^ k by ring] at e'
  obtain ⟨a, b, d⟩ := finer_xyf rfl hc hc (Real.abs_cos_le_one theta) (sth_ok h0 h1) rfl t0 t1 e e'
  have hff : f' = f := by exact_mod_cast d
  subst hff
  exact ⟨p, p', ep, ep', nested_int_quarter hp (by rw [show 2 * 2 ^ k = 2 ^ (k + 1) by ring]; exact hp') a b⟩

/-- **C165**, 32 bit: the pixel of a direction at `nside = 2^k` is found from that at `nside = 2^l`, `k ≤ l`, by dividing its number by `4^(l-k)`. -/
theorem C165_nest {k l : ℕ} (hkl : k ≤ l) (hl : l ≤ 13) {theta : ℝ} (phi : ℝ) (h0 : 0 ≤ theta) (h1 : theta ≤ Real.pi) :
    ∃ p q : ℤ, ang2pix_nest (2 ^ k) theta phi = some p ∧ ang2pix_nest (2 ^ l) theta phi = some q ∧ q / 4 ^ (l - k) = p := by
  induction l, hkl using Nat.le_induction with
  | base =>
    obtain ⟨p, e, -⟩ := C44_nest hl h0 h1 phi
    exact ⟨p, p, e, e, by simp⟩
  | succ l hkl ih =>
    obtain ⟨p, q, ep, eq, h⟩ := ih (by omega)
    obtain ⟨q', r, eq', er, h'⟩ := finer_step hl phi h0 h1
    rw [eq] at eq'
    obtain rfl := Option.some.inj eq'
    refine ⟨p, r, ep, er, ?_⟩
    rw [show l + 1 - k = (l - k) + 1 by omega, pow_succ', ← Int.ediv_ediv_of_nonneg (by norm_num), h', h]

/-- **C165**, 64 bit. -/
theorem C165_nest64 {k l : ℕ} (hkl : k ≤ l) (hl : l ≤ 29) {theta : ℝ} (phi : ℝ) (h0 : 0 ≤ theta) (h1 : theta ≤ Real.pi) :
    ∃ p q : ℤ, ang2pix_nest64 (2 ^ k) theta phi = some p ∧ ang2pix_nest64 (2 ^ l) theta phi = some q ∧ q / 4 ^ (l - k) = p := by
  induction l, hkl using Nat.le_induction with
  | base =>
    obtain ⟨p, e, -⟩ := C44_nest64 hl h0 h1 phi
    exact ⟨p, p, e, e, by simp⟩
  | succ l hkl ih =>
    obtain ⟨p, q, ep, eq, h⟩ := ih (by omega)
    obtain ⟨q', r, eq', er, h'⟩ := finer_step64 hl phi h0 h1
    rw [eq] at eq'
    obtain rfl := Option.some.inj eq'
    refine ⟨p, r, ep, er, ?_⟩
    rw [show l + 1 - k = (l - k) + 1 by omega, pow_succ', ← Int.ediv_ediv_of_nonneg (by norm_num), h', h]

/-- The direction on the equator at a quarter of a quarter turn: its pixels at three divisions: 4, 17 and 69, and `69 / 4 = 17`, `17 / 4 = 4`. -/
theorem equator_sixteenth {k : ℕ} (hk : k ≤ 13) {x y f : ℕ} {v : ℤ} (hv : ⌊((2 ^ k : ℤ) : ℝ) * (3 / 4)⌋ = v) (h1 : v % 2 ^ k = x) (h2 : 2 ^ k - v % 2 ^ k - 1 = (y : ℤ))
    (h3 : beltFace (v / 2 ^ k) (v / 2 ^ k) = f) {p : ℕ} (h : xyf2nest (2 ^ k) x y f = some p) :
    ang2pix_nest (2 ^ k) (Real.pi / 2) (1 / 4 * (Real.pi / 2)) = some (p : ℤ) := by
  have hk2 : 2 ^ k ≤ 2 ^ 13 := Nat.pow_le_pow_right (by omega) hk
  have hq := quarter_turns (t := 1 / 4) (by norm_num) (by norm_num) 0
  rw [Int.cast_zero, mul_zero, add_zero] at hq
  have e := nest_belt (n := 2 ^ k) (s := -5) (z := Real.cos (Real.pi / 2)) rfl (signed_ok (k := k) (b := 31) (by omega))
    (by rw [Real.cos_pi_div_two, abs_zero]; norm_num) hq (by norm_num) (by norm_num)
  rw [Real.cos_pi_div_two, zero_mul, mul_zero, add_zero, sub_zero, show (1 / 2 + 1 / 4 : ℝ) = 3 / 4 by norm_num, hv, h1, ← h1, h2, h1, h3] at e
  unfold ang2pix_nest ang2pixNest
  rw [if_pos ⟨by positivity, by linarith [Real.pi_pos]⟩, Real.cos_pi_div_two, e]
  simp only [Option.bind_eq_bind, Option.bind_some]
  rw [if_neg (cast_not_neg x y f), pow_toNat, Int.toNat_natCast, Int.toNat_natCast, Int.toNat_natCast, h, Option.bind_some, Option.pure_def]

example : ang2pix_nest (2 ^ 0) (Real.pi / 2) (1 / 4 * (Real.pi / 2)) = some 4 :=
  equator_sixteenth (x := 0) (y := 0) (f := 4) (v := 0) (p := 4) (by norm_num) (by rw [Int.floor_eq_iff]; norm_num) (by norm_num) (by norm_num) (by decide) (by decide +kernel)
example : ang2pix_nest (2 ^ 1) (Real.pi / 2) (1 / 4 * (Real.pi / 2)) = some 17 :=
  equator_sixteenth (x := 1) (y := 0) (f := 4) (v := 1) (p := 17) (by norm_num) (by rw [Int.floor_eq_iff]; norm_num) (by norm_num) (by norm_num) (by decide) (by decide +kernel)
example : ang2pix_nest (2 ^ 2) (Real.pi / 2) (1 / 4 * (Real.pi / 2)) = some 69 :=
  equator_sixteenth (x := 3) (y := 0) (f := 4) (v := 3) (p := 69) (by norm_num) (by rw [Int.floor_eq_iff]; norm_num) (by norm_num) (by norm_num) (by decide) (by decide +kernel)

/-- That direction is in the square `(1, 0)` of face 4 for `nside = 2`, and not in `(0, 0)`. -/
example : InPixel 2 1 0 4 0 (1 / 4) ∧ ¬ InPixel 2 0 0 4 0 (1 / 4) := by
  unfold InPixel InSquare planeX planeY faceX faceY
  norm_num

end SatSky.Props
