import Verif.Props.HealpixAng
import Verif.Model.HealpixAng
import Verif.Lemmas.HealpixAng

/-! Directions to pixels in `double` arithmetic (C67). -/

namespace SatSky.Props

open SatSky SatSky.Healpix SatSky.Spec.Healpix

/-! ### Directions without a pixel -/

/-- In the belt the root is not used. -/
theorem belt_no_root (F : Fl64) (sq sq' : ℚ → ℚ) (c : ℤ → Option ℤ) (n : ℤ) {z : ℚ} (s phi : ℚ) (h : |z| ≤ 6004799503160661 / 2 ^ 53) :
    ang2xyf (double F sq) c n z s phi = ang2xyf (double F sq') c n z s phi
      ∧ ang2pixRing (double F sq) c n z s phi = ang2pixRing (double F sq') c n z s phi := by
  unfold ang2xyf ang2pixRing
  dsimp only
  have h1 : |z| ≤ (double F sq).twothird := h
  have h2 : |z| ≤ (double F sq').twothird := h
  rw [if_pos h1, if_pos h2, if_pos h1, if_pos h2]
  exact ⟨rfl, rfl⟩

/-- The claim fails for the NESTED numbering: at `nside` 256, height -0.6666666666666661 (the cosine of
2.3005239830218622) and longitude 6.283185307179585, the face is "12" and the index 830122, above 786431. -/
theorem C67_nest_violated (sq : ℚ → ℚ) :
    ang2pixNest (double Fl64.ieee sq) 256 (-375299968947541 / 2 ^ 49) (7074237752028439 / 2 ^ 50) = some 830122 := by
  unfold ang2pixNest
  rw [(belt_no_root Fl64.ieee sq id _ _ _ _ (by rw [abs_of_neg (by norm_num)]; norm_num)).1]
  decide +kernel

/-- It fails for the RING numbering: at `nside` 2, height 0.6666666666666666 (the cosine of 0.8410686705679303) and
longitude 2.3561944901923444, the index is -1. -/
theorem C67_ring_violated (sq : ℚ → ℚ) (s : ℚ) :
    ang2pixRing (double Fl64.ieee sq) (signed 31) 2 (6004799503160661 / 2 ^ 53) s (5305678314021329 / 2 ^ 51) = some (-1) := by
  rw [(belt_no_root Fl64.ieee sq id _ _ _ _ (by rw [abs_of_pos (by norm_num)])).2]
  have : ang2pixRing (double Fl64.ieee id) (signed 31) 2 (6004799503160661 / 2 ^ 53) s (5305678314021329 / 2 ^ 51)
      = ang2pixRing (double Fl64.ieee id) (signed 31) 2 (6004799503160661 / 2 ^ 53) (-5) (5305678314021329 / 2 ^ 51) := by
    unfold ang2pixRing
    dsimp only
    have h1 : |(6004799503160661 / 2 ^ 53 : ℚ)| ≤ (double Fl64.ieee id).twothird := by
      rw [abs_of_pos (by norm_num)]; exact le_refl _
    rw [if_pos h1, if_pos h1]
  rw [this]
  decide +kernel

/-! ### Directions with a pixel -/

section
variable (F : Fl64)

theorem fl_le {x : ℚ} (k : ℤ) (j : ℕ) (hk : |k| ≤ 2 ^ 53) (hj : j ≤ 1000) (h : x ≤ k / 2 ^ j) : F.rnd x ≤ k / 2 ^ j := by
  have := F.mono _ _ h
  rwa [F.exact k j hk hj] at this

theorem fl_ge {x : ℚ} (k : ℤ) (j : ℕ) (hk : |k| ≤ 2 ^ 53) (hj : j ≤ 1000) (h : k / 2 ^ j ≤ x) : k / 2 ^ j ≤ F.rnd x := by
  have := F.mono _ _ h
  rwa [F.exact k j hk hj] at this

theorem fl_int_le {x : ℚ} (k : ℤ) (hk : |k| ≤ 2 ^ 53) (h : x ≤ k) : F.rnd x ≤ k := by
  have := fl_le F k 0 hk (by norm_num) (by simpa using h)
  simpa using this

theorem fl_nonneg {x : ℚ} (h : 0 ≤ x) : 0 ≤ F.rnd x := by
  have := fl_ge F 0 0 (by norm_num) (by norm_num) (by simpa using h)
  simpa using this

theorem truncq_nonneg {x : ℚ} (h : 0 ≤ x) : Healpix.trunc x = ⌊x⌋ := if_pos h

variable (sq : ℚ → ℚ)

/-- The longitude is reduced to less than a turn. -/
theorem fmodulo_double (v : ℚ) : 0 ≤ fmodulo (double F sq) v (double F sq).twopi ∧ fmodulo (double F sq) v (double F sq).twopi ≤ (double F sq).twopi := by
  have hm : (0 : ℚ) < 884279719003555 / 2 ^ 47 := by norm_num
  show 0 ≤ fmodulo (double F sq) v (884279719003555 / 2 ^ 47) ∧ fmodulo (double F sq) v (884279719003555 / 2 ^ 47) ≤ 884279719003555 / 2 ^ 47
  have hex : ∀ x : ℚ, x ≤ 884279719003555 / 2 ^ 47 → F.rnd x ≤ 884279719003555 / 2 ^ 47 := fun x hx => by
    have := fl_le F (x := x) 884279719003555 47 (by norm_num) (by norm_num) (by simpa using hx)
    simpa using this
  generalize (884279719003555 / 2 ^ 47 : ℚ) = m at *
  unfold fmodulo
  by_cases h : v ≥ 0
  · rw [if_pos h]
    by_cases h2 : v < m
    · rw [if_pos h2]; exact ⟨h, h2.le⟩
    · rw [if_neg h2]
      unfold fmod
      rw [truncq_nonneg (by positivity)]
      have a := Int.floor_le (v / m)
      have b := Int.lt_floor_add_one (v / m)
      rw [le_div_iff₀ hm] at a
      rw [div_lt_iff₀ hm] at b
      constructor <;> nlinarith
  · rw [if_neg h]
    have hv : v < 0 := not_le.mp h
    have hq : v / m < 0 := div_neg_of_neg_of_pos hv hm
    have e : fmod v m = v - m * (⌈v / m⌉ : ℤ) := by
      unfold fmod Healpix.trunc; rw [if_neg (not_le.mpr hq)]
    have a := Int.le_ceil (v / m)
    have b := Int.ceil_lt_add_one (v / m)
    rw [div_le_iff₀ hm] at a
    have b' : (⌈v / m⌉ : ℚ) * m < v + m := by
      have := mul_lt_mul_of_pos_right b hm
      rwa [add_mul, div_mul_cancel₀ _ hm.ne', one_mul] at this
    show 0 ≤ (if F.rnd (fmod v m + m) = m then (0 : ℚ) else F.rnd (fmod v m + m)) ∧ (if F.rnd (fmod v m + m) = m then (0 : ℚ) else F.rnd (fmod v m + m)) ≤ m
    have x0 : 0 ≤ fmod v m + m := by rw [e]; nlinarith
    have x1 : fmod v m + m ≤ m := by rw [e]; nlinarith
    split_ifs with h3
    · exact ⟨le_refl _, hm.le⟩
    · exact ⟨fl_nonneg F x0, hex _ x1⟩

theorem quarter_double (phi : ℚ) : 0 ≤ quarter (double F sq) phi ∧ quarter (double F sq) phi ≤ 4 + 1 / 2 ^ 49 := by
  obtain ⟨a, b⟩ := fmodulo_double F sq phi
  unfold quarter
  generalize fmodulo (double F sq) phi (double F sq).twopi = v at *
  have a' : 0 ≤ v * (double F sq).invHalfpi := mul_nonneg a (by show (0 : ℚ) ≤ 5734161139222659 / 2 ^ 53; norm_num)
  refine ⟨fl_nonneg F a', ?_⟩
  have b' : v * (double F sq).invHalfpi ≤ 4 + 1 / 2 ^ 49 := by
    have : v ≤ 884279719003555 / 2 ^ 47 := b
    show v * (5734161139222659 / 2 ^ 53) ≤ _
    linarith
  have := fl_le F (x := v * (double F sq).invHalfpi) (2 ^ 51 + 1) 49 (by norm_num) (by norm_num) (by push_cast; norm_num at b' ⊢; linarith)
  show F.rnd (v * (double F sq).invHalfpi) ≤ _
  push_cast at this
  norm_num at this ⊢
  exact this
end

/-- Range of the coordinates in `double` arithmetic. -/
theorem ang2xyf_double (F : Fl64) (sq : ℚ → ℚ) (hsq : ∀ x, 0 ≤ x → x ≤ 3 → 0 ≤ sq x ∧ sq x ≤ 2) {c : ℤ → Option ℤ} {k : ℕ} (hk : k ≤ 29)
    (hc : ∀ v, 0 ≤ v → v ≤ 5 * 2 ^ k → c v = some v) {z : ℚ} (phi : ℚ) (hz : |z| ≤ 1)
    (hlast : |z| ≤ 6004799503160661 / 2 ^ 53 → quarter (double F sq) phi ≤ 4 - 1 / 2 ^ 40) :
    ∃ x y f, ang2xyf (double F sq) c (2 ^ k) z (-5) phi = some (x, y, f) ∧ (0 ≤ x ∧ x < 2 ^ k) ∧ (0 ≤ y ∧ y < 2 ^ k) ∧ 0 ≤ f ∧ f < 12 := by
  have hn : (1 : ℤ) ≤ 2 ^ k := one_le_z k
  have hk29 : (2 : ℤ) ^ k ≤ 2 ^ 29 := pow_le_z hk
  have hnq : ((2 ^ k : ℤ) : ℚ) = 2 ^ k := by push_cast; rfl
  have n1 : (1 : ℚ) ≤ 2 ^ k := one_le_pow₀ (by norm_num)
  obtain ⟨t0, t1⟩ := quarter_double F sq phi
  unfold ang2xyf
  generalize quarter (double F sq) phi = t at *
  have fle : ∀ {x : ℚ} (m : ℤ) (j : ℕ), |m| ≤ 2 ^ 53 → j ≤ 1000 → x ≤ m / 2 ^ j → F.rnd x ≤ m / 2 ^ j := fun m j => fl_le F m j
  have fge : ∀ {x : ℚ} (m : ℤ) (j : ℕ), |m| ≤ 2 ^ 53 → j ≤ 1000 → m / 2 ^ j ≤ x → m / 2 ^ j ≤ F.rnd x := fun m j => fl_ge F m j
  by_cases hb : |z| ≤ (double F sq).twothird
  · have hb' : |z| ≤ 6004799503160661 / 2 ^ 53 := hb
    have ht := hlast hb'
    dsimp only
    rw [if_pos hb]
    simp only [show (double F sq).rnd = F.rnd from rfl, hnq, Option.bind_eq_bind]
    -- the half sum and the half difference
    have u1 : F.rnd (1 / 2 + t) ≤ 9 / 2 - 1 / 2 ^ 40 := by
      have := fle (x := 1 / 2 + t) (9 * 2 ^ 39 - 1) 40 (by norm_num) (by norm_num) (by push_cast; norm_num at ht ⊢; linarith)
      push_cast at this; norm_num at this ⊢; exact this
    have u0 : 1 / 2 ≤ F.rnd (1 / 2 + t) := by
      have := fge (x := 1 / 2 + t) 1 1 (by norm_num) (by norm_num) (by push_cast; norm_num; exact t0)
      push_cast at this; norm_num at this ⊢; exact this
    obtain ⟨z0, z1⟩ := abs_le.mp hb'
    have v1 : F.rnd (z * (3 / 4)) ≤ 1 / 2 := by
      have := fle (x := z * (3 / 4)) 1 1 (by norm_num) (by norm_num) (by push_cast; norm_num at z1 ⊢; linarith)
      push_cast at this; norm_num at this ⊢; exact this
    have v0 : -(1 / 2) ≤ F.rnd (z * (3 / 4)) := by
      have := fge (x := z * (3 / 4)) (-1) 1 (by norm_num) (by norm_num) (by push_cast; norm_num at z0 ⊢; linarith)
      push_cast at this; norm_num at this ⊢; exact this
    generalize F.rnd (1 / 2 + t) = t' at *
    generalize F.rnd (z * (3 / 4)) = z' at *
    -- representable bounds scaled by `2^k`
    have scale : ∀ m : ℤ, ∀ j : ℕ, j ≤ 40 → (2 : ℚ) ^ k * (m / 2 ^ j) = (m * 2 ^ k / 2 ^ j) := by intro m j _; ring
    have down : ∀ (m : ℤ), ((m : ℚ) / 2 ^ (40 - k)) = 2 ^ k * (m / 2 ^ 40) := by
      intro m
      have : (2 : ℚ) ^ 40 = 2 ^ (40 - k) * 2 ^ k := by rw [← pow_add]; congr 1; omega
      rw [this]; field_simp
    have a1 : F.rnd (2 ^ k * t') ≤ 2 ^ k * (9 / 2 - 1 / 2 ^ 40) := by
      have := fle (x := 2 ^ k * t') (9 * 2 ^ 39 - 1) (40 - k) (by norm_num) (by omega) (by
        rw [down]; apply mul_le_mul_of_nonneg_left _ (by positivity); push_cast; norm_num at u1 ⊢; exact u1)
      rw [down] at this; push_cast at this; norm_num at this ⊢; exact this
    have a0 : 2 ^ k * (1 / 2) ≤ F.rnd (2 ^ k * t') := by
      have := fge (x := 2 ^ k * t') (2 ^ 39) (40 - k) (by norm_num) (by omega) (by
        rw [down]; apply mul_le_mul_of_nonneg_left _ (by positivity); push_cast; norm_num at u0 ⊢; exact u0)
      rw [down] at this; push_cast at this; norm_num at this ⊢; exact this
    have b1 : F.rnd (2 ^ k * z') ≤ 2 ^ k * (1 / 2) := by
      have := fle (x := 2 ^ k * z') (2 ^ 39) (40 - k) (by norm_num) (by omega) (by
        rw [down]; apply mul_le_mul_of_nonneg_left _ (by positivity); push_cast; norm_num at v1 ⊢; exact v1)
      rw [down] at this; push_cast at this; norm_num at this ⊢; exact this
    have b0 : -(2 ^ k * (1 / 2)) ≤ F.rnd (2 ^ k * z') := by
      have := fge (x := 2 ^ k * z') (-2 ^ 39) (40 - k) (by norm_num) (by omega) (by
        rw [down, ]
        have : (2 : ℚ) ^ k * (-(1 / 2)) ≤ 2 ^ k * z' := mul_le_mul_of_nonneg_left v0 (by positivity)
        push_cast; norm_num at this ⊢; linarith)
      rw [down] at this; push_cast at this; norm_num at this ⊢; linarith
    generalize F.rnd (2 ^ k * t') = T at *
    generalize F.rnd (2 ^ k * z') = Z at *
    have up : ∀ {x : ℚ}, x ≤ 2 ^ k * (5 - 1 / 2 ^ 40) → F.rnd x ≤ 2 ^ k * (5 - 1 / 2 ^ 40) := by
      intro x hx
      have := fle (x := x) (5 * 2 ^ 40 - 1) (40 - k) (by norm_num) (by omega) (by
        rw [down]; push_cast; norm_num at hx ⊢; exact hx)
      rw [down] at this; push_cast at this; norm_num at this ⊢; exact this
    have fl5 : ∀ {x : ℚ}, x ≤ 2 ^ k * (5 - 1 / 2 ^ 40) → ⌊x⌋ < 5 * 2 ^ k := by
      intro x hx
      rw [Int.floor_lt]; push_cast
      have : (0 : ℚ) < 2 ^ k * (1 / 2 ^ 40) := by positivity
      nlinarith
    have A1 := up (x := T - Z) (by linarith)
    have B1 := up (x := T + Z) (by linarith)
    have A0 : 0 ≤ F.rnd (T - Z) := fl_nonneg F (by linarith)
    have B0 : 0 ≤ F.rnd (T + Z) := fl_nonneg F (by linarith)
    have c1 := fl5 A1
    have c2 := fl5 B1
    have c3 := Int.floor_nonneg.mpr A0
    have c4 := Int.floor_nonneg.mpr B0
    rw [truncq_nonneg A0, truncq_nonneg B0]
    generalize ⌊F.rnd (T - Z)⌋ = jp at *
    generalize ⌊F.rnd (T + Z)⌋ = jm at *
    rw [hc _ c3 c1.le, Option.bind_some, hc _ c4 c2.le, Option.bind_some, Option.pure_def, andPred_pow c3, andPred_pow c4]
    have m1 := Int.emod_nonneg jm (show (2 : ℤ) ^ k ≠ 0 by omega)
    have m2 := Int.emod_lt_of_pos jm (show (0 : ℤ) < 2 ^ k by omega)
    have m3 := Int.emod_nonneg jp (show (2 : ℤ) ^ k ≠ 0 by omega)
    have m4 := Int.emod_lt_of_pos jp (show (0 : ℤ) < 2 ^ k by omega)
    have f1 : 0 ≤ jp.tdiv (2 ^ k) := Int.tdiv_nonneg c3 (by omega)
    have f2 : jp.tdiv (2 ^ k) < 5 := by
      rw [Int.tdiv_eq_ediv_of_nonneg c3]; exact Int.ediv_lt_of_lt_mul (by omega) c1
    have f3 : 0 ≤ jm.tdiv (2 ^ k) := Int.tdiv_nonneg c4 (by omega)
    have f4 : jm.tdiv (2 ^ k) < 5 := by
      rw [Int.tdiv_eq_ediv_of_nonneg c4]; exact Int.ediv_lt_of_lt_mul (by omega) c2
    exact ⟨_, _, _, rfl, ⟨m1, m2⟩, ⟨by omega, by omega⟩, beltFace_range f1 f2 f3 f4⟩
  · dsimp only
    rw [if_neg hb]
    have pe : polar (double F sq) (2 ^ k) |z| (-5) = F.rnd (2 ^ k * sq (F.rnd (3 * F.rnd (1 - |z|)))) := by
      unfold polar; rw [if_neg (by norm_num), hnq]; rfl
    rw [pe]
    simp only [show (double F sq).rnd = F.rnd from rfl, Option.bind_eq_bind]
    have z0 := abs_nonneg z
    have p0 : 0 ≤ F.rnd (1 - |z|) := fl_nonneg F (by linarith)
    have p1 : F.rnd (1 - |z|) ≤ 1 := by
      have := fl_int_le F (x := 1 - |z|) 1 (by norm_num) (by push_cast; linarith)
      simpa using this
    have q0 : 0 ≤ F.rnd (3 * F.rnd (1 - |z|)) := fl_nonneg F (by linarith)
    have q1 : F.rnd (3 * F.rnd (1 - |z|)) ≤ 3 := by
      have := fl_int_le F (x := 3 * F.rnd (1 - |z|)) 3 (by norm_num) (by push_cast; linarith)
      simpa using this
    obtain ⟨s0, s1⟩ := hsq _ q0 q1
    generalize sq (F.rnd (3 * F.rnd (1 - |z|))) = r at *
    have r0 : 0 ≤ F.rnd (2 ^ k * r) := fl_nonneg F (by positivity)
    have r1 : F.rnd (2 ^ k * r) ≤ 2 * 2 ^ k := by
      have := fl_int_le F (x := 2 ^ k * r) (2 * 2 ^ k) (by rw [abs_of_nonneg (by positivity)]; omega) (by push_cast; nlinarith)
      push_cast at this; exact this
    generalize F.rnd (2 ^ k * r) = tmp at *
    have n0 : 0 ≤ ⌊t⌋ := Int.floor_nonneg.mpr t0
    have n4 : ⌊t⌋ < 5 := Int.floor_lt.mpr (by push_cast; norm_num at t1; linarith)
    rw [truncq_nonneg t0, hc _ n0 (by omega), Option.bind_some]
    -- the quadrant, cut at 3
    obtain ⟨g, hg, g0, g3, tg0, tg1⟩ : ∃ g : ℤ, (if ⌊t⌋ ≥ 4 then 3 else ⌊t⌋) = g ∧ 0 ≤ g ∧ g ≤ 3 ∧ 0 ≤ t - (g : ℚ) ∧ t - (g : ℚ) ≤ 1 + 1 / 2 ^ 49 := by
      by_cases h4 : ⌊t⌋ ≥ 4
      · have : (4 : ℚ) ≤ t := by exact_mod_cast Int.le_floor.mp h4
        exact ⟨3, if_pos h4, by norm_num, le_refl _, by push_cast; linarith, by push_cast; linarith⟩
      · refine ⟨⌊t⌋, if_neg h4, n0, by omega, by linarith [Int.floor_le t], ?_⟩
        have := Int.lt_floor_add_one t
        have : (0 : ℚ) ≤ 1 / 2 ^ 49 := by positivity
        linarith
    rw [hg]
    have w0 : 0 ≤ F.rnd (t - g) := fl_nonneg F tg0
    have w1 : F.rnd (t - g) ≤ 1 + 1 / 2 ^ 49 := by
      have := fle (x := t - g) (2 ^ 49 + 1) 49 (by norm_num) (by norm_num) (by push_cast; norm_num at tg1 ⊢; linarith)
      push_cast at this; norm_num at this ⊢; exact this
    generalize F.rnd (t - g) = tp at *
    have x0 : 0 ≤ F.rnd (tp * tmp) := fl_nonneg F (by positivity)
    have hk30 : (2 : ℚ) ^ k ≤ 2 ^ 29 := pow_le_pow_right₀ (by norm_num) hk
    have x1 : F.rnd (tp * tmp) ≤ 3 * 2 ^ k := by
      have h2 : tp * tmp ≤ 3 * 2 ^ k := by
        have : tp * tmp ≤ (1 + 1 / 2 ^ 49) * (2 * 2 ^ k) := mul_le_mul w1 r1 r0 (by positivity)
        have : (1 + 1 / 2 ^ 49 : ℚ) * (2 * 2 ^ k) ≤ 3 * 2 ^ k := by nlinarith
        linarith
      have := fl_int_le F (x := tp * tmp) (3 * 2 ^ k) (by rw [abs_of_nonneg (by positivity)]; omega) (by push_cast; exact h2)
      push_cast at this; exact this
    have y0 : -(1 / 2 ^ 49) ≤ F.rnd (1 - tp) := by
      have := fge (x := 1 - tp) (-1) 49 (by norm_num) (by norm_num) (by push_cast; norm_num at w1 ⊢; linarith)
      push_cast at this; norm_num at this ⊢; exact this
    have y1 : F.rnd (1 - tp) ≤ 1 := by
      have := fl_int_le F (x := 1 - tp) 1 (by norm_num) (by push_cast; linarith)
      simpa using this
    generalize F.rnd (1 - tp) = tq at *
    have z0' : -(1 / 2) ≤ F.rnd (tq * tmp) := by
      have h2 : -(1 / 2) ≤ tq * tmp := by
        have : -(1 / 2 ^ 49) * tmp ≤ tq * tmp := mul_le_mul_of_nonneg_right y0 r0
        have : (1 / 2 ^ 49 : ℚ) * tmp ≤ 1 / 2 ^ 49 * (2 * 2 ^ 29) := mul_le_mul_of_nonneg_left (by linarith) (by positivity)
        norm_num at *
        linarith
      have := fge (x := tq * tmp) (-1) 1 (by norm_num) (by norm_num) (by push_cast; norm_num at h2 ⊢; linarith)
      push_cast at this; norm_num at this ⊢; exact this
    have z1' : F.rnd (tq * tmp) ≤ 2 * 2 ^ k := by
      have := fl_int_le F (x := tq * tmp) (2 * 2 ^ k) (by rw [abs_of_nonneg (by positivity)]; omega) (by push_cast; nlinarith)
      push_cast at this; exact this
    have j0 : 0 ≤ ⌊F.rnd (tp * tmp)⌋ := Int.floor_nonneg.mpr x0
    have j1 : ⌊F.rnd (tp * tmp)⌋ ≤ 3 * 2 ^ k := by
      have : (⌊F.rnd (tp * tmp)⌋ : ℚ) ≤ 3 * 2 ^ k := le_trans (Int.floor_le _) x1
      exact_mod_cast this
    have l01 : 0 ≤ Healpix.trunc (F.rnd (tq * tmp)) ∧ Healpix.trunc (F.rnd (tq * tmp)) ≤ 2 * 2 ^ k := by
      unfold Healpix.trunc
      by_cases hs : 0 ≤ F.rnd (tq * tmp)
      · rw [if_pos hs]
        refine ⟨Int.floor_nonneg.mpr hs, ?_⟩
        have : (⌊F.rnd (tq * tmp)⌋ : ℚ) ≤ 2 * 2 ^ k := le_trans (Int.floor_le _) z1'
        exact_mod_cast this
      · rw [if_neg hs]
        push Not at hs
        have : ⌈F.rnd (tq * tmp)⌉ = 0 := by
          rw [Int.ceil_eq_zero_iff]; constructor <;> linarith
        rw [this]; exact ⟨le_refl _, by positivity⟩
    obtain ⟨l0, l1⟩ := l01
    rw [truncq_nonneg x0]
    generalize ⌊F.rnd (tp * tmp)⌋ = jp at *
    generalize Healpix.trunc (F.rnd (tq * tmp)) = jm at *
    rw [hc jp j0 (by omega), Option.bind_some, hc jm l0 (by omega), Option.bind_some]
    have e1 : 0 ≤ (if jp ≥ 2 ^ k then 2 ^ k - 1 else jp) ∧ (if jp ≥ 2 ^ k then 2 ^ k - 1 else jp) < 2 ^ k := by
      split_ifs <;> omega
    have e2 : 0 ≤ (if jm ≥ 2 ^ k then 2 ^ k - 1 else jm) ∧ (if jm ≥ 2 ^ k then 2 ^ k - 1 else jm) < 2 ^ k := by
      split_ifs <;> omega
    generalize (if jp ≥ 2 ^ k then 2 ^ k - 1 else jp) = a at *
    generalize (if jm ≥ 2 ^ k then 2 ^ k - 1 else jm) = b at *
    by_cases hpos : z ≥ 0
    · rw [if_pos hpos]
      exact ⟨_, _, _, rfl, ⟨by omega, by omega⟩, ⟨by omega, by omega⟩, by omega, by omega⟩
    · rw [if_neg hpos]
      exact ⟨_, _, _, rfl, ⟨by omega, by omega⟩, ⟨by omega, by omega⟩, by omega, by omega⟩

/-- **C67**, part: with any rounding to nearest and any root that keeps `[0, 3]` within `[0, 2]`, `ang2pix_nest` gives an
index below `12 nside²` at every height in the caps, and in the belt at every longitude whose quarter turns do not
come within `2^-40` of 4.  Missing: the last longitudes of the belt (where it fails). -/
theorem C67_nest_partial (F : Fl64) (sq : ℚ → ℚ) (hsq : ∀ x, 0 ≤ x → x ≤ 3 → 0 ≤ sq x ∧ sq x ≤ 2) {k : ℕ} (hk : k ≤ 13) {z : ℚ} (phi : ℚ)
    (hz : |z| ≤ 1) (hlast : |z| ≤ 6004799503160661 / 2 ^ 53 → quarter (double F sq) phi ≤ 4 - 1 / 2 ^ 40) :
    ∃ p, ang2pixNest (double F sq) (2 ^ k) z phi = some p ∧ 0 ≤ p ∧ p < 12 * 2 ^ k * 2 ^ k := by
  have hk2 : (2 : ℤ) ^ k ≤ 2 ^ 13 := pow_le_z hk
  obtain ⟨x, y, f, e, hx, hy, hf⟩ := ang2xyf_double F sq hsq (c := signed 31) (k := k) (by omega)
    (fun v a b => by unfold signed; rw [if_pos (by omega)]) phi hz hlast
  obtain ⟨p, e2, hp⟩ := xyf2nest_nested hk (nat_face rfl hx hy hf)
  have hlt := nested_lt hp (by omega)
  refine ⟨p, ?_, by omega, ?_⟩
  · unfold ang2pixNest
    rw [e]
    simp only [Option.bind_eq_bind, Option.bind_some]
    rw [if_neg (by omega), pow_toNat, e2]
    rfl
  · have : ((12 * (2 ^ k * 2 ^ k) : ℕ) : ℤ) = 12 * 2 ^ k * 2 ^ k := by push_cast; ring
    omega

/-- The theorem applies: half a radian of longitude on the equator, order 8. -/
example : ang2pixNest (double Fl64.ieee id) 256 0 (1 / 2) = some 285097 ∧ (285097 : ℤ) < 786432 := by decide +kernel

end SatSky.Props
