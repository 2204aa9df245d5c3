import Verif.Props.HealpixDouble

/-! The RING numbering in `double` arithmetic (C67). -/

namespace SatSky.Props

open SatSky SatSky.Healpix SatSky.Spec.Healpix

theorem imodulo_range (v : ℤ) {m : ℤ} (hm : 0 < m) : 0 ≤ imodulo v m ∧ imodulo v m < m := by
  unfold imodulo
  dsimp only
  have h1 := Int.tmod_lt_of_pos v hm
  have h2 := Int.neg_lt_of_neg_lt (Int.neg_lt_of_neg_lt (show -m < v.tmod m by
    have := Int.lt_tmod_of_pos v hm
    exact this))
  split_ifs <;> constructor <;> omega

/-- Conversion of numbers that are hardly negative. -/
theorem trunc_floor {x : ℚ} (h : -1 < x) : Healpix.trunc x = ⌊max x 0⌋ := by
  unfold Healpix.trunc
  by_cases h0 : 0 ≤ x
  · rw [if_pos h0, max_eq_left h0]
  · rw [if_neg h0, max_eq_right (le_of_not_ge h0)]
    push Not at h0
    rw [show ⌈x⌉ = 0 by rw [Int.ceil_eq_zero_iff]; exact ⟨h, h0.le⟩]
    simp

theorem floor_near {a b d : ℚ} (h : |a - b| ≤ d) {m : ℤ} (hd : d < m) : |⌊a⌋ - ⌊b⌋| ≤ m := by
  obtain ⟨l, u⟩ := abs_le.mp h
  have a1 := Int.floor_le a
  have a2 := Int.lt_floor_add_one a
  have b1 := Int.floor_le b
  have b2 := Int.lt_floor_add_one b
  have h1 : (⌊a⌋ - ⌊b⌋ : ℚ) < m + 1 := by linarith
  have h2 : (⌊b⌋ - ⌊a⌋ : ℚ) < m + 1 := by linarith
  have h1' : ⌊a⌋ - ⌊b⌋ < m + 1 := by exact_mod_cast h1
  have h2' : ⌊b⌋ - ⌊a⌋ < m + 1 := by exact_mod_cast h2
  rw [abs_le]
  constructor <;> omega

theorem belt_index {n r ip : ℤ} (hn : 4 ≤ n) (r0 : 0 ≤ r) (r1 : r ≤ 2 * n + 2) (m0 : 0 ≤ ip) (m1 : ip < 4 * n) :
    0 ≤ n * (n - 1) * 2 + (r - 1) * 4 * n + ip ∧ n * (n - 1) * 2 + (r - 1) * 4 * n + ip < 12 * n * n := by
  have h1 : 0 ≤ r * n := mul_nonneg r0 (by omega)
  have h2 : r * n ≤ (2 * n + 2) * n := mul_le_mul_of_nonneg_right r1 (by omega)
  have h3 : 4 * n ≤ n * n := mul_le_mul_of_nonneg_right hn (by omega)
  constructor <;> linarith

theorem cap_index {n i ip : ℤ} (hn : 4 ≤ n) (i0 : 1 ≤ i) (i1 : i ≤ 2 * n + 1) (m0 : 0 ≤ ip) (m1 : ip < 4 * i) :
    (0 ≤ 2 * i * (i - 1) + ip ∧ 2 * i * (i - 1) + ip < 12 * n * n) ∧
    0 ≤ 12 * n * n - 2 * i * (i + 1) + ip ∧ 12 * n * n - 2 * i * (i + 1) + ip < 12 * n * n := by
  have h1 : i * i ≤ (2 * n + 1) * (2 * n + 1) := mul_le_mul i1 i1 (by omega) (by omega)
  have h2 : i ≤ i * i := le_mul_of_one_le_left (by omega) i0
  have h3 : 4 * n ≤ n * n := mul_le_mul_of_nonneg_right hn (by omega)
  refine ⟨⟨?_, ?_⟩, ?_, ?_⟩ <;> linarith

/-- **C67**, part: with any rounding to nearest and any root that keeps `[0, 3]` within `[0, 2]`, `ang2pix_ring` gives an index below `12 nside²` in every
direction, for every `nside` from 4 to 8192 (a power of two or not).  Missing: `nside` 1, 2 (where it fails, `C67_ring_violated`) and 3. -/
theorem C67_ring_partial (F : Fl64) (sq : ℚ → ℚ) (hsq : ∀ x, 0 ≤ x → x ≤ 3 → 0 ≤ sq x ∧ sq x ≤ 2) {n : ℤ} (hn : 4 ≤ n) (hn2 : n ≤ 8192) {z : ℚ} (phi : ℚ)
    (hz : |z| ≤ 1) :
    ∃ p, ang2pixRing (double F sq) (signed 31) n z (-5) phi = some p ∧ 0 ≤ p ∧ p < 12 * n * n := by
  have hc : ∀ v : ℤ, -2 ^ 30 ≤ v → v ≤ 2 ^ 30 → signed 31 v = some v := fun v a b => by unfold signed; rw [if_pos (by omega)]
  have hnn : n * n ≤ 8192 * 8192 := by nlinarith
  have nq : (4 : ℚ) ≤ n := by exact_mod_cast hn
  have nq2 : (n : ℚ) ≤ 8192 := by exact_mod_cast hn2
  obtain ⟨t0, t1⟩ := quarter_double F sq phi
  have t5 : quarter (double F sq) phi ≤ 5 := le_trans t1 (by norm_num)
  unfold ang2pixRing
  generalize quarter (double F sq) phi = t at *
  by_cases hb : |z| ≤ (double F sq).twothird
  · have hb' : |z| ≤ 6004799503160661 / 2 ^ 53 := hb
    dsimp only
    rw [if_pos hb]
    simp only [show (double F sq).rnd = F.rnd from rfl, Option.bind_eq_bind]
    obtain ⟨z0, z1⟩ := abs_le.mp hb'
    have e1 := F.err (n * z)
    have s1 : |(n : ℚ) * z| ≤ 2 / 3 * n := by
      rw [abs_mul, abs_of_nonneg (by linarith : (0 : ℚ) ≤ n)]
      norm_num at hb'
      nlinarith
    obtain ⟨l1, u1⟩ := abs_le.mp s1
    have d1 : |(n : ℚ) * z| / 2 ^ 53 ≤ 1 / 2 ^ 30 := by
      rw [div_le_iff₀ (by positivity)]
      refine le_trans s1 ?_
      norm_num
      linarith
    obtain ⟨l2, u2⟩ := abs_le.mp (le_trans e1 (add_le_add d1 (show (1 : ℚ) / 2 ^ 200 ≤ 1 / 2 ^ 30 by norm_num)))
    have q1 : |F.rnd (n * z) * (3 / 4)| ≤ n / 2 + 1 / 2 ^ 20 := by
      rw [abs_le]; norm_num at l2 u2 ⊢; constructor <;> linarith
    have e2 := F.err (F.rnd (n * z) * (3 / 4))
    have d2 : |F.rnd (n * z) * (3 / 4)| / 2 ^ 53 ≤ 1 / 2 ^ 30 := by rw [div_le_iff₀ (by positivity)]; norm_num at q1 ⊢; linarith
    obtain ⟨l3, u3⟩ := abs_le.mp (le_trans e2 (add_le_add d2 (show (1 : ℚ) / 2 ^ 200 ≤ 1 / 2 ^ 30 by norm_num)))
    obtain ⟨l4, u4⟩ := abs_le.mp q1
    have Z0 : -(n / 2 + 1 / 2 ^ 10) ≤ F.rnd (F.rnd (n * z) * (3 / 4)) := by norm_num at l3 l4 ⊢; linarith
    have Z1 : F.rnd (F.rnd (n * z) * (3 / 4)) ≤ n / 2 + 1 / 2 ^ 10 := by norm_num at u3 u4 ⊢; linarith
    have h0 : 1 / 2 ≤ F.rnd (1 / 2 + t) := by
      have := fl_ge F (x := 1 / 2 + t) 1 1 (by norm_num) (by norm_num) (by push_cast; norm_num; exact t0)
      push_cast at this; norm_num at this ⊢; exact this
    have h6 : F.rnd (1 / 2 + t) ≤ 6 := by
      have := fl_int_le F (x := 1 / 2 + t) 6 (by norm_num) (by push_cast; linarith)
      push_cast at this; exact this
    have T0 : (n : ℚ) / 2 ≤ F.rnd (n * F.rnd (1 / 2 + t)) := by
      have := fl_ge F (x := n * F.rnd (1 / 2 + t)) n 1 (by rw [abs_of_nonneg (by omega)]; omega) (by norm_num) (by push_cast; nlinarith)
      norm_num at this ⊢; exact this
    have T1 : F.rnd (n * F.rnd (1 / 2 + t)) ≤ 6 * n := by
      have := fl_int_le F (x := n * F.rnd (1 / 2 + t)) (6 * n) (by rw [abs_of_nonneg (by omega)]; omega) (by push_cast; nlinarith)
      push_cast at this; exact this
    generalize F.rnd (n * F.rnd (1 / 2 + t)) = T at *
    generalize F.rnd (F.rnd (n * z) * (3 / 4)) = Z at *
    clear l1 u1 l2 u2 l3 u3 l4 u4 e1 e2 d1 d2 q1 s1 h0 h6
    have near : ∀ x : ℚ, -1 ≤ x → x ≤ 7 * n → |F.rnd x - x| ≤ 1 / 2 ^ 20 := fun x a b => by
      have h := F.err x
      have : |x| ≤ 7 * 8192 := abs_le.mpr ⟨by linarith, by linarith⟩
      have d : |x| / 2 ^ 53 ≤ 1 / 2 ^ 30 := by rw [div_le_iff₀ (by positivity)]; norm_num; linarith
      refine le_trans h (le_trans (add_le_add d (show (1 : ℚ) / 2 ^ 200 ≤ 1 / 2 ^ 30 by norm_num)) (by norm_num))
    have A := abs_le.mp (near (T - Z) (by norm_num at Z1; linarith) (by norm_num at Z0; linarith))
    have B := abs_le.mp (near (T + Z) (by norm_num at Z0; linarith) (by norm_num at Z1; linarith))
    generalize F.rnd (T - Z) = a at *
    generalize F.rnd (T + Z) = b at *
    norm_num at A B Z0 Z1
    have a0 : -1 < a := by linarith
    have b0 : -1 < b := by linarith
    rw [trunc_floor a0, trunc_floor b0]
    have hab : |max a 0 - max b 0| ≤ n + 1 / 2 := by
      refine le_trans (abs_max_sub_max_le_abs a b 0) (abs_le.mpr ⟨by linarith, by linarith⟩)
    have hfl := floor_near hab (m := n + 1) (by push_cast; linarith)
    have ja : ⌊max a 0⌋ ≤ 7 * n := by
      have : (⌊max a 0⌋ : ℚ) ≤ 7 * n := le_trans (Int.floor_le _) (max_le (by linarith) (by linarith))
      exact_mod_cast this
    have jb : ⌊max b 0⌋ ≤ 7 * n := by
      have : (⌊max b 0⌋ : ℚ) ≤ 7 * n := le_trans (Int.floor_le _) (max_le (by linarith) (by linarith))
      exact_mod_cast this
    have ja0 : 0 ≤ ⌊max a 0⌋ := Int.floor_nonneg.mpr (le_max_right _ _)
    have jb0 : 0 ≤ ⌊max b 0⌋ := Int.floor_nonneg.mpr (le_max_right _ _)
    generalize ⌊max a 0⌋ = jp at *
    generalize ⌊max b 0⌋ = jm at *
    obtain ⟨f1, f2⟩ := abs_le.mp hfl
    rw [hc jp (by omega) (by omega), Option.bind_some, hc jm (by omega) (by omega), Option.bind_some, hc (n + 1 + jp - jm) (by omega) (by omega),
      Option.bind_some, hc _ (by omega) (by omega), Option.bind_some, if_neg (by omega)]
    obtain ⟨m0, m1⟩ := imodulo_range ((jp + jm - n + (1 - (n + 1 + jp - jm) % 2) + 1).tdiv 2) (show 0 < 4 * n by omega)
    generalize imodulo _ _ = ip at *
    obtain ⟨r, hr⟩ : ∃ r, n + 1 + jp - jm = r := ⟨_, rfl⟩
    rw [hr]
    have r0 : 0 ≤ r := by omega
    have r1 : r ≤ 2 * n + 2 := by omega
    obtain ⟨low, high⟩ := belt_index hn r0 r1 m0 m1
    exact ⟨_, hc _ (by omega) (by linarith), low, high⟩
  · dsimp only
    rw [if_neg hb]
    have pe : polar (double F sq) n |z| (-5) = F.rnd (n * sq (F.rnd (3 * F.rnd (1 - |z|)))) := by
      unfold polar; rw [if_neg (by norm_num)]; rfl
    rw [pe]
    simp only [show (double F sq).rnd = F.rnd from rfl, Option.bind_eq_bind]
    have z0 := abs_nonneg z
    have p0 : 0 ≤ F.rnd (1 - |z|) := fl_nonneg F (by linarith)
    have p1 : F.rnd (1 - |z|) ≤ 1 := by
      have := fl_int_le F (x := 1 - |z|) 1 (by norm_num) (by push_cast; linarith)
      simpa using this
    have q0 : 0 ≤ F.rnd (3 * F.rnd (1 - |z|)) := fl_nonneg F (by linarith)
    have q1 : F.rnd (3 * F.rnd (1 - |z|)) ≤ 3 := by
      have := fl_int_le F (x := 3 * F.rnd (1 - |z|)) 3 (by norm_num) (by push_cast; linarith)
      simpa using this
    obtain ⟨s0, s1⟩ := hsq _ q0 q1
    generalize sq (F.rnd (3 * F.rnd (1 - |z|))) = r at *
    have r0 : 0 ≤ F.rnd (n * r) := fl_nonneg F (by positivity)
    have r1 : F.rnd (n * r) ≤ 2 * n := by
      have := fl_int_le F (x := n * r) (2 * n) (by rw [abs_of_nonneg (by positivity)]; omega) (by push_cast; nlinarith)
      push_cast at this; exact this
    generalize F.rnd (n * r) = tmp at *
    have n0 : 0 ≤ ⌊t⌋ := Int.floor_nonneg.mpr t0
    have n4 : ⌊t⌋ ≤ 5 := Int.floor_le_iff.mpr (by push_cast; linarith)
    rw [truncq_nonneg t0, hc _ (by omega) (by omega), Option.bind_some]
    have w0 : 0 ≤ F.rnd (t - ⌊t⌋) := fl_nonneg F (by linarith [Int.floor_le t])
    have w1 : F.rnd (t - ⌊t⌋) ≤ 1 := by
      have := fl_int_le F (x := t - ⌊t⌋) 1 (by norm_num) (by push_cast; linarith [Int.lt_floor_add_one t])
      simpa using this
    generalize F.rnd (t - ⌊t⌋) = tp at *
    have y0 : 0 ≤ F.rnd (1 - tp) := fl_nonneg F (by linarith)
    have eN := F.err (1 - tp)
    have dN : |1 - tp| / 2 ^ 53 ≤ 1 / 2 ^ 30 := by
      rw [abs_of_nonneg (by linarith), div_le_iff₀ (by positivity)]; norm_num; linarith
    have y1 := (abs_le.mp (le_trans eN (add_le_add dN (show (1 : ℚ) / 2 ^ 200 ≤ 1 / 2 ^ 30 by norm_num)))).2
    generalize F.rnd (1 - tp) = tq at *
    have near : ∀ x : ℚ, 0 ≤ x → x ≤ 3 * n → F.rnd x ≤ x + 1 / 2 ^ 20 := fun x a b => by
      have h := F.err x
      have : |x| ≤ 3 * 8192 := abs_le.mpr ⟨by linarith, by linarith⟩
      have d : |x| / 2 ^ 53 ≤ 1 / 2 ^ 30 := by rw [div_le_iff₀ (by positivity)]; norm_num; linarith
      have := (abs_le.mp (le_trans h (add_le_add d (show (1 : ℚ) / 2 ^ 200 ≤ 1 / 2 ^ 30 by norm_num)))).2
      norm_num at this ⊢
      linarith
    norm_num at y1
    have tq2 : tq ≤ 1 + 1 / 2 ^ 20 - tp := by norm_num; linarith
    have g1 : 0 ≤ tp * tmp := mul_nonneg w0 r0
    have g2 : 0 ≤ tq * tmp := mul_nonneg y0 r0
    have g3 : tp * tmp + tq * tmp ≤ 2 * n + 1 / 2 ^ 5 := by
      have h1 : (tp + tq) * tmp ≤ (1 + 1 / 2 ^ 20) * tmp := mul_le_mul_of_nonneg_right (by linarith) r0
      norm_num at h1 ⊢
      nlinarith
    have x1 := near (tp * tmp) g1 (by norm_num at g3; linarith)
    have x2 := near (tq * tmp) g2 (by norm_num at g3; linarith)
    have x0 : 0 ≤ F.rnd (tp * tmp) := fl_nonneg F g1
    have x0' : 0 ≤ F.rnd (tq * tmp) := fl_nonneg F g2
    rw [truncq_nonneg x0, truncq_nonneg x0']
    have j0 : 0 ≤ ⌊F.rnd (tp * tmp)⌋ := Int.floor_nonneg.mpr x0
    have k0 : 0 ≤ ⌊F.rnd (tq * tmp)⌋ := Int.floor_nonneg.mpr x0'
    have jk : ⌊F.rnd (tp * tmp)⌋ + ⌊F.rnd (tq * tmp)⌋ ≤ 2 * n := by
      have : ((⌊F.rnd (tp * tmp)⌋ + ⌊F.rnd (tq * tmp)⌋ : ℤ) : ℚ) < (2 * n + 1 : ℤ) := by
        push_cast
        have h1 := Int.floor_le (F.rnd (tp * tmp))
        have h2 := Int.floor_le (F.rnd (tq * tmp))
        norm_num at x1 x2 g3
        linarith
      have : ⌊F.rnd (tp * tmp)⌋ + ⌊F.rnd (tq * tmp)⌋ < 2 * n + 1 := by exact_mod_cast this
      omega
    generalize ⌊F.rnd (tp * tmp)⌋ = jp at *
    generalize ⌊F.rnd (tq * tmp)⌋ = jm at *
    rw [hc jp (by omega) (by omega), Option.bind_some, hc jm (by omega) (by omega), Option.bind_some, hc (jp + jm + 1) (by omega) (by omega),
      Option.bind_some]
    obtain ⟨i, hi⟩ : ∃ i, jp + jm + 1 = i := ⟨_, rfl⟩
    rw [hi]
    have i0 : 1 ≤ i := by omega
    have i1 : i ≤ 2 * n + 1 := by omega
    have iq : (1 : ℚ) ≤ i := by exact_mod_cast i0
    have v0 : 0 ≤ F.rnd (t * i) := fl_nonneg F (by positivity)
    have v1 : F.rnd (t * i) ≤ 5 * i := by
      have := fl_int_le F (x := t * i) (5 * i) (by rw [abs_of_nonneg (by omega)]; omega) (by push_cast; nlinarith)
      push_cast at this; exact this
    rw [truncq_nonneg v0]
    have v2 : 0 ≤ ⌊F.rnd (t * i)⌋ := Int.floor_nonneg.mpr v0
    have v3 : ⌊F.rnd (t * i)⌋ ≤ 5 * i := by
      have : (⌊F.rnd (t * i)⌋ : ℚ) ≤ 5 * i := le_trans (Int.floor_le _) v1
      exact_mod_cast this
    rw [hc _ (by omega) (by omega), Option.bind_some, if_neg (by omega)]
    obtain ⟨m0, m1⟩ := imodulo_range ⌊F.rnd (t * i)⌋ (show 0 < 4 * i by omega)
    generalize imodulo _ _ = ip at *
    obtain ⟨⟨low, high⟩, low', high'⟩ := cap_index hn i0 i1 m0 m1
    by_cases hp : z > 0
    · rw [if_pos hp]
      exact ⟨_, hc _ (by omega) (by linarith), low, high⟩
    · rw [if_neg hp]
      exact ⟨_, hc _ (by omega) (by linarith), low', high'⟩

/-- The theorem applies where the number of the ring comes out wrong: at `nside` 4 the height and longitude for which `nside` 2 has no pixel. -/
example : ∃ p, ang2pixRing (double Fl64.ieee id) (signed 31) 4 (6004799503160661 / 2 ^ 53) (-5) (5305678314021329 / 2 ^ 51) = some p ∧ 0 ≤ p ∧ p < 192 := by
  have : ang2pixRing (double Fl64.ieee id) (signed 31) 4 (6004799503160661 / 2 ^ 53) (-5) (5305678314021329 / 2 ^ 51) = some 14 := by decide +kernel
  exact ⟨_, this, by norm_num, by norm_num⟩

end SatSky.Props
