import Verif.Lemmas.HealpixCentre

/-! What the pixel functions compute in exact arithmetic, for every direction. -/

namespace SatSky.Healpix

open SatSky

/-- The longitude is taken modulo four quarter turns. -/
theorem quarter_turns {t : ℝ} (h0 : 0 ≤ t) (h1 : t < 4) (m : ℤ) : quarter exact ((t + 4 * m) * (Real.pi / 2)) = t := by
  have hp := Real.pi_pos
  obtain ⟨a, b⟩ := fmodulo_range ((t + 4 * m) * (Real.pi / 2)) (m := 2 * Real.pi) (by positivity)
  have hk : ∃ k : ℤ, fmodulo exact ((t + 4 * m) * (Real.pi / 2)) (2 * Real.pi) = (t + 4 * m) * (Real.pi / 2) + 2 * Real.pi * k := by
    unfold fmodulo
    split_ifs with g1 g2
    · exact ⟨0, by simp⟩
    · exact ⟨-trunc ((t + 4 * m) * (Real.pi / 2) / (2 * Real.pi)), by unfold fmod; push_cast; ring⟩
    · dsimp only
      split_ifs with g2
      · refine ⟨-trunc ((t + 4 * m) * (Real.pi / 2) / (2 * Real.pi)), ?_⟩
        have g3 : fmod ((t + 4 * m) * (Real.pi / 2)) (2 * Real.pi) + 2 * Real.pi = 2 * Real.pi := g2
        unfold fmod at g3
        push_cast
        linarith
      · refine ⟨1 - trunc ((t + 4 * m) * (Real.pi / 2) / (2 * Real.pi)), ?_⟩
        show fmod ((t + 4 * m) * (Real.pi / 2)) (2 * Real.pi) + 2 * Real.pi = _
        unfold fmod
        push_cast
        ring
  obtain ⟨k, hk⟩ := hk
  have hq : quarter exact ((t + 4 * m) * (Real.pi / 2)) = t + 4 * ((m + k : ℤ) : ℝ) := by
    show fmodulo exact ((t + 4 * m) * (Real.pi / 2)) (2 * Real.pi) * (2 / Real.pi) = _
    rw [hk]
    push_cast
    field_simp
    ring
  obtain ⟨q0, q1⟩ := quarter_range ((t + 4 * m) * (Real.pi / 2))
  rw [hq] at q0 q1 ⊢
  have e1 : (-1 : ℝ) < ((m + k : ℤ) : ℝ) := by linarith
  have e2 : ((m + k : ℤ) : ℝ) < 1 := by linarith
  have e3 : m + k = 0 := by
    have : -1 < m + k := by exact_mod_cast e1
    have : m + k < 1 := by exact_mod_cast e2
    omega
  rw [e3]
  simp

variable {c : ℤ → Option ℤ} {n : ℤ} {k : ℕ} {z s phi t : ℝ}

/-- The belt. -/
theorem nest_belt (hnk : n = 2 ^ k) (hc : ∀ v, 0 ≤ v → v ≤ 5 * n → c v = some v) (hb : |z| ≤ 2 / 3) (ht : quarter exact phi = t) (t0 : 0 ≤ t) (t1 : t < 4) :
    ang2xyf exact c n z s phi = some (⌊n * (1 / 2 + t) + n * (z * (3 / 4))⌋ % n, n - ⌊n * (1 / 2 + t) - n * (z * (3 / 4))⌋ % n - 1,
      beltFace (⌊n * (1 / 2 + t) - n * (z * (3 / 4))⌋ / n) (⌊n * (1 / 2 + t) + n * (z * (3 / 4))⌋ / n)) := by
  have hn : 1 ≤ n := by rw [hnk]; exact one_le_pow₀ (by norm_num)
  obtain ⟨a0, a1, b0, b1, A0, B0⟩ := belt_floor hn t0 t1 hb
  unfold ang2xyf
  rw [ht]
  dsimp only
  rw [if_pos (show |z| ≤ exact.twothird from hb)]
  simp only [show exact.rnd = id from rfl, id, Option.bind_eq_bind]
  rw [trunc_nonneg A0, trunc_nonneg B0, hc _ a0 a1.le, Option.bind_some, hc _ b0 b1.le, Option.bind_some, Option.pure_def,
    Int.tdiv_eq_ediv_of_nonneg a0, Int.tdiv_eq_ediv_of_nonneg b0]
  subst hnk
  rw [andPred_pow a0, andPred_pow b0]

/-- Bounds and integer parts in the caps. -/
theorem cap_floor (hn : 1 ≤ n) {r tp : ℝ} (r0 : 0 ≤ r) (r1 : r < 1) (tp0 : 0 ≤ tp) (tp1 : tp < 1) :
    0 ≤ ⌊tp * (n * r)⌋ ∧ 0 ≤ ⌊(1 - tp) * (n * r)⌋ ∧ ⌊tp * (n * r)⌋ + ⌊(1 - tp) * (n * r)⌋ < n := by
  have hn' : (1 : ℝ) ≤ n := by exact_mod_cast hn
  have A0 : 0 ≤ tp * ((n : ℝ) * r) := by positivity
  have B0 : 0 ≤ (1 - tp) * ((n : ℝ) * r) := mul_nonneg (by linarith) (by positivity)
  refine ⟨Int.floor_nonneg.mpr A0, Int.floor_nonneg.mpr B0, ?_⟩
  have hA := Int.floor_le (tp * ((n : ℝ) * r))
  have hB := Int.floor_le ((1 - tp) * ((n : ℝ) * r))
  have : (⌊tp * ((n : ℝ) * r)⌋ : ℝ) + ⌊(1 - tp) * ((n : ℝ) * r)⌋ < n := by nlinarith
  exact_mod_cast this

theorem cap_root (hb : 2 / 3 < |z|) : 0 ≤ Real.sqrt (3 * (1 - |z|)) ∧ Real.sqrt (3 * (1 - |z|)) < 1 :=
  ⟨Real.sqrt_nonneg _, by rw [Real.sqrt_lt' one_pos]; linarith⟩

/-- The caps. -/
theorem nest_cap (hn : 1 ≤ n) (hc : ∀ v, 0 ≤ v → v ≤ 5 * n → c v = some v) (hz : |z| ≤ 1) (hb : 2 / 3 < |z|)
    (hs : s = -5 ∨ s = Real.sqrt (1 - |z| ^ 2)) (ht : quarter exact phi = t) (t0 : 0 ≤ t) (t1 : t < 4) :
    ang2xyf exact c n z s phi =
      some (if z ≥ 0 then (n - ⌊(1 - (t - ⌊t⌋)) * (n * Real.sqrt (3 * (1 - |z|)))⌋ - 1, n - ⌊(t - ⌊t⌋) * (n * Real.sqrt (3 * (1 - |z|)))⌋ - 1, ⌊t⌋)
        else (⌊(t - ⌊t⌋) * (n * Real.sqrt (3 * (1 - |z|)))⌋, ⌊(1 - (t - ⌊t⌋)) * (n * Real.sqrt (3 * (1 - |z|)))⌋, ⌊t⌋ + 8)) := by
  obtain ⟨r0, r1⟩ := cap_root hb
  have n0 : 0 ≤ ⌊t⌋ := Int.floor_nonneg.mpr t0
  have n1 : ⌊t⌋ < 4 := Int.floor_lt.mpr (by push_cast; exact t1)
  have tp0 : 0 ≤ t - ⌊t⌋ := by linarith [Int.floor_le t]
  have tp1 : t - ⌊t⌋ < 1 := by linarith [Int.lt_floor_add_one t]
  have hn' : (1 : ℝ) ≤ n := by exact_mod_cast hn
  unfold ang2xyf
  rw [ht]
  dsimp only
  rw [if_neg (not_le.mpr (show exact.twothird < |z| from hb)), polar_eq (abs_nonneg z) hz hs]
  simp only [show exact.rnd = id from rfl, id, Option.bind_eq_bind]
  generalize Real.sqrt (3 * (1 - |z|)) = r at *
  rw [trunc_nonneg t0, hc _ n0 (by omega), Option.bind_some, if_neg (by omega)]
  generalize t - (⌊t⌋ : ℝ) = tp at *
  obtain ⟨a0, b0, ab⟩ := cap_floor hn r0 r1 tp0 tp1
  rw [trunc_nonneg (by positivity), trunc_nonneg (mul_nonneg (by linarith) (by positivity)), hc _ a0 (by omega), Option.bind_some, hc _ b0 (by omega),
    Option.bind_some]
  generalize ⌊tp * ((n : ℝ) * r)⌋ = jp at *
  generalize ⌊(1 - tp) * ((n : ℝ) * r)⌋ = jm at *
  have g1 : ¬ jp ≥ n := by omega
  have g2 : ¬ jm ≥ n := by omega
  simp only [if_neg g1, if_neg g2]
  split_ifs <;> rfl

/-- The pixel of a direction, as coordinates on a face, by integer parts. -/
noncomputable def place (n : ℤ) (z t : ℝ) : ℤ × ℤ × ℤ :=
  if |z| ≤ 2 / 3 then (⌊n * (1 / 2 + t) + n * (z * (3 / 4))⌋ % n, n - ⌊n * (1 / 2 + t) - n * (z * (3 / 4))⌋ % n - 1,
    beltFace (⌊n * (1 / 2 + t) - n * (z * (3 / 4))⌋ / n) (⌊n * (1 / 2 + t) + n * (z * (3 / 4))⌋ / n))
  else if z ≥ 0 then (n - ⌊(1 - (t - ⌊t⌋)) * (n * Real.sqrt (3 * (1 - |z|)))⌋ - 1, n - ⌊(t - ⌊t⌋) * (n * Real.sqrt (3 * (1 - |z|)))⌋ - 1, ⌊t⌋)
  else (⌊(t - ⌊t⌋) * (n * Real.sqrt (3 * (1 - |z|)))⌋, ⌊(1 - (t - ⌊t⌋)) * (n * Real.sqrt (3 * (1 - |z|)))⌋, ⌊t⌋ + 8)

theorem nest_place (hnk : n = 2 ^ k) (hc : ∀ v, 0 ≤ v → v ≤ 5 * n → c v = some v) (hz : |z| ≤ 1)
    (hs : s = -5 ∨ s = Real.sqrt (1 - |z| ^ 2)) (ht : quarter exact phi = t) (t0 : 0 ≤ t) (t1 : t < 4) :
    ang2xyf exact c n z s phi = some (place n z t) := by
  have hn : 1 ≤ n := by rw [hnk]; exact one_le_pow₀ (by norm_num)
  unfold place
  rcases le_or_gt |z| (2 / 3) with hb | hb
  · rw [nest_belt hnk hc hb ht t0 t1, if_pos hb]
  · rw [nest_cap hn hc hz hb hs ht t0 t1, if_neg (not_le.mpr hb)]

/-- The two edge lines of the belt are at most one face apart. -/
theorem belt_faces (hn : 1 ≤ n) {t z : ℝ} (t0 : 0 ≤ t) (t1 : t < 4) (hb : |z| ≤ 2 / 3) :
    let ip := ⌊n * (1 / 2 + t) - n * (z * (3 / 4))⌋ / n
    let im := ⌊n * (1 / 2 + t) + n * (z * (3 / 4))⌋ / n
    0 ≤ ip ∧ ip ≤ 4 ∧ 0 ≤ im ∧ im ≤ 4 ∧ ip ≤ im + 1 ∧ im ≤ ip + 1 := by
  intro ip im
  obtain ⟨a0, a1, b0, b1, A0, B0⟩ := belt_floor hn t0 t1 hb
  have hn' : (1 : ℝ) ≤ n := by exact_mod_cast hn
  obtain ⟨z0, z1⟩ := abs_le.mp hb
  have hA := Int.floor_le ((n : ℝ) * (1 / 2 + t) - n * (z * (3 / 4)))
  have hA' := Int.lt_floor_add_one ((n : ℝ) * (1 / 2 + t) - n * (z * (3 / 4)))
  have hB := Int.floor_le ((n : ℝ) * (1 / 2 + t) + n * (z * (3 / 4)))
  have hB' := Int.lt_floor_add_one ((n : ℝ) * (1 / 2 + t) + n * (z * (3 / 4)))
  have hzn : |(n : ℝ) * (z * (3 / 4))| ≤ n / 2 := by
    rw [abs_mul, abs_of_pos (by linarith : (0 : ℝ) < n), abs_mul, abs_of_pos (by norm_num : (0 : ℝ) < 3 / 4)]
    nlinarith
  obtain ⟨w0, w1⟩ := abs_le.mp hzn
  have d1 : ⌊(n : ℝ) * (1 / 2 + t) + n * (z * (3 / 4))⌋ ≤ ⌊(n : ℝ) * (1 / 2 + t) - n * (z * (3 / 4))⌋ + n := by
    have : ⌊(n : ℝ) * (1 / 2 + t) + n * (z * (3 / 4))⌋ < ⌊(n : ℝ) * (1 / 2 + t) - n * (z * (3 / 4))⌋ + n + 1 := by
      have : ((⌊(n : ℝ) * (1 / 2 + t) + n * (z * (3 / 4))⌋ : ℤ) : ℝ) < ⌊(n : ℝ) * (1 / 2 + t) - n * (z * (3 / 4))⌋ + n + 1 := by linarith
      exact_mod_cast this
    omega
  have d2 : ⌊(n : ℝ) * (1 / 2 + t) - n * (z * (3 / 4))⌋ ≤ ⌊(n : ℝ) * (1 / 2 + t) + n * (z * (3 / 4))⌋ + n := by
    have : ⌊(n : ℝ) * (1 / 2 + t) - n * (z * (3 / 4))⌋ < ⌊(n : ℝ) * (1 / 2 + t) + n * (z * (3 / 4))⌋ + n + 1 := by
      have : ((⌊(n : ℝ) * (1 / 2 + t) - n * (z * (3 / 4))⌋ : ℤ) : ℝ) < ⌊(n : ℝ) * (1 / 2 + t) + n * (z * (3 / 4))⌋ + n + 1 := by linarith
      exact_mod_cast this
    omega
  refine ⟨Int.ediv_nonneg a0 (by omega), ?_, Int.ediv_nonneg b0 (by omega), ?_, ?_, ?_⟩
  · have := Int.ediv_lt_of_lt_mul (by omega : 0 < n) a1; omega
  · have := Int.ediv_lt_of_lt_mul (by omega : 0 < n) b1; omega
  · have := Int.ediv_le_ediv (by omega : 0 < n) d2
    rwa [Int.add_ediv_of_dvd_right (dvd_refl n), Int.ediv_self (by omega)] at this
  · have := Int.ediv_le_ediv (by omega : 0 < n) d1
    rwa [Int.add_ediv_of_dvd_right (dvd_refl n), Int.ediv_self (by omega)] at this

end SatSky.Healpix
