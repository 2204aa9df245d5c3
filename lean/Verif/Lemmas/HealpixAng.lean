import Verif.Model.HealpixDir
import Verif.Lemmas.HealpixBij
import Mathlib.Analysis.SpecialFunctions.Trigonometric.Inverse

/-! Directions and pixels in exact arithmetic. -/

namespace SatSky.Healpix

open SatSky

theorem trunc_nonneg {x : ℝ} (h : 0 ≤ x) : trunc x = ⌊x⌋ := if_pos h

theorem fmodulo_range (v : ℝ) {m : ℝ} (hm : 0 < m) : 0 ≤ fmodulo exact v m ∧ fmodulo exact v m < m := by
  unfold fmodulo
  by_cases h : v ≥ 0
  · rw [if_pos h]
    by_cases h2 : v < m
    · rw [if_pos h2]; exact ⟨h, h2⟩
    · rw [if_neg h2]
      unfold fmod
      rw [trunc_nonneg (by positivity)]
      have a := Int.floor_le (v / m)
      have b := Int.lt_floor_add_one (v / m)
      rw [le_div_iff₀ hm] at a
      rw [div_lt_iff₀ hm] at b
      constructor <;> nlinarith
  · rw [if_neg h]
    have hv : v < 0 := not_le.mp h
    have hq : v / m < 0 := div_neg_of_neg_of_pos hv hm
    have e : fmod v m = v - m * (⌈v / m⌉ : ℤ) := by
      unfold fmod trunc; rw [if_neg (not_le.mpr hq)]
    have a := Int.le_ceil (v / m)
    have b := Int.ceil_lt_add_one (v / m)
    rw [div_le_iff₀ hm] at a
    have b' : (⌈v / m⌉ : ℝ) * m < v + m := by
      have := mul_lt_mul_of_pos_right b hm
      rwa [add_mul, div_mul_cancel₀ _ hm.ne', one_mul] at this
    show 0 ≤ (if fmod v m + m = m then (0 : ℝ) else fmod v m + m) ∧ (if fmod v m + m = m then (0 : ℝ) else fmod v m + m) < m
    rw [e]
    split_ifs with h3
    · exact ⟨le_refl _, hm⟩
    · constructor
      · nlinarith
      · rcases lt_or_eq_of_le a with h4 | h4
        · nlinarith
        · exact absurd (by linarith) h3

theorem quarter_range (phi : ℝ) : 0 ≤ quarter exact phi ∧ quarter exact phi < 4 := by
  have hp := Real.pi_pos
  obtain ⟨a, b⟩ := fmodulo_range phi (m := 2 * Real.pi) (by positivity)
  show 0 ≤ fmodulo exact phi (2 * Real.pi) * (2 / Real.pi) ∧ fmodulo exact phi (2 * Real.pi) * (2 / Real.pi) < 4
  constructor
  · positivity
  · rw [← mul_div_assoc, div_lt_iff₀ hp]; linarith

theorem quarter_eq {t : ℝ} (h0 : 0 ≤ t) (h1 : t < 4) : quarter exact (t * (Real.pi / 2)) = t := by
  have hp := Real.pi_pos
  show fmodulo exact (t * (Real.pi / 2)) (2 * Real.pi) * (2 / Real.pi) = t
  unfold fmodulo
  rw [if_pos (by positivity), if_pos (by nlinarith)]
  field_simp

/-- The distance from the pole, when the sine is that of the direction or not given. -/
theorem polar_eq {n : ℤ} {za s : ℝ} (h0 : 0 ≤ za) (h1 : za ≤ 1) (hs : s = -5 ∨ s = Real.sqrt (1 - za ^ 2)) :
    polar exact n za s = n * Real.sqrt (3 * (1 - za)) := by
  rcases hs with rfl | rfl
  · unfold polar; rw [if_neg (by norm_num)]; rfl
  · have hr := Real.sqrt_nonneg (1 - za ^ 2)
    unfold polar; rw [if_pos (by linarith)]
    show (n * Real.sqrt (1 - za ^ 2)) / Real.sqrt ((1 + za) / 3) = _
    have e : Real.sqrt (1 - za ^ 2) = Real.sqrt (3 * (1 - za)) * Real.sqrt ((1 + za) / 3) := by
      rw [← Real.sqrt_mul (by nlinarith)]; congr 1; ring
    rw [e, ← mul_assoc, mul_div_assoc, div_self (Real.sqrt_ne_zero'.mpr (by positivity)), mul_one]

theorem andPred_pow {a : ℤ} (h : 0 ≤ a) (k : ℕ) : andPred a (2 ^ k) = a % 2 ^ k := by
  unfold andPred
  obtain ⟨m, rfl⟩ : ∃ m : ℕ, a = m := ⟨a.toNat, by omega⟩
  have e : ((2 : ℤ) ^ k - 1).toNat = 2 ^ k - 1 := by
    have : (2 : ℤ) ^ k - 1 = ((2 ^ k - 1 : ℕ) : ℤ) := by
      rw [Nat.cast_sub Nat.one_le_two_pow]; push_cast; rfl
    rw [this, Int.toNat_natCast]
  rw [e, Int.toNat_natCast, Nat.and_two_pow_sub_one_eq_mod]
  push_cast
  rfl

/-- Bounds and integer parts in the belt. -/
theorem belt_floor {n : ℤ} (hn : 1 ≤ n) {t z : ℝ} (t0 : 0 ≤ t) (t1 : t < 4) (hz : |z| ≤ 2 / 3) :
    0 ≤ ⌊n * (1 / 2 + t) - n * (z * (3 / 4))⌋ ∧ ⌊n * (1 / 2 + t) - n * (z * (3 / 4))⌋ < 5 * n
    ∧ 0 ≤ ⌊n * (1 / 2 + t) + n * (z * (3 / 4))⌋ ∧ ⌊n * (1 / 2 + t) + n * (z * (3 / 4))⌋ < 5 * n
    ∧ 0 ≤ n * (1 / 2 + t) - n * (z * (3 / 4)) ∧ 0 ≤ n * (1 / 2 + t) + n * (z * (3 / 4)) := by
  have hn' : (1 : ℝ) ≤ n := by exact_mod_cast hn
  obtain ⟨z0, z1⟩ := abs_le.mp hz
  have a : 0 ≤ n * (1 / 2 + t) - n * (z * (3 / 4)) := by
    have : 0 ≤ (n : ℝ) * (1 / 2 + t - z * (3 / 4)) := mul_nonneg (by linarith) (by linarith)
    linarith
  have b : 0 ≤ n * (1 / 2 + t) + n * (z * (3 / 4)) := by
    have : 0 ≤ (n : ℝ) * (1 / 2 + t + z * (3 / 4)) := mul_nonneg (by linarith) (by linarith)
    linarith
  refine ⟨Int.floor_nonneg.mpr a, Int.floor_lt.mpr ?_, Int.floor_nonneg.mpr b, Int.floor_lt.mpr ?_, a, b⟩
  · push_cast; nlinarith
  · push_cast; nlinarith

theorem beltFace_range {a b : ℤ} (a0 : 0 ≤ a) (a1 : a < 5) (b0 : 0 ≤ b) (b1 : b < 5) : 0 ≤ beltFace a b ∧ beltFace a b < 12 := by
  unfold beltFace
  split_ifs
  · interval_cases a <;> exact ⟨by decide, by decide⟩
  · omega
  · omega

/-- Type large enough for the edge line numbers. -/
theorem ang2xyf_range {c : ℤ → Option ℤ} {k : ℕ} (hc : ∀ v, 0 ≤ v → v ≤ 5 * 2 ^ k → c v = some v) {z s : ℝ} (phi : ℝ)
    (hz : |z| ≤ 1) (hs : s = -5 ∨ s = Real.sqrt (1 - |z| ^ 2)) :
    ∃ x y f, ang2xyf exact c (2 ^ k) z s phi = some (x, y, f) ∧ (0 ≤ x ∧ x < 2 ^ k) ∧ (0 ≤ y ∧ y < 2 ^ k) ∧ 0 ≤ f ∧ f < 12 := by
  have hn : (1 : ℤ) ≤ 2 ^ k := one_le_pow₀ (by norm_num)
  have hn' : (1 : ℝ) ≤ ((2 ^ k : ℤ) : ℝ) := by exact_mod_cast hn
  obtain ⟨t0, t1⟩ := quarter_range phi
  unfold ang2xyf
  generalize quarter exact phi = t at *
  by_cases hb : |z| ≤ exact.twothird
  · dsimp only
    rw [if_pos hb]
    obtain ⟨a0, a1, b0, b1, A0, B0⟩ := belt_floor hn t0 t1 (show |z| ≤ 2 / 3 from hb)
    simp only [show exact.rnd = id from rfl, id, Option.bind_eq_bind]
    rw [trunc_nonneg A0, trunc_nonneg B0, hc _ a0 a1.le, Option.bind_some, hc _ b0 b1.le,
      Option.bind_some, Option.pure_def, andPred_pow a0, andPred_pow b0]
    generalize ⌊((2 ^ k : ℤ) : ℝ) * (1 / 2 + t) - ((2 ^ k : ℤ) : ℝ) * (z * (3 / 4))⌋ = jp at *
    generalize ⌊((2 ^ k : ℤ) : ℝ) * (1 / 2 + t) + ((2 ^ k : ℤ) : ℝ) * (z * (3 / 4))⌋ = jm at *
    have m1 := Int.emod_nonneg jm (show (2 : ℤ) ^ k ≠ 0 by omega)
    have m2 := Int.emod_lt_of_pos jm (show (0 : ℤ) < 2 ^ k by omega)
    have m3 := Int.emod_nonneg jp (show (2 : ℤ) ^ k ≠ 0 by omega)
    have m4 := Int.emod_lt_of_pos jp (show (0 : ℤ) < 2 ^ k by omega)
    have f1 : 0 ≤ jp.tdiv (2 ^ k) := Int.tdiv_nonneg a0 (by omega)
    have f2 : jp.tdiv (2 ^ k) < 5 := by
      rw [Int.tdiv_eq_ediv_of_nonneg a0]; exact Int.ediv_lt_of_lt_mul (by omega) a1
    have f3 : 0 ≤ jm.tdiv (2 ^ k) := Int.tdiv_nonneg b0 (by omega)
    have f4 : jm.tdiv (2 ^ k) < 5 := by
      rw [Int.tdiv_eq_ediv_of_nonneg b0]; exact Int.ediv_lt_of_lt_mul (by omega) b1
    exact ⟨_, _, _, rfl, ⟨m1, m2⟩, ⟨by omega, by omega⟩, beltFace_range f1 f2 f3 f4⟩
  · have hb' : 2 / 3 < |z| := not_le.mp hb
    dsimp only
    rw [if_neg hb, polar_eq (abs_nonneg z) hz hs]
    simp only [show exact.rnd = id from rfl, id, Option.bind_eq_bind]
    have r0 := Real.sqrt_nonneg (3 * (1 - |z|))
    have r1 : Real.sqrt (3 * (1 - |z|)) < 1 := by
      rw [Real.sqrt_lt' one_pos]; linarith
    generalize Real.sqrt (3 * (1 - |z|)) = r at *
    have n0 : 0 ≤ ⌊t⌋ := Int.floor_nonneg.mpr t0
    have n1 : ⌊t⌋ < 4 := Int.floor_lt.mpr (by push_cast; exact t1)
    have tp0 : 0 ≤ t - ⌊t⌋ := by linarith [Int.floor_le t]
    have tp1 : t - ⌊t⌋ < 1 := by linarith [Int.lt_floor_add_one t]
    rw [trunc_nonneg t0, hc _ n0 (by omega), Option.bind_some]
    rw [if_neg (by omega)]
    generalize t - (⌊t⌋ : ℝ) = tp at *
    have A0 : 0 ≤ tp * (((2 ^ k : ℤ) : ℝ) * r) := by positivity
    have B0 : 0 ≤ (1 - tp) * (((2 ^ k : ℤ) : ℝ) * r) := mul_nonneg (by linarith) (by positivity)
    have A1 : tp * (((2 ^ k : ℤ) : ℝ) * r) < ((2 ^ k : ℤ) : ℝ) := by
      have : tp * r < 1 := by nlinarith
      nlinarith
    have B1 : (1 - tp) * (((2 ^ k : ℤ) : ℝ) * r) < ((2 ^ k : ℤ) : ℝ) := by
      have : (1 - tp) * r < 1 := by nlinarith
      nlinarith
    have a0 := Int.floor_nonneg.mpr A0
    have b0 := Int.floor_nonneg.mpr B0
    have a1 := Int.floor_lt.mpr A1
    have b1 := Int.floor_lt.mpr B1
    rw [trunc_nonneg A0, trunc_nonneg B0, hc _ a0 (by omega), Option.bind_some, hc _ b0 (by omega), Option.bind_some]
    generalize ⌊tp * (((2 ^ k : ℤ) : ℝ) * r)⌋ = jp at *
    generalize ⌊(1 - tp) * (((2 ^ k : ℤ) : ℝ) * r)⌋ = jm at *
    have g1 : ¬ jp ≥ 2 ^ k := by omega
    have g2 : ¬ jm ≥ 2 ^ k := by omega
    simp only [if_neg g1, if_neg g2]
    by_cases hpos : z ≥ 0
    · rw [if_pos hpos]
      exact ⟨_, _, _, rfl, ⟨by omega, by omega⟩, ⟨by omega, by omega⟩, by omega, by omega⟩
    · rw [if_neg hpos]
      exact ⟨_, _, _, rfl, ⟨by omega, by omega⟩, ⟨by omega, by omega⟩, by omega, by omega⟩

/-- Index in the RING numbering. -/
theorem ang2ring_range {c u isq : ℤ → Option ℤ} {n : ℤ} (E : Env c u isq n) {z s : ℝ} (phi : ℝ)
    (hz : |z| ≤ 1) (hs : s = -5 ∨ s = Real.sqrt (1 - |z| ^ 2)) :
    ∃ p, ang2pixRing exact c n z s phi = some p ∧ 0 ≤ p ∧ p < 12 * n * n := by
  have hn := E.pos
  have hn' : (1 : ℝ) ≤ n := by exact_mod_cast hn
  have hnn : n ≤ n * n := by nlinarith
  have h12 : 12 * n ≤ 12 * n * n := by nlinarith
  obtain ⟨t0, t1⟩ := quarter_range phi
  unfold ang2pixRing
  generalize quarter exact phi = t at *
  by_cases hb : |z| ≤ exact.twothird
  · dsimp only
    rw [if_pos hb]
    have hz' : |z| ≤ 2 / 3 := hb
    obtain ⟨a0, a1, b0, b1, A0, B0⟩ := belt_floor hn t0 t1 hz'
    simp only [show exact.rnd = id from rfl, id, Option.bind_eq_bind, show (n : ℝ) * z * (3 / 4) = n * (z * (3 / 4)) by ring]
    obtain ⟨z0, z1⟩ := abs_le.mp hz'
    have hA := Int.floor_le ((n : ℝ) * (1 / 2 + t) - n * (z * (3 / 4)))
    have hA' := Int.lt_floor_add_one ((n : ℝ) * (1 / 2 + t) - n * (z * (3 / 4)))
    have hB := Int.floor_le ((n : ℝ) * (1 / 2 + t) + n * (z * (3 / 4)))
    have hB' := Int.lt_floor_add_one ((n : ℝ) * (1 / 2 + t) + n * (z * (3 / 4)))
    rw [trunc_nonneg A0, trunc_nonneg B0]
    generalize ⌊(n : ℝ) * (1 / 2 + t) - (n : ℝ) * (z * (3 / 4))⌋ = jp at *
    generalize ⌊(n : ℝ) * (1 / 2 + t) + (n : ℝ) * (z * (3 / 4))⌋ = jm at *
    have d1 : jm - jp < n + 1 := by
      have : (jm : ℝ) - jp < n + 1 := by nlinarith
      exact_mod_cast this
    have d2 : jp - jm < n + 1 := by
      have : (jp : ℝ) - jm < n + 1 := by nlinarith
      exact_mod_cast this
    have d3 : n - 2 < jp + jm := by
      have : (n : ℝ) - 2 < jp + jm := by nlinarith
      exact_mod_cast this
    rw [E.hc jp (by nlinarith) (by nlinarith), Option.bind_some, E.hc jm (by nlinarith) (by nlinarith), Option.bind_some,
      E.hc (n + 1 + jp - jm) (by nlinarith) (by nlinarith), Option.bind_some,
      E.hc (jp + jm - n + (1 - (n + 1 + jp - jm) % 2) + 1) (by omega) (by omega), Option.bind_some, if_neg (by omega)]
    have i0 : 0 ≤ n + 1 + jp - jm - 1 := by omega
    have i1 : n + 1 + jp - jm - 1 ≤ 2 * n := by omega
    have q0 : 0 ≤ (jp + jm - n + (1 - (n + 1 + jp - jm) % 2) + 1).tdiv 2 := Int.tdiv_nonneg (by omega) (by omega)
    generalize (jp + jm - n + (1 - (n + 1 + jp - jm) % 2) + 1).tdiv 2 = q at *
    generalize n + 1 + jp - jm - 1 = ir at *
    have m0 : 0 ≤ imodulo q (4 * n) ∧ imodulo q (4 * n) < 4 * n := by
      unfold imodulo
      rw [Int.tmod_eq_emod_of_nonneg q0]
      have := Int.emod_nonneg q (show 4 * n ≠ 0 by omega)
      have := Int.emod_lt_of_pos q (show 0 < 4 * n by omega)
      dsimp only
      rw [if_pos (by omega)]; omega
    obtain ⟨m0, m1⟩ := m0
    generalize imodulo q (4 * n) = ip at *
    have j1 : ir * 4 * n ≤ 2 * n * 4 * n := by nlinarith
    have j0 : 0 ≤ ir * 4 * n := by positivity
    have k0 : 0 ≤ n * (n - 1) * 2 := by nlinarith
    exact ⟨_, E.hc _ (by nlinarith) (by nlinarith), by nlinarith, by nlinarith⟩
  · have hb' : 2 / 3 < |z| := not_le.mp hb
    dsimp only
    rw [if_neg hb, polar_eq (abs_nonneg z) hz hs]
    simp only [show exact.rnd = id from rfl, id, Option.bind_eq_bind]
    have r0 := Real.sqrt_nonneg (3 * (1 - |z|))
    have r1 : Real.sqrt (3 * (1 - |z|)) < 1 := by
      rw [Real.sqrt_lt' one_pos]; linarith
    generalize Real.sqrt (3 * (1 - |z|)) = r at *
    have n0 : 0 ≤ ⌊t⌋ := Int.floor_nonneg.mpr t0
    have n1 : ⌊t⌋ < 4 := Int.floor_lt.mpr (by push_cast; exact t1)
    have tp0 : 0 ≤ t - ⌊t⌋ := by linarith [Int.floor_le t]
    have tp1 : t - ⌊t⌋ < 1 := by linarith [Int.lt_floor_add_one t]
    rw [trunc_nonneg t0, E.hc _ (by omega) (by nlinarith), Option.bind_some]
    generalize t - (⌊t⌋ : ℝ) = tp at *
    have A0 : 0 ≤ tp * ((n : ℝ) * r) := by positivity
    have B0 : 0 ≤ (1 - tp) * ((n : ℝ) * r) := mul_nonneg (by linarith) (by positivity)
    have hA := Int.floor_le (tp * ((n : ℝ) * r))
    have hB := Int.floor_le ((1 - tp) * ((n : ℝ) * r))
    have a0 := Int.floor_nonneg.mpr A0
    have b0 := Int.floor_nonneg.mpr B0
    rw [trunc_nonneg A0, trunc_nonneg B0]
    generalize ⌊tp * ((n : ℝ) * r)⌋ = jp at *
    generalize ⌊(1 - tp) * ((n : ℝ) * r)⌋ = jm at *
    have d : jp + jm < n := by
      have : (jp : ℝ) + jm < n := by nlinarith
      exact_mod_cast this
    rw [E.hc jp (by nlinarith) (by nlinarith), Option.bind_some, E.hc jm (by nlinarith) (by nlinarith), Option.bind_some,
      E.hc (jp + jm + 1) (by nlinarith) (by nlinarith), Option.bind_some]
    have i0 : 1 ≤ jp + jm + 1 := by omega
    have i1 : jp + jm + 1 ≤ n := by omega
    generalize jp + jm + 1 = ir at *
    have i0' : (1 : ℝ) ≤ ir := by exact_mod_cast i0
    have C0 : 0 ≤ t * (ir : ℝ) := by positivity
    have c0 := Int.floor_nonneg.mpr C0
    have c1 : ⌊t * (ir : ℝ)⌋ < 4 * ir := Int.floor_lt.mpr (by push_cast; nlinarith)
    rw [trunc_nonneg C0]
    generalize ⌊t * (ir : ℝ)⌋ = ip at *
    have mm : imodulo ip (4 * ir) = ip := by
      unfold imodulo
      rw [Int.tmod_eq_emod_of_nonneg c0, Int.emod_eq_of_lt c0 c1]
      dsimp only
      rw [if_pos (by omega)]
    have k1 : 2 * ir * (ir - 1) ≤ 2 * n * (n - 1) := by nlinarith
    have k2 : 2 * ir * (ir + 1) ≤ 2 * n * (n + 1) := by nlinarith
    have k0 : 0 ≤ 2 * ir * (ir - 1) := by nlinarith
    have k3 : ir ≤ ir * ir := by nlinarith
    rw [E.hc ip (by linarith) (by linarith), Option.bind_some, if_neg (by omega), mm]
    by_cases hpos : z > 0
    · rw [if_pos hpos]
      exact ⟨_, E.hc _ (by linarith) (by linarith), by linarith, by linarith⟩
    · rw [if_neg hpos]
      exact ⟨_, E.hc _ (by linarith) (by linarith), by linarith, by linarith⟩

end SatSky.Healpix
