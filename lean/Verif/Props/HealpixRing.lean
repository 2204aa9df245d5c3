import Verif.Lemmas.HealpixBij

/-! C43: RING and NESTED numbers; C46: pixel counts. -/

namespace SatSky.Props

open SatSky SatSky.Healpix SatSky.Spec.Healpix

theorem nat_toInt32 {v : ℤ} (h0 : 0 ≤ v) (h1 : v < 2 ^ 31) : toInt32 v = v := by
  unfold toInt32
  rw [Int.emod_eq_of_lt (by omega) (by omega)]
  omega

theorem pow_le_z {k m : ℕ} (h : k ≤ m) : (2 : ℤ) ^ k ≤ 2 ^ m := pow_le_pow_right₀ (by norm_num) h

theorem one_le_z (k : ℕ) : (1 : ℤ) ≤ 2 ^ k := one_le_pow₀ (by norm_num)

theorem z_pow (k : ℕ) : (2 : ℤ) ^ k = ((2 ^ k : ℕ) : ℤ) := by push_cast; rfl

theorem notPow2_pow {k : ℕ} (hk : k ≤ 62) : notPow2 (2 ^ k) = false := by
  rw [z_pow]
  exact (notPow2_pos (by positivity) (Nat.pow_lt_pow_right (by norm_num) (by omega))).mpr ⟨k, rfl⟩

theorem nest2ring_unfold {k : ℕ} (hk : k ≤ 13) {p : ℕ} (hp : p < 12 * (2 ^ k * 2 ^ k)) {x y f : ℕ}
    (h : nest2xyf (2 ^ k) p = some (x, y, f)) : nest2ring (2 ^ k) p = xyf2ringG (signed 31) (2 ^ k) x y f := by
  have h1 := one_le_z k
  have h2 := pow_le_z hk
  have hp' : (p : ℤ) < 12 * (2 ^ k * 2 ^ k) := by exact_mod_cast hp
  have hp2 : (p : ℤ) < 2 ^ 31 := by nlinarith
  unfold nest2ring
  rw [if_neg (by omega), notPow2_pow (by omega), nat_toInt32 (by omega) (by omega), nat_toInt32 (by omega) hp2]
  simp only [Bool.false_eq_true, if_false, Option.bind_eq_bind]
  rw [if_neg (by omega), z_pow, Int.toNat_natCast, Int.toNat_natCast, h, Option.bind_some]

theorem ring2nest_unfold (F : Fl64) (R : Root) {k : ℕ} (hk : k ≤ 13) {q : ℤ} (h0 : 0 ≤ q) (hq : q < 12 * 2 ^ k * 2 ^ k) {x y f : ℕ}
    (h : ring2xyfG (signed 31) unsigned32 (isqrt F R) (2 ^ k) q = some ((x : ℤ), (y : ℤ), f)) :
    ring2nest F R (2 ^ k) q = (xyf2nest (2 ^ k) x y f).map (fun r => (r : ℤ)) := by
  have h1 := one_le_z k
  have h2 := pow_le_z hk
  have hp2 : q < 2 ^ 31 := by nlinarith
  unfold ring2nest
  rw [if_neg (by omega), notPow2_pow (by omega), nat_toInt32 (by omega) (by omega), nat_toInt32 h0 hp2]
  simp only [Bool.false_eq_true, if_false, Option.bind_eq_bind]
  rw [if_neg (by omega), h]
  simp only [Option.bind_some]
  rw [if_neg (by omega), z_pow, Int.toNat_natCast, Int.toNat_natCast, Int.toNat_natCast]
  cases xyf2nest (2 ^ k) x y f <;> rfl

/-- **C43**, 32 bit: for every `nside = 2^k` up to 8192, `nest2ring` and `ring2nest` are defined on all pixel
numbers, stay in the range, and undo each other.

Missing: larger powers of two, for which the 32 bit version overflows (`C43_size_violated`), and `nside = 0`
(`C43_zero_violated`). -/
theorem C43_inverse_partial (F : Fl64) (R : Root) {k : ℕ} (hk : k ≤ 13) :
    (∀ p : ℤ, 0 ≤ p → p < 12 * 2 ^ k * 2 ^ k → ∃ q, nest2ring (2 ^ k) p = some q ∧ 0 ≤ q ∧ q < 12 * 2 ^ k * 2 ^ k
      ∧ ring2nest F R (2 ^ k) q = some p)
    ∧ (∀ q : ℤ, 0 ≤ q → q < 12 * 2 ^ k * 2 ^ k → ∃ p, ring2nest F R (2 ^ k) q = some p ∧ 0 ≤ p ∧ p < 12 * 2 ^ k * 2 ^ k
      ∧ nest2ring (2 ^ k) p = some q) := by
  have E := env32 F R (one_le_z k) (pow_le_z hk)
  constructor
  · intro p h0 h1
    obtain ⟨m, rfl⟩ : ∃ m : ℕ, p = m := ⟨p.toNat, by omega⟩
    have hm : m < 12 * (2 ^ k * 2 ^ k) := by rw [← mul_assoc]; exact_mod_cast h1
    obtain ⟨x, y, f, e, hf, -, e2⟩ := (C42_nest hk).2 m hm
    have hx : (0 : ℤ) ≤ x ∧ (x : ℤ) < 2 ^ k := ⟨by omega, by exact_mod_cast hf.x⟩
    have hy : (0 : ℤ) ≤ y ∧ (y : ℤ) < 2 ^ k := ⟨by omega, by exact_mod_cast hf.y⟩
    obtain ⟨part, i, j, q, A, hb⟩ := ring_of_xyf E hf.f hx hy
    obtain ⟨r0, r1⟩ := A.range E
    refine ⟨q, by rw [nest2ring_unfold hk hm e, A.num], r0, r1, ?_⟩
    rw [ring2nest_unfold F R hk r0 r1 hb, e2]
    rfl
  · intro q h0 h1
    obtain ⟨x, y, f, hf, hx, hy, hn, hb⟩ := ring_surj E h0 h1
    obtain ⟨x, rfl⟩ : ∃ m : ℕ, x = m := ⟨x.toNat, by omega⟩
    obtain ⟨y, rfl⟩ : ∃ m : ℕ, y = m := ⟨y.toNat, by omega⟩
    have hof : OnFace (2 ^ k) x y f := ⟨by exact_mod_cast hx.2, by exact_mod_cast hy.2, hf⟩
    obtain ⟨p, e, -, hp, e2⟩ := (C42_nest hk).1 x y f hof
    refine ⟨p, ?_, by omega, by rw [mul_assoc]; exact_mod_cast hp, ?_⟩
    · rw [ring2nest_unfold F R hk h0 h1 hb, e]; rfl
    · rw [nest2ring_unfold hk hp e2, hn]

theorem nest2ring64_unfold {k : ℕ} (hk : k ≤ 29) {p : ℕ} {x y f : ℕ}
    (h : nest2xyf64 (2 ^ k) p = some (x, y, f)) : nest2ring64 (2 ^ k) p = xyf2ringG (signed 63) (2 ^ k) x y f := by
  have h1 := one_le_z k
  unfold nest2ring64
  rw [if_neg (by omega), notPow2_pow (by omega)]
  simp only [Bool.false_eq_true, if_false, Option.bind_eq_bind]
  rw [if_neg (by omega), z_pow, Int.toNat_natCast, Int.toNat_natCast, h, Option.bind_some]

theorem ring2nest64_unfold (F : Fl64) (R : Root) {k : ℕ} (hk : k ≤ 29) {q : ℤ} (h0 : 0 ≤ q) {x y f : ℕ}
    (h : ring2xyfG (signed 63) (signed 63) (isqrt64 F R) (2 ^ k) q = some ((x : ℤ), (y : ℤ), f)) :
    ring2nest64 F R (2 ^ k) q = (xyf2nest64 (2 ^ k) x y f).map (fun r => (r : ℤ)) := by
  have h1 := one_le_z k
  unfold ring2nest64
  rw [if_neg (by omega), notPow2_pow (by omega)]
  simp only [Bool.false_eq_true, if_false, Option.bind_eq_bind]
  rw [if_neg (by omega), h]
  simp only [Option.bind_some]
  rw [if_neg (by omega), z_pow, Int.toNat_natCast, Int.toNat_natCast, Int.toNat_natCast]
  cases xyf2nest64 (2 ^ k) x y f <;> rfl

/-- **C43**, 64 bit: the same for every `nside = 2^k` up to `2^29`. -/
theorem C43_inverse64_partial (F : Fl64) (R : Root) {k : ℕ} (hk : k ≤ 29) :
    (∀ p : ℤ, 0 ≤ p → p < 12 * 2 ^ k * 2 ^ k → ∃ q, nest2ring64 (2 ^ k) p = some q ∧ 0 ≤ q ∧ q < 12 * 2 ^ k * 2 ^ k
      ∧ ring2nest64 F R (2 ^ k) q = some p)
    ∧ (∀ q : ℤ, 0 ≤ q → q < 12 * 2 ^ k * 2 ^ k → ∃ p, ring2nest64 F R (2 ^ k) q = some p ∧ 0 ≤ p ∧ p < 12 * 2 ^ k * 2 ^ k
      ∧ nest2ring64 (2 ^ k) p = some q) := by
  have E := env64 F R (one_le_z k) (pow_le_z hk)
  constructor
  · intro p h0 h1
    obtain ⟨m, rfl⟩ : ∃ m : ℕ, p = m := ⟨p.toNat, by omega⟩
    have hm : m < 12 * (2 ^ k * 2 ^ k) := by rw [← mul_assoc]; exact_mod_cast h1
    obtain ⟨x, y, f, e, hf, -, e2⟩ := (C42_nest64 hk).2 m hm
    have hx : (0 : ℤ) ≤ x ∧ (x : ℤ) < 2 ^ k := ⟨by omega, by exact_mod_cast hf.x⟩
    have hy : (0 : ℤ) ≤ y ∧ (y : ℤ) < 2 ^ k := ⟨by omega, by exact_mod_cast hf.y⟩
    obtain ⟨part, i, j, q, A, hb⟩ := ring_of_xyf E hf.f hx hy
    obtain ⟨r0, r1⟩ := A.range E
    refine ⟨q, by rw [nest2ring64_unfold hk e, A.num], r0, r1, ?_⟩
    rw [ring2nest64_unfold F R hk r0 hb, e2]
    rfl
  · intro q h0 h1
    obtain ⟨x, y, f, hf, hx, hy, hn, hb⟩ := ring_surj E h0 h1
    obtain ⟨x, rfl⟩ : ∃ m : ℕ, x = m := ⟨x.toNat, by omega⟩
    obtain ⟨y, rfl⟩ : ∃ m : ℕ, y = m := ⟨y.toNat, by omega⟩
    have hof : OnFace (2 ^ k) x y f := ⟨by exact_mod_cast hx.2, by exact_mod_cast hy.2, hf⟩
    obtain ⟨p, e, -, hp, e2⟩ := (C42_nest64 hk).1 x y f hof
    refine ⟨p, ?_, by omega, by rw [mul_assoc]; exact_mod_cast hp, ?_⟩
    · rw [ring2nest64_unfold F R hk h0 hb, e]; rfl
    · rw [nest2ring64_unfold hk e2, hn]

/-- **C43**: any other `nside` except 0 and the smallest `long` gives -1. -/
theorem C43_other_nside (F : Fl64) (R : Root) {n : ℤ} (h1 : -2 ^ 63 < n) (h2 : n < 2 ^ 63) (h0 : n ≠ 0) (hp : ∀ k : ℕ, n ≠ 2 ^ k) (p : ℤ) :
    nest2ring n p = some (-1) ∧ ring2nest F R n p = some (-1) ∧ nest2ring64 n p = some (-1) ∧ ring2nest64 F R n p = some (-1) := by
  have hb : notPow2 n = true := by
    rcases lt_or_gt_of_ne h0 with hn | hn
    · exact notPow2_neg hn h1
    · obtain ⟨m, rfl⟩ : ∃ m : ℕ, n = m := ⟨n.toNat, by omega⟩
      by_contra hc
      obtain ⟨k, hk⟩ := (notPow2_pos (by omega) (by omega)).mp (Bool.not_eq_true _ ▸ hc)
      exact hp k (by rw [hk]; push_cast; rfl)
  have hne : n ≠ -2 ^ 63 := by omega
  unfold nest2ring ring2nest nest2ring64 ring2nest64
  simp only [if_neg hne, hb, if_true, and_self]

/-- `nside = 0` is not rejected: the pixel number is divided by zero. -/
theorem C43_zero_violated (p : ℤ) : nest2ring 0 p = none ∧ nest2ring64 0 p = none := by
  constructor
  · unfold nest2ring
    rw [if_neg (by norm_num), show notPow2 0 = false by decide +kernel]
    simp only [Bool.false_eq_true, if_false, Option.bind_eq_bind]
    split_ifs
    · rfl
    · simp [toInt32, nest2xyf, i32]
  · unfold nest2ring64
    rw [if_neg (by norm_num), show notPow2 0 = false by decide +kernel]
    simp only [Bool.false_eq_true, if_false, Option.bind_eq_bind]
    split_ifs
    · rfl
    · simp [nest2xyf64, i64]

/-- `nside = 16384` is not rejected by the 32 bit version although pixel numbers in the southern belt
overflow `int`. -/
theorem C43_size_violated : nest2ring 16384 (7 * 2 ^ 28) = none := by decide +kernel

/-- First and last pixel of the order of `sat_skymap`, and one in the belt. -/
example : nest2ring 256 65535 = some 0 ∧ ring2nest Fl64.ieee Root.down 256 0 = some 65535
    ∧ nest2ring 256 300000 = some 404958 ∧ ring2nest Fl64.ieee Root.down 256 404958 = some 300000
    ∧ nest2ring64 (2 ^ 29) 3170534137668829184 = some 3458764513820540927 ∧ nest2ring 255 3 = some (-1) := by decide +kernel

/-! ### Pixel counts -/

theorem sqrt_sq_z {n : ℤ} (h : 0 ≤ n) : (Nat.sqrt (n * n).toNat : ℤ) = n := by
  obtain ⟨m, rfl⟩ : ∃ m : ℕ, n = m := ⟨n.toNat, by omega⟩
  have : ((m : ℤ) * m).toNat = m * m := by
    rw [← Nat.cast_mul, Int.toNat_natCast]
  rw [this, Nat.sqrt_eq]

/-- **C46**, `long` version: the counts of all `nside` up to 46340 are converted back.

Missing: larger `nside`, see `C46_roundtrip_violated`. -/
theorem C46_roundtrip_partial (F : Fl64) (R : Root) {n : ℤ} (h0 : 0 ≤ n) (h1 : n ≤ 46340) :
    ∃ m, nside2npix n = some m ∧ npix2nside F R m = some n := by
  have hb : n * n < 2 ^ 31 := by nlinarith
  have hb0 : 0 ≤ n * n := by nlinarith
  refine ⟨12 * n * n, ?_, ?_⟩
  · unfold nside2npix signed
    rw [if_pos ⟨by nlinarith, by nlinarith⟩]
  · unfold npix2nside
    have e : (12 * n * n).tdiv 12 = n * n := by
      rw [mul_assoc, Int.mul_tdiv_cancel_left _ (by norm_num)]
    rw [e, nat_toInt32 hb0 hb, isqrt_eq F R hb0 hb, sqrt_sq_z h0]
    simp only [Option.bind_eq_bind, Option.bind_some, signed]
    rw [if_pos ⟨by nlinarith, by nlinarith⟩, Option.bind_some, if_pos (by ring)]
    rfl

/-- **C46**, 64 bit version: all `nside` whose pixel count has at most 53 bits. -/
theorem C46_roundtrip64_partial (F : Fl64) (R : Root) {n : ℤ} (h0 : 0 ≤ n) (h1 : n ≤ 27397079) :
    ∃ m, nside2npix n = some m ∧ npix2nside64 F R m = some n := by
  have hb : 12 * n * n ≤ 2 ^ 53 := by nlinarith
  have hb0 : 0 ≤ n * n := by nlinarith
  refine ⟨12 * n * n, ?_, ?_⟩
  · unfold nside2npix signed
    rw [if_pos ⟨by nlinarith, by nlinarith⟩]
  · unfold npix2nside64
    have e1 : F.rnd ((12 * n * n : ℤ) : ℚ) = ((12 * n * n : ℤ) : ℚ) := int_exact F (by rw [abs_of_nonneg (by nlinarith)]; exact hb)
    have e2 : ((12 * n * n : ℤ) : ℚ) / 12 = ((n * n : ℤ) : ℚ) := by push_cast; ring
    have e3 : F.rnd ((n * n : ℤ) : ℚ) = ((n * n : ℤ) : ℚ) := int_exact F (by rw [abs_of_nonneg hb0]; nlinarith)
    have e4 : truncQ ((n * n : ℤ) : ℚ) = n * n := by
      unfold truncQ
      rw [if_pos (by exact_mod_cast hb0), Int.floor_intCast]
    rw [e1, e2, e3, e4]
    simp only [Option.bind_eq_bind]
    unfold signed
    rw [if_pos ⟨by nlinarith, by nlinarith⟩, Option.bind_some, isqrt64_eq F R hb0 (by nlinarith), sqrt_sq_z h0, Option.bind_some,
      if_pos ⟨by nlinarith, by nlinarith⟩, Option.bind_some, if_pos (by ring)]
    rfl

/-- **C46**, 64 bit version: the powers of two up to `2^29`, i.e. all resolutions with a NESTED numbering. -/
theorem C46_powers (R : Root) {k : ℕ} (hk : k ≤ 29) :
    ∃ m, nside2npix (2 ^ k) = some m ∧ npix2nside64 Fl64.ieee R m = some (2 ^ k) := by
  have h1 := one_le_z k
  have h2 := pow_le_z hk
  have key : ∀ k < 30, nside2npix (2 ^ k) = some (12 * 2 ^ k * 2 ^ k)
      ∧ truncQ (Fl64.ieee.rnd (Fl64.ieee.rnd ((12 * 2 ^ k * 2 ^ k : ℤ) : ℚ) / 12)) = 2 ^ k * 2 ^ k := by decide +kernel
  obtain ⟨a, b⟩ := key k (by omega)
  refine ⟨_, a, ?_⟩
  unfold npix2nside64
  rw [b]
  simp only [Option.bind_eq_bind]
  unfold signed
  rw [if_pos ⟨by nlinarith, by nlinarith⟩, Option.bind_some, isqrt64_eq _ R (by positivity) (by nlinarith), sqrt_sq_z (by positivity),
    Option.bind_some, if_pos ⟨by nlinarith, by nlinarith⟩, Option.bind_some, if_pos (by ring)]
  rfl

/-- **C46**: a result other than -1 is the exact `nside`, so every number which is not `12 n²` gives -1
(or, for some negative numbers, no result: `C46_negative_violated`). -/
theorem C46_exact_partial (F : Fl64) (R : Root) {m r : ℤ} (h : npix2nside F R m = some r ∨ npix2nside64 F R m = some r) :
    r = -1 ∨ 12 * r * r = m := by
  have fin : ∀ (res : ℤ), ((signed 63 (res * res * 12)).bind fun sq => some (if sq = m then res else -1)) = some r →
      r = -1 ∨ 12 * r * r = m := by
    intro res h
    obtain ⟨sq, hs, h⟩ := Option.bind_eq_some_iff.mp h
    unfold signed at hs
    split_ifs at hs
    have hs := Option.some.inj hs
    have h := Option.some.inj h
    split_ifs at h with he
    · right
      rw [← h, ← he, ← hs]; ring
    · left; exact h.symm
  rcases h with h | h
  · unfold npix2nside at h
    obtain ⟨res, _, h⟩ := Option.bind_eq_some_iff.mp h
    exact fin res h
  · unfold npix2nside64 at h
    obtain ⟨v, _, h⟩ := Option.bind_eq_some_iff.mp h
    obtain ⟨res, _, h⟩ := Option.bind_eq_some_iff.mp h
    exact fin res h

theorem fits_sq {m t : ℤ} (a1 : m / 12 < 2 ^ 31) (hs : 0 ≤ t) (b1 : t ≤ m / 12) : signed 63 (t * 12) = some (t * 12) := by
  unfold signed
  rw [if_pos (by omega)]

/-- **C46**: the `long` version has a result for every count from 0 up to `12·2^31`. -/
theorem C46_defined_partial (F : Fl64) (R : Root) {m : ℤ} (h0 : 0 ≤ m) (h1 : m < 12 * 2 ^ 31) : ∃ r, npix2nside F R m = some r := by
  have a0 : 0 ≤ m / 12 := Int.ediv_nonneg h0 (by norm_num)
  have a1 : m / 12 < 2 ^ 31 := Int.ediv_lt_of_lt_mul (by norm_num) (by rw [mul_comm]; exact h1)
  obtain ⟨b1, -⟩ := sqrt_bounds a0
  have hk : (0 : ℤ) ≤ Nat.sqrt (m / 12).toNat := Int.natCast_nonneg _
  have e := isqrt_eq F R a0 a1
  have e1 := nat_toInt32 a0 a1
  have e' : m.tdiv 12 = m / 12 := Int.tdiv_eq_ediv_of_nonneg h0
  rw [← e'] at e1
  unfold npix2nside
  rw [e1, e', e]
  have hs := mul_nonneg hk hk
  have e2 := fits_sq a1 hs b1
  generalize (Nat.sqrt (m / 12).toNat : ℤ) = s at *
  refine ⟨if s * s * 12 = m then s else -1, ?_⟩
  rw [Option.bind_eq_bind, Option.bind_some, e2, Option.bind_some, Option.pure_def]

/-- **C46**: the 64 bit version has a result for every count from 0 up to the type's limit. -/
theorem C46_defined64 (F : Fl64) (R : Root) {m : ℤ} (h0 : 0 ≤ m) (h1 : m < 2 ^ 63) : ∃ r, npix2nside64 F R m = some r := by
  have m0 : (0 : ℚ) ≤ m := by exact_mod_cast h0
  have m1 : (m : ℚ) ≤ 2 ^ 63 := by exact_mod_cast h1.le
  have z : F.rnd 0 = 0 := by simpa using int_exact F (v := 0) (by norm_num)
  have p0 : 0 ≤ F.rnd (m : ℚ) := by rw [← z]; exact F.mono _ _ m0
  have e1 := (abs_le.mp (F.err m)).2
  rw [abs_of_nonneg m0] at e1
  set a := F.rnd (m : ℚ)
  have p1 : 0 ≤ F.rnd (a / 12) := by rw [← z]; exact F.mono _ _ (by positivity)
  have e2 := (abs_le.mp (F.err (a / 12))).2
  rw [abs_of_nonneg (by positivity)] at e2
  set b := F.rnd (a / 12)
  have t200 : (1 : ℚ) / 2 ^ 200 ≤ 1 := by norm_num
  have hb : b ≤ 768614336404565000 := by
    generalize (1 : ℚ) / 2 ^ 200 = t at *
    norm_num at e1 e2 m1
    linarith
  have v0 : 0 ≤ truncQ b := by unfold truncQ; rw [if_pos p1]; exact Int.floor_nonneg.mpr p1
  have v1 : truncQ b ≤ 768614336404565000 := by
    unfold truncQ; rw [if_pos p1]
    have : (⌊b⌋ : ℚ) ≤ 768614336404565000 := le_trans (Int.floor_le b) hb
    exact_mod_cast this
  unfold npix2nside64
  show ∃ r, ((signed 63 (truncQ b)).bind _) = some r
  generalize truncQ b = v at *
  have e3 := isqrt64_eq F R v0 (by omega)
  obtain ⟨b1, -⟩ := sqrt_bounds v0
  have hk : (0 : ℤ) ≤ Nat.sqrt v.toNat := Int.natCast_nonneg _
  generalize (Nat.sqrt v.toNat : ℤ) = s at *
  have hs : s ≤ 876706528 := by by_contra hc; push Not at hc; nlinarith
  have hs2 : s * s * 12 ≤ 2 ^ 63 - 1 := by nlinarith
  have hs3 : 0 ≤ s * s * 12 := by nlinarith
  refine ⟨if s * s * 12 = m then s else -1, ?_⟩
  have e4 : signed 63 v = some v := by unfold signed; rw [if_pos (by omega)]
  have e5 : signed 63 (s * s * 12) = some (s * s * 12) := by
    unfold signed; rw [if_pos ⟨le_trans (by norm_num) hs3, lt_of_le_of_lt hs2 (by norm_num)⟩]
  rw [e4, Option.bind_some]
  rw [e3, Option.bind_eq_bind, Option.bind_some, e5, Option.bind_some, Option.pure_def]

/-- The `long` version loses `nside = 65536`: the quotient is converted to `int`. -/
theorem C46_roundtrip_violated (F : Fl64) (R : Root) : ∃ m, nside2npix 65536 = some m ∧ npix2nside F R m = some (-1) := by
  refine ⟨12 * 65536 * 65536, by decide +kernel, ?_⟩
  unfold npix2nside
  rw [show toInt32 ((12 * 65536 * 65536 : ℤ).tdiv 12) = 0 by decide +kernel, isqrt_eq F R (by norm_num) (by norm_num)]
  decide +kernel

/-- The 64 bit version loses `nside = 134626353`: the division in `double` rounds the quotient down. -/
theorem C46_roundtrip64_violated (R : Root) :
    ∃ m, nside2npix 134626353 = some m ∧ npix2nside64 Fl64.ieee R m = some (-1) := by
  refine ⟨12 * 134626353 * 134626353, by decide +kernel, ?_⟩
  unfold npix2nside64
  rw [show truncQ (Fl64.ieee.rnd (Fl64.ieee.rnd ((12 * 134626353 * 134626353 : ℤ) : ℚ) / 12)) = 134626353 * 134626353 - 1 by
    decide +kernel]
  simp only [Option.bind_eq_bind]
  rw [show signed 63 (134626353 * 134626353 - 1) = some (134626353 * 134626353 - 1) by decide +kernel, Option.bind_some,
    isqrt64_eq _ R (by norm_num) (by norm_num)]
  have : Nat.sqrt (134626353 * 134626353 - 1 : ℤ).toNat = 134626352 := by
    symm
    rw [Nat.eq_sqrt]
    decide +kernel
  rw [this]
  decide +kernel

/-- A negative count has no defined result in the `long` version (the root of a negative number is a NaN). -/
theorem C46_negative_violated (F : Fl64) (R : Root) : npix2nside F R (-12) = none := by
  have : toInt32 ((-12 : ℤ).tdiv 12) = -1 := by decide +kernel
  unfold npix2nside
  rw [this]
  rfl

example : npix2nside Fl64.ieee Root.down 786432 = some 256 ∧ npix2nside Fl64.ieee Root.down 786433 = some (-1)
    ∧ npix2nside64 Fl64.ieee Root.down (12 * 2 ^ 58) = some (2 ^ 29) := by decide +kernel

end SatSky.Props
