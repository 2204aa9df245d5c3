import Verif.Lemmas.HealpixAng
import Verif.Spec.HealpixCentre

/-! Pixel centres in exact arithmetic. -/

namespace SatSky.Healpix

open SatSky

theorem floor_half (m : ℤ) : ⌊(m : ℝ) + 1 / 2⌋ = m := by
  rw [Int.floor_eq_iff]; constructor <;> linarith

theorem frac1 {f w i : ℝ} (hi : 0 < i) : (f + w / i - f) * i = w := by
  rw [add_sub_cancel_left, div_mul_cancel₀ _ hi.ne']

theorem frac2 {f w i : ℝ} (hi : 0 < i) : (1 - (f + w / i - f)) * i = i - w := by
  rw [sub_mul, frac1 hi, one_mul]

/-- Evaluation in the caps. -/
theorem ang2xyf_cap {c : ℤ → Option ℤ} {n : ℤ} (hc : ∀ v, 0 ≤ v → v ≤ 5 * n → c v = some v) {z s t i : ℝ} {g a b : ℤ}
    (hz : |z| ≤ 1) (hb : 2 / 3 < |z|) (hs : s = -5 ∨ s = Real.sqrt (1 - |z| ^ 2)) (hg0 : 0 ≤ g) (hg : g < 4)
    (hi : 0 < i) (hr : n * Real.sqrt (3 * (1 - |z|)) = i) (ha : 0 ≤ a ∧ a < n) (hb' : 0 ≤ b ∧ b < n)
    (h1 : (t - g) * i = a + 1 / 2) (h2 : (1 - (t - g)) * i = b + 1 / 2) :
    ang2xyf exact c n z s (t * (Real.pi / 2)) = some (if z ≥ 0 then (n - b - 1, n - a - 1, g) else (a, b, g + 8)) := by
  have a0 : (0 : ℝ) ≤ a := by exact_mod_cast ha.1
  have b0 : (0 : ℝ) ≤ b := by exact_mod_cast hb'.1
  have tp0 : 0 ≤ t - g := by
    by_contra h; push Not at h; nlinarith
  have tp1 : t - g < 1 := by
    by_contra h; push Not at h; nlinarith
  have g0 : (0 : ℝ) ≤ g := by exact_mod_cast hg0
  have g4 : (g : ℝ) ≤ 3 := by exact_mod_cast (by omega : g ≤ 3)
  unfold ang2xyf
  rw [quarter_eq (by linarith) (by linarith)]
  dsimp only
  rw [if_neg (not_le.mpr (show exact.twothird < |z| from hb)), polar_eq (abs_nonneg z) hz hs, hr]
  simp only [show exact.rnd = id from rfl, id, Option.bind_eq_bind]
  have ft : ⌊t⌋ = g := by rw [Int.floor_eq_iff]; constructor <;> linarith
  rw [trunc_nonneg (by linarith), ft, hc g hg0 (by omega), Option.bind_some, if_neg (by omega), h1, h2, trunc_nonneg (by linarith),
    trunc_nonneg (by linarith), floor_half, floor_half, hc a ha.1 (by omega), Option.bind_some, hc b hb'.1 (by omega), Option.bind_some]
  have g1 : ¬ a ≥ n := by omega
  have g2 : ¬ b ≥ n := by omega
  simp only [if_neg g1, if_neg g2]
  split_ifs <;> rfl

/-- Evaluation in the belt. -/
theorem ang2xyf_belt {c : ℤ → Option ℤ} {n : ℤ} (hc : ∀ v, 0 ≤ v → v ≤ 5 * n → c v = some v) {z s t : ℝ} {a b : ℤ}
    (t0 : 0 ≤ t) (t1 : t < 4) (hz : |z| ≤ 2 / 3) (ha : 0 ≤ a ∧ a < 5 * n) (hb : 0 ≤ b ∧ b < 5 * n)
    (h1 : n * (1 / 2 + t) - n * (z * (3 / 4)) = a + 1 / 2) (h2 : n * (1 / 2 + t) + n * (z * (3 / 4)) = b + 1 / 2) :
    ang2xyf exact c n z s (t * (Real.pi / 2)) = some (andPred b n, n - andPred a n - 1, beltFace (a.tdiv n) (b.tdiv n)) := by
  have a0 : (0 : ℝ) ≤ a := by exact_mod_cast ha.1
  have b0 : (0 : ℝ) ≤ b := by exact_mod_cast hb.1
  unfold ang2xyf
  rw [quarter_eq t0 t1]
  dsimp only
  rw [if_pos (show |z| ≤ exact.twothird from hz)]
  simp only [show exact.rnd = id from rfl, id, Option.bind_eq_bind]
  rw [h1, h2, trunc_nonneg (by linarith), trunc_nonneg (by linarith), floor_half, floor_half, hc a ha.1 ha.2.le, Option.bind_some,
    hc b hb.1 hb.2.le, Option.bind_some, Option.pure_def]

/-- The height of a ring of a cap. -/
theorem cap_height {n i : ℤ} (h1 : 1 ≤ i) (h2 : i < n) :
    2 / 3 < 1 - (i : ℝ) ^ 2 / (3 * n ^ 2) ∧ 1 - (i : ℝ) ^ 2 / (3 * n ^ 2) ≤ 1
      ∧ n * Real.sqrt (3 * (1 - (1 - (i : ℝ) ^ 2 / (3 * n ^ 2)))) = i := by
  have i1 : (1 : ℝ) ≤ i := by exact_mod_cast h1
  have hn : (i : ℝ) < n := by exact_mod_cast h2
  have n0 : (0 : ℝ) < n := by linarith
  refine ⟨?_, ?_, ?_⟩
  · have : (i : ℝ) ^ 2 / (3 * n ^ 2) < 1 / 3 := by
      rw [div_lt_div_iff₀ (by positivity) (by norm_num)]; nlinarith
    linarith
  · have : 0 ≤ (i : ℝ) ^ 2 / (3 * n ^ 2) := by positivity
    linarith
  · have e : 3 * (1 - (1 - (i : ℝ) ^ 2 / (3 * n ^ 2))) = (i / n) ^ 2 := by field_simp; ring
    rw [e, Real.sqrt_sq (by positivity)]
    field_simp

theorem abs_pos_height {z : ℝ} (h : 2 / 3 < z) : |z| = z := abs_of_pos (by linarith)
theorem abs_neg_height {z : ℝ} (h : 2 / 3 < z) : |-z| = z := by rw [abs_neg, abs_pos_height h]

section
variable {c u isq : ℤ → Option ℤ} {n : ℤ}

theorem belt_height {i : ℤ} (hn : 1 ≤ n) (h1 : n ≤ i) (h2 : i ≤ 3 * n) : |4 / 3 - 2 * (i : ℝ) / (3 * n)| ≤ 2 / 3 := by
  have n0 : (0 : ℝ) < n := by exact_mod_cast (by omega : 0 < n)
  have a : (n : ℝ) ≤ i := by exact_mod_cast h1
  have b : (i : ℝ) ≤ 3 * n := by exact_mod_cast h2
  have l : 2 / 3 ≤ 2 * (i : ℝ) / (3 * n) := by rw [div_le_div_iff₀ (by norm_num) (by positivity)]; nlinarith
  have r : 2 * (i : ℝ) / (3 * n) ≤ 2 := by rw [div_le_iff₀ (by positivity)]; nlinarith
  rw [abs_le]; constructor <;> linarith

/-- The centre of a pixel in the northern cap. -/
theorem xyf2ang_north (E : Env c u isq n) {x y : ℤ} {f : ℕ} (hf : f < 4) (hx : 0 ≤ x ∧ x < n) (hy : 0 ≤ y ∧ y < n)
    (h : 2 * n - x - y - 1 < n) :
    xyf2ang exact c n x y f = some (1 - ((2 * n - x - y - 1 : ℤ) : ℝ) ^ 2 / (3 * n ^ 2),
      ((f : ℝ) + ((n - y : ℤ) - 1 / 2) / (2 * n - x - y - 1 : ℤ)) * (Real.pi / 2)) := by
  have hn := E.pos
  have n0 : (0 : ℝ) < n := by exact_mod_cast (by omega : 0 < n)
  have hnn : n ≤ n * n := by nlinarith
  have h12 : 12 * n ≤ 12 * n * n := by nlinarith
  have hjl : jrll[f]? = some 2 := by interval_cases f <;> rfl
  have hpl : jpll[f]? = some ((2 : ℤ) * (f : ℤ) + 1) := by interval_cases f <;> rfl
  have i1 : 1 ≤ 2 * n - x - y - 1 := by omega
  unfold xyf2ang
  rw [E.hc (n * 4) (by linarith) (by linarith), E.hc (12 * n * n) (by linarith) (by linarith), hjl, hpl]
  simp only [Option.bind_eq_bind, Option.bind_some, show exact.rnd = id from rfl, id]
  rw [E.hc (2 * n - x - y - 1) (by linarith) (by linarith), Option.bind_some, if_pos h]
  obtain ⟨i, hi⟩ : ∃ i, 2 * n - x - y - 1 = i := ⟨_, rfl⟩
  rw [hi] at h i1 ⊢
  have i0 : (0 : ℝ) < i := by exact_mod_cast i1
  have b1 : 0 ≤ i * i := by positivity
  have b2 : i * i ≤ n * n := by nlinarith
  have e1 : (2 * (f : ℤ) + 1) * i + x - y + 1 + 0 = 2 * (f * i + n - y) := by rw [← hi]; ring
  have b3 : 0 ≤ (f : ℤ) * i := by positivity
  have b4 : (f : ℤ) * i ≤ 3 * i := by nlinarith
  rw [E.hc (i * i) (by linarith) (by linarith), Option.bind_some, Option.pure_def, Option.bind_some]
  simp only [e1]
  have q1 : ¬ (f * i + n - y > n * 4) := by linarith
  have q2 : ¬ (f * i + n - y < 1) := by linarith
  rw [E.hc _ (by linarith) (by linarith), Option.bind_some, Int.mul_tdiv_cancel_left _ (by norm_num)]
  simp only [if_neg q1, if_neg q2]
  rw [Option.pure_def, Option.some.injEq, Prod.mk.injEq]
  constructor
  · push_cast; field_simp; ring
  · show _ * (Real.pi / 2 / i) = _
    push_cast; field_simp; ring

/-- The centre of a pixel in the southern cap. -/
theorem xyf2ang_south (E : Env c u isq n) {x y : ℤ} {g : ℕ} (hg : g < 4) (hx : 0 ≤ x ∧ x < n) (hy : 0 ≤ y ∧ y < n)
    (h : 4 * n - x - y - 1 > 3 * n) :
    xyf2ang exact c n x y (8 + g) = some (-(1 - ((x + y + 1 : ℤ) : ℝ) ^ 2 / (3 * n ^ 2)),
      ((g : ℝ) + ((x + 1 : ℤ) - 1 / 2) / (x + y + 1 : ℤ)) * (Real.pi / 2)) := by
  have hn := E.pos
  have n0 : (0 : ℝ) < n := by exact_mod_cast (by omega : 0 < n)
  have hnn : n ≤ n * n := by nlinarith
  have h12 : 12 * n ≤ 12 * n * n := by nlinarith
  have hjl : jrll[8 + g]? = some 4 := by interval_cases g <;> rfl
  have hpl : jpll[8 + g]? = some ((2 : ℤ) * (g : ℤ) + 1) := by interval_cases g <;> rfl
  unfold xyf2ang
  rw [E.hc (n * 4) (by linarith) (by linarith), E.hc (12 * n * n) (by linarith) (by linarith), hjl, hpl]
  simp only [Option.bind_eq_bind, Option.bind_some, show exact.rnd = id from rfl, id]
  rw [E.hc (4 * n - x - y - 1) (by linarith) (by linarith), Option.bind_some, if_neg (by omega), if_pos h,
    show n * 4 - (4 * n - x - y - 1) = x + y + 1 by ring]
  obtain ⟨i, hi⟩ : ∃ i, x + y + 1 = i := ⟨_, rfl⟩
  rw [hi]
  have i1 : 1 ≤ i := by omega
  have i2 : i < n := by omega
  have i0 : (0 : ℝ) < i := by exact_mod_cast i1
  have b1 : 0 ≤ i * i := by positivity
  have b2 : i * i ≤ n * n := by nlinarith
  have e1 : (2 * (g : ℤ) + 1) * i + x - y + 1 + 0 = 2 * (g * i + x + 1) := by rw [← hi]; ring
  have b3 : 0 ≤ (g : ℤ) * i := by positivity
  have b4 : (g : ℤ) * i ≤ 3 * i := by nlinarith
  rw [E.hc i (by linarith) (by linarith), Option.bind_some, E.hc (i * i) (by linarith) (by linarith), Option.bind_some, Option.pure_def,
    Option.bind_some]
  simp only [e1]
  have q1 : ¬ (g * i + x + 1 > n * 4) := by linarith
  have q2 : ¬ (g * i + x + 1 < 1) := by linarith
  rw [E.hc _ (by linarith) (by linarith), Option.bind_some, Int.mul_tdiv_cancel_left _ (by norm_num)]
  simp only [if_neg q1, if_neg q2]
  rw [Option.pure_def, Option.some.injEq, Prod.mk.injEq]
  constructor
  · push_cast; field_simp; ring
  · show _ * (Real.pi / 2 / i) = _
    push_cast; field_simp; ring

/-- The centre of a pixel in the belt. -/
theorem xyf2ang_belt (E : Env c u isq n) {x y jl pl : ℤ} {f : ℕ} (hf : f < 12) (hx : 0 ≤ x ∧ x < n) (hy : 0 ≤ y ∧ y < n)
    (hjl : jrll[f]? = some jl) (hpl : jpll[f]? = some pl) (h1 : n ≤ jl * n - x - y - 1) (h2 : jl * n - x - y - 1 ≤ 3 * n) :
    ∃ m : ℤ, (m = pl * n + x - y ∨ f = 4 ∧ m = pl * n + x - y + 8 * n) ∧ 0 ≤ m ∧ m < 8 * n ∧
      m = 2 * beltPos n (jl * n - x - y - 1) pl x y - ((jl * n - x - y - 1 - n) % 2) - 1 ∧
      xyf2ang exact c n x y f = some (4 / 3 - 2 * ((jl * n - x - y - 1 : ℤ) : ℝ) / (3 * n), (m : ℝ) / (2 * n) * (Real.pi / 2)) := by
  have hn := E.pos
  have n0 : (0 : ℝ) < n := by exact_mod_cast (by omega : 0 < n)
  have hnn : n ≤ n * n := by nlinarith
  have h12 : 12 * n ≤ 12 * n * n := by nlinarith
  have hjp : jl = 2 ∨ jl = 3 ∨ jl = 4 := by
    rcases belt_cases hf hjl hpl with h | h | h <;> omega
  have hpp : 0 ≤ pl ∧ pl ≤ 7 := by
    rcases belt_cases hf hjl hpl with h | h | h <;> omega
  have pn0 : 0 ≤ pl * n := by nlinarith
  have pn7 : pl * n ≤ 7 * n := by nlinarith
  unfold xyf2ang
  rw [E.hc (n * 4) (by linarith) (by linarith), E.hc (12 * n * n) (by linarith) (by linarith), hjl, hpl]
  simp only [Option.bind_eq_bind, Option.bind_some, show exact.rnd = id from rfl, id]
  rw [E.hc (jl * n - x - y - 1) (by linarith) (by linarith), Option.bind_some, if_neg (by omega), if_neg (by omega)]
  -- the sum is even
  have par : (pl * n + x - y + 1 + (jl * n - x - y - 1 - n) % 2) % 2 = 0 := by
    rcases belt_cases hf hjl hpl with ⟨rfl, rfl, _⟩ | ⟨rfl, rfl, _⟩ | ⟨rfl, rfl, _⟩
    · have : (2 * (f : ℤ) + 1) * n = 2 * (f * n) + n := by ring
      rw [this]
      generalize (f : ℤ) * n = w
      omega
    · have : 2 * ((f : ℤ) - 4) * n = 2 * ((f - 4) * n) := by ring
      rw [this]
      generalize ((f : ℤ) - 4) * n = w
      omega
    · have : (2 * ((f : ℤ) - 8) + 1) * n = 2 * ((f - 8) * n) + n := by ring
      rw [this]
      generalize ((f : ℤ) - 8) * n = w
      omega
  obtain ⟨i, hi⟩ : ∃ i, jl * n - x - y - 1 = i := ⟨_, rfl⟩
  rw [hi] at h1 h2 par ⊢
  have k0 := Int.emod_nonneg (i - n) (show (2 : ℤ) ≠ 0 by norm_num)
  have k1 := Int.emod_lt_of_pos (i - n) (show (0 : ℤ) < 2 by norm_num)
  obtain ⟨j, hj⟩ : ∃ j, pl * n + x - y + 1 + (i - n) % 2 = 2 * j := ⟨(pl * n + x - y + 1 + (i - n) % 2) / 2, by omega⟩
  have jle : j ≤ 4 * n := by
    rcases belt_cases hf hjl hpl with ⟨rfl, rfl, hf4⟩ | ⟨rfl, rfl, hf4, hf8⟩ | ⟨rfl, rfl, hf4⟩
    · by_cases hxy : x + y + 1 = n
      · have : (i - n) % 2 = 0 := by rw [← hi, show 2 * n - x - y - 1 - n = 0 by omega]; rfl
        omega
      · omega
    · have : 2 * ((f : ℤ) - 4) * n ≤ 6 * n := by nlinarith
      omega
    · by_cases hxy : x + y + 1 = n
      · have : (i - n) % 2 = 0 := by rw [← hi, show 4 * n - x - y - 1 - n = n * 2 by omega]; exact Int.mul_emod_left _ _
        omega
      · omega
  rw [Option.pure_def, Option.bind_some]
  simp only [hj]
  have q1 : ¬ (j > n * 4) := by omega
  rw [E.hc (2 * j) (by omega) (by omega), Option.bind_some, Int.mul_tdiv_cancel_left _ (by norm_num), Option.pure_def]
  have q3 : beltPos n i pl x y = if j < 1 then j + 4 * n else j := by
    unfold beltPos; dsimp only; rw [hj, Int.mul_ediv_cancel_left _ (by norm_num)]
  simp only [if_neg q1, q3]
  have ez : ((2 * n - i : ℤ) : ℝ) * (((2 * n : ℤ) : ℝ) * (4 / ((12 * n * n : ℤ) : ℝ))) = 4 / 3 - 2 * (i : ℝ) / (3 * n) := by
    push_cast; field_simp; ring
  rw [ez]
  have hjr : (pl : ℝ) * n + x - y + 1 + (((i - n) % 2 : ℤ) : ℝ) = 2 * j := by exact_mod_cast congrArg (Int.cast : ℤ → ℝ) hj
  have epi : exact.halfpi = Real.pi / 2 := rfl
  by_cases hw : j < 1
  · have hf4 : pl = 0 := by
      by_contra hne
      have : 1 * n ≤ pl * n := Int.mul_le_mul_of_nonneg_right (by omega) (by omega)
      omega
    have hf' : f = 4 := by
      rcases belt_cases hf hjl hpl with h | h | h <;> omega
    refine ⟨pl * n + x - y + 8 * n, Or.inr ⟨hf', rfl⟩, by omega, by omega, ?_, ?_⟩
    · simp only [if_pos hw]; omega
    · rw [if_pos hw, Option.some.injEq, Prod.mk.injEq, epi]
      refine ⟨rfl, ?_⟩
      push_cast
      field_simp
      linarith
  · refine ⟨pl * n + x - y, Or.inl rfl, by omega, by omega, ?_, ?_⟩
    · simp only [if_neg hw]; omega
    · rw [if_neg hw, Option.some.injEq, Prod.mk.injEq, epi]
      refine ⟨rfl, ?_⟩
      push_cast
      field_simp
      linarith

/-- From a pixel to its centre and back to the pixel. -/
theorem ang_of_xyf {k : ℕ} (hnk : n = 2 ^ k) (E : Env c u isq n) {x y : ℤ} {f : ℕ} (hf : f < 12) (hx : 0 ≤ x ∧ x < n) (hy : 0 ≤ y ∧ y < n) :
    ∃ z phi : ℝ, xyf2ang exact c n x y f = some (z, phi) ∧ |z| ≤ 1
      ∧ ∀ s, (s = -5 ∨ s = Real.sqrt (1 - |z| ^ 2)) → ang2xyf exact c n z s phi = some (x, y, (f : ℤ)) := by
  have hn := E.pos
  have n0 : (0 : ℝ) < n := by exact_mod_cast (by omega : 0 < n)
  have hnn : n ≤ n * n := by nlinarith
  have hc : ∀ v, 0 ≤ v → v ≤ 5 * n → c v = some v := fun v a b => E.hc v (by nlinarith) (by nlinarith)
  have ⟨jl, hjl⟩ : ∃ jl, jrll[f]? = some jl := by interval_cases f <;> exact ⟨_, rfl⟩
  have ⟨pl, hpl⟩ : ∃ pl, jpll[f]? = some pl := by interval_cases f <;> exact ⟨_, rfl⟩
  by_cases h1 : jl * n - x - y - 1 < n
  · rcases belt_cases hf hjl hpl with ⟨a, h, hf4⟩ | ⟨a, h, hf4, hf8⟩ | ⟨a, h, hf4⟩
    · subst a
      obtain ⟨z1, z2, z3⟩ := cap_height (n := n) (i := 2 * n - x - y - 1) (by omega) h1
      have ez := abs_pos_height z1
      have i0 : (0 : ℝ) < ((2 * n - x - y - 1 : ℤ) : ℝ) := by exact_mod_cast (by omega : 0 < 2 * n - x - y - 1)
      refine ⟨_, _, xyf2ang_north E hf4 hx hy h1, by rw [ez]; exact z2, fun s hs => ?_⟩
      rw [ang2xyf_cap hc (g := f) (a := n - y - 1) (b := n - x - 1) (i := ((2 * n - x - y - 1 : ℤ) : ℝ)) (by rw [ez]; exact z2)
        (by rw [ez]; exact z1) hs (by omega) (by omega) i0 (by rw [ez]; exact z3) (by omega) (by omega)
        (by rw [Int.cast_natCast, frac1 i0]; push_cast; ring) (by rw [Int.cast_natCast, frac2 i0]; push_cast; ring), if_pos (by linarith)]
      congr 3 <;> ring
    · subst a; omega
    · subst a; omega
  · by_cases h2 : jl * n - x - y - 1 > 3 * n
    · rcases belt_cases hf hjl hpl with ⟨a, h, hf4⟩ | ⟨a, h, hf4, hf8⟩ | ⟨a, h, hf4⟩
      · subst a; omega
      · subst a; omega
      · subst a
        obtain ⟨g, rfl⟩ : ∃ g, f = 8 + g := ⟨f - 8, by omega⟩
        obtain ⟨z1, z2, z3⟩ := cap_height (n := n) (i := x + y + 1) (by omega) (by omega)
        have ez := abs_neg_height z1
        have i0 : (0 : ℝ) < ((x + y + 1 : ℤ) : ℝ) := by exact_mod_cast (by omega : 0 < x + y + 1)
        refine ⟨_, _, xyf2ang_south E (by omega : g < 4) hx hy h2, by rw [ez]; exact z2, fun s hs => ?_⟩
        rw [ang2xyf_cap hc (g := g) (a := x) (b := y) (i := ((x + y + 1 : ℤ) : ℝ)) (by rw [ez]; exact z2)
          (by rw [ez]; exact z1) hs (by omega) (by omega) i0 (by rw [ez]; exact z3) hx hy
          (by rw [Int.cast_natCast, frac1 i0]; push_cast; ring) (by rw [Int.cast_natCast, frac2 i0]; push_cast; ring), if_neg (by linarith)]
        push_cast
        congr 3; ring
    · push Not at h1 h2
      obtain ⟨m, hm, m0, m1, -, e⟩ := xyf2ang_belt E hf hx hy hjl hpl h1 h2
      have zb := belt_height hn h1 h2
      refine ⟨_, _, e, by linarith, fun s _ => ?_⟩
      have m0' : (0 : ℝ) ≤ m := by exact_mod_cast m0
      have m1' : (m : ℝ) < 8 * n := by exact_mod_cast m1
      have t0 : 0 ≤ (m : ℝ) / (2 * n) := by positivity
      have t1 : (m : ℝ) / (2 * n) < 4 := by rw [div_lt_iff₀ (by positivity)]; linarith
      -- the numbers of the two edge lines, as multiples of `n`
      obtain ⟨M, N, eM, eN, hM, hN, hface⟩ : ∃ M N : ℤ, m + jl * n - n - x + y = 2 * M * n ∧ m + 3 * n - jl * n - x + y = 2 * N * n
          ∧ (1 ≤ M ∧ M ≤ 5) ∧ (0 ≤ N ∧ N ≤ 4) ∧ beltFace (M - 1) N = f := by
        rcases hm with hm | ⟨hf', hm⟩
        · rcases belt_cases hf hjl hpl with ⟨rfl, rfl, hf4⟩ | ⟨rfl, rfl, hf4, hf8⟩ | ⟨rfl, rfl, hf4⟩
          · exact ⟨f + 1, f + 1, by rw [hm]; ring, by rw [hm]; ring, by omega, by omega, by interval_cases f <;> rfl⟩
          · exact ⟨f - 3, f - 4, by rw [hm]; ring, by rw [hm]; ring, by omega, by omega, by interval_cases f <;> rfl⟩
          · exact ⟨f - 6, f - 8, by rw [hm]; ring, by rw [hm]; ring, by omega, by omega, by interval_cases f <;> rfl⟩
        · subst hf'
          rcases belt_cases hf hjl hpl with ⟨rfl, rfl, hf4⟩ | ⟨rfl, rfl, hf4, hf8⟩ | ⟨rfl, rfl, hf4⟩
          · omega
          · exact ⟨5, 4, by rw [hm]; ring, by rw [hm]; ring, by omega, by omega, rfl⟩
          · omega
      have rM : (m : ℝ) + jl * n - n - x + y = 2 * M * n := by exact_mod_cast eM
      have rN : (m : ℝ) + 3 * n - jl * n - x + y = 2 * N * n := by exact_mod_cast eN
      have bM0 : 0 ≤ (M - 1) * n := by nlinarith
      have bM1 : (M - 1) * n ≤ 4 * n := by nlinarith
      have bN0 : 0 ≤ N * n := by nlinarith
      have bN1 : N * n ≤ 4 * n := by nlinarith
      rw [ang2xyf_belt hc (a := (M - 1) * n + (n - 1 - y)) (b := N * n + x) t0 t1 zb ⟨by omega, by omega⟩ ⟨by omega, by omega⟩
        (by push_cast; field_simp; linarith) (by push_cast; field_simp; linarith)]
      rw [tdiv_eq (K := M - 1) hn (by omega) (by omega) (by rw [add_mul]; omega), tdiv_eq (K := N) hn (by omega) (by omega) (by rw [add_mul]; omega), hface]
      rw [hnk, andPred_pow (by rw [← hnk]; omega), andPred_pow (by rw [← hnk]; omega), ← hnk]
      rw [show N * n + x = x + n * N by ring, Int.add_mul_emod_self_left, Int.emod_eq_of_lt hx.1 hx.2,
        show (M - 1) * n + (n - 1 - y) = (n - 1 - y) + n * (M - 1) by ring, Int.add_mul_emod_self_left, Int.emod_eq_of_lt (by omega) (by omega)]
      congr 3; ring

open SatSky.Spec.Healpix

theorem pix2ang_ring_spec (E : Env c u isq n) {i j p : ℤ} (h : RingPix n i j p) :
    pix2angRing exact c isq n p = some (ringZ n i, ringT n i j * (Real.pi / 2)) := by
  have hn := E.pos
  have n0 : (0 : ℝ) < n := by exact_mod_cast (by omega : 0 < n)
  have hnn : n ≤ n * n := by nlinarith
  obtain ⟨h1, h2, h3, h4, h5⟩ := h
  have e12 : c (12 * n * n) = some (12 * n * n) := E.hc _ (by nlinarith) (by nlinarith)
  unfold ringLen at h4
  unfold ringStart at h5
  unfold ringZ ringT pix2angRing
  by_cases a : i < n
  · rw [if_pos a] at h4 h5 ⊢
    rw [if_pos a, show p = 2 * i * (i - 1) + j - 1 by omega, ringOf_north E h1 a h3 h4]
    simp only [Option.bind_eq_bind, Option.bind_some, e12, show exact.rnd = id from rfl, id]
    have i0 : (0 : ℝ) < i := by exact_mod_cast h1
    rw [Option.pure_def, Option.some.injEq, Prod.mk.injEq, show exact.halfpi = Real.pi / 2 from rfl]
    constructor
    · push_cast; field_simp; ring
    · field_simp
  · rw [if_neg a] at h4 h5 ⊢
    rw [if_neg a]
    by_cases b : i ≤ 3 * n
    · rw [if_pos b] at h4 h5 ⊢
      rw [if_pos b, show p = 2 * n * (n - 1) + (i - n) * (4 * n) + j - 1 by omega, ringOf_belt E (by omega) b h3 h4]
      simp only [Option.bind_eq_bind, Option.bind_some, e12, show exact.rnd = id from rfl, id]
      rw [Option.pure_def, Option.some.injEq, Prod.mk.injEq, show exact.pi = Real.pi from rfl]
      constructor
      · push_cast; field_simp; ring
      · by_cases d : (i - n) % 2 = 0
        · rw [if_pos d, if_neg (by omega)]; push_cast; field_simp
        · rw [if_neg d, if_pos (by omega)]; push_cast; field_simp
    · rw [if_neg b] at h4 h5 ⊢
      have e : p = 12 * n * n - 2 * (4 * n - i + 1) * (4 * n - i) + j - 1 := by rw [h5]; ring
      rw [if_neg b, e, ringOf_south E (by omega) (by omega) h3 h4]
      simp only [Option.bind_eq_bind, Option.bind_some, e12, show exact.rnd = id from rfl, id]
      have i0 : (0 : ℝ) < (4 * n - i : ℤ) := by exact_mod_cast (by omega : 0 < 4 * n - i)
      rw [Option.pure_def, Option.some.injEq, Prod.mk.injEq, show exact.halfpi = Real.pi / 2 from rfl]
      generalize 4 * n - i = i' at *
      constructor
      · push_cast; field_simp; ring
      · field_simp

/-- Evaluation in the caps. -/
theorem ang2ring_cap (E : Env c u isq n) {z s : ℝ} {i j : ℤ} (h1 : 1 ≤ i) (h2 : i < n) (h3 : 1 ≤ j) (h4 : j ≤ 4 * i)
    (hz : |z| = 1 - (i : ℝ) ^ 2 / (3 * n ^ 2)) (hs : s = -5 ∨ s = Real.sqrt (1 - |z| ^ 2)) :
    ang2pixRing exact c n z s ((j - 1 / 2) / i * (Real.pi / 2))
      = some (if z > 0 then 2 * i * (i - 1) + (j - 1) else 12 * n * n - 2 * i * (i + 1) + (j - 1)) := by
  have hn := E.pos
  have hnn : n ≤ n * n := by nlinarith
  have h12 : 12 * n ≤ 12 * n * n := by nlinarith
  obtain ⟨z1, z2, z3⟩ := cap_height h1 h2
  rw [← hz] at z1 z2 z3
  have i0 : (0 : ℝ) < i := by exact_mod_cast h1
  have j0 : (1 : ℝ) ≤ j := by exact_mod_cast h3
  have j1 : (j : ℝ) ≤ 4 * i := by exact_mod_cast h4
  have t0 : 0 ≤ ((j : ℝ) - 1 / 2) / i := by apply div_nonneg <;> linarith
  have t1 : ((j : ℝ) - 1 / 2) / i < 4 := by rw [div_lt_iff₀ i0]; linarith
  have hb0 := Int.emod_nonneg (j - 1) (show i ≠ 0 by omega)
  have hb1 := Int.emod_lt_of_pos (j - 1) (show 0 < i by omega)
  have hab := Int.emod_add_mul_ediv (j - 1) i
  obtain ⟨b, hb⟩ : ∃ b, (j - 1) % i = b := ⟨_, rfl⟩
  obtain ⟨a, ha⟩ : ∃ a, (j - 1) / i = a := ⟨_, rfl⟩
  rw [hb] at hb0 hb1 hab
  rw [ha] at hab
  have a0 : 0 ≤ a := by rw [← ha]; exact Int.ediv_nonneg (by omega) (by omega)
  have a1 : a < 4 := by rw [← ha]; exact Int.ediv_lt_of_lt_mul (by omega) (by omega)
  have habr : (b : ℝ) + i * a = j - 1 := by exact_mod_cast congrArg (Int.cast : ℤ → ℝ) hab
  have b0 : (0 : ℝ) ≤ b := by exact_mod_cast hb0
  have b1 : (b : ℝ) + 1 ≤ i := by exact_mod_cast (by omega : b + 1 ≤ i)
  have et : ((j : ℝ) - 1 / 2) / i = a + (b + 1 / 2) / i := by field_simp; linarith
  have ft : ⌊((j : ℝ) - 1 / 2) / i⌋ = a := by
    rw [Int.floor_eq_iff, et]
    have : 0 ≤ ((b : ℝ) + 1 / 2) / i := by positivity
    have : ((b : ℝ) + 1 / 2) / i < 1 := by rw [div_lt_one i0]; linarith
    constructor <;> linarith
  unfold ang2pixRing
  rw [quarter_eq t0 t1]
  dsimp only
  rw [if_neg (not_le.mpr (show exact.twothird < |z| from z1)), polar_eq (abs_nonneg z) z2 hs, z3]
  simp only [show exact.rnd = id from rfl, id, Option.bind_eq_bind]
  rw [trunc_nonneg t0, ft, E.hc a (by linarith) (by linarith), Option.bind_some]
  have e1 : (((j : ℝ) - 1 / 2) / i - a) * i = b + 1 / 2 := by rw [et, frac1 i0]
  have e2 : (1 - (((j : ℝ) - 1 / 2) / i - a)) * i = ((i - b - 1 : ℤ) : ℝ) + 1 / 2 := by rw [et, frac2 i0]; push_cast; ring
  have b2 : (0 : ℝ) ≤ ((i - b - 1 : ℤ) : ℝ) := by exact_mod_cast (by omega : 0 ≤ i - b - 1)
  rw [e1, e2, trunc_nonneg (by linarith), trunc_nonneg (by linarith), floor_half, floor_half, E.hc b (by linarith) (by linarith),
    Option.bind_some, E.hc (i - b - 1) (by linarith) (by linarith), Option.bind_some, show b + (i - b - 1) + 1 = i by ring,
    E.hc i (by linarith) (by linarith), Option.bind_some]
  have e3 : ((j : ℝ) - 1 / 2) / i * i = ((j - 1 : ℤ) : ℝ) + 1 / 2 := by field_simp; push_cast; ring
  have b3 : (0 : ℝ) ≤ ((j - 1 : ℤ) : ℝ) := by exact_mod_cast (by omega : 0 ≤ j - 1)
  rw [e3, trunc_nonneg (by linarith), floor_half, E.hc (j - 1) (by linarith) (by linarith), Option.bind_some, if_neg (by omega)]
  have mm : imodulo (j - 1) (4 * i) = j - 1 := by
    unfold imodulo
    rw [Int.tmod_eq_emod_of_nonneg (by omega), Int.emod_eq_of_lt (by omega) (by omega)]
    dsimp only
    rw [if_pos (by omega)]
  rw [mm]
  have k0 : 0 ≤ i * i := by positivity
  have k1 : i * i ≤ n * n := by nlinarith
  split_ifs
  · exact E.hc _ (by linarith) (by linarith)
  · exact E.hc _ (by linarith) (by linarith)

/-- Evaluation in the belt. -/
theorem ang2ring_belt (E : Env c u isq n) {s : ℝ} {i j : ℤ} (h1 : n ≤ i) (h2 : i ≤ 3 * n) (h3 : 1 ≤ j) (h4 : j ≤ 4 * n) :
    ang2pixRing exact c n (4 / 3 - 2 * i / (3 * n)) s ((j - (if (i - n) % 2 = 0 then 1 / 2 else 1)) / n * (Real.pi / 2))
      = some (2 * n * (n - 1) + (i - n) * (4 * n) + (j - 1)) := by
  have hn := E.pos
  have hnn : n ≤ n * n := by nlinarith
  have h12 : 12 * n ≤ 12 * n * n := by nlinarith
  have n0 : (0 : ℝ) < n := by exact_mod_cast (by omega : 0 < n)
  have j0 : (1 : ℝ) ≤ j := by exact_mod_cast h3
  have j1 : (j : ℝ) ≤ 4 * n := by exact_mod_cast h4
  have t0 : 0 ≤ ((j : ℝ) - (if (i - n) % 2 = 0 then 1 / 2 else 1)) / n := by
    apply div_nonneg _ n0.le; split_ifs <;> linarith
  have t1 : ((j : ℝ) - (if (i - n) % 2 = 0 then 1 / 2 else 1)) / n < 4 := by
    rw [div_lt_iff₀ n0]; split_ifs <;> linarith
  -- the two edge lines
  obtain ⟨a, b, ha, hb, ra, rb⟩ : ∃ a b : ℤ, 2 * a = i - n - (i - n) % 2 + 2 * (j - 1) ∧ 2 * b = 3 * n - i - (i - n) % 2 + 2 * (j - 1)
      ∧ (n : ℝ) * (1 / 2 + (j - (if (i - n) % 2 = 0 then 1 / 2 else 1)) / n) - n * (4 / 3 - 2 * i / (3 * n)) * (3 / 4) = a + 1 / 2
      ∧ (n : ℝ) * (1 / 2 + (j - (if (i - n) % 2 = 0 then 1 / 2 else 1)) / n) + n * (4 / 3 - 2 * i / (3 * n)) * (3 / 4) = b + 1 / 2 := by
    by_cases d : (i - n) % 2 = 0
    · obtain ⟨w, hw⟩ : ∃ w, i - n = 2 * w := ⟨(i - n) / 2, by omega⟩
      have hwr : (i : ℝ) = n + 2 * w := by
        have : i = n + 2 * w := by omega
        exact_mod_cast congrArg (Int.cast : ℤ → ℝ) this
      refine ⟨w + (j - 1), n - w + (j - 1), by omega, by omega, ?_, ?_⟩
      · rw [if_pos d, hwr]; push_cast; field_simp; ring
      · rw [if_pos d, hwr]; push_cast; field_simp; ring
    · obtain ⟨w, hw⟩ : ∃ w, i - n = 2 * w + 1 := ⟨(i - n) / 2, by omega⟩
      have hwr : (i : ℝ) = n + 2 * w + 1 := by
        have : i = n + 2 * w + 1 := by omega
        exact_mod_cast congrArg (Int.cast : ℤ → ℝ) this
      refine ⟨w + (j - 1), n - w - 1 + (j - 1), by omega, by omega, ?_, ?_⟩
      · rw [if_neg d, hwr]; push_cast; field_simp; ring
      · rw [if_neg d, hwr]; push_cast; field_simp; ring
  have a0 : 0 ≤ a := by omega
  have b0 : 0 ≤ b := by omega
  have a0' : (0 : ℝ) ≤ a := by exact_mod_cast a0
  have b0' : (0 : ℝ) ≤ b := by exact_mod_cast b0
  unfold ang2pixRing
  rw [quarter_eq t0 t1]
  dsimp only
  rw [if_pos (show |4 / 3 - 2 * (i : ℝ) / (3 * n)| ≤ exact.twothird from belt_height hn h1 h2)]
  simp only [show exact.rnd = id from rfl, id, Option.bind_eq_bind]
  rw [ra, rb, trunc_nonneg (by linarith), trunc_nonneg (by linarith), floor_half, floor_half, E.hc a (by omega) (by omega), Option.bind_some,
    E.hc b (by omega) (by omega), Option.bind_some, show n + 1 + a - b = i - n + 1 by omega, E.hc (i - n + 1) (by omega) (by omega),
    Option.bind_some]
  have e1 : a + b - n + (1 - (i - n + 1) % 2) + 1 = 1 + 2 * (j - 1) - (i - n) % 2 + (1 - (i - n + 1) % 2) := by omega
  have e2 : a + b - n + (1 - (i - n + 1) % 2) + 1 = 1 + 2 * (j - 1) := by omega
  rw [e2, E.hc (1 + 2 * (j - 1)) (by omega) (by omega), Option.bind_some, if_neg (by omega)]
  have e3 : (1 + 2 * (j - 1)).tdiv 2 = j - 1 := by
    rw [Int.tdiv_eq_ediv_of_nonneg (by omega)]; omega
  have mm : imodulo (j - 1) (4 * n) = j - 1 := by
    unfold imodulo
    rw [Int.tmod_eq_emod_of_nonneg (by omega), Int.emod_eq_of_lt (by omega) (by omega)]
    dsimp only
    rw [if_pos (by omega)]
  rw [e3, mm]
  have k1 : (i - n) * (4 * n) ≤ (2 * n) * (4 * n) := by nlinarith
  have k0 : 0 ≤ (i - n) * (4 * n) := by nlinarith
  rw [show n * (n - 1) * 2 + (i - n + 1 - 1) * 4 * n + (j - 1) = 2 * n * (n - 1) + (i - n) * (4 * n) + (j - 1) by ring]
  exact E.hc _ (by nlinarith) (by nlinarith)

theorem ang2ring_centre (E : Env c u isq n) {i j p : ℤ} (h : RingPix n i j p) {s : ℝ} (hs : s = -5 ∨ s = Real.sqrt (1 - |ringZ n i| ^ 2)) :
    ang2pixRing exact c n (ringZ n i) s (ringT n i j * (Real.pi / 2)) = some p ∧ |ringZ n i| ≤ 1 := by
  obtain ⟨h1, h2, h3, h4, h5⟩ := h
  have hn := E.pos
  unfold ringLen at h4
  unfold ringStart at h5
  unfold ringZ at hs ⊢
  unfold ringT
  by_cases a : i < n
  · simp only [if_pos a] at h4 h5 hs ⊢
    obtain ⟨z1, z2, -⟩ := cap_height h1 a
    have ez := abs_pos_height z1
    rw [ang2ring_cap E h1 a h3 h4 ez hs, if_pos (by linarith), h5, ez]
    exact ⟨rfl, z2⟩
  · simp only [if_neg a] at h4 h5 hs ⊢
    by_cases b : i ≤ 3 * n
    · simp only [if_pos b] at h4 h5 hs ⊢
      rw [ang2ring_belt E (by omega) b h3 h4, h5]
      exact ⟨rfl, le_trans (belt_height hn (by omega) b) (by norm_num)⟩
    · simp only [if_neg b] at h4 h5 hs ⊢
      obtain ⟨z1, z2, -⟩ := cap_height (n := n) (i := 4 * n - i) (by omega) (by omega)
      have ez := abs_neg_height z1
      rw [ang2ring_cap E (by omega) (by omega) h3 h4 ez hs, if_neg (by linarith), h5, ez]
      exact ⟨rfl, z2⟩

/-- The ring counted from the north pole. -/
def northRing (n : ℤ) : Part → ℤ → ℤ
  | .south, i => 4 * n - i
  | _, i => i

theorem At.ring {x y i j pix : ℤ} {f : ℕ} {part : Part} (E : Env c u isq n) (h : At c n x y f part i j pix) :
    RingPix n (northRing n part i) j pix := by
  have hn := E.pos
  rcases h.place with ⟨rfl, a, b, d, e, rfl⟩ | ⟨rfl, a, b, d, e, rfl⟩ | ⟨rfl, a, b, d, e, rfl⟩
  · show RingPix n i j _
    unfold RingPix ringLen ringStart
    simp only [if_pos b]
    exact ⟨a, by omega, d, e, by ring⟩
  · show RingPix n i j _
    unfold RingPix ringLen ringStart
    simp only [if_neg (show ¬ i < n by omega), if_pos b]
    exact ⟨by omega, by omega, d, e, by ring⟩
  · show RingPix n (4 * n - i) j _
    unfold RingPix ringLen ringStart
    simp only [if_neg (show ¬ 4 * n - i < n by omega), if_neg (show ¬ 4 * n - i ≤ 3 * n by omega), sub_sub_cancel]
    exact ⟨by omega, by omega, d, e, by ring⟩

/-- Both numberings give a pixel the same centre. -/
theorem same_centre (E : Env c u isq n) {x y : ℤ} {f : ℕ} (hf : f < 12) (hx : 0 ≤ x ∧ x < n) (hy : 0 ≤ y ∧ y < n) :
    ∃ p i j, xyf2ringG c n x y f = some p ∧ RingPix n i j p ∧ xyf2ang exact c n x y f = some (ringZ n i, ringT n i j * (Real.pi / 2)) := by
  have hn := E.pos
  have n0 : (0 : ℝ) < n := by exact_mod_cast (by omega : 0 < n)
  have ⟨jl, hjl⟩ : ∃ jl, jrll[f]? = some jl := by interval_cases f <;> exact ⟨_, rfl⟩
  have ⟨pl, hpl⟩ : ∃ pl, jpll[f]? = some pl := by interval_cases f <;> exact ⟨_, rfl⟩
  by_cases h1 : jl * n - x - y - 1 < n
  · rcases belt_cases hf hjl hpl with ⟨a, h, hf4⟩ | ⟨a, h, hf4, hf8⟩ | ⟨a, h, hf4⟩
    · subst a
      have A := xyf2ring_north E hf4 hx hy h1
      refine ⟨_, 2 * n - x - y - 1, _, A.num, A.ring E, ?_⟩
      rw [xyf2ang_north E hf4 hx hy h1]
      unfold ringZ ringT
      simp only [if_pos h1]
      have i0 : (0 : ℝ) < ((2 * n - x - y - 1 : ℤ) : ℝ) := by exact_mod_cast (by omega : 0 < 2 * n - x - y - 1)
      generalize 2 * n - x - y - 1 = i at *
      congr 3
      push_cast; field_simp; ring
    · subst a; omega
    · subst a; omega
  · by_cases h2 : jl * n - x - y - 1 > 3 * n
    · rcases belt_cases hf hjl hpl with ⟨a, h, hf4⟩ | ⟨a, h, hf4, hf8⟩ | ⟨a, h, hf4⟩
      · subst a; omega
      · subst a; omega
      · subst a
        obtain ⟨g, rfl⟩ : ∃ g, f = 8 + g := ⟨f - 8, by omega⟩
        have A := xyf2ring_south E (by omega : g < 4) hx hy h2
        refine ⟨_, 4 * n - (x + y + 1), _, A.num, A.ring E, ?_⟩
        rw [xyf2ang_south E (by omega : g < 4) hx hy h2]
        unfold ringZ ringT
        simp only [if_neg (show ¬ 4 * n - (x + y + 1) < n by omega), if_neg (show ¬ 4 * n - (x + y + 1) ≤ 3 * n by omega), sub_sub_cancel]
        have i0 : (0 : ℝ) < ((x + y + 1 : ℤ) : ℝ) := by exact_mod_cast (by omega : 0 < x + y + 1)
        generalize x + y + 1 = i at *
        congr 3
        push_cast; field_simp; ring
    · push Not at h1 h2
      obtain ⟨m, -, -, -, hm, e⟩ := xyf2ang_belt E hf hx hy hjl hpl h1 h2
      obtain ⟨A, -⟩ := xyf2ring_belt E hf hx hy hjl hpl h1 h2
      refine ⟨_, jl * n - x - y - 1, _, A.num, A.ring E, ?_⟩
      rw [e]
      unfold ringZ ringT
      simp only [if_neg (not_lt.mpr h1), if_pos h2]
      generalize beltPos n (jl * n - x - y - 1) pl x y = j at *
      generalize jl * n - x - y - 1 = i at *
      congr 3
      rw [hm]
      by_cases d : (i - n) % 2 = 0
      · rw [if_pos d, d]; push_cast; field_simp; ring
      · rw [if_neg d, show (i - n) % 2 = 1 by omega]; push_cast; field_simp; ring

/-- Every pixel number belongs to a ring. -/
theorem ring_of_pix (E : Env c u isq n) {p : ℤ} (h0 : 0 ≤ p) (h1 : p < 12 * n * n) : ∃ i j, RingPix n i j p := by
  obtain ⟨x, y, f, hf, hx, hy, e, -⟩ := ring_surj E h0 h1
  obtain ⟨q, i, j, e', hr, -⟩ := same_centre E hf hx hy
  rw [e] at e'
  obtain rfl := Option.some.inj e'
  exact ⟨i, j, hr⟩

end

end SatSky.Healpix
