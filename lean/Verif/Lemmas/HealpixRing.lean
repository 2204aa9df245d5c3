import Verif.Lemmas.HealpixSqrt
import Mathlib.Tactic.IntervalCases

/-! Ring and position in the ring. -/

namespace SatSky.Healpix

open SatSky

/-- The types are large enough for `n`, and the integer square root is exact. -/
structure Env (c u isq : ℤ → Option ℤ) (n : ℤ) : Prop where
  pos : 1 ≤ n
  hc : ∀ v, -(12 * n * n + 12 * n) ≤ v → v ≤ 12 * n * n + 12 * n → c v = some v
  hu : ∀ v, 0 ≤ v → v ≤ 12 * n * n + 12 * n → u v = some v
  hi : ∀ v, 0 ≤ v → v ≤ 12 * n * n + 12 * n → isq v = some (Nat.sqrt v.toNat : ℤ)

theorem sqrt_half {v i : ℤ} (hi : 1 ≤ i) (h1 : (2 * i - 1) * (2 * i - 1) ≤ v) (h2 : v < (2 * i + 1) * (2 * i + 1)) :
    (1 + (Nat.sqrt v.toNat : ℤ)) / 2 = i := by
  have h0 : 0 ≤ v := by nlinarith
  obtain ⟨a, b⟩ := sqrt_bounds h0
  have hk : (0 : ℤ) ≤ Nat.sqrt v.toNat := by positivity
  generalize (Nat.sqrt v.toNat : ℤ) = k at *
  have k1 : 2 * i - 1 ≤ k := by by_contra hc; push Not at hc; nlinarith
  have k2 : k < 2 * i + 1 := by by_contra hc; push Not at hc; nlinarith
  omega

variable {c u isq : ℤ → Option ℤ} {n : ℤ}

theorem ringOf_north (E : Env c u isq n) {i j : ℤ} (h1 : 1 ≤ i) (h2 : i < n) (h3 : 1 ≤ j) (h4 : j ≤ 4 * i) :
    ringOf c isq n (2 * i * (i - 1) + j - 1) = some (.north, i, j) := by
  have hn := E.pos
  have b1 : 2 * i * (i - 1) ≤ 2 * (n - 1) * (n - 2) := by nlinarith
  have b0 : 0 ≤ 2 * i * (i - 1) := by nlinarith
  have b2 : 0 ≤ n * n - n := by nlinarith
  have hs : (1 + (Nat.sqrt (1 + 2 * (2 * i * (i - 1) + j - 1)).toNat : ℤ)) / 2 = i :=
    sqrt_half h1 (by nlinarith) (by nlinarith)
  have hlt : 2 * i * (i - 1) + j - 1 < 2 * n * (n - 1) := by nlinarith
  unfold ringOf
  rw [E.hc (2 * n * (n - 1)) (by nlinarith) (by nlinarith), E.hc (12 * n * n) (by nlinarith) (by nlinarith)]
  simp only [Option.bind_eq_bind, Option.bind_some]
  rw [if_pos hlt, E.hc _ (by nlinarith) (by nlinarith), Option.bind_some, E.hi _ (by nlinarith) (by nlinarith), Option.bind_some, hs,
    E.hc _ (by nlinarith) (by nlinarith), Option.bind_some, E.hc _ (by nlinarith) (by nlinarith), Option.bind_some]
  show some (Part.north, i, _) = _
  rw [show 2 * i * (i - 1) + j - 1 + 1 - 2 * i * (i - 1) = j by ring]

theorem ringOf_belt (E : Env c u isq n) {i j : ℤ} (h1 : n ≤ i) (h2 : i ≤ 3 * n) (h3 : 1 ≤ j) (h4 : j ≤ 4 * n) :
    ringOf c isq n (2 * n * (n - 1) + (i - n) * (4 * n) + j - 1) = some (.belt, i, j) := by
  have hn := E.pos
  have b1 : (i - n) * (4 * n) ≤ (2 * n) * (4 * n) := by nlinarith
  have b0 : 0 ≤ (i - n) * (4 * n) := by nlinarith
  have b2 : 0 ≤ n * n - n := by nlinarith
  have e : 2 * n * (n - 1) + (i - n) * (4 * n) + j - 1 - 2 * n * (n - 1) = (j - 1) + (4 * n) * (i - n) := by ring
  have hd : ((j - 1) + (4 * n) * (i - n)).tdiv (4 * n) = i - n := by
    rw [Int.tdiv_eq_ediv_of_nonneg (by nlinarith), Int.add_mul_ediv_left _ _ (by omega), Int.ediv_eq_zero_of_lt (by omega) (by omega)]
    ring
  have hm : ((j - 1) + (4 * n) * (i - n)).tmod (4 * n) = j - 1 := by
    rw [Int.tmod_eq_emod_of_nonneg (by nlinarith), Int.add_mul_emod_self_left, Int.emod_eq_of_lt (by omega) (by omega)]
  unfold ringOf
  rw [E.hc (2 * n * (n - 1)) (by nlinarith) (by nlinarith), E.hc (12 * n * n) (by nlinarith) (by nlinarith)]
  simp only [Option.bind_eq_bind, Option.bind_some]
  rw [if_neg (by nlinarith), if_pos (by nlinarith), E.hc _ (by nlinarith) (by nlinarith), Option.bind_some, e,
    E.hc _ (by nlinarith) (by nlinarith), Option.bind_some, if_neg (by omega), hd, hm,
    E.hc _ (by nlinarith) (by nlinarith), Option.bind_some, E.hc _ (by nlinarith) (by nlinarith), Option.bind_some]
  show some (Part.belt, _, _) = _
  rw [show i - n + n = i by ring, show j - 1 + 1 = j by ring]

theorem ringOf_south (E : Env c u isq n) {i j : ℤ} (h1 : 1 ≤ i) (h2 : i < n) (h3 : 1 ≤ j) (h4 : j ≤ 4 * i) :
    ringOf c isq n (12 * n * n - 2 * (i + 1) * i + j - 1) = some (.south, i, j) := by
  have hn := E.pos
  have b1 : 2 * i * (i - 1) ≤ 2 * (n - 1) * (n - 2) := by nlinarith
  have b3 : 2 * (i + 1) * i ≤ 2 * n * (n - 1) := by nlinarith
  have b0 : 0 ≤ 2 * i * (i - 1) := by nlinarith
  have b2 : 0 ≤ n * n - n := by nlinarith
  have e : 12 * n * n - (12 * n * n - 2 * (i + 1) * i + j - 1) = 2 * (i + 1) * i - j + 1 := by ring
  have hs : (1 + (Nat.sqrt (2 * (2 * (i + 1) * i - j + 1) - 1).toNat : ℤ)) / 2 = i :=
    sqrt_half h1 (by nlinarith) (by nlinarith)
  unfold ringOf
  rw [E.hc (2 * n * (n - 1)) (by nlinarith) (by nlinarith), E.hc (12 * n * n) (by nlinarith) (by nlinarith)]
  simp only [Option.bind_eq_bind, Option.bind_some]
  rw [if_neg (by nlinarith), if_neg (by nlinarith), e, E.hc _ (by nlinarith) (by nlinarith), Option.bind_some,
    E.hc _ (by nlinarith) (by nlinarith), Option.bind_some, E.hi _ (by nlinarith) (by nlinarith), Option.bind_some, hs,
    E.hc _ (by nlinarith) (by nlinarith), Option.bind_some, E.hc _ (by nlinarith) (by nlinarith), Option.bind_some]
  show some (Part.south, i, _) = _
  rw [show 4 * i + 1 - (2 * (i + 1) * i - j + 1 - 2 * i * (i - 1)) = j by ring]

theorem tdiv_eq {a n K : ℤ} (hn : 1 ≤ n) (h0 : 0 ≤ a) (h1 : K * n ≤ a) (h2 : a < (K + 1) * n) : a.tdiv n = K := by
  rw [Int.tdiv_eq_ediv_of_nonneg h0]
  apply le_antisymm
  · have : a / n < K + 1 := Int.ediv_lt_of_lt_mul (by omega) h2
    omega
  · exact Int.le_ediv_of_mul_le (by omega) h1

theorem specialDiv_eq {g r i : ℤ} (hg : g = 0 ∨ g = 1 ∨ g = 2 ∨ g = 3) (h0 : 0 ≤ r) (h1 : r < i) : specialDiv (g * i + r) i = g := by
  unfold specialDiv
  dsimp only
  rcases hg with rfl | rfl | rfl | rfl <;> (split_ifs <;> omega)

/-- The last steps of `ring2xyf`. -/
theorem finish (E : Env c u isq n) {x y iring iphi ks nr jl pl : ℤ} {f : ℕ} (hx : 0 ≤ x ∧ x < n) (hy : 0 ≤ y ∧ y < n)
    (hjl : jrll[f]? = some jl) (hpl : jpll[f]? = some pl) (hr : iring - jl * n + 1 = -x - y)
    (hp : 2 * iphi - pl * nr - ks - 1 = x - y ∨ 2 * iphi - pl * nr - ks - 1 = x - y + 8 * n)
    {part : Part} {i pix : ℤ} (ho : ringOf c isq n pix = some (part, i, iphi))
    (hf : ringFace u n (part, i, iphi) = some (iring, ks, nr, (f : ℤ))) :
    ring2xyfG c u isq n pix = some (x, y, f) := by
  have hn := E.pos
  have hsq : n ≤ n * n := by nlinarith
  unfold ring2xyfG
  rw [ho]
  simp only [Option.bind_eq_bind, Option.bind_some, hf]
  rw [if_neg (by omega)]
  simp only [Int.toNat_natCast, hjl, hpl, Option.bind_some]
  rw [hr, E.hc (-x - y) (by nlinarith) (by nlinarith), Option.bind_some]
  rcases hp with hp | hp
  · rw [hp, E.hc (x - y) (by nlinarith) (by nlinarith), Option.bind_some, if_neg (by omega)]
    show some (_, _, f) = _
    rw [show (x - y - (-x - y)) / 2 = x by omega, show (-(x - y + (-x - y))) / 2 = y by omega]
  · rw [hp, E.hc (x - y + 8 * n) (by nlinarith) (by nlinarith), Option.bind_some, if_pos (by omega)]
    show some (_, _, f) = _
    rw [show (x - y + 8 * n - 8 * n - (-x - y)) / 2 = x by omega, show (-(x - y + 8 * n - 8 * n + (-x - y))) / 2 = y by omega]

/-- Ring and position of the pixel `(x, y)` of face `f`, and its RING number. -/
structure At (c : ℤ → Option ℤ) (n x y : ℤ) (f : ℕ) (part : Part) (i j pix : ℤ) : Prop where
  num : xyf2ringG c n x y f = some pix
  place : (part = .north ∧ 1 ≤ i ∧ i < n ∧ 1 ≤ j ∧ j ≤ 4 * i ∧ pix = 2 * i * (i - 1) + j - 1)
    ∨ (part = .belt ∧ n ≤ i ∧ i ≤ 3 * n ∧ 1 ≤ j ∧ j ≤ 4 * n ∧ pix = 2 * n * (n - 1) + (i - n) * (4 * n) + j - 1)
    ∨ (part = .south ∧ 1 ≤ i ∧ i < n ∧ 1 ≤ j ∧ j ≤ 4 * i ∧ pix = 12 * n * n - 2 * (i + 1) * i + j - 1)

theorem At.ringOf {x y i j pix : ℤ} {f : ℕ} {part : Part} (E : Env c u isq n) (h : At c n x y f part i j pix) :
    ringOf c isq n pix = some (part, i, j) := by
  rcases h.place with ⟨rfl, a, b, d, e, rfl⟩ | ⟨rfl, a, b, d, e, rfl⟩ | ⟨rfl, a, b, d, e, rfl⟩
  · exact ringOf_north E a b d e
  · exact ringOf_belt E a b d e
  · exact ringOf_south E a b d e

theorem At.range {x y i j pix : ℤ} {f : ℕ} {part : Part} (E : Env c u isq n) (h : At c n x y f part i j pix) :
    0 ≤ pix ∧ pix < 12 * n * n := by
  have hn := E.pos
  rcases h.place with ⟨rfl, a, b, d, e, rfl⟩ | ⟨rfl, a, b, d, e, rfl⟩ | ⟨rfl, a, b, d, e, rfl⟩
  · constructor <;> nlinarith
  · have b1 : (i - n) * (4 * n) ≤ (2 * n) * (4 * n) := by nlinarith
    have b0 : 0 ≤ (i - n) * (4 * n) := by nlinarith
    constructor <;> nlinarith
  · constructor <;> nlinarith

/-- Evaluation of `xyf2ring` when the ring is in the northern cap. -/
theorem xyf2ring_north (E : Env c u isq n) {x y : ℤ} {f : ℕ} (hf : f < 4) (hx : 0 ≤ x ∧ x < n) (hy : 0 ≤ y ∧ y < n)
    (hr : 2 * n - x - y - 1 < n) :
    At c n x y f .north (2 * n - x - y - 1) (f * (2 * n - x - y - 1) + (n - y))
      (2 * (2 * n - x - y - 1) * (2 * n - x - y - 1 - 1) + (f * (2 * n - x - y - 1) + (n - y)) - 1) := by
  have hn := E.pos
  have hsq : n ≤ n * n := by nlinarith
  have hjl : jrll[f]? = some 2 := by interval_cases f <;> rfl
  have hpl : jpll[f]? = some (2 * (f : ℤ) + 1) := by interval_cases f <;> rfl
  have hf' : (f : ℤ) = 0 ∨ (f : ℤ) = 1 ∨ (f : ℤ) = 2 ∨ (f : ℤ) = 3 := by omega
  set i := 2 * n - x - y - 1 with hi
  have b1 : 2 * i * (i - 1) ≤ 2 * (n - 1) * (n - 2) := by nlinarith
  have b0 : 0 ≤ 2 * i * (i - 1) := by nlinarith
  refine ⟨?_, Or.inl ⟨rfl, by omega, hr, ?_, ?_, rfl⟩⟩
  · unfold xyf2ringG ringData
    simp only [hjl, hpl]
    rw [E.hc (4 * n) (by nlinarith) (by nlinarith)]
    simp only [Option.bind_eq_bind, Option.bind_some]
    rw [← hi, E.hc i (by nlinarith) (by nlinarith)]
    simp only [Option.bind_some]
    rw [if_pos hr, E.hc _ (by nlinarith) (by nlinarith)]
    simp only [Option.bind_some, Option.pure_def]
    have e : (2 * (f : ℤ) + 1) * i + x - y + 1 + 0 = 2 * (f * i + (n - y)) := by rw [hi]; ring
    have j1 : 1 ≤ (f : ℤ) * i + (n - y) := by rcases hf' with h | h | h | h <;> rw [h] <;> omega
    have j2 : (f : ℤ) * i + (n - y) ≤ 4 * i := by rcases hf' with h | h | h | h <;> rw [h] <;> omega
    rw [e, E.hc _ (by nlinarith) (by nlinarith), Option.bind_some, Int.mul_tdiv_cancel_left _ (by norm_num), if_neg (by omega), if_neg (by omega),
      E.hc _ (by nlinarith) (by nlinarith)]
  · rcases hf' with h | h | h | h <;> rw [h] <;> omega
  · rcases hf' with h | h | h | h <;> rw [h] <;> omega

theorem back_north (E : Env c u isq n) {x y : ℤ} {f : ℕ} (hf : f < 4) (hx : 0 ≤ x ∧ x < n) (hy : 0 ≤ y ∧ y < n)
    (hr : 2 * n - x - y - 1 < n) {pix : ℤ} (hp : At c n x y f .north (2 * n - x - y - 1) (f * (2 * n - x - y - 1) + (n - y)) pix) :
    ring2xyfG c u isq n pix = some (x, y, f) := by
  have hjl : jrll[f]? = some 2 := by interval_cases f <;> rfl
  have hpl : jpll[f]? = some (2 * (f : ℤ) + 1) := by interval_cases f <;> rfl
  refine finish E hx hy hjl hpl (iring := 2 * n - x - y - 1) (iphi := f * (2 * n - x - y - 1) + (n - y)) (ks := 0)
    (nr := 2 * n - x - y - 1) (by ring) (Or.inl (by ring)) (hp.ringOf E) ?_
  unfold ringFace
  have : (f : ℤ) * (2 * n - x - y - 1) + (n - y) - 1 = f * (2 * n - x - y - 1) + (n - y - 1) := by ring
  simp only [this]
  rw [specialDiv_eq (by omega) (by omega) (by omega)]

/-- Evaluation of `xyf2ring` when the ring is in the southern cap. -/
theorem xyf2ring_south (E : Env c u isq n) {x y : ℤ} {g : ℕ} (hg : g < 4) (hx : 0 ≤ x ∧ x < n) (hy : 0 ≤ y ∧ y < n)
    (hr : 4 * n - x - y - 1 > 3 * n) :
    At c n x y (8 + g) .south (x + y + 1) (g * (x + y + 1) + (x + 1))
      (12 * n * n - 2 * (x + y + 1 + 1) * (x + y + 1) + (g * (x + y + 1) + (x + 1)) - 1) := by
  have hn := E.pos
  have hsq : n ≤ n * n := by nlinarith
  have hjl : jrll[8 + g]? = some 4 := by interval_cases g <;> rfl
  have hpl : jpll[8 + g]? = some (2 * (g : ℤ) + 1) := by interval_cases g <;> rfl
  have hf' : (g : ℤ) = 0 ∨ (g : ℤ) = 1 ∨ (g : ℤ) = 2 ∨ (g : ℤ) = 3 := by omega
  set i := x + y + 1 with hi
  have b1 : 2 * (i + 1) * i ≤ 2 * n * (n - 1) := by nlinarith
  have b0 : 0 ≤ 2 * (i + 1) * i := by nlinarith
  refine ⟨?_, Or.inr (Or.inr ⟨rfl, by omega, by omega, ?_, ?_, rfl⟩)⟩
  · unfold xyf2ringG ringData
    simp only [hjl, hpl]
    rw [E.hc (4 * n) (by nlinarith) (by nlinarith)]
    simp only [Option.bind_eq_bind, Option.bind_some]
    rw [E.hc (4 * n - x - y - 1) (by nlinarith) (by nlinarith)]
    simp only [Option.bind_some]
    rw [if_neg (by omega), if_pos hr, show 4 * n - (4 * n - x - y - 1) = i by rw [hi]; ring, E.hc i (by nlinarith) (by nlinarith)]
    simp only [Option.bind_some]
    rw [E.hc (12 * n * n) (by nlinarith) (by nlinarith), Option.bind_some, E.hc (2 * (i + 1) * i) (by nlinarith) (by nlinarith),
      Option.bind_some, E.hc (12 * n * n - 2 * (i + 1) * i) (by nlinarith) (by nlinarith)]
    simp only [Option.bind_some, Option.pure_def]
    have e : (2 * (g : ℤ) + 1) * i + x - y + 1 + 0 = 2 * (g * i + (x + 1)) := by rw [hi]; ring
    have j1 : 1 ≤ (g : ℤ) * i + (x + 1) := by rcases hf' with h | h | h | h <;> rw [h] <;> omega
    have j2 : (g : ℤ) * i + (x + 1) ≤ 4 * i := by rcases hf' with h | h | h | h <;> rw [h] <;> omega
    rw [e, E.hc _ (by nlinarith) (by nlinarith), Option.bind_some, Int.mul_tdiv_cancel_left _ (by norm_num), if_neg (by omega), if_neg (by omega),
      E.hc _ (by nlinarith) (by nlinarith)]
  · rcases hf' with h | h | h | h <;> rw [h] <;> omega
  · rcases hf' with h | h | h | h <;> rw [h] <;> omega

theorem back_south (E : Env c u isq n) {x y : ℤ} {g : ℕ} (hg : g < 4) (hx : 0 ≤ x ∧ x < n) (hy : 0 ≤ y ∧ y < n)
    {pix : ℤ} (hp : At c n x y (8 + g) .south (x + y + 1) (g * (x + y + 1) + (x + 1)) pix) :
    ring2xyfG c u isq n pix = some (x, y, 8 + g) := by
  have hjl : jrll[8 + g]? = some 4 := by interval_cases g <;> rfl
  have hpl : jpll[8 + g]? = some (2 * (g : ℤ) + 1) := by interval_cases g <;> rfl
  refine finish E hx hy hjl hpl (iring := 2 * (2 * n) - (x + y + 1)) (iphi := g * (x + y + 1) + (x + 1)) (ks := 0)
    (nr := x + y + 1) (by ring) (Or.inl (by ring)) (hp.ringOf E) ?_
  unfold ringFace
  have : (g : ℤ) * (x + y + 1) + (x + 1) - 1 = g * (x + y + 1) + x := by ring
  simp only [this]
  rw [specialDiv_eq (by omega) (by omega) (by omega)]
  push_cast
  rfl

/-- Position in the ring for a pixel in the belt (ring `jr`, table entry `pl`). -/
def beltPos (n jr pl x y : ℤ) : ℤ :=
  let j := (pl * n + x - y + 1 + (jr - n) % 2) / 2
  if j < 1 then j + 4 * n else j

theorem belt_cases {f : ℕ} (hf : f < 12) {jl pl : ℤ} (hjl : jrll[f]? = some jl) (hpl : jpll[f]? = some pl) :
    (jl = 2 ∧ pl = 2 * f + 1 ∧ f < 4) ∨ (jl = 3 ∧ pl = 2 * (f - 4 : ℤ) ∧ 4 ≤ f ∧ f < 8)
      ∨ (jl = 4 ∧ pl = 2 * (f - 8 : ℤ) + 1 ∧ 8 ≤ f) := by
  interval_cases f <;> simp [jrll, jpll] at hjl hpl <;> omega

theorem xyf2ring_belt (E : Env c u isq n) {x y jl pl : ℤ} {f : ℕ} (hf : f < 12) (hx : 0 ≤ x ∧ x < n) (hy : 0 ≤ y ∧ y < n)
    (hjl : jrll[f]? = some jl) (hpl : jpll[f]? = some pl) (h1 : n ≤ jl * n - x - y - 1) (h2 : jl * n - x - y - 1 ≤ 3 * n) :
    let jr := jl * n - x - y - 1
    At c n x y f .belt jr (beltPos n jr pl x y) (2 * n * (n - 1) + (jr - n) * (4 * n) + beltPos n jr pl x y - 1)
    ∧ (2 * beltPos n jr pl x y = pl * n + x - y + 1 + (jr - n) % 2
      ∨ (f = 4 ∧ 2 * beltPos n jr pl x y = pl * n + x - y + 1 + (jr - n) % 2 + 8 * n)) := by
  have hn := E.pos
  have hsq : n ≤ n * n := by nlinarith
  intro jr
  have hp0 : 0 ≤ pl ∧ pl ≤ 7 := by
    rcases belt_cases hf hjl hpl with ⟨-, h, _⟩ | ⟨-, h, _⟩ | ⟨-, h, _⟩ <;> omega
  have hj0 : 0 ≤ pl * n ∧ pl * n ≤ 7 * n := by constructor <;> nlinarith
  have b1 : (jr - n) * (4 * n) ≤ (2 * n) * (4 * n) := by nlinarith
  have b0 : 0 ≤ (jr - n) * (4 * n) := by nlinarith
  -- the numerator is even
  have hev : (pl * n + x - y + 1 + (jr - n) % 2) % 2 = 0 := by
    have hjr : jr = jl * n - x - y - 1 := rfl
    rcases belt_cases hf hjl hpl with ⟨a, h, hf⟩ | ⟨a, h, hf, hf2⟩ | ⟨a, h, hf2⟩ <;>
      (rw [a] at hjr; rw [h]; interval_cases f <;> norm_num <;> omega)
  have hlow : pl ≠ 0 → 1 ≤ (pl * n + x - y + 1 + (jr - n) % 2) / 2 := by
    intro h
    have : n ≤ pl * n := by nlinarith [hp0.1, lt_of_le_of_ne hp0.1 (Ne.symm h)]
    omega
  have hup : (pl * n + x - y + 1 + (jr - n) % 2) / 2 ≤ 4 * n := by omega
  have hval : 2 * ((pl * n + x - y + 1 + (jr - n) % 2) / 2) = pl * n + x - y + 1 + (jr - n) % 2 := by omega
  have hge : -n < (pl * n + x - y + 1 + (jr - n) % 2) / 2 := by omega
  have hj1 : 1 ≤ beltPos n jr pl x y := by unfold beltPos; dsimp only; split_ifs <;> omega
  have hj2 : beltPos n jr pl x y ≤ 4 * n := by unfold beltPos; dsimp only; split_ifs <;> omega
  refine ⟨⟨?_, Or.inr (Or.inl ⟨rfl, h1, h2, hj1, hj2, rfl⟩)⟩, ?_⟩
  · unfold xyf2ringG ringData
    simp only [hjl, hpl]
    rw [E.hc (4 * n) (by nlinarith) (by nlinarith)]
    simp only [Option.bind_eq_bind, Option.bind_some]
    rw [E.hc (jl * n - x - y - 1) (by nlinarith) (by nlinarith)]
    simp only [Option.bind_some]
    change ((if jr < n then _ else if jr > 3 * n then _ else _ : Option (ℤ × ℤ × ℤ)).bind _) = _
    rw [if_neg (by omega), if_neg (by omega), E.hc (2 * n * (n - 1)) (by nlinarith) (by nlinarith)]
    change (((c ((jr - n) * (4 * n))).bind _ : Option (ℤ × ℤ × ℤ)).bind _) = _
    rw [E.hc ((jr - n) * (4 * n)) (by nlinarith) (by nlinarith), Option.bind_some, E.hc _ (by nlinarith) (by nlinarith)]
    simp only [Option.bind_some, Option.pure_def]
    change (c (pl * n + x - y + 1 + (jr - n) % 2)).bind _ = _
    rw [E.hc _ (by nlinarith [Int.emod_nonneg (jr - n) (by norm_num : (2 : ℤ) ≠ 0)]) (by nlinarith [Int.emod_lt_of_pos (jr - n) (by norm_num : (0 : ℤ) < 2)]), Option.bind_some]
    have ht : (pl * n + x - y + 1 + (jr - n) % 2).tdiv 2 = (pl * n + x - y + 1 + (jr - n) % 2) / 2 := by
      rw [Int.tdiv_eq_ediv_of_dvd (Int.dvd_of_emod_eq_zero hev)]
    rw [ht, if_neg (by omega)]
    change c (2 * n * (n - 1) + (jr - n) * (4 * n) + beltPos n jr pl x y - 1) = _
    exact E.hc _ (by nlinarith) (by nlinarith)
  · unfold beltPos
    dsimp only
    split_ifs with hlt
    · right
      refine ⟨?_, by omega⟩
      by_contra h4
      have : pl ≠ 0 := by
        rcases belt_cases hf hjl hpl with ⟨-, h, hf⟩ | ⟨-, h, hf, hf2⟩ | ⟨-, h, hf2⟩ <;> omega
      have := hlow this
      omega
    · left; exact hval

theorem back_belt (E : Env c u isq n) {x y jl pl : ℤ} {f : ℕ} (hf : f < 12) (hx : 0 ≤ x ∧ x < n) (hy : 0 ≤ y ∧ y < n)
    (hjl : jrll[f]? = some jl) (hpl : jpll[f]? = some pl) (h1 : n ≤ jl * n - x - y - 1) (h2 : jl * n - x - y - 1 ≤ 3 * n) {pix j : ℤ}
    (hp : At c n x y f .belt (jl * n - x - y - 1) j pix)
    (hj : 2 * j = pl * n + x - y + 1 + (jl * n - x - y - 1 - n) % 2
      ∨ (f = 4 ∧ 2 * j = pl * n + x - y + 1 + (jl * n - x - y - 1 - n) % 2 + 8 * n)) :
    ring2xyfG c u isq n pix = some (x, y, f) := by
  have hn := E.pos
  have hsq : n ≤ n * n := by nlinarith
  have hks : (jl * n - x - y - 1 + n) % 2 = (jl * n - x - y - 1 - n) % 2 := by omega
  obtain ⟨j1, j2⟩ : 1 ≤ j ∧ j ≤ 4 * n := by
    rcases hp.place with ⟨h, -⟩ | ⟨-, -, -, a, b, -⟩ | ⟨h, -⟩
    · cases h
    · exact ⟨a, b⟩
    · cases h
  refine finish E hx hy hjl hpl (iring := jl * n - x - y - 1) (iphi := j) (ks := (jl * n - x - y - 1 + n) % 2) (nr := n) (by ring)
    (by rw [hks]; rcases hj with h | ⟨-, h⟩ <;> [left; right] <;> omega) (hp.ringOf E) ?_
  unfold ringFace
  dsimp only
  generalize hjr : jl * n - x - y - 1 = jr at *
  rw [E.hu (jr - n + 1) (by omega) (by nlinarith)]
  simp only [Option.bind_eq_bind, Option.bind_some]
  rw [E.hu (2 * n + 2 - (jr - n + 1)) (by omega) (by nlinarith)]
  simp only [Option.bind_some]
  have t1 : (jr - n + 1).tdiv 2 = (jr - n + 1) / 2 := Int.tdiv_eq_ediv_of_nonneg (by omega)
  have t2 : (2 * n + 2 - (jr - n + 1)).tdiv 2 = (2 * n + 2 - (jr - n + 1)) / 2 := Int.tdiv_eq_ediv_of_nonneg (by omega)
  rw [t1, t2, E.hu (j - (jr - n + 1) / 2 + n - 1) (by omega) (by nlinarith [Int.ediv_nonneg (by omega : 0 ≤ jr - n + 1) (by norm_num : (0 : ℤ) ≤ 2)])]
  simp only [Option.bind_some]
  rw [E.hu (j - (2 * n + 2 - (jr - n + 1)) / 2 + n - 1) (by omega)
    (by nlinarith [Int.ediv_nonneg (by omega : 0 ≤ 2 * n + 2 - (jr - n + 1)) (by norm_num : (0 : ℤ) ≤ 2)])]
  simp only [Option.bind_some, Option.pure_def]
  congr 4
  rcases belt_cases hf hjl hpl with ⟨a, h, hf4⟩ | ⟨a, h, hf4, hf8⟩ | ⟨a, h, hf4⟩
  · have k1 : (j - (jr - n + 1) / 2 + n - 1).tdiv n = f + 1 := by
      subst a h
      apply tdiv_eq hn (by omega) <;> interval_cases f <;> norm_num at hj ⊢ <;> omega
    have k2 : (j - (2 * n + 2 - (jr - n + 1)) / 2 + n - 1).tdiv n = f := by
      subst a h
      apply tdiv_eq hn (by omega) <;> interval_cases f <;> norm_num at hj ⊢ <;> omega
    rw [k1, k2]
    unfold beltFace
    rw [if_neg (by omega), if_pos (by omega)]
  · by_cases hw : f = 4 ∧ 2 * j = pl * n + x - y + 1 + (jr - n) % 2 + 8 * n
    · obtain ⟨rfl, hw⟩ := hw
      have k1 : (j - (jr - n + 1) / 2 + n - 1).tdiv n = 4 := by
        subst a h
        norm_num at hw
        apply tdiv_eq hn (by omega) <;> omega
      have k2 : (j - (2 * n + 2 - (jr - n + 1)) / 2 + n - 1).tdiv n = 4 := by
        subst a h
        norm_num at hw
        apply tdiv_eq hn (by omega) <;> omega
      rw [k1, k2]
      rfl
    · have hj' : 2 * j = pl * n + x - y + 1 + (jr - n) % 2 := by
        rcases hj with h | h
        · exact h
        · exact absurd h hw
      have k1 : (j - (jr - n + 1) / 2 + n - 1).tdiv n = f - 4 := by
        subst a h
        apply tdiv_eq hn (by omega) <;> interval_cases f <;> norm_num at hj' ⊢ <;> omega
      have k2 : (j - (2 * n + 2 - (jr - n + 1)) / 2 + n - 1).tdiv n = f - 4 := by
        subst a h
        apply tdiv_eq hn (by omega) <;> interval_cases f <;> norm_num at hj' ⊢ <;> omega
      rw [k1, k2]
      unfold beltFace
      rw [if_pos rfl]
      interval_cases f <;> rfl
  · have k1 : (j - (jr - n + 1) / 2 + n - 1).tdiv n = f - 8 := by
      subst a h
      apply tdiv_eq hn (by omega) <;> interval_cases f <;> norm_num at hj ⊢ <;> omega
    have k2 : (j - (2 * n + 2 - (jr - n + 1)) / 2 + n - 1).tdiv n = f - 8 + 1 := by
      subst a h
      apply tdiv_eq hn (by omega) <;> interval_cases f <;> norm_num at hj ⊢ <;> omega
    rw [k1, k2]
    unfold beltFace
    rw [if_neg (by omega), if_neg (by omega)]
    omega

/-- `xyf2ring` and back. -/
theorem ring_of_xyf (E : Env c u isq n) {x y : ℤ} {f : ℕ} (hf : f < 12) (hx : 0 ≤ x ∧ x < n) (hy : 0 ≤ y ∧ y < n) :
    ∃ part i j pix, At c n x y f part i j pix ∧ ring2xyfG c u isq n pix = some (x, y, f) := by
  have hn := E.pos
  have ⟨jl, hjl⟩ : ∃ jl, jrll[f]? = some jl := by interval_cases f <;> exact ⟨_, rfl⟩
  have ⟨pl, hpl⟩ : ∃ pl, jpll[f]? = some pl := by interval_cases f <;> exact ⟨_, rfl⟩
  by_cases h1 : jl * n - x - y - 1 < n
  · rcases belt_cases hf hjl hpl with ⟨a, h, hf4⟩ | ⟨a, h, hf4, hf8⟩ | ⟨a, h, hf4⟩
    · subst a
      have A := xyf2ring_north E hf4 hx hy h1
      exact ⟨_, _, _, _, A, back_north E hf4 hx hy h1 A⟩
    · subst a; omega
    · subst a; omega
  · by_cases h2 : jl * n - x - y - 1 > 3 * n
    · rcases belt_cases hf hjl hpl with ⟨a, h, hf4⟩ | ⟨a, h, hf4, hf8⟩ | ⟨a, h, hf4⟩
      · subst a; omega
      · subst a; omega
      · subst a
        obtain ⟨g, rfl⟩ : ∃ g, f = 8 + g := ⟨f - 8, by omega⟩
        have A := xyf2ring_south E (by omega : g < 4) hx hy h2
        exact ⟨_, _, _, _, A, back_south E (by omega) hx hy A⟩
    · obtain ⟨A, hj⟩ := xyf2ring_belt E hf hx hy hjl hpl (by omega) (by omega)
      exact ⟨_, _, _, _, A, back_belt E hf hx hy hjl hpl (by omega) (by omega) A hj⟩

end SatSky.Healpix
