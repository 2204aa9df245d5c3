import Mathlib.Data.Rat.Floor
import Mathlib.Algebra.Order.Round
import Mathlib.Data.Int.Log
import Mathlib.Tactic.Linarith
import Mathlib.Tactic.NormNum
import Mathlib.Tactic.Ring
import Mathlib.Tactic.FieldSimp
import Mathlib.Tactic.Positivity

/-!
Floating point arithmetic, as far as the models need it.

A `double` operation is modelled as the exact rational result followed by `rnd`.  `Fl64` lists the
properties of `rnd` that the proofs use; every IEEE 754 binary64 rounding of numbers in the normal
range has them (the structure also allows other roundings, so theorems hold for all rounding modes
"to nearest").  `Fl64.ieee` at the end shows that rounding to 53 significant bits is an instance, so
theorems about all `Fl64` are not vacuous and cover it.
-/

namespace SatSky

/-- Properties of rounding to `double`. -/
structure Fl64 where
  /-- Rounding of an exact rational result. -/
  rnd : ℚ → ℚ
  /-- Relative error at most 2^-53 (plus an absolute term that covers subnormal results). -/
  err : ∀ x, |rnd x - x| ≤ |x| / 2 ^ 53 + 1 / 2 ^ 200
  /-- Numbers with a significand of at most 53 bits are not changed. -/
  exact : ∀ (k : ℤ) (j : ℕ), |k| ≤ 2 ^ 53 → j ≤ 1000 → rnd (k / 2 ^ j) = k / 2 ^ j
  /-- Results of size at least 2^-j are multiples of 2^-(52+j). -/
  grid : ∀ (x : ℚ) (j : ℕ), 1 / 2 ^ j ≤ |rnd x| → ∃ k : ℤ, rnd x = k / 2 ^ (52 + j)
  /-- Rounding is monotone. -/
  mono : ∀ x y, x ≤ y → rnd x ≤ rnd y

/-- Properties of rounding to `float` (24 bits). -/
structure Fl32 where
  rnd : ℚ → ℚ
  err : ∀ x, |rnd x - x| ≤ |x| / 2 ^ 24 + 1 / 2 ^ 149

/-- C conversion of a floating point value to an integer type: truncation toward zero. -/
def truncQ (x : ℚ) : ℤ := if 0 ≤ x then ⌊x⌋ else ⌈x⌉

/-- `fmod(x, 1.)`, which is exact in IEEE arithmetic. -/
def fmod1 (x : ℚ) : ℚ := x - truncQ x

/-- `roundf`: nearest integer, halves away from zero. -/
def roundAway (x : ℚ) : ℤ := if 0 ≤ x then ⌊x + 1 / 2⌋ else ⌈x - 1 / 2⌉

/-! ### Rounding to `p` significant bits is an instance -/

/-- Nearest integer, halves to the even one (the default IEEE 754 rounding). -/
def roundEven (y : ℚ) : ℤ :=
  if y - ⌊y⌋ < 1 / 2 then ⌊y⌋
  else if 1 / 2 < y - ⌊y⌋ then ⌊y⌋ + 1
  else if ⌊y⌋ % 2 = 0 then ⌊y⌋ else ⌊y⌋ + 1

theorem roundEven_floor (y : ℚ) : ⌊y⌋ ≤ roundEven y ∧ roundEven y ≤ ⌊y⌋ + 1 := by
  unfold roundEven
  split
  · omega
  · split
    · omega
    · split <;> omega

theorem abs_sub_roundEven (y : ℚ) : |y - (roundEven y : ℤ)| ≤ 1 / 2 := by
  have a := Int.floor_le y
  have b := Int.lt_floor_add_one y
  unfold roundEven
  split
  · rw [abs_le]; constructor <;> linarith
  · split
    · rw [abs_le]; push_cast; constructor <;> linarith
    · split
      · rw [abs_le]; constructor <;> linarith
      · rw [abs_le]; push_cast; constructor <;> linarith

theorem roundEven_intCast (n : ℤ) : roundEven (n : ℚ) = n := by
  unfold roundEven
  rw [Int.floor_intCast, if_pos (by norm_num)]

@[simp] theorem roundEven_zero : roundEven 0 = 0 := by
  have := roundEven_intCast 0
  simpa using this

theorem round_mono {x y : ℚ} (h : x ≤ y) : roundEven x ≤ roundEven y := by
  rcases lt_or_eq_of_le (Int.floor_le_floor h) with hl | hl
  · have := roundEven_floor x
    have := roundEven_floor y
    omega
  · unfold roundEven
    rw [← hl]
    by_cases h1 : x - ⌊x⌋ < 1 / 2
    · rw [if_pos h1]; split
      · omega
      · split
        · omega
        · split <;> omega
    · rw [if_neg h1, if_neg (c := y - ⌊x⌋ < 1 / 2) (by linarith)]
      by_cases h2 : 1 / 2 < x - ⌊x⌋
      · rw [if_pos h2, if_pos (by linarith)]
      · rw [if_neg h2]
        by_cases h3 : 1 / 2 < y - ⌊x⌋
        · rw [if_pos h3]; split <;> omega
        · rw [if_neg h3]

theorem round_le_of_le {y : ℚ} {n : ℤ} (h : y ≤ n) : roundEven y ≤ n := by
  have := round_mono h
  rwa [roundEven_intCast] at this

theorem le_round_of_le {y : ℚ} {n : ℤ} (h : (n : ℚ) ≤ y) : n ≤ roundEven y := by
  have := round_mono h
  rwa [roundEven_intCast] at this

/-- Rounding to the nearest number with `p` significant bits (halves to even), unbounded exponent. -/
def rndBits (p : ℕ) (x : ℚ) : ℚ :=
  (roundEven (x / (2 : ℚ) ^ (Int.log 2 |x| - (p : ℤ) + 1)) : ℤ) * (2 : ℚ) ^ (Int.log 2 |x| - (p : ℤ) + 1)

theorem rndBits_err (p : ℕ) (x : ℚ) : |rndBits p x - x| ≤ |x| / 2 ^ p := by
  by_cases hx : x = 0
  · subst hx; simp [rndBits]
  have hpos : 0 < |x| := abs_pos.mpr hx
  have hlog : (2 : ℚ) ^ Int.log 2 |x| ≤ |x| := by
    have := Int.zpow_log_le_self (b := 2) (r := |x|) (by norm_num) hpos
    simpa using this
  set u : ℚ := (2 : ℚ) ^ (Int.log 2 |x| - (p : ℤ) + 1) with hu
  have upos : 0 < u := zpow_pos (by norm_num) _
  have h1 : |x / u - (roundEven (x / u) : ℤ)| ≤ 1 / 2 := abs_sub_roundEven (x / u)
  have h2 : rndBits p x - x = -((x / u - (roundEven (x / u) : ℤ)) * u) := by
    have : rndBits p x = (roundEven (x / u) : ℤ) * u := rfl
    rw [this]; field_simp; ring
  rw [h2, abs_neg, abs_mul, abs_of_pos upos]
  have h3 : u = 2 ^ Int.log 2 |x| / 2 ^ p * 2 := by
    rw [hu, zpow_add₀ (by norm_num), zpow_sub₀ (by norm_num)]; simp
  calc |x / u - (roundEven (x / u) : ℤ)| * u ≤ 1 / 2 * u := by
        exact mul_le_mul_of_nonneg_right h1 upos.le
    _ = 2 ^ Int.log 2 |x| / 2 ^ p := by rw [h3]; ring
    _ ≤ |x| / 2 ^ p := by
        apply div_le_div_of_nonneg_right hlog; positivity

theorem rndBits_zero (p : ℕ) : rndBits p 0 = 0 := by simp [rndBits]

/-- The scaled significand of a nonzero number. -/
theorem rndBits_scaled (p : ℕ) (x : ℚ) (hx : x ≠ 0) :
    (2 : ℚ) ^ p ≤ |x / (2 : ℚ) ^ (Int.log 2 |x| - (p : ℤ) + 1)| * 2 ∧
      |x / (2 : ℚ) ^ (Int.log 2 |x| - (p : ℤ) + 1)| < 2 ^ p := by
  have hpos : 0 < |x| := abs_pos.mpr hx
  have hlog : (2 : ℚ) ^ Int.log 2 |x| ≤ |x| := by
    simpa using Int.zpow_log_le_self (b := 2) (r := |x|) (by norm_num) hpos
  have hlog2 : |x| < (2 : ℚ) ^ (Int.log 2 |x| + 1) := by
    simpa using Int.lt_zpow_succ_log_self (b := 2) (by norm_num) |x|
  set u : ℚ := (2 : ℚ) ^ (Int.log 2 |x| - (p : ℤ) + 1) with hu
  have upos : 0 < u := zpow_pos (by norm_num) _
  have h3 : 2 ^ Int.log 2 |x| * 2 = u * 2 ^ p := by
    rw [hu, zpow_add₀ (by norm_num), zpow_sub₀ (by norm_num)]
    simp; field_simp
  have h4 : (2 : ℚ) ^ (Int.log 2 |x| + 1) = u * 2 ^ p := by
    rw [zpow_add₀ (by norm_num), ← h3]; simp
  rw [abs_div, abs_of_pos upos]
  constructor
  · rw [div_mul_eq_mul_div, le_div_iff₀ upos]; nlinarith
  · rw [div_lt_iff₀ upos]; nlinarith

theorem rndBits_exact (p : ℕ) (k : ℤ) (j : ℕ) (hk : |k| ≤ 2 ^ p) (hp : 1 ≤ p) :
    rndBits p (k / 2 ^ j) = k / 2 ^ j := by
  by_cases h0 : k = 0
  · subst h0; simp [rndBits_zero]
  have hx : ((k : ℚ) / 2 ^ j) ≠ 0 := by
    apply div_ne_zero
    · exact_mod_cast h0
    · positivity
  set x : ℚ := (k : ℚ) / 2 ^ j with hxd
  have hpos : 0 < |x| := abs_pos.mpr hx
  have hlog : (2 : ℚ) ^ Int.log 2 |x| ≤ |x| := by
    simpa using Int.zpow_log_le_self (b := 2) (r := |x|) (by norm_num) hpos
  set e := Int.log 2 |x| with he
  -- it is enough that x is an integer multiple of the spacing
  have key : ∃ n : ℤ, x = n * (2 : ℚ) ^ (e - (p : ℤ) + 1) := by
    have hle : e + j ≤ p := by
      have hkq : |x| * 2 ^ j ≤ 2 ^ p := by
        have : |x| * 2 ^ j = |(k : ℚ)| := by
          rw [hxd, abs_div, abs_of_pos (a := (2 : ℚ) ^ j) (by positivity)]; field_simp
        rw [this]; exact_mod_cast hk
      have h1 : (2 : ℚ) ^ (e + j) ≤ (2 : ℚ) ^ (p : ℤ) := by
        rw [zpow_add₀ (by norm_num)]
        simp only [zpow_natCast]
        calc (2 : ℚ) ^ e * 2 ^ j ≤ |x| * 2 ^ j := by
              apply mul_le_mul_of_nonneg_right hlog; positivity
          _ ≤ 2 ^ p := hkq
      exact (zpow_le_zpow_iff_right₀ (by norm_num : (1 : ℚ) < 2)).mp h1
    by_cases hc : e + j ≤ p - 1
    · obtain ⟨t, ht⟩ : ∃ t : ℕ, (t : ℤ) = p - 1 - e - j := ⟨(p - 1 - e - j).toNat, by omega⟩
      refine ⟨k * 2 ^ t, ?_⟩
      have : e - (p : ℤ) + 1 = -((t : ℤ) + j) := by omega
      rw [this, zpow_neg, zpow_add₀ (by norm_num)]
      simp only [zpow_natCast]
      rw [hxd]; push_cast; field_simp
    · have hej : e = p - j := by omega
      have hkk : |k| = 2 ^ p := by
        apply le_antisymm hk
        have : (2 : ℚ) ^ (p : ℤ) ≤ |(k : ℚ)| := by
          have h2 : |x| * 2 ^ j = |(k : ℚ)| := by
            rw [hxd, abs_div, abs_of_pos (a := (2 : ℚ) ^ j) (by positivity)]; field_simp
          rw [← h2]
          have : (2 : ℚ) ^ (p : ℤ) = 2 ^ e * 2 ^ j := by
            rw [hej, zpow_sub₀ (by norm_num)]; simp only [zpow_natCast]; field_simp
          rw [this]
          apply mul_le_mul_of_nonneg_right hlog; positivity
        simp only [zpow_natCast] at this
        exact_mod_cast this
      obtain ⟨q, rfl⟩ : ∃ q, p = q + 1 := ⟨p - 1, by omega⟩
      have hdiv : ∃ n : ℤ, k = n * 2 := by
        rcases abs_eq (by positivity : (0 : ℤ) ≤ 2 ^ (q + 1)) |>.mp hkk with h | h
        · exact ⟨2 ^ q, by rw [h]; ring⟩
        · exact ⟨-2 ^ q, by rw [h]; ring⟩
      obtain ⟨n, hn⟩ := hdiv
      refine ⟨n, ?_⟩
      have : e - ((q + 1 : ℕ) : ℤ) + 1 = 1 - (j : ℤ) := by omega
      rw [this, zpow_sub₀ (by norm_num)]
      simp only [zpow_natCast, zpow_one]
      rw [hxd, hn]; push_cast; field_simp
  obtain ⟨n, hn⟩ := key
  have upos : (0 : ℚ) < (2 : ℚ) ^ (e - (p : ℤ) + 1) := zpow_pos (by norm_num) _
  have hq : x / (2 : ℚ) ^ (e - (p : ℤ) + 1) = (n : ℚ) := by
    rw [div_eq_iff upos.ne']; exact hn
  have : rndBits p x = (roundEven (x / (2 : ℚ) ^ (e - (p : ℤ) + 1)) : ℤ) * (2 : ℚ) ^ (e - (p : ℤ) + 1) := rfl
  rw [this, hq, roundEven_intCast]; exact hn.symm

theorem two_pow_int (p : ℕ) : ((2 ^ p : ℤ) : ℚ) = 2 ^ p := by push_cast; rfl

theorem rndBits_pos_bounds (p : ℕ) (hp : 1 ≤ p) (x : ℚ) (hx : 0 < x) :
    (2 : ℚ) ^ Int.log 2 |x| ≤ rndBits p x ∧ rndBits p x ≤ (2 : ℚ) ^ (Int.log 2 |x| + 1) := by
  obtain ⟨a, b⟩ := rndBits_scaled p x hx.ne'
  obtain ⟨q, rfl⟩ : ∃ q, p = q + 1 := ⟨p - 1, by omega⟩
  set e := Int.log 2 |x| with he
  set u : ℚ := (2 : ℚ) ^ (e - ((q + 1 : ℕ) : ℤ) + 1) with hu
  have upos : 0 < u := zpow_pos (by norm_num) _
  have hxu : 0 < x / u := div_pos hx upos
  rw [abs_of_pos hxu] at a b
  have e1 : (2 : ℚ) ^ e = 2 ^ q * u := by
    rw [hu, ← zpow_natCast, ← zpow_add₀ (by norm_num)]; congr 1; push_cast; ring
  have e2 : (2 : ℚ) ^ (e + 1) = 2 ^ (q + 1) * u := by
    rw [zpow_add₀ (by norm_num), e1]; simp; ring
  have hr : rndBits (q + 1) x = (roundEven (x / u) : ℤ) * u := rfl
  rw [hr, e1, e2]
  constructor
  · apply mul_le_mul_of_nonneg_right _ upos.le
    have : (2 ^ q : ℤ) ≤ roundEven (x / u) := le_round_of_le (by
      rw [two_pow_int]; rw [pow_succ] at a; linarith)
    calc (2 : ℚ) ^ q = ((2 ^ q : ℤ) : ℚ) := (two_pow_int q).symm
      _ ≤ _ := by exact_mod_cast this
  · apply mul_le_mul_of_nonneg_right _ upos.le
    have : roundEven (x / u) ≤ (2 ^ (q + 1) : ℤ) := round_le_of_le (by
      rw [two_pow_int]; linarith)
    calc ((roundEven (x / u) : ℤ) : ℚ) ≤ ((2 ^ (q + 1) : ℤ) : ℚ) := by exact_mod_cast this
      _ = _ := two_pow_int (q + 1)

theorem rndBits_neg_bounds (p : ℕ) (hp : 1 ≤ p) (x : ℚ) (hx : x < 0) :
    rndBits p x ≤ -(2 : ℚ) ^ Int.log 2 |x| ∧ -(2 : ℚ) ^ (Int.log 2 |x| + 1) ≤ rndBits p x := by
  obtain ⟨a, b⟩ := rndBits_scaled p x hx.ne
  obtain ⟨q, rfl⟩ : ∃ q, p = q + 1 := ⟨p - 1, by omega⟩
  set e := Int.log 2 |x| with he
  set u : ℚ := (2 : ℚ) ^ (e - ((q + 1 : ℕ) : ℤ) + 1) with hu
  have upos : 0 < u := zpow_pos (by norm_num) _
  have hxu : x / u < 0 := div_neg_of_neg_of_pos hx upos
  rw [abs_of_neg hxu] at a b
  have e1 : (2 : ℚ) ^ e = 2 ^ q * u := by
    rw [hu, ← zpow_natCast, ← zpow_add₀ (by norm_num)]; congr 1; push_cast; ring
  have e2 : (2 : ℚ) ^ (e + 1) = 2 ^ (q + 1) * u := by
    rw [zpow_add₀ (by norm_num), e1]; simp; ring
  have hr : rndBits (q + 1) x = (roundEven (x / u) : ℤ) * u := rfl
  rw [hr, e1, e2, ← neg_mul, ← neg_mul]
  constructor
  · apply mul_le_mul_of_nonneg_right _ upos.le
    have : roundEven (x / u) ≤ (-2 ^ q : ℤ) := round_le_of_le (by
      push_cast; rw [pow_succ] at a; linarith)
    calc ((roundEven (x / u) : ℤ) : ℚ) ≤ ((-2 ^ q : ℤ) : ℚ) := by exact_mod_cast this
      _ = _ := by push_cast; rfl
  · apply mul_le_mul_of_nonneg_right _ upos.le
    have : (-2 ^ (q + 1) : ℤ) ≤ roundEven (x / u) := le_round_of_le (by
      push_cast; linarith)
    calc -(2 : ℚ) ^ (q + 1) = ((-2 ^ (q + 1) : ℤ) : ℚ) := by push_cast; rfl
      _ ≤ _ := by exact_mod_cast this

theorem log_mono {x y : ℚ} (hx : 0 < x) (h : x ≤ y) : Int.log 2 x ≤ Int.log 2 y :=
  Int.log_mono_right hx h

theorem rndBits_mono (p : ℕ) (hp : 1 ≤ p) (x y : ℚ) (h : x ≤ y) : rndBits p x ≤ rndBits p y := by
  have same : Int.log 2 |x| = Int.log 2 |y| → rndBits p x ≤ rndBits p y := by
    intro e
    unfold rndBits
    rw [e]
    have upos : (0 : ℚ) < (2 : ℚ) ^ (Int.log 2 |y| - (p : ℤ) + 1) := zpow_pos (by norm_num) _
    apply mul_le_mul_of_nonneg_right _ upos.le
    exact_mod_cast round_mono (div_le_div_of_nonneg_right h upos.le)
  have p2 : ∀ e : ℤ, (0 : ℚ) < (2 : ℚ) ^ e := fun e => zpow_pos (by norm_num) _
  rcases lt_trichotomy x 0 with hx | hx | hx
  · have bx := rndBits_neg_bounds p hp x hx
    rcases lt_trichotomy y 0 with hy | hy | hy
    · have by' := rndBits_neg_bounds p hp y hy
      rcases lt_or_eq_of_le (log_mono (abs_pos.mpr hy.ne) (by
        rw [abs_of_neg hx, abs_of_neg hy]; linarith) : Int.log 2 |y| ≤ Int.log 2 |x|) with hl | hl
      · have : (2 : ℚ) ^ (Int.log 2 |y| + 1) ≤ 2 ^ Int.log 2 |x| :=
          zpow_le_zpow_right₀ (by norm_num) (by omega)
        linarith [bx.1, by'.2]
      · exact same hl.symm
    · subst hy; rw [rndBits_zero]; linarith [bx.1, p2 (Int.log 2 |x|)]
    · have by' := rndBits_pos_bounds p hp y hy
      linarith [bx.1, p2 (Int.log 2 |x|), by'.1, p2 (Int.log 2 |y|)]
  · subst hx
    rw [rndBits_zero]
    rcases eq_or_lt_of_le h with hy | hy
    · rw [← hy, rndBits_zero]
    · have by' := rndBits_pos_bounds p hp y hy
      linarith [by'.1, p2 (Int.log 2 |y|)]
  · have hy : 0 < y := lt_of_lt_of_le hx h
    have bx := rndBits_pos_bounds p hp x hx
    have by' := rndBits_pos_bounds p hp y hy
    rcases lt_or_eq_of_le (log_mono (abs_pos.mpr hx.ne') (by
      rw [abs_of_pos hx, abs_of_pos hy]; exact h) : Int.log 2 |x| ≤ Int.log 2 |y|) with hl | hl
    · have : (2 : ℚ) ^ (Int.log 2 |x| + 1) ≤ 2 ^ Int.log 2 |y| :=
        zpow_le_zpow_right₀ (by norm_num) (by omega)
      linarith [bx.2, by'.1]
    · exact same hl

theorem rndBits_grid (q : ℕ) (x : ℚ) (j : ℕ) (h : 1 / 2 ^ j ≤ |rndBits (q + 1) x|) :
    ∃ k : ℤ, rndBits (q + 1) x = k / 2 ^ (q + j) := by
  by_cases hx : x = 0
  · subst hx; exact ⟨0, by simp [rndBits_zero]⟩
  set e := Int.log 2 |x| with he
  have hr : rndBits (q + 1) x = (roundEven (x / (2 : ℚ) ^ (e - ((q + 1 : ℕ) : ℤ) + 1)) : ℤ) *
    (2 : ℚ) ^ (e - ((q + 1 : ℕ) : ℤ) + 1) := rfl
  by_cases hc : -(j : ℤ) ≤ e
  · obtain ⟨t, ht⟩ : ∃ t : ℕ, (t : ℤ) = e + j := ⟨(e + j).toNat, by omega⟩
    refine ⟨roundEven (x / (2 : ℚ) ^ (e - ((q + 1 : ℕ) : ℤ) + 1)) * 2 ^ t, ?_⟩
    rw [hr]
    have : e - ((q + 1 : ℕ) : ℤ) + 1 = (t : ℤ) - ((q + j : ℕ) : ℤ) := by push_cast; omega
    rw [this, zpow_sub₀ (by norm_num)]
    simp only [zpow_natCast]
    push_cast
    ring
  · have he1 : (2 : ℚ) ^ (e + 1) ≤ 1 / 2 ^ j := by
      have : (2 : ℚ) ^ (e + 1) ≤ 2 ^ (-(j : ℤ)) := zpow_le_zpow_right₀ (by norm_num) (by omega)
      rw [zpow_neg, zpow_natCast] at this
      rwa [one_div]
    have hpow : (1 : ℚ) / 2 ^ j = (2 ^ q : ℤ) / 2 ^ (q + j) := by
      push_cast; rw [pow_add]; field_simp
    rcases lt_or_gt_of_ne hx with hn | hp
    · have b := rndBits_neg_bounds (q + 1) (by omega) x hn
      have neg : rndBits (q + 1) x < 0 := by
        have : (0 : ℚ) < 2 ^ Int.log 2 |x| := zpow_pos (by norm_num) _
        linarith [b.1]
      rw [abs_of_neg neg] at h
      refine ⟨-2 ^ q, ?_⟩
      have : rndBits (q + 1) x = -(1 / 2 ^ j) := by linarith [b.2]
      rw [this, hpow]; push_cast; ring
    · have b := rndBits_pos_bounds (q + 1) (by omega) x hp
      have pos : 0 < rndBits (q + 1) x := by
        have : (0 : ℚ) < 2 ^ Int.log 2 |x| := zpow_pos (by norm_num) _
        linarith [b.1]
      rw [abs_of_pos pos] at h
      refine ⟨2 ^ q, ?_⟩
      have : rndBits (q + 1) x = 1 / 2 ^ j := by linarith [b.2]
      rw [this, hpow]

/-- Rounding to nearest with 53 significant bits has all the properties (exponent range ignored). -/
def Fl64.ieee : Fl64 where
  rnd := rndBits 53
  err x := le_trans (rndBits_err 53 x) (by linarith [show (0 : ℚ) ≤ 1 / 2 ^ 200 by positivity])
  exact k j h _ := rndBits_exact 53 k j h (by norm_num)
  grid x j h := rndBits_grid 52 x j h
  mono x y h := rndBits_mono 53 (by norm_num) x y h

/-- Likewise for 24 bits. -/
def Fl32.ieee : Fl32 where
  rnd := rndBits 24
  err x := le_trans (rndBits_err 24 x) (by linarith [show (0 : ℚ) ≤ 1 / 2 ^ 149 by positivity])

end SatSky
