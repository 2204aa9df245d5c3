import Verif.Model.HealpixRing
import Mathlib.Tactic.Linarith
import Mathlib.Tactic.NormNum
import Mathlib.Tactic.Positivity
import Mathlib.Tactic.FieldSimp
import Mathlib.Tactic.Ring
import Mathlib.Data.Nat.Sqrt
import Mathlib.Data.Rat.Floor

/-! The integer square roots of HEALPix are exact. -/

namespace SatSky.Healpix

open SatSky

theorem trunc_eq {r : ℚ} {k : ℤ} (hk : 0 ≤ k) (h0 : 0 ≤ r) (h1 : (k : ℚ) ^ 2 ≤ r ^ 2) (h2 : r ^ 2 < (k + 1 : ℚ) ^ 2) : truncQ r = k := by
  unfold truncQ
  rw [if_pos h0, Int.floor_eq_iff]
  have hk' : (0 : ℚ) ≤ k := by exact_mod_cast hk
  exact ⟨abs_le_of_sq_le_sq' h1 h0 |>.2, abs_lt_of_sq_lt_sq' h2 (by linarith) |>.2⟩

/-- Bounds for the root of a number of less than 50 bits plus one half. -/
theorem root_small (R : Root) {v k : ℤ} (hk : 0 ≤ k) (h1 : k * k ≤ v) (h2 : v < (k + 1) * (k + 1)) (hv : v < 2 ^ 50) :
    truncQ (R.root ((v : ℚ) + 1 / 2)) = k := by
  have hv0 : (0 : ℚ) ≤ v := by exact_mod_cast (by nlinarith : (0 : ℤ) ≤ v)
  have hvq : (v : ℚ) ≤ 2 ^ 50 := by exact_mod_cast hv.le
  have h1q : (k : ℚ) * k ≤ v := by exact_mod_cast h1
  have h2q : (v : ℚ) + 1 ≤ (k + 1) * (k + 1) := by exact_mod_cast h2
  have hx : (1 : ℚ) / 2 ≤ v + 1 / 2 := by linarith
  have l := R.lower _ hx
  have u := R.upper _ hx
  apply trunc_eq hk (R.nonneg _ hx)
  · refine le_trans ?_ l
    have : (1 - 1 / 2 ^ 53 : ℚ) ^ 2 ≥ 1 - 1 / 2 ^ 52 := by norm_num
    nlinarith
  · refine lt_of_le_of_lt u ?_
    have : (1 + 1 / 2 ^ 53 : ℚ) ^ 2 ≤ 1 + 1 / 2 ^ 51 := by norm_num
    nlinarith

theorem half_exact (F : Fl64) {v : ℤ} (h0 : 0 ≤ v) (h : v < 2 ^ 51) : F.rnd ((v : ℚ) + 1 / 2) = v + 1 / 2 := by
  have e : ((v : ℚ) + 1 / 2) = ((2 * v + 1 : ℤ) : ℚ) / 2 ^ 1 := by push_cast; ring
  rw [e]
  apply F.exact
  · rw [abs_of_nonneg (by omega)]; omega
  · norm_num

theorem int_exact (F : Fl64) {v : ℤ} (h : |v| ≤ 2 ^ 53) : F.rnd (v : ℚ) = v := by
  have := F.exact v 0 h (by norm_num)
  simpa using this

theorem sqrt_bounds {v : ℤ} (h0 : 0 ≤ v) :
    (Nat.sqrt v.toNat : ℤ) * Nat.sqrt v.toNat ≤ v ∧ v < ((Nat.sqrt v.toNat : ℤ) + 1) * (Nat.sqrt v.toNat + 1) := by
  have a := Nat.sqrt_le v.toNat
  have b := Nat.lt_succ_sqrt v.toNat
  have e : ((v.toNat : ℕ) : ℤ) = v := Int.toNat_of_nonneg h0
  constructor
  · calc _ = ((Nat.sqrt v.toNat * Nat.sqrt v.toNat : ℕ) : ℤ) := by push_cast; rfl
      _ ≤ ((v.toNat : ℕ) : ℤ) := by exact_mod_cast a
      _ = v := e
  · calc v = ((v.toNat : ℕ) : ℤ) := e.symm
      _ < ((Nat.succ (Nat.sqrt v.toNat) * Nat.succ (Nat.sqrt v.toNat) : ℕ) : ℤ) := by exact_mod_cast b
      _ = _ := by push_cast; rfl

theorem isqrt_eq (F : Fl64) (R : Root) {v : ℤ} (h0 : 0 ≤ v) (h : v < 2 ^ 31) : isqrt F R v = some (Nat.sqrt v.toNat : ℤ) := by
  obtain ⟨h1, h2⟩ := sqrt_bounds h0
  have hk : (0 : ℤ) ≤ Nat.sqrt v.toNat := by positivity
  generalize (Nat.sqrt v.toNat : ℤ) = k at *
  unfold isqrt
  rw [if_neg (by omega), half_exact F h0 (by omega), root_small R hk h1 h2 (by omega)]
  unfold signed
  rw [if_pos ⟨by omega, by nlinarith⟩]

theorem big_root (F : Fl64) (R : Root) {v k : ℤ} (hk : 0 ≤ k) (h1 : k * k ≤ v) (h2 : v < (k + 1) * (k + 1)) (hv : 2 ^ 50 ≤ v)
    (hv2 : v < 2 ^ 62) :
    let r := truncQ (R.root (F.rnd (F.rnd v + 1 / 2)))
    r = k - 1 ∨ r = k ∨ r = k + 1 := by
  have hvq : (2 : ℚ) ^ 50 ≤ v := by exact_mod_cast hv
  have hv2q : (v : ℚ) ≤ 2 ^ 62 := by exact_mod_cast hv2.le
  have h1q : (k : ℚ) * k ≤ v := by exact_mod_cast h1
  have h2q : (v : ℚ) + 1 ≤ (k + 1) * (k + 1) := by exact_mod_cast h2
  have hkz : 2 ^ 24 ≤ k := by by_contra hc; push Not at hc; nlinarith
  have hkz2 : k < 2 ^ 31 := by by_contra hc; push Not at hc; nlinarith
  have hkq : (2 : ℚ) ^ 24 ≤ k := by exact_mod_cast hkz
  have hkq2 : (k : ℚ) < 2 ^ 31 := by exact_mod_cast hkz2
  have e1 := abs_le.mp (F.err v)
  rw [abs_of_nonneg (by linarith [pow_pos (by norm_num : (0 : ℚ) < 2) 50] : (0 : ℚ) ≤ v)] at e1
  set a := F.rnd (v : ℚ)
  have ha : |a + 1 / 2 - v| ≤ v / 2 ^ 53 + 1 := by
    rw [abs_le]
    have : (1 : ℚ) / 2 ^ 200 ≤ 1 / 2 := by norm_num
    constructor <;> linarith [e1.1, e1.2]
  have hapos : 0 ≤ a + 1 / 2 := by
    have := (abs_le.mp ha).1
    norm_num at hvq this ⊢
    linarith
  have e2 := abs_le.mp (F.err (a + 1 / 2))
  rw [abs_of_nonneg hapos] at e2
  set b := F.rnd (a + 1 / 2)
  have hb : |b - v| ≤ v / 2 ^ 51 + 2 := by
    have h3 := abs_le.mp ha
    have : (1 : ℚ) / 2 ^ 200 ≤ 1 / 2 := by norm_num
    rw [abs_le]
    norm_num at e2 h3 this hvq hv2q ⊢
    constructor <;> linarith [e2.1, e2.2, h3.1, h3.2]
  have hb' := abs_le.mp hb
  norm_num at hb' hvq hv2q hkq hkq2
  have hb2 : (1 : ℚ) / 2 ≤ b := by linarith [hb'.1]
  have l := R.lower b hb2
  have u := R.upper b hb2
  have n := R.nonneg b hb2
  norm_num at l u
  set r := R.root b
  have hr1 : ((k : ℚ) - 1) ^ 2 ≤ r ^ 2 := by nlinarith [hb'.1, hb'.2]
  have hr2 : r ^ 2 < ((k : ℚ) + 2) ^ 2 := by nlinarith [hb'.1, hb'.2]
  have g1 : (k : ℚ) - 1 ≤ r := abs_le_of_sq_le_sq' hr1 n |>.2
  have g2 : r < (k : ℚ) + 2 := abs_lt_of_sq_lt_sq' hr2 (by linarith) |>.2
  show truncQ r = _ ∨ _
  unfold truncQ
  rw [if_pos n]
  have f1 : k - 1 ≤ ⌊r⌋ := Int.le_floor.mpr (by push_cast; exact g1)
  have f2 : ⌊r⌋ < k + 2 := Int.floor_lt.mpr (by push_cast; exact g2)
  omega

theorem isqrt64_eq (F : Fl64) (R : Root) {v : ℤ} (h0 : 0 ≤ v) (h : v < 2 ^ 62) : isqrt64 F R v = some (Nat.sqrt v.toNat : ℤ) := by
  obtain ⟨h1, h2⟩ := sqrt_bounds h0
  have hk : (0 : ℤ) ≤ Nat.sqrt v.toNat := by positivity
  generalize (Nat.sqrt v.toNat : ℤ) = k at *
  have hkz2 : k < 2 ^ 31 := by by_contra hc; push Not at hc; nlinarith
  unfold isqrt64
  rw [if_neg (by omega)]
  by_cases hs : v < 2 ^ 50
  · rw [int_exact F (by rw [abs_of_nonneg h0]; omega), half_exact F h0 (by omega), root_small R hk h1 h2 hs]
    simp only [signed, if_pos (show -2 ^ 63 ≤ k ∧ k < 2 ^ 63 by omega), Option.bind_eq_bind, Option.bind_some, if_pos hs]
    rfl
  · have hb := big_root F R hk h1 h2 (by omega) h
    simp only at hb
    have hkp : 2 ^ 24 ≤ k := by by_contra hc; push Not at hc; nlinarith
    generalize truncQ (R.root (F.rnd (F.rnd (v : ℚ) + 1 / 2))) = r at *
    have hr : -2 ^ 63 ≤ r ∧ r < 2 ^ 63 := by omega
    have hr2 : -2 ^ 63 ≤ r * r ∧ r * r < 2 ^ 63 := by rcases hb with rfl | rfl | rfl <;> constructor <;> nlinarith
    simp only [signed, if_pos hr, Option.bind_eq_bind, Option.bind_some, if_neg hs, if_pos hr2]
    rcases hb with rfl | rfl | rfl
    · have a : ¬ (k - 1) * (k - 1) > v := by nlinarith
      have b : (k - 1 + 1) * (k - 1 + 1) ≤ v := by nlinarith
      have c : -2 ^ 63 ≤ (k - 1 + 1) * (k - 1 + 1) ∧ (k - 1 + 1) * (k - 1 + 1) < 2 ^ 63 := by constructor <;> nlinarith
      rw [if_neg a, if_pos c, Option.bind_some, if_pos b]
      show some (k - 1 + 1) = some k
      congr 1; ring
    · have a : ¬ r * r > v := by omega
      have c : -2 ^ 63 ≤ (r + 1) * (r + 1) ∧ (r + 1) * (r + 1) < 2 ^ 63 := by constructor <;> nlinarith
      rw [if_neg a, if_pos c, Option.bind_some, if_neg (by omega)]
      rfl
    · have a : (k + 1) * (k + 1) > v := by omega
      rw [if_pos a]
      show some (k + 1 - 1) = some k
      congr 1; ring

/-- A root function that satisfies the assumptions (60 binary places, rounded down). -/
def Root.down : Root where
  root x := Nat.sqrt ⌊x * 4 ^ 60⌋₊ / 2 ^ 60
  nonneg x _ := by positivity
  upper x hx := by
    have a : ((Nat.sqrt ⌊x * 4 ^ 60⌋₊ * Nat.sqrt ⌊x * 4 ^ 60⌋₊ : ℕ) : ℚ) ≤ x * 4 ^ 60 :=
      le_trans (by exact_mod_cast Nat.sqrt_le _) (Nat.floor_le (by positivity))
    push_cast at a
    generalize (Nat.sqrt ⌊x * 4 ^ 60⌋₊ : ℚ) = s at *
    rw [div_pow, div_le_iff₀ (by positivity)]
    norm_num at a ⊢
    nlinarith
  lower x hx := by
    have h1 : (x * 4 ^ 60) < ((Nat.succ (Nat.sqrt ⌊x * 4 ^ 60⌋₊) * Nat.succ (Nat.sqrt ⌊x * 4 ^ 60⌋₊) : ℕ) : ℚ) :=
      lt_of_lt_of_le (Nat.lt_floor_add_one _) (by exact_mod_cast Nat.lt_succ_sqrt _)
    have h2 : 2 ^ 59 ≤ Nat.sqrt ⌊x * 4 ^ 60⌋₊ := by
      rw [Nat.le_sqrt, Nat.le_floor_iff (by positivity)]
      norm_num
      linarith
    have h2' : (2 : ℚ) ^ 59 ≤ Nat.sqrt ⌊x * 4 ^ 60⌋₊ := by exact_mod_cast h2
    push_cast at h1
    generalize (Nat.sqrt ⌊x * 4 ^ 60⌋₊ : ℚ) = s at *
    rw [div_pow, le_div_iff₀ (by positivity)]
    norm_num at h1 h2' ⊢
    nlinarith

example : isqrt Fl64.ieee Root.down 1000000 = some 1000 ∧ isqrt Fl64.ieee Root.down 999999 = some 999
    ∧ isqrt64 Fl64.ieee Root.down (2 ^ 60 - 1) = some (2 ^ 30 - 1) := by decide +kernel

end SatSky.Healpix
