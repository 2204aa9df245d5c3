import Verif.Model.HealpixNest
import Verif.Spec.Healpix
import Mathlib.Tactic.NormNum
import Mathlib.Tactic.Positivity
import Mathlib.Tactic.IntervalCases
import Mathlib.Tactic.Ring
import Mathlib.Tactic.Linarith

/-! Bits of the table look-ups of HEALPix. -/

namespace SatSky.Healpix

open SatSky.Spec.Healpix

/-- Entry of a table (0 outside). -/
def uAt (m : ℕ) : ℕ := utab.getD m 0
def cAt (m : ℕ) : ℕ := ctab.getD m 0

theorem utab_get {m : ℕ} (h : m < 256) : utab[m]? = some (uAt m) := by
  have : utab.length = 256 := by decide +kernel
  unfold uAt
  rw [List.getD_eq_getElem?_getD, List.getElem?_eq_getElem (by omega)]
  rfl

theorem ctab_get {m : ℕ} (h : m < 256) : ctab[m]? = some (cAt m) := by
  have : ctab.length = 256 := by decide +kernel
  unfold cAt
  rw [List.getD_eq_getElem?_getD, List.getElem?_eq_getElem (by omega)]
  rfl

theorem uAt_lt {m : ℕ} (h : m < 256) : uAt m < 2 ^ 16 := by
  have : ∀ m < 256, uAt m < 2 ^ 16 := by decide +kernel
  exact this m h

theorem cAt_lt {m : ℕ} (h : m < 256) : cAt m < 2 ^ 12 := by
  have : ∀ m < 256, cAt m < 2 ^ 12 := by decide +kernel
  exact this m h

theorem uAt_bit {m : ℕ} (h : m < 256) (i : ℕ) : (uAt m).testBit i = (decide (i % 2 = 0) && m.testBit (i / 2)) := by
  have key : ∀ m < 256, ∀ i < 16, (uAt m).testBit i = (decide (i % 2 = 0) && m.testBit (i / 2)) := by decide +kernel
  by_cases hi : i < 16
  · exact key m h i hi
  · rw [Nat.testBit_lt_two_pow (lt_of_lt_of_le (uAt_lt h) (Nat.pow_le_pow_right (by omega) (by omega))),
      Nat.testBit_lt_two_pow (lt_of_lt_of_le (by omega : m < 2 ^ 8) (Nat.pow_le_pow_right (by omega) (by omega)))]
    simp

/-- Even bits of the index go to bits 0-3 of the entry, odd ones to bits 8-11. -/
theorem cAt_bit {m : ℕ} (h : m < 256) (i : ℕ) :
    (cAt m).testBit i = if i < 4 then m.testBit (2 * i) else if 8 ≤ i ∧ i < 12 then m.testBit (2 * (i - 8) + 1) else false := by
  have key : ∀ m < 256, ∀ i < 12,
      (cAt m).testBit i = if i < 4 then m.testBit (2 * i) else if 8 ≤ i ∧ i < 12 then m.testBit (2 * (i - 8) + 1) else false := by
    decide +kernel
  by_cases hi : i < 12
  · exact key m h i hi
  · rw [Nat.testBit_lt_two_pow (lt_of_lt_of_le (cAt_lt h) (Nat.pow_le_pow_right (by omega) (by omega)))]
    rw [if_neg (by omega), if_neg (by omega)]

theorem bit_ff (x i : ℕ) : (x &&& 0xff).testBit i = (decide (i < 8) && x.testBit i) := by
  rw [show (0xff : ℕ) = 2 ^ 8 - 1 by norm_num, Nat.and_two_pow_sub_one_eq_mod, Nat.testBit_mod_two_pow]

theorem ff_lt (x : ℕ) : x &&& 0xff < 256 := by
  rw [show (0xff : ℕ) = 2 ^ 8 - 1 by norm_num, Nat.and_two_pow_sub_one_eq_mod]
  exact Nat.mod_lt _ (by norm_num)

theorem bit_big {x n i : ℕ} (h : x < 2 ^ n) (hi : n ≤ i) : x.testBit i = false :=
  Nat.testBit_lt_two_pow (lt_of_lt_of_le h (Nat.pow_le_pow_right (by omega) hi))

theorem lt_of_bits {x n : ℕ} (h : ∀ i, n ≤ i → x.testBit i = false) : x < 2 ^ n :=
  Nat.lt_pow_two_of_testBit x h

/-- Interleaving bounds. -/
theorem _root_.SatSky.Spec.Healpix.Interleaved.lt {x y m k : ℕ} (h : Interleaved x y m) (hx : x < 2 ^ k) (hy : y < 2 ^ k) : m < 2 ^ (2 * k) := by
  apply lt_of_bits
  intro i hi
  rcases Nat.even_or_odd' i with ⟨j, rfl | rfl⟩
  · rw [(h j).1]; exact bit_big hx (by omega)
  · rw [(h j).2]; exact bit_big hy (by omega)

theorem _root_.SatSky.Spec.Healpix.Interleaved.inj {x y x' y' m : ℕ} (h : Interleaved x y m) (h' : Interleaved x' y' m) : x = x' ∧ y = y' :=
  ⟨Nat.eq_of_testBit_eq fun i => by rw [← (h i).1, (h' i).1], Nat.eq_of_testBit_eq fun i => by rw [← (h i).2, (h' i).2]⟩

theorem _root_.SatSky.Spec.Healpix.Interleaved.det {x y m m' : ℕ} (h : Interleaved x y m) (h' : Interleaved x y m') : m = m' := by
  apply Nat.eq_of_testBit_eq
  intro i
  rcases Nat.even_or_odd' i with ⟨j, rfl | rfl⟩
  · rw [(h j).1, (h' j).1]
  · rw [(h j).2, (h' j).2]

/-! ### 32 bit -/

/-- The value `xyf2nest` builds from the tables. -/
def inter32 (x y : ℕ) : ℕ := uAt (x &&& 0xff) ||| uAt (x >>> 8) <<< 16 ||| uAt (y &&& 0xff) <<< 1 ||| uAt (y >>> 8) <<< 17

theorem shr_lt {x n k : ℕ} (h : x < 2 ^ (n + k)) : x >>> k < 2 ^ n := by
  rw [Nat.shiftRight_eq_div_pow, Nat.div_lt_iff_lt_mul (by positivity), ← pow_add]
  exact h

theorem interleaved32 {x y : ℕ} (hx : x < 2 ^ 16) (hy : y < 2 ^ 16) : Interleaved x y (inter32 x y) := by
  have h1 : x >>> 8 < 256 := shr_lt (n := 8) hx
  have h2 : y >>> 8 < 256 := shr_lt (n := 8) hy
  intro i
  unfold inter32
  simp only [Nat.testBit_or, Nat.testBit_shiftLeft, uAt_bit (ff_lt _), uAt_bit h1, uAt_bit h2, bit_ff, Nat.testBit_shiftRight]
  constructor
  · have e1 : 2 * i % 2 = 0 := by omega
    have e2 : 2 * i / 2 = i := by omega
    have e3 : (2 * i - 16) % 2 = 0 := by omega
    have e4 : 1 ≤ 2 * i → ¬ (2 * i - 1) % 2 = 0 := by omega
    have e5 : 17 ≤ 2 * i → ¬ (2 * i - 17) % 2 = 0 := by omega
    by_cases hi : i < 8
    · rcases Nat.eq_zero_or_pos i with rfl | hp
      · simp
      · simp [hi, e4 (by omega), show ¬ 16 ≤ 2 * i by omega, show ¬ 17 ≤ 2 * i by omega]
    · have e6 : 8 + (2 * i - 16) / 2 = i := by omega
      have e7 : ¬ (17 ≤ 2 * i ∧ (2 * i - 17) % 2 = 0) := fun h => e5 h.1 h.2
      simp [hi, e3, e4 (by omega), e6, show 16 ≤ 2 * i by omega]
      intro h1 h2
      exact absurd ⟨h1, h2⟩ e7
  · have e1 : ¬ (2 * i + 1) % 2 = 0 := by omega
    have e2 : (2 * i + 1 - 1) / 2 = i := by omega
    have e3 : 16 ≤ 2 * i + 1 → ¬ (2 * i + 1 - 16) % 2 = 0 := by omega
    by_cases hi : i < 8
    · simp [hi, show ¬ 16 ≤ 2 * i + 1 by omega, show ¬ 17 ≤ 2 * i + 1 by omega]
    · have e4 : 8 + (2 * i + 1 - 17) / 2 = i := by omega
      have e5 : (2 * i + 1 - 17) % 2 = 0 := by omega
      simp [hi, show ¬ (2 * i - 15) % 2 = 0 by omega, show (2 * i - 16) % 2 = 0 by omega, show 8 + (2 * i - 16) / 2 = i by omega,
        show 16 ≤ 2 * i by omega]

/-- The value `nest2xyf` builds from the tables. -/
def rawOf (p : ℕ) : ℕ := (p &&& 0x5555) ||| ((p &&& 0x55550000) >>> 15)

theorem rawOf_bit (p i : ℕ) : (rawOf p).testBit i = if i < 16 then (if i % 2 = 0 then p.testBit i else p.testBit (i + 15)) else false := by
  unfold rawOf
  simp only [Nat.testBit_or, Nat.testBit_and, Nat.testBit_shiftRight]
  by_cases hi : i < 16
  · rw [if_pos hi]
    interval_cases i <;> simp [Nat.testBit]
  · rw [if_neg hi, bit_big (x := 0x5555) (n := 15) (by norm_num) (by omega), bit_big (x := 0x55550000) (n := 31) (by norm_num) (by omega)]
    simp

theorem rawOf_lt (p : ℕ) : rawOf p < 2 ^ 16 := by
  apply lt_of_bits
  intro i hi
  rw [rawOf_bit, if_neg (by omega)]

def second32 (p : ℕ) : ℕ := cAt (rawOf p &&& 0xff) ||| cAt (rawOf p >>> 8) <<< 4

theorem second32_bit {p : ℕ} (hp : p < 2 ^ 32) (i : ℕ) : (second32 p).testBit i = p.testBit (2 * i) := by
  have h1 : rawOf p >>> 8 < 256 := shr_lt (n := 8) (rawOf_lt p)
  unfold second32
  simp only [Nat.testBit_or, Nat.testBit_shiftLeft, cAt_bit (ff_lt _), cAt_bit h1, bit_ff, Nat.testBit_shiftRight, rawOf_bit]
  by_cases hi : i < 16
  · interval_cases i <;> simp
  · rw [bit_big hp (by omega : 32 ≤ 2 * i), if_neg (by omega), if_neg (by omega), if_neg (by omega), if_neg (by omega)]
    simp

theorem second32_lt {p : ℕ} (hp : p < 2 ^ 32) : second32 p < 2 ^ 16 := by
  apply lt_of_bits
  intro i hi
  rw [second32_bit hp, bit_big hp (by omega)]

theorem everySecond_eq {p : ℕ} : everySecond p = some (second32 p) := by
  have h1 : rawOf p >>> 8 < 256 := shr_lt (n := 8) (rawOf_lt p)
  have h2 : cAt (rawOf p >>> 8) <<< 4 < 2 ^ 31 := by
    rw [Nat.shiftLeft_eq]; have := cAt_lt h1; omega
  unfold everySecond
  change (ctab[rawOf p &&& 0xff]?.bind fun a => ctab[rawOf p >>> 8]?.bind fun b => (i32 (b <<< 4)).bind fun b => some (a ||| b)) = _
  rw [ctab_get (ff_lt _), ctab_get h1]
  simp only [Option.bind_some, i32, if_pos h2]
  rfl

/-! ### 64 bit -/

/-- The value of `spread_bits64`. -/
def spread64 (v : ℕ) : ℕ := uAt (v &&& 0xff) ||| uAt ((v >>> 8) &&& 0xff) <<< 16 ||| uAt ((v >>> 16) &&& 0xff) <<< 32
  ||| uAt ((v >>> 24) &&& 0xff) <<< 48

theorem spread64_bit {v : ℕ} (hv : v < 2 ^ 32) (i : ℕ) : (spread64 v).testBit i = (decide (i % 2 = 0) && v.testBit (i / 2)) := by
  unfold spread64
  simp only [Nat.testBit_or, Nat.testBit_shiftLeft, uAt_bit (ff_lt _), bit_ff, Nat.testBit_shiftRight]
  by_cases hi : i < 64
  · interval_cases i <;> simp
  · rw [bit_big hv (by omega : 32 ≤ i / 2)]
    simp [show ¬ i / 2 < 8 by omega, show ¬ (i - 16) / 2 < 8 by omega, show ¬ (i - 32) / 2 < 8 by omega, show ¬ (i - 48) / 2 < 8 by omega]

theorem spread64_lt {v k : ℕ} (hv : v < 2 ^ k) (hk : k ≤ 32) : spread64 v < 2 ^ (2 * k) := by
  apply lt_of_bits
  intro i hi
  rw [spread64_bit (lt_of_lt_of_le hv (Nat.pow_le_pow_right (by omega) hk)), bit_big hv (by omega), Bool.and_false]

theorem spreadBits64_eq {v : ℕ} (hv : v < 2 ^ 31) : spreadBits64 v = some (spread64 v) := by
  have s1 : ∀ m, uAt (m &&& 0xff) <<< 16 < 2 ^ 63 := by
    intro m; rw [Nat.shiftLeft_eq]; have := uAt_lt (ff_lt m); omega
  have s2 : ∀ m, uAt (m &&& 0xff) <<< 32 < 2 ^ 63 := by
    intro m; rw [Nat.shiftLeft_eq]; have := uAt_lt (ff_lt m); omega
  have s3 : uAt ((v >>> 24) &&& 0xff) <<< 48 < 2 ^ 63 := by
    have h : ∀ m < 256, uAt m < 2 ^ 15 := by decide +kernel
    rw [Nat.shiftLeft_eq]; have := h _ (ff_lt (v >>> 24)); omega
  unfold spreadBits64
  rw [utab_get (ff_lt _), utab_get (ff_lt _), utab_get (ff_lt _), utab_get (ff_lt _)]
  simp only [Option.bind_eq_bind, Option.bind_some, i64, if_pos (s1 _), if_pos (s2 _), if_pos s3]
  rfl

def raw64 (v : ℕ) : ℕ := (v &&& 0x5555555555555555) ||| ((v &&& 0x5555555555555555) >>> 15)

theorem fives_bit (i : ℕ) : Nat.testBit 0x5555555555555555 i = (decide (i < 64) && decide (i % 2 = 0)) := by
  by_cases hi : i < 64
  · have : ∀ i < 64, Nat.testBit 0x5555555555555555 i = (decide (i < 64) && decide (i % 2 = 0)) := by decide +kernel
    exact this i hi
  · rw [bit_big (x := 0x5555555555555555) (n := 63) (by norm_num) (by omega)]
    simp [hi]

theorem raw64_bit (v i : ℕ) : (raw64 v).testBit i =
    (v.testBit i && (decide (i < 64) && decide (i % 2 = 0)) || v.testBit (15 + i) && (decide (15 + i < 64) && decide ((15 + i) % 2 = 0))) := by
  unfold raw64
  simp only [Nat.testBit_or, Nat.testBit_shiftRight, Nat.testBit_and, fives_bit]

def comp64 (v : ℕ) : ℕ := cAt (raw64 v &&& 0xff) ||| cAt ((raw64 v >>> 8) &&& 0xff) <<< 4 ||| cAt ((raw64 v >>> 32) &&& 0xff) <<< 16
  ||| cAt ((raw64 v >>> 40) &&& 0xff) <<< 20

theorem comp64_bit {v : ℕ} (hv : v < 2 ^ 64) (i : ℕ) : (comp64 v).testBit i = v.testBit (2 * i) := by
  unfold comp64
  simp only [Nat.testBit_or, Nat.testBit_shiftLeft, cAt_bit (ff_lt _), bit_ff, Nat.testBit_shiftRight, raw64_bit]
  by_cases hi : i < 32
  · interval_cases i <;> simp
  · rw [bit_big hv (by omega : 64 ≤ 2 * i)]
    simp [show ¬ i < 4 by omega, show ¬ i < 12 by omega, show ¬ i < 8 by omega, show ¬ i - 4 < 4 by omega, show ¬ i - 4 < 12 by omega,
      show ¬ i - 16 < 4 by omega, show ¬ i - 16 < 12 by omega, show ¬ i - 20 < 4 by omega, show ¬ i - 20 < 12 by omega]

theorem comp64_lt {v k : ℕ} (hv : v < 2 ^ (2 * k)) (hk : k ≤ 32) : comp64 v < 2 ^ k := by
  apply lt_of_bits
  intro i hi
  rw [comp64_bit (lt_of_lt_of_le hv (Nat.pow_le_pow_right (by omega) (by omega))), bit_big hv (by omega)]

theorem compressBits64_eq {v : ℕ} (hv : v < 2 ^ 62) : compressBits64 v = some (comp64 v) := by
  have s1 : ∀ m, cAt (m &&& 0xff) <<< 4 < 2 ^ 31 := by
    intro m; rw [Nat.shiftLeft_eq]; have := cAt_lt (ff_lt m); omega
  have s2 : ∀ m, cAt (m &&& 0xff) <<< 16 < 2 ^ 31 := by
    intro m; rw [Nat.shiftLeft_eq]; have := cAt_lt (ff_lt m); omega
  have s3 : cAt ((raw64 v >>> 40) &&& 0xff) <<< 20 < 2 ^ 31 := by
    apply lt_of_bits
    intro i hi
    rw [Nat.testBit_shiftLeft, cAt_bit (ff_lt _)]
    by_cases h31 : i = 31
    · subst h31
      simp only [bit_ff, Nat.testBit_shiftRight, raw64_bit]
      simp [bit_big hv (by norm_num : 62 ≤ 62)]
    · rw [if_neg (by omega), if_neg (by omega), Bool.and_false]
  unfold compressBits64
  change (ctab[raw64 v &&& 0xff]?.bind fun a => ctab[(raw64 v >>> 8) &&& 0xff]?.bind fun b => (i32 (b <<< 4)).bind fun b =>
    ctab[(raw64 v >>> 32) &&& 0xff]?.bind fun c => (i32 (c <<< 16)).bind fun c =>
    ctab[(raw64 v >>> 40) &&& 0xff]?.bind fun d => (i32 (d <<< 20)).bind fun d => some (a ||| b ||| c ||| d)) = _
  rw [ctab_get (ff_lt _), ctab_get (ff_lt _), ctab_get (ff_lt _), ctab_get (ff_lt _)]
  simp only [Option.bind_some, i32, if_pos (s1 _), if_pos (s2 _), if_pos s3]
  rfl

end SatSky.Healpix
