import Verif.Model.Calendar

/-! Arithmetic of the calendar formulas. -/

namespace SatSky.Props

open SatSky Spec Cal

set_option linter.unusedSimpArgs false

/-- March-based year and month (helpers). -/
def mYear (y m : Int) : Int := if m ≤ 2 then y - 1 else y
def mMonth (m : Int) : Int := if m ≤ 2 then m + 12 else m

/-- Days before 1 March of year `y` (plus a constant). -/
def yearCount (y : Int) : Int := 365 * y + y / 4 - y / 100 + y / 400

/-- Day within the March-based year, from 0. -/
def dayOfYear (m d : Int) : Int := 306001 * (mMonth m + 1) / 10000 - 122 + d - 1

/-- `date2mjd_nf`'s formula with floor division throughout. -/
def dateNumF (y m d : Int) : Int := yearCount (mYear y m) + dayOfYear m d - 678881

theorem dateNum_floor (y m d : Int) (hy : 0 ≤ y) : dateNum y m d = dateNumF y m d := by
  unfold dateNum dateNumF yearCount dayOfYear mYear mMonth
  simp only
  generalize (if m ≤ 2 then m + 12 else m) = m'
  by_cases hm : m ≤ 2
  · simp only [hm, if_true]
    by_cases h0 : y = 0
    · subst h0
      have e1 : Int.tdiv (0 - 1) 100 = 0 := rfl
      have e2 : Int.tdiv 0 4 = 0 := rfl
      rw [e1, e2]; omega
    · rw [Int.tdiv_eq_ediv_of_nonneg (by omega), Int.tdiv_eq_ediv_of_nonneg (by omega)]
      have e1 : 1461 * (y - 1) / 4 = 365 * (y - 1) + (y - 1) / 4 := by omega
      have e2 : (y - 1) / 100 / 4 = (y - 1) / 400 := by omega
      rw [e1, e2]; omega
  · simp only [hm, if_false]
    rw [Int.tdiv_eq_ediv_of_nonneg (by omega), Int.tdiv_eq_ediv_of_nonneg (by omega)]
    have e1 : 1461 * y / 4 = 365 * y + y / 4 := by omega
    have e2 : y / 100 / 4 = y / 400 := by omega
    rw [e1, e2]; omega

theorem months {m : Int} (h1 : 1 ≤ m) (h2 : m ≤ 12) : m = 1 ∨ m = 2 ∨ m = 3 ∨ m = 4 ∨ m = 5 ∨ m = 6 ∨
    m = 7 ∨ m = 8 ∨ m = 9 ∨ m = 10 ∨ m = 11 ∨ m = 12 := by omega

theorem dateNumF_next (x : Date) (hv : x.Valid) :
    dateNumF x.next.y x.next.m x.next.d = dateNumF x.y x.m x.d + 1 := by
  obtain ⟨y, m, d⟩ := x
  obtain ⟨h1, h2, h3, h4⟩ := hv
  simp only at h1 h2 h3 h4
  unfold Date.next
  simp only
  by_cases hd : d < monthLength y m
  · rw [if_pos hd]
    simp only [dateNumF, dayOfYear]; omega
  · rw [if_neg hd]
    have hd' : d = monthLength y m := by omega
    subst hd'
    by_cases hl : LeapI y
    all_goals
      rcases months h1 h2 with rfl | rfl | rfl | rfl | rfl | rfl | rfl | rfl | rfl | rfl | rfl | rfl <;>
      simp only [monthLength, hl, if_true, if_false, Int.reduceLT, Int.reduceEq, or_true, or_false, or_self,
        true_or, false_or, dateNumF, dayOfYear, mMonth, mYear, yearCount,
        Int.reduceLE, Int.reduceAdd, Int.reduceMul, Int.reduceDiv] <;>
      unfold LeapI at hl <;>
      omega

theorem yearCount_mono {a b : Int} (h : a < b) : yearCount (a + 1) ≤ yearCount b := by
  unfold yearCount; omega

theorem doy_bounds (x : Date) (hv : x.Valid) :
    0 ≤ dayOfYear x.m x.d ∧
      yearCount (mYear x.y x.m) + dayOfYear x.m x.d < yearCount (mYear x.y x.m + 1) := by
  obtain ⟨y, m, d⟩ := x
  obtain ⟨h1, h2, h3, h4⟩ := hv
  simp only at h1 h2 h3 h4 ⊢
  by_cases hl : LeapI y
  all_goals
    rcases months h1 h2 with rfl | rfl | rfl | rfl | rfl | rfl | rfl | rfl | rfl | rfl | rfl | rfl <;>
    simp only [monthLength, hl, if_true, if_false, Int.reduceLT, Int.reduceEq, or_true, or_false, or_self,
        true_or, false_or, dayOfYear, mMonth, mYear, yearCount,
        Int.reduceLE, Int.reduceAdd, Int.reduceMul, Int.reduceDiv] at h4 ⊢ <;>
    unfold LeapI at hl <;>
    omega

/-- `306001 (m+1)/10000 - 122` by month. -/
theorem doy_month {m d : Int} (h1 : 1 ≤ m) (h2 : m ≤ 12) : dayOfYear m d =
    d - 1 + (if m = 3 then 0 else if m = 4 then 31 else if m = 5 then 61 else if m = 6 then 92
      else if m = 7 then 122 else if m = 8 then 153 else if m = 9 then 184 else if m = 10 then 214
      else if m = 11 then 245 else if m = 12 then 275 else if m = 1 then 306 else 337) := by
  rcases months h1 h2 with rfl | rfl | rfl | rfl | rfl | rfl | rfl | rfl | rfl | rfl | rfl | rfl <;>
  simp only [dayOfYear, mMonth, Int.reduceLE, if_true, if_false, Int.reduceAdd, Int.reduceMul, Int.reduceDiv,
    Int.reduceEq] <;> omega

theorem dateNumF_inj (x x' : Date) (hv : x.Valid) (hv' : x'.Valid)
    (h : dateNumF x.y x.m x.d = dateNumF x'.y x'.m x'.d) : x = x' := by
  have b := doy_bounds x hv
  have b' := doy_bounds x' hv'
  unfold dateNumF at h
  have hy : mYear x.y x.m = mYear x'.y x'.m := by
    by_cases c1 : mYear x.y x.m < mYear x'.y x'.m
    · have := yearCount_mono c1; omega
    · by_cases c2 : mYear x'.y x'.m < mYear x.y x.m
      · have := yearCount_mono c2; omega
      · omega
  rw [hy] at h
  have hd : dayOfYear x.m x.d = dayOfYear x'.m x'.d := by omega
  obtain ⟨y, m, d⟩ := x
  obtain ⟨y', m', d'⟩ := x'
  obtain ⟨h1, h2, h3, h4⟩ := hv
  obtain ⟨h1', h2', h3', h4'⟩ := hv'
  simp only at h1 h2 h3 h4 h1' h2' h3' h4' hd hy
  rw [doy_month h1 h2, doy_month h1' h2'] at hd
  have f4 : d ≤ (if m = 2 then 29 else if m = 4 ∨ m = 6 ∨ m = 9 ∨ m = 11 then 30 else 31) := by
    unfold monthLength at h4; split at h4
    · rw [if_pos (by assumption)]; split at h4 <;> omega
    · rw [if_neg (by assumption)]; exact h4
  have f4' : d' ≤ (if m' = 2 then 29 else if m' = 4 ∨ m' = 6 ∨ m' = 9 ∨ m' = 11 then 30 else 31) := by
    unfold monthLength at h4'; split at h4'
    · rw [if_pos (by assumption)]; split at h4' <;> omega
    · rw [if_neg (by assumption)]; exact h4'
  clear h4 h4' b b' h
  have : m = m' ∧ d = d' := by
    rcases months h1 h2 with rfl | rfl | rfl | rfl | rfl | rfl | rfl | rfl | rfl | rfl | rfl | rfl <;>
    simp only [Int.reduceEq, if_true, if_false, or_true, or_false, or_self, true_or, false_or] at hd f4 <;>
    rcases months h1' h2' with rfl | rfl | rfl | rfl | rfl | rfl | rfl | rfl | rfl | rfl | rfl | rfl <;>
    simp only [Int.reduceEq, if_true, if_false, or_true, or_false, or_self, true_or, false_or] at hd f4' <;>
    omega
  obtain ⟨rfl, rfl⟩ := this
  simp only [mYear] at hy
  split at hy <;> simp <;> omega

/-- Month and day of `mjd2date` from the day `t` (0..365) of the March-based year: whole table. -/
theorem month_table : ∀ t : Nat, t < 366 →
    let k := (80 * (t + 31)) / 2447
    let id := t + 31 - (2447 * k) / 80
    let l := k / 11
    let im := k + 2 - 12 * l
    2447 * k / 80 ≤ t + 31 ∧ 12 * l ≤ k + 2 ∧
    1 ≤ im ∧ im ≤ 12 ∧ 1 ≤ id ∧ (l = if im ≤ 2 then 1 else 0) ∧
    (306001 * ((if im ≤ 2 then im + 12 else im) + 1) / 10000 - 122 + id - 1 = t) ∧
    (id ≤ if im = 2 then 29 else if im = 4 ∨ im = 6 ∨ im = 9 ∨ im = 11 then 30 else 31) ∧
    (im = 2 → id = 29 → t = 365) := by decide +kernel

theorem century_len (l0 n l1 : Int) (hl0 : 0 ≤ l0) (hn : n = 4 * l0 / 146097)
    (hl1 : l1 = l0 - (146097 * n + 3) / 4) :
    0 ≤ n ∧ 0 ≤ l1 ∧ l1 ≤ 36524 ∧ (n % 4 ≠ 0 → l1 ≤ 36523) := by
  have a : 146097 * n ≤ 4 * l0 := by omega
  have b : 4 * l0 < 146097 * n + 146097 := by omega
  clear hn
  obtain ⟨q, r, rfl, h0, h4⟩ : ∃ q r : Int, n = 4 * q + r ∧ 0 ≤ r ∧ r < 4 := ⟨n / 4, n % 4, by omega, by omega, by omega⟩
  have c : r = 0 ∨ r = 1 ∨ r = 2 ∨ r = 3 := by omega
  rcases c with rfl | rfl | rfl | rfl
  · have e : (146097 * (4 * q + 0) + 3) / 4 = 146097 * q := by omega
    rw [e] at hl1; omega
  · have e : (146097 * (4 * q + 1) + 3) / 4 = 146097 * q + 36525 := by omega
    rw [e] at hl1; omega
  · have e : (146097 * (4 * q + 2) + 3) / 4 = 146097 * q + 73049 := by omega
    rw [e] at hl1; omega
  · have e : (146097 * (4 * q + 3) + 3) / 4 = 146097 * q + 109573 := by omega
    rw [e] at hl1; omega

theorem year_in_century (l1 i t : Int) (ha : 0 ≤ l1) (hb : l1 ≤ 36524) (hi : i = 4000 * (l1 + 1) / 1461001)
    (ht : t = l1 - 1461 * i / 4) :
    0 ≤ i ∧ i ≤ 99 ∧ 0 ≤ t ∧ t ≤ 365 ∧ (t = 365 → i % 4 = 3) ∧ (t = 365 → i = 99 → l1 = 36524) := by
  have i0 : 0 ≤ i := by omega
  have i99 : i ≤ 99 := by omega
  have a : 1461001 * i ≤ 4000 * (l1 + 1) := by omega
  have b : 4000 * (l1 + 1) < 1461001 * i + 1461001 := by omega
  clear hi
  obtain ⟨q, r, rfl, h0, h4⟩ : ∃ q r : Int, i = 4 * q + r ∧ 0 ≤ r ∧ r < 4 := ⟨i / 4, i % 4, by omega, by omega, by omega⟩
  have c : r = 0 ∨ r = 1 ∨ r = 2 ∨ r = 3 := by omega
  rcases c with rfl | rfl | rfl | rfl
  · have e : 1461 * (4 * q + 0) / 4 = 1461 * q := by omega
    rw [e] at ht; omega
  · have e : 1461 * (4 * q + 1) / 4 = 1461 * q + 365 := by omega
    rw [e] at ht; omega
  · have e : 1461 * (4 * q + 2) / 4 = 1461 * q + 730 := by omega
    rw [e] at ht; omega
  · have e : 1461 * (4 * q + 3) / 4 = 1461 * q + 1095 := by omega
    rw [e] at ht; omega

theorem count_parts (n i t l0 l1 : Int) (hl1 : l1 = l0 - (146097 * n + 3) / 4) (i0 : 0 ≤ i) (i99 : i ≤ 99)
    (ht : t = l1 - 1461 * i / 4) : yearCount (100 * (n - 49) + i) + t = l0 - 1789689 := by
  unfold yearCount
  have e1 : (100 * (n - 49) + i) / 100 = n - 49 := by omega
  have e2 : (100 * (n - 49) + i) / 400 = (n - 49) / 4 := by omega
  have e3 : (100 * (n - 49) + i) / 4 = 25 * (n - 49) + i / 4 := by omega
  have e4 : 1461 * i / 4 = 365 * i + i / 4 := by omega
  have e5 : (146097 * n + 3) / 4 = 36524 * n + (n + 3) / 4 := by omega
  rw [e1, e2, e3]
  rw [e4] at ht
  rw [e5] at hl1
  omega

theorem toYmd_spec (jd : Int) (h : -68569 ≤ jd) :
    Date.Valid ⟨(toYmd jd).1, (toYmd jd).2.1, (toYmd jd).2.2⟩ ∧
      dateNumF (toYmd jd).1 (toYmd jd).2.1 (toYmd jd).2.2 = jd - 2400001 := by
  -- name the intermediate values
  obtain ⟨l0, hl0⟩ : ∃ l0, l0 = jd + 68569 := ⟨_, rfl⟩
  have hl0n : 0 ≤ l0 := by omega
  obtain ⟨n, hn⟩ : ∃ n, n = 4 * l0 / 146097 := ⟨_, rfl⟩
  obtain ⟨l1, hl1⟩ : ∃ l1, l1 = l0 - (146097 * n + 3) / 4 := ⟨_, rfl⟩
  obtain ⟨n0, l1a, l1b, l1c⟩ := century_len l0 n l1 hl0n hn hl1
  obtain ⟨i, hi⟩ : ∃ i, i = 4000 * (l1 + 1) / 1461001 := ⟨_, rfl⟩
  obtain ⟨t, ht⟩ : ∃ t, t = l1 - 1461 * i / 4 := ⟨_, rfl⟩
  obtain ⟨i0, i99, ta, tb, td, te⟩ := year_in_century l1 i t l1a l1b hi ht
  have tc : t = 365 → (i % 4 = 3) ∧ (i = 99 → n % 4 = 0) := by
    intro h
    refine ⟨td h, fun h9 => ?_⟩
    have := te h h9
    omega
  have hcount := count_parts n i t l0 l1 hl1 i0 i99 ht
  obtain ⟨T, rfl⟩ : ∃ T : Nat, t = (T : Int) := ⟨t.toNat, by omega⟩
  have tab := month_table T (by omega)
  obtain ⟨K, hK⟩ : ∃ K : Nat, K = (80 * (T + 31)) / 2447 := ⟨_, rfl⟩
  simp only [← hK] at tab
  obtain ⟨t0, t1, t2, t3, t4, t5, t6, t7, t8⟩ := tab
  -- the C computation gives these values
  have e : toYmd jd = (100 * (n - 49) + i + ((K / 11 : Nat) : Int), ((K + 2 - 12 * (K / 11) : Nat) : Int),
      ((T + 31 - 2447 * K / 80 : Nat) : Int)) := by
    unfold toYmd
    simp only [← hl0]
    rw [Int.tdiv_eq_ediv_of_nonneg (a := 4 * l0) (by omega), ← hn,
      Int.tdiv_eq_ediv_of_nonneg (a := 146097 * n + 3) (by omega), ← hl1,
      Int.tdiv_eq_ediv_of_nonneg (a := 4000 * (l1 + 1)) (by omega), ← hi,
      Int.tdiv_eq_ediv_of_nonneg (a := 1461 * i) (by omega)]
    have e1 : l1 - (1461 * i / 4 - 31) = ((T + 31 : Nat) : Int) := by omega
    rw [e1]
    have e2 : Int.tdiv (80 * ((T + 31 : Nat) : Int)) 2447 = (K : Int) := by
      rw [Int.tdiv_eq_ediv_of_nonneg (by omega)]; omega
    rw [e2]
    have e3 : Int.tdiv (2447 * (K : Int)) 80 = ((2447 * K / 80 : Nat) : Int) := by
      rw [Int.tdiv_eq_ediv_of_nonneg (by omega)]; omega
    have e4 : Int.tdiv (K : Int) 11 = ((K / 11 : Nat) : Int) := by
      rw [Int.tdiv_eq_ediv_of_nonneg (by omega)]; omega
    rw [e3, e4]
    refine Prod.ext rfl (Prod.ext ?_ ?_)
    · simp only; omega
    · simp only; omega
  rw [e]
  simp only
  generalize hL : K / 11 = L at *
  generalize hI : K + 2 - 12 * L = IM at *
  generalize hD : T + 31 - 2447 * K / 80 = ID at *
  have hdoy : dayOfYear (IM : Int) (ID : Int) = (T : Int) := by
    unfold dayOfYear mMonth
    by_cases hm : IM ≤ 2
    · rw [if_pos hm] at t6
      rw [if_pos (by omega)]; omega
    · rw [if_neg hm] at t6
      rw [if_neg (by omega)]; omega
  have hmy : mYear (100 * (n - 49) + i + (L : Int)) (IM : Int) = 100 * (n - 49) + i := by
    unfold mYear
    by_cases hm : IM ≤ 2
    · rw [if_pos hm] at t5
      rw [if_pos (by omega)]; omega
    · rw [if_neg hm] at t5
      rw [if_neg (by omega)]; omega
  refine ⟨⟨by simp only; omega, by simp only; omega, by simp only; omega, ?_⟩, ?_⟩
  · simp only
    unfold monthLength
    by_cases m2 : IM = 2
    · rw [if_pos m2] at t7
      rw [if_pos (by omega)]
      by_cases hl : LeapI (100 * (n - 49) + i + (L : Int))
      · rw [if_pos hl]; omega
      · rw [if_neg hl]
        by_cases c29 : ID = 29
        · exfalso
          apply hl
          have := tc (by have := t8 m2 c29; omega)
          rw [if_pos (by omega)] at t5
          unfold LeapI; omega
        · omega
    · rw [if_neg m2] at t7
      rw [if_neg (by omega)]
      by_cases m30 : IM = 4 ∨ IM = 6 ∨ IM = 9 ∨ IM = 11
      · rw [if_pos m30] at t7
        rw [if_pos (by omega)]; omega
      · rw [if_neg m30] at t7
        rw [if_neg (by omega)]; omega
  · unfold dateNumF
    rw [hdoy, hmy]
    omega

end SatSky.Props
