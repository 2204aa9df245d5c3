import Verif.Lemmas.FloatLemmas
import Verif.Lemmas.CalendarLemmas
import Verif.Model.Dates

/-! Error analysis of `date2mjd_nf` and `mjd2date`. -/

namespace SatSky.Dates

open SatSky Cal Spec Props

/-- The time of day is computed within 5.13e-6 day (0.444 s) of its exact value: 0.432 s of it is the
deliberate rounding to 1e-5 day, the rest is `float` rounding. -/
theorem timeOfDay_err (F : Fl64) (G : Fl32) (h mm s : ℤ) (hh : 0 ≤ h ∧ h ≤ 23) (hm : 0 ≤ mm ∧ mm ≤ 59)
    (hs : 0 ≤ s ∧ s ≤ 59) :
    |timeOfDay F G h mm s - ((s + 60 * (mm + 60 * h) : ℤ) : ℚ) / 86400| ≤ 513 / 10 ^ 8 := by
  unfold timeOfDay
  simp only
  obtain ⟨T, hT⟩ : ∃ T : ℤ, T = s + 60 * (mm + 60 * h) := ⟨_, rfl⟩
  rw [← hT]
  have T0 : (0 : ℚ) ≤ T := by exact_mod_cast (by omega : 0 ≤ T)
  have T1 : (T : ℚ) ≤ 86399 := by exact_mod_cast (by omega : T ≤ 86399)
  obtain ⟨τ, hτ⟩ : ∃ τ : ℚ, τ = T / 86400 := ⟨_, rfl⟩
  rw [← hτ]
  have τ0 : 0 ≤ τ := by rw [hτ]; positivity
  have τ1 : τ ≤ 1 := by rw [hτ]; linarith
  have ea := F.err_le (x := τ) (B := 1) (by rw [abs_of_nonneg τ0]; exact τ1)
  generalize F.rnd τ = a at *
  rw [abs_le] at ea
  norm_num at ea
  have eb := F.err_le (x := a * 100000) (B := 100001) (by rw [abs_le]; constructor <;> linarith)
  generalize F.rnd (a * 100000) = b at *
  rw [abs_le] at eb
  norm_num at eb
  have ec := G.err_le (x := b) (B := 100002) (by rw [abs_le]; constructor <;> linarith)
  generalize G.rnd b = c at *
  rw [abs_le] at ec
  norm_num at ec
  have er : |(roundAway c : ℚ) - c| ≤ 1 / 2 := by
    unfold roundAway
    split
    · have a1 := Int.floor_le (c + 1 / 2)
      have a2 := Int.lt_floor_add_one (c + 1 / 2)
      rw [abs_le]; constructor <;> linarith
    · have a1 := Int.le_ceil (c - 1 / 2)
      have a2 := Int.ceil_lt_add_one (c - 1 / 2)
      rw [abs_le]; constructor <;> linarith
  generalize (roundAway c : ℚ) = r at *
  rw [abs_le] at er
  have eq := G.err_le (x := r / 100000) (B := 11 / 10) (by rw [abs_le]; constructor <;> linarith)
  generalize G.rnd (r / 100000) = q at *
  rw [abs_le] at eq
  norm_num at eq
  rw [abs_le]
  norm_num
  constructor <;> linarith

/-- `floor(30.6001*(m+1))` is not affected by rounding. -/
theorem month_floor (F : Fl64) (m' : ℤ) (h1 : 3 ≤ m') (h2 : m' ≤ 14) :
    ⌊F.rnd (F.rnd (306001 / 10000) * ((m' + 1 : ℤ) : ℚ))⌋ = 306001 * (m' + 1) / 10000 := by
  have e1 := F.err_le (x := 306001 / 10000) (B := 31) (by rw [abs_le]; constructor <;> norm_num)
  generalize F.rnd (306001 / 10000) = c at *
  rw [abs_le] at e1
  norm_num at e1
  have hm : m' = 3 ∨ m' = 4 ∨ m' = 5 ∨ m' = 6 ∨ m' = 7 ∨ m' = 8 ∨ m' = 9 ∨ m' = 10 ∨ m' = 11 ∨ m' = 12 ∨
    m' = 13 ∨ m' = 14 := by omega
  rcases hm with rfl | rfl | rfl | rfl | rfl | rfl | rfl | rfl | rfl | rfl | rfl | rfl
  all_goals
    push_cast
    norm_num
    rw [Int.floor_eq_iff]
    push_cast
  all_goals
    first
    | (have e2 := F.err_le (x := c * 4) (B := 500) (by rw [abs_le]; constructor <;> linarith)
       rw [abs_le] at e2; norm_num at e2; constructor <;> linarith)
    | (have e2 := F.err_le (x := c * 5) (B := 500) (by rw [abs_le]; constructor <;> linarith)
       rw [abs_le] at e2; norm_num at e2; constructor <;> linarith)
    | (have e2 := F.err_le (x := c * 6) (B := 500) (by rw [abs_le]; constructor <;> linarith)
       rw [abs_le] at e2; norm_num at e2; constructor <;> linarith)
    | (have e2 := F.err_le (x := c * 7) (B := 500) (by rw [abs_le]; constructor <;> linarith)
       rw [abs_le] at e2; norm_num at e2; constructor <;> linarith)
    | (have e2 := F.err_le (x := c * 8) (B := 500) (by rw [abs_le]; constructor <;> linarith)
       rw [abs_le] at e2; norm_num at e2; constructor <;> linarith)
    | (have e2 := F.err_le (x := c * 9) (B := 500) (by rw [abs_le]; constructor <;> linarith)
       rw [abs_le] at e2; norm_num at e2; constructor <;> linarith)
    | (have e2 := F.err_le (x := c * 10) (B := 500) (by rw [abs_le]; constructor <;> linarith)
       rw [abs_le] at e2; norm_num at e2; constructor <;> linarith)
    | (have e2 := F.err_le (x := c * 11) (B := 500) (by rw [abs_le]; constructor <;> linarith)
       rw [abs_le] at e2; norm_num at e2; constructor <;> linarith)
    | (have e2 := F.err_le (x := c * 12) (B := 500) (by rw [abs_le]; constructor <;> linarith)
       rw [abs_le] at e2; norm_num at e2; constructor <;> linarith)
    | (have e2 := F.err_le (x := c * 13) (B := 500) (by rw [abs_le]; constructor <;> linarith)
       rw [abs_le] at e2; norm_num at e2; constructor <;> linarith)
    | (have e2 := F.err_le (x := c * 14) (B := 500) (by rw [abs_le]; constructor <;> linarith)
       rw [abs_le] at e2; norm_num at e2; constructor <;> linarith)
    | (have e2 := F.err_le (x := c * 15) (B := 500) (by rw [abs_le]; constructor <;> linarith)
       rw [abs_le] at e2; norm_num at e2; constructor <;> linarith)

/-- The number of a day of the years 0..9999 is within ±3 million. -/
theorem dateNum_bounds (x : Date) (hv : x.Valid) (hy : 0 ≤ x.y ∧ x.y ≤ 9999) :
    -3000000 ≤ dateNum x.y x.m x.d ∧ dateNum x.y x.m x.d ≤ 3000000 := by
  rw [dateNum_floor _ _ _ hy.1]
  have b := doy_bounds x hv
  have m := mYear x.y x.m
  have h1 : -1 ≤ mYear x.y x.m ∧ mYear x.y x.m ≤ 9999 := by
    unfold mYear; split <;> omega
  unfold dateNumF
  unfold yearCount at b ⊢
  omega

/-- The MJD computed for a date and time is within 5.14e-6 day of the exact one. -/
theorem date2mjd_err (F : Fl64) (G : Fl32) (x : Date) (hv : x.Valid) (hy : 0 ≤ x.y ∧ x.y ≤ 9999)
    (h mm s : ℤ) (hh : 0 ≤ h ∧ h ≤ 23) (hm : 0 ≤ mm ∧ mm ≤ 59) (hs : 0 ≤ s ∧ s ≤ 59) :
    |date2mjd F G x.y x.m x.d h mm s -
      ((dateNum x.y x.m x.d : ℚ) + ((s + 60 * (mm + 60 * h) : ℤ) : ℚ) / 86400)| ≤ 514 / 10 ^ 8 := by
  have ht := timeOfDay_err F G h mm s hh hm hs
  have hb := dateNum_bounds x hv hy
  obtain ⟨v1, v2, v3, v4⟩ := hv
  have v5 : x.d ≤ 31 := by
    unfold monthLength at v4
    split at v4
    · split at v4 <;> omega
    · split at v4 <;> omega
  unfold date2mjd
  simp only
  generalize hq : timeOfDay F G h mm s = q at *
  have hT0 : (0 : ℤ) ≤ s + 60 * (mm + 60 * h) := by omega
  have hT1 : s + 60 * (mm + 60 * h) ≤ 86399 := by omega
  generalize s + 60 * (mm + 60 * h) = T at *
  have T0 : (0 : ℚ) ≤ T := by exact_mod_cast hT0
  have T1 : (T : ℚ) ≤ 86399 := by exact_mod_cast hT1
  have hm1 : 3 ≤ (if x.m ≤ 2 then x.m + 12 else x.m) ∧ (if x.m ≤ 2 then x.m + 12 else x.m) ≤ 14 := by
    split <;> omega
  have hy1 : -1 ≤ (if x.m ≤ 2 then x.y - 1 else x.y) ∧ (if x.m ≤ 2 then x.y - 1 else x.y) ≤ 9999 := by
    split <;> omega
  have hN : dateNum x.y x.m x.d =
      2 - Int.tdiv (if x.m ≤ 2 then x.y - 1 else x.y) 100 +
        Int.tdiv (Int.tdiv (if x.m ≤ 2 then x.y - 1 else x.y) 100) 4 +
        1461 * (if x.m ≤ 2 then x.y - 1 else x.y) / 4 +
        306001 * ((if x.m ≤ 2 then x.m + 12 else x.m) + 1) / 10000 + x.d + 1720994 - 2400000 := rfl
  generalize (if x.m ≤ 2 then x.m + 12 else x.m) = m' at *
  generalize (if x.m ≤ 2 then x.y - 1 else x.y) = y' at *
  rw [month_floor F m' hm1.1 hm1.2]
  have htd : -1 ≤ Int.tdiv y' 100 ∧ Int.tdiv y' 100 ≤ 100 := by
    rcases Int.lt_or_le y' 0 with c | c
    · have : y' = -1 := by omega
      subst this; decide
    · rw [Int.tdiv_eq_ediv_of_nonneg c]; omega
  have htd4 : -1 ≤ Int.tdiv (Int.tdiv y' 100) 4 ∧ Int.tdiv (Int.tdiv y' 100) 4 ≤ 100 := by
    rcases Int.lt_or_le (Int.tdiv y' 100) 0 with c | c
    · have : Int.tdiv y' 100 = -1 := by omega
      rw [this]; decide
    · rw [Int.tdiv_eq_ediv_of_nonneg c]; omega
  have e1 : F.rnd (1461 / 4 * (y' : ℚ)) = ((1461 * y' : ℤ) : ℚ) / 4 := by
    have := F.exact (1461 * y') 2 (by rw [abs_le]; constructor <;> omega) (by norm_num)
    have e : (1461 / 4 * (y' : ℚ)) = ((1461 * y' : ℤ) : ℚ) / 2 ^ 2 := by push_cast; ring
    rw [e, this]; norm_num
  have e2 : ⌊((1461 * y' : ℤ) : ℚ) / 4⌋ = 1461 * y' / 4 := by
    have := Rat.floor_intCast_div_natCast (1461 * y') 4
    push_cast at this ⊢
    exact this
  rw [e1, e2]
  generalize hbb : 2 - Int.tdiv y' 100 + Int.tdiv (Int.tdiv y' 100) 4 = b at *
  generalize hyy : 1461 * y' / 4 = Y at *
  generalize hmm' : 306001 * (m' + 1) / 10000 = M at *
  have hY : -366 ≤ Y ∧ Y ≤ 3652135 := by omega
  have hM : 0 ≤ M ∧ M ≤ 500 := by omega
  have c1 : F.rnd ((b : ℚ) + (Y : ℤ)) = ((b + Y : ℤ) : ℚ) := by
    rw [← Int.cast_add]; exact F.int _ (by rw [abs_le]; constructor <;> omega)
  have c2 : F.rnd (((b + Y : ℤ) : ℚ) + (M : ℤ)) = ((b + Y + M : ℤ) : ℚ) := by
    rw [← Int.cast_add]; exact F.int _ (by rw [abs_le]; constructor <;> omega)
  have c3 : F.rnd (((b + Y + M : ℤ) : ℚ) + (x.d : ℚ)) = ((b + Y + M + x.d : ℤ) : ℚ) := by
    rw [← Int.cast_add]; exact F.int _ (by rw [abs_le]; constructor <;> omega)
  have c4 : F.rnd (((b + Y + M + x.d : ℤ) : ℚ) + 3441989 / 2) = (dateNum x.y x.m x.d : ℚ) + 4800001 / 2 := by
    have e : ((b + Y + M + x.d : ℤ) : ℚ) + 3441989 / 2 = ((2 * (b + Y + M + x.d) + 3441989 : ℤ) : ℚ) / 2 := by
      push_cast; ring
    rw [e, F.half _ (by rw [abs_le]; constructor <;> omega), hN]
    push_cast; ring
  rw [c1, c2, c3, c4]
  generalize dateNum x.y x.m x.d = N at *
  have N0 : (-3000000 : ℚ) ≤ N := by exact_mod_cast hb.1
  have N1 : (N : ℚ) ≤ 3000000 := by exact_mod_cast hb.2
  rw [abs_le] at ht
  norm_num at ht
  have e5 := F.err_le (x := (N : ℚ) + 4800001 / 2 + q) (B := 6000000) (by rw [abs_le]; constructor <;> linarith)
  generalize F.rnd ((N : ℚ) + 4800001 / 2 + q) = t5 at *
  rw [abs_le] at e5
  norm_num at e5
  have e6 := F.err_le (x := t5 - 4800001 / 2) (B := 6000000) (by rw [abs_le]; constructor <;> linarith)
  generalize F.rnd (t5 - 4800001 / 2) = t6 at *
  rw [abs_le] at e6
  norm_num at e6
  rw [abs_le]
  norm_num
  constructor <;> linarith

/-- `splitDay` when the first part is `DJ1`: the day and (nearly) the fraction of `d2 + 1/2`, away
from the day boundary. -/
theorem splitDay_A (F : Fl64) (z : ℚ) (n : ℤ) (hz : |F.rnd z| ≤ 10 ^ 9)
    (h1 : (n : ℚ) + 1 / 10 ^ 7 ≤ F.rnd z + 1 / 2) (h2 : F.rnd z + 1 / 2 ≤ n + 1 - 1 / 10 ^ 7) :
    (splitDay F DJ1 (F.rnd z)).1 = n + 2400001 ∧
      |(splitDay F DJ1 (F.rnd z)).2 - (F.rnd z + 1 / 2 - n)| ≤ 1 / 2 ^ 50 := by
  have grid := F.grid z 1
  generalize F.rnd z = d2 at *
  have hf1 : fmod1 DJ1 = 1 / 2 := by
    unfold fmod1
    rw [truncQ_eq (n := 2400000) (by norm_num [DJ1]) (by norm_num [DJ1]) (by norm_num [DJ1])]
    norm_num [DJ1]
  obtain ⟨b1, b2, b3, b4⟩ := fmod1_bounds d2
  have hfd : fmod1 d2 = d2 - truncQ d2 := rfl
  generalize ht : truncQ d2 = t at *
  have htr : |(t : ℚ)| ≤ 10 ^ 9 + 1 := by
    rw [abs_le] at hz ⊢; constructor <;> linarith
  have hti : |t| ≤ 10 ^ 9 + 1 := by exact_mod_cast htr
  rw [abs_le] at hti
  have e1 : F.rnd (DJ1 - 1 / 2) = (2400000 : ℤ) := by
    have : DJ1 - 1 / 2 = ((2400000 : ℤ) : ℚ) := by norm_num [DJ1]
    rw [this, F.int _ (by norm_num)]
  have e2 : F.rnd (d2 - fmod1 d2) = (t : ℤ) := by
    have : d2 - fmod1 d2 = ((t : ℤ) : ℚ) := by rw [hfd]; ring
    rw [this, F.int _ (by rw [abs_le]; constructor <;> omega)]
  have e3 : F.rnd (((2400000 : ℤ) : ℚ) + (t : ℤ)) = ((2400000 + t : ℤ) : ℚ) := by
    rw [← Int.cast_add, F.int _ (by rw [abs_le]; constructor <;> omega)]
  unfold splitDay
  simp only [hf1, e1, e2, Int.floor_intCast, e3]
  have hw := F.err_le (x := 1 / 2 + fmod1 d2) (B := 2) (by rw [abs_le]; constructor <;> linarith)
  rw [abs_le] at hw
  norm_num at hw
  have fin : ∀ k : ℤ, |k| ≤ 2 → F.rnd (((2400000 + t : ℤ) : ℚ) + (k : ℤ)) = ((2400000 + t + k : ℤ) : ℚ) := by
    intro k hk
    rw [abs_le] at hk
    rw [← Int.cast_add, F.int _ (by rw [abs_le]; constructor <;> omega)]
  have finish : ∀ (f : ℚ) (k : ℤ), |k| ≤ 2 → ⌊F.rnd (F.rnd (1 / 2 + fmod1 d2) - f)⌋ = k → t + k = n →
      |f - (d2 + 1 / 2 - n)| ≤ 1 / 2 ^ 50 →
      (⌊F.rnd (((2400000 + t : ℤ) : ℚ) + (⌊F.rnd (F.rnd (1 / 2 + fmod1 d2) - f)⌋ : ℤ))⌋ + 1 = n + 2400001 ∧
        |f - (d2 + 1 / 2 - n)| ≤ 1 / 2 ^ 50) := by
    intro f k hk hkf htk hf
    rw [hkf, fin k hk, Int.floor_intCast]
    exact ⟨by omega, hf⟩
  by_cases hneg : 1 / 2 + fmod1 d2 < 0
  · -- exact by the grid property
    have hd2 : 1 / 2 ^ 1 ≤ |d2| := by
      have : d2 < 0 := by
        by_contra hc
        have := b3 (by linarith)
        linarith
      have hn0 : t ≤ 0 := by
        have : truncQ d2 ≤ 0 := by
          unfold truncQ; rw [if_neg (by linarith)]
          exact Int.ceil_le.mpr (by push_cast; linarith)
        omega
      have hn0' : (t : ℚ) ≤ 0 := by exact_mod_cast hn0
      rw [abs_of_neg this]; norm_num
      linarith
    obtain ⟨k, hk⟩ := grid hd2
    obtain ⟨k', hk'⟩ : ∃ k' : ℤ, fmod1 d2 = k' / 2 ^ 53 := by
      refine ⟨k - t * 2 ^ 53, ?_⟩
      rw [hfd, hk]; push_cast; ring
    have k1 : -(2 ^ 53 : ℚ) < k' := by
      rw [hk'] at b1; rw [lt_div_iff₀ (by positivity)] at b1; linarith
    have k1' : -(2 ^ 53 : ℤ) < k' := by exact_mod_cast k1
    have k2 : (k' : ℚ) < -(2 ^ 52 : ℚ) := by
      rw [hk'] at hneg
      have : (k' : ℚ) / 2 ^ 53 < -(1 / 2) := by linarith
      rw [div_lt_iff₀ (by positivity)] at this
      linarith
    have k2' : k' < -(2 ^ 52 : ℤ) := by exact_mod_cast k2
    have w1 : F.rnd (1 / 2 + fmod1 d2) = 1 / 2 + fmod1 d2 := by
      have : 1 / 2 + fmod1 d2 = ((k' + 2 ^ 52 : ℤ) : ℚ) / 2 ^ 53 := by
        rw [hk']; push_cast; ring
      rw [this, F.exact _ _ (by rw [abs_le]; constructor <;> omega) (by norm_num)]
    have w2 : fmod1 (1 / 2 + fmod1 d2) = 1 / 2 + fmod1 d2 := by
      rw [fmod1, truncQ_neg_small hneg (by linarith)]; simp
    have w3 : F.rnd (1 / 2 + fmod1 d2 + 1) = 1 / 2 + fmod1 d2 + 1 := by
      have : 1 / 2 + fmod1 d2 + 1 = ((k' + 2 ^ 52 + 2 ^ 53 : ℤ) : ℚ) / 2 ^ 53 := by
        rw [hk']; push_cast; ring
      rw [this, F.exact _ _ (by rw [abs_le]; constructor <;> omega) (by norm_num)]
    have w4 : F.rnd (1 / 2 + fmod1 d2 - (1 / 2 + fmod1 d2 + 1)) = ((-1 : ℤ) : ℚ) := by
      have : 1 / 2 + fmod1 d2 - (1 / 2 + fmod1 d2 + 1) = ((-1 : ℤ) : ℚ) := by push_cast; ring
      rw [this, F.int _ (by norm_num)]
    have hn : t + -1 = n := by
      have a1 : (n : ℚ) < t := by linarith
      have a2 : (t : ℚ) < n + 2 := by linarith
      have a1' : n < t := by exact_mod_cast a1
      have a2' : t < n + 2 := by exact_mod_cast a2
      omega
    rw [w1, w2, if_pos hneg, w3]
    have := finish (1 / 2 + fmod1 d2 + 1) (-1) (by norm_num) (by rw [w1, w4, Int.floor_intCast]) hn (by
      rw [← hn]; push_cast
      have : 1 / 2 + fmod1 d2 + 1 - (d2 + 1 / 2 - ((t : ℚ) + -1)) = 0 := by rw [hfd]; ring
      rw [this]; norm_num)
    rw [w1] at this
    exact this
  · -- nonnegative: only the size matters
    have hge : 0 ≤ 1 / 2 + fmod1 d2 := by linarith
    have hw0 : 0 ≤ F.rnd (1 / 2 + fmod1 d2) := F.nonneg hge
    have hk : n = t ∨ n = t + 1 := by
      have a1 : (n : ℚ) < t + 2 := by linarith
      have a2 : (t : ℚ) < n + 1 := by linarith
      have a1' : n < t + 2 := by exact_mod_cast a1
      have a2' : t < n + 1 := by exact_mod_cast a2
      omega
    generalize F.rnd (1 / 2 + fmod1 d2) = w at *
    have hx : ∀ k : ℤ, n = t + k → |k| ≤ 2 → fmod1 w = w - k ∧ ¬ fmod1 w < 0 := by
      intro k hk hk2
      have hkq : (n : ℚ) = t + k := by rw [hk]; push_cast; ring
      norm_num at h1 h2
      have : truncQ w = k := truncQ_eq hw0 (by linarith) (by linarith)
      rw [fmod1, this]
      refine ⟨rfl, ?_⟩
      linarith
    rcases hk with hk | hk
    · obtain ⟨x1, x2⟩ := hx 0 (by omega) (by norm_num)
      rw [if_neg x2]
      apply finish _ 0 (by norm_num) _ (by omega)
      · rw [x1, hk, abs_le]; norm_num; constructor <;> linarith
      · rw [x1]
        have : w - (w - ((0 : ℤ) : ℚ)) = ((0 : ℤ) : ℚ) := by ring
        rw [this, F.int _ (by norm_num), Int.floor_intCast]
    · obtain ⟨x1, x2⟩ := hx 1 (by omega) (by norm_num)
      rw [if_neg x2]
      apply finish _ 1 (by norm_num) _ (by omega)
      · rw [x1, hk, abs_le]; push_cast; norm_num; constructor <;> linarith
      · rw [x1]
        have : w - (w - ((1 : ℤ) : ℚ)) = ((1 : ℤ) : ℚ) := by ring
        rw [this, F.int _ (by norm_num), Int.floor_intCast]

/-- `splitDay` when the first part is the date and the second `DJ1 - 0.5`. -/
theorem splitDay_B (F : Fl64) (d1 : ℚ) (n : ℤ) (h0 : 0 ≤ d1) (hz : d1 ≤ 10 ^ 9)
    (h1 : (n : ℚ) + 1 / 10 ^ 7 ≤ d1) (h2 : d1 ≤ n + 1 - 1 / 10 ^ 7) :
    (splitDay F d1 2400000).1 = n + 2400001 ∧ |(splitDay F d1 2400000).2 - (d1 - n)| ≤ 1 / 2 ^ 50 := by
  norm_num at h1 h2
  have ht : truncQ d1 = n := truncQ_eq h0 (by linarith) (by linarith)
  have hf1 : fmod1 d1 = d1 - n := by rw [fmod1, ht]
  have hf2 : fmod1 2400000 = 0 := by
    have : (2400000 : ℚ) = ((2400000 : ℤ) : ℚ) := by norm_num
    rw [this, fmod1, truncQ_int]; ring
  have hn1 : (n : ℚ) ≤ 10 ^ 9 := by linarith
  have hn2 : (-1 : ℚ) < n := by linarith
  have hn1' : n ≤ 10 ^ 9 := by exact_mod_cast hn1
  have hn2' : -1 < n := by exact_mod_cast hn2
  have hw := F.err_le (x := d1 - n) (B := 2) (by rw [abs_le]; constructor <;> linarith)
  rw [abs_le] at hw
  norm_num at hw
  unfold splitDay
  simp only [hf1, hf2, add_zero, sub_zero]
  have e1 : F.rnd (d1 - (d1 - n)) = (n : ℤ) := by
    have : d1 - (d1 - n) = ((n : ℤ) : ℚ) := by ring
    rw [this, F.int _ (by rw [abs_le]; constructor <;> omega)]
  have e2 : F.rnd (2400000 : ℚ) = ((2400000 : ℤ) : ℚ) := by
    have := F.int 2400000 (by norm_num); exact_mod_cast this
  have e3 : F.rnd ((n : ℚ) + ((2400000 : ℤ) : ℚ)) = ((n + 2400000 : ℤ) : ℚ) := by
    rw [← Int.cast_add, F.int _ (by rw [abs_le]; constructor <;> omega)]
  rw [e1, e2]
  simp only [Int.floor_intCast, e3]
  generalize F.rnd (d1 - n) = w at *
  have hfw : fmod1 w = w := by
    rw [fmod1, truncQ_eq (n := 0) (by linarith) (by push_cast; linarith) (by push_cast; linarith)]; simp
  rw [hfw, if_neg (by linarith)]
  have e4 : F.rnd (w - w) = ((0 : ℤ) : ℚ) := by rw [sub_self, F.zero]; norm_num
  have e5 : F.rnd (((n + 2400000 : ℤ) : ℚ) + ((0 : ℤ) : ℚ)) = ((n + 2400000 : ℤ) : ℚ) := by
    rw [← Int.cast_add, F.int _ (by rw [abs_le]; constructor <;> omega)]; push_cast; ring
  rw [e4, Int.floor_intCast, e5, Int.floor_intCast]
  refine ⟨by omega, ?_⟩
  rw [abs_le]; norm_num; constructor <;> linarith

/-- `splitTime` recovers hours, minutes and seconds when the fraction is inside the second, at least
0.04 s from both ends. -/
theorem splitTime_eq (F : Fl64) (f : ℚ) (h mm s : ℤ) (hh : 0 ≤ h ∧ h ≤ 23) (hm : 0 ≤ mm ∧ mm ≤ 59)
    (hs : 0 ≤ s ∧ s ≤ 59)
    (h1 : ((s + 60 * (mm + 60 * h) : ℤ) : ℚ) / 86400 + 5 / 10 ^ 7 ≤ f)
    (h2 : f ≤ ((s + 60 * (mm + 60 * h) + 1 : ℤ) : ℚ) / 86400 - 5 / 10 ^ 7) :
    splitTime F f = (h, mm, s) := by
  push_cast at h1 h2
  norm_num at h1 h2
  have hh0 : (0 : ℚ) ≤ h := by exact_mod_cast hh.1
  have hh1 : (h : ℚ) ≤ 23 := by exact_mod_cast hh.2
  have hm0 : (0 : ℚ) ≤ mm := by exact_mod_cast hm.1
  have hm1 : (mm : ℚ) ≤ 59 := by exact_mod_cast hm.2
  have hs0 : (0 : ℚ) ≤ s := by exact_mod_cast hs.1
  have hs1 : (s : ℚ) ≤ 59 := by exact_mod_cast hs.2
  have a1 := F.err_le (x := f * 24) (B := 30) (by rw [abs_le]; constructor <;> linarith)
  rw [abs_le] at a1; norm_num at a1
  have t1 : truncQ (F.rnd (f * 24)) = h := truncQ_eq (by linarith) (by linarith) (by linarith)
  have a2 := F.err_le (x := (h : ℚ) / 24) (B := 1) (by rw [abs_le]; constructor <;> linarith)
  rw [abs_le] at a2; norm_num at a2
  unfold splitTime
  simp only [t1]
  generalize F.rnd ((h : ℚ) / 24) = q1 at *
  have a3 := F.err_le (x := f - q1) (B := 1) (by rw [abs_le]; constructor <;> linarith)
  rw [abs_le] at a3; norm_num at a3
  generalize F.rnd (f - q1) = f1 at *
  have a4 := F.err_le (x := f1 * 1440) (B := 100) (by rw [abs_le]; constructor <;> linarith)
  rw [abs_le] at a4; norm_num at a4
  have t2 : truncQ (F.rnd (f1 * 1440)) = mm := truncQ_eq (by linarith) (by linarith) (by linarith)
  have a5 := F.err_le (x := (mm : ℚ) / 1440) (B := 1) (by rw [abs_le]; constructor <;> linarith)
  rw [abs_le] at a5; norm_num at a5
  simp only [t2]
  generalize F.rnd ((mm : ℚ) / 1440) = q2 at *
  have a6 := F.err_le (x := f1 - q2) (B := 1) (by rw [abs_le]; constructor <;> linarith)
  rw [abs_le] at a6; norm_num at a6
  generalize F.rnd (f1 - q2) = f2 at *
  have a7 := F.err_le (x := f2 * 86400) (B := 100) (by rw [abs_le]; constructor <;> linarith)
  rw [abs_le] at a7; norm_num at a7
  have t3 : truncQ (F.rnd (f2 * 86400)) = s := truncQ_eq (by linarith) (by linarith) (by linarith)
  rw [t3]

/-- `mjd2date` on any number within 5.2e-6 day of an exact whole second prints that second. -/
theorem mjd2date_near (F : Fl64) (mjd : ℚ) (N h mm s : ℤ) (hN : -2400000 ≤ N ∧ N ≤ 5000000)
    (hh : 0 ≤ h ∧ h ≤ 23) (hm : 0 ≤ mm ∧ mm ≤ 59) (hs : 0 ≤ s ∧ s ≤ 59)
    (hmjd : |mjd - ((N : ℚ) + ((s + 60 * (mm + 60 * h) : ℤ) : ℚ) / 86400)| ≤ 52 / 10 ^ 7) :
    mjd2date F mjd = some { y := (toYmd (N + 2400001)).1, m := (toYmd (N + 2400001)).2.1,
                            d := (toYmd (N + 2400001)).2.2, h := h, mm := mm, s := s } := by
  have split := splitTime_eq F
  have hT0 : (0 : ℤ) ≤ s + 60 * (mm + 60 * h) := by omega
  have hT1 : s + 60 * (mm + 60 * h) ≤ 86399 := by omega
  have N0 : (-2400000 : ℚ) ≤ N := by exact_mod_cast hN.1
  have N1 : (N : ℚ) ≤ 5000000 := by exact_mod_cast hN.2
  have key : ∀ f : ℚ, |f - (((s + 60 * (mm + 60 * h) : ℤ) : ℚ) / 86400 + 5787037 / 10 ^ 12)| ≤ 521 / 10 ^ 8 →
      splitTime F f = (h, mm, s) := by
    intro f hf
    apply split f h mm s hh hm hs
    · rw [abs_le] at hf; push_cast at hf ⊢; norm_num at hf ⊢; linarith
    · rw [abs_le] at hf; push_cast at hf ⊢; norm_num at hf ⊢; linarith
  generalize hTd : s + 60 * (mm + 60 * h) = T at *
  have T0 : (0 : ℚ) ≤ T := by exact_mod_cast hT0
  have T1 : (T : ℚ) ≤ 86399 := by exact_mod_cast hT1
  rw [abs_le] at hmjd
  norm_num at hmjd
  have a1 := F.err_le (x := DJ1 + mjd) (B := 8000000) (by
    rw [abs_le]; unfold DJ1; constructor <;> linarith)
  have hHS := F.err_le (x := HALF_S) (B := 1) (by rw [abs_le]; unfold HALF_S; constructor <;> norm_num)
  rw [abs_le] at a1 hHS
  unfold mjd2date mjdParts
  simp only
  generalize F.rnd HALF_S = HS at *
  norm_num [DJ1] at a1
  norm_num [HALF_S] at hHS
  have hrange : ¬ (F.rnd (DJ1 + mjd) < DJMIN ∨ F.rnd (DJ1 + mjd) > DJMAX) := by
    unfold DJMIN DJMAX DJ1
    rw [not_or]
    constructor <;> push Not <;> linarith
  rw [if_neg hrange]
  have a2 := F.err_le (x := mjd + HS) (B := 6000000) (by rw [abs_le]; constructor <;> linarith)
  rw [abs_le] at a2; norm_num at a2
  by_cases hcase : DJ1 ≥ mjd
  · rw [if_pos hcase]
    generalize F.rnd (mjd + HS) = p at *
    have a3 := F.err_le (x := p - 1 / 2) (B := 6000000) (by rw [abs_le]; constructor <;> linarith)
    rw [abs_le] at a3; norm_num at a3
    obtain ⟨s1, s2⟩ := splitDay_A F (p - 1 / 2) N (by rw [abs_le]; norm_num; constructor <;> linarith)
      (by norm_num; linarith) (by norm_num; linarith)
    have hst := key (splitDay F DJ1 (F.rnd (p - 1 / 2))).2 (by
      rw [abs_le] at s2 ⊢; norm_num at s2 ⊢; constructor <;> linarith)
    simp only [bind, Option.bind, pure, s1, hst]
  · rw [if_neg hcase]
    generalize F.rnd (mjd + HS) = p at *
    have e0 : F.rnd (DJ1 - 1 / 2) = 2400000 := by
      have e : DJ1 - 1 / 2 = ((2400000 : ℤ) : ℚ) := by norm_num [DJ1]
      rw [e, F.int _ (by norm_num)]; norm_num
    rw [e0]
    have hpos : 0 ≤ p := by unfold DJ1 at hcase; push Not at hcase; linarith
    obtain ⟨s1, s2⟩ := splitDay_B F p N hpos (by norm_num; linarith)
      (by norm_num; linarith) (by norm_num; linarith)
    norm_num at s2
    rw [abs_le] at s2
    have hst := key (splitDay F p 2400000).2 (by
      rw [abs_le]; norm_num; constructor <;> linarith)
    simp [s1, hst]

end SatSky.Dates
