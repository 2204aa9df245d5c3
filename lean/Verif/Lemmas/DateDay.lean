import Verif.Lemmas.DateValid

/-! `mjd2date` on arbitrary arguments: the day, and the combined statement. -/

namespace SatSky.Dates

open SatSky Cal Spec Props

/-- A nonnegative `double` below 2 minus its integer part is a `double`. -/
theorem frac_is_double (F : Fl64) (x : ℚ) (h0 : 0 ≤ F.rnd x) (h2 : F.rnd x < 2) :
    ∃ z, fmod1 (F.rnd x) = F.rnd z ∧ 0 ≤ F.rnd z ∧ F.rnd z < 1 ∧
      ∃ k : ℤ, (k = 0 ∨ k = 1) ∧ truncQ (F.rnd x) = k := by
  by_cases h1 : F.rnd x < 1
  · have t : truncQ (F.rnd x) = 0 := truncQ_eq h0 (by push_cast; exact h0) (by push_cast; linarith)
    refine ⟨x, by rw [fmod1, t]; simp, h0, h1, 0, Or.inl rfl, t⟩
  · have t : truncQ (F.rnd x) = 1 := truncQ_eq h0 (by push_cast; linarith) (by push_cast; linarith)
    obtain ⟨k, hk⟩ := F.grid x 0 (by rw [abs_of_nonneg h0]; norm_num; linarith)
    have e : F.rnd x - 1 = ((k - 2 ^ 52 : ℤ) : ℚ) / 2 ^ 52 := by
      rw [hk]; push_cast; norm_num; ring
    have b1 : (0 : ℚ) ≤ ((k - 2 ^ 52 : ℤ) : ℚ) / 2 ^ 52 := by rw [← e]; linarith
    have b2 : ((k - 2 ^ 52 : ℤ) : ℚ) / 2 ^ 52 < 1 := by rw [← e]; linarith
    rw [div_lt_one (by positivity)] at b2
    have b1' : (0 : ℚ) ≤ ((k - 2 ^ 52 : ℤ) : ℚ) := by
      have := mul_nonneg b1 (by positivity : (0 : ℚ) ≤ 2 ^ 52)
      rwa [div_mul_cancel₀ _ (by positivity)] at this
    have i1 : (0 : ℤ) ≤ k - 2 ^ 52 := by exact_mod_cast b1'
    have i2 : k - 2 ^ 52 < (2 : ℤ) ^ 52 := by exact_mod_cast b2
    have ex := F.exact (k - 2 ^ 52) 52 (by rw [abs_le]; constructor <;> omega) (by norm_num)
    have fe : fmod1 (F.rnd x) = F.rnd (((k - 2 ^ 52 : ℤ) : ℚ) / 2 ^ 52) := by
      rw [fmod1, t, ex, ← e]; norm_num
    refine ⟨((k - 2 ^ 52 : ℤ) : ℚ) / 2 ^ 52, fe, ?_, ?_, 1, Or.inr rfl, t⟩
    · rw [ex, ← e]; linarith
    · rw [ex, ← e]; linarith

/-- `splitDay` with first part `DJ1`, without any hypothesis on the fraction. -/
theorem splitDay_gen_A (F : Fl64) (x : ℚ) (hz : |F.rnd x| ≤ 10 ^ 9) :
    ∃ (n : ℤ) (z : ℚ), splitDay F DJ1 (F.rnd x) = (n + 2400001, F.rnd z) ∧
      0 ≤ F.rnd z ∧ F.rnd z < 1 ∧ |(n : ℚ) + F.rnd z - (F.rnd x + 1 / 2)| ≤ 1 / 2 ^ 51 := by
  have grid := F.grid x 1
  generalize F.rnd x = d2 at *
  have hf1 : fmod1 DJ1 = 1 / 2 := by
    unfold fmod1
    rw [truncQ_eq (n := 2400000) (by norm_num [DJ1]) (by norm_num [DJ1]) (by norm_num [DJ1])]
    norm_num [DJ1]
  obtain ⟨b1, b2, b3, b4⟩ := fmod1_bounds d2
  have hfd : fmod1 d2 = d2 - truncQ d2 := rfl
  generalize ht : truncQ d2 = t at *
  have htr : |(t : ℚ)| ≤ 10 ^ 9 + 1 := by
    rw [abs_le] at hz ⊢; constructor <;> linarith
  have hti : |t| ≤ 10 ^ 9 + 1 := by exact_mod_cast htr
  rw [abs_le] at hti
  have e1 : F.rnd (DJ1 - 1 / 2) = (2400000 : ℤ) := by
    have : DJ1 - 1 / 2 = ((2400000 : ℤ) : ℚ) := by norm_num [DJ1]
    rw [this, F.int _ (by norm_num)]
  have e2 : F.rnd (d2 - fmod1 d2) = (t : ℤ) := by
    have : d2 - fmod1 d2 = ((t : ℤ) : ℚ) := by rw [hfd]; ring
    rw [this, F.int _ (by rw [abs_le]; constructor <;> omega)]
  have e3 : F.rnd (((2400000 : ℤ) : ℚ) + (t : ℤ)) = ((2400000 + t : ℤ) : ℚ) := by
    rw [← Int.cast_add, F.int _ (by rw [abs_le]; constructor <;> omega)]
  have fin : ∀ k : ℤ, |k| ≤ 2 → F.rnd (((2400000 + t : ℤ) : ℚ) + (k : ℤ)) = ((2400000 + t + k : ℤ) : ℚ) := by
    intro k hk
    rw [abs_le] at hk
    rw [← Int.cast_add, F.int _ (by rw [abs_le]; constructor <;> omega)]
  unfold splitDay
  simp only [hf1, e1, e2, Int.floor_intCast, e3]
  by_cases hneg : 1 / 2 + fmod1 d2 < 0
  · have hd2 : 1 / 2 ^ 1 ≤ |d2| := by
      have : d2 < 0 := by
        by_contra hc
        have := b3 (by linarith)
        linarith
      have hn0 : t ≤ 0 := by
        have : truncQ d2 ≤ 0 := by
          unfold truncQ; rw [if_neg (by linarith)]
          exact Int.ceil_le.mpr (by push_cast; linarith)
        omega
      have hn0' : (t : ℚ) ≤ 0 := by exact_mod_cast hn0
      rw [abs_of_neg this]; norm_num
      linarith
    obtain ⟨k, hk⟩ := grid hd2
    obtain ⟨k', hk'⟩ : ∃ k' : ℤ, fmod1 d2 = k' / 2 ^ 53 := by
      refine ⟨k - t * 2 ^ 53, ?_⟩
      rw [hfd, hk]; push_cast; ring
    have k1 : -(2 ^ 53 : ℚ) < k' := by
      rw [hk'] at b1; rw [lt_div_iff₀ (by positivity)] at b1; linarith
    have k1' : -(2 ^ 53 : ℤ) < k' := by exact_mod_cast k1
    have k2 : (k' : ℚ) < -(2 ^ 52 : ℚ) := by
      rw [hk'] at hneg
      have : (k' : ℚ) / 2 ^ 53 < -(1 / 2) := by linarith
      rw [div_lt_iff₀ (by positivity)] at this
      linarith
    have k2' : k' < -(2 ^ 52 : ℤ) := by exact_mod_cast k2
    have w1 : F.rnd (1 / 2 + fmod1 d2) = 1 / 2 + fmod1 d2 := by
      have : 1 / 2 + fmod1 d2 = ((k' + 2 ^ 52 : ℤ) : ℚ) / 2 ^ 53 := by
        rw [hk']; push_cast; ring
      rw [this, F.exact _ _ (by rw [abs_le]; constructor <;> omega) (by norm_num)]
    have w2 : fmod1 (1 / 2 + fmod1 d2) = 1 / 2 + fmod1 d2 := by
      rw [fmod1, truncQ_neg_small hneg (by linarith)]; simp
    have w3 : F.rnd (1 / 2 + fmod1 d2 + 1) = 1 / 2 + fmod1 d2 + 1 := by
      have : 1 / 2 + fmod1 d2 + 1 = ((k' + 2 ^ 52 + 2 ^ 53 : ℤ) : ℚ) / 2 ^ 53 := by
        rw [hk']; push_cast; ring
      rw [this, F.exact _ _ (by rw [abs_le]; constructor <;> omega) (by norm_num)]
    have w4 : F.rnd (1 / 2 + fmod1 d2 - (1 / 2 + fmod1 d2 + 1)) = ((-1 : ℤ) : ℚ) := by
      have : 1 / 2 + fmod1 d2 - (1 / 2 + fmod1 d2 + 1) = ((-1 : ℤ) : ℚ) := by push_cast; ring
      rw [this, F.int _ (by norm_num)]
    rw [w1, w2, if_pos hneg]
    refine ⟨t - 1, 1 / 2 + fmod1 d2 + 1, ?_, ?_, ?_, ?_⟩
    · rw [w3, w4, Int.floor_intCast, fin (-1) (by norm_num), Int.floor_intCast]
      exact Prod.ext (by simp only; omega) rfl
    · rw [w3]; linarith
    · rw [w3]; linarith
    · rw [w3, hfd]; push_cast
      have : (t : ℚ) - 1 + (1 / 2 + (d2 - t) + 1) - (d2 + 1 / 2) = 0 := by ring
      rw [this]; norm_num
  · have hge : 0 ≤ 1 / 2 + fmod1 d2 := by linarith
    have hw0 : 0 ≤ F.rnd (1 / 2 + fmod1 d2) := F.nonneg hge
    have hw := F.err_le (x := 1 / 2 + fmod1 d2) (B := 2) (by rw [abs_le]; constructor <;> linarith)
    have hw2 : F.rnd (1 / 2 + fmod1 d2) < 2 := by
      have := F.mono (1 / 2 + fmod1 d2) (((3 : ℤ) : ℚ) / 2) (by push_cast; linarith)
      rw [F.half 3 (by norm_num)] at this
      push_cast at this; linarith
    obtain ⟨z, q1, q2, q3, k, hk, q4⟩ := frac_is_double F (1 / 2 + fmod1 d2) hw0 hw2
    have hf : fmod1 (F.rnd (1 / 2 + fmod1 d2)) = F.rnd (1 / 2 + fmod1 d2) - k := by rw [fmod1, q4]
    have hsub : F.rnd (F.rnd (1 / 2 + fmod1 d2) - fmod1 (F.rnd (1 / 2 + fmod1 d2))) = (k : ℤ) := by
      rw [hf, sub_sub_cancel, F.int _ (by rcases hk with rfl | rfl <;> norm_num)]
    rw [if_neg (by rw [q1]; linarith), hsub, Int.floor_intCast,
      fin k (by rcases hk with rfl | rfl <;> norm_num), Int.floor_intCast]
    refine ⟨t + k, z, by rw [q1]; exact Prod.ext (by simp only; omega) rfl, q2, q3, ?_⟩
    rw [← q1, hf]
    rw [abs_le] at hw ⊢
    push_cast
    norm_num at hw ⊢
    constructor <;> linarith

/-- `splitDay` with second part `DJ1 - 0.5`. -/
theorem splitDay_gen_B (F : Fl64) (d1 : ℚ) (h0 : 0 ≤ d1) (hz : d1 ≤ 10 ^ 9) :
    ∃ (n : ℤ) (z : ℚ), splitDay F d1 2400000 = (n + 2400001, F.rnd z) ∧
      0 ≤ F.rnd z ∧ F.rnd z < 1 ∧ |(n : ℚ) + F.rnd z - d1| ≤ 1 / 2 ^ 51 := by
  obtain ⟨b1, b2, b3, b4⟩ := fmod1_bounds d1
  have hfd : fmod1 d1 = d1 - truncQ d1 := rfl
  have b3 := b3 h0
  generalize ht : truncQ d1 = t at *
  have hf2 : fmod1 2400000 = 0 := by
    have : (2400000 : ℚ) = ((2400000 : ℤ) : ℚ) := by norm_num
    rw [this, fmod1, truncQ_int]; ring
  have hn1 : (t : ℚ) ≤ 10 ^ 9 := by linarith
  have hn2 : (-1 : ℚ) < t := by linarith
  have hn1' : t ≤ 10 ^ 9 := by exact_mod_cast hn1
  have hn2' : -1 < t := by exact_mod_cast hn2
  have hw := F.err_le (x := fmod1 d1) (B := 1) (by rw [abs_le]; constructor <;> linarith)
  unfold splitDay
  simp only [hf2, add_zero, sub_zero]
  have e1 : F.rnd (d1 - fmod1 d1) = (t : ℤ) := by
    have : d1 - fmod1 d1 = ((t : ℤ) : ℚ) := by rw [hfd]; ring
    rw [this, F.int _ (by rw [abs_le]; constructor <;> omega)]
  have e2 : F.rnd (2400000 : ℚ) = ((2400000 : ℤ) : ℚ) := by
    have := F.int 2400000 (by norm_num); exact_mod_cast this
  have e3 : F.rnd ((t : ℚ) + ((2400000 : ℤ) : ℚ)) = ((t + 2400000 : ℤ) : ℚ) := by
    rw [← Int.cast_add, F.int _ (by rw [abs_le]; constructor <;> omega)]
  rw [e1, e2]
  simp only [Int.floor_intCast, e3]
  have hw0 : 0 ≤ F.rnd (fmod1 d1) := F.nonneg b3
  have hw2 : F.rnd (fmod1 d1) < 2 := by
    have := F.mono (fmod1 d1) (((1 : ℤ) : ℚ)) (by push_cast; linarith)
    rw [F.int 1 (by norm_num)] at this
    push_cast at this; linarith
  obtain ⟨z, q1, q2, q3, k, hk, q4⟩ := frac_is_double F (fmod1 d1) hw0 hw2
  have hf : fmod1 (F.rnd (fmod1 d1)) = F.rnd (fmod1 d1) - k := by rw [fmod1, q4]
  have hsub : F.rnd (F.rnd (fmod1 d1) - fmod1 (F.rnd (fmod1 d1))) = (k : ℤ) := by
    rw [hf, sub_sub_cancel, F.int _ (by rcases hk with rfl | rfl <;> norm_num)]
  have fin : F.rnd (((t + 2400000 : ℤ) : ℚ) + (k : ℤ)) = ((t + 2400000 + k : ℤ) : ℚ) := by
    rw [← Int.cast_add, F.int _ (by rw [abs_le]; constructor <;> omega)]
  rw [if_neg (by rw [q1]; linarith), hsub, Int.floor_intCast, fin, Int.floor_intCast]
  refine ⟨t + k, z, by rw [q1]; exact Prod.ext (by simp only; omega) rfl, q2, q3, ?_⟩
  rw [← q1, hf]
  rw [abs_le] at hw ⊢
  push_cast
  norm_num at hw ⊢
  constructor <;> linarith

/-- The rounding errors made before the calendar is used: relative 2^-50. -/
def slack (mjd : ℚ) : ℚ := (|mjd| + 1) / 2 ^ 50

/-- Whenever `mjd2date` does not return NULL: it printed the date of some day `n` and the time of some
fraction `f` with `n + f` equal to the argument plus half a second, up to rounding. -/
theorem mjd2date_some (F : Fl64) (mjd : ℚ) (p : Printed) (h : mjd2date F mjd = some p) :
    ∃ (n : ℤ) (z : ℚ), 0 ≤ F.rnd z ∧ F.rnd z < 1 ∧ -68569 ≤ n + 2400001 ∧
      |(n : ℚ) + F.rnd z - (mjd + HALF_S)| ≤ slack mjd ∧
      (p.y, p.m, p.d) = toYmd (n + 2400001) ∧ (p.h, p.mm, p.s) = splitTime F (F.rnd z) := by
  unfold mjd2date mjdParts at h
  simp only at h
  have hHS := F.err_le (x := HALF_S) (B := 1 / 100000) (by
    rw [abs_le]; unfold HALF_S; constructor <;> norm_num)
  have a1 := F.err (DJ1 + mjd)
  rw [abs_le] at hHS
  generalize hHe : F.rnd HALF_S = HS at *
  norm_num [HALF_S] at hHS
  by_cases hr : F.rnd (DJ1 + mjd) < DJMIN ∨ F.rnd (DJ1 + mjd) > DJMAX
  · rw [if_pos hr] at h; simp at h
  · rw [if_neg hr] at h
    rw [not_or] at hr
    obtain ⟨r1, r2⟩ := hr
    push Not at r1 r2
    -- range of the argument
    have hb : -2468571 ≤ mjd ∧ mjd ≤ 998000000 := by
      unfold DJMIN at r1
      unfold DJMAX at r2
      generalize F.rnd (DJ1 + mjd) = dj at *
      rcases abs_cases (DJ1 + mjd) with ⟨c1, c2⟩ | ⟨c1, c2⟩
      · rw [c1, abs_le] at a1
        unfold DJ1 at *
        norm_num at a1
        constructor <;> linarith
      · rw [c1, abs_le] at a1
        unfold DJ1 at *
        norm_num at a1
        constructor <;> linarith
    have hlow : -2468570 - 1 / 10 ^ 10 ≤ mjd := by
      rcases le_total mjd 0 with hm | hm
      · by_cases hm2 : mjd < -2460000
        · have : |DJ1 + mjd| ≤ 70000 := by
            rw [abs_le]; unfold DJ1; constructor <;> linarith
          have a1' := F.err_le this
          rw [abs_le] at a1'
          unfold DJMIN at r1
          unfold DJ1 at *
          norm_num at a1' ⊢
          linarith
        · norm_num; linarith
      · norm_num; linarith
    have hmabs : |mjd + HS| ≤ |mjd| + 1 / 1000 := by
      have : |HS| ≤ 1 / 1000 := by rw [abs_le]; constructor <;> linarith
      exact le_trans (abs_add_le _ _) (by linarith)
    have a2 := F.err_le hmabs
    have hmb : |mjd| ≤ 998000000 := by rw [abs_le]; constructor <;> linarith
    have a2c : |F.rnd (mjd + HS) - (mjd + HS)| ≤ 1 / 1000000 := by
      refine le_trans a2 ?_
      norm_num; linarith
    have habs : 0 ≤ |mjd| := abs_nonneg _
    by_cases hc : DJ1 ≥ mjd
    · rw [if_pos hc] at h
      generalize F.rnd (mjd + HS) = q at *
      rw [abs_le] at a2 a2c
      have hq : |q - 1 / 2| ≤ |mjd| + 51 / 100 := by
        have : q - 1 / 2 = (q - (mjd + HS)) + (mjd + (HS - 1 / 2)) := by ring
        rw [this]
        refine le_trans (abs_add_le _ _) ?_
        have h1 : |q - (mjd + HS)| ≤ 1 / 1000000 := by rw [abs_le]; exact a2c
        have h2 : |mjd + (HS - 1 / 2)| ≤ |mjd| + 1 / 2 := by
          refine le_trans (abs_add_le _ _) ?_
          have : |HS - 1 / 2| ≤ 1 / 2 := by rw [abs_le]; constructor <;> linarith
          linarith
        linarith
      have a3 := F.err_le hq
      have hq2 : |F.rnd (q - 1 / 2)| ≤ 10 ^ 9 := by
        rw [abs_le] at a3 hq ⊢
        norm_num at a3 ⊢
        constructor <;> linarith
      obtain ⟨n, z, s1, s2, s3, s4⟩ := splitDay_gen_A F (q - 1 / 2) hq2
      rw [abs_le] at a3 s4
      simp only [bind, Option.bind, pure, s1, Option.some.injEq] at h
      subst h
      have hclose : |(n : ℚ) + F.rnd z - (mjd + HALF_S)| ≤ slack mjd := by
        unfold slack HALF_S
        rw [abs_le]
        norm_num at a2 a3 s4 ⊢
        constructor <;> linarith
      refine ⟨n, z, s2, s3, ?_, hclose, rfl, rfl⟩
      have hs : slack mjd ≤ 1 / 10 ^ 6 := by unfold slack; norm_num; linarith
      have hs' : mjd < -2460000 → slack mjd ≤ 1 / 10 ^ 8 := by
        intro hm
        unfold slack; rw [abs_of_neg (by linarith)]; norm_num; linarith
      rw [abs_le] at hclose
      unfold HALF_S at hclose
      have hn : (-2468571 : ℚ) < n := by
        by_cases hm : mjd < -2460000
        · have := hs' hm
          norm_num at hclose this hlow; linarith
        · norm_num at hclose hs; linarith
      have : -2468571 < n := by exact_mod_cast hn
      omega
    · rw [if_neg hc] at h
      push Not at hc
      unfold DJ1 at hc
      have e0 : F.rnd (DJ1 - 1 / 2) = 2400000 := by
        have e : DJ1 - 1 / 2 = ((2400000 : ℤ) : ℚ) := by norm_num [DJ1]
        rw [e, F.int _ (by norm_num)]; norm_num
      rw [e0] at h
      generalize F.rnd (mjd + HS) = q at *
      rw [abs_le] at a2 a2c
      obtain ⟨n, z, s1, s2, s3, s4⟩ := splitDay_gen_B F q (by linarith) (by norm_num; linarith)
      rw [abs_le] at s4
      simp only [bind, Option.bind, pure, s1, Option.some.injEq] at h
      subst h
      have hclose : |(n : ℚ) + F.rnd z - (mjd + HALF_S)| ≤ slack mjd := by
        unfold slack HALF_S
        rw [abs_le]
        norm_num at a2 s4 ⊢
        constructor <;> linarith
      refine ⟨n, z, s2, s3, ?_, hclose, rfl, rfl⟩
      have hn : (-2468571 : ℚ) < n := by
        norm_num at s4; linarith
      have : -2468571 < n := by exact_mod_cast hn
      omega

end SatSky.Dates
