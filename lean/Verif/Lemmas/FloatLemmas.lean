import Verif.Model.Float

/-! Consequences of the rounding properties. -/

namespace SatSky

theorem Fl64.err_le (F : Fl64) {x B : ℚ} (h : |x| ≤ B) : |F.rnd x - x| ≤ B / 2 ^ 53 + 1 / 2 ^ 200 := by
  refine le_trans (F.err x) ?_
  have : |x| / 2 ^ 53 ≤ B / 2 ^ 53 := div_le_div_of_nonneg_right h (by positivity)
  linarith

theorem Fl32.err_le (F : Fl32) {x B : ℚ} (h : |x| ≤ B) : |F.rnd x - x| ≤ B / 2 ^ 24 + 1 / 2 ^ 149 := by
  refine le_trans (F.err x) ?_
  have : |x| / 2 ^ 24 ≤ B / 2 ^ 24 := div_le_div_of_nonneg_right h (by positivity)
  linarith

theorem Fl64.int (F : Fl64) (k : ℤ) (h : |k| ≤ 2 ^ 53) : F.rnd (k : ℚ) = k := by
  have := F.exact k 0 h (by norm_num)
  simpa using this

theorem Fl64.half (F : Fl64) (k : ℤ) (h : |k| ≤ 2 ^ 53) : F.rnd ((k : ℚ) / 2) = (k : ℚ) / 2 := by
  have := F.exact k 1 h (by norm_num)
  simpa using this

theorem Fl64.zero (F : Fl64) : F.rnd 0 = 0 := by simpa using F.int 0 (by norm_num)

theorem Fl64.nonneg (F : Fl64) {x : ℚ} (h : 0 ≤ x) : 0 ≤ F.rnd x := by
  have := F.mono 0 x h
  rwa [F.zero] at this

theorem truncQ_eq {x : ℚ} {n : ℤ} (h0 : 0 ≤ x) (h1 : (n : ℚ) ≤ x) (h2 : x < n + 1) : truncQ x = n := by
  unfold truncQ
  rw [if_pos h0, Int.floor_eq_iff]
  exact ⟨h1, h2⟩

theorem truncQ_int (n : ℤ) : truncQ (n : ℚ) = n := by
  unfold truncQ; split
  · exact Int.floor_intCast n
  · exact Int.ceil_intCast n

theorem truncQ_neg_small {x : ℚ} (h0 : x < 0) (h1 : -1 < x) : truncQ x = 0 := by
  unfold truncQ
  rw [if_neg (by linarith), Int.ceil_eq_iff]
  constructor <;> push_cast <;> linarith

theorem fmod1_bounds (x : ℚ) : -1 < fmod1 x ∧ fmod1 x < 1 ∧ (0 ≤ x → 0 ≤ fmod1 x) ∧ (x < 0 → fmod1 x ≤ 0) := by
  unfold fmod1 truncQ
  by_cases h : 0 ≤ x
  · rw [if_pos h]
    have a := Int.floor_le x
    have b := Int.lt_floor_add_one x
    refine ⟨by linarith, by linarith, fun _ => by linarith, fun h' => by linarith⟩
  · rw [if_neg h]
    have a := Int.le_ceil x
    have b := Int.ceil_lt_add_one x
    refine ⟨by linarith, by linarith, fun h' => absurd h' h, fun _ => by linarith⟩

end SatSky
