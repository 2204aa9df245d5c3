import Verif.Lemmas.Angles
import Verif.Model.AngleDouble
import Mathlib.Analysis.Real.Pi.Bounds
import Mathlib.Tactic.NormNum

/-! Angle normalisation (C40). -/

namespace SatSky.Props

open SatSky SatSky.Spec SatSky.Geo Real

/-- C40: `FMod2p` keeps the angle and gives a value in `[0, 2π)`. -/
theorem C40_FMod2p (x : ℝ) : 0 ≤ FMod2p x ∧ FMod2p x < 2 * π ∧ Turns (2 * π) (FMod2p x) x := by
  have hp : 0 < 2 * π := by linarith [pi_pos]
  unfold FMod2p
  dsimp only
  rcases le_or_gt 0 x with h | h
  · have ⟨a, b⟩ := fmod_nonneg hp h
    rw [if_neg (not_lt.mpr a)]
    exact ⟨a, b, fmod_turns x _⟩
  · have ⟨a, b⟩ := fmod_neg hp h
    split_ifs with hc
    · exact ⟨by linarith, by linarith, (turns_add _ _).trans (fmod_turns x _)⟩
    · exact ⟨by linarith, by linarith, fmod_turns x _⟩

/-- C40: `centralize_angle` keeps the angle and gives a value in `[-π, π]`. -/
theorem C40_centralize (x : ℝ) :
    -π ≤ centralize_angle x ∧ centralize_angle x ≤ π ∧ Turns (2 * π) (centralize_angle x) x := by
  have hp : 0 < 2 * π := by linarith [pi_pos]
  have hr : -(2 * π) < fmod x (2 * π) ∧ fmod x (2 * π) < 2 * π := by
    rcases le_or_gt 0 x with h | h
    · have ⟨a, b⟩ := fmod_nonneg hp h; constructor <;> linarith
    · have ⟨a, b⟩ := fmod_neg hp h; constructor <;> linarith
  unfold centralize_angle
  dsimp only
  split_ifs with h1 h2
  · exact ⟨by linarith, by linarith, (turns_sub _ _).trans (fmod_turns x _)⟩
  · exact ⟨by linarith, by linarith, (turns_add _ _).trans (fmod_turns x _)⟩
  · exact ⟨by linarith, by linarith, fmod_turns x _⟩

theorem arctan_polar {x y : ℝ} (hx : x ≠ 0) :
    |x| * (1 / sqrt (x * x + y * y)) = cos (arctan (y / x)) ∧
    y / x * |x| * (1 / sqrt (x * x + y * y)) = sin (arctan (y / x)) := by
  have hs : sqrt (1 + (y / x) ^ 2) = sqrt (x * x + y * y) / |x| := by
    rw [show 1 + (y / x) ^ 2 = (x * x + y * y) / (x * x) by field_simp, sqrt_div (by nlinarith [mul_self_nonneg x, mul_self_nonneg y]),
      sqrt_mul_self_eq_abs]
  have hp : 0 < x * x + y * y := by nlinarith [mul_self_pos.mpr hx, mul_self_nonneg y]
  have hq := sqrt_pos.mpr hp
  have ha := abs_pos.mpr hx
  rw [cos_arctan, sin_arctan, hs]
  constructor <;> field_simp

/-- C40: `atan_circ` gives the polar angle of the point `(x, y)`, in `[0, 2π)`. -/
theorem C40_atan_circ (x y : ℝ) :
    0 ≤ atan_circ x y ∧ atan_circ x y < 2 * π ∧
      sqrt (x * x + y * y) * cos (atan_circ x y) = x ∧ sqrt (x * x + y * y) * sin (atan_circ x y) = y := by
  have hp := pi_pos
  by_cases hx : x = 0
  · subst hx
    unfold atan_circ
    simp only [lt_irrefl, if_true, if_false, mul_zero, zero_add]
    rcases lt_trichotomy y 0 with hy | hy | hy
    · have n1 : ¬ y > 0 := by linarith
      have n2 : ¬ 3 * (π / 2) < 0 := by linarith
      simp only [if_neg n1, if_pos hy, if_neg n2]
      have hs : sqrt (y * y) = -y := by rw [sqrt_mul_self_eq_abs, abs_of_neg hy]
      rw [show 3 * (π / 2) = π / 2 + π by ring, cos_add_pi, sin_add_pi, hs]
      simp
      constructor <;> linarith
    · subst hy
      simp [hp]
    · have n2 : ¬ π / 2 < 0 := by linarith
      simp only [gt_iff_lt, if_pos hy, if_neg n2]
      rw [sqrt_mul_self hy.le]
      simp
      constructor <;> linarith
  · have hpos : 0 < x * x + y * y := by nlinarith [mul_self_pos.mpr hx, mul_self_nonneg y]
    have hq := sqrt_pos.mpr hpos
    obtain ⟨hc, hs⟩ := arctan_polar (y := y) hx
    have r1 := neg_pi_div_two_lt_arctan (y / x)
    have r2 := arctan_lt_pi_div_two (y / x)
    unfold atan_circ
    simp only [if_neg hx]
    rcases lt_or_gt_of_ne hx with hn | hn
    · rw [if_pos hn, if_neg (by linarith), cos_add_pi, sin_add_pi, ← hc, ← hs, abs_of_neg hn]
      refine ⟨by linarith, by linarith, ?_, ?_⟩ <;> field_simp
    · rw [if_neg (not_lt.mpr hn.le)]
      split_ifs with h0
      · rw [cos_add_two_pi, sin_add_two_pi, ← hc, ← hs, abs_of_pos hn]
        refine ⟨by linarith, by linarith, ?_, ?_⟩ <;> field_simp
      · rw [← hc, ← hs, abs_of_pos hn]
        refine ⟨by linarith, by linarith, ?_, ?_⟩ <;> field_simp

/-- Values in the other quadrants. -/
example : atan_circ (-1) 0 = π := by simp [atan_circ, pi_pos.le]
example : atan_circ 0 (-1) = 3 * (π / 2) := by
  have := pi_pos
  have n1 : ¬ (-1 : ℝ) > 0 := by norm_num
  have n2 : ¬ 3 * (π / 2) < 0 := by linarith
  have n3 : (-1 : ℝ) < 0 := by norm_num
  simp only [atan_circ, if_true, if_neg n1, if_pos n3, if_neg n2, lt_irrefl, if_false]
example : FMod2p (-(π / 2)) = 3 * (π / 2) := by
  have hp := pi_pos
  have e : -(π / 2) / (2 * π) = -1 / 4 := by field_simp; norm_num
  have t : trunc (-1 / 4) = 0 := by
    unfold trunc
    rw [if_neg (by norm_num), Int.ceil_eq_zero_iff]
    constructor <;> norm_num
  unfold FMod2p fmod
  rw [e, t]
  push_cast
  rw [if_pos (by linarith)]
  ring
example : centralize_angle (3 * (π / 2)) = -(π / 2) := by
  have hp := pi_pos
  have e : 3 * (π / 2) / (2 * π) = 3 / 4 := by field_simp; norm_num
  have t : trunc (3 / 4) = 0 := by
    unfold trunc
    rw [if_pos (by norm_num), Int.floor_eq_zero_iff]
    constructor <;> norm_num
  unfold centralize_angle fmod
  rw [e, t]
  push_cast
  rw [if_pos (by linarith)]
  ring

/-! ### C71: the same function in `double` arithmetic -/

/-- C71 is violated at the upper end: for `x = -2⁻⁶⁰` the result is `twopi` itself, not a value below it. -/
theorem C71_violated : FMod2pD Fl64.ieee (-1 / 2 ^ 60) = 884279719003555 / 2 ^ 47 := by decide +kernel

/-- C71 with the upper end included: the result is in `[0, twopi]` and is the angle up to whole turns (of the `double` `twopi`)
and an error of at most `2⁻⁵⁰`.  Missing: that the result is below `twopi`. -/
theorem C71_partial (F : Fl64) (x : ℚ) :
    0 ≤ FMod2pD F x ∧ FMod2pD F x ≤ 884279719003555 / 2 ^ 47 ∧
      ∃ k : ℤ, |FMod2pD F x - (x + 884279719003555 / 2 ^ 47 * k)| ≤ 1 / 2 ^ 50 := by
  have ht : (0 : ℚ) < 884279719003555 / 2 ^ 47 := by norm_num
  have hex : F.rnd (884279719003555 / 2 ^ 47) = 884279719003555 / 2 ^ 47 := by
    have := F.exact 884279719003555 47 (by norm_num) (by norm_num)
    push_cast at this
    exact this
  have hz : F.rnd 0 = 0 := by
    have := F.exact 0 0 (by norm_num) (by norm_num)
    simpa using this
  unfold FMod2pD
  dsimp only
  have e : x = 884279719003555 / 2 ^ 47 * (x / (884279719003555 / 2 ^ 47)) := by field_simp
  by_cases hx : 0 ≤ x / (884279719003555 / 2 ^ 47)
  · have h1 := Int.floor_le (x / (884279719003555 / 2 ^ 47))
    have h2 := Int.lt_floor_add_one (x / (884279719003555 / 2 ^ 47))
    have et : truncQ (x / (884279719003555 / 2 ^ 47)) = ⌊x / (884279719003555 / 2 ^ 47)⌋ := if_pos hx
    rw [et]
    rw [if_neg (by rw [not_lt]; nlinarith)]
    refine ⟨by nlinarith, by nlinarith, -⌊x / (884279719003555 / 2 ^ 47)⌋, ?_⟩
    push_cast
    rw [show x - 884279719003555 / 2 ^ 47 * (⌊x / (884279719003555 / 2 ^ 47)⌋ : ℚ)
      - (x + 884279719003555 / 2 ^ 47 * -(⌊x / (884279719003555 / 2 ^ 47)⌋ : ℚ)) = 0 by ring]
    norm_num
  · have h1 := Int.le_ceil (x / (884279719003555 / 2 ^ 47))
    have h2 := Int.ceil_lt_add_one (x / (884279719003555 / 2 ^ 47))
    have et : truncQ (x / (884279719003555 / 2 ^ 47)) = ⌈x / (884279719003555 / 2 ^ 47)⌉ := if_neg hx
    rw [et]
    generalize hc : (⌈x / (884279719003555 / 2 ^ 47)⌉ : ℤ) = c at *
    split_ifs with h0
    · have hb : 0 ≤ x - 884279719003555 / 2 ^ 47 * (c : ℚ) + 884279719003555 / 2 ^ 47 := by nlinarith
      have hb2 : x - 884279719003555 / 2 ^ 47 * (c : ℚ) + 884279719003555 / 2 ^ 47 ≤ 884279719003555 / 2 ^ 47 := by linarith
      refine ⟨?_, ?_, 1 - c, ?_⟩
      · have := F.mono _ _ hb
        rwa [hz] at this
      · have := F.mono _ _ hb2
        rwa [hex] at this
      · have he := F.err (x - 884279719003555 / 2 ^ 47 * (c : ℚ) + 884279719003555 / 2 ^ 47)
        rw [abs_of_nonneg hb] at he
        push_cast
        rw [show x + 884279719003555 / 2 ^ 47 * (1 - (c : ℚ))
          = x - 884279719003555 / 2 ^ 47 * (c : ℚ) + 884279719003555 / 2 ^ 47 by ring]
        refine le_trans he ?_
        have : (884279719003555 / 2 ^ 47 : ℚ) / 2 ^ 53 + 1 / 2 ^ 200 ≤ 1 / 2 ^ 50 := by norm_num
        refine le_trans ?_ this
        gcongr
    · refine ⟨by linarith, by nlinarith, -c, ?_⟩
      push_cast
      rw [show x - 884279719003555 / 2 ^ 47 * (c : ℚ) - (x + 884279719003555 / 2 ^ 47 * -(c : ℚ)) = 0 by ring]
      norm_num

example : FMod2pD Fl64.ieee 7 = 7 - 884279719003555 / 2 ^ 47 := by decide +kernel

end SatSky.Props
