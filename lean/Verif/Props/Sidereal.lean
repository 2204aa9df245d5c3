import Verif.Lemmas.Angles
import Mathlib.Tactic.NormNum

/-! Sidereal time: C39 (local), C74 (range of the Greenwich time), C75 (the two computations of the Greenwich time agree). -/

namespace SatSky.Props

open SatSky.Spec SatSky.Geo Real

/-! ### C39 -/

theorem trunc_frac (x : ℝ) : -1 < x - trunc x ∧ x - trunc x < 1 := by
  rcases le_or_gt 0 x with h | h
  · have ⟨a, b, _⟩ := trunc_pos h; constructor <;> linarith
  · have ⟨a, b, _⟩ := trunc_neg h; constructor <;> linarith

theorem splitDay_ut (jd : ℝ) : -1 / 2 < (splitDay jd).2 ∧ (splitDay jd).2 < 1 := by
  have ⟨a, b⟩ := trunc_frac jd
  unfold splitDay
  dsimp only
  split_ifs with h
  · constructor <;> (dsimp only; linarith)
  · push Not at h
    constructor <;> (dsimp only; linarith)

/-- The Greenwich time before the loop, in days. -/
noncomputable def gDay (jd : ℝ) : ℝ :=
  gmst0 (((splitDay jd).1 - JD2000) / 36525) / 86400 - trunc (gmst0 (((splitDay jd).1 - JD2000) / 36525) / 86400)
    + 100273790934 / 10 ^ 11 * (splitDay jd).2

theorem gDay_range (jd : ℝ) : -2 < gDay jd ∧ gDay jd < 21 / 10 := by
  have ⟨a, b⟩ := splitDay_ut jd
  have ⟨c, d⟩ := trunc_frac (gmst0 (((splitDay jd).1 - JD2000) / 36525) / 86400)
  unfold gDay
  constructor
  · have : -1 < (100273790934 / 10 ^ 11 : ℝ) * (splitDay jd).2 := by nlinarith
    linarith
  · have : (100273790934 / 10 ^ 11 : ℝ) * (splitDay jd).2 < 11 / 10 := by nlinarith
    linarith

theorem below24_some {g : ℝ} {n : ℕ} (hn : 2 ≤ n) (h : g < 504 / 10) :
    ∃ g', below24 n g = some g' ∧ g' ≤ 24 ∧ Turns 24 g' g ∧ (0 ≤ g → 0 ≤ g') := by
  obtain ⟨m, rfl⟩ := Nat.exists_eq_add_of_le' hn
  by_cases h1 : g > 24
  · by_cases h2 : g - 24 > 24
    · refine ⟨g - 24 - 24, ?_, by linarith, ⟨-2, by push_cast; ring⟩, fun _ => by linarith⟩
      have h3 : ¬ g - 24 - 24 > 24 := by linarith
      show below24 (m + 1 + 1) g = _
      rw [below24, if_pos h1, below24, if_pos h2]
      cases m with
      | zero => rw [below24, if_neg h3]
      | succ m => rw [below24, if_neg h3]
    · refine ⟨g - 24, ?_, by linarith, ⟨-1, by push_cast; ring⟩, fun _ => by linarith⟩
      show below24 (m + 1 + 1) g = _
      rw [below24, if_pos h1, below24, if_neg h2]
  · refine ⟨g, ?_, by linarith, ⟨0, by push_cast; ring⟩, id⟩
    show below24 (m + 1 + 1) g = _
    rw [below24, if_neg h1]

theorem lmst_hr_eq (n : ℕ) (jd lon : ℝ) :
    lmst_hr n jd lon = (below24 n (gDay jd * 24)).bind fun g =>
      some (let s := (gDay jd + lon / 360 - trunc (gDay jd + lon / 360)) * 24; if s < 0 then s + 24 else s, g) := by
  unfold lmst_hr gDay
  rfl

/-- C39: the loop of `lmst_hr` ends after at most two passes. -/
theorem C39_ends (n : ℕ) (hn : 2 ≤ n) (jd lon : ℝ) : ∃ r, lmst_hr n jd lon = some r := by
  obtain ⟨g, hg, _⟩ := below24_some (g := gDay jd * 24) hn (by linarith [(gDay_range jd).2])
  exact ⟨_, by rw [lmst_hr_eq, hg]; rfl⟩

theorem lmst_hr_some {n : ℕ} {jd lon l g : ℝ} (h : lmst_hr n jd lon = some (l, g)) :
    below24 n (gDay jd * 24) = some g ∧
      l = let s := (gDay jd + lon / 360 - trunc (gDay jd + lon / 360)) * 24; if s < 0 then s + 24 else s := by
  rw [lmst_hr_eq] at h
  obtain ⟨g', hg, h⟩ := Option.bind_eq_some_iff.mp h
  simp only [Option.some.injEq, Prod.mk.injEq] at h
  obtain ⟨h1, rfl⟩ := h
  exact ⟨hg, h1.symm⟩

theorem below24_turns {n : ℕ} {g g' : ℝ} (h : below24 n g = some g') : Turns 24 g' g ∧ g' ≤ 24 ∧ (0 ≤ g → 0 ≤ g') := by
  induction n generalizing g with
  | zero =>
    rw [below24] at h
    split_ifs at h with h1
    simp only [Option.some.injEq] at h
    subst h
    exact ⟨turns_refl _ _, not_lt.mp h1, id⟩
  | succ n ih =>
    rw [below24] at h
    split_ifs at h with h1
    · obtain ⟨a, b, c⟩ := ih h
      exact ⟨a.trans (turns_sub _ _), b, fun _ => c (by linarith)⟩
    · simp only [Option.some.injEq] at h
      subst h
      exact ⟨turns_refl _ _, not_lt.mp h1, id⟩

/-- C39: the local sidereal time is in `[0, 24)` and is the Greenwich time plus the longitude (degrees, 15 per hour), up to whole
days; for all dates and longitudes. -/
theorem C39_local {n : ℕ} {jd lon l g : ℝ} (h : lmst_hr n jd lon = some (l, g)) :
    0 ≤ l ∧ l < 24 ∧ Turns 24 l (g + lon / 15) := by
  obtain ⟨hg, hl⟩ := lmst_hr_some h
  obtain ⟨k, hk⟩ := (below24_turns hg).1
  have ⟨a, b⟩ := trunc_frac (gDay jd + lon / 360)
  dsimp only at hl
  generalize ht : trunc (gDay jd + lon / 360) = m at *
  split_ifs at hl with hs
  · exact ⟨by linarith, by linarith, 1 - m - k, by rw [hl, hk]; push_cast; ring⟩
  · exact ⟨by linarith, by linarith, -m - k, by rw [hl, hk]; push_cast; ring⟩

/-! ### C74 -/

/-- C74: the Greenwich time never exceeds 24, and is not negative from 22 September 1999 (and up to the Julian date 10⁹).
Missing: earlier dates, for which it can be negative (see `C74_violated`), and that 24 itself is not returned. -/
theorem C74_partial {n : ℕ} {jd lon l g : ℝ} (h : lmst_hr n jd lon = some (l, g)) :
    g ≤ 24 ∧ (2451444 ≤ jd → jd ≤ 10 ^ 9 → 0 ≤ g) := by
  obtain ⟨hg, _⟩ := lmst_hr_some h
  obtain ⟨_, h1, h2⟩ := below24_turns hg
  refine ⟨h1, fun hjd hjd2 => h2 ?_⟩
  have hj0 : (0 : ℝ) ≤ jd := by linarith
  have ⟨a, b, c⟩ := trunc_pos hj0
  -- the day
  have hi : (2451444 : ℤ) ≤ trunc jd := by
    have : (2451443 : ℝ) < trunc jd := by linarith
    have : (2451443 : ℤ) < trunc jd := by exact_mod_cast this
    omega
  have hi' : (2451444 : ℝ) ≤ trunc jd := by exact_mod_cast hi
  have hs : 2451443.5 ≤ (splitDay jd).1 ∧ 0 ≤ (splitDay jd).2 ∧ (splitDay jd).1 ≤ 10 ^ 9 + 1 := by
    unfold splitDay
    dsimp only
    split_ifs with hc
    · refine ⟨?_, ?_, ?_⟩ <;> (dsimp only; linarith)
    · push Not at hc
      refine ⟨?_, ?_, ?_⟩ <;> (dsimp only; linarith)
  have hge : 0 ≤ gmst0 (((splitDay jd).1 - JD2000) / 36525) := by
    have ht : (-101.5 / 36525 : ℝ) ≤ ((splitDay jd).1 - JD2000) / 36525 := by
      apply div_le_div_of_nonneg_right _ (by norm_num)
      unfold JD2000; linarith [hs.1]
    have ht2 : ((splitDay jd).1 - JD2000) / 36525 ≤ 10 ^ 5 := by
      rw [div_le_iff₀ (by norm_num)]
      unfold JD2000; linarith [hs.2.2]
    generalize ((splitDay jd).1 - JD2000) / 36525 = t at ht ht2
    have h3 : 93104 / 1000000 - t * (62 / 10000000 : ℝ) ≥ -1 := by linarith
    have h4 : 93104 / 1000000 - t * (62 / 10000000 : ℝ) ≤ 1 := by linarith
    unfold gmst0
    rcases le_or_gt 0 t with h | h
    · have : 0 ≤ 8640184812866 / 1000000 + t * (93104 / 1000000 - t * (62 / 10000000 : ℝ)) := by nlinarith
      have := mul_nonneg h this
      linarith
    · have h5 : 8640184812866 / 1000000 + t * (93104 / 1000000 - t * (62 / 10000000 : ℝ)) ≤ 8640185 := by nlinarith
      nlinarith
  have hf := trunc_pos (div_nonneg hge (by norm_num : (0 : ℝ) ≤ 86400))
  have hg0 : 0 ≤ gDay jd := by
    unfold gDay
    have : 0 ≤ (100273790934 / 10 ^ 11 : ℝ) * (splitDay jd).2 := mul_nonneg (by norm_num) hs.2.1
    linarith [hf.1]
  linarith

/-- C74 is violated: on 20 September 1999, 0h UT, the Greenwich time is negative. -/
theorem C74_violated (lon : ℝ) : ∃ l g, lmst_hr 2 2451442.5 lon = some (l, g) ∧ g < 0 := by
  have ht : trunc 2451442.5 = 2451442 := by
    unfold trunc
    rw [if_pos (by norm_num), Int.floor_eq_iff]
    constructor <;> norm_num
  have hs : splitDay 2451442.5 = (2451442.5, 0) := by
    unfold splitDay
    rw [ht]
    dsimp only
    rw [if_neg (by norm_num)]
    norm_num
  have hg : gmst0 ((2451442.5 - JD2000) / 36525) < 0 ∧ -86400 < gmst0 ((2451442.5 - JD2000) / 36525) := by
    unfold gmst0 JD2000
    norm_num
  have htz : trunc (gmst0 ((2451442.5 - JD2000) / 36525) / 86400) = 0 := by
    unfold trunc
    rw [if_neg (by rw [not_le]; linarith [hg.1]), Int.ceil_eq_zero_iff]
    constructor
    · rw [lt_div_iff₀ (by norm_num)]; linarith [hg.2]
    · linarith [hg.1]
  have hd : gDay 2451442.5 < 0 := by
    unfold gDay
    rw [hs]
    dsimp only
    rw [htz]
    push_cast
    linarith [hg.1]
  have hb : below24 2 (gDay 2451442.5 * 24) = some (gDay 2451442.5 * 24) := by
    rw [below24, if_neg (by linarith)]
  refine ⟨_, gDay 2451442.5 * 24, by rw [lmst_hr_eq, hb]; rfl, by linarith⟩

/-- A date of today: both values are in range. -/
example (lon : ℝ) : ∃ l g, lmst_hr 2 2460000 lon = some (l, g) ∧ 0 ≤ l ∧ l < 24 ∧ 0 ≤ g ∧ g ≤ 24 := by
  obtain ⟨⟨l, g⟩, h⟩ := C39_ends 2 (le_refl _) 2460000 lon
  have h1 := C39_local h
  have h2 := C74_partial h
  exact ⟨l, g, h, h1.1, h1.2.1, h2.2 (by norm_num) (by norm_num), h2.1⟩

/-! ### C75 -/

theorem splitDay_eq {jd : ℝ} (h : 0 ≤ jd) :
    (splitDay jd).2 = fmod (jd + 1 / 2) 1 ∧ (splitDay jd).1 = jd - fmod (jd + 1 / 2) 1 := by
  have ⟨a, b, _⟩ := trunc_pos h
  have ha : trunc jd = ⌊jd⌋ := if_pos h
  have hf : fmod (jd + 1 / 2) 1 = jd + 1 / 2 - ⌊jd + 1 / 2⌋ := by
    unfold fmod trunc
    rw [div_one, if_pos (by linarith), one_mul]
  unfold splitDay
  dsimp only
  split_ifs with hc
  · have : ⌊jd + 1 / 2⌋ = trunc jd := by
      rw [Int.floor_eq_iff]
      constructor <;> linarith
    rw [hf, this]
    constructor <;> (dsimp only; ring)
  · push Not at hc
    have : ⌊jd + 1 / 2⌋ = trunc jd + 1 := by
      rw [Int.floor_eq_iff]
      push_cast
      constructor <;> linarith
    rw [hf, this]
    push_cast
    constructor <;> ring

/-- C75: the Greenwich sidereal time of `lmst_hr` (hours; used for the target and the sub-satellite point) and that of `ThetaG`
(radians; used for the observer) are the same angle, for all Julian dates from 0. -/
theorem C75_agree {n : ℕ} {jd lon l g : ℝ} (hjd : 0 ≤ jd) (h : lmst_hr n jd lon = some (l, g)) :
    Turns (2 * π) (g * (π / 12)) (ThetaG jd) := by
  obtain ⟨hg, _⟩ := lmst_hr_some h
  obtain ⟨k, hk⟩ := (below24_turns hg).1
  obtain ⟨e1, e2⟩ := splitDay_eq hjd
  have hT : ∃ m : ℤ, ThetaG jd = 2 * π * (gmst0 ((jd - fmod (jd + 1 / 2) 1 - JD2000) / 36525)
      + 86400 * (100273790934 / 10 ^ 11) * fmod (jd + 1 / 2) 1 + 86400 * m) / 86400 := by
    obtain ⟨m, hm⟩ := fmod_turns (gmst0 ((jd - fmod (jd + 1 / 2) 1 - JD2000) / 36525)
      + 86400 * (100273790934 / 10 ^ 11) * fmod (jd + 1 / 2) 1) 86400
    unfold ThetaG
    dsimp only
    split_ifs with hc
    · exact ⟨m + 1, by rw [hm]; push_cast; ring⟩
    · exact ⟨m, by rw [hm]⟩
  obtain ⟨m, hm⟩ := hT
  have hgd : gDay jd = gmst0 ((jd - fmod (jd + 1 / 2) 1 - JD2000) / 36525) / 86400
      - trunc (gmst0 ((jd - fmod (jd + 1 / 2) 1 - JD2000) / 36525) / 86400)
      + 100273790934 / 10 ^ 11 * fmod (jd + 1 / 2) 1 := by
    unfold gDay
    rw [e1, e2]
  generalize trunc (gmst0 ((jd - fmod (jd + 1 / 2) 1 - JD2000) / 36525) / 86400) = q at hgd
  refine ⟨k - q - m, ?_⟩
  rw [hk, hm, hgd]
  push_cast
  ring

/-- Noon of 1 January 2000: half a day after the preceding midnight. -/
example : splitDay 2451545 = (2451544.5, 1 / 2) ∧ fmod (2451545 + 1 / 2) 1 = 1 / 2 := by
  have h1 : trunc 2451545 = 2451545 := by
    unfold trunc
    rw [if_pos (by norm_num), Int.floor_eq_iff]
    constructor <;> norm_num
  have h2 : trunc ((2451545 + 1 / 2) / 1) = 2451545 := by
    unfold trunc
    rw [if_pos (by norm_num), Int.floor_eq_iff]
    constructor <;> norm_num
  unfold splitDay fmod
  rw [h1, h2]
  norm_num

end SatSky.Props
