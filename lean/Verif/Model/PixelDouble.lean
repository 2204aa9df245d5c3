import Verif.Model.SepDouble
import Verif.Model.HealpixAng

/-! The HEALPix pixel of the printed direction in `double` arithmetic. -/

namespace SatSky

/-- Rounding to `double` whose results of size at least `2^j` are multiples of `2^(j-52)` (`Fl64` says so for small results only). -/
structure Fl64G extends Fl64 where
  coarse : ∀ (x : ℚ) (j : ℕ), 2 ^ j ≤ |rnd x| → ∃ k : ℤ, rnd x = k * 2 ^ j / 2 ^ 52

theorem rndBits_coarse (q : ℕ) (x : ℚ) (j : ℕ) (h : 2 ^ j ≤ |rndBits (q + 1) x|) : ∃ k : ℤ, rndBits (q + 1) x = k * 2 ^ j / 2 ^ q := by
  by_cases hx : x = 0
  · subst hx; exact ⟨0, by simp [rndBits_zero]⟩
  set e := Int.log 2 |x| with he
  have hr : rndBits (q + 1) x = (roundEven (x / (2 : ℚ) ^ (e - ((q + 1 : ℕ) : ℤ) + 1)) : ℤ) *
    (2 : ℚ) ^ (e - ((q + 1 : ℕ) : ℤ) + 1) := rfl
  by_cases hc : (j : ℤ) ≤ e
  · obtain ⟨t, ht⟩ : ∃ t : ℕ, (t : ℤ) = e - j := ⟨(e - j).toNat, by omega⟩
    refine ⟨roundEven (x / (2 : ℚ) ^ (e - ((q + 1 : ℕ) : ℤ) + 1)) * 2 ^ t, ?_⟩
    rw [hr]
    have : e - ((q + 1 : ℕ) : ℤ) + 1 = ((t + j : ℕ) : ℤ) - ((q : ℕ) : ℤ) := by push_cast; omega
    rw [this, zpow_sub₀ (by norm_num)]
    simp only [zpow_natCast]
    push_cast
    rw [pow_add]
    ring
  · have he1 : (2 : ℚ) ^ (e + 1) ≤ 2 ^ j := by
      have : (2 : ℚ) ^ (e + 1) ≤ 2 ^ (j : ℤ) := zpow_le_zpow_right₀ (by norm_num) (by omega)
      rwa [zpow_natCast] at this
    have hpow : (2 : ℚ) ^ j = (2 ^ q : ℤ) * 2 ^ j / 2 ^ q := by
      push_cast; field_simp
    rcases lt_or_gt_of_ne hx with hn | hp
    · have b := rndBits_neg_bounds (q + 1) (by omega) x hn
      have neg : rndBits (q + 1) x < 0 := by
        have : (0 : ℚ) < 2 ^ Int.log 2 |x| := zpow_pos (by norm_num) _
        linarith [b.1]
      rw [abs_of_neg neg] at h
      refine ⟨-2 ^ q, ?_⟩
      have : rndBits (q + 1) x = -(2 ^ j) := by linarith [b.2]
      rw [this]
      push_cast
      field_simp
    · have b := rndBits_pos_bounds (q + 1) (by omega) x hp
      have pos : 0 < rndBits (q + 1) x := by
        have : (0 : ℚ) < 2 ^ Int.log 2 |x| := zpow_pos (by norm_num) _
        linarith [b.1]
      rw [abs_of_pos pos] at h
      refine ⟨2 ^ q, ?_⟩
      have : rndBits (q + 1) x = 2 ^ j := by linarith [b.2]
      exact this.trans hpow

/-- Rounding to nearest is an instance. -/
def Fl64G.ieee : Fl64G where
  toFl64 := Fl64.ieee
  coarse x j h := rndBits_coarse 52 x j h

namespace Geo

/-- `sat_skymap.c` 572, 881-882 with `chealpix.c` 423-427 in `double`: the NESTED pixel of order 8; `none` if `theta` is out of range. -/
def pixelD (F : Fl64) (M : Libm) (ra dec : ℚ) : Option ℤ :=
  let theta := F.rnd (piD / 2 - dec)
  if 0 ≤ theta ∧ theta ≤ piD then Healpix.ang2pixNest (Healpix.double F M.sqrt) (2 ^ 8) (M.cos theta) ra else none

end Geo
end SatSky
