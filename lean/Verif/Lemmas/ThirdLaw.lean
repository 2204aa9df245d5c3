import Mathlib.Data.Real.Basic
import Mathlib.Algebra.Order.Archimedean.Real.Basic
import Mathlib.Tactic.NormNum
import Mathlib.Tactic.Positivity
import Mathlib.Tactic.Linarith
import Mathlib.Tactic.Ring

/-! A polynomial inequality: the recovery of the mean motion satisfies Kepler's third law up to the fourth power of the correction. -/

namespace SatSky.Third

/-- Horner evaluation. -/
def horner (l : List ℚ) (x : ℝ) : ℝ := l.foldr (fun (q : ℚ) (s : ℝ) => (q : ℝ) + x * s) 0

/-- The bound of `horner` for `|x| ≤ 1/20`. -/
def bnd (l : List ℚ) : ℚ := l.foldr (fun q s => |q| + s / 20) 0

theorem horner_le {x : ℝ} (hx : |x| ≤ 1 / 20) : ∀ l, |horner l x| ≤ (bnd l : ℝ)
  | [] => by simp [horner, bnd]
  | q :: l => by
    have ih := horner_le hx l
    have e1 : horner (q :: l) x = q + x * horner l x := rfl
    have e2 : bnd (q :: l) = |q| + bnd l / 20 := rfl
    rw [e1, e2]
    push_cast
    have h1 : |x * horner l x| ≤ (bnd l : ℝ) / 20 := by
      rw [abs_mul]
      have := mul_le_mul hx ih (abs_nonneg _) (by norm_num)
      linarith
    exact le_trans (abs_add_le _ _) (by linarith)

/-- The quotient by the fourth power. -/
def quot : List ℚ :=
  [1349 / 81, -7222 / 243, -334316 / 2187, -57056 / 2187, 19872188 / 19683, 734498095 / 531441, -3666236479 / 1594323,
   -13970582026 / 1594323, -160867954592 / 43046721, 915688472131 / 43046721, 5039651699999 / 129140163, -1410226842700 /
   387420489, -326548421720647 / 3486784401, -128630115846265 / 1162261467, 4485013630356643 / 94143178827, 24082485379476968 /
   94143178827, 191542827664319890 / 847288609443, -1010059573288527941 / 7625597484987, -10847572532309554651 / 22876792454961,
   -24756587214133614956 / 68630377364883, 12638979813911326813 / 68630377364883, 1128787635973641184981 / 1853020188851841,
   94451156912779926575 / 205891132094649, -5506946838589706262098 / 50031545098999707, -78223999503600975580520 /
   150094635296999121, -196683447074026633967008 / 450283905890997363, -172449375804203551441040 / 4052555153018976267,
   1030716651988579217041952 / 4052555153018976267, 9764648875469114697241600 / 36472996377170786403, 35795418473951984248051456 /
   328256967394537077627, -29911860749712779296845568 / 984770902183611232881, -215207953059286369817689600 /
   2954312706550833698643, -4120350273075688005959960576 / 79766443076872509863361, -5176535512271294631013924864 /
   239299329230617529590083, -435713416233890377233584128 / 79766443076872509863361, -4491199828872408503792328704 /
   6461081889226673298932241]

theorem quot_bnd : bnd quot ≤ 19 := by decide +kernel

theorem factor (x : ℝ) : (1 - 1 / 3 * x - x ^ 2 - 134 / 81 * x ^ 3) ^ 13
    - ((1 - 1 / 3 * x - x ^ 2 - 134 / 81 * x ^ 3) ^ 2 - x) ^ 3 * ((1 - 1 / 3 * x - x ^ 2 - 134 / 81 * x ^ 3) ^ 2 + x) ^ 2
    = x ^ 4 * horner quot x := by
  simp only [horner, quot, List.foldr]
  push_cast
  ring

theorem third {x : ℝ} (hx : |x| ≤ 1 / 20) : |(1 - 1 / 3 * x - x ^ 2 - 134 / 81 * x ^ 3) ^ 13
    - ((1 - 1 / 3 * x - x ^ 2 - 134 / 81 * x ^ 3) ^ 2 - x) ^ 3 * ((1 - 1 / 3 * x - x ^ 2 - 134 / 81 * x ^ 3) ^ 2 + x) ^ 2|
    ≤ 19 * x ^ 4 := by
  rw [factor, abs_mul, abs_of_nonneg (by positivity)]
  have h := horner_le hx quot
  have h2 : (bnd quot : ℝ) ≤ 19 := by exact_mod_cast quot_bnd
  have : 0 ≤ x ^ 4 := by positivity
  nlinarith

end SatSky.Third
