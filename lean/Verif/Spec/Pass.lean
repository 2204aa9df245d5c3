import Mathlib.Logic.Function.Iterate
import Mathlib.Data.Rat.Defs

/-! What a visible pass in a sequence of sampling times is. -/

namespace SatSky.Spec

/-- The sampling times: `t0`, then each obtained from the one before. -/
def sample (next : ℚ → ℚ) (t0 : ℚ) (n : ℕ) : ℚ := next^[n] t0

/-- In the field of the given radius and in sunlight. -/
def Visible (sep : ℚ → ℚ) (lit : ℚ → Bool) (radius t : ℚ) : Prop := sep t ≤ radius ∧ lit t = true

/-- Sample `k` is the first one in the range at which `V` holds. -/
def IsFirst (T : ℕ → ℚ) (V : ℚ → Prop) (tmax : ℚ) (k : ℕ) : Prop :=
  V (T k) ∧ (∀ m ≤ k, T m ≤ tmax) ∧ ∀ m < k, ¬ V (T m)

/-- No sample of the range has `V`: the range is left after samples without `V`. -/
def NoneIn (T : ℕ → ℚ) (V : ℚ → Prop) (tmax : ℚ) : Prop :=
  ∃ n, tmax < T n ∧ ∀ m < n, T m ≤ tmax ∧ ¬ V (T m)

/-- The samples `k`, …, `e - 1` are the first uninterrupted run of samples with `V` in the range. -/
def IsPass (T : ℕ → ℚ) (V : ℚ → Prop) (tmax : ℚ) (k e : ℕ) : Prop :=
  IsFirst T V tmax k ∧ k < e ∧ (∀ m, k ≤ m → m < e → T m ≤ tmax ∧ V (T m)) ∧ ¬ (T e ≤ tmax ∧ V (T e))

/-- `j` is where the least value over `k`, …, `e - 1` is attained first. -/
def FirstMin (f : ℕ → ℚ) (k e j : ℕ) : Prop :=
  k ≤ j ∧ j < e ∧ (∀ m, k ≤ m → m < e → f j ≤ f m) ∧ ∀ m, k ≤ m → m < j → f j < f m

end SatSky.Spec
