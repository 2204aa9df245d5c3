import Verif.Lemmas.KeplerEq
import Verif.Spec.Orbit
import Mathlib.Analysis.Real.Pi.Bounds

/-! C48, C49, C91, C92: the codes returned by `sxpx_posn_vel` and the solution of Kepler's equation. -/

namespace SatSky.Props

open SatSky.Spec SatSky.Sxp SatSky.Kep

theorem keplerLoop_some {x y l c : ℝ} {E : ℝ} : ∀ {n : ℕ} {b : Bool} {E0 : ℝ}, keplerLoop x y l c n b E0 = some E →
    |keplerRes x y l E| < 1 / 10 ^ 12
  | 0, _, _, h => by simp [keplerLoop] at h
  | n + 1, b, E0, h => by
    unfold keplerLoop at h
    by_cases hc : |keplerRes x y l E0| < 1 / 10 ^ 12
    · rw [if_pos hc] at h
      rw [← Option.some.inj h]; exact hc
    · rw [if_neg hc] at h
      exact keplerLoop_some h

/-- **C49**: the loop makes at most ten passes (it is the structural recursion `keplerLoop` with 10), and when it does not end with the
convergence code, the residual of Kepler's equation is below 10⁻¹². -/
theorem C49_residual {x y l c E : ℝ} (h : kepler x y l c = some E) : |E - x * Real.sin E + y * Real.cos E - l| < 1 / 10 ^ 12 := by
  have := keplerLoop_some h
  unfold keplerRes at this
  rw [← abs_neg] at this
  rwa [show E - x * Real.sin E + y * Real.cos E - l = -(l - E + (x * Real.sin E - y * Real.cos E)) by ring]

/-- A circular orbit needs no correction. -/
example : kepler 0 0 1 0 = some 1 := by
  unfold kepler keplerLoop keplerRes
  rw [if_pos]
  norm_num

/-- **C91**: with the eccentricity `√(x² + y²)` below one, Kepler's equation has exactly one solution, and an accepted approximation differs
from it by less than 10⁻¹² / (1 − e). -/
theorem C91_root {x y l c E : ℝ} (h : kepler x y l c = some E) (he : x ^ 2 + y ^ 2 < 1) :
    ∃ R, KeplerEq x y l R ∧ (∀ R', KeplerEq x y l R' → R' = R) ∧ |E - R| < 1 / 10 ^ 12 / (1 - Real.sqrt (x ^ 2 + y ^ 2)) := by
  set e := Real.sqrt (x ^ 2 + y ^ 2) with hdef
  have he0 : 0 ≤ e := Real.sqrt_nonneg _
  have hsq : e ^ 2 = x ^ 2 + y ^ 2 := Real.sq_sqrt (by positivity)
  have he1 : e < 1 := by nlinarith
  obtain ⟨R, hR⟩ := root_exists l he0 he1 hsq.ge
  refine ⟨R, (keplerEq_iff x y l R).mpr hR, ?_, ?_⟩
  · intro R' h'
    have h1 := near he0 he1 hsq.ge (E := R') hR
    rw [(keplerEq_iff x y l R').mp h', abs_zero, zero_div] at h1
    exact sub_eq_zero.mp (abs_eq_zero.mp (le_antisymm h1 (abs_nonneg _)))
  · refine lt_of_le_of_lt (near he0 he1 hsq.ge hR) ?_
    exact div_lt_div_of_pos_right (keplerLoop_some h) (by linarith)

/-- The orbits that `sxpx_posn_vel` accepts: the error is at most 2 · 10⁻⁶. -/
theorem C91_accepted {x y l c E : ℝ} (h : kepler x y l c = some E) (he : x * x + y * y ≤ 1 - 1 / 10 ^ 6) :
    ∃ R, KeplerEq x y l R ∧ |E - R| < 2 / 10 ^ 6 := by
  obtain ⟨R, h1, _, h2⟩ := C91_root h (by nlinarith)
  refine ⟨R, h1, lt_of_lt_of_le h2 ?_⟩
  set e := Real.sqrt (x ^ 2 + y ^ 2) with hdef
  have he0 : 0 ≤ e := Real.sqrt_nonneg _
  have hsq : e ^ 2 = x ^ 2 + y ^ 2 := Real.sq_sqrt (by positivity)
  have : 1 / (2 * 10 ^ 6) ≤ 1 - e := by nlinarith
  have hpos : 0 < 1 - e := lt_of_lt_of_le (by norm_num) this
  rw [div_le_iff₀ hpos]
  nlinarith

theorem keplerLoop_cubic {x y l c : ℝ} (h : x ^ 2 + y ^ 2 ≤ (2 / 5) ^ 2) {n : ℕ} {E b : ℝ} (hb : b ≤ 2 / 5)
    (hE : |keplerRes x y l E| ≤ b) (hn : ∀ E', |keplerRes x y l E'| ≤ 17 / 10 * b ^ 3 → ∃ R, keplerLoop x y l c n false E' = some R) :
    ∃ R, keplerLoop x y l c (n + 1) false E = some R := by
  unfold keplerLoop
  by_cases hc : |keplerRes x y l E| < 1 / 10 ^ 12
  · rw [if_pos hc]; exact ⟨E, rfl⟩
  · rw [if_neg hc]
    apply hn
    have h1 := full_step h (l := l) (le_trans hE hb)
    have h2 : keplerStep x y l c false E
        = E + keplerRes x y l E / (1 - ec x y E + 1 / 2 * es x y E * (keplerRes x y l E / (1 - ec x y E))) := by
      unfold keplerStep
      simp only [Bool.false_eq_true, false_and, if_false]
      unfold keplerRes ec es
      ring_nf
    rw [h2]
    refine le_trans h1 ?_
    have := abs_nonneg (keplerRes x y l E)
    gcongr

theorem keplerLoop_small {x y l c : ℝ} {n : ℕ} {E : ℝ} (hE : |keplerRes x y l E| < 1 / 10 ^ 12) :
    ∃ R, keplerLoop x y l c (n + 1) false E = some R := by
  unfold keplerLoop
  rw [if_pos hE]
  exact ⟨E, rfl⟩

/-- From a residual of at most 0.4 five passes without limited step are enough. -/
theorem keplerLoop_five {x y l c : ℝ} (h : x ^ 2 + y ^ 2 ≤ (2 / 5) ^ 2) (n : ℕ) {E : ℝ} (hE : |keplerRes x y l E| ≤ 2 / 5) :
    ∃ R, keplerLoop x y l c (n + 5) false E = some R := by
  refine keplerLoop_cubic h le_rfl hE fun E1 h1 => ?_
  have g1 : |keplerRes x y l E1| ≤ 11 / 100 := le_trans h1 (by norm_num)
  refine keplerLoop_cubic h (by norm_num) g1 fun E2 h2 => ?_
  have g2 : |keplerRes x y l E2| ≤ 23 / 10000 := le_trans h2 (by norm_num)
  refine keplerLoop_cubic h (by norm_num) g2 fun E3 h3 => ?_
  have g3 : |keplerRes x y l E3| ≤ 3 / 10 ^ 8 := le_trans h3 (by norm_num)
  refine keplerLoop_cubic h (by norm_num) g3 fun E4 h4 => ?_
  exact keplerLoop_small (lt_of_le_of_lt h4 (by norm_num))

/-- **C92**: for eccentricities up to 0.4 Kepler's equation is always solved, whatever limit the first step has; six of the ten passes are
enough. -/
theorem C92_converges (x y l c : ℝ) (h : x ^ 2 + y ^ 2 ≤ (2 / 5) ^ 2) :
    (∃ E, kepler x y l c = some E) ∧ ∃ E, keplerLoop x y l c 6 true l = some E := by
  have key : ∀ n, ∃ E, keplerLoop x y l c (n + 6) true l = some E := by
    intro n
    rw [show n + 6 = (n + 5) + 1 by ring]
    unfold keplerLoop
    by_cases hc : |keplerRes x y l l| < 1 / 10 ^ 12
    · rw [if_pos hc]; exact ⟨l, rfl⟩
    · rw [if_neg hc]
      apply keplerLoop_five h
      have hf : |keplerRes x y l l| ≤ 2 / 5 := by
        rw [res_eq, sub_self, zero_add]
        exact abs_es (by norm_num) h l
      have hp : 0 < 1 - ec x y l := by
        have := (abs_le.mp (abs_ec (by norm_num) h l)).2
        linarith
      have hm : 0 ≤ 5 / 4 * |c| := by positivity
      unfold keplerStep
      simp only [true_and]
      rw [show l - l + (x * Real.sin l - y * Real.cos l) = keplerRes x y l l from rfl, show x * Real.sin l - y * Real.cos l = es x y l from rfl,
        show x * Real.cos l + y * Real.sin l = ec x y l from rfl]
      split_ifs with h1 h2
      · have hd : 0 < keplerRes x y l l / (1 - ec x y l) := lt_of_le_of_lt hm h1
        have := short_step h (l := l) (E := l) (t := (5 / 4 * |c|) / (keplerRes x y l l / (1 - ec x y l))) hf (by positivity)
          (by rw [div_le_one hd]; exact h1.le)
        rwa [div_mul_cancel₀ _ hd.ne'] at this
      · have hd : keplerRes x y l l / (1 - ec x y l) < 0 := by linarith
        have := short_step h (l := l) (E := l) (t := (-(5 / 4 * |c|)) / (keplerRes x y l l / (1 - ec x y l))) hf
          (div_nonneg_of_nonpos (by linarith) hd.le) (by rw [div_le_one_of_neg hd]; exact h2.le)
        rwa [div_mul_cancel₀ _ hd.ne] at this
      · refine le_trans (full_step h hf) ?_
        have h0 := abs_nonneg (keplerRes x y l l)
        calc 17 / 10 * |keplerRes x y l l| ^ 3 ≤ 17 / 10 * (2 / 5) ^ 3 := by gcongr
          _ ≤ 2 / 5 := by norm_num
  exact ⟨key 4, key 0⟩

/-- So an orbit of such an eccentricity never gets the convergence code. -/
theorem C92_code (m : Mean) (h : m.axn ^ 2 + m.ayn ^ 2 ≤ (2 / 5) ^ 2) : (sxpx_posn_vel m).1 ≠ -6 := by
  obtain ⟨E, hE⟩ := (C92_converges m.axn m.ayn m.capu m.ecc h).1
  unfold sxpx_posn_vel
  dsimp only
  rw [hE]
  split_ifs <;> simp

/-- The theorem speaks of orbits that are not circular. -/
example : ∃ E, kepler (2 / 5) 0 1 (2 / 5) = some E ∧ E ≠ 1 := by
  obtain ⟨E, hE⟩ := (C92_converges (2 / 5) 0 1 (2 / 5) (by norm_num)).1
  refine ⟨E, hE, ?_⟩
  rintro rfl
  have := C49_residual hE
  have h1 : (0 : ℝ) < Real.sin 1 := Real.sin_pos_of_pos_of_lt_pi (by norm_num) (by linarith [Real.pi_gt_d2])
  have h2 : 3 / 4 < Real.sin 1 := by
    have := Real.sin_gt_sub_cube (show (0 : ℝ) < 1 by norm_num)
    linarith
  rw [abs_lt] at this
  norm_num at this
  linarith

/-! ### The codes -/

/-- The eccentricity of the orbit with the long-period terms, squared. -/
noncomputable def elsq (m : Mean) : ℝ := m.axn * m.axn + m.ayn * m.ayn

/-- **C48** (partial): what each returned code says is true, and the codes −1, −2 and −6 come with position and velocity zero; with the
codes 0 and −4 they are computed from a solution of Kepler's equation. -/
theorem C48_codes_partial (m : Mean) :
    ((sxpx_posn_vel m).1 = 0 → 0 ≤ m.a ∧ elsq m ≤ 1 - 1 / 10 ^ 6 ∧ 1 ≤ m.a * (1 - m.ecc) ∧ 1 ≤ m.a * (1 + m.ecc)) ∧
    ((sxpx_posn_vel m).1 = -1 → 1 - 1 / 10 ^ 6 < elsq m) ∧
    ((sxpx_posn_vel m).1 = -2 → m.a < 0) ∧
    ((sxpx_posn_vel m).1 = -4 → 0 ≤ m.a ∧ elsq m ≤ 1 - 1 / 10 ^ 6 ∧ (m.a * (1 - m.ecc) < 1 ∨ m.a * (1 + m.ecc) < 1)) ∧
    ((sxpx_posn_vel m).1 = -6 → 0 ≤ m.a ∧ elsq m ≤ 1 - 1 / 10 ^ 6 ∧ kepler m.axn m.ayn m.capu m.ecc = none) ∧
    ((sxpx_posn_vel m).1 ∈ ({0, -1, -2, -4, -6} : Set ℤ)) ∧
    ((sxpx_posn_vel m).1 ∈ ({-1, -2, -6} : Set ℤ) → (sxpx_posn_vel m).2 = (⟨0, 0, 0⟩, ⟨0, 0, 0⟩)) ∧
    ((sxpx_posn_vel m).1 ∈ ({0, -4} : Set ℤ) →
      ∃ E, |E - m.axn * Real.sin E + m.ayn * Real.cos E - m.capu| < 1 / 10 ^ 12 ∧ (sxpx_posn_vel m).2 = posVel m E) := by
  unfold sxpx_posn_vel elsq
  dsimp only
  by_cases h1 : m.axn * m.axn + m.ayn * m.ayn > 1 - 1 / 10 ^ 6
  · simp only [if_pos h1]
    norm_num [zero3]
    norm_num at h1
    exact h1
  · simp only [if_neg h1]
    push Not at h1
    by_cases h2 : m.a < 0
    · simp only [if_pos h2]
      norm_num [zero3]
      exact h2
    · simp only [if_neg h2]
      push Not at h2
      rw [if_neg (by simp)]
      cases hk : kepler m.axn m.ayn m.capu m.ecc with
      | none =>
        norm_num [zero3]
        norm_num at h1
        exact ⟨h2, h1⟩
      | some E =>
        have hres := C49_residual hk
        dsimp only
        by_cases h3 : m.a * (1 - m.ecc) < 1 ∨ m.a * (1 + m.ecc) < 1
        · simp only [if_pos h3]
          norm_num
          norm_num at h1 hres
          exact ⟨⟨h2, h1, h3⟩, E, hres, rfl⟩
        · simp only [if_neg h3]
          push Not at h3
          rw [if_neg (by intro hc; linarith [hc.1, h3.1])]
          norm_num
          norm_num at h1 hres
          exact ⟨⟨h2, h1, h3.1, h3.2⟩, E, hres, rfl⟩

/-- An orbit of two Earth radii is propagated, one with a negative axis is not. -/
def plainMean (a : ℝ) : Mean := { xnode := 0, a, ecc := 0, cosio := 1, sinio := 0, xincl := 0, omega := 0, xl := 0 }

theorem kepler_zero (c : ℝ) : kepler 0 0 0 c = some 0 := by
  unfold kepler keplerLoop keplerRes
  rw [if_pos]
  norm_num

theorem plain_code (a : ℝ) (h : 0 ≤ a) : (sxpx_posn_vel (plainMean a)).1 = if a < 1 then -4 else 0 := by
  have e1 : (plainMean a).axn = 0 := by simp [plainMean, Mean.axn]
  have e2 : (plainMean a).ayn = 0 := by simp [plainMean, Mean.ayn]
  have e3 : (plainMean a).capu = 0 := by
    have : (0 : ℝ) < Real.pi := Real.pi_pos
    simp [plainMean, Mean.capu, Geo.centralize_angle, Geo.fmod, Geo.trunc, this.not_gt]
  unfold sxpx_posn_vel
  dsimp only
  rw [e1, e2, e3, kepler_zero]
  have e4 : (plainMean a).a = a := rfl
  have e5 : (plainMean a).ecc = 0 := rfl
  rw [e4, e5]
  rw [if_neg (by norm_num; linarith), if_neg (show ¬ (0 * 0 + 0 * 0 > (1 : ℝ) - 1 / 10 ^ 6) by norm_num), if_neg (not_lt.mpr h)]
  norm_num
  split_ifs <;> rfl

example : (sxpx_posn_vel (plainMean 2)).1 = 0 := by rw [plain_code 2 (by norm_num), if_neg (by norm_num)]

/-- **C48** fails: the code −3, "orbit within Earth", is never returned, because it is overwritten by −4, "perigee within Earth"; an orbit of
half an Earth radius is one. -/
theorem C48_within_violated : (∀ m, (sxpx_posn_vel m).1 ≠ -3) ∧
    ∃ m : Mean, m.a * (1 + m.ecc) < 1 ∧ m.a * (1 - m.ecc) < 1 ∧ (sxpx_posn_vel m).1 = -4 := by
  refine ⟨fun m hm => ?_, plainMean (1 / 2), by norm_num [plainMean], by norm_num [plainMean], ?_⟩
  · have := (C48_codes_partial m).2.2.2.2.2.1
    rw [hm] at this
    norm_num at this
  · rw [plain_code _ (by norm_num), if_pos (by norm_num)]

end SatSky.Props
