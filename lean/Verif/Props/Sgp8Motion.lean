import Verif.Props.Sgp8
import Verif.Props.Sgp
import Verif.Props.Angles

/-! C148-C151: the mean elements of SGP8, what it answers, Kepler's equation and the orientation vectors. -/

namespace SatSky.Props

open Real SatSky.Sxp SatSky.Sgp8 SatSky.Spec SatSky.Geo SatSky.Kep

/-! ### Mean elements -/

/-- The secular rates are those of SGP4. -/
theorem C148_rates (e : Elem) (r : Recov) :
    (sxp8_common_init e r).xmdot = xmdotOf ck2 r ∧ (sxp8_common_init e r).omgdot = omgdotOf ck2 ck4 r ∧
      (sxp8_common_init e r).xnodot = xnodotOf ck2 ck4 r := by
  have h : ∀ x : ℝ, 1 / (x * x) = 1 / x * (1 / x) := fun x => by rw [one_div_mul_one_div]
  refine ⟨?_, ?_, ?_⟩
  · simp only [sxp8_common_init, xmdotOf, h]; ring
  · simp only [sxp8_common_init, omgdotOf, h]; ring
  · simp only [sxp8_common_init, xnodotOf, xhdot1Of, h]; ring

/-- The same orbit with another mean motion. -/
noncomputable def recovAt (e : Elem) (n : ℝ) : Recov := { sxpall_common_init e with xnodp := n, aodp := axisFor (fieldOf e) n }

theorem recovAt_self {e : Elem} (hx : Above (orbOf e)) : recovAt e (sxpall_common_init e).xnodp = sxpall_common_init e := by
  have := axisFor_self (above_good hx).a hx.n
  have h2 : axisFor (fieldOf e) (sxpall_common_init e).xnodp = (sxpall_common_init e).aodp := this
  unfold recovAt
  rw [h2]

/-- A rate that goes with `n / a²` changes by 7/3 of itself per relative change of the mean motion. -/
theorem seven_thirds {e : Elem} (hx : Above (orbOf e)) (c : ℝ) :
    HasDerivAt (fun n => c * (n / axisFor (fieldOf e) n ^ 2))
      (7 / 3 * (c * ((orbOf e).n / axisFor (fieldOf e) (orbOf e).n ^ 2)) / (orbOf e).n) (orbOf e).n := by
  have hn := hx.n
  have ha := (above_good hx).a
  have hμ : 0 < fieldOf e := by unfold fieldOf; positivity
  have h1 := axisFor_deriv hμ (n := id) hn (hasDerivAt_id _)
  have hA : axisFor (fieldOf e) (orbOf e).n = (orbOf e).a := axisFor_self ha hn
  simp only [id] at h1
  have h2 := ((hasDerivAt_id (orbOf e).n).div (h1.pow 2) (by simp only [Pi.pow_apply]; rw [hA]; positivity)).const_mul c
  refine h2.congr_deriv ?_
  simp only [Pi.pow_apply, id, hA]
  field_simp
  norm_num
  ring

/-- The mean motion at the time `s`. -/
noncomputable def motion8 (p : Par8) (eo s : ℝ) : ℝ := ((decay8 p eo s).map (·.1)).getD 0

/-- A polar orbit's node stays where it is. -/
example (e : Elem) (r : Recov) (h : r.cosio = 0) : (sxp8_common_init e r).xnodot = 0 ∧ (sxp8_common_init e r).xhdt1 = 0 := by
  rw [(C148_rates e r).2.2]
  simp [xnodotOf, xhdot1Of, sxp8_common_init, h]

/-- Drag advances the angles by the integral of the change of the mean motion, and by the change of their rates with the mean motion. -/
theorem C148_drag {e : Elem} {p : Par8} (hi : SGP8_init e = some p) (hx : Above (orbOf e)) {t : ℝ} {m : Mean8} (hm : mean8 p e t = some m) :
    ∃ kM kG kH : ℝ,
      HasDerivAt (fun n => (sxp8_common_init e (recovAt e n)).xmdt1) kM p.xnodp ∧ HasDerivAt (fun n => (sxp8_common_init e (recovAt e n)).xgdt1) kG p.xnodp ∧
      HasDerivAt (fun n => (sxp8_common_init e (recovAt e n)).xhdt1) kH p.xnodp ∧
      let Δ := ∫ s in (0)..t, (motion8 p e.eo s - p.xnodp)
      (0 ≤ m.xmam ∧ m.xmam < 2 * π ∧ Turns (2 * π) m.xmam (e.xmo + xmdotOf ck2 (sxpall_common_init e) * t + Δ + kM * Δ)) ∧
      m.omgasm = e.omegao + omgdotOf ck2 ck4 (sxpall_common_init e) * t + kG * Δ ∧
      m.xnodes = e.xnodeo + xnodotOf ck2 ck4 (sxpall_common_init e) * t + kH * Δ := by
  have hp : p.xnodp = (orbOf e).n ∧ p.c = sxp8_common_init e (sxpall_common_init e) := by
    unfold SGP8_init at hi
    dsimp only at hi
    split_ifs at hi with h1 h2
    · rw [Option.map_eq_some_iff] at hi
      obtain ⟨l', hl', hp⟩ := hi
      subst hp
      exact ⟨rfl, rfl⟩
    · simp only [Option.some.injEq] at hi
      subst hi
      exact ⟨rfl, rfl⟩
  obtain ⟨hp1, hp2⟩ := hp
  have hA : axisFor (fieldOf e) (orbOf e).n = (orbOf e).a := axisFor_self (above_good hx).a hx.n
  have hb := (above_good hx).beta
  have ha := (above_good hx).a.ne'
  have hn := hx.n.ne'
  have hone : ∀ a b : ℝ, 1 / (a * b * (a * b)) = 1 / b ^ 2 * (1 / a ^ 2) := fun a b => by rw [one_div_mul_one_div]; congr 1; ring
  have key : ∀ f : Common8 → ℝ, (∃ c, ∀ n, f (sxp8_common_init e (recovAt e n)) = c * (n / axisFor (fieldOf e) n ^ 2)) →
      HasDerivAt (fun n => f (sxp8_common_init e (recovAt e n))) (7 / 3 * f p.c / p.xnodp) p.xnodp := by
    rintro f ⟨c, hc⟩
    simp only [hc]
    rw [hp2, hp1, ← recovAt_self hx, show (sxpall_common_init e).xnodp = (orbOf e).n from rfl, hc]
    exact seven_thirds hx c
  obtain ⟨q, hq, hqm⟩ := Option.map_eq_some_iff.1 hm
  have hΔ : q.2.2 = ∫ s in (0)..t, (motion8 p e.eo s - p.xnodp) := by
    cases hl : p.law with
    | some l =>
      have ht : l.gamma * t < 1 := by
        by_contra hc
        have hle : 1 - l.gamma * t ≤ 0 := by linarith [not_lt.1 hc]
        unfold decay8 at hq
        rw [hl] at hq
        dsimp only at hq
        rw [if_pos hle] at hq
        exact absurd hq (by simp)
      have h1 := C147_integral hi hl ht
      rw [hq] at h1
      injection h1 with h1
      rw [h1]
      dsimp only
      refine intervalIntegral.integral_congr fun s hs => ?_
      have hs1 : l.gamma * s < 1 := by
        rcases Set.mem_uIcc.1 hs with ⟨h1, h2⟩ | ⟨h1, h2⟩ <;> rcases le_total 0 l.gamma with hγ | hγ <;> nlinarith
      unfold motion8
      rw [C147_integral hi hl hs1]
      rfl
    | none =>
      unfold decay8 at hq
      rw [hl] at hq
      injection hq with hq
      rw [← hq]
      have : (fun s => motion8 p e.eo s - p.xnodp) = fun s => p.xndt * s := by
        funext s
        unfold motion8 decay8
        rw [hl]
        simp
      rw [this, intervalIntegral.integral_const_mul, integral_id]
      ring
  obtain ⟨r1, r2, r3⟩ := C148_rates e (sxpall_common_init e)
  rw [← hp2] at r1 r2 r3
  refine ⟨7 / 3 * p.c.xmdt1 / p.xnodp, 7 / 3 * p.c.xgdt1 / p.xnodp, 7 / 3 * p.c.xhdt1 / p.xnodp, ?_, ?_, ?_, ?_⟩
  · refine key (·.xmdt1) ⟨1 / 2 * (3 * ck2 * (1 / betao2 (orbOf e) ^ 2)) * Real.sqrt (1 - e.eo * e.eo) * ((sxpall_common_init e).cosio2 * 3 - 1), fun n => ?_⟩
    simp only [sxp8_common_init, recovAt, hone]
    show _ * sqrt (1 - e.eo * e.eo) * _ = _
    have : (sxpall_common_init e).betao2 = betao2 (orbOf e) := rfl
    rw [this]
    ring
  · refine key (·.xgdt1) ⟨-(1 / 2) * (3 * ck2 * (1 / betao2 (orbOf e) ^ 2)) * (1 - (sxpall_common_init e).cosio2 * 5), fun n => ?_⟩
    simp only [sxp8_common_init, recovAt, hone]
    have : (sxpall_common_init e).betao2 = betao2 (orbOf e) := rfl
    rw [this]
    ring
  · refine key (·.xhdt1) ⟨-(3 * ck2 * (1 / betao2 (orbOf e) ^ 2)) * (sxpall_common_init e).cosio, fun n => ?_⟩
    simp only [sxp8_common_init, recovAt, hone]
    have : (sxpall_common_init e).betao2 = betao2 (orbOf e) := rfl
    rw [this]
    ring
  · intro Δ
    subst hqm
    dsimp only
    rw [hΔ]
    rw [← r1, ← r2, ← r3]
    refine ⟨?_, ?_, ?_⟩
    · obtain ⟨f1, f2, k1, f3⟩ := C40_FMod2p (e.xmo + p.c.xmdot * t)
      obtain ⟨g1, g2, k2, g3⟩ := C40_FMod2p (FMod2p (e.xmo + p.c.xmdot * t) + Δ + 2 / 3 * (7 / 2) * Δ / p.xnodp * p.c.xmdt1)
      refine ⟨g1, g2, k1 + k2, ?_⟩
      push_cast
      linear_combination g3 + f3
    · ring
    · ring

/-! ### What SGP8 answers -/

/-- A circular orbit 258 km above the equatorial radius, inclined so that the flattening does not enter the mean motion, with the drag term `b`. -/
noncomputable def lowCircle (b : ℝ) : Elem := ⟨0, b, arccos (√(1 / 3)), 0, 0, 0, 0, xke / (51 / 50) ^ 3, 0⟩

theorem lowCircle_cos (b : ℝ) : cos (lowCircle b).xincl * cos (lowCircle b).xincl = 1 / 3 := by
  have h : √(1 / 3 : ℝ) ≤ 1 := Real.sqrt_le_one.2 (by norm_num)
  show cos (arccos (√(1 / 3))) * cos (arccos (√(1 / 3))) = 1 / 3
  rw [cos_arccos (by linarith [sqrt_nonneg (1 / 3 : ℝ)]) h, mul_self_sqrt (by norm_num)]

theorem xke_pos' : 0 < xke := by unfold xke; norm_num

theorem lowCircle_orb (b : ℝ) : orbOf (lowCircle b) = ⟨(51 / 50) ^ 2, xke / (51 / 50) ^ 3, 0, 0⟩ := by
  have ht : tval (lowCircle b) = 0 := by
    unfold tval; rw [lowCircle_cos]; norm_num
  have ha : a1 (lowCircle b) = (51 / 50) ^ 2 := by
    unfold a1
    have : xke / (lowCircle b).xno = (51 / 50 : ℝ) ^ 3 := by
      show xke / (xke / (51 / 50) ^ 3) = _
      have := xke_pos'.ne'
      field_simp
    rw [this, ← rpow_natCast, ← rpow_mul (by norm_num), ← rpow_natCast]
    norm_num
  unfold orbOf sxpall_common_init
  simp only [ao, delo, del1, ht, ha]
  norm_num [lowCircle]

theorem lowCircle_xndtn (b : ℝ) : xndtn (fixedOf (lowCircle b)) (orbOf (lowCircle b)) =
    b * (3 * qoms2t * (xke / (51 / 50) ^ 3) * (51 / 50) ^ 2 / ((51 / 50) ^ 2 - sConst) ^ 4) := by
  have hb1 : b1 (fixedOf (lowCircle b)) = 0 := by
    have : (fixedOf (lowCircle b)).tthmun = cos (lowCircle b).xincl * cos (lowCircle b).xincl * 3 - 1 := rfl
    unfold b1; rw [this, lowCircle_cos]; norm_num
  have hk := xke_pos'.ne'
  have hbs : (fixedOf (lowCircle b)).bstar = b := rfl
  have hs : (51 / 50 : ℝ) ^ 2 - sConst ≠ 0 := by unfold sConst earthRadius; norm_num
  unfold xndtn xndt Sgp8.c1 Sgp8.c4 Sgp8.c5 c0 d3 d4
  rw [hb1, lowCircle_orb]
  simp only [eta2, eta, eosq, eeta, alpha2, psim2, po, betao2, tsi, bOf, rho, hbs]
  norm_num
  field_simp

/-- A circular orbit with strong drag: the initialisation divides zero by zero, and every position computed from it is not a number. -/
theorem C149_circular_violated : SGP8_init (lowCircle (1 / 100)) = none := by
  have h1 : |xndtn (fixedOf (lowCircle (1 / 100))) (orbOf (lowCircle (1 / 100))) * 1440| > 216 / 10 ^ 5 := by
    rw [lowCircle_xndtn, abs_of_pos]
    · unfold qoms2t xke sConst earthRadius; norm_num
    · unfold qoms2t xke sConst earthRadius; norm_num
  have h2 : eta2 (orbOf (lowCircle (1 / 100))) = 0 := by
    rw [lowCircle_orb]; simp [eta2, eta]
  unfold SGP8_init
  dsimp only
  rw [if_pos h1, if_pos h2]

/-- With weak drag the eccentricity leaves the range of an ellipse in the end; the code is 0 and the position is not a number. -/
theorem C149_weak_violated : ∃ p t, SGP8_init (lowCircle (1 / 10 ^ 4)) = some p ∧ 0 < t ∧ SGP8 p (lowCircle (1 / 10 ^ 4)) t = (0, none) := by
  have h0 : 0 < xndtn (fixedOf (lowCircle (1 / 10 ^ 4))) (orbOf (lowCircle (1 / 10 ^ 4))) := by
    rw [lowCircle_xndtn]
    unfold qoms2t xke sConst earthRadius; norm_num
  have h1 : ¬|xndtn (fixedOf (lowCircle (1 / 10 ^ 4))) (orbOf (lowCircle (1 / 10 ^ 4))) * 1440| > 216 / 10 ^ 5 := by
    rw [abs_of_pos (by linarith), lowCircle_xndtn]
    unfold qoms2t xke sConst earthRadius; norm_num
  set x := xndtn (fixedOf (lowCircle (1 / 10 ^ 4))) (orbOf (lowCircle (1 / 10 ^ 4)))
  refine ⟨_, 3 / x, by unfold SGP8_init; dsimp only; rw [if_neg h1], by positivity, ?_⟩
  have he : (lowCircle (1 / 10 ^ 4)).eo = 0 := rfl
  unfold SGP8 mean8 decay8
  dsimp only
  simp only [Option.map_some, Option.bind_some]
  rw [if_pos]
  right; left
  rw [he]
  have : (0 + -(2 / 3) * x * (1 - 0) * (3 / x)) = -2 := by field_simp; norm_num
  rw [this]
  norm_num

/-- With the fitted law no position is a number after the time `1 / gamma` (before it, for negative `gamma`). -/
theorem C149_after (p : Par8) (e : Elem) (l : Law) (hl : p.law = some l) (t : ℝ) (ht : 1 ≤ l.gamma * t) : SGP8 p e t = (0, none) := by
  unfold SGP8 mean8 decay8
  rw [hl]
  dsimp only
  rw [if_pos (by linarith)]
  rfl

/-! ### Kepler's equation -/

/-- The equation solved. -/
noncomputable def res8 (e M E : ℝ) : ℝ := M - (E - e * sin E)

theorem res8_eq (e M E : ℝ) : res8 e M E = keplerRes e 0 M E := by unfold res8 keplerRes; ring

theorem step8_eq (e M E : ℝ) : (M + e * sin E - E) * (1 / (1 - e * cos E)) + E = E + keplerRes e 0 M E / (1 - ec e 0 E) := by
  unfold keplerRes ec; ring

theorem kepler8_small {e M : ℝ} (he : 0 ≤ e) (he1 : e ≤ 1 / 2) {n : ℕ} {E : ℝ} (hE : |res8 e M E| ≤ 1 / 2 * (1 / 10 ^ 6)) : kepler8 e M n E = E := by
  have h := abs_ec (x := e) (y := 0) he (by simp) E
  have hp : 1 / 2 ≤ 1 - ec e 0 E := by linarith [(abs_le.1 h).2]
  rw [res8_eq] at hE
  unfold kepler8
  dsimp only
  rw [step8_eq, if_pos]
  rw [add_sub_cancel_left, abs_div, abs_of_pos (by linarith : 0 < 1 - ec e 0 E), div_le_iff₀ (by linarith)]
  nlinarith

theorem kepler8_step {e M : ℝ} (he : 0 ≤ e) (he1 : e ≤ 1 / 2) {n : ℕ} {E b c : ℝ} (hb : b ≤ 1) (hc : 3 / 4 * b ^ 2 ≤ c)
    (hE : |res8 e M E| ≤ 1 / 2 * b) (hn : ∀ E', |res8 e M E'| ≤ 1 / 2 * c → |res8 e M (kepler8 e M n E')| ≤ 3 / 2 / 10 ^ 6) :
    |res8 e M (kepler8 e M (n + 1) E)| ≤ 3 / 2 / 10 ^ 6 := by
  have h2 : e ^ 2 + 0 ^ 2 ≤ (1 / 2 : ℝ) ^ 2 := by nlinarith
  have h := abs_le.1 (abs_ec (by norm_num) h2 E)
  have hp : 1 / 2 ≤ 1 - ec e 0 E := by linarith [h.2]
  have hq : |keplerRes e 0 M E / (1 - ec e 0 E)| ≤ b := by
    rw [abs_div, abs_of_pos (by linarith : 0 < 1 - ec e 0 E), div_le_iff₀ (by linarith)]
    rw [res8_eq] at hE
    nlinarith [abs_nonneg (keplerRes e 0 M E)]
  unfold kepler8
  dsimp only
  rw [step8_eq]
  split_ifs with hs
  · rw [add_sub_cancel_left, abs_div, abs_of_pos (by linarith : 0 < 1 - ec e 0 E), div_le_iff₀ (by linarith)] at hs
    rw [res8_eq]
    nlinarith
  · refine hn _ ?_
    rw [res8_eq]
    refine le_trans (newton_res (by norm_num) (by norm_num) h2 (hq.trans hb)) ?_
    have : (keplerRes e 0 M E / (1 - ec e 0 E)) ^ 2 ≤ b ^ 2 := by
      rw [← sq_abs]; gcongr
    linarith

/-- At the apogee. -/
example : anomaly8 (1 / 10) π = π := by
  unfold anomaly8 kepler8
  simp

/-- For eccentricities up to one half Kepler's equation is solved to 1.5·10⁻⁶ radians. -/
theorem C150_kepler {e : ℝ} (he : 0 ≤ e) (he1 : e ≤ 1 / 2) (M : ℝ) :
    |anomaly8 e M - e * sin (anomaly8 e M) - M| ≤ 3 / 2 / 10 ^ 6 := by
  have h2 : e ^ 2 + 0 ^ 2 ≤ (1 / 2 : ℝ) ^ 2 := by nlinarith
  have h0 : |res8 e M (M + e * sin M * (e * cos M + 1))| ≤ 1 / 2 * 1 := by
    set d := e * sin M * (e * cos M + 1) with hd
    have hs := abs_le.1 (abs_sin_le_one M)
    have hc := abs_le.1 (abs_cos_le_one M)
    have hd1 : |d| ≤ 3 / 4 := by
      have h3 : |e * sin M| ≤ 1 / 2 := by rw [abs_mul, abs_of_nonneg he]; nlinarith [abs_sin_le_one M, abs_nonneg (sin M)]
      have h4 : |e * cos M + 1| ≤ 3 / 2 := by rw [abs_le]; constructor <;> nlinarith
      rw [hd, abs_mul]
      nlinarith [abs_nonneg (e * sin M), abs_nonneg (e * cos M + 1)]
    have hr := rem2 (by norm_num) h2 M (hd1.trans (by norm_num))
    have e1 : res8 e M (M + d) = (es e 0 (M + d) - es e 0 M - ec e 0 M * d) + e ^ 3 * (sin M * cos M ^ 2) := by
      unfold res8 es ec; rw [hd]; ring
    have e2 : |e ^ 3 * (sin M * cos M ^ 2)| ≤ 1 / 8 := by
      have : |sin M * cos M ^ 2| ≤ 1 := by
        rw [abs_mul, abs_of_nonneg (sq_nonneg (cos M))]
        nlinarith [abs_sin_le_one M, abs_nonneg (sin M), sq_nonneg (cos M), sin_sq_add_cos_sq M, sq_nonneg (sin M)]
      have h5 : e ^ 3 ≤ 1 / 8 := by
        calc e ^ 3 ≤ (1 / 2) ^ 3 := by gcongr
          _ = 1 / 8 := by norm_num
      rw [abs_mul, abs_of_nonneg (by positivity)]
      nlinarith [abs_nonneg (sin M * cos M ^ 2), pow_nonneg he 3]
    have h6 : d ^ 2 ≤ (3 / 4) ^ 2 := by rw [← sq_abs]; gcongr
    rw [e1]
    refine (abs_add_le _ _).trans ?_
    linarith
  rw [show anomaly8 e M - e * sin (anomaly8 e M) - M = -res8 e M (anomaly8 e M) by unfold res8; ring, abs_neg]
  unfold anomaly8
  refine kepler8_step he he1 (c := 3 / 4) le_rfl (by norm_num) h0 fun E hE => ?_
  refine kepler8_step he he1 (c := 43 / 100) (by norm_num) (by norm_num) hE fun E hE => ?_
  refine kepler8_step he he1 (c := 14 / 100) (by norm_num) (by norm_num) hE fun E hE => ?_
  refine kepler8_step he he1 (c := 15 / 1000) (by norm_num) (by norm_num) hE fun E hE => ?_
  refine kepler8_step he he1 (c := 2 / 10000) (by norm_num) (by norm_num) hE fun E hE => ?_
  refine kepler8_step he he1 (c := 4 / 10 ^ 8) (by norm_num) (by norm_num) hE fun E hE => ?_
  rw [kepler8_small he he1 (by linarith)]
  refine hE.trans (by norm_num)

/-- The tangent of the sine at a point of the first half turn does not rise too far above `π`. -/
theorem tangent_at_pi {x : ℝ} (h0 : 0 ≤ x) (h1 : x ≤ π) : sin x - x * cos x ≤ 10 / 9 * x := by
  have hp := pi_gt_d2
  have hp2 := pi_lt_d2
  norm_num at hp hp2
  rcases le_total x (7 / 5) with h | h
  · have hs := sin_le h0
    have hc := one_sub_sq_div_two_le_cos (x := x)
    have h2 : x ^ 2 ≤ (7 / 5) ^ 2 := by gcongr
    nlinarith [mul_le_mul_of_nonneg_left hc h0, mul_nonneg h0 (by linarith : (0:ℝ) ≤ 2 - x ^ 2)]
  rcases le_total x (9 / 5) with h2 | h2
  · have hc : -(3 / 10) ≤ cos x := by
      rcases le_total x (π / 2) with h3 | h3
      · linarith [cos_nonneg_of_neg_pi_div_two_le_of_le (by linarith) h3]
      · have h4 := sin_le (by linarith : 0 ≤ x - π / 2)
        rw [sin_sub_pi_div_two] at h4
        linarith
    nlinarith [sin_le_one x]
  · obtain ⟨y, hy⟩ : ∃ y, x = π - y := ⟨π - x, by ring⟩
    rw [hy, sin_pi_sub, cos_pi_sub]
    have hy0 : 0 ≤ y := by linarith
    have hy1 : y ≤ 27 / 20 := by linarith
    have hs := sin_le hy0
    have hc : cos y ≤ 1 - (y ^ 2 / 2 - y ^ 4 / 16) := by
      rcases eq_or_lt_of_le hy0 with h3 | h3
      · rw [← h3]; simp
      · have h4 := sin_gt_sub_cube (x := y / 2) (by linarith)
        have h5 : cos y = 1 - 2 * sin (y / 2) ^ 2 := by
          have := cos_sq' (y / 2)
          rw [show y = 2 * (y / 2) by ring, cos_two_mul, show 2 * (y / 2) / 2 = y / 2 by ring]
          linarith
        have h6 : 0 ≤ y / 2 - (y / 2) ^ 3 / 4 := by
          have : y ^ 2 ≤ (27 / 20) ^ 2 := by gcongr
          nlinarith
        have h7 : (y / 2 - (y / 2) ^ 3 / 4) ^ 2 ≤ sin (y / 2) ^ 2 := pow_le_pow_left₀ h6 (by linarith [pow_pos (by linarith : 0 < y / 2) 3]) 2
        rw [h5]
        nlinarith [pow_nonneg hy0 6]
    have h3 : y ≤ (π - y) * (1 / 9 + y ^ 2 / 2 - y ^ 4 / 16) := by
      have h8 : y ^ 2 ≤ (27 / 20) ^ 2 := by gcongr
      have h4 : 0 ≤ 1 / 9 + y ^ 2 / 2 - y ^ 4 / 16 := by nlinarith [sq_nonneg y]
      have h5 : (314 / 100 - y) * (1 / 9 + y ^ 2 / 2 - y ^ 4 / 16) ≤ (π - y) * (1 / 9 + y ^ 2 / 2 - y ^ 4 / 16) := by gcongr; linarith
      refine le_trans ?_ h5
      rcases le_total y (9 / 10) with h9 | h9
      · have h10 : y ^ 3 ≤ 9 / 10 * y ^ 2 := by nlinarith [sq_nonneg y]
        have h11 : y ^ 4 ≤ 81 / 100 * y ^ 2 := by nlinarith [sq_nonneg y]
        have h12 : 0 ≤ y ^ 5 := by positivity
        nlinarith [sq_nonneg (y - 11 / 20)]
      · have h10 : 1 / 2 + 19625 / 100000 * y - y ^ 2 / 16 ≤ 652 / 1000 := by nlinarith
        have h11 : y ^ 3 * (1 / 2 + 19625 / 100000 * y - y ^ 2 / 16) ≤ y ^ 3 * (652 / 1000) := by gcongr
        have h12 : 0 ≤ (y - 9 / 10) * (27 / 20 - y) * y := mul_nonneg (mul_nonneg (by linarith) (by linarith)) hy0
        nlinarith [mul_nonneg (by linarith : 0 ≤ y - 9 / 10) (by linarith : 0 ≤ 27 / 20 - y)]
    nlinarith [mul_le_mul_of_nonneg_left hc (by linarith : 0 ≤ π - y)]

/-- The first guess does not pass the apogee. -/
theorem first_guess {e M : ℝ} (he : 0 ≤ e) (he1 : e ≤ 1) (h0 : 0 ≤ M) (h1 : M ≤ π) : e * sin M * (e * cos M + 1) ≤ π - M := by
  have hs := sin_nonneg_of_nonneg_of_le_pi h0 h1
  have hs1 : sin M ≤ π - M := by rw [← sin_pi_sub]; exact sin_le (by linarith)
  have hc1 := cos_le_one M
  have hc := neg_one_le_cos M
  rcases le_total (cos M) 0 with h | h
  · have h2 : e * (e * cos M + 1) ≤ 1 := by nlinarith [mul_nonneg he (neg_nonneg.2 h)]
    nlinarith
  · have h2 : M ≤ π / 2 := by
      by_contra hcon
      have := cos_neg_of_pi_div_two_lt_of_lt (not_le.1 hcon) (by linarith [pi_pos])
      linarith
    have h3 : e * (e * cos M + 1) ≤ 1 + cos M := by nlinarith [mul_nonneg he h]
    have h4 : sin M * (1 + cos M) ≤ 3 / 2 := by
      nlinarith [sin_sq_add_cos_sq M, sq_nonneg (7 / 4 * sin M - (1 + cos M)), sq_nonneg (2 * cos M - 1)]
    have := pi_gt_d2
    norm_num at this
    nlinarith

/-- The step of Newton's method stays between the mean anomaly and `π`. -/
theorem newton_between {e M z : ℝ} (he : 0 ≤ e) (he1 : e ≤ 9 / 10) (hM : 0 ≤ M) (h1 : M ≤ z) (h2 : z ≤ π) :
    M ≤ (M + e * sin z - z) * (1 / (1 - e * cos z)) + z ∧ (M + e * sin z - z) * (1 / (1 - e * cos z)) + z ≤ π := by
  have hf : 0 < 1 - e * cos z := by nlinarith [neg_one_le_cos z, cos_le_one z]
  have hd : (M + e * sin z - z) * (1 / (1 - e * cos z)) + z = (M + e * (sin z - z * cos z)) / (1 - e * cos z) := by
    field_simp; ring
  rw [hd, le_div_iff₀ hf, div_le_iff₀ hf]
  constructor
  · -- `sin` is below its tangent at `z`
    have : sin z - z * cos z + M * cos z ≥ 0 := by
      rcases le_total 0 (cos z) with hc | hc
      · have h4 : z ≤ π / 2 := by
          by_contra hcon
          have := cos_neg_of_pi_div_two_lt_of_lt (not_le.1 hcon) (by linarith [pi_pos])
          linarith
        rcases eq_or_lt_of_le h4 with h5 | h5
        · rw [h5]; simp
        · have h6 := le_tan (by linarith : 0 ≤ z) h5
          have hc' : 0 < cos z := cos_pos_of_mem_Ioo ⟨by linarith [pi_pos], h5⟩
          rw [tan_eq_sin_div_cos, le_div_iff₀ hc'] at h6
          nlinarith [mul_nonneg hM hc]
      · have := sin_nonneg_of_nonneg_of_le_pi (by linarith) h2
        nlinarith
    nlinarith
  · have := tangent_at_pi (by linarith : 0 ≤ π - z) (by linarith)
    rw [sin_pi_sub, cos_pi_sub] at this
    have h5 : e * (sin z - (π - z) * -cos z) ≤ π - z := by
      rcases le_total 0 (sin z - (π - z) * -cos z) with h4 | h4
      · nlinarith
      · nlinarith
    nlinarith

theorem kepler8_between {e M : ℝ} (he : 0 ≤ e) (he1 : e ≤ 9 / 10) (hM : 0 ≤ M) : ∀ (n : ℕ) (z : ℝ), M ≤ z → z ≤ π →
    M ≤ kepler8 e M n z ∧ kepler8 e M n z ≤ π := by
  intro n
  induction n with
  | zero =>
    intro z h1 h2
    unfold kepler8
    dsimp only
    split_ifs <;> exact ⟨h1, h2⟩
  | succ n ih =>
    intro z h1 h2
    unfold kepler8
    dsimp only
    split_ifs
    · exact ⟨h1, h2⟩
    · obtain ⟨h3, h4⟩ := newton_between he he1 hM h1 h2
      exact ih _ h3 h4

theorem kepler8_mirror (e M : ℝ) : ∀ (n : ℕ) (z : ℝ), kepler8 e (2 * π - M) n (2 * π - z) = 2 * π - kepler8 e M n z := by
  have hs : ∀ z, sin (2 * π - z) = -sin z := fun z => by rw [sin_two_pi_sub]
  have hc : ∀ z, cos (2 * π - z) = cos z := fun z => by rw [cos_two_pi_sub]
  have hz : ∀ z, (2 * π - M + e * sin (2 * π - z) - (2 * π - z)) * (1 / (1 - e * cos (2 * π - z))) + (2 * π - z)
      = 2 * π - ((M + e * sin z - z) * (1 / (1 - e * cos z)) + z) := fun z => by rw [hs, hc]; ring
  intro n
  induction n with
  | zero =>
    intro z
    unfold kepler8
    dsimp only
    split_ifs <;> rfl
  | succ n ih =>
    intro z
    unfold kepler8
    dsimp only
    rw [hz]
    have : |2 * π - ((M + e * sin z - z) * (1 / (1 - e * cos z)) + z) - (2 * π - z)| = |(M + e * sin z - z) * (1 / (1 - e * cos z)) + z - z| := by
      rw [← abs_neg]; congr 1; ring
    rw [this]
    split_ifs
    · rfl
    · exact ih _

theorem anomaly8_mirror (e M : ℝ) : anomaly8 e (2 * π - M) = 2 * π - anomaly8 e M := by
  unfold anomaly8
  rw [← kepler8_mirror, sin_two_pi_sub, cos_two_pi_sub]
  congr 1
  ring

theorem anomaly8_half {e M : ℝ} (he : 0 ≤ e) (he1 : e ≤ 9 / 10) (hM : 0 ≤ M) (hM1 : M ≤ π) : M ≤ anomaly8 e M ∧ anomaly8 e M ≤ π := by
  have hs := sin_nonneg_of_nonneg_of_le_pi hM hM1
  have hc := neg_one_le_cos M
  have hc1 := cos_le_one M
  have h1 : 0 ≤ e * cos M + 1 := by nlinarith
  refine kepler8_between he he1 hM 10 _ ?_ ?_
  · have := mul_nonneg (mul_nonneg he hs) h1
    linarith
  · have := first_guess he (by linarith : e ≤ 1) hM hM1
    linarith

/-! #### Eccentricities up to 9/10 -/

/-- `3 sin x ≤ x (2 + cos x)`. -/
theorem cusa {x : ℝ} (h0 : 0 ≤ x) (h1 : x ≤ π) : 3 * sin x ≤ x * (2 + cos x) := by
  have hd2 : ∀ y, HasDerivAt (fun y => sin y - y * cos y) (y * sin y) y := fun y =>
    ((hasDerivAt_sin y).sub ((hasDerivAt_id y).mul (hasDerivAt_cos y))).congr_deriv (by simp)
  have hm2 : MonotoneOn (fun y => sin y - y * cos y) (Set.Icc 0 π) := by
    refine monotoneOn_of_deriv_nonneg (convex_Icc _ _) (fun y _ => (hd2 y).continuousAt.continuousWithinAt) (fun y _ => (hd2 y).differentiableAt.differentiableWithinAt) ?_
    intro y hy
    rw [interior_Icc] at hy
    rw [(hd2 y).deriv]
    exact mul_nonneg hy.1.le (sin_nonneg_of_nonneg_of_le_pi hy.1.le hy.2.le)
  have h2 : ∀ y ∈ Set.Icc 0 π, 0 ≤ sin y - y * cos y := fun y hy => by
    have := hm2 ⟨le_rfl, pi_pos.le⟩ hy hy.1
    simpa using this
  have hd1 : ∀ y, HasDerivAt (fun y => 2 - 2 * cos y - y * sin y) (sin y - y * cos y) y := fun y =>
    ((((hasDerivAt_const y 2)).sub ((hasDerivAt_cos y).const_mul 2)).sub ((hasDerivAt_id y).mul (hasDerivAt_sin y))).congr_deriv (by simp; ring)
  have hm1 : MonotoneOn (fun y => 2 - 2 * cos y - y * sin y) (Set.Icc 0 π) := by
    refine monotoneOn_of_deriv_nonneg (convex_Icc _ _) (fun y _ => (hd1 y).continuousAt.continuousWithinAt) (fun y _ => (hd1 y).differentiableAt.differentiableWithinAt) ?_
    intro y hy
    rw [(hd1 y).deriv]
    exact h2 y (interior_subset hy)
  have h3 : ∀ y ∈ Set.Icc 0 π, 0 ≤ 2 - 2 * cos y - y * sin y := fun y hy => by
    have := hm1 ⟨le_rfl, pi_pos.le⟩ hy hy.1
    simpa using this
  have hd0 : ∀ y, HasDerivAt (fun y => y * (2 + cos y) - 3 * sin y) (2 - 2 * cos y - y * sin y) y := fun y =>
    (((hasDerivAt_id y).mul ((hasDerivAt_cos y).const_add 2)).sub ((hasDerivAt_sin y).const_mul 3)).congr_deriv (by simp; ring)
  have hm0 : MonotoneOn (fun y => y * (2 + cos y) - 3 * sin y) (Set.Icc 0 π) := by
    refine monotoneOn_of_deriv_nonneg (convex_Icc _ _) (fun y _ => (hd0 y).continuousAt.continuousWithinAt) (fun y _ => (hd0 y).differentiableAt.differentiableWithinAt) ?_
    intro y hy
    rw [(hd0 y).deriv]
    exact h3 y (interior_subset hy)
  have := hm0 ⟨le_rfl, pi_pos.le⟩ ⟨h0, h1⟩ h0
  simp at this
  linarith

/-- In the first half turn the sine is below its tangents. -/
theorem sin_tangent {r z : ℝ} (hr : 0 ≤ r) (hr1 : r ≤ π) (hz : 0 ≤ z) (hz1 : z ≤ π) : sin r ≤ sin z + cos z * (r - z) := by
  have hc := strictConcaveOn_sin_Icc.concaveOn
  rcases lt_trichotomy r z with h | h | h
  · have := hc.le_slope_of_hasDerivAt ⟨hr, hr1⟩ ⟨hz, hz1⟩ h (hasDerivAt_sin z)
    rw [slope_def_field, le_div_iff₀ (by linarith)] at this
    linarith
  · rw [h]; simp
  · have := hc.slope_le_of_hasDerivAt ⟨hz, hz1⟩ ⟨hr, hr1⟩ h (hasDerivAt_sin z)
    rw [slope_def_field, div_le_iff₀ (by linarith)] at this
    linarith

/-- The error of the linear step, against the square of the distance. -/
theorem sin_second {e r z : ℝ} (he : 0 ≤ e) (he1 : e ≤ 9 / 10) (hr : 0 ≤ r) (hrz : r ≤ z) (hz1 : z ≤ π) :
    e * (sin z - sin r - (z - r) * cos z) ≤ 207 / 200 * (z - r) ^ 2 * (1 - e * cos z) := by
  have hkey : ∀ w, 0 ≤ w → w ≤ z → e * (cos w - cos z) ≤ 207 / 100 * (z - w) * (1 - e * cos z) := by
    intro w hw hwz
    have e1 : cos w - cos z = 2 * sin ((w + z) / 2) * sin ((z - w) / 2) := by
      rw [cos_sub_cos, show (w - z) / 2 = -((z - w) / 2) by ring, sin_neg]; ring
    have h1 : sin ((z - w) / 2) ≤ (z - w) / 2 := sin_le (by linarith)
    have h2 : 0 ≤ sin ((w + z) / 2) := sin_nonneg_of_nonneg_of_le_pi (by linarith) (by linarith)
    have h3 : e * sin ((w + z) / 2) ≤ 207 / 100 * (1 - e * cos ((w + z) / 2)) := by
      have hu := sin_sq_add_cos_sq ((w + z) / 2)
      generalize sin ((w + z) / 2) = S at *
      generalize cos ((w + z) / 2) = C at *
      have : S + 207 / 100 * C ≤ 23 / 10 := by nlinarith [sq_nonneg (207 / 100 * S - C)]
      nlinarith
    have h4 : cos z ≤ cos ((w + z) / 2) := cos_le_cos_of_nonneg_of_le_pi (by linarith) hz1 (by linarith)
    have h5 : e * sin ((w + z) / 2) ≤ 207 / 100 * (1 - e * cos z) := by nlinarith
    rw [e1]
    nlinarith [mul_le_mul_of_nonneg_left h1 (mul_nonneg he h2), mul_le_mul_of_nonneg_right h5 (by linarith : 0 ≤ z - w)]
  have hd : ∀ w, HasDerivAt (fun w => 207 / 200 * (z - w) ^ 2 * (1 - e * cos z) - e * (sin z - sin w - (z - w) * cos z))
      (e * (cos w - cos z) - 207 / 100 * (z - w) * (1 - e * cos z)) w := fun w => by
    have h0 : HasDerivAt (fun w => z - w) (-1) w := ((hasDerivAt_id w).const_sub z)
    refine ((((h0.pow 2).const_mul (207 / 200)).mul_const (1 - e * cos z)).sub
      ((((hasDerivAt_sin w).const_sub (sin z)).sub (h0.mul_const (cos z))).const_mul e)).congr_deriv ?_
    simp; ring
  have hm : AntitoneOn (fun w => 207 / 200 * (z - w) ^ 2 * (1 - e * cos z) - e * (sin z - sin w - (z - w) * cos z)) (Set.Icc 0 z) := by
    refine antitoneOn_of_deriv_nonpos (convex_Icc _ _) (fun y _ => (hd y).continuousAt.continuousWithinAt) (fun y _ => (hd y).differentiableAt.differentiableWithinAt) ?_
    intro y hy
    rw [interior_Icc] at hy
    rw [(hd y).deriv]
    linarith [hkey y hy.1.le hy.2.le]
  have := hm ⟨hr, hrz⟩ ⟨hr.trans hrz, le_rfl⟩ hrz
  simp only [sub_self] at this
  norm_num at this
  linarith

/-- The step of Newton's method from a point `z` of the first half turn. -/
noncomputable def step8 (e M z : ℝ) : ℝ := (M + e * sin z - z) * (1 / (1 - e * cos z)) + z

theorem den8_pos {e : ℝ} (he : 0 ≤ e) (he1 : e ≤ 9 / 10) (z : ℝ) : 0 < 1 - e * cos z ∧ 1 - e * cos z ≤ 19 / 10 := by
  constructor <;> nlinarith [neg_one_le_cos z, cos_le_one z]

/-- From any point of the first half turn the step goes beyond the root `r`. -/
theorem step8_beyond {e M r z : ℝ} (he : 0 ≤ e) (he1 : e ≤ 9 / 10) (hr : 0 ≤ r) (hr1 : r ≤ π) (hM : r - e * sin r = M) (hz : 0 ≤ z) (hz1 : z ≤ π) :
    r ≤ step8 e M z := by
  obtain ⟨hf, -⟩ := den8_pos he he1 z
  have := sin_tangent hr hr1 hz hz1
  have hd : step8 e M z = (M + e * (sin z - z * cos z)) / (1 - e * cos z) := by unfold step8; field_simp; ring
  rw [hd, le_div_iff₀ hf, ← hM]
  nlinarith

/-- From beyond the root the distance shrinks by a third, and to little more than its square. -/
theorem step8_nearer {e M r z : ℝ} (he : 0 ≤ e) (he1 : e ≤ 9 / 10) (hr : 0 ≤ r) (hM : r - e * sin r = M) (hz : r ≤ z) (hz1 : z ≤ π) :
    step8 e M z - r ≤ 2 / 3 * (z - r) ∧ step8 e M z - r ≤ 207 / 200 * (z - r) ^ 2 := by
  obtain ⟨hf, -⟩ := den8_pos he he1 z
  have hd : step8 e M z - r = (M + e * (sin z - z * cos z) - r * (1 - e * cos z)) / (1 - e * cos z) := by unfold step8; field_simp; ring
  rw [hd]
  constructor
  · rw [div_le_iff₀ hf, ← hM]
    have h1 : 3 * (sin z - sin r) ≤ (z - r) * (2 + cos z) := by
      rcases eq_or_lt_of_le (hr.trans hz) with h0 | h0
      · have : r = z := by linarith
        rw [this]; simp
      · have hcc := strictConcaveOn_sin_Icc.concaveOn.2 (⟨le_rfl, pi_pos.le⟩ : (0:ℝ) ∈ Set.Icc 0 π) ⟨h0.le, hz1⟩
          (div_nonneg (by linarith) h0.le : 0 ≤ (z - r) / z) (div_nonneg hr h0.le : 0 ≤ r / z) (by field_simp; ring)
        simp only [smul_eq_mul, sin_zero, mul_zero, zero_add] at hcc
        rw [div_mul_cancel₀ _ h0.ne'] at hcc
        have hcu := cusa h0.le hz1
        have h2 : sin z - sin r ≤ (z - r) / z * sin z := by
          have : (z - r) / z = 1 - r / z := by field_simp
          rw [this]; linarith
        have h3 : 3 * ((z - r) / z * sin z) ≤ (z - r) / z * (z * (2 + cos z)) := by
          have : 0 ≤ (z - r) / z := div_nonneg (by linarith) h0.le
          nlinarith
        have h4 : (z - r) / z * (z * (2 + cos z)) = (z - r) * (2 + cos z) := by field_simp
        linarith
    nlinarith [mul_le_mul_of_nonneg_left h1 he, mul_nonneg (by linarith : 0 ≤ 1 - e) (by linarith : 0 ≤ z - r)]
  · rw [div_le_iff₀ hf, ← hM]
    have := sin_second he he1 hr hz hz1
    linarith

theorem kepler8_near {e M r : ℝ} (he : 0 ≤ e) (he1 : e ≤ 9 / 10) (hr : 0 ≤ r) (hr1 : r ≤ π) (hM0 : 0 ≤ M) (hM : r - e * sin r = M) {n : ℕ} {b c z : ℝ}
    (hc : 2 / 3 * b ≤ c ∨ 207 / 200 * b ^ 2 ≤ c) (hz : r ≤ z) (hz1 : z ≤ π) (hb : z - r ≤ b)
    (hn : ∀ z', r ≤ z' → z' ≤ π → z' - r ≤ c → |res8 e M (kepler8 e M n z')| ≤ 19 / 10 / 10 ^ 6) :
    |res8 e M (kepler8 e M (n + 1) z)| ≤ 19 / 10 / 10 ^ 6 := by
  obtain ⟨hf, hf1⟩ := den8_pos he he1 z
  have hMr : M ≤ r := by rw [← hM]; linarith [mul_nonneg he (sin_nonneg_of_nonneg_of_le_pi hr hr1)]
  unfold kepler8
  dsimp only
  split_ifs with hs
  · rw [add_sub_cancel_right, ← div_eq_mul_one_div, abs_div, abs_of_pos hf, div_le_iff₀ hf] at hs
    rw [show res8 e M z = M + e * sin z - z by unfold res8; ring]
    nlinarith
  · have h1 := step8_beyond he he1 hr hr1 hM (hr.trans hz) hz1
    have h2 := (newton_between he he1 hM0 (hMr.trans hz) hz1).2
    obtain ⟨h3, h4⟩ := step8_nearer he he1 hr hM hz hz1
    refine hn _ h1 h2 ?_
    have h5 : (z - r) ^ 2 ≤ b ^ 2 := by
      have : 0 ≤ z - r := by linarith
      gcongr
    change step8 e M z - r ≤ c
    rcases hc with h | h <;> linarith

theorem kepler8_first {e M r : ℝ} (he : 0 ≤ e) (he1 : e ≤ 9 / 10) (hr : 0 ≤ r) (hr1 : r ≤ π) (hM0 : 0 ≤ M) (hM : r - e * sin r = M) {n : ℕ} {z : ℝ}
    (hz : M ≤ z) (hz1 : z ≤ π) (hn : ∀ z', r ≤ z' → z' ≤ π → z' - r ≤ 315 / 100 → |res8 e M (kepler8 e M n z')| ≤ 19 / 10 / 10 ^ 6) :
    |res8 e M (kepler8 e M (n + 1) z)| ≤ 19 / 10 / 10 ^ 6 := by
  obtain ⟨hf, hf1⟩ := den8_pos he he1 z
  unfold kepler8
  dsimp only
  split_ifs with hs
  · rw [add_sub_cancel_right, ← div_eq_mul_one_div, abs_div, abs_of_pos hf, div_le_iff₀ hf] at hs
    rw [show res8 e M z = M + e * sin z - z by unfold res8; ring]
    nlinarith
  · have h2 := (newton_between he he1 hM0 hz hz1).2
    have hp := pi_lt_d2
    norm_num at hp
    refine hn _ (step8_beyond he he1 hr hr1 hM (hM0.trans hz) hz1) h2 ?_
    linarith

theorem kepler8_last {e M r z : ℝ} (he : 0 ≤ e) (he1 : e ≤ 9 / 10) (hM : r - e * sin r = M) (hz : r ≤ z) (hd : z - r ≤ 1 / 10 ^ 6) :
    |res8 e M (kepler8 e M 0 z)| ≤ 19 / 10 / 10 ^ 6 := by
  have : kepler8 e M 0 z = z := by unfold kepler8; dsimp only; split_ifs <;> rfl
  rw [this]
  have h1 : |sin z - sin r| ≤ z - r := by
    rw [sin_sub_sin, abs_mul, abs_mul, abs_two]
    have h2 := abs_cos_le_one ((z + r) / 2)
    have h3 : |sin ((z - r) / 2)| ≤ (z - r) / 2 := by
      rw [← abs_of_nonneg (by linarith : 0 ≤ (z - r) / 2)]
      exact (abs_sin_le_abs).trans (by rw [abs_abs])
    nlinarith [abs_nonneg (sin ((z - r) / 2)), abs_nonneg (cos ((z + r) / 2))]
  have h2 := abs_le.1 h1
  unfold res8
  rw [← hM, abs_le]
  constructor <;> nlinarith

theorem anomaly8_first_half {e M : ℝ} (he : 0 ≤ e) (he1 : e ≤ 9 / 10) (hM : 0 ≤ M) (hM1 : M ≤ π) : |res8 e M (anomaly8 e M)| ≤ 19 / 10 / 10 ^ 6 := by
  obtain ⟨r, hr, hrM⟩ : ∃ r ∈ Set.Icc 0 π, r - e * sin r = M := by
    have hc : ContinuousOn (fun r => r - e * sin r) (Set.Icc 0 π) := (continuous_id.sub (continuous_const.mul continuous_sin)).continuousOn
    refine intermediate_value_Icc pi_pos.le hc ⟨?_, ?_⟩
    · simpa using hM
    · simpa using hM1
  have hs := sin_nonneg_of_nonneg_of_le_pi hM hM1
  have h1 : 0 ≤ e * cos M + 1 := by nlinarith [neg_one_le_cos M]
  have hfg := first_guess he (by linarith : e ≤ 1) hM hM1
  unfold anomaly8
  refine kepler8_first he he1 hr.1 hr.2 hM hrM ?_ ?_ fun z a1 a2 a3 => ?_
  · have := mul_nonneg (mul_nonneg he hs) h1
    linarith
  · linarith
  refine kepler8_near he he1 hr.1 hr.2 hM hrM (c := 21 / 10) (.inl (by norm_num)) a1 a2 a3 fun z a1 a2 a3 => ?_
  refine kepler8_near he he1 hr.1 hr.2 hM hrM (c := 14 / 10) (.inl (by norm_num)) a1 a2 a3 fun z a1 a2 a3 => ?_
  refine kepler8_near he he1 hr.1 hr.2 hM hrM (c := 934 / 1000) (.inl (by norm_num)) a1 a2 a3 fun z a1 a2 a3 => ?_
  refine kepler8_near he he1 hr.1 hr.2 hM hrM (c := 623 / 1000) (.inl (by norm_num)) a1 a2 a3 fun z a1 a2 a3 => ?_
  refine kepler8_near he he1 hr.1 hr.2 hM hrM (c := 402 / 1000) (.inr (by norm_num)) a1 a2 a3 fun z a1 a2 a3 => ?_
  refine kepler8_near he he1 hr.1 hr.2 hM hrM (c := 1673 / 10000) (.inr (by norm_num)) a1 a2 a3 fun z a1 a2 a3 => ?_
  refine kepler8_near he he1 hr.1 hr.2 hM hrM (c := 29 / 1000) (.inr (by norm_num)) a1 a2 a3 fun z a1 a2 a3 => ?_
  refine kepler8_near he he1 hr.1 hr.2 hM hrM (c := 871 / 10 ^ 6) (.inr (by norm_num)) a1 a2 a3 fun z a1 a2 a3 => ?_
  refine kepler8_near he he1 hr.1 hr.2 hM hrM (c := 1 / 10 ^ 6) (.inr (by norm_num)) a1 a2 a3 fun z a1 a2 a3 => ?_
  exact kepler8_last he he1 hrM a1 a3

theorem kepler8_turn (e M : ℝ) (k : ℤ) : ∀ (n : ℕ) (z : ℝ), kepler8 e (M + k * (2 * π)) n (z + k * (2 * π)) = kepler8 e M n z + k * (2 * π) := by
  have hz : ∀ z, (M + k * (2 * π) + e * sin (z + k * (2 * π)) - (z + k * (2 * π))) * (1 / (1 - e * cos (z + k * (2 * π)))) + (z + k * (2 * π))
      = ((M + e * sin z - z) * (1 / (1 - e * cos z)) + z) + k * (2 * π) := fun z => by rw [sin_add_int_mul_two_pi, cos_add_int_mul_two_pi]; ring
  intro n
  induction n with
  | zero =>
    intro z
    unfold kepler8
    dsimp only
    split_ifs <;> rfl
  | succ n ih =>
    intro z
    unfold kepler8
    dsimp only
    rw [hz, add_sub_add_right_eq_sub]
    split_ifs
    · rfl
    · exact ih _

theorem anomaly8_turn (e M : ℝ) (k : ℤ) : anomaly8 e (M + k * (2 * π)) = anomaly8 e M + k * (2 * π) := by
  unfold anomaly8
  rw [← kepler8_turn, sin_add_int_mul_two_pi, cos_add_int_mul_two_pi]
  congr 1
  ring

/-- For eccentricities up to 9/10 Kepler's equation is solved to 1.9·10⁻⁶ radians. -/
theorem C150_kepler_eccentric {e : ℝ} (he : 0 ≤ e) (he1 : e ≤ 9 / 10) (M : ℝ) :
    |anomaly8 e M - e * sin (anomaly8 e M) - M| ≤ 19 / 10 / 10 ^ 6 := by
  have hpi := pi_pos
  have hturn : ∀ m, 0 ≤ m → m < 2 * π → |anomaly8 e m - e * sin (anomaly8 e m) - m| ≤ 19 / 10 / 10 ^ 6 := by
    intro m h0 h1
    rcases le_total m π with h | h
    · have := anomaly8_first_half he he1 h0 h
      rw [← abs_neg] at this
      convert this using 2
      unfold res8; ring
    · have := anomaly8_first_half he he1 (M := 2 * π - m) (by linarith) (by linarith)
      rw [anomaly8_mirror] at this
      convert this using 2
      unfold res8
      rw [sin_two_pi_sub]; ring
  have hf := hturn (M - ⌊M / (2 * π)⌋ * (2 * π)) (by
    have := Int.floor_le (M / (2 * π))
    rw [le_div_iff₀ (by positivity)] at this
    linarith) (by
    have := Int.lt_floor_add_one (M / (2 * π))
    rw [div_lt_iff₀ (by positivity)] at this
    linarith)
  set m := M - ⌊M / (2 * π)⌋ * (2 * π) with hm
  have hM : M = m + ⌊M / (2 * π)⌋ * (2 * π) := by rw [hm]; ring
  generalize ⌊M / (2 * π)⌋ = k at *
  rw [hM, anomaly8_turn, sin_add_int_mul_two_pi]
  convert hf using 2
  ring

/-- An orbit of eccentricity 3/4. -/
example (M : ℝ) : |anomaly8 (3 / 4) M - 3 / 4 * sin (anomaly8 (3 / 4) M) - M| ≤ 19 / 10 / 10 ^ 6 :=
  C150_kepler_eccentric (by norm_num) (by norm_num) M

/-- The cosine and sine of the true anomaly. -/
theorem fm8_polar {e : ℝ} (he : 0 ≤ e) (he1 : e < 1) (E : ℝ) :
    cos (fm8 e E) = (cos E - e) / (1 - e * cos E) ∧ sin (fm8 e E) = √(1 - e * e) * sin E / (1 - e * cos E) ∧ 0 ≤ fm8 e E ∧ fm8 e E < 2 * π := by
  have hf : 0 < 1 - e * cos E := by nlinarith [neg_one_le_cos E, cos_le_one E]
  have hb : √(1 - e * e) ^ 2 = 1 - e * e := sq_sqrt (by nlinarith)
  have hu : ((cos E - e) * (1 / (1 - e * cos E))) ^ 2 + (√(1 - e * e) * sin E * (1 / (1 - e * cos E))) ^ 2 = 1 := by
    rw [mul_pow, mul_pow, mul_pow, hb]
    have := sin_sq_add_cos_sq E
    have h2 : sin E ^ 2 = 1 - cos E ^ 2 := by linarith
    rw [h2]
    have hD : (cos E - e) ^ 2 + (1 - e * e) * (1 - cos E ^ 2) = (1 - e * cos E) ^ 2 := by ring
    rw [← add_mul, hD]
    field_simp
  obtain ⟨h1, h2⟩ := atan2_unit hu
  obtain ⟨h3, h4⟩ := atan2_range (√(1 - e * e) * sin E * (1 / (1 - e * cos E))) ((cos E - e) * (1 / (1 - e * cos E)))
  have hpi := pi_pos
  unfold fm8
  dsimp only
  split_ifs with hc
  · rw [show π + π = 2 * π by ring, cos_add_two_pi, sin_add_two_pi, h1, h2]
    exact ⟨by ring, by ring, by linarith, by linarith⟩
  · rw [h1, h2]
    exact ⟨by ring, by ring, by linarith [not_lt.1 hc], by linarith⟩

theorem cos_true_le {e : ℝ} (he : 0 ≤ e) (he1 : e < 1) (E : ℝ) : (cos E - e) / (1 - e * cos E) ≤ cos E := by
  have hf : 0 < 1 - e * cos E := by nlinarith [neg_one_le_cos E, cos_le_one E]
  rw [div_le_iff₀ hf]
  nlinarith [sin_sq_add_cos_sq E, sq_nonneg (sin E)]

/-- Mean and true anomaly are in the same half of the orbit, so that their difference is the equation of the centre and not a turn off. -/
theorem C150_same_half {e M : ℝ} (he : 0 ≤ e) (he1 : e ≤ 9 / 10) (hM : 0 ≤ M) (hM1 : M < 2 * π) :
    (M ≤ π → M ≤ fm8 e (anomaly8 e M) ∧ fm8 e (anomaly8 e M) ≤ π) ∧ (π < M → π ≤ fm8 e (anomaly8 e M) ∧ fm8 e (anomaly8 e M) ≤ M) := by
  have hpi := pi_pos
  constructor
  · intro h
    obtain ⟨h1, h2⟩ := anomaly8_half he he1 hM h
    obtain ⟨f1, f2, f3, f4⟩ := fm8_polar he (by linarith) (anomaly8 e M)
    set E := anomaly8 e M
    have hf : 0 < 1 - e * cos E := by nlinarith [neg_one_le_cos E, cos_le_one E]
    have hs := sin_nonneg_of_nonneg_of_le_pi (by linarith : 0 ≤ E) h2
    have hle : fm8 e E ≤ π := by
      by_contra hc
      have h3 : sin (fm8 e E) < 0 := by
        have := sin_pos_of_pos_of_lt_pi (x := fm8 e E - π) (by linarith [not_le.1 hc]) (by linarith)
        rw [sin_sub_pi] at this
        linarith
      rw [f2] at h3
      have : 0 ≤ √(1 - e * e) * sin E / (1 - e * cos E) := by positivity
      linarith
    refine ⟨?_, hle⟩
    by_contra hc
    have h5 := cos_lt_cos_of_nonneg_of_le_pi f3 h2 (by linarith [not_le.1 hc] : fm8 e E < E)
    have := cos_true_le he (by linarith) E
    rw [f1] at h5
    linarith
  · intro h
    obtain ⟨h1, h2⟩ := anomaly8_half he he1 (M := 2 * π - M) (by linarith) (by linarith)
    have hE : anomaly8 e M = 2 * π - anomaly8 e (2 * π - M) := by rw [anomaly8_mirror]; ring
    have h3 : π ≤ anomaly8 e M := by linarith
    have h4 : anomaly8 e M ≤ M := by linarith
    obtain ⟨f1, f2, f3, f4⟩ := fm8_polar he (by linarith) (anomaly8 e M)
    set E := anomaly8 e M
    have hf : 0 < 1 - e * cos E := by nlinarith [neg_one_le_cos E, cos_le_one E]
    have hE1 : E < 2 * π := by linarith
    have hb : 0 < √(1 - e * e) := sqrt_pos.2 (by nlinarith)
    have hge : π ≤ fm8 e E := by
      rcases eq_or_lt_of_le h3 with h6 | h6
      · rw [← h6, cos_pi] at f1
        have hd : (-1 - e) / (1 - e * -1) = -1 := by
          have : (1 - e * -1) ≠ 0 := by linarith
          rw [div_eq_iff this]; ring
        rw [hd] at f1
        by_contra hc
        have := cos_lt_cos_of_nonneg_of_le_pi f3 le_rfl (not_le.1 hc)
        rw [cos_pi, ← h6, f1] at this
        linarith
      · have h5 : sin E < 0 := by
          have := sin_pos_of_pos_of_lt_pi (x := E - π) (by linarith) (by linarith)
          rw [sin_sub_pi] at this
          linarith
        by_contra hc
        have h7 := sin_nonneg_of_nonneg_of_le_pi f3 (not_le.1 hc).le
        rw [f2, le_div_iff₀ hf, zero_mul] at h7
        nlinarith
    refine ⟨hge, ?_⟩
    by_contra hc
    have h8 : cos (2 * π - fm8 e E) ≤ cos (2 * π - E) := by
      rw [cos_two_pi_sub, cos_two_pi_sub, f1]; exact cos_true_le he (by linarith) E
    have h9 := cos_lt_cos_of_nonneg_of_le_pi (x := 2 * π - fm8 e E) (y := 2 * π - E) (by linarith) (by linarith) (by linarith [not_le.1 hc])
    linarith

/-! ### The orientation vectors -/

/-- The vectors are those of the orbital plane, for the components `sin (i / 2) sin u`, `sin (i / 2) cos u` and the longitude `u + node`. -/
theorem C151_orientation (u node i : ℝ) (hi : 0 ≤ cos (i / 2)) :
    orient8U (u + node) (sin (i / 2) * sin u) (sin (i / 2) * cos u) = orientU u node i ∧
      orient8V (u + node) (sin (i / 2) * sin u) (sin (i / 2) * cos u) = orientV u node i := by
  have hs := sin_sq_add_cos_sq u
  have hh := sin_sq_add_cos_sq (i / 2)
  have hr : √(1 - sin (i / 2) * sin u * (sin (i / 2) * sin u) - sin (i / 2) * cos u * (sin (i / 2) * cos u)) = cos (i / 2) := by
    rw [show 1 - sin (i / 2) * sin u * (sin (i / 2) * sin u) - sin (i / 2) * cos u * (sin (i / 2) * cos u) = cos (i / 2) ^ 2 by
      linear_combination -hh - sin (i / 2) ^ 2 * hs]
    exact sqrt_sq hi
  have hc : cos i = 1 - 2 * sin (i / 2) ^ 2 := by
    have := cos_sq' (i / 2)
    rw [show i = 2 * (i / 2) by ring, cos_two_mul, show 2 * (i / 2) / 2 = i / 2 by ring]
    linarith
  have hsi : sin i = 2 * sin (i / 2) * cos (i / 2) := by
    rw [show i = 2 * (i / 2) by ring, sin_two_mul, show 2 * (i / 2) / 2 = i / 2 by ring]
  constructor
  · unfold orient8U orientU
    dsimp only
    rw [hr, cos_add, sin_add, hc, hsi]
    ext
    · dsimp only; linear_combination (-(2 * sin (i / 2) ^ 2 * sin u * cos node * cos u) + 2 * sin (i / 2) ^ 2 * sin u * cos node * cos u + 2 * sin (i / 2) ^ 2 * sin u * sin node) * hs
    · dsimp only; linear_combination (-(2 * sin (i / 2) ^ 2 * sin u * cos node)) * hs
    · dsimp only; ring
  · unfold orient8V orientV
    dsimp only
    rw [hr, cos_add, sin_add, hc, hsi]
    ext
    · dsimp only; linear_combination (2 * sin (i / 2) ^ 2 * cos u * sin node) * hs
    · dsimp only; linear_combination (-(2 * sin (i / 2) ^ 2 * cos u * cos node)) * hs
    · dsimp only; ring

/-- A polar orbit a quarter of a turn after the node. -/
example : orient8U (π / 2 + 0) (sin (π / 2 / 2) * sin (π / 2)) (sin (π / 2 / 2) * cos (π / 2)) = ⟨0, 0, 1⟩ := by
  rw [(C151_orientation (π / 2) 0 (π / 2) (cos_nonneg_of_neg_pi_div_two_le_of_le (by linarith [pi_pos]) (by linarith [pi_pos]))).1]
  unfold orientU
  simp

/-- Whatever the components are: if they fit into the unit disc, position and velocity lie in one plane, with the distance and the velocity
components of the program. -/
theorem C151_frame {lam y4 y5 : ℝ} (h : y4 ^ 2 + y5 ^ 2 ≤ 1) :
    (orient8U lam y4 y5).dot (orient8U lam y4 y5) = 1 ∧ (orient8V lam y4 y5).dot (orient8V lam y4 y5) = 1 ∧
      (orient8U lam y4 y5).dot (orient8V lam y4 y5) = 0 := by
  have hs := sin_sq_add_cos_sq lam
  have hr : √(1 - y4 * y4 - y5 * y5) ^ 2 = 1 - y4 * y4 - y5 * y5 := sq_sqrt (by nlinarith)
  unfold orient8U orient8V V3.dot
  dsimp only
  generalize √(1 - y4 * y4 - y5 * y5) = w at *
  have hs' : sin lam ^ 2 = 1 - cos lam ^ 2 := by linarith
  generalize sin lam = S at *
  generalize cos lam = C at *
  refine ⟨?_, ?_, ?_⟩
  · linear_combination (4 * y4 ^ 2) * hr + (1 + 4 * y4 ^ 2 * (y4 ^ 2 + y5 ^ 2) - 4 * y4 ^ 2) * hs
  · linear_combination (4 * y5 ^ 2) * hr + (1 + 4 * y5 ^ 2 * (y4 ^ 2 + y5 ^ 2) - 4 * y5 ^ 2) * hs
  · linear_combination (4 * y4 * y5) * hr + (4 * y4 * y5 * (y4 ^ 2 + y5 ^ 2) - 4 * y4 * y5) * hs

/-- The distance is the one computed, and the velocity has the computed components. -/
theorem C151_lengths (s : Short8) (h : s.y4 ^ 2 + s.y5 ^ 2 ≤ 1) :
    (posVel8 s).1.dot (posVel8 s).1 = (s.rr * earthRadius) ^ 2 ∧ (posVel8 s).2.dot (posVel8 s).2 = (s.rdot ^ 2 + s.rvdot ^ 2) * earthRadius ^ 2 ∧
      (posVel8 s).1.dot (posVel8 s).2 = s.rr * s.rdot * earthRadius ^ 2 := by
  obtain ⟨h1, h2, h3⟩ := C151_frame (lam := s.xlamb) h
  unfold posVel8
  dsimp only
  generalize orient8U s.xlamb s.y4 s.y5 = U at *
  generalize orient8V s.xlamb s.y4 s.y5 = V at *
  unfold V3.dot at *
  dsimp only
  refine ⟨?_, ?_, ?_⟩
  · linear_combination (s.rr * earthRadius) ^ 2 * h1
  · linear_combination earthRadius ^ 2 * (s.rdot ^ 2 * h1 + s.rvdot ^ 2 * h2 + 2 * s.rdot * s.rvdot * h3)
  · linear_combination earthRadius ^ 2 * (s.rr * s.rdot * h1 + s.rr * s.rvdot * h3)

/-! ### When the answer is a position -/

theorem init_shape {e : Elem} {p : Par8} (hi : SGP8_init e = some p) :
    p.c = sxp8_common_init e (sxpall_common_init e) ∧ p.sini = sin e.xincl ∧ p.cosi = cos e.xincl ∧ p.cosio2 = cos e.xincl * cos e.xincl := by
  unfold SGP8_init at hi
  dsimp only at hi
  split_ifs at hi with h1 h2
  · rw [Option.map_eq_some_iff] at hi
    obtain ⟨l', hl', hp⟩ := hi
    subst hp
    exact ⟨rfl, rfl, rfl, rfl⟩
  · simp only [Option.some.injEq] at hi
    subst hi
    exact ⟨rfl, rfl, rfl, rfl⟩

theorem small_constants : 0 < ck2 ∧ ck2 ≤ 5414 / 10 ^ 7 ∧ 0 < a3ovk2 ∧ a3ovk2 ≤ 4691 / 10 ^ 6 := by
  unfold a3ovk2 ck2 xj2; norm_num

/-- The components fit into the unit disc when the short-period terms are small against `cos (i / 2)`. -/
theorem disc_fits {S C D di s c : ℝ} (hsc : s ^ 2 + c ^ 2 = 1) (hSC : S ^ 2 + C ^ 2 = 1) (hS : 0 ≤ S) (hC : 1 / 25 ≤ C) (hD : |D| ≤ 31 / 1000)
    (hdi : |di| ≤ 1 / 500) :
    (S * s + c * D + s * (1 / 2) * C * di) ^ 2 + (S * c - s * D + c * (1 / 2) * C * di) ^ 2 ≤ 1 := by
  have e1 : (S * s + c * D + s * (1 / 2) * C * di) ^ 2 + (S * c - s * D + c * (1 / 2) * C * di) ^ 2 = (S + 1 / 2 * C * di) ^ 2 + D ^ 2 := by
    linear_combination ((S + 1 / 2 * C * di) ^ 2 + D ^ 2) * hsc
  rw [e1]
  have hD2 : D ^ 2 ≤ (31 / 1000) ^ 2 := by rw [← sq_abs]; gcongr
  have hd := abs_le.1 hdi
  have hS1 : S ≤ 1 := by nlinarith
  have hC1 : C ≤ 1 := by nlinarith
  have h3 : S * (C * di) ≤ 1 / 500 * C := by
    have : S * di ≤ 1 / 500 := by nlinarith
    nlinarith
  have h4 : (C * di) ^ 2 ≤ C * (1 / 500) ^ 2 := by
    have : di ^ 2 ≤ (1 / 500) ^ 2 := by rw [← sq_abs]; gcongr
    rw [mul_pow]
    nlinarith [sq_nonneg di]
  nlinarith

theorem abs_three {a b c A B : ℝ} (ha : |a| ≤ A) (hb : |b| ≤ B) (hc : |c| ≤ 1) : |a * b * c| ≤ A * B := by
  rw [abs_mul, abs_mul]
  have h0 := abs_nonneg a
  have h1 := abs_nonneg b
  have hA : 0 ≤ A := h0.trans ha
  calc |a| * |b| * |c| ≤ |a| * |b| * 1 := by gcongr
    _ ≤ A * B := by rw [mul_one]; gcongr

/-- The terms of the harmonics in the two components are small. -/
theorem disc_small {S C sn cs g3 g5 C2 g10 ecosf axn ayn sI cI : ℝ} (hu : sn ^ 2 + cs ^ 2 = 1) (hi2 : S ^ 2 + C ^ 2 = 1) (hS : 0 ≤ S)
    (hC : 1 / 25 ≤ C) (hg3 : |g3| ≤ 2707 / 10 ^ 7) (hg5 : |g5| ≤ 1173 / 10 ^ 6) (hC20 : 0 ≤ C2) (hC2 : C2 ≤ 1) (hg10 : |g10| ≤ 81 / 20)
    (hec : |ecosf| ≤ 9 / 10) (hax : |axn| ≤ 9 / 10) (hay : |ayn| ≤ 9 / 10) (hsl : |sI| ≤ 1) (hcl : |cI| ≤ 1) (hc1 : |cs| ≤ 1) :
    |S * (g3 * ((1 - C2 * 7) * (1 / 2) * (sn * 2 * cs) - (1 - C2 * 5) * 3 * g10) - g5 * sI * cs * (ecosf + 2))
        - g5 * (1 / 2) * C2 * axn / C| ≤ 31 / 1000 ∧
      |(g3 * 3 * sI * (cs * cs * 2 - 1) - g5 * ayn) * cI| ≤ 1 / 500 := by
  have hS1 : S ≤ 1 := by nlinarith
  constructor
  · have w1 : |(1 - C2 * 7) * (1 / 2)| ≤ 3 := by rw [abs_le]; constructor <;> linarith
    have w2 : |sn * 2 * cs| ≤ 1 := by rw [abs_le]; constructor <;> nlinarith [sq_nonneg (sn - cs), sq_nonneg (sn + cs)]
    have w3 : |(1 - C2 * 5) * 3| ≤ 12 := by rw [abs_le]; constructor <;> linarith
    have w4 : |(1 - C2 * 7) * (1 / 2) * (sn * 2 * cs)| ≤ 3 := by
      rw [abs_mul]
      exact (mul_le_mul w1 w2 (abs_nonneg _) (by norm_num)).trans (by norm_num)
    have w5 : |(1 - C2 * 5) * 3 * g10| ≤ 12 * (81 / 20) := by rw [abs_mul]; gcongr
    have w6 : |(1 - C2 * 7) * (1 / 2) * (sn * 2 * cs) - (1 - C2 * 5) * 3 * g10| ≤ 3 + 12 * (81 / 20) := (abs_sub _ _).trans (by linarith)
    have w7 : |g3 * ((1 - C2 * 7) * (1 / 2) * (sn * 2 * cs) - (1 - C2 * 5) * 3 * g10)| ≤ 2707 / 10 ^ 7 * (3 + 12 * (81 / 20)) := by rw [abs_mul]; gcongr
    have w8 : |g5 * sI * cs| ≤ 1173 / 10 ^ 6 * 1 := abs_three hg5 hsl hc1
    have w9 : |ecosf + 2| ≤ 29 / 10 := by rw [abs_le] at *; constructor <;> linarith
    have w10 : |g5 * sI * cs * (ecosf + 2)| ≤ 1173 / 10 ^ 6 * 1 * (29 / 10) := by rw [abs_mul]; gcongr
    have w11 : |g3 * ((1 - C2 * 7) * (1 / 2) * (sn * 2 * cs) - (1 - C2 * 5) * 3 * g10) - g5 * sI * cs * (ecosf + 2)|
        ≤ 2707 / 10 ^ 7 * (3 + 12 * (81 / 20)) + 1173 / 10 ^ 6 * 1 * (29 / 10) := (abs_sub _ _).trans (by linarith)
    have w12 : |S * (g3 * ((1 - C2 * 7) * (1 / 2) * (sn * 2 * cs) - (1 - C2 * 5) * 3 * g10) - g5 * sI * cs * (ecosf + 2))|
        ≤ 1 * (2707 / 10 ^ 7 * (3 + 12 * (81 / 20)) + 1173 / 10 ^ 6 * 1 * (29 / 10)) := by
      rw [abs_mul, abs_of_nonneg hS]; gcongr
    have w13 : |g5 * (1 / 2) * C2 * axn / C| ≤ 1173 / 10 ^ 6 * (1 / 2) * 1 * (9 / 10) / (1 / 25) := by
      rw [abs_div, abs_of_pos (by linarith : 0 < C), abs_mul, abs_mul, abs_mul, abs_of_nonneg hC20, abs_of_pos (by norm_num : (0:ℝ) < 1 / 2)]
      gcongr
    refine (abs_sub _ _).trans ((add_le_add w12 w13).trans (by norm_num))
  · have w1 : |cs * cs * 2 - 1| ≤ 1 := by rw [abs_le]; constructor <;> nlinarith [sq_nonneg sn, sq_nonneg cs]
    have w2 : |g3 * 3 * sI * (cs * cs * 2 - 1)| ≤ 2707 / 10 ^ 7 * 3 * 1 := by
      refine abs_three ?_ hsl w1
      rw [abs_mul, abs_of_pos (by norm_num : (0:ℝ) < 3)]
      gcongr
    have w3 : |g5 * ayn| ≤ 1173 / 10 ^ 6 * (9 / 10) := by rw [abs_mul]; gcongr
    rw [abs_mul]
    exact (mul_le_mul ((abs_sub _ _).trans (add_le_add w2 w3)) hcl (abs_nonneg _) (by norm_num)).trans (by norm_num)

theorem disc_terms {S C sn cs g3 g5 C2 g10 ecosf axn ayn sI cI : ℝ} (hu : sn ^ 2 + cs ^ 2 = 1) (hi2 : S ^ 2 + C ^ 2 = 1) (hS : 0 ≤ S)
    (hC : 1 / 25 ≤ C) (hg3 : |g3| ≤ 2707 / 10 ^ 7) (hg5 : |g5| ≤ 1173 / 10 ^ 6) (hC20 : 0 ≤ C2) (hC2 : C2 ≤ 1) (hg10 : |g10| ≤ 81 / 20)
    (hec : |ecosf| ≤ 9 / 10) (hax : |axn| ≤ 9 / 10) (hay : |ayn| ≤ 9 / 10) (hsl : |sI| ≤ 1) (hcl : |cI| ≤ 1) (hc1 : |cs| ≤ 1) :
    (S * sn + cs * (S * (g3 * ((1 - C2 * 7) * (1 / 2) * (sn * 2 * cs) - (1 - C2 * 5) * 3 * g10) - g5 * sI * cs * (ecosf + 2))
        - g5 * (1 / 2) * C2 * axn / C) + sn * (1 / 2) * C * ((g3 * 3 * sI * (cs * cs * 2 - 1) - g5 * ayn) * cI)) ^ 2
      + (S * cs - sn * (S * (g3 * ((1 - C2 * 7) * (1 / 2) * (sn * 2 * cs) - (1 - C2 * 5) * 3 * g10) - g5 * sI * cs * (ecosf + 2))
        - g5 * (1 / 2) * C2 * axn / C) + cs * (1 / 2) * C * ((g3 * 3 * sI * (cs * cs * 2 - 1) - g5 * ayn) * cI)) ^ 2 ≤ 1 := by
  obtain ⟨h1, h2⟩ := disc_small hu hi2 hS hC hg3 hg5 hC20 hC2 hg10 hec hax hay hsl hcl hc1
  exact disc_fits hu hi2 hS hC h1 h2

theorem coefficients_small {g1 : ℝ} (h0 : 0 < g1) (h1 : g1 ≤ 1) : |ck2 * (1 / 2) * g1 * g1| ≤ 2707 / 10 ^ 7 ∧ |a3ovk2 * (1 / 4) * g1| ≤ 1173 / 10 ^ 6 := by
  obtain ⟨k1, k2, k3, k4⟩ := small_constants
  constructor
  · rw [abs_of_nonneg (by positivity), mul_assoc]
    have : g1 * g1 ≤ 1 := by nlinarith
    have h2 : 0 ≤ g1 * g1 := by positivity
    calc ck2 * (1 / 2) * (g1 * g1) ≤ 5414 / 10 ^ 7 * (1 / 2) * 1 := by gcongr
      _ = _ := by norm_num
  · rw [abs_of_nonneg (by positivity)]
    calc a3ovk2 * (1 / 4) * g1 ≤ 4691 / 10 ^ 6 * (1 / 4) * 1 := by gcongr
      _ ≤ _ := by norm_num

theorem half_mul {e x : ℝ} (he : 0 ≤ e) (he1 : e ≤ 9 / 10) (hx : |x| ≤ 1) : |e * x| ≤ 9 / 10 := by
  rw [abs_mul, abs_of_nonneg he]
  nlinarith [abs_nonneg x]

theorem outside_latus {a e : ℝ} (hq : 1 ≤ a * (1 - e)) (he : 0 ≤ e) : 1 ≤ a * (1 - e * e) := by
  have : a * (1 - e * e) = a * (1 - e) * (1 + e) := by ring
  rw [this]
  nlinarith

/-- For inclinations up to 175 degrees, an orbit outside the Earth and an eccentricity up to 9/10 at the time asked for, the answer is a position. -/
theorem C149_position_partial {e : Elem} {p : Par8} (hi : SGP8_init e = some p) {t : ℝ} {m : Mean8} (hm : mean8 p e t = some m) (hn : 0 < m.xn)
    (he : 0 ≤ m.em) (he1 : m.em ≤ 9 / 10) (hq : 1 ≤ (xke / m.xn) ^ (2 / 3 : ℝ) * (1 - m.em)) (h0 : 0 ≤ e.xincl) (h1 : e.xincl ≤ 35 / 36 * π) :
    ∃ s : Short8, SGP8 p e t = (0, some (posVel8 s)) ∧ s.y4 ^ 2 + s.y5 ^ 2 ≤ 1 := by
  obtain ⟨hc, hsi, hco, hco2⟩ := init_shape hi
  have hpi := pi_pos
  have hC : 1 / 25 ≤ cos (e.xincl / 2) := by
    have hp1 := pi_gt_d2
    have hp2 := pi_lt_d2
    have h2 : cos (35 / 72 * π) ≤ cos (e.xincl / 2) := cos_le_cos_of_nonneg_of_le_pi (by linarith) (by linarith) (by linarith)
    have h3 : sin (π / 72) = cos (35 / 72 * π) := by rw [← cos_pi_div_two_sub]; congr 1; ring
    have h4 := sin_gt_sub_cube (x := π / 72) (by positivity)
    have h5 : (π / 72) ^ 3 ≤ (3.15 / 72) ^ 3 := by gcongr
    norm_num at h5 hp1
    linarith
  have hS : 0 ≤ sin (e.xincl / 2) := sin_nonneg_of_nonneg_of_le_pi (by linarith) (by linarith)
  have hM : 0 ≤ m.xmam ∧ m.xmam < 2 * π := by
    obtain ⟨q, hq, hqm⟩ := Option.map_eq_some_iff.1 hm
    subst hqm
    dsimp only
    exact ⟨(C40_FMod2p _).1, (C40_FMod2p _).2.1⟩
  have hhalf := C150_same_half he he1 hM.1 hM.2
  set E := anomaly8 m.em m.xmam with hE
  obtain ⟨f1, f2, f3, f4⟩ := fm8_polar he (by linarith) E
  have hfM : |fm8 m.em E - m.xmam| ≤ π := by
    rw [abs_le]
    rcases le_or_gt m.xmam π with h | h
    · have := hhalf.1 h; constructor <;> linarith [this.1, this.2, hM.1]
    · have := hhalf.2 h; constructor <;> linarith [this.1, this.2, hM.2]
  have hci : 0 < 1 + cos e.xincl := by
    have : cos e.xincl = 2 * cos (e.xincl / 2) ^ 2 - 1 := by rw [← cos_two_mul]; congr 1; ring
    nlinarith
  have key : (short8 ck2 a3ovk2 p m E).y4 ^ 2 + (short8 ck2 a3ovk2 p m E).y5 ^ 2 ≤ 1 := by
    have hden : 0 < 1 - m.em * cos E := by nlinarith [neg_one_le_cos E, cos_le_one E]
    have hfu := sin_sq_add_cos_sq (fm8 m.em E)
    have hsn : √(1 - m.em * m.em) * sin E * (1 / (1 - m.em * cos E)) = sin (fm8 m.em E) := by rw [f2]; field_simp
    have hcs : (cos E - m.em) * (1 / (1 - m.em * cos E)) = cos (fm8 m.em E) := by rw [f1]; field_simp
    unfold short8
    dsimp only
    rw [hsn, hcs, hc, hsi, hco, hco2]
    unfold sxp8_common_init sxpall_common_init
    dsimp only
    rw [show e.xincl * (1 / 2) = e.xincl / 2 by ring]
    have hs' : sin (fm8 m.em E) * cos m.omgasm + cos (fm8 m.em E) * sin m.omgasm = sin (fm8 m.em E + m.omgasm) := (sin_add _ _).symm
    have hc' : cos (fm8 m.em E) * cos m.omgasm - sin (fm8 m.em E) * sin m.omgasm = cos (fm8 m.em E + m.omgasm) := (cos_add _ _).symm
    rw [hs', hc']
    have hpm : 1 ≤ (xke / m.xn) ^ (2 / 3 : ℝ) * (1 - m.em * m.em) := outside_latus hq he
    have hg1 : 1 / ((xke / m.xn) ^ (2 / 3 : ℝ) * (1 - m.em * m.em)) ≤ 1 := by rw [div_le_one (by linarith)]; exact hpm
    have hg0 : 0 < 1 / ((xke / m.xn) ^ (2 / 3 : ℝ) * (1 - m.em * m.em)) := by positivity
    generalize 1 / ((xke / m.xn) ^ (2 / 3 : ℝ) * (1 - m.em * m.em)) = g1 at *
    obtain ⟨hg3, hg5⟩ := coefficients_small hg0 hg1
    generalize ck2 * (1 / 2) * g1 * g1 = g3 at *
    generalize a3ovk2 * (1 / 4) * g1 = g5 at *
    have hu := sin_sq_add_cos_sq (fm8 m.em E + m.omgasm)
    have hi2 := sin_sq_add_cos_sq (e.xincl / 2)
    have hes : |m.em * sin (fm8 m.em E)| ≤ 9 / 10 := half_mul he he1 (abs_sin_le_one (fm8 m.em E))
    have hec : |m.em * cos (fm8 m.em E)| ≤ 9 / 10 := half_mul he he1 (abs_cos_le_one (fm8 m.em E))
    have hax : |m.em * cos m.omgasm| ≤ 9 / 10 := half_mul he he1 (abs_cos_le_one m.omgasm)
    have hay : |m.em * sin m.omgasm| ≤ 9 / 10 := half_mul he he1 (abs_sin_le_one m.omgasm)
    have hg10 : |fm8 m.em E - m.xmam + m.em * sin (fm8 m.em E)| ≤ 81 / 20 := by
      refine (abs_add_le _ _).trans ?_
      have := pi_lt_d2
      norm_num at this
      linarith
    have hC2 : cos e.xincl * cos e.xincl ≤ 1 := by rw [← sq]; exact cos_sq_le_one _
    have hC20 : 0 ≤ cos e.xincl * cos e.xincl := mul_self_nonneg _
    have hsl := abs_sin_le_one e.xincl
    have hcl := abs_cos_le_one e.xincl
    generalize fm8 m.em E - m.xmam + m.em * sin (fm8 m.em E) = g10 at *
    generalize m.em * cos (fm8 m.em E) = ecosf at *
    generalize m.em * cos m.omgasm = axn at *
    generalize m.em * sin m.omgasm = ayn at *
    generalize cos e.xincl * cos e.xincl = C2 at *
    have hc1 := abs_cos_le_one (fm8 m.em E + m.omgasm)
    generalize sin (fm8 m.em E + m.omgasm) = sn at *
    generalize cos (fm8 m.em E + m.omgasm) = cs at *
    generalize sin (e.xincl / 2) = S at *
    generalize cos (e.xincl / 2) = C at *
    exact disc_terms hu hi2 hS hC hg3 hg5 hC20 hC2 hg10 hec hax hay hsl hcl hc1
  refine ⟨short8 ck2 a3ovk2 p m E, ?_, key⟩
  unfold SGP8
  rw [hm, Option.bind_some]
  dsimp only
  rw [← hE, if_neg]
  rintro (h | h | h | h | h)
  · linarith
  · nlinarith
  · rw [hc] at h
    unfold sxp8_common_init at h
    dsimp only at h
    rw [show e.xincl * (1 / 2) = e.xincl / 2 by ring] at h
    linarith
  · rw [hco] at h; linarith
  · nlinarith

/-- A circular orbit without drag. -/
example (t : ℝ) : ∃ p s, SGP8_init (lowCircle 0) = some p ∧ SGP8 p (lowCircle 0) t = (0, some (posVel8 s)) ∧ s.y4 ^ 2 + s.y5 ^ 2 ≤ 1 := by
  have h0 : xndtn (fixedOf (lowCircle 0)) (orbOf (lowCircle 0)) = 0 := by rw [lowCircle_xndtn]; ring
  have h3 : xndt (fixedOf (lowCircle 0)) (orbOf (lowCircle 0)) = 0 := by
    unfold xndtn at h0
    rcases div_eq_zero_iff.1 h0 with h | h
    · exact h
    · rw [lowCircle_orb] at h
      have := xke_pos'
      exact absurd h (by positivity)
  have hi : ∃ p, SGP8_init (lowCircle 0) = some p ∧ p.law = none ∧ p.xnodp = xke / (51 / 50) ^ 3 ∧ p.xndt = 0 ∧ p.edot = 0 := by
    refine ⟨_, by unfold SGP8_init; dsimp only; rw [if_neg (by rw [h0]; norm_num)], rfl, ?_, h3, by simp [h0]⟩
    have := congrArg Orb.n (lowCircle_orb 0)
    exact this
  obtain ⟨p, hp, hl, hn, hd, he⟩ := hi
  have hx := xke_pos'
  have hm : mean8 p (lowCircle 0) t = some ⟨xke / (51 / 50) ^ 3, 0, FMod2p (FMod2p ((lowCircle 0).xmo + p.c.xmdot * t) + 0 + 0 * p.c.xmdt1),
      (lowCircle 0).omegao + p.c.omgdot * t + 0 * p.c.xgdt1, (lowCircle 0).xnodeo + p.c.xnodot * t + 0 * p.c.xhdt1⟩ := by
    unfold mean8 decay8
    rw [hl]
    simp [hn, hd, he, lowCircle]
  obtain ⟨s, hs⟩ := C149_position_partial hp hm (by positivity) le_rfl (by norm_num) (by
    have : xke / (xke / (51 / 50) ^ 3) = (51 / 50 : ℝ) ^ 3 := by field_simp
    rw [this]
    simp only [sub_zero, mul_one]
    exact one_le_rpow (by norm_num) (by norm_num)) (arccos_nonneg _) (by
    have h4 : arccos (√(1 / 3)) ≤ π / 2 := arccos_le_pi_div_two.2 (sqrt_nonneg _)
    have := pi_pos
    show arccos (√(1 / 3)) ≤ _
    linarith)
  exact ⟨p, s, hp, hs⟩

end SatSky.Props
