import Verif.Props.DeepSecular
import Verif.Props.DeepConst
import Verif.Lemmas.Near
import Verif.Props.Angles

/-! C106: the orbits of Sun and Moon that `Deep_dpinit` uses. -/

namespace SatSky.Props

open SatSky.Spec SatSky.Sxp SatSky.Trig SatSky.Geo Real

/-! ### The constants -/

theorem obliquity : |cos (deg 23.4441) - 917448673025276707 / 10 ^ 18| ≤ 1 / 10 ^ 12 ∧ |sin (deg 23.4441) - 397854159666779039 / 10 ^ 18| ≤ 1 / 10 ^ 12 := by
  have p1 := pi_gt_d20
  have p2 := pi_lt_d20
  have := near (x := deg 23.4441) (q := 409176735166802620 / 10 ^ 18) (c := 917448673025276707 / 10 ^ 18) (s := 397854159666779039 / 10 ^ 18)
    (cq := 917448673025276707 / 10 ^ 18) (sq := 397854159666779039 / 10 ^ 18) (by decide +kernel)
    (by unfold deg; rw [abs_le]; push_cast; constructor <;> norm_num at * <;> linarith) (by decide +kernel) (by decide +kernel)
    (by norm_num) (by norm_num)
  rw [abs_sub_comm, abs_sub_comm (sin _)]
  exact this

theorem inclination : |cos (deg 5.1454) - 995970314711613061 / 10 ^ 18| ≤ 1 / 10 ^ 12 ∧ |sin (deg 5.1454) - 89683511378906417 / 10 ^ 18| ≤ 1 / 10 ^ 12 := by
  have p1 := pi_gt_d20
  have p2 := pi_lt_d20
  have := near (x := deg 5.1454) (q := 89804171332116234 / 10 ^ 18) (c := 995970314711613061 / 10 ^ 18) (s := 89683511378906417 / 10 ^ 18)
    (cq := 995970314711613061 / 10 ^ 18) (sq := 89683511378906417 / 10 ^ 18) (by decide +kernel)
    (by unfold deg; rw [abs_le]; push_cast; constructor <;> norm_num at * <;> linarith) (by decide +kernel) (by decide +kernel)
    (by norm_num) (by norm_num)
  rw [abs_sub_comm, abs_sub_comm (sin _)]
  exact this

theorem sunPerigee : |cos (deg 281.2208) - 194590453076433858 / 10 ^ 18| ≤ 1 / 10 ^ 12 ∧ |sin (deg 281.2208) + 980884578108713152 / 10 ^ 18| ≤ 1 / 10 ^ 12 := by
  have p1 := pi_gt_d20
  have p2 := pi_lt_d20
  have := near (x := deg 281.2208 - 3 * π / 2) (q := 195839904707779733 / 10 ^ 18) (c := 980884578108713152 / 10 ^ 18) (s := 194590453076433858 / 10 ^ 18)
    (cq := 980884578108713152 / 10 ^ 18) (sq := 194590453076433858 / 10 ^ 18) (by decide +kernel)
    (by unfold deg; rw [abs_le]; push_cast; constructor <;> norm_num at * <;> linarith) (by decide +kernel) (by decide +kernel)
    (by norm_num) (by norm_num)
  have e : deg 281.2208 = (deg 281.2208 - 3 * π / 2) + π + π / 2 := by ring
  have hc : cos (deg 281.2208) = sin (deg 281.2208 - 3 * π / 2) := by
    conv_lhs => rw [e]
    rw [cos_add_pi_div_two, sin_add_pi, neg_neg]
  have hs : sin (deg 281.2208) = -cos (deg 281.2208 - 3 * π / 2) := by
    conv_lhs => rw [e]
    rw [sin_add_pi_div_two, cos_add_pi]
  rw [hc, hs, abs_sub_comm]
  refine ⟨this.2, ?_⟩
  rw [neg_add_eq_sub]
  exact this.1

/-! ### The Sun -/

/-- C106: the Sun moves in the ecliptic with the obliquity 23.4441°, its perigee is at the longitude 281.2208°. -/
theorem C106_sun : Close (1 / 10 ^ 7) (axisP (solarOrient 0)) (ecliptic (deg 23.4441) (apse 0 0 (deg 281.2208))) ∧
    Close (1 / 10 ^ 7) (axisQ (solarOrient 0)) (ecliptic (deg 23.4441) (latus 0 0 (deg 281.2208))) := by
  obtain ⟨e1, e2⟩ := obliquity
  obtain ⟨g1, g2⟩ := sunPerigee
  have e1' := Near.refl (cos (deg 23.4441))
  have s1 : |sin (deg 281.2208)| ≤ 1 := abs_sin_le_one _
  have c1 : |cos (deg 281.2208)| ≤ 1 := abs_cos_le_one _
  have E1 : |zcosi0 - cos (deg 23.4441)| ≤ 1 / 10 ^ 8 := by
    unfold zcosi0; obtain ⟨a, b⟩ := abs_le.mp e1; rw [abs_le]; constructor <;> norm_num at * <;> linarith
  have E2 : |zsini0 - sin (deg 23.4441)| ≤ 1 / 10 ^ 8 := by
    unfold zsini0; obtain ⟨a, b⟩ := abs_le.mp e2; rw [abs_le]; constructor <;> norm_num at * <;> linarith
  have G1 : |1945905 / 10 ^ 7 - cos (deg 281.2208)| ≤ 5 / 10 ^ 8 := by
    obtain ⟨a, b⟩ := abs_le.mp g1; rw [abs_le]; constructor <;> norm_num at * <;> linarith
  have G2 : |-(98088458 / 10 ^ 8) - sin (deg 281.2208)| ≤ 5 / 10 ^ 8 := by
    obtain ⟨a, b⟩ := abs_le.mp g2; rw [abs_le]; constructor <;> norm_num at * <;> linarith
  have k1 : |(-(98088458 / 10 ^ 8) : ℝ)| ≤ 1 := by rw [abs_le]; constructor <;> norm_num
  have k2 : |(1945905 / 10 ^ 7 : ℝ)| ≤ 1 := by rw [abs_le]; constructor <;> norm_num
  have a1 := Near.mul G2 E1 k1 (abs_cos_le_one _)
  have a2 := Near.mul G2 E2 k1 (abs_sin_le_one _)
  have a3 := Near.mul G1 E1 k2 (abs_cos_le_one _)
  have a4 := Near.mul G1 E2 k2 (abs_sin_le_one _)
  have t : (1 : ℝ) * (1 / 10 ^ 8) + 1 * (5 / 10 ^ 8) ≤ 1 / 10 ^ 7 := by norm_num
  have G1' := G1.trans (show (5 / 10 ^ 8 : ℝ) ≤ 1 / 10 ^ 7 by norm_num)
  have G2' := G2.trans (show (5 / 10 ^ 8 : ℝ) ≤ 1 / 10 ^ 7 by norm_num)
  unfold Close axisP axisQ solarOrient ecliptic apse latus
  simp only [cos_zero, sin_zero, mul_zero, mul_one, one_mul, zero_mul, sub_zero, add_zero, neg_zero, zero_add]
  refine ⟨⟨G1', ?_, ?_⟩, ?_, ?_, ?_⟩
  · rw [mul_comm (cos (deg 23.4441))]; exact a1.trans t
  · rw [mul_comm (sin (deg 23.4441))]; exact a2.trans t
  · rw [neg_sub_neg, abs_sub_comm]; exact G2'
  · rw [mul_comm (cos (deg 23.4441))]; exact a3.trans t
  · rw [mul_comm (sin (deg 23.4441))]; exact a4.trans t

/-! ### The Moon -/

section Moon

variable {ce se cJ sJ C S : ℝ}

/-- The orbit of the Moon relative to the equator: cosine of the inclination. -/
def trueCi (ce se cJ sJ C : ℝ) : ℝ := ce * cJ - se * sJ * C
noncomputable def trueSi (ce se cJ sJ C : ℝ) : ℝ := √(1 - trueCi ce se cJ sJ C * trueCi ce se cJ sJ C)

/-- What is known of the constants. -/
structure Consts (ce se cJ sJ C S : ℝ) : Prop where
  ce1 : |ce - 917448673025276707 / 10 ^ 18| ≤ 1 / 10 ^ 12
  se1 : |se - 397854159666779039 / 10 ^ 18| ≤ 1 / 10 ^ 12
  cJ1 : |cJ - 995970314711613061 / 10 ^ 18| ≤ 1 / 10 ^ 12
  sJ1 : |sJ - 89683511378906417 / 10 ^ 18| ≤ 1 / 10 ^ 12
  ue : se ^ 2 + ce ^ 2 = 1
  uJ : sJ ^ 2 + cJ ^ 2 = 1
  u : S ^ 2 + C ^ 2 = 1

theorem Consts.C1 (h : Consts ce se cJ sJ C S) : |C| ≤ 1 := abs_le.mpr ⟨by nlinarith [h.u], by nlinarith [h.u]⟩
theorem Consts.S1 (h : Consts ce se cJ sJ C S) : |S| ≤ 1 := abs_le.mpr ⟨by nlinarith [h.u], by nlinarith [h.u]⟩

/-- The products that appear as constants. -/
theorem Consts.prods (h : Consts ce se cJ sJ C S) : |91375164 / 10 ^ 8 - ce * cJ| ≤ 1 / 10 ^ 8 ∧ |3568096 / 10 ^ 8 - se * sJ| ≤ 1 / 10 ^ 8 := by
  have p1 := Near.mul h.ce1 h.cJ1 (A := 1) (B := 1)
    (by obtain ⟨a, b⟩ := abs_le.mp h.ce1; rw [abs_le]; constructor <;> norm_num at * <;> linarith) (by rw [abs_le]; constructor <;> norm_num)
  have p2 := Near.mul h.se1 h.sJ1 (A := 1) (B := 1)
    (by obtain ⟨a, b⟩ := abs_le.mp h.se1; rw [abs_le]; constructor <;> norm_num at * <;> linarith) (by rw [abs_le]; constructor <;> norm_num)
  obtain ⟨a, b⟩ := abs_le.mp p1
  obtain ⟨c, d⟩ := abs_le.mp p2
  constructor <;> rw [abs_le] <;> constructor <;> norm_num at * <;> linarith

theorem Consts.ci (h : Consts ce se cJ sJ C S) : |91375164 / 10 ^ 8 - 3568096 / 10 ^ 8 * C - trueCi ce se cJ sJ C| ≤ 2 / 10 ^ 8 := by
  obtain ⟨p1, p2⟩ := h.prods
  have := Near.sub p1 (Near.mul p2 (Near.refl C) (A := 1) (by rw [abs_le]; constructor <;> norm_num) h.C1)
  unfold trueCi
  linarith

theorem Consts.ci_range (h : Consts ce se cJ sJ C S) : (87 / 100 ≤ trueCi ce se cJ sJ C ∧ trueCi ce se cJ sJ C ≤ 95 / 100) ∧
    (87 / 100 ≤ (91375164 / 10 ^ 8 - 3568096 / 10 ^ 8 * C : ℝ) ∧ (91375164 / 10 ^ 8 - 3568096 / 10 ^ 8 * C : ℝ) ≤ 95 / 100) := by
  obtain ⟨a, b⟩ := abs_le.mp h.ci
  obtain ⟨c, d⟩ := abs_le.mp h.C1
  refine ⟨⟨?_, ?_⟩, ?_, ?_⟩ <;> norm_num at * <;> linarith

/-- `zsinil`. -/
theorem Consts.si (h : Consts ce se cJ sJ C S) :
    |√(1 - (91375164 / 10 ^ 8 - 3568096 / 10 ^ 8 * C) * (91375164 / 10 ^ 8 - 3568096 / 10 ^ 8 * C)) - trueSi ce se cJ sJ C| ≤ 7 / 10 ^ 8 ∧
      3 / 10 ≤ √(1 - (91375164 / 10 ^ 8 - 3568096 / 10 ^ 8 * C) * (91375164 / 10 ^ 8 - 3568096 / 10 ^ 8 * C)) ∧ 3 / 10 ≤ trueSi ce se cJ sJ C := by
  obtain ⟨⟨a1, a2⟩, b1, b2⟩ := h.ci_range
  have hc := h.ci
  unfold trueSi
  generalize trueCi ce se cJ sJ C = x at *
  generalize (91375164 / 10 ^ 8 - 3568096 / 10 ^ 8 * C : ℝ) = y at *
  have h1 : (3 / 10 : ℝ) * (3 / 10) ≤ 1 - x * x := by nlinarith
  have h2 : (3 / 10 : ℝ) * (3 / 10) ≤ 1 - y * y := by nlinarith
  have h3 : |1 - y * y - (1 - x * x)| ≤ 39 / 10 ^ 9 := by
    rw [show 1 - y * y - (1 - x * x) = (x - y) * (x + y) by ring, abs_mul, abs_sub_comm]
    have := mul_le_mul hc (show |x + y| ≤ 19 / 10 by rw [abs_le]; constructor <;> linarith) (abs_nonneg _) (by norm_num)
    norm_num at *
    linarith
  refine ⟨(Near.sqrt (by norm_num) h2 h1 h3).trans (by norm_num), le_sqrt_of_sq_le (by rw [sq]; exact h2), le_sqrt_of_sq_le (by rw [sq]; exact h1)⟩

/-- Right ascension of the node on the equator. -/
noncomputable def trueSh (ce se cJ sJ C S : ℝ) : ℝ := sJ * S / trueSi ce se cJ sJ C
noncomputable def trueCh (ce se cJ sJ C : ℝ) : ℝ := (ce * sJ * C + se * cJ) / trueSi ce se cJ sJ C

theorem Consts.si_sq (h : Consts ce se cJ sJ C S) : trueSi ce se cJ sJ C * trueSi ce se cJ sJ C = 1 - trueCi ce se cJ sJ C * trueCi ce se cJ sJ C := by
  obtain ⟨⟨a1, a2⟩, -⟩ := h.ci_range
  unfold trueSi
  exact mul_self_sqrt (by nlinarith)

theorem Consts.unit (h : Consts ce se cJ sJ C S) : trueSh ce se cJ sJ C S ^ 2 + trueCh ce se cJ sJ C ^ 2 = 1 := by
  have hs := h.si_sq
  have h0 : trueSi ce se cJ sJ C ≠ 0 := by have := h.si.2.2; intro h; rw [h] at this; norm_num at this
  unfold trueSh trueCh
  rw [div_pow, div_pow, ← add_div, div_eq_one_iff_eq (pow_ne_zero 2 h0), sq (trueSi _ _ _ _ _), hs]
  unfold trueCi
  have h1 := h.ue
  have h2 := h.uJ
  have h3 := h.u
  have e1 : ce ^ 2 = 1 - se ^ 2 := by linarith
  have e2 : cJ ^ 2 = 1 - sJ ^ 2 := by linarith
  have e3 : S ^ 2 = 1 - C ^ 2 := by linarith
  linear_combination (sJ ^ 2 * e3) + (sJ ^ 2 * C ^ 2 + cJ ^ 2) * e1 + (1 : ℝ) * e2

theorem Consts.ch_pos (h : Consts ce se cJ sJ C S) : 0 ≤ trueCh ce se cJ sJ C := by
  have h1 := h.si.2.2
  obtain ⟨a1, a2⟩ := abs_le.mp h.ce1
  obtain ⟨b1, b2⟩ := abs_le.mp h.se1
  obtain ⟨c1, c2⟩ := abs_le.mp h.cJ1
  obtain ⟨d1, d2⟩ := abs_le.mp h.sJ1
  obtain ⟨f1, f2⟩ := abs_le.mp h.C1
  unfold trueCh
  refine div_nonneg ?_ (by linarith)
  have k1 : 0 ≤ ce * sJ := by norm_num at *; nlinarith
  have k2 : ce * sJ ≤ 1 / 10 := by norm_num at *; nlinarith
  have k3 : 3 / 10 ≤ se * cJ := by norm_num at *; nlinarith
  nlinarith

theorem Consts.sh (h : Consts ce se cJ sJ C S) {si' : ℝ} (h1 : |si' - trueSi ce se cJ sJ C| ≤ 7 / 10 ^ 8) (h2 : 3 / 10 ≤ si') :
    |89683511 / 10 ^ 9 * S / si' - trueSh ce se cJ sJ C S| ≤ 8 / 10 ^ 8 ∧ |89683511 / 10 ^ 9 * S / si'| ≤ 3 / 10 ∧ |trueSh ce se cJ sJ C S| ≤ 3 / 10 := by
  obtain ⟨d1, d2⟩ := abs_le.mp h.sJ1
  have hS := h.S1
  have n1 : |89683511 / 10 ^ 9 * S - sJ * S| ≤ 1 / 10 ^ 9 := by
    have : |(89683511 / 10 ^ 9 : ℝ) - sJ| ≤ 1 / 10 ^ 9 := by rw [abs_le]; constructor <;> norm_num at * <;> linarith
    rw [← sub_mul, abs_mul]
    have := mul_le_mul this hS (abs_nonneg _) (by norm_num)
    linarith
  have n2 : |sJ * S| ≤ 9 / 100 := by
    rw [abs_mul]
    have : |sJ| ≤ 9 / 100 := by rw [abs_le]; constructor <;> norm_num at * <;> linarith
    have := mul_le_mul this hS (abs_nonneg _) (by norm_num)
    linarith
  have n3 : |89683511 / 10 ^ 9 * S| ≤ 9 / 100 := by
    rw [abs_mul]
    have : |(89683511 / 10 ^ 9 : ℝ)| ≤ 9 / 100 := by rw [abs_le]; constructor <;> norm_num
    have := mul_le_mul this hS (abs_nonneg _) (by norm_num)
    linarith
  refine ⟨(Near.div n1 h1 (m := 3 / 10) (by norm_num) h2 h.si.2.2 n2).trans (by norm_num), ?_, ?_⟩
  · rw [abs_div, abs_of_pos (by linarith : 0 < si'), div_le_iff₀ (by linarith)]
    linarith
  · have := h.si.2.2
    unfold trueSh
    rw [abs_div, abs_of_pos (by linarith : 0 < trueSi ce se cJ sJ C), div_le_iff₀ (by linarith)]
    linarith

theorem Consts.ch (h : Consts ce se cJ sJ C S) {sh' : ℝ} (h1 : |sh' - trueSh ce se cJ sJ C S| ≤ 8 / 10 ^ 8) (h2 : |sh'| ≤ 3 / 10)
    (h3 : |trueSh ce se cJ sJ C S| ≤ 3 / 10) : |√(1 - sh' * sh') - trueCh ce se cJ sJ C| ≤ 4 / 10 ^ 8 := by
  have e : trueCh ce se cJ sJ C = √(1 - trueSh ce se cJ sJ C S * trueSh ce se cJ sJ C S) := by
    rw [eq_comm, sqrt_eq_iff_mul_self_eq (by obtain ⟨a, b⟩ := abs_le.mp h3; nlinarith) h.ch_pos]
    have := h.unit
    linarith
  rw [e]
  obtain ⟨a, b⟩ := abs_le.mp h3
  obtain ⟨a', b'⟩ := abs_le.mp h2
  generalize trueSh ce se cJ sJ C S = y at *
  have k : |1 - sh' * sh' - (1 - y * y)| ≤ 48 / 10 ^ 9 := by
    rw [show 1 - sh' * sh' - (1 - y * y) = (sh' - y) * -(sh' + y) by ring, abs_mul]
    have := mul_le_mul h1 (show |-(sh' + y)| ≤ 6 / 10 by rw [abs_le]; constructor <;> linarith) (abs_nonneg _) (by norm_num)
    norm_num at *
    linarith
  exact (Near.sqrt (m := 9 / 10) (by norm_num) (by nlinarith) (by nlinarith) k).trans (by norm_num)

/-- Cosine and sine of the angle from the node on the equator to that on the ecliptic. -/
noncomputable def trueX (ce se cJ sJ C : ℝ) : ℝ := (ce * sJ + se * cJ * C) / trueSi ce se cJ sJ C
noncomputable def trueY (ce se cJ sJ C S : ℝ) : ℝ := se * S / trueSi ce se cJ sJ C

theorem Consts.si_ne (h : Consts ce se cJ sJ C S) : trueSi ce se cJ sJ C ≠ 0 := by
  have := h.si.2.2
  intro h
  rw [h] at this
  norm_num at this

theorem Consts.x_eq (h : Consts ce se cJ sJ C S) : trueX ce se cJ sJ C = trueCh ce se cJ sJ C * C + ce * trueSh ce se cJ sJ C S * S := by
  have h0 := h.si_ne
  unfold trueX trueCh trueSh
  generalize trueSi ce se cJ sJ C = s at *
  field_simp
  linear_combination (-ce * sJ) * h.u

theorem Consts.xy_unit (h : Consts ce se cJ sJ C S) : trueY ce se cJ sJ C S ^ 2 + trueX ce se cJ sJ C ^ 2 = 1 := by
  have h0 := h.si_ne
  have hs := h.si_sq
  unfold trueX trueY
  unfold trueCi at hs
  generalize trueSi ce se cJ sJ C = s at *
  rw [div_pow, div_pow, ← add_div, div_eq_one_iff_eq (pow_ne_zero 2 h0), sq s, hs]
  linear_combination (se ^ 2) * h.u + (ce ^ 2 + se ^ 2 * C ^ 2) * h.uJ + (1 : ℝ) * h.ue

theorem Consts.rot1 (h : Consts ce se cJ sJ C S) : trueX ce se cJ sJ C * trueCh ce se cJ sJ C
    - trueY ce se cJ sJ C S * trueCi ce se cJ sJ C * trueSh ce se cJ sJ C S = C := by
  have h0 := h.si_ne
  have hs := h.si_sq
  unfold trueX trueY trueCh trueSh
  unfold trueCi at *
  generalize trueSi ce se cJ sJ C = s at *
  have : (ce * sJ + se * cJ * C) * (ce * sJ * C + se * cJ) - se * S * (ce * cJ - se * sJ * C) * (sJ * S) = C * (s * s) := by
    rw [hs]
    linear_combination (ce ^ 2 * C + se ^ 2 * C) * h.uJ + (-se * ce * sJ * cJ + se ^ 2 * C * sJ ^ 2) * h.u + C * h.ue
  field_simp
  linear_combination this

theorem Consts.rot2 (h : Consts ce se cJ sJ C S) : trueY ce se cJ sJ C S * trueCh ce se cJ sJ C
    + trueX ce se cJ sJ C * trueCi ce se cJ sJ C * trueSh ce se cJ sJ C S = S * cJ := by
  have h0 := h.si_ne
  have hs := h.si_sq
  unfold trueX trueY trueCh trueSh
  unfold trueCi at *
  generalize trueSi ce se cJ sJ C = s at *
  have : se * S * (ce * sJ * C + se * cJ) + (ce * sJ + se * cJ * C) * (ce * cJ - se * sJ * C) * (sJ * S) = S * cJ * (s * s) := by
    rw [hs]
    linear_combination (S * (-se * ce * sJ * C + ce ^ 2 * cJ)) * h.uJ + S * cJ * h.ue
  field_simp
  linear_combination this

theorem Consts.rot3 (h : Consts ce se cJ sJ C S) : trueX ce se cJ sJ C * trueSh ce se cJ sJ C S
    + trueY ce se cJ sJ C S * trueCi ce se cJ sJ C * trueCh ce se cJ sJ C = ce * S := by
  have h0 := h.si_ne
  have hs := h.si_sq
  unfold trueX trueY trueCh trueSh
  unfold trueCi at *
  generalize trueSi ce se cJ sJ C = s at *
  have : (ce * sJ + se * cJ * C) * (sJ * S) + se * S * (ce * cJ - se * sJ * C) * (ce * sJ * C + se * cJ) = ce * S * (s * s) := by
    rw [hs]
    linear_combination (S * (ce * cJ ^ 2 - se * cJ * sJ * C)) * h.ue + S * ce * h.uJ
  field_simp
  linear_combination this

theorem Consts.rot4 (h : Consts ce se cJ sJ C S) : -trueY ce se cJ sJ C S * trueSh ce se cJ sJ C S
    + trueX ce se cJ sJ C * trueCi ce se cJ sJ C * trueCh ce se cJ sJ C = ce * (C * cJ) - se * sJ := by
  have h0 := h.si_ne
  have hs := h.si_sq
  unfold trueX trueY trueCh trueSh
  unfold trueCi at *
  generalize trueSi ce se cJ sJ C = s at *
  have : -(se * S) * (sJ * S) + (ce * sJ + se * cJ * C) * (ce * cJ - se * sJ * C) * (ce * sJ * C + se * cJ) = (ce * (C * cJ) - se * sJ) * (s * s) := by
    rw [hs]
    linear_combination ((ce * cJ - se * sJ * C) * C * (sJ ^ 2 + cJ ^ 2)) * h.ue + ((ce * cJ - se * sJ * C) * C) * h.uJ - se * sJ * h.u
  field_simp
  linear_combination this

/-- Position at the angle `θ + w` from the node on the equator, `θ` the angle with cosine `x` and sine `y`. -/
noncomputable def onOrbit (x y ci si ch sh w : ℝ) : V3 :=
  ⟨(x * cos w - y * sin w) * ch - (y * cos w + x * sin w) * ci * sh, (x * cos w - y * sin w) * sh + (y * cos w + x * sin w) * ci * ch,
    (y * cos w + x * sin w) * si⟩

/-- The same position from the node on the ecliptic. -/
theorem Consts.onOrbit_eq {ε J Ω : ℝ} (h : Consts (cos ε) (sin ε) (cos J) (sin J) (cos Ω) (sin Ω)) (w : ℝ) :
    onOrbit (trueX (cos ε) (sin ε) (cos J) (sin J) (cos Ω)) (trueY (cos ε) (sin ε) (cos J) (sin J) (cos Ω) (sin Ω))
      (trueCi (cos ε) (sin ε) (cos J) (sin J) (cos Ω)) (trueSi (cos ε) (sin ε) (cos J) (sin J) (cos Ω))
      (trueCh (cos ε) (sin ε) (cos J) (sin J) (cos Ω)) (trueSh (cos ε) (sin ε) (cos J) (sin J) (cos Ω) (sin Ω)) w =
    ecliptic ε (apse J Ω w) := by
  have r1 := h.rot1
  have r2 := h.rot2
  have r3 := h.rot3
  have r4 := h.rot4
  have h0 := h.si_ne
  have z1 : trueX (cos ε) (sin ε) (cos J) (sin J) (cos Ω) * trueSi (cos ε) (sin ε) (cos J) (sin J) (cos Ω) = cos ε * sin J + sin ε * cos J * cos Ω :=
    div_mul_cancel₀ _ h0
  have z2 : trueY (cos ε) (sin ε) (cos J) (sin J) (cos Ω) (sin Ω) * trueSi (cos ε) (sin ε) (cos J) (sin J) (cos Ω) = sin ε * sin Ω :=
    div_mul_cancel₀ _ h0
  unfold onOrbit ecliptic apse
  generalize trueX (cos ε) (sin ε) (cos J) (sin J) (cos Ω) = x at *
  generalize trueY (cos ε) (sin ε) (cos J) (sin J) (cos Ω) (sin Ω) = y at *
  generalize trueCi (cos ε) (sin ε) (cos J) (sin J) (cos Ω) = ci at *
  generalize trueCh (cos ε) (sin ε) (cos J) (sin J) (cos Ω) = ch at *
  generalize trueSh (cos ε) (sin ε) (cos J) (sin J) (cos Ω) (sin Ω) = sh at *
  congr 1
  · linear_combination cos w * r1 - sin w * r2
  · linear_combination cos w * r3 + sin w * r4
  · linear_combination cos w * z2 + sin w * z1

/-- Errors of the angle and of the orientation. -/
theorem onOrbit_near {x y ci si ch sh x' y' ci' si' ch' sh' : ℝ} (w : ℝ) (hx : |x' - x| ≤ 11 / 10 ^ 7) (hy : |y' - y| ≤ 11 / 10 ^ 7)
    (hci : |ci' - ci| ≤ 1 / 10 ^ 7) (hsi : |si' - si| ≤ 1 / 10 ^ 7) (hch : |ch' - ch| ≤ 1 / 10 ^ 7) (hsh : |sh' - sh| ≤ 1 / 10 ^ 7)
    (bx : |x'| ≤ 1) (by' : |y'| ≤ 1) (bci : |ci| ≤ 1) (bci' : |ci'| ≤ 1) (bsi : |si| ≤ 1) (bch : |ch| ≤ 1) (bsh : |sh| ≤ 1) :
    Close (1 / 10 ^ 5) (onOrbit x' y' ci' si' ch' sh' w) (onOrbit x y ci si ch sh w) := by
  have bc : |cos w| ≤ 1 := abs_cos_le_one w
  have bs : |sin w| ≤ 1 := abs_sin_le_one w
  have g1 := Near.sub (Near.mul hx (Near.refl (cos w)) bx bc) (Near.mul hy (Near.refl (sin w)) by' bs)
  have g2 := Near.add (Near.mul hy (Near.refl (cos w)) by' bc) (Near.mul hx (Near.refl (sin w)) bx bs)
  have b1 : |x' * cos w - y' * sin w| ≤ 2 := by
    refine (abs_sub _ _).trans ?_
    rw [abs_mul, abs_mul]
    have := mul_le_mul bx bc (abs_nonneg _) (by norm_num)
    have := mul_le_mul by' bs (abs_nonneg _) (by norm_num)
    linarith
  have b2 : |y' * cos w + x' * sin w| ≤ 2 := by
    refine (abs_add_le _ _).trans ?_
    rw [abs_mul, abs_mul]
    have := mul_le_mul bx bs (abs_nonneg _) (by norm_num)
    have := mul_le_mul by' bc (abs_nonneg _) (by norm_num)
    linarith
  have m1 := Near.mul g2 hci b2 bci
  have b3 : |(y' * cos w + x' * sin w) * ci'| ≤ 2 := by
    rw [abs_mul]
    have := mul_le_mul b2 bci' (abs_nonneg _) (by norm_num)
    linarith
  refine ⟨(Near.sub (Near.mul g1 hch b1 bch) (Near.mul m1 hsh b3 bsh)).trans (by norm_num),
    (Near.add (Near.mul g1 hsh b1 bsh) (Near.mul m1 hch b3 bch)).trans (by norm_num), (Near.mul g2 hsi b2 bsi).trans (by norm_num)⟩

end Moon

/-- The argument of the perigee of the Moon counted from its node on the ecliptic, `days` after 1900. -/
noncomputable def moonArg (days : ℝ) : ℝ := (58351514 / 10 ^ 7 + 19443680 / 10 ^ 10 * days) - lunarNode days

/-- C106: the Moon moves on an orbit inclined by 5.1454° to the ecliptic, with the node and the perigee at the longitudes `lunarNode` and
`lunarNode + moonArg`. -/
theorem C106_moon (days : ℝ) :
    Close (1 / 10 ^ 5) (axisP (lunarOrient days 0)) (ecliptic (deg 23.4441) (apse (deg 5.1454) (lunarNode days) (moonArg days))) ∧
    Close (1 / 10 ^ 5) (axisQ (lunarOrient days 0)) (ecliptic (deg 23.4441) (latus (deg 5.1454) (lunarNode days) (moonArg days))) := by
  have h : Consts (cos (deg 23.4441)) (sin (deg 23.4441)) (cos (deg 5.1454)) (sin (deg 5.1454)) (cos (lunarNode days)) (sin (lunarNode days)) :=
    ⟨obliquity.1, obliquity.2, inclination.1, inclination.2, sin_sq_add_cos_sq _, sin_sq_add_cos_sq _, sin_sq_add_cos_sq _⟩
  have hci : |zcosil days - _| ≤ _ := h.ci
  obtain ⟨hsi, hsl, hsl'⟩ : |zsinil days - _| ≤ _ ∧ 3 / 10 ≤ zsinil days ∧ _ := h.si
  obtain ⟨hsh, bsh', bsh⟩ : |zsinhl days - _| ≤ _ ∧ |zsinhl days| ≤ _ ∧ _ := h.sh hsi hsl
  have hch : |zcoshl days - _| ≤ _ := h.ch hsh bsh' bsh
  have bC := h.C1
  have bS := h.S1
  have bch' : |zcoshl days| ≤ 1 := by
    unfold zcoshl
    rw [abs_of_nonneg (sqrt_nonneg _)]
    exact sqrt_le_one.mpr (by nlinarith [mul_self_nonneg (zsinhl days)])
  have bch := h.ch_pos
  have un := h.unit
  have hE1 : |zcosi0 - cos (deg 23.4441)| ≤ 1 / 10 ^ 8 := by
    unfold zcosi0; obtain ⟨a, b⟩ := abs_le.mp h.ce1; rw [abs_le]; constructor <;> norm_num at * <;> linarith
  have hE2 : |zsini0 - sin (deg 23.4441)| ≤ 1 / 10 ^ 8 := by
    unfold zsini0; obtain ⟨a, b⟩ := abs_le.mp h.se1; rw [abs_le]; constructor <;> norm_num at * <;> linarith
  have bz1 : |zcosi0| ≤ 1 := by unfold zcosi0; rw [abs_le]; constructor <;> norm_num
  have bz2 : |zsini0| ≤ 1 := by unfold zsini0; rw [abs_le]; constructor <;> norm_num
  have hX := Near.add (Near.mul hch (Near.refl (cos (lunarNode days))) bch' bC)
    (Near.mul (Near.mul hE1 hsh bz1 bsh) (Near.refl (sin (lunarNode days)))
      (show |zcosi0 * zsinhl days| ≤ 1 by rw [abs_mul]; have := mul_le_mul bz1 bsh' (abs_nonneg _) (by norm_num); linarith) bS)
  rw [← h.x_eq] at hX
  have bsS : |sin (deg 23.4441) * sin (lunarNode days)| ≤ 4 / 10 := by
    have : |sin (deg 23.4441)| ≤ 4 / 10 := by
      obtain ⟨a, b⟩ := abs_le.mp h.se1; rw [abs_le]; constructor <;> norm_num at * <;> linarith
    rw [abs_mul]
    have := mul_le_mul this bS (abs_nonneg _) (by norm_num)
    linarith
  have hY := Near.div (Near.mul hE2 (Near.refl (sin (lunarNode days))) bz2 bS) hsi (by norm_num) hsl hsl' bsS
  have hX' := hX.trans (show _ ≤ (32 / 10 ^ 8 : ℝ) by norm_num)
  have hY' : |_ - trueY _ _ _ _ _ _| ≤ _ := hY.trans (show _ ≤ (36 / 10 ^ 8 : ℝ) by norm_num)
  obtain ⟨p1, p2⟩ := atan2_polar (zsini0 * sin (lunarNode days) / zsinil days)
    (zcoshl days * cos (lunarNode days) + zcosi0 * zsinhl days * sin (lunarNode days))
  have hth : ∀ a : ℝ, lunarPerigee days + a = atan2 (zsini0 * sin (lunarNode days) / zsinil days)
      (zcoshl days * cos (lunarNode days) + zcosi0 * zsinhl days * sin (lunarNode days)) + (moonArg days + a) := fun a => by
    unfold lunarPerigee moonArg; ring
  have hr := sqrt_nonneg ((zcoshl days * cos (lunarNode days) + zcosi0 * zsinhl days * sin (lunarNode days))
    * (zcoshl days * cos (lunarNode days) + zcosi0 * zsinhl days * sin (lunarNode days))
    + zsini0 * sin (lunarNode days) / zsinil days * (zsini0 * sin (lunarNode days) / zsinil days))
  rw [← p1] at hX'
  rw [← p2] at hY'
  obtain ⟨hc, hs⟩ := Near.circle (hX'.trans (show _ ≤ (36 / 10 ^ 8 : ℝ) by norm_num)) hY' (sin_sq_add_cos_sq _) h.xy_unit hr
  clear hX hY hX' hY' p1 p2 hr
  revert hth hc hs
  generalize atan2 (zsini0 * sin (lunarNode days) / zsinil days)
    (zcoshl days * cos (lunarNode days) + zcosi0 * zsinhl days * sin (lunarNode days)) = θ
  intro hth hc hs
  obtain ⟨⟨c1, c2⟩, d1, d2⟩ := h.ci_range
  have bsi : |trueSi (cos (deg 23.4441)) (sin (deg 23.4441)) (cos (deg 5.1454)) (sin (deg 5.1454)) (cos (lunarNode days))| ≤ 1 := by
    rw [abs_of_nonneg (by linarith)]
    unfold trueSi
    exact sqrt_le_one.mpr (by nlinarith)
  have N := fun w => onOrbit_near w (hc.trans (by norm_num)) (hs.trans (by norm_num)) (hci.trans (by norm_num)) (hsi.trans (by norm_num))
    (hch.trans (by norm_num)) (hsh.trans (by norm_num)) (abs_cos_le_one θ) (abs_sin_le_one θ) (abs_le.mpr ⟨by linarith, by linarith⟩)
    (show |zcosil days| ≤ 1 from abs_le.mpr ⟨by unfold zcosil; linarith, by unfold zcosil; linarith⟩) bsi
    (abs_le.mpr ⟨by linarith, by nlinarith⟩) (bsh.trans (by norm_num))
  have e1 : axisP (lunarOrient days 0) = onOrbit (cos θ) (sin θ) (zcosil days) (zsinil days) (zcoshl days) (zsinhl days) (moonArg days) := by
    have hp := hth 0
    rw [add_zero, add_zero] at hp
    unfold axisP lunarOrient onOrbit
    simp only [cos_zero, sin_zero, hp, cos_add, sin_add]
    congr 1 <;> ring
  have e2 : axisQ (lunarOrient days 0) = onOrbit (cos θ) (sin θ) (zcosil days) (zsinil days) (zcoshl days) (zsinhl days) (moonArg days + π / 2) := by
    have hp := hth 0
    rw [add_zero, add_zero] at hp
    unfold axisQ lunarOrient onOrbit
    simp only [cos_zero, sin_zero, hp, cos_add, sin_add, cos_pi_div_two, sin_pi_div_two]
    congr 1 <;> ring
  have e3 : latus (deg 5.1454) (lunarNode days) (moonArg days) = apse (deg 5.1454) (lunarNode days) (moonArg days + π / 2) := by
    unfold apse latus
    rw [cos_add_pi_div_two, sin_add_pi_div_two]
    congr 1 <;> ring
  rw [e1, e2, e3, ← h.onOrbit_eq, ← h.onOrbit_eq]
  exact ⟨N _, N _⟩

/-- C106: longitudes in degrees and degrees per day of node and perigee of the Moon, and mean anomalies and daily motions of Moon and Sun. -/
theorem C106_elements (days : ℝ) :
    |lunarNode days - (deg 259.1833 - deg 0.0529539222 * days)| ≤ 1 / 10 ^ 6 + 1 / 10 ^ 11 * |days| ∧
    |lunarNode days + moonArg days - (deg 334.3295 + deg 0.1114040803 * days)| ≤ 1 / 10 ^ 6 + 1 / 10 ^ 11 * |days| := by
  have p1 := pi_gt_d20
  have p2 := pi_lt_d20
  have aux : ∀ x y d a b : ℝ, |x| ≤ a → |y| ≤ b → |x + y * d| ≤ a + b * |d| := fun x y d a b hx hy => by
    refine (abs_add_le _ _).trans ?_
    rw [abs_mul]
    exact add_le_add hx (mul_le_mul_of_nonneg_right hy (abs_nonneg _))
  constructor
  · unfold lunarNode
    rw [show (45236020 / 10 ^ 7 - 92422029 / 10 ^ 11 * days - (deg 259.1833 - deg 0.0529539222 * days) : ℝ)
      = (45236020 / 10 ^ 7 - deg 259.1833) + (deg 0.0529539222 - 92422029 / 10 ^ 11) * days by ring]
    refine aux _ _ _ _ _ ?_ ?_ <;> unfold deg <;> rw [abs_le] <;> constructor <;> norm_num at * <;> linarith
  · unfold moonArg
    rw [show (lunarNode days + ((58351514 / 10 ^ 7 + 19443680 / 10 ^ 10 * days) - lunarNode days) - (deg 334.3295 + deg 0.1114040803 * days) : ℝ)
      = (58351514 / 10 ^ 7 - deg 334.3295) + (19443680 / 10 ^ 10 - deg 0.1114040803) * days by ring]
    refine aux _ _ _ _ _ ?_ ?_ <;> unfold deg <;> rw [abs_le] <;> constructor <;> norm_num at * <;> linarith

/-- C106: up to whole turns the mean anomalies of Moon and Sun, `t` minutes after the epoch, are those of their orbits counted from 1900. -/
theorem C106_anomaly (e : Elem) (t : ℝ) :
    (∃ z, Turns (2 * π) ((SDP4_init e).zmol + znlMin * t) z ∧
      |z - (deg 13.0649924465 * (e.epoch - 2415020 + t / 1440) - deg 63.8954)| ≤ 1 / 10 ^ 6 + 1 / 10 ^ 8 * |e.epoch - 2415020| + 2 / 10 ^ 7 * (|t| / 1440)) ∧
    ∃ z, Turns (2 * π) ((SDP4_init e).zmos + znsMin * t) z ∧
      |z - (deg 358.4758 + deg 0.985600267 * (e.epoch - 2415020 + t / 1440))| ≤ 1 / 10 ^ 6 + 1 / 10 ^ 8 * |e.epoch - 2415020| + 2 / 10 ^ 7 * (|t| / 1440) := by
  have p1 := pi_gt_d20
  have p2 := pi_lt_d20
  have aux : ∀ x y z d t : ℝ, |x| ≤ 1 / 10 ^ 6 → |y| ≤ 1 / 10 ^ 8 → |z| ≤ 2 / 10 ^ 7 → |x + (y * d + z * (t / 1440))| ≤ 1 / 10 ^ 6 + 1 / 10 ^ 8 * |d| + 2 / 10 ^ 7 * (|t| / 1440) :=
    fun x y z d t hx hy hz => by
      rw [add_assoc]
      refine (abs_add_le _ _).trans (add_le_add hx ((abs_add_le _ _).trans ?_))
      rw [abs_mul, abs_mul, abs_div, abs_of_pos (by norm_num : (0 : ℝ) < 1440)]
      exact add_le_add (mul_le_mul_of_nonneg_right hy (abs_nonneg _)) (mul_le_mul_of_nonneg_right hz (by positivity))
  have T : ∀ x y : ℝ, Turns (2 * π) (Sxp.FMod2p x + y) (x + y) := fun x y => by
    obtain ⟨-, -, k, hk⟩ := C40_FMod2p x
    exact ⟨k, by have : Sxp.FMod2p x = x + 2 * π * k := hk; rw [this]; ring⟩
  refine ⟨⟨_, T _ _, ?_⟩, _, T _ _, ?_⟩
  · rw [show ∀ d : ℝ, znlDay * d - 11151842 / 10 ^ 7 + znlMin * t - (deg 13.0649924465 * (d + t / 1440) - deg 63.8954)
      = (deg 63.8954 - 11151842 / 10 ^ 7) + ((znlDay - deg 13.0649924465) * d + (znlMin * 1440 - deg 13.0649924465) * (t / 1440)) from fun d => by ring]
    refine aux _ _ _ _ _ ?_ ?_ ?_ <;> unfold deg <;> (try unfold znlDay) <;> (try unfold znlMin) <;> rw [abs_le] <;> constructor <;> norm_num at * <;> linarith
  · rw [show ∀ d : ℝ, 62565837 / 10 ^ 7 + znsDay * d + znsMin * t - (deg 358.4758 + deg 0.985600267 * (d + t / 1440))
      = (62565837 / 10 ^ 7 - deg 358.4758) + ((znsDay - deg 0.985600267) * d + (znsMin * 1440 - deg 0.985600267) * (t / 1440)) from fun d => by ring]
    refine aux _ _ _ _ _ ?_ ?_ ?_ <;> unfold deg <;> (try unfold znsDay) <;> (try unfold znsMin) <;> rw [abs_le] <;> constructor <;> norm_num at * <;> linarith

/-- When the node of the Moon's orbit is at the equinox, it is inclined by 28.6° to the equator. -/
example : zcosil (polar.epoch - 2415020) = 87807068 / 10 ^ 8 := by
  unfold zcosil
  rw [polar_node, cos_zero]
  norm_num

end SatSky.Props
