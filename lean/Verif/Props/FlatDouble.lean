import Verif.Model.FlatDouble
import Verif.Props.RegionDouble
import Verif.Props.Separation
import Verif.Props.TimeDouble
import Verif.Props.SunDouble
import Verif.Props.HealpixDouble

/-! The separation used without `-H`, in `double` arithmetic. -/

namespace SatSky.Props

open SatSky Spec Geo Relative

theorem twopi_close : |(twopiD : ℝ) - 2 * Real.pi| ≤ 4 / 10 ^ 16 := by
  have := Real.pi_gt_d20
  have := Real.pi_lt_d20
  unfold twopiD
  push_cast
  rw [abs_le]
  constructor <;> linarith

/-- The size of the difference of right ascensions; at half a turn its sign may be wrong. -/
theorem deltaRa_abs (F : Fl64) {ra ra0 : ℚ} (h : |ra| ≤ twopiD) (h0 : |ra0| ≤ twopiD) :
    |(|(deltaRaD F ra ra0 : ℝ)| - |deltaRa ra ra0|)| ≤ 2 / 10 ^ 14 ∧ |(deltaRaD F ra ra0 : ℝ)| ≤ 13 := by
  have hp := Real.pi_gt_d6
  have hp' := Real.pi_lt_d6
  have t := twopi_close
  have t2 := pi_close
  have hb : twopiD ≤ 63 / 10 := by unfold twopiD; norm_num
  have hx : |(ra : ℝ) - ra0| ≤ 126 / 10 := by
    have : |ra - ra0| ≤ 126 / 10 := (abs_sub _ _).trans (by linarith)
    simpa using abs_real this
  have e1 : |(F.rnd (ra - ra0) : ℝ) - (ra - ra0)| ≤ 15 / 10 ^ 16 := rnd_real F (e := 0) (by push_cast; simp) hx (by norm_num)
  have e2 : |(F.rnd (F.rnd (ra - ra0) + twopiD) : ℝ) - (ra - ra0 + 2 * Real.pi)| ≤ 41 / 10 ^ 16 := by
    refine rnd_real F (e := 19 / 10 ^ 16) (A := 189 / 10) ?_ ?_ (by norm_num)
    · push_cast
      rw [abs_le] at *
      constructor <;> linarith
    · rw [abs_le] at *
      constructor <;> linarith
  unfold deltaRaD deltaRa
  dsimp only
  generalize F.rnd (F.rnd (ra - ra0) + twopiD) = d at *
  have hD : |(ra : ℝ) - ra0 + 2 * Real.pi| ≤ 189 / 10 := by
    rw [abs_le] at *
    constructor <;> linarith
  have hD1 : (ra : ℝ) - ra0 + 2 * Real.pi - 2 * Real.pi ≤ 126 / 10 := by linarith [(abs_le.1 hx).2]
  have hD0 : -(126 / 10) + 2 * Real.pi ≤ (ra : ℝ) - ra0 + 2 * Real.pi := by linarith [(abs_le.1 hx).1]
  clear hx e1
  generalize (ra : ℝ) - ra0 + 2 * Real.pi = D at *
  have cast : ∀ {a b : ℚ}, (a > b ↔ (a : ℝ) > b) := by intro a b; exact_mod_cast Iff.rfl
  by_cases hc : d > piD
  · have hc' : (d : ℝ) > piD := cast.1 hc
    rw [if_pos hc]
    have e3 : |(F.rnd (d - twopiD) : ℝ) - (D - 2 * Real.pi)| ≤ 7 / 10 ^ 15 := by
      refine rnd_real F (e := 45 / 10 ^ 16) (A := 126 / 10) ?_ ?_ (by norm_num)
      · push_cast
        rw [abs_le] at *
        constructor <;> linarith
      · rw [abs_le] at *
        constructor <;> linarith
    generalize F.rnd (d - twopiD) = f at *
    have hf : |(f : ℝ)| ≤ 13 := by
      rw [abs_le] at *
      constructor <;> linarith
    refine ⟨?_, hf⟩
    by_cases hc2 : D > Real.pi
    · rw [if_pos hc2]
      exact (abs_abs_sub_abs_le _ _).trans (by linarith)
    · rw [if_neg hc2]
      rw [abs_le] at e2 t t2 e3
      rw [abs_of_neg (show (f : ℝ) < 0 by linarith), abs_of_pos (show 0 < D by linarith), abs_le]
      constructor <;> linarith
  · have hc' : ¬ (d : ℝ) > piD := fun h => hc (cast.2 h)
    rw [if_neg hc]
    have hf : |(d : ℝ)| ≤ 13 := by
      rw [abs_le] at *
      constructor <;> linarith
    refine ⟨?_, hf⟩
    by_cases hc2 : D > Real.pi
    · rw [if_pos hc2]
      rw [abs_le] at e2 t t2
      rw [abs_of_pos (show (0 : ℝ) < d by linarith), abs_of_neg (show D - 2 * Real.pi < 0 by linarith), abs_le]
      constructor <;> linarith
    · rw [if_neg hc2]
      exact (abs_abs_sub_abs_le _ _).trans (by linarith)

theorem hyp_move (a b A B : ℝ) : |√(a * a + b * b) - √(A * A + B * B)| ≤ |(|a| - |A|)| + |b - B| := by
  rw [← abs_mul_abs_self a, ← abs_mul_abs_self A]
  generalize |a| = a' at *
  generalize |A| = A' at *
  rw [← norm_eq, ← norm_eq]
  refine (abs_norm_sub_norm_le _ _).trans ?_
  exact Complex.norm_le_abs_re_add_abs_im _

/-- The root of a value known to a relative error. -/
theorem root_rel {x w : ℝ} (hx : 0 ≤ x) (h : |w - x| ≤ 4 / 2 ^ 53 * x + 1 / 2 ^ 190) : |√w - √x| ≤ 4 / 2 ^ 53 * √x + 1 / 2 ^ 90 := by
  have hs := Real.sqrt_nonneg x
  have hs2 := Real.mul_self_sqrt hx
  rw [abs_le] at h ⊢
  have up : √w ≤ √x + (4 / 2 ^ 53 * √x + 1 / 2 ^ 90) := by
    rw [Real.sqrt_le_iff]
    refine ⟨by positivity, ?_⟩
    nlinarith [h.2]
  have lo : √x - (4 / 2 ^ 53 * √x + 1 / 2 ^ 90) ≤ √w := by
    by_cases hn : √x - (4 / 2 ^ 53 * √x + 1 / 2 ^ 90) ≤ 0
    · exact hn.trans (Real.sqrt_nonneg _)
    · push Not at hn
      refine Real.le_sqrt_of_sq_le ?_
      nlinarith [h.1]
  constructor <;> linarith

/-- C198: the flat separation of `double` arithmetic is the exact one to 2e-12 degrees. -/
theorem C198_separation (F : Fl64) (M : Libm) {ra dec ra0 dec0 : ℚ} (h : |ra| ≤ twopiD) (h0 : |ra0| ≤ twopiD) (hd : |dec| ≤ piD / 2) (hd0 : |dec0| ≤ piD / 2) :
    |(flatSepD F M ra dec ra0 dec0 : ℝ) - flatSep ra dec ra0 dec0| ≤ 3 / 10 ^ 12 := by
  have hp := Real.pi_gt_d6
  obtain ⟨a1, a2⟩ := deltaRa_abs F h h0
  have hb : piD ≤ 32 / 10 := by unfold piD; norm_num
  have hx : |(dec : ℝ) - dec0| ≤ 32 / 10 := by
    have : |dec - dec0| ≤ 32 / 10 := (abs_sub _ _).trans (by linarith)
    simpa using abs_real this
  have e1 : |(F.rnd (dec - dec0) : ℝ) - (dec - dec0)| ≤ 4 / 10 ^ 16 := rnd_real F (e := 0) (by push_cast; simp) hx (by norm_num)
  unfold flatSepD flatSep
  dsimp only
  have mv := hyp_move (deltaRaD F ra ra0) (F.rnd (dec - dec0)) (deltaRa ra ra0) (dec - dec0)
  have e4 : |(F.rnd (dec - dec0) : ℝ)| ≤ 4 := by
    rw [abs_le] at *
    constructor <;> linarith
  generalize √(deltaRa (ra : ℝ) ra0 * deltaRa ra ra0 + ((dec : ℝ) - dec0) * (dec - dec0)) = S at *
  generalize deltaRaD F ra ra0 = d at *
  generalize F.rnd (dec - dec0) = e at *
  have u := F.err (d * d)
  have v := F.err (e * e)
  have w := F.err (F.rnd (d * d) + F.rnd (e * e))
  have u0 : 0 ≤ F.rnd (d * d) := fl_nonneg F (mul_self_nonneg d)
  have v0 : 0 ≤ F.rnd (e * e) := fl_nonneg F (mul_self_nonneg e)
  rw [abs_of_nonneg (mul_self_nonneg d)] at u
  rw [abs_of_nonneg (mul_self_nonneg e)] at v
  generalize F.rnd (d * d) = u' at *
  generalize F.rnd (e * e) = v' at *
  rw [abs_of_nonneg (add_nonneg u0 v0)] at w
  have w0 : 0 ≤ F.rnd (u' + v') := fl_nonneg F (add_nonneg u0 v0)
  generalize F.rnd (u' + v') = w' at *
  have x0 : 0 ≤ d * d + e * e := add_nonneg (mul_self_nonneg d) (mul_self_nonneg e)
  have hw : |w' - (d * d + e * e)| ≤ 4 / 2 ^ 53 * (d * d + e * e) + 1 / 2 ^ 190 := by
    have d0 := mul_self_nonneg d
    have e0 := mul_self_nonneg e
    generalize d * d = D at *
    generalize e * e = E at *
    rw [abs_le] at *
    constructor <;> linarith [u.1, u.2, v.1, v.2, w.1, w.2]
  have hw' : |(w' : ℝ) - (d * d + e * e)| ≤ 4 / 2 ^ 53 * (d * d + e * e) + 1 / 2 ^ 190 := by
    have := abs_real hw
    push_cast at this
    exact this
  have x0' : (0 : ℝ) ≤ d * d + e * e := add_nonneg (mul_self_nonneg _) (mul_self_nonneg _)
  have rr := root_rel x0' hw'
  have s14 : √((d : ℝ) * d + e * e) ≤ 14 := by
    rw [Real.sqrt_le_iff]
    refine ⟨by norm_num, ?_⟩
    have := abs_mul_abs_self (d : ℝ)
    have := abs_mul_abs_self (e : ℝ)
    nlinarith [abs_nonneg (d : ℝ), abs_nonneg (e : ℝ)]
  have s0 := Real.sqrt_nonneg ((d : ℝ) * d + e * e)
  generalize √((d : ℝ) * d + e * e) = s at *
  have sq := M.sqrt_err w' w0
  have w15 : √(w' : ℝ) ≤ 15 := by
    rw [abs_le] at rr
    linarith [rr.2]
  have close : |(M.sqrt w' : ℝ) - S| ≤ 3 / 10 ^ 14 := by
    have mv := mv.trans (add_le_add a1 e1)
    clear hw hw' u v w a1 e1
    rw [abs_le] at *
    constructor <;> linarith [rr.1, rr.2, sq.1, sq.2, mv.1, mv.2]
  have S16 : |S| ≤ 15 := by
    have mv := mv.trans (add_le_add a1 e1)
    clear hw hw' u v w a1 e1
    rw [abs_le] at *
    constructor <;> linarith [mv.1, mv.2]
  have h58 : 180 / Real.pi ≤ 58 := by rw [div_le_iff₀ (by positivity)]; linarith
  have hpos : 0 < 180 / Real.pi := by positivity
  have hr := pi_near
  have m := mul_real (B := 58) close hr S16 (by rwa [abs_of_pos hpos])
  have e58 : 1 / 2 ^ 53 * (180 / Real.pi) ≤ 1 / 2 ^ 53 * 58 := mul_le_mul_of_nonneg_left h58 (by positivity)
  refine rnd_real F (Z := S * r2d) (e := 2 / 10 ^ 12) (A := 870) ?_ ?_ (by norm_num)
  · push_cast
    unfold r2d
    refine m.trans ?_
    linarith
  · unfold r2d
    rw [abs_mul, abs_of_pos hpos]
    have := mul_le_mul S16 h58 hpos.le (by norm_num)
    linarith

/-- C198: without `-H`, a satellite selected by its place is within the radius (and 7e-7 degrees) of the target on the sky, at one of the two instants. -/
theorem C198_selected (F : Fl64) (M : Libm) {tra tdec radius ra dec ra1 dec1 : ℚ} {RA DEC RA1 DEC1 : ℝ} (ht : |tra| ≤ twopiD) (hp : |tdec| ≤ piD / 2)
    (h : Near ra dec RA DEC) (h1 : Near ra1 dec1 RA1 DEC1) (hs : inFlatD F M tra tdec radius ra dec ra1 dec1 = true) :
    Spec.angle (dir tra tdec) (dir RA DEC) * (180 / Real.pi) ≤ radius + 7 / 10 ^ 7 ∨
      Spec.angle (dir tra tdec) (dir RA1 DEC1) * (180 / Real.pi) ≤ radius + 7 / 10 ^ 7 := by
  have one : ∀ {ra dec : ℚ} {RA DEC : ℝ}, Near ra dec RA DEC → flatSepD F M ra dec tra tdec ≤ radius →
      Spec.angle (dir tra tdec) (dir RA DEC) * (180 / Real.pi) ≤ radius + 7 / 10 ^ 7 := by
    intro ra dec RA DEC h hs
    obtain ⟨k, hk⟩ := h.lon_near
    have sep := C198_separation F M (by rw [abs_of_nonneg h.low]; exact h.up) ht h.lat hp
    have hs' : (flatSepD F M ra dec tra tdec : ℝ) ≤ radius := by exact_mod_cast hs
    have safe := C69_selected_within (ra := ra) (dec := dec) (ra0 := tra) (dec0 := tdec) (radius := radius + 3 / 10 ^ 12) (by linarith [(abs_le.1 sep).1])
    have mv := angle_move hk h.lat_near (by norm_num)
    have tr := (abs_le.1 (angle_triangle (dir tra tdec) (dir ra dec) (dir RA DEC))).2
    rw [angle_sym (dir ra dec) (dir RA DEC)] at tr
    have hpi := Real.pi_gt_d6
    have h58 : 180 / Real.pi ≤ 58 := by rw [div_le_iff₀ (by positivity)]; linarith
    have hpos : 0 < 180 / Real.pi := by positivity
    have : (Spec.angle (dir tra tdec) (dir RA DEC) - Spec.angle (dir tra tdec) (dir ra dec)) * (180 / Real.pi) ≤ 23 / 10 * (5 / 10 ^ 9) * 58 :=
      (mul_le_mul_of_nonneg_right (tr.trans mv) hpos.le).trans (mul_le_mul_of_nonneg_left h58 (by norm_num))
    rw [sub_mul] at this
    linarith
  unfold inFlatD at hs
  rcases of_decide_eq_true hs with hs | hs
  · exact Or.inl (one h hs)
  · exact Or.inr (one h1 hs)

/-- One radian along the equator: 57.29... degrees; selected with a radius of 58 degrees and not with one of 57. -/
example (M : Libm) : inFlatD Fl64.ieee M 0 0 58 1 0 1 0 = true ∧ inFlatD Fl64.ieee M 0 0 57 1 0 1 0 = false := by
  have hp := Real.pi_gt_d6
  have hp' := Real.pi_lt_d6
  have h := C198_separation Fl64.ieee M (ra := 1) (dec := 0) (ra0 := 0) (dec0 := 0) (by unfold twopiD; norm_num) (by unfold twopiD; norm_num)
    (by unfold piD; norm_num) (by unfold piD; norm_num)
  have e : flatSep ((1 : ℚ) : ℝ) ((0 : ℚ) : ℝ) ((0 : ℚ) : ℝ) ((0 : ℚ) : ℝ) = 180 / Real.pi := by
    unfold flatSep deltaRa r2d
    push_cast
    rw [if_pos (by linarith)]
    norm_num
  rw [e] at h
  have h58 : 180 / Real.pi ≤ 5730 / 100 := by rw [div_le_iff₀ (by positivity)]; linarith
  have h57 : 5729 / 100 ≤ 180 / Real.pi := by rw [le_div_iff₀ (by positivity)]; linarith
  obtain ⟨h1, h2⟩ := abs_le.1 h
  have u : flatSepD Fl64.ieee M 1 0 0 0 ≤ 58 := by
    have : (flatSepD Fl64.ieee M 1 0 0 0 : ℝ) ≤ 58 := by linarith
    exact_mod_cast this
  have l : 57 < flatSepD Fl64.ieee M 1 0 0 0 := by
    have : (57 : ℝ) < flatSepD Fl64.ieee M 1 0 0 0 := by linarith
    exact_mod_cast this
  unfold inFlatD
  exact ⟨decide_eq_true (Or.inl u), decide_eq_false (by push Not; exact ⟨l, l⟩)⟩

end SatSky.Props
