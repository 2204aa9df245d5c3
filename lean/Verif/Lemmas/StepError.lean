import Mathlib.Analysis.Calculus.MeanValue
import Mathlib.Analysis.SpecialFunctions.ExpDeriv
import Mathlib.Analysis.SpecialFunctions.Exp
import Mathlib.Analysis.Calculus.Deriv.Pow
import Mathlib.Analysis.Calculus.Deriv.Mul
import Mathlib.Tactic.LinearCombination

/-! The error of the second Taylor step for `x'' = f t x`, and how it grows over many steps. -/

namespace SatSky.StepError

open Set

theorem der_of {g g₁ : ℝ → ℝ} {g' g₁' x : ℝ} (h : HasDerivAt g g' x) (e : ∀ y, g₁ y = g y) (e' : g₁' = g') : HasDerivAt g₁ g₁' x := by
  rw [e', show g₁ = g from funext e]
  exact h

/-- A function that starts from zero and whose derivative is bounded by a polynomial of the distance. -/
theorem grow_right {F F' : ℝ → ℝ} {a b K0 K1 K2 : ℝ} (hab : a ≤ b) (h : ∀ s ∈ Icc a b, HasDerivAt F (F' s) s) (h0 : F a = 0)
    (hb : ∀ s ∈ Icc a b, |F' s| ≤ K0 + K1 * |s - a| + K2 * |s - a| ^ 2) :
    |F b| ≤ K0 * |b - a| + K1 * |b - a| ^ 2 / 2 + K2 * |b - a| ^ 3 / 3 := by
  have := image_norm_le_of_norm_deriv_right_le_deriv_boundary (f := F) (f' := F') (a := a) (b := b)
    (B := fun s => K0 * (s - a) + K1 * (s - a) ^ 2 / 2 + K2 * (s - a) ^ 3 / 3) (B' := fun s => K0 + K1 * (s - a) + K2 * (s - a) ^ 2)
    (fun s hs => (h s hs).continuousAt.continuousWithinAt) (fun s hs => (h s (Ico_subset_Icc_self hs)).hasDerivWithinAt) (by simp [h0])
    (fun s => by
      have d := (hasDerivAt_id s).sub_const a
      refine der_of (((d.const_mul K0).add (((d.fun_pow 2).const_mul K1).div_const 2)).add (((d.fun_pow 3).const_mul K2).div_const 3)) (fun y => rfl) ?_
      simp only [id, Nat.cast_ofNat, mul_one]
      ring)
    (fun s hs => by
      have := hb s (Ico_subset_Icc_self hs)
      rwa [abs_of_nonneg (show 0 ≤ s - a by linarith [hs.1])] at this)
    (right_mem_Icc.2 hab)
  rw [abs_of_nonneg (show 0 ≤ b - a by linarith)]
  exact this

theorem grow {F F' : ℝ → ℝ} {a b K0 K1 K2 : ℝ} (h : ∀ s ∈ uIcc a b, HasDerivAt F (F' s) s) (h0 : F a = 0)
    (hb : ∀ s ∈ uIcc a b, |F' s| ≤ K0 + K1 * |s - a| + K2 * |s - a| ^ 2) :
    |F b| ≤ K0 * |b - a| + K1 * |b - a| ^ 2 / 2 + K2 * |b - a| ^ 3 / 3 := by
  rcases le_total a b with hab | hab
  · rw [uIcc_of_le hab] at h hb
    exact grow_right hab h h0 hb
  · rw [uIcc_of_ge hab] at h hb
    have hm : ∀ s ∈ Icc (-a) (-b), -s ∈ Icc b a := fun s hs => ⟨by linarith [hs.2], by linarith [hs.1]⟩
    have := grow_right (F := fun s => F (-s)) (F' := fun s => -F' (-s)) (a := -a) (b := -b) (K0 := K0) (K1 := K1) (K2 := K2) (by linarith)
      (fun s hs => der_of ((h (-s) (hm s hs)).comp s (hasDerivAt_neg s)) (fun y => rfl) (by simp)) (by simpa using h0)
      (fun s hs => by
        have := hb (-s) (hm s hs)
        rw [abs_neg]
        rwa [show |-s - a| = |s - -a| by rw [← abs_neg]; congr 1; ring] at this)
    rw [neg_neg, show |-b - -a| = |b - a| by rw [← abs_neg]; congr 1; ring] at this
    exact this

/-- An acceleration with bounds of its value, of its first and second derivative in `x` and of its change with time. -/
structure Bounded (f f1 : ℝ → ℝ → ℝ) (A0 A1 A2 D : ℝ) : Prop where
  val : ∀ t x, |f t x| ≤ A0
  der : ∀ t x, HasDerivAt (f t) (f1 t x) x
  one : ∀ t x, |f1 t x| ≤ A1
  two : ∀ t x y, |f1 t y - f1 t x| ≤ A2 * |y - x|
  time : ∀ s t x, |f s x - f t x| ≤ D * |s - t|

variable {f f1 : ℝ → ℝ → ℝ} {A0 A1 A2 D : ℝ}

theorem Bounded.nonneg (h : Bounded f f1 A0 A1 A2 D) : 0 ≤ A0 ∧ 0 ≤ A1 ∧ 0 ≤ A2 ∧ 0 ≤ D := by
  refine ⟨(abs_nonneg _).trans (h.val 0 0), (abs_nonneg _).trans (h.one 0 0), ?_, ?_⟩
  · have := (abs_nonneg _).trans (h.two 0 0 1); simpa using this
  · have := (abs_nonneg _).trans (h.time 1 0 0); simpa using this

theorem Bounded.lip (h : Bounded f f1 A0 A1 A2 D) (t x y : ℝ) : |f t y - f t x| ≤ A1 * |y - x| := by
  have := grow (F := fun y => f t y - f t x) (F' := f1 t) (a := x) (b := y) (K0 := A1) (K1 := 0) (K2 := 0)
    (fun s _ => (h.der t s).sub_const _) (by simp) (fun s _ => by simpa using h.one t s)
  simpa using this

theorem Bounded.quad (h : Bounded f f1 A0 A1 A2 D) (t x y : ℝ) : |f t y - f t x - f1 t x * (y - x)| ≤ A2 / 2 * |y - x| ^ 2 := by
  have := grow (F := fun y => f t y - f t x - f1 t x * (y - x)) (F' := fun y => f1 t y - f1 t x) (a := x) (b := y) (K0 := 0) (K1 := A2) (K2 := 0)
    (fun s _ => der_of (((h.der t s).sub_const (f t x)).sub (((hasDerivAt_id s).sub_const x).const_mul (f1 t x))) (fun y => rfl) (by simp)) (by simp)
    (fun s _ => by simpa using h.two t x s)
  refine this.trans (le_of_eq ?_)
  ring

/-- A motion with this acceleration between the times `-R` and `R`. -/
structure Motion (f : ℝ → ℝ → ℝ) (R : ℝ) (x v : ℝ → ℝ) : Prop where
  dx : ∀ t, |t| ≤ R → HasDerivAt x (v t) t
  dv : ∀ t, |t| ≤ R → HasDerivAt v (f t (x t)) t

theorem between {a b s R : ℝ} (ha : |a| ≤ R) (hb : |b| ≤ R) (hs : s ∈ uIcc a b) : |s| ≤ R := by
  rw [abs_le] at *
  rcases mem_uIcc.1 hs with h | h <;> constructor <;> linarith [h.1, h.2]

theorem uIcc_left {a b s r : ℝ} (hs : s ∈ uIcc a b) (hr : r ∈ uIcc a s) : r ∈ uIcc a b := uIcc_subset_uIcc_left hs hr

/-- The speed of the motion. -/
theorem speed (h : Bounded f f1 A0 A1 A2 D) {R : ℝ} {x v : ℝ → ℝ} (hm : Motion f R x v) {t : ℝ} (ht : |t| ≤ R) : |v t| ≤ |v 0| + A0 * R := by
  have hR : |(0 : ℝ)| ≤ R := by rw [abs_zero]; exact (abs_nonneg _).trans ht
  have := grow (F := fun s => v s - v 0) (F' := fun s => f s (x s)) (a := 0) (b := t) (K0 := A0) (K1 := 0) (K2 := 0)
    (fun s hs => (hm.dv s (between hR ht hs)).sub_const _) (by simp) (fun s _ => by simpa using h.val s (x s))
  simp only [sub_zero, zero_mul, zero_div, add_zero] at this
  have h1 : |v t| ≤ |v t - v 0| + |v 0| := by
    have := abs_add_le (v t - v 0) (v 0)
    rwa [sub_add_cancel] at this
  have h2 := mul_le_mul_of_nonneg_left ht h.nonneg.1
  linarith

/-- The errors of one step that starts on the motion. -/
theorem local_error (h : Bounded f f1 A0 A1 A2 D) {R V : ℝ} {x v : ℝ → ℝ} (hm : Motion f R x v) (hV : ∀ t, |t| ≤ R → |v t| ≤ V) {a b : ℝ}
    (ha : |a| ≤ R) (hb : |b| ≤ R) :
    |x b - x a - (b - a) * v a - (b - a) ^ 2 / 2 * f a (x a)| ≤ (D + A1 * V) * |b - a| ^ 3 / 6 ∧
    |v b - v a - (b - a) * f a (x a) - (b - a) ^ 2 / 2 * (f1 a (x a) * v a)| ≤ D * |b - a| ^ 2 / 2 + (A2 * V ^ 2 + A1 * A0) * |b - a| ^ 3 / 6 := by
  obtain ⟨n0, n1, n2, nD⟩ := h.nonneg
  have hin : ∀ {s}, s ∈ uIcc a b → |s| ≤ R := fun hs => between ha hb hs
  have nV : 0 ≤ V := (abs_nonneg _).trans (hV a ha)
  have k1 : ∀ s ∈ uIcc a b, |v s - v a| ≤ A0 * |s - a| := by
    intro s hs
    have := grow (F := fun s => v s - v a) (F' := fun s => f s (x s)) (a := a) (b := s) (K0 := A0) (K1 := 0) (K2 := 0)
      (fun r hr => (hm.dv r (hin (uIcc_left hs hr))).sub_const _) (by simp) (fun r _ => by simpa using h.val r (x r))
    simpa using this
  have k2 : ∀ s ∈ uIcc a b, |x s - x a| ≤ V * |s - a| := by
    intro s hs
    have := grow (F := fun s => x s - x a) (F' := v) (a := a) (b := s) (K0 := V) (K1 := 0) (K2 := 0)
      (fun r hr => (hm.dx r (hin (uIcc_left hs hr))).sub_const _) (by simp) (fun r hr => by simpa using hV r (hin (uIcc_left hs hr)))
    simpa using this
  have k3 : ∀ s ∈ uIcc a b, |x s - x a - (s - a) * v a| ≤ A0 / 2 * |s - a| ^ 2 := by
    intro s hs
    have := grow (F := fun s => x s - x a - (s - a) * v a) (F' := fun s => v s - v a) (a := a) (b := s) (K0 := 0) (K1 := A0) (K2 := 0)
      (fun r hr => der_of (((hm.dx r (hin (uIcc_left hs hr))).sub_const (x a)).sub (((hasDerivAt_id r).sub_const a).mul_const (v a)))
        (fun y => rfl) (by simp)) (by simp)
      (fun r hr => by simpa using k1 r (uIcc_left hs hr))
    refine this.trans (le_of_eq ?_)
    ring
  have k4 : ∀ s ∈ uIcc a b, |f s (x s) - f a (x a)| ≤ (D + A1 * V) * |s - a| := by
    intro s hs
    have e1 := h.time s a (x s)
    have e2 := h.lip a (x a) (x s)
    have e3 := mul_le_mul_of_nonneg_left (k2 s hs) n1
    have e4 := abs_add_le (f s (x s) - f a (x s)) (f a (x s) - f a (x a))
    rw [show f s (x s) - f a (x s) + (f a (x s) - f a (x a)) = f s (x s) - f a (x a) by ring] at e4
    linarith
  have k5 : ∀ s ∈ uIcc a b, |v s - v a - (s - a) * f a (x a)| ≤ (D + A1 * V) / 2 * |s - a| ^ 2 := by
    intro s hs
    have := grow (F := fun s => v s - v a - (s - a) * f a (x a)) (F' := fun s => f s (x s) - f a (x a)) (a := a) (b := s) (K0 := 0)
      (K1 := D + A1 * V) (K2 := 0)
      (fun r hr => der_of (((hm.dv r (hin (uIcc_left hs hr))).sub_const (v a)).sub (((hasDerivAt_id r).sub_const a).mul_const (f a (x a))))
        (fun y => rfl) (by simp)) (by simp)
      (fun r hr => by simpa using k4 r (uIcc_left hs hr))
    refine this.trans (le_of_eq ?_)
    ring
  have k6 : ∀ s ∈ uIcc a b, |f s (x s) - f a (x a) - (s - a) * (f1 a (x a) * v a)| ≤ D * |s - a| + (A2 * V ^ 2 + A1 * A0) / 2 * |s - a| ^ 2 := by
    intro s hs
    have e1 := h.time s a (x s)
    have e2 := h.quad a (x a) (x s)
    have e3 : |f1 a (x a) * (x s - x a - (s - a) * v a)| ≤ A1 * (A0 / 2 * |s - a| ^ 2) := by
      rw [abs_mul]
      exact mul_le_mul (h.one _ _) (k3 s hs) (abs_nonneg _) n1
    have e4 : A2 / 2 * |x s - x a| ^ 2 ≤ A2 / 2 * (V * |s - a|) ^ 2 := by
      have := k2 s hs
      gcongr
    have e5 := abs_add_le (f s (x s) - f a (x s)) (f a (x s) - f a (x a) - f1 a (x a) * (x s - x a) + f1 a (x a) * (x s - x a - (s - a) * v a))
    have e6 := abs_add_le (f a (x s) - f a (x a) - f1 a (x a) * (x s - x a)) (f1 a (x a) * (x s - x a - (s - a) * v a))
    rw [show f s (x s) - f a (x s) + (f a (x s) - f a (x a) - f1 a (x a) * (x s - x a) + f1 a (x a) * (x s - x a - (s - a) * v a)) =
      f s (x s) - f a (x a) - (s - a) * (f1 a (x a) * v a) by ring] at e5
    refine e5.trans ?_
    rw [mul_pow] at e4
    linarith
  constructor
  · have := grow (F := fun s => x s - x a - (s - a) * v a - (s - a) ^ 2 / 2 * f a (x a)) (F' := fun s => v s - v a - (s - a) * f a (x a))
      (a := a) (b := b) (K0 := 0) (K1 := 0) (K2 := (D + A1 * V) / 2)
      (fun r hr => by
        have d := (hasDerivAt_id r).sub_const a
        refine der_of ((((hm.dx r (hin hr)).sub_const (x a)).sub (d.mul_const (v a))).sub (((d.fun_pow 2).div_const 2).mul_const (f a (x a)))) (fun y => rfl) ?_
        simp only [id, Nat.cast_ofNat, mul_one, one_mul]
        ring) (by simp) (fun r hr => by simpa using k5 r hr)
    refine this.trans (le_of_eq ?_)
    ring
  · have := grow (F := fun s => v s - v a - (s - a) * f a (x a) - (s - a) ^ 2 / 2 * (f1 a (x a) * v a))
      (F' := fun s => f s (x s) - f a (x a) - (s - a) * (f1 a (x a) * v a))
      (a := a) (b := b) (K0 := 0) (K1 := D) (K2 := (A2 * V ^ 2 + A1 * A0) / 2)
      (fun r hr => by
        have d := (hasDerivAt_id r).sub_const a
        refine der_of ((((hm.dv r (hin hr)).sub_const (v a)).sub (d.mul_const (f a (x a)))).sub (((d.fun_pow 2).div_const 2).mul_const (f1 a (x a) * v a)))
          (fun y => rfl) ?_
        simp only [id, Nat.cast_ofNat, mul_one, one_mul]
        ring) (by simp) (fun r hr => by simpa using k6 r hr)
    refine this.trans (le_of_eq ?_)
    ring

/-- The rate at which errors grow, and the error that is added per unit of time, for steps up to `H`. -/
structure Rates (A0 A1 A2 D V H w k τ : ℝ) : Prop where
  w0 : 0 < w
  k0 : 0 < k
  H0 : 0 ≤ H
  freq : A1 ≤ w ^ 2
  rate : w + H / 2 * w ^ 2 + H / 2 * (A2 * V / w) ≤ k
  add : w * ((D + A1 * V) * H ^ 2 / 6) + D * H / 2 + (A2 * V ^ 2 + A1 * A0) * H ^ 2 / 6 ≤ τ

theorem new_error {A0 A1 A2 D V H w τ q : ℝ} (hw : 0 ≤ w) (nD : 0 ≤ D) (n0 : 0 ≤ A0) (n1 : 0 ≤ A1) (n2 : 0 ≤ A2) (nV : 0 ≤ V) (hq0 : 0 ≤ q) (hH : q ≤ H)
    (hadd : w * ((D + A1 * V) * H ^ 2 / 6) + D * H / 2 + (A2 * V ^ 2 + A1 * A0) * H ^ 2 / 6 ≤ τ) :
    w * ((D + A1 * V) * q ^ 3 / 6) + (D * q ^ 2 / 2 + (A2 * V ^ 2 + A1 * A0) * q ^ 3 / 6) ≤ q * τ := by
  have t1 : q ^ 3 ≤ q * H ^ 2 := by
    have : q ^ 2 ≤ H ^ 2 := by gcongr
    nlinarith
  have t2 : q ^ 2 ≤ q * H := by nlinarith
  have e1 : (D + A1 * V) * q ^ 3 ≤ (D + A1 * V) * (q * H ^ 2) := mul_le_mul_of_nonneg_left t1 (by positivity)
  have e2 := mul_le_mul_of_nonneg_left e1 hw
  have e3 := mul_le_mul_of_nonneg_left t2 nD
  have e4 : (A2 * V ^ 2 + A1 * A0) * q ^ 3 ≤ (A2 * V ^ 2 + A1 * A0) * (q * H ^ 2) := mul_le_mul_of_nonneg_left t1 (by positivity)
  have e5 := mul_le_mul_of_nonneg_left hadd hq0
  linarith

theorem old_error {A1 A2 V H w k p q r : ℝ} (hw : 0 < w) (n1 : 0 ≤ A1) (n2 : 0 ≤ A2) (nV : 0 ≤ V) (hq0 : 0 ≤ q) (hH : q ≤ H) (H0 : 0 ≤ H)
    (hf : A1 ≤ w ^ 2) (hrate : w + H / 2 * w ^ 2 + H / 2 * (A2 * V / w) ≤ k) (p0 : 0 ≤ p) (r0 : 0 ≤ r) :
    w * (p + q * r + q ^ 2 / 2 * (A1 * p)) + (r + q * (A1 * p) + q ^ 2 / 2 * (A1 * r + A2 * p * V)) ≤ (w * p + r) * (1 + q * k) := by
  have t : q ^ 2 / 2 ≤ q * H / 2 := by nlinarith
  have t0 : 0 ≤ q ^ 2 / 2 := by positivity
  have e1 : q * (A1 * p) ≤ q * (w ^ 2 * p) := mul_le_mul_of_nonneg_left (mul_le_mul_of_nonneg_right hf p0) hq0
  have e2 : q ^ 2 / 2 * (A1 * p) ≤ q * H / 2 * (w ^ 2 * p) :=
    mul_le_mul t (mul_le_mul_of_nonneg_right hf p0) (mul_nonneg n1 p0) (by positivity)
  have e3 : q ^ 2 / 2 * (A1 * r) ≤ q * H / 2 * (w ^ 2 * r) :=
    mul_le_mul t (mul_le_mul_of_nonneg_right hf r0) (mul_nonneg n1 r0) (by positivity)
  have e4 : q ^ 2 / 2 * (A2 * p * V) ≤ q * H / 2 * (A2 * p * V) := mul_le_mul_of_nonneg_right t (by positivity)
  have e5 : q * H / 2 * (A2 * p * V) = (w * p) * (q * (H / 2 * (A2 * V / w))) := by field_simp
  have z : 0 ≤ H / 2 * (A2 * V / w) := by positivity
  rw [e5] at e4
  generalize H / 2 * (A2 * V / w) = Z at *
  have e6 : (w * p + r) * (q * (w + H / 2 * w ^ 2 + Z)) ≤ (w * p + r) * (q * k) :=
    mul_le_mul_of_nonneg_left (mul_le_mul_of_nonneg_left hrate hq0) (by positivity)
  have e7 : 0 ≤ r * (q * Z) := mul_nonneg r0 (mul_nonneg hq0 z)
  have e8 := mul_le_mul_of_nonneg_left e2 hw.le
  linarith

/-- One step from a point near the motion. -/
theorem step_error (h : Bounded f f1 A0 A1 A2 D) {R V H w k τ : ℝ} (hr : Rates A0 A1 A2 D V H w k τ) {x v : ℝ → ℝ} (hm : Motion f R x v)
    (hV : ∀ t, |t| ≤ R → |v t| ≤ V) {a b y u : ℝ} (ha : |a| ≤ R) (hb : |b| ≤ R) (hH : |b - a| ≤ H) :
    w * |y + (b - a) * u + (b - a) ^ 2 / 2 * f a y - x b| + |u + (b - a) * f a y + (b - a) ^ 2 / 2 * (f1 a y * u) - v b| ≤
      (w * |y - x a| + |u - v a|) * (1 + |b - a| * k) + |b - a| * τ := by
  obtain ⟨l1, l2⟩ := local_error h hm hV ha hb
  obtain ⟨n0, n1, n2, nD⟩ := h.nonneg
  have nV : 0 ≤ V := (abs_nonneg _).trans (hV a ha)
  have hw := hr.w0
  have b1 := h.lip a (x a) y
  have b2 := h.two a (x a) y
  have b3 := h.one a y
  have b4 := hV a ha
  have hf := hr.freq
  have hrate := hr.rate
  have hadd := hr.add
  generalize hd : b - a = d at *
  have hd2 : d ^ 2 = |d| ^ 2 := (sq_abs d).symm
  -- the difference of the accelerations and of their derivatives along the motion
  have c1 : |d ^ 2 / 2 * (f a y - f a (x a))| ≤ |d| ^ 2 / 2 * (A1 * |y - x a|) := by
    rw [abs_mul, hd2, abs_of_nonneg (by positivity)]
    exact mul_le_mul_of_nonneg_left b1 (by positivity)
  have c2 : |d * (f a y - f a (x a))| ≤ |d| * (A1 * |y - x a|) := by
    rw [abs_mul]
    exact mul_le_mul_of_nonneg_left b1 (abs_nonneg _)
  have c3 : |d ^ 2 / 2 * (f1 a y * u - f1 a (x a) * v a)| ≤ |d| ^ 2 / 2 * (A1 * |u - v a| + A2 * |y - x a| * V) := by
    rw [abs_mul, hd2, abs_of_nonneg (by positivity)]
    refine mul_le_mul_of_nonneg_left ?_ (by positivity)
    rw [show f1 a y * u - f1 a (x a) * v a = f1 a y * (u - v a) + (f1 a y - f1 a (x a)) * v a by ring]
    refine (abs_add_le _ _).trans ?_
    rw [abs_mul, abs_mul]
    exact add_le_add (mul_le_mul_of_nonneg_right b3 (abs_nonneg _)) (mul_le_mul b2 b4 (abs_nonneg _) (by positivity))
  have ey : |y + d * u + d ^ 2 / 2 * f a y - x b| ≤ |y - x a| + |d| * |u - v a| + |d| ^ 2 / 2 * (A1 * |y - x a|) + (D + A1 * V) * |d| ^ 3 / 6 := by
    rw [show y + d * u + d ^ 2 / 2 * f a y - x b = (y - x a) + d * (u - v a) + d ^ 2 / 2 * (f a y - f a (x a)) +
      -(x b - x a - d * v a - d ^ 2 / 2 * f a (x a)) by ring]
    refine (abs_add_le _ _).trans (add_le_add ((abs_add_le _ _).trans (add_le_add ((abs_add_le _ _).trans (add_le_add le_rfl ?_)) c1)) ?_)
    · rw [abs_mul]
    · rw [abs_neg]; exact l1
  have eu : |u + d * f a y + d ^ 2 / 2 * (f1 a y * u) - v b| ≤ |u - v a| + |d| * (A1 * |y - x a|) + |d| ^ 2 / 2 * (A1 * |u - v a| + A2 * |y - x a| * V) +
      (D * |d| ^ 2 / 2 + (A2 * V ^ 2 + A1 * A0) * |d| ^ 3 / 6) := by
    rw [show u + d * f a y + d ^ 2 / 2 * (f1 a y * u) - v b = (u - v a) + d * (f a y - f a (x a)) + d ^ 2 / 2 * (f1 a y * u - f1 a (x a) * v a) +
      -(v b - v a - d * f a (x a) - d ^ 2 / 2 * (f1 a (x a) * v a)) by ring]
    refine (abs_add_le _ _).trans (add_le_add ((abs_add_le _ _).trans (add_le_add ((abs_add_le _ _).trans (add_le_add le_rfl c2)) c3)) ?_)
    rw [abs_neg]; exact l2
  have hq0 := abs_nonneg d
  generalize |d| = q at *
  have p0 := abs_nonneg (y - x a)
  have r0 := abs_nonneg (u - v a)
  generalize |y - x a| = p at *
  generalize |u - v a| = r at *
  have ew : w * |y + d * u + d ^ 2 / 2 * f a y - x b| ≤ w * (p + q * r + q ^ 2 / 2 * (A1 * p) + (D + A1 * V) * q ^ 3 / 6) :=
    mul_le_mul_of_nonneg_left ey hw.le
  have s1 := new_error (A0 := A0) hw.le nD n0 n1 n2 nV hq0 hH hadd
  have s2 := old_error hw n1 n2 nV hq0 hH hr.H0 hf hrate p0 r0
  linarith

/-- The bound of the error after the time has moved by `P` in all. -/
noncomputable def allowed (k τ P : ℝ) : ℝ := τ / k * (Real.exp (k * P) - 1)

theorem allowed_zero (k τ : ℝ) : allowed k τ 0 = 0 := by simp [allowed]

theorem allowed_mono {k τ P Q : ℝ} (hk : 0 < k) (ht : 0 ≤ τ) (h : P ≤ Q) : allowed k τ P ≤ allowed k τ Q := by
  unfold allowed
  have : Real.exp (k * P) ≤ Real.exp (k * Q) := Real.exp_le_exp.2 (mul_le_mul_of_nonneg_left h hk.le)
  exact mul_le_mul_of_nonneg_left (by linarith) (by positivity)

theorem allowed_step {k τ P q E : ℝ} (hk : 0 < k) (ht : 0 ≤ τ) (hq : 0 ≤ q) (hE : E ≤ allowed k τ P) :
    E * (1 + q * k) + q * τ ≤ allowed k τ (P + q) := by
  have h1 : E * (1 + q * k) ≤ allowed k τ P * (1 + q * k) := mul_le_mul_of_nonneg_right hE (by positivity)
  have h2 : allowed k τ P * (1 + q * k) + q * τ = τ / k * (Real.exp (k * P) * (1 + q * k) - 1) := by
    unfold allowed; field_simp; ring
  have h3 : Real.exp (k * P) * (1 + q * k) ≤ Real.exp (k * (P + q)) := by
    rw [show k * (P + q) = k * P + k * q by ring, Real.exp_add]
    refine mul_le_mul_of_nonneg_left ?_ (Real.exp_pos _).le
    have := Real.add_one_le_exp (k * q)
    linarith
  have h4 : τ / k * (Real.exp (k * P) * (1 + q * k) - 1) ≤ allowed k τ (P + q) :=
    mul_le_mul_of_nonneg_left (by linarith) (by positivity)
  linarith

end SatSky.StepError
