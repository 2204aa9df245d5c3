import Verif.Model.FieldsDouble
import Verif.Props.RoundTrip
import Verif.Props.SelectDouble
import Verif.Props.SunDouble

/-! C202: the elements of an element set as `double`. -/

namespace SatSky.Props

open SatSky.Spec SatSky.GetEl SatSky.Geo SatSky.Relative

/-- `x` is `X` with the relative error `a`, for either sign. -/
def RelS (a x X : ℝ) : Prop := |x - X| ≤ a * |X|

theorem RelS.mul {a b c x X y Y : ℝ} (hx : RelS a x X) (hy : RelS b y Y) (ha : 0 ≤ a) (hc : a + b + a * b ≤ c) : RelS c (x * y) (X * Y) := by
  unfold RelS at *
  rw [show x * y - X * Y = (x - X) * Y + X * (y - Y) + (x - X) * (y - Y) by ring]
  have h1 : |(x - X) * Y| ≤ a * |X| * |Y| := by rw [abs_mul]; exact mul_le_mul_of_nonneg_right hx (abs_nonneg _)
  have h2 : |X * (y - Y)| ≤ |X| * (b * |Y|) := by rw [abs_mul]; exact mul_le_mul_of_nonneg_left hy (abs_nonneg _)
  have h3 : |(x - X) * (y - Y)| ≤ a * |X| * (b * |Y|) := by
    rw [abs_mul]; exact mul_le_mul hx hy (abs_nonneg _) (mul_nonneg ha (abs_nonneg _))
  refine (abs_add_three _ _ _).trans ?_
  have := mul_le_mul_of_nonneg_right hc (mul_nonneg (abs_nonneg X) (abs_nonneg Y))
  rw [abs_mul X Y]
  nlinarith

theorem RelS.scale {a c x X : ℝ} (hx : RelS a x X) : RelS a (x * c) (X * c) := by
  unfold RelS at *
  rw [← sub_mul, abs_mul, abs_mul, ← mul_assoc]
  exact mul_le_mul_of_nonneg_right hx (abs_nonneg _)

theorem RelS.over {a c x X : ℝ} (hx : RelS a x X) : RelS a (x / c) (X * (1 / c)) := by
  rw [div_eq_mul_one_div x]
  exact hx.scale

theorem RelS.rnd {a c X : ℝ} {z : ℚ} (F : Fl64) (h : RelS a z X) (hX : X = 0 ∨ 1 / 2 ^ 100 ≤ |X|) (hc : a + (1 + a) / 2 ^ 53 + 1 / 2 ^ 100 ≤ c) :
    RelS c (F.rnd z) X := by
  unfold RelS at *
  rcases hX with rfl | hX
  · have hz : (z : ℝ) = 0 := by
      rw [abs_zero, mul_zero, sub_zero] at h
      exact abs_eq_zero.1 (le_antisymm h (abs_nonneg _))
    have hz' : z = 0 := by exact_mod_cast hz
    have h0 := F.exact 0 0 (by norm_num) (by norm_num)
    norm_num at h0
    rw [hz', h0]
    simp
  have h1 := err_real F z
  have h2 : |(z : ℝ)| ≤ |X| + a * |X| := by
    have := abs_sub_abs_le_abs_sub (z : ℝ) X
    linarith
  have h3 := abs_sub_le (F.rnd z : ℝ) z X
  have h4 := mul_le_mul_of_nonneg_right hc (abs_nonneg X)
  have h5 : (1 : ℝ) / 2 ^ 200 ≤ 1 / 2 ^ 100 * |X| := by
    calc (1 : ℝ) / 2 ^ 200 = 1 / 2 ^ 100 * (1 / 2 ^ 100) := by norm_num
      _ ≤ 1 / 2 ^ 100 * |X| := mul_le_mul_of_nonneg_left hX (by positivity)
  nlinarith

theorem RelS.refl (X : ℝ) : RelS 0 X X := by simp [RelS]

theorem relS_const (F : Fl64) (c : ℚ) (h : 1 / 2 ^ 100 ≤ |(c : ℝ)|) : RelS (112 / 10 ^ 18) (F.rnd c) c :=
  RelS.rnd F (RelS.refl _) (Or.inr h) (by norm_num)

theorem relS_pi : RelS (64 / 10 ^ 18) (piD : ℝ) Real.pi := by
  have h1 := Real.pi_gt_d20
  have h2 := Real.pi_lt_d20
  unfold RelS piD
  rw [abs_of_pos Real.pi_pos, abs_le]
  push_cast
  norm_num at h1 h2 ⊢
  constructor <;> linarith

theorem relS_twopi : RelS (64 / 10 ^ 18) (twopiD : ℝ) (2 * Real.pi) := by
  have h1 := Real.pi_gt_d20
  have h2 := Real.pi_lt_d20
  unfold RelS twopiD
  rw [abs_of_pos (show (0 : ℝ) < 2 * Real.pi by positivity), abs_le]
  push_cast
  norm_num at h1 h2 ⊢
  constructor <;> linarith

/-- An integer is zero or at least one. -/
theorem int_size (k : ℤ) {c : ℝ} (hc : 1 / 2 ^ 100 ≤ |c|) : (k : ℝ) * c = 0 ∨ 1 / 2 ^ 100 ≤ |(k : ℝ) * c| := by
  by_cases h : k = 0
  · left; rw [h]; simp
  · right
    have : (1 : ℝ) ≤ |(k : ℝ)| := by exact_mod_cast Int.one_le_abs h
    rw [abs_mul]
    nlinarith [abs_nonneg c]

theorem int_field (F : Fl64) (k : ℤ) {c : ℚ} {C a b : ℝ} (h : RelS a c C) (hC : 1 / 2 ^ 100 ≤ |C|) (hb : a + (1 + a) / 2 ^ 53 + 1 / 2 ^ 100 ≤ b) :
    RelS b (F.rnd (k * c)) (k * C) := by
  refine RelS.rnd F (a := a) ?_ (int_size k hC) hb
  push_cast
  rw [mul_comm (k : ℝ), mul_comm (k : ℝ)]
  exact h.scale

theorem angleFieldD_near (F : Fl64) (k : ℤ) : RelS (3 / 10 ^ 16) (angleFieldD F k) (k * (Real.pi / 1800000)) := by
  have hp := Real.pi_gt_d6
  have hs : (1 : ℝ) / 2 ^ 100 ≤ |Real.pi / 1800000| := by
    rw [abs_of_pos (by positivity), le_div_iff₀ (by norm_num)]
    norm_num at hp ⊢
    linarith
  refine int_field F k (a := 177 / 10 ^ 18) ?_ hs (by norm_num)
  refine RelS.rnd F (a := 64 / 10 ^ 18) ?_ (Or.inr hs) (by norm_num)
  push_cast
  rw [div_eq_mul_one_div Real.pi]
  exact relS_pi.over

theorem eccFieldD_near (F : Fl64) (k : ℤ) : RelS (23 / 10 ^ 17) (eccFieldD F k) (k * (1 / 10 ^ 7)) := by
  have h := relS_const F (1 / 10 ^ 7) (by push_cast; norm_num)
  push_cast at h
  exact int_field F k h (by norm_num) (by norm_num)

theorem motionFieldD_near (F : Fl64) (i f : ℕ) :
    RelS (64 / 10 ^ 17) (motionFieldD F (i, f)) ((i + f * (1 / 10 ^ 8)) * (2 * Real.pi) * (1 / 1440)) := by
  have hp := Real.pi_gt_d6
  have h8 := relS_const F (1 / 10 ^ 8) (by push_cast; norm_num)
  push_cast at h8
  have c1 := int_field F (f : ℤ) h8 (by norm_num) (b := 225 / 10 ^ 18) (by norm_num)
  have size : (i : ℝ) + f * (1 / 10 ^ 8) = 0 ∨ 1 / 10 ^ 8 ≤ (i : ℝ) + f * (1 / 10 ^ 8) := by
    rcases Nat.eq_zero_or_pos i with hi | hi <;> rcases Nat.eq_zero_or_pos f with hf | hf
    · left; rw [hi, hf]; simp
    all_goals right
    · have : (1 : ℝ) ≤ f := by exact_mod_cast hf
      have : (0 : ℝ) ≤ i := Nat.cast_nonneg _
      linarith
    · have : (1 : ℝ) ≤ i := by exact_mod_cast hi
      have : (0 : ℝ) ≤ f := Nat.cast_nonneg _
      linarith
    · have : (1 : ℝ) ≤ i := by exact_mod_cast hi
      have : (0 : ℝ) ≤ f := Nat.cast_nonneg _
      linarith
  have c2 : RelS (338 / 10 ^ 18) (F.rnd (((i : ℤ) : ℚ) + F.rnd (((f : ℤ) : ℚ) * F.rnd (1 / 10 ^ 8)))) ((i : ℝ) + f * (1 / 10 ^ 8)) := by
    refine RelS.rnd F (a := 225 / 10 ^ 18) ?_ ?_ (by norm_num)
    · have i0 : (0 : ℝ) ≤ i := Nat.cast_nonneg _
      have f0 : (0 : ℝ) ≤ f * (1 / 10 ^ 8) := by positivity
      unfold RelS at c1 ⊢
      push_cast at c1 ⊢
      rw [abs_of_nonneg f0] at c1
      rw [add_sub_add_left_eq_sub, abs_of_nonneg (add_nonneg i0 f0)]
      linarith
    · rcases size with h | h
      · left; exact h
      · right
        rw [abs_of_nonneg (le_trans (by norm_num) h)]
        exact le_trans (by norm_num) h
  unfold motionFieldD
  dsimp only
  generalize F.rnd (((i : ℤ) : ℚ) + F.rnd (((f : ℤ) : ℚ) * F.rnd (1 / 10 ^ 8))) = x at *
  generalize (i : ℝ) + f * (1 / 10 ^ 8) = X at *
  have big : ∀ c : ℝ, 1 / 10 ^ 4 ≤ c → X * (2 * Real.pi) * c = 0 ∨ 1 / 2 ^ 100 ≤ |X * (2 * Real.pi) * c| := by
    intro c hc
    rcases size with h | h
    · left; rw [h]; ring
    · right
      have h1 : 1 / 10 ^ 8 * (2 * 3) ≤ X * (2 * Real.pi) := mul_le_mul h (by linarith) (by norm_num) (le_trans (by norm_num) h)
      have h2 : 1 / 10 ^ 8 * (2 * 3) * (1 / 10 ^ 4) ≤ X * (2 * Real.pi) * c := mul_le_mul h1 hc (by norm_num) (le_trans (by norm_num) h1)
      rw [abs_of_nonneg (le_trans (by norm_num) h2)]
      exact le_trans (by norm_num) h2
  have c3 : RelS (515 / 10 ^ 18) (F.rnd (x * twopiD)) (X * (2 * Real.pi)) := by
    refine RelS.rnd F (a := 403 / 10 ^ 18) ?_ (by simpa using big 1 (by norm_num)) (by norm_num)
    push_cast
    exact RelS.mul c2 relS_twopi (by norm_num) (by norm_num)
  refine RelS.rnd F (a := 515 / 10 ^ 18) ?_ (big _ (by norm_num)) (by norm_num)
  push_cast
  exact c3.over

/-- A value that is zero or not too small. -/
def Sized (e X : ℝ) : Prop := X = 0 ∨ e ≤ |X|

theorem Sized.mul {e c d X : ℝ} (h : Sized e X) (hc : d ≤ e * |c|) : Sized d (X * c) := by
  rcases h with rfl | h
  · left; ring
  · right; rw [abs_mul]; exact hc.trans (mul_le_mul_of_nonneg_right h (abs_nonneg _))

theorem ndotFieldD_near (F : Fl64) (k : ℤ) : RelS (65 / 10 ^ 17) (ndotFieldD F k) (k * (1 / 10 ^ 8) * (2 * Real.pi) * (1 / 2073600)) := by
  have hp := Real.pi_gt_d6
  have h8 := relS_const F (1 / 10 ^ 8) (by push_cast; norm_num)
  push_cast at h8
  have c1 := int_field F |k| h8 (by norm_num) (b := 225 / 10 ^ 18) (by norm_num)
  have s1 : Sized (1 / 10 ^ 8) (((|k| : ℤ) : ℝ) * (1 / 10 ^ 8)) := by
    by_cases h : k = 0
    · left; rw [h]; simp
    · right
      have : (1 : ℝ) ≤ ((|k| : ℤ) : ℝ) := by exact_mod_cast Int.one_le_abs h
      rw [abs_of_nonneg (by positivity)]
      linarith
  have ht : |2 * Real.pi| = 2 * Real.pi := abs_of_pos (by positivity)
  have s2 : Sized (1 / 10 ^ 8) (((|k| : ℤ) : ℝ) * (1 / 10 ^ 8) * (2 * Real.pi)) := s1.mul (by rw [ht]; norm_num at hp ⊢; linarith)
  have s3 : Sized (1 / 10 ^ 15) (((|k| : ℤ) : ℝ) * (1 / 10 ^ 8) * (2 * Real.pi) * (1 / 2073600)) := s2.mul (by rw [abs_of_pos (by norm_num)]; norm_num)
  have c2 : RelS (402 / 10 ^ 18) (F.rnd (F.rnd (((|k| : ℤ) : ℚ) * F.rnd (1 / 10 ^ 8)) * twopiD)) (((|k| : ℤ) : ℝ) * (1 / 10 ^ 8) * (2 * Real.pi)) := by
    refine RelS.rnd F (a := 290 / 10 ^ 18) ?_ (s2.imp_right (le_trans (by norm_num))) (by norm_num)
    push_cast
    push_cast at c1
    exact RelS.mul c1 relS_twopi (by norm_num) (by norm_num)
  have c3 : RelS (515 / 10 ^ 18) (F.rnd (F.rnd (F.rnd (((|k| : ℤ) : ℚ) * F.rnd (1 / 10 ^ 8)) * twopiD) / 2073600))
      (((|k| : ℤ) : ℝ) * (1 / 10 ^ 8) * (2 * Real.pi) * (1 / 2073600)) := by
    refine RelS.rnd F (a := 402 / 10 ^ 18) ?_ (s3.imp_right (le_trans (by norm_num))) (by norm_num)
    rw [Rat.cast_div, Rat.cast_ofNat]
    exact c2.over
  unfold ndotFieldD
  dsimp only
  generalize F.rnd (F.rnd (F.rnd (((|k| : ℤ) : ℚ) * F.rnd (1 / 10 ^ 8)) * twopiD) / 2073600) = r at *
  by_cases hk : k < 0
  · rw [if_pos hk]
    rw [abs_of_neg hk] at c3 s3
    push_cast at c3 s3
    have e : (k : ℝ) * (1 / 10 ^ 8) * (2 * Real.pi) * (1 / 2073600) = -(k : ℝ) * (1 / 10 ^ 8) * (2 * Real.pi) * (1 / 2073600) * -1 := by ring
    rw [e]
    refine RelS.rnd F (a := 515 / 10 ^ 18) ?_ ?_ (by norm_num)
    · push_cast
      exact c3.scale
    · exact (s3.mul (c := -1) (d := 1 / 10 ^ 15) (by norm_num)).imp_right (le_trans (by norm_num))
  · rw [if_neg hk]
    rw [abs_of_nonneg (not_lt.1 hk)] at c3
    unfold RelS at c3 ⊢
    exact c3.trans (mul_le_mul_of_nonneg_right (show (515 / 10 ^ 18 : ℝ) ≤ 65 / 10 ^ 17 by norm_num) (abs_nonneg _))

/-! ### The exponent -/

theorem scale_down (F : Fl64) {x : ℚ} {X : ℝ} {n : ℕ} (hn : n ≤ 9) (hx : RelS (3 / 10 ^ 16) x X) (hX : Sized (1 / 10 ^ 5) X) :
    RelS ((n + 1) * (3 / 10 ^ 16)) ((fun x => F.rnd (x * F.rnd (1 / 10)))^[n] x) (X * (1 / 10) ^ n) := by
  have h := relS_const F (1 / 10) (by push_cast; norm_num)
  push_cast at h
  induction n with
  | zero => simpa using hx
  | succ n ih =>
    have ih := ih (by omega)
    rw [Function.iterate_succ_apply']
    have hn' : (n : ℝ) ≤ 8 := by exact_mod_cast (by omega : n ≤ 8)
    have n0 : (0 : ℝ) ≤ n := Nat.cast_nonneg n
    have hs : Sized (1 / 10 ^ 14) (X * (1 / 10) ^ (n + 1)) := by
      refine hX.mul ?_
      rw [abs_of_pos (by positivity)]
      have : ((1 : ℝ) / 10) ^ 9 ≤ (1 / 10) ^ (n + 1) := pow_le_pow_of_le_one (by norm_num) (by norm_num) (by omega)
      norm_num at this ⊢
      linarith
    refine RelS.rnd F (a := (n + 1) * (3 / 10 ^ 16) + 113 / 10 ^ 18) ?_ (hs.imp_right (le_trans (by norm_num))) ?_
    · push_cast
      rw [pow_succ (1 / 10 : ℝ) n, ← mul_assoc]
      refine RelS.mul ih h (by positivity) ?_
      norm_num
      nlinarith
    · push_cast
      norm_num
      nlinarith

theorem scale_up (F : Fl64) {x : ℚ} {X : ℝ} {n : ℕ} (hn : n ≤ 9) (hx : RelS (3 / 10 ^ 16) x X) (hX : Sized (1 / 10 ^ 5) X) :
    RelS ((n + 1) * (3 / 10 ^ 16)) ((fun x => F.rnd (x * 10))^[n] x) (X * 10 ^ n) := by
  induction n with
  | zero => simpa using hx
  | succ n ih =>
    have ih := ih (by omega)
    rw [Function.iterate_succ_apply']
    have hn' : (n : ℝ) ≤ 8 := by exact_mod_cast (by omega : n ≤ 8)
    have n0 : (0 : ℝ) ≤ n := Nat.cast_nonneg n
    have hs : Sized (1 / 10 ^ 5) (X * 10 ^ (n + 1)) := by
      refine hX.mul ?_
      rw [abs_of_pos (by positivity)]
      have : (1 : ℝ) ≤ 10 ^ (n + 1) := one_le_pow₀ (by norm_num)
      linarith
    refine RelS.rnd F (a := (n + 1) * (3 / 10 ^ 16)) ?_ (hs.imp_right (le_trans (by norm_num))) ?_
    · push_cast
      rw [pow_succ (10 : ℝ) n, ← mul_assoc]
      exact ih.scale
    · push_cast
      norm_num
      nlinarith

/-- The value of an sDDDDDtE field. -/
noncomputable def sciReal (v : SciValue) : ℝ :=
  (if v.neg then -1 else 1) * (v.mant / 10 ^ 5) * (if v.expNeg then 1 / 10 ^ v.expo else 10 ^ v.expo)

theorem sciReal_sized {v : SciValue} (h : v.expo ≤ 9) : Sized (1 / 10 ^ 14) (sciReal v) := by
  unfold sciReal
  refine Sized.mul (e := 1 / 10 ^ 5) ?_ ?_
  · by_cases hm : v.mant = 0
    · left; rw [hm]; simp
    · right
      have : (1 : ℝ) ≤ v.mant := by exact_mod_cast Nat.one_le_iff_ne_zero.2 hm
      rw [abs_mul, abs_of_nonneg (show (0 : ℝ) ≤ v.mant / 10 ^ 5 by positivity)]
      split_ifs <;> norm_num <;> linarith
  · have h9 : (10 : ℝ) ^ v.expo ≤ 10 ^ 9 := pow_le_pow_right₀ (by norm_num) h
    have h0 : (0 : ℝ) < 10 ^ v.expo := by positivity
    split_ifs
    · rw [abs_of_pos (by positivity), div_mul_div_comm, one_mul, div_le_div_iff₀ (by positivity) (by positivity)]
      norm_num at h9 ⊢
      linarith
    · rw [abs_of_pos h0]
      have : (1 : ℝ) ≤ 10 ^ v.expo := one_le_pow₀ (by norm_num)
      norm_num
      linarith

theorem sciFieldD_near (F : Fl64) {v : SciValue} {d : Dec} (hv : v.expo ≤ 9) (h : SciMeans v d) : RelS (3 / 10 ^ 15) (sciFieldD F d) (sciReal v) := by
  have h5 := relS_const F (1 / 10 ^ 5) (by push_cast; norm_num)
  push_cast at h5
  have c1 := int_field F d.mant h5 (by norm_num) (b := 3 / 10 ^ 16) (by norm_num)
  have s1 : Sized (1 / 10 ^ 5) ((d.mant : ℝ) * (1 / 10 ^ 5)) := by
    by_cases hm : d.mant = 0
    · left; rw [hm]; simp
    · right
      have : (1 : ℝ) ≤ |(d.mant : ℝ)| := by exact_mod_cast Int.one_le_abs hm
      rw [abs_mul, abs_of_pos (by norm_num : (0 : ℝ) < 1 / 10 ^ 5)]
      linarith
  by_cases hm : v.mant = 0
  · have h0 := F.exact 0 0 (by norm_num) (by norm_num)
    norm_num at h0
    have e1 : ∀ n, (fun x => F.rnd (x * F.rnd (1 / 10)))^[n] 0 = 0 := by
      intro n
      induction n with
      | zero => rfl
      | succ n ih => rw [Function.iterate_succ_apply', ih, zero_mul, h0]
    have e2 : ∀ n, (fun x => F.rnd (x * 10))^[n] 0 = 0 := by
      intro n
      induction n with
      | zero => rfl
      | succ n ih => rw [Function.iterate_succ_apply', ih, zero_mul, h0]
    have f0 : sciFieldD F d = 0 := by
      unfold sciFieldD
      dsimp only
      rw [h.1 hm, Int.cast_zero, zero_mul, h0]
      split_ifs
      · exact e1 _
      · exact e2 _
    have r0 : sciReal v = 0 := by unfold sciReal; rw [hm]; simp
    rw [f0, r0]
    simp [RelS]
  obtain ⟨hd, he⟩ := h.2 hm
  have hval : (d.mant : ℝ) * (1 / 10 ^ 5) = (if v.neg then -1 else 1) * (v.mant / 10 ^ 5) := by
    rw [hd]; push_cast; split_ifs <;> ring
  rw [hval] at c1 s1
  have fin : ∀ {n : ℕ} {x X : ℝ}, n ≤ 9 → RelS ((n + 1) * (3 / 10 ^ 16)) x X → RelS (3 / 10 ^ 15) x X := by
    intro n x X hn hr
    have : (n : ℝ) ≤ 9 := by exact_mod_cast hn
    exact hr.trans (mul_le_mul_of_nonneg_right (by norm_num; linarith) (abs_nonneg _))
  unfold sciFieldD sciReal
  dsimp only
  by_cases hlt : d.expo < -5
  · rw [if_pos hlt]
    have hneg : v.expNeg = true := by
      by_contra hc
      rw [if_neg hc] at he
      omega
    rw [if_pos hneg] at he
    rw [if_pos hneg, show (-5 - d.expo).toNat = v.expo by omega]
    have := fin hv (scale_down F hv c1 s1)
    rwa [one_div_pow] at this
  · rw [if_neg hlt]
    by_cases hneg : v.expNeg = true
    · rw [if_pos hneg] at he
      rw [if_pos hneg, show (d.expo + 5).toNat = v.expo by omega]
      have e0 : v.expo = 0 := by omega
      have := fin hv (scale_up F hv c1 s1)
      rw [e0] at this ⊢
      simpa using this
    · rw [if_neg hneg] at he
      rw [if_neg hneg, show (d.expo + 5).toNat = v.expo by omega]
      exact fin hv (scale_up F hv c1 s1)

theorem bstarFieldD_near (F : Fl64) {v : SciValue} {d : Dec} (hv : v.expo ≤ 9) (h : SciMeans v d) : RelS (32 / 10 ^ 16) (bstarFieldD F d) (sciReal v) := by
  refine RelS.rnd F (a := 3 / 10 ^ 15) ?_ ((sciReal_sized hv).imp_right (le_trans (by norm_num))) (by norm_num)
  rw [mul_one]
  exact sciFieldD_near F hv h

theorem nddotFieldD_near (F : Fl64) {v : SciValue} {d : Dec} (hv : v.expo ≤ 9) (h : SciMeans v d) :
    RelS (34 / 10 ^ 16) (nddotFieldD F d) (sciReal v * (2 * Real.pi) * (1 / 2985984000)) := by
  have hp := Real.pi_gt_d6
  have s1 := sciReal_sized hv
  have ht : |2 * Real.pi| = 2 * Real.pi := abs_of_pos (by positivity)
  have s2 : Sized (1 / 10 ^ 14) (sciReal v * (2 * Real.pi)) := s1.mul (by rw [ht]; norm_num at hp ⊢; linarith)
  have s3 : Sized (1 / 10 ^ 24) (sciReal v * (2 * Real.pi) * (1 / 2985984000)) := s2.mul (by rw [abs_of_pos (by norm_num)]; norm_num)
  have c2 : RelS (318 / 10 ^ 17) (F.rnd (sciFieldD F d * twopiD)) (sciReal v * (2 * Real.pi)) := by
    refine RelS.rnd F (a := 3065 / 10 ^ 18) ?_ (s2.imp_right (le_trans (by norm_num))) (by norm_num)
    push_cast
    exact RelS.mul (sciFieldD_near F hv h) relS_twopi (by norm_num) (by norm_num)
  refine RelS.rnd F (a := 318 / 10 ^ 17) ?_ (s3.imp_right (le_trans (by norm_num))) (by norm_num)
  rw [Rat.cast_div, Rat.cast_ofNat]
  exact c2.over

/-- The degrees of an angle field. -/
noncomputable def degrees (a : ℕ × ℕ) : ℝ := a.1 + a.2 / 10 ^ 4

theorem angle_of_field (F : Fl64) {k : ℤ} {a : ℕ × ℕ} (h : k = a.1 * 10000 + a.2) : RelS (3 / 10 ^ 16) (angleFieldD F k) (degrees a * (Real.pi / 180)) := by
  have := angleFieldD_near F k
  have e : (k : ℝ) * (Real.pi / 1800000) = degrees a * (Real.pi / 180) := by
    rw [h]; unfold degrees; push_cast; ring
  rwa [e] at this

/-- **C202**: every valid element set, written in the standard layout, gives elements whose values as `double`, in radians and minutes, are
those written to a part in `3 * 10 ^ 15` (angles and eccentricity), `10 ^ 15` (mean motion and its derivative) and `3 * 10 ^ 14` (second
derivative and drag term, where up to nine products scale the mantissa). -/
theorem C202_fields (F : Fl64) (r : Elements) (hv : r.Valid) (e1 e2 : CString) (hs1 : IsCStr e1) (hs2 : IsCStr e2)
    (he1 : ∀ c ∈ e1.head?, c ≤ 32) (he2 : ∀ c ∈ e2.head?, c ≤ 32) :
    ∃ t : Tle, parseElements (r.line1 ++ e1) (r.line2 ++ e2) = some (0, some t) ∧
      RelS (3 / 10 ^ 16) (angleFieldD F t.xincl) (degrees r.incl * (Real.pi / 180)) ∧
      RelS (3 / 10 ^ 16) (angleFieldD F t.xnodeo) (degrees r.node * (Real.pi / 180)) ∧
      RelS (3 / 10 ^ 16) (angleFieldD F t.omegao) (degrees r.argp * (Real.pi / 180)) ∧
      RelS (3 / 10 ^ 16) (angleFieldD F t.xmo) (degrees r.anomaly * (Real.pi / 180)) ∧
      RelS (3 / 10 ^ 16) (eccFieldD F t.eo) (r.ecc / 10 ^ 7) ∧
      RelS (1 / 10 ^ 15) (motionFieldD F t.xno) ((r.motion.1 + r.motion.2 / 10 ^ 8) * (2 * Real.pi) / 1440) ∧
      RelS (1 / 10 ^ 15) (ndotFieldD F t.xndt2o) ((if r.ndotNeg then -1 else 1) * (r.ndot / 10 ^ 8) * (2 * Real.pi) / 1440 ^ 2) ∧
      RelS (35 / 10 ^ 16) (nddotFieldD F t.xndd6o) (sciReal r.nddot * (2 * Real.pi) / 1440 ^ 3) ∧
      RelS (35 / 10 ^ 16) (bstarFieldD F t.bstar) (sciReal r.bstar) := by
  obtain ⟨t, hp, _, _, _, _, _, hnd, hn2, hb, _, _, hi, ho, hw, hm, he, hno, _⟩ := C09_roundtrip r hv e1 e2 hs1 hs2 he1 he2
  refine ⟨t, hp, angle_of_field F hi, angle_of_field F ho, angle_of_field F hw, angle_of_field F hm, ?_, ?_, ?_, ?_, ?_⟩
  · have := eccFieldD_near F t.eo
    rw [he] at this ⊢
    push_cast at this
    rw [mul_one_div] at this
    exact this.trans (mul_le_mul_of_nonneg_right (by norm_num) (abs_nonneg _))
  · have := motionFieldD_near F r.motion.1 r.motion.2
    rw [hno]
    rw [mul_one_div, mul_one_div] at this
    exact this.trans (mul_le_mul_of_nonneg_right (by norm_num) (abs_nonneg _))
  · have := ndotFieldD_near F t.xndt2o
    have e : (t.xndt2o : ℝ) * (1 / 10 ^ 8) * (2 * Real.pi) * (1 / 2073600) = (if r.ndotNeg then -1 else 1) * (r.ndot / 10 ^ 8) * (2 * Real.pi) / 1440 ^ 2 := by
      rw [hnd]
      split_ifs <;> push_cast <;> ring
    rw [e] at this
    exact this.trans (mul_le_mul_of_nonneg_right (by norm_num) (abs_nonneg _))
  · have := nddotFieldD_near F hv.nddot.2 hn2
    rw [show sciReal r.nddot * (2 * Real.pi) * (1 / 2985984000) = sciReal r.nddot * (2 * Real.pi) / 1440 ^ 3 by ring] at this
    exact this.trans (mul_le_mul_of_nonneg_right (by norm_num) (abs_nonneg _))
  · have := bstarFieldD_near F hv.bstar.2 hb
    exact this.trans (mul_le_mul_of_nonneg_right (by norm_num) (abs_nonneg _))

/-- The element set of the comment of `get_el.c` 262-264: inclination 82.5386 degrees, 13.83869004 revolutions a day. -/
example : ⌊angleFieldD Fl64.ieee 825386 * 10 ^ 12⌋ = 1440570329986 ∧ ⌊motionFieldD Fl64.ieee (13, 83869004) * 10 ^ 12⌋ = 60382676340 := by decide +kernel

/-- Its drag term, 0.63463e-4. -/
example : ⌊bstarFieldD Fl64.ieee ⟨63463, -9⟩ * 10 ^ 15⌋ = 63463000000 ∨ ⌊bstarFieldD Fl64.ieee ⟨63463, -9⟩ * 10 ^ 15⌋ = 63462999999 := by decide +kernel

/-- Products by the rounded tenth: 0.00001e-9 is not the `double` nearest to `10 ^ -14`. -/
example : sciFieldD Fl64.ieee ⟨1, -14⟩ ≠ Fl64.ieee.rnd (1 / 10 ^ 14) := by decide +kernel

end SatSky.Props
