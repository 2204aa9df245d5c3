import Verif.Lemmas.DateLemmas

/-!
`mjd2date` for arbitrary arguments: the printed fields are valid (IEEE arithmetic) and the printed
instant is within half a second plus rounding (any `Fl64`).
-/

namespace SatSky.Dates

open SatSky Cal Spec Props

/-- For each hour `h` the largest `double` whose product with 24 rounds below `h+1`, as `k / 2^(52+j)`
(proof data, checked below). -/
def hourTab : List (ℤ × ℕ) :=
  [(6004799503160660, 5), (6004799503160660, 4), (9007199254740991, 4), (6004799503160660, 3),
   (7505999378950825, 3), (9007199254740991, 3), (5254199565265578, 2), (6004799503160660, 2),
   (6755399441055743, 2), (7505999378950825, 2), (8256599316845908, 2), (9007199254740991, 2),
   (4878899596318036, 1), (5254199565265578, 1), (5629499534213119, 1), (6004799503160660, 1),
   (6380099472108201, 1), (6755399441055743, 1), (7130699410003284, 1), (7505999378950825, 1),
   (7881299347898367, 1), (8256599316845908, 1), (8631899285793449, 1), (9007199254740991, 1)]
/-- Likewise for minutes and 1440. -/
def minTab : List (ℤ × ℕ) :=
  [(6405119470038038, 11), (6405119470038038, 10), (4803839602528528, 9), (6405119470038038, 9),
   (8006399337547547, 9), (4803839602528528, 8), (5604479536283283, 8), (6405119470038038, 8),
   (7205759403792792, 8), (8006399337547547, 8), (8807039271302302, 8), (4803839602528528, 7),
   (5204159569405906, 7), (5604479536283283, 7), (6004799503160660, 7), (6405119470038038, 7),
   (6805439436915415, 7), (7205759403792792, 7), (7606079370670170, 7), (8006399337547547, 7),
   (8406719304424925, 7), (8807039271302302, 7), (4603679619089839, 6), (4803839602528528, 6),
   (5003999585967217, 6), (5204159569405906, 6), (5404319552844594, 6), (5604479536283283, 6),
   (5804639519721972, 6), (6004799503160660, 6), (6204959486599349, 6), (6405119470038038, 6),
   (6605279453476726, 6), (6805439436915415, 6), (7005599420354104, 6), (7205759403792792, 6),
   (7405919387231481, 6), (7606079370670170, 6), (7806239354108859, 6), (8006399337547547, 6),
   (8206559320986236, 6), (8406719304424925, 6), (8606879287863613, 6), (8807039271302302, 6),
   (9007199254740991, 6), (4603679619089839, 5), (4703759610809184, 5), (4803839602528528, 5),
   (4903919594247873, 5), (5003999585967217, 5), (5104079577686561, 5), (5204159569405906, 5),
   (5304239561125250, 5), (5404319552844594, 5), (5504399544563939, 5), (5604479536283283, 5),
   (5704559528002627, 5), (5804639519721972, 5), (5904719511441316, 5), (6004799503160660, 5)]

/-- The table is right, and the bounds it gives keep the minutes below 60. -/
theorem hour_check : ∀ h : Fin 24,
    1 / 2 ^ ((hourTab[h.val]?).getD (0, 0)).2
      ≤ (((hourTab[h.val]?).getD (0, 0)).1 : ℚ) / 2 ^ (52 + ((hourTab[h.val]?).getD (0, 0)).2) ∧
    ((h.val : ℚ) + 1) ≤
      rndBits 53 ((((((hourTab[h.val]?).getD (0, 0)).1 + 1 : ℤ) : ℚ) /
        2 ^ (52 + ((hourTab[h.val]?).getD (0, 0)).2)) * 24) ∧
    rndBits 53 (rndBits 53 ((((hourTab[h.val]?).getD (0, 0)).1 : ℚ) /
        2 ^ (52 + ((hourTab[h.val]?).getD (0, 0)).2) - rndBits 53 ((h.val : ℚ) / 24)) * 1440) < 60 := by
  decide +kernel

theorem min_check : ∀ h : Fin 60,
    1 / 2 ^ ((minTab[h.val]?).getD (0, 0)).2
      ≤ (((minTab[h.val]?).getD (0, 0)).1 : ℚ) / 2 ^ (52 + ((minTab[h.val]?).getD (0, 0)).2) ∧
    ((h.val : ℚ) + 1) ≤
      rndBits 53 ((((((minTab[h.val]?).getD (0, 0)).1 + 1 : ℤ) : ℚ) /
        2 ^ (52 + ((minTab[h.val]?).getD (0, 0)).2)) * 1440) ∧
    rndBits 53 (rndBits 53 ((((minTab[h.val]?).getD (0, 0)).1 : ℚ) /
        2 ^ (52 + ((minTab[h.val]?).getD (0, 0)).2) - rndBits 53 ((h.val : ℚ) / 1440)) * 86400) < 60 := by
  decide +kernel

/-- If the next `double` after `b` gives a product of at least `t`, every `double` with a smaller
product is at most `b`. -/
theorem le_of_prod_lt (F : Fl64) (c t : ℚ) (hc : 0 ≤ c) (k : ℤ) (j : ℕ)
    (hb : 1 / 2 ^ j ≤ (k : ℚ) / 2 ^ (52 + j))
    (hn : t ≤ F.rnd (((k + 1 : ℤ) : ℚ) / 2 ^ (52 + j) * c)) (z : ℚ) (hz : F.rnd (F.rnd z * c) < t) :
    F.rnd z ≤ (k : ℚ) / 2 ^ (52 + j) := by
  by_contra hcon
  push Not at hcon
  have hp : (0 : ℚ) < 1 / 2 ^ j := by positivity
  obtain ⟨m, hm⟩ := F.grid z j (by rw [abs_of_pos (by linarith)]; linarith)
  rw [hm] at hcon
  have hP : (0 : ℚ) < 2 ^ (52 + j) := by positivity
  rw [div_lt_div_iff_of_pos_right hP] at hcon
  have : k + 1 ≤ m := by
    have : k < m := by exact_mod_cast hcon
    omega
  have h1 : ((k + 1 : ℤ) : ℚ) / 2 ^ (52 + j) ≤ F.rnd z := by
    rw [hm]; apply div_le_div_of_nonneg_right _ hP.le; exact_mod_cast this
  have := F.mono _ _ (mul_le_mul_of_nonneg_right h1 hc)
  linarith

/-- What truncation to an integer gives for a number not below -1. -/
theorem truncQ_spec {x : ℚ} (h : -1 < x) : 0 ≤ truncQ x ∧ (truncQ x : ℚ) ≤ max x 0 ∧ x < truncQ x + 1 := by
  unfold truncQ
  by_cases h0 : 0 ≤ x
  · rw [if_pos h0, max_eq_left h0]
    exact ⟨Int.floor_nonneg.mpr h0, Int.floor_le x, Int.lt_floor_add_one x⟩
  · rw [if_neg h0]
    have : ⌈x⌉ = 0 := by
      rw [Int.ceil_eq_iff]; push_cast; constructor <;> linarith
    rw [this]
    refine ⟨le_refl 0, ?_, ?_⟩
    · push_cast; exact le_max_right _ _
    · push_cast; linarith

/-- One step of `splitTime`: `n = (int)(f*c); f -= n/c`. The remainder is between 0 and `1/c`, up to
rounding. -/
theorem step_bounds (F : Fl64) (f : ℚ) (c : ℕ) (hc : 24 ≤ c ∧ c ≤ 86400)
    (h0 : -(1 / 2 ^ 50) ≤ f) (h1 : f ≤ 1 + 1 / 2 ^ 50) :
    0 ≤ truncQ (F.rnd (f * c)) ∧
    -(1 / 2 ^ 51) + min f 0 ≤ f - (truncQ (F.rnd (f * c)) : ℚ) / c ∧
    f - (truncQ (F.rnd (f * c)) : ℚ) / c ≤ 1 / c + 1 / 2 ^ 51 ∧
    |F.rnd (f - F.rnd ((truncQ (F.rnd (f * c)) : ℚ) / c)) - (f - (truncQ (F.rnd (f * c)) : ℚ) / c)| ≤
      1 / 2 ^ 51 := by
  have c1 : (24 : ℚ) ≤ c := by exact_mod_cast hc.1
  have c2 : (c : ℚ) ≤ 86400 := by exact_mod_cast hc.2
  have cpos : (0 : ℚ) < c := by linarith
  have hfc : |f * c| ≤ 2 * c := by
    rw [abs_mul, abs_of_pos cpos]
    apply mul_le_mul_of_nonneg_right _ cpos.le
    rw [abs_le]; norm_num at h0 h1 ⊢; constructor <;> linarith
  have e1 := F.err_le hfc
  have small : 2 * (c : ℚ) / 2 ^ 53 + 1 / 2 ^ 200 ≤ c / 2 ^ 51 := by
    have : (c : ℚ) / 2 ^ 51 - 2 * c / 2 ^ 53 = c / 2 ^ 52 := by ring
    have h2 : (1 : ℚ) / 2 ^ 200 ≤ c / 2 ^ 52 := by
      have : (1 : ℚ) / 2 ^ 200 ≤ 1 / 2 ^ 52 := by norm_num
      have : (1 : ℚ) / 2 ^ 52 ≤ c / 2 ^ 52 := by
        apply div_le_div_of_nonneg_right _ (by positivity); linarith
      linarith
    linarith
  have e1' := le_trans e1 small
  rw [abs_le] at e1'
  have fc : -(1 / 2 ^ 50) * c ≤ f * c := mul_le_mul_of_nonneg_right h0 cpos.le
  have hgt : -1 < F.rnd (f * c) := by
    have : (c : ℚ) / 2 ^ 51 ≤ 86400 / 2 ^ 51 := by
      apply div_le_div_of_nonneg_right c2 (by positivity)
    have h3 : (1 / 2 ^ 50 : ℚ) * c ≤ 1 / 2 ^ 50 * 86400 := by
      apply mul_le_mul_of_nonneg_left c2 (by positivity)
    norm_num at this h3 e1' fc ⊢
    linarith
  obtain ⟨t0, t1, t2⟩ := truncQ_spec hgt
  generalize hn : truncQ (F.rnd (f * c)) = n at *
  have hq : ((n : ℚ) / c) * c = n := by field_simp
  have hd1 : f * c - n ≤ c * (1 / c + 1 / 2 ^ 51) := by
    have : (c : ℚ) * (1 / c + 1 / 2 ^ 51) = 1 + c / 2 ^ 51 := by field_simp
    rw [this]; linarith
  have hd2 : c * (-(1 / 2 ^ 51) + min f 0) ≤ f * c - n := by
    rcases le_total 0 f with hf | hf
    · rw [min_eq_right hf]
      have : 0 ≤ F.rnd (f * c) := F.nonneg (by positivity)
      rw [max_eq_left this] at t1
      have e : (c : ℚ) * (-(1 / 2 ^ 51) + 0) = -(c / 2 ^ 51) := by ring
      rw [e]; linarith
    · rw [min_eq_left hf]
      have : F.rnd (f * c) ≤ 0 := by
        have := F.mono (f * c) 0 (mul_nonpos_of_nonpos_of_nonneg hf cpos.le)
        rwa [F.zero] at this
      rw [max_eq_right this] at t1
      have e : (c : ℚ) * (-(1 / 2 ^ 51) + f) = f * c - c / 2 ^ 51 := by ring
      have : (0 : ℚ) ≤ c / 2 ^ 51 := by positivity
      rw [e]; linarith
  have r1 : f - (n : ℚ) / c ≤ 1 / c + 1 / 2 ^ 51 := by
    have : c * (f - (n : ℚ) / c) ≤ c * (1 / c + 1 / 2 ^ 51) := by
      have e : c * (f - (n : ℚ) / c) = f * c - n := by field_simp
      rw [e]; exact hd1
    exact le_of_mul_le_mul_left this cpos
  have r2 : -(1 / 2 ^ 51) + min f 0 ≤ f - (n : ℚ) / c := by
    have : c * (-(1 / 2 ^ 51) + min f 0) ≤ c * (f - (n : ℚ) / c) := by
      have e : c * (f - (n : ℚ) / c) = f * c - n := by field_simp
      rw [e]; exact hd2
    exact le_of_mul_le_mul_left this cpos
  refine ⟨t0, r2, r1, ?_⟩
  have hmin : -(1 / 2 ^ 50) ≤ min f 0 := le_min h0 (by norm_num)
  have c3 : (1 : ℚ) / c ≤ 1 / 24 := by
    apply one_div_le_one_div_of_le (by norm_num) c1
  clear hd1 hd2
  have c4 : 0 ≤ (1 : ℚ) / c := by positivity
  generalize min f 0 = μ at *
  generalize (1 : ℚ) / c = ic at *
  have b0 : 0 ≤ (n : ℚ) / c := div_nonneg (by exact_mod_cast t0) cpos.le
  have b1 : (n : ℚ) / c ≤ 1 + 1 / 2 ^ 48 := by norm_num at h1 hmin r2 ⊢; linarith
  have e2 := F.err_le (x := (n : ℚ) / c) (B := 1 + 1 / 2 ^ 48) (by rw [abs_of_nonneg b0]; exact b1)
  rw [abs_le] at e2
  generalize (n : ℚ) / c = q at *
  generalize F.rnd q = Q at *
  have e3 := F.err_le (x := f - Q) (B := 1) (by
    rw [abs_le]; norm_num at e2 r1 r2 hmin ⊢; constructor <;> linarith)
  rw [abs_le] at e3 ⊢
  norm_num at e2 e3 ⊢
  constructor <;> linarith

/-- The instant printed for a fraction of day `f`: `h/24 + mm/1440 + s/86400` is at most `f` and less
than a second below it, up to rounding. -/
theorem splitTime_instant (F : Fl64) (f : ℚ) (h0 : 0 ≤ f) (h1 : f ≤ 1) :
    -(1 / 2 ^ 47) ≤ f - (((splitTime F f).2.2 + 60 * ((splitTime F f).2.1 + 60 * (splitTime F f).1) : ℤ) : ℚ) / 86400 ∧
    f - (((splitTime F f).2.2 + 60 * ((splitTime F f).2.1 + 60 * (splitTime F f).1) : ℤ) : ℚ) / 86400
      ≤ 1 / 86400 + 1 / 2 ^ 47 := by
  obtain ⟨a0, a1, a2, a3⟩ := step_bounds F f 24 (by norm_num) (by norm_num; linarith) (by norm_num; linarith)
  rw [min_eq_right h0] at a1
  unfold splitTime
  simp only
  push_cast at a0 a1 a2 a3
  generalize truncQ (F.rnd (f * 24)) = h at *
  generalize F.rnd (f - F.rnd ((h : ℚ) / 24)) = f1 at *
  rw [abs_le] at a3
  norm_num at a1 a2 a3
  obtain ⟨b0, b1, b2, b3⟩ := step_bounds F f1 1440 (by norm_num) (by norm_num; linarith) (by norm_num; linarith)
  have m1 : -(1 / 2 ^ 50) ≤ min f1 0 := le_min (by norm_num; linarith) (by norm_num)
  generalize min f1 0 = μ at *
  push_cast at b0 b1 b2 b3
  generalize truncQ (F.rnd (f1 * 1440)) = mm at *
  generalize F.rnd (f1 - F.rnd ((mm : ℚ) / 1440)) = f2 at *
  rw [abs_le] at b3
  norm_num at b1 b2 b3 m1
  -- the last step has no rounding of the remainder
  have e1 := F.err_le (x := f2 * 86400) (B := 100) (by rw [abs_le]; norm_num; constructor <;> linarith)
  rw [abs_le] at e1
  norm_num at e1
  obtain ⟨t0, t1, t2⟩ := truncQ_spec (x := F.rnd (f2 * 86400)) (by linarith)
  have hmax : max (F.rnd (f2 * 86400)) 0 ≤ f2 * 86400 + 1 / 2 ^ 32 := by
    apply max_le
    · norm_num; linarith
    · norm_num; linarith
  generalize truncQ (F.rnd (f2 * 86400)) = s at *
  generalize max (F.rnd (f2 * 86400)) 0 = M at *
  push_cast
  norm_num at hmax ⊢
  constructor <;> linarith

/-- In IEEE arithmetic the printed hour, minute and second are always in range. -/
theorem splitTime_valid (z : ℚ) (h0 : 0 ≤ Fl64.ieee.rnd z) (h1 : Fl64.ieee.rnd z < 1) :
    let t := splitTime Fl64.ieee (Fl64.ieee.rnd z)
    (0 ≤ t.1 ∧ t.1 ≤ 23) ∧ (0 ≤ t.2.1 ∧ t.2.1 ≤ 59) ∧ (0 ≤ t.2.2 ∧ t.2.2 ≤ 59) := by
  have hF : Fl64.ieee.rnd = rndBits 53 := rfl
  generalize hFi : Fl64.ieee = F at *
  -- f < 1 is at most 1 - 2^-53
  have hle : F.rnd z ≤ (9007199254740991 : ℤ) / 2 ^ (52 + 1) := by
    by_contra hcon
    push Not at hcon
    obtain ⟨k, hk⟩ := F.grid z 1 (by rw [abs_of_nonneg h0]; norm_num at hcon ⊢; linarith)
    rw [hk] at hcon h1
    rw [div_lt_one (by positivity)] at h1
    rw [div_lt_div_iff_of_pos_right (by positivity)] at hcon
    have i1 : k < 2 ^ (52 + 1) := by exact_mod_cast h1
    have i2 : (9007199254740991 : ℤ) < k := by exact_mod_cast hcon
    omega
  have e1 := F.err (F.rnd z * 24)
  rw [abs_of_nonneg (by positivity : (0 : ℚ) ≤ F.rnd z * 24), abs_le] at e1
  have p1 : F.rnd (F.rnd z * 24) < 24 := by norm_num at e1 hle; linarith
  have p0 : 0 ≤ F.rnd (F.rnd z * 24) := F.nonneg (by positivity)
  obtain ⟨a0, a1, a2, a3⟩ := step_bounds F (F.rnd z) 24 (by norm_num) (by norm_num; linarith) (by norm_num; linarith)
  rw [min_eq_right h0] at a1
  have hh : truncQ (F.rnd (F.rnd z * 24)) ≤ 23 := by
    have := (truncQ_spec (x := F.rnd (F.rnd z * 24)) (by linarith)).2.1
    rw [max_eq_left p0] at this
    have : (truncQ (F.rnd (F.rnd z * 24)) : ℚ) < 24 := by linarith
    have : truncQ (F.rnd (F.rnd z * 24)) < 24 := by exact_mod_cast this
    omega
  have hlt := (truncQ_spec (x := F.rnd (F.rnd z * 24)) (by linarith)).2.2
  unfold splitTime
  simp only
  push_cast at a0 a1 a2 a3
  generalize truncQ (F.rnd (F.rnd z * 24)) = h at *
  -- minutes below 60
  have hm60 : F.rnd (F.rnd (F.rnd z - F.rnd ((h : ℚ) / 24)) * 1440) < 60 := by
    obtain ⟨c1, c2, c3⟩ := hour_check ⟨h.toNat, by omega⟩
    have hcast : ((h.toNat : ℕ) : ℚ) = h := by
      have : ((h.toNat : ℕ) : ℤ) = h := by omega
      exact_mod_cast this
    simp only [hcast] at c1 c2 c3
    rw [← hF] at c2 c3
    have := le_of_prod_lt F 24 (h + 1) (by norm_num) _ _ c1 c2 z hlt
    have m1 := F.mono _ _ (sub_le_sub_right this (F.rnd ((h : ℚ) / 24)))
    have m2 := F.mono _ _ (mul_le_mul_of_nonneg_right m1 (by norm_num : (0 : ℚ) ≤ 1440))
    linarith
  generalize hz1 : F.rnd z - F.rnd ((h : ℚ) / 24) = z1 at *
  rw [abs_le] at a3
  norm_num at a1 a2 a3
  obtain ⟨b0, b1, b2, b3⟩ := step_bounds F (F.rnd z1) 1440 (by norm_num) (by norm_num; linarith) (by norm_num; linarith)
  have m1 : -(1 / 2 ^ 50) ≤ min (F.rnd z1) 0 := le_min (by norm_num; linarith) (by norm_num)
  generalize min (F.rnd z1) 0 = μ at *
  have e2 := F.err_le (x := F.rnd z1 * 1440) (B := 100) (by rw [abs_le]; norm_num; constructor <;> linarith)
  rw [abs_le] at e2
  norm_num at e2
  obtain ⟨t0, t1, t2⟩ := truncQ_spec (x := F.rnd (F.rnd z1 * 1440)) (by linarith)
  have hmm : truncQ (F.rnd (F.rnd z1 * 1440)) ≤ 59 := by
    have : (truncQ (F.rnd (F.rnd z1 * 1440)) : ℚ) < 60 := lt_of_le_of_lt t1 (max_lt hm60 (by norm_num))
    have : truncQ (F.rnd (F.rnd z1 * 1440)) < 60 := by exact_mod_cast this
    omega
  push_cast at b0 b1 b2 b3
  generalize truncQ (F.rnd (F.rnd z1 * 1440)) = mm at *
  have hs60 : F.rnd (F.rnd (F.rnd z1 - F.rnd ((mm : ℚ) / 1440)) * 86400) < 60 := by
    obtain ⟨c1, c2, c3⟩ := min_check ⟨mm.toNat, by omega⟩
    have hcast : ((mm.toNat : ℕ) : ℚ) = mm := by
      have : ((mm.toNat : ℕ) : ℤ) = mm := by omega
      exact_mod_cast this
    simp only [hcast] at c1 c2 c3
    rw [← hF] at c2 c3
    have := le_of_prod_lt F 1440 (mm + 1) (by norm_num) _ _ c1 c2 z1 t2
    have m1 := F.mono _ _ (sub_le_sub_right this (F.rnd ((mm : ℚ) / 1440)))
    have m2 := F.mono _ _ (mul_le_mul_of_nonneg_right m1 (by norm_num : (0 : ℚ) ≤ 86400))
    linarith
  generalize F.rnd z1 - F.rnd ((mm : ℚ) / 1440) = z2 at *
  rw [abs_le] at b3
  norm_num at b1 b2 b3 m1
  have e3 := F.err_le (x := F.rnd z2 * 86400) (B := 100) (by rw [abs_le]; norm_num; constructor <;> linarith)
  rw [abs_le] at e3
  norm_num at e3
  obtain ⟨u0, u1, u2⟩ := truncQ_spec (x := F.rnd (F.rnd z2 * 86400)) (by linarith)
  refine ⟨⟨a0, hh⟩, ⟨t0, hmm⟩, u0, ?_⟩
  have : (truncQ (F.rnd (F.rnd z2 * 86400)) : ℚ) < 60 := lt_of_le_of_lt u1 (max_lt hs60 (by norm_num))
  have : truncQ (F.rnd (F.rnd z2 * 86400)) < 60 := by exact_mod_cast this
  omega

end SatSky.Dates
