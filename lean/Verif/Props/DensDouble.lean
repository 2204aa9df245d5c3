import Verif.Model.DensDouble
import Verif.Props.RateDouble

/-! C210: the two density parameters, which are chosen by the height of the perigee, in `double` arithmetic. -/

namespace SatSky.Props

open SatSky.Spec SatSky.Geo SatSky.Relative SatSky.Sxp SatSky.Kep

theorem radius_near (F : Fl64) : |(radiusD F : ℝ) - 6378135 / 1000| ≤ 8 / 10 ^ 13 := by
  have := const_real F (6378135 / 1000) (E := 8 / 10 ^ 13) (by norm_num [abs_of_pos])
  push_cast at this
  exact this

/-- The height of the perigee: accurate where it matters, and otherwise on the same side of 156 km. -/
theorem perige_near (F : Fl64) {a eo : ℚ} (ha0 : (0 : ℝ) ≤ a) (ha1 : (a : ℝ) ≤ 100) (he0 : (0 : ℝ) ≤ eo) (he1 : (eo : ℝ) ≤ 1) :
    |(perigeD F a eo : ℝ) - (a * (1 - eo) - 1) * (6378135 / 1000)| ≤ 4 / 10 ^ 12 ∨
    ((156 : ℝ) ≤ perigeD F a eo ∧ (156 : ℝ) ≤ (a * (1 - eo) - 1) * (6378135 / 1000)) := by
  have R := radius_near F
  have w0 : (0 : ℝ) ≤ 1 - eo := by linarith
  have V0 : (0 : ℝ) ≤ a * (1 - eo) := mul_nonneg ha0 w0
  have V1 : (a * (1 - eo) : ℝ) ≤ 100 := by nlinarith
  have e1 := err_real F (1 - eo)
  push_cast at e1
  rw [abs_of_nonneg w0] at e1
  have e2 : |((a * F.rnd (1 - eo) : ℚ) : ℝ) - a * (1 - eo)| ≤ a * (1 - eo) / 2 ^ 53 + 100 / 2 ^ 200 := by
    push_cast
    rw [← mul_sub, abs_mul, abs_of_nonneg ha0]
    have := mul_le_mul_of_nonneg_left e1 ha0
    have : (a : ℝ) * (1 / 2 ^ 200) ≤ 100 / 2 ^ 200 := by
      have := mul_le_mul_of_nonneg_right ha1 (show (0 : ℝ) ≤ 1 / 2 ^ 200 by norm_num)
      linarith
    linarith
  have e3 : |(F.rnd (a * F.rnd (1 - eo)) : ℝ) - a * (1 - eo)| ≤ 23 / 10 ^ 17 * (a * (1 - eo)) + 1 / 10 ^ 50 := by
    refine rnd_real F e2 (A := a * (1 - eo)) (by rw [abs_of_nonneg V0]) ?_
    generalize (a * (1 - eo) : ℝ) = V at *
    norm_num
    linarith
  unfold perigeD
  generalize F.rnd (a * F.rnd (1 - eo)) = v at *
  generalize (a * (1 - eo) : ℝ) = V at *
  rcases le_or_gt V (103 / 100) with hV | hV
  · left
    have b : |V - 1| ≤ 1 := by rw [abs_le]; constructor <;> linarith
    have e4 : |(v : ℝ) - V| ≤ 24 / 10 ^ 17 := e3.trans (by norm_num at *; linarith)
    have e5 := subr F e4 (y := 1) (Y := 1) (f := 0) (by norm_num) b (E := 36 / 10 ^ 17) (by norm_num)
    exact (mulr F e5 R b (B := 6379) (by norm_num [abs_of_pos]) (by norm_num)).1
  · right
    have b : |V - 1| ≤ 100 := by rw [abs_le]; constructor <;> linarith
    have e4 : |(v : ℝ) - V| ≤ 1 / 10 ^ 12 := e3.trans (by norm_num at *; linarith)
    have e5 := subr F e4 (y := 1) (Y := 1) (f := 0) (by norm_num) b (E := 1 / 10 ^ 11) (by norm_num)
    have e6 := (mulr F e5 R b (B := 6379) (E := 1 / 10) (by norm_num [abs_of_pos]) (by norm_num)).1
    have := (abs_le.1 e6).1
    constructor <;> linarith

/-- `s4` in km: the height less 78, at least 20 and at most 78. -/
noncomputable def sKm (h : ℝ) : ℝ := max 20 (min 78 (h - 78))

theorem sKm_range (h : ℝ) : 20 ≤ sKm h ∧ sKm h ≤ 78 :=
  ⟨le_max_left _ _, max_le (by norm_num) (min_le_left _ _)⟩

theorem sKm_eq (h : ℝ) : sKm h = if h < 156 then (if h ≤ 98 then 20 else h - 78) else 78 := by
  unfold sKm
  split_ifs with h1 h2
  · rw [min_eq_right (by linarith), max_eq_left (by linarith)]
  · rw [min_eq_right (by linarith), max_eq_right (by linarith)]
  · rw [min_eq_left (by linarith), max_eq_right (by norm_num)]

theorem sKm_lip (g h : ℝ) : |sKm g - sKm h| ≤ |g - h| := by
  unfold sKm
  simp only [max_def, min_def]
  have a := le_abs_self (g - h)
  have b := neg_abs_le (g - h)
  split_ifs <;> rw [abs_le] <;> constructor <;> linarith

theorem s4Of_eq (h : ℝ) : s4Of h = sKm h / (6378135 / 1000) + 1 := by
  rw [sKm_eq]
  unfold s4Of sConst earthRadius
  split_ifs <;> ring

/-- `s4` in km as the program has it, also where it takes the constant. -/
theorem sKmD_near (F : Fl64) {g : ℚ} {h : ℝ} (hg : |(g : ℝ) - h| ≤ 4 / 10 ^ 12 ∨ ((156 : ℝ) ≤ g ∧ 156 ≤ h)) :
    |((if g < 156 then sKmD F g else 78 : ℚ) : ℝ) - sKm h| ≤ 41 / 10 ^ 13 := by
  have k1 : |((if g < 156 then sKmD F g else 78 : ℚ) : ℝ) - sKm g| ≤ 1 / 10 ^ 14 := by
    rw [sKm_eq]
    unfold sKmD
    by_cases c : g < 156
    · have c' : (g : ℝ) < 156 := by exact_mod_cast c
      rw [if_pos c, if_pos c']
      by_cases d : g ≤ 98
      · have d' : (g : ℝ) ≤ 98 := by exact_mod_cast d
        rw [if_pos d, if_pos d']
        norm_num
      · have d' : ¬ (g : ℝ) ≤ 98 := by intro x; exact d (by exact_mod_cast x)
        rw [if_neg d, if_neg d']
        rw [not_le] at d'
        exact rnd0 F (A := 78) (by push_cast; ring) (by rw [abs_le]; constructor <;> linarith) (by norm_num)
    · have c' : ¬ (g : ℝ) < 156 := by intro x; exact c (by exact_mod_cast x)
      rw [if_neg c, if_neg c']
      norm_num
  have k2 : |sKm g - sKm h| ≤ 4 / 10 ^ 12 := by
    rcases hg with hg | ⟨x, y⟩
    · exact (sKm_lip _ _).trans hg
    · rw [sKm_eq, sKm_eq, if_neg (not_lt.2 x), if_neg (not_lt.2 y)]
      norm_num
  rw [abs_le] at *
  constructor <;> linarith [k1.1, k1.2, k2.1, k2.2]

theorem s4_near (F : Fl64) {g : ℚ} {h : ℝ} (hg : |(g : ℝ) - h| ≤ 4 / 10 ^ 12 ∨ ((156 : ℝ) ≤ g ∧ 156 ≤ h)) :
    |(s4D F g : ℝ) - s4Of h| ≤ 9 / 10 ^ 16 := by
  have k := sKmD_near F hg
  obtain ⟨r0, r1⟩ := sKm_range h
  rw [s4Of_eq]
  have e : s4D F g = F.rnd (F.rnd ((if g < 156 then sKmD F g else 78) / radiusD F) + 1) := by
    unfold s4D
    split_ifs
    · rfl
    · rw [add_comm]
  rw [e]
  generalize (if g < 156 then sKmD F g else 78) = s at *
  generalize sKm h = S at *
  have Q : |S / (6378135 / 1000 : ℝ)| ≤ 123 / 10 ^ 4 := by rw [abs_of_nonneg (by positivity)]; rw [div_le_iff₀ (by norm_num)]; linarith
  have q := quot_real (m := 6378) (E := 65 / 10 ^ 17) k (radius_near F) (by norm_num) (by norm_num) Q (by norm_num)
  have q2 : |(F.rnd (s / radiusD F) : ℝ) - S / (6378135 / 1000)| ≤ 7 / 10 ^ 16 := rnd_real F (by push_cast; exact q) Q (by norm_num)
  exact addr F q2 (y := 1) (Y := 1) (f := 0) (by norm_num) (add_bd Q (B := 1) (by norm_num) (C := 102 / 100) (by norm_num)) (by norm_num)

/-- The fourth power of what is left up to 120 km, which is also the constant for a high perigee. -/
theorem qoms_exact (h : ℝ) {T : ℝ} (hT : T = (120 - sKm h) / (6378135 / 1000)) :
    |qoms24Of h - T * T * (T * T)| ≤ 3 / 10 ^ 22 * (T * T * (T * T)) ∧ 0 < T := by
  obtain ⟨r0, r1⟩ := sKm_range h
  have T0 : 0 < T := by rw [hT]; apply div_pos <;> [linarith; norm_num]
  refine ⟨?_, T0⟩
  have p : 0 < T * T * (T * T) := by positivity
  rw [sKm_eq] at hT
  unfold qoms24Of earthRadius
  by_cases c : h < 156
  · rw [if_pos c] at hT ⊢
    dsimp only
    rw [← hT]
    simp only [sub_self, abs_zero]
    positivity
  · rw [if_neg c] at hT ⊢
    rw [hT]
    unfold qoms2t
    norm_num [abs_of_neg]

theorem qoms_near (F : Fl64) {g : ℚ} {h : ℝ} (hg : |(g : ℝ) - h| ≤ 4 / 10 ^ 12 ∨ ((156 : ℝ) ≤ g ∧ 156 ≤ h)) :
    |(qoms24D F g : ℝ) - qoms24Of h| ≤ 5 / 10 ^ 13 * qoms24Of h := by
  have k := sKmD_near F hg
  obtain ⟨r0, r1⟩ := sKm_range h
  obtain ⟨x, T0⟩ := qoms_exact h rfl
  have R : Rel (13 / 10 ^ 17) (radiusD F) (6378135 / 1000 : ℝ) := (radius_near F).trans (by norm_num)
  have Tl : 6 / 10 ^ 3 ≤ (120 - sKm h) / (6378135 / 1000 : ℝ) := by rw [le_div_iff₀ (by norm_num)]; linarith
  have Tu : (120 - sKm h) / (6378135 / 1000 : ℝ) ≤ 16 / 10 ^ 3 := by rw [div_le_iff₀ (by norm_num)]; linarith
  have key : Rel (42 / 10 ^ 14) (qoms24D F g)
      ((120 - sKm h) / (6378135 / 1000) * ((120 - sKm h) / (6378135 / 1000)) * ((120 - sKm h) / (6378135 / 1000) * ((120 - sKm h) / (6378135 / 1000)))) := by
    unfold qoms24D
    by_cases c : g < 156
    · rw [if_pos c] at k ⊢
      dsimp only
      have a1 : |(F.rnd (120 - sKmD F g) : ℝ) - (120 - sKm h)| ≤ 42 / 10 ^ 13 :=
        subr F (x := 120) (X := 120) (e := 0) (by norm_num) k (A := 100) (by rw [abs_le]; constructor <;> linarith) (by norm_num)
      have a2 : Rel (1 / 10 ^ 13) (F.rnd (120 - sKmD F g)) (120 - sKm h) := by unfold Rel; linarith
      have a3 : Rel (101 / 10 ^ 15) (F.rnd (F.rnd (120 - sKmD F g) / radiusD F)) ((120 - sKm h) / (6378135 / 1000)) := by
        refine Rel.rnd F (a := 1002 / 10 ^ 16) ?_ (le_trans (by norm_num) Tl) (by norm_num)
        push_cast
        exact Rel.div a2 R (by linarith) (by norm_num) (by norm_num) (by norm_num) (by norm_num)
      generalize F.rnd (F.rnd (120 - sKmD F g) / radiusD F) = t at *
      generalize (120 - sKm h) / (6378135 / 1000 : ℝ) = T at *
      have b0 : 1 / 10 ^ 5 ≤ T * T := by nlinarith
      have a4 : Rel (203 / 10 ^ 15) (F.rnd (t * t)) (T * T) := by
        refine Rel.rnd F (a := 2021 / 10 ^ 16) ?_ (le_trans (by norm_num) b0) (by norm_num)
        push_cast
        exact Rel.mul a3 a3 T0 T0 (by norm_num) (by norm_num)
      have b1 : 1 / 10 ^ 10 ≤ T * T * (T * T) := by nlinarith
      refine Rel.rnd F (a := 4061 / 10 ^ 16) ?_ (le_trans (by norm_num) b1) (by norm_num)
      push_cast
      exact Rel.mul a4 a4 (by positivity) (by positivity) (by norm_num) (by norm_num)
    · rw [if_neg c] at k ⊢
      have c1 : |(F.rnd (1880279159015270643865 / 10 ^ 30) : ℝ) - 1880279159015270643865 / 10 ^ 30| ≤ 3 / 10 ^ 25 := by
        have := const_real F (1880279159015270643865 / 10 ^ 30) (E := 3 / 10 ^ 25) (by norm_num [abs_of_pos])
        push_cast at this
        exact this
      have a1 : Rel (1 / 10 ^ 13) (42 / (6378135 / 1000)) ((120 - sKm h) / (6378135 / 1000 : ℝ)) := by
        unfold Rel
        rw [← sub_div, abs_div, abs_of_pos (show (0 : ℝ) < 6378135 / 1000 by norm_num), ← mul_div_assoc]
        refine div_le_div_of_nonneg_right ?_ (by norm_num)
        push_cast at k
        rw [abs_le] at *
        constructor <;> linarith [k.1, k.2]
      generalize (120 - sKm h) / (6378135 / 1000 : ℝ) = T at *
      have a2 := Rel.mul a1 a1 T0 T0 (by norm_num) (c := 201 / 10 ^ 15) (by norm_num)
      have a3 := Rel.mul a2 a2 (by positivity) (by positivity) (by norm_num) (c := 403 / 10 ^ 15) (by norm_num)
      have b0 : 1 / 10 ^ 5 ≤ T * T := by nlinarith
      have b1 : 1 / 10 ^ 10 ≤ T * T * (T * T) := by nlinarith
      have c2 : |(1880279159015270643865 / 10 ^ 30 : ℝ) - 42 / (6378135 / 1000) * (42 / (6378135 / 1000)) * (42 / (6378135 / 1000) * (42 / (6378135 / 1000)))| ≤ 1 / 10 ^ 29 := by
        norm_num [abs_of_neg]
      unfold Rel at a3 ⊢
      generalize (42 / (6378135 / 1000) * (42 / (6378135 / 1000)) * (42 / (6378135 / 1000) * (42 / (6378135 / 1000))) : ℝ) = K at *
      generalize T * T * (T * T) = Θ at *
      clear a1 a2 k
      rw [abs_le] at *
      constructor <;> linarith [a3.1, a3.2, c1.1, c1.2, c2.1, c2.2]
  unfold Rel at key
  generalize (120 - sKm h) / (6378135 / 1000 : ℝ) * ((120 - sKm h) / (6378135 / 1000)) * ((120 - sKm h) / (6378135 / 1000) * ((120 - sKm h) / (6378135 / 1000))) = Θ at *
  have t0 : 0 ≤ Θ := by
    have := (abs_nonneg _).trans key
    linarith
  clear k
  obtain ⟨x0, x1⟩ := abs_le.1 x
  obtain ⟨y0, y1⟩ := abs_le.1 key
  rw [abs_le]
  constructor <;> linarith

/-- **C210**: in `double` arithmetic the parameter `s4` of the density is within `9 * 10 ^ -16` Earth radii and `qoms24` within a factor `1 + 5 * 10 ^ -13`
of exact arithmetic, whichever branches the rounded height of the perigee selects, for all axes of at most 100 Earth radii and all eccentricities. -/
theorem C210_density (F : Fl64) {aodp eo : ℚ} (ha0 : (0 : ℝ) ≤ aodp) (ha1 : (aodp : ℝ) ≤ 100) (he0 : (0 : ℝ) ≤ eo) (he1 : (eo : ℝ) ≤ 1) {r : Recov} (hr : r.aodp = aodp) :
    |(s4D F (perigeD F aodp eo) : ℝ) - s4Of (perige r eo)| ≤ 9 / 10 ^ 16 ∧
    |(qoms24D F (perigeD F aodp eo) : ℝ) - qoms24Of (perige r eo)| ≤ 5 / 10 ^ 13 * qoms24Of (perige r eo) := by
  have k := perige_near F ha0 ha1 he0 he1
  have e : perige r eo = (aodp * (1 - eo) - 1) * (6378135 / 1000) := by unfold perige earthRadius; rw [hr]
  rw [e]
  exact ⟨s4_near F k, qoms_near F k⟩

/-- A perigee at 50 km, one at 125 km and one at 399 km: 20 km, 47 km and the constant 78 km. -/
example : ⌊s4D Fl64.ieee (perigeD Fl64.ieee (129 / 128) 0) * 10 ^ 12⌋ = 1003135712869 ∧ ⌊s4D Fl64.ieee (perigeD Fl64.ieee (261 / 256) 0) * 10 ^ 12⌋ = 1007301969810 ∧
    ⌊s4D Fl64.ieee (perigeD Fl64.ieee (17 / 16) 0) * 10 ^ 12⌋ = 1012229280189 ∧ ⌊qoms24D Fl64.ieee (perigeD Fl64.ieee (129 / 128) 0) * 10 ^ 15⌋ = 60426184 ∧
    ⌊qoms24D Fl64.ieee (perigeD Fl64.ieee (17 / 16) 0) * 10 ^ 15⌋ = 1880279 := by decide +kernel

end SatSky.Props
