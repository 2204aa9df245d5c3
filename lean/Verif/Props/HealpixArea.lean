import Verif.Lemmas.HealpixArea
import Verif.Props.HealpixAgree

/-! C167: all pixels have the same area. -/

namespace SatSky.Props

open SatSky SatSky.Healpix SatSky.Spec.Healpix MeasureTheory

section cover

variable {n x y f : ℕ}

/-- The unit square of a pixel, in the coordinates along the edges of the face. -/
def unitSquare (x y : ℕ) : Set (ℝ × ℝ) := Set.Icc (x : ℝ) (x + 1) ×ˢ Set.Icc (y : ℝ) (y + 1)

theorem unitSquare_area (x y : ℕ) : volume (unitSquare x y) = 1 := by
  unfold unitSquare
  rw [Measure.volume_eq_prod, Measure.prod_prod, Real.volume_Icc, Real.volume_Icc]
  norm_num

/-- Height and place in the plane. -/
noncomputable def squareY (n f : ℕ) (q : ℝ × ℝ) : ℝ := faceY f + (q.1 + q.2) / (2 * n) - 1 / 2
noncomputable def squareX (n f : ℕ) (q : ℝ × ℝ) : ℝ := faceX f + (q.1 - q.2) / (2 * n)

def inBelt (n f : ℕ) : Set (ℝ × ℝ) := {q | |squareY n f q| ≤ 1 / 2}
def inEast (n f : ℕ) : Set (ℝ × ℝ) := {q | 0 ≤ squareX n f q}
def inNorth (n f : ℕ) : Set (ℝ × ℝ) := {q | 0 ≤ squareY n f q}

theorem inBelt_measurable : MeasurableSet (inBelt n f) := by
  unfold inBelt squareY
  exact measurableSet_le (by fun_prop) (by fun_prop)
theorem inEast_measurable : MeasurableSet (inEast n f) := by
  unfold inEast squareX
  exact measurableSet_le (by fun_prop) (by fun_prop)
theorem inNorth_measurable : MeasurableSet (inNorth n f) := by
  unfold inNorth squareY
  exact measurableSet_le (by fun_prop) (by fun_prop)
theorem unitSquare_measurable : MeasurableSet (unitSquare x y) := measurableSet_Icc.prod measurableSet_Icc

def offNorth (n : ℕ) : Set (ℝ × ℝ) := {q | 2 * (n : ℝ) - q.1 - q.2 ≠ 0}
def offSouth : Set (ℝ × ℝ) := {q | q.1 + q.2 ≠ 0}
theorem offNorth_measurable : MeasurableSet (offNorth n) := by
  unfold offNorth
  exact (measurableSet_eq_fun (by fun_prop) (by fun_prop)).compl
theorem offSouth_measurable : MeasurableSet offSouth := by
  unfold offSouth
  exact (measurableSet_eq_fun (by fun_prop) (by fun_prop)).compl

/-- What covers the pixel. -/
def cover (n x y f : ℕ) : Set (ℝ × ℝ) :=
  beltMap n (faceX f) (faceY f) '' ((unitSquare x y ∩ inBelt n f) ∩ inEast n f) ∪
  beltMap n (faceX f + 4) (faceY f) '' ((unitSquare x y ∩ inBelt n f) \ inEast n f) ∪
  (northMap n f '' (((unitSquare x y \ inBelt n f) ∩ inNorth n f) ∩ offNorth n) ∪
  southMap n (f - 8) '' (((unitSquare x y \ inBelt n f) \ inNorth n f) ∩ offSouth)) ∪
  ({1} ×ˢ Set.univ ∪ {-1} ×ˢ Set.univ)

theorem line_area (a : ℝ) : volume (({a} : Set ℝ) ×ˢ (Set.univ : Set ℝ)) = 0 := by
  rw [Measure.volume_eq_prod, Measure.prod_prod, Real.volume_singleton, zero_mul]

theorem cover_area (hn : 0 < n) : volume (cover n x y f) ≤ ENNReal.ofReal (Real.pi / (3 * (n : ℝ) ^ 2)) := by
  have hn' : (0 : ℝ) < n := by exact_mod_cast hn
  have hS := unitSquare_measurable (x := x) (y := y)
  have hB := inBelt_measurable (n := n) (f := f)
  have hE := inEast_measurable (n := n) (f := f)
  have hN := inNorth_measurable (n := n) (f := f)
  have h1 := image_area (P := (unitSquare x y ∩ inBelt n f) ∩ inEast n f) ((hS.inter hB).inter hE) (fun q _ => beltMap_deriv hn'.ne' (faceX f) (faceY f) q)
    (fun q _ => beltMap_det hn')
  have h2 := image_area (P := (unitSquare x y ∩ inBelt n f) \ inEast n f) ((hS.inter hB).diff hE) (fun q _ => beltMap_deriv hn'.ne' (faceX f + 4) (faceY f) q)
    (fun q _ => beltMap_det hn')
  have h3 := image_area (P := ((unitSquare x y \ inBelt n f) ∩ inNorth n f) ∩ offNorth n) (((hS.diff hB).inter hN).inter offNorth_measurable)
    (fun q hq => northMap_deriv hn'.ne' f hq.2) (fun q hq => northMap_det hn' hq.2)
  have h4 := image_area (P := ((unitSquare x y \ inBelt n f) \ inNorth n f) ∩ offSouth) (((hS.diff hB).diff hN).inter offSouth_measurable)
    (fun q hq => southMap_deriv hn'.ne' (f - 8 : ℝ) hq.2) (fun q hq => southMap_det hn' hq.2)
  have h5 : volume (((unitSquare x y \ inBelt n f) ∩ inNorth n f) ∩ offNorth n) ≤ volume ((unitSquare x y \ inBelt n f) ∩ inNorth n f) :=
    measure_mono Set.inter_subset_left
  have h6 : volume (((unitSquare x y \ inBelt n f) \ inNorth n f) ∩ offSouth) ≤ volume ((unitSquare x y \ inBelt n f) \ inNorth n f) :=
    measure_mono Set.inter_subset_left
  have s1 := measure_inter_add_diff (μ := volume) (unitSquare x y ∩ inBelt n f) hE
  have s2 := measure_inter_add_diff (μ := volume) (unitSquare x y \ inBelt n f) hN
  have s3 := measure_inter_add_diff (μ := volume) (unitSquare x y) hB
  unfold cover
  generalize ENNReal.ofReal (Real.pi / (3 * (n : ℝ) ^ 2)) = a at *
  calc volume _ ≤ (volume _ + volume _) + (volume _ + volume _) + (volume _ + volume _) :=
        (measure_union_le _ _).trans (add_le_add ((measure_union_le _ _).trans (add_le_add (measure_union_le _ _) (measure_union_le _ _))) (measure_union_le _ _))
    _ ≤ (a * volume ((unitSquare x y ∩ inBelt n f) ∩ inEast n f) + a * volume ((unitSquare x y ∩ inBelt n f) \ inEast n f)) +
        (a * volume ((unitSquare x y \ inBelt n f) ∩ inNorth n f) + a * volume ((unitSquare x y \ inBelt n f) \ inNorth n f)) + (0 + 0) := by
        refine add_le_add (add_le_add (add_le_add h1 h2) (add_le_add (h3.trans (by gcongr)) (h4.trans (by gcongr)))) ?_
        rw [line_area, line_area]
    _ = a := by
        rw [add_zero, add_zero, ← mul_add, ← mul_add, ← mul_add, s1, s2, s3, unitSquare_area, mul_one]

theorem cover_contains (hn : 0 < n) (hx : x < n) (hy : y < n) (hf : f < 12) {z t : ℝ} (hz : |z| ≤ 1) (t0 : 0 ≤ t) (t1 : t < 4) (h : InPixel n x y f z t) :
    (z, Real.pi / 2 * t) ∈ cover n x y f := by
  have hn' : (0 : ℝ) < n := by exact_mod_cast hn
  have hx' : (x : ℝ) + 1 ≤ n := by exact_mod_cast hx
  have hy' : (y : ℝ) + 1 ≤ n := by exact_mod_cast hy
  have hx0 : (0 : ℝ) ≤ x := by positivity
  have hy0 : (0 : ℝ) ≤ y := by positivity
  -- the point of the unit square
  obtain ⟨j, hj, hs⟩ : ∃ j : ℝ, (j = 0 ∨ j = 4) ∧ InSquare n x y f (planeX z t - j) (planeY z) := by
    rcases h with h | h
    · exact ⟨0, Or.inl rfl, by rwa [sub_zero]⟩
    · exact ⟨4, Or.inr rfl, h⟩
  clear h
  obtain ⟨⟨u0, u1⟩, v0, v1⟩ := hs
  generalize hU : (n : ℝ) * (planeX z t - j - faceX f + (planeY z - faceY f) + 1 / 2) = U at *
  generalize hV : (n : ℝ) * (planeY z - faceY f - (planeX z t - j - faceX f) + 1 / 2) = V at *
  have hq : (U, V) ∈ unitSquare x y := ⟨⟨u0, u1⟩, v0, v1⟩
  have hY : squareY n f (U, V) = planeY z := by
    unfold squareY
    rw [← hU, ← hV]
    field_simp
    ring
  have hX : squareX n f (U, V) = planeX z t - j := by
    unfold squareX
    rw [← hU, ← hV]
    field_simp
    ring
  unfold cover
  rcases le_or_gt |z| (2 / 3) with hb | hb
  · have eX : planeX z t = t := by unfold planeX; rw [if_pos hb]
    have eY : planeY z = 3 / 4 * z := by unfold planeY; rw [if_pos hb]
    have hbelt : (U, V) ∈ inBelt n f := by
      change |squareY n f (U, V)| ≤ 1 / 2
      rw [hY, eY, abs_mul, abs_of_pos (by norm_num : (0 : ℝ) < 3 / 4)]; linarith
    refine Or.inl (Or.inl ?_)
    rcases hj with rfl | rfl
    · refine Or.inl ⟨(U, V), ⟨⟨hq, hbelt⟩, ?_⟩, ?_⟩
      · change 0 ≤ squareX n f (U, V)
        rw [hX, eX]; linarith
      · change (4 / 3 * squareY n f (U, V), Real.pi / 2 * squareX n f (U, V)) = _
        rw [hX, hY, eX, eY]
        ext <;> dsimp only <;> ring
    · refine Or.inr ⟨(U, V), ⟨⟨hq, hbelt⟩, ?_⟩, ?_⟩
      · change ¬ 0 ≤ squareX n f (U, V)
        rw [hX, eX]; linarith
      · have e : beltMap n (faceX f + 4) (faceY f) (U, V) = (4 / 3 * squareY n f (U, V), Real.pi / 2 * (squareX n f (U, V) + 4)) := by
          unfold beltMap squareX squareY
          ext
          · rfl
          · dsimp only; ring
        rw [e, hX, hY, eX, eY]
        ext <;> dsimp only <;> ring
  · have eX : planeX z t = ⌊t⌋ + 1 / 2 + (t - ⌊t⌋ - 1 / 2) * Real.sqrt (3 * (1 - |z|)) := by unfold planeX; rw [if_neg (not_le.mpr hb)]
    have eY : planeY z = if 0 ≤ z then 1 - Real.sqrt (3 * (1 - |z|)) / 2 else -(1 - Real.sqrt (3 * (1 - |z|)) / 2) := by
      unfold planeY; rw [if_neg (not_le.mpr hb)]
    obtain ⟨r0, r1⟩ := cap_root hb
    have rsq : Real.sqrt (3 * (1 - |z|)) ^ 2 = 3 * (1 - |z|) := Real.sq_sqrt (by linarith)
    have n0 : 0 ≤ ⌊t⌋ := Int.floor_nonneg.mpr t0
    have n1 : ⌊t⌋ < 4 := Int.floor_lt.mpr (by push_cast; exact t1)
    have tp0 : 0 ≤ t - ⌊t⌋ := by linarith [Int.floor_le t]
    have tp1 : t - ⌊t⌋ < 1 := by linarith [Int.lt_floor_add_one t]
    generalize Real.sqrt (3 * (1 - |z|)) = r at *
    -- bounds from the face
    have w1 : planeX z t - j - faceX f + (planeY z - faceY f) ≤ 1 / 2 := by
      have : (n : ℝ) * (planeX z t - j - faceX f + (planeY z - faceY f) + 1 / 2) ≤ n * 1 := by rw [hU]; linarith
      linarith [le_of_mul_le_mul_left this hn']
    have w2 : planeY z - faceY f - (planeX z t - j - faceX f) ≤ 1 / 2 := by
      have : (n : ℝ) * (planeY z - faceY f - (planeX z t - j - faceX f) + 1 / 2) ≤ n * 1 := by rw [hV]; linarith
      linarith [le_of_mul_le_mul_left this hn']
    have w3 : -(1 / 2) ≤ planeX z t - j - faceX f + (planeY z - faceY f) := by
      have : (n : ℝ) * 0 ≤ (n : ℝ) * (planeX z t - j - faceX f + (planeY z - faceY f) + 1 / 2) := by rw [hU]; linarith
      linarith [le_of_mul_le_mul_left this hn']
    have w4 : -(1 / 2) ≤ planeY z - faceY f - (planeX z t - j - faceX f) := by
      have : (n : ℝ) * 0 ≤ (n : ℝ) * (planeY z - faceY f - (planeX z t - j - faceX f) + 1 / 2) := by rw [hV]; linarith
      linarith [le_of_mul_le_mul_left this hn']
    have b1 : |planeX z t - (⌊t⌋ + 1 / 2)| ≤ r / 2 := by
      rw [eX, abs_le]; constructor <;> nlinarith
    obtain ⟨b1, b2⟩ := abs_le.mp b1
    have place : ∀ g : ℕ, g < 4 → faceX f = g + 1 / 2 → |planeX z t - j - faceX f| ≤ r / 2 → ⌊t⌋ = g ∧ j = 0 := by
      intro g hg e hh
      obtain ⟨c1, c2⟩ := abs_le.mp hh
      rw [e] at c1 c2
      rcases hj with rfl | rfl
      · have k1 : (⌊t⌋ : ℝ) - g < 1 := by linarith
        have k2 : (g : ℝ) - ⌊t⌋ < 1 := by linarith
        have k3 : ⌊t⌋ - (g : ℤ) < 1 := by exact_mod_cast k1
        have k4 : (g : ℤ) - ⌊t⌋ < 1 := by exact_mod_cast k2
        exact ⟨by omega, rfl⟩
      · exfalso
        have k2 : (g : ℝ) + 4 - ⌊t⌋ < 1 := by linarith
        have k4 : (g : ℤ) + 4 - ⌊t⌋ < 1 := by exact_mod_cast k2
        omega
    have nb : (U, V) ∉ inBelt n f := by
      change ¬ |squareY n f (U, V)| ≤ 1 / 2
      rw [hY, eY]
      split_ifs
      · rw [abs_of_pos (by linarith)]; linarith
      · rw [abs_neg, abs_of_pos (by linarith)]; linarith
    by_cases hp : 0 ≤ z
    · rw [if_pos hp] at eY
      have hf4 : f < 4 := by
        by_contra hc
        have : faceY f ≤ 0 := by
          unfold faceY; rw [if_neg hc]; split_ifs <;> norm_num
        linarith
      obtain ⟨g1, g2⟩ := face_north hf4
      obtain ⟨ht, rfl⟩ := place f hf4 g1 (by rw [abs_le]; constructor <;> linarith)
      have htr : ((⌊t⌋ : ℤ) : ℝ) = (f : ℝ) := by rw [ht]; push_cast; rfl
      rw [htr] at eX
      have ew : 2 * (n : ℝ) - U - V = n * r := by rw [← hU, ← hV, eY, g2]; ring
      have ed : U - V = 2 * n * ((t - f - 1 / 2) * r) := by rw [← hU, ← hV, eX, g1]; ring
      rw [abs_of_nonneg hp] at rsq
      rcases r0.eq_or_lt with h | h
      · refine Or.inr (Or.inl ⟨?_, trivial⟩)
        rw [← h] at rsq
        change z = 1
        linarith
      · refine Or.inl (Or.inr (Or.inl ⟨(U, V), ⟨⟨⟨hq, nb⟩, ?_⟩, ?_⟩, ?_⟩))
        · change 0 ≤ squareY n f (U, V)
          rw [hY, eY]; linarith
        · change 2 * (n : ℝ) - U - V ≠ 0
          rw [ew]; positivity
        · unfold northMap
          dsimp only
          rw [ew, ed]
          ext
          · dsimp only
            rw [mul_pow, rsq]; field_simp; ring
          · dsimp only
            field_simp; ring
    · rw [if_neg hp] at eY
      have hz0 : z < 0 := not_le.mp hp
      have hf8 : 8 ≤ f := by
        by_contra hc
        have : 0 ≤ faceY f := by
          unfold faceY
          split_ifs
          · norm_num
          · exact le_refl _
          · omega
        linarith
      obtain ⟨g, rfl⟩ : ∃ g, f = g + 8 := ⟨f - 8, by omega⟩
      obtain ⟨g1, g2⟩ := face_south g
      obtain ⟨ht, rfl⟩ := place g (by omega) g1 (by rw [abs_le]; constructor <;> linarith)
      have htr : ((⌊t⌋ : ℤ) : ℝ) = (g : ℝ) := by rw [ht]; push_cast; rfl
      rw [htr] at eX
      have ew : U + V = n * r := by rw [← hU, ← hV, eY, g2]; ring
      have ed : U - V = 2 * n * ((t - g - 1 / 2) * r) := by rw [← hU, ← hV, eX, g1]; ring
      rw [abs_of_neg hz0] at rsq
      rcases r0.eq_or_lt with h | h
      · refine Or.inr (Or.inr ⟨?_, trivial⟩)
        rw [← h] at rsq
        change z = -1
        linarith
      · refine Or.inl (Or.inr (Or.inr ⟨(U, V), ⟨⟨⟨hq, nb⟩, ?_⟩, ?_⟩, ?_⟩))
        · change ¬ 0 ≤ squareY n (g + 8) (U, V)
          rw [hY, eY]; linarith
        · change U + V ≠ 0
          rw [ew]; positivity
        · unfold southMap
          dsimp only
          rw [ew, ed]
          ext
          · dsimp only
            rw [mul_pow, rsq]; field_simp; ring
          · dsimp only
            push_cast
            field_simp; ring

end cover

/-- If parts that cover a set are not larger than they must be, they are equally large. -/
theorem equal_parts {N : ℕ} {S : ℕ → Set (ℝ × ℝ)} {D : Set (ℝ × ℝ)} {a : ENNReal} (ha : a ≠ ⊤) (hS : ∀ p < N, volume (S p) ≤ a)
    (hD : D ⊆ ⋃ p ∈ Finset.range N, S p) (hv : N * a ≤ volume D) {p : ℕ} (hp : p < N) : volume (S p) = a := by
  refine le_antisymm (hS p hp) ?_
  by_contra hc
  push Not at hc
  have h1 : volume D ≤ ∑ i ∈ Finset.range N, volume (S i) := (measure_mono hD).trans (measure_biUnion_finset_le _ _)
  rw [← Finset.add_sum_erase _ _ (Finset.mem_range.mpr hp)] at h1
  have h2 : ∑ i ∈ (Finset.range N).erase p, volume (S i) ≤ ((N - 1 : ℕ) : ENNReal) * a := by
    refine (Finset.sum_le_card_nsmul _ _ a fun i hi => hS i (Finset.mem_range.mp (Finset.mem_of_mem_erase hi))).trans (le_of_eq ?_)
    rw [Finset.card_erase_of_mem (Finset.mem_range.mpr hp), Finset.card_range, nsmul_eq_mul]
  have h3 : volume (S p) + ((N - 1 : ℕ) : ENNReal) * a < a + ((N - 1 : ℕ) : ENNReal) * a :=
    ENNReal.add_lt_add_right (ENNReal.mul_ne_top (ENNReal.natCast_ne_top _) ha) hc
  have h4 : a + ((N - 1 : ℕ) : ENNReal) * a = N * a := by
    obtain ⟨M, rfl⟩ : ∃ M, N = M + 1 := ⟨N - 1, by omega⟩
    rw [Nat.add_sub_cancel]
    push_cast
    ring
  rw [h4] at h3
  exact absurd (hv.trans (h1.trans (add_le_add le_rfl h2))) (not_le.mpr h3)

/-- The whole sphere in the coordinates `(z, φ)`; its area element is `dz dφ`. -/
def wholeSphere : Set (ℝ × ℝ) := Set.Icc (-1) 1 ×ˢ Set.Ico 0 (2 * Real.pi)

theorem wholeSphere_area : volume wholeSphere = ENNReal.ofReal (4 * Real.pi) := by
  unfold wholeSphere
  rw [Measure.volume_eq_prod, Measure.prod_prod, Real.volume_Icc, Real.volume_Ico, ← ENNReal.ofReal_mul (by norm_num)]
  congr 1
  ring

/-- Any numbering `R` of the pixels whose regions contain their directions. -/
theorem equal_areas {N : ℕ} (hN : 0 < N) {R : ℕ → ℕ → ℕ → ℕ → Prop} (F : ℝ → ℝ → Option ℤ)
    (hR : ∀ x y f x' y' f' p, OnFace N x y f → OnFace N x' y' f' → R x y f p → R x' y' f' p → x = x' ∧ y = y' ∧ f = f')
    (hlt : ∀ x y f p, OnFace N x y f → R x y f p → p < 12 * (N * N))
    (hF : ∀ theta t : ℝ, 0 ≤ theta → theta ≤ Real.pi → 0 ≤ t → t < 4 →
      ∃ x y f p : ℕ, F theta ((t + 4 * (0 : ℤ)) * (Real.pi / 2)) = some (p : ℤ) ∧ R x y f p ∧ OnFace N x y f ∧
        InPixel N x y f (Real.cos theta) t) {p : ℕ} (hp : p < 12 * (N * N)) :
    volume {q : ℝ × ℝ | q ∈ wholeSphere ∧ F (Real.arccos q.1) q.2 = some (p : ℤ)} = ENNReal.ofReal (4 * Real.pi / (12 * (N * N))) := by
  have hpi := Real.pi_pos
  have hN' : (0 : ℝ) < N := by exact_mod_cast hN
  -- every direction
  have dir : ∀ q ∈ wholeSphere, ∃ x y f p : ℕ, F (Real.arccos q.1) q.2 = some (p : ℤ) ∧ R x y f p ∧ OnFace N x y f ∧
      q ∈ cover N x y f := by
    rintro ⟨z, phi⟩ ⟨⟨z0, z1⟩, p0, p1⟩
    dsimp only at z0 z1 p0 p1 ⊢
    have t0 : 0 ≤ phi / (Real.pi / 2) := by positivity
    have t1 : phi / (Real.pi / 2) < 4 := by rw [div_lt_iff₀ (by positivity)]; linarith
    obtain ⟨x, y, f, p, e, h1, h2, h3⟩ := hF (Real.arccos z) (phi / (Real.pi / 2)) (Real.arccos_nonneg z) (Real.arccos_le_pi z) t0 t1
    rw [Real.cos_arccos z0 z1] at h3
    have hphi : phi / (Real.pi / 2) * (Real.pi / 2) = phi := by field_simp
    rw [Int.cast_zero, mul_zero, add_zero, hphi] at e
    refine ⟨x, y, f, p, e, h1, h2, ?_⟩
    have := cover_contains hN h2.x h2.y h2.f (abs_le.mpr ⟨z0, z1⟩) t0 t1 h3
    rwa [mul_comm, hphi] at this
  have heq : ENNReal.ofReal (4 * Real.pi / (12 * (N * N))) = ENNReal.ofReal (Real.pi / (3 * (N : ℝ) ^ 2)) := by
    congr 1; field_simp; norm_num
  refine equal_parts (N := 12 * (N * N)) (S := fun p => {q : ℝ × ℝ | q ∈ wholeSphere ∧ F (Real.arccos q.1) q.2 = some (p : ℤ)}) (D := wholeSphere)
    ENNReal.ofReal_ne_top ?_ ?_ ?_ hp
  · intro p _
    rw [heq]
    by_cases hne : ∃ q, q ∈ wholeSphere ∧ F (Real.arccos q.1) q.2 = some (p : ℤ)
    · obtain ⟨q, hq, e⟩ := hne
      obtain ⟨x, y, f, p', e', h1, h2, -⟩ := dir q hq
      have hpp : p' = p := by
        have := e'.symm.trans e
        injection this with this
        exact_mod_cast this
      subst hpp
      refine (measure_mono ?_).trans (cover_area (x := x) (y := y) (f := f) hN)
      rintro q2 ⟨hq2, e2⟩
      obtain ⟨x2, y2, f2, p2, e3, h3, h4, h5⟩ := dir q2 hq2
      have hpp : p2 = p' := by
        have := e3.symm.trans e2
        injection this with this
        exact_mod_cast this
      subst hpp
      obtain ⟨a, b, d⟩ := hR _ _ _ _ _ _ _ h2 h4 h1 h3
      rw [a, b, d]
      exact h5
    · have : {q : ℝ × ℝ | q ∈ wholeSphere ∧ F (Real.arccos q.1) q.2 = some (p : ℤ)} = ∅ := by
        rw [Set.eq_empty_iff_forall_notMem]
        exact fun q hq => hne ⟨q, hq⟩
      rw [this, measure_empty]
      exact zero_le
  · intro q hq
    obtain ⟨x, y, f, p, e, h1, h2, -⟩ := dir q hq
    refine Set.mem_biUnion (x := p) ?_ ⟨hq, e⟩
    simp only [Finset.coe_range, Set.mem_Iio]
    exact hlt _ _ _ _ h2 h1
  · rw [wholeSphere_area, ← ENNReal.ofReal_natCast, ← ENNReal.ofReal_mul (by positivity)]
    apply ENNReal.ofReal_le_ofReal
    push_cast
    apply le_of_eq
    field_simp

theorem nested_coordinates {n x y f x' y' f' p : ℕ} (h1 : Nested n x y f p) (h2 : Nested n x' y' f' p) : x = x' ∧ y = y' ∧ f = f' := by
  obtain ⟨a, i1, a1, e1⟩ := h1
  obtain ⟨b, i2, b1, e2⟩ := h2
  have hf : f = f' := by
    have hn : 0 < n * n := by omega
    have d1 : p / (n * n) = f := by rw [e1, mul_comm, Nat.mul_add_div hn, Nat.div_eq_of_lt a1, add_zero]
    have d2 : p / (n * n) = f' := by rw [e2, mul_comm, Nat.mul_add_div hn, Nat.div_eq_of_lt b1, add_zero]
    rw [← d1, d2]
  subst hf
  have hab : a = b := by omega
  subst hab
  exact ⟨Nat.eq_of_testBit_eq fun i => by rw [← (i1 i).1, (i2 i).1], Nat.eq_of_testBit_eq fun i => by rw [← (i1 i).2, (i2 i).2], rfl⟩

/-- **C167**, NESTED, 32 bit: the directions of a pixel have the area `4π / (12 nside²)`. -/
theorem C167_nest {k : ℕ} (hk : k ≤ 13) {p : ℕ} (hp : p < 12 * (2 ^ k * 2 ^ k)) :
    volume {q : ℝ × ℝ | q ∈ wholeSphere ∧ ang2pix_nest (2 ^ k) (Real.arccos q.1) q.2 = some (p : ℤ)} =
      ENNReal.ofReal (4 * Real.pi / (12 * ((2 ^ k : ℕ) * (2 ^ k : ℕ)))) :=
  equal_areas (by positivity) (R := Nested (2 ^ k)) _ (fun _ _ _ _ _ _ _ _ _ h1 h2 => nested_coordinates h1 h2) (fun _ _ _ _ h1 h2 => nested_lt h2 h1.f)
    (fun _ _ a b d e => C164_nest hk a b d e 0) hp

/-- **C167**, NESTED, 64 bit. -/
theorem C167_nest64 {k : ℕ} (hk : k ≤ 29) {p : ℕ} (hp : p < 12 * (2 ^ k * 2 ^ k)) :
    volume {q : ℝ × ℝ | q ∈ wholeSphere ∧ ang2pix_nest64 (2 ^ k) (Real.arccos q.1) q.2 = some (p : ℤ)} =
      ENNReal.ofReal (4 * Real.pi / (12 * ((2 ^ k : ℕ) * (2 ^ k : ℕ)))) :=
  equal_areas (by positivity) (R := Nested (2 ^ k)) _ (fun _ _ _ _ _ _ _ _ _ h1 h2 => nested_coordinates h1 h2) (fun _ _ _ _ h1 h2 => nested_lt h2 h1.f)
    (fun _ _ a b d e => C164_nest64 hk a b d e 0) hp

/-- The RING search, through the coordinates on the face; any `nside`. -/
theorem ring_through {c u isq : ℤ → Option ℤ} {n : ℤ} {N : ℕ} (E : Env c u isq n) (hN : n = N) {z s t : ℝ} (hz : |z| ≤ 1)
    (hs : s = -5 ∨ s = Real.sqrt (1 - |z| ^ 2)) (t0 : 0 ≤ t) (t1 : t < 4) :
    ∃ x y f p : ℕ, ang2pixRing exact c n z s ((t + 4 * (0 : ℤ)) * (Real.pi / 2)) = some (p : ℤ) ∧ xyf2ringG c n x y f = some (p : ℤ) ∧ OnFace N x y f ∧
      InPixel N x y f z t := by
  have hn := E.pos
  obtain ⟨x, y, f, e, hf, hr⟩ := region_place (z := z) hn hN t0 t1
  obtain ⟨part, i, j, pix, A, hb⟩ := ring_of_xyf E (x := x) (y := y) hf.f ⟨by omega, by have := hf.x; omega⟩ ⟨by omega, by have := hf.y; omega⟩
  obtain ⟨r0, r1⟩ := A.range E
  obtain ⟨p, rfl⟩ : ∃ p : ℕ, pix = p := ⟨pix.toNat, by omega⟩
  refine ⟨x, y, f, p, ?_, A.num, hf, hr⟩
  rw [ring_place E hz hs (quarter_turns t0 t1 0) t0 t1 e, A.num]

theorem ring_areas {c u isq : ℤ → Option ℤ} {n : ℤ} {N : ℕ} (E : Env c u isq n) (hN : n = N) (F : ℝ → ℝ → Option ℤ) {s : ℝ → ℝ}
    (hs : ∀ theta, 0 ≤ theta → theta ≤ Real.pi → s theta = -5 ∨ s theta = Real.sqrt (1 - |Real.cos theta| ^ 2))
    (hF : ∀ theta phi : ℝ, 0 ≤ theta → theta ≤ Real.pi → F theta phi = ang2pixRing exact c n (Real.cos theta) (s theta) phi)
    {p : ℕ} (hp : p < 12 * (N * N)) :
    volume {q : ℝ × ℝ | q ∈ wholeSphere ∧ F (Real.arccos q.1) q.2 = some (p : ℤ)} = ENNReal.ofReal (4 * Real.pi / (12 * (N * N))) := by
  have hn := E.pos
  have back : ∀ x y f p : ℕ, OnFace N x y f → xyf2ringG c n x y f = some (p : ℤ) → ring2xyfG c u isq n p = some ((x : ℤ), (y : ℤ), f) ∧ p < 12 * (N * N) := by
    intro x y f p hf h
    obtain ⟨part, i, j, pix, A, hb⟩ := ring_of_xyf E (x := x) (y := y) hf.f ⟨by omega, by have := hf.x; omega⟩ ⟨by omega, by have := hf.y; omega⟩
    rw [A.num] at h
    obtain rfl := Option.some.inj h
    refine ⟨hb, ?_⟩
    have := (A.range E).2
    rw [hN, mul_assoc] at this
    exact_mod_cast this
  refine equal_areas (by omega) (R := fun x y f p => xyf2ringG c n x y f = some (p : ℤ)) F ?_ (fun x y f p h1 h2 => (back x y f p h1 h2).2) ?_ hp
  · intro x y f x' y' f' p h1 h2 h3 h4
    have e := (back _ _ _ _ h1 h3).1.symm.trans (back _ _ _ _ h2 h4).1
    injection e with e
    simp only [Prod.mk.injEq] at e
    obtain ⟨a, b, d⟩ := e
    exact ⟨by exact_mod_cast a, by exact_mod_cast b, d⟩
  · intro theta t a b t0 t1
    obtain ⟨x, y, f, p, e, h1, h2, h3⟩ := ring_through E hN (Real.abs_cos_le_one theta) (hs theta a b) t0 t1
    exact ⟨x, y, f, p, by rw [hF theta _ a b, e], h1, h2, h3⟩

/-- **C167**, RING, 32 bit: every `nside` from 1 to 8192. -/
theorem C167_ring {N : ℕ} (h1 : 1 ≤ N) (h2 : N ≤ 8192) {p : ℕ} (hp : p < 12 * (N * N)) :
    volume {q : ℝ × ℝ | q ∈ wholeSphere ∧ ang2pix_ring N (Real.arccos q.1) q.2 = some (p : ℤ)} = ENNReal.ofReal (4 * Real.pi / (12 * (N * N))) := by
  obtain ⟨u, isq, E⟩ := env32' (n := N) (by omega) (by omega)
  refine ring_areas E rfl (ang2pix_ring N) (s := fun _ => -5) (fun _ _ _ => Or.inl rfl) (fun theta phi a b => ?_) hp
  unfold ang2pix_ring
  rw [if_pos ⟨a, b⟩]

/-- **C167**, RING, 64 bit: every `nside` from 1 to `2^29`. -/
theorem C167_ring64 {N : ℕ} (h1 : 1 ≤ N) (h2 : N ≤ 2 ^ 29) {p : ℕ} (hp : p < 12 * (N * N)) :
    volume {q : ℝ × ℝ | q ∈ wholeSphere ∧ ang2pix_ring64 N (Real.arccos q.1) q.2 = some (p : ℤ)} = ENNReal.ofReal (4 * Real.pi / (12 * (N * N))) := by
  obtain ⟨u, isq, E⟩ := env64' (n := N) (by omega) (by exact_mod_cast h2)
  refine ring_areas E rfl (ang2pix_ring64 N) (s := sth) (fun _ a b => sth_ok a b) (fun theta phi a b => ?_) hp
  unfold ang2pix_ring64
  rw [if_pos ⟨a, b⟩]

/-- `nside = 3`, which the NESTED numbering cannot have: each of the 108 pixels has the area `π / 27`. -/
example : volume {q : ℝ × ℝ | q ∈ wholeSphere ∧ ang2pix_ring (3 : ℕ) (Real.arccos q.1) q.2 = some ((50 : ℕ) : ℤ)} = ENNReal.ofReal (Real.pi / 27) := by
  rw [C167_ring (by norm_num) (by norm_num) (by norm_num)]
  congr 1
  push_cast
  ring

end SatSky.Props
