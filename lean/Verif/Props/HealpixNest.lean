import Verif.Lemmas.HealpixBits

/-! C42: face coordinates and NESTED pixel numbers of HEALPix. -/

namespace SatSky.Props

open SatSky.Healpix SatSky.Spec.Healpix

theorem nested_det {n x y f p p' : ℕ} (h : Nested n x y f p) (h' : Nested n x y f p') : p = p' := by
  obtain ⟨m, hm, _, rfl⟩ := h
  obtain ⟨m', hm', _, rfl⟩ := h'
  rw [hm.det hm']

theorem nested_inj {n x y f x' y' f' p : ℕ} (h : Nested n x y f p) (h' : Nested n x' y' f' p) : x = x' ∧ y = y' ∧ f = f' := by
  obtain ⟨m, hm, hl, rfl⟩ := h
  obtain ⟨m', hm', hl', e⟩ := h'
  have hf : f = f' := by
    rcases lt_trichotomy f f' with c | c | c
    · exfalso
      have : (f + 1) * (n * n) ≤ f' * (n * n) := Nat.mul_le_mul_right _ c
      rw [add_mul] at this; omega
    · exact c
    · exfalso
      have : (f' + 1) * (n * n) ≤ f * (n * n) := Nat.mul_le_mul_right _ c
      rw [add_mul] at this; omega
  subst hf
  have : m = m' := by omega
  subst this
  exact ⟨(hm.inj hm').1, (hm.inj hm').2, rfl⟩

theorem nested_lt {n x y f p : ℕ} (h : Nested n x y f p) (hf : f < 12) : p < 12 * (n * n) := by
  obtain ⟨m, _, hl, rfl⟩ := h
  have : (f + 1) * (n * n) ≤ 12 * (n * n) := Nat.mul_le_mul_right _ hf
  rw [add_mul] at this; omega

theorem sq_pow (k : ℕ) : 2 ^ k * 2 ^ k = 2 ^ (2 * k) := by rw [← pow_add, two_mul]

theorem face_le {n f : ℕ} (hf : f < 12) : f * n * n ≤ 11 * (n * n) := by
  rw [mul_assoc]; exact Nat.mul_le_mul_right _ (by omega)

/-! ### 32 bit -/

theorem xyf2nest_nested {k x y f : ℕ} (hk : k ≤ 13) (h : OnFace (2 ^ k) x y f) :
    ∃ p, xyf2nest (2 ^ k) x y f = some p ∧ Nested (2 ^ k) x y f p := by
  have hk2 : (2 : ℕ) ^ k ≤ 2 ^ 13 := Nat.pow_le_pow_right (by omega) hk
  have hx : x < 2 ^ 13 := lt_of_lt_of_le h.x hk2
  have hy : y < 2 ^ 13 := lt_of_lt_of_le h.y hk2
  have hx8 : x >>> 8 < 32 := shr_lt (n := 5) hx
  have hy8 : y >>> 8 < 32 := shr_lt (n := 5) hy
  have hu : ∀ m < 32, uAt m < 1024 := by decide +kernel
  have s1 : uAt (x >>> 8) <<< 16 < 2 ^ 31 := by rw [Nat.shiftLeft_eq]; have := hu _ hx8; omega
  have s2 : uAt (y &&& 0xff) <<< 1 < 2 ^ 31 := by rw [Nat.shiftLeft_eq]; have := uAt_lt (ff_lt y); omega
  have s3 : uAt (y >>> 8) <<< 17 < 2 ^ 31 := by rw [Nat.shiftLeft_eq]; have := hu _ hy8; omega
  have hI := interleaved32 (lt_of_lt_of_le hx (by norm_num)) (lt_of_lt_of_le hy (by norm_num))
  have hlt := hI.lt h.x h.y
  rw [← sq_pow] at hlt
  have hsq : (2 : ℕ) ^ k * 2 ^ k ≤ 2 ^ 13 * 2 ^ 13 := Nat.mul_le_mul hk2 hk2
  have hb := face_le (n := 2 ^ k) h.f
  have s4 : f * 2 ^ k * 2 ^ k < 2 ^ 31 := by omega
  have s5 : f * 2 ^ k * 2 ^ k + inter32 x y < 2 ^ 31 := by omega
  refine ⟨f * (2 ^ k * 2 ^ k) + inter32 x y, ?_, inter32 x y, hI, hlt, rfl⟩
  unfold xyf2nest
  rw [utab_get (ff_lt x), utab_get (by omega : x >>> 8 < 256), utab_get (ff_lt y), utab_get (by omega : y >>> 8 < 256)]
  simp only [Option.bind_eq_bind, Option.bind_some, i32, if_pos s1, if_pos s2, if_pos s3, if_pos s4]
  rw [← mul_assoc]
  exact if_pos s5

theorem nest2xyf_nested {k p : ℕ} (hk : k ≤ 13) (h : p < 12 * (2 ^ k * 2 ^ k)) :
    ∃ x y f, nest2xyf (2 ^ k) p = some (x, y, f) ∧ OnFace (2 ^ k) x y f ∧ Nested (2 ^ k) x y f p := by
  have hk2 : (2 : ℕ) ^ k ≤ 2 ^ 13 := Nat.pow_le_pow_right (by omega) hk
  have hsq : (2 : ℕ) ^ k * 2 ^ k ≤ 2 ^ 13 * 2 ^ 13 := Nat.mul_le_mul hk2 hk2
  have hpos : 0 < (2 : ℕ) ^ k * 2 ^ k := by positivity
  have s1 : (2 : ℕ) ^ k * 2 ^ k < 2 ^ 31 := by omega
  have hm : p &&& (2 ^ k * 2 ^ k - 1) = p % (2 ^ k * 2 ^ k) := by
    rw [sq_pow, Nat.and_two_pow_sub_one_eq_mod]
  set m := p % (2 ^ k * 2 ^ k) with hmd
  have hml : m < 2 ^ k * 2 ^ k := Nat.mod_lt _ hpos
  have hm32 : m < 2 ^ 32 := by omega
  have hm32' : m >>> 1 < 2 ^ 32 := by rw [Nat.shiftRight_eq_div_pow]; omega
  have hI : Interleaved (second32 m) (second32 (m >>> 1)) m := by
    intro i
    rw [second32_bit hm32, second32_bit hm32', Nat.testBit_shiftRight, Nat.add_comm 1]
    exact ⟨rfl, rfl⟩
  have hml2 := hml
  rw [sq_pow] at hml2
  refine ⟨second32 m, second32 (m >>> 1), p / (2 ^ k * 2 ^ k), ?_, ⟨?_, ?_, ?_⟩, m, hI, hml, ?_⟩
  · unfold nest2xyf
    simp only [Option.bind_eq_bind, i32, if_pos s1, Option.bind_some, if_neg hpos.ne', hm, everySecond_eq]
    rfl
  · apply lt_of_bits
    intro i hi
    rw [← (hI i).1]
    exact bit_big hml2 (by omega)
  · apply lt_of_bits
    intro i hi
    rw [← (hI i).2]
    exact bit_big hml2 (by omega)
  · rw [Nat.div_lt_iff_lt_mul hpos]; exact h
  · rw [Nat.mul_comm]; exact (Nat.div_add_mod p _).symm

/-- **C42**, 32 bit: for every `nside = 2^k` up to 8192, `xyf2nest` and `nest2xyf` compute the NESTED number
without overflow, the number is below `12 nside²`, and each undoes the other. -/
theorem C42_nest {k : ℕ} (hk : k ≤ 13) :
    (∀ x y f, OnFace (2 ^ k) x y f → ∃ p, xyf2nest (2 ^ k) x y f = some p ∧ Nested (2 ^ k) x y f p ∧ p < 12 * (2 ^ k * 2 ^ k)
      ∧ nest2xyf (2 ^ k) p = some (x, y, f))
    ∧ (∀ p, p < 12 * (2 ^ k * 2 ^ k) → ∃ x y f, nest2xyf (2 ^ k) p = some (x, y, f) ∧ OnFace (2 ^ k) x y f
      ∧ Nested (2 ^ k) x y f p ∧ xyf2nest (2 ^ k) x y f = some p) := by
  constructor
  · intro x y f h
    obtain ⟨p, hp, hn⟩ := xyf2nest_nested hk h
    have hlt := nested_lt hn h.f
    obtain ⟨x', y', f', e, _, hn'⟩ := nest2xyf_nested hk hlt
    obtain ⟨rfl, rfl, rfl⟩ := nested_inj hn hn'
    exact ⟨p, hp, hn, hlt, e⟩
  · intro p h
    obtain ⟨x, y, f, e, hf, hn⟩ := nest2xyf_nested hk h
    obtain ⟨p', hp', hn'⟩ := xyf2nest_nested hk hf
    rw [nested_det hn' hn] at hp'
    exact ⟨x, y, f, e, hf, hn, hp'⟩

/-! ### 64 bit -/

theorem add_eq_or (a : ℕ) : ∀ b, a &&& b = 0 → a + b = a ||| b := by
  induction a using Nat.strong_induction_on with
  | _ a ih =>
    intro b h
    rcases Nat.eq_zero_or_pos a with rfl | hp
    · simp
    · have h2 : a / 2 &&& b / 2 = 0 := by rw [← Nat.and_div_two, h]
      have := ih (a / 2) (by omega) (b / 2) h2
      have e1 : (a ||| b) / 2 = a / 2 ||| b / 2 := Nat.or_div_two
      have e2 : (a ||| b) % 2 = 1 ↔ a % 2 = 1 ∨ b % 2 = 1 := Nat.or_mod_two_eq_one
      have e3 : ¬ (a % 2 = 1 ∧ b % 2 = 1) := by
        rw [← Nat.and_mod_two_eq_one, h]; decide
      omega

/-- What `xyf2nest64` adds to the number of the first pixel of the face. -/
theorem interleaved64 {x y : ℕ} (hx : x < 2 ^ 31) (hy : y < 2 ^ 31) :
    Interleaved x y (spread64 x + spread64 y <<< 1) := by
  have hx' : x < 2 ^ 32 := lt_of_lt_of_le hx (by norm_num)
  have hy' : y < 2 ^ 32 := lt_of_lt_of_le hy (by norm_num)
  have hor : spread64 x + spread64 y <<< 1 = spread64 x ||| spread64 y <<< 1 := by
    have hand : spread64 x &&& spread64 y <<< 1 = 0 := by
      apply Nat.eq_of_testBit_eq
      intro i
      rw [Nat.testBit_and, Nat.testBit_shiftLeft, spread64_bit hx', spread64_bit hy', Nat.zero_testBit]
      rcases Nat.even_or_odd' i with ⟨j, rfl | rfl⟩
      · by_cases h : 1 ≤ 2 * j
        · simp [show ¬ (2 * j - 1) % 2 = 0 by omega]
        · simp [h]
      · simp
    exact add_eq_or _ _ hand
  rw [hor]
  intro i
  simp only [Nat.testBit_or, Nat.testBit_shiftLeft, spread64_bit hx', spread64_bit hy']
  constructor
  · by_cases h : 1 ≤ 2 * i
    · simp [show ¬ (2 * i - 1) % 2 = 0 by omega]
    · simp [h]
  · simp

theorem xyf2nest64_nested {k x y f : ℕ} (hk : k ≤ 29) (h : OnFace (2 ^ k) x y f) :
    ∃ p, xyf2nest64 (2 ^ k) x y f = some p ∧ Nested (2 ^ k) x y f p := by
  have hk2 : (2 : ℕ) ^ k ≤ 2 ^ 29 := Nat.pow_le_pow_right (by omega) hk
  have hx : x < 2 ^ 31 := lt_of_lt_of_le h.x (by omega)
  have hy : y < 2 ^ 31 := lt_of_lt_of_le h.y (by omega)
  have hI := interleaved64 hx hy
  have hlt := hI.lt h.x h.y
  rw [← sq_pow] at hlt
  have hsq : (2 : ℕ) ^ k * 2 ^ k ≤ 2 ^ 29 * 2 ^ 29 := Nat.mul_le_mul hk2 hk2
  have hb := face_le (n := 2 ^ k) h.f
  have s1 : spread64 y <<< 1 < 2 ^ 63 := by omega
  have s4 : f * 2 ^ k * 2 ^ k < 2 ^ 63 := by omega
  have s5 : f * 2 ^ k * 2 ^ k + spread64 x < 2 ^ 63 := by omega
  have s6 : f * 2 ^ k * 2 ^ k + spread64 x + spread64 y <<< 1 < 2 ^ 63 := by omega
  refine ⟨f * (2 ^ k * 2 ^ k) + (spread64 x + spread64 y <<< 1), ?_, _, hI, hlt, rfl⟩
  unfold xyf2nest64
  simp only [Option.bind_eq_bind, spreadBits64_eq hx, spreadBits64_eq hy, Option.bind_some, i64, if_pos s1, if_pos s4, if_pos s5]
  rw [if_pos s6, ← mul_assoc, Nat.add_assoc]

theorem nest2xyf64_nested {k p : ℕ} (hk : k ≤ 29) (h : p < 12 * (2 ^ k * 2 ^ k)) :
    ∃ x y f, nest2xyf64 (2 ^ k) p = some (x, y, f) ∧ OnFace (2 ^ k) x y f ∧ Nested (2 ^ k) x y f p := by
  have hk2 : (2 : ℕ) ^ k ≤ 2 ^ 29 := Nat.pow_le_pow_right (by omega) hk
  have hsq : (2 : ℕ) ^ k * 2 ^ k ≤ 2 ^ 29 * 2 ^ 29 := Nat.mul_le_mul hk2 hk2
  have hpos : 0 < (2 : ℕ) ^ k * 2 ^ k := by positivity
  have s1 : (2 : ℕ) ^ k * 2 ^ k < 2 ^ 63 := by omega
  have hm : p &&& (2 ^ k * 2 ^ k - 1) = p % (2 ^ k * 2 ^ k) := by
    rw [sq_pow, Nat.and_two_pow_sub_one_eq_mod]
  set m := p % (2 ^ k * 2 ^ k) with hmd
  have hml : m < 2 ^ k * 2 ^ k := Nat.mod_lt _ hpos
  have hm62 : m < 2 ^ 62 := by omega
  have hm62' : m >>> 1 < 2 ^ 62 := by rw [Nat.shiftRight_eq_div_pow]; omega
  have hI : Interleaved (comp64 m) (comp64 (m >>> 1)) m := by
    intro i
    rw [comp64_bit (lt_of_lt_of_le hm62 (by norm_num)), comp64_bit (lt_of_lt_of_le hm62' (by norm_num)), Nat.testBit_shiftRight,
      Nat.add_comm 1]
    exact ⟨rfl, rfl⟩
  have hml2 := hml
  rw [sq_pow] at hml2
  refine ⟨comp64 m, comp64 (m >>> 1), p / (2 ^ k * 2 ^ k), ?_, ⟨?_, ?_, ?_⟩, m, hI, hml, ?_⟩
  · unfold nest2xyf64
    simp only [Option.bind_eq_bind, i64, if_pos s1, Option.bind_some, if_neg hpos.ne', hm, compressBits64_eq hm62, compressBits64_eq hm62']
    rfl
  · exact comp64_lt hml2 (by omega)
  · apply lt_of_bits
    intro i hi
    rw [← (hI i).2]
    exact bit_big hml2 (by omega)
  · rw [Nat.div_lt_iff_lt_mul hpos]; exact h
  · rw [Nat.mul_comm]; exact (Nat.div_add_mod p _).symm

/-- **C42**, 64 bit: the same for every `nside = 2^k` up to `2^29`. -/
theorem C42_nest64 {k : ℕ} (hk : k ≤ 29) :
    (∀ x y f, OnFace (2 ^ k) x y f → ∃ p, xyf2nest64 (2 ^ k) x y f = some p ∧ Nested (2 ^ k) x y f p
      ∧ p < 12 * (2 ^ k * 2 ^ k) ∧ nest2xyf64 (2 ^ k) p = some (x, y, f))
    ∧ (∀ p, p < 12 * (2 ^ k * 2 ^ k) → ∃ x y f, nest2xyf64 (2 ^ k) p = some (x, y, f) ∧ OnFace (2 ^ k) x y f
      ∧ Nested (2 ^ k) x y f p ∧ xyf2nest64 (2 ^ k) x y f = some p) := by
  constructor
  · intro x y f h
    obtain ⟨p, hp, hn⟩ := xyf2nest64_nested hk h
    have hlt := nested_lt hn h.f
    obtain ⟨x', y', f', e, _, hn'⟩ := nest2xyf64_nested hk hlt
    obtain ⟨rfl, rfl, rfl⟩ := nested_inj hn hn'
    exact ⟨p, hp, hn, hlt, e⟩
  · intro p h
    obtain ⟨x, y, f, e, hf, hn⟩ := nest2xyf64_nested hk h
    obtain ⟨p', hp', hn'⟩ := xyf2nest64_nested hk hf
    rw [nested_det hn' hn] at hp'
    exact ⟨x, y, f, e, hf, hn, hp'⟩

/-- Two pixels of the order used by `sat_skymap` (nside 256) and of the largest one. -/
example : xyf2nest 256 255 3 11 = some 742751 ∧ nest2xyf 256 742751 = some (255, 3, 11)
    ∧ xyf2nest 8192 8191 8191 11 = some 805306367 ∧ xyf2nest64 256 255 3 11 = some 742751
    ∧ nest2xyf64 (2 ^ 29) 3458764513820540927 = some (2 ^ 29 - 1, 2 ^ 29 - 1, 11) := by decide +kernel

end SatSky.Props
