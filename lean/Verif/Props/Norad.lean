import Verif.Lemmas.Digits
import Verif.Props.Checksum

/-!
Property C03: catalogue numbers (`src/get_el.c` 165-256).
-/

namespace SatSky.Props

open SatSky Spec GetEl

theorem base34_char34 : ∀ k, k < 34 → base34 (char34 k) = (k : Int) := by decide

theorem char34_digit : ∀ k, k ≤ 9 → char34 k = (48 : Int) + (k : Int) := by decide

theorem mem_alphabet34 {c : CChar} (h : c ∈ alphabet34) : ∃ k, k < 34 ∧ char34 k = c := by
  obtain ⟨k, hk, rfl⟩ := List.getElem_of_mem h
  refine ⟨k, hk, ?_⟩
  unfold char34
  rw [List.getD_eq_getElem?_getD, List.getElem?_eq_getElem hk]
  rfl

/-- Decoding in terms of the digit values. -/
theorem getNorad_digits (k0 k1 k2 k3 k4 : Nat) (h0 : k0 < 34) (h1 : k1 < 34) (h2 : k2 < 34)
    (h3 : k3 < 34) (h4 : k4 < 34) (t : CString) (ht : NoDigitHead t) :
    getNoradNumber ([k0, k1, k2, k3, k4].map char34 ++ t) = some (
      if k4 > 9 then 340000 + ((k4 : Int) - 10) + 24 * (k3 + k2 * 34 + k1 * 34 * 34 + k0 * 34 * 34 * 34)
      else if k3 > 9 then
        340000 + 32072064 + k4 + ((k3 : Int) - 10) * 10 + 10 * 24 * (k2 + k1 * 34 + k0 * 34 * 34)
      else if k2 > 9 then
        340000 + 32072064 + 9432960 + k4 + k3 * 10 + ((k2 : Int) - 10) * 100 + 2400 * (k1 + k0 * 34)
      else if k1 > 9 then
        340000 + 32072064 + 9432960 + 2774400 + k4 + k3 * 10 + k2 * 100 + ((k1 : Int) - 10) * 1000
          + k0 * 24000
      else k0 * 10000 + (k1 * 1000 + k2 * 100 + k3 * 10 + k4 : Nat)) := by
  simp only [getNoradNumber, List.map_cons, List.map_nil, List.cons_append, List.nil_append, rd,
    Option.bind_eq_bind, Option.bind_some, base34_char34 k0 h0, base34_char34 k1 h1,
    base34_char34 k2 h2, base34_char34 k3 h3, base34_char34 k4 h4]
  rw [if_neg (by omega), if_neg (by omega), if_neg (by omega), if_neg (by omega), if_neg (by omega)]
  unfold noradOfDigits
  by_cases c4 : k4 > 9
  · rw [if_pos (by omega), if_pos c4]
  rw [if_neg (by omega), if_neg c4]
  by_cases c3 : k3 > 9
  · rw [if_pos (by omega), if_pos c3]
  rw [if_neg (by omega), if_neg c3]
  by_cases c2 : k2 > 9
  · rw [if_pos (by omega), if_pos c2]
  rw [if_neg (by omega), if_neg c2]
  by_cases c1 : k1 > 9
  · rw [if_pos (by omega), if_pos c1]
  rw [if_neg (by omega), if_neg c1]
  have hat := atoi_digits [k1, k2, k3, k4] (by simp; omega) (by simp) (by simp) ht
  have e : digitChars [k1, k2, k3, k4] ++ t
      = List.drop 1 (char34 k0 :: char34 k1 :: char34 k2 :: char34 k3 :: char34 k4 :: t) := by
    simp [digitChars, char34_digit k1 (by omega), char34_digit k2 (by omega),
      char34_digit k3 (by omega), char34_digit k4 (by omega)]
  rw [← e, hat]
  have e2 : ofDigits 0 [k1, k2, k3, k4] = k1 * 1000 + k2 * 100 + k3 * 10 + k4 := by
    simp [ofDigits]; omega
  rw [e2]
  simp only [Option.bind_eq_bind, Option.bind_some]
  unfold int32
  rw [if_pos (by unfold inInt; omega)]

/-- **C03** (decode after encode).  Every number 0..45435423, written according to the documented
scheme and followed by anything that is not a digit, is decoded to itself. -/
theorem C03_decode_encode (n : Nat) (hn : n ≤ 45435423) (t : CString) (ht : NoDigitHead t) :
    getNoradNumber (encodeNorad n ++ t) = some (n : Int) := by
  unfold encodeNorad encodeDigits
  by_cases a1 : n < 100000
  · rw [if_pos a1, getNorad_digits _ _ _ _ _ (by omega) (by omega) (by omega) (by omega) (by omega) t ht]
    rw [if_neg (by omega), if_neg (by omega), if_neg (by omega), if_neg (by omega)]
    refine congrArg some ?_; omega
  rw [if_neg a1]
  by_cases a2 : n < 340000
  · rw [if_pos a2, getNorad_digits _ _ _ _ _ (by omega) (by omega) (by omega) (by omega) (by omega) t ht]
    rw [if_neg (by omega), if_neg (by omega), if_neg (by omega), if_neg (by omega)]
    refine congrArg some ?_; omega
  rw [if_neg a2]
  by_cases a3 : n < 32412064
  · rw [if_pos a3, getNorad_digits _ _ _ _ _ (by omega) (by omega) (by omega) (by omega) (by omega) t ht]
    rw [if_pos (by omega)]
    refine congrArg some ?_; omega
  rw [if_neg a3]
  by_cases a4 : n < 41845024
  · rw [if_pos a4, getNorad_digits _ _ _ _ _ (by omega) (by omega) (by omega) (by omega) (by omega) t ht]
    rw [if_neg (by omega), if_pos (by omega)]
    refine congrArg some ?_; omega
  rw [if_neg a4]
  by_cases a5 : n < 44619424
  · rw [if_pos a5, getNorad_digits _ _ _ _ _ (by omega) (by omega) (by omega) (by omega) (by omega) t ht]
    rw [if_neg (by omega), if_neg (by omega), if_pos (by omega)]
    refine congrArg some ?_; omega
  rw [if_neg a5, getNorad_digits _ _ _ _ _ (by omega) (by omega) (by omega) (by omega) (by omega) t ht]
  rw [if_neg (by omega), if_neg (by omega), if_neg (by omega), if_pos (by omega)]
  refine congrArg some ?_; omega

theorem validCode_digits {c : CString} (h : ValidCode c) :
    ∃ k0 k1 k2 k3 k4 : Nat, k0 < 34 ∧ k1 < 34 ∧ k2 < 34 ∧ k3 < 34 ∧ k4 < 34 ∧
      c = [k0, k1, k2, k3, k4].map char34 := by
  obtain ⟨hl, hm⟩ := h
  match c, hl with
  | [c0, c1, c2, c3, c4], _ =>
    obtain ⟨k0, h0, rfl⟩ := mem_alphabet34 (hm c0 (by simp))
    obtain ⟨k1, h1, rfl⟩ := mem_alphabet34 (hm c1 (by simp))
    obtain ⟨k2, h2, rfl⟩ := mem_alphabet34 (hm c2 (by simp))
    obtain ⟨k3, h3, rfl⟩ := mem_alphabet34 (hm c3 (by simp))
    obtain ⟨k4, h4, rfl⟩ := mem_alphabet34 (hm c4 (by simp))
    exact ⟨k0, k1, k2, k3, k4, h0, h1, h2, h3, h4, rfl⟩

/-- Every valid code is the code of exactly one number (scheme is complete). -/
theorem encode_surjective {c : CString} (h : ValidCode c) :
    ∃ n, n ≤ 45435423 ∧ encodeNorad n = c := by
  obtain ⟨k0, k1, k2, k3, k4, h0, h1, h2, h3, h4, rfl⟩ := validCode_digits h
  have aux : ∀ n, encodeDigits n = [k0, k1, k2, k3, k4] →
      encodeNorad n = [k0, k1, k2, k3, k4].map char34 := by
    intro n hn; unfold encodeNorad; rw [hn]
  by_cases c4 : k4 > 9
  · refine ⟨340000 + (k4 - 10) + 24 * (k3 + 34 * (k2 + 34 * (k1 + 34 * k0))), by omega, aux _ ?_⟩
    unfold encodeDigits
    rw [if_neg (by omega), if_neg (by omega), if_pos (by omega)]
    simp only [List.cons.injEq, and_true]
    refine ⟨?_, ?_, ?_, ?_, ?_⟩ <;> omega
  by_cases c3 : k3 > 9
  · refine ⟨32412064 + k4 + (k3 - 10) * 10 + 240 * (k2 + 34 * (k1 + 34 * k0)), by omega, aux _ ?_⟩
    unfold encodeDigits
    rw [if_neg (by omega), if_neg (by omega), if_neg (by omega), if_pos (by omega)]
    simp only [List.cons.injEq, and_true]
    refine ⟨?_, ?_, ?_, ?_, ?_⟩ <;> omega
  by_cases c2 : k2 > 9
  · refine ⟨41845024 + k4 + k3 * 10 + (k2 - 10) * 100 + 2400 * (k1 + 34 * k0), by omega, aux _ ?_⟩
    unfold encodeDigits
    rw [if_neg (by omega), if_neg (by omega), if_neg (by omega), if_neg (by omega), if_pos (by omega)]
    simp only [List.cons.injEq, and_true]
    refine ⟨?_, ?_, ?_, ?_, ?_⟩ <;> omega
  by_cases c1 : k1 > 9
  · refine ⟨44619424 + k4 + k3 * 10 + k2 * 100 + (k1 - 10) * 1000 + 24000 * k0, by omega, aux _ ?_⟩
    unfold encodeDigits
    rw [if_neg (by omega), if_neg (by omega), if_neg (by omega), if_neg (by omega), if_neg (by omega)]
    simp only [List.cons.injEq, and_true]
    refine ⟨?_, ?_, ?_, ?_, ?_⟩ <;> omega
  · refine ⟨k0 * 10000 + k1 * 1000 + k2 * 100 + k3 * 10 + k4, by omega, aux _ ?_⟩
    unfold encodeDigits
    by_cases c0 : k0 * 10000 + k1 * 1000 + k2 * 100 + k3 * 10 + k4 < 100000
    · rw [if_pos c0]; simp only [List.cons.injEq, and_true]
      refine ⟨?_, ?_, ?_, ?_, ?_⟩ <;> omega
    · rw [if_neg c0, if_pos (by omega)]; simp only [List.cons.injEq, and_true]
      refine ⟨?_, ?_, ?_, ?_, ?_⟩ <;> omega

/-- **C03** (injectivity).  Two valid codes with the same catalogue number are the same code. -/
theorem C03_injective (c c' t t' : CString) (h : ValidCode c) (h' : ValidCode c')
    (ht : NoDigitHead t) (ht' : NoDigitHead t')
    (he : getNoradNumber (c ++ t) = getNoradNumber (c' ++ t')) : c = c' := by
  obtain ⟨n, hn, rfl⟩ := encode_surjective h
  obtain ⟨n', hn', rfl⟩ := encode_surjective h'
  rw [C03_decode_encode n hn t ht, C03_decode_encode n' hn' t' ht'] at he
  simp only [Option.some.injEq] at he
  have : n = n' := by omega
  rw [this]

/-- **C03** (range and encode after decode).  Every valid code decodes to a number in 0..45435423
whose documented code it is. -/
theorem C03_decode_valid (c t : CString) (h : ValidCode c) (ht : NoDigitHead t) :
    ∃ n : Nat, n ≤ 45435423 ∧ getNoradNumber (c ++ t) = some (n : Int) ∧ encodeNorad n = c := by
  obtain ⟨n, hn, rfl⟩ := encode_surjective h
  exact ⟨n, hn, C03_decode_encode n hn t ht, rfl⟩

/-- **C03** (invalid characters).  A code with a character that is neither a blank nor in the
alphabet reads as 0. -/
theorem C03_invalid_zero (c0 c1 c2 c3 c4 : CChar) (t : CString)
    (h : ∃ x ∈ [c0, c1, c2, c3, c4], x ≠ 32 ∧ x ∉ alphabet34) :
    getNoradNumber (c0 :: c1 :: c2 :: c3 :: c4 :: t) = some 0 := by
  have hb : ∀ x : CChar, x ≠ 32 → x ∉ alphabet34 → base34 x = -1 := by
    intro x h32 hx
    simp only [alphabet34, List.mem_cons, not_or, List.not_mem_nil] at hx
    unfold base34
    rw [if_neg h32, if_neg (by omega), if_neg (by omega), if_neg (by omega), if_neg (by omega)]
  obtain ⟨x, hx, h32, hxa⟩ := h
  have hbx := hb x h32 hxa
  simp only [List.mem_cons, List.not_mem_nil, or_false] at hx
  simp only [getNoradNumber, rd, Option.bind_eq_bind, Option.bind_some]
  rcases hx with rfl | rfl | rfl | rfl | rfl <;> rw [hbx] <;> simp

/-- **C03** (blank padding).  A right-justified decimal number in the field is read as such. -/
theorem C03_blank_padded (ds : List Nat) (hd : ∀ d ∈ ds, d ≤ 9) (hne : ds ≠ []) (hl : ds.length ≤ 4)
    (t : CString) (ht : NoDigitHead t) :
    getNoradNumber (List.replicate (5 - ds.length) 32 ++ digitChars ds ++ t)
      = some ((ofDigits 0 ds : Nat) : Int) := by
  have b32 : base34 32 = 0 := by decide
  have bd : ∀ d : Nat, d ≤ 9 → base34 ((48 : Int) + (d : Int)) = (d : Int) := by
    intro d hd
    have := base34_char34 d (by omega)
    rwa [char34_digit d hd] at this
  have hat := atoi_digits ds hd hne (by omega) ht
  have hlt := ofDigits_lt ds hd
  have hpow : 10 ^ ds.length ≤ 10 ^ 4 := Nat.pow_le_pow_right (by omega) hl
  have fin : (do let a ← (some ((ofDigits 0 ds : Nat) : Int) : Option Int)
                 int32 ((0 : Int) * 10000 + a)) = some ((ofDigits 0 ds : Nat) : Int) := by
    simp only [Option.bind_eq_bind, Option.bind_some]
    unfold int32
    rw [if_pos (by unfold inInt; omega)]
    congr 1; omega
  match ds, hl with
  | [a], _ =>
    have ha := hd a (by simp)
    have hat' := hat
    rw [← atoi_spaces 3] at hat'
    simp only [digitChars, List.map_cons, List.map_nil, List.length_cons, List.length_nil,
      List.replicate, List.cons_append, List.nil_append] at hat' ⊢
    simp only [getNoradNumber, rd, Option.bind_eq_bind, Option.bind_some, b32, bd a ha]
    rw [if_neg (by omega), if_neg (by omega)]
    unfold noradOfDigits
    rw [if_neg (by omega), if_neg (by omega)]
    have h9 : ¬ (9 < (a : Int)) := by omega
    simpa [hat', h9] using fin
  | [a, b], _ =>
    have ha := hd a (by simp)
    have hb := hd b (by simp)
    have hat' := hat
    rw [← atoi_spaces 2] at hat'
    simp only [digitChars, List.map_cons, List.map_nil, List.length_cons, List.length_nil,
      List.replicate, List.cons_append, List.nil_append] at hat' ⊢
    simp only [getNoradNumber, rd, Option.bind_eq_bind, Option.bind_some, b32, bd a ha, bd b hb]
    rw [if_neg (by omega), if_neg (by omega), if_neg (by omega)]
    unfold noradOfDigits
    rw [if_neg (by omega), if_neg (by omega), if_neg (by omega)]
    have h9 : ¬ (9 < (a : Int)) := by omega
    have h9' : ¬ (9 < (b : Int)) := by omega
    simpa [hat', h9, h9'] using fin
  | [a, b, c], _ =>
    have ha := hd a (by simp)
    have hb := hd b (by simp)
    have hc := hd c (by simp)
    have hat' := hat
    rw [← atoi_spaces 1] at hat'
    simp only [digitChars, List.map_cons, List.map_nil, List.length_cons, List.length_nil,
      List.replicate, List.cons_append, List.nil_append] at hat' ⊢
    simp only [getNoradNumber, rd, Option.bind_eq_bind, Option.bind_some, b32, bd a ha, bd b hb, bd c hc]
    rw [if_neg (by omega), if_neg (by omega), if_neg (by omega), if_neg (by omega)]
    unfold noradOfDigits
    rw [if_neg (by omega), if_neg (by omega), if_neg (by omega), if_neg (by omega)]
    simpa [hat'] using fin
  | [a, b, c, d], _ =>
    have ha := hd a (by simp)
    have hb := hd b (by simp)
    have hc := hd c (by simp)
    have hdd := hd d (by simp)
    have hat' := hat
    simp only [digitChars, List.map_cons, List.map_nil, List.length_cons, List.length_nil,
      List.replicate, List.cons_append, List.nil_append] at hat' ⊢
    simp only [getNoradNumber, rd, Option.bind_eq_bind, Option.bind_some, b32, bd a ha, bd b hb,
      bd c hc, bd d hdd]
    rw [if_neg (by omega), if_neg (by omega), if_neg (by omega), if_neg (by omega), if_neg (by omega)]
    unfold noradOfDigits
    rw [if_neg (by omega), if_neg (by omega), if_neg (by omega), if_neg (by omega)]
    simpa [hat'] using fin

/-- Non-vacuity and the documented end points of the ranges. -/
example : encodeNorad 25544 = b!"25544" ∧ encodeNorad 100000 = b!"A0000"
    ∧ encodeNorad 339999 = b!"Z9999" ∧ encodeNorad 340000 = b!"0000A"
    ∧ encodeNorad 32412063 = b!"ZZZZZ" ∧ encodeNorad 32412064 = b!"000A0"
    ∧ encodeNorad 41845024 = b!"00A00" ∧ encodeNorad 44619424 = b!"0A000"
    ∧ encodeNorad 45435423 = b!"ZZ999" ∧ NoDigitHead b!"U 98067A" ∧ ValidCode b!"T0027" := by
  refine ⟨by decide, by decide, by decide, by decide, by decide, by decide, by decide, by decide,
    by decide, ?_, by decide, by decide⟩
  intro c hc
  simp at hc; subst hc; decide

/-- **C65** (partial).  With any non-digit classification characters the number read does not depend on
them.  Missing: a digit there (next theorem). -/
theorem C65_classification_partial (c t t' : CString) (h : ValidCode c) (ht : NoDigitHead t)
    (ht' : NoDigitHead t') : getNoradNumber (c ++ t) = getNoradNumber (c ++ t') := by
  obtain ⟨n, hn, rfl⟩ := encode_surjective h
  rw [C03_decode_encode n hn t ht, C03_decode_encode n hn t' ht']

/-- The hypothesis on what follows the field is needed: `atoi( buff + 1)` is not limited to the four
remaining characters of the field.  With a digit in the classification column the number is wrong. -/
theorem C65_classification_digit_violated :
    getNoradNumber b!"255447 98067A" = some 75447 ∧ getNoradNumber b!"25544U 98067A" = some 25544 := by
  decide +kernel

end SatSky.Props
