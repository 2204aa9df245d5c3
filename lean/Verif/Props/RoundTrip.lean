import Verif.Props.ParseCode
import Verif.Spec.TleFormat

/-!
Property C09: a TLE written in the standard layout is read back with every element intact.
-/

namespace SatSky.Props

open SatSky Spec GetEl

set_option linter.unusedSimpArgs false

/-! ### Facts about the writer -/

theorem ofDigits_append (acc : Nat) (a : List Nat) (d : Nat) :
    ofDigits acc (a ++ [d]) = ofDigits acc a * 10 + d := by
  induction a generalizing acc with
  | nil => rfl
  | cons x t ih => exact ih _

theorem dec_val (n : Nat) : ofDigits 0 (decDigits n) = n := by
  induction n using Nat.strongRecOn with
  | _ n ih =>
    unfold decDigits
    by_cases h : n < 10
    · rw [if_pos h]; simp [ofDigits]
    · rw [if_neg h, ofDigits_append, ih _ (by omega)]; omega

theorem dec_le (n : Nat) : ∀ d ∈ decDigits n, d ≤ 9 := by
  induction n using Nat.strongRecOn with
  | _ n ih =>
    unfold decDigits
    by_cases h : n < 10
    · rw [if_pos h]; simp; omega
    · rw [if_neg h]
      intro d hd
      simp only [List.mem_append, List.mem_singleton] at hd
      rcases hd with hd | hd
      · exact ih _ (by omega) d hd
      · omega

theorem dec_ne (n : Nat) : decDigits n ≠ [] := by
  unfold decDigits; split <;> simp

theorem dec_len (w n : Nat) (hw : 1 ≤ w) (h : n < 10 ^ w) : (decDigits n).length ≤ w := by
  induction w generalizing n with
  | zero => omega
  | succ w ih =>
    unfold decDigits
    by_cases h10 : n < 10
    · rw [if_pos h10]; simp
    · rw [if_neg h10]
      have hw0 : 1 ≤ w := by
        cases w with
        | zero => simp at h; omega
        | succ _ => omega
      have := ih (n / 10) hw0 (by
        rw [Nat.pow_succ] at h
        exact Nat.div_lt_of_lt_mul (by rw [Nat.mul_comm]; exact h))
      simp; omega

theorem zero_len (w n : Nat) : (zeroDigits w n).length = w := by
  induction w generalizing n with
  | zero => rfl
  | succ w ih => simp [zeroDigits, ih]

theorem zero_le (w n : Nat) : ∀ d ∈ zeroDigits w n, d ≤ 9 := by
  induction w generalizing n with
  | zero => simp [zeroDigits]
  | succ w ih =>
    intro d hd
    simp only [zeroDigits, List.mem_append, List.mem_singleton] at hd
    rcases hd with hd | hd
    · exact ih _ d hd
    · omega

theorem zero_val (w n : Nat) (h : n < 10 ^ w) : ofDigits 0 (zeroDigits w n) = n := by
  induction w generalizing n with
  | zero => simp at h; subst h; rfl
  | succ w ih =>
    have h1 : n / 10 < 10 ^ w := by
      rw [Nat.pow_succ] at h
      exact Nat.div_lt_of_lt_mul (by rw [Nat.mul_comm]; exact h)
    rw [zeroDigits, ofDigits_append, ih _ h1]; omega

theorem zero_ne (w n : Nat) : zeroDigits (w + 1) n ≠ [] := by simp [zeroDigits]

theorem zeroPad_len (w n : Nat) : (zeroPad w n).length = w := by
  simp [zeroPad, digitChars, zero_len]

theorem blankPad_len (w n : Nat) (hw : 1 ≤ w) (h : n < 10 ^ w) : (blankPad w n).length = w := by
  have := dec_len w n hw h
  simp [blankPad, digitChars]; omega

theorem digitChars_print (ds : List Nat) (h : ∀ d ∈ ds, d ≤ 9) : ∀ c ∈ digitChars ds, Printable c := by
  intro c hc
  simp only [digitChars, List.mem_map] at hc
  obtain ⟨d, hd, rfl⟩ := hc
  have := h d hd
  unfold Printable; omega

theorem zeroPad_print (w n : Nat) : ∀ c ∈ zeroPad w n, Printable c :=
  digitChars_print _ (zero_le w n)

theorem blankPad_print (w n : Nat) : ∀ c ∈ blankPad w n, Printable c := by
  intro c hc
  simp only [blankPad, List.mem_append] at hc
  rcases hc with hc | hc
  · rw [(List.mem_replicate.mp hc).2]; decide
  · exact digitChars_print _ (dec_le n) c hc

theorem encode_len (n : Nat) : (encodeNorad n).length = 5 := by
  unfold encodeNorad encodeDigits
  repeat' split
  all_goals simp

theorem char34_print (k : Nat) (h : k < 34) : Printable (char34 k) := by
  have : ∀ k, k < 34 → Printable (char34 k) := by decide
  exact this k h

theorem encode_print (n : Nat) (hn : n ≤ 45435423) : ∀ c ∈ encodeNorad n, Printable c := by
  have : ∀ d ∈ encodeDigits n, d < 34 := by
    unfold encodeDigits
    repeat' split
    all_goals
      intro d hd
      simp only [List.mem_cons, List.not_mem_nil, or_false] at hd
      omega
  intro c hc
  unfold encodeNorad at hc
  simp only [List.mem_map] at hc
  obtain ⟨d, hd, rfl⟩ := hc
  exact char34_print d (this d hd)

theorem sci_len (v : SciValue) : v.text.length = 8 := by simp [SciValue.text, zeroPad_len]

theorem angle_len (a : Nat × Nat) (h : a.1 < 1000) : (angleText a).length = 8 := by
  simp [angleText, zeroPad_len, blankPad_len 3 a.1 (by omega) (by omega)]

theorem sci_print (v : SciValue) (h : v.expo ≤ 9) : ∀ c ∈ v.text, Printable c := by
  intro c hc
  simp only [SciValue.text, List.mem_cons, List.mem_append, List.not_mem_nil, or_false] at hc
  rcases hc with rfl | hc | rfl | rfl
  · split <;> decide
  · exact zeroPad_print _ _ c hc
  · split <;> decide
  · unfold Printable; omega

theorem angle_print (a : Nat × Nat) : ∀ c ∈ angleText a, Printable c := by
  intro c hc
  simp only [angleText, List.mem_cons, List.mem_append] at hc
  rcases hc with hc | rfl | hc
  · exact blankPad_print _ _ c hc
  · decide
  · exact zeroPad_print _ _ c hc

/-! ### Reading a concatenation of segments -/

theorem flatten_drop (L : List CString) (k n : Nat) (h : (L.take k).flatten.length = n) (t : CString) :
    (L.flatten ++ t).drop n = (L.drop k).flatten ++ t := by
  have e : L.flatten = (L.take k).flatten ++ (L.drop k).flatten := by
    rw [← List.flatten_append, List.take_append_drop]
  rw [e, List.append_assoc, List.drop_left' h]

theorem seg_ptr (L : List CString) (t : CString) (k n : Nat) (h : (L.take k).flatten.length = n) :
    ptrAdd (L.flatten ++ t) n = some ((L.drop k).flatten ++ t) := by
  unfold ptrAdd
  rw [if_pos, flatten_drop L k n h]
  have e : L.flatten = (L.take k).flatten ++ (L.drop k).flatten := by
    rw [← List.flatten_append, List.take_append_drop]
  rw [e]; simp only [List.length_append]; omega

theorem seg_rd (L : List CString) (t : CString) (k n : Nat) (h : (L.take k).flatten.length = n) :
    rd (L.flatten ++ t) n = rd ((L.drop k).flatten ++ t) 0 := by
  rw [← flatten_drop L k n h t, rd_drop, Nat.add_zero]
  have e : L.flatten = (L.take k).flatten ++ (L.drop k).flatten := by
    rw [← List.flatten_append, List.take_append_drop]
  rw [e]; simp only [List.length_append]; omega

theorem seg_sub (L : List CString) (t : CString) (k j n m : Nat) (h : (L.take k).flatten.length = n)
    (h2 : ((L.drop k).take j).flatten.length = m) :
    sub (L.flatten ++ t) n m = some (((L.drop k).take j).flatten) := by
  unfold sub
  have e : L.flatten = (L.take k).flatten ++ (L.drop k).flatten := by
    rw [← List.flatten_append, List.take_append_drop]
  have e2 : (L.drop k).flatten = ((L.drop k).take j).flatten ++ ((L.drop k).drop j).flatten := by
    rw [← List.flatten_append, List.take_append_drop]
  rw [if_pos, flatten_drop L k n h, e2, List.append_assoc, List.take_left' h2]
  rw [e, e2]; simp only [List.length_append]; omega

theorem nodigit_cons (c : CChar) (t : CString) (h : ¬ Digit c) : NoDigitHead (c :: t) := by
  intro x hx; simp at hx; subst hx; exact h

theorem nodigit_nil : NoDigitHead [] := by intro x hx; simp at hx

/-- A padded number read by `atoi`. -/
theorem atoi_blankPad (w n : Nat) (hw : 1 ≤ w ∧ w ≤ 8) (h : n < 10 ^ w) (t : CString) (ht : NoDigitHead t) :
    atoi (blankPad w n ++ t) = some (n : Int) := by
  unfold blankPad
  have hl := dec_len w n hw.1 h
  rw [List.append_assoc, C06_integer_field _ _ (dec_le n) (dec_ne n) (by omega) t ht, dec_val]

theorem atoi_zeroPad (w n : Nat) (hw : w + 1 ≤ 8) (h : n < 10 ^ (w + 1)) (t : CString) (ht : NoDigitHead t) :
    atoi (zeroPad (w + 1) n ++ t) = some (n : Int) := by
  have := C06_integer_field 0 (zeroDigits (w + 1) n) (zero_le _ _) (zero_ne _ _)
    (by rw [zero_len]; exact hw) t ht
  rw [zero_val _ _ h] at this
  exact this

theorem getAngle_text (a : Nat × Nat) (h : a.1 < 1000 ∧ a.2 < 10 ^ 4) (t : CString) :
    getAngle (angleText a ++ 32 :: t) = some (((a.1 * 10000 + a.2 : Nat)) : Int) := by
  have := C06_angle (3 - (decDigits a.1).length) (decDigits a.1) (zeroDigits 4 a.2) (dec_le _) (zero_le _ _)
    (by have := dec_len 3 a.1 (by omega) (by omega); rw [zero_len]; omega) t
  rw [dec_val, zero_val 4 _ h.2, zero_len] at this
  have e : angleText a ++ 32 :: t = List.replicate (3 - (decDigits a.1).length) 32 ++ digitChars (decDigits a.1)
      ++ [46] ++ digitChars (zeroDigits 4 a.2) ++ 32 :: t := by
    simp [angleText, blankPad, zeroPad]
  rw [e, this]

/-- The value denoted by an sDDDDDtE field. -/
def SciMeans (v : SciValue) (d : Dec) : Prop :=
  (v.mant = 0 → d.mant = 0) ∧
  (v.mant ≠ 0 → d.mant = (if v.neg then -1 else 1) * (v.mant : Int) ∧
    d.expo = -5 + (if v.expNeg then -(v.expo : Int) else (v.expo : Int)))

theorem sci_text (v : SciValue) (h : v.mant < 10 ^ 5 ∧ v.expo ≤ 9) (t : CString) :
    ∃ d, sci (v.text ++ t) = some d ∧ SciMeans v d := by
  obtain ⟨d, hd, h1, h2⟩ := C07_sci (if v.neg then 45 else 32) (if v.expNeg then 45 else 43)
    (zeroDigits 5 v.mant) v.expo t (by split <;> simp) (zero_le _ _) (zero_len _ _)
    (by unfold Digit; split <;> omega) h.2
  rw [zero_val 5 _ h.1] at h1 h2
  refine ⟨d, ?_, h1, ?_⟩
  · rw [← hd]; simp [SciValue.text, zeroPad]
  · intro hm
    obtain ⟨a, b⟩ := h2 hm
    refine ⟨?_, ?_⟩
    · rw [a]; cases v.neg <;> simp
    · rw [b]; cases v.expNeg <;> simp

theorem line_accepted (s e : CString) (first : CChar) (hlen : s.length = 68) (h0 : s[0]? = some first)
    (hf : first = 49 ∨ first = 50) (he : IsCStr e) (hend : ∀ c ∈ e.head?, c ≤ 32)
    (h1 : s[1]? = some 32) (hp : ∀ c ∈ s, Printable c) : tleChecksum (withCheck s ++ e) = some 0 := by
  have hd : dataSum (withCheck s ++ e) = dataSum s := by
    unfold dataSum withCheck
    rw [List.append_assoc, List.take_append_of_le_length (by omega)]
  have hcs : IsCStr (withCheck s ++ e) := by
    intro c hc
    unfold withCheck at hc
    simp only [List.mem_append, List.mem_singleton] at hc
    rcases hc with (hc | rfl) | hc
    · have := hp c hc; unfold Printable at this; omega
    · omega
    · exact he c hc
  rw [C01_accept_iff _ hcs]
  unfold withCheck
  rw [List.append_assoc]
  refine ⟨⟨?_, ?_⟩, ⟨?_, ?_⟩, ?_, ?_⟩
  · rw [List.getElem?_append_left (by omega), h0]
    rcases hf with rfl | rfl <;> simp
  · rw [List.getElem?_append_left (by omega), h1]
  · simp; omega
  · rw [List.take_append_of_le_length (by omega)]
    intro c hc; exact hp c (List.mem_of_mem_take hc)
  · refine ⟨48 + dataSum s % 10, ?_, ?_⟩
    · rw [List.getElem?_append_right (by omega), hlen]; rfl
    · unfold withCheck at hd
      rw [List.append_assoc] at hd
      rw [hd]; omega
  · intro c hc
    rw [List.getElem?_append_right (by omega), hlen] at hc
    apply hend
    cases e with
    | nil => simp at hc
    | cons x t => simpa using hc

section
variable (r : Elements) (hv : r.Valid)

/-- All the columns the reader looks at in line 1, with their distances from the segments. -/
theorem len1 : ∀ k n, (k, n) ∈ [(1, 2), (2, 7), (4, 9), (6, 18), (7, 20), (9, 24), (11, 33), (13, 35),
    (15, 44), (17, 53), (19, 62), (21, 64), (22, 68)] →
    r.Valid → (r.segs1.take k).flatten.length = n := by
  intro k n h hv
  have e1 := encode_len r.norad
  have e2 := hv.desig.1
  have e3 := blankPad_len 4 r.bulletin (by omega) hv.bulletin
  simp only [List.mem_cons, Prod.mk.injEq, List.not_mem_nil, or_false] at h
  rcases h with ⟨rfl, rfl⟩ | ⟨rfl, rfl⟩ | ⟨rfl, rfl⟩ | ⟨rfl, rfl⟩ | ⟨rfl, rfl⟩ | ⟨rfl, rfl⟩ | ⟨rfl, rfl⟩
    | ⟨rfl, rfl⟩ | ⟨rfl, rfl⟩ | ⟨rfl, rfl⟩ | ⟨rfl, rfl⟩ | ⟨rfl, rfl⟩ | ⟨rfl, rfl⟩ <;>
  simp [Elements.segs1, e1, e2, e3, zeroPad_len, sci_len]

theorem len2 : ∀ k n, (k, n) ∈ [(1, 2), (3, 8), (5, 17), (7, 26), (9, 34), (11, 43), (12, 51), (16, 63),
    (17, 68)] → r.Valid → (r.segs2.take k).flatten.length = n := by
  intro k n h hv
  have e1 := encode_len r.norad
  have e3 := blankPad_len 2 r.motion.1 (by omega) hv.motion.1
  have e4 := blankPad_len 5 r.rev (by omega) hv.rev
  have e5 := angle_len _ hv.incl.1
  have e6 := angle_len _ hv.node.1
  have e7 := angle_len _ hv.argp.1
  have e8 := angle_len _ hv.anomaly.1
  simp only [List.mem_cons, Prod.mk.injEq, List.not_mem_nil, or_false] at h
  rcases h with ⟨rfl, rfl⟩ | ⟨rfl, rfl⟩ | ⟨rfl, rfl⟩ | ⟨rfl, rfl⟩ | ⟨rfl, rfl⟩ | ⟨rfl, rfl⟩ | ⟨rfl, rfl⟩
    | ⟨rfl, rfl⟩ | ⟨rfl, rfl⟩ <;>
  simp [Elements.segs2, e1, e3, e4, e5, e6, e7, e8, zeroPad_len, sci_len]

end

theorem segs1_print (r : Elements) (hv : r.Valid) : ∀ c ∈ r.segs1.flatten, Printable c := by
  intro c hc
  rw [List.mem_flatten] at hc
  obtain ⟨l, hl, hc⟩ := hc
  simp only [Elements.segs1, List.mem_cons, List.not_mem_nil, or_false] at hl
  rcases hl with rfl | rfl | rfl | rfl | rfl | rfl | rfl | rfl | rfl | rfl | rfl | rfl | rfl | rfl | rfl
    | rfl | rfl | rfl | rfl | rfl | rfl | rfl
  all_goals
    first
      | exact encode_print _ hv.norad c hc
      | exact hv.desig.2 c hc
      | exact zeroPad_print _ _ c hc
      | exact blankPad_print _ _ c hc
      | exact sci_print _ hv.nddot.2 c hc
      | exact sci_print _ hv.bstar.2 c hc
      | (simp only [List.mem_cons, List.not_mem_nil, or_false] at hc
         first
           | (subst hc; first | exact hv.cls.1 | exact hv.eph.1 | decide | (split <;> decide))
           | (rcases hc with rfl | rfl <;> decide))

theorem segs2_print (r : Elements) (hv : r.Valid) : ∀ c ∈ r.segs2.flatten, Printable c := by
  intro c hc
  rw [List.mem_flatten] at hc
  obtain ⟨l, hl, hc⟩ := hc
  simp only [Elements.segs2, List.mem_cons, List.not_mem_nil, or_false] at hl
  rcases hl with rfl | rfl | rfl | rfl | rfl | rfl | rfl | rfl | rfl | rfl | rfl | rfl | rfl | rfl | rfl
    | rfl | rfl
  all_goals
    first
      | exact encode_print _ hv.norad c hc
      | exact zeroPad_print _ _ c hc
      | exact blankPad_print _ _ c hc
      | exact angle_print _ c hc
      | (simp only [List.mem_cons, List.not_mem_nil, or_false] at hc
         first
           | (subst hc; decide)
           | (rcases hc with rfl | rfl <;> decide))

/-- **C09**.  Every valid element set, written in the standard layout with its check digits and
followed by nothing or by a line end (any text starting with a blank or control character), is
accepted by `parse_elements` (return code 0) and every element comes back. -/
theorem C09_roundtrip (r : Elements) (hv : r.Valid) (e1 e2 : CString) (hs1 : IsCStr e1) (hs2 : IsCStr e2)
    (he1 : ∀ c ∈ e1.head?, c ≤ 32) (he2 : ∀ c ∈ e2.head?, c ≤ 32) :
    ∃ t : Tle, parseElements (r.line1 ++ e1) (r.line2 ++ e2) = some (0, some t) ∧
      t.norad = r.norad ∧ t.classification = r.classification ∧ t.intlDesig = r.desig ∧
      2 * t.epochDay + (2 * 2451545 + 1 - 2 * 36525 - 2) = twiceJd (fullYear r.yy) r.day ∧
      t.epochFrac = r.dayFrac ∧
      t.xndt2o = (if r.ndotNeg then -(r.ndot : Int) else r.ndot) ∧
      SciMeans r.nddot t.xndd6o ∧ SciMeans r.bstar t.bstar ∧
      t.ephType = r.ephType ∧ t.bulletin = r.bulletin ∧
      t.xincl = r.incl.1 * 10000 + r.incl.2 ∧ t.xnodeo = r.node.1 * 10000 + r.node.2 ∧
      t.omegao = r.argp.1 * 10000 + r.argp.2 ∧ t.xmo = r.anomaly.1 * 10000 + r.anomaly.2 ∧
      t.eo = r.ecc ∧ t.xno = ((r.motion.1 : Int), (r.motion.2 : Int)) ∧ t.revolution = r.rev := by
  have L1 : r.segs1.flatten.length = 68 := len1 r 22 68 (by simp) hv
  have L2 : r.segs2.flatten.length = 68 := len2 r 17 68 (by simp) hv
  have P1 := segs1_print r hv
  have P2 := segs2_print r hv
  have c1 : tleChecksum (r.line1 ++ e1) = some 0 :=
    line_accepted _ e1 49 L1 rfl (Or.inl rfl) hs1 he1 rfl P1
  have c2 : tleChecksum (r.line2 ++ e2) = some 0 :=
    line_accepted _ e2 50 L2 rfl (Or.inr rfl) hs2 he2 rfl P2
  have chk : parseCheck (r.line1 ++ e1) (r.line2 ++ e2) = some (0, 0) := by
    unfold parseCheck
    have a : rd (r.line1 ++ e1) 0 = some 49 := rfl
    have b : rd (r.line2 ++ e2) 0 = some 50 := rfl
    simp [a, b, c1, c2]
  -- columns
  let t1 : CString := [48 + dataSum r.segs1.flatten % 10] ++ e1
  let t2 : CString := [48 + dataSum r.segs2.flatten % 10] ++ e2
  have E1 : (r.line1 ++ e1) = r.segs1.flatten ++ t1 := List.append_assoc _ _ _
  have E2 : (r.line2 ++ e2) = r.segs2.flatten ++ t2 := List.append_assoc _ _ _
  obtain ⟨dn, hdn, mdn⟩ := sci_text r.nddot hv.nddot
    ([32] ++ r.bstar.text ++ [32] ++ [r.ephType] ++ [32] ++ blankPad 4 r.bulletin ++ t1)
  obtain ⟨db, hdb, mdb⟩ := sci_text r.bstar hv.bstar ([32] ++ [r.ephType] ++ [32] ++ blankPad 4 r.bulletin ++ t1)
  have nd32 : ¬ Digit (32 : Int) := by decide
  have nd46 : ¬ Digit (46 : Int) := by decide
  have hy18 : ∀ t, rd (zeroPad 2 r.yy ++ t) 0 = some (48 + ((r.yy / 10 : Nat) : Int)) := by
    intro t
    have := hv.yy
    have e : r.yy / 10 % 10 = r.yy / 10 := by omega
    simp [zeroPad, zeroDigits, digitChars, rd, e]
  have hy19 : ∀ t, rd (zeroPad 2 r.yy ++ t) 1 = some (48 + ((r.yy % 10 : Nat) : Int)) := by
    intro t
    simp [zeroPad, zeroDigits, digitChars, rd]
  have k18 : rd (r.line1 ++ e1) 18 = some (48 + ((r.yy / 10 : Nat) : Int)) := by
    rw [E1, seg_rd _ _ 6 18 (len1 r 6 18 (by simp) hv)]
    simp only [Elements.segs1, List.drop_succ_cons, List.drop_zero, List.flatten_cons, List.append_assoc]
    exact hy18 _
  have k19 : rd (r.line1 ++ e1) 19 = some (48 + ((r.yy % 10 : Nat) : Int)) := by
    have h := flatten_drop r.segs1 6 18 (len1 r 6 18 (by simp) hv) t1
    have h' : rd (r.segs1.flatten ++ t1) 19 = rd ((r.segs1.flatten ++ t1).drop 18) 1 := by
      rw [rd_drop]; simp [L1]; omega
    rw [E1, h', h]
    simp only [Elements.segs1, List.drop_succ_cons, List.drop_zero, List.flatten_cons, List.append_assoc]
    exact hy19 _
  have k20 : (do let p ← ptrAdd (r.line1 ++ e1) 20; getEightPlaces p) = some ((r.day : Int), (r.dayFrac : Int)) := by
    rw [E1, seg_ptr _ _ 7 20 (len1 r 7 20 (by simp) hv)]
    simp only [Elements.segs1, List.drop_succ_cons, List.drop_zero, List.flatten_cons, List.append_assoc,
      Option.bind_eq_bind, Option.bind_some]
    have := C06_eight_places 0 (zeroDigits 3 r.day) (zeroDigits 8 r.dayFrac) (zero_le _ _) (zero_le _ _)
      (zero_ne _ _) (zero_ne _ _) (by rw [zero_len]) (by rw [zero_len]; omega)
    rw [zero_val 3 _ hv.day, zero_val 8 _ hv.dayFrac] at this
    exact this _ (nodigit_cons _ _ nd32)
  have kn : (do let p ← ptrAdd (r.line1 ++ e1) 2; getNoradNumber p) = some (r.norad : Int) := by
    rw [E1, seg_ptr _ _ 1 2 (len1 r 1 2 (by simp) hv)]
    simp only [Elements.segs1, List.drop_succ_cons, List.drop_zero, List.flatten_cons, List.append_assoc,
      Option.bind_eq_bind, Option.bind_some]
    exact C03_decode_encode _ hv.norad _ (nodigit_cons _ _ hv.cls.2)
  have kb : (do let tb ← sub (r.line1 ++ e1) 64 4; atoi tb) = some (r.bulletin : Int) := by
    rw [E1, seg_sub _ _ 21 1 64 4 (len1 r 21 64 (by simp) hv)
      (by simp [Elements.segs1, blankPad_len 4 r.bulletin (by omega) hv.bulletin])]
    simp only [Elements.segs1, List.drop_succ_cons, List.drop_zero, List.flatten_cons, List.append_assoc,
      Option.bind_eq_bind, Option.bind_some, List.take_succ_cons, List.take_zero, List.flatten_nil]
    exact atoi_blankPad 4 _ (by omega) hv.bulletin _ nodigit_nil
  have kc : rd (r.line1 ++ e1) 7 = some r.classification := by
    rw [E1, seg_rd _ _ 2 7 (len1 r 2 7 (by simp) hv)]; rfl
  have kd : sub (r.line1 ++ e1) 9 8 = some r.desig := by
    rw [E1, seg_sub _ _ 4 1 9 8 (len1 r 4 9 (by simp) hv) (by simp [Elements.segs1, hv.desig.1])]
    simp [Elements.segs1]
  have kr : (do let tb ← sub (r.line2 ++ e2) 63 5; atoi tb) = some (r.rev : Int) := by
    rw [E2, seg_sub _ _ 16 1 63 5 (len2 r 16 63 (by simp) hv)
      (by simp [Elements.segs2, blankPad_len 5 r.rev (by omega) hv.rev])]
    simp only [Elements.segs2, List.drop_succ_cons, List.drop_zero, List.flatten_cons, List.append_assoc,
      Option.bind_eq_bind, Option.bind_some, List.take_succ_cons, List.take_zero, List.flatten_nil]
    exact atoi_blankPad 5 _ (by omega) hv.rev _ nodigit_nil
  have ke : rd (r.line1 ++ e1) 62 = some r.ephType := by
    rw [E1, seg_rd _ _ 19 62 (len1 r 19 62 (by simp) hv)]; rfl
  have kma : (do let p ← ptrAdd (r.line2 ++ e2) 43; getAngle p) = some ((r.anomaly.1 * 10000 + r.anomaly.2 : Nat) : Int) := by
    rw [E2, seg_ptr _ _ 11 43 (len2 r 11 43 (by simp) hv)]
    simp only [Elements.segs2, List.drop_succ_cons, List.drop_zero, List.flatten_cons, List.append_assoc,
      Option.bind_eq_bind, Option.bind_some]
    exact getAngle_text _ hv.anomaly _
  have kno : (do let p ← ptrAdd (r.line2 ++ e2) 17; getAngle p) = some ((r.node.1 * 10000 + r.node.2 : Nat) : Int) := by
    rw [E2, seg_ptr _ _ 5 17 (len2 r 5 17 (by simp) hv)]
    simp only [Elements.segs2, List.drop_succ_cons, List.drop_zero, List.flatten_cons, List.append_assoc,
      Option.bind_eq_bind, Option.bind_some]
    exact getAngle_text _ hv.node _
  have kar : (do let p ← ptrAdd (r.line2 ++ e2) 34; getAngle p) = some ((r.argp.1 * 10000 + r.argp.2 : Nat) : Int) := by
    rw [E2, seg_ptr _ _ 9 34 (len2 r 9 34 (by simp) hv)]
    simp only [Elements.segs2, List.drop_succ_cons, List.drop_zero, List.flatten_cons, List.append_assoc,
      Option.bind_eq_bind, Option.bind_some]
    exact getAngle_text _ hv.argp _
  have kin : (do let p ← ptrAdd (r.line2 ++ e2) 8; getAngle p) = some ((r.incl.1 * 10000 + r.incl.2 : Nat) : Int) := by
    rw [E2, seg_ptr _ _ 3 8 (len2 r 3 8 (by simp) hv)]
    simp only [Elements.segs2, List.drop_succ_cons, List.drop_zero, List.flatten_cons, List.append_assoc,
      Option.bind_eq_bind, Option.bind_some]
    exact getAngle_text _ hv.incl _
  have kec : (do let p ← ptrAdd (r.line2 ++ e2) 26; atoi p) = some (r.ecc : Int) := by
    rw [E2, seg_ptr _ _ 7 26 (len2 r 7 26 (by simp) hv)]
    simp only [Elements.segs2, List.drop_succ_cons, List.drop_zero, List.flatten_cons, List.append_assoc,
      Option.bind_eq_bind, Option.bind_some]
    exact atoi_zeroPad 6 _ (by omega) hv.ecc _ (nodigit_cons _ _ nd32)
  have kmo : (do let tb ← sub (r.line2 ++ e2) 51 12; getEightPlaces tb) = some ((r.motion.1 : Int), (r.motion.2 : Int)) := by
    rw [E2, seg_sub _ _ 12 4 51 12 (len2 r 12 51 (by simp) hv)
      (by simp [Elements.segs2, blankPad_len 2 r.motion.1 (by omega) hv.motion.1, zeroPad_len])]
    simp only [Elements.segs2, List.drop_succ_cons, List.drop_zero, List.flatten_cons, List.append_assoc,
      Option.bind_eq_bind, Option.bind_some, List.take_succ_cons, List.take_zero, List.flatten_nil]
    have hl := dec_len 2 r.motion.1 (by omega) hv.motion.1
    have := C06_eight_places (1 + (2 - (decDigits r.motion.1).length)) (decDigits r.motion.1)
      (zeroDigits 8 r.motion.2) (dec_le _) (zero_le _ _) (dec_ne _) (zero_ne _ _) (by omega)
      (by rw [zero_len]; omega) [] nodigit_nil
    rw [dec_val, zero_val 8 _ hv.motion.2] at this
    rw [← this]
    congr 1
    rw [Nat.add_comm 1, List.replicate_succ]
    simp [blankPad, zeroPad]
  have knd : (do let p ← ptrAdd (r.line1 ++ e1) 35; atoi p) = some (r.ndot : Int) := by
    rw [E1, seg_ptr _ _ 13 35 (len1 r 13 35 (by simp) hv)]
    simp only [Elements.segs1, List.drop_succ_cons, List.drop_zero, List.flatten_cons, List.append_assoc,
      Option.bind_eq_bind, Option.bind_some]
    exact atoi_zeroPad 7 _ (by omega) hv.ndot _ (nodigit_cons _ _ nd32)
  have k33 : rd (r.line1 ++ e1) 33 = some (if r.ndotNeg then 45 else 32) := by
    rw [E1, seg_rd _ _ 11 33 (len1 r 11 33 (by simp) hv)]; rfl
  have k44 : (do let p ← ptrAdd (r.line1 ++ e1) 44; sci p) = some dn := by
    rw [E1, seg_ptr _ _ 15 44 (len1 r 15 44 (by simp) hv)]
    rw [← hdn]
    simp [Elements.segs1]
  have k53 : (do let p ← ptrAdd (r.line1 ++ e1) 53; sci p) = some db := by
    rw [E1, seg_ptr _ _ 17 53 (len1 r 17 53 (by simp) hv)]
    rw [← hdb]
    simp [Elements.segs1]
  simp only [Option.bind_eq_bind, Option.bind_eq_some_iff] at k20 kn kb kr kma kno kar kin kec kmo knd k44 k53
  obtain ⟨p20, q20, k20⟩ := k20
  obtain ⟨pn, qn, kn⟩ := kn
  obtain ⟨pb, qb, kb⟩ := kb
  obtain ⟨pr, qr, kr⟩ := kr
  obtain ⟨pma, qma, kma⟩ := kma
  obtain ⟨pno, qno, kno⟩ := kno
  obtain ⟨par, qar, kar⟩ := kar
  obtain ⟨pin, qin, kin⟩ := kin
  obtain ⟨pec, qec, kec⟩ := kec
  obtain ⟨pmo, qmo, kmo⟩ := kmo
  obtain ⟨pnd, qnd, knd⟩ := knd
  obtain ⟨p44, q44, k44⟩ := k44
  obtain ⟨p53, q53, k53⟩ := k53
  have heph : r.ephType ≠ 72 := hv.eph.2
  have hfields : ∃ t, parseFields (r.line1 ++ e1) (r.line2 ++ e2) = some t ∧ t =
      { epochDay := (r.day : Int) + yearDays (epochYear (48 + ((r.yy / 10 : Nat) : Int)) (48 + ((r.yy % 10 : Nat) : Int))),
        epochFrac := r.dayFrac, norad := r.norad, bulletin := r.bulletin, classification := r.classification,
        intlDesig := r.desig, revolution := r.rev, ephType := r.ephType,
        xmo := ((r.anomaly.1 * 10000 + r.anomaly.2 : Nat) : Int),
        xnodeo := ((r.node.1 * 10000 + r.node.2 : Nat) : Int),
        omegao := ((r.argp.1 * 10000 + r.argp.2 : Nat) : Int),
        xincl := ((r.incl.1 * 10000 + r.incl.2 : Nat) : Int),
        eo := r.ecc, xno := ((r.motion.1 : Int), (r.motion.2 : Int)),
        xndt2o := (if (if r.ndotNeg then (45 : Int) else 32) = 45 then -(r.ndot : Int) else r.ndot),
        xndd6o := dn, bstar := db } := by
    refine ⟨_, ?_, rfl⟩
    unfold parseFields
    simp only [k18, k19, q20, k20, qn, kn, qb, kb, kc, kd, qr, kr, ke, qma, kma, qno, kno, qar, kar, qin, kin,
      qec, kec, qmo, kmo, qnd, knd, k33, q44, k44, q53, k53, heph, Option.bind_eq_bind, Option.bind_some,
      if_false]
    rfl
  obtain ⟨t, ht, hte⟩ := hfields
  refine ⟨t, ?_, ?_⟩
  · unfold parseElements
    have : t.ephType ≠ 72 := by rw [hte]; exact heph
    simp [chk, ht, this]
  · have hy := hv.yy
    have ep := C05_epoch_day (r.yy / 10) (r.yy % 10) r.day (by omega) (by omega)
    have e10 : 10 * (r.yy / 10) + r.yy % 10 = r.yy := by omega
    rw [e10] at ep
    have q : ∀ a : Nat × Nat, ((a.1 * 10000 + a.2 : Nat) : Int) = (a.1 : Int) * 10000 + (a.2 : Int) := by
      intro a; omega
    subst hte
    refine ⟨rfl, rfl, rfl, ep, rfl, ?_, mdn, mdb, rfl, rfl, ?_, ?_, ?_, ?_, rfl, rfl, rfl⟩
    · cases hx : r.ndotNeg
      · rw [if_neg (by simp)]; simp only [hx]; rw [if_neg (by decide)]
      · rw [if_pos rfl]; simp only [hx]
    all_goals exact q _

/-- A concrete element set satisfying the hypotheses of C09 (ISS-like), and its text. -/
def issElements : Elements :=
  { norad := 25544, classification := 85, desig := b!"98067A  ", yy := 8, day := 264, dayFrac := 51782528,
    ndotNeg := true, ndot := 2182, nddot := ⟨false, 0, true, 0⟩, bstar := ⟨true, 11606, true, 4⟩,
    ephType := 48, bulletin := 292, incl := (51, 6416), node := (247, 4627), argp := (130, 5360),
    anomaly := (325, 288), ecc := 6703, motion := (15, 72125391), rev := 56353 }

example : issElements.Valid where
  norad := by decide
  cls := by decide
  desig := by decide
  yy := by decide
  day := by decide
  dayFrac := by decide
  ndot := by decide
  nddot := by decide
  bstar := by decide
  eph := by decide
  bulletin := by decide
  incl := by decide
  node := by decide
  argp := by decide
  anomaly := by decide
  ecc := by decide
  motion := by decide
  rev := by decide

/-- The writer produces the familiar text. -/
example : issElements.line1 = b!"1 25544U 98067A   08264.51782528 -.00002182  00000-0 -11606-4 0  2927"
    ∧ issElements.line2 = b!"2 25544  51.6416 247.4627 0006703 130.5360 325.0288 15.72125391563537" := by
  constructor <;> decide +kernel

end SatSky.Props

namespace SatSky.Props

open SatSky Spec GetEl

/-- **C64** (partial).  Reading a standard-layout pair never leaves the lines and never overflows. -/
theorem C64_standard_layout_safe_partial (r : Elements) (hv : r.Valid) (e1 e2 : CString) (hs1 : IsCStr e1)
    (hs2 : IsCStr e2) (he1 : ∀ c ∈ e1.head?, c ≤ 32) (he2 : ∀ c ∈ e2.head?, c ≤ 32) :
    parseElements (r.line1 ++ e1) (r.line2 ++ e2) ≠ none := by
  obtain ⟨t, h, _⟩ := C09_roundtrip r hv e1 e2 hs1 hs2 he1 he2
  rw [h]; simp

/-- The ISS line 1 with the exponent digit of bstar blanked out and a correct check digit. -/
def blankExponent1 : CString := withCheck ((issElements.line1.take 68).set 60 32)

/-- The ISS line 2 with the blank after the mean anomaly replaced by a digit, check digit correct. -/
def runOn2 : CString := withCheck ((issElements.line2.take 68).set 51 49)

/-- **C64** fails in full: both lines pass `tle_checksum`, yet reading the exponential field runs
away (`while( exponent--)` from -16, `get_el.c` 60-66). -/
theorem C64_bad_exponent_violated :
    tleChecksum blankExponent1 = some 0 ∧ tleChecksum issElements.line2 = some 0 ∧
      parseElements blankExponent1 issElements.line2 = none := by decide +kernel

/-- **C64** fails in full: both lines pass `tle_checksum`, yet `get_angle` goes on past the end of the
angle (it stops only at a blank) and overflows its `int`. -/
theorem C64_angle_runs_on_violated :
    tleChecksum issElements.line1 = some 0 ∧ tleChecksum runOn2 = some 0 ∧
      parseElements issElements.line1 runOn2 = none := by decide +kernel

end SatSky.Props
