import Verif.Model.SkyLoop
import Verif.Spec.Records
import Verif.Lemmas.CStrLemmas

/-! Lemmas about the text handling of the reading loop. -/

namespace SatSky.Sky

open SatSky Spec

/-! ### `fgets` -/

theorem takeLine_full (t : CString) (h : 10 ∉ t) (n : Nat) (hn : t.length < n) (rest : CString) :
    takeLine n (t ++ 10 :: rest) = (t ++ [10], rest) := by
  induction t generalizing n with
  | nil => cases n with
    | zero => simp at hn
    | succ n => simp [takeLine]
  | cons c t ih =>
    cases n with
    | zero => simp at hn
    | succ n =>
      simp only [List.mem_cons, not_or] at h
      have := ih h.2 n (by simpa using hn)
      simp only [List.cons_append, takeLine, if_neg (Ne.symm h.1), this]

theorem takeLine_open (t : CString) (h : 10 ∉ t) (n : Nat) (hn : t.length ≤ n) :
    takeLine n t = (t, []) := by
  induction t generalizing n with
  | nil => cases n <;> rfl
  | cons c t ih =>
    cases n with
    | zero => simp at hn
    | succ n =>
      simp only [List.mem_cons, not_or] at h
      simp only [takeLine, if_neg (Ne.symm h.1), ih h.2 n (by simpa using hn)]

theorem linesGo_lines (ls : List CString) (k : Nat)
    (h1 : ∀ l ∈ ls.dropLast, FullLine l) (h2 : ∀ l ∈ ls.getLast?, LastLine l)
    (hk : ls.flatten.length ≤ k) : linesGo 100 k ls.flatten = ls := by
  induction ls generalizing k with
  | nil => cases k <;> simp [linesGo, fgets]
  | cons l ls ih =>
    have hl : LastLine l := by
      cases ls with
      | nil => exact h2 l (by simp)
      | cons a ls => exact Or.inl (h1 l (by simp))
    have hfull : ls ≠ [] → FullLine l := by
      intro hne
      cases ls with
      | nil => exact absurd rfl hne
      | cons a ls => exact h1 l (by simp)
    have ih' : ∀ k, ls.flatten.length ≤ k → linesGo 100 k ls.flatten = ls := by
      intro k hk
      apply ih
      · intro x hx
        cases ls with
        | nil => simp at hx
        | cons a ls => exact h1 x (by simp only [List.dropLast_cons₂, List.mem_cons]; exact Or.inr hx)
      · intro x hx
        cases ls with
        | nil => simp at hx
        | cons a ls => exact h2 x (by simpa using hx)
      · exact hk
    rw [List.flatten_cons] at hk ⊢
    rcases hl with ⟨t, rfl, ht, -, hlen⟩ | ⟨hne, h10, -, hlen⟩
    · cases k with
      | zero => simp at hk
      | succ k =>
        have hg : fgets 100 (t ++ [10] ++ ls.flatten) = some (t ++ [10], ls.flatten) := by
          have := takeLine_full t ht 99 (by omega) ls.flatten
          cases t with
          | nil => simpa [fgets] using this
          | cons c t => simpa [fgets] using this
        rw [linesGo, hg]
        simp only [List.cons.injEq, true_and]
        exact ih' k (by simp only [List.length_append, List.length_cons, List.length_nil] at hk; omega)
    · have hnil : ls = [] := by
        by_contra hc
        obtain ⟨t, rfl, -⟩ := hfull hc
        simp at h10
      subst hnil
      cases k with
      | zero => simp at hk; exact absurd hk hne
      | succ k =>
        have hg : fgets 100 (l ++ ([] : List CString).flatten) = some (l, []) := by
          have := takeLine_open l h10 99 (by omega)
          cases l with
          | nil => exact absurd rfl hne
          | cons c t => simpa [fgets] using this
        rw [linesGo, hg]
        cases k <;> simp [linesGo, fgets]

theorem fileLines_eq (ls : List CString) (h : FileOfLines ls) : fileLines 100 ls.flatten = ls :=
  linesGo_lines ls _ h.2.1 h.2.2 le_rfl

/-! ### Names -/

theorem isSpace_iff (c : CChar) : isSpace c = decide (Blank c) := by
  rw [Bool.eq_iff_iff, decide_eq_true_iff]
  unfold isSpace Blank
  simp

/-- Trailing blanks removed. -/
def trimR (t : CString) : CString := (t.reverse.dropWhile (fun c => decide (Blank c))).reverse

theorem trimR_append (t : CString) (c : CChar) :
    trimR (t ++ [c]) = if Blank c then trimR t else t ++ [c] := by
  unfold trimR
  by_cases h : Blank c <;> simp [h]

/-- The result of trimming a non-empty string as `trimend` does it. -/
def trimNe (t : CString) : CString := if trimR t = [] then t.take 1 else trimR t

theorem take_trimIdx (s : CString) (e : Nat) (h : e < s.length) :
    s.take (trimIdx s e + 1) = trimNe (s.take (e + 1)) ∧ trimIdx s e ≤ e := by
  induction e with
  | zero =>
    refine ⟨?_, le_rfl⟩
    cases s with
    | nil => simp at h
    | cons c t =>
      by_cases hc : Blank c <;> simp [trimIdx, trimNe, trimR, hc]
  | succ e ih =>
    obtain ⟨ih, hle⟩ := ih (by omega)
    have hg : s.getD (e + 1) 0 = s[e + 1] := by simp [List.getD, h]
    have hs : s.take (e + 1 + 1) = s.take (e + 1) ++ [s[e + 1]] := by
      rw [List.take_succ_eq_append_getElem h]
    unfold trimIdx
    rw [hg, isSpace_iff, hs]
    by_cases hb : Blank s[e + 1]
    · simp only [hb, decide_true, if_true]
      refine ⟨?_, by omega⟩
      rw [ih]
      unfold trimNe
      rw [trimR_append, if_pos hb]
      have hne : s.take (e + 1) ≠ [] := by
        intro h0; simp at h0; rcases h0 with h0; subst h0; simp at h
      congr 1
      cases hq : s.take (e + 1) with
      | nil => exact absurd hq hne
      | cons a l => simp
    · simp only [hb, decide_false]
      refine ⟨?_, by simp⟩
      unfold trimNe
      rw [trimR_append, if_neg hb, if_neg (by simp), if_neg (by intro h0; simp at h0; subst h0; simp at h)]
      exact hs

theorem nameText_eq (line : CString) (_h : line ≠ []) : trimNe (line.take 23) = nameText line := by
  unfold trimNe nameText trimR
  simp only [List.take_take]
  rfl

theorem takeWhile_append_zero (w r : CString) (h : IsCStr w) :
    (w ++ 0 :: r).takeWhile (· ≠ 0) = w := by
  induction w with
  | nil => simp
  | cons c w ih =>
    have hc : c ≠ 0 := h c (by simp)
    have := ih (fun x hx => h x (by simp [hx]))
    simp only [List.cons_append]
    rw [List.takeWhile_cons, if_pos (by simpa using hc), this]

theorem cstr_append_zero (w r : CString) (h : IsCStr w) : cstr (w ++ 0 :: r) = some w := by
  unfold cstr
  rw [if_pos (by simp), takeWhile_append_zero w r h]

/-- The name buffer has 25 bytes, the byte after the longest name is NUL. -/
def BufOk (b : List Int) : Prop := b.length = 25 ∧ b[23]? = some 0

theorem strncpy_shape (b : List Int) (hb : BufOk b) (line : CString) :
    ∃ k x, strncpy b line 23 = line.take 23 ++ 0 :: (List.replicate k 0 ++ [x]) ∧
      (line.take 23).length + k = 23 ∧ (k = 0 ∨ 0 < k) := by
  obtain ⟨hl, h23⟩ := hb
  obtain ⟨x, hx⟩ : ∃ x, b.drop 24 = [x] := by
    have : (b.drop 24).length = 1 := by simp [hl]
    exact List.length_eq_one_iff.mp this
  have hd : b.drop 23 = 0 :: [x] := by
    rw [List.drop_eq_getElem_cons (by omega), hx]
    rw [List.getElem?_eq_getElem (by omega)] at h23
    simp only [Option.some.injEq] at h23
    rw [h23]
  refine ⟨23 - (line.take 23).length, x, ?_, by simp, by omega⟩
  unfold strncpy
  simp only [hd]
  rw [List.append_assoc]
  congr 1
  generalize 23 - (line.take 23).length = k
  have : (0 : Int) :: (List.replicate k 0 ++ [x]) = List.replicate (k + 1) 0 ++ [x] := rfl
  rw [this, List.replicate_succ']
  simp

theorem setName_ok (b : List Int) (hb : BufOk b) (line : CString) (hl : line ≠ []) (hc : IsCStr line) :
    ∃ b', setName b line = some b' ∧ BufOk b' ∧ cstr b' = some (nameText line) := by
  obtain ⟨k, x, hs, hk, -⟩ := strncpy_shape b hb line
  set w := line.take 23 with hw
  have hwc : IsCStr w := fun c hc' => hc c (List.mem_of_mem_take hc')
  have hwne : w ≠ [] := by
    rw [hw]; intro h0; simp at h0; exact hl h0
  have hlen : 0 < w.length := List.length_pos_of_ne_nil hwne
  unfold setName trimend
  rw [hs, cstr_append_zero w _ hwc]
  cases hwq : w with
  | nil => exact absurd hwq hwne
  | cons c t =>
    simp only []
    have htl : t.length + 1 = w.length := by rw [hwq]; simp
    obtain ⟨ht, hle⟩ := take_trimIdx w t.length (by omega)
    rw [hwq] at ht hle
    refine ⟨_, rfl, ?_, ?_⟩
    · constructor
      · simp only [List.length_set, List.length_append, List.length_cons, List.length_replicate,
          List.length_nil]
        omega
      · rw [List.getElem?_set]
        have hL : ((c :: t) ++ 0 :: (List.replicate k 0 ++ [x])).length = 25 := by simp; omega
        by_cases h : trimIdx (c :: t) t.length + 1 = 23
        · rw [if_pos h, if_pos (by rw [hL]; omega)]
        · rw [if_neg h]
          have : (c :: t) ++ 0 :: (List.replicate k 0 ++ [x])
              = (c :: t) ++ (List.replicate (k + 1) 0 ++ [x]) := rfl
          rw [this, List.getElem?_append_right (by simp; omega),
            List.getElem?_append_left (by simp; omega), List.getElem?_replicate,
            if_pos (by simp; omega)]
    · set e := trimIdx (c :: t) t.length with he
      have hset : ((c :: t) ++ 0 :: (List.replicate k 0 ++ [x])).set (e + 1) 0
          = (c :: t).take (e + 1) ++ 0 :: (((c :: t) ++ 0 :: (List.replicate k 0 ++ [x])).drop (e + 2)) := by
        rw [List.set_eq_take_append_cons_drop, if_pos (by simp; omega), List.take_append_of_le_length (by simp; omega)]
      rw [hset, cstr_append_zero]
      · rw [ht]
        congr 1
        have h1 : (c :: t).take (t.length + 1) = w := by rw [hwq]; simp
        rw [h1, hw, nameText_eq line hl]
      · intro y hy
        exact hwc y (by rw [hwq]; exact List.mem_of_mem_take hy)

/-! ### The list of seen catalogue numbers -/

theorem strstr_iff (hay needle : CString) : strstr hay needle = true ↔ needle <:+: hay := by
  induction hay with
  | nil => simp [strstr]
  | cons c t ih =>
    rw [strstr, Bool.or_eq_true, ih, List.infix_cons_iff, List.isPrefixOf_iff_prefix]

/-- The buffer of seen numbers as text. -/
def seenText (cats : List CString) : CString := cats.flatMap (· ++ [44])

/-- A catalogue field: five characters, no comma. -/
def CatOk (c : CString) : Prop := c.length = 5 ∧ 44 ∉ c

theorem seenText_length (cats : List CString) (h : ∀ c ∈ cats, c.length = 5) :
    (seenText cats).length = 6 * cats.length := by
  induction cats with
  | nil => rfl
  | cons c l ih =>
    have h1 := h c (by simp)
    have h2 := ih (fun x hx => h x (by simp [hx]))
    simp only [seenText, List.flatMap_cons, List.length_append, List.length_cons, List.length_nil] at h2 ⊢
    rw [h1, h2]; omega

theorem infix_seenText (cats : List CString) (hc : ∀ c ∈ cats, CatOk c) (c : CString) (h : CatOk c) :
    (c ++ [44]) <:+: seenText cats ↔ c ∈ cats := by
  induction cats with
  | nil => simp [seenText]
  | cons b l ih =>
    have hb := hc b (by simp)
    have ih := ih (fun x hx => hc x (by simp [hx]))
    rw [List.mem_cons, ← ih]
    constructor
    · rintro ⟨s, t, hst⟩
      simp only [seenText, List.flatMap_cons] at hst ⊢
      by_cases hs : s.length < 6
      · left
        by_cases hs0 : s.length = 0
        · have : s = [] := List.length_eq_zero_iff.mp hs0
          subst this
          have h1 : (([] ++ (c ++ [44]) ++ t) : CString).take 5 = c := by
            simp [h.1]
          rw [hst] at h1
          rw [← h1, List.append_assoc, List.take_append_of_le_length (by rw [hb.1]),
            List.take_of_length_le (by rw [hb.1])]
        · exfalso
          -- the comma at index 5 of the text is inside `c`
          have h5 : ((b ++ [44]) ++ List.flatMap (· ++ [44]) l)[5]? = some 44 := by
            rw [List.append_assoc, List.getElem?_append_right (by rw [hb.1])]
            simp [hb.1]
          rw [← hst] at h5
          have hlt : 5 - s.length < c.length := by rw [h.1]; omega
          rw [List.append_assoc, List.getElem?_append_right (by omega), List.append_assoc,
            List.getElem?_append_left hlt] at h5
          exact h.2 (List.mem_of_getElem? h5)
      · right
        refine ⟨s.drop 6, t, ?_⟩
        have h6 : ((b ++ [44]) ++ List.flatMap (· ++ [44]) l).drop 6 = List.flatMap (· ++ [44]) l := by
          rw [List.drop_append]
          simp [hb.1]
        rw [← h6, ← hst]
        simp only [List.append_assoc]
        rw [List.drop_append_of_le_length (by omega)]
    · rintro (rfl | hi)
      · exact ⟨[], seenText l, by simp [seenText]⟩
      · obtain ⟨s, t, hst⟩ := hi
        exact ⟨b ++ [44] ++ s, t, by simp only [seenText, List.flatMap_cons] at hst ⊢; rw [← hst]; simp⟩

end SatSky.Sky
