import Verif.Lemmas.SkyParse

/-! The reading loop on files made of records. -/

namespace SatSky.Sky

open SatSky Spec GetEl Opts

/-- A record with the elements the parser reads from it (code 0). -/
def Good (r : Record) (t : Tle) : Prop := r.Shape ∧ parseElements r.l1 r.l2 = some (0, some t)

theorem good_cat {r : Record} {t : Tle} (h : Good r t) : r.cat.length = 5 := by
  have := h.1.1.2.2.2.1
  unfold Record.cat; simp; omega

theorem line_ne_nil {f : CChar} {x : CString} (h : LooksOk f x) : x ≠ [] := by
  rintro rfl; have := h.2.2.2.1; simp at this

/-- State after the satellite was printed and counted. -/
def push (p : Params) (s : LoopSt) (r : Report) : LoopSt :=
  { s with
    line1 := s.line1.take 16
    out := s.out ++ emit p s.nFound r
    reports := s.reports ++ [r]
    nFound := s.nFound + 1
    nSunlit := if r.obs.sunlit then s.nSunlit + 1 else s.nSunlit }

theorem advance_l2 (s : LoopSt) (l : CString) (h : l.head? = some 50 ∨ l.head? = some 49) :
    advance s l = .next { s with line1 := l } := by
  unfold advance
  rw [if_neg]
  rcases h with h | h <;> simp [h]

theorem report_eq (p : Params) (s : LoopSt) (cat : CString) (t : Tle) (o : Obs) (l2 nm d : CString)
    (hn : cstr s.name = some nm) (hd : desigText t.intlDesig = some d) (h2 : l2.head? = some 50) :
    report p s cat t o l2 =
      if p.sunlitOnly = true ∧ o.sunlit = false then .next { s with line1 := s.line1.take 16 }
      else if s.found = true ∨ s.nFound + 1 = p.maxSats then
        .stop (push p s { name := nm, desig := d, cat := cat, tle := t, obs := o })
      else .next { push p s { name := nm, desig := d, cat := cat, tle := t, obs := o } with line1 := l2 } := by
  unfold report
  simp only [hn, hd]
  by_cases h : p.sunlitOnly = true ∧ o.sunlit = false
  · rw [if_pos h, if_pos (by simp [h.1, h.2])]
  · rw [if_neg h, if_neg (by simpa using h)]
    by_cases hf : s.found = true ∨ s.nFound + 1 = p.maxSats
    · rw [if_pos hf, if_pos (by simpa using hf)]; rfl
    · rw [if_neg hf, if_neg (by simpa using hf), advance_l2 _ _ (Or.inl h2)]; rfl

/-- Invariant of the loop between records, whatever the options. -/
structure GInv (s : LoopSt) (nm : CString) : Prop where
  harmless : Harmless s.line1
  buf : BufOk s.name
  name : cstr s.name = some nm
  len : s.seen.length = s.useLen
  use : s.useLen ≤ 6 * s.exam.length
  cur : s.exam.length ≤ 11666 → s.curLen = 70000

/-- The state with which a record is considered. -/
def enter (s : LoopSt) (r : Record) (b : List Int) : LoopSt := { s with line1 := r.l1, name := b }

theorem tleStep_miss (p : Params) (E : Tle → Obs) (s : LoopSt) (l : CString) (c : Int) (hc : c ≠ 0)
    (h : parseElements s.line1 l = some (c, none)) : tleStep p E s l = advance s l := by
  unfold tleStep
  rw [h]
  simp [hc]

theorem tleStep_hit (p : Params) (E : Tle → Obs) (s : LoopSt) (l : CString) (t : Tle)
    (h : parseElements s.line1 l = some (0, some t)) : tleStep p E s l = consider p E s t l := by
  unfold tleStep
  rw [h]
  simp

theorem tleLoop_cons (p : Params) (E : Tle → Obs) (s : LoopSt) (l : CString) (ls : List CString) :
    tleLoop p E s (l :: ls) = match tleStep p E s l with
      | .next s => tleLoop p E s ls
      | f => f := rfl

/-- Continue with the rest of the lines. -/
def andThen (p : Params) (E : Tle → Obs) (f : Flow) (ls : List CString) : Flow :=
  match f with
  | .next s => tleLoop p E s ls
  | f => f

/-- The two element lines of a record. -/
theorem tleLoop_pair (p : Params) (E : Tle → Obs) (s : LoopSt) (r : Record) (t : Tle) (hg : Good r t)
    (rest : List CString) (h1 : ∃ c, c ≠ 0 ∧ parseElements s.line1 r.l1 = some (c, none)) :
    tleLoop p E s (r.l1 :: r.l2 :: rest)
      = andThen p E (consider p E { s with line1 := r.l1 } t r.l2) rest := by
  obtain ⟨c, hc, h1⟩ := h1
  rw [tleLoop_cons, tleStep_miss p E s _ c hc h1, advance_l2 _ _ (Or.inr (looksOk_head hg.1.1))]
  simp only []
  rw [tleLoop_cons, tleStep_hit p E _ _ t hg.2]
  rfl

theorem tleLoop_record (p : Params) (E : Tle → Obs) (s : LoopSt) (r : Record) (t : Tle) (prev : CString)
    (hg : Good r t) (hh : Harmless s.line1) (hb : BufOk s.name) (hp : cstr s.name = some prev)
    (rest : List CString) :
    ∃ b, BufOk b ∧ cstr b = some (nameFor false prev r) ∧
      tleLoop p E s (r.lines ++ rest) = andThen p E (consider p E (enter s r b) t r.l2) rest := by
  obtain ⟨hl1, hl2, hc1, hc2, hn⟩ := hg.1
  unfold Record.lines nameFor
  cases hname : r.name with
  | none =>
    refine ⟨s.name, hb, by simpa using hp, ?_⟩
    simp only [Option.toList_none, List.nil_append, List.cons_append]
    rw [tleLoop_pair p E s r t hg rest (hh _ (looksOk_notLine2 _ hl1 hc1))]
    rfl
  | some n =>
    have hn := hn n (by simp [hname])
    obtain ⟨c, hc, hpar⟩ := hh n hn
    simp only [Option.toList_some, List.cons_append, List.nil_append]
    have h1 : ∃ c, c ≠ 0 ∧ parseElements n r.l1 = some (c, none) :=
      ⟨-104, by norm_num, parse_head2 _ _ (by rw [looksOk_head hl1]; simp)⟩
    rw [tleLoop_cons, tleStep_miss p E s n c hc hpar]
    unfold advance
    by_cases hd : n.head? ≠ some 49 ∧ n.head? ≠ some 50
    · obtain ⟨b, hb1, hb2, hb3⟩ := setName_ok s.name hb n hn.1 hn.2.1
      refine ⟨b, hb2, by rw [hb3, if_pos (Or.inr hd)], ?_⟩
      rw [if_pos hd, hb1]
      simp only []
      rw [tleLoop_pair p E _ r t hg rest h1]
      rfl
    · refine ⟨s.name, hb, by rw [if_neg (by simpa using hd)]; exact hp, ?_⟩
      rw [if_neg hd]
      simp only []
      rw [tleLoop_pair p E _ r t hg rest h1]
      rfl

theorem fileLoop_record (p : Params) (E : Tle → Obs) (path : CString) (s : LoopSt) (r : Record) (t : Tle)
    (hg : Good r t) (hb : BufOk s.name) (prev : CString) (content : CString) (rest : List CString)
    (hcont : fileLines 100 content = r.lines ++ rest) :
    ∃ b, BufOk b ∧ cstr b = some (nameFor true prev r) ∧
      fileLoop p E path s content = andThen p E (consider p E (enter s r b) t r.l2) rest := by
  obtain ⟨hl1, hl2, hc1, hc2, hn⟩ := hg.1
  unfold fileLoop
  rw [hcont]
  unfold Record.lines nameFor
  cases hname : r.name with
  | none =>
    obtain ⟨b, hb1, hb2, hb3⟩ := setName_ok s.name hb r.l1 (line_ne_nil hl1) hc1
    refine ⟨b, hb2, by simpa using hb3, ?_⟩
    simp only [Option.toList_none, List.nil_append, List.cons_append]
    rw [hb1]
    simp only []
    rw [tleLoop_cons, tleStep_hit p E _ _ t hg.2]
    rfl
  | some n =>
    have hn := hn n (by simp [hname])
    obtain ⟨b, hb1, hb2, hb3⟩ := setName_ok s.name hb n hn.1 hn.2.1
    refine ⟨b, hb2, by simpa using hb3, ?_⟩
    simp only [Option.toList_some, List.cons_append, List.nil_append]
    rw [hb1]
    simp only []
    rw [tleLoop_pair p E _ r t hg rest
      ⟨-104, by norm_num, parse_head2 _ _ (by rw [looksOk_head hl1]; simp)⟩]
    rfl

/-! ### What considering a record does to the bookkeeping -/

/-- The state in an outcome. -/
def Flow.st? : Flow → Option LoopSt
  | .next s => some s
  | .stop s => some s
  | .exit _ _ _ s => some s
  | .ub => none

theorem remember_ok (s : LoopSt) (key : CString) (hk : key.length = 6) (h : s.seen.length = s.useLen)
    (hu : s.useLen + 7 ≤ 70000) (hc : s.curLen = 70000) :
    remember s key = some { s with seen := s.seen ++ key, useLen := s.useLen + 6 } := by
  unfold remember
  have e : (if s.useLen ≥ s.curLen then s.curLen + 10000 else s.curLen) = s.curLen := if_neg (by omega)
  simp only [e]
  rw [if_pos (by omega)]

theorem select_some (p : Params) (s : LoopSt) (cat : CString) (t : Tle) (h : t.intlDesig.length ≤ 8) :
    ∃ a b, select p s cat t = some (a, b) := by
  unfold select
  obtain ⟨d, hd⟩ := desigText_ok _ h
  rw [hd]
  split
  · exact ⟨_, _, rfl⟩
  · split
    · exact ⟨_, _, rfl⟩
    · split
      · exact ⟨_, _, rfl⟩
      · exact ⟨_, _, rfl⟩

theorem remember_some {s s1 : LoopSt} {key : CString} (h : remember s key = some s1) :
    ∃ c, s1 = { s with seen := s.seen ++ key, useLen := s.useLen + 6, curLen := c } ∧
      (s.useLen < s.curLen → c = s.curLen) := by
  unfold remember at h
  simp only [] at h
  by_cases hc : s.useLen ≥ s.curLen
  · rw [if_pos hc] at h
    split at h
    · simp only [Option.some.injEq] at h; exact ⟨_, h.symm, fun hl => by omega⟩
    · simp at h
  · rw [if_neg hc] at h
    split at h
    · simp only [Option.some.injEq] at h; exact ⟨_, h.symm, fun _ => rfl⟩
    · simp at h

theorem consider_general (p : Params) (E : Tle → Obs) (s : LoopSt) (r : Record) (t : Tle) (nm : CString)
    (hg : Good r t) (hb : BufOk s.name) (hnm : cstr s.name = some nm) (hlen : s.seen.length = s.useLen)
    (huse : s.useLen ≤ 6 * s.exam.length) (hcur : s.exam.length ≤ 11666 → s.curLen = 70000) (h1 : s.line1 = r.l1)
    (hnub : consider p E s t r.l2 ≠ .ub) :
    ∃ s', (consider p E s t r.l2).st? = some s' ∧ s'.exam = s.exam ++ [(r.l1, r.l2)] ∧
      (∀ s'', consider p E s t r.l2 = .next s'' → GInv s'' nm) := by
  obtain ⟨hl1, hl2, hc1, hc2, hn⟩ := hg.1
  have hcat := good_cat hg
  unfold Record.cat at hcat
  obtain ⟨d, hd⟩ := desigText_ok t.intlDesig (by rw [(parse_desig hg.2).2.1])
  unfold consider at hnub ⊢
  simp only [h1] at hnub ⊢
  set s1 : LoopSt := { s with exam := s.exam ++ [(r.l1, r.l2)], line1 := r.l1 } with hs1
  obtain ⟨skip, fnd, hsel⟩ := select_some p s1 ((r.l1.drop 2).take 5) t (by rw [(parse_desig hg.2).2.1])
  rw [hsel] at hnub ⊢
  simp only [] at hnub ⊢
  have hbase : ∀ u : LoopSt, u.name = s.name → u.seen.length = u.useLen → u.useLen ≤ 6 * u.exam.length →
      (u.exam.length ≤ 11666 → u.curLen = 70000) → Harmless u.line1 → GInv u nm := by
    intro u h1 h2 h3 h4 h5
    exact ⟨h5, by rw [h1]; exact hb, by rw [h1]; exact hnm, h2, h3, h4⟩
  have hH1 : Harmless r.l1 := harmless_line1 _ hl1 hc1
  have hH16 : Harmless (r.l1.take 16) := harmless_take _ hl1 hc1
  have hH2 : Harmless r.l2 := harmless_head _ (by rw [looksOk_head hl2]; simp)
  have hex : (s.exam ++ [(r.l1, r.l2)]).length = s.exam.length + 1 := by simp
  by_cases hskip : skip = true
  · rw [if_pos hskip]
    refine ⟨_, rfl, rfl, ?_⟩
    intro s'' h; cases h
    exact hbase _ rfl hlen (by simp only [hex]; omega) (fun hl => hcur (by simp only [hex] at hl; omega)) hH1
  · rw [if_neg hskip] at hnub ⊢
    by_cases hstr : strstr s.seen ((r.l1.drop 2).take 5 ++ [44]) = true
    · rw [if_pos hstr]
      refine ⟨_, rfl, rfl, ?_⟩
      intro s'' h; cases h
      exact hbase _ rfl hlen (by simp only [hex]; omega) (fun hl => hcur (by simp only [hex] at hl; omega)) hH1
    · rw [if_neg hstr] at hnub ⊢
      cases hrem : remember { s1 with found := fnd } ((r.l1.drop 2).take 5 ++ [44]) with
      | none =>
        simp only [hs1] at hrem
        rw [hrem] at hnub
        exact absurd rfl hnub
      | some s2 =>
      obtain ⟨c, rfl, hc⟩ := remember_some hrem
      have hcur' : (s.exam ++ [(r.l1, r.l2)]).length ≤ 11666 → c = 70000 := by
        intro hl
        rw [hex] at hl
        have h70 := hcur (by omega)
        have := hc (by show s.useLen < s.curLen; omega)
        rw [this]; exact h70
      simp only [hs1]
      unfold observe
      simp only []
      by_cases hnan : (E t).nan = true
      · rw [if_pos hnan]
        refine ⟨_, rfl, rfl, ?_⟩
        intro s'' h; cases h
      · rw [if_neg hnan]
        have hlen2 : (s.seen ++ ((r.l1.drop 2).take 5 ++ [44])).length = s.useLen + 6 := by
          simp only [List.length_append, hcat, List.length_cons, List.length_nil]
          omega
        split
        · refine ⟨_, rfl, rfl, ?_⟩
          intro s'' h; cases h
          exact hbase _ rfl hlen2 (by simp only [hex]; omega) hcur' hH1
        · split
          · rw [report_eq p _ _ t (E t) r.l2 nm d ?hn hd (looksOk_head hl2)]
            case hn => exact hnm
            split
            · refine ⟨_, rfl, rfl, ?_⟩
              intro s'' h; cases h
              exact hbase _ rfl hlen2 (by simp only [hex]; omega) hcur' hH16
            · split
              · refine ⟨_, rfl, rfl, ?_⟩
                intro s'' h; cases h
              · refine ⟨_, rfl, rfl, ?_⟩
                intro s'' h; cases h
                exact hbase _ rfl hlen2 (by simp only [push, hex]; omega) hcur' hH2
          · rw [advance_l2 _ _ (Or.inl (looksOk_head hl2))]
            refine ⟨_, rfl, rfl, ?_⟩
            intro s'' h; cases h
            exact hbase _ rfl hlen2 (by simp only [hex]; omega) hcur' hH2

theorem consider_few (p : Params) (E : Tle → Obs) (s : LoopSt) (r : Record) (t : Tle) (nm : CString)
    (hg : Good r t) (hnm : cstr s.name = some nm) (hlen : s.seen.length = s.useLen)
    (huse : s.useLen ≤ 6 * s.exam.length) (hcur : s.curLen = 70000) (h1 : s.line1 = r.l1)
    (hfew : s.exam.length < 11666) : consider p E s t r.l2 ≠ .ub := by
  obtain ⟨hl1, hl2, hc1, hc2, hn⟩ := hg.1
  have hcat := good_cat hg
  unfold Record.cat at hcat
  obtain ⟨d, hd⟩ := desigText_ok t.intlDesig (by rw [(parse_desig hg.2).2.1])
  unfold consider
  simp only [h1]
  set s1 : LoopSt := { s with exam := s.exam ++ [(r.l1, r.l2)], line1 := r.l1 } with hs1
  obtain ⟨skip, fnd, hsel⟩ := select_some p s1 ((r.l1.drop 2).take 5) t (by rw [(parse_desig hg.2).2.1])
  rw [hsel]
  simp only []
  split
  · simp
  · split
    · simp
    · have hr := remember_ok { s1 with found := fnd } ((r.l1.drop 2).take 5 ++ [44]) (by simp [hcat])
        hlen (show s.useLen + 7 ≤ 70000 by omega) hcur
      simp only [hs1] at hr
      rw [hr]
      simp only []
      unfold observe
      simp only []
      split
      · simp
      · split
        · simp
        · split
          · rw [report_eq p _ _ t (E t) r.l2 nm d ?hn hd (looksOk_head hl2)]
            case hn => exact hnm
            split
            · simp
            · split <;> simp
          · rw [advance_l2 _ _ (Or.inl (looksOk_head hl2))]; simp

/-- Enough room for `n` more satellites, or the run is known not to fail. -/
def Fit (f : Flow) (s : LoopSt) (n : Nat) : Prop := f ≠ .ub ∨ s.exam.length + n ≤ 11666

theorem Fit.head {p : Params} {E : Tle → Obs} {s : LoopSt} {r : Record} {t : Tle} {nm : CString}
    {rest : List CString} {n : Nat}
    (h : Fit (andThen p E (consider p E s t r.l2) rest) s (n + 1))
    (hg : Good r t) (hnm : cstr s.name = some nm) (hlen : s.seen.length = s.useLen)
    (huse : s.useLen ≤ 6 * s.exam.length) (hcur : s.exam.length ≤ 11666 → s.curLen = 70000)
    (h1 : s.line1 = r.l1) : consider p E s t r.l2 ≠ .ub := by
  rcases h with h | h
  · intro hc; rw [hc] at h; exact h rfl
  · exact consider_few p E s r t nm hg hnm hlen huse (hcur (by omega)) h1 (by omega)

theorem Fit.tail {p : Params} {E : Tle → Obs} {s s' : LoopSt} {t : Tle} {l2 : CString}
    {rest : List CString} {n : Nat} (h : Fit (andThen p E (consider p E s t l2) rest) s (n + 1))
    (hn : consider p E s t l2 = .next s') (hex : s'.exam.length = s.exam.length + 1) :
    Fit (tleLoop p E s' rest) s' n := by
  rcases h with h | h
  · left; rw [hn] at h; exact h
  · right; omega

end SatSky.Sky
