import Verif.Model.VisMain
import Verif.Lemmas.SkySingle

/-! The search of `sat_visibility` for a record in files of records. -/

namespace SatSky.Vis

open SatSky Spec GetEl Opts Sky

/-- Does a record answer the request?  The catalogue text is read by `strtol`; the designator of the record must not
be blank and its text (cut to nine characters) must begin with the request. -/
def vanswers (p : VParams) (i : Item) : Bool :=
  if p.singleN then strtolVal i.cat == p.noradN
  else decide (i.tle.intlDesig.head? ≠ some 32) &&
    (match desigText i.tle.intlDesig with
     | some d => p.intlDesig.isPrefixOf d
     | none => false)

theorem putDesig_blank (buf : List Int) (d : CString) (h : d.head? = some 32) : putDesig buf d = some buf := by
  unfold putDesig; rw [if_pos h]

theorem putDesig_text (buf : List Int) (d x : CString) (h : d.head? ≠ some 32) (hx : desigText d = some x) :
    putDesig buf d = some (putStr buf x) := by
  unfold putDesig
  unfold desigText at hx
  rw [if_neg h] at hx ⊢
  cases ha : atoi d with
  | none => rw [ha] at hx; simp at hx
  | some y =>
    rw [ha] at hx
    simp only [Option.bind_eq_bind, Option.bind_some, Option.some.injEq] at hx ⊢
    rw [hx]

theorem desigText_isCStr (d x : CString) (hd : IsCStr d) (hx : desigText d = some x) : IsCStr x := by
  unfold desigText at hx
  split at hx
  · simp only [Option.some.injEq] at hx; subst hx; intro c hc; revert c; decide
  · cases ha : atoi d with
    | none => rw [ha] at hx; simp at hx
    | some y =>
      rw [ha] at hx
      simp only [Option.bind_eq_bind, Option.bind_some, Option.some.injEq] at hx
      subst hx
      intro c hc
      have hc := List.mem_of_mem_take hc
      simp only [List.mem_append, List.mem_singleton] at hc
      rcases hc with ((hc | hc) | rfl) | hc
      · have : ∀ c ∈ (if y > 57000 then b!"19" else b!"20"), c ≠ 0 := by split <;> decide
        exact this c hc
      · exact hd c (List.mem_of_mem_take hc)
      · decide
      · exact hd c (List.mem_of_mem_drop hc)

theorem cstr_putStr (buf : List Int) (x : CString) (h : IsCStr x) : cstr (putStr buf x) = some x :=
  cstr_append_zero x _ h

/-- The designator of a good record is a text without NUL. -/
theorem good_desig_isCStr {r : Record} {t : Tle} (hg : Good r t) : IsCStr t.intlDesig := by
  rw [(parse_desig hg.2).1]
  intro c hc
  exact hg.1.2.2.1 c (List.mem_of_mem_drop (List.mem_of_mem_take hc))

/-- The designator array while searching: untouched with `-s`; with `-i` it does not answer the request. -/
def DesigOk (p : VParams) (d : List Int) : Prop :=
  if p.singleN then d = b!"none" ++ List.replicate 8 0 else memEq d p.intlDesig = false

/-- State between records. -/
structure VInv (p : VParams) (s : FSt) (nm : CString) : Prop where
  harmless : Harmless s.line1
  buf : BufOk s.name
  name : cstr s.name = some nm
  desig : DesigOk p s.desig

/-- What is known when the record was found. -/
structure Hit (p : VParams) (s : FSt) (i : Item) : Prop where
  name : cstr s.name = some i.name
  byNumber : p.singleN = true → s.desig = b!"none" ++ List.replicate 8 0
  byDesig : p.singleN = false → cstr s.desig = desigText i.tle.intlDesig

/-- What a stretch of the search yields. -/
def VConcl (p : VParams) (f : Find) (l : List Item) : Prop :=
  match l.find? (vanswers p) with
  | some i => ∃ s, f = .hit s i.tle ∧ Hit p s i
  | none => ∃ s nm, f = .next s ∧ VInv p s nm

theorem fadvance_digit (s : FSt) (l : CString) (h : l.head? = some 50 ∨ l.head? = some 49) :
    fadvance s l = .next { s with line1 := l } := by
  unfold fadvance
  rw [if_neg]
  rcases h with h | h <;> simp [h]

theorem fstep_miss (p : VParams) (s : FSt) (l : CString) (c : Int) (hc : c ≠ 0)
    (h : parseElements s.line1 l = some (c, none)) : fstep p s l = fadvance s l := by
  unfold fstep
  rw [h]
  simp [hc]

theorem fstep_hit (p : VParams) (s : FSt) (l : CString) (t : Tle)
    (h : parseElements s.line1 l = some (0, some t)) : fstep p s l = fconsider p s t l := by
  unfold fstep
  rw [h]
  simp

theorem flines_cons (p : VParams) (s : FSt) (l : CString) (ls : List CString) :
    flines p s (l :: ls) = match fstep p s l with
      | .next s => flines p s ls
      | f => f := rfl

/-- Continue with the rest of the lines. -/
def fthen (p : VParams) (f : Find) (ls : List CString) : Find :=
  match f with
  | .next s => flines p s ls
  | f => f

theorem flines_pair (p : VParams) (s : FSt) (r : Record) (t : Tle) (hg : Good r t)
    (rest : List CString) (h1 : ∃ c, c ≠ 0 ∧ parseElements s.line1 r.l1 = some (c, none)) :
    flines p s (r.l1 :: r.l2 :: rest) = fthen p (fconsider p { s with line1 := r.l1 } t r.l2) rest := by
  obtain ⟨c, hc, h1⟩ := h1
  rw [flines_cons, fstep_miss p s _ c hc h1, fadvance_digit _ _ (Or.inr (looksOk_head hg.1.1))]
  simp only []
  rw [flines_cons, fstep_hit p _ _ t hg.2]
  rfl

theorem flines_record (p : VParams) (s : FSt) (r : Record) (t : Tle) (prev : CString)
    (hg : Good r t) (hh : Harmless s.line1) (hb : BufOk s.name) (hp : cstr s.name = some prev)
    (rest : List CString) :
    ∃ b, BufOk b ∧ cstr b = some (nameFor false prev r) ∧
      flines p s (r.lines ++ rest) = fthen p (fconsider p { s with line1 := r.l1, name := b } t r.l2) rest := by
  obtain ⟨hl1, hl2, hc1, hc2, hn⟩ := hg.1
  unfold Record.lines nameFor
  cases hname : r.name with
  | none =>
    refine ⟨s.name, hb, by simpa using hp, ?_⟩
    simp only [Option.toList_none, List.nil_append, List.cons_append]
    rw [flines_pair p s r t hg rest (hh _ (looksOk_notLine2 _ hl1 hc1))]
  | some n =>
    have hn := hn n (by simp [hname])
    obtain ⟨c, hc, hpar⟩ := hh n hn
    simp only [Option.toList_some, List.cons_append, List.nil_append]
    have h1 : ∃ c, c ≠ 0 ∧ parseElements n r.l1 = some (c, none) :=
      ⟨-104, by norm_num, parse_head2 _ _ (by rw [looksOk_head hl1]; simp)⟩
    rw [flines_cons, fstep_miss p s n c hc hpar]
    unfold fadvance
    by_cases hd : n.head? ≠ some 49 ∧ n.head? ≠ some 50
    · obtain ⟨b, hb1, hb2, hb3⟩ := setName_ok s.name hb n hn.1 hn.2.1
      refine ⟨b, hb2, by rw [hb3, if_pos (Or.inr hd)], ?_⟩
      rw [if_pos hd, hb1]
      simp only []
      rw [flines_pair p _ r t hg rest h1]
    · refine ⟨s.name, hb, by rw [if_neg (by simpa using hd)]; exact hp, ?_⟩
      rw [if_neg hd]
      simp only []
      rw [flines_pair p _ r t hg rest h1]

theorem ffile_record (p : VParams) (path : CString) (s : FSt) (r : Record) (t : Tle)
    (hg : Good r t) (hb : BufOk s.name) (prev : CString) (content : CString) (rest : List CString)
    (hcont : fileLines 100 content = r.lines ++ rest) :
    ∃ b, BufOk b ∧ cstr b = some (nameFor true prev r) ∧
      ffile p path s content = fthen p (fconsider p { s with line1 := r.l1, name := b } t r.l2) rest := by
  obtain ⟨hl1, hl2, hc1, hc2, hn⟩ := hg.1
  unfold ffile
  rw [hcont]
  unfold Record.lines nameFor
  cases hname : r.name with
  | none =>
    obtain ⟨b, hb1, hb2, hb3⟩ := setName_ok s.name hb r.l1 (line_ne_nil hl1) hc1
    refine ⟨b, hb2, by simpa using hb3, ?_⟩
    simp only [Option.toList_none, List.nil_append, List.cons_append]
    rw [hb1]
    simp only []
    rw [flines_cons, fstep_hit p _ _ t hg.2]
    rfl
  | some n =>
    have hn := hn n (by simp [hname])
    obtain ⟨b, hb1, hb2, hb3⟩ := setName_ok s.name hb n hn.1 hn.2.1
    refine ⟨b, hb2, by simpa using hb3, ?_⟩
    simp only [Option.toList_some, List.cons_append, List.nil_append]
    rw [hb1]
    simp only []
    rw [flines_pair p _ r t hg rest ⟨-104, by norm_num, parse_head2 _ _ (by rw [looksOk_head hl1]; simp)⟩]

theorem fconsider_cons (p : VParams) (hs : p.singleN = true ∨ p.singleI = true) (hi : IsCStr p.intlDesig) (s : FSt)
    (r : Record) (t : Tle) (nm : CString) (hg : Good r t) (hl : s.line1 = r.l1) (hb : BufOk s.name)
    (hn : cstr s.name = some nm) (hd : DesigOk p s.desig) (l : List Item) (rest : List CString)
    (ih : ∀ s', VInv p s' nm → VConcl p (flines p s' rest) l) :
    VConcl p (fthen p (fconsider p s t r.l2) rest) (⟨nm, r.cat, t⟩ :: l) := by
  obtain ⟨hl1, hl2, hc1, hc2, -⟩ := hg.1
  obtain ⟨x, hx⟩ := desigText_ok t.intlDesig (by rw [(parse_desig hg.2).2.1])
  have hxc := desigText_isCStr _ _ (good_desig_isCStr hg) hx
  have hcat : (s.line1.drop 2).take 5 = r.cat := by rw [hl]; rfl
  have hH2 : Harmless r.l2 := harmless_head _ (by rw [looksOk_head hl2]; simp)
  unfold VConcl
  unfold fconsider
  rw [hcat]
  by_cases hN : p.singleN = true
  · rw [if_pos hN]
    have hv : vanswers p ⟨nm, r.cat, t⟩ = (strtolVal r.cat == p.noradN) := by unfold vanswers; rw [if_pos hN]
    by_cases he : strtolVal r.cat = p.noradN
    · rw [if_pos he, List.find?_cons_of_pos (by rw [hv]; simpa using he)]
      refine ⟨s, rfl, hn, fun _ => ?_, fun h => by rw [hN] at h; simp at h⟩
      unfold DesigOk at hd; rw [if_pos hN] at hd; exact hd
    · rw [if_neg he, List.find?_cons_of_neg (by rw [hv]; simpa using he), fadvance_digit _ _ (Or.inl (looksOk_head hl2))]
      exact ih _ ⟨hH2, hb, hn, hd⟩
  · have hN' : p.singleN = false := by simpa using hN
    have hI : p.singleI = true := by simpa [hN] using hs
    rw [if_neg hN, if_pos hI]
    have hmiss : memEq s.desig p.intlDesig = false := by
      unfold DesigOk at hd; rw [if_neg hN] at hd; exact hd
    by_cases h32 : t.intlDesig.head? = some 32
    · have hv : vanswers p ⟨nm, r.cat, t⟩ = false := by unfold vanswers; rw [if_neg hN]; simp [h32]
      rw [putDesig_blank _ _ h32]
      simp only [hmiss, Bool.false_eq_true, if_false]
      rw [List.find?_cons_of_neg (by rw [hv]; simp), fadvance_digit _ _ (Or.inl (looksOk_head hl2))]
      exact ih _ ⟨hH2, hb, hn, hd⟩
    · have hv : vanswers p ⟨nm, r.cat, t⟩ = p.intlDesig.isPrefixOf x := by
        unfold vanswers; rw [if_neg hN]; simp only [hx]; simp [h32]
      rw [putDesig_text _ _ x h32 hx]
      have hm : memEq (putStr s.desig x) p.intlDesig = p.intlDesig.isPrefixOf x := by
        rw [Bool.eq_iff_iff, memEq_iff (cstr_putStr s.desig x hxc) hi, List.isPrefixOf_iff_prefix]
      simp only []
      by_cases he : p.intlDesig.isPrefixOf x = true
      · rw [hm, if_pos he, List.find?_cons_of_pos (by rw [hv]; exact he)]
        refine ⟨_, rfl, hn, fun h => absurd h hN, fun _ => ?_⟩
        rw [hx]
        exact cstr_putStr _ _ hxc
      · rw [hm, if_neg he, List.find?_cons_of_neg (by rw [hv]; exact he), fadvance_digit _ _ (Or.inl (looksOk_head hl2))]
        refine ih _ ⟨hH2, hb, hn, ?_⟩
        unfold DesigOk
        rw [if_neg hN]
        show memEq (putStr s.desig x) p.intlDesig = false
        rw [hm]; exact Bool.eq_false_iff.mpr he

theorem flines_items (p : VParams) (hs : p.singleN = true ∨ p.singleI = true) (hi : IsCStr p.intlDesig)
    (rs : List (Record × Tle)) (hrs : ∀ x ∈ rs, Good x.1 x.2) (s : FSt) (nm : CString) (h : VInv p s nm) :
    VConcl p (flines p s (rs.flatMap (fun x => x.1.lines))) (items false nm rs) := by
  induction rs generalizing s nm with
  | nil => exact ⟨s, nm, rfl, h⟩
  | cons a rs ih =>
    obtain ⟨r, t⟩ := a
    have hg := hrs (r, t) (by simp)
    obtain ⟨b, hb, hn, heq⟩ := flines_record p s r t nm hg h.harmless h.buf h.name (rs.flatMap (fun x => x.1.lines))
    rw [List.flatMap_cons, heq]
    simp only [items]
    exact fconsider_cons p hs hi { s with line1 := r.l1, name := b } r t _ hg rfl hb hn h.desig _ _
      (fun s' hc => ih (fun x hx => hrs x (by simp [hx])) s' _ hc)

theorem ffile_items (p : VParams) (hs : p.singleN = true ∨ p.singleI = true) (hi : IsCStr p.intlDesig)
    (path : CString) (rs : List (Record × Tle)) (hne : rs ≠ []) (hrs : ∀ x ∈ rs, Good x.1 x.2)
    (hfile : FileOfLines (rs.flatMap (fun x => x.1.lines))) (s : FSt) (hb : BufOk s.name) (hd : DesigOk p s.desig) :
    VConcl p (ffile p path s (rs.flatMap (fun x => x.1.lines)).flatten) (fileItems rs) := by
  cases rs with
  | nil => exact absurd rfl hne
  | cons a rs =>
    obtain ⟨r, t⟩ := a
    have hg := hrs (r, t) (by simp)
    have hl := fileLines_eq _ hfile
    rw [List.flatMap_cons] at hl
    obtain ⟨b, hb', hn, heq⟩ := ffile_record p path s r t hg hb [] _ _ hl
    rw [List.flatMap_cons, heq]
    unfold fileItems
    simp only [items]
    exact fconsider_cons p hs hi { s with line1 := r.l1, name := b } r t _ hg rfl hb' hn hd _ _
      (fun s' hc => flines_items p hs hi rs (fun x hx => hrs x (by simp [hx])) s' _ hc)

/-- The search over files of records ends at the first record that answers. -/
theorem ffiles_items (p : VParams) (hs : p.singleN = true ∨ p.singleI = true) (hi : IsCStr p.intlDesig)
    (files : List (CString × List (Record × Tle))) (hok : ∀ f ∈ files, FileOk f) (s : FSt) (hb : BufOk s.name)
    (hd : DesigOk p s.desig) :
    (∀ i, (allItems files).find? (vanswers p) = some i → ∃ s', ffiles p s (contents files) = .hit s' i.tle ∧ Hit p s' i) ∧
    ((allItems files).find? (vanswers p) = none → ∃ s', ffiles p s (contents files) = .next s') := by
  induction files generalizing s with
  | nil => exact ⟨by simp [allItems], fun _ => ⟨s, rfl⟩⟩
  | cons f fs ih =>
    obtain ⟨path, rs⟩ := f
    have hf := hok (path, rs) (by simp)
    have hai : allItems ((path, rs) :: fs) = fileItems rs ++ allItems fs := rfl
    have hcont : contents ((path, rs) :: fs)
      = (path, some (rs.flatMap (fun x => x.1.lines)).flatten) :: contents fs := rfl
    have hfile := ffile_items p hs hi path rs hf.1 (fun x hx => hf.2.1 x hx) hf.2.2 s hb hd
    rw [hai, hcont, List.find?_append]
    unfold VConcl at hfile
    simp only [ffiles]
    cases hfd : (fileItems rs).find? (vanswers p) with
    | some i =>
      rw [hfd] at hfile
      obtain ⟨s', h1, h2⟩ := hfile
      rw [h1]
      refine ⟨?_, by simp⟩
      intro j hj
      simp at hj; subst hj
      exact ⟨s', rfl, h2⟩
    | none =>
      rw [hfd] at hfile
      obtain ⟨s', nm, h1, h2⟩ := hfile
      rw [h1]
      simpa using ih (fun f hf => hok f (by simp [hf])) s' h2.buf h2.desig

end SatSky.Vis
