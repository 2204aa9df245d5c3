import Verif.Lemmas.SkyGeneral

/-! The search for one satellite, and the overflow of the list of seen satellites. -/

namespace SatSky.Sky

open SatSky Spec GetEl Opts Props

/-- Does the satellite answer the request for one satellite (`-s` has precedence over `-i`)? -/
def answers (p : Params) (cat : CString) (t : Tle) : Bool :=
  if p.singleN then strtolVal cat == p.noradN
  else match desigText t.intlDesig with
    | some d => p.intlDesig.isPrefixOf d
    | none => false

theorem memEq_pad {d s : CString} (n : Nat) (hs : IsCStr s) :
    memEq (d ++ List.replicate n 0) s = s.isPrefixOf d := by
  unfold memEq
  rw [Bool.eq_iff_iff, List.isPrefixOf_iff_prefix, List.isPrefixOf_iff_prefix]
  constructor
  · intro hp
    by_cases hl : s.length ≤ d.length
    · exact List.prefix_of_prefix_length_le hp (List.prefix_append _ _) hl
    · exfalso
      have hlt : d.length < s.length := by omega
      have hlt2 : d.length < (d ++ List.replicate n (0 : Int)).length := lt_of_lt_of_le hlt hp.length_le
      have h1 := hp.getElem hlt
      rw [List.getElem_append_right (by omega)] at h1
      have : s[d.length] = 0 := by rw [h1]; simp
      exact hs _ (List.getElem_mem hlt) this
  · intro hp; exact hp.trans (List.prefix_append _ _)

theorem select_single {p : Params} (hs : single p = true) (hi : IsCStr p.intlDesig) (s : LoopSt)
    (hf : s.found = false) (cat : CString) (t : Tle) (a b : Bool) (h : select p s cat t = some (a, b)) :
    b = answers p cat t ∧ a = !b := by
  unfold select at h
  unfold answers
  by_cases hN : p.singleN = true
  · rw [if_pos hN] at h ⊢
    simp only [hf, Bool.false_or, hs, Bool.true_and, Option.some.injEq, Prod.mk.injEq] at h
    exact ⟨h.2.symm, by rw [← h.1, ← h.2]⟩
  · rw [if_neg hN] at h ⊢
    have hI : p.singleI = true := by
      unfold single at hs; simpa [hN] using hs
    rw [if_pos hI] at h
    cases hd : desigText t.intlDesig with
    | none => rw [hd] at h; simp at h
    | some d =>
      rw [hd] at h
      simp only [hf, Bool.false_or, hs, Bool.true_and, Option.some.injEq, Prod.mk.injEq, memEq_pad _ hi] at h
      exact ⟨h.2.symm, by rw [← h.1, ← h.2]⟩

/-- The running state of a single search. -/
structure Seeking (s : LoopSt) : Prop where
  found : s.found = false
  seen : s.seen = []
  reports : s.reports = []

/-- The final state of a single search. -/
def Sought (p : Params) (s : LoopSt) : Prop :=
  s.reports = [] ∨ ∃ r, s.reports = [r] ∧ answers p r.cat r.tle = true

theorem tleStep_seek (p : Params) (E : Tle → Obs) (hs : single p = true) (hi : IsCStr p.intlDesig)
    (hV : p.sunlitOnly = false) (hA : p.altRange = false) (s s' : LoopSt) (l : CString) (h : Seeking s)
    (hst : (tleStep p E s l).st? = some s') :
    (tleStep p E s l = .next s' → Seeking s') ∧ Sought p s' := by
  unfold tleStep at hst ⊢
  cases hp : parseElements s.line1 l with
  | none => rw [hp] at hst; simp [Flow.st?] at hst
  | some v =>
    obtain ⟨rv, ot⟩ := v
    rw [hp] at hst
    simp only [] at hst ⊢
    by_cases hr : rv = 0
    · subst hr
      rw [if_pos rfl] at hst ⊢
      cases ot with
      | none => simp [Flow.st?] at hst
      | some t =>
        simp only [] at hst ⊢
        unfold consider at hst ⊢
        simp only [select_exam] at hst ⊢
        set cat := (s.line1.drop 2).take 5 with hcat
        cases hsel : select p s cat t with
        | none => rw [hsel] at hst; simp [Flow.st?] at hst
        | some ab =>
          obtain ⟨skip, fnd⟩ := ab
          rw [hsel] at hst
          obtain ⟨hb, ha⟩ := select_single hs hi s h.found cat t skip fnd hsel
          simp only [] at hst ⊢
          by_cases hskip : skip = true
          · rw [if_pos hskip] at hst ⊢
            simp only [Flow.st?, Option.some.injEq] at hst
            subst hst
            have hfnd : fnd = false := by rw [hskip] at ha; simpa using ha
            exact ⟨fun _ => ⟨hfnd, h.seen, h.reports⟩, Or.inl h.reports⟩
          · rw [if_neg hskip] at hst ⊢
            have hfnd : fnd = true := by
              have : skip = false := by simpa using hskip
              rw [this] at ha; simpa using ha
            subst hfnd
            have hno : strstr s.seen (cat ++ [44]) = false := by
              rw [h.seen]; unfold strstr; simp
            rw [hno] at hst ⊢
            simp only [Bool.false_eq_true, if_false] at hst ⊢
            cases hrem : remember { s with exam := s.exam ++ [(s.line1, l)], found := true } (cat ++ [44]) with
            | none => rw [hrem] at hst; simp [Flow.st?] at hst
            | some s1 =>
              rw [hrem] at hst
              simp only [] at hst ⊢
              have hs1 : s1.found = true ∧ s1.reports = s.reports ∧ s1.name = s.name := by
                unfold remember at hrem
                simp only [] at hrem
                generalize (if s.useLen ≥ s.curLen then s.curLen + 10000 else s.curLen) = cl at hrem
                split at hrem
                · simp only [Option.some.injEq] at hrem; subst hrem; exact ⟨rfl, rfl, rfl⟩
                · simp at hrem
              obtain ⟨hf1, hr1, -⟩ := hs1
              unfold observe at hst ⊢
              simp only [hA, Bool.false_and, Bool.false_eq_true, if_false, hs, Bool.true_or, if_true] at hst ⊢
              by_cases hnan : (E t).nan = true
              · rw [if_pos hnan] at hst ⊢
                simp only [Flow.st?, Option.some.injEq] at hst
                subst hst
                exact ⟨fun hc => by simp at hc, Or.inl (by rw [hr1]; exact h.reports)⟩
              · rw [if_neg hnan] at hst ⊢
                unfold report at hst ⊢
                simp only [hV, Bool.false_and, Bool.false_eq_true, if_false, hf1, Bool.true_or, if_true] at hst ⊢
                split at hst
                · simp only [Flow.st?, Option.some.injEq] at hst
                  subst hst
                  refine ⟨fun hc => by simp at hc, Or.inr ⟨_, by rw [hr1, h.reports]; rfl, hb.symm⟩⟩
                · simp [Flow.st?] at hst
    · rw [if_neg hr] at hst ⊢
      rcases advance_cases s l with hadv | ⟨b, hadv⟩
      · rw [hadv] at hst; simp [Flow.st?] at hst
      · rw [hadv] at hst
        simp only [Flow.st?, Option.some.injEq] at hst
        subst hst
        exact ⟨fun _ => ⟨h.found, h.seen, h.reports⟩, Or.inl h.reports⟩

/-! ### Closed form -/

/-- Does a satellite of the input answer the request? -/
def Item.answers (p : Params) (i : Item) : Bool := Sky.answers p i.cat i.tle

/-- State between records in a single search over records. -/
structure SInv (s : LoopSt) (nm : CString) : Prop where
  harmless : Harmless s.line1
  buf : BufOk s.name
  name : cstr s.name = some nm
  seek : Seeking s
  use : s.useLen = 0
  cur : s.curLen = 70000

/-- What a stretch of the search yields. -/
def SConcl (p : Params) (f : Flow) (l : List Item) : Prop :=
  match l.find? (Item.answers p) with
  | some i => ∃ s', f = .stop s' ∧ s'.reports.map Report.item = [i] ∧ s'.found = true
  | none => ∃ s' nm, f = .next s' ∧ SInv s' nm

theorem single_cons (p : Params) (E : Tle → Obs) (hs : single p = true) (hi : IsCStr p.intlDesig)
    (hV : p.sunlitOnly = false) (hA : p.altRange = false) (s : LoopSt) (r : Record) (t : Tle) (nm : CString)
    (hg : Good r t) (hnan : (E t).nan = false) (hl : s.line1 = r.l1) (hb : BufOk s.name)
    (hn : cstr s.name = some nm) (hk : Seeking s) (hu : s.useLen = 0) (hc : s.curLen = 70000)
    (l : List Item) (rest : List CString)
    (ih : ∀ s', SInv s' nm → SConcl p (tleLoop p E s' rest) l) :
    SConcl p (andThen p E (consider p E s t r.l2) rest) (⟨nm, r.cat, t⟩ :: l) := by
  obtain ⟨hl1, hl2, hc1, hc2, -⟩ := hg.1
  obtain ⟨d, hd⟩ := desigText_ok t.intlDesig (by rw [(parse_desig hg.2).2.1])
  obtain ⟨skip, fnd, hsel⟩ := select_some p s r.cat t (by rw [(parse_desig hg.2).2.1])
  obtain ⟨hbb, haa⟩ := select_single hs hi s hk.found r.cat t skip fnd hsel
  have hcat : (s.line1.drop 2).take 5 = r.cat := by rw [hl]; rfl
  have hcl := good_cat hg
  have key : consider p E s t r.l2 =
      if Sky.answers p r.cat t = true then
        .stop (push p { s with exam := s.exam ++ [(s.line1, r.l2)], found := true, seen := s.seen ++ (r.cat ++ [44]), useLen := s.useLen + 6 }
          { name := nm, desig := d, cat := r.cat, tle := t, obs := E t })
      else .next { s with exam := s.exam ++ [(s.line1, r.l2)], found := false } := by
    unfold consider
    simp only [hcat, select_exam, hsel]
    cases hans : Sky.answers p r.cat t with
    | false =>
      rw [hans] at hbb; subst hbb
      simp [haa]
    | true =>
      rw [hans] at hbb; subst hbb
      have hno : strstr s.seen (r.cat ++ [44]) = false := by rw [hk.seen]; unfold strstr; simp
      simp only [haa, Bool.not_true, Bool.false_eq_true, if_false, hno, if_true]
      rw [remember_ok { s with exam := s.exam ++ [(s.line1, r.l2)], found := true } (r.cat ++ [44]) (by simp [hcl])
        (by show s.seen.length = s.useLen; rw [hk.seen, hu]; rfl) (by show s.useLen + 7 ≤ 70000; omega) hc]
      simp only []
      unfold observe
      simp only [hnan, hA, Bool.false_and, Bool.false_eq_true, if_false, hs, Bool.true_or, if_true]
      rw [report_eq p _ _ t (E t) r.l2 nm d ?hnm hd (looksOk_head hl2)]
      case hnm => exact hn
      rw [if_neg (by simp [hV]), if_pos (Or.inl rfl)]
  unfold SConcl
  rw [key]
  cases hans : Sky.answers p r.cat t with
  | true =>
    rw [List.find?_cons_of_pos (by exact hans)]
    simp only [if_true]
    refine ⟨_, rfl, ?_, rfl⟩
    simp [push, hk.reports, Report.item]
  | false =>
    rw [List.find?_cons_of_neg (by show ¬ Sky.answers p r.cat t = true; rw [hans]; simp)]
    simp only [Bool.false_eq_true, if_false]
    exact ih _ ⟨by show Harmless s.line1; rw [hl]; exact harmless_line1 _ hl1 hc1, hb, hn,
      ⟨rfl, hk.seen, hk.reports⟩, hu, hc⟩

theorem tleLoop_single (p : Params) (E : Tle → Obs) (hs : single p = true) (hi : IsCStr p.intlDesig)
    (hV : p.sunlitOnly = false) (hA : p.altRange = false) (rs : List (Record × Tle))
    (hrs : ∀ x ∈ rs, Good x.1 x.2 ∧ (E x.2).nan = false) (s : LoopSt) (nm : CString) (h : SInv s nm) :
    SConcl p (tleLoop p E s (rs.flatMap (fun x => x.1.lines))) (items false nm rs) := by
  induction rs generalizing s nm with
  | nil => exact ⟨s, nm, rfl, h⟩
  | cons a rs ih =>
    obtain ⟨r, t⟩ := a
    obtain ⟨hg, hnan⟩ := hrs (r, t) (by simp)
    obtain ⟨b, hb, hn, heq⟩ := tleLoop_record p E s r t nm hg h.harmless h.buf h.name
      (rs.flatMap (fun x => x.1.lines))
    rw [List.flatMap_cons, heq]
    simp only [items]
    exact single_cons p E hs hi hV hA (enter s r b) r t _ hg hnan rfl hb hn
      ⟨h.seek.found, h.seek.seen, h.seek.reports⟩ h.use h.cur _ _
      (fun s' hc => ih (fun x hx => hrs x (by simp [hx])) s' _ hc)

theorem fileLoop_single (p : Params) (E : Tle → Obs) (hs : single p = true) (hi : IsCStr p.intlDesig)
    (hV : p.sunlitOnly = false) (hA : p.altRange = false) (path : CString) (rs : List (Record × Tle)) (hne : rs ≠ [])
    (hrs : ∀ x ∈ rs, Good x.1 x.2 ∧ (E x.2).nan = false)
    (hfile : FileOfLines (rs.flatMap (fun x => x.1.lines))) (s : LoopSt) (hb : BufOk s.name)
    (hk : Seeking s) (hu : s.useLen = 0) (hc : s.curLen = 70000) :
    SConcl p (fileLoop p E path s (rs.flatMap (fun x => x.1.lines)).flatten) (fileItems rs) := by
  cases rs with
  | nil => exact absurd rfl hne
  | cons a rs =>
    obtain ⟨r, t⟩ := a
    obtain ⟨hg, hnan⟩ := hrs (r, t) (by simp)
    have hl := fileLines_eq _ hfile
    rw [List.flatMap_cons] at hl
    obtain ⟨b, hb', hn, heq⟩ := fileLoop_record p E path s r t hg hb [] _ _ hl
    rw [List.flatMap_cons, heq]
    unfold fileItems
    simp only [items]
    exact single_cons p E hs hi hV hA (enter s r b) r t _ hg hnan rfl hb' hn
      ⟨hk.found, hk.seen, hk.reports⟩ hu hc _ _
      (fun s' hc => tleLoop_single p E hs hi hV hA rs (fun x hx => hrs x (by simp [hx])) s' _ hc)

theorem filesLoop_single (p : Params) (E : Tle → Obs) (hs : single p = true) (hi : IsCStr p.intlDesig)
    (hV : p.sunlitOnly = false) (hA : p.altRange = false) (files : List (CString × List (Record × Tle)))
    (hok : ∀ f ∈ files, FileOk f) (hnan : ∀ f ∈ files, ∀ x ∈ f.2, (E x.2).nan = false)
    (s : LoopSt) (hb : BufOk s.name) (hk : Seeking s) (hu : s.useLen = 0) (hc : s.curLen = 70000) :
    (∀ i, (allItems files).find? (Item.answers p) = some i →
      ∃ s', filesLoop p E s (contents files) = .stop s' ∧ s'.reports.map Report.item = [i] ∧ s'.found = true) ∧
    ((allItems files).find? (Item.answers p) = none →
      ∃ s', filesLoop p E s (contents files) = .next s' ∧ s'.reports = [] ∧ s'.found = false) := by
  induction files generalizing s with
  | nil => exact ⟨by simp [allItems], fun _ => ⟨s, rfl, hk.reports, hk.found⟩⟩
  | cons f fs ih =>
    obtain ⟨path, rs⟩ := f
    have hf := hok (path, rs) (by simp)
    have hai : allItems ((path, rs) :: fs) = fileItems rs ++ allItems fs := rfl
    have hcont : contents ((path, rs) :: fs)
      = (path, some (rs.flatMap (fun x => x.1.lines)).flatten) :: contents fs := rfl
    have hfile := fileLoop_single p E hs hi hV hA path rs hf.1
      (fun x hx => ⟨hf.2.1 x hx, hnan (path, rs) (by simp) x hx⟩) hf.2.2 s hb hk hu hc
    rw [hai, hcont, List.find?_append]
    unfold SConcl at hfile
    simp only [filesLoop]
    cases hfd : (fileItems rs).find? (Item.answers p) with
    | some i =>
      rw [hfd] at hfile
      obtain ⟨s', h1, h2, h3⟩ := hfile
      rw [h1]
      refine ⟨?_, by simp⟩
      intro j hj
      simp at hj; subst hj
      exact ⟨s', rfl, h2, h3⟩
    | none =>
      rw [hfd] at hfile
      obtain ⟨s', nm, h1, h2⟩ := hfile
      rw [h1]
      simpa using ih (fun f hf => hok f (by simp [hf])) (fun f hf => hnan f (by simp [hf])) s' h2.buf h2.seek
        h2.use h2.cur

/-! ### The overflow -/

theorem tleLoop_append (p : Params) (E : Tle → Obs) (s : LoopSt) (a b : List CString) :
    tleLoop p E s (a ++ b) = andThen p E (tleLoop p E s a) b := by
  induction a generalizing s with
  | nil => rfl
  | cons l a ih =>
    rw [List.cons_append, tleLoop_cons, tleLoop_cons]
    cases tleStep p E s l with
    | next u => exact ih u
    | stop u => rfl
    | exit a b c u => rfl
    | ub => rfl

theorem andThen_append (p : Params) (E : Tle → Obs) (f : Flow) (a b : List CString) :
    andThen p E f (a ++ b) = andThen p E (andThen p E f a) b := by
  cases f with
  | next u => exact tleLoop_append p E u a b
  | stop u => rfl
  | exit a b c u => rfl
  | ub => rfl

theorem consider_overflow (p : Params) (E : Tle → Obs) (s : LoopSt) (r : Record) (t : Tle)
    (hs : single p = false) (hN : p.nameFilter = false) (cats : List CString) (hline : s.line1 = r.l1)
    (hseen : s.seen = seenText cats) (hcats : ∀ c ∈ cats, CatOk c) (hcat : CatOk r.cat) (hnew : r.cat ∉ cats)
    (hfull : 69996 ≤ s.seen.length) (huse : s.useLen < 70000) (hcur : s.curLen = 70000) :
    consider p E s t r.l2 = .ub := by
  unfold consider
  have hc : (s.line1.drop 2).take 5 = r.cat := by rw [hline]; rfl
  unfold single at hs
  simp only [Bool.or_eq_false_iff] at hs
  have hsel : ∀ u : LoopSt, select p u r.cat t = some (false, u.found) := by
    intro u; unfold select; simp [hs.1, hs.2, hN]
  simp only [hc, hsel]
  have hno : strstr s.seen (r.cat ++ [44]) = false := by
    rw [Bool.eq_false_iff]
    intro h
    rw [strstr_iff, hseen] at h
    exact hnew ((infix_seenText cats hcats r.cat hcat).mp h)
  simp only [Bool.false_eq_true, if_false, hno]
  have hrem : remember { s with exam := s.exam ++ [(s.line1, r.l2)] } (r.cat ++ [44]) = none := by
    unfold remember
    have hl := hcat.1
    have he : (if s.useLen ≥ s.curLen then s.curLen + 10000 else s.curLen) = 70000 := by
      rw [if_neg (by omega), hcur]
    simp only [he, List.length_append, List.length_cons, List.length_nil]
    rw [if_neg (by omega)]
  simp only [hrem]

/-- A file with 11667 distinct satellites, of which the limit does not stop the first 11666, ends in a
write past the buffer. -/
theorem fileLoop_overflow (p : Params) (E : Tle → Obs) (hs : single p = false) (hN : p.nameFilter = false)
    (hsat : IsCStr p.satname) (path junk : CString) (hjunk : BufOk junk)
    (rs : List (Record × Tle)) (hlen : rs.length = 11666) (hrs : ∀ x ∈ rs, ItemOk E x)
    (r : Record) (t : Tle) (hr : ItemOk E (r, t)) (more : List (Record × Tle))
    (hfile : FileOfLines ((rs ++ (r, t) :: more).flatMap (fun x => x.1.lines)))
    (hnd : ((rs ++ [(r, t)]).map (fun x => x.1.cat)).Nodup)
    (hlim : ¬ Hit p.maxSats 0 (wanted p E [] (fileItems rs))) :
    fileLoop p E path (start junk) ((rs ++ (r, t) :: more).flatMap (fun x => x.1.lines)).flatten = .ub := by
  cases rs with
  | nil => simp at hlen
  | cons a rs =>
    obtain ⟨r0, t0⟩ := a
    have hi := hrs (r0, t0) (by simp)
    have hl := fileLines_eq _ hfile
    have hlines : (((r0, t0) :: rs ++ (r, t) :: more).flatMap (fun x => x.1.lines))
        = r0.lines ++ (rs.flatMap (fun x => x.1.lines) ++ (r.lines ++ more.flatMap (fun x => x.1.lines))) := by
      simp
    rw [hlines] at hl
    obtain ⟨b, hb, hn, heq⟩ := fileLoop_record p E path (start junk) r0 t0 hi.good hjunk [] _ _ hl
    rw [hlines, heq, andThen_append]
    have h0 := FInv.start junk hjunk
    have hconcl := region_cons p E (enter (start junk) r0 b) r0 t0 [] (nameFor true [] r0) hs hsat hi
      ⟨rfl, hb, hn, h0.len, h0.use, h0.cur, h0.seen, h0.cats, h0.found⟩
      (items false (nameFor true [] r0) rs) (rs.flatMap (fun x => x.1.lines))
      (by rw [items_length]; simp at hlen; exact Or.inr (by show 0 + (_ + 1) ≤ _; omega))
      (fun s' cats' hc hl => tleLoop_region p E hs hsat rs (fun x hx => hrs x (by simp [hx])) s' cats' _ hc
        (by rw [items_length] at hl; exact hl))
    obtain ⟨s', -, -, hmiss⟩ := hconcl
    obtain ⟨hflow, -, hex, nm', cats', hci, hmem⟩ := hmiss (by exact hlim)
    rw [hflow]
    show tleLoop p E s' _ = _
    obtain ⟨b2, hb2, hn2, heq2⟩ := tleLoop_record p E s' r t nm' hr.good hci.g.harmless hci.g.buf hci.g.name
      (more.flatMap (fun x => x.1.lines))
    rw [heq2]
    have hexl : s'.exam.length = 11666 := by
      rw [hex]
      simp only [List.length_cons, items_length] at hlen ⊢
      show 0 + _ = _
      omega
    have hitems : (((⟨nameFor true [] r0, r0.cat, t0⟩ : Item) :: items false (nameFor true [] r0) rs).filter
        (NameOk p)).map Item.cat = ((r0, t0) :: rs).map (fun x => x.1.cat) := by
      have hnok : ∀ i, NameOk p i := by intro i h; rw [hN] at h; simp at h
      rw [List.filter_eq_self.mpr (by intro i _; simpa using hnok i)]
      have : ∀ (f : Bool) (nm : CString) (l : List (Record × Tle)),
          (items f nm l).map Item.cat = l.map (fun x => x.1.cat) := by
        intro f nm l
        induction l generalizing f nm with
        | nil => rfl
        | cons a l ih => obtain ⟨x, y⟩ := a; simp [items, ih]
      simp [this]
    have hmem' : ∀ k, k ∈ cats' ↔ k ∈ ((r0, t0) :: rs).map (fun x => x.1.cat) := by
      intro k; rw [hmem k, hitems]; simp
    rw [List.map_append, List.nodup_append] at hnd
    have hge : 11666 ≤ cats'.length := by
      have := (List.Nodup.subperm hnd.1 (fun k hk => (hmem' k).mpr hk)).length_le
      rw [List.length_map, hlen] at this
      exact this
    have hseenl : s'.seen.length = 6 * cats'.length := by
      rw [hci.seen, seenText_length _ (fun c hc => (hci.cats c hc).1)]
    have huse := hci.g.use
    have hlen' := hci.g.len
    have hub := consider_overflow p E (enter s' r b2) r t hs hN cats' rfl hci.seen hci.cats hr.cat
      (by
        intro hc
        exact hnd.2.2 r.cat ((hmem' _).mp hc) r.cat (by simp) rfl)
      (by show 69996 ≤ s'.seen.length; omega) (by show s'.useLen < 70000; omega) (hci.g.cur (by omega))
    rw [hub]
    rfl

/-! ### Records from the format writer -/

/-- The record with the standard text of an element set. -/
def recOf (name : Option CString) (e : Elements) : Record := ⟨name, e.line1 ++ [10], e.line2 ++ [10]⟩

theorem looksOk_of_print (s : CString) (f : CChar) (hf : f = 49 ∨ f = 50) (hlen : s.length = 68)
    (h0 : s[0]? = some f) (h1 : s[1]? = some 32) (hp : ∀ c ∈ s, Printable c) :
    LooksOk f (withCheck s ++ [10]) := by
  unfold withCheck
  rw [List.append_assoc]
  refine ⟨by rw [List.getElem?_append_left (by omega)]; exact h0, ⟨?_, ?_⟩, ⟨by simp; omega, ?_⟩, by simp; omega, ?_⟩
  · rw [List.getElem?_append_left (by omega), h0]; rcases hf with rfl | rfl <;> simp
  · rw [List.getElem?_append_left (by omega)]; exact h1
  · rw [List.take_append_of_le_length (by omega)]
    intro c hc; exact hp c (List.mem_of_mem_take hc)
  · intro c hc
    rw [List.getElem?_append_right (by omega), hlen] at hc
    simp at hc
    omega

theorem isCStr_of_print (s : CString) (hp : ∀ c ∈ s, Printable c) : IsCStr (withCheck s ++ [10]) := by
  intro c hc
  unfold withCheck at hc
  simp only [List.mem_append, List.mem_singleton] at hc
  rcases hc with (hc | rfl) | rfl
  · have := hp c hc; unfold Printable at this; omega
  · omega
  · decide

theorem recOf_good (name : Option CString) (hname : ∀ n ∈ name, NotLine2 n) (e : Elements) (hv : e.Valid) :
    ∃ t, Good (recOf name e) t ∧ t.norad = e.norad ∧ t.intlDesig = e.desig := by
  have L1 : e.segs1.flatten.length = 68 := len1 e 22 68 (by simp) hv
  have L2 : e.segs2.flatten.length = 68 := len2 e 17 68 (by simp) hv
  have hn : IsCStr [10] := by intro c hc; simp at hc; omega
  obtain ⟨t, ht, h1, -, h2, -⟩ := C09_roundtrip e hv [10] [10] hn hn (by simp) (by simp)
  refine ⟨t, ⟨⟨?_, ?_, ?_, ?_, hname⟩, ht⟩, h1, h2⟩
  · exact looksOk_of_print _ 49 (Or.inl rfl) L1 rfl rfl (segs1_print e hv)
  · exact looksOk_of_print _ 50 (Or.inr rfl) L2 rfl rfl (segs2_print e hv)
  · exact isCStr_of_print _ (segs1_print e hv)
  · exact isCStr_of_print _ (segs2_print e hv)

theorem recOf_cat (name : Option CString) (e : Elements) : (recOf name e).cat = encodeNorad e.norad := by
  have := encode_len e.norad
  unfold Record.cat recOf Elements.line1 withCheck Elements.segs1
  simp only [List.flatten_cons, List.append_assoc, List.cons_append, List.nil_append, List.drop_succ_cons,
    List.drop_zero]
  rw [List.take_left' this]

theorem char34_ne_comma (k : Nat) : char34 k ≠ 44 := by
  by_cases h : k < 34
  · have : ∀ k : Fin 34, char34 k ≠ 44 := by decide
    exact this ⟨k, h⟩
  · unfold char34
    rw [List.getD_eq_getElem?_getD, List.getElem?_eq_none (by simp [alphabet34]; omega)]
    decide

theorem encode_no_comma (n : Nat) : 44 ∉ encodeNorad n := by
  intro hc
  unfold encodeNorad at hc
  obtain ⟨k, -, hk⟩ := List.mem_map.mp hc
  exact char34_ne_comma k hk

theorem encode_inj (n m : Nat) (hn : n ≤ 45435423) (hm : m ≤ 45435423) (h : encodeNorad n = encodeNorad m) :
    n = m := by
  have h1 := C03_decode_encode n hn [] (nodigit_nil)
  have h2 := C03_decode_encode m hm [] (nodigit_nil)
  rw [h, h2] at h1
  simp at h1
  omega

theorem fullLine_of_print (s : CString) (hl : s.length = 68) (hp : ∀ c ∈ s, Printable c) :
    FullLine (withCheck s ++ [10]) := by
  refine ⟨withCheck s, rfl, ?_, ?_, by simp [withCheck]; omega⟩
  · intro hc
    unfold withCheck at hc
    simp only [List.mem_append, List.mem_singleton] at hc
    rcases hc with hc | hc
    · have := hp _ hc; unfold Printable at this; omega
    · omega
  · intro c hc
    exact isCStr_of_print s hp c (by simp [hc])

theorem recOf_lines (name : Option CString) (hn : ∀ n ∈ name, FullLine n) (e : Elements) (hv : e.Valid) :
    ∀ l ∈ (recOf name e).lines, FullLine l := by
  intro l hl
  unfold Record.lines recOf at hl
  simp only [List.mem_append, Option.mem_toList, List.mem_cons, List.not_mem_nil, or_false] at hl
  rcases hl with hl | rfl | rfl
  · exact hn l hl
  · exact fullLine_of_print _ (len1 e 22 68 (by simp) hv) (segs1_print e hv)
  · exact fullLine_of_print _ (len2 e 17 68 (by simp) hv) (segs2_print e hv)

end SatSky.Sky
