import Verif.Lemmas.SkySingle
import Verif.Lemmas.SkyLimit

/-!
C15-C25: which satellites of the TLE files are examined and reported.

The runs are `filesLoop p E (start junk) fs`: parameters `p` after the option loop, `E` what the
geometry computes from an element set, `junk` the uninitialised array `sat_name`, `fs` the files in
reading order (`none`: cannot be opened).  `(…).st? = some s` says that the run has defined behaviour
and left the loop in state `s`, however it left it.
-/

namespace SatSky.Props

open SatSky Spec GetEl Opts Sky

theorem st?_ne_ub {f : Flow} {s : LoopSt} (h : f.st? = some s) : f ≠ .ub := by
  rintro rfl; simp [Flow.st?] at h

/-! ### Concrete files used in the examples and witnesses -/

/-- The ISS elements under another catalogue number and designator. -/
def sat (n : Nat) (d : CString) : Elements := { issElements with norad := n, desig := d }

/-- The text of a record with a name line. -/
def recText (name : CString) (e : Elements) : CString := name ++ [10] ++ e.line1 ++ [10] ++ e.line2 ++ [10]

/-- Default geometry of the examples: everything visible, in the centre of the field, sunlit. -/
def here : Obs :=
  { nan := false, alt := 500, sep := 0, sep1 := 1, sunlit := true, geoNums := ([48], [48], [48], [48]),
    dataNums := [[48], [49]], hpx := [48] }

/-- The catalogue numbers reported. -/
def _root_.SatSky.Sky.Flow.numbers (f : Flow) : Option (List Int) := f.st?.map (fun s => s.reports.map (fun r => r.tle.norad))

/-- The names reported. -/
def _root_.SatSky.Sky.Flow.names (f : Flow) : Option (List CString) := f.st?.map (fun s => s.reports.map (fun r => r.name))

def zeros : List Int := List.replicate 25 0

theorem zeros_ok : BufOk zeros := by unfold BufOk; decide

def twoSats : List (CString × Option CString) :=
  [(b!"a", some (recText b!"ISS (ZARYA)" (sat 25544 b!"98067A  ")
    ++ recText b!"STARLINK-24" (sat 44238 b!"19029D  ")))]

theorem issValid0 : issElements.Valid := by constructor <;> decide

theorem issValid (n : Nat) (hn : n ≤ 45435423) (d : CString) (hd : d.length = 8 ∧ ∀ c ∈ d, Printable c) :
    (sat n d).Valid where
  norad := hn
  desig := hd
  cls := issValid0.cls
  yy := issValid0.yy
  day := issValid0.day
  dayFrac := issValid0.dayFrac
  ndot := issValid0.ndot
  nddot := issValid0.nddot
  bstar := issValid0.bstar
  eph := issValid0.eph
  bulletin := issValid0.bulletin
  incl := issValid0.incl
  node := issValid0.node
  argp := issValid0.argp
  anomaly := issValid0.anomaly
  ecc := issValid0.ecc
  motion := issValid0.motion
  rev := issValid0.rev

/-! ### C15 -/

/-- **C15**.  On files made of records, any number of them, when the run has defined behaviour
(C17: always with up to 11666 satellites), whatever the options and the
outcome of the filters, the pairs examined are the records in file order, each once: an initial
segment of them, and all of them if the loop runs to the end of the files. -/
theorem C15_examined_in_order (p : Params) (E : Tle → Obs) (junk : List Int) (hjunk : BufOk junk)
    (files : List (CString × List (Record × Tle))) (hok : ∀ f ∈ files, FileOk f)
    (hdef : filesLoop p E (start junk) (contents files) ≠ .ub) :
    ∃ s, (filesLoop p E (start junk) (contents files)).st? = some s ∧ s.exam <+: allPairs files ∧
      (filesLoop p E (start junk) (contents files) = .next s → s.exam = allPairs files) := by
  obtain ⟨s, k, l', h1, h2, -, -, h5⟩ := filesLoop_general p E files hok (start junk) (GFile.start junk hjunk)
    (Or.inl hdef)
  have he : s.exam = (allPairs files).take k := by rw [h2]; rfl
  refine ⟨s, h1, by rw [he]; exact List.take_prefix _ _, ?_⟩
  intro hn
  rw [he, List.take_of_length_le (h5 s hn).1]

/-- **C15** (when scanning ends early).  For arbitrary files: the loop is left before the end of the
files only after the requested satellite or the requested number of satellites was reported. -/
theorem C15_stop_reason (p : Params) (E : Tle → Obs) (junk : List Int) (fs : List (CString × Option CString))
    (s : LoopSt) (h : filesLoop p E (start junk) fs = .stop s) :
    s.found = true ∨ s.nFound = p.maxSats := by
  have key : ∀ (ls : List CString) (u : LoopSt), tleLoop p E u ls = .stop s → s.found = true ∨ s.nFound = p.maxSats := by
    intro ls
    induction ls with
    | nil => intro u h; simp [tleLoop] at h
    | cons l ls ih =>
      intro u h
      rw [tleLoop_cons] at h
      cases hst : tleStep p E u l with
      | next v => rw [hst] at h; exact ih v h
      | stop v =>
        rw [hst] at h
        simp only [Flow.stop.injEq] at h
        subst h
        exact (tleStep_leave p E u v l).1 hst
      | exit a b c v => rw [hst] at h; simp at h
      | ub => rw [hst] at h; simp at h
  generalize start junk = u at h
  induction fs generalizing u with
  | nil => simp [filesLoop] at h
  | cons f fs ih =>
    obtain ⟨path, oc⟩ := f
    cases oc with
    | none =>
      simp only [filesLoop] at h
      split at h <;> simp at h
    | some content =>
      simp only [filesLoop] at h
      cases hf : fileLoop p E path u content with
      | next v => rw [hf] at h; exact ih v h
      | stop v =>
        rw [hf] at h
        simp only [Flow.stop.injEq] at h
        subst h
        unfold fileLoop at hf
        split at hf
        · simp only [] at hf; split at hf <;> simp at hf
        · split at hf
          · simp at hf
          · exact key _ _ hf
      | exit a b c v => rw [hf] at h; simp at h
      | ub => rw [hf] at h; simp at h

/-- Records of the standard writer satisfy the hypotheses: a file with a name line and one without. -/
example : ∃ t1 t2, FileOk (b!"a", [(recOf (some b!"ISS (ZARYA)\n") (sat 25544 b!"98067A  "), t1),
    (recOf none (sat 5 b!"58002B  "), t2)]) := by
  have v1 := issValid 25544 (by decide) b!"98067A  " (by decide)
  have v2 := issValid 5 (by decide) b!"58002B  " (by decide)
  have hfull : FullLine b!"ISS (ZARYA)\n" := ⟨b!"ISS (ZARYA)", by decide, by decide, by unfold IsCStr; decide, by decide⟩
  obtain ⟨t1, g1, -⟩ := recOf_good (some b!"ISS (ZARYA)\n") (by
    intro n hn; simp at hn; subst hn
    refine ⟨by decide, by unfold IsCStr; decide, by decide, ?_⟩
    rintro ⟨h, -⟩; revert h; decide) _ v1
  obtain ⟨t2, g2, -⟩ := recOf_good none (by simp) _ v2
  refine ⟨t1, t2, by simp, ?_, ?_⟩
  · intro x hx
    simp only [List.mem_cons, List.not_mem_nil, or_false] at hx
    rcases hx with rfl | rfl
    · exact g1
    · exact g2
  · have hall : ∀ l ∈ ([(recOf (some b!"ISS (ZARYA)\n") (sat 25544 b!"98067A  "), t1),
        (recOf none (sat 5 b!"58002B  "), t2)].flatMap (fun x => x.1.lines)), FullLine l := by
      intro l hl
      simp only [List.flatMap_cons, List.flatMap_nil, List.append_nil, List.mem_append] at hl
      rcases hl with hl | hl
      · exact recOf_lines _ (by intro n hn; simp at hn; subst hn; exact hfull) _ v1 l hl
      · exact recOf_lines _ (by simp) _ v2 l hl
    refine ⟨by simp [Record.lines], fun l hl => hall l (List.mem_of_mem_dropLast hl), ?_⟩
    intro l hl
    exact Or.inl (hall l (List.mem_of_getLast? hl))

example : (filesLoop {} (fun _ => here) (start zeros) twoSats).numbers = some [25544, 44238] := by decide +kernel

/-! ### C16 -/

/-- **C16**.  For arbitrary input files (valid or not) and all options, no catalogue number text is
reported twice. -/
theorem C16_no_duplicates (p : Params) (E : Tle → Obs) (junk : List Int) (fs : List (CString × Option CString))
    (s : LoopSt) (h : (filesLoop p E (start junk) fs).st? = some s) : (s.reports.map Report.cat).Nodup :=
  (RInv.run h).nodup

/-- The first element with a key, among those wanted. -/
theorem firsts_is_first {α κ : Type} [DecidableEq κ] (key : α → κ) (l : List α) (seen : List κ) (a : α)
    (h : a ∈ firsts key seen l) : l.find? (fun b => decide (key b = key a)) = some a ∧ key a ∉ seen := by
  induction l generalizing seen with
  | nil => simp [firsts] at h
  | cons b l ih =>
    rw [firsts_cons] at h
    by_cases hb : key b ∈ seen
    · rw [if_pos hb] at h
      obtain ⟨h1, h2⟩ := ih seen h
      refine ⟨?_, h2⟩
      rw [List.find?_cons_of_neg]
      · exact h1
      · intro hc
        simp only [decide_eq_true_eq] at hc
        rw [hc] at hb; exact h2 hb
    · rw [if_neg hb] at h
      rcases List.mem_cons.mp h with rfl | h
      · exact ⟨by rw [List.find?_cons_of_pos (by simp)], hb⟩
      · obtain ⟨h1, h2⟩ := ih _ h
        simp only [List.mem_cons, not_or] at h2
        refine ⟨?_, h2.2⟩
        rw [List.find?_cons_of_neg]
        · exact h1
        · intro hc
          simp only [decide_eq_true_eq] at hc
          exact h2.1 hc.symm

/-- **C16** (first occurrence).  In a region or name search over files of records, the entry reported
under a catalogue text is the first record with that text (among those the name request admits). -/
theorem C16_first_occurrence (p : Params) (E : Tle → Obs) (hsingle : single p = false)
    (hsat : IsCStr p.satname) (junk : List Int) (hjunk : BufOk junk)
    (files : List (CString × List (Record × Tle)))
    (hok : ∀ f ∈ files, f.2 ≠ [] ∧ (∀ x ∈ f.2, ItemOk E x) ∧ FileOfLines (f.2.flatMap (fun x => x.1.lines)))
    (s : LoopSt)
    (h : (filesLoop p E (start junk) (contents files)).st? = some s) (r : Report) (hr : r ∈ s.reports) :
    ((allItems files).filter (NameOk p)).find? (fun i => decide (i.cat = r.cat)) = some r.item := by
  obtain ⟨s', h1, h2, h3⟩ := filesLoop_region p E hsingle hsat files hok (start junk) [] (FInv.start junk hjunk)
    (Or.inl (st?_ne_ub h))
  have hs : s = s' := by
    by_cases hh : Hit p.maxSats (start junk).nFound (wanted p E [] (allItems files))
    · rw [h2 hh] at h; simpa [Flow.st?] using h.symm
    · rw [h3 hh] at h; simpa [Flow.st?] using h.symm
  subst hs
  have hm : r.item ∈ s.reports.map Report.item := List.mem_map_of_mem hr
  rw [h1] at hm
  have hw : r.item ∈ wanted p E [] (allItems files) := by
    have hnil : (start junk).reports.map Report.item = [] := rfl
    rw [hnil, List.nil_append] at hm
    unfold limited at hm
    split at hm
    · exact List.mem_of_mem_take hm
    · exact hm
  unfold wanted candidates at hw
  exact (firsts_is_first _ _ _ _ (List.mem_of_mem_filter hw)).1

example : (filesLoop {} (fun _ => here) (start zeros)
    (twoSats ++ [(b!"b", some (recText b!"NAUKA" (sat 25544 b!"98067A  ") ++ recText b!"ISS DEB" (sat 49044 b!"21066A  ")))])).names
      = some [b!"ISS (ZARYA)", b!"STARLINK-24", b!"ISS DEB"] := by decide +kernel

/-! ### C17 -/

/-- **C17** (partial).  With at most 11666 satellites in the input the run never writes past a buffer
(for files made of records; missing: the bound, which is needed, and arbitrary text). -/
theorem C17_buffer_safe_partial (p : Params) (E : Tle → Obs) (junk : List Int) (hjunk : BufOk junk)
    (files : List (CString × List (Record × Tle))) (hok : ∀ f ∈ files, FileOk f)
    (hfew : (allItems files).length ≤ 11666) :
    filesLoop p E (start junk) (contents files) ≠ .ub := by
  obtain ⟨s, k, l', h1, -⟩ := filesLoop_general p E files hok (start junk) (GFile.start junk hjunk)
    (Or.inr (by show 0 + _ ≤ _; omega))
  intro hc; rw [hc] at h1; simp [Flow.st?] at h1

/-- **C17** fails in full: any file whose first 11667 satellites are distinct and do not use up the
limit makes `strcat` write past the 70000 bytes (the buffer is enlarged only when `use_len >= cur_len`,
one satellite too late, `sat_skymap.c` 752-762). -/
theorem C17_overflow_violated (p : Params) (E : Tle → Obs) (hs : single p = false) (hN : p.nameFilter = false)
    (hsat : IsCStr p.satname) (path junk : CString) (hjunk : BufOk junk)
    (rs : List (Record × Tle)) (hlen : rs.length = 11666) (hrs : ∀ x ∈ rs, ItemOk E x)
    (r : Record) (t : Tle) (hr : ItemOk E (r, t)) (more : List (Record × Tle))
    (hfile : FileOfLines ((rs ++ (r, t) :: more).flatMap (fun x => x.1.lines)))
    (hnd : ((rs ++ [(r, t)]).map (fun x => x.1.cat)).Nodup)
    (hlim : ¬ Hit p.maxSats 0 (wanted p E [] (fileItems rs))) :
    filesLoop p E (start junk) [(path, some ((rs ++ (r, t) :: more).flatMap (fun x => x.1.lines)).flatten)]
      = .ub := by
  have := fileLoop_overflow p E hs hN hsat path junk hjunk rs hlen hrs r t hr more hfile hnd hlim
  simp only [filesLoop, this]

/-- Elements the parser reads from the standard text. -/
noncomputable def tleOf (e : Elements) (hv : e.Valid) : Tle := (recOf_good none (by simp) e hv).choose

theorem tleOf_good (e : Elements) (hv : e.Valid) : Good (recOf none e) (tleOf e hv) :=
  (recOf_good none (by simp) e hv).choose_spec.1

theorem finRange_split {α : Type} (n : Nat) (f : Fin (n + 1) → α) :
    (List.finRange (n + 1)).map f = ((List.finRange (n + 1)).map f).take n ++ [f (Fin.last n)] := by
  rw [List.finRange_succ_last, List.map_append, List.take_left' (by simp)]
  rfl

/-- Such files exist: 11667 standard element sets numbered from 0, searched with the default options
while nothing is in the field of view. -/
theorem C17_overflow_exists_violated : ∃ content : CString,
    filesLoop {} (fun _ => { here with sep := 100, sep1 := 100 }) (start zeros) [(b!"a", some content)] = .ub := by
  have hv : ∀ n : Fin 11667, (sat n.1 b!"98067A  ").Valid := fun n =>
    issValid n.1 (by have := n.2; omega) _ (by decide)
  let mk : Fin 11667 → Record × Tle := fun n => (recOf none (sat n.1 b!"98067A  "), tleOf _ (hv n))
  let all := (List.finRange 11667).map mk
  have hsplit : all = all.take 11666 ++ (mk ⟨11666, by norm_num⟩ :: []) := finRange_split 11666 mk
  have hall : ∀ x ∈ all, ItemOk (fun _ => { here with sep := 100, sep1 := 100 }) x := by
    intro x hx
    obtain ⟨n, -, rfl⟩ := List.mem_map.mp hx
    exact ⟨tleOf_good _ (hv n), by rw [recOf_cat]; exact encode_no_comma _, rfl⟩
  have hlines : ∀ l ∈ all.flatMap (fun x => x.1.lines), FullLine l := by
    intro l hl
    obtain ⟨x, hx, hl⟩ := List.mem_flatMap.mp hl
    obtain ⟨n, -, rfl⟩ := List.mem_map.mp hx
    exact recOf_lines none (by simp) _ (hv n) l hl
  have hnd : (all.map (fun x => x.1.cat)).Nodup := by
    simp only [all, List.map_map]
    apply List.Nodup.map _ (List.nodup_finRange _)
    intro a b hab
    simp only [Function.comp, mk, recOf_cat] at hab
    apply Fin.ext
    have ha := a.2
    have hb := b.2
    exact encode_inj _ _ (by show a.1 ≤ _; omega) (by show b.1 ≤ _; omega) hab
  refine ⟨(all.flatMap (fun x => x.1.lines)).flatten, ?_⟩
  have hmem := fun x hx => hall x (List.mem_of_mem_take (i := 11666) hx)
  have hlast : mk ⟨11666, by norm_num⟩ ∈ all := List.mem_map_of_mem (List.mem_finRange _)
  rw [hsplit] at hlines hnd ⊢
  refine C17_overflow_violated {} _ rfl rfl (by intro c hc; simp at hc) b!"a" zeros zeros_ok _
    (by simp [all]) hmem _ _ (hall _ hlast) [] ?_ hnd ?_
  · refine ⟨?_, fun l hl => hlines l (List.mem_of_mem_dropLast hl), fun l hl => Or.inl (hlines l (List.mem_of_getLast? hl))⟩
    intro hc
    have : ∀ x ∈ (all.take 11666 ++ [mk ⟨11666, by norm_num⟩]), x.1.lines = [] := List.flatMap_eq_nil_iff.mp hc
    have := this (mk ⟨11666, by norm_num⟩) (by simp)
    simp [Record.lines] at this
  · have hw : wanted {} (fun _ => { here with sep := 100, sep1 := 100 }) [] (fileItems (all.take 11666)) = [] := by
      unfold wanted
      rw [List.filter_eq_nil_iff]
      intro i _
      simp only [decide_eq_true_eq]
      rintro ⟨-, h | h | h, -⟩
      · simp at h
      · exact absurd h (by show ¬ ((100 : ℚ) ≤ 20); norm_num)
      · exact absurd h (by show ¬ ((100 : ℚ) ≤ 20); norm_num)
    rw [hw]
    rintro ⟨-, h⟩
    simp at h

/-! ### C18 -/

/-- **C18** (limit).  With `-n N`, `N ≥ 1`, at most `N` satellites are counted and reported, for
arbitrary input files. -/
theorem C18_at_most (p : Params) (E : Tle → Obs) (junk : List Int) (fs : List (CString × Option CString))
    (hN : 1 ≤ p.maxSats) (s : LoopSt) (h : (filesLoop p E (start junk) fs).st? = some s) :
    s.nFound ≤ p.maxSats ∧ (s.reports.length : ℤ) ≤ p.maxSats ∧
      (filesLoop p E (start junk) fs ≠ .stop s → s.nFound < p.maxSats) := by
  have hcnt := (RInv.run h).cnt
  have hpush : ∀ u u' l, u.nFound < p.maxSats → (tleStep p E u l).st? = some u' → u'.nFound ≤ p.maxSats ∧
      ((∀ v, tleStep p E u l ≠ .stop v) → u'.nFound < p.maxSats) := by
    intro u u' l hu hst
    rcases tleStep_cases p E u u' l hst with hq | ⟨⟨r, hr⟩, hn, he⟩
    · rw [hq.nFound]; exact ⟨by omega, fun _ => hu⟩
    · rw [hr.nFound]
      refine ⟨by omega, fun hns => ?_⟩
      cases hstep : tleStep p E u l with
      | next v => have := hn v hstep; rw [hr.nFound] at this; omega
      | stop v => exact absurd hstep (hns v)
      | exit a b c v => exact absurd hstep (he a b c v)
      | ub => rw [hstep] at hst; simp [Flow.st?] at hst
  have hlt : ∀ (fs : List (CString × Option CString)) (u : LoopSt), u.nFound < p.maxSats →
      ∀ v, (filesLoop p E u fs).st? = some v → v.nFound ≤ p.maxSats ∧
        (filesLoop p E u fs ≠ .stop v → v.nFound < p.maxSats) := by
    have hl : ∀ (ls : List CString) (u : LoopSt), u.nFound < p.maxSats →
        ∀ v, (tleLoop p E u ls).st? = some v → v.nFound ≤ p.maxSats ∧
          (tleLoop p E u ls ≠ .stop v → v.nFound < p.maxSats) := by
      intro ls
      induction ls with
      | nil =>
        intro u hu v hv
        simp only [tleLoop, Flow.st?, Option.some.injEq] at hv
        subst hv; exact ⟨by omega, fun _ => hu⟩
      | cons l ls ih =>
        intro u hu v hv
        rw [tleLoop_cons] at hv ⊢
        cases hst : tleStep p E u l with
        | next w =>
          rw [hst] at hv
          have := hpush u w l hu (by rw [hst]; rfl)
          exact ih w (this.2 (by simp [hst])) v hv
        | stop w =>
          rw [hst] at hv
          simp only [Flow.st?, Option.some.injEq] at hv
          subst hv
          exact ⟨(hpush u w l hu (by rw [hst]; rfl)).1, fun hc => absurd rfl hc⟩
        | exit a b c w =>
          rw [hst] at hv
          simp only [Flow.st?, Option.some.injEq] at hv
          subst hv
          have := hpush u w l hu (by rw [hst]; rfl)
          exact ⟨this.1, fun _ => this.2 (by simp [hst])⟩
        | ub => rw [hst] at hv; simp [Flow.st?] at hv
    intro fs
    induction fs with
    | nil =>
      intro u hu v hv
      simp only [filesLoop, Flow.st?, Option.some.injEq] at hv
      subst hv; exact ⟨by omega, fun _ => hu⟩
    | cons f fs ih =>
      obtain ⟨path, oc⟩ := f
      intro u hu v hv
      cases oc with
      | none =>
        simp only [filesLoop] at hv
        split at hv
        · simp only [Flow.st?, Option.some.injEq] at hv
          subst hv; exact ⟨by omega, fun _ => hu⟩
        · simp [Flow.st?] at hv
      | some content =>
        simp only [filesLoop] at hv ⊢
        have hfile : ∀ w, (fileLoop p E path u content).st? = some w → w.nFound ≤ p.maxSats ∧
            (fileLoop p E path u content ≠ .stop w → w.nFound < p.maxSats) := by
          intro w hw
          unfold fileLoop at hw ⊢
          cases hln : fileLines 100 content with
          | nil =>
            rw [hln] at hw
            simp only [] at hw ⊢
            split at hw
            · simp only [Flow.st?, Option.some.injEq] at hw
              subst hw; exact ⟨by omega, fun _ => hu⟩
            · simp [Flow.st?] at hw
          | cons l ls =>
            rw [hln] at hw
            simp only [] at hw ⊢
            cases hn : setName u.name l with
            | none => rw [hn] at hw; simp [Flow.st?] at hw
            | some b =>
              rw [hn] at hw
              exact hl ls { u with line1 := l, name := b } hu w hw
        cases hst : fileLoop p E path u content with
        | next w =>
          rw [hst] at hv
          have := hfile w (by rw [hst]; rfl)
          exact ih w (this.2 (by simp [hst])) v hv
        | stop w =>
          rw [hst] at hv
          simp only [Flow.st?, Option.some.injEq] at hv
          subst hv
          exact ⟨(hfile w (by rw [hst]; rfl)).1, fun hc => absurd rfl hc⟩
        | exit a b c w =>
          rw [hst] at hv
          simp only [Flow.st?, Option.some.injEq] at hv
          subst hv
          have := hfile w (by rw [hst]; rfl)
          exact ⟨this.1, fun _ => this.2 (by simp [hst])⟩
        | ub => rw [hst] at hv; simp [Flow.st?] at hv
  obtain ⟨h1, h2⟩ := hlt fs (start junk) (by show (0 : ℤ) < _; omega) s h
  exact ⟨h1, by rw [← hcnt]; exact h1, h2⟩

/-- **C18** (which satellites).  For arbitrary input files: with `-n N` the satellites reported are the
first `N` of those reported without a limit (`-n 0`), and the scan stops as soon as there are `N`. -/
theorem C18_first_n (p : Params) (N : ℤ) (hN : 1 ≤ N) (E : Tle → Obs) (junk : List Int)
    (fs : List (CString × Option CString)) (s u : LoopSt)
    (h : (filesLoop (withMax p N) E (start junk) fs).st? = some s)
    (h0 : (filesLoop (withMax p 0) E (start junk) fs).st? = some u) :
    s.reports = u.reports.take N.toNat ∧
      (N ≤ u.reports.length → filesLoop (withMax p N) E (start junk) fs = .stop s) := by
  obtain ⟨-, hle, hlt⟩ := C18_at_most (withMax p N) E junk fs hN s h
  have hmax : (withMax p N).maxSats = N := rfl
  rw [hmax] at hle hlt
  rcases filesLoop_sim p N E fs (start junk) rfl with heq | ⟨s', hst, hlen, hpre⟩
  · rw [heq, h0] at h
    simp only [Option.some.injEq] at h
    subst h
    refine ⟨(List.take_of_length_le (by omega)).symm, fun hge => ?_⟩
    by_contra hc
    have := hlt hc
    rw [(RInv.run h0).cnt] at this
    omega
  · rw [hst] at h
    simp only [Flow.st?, Option.some.injEq] at h
    subst h
    refine ⟨?_, fun _ => hst⟩
    have := hpre u h0
    rw [List.prefix_iff_eq_take] at this
    rw [this]
    congr 1
    omega

example : (filesLoop { maxSats := 1 } (fun _ => here) (start zeros) twoSats).numbers = some [25544]
    ∧ (filesLoop { maxSats := 0 } (fun _ => here) (start zeros) twoSats).numbers = some [25544, 44238] := by
  decide +kernel

/-! ### C19 and C20: single satellite -/

/-- **C19** (partial).  With `-s N` (and neither `-V` nor a later `-a`), for arbitrary input files at
most one satellite is reported and its catalogue text reads `N`. -/
theorem C19_only_requested_partial (p : Params) (E : Tle → Obs) (hN : p.singleN = true)
    (hV : p.sunlitOnly = false) (hA : p.altRange = false) (hi : IsCStr p.intlDesig) (junk : List Int)
    (fs : List (CString × Option CString)) (s : LoopSt)
    (h : (filesLoop p E (start junk) fs).st? = some s) :
    s.reports.length ≤ 1 ∧ ∀ r ∈ s.reports, strtolVal r.cat = p.noradN := by
  have hs : single p = true := by unfold single; simp [hN]
  have key := filesLoop_ind p E Seeking (Sought p) (fun s l b h => ⟨h.found, h.seen, h.reports⟩)
    (fun s s' l hk hst => (tleStep_seek p E hs hi hV hA s s' l hk (by rw [hst]; rfl)).1 hst)
    (fun s s' l hk hst _ => (tleStep_seek p E hs hi hV hA s s' l hk hst).2)
    (fun s hk => Or.inl hk.reports) fs (start junk) s ⟨rfl, rfl, rfl⟩ h
  have hso : Sought p s := by
    cases hf : filesLoop p E (start junk) fs with
    | next u =>
      rw [hf] at h key
      simp only [Flow.st?, Option.some.injEq] at h
      subst h
      exact Or.inl (key.1 rfl).reports
    | stop u => exact key.2 (by simp [hf])
    | exit a b c u => exact key.2 (by simp [hf])
    | ub => rw [hf] at h; simp [Flow.st?] at h
  rcases hso with hnil | ⟨r, hr, hans⟩
  · rw [hnil]; simp
  · rw [hr]
    refine ⟨by simp, ?_⟩
    intro x hx
    simp only [List.mem_singleton] at hx
    subst hx
    unfold answers at hans
    rw [if_pos hN] at hans
    simpa using hans

/-- **C19** (the satellite is found).  With `-s N` over files of records (any number of them), the
satellite reported is the first record whose catalogue text reads `N`; if there is none, nothing is
reported and the flag `single_sat_found` stays false. -/
theorem C19_found (p : Params) (E : Tle → Obs) (hN : p.singleN = true)
    (hV : p.sunlitOnly = false) (hA : p.altRange = false) (hi : IsCStr p.intlDesig) (junk : List Int)
    (hjunk : BufOk junk) (files : List (CString × List (Record × Tle)))
    (hok : ∀ f ∈ files, FileOk f) (hnan : ∀ f ∈ files, ∀ x ∈ f.2, (E x.2).nan = false) :
    ∃ s, (filesLoop p E (start junk) (contents files)).st? = some s ∧
      s.reports.map Report.item = ((allItems files).find? (fun i => strtolVal i.cat == p.noradN)).toList ∧
      (s.found = true ↔ ∃ i ∈ allItems files, strtolVal i.cat = p.noradN) := by
  have hs : single p = true := by unfold single; simp [hN]
  have hfun : Item.answers p = fun i => strtolVal i.cat == p.noradN := by
    funext i; unfold Item.answers answers; rw [if_pos hN]
  obtain ⟨h1, h2⟩ := filesLoop_single p E hs hi hV hA files hok hnan (start junk) hjunk ⟨rfl, rfl, rfl⟩ rfl rfl
  rw [hfun] at h1 h2
  cases hf : (allItems files).find? (fun i => strtolVal i.cat == p.noradN) with
  | some i =>
    obtain ⟨s, a, b, c⟩ := h1 i hf
    refine ⟨s, by rw [a]; rfl, by rw [b]; rfl, ?_⟩
    simp only [c, true_iff]
    exact ⟨i, List.mem_of_find?_eq_some hf, by simpa using List.find?_some hf⟩
  | none =>
    obtain ⟨s, a, b, c⟩ := h2 hf
    refine ⟨s, by rw [a]; rfl, by rw [b]; rfl, ?_⟩
    simp only [c, Bool.false_eq_true, false_iff]
    rintro ⟨i, hi, he⟩
    have := List.find?_eq_none.mp hf i hi
    simp [he] at this

/-- For the usual five-digit catalogue numbers the text reads as the number printed. -/
theorem C19_number (n : Nat) (hn : n < 100000) (t : CString) (ht : NoDigitHead t) :
    strtolVal (encodeNorad n) = n ∧ getNoradNumber (encodeNorad n ++ t) = some (n : Int) := by
  refine ⟨?_, C03_decode_encode n (by omega) t ht⟩
  have he : encodeNorad n = digitChars (zeroDigits 5 n) := by
    unfold encodeNorad encodeDigits
    rw [if_pos hn]
    have hc : ∀ k : Nat, k < 10 → char34 k = 48 + (k : Int) := by
      intro k hk
      have : ∀ k : Fin 10, char34 k = 48 + ((k : Nat) : Int) := by decide
      exact this ⟨k, hk⟩
    simp only [List.map_cons, List.map_nil, zeroDigits, digitChars, List.nil_append,
      List.cons_append]
    rw [hc _ (by omega), hc _ (by omega), hc _ (by omega), hc _ (by omega), hc _ (by omega)]
    have e1 : n / 10 / 10 / 10 / 10 % 10 = n / 10000 := by omega
    have e2 : n / 10 / 10 / 10 % 10 = n / 1000 % 10 := by omega
    have e3 : n / 10 / 10 % 10 = n / 100 % 10 := by omega
    rw [e1, e2, e3]
  rw [he]
  have h := C06_integer_field 0 (zeroDigits 5 n) (zero_le _ _) (zero_ne _ _) (by rw [zero_len]; omega) [] nodigit_nil
  rw [zero_val 5 n (by omega)] at h
  simp only [List.replicate_zero, List.nil_append, List.append_nil] at h
  unfold atoi at h
  unfold int32 at h
  split at h
  · simpa using h
  · simp at h

example : (filesLoop { singleN := true, noradN := 44238 } (fun _ => here) (start zeros) twoSats).numbers
    = some [44238] := by decide +kernel

/-- **C19** fails with `-V`: the satellite asked for is in the Earth's shadow; the flag
`single_sat_found` stays set (722-742, 858) and the next satellite of the file is reported instead. -/
theorem C19_sunlit_violated :
    (filesLoop { singleN := true, noradN := 25544, sunlitOnly := true }
      (fun t => { here with sunlit := t.norad ≠ 25544 }) (start zeros) twoSats).numbers = some [44238] := by
  decide +kernel

/-- **C19** fails with an altitude range given after `-s`: the satellite asked for is outside the
range, the next satellite is reported instead. -/
theorem C19_altitude_violated :
    (filesLoop { singleN := true, noradN := 25544, altRange := true, altMin := 450, altMax := 600 }
      (fun t => { here with alt := if t.norad = 25544 then 400 else 500 }) (start zeros) twoSats).numbers
      = some [44238] := by decide +kernel

/-- **C19** fails for catalogue numbers above 99999 (Alpha-5, which the parser supports): `-s 0`
reports satellite 270001 ("T0001"), and `-s 270001` reports nothing though the satellite is there. -/
theorem C19_alpha5_violated :
    (filesLoop { singleN := true, noradN := 0 } (fun _ => here) (start zeros)
        [(b!"a", some (recText b!"X" (sat 270001 b!"19029D  ")))]).numbers = some [270001] ∧
    (filesLoop { singleN := true, noradN := 270001 } (fun _ => here) (start zeros)
        [(b!"a", some (recText b!"X" (sat 270001 b!"19029D  ")))]).numbers = some [] := by decide +kernel

/-- **C20** (partial).  With `-i D` (and neither `-s`, `-V` nor a later `-a`), for arbitrary input files
at most one satellite is reported and `D` is the beginning of its printed designator. -/
theorem C20_prefix_partial (p : Params) (E : Tle → Obs) (hI : p.singleI = true) (hN : p.singleN = false)
    (hV : p.sunlitOnly = false) (hA : p.altRange = false) (hi : IsCStr p.intlDesig) (junk : List Int)
    (fs : List (CString × Option CString)) (s : LoopSt)
    (h : (filesLoop p E (start junk) fs).st? = some s) :
    s.reports.length ≤ 1 ∧ ∀ r ∈ s.reports, p.intlDesig <+: r.desig := by
  have hs : single p = true := by unfold single; simp [hI]
  have key := filesLoop_ind p E Seeking (Sought p) (fun s l b h => ⟨h.found, h.seen, h.reports⟩)
    (fun s s' l hk hst => (tleStep_seek p E hs hi hV hA s s' l hk (by rw [hst]; rfl)).1 hst)
    (fun s s' l hk hst _ => (tleStep_seek p E hs hi hV hA s s' l hk hst).2)
    (fun s hk => Or.inl hk.reports) fs (start junk) s ⟨rfl, rfl, rfl⟩ h
  have hso : Sought p s := by
    cases hf : filesLoop p E (start junk) fs with
    | next u =>
      rw [hf] at h key
      simp only [Flow.st?, Option.some.injEq] at h
      subst h
      exact Or.inl (key.1 rfl).reports
    | stop u => exact key.2 (by simp [hf])
    | exit a b c u => exact key.2 (by simp [hf])
    | ub => rw [hf] at h; simp [Flow.st?] at h
  rcases hso with hnil | ⟨r, hr, hans⟩
  · rw [hnil]; simp
  · have hd := ((RInv.run h).ok r (by rw [hr]; simp)).desig
    rw [hr]
    refine ⟨by simp, ?_⟩
    intro x hx
    simp only [List.mem_singleton] at hx
    subst hx
    unfold answers at hans
    rw [if_neg (by simp [hN]), hd] at hans
    exact List.isPrefixOf_iff_prefix.mp hans

/-- **C20** (any printed designator selects).  If some run of the program printed the designator `D`
for a satellite of the files, then `-i D` reports a satellite with the printed designator beginning
with `D`. -/
theorem C20_printed_selects (p : Params) (E : Tle → Obs) (hI : p.singleI = true) (hN : p.singleN = false)
    (hV : p.sunlitOnly = false) (hA : p.altRange = false) (hi : IsCStr p.intlDesig) (junk : List Int)
    (hjunk : BufOk junk) (files : List (CString × List (Record × Tle)))
    (hok : ∀ f ∈ files, FileOk f) (hnan : ∀ f ∈ files, ∀ x ∈ f.2, (E x.2).nan = false)
    (i : Item) (him : i ∈ allItems files) (hd : desigText i.tle.intlDesig = some p.intlDesig) :
    ∃ s r, (filesLoop p E (start junk) (contents files)).st? = some s ∧ s.reports = [r] ∧
      p.intlDesig <+: r.desig ∧ r.item ∈ allItems files := by
  have hs : single p = true := by unfold single; simp [hI]
  obtain ⟨h1, h2⟩ := filesLoop_single p E hs hi hV hA files hok hnan (start junk) hjunk ⟨rfl, rfl, rfl⟩ rfl rfl
  have hans : Item.answers p i = true := by
    unfold Item.answers answers
    rw [if_neg (by simp [hN]), hd]
    exact List.isPrefixOf_iff_prefix.mpr List.prefix_rfl
  cases hf : (allItems files).find? (Item.answers p) with
  | none => exact absurd hans (by simpa using List.find?_eq_none.mp hf i him)
  | some j =>
    obtain ⟨s, a, b, c⟩ := h1 j hf
    have hst : (filesLoop p E (start junk) (contents files)).st? = some s := by rw [a]; rfl
    have hlen : s.reports.length = 1 := by
      have := congrArg List.length b; simpa using this
    obtain ⟨r, hr⟩ := List.length_eq_one_iff.mp hlen
    refine ⟨s, r, hst, hr, ?_, ?_⟩
    · exact (C20_prefix_partial p E hI hN hV hA hi junk (contents files) s hst).2 r (by rw [hr]; simp)
    · rw [hr] at b
      simp only [List.map_cons, List.map_nil, List.cons.injEq, and_true] at b
      rw [b]; exact List.mem_of_find?_eq_some hf

/-- The designator printed for launch `n` of year `yy` with a one-letter piece is the usual text:
full year, launch number, piece. -/
theorem C20_text (yy n : Nat) (c : CChar) (hy : yy < 100) (hn : 1 ≤ n ∧ n < 1000) (hc : Printable c ∧ ¬ Digit c) :
    desigText (zeroPad 2 yy ++ zeroPad 3 n ++ [c, 32, 32])
      = some (zeroPad 4 (fullYear yy) ++ [45] ++ zeroPad 3 n ++ [c]) := by
  have hyear : ∀ y : Fin 100, zeroPad 4 (fullYear y) = (if 57 ≤ y.1 then b!"19" else b!"20") ++ zeroPad 2 y := by
    decide +kernel
  have hy4 := hyear ⟨yy, hy⟩
  simp only [] at hy4
  have h2 : zeroPad 2 yy = [48 + ((yy / 10 % 10 : Nat) : Int), 48 + ((yy % 10 : Nat) : Int)] := by
    simp [zeroPad, zeroDigits, digitChars]
  have h3 : zeroPad 3 n = [48 + ((n / 10 / 10 % 10 : Nat) : Int), 48 + ((n / 10 % 10 : Nat) : Int),
      48 + ((n % 10 : Nat) : Int)] := by
    simp [zeroPad, zeroDigits, digitChars]
  have hat : atoi (zeroPad 2 yy ++ zeroPad 3 n ++ [c, 32, 32]) = some ((yy * 1000 + n : Nat) : Int) := by
    have := C06_integer_field 0 [yy / 10 % 10, yy % 10, n / 10 / 10 % 10, n / 10 % 10, n % 10]
      (by intro d hd; simp at hd; omega) (by simp) (by simp) [c, 32, 32] (nodigit_cons _ _ hc.2)
    have hv : ofDigits 0 [yy / 10 % 10, yy % 10, n / 10 / 10 % 10, n / 10 % 10, n % 10] = yy * 1000 + n := by
      simp only [ofDigits]
      omega
    rw [hv] at this
    rw [← this, h2, h3]
    simp [digitChars]
  unfold desigText
  rw [if_neg (by rw [h2]; simp; omega), hat, hy4]
  simp only [Option.bind_eq_bind, Option.bind_some, h2, h3]
  have hcond : (((yy * 1000 + n : Nat) : Int) > 57000) ↔ 57 ≤ yy := by omega
  by_cases h57 : 57 ≤ yy
  · rw [if_pos (hcond.mpr h57), if_pos h57]; rfl
  · rw [if_neg (fun h => h57 (hcond.mp h)), if_neg h57]; rfl

example : (filesLoop { singleI := true, intlDesig := b!"2019-029D" } (fun _ => here) (start zeros) twoSats).numbers
    = some [44238] := by decide +kernel

/-- **C20** fails: `-i 2019-006D` reports another piece, 2019-006DE (the text is cut to nine characters,
`sat_skymap.c` 731), the full designator 2019-006DE finds nothing, and a request that is only the
beginning of a designator (2019-006) selects a piece of that launch. -/
theorem C20_truncated_violated :
    let fs := [(b!"a", some (recText b!"MICROSAT-R DEB" (sat 44383 b!"19006DE ") ++
      recText b!"MICROSAT-R DEB" (sat 44117 b!"19006D  ")))]
    (filesLoop { singleI := true, intlDesig := b!"2019-006D" } (fun _ => here) (start zeros) fs).numbers
        = some [44383] ∧
    (filesLoop { singleI := true, intlDesig := b!"2019-006DE" } (fun _ => here) (start zeros) fs).numbers
        = some [] ∧
    (filesLoop { singleI := true, intlDesig := b!"2019-006" } (fun _ => here) (start zeros) fs).numbers
        = some [44383] := by decide +kernel

end SatSky.Props
