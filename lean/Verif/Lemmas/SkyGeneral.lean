import Verif.Lemmas.SkyClosed
import Verif.Props.RoundTrip

/-! Files of records, whatever the options: every record is examined, the reports are records. -/

namespace SatSky.Sky

open SatSky Spec GetEl Opts Props

/-- The line pairs of the records. -/
def pairs (rs : List (Record × Tle)) : List (CString × CString) := rs.map (fun x => (x.1.l1, x.1.l2))

theorem pairs_length (rs : List (Record × Tle)) : (pairs rs).length = rs.length := by simp [pairs]

/-- What a stretch of the run over records `ps` (as satellites: `l`) yields, whatever the options. -/
def GConcl (f : Flow) (s : LoopSt) (l : List Item) (ps : List (CString × CString)) : Prop :=
  ∃ s' k l', f.st? = some s' ∧ s'.exam = s.exam ++ ps.take k ∧
    s'.reports.map Report.item = s.reports.map Report.item ++ l' ∧ l'.Sublist (l.take k) ∧
    (∀ u, f = .next u → ps.length ≤ k ∧ ∃ nm, GInv u nm)

/-- Conditions for considering a record. -/
structure GEnter (s : LoopSt) (r : Record) (nm : CString) : Prop where
  line : s.line1 = r.l1
  buf : BufOk s.name
  name : cstr s.name = some nm
  len : s.seen.length = s.useLen
  use : s.useLen ≤ 6 * s.exam.length
  cur : s.exam.length ≤ 11666 → s.curLen = 70000

theorem general_cons (p : Params) (E : Tle → Obs) (s : LoopSt) (r : Record) (t : Tle) (nm : CString)
    (hg : Good r t) (he : GEnter s r nm) (l : List Item) (ps : List (CString × CString))
    (rest : List CString) (hfit : Fit (andThen p E (consider p E s t r.l2) rest) s (ps.length + 1))
    (ih : ∀ s', GInv s' nm → Fit (tleLoop p E s' rest) s' ps.length → GConcl (tleLoop p E s' rest) s' l ps) :
    GConcl (andThen p E (consider p E s t r.l2) rest) s (⟨nm, r.cat, t⟩ :: l) ((r.l1, r.l2) :: ps) := by
  obtain ⟨s1, hst, hex, hnext⟩ := consider_general p E s r t nm hg he.buf he.name he.len he.use he.cur he.line
    (hfit.head hg he.name he.len he.use he.cur he.line)
  have hrep : ∃ l', s1.reports.map Report.item = s.reports.map Report.item ++ l' ∧
      l'.Sublist [(⟨nm, r.cat, t⟩ : Item)] := by
    have hpar : parseElements s.line1 r.l2 = some (0, some t) := by rw [he.line]; exact hg.2
    have hc := tleStep_cases p E s s1 r.l2 (by rw [tleStep_hit p E s r.l2 t hpar]; exact hst)
    rcases hc with hq | ⟨⟨rep, hr⟩, -⟩
    · exact ⟨[], by rw [hq.reports]; simp, List.nil_sublist _⟩
    · refine ⟨[(⟨nm, r.cat, t⟩ : Item)], ?_, List.Sublist.refl _⟩
      rw [hr.reports]
      have h1 : rep.name = nm := by have := hr.name; rw [he.name] at this; simpa using this.symm
      have h2 : rep.tle = t := by have := hr.parse; rw [hpar] at this; simpa using this.symm
      have h3 : rep.cat = r.cat := by rw [hr.cat, he.line]; rfl
      simp [Report.item, h1, h2, h3]
  obtain ⟨l1, hl1, hsub⟩ := hrep
  have hend : ∀ f : Flow, f.st? = some s1 → (∀ u, f ≠ .next u) →
      GConcl f s (⟨nm, r.cat, t⟩ :: l) ((r.l1, r.l2) :: ps) := by
    intro f hf hn
    refine ⟨s1, 1, l1, hf, by simpa using hex, hl1, by simpa using hsub, ?_⟩
    intro u hu; exact absurd hu (hn u)
  cases hcons : consider p E s t r.l2 with
  | next u =>
    rw [hcons] at hst
    simp only [Flow.st?, Option.some.injEq] at hst
    subst hst
    obtain ⟨s', k, l', a1, a2, a3, a4, a5⟩ := ih u (hnext u hcons) (hfit.tail hcons (by rw [hex]; simp))
    refine ⟨s', k + 1, l1 ++ l', a1, ?_, ?_, ?_, ?_⟩
    · rw [a2, hex]; simp
    · rw [a3, hl1]; simp
    · rw [List.take_succ_cons]
      exact hsub.append a4
    · intro w hw
      obtain ⟨b1, b2⟩ := a5 w hw
      exact ⟨by simpa using b1, b2⟩
  | stop u => rw [hcons] at hst; exact hend _ hst (by simp [andThen])
  | exit a b c u => rw [hcons] at hst; exact hend _ hst (by simp [andThen])
  | ub => rw [hcons] at hst; simp [Flow.st?] at hst

theorem tleLoop_general (p : Params) (E : Tle → Obs) (rs : List (Record × Tle)) (hrs : ∀ x ∈ rs, Good x.1 x.2)
    (s : LoopSt) (nm : CString) (h : GInv s nm)
    (hfit : Fit (tleLoop p E s (rs.flatMap (fun x => x.1.lines))) s rs.length) :
    GConcl (tleLoop p E s (rs.flatMap (fun x => x.1.lines))) s (items false nm rs) (pairs rs) := by
  induction rs generalizing s nm with
  | nil =>
    refine ⟨s, 0, [], rfl, by simp, by simp, by simp, ?_⟩
    intro u hu
    simp only [List.flatMap_nil, tleLoop, Flow.next.injEq] at hu
    subst hu
    exact ⟨by simp [pairs], nm, h⟩
  | cons a rs ih =>
    obtain ⟨r, t⟩ := a
    have hg := hrs (r, t) (by simp)
    obtain ⟨b, hb, hn, heq⟩ := tleLoop_record p E s r t nm hg h.harmless h.buf h.name
      (rs.flatMap (fun x => x.1.lines))
    rw [List.flatMap_cons, heq] at hfit ⊢
    simp only [items, pairs, List.map_cons]
    exact general_cons p E (enter s r b) r t _ hg ⟨rfl, hb, hn, h.len, h.use, h.cur⟩ _ _ _
      (by rw [List.length_map]; exact hfit)
      (fun s' hc hl => ih (fun x hx => hrs x (by simp [hx])) s' _ hc
        (by rw [List.length_map] at hl; exact hl))

/-- State between files, whatever the options. -/
structure GFile (s : LoopSt) : Prop where
  buf : BufOk s.name
  len : s.seen.length = s.useLen
  use : s.useLen ≤ 6 * s.exam.length
  cur : s.exam.length ≤ 11666 → s.curLen = 70000

theorem GInv.file {s : LoopSt} {nm : CString} (h : GInv s nm) : GFile s := ⟨h.buf, h.len, h.use, h.cur⟩

theorem fileLoop_general (p : Params) (E : Tle → Obs) (path : CString) (rs : List (Record × Tle))
    (hne : rs ≠ []) (hrs : ∀ x ∈ rs, Good x.1 x.2)
    (hfile : FileOfLines (rs.flatMap (fun x => x.1.lines))) (s : LoopSt) (h : GFile s)
    (hfit : Fit (fileLoop p E path s (rs.flatMap (fun x => x.1.lines)).flatten) s rs.length) :
    GConcl (fileLoop p E path s (rs.flatMap (fun x => x.1.lines)).flatten) s (fileItems rs) (pairs rs) := by
  cases rs with
  | nil => exact absurd rfl hne
  | cons a rs =>
    obtain ⟨r, t⟩ := a
    have hg := hrs (r, t) (by simp)
    have hl := fileLines_eq _ hfile
    rw [List.flatMap_cons] at hl
    obtain ⟨b, hb, hn, heq⟩ := fileLoop_record p E path s r t hg h.buf [] _ _ hl
    rw [List.flatMap_cons, heq] at hfit ⊢
    unfold fileItems
    simp only [items, pairs, List.map_cons]
    exact general_cons p E (enter s r b) r t _ hg ⟨rfl, hb, hn, h.len, h.use, h.cur⟩ _ _ _
      (by rw [List.length_map]; exact hfit)
      (fun s' hc hl => tleLoop_general p E rs (fun x hx => hrs x (by simp [hx])) s' _ hc
        (by rw [List.length_map] at hl; exact hl))

/-- The line pairs of all the files in reading order. -/
def allPairs (files : List (CString × List (Record × Tle))) : List (CString × CString) :=
  files.flatMap (fun f => pairs f.2)

theorem allPairs_length (files : List (CString × List (Record × Tle))) :
    (allPairs files).length = (allItems files).length := by
  induction files with
  | nil => rfl
  | cons f fs ih =>
    unfold allPairs allItems at *
    simp [List.flatMap_cons, pairs, fileItems, items_length, ih]

/-- A file made of valid records. -/
def FileOk (f : CString × List (Record × Tle)) : Prop :=
  f.2 ≠ [] ∧ (∀ x ∈ f.2, Good x.1 x.2) ∧ FileOfLines (f.2.flatMap (fun x => x.1.lines))

theorem filesLoop_general (p : Params) (E : Tle → Obs) (files : List (CString × List (Record × Tle)))
    (hok : ∀ f ∈ files, FileOk f) (s : LoopSt) (h : GFile s)
    (hfit : Fit (filesLoop p E s (contents files)) s (allItems files).length) :
    ∃ s' k l', (filesLoop p E s (contents files)).st? = some s' ∧ s'.exam = s.exam ++ (allPairs files).take k ∧
      s'.reports.map Report.item = s.reports.map Report.item ++ l' ∧ l'.Sublist ((allItems files).take k) ∧
      (∀ u, filesLoop p E s (contents files) = .next u → (allPairs files).length ≤ k ∧ GFile u) := by
  induction files generalizing s with
  | nil =>
    refine ⟨s, 0, [], rfl, by simp, by simp, by simp, ?_⟩
    intro u hu
    simp only [contents, List.map_nil, filesLoop, Flow.next.injEq] at hu
    subst hu
    exact ⟨by simp [allPairs], h⟩
  | cons f fs ih =>
    obtain ⟨path, rs⟩ := f
    have hf := hok (path, rs) (by simp)
    have hai : allItems ((path, rs) :: fs) = fileItems rs ++ allItems fs := rfl
    have hap : allPairs ((path, rs) :: fs) = pairs rs ++ allPairs fs := rfl
    have hlen : (fileItems rs).length = rs.length := items_length _ _ _
    have hplen : (pairs rs).length = rs.length := pairs_length _
    have hcont : contents ((path, rs) :: fs)
      = (path, some (rs.flatMap (fun x => x.1.lines)).flatten) :: contents fs := rfl
    rw [hai, List.length_append, hlen, hcont] at hfit
    simp only [filesLoop] at hfit
    obtain ⟨s1, k, l1, a1, a2, a3, a4, a5⟩ :=
      fileLoop_general p E path rs hf.1 hf.2.1 hf.2.2 s h (by
        rcases hfit with hf | hf
        · left; intro hc; rw [hc] at hf; exact hf rfl
        · right; omega)
    have hexl : s1.exam.length ≤ s.exam.length + rs.length := by
      rw [a2, List.length_append, List.length_take, hplen]; omega
    have hend : ∀ g : Flow, g.st? = some s1 → (∀ u, g ≠ .next u) →
        ∃ s' k l', g.st? = some s' ∧ s'.exam = s.exam ++ (pairs rs ++ allPairs fs).take k ∧
        s'.reports.map Report.item = s.reports.map Report.item ++ l' ∧
        l'.Sublist ((fileItems rs ++ allItems fs).take k) ∧
        (∀ u, g = .next u → (pairs rs ++ allPairs fs).length ≤ k ∧ GFile u) := by
      intro g hg hn
      refine ⟨s1, min k rs.length, l1, hg, ?_, a3, ?_, fun u hu => absurd hu (hn u)⟩
      · rw [a2, List.take_append_of_le_length (by omega), ← hplen]
        congr 1
        by_cases hk : k ≤ (pairs rs).length
        · rw [Nat.min_eq_left hk]
        · rw [List.take_of_length_le (by omega), List.take_of_length_le (by omega)]
      · rw [List.take_append_of_le_length (by omega)]
        by_cases hk : k ≤ rs.length
        · rw [Nat.min_eq_left hk]; exact a4
        · rw [List.take_of_length_le (by omega)] at a4 ⊢; exact a4
    rw [hcont, hai, hap]
    simp only [filesLoop]
    cases hstep : fileLoop p E path s (rs.flatMap (fun x => x.1.lines)).flatten with
    | next u =>
      rw [hstep] at a1
      simp only [Flow.st?, Option.some.injEq] at a1
      subst a1
      obtain ⟨b1, nm, b2⟩ := a5 u hstep
      obtain ⟨s', k', l', c1, c2, c3, c4, c5⟩ := ih (fun f hf => hok f (by simp [hf])) u b2.file (by
        rcases hfit with hf | hf
        · left; rw [hstep] at hf; exact hf
        · right; omega)
      refine ⟨s', rs.length + k', l1 ++ l', c1, ?_, ?_, ?_, ?_⟩
      · rw [c2, a2, List.take_of_length_le b1, ← hplen, List.take_length_add_append]; simp
      · rw [c3, a3]; simp
      · rw [← hlen, List.take_length_add_append]
        exact (a4.trans (List.take_sublist _ _)).append c4
      · intro w hw
        obtain ⟨d1, d2⟩ := c5 w hw
        exact ⟨by rw [List.length_append]; omega, d2⟩
    | stop u => rw [hstep] at a1; exact hend _ a1 (by simp)
    | exit a b c u => rw [hstep] at a1; exact hend _ a1 (by simp)
    | ub => rw [hstep] at a1; simp [Flow.st?] at a1

theorem GFile.start (junk : List Int) (h : BufOk junk) : GFile (start junk) :=
  ⟨h, rfl, by simp [Sky.start], fun _ => rfl⟩

/-! ### How the loop is left -/

theorem advance_next (s : LoopSt) (l : CString) : (∀ u, advance s l ≠ .stop u) ∧ ∀ a b c u, advance s l ≠ .exit a b c u := by
  rcases advance_cases s l with h | ⟨b, h⟩ <;> rw [h] <;> simp

theorem tleStep_leave (p : Params) (E : Tle → Obs) (s s' : LoopSt) (l : CString) :
    (tleStep p E s l = .stop s' → s'.found = true ∨ s'.nFound = p.maxSats) ∧
    (∀ a b c, tleStep p E s l = .exit a b c s' →
      a = 2 ∧ b = 1 ∧ ∃ t, parseElements s.line1 l = some (0, some t) ∧ (E t).nan = true) := by
  unfold tleStep
  cases hp : parseElements s.line1 l with
  | none => simp
  | some v =>
    obtain ⟨rv, ot⟩ := v
    simp only []
    by_cases hr : rv = 0
    · subst hr
      rw [if_pos rfl]
      cases ot with
      | none => simp
      | some t =>
        simp only []
        unfold consider
        simp only [select_exam]
        cases select p s ((s.line1.drop 2).take 5) t with
        | none => simp
        | some ab =>
          obtain ⟨skip, fnd⟩ := ab
          simp only []
          by_cases hskip : skip = true
          · rw [if_pos hskip]; simp
          · rw [if_neg hskip]
            split
            · simp
            · split
              · simp
              · rename_i s1 _
                unfold observe
                simp only []
                by_cases hnan : (E t).nan = true
                · rw [if_pos hnan]
                  refine ⟨by simp, ?_⟩
                  intro a b c h
                  simp only [Flow.exit.injEq] at h
                  exact ⟨h.1.symm, h.2.1.symm, t, rfl, hnan⟩
                · rw [if_neg hnan]
                  split
                  · simp
                  · split
                    · unfold report
                      simp only []
                      split
                      · simp
                      · split
                        · split
                          · rename_i hst
                            refine ⟨?_, by simp⟩
                            intro h
                            simp only [Flow.stop.injEq] at h
                            subst h
                            simpa using hst
                          · exact ⟨fun h => absurd h ((advance_next _ _).1 _), fun a b c h => absurd h ((advance_next _ _).2 _ _ _ _)⟩
                        · simp
                    · exact ⟨fun h => absurd h ((advance_next _ _).1 _), fun a b c h => absurd h ((advance_next _ _).2 _ _ _ _)⟩
    · rw [if_neg hr]
      exact ⟨fun h => absurd h ((advance_next _ _).1 _), fun a b c h => absurd h ((advance_next _ _).2 _ _ _ _)⟩

end SatSky.Sky
