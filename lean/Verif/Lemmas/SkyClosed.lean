import Verif.Lemmas.SkyInv2

/-! Closed form of a region or name search over files of records. -/

namespace SatSky.Sky

open SatSky Spec GetEl Opts

/-- The satellite of a report. -/
def Report.item (r : Report) : Item := ⟨r.name, r.cat, r.tle⟩

theorem cstr_split {buf : List Int} {nm : CString} (h : cstr buf = some nm) :
    ∃ rest, buf = nm ++ 0 :: rest := by
  unfold cstr at h
  split at h
  · rename_i hmem
    simp only [Option.some.injEq] at h
    subst h
    induction buf with
    | nil => simp at hmem
    | cons c t ih =>
      by_cases hc : c = 0
      · subst hc; exact ⟨t, by simp⟩
      · have ht : 0 ∈ t := by
          rcases List.mem_cons.mp hmem with h | h
          · exact absurd h.symm hc
          · exact h
        obtain ⟨rest, hr⟩ := ih ht
        refine ⟨rest, ?_⟩
        rw [List.takeWhile_cons, if_pos (by simpa using hc), List.cons_append, ← hr]
  · simp at h

theorem memEq_iff {buf : List Int} {nm s : CString} (h : cstr buf = some nm) (hs : IsCStr s) :
    memEq buf s = true ↔ s <+: nm := by
  obtain ⟨rest, rfl⟩ := cstr_split h
  unfold memEq
  rw [List.isPrefixOf_iff_prefix]
  constructor
  · intro hp
    by_cases hl : s.length ≤ nm.length
    · exact List.prefix_of_prefix_length_le hp (List.prefix_append _ _) hl
    · exfalso
      have hlt : nm.length < s.length := by omega
      have h1 := hp.getElem hlt
      have h2 : (nm ++ 0 :: rest)[nm.length]'(by simp) = 0 := by simp
      rw [h2] at h1
      exact hs _ (List.getElem_mem hlt) h1
  · intro hp
    exact hp.trans (List.prefix_append _ _)

theorem firsts_cons {α κ : Type} [DecidableEq κ] (key : α → κ) (s : List κ) (a : α) (l : List α) :
    firsts key s (a :: l) = if key a ∈ s then firsts key s l else a :: firsts key (key a :: s) l := rfl

theorem firsts_congr {α κ : Type} [DecidableEq κ] (key : α → κ) (l : List α) (s s' : List κ)
    (h : ∀ k, k ∈ s ↔ k ∈ s') : firsts key s l = firsts key s' l := by
  induction l generalizing s s' with
  | nil => rfl
  | cons a l ih =>
    unfold firsts
    by_cases ha : key a ∈ s
    · rw [if_pos ha, if_pos ((h _).mp ha)]; exact ih s s' h
    · rw [if_neg ha, if_neg (fun hc => ha ((h _).mpr hc))]
      congr 1
      exact ih _ _ (by intro k; simp [h])

theorem firsts_append {α κ : Type} [DecidableEq κ] (key : α → κ) (l m : List α) (s s' : List κ)
    (h : ∀ k, k ∈ s' ↔ k ∈ s ∨ k ∈ l.map key) :
    firsts key s (l ++ m) = firsts key s l ++ firsts key s' m := by
  induction l generalizing s with
  | nil => simp only [List.nil_append, firsts]; exact firsts_congr key m s s' (by intro k; simp [h])
  | cons a l ih =>
    simp only [List.cons_append, firsts_cons]
    by_cases ha : key a ∈ s
    · rw [if_pos ha, if_pos ha]
      apply ih
      intro k
      rw [h]
      simp only [List.map_cons, List.mem_cons]
      constructor
      · rintro (hk | rfl | hk)
        · exact Or.inl hk
        · exact Or.inl ha
        · exact Or.inr hk
      · rintro (hk | hk)
        · exact Or.inl hk
        · exact Or.inr (Or.inr hk)
    · rw [if_neg ha, if_neg ha, List.cons_append]
      congr 1
      apply ih
      intro k
      rw [h]
      simp only [List.map_cons, List.mem_cons]
      tauto

theorem wanted_congr (p : Params) (E : Tle → Obs) (s s' : List CString) (l : List Item)
    (h : ∀ k, k ∈ s ↔ k ∈ s') : wanted p E s l = wanted p E s' l := by
  unfold wanted candidates
  rw [firsts_congr _ _ s s' h]

theorem wanted_append (p : Params) (E : Tle → Obs) (s s' : List CString) (l m : List Item)
    (h : ∀ k, k ∈ s' ↔ k ∈ s ∨ k ∈ (l.filter (NameOk p)).map Item.cat) :
    wanted p E s (l ++ m) = wanted p E s l ++ wanted p E s' m := by
  unfold wanted candidates
  rw [List.filter_append, firsts_append _ _ _ s s' h, List.filter_append]

theorem wanted_cons (p : Params) (E : Tle → Obs) (s : List CString) (i : Item) (l : List Item) :
    wanted p E s (i :: l) =
      if NameOk p i ∧ i.cat ∉ s then
        (if Qualifies p (E i.tle) then [i] else []) ++ wanted p E (s ++ [i.cat]) l
      else wanted p E s l := by
  have hcongr : wanted p E (s ++ [i.cat]) l = wanted p E (i.cat :: s) l :=
    wanted_congr p E _ _ l (by intro k; simp [or_comm])
  rw [hcongr]
  unfold wanted candidates
  by_cases hn : NameOk p i
  · rw [List.filter_cons, if_pos (by simpa using hn)]
    rw [firsts]
    by_cases hc : i.cat ∈ s
    · rw [if_pos hc, if_neg (by tauto)]
    · rw [if_neg hc, if_pos ⟨hn, hc⟩, List.filter_cons]
      by_cases hq : Qualifies p (E i.tle)
      · rw [if_pos (by simpa using hq), if_pos hq]; rfl
      · rw [if_neg (by simpa using hq), if_neg hq]; rfl
  · rw [List.filter_cons, if_neg (by simpa using hn), if_neg (by tauto)]

/-- Reports and counter unchanged. -/
def Same (s s' : LoopSt) : Prop := s'.reports = s.reports ∧ s'.nFound = s.nFound ∧ s'.found = s.found

/-- Invariant between records in a region or name search. -/
structure CInv (s : LoopSt) (cats : List CString) (nm : CString) : Prop where
  g : GInv s nm
  seen : s.seen = seenText cats
  cats : ∀ c ∈ cats, CatOk c
  found : s.found = false

/-- The state handed to `consider`: as `CInv`, with line 1 of the record in place. -/
structure EInv (s : LoopSt) (r : Record) (cats : List CString) (nm : CString) : Prop where
  line : s.line1 = r.l1
  buf : BufOk s.name
  name : cstr s.name = some nm
  len : s.seen.length = s.useLen
  use : s.useLen ≤ 6 * s.exam.length
  cur : s.exam.length ≤ 11666 → s.curLen = 70000
  seen : s.seen = seenText cats
  cats : ∀ c ∈ cats, CatOk c
  found : s.found = false

theorem CInv.enter {s : LoopSt} {cats : List CString} {nm : CString} (h : CInv s cats nm) (r : Record)
    {b : List Int} {nm' : CString} (hb : BufOk b) (hn : cstr b = some nm') :
    EInv (enter s r b) r cats nm' :=
  ⟨rfl, hb, hn, h.g.len, h.g.use, h.g.cur, h.seen, h.cats, h.found⟩

theorem consider_region (p : Params) (E : Tle → Obs) (s : LoopSt) (r : Record) (t : Tle)
    (cats : List CString) (nm : CString) (hsingle : single p = false) (hsat : IsCStr p.satname)
    (hg : Good r t) (he : EInv s r cats nm) (hcat : CatOk r.cat) (hnan : (E t).nan = false)
    (hnub : consider p E s t r.l2 ≠ .ub) :
    (¬ (NameOk p ⟨nm, r.cat, t⟩ ∧ r.cat ∉ cats) →
      ∃ s', consider p E s t r.l2 = .next s' ∧ Same s s' ∧ s'.seen = seenText cats) ∧
    (NameOk p ⟨nm, r.cat, t⟩ ∧ r.cat ∉ cats → ¬ Qualifies p (E t) →
      ∃ s', consider p E s t r.l2 = .next s' ∧ Same s s' ∧ s'.seen = seenText (cats ++ [r.cat])) ∧
    (NameOk p ⟨nm, r.cat, t⟩ ∧ r.cat ∉ cats → Qualifies p (E t) →
      ∃ s' rep, rep.item = ⟨nm, r.cat, t⟩ ∧ s'.reports = s.reports ++ [rep] ∧ s'.nFound = s.nFound + 1 ∧
        s'.found = false ∧ s'.seen = seenText (cats ++ [r.cat]) ∧
        (s.nFound + 1 = p.maxSats → consider p E s t r.l2 = .stop s') ∧
        (s.nFound + 1 ≠ p.maxSats → consider p E s t r.l2 = .next s')) := by
  obtain ⟨hl1, hl2, hc1, hc2, hn⟩ := hg.1
  obtain ⟨d, hd⟩ := desigText_ok t.intlDesig (by rw [(parse_desig hg.2).2.1])
  have hs1 : p.singleN = false ∧ p.singleI = false := by simpa [single] using hsingle
  have hsel : ∀ e, select p { s with exam := e } r.cat t
      = some (p.nameFilter && !memEq s.name p.satname, false) := by
    intro e
    unfold select
    rw [hs1.1, hs1.2]
    simp only [Bool.false_eq_true, if_false]
    by_cases hf : p.nameFilter = true
    · rw [if_pos hf, he.found, hf]; rfl
    · rw [if_neg hf, he.found]
      have : p.nameFilter = false := by simpa using hf
      rw [this]; rfl
  have hname : (p.nameFilter && !memEq s.name p.satname) = false ↔ NameOk p ⟨nm, r.cat, t⟩ := by
    unfold NameOk
    cases hf : p.nameFilter
    · simp
    · simp only [Bool.true_and, Bool.not_eq_eq_eq_not, Bool.not_false, true_imp_iff]
      exact memEq_iff he.name hsat
  have hcatlen := hcat.1
  have hstr : strstr s.seen (r.cat ++ [44]) = true ↔ r.cat ∈ cats := by
    rw [strstr_iff, he.seen, infix_seenText cats he.cats r.cat hcat]
  have hseen' : s.seen ++ (r.cat ++ [44]) = seenText (cats ++ [r.cat]) := by
    rw [he.seen]; simp [seenText]
  unfold consider at hnub ⊢
  simp only [he.line] at hnub ⊢
  rw [show (r.l1.drop 2).take 5 = r.cat from rfl] at hnub ⊢
  set s0 : LoopSt := { s with exam := s.exam ++ [(r.l1, r.l2)], line1 := r.l1 } with hs0
  have hsel0 : select p s0 r.cat t = some (p.nameFilter && !memEq s.name p.satname, false) := hsel (s.exam ++ [(r.l1, r.l2)])
  rw [hsel0] at hnub ⊢
  simp only [] at hnub ⊢
  have hr : NameOk p ⟨nm, r.cat, t⟩ ∧ r.cat ∉ cats → ∃ c, remember { s0 with found := false } (r.cat ++ [44])
      = some { s0 with found := false, seen := s.seen ++ (r.cat ++ [44]), useLen := s.useLen + 6, curLen := c } := by
    intro hyes
    cases hrem : remember { s0 with found := false } (r.cat ++ [44]) with
    | none =>
      simp only [hs0] at hrem
      rw [hname.mpr hyes.1, if_neg (by simp), if_neg (fun hc => hyes.2 (hstr.mp hc)), hrem] at hnub
      exact absurd rfl hnub
    | some s2 =>
      obtain ⟨c, rfl, -⟩ := remember_some hrem
      exact ⟨c, rfl⟩
  simp only [hs0] at hr
  refine ⟨?_, ?_, ?_⟩
  · intro hno
    by_cases hno1 : NameOk p ⟨nm, r.cat, t⟩
    · have hin : r.cat ∈ cats := by by_contra hc; exact hno ⟨hno1, hc⟩
      rw [hname.mpr hno1, if_neg (by simp), if_pos (hstr.mpr hin)]
      exact ⟨_, rfl, ⟨rfl, rfl, he.found.symm⟩, he.seen⟩
    · rw [if_pos (by
        have : ¬ (p.nameFilter && !memEq s.name p.satname) = false := fun hc => hno1 (hname.mp hc)
        simpa using this)]
      exact ⟨_, rfl, ⟨rfl, rfl, he.found.symm⟩, he.seen⟩
  · intro hyes hq
    obtain ⟨c, hr⟩ := hr hyes
    rw [hname.mpr hyes.1, if_neg (by simp), if_neg (fun hc => hyes.2 (hstr.mp hc)), hr]
    simp only []
    unfold observe
    simp only []
    rw [hnan, if_neg (by simp)]
    by_cases halt : AltOk p (E t)
    · rw [if_neg (by
        cases ha : p.altRange
        · simp
        · have := halt ha
          simp [this.1, this.2])]
      rw [hsingle]
      by_cases hreg : p.nameFilter = true ∨ InRegion p (E t)
      · rw [if_pos (by simp only [Bool.false_or, Bool.or_eq_true, decide_eq_true_eq]; unfold InRegion at hreg; tauto)]
        have hlight : ¬ LightOk p (E t) := fun hc => hq ⟨halt, hreg, hc⟩
        rw [report_eq p _ _ t (E t) r.l2 nm d ?hn hd (looksOk_head hl2)]
        case hn => exact he.name
        have hl : p.sunlitOnly = true ∧ (E t).sunlit = false := by
          unfold LightOk at hlight
          push Not at hlight
          exact ⟨hlight.1, by simpa using hlight.2⟩
        rw [if_pos hl]
        exact ⟨_, rfl, ⟨rfl, rfl, he.found.symm⟩, hseen'⟩
      · rw [if_neg (by simp only [Bool.false_or, Bool.or_eq_true, decide_eq_true_eq]; unfold InRegion at hreg; tauto)]
        rw [advance_l2 _ _ (Or.inl (looksOk_head hl2))]
        exact ⟨_, rfl, ⟨rfl, rfl, he.found.symm⟩, hseen'⟩
    · rw [if_pos (by
        unfold AltOk at halt
        push Not at halt
        obtain ⟨ha, hb⟩ := halt
        rw [ha]
        simp only [Bool.true_and, Bool.or_eq_true, decide_eq_true_eq]
        by_cases h1 : p.altMin ≤ (E t).alt
        · exact Or.inr (hb h1)
        · exact Or.inl (lt_of_not_ge h1))]
      exact ⟨_, rfl, ⟨rfl, rfl, he.found.symm⟩, hseen'⟩
  · intro hyes hq
    obtain ⟨halt, hreg, hlight⟩ := hq
    obtain ⟨c, hr⟩ := hr hyes
    rw [hname.mpr hyes.1, if_neg (by simp), if_neg (fun hc => hyes.2 (hstr.mp hc)), hr]
    simp only []
    unfold observe
    simp only []
    rw [hnan, if_neg (by simp), if_neg (by
        cases ha : p.altRange
        · simp
        · have := halt ha
          simp [this.1, this.2]), hsingle,
      if_pos (by simp only [Bool.false_or, Bool.or_eq_true, decide_eq_true_eq]; unfold InRegion at hreg; tauto),
      report_eq p _ _ t (E t) r.l2 nm d ?hn hd (looksOk_head hl2)]
    case hn => exact he.name
    rw [if_neg (by
      rintro ⟨h1, h2⟩
      have := hlight h1
      rw [h2] at this; simp at this)]
    by_cases hmax : s.nFound + 1 = p.maxSats
    · rw [if_pos (Or.inr hmax)]
      exact ⟨_, { name := nm, desig := d, cat := r.cat, tle := t, obs := E t }, rfl, rfl, rfl, rfl, hseen',
        fun _ => rfl, fun hc => absurd hmax hc⟩
    · rw [if_neg (by rintro (h | h); · simp at h
                     · exact hmax h)]
      exact ⟨_, { name := nm, desig := d, cat := r.cat, tle := t, obs := E t }, rfl, rfl, rfl, rfl, hseen',
        fun hc => absurd hc hmax, fun _ => rfl⟩

/-- The limit is reached within `w`. -/
def Hit (N k : ℤ) (w : List Item) : Prop := k < N ∧ N - k ≤ w.length

/-- What a stretch of the run over the satellites `l` yields from state `s`. -/
def Concl (p : Params) (E : Tle → Obs) (f : Flow) (s : LoopSt) (cats : List CString) (l : List Item) : Prop :=
  let w := wanted p E cats l
  ∃ s', s'.reports.map Report.item = s.reports.map Report.item ++ limited p.maxSats s.nFound w ∧
    (Hit p.maxSats s.nFound w → f = .stop s') ∧
    (¬ Hit p.maxSats s.nFound w → f = .next s' ∧ s'.nFound = s.nFound + w.length ∧
      s'.exam.length = s.exam.length + l.length ∧
      ∃ nm' cats', CInv s' cats' nm' ∧
        ∀ k, k ∈ cats' ↔ k ∈ cats ∨ k ∈ (l.filter (NameOk p)).map Item.cat)

/-- Conditions on a record for the closed form. -/
structure ItemOk (E : Tle → Obs) (rt : Record × Tle) : Prop where
  good : Good rt.1 rt.2
  comma : 44 ∉ rt.1.cat
  nan : (E rt.2).nan = false

theorem ItemOk.cat {E : Tle → Obs} {rt : Record × Tle} (h : ItemOk E rt) : CatOk rt.1.cat :=
  ⟨good_cat h.good, h.comma⟩

theorem limited_cons_eq {α : Type} (N k : ℤ) (a : α) (l : List α) (h : k + 1 = N) :
    limited N k (a :: l) = [a] := by
  unfold limited
  rw [if_pos (by omega), show (N - k).toNat = 1 by omega]; rfl

theorem limited_cons_ne {α : Type} (N k : ℤ) (a : α) (l : List α) (h : k + 1 ≠ N) :
    limited N k (a :: l) = a :: limited N (k + 1) l := by
  unfold limited
  by_cases hk : k < N
  · rw [if_pos hk, if_pos (by omega), show (N - k).toNat = (N - (k + 1)).toNat + 1 by omega]; rfl
  · rw [if_neg hk, if_neg (by omega)]

/-- One record, then the rest. -/
theorem region_cons (p : Params) (E : Tle → Obs) (s : LoopSt) (r : Record) (t : Tle)
    (cats : List CString) (nm : CString) (hsingle : single p = false) (hsat : IsCStr p.satname)
    (hi : ItemOk E (r, t)) (he : EInv s r cats nm) (l : List Item) (rest : List CString)
    (hfit : Fit (andThen p E (consider p E s t r.l2) rest) s (l.length + 1))
    (ih : ∀ s' cats', CInv s' cats' nm → Fit (tleLoop p E s' rest) s' l.length →
      Concl p E (tleLoop p E s' rest) s' cats' l) :
    Concl p E (andThen p E (consider p E s t r.l2) rest) s cats (⟨nm, r.cat, t⟩ :: l) := by
  have hnub := hfit.head hi.good he.name he.len he.use he.cur he.line
  obtain ⟨s0, hst, hexam, hginv⟩ := consider_general p E s r t nm hi.good he.buf he.name he.len he.use he.cur
    he.line hnub
  obtain ⟨hA, hB, hC⟩ := consider_region p E s r t cats nm hsingle hsat hi.good he hi.cat hi.nan hnub
  have hexl : ∀ s', consider p E s t r.l2 = .next s' → s'.exam.length = s.exam.length + 1 := by
    intro s' h
    rw [h] at hst
    simp only [Flow.st?, Option.some.injEq] at hst
    subst hst
    rw [hexam]; simp
  by_cases hyes : NameOk p ⟨nm, r.cat, t⟩ ∧ r.cat ∉ cats
  · -- a new candidate
    have hw := wanted_cons p E cats ⟨nm, r.cat, t⟩ l
    rw [if_pos hyes] at hw
    have hkeys : ∀ k, k ∈ cats ++ [r.cat] ∨ k ∈ (l.filter (NameOk p)).map Item.cat ↔
        k ∈ cats ∨ k ∈ ((⟨nm, r.cat, t⟩ :: l : List Item).filter (NameOk p)).map Item.cat := by
      intro k
      rw [List.filter_cons, if_pos (by simpa using hyes.1)]
      simp only [List.mem_append, List.mem_singleton, List.map_cons, List.mem_cons]
      tauto
    have hcats' : ∀ c ∈ cats ++ [r.cat], CatOk c := by
      intro c hc
      rcases List.mem_append.mp hc with hc | hc
      · exact he.cats c hc
      · simp at hc; subst hc; exact hi.cat
    by_cases hq : Qualifies p (E t)
    · obtain ⟨s', rep, hrep, hreps, hnf, hfd, hseen, hstop, hnext⟩ := hC hyes hq
      rw [if_pos hq] at hw
      unfold Concl
      simp only []
      rw [hw]
      by_cases hmax : s.nFound + 1 = p.maxSats
      · refine ⟨s', ?_, ?_, ?_⟩
        · rw [hreps, List.map_append, List.singleton_append, limited_cons_eq _ _ _ _ hmax]
          simp [hrep]
        · intro _
          rw [hstop hmax]; rfl
        · intro hno
          exfalso
          apply hno
          unfold Hit
          simp only [List.length_append, List.length_cons, List.length_nil]
          omega
      · have hn := hnext hmax
        have hcinv : CInv s' (cats ++ [r.cat]) nm := ⟨hginv s' hn, hseen, hcats', hfd⟩
        obtain ⟨s2, h1, h2, h3⟩ := ih s' (cats ++ [r.cat]) hcinv (hfit.tail hn (hexl s' hn))
        rw [hnf] at h1 h2 h3
        have hhit : Hit p.maxSats s.nFound ([⟨nm, r.cat, t⟩] ++ wanted p E (cats ++ [r.cat]) l) ↔
            Hit p.maxSats (s.nFound + 1) (wanted p E (cats ++ [r.cat]) l) := by
          unfold Hit
          simp only [List.length_append, List.length_cons, List.length_nil]
          omega
        refine ⟨s2, ?_, ?_, ?_⟩
        · rw [h1, hreps, List.map_append, List.singleton_append, limited_cons_ne _ _ _ _ hmax]
          simp [hrep]
        · intro hh
          rw [hn]
          exact h2 (hhit.mp hh)
        · intro hh
          rw [hn]
          obtain ⟨k1, k2, k3, nm', cats', k4, k5⟩ := h3 (fun hc => hh (hhit.mpr hc))
          refine ⟨k1, ?_, ?_, nm', cats', k4, ?_⟩
          · rw [k2]; simp only [List.length_append, List.length_cons, List.length_nil]; push_cast; ring
          · rw [k3, hexl s' hn]; simp; omega
          · intro k; rw [k5, hkeys]
    · obtain ⟨s', hn, ⟨hr1, hr2, hr3⟩, hseen⟩ := hB hyes hq
      rw [if_neg hq, List.nil_append] at hw
      have hcinv : CInv s' (cats ++ [r.cat]) nm := ⟨hginv s' hn, hseen, hcats', by rw [hr3, he.found]⟩
      obtain ⟨s2, h1, h2, h3⟩ := ih s' (cats ++ [r.cat]) hcinv (hfit.tail hn (hexl s' hn))
      unfold Concl
      simp only []
      rw [hw]
      rw [hr1, hr2] at h1
      rw [hr2] at h2 h3
      refine ⟨s2, h1, ?_, ?_⟩
      · intro hh; rw [hn]; exact h2 hh
      · intro hh
        rw [hn]
        obtain ⟨k1, k2, k3, nm', cats', k4, k5⟩ := h3 hh
        refine ⟨k1, k2, ?_, nm', cats', k4, ?_⟩
        · rw [k3, hexl s' hn]; simp; omega
        · intro k; rw [k5, hkeys]
  · obtain ⟨s', hn, ⟨hr1, hr2, hr3⟩, hseen⟩ := hA hyes
    have hw := wanted_cons p E cats ⟨nm, r.cat, t⟩ l
    rw [if_neg hyes] at hw
    have hcinv : CInv s' cats nm := ⟨hginv s' hn, hseen, he.cats, by rw [hr3, he.found]⟩
    obtain ⟨s2, h1, h2, h3⟩ := ih s' cats hcinv (hfit.tail hn (hexl s' hn))
    unfold Concl
    simp only []
    rw [hw]
    rw [hr1, hr2] at h1
    rw [hr2] at h2 h3
    refine ⟨s2, h1, ?_, ?_⟩
    · intro hh; rw [hn]; exact h2 hh
    · intro hh
      rw [hn]
      obtain ⟨k1, k2, k3, nm', cats', k4, k5⟩ := h3 hh
      refine ⟨k1, k2, ?_, nm', cats', k4, ?_⟩
      · rw [k3, hexl s' hn]; simp; omega
      · intro k
        rw [k5, List.filter_cons]
        by_cases hno : NameOk p ⟨nm, r.cat, t⟩
        · have hin : r.cat ∈ cats := by by_contra hc; exact hyes ⟨hno, hc⟩
          rw [if_pos (by simpa using hno)]
          simp only [List.map_cons, List.mem_cons]
          constructor
          · rintro (h | h)
            · exact Or.inl h
            · exact Or.inr (Or.inr h)
          · rintro (h | rfl | h)
            · exact Or.inl h
            · exact Or.inl hin
            · exact Or.inr h
        · rw [if_neg (by simpa using hno)]

theorem items_length (first : Bool) (nm : CString) (rs : List (Record × Tle)) :
    (items first nm rs).length = rs.length := by
  induction rs generalizing first nm with
  | nil => rfl
  | cons a rs ih => obtain ⟨r, t⟩ := a; simp [items, ih]

theorem tleLoop_region (p : Params) (E : Tle → Obs) (hsingle : single p = false) (hsat : IsCStr p.satname)
    (rs : List (Record × Tle)) (hrs : ∀ x ∈ rs, ItemOk E x) (s : LoopSt) (cats : List CString) (nm : CString)
    (h : CInv s cats nm) (hfit : Fit (tleLoop p E s (rs.flatMap (fun x => x.1.lines))) s rs.length) :
    Concl p E (tleLoop p E s (rs.flatMap (fun x => x.1.lines))) s cats (items false nm rs) := by
  induction rs generalizing s cats nm with
  | nil =>
    unfold Concl
    have hw : wanted p E cats (items false nm []) = [] := rfl
    simp only [hw]
    refine ⟨s, ?_, ?_, ?_⟩
    · unfold limited; split <;> simp
    · rintro ⟨h1, h2⟩; simp at h2; omega
    · intro _
      exact ⟨rfl, by simp, by simp [items], nm, cats, h, by intro k; simp [items]⟩
  | cons a rs ih =>
    obtain ⟨r, t⟩ := a
    have hi := hrs (r, t) (by simp)
    obtain ⟨b, hb, hn, heq⟩ := tleLoop_record p E s r t nm hi.good h.g.harmless h.g.buf h.g.name
      (rs.flatMap (fun x => x.1.lines))
    rw [List.flatMap_cons, heq] at hfit ⊢
    simp only [items]
    have := region_cons p E (enter s r b) r t cats (nameFor false nm r) hsingle hsat hi (h.enter r hb hn)
      (items false (nameFor false nm r) rs) (rs.flatMap (fun x => x.1.lines))
      (by rw [items_length]; exact hfit)
      (fun s' cats' hc hl => ih (fun x hx => hrs x (by simp [hx])) s' cats' _ hc (by rw [items_length] at hl; exact hl))
    exact this

/-- Invariant between files. -/
structure FInv (s : LoopSt) (cats : List CString) : Prop where
  buf : BufOk s.name
  len : s.seen.length = s.useLen
  use : s.useLen ≤ 6 * s.exam.length
  cur : s.exam.length ≤ 11666 → s.curLen = 70000
  seen : s.seen = seenText cats
  cats : ∀ c ∈ cats, CatOk c
  found : s.found = false

theorem fileLoop_region (p : Params) (E : Tle → Obs) (hsingle : single p = false) (hsat : IsCStr p.satname)
    (path : CString) (rs : List (Record × Tle)) (hne : rs ≠ []) (hrs : ∀ x ∈ rs, ItemOk E x)
    (hfile : FileOfLines (rs.flatMap (fun x => x.1.lines))) (s : LoopSt) (cats : List CString)
    (h : FInv s cats)
    (hfit : Fit (fileLoop p E path s (rs.flatMap (fun x => x.1.lines)).flatten) s rs.length) :
    Concl p E (fileLoop p E path s (rs.flatMap (fun x => x.1.lines)).flatten) s cats (fileItems rs) := by
  cases rs with
  | nil => exact absurd rfl hne
  | cons a rs =>
    obtain ⟨r, t⟩ := a
    have hi := hrs (r, t) (by simp)
    have hl := fileLines_eq _ hfile
    rw [List.flatMap_cons] at hl
    obtain ⟨b, hb, hn, heq⟩ := fileLoop_record p E path s r t hi.good h.buf [] _ _ hl
    rw [List.flatMap_cons, heq] at hfit ⊢
    unfold fileItems
    simp only [items]
    have := region_cons p E (enter s r b) r t cats (nameFor true [] r) hsingle hsat hi
      ⟨rfl, hb, hn, h.len, h.use, h.cur, h.seen, h.cats, h.found⟩
      (items false (nameFor true [] r) rs) (rs.flatMap (fun x => x.1.lines))
      (by rw [items_length]; exact hfit)
      (fun s' cats' hc hl => tleLoop_region p E hsingle hsat rs (fun x hx => hrs x (by simp [hx])) s' cats' _ hc
        (by rw [items_length] at hl; exact hl))
    exact this

/-- The files of a run, each given by its records. -/
def contents (files : List (CString × List (Record × Tle))) : List (CString × Option CString) :=
  files.map (fun f => (f.1, some (f.2.flatMap (fun x => x.1.lines)).flatten))

/-- All satellites of the files in reading order. -/
def allItems (files : List (CString × List (Record × Tle))) : List Item := files.flatMap (fun f => fileItems f.2)

theorem limited_append_hit (N k : ℤ) (a b : List Item) (h : Hit N k a) :
    limited N k (a ++ b) = limited N k a := by
  obtain ⟨h1, h2⟩ := h
  unfold limited
  rw [if_pos h1, if_pos h1, List.take_append_of_le_length (by omega)]

theorem limited_append_miss (N k : ℤ) (a b : List Item) (h : ¬ Hit N k a) :
    limited N k a = a ∧ limited N k (a ++ b) = a ++ limited N (k + a.length) b := by
  unfold Hit at h
  unfold limited
  by_cases hk : k < N
  · have hlt : (a.length : ℤ) < N - k := by by_contra hc; exact h ⟨hk, by omega⟩
    rw [if_pos hk, if_pos hk, if_pos (by omega)]
    refine ⟨List.take_of_length_le (by omega), ?_⟩
    rw [List.take_append, List.take_of_length_le (by omega)]
    congr 2
    omega
  · rw [if_neg hk, if_neg hk, if_neg (by omega)]; exact ⟨rfl, rfl⟩

theorem filesLoop_region (p : Params) (E : Tle → Obs) (hsingle : single p = false) (hsat : IsCStr p.satname)
    (files : List (CString × List (Record × Tle)))
    (hok : ∀ f ∈ files, f.2 ≠ [] ∧ (∀ x ∈ f.2, ItemOk E x) ∧ FileOfLines (f.2.flatMap (fun x => x.1.lines)))
    (s : LoopSt) (cats : List CString) (h : FInv s cats)
    (hfit : Fit (filesLoop p E s (contents files)) s (allItems files).length) :
    ∃ s', s'.reports.map Report.item
        = s.reports.map Report.item ++ limited p.maxSats s.nFound (wanted p E cats (allItems files)) ∧
      (Hit p.maxSats s.nFound (wanted p E cats (allItems files)) →
        filesLoop p E s (contents files) = .stop s') ∧
      (¬ Hit p.maxSats s.nFound (wanted p E cats (allItems files)) →
        filesLoop p E s (contents files) = .next s') := by
  induction files generalizing s cats with
  | nil =>
    have hw : wanted p E cats (allItems []) = [] := rfl
    rw [hw]
    refine ⟨s, ?_, ?_, fun _ => rfl⟩
    · unfold limited; split <;> simp
    · rintro ⟨h1, h2⟩; simp at h2; omega
  | cons f files ih =>
    obtain ⟨path, rs⟩ := f
    obtain ⟨hne, hrs, hfile⟩ := hok (path, rs) (by simp)
    have hall : allItems ((path, rs) :: files) = fileItems rs ++ allItems files := by simp [allItems]
    rw [hall] at hfit ⊢
    have hlen : (fileItems rs).length = rs.length := items_length _ _ _
    rw [List.length_append, hlen] at hfit
    simp only [contents, List.map_cons, filesLoop] at hfit
    obtain ⟨s', h1, h2, h3⟩ := fileLoop_region p E hsingle hsat path rs hne hrs hfile s cats h (by
      rcases hfit with hf | hf
      · left; intro hc; rw [hc] at hf; exact hf rfl
      · right; omega)
    set w := wanted p E cats (fileItems rs) with hw
    simp only [contents, List.map_cons, filesLoop]
    by_cases hh : Hit p.maxSats s.nFound w
    · -- stopped in this file
      have hcats : ∃ cats', ∀ k, k ∈ cats' ↔ k ∈ cats ∨ k ∈ ((fileItems rs).filter (NameOk p)).map Item.cat :=
        ⟨cats ++ ((fileItems rs).filter (NameOk p)).map Item.cat, fun k => List.mem_append⟩
      obtain ⟨cats', hc'⟩ := hcats
      have hwa := wanted_append p E cats cats' (fileItems rs) (allItems files) hc'
      rw [hwa, ← hw]
      refine ⟨s', by rw [h1, limited_append_hit _ _ _ _ hh], ?_, ?_⟩
      · intro _; rw [h2 hh]
      · intro hno
        exfalso
        apply hno
        obtain ⟨a, b⟩ := hh
        exact ⟨a, by rw [List.length_append]; push_cast; omega⟩
    · obtain ⟨k1, k2, k3, nm', cats', k4, k5⟩ := h3 hh
      have hwa := wanted_append p E cats cats' (fileItems rs) (allItems files) k5
      rw [hwa, ← hw]
      obtain ⟨m1, m2⟩ := limited_append_miss p.maxSats s.nFound w (wanted p E cats' (allItems files)) hh
      obtain ⟨s2, j1, j2, j3⟩ := ih (fun f hf => hok f (by simp [hf])) s' cats'
        ⟨k4.g.buf, k4.g.len, k4.g.use, k4.g.cur, k4.seen, k4.cats, k4.found⟩ (by
          rcases hfit with hf | hf
          · left; rw [k1] at hf; exact hf
          · right; rw [k3, hlen]; omega)
      rw [k1]
      simp only []
      rw [k2] at j1 j2 j3
      have hhit : Hit p.maxSats s.nFound (w ++ wanted p E cats' (allItems files)) ↔
          Hit p.maxSats (s.nFound + w.length) (wanted p E cats' (allItems files)) := by
        unfold Hit at hh ⊢
        rw [List.length_append]
        push_cast
        omega
      refine ⟨s2, ?_, ?_, ?_⟩
      · rw [j1, h1, m1, m2, List.append_assoc]
      · intro hx; exact j2 (hhit.mp hx)
      · intro hx; exact j3 (fun hc => hx (hhit.mpr hc))

theorem FInv.start (junk : List Int) (h : BufOk junk) : FInv (start junk) [] :=
  ⟨h, rfl, by simp [Sky.start], fun _ => rfl, rfl, by simp, rfl⟩

end SatSky.Sky
