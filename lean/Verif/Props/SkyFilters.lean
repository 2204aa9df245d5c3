import Verif.Props.SkyLoop

/-! C21-C25: name, sunlit and altitude filters, names of the satellites, and the exact report list. -/

namespace SatSky.Props

open SatSky Spec GetEl Opts Sky

/-! ### C25: the exact list -/

/-- **C25**.  Closed form of a search by region or name over files of records (positions defined,
behaviour defined, which C17 gives for up to 11666 satellites): the satellites reported, in order, are exactly the wanted ones, i.e. the distinct
candidates that pass the altitude range, the region test (unless a name was requested) and the sunlit
request, up to the limit `-n`; the scan ends early exactly when the limit is reached. -/
theorem C25_reported_exactly (p : Params) (E : Tle → Obs) (hsingle : single p = false)
    (hsat : IsCStr p.satname) (junk : List Int) (hjunk : BufOk junk)
    (files : List (CString × List (Record × Tle)))
    (hok : ∀ f ∈ files, f.2 ≠ [] ∧ (∀ x ∈ f.2, ItemOk E x) ∧ FileOfLines (f.2.flatMap (fun x => x.1.lines)))
    (hdef : filesLoop p E (start junk) (contents files) ≠ .ub) :
    ∃ s, (filesLoop p E (start junk) (contents files)).st? = some s ∧
      s.reports.map Report.item = limited p.maxSats 0 (wanted p E [] (allItems files)) ∧
      (filesLoop p E (start junk) (contents files) = .stop s ↔
        (0 < p.maxSats ∧ p.maxSats ≤ (wanted p E [] (allItems files)).length)) := by
  obtain ⟨s, h1, h2, h3⟩ := filesLoop_region p E hsingle hsat files hok (start junk) [] (FInv.start junk hjunk)
    (Or.inl hdef)
  have h0 : (start junk).nFound = 0 := rfl
  have hr0 : (start junk).reports.map Report.item = [] := rfl
  rw [h0] at h1 h2 h3
  rw [hr0, List.nil_append] at h1
  have hhit : Hit p.maxSats 0 (wanted p E [] (allItems files)) ↔
      (0 < p.maxSats ∧ p.maxSats ≤ (wanted p E [] (allItems files)).length) := by
    unfold Hit; rw [sub_zero]
  by_cases hh : Hit p.maxSats 0 (wanted p E [] (allItems files))
  · refine ⟨s, by rw [h2 hh]; rfl, h1, ?_⟩
    rw [h2 hh, ← hhit]; simp [hh]
  · refine ⟨s, by rw [h3 hh]; rfl, h1, ?_⟩
    rw [h3 hh, ← hhit]; simp [hh]

/-- **C25** (iff, per satellite).  Without limit, a satellite whose catalogue text is unique in the
input is reported iff it passes all the filters. -/
theorem C25_reported_iff (p : Params) (E : Tle → Obs) (hsingle : single p = false)
    (hsat : IsCStr p.satname) (hmax : p.maxSats ≤ 0) (junk : List Int) (hjunk : BufOk junk)
    (files : List (CString × List (Record × Tle)))
    (hok : ∀ f ∈ files, f.2 ≠ [] ∧ (∀ x ∈ f.2, ItemOk E x) ∧ FileOfLines (f.2.flatMap (fun x => x.1.lines)))
    (s : LoopSt)
    (h : (filesLoop p E (start junk) (contents files)).st? = some s)
    (i : Item) (hi : i ∈ allItems files) (huniq : ∀ j ∈ allItems files, j.cat = i.cat → j = i) :
    i ∈ s.reports.map Report.item ↔
      (p.nameFilter = true → p.satname <+: i.name) ∧
      (p.altRange = true → p.altMin ≤ (E i.tle).alt ∧ (E i.tle).alt ≤ p.altMax) ∧
      (p.nameFilter = true ∨ (E i.tle).sep ≤ p.radius ∨ (E i.tle).sep1 ≤ p.radius) ∧
      (p.sunlitOnly = true → (E i.tle).sunlit = true) := by
  obtain ⟨s', h1, h2, -⟩ := C25_reported_exactly p E hsingle hsat junk hjunk files hok (st?_ne_ub h)
  rw [h] at h1
  simp only [Option.some.injEq] at h1
  subst h1
  rw [h2]
  unfold limited
  rw [if_neg (by omega)]
  unfold wanted
  rw [List.mem_filter]
  have hcand : i ∈ candidates p [] (allItems files) ↔ NameOk p i := by
    unfold candidates
    have gen : ∀ (l : List Item) (seen : List CString), i.cat ∉ seen → i ∈ l →
        (∀ j ∈ l, j.cat = i.cat → j = i) → i ∈ firsts Item.cat seen l := by
      intro l
      induction l with
      | nil => intro _ _ hm; simp at hm
      | cons a l ih =>
        intro seen hs hm hu
        rw [firsts_cons]
        rcases List.mem_cons.mp hm with rfl | hm
        · rw [if_neg hs]; simp
        · by_cases ha : a.cat ∈ seen
          · rw [if_pos ha]; exact ih seen hs hm (fun j hj => hu j (by simp [hj]))
          · rw [if_neg ha]
            by_cases hai : a = i
            · subst hai; simp
            · refine List.mem_cons_of_mem _ (ih _ ?_ hm (fun j hj => hu j (by simp [hj])))
              simp only [List.mem_cons, not_or]
              refine ⟨fun hc => hai (hu a (by simp) hc.symm), hs⟩
    have sub : ∀ (l : List Item) (seen : List CString), i ∈ firsts Item.cat seen l → i ∈ l := by
      intro l
      induction l with
      | nil => intro _ hm; simp [firsts] at hm
      | cons a l ih =>
        intro seen hm
        rw [firsts_cons] at hm
        split at hm
        · exact List.mem_cons_of_mem _ (ih _ hm)
        · rcases List.mem_cons.mp hm with rfl | hm
          · simp
          · exact List.mem_cons_of_mem _ (ih _ hm)
    constructor
    · intro hm
      have := sub _ _ hm
      rw [List.mem_filter] at this
      simpa using this.2
    · intro hn
      refine gen _ [] (by simp) ?_ ?_
      · rw [List.mem_filter]; exact ⟨hi, by simpa using hn⟩
      · intro j hj; exact huniq j (List.mem_of_mem_filter hj)
  rw [hcand]
  simp only [decide_eq_true_eq]
  unfold NameOk Qualifies AltOk InRegion LightOk
  tauto

/-- **C25** (only if, arbitrary files).  Whatever the input, everything reported passed the tests. -/
theorem C25_only_if (p : Params) (E : Tle → Obs) (junk : List Int) (fs : List (CString × Option CString))
    (s : LoopSt) (h : (filesLoop p E (start junk) fs).st? = some s) (r : Report) (hr : r ∈ s.reports) :
    r.obs = E r.tle ∧ r.obs.nan = false ∧
    (p.altRange = true → p.altMin ≤ r.obs.alt ∧ r.obs.alt ≤ p.altMax) ∧
    (p.singleN = true ∨ p.singleI = true ∨ p.nameFilter = true ∨ r.obs.sep ≤ p.radius ∨ r.obs.sep1 ≤ p.radius) ∧
    (p.sunlitOnly = true → r.obs.sunlit = true) := by
  have := (RInv.run h).ok r hr
  refine ⟨this.obs, this.nan, this.alt, ?_, this.light⟩
  have hreg := this.region
  unfold single InRegion at hreg
  simp only [Bool.or_eq_true] at hreg
  tauto

example : (filesLoop { radius := 10 } (fun t => { here with sep := if t.norad = 25544 then 12 else 9, sep1 := 11 })
    (start zeros) twoSats).numbers = some [44238] := by decide +kernel

/-! ### C21 -/

/-- **C21** (partial).  With `-S NAME`, for files of records, every satellite reported carries a name
that begins with NAME, and every distinct record whose name begins with NAME and which passes the
altitude and sunlit requests is reported, wherever it is in the sky (documented: contains NAME). -/
theorem C21_prefix_partial (p : Params) (E : Tle → Obs) (hsingle : single p = false)
    (hsat : IsCStr p.satname) (hS : p.nameFilter = true) (hmax : p.maxSats ≤ 0) (junk : List Int)
    (hjunk : BufOk junk) (files : List (CString × List (Record × Tle)))
    (hok : ∀ f ∈ files, f.2 ≠ [] ∧ (∀ x ∈ f.2, ItemOk E x) ∧ FileOfLines (f.2.flatMap (fun x => x.1.lines)))
    (s : LoopSt)
    (h : (filesLoop p E (start junk) (contents files)).st? = some s) :
    (∀ r ∈ s.reports, p.satname <+: r.name) ∧
    ∀ i ∈ allItems files, (∀ j ∈ allItems files, j.cat = i.cat → j = i) → p.satname <+: i.name →
      AltOk p (E i.tle) → LightOk p (E i.tle) → i ∈ s.reports.map Report.item := by
  obtain ⟨s', h1, h2, -⟩ := C25_reported_exactly p E hsingle hsat junk hjunk files hok (st?_ne_ub h)
  constructor
  · intro r hr
    have hfo := C16_first_occurrence p E hsingle hsat junk hjunk files hok s h r hr
    have := List.mem_of_find?_eq_some hfo
    rw [List.mem_filter] at this
    have hn : NameOk p r.item := by simpa using this.2
    exact hn hS
  · intro i hi hu hn ha hl
    exact (C25_reported_iff p E hsingle hsat hmax junk hjunk files hok s h i hi hu).mpr
      ⟨fun _ => hn, ha, Or.inl hS, hl⟩

/-- **C21** fails as documented ("satellite name (sub)string"): a name that contains the request, but
not at its beginning, is not selected. -/
theorem C21_substring_violated :
    (filesLoop { nameFilter := true, satname := b!"ZARYA" } (fun _ => here) (start zeros) twoSats).numbers = some [] ∧
    (filesLoop { nameFilter := true, satname := b!"ISS" } (fun _ => here) (start zeros) twoSats).numbers = some [25544] := by
  decide +kernel

/-! ### C22 -/

/-- **C22**.  For arbitrary input files: the counters are right, the sunlit counter never exceeds the
number found, and under `-V` both agree and every satellite reported is sunlit. -/
theorem C22_sunlit_counter (p : Params) (E : Tle → Obs) (junk : List Int) (fs : List (CString × Option CString))
    (s : LoopSt) (h : (filesLoop p E (start junk) fs).st? = some s) :
    s.nFound = s.reports.length ∧
    s.nSunlit = (s.reports.filter (fun r => (E r.tle).sunlit)).length ∧ s.nSunlit ≤ s.nFound ∧
    (p.sunlitOnly = true → (∀ r ∈ s.reports, (E r.tle).sunlit = true) ∧ s.nSunlit = s.nFound) := by
  have hi := RInv.run h
  have hobs : s.reports.filter (fun r => r.obs.sunlit) = s.reports.filter (fun r => (E r.tle).sunlit) := by
    apply List.filter_congr
    intro r hr
    rw [(hi.ok r hr).obs]
  refine ⟨hi.cnt, by rw [hi.sun, hobs], ?_, ?_⟩
  · rw [hi.sun, hi.cnt]
    exact_mod_cast List.length_filter_le _ _
  · intro hV
    have hall : ∀ r ∈ s.reports, r.obs.sunlit = true := fun r hr => (hi.ok r hr).light hV
    refine ⟨fun r hr => by rw [← (hi.ok r hr).obs]; exact hall r hr, ?_⟩
    rw [hi.sun, hi.cnt, List.filter_eq_self.mpr (by intro r hr; simpa using hall r hr)]

example : ((filesLoop {} (fun t => { here with sunlit := t.norad = 25544 }) (start zeros) twoSats).st?.map
    (fun s => (s.nFound, s.nSunlit))) = some (2, 1) := by decide +kernel

/-! ### C23 -/

/-- **C23** (arguments).  `-a x,y` sets the range to the two numbers in increasing order, whatever the
order given, and turns the filter on. -/
theorem C23_arguments (L : Lib) (v a : CString) (p : Params) (x y : ℚ)
    (hv : scan2 L v p.altMin p.altMax = (x, y)) :
    ∃ p', setValue L 97 v a p = .ok p' ∧ p'.altMin = min x y ∧ p'.altMax = max x y ∧ p'.altRange = true := by
  unfold setValue
  rw [if_pos rfl, hv]
  by_cases h : y < x
  · simp only [h, if_true]
    exact ⟨_, rfl, (min_eq_right h.le).symm, (max_eq_left h.le).symm, rfl⟩
  · simp only [h, if_false]
    push Not at h
    exact ⟨_, rfl, (min_eq_left h).symm, (max_eq_right h).symm, rfl⟩

/-- **C23**.  With an altitude range from `x` and `y` in either order, in a search of the whole
neighbourhood a (unique) satellite is kept iff min(x,y) ≤ altitude ≤ max(x,y). -/
theorem C23_kept_iff (p : Params) (E : Tle → Obs) (x y : ℚ) (hA : p.altRange = true)
    (hlo : p.altMin = min x y) (hhi : p.altMax = max x y) (hsingle : single p = false)
    (hS : p.nameFilter = false) (hV : p.sunlitOnly = false) (hsat : IsCStr p.satname) (hmax : p.maxSats ≤ 0)
    (junk : List Int) (hjunk : BufOk junk) (files : List (CString × List (Record × Tle)))
    (hok : ∀ f ∈ files, f.2 ≠ [] ∧ (∀ x ∈ f.2, ItemOk E x) ∧ FileOfLines (f.2.flatMap (fun x => x.1.lines)))
    (s : LoopSt)
    (h : (filesLoop p E (start junk) (contents files)).st? = some s)
    (i : Item) (hi : i ∈ allItems files) (huniq : ∀ j ∈ allItems files, j.cat = i.cat → j = i)
    (hreg : (E i.tle).sep ≤ p.radius) :
    i ∈ s.reports.map Report.item ↔ min x y ≤ (E i.tle).alt ∧ (E i.tle).alt ≤ max x y := by
  rw [C25_reported_iff p E hsingle hsat hmax junk hjunk files hok s h i hi huniq, hlo, hhi]
  constructor
  · rintro ⟨-, h2, -, -⟩; exact h2 hA
  · intro h2
    exact ⟨by simp [hS], fun _ => h2, Or.inr (Or.inl hreg), by simp [hV]⟩

/-- **C23** (arbitrary files).  Nothing outside the range is ever reported while the filter is on. -/
theorem C23_none_outside (p : Params) (E : Tle → Obs) (hA : p.altRange = true) (junk : List Int)
    (fs : List (CString × Option CString)) (s : LoopSt) (h : (filesLoop p E (start junk) fs).st? = some s)
    (r : Report) (hr : r ∈ s.reports) : p.altMin ≤ (E r.tle).alt ∧ (E r.tle).alt ≤ p.altMax := by
  have := (RInv.run h).ok r hr
  rw [← this.obs]
  exact this.alt hA

example : (filesLoop { altRange := true, altMin := 450, altMax := 600 }
    (fun t => { here with alt := if t.norad = 25544 then 420 else 550 }) (start zeros) twoSats).numbers
      = some [44238] := by decide +kernel

/-! ### C24 -/

/-- The name a satellite of a three-line file should carry. -/
theorem items_names (rs : List (Record × Tle)) (hname : ∀ x ∈ rs, ∃ n, x.1.name = some n ∧ n.head? ≠ some 49 ∧ n.head? ≠ some 50)
    (first : Bool) (prev : CString) :
    ∀ i ∈ items first prev rs, ∃ x ∈ rs, ∃ n, x.1.name = some n ∧ i = ⟨nameText n, x.1.cat, x.2⟩ := by
  induction rs generalizing first prev with
  | nil => intro i hi; simp [items] at hi
  | cons a rs ih =>
    obtain ⟨r, t⟩ := a
    obtain ⟨n, hn, hd⟩ := hname (r, t) (by simp)
    have hf : nameFor first prev r = nameText n := by
      unfold nameFor
      simp only [] at hn
      rw [hn]
      simp only []
      rw [if_pos (Or.inr hd)]
    intro i hi
    simp only [items, hf] at hi
    rcases List.mem_cons.mp hi with rfl | hi
    · exact ⟨(r, t), by simp, n, hn, rfl⟩
    · obtain ⟨x, hx, n', h1, h2⟩ := ih (fun x hx => hname x (by simp [hx])) false _ i hi
      exact ⟨x, by simp [hx], n', h1, h2⟩

/-- **C24** (partial).  In files of three-line records whose name lines do not start with '1' or '2', for
all options and outcomes, every satellite reported is one of the records and carries the name line of
its own record (at most 23 characters, trailing blanks removed).  Missing: names starting with '1' or
'2', and the case that byte 23 of the uninitialised name buffer is not NUL. -/
theorem C24_own_name_partial (p : Params) (E : Tle → Obs) (junk : List Int) (hjunk : BufOk junk)
    (files : List (CString × List (Record × Tle))) (hok : ∀ f ∈ files, FileOk f)
    (hdef : filesLoop p E (start junk) (contents files) ≠ .ub)
    (hname : ∀ f ∈ files, ∀ x ∈ f.2, ∃ n, x.1.name = some n ∧ n.head? ≠ some 49 ∧ n.head? ≠ some 50) :
    ∃ s, (filesLoop p E (start junk) (contents files)).st? = some s ∧
      ∀ r ∈ s.reports, ∃ f ∈ files, ∃ x ∈ f.2, ∃ n, x.1.name = some n ∧ r.name = nameText n ∧
        r.cat = x.1.cat ∧ r.tle = x.2 := by
  obtain ⟨s, k, l', h1, -, h3, h4, -⟩ := filesLoop_general p E files hok (start junk) (GFile.start junk hjunk)
    (Or.inl hdef)
  refine ⟨s, h1, ?_⟩
  intro r hr
  have hm : r.item ∈ s.reports.map Report.item := List.mem_map_of_mem hr
  rw [h3] at hm
  have hnil : (start junk).reports.map Report.item = [] := rfl
  rw [hnil, List.nil_append] at hm
  have hm' : r.item ∈ allItems files := List.mem_of_mem_take (h4.subset hm)
  unfold allItems at hm'
  obtain ⟨f, hf, hi⟩ := List.mem_flatMap.mp hm'
  obtain ⟨x, hx, n, e1, e2⟩ := items_names f.2 (hname f hf) true [] r.item hi
  refine ⟨f, hf, x, hx, n, e1, ?_⟩
  unfold Report.item at e2
  simp only [Item.mk.injEq] at e2
  exact e2

/-- The order is kept: the reported satellites are a subsequence of the records, for all options. -/
theorem C24_subsequence (p : Params) (E : Tle → Obs) (junk : List Int) (hjunk : BufOk junk)
    (files : List (CString × List (Record × Tle))) (hok : ∀ f ∈ files, FileOk f)
    (hdef : filesLoop p E (start junk) (contents files) ≠ .ub) :
    ∃ s, (filesLoop p E (start junk) (contents files)).st? = some s ∧
      (s.reports.map Report.item).Sublist (allItems files) := by
  obtain ⟨s, k, l', h1, -, h3, h4, -⟩ := filesLoop_general p E files hok (start junk) (GFile.start junk hjunk)
    (Or.inl hdef)
  refine ⟨s, h1, ?_⟩
  rw [h3]
  exact h4.trans (List.take_sublist _ _)

example : (filesLoop {} (fun _ => here) (start zeros) twoSats).names = some [b!"ISS (ZARYA)", b!"STARLINK-24"] := by
  decide +kernel

/-- **C24** fails for a name starting with '1' or '2' (such satellites exist: 1KUNS-PF): the line is
taken for an element line and the satellite is printed with the name of the previous one (917). -/
theorem C24_digit_violated :
    (filesLoop {} (fun _ => here) (start zeros)
      [(b!"a", some (recText b!"ISS (ZARYA)" (sat 25544 b!"98067A  ") ++ recText b!"1KUNS-PF" (sat 43466 b!"98067PF ")))]).names
      = some [b!"ISS (ZARYA)", b!"ISS (ZARYA)"] := by decide +kernel

/-- **C24** fails for an unfortunate content of the uninitialised array `sat_name`: a name line filled
up with blanks to 24 characters, as the usual sources provide, is copied without a NUL (709), and
`strlen` in `trimend` runs past the array when its remaining bytes are not zero. -/
theorem C24_uninitialised_violated :
    fileLoop {} (fun _ => here) b!"a" (start (List.replicate 25 7))
      (recText b!"ISS (ZARYA)             " (sat 25544 b!"98067A  ")) = .ub ∧
    fileLoop {} (fun _ => here) b!"a" (start zeros)
      (recText b!"ISS (ZARYA)             " (sat 25544 b!"98067A  ")) ≠ .ub := by
  have h1 : fileLines 100 (recText b!"ISS (ZARYA)             " (sat 25544 b!"98067A  "))
      = [b!"ISS (ZARYA)             \n", (sat 25544 b!"98067A  ").line1 ++ [10], (sat 25544 b!"98067A  ").line2 ++ [10]] := by
    decide +kernel
  have h2 : setName (List.replicate 25 7) b!"ISS (ZARYA)             \n" = none := by decide +kernel
  have h3 : ((fileLoop {} (fun _ => here) b!"a" (start zeros)
      (recText b!"ISS (ZARYA)             " (sat 25544 b!"98067A  "))).st?).isSome = true := by decide +kernel
  refine ⟨?_, ?_⟩
  · unfold fileLoop
    rw [h1]
    simp only [start, h2]
  · intro hc; rw [hc] at h3; simp [Flow.st?] at h3

end SatSky.Props
