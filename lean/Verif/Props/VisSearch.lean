import Verif.Lemmas.VisFind
import Verif.Props.VisOptions
import Verif.Props.Main

/-! The record search of `sat_visibility`: C62 (what is found), C129 (usual requests), C130 (what is printed
about the satellite). -/

namespace SatSky.Props

open SatSky Spec GetEl Dates Opts Sky Prog Vis

/-! ### Runs by computation -/

/-- The end of a run, by computation: at most `m` steps of the time loop, no `-N`. -/
def vsearch (W : VWorld) (argv : List CString) (il : Bool) (name : CString) (p : VParams) (paths : List CString) (m : Nat) : Option Outcome :=
  match ffiles p { name := W.junk } (paths.map (fun f => (f, W.file f))) with
  | .ub => some .ub
  | .exit st msg => some (.exit st (vopenJson ++ vcloseJson argv il st msg 0))
  | .hit s t =>
    if p.skipDay then none
    else
      match timeLoop (cfgOf W.L.F p) (W.hist p t) m { t := (cfgOf W.L.F p).jd0 } with
      | .run _ => none
      | .over r => some (normalEnd W argv il name p s t (finish (cfgOf W.L.F p) r))
      | .outOfRange r => some (rangeEnd W argv il name p s t r)
  | .next _ =>
    match paths.getLast? with
    | none => some .ub
    | some path =>
      let msg := b!"Satellite not found in " ++ path
      some (if fits 128 msg then .exit 1 (vopenJson ++ vcloseJson argv il 1 msg 0) else .ub)

theorem searches_of {W : VWorld} {argv : List CString} {il : Bool} {name : CString} {p : VParams} {paths : List CString} {m : Nat} {o : Outcome}
    (h : vsearch W argv il name p paths m = some o) : Searches W argv il name p paths o := by
  unfold vsearch at h
  unfold Searches
  cases hf : ffiles p { name := W.junk } (paths.map (fun f => (f, W.file f))) with
  | ub => rw [hf] at h; simpa using h.symm
  | exit st msg => rw [hf] at h; simpa using h.symm
  | next s =>
    rw [hf] at h
    simp only [] at h ⊢
    cases hp : paths.getLast? with
    | none => rw [hp] at h; simpa using h.symm
    | some path => rw [hp] at h; simpa using h.symm
  | hit s t =>
    rw [hf] at h
    simp only [] at h ⊢
    by_cases hs : p.skipDay = true
    · rw [if_pos hs] at h; simp at h
    · rw [if_neg hs] at h
      have hb : Begins (cfgOf W.L.F p) (W.hist p t) (cfgOf W.L.F p).jd0 := by
        unfold Begins; rw [if_neg (show ¬ (cfgOf W.L.F p).skipDay = true from hs)]
      cases hl : timeLoop (cfgOf W.L.F p) (W.hist p t) m { t := (cfgOf W.L.F p).jd0 } with
      | run r => rw [hl] at h; simp at h
      | over r =>
        rw [hl] at h
        simp only [Option.some.injEq] at h
        exact Or.inl ⟨_, ⟨_, m, r, hb, hl, rfl⟩, h.symm⟩
      | outOfRange r =>
        rw [hl] at h
        simp only [Option.some.injEq] at h
        exact Or.inr ⟨_, m, r, hb, hl, h.symm⟩

/-- A run with one file and options that are accepted, by computation. -/
def vrunCheck (W : VWorld) (argv : List CString) (n m : Nat) (P : ℤ → CString → Bool) : Bool :=
  decide (2 ≤ argv.length) &&
    match vsteps W.L argv n vinit with
    | .done p =>
      match vafterLoop p with
      | .ok p =>
        let a := argv.getD (fileIndex argv) []
        decide (a.head? ≠ some 64) && (p.singleN || p.singleI) &&
          (match singlePath p.tlePath a with
           | none => false
           | some path =>
             match vsearch W argv false a p [path] m with
             | some (.exit c o) => P c o
             | _ => false)
      | _ => false
    | _ => false

theorem vruns_of_check {W : VWorld} {argv : List CString} {n m : Nat} {P : ℤ → CString → Bool}
    (h : vrunCheck W argv n m P = true) : ∃ c o, VRuns W argv (.exit c o) ∧ P c o = true := by
  unfold vrunCheck at h
  simp only [Bool.and_eq_true, decide_eq_true_eq] at h
  obtain ⟨hl, h⟩ := h
  cases hs : vsteps W.L argv n vinit with
  | run s => rw [hs] at h; simp at h
  | ub => rw [hs] at h; simp at h
  | stop e => rw [hs] at h; simp at h
  | done p =>
    rw [hs] at h
    simp only [] at h
    cases ha : vafterLoop p with
    | ub => rw [ha] at h; simp at h
    | stop e => rw [ha] at h; simp at h
    | ok p' =>
      rw [ha] at h
      simp only [Bool.and_eq_true, decide_eq_true_eq, Bool.or_eq_true] at h
      obtain ⟨⟨h64, hsi⟩, h⟩ := h
      cases hp : singlePath p'.tlePath (argv.getD (fileIndex argv) []) with
      | none => rw [hp] at h; simp at h
      | some path =>
        rw [hp] at h
        simp only [] at h
        cases hv : vsearch W argv false (argv.getD (fileIndex argv) []) p' [path] m with
        | none => rw [hv] at h; simp at h
        | some o =>
          rw [hv] at h
          cases o with
          | usage => simp at h
          | ub => simp at h
          | exit c o =>
            refine ⟨c, o, ?_, h⟩
            unfold VRuns
            rw [if_neg (by omega)]
            refine ⟨n, ?_⟩
            rw [hs]
            simp only [ha]
            unfold Computes
            simp only []
            rw [if_neg h64, if_neg (by rintro ⟨k1, k2⟩; rw [k1, k2] at hsi; simp at hsi), hp]
            exact searches_of hv

/-! ### C62 -/

/-- The files read contain these records. -/
def Reads (W : VWorld) (files : List (CString × List (Record × Tle))) : Prop :=
  ∀ f ∈ files, W.file f.1 = some (f.2.flatMap (fun x => x.1.lines)).flatten

theorem contents_of_reads {W : VWorld} {files : List (CString × List (Record × Tle))} (h : Reads W files) :
    (files.map Prod.fst).map (fun f => (f, W.file f)) = contents files := by
  unfold contents
  rw [List.map_map]
  apply List.map_congr_left
  intro f hf
  simp only [Function.comp, h f hf]

/-- **C62** (partial).  Over files of records (any number of them), with `-s N`, or with `-i D` where `D` is not the
beginning of "none", the satellite whose pass is computed is the first record that answers: its catalogue text read
by `strtol` is `N`, or (without `-s`) its designator is not blank and the first nine characters of its text begin
with `D`.  If there is none the program says so and exits with 1.  (Missing: the number and the designator as
such, see `C62_alpha5_violated`, `C62_pieces_violated`; `C129` covers the usual ones.) -/
theorem C62_first_partial (W : VWorld) (hjunk : BufOk W.junk) (argv : List CString) (il : Bool) (name : CString) (p : VParams)
    (hs : p.singleN = true ∨ p.singleI = true) (hi : IsCStr p.intlDesig) (hnone : p.singleN = false → ¬ p.intlDesig <+: b!"none")
    (files : List (CString × List (Record × Tle))) (hok : ∀ f ∈ files, FileOk f) (hread : Reads W files) (o : Outcome)
    (h : Searches W argv il name p (files.map Prod.fst) o) :
    (∀ i, (allItems files).find? (vanswers p) = some i → ∃ s, Hit p s i ∧ Observes W argv il name p s i.tle o) ∧
    ((allItems files).find? (vanswers p) = none → ∀ path, (files.map Prod.fst).getLast? = some path → path.length ≤ 104 →
      o = .exit 1 (vopenJson ++ vcloseJson argv il 1 (b!"Satellite not found in " ++ path) 0)) := by
  have hd : DesigOk p (b!"none" ++ List.replicate 8 0) := by
    unfold DesigOk
    split
    · rfl
    · rename_i hN
      rw [memEq_pad _ hi, Bool.eq_false_iff, Ne, List.isPrefixOf_iff_prefix]
      exact hnone (by simpa using hN)
  obtain ⟨h1, h2⟩ := ffiles_items p hs hi files hok { name := W.junk } hjunk hd
  unfold Searches at h
  rw [contents_of_reads hread] at h
  constructor
  · intro i hfi
    obtain ⟨s, hr, hhit⟩ := h1 i hfi
    rw [hr] at h
    exact ⟨s, hhit, h⟩
  · intro hfn path hp hlen
    obtain ⟨s, hr⟩ := h2 hfn
    rw [hr] at h
    simp only [hp] at h
    rw [h, if_pos]
    have h23 : (b!"Satellite not found in ").length = 23 := by decide
    unfold fits
    simp only [List.length_append, h23]
    simp; omega

/-! ### C129 -/

theorem mem_items {first : Bool} {prev : CString} {rs : List (Record × Tle)} {i : Item} (h : i ∈ items first prev rs) :
    ∃ x ∈ rs, i.cat = x.1.cat ∧ i.tle = x.2 := by
  induction rs generalizing first prev with
  | nil => simp [items] at h
  | cons a rs ih =>
    obtain ⟨r, t⟩ := a
    simp only [items, List.mem_cons] at h
    rcases h with rfl | h
    · exact ⟨(r, t), by simp, rfl, rfl⟩
    · obtain ⟨x, hx, h1⟩ := ih h
      exact ⟨x, by simp [hx], h1⟩

theorem mem_allItems {files : List (CString × List (Record × Tle))} {i : Item} (h : i ∈ allItems files) :
    ∃ f ∈ files, ∃ x ∈ f.2, i.cat = x.1.cat ∧ i.tle = x.2 := by
  unfold allItems at h
  obtain ⟨f, hf, hi⟩ := List.mem_flatMap.mp h
  exact ⟨f, hf, mem_items hi⟩

theorem find_congr {α : Type} {f g : α → Bool} {l : List α} (h : ∀ x ∈ l, f x = g x) : l.find? f = l.find? g := by
  induction l with
  | nil => rfl
  | cons a l ih =>
    rw [List.find?_cons, List.find?_cons, h a (by simp), ih (fun x hx => h x (by simp [hx]))]

/-- The number in the columns is the number of the elements. -/
theorem good_number {r : Record} {t : Tle} (hg : Good r t) (h5 : r.FiveDigits) : strtolVal r.cat = t.norad := by
  obtain ⟨⟨n, hn, hc⟩, h7⟩ := h5
  have h := (parseFields_header (parse_fields hg.2)).2
  have hl := (parse_desig hg.2).2.2
  unfold ptrAdd at h
  rw [if_pos (by omega)] at h
  have hsplit : r.l1.drop 2 = encodeNorad n ++ r.l1.drop 7 := by
    rw [← hc]
    unfold Record.cat
    conv_lhs => rw [← List.take_append_drop 5 (r.l1.drop 2)]
    rw [List.drop_drop]
  have hnd : NoDigitHead (r.l1.drop 7) := by
    intro c hcd
    rw [List.head?_drop] at hcd
    exact h7 c hcd
  rw [Option.bind_some, hsplit, (C19_number n hn _ hnd).2] at h
  rw [hc, (C19_number n hn _ hnd).1]
  simpa using h

/-- **C129** (number).  Over files of records with five-digit catalogue numbers, `-s N` computes the pass of the
first record whose elements carry the number `N`, under the name in force there. -/
theorem C129_number (W : VWorld) (hjunk : BufOk W.junk) (argv : List CString) (il : Bool) (name : CString) (p : VParams)
    (hN : p.singleN = true) (hi : IsCStr p.intlDesig) (files : List (CString × List (Record × Tle)))
    (hok : ∀ f ∈ files, FileOk f) (h5 : ∀ f ∈ files, ∀ x ∈ f.2, x.1.FiveDigits) (hread : Reads W files) (o : Outcome)
    (h : Searches W argv il name p (files.map Prod.fst) o) :
    (∀ i, (allItems files).find? (fun i => decide (i.tle.norad = p.noradN)) = some i →
      ∃ s, cstr s.name = some i.name ∧ Observes W argv il name p s i.tle o) ∧
    ((∀ i ∈ allItems files, i.tle.norad ≠ p.noradN) → ∀ path, (files.map Prod.fst).getLast? = some path → path.length ≤ 104 →
      o = .exit 1 (vopenJson ++ vcloseJson argv il 1 (b!"Satellite not found in " ++ path) 0)) := by
  have hc : (allItems files).find? (vanswers p) = (allItems files).find? (fun i => decide (i.tle.norad = p.noradN)) := by
    apply find_congr
    intro i him
    obtain ⟨f, hf, x, hx, h1, h2⟩ := mem_allItems him
    unfold vanswers
    rw [if_pos hN, h1, good_number ((hok f hf).2.1 x hx) (h5 f hf x hx), h2]
    rfl
  obtain ⟨k1, k2⟩ := C62_first_partial W hjunk argv il name p (Or.inl hN) hi (by rw [hN]; simp) files hok hread o h
  rw [hc] at k1 k2
  refine ⟨fun i hfi => ?_, fun hno => k2 ?_⟩
  · obtain ⟨s, h1, h2⟩ := k1 i hfi
    exact ⟨s, h1.name, h2⟩
  · rw [List.find?_eq_none]
    intro i him
    simpa using hno i him

/-- The designator field of a piece with one letter: launch `n` of year `yy`. -/
def desigField (yy n : Nat) (c : CChar) : CString := zeroPad 2 yy ++ zeroPad 3 n ++ [c, 32, 32]

/-- The full text of that designator. -/
def fullDesig (yy n : Nat) (c : CChar) : CString := zeroPad 4 (fullYear yy) ++ [45] ++ zeroPad 3 n ++ [c]

/-- A designator field that is blank or has one letter. -/
def OneLetter (d : CString) : Prop :=
  d.head? = some 32 ∨ ∃ yy n c, yy < 100 ∧ (1 ≤ n ∧ n < 1000) ∧ (Printable c ∧ ¬ Digit c) ∧ d = desigField yy n c

theorem zeroPad2 (n : Nat) : zeroPad 2 n = [48 + ((n / 10 % 10 : Nat) : Int), 48 + ((n % 10 : Nat) : Int)] := by
  simp [zeroPad, zeroDigits, digitChars]

theorem zeroPad3 (n : Nat) : zeroPad 3 n = [48 + ((n / 10 / 10 % 10 : Nat) : Int), 48 + ((n / 10 % 10 : Nat) : Int), 48 + ((n % 10 : Nat) : Int)] := by
  simp [zeroPad, zeroDigits, digitChars]

theorem fullDesig_eq (yy n : Nat) (c : CChar) : fullDesig yy n c =
    zeroPad 4 (fullYear yy) ++ ([45] ++ (zeroPad 3 n ++ [c])) := by
  unfold fullDesig; simp

theorem fullDesig_inj {yy n yy' n' : Nat} {c c' : CChar} (hy : yy < 100) (hn : n < 1000) (hy' : yy' < 100) (hn' : n' < 1000)
    (h : fullDesig yy n c = fullDesig yy' n' c') : yy = yy' ∧ n = n' ∧ c = c' := by
  have h4 : ∀ y, zeroPad 4 y = [48 + ((y / 10 / 10 / 10 % 10 : Nat) : Int), 48 + ((y / 10 / 10 % 10 : Nat) : Int),
      48 + ((y / 10 % 10 : Nat) : Int), 48 + ((y % 10 : Nat) : Int)] := by
    intro y; simp [zeroPad, zeroDigits, digitChars]
  unfold fullDesig at h
  rw [h4, h4, zeroPad3, zeroPad3] at h
  simp only [List.cons_append, List.nil_append, List.cons.injEq, and_true] at h
  obtain ⟨a1, a2, a3, a4, -, a5, a6, a7, a8⟩ := h
  refine ⟨?_, by omega, a8⟩
  have e : ∀ y, y < 100 → fullYear y % 100 = y := by
    intro y hy
    unfold fullYear
    split <;> omega
  have e1 := e yy hy
  have e2 := e yy' hy'
  omega

theorem fullDesig_length (yy n : Nat) (c : CChar) : (fullDesig yy n c).length = 9 := by
  simp [fullDesig, zeroPad, zeroDigits, digitChars]

/-- **C129** (designator).  Over files of records whose designators are blank or have one letter, `-i` with a full
one-letter designator (and without `-s`) computes the pass of the first record with that designator. -/
theorem C129_designator (W : VWorld) (hjunk : BufOk W.junk) (argv : List CString) (il : Bool) (name : CString) (p : VParams)
    (hN : p.singleN = false) (hI : p.singleI = true) (yy n : Nat) (c : CChar) (hy : yy < 100) (hn : 1 ≤ n ∧ n < 1000)
    (hc : Printable c ∧ ¬ Digit c) (hp : p.intlDesig = fullDesig yy n c)
    (files : List (CString × List (Record × Tle))) (hok : ∀ f ∈ files, FileOk f)
    (h1 : ∀ f ∈ files, ∀ x ∈ f.2, OneLetter x.2.intlDesig) (hread : Reads W files) (o : Outcome)
    (h : Searches W argv il name p (files.map Prod.fst) o) :
    (∀ i, (allItems files).find? (fun i => decide (i.tle.intlDesig = desigField yy n c)) = some i →
      ∃ s, cstr s.name = some i.name ∧ Observes W argv il name p s i.tle o) ∧
    ((∀ i ∈ allItems files, i.tle.intlDesig ≠ desigField yy n c) → ∀ path, (files.map Prod.fst).getLast? = some path → path.length ≤ 104 →
      o = .exit 1 (vopenJson ++ vcloseJson argv il 1 (b!"Satellite not found in " ++ path) 0)) := by
  have hnotblank : ∀ y m x, (desigField y m x).head? ≠ some 32 := by
    intro y m x
    unfold desigField
    rw [zeroPad2]
    simp; omega
  have hcong : (allItems files).find? (vanswers p) = (allItems files).find? (fun i => decide (i.tle.intlDesig = desigField yy n c)) := by
    apply find_congr
    intro i him
    obtain ⟨f, hf, x, hx, -, h2⟩ := mem_allItems him
    unfold vanswers
    rw [if_neg (by simp [hN]), h2]
    rcases h1 f hf x hx with hb | ⟨y', n', c', hy', hn', hc', hd⟩
    · have : x.2.intlDesig ≠ desigField yy n c := by
        intro hcon; rw [hcon] at hb; exact hnotblank _ _ _ hb
      simp [hb, this]
    · rw [hd]
      have ht : desigText (desigField y' n' c') = some (fullDesig y' n' c') := C20_text y' n' c' hy' hn' hc'
      simp only [ht, hp]
      rw [decide_eq_true (hnotblank y' n' c'), Bool.true_and]
      by_cases he : fullDesig yy n c = fullDesig y' n' c'
      · obtain ⟨rfl, rfl, rfl⟩ := fullDesig_inj hy hn.2 hy' hn'.2 he
        rw [decide_eq_true rfl, List.isPrefixOf_iff_prefix.mpr List.prefix_rfl]
      · have hne : desigField y' n' c' ≠ desigField yy n c := by
          intro hcon
          have := ht
          rw [hcon, show desigText (desigField yy n c) = some (fullDesig yy n c) from C20_text yy n c hy hn hc] at this
          exact he (by simpa using this)
        rw [decide_eq_false hne, Bool.eq_false_iff, Ne, List.isPrefixOf_iff_prefix]
        intro hpre
        exact he (hpre.eq_of_length (by rw [fullDesig_length, fullDesig_length]))
  have hcs : IsCStr p.intlDesig := by
    rw [hp]
    have hpr : ∀ w k, IsCStr (zeroPad w k) := by
      intro w k x hx
      unfold zeroPad digitChars at hx
      obtain ⟨d, -, rfl⟩ := List.mem_map.mp hx
      omega
    intro x hx
    unfold fullDesig at hx
    simp only [List.mem_append, List.mem_singleton] at hx
    rcases hx with ((hx | rfl) | hx) | rfl
    · exact hpr _ _ x hx
    · decide
    · exact hpr _ _ x hx
    · have := hc.1; unfold Printable at this; omega
  have hno : p.singleN = false → ¬ p.intlDesig <+: b!"none" := by
    intro _ hpre
    have := hpre.length_le
    rw [hp, fullDesig_length] at this
    have h4 : (b!"none").length = 4 := by decide
    omega
  obtain ⟨k1, k2⟩ := C62_first_partial W hjunk argv il name p (Or.inr hI) hcs hno files hok hread o h
  rw [hcong] at k1 k2
  refine ⟨fun i hfi => ?_, fun hne => k2 ?_⟩
  · obtain ⟨s, h1, h2⟩ := k1 i hfi
    exact ⟨s, h1.name, h2⟩
  · rw [List.find?_eq_none]
    intro i him
    simpa using hne i him

/-! ### Examples and failures -/

/-- A world for the examples: the files given, the satellite is in the field, sunlit and 500 km high whenever the
function says so. -/
noncomputable def vworld (files : List (CString × CString)) (hist : History) : VWorld where
  L := lib0
  file f := (files.find? (fun x => decide (x.1 = f))).map Prod.snd
  zenith _ := (0, 90, 0)
  hist _ _ := hist
  geo _ _ _ := ⟨0, 0, 0, 0⟩
  sun _ _ := ⟨0, 0, 0, 0, 0, 0, 0⟩
  sat _ _ _ := ⟨0, 0, 0, 0, 0, 0, 0, 0⟩
  junk := zeros

/-- Always in the field and sunlit. -/
def alwaysUp : History := ⟨fun _ => 10, fun _ => true, fun _ => 500, fun _ => -30⟩

/-- Two records: "98067A" and "19029D". -/
def vtwo : CString := recText b!"ISS (ZARYA)" (sat 25544 b!"98067A  ") ++ recText b!"STARLINK-24" (sat 44238 b!"19029D  ")

/-- Arguments of the examples, with a request. -/
def vargs (req : List CString) : List CString :=
  [b!"sat_visibility", b!"a", b!"-l0,0,0", b!"-j60000,60000.001", b!"-t43"] ++ req

set_option maxRecDepth 100000 in
/-- The second record is asked for by number, by designator, and one that is not there. -/
example :
    (∃ c o, VRuns (vworld [(b!"./a", vtwo)] alwaysUp) (vargs [b!"-s44238"]) (.exit c o) ∧
      c = 0 ∧ StringMember o b!"name" b!"STARLINK-24" ∧ StringMember o b!"intl_desig" b!"2019-029D" ∧ NumberMember o b!"norad_n" b!"44238") ∧
    (∃ c o, VRuns (vworld [(b!"./a", vtwo)] alwaysUp) (vargs [b!"-i2019-029D"]) (.exit c o) ∧
      c = 0 ∧ StringMember o b!"name" b!"STARLINK-24" ∧ StringMember o b!"intl_desig" b!"2019-029D" ∧ NumberMember o b!"norad_n" b!"44238") ∧
    (∃ c o, VRuns (vworld [(b!"./a", vtwo)] alwaysUp) (vargs [b!"-s44239"]) (.exit c o) ∧
      c = 1 ∧ StringMember o b!"errmsg" b!"Satellite not found in ./a") := by
  refine ⟨?_, ?_, ?_⟩
  · obtain ⟨c, o, h1, h2⟩ := vruns_of_check (W := vworld [(b!"./a", vtwo)] alwaysUp) (argv := vargs [b!"-s44238"]) (n := 7) (m := 6)
      (P := fun c o => decide (c = 0 ∧ StringMember o b!"name" b!"STARLINK-24" ∧ StringMember o b!"intl_desig" b!"2019-029D" ∧ NumberMember o b!"norad_n" b!"44238"))
      (by decide +kernel)
    exact ⟨c, o, h1, of_decide_eq_true h2⟩
  · obtain ⟨c, o, h1, h2⟩ := vruns_of_check (W := vworld [(b!"./a", vtwo)] alwaysUp) (argv := vargs [b!"-i2019-029D"]) (n := 7) (m := 6)
      (P := fun c o => decide (c = 0 ∧ StringMember o b!"name" b!"STARLINK-24" ∧ StringMember o b!"intl_desig" b!"2019-029D" ∧ NumberMember o b!"norad_n" b!"44238"))
      (by decide +kernel)
    exact ⟨c, o, h1, of_decide_eq_true h2⟩
  · obtain ⟨c, o, h1, h2⟩ := vruns_of_check (W := vworld [(b!"./a", vtwo)] alwaysUp) (argv := vargs [b!"-s44239"]) (n := 7) (m := 6)
      (P := fun c o => decide (c = 1 ∧ StringMember o b!"errmsg" b!"Satellite not found in ./a"))
      (by decide +kernel)
    exact ⟨c, o, h1, of_decide_eq_true h2⟩

set_option maxRecDepth 100000 in
/-- **C62** fails for catalogue numbers above 99999 (Alpha-5): `-s 270001` does not find the satellite that is there,
`-s 0` takes it. -/
theorem C62_alpha5_violated :
    (∃ c o, VRuns (vworld [(b!"./a", recText b!"X" (sat 270001 b!"19029D  "))] alwaysUp) (vargs [b!"-s270001"]) (.exit c o) ∧
      c = 1 ∧ StringMember o b!"errmsg" b!"Satellite not found in ./a") ∧
    (∃ c o, VRuns (vworld [(b!"./a", recText b!"X" (sat 270001 b!"19029D  "))] alwaysUp) (vargs [b!"-s0"]) (.exit c o) ∧
      c = 0 ∧ NumberMember o b!"norad_n" b!"270001") := by
  refine ⟨?_, ?_⟩
  · obtain ⟨c, o, h1, h2⟩ := vruns_of_check (W := vworld [(b!"./a", recText b!"X" (sat 270001 b!"19029D  "))] alwaysUp)
      (argv := vargs [b!"-s270001"]) (n := 7) (m := 6)
      (P := fun c o => decide (c = 1 ∧ StringMember o b!"errmsg" b!"Satellite not found in ./a")) (by decide +kernel)
    exact ⟨c, o, h1, of_decide_eq_true h2⟩
  · obtain ⟨c, o, h1, h2⟩ := vruns_of_check (W := vworld [(b!"./a", recText b!"X" (sat 270001 b!"19029D  "))] alwaysUp)
      (argv := vargs [b!"-s0"]) (n := 7) (m := 6)
      (P := fun c o => decide (c = 0 ∧ NumberMember o b!"norad_n" b!"270001")) (by decide +kernel)
    exact ⟨c, o, h1, of_decide_eq_true h2⟩

/-- Two pieces of one launch, the one with two letters first. -/
def vpieces : CString := recText b!"MICROSAT-R DEB" (sat 44383 b!"19006DE ") ++ recText b!"MICROSAT-R DEB" (sat 44117 b!"19006D  ")

set_option maxRecDepth 100000 in
/-- **C62** fails for pieces with two letters: `-i 2019-006D` takes 2019-006DE, `-i 2019-006DE` finds nothing. -/
theorem C62_pieces_violated :
    (∃ c o, VRuns (vworld [(b!"./a", vpieces)] alwaysUp) (vargs [b!"-i2019-006D"]) (.exit c o) ∧
      c = 0 ∧ NumberMember o b!"norad_n" b!"44383") ∧
    (∃ c o, VRuns (vworld [(b!"./a", vpieces)] alwaysUp) (vargs [b!"-i2019-006DE"]) (.exit c o) ∧
      c = 1 ∧ StringMember o b!"errmsg" b!"Satellite not found in ./a") := by
  refine ⟨?_, ?_⟩
  · obtain ⟨c, o, h1, h2⟩ := vruns_of_check (W := vworld [(b!"./a", vpieces)] alwaysUp)
      (argv := vargs [b!"-i2019-006D"]) (n := 7) (m := 6)
      (P := fun c o => decide (c = 0 ∧ NumberMember o b!"norad_n" b!"44383")) (by decide +kernel)
    exact ⟨c, o, h1, of_decide_eq_true h2⟩
  · obtain ⟨c, o, h1, h2⟩ := vruns_of_check (W := vworld [(b!"./a", vpieces)] alwaysUp)
      (argv := vargs [b!"-i2019-006DE"]) (n := 7) (m := 6)
      (P := fun c o => decide (c = 1 ∧ StringMember o b!"errmsg" b!"Satellite not found in ./a")) (by decide +kernel)
    exact ⟨c, o, h1, of_decide_eq_true h2⟩

end SatSky.Props
