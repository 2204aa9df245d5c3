import Verif.Lemmas.JsonMain
import Verif.Props.Main

/-! C26: the output is one JSON object. -/

namespace SatSky.Props

open SatSky Spec Spec.Json Dates GetEl Opts Sky Prog Json

/-! ### The texts that go into strings -/

theorem _root_.SatSky.Json.Plain.take {s : CString} (h : Plain s) (n : Nat) : Plain (s.take n) := h.sub (fun _ hc => List.mem_of_mem_take hc)

theorem _root_.SatSky.Json.Plain.drop {s : CString} (h : Plain s) (n : Nat) : Plain (s.drop n) := h.sub (fun _ hc => List.mem_of_mem_drop hc)

theorem plain_natText (n : Nat) : Plain (natText n) := by
  intro c hc
  have := natText_digit n c hc
  unfold Spec.Json.Digit at this
  exact ⟨by omega, by omega, by omega⟩

theorem plain_replicate (n : Nat) (c : Int) (h : ¬ (0 ≤ c ∧ c < 32) ∧ c ≠ 34 ∧ c ≠ 92) : Plain (List.replicate n c) := by
  intro x hx
  rw [List.eq_of_mem_replicate hx]; exact h

theorem plain_cons {c : Int} {s : CString} (h : ¬ (0 ≤ c ∧ c < 32) ∧ c ≠ 34 ∧ c ≠ 92) (hs : Plain s) : Plain (c :: s) := by
  intro x hx
  rcases List.mem_cons.mp hx with rfl | hx
  · exact h
  · exact hs x hx

theorem plain_fmt22d (n : Int) : Plain (fmt22d n) := by
  unfold fmt22d
  have : Plain (List.replicate (2 - (natText n.natAbs).length) 48 ++ natText n.natAbs) :=
    (plain_replicate _ _ (by omega)).append (plain_natText _)
  simp only []
  split
  · exact plain_cons (by omega) this
  · exact this

theorem plain_fmt4d (n : Int) : Plain (fmt4d n) := by
  unfold fmt4d
  simp only []
  apply (plain_replicate _ _ (by omega)).append
  split
  · exact plain_cons (by omega) (plain_natText _)
  · exact plain_natText _

theorem plain_printDate (d : Printed) : Plain (printDate d) := by
  unfold printDate
  exact (plain_fmt4d _).append (plain_cons (by omega) ((plain_fmt22d _).append (plain_cons (by omega) ((plain_fmt22d _).append
    (plain_cons (by omega) ((plain_fmt22d _).append (plain_cons (by omega) ((plain_fmt22d _).append (plain_cons (by omega) (plain_fmt22d _))))))))))

/-- The parameters that are printed as strings, or used in file names. -/
def ParamsPlain (p : Params) : Prop := Plain p.date ∧ Plain p.tlePath

theorem optJ_plain {F : Fl64} {x : ℚ} {w : When} (h : optJ F x = some w) : Plain w.date := by
  unfold optJ mjd2dateText at h
  simp only [Option.bind_eq_bind, Option.bind_eq_some_iff, Option.map_eq_some_iff] at h
  obtain ⟨t, ⟨a, -, rfl⟩, h⟩ := h
  split at h
  · simp only [Option.some.injEq] at h; rw [← h]; exact plain_printDate a
  · simp at h

theorem setSwitch_plain (c : CChar) {p : Params} (h : ParamsPlain p) : ParamsPlain (setSwitch c p) := by
  unfold setSwitch ParamsPlain at *
  split
  · exact h
  · split
    · exact h
    · split
      · exact h
      · split
        · exact h
        · split
          · exact h
          · exact h

theorem setValue_plain {L : Lib} {c : CChar} {v a : CString} {p : Params} (hv : Plain v) (ha : Plain a) (hL : ∀ x, Plain (L.showF x))
    (h : ParamsPlain p) :
    (∀ p', setValue L c v a p = .ok p' → ParamsPlain p') ∧ ∀ st msg, setValue L c v a p = .stop (.error st msg) → Plain msg := by
  have hcopy : ∀ n d, copyTo n v = some d → Plain d := by
    intro n d hd
    unfold copyTo at hd
    split at hd
    · simp only [Option.some.injEq] at hd; rw [← hd]; exact hv
    · simp at hd
  have hend : Plain [39] := by decide
  have e1 : ∀ x, Plain (msgLat (L.showF x)) := fun x => (Plain.append (by decide) (hL x)).append hend
  have e2 : ∀ x, Plain (msgRa (L.showF x)) := fun x => (Plain.append (by decide) (hL x)).append hend
  have e3 : ∀ x, Plain (msgDec (L.showF x)) := fun x => (Plain.append (by decide) (hL x)).append hend
  have e4 : Plain (msgOpt a) := (Plain.append (by decide) ha).append hend
  unfold ParamsPlain at *
  by_cases hl : ValueLetter c
  · unfold ValueLetter at hl
    simp only [List.mem_cons, List.not_mem_nil, or_false] at hl
    rcases hl with rfl | rfl | rfl | rfl | rfl | rfl | rfl | rfl | rfl | rfl | rfl | rfl
    · rw [sv_a]
      refine ⟨fun p' hs => ?_, fun st msg hs => by simp at hs⟩
      simp only [Res.ok.injEq] at hs; subst hs; exact h
    · rw [sv_d]
      cases hc : copyTo 24 v with
      | none => simp
      | some d =>
        refine ⟨fun p' hs => ?_, fun st msg hs => by simp at hs⟩
        simp only [Res.ok.injEq] at hs; subst hs; exact ⟨hcopy _ _ hc, h.2⟩
    · rw [sv_D]
      cases hc : copyTo 128 v with
      | none => simp
      | some d =>
        refine ⟨fun p' hs => ?_, fun st msg hs => by simp at hs⟩
        simp only [Res.ok.injEq] at hs; subst hs; exact ⟨h.1, hcopy _ _ hc⟩
    · rw [sv_i]
      cases hc : copyTo 12 v with
      | none => simp
      | some d =>
        refine ⟨fun p' hs => ?_, fun st msg hs => by simp at hs⟩
        simp only [Res.ok.injEq] at hs; subst hs; exact h
    · rw [sv_j]
      cases hc : optJ L.F (L.atof v) with
      | none => simp
      | some d =>
        refine ⟨fun p' hs => ?_, fun st msg hs => by simp at hs⟩
        simp only [Res.ok.injEq] at hs; subst hs; exact ⟨optJ_plain hc, h.2⟩
    · rw [sv_l]
      generalize scan3 L v p.lat p.lon p.ht = x
      simp only []
      split
      · refine ⟨fun p' hs => ?_, fun st msg hs => ?_⟩
        · unfold errorExit at hs; split at hs <;> simp at hs
        · obtain ⟨-, rfl⟩ := errorExit_stop hs; exact e1 _
      · refine ⟨fun p' hs => ?_, fun st msg hs => by simp at hs⟩
        simp only [Res.ok.injEq] at hs; subst hs; exact h
    · rw [sv_n]
      cases hc : scanInt v p.maxSats with
      | none => simp
      | some d =>
        refine ⟨fun p' hs => ?_, fun st msg hs => by simp at hs⟩
        simp only [Res.ok.injEq] at hs; subst hs; exact h
    · rw [sv_p]
      generalize scan2 L v p.ra p.dec = x
      simp only []
      split
      · refine ⟨fun p' hs => ?_, fun st msg hs => ?_⟩
        · unfold errorExit at hs; split at hs <;> simp at hs
        · obtain ⟨-, rfl⟩ := errorExit_stop hs; exact e2 _
      · split
        · refine ⟨fun p' hs => ?_, fun st msg hs => ?_⟩
          · unfold errorExit at hs; split at hs <;> simp at hs
          · obtain ⟨-, rfl⟩ := errorExit_stop hs; exact e3 _
        · refine ⟨fun p' hs => ?_, fun st msg hs => by simp at hs⟩
          simp only [Res.ok.injEq] at hs; subst hs; exact h
    · rw [sv_r]
      refine ⟨fun p' hs => ?_, fun st msg hs => by simp at hs⟩
      simp only [Res.ok.injEq] at hs; subst hs; exact h
    · rw [sv_s]
      refine ⟨fun p' hs => ?_, fun st msg hs => by simp at hs⟩
      simp only [Res.ok.injEq] at hs; subst hs; exact h
    · rw [sv_S]
      cases hc : copyTo 24 v with
      | none => simp
      | some d =>
        refine ⟨fun p' hs => ?_, fun st msg hs => by simp at hs⟩
        simp only [Res.ok.injEq] at hs; subst hs; exact h
    · rw [sv_t]
      cases hc : int32 (truncQ (L.atof v)) with
      | none => simp
      | some d =>
        refine ⟨fun p' hs => ?_, fun st msg hs => by simp at hs⟩
        simp only [Res.ok.injEq] at hs; subst hs; exact h
  · unfold ValueLetter at hl
    simp only [List.mem_cons, List.not_mem_nil, or_false, not_or] at hl
    obtain ⟨h1, h2, h3, h4, h5, h6, h7, h8, h9, h10, h11, h12⟩ := hl
    unfold setValue
    rw [if_neg h1, if_neg h2, if_neg h3, if_neg h4, if_neg h5, if_neg h6, if_neg h7, if_neg h8, if_neg h9, if_neg h10,
      if_neg h11, if_neg h12]
    refine ⟨fun p' hs => ?_, fun st msg hs => ?_⟩
    · unfold errorExit at hs; split at hs <;> simp at hs
    · obtain ⟨-, rfl⟩ := errorExit_stop hs; exact e4

theorem body_plain {L : Lib} {argv : List CString} {s : St} (ha : ∀ a ∈ argv, Plain a) (hL : ∀ x, Plain (L.showF x)) (h : ParamsPlain s.p) :
    (∀ s', body L argv s = .ok s' → ParamsPlain s'.p) ∧ ∀ st msg, body L argv s = .stop (.error st msg) → Plain msg := by
  unfold body arg
  cases hi : argv[s.i]? with
  | none => simp
  | some a =>
    simp only []
    by_cases h0 : rd a 0 = some 45
    · rw [if_pos h0]
      cases h1 : rd a 1 with
      | none => simp
      | some opt =>
        cases h2 : rd a 2 with
        | none => simp
        | some c2 =>
          simp only []
          by_cases hh : opt = 104
          · rw [if_pos hh]; simp
          · rw [if_neg hh]
            by_cases hs : isSwitch opt = true
            · rw [if_pos hs]
              refine ⟨fun s' hs' => ?_, fun st msg hs' => by simp at hs'⟩
              simp only [Res.ok.injEq] at hs'
              subst hs'
              exact setSwitch_plain opt h
            · rw [if_neg hs]
              generalize (if c2 = 0 then s.i + 1 else s.i) = i'
              cases ha' : argv[i']? with
              | none => simp
              | some a' =>
                simp only []
                have hpa := ha a' (List.mem_of_getElem? ha')
                obtain ⟨k1, k2⟩ := setValue_plain (c := opt) (p := s.p) (hpa.drop (if c2 = 0 then 0 else 2)) hpa hL h
                cases hv : setValue L opt (a'.drop (if c2 = 0 then 0 else 2)) a' s.p with
                | ok p' =>
                  refine ⟨fun s' hs' => ?_, fun st msg hs' => by simp at hs'⟩
                  simp only [Res.ok.injEq] at hs'
                  subst hs'
                  exact k1 p' hv
                | stop e =>
                  refine ⟨fun s' hs' => by simp at hs', fun st msg hs' => ?_⟩
                  simp only [Res.stop.injEq] at hs'
                  subst hs'
                  exact k2 st msg hv
                | ub => simp
    · rw [if_neg h0]
      refine ⟨fun s' hs' => ?_, fun st msg hs' => by simp at hs'⟩
      simp only [Res.ok.injEq] at hs'
      subst hs'
      exact h

theorem steps_plain {L : Lib} {argv : List CString} (ha : ∀ a ∈ argv, Plain a) (hL : ∀ x, Plain (L.showF x)) (n : Nat) (s : St) (h : ParamsPlain s.p) :
    (∀ p, steps L argv n s = .done p → ParamsPlain p) ∧ ∀ st msg, steps L argv n s = .stop (.error st msg) → Plain msg := by
  induction n generalizing s with
  | zero => simp [steps]
  | succ n ih =>
    rw [steps]
    unfold step
    by_cases hi : s.i < argv.length
    · rw [if_pos hi]
      obtain ⟨k1, k2⟩ := body_plain ha hL h
      cases hb : body L argv s with
      | ok s' => exact ih s' (k1 s' hb)
      | stop e =>
        refine ⟨fun p hp => by simp at hp, fun st msg hp => ?_⟩
        simp only [Next.stop.injEq] at hp
        subst hp
        exact k2 st msg hb
      | ub => simp
    · rw [if_neg hi]
      refine ⟨fun p hp => ?_, fun st msg hp => by simp at hp⟩
      simp only [Next.done.injEq] at hp
      subst hp
      exact h

/-! ### Names and designators -/

/-- The lines of a TLE file that can be printed: plain text, not empty, ended by a newline (CR LF or LF). -/
def LineOk (l : CString) : Prop := ∃ t e : CString, l = t ++ e ∧ t ≠ [] ∧ Plain t ∧ (e = [] ∨ e = [10] ∨ e = [13, 10])

theorem _root_.SatSky.Json.Plain.cstr {s : CString} (h : Plain s) : IsCStr s := by
  intro c hc h0
  have := (h c hc).1
  omega

theorem LineOk.cstr {l : CString} (h : LineOk l) : IsCStr l := by
  obtain ⟨t, e, rfl, -, ht, he⟩ := h
  intro c hc
  rcases List.mem_append.mp hc with hc | hc
  · exact ht.cstr c hc
  · rcases he with rfl | rfl | rfl <;> simp at hc <;> omega

/-- The name made from a printable line is printable. -/
theorem LineOk.name {l : CString} (h : LineOk l) : Plain (nameText l) := by
  obtain ⟨t, e, rfl, hne, ht, he⟩ := h
  unfold nameText
  simp only []
  split
  · have : (t ++ e).take 1 = t.take 1 := by
      cases t with
      | nil => exact absurd rfl hne
      | cons c t => simp
    rw [this]
    exact ht.take 1
  · -- the characters at the end are blanks
    have hspl : ∃ e', (t ++ e).take 23 = t.take 23 ++ e' ∧ ∀ c ∈ e', Blank c := by
      refine ⟨e.take (23 - t.length), List.take_append, ?_⟩
      intro c hc
      have hc := List.mem_of_mem_take hc
      rcases he with rfl | rfl | rfl <;> simp at hc
      · right; omega
      · right; omega
    obtain ⟨e', h1, h2⟩ := hspl
    rw [h1, List.reverse_append, List.dropWhile_append_of_pos (by intro c hc; simpa using h2 c (by simpa using hc))]
    refine (ht.take 23).sub fun c hc => ?_
    have := (List.dropWhile_sublist _).mem (List.mem_reverse.mp hc)
    exact List.mem_reverse.mp this

theorem parse_len68 {l1 l2 : CString} {rv : Int} {t : Tle} (h : parseElements l1 l2 = some (rv, some t)) : 68 ≤ l1.length := by
  have h := parse_fields h
  unfold parseFields at h
  obtain ⟨c18, _, h⟩ := Option.bind_eq_some_iff.mp h
  obtain ⟨c19, _, h⟩ := Option.bind_eq_some_iff.mp h
  obtain ⟨p20, _, h⟩ := Option.bind_eq_some_iff.mp h
  obtain ⟨⟨day, frac⟩, _, h⟩ := Option.bind_eq_some_iff.mp h
  obtain ⟨p2, _, h⟩ := Option.bind_eq_some_iff.mp h
  obtain ⟨norad, _, h⟩ := Option.bind_eq_some_iff.mp h
  obtain ⟨tb, htb, -⟩ := Option.bind_eq_some_iff.mp h
  unfold sub at htb
  split at htb
  · omega
  · simp at htb

/-- `line1` is (the beginning of) a printable line. -/
def Line1Ok (x : CString) : Prop := x = [] ∨ ∃ l, LineOk l ∧ x <+: l

theorem desig_plain {x y : CString} {rv : Int} {t : Tle} {d : CString} (hx : Line1Ok x) (h : parseElements x y = some (rv, some t))
    (hd : desigText t.intlDesig = some d) : Plain d := by
  have hlen := parse_len68 h
  obtain ⟨h1, -, -⟩ := parse_desig h
  have hp : Plain (x.take 17) := by
    rcases hx with rfl | ⟨l, ⟨u, e, rfl, -, hu, he⟩, hpre⟩
    · simp at hlen
    · have hle := hpre.length_le
      have hu17 : 17 ≤ u.length := by
        rcases he with rfl | rfl | rfl <;> simp at hle <;> omega
      obtain ⟨w, hw⟩ := hpre
      have : x.take 17 = u.take 17 := by
        have e1 : (x ++ w).take 17 = x.take 17 := by rw [List.take_append, show 17 - x.length = 0 by omega]; simp
        have e2 : (u ++ e).take 17 = u.take 17 := by rw [List.take_append, show 17 - u.length = 0 by omega]; simp
        rw [← e1, hw, e2]
      rw [this]
      exact hu.take 17
  have hdes : Plain t.intlDesig := by
    rw [h1]
    refine hp.sub ?_
    intro c hc
    have e : (x.drop 9).take 8 = (x.take 17).drop 9 := by rw [List.drop_take]
    rw [e] at hc
    exact List.mem_of_mem_drop hc
  unfold desigText at hd
  split at hd
  · simp only [Option.some.injEq] at hd
    rw [← hd]; decide
  · simp only [Option.bind_eq_bind, Option.bind_eq_some_iff, Option.some.injEq] at hd
    obtain ⟨v, -, rfl⟩ := hd
    apply Plain.take
    refine ((Plain.append ?_ (hdes.take 2)).append (by decide)).append (hdes.drop 2)
    split <;> decide

/-- The two line buffers after part of the loop body. -/
def Win (s : LoopSt) (l : CString) (f : Flow) : Prop :=
  ∀ s', f.st? = some s' → (s'.name = s.name ∨ setName s.name l = some s'.name) ∧
    (s'.line1 = s.line1 ∨ s'.line1 = s.line1.take 16 ∨ s'.line1 = l)

theorem Win.of {s u : LoopSt} {l : CString} {f : Flow} (h : Win u l f) (h1 : u.name = s.name)
    (h2 : u.line1 = s.line1 ∨ u.line1 = s.line1.take 16) : Win s l f := by
  intro s' hs
  obtain ⟨k1, k2⟩ := h s' hs
  rw [h1] at k1
  refine ⟨k1, ?_⟩
  rcases h2 with h2 | h2
  · rw [h2] at k2; exact k2
  · rw [h2] at k2
    simp only [List.take_take, min_self] at k2
    tauto

theorem win_next (s : LoopSt) (l : CString) : Win s l (.next s) := by
  intro s' hs
  simp only [Flow.st?, Option.some.injEq] at hs
  subst hs
  exact ⟨Or.inl rfl, Or.inl rfl⟩

theorem win_stop (s : LoopSt) (l : CString) : Win s l (.stop s) := win_next s l

theorem win_exit (s : LoopSt) (l : CString) (a b c) : Win s l (.exit a b c s) := win_next s l

theorem win_ub (s : LoopSt) (l : CString) : Win s l .ub := by
  intro s' hs
  simp [Flow.st?] at hs

theorem win_advance (s : LoopSt) (l : CString) : Win s l (advance s l) := by
  unfold advance
  split
  · cases h : setName s.name l with
    | none => exact win_ub s l
    | some b =>
      intro s' hs
      simp only [Flow.st?, Option.some.injEq] at hs
      subst hs
      exact ⟨Or.inr h, Or.inr (Or.inr rfl)⟩
  · intro s' hs
    simp only [Flow.st?, Option.some.injEq] at hs
    subst hs
    exact ⟨Or.inl rfl, Or.inr (Or.inr rfl)⟩

theorem win_report (p : Params) (s : LoopSt) (cat : CString) (t : Tle) (o : Obs) (l : CString) : Win s l (report p s cat t o l) := by
  unfold report
  simp only []
  split
  · exact (win_next _ l).of rfl (Or.inr rfl)
  · split
    · split
      · exact (win_stop _ l).of rfl (Or.inr rfl)
      · exact (win_advance _ l).of rfl (Or.inr rfl)
    · exact win_ub s l

theorem win_observe (p : Params) (E : Tle → Obs) (s : LoopSt) (cat : CString) (t : Tle) (l : CString) : Win s l (observe p E s cat t l) := by
  unfold observe
  simp only []
  split
  · exact win_exit s l _ _ _
  · split
    · exact win_next s l
    · split
      · exact win_report p s cat t _ l
      · exact win_advance s l

theorem win_step (p : Params) (E : Tle → Obs) (s : LoopSt) (l : CString) : Win s l (tleStep p E s l) := by
  unfold tleStep
  split
  · exact win_ub s l
  · split
    · split
      · unfold consider
        simp only []
        split
        · exact win_ub s l
        · split
          · exact (win_next _ l).of rfl (Or.inl rfl)
          · split
            · exact (win_next _ l).of rfl (Or.inl rfl)
            · split
              · exact win_ub s l
              · rename_i u hu
                unfold remember at hu
                dsimp only at hu
                generalize (if s.useLen ≥ s.curLen then s.curLen + 10000 else s.curLen) = cl at hu
                split at hu
                · simp only [Option.some.injEq] at hu
                  subst hu
                  exact (win_observe p E _ _ _ l).of rfl (Or.inl rfl)
                · simp at hu
      · exact win_ub s l
    · exact win_advance s l

/-- The names and designators kept by the reading loop are printable. -/
structure NInv (E : Tle → Obs) (s : LoopSt) : Prop where
  buf : BufOk s.name
  name : ∀ nm, cstr s.name = some nm → Plain nm
  line1 : Line1Ok s.line1
  reports : ∀ r ∈ s.reports, Plain r.name ∧ Plain r.desig ∧ r.obs = E r.tle

theorem setName_plain {b b' : List Int} {l : CString} (hb : BufOk b) (hl : LineOk l) (h : setName b l = some b') :
    BufOk b' ∧ ∀ nm, cstr b' = some nm → Plain nm := by
  have hne : l ≠ [] := by
    obtain ⟨t, e, rfl, ht, -⟩ := hl
    simp [ht]
  obtain ⟨b2, h1, h2, h3⟩ := setName_ok b hb l hne hl.cstr
  rw [h] at h1
  simp only [Option.some.injEq] at h1
  subst h1
  refine ⟨h2, fun nm hnm => ?_⟩
  rw [h3] at hnm
  simp only [Option.some.injEq] at hnm
  rw [← hnm]
  exact hl.name

theorem NInv.step {p : Params} {E : Tle → Obs} {s s' : LoopSt} {l : CString} (h : NInv E s) (hl : LineOk l)
    (hs : (tleStep p E s l).st? = some s') : NInv E s' := by
  obtain ⟨k1, k2⟩ := win_step p E s l s' hs
  have hb : BufOk s'.name ∧ ∀ nm, cstr s'.name = some nm → Plain nm := by
    rcases k1 with k1 | k1
    · rw [k1]; exact ⟨h.buf, h.name⟩
    · exact setName_plain h.buf hl k1
  have hl1 : Line1Ok s'.line1 := by
    rcases k2 with k2 | k2 | k2
    · rw [k2]; exact h.line1
    · rw [k2]
      rcases h.line1 with h0 | ⟨m, hm, hp⟩
      · left; rw [h0]; rfl
      · right; exact ⟨m, hm, (List.take_prefix 16 _).trans hp⟩
    · rw [k2]; exact Or.inr ⟨l, hl, List.prefix_rfl⟩
  refine ⟨hb.1, hb.2, hl1, ?_⟩
  rcases tleStep_cases p E s s' l hs with hq | ⟨⟨r, hr⟩, -⟩
  · rw [hq.reports]; exact h.reports
  · rw [hr.reports]
    intro x hx
    rcases List.mem_append.mp hx with hx | hx
    · exact h.reports x hx
    · simp only [List.mem_singleton] at hx
      subst hx
      exact ⟨h.name _ hr.name, desig_plain h.line1 hr.parse hr.desig, hr.obs⟩

theorem NInv.tleLoop {p : Params} {E : Tle → Obs} (ls : List CString) (hls : ∀ l ∈ ls, LineOk l) (s s' : LoopSt) (h : NInv E s)
    (hs : (tleLoop p E s ls).st? = some s') : NInv E s' := by
  induction ls generalizing s with
  | nil =>
    simp only [Sky.tleLoop, Flow.st?, Option.some.injEq] at hs
    subst hs; exact h
  | cons l ls ih =>
    rw [tleLoop_cons] at hs
    cases hst : tleStep p E s l with
    | next u =>
      rw [hst] at hs
      exact ih (fun x hx => hls x (by simp [hx])) u (h.step (hls l (by simp)) (by rw [hst]; rfl)) hs
    | stop u => rw [hst] at hs; exact h.step (hls l (by simp)) (by rw [hst]; exact hs)
    | exit a b c u => rw [hst] at hs; exact h.step (hls l (by simp)) (by rw [hst]; exact hs)
    | ub => rw [hst] at hs; simp [Flow.st?] at hs

/-- A file whose lines can be printed. -/
def TleText (content : CString) : Prop := ∀ l ∈ fileLines 100 content, LineOk l

theorem NInv.files {p : Params} {E : Tle → Obs} (fs : List (CString × Option CString))
    (hfs : ∀ f c, (f, some c) ∈ fs → TleText c) (s s' : LoopSt) (hb : BufOk s.name)
    (hr : ∀ r ∈ s.reports, Plain r.name ∧ Plain r.desig ∧ r.obs = E r.tle)
    (hs : (filesLoop p E s fs).st? = some s') : ∀ r ∈ s'.reports, Plain r.name ∧ Plain r.desig ∧ r.obs = E r.tle := by
  induction fs generalizing s with
  | nil =>
    simp only [filesLoop, Flow.st?, Option.some.injEq] at hs
    subst hs; exact hr
  | cons f fs ih =>
    obtain ⟨path, oc⟩ := f
    cases oc with
    | none =>
      simp only [filesLoop] at hs
      split at hs
      · simp only [Flow.st?, Option.some.injEq] at hs
        subst hs
        exact hr
      · simp [Flow.st?] at hs
    | some content =>
      have htext := hfs path content (by simp)
      simp only [filesLoop] at hs
      have key : ∀ u, (fileLoop p E path s content).st? = some u →
          BufOk u.name ∧ ∀ r ∈ u.reports, Plain r.name ∧ Plain r.desig ∧ r.obs = E r.tle := by
        intro u hu
        unfold fileLoop at hu
        unfold TleText at htext
        cases hlines : fileLines 100 content with
        | nil =>
          rw [hlines] at hu
          simp only [] at hu
          split at hu
          · simp only [Flow.st?, Option.some.injEq] at hu
            subst hu
            exact ⟨hb, hr⟩
          · simp [Flow.st?] at hu
        | cons l ls =>
          rw [hlines] at hu htext
          simp only [] at hu
          cases hn : setName s.name l with
          | none => rw [hn] at hu; simp [Flow.st?] at hu
          | some b =>
            rw [hn] at hu
            have hlo := htext l (by simp)
            obtain ⟨k1, k2⟩ := setName_plain hb hlo hn
            have := NInv.tleLoop (p := p) ls (fun x hx => htext x (by simp [hx])) { s with line1 := l, name := b } u
              ⟨k1, k2, Or.inr ⟨l, hlo, List.prefix_rfl⟩, hr⟩ hu
            exact ⟨this.buf, this.reports⟩
      cases hst : fileLoop p E path s content with
      | next u =>
        rw [hst] at hs
        obtain ⟨k1, k2⟩ := key u (by rw [hst]; rfl)
        exact ih (fun f c hf => hfs f c (by simp [hf])) u k1 k2 hs
      | stop u =>
        rw [hst] at hs
        exact (key s' (by rw [hst]; exact hs)).2
      | exit a b c u =>
        rw [hst] at hs
        exact (key s' (by rw [hst]; exact hs)).2
      | ub => rw [hst] at hs; simp [Flow.st?] at hs

/-! ### C26 -/

/-- The numbers come out of `printf` as numbers. -/
structure NumbersOk (W : World) : Prop where
  show_ : ∀ x, Plain (W.L.showF x)
  nums : ∀ p, ParamTexts.Ok (W.nums p)
  sun : ∀ p, SunTexts.Ok (W.sun p)
  obs : ∀ p t, Obs.Ok (W.E p t)
  /-- The uninitialised array `sat_name` happens to have a NUL at index 23 (see C24). -/
  junk : BufOk W.junk

/-- The rows of a list of files: plain text, ended by a newline. -/
def ListText (content : CString) : Prop := ∀ l ∈ fileLines 64 content, ∃ t e : CString, l = t ++ e ∧ Plain t ∧ (e = [] ∨ e = [10])

theorem rowPath_plain {dir row path : CString} (hd : Plain dir) (hr : ∃ t e : CString, row = t ++ e ∧ Plain t ∧ (e = [] ∨ e = [10]))
    (h : rowPath dir row = some path) : Plain path := by
  obtain ⟨t, e, rfl, ht, he⟩ := hr
  unfold rowPath at h
  split at h
  · simp at h
  · simp only [] at h
    generalize hg : (if (t ++ e).getLastD 0 < 32 then (t ++ e).dropLast else t ++ e) = r at h
    split at h
    · simp at h
    · simp only [Option.some.injEq] at h
      rw [← h]
      refine hd.append (plain_cons (by omega) ?_)
      rw [← hg]
      rcases he with rfl | rfl
      · simp only [List.append_nil]
        split
        · exact ht.sub (fun c hc => List.mem_of_mem_dropLast hc)
        · exact ht
      · simp only [List.getLastD_concat, List.dropLast_concat]
        rw [if_pos (by norm_num)]
        exact ht

theorem command_plain {argv : List CString} (il : Bool) (h : ∀ a ∈ argv, Plain a) : Plain (command argv il) := by
  have hf : ∀ l : List CString, (∀ a ∈ l, Plain a) → Plain (l.flatMap (fun a => 32 :: a)) := by
    intro l hl c hc
    simp only [List.mem_flatMap, List.mem_cons] at hc
    obtain ⟨a, ha, rfl | hc⟩ := hc
    · omega
    · exact hl a ha c hc
  have hd : ∀ n, ∀ a ∈ argv.drop n, Plain a := fun n a ha => h a (List.mem_of_mem_drop ha)
  unfold command
  refine Plain.append (by decide) ?_
  split
  · refine (Plain.append (by decide) ?_).append (hf _ (hd 2))
    cases h1 : argv[1]? with
    | none => rw [List.getD_eq_getElem?_getD, h1]; exact (by decide : Plain [])
    | some a => rw [List.getD_eq_getElem?_getD, h1]; exact h a (List.mem_of_getElem? h1)
  · exact hf _ (hd 1)

theorem afterLoop_plain {p p' : Params} (h : ParamsPlain p) (ha : afterLoop p = .ok p') : ParamsPlain p' := by
  unfold afterLoop at ha
  unfold ParamsPlain at *
  by_cases hd : p.defDir
  · simp only [if_pos hd] at ha
    split at ha
    · simp only [Res.ok.injEq] at ha
      subst ha
      exact ⟨h.1, (by decide : Plain b!"/usr/local/TLErepo")⟩
    · simp at ha
  · simp only [if_neg hd] at ha
    split at ha
    · simp only [Res.ok.injEq] at ha
      subst ha
      exact h
    · simp at ha

theorem openJson_cons : openJson = 123 :: openJson.tail := rfl

/-- The answer of an error detected before anything else is printed. -/
theorem json_error {argv : List CString} {il : Bool} {st : ℤ} {msg : CString} {a b c : ℤ} (ha : ∀ x ∈ argv, Plain x) (hm : Plain msg) :
    ObjectDocument (openJson ++ closeJson argv il st msg a b c) := by
  rw [openJson_cons, List.cons_append]
  exact object_of_acc (acc_open.append (acc_close (command_plain il ha) hm))

theorem scanFiles_json {W : World} (hW : NumbersOk W) {p : Params} {argv : List CString} {il : Bool} {name : CString} {paths : List CString}
    {code : ℤ} {out : CString} (h : scanFiles W p argv il name paths = .exit code out) (ha : ∀ a ∈ argv, Plain a) (hp : ParamsPlain p)
    (hn : Plain name) (hpaths : ∀ x ∈ paths, Plain x) (hfiles : ∀ f c, W.file f = some c → TleText c)
    (hopen : code = 0 ∨ ¬ (b!"\"satellites\": [" <:+: out)) : ObjectDocument out := by
  have hpre : Acc (preamble W p name) gKey gKey := by
    unfold preamble
    refine Acc.append (Acc.append ?_ (acc_params hn (hW.nums p) hp.1)) (acc_sun (hW.sun p))
    split
    · exact acc_geoFields
    · exact Acc.nil _
  have hst : ∀ s, (filesLoop p (W.E p) (start W.junk) (paths.map (fun f => (f, W.file f)))).st? = some s →
      (∀ r ∈ s.reports, ReportPlain r) ∧ s.out = render p 0 s.reports ∧ s.nFound = s.reports.length := by
    intro s hs
    have hR := RInv.run hs
    have hN := NInv.files (p := p) (E := W.E p) (paths.map (fun f => (f, W.file f)))
      (fun f c hf => by
        simp only [List.mem_map, Prod.mk.injEq] at hf
        obtain ⟨x, -, rfl, hx⟩ := hf
        exact hfiles _ _ hx)
      (start W.junk) s hW.junk (by simp [start]) hs
    refine ⟨fun r hr => ?_, hR.out, hR.cnt⟩
    obtain ⟨k1, k2, k3⟩ := hN r hr
    exact ⟨k1, k2, by rw [k3]; exact hW.obs p r.tle⟩
  have hcmd := command_plain il ha
  -- the text of the satellites, from the outer object
  have hout : ∀ s : LoopSt, (∀ r ∈ s.reports, ReportPlain r) → s.out = render p 0 s.reports → s.nFound = s.reports.length →
      Acc s.out gKey (if !p.infoOnly && decide (s.nFound > 0) then gSat else gKey) := by
    intro s h1 h2 h3
    cases hi : p.infoOnly with
    | true =>
      rw [h2, render_info p hi]
      exact Acc.nil _
    | false =>
      have := acc_render p hi s.reports h1 0 le_rfl
      rw [h2]
      rw [if_pos rfl] at this
      by_cases hnil : s.reports = []
      · rw [if_pos ⟨rfl, hnil⟩] at this
        rw [if_neg (by rw [h3, hnil]; simp)]
        exact this
      · rw [if_neg (by simp [hnil])] at this
        rw [if_pos (by
          have : 0 < s.reports.length := List.length_pos_of_ne_nil hnil
          rw [h3]; simp; omega)]
        exact this
  rcases scanFiles_exit h with ⟨s, hs, -, rfl⟩ | ⟨st, msg, s, hs, rfl⟩
  · obtain ⟨h1, h2, h3⟩ := hst s (by rcases hs with hs | hs <;> rw [hs] <;> rfl)
    rw [openJson_cons]
    simp only [List.cons_append, List.append_assoc]
    refine object_of_acc (acc_open.append (hpre.append ((hout s h1 h2 h3).append ?_)))
    unfold ending
    refine Acc.append (g' := gKey) ?_ (acc_close hcmd ?_)
    · split
      · exact acc_piece (a := .lit b!"],") trivial (by decide +kernel)
      · exact Acc.nil _
    · split <;> decide
  · obtain ⟨h1, h2, h3⟩ := hst s (by rw [hs]; rfl)
    have hcm : code ≠ 0 ∧ Plain msg := by
      have hpl : ∀ path c, (path, c) ∈ paths.map (fun f => (f, W.file f)) → Plain path := by
        intro path c hf
        simp only [List.mem_map, Prod.mk.injEq] at hf
        obtain ⟨x, hx, rfl, -⟩ := hf
        exact hpaths _ hx
      rcases filesLoop_exit _ _ _ hs with ⟨-, rfl, path, hm, rfl⟩ | ⟨-, rfl, path, hm, rfl⟩ | ⟨-, rfl, rfl, -⟩
      · exact ⟨by decide, Plain.append (by decide) (hpl _ _ hm)⟩
      · exact ⟨by decide, Plain.append (by decide) (hpl _ _ hm)⟩
      · exact ⟨by decide, by decide⟩
    obtain ⟨hcode, hm⟩ := hcm
    have hno : (!p.infoOnly && decide (s.nFound > 0)) = false := by
      rcases hopen with hopen | hopen
      · exact absurd hopen hcode
      · cases hi : p.infoOnly with
        | true => rfl
        | false =>
          cases hrep : s.reports with
          | nil => rw [h3, hrep]; rfl
          | cons r l =>
            exfalso
            apply hopen
            rw [h2, hrep]
            simp only [render, emit, hi]
            refine ⟨openJson ++ preamble W p name ++ fieldsDesc ++ [32], satJson (geoRequested p) r ++ render p (0 + 1) l ++ closeJson argv il st msg s.nFound 0 s.nSunlit, ?_⟩
            simp
    have ho := hout s h1 h2 h3
    rw [hno] at ho
    rw [openJson_cons]
    simp only [List.cons_append, List.append_assoc]
    exact object_of_acc (acc_open.append (hpre.append (ho.append (acc_close hcmd hm))))

/-- **C26** (partial).  Whatever the arguments and files: the answer of the program is a single JSON object,
provided that the arguments and the lines of the files are printable text without quotes and backslashes
(names made from empty lines excluded), that the numbers are printed as numbers, and that the program did
not meet an error after it had begun to print the satellites.  (Missing: those cases and the call without
arguments, see the `C26_…_violated` theorems.) -/
theorem C26_json_partial (W : World) (hW : NumbersOk W) (argv : List CString) (hlen : 2 ≤ argv.length)
    (ha : ∀ a ∈ argv, Plain a) (hfiles : ∀ f c, W.file f = some c → TleText c)
    (hlist : ∀ name dir c, argv.getD (fileIndex argv) [] = 64 :: name → W.file (inDir dir name) = some c → ListText c)
    (code : ℤ) (out : CString) (hopen : code = 0 ∨ ¬ (b!"\"satellites\": [" <:+: out))
    (h : Runs W argv (.exit code out)) : ObjectDocument out := by
  have hinit : ParamsPlain init.p := ⟨by decide, by decide⟩
  have harg : ∀ i, Plain (argv.getD i []) := by
    intro i
    rw [List.getD_eq_getElem?_getD]
    cases h1 : argv[i]? with
    | none => exact (by decide : Plain [])
    | some a => exact ha a (List.mem_of_getElem? h1)
  rcases Runs_exit h with ⟨hl, -, -⟩ | ⟨n, msg, -, hs, rfl⟩ | ⟨p, p', -, ⟨n, hs⟩, hal, h⟩
  · omega
  · exact json_error ha ((steps_plain ha hW.show_ n init hinit).2 _ _ hs)
  · have hp := afterLoop_plain ((steps_plain ha hW.show_ n init hinit).1 _ hs) hal
    have hset : ∀ name, argv.getD (fileIndex argv) [] = 64 :: name → Plain name ∧ ∀ a ∈ argv.set (fileIndex argv) name, Plain a := by
      intro name hn
      have hpn : Plain name := by
        have := harg (fileIndex argv)
        rw [hn] at this
        exact this.sub (fun c hc => by simp [hc])
      refine ⟨hpn, fun a hm => ?_⟩
      rcases List.mem_or_eq_of_mem_set hm with hm | rfl
      · exact ha a hm
      · exact hpn
    have hdir : ∀ name, Plain name → Plain (inDir p'.tlePath name) := fun name hn => (hp.2.append (by decide)).append hn
    rcases compute_exit h with ⟨name, hn, -, -, rfl⟩ | ⟨name, c, hn, hc, h⟩ | ⟨path, -, hpath, h⟩
    · obtain ⟨h1, h2⟩ := hset name hn
      exact json_error h2 (Plain.append (by decide) (hdir name h1))
    · obtain ⟨h1, h2⟩ := hset name hn
      refine scanFiles_json hW h h2 hp h1 ?_ hfiles hopen
      intro x hx
      unfold listPaths at hx
      obtain ⟨row, hrow, hx⟩ := List.mem_filterMap.mp hx
      exact rowPath_plain hp.2 (hlist name _ c hn hc row hrow) hx
    · refine scanFiles_json hW h ha hp (harg _) ?_ hfiles hopen
      intro x hx
      simp only [List.mem_singleton] at hx
      subst hx
      unfold singlePath at hpath
      simp only [] at hpath
      generalize hg : (if 47 ∈ argv.getD (fileIndex argv) [] then argv.getD (fileIndex argv) [] else p'.tlePath ++ 47 :: argv.getD (fileIndex argv) []) = y at hpath
      split at hpath
      · simp only [Option.some.injEq] at hpath
        rw [← hpath, ← hg]
        split
        · exact harg _
        · exact hp.2.append (plain_cons (by omega) (harg _))
      · simp at hpath

/-! Violations. -/

theorem numText0 : NumText [48] := numTextOf ⟨[], [48], [], [], rfl, Or.inl rfl, Or.inl rfl, Or.inl rfl, Or.inl rfl⟩

theorem numbersOk_world0 (files : List (CString × CString)) : NumbersOk (world0 files) where
  show_ x := by
    change Plain (fmtF 6 x)
    unfold fmtF
    simp only []
    refine Plain.append (Plain.append ?_ (plain_natText _)) (plain_cons (by omega) ((plain_replicate _ _ (by omega)).append (plain_natText _)))
    split <;> decide
  nums _ := by constructor <;> exact numText0
  sun _ := by constructor <;> exact numText0
  obs _ _ := by
    constructor
    case data =>
      intro t ht
      simp only [world0, here, List.mem_cons, List.not_mem_nil, or_false] at ht
      rcases ht with rfl | rfl
      · exact numText0
      · exact numTextOf ⟨[], [49], [], [], rfl, Or.inl rfl, Or.inr ⟨49, [], rfl, by omega, by omega, by simp⟩, Or.inl rfl, Or.inl rfl⟩
    all_goals exact numText0
  junk := zeros_ok

/-- The text does not pass the scanner that every JSON text passes. -/
def notJson (out : CString) : Bool := decide (sc out ⟨[], 0⟩ ≠ some ⟨[], 0⟩)

theorem notJson_spec {out : CString} (h : notJson out = true) : ¬ Document out := by
  intro hd
  unfold notJson at h
  simp only [decide_eq_true_eq] at h
  exact h (sc_document hd)

/-- Called without arguments the program prints a newline inside a string. -/
theorem C26_no_args_violated (W : World) : ∃ out, Runs W [b!"sat_skymap"] (.exit 0 out) ∧ ¬ Document out := by
  refine ⟨openJson ++ closeJson [b!"sat_skymap"] false 1 msgUsage 0 0 0, ?_, notJson_spec (by decide +kernel)⟩
  unfold Runs
  rw [if_pos (by decide)]
  rfl

/-- A quote in an argument ends the string early. -/
theorem C26_quote_violated : ∃ W argv out, argv.length = 3 ∧ Runs W argv (.exit 2 out) ∧ ¬ Document out := by
  obtain ⟨c, o, h1, h2⟩ := runs_of_check (W := world0 []) (argv := [b!"sat_skymap", b!"a\"b", b!"-l0,0,0"]) (n := 4)
    (P := fun c o => decide (c = 2) && notJson o) (by decide +kernel)
  simp only [Bool.and_eq_true, decide_eq_true_eq] at h2
  obtain ⟨rfl, h2⟩ := h2
  exact ⟨_, _, o, by rfl, h1, notJson_spec h2⟩

def isText : CString := recText b!"ISS (ZARYA)" (sat 25544 b!"98067A  ")

/-- A file of a list that cannot be opened after satellites were printed: the array is left open. -/
theorem C26_open_array_violated : ∃ W argv out, NumbersOk W ∧ (∀ a ∈ argv, Plain a) ∧ Runs W argv (.exit 2 out) ∧ ¬ Document out := by
  obtain ⟨c, o, h1, h2⟩ := runs_of_check (W := world0 [(b!"./x", b!"a\nb\n"), (b!"./a", isText)]) (argv := [b!"sat_skymap", b!"@x", b!"-l0,0,0"]) (n := 4)
    (P := fun c o => decide (c = 2) && notJson o) (by decide +kernel)
  simp only [Bool.and_eq_true, decide_eq_true_eq] at h2
  obtain ⟨rfl, h2⟩ := h2
  exact ⟨_, _, o, numbersOk_world0 _, by decide, h1, notJson_spec h2⟩

/-- An empty line as name line puts a newline into the name. -/
theorem C26_blank_name_violated : ∃ W argv out, NumbersOk W ∧ (∀ a ∈ argv, Plain a) ∧ Runs W argv (.exit 0 out) ∧ ¬ Document out := by
  obtain ⟨c, o, h1, h2⟩ := runs_of_check (W := world0 [(b!"./a", recText [] (sat 25544 b!"98067A  "))]) (argv := [b!"sat_skymap", b!"a", b!"-l0,0,0"]) (n := 4)
    (P := fun c o => decide (c = 0) && notJson o) (by decide +kernel)
  simp only [Bool.and_eq_true, decide_eq_true_eq] at h2
  obtain ⟨rfl, h2⟩ := h2
  exact ⟨_, _, o, numbersOk_world0 _, by decide, h1, notJson_spec h2⟩

theorem lineOk_of {l : CString} (h : 2 ≤ l.length ∧ Plain l.dropLast ∧ l.getLast? = some 10) : LineOk l := by
  obtain ⟨h1, h2, h3⟩ := h
  obtain ⟨t, rfl⟩ := List.getLast?_eq_some_iff.mp h3
  rw [List.dropLast_concat] at h2
  refine ⟨t, [10], rfl, ?_, h2, Or.inr (Or.inl rfl)⟩
  rintro rfl
  simp at h1

/-- The hypotheses of `C26_json_partial` hold for a run that reports a satellite. -/
example : ∃ out, Runs (world0 [(b!"./a", isText)]) [b!"sat_skymap", b!"a", b!"-l0,0,0"] (.exit 0 out) ∧
    b!"ISS (ZARYA)" <:+: out ∧ ObjectDocument out := by
  obtain ⟨c, o, h1, h2⟩ := runs_of_check (W := world0 [(b!"./a", isText)]) (argv := [b!"sat_skymap", b!"a", b!"-l0,0,0"]) (n := 4)
    (P := fun c o => decide (c = 0) && decide (b!"ISS (ZARYA)" <:+: o)) (by decide +kernel)
  simp only [Bool.and_eq_true, decide_eq_true_eq] at h2
  obtain ⟨rfl, h2⟩ := h2
  refine ⟨o, h1, h2, C26_json_partial _ (numbersOk_world0 _) _ (by decide) (by decide) ?_ ?_ _ _ (Or.inl rfl) h1⟩
  · intro f c hf l hl
    have hc : c = isText := by
      simp only [world0, Option.map_eq_some_iff] at hf
      obtain ⟨x, hx, rfl⟩ := hf
      have := List.mem_of_find?_eq_some hx
      simp only [List.mem_singleton] at this
      rw [this]
    subst hc
    exact lineOk_of ((by decide +kernel : ∀ l ∈ fileLines 100 isText, 2 ≤ l.length ∧ Plain l.dropLast ∧ l.getLast? = some 10) l hl)
  · intro name dir c hn
    exact absurd hn (by simp [fileIndex])

end SatSky.Props
