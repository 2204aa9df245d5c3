import Verif.Lemmas.VisOpt
import Verif.Props.Options
import Verif.Props.Dates

/-! Option loop of `sat_visibility`: C29 (termination, memory safety), C61 (dates and MJDs), C127 (ranges),
C128 (order). -/

namespace SatSky.Props

open SatSky Spec Dates Opts Vis

/-- The command line: program name and items. -/
def vcmdline (ts : List Tok) : List CString := b!"sat_visibility" :: ts.flatMap Tok.args

/-! ### C29 -/

/-- A switch with something attached to it, e.g. `-NT`. -/
def VSwitchAttached (a : CString) : Prop := ∃ c x r, a = 45 :: c :: x :: r ∧ VisSwitchLetter c ∧ x ≠ 0

/-- What one vstep of the loop does to the index. -/
theorem vstep_index (L : Lib) (argv : List CString) (s s' : VSt) (h : vstep L argv s = .run s') :
    s.i < argv.length ∧ (s.i < s'.i ∨ (s'.i = s.i ∧ ∃ a, argv[s.i]? = some a ∧ VSwitchAttached a)) := by
  unfold vstep at h
  split at h
  · rename_i hlt
    refine ⟨hlt, ?_⟩
    unfold vbody arg at h
    cases ha : argv[s.i]? with
    | none => rw [ha] at h; simp at h
    | some a =>
      rw [ha] at h
      simp only [] at h
      by_cases h0 : rd a 0 = some 45
      · rw [if_pos h0] at h
        cases h1 : rd a 1 with
        | none => rw [h1] at h; simp at h
        | some opt =>
          cases h2 : rd a 2 with
          | none => rw [h1, h2] at h; simp at h
          | some c2 =>
            rw [h1, h2] at h
            simp only [] at h
            by_cases hh : opt = 104
            · rw [if_pos hh] at h; simp at h
            · rw [if_neg hh] at h
              by_cases hs : isVSwitch opt = true
              · rw [if_pos hs] at h
                simp only [VNext.run.injEq] at h
                subst h
                by_cases hc : c2 = 0
                · left; simp [hc]
                · right
                  refine ⟨by simp [hc], a, rfl, ?_⟩
                  match a, h0, h1, h2 with
                  | [], h0, _, _ => simp [rd] at h0
                  | [_], _, _, h2 => simp [rd] at h2
                  | [_, _], _, _, h2 => simp [rd] at h2; exact absurd h2.symm hc
                  | x :: y :: z :: r, h0, h1, h2 =>
                    simp only [rd, Option.some.injEq] at h0 h1 h2
                    exact ⟨y, z, r, by rw [h0], by rw [h1]; exact (isVSwitch_iff _).mp hs, by rw [h2]; exact hc⟩
              · rw [if_neg hs] at h
                left
                split at h
                · rename_i hb
                  split at hb
                  · simp at hb
                  · split at hb
                    · simp only [Res.ok.injEq] at hb
                      simp only [VNext.run.injEq] at h
                      subst h; subst hb
                      simp only []
                      split <;> omega
                    · simp at hb
                    · simp at hb
                · simp at h
                · simp at h
      · rw [if_neg h0] at h
        simp only [VNext.run.injEq] at h
        subst h
        left; simp
  · simp at h

/-- **C29** (partial).  If no argument is a switch with something attached, the option loop ends after
fewer than `argc` executions of its vbody, whatever the arguments.  (Missing: with such a switch it does
not end, see `C29_vis_hangs_violated`.) -/
theorem C29_vis_terminates_partial (L : Lib) (argv : List CString) (hne : argv ≠ [])
    (h : ∀ a ∈ argv, ¬ VSwitchAttached a) (s : VSt) : vsteps L argv argv.length vinit ≠ .run s := by
  have key : ∀ (n : Nat) (u s : VSt), vsteps L argv (n + 1) u = .run s → u.i + n < argv.length := by
    intro n
    induction n with
    | zero =>
      intro u s hs
      simp only [vsteps] at hs
      cases hst : vstep L argv u with
      | run v => simpa using (vstep_index L argv u v hst).1
      | done p => rw [hst] at hs; simp at hs
      | stop e => rw [hst] at hs; simp at hs
      | ub => rw [hst] at hs; simp at hs
    | succ n ih =>
      intro u s hs
      rw [vsteps] at hs
      cases hst : vstep L argv u with
      | run v =>
        rw [hst] at hs
        have h1 := ih v s hs
        rcases (vstep_index L argv u v hst).2 with hlt | ⟨-, a, ha, hbad⟩
        · omega
        · exact absurd hbad (h a (List.mem_of_getElem? ha))
      | done p => rw [hst] at hs; simp at hs
      | stop e => rw [hst] at hs; simp at hs
      | ub => rw [hst] at hs; simp at hs
  intro hs
  cases hl : argv.length with
  | zero => exact hne (List.length_eq_zero_iff.mp hl)
  | succ n =>
    rw [hl] at hs
    have := key n vinit s hs
    simp only [vinit] at this
    omega

/-- **C29** fails: once a switch with something attached is reached, the loop never ends: `i--` is done
even when no separate argument was taken (591-598). -/
theorem C29_vis_hangs_violated (L : Lib) (argv : List CString) (s : VSt) (a : CString)
    (ha : argv[s.i]? = some a) (hbad : VSwitchAttached a) :
    ∀ n, ∃ s', vsteps L argv n s = .run s' ∧ s'.i = s.i := by
  obtain ⟨c, x, r, rfl, hc, hx⟩ := hbad
  have hlt : s.i < argv.length := by
    by_contra hc
    rw [List.getElem?_eq_none (by omega)] at ha
    simp at ha
  have hsw := (isVSwitch_iff c).mpr hc
  have hne := vswitch_ne hc
  intro n
  induction n generalizing s with
  | zero => exact ⟨s, rfl, rfl⟩
  | succ n ih =>
    have hst : vstep L argv s = .run ⟨s.i, setVSwitch c s.p⟩ := by
      unfold vstep vbody arg
      rw [if_pos hlt, ha]
      simp [rd, hne, hsw, hx]
    simp only [vsteps, hst]
    exact ih ⟨s.i, setVSwitch c s.p⟩ ha hlt

/-- Concretely: `sat_visibility stations.txt -NT` runs forever, for every library. -/
theorem C29_vis_hangs_NT_violated (L : Lib) (n : Nat) :
    ∃ s, vsteps L [b!"sat_visibility", b!"stations.txt", b!"-NT"] n vinit = .run s := by
  cases n with
  | zero => exact ⟨_, rfl⟩
  | succ n =>
    have h1 : vstep L [b!"sat_visibility", b!"stations.txt", b!"-NT"] vinit = .run ⟨2, {}⟩ := rfl
    simp only [vsteps, h1]
    obtain ⟨s, hs, -⟩ := C29_vis_hangs_violated L [b!"sat_visibility", b!"stations.txt", b!"-NT"] ⟨2, {}⟩ b!"-NT" rfl
      ⟨78, 84, [], rfl, by decide, by decide⟩ n
    exact ⟨s, hs⟩

/-- **C29** fails: an option without its value at the end reads the null pointer `argv[argc]`, and an
argument "-" is read beyond its end. -/
theorem C29_vis_reads_past_end_violated (L : Lib) :
    vsteps L [b!"sat_visibility", b!"stations.txt", b!"-l"] 2 vinit = .ub ∧
    vsteps L [b!"sat_visibility", b!"-"] 1 vinit = .ub := ⟨rfl, rfl⟩

/-- **C29** fails in the value buffers: a designator of twelve characters overflows `intl_desig[12]`. -/
theorem C29_vis_value_overflow_violated (L : Lib) :
    vsteps L [b!"sat_visibility", b!"stations.txt", b!"-i", b!"1998-067ABCD"] 2 vinit = .ub := by
  simp only [vsteps]
  rfl

/-- Sizes of the values an option accepts without overflowing its buffer or an `int`; both numbers of `-j` are
readable and have a date text; the latitude is not astronomically large (it may be printed into `errmsg[128]`). -/
def VValueSane (L : Lib) (c : CChar) (v : CString) : Prop :=
  (c = 68 → v.length ≤ 127) ∧ (c = 105 → v.length ≤ 11) ∧
  (c = 106 → ∃ x y, (∀ a b, scan2 L v a b = (x, y)) ∧ optJ L.F x ≠ none ∧ optJ L.F y ≠ none) ∧
  (c = 116 → inInt (truncQ (L.atof v))) ∧
  (c = 108 → ∀ t x r, t <:+ v → L.scanD t = some (x, r) → |x| ≤ 10 ^ 60)

def VTokSane (L : Lib) : Tok → Prop
  | .attached c v => VValueSane L c v
  | .spaced c v => VValueSane L c v
  | _ => True

/-- A latitude that may have to be printed. -/
def VSaneP (p : VParams) : Prop := |p.lat| ≤ 10 ^ 60

theorem setVSwitch_sane (c : CChar) {p : VParams} (hp : VSaneP p) : VSaneP (setVSwitch c p) := by
  unfold setVSwitch
  split <;> exact hp

theorem setVValue_sane {L : Lib} (hL : SaneLib L) {c : CChar} (hc : VisValueLetter c) {v : CString} (hv : VValueSane L c v)
    (a : CString) {p : VParams} (hp : VSaneP p) :
    setVValue L c v a p ≠ .ub ∧ ∀ p', setVValue L c v a p = .ok p' → VSaneP p' := by
  obtain ⟨hD, hi, hj, ht, hnum⟩ := hv
  unfold VisValueLetter at hc
  simp only [List.mem_cons, List.not_mem_nil, or_false] at hc
  rcases hc with rfl | rfl | rfl | rfl | rfl | rfl | rfl | rfl | rfl
  · rw [vsv_a]
    refine ⟨by simp, ?_⟩
    intro p' h; simp only [Res.ok.injEq] at h; subst h; exact hp
  · rw [vsv_d]
    split
    · refine ⟨by simp, ?_⟩
      intro p' h; simp only [Res.ok.injEq] at h; subst h; exact hp
    · exact ⟨by simp, fun p' h => by simp at h⟩
  · have := hD rfl
    rw [vsv_D, copyTo_some (by omega)]
    refine ⟨by simp, ?_⟩
    intro p' h; simp only [Res.ok.injEq] at h; subst h; exact hp
  · have := hi rfl
    rw [vsv_i, copyTo_some (by omega)]
    refine ⟨by simp, ?_⟩
    intro p' h; simp only [Res.ok.injEq] at h; subst h; exact hp
  · rw [vsv_j]
    split
    · exact ⟨by simp, fun p' h => by simp at h⟩
    · obtain ⟨x0, x1, hx, key⟩ := hj rfl
      rw [hx]
      simp only []
      cases h0 : optJ L.F x0 with
      | none => exact absurd h0 key.1
      | some w0 =>
        cases h1 : optJ L.F x1 with
        | none => exact absurd h1 key.2
        | some w1 =>
          refine ⟨by simp, ?_⟩
          intro p' h; simp only [Res.ok.injEq] at h; subst h
          exact hp
  · rw [vsv_l]
    have h3 := scan3_sane (L := L) (v := v) (hnum rfl) (b := p.lon) (c := p.ht) hp
    generalize scan3 L v p.lat p.lon p.ht = x at h3 ⊢
    simp only []
    split
    · refine ⟨errorExit_not_ub ?_, fun p' h => absurd h (errorExit_ne_ok _ _ _)⟩
      have := hL.text _ h3
      simp only [msgLat, List.length_append, List.length_cons, List.length_nil]
      omega
    · refine ⟨by simp, ?_⟩
      intro p' h; simp only [Res.ok.injEq] at h; subst h; exact h3
  · rw [vsv_r]
    refine ⟨by simp, ?_⟩
    intro p' h; simp only [Res.ok.injEq] at h; subst h; exact hp
  · rw [vsv_s]
    refine ⟨by simp, ?_⟩
    intro p' h; simp only [Res.ok.injEq] at h; subst h; exact hp
  · have := ht rfl
    rw [vsv_t]
    simp only [int32, if_pos this]
    refine ⟨by simp, ?_⟩
    intro p' h; simp only [Res.ok.injEq] at h; subst h; exact hp

theorem vrun_sane {L : Lib} (hL : SaneLib L) (ts : List Tok)
    (hts : ∀ t ∈ ts, t.VisOk ∧ VTokSane L t) (p : VParams) (hp : VSaneP p) : vrun L ts p ≠ .ub := by
  induction ts generalizing p with
  | nil => simp [vrun]
  | cons t ts ih =>
    have h1 : veff L t p ≠ .ub ∧ ∀ p', veff L t p = .ok p' → VSaneP p' := by
      obtain ⟨ho, hs⟩ := hts t (by simp)
      cases t with
      | file n => exact ⟨by simp [veff], fun p' h => by simp only [veff, Res.ok.injEq] at h; rw [← h]; exact hp⟩
      | switch c => exact ⟨by simp [veff], fun p' h => by simp only [veff, Res.ok.injEq] at h; rw [← h]; exact setVSwitch_sane c hp⟩
      | attached c v => exact setVValue_sane hL ho.1 hs _ hp
      | spaced c v => exact setVValue_sane hL ho.1 hs _ hp
    simp only [vrun]
    cases he : veff L t p with
    | ok p' => exact ih (fun x hx => hts x (by simp [hx])) p' (h1.2 p' he)
    | stop e => simp
    | ub => exact absurd he h1.1

/-- **C29** (partial, memory safety).  On command lines written as documented, with values that fit, the
option loop ends regularly (it never reads outside the arguments or writes outside a buffer). -/
theorem C29_vis_documented_safe_partial (L : Lib) (hL : SaneLib L)
    (ts : List Tok) (hts : ∀ t ∈ ts, t.VisOk ∧ VTokSane L t) :
    (∃ p, vsteps L (vcmdline ts) (ts.length + 1) vinit = .done p) ∨
    ∃ e, vsteps L (vcmdline ts) (ts.length + 1) vinit = .stop e := by
  have h := vsteps_toks L (vcmdline ts) ts (fun t ht => (hts t ht).1) 1 {} (by simp [vcmdline]) (by simp [vcmdline])
    (ts.length + 1) (by omega)
  have hr := vrun_sane hL ts hts {} (by unfold VSaneP; norm_num)
  change vsteps L (vcmdline ts) (ts.length + 1) vinit = _ at h
  rw [h]
  cases hrun : vrun L ts {} with
  | ok p => exact Or.inl ⟨p, rfl⟩
  | stop e => exact Or.inr ⟨e, rfl⟩
  | ub => exact absurd hrun hr

/-- What every switch and every accepted value preserves holds after the loop. -/
theorem vsteps_inv {L : Lib} {argv : List CString} (P : VParams → Prop)
    (hs : ∀ c p, isVSwitch c = true → P p → P (setVSwitch c p))
    (hv : ∀ c v a p p', setVValue L c v a p = .ok p' → P p → P p') (n : Nat) :
    ∀ u p, P u.p → vsteps L argv n u = .done p → P p := by
  induction n with
  | zero => intro u p _ h; simp [vsteps] at h
  | succ n ih =>
    intro u p hp h
    rw [vsteps] at h
    cases hst : vstep L argv u with
    | run v =>
      rw [hst] at h
      refine ih v p ?_ h
      unfold vstep at hst
      split at hst
      · cases hb : vbody L argv u with
        | stop e => rw [hb] at hst; simp at hst
        | ub => rw [hb] at hst; simp at hst
        | ok w =>
          rw [hb] at hst
          simp only [VNext.run.injEq] at hst
          subst hst
          unfold vbody at hb
          cases ha : arg argv u.i with
          | none => rw [ha] at hb; simp at hb
          | some a =>
            rw [ha] at hb
            dsimp only at hb
            by_cases h0 : rd a 0 = some 45
            · rw [if_pos h0] at hb
              cases h1 : rd a 1 with
              | none => rw [h1] at hb; simp at hb
              | some opt =>
                cases h2 : rd a 2 with
                | none => rw [h1, h2] at hb; simp at hb
                | some c2 =>
                  rw [h1, h2] at hb
                  dsimp only at hb
                  by_cases hh : opt = 104
                  · rw [if_pos hh] at hb; simp at hb
                  · rw [if_neg hh] at hb
                    by_cases hsw : isVSwitch opt = true
                    · rw [if_pos hsw] at hb
                      simp only [Res.ok.injEq] at hb
                      subst hb
                      exact hs opt u.p hsw hp
                    · rw [if_neg hsw] at hb
                      split at hb
                      · simp at hb
                      · split at hb
                        · rename_i p' hval
                          simp only [Res.ok.injEq] at hb
                          subst hb
                          exact hv _ _ _ _ _ hval hp
                        · simp at hb
                        · simp at hb
            · rw [if_neg h0] at hb
              simp only [Res.ok.injEq] at hb
              subst hb
              exact hp
      · simp at hst
    | done q =>
      rw [hst] at h
      simp only [VNext.done.injEq] at h
      subst h
      unfold vstep at hst
      split at hst
      · split at hst <;> simp at hst
      · simp only [VNext.done.injEq] at hst
        rwa [← hst]
    | stop e => rw [hst] at h; simp at h
    | ub => rw [hst] at h; simp at h

/-- On a documented command line the loop ends with `q` exactly when the items, one after the other, give `q`. -/
theorem vparses_iff (L : Lib) (us : List Tok) (hus : ∀ t ∈ us, t.VisOk) (q : VParams) :
    VParses L (vcmdline us) q ↔ vrun L us {} = .ok q := by
  have hs := fun n hn => vsteps_toks L (vcmdline us) us hus 1 {} (by simp [vcmdline]) (by simp [vcmdline]) n hn
  constructor
  · rintro ⟨n, hn⟩
    have hmono : ∀ (m k : Nat) (u : VSt) (r : VParams), vsteps L (vcmdline us) m u = .done r →
        vsteps L (vcmdline us) (m + k) u = .done r := by
      intro m
      induction m with
      | zero => intro k u r h; simp [vsteps] at h
      | succ m ih =>
        intro k u r h
        rw [show m + 1 + k = (m + k) + 1 by omega]
        simp only [vsteps] at h ⊢
        cases hst : vstep L (vcmdline us) u with
        | run v => rw [hst] at h; exact ih k v r h
        | done p => rw [hst] at h; exact h
        | stop e => rw [hst] at h; simp at h
        | ub => rw [hst] at h; simp at h
    have h1 := hmono n (us.length + 1) vinit q hn
    have h2 := hs (n + (us.length + 1)) (by omega)
    change vsteps L (vcmdline us) _ vinit = _ at h2
    rw [h1] at h2
    cases hr : vrun L us {} with
    | ok p => rw [hr] at h2; simp only [VNext.done.injEq] at h2; rw [h2]
    | stop e => rw [hr] at h2; simp at h2
    | ub => rw [hr] at h2; simp at h2
  · intro hr
    refine ⟨us.length + 1, ?_⟩
    have h2 := hs (us.length + 1) (by omega)
    rw [hr] at h2
    exact h2

/-! ### C128 -/

/-- **C128**.  If the items of a command line are pairwise independent (different letters; not
one of the conflicting pairs d/j, a/i, a/s, D/T), any order of them sets the same
parameters. -/
theorem C128_any_order (L : Lib) (ts ts' : List Tok) (hok : ∀ t ∈ ts, t.VisOk) (hperm : ts.Perm ts')
    (hind : ts.Pairwise Independent) (p : VParams) (h : VParses L (vcmdline ts) p) : VParses L (vcmdline ts') p := by
  have hok' : ∀ t ∈ ts', t.VisOk := fun t ht => hok t (hperm.mem_iff.mpr ht)
  rw [vparses_iff L ts hok] at h
  rw [vparses_iff L ts' hok']
  -- swapping two neighbours
  have hswap : ∀ (x y : Tok), x.VisOk → y.VisOk → Independent x y → ∀ p q r, veff L x p = .ok q → veff L y q = .ok r →
      ∃ q', veff L y p = .ok q' ∧ veff L x q' = .ok r := by
    have form : ∀ t : Tok, t.VisOk → (∃ n, t = .file n) ∨ ∃ c v a, t.letter = some c ∧ VLetter c ∧ veff L t = veffL L c v a := by
      intro t ht
      cases t with
      | file n => exact Or.inl ⟨n, rfl⟩
      | switch c =>
        refine Or.inr ⟨c, [], [], rfl, Or.inl ht, ?_⟩
        funext p
        simp only [veff, veffL, (isVSwitch_iff c).mpr ht, if_true]
      | attached c v =>
        refine Or.inr ⟨c, v, 45 :: c :: v, rfl, Or.inr ht.1, ?_⟩
        funext p
        simp only [veff, veffL, (vvalue_not_switch ht.1).1]
        rfl
      | spaced c v =>
        refine Or.inr ⟨c, v, v, rfl, Or.inr ht.1, ?_⟩
        funext p
        simp only [veff, veffL, (vvalue_not_switch ht.1).1]
        rfl
    intro x y hx hy hxy p q r h1 h2
    rcases form x hx with ⟨n, rfl⟩ | ⟨c, v, a, hc, hl, he⟩
    · simp only [veff, Res.ok.injEq] at h1
      subst h1
      exact ⟨r, h2, by simp [veff]⟩
    · rcases form y hy with ⟨n, rfl⟩ | ⟨c', v', a', hc', hl', he'⟩
      · simp only [veff, Res.ok.injEq] at h2
        subst h2
        exact ⟨p, by simp [veff], h1⟩
      · rw [he] at h1 ⊢
        rw [he'] at h2 ⊢
        unfold Independent at hxy
        rw [hc, hc'] at hxy
        exact veffL_comm L hl hl' hxy v a v' a' p q r h1 h2
  have hsym : ∀ x y : Tok, Independent x y → Independent y x := by
    intro x y hxy
    unfold Independent at hxy ⊢
    cases hx : x.letter with
    | none => cases y.letter <;> trivial
    | some a =>
      cases hy : y.letter with
      | none => trivial
      | some b =>
        rw [hx, hy] at hxy
        exact ⟨hxy.1.symm, hxy.2.2, hxy.2.1⟩
  have gen : ∀ (q : VParams), vrun L ts q = .ok p → vrun L ts' q = .ok p := by
    clear h
    induction hperm with
    | nil => intro q h; exact h
    | cons x hp ih =>
      intro q h
      simp only [vrun] at h ⊢
      cases he : veff L x q with
      | ok q' =>
        rw [he] at h
        exact ih (fun t ht => hok t (by simp [ht])) (List.pairwise_cons.mp hind).2
          (fun t ht => hok' t (by simp [ht])) q' h
      | stop e => rw [he] at h; simp at h
      | ub => rw [he] at h; simp at h
    | swap x y l =>
      intro q h
      simp only [vrun] at h ⊢
      cases he : veff L y q with
      | ok q1 =>
        rw [he] at h
        simp only [] at h
        cases he2 : veff L x q1 with
        | ok q2 =>
          rw [he2] at h
          obtain ⟨q', k1, k2⟩ := hswap y x (hok y (by simp)) (hok x (by simp))
            ((List.pairwise_cons.mp hind).1 x (by simp)) q q1 q2 he he2
          rw [k1]
          simp only []
          rw [k2]
          exact h
        | stop e => rw [he2] at h; simp at h
        | ub => rw [he2] at h; simp at h
      | stop e => rw [he] at h; simp at h
      | ub => rw [he] at h; simp at h
    | trans h1 h2 ih1 ih2 =>
      intro q h
      have hm := fun t => (h1.mem_iff (a := t))
      have hok2 := fun t ht => hok t ((hm t).mpr ht)
      exact ih2 hok2 (h1.pairwise hind (fun {x y} => hsym x y)) hok' q (ih1 hok hind hok2 q h)
  exact gen {} h

/-- **C128** needs the exclusion: the four pairs do not commute, for every library (`-a` against `-s` and `-i`,
`-D` against `-T`). -/
theorem C128_pairs_excluded (L : Lib) :
    (∃ p p', VParses L (vcmdline [.file b!"f", .spaced 97 b!"0,1", .spaced 115 b!"5"]) p ∧
      VParses L (vcmdline [.file b!"f", .spaced 115 b!"5", .spaced 97 b!"0,1"]) p' ∧ p.altRange = false ∧ p'.altRange = true) ∧
    (∃ p p', VParses L (vcmdline [.file b!"f", .spaced 97 b!"0,1", .spaced 105 b!"5"]) p ∧
      VParses L (vcmdline [.file b!"f", .spaced 105 b!"5", .spaced 97 b!"0,1"]) p' ∧ p.altRange = false ∧ p'.altRange = true) ∧
    (∃ p p', VParses L (vcmdline [.file b!"f", .switch 84, .attached 68 b!"x"]) p ∧
      VParses L (vcmdline [.file b!"f", .attached 68 b!"x", .switch 84]) p' ∧ p.defDir = false ∧ p'.defDir = true) := by
  refine ⟨⟨_, _, ⟨4, rfl⟩, ⟨4, rfl⟩, rfl, rfl⟩, ⟨_, _, ⟨4, rfl⟩, ⟨4, rfl⟩, rfl, rfl⟩, ⟨_, _, ⟨4, rfl⟩, ⟨4, rfl⟩, rfl, rfl⟩⟩

/-! ### C127 -/

/-- The parameters are in the documented ranges, the integers are `int`s and the texts fit their buffers. -/
def VInRange (p : VParams) : Prop :=
  (-90 ≤ p.lat ∧ p.lat ≤ 90) ∧ p.altMin ≤ p.altMax ∧ (inInt p.noradN ∧ inInt p.dt) ∧
    p.intlDesig.length ≤ 11 ∧ p.tlePath.length ≤ 127 ∧ p.date0.length ≤ 19 ∧ p.date1.length ≤ 19

theorem scanWord_len {w : Nat} {s x r : CString} (h : scanWord w s = some (x, r)) : x.length ≤ w := by
  unfold scanWord at h
  dsimp only at h
  split_ifs at h
  simp only [Option.some.injEq, Prod.mk.injEq] at h
  rw [← h.1]
  calc _ ≤ ((s.dropWhile isSpace).take w).length := (List.takeWhile_sublist _).length_le
    _ ≤ w := by simp

theorem scanDates_len {s a b : CString} (ha : a.length ≤ 19) (hb : b.length ≤ 19) :
    (scanDates s a b).1.length ≤ 19 ∧ (scanDates s a b).2.length ≤ 19 := by
  unfold scanDates
  cases h1 : scanWord 19 s with
  | none => exact ⟨ha, hb⟩
  | some xr =>
    obtain ⟨x, r⟩ := xr
    have hx := scanWord_len h1
    dsimp only
    cases h2 : (scanLit 44 r).bind (scanWord 19) with
    | none => exact ⟨hx, hb⟩
    | some yr =>
      obtain ⟨y, r'⟩ := yr
      obtain ⟨t, -, h3⟩ := Option.bind_eq_some_iff.mp h2
      exact ⟨hx, scanWord_len h3⟩

theorem vletter_of_ok {L : Lib} {c : CChar} {v a : CString} {p p' : VParams} (h : setVValue L c v a p = .ok p') :
    VisValueLetter c := by
  unfold VisValueLetter
  simp only [List.mem_cons, List.not_mem_nil, or_false]
  by_contra hc
  push Not at hc
  obtain ⟨c1, c2, c3, c4, c5, c6, c7, c8, c9⟩ := hc
  unfold setVValue at h
  simp only [if_neg c1, if_neg c2, if_neg c3, if_neg c4, if_neg c5, if_neg c6, if_neg c7, if_neg c8, if_neg c9] at h
  exact absurd h (errorExit_ne_ok _ _ _)

/-- **C127**.  Whatever the command line, if the loop ends regularly then the latitude is in range, the altitude
range is ordered, the numbers are `int`s and the texts fit their buffers. -/
theorem C127_accepted_in_range {L : Lib} {argv : List CString} {p : VParams} (h : VParses L argv p) : VInRange p := by
  have len : ∀ {n : Nat} {s d : CString}, copyTo n s = some d → d.length + 1 ≤ n := by
    intro n s d h
    unfold copyTo at h
    split_ifs at h with hf
    rw [← Option.some.inj h]
    unfold fits at hf
    simpa using hf
  obtain ⟨n, h⟩ := h
  refine vsteps_inv VInRange ?_ ?_ n vinit p ?_ h
  · intro c p _ hp
    unfold setVSwitch
    split_ifs <;> exact hp
  · intro c v a p p' hv hp
    have hc := vletter_of_ok hv
    have he : veffL L c v a p = .ok p' := by
      unfold veffL
      rw [(vvalue_not_switch hc).1]
      exact hv
    obtain ⟨hacc, hw⟩ := veffL_ok L (Or.inr hc) v a p p' he
    obtain ⟨h1, h2, ⟨h3, h4⟩, h5, h6, h7, h8⟩ := hp
    unfold VisValueLetter at hc
    simp only [List.mem_cons, List.not_mem_nil, or_false] at hc
    rw [hw]
    rcases hc with rfl | rfl | rfl | rfl | rfl | rfl | rfl | rfl | rfl
    · refine ⟨h1, ?_, ⟨h3, h4⟩, h5, h6, h7, h8⟩
      change p'.altMin ≤ p'.altMax
      change (_ : ℚ × ℚ) = _ at hacc
      generalize scan2 L v p.altMin p.altMax = x at hacc
      by_cases hx : x.2 < x.1
      · rw [if_pos hx] at hacc
        simp only [Prod.mk.injEq] at hacc
        rw [← hacc.1, ← hacc.2]; exact hx.le
      · rw [if_neg hx] at hacc
        simp only [Prod.mk.injEq] at hacc
        rw [← hacc.1, ← hacc.2]; exact not_lt.mp hx
    · change _ ∧ _ ∧ _ ∧ _ at hacc
      have hl := scanDates_len (s := v) h7 h8
      rw [hacc.2.1] at hl
      exact ⟨h1, h2, ⟨h3, h4⟩, h5, h6, hl.1, hl.2⟩
    · change copyTo _ _ = _ at hacc
      have := len hacc
      exact ⟨h1, h2, ⟨h3, h4⟩, h5, by change p'.tlePath.length ≤ 127; omega, h7, h8⟩
    · change copyTo _ _ = _ at hacc
      have := len hacc
      exact ⟨h1, h2, ⟨h3, h4⟩, by change p'.intlDesig.length ≤ 11; omega, h6, h7, h8⟩
    · change _ ∧ _ ∧ (∃ _, _) ∧ (∃ _, _) at hacc
      obtain ⟨-, -, ⟨w0, k0, e0⟩, ⟨w1, k1, e1⟩⟩ := hacc
      have jl : ∀ x w, optJ L.F x = some w → w.date.length ≤ 19 := by
        intro x w hw
        unfold optJ at hw
        obtain ⟨t, -, ht⟩ := Option.bind_eq_some_iff.mp hw
        split_ifs at ht with hf
        rw [← Option.some.inj ht]
        unfold fits at hf
        change t.length ≤ 19
        have : t.length + 1 ≤ 20 := by simpa using hf
        omega
      exact ⟨h1, h2, ⟨h3, h4⟩, h5, h6, by change p'.date0.length ≤ 19; rw [← e0]; exact jl _ _ k0,
        by change p'.date1.length ≤ 19; rw [← e1]; exact jl _ _ k1⟩
    · change _ ∧ _ ∧ _ ∧ _ at hacc
      have := hacc.2.2.2
      push Not at this
      exact ⟨this, h2, ⟨h3, h4⟩, h5, h6, h7, h8⟩
    · exact ⟨h1, h2, ⟨h3, h4⟩, h5, h6, h7, h8⟩
    · change p'.noradN = noradArg v at hacc
      refine ⟨h1, h2, ⟨?_, h4⟩, h5, h6, h7, h8⟩
      change inInt p'.noradN
      rw [hacc]
      unfold noradArg longToInt inInt
      dsimp only
      omega
    · change int32 _ = _ at hacc
      refine ⟨h1, h2, ⟨h3, ?_⟩, h5, h6, h7, h8⟩
      change inInt p'.dt
      unfold int32 at hacc
      split_ifs at hacc with hi
      rw [← Option.some.inj hacc]
      exact hi
  · unfold VInRange inInt
    simp only [vinit]
    refine ⟨by norm_num, by norm_num, by norm_num, by decide, by decide, by decide, by decide⟩

/-! ### C61 -/

/-- An item that is neither `-d` nor `-j` leaves the time range alone. -/
theorem veff_times {L : Lib} {t : Tok} (ht : t.VisOk) (hd : t.letter ≠ some 100) (hj : t.letter ≠ some 106) {p p' : VParams}
    (h : veff L t p = .ok p') : p'.date0 = p.date0 ∧ p'.date1 = p.date1 ∧ p'.mjd0 = p.mjd0 ∧ p'.mjd1 = p.mjd1 := by
  have key : ∀ c v a, VLetter c → c ≠ 100 → c ≠ 106 → veffL L c v a p = .ok p' →
      p'.date0 = p.date0 ∧ p'.date1 = p.date1 ∧ p'.mjd0 = p.mjd0 ∧ p'.mjd1 = p.mjd1 := by
    intro c v a hc h1 h2 he
    have hw := (veffL_ok L hc v a p p' he).2
    rw [hw]
    rcases hc.cases with rfl | rfl | rfl | rfl | rfl | rfl | rfl | rfl | rfl | rfl | rfl
    · exact ⟨rfl, rfl, rfl, rfl⟩
    · exact absurd rfl h1
    · exact ⟨rfl, rfl, rfl, rfl⟩
    · exact ⟨rfl, rfl, rfl, rfl⟩
    · exact absurd rfl h2
    all_goals exact ⟨rfl, rfl, rfl, rfl⟩
  cases t with
  | file n => simp only [veff, Res.ok.injEq] at h; subst h; exact ⟨rfl, rfl, rfl, rfl⟩
  | switch c =>
    refine key c [] [] (Or.inl ht) (fun e => hd (by rw [e]; rfl)) (fun e => hj (by rw [e]; rfl)) ?_
    unfold veffL
    rw [if_pos ((isVSwitch_iff c).mpr ht)]
    exact h
  | attached c v =>
    refine key c v (45 :: c :: v) (Or.inr ht.1) (fun e => hd (by rw [e]; rfl)) (fun e => hj (by rw [e]; rfl)) ?_
    unfold veffL
    rw [(vvalue_not_switch ht.1).1]
    exact h
  | spaced c v =>
    refine key c v v (Or.inr ht.1) (fun e => hd (by rw [e]; rfl)) (fun e => hj (by rw [e]; rfl)) ?_
    unfold veffL
    rw [(vvalue_not_switch ht.1).1]
    exact h

theorem vrun_times {L : Lib} (ts : List Tok) (hts : ∀ t ∈ ts, t.VisOk ∧ t.letter ≠ some 100 ∧ t.letter ≠ some 106) {p p' : VParams}
    (h : vrun L ts p = .ok p') : p'.date0 = p.date0 ∧ p'.date1 = p.date1 ∧ p'.mjd0 = p.mjd0 ∧ p'.mjd1 = p.mjd1 := by
  induction ts generalizing p with
  | nil => simp only [vrun, Res.ok.injEq] at h; subst h; exact ⟨rfl, rfl, rfl, rfl⟩
  | cons t ts ih =>
    simp only [vrun] at h
    cases he : veff L t p with
    | ok q =>
      rw [he] at h
      obtain ⟨a, b, c, d⟩ := ih (fun x hx => hts x (by simp [hx])) h
      obtain ⟨h1, h2, h3⟩ := hts t (by simp)
      obtain ⟨a', b', c', d'⟩ := veff_times h1 h2 h3 he
      exact ⟨a.trans a', b.trans b', c.trans c', d.trans d'⟩
    | stop e => rw [he] at h; simp at h
    | ub => rw [he] at h; simp at h

theorem vrun_append (L : Lib) (a b : List Tok) (p : VParams) : vrun L (a ++ b) p =
    match vrun L a p with
    | .ok q => vrun L b q
    | .stop e => .stop e
    | .ub => .ub := by
  induction a generalizing p with
  | nil => simp [vrun]
  | cons t a ih =>
    simp only [List.cons_append, vrun]
    cases veff L t p with
    | ok q => simp only [ih]
    | stop e => rfl
    | ub => rfl

/-- After a documented command line the time range is the one the last `-d` or `-j` left. -/
theorem vparses_times {L : Lib} {pre post : List Tok} {t : Tok} (hpre : ∀ x ∈ pre, x.VisOk) (ht : t.VisOk)
    (hpost : ∀ x ∈ post, x.VisOk ∧ x.letter ≠ some 100 ∧ x.letter ≠ some 106) {p : VParams}
    (h : VParses L (vcmdline (pre ++ t :: post)) p) :
    ∃ q q', veff L t q = .ok q' ∧ p.date0 = q'.date0 ∧ p.date1 = q'.date1 ∧ p.mjd0 = q'.mjd0 ∧ p.mjd1 = q'.mjd1 := by
  rw [vparses_iff L _ ?ok] at h
  case ok =>
    intro x hx
    simp only [List.mem_append, List.mem_cons] at hx
    rcases hx with hx | rfl | hx
    · exact hpre x hx
    · exact ht
    · exact (hpost x hx).1
  rw [vrun_append] at h
  cases hq : vrun L pre {} with
  | stop e => rw [hq] at h; simp at h
  | ub => rw [hq] at h; simp at h
  | ok q =>
    rw [hq] at h
    simp only [vrun] at h
    cases he : veff L t q with
    | stop e => rw [he] at h; simp at h
    | ub => rw [he] at h; simp at h
    | ok q' =>
      rw [he] at h
      exact ⟨q, q', he, vrun_times post hpost h⟩

theorem iso_len (x : Date) (h mm s : ℤ) : (isoText x h mm s).length = 19 := by
  simp [isoText, zeroPad_len]

theorem zeroPad_digit (w n : Nat) : ∀ c ∈ zeroPad w n, 48 ≤ c ∧ c ≤ 57 := by
  intro c hc
  unfold zeroPad digitChars at hc
  obtain ⟨d, hd, rfl⟩ := List.mem_map.mp hc
  have := zero_le w n d hd
  omega

theorem iso_chars (x : Date) (h mm s : ℤ) : ∀ c ∈ isoText x h mm s, 45 ≤ c ∧ c ≤ 84 := by
  intro c hc
  unfold isoText at hc
  simp only [List.mem_append, List.mem_cons, List.not_mem_nil, or_false] at hc
  rcases hc with ((((((((((hc | rfl) | hc) | rfl) | hc) | rfl) | hc) | rfl) | hc) | rfl) | hc)
  all_goals first | (have := zeroPad_digit _ _ _ hc; omega) | omega

theorem takeWhile_all {q : Int → Bool} (l : List Int) (h : ∀ c ∈ l, q c = true) : l.takeWhile q = l := by
  induction l with
  | nil => rfl
  | cons a l ih => rw [List.takeWhile_cons, if_pos (h a (by simp)), ih (fun c hc => h c (by simp [hc]))]

theorem scanWord_iso (x : Date) (h mm s : ℤ) (r : CString) :
    scanWord 19 (isoText x h mm s ++ r) = some (isoText x h mm s, r) := by
  have hsp : ∀ c ∈ isoText x h mm s, isSpace c = false := by
    intro c hc
    have := iso_chars x h mm s c hc
    unfold isSpace
    simp only [Bool.or_eq_false_iff, beq_eq_false_iff_ne, Bool.and_eq_false_iff, decide_eq_false_iff_not]
    omega
  have hl := iso_len x h mm s
  have hd : (isoText x h mm s ++ r).dropWhile isSpace = isoText x h mm s ++ r := by
    cases ht : isoText x h mm s with
    | nil => rw [ht] at hl; simp at hl
    | cons c t => simp [hsp c (by rw [ht]; simp)]
  unfold scanWord
  simp only [hd]
  have ht : (isoText x h mm s ++ r).take 19 = isoText x h mm s := by rw [← hl]; simp
  have hw : (isoText x h mm s).takeWhile (fun c => !isSpace c) = isoText x h mm s := by
    apply takeWhile_all
    intro c hc
    simp [hsp c hc]
  rw [ht, hw, if_neg (by intro h0; rw [h0] at hl; simp at hl)]
  simp

theorem scanDates_iso (x y : Date) (h mm s h' mm' s' : ℤ) (a b r : CString) :
    scanDates (isoText x h mm s ++ 44 :: (isoText y h' mm' s' ++ r)) a b = (isoText x h mm s, isoText y h' mm' s') := by
  unfold scanDates
  rw [scanWord_iso]
  simp only [scanLit, if_true, Option.bind_some]
  rw [scanWord_iso]

theorem date2mjdNf_iso (F : Fl64) (G : Fl32) (x : Date) (hv : x.Valid) (hy : 0 ≤ x.y ∧ x.y ≤ 9999) (h mm s : ℤ) (ht : TimeValid h mm s) :
    ∃ n, IsDay x n ∧ |(date2mjdNf F G (isoText x h mm s)).2 - ((n : ℚ) + ((s + 60 * (mm + 60 * h) : ℤ) : ℚ) / 86400)| ≤ 514 / 10 ^ 8 := by
  have hs := scanDate_iso x hv hy h mm s ht []
  rw [List.append_nil] at hs
  refine ⟨Cal.dateNum x.y x.m x.d, isDay_of_count x hv _ (dateNum_floor _ _ _ hy.1).symm, ?_⟩
  unfold date2mjdNf
  rw [hs]
  exact date2mjd_err F G x hv hy h mm s ht.1 ht.2.1 ht.2.2

/-- **C61** (partial, dates).  On a documented command line whose last time option is `-d A,B` with two dates in the form
`YYYY-MM-DDThh:mm:ss` (years 0..9999) both ends of the range are set: the texts, and the MJDs to 0.45 s.
(Missing: dates with fractions of seconds, `C61_fraction_violated`.) -/
theorem C61_dates_partial (L : Lib) (pre post : List Tok) (t : Tok) (v : CString) (x y : Date) (h mm s h' mm' s' : ℤ)
    (hx : x.Valid ∧ 0 ≤ x.y ∧ x.y ≤ 9999) (hy : y.Valid ∧ 0 ≤ y.y ∧ y.y ≤ 9999) (ht : TimeValid h mm s) (ht' : TimeValid h' mm' s')
    (hv : v = isoText x h mm s ++ [44] ++ isoText y h' mm' s') (htok : t = .attached 100 v ∨ t = .spaced 100 v)
    (hpre : ∀ u ∈ pre, u.VisOk) (hpost : ∀ u ∈ post, u.VisOk ∧ u.letter ≠ some 100 ∧ u.letter ≠ some 106)
    (p : VParams) (hp : VParses L (vcmdline (pre ++ t :: post)) p) :
    p.date0 = isoText x h mm s ∧ p.date1 = isoText y h' mm' s' ∧
    (∃ n, IsDay x n ∧ |p.mjd0 - ((n : ℚ) + ((s + 60 * (mm + 60 * h) : ℤ) : ℚ) / 86400)| ≤ 514 / 10 ^ 8) ∧
    ∃ n, IsDay y n ∧ |p.mjd1 - ((n : ℚ) + ((s' + 60 * (mm' + 60 * h') : ℤ) : ℚ) / 86400)| ≤ 514 / 10 ^ 8 := by
  have e : v = isoText x h mm s ++ 44 :: (isoText y h' mm' s' ++ []) := by rw [hv]; simp
  have hmin : (45 : Int) ∈ v := by
    rw [hv]
    unfold isoText
    simp
  have hcs : IsCStr v := by
    intro c hc
    rw [hv] at hc
    simp only [List.mem_append, List.mem_cons, List.not_mem_nil, or_false] at hc
    rcases hc with (hc | hc) | hc
    · have := iso_chars _ _ _ _ c hc; omega
    · omega
    · have := iso_chars _ _ _ _ c hc; omega
  have hne : v ≠ [] := by rw [hv]; simp
  clear hv
  have hok : t.VisOk := by
    rcases htok with rfl | rfl
    · exact ⟨by decide, hne, hcs⟩
    · exact ⟨by decide, hcs⟩
  obtain ⟨q, q', he, a0, a1, a2, a3⟩ := vparses_times hpre hok hpost hp
  have hv : ∃ a, setVValue L 100 v a q = .ok q' := by
    rcases htok with rfl | rfl
    · exact ⟨_, he⟩
    · exact ⟨_, he⟩
  obtain ⟨a, hv⟩ := hv
  rw [vsv_d, if_pos hmin, e, scanDates_iso] at hv
  simp only [Res.ok.injEq] at hv
  subst hv
  dsimp only at a0 a1 a2 a3
  rw [a2, a3]
  exact ⟨a0, a1, date2mjdNf_iso L.F L.G x hx.1 hx.2 h mm s ht, date2mjdNf_iso L.F L.G y hy.1 hy.2 h' mm' s' ht'⟩

/-- **C61** (partial, MJDs).  On a documented command line whose last time option is `-j A,B` with two readable numbers and
without a minus sign, both ends are these numbers. -/
theorem C61_mjds_partial (L : Lib) (pre post : List Tok) (t : Tok) (a b r : CString) (x y : ℚ)
    (ha : L.scanD (a ++ 44 :: b) = some (x, 44 :: b)) (hb : L.scanD b = some (y, r)) (hm : 45 ∉ a ++ 44 :: b)
    (htok : t = .attached 106 (a ++ 44 :: b) ∨ t = .spaced 106 (a ++ 44 :: b)) (hok : t.VisOk)
    (hpre : ∀ u ∈ pre, u.VisOk) (hpost : ∀ u ∈ post, u.VisOk ∧ u.letter ≠ some 100 ∧ u.letter ≠ some 106)
    (p : VParams) (hp : VParses L (vcmdline (pre ++ t :: post)) p) :
    p.mjd0 = x ∧ p.mjd1 = y ∧ mjd2dateText L.F x = some p.date0 ∧ mjd2dateText L.F y = some p.date1 := by
  obtain ⟨q, q', he, a0, a1, a2, a3⟩ := vparses_times hpre hok hpost hp
  have hv : ∃ w, setVValue L 106 (a ++ 44 :: b) w q = .ok q' := by
    rcases htok with rfl | rfl
    · exact ⟨_, he⟩
    · exact ⟨_, he⟩
  obtain ⟨w, hv⟩ := hv
  have hs : scan2 L (a ++ 44 :: b) q.mjd0 q.mjd1 = (x, y) := by
    unfold scan2
    rw [ha]
    simp only [scanLit, if_true, Option.bind_some, hb]
  rw [vsv_j, if_neg hm, hs] at hv
  simp only [] at hv
  have jd : ∀ z w, optJ L.F z = some w → mjd2dateText L.F z = some w.date := by
    intro z w hw
    unfold optJ at hw
    obtain ⟨t, h1, h2⟩ := Option.bind_eq_some_iff.mp hw
    split_ifs at h2
    rw [← Option.some.inj h2]
    exact h1
  cases h0 : optJ L.F x with
  | none => rw [h0] at hv; simp at hv
  | some w0 =>
    cases h1 : optJ L.F y with
    | none => rw [h0, h1] at hv; simp at hv
    | some w1 =>
      rw [h0, h1] at hv
      simp only [Res.ok.injEq] at hv
      subst hv
      rw [a0, a1, a2, a3]
      exact ⟨rfl, rfl, jd _ _ h0, jd _ _ h1⟩

theorem vdone_of_check {x : VNext} {P : VParams → Bool} (h : (match x with | .done p => P p | _ => false) = true) :
    ∃ p, x = .done p ∧ P p = true := by
  cases x with
  | done p => exact ⟨p, rfl, h⟩
  | run u => simp at h
  | stop e => simp at h
  | ub => simp at h

/-- The example of the usage text. -/
example : ∃ p, VParses lib0 (vcmdline [.file b!"stations.txt", .switch 84, .attached 108 b!"44.52324,11.33914,23",
      .attached 100 b!"2024-05-11T20:00:00,2024-05-11T22:00:00", .spaced 115 b!"25544"]) p ∧
    p.date1 = b!"2024-05-11T22:00:00" ∧ p.mjd0 > 60441 + 5 / 6 - 1 / 100000 ∧ p.mjd0 < 60441 + 5 / 6 + 1 / 100000 ∧ p.noradN = 25544 ∧ p.defDir = true := by
  obtain ⟨p, h1, h2⟩ := vdone_of_check
    (x := vsteps lib0 (vcmdline [.file b!"stations.txt", .switch 84, .attached 108 b!"44.52324,11.33914,23",
      .attached 100 b!"2024-05-11T20:00:00,2024-05-11T22:00:00", .spaced 115 b!"25544"]) 6 vinit)
    (P := fun p => decide (p.date1 = b!"2024-05-11T22:00:00" ∧ p.mjd0 > 60441 + 5 / 6 - 1 / 100000 ∧ p.mjd0 < 60441 + 5 / 6 + 1 / 100000 ∧ p.noradN = 25544 ∧ p.defDir = true))
    (by decide +kernel)
  exact ⟨p, ⟨6, h1⟩, of_decide_eq_true h2⟩

/-- **C61** fails for dates with fractions of seconds, which the usage text allows: the second date is not read,
the range ends at MJD 0 (and so is empty). -/
theorem C61_fraction_violated :
    ∃ p, VParses lib0 (vcmdline [.file b!"f", .attached 100 b!"2024-05-11T20:00:00.000,2024-05-11T22:00:00.000"]) p ∧
      p.mjd0 > 60441 ∧ p.mjd1 = 0 ∧ p.date1 = [] := by
  obtain ⟨p, h1, h2⟩ := vdone_of_check
    (x := vsteps lib0 (vcmdline [.file b!"f", .attached 100 b!"2024-05-11T20:00:00.000,2024-05-11T22:00:00.000"]) 3 vinit)
    (P := fun p => decide (p.mjd0 > 60441 ∧ p.mjd1 = 0 ∧ p.date1 = [])) (by decide +kernel)
  exact ⟨p, ⟨3, h1⟩, of_decide_eq_true h2⟩

/-- **C61** fails for negative MJDs (dates before 17 November 1858) and for numbers with a negative exponent: the usage
text is printed instead. -/
theorem C61_negative_violated (L : Lib) (v : CString) (hv : 45 ∈ v) (a : CString) (p : VParams) :
    setVValue L 106 v a p = .stop .usage := by
  rw [vsv_j, if_pos hv]

/-- **C61** fails for `-j` after `-d`: the MJDs win, although the usage text says that they are ignored if dates are
given. -/
theorem C61_ignored_violated :
    ∃ p, VParses lib0 (vcmdline [.file b!"f", .attached 100 b!"2024-05-11T20:00:00,2024-05-11T22:00:00", .attached 106 b!"60436.5,60436.75"]) p ∧
      p.mjd0 = 120873 / 2 ∧ p.date0 = b!"2024-05-06T12:00:00" := by
  obtain ⟨p, h1, h2⟩ := vdone_of_check
    (x := vsteps lib0 (vcmdline [.file b!"f", .attached 100 b!"2024-05-11T20:00:00,2024-05-11T22:00:00", .attached 106 b!"60436.5,60436.75"]) 4 vinit)
    (P := fun p => decide (p.mjd0 = 120873 / 2 ∧ p.date0 = b!"2024-05-06T12:00:00")) (by decide +kernel)
  exact ⟨p, ⟨4, h1⟩, of_decide_eq_true h2⟩

end SatSky.Props
