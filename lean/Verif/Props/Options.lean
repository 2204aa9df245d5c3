import Verif.Lemmas.OptLemmas
import Verif.Model.Printf

/-! C29, C30: termination and memory safety of the option loop, order of the options. -/

namespace SatSky.Props

open SatSky Spec Dates Opts

/-- The command line: program name and items. -/
def cmdline (ts : List Tok) : List CString := b!"sat_skymap" :: ts.flatMap Tok.args

/-- A switch with something attached to it, e.g. `-GH`. -/
def SwitchAttached (a : CString) : Prop := ∃ c x r, a = 45 :: c :: x :: r ∧ SwitchLetter c ∧ x ≠ 0

/-! ### C29 -/

/-- What one step of the loop does to the index. -/
theorem step_index (L : Lib) (argv : List CString) (s s' : St) (h : step L argv s = .run s') :
    s.i < argv.length ∧ (s.i < s'.i ∨ (s'.i = s.i ∧ ∃ a, argv[s.i]? = some a ∧ SwitchAttached a)) := by
  unfold step at h
  split at h
  · rename_i hlt
    refine ⟨hlt, ?_⟩
    unfold body arg at h
    cases ha : argv[s.i]? with
    | none => rw [ha] at h; simp at h
    | some a =>
      rw [ha] at h
      simp only [] at h
      by_cases h0 : rd a 0 = some 45
      · rw [if_pos h0] at h
        cases h1 : rd a 1 with
        | none => rw [h1] at h; simp at h
        | some opt =>
          cases h2 : rd a 2 with
          | none => rw [h1, h2] at h; simp at h
          | some c2 =>
            rw [h1, h2] at h
            simp only [] at h
            by_cases hh : opt = 104
            · rw [if_pos hh] at h; simp at h
            · rw [if_neg hh] at h
              by_cases hs : isSwitch opt = true
              · rw [if_pos hs] at h
                simp only [Next.run.injEq] at h
                subst h
                by_cases hc : c2 = 0
                · left; simp [hc]
                · right
                  refine ⟨by simp [hc], a, rfl, ?_⟩
                  match a, h0, h1, h2 with
                  | [], h0, _, _ => simp [rd] at h0
                  | [_], _, _, h2 => simp [rd] at h2
                  | [_, _], _, _, h2 => simp [rd] at h2; exact absurd h2.symm hc
                  | x :: y :: z :: r, h0, h1, h2 =>
                    simp only [rd, Option.some.injEq] at h0 h1 h2
                    exact ⟨y, z, r, by rw [h0], by rw [h1]; exact (isSwitch_iff _).mp hs, by rw [h2]; exact hc⟩
              · rw [if_neg hs] at h
                left
                split at h
                · rename_i hb
                  split at hb
                  · simp at hb
                  · split at hb
                    · simp only [Res.ok.injEq] at hb
                      simp only [Next.run.injEq] at h
                      subst h; subst hb
                      simp only []
                      split <;> omega
                    · simp at hb
                    · simp at hb
                · simp at h
                · simp at h
      · rw [if_neg h0] at h
        simp only [Next.run.injEq] at h
        subst h
        left; simp
  · simp at h

/-- **C29** (partial).  If no argument is a switch with something attached, the option loop ends after
fewer than `argc` executions of its body, whatever the arguments.  (Missing: with such a switch it does
not end, see `C29_hangs_violated`.) -/
theorem C29_terminates_partial (L : Lib) (argv : List CString) (hne : argv ≠ [])
    (h : ∀ a ∈ argv, ¬ SwitchAttached a) (s : St) : steps L argv argv.length init ≠ .run s := by
  have key : ∀ (n : Nat) (u s : St), steps L argv (n + 1) u = .run s → u.i + n < argv.length := by
    intro n
    induction n with
    | zero =>
      intro u s hs
      simp only [steps] at hs
      cases hst : step L argv u with
      | run v => simpa using (step_index L argv u v hst).1
      | done p => rw [hst] at hs; simp at hs
      | stop e => rw [hst] at hs; simp at hs
      | ub => rw [hst] at hs; simp at hs
    | succ n ih =>
      intro u s hs
      rw [steps] at hs
      cases hst : step L argv u with
      | run v =>
        rw [hst] at hs
        have h1 := ih v s hs
        rcases (step_index L argv u v hst).2 with hlt | ⟨-, a, ha, hbad⟩
        · omega
        · exact absurd hbad (h a (List.mem_of_getElem? ha))
      | done p => rw [hst] at hs; simp at hs
      | stop e => rw [hst] at hs; simp at hs
      | ub => rw [hst] at hs; simp at hs
  intro hs
  cases hl : argv.length with
  | zero => exact hne (List.length_eq_zero_iff.mp hl)
  | succ n =>
    rw [hl] at hs
    have := key n init s hs
    simp only [init] at this
    omega

/-- **C29** fails: once a switch with something attached is reached, the loop never ends: `i--` is done
even when no separate argument was taken (417-440). -/
theorem C29_hangs_violated (L : Lib) (argv : List CString) (s : St) (a : CString)
    (ha : argv[s.i]? = some a) (hbad : SwitchAttached a) :
    ∀ n, ∃ s', steps L argv n s = .run s' ∧ s'.i = s.i := by
  obtain ⟨c, x, r, rfl, hc, hx⟩ := hbad
  have hlt : s.i < argv.length := by
    by_contra hc
    rw [List.getElem?_eq_none (by omega)] at ha
    simp at ha
  have hsw := (isSwitch_iff c).mpr hc
  have hne := switch_ne hc
  intro n
  induction n generalizing s with
  | zero => exact ⟨s, rfl, rfl⟩
  | succ n ih =>
    have hst : step L argv s = .run ⟨s.i, setSwitch c s.p⟩ := by
      unfold step body arg
      rw [if_pos hlt, ha]
      simp [rd, hne, hsw, hx]
    simp only [steps, hst]
    exact ih ⟨s.i, setSwitch c s.p⟩ ha hlt

/-- Concretely: `sat_skymap default.tle -GH` runs forever, for every library. -/
theorem C29_hangs_GH_violated (L : Lib) (n : Nat) :
    ∃ s, steps L [b!"sat_skymap", b!"default.tle", b!"-GH"] n init = .run s := by
  cases n with
  | zero => exact ⟨_, rfl⟩
  | succ n =>
    have h1 : step L [b!"sat_skymap", b!"default.tle", b!"-GH"] init = .run ⟨2, {}⟩ := rfl
    simp only [steps, h1]
    obtain ⟨s, hs, -⟩ := C29_hangs_violated L [b!"sat_skymap", b!"default.tle", b!"-GH"] ⟨2, {}⟩ b!"-GH" rfl
      ⟨71, 72, [], rfl, by decide, by decide⟩ n
    exact ⟨s, hs⟩

/-- **C29** fails: an option without its value at the end reads the null pointer `argv[argc]`, and an
argument "-" is read beyond its end. -/
theorem C29_reads_past_end_violated (L : Lib) :
    steps L [b!"sat_skymap", b!"default.tle", b!"-l"] 2 init = .ub ∧
    steps L [b!"sat_skymap", b!"-"] 1 init = .ub := ⟨rfl, rfl⟩

/-- Sizes of the values an option accepts without overflowing its buffer or an `int`; the numbers in
`-l` and `-p` are not astronomically large (they may be printed into `errmsg[128]`). -/
def ValueSane (L : Lib) (c : CChar) (v : CString) : Prop :=
  (c = 100 → v.length ≤ 23) ∧ (c = 68 → v.length ≤ 127) ∧ (c = 105 → v.length ≤ 11) ∧ (c = 83 → v.length ≤ 23) ∧
  (c = 106 → optJ L.F (L.atof v) ≠ none) ∧
  (c = 110 → ∀ x r, scanNum (v.length + 1) v = some (x, r) → inInt x) ∧
  (c = 116 → inInt (truncQ (L.atof v))) ∧
  (c = 108 ∨ c = 112 → ∀ t x r, t <:+ v → L.scanD t = some (x, r) → |x| ≤ 10 ^ 60)

def TokSane (L : Lib) : Tok → Prop
  | .attached c v => ValueSane L c v
  | .spaced c v => ValueSane L c v
  | _ => True

/-- The library behaves like C in this: `%lf` leaves a rest of its input, and the text of a number of
this size has at most 70 characters (sign, 61 digits, point, six decimals). -/
structure SaneLib (L : Lib) : Prop where
  rest : ∀ s x r, L.scanD s = some (x, r) → r <:+ s
  text : ∀ x : ℚ, |x| ≤ 10 ^ 60 → (L.showF x).length ≤ 70

/-- Numbers that may have to be printed. -/
structure SaneP (p : Params) : Prop where
  lat : |p.lat| ≤ 10 ^ 60
  ra : |p.ra| ≤ 10 ^ 60
  dec : |p.dec| ≤ 10 ^ 60

theorem scanLit_suffix {c : CChar} {s r : CString} (h : scanLit c s = some r) : r <:+ s := by
  cases s with
  | nil => simp [scanLit] at h
  | cons x t =>
    simp only [scanLit] at h
    split at h
    · simp only [Option.some.injEq] at h; subst h; exact List.suffix_cons _ _
    · simp at h

theorem scan2_sane {L : Lib} (hL : SaneLib L) {v : CString} (hv : ∀ t x r, t <:+ v → L.scanD t = some (x, r) → |x| ≤ 10 ^ 60)
    {a b : ℚ} (ha : |a| ≤ 10 ^ 60) (hb : |b| ≤ 10 ^ 60) :
    |(scan2 L v a b).1| ≤ 10 ^ 60 ∧ |(scan2 L v a b).2| ≤ 10 ^ 60 := by
  unfold scan2
  cases h1 : L.scanD v with
  | none => exact ⟨ha, hb⟩
  | some xr =>
    obtain ⟨x, r⟩ := xr
    have hx := hv v x r (List.suffix_refl v) h1
    have hr := hL.rest v x r h1
    simp only []
    cases h2 : (scanLit 44 r).bind L.scanD with
    | none => exact ⟨hx, hb⟩
    | some yr =>
      obtain ⟨y, r'⟩ := yr
      obtain ⟨t, ht, h3⟩ := Option.bind_eq_some_iff.mp h2
      exact ⟨hx, hv t y r' ((scanLit_suffix ht).trans hr) h3⟩

theorem scan3_sane {L : Lib} {v : CString} (hv : ∀ t x r, t <:+ v → L.scanD t = some (x, r) → |x| ≤ 10 ^ 60)
    {a b c : ℚ} (ha : |a| ≤ 10 ^ 60) : |(scan3 L v a b c).1| ≤ 10 ^ 60 := by
  unfold scan3
  cases h1 : L.scanD v with
  | none => exact ha
  | some xr =>
    obtain ⟨x, r⟩ := xr
    have hx := hv v x r (List.suffix_refl v) h1
    simp only []
    cases h2 : (scanLit 44 r).bind L.scanD with
    | none => exact hx
    | some yr =>
      simp only []
      cases h4 : (scanLit 44 yr.2).bind L.scanD with
      | none => exact hx
      | some z => exact hx

theorem errorExit_not_ub {α : Type} {st : ℤ} {m : CString} (h : m.length ≤ 127) : (errorExit st m : Res α) ≠ .ub := by
  unfold errorExit
  rw [if_pos (by unfold fits; omega)]
  simp

theorem copyTo_some {n : Nat} {v : CString} (h : v.length + 1 ≤ n) : copyTo n v = some v := by
  unfold copyTo; rw [if_pos (by unfold fits; exact h)]

theorem setValue_sane {L : Lib} (hL : SaneLib L) {c : CChar} (hc : ValueLetter c) {v : CString} (hv : ValueSane L c v)
    (a : CString) {p : Params} (hp : SaneP p) :
    setValue L c v a p ≠ .ub ∧ ∀ p', setValue L c v a p = .ok p' → SaneP p' := by
  obtain ⟨hd, hD, hi, hS, hj, hn, ht, hnum⟩ := hv
  unfold ValueLetter at hc
  simp only [List.mem_cons, List.not_mem_nil, or_false] at hc
  rcases hc with rfl | rfl | rfl | rfl | rfl | rfl | rfl | rfl | rfl | rfl | rfl | rfl
  · rw [sv_a]
    refine ⟨by simp, ?_⟩
    intro p' h; simp only [Res.ok.injEq] at h; subst h; exact ⟨hp.1, hp.2, hp.3⟩
  · have := hd rfl
    rw [sv_d, copyTo_some (by omega)]
    refine ⟨by simp, ?_⟩
    intro p' h; simp only [Res.ok.injEq] at h; subst h; exact ⟨hp.1, hp.2, hp.3⟩
  · have := hD rfl
    rw [sv_D, copyTo_some (by omega)]
    refine ⟨by simp, ?_⟩
    intro p' h; simp only [Res.ok.injEq] at h; subst h; exact ⟨hp.1, hp.2, hp.3⟩
  · have := hi rfl
    rw [sv_i, copyTo_some (by omega)]
    refine ⟨by simp, ?_⟩
    intro p' h; simp only [Res.ok.injEq] at h; subst h; exact ⟨hp.1, hp.2, hp.3⟩
  · rw [sv_j]
    cases hw : optJ L.F (L.atof v) with
    | none => exact absurd hw (hj rfl)
    | some w =>
      refine ⟨by simp, ?_⟩
      intro p' h; simp only [Res.ok.injEq] at h; subst h; exact ⟨hp.1, hp.2, hp.3⟩
  · rw [sv_l]
    have h3 := scan3_sane (L := L) (v := v) (hnum (Or.inl rfl)) (b := p.lon) (c := p.ht) hp.lat
    generalize scan3 L v p.lat p.lon p.ht = x at h3 ⊢
    simp only []
    split
    · refine ⟨errorExit_not_ub ?_, fun p' h => absurd h (errorExit_ne_ok _ _ _)⟩
      have := hL.text _ h3
      simp only [msgLat, List.length_append, List.length_cons, List.length_nil]
      omega
    · refine ⟨by simp, ?_⟩
      intro p' h; simp only [Res.ok.injEq] at h; subst h; exact ⟨h3, hp.2, hp.3⟩
  · rw [sv_n]
    have hne : scanInt v p.maxSats ≠ none := by
      unfold scanInt
      cases hs : scanNum (v.length + 1) v with
      | none => simp
      | some xr =>
        obtain ⟨x, r⟩ := xr
        have := hn rfl x r hs
        simp only [int32, if_pos this]
        simp
    cases hw : scanInt v p.maxSats with
    | none => exact absurd hw hne
    | some w =>
      refine ⟨by simp, ?_⟩
      intro p' h; simp only [Res.ok.injEq] at h; subst h; exact ⟨hp.1, hp.2, hp.3⟩
  · rw [sv_p]
    have h3 := scan2_sane hL (hnum (Or.inr rfl)) hp.ra hp.dec
    generalize scan2 L v p.ra p.dec = x at h3 ⊢
    simp only []
    have t1 := hL.text _ h3.1
    have t2 := hL.text _ h3.2
    split
    · refine ⟨errorExit_not_ub ?_, fun p' h => absurd h (errorExit_ne_ok _ _ _)⟩
      simp only [msgRa, List.length_append, List.length_cons, List.length_nil]
      omega
    · split
      · refine ⟨errorExit_not_ub ?_, fun p' h => absurd h (errorExit_ne_ok _ _ _)⟩
        simp only [msgDec, List.length_append, List.length_cons, List.length_nil]
        omega
      · refine ⟨by simp, ?_⟩
        intro p' h; simp only [Res.ok.injEq] at h; subst h; exact ⟨hp.1, h3.1, h3.2⟩
  · rw [sv_r]
    refine ⟨by simp, ?_⟩
    intro p' h; simp only [Res.ok.injEq] at h; subst h; exact ⟨hp.1, hp.2, hp.3⟩
  · rw [sv_s]
    refine ⟨by simp, ?_⟩
    intro p' h; simp only [Res.ok.injEq] at h; subst h; exact ⟨hp.1, hp.2, hp.3⟩
  · have := hS rfl
    rw [sv_S, copyTo_some (by omega)]
    refine ⟨by simp, ?_⟩
    intro p' h; simp only [Res.ok.injEq] at h; subst h; exact ⟨hp.1, hp.2, hp.3⟩
  · have := ht rfl
    rw [sv_t]
    simp only [int32, if_pos this]
    refine ⟨by simp, ?_⟩
    intro p' h; simp only [Res.ok.injEq] at h; subst h; exact ⟨hp.1, hp.2, hp.3⟩

theorem setSwitch_sane (c : CChar) {p : Params} (hp : SaneP p) : SaneP (setSwitch c p) := by
  unfold setSwitch
  split
  · exact ⟨hp.1, hp.2, hp.3⟩
  split
  · exact ⟨hp.1, hp.2, hp.3⟩
  split
  · exact ⟨hp.1, hp.2, hp.3⟩
  split
  · exact ⟨hp.1, hp.2, hp.3⟩
  split
  · exact ⟨hp.1, hp.2, hp.3⟩
  · exact ⟨hp.1, hp.2, hp.3⟩

theorem run_sane {L : Lib} (hL : SaneLib L) (ts : List Tok) (hts : ∀ t ∈ ts, t.Ok ∧ TokSane L t) (p : Params)
    (hp : SaneP p) : run L ts p ≠ .ub := by
  induction ts generalizing p with
  | nil => simp [run]
  | cons t ts ih =>
    have h1 : eff L t p ≠ .ub ∧ ∀ p', eff L t p = .ok p' → SaneP p' := by
      obtain ⟨ho, hs⟩ := hts t (by simp)
      cases t with
      | file n => exact ⟨by simp [eff], fun p' h => by simp only [eff, Res.ok.injEq] at h; rw [← h]; exact hp⟩
      | switch c => exact ⟨by simp [eff], fun p' h => by simp only [eff, Res.ok.injEq] at h; rw [← h]; exact setSwitch_sane c hp⟩
      | attached c v => exact setValue_sane hL ho.1 hs _ hp
      | spaced c v => exact setValue_sane hL ho.1 hs _ hp
    simp only [run]
    cases he : eff L t p with
    | ok p' => exact ih (fun x hx => hts x (by simp [hx])) p' (h1.2 p' he)
    | stop e => simp
    | ub => exact absurd he h1.1

/-- **C29** (partial, memory safety).  On command lines written as documented, with values that fit, the
option loop ends regularly (it never reads outside the arguments or writes outside a buffer). -/
theorem C29_documented_safe_partial (L : Lib) (hL : SaneLib L) (ts : List Tok) (hts : ∀ t ∈ ts, t.Ok ∧ TokSane L t) :
    (∃ p, steps L (cmdline ts) (ts.length + 1) init = .done p) ∨
    ∃ e, steps L (cmdline ts) (ts.length + 1) init = .stop e := by
  have h := steps_toks L (cmdline ts) ts (fun t ht => (hts t ht).1) 1 {} (by simp [cmdline]) (by simp [cmdline])
    (ts.length + 1) (by omega)
  have hr := run_sane hL ts hts {} ⟨by norm_num, by norm_num, by norm_num⟩
  change steps L (cmdline ts) (ts.length + 1) init = _ at h
  rw [h]
  cases hrun : run L ts {} with
  | ok p => exact Or.inl ⟨p, rfl⟩
  | stop e => exact Or.inr ⟨e, rfl⟩
  | ub => exact absurd hrun hr

theorem done_of_check {x : Next} {P : Params → Bool} (h : (match x with | .done p => P p | _ => false) = true) :
    ∃ p, x = .done p ∧ P p = true := by
  cases x with
  | done p => exact ⟨p, rfl, h⟩
  | run u => simp at h
  | stop e => simp at h
  | ub => simp at h

/-- **C29** fails in the value buffers: a 24-character date, e.g. with fractions of seconds as the usage
text allows (`yyyy-mm-ddThh:mm:ss[.sss]` has 23, one more digit overflows `date[24]`). -/
theorem C29_value_overflow_violated (L : Lib) :
    steps L [b!"sat_skymap", b!"default.tle", b!"-d2020-01-13T12:00:00.1234"] 2 init = .ub := by
  simp only [steps]
  rfl

example : ∃ p, steps lib0 [b!"sat_skymap", b!"default.tle", b!"-l-29.25627,-70.73805,2400", b!"-p", b!"90.5,-30.3", b!"-H", b!"-r20"] 6 init
    = .done p ∧ p.lat = -2925627 / 100000 ∧ p.ra = 181 / 2 ∧ p.radius = 20 ∧ p.haversine = true := by
  obtain ⟨p, h1, h2⟩ := done_of_check (x := steps lib0 [b!"sat_skymap", b!"default.tle", b!"-l-29.25627,-70.73805,2400", b!"-p", b!"90.5,-30.3", b!"-H", b!"-r20"] 6 init)
    (P := fun p => decide (p.lat = -2925627 / 100000 ∧ p.ra = 181 / 2 ∧ p.radius = 20 ∧ p.haversine = true)) (by decide +kernel)
  exact ⟨p, h1, of_decide_eq_true h2⟩

/-! ### C30 -/

/-- **C30** (partial).  If the items of a command line are pairwise independent (different letters; not
one of the six conflicting pairs d/j, a/i, a/s, p/i, p/s, D/T), any order of them sets the same
parameters. -/
theorem C30_any_order_partial (L : Lib) (ts ts' : List Tok) (hok : ∀ t ∈ ts, t.Ok) (hperm : ts.Perm ts')
    (hind : ts.Pairwise Independent) (p : Params) (h : Parses L (cmdline ts) p) : Parses L (cmdline ts') p := by
  have hparse : ∀ us : List Tok, (∀ t ∈ us, t.Ok) → ∀ q, Parses L (cmdline us) q ↔ run L us {} = .ok q := by
    intro us hus q
    have hs := fun n hn => steps_toks L (cmdline us) us hus 1 {} (by simp [cmdline]) (by simp [cmdline]) n hn
    constructor
    · rintro ⟨n, hn⟩
      have hmono : ∀ (m k : Nat) (u : St) (r : Params), steps L (cmdline us) m u = .done r →
          steps L (cmdline us) (m + k) u = .done r := by
        intro m
        induction m with
        | zero => intro k u r h; simp [steps] at h
        | succ m ih =>
          intro k u r h
          rw [show m + 1 + k = (m + k) + 1 by omega]
          simp only [steps] at h ⊢
          cases hst : step L (cmdline us) u with
          | run v => rw [hst] at h; exact ih k v r h
          | done p => rw [hst] at h; exact h
          | stop e => rw [hst] at h; simp at h
          | ub => rw [hst] at h; simp at h
      have h1 := hmono n (us.length + 1) init q hn
      have h2 := hs (n + (us.length + 1)) (by omega)
      change steps L (cmdline us) _ init = _ at h2
      rw [h1] at h2
      cases hr : run L us {} with
      | ok p => rw [hr] at h2; simp only [Next.done.injEq] at h2; rw [h2]
      | stop e => rw [hr] at h2; simp at h2
      | ub => rw [hr] at h2; simp at h2
    · intro hr
      refine ⟨us.length + 1, ?_⟩
      have h2 := hs (us.length + 1) (by omega)
      rw [hr] at h2
      exact h2
  have hok' : ∀ t ∈ ts', t.Ok := fun t ht => hok t (hperm.mem_iff.mpr ht)
  rw [hparse ts hok] at h
  rw [hparse ts' hok']
  -- swapping two neighbours
  have hswap : ∀ (x y : Tok), x.Ok → y.Ok → Independent x y → ∀ p q r, eff L x p = .ok q → eff L y q = .ok r →
      ∃ q', eff L y p = .ok q' ∧ eff L x q' = .ok r := by
    have form : ∀ t : Tok, t.Ok → (∃ n, t = .file n) ∨ ∃ c v a, t.letter = some c ∧ Letter c ∧ eff L t = effL L c v a := by
      intro t ht
      cases t with
      | file n => exact Or.inl ⟨n, rfl⟩
      | switch c =>
        refine Or.inr ⟨c, [], [], rfl, Or.inl ht, ?_⟩
        funext p
        simp only [eff, effL, (isSwitch_iff c).mpr ht, if_true]
      | attached c v =>
        refine Or.inr ⟨c, v, 45 :: c :: v, rfl, Or.inr ht.1, ?_⟩
        funext p
        simp only [eff, effL, (value_not_switch ht.1).1]
        rfl
      | spaced c v =>
        refine Or.inr ⟨c, v, v, rfl, Or.inr ht.1, ?_⟩
        funext p
        simp only [eff, effL, (value_not_switch ht.1).1]
        rfl
    intro x y hx hy hxy p q r h1 h2
    rcases form x hx with ⟨n, rfl⟩ | ⟨c, v, a, hc, hl, he⟩
    · simp only [eff, Res.ok.injEq] at h1
      subst h1
      exact ⟨r, h2, by simp [eff]⟩
    · rcases form y hy with ⟨n, rfl⟩ | ⟨c', v', a', hc', hl', he'⟩
      · simp only [eff, Res.ok.injEq] at h2
        subst h2
        exact ⟨p, by simp [eff], h1⟩
      · rw [he] at h1 ⊢
        rw [he'] at h2 ⊢
        unfold Independent at hxy
        rw [hc, hc'] at hxy
        exact effL_comm L hl hl' hxy v a v' a' p q r h1 h2
  have hsym : ∀ x y : Tok, Independent x y → Independent y x := by
    intro x y hxy
    unfold Independent at hxy ⊢
    cases hx : x.letter with
    | none => cases y.letter <;> trivial
    | some a =>
      cases hy : y.letter with
      | none => trivial
      | some b =>
        rw [hx, hy] at hxy
        exact ⟨hxy.1.symm, hxy.2.2, hxy.2.1⟩
  have gen : ∀ (q : Params), run L ts q = .ok p → run L ts' q = .ok p := by
    clear h hparse
    induction hperm with
    | nil => intro q h; exact h
    | cons x hp ih =>
      intro q h
      simp only [run] at h ⊢
      cases he : eff L x q with
      | ok q' =>
        rw [he] at h
        exact ih (fun t ht => hok t (by simp [ht])) (List.pairwise_cons.mp hind).2
          (fun t ht => hok' t (by simp [ht])) q' h
      | stop e => rw [he] at h; simp at h
      | ub => rw [he] at h; simp at h
    | swap x y l =>
      intro q h
      simp only [run] at h ⊢
      cases he : eff L y q with
      | ok q1 =>
        rw [he] at h
        simp only [] at h
        cases he2 : eff L x q1 with
        | ok q2 =>
          rw [he2] at h
          obtain ⟨q', k1, k2⟩ := hswap y x (hok y (by simp)) (hok x (by simp))
            ((List.pairwise_cons.mp hind).1 x (by simp)) q q1 q2 he he2
          rw [k1]
          simp only []
          rw [k2]
          exact h
        | stop e => rw [he2] at h; simp at h
        | ub => rw [he2] at h; simp at h
      | stop e => rw [he] at h; simp at h
      | ub => rw [he] at h; simp at h
    | trans h1 h2 ih1 ih2 =>
      intro q h
      have hm := fun t => (h1.mem_iff (a := t))
      have hok2 := fun t ht => hok t ((hm t).mpr ht)
      exact ih2 hok2 (h1.pairwise hind (fun {x y} => hsym x y)) hok' q (ih1 hok hind hok2 q h)
  exact gen {} h

/-- **C30** fails for the conflicting pairs, for every library: an altitude range given after `-s` stays
in force, before it is dropped; likewise `-T` and `-D`. -/
theorem C30_order_violated (L : Lib) :
    (∃ p p', Parses L (cmdline [.file b!"f", .spaced 97 b!"0,1", .spaced 115 b!"5"]) p ∧
      Parses L (cmdline [.file b!"f", .spaced 115 b!"5", .spaced 97 b!"0,1"]) p' ∧ p.altRange = false ∧ p'.altRange = true) ∧
    (∃ p p', Parses L (cmdline [.file b!"f", .switch 84, .attached 68 b!"x"]) p ∧
      Parses L (cmdline [.file b!"f", .attached 68 b!"x", .switch 84]) p' ∧ p.defDir = false ∧ p'.defDir = true) := by
  refine ⟨⟨_, _, ⟨4, rfl⟩, ⟨4, rfl⟩, rfl, rfl⟩, ⟨_, _, ⟨4, rfl⟩, ⟨4, rfl⟩, rfl, rfl⟩⟩

/-- **C30** fails for `-d` and `-j`: the last one wins, although the usage text says that `-j` is ignored
if a date is given. -/
theorem C30_date_mjd_violated :
    ∃ p p', Parses lib0 (cmdline [.file b!"f", .attached 100 b!"2024-02-29T12:00:00", .attached 106 b!"58861.5"]) p ∧
      Parses lib0 (cmdline [.file b!"f", .attached 106 b!"58861.5", .attached 100 b!"2024-02-29T12:00:00"]) p' ∧
      p.mjd = 117723 / 2 ∧ p.date = b!"2020-01-13T12:00:00" ∧ p'.mjd = 120739 / 2 ∧ p'.date = b!"2024-02-29T12:00:00" := by
  obtain ⟨p, h1, h2⟩ := done_of_check
    (x := steps lib0 (cmdline [.file b!"f", .attached 100 b!"2024-02-29T12:00:00", .attached 106 b!"58861.5"]) 4 init)
    (P := fun p => decide (p.mjd = 117723 / 2 ∧ p.date = b!"2020-01-13T12:00:00")) (by decide +kernel)
  obtain ⟨p', h3, h4⟩ := done_of_check
    (x := steps lib0 (cmdline [.file b!"f", .attached 106 b!"58861.5", .attached 100 b!"2024-02-29T12:00:00"]) 4 init)
    (P := fun p => decide (p.mjd = 120739 / 2 ∧ p.date = b!"2024-02-29T12:00:00")) (by decide +kernel)
  have h2 := of_decide_eq_true h2
  have h4 := of_decide_eq_true h4
  exact ⟨p, p', ⟨4, h1⟩, ⟨4, h3⟩, h2.1, h2.2, h4.1, h4.2⟩

end SatSky.Props
