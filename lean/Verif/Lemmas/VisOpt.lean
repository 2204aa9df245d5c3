import Verif.Model.VisOptions
import Verif.Lemmas.OptLemmas

/-! The option loop of `sat_visibility` on documented command lines is a fold over the items, and
independent items commute (as in `OptLemmas.lean` for `sat_skymap`). -/

namespace SatSky.Vis

open SatSky Dates Spec Opts

/-- Effect of one item on the parameters. -/
def veff (L : Lib) : Tok → VParams → Res VParams
  | .file _, p => .ok p
  | .switch c, p => .ok (setVSwitch c p)
  | .attached c v, p => setVValue L c v (45 :: c :: v) p
  | .spaced c v, p => setVValue L c v v p

/-- Effect of a sequence of items. -/
def vrun (L : Lib) : List Tok → VParams → Res VParams
  | [], p => .ok p
  | t :: ts, p =>
    match veff L t p with
    | .ok p' => vrun L ts p'
    | .stop e => .stop e
    | .ub => .ub

theorem isVSwitch_iff (c : CChar) : isVSwitch c = true ↔ VisSwitchLetter c := by
  unfold isVSwitch VisSwitchLetter; simp [or_assoc]

theorem vvalue_not_switch {c : CChar} (h : VisValueLetter c) : isVSwitch c = false ∧ c ≠ 104 ∧ c ≠ 0 := by
  unfold VisValueLetter at h
  simp only [List.mem_cons, List.not_mem_nil, or_false] at h
  rcases h with rfl | rfl | rfl | rfl | rfl | rfl | rfl | rfl | rfl <;> decide

theorem vswitch_ne {c : CChar} (h : VisSwitchLetter c) : c ≠ 104 := by
  unfold VisSwitchLetter at h
  simp only [List.mem_cons, List.not_mem_nil, or_false] at h
  rcases h with rfl | rfl <;> decide

/-- One documented item is one execution of the loop vbody. -/
theorem vbody_tok (L : Lib) (argv : List CString) (i : Nat) (p : VParams) (t : Tok) (ht : t.VisOk)
    (rest : List CString) (hd : argv.drop i = t.args ++ rest) :
    vbody L argv ⟨i, p⟩ = match veff L t p with
      | .ok p' => .ok ⟨i + t.args.length, p'⟩
      | .stop e => .stop e
      | .ub => .ub := by
  have h0 : arg argv i = (t.args ++ rest)[0]? := by
    unfold arg
    rw [← hd, List.getElem?_drop, Nat.add_zero]
  have h1 : arg argv (i + 1) = (t.args ++ rest)[1]? := by
    unfold arg
    rw [← hd, List.getElem?_drop]
  cases t with
  | file n =>
    simp only [Tok.args, List.cons_append, List.nil_append, List.getElem?_cons_zero] at h0
    unfold vbody
    rw [h0]
    have hn : rd n 0 ≠ some 45 := by
      cases n with
      | nil => simp [rd]
      | cons c n => simpa [rd, Tok.VisOk] using ht
    simp only [hn, if_false, veff, Tok.args, List.length_singleton]
  | switch c =>
    simp only [Tok.args, List.cons_append, List.nil_append, List.getElem?_cons_zero] at h0
    unfold vbody
    rw [h0]
    have hs : isVSwitch c = true := (isVSwitch_iff c).mpr ht
    simp [rd, vswitch_ne ht, hs, veff, Tok.args]
  | attached c v =>
    obtain ⟨hc, hv, hn⟩ := ht
    obtain ⟨k1, k2, k3⟩ := vvalue_not_switch hc
    simp only [Tok.args, List.cons_append, List.nil_append, List.getElem?_cons_zero] at h0
    unfold vbody
    cases v with
    | nil => exact absurd rfl hv
    | cons x v =>
      have hx : x ≠ 0 := hn x (by simp)
      rw [h0]
      simp only [rd, if_true, if_neg hx, if_neg k2, k1, h0, Bool.false_eq_true, if_false, veff, Tok.args, List.length_singleton]
      simp only [List.drop_succ_cons, List.drop_zero]
      cases setVValue L c (x :: v) (45 :: c :: x :: v) p <;> rfl
  | spaced c v =>
    obtain ⟨hc, hn⟩ := ht
    obtain ⟨k1, k2, k3⟩ := vvalue_not_switch hc
    simp only [Tok.args, List.cons_append, List.nil_append, List.getElem?_cons_zero, List.getElem?_cons_succ] at h0 h1
    unfold vbody
    rw [h0]
    simp only [rd, if_true, if_neg k2, k1, h1, Bool.false_eq_true, if_false, veff, Tok.args, List.drop_zero]
    cases setVValue L c v v p <;> simp

/-- The loop on documented arguments: it ends after as many vsteps as there are items (plus the final
test), with the result of the fold. -/
theorem vsteps_toks (L : Lib) (argv : List CString) (ts : List Tok) (hts : ∀ t ∈ ts, t.VisOk) (i : Nat) (p : VParams)
    (hi : i ≤ argv.length) (hd : argv.drop i = ts.flatMap Tok.args) (n : Nat) (hn : ts.length < n) :
    vsteps L argv n ⟨i, p⟩ = match vrun L ts p with
      | .ok p' => .done p'
      | .stop e => .stop e
      | .ub => .ub := by
  induction ts generalizing i p n with
  | nil =>
    obtain ⟨m, rfl⟩ : ∃ m, n = m + 1 := ⟨n - 1, by simp at hn; omega⟩
    have : argv.length ≤ i := by simpa using hd
    simp only [vsteps, vstep, if_neg (not_lt.mpr this), vrun]
  | cons t ts ih =>
    obtain ⟨m, rfl⟩ : ∃ m, n = m + 1 := ⟨n - 1, by simp at hn; omega⟩
    rw [List.flatMap_cons] at hd
    have hlen : argv.length - i = t.args.length + (ts.flatMap Tok.args).length := by
      rw [← List.length_drop, hd, List.length_append]
    have hpos := args_pos t
    have hlt : i < argv.length := by omega
    simp only [vsteps, vstep, if_pos hlt]
    rw [vbody_tok L argv i p t (hts t (by simp)) _ hd]
    cases he : veff L t p with
    | stop e => simp only [vrun, he]
    | ub => simp only [vrun, he]
    | ok p' =>
      simp only [vrun, he]
      refine ih (fun x hx => hts x (by simp [hx])) (i + t.args.length) p' (by omega) ?_ m ?_
      · rw [← List.drop_drop, hd, List.drop_left]
      · simp at hn; omega

/-! ### Commutation -/

theorem vsv_a (L : Lib) (v a : CString) (p : VParams) : setVValue L 97 v a p =
    (let (lo, hi) := scan2 L v p.altMin p.altMax
     let (lo, hi) := if hi < lo then (hi, lo) else (lo, hi)
     .ok { p with altMin := lo, altMax := hi, altRange := true }) := rfl
theorem vsv_d (L : Lib) (v a : CString) (p : VParams) : setVValue L 100 v a p =
    (if 45 ∈ v then
       let (d0, d1) := scanDates v p.date0 p.date1
       .ok { p with date0 := d0, date1 := d1, mjd0 := (date2mjdNf L.F L.G d0).2, mjd1 := (date2mjdNf L.F L.G d1).2 }
     else .stop .usage) := rfl
theorem vsv_D (L : Lib) (v a : CString) (p : VParams) : setVValue L 68 v a p =
    (match copyTo 128 v with
     | none => .ub
     | some d => .ok { p with tlePath := d, defDir := false }) := rfl
theorem vsv_i (L : Lib) (v a : CString) (p : VParams) : setVValue L 105 v a p =
    (match copyTo 12 v with
     | none => .ub
     | some d => .ok { p with intlDesig := d, singleI := true, altRange := false }) := rfl
theorem vsv_j (L : Lib) (v a : CString) (p : VParams) : setVValue L 106 v a p =
    (if 45 ∈ v then .stop .usage
     else
       let (x, y) := scan2 L v p.mjd0 p.mjd1
       match optJ L.F x, optJ L.F y with
       | some w0, some w1 => .ok { p with mjd0 := x, mjd1 := y, date0 := w0.date, date1 := w1.date }
       | _, _ => .ub) := rfl
theorem vsv_l (L : Lib) (v a : CString) (p : VParams) : setVValue L 108 v a p =
    (let (lat, lon, ht) := scan3 L v p.lat p.lon p.ht
     let lon := if lon < 0 then lon + 360 else lon
     if lat < -90 ∨ lat > 90 then errorExit (-1) (msgLat (L.showF lat))
     else .ok { p with lat := lat, lon := lon, ht := ht, inGeopos := true }) := rfl
theorem vsv_r (L : Lib) (v a : CString) (p : VParams) : setVValue L 114 v a p = .ok { p with radius := L.atof v } := rfl
theorem vsv_s (L : Lib) (v a : CString) (p : VParams) : setVValue L 115 v a p =
    .ok { p with noradN := noradArg v, singleN := true, altRange := false } := rfl
theorem vsv_t (L : Lib) (v a : CString) (p : VParams) : setVValue L 116 v a p =
    (match int32 (truncQ (L.atof v)) with
     | none => .ub
     | some n => .ok { p with dt := n }) := rfl

/-- The letters with an effect. -/
def VLetter (c : CChar) : Prop := VisSwitchLetter c ∨ VisValueLetter c

/-- Effect of a letter with a value. -/
def veffL (L : Lib) (c : CChar) (v a : CString) (p : VParams) : Res VParams :=
  if isVSwitch c then .ok (setVSwitch c p) else setVValue L c v a p

/-- The fields an option writes, taken from `d`. -/
def vwr (c : CChar) (d p : VParams) : VParams :=
  if c = 97 then { p with altMin := d.altMin, altMax := d.altMax, altRange := true }
  else if c = 100 then { p with date0 := d.date0, date1 := d.date1, mjd0 := d.mjd0, mjd1 := d.mjd1 }
  else if c = 68 then { p with tlePath := d.tlePath, defDir := false }
  else if c = 105 then { p with intlDesig := d.intlDesig, singleI := true, altRange := false }
  else if c = 106 then { p with date0 := d.date0, date1 := d.date1, mjd0 := d.mjd0, mjd1 := d.mjd1 }
  else if c = 108 then { p with lat := d.lat, lon := d.lon, ht := d.ht, inGeopos := true }
  else if c = 114 then { p with radius := d.radius }
  else if c = 115 then { p with noradN := d.noradN, singleN := true, altRange := false }
  else if c = 116 then { p with dt := d.dt }
  else setVSwitch c p

/-- The values an option accepts in a state `p`: its written fields in `d` are what it computes. -/
def vacc (L : Lib) (c : CChar) (v : CString) (p d : VParams) : Prop :=
  if c = 97 then
    let x := scan2 L v p.altMin p.altMax
    (if x.2 < x.1 then (x.2, x.1) else (x.1, x.2)) = (d.altMin, d.altMax)
  else if c = 100 then 45 ∈ v ∧ scanDates v p.date0 p.date1 = (d.date0, d.date1) ∧
    (date2mjdNf L.F L.G d.date0).2 = d.mjd0 ∧ (date2mjdNf L.F L.G d.date1).2 = d.mjd1
  else if c = 68 then copyTo 128 v = some d.tlePath
  else if c = 105 then copyTo 12 v = some d.intlDesig
  else if c = 106 then 45 ∉ v ∧ scan2 L v p.mjd0 p.mjd1 = (d.mjd0, d.mjd1) ∧
    (∃ w, optJ L.F d.mjd0 = some w ∧ w.date = d.date0) ∧ (∃ w, optJ L.F d.mjd1 = some w ∧ w.date = d.date1)
  else if c = 108 then
    let x := scan3 L v p.lat p.lon p.ht
    x.1 = d.lat ∧ (if x.2.1 < 0 then x.2.1 + 360 else x.2.1) = d.lon ∧ x.2.2 = d.ht ∧ ¬ (d.lat < -90 ∨ d.lat > 90)
  else if c = 114 then d.radius = L.atof v
  else if c = 115 then d.noradN = noradArg v
  else if c = 116 then int32 (truncQ (L.atof v)) = some d.dt
  else True

theorem VLetter.cases {c : CChar} (h : VLetter c) : c = 97 ∨ c = 100 ∨ c = 68 ∨ c = 105 ∨ c = 106 ∨ c = 108 ∨
    c = 114 ∨ c = 115 ∨ c = 116 ∨ c = 78 ∨ c = 84 := by
  unfold VLetter VisSwitchLetter VisValueLetter at h
  simp only [List.mem_cons, List.not_mem_nil, or_false] at h
  tauto

/-- What an option does, in terms of accepted values and written fields. -/
theorem veffL_ok (L : Lib) {c : CChar} (hc : VLetter c) (v a : CString) (p p' : VParams)
    (h : veffL L c v a p = .ok p') : vacc L c v p p' ∧ p' = vwr c p' p := by
  rcases hc.cases with rfl | rfl | rfl | rfl | rfl | rfl | rfl | rfl | rfl | rfl | rfl
  · change setVValue L 97 v a p = _ at h
    rw [vsv_a] at h
    change (_ : ℚ × ℚ) = _ ∧ _
    simp only [] at h
    generalize scan2 L v p.altMin p.altMax = x at h ⊢
    generalize (if x.2 < x.1 then (x.2, x.1) else (x.1, x.2)) = y at h ⊢
    simp only [Res.ok.injEq] at h
    subst h
    exact ⟨rfl, rfl⟩
  · change setVValue L 100 v a p = _ at h
    rw [vsv_d] at h
    change (_ ∧ _ ∧ _ ∧ _) ∧ _
    by_cases hv : (45 : Int) ∈ v
    · rw [if_pos hv] at h
      simp only [] at h
      generalize scanDates v p.date0 p.date1 = x at h ⊢
      simp only [Res.ok.injEq] at h
      subst h
      exact ⟨⟨hv, rfl, rfl, rfl⟩, rfl⟩
    · rw [if_neg hv] at h; simp at h
  · change setVValue L 68 v a p = _ at h
    rw [vsv_D] at h
    change (copyTo _ _ = _) ∧ _
    cases hv : copyTo 128 v with
    | none => rw [hv] at h; simp at h
    | some d => rw [hv] at h; simp only [Res.ok.injEq] at h; subst h; exact ⟨rfl, rfl⟩
  · change setVValue L 105 v a p = _ at h
    rw [vsv_i] at h
    change (copyTo _ _ = _) ∧ _
    cases hv : copyTo 12 v with
    | none => rw [hv] at h; simp at h
    | some d => rw [hv] at h; simp only [Res.ok.injEq] at h; subst h; exact ⟨rfl, rfl⟩
  · change setVValue L 106 v a p = _ at h
    rw [vsv_j] at h
    change (_ ∧ _ ∧ _ ∧ _) ∧ _
    by_cases hv : (45 : Int) ∈ v
    · rw [if_pos hv] at h; simp at h
    · rw [if_neg hv] at h
      simp only [] at h
      generalize scan2 L v p.mjd0 p.mjd1 = x at h ⊢
      obtain ⟨x0, x1⟩ := x
      simp only [] at h
      cases h0 : optJ L.F x0 with
      | none => rw [h0] at h; simp at h
      | some w0 =>
        cases h1 : optJ L.F x1 with
        | none => rw [h0, h1] at h; simp at h
        | some w1 =>
          rw [h0, h1] at h
          simp only [Res.ok.injEq] at h
          subst h
          exact ⟨⟨hv, rfl, ⟨w0, h0, rfl⟩, ⟨w1, h1, rfl⟩⟩, rfl⟩
  · change setVValue L 108 v a p = _ at h
    rw [vsv_l] at h
    change (_ ∧ _ ∧ _ ∧ _) ∧ _
    simp only [] at h
    generalize scan3 L v p.lat p.lon p.ht = x at h ⊢
    by_cases hl : x.1 < -90 ∨ x.1 > 90
    · rw [if_pos hl] at h; exact absurd h (errorExit_ne_ok _ _ _)
    · rw [if_neg hl] at h
      simp only [Res.ok.injEq] at h
      subst h
      exact ⟨⟨rfl, rfl, rfl, hl⟩, rfl⟩
  · change setVValue L 114 v a p = _ at h
    rw [vsv_r] at h
    simp only [Res.ok.injEq] at h; subst h; exact ⟨rfl, rfl⟩
  · change setVValue L 115 v a p = _ at h
    rw [vsv_s] at h
    simp only [Res.ok.injEq] at h; subst h; exact ⟨rfl, rfl⟩
  · change setVValue L 116 v a p = _ at h
    rw [vsv_t] at h
    change (int32 _ = _) ∧ _
    cases hv : int32 (truncQ (L.atof v)) with
    | none => rw [hv] at h; simp at h
    | some d => rw [hv] at h; simp only [Res.ok.injEq] at h; subst h; exact ⟨rfl, rfl⟩
  all_goals
    change Res.ok (setVSwitch _ p) = _ at h
    simp only [Res.ok.injEq] at h
    subst h
    exact ⟨trivial, rfl⟩

theorem veffL_of_acc (L : Lib) {c : CChar} (hc : VLetter c) (v a : CString) (p d : VParams)
    (h : vacc L c v p d) : veffL L c v a p = .ok (vwr c d p) := by
  rcases hc.cases with rfl | rfl | rfl | rfl | rfl | rfl | rfl | rfl | rfl | rfl | rfl
  · change (_ : ℚ × ℚ) = _ at h
    change setVValue L 97 v a p = _
    rw [vsv_a]
    simp only []
    generalize scan2 L v p.altMin p.altMax = x at h ⊢
    simp only [h]; rfl
  · change _ ∧ _ ∧ _ ∧ _ at h
    obtain ⟨h1, h2, h3, h4⟩ := h
    change setVValue L 100 v a p = _
    rw [vsv_d, if_pos h1, h2]
    simp only []
    rw [h3, h4]; rfl
  · change copyTo _ _ = _ at h
    change setVValue L 68 v a p = _
    rw [vsv_D, h]; rfl
  · change copyTo _ _ = _ at h
    change setVValue L 105 v a p = _
    rw [vsv_i, h]; rfl
  · change _ ∧ _ ∧ (∃ _, _) ∧ (∃ _, _) at h
    obtain ⟨h1, h2, ⟨w0, h3, h4⟩, ⟨w1, h5, h6⟩⟩ := h
    change setVValue L 106 v a p = _
    rw [vsv_j, if_neg h1, h2]
    simp only []
    rw [h3, h5]
    simp only []
    rw [h4, h6]; rfl
  · change _ ∧ _ ∧ _ ∧ _ at h
    obtain ⟨h1, h2, h3, h4⟩ := h
    change setVValue L 108 v a p = _
    rw [vsv_l]
    simp only []
    rw [h1, if_neg h4, h2, h3]; rfl
  · change _ = _ at h
    change setVValue L 114 v a p = _
    rw [vsv_r, ← h]; rfl
  · change _ = _ at h
    change setVValue L 115 v a p = _
    rw [vsv_s, ← h]; rfl
  · change int32 _ = _ at h
    change setVValue L 116 v a p = _
    rw [vsv_t, h]; rfl
  all_goals rfl

theorem vwr_comm {a b : CChar} (ha : VLetter a) (hb : VLetter b) (h : Indep a b) (d e p : VParams) :
    vwr a d (vwr b e p) = vwr b e (vwr a d p) := by
  rcases ha.cases with rfl | rfl | rfl | rfl | rfl | rfl | rfl | rfl | rfl | rfl | rfl <;>
  rcases hb.cases with rfl | rfl | rfl | rfl | rfl | rfl | rfl | rfl | rfl | rfl | rfl <;>
  first
  | rfl
  | exact absurd h (by decide)

theorem vacc_frame (L : Lib) {a b : CChar} (ha : VLetter a) (hb : VLetter b) (h : Indep a b) (v : CString)
    (d e p : VParams) : vacc L a v (vwr b e p) d ↔ vacc L a v p d := by
  rcases ha.cases with rfl | rfl | rfl | rfl | rfl | rfl | rfl | rfl | rfl | rfl | rfl <;>
  rcases hb.cases with rfl | rfl | rfl | rfl | rfl | rfl | rfl | rfl | rfl | rfl | rfl <;>
  first
  | exact Iff.rfl
  | exact absurd h (by decide)

/-- Independent options commute. -/
theorem veffL_comm (L : Lib) {a b : CChar} (ha : VLetter a) (hb : VLetter b) (h : Indep a b) (v x w y : CString)
    (p p1 p2 : VParams) (h1 : veffL L a v x p = .ok p1) (h2 : veffL L b w y p1 = .ok p2) :
    ∃ p1', veffL L b w y p = .ok p1' ∧ veffL L a v x p1' = .ok p2 := by
  obtain ⟨c1, e1⟩ := veffL_ok L ha v x p p1 h1
  obtain ⟨c2, e2⟩ := veffL_ok L hb w y p1 p2 h2
  have hs : Indep b a := ⟨h.1.symm, h.2.2, h.2.1⟩
  rw [e1, vacc_frame L hb ha hs] at c2
  refine ⟨vwr b p2 p, veffL_of_acc L hb w y p p2 c2, ?_⟩
  rw [veffL_of_acc L ha v x _ p1 ((vacc_frame L ha hb h v p1 p2 p).mpr c1), vwr_comm ha hb h]
  rw [← e1, ← e2]

end SatSky.Vis
