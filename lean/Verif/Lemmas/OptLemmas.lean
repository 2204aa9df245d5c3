import Verif.Model.Options
import Verif.Spec.Options

/-! The option loop on documented command lines is a fold over the items, and independent items commute. -/

namespace SatSky.Opts

open SatSky Dates Spec

/-- Effect of one item on the parameters. -/
def eff (L : Lib) : Tok → Params → Res Params
  | .file _, p => .ok p
  | .switch c, p => .ok (setSwitch c p)
  | .attached c v, p => setValue L c v (45 :: c :: v) p
  | .spaced c v, p => setValue L c v v p

/-- Effect of a sequence of items. -/
def run (L : Lib) : List Tok → Params → Res Params
  | [], p => .ok p
  | t :: ts, p =>
    match eff L t p with
    | .ok p' => run L ts p'
    | .stop e => .stop e
    | .ub => .ub

theorem isSwitch_iff (c : CChar) : isSwitch c = true ↔ SwitchLetter c := by
  unfold isSwitch SwitchLetter; simp [or_assoc]

theorem value_not_switch {c : CChar} (h : ValueLetter c) : isSwitch c = false ∧ c ≠ 104 ∧ c ≠ 0 := by
  unfold ValueLetter at h
  simp only [List.mem_cons, List.not_mem_nil, or_false] at h
  rcases h with rfl | rfl | rfl | rfl | rfl | rfl | rfl | rfl | rfl | rfl | rfl | rfl <;> decide

theorem switch_ne {c : CChar} (h : SwitchLetter c) : c ≠ 104 := by
  unfold SwitchLetter at h
  simp only [List.mem_cons, List.not_mem_nil, or_false] at h
  rcases h with rfl | rfl | rfl | rfl | rfl | rfl <;> decide

/-- One documented item is one execution of the loop body. -/
theorem body_tok (L : Lib) (argv : List CString) (i : Nat) (p : Params) (t : Tok) (ht : t.Ok)
    (rest : List CString) (hd : argv.drop i = t.args ++ rest) :
    body L argv ⟨i, p⟩ = match eff L t p with
      | .ok p' => .ok ⟨i + t.args.length, p'⟩
      | .stop e => .stop e
      | .ub => .ub := by
  have h0 : arg argv i = (t.args ++ rest)[0]? := by
    unfold arg
    rw [← hd, List.getElem?_drop, Nat.add_zero]
  have h1 : arg argv (i + 1) = (t.args ++ rest)[1]? := by
    unfold arg
    rw [← hd, List.getElem?_drop]
  cases t with
  | file n =>
    simp only [Tok.args, List.cons_append, List.nil_append, List.getElem?_cons_zero] at h0
    unfold body
    rw [h0]
    have hn : rd n 0 ≠ some 45 := by
      cases n with
      | nil => simp [rd]
      | cons c n => simpa [rd, Tok.Ok] using ht
    simp only [hn, if_false, eff, Tok.args, List.length_singleton]
  | switch c =>
    simp only [Tok.args, List.cons_append, List.nil_append, List.getElem?_cons_zero] at h0
    unfold body
    rw [h0]
    have hs : isSwitch c = true := (isSwitch_iff c).mpr ht
    simp [rd, switch_ne ht, hs, eff, Tok.args]
  | attached c v =>
    obtain ⟨hc, hv, hn⟩ := ht
    obtain ⟨k1, k2, k3⟩ := value_not_switch hc
    simp only [Tok.args, List.cons_append, List.nil_append, List.getElem?_cons_zero] at h0
    unfold body
    cases v with
    | nil => exact absurd rfl hv
    | cons x v =>
      have hx : x ≠ 0 := hn x (by simp)
      rw [h0]
      simp only [rd, if_true, if_neg hx, if_neg k2, k1, h0, Bool.false_eq_true, if_false, eff, Tok.args, List.length_singleton]
      simp only [List.drop_succ_cons, List.drop_zero]
      cases setValue L c (x :: v) (45 :: c :: x :: v) p <;> rfl
  | spaced c v =>
    obtain ⟨hc, hn⟩ := ht
    obtain ⟨k1, k2, k3⟩ := value_not_switch hc
    simp only [Tok.args, List.cons_append, List.nil_append, List.getElem?_cons_zero, List.getElem?_cons_succ] at h0 h1
    unfold body
    rw [h0]
    simp only [rd, if_true, if_neg k2, k1, h1, Bool.false_eq_true, if_false, eff, Tok.args, List.drop_zero]
    cases setValue L c v v p <;> simp

theorem args_pos (t : Tok) : 0 < t.args.length := by cases t <;> simp [Tok.args]

theorem args_le (t : Tok) : t.args.length ≤ 2 := by cases t <;> simp [Tok.args]

/-- The loop on documented arguments: it ends after as many steps as there are items (plus the final
test), with the result of the fold. -/
theorem steps_toks (L : Lib) (argv : List CString) (ts : List Tok) (hts : ∀ t ∈ ts, t.Ok) (i : Nat) (p : Params)
    (hi : i ≤ argv.length) (hd : argv.drop i = ts.flatMap Tok.args) (n : Nat) (hn : ts.length < n) :
    steps L argv n ⟨i, p⟩ = match run L ts p with
      | .ok p' => .done p'
      | .stop e => .stop e
      | .ub => .ub := by
  induction ts generalizing i p n with
  | nil =>
    obtain ⟨m, rfl⟩ : ∃ m, n = m + 1 := ⟨n - 1, by simp at hn; omega⟩
    have : argv.length ≤ i := by simpa using hd
    simp only [steps, step, if_neg (not_lt.mpr this), run]
  | cons t ts ih =>
    obtain ⟨m, rfl⟩ : ∃ m, n = m + 1 := ⟨n - 1, by simp at hn; omega⟩
    rw [List.flatMap_cons] at hd
    have hlen : argv.length - i = t.args.length + (ts.flatMap Tok.args).length := by
      rw [← List.length_drop, hd, List.length_append]
    have hpos := args_pos t
    have hlt : i < argv.length := by omega
    simp only [steps, step, if_pos hlt]
    rw [body_tok L argv i p t (hts t (by simp)) _ hd]
    cases he : eff L t p with
    | stop e => simp only [run, he]
    | ub => simp only [run, he]
    | ok p' =>
      simp only [run, he]
      refine ih (fun x hx => hts x (by simp [hx])) (i + t.args.length) p' (by omega) ?_ m ?_
      · rw [← List.drop_drop, hd, List.drop_left]
      · simp at hn; omega

/-! ### Commutation -/

theorem sv_a (L : Lib) (v a : CString) (p : Params) : setValue L 97 v a p =
    (let (lo, hi) := scan2 L v p.altMin p.altMax
     let (lo, hi) := if hi < lo then (hi, lo) else (lo, hi)
     .ok { p with altMin := lo, altMax := hi, altRange := true, geoloc := true }) := rfl
theorem sv_d (L : Lib) (v a : CString) (p : Params) : setValue L 100 v a p =
    (match copyTo 24 v with
     | none => .ub
     | some d => .ok { p with date := d, mjd := (date2mjdNf L.F L.G v).2 }) := rfl
theorem sv_D (L : Lib) (v a : CString) (p : Params) : setValue L 68 v a p =
    (match copyTo 128 v with
     | none => .ub
     | some d => .ok { p with tlePath := d, defDir := false }) := rfl
theorem sv_i (L : Lib) (v a : CString) (p : Params) : setValue L 105 v a p =
    (match copyTo 12 v with
     | none => .ub
     | some d => .ok { p with intlDesig := d, singleI := true, altRange := false, inRegion := false }) := rfl
theorem sv_j (L : Lib) (v a : CString) (p : Params) : setValue L 106 v a p =
    (match optJ L.F (L.atof v) with
     | none => .ub
     | some w => .ok { p with mjd := w.mjd, date := w.date }) := rfl
theorem sv_l (L : Lib) (v a : CString) (p : Params) : setValue L 108 v a p =
    (let (lat, lon, ht) := scan3 L v p.lat p.lon p.ht
     let lon := if lon < 0 then lon + 360 else lon
     if lat < -90 ∨ lat > 90 then errorExit (-1) (msgLat (L.showF lat))
     else .ok { p with lat := lat, lon := lon, ht := ht, inGeopos := true }) := rfl
theorem sv_n (L : Lib) (v a : CString) (p : Params) : setValue L 110 v a p =
    (match scanInt v p.maxSats with
     | none => .ub
     | some n => .ok { p with maxSats := n }) := rfl
theorem sv_p (L : Lib) (v a : CString) (p : Params) : setValue L 112 v a p =
    (let (ra, dec) := scan2 L v p.ra p.dec
     if ra < 0 ∨ ra > 360 then errorExit (-1) (msgRa (L.showF ra))
     else if dec < -90 ∨ dec > 90 then errorExit (-1) (msgDec (L.showF dec))
     else .ok { p with ra := ra, dec := dec, inRegion := true }) := rfl
theorem sv_r (L : Lib) (v a : CString) (p : Params) : setValue L 114 v a p = .ok { p with radius := L.atof v } := rfl
theorem sv_s (L : Lib) (v a : CString) (p : Params) : setValue L 115 v a p =
    .ok { p with noradN := noradArg v, singleN := true, altRange := false, inRegion := false } := rfl
theorem sv_S (L : Lib) (v a : CString) (p : Params) : setValue L 83 v a p =
    (match copyTo 24 v with
     | none => .ub
     | some d => .ok { p with satname := d, nameFilter := true }) := rfl
theorem sv_t (L : Lib) (v a : CString) (p : Params) : setValue L 116 v a p =
    (match int32 (truncQ (L.atof v)) with
     | none => .ub
     | some n => .ok { p with deltaTime := n }) := rfl

/-- The letters with an effect. -/
def Letter (c : CChar) : Prop := SwitchLetter c ∨ ValueLetter c

/-- Effect of a letter with a value. -/
def effL (L : Lib) (c : CChar) (v a : CString) (p : Params) : Res Params :=
  if isSwitch c then .ok (setSwitch c p) else setValue L c v a p

/-- The fields an option writes, taken from `d`. -/
def wr (c : CChar) (d p : Params) : Params :=
  if c = 97 then { p with altMin := d.altMin, altMax := d.altMax, altRange := true, geoloc := true }
  else if c = 100 then { p with date := d.date, mjd := d.mjd }
  else if c = 68 then { p with tlePath := d.tlePath, defDir := false }
  else if c = 105 then { p with intlDesig := d.intlDesig, singleI := true, altRange := false, inRegion := false }
  else if c = 106 then { p with mjd := d.mjd, date := d.date }
  else if c = 108 then { p with lat := d.lat, lon := d.lon, ht := d.ht, inGeopos := true }
  else if c = 110 then { p with maxSats := d.maxSats }
  else if c = 112 then { p with ra := d.ra, dec := d.dec, inRegion := true }
  else if c = 114 then { p with radius := d.radius }
  else if c = 115 then { p with noradN := d.noradN, singleN := true, altRange := false, inRegion := false }
  else if c = 83 then { p with satname := d.satname, nameFilter := true }
  else if c = 116 then { p with deltaTime := d.deltaTime }
  else setSwitch c p

/-- The values an option accepts in a state `p`: its written fields in `d` are what it computes. -/
def acc (L : Lib) (c : CChar) (v : CString) (p d : Params) : Prop :=
  if c = 97 then
    let x := scan2 L v p.altMin p.altMax
    (if x.2 < x.1 then (x.2, x.1) else (x.1, x.2)) = (d.altMin, d.altMax)
  else if c = 100 then copyTo 24 v = some d.date ∧ (date2mjdNf L.F L.G v).2 = d.mjd
  else if c = 68 then copyTo 128 v = some d.tlePath
  else if c = 105 then copyTo 12 v = some d.intlDesig
  else if c = 106 then optJ L.F (L.atof v) = some ⟨d.mjd, d.date⟩
  else if c = 108 then
    let x := scan3 L v p.lat p.lon p.ht
    x.1 = d.lat ∧ (if x.2.1 < 0 then x.2.1 + 360 else x.2.1) = d.lon ∧ x.2.2 = d.ht ∧ ¬ (d.lat < -90 ∨ d.lat > 90)
  else if c = 110 then scanInt v p.maxSats = some d.maxSats
  else if c = 112 then
    scan2 L v p.ra p.dec = (d.ra, d.dec) ∧ ¬ (d.ra < 0 ∨ d.ra > 360) ∧ ¬ (d.dec < -90 ∨ d.dec > 90)
  else if c = 114 then d.radius = L.atof v
  else if c = 115 then d.noradN = noradArg v
  else if c = 83 then copyTo 24 v = some d.satname
  else if c = 116 then int32 (truncQ (L.atof v)) = some d.deltaTime
  else True

theorem errorExit_ne_ok {α : Type} (st : ℤ) (m : CString) (a : α) : errorExit st m ≠ .ok a := by
  unfold errorExit; split <;> simp

theorem Letter.cases {c : CChar} (h : Letter c) : c = 97 ∨ c = 100 ∨ c = 68 ∨ c = 105 ∨ c = 106 ∨ c = 108 ∨
    c = 110 ∨ c = 112 ∨ c = 114 ∨ c = 115 ∨ c = 83 ∨ c = 116 ∨ c = 69 ∨ c = 71 ∨ c = 72 ∨ c = 73 ∨ c = 84 ∨ c = 86 := by
  unfold Letter SwitchLetter ValueLetter at h
  simp only [List.mem_cons, List.not_mem_nil, or_false] at h
  tauto

/-- What an option does, in terms of accepted values and written fields. -/
theorem effL_ok (L : Lib) {c : CChar} (hc : Letter c) (v a : CString) (p p' : Params)
    (h : effL L c v a p = .ok p') : acc L c v p p' ∧ p' = wr c p' p := by
  rcases hc.cases with rfl | rfl | rfl | rfl | rfl | rfl | rfl | rfl | rfl | rfl | rfl | rfl | rfl | rfl | rfl | rfl | rfl | rfl
  · change setValue L 97 v a p = _ at h
    rw [sv_a] at h
    change (_ : ℚ × ℚ) = _ ∧ _
    simp only [] at h
    generalize scan2 L v p.altMin p.altMax = x at h ⊢
    generalize (if x.2 < x.1 then (x.2, x.1) else (x.1, x.2)) = y at h ⊢
    simp only [Res.ok.injEq] at h
    subst h
    exact ⟨rfl, rfl⟩
  · change setValue L 100 v a p = _ at h
    rw [sv_d] at h
    change (_ ∧ _) ∧ _
    cases hv : copyTo 24 v with
    | none => rw [hv] at h; simp at h
    | some d => rw [hv] at h; simp only [Res.ok.injEq] at h; subst h; exact ⟨⟨rfl, rfl⟩, rfl⟩
  · change setValue L 68 v a p = _ at h
    rw [sv_D] at h
    change (copyTo _ _ = _) ∧ _
    cases hv : copyTo 128 v with
    | none => rw [hv] at h; simp at h
    | some d => rw [hv] at h; simp only [Res.ok.injEq] at h; subst h; exact ⟨rfl, rfl⟩
  · change setValue L 105 v a p = _ at h
    rw [sv_i] at h
    change (copyTo _ _ = _) ∧ _
    cases hv : copyTo 12 v with
    | none => rw [hv] at h; simp at h
    | some d => rw [hv] at h; simp only [Res.ok.injEq] at h; subst h; exact ⟨rfl, rfl⟩
  · change setValue L 106 v a p = _ at h
    rw [sv_j] at h
    change (optJ _ _ = _) ∧ _
    cases hv : optJ L.F (L.atof v) with
    | none => rw [hv] at h; simp at h
    | some d => rw [hv] at h; simp only [Res.ok.injEq] at h; subst h; exact ⟨rfl, rfl⟩
  · change setValue L 108 v a p = _ at h
    rw [sv_l] at h
    change (_ ∧ _ ∧ _ ∧ _) ∧ _
    simp only [] at h
    generalize scan3 L v p.lat p.lon p.ht = x at h ⊢
    by_cases hl : x.1 < -90 ∨ x.1 > 90
    · rw [if_pos hl] at h; exact absurd h (errorExit_ne_ok _ _ _)
    · rw [if_neg hl] at h
      simp only [Res.ok.injEq] at h
      subst h
      exact ⟨⟨rfl, rfl, rfl, hl⟩, rfl⟩
  · change setValue L 110 v a p = _ at h
    rw [sv_n] at h
    change (scanInt _ _ = _) ∧ _
    cases hv : scanInt v p.maxSats with
    | none => rw [hv] at h; simp at h
    | some d => rw [hv] at h; simp only [Res.ok.injEq] at h; subst h; exact ⟨rfl, rfl⟩
  · change setValue L 112 v a p = _ at h
    rw [sv_p] at h
    change (_ ∧ _ ∧ _) ∧ _
    simp only [] at h
    generalize scan2 L v p.ra p.dec = x at h ⊢
    by_cases hl : x.1 < 0 ∨ x.1 > 360
    · rw [if_pos hl] at h; exact absurd h (errorExit_ne_ok _ _ _)
    · rw [if_neg hl] at h
      by_cases hm : x.2 < -90 ∨ x.2 > 90
      · rw [if_pos hm] at h; exact absurd h (errorExit_ne_ok _ _ _)
      · rw [if_neg hm] at h
        simp only [Res.ok.injEq] at h
        subst h
        exact ⟨⟨rfl, hl, hm⟩, rfl⟩
  · change setValue L 114 v a p = _ at h
    rw [sv_r] at h
    simp only [Res.ok.injEq] at h; subst h; exact ⟨rfl, rfl⟩
  · change setValue L 115 v a p = _ at h
    rw [sv_s] at h
    simp only [Res.ok.injEq] at h; subst h; exact ⟨rfl, rfl⟩
  · change setValue L 83 v a p = _ at h
    rw [sv_S] at h
    change (copyTo _ _ = _) ∧ _
    cases hv : copyTo 24 v with
    | none => rw [hv] at h; simp at h
    | some d => rw [hv] at h; simp only [Res.ok.injEq] at h; subst h; exact ⟨rfl, rfl⟩
  · change setValue L 116 v a p = _ at h
    rw [sv_t] at h
    change (int32 _ = _) ∧ _
    cases hv : int32 (truncQ (L.atof v)) with
    | none => rw [hv] at h; simp at h
    | some d => rw [hv] at h; simp only [Res.ok.injEq] at h; subst h; exact ⟨rfl, rfl⟩
  all_goals
    change Res.ok (setSwitch _ p) = _ at h
    simp only [Res.ok.injEq] at h
    subst h
    exact ⟨trivial, rfl⟩

theorem effL_of_acc (L : Lib) {c : CChar} (hc : Letter c) (v a : CString) (p d : Params)
    (h : acc L c v p d) : effL L c v a p = .ok (wr c d p) := by
  rcases hc.cases with rfl | rfl | rfl | rfl | rfl | rfl | rfl | rfl | rfl | rfl | rfl | rfl | rfl | rfl | rfl | rfl | rfl | rfl
  · change (_ : ℚ × ℚ) = _ at h
    change setValue L 97 v a p = _
    rw [sv_a]
    simp only []
    generalize scan2 L v p.altMin p.altMax = x at h ⊢
    simp only [h]; rfl
  · change _ ∧ _ at h
    change setValue L 100 v a p = _
    rw [sv_d, h.1, h.2]; rfl
  · change copyTo _ _ = _ at h
    change setValue L 68 v a p = _
    rw [sv_D, h]; rfl
  · change copyTo _ _ = _ at h
    change setValue L 105 v a p = _
    rw [sv_i, h]; rfl
  · change optJ _ _ = _ at h
    change setValue L 106 v a p = _
    rw [sv_j, h]; rfl
  · change _ ∧ _ ∧ _ ∧ _ at h
    obtain ⟨h1, h2, h3, h4⟩ := h
    change setValue L 108 v a p = _
    rw [sv_l]
    simp only []
    rw [h1, if_neg h4, h2, h3]; rfl
  · change scanInt _ _ = _ at h
    change setValue L 110 v a p = _
    rw [sv_n, h]; rfl
  · change _ ∧ _ ∧ _ at h
    obtain ⟨h1, h2, h3⟩ := h
    change setValue L 112 v a p = _
    rw [sv_p, h1]
    simp only []
    rw [if_neg h2, if_neg h3]; rfl
  · change _ = _ at h
    change setValue L 114 v a p = _
    rw [sv_r, ← h]; rfl
  · change _ = _ at h
    change setValue L 115 v a p = _
    rw [sv_s, ← h]; rfl
  · change copyTo _ _ = _ at h
    change setValue L 83 v a p = _
    rw [sv_S, h]; rfl
  · change int32 _ = _ at h
    change setValue L 116 v a p = _
    rw [sv_t, h]; rfl
  all_goals rfl

/-- Letters whose order does not matter. -/
def Indep (a b : CChar) : Prop := a ≠ b ∧ (a, b) ∉ conflicts ∧ (b, a) ∉ conflicts

instance (a b : CChar) : Decidable (Indep a b) := by unfold Indep; infer_instance

theorem wr_comm {a b : CChar} (ha : Letter a) (hb : Letter b) (h : Indep a b) (d e p : Params) :
    wr a d (wr b e p) = wr b e (wr a d p) := by
  rcases ha.cases with rfl | rfl | rfl | rfl | rfl | rfl | rfl | rfl | rfl | rfl | rfl | rfl | rfl | rfl | rfl | rfl | rfl | rfl <;>
  rcases hb.cases with rfl | rfl | rfl | rfl | rfl | rfl | rfl | rfl | rfl | rfl | rfl | rfl | rfl | rfl | rfl | rfl | rfl | rfl <;>
  first
  | rfl
  | exact absurd h (by decide)

theorem acc_frame (L : Lib) {a b : CChar} (ha : Letter a) (hb : Letter b) (h : Indep a b) (v : CString)
    (d e p : Params) : acc L a v (wr b e p) d ↔ acc L a v p d := by
  rcases ha.cases with rfl | rfl | rfl | rfl | rfl | rfl | rfl | rfl | rfl | rfl | rfl | rfl | rfl | rfl | rfl | rfl | rfl | rfl <;>
  rcases hb.cases with rfl | rfl | rfl | rfl | rfl | rfl | rfl | rfl | rfl | rfl | rfl | rfl | rfl | rfl | rfl | rfl | rfl | rfl <;>
  first
  | exact Iff.rfl
  | exact absurd h (by decide)

/-- Independent options commute. -/
theorem effL_comm (L : Lib) {a b : CChar} (ha : Letter a) (hb : Letter b) (h : Indep a b) (v x w y : CString)
    (p p1 p2 : Params) (h1 : effL L a v x p = .ok p1) (h2 : effL L b w y p1 = .ok p2) :
    ∃ p1', effL L b w y p = .ok p1' ∧ effL L a v x p1' = .ok p2 := by
  obtain ⟨c1, e1⟩ := effL_ok L ha v x p p1 h1
  obtain ⟨c2, e2⟩ := effL_ok L hb w y p1 p2 h2
  have hs : Indep b a := ⟨h.1.symm, h.2.2, h.2.1⟩
  rw [e1, acc_frame L hb ha hs] at c2
  refine ⟨wr b p2 p, effL_of_acc L hb w y p p2 c2, ?_⟩
  rw [effL_of_acc L ha v x _ p1 ((acc_frame L ha hb h v p1 p2 p).mpr c1), wr_comm ha hb h]
  rw [← e1, ← e2]

end SatSky.Opts
