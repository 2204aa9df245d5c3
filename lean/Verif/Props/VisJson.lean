import Verif.Lemmas.JsonVis
import Verif.Props.Json
import Verif.Props.VisOutput

/-! C131: the output of `sat_visibility` is one JSON object. -/

namespace SatSky.Props

open SatSky Spec Spec.Json Dates GetEl Opts Sky Prog Vis

/-! ### The parameters -/

/-- The texts among the parameters. -/
def VParamsPlain (p : VParams) : Prop := Json.Plain p.date0 ∧ Json.Plain p.date1 ∧ Json.Plain p.tlePath

theorem scanWord_plain {w : Nat} {s x r : CString} (hs : Json.Plain s) (h : scanWord w s = some (x, r)) : Json.Plain x ∧ Json.Plain r := by
  unfold scanWord at h
  dsimp only at h
  split at h
  · simp at h
  · simp only [Option.some.injEq, Prod.mk.injEq] at h
    obtain ⟨rfl, rfl⟩ := h
    have hd : Json.Plain (s.dropWhile isSpace) := hs.sub (fun c hc => (List.dropWhile_sublist _).mem hc)
    exact ⟨hd.sub (fun c hc => List.mem_of_mem_take ((List.takeWhile_sublist _).mem hc)), hd.drop _⟩

theorem scanDates_plain {s a b : CString} (hs : Json.Plain s) (ha : Json.Plain a) (hb : Json.Plain b) :
    Json.Plain (scanDates s a b).1 ∧ Json.Plain (scanDates s a b).2 := by
  unfold scanDates
  split
  · exact ⟨ha, hb⟩
  · rename_i x r hx
    obtain ⟨h1, h2⟩ := scanWord_plain hs hx
    split
    · exact ⟨h1, hb⟩
    · rename_i y z hy
      refine ⟨h1, ?_⟩
      obtain ⟨u, hu, hy⟩ := Option.bind_eq_some_iff.mp hy
      refine (scanWord_plain (h2.sub ?_) hy).1
      intro c hc
      unfold scanLit at hu
      split at hu
      · simp at hu
      · simp only [Option.ite_none_right_eq_some, Option.some.injEq] at hu
        rw [hu.2]; simp [hc]

theorem setVSwitch_plain (c : CChar) {p : VParams} (h : VParamsPlain p) : VParamsPlain (setVSwitch c p) := by
  unfold setVSwitch VParamsPlain at *
  split <;> exact h

theorem setVValue_plain {L : Lib} {c : CChar} {v a : CString} {p : VParams} (hv : Json.Plain v) (ha : Json.Plain a) (hL : ∀ x, Json.Plain (L.showF x))
    (h : VParamsPlain p) :
    (∀ p', setVValue L c v a p = .ok p' → VParamsPlain p') ∧ ∀ st msg, setVValue L c v a p = .stop (.error st msg) → Json.Plain msg := by
  have hcopy : ∀ n d, copyTo n v = some d → Json.Plain d := by
    intro n d hd
    unfold copyTo at hd
    split at hd
    · simp only [Option.some.injEq] at hd; rw [← hd]; exact hv
    · simp at hd
  have hend : Json.Plain [39] := by decide
  have e1 : ∀ x, Json.Plain (msgLat (L.showF x)) := fun x => (Json.Plain.append (by decide) (hL x)).append hend
  have e4 : Json.Plain (msgOpt a) := (Json.Plain.append (by decide) ha).append hend
  unfold VParamsPlain at *
  by_cases hl : VisValueLetter c
  · unfold VisValueLetter at hl
    simp only [List.mem_cons, List.not_mem_nil, or_false] at hl
    rcases hl with rfl | rfl | rfl | rfl | rfl | rfl | rfl | rfl | rfl
    · rw [vsv_a]
      refine ⟨fun p' hs => ?_, fun st msg hs => by simp at hs⟩
      simp only [Res.ok.injEq] at hs; subst hs; exact h
    · rw [vsv_d]
      split
      · refine ⟨fun p' hs => ?_, fun st msg hs => by simp at hs⟩
        obtain ⟨k1, k2⟩ := scanDates_plain hv h.1 h.2.1
        simp only [Res.ok.injEq] at hs; subst hs; exact ⟨k1, k2, h.2.2⟩
      · simp
    · rw [vsv_D]
      cases hc : copyTo 128 v with
      | none => simp
      | some d =>
        refine ⟨fun p' hs => ?_, fun st msg hs => by simp at hs⟩
        simp only [Res.ok.injEq] at hs; subst hs; exact ⟨h.1, h.2.1, hcopy _ _ hc⟩
    · rw [vsv_i]
      cases hc : copyTo 12 v with
      | none => simp
      | some d =>
        refine ⟨fun p' hs => ?_, fun st msg hs => by simp at hs⟩
        simp only [Res.ok.injEq] at hs; subst hs; exact h
    · rw [vsv_j]
      split
      · simp
      · dsimp only
        split
        · rename_i w0 w1 h0 h1
          refine ⟨fun p' hs => ?_, fun st msg hs => by simp at hs⟩
          simp only [Res.ok.injEq] at hs; subst hs; exact ⟨optJ_plain h0, optJ_plain h1, h.2.2⟩
        · simp
    · rw [vsv_l]
      generalize scan3 L v p.lat p.lon p.ht = x
      simp only []
      split
      · refine ⟨fun p' hs => ?_, fun st msg hs => ?_⟩
        · unfold errorExit at hs; split at hs <;> simp at hs
        · obtain ⟨-, rfl⟩ := errorExit_stop hs; exact e1 _
      · refine ⟨fun p' hs => ?_, fun st msg hs => by simp at hs⟩
        simp only [Res.ok.injEq] at hs; subst hs; exact h
    · rw [vsv_r]
      refine ⟨fun p' hs => ?_, fun st msg hs => by simp at hs⟩
      simp only [Res.ok.injEq] at hs; subst hs; exact h
    · rw [vsv_s]
      refine ⟨fun p' hs => ?_, fun st msg hs => by simp at hs⟩
      simp only [Res.ok.injEq] at hs; subst hs; exact h
    · rw [vsv_t]
      cases hc : int32 (truncQ (L.atof v)) with
      | none => simp
      | some d =>
        refine ⟨fun p' hs => ?_, fun st msg hs => by simp at hs⟩
        simp only [Res.ok.injEq] at hs; subst hs; exact h
  · unfold VisValueLetter at hl
    simp only [List.mem_cons, List.not_mem_nil, or_false, not_or] at hl
    obtain ⟨h1, h2, h3, h4, h5, h6, h7, h8, h9⟩ := hl
    unfold setVValue
    rw [if_neg h1, if_neg h2, if_neg h3, if_neg h4, if_neg h5, if_neg h6, if_neg h7, if_neg h8, if_neg h9]
    refine ⟨fun p' hs => ?_, fun st msg hs => ?_⟩
    · unfold errorExit at hs; split at hs <;> simp at hs
    · obtain ⟨-, rfl⟩ := errorExit_stop hs; exact e4

theorem vbody_plain {L : Lib} {argv : List CString} {s : VSt} (ha : ∀ a ∈ argv, Json.Plain a) (hL : ∀ x, Json.Plain (L.showF x)) (h : VParamsPlain s.p) :
    (∀ s', vbody L argv s = .ok s' → VParamsPlain s'.p) ∧ ∀ st msg, vbody L argv s = .stop (.error st msg) → Json.Plain msg := by
  unfold vbody arg
  cases hi : argv[s.i]? with
  | none => simp
  | some a =>
    simp only []
    by_cases h0 : rd a 0 = some 45
    · rw [if_pos h0]
      cases h1 : rd a 1 with
      | none => simp
      | some opt =>
        cases h2 : rd a 2 with
        | none => simp
        | some c2 =>
          simp only []
          by_cases hh : opt = 104
          · rw [if_pos hh]; simp
          · rw [if_neg hh]
            by_cases hs : isVSwitch opt = true
            · rw [if_pos hs]
              refine ⟨fun s' hs' => ?_, fun st msg hs' => by simp at hs'⟩
              simp only [Res.ok.injEq] at hs'
              subst hs'
              exact setVSwitch_plain opt h
            · rw [if_neg hs]
              generalize (if c2 = 0 then s.i + 1 else s.i) = i'
              cases ha' : argv[i']? with
              | none => simp
              | some a' =>
                simp only []
                have hpa := ha a' (List.mem_of_getElem? ha')
                obtain ⟨k1, k2⟩ := setVValue_plain (c := opt) (p := s.p) (hpa.drop (if c2 = 0 then 0 else 2)) hpa hL h
                cases hv : setVValue L opt (a'.drop (if c2 = 0 then 0 else 2)) a' s.p with
                | ok p' =>
                  refine ⟨fun s' hs' => ?_, fun st msg hs' => by simp at hs'⟩
                  simp only [Res.ok.injEq] at hs'
                  subst hs'
                  exact k1 p' hv
                | stop e =>
                  refine ⟨fun s' hs' => by simp at hs', fun st msg hs' => ?_⟩
                  simp only [Res.stop.injEq] at hs'
                  subst hs'
                  exact k2 st msg hv
                | ub => simp
    · rw [if_neg h0]
      refine ⟨fun s' hs' => ?_, fun st msg hs' => by simp at hs'⟩
      simp only [Res.ok.injEq] at hs'
      subst hs'
      exact h

theorem vsteps_plain {L : Lib} {argv : List CString} (ha : ∀ a ∈ argv, Json.Plain a) (hL : ∀ x, Json.Plain (L.showF x)) (n : Nat) (s : VSt) (h : VParamsPlain s.p) :
    (∀ p, vsteps L argv n s = .done p → VParamsPlain p) ∧ ∀ st msg, vsteps L argv n s = .stop (.error st msg) → Json.Plain msg := by
  induction n generalizing s with
  | zero => simp [vsteps]
  | succ n ih =>
    rw [vsteps]
    unfold vstep
    by_cases hi : s.i < argv.length
    · rw [if_pos hi]
      obtain ⟨k1, k2⟩ := vbody_plain ha hL h
      cases hb : vbody L argv s with
      | ok s' => exact ih s' (k1 s' hb)
      | stop e =>
        refine ⟨fun p hp => by simp at hp, fun st msg hp => ?_⟩
        simp only [VNext.stop.injEq] at hp
        subst hp
        exact k2 st msg hb
      | ub => simp
    · rw [if_neg hi]
      refine ⟨fun p hp => ?_, fun st msg hp => by simp at hp⟩
      simp only [VNext.done.injEq] at hp
      subst hp
      exact h

/-! ### The name and the designator -/

/-- The texts kept by the search are printable. -/
structure VNInv (s : FSt) : Prop where
  buf : BufOk s.name
  name : ∀ nm, cstr s.name = some nm → Json.Plain nm
  line1 : Line1Ok s.line1
  desig : ∀ d, cstr s.desig = some d → Json.Plain d

/-- The texts printed for the record found. -/
structure VHitPlain (s : FSt) (t : Tle) : Prop where
  name : ∀ nm, cstr s.name = some nm → Json.Plain nm
  desig : ∀ d, cstr s.desig = some d → Json.Plain d
  tle : ∀ d, desigText t.intlDesig = some d → Json.Plain d

theorem putDesig_plain {buf buf' : List Int} {d : CString} (hb : ∀ x, cstr buf = some x → Json.Plain x)
    (ht : ∀ x, desigText d = some x → Json.Plain x) (h : putDesig buf d = some buf') : ∀ x, cstr buf' = some x → Json.Plain x := by
  by_cases h32 : d.head? = some 32
  · rw [putDesig_blank _ _ h32] at h
    simp only [Option.some.injEq] at h
    rw [← h]; exact hb
  · cases hx : desigText d with
    | none =>
      exfalso
      unfold putDesig at h
      unfold desigText at hx
      rw [if_neg h32] at h hx
      cases ha : atoi d with
      | none => rw [ha] at h; simp at h
      | some y => rw [ha] at hx; simp at hx
    | some x =>
      rw [putDesig_text _ _ x h32 hx] at h
      simp only [Option.some.injEq] at h
      subst h
      rw [cstr_putStr _ _ (ht x hx).cstr]
      intro y hy
      simp only [Option.some.injEq] at hy
      rw [← hy]; exact ht x hx

/-- What a stretch of the search keeps. -/
def VKeeps (f : Find) : Prop :=
  match f with
  | .next s => VNInv s
  | .hit s t => VHitPlain s t
  | _ => True

theorem fadvance_keeps {s : FSt} {l : CString} (h : VNInv s) (hl : LineOk l) : VKeeps (fadvance s l) := by
  unfold fadvance
  split
  · cases hn : setName s.name l with
    | none => trivial
    | some b =>
      obtain ⟨k1, k2⟩ := setName_plain h.buf hl hn
      exact ⟨k1, k2, Or.inr ⟨l, hl, List.prefix_rfl⟩, h.desig⟩
  · exact ⟨h.buf, h.name, Or.inr ⟨l, hl, List.prefix_rfl⟩, h.desig⟩

theorem fstep_keeps {p : VParams} {s : FSt} {l : CString} (h : VNInv s) (hl : LineOk l) : VKeeps (fstep p s l) := by
  unfold fstep
  cases hp : parseElements s.line1 l with
  | none => trivial
  | some x =>
    obtain ⟨rv, ot⟩ := x
    dsimp only
    split
    · cases ot with
      | none => trivial
      | some t =>
        have ht : ∀ d, desigText t.intlDesig = some d → Json.Plain d := fun d hd => desig_plain h.line1 hp hd
        dsimp only
        unfold fconsider
        split
        · split
          · exact ⟨h.name, h.desig, ht⟩
          · exact fadvance_keeps h hl
        · split
          · cases hd : putDesig s.desig t.intlDesig with
            | none => trivial
            | some d =>
              dsimp only
              have hd' := putDesig_plain h.desig ht hd
              split
              · exact ⟨h.name, hd', ht⟩
              · exact fadvance_keeps (s := { s with desig := d }) ⟨h.buf, h.name, h.line1, hd'⟩ hl
          · exact fadvance_keeps h hl
    · exact fadvance_keeps h hl

theorem flines_keeps {p : VParams} (ls : List CString) (hls : ∀ l ∈ ls, LineOk l) (s : FSt) (h : VNInv s) : VKeeps (flines p s ls) := by
  induction ls generalizing s with
  | nil => exact h
  | cons l ls ih =>
    rw [flines]
    have hk := fstep_keeps (p := p) h (hls l (by simp))
    cases hf : fstep p s l with
    | next v => rw [hf] at hk; exact ih (fun x hx => hls x (by simp [hx])) v hk
    | hit v t => rw [hf] at hk; exact hk
    | exit a b => trivial
    | ub => trivial

theorem ffiles_keeps {p : VParams} (fs : List (CString × Option CString)) (hfs : ∀ f c, (f, some c) ∈ fs → TleText c) (s : FSt)
    (hb : BufOk s.name) (hd : ∀ d, cstr s.desig = some d → Json.Plain d) :
    ∀ s' t, ffiles p s fs = .hit s' t → VHitPlain s' t := by
  intro s' t h
  induction fs generalizing s with
  | nil => simp [ffiles] at h
  | cons f fs ih =>
    obtain ⟨path, oc⟩ := f
    cases oc with
    | none =>
      simp only [ffiles] at h
      split at h <;> simp at h
    | some content =>
      have htext := hfs path content (by simp)
      simp only [ffiles] at h
      have hk : VKeeps (ffile p path s content) := by
        unfold ffile
        unfold TleText at htext
        cases hl : fileLines 100 content with
        | nil => dsimp only; split <;> trivial
        | cons l ls =>
          rw [hl] at htext
          dsimp only
          have hlo := htext l (by simp)
          cases hn : setName s.name l with
          | none => trivial
          | some b =>
            obtain ⟨k1, k2⟩ := setName_plain hb hlo hn
            exact flines_keeps ls (fun x hx => htext x (by simp [hx])) { s with line1 := l, name := b } ⟨k1, k2, Or.inr ⟨l, hlo, List.prefix_rfl⟩, hd⟩
      cases hf : ffile p path s content with
      | next v =>
        rw [hf] at h hk
        exact ih (fun f c hf => hfs f c (by simp [hf])) v hk.buf hk.desig h
      | hit v t' =>
        rw [hf] at h hk
        simp only [Find.hit.injEq] at h
        obtain ⟨rfl, rfl⟩ := h
        exact hk
      | exit a b => rw [hf] at h; simp at h
      | ub => rw [hf] at h; simp at h

/-! ### The pass -/

theorem vacc_block {W : VWorld} {p : VParams} {t : Tle} {b : Block} {x : CString} (h : vblockJson W p t b = some x) :
    Json.Acc x Json.gObj (if b.label = .max then Json.gEnd else Json.gObj) := by
  unfold vblockJson at h
  split at h
  · simp at h
  · rename_i w hw
    simp only [Option.some.injEq] at h
    subst h
    have hg : Json.Plain (b!"geoloc_" ++ b.label.text) := by cases b.label <;> decide
    have hu : Json.Plain (b!"sun_" ++ b.label.text) := by cases b.label <;> decide
    have hs : Json.Plain (b!"sat_" ++ b.label.text) := by cases b.label <;> decide
    have := ((Json.vacc_geo hg (W.geo p t b.satAt)).append (Json.vacc_sun hu (W.sun p b.sunAt) (Or.inr rfl))).append
      (Json.vacc_sat hs (optJ_plain hw) b.mjd (W.sat p t b))
    have he : (if b!"sat_" ++ b.label.text = b!"sat_max" then Json.gEnd else Json.gObj) = (if b.label = .max then Json.gEnd else Json.gObj) := by
      cases b.label <;> decide
    rw [he] at this
    exact this

/-- The text of a complete pass. -/
theorem vacc_pass {W : VWorld} {p : VParams} {s : FSt} {t : Tle} {bs : List Block} {x : CString}
    (hb : bs.map Block.label = [.start, .fin, .mid, .max]) (hh : VHitPlain s t) (h : passText W p s t bs = some x) :
    Json.Acc x Json.gKey Json.gEnd := by
  obtain ⟨b1, b2, b3, b4, rfl⟩ : ∃ b1 b2 b3 b4, bs = [b1, b2, b3, b4] := by
    have := congrArg List.length hb
    simp only [List.length_map, List.length_cons, List.length_nil] at this
    exact List.length_eq_four.mp this
  · simp only [List.map_cons, List.map_nil, List.cons.injEq, and_true] at hb
    obtain ⟨l1, l2, l3, l4⟩ := hb
    unfold passText at h
    rw [if_neg (by simp)] at h
    split at h
    · rename_i nm ds y hn hd hy
      simp only [Option.some.injEq] at h
      subst h
      have hds : Json.Plain ds := by
        unfold printedDesig at hd
        obtain ⟨buf, hb, hc⟩ := Option.bind_eq_some_iff.mp hd
        split at hb
        · simp only [Option.some.injEq] at hb
          subst hb
          exact hh.desig _ hc
        · exact putDesig_plain hh.desig hh.tle hb _ hc
      refine (Json.vacc_head (hh.name _ hn) hds t).append ?_
      simp only [vblocksJson] at hy
      cases h1 : vblockJson W p t b1 with
      | none => simp [h1] at hy
      | some x1 =>
        cases h2 : vblockJson W p t b2 with
        | none => simp [h1, h2] at hy
        | some x2 =>
          cases h3 : vblockJson W p t b3 with
          | none => simp [h1, h2, h3] at hy
          | some x3 =>
            cases h4 : vblockJson W p t b4 with
            | none => simp [h1, h2, h3, h4] at hy
            | some x4 =>
              simp only [h1, h2, h3, h4, Option.some.injEq] at hy
              subst hy
              have a1 := vacc_block h1
              have a2 := vacc_block h2
              have a3 := vacc_block h3
              have a4 := vacc_block h4
              rw [l1, if_neg (by decide)] at a1
              rw [l2, if_neg (by decide)] at a2
              rw [l3, if_neg (by decide)] at a3
              rw [l4, if_pos rfl] at a4
              rw [List.append_nil]
              exact a1.append (a2.append (a3.append a4))
    · simp at h

/-! ### C131 -/

theorem vopenJson_cons : vopenJson = 123 :: vopenJson.tail := rfl

theorem vcommand_plain {argv : List CString} (il : Bool) (h : ∀ a ∈ argv, Json.Plain a) : Json.Plain (Json.vcommand argv il) := by
  have hf : ∀ l : List CString, (∀ a ∈ l, Json.Plain a) → Json.Plain (l.flatMap (fun a => 32 :: a)) := by
    intro l hl c hc
    simp only [List.mem_flatMap, List.mem_cons] at hc
    obtain ⟨a, ha, rfl | hc⟩ := hc
    · omega
    · exact hl a ha c hc
  have hd : ∀ n, ∀ a ∈ argv.drop n, Json.Plain a := fun n a ha => h a (List.mem_of_mem_drop ha)
  unfold Json.vcommand
  refine Json.Plain.append (by decide) ?_
  split
  · refine (Json.Plain.append (by decide) ?_).append (hf _ (hd 2))
    cases h1 : argv[1]? with
    | none => rw [List.getD_eq_getElem?_getD, h1]; exact (by decide : Json.Plain [])
    | some a => rw [List.getD_eq_getElem?_getD, h1]; exact h a (List.mem_of_getElem? h1)
  · exact hf _ (hd 1)

/-- The answer of an error detected before anything else is printed. -/
theorem vjson_error {argv : List CString} {il : Bool} {st : ℤ} {msg : CString} {a : ℤ} (ha : ∀ x ∈ argv, Json.Plain x) (hm : Json.Plain msg) :
    ObjectDocument (vopenJson ++ vcloseJson argv il st msg a) := by
  rw [vopenJson_cons, List.cons_append]
  exact Json.object_of_acc (Json.vacc_open.append (Json.vacc_close (vcommand_plain il ha) hm))

theorem searches_json {W : VWorld} (hjunk : BufOk W.junk) {p : VParams} {argv : List CString} {il : Bool}
    {name : CString} {paths : List CString} {code : ℤ} {out : CString} (h : Searches W argv il name p paths (.exit code out))
    (ha : ∀ a ∈ argv, Json.Plain a) (hp : VParamsPlain p) (hn : Json.Plain name) (hpaths : ∀ x ∈ paths, Json.Plain x)
    (hfiles : ∀ f c, W.file f = some c → TleText c) (hopen : code = 0 ∨ ¬ (b!" \"satellite\": {" <:+: out)) : ObjectDocument out := by
  have hmem : ∀ path oc, (path, oc) ∈ paths.map (fun f => (f, W.file f)) → path ∈ paths ∧ W.file path = oc := by
    intro path oc hm
    simp only [List.mem_map, Prod.mk.injEq] at hm
    obtain ⟨x, hx, rfl, rfl⟩ := hm
    exact ⟨hx, rfl⟩
  have hcmd := vcommand_plain il ha
  have hpre := (Json.acc_geoFields).append (Json.vacc_params (file := name) (z := W.zenith p) (p := p) hn hp.1 hp.2.1)
  rcases Searches_exit h with ⟨msg, hf, rfl⟩ | ⟨s, t, hf, h⟩ | ⟨s, path, -, hlast, -, rfl⟩
  · refine vjson_error ha ?_
    rcases ffiles_exit _ _ hf with ⟨rfl, path, hm, rfl⟩ | ⟨rfl, path, hm, rfl⟩
    · exact Json.Plain.append (by decide) (hpaths _ (hmem _ _ hm).1)
    · exact Json.Plain.append (by decide) (hpaths _ (hmem _ _ hm).1)
  · have hh : VHitPlain s t := ffiles_keeps _ (fun f c hm => hfiles f c (hmem _ _ hm).2) _ hjunk (by
      intro d hd
      have : d = b!"none" := by
        have e : cstr (b!"none" ++ List.replicate 8 0) = some b!"none" := by decide
        rw [show ({ name := W.junk } : FSt).desig = b!"none" ++ List.replicate 8 0 from rfl, e] at hd
        simpa using hd.symm
      rw [this]; decide) _ _ hf
    rcases Observes_exit h with ⟨r, x, hr, hx, -, ⟨hb, rfl⟩ | ⟨hb, rfl⟩⟩ | ⟨t0, n, r, x, -, hl, hx, rfl, rfl⟩
    · have hx0 : x = [] := by
        unfold passText at hx
        rw [if_pos hb] at hx
        simpa using hx.symm
      subst hx0
      rw [vopenJson_cons]
      simp only [List.cons_append, List.append_assoc, List.nil_append]
      have := Json.vacc_open.append (hpre.append ((Json.vacc_sun (label := b!"sun") (by decide) (W.sun p (cfgOf W.L.F p).jd0) (Or.inl rfl)).append
        (Json.vacc_close (argv := argv) (il := il) (st := 0) (msg := []) (a := 0) hcmd (by decide))))
      simp only [List.append_assoc] at this
      exact Json.object_of_acc this
    · have hlab := (ends_labels hr).resolve_left hb
      rw [vopenJson_cons]
      simp only [List.cons_append, List.append_assoc]
      have := Json.vacc_open.append (hpre.append ((vacc_pass hlab hh hx).append ((Json.vacc_duration (minutes (cfgOf W.L.F p) W.L.G r)).append
        (Json.vacc_close (argv := argv) (il := il) (st := 0) (msg := []) (a := 1) hcmd (by decide)))))
      simp only [List.append_assoc] at this
      exact Json.object_of_acc this
    · have hb : r.blocks = [] := by
        by_contra hb
        rcases hopen with h0 | h0
        · simp at h0
        · apply h0
          unfold passText at hx
          rw [if_neg hb] at hx
          split at hx
          · rename_i nm ds y _ _ _
            simp only [Option.some.injEq] at hx
            subst hx
            refine ⟨vopenJson ++ geoFields ++ vparamsJson name (W.zenith p) p ++ vfieldsDesc, b!"\"name\": " ++ q nm ++ b!", \"intl_desig\": " ++ q ds
              ++ b!", \"norad_n\": " ++ intText t.norad ++ b!", " ++ y
              ++ vcloseJson argv il 2 b!"Satellite altitude out of requested range" (if r.blocks = [] then 0 else 1), ?_⟩
            unfold satHead
            simp only [List.append_assoc]
            rfl
          · simp at hx
      have hx0 : x = [] := by
        unfold passText at hx
        rw [if_pos hb] at hx
        simpa using hx.symm
      subst hx0
      rw [vopenJson_cons]
      simp only [List.cons_append, List.append_assoc, List.nil_append]
      have := Json.vacc_open.append (hpre.append 
        (Json.vacc_close (argv := argv) (il := il) (st := 2) (msg := b!"Satellite altitude out of requested range") (a := (if r.blocks = [] then 0 else 1)) hcmd (by decide)))
      simp only [List.append_assoc] at this
      exact Json.object_of_acc this
  · refine vjson_error ha (Json.Plain.append (by decide) (hpaths _ (List.mem_of_getLast? hlast)))

/-- **C131** (partial).  Whatever the arguments, files and numerical results: the answer of `sat_visibility` is a
single JSON object, provided that the arguments and the lines of the files are printable text without quotes and
backslashes (names made from empty lines excluded), and that the altitude filter did not stop it during a pass.
(Missing: those cases and the call without arguments, see the `C131_…_violated` theorems.) -/
theorem C131_json_partial (W : VWorld) (hshow : ∀ x, Json.Plain (W.L.showF x)) (hjunk : BufOk W.junk) (argv : List CString) (hlen : 2 ≤ argv.length)
    (ha : ∀ a ∈ argv, Json.Plain a) (hfiles : ∀ f c, W.file f = some c → TleText c)
    (hlist : ∀ name dir c, argv.getD (fileIndex argv) [] = 64 :: name → W.file (dir ++ 47 :: name) = some c → ListText c)
    (code : ℤ) (out : CString) (hopen : code = 0 ∨ ¬ (b!" \"satellite\": {" <:+: out))
    (h : VRuns W argv (.exit code out)) : ObjectDocument out := by
  have hinit : VParamsPlain vinit.p := ⟨by decide, by decide, by decide⟩
  have harg : ∀ i, Json.Plain (argv.getD i []) := by
    intro i
    rw [List.getD_eq_getElem?_getD]
    cases h1 : argv[i]? with
    | none => exact (by decide : Json.Plain [])
    | some a => exact ha a (List.mem_of_getElem? h1)
  rcases VRuns_exit h with ⟨hl, -, -⟩ | ⟨n, msg, -, hs, rfl⟩ | ⟨p, p', -, ⟨n, hs⟩, hal, h⟩
  · omega
  · exact vjson_error ha ((vsteps_plain ha hshow n vinit hinit).2 _ _ hs)
  · have hp : VParamsPlain p' := by
      have hp0 := (vsteps_plain ha hshow n vinit hinit).1 _ hs
      obtain ⟨-, he, hpath⟩ := vafterLoop_ok hal
      refine ⟨?_, ?_, ?_⟩
      · rw [he]; exact hp0.1
      · rw [he]; exact hp0.2.1
      · rcases hpath with e | e
        · rw [e]; exact hp0.2.2
        · rw [e]; decide
    have hset : ∀ name, argv.getD (fileIndex argv) [] = 64 :: name → Json.Plain name ∧ ∀ a ∈ argv.set (fileIndex argv) name, Json.Plain a := by
      intro name hn
      have hpn : Json.Plain name := by
        have := harg (fileIndex argv)
        rw [hn] at this
        exact this.sub (fun c hc => by simp [hc])
      refine ⟨hpn, fun a hm => ?_⟩
      rcases List.mem_or_eq_of_mem_set hm with hm | rfl
      · exact ha a hm
      · exact hpn
    have hdir : ∀ name, Json.Plain name → Json.Plain (p'.tlePath ++ 47 :: name) := fun name hn => hp.2.2.append (plain_cons (by omega) hn)
    rcases Computes_exit h with ⟨name, hn, -, -, rfl⟩ | ⟨-, -, -, argv', il, hcase, rfl⟩ | ⟨name, c, hn, hc, -, h⟩ | ⟨path, hpath, -, h⟩
    · obtain ⟨h1, h2⟩ := hset name hn
      exact vjson_error h2 (Json.Plain.append (by decide) (hdir name h1))
    · refine vjson_error ?_ (by decide)
      rcases hcase with ⟨rfl, -⟩ | ⟨name, hn, rfl, -⟩
      · exact ha
      · exact (hset name hn).2
    · obtain ⟨h1, h2⟩ := hset name hn
      refine searches_json hjunk h h2 hp h1 ?_ hfiles hopen
      intro x hx
      unfold listPaths at hx
      obtain ⟨row, hrow, hx⟩ := List.mem_filterMap.mp hx
      exact rowPath_plain hp.2.2 (hlist name _ c hn hc row hrow) hx
    · refine searches_json hjunk h ha hp (harg _) ?_ hfiles hopen
      intro x hx
      simp only [List.mem_singleton] at hx
      subst hx
      unfold singlePath at hpath
      simp only [] at hpath
      generalize hg : (if 47 ∈ argv.getD (fileIndex argv) [] then argv.getD (fileIndex argv) [] else p'.tlePath ++ 47 :: argv.getD (fileIndex argv) []) = y at hpath
      split at hpath
      · simp only [Option.some.injEq] at hpath
        rw [← hpath, ← hg]
        split
        · exact harg _
        · exact hdir _ (harg _)
      · simp at hpath

/-- Called without arguments the program prints a newline inside a string. -/
theorem C131_no_args_violated (W : VWorld) : ∃ out, VRuns W [b!"sat_visibility"] (.exit 0 out) ∧ ¬ Document out := by
  refine ⟨vopenJson ++ vcloseJson [b!"sat_visibility"] false 1 vmsgUsage 0, ?_, notJson_spec (by decide +kernel)⟩
  unfold VRuns
  rw [if_pos (by decide)]
  rfl

/-- Leaves the requested range of altitudes at the second instant. -/
def climbs : History := ⟨fun _ => 10, fun _ => true, fun t => if t ≤ 4920001 / 2 then 500 else 900, fun _ => -30⟩

set_option maxRecDepth 100000 in
/-- The altitude filter stops the program during a pass: the object of the satellite is left open. -/
theorem C131_altitude_violated : ∃ W argv out, (∀ a ∈ argv, Json.Plain a) ∧ VRuns W argv (.exit 1 out) ∧ ¬ Document out := by
  obtain ⟨c, o, h1, h2⟩ := vruns_of_check (W := vworld [(b!"./a", vtwo)] climbs) (argv := vargs [b!"-s44238", b!"-a400,600"]) (n := 8) (m := 6)
    (P := fun c o => decide (c = 1) && notJson o) (by decide +kernel)
  simp only [Bool.and_eq_true, decide_eq_true_eq] at h2
  obtain ⟨rfl, h2⟩ := h2
  exact ⟨_, _, o, by decide, h1, notJson_spec h2⟩

set_option maxRecDepth 100000 in
/-- The hypotheses of `C131_json_partial` hold for a run that reports a pass. -/
example : ∃ out, VRuns (vworld [(b!"./a", vtwo)] alwaysUp) (vargs [b!"-s44238"]) (.exit 0 out) ∧
    b!"\"sat_max\": {" <:+: out ∧ ObjectDocument out := by
  obtain ⟨c, o, h1, h2⟩ := vruns_of_check (W := vworld [(b!"./a", vtwo)] alwaysUp) (argv := vargs [b!"-s44238"]) (n := 7) (m := 6)
    (P := fun c o => decide (c = 0) && decide (b!"\"sat_max\": {" <:+: o)) (by decide +kernel)
  simp only [Bool.and_eq_true, decide_eq_true_eq] at h2
  obtain ⟨rfl, h2⟩ := h2
  refine ⟨o, h1, h2, C131_json_partial _ (numbersOk_world0 []).show_ zeros_ok _ (by decide) (by decide) ?_ ?_ _ _ (Or.inl rfl) h1⟩
  · intro f c hf l hl
    have hc : c = vtwo := by
      simp only [vworld, Option.map_eq_some_iff] at hf
      obtain ⟨x, hx, rfl⟩ := hf
      have := List.mem_of_find?_eq_some hx
      simp only [List.mem_singleton] at this
      rw [this]
    subst hc
    exact lineOk_of ((by decide +kernel : ∀ l ∈ fileLines 100 vtwo, 2 ≤ l.length ∧ Json.Plain l.dropLast ∧ l.getLast? = some 10) l hl)
  · intro name dir c hn
    exact absurd hn (by simp [fileIndex, vargs])

end SatSky.Props
