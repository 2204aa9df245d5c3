import Verif.Model.Dynamic
import Verif.Spec.Library

/-! C144, C145: the library loaded at run time (`dynamic.c`). -/

namespace SatSky.Props

open SatSky.Spec SatSky.Dyn

/-- The request as the program makes it. -/
def asOp : Request → Op
  | .init k => .init k
  | .run k => .run k
  | .version => .version
  | .unload => .unload

/-- Requests for one of the five propagators. -/
def Valid : Request → Prop
  | .init k => k < 5
  | .run k => k < 5
  | _ => True

/-- What the world offers to the program. -/
def offers (w : World) (n : ℕ) : Option Library := (w.load n).map Mapping.exports

/-- What the static variables know. -/
def knownOf (s : State) : Known :=
  if s.firstTime then .nothing else match s.handle with
    | some m => .present m.exports
    | none => .absent

/-- The handle is what is mapped, and nothing is mapped before the library was looked for. -/
structure Sound (s : State) : Prop where
  mapped : s.mapped = s.handle
  first : s.firstTime = true → s.handle = none

theorem sound_start : Sound State.start := ⟨rfl, fun _ => rfl⟩

theorem Sound.unload {s : State} (h : Sound s) : Sound (unload s) := by
  refine ⟨?_, fun _ => rfl⟩
  show (if s.handle.isSome then none else s.mapped) = none
  rw [h.mapped]
  cases s.handle <;> rfl

theorem Sound.load {s : State} (w : World) (h : Sound s) : Sound (loadLib w s) := by
  unfold loadLib
  split
  · exact ⟨rfl, fun h => by simp at h⟩
  · exact h

theorem known_load (w : World) (s : State) :
    knownOf (loadLib w s) = ((knownOf s).look (offers w) s.loads).1 ∧ (loadLib w s).loads = ((knownOf s).look (offers w) s.loads).2 := by
  unfold loadLib knownOf offers
  by_cases h : s.firstTime = true
  · rw [if_pos h, if_pos h]
    dsimp only [Known.look]
    rw [if_neg (by decide)]
    cases w.load s.loads <;> exact ⟨rfl, rfl⟩
  · rw [if_neg h, if_neg h]
    cases s.handle <;> exact ⟨rfl, rfl⟩

theorem load_first (w : World) (s : State) : (loadLib w s).firstTime = false := by
  unfold loadLib
  split
  · rfl
  · rename_i h
    simpa using h

/-- The pointers are those of the library `o` where they were looked up, and those or none elsewhere. -/
structure Fresh (o : Option Mapping) (s : State) : Prop where
  init : ∀ k, s.initDone k = true → s.initFunc k = o.bind fun m => getProc m (k + 1)
  run : ∀ k, s.runDone k = true → s.runFunc k = o.bind fun m => getProc m (k + 6)
  init0 : ∀ k, s.initFunc k = none ∨ s.initFunc k = o.bind fun m => getProc m (k + 1)
  run0 : ∀ k, s.runFunc k = none ∨ s.runFunc k = o.bind fun m => getProc m (k + 6)
  handle : s.firstTime = false → s.handle = o

theorem fresh_start (o : Option Mapping) : Fresh o State.start :=
  ⟨fun _ h => by simp [State.start] at h, fun _ h => by simp [State.start] at h, fun _ => .inl rfl, fun _ => .inl rfl,
    fun h => by simp [State.start] at h⟩

theorem Fresh.unload {o : Option Mapping} {s : State} (h : Fresh o s) : Fresh o (unload s) :=
  ⟨fun _ h => by simp [Dyn.unload] at h, h.run, h.init0, h.run0, fun h => by simp [Dyn.unload, unloadLib] at h⟩

theorem Fresh.load {o : Option Mapping} {w : World} {s : State} (h : Fresh o s) (ho : s.firstTime = true → w.load s.loads = o) :
    Fresh o (loadLib w s) := by
  unfold loadLib
  split
  · exact ⟨h.init, h.run, h.init0, h.run0, fun _ => ho ‹_›⟩
  · exact h

theorem Fresh.lookInit {o : Option Mapping} {s : State} (h : Fresh o s) (hf : s.firstTime = false) (k : Fin 5) :
    Fresh o (lookInit s k) ∧ (lookInit s k).initFunc k = o.bind fun m => getProc m (k + 1) := by
  unfold Dyn.lookInit
  by_cases hd : s.initDone k = true
  · rw [if_pos hd]
    exact ⟨h, h.init k hd⟩
  · rw [if_neg hd]
    have hh := h.handle hf
    have h1 : store s.handle s.initFunc k (k + 1) = Function.update s.initFunc k (o.bind fun m => getProc m (k + 1)) := by
      rw [hh]
      cases o with
      | some m => rfl
      | none =>
        funext j
        by_cases hj : j = k
        · rw [hj, Function.update_self]
          rcases h.init0 k with h | h <;> exact h
        · rw [Function.update_of_ne hj]
          rfl
    rw [h1]
    refine ⟨⟨fun j hj => ?_, h.run, fun j => ?_, h.run0, h.handle⟩, by simp⟩
    · dsimp only at hj ⊢
      by_cases e : j = k
      · rw [e, Function.update_self]
      · rw [Function.update_of_ne e] at hj ⊢
        exact h.init j hj
    · dsimp only
      by_cases e : j = k
      · rw [e, Function.update_self]
        exact .inr rfl
      · rw [Function.update_of_ne e]
        exact h.init0 j

theorem Fresh.lookRun {o : Option Mapping} {s : State} (h : Fresh o s) (hf : s.firstTime = false) (k : Fin 5) :
    Fresh o (lookRun s k) ∧ (lookRun s k).runFunc k = o.bind fun m => getProc m (k + 6) := by
  unfold Dyn.lookRun
  by_cases hd : s.runDone k = true
  · rw [if_pos hd]
    exact ⟨h, h.run k hd⟩
  · rw [if_neg hd]
    have hh := h.handle hf
    have h1 : store s.handle s.runFunc k (k + 6) = Function.update s.runFunc k (o.bind fun m => getProc m (k + 6)) := by
      rw [hh]
      cases o with
      | some m => rfl
      | none =>
        funext j
        by_cases hj : j = k
        · rw [hj, Function.update_self]
          rcases h.run0 k with h | h <;> exact h
        · rw [Function.update_of_ne hj]
          rfl
    rw [h1]
    refine ⟨⟨h.init, fun j hj => ?_, h.init0, fun j => ?_, h.handle⟩, by simp⟩
    · dsimp only at hj ⊢
      by_cases e : j = k
      · rw [e, Function.update_self]
      · rw [Function.update_of_ne e] at hj ⊢
        exact h.run j hj
    · dsimp only
      by_cases e : j = k
      · rw [e, Function.update_self]
        exact .inr rfl
      · rw [Function.update_of_ne e]
        exact h.run0 j

theorem lookInit_rest (s : State) (k : Fin 5) : (lookInit s k).handle = s.handle ∧ (lookInit s k).mapped = s.mapped ∧
    (lookInit s k).firstTime = s.firstTime ∧ (lookInit s k).loads = s.loads := by
  unfold lookInit
  split <;> exact ⟨rfl, rfl, rfl, rfl⟩

theorem lookRun_rest (s : State) (k : Fin 5) : (lookRun s k).handle = s.handle ∧ (lookRun s k).mapped = s.mapped ∧
    (lookRun s k).firstTime = s.firstTime ∧ (lookRun s k).loads = s.loads := by
  unfold lookRun
  split <;> exact ⟨rfl, rfl, rfl, rfl⟩

/-- A pointer of the library that is mapped can be called; the answer is the one of the specification. -/
theorem call_answer {s : State} (hs : Sound s) (hf : s.firstTime = false) {q : Option Ptr} {ordinal : ℕ} (hq : q = s.handle.bind fun m => getProc m ordinal)
    (r : Ptr → ℤ) (x : ℤ) (hr : ∀ b, r ⟨b, ordinal⟩ = x) :
    ((call s q r).map fun rval => (s, if s.handle.isNone then -2 else rval)) = some (s, (knownOf s).answer ordinal x) := by
  subst hq
  unfold knownOf call live
  rw [hs.mapped, if_neg (by simp [hf])]
  cases s.handle with
  | none => rfl
  | some m =>
    dsimp only [Option.bind, getProc, Known.answer]
    by_cases h : m.exports ordinal = true
    · simp [h, hr]
    · simp [h]

/-- One request, while every load gives the library `o`. -/
theorem step_answer {o : Option Mapping} {w : World} {s : State} (hs : Sound s) (h : Fresh o s) (ho : s.firstTime = true → w.load s.loads = o) {r : Request}
    (hv : Valid r) (rs : List Request) :
    ∃ s' a, step w s (asOp r) = some (s', a) ∧ Sound s' ∧ Fresh o s' ∧ (r ≠ .unload → s'.firstTime = false) ∧
      libAnswers (offers w) w.answer w.version (knownOf s) s.loads (r :: rs) =
        a :: libAnswers (offers w) w.answer w.version (knownOf s') s'.loads rs := by
  have hl := h.load ho
  have hsl := hs.load w
  have hf := load_first w s
  obtain ⟨e1, e2⟩ := known_load w s
  cases r with
  | init k =>
    have hk : (0 : ℤ) ≤ k ∧ (k : ℤ) < 5 := by have : k < 5 := hv; omega
    obtain ⟨h1, h2⟩ := hl.lookInit hf ⟨((k : ℤ)).toNat, by omega⟩
    obtain ⟨r1, r2, r3, r4⟩ := lookInit_rest (loadLib w s) ⟨((k : ℤ)).toNat, by omega⟩
    have hkn : knownOf (lookInit (loadLib w s) ⟨((k : ℤ)).toNat, by omega⟩) = knownOf (loadLib w s) := by unfold knownOf; rw [r1, r3]
    have hs' : Sound (lookInit (loadLib w s) ⟨((k : ℤ)).toNat, by omega⟩) := ⟨by rw [r1, r2]; exact hsl.mapped, by rw [r1, r3]; exact hsl.first⟩
    have hc := call_answer hs' (by rw [r3]; exact hf) (h2.trans (by rw [r1, hl.handle hf])) (fun _ => 0) 0 fun _ => rfl
    refine ⟨_, (knownOf (loadLib w s)).answer (k + 1) 0, ?_, hs', h1, fun _ => by rw [r3]; exact hf, ?_⟩
    · show SXPX_init w s k = _
      unfold SXPX_init
      rw [dif_pos hk]
      dsimp only
      rw [hkn] at hc
      exact hc
    · show (_ :: libAnswers _ _ _ _ _ rs) = _
      rw [hkn, r4, e1, e2]
  | run k =>
    have hk : (0 : ℤ) ≤ k ∧ (k : ℤ) < 5 := by have : k < 5 := hv; omega
    obtain ⟨h1, h2⟩ := hl.lookRun hf ⟨((k : ℤ)).toNat, by omega⟩
    obtain ⟨r1, r2, r3, r4⟩ := lookRun_rest (loadLib w s) ⟨((k : ℤ)).toNat, by omega⟩
    have hkn : knownOf (lookRun (loadLib w s) ⟨((k : ℤ)).toNat, by omega⟩) = knownOf (loadLib w s) := by unfold knownOf; rw [r1, r3]
    have hs' : Sound (lookRun (loadLib w s) ⟨((k : ℤ)).toNat, by omega⟩) := ⟨by rw [r1, r2]; exact hsl.mapped, by rw [r1, r3]; exact hsl.first⟩
    have hc := call_answer hs' (by rw [r3]; exact hf) (ordinal := (k : ℤ).toNat + 6) (h2.trans (by rw [r1, hl.handle hf])) (fun p => w.answer p.ordinal) (w.answer (k + 6)) fun _ => rfl
    refine ⟨_, (knownOf (loadLib w s)).answer (k + 6) (w.answer (k + 6)), ?_, hs', h1, fun _ => by rw [r3]; exact hf, ?_⟩
    · show SXPX w s k = _
      unfold SXPX
      rw [dif_pos hk]
      dsimp only
      rw [hkn] at hc
      exact hc
    · show (_ :: libAnswers _ _ _ _ _ rs) = _
      rw [hkn, r4, e1, e2]
  | version =>
    refine ⟨loadLib w s, (knownOf (loadLib w s)).answer 20 w.version, ?_, hsl, hl, fun _ => hf, ?_⟩
    · show libVersion w s = _
      unfold libVersion knownOf
      dsimp only
      rw [if_neg (by simp [hf])]
      unfold live
      rw [hsl.mapped]
      cases (loadLib w s).handle with
      | none => rfl
      | some m =>
        dsimp only [getProc, Known.answer]
        by_cases h : m.exports 20 = true
        · simp [h]
        · simp [h]
    · show (_ :: libAnswers _ _ _ _ _ rs) = _
      rw [e1, e2]
  | unload => exact ⟨_, 0, rfl, hs.unload, h.unload, fun h => absurd rfl h, rfl⟩

/-- **C144**: if the program does not unload the library, it is answered as it should, whether the library is there or not, and no undefined pointer is
called. -/
theorem C144_no_unload (w : World) (rs : List Request) (hv : ∀ r ∈ rs, Valid r) (hu : ∀ r ∈ rs, r ≠ .unload) :
    (session w State.start (rs.map asOp)).map Prod.snd = some (libAnswers (offers w) w.answer w.version .nothing 0 rs) := by
  have key : ∀ (rs : List Request) (s : State), (∀ r ∈ rs, Valid r) → (∀ r ∈ rs, r ≠ .unload) → Sound s → Fresh (w.load 0) s →
      (s.firstTime = true → s.loads = 0) →
      (session w s (rs.map asOp)).map Prod.snd = some (libAnswers (offers w) w.answer w.version (knownOf s) s.loads rs) := by
    intro rs
    induction rs with
    | nil => intros; rfl
    | cons r rs ih =>
      intro s hv hu hs h hl
      obtain ⟨s', a, e1, e2, e3, e4, e5⟩ := step_answer hs h (fun hf => by rw [hl hf]) (hv r (by simp)) rs
      have := ih s' (fun r hr => hv r (by simp [hr])) (fun r hr => hu r (by simp [hr])) e2 e3
        (fun hf => by rw [e4 (hu r (by simp))] at hf; simp at hf)
      rw [e5]
      obtain ⟨q, hq, hq'⟩ := Option.map_eq_some_iff.1 this
      rw [List.map_cons, session, e1, Option.bind_some, hq, ← hq']
      rfl
  exact key rs State.start hv hu sound_start (fresh_start _) fun _ => rfl

/-- **C144**: the same with unloading, if every attempt to load finds the same library at the same place, or none. -/
theorem C144_same (w : World) (o : Option Mapping) (ho : ∀ n, w.load n = o) (rs : List Request) (hv : ∀ r ∈ rs, Valid r) :
    (session w State.start (rs.map asOp)).map Prod.snd = some (libAnswers (offers w) w.answer w.version .nothing 0 rs) := by
  have key : ∀ (rs : List Request) (s : State), (∀ r ∈ rs, Valid r) → Sound s → Fresh o s →
      (session w s (rs.map asOp)).map Prod.snd = some (libAnswers (offers w) w.answer w.version (knownOf s) s.loads rs) := by
    intro rs
    induction rs with
    | nil => intros; rfl
    | cons r rs ih =>
      intro s hv hs h
      obtain ⟨s', a, e1, e2, e3, e4, e5⟩ := step_answer hs h (fun _ => ho _) (hv r (by simp)) rs
      have := ih s' (fun r hr => hv r (by simp [hr])) e2 e3
      rw [e5]
      obtain ⟨q, hq, hq'⟩ := Option.map_eq_some_iff.1 this
      rw [List.map_cons, session, e1, Option.bind_some, hq, ← hq']
      rfl
  exact key rs State.start hv sound_start (fresh_start _)

/-! ### After unloading -/

/-- A library that exports everything, at the given address. -/
def fullLib (base : ℕ) : Mapping := ⟨base, fun _ => true⟩

/-- A world with the given outcomes of loading, in which all propagators return 0. -/
def worldOf (load : ℕ → Option Mapping) : World := ⟨load, fun _ => 0, 3⟩

/-- **C145** violated: `SXPX` keeps its pointers when the library is unloaded; when it comes back at another address, the old one is called. -/
theorem C145_moved_violated : ¬ ∀ (w : World) (rs : List Request), (∀ r ∈ rs, Valid r) → (session w State.start (rs.map asOp)).isSome := by
  intro h
  have := h (worldOf fun n => some (fullLib n)) [.run 0, .unload, .run 0] (by simp [Valid])
  revert this
  decide

/-- **C145** violated: when the library is gone after it was unloaded, `SXPX_init` calls the old pointer as well, before it answers -2. -/
theorem C145_gone_violated : ∃ w : World, (∀ n, 0 < n → w.load n = none) ∧
    session w State.start [.init 2, .unload, .init 2] = none := by
  refine ⟨worldOf fun n => if n = 0 then some (fullLib 0) else none, fun n hn => by simp [worldOf, hn.ne'], ?_⟩
  rfl

/-- **C145** violated, this time without a wild call: a propagator that was asked for while the library was missing is said to be missing from the library
that is found after unloading. -/
theorem C145_late_violated : ∃ w : World,
    (session w State.start [.run 1, .unload, .run 1]).map Prod.snd = some [-2, 0, -1] ∧
    libAnswers (offers w) w.answer w.version .nothing 0 [.run 1, .unload, .run 1] = [-2, 0, 0] := by
  refine ⟨worldOf fun n => if n = 0 then none else some (fullLib 0), ?_, ?_⟩ <;> rfl

/-- **C145** violated: -1 and -2 are also answers of the propagators (`norad.h` 85-86), so that they do not tell a missing function or library from a
parabolic orbit. -/
theorem C145_ambiguous_violated : ∃ w w' : World, w.load 0 = some (fullLib 0) ∧ (w'.load 0).map (fun m => m.exports 6) = some false ∧
    (session w State.start [.run 0]).map Prod.snd = (session w' State.start [.run 0]).map Prod.snd :=
  ⟨⟨fun _ => some (fullLib 0), fun _ => -1, 3⟩, ⟨fun _ => some ⟨0, fun _ => false⟩, fun _ => 0, 3⟩, rfl, rfl, rfl⟩

/-- The pointers of `SXPX_init` that are marked as looked up are those of the library that is in memory. -/
structure Renewed (s : State) : Prop where
  init : ∀ k, s.initDone k = true → s.initFunc k = s.handle.bind fun m => getProc m (k + 1)
  first : s.firstTime = true → ∀ k, s.initDone k = false
  there : s.firstTime = false → s.handle.isSome

theorem Renewed.load {w : World} {s : State} (h : Renewed s) (hw : ∀ n, (w.load n).isSome) : Renewed (loadLib w s) := by
  unfold loadLib
  split
  · exact ⟨fun k hk => by rw [h.first ‹_› k] at hk; simp at hk, fun h => by simp at h, fun _ => hw _⟩
  · exact h

theorem Renewed.look {s : State} (h : Renewed s) (hf : s.firstTime = false) (k : Fin 5) :
    Renewed (lookInit s k) ∧ (lookInit s k).initFunc k = s.handle.bind fun m => getProc m (k + 1) := by
  unfold lookInit
  by_cases hd : s.initDone k = true
  · rw [if_pos hd]
    exact ⟨h, h.init k hd⟩
  · rw [if_neg hd]
    obtain ⟨m, hm⟩ := Option.isSome_iff_exists.1 (h.there hf)
    refine ⟨⟨fun j hj => ?_, fun h' => by rw [hf] at h'; simp at h', h.there⟩, by simp [hm, store]⟩
    dsimp only at hj ⊢
    rw [hm]
    dsimp only [store]
    by_cases e : j = k
    · rw [e, Function.update_self]
      rfl
    · rw [Function.update_of_ne e] at hj ⊢
      rw [h.init j hj, hm]

/-- **C145**, the part that holds: if the library can be loaded whenever it is looked for, wherever it is put and whatever it then exports, then
`SXPX_init` and the version are answered as they should be, with any unloading in between.  Missing: `SXPX`, and a library that disappears. -/
theorem C145_init_partial (w : World) (hw : ∀ n, (w.load n).isSome) (rs : List Request) (hv : ∀ r ∈ rs, Valid r) (hr : ∀ r ∈ rs, ∀ k, r ≠ .run k) :
    (session w State.start (rs.map asOp)).map Prod.snd = some (libAnswers (offers w) w.answer w.version .nothing 0 rs) := by
  have key : ∀ (rs : List Request) (s : State), (∀ r ∈ rs, Valid r) → (∀ r ∈ rs, ∀ k, r ≠ .run k) → Sound s → Renewed s →
      (session w s (rs.map asOp)).map Prod.snd = some (libAnswers (offers w) w.answer w.version (knownOf s) s.loads rs) := by
    intro rs
    induction rs with
    | nil => intros; rfl
    | cons r rs ih =>
      intro s hv hr hs h
      have fin : ∀ s' a, step w s (asOp r) = some (s', a) → Sound s' → Renewed s' →
          libAnswers (offers w) w.answer w.version (knownOf s) s.loads (r :: rs) = a :: libAnswers (offers w) w.answer w.version (knownOf s') s'.loads rs →
          (session w s ((r :: rs).map asOp)).map Prod.snd = some (libAnswers (offers w) w.answer w.version (knownOf s) s.loads (r :: rs)) := by
        intro s' a e1 e2 e3 e5
        have := ih s' (fun r hr => hv r (by simp [hr])) (fun r h => hr r (by simp [h])) e2 e3
        rw [e5]
        obtain ⟨q, hq, hq'⟩ := Option.map_eq_some_iff.1 this
        rw [List.map_cons, session, e1, Option.bind_some, hq, ← hq']
        rfl
      have hl := h.load hw
      have hsl := hs.load w
      have hf := load_first w s
      obtain ⟨e1, e2⟩ := known_load w s
      cases r with
      | run k => exact absurd rfl (hr _ (by simp) k)
      | unload => exact fin _ 0 rfl hs.unload ⟨fun _ h => by simp [Dyn.unload] at h, fun _ _ => rfl, fun h => by simp [Dyn.unload, unloadLib] at h⟩ rfl
      | init k =>
        have hk : (0 : ℤ) ≤ k ∧ (k : ℤ) < 5 := by have : k < 5 := hv (.init k) (by simp); omega
        obtain ⟨h1, h2⟩ := hl.look hf ⟨((k : ℤ)).toNat, by omega⟩
        obtain ⟨r1, r2, r3, r4⟩ := lookInit_rest (loadLib w s) ⟨((k : ℤ)).toNat, by omega⟩
        have hkn : knownOf (lookInit (loadLib w s) ⟨((k : ℤ)).toNat, by omega⟩) = knownOf (loadLib w s) := by unfold knownOf; rw [r1, r3]
        have hs' : Sound (lookInit (loadLib w s) ⟨((k : ℤ)).toNat, by omega⟩) := ⟨by rw [r1, r2]; exact hsl.mapped, by rw [r1, r3]; exact hsl.first⟩
        have hc := call_answer hs' (by rw [r3]; exact hf) (ordinal := (k : ℤ).toNat + 1) (h2.trans (by rw [r1])) (fun _ => 0) 0 fun _ => rfl
        refine fin _ ((knownOf (loadLib w s)).answer (k + 1) 0) ?_ hs' h1 ?_
        · show SXPX_init w s k = _
          unfold SXPX_init
          rw [dif_pos hk]
          dsimp only
          rw [hkn] at hc
          exact hc
        · show (_ :: libAnswers _ _ _ _ _ rs) = _
          rw [hkn, r4, e1, e2]
      | version =>
        refine fin (loadLib w s) ((knownOf (loadLib w s)).answer 20 w.version) ?_ hsl hl ?_
        · show libVersion w s = _
          unfold libVersion knownOf
          dsimp only
          rw [if_neg (by simp [hf])]
          unfold live
          rw [hsl.mapped]
          cases (loadLib w s).handle with
          | none => rfl
          | some m =>
            dsimp only [getProc, Known.answer]
            by_cases h : m.exports 20 = true
            · simp [h]
            · simp [h]
        · show (_ :: libAnswers _ _ _ _ _ rs) = _
          rw [e1, e2]
  exact key rs State.start hv hr sound_start ⟨fun _ h => by simp [State.start] at h, fun _ _ => rfl, fun h => by simp [State.start] at h⟩

/-- **C144**: the restriction to the five propagators is needed: the index is not checked. -/
theorem C144_index_excluded (w : World) (s : State) {num : ℤ} (h : num < 0 ∨ 5 ≤ num) : SXPX w s num = none ∧ SXPX_init w s num = none := by
  unfold SXPX SXPX_init
  rw [dif_neg (by omega), dif_neg (by omega)]
  exact ⟨rfl, rfl⟩

/-- A session with a library that lacks the initialisation of the last propagator: the answers of the model and of the specification. -/
example : (session (worldOf fun _ => some ⟨7, fun n => n != 5⟩) State.start [.init 0, .run 0, .init 4, .version, .unload, .run 3]).map Prod.snd =
    some [0, 0, -1, 3, 0, 0] := rfl

example : libAnswers (fun _ => some fun n => n != 5) (fun _ => 0) 3 .nothing 0 [.init 0, .run 0, .init 4, .version, .unload, .run 3] = [0, 0, -1, 3, 0, 0] := rfl

/-- No library at all. -/
example : (session (worldOf fun _ => none) State.start [.init 0, .run 0, .version]).map Prod.snd = some [-2, -2, -2] := rfl

end SatSky.Props
