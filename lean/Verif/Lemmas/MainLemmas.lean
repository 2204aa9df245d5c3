import Verif.Model.Main
import Verif.Spec.Invocation

/-! Case analysis of runs of the whole program. -/

namespace SatSky.Prog

open SatSky Spec Dates GetEl Opts Sky

theorem steps_mono {L : Lib} {argv : List CString} (m k : Nat) (u : St) (r : Next)
    (hr : ∀ s, r ≠ .run s) (h : steps L argv m u = r) : steps L argv (m + k) u = r := by
  induction m generalizing u with
  | zero => exact absurd h.symm (hr u)
  | succ m ih =>
    rw [show m + 1 + k = (m + k) + 1 by omega]
    simp only [steps] at h ⊢
    cases hst : step L argv u with
    | run v => rw [hst] at h; exact ih v h
    | done p => rw [hst] at h; exact h
    | stop e => rw [hst] at h; exact h
    | ub => rw [hst] at h; exact h

theorem conclude_some {W : World} {argv : List CString} {r : Next} {o : Outcome} (h : conclude W argv r = some o) :
    ∀ s, r ≠ .run s := by
  rintro s rfl
  simp [conclude] at h

theorem steps_det {L : Lib} {argv : List CString} {m n : Nat} {u : St} {r r' : Next}
    (hr : ∀ s, r ≠ .run s) (hr' : ∀ s, r' ≠ .run s) (h : steps L argv m u = r) (h' : steps L argv n u = r') : r = r' := by
  rw [← steps_mono m n u r hr h, ← steps_mono n m u r' hr' h', Nat.add_comm]

/-- The program is deterministic. -/
theorem Runs_det {W : World} {argv : List CString} {o o' : Outcome} (h : Runs W argv o) (h' : Runs W argv o') : o = o' := by
  unfold Runs at h h'
  split at h
  · rw [if_pos ‹_›] at h'; rw [h, h']
  · rw [if_neg ‹_›] at h'
    obtain ⟨m, h⟩ := h
    obtain ⟨n, h'⟩ := h'
    have := steps_det (conclude_some h) (conclude_some h') rfl rfl
    rw [this, h'] at h
    simpa using h.symm

/-- The ways a run can end with output. -/
theorem Runs_exit {W : World} {argv : List CString} {code : ℤ} {out : CString} (h : Runs W argv (.exit code out)) :
    (argv.length < 2 ∧ code = 0 ∧ out = openJson ++ closeJson argv false 1 msgUsage 0 0 0) ∨
    (∃ n msg, 2 ≤ argv.length ∧ steps W.L argv n init = .stop (.error code msg) ∧ out = openJson ++ closeJson argv false code msg 0 0 0) ∨
    (∃ p p', 2 ≤ argv.length ∧ Parses W.L argv p ∧ afterLoop p = .ok p' ∧ compute W argv p' = .exit code out) := by
  unfold Runs at h
  split at h
  · rename_i hl
    simp only [noArgs, Outcome.exit.injEq] at h
    exact Or.inl ⟨hl, h.1, h.2⟩
  · rename_i hl
    obtain ⟨n, h⟩ := h
    cases hs : steps W.L argv n init with
    | run s => rw [hs] at h; simp [conclude] at h
    | ub => rw [hs] at h; simp [conclude] at h
    | stop e =>
      rw [hs] at h
      cases e with
      | usage => simp [conclude] at h
      | error st msg =>
        simp only [conclude, Option.some.injEq, Outcome.exit.injEq] at h
        right; left
        refine ⟨n, msg, by omega, ?_, ?_⟩
        · rw [hs, h.1]
        · rw [← h.2, h.1]
    | done p =>
      rw [hs] at h
      right; right
      have hp : ∀ st msg, afterLoop p ≠ .stop (.error st msg) := by
        intro st msg hc
        unfold afterLoop at hc
        generalize (if p.defDir then { p with tlePath := b!"/usr/local/TLErepo" } else p) = p1 at hc
        simp only [] at hc
        split at hc <;> simp at hc
      cases ha : afterLoop p with
      | ok p' =>
        simp only [conclude, ha, Option.some.injEq] at h
        exact ⟨p, p', by omega, ⟨n, hs⟩, ha, h⟩
      | stop e =>
        cases e with
        | usage => simp [conclude, ha] at h
        | error st msg => exact absurd ha (hp st msg)
      | ub => simp [conclude, ha] at h

/-- The reading loop behind an outcome of `scanFiles`. -/
theorem scanFiles_exit {W : World} {p : Params} {argv : List CString} {il : Bool} {name : CString}
    {paths : List CString} {code : ℤ} {out : CString} (h : scanFiles W p argv il name paths = .exit code out) :
    (∃ s, (filesLoop p (W.E p) (start W.junk) (paths.map (fun f => (f, W.file f))) = .next s ∨
        filesLoop p (W.E p) (start W.junk) (paths.map (fun f => (f, W.file f))) = .stop s) ∧ code = 0 ∧
        out = openJson ++ preamble W p name ++ s.out ++ ending p argv il s) ∨
    (∃ st msg s, filesLoop p (W.E p) (start W.junk) (paths.map (fun f => (f, W.file f))) = .exit st code msg s ∧
        out = openJson ++ preamble W p name ++ s.out ++ closeJson argv il st msg s.nFound 0 s.nSunlit) := by
  unfold scanFiles at h
  simp only [] at h
  generalize filesLoop p (W.E p) (start W.junk) (paths.map (fun f => (f, W.file f))) = f at h ⊢
  cases f with
  | next s =>
    simp only [Outcome.exit.injEq] at h
    exact Or.inl ⟨s, Or.inl rfl, h.1.symm, h.2.symm⟩
  | stop s =>
    simp only [Outcome.exit.injEq] at h
    exact Or.inl ⟨s, Or.inr rfl, h.1.symm, h.2.symm⟩
  | exit st c msg s =>
    simp only [Outcome.exit.injEq] at h
    obtain ⟨rfl, rfl⟩ := h
    exact Or.inr ⟨st, msg, s, rfl, rfl⟩
  | ub => simp at h

theorem compute_exit {W : World} {argv : List CString} {p : Params} {code : ℤ} {out : CString}
    (h : compute W argv p = .exit code out) :
    (∃ name, argv.getD (fileIndex argv) [] = 64 :: name ∧ W.file (inDir p.tlePath name) = none ∧ code = 2 ∧
      out = openJson ++ closeJson (argv.set (fileIndex argv) name) true 2 (b!"Could not open input file " ++ inDir p.tlePath name) 0 0 0) ∨
    (∃ name content, argv.getD (fileIndex argv) [] = 64 :: name ∧ W.file (inDir p.tlePath name) = some content ∧
      scanFiles W p (argv.set (fileIndex argv) name) true name (listPaths p.tlePath content) = .exit code out) ∨
    (∃ path, (argv.getD (fileIndex argv) []).head? ≠ some 64 ∧ singlePath p.tlePath (argv.getD (fileIndex argv) []) = some path ∧
      scanFiles W p argv false (argv.getD (fileIndex argv) []) [path] = .exit code out) := by
  unfold compute at h
  simp only [] at h
  generalize argv.getD (fileIndex argv) [] = a at h ⊢
  split at h
  · rename_i h64
    match a, h64 with
    | [], h64 => simp at h64
    | c :: name, h64 =>
      simp only [List.head?_cons, Option.some.injEq] at h64
      subst h64
      simp only [List.drop_succ_cons, List.drop_zero] at h
      have hin : inDir p.tlePath name = p.tlePath ++ 47 :: name := by simp [inDir]
      split at h
      · cases hf : W.file (p.tlePath ++ 47 :: name) with
        | none =>
          rw [hf] at h
          simp only [] at h
          split at h
          · simp only [Outcome.exit.injEq] at h
            exact Or.inl ⟨name, rfl, by rw [hin]; exact hf, h.1.symm, by rw [hin]; exact h.2.symm⟩
          · simp at h
        | some content =>
          rw [hf] at h
          exact Or.inr (Or.inl ⟨name, content, rfl, by rw [hin]; exact hf, h⟩)
      · simp at h
  · rename_i h64
    cases hp : singlePath p.tlePath a with
    | none => rw [hp] at h; simp at h
    | some path => rw [hp] at h; exact Or.inr (Or.inr ⟨path, h64, rfl, h⟩)

/-- Every output ends with `closeJson`; what is known about its arguments. -/
theorem Runs_close {W : World} {argv : List CString} {code : ℤ} {out : CString} (h : Runs W argv (.exit code out)) :
    ∃ pre argv' il st msg a b c, out = pre ++ closeJson argv' il st msg a b c ∧
      ((argv' = argv ∧ il = false) ∨
        ∃ name, 2 ≤ argv.length ∧ argv.getD (fileIndex argv) [] = 64 :: name ∧ argv' = argv.set (fileIndex argv) name ∧ il = true) := by
  rcases Runs_exit h with ⟨-, -, h⟩ | ⟨n, msg, -, -, h⟩ | ⟨p, p', hlen, -, -, h⟩
  · exact ⟨_, _, _, _, _, _, _, _, h, Or.inl ⟨rfl, rfl⟩⟩
  · exact ⟨_, _, _, _, _, _, _, _, h, Or.inl ⟨rfl, rfl⟩⟩
  · rcases compute_exit h with ⟨name, ha, -, -, h⟩ | ⟨name, content, ha, -, h⟩ | ⟨path, -, -, h⟩
    · exact ⟨_, _, _, _, _, _, _, _, h, Or.inr ⟨name, hlen, ha, rfl, rfl⟩⟩
    · rcases scanFiles_exit h with ⟨s, -, -, h⟩ | ⟨st, msg, s, -, h⟩
      · exact ⟨openJson ++ preamble W p' name ++ s.out ++ (if !p'.infoOnly && decide (s.nFound > 0) then b!"]," else []), _, _, _, _, _, _, _,
          by rw [h, ending, ← List.append_assoc], Or.inr ⟨name, hlen, ha, rfl, rfl⟩⟩
      · exact ⟨_, _, _, _, _, _, _, _, h, Or.inr ⟨name, hlen, ha, rfl, rfl⟩⟩
    · rcases scanFiles_exit h with ⟨s, -, -, h⟩ | ⟨st, msg, s, -, h⟩
      · exact ⟨openJson ++ preamble W p' (argv.getD (fileIndex argv) []) ++ s.out ++ (if !p'.infoOnly && decide (s.nFound > 0) then b!"]," else []), _, _, _, _, _, _, _,
          by rw [h, ending, ← List.append_assoc], Or.inl ⟨rfl, rfl⟩⟩
      · exact ⟨_, _, _, _, _, _, _, _, h, Or.inl ⟨rfl, rfl⟩⟩

theorem commandLine_cons (w : CString) (ws : List CString) :
    commandLine (w :: ws) = w ++ ws.flatMap (fun a => 32 :: a) := by
  unfold commandLine
  induction ws generalizing w with
  | nil => simp [List.intercalate]
  | cons x ws ih =>
    rw [List.intercalate_cons_cons, ih]
    simp

end SatSky.Prog
