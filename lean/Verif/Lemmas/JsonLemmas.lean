import Verif.Spec.Json

/-!
Two recognisers for JSON: a push-down machine on tokens, sound for the grammar (used to prove that an
output is JSON), and a scanner that every JSON text passes (used to prove that an output is not).
-/

namespace SatSky.Json

open SatSky Spec.Json

/-! ### The machine on tokens -/

inductive Tok where
  | ch (c : Int)
  | str (s : CString)
  | num (t : CString)

/-- Texts of the tokens. -/
def Tok.text : Tok → CString
  | .ch c => [c]
  | .str s => 34 :: s ++ [34]
  | .num t => t

def text (ts : List Tok) : CString := ts.flatMap Tok.text

/-- Strings without special characters; numbers, possibly with blanks before them. -/
def Tok.Good : Tok → Prop
  | .ch _ => True
  | .str s => Chars s
  | .num t => ∃ a n, t = a ++ n ∧ Ws a ∧ Number n

inductive Mode where
  | val
  | val0
  | key
  | key0
  | colon
  | after
deriving DecidableEq

/-- Where the machine is, and the open brackets (`true`: an object). -/
structure Cfg where
  mode : Mode
  st : List Bool
deriving DecidableEq

def isWs (c : Int) : Bool := c == 32 || c == 10 || c == 13 || c == 9

theorem isWs_ws {c : Int} (h : isWs c = true) : c = 32 ∨ c = 10 ∨ c = 13 ∨ c = 9 := by
  unfold isWs at h
  simpa [or_assoc] using h

def stepCh (c : Int) (g : Cfg) : Option Cfg :=
  if isWs c then some g
  else
    match g.mode, g.st with
    | .val, st => if c = 123 then some ⟨.key0, true :: st⟩ else if c = 91 then some ⟨.val0, false :: st⟩ else none
    | .val0, false :: st =>
      if c = 93 then some ⟨.after, st⟩
      else if c = 123 then some ⟨.key0, true :: false :: st⟩ else if c = 91 then some ⟨.val0, false :: false :: st⟩ else none
    | .key0, true :: st => if c = 125 then some ⟨.after, st⟩ else none
    | .colon, st => if c = 58 then some ⟨.val, st⟩ else none
    | .after, true :: st => if c = 125 then some ⟨.after, st⟩ else if c = 44 then some ⟨.key, true :: st⟩ else none
    | .after, false :: st => if c = 93 then some ⟨.after, st⟩ else if c = 44 then some ⟨.val, false :: st⟩ else none
    | _, _ => none

def stepTok : Tok → Cfg → Option Cfg
  | .ch c, g => stepCh c g
  | .str _, g =>
    match g.mode with
    | .val => some ⟨.after, g.st⟩
    | .val0 => some ⟨.after, g.st⟩
    | .key => some ⟨.colon, g.st⟩
    | .key0 => some ⟨.colon, g.st⟩
    | _ => none
  | .num _, g =>
    match g.mode with
    | .val => some ⟨.after, g.st⟩
    | .val0 => some ⟨.after, g.st⟩
    | _ => none

def run : List Tok → Cfg → Option Cfg
  | [], g => some g
  | t :: ts, g => (stepTok t g).bind (run ts)

theorem run_append (a b : List Tok) (g : Cfg) : run (a ++ b) g = (run a g).bind (run b) := by
  induction a generalizing g with
  | nil => rfl
  | cons t a ih =>
    simp only [List.cons_append, run]
    cases stepTok t g with
    | none => rfl
    | some g' => exact ih g'

theorem text_append (a b : List Tok) : text (a ++ b) = text a ++ text b := by simp [text]

theorem Ws.append {a b : CString} (ha : Ws a) (hb : Ws b) : Ws (a ++ b) := by
  intro c hc
  rcases List.mem_append.mp hc with h | h
  · exact ha c h
  · exact hb c h

theorem Ws.cons {c : Int} {a : CString} (h : isWs c = true) (ha : Ws a) : Ws (c :: a) := by
  intro x hx
  rcases List.mem_cons.mp hx with rfl | hx
  · exact isWs_ws h
  · exact ha x hx

theorem Ws.nil : Ws [] := by intro c hc; simp at hc

/-- White space before a value. -/
def PV (x : CString) : Prop := ∃ a v, x = a ++ v ∧ Ws a ∧ G .value v

def TailE (x : CString) : Prop := Ws x ∨ ∃ a e, x = a ++ 44 :: e ∧ Ws a ∧ G .elements e

def TailM (x : CString) : Prop := Ws x ∨ ∃ a e, x = a ++ 44 :: e ∧ Ws a ∧ G .members e

/-- A member without the white space after it. -/
def PM (x : CString) : Prop := ∃ a k b c v, x = a ++ 34 :: k ++ 34 :: b ++ 58 :: c ++ v ∧ Ws a ∧ Chars k ∧ Ws b ∧ Ws c ∧ G .value v

/-- From the colon of a member on. -/
def PC (x : CString) : Prop := ∃ b c v, x = b ++ 58 :: c ++ v ∧ Ws b ∧ Ws c ∧ G .value v

theorem PV.ws {c : Int} {x : CString} (h : isWs c = true) : PV x → PV (c :: x) := by
  rintro ⟨a, v, rfl, ha, hv⟩
  exact ⟨c :: a, v, rfl, Ws.cons h ha, hv⟩

theorem PM.ws {c : Int} {x : CString} (h : isWs c = true) : PM x → PM (c :: x) := by
  rintro ⟨a, k, b, d, v, rfl, ha, hk, hb, hd, hv⟩
  exact ⟨c :: a, k, b, d, v, by simp, Ws.cons h ha, hk, hb, hd, hv⟩

theorem PC.ws {c : Int} {x : CString} (h : isWs c = true) : PC x → PC (c :: x) := by
  rintro ⟨b, d, v, rfl, hb, hd, hv⟩
  exact ⟨c :: b, d, v, by simp, Ws.cons h hb, hd, hv⟩

theorem TailE.ws {c : Int} {x : CString} (h : isWs c = true) : TailE x → TailE (c :: x) := by
  rintro (hx | ⟨a, e, rfl, ha, he⟩)
  · exact Or.inl (Ws.cons h hx)
  · exact Or.inr ⟨c :: a, e, rfl, Ws.cons h ha, he⟩

theorem TailM.ws {c : Int} {x : CString} (h : isWs c = true) : TailM x → TailM (c :: x) := by
  rintro (hx | ⟨a, e, rfl, ha, he⟩)
  · exact Or.inl (Ws.cons h hx)
  · exact Or.inr ⟨c :: a, e, rfl, Ws.cons h ha, he⟩

theorem elems_of {x y : CString} (hx : PV x) (hy : TailE y) : G .elements (x ++ y) := by
  obtain ⟨a, v, rfl, ha, hv⟩ := hx
  rcases hy with hy | ⟨b, e, rfl, hb, he⟩
  · exact G.element a v y ha hv hy
  · have := G.moreElements a v b e ha hv hb he
    simpa using this

theorem members_of {x y : CString} (hx : PM x) (hy : TailM y) : G .members (x ++ y) := by
  obtain ⟨a, k, b, c, v, rfl, ha, hk, hb, hc, hv⟩ := hx
  rcases hy with hy | ⟨d, e, rfl, hd, he⟩
  · have := G.member a k b c v y ha hk hb hc hv hy
    simpa using this
  · have := G.moreMembers a k b c v d e ha hk hb hc hv hd he
    simpa using this

def done : Cfg := ⟨.after, []⟩

/-- What accepted token lists look like, from each kind of configuration. -/
theorem sound (n : Nat) : ∀ ts : List Tok, ts.length ≤ n → (∀ t ∈ ts, t.Good) → ∀ st : List Bool,
    (run ts ⟨.val, st⟩ = some done → ∃ u w, ts = u ++ w ∧ PV (text u) ∧ run w ⟨.after, st⟩ = some done) ∧
    (run ts ⟨.after, false :: st⟩ = some done → ∃ u w, ts = u ++ .ch 93 :: w ∧ TailE (text u) ∧ run w ⟨.after, st⟩ = some done) ∧
    (run ts ⟨.after, true :: st⟩ = some done → ∃ u w, ts = u ++ .ch 125 :: w ∧ TailM (text u) ∧ run w ⟨.after, st⟩ = some done) ∧
    (run ts ⟨.val0, false :: st⟩ = some done → ∃ u w, ts = u ++ .ch 93 :: w ∧ (Ws (text u) ∨ G .elements (text u)) ∧ run w ⟨.after, st⟩ = some done) ∧
    (run ts ⟨.key, true :: st⟩ = some done → ∃ u w, ts = u ++ w ∧ PM (text u) ∧ run w ⟨.after, true :: st⟩ = some done) ∧
    (run ts ⟨.key0, true :: st⟩ = some done → ∃ u w, ts = u ++ .ch 125 :: w ∧ (Ws (text u) ∨ G .members (text u)) ∧ run w ⟨.after, st⟩ = some done) ∧
    (run ts ⟨.colon, st⟩ = some done → ∃ u w, ts = u ++ w ∧ PC (text u) ∧ run w ⟨.after, st⟩ = some done) := by
  induction n with
  | zero =>
    intro ts hts _ st
    have : ts = [] := by simpa using hts
    subst this
    simp [run, done]
  | succ n ih =>
    intro ts hts hg st
    cases ts with
    | nil => simp [run, done]
    | cons t ts =>
      have hl : ts.length ≤ n := by simpa using hts
      have hg' : ∀ x ∈ ts, x.Good := fun x hx => hg x (by simp [hx])
      have hgt := hg t (by simp)
      have ih' := ih ts hl hg'
      have split_ih := fun (u w : List Tok) (h : ts = u ++ w) => ih w
        (by have := congrArg List.length h; simp at this; omega) (fun x hx => hg' x (by rw [h]; simp [hx]))
      -- opening brackets lead to a value followed by the rest
      have harr : ∀ st', run ts ⟨.val0, false :: st'⟩ = some done →
          ∃ u w, Tok.ch 91 :: ts = u ++ w ∧ PV (text u) ∧ run w ⟨.after, st'⟩ = some done := by
        intro st' h
        obtain ⟨u, w, hu, hx, hw⟩ := (ih' st').2.2.2.1 h
        refine ⟨.ch 91 :: u ++ [.ch 93], w, by rw [hu]; simp, ⟨[], 91 :: text u ++ [93], by simp [text, Tok.text], Ws.nil, ?_⟩, hw⟩
        rcases hx with hx | hx
        · exact G.emptyArray _ hx
        · exact G.array _ hx
      have hobj : ∀ st', run ts ⟨.key0, true :: st'⟩ = some done →
          ∃ u w, Tok.ch 123 :: ts = u ++ w ∧ PV (text u) ∧ run w ⟨.after, st'⟩ = some done := by
        intro st' h
        obtain ⟨u, w, hu, hx, hw⟩ := (ih' st').2.2.2.2.2.1 h
        refine ⟨.ch 123 :: u ++ [.ch 125], w, by rw [hu]; simp, ⟨[], 123 :: text u ++ [125], by simp [text, Tok.text], Ws.nil, ?_⟩, hw⟩
        rcases hx with hx | hx
        · exact G.emptyObject _ hx
        · exact G.object _ hx
      -- a value in val mode
      have hval : ∀ st', run (t :: ts) ⟨.val, st'⟩ = some done →
          ∃ u w, t :: ts = u ++ w ∧ PV (text u) ∧ run w ⟨.after, st'⟩ = some done := by
        intro st' h
        cases t with
        | str s =>
          simp only [run, stepTok, Option.bind_some] at h
          exact ⟨[.str s], ts, rfl, ⟨[], _, by simp [text, Tok.text], Ws.nil, G.str s hgt⟩, h⟩
        | num x =>
          simp only [run, stepTok, Option.bind_some] at h
          obtain ⟨a, m, hx, ha, hm⟩ := hgt
          exact ⟨[.num x], ts, rfl, ⟨a, m, by simp [text, Tok.text, hx], ha, G.num m hm⟩, h⟩
        | ch c =>
          simp only [run, stepTok, stepCh] at h
          by_cases hc : isWs c = true
          · rw [if_pos hc] at h
            obtain ⟨u, w, hu, hx, hw⟩ := (ih' st').1 h
            exact ⟨.ch c :: u, w, by rw [hu]; rfl, hx.ws hc, hw⟩
          · rw [if_neg hc] at h
            by_cases h1 : c = 123
            · rw [if_pos h1] at h; subst h1; exact hobj st' h
            · rw [if_neg h1] at h
              by_cases h2 : c = 91
              · rw [if_pos h2] at h; subst h2; exact harr st' h
              · rw [if_neg h2] at h; simp at h
      -- a key
      have hkey : ∀ s st', t = .str s → run ts ⟨.colon, true :: st'⟩ = some done →
          ∃ u w, t :: ts = u ++ w ∧ PM (text u) ∧ run w ⟨.after, true :: st'⟩ = some done := by
        rintro s st' rfl h
        obtain ⟨u, w, hu, ⟨b, c, v, hx, hb, hc, hv⟩, hw⟩ := (ih' (true :: st')).2.2.2.2.2.2 h
        refine ⟨.str s :: u, w, by rw [hu]; rfl, ⟨[], s, b, c, v, ?_, Ws.nil, hgt, hb, hc, hv⟩, hw⟩
        change 34 :: s ++ [34] ++ text u = _
        rw [hx]
        simp
      refine ⟨hval st, ?_, ?_, ?_, ?_, ?_, ?_⟩
      · -- after, in an array
        intro h
        cases t with
        | str s => simp [run, stepTok] at h
        | num x => simp [run, stepTok] at h
        | ch c =>
          simp only [run, stepTok, stepCh] at h
          by_cases hc : isWs c = true
          · rw [if_pos hc] at h
            obtain ⟨u, w, hu, hx, hw⟩ := (ih' st).2.1 h
            exact ⟨.ch c :: u, w, by rw [hu]; rfl, hx.ws hc, hw⟩
          · rw [if_neg hc] at h
            by_cases h1 : c = 93
            · rw [if_pos h1] at h
              subst h1
              exact ⟨[], ts, rfl, Or.inl Ws.nil, h⟩
            · rw [if_neg h1] at h
              by_cases h2 : c = 44
              · rw [if_pos h2] at h
                subst h2
                obtain ⟨u, w, hu, hx, hw⟩ := (ih' (false :: st)).1 h
                obtain ⟨u', w', hu', hx', hw'⟩ := (split_ih u w hu st).2.1 hw
                refine ⟨.ch 44 :: (u ++ u'), w', by rw [hu, hu']; simp, ?_, hw'⟩
                refine Or.inr ⟨[], text u ++ text u', by simp [text, Tok.text], Ws.nil, elems_of hx hx'⟩
              · rw [if_neg h2] at h; simp at h
      · -- after, in an object
        intro h
        cases t with
        | str s => simp [run, stepTok] at h
        | num x => simp [run, stepTok] at h
        | ch c =>
          simp only [run, stepTok, stepCh] at h
          by_cases hc : isWs c = true
          · rw [if_pos hc] at h
            obtain ⟨u, w, hu, hx, hw⟩ := (ih' st).2.2.1 h
            exact ⟨.ch c :: u, w, by rw [hu]; rfl, hx.ws hc, hw⟩
          · rw [if_neg hc] at h
            by_cases h1 : c = 125
            · rw [if_pos h1] at h
              subst h1
              exact ⟨[], ts, rfl, Or.inl Ws.nil, h⟩
            · rw [if_neg h1] at h
              by_cases h2 : c = 44
              · rw [if_pos h2] at h
                subst h2
                obtain ⟨u, w, hu, hx, hw⟩ := (ih' st).2.2.2.2.1 h
                obtain ⟨u', w', hu', hx', hw'⟩ := (split_ih u w hu st).2.2.1 hw
                refine ⟨.ch 44 :: (u ++ u'), w', by rw [hu, hu']; simp, ?_, hw'⟩
                refine Or.inr ⟨[], text u ++ text u', by simp [text, Tok.text], Ws.nil, members_of hx hx'⟩
              · rw [if_neg h2] at h; simp at h
      · -- val0
        intro h
        have first : (∃ u w, t :: ts = u ++ w ∧ PV (text u) ∧ run w ⟨.after, false :: st⟩ = some done) →
            ∃ u w, t :: ts = u ++ .ch 93 :: w ∧ (Ws (text u) ∨ G .elements (text u)) ∧ run w ⟨.after, st⟩ = some done := by
          rintro ⟨u, w, hu, hx, hw⟩
          cases u with
          | nil =>
            obtain ⟨a, v, hav, -, hv⟩ := hx
            exfalso
            have : v = [] := by
              simp only [text, List.flatMap_nil] at hav
              have := congrArg List.length hav
              simp at this
              exact List.length_eq_zero_iff.mp (by omega)
            subst this
            generalize hk : Kind.value = k at hv
            generalize he : ([] : CString) = e at hv
            cases hv with
            | num t ht =>
              subst he
              obtain ⟨sg, ip, fp, ep, h0, -, h1, -⟩ := ht
              have := congrArg List.length h0
              rcases h1 with rfl | ⟨d, ds, rfl, -⟩ <;> simp at this
            | str => simp at he
            | «true» => simp at he
            | «false» => simp at he
            | null => simp at he
            | emptyArray => simp at he
            | array => simp at he
            | emptyObject => simp at he
            | object => simp at he
            | element => cases hk
            | moreElements => cases hk
            | member => cases hk
            | moreMembers => cases hk
          | cons t' u =>
            simp only [List.cons_append, List.cons.injEq] at hu
            obtain ⟨rfl, hu⟩ := hu
            obtain ⟨u', w', hu', hx', hw'⟩ := (split_ih u w hu st).2.1 hw
            refine ⟨t :: u ++ u', w', by rw [hu, hu']; simp, Or.inr ?_, hw'⟩
            rw [text_append]
            exact elems_of hx hx'
        cases t with
        | str s =>
          simp only [run, stepTok, Option.bind_some] at h
          exact first ⟨[.str s], ts, rfl, ⟨[], _, by simp [text, Tok.text], Ws.nil, G.str s hgt⟩, h⟩
        | num x =>
          simp only [run, stepTok, Option.bind_some] at h
          obtain ⟨a, m, hx, ha, hm⟩ := hgt
          exact first ⟨[.num x], ts, rfl, ⟨a, m, by simp [text, Tok.text, hx], ha, G.num m hm⟩, h⟩
        | ch c =>
          simp only [run, stepTok, stepCh] at h
          by_cases hc : isWs c = true
          · rw [if_pos hc] at h
            obtain ⟨u, w, hu, hx, hw⟩ := (ih' st).2.2.2.1 h
            refine ⟨.ch c :: u, w, by rw [hu]; rfl, ?_, hw⟩
            rcases hx with hx | hx
            · exact Or.inl (Ws.cons hc hx)
            · right
              change G .elements (c :: text u)
              generalize hk : Kind.elements = k at hx
              generalize text u = e at hx
              cases hx with
              | element a v b ha hv hb => exact G.element (c :: a) v b (Ws.cons hc ha) hv hb
              | moreElements a v b e ha hv hb he => exact G.moreElements (c :: a) v b e (Ws.cons hc ha) hv hb he
              | _ => cases hk
          · rw [if_neg hc] at h
            by_cases h1 : c = 93
            · rw [if_pos h1] at h
              subst h1
              exact ⟨[], ts, rfl, Or.inl Ws.nil, h⟩
            · rw [if_neg h1] at h
              by_cases h2 : c = 123
              · rw [if_pos h2] at h; subst h2; exact first (hobj (false :: st) h)
              · rw [if_neg h2] at h
                by_cases h3 : c = 91
                · rw [if_pos h3] at h; subst h3; exact first (harr (false :: st) h)
                · rw [if_neg h3] at h; simp at h
      · -- key
        intro h
        cases t with
        | str s =>
          simp only [run, stepTok, Option.bind_some] at h
          exact hkey s st rfl h
        | num x => simp [run, stepTok] at h
        | ch c =>
          simp only [run, stepTok, stepCh] at h
          by_cases hc : isWs c = true
          · rw [if_pos hc] at h
            obtain ⟨u, w, hu, hx, hw⟩ := (ih' st).2.2.2.2.1 h
            exact ⟨.ch c :: u, w, by rw [hu]; rfl, hx.ws hc, hw⟩
          · rw [if_neg hc] at h
            simp at h
      · -- key0
        intro h
        cases t with
        | str s =>
          simp only [run, stepTok, Option.bind_some] at h
          obtain ⟨u, w, hu, hx, hw⟩ := hkey s st rfl h
          cases u with
          | nil =>
            obtain ⟨a, k, b, c, v, hav, -⟩ := hx
            have := congrArg List.length hav
            simp [text] at this
          | cons t' u =>
            simp only [List.cons_append, List.cons.injEq] at hu
            obtain ⟨rfl, hu⟩ := hu
            obtain ⟨u', w', hu', hx', hw'⟩ := (split_ih u w hu st).2.2.1 hw
            refine ⟨.str s :: u ++ u', w', by rw [hu, hu']; simp, Or.inr ?_, hw'⟩
            rw [text_append]
            exact members_of hx hx'
        | num x => simp [run, stepTok] at h
        | ch c =>
          simp only [run, stepTok, stepCh] at h
          by_cases hc : isWs c = true
          · rw [if_pos hc] at h
            obtain ⟨u, w, hu, hx, hw⟩ := (ih' st).2.2.2.2.2.1 h
            refine ⟨.ch c :: u, w, by rw [hu]; rfl, ?_, hw⟩
            rcases hx with hx | hx
            · exact Or.inl (Ws.cons hc hx)
            · right
              change G .members (c :: text u)
              generalize hk : Kind.members = k at hx
              generalize text u = e at hx
              cases hx with
              | member a k b c' v d ha hkk hb hc' hv hd =>
                have := G.member (c :: a) k b c' v d (Ws.cons hc ha) hkk hb hc' hv hd
                simpa using this
              | moreMembers a k b c' v d m ha hkk hb hc' hv hd hm =>
                have := G.moreMembers (c :: a) k b c' v d m (Ws.cons hc ha) hkk hb hc' hv hd hm
                simpa using this
              | _ => cases hk
          · rw [if_neg hc] at h
            by_cases h1 : c = 125
            · rw [if_pos h1] at h
              subst h1
              exact ⟨[], ts, rfl, Or.inl Ws.nil, h⟩
            · rw [if_neg h1] at h; simp at h
      · -- colon
        intro h
        cases t with
        | str s => simp [run, stepTok] at h
        | num x => simp [run, stepTok] at h
        | ch c =>
          simp only [run, stepTok, stepCh] at h
          by_cases hc : isWs c = true
          · rw [if_pos hc] at h
            obtain ⟨u, w, hu, hx, hw⟩ := (ih' st).2.2.2.2.2.2 h
            exact ⟨.ch c :: u, w, by rw [hu]; rfl, hx.ws hc, hw⟩
          · rw [if_neg hc] at h
            by_cases h1 : c = 58
            · rw [if_pos h1] at h
              subst h1
              obtain ⟨u, w, hu, ⟨a, v, hx, ha, hv⟩, hw⟩ := (ih' st).1 h
              refine ⟨.ch 58 :: u, w, by rw [hu]; rfl, ⟨[], a, v, ?_, Ws.nil, ha, hv⟩, hw⟩
              change 58 :: text u = _
              rw [hx]; rfl
            · rw [if_neg h1] at h; simp at h

theorem run_after_nil (ts : List Tok) (h : run ts done = some done) : Ws (text ts) := by
  induction ts with
  | nil => exact Ws.nil
  | cons t ts ih =>
    cases t with
    | str s => simp [run, stepTok, done] at h
    | num x => simp [run, stepTok, done] at h
    | ch c =>
      simp only [run, stepTok, stepCh] at h
      by_cases hc : isWs c = true
      · rw [if_pos hc] at h
        exact Ws.cons hc (ih h)
      · rw [if_neg hc] at h
        simp [done] at h

/-- The machine accepts an object: its text is a JSON object. -/
theorem object_of_run (ts : List Tok) (hg : ∀ t ∈ ts, t.Good) (h : run ts ⟨.key0, [true]⟩ = some done) :
    ObjectDocument (123 :: text ts) := by
  obtain ⟨u, w, rfl, hx, hw⟩ := (sound ts.length ts (Nat.le_refl _) hg []).2.2.2.2.2.1 h
  refine ⟨[], text u, text w, by simp [text, Tok.text], Ws.nil, hx.symm, run_after_nil w hw⟩

theorem ObjectDocument.document {s : CString} (h : ObjectDocument s) : Document s := by
  obtain ⟨a, m, b, rfl, ha, hm, hb⟩ := h
  refine ⟨a, 123 :: m ++ [125], b, by simp, ha, ?_, hb⟩
  rcases hm with hm | hm
  · exact G.object m hm
  · exact G.emptyObject m hm

/-! ### The scanner -/

/-- Open brackets, and whether the scanner is outside of strings (0), inside (1) or after a backslash (2). -/
structure Sc where
  st : List Bool
  q : Nat
deriving DecidableEq

def scCh (c : Int) (g : Sc) : Option Sc :=
  if g.q = 0 then
    if c = 34 then some ⟨g.st, 1⟩
    else if c = 123 then some ⟨true :: g.st, 0⟩
    else if c = 91 then some ⟨false :: g.st, 0⟩
    else if c = 125 then (match g.st with | true :: st => some ⟨st, 0⟩ | _ => none)
    else if c = 93 then (match g.st with | false :: st => some ⟨st, 0⟩ | _ => none)
    else some g
  else if g.q = 1 then
    if 0 ≤ c ∧ c < 32 then none
    else if c = 34 then some ⟨g.st, 0⟩
    else if c = 92 then some ⟨g.st, 2⟩
    else some g
  else some ⟨g.st, 1⟩

def sc : CString → Sc → Option Sc
  | [], g => some g
  | c :: s, g => (scCh c g).bind (sc s)

theorem sc_append (a b : CString) (g : Sc) : sc (a ++ b) g = (sc a g).bind (sc b) := by
  induction a generalizing g with
  | nil => rfl
  | cons c a ih =>
    simp only [List.cons_append, sc]
    cases scCh c g with
    | none => rfl
    | some g' => exact ih g'

theorem sc_append_some {a b : CString} {g g' : Sc} (h : sc a g = some g') : sc (a ++ b) g = sc b g' := by
  rw [sc_append, h]; rfl

/-- Characters that mean nothing to the scanner outside of strings. -/
def Dull (s : CString) : Prop := ∀ c ∈ s, c ≠ 34 ∧ c ≠ 123 ∧ c ≠ 91 ∧ c ≠ 125 ∧ c ≠ 93

theorem sc_dull (s : CString) (h : Dull s) (st : List Bool) : sc s ⟨st, 0⟩ = some ⟨st, 0⟩ := by
  induction s with
  | nil => rfl
  | cons c s ih =>
    obtain ⟨h1, h2, h3, h4, h5⟩ := h c (by simp)
    simp only [sc, scCh, if_pos, if_neg h1, if_neg h2, if_neg h3, if_neg h4, if_neg h5, Option.bind_some]
    exact ih (fun x hx => h x (by simp [hx]))

theorem Ws.dull {s : CString} (h : Ws s) : Dull s := by
  intro c hc
  rcases h c hc with rfl | rfl | rfl | rfl <;> decide

theorem Digit.dull {c : Int} (h : Digit c) : c ≠ 34 ∧ c ≠ 123 ∧ c ≠ 91 ∧ c ≠ 125 ∧ c ≠ 93 := by
  unfold Digit at h; omega

theorem Number.dull {t : CString} (h : Number t) : Dull t := by
  obtain ⟨sg, ip, fp, ep, rfl, h1, h2, h3, h4⟩ := h
  have key : ∀ a b : CString, Dull a → Dull b → Dull (a ++ b) := by
    intro a b ha hb c hc
    rcases List.mem_append.mp hc with h | h
    · exact ha c h
    · exact hb c h
  have dig : ∀ a : CString, (∀ c ∈ a, Digit c) → Dull a := fun a h c hc => Digit.dull (h c hc)
  have nil : Dull [] := by intro c hc; simp at hc
  have one : ∀ c : Int, c ≠ 34 ∧ c ≠ 123 ∧ c ≠ 91 ∧ c ≠ 125 ∧ c ≠ 93 → Dull [c] := by
    intro c h x hx
    simp only [List.mem_singleton] at hx
    subst hx; exact h
  refine key _ _ (key _ _ (key _ _ ?_ ?_) ?_) ?_
  · rcases h1 with rfl | rfl
    · exact nil
    · exact one _ (by decide)
  · rcases h2 with rfl | ⟨d, ds, rfl, hd1, hd2, hds⟩
    · exact one _ (by decide)
    · exact key [d] ds (one d (by omega)) (dig ds hds)
  · rcases h3 with rfl | ⟨d, ds, rfl, hds⟩
    · exact nil
    · exact key [46] (d :: ds) (one _ (by decide)) (dig _ hds)
  · rcases h4 with rfl | ⟨e, s, d, ds, rfl, he, hs, hds⟩
    · exact nil
    · refine key (e :: s) (d :: ds) (key [e] s (one e (by omega)) ?_) (dig _ hds)
      rcases hs with rfl | rfl | rfl
      · exact nil
      · exact one _ (by decide)
      · exact one _ (by decide)

theorem sc_chars {s : CString} (h : Chars s) (st : List Bool) : sc s ⟨st, 1⟩ = some ⟨st, 1⟩ := by
  induction h with
  | nil => rfl
  | plain c s h1 h2 h3 _ ih =>
    simp only [sc, scCh, if_neg h1, if_neg h2, if_neg h3]
    simpa using ih
  | esc c s _ _ ih =>
    simp only [sc, scCh]
    simpa using ih
  | hex a b c d s h _ ih =>
    have hx : ∀ x ∈ [a, b, c, d], ¬ (0 ≤ x ∧ x < 32) ∧ x ≠ 34 ∧ x ≠ 92 := by
      intro x hx
      have := h x hx
      unfold Digit at this
      omega
    obtain ⟨a1, a2, a3⟩ := hx a (by simp)
    obtain ⟨b1, b2, b3⟩ := hx b (by simp)
    obtain ⟨c1, c2, c3⟩ := hx c (by simp)
    obtain ⟨d1, d2, d3⟩ := hx d (by simp)
    simp only [sc, scCh, if_neg a1, if_neg a2, if_neg a3, if_neg b1, if_neg b2, if_neg b3, if_neg c1, if_neg c2, if_neg c3,
      if_neg d1, if_neg d2, if_neg d3]
    simpa using ih

theorem sc_str {s : CString} (h : Chars s) (st : List Bool) : sc (34 :: s ++ [34]) ⟨st, 0⟩ = some ⟨st, 0⟩ := by
  have h1 : sc (34 :: s) ⟨st, 0⟩ = some ⟨st, 1⟩ := by
    simp only [sc, scCh]
    simpa using sc_chars h st
  rw [sc_append_some h1]
  simp [sc, scCh]

theorem sc_bracket (o c : Int) (b : Bool) (ho : ∀ st, scCh o ⟨st, 0⟩ = some ⟨b :: st, 0⟩)
    (hc : ∀ st, scCh c ⟨b :: st, 0⟩ = some ⟨st, 0⟩) (x : CString) (h : ∀ st, sc x ⟨st, 0⟩ = some ⟨st, 0⟩) (st : List Bool) :
    sc (o :: x ++ [c]) ⟨st, 0⟩ = some ⟨st, 0⟩ := by
  have h1 : sc (o :: x) ⟨st, 0⟩ = some ⟨b :: st, 0⟩ := by
    simp only [sc, ho, Option.bind_some]
    exact h _
  rw [sc_append_some h1]
  simp [sc, hc]

theorem sc_G {k : Kind} {s : CString} (h : G k s) : ∀ st, sc s ⟨st, 0⟩ = some ⟨st, 0⟩ := by
  have key : ∀ a b : CString, (∀ st, sc a ⟨st, 0⟩ = some ⟨st, 0⟩) → (∀ st, sc b ⟨st, 0⟩ = some ⟨st, 0⟩) →
      ∀ st, sc (a ++ b) ⟨st, 0⟩ = some ⟨st, 0⟩ := by
    intro a b ha hb st
    rw [sc_append_some (ha st)]; exact hb st
  have ws : ∀ a, Ws a → ∀ st, sc a ⟨st, 0⟩ = some ⟨st, 0⟩ := fun a ha => sc_dull a (Ws.dull ha)
  have ob : ∀ x : CString, (∀ st, sc x ⟨st, 0⟩ = some ⟨st, 0⟩) → ∀ st, sc (123 :: x ++ [125]) ⟨st, 0⟩ = some ⟨st, 0⟩ :=
    sc_bracket 123 125 true (fun _ => rfl) (fun _ => rfl)
  have ar : ∀ x : CString, (∀ st, sc x ⟨st, 0⟩ = some ⟨st, 0⟩) → ∀ st, sc (91 :: x ++ [93]) ⟨st, 0⟩ = some ⟨st, 0⟩ :=
    sc_bracket 91 93 false (fun _ => rfl) (fun _ => rfl)
  have mem : ∀ a k b c v d : CString, Ws a → Chars k → Ws b → Ws c → (∀ st, sc v ⟨st, 0⟩ = some ⟨st, 0⟩) → Ws d →
      ∀ st, sc (a ++ 34 :: k ++ 34 :: b ++ 58 :: c ++ v ++ d) ⟨st, 0⟩ = some ⟨st, 0⟩ := by
    intro a k b c v d ha hk hb hc hv hd
    have e : a ++ 34 :: k ++ 34 :: b ++ 58 :: c ++ v ++ d = a ++ ((34 :: k ++ [34]) ++ (b ++ ([58] ++ (c ++ (v ++ d))))) := by simp
    rw [e]
    exact key _ _ (ws a ha) (key _ _ (sc_str hk) (key _ _ (ws b hb) (key _ _ (sc_dull [58] (by intro c hc; simp at hc; subst hc; decide))
      (key _ _ (ws c hc) (key _ _ hv (ws d hd))))))
  have comma : ∀ st, sc [44] ⟨st, 0⟩ = some ⟨st, 0⟩ := fun _ => rfl
  induction h with
  | str s hs => exact sc_str hs
  | num t ht => exact sc_dull t (Number.dull ht)
  | «true» => exact fun _ => rfl
  | «false» => exact fun _ => rfl
  | null => exact fun _ => rfl
  | emptyArray w hw => exact ar w (ws w hw)
  | array e _ ih => exact ar e ih
  | emptyObject w hw => exact ob w (ws w hw)
  | object m _ ih => exact ob m ih
  | element a v b ha _ hb ih => exact key _ _ (key _ _ (ws a ha) ih) (ws b hb)
  | moreElements a v b e ha _ hb _ ih ih' =>
    exact key _ _ (key _ _ (key _ _ (ws a ha) ih) (ws b hb)) (key [44] e comma ih')
  | member a k b c v d ha hk hb hc _ hd ih => exact mem a k b c v d ha hk hb hc ih hd
  | moreMembers a k b c v d m ha hk hb hc _ hd _ ih ih' =>
    exact key _ _ (mem a k b c v d ha hk hb hc ih hd) (key [44] m comma ih')

/-- Every JSON text passes the scanner. -/
theorem sc_document {s : CString} (h : Document s) : sc s ⟨[], 0⟩ = some ⟨[], 0⟩ := by
  obtain ⟨a, v, b, rfl, ha, hv, hb⟩ := h
  have h1 : sc (a ++ v) ⟨[], 0⟩ = some ⟨[], 0⟩ := by
    rw [sc_append_some (sc_dull a (Ws.dull ha) [])]; exact sc_G hv []
  rw [sc_append_some h1]
  exact sc_dull b (Ws.dull hb) []

end SatSky.Json
