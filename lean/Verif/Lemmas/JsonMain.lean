import Verif.Lemmas.JsonLemmas
import Verif.Lemmas.MainLemmas
import Verif.Lemmas.SkyInv2
import Verif.Model.Printf

/-! The texts printed by `sat_skymap` as sequences of JSON tokens. -/

namespace SatSky.Json

open SatSky Spec Spec.Json Dates GetEl Opts Sky Prog

/-- Text that can stand in a JSON string as it is: no control characters, quotes, backslashes. -/
def Plain (s : CString) : Prop := ∀ c ∈ s, ¬ (0 ≤ c ∧ c < 32) ∧ c ≠ 34 ∧ c ≠ 92

instance (s : CString) : Decidable (Plain s) := by unfold Plain; infer_instance

/-- A number, possibly with blanks in front. -/
def NumText (t : CString) : Prop := ∃ a n, t = a ++ n ∧ Ws a ∧ Number n

theorem Plain.chars {s : CString} (h : Plain s) : Chars s := by
  induction s with
  | nil => exact .nil
  | cons c s ih =>
    obtain ⟨h1, h2, h3⟩ := h c (by simp)
    exact .plain c s h1 h2 h3 (ih (fun x hx => h x (by simp [hx])))

theorem Plain.append {a b : CString} (ha : Plain a) (hb : Plain b) : Plain (a ++ b) := by
  intro c hc
  rcases List.mem_append.mp hc with h | h
  · exact ha c h
  · exact hb c h

theorem Plain.sub {a b : CString} (hb : Plain b) (h : ∀ c ∈ a, c ∈ b) : Plain a := fun c hc => hb c (h c hc)

/-! ### Pieces -/

/-- A printed piece: literal text, a string in quotes, a number. -/
inductive Piece where
  | lit (s : CString)
  | str (s : CString)
  | num (t : CString)

def Piece.text : Piece → CString
  | .lit s => s
  | .str s => q s
  | .num t => t

def Piece.Ok : Piece → Prop
  | .lit _ => True
  | .str s => Plain s
  | .num t => NumText t

/-- Tokens of literal text; `some acc`: inside a string. -/
def lex : Option CString → CString → Option (List Tok)
  | none, [] => some []
  | some _, [] => none
  | none, c :: s => if c = 34 then lex (some []) s else (lex none s).map (Tok.ch c :: ·)
  | some acc, c :: s =>
    if c = 34 then (lex none s).map (Tok.str acc :: ·)
    else if (0 ≤ c ∧ c < 32) ∨ c = 92 then none
    else lex (some (acc ++ [c])) s

theorem lex_spec (s : CString) : (∀ ts, lex none s = some ts → text ts = s ∧ ∀ t ∈ ts, t.Good) ∧
    (∀ acc ts, Plain acc → lex (some acc) s = some ts → text ts = 34 :: acc ++ s ∧ ∀ t ∈ ts, t.Good) := by
  induction s with
  | nil =>
    constructor
    · intro ts h
      simp only [lex, Option.some.injEq] at h
      subst h
      simp [text]
    · intro acc ts _ h
      simp [lex] at h
  | cons c s ih =>
    constructor
    · intro ts h
      simp only [lex] at h
      by_cases hc : c = 34
      · rw [if_pos hc] at h
        obtain ⟨h1, h2⟩ := ih.2 [] ts (by intro x hx; simp at hx) h
        exact ⟨by rw [h1, hc]; rfl, h2⟩
      · rw [if_neg hc] at h
        simp only [Option.map_eq_some_iff] at h
        obtain ⟨us, hu, rfl⟩ := h
        obtain ⟨h1, h2⟩ := ih.1 us hu
        refine ⟨?_, ?_⟩
        · change [c] ++ text us = _
          rw [h1]; rfl
        · intro t ht
          rcases List.mem_cons.mp ht with rfl | ht
          · trivial
          · exact h2 t ht
    · intro acc ts ha h
      simp only [lex] at h
      by_cases hc : c = 34
      · rw [if_pos hc] at h
        simp only [Option.map_eq_some_iff] at h
        obtain ⟨us, hu, rfl⟩ := h
        obtain ⟨h1, h2⟩ := ih.1 us hu
        refine ⟨?_, ?_⟩
        · change (34 :: acc ++ [34]) ++ text us = _
          rw [h1, hc]; simp
        · intro t ht
          rcases List.mem_cons.mp ht with rfl | ht
          · exact ha.chars
          · exact h2 t ht
      · rw [if_neg hc] at h
        split at h
        · simp at h
        · rename_i hn
          push Not at hn
          have : Plain (acc ++ [c]) := ha.append (by
            intro x hx
            simp only [List.mem_singleton] at hx
            subst hx
            exact ⟨fun hh => absurd (hn.1 hh.1) (by omega), hc, hn.2⟩)
          obtain ⟨h1, h2⟩ := ih.2 (acc ++ [c]) ts this h
          exact ⟨by rw [h1]; simp, h2⟩

/-- The machine on one piece. -/
def Piece.step : Piece → Cfg → Option Cfg
  | .lit s, g => (lex none s).bind (fun ts => run ts g)
  | .str s, g => stepTok (.str s) g
  | .num t, g => stepTok (.num t) g

def prun : List Piece → Cfg → Option Cfg
  | [], g => some g
  | a :: l, g => (a.step g).bind (prun l)

def Piece.erase : Piece → Piece
  | .lit s => .lit s
  | .str _ => .str []
  | .num _ => .num []

/-- The machine does not look at the contents of strings and numbers. -/
theorem prun_erase (l : List Piece) (g : Cfg) : prun l g = prun (l.map Piece.erase) g := by
  induction l generalizing g with
  | nil => rfl
  | cons a l ih =>
    have : a.step g = a.erase.step g := by cases a <;> rfl
    simp only [List.map_cons, prun, this]
    cases a.erase.step g with
    | none => rfl
    | some g' => exact ih g'

/-- The text takes the machine from one configuration to another. -/
def Acc (s : CString) (g g' : Cfg) : Prop := ∃ ts : List Tok, text ts = s ∧ (∀ t ∈ ts, t.Good) ∧ run ts g = some g'

theorem Acc.append {a b : CString} {g g' g'' : Cfg} (ha : Acc a g g') (hb : Acc b g' g'') : Acc (a ++ b) g g'' := by
  obtain ⟨ta, h1, h2, h3⟩ := ha
  obtain ⟨tb, k1, k2, k3⟩ := hb
  refine ⟨ta ++ tb, by rw [text_append, h1, k1], ?_, by rw [run_append, h3]; exact k3⟩
  intro t ht
  rcases List.mem_append.mp ht with h | h
  · exact h2 t h
  · exact k2 t h

theorem Acc.nil (g : Cfg) : Acc [] g g := ⟨[], rfl, by simp, rfl⟩

theorem acc_piece {a : Piece} {g g' : Cfg} (hok : a.Ok) (h : a.step g = some g') : Acc a.text g g' := by
  cases a with
  | lit s =>
    simp only [Piece.step, Option.bind_eq_some_iff] at h
    obtain ⟨ts, h1, h2⟩ := h
    obtain ⟨k1, k2⟩ := (lex_spec s).1 ts h1
    exact ⟨ts, k1, k2, h2⟩
  | str s =>
    refine ⟨[.str s], by simp [text, Tok.text, Piece.text, q], ?_, ?_⟩
    · intro t ht
      simp only [List.mem_singleton] at ht
      subst ht
      exact Plain.chars hok
    · simp only [run]
      rw [show stepTok (.str s) g = some g' from h]; rfl
  | num s =>
    refine ⟨[.num s], by simp [text, Tok.text, Piece.text], ?_, ?_⟩
    · intro t ht
      simp only [List.mem_singleton] at ht
      subst ht
      exact hok
    · simp only [run]
      rw [show stepTok (.num s) g = some g' from h]; rfl

theorem acc_pieces (l : List Piece) {g g' : Cfg} (hok : ∀ a ∈ l, a.Ok) (h : prun (l.map Piece.erase) g = some g') :
    Acc (l.flatMap Piece.text) g g' := by
  rw [← prun_erase] at h
  induction l generalizing g with
  | nil =>
    simp only [prun, Option.some.injEq] at h
    subst h
    exact Acc.nil g
  | cons a l ih =>
    simp only [prun, Option.bind_eq_some_iff] at h
    obtain ⟨g1, h1, h2⟩ := h
    rw [List.flatMap_cons]
    exact (acc_piece (hok a (by simp)) h1).append (ih (fun x hx => hok x (by simp [hx])) h2)

/-! ### Numbers -/

theorem natText_digit (n : Nat) : ∀ c ∈ natText n, Spec.Json.Digit c := by
  induction n using Nat.strongRecOn with
  | ind n ih =>
    rw [natText]
    split
    · intro c hc
      simp only [List.mem_singleton] at hc
      unfold Spec.Json.Digit; omega
    · intro c hc
      rcases List.mem_append.mp hc with h | h
      · exact ih (n / 10) (by omega) c h
      · simp only [List.mem_singleton] at h
        unfold Spec.Json.Digit; omega

/-- No leading zero. -/
theorem natText_int (n : Nat) : natText n = [48] ∨ ∃ d ds, natText n = d :: ds ∧ 49 ≤ d ∧ d ≤ 57 ∧ ∀ c ∈ ds, Spec.Json.Digit c := by
  induction n using Nat.strongRecOn with
  | ind n ih =>
    rw [natText]
    split
    · by_cases h0 : n = 0
      · left; subst h0; rfl
      · right; exact ⟨48 + (n : Int), [], rfl, by omega, by omega, by simp⟩
    · right
      rcases ih (n / 10) (by omega) with h | ⟨d, ds, h, h1, h2, h3⟩
      · exfalso
        have : natText (n / 10) ≠ [48] := by
          rw [natText]
          split
          · simp; omega
          · intro hc
            have hl := congrArg List.length hc
            rw [List.length_append] at hl
            simp only [List.length_cons, List.length_nil] at hl
            have : (natText (n / 10 / 10)).length ≠ 0 := by
              rw [natText]; split <;> simp
            omega
        exact this h
      · refine ⟨d, ds ++ [48 + ((n % 10 : Nat) : Int)], by rw [h]; rfl, h1, h2, ?_⟩
        intro c hc
        rcases List.mem_append.mp hc with h | h
        · exact h3 c h
        · simp only [List.mem_singleton] at h
          unfold Spec.Json.Digit; omega

theorem numTextOf {t : CString} (h : Number t) : NumText t := ⟨[], t, rfl, Ws.nil, h⟩

theorem number_int (x : ℤ) : Number (intText x) := by
  unfold intText
  split
  · exact ⟨[45], natText x.natAbs, [], [], by simp, Or.inr rfl, natText_int _, Or.inl rfl, Or.inl rfl⟩
  · exact ⟨[], natText x.natAbs, [], [], by simp, Or.inl rfl, natText_int _, Or.inl rfl, Or.inl rfl⟩

/-- `%.pf` prints a JSON number. -/
theorem number_fmtF (p : Nat) (x : ℚ) : Number (fmtF p x) := by
  unfold fmtF
  simp only []
  generalize (roundEven (|x| * 10 ^ p)).natAbs = n
  generalize hf : natText (n % 10 ^ p) = f
  have hd : ∀ c ∈ List.replicate (p - f.length) (48 : Int) ++ f, Spec.Json.Digit c := by
    intro c hc
    rcases List.mem_append.mp hc with h | h
    · rw [List.eq_of_mem_replicate h]; unfold Spec.Json.Digit; omega
    · rw [← hf] at h; exact natText_digit _ c h
  have hne : List.replicate (p - f.length) (48 : Int) ++ f ≠ [] := by
    rw [← hf]
    intro h
    simp only [List.append_eq_nil_iff] at h
    have := h.2
    rw [natText] at this
    split at this <;> simp at this
  obtain ⟨d, ds, hds⟩ := List.exists_cons_of_ne_nil hne
  refine ⟨if x < 0 then [45] else [], natText (n / 10 ^ p), 46 :: (List.replicate (p - f.length) 48 ++ f), [], by simp, ?_,
    natText_int _, Or.inr ⟨d, ds, by rw [hds], by rw [← hds]; exact hd⟩, Or.inl rfl⟩
  split
  · exact Or.inr rfl
  · exact Or.inl rfl

/-- `%w.pf`. -/
theorem numText_fmtF (w p : Nat) (x : ℚ) : NumText (padLeft w (fmtF p x)) := by
  refine ⟨_, _, rfl, ?_, number_fmtF p x⟩
  intro c hc
  exact Or.inl (List.eq_of_mem_replicate hc)

/-! ### The parts of the output -/

/-- Inside the outer object, after a comma. -/
def gKey : Cfg := ⟨.key, [true]⟩

/-- Inside the array of satellites, after an element. -/
def gSat : Cfg := ⟨.after, [false, true]⟩

theorem acc_open : Acc openJson.tail ⟨.key0, [true]⟩ gKey :=
  acc_piece (a := .lit openJson.tail) trivial (by decide +kernel)

theorem acc_geoFields : Acc geoFields gKey gKey := acc_piece (a := .lit geoFields) trivial (by decide +kernel)

/-- All the numbers printed by `add_params_json` are numbers. -/
structure ParamTexts.Ok (t : ParamTexts) : Prop where
  lat : NumText t.lat
  lon : NumText t.lon
  ht : NumText t.ht
  ra : NumText t.ra
  dec : NumText t.dec
  radius : NumText t.radius
  lmst : NumText t.lmst
  az : NumText t.az
  alt : NumText t.alt
  parang : NumText t.parang
  mjd : NumText t.mjd
  gmst : NumText t.gmst

structure SunTexts.Ok (t : SunTexts) : Prop where
  ra : NumText t.ra
  dec : NumText t.dec
  az : NumText t.az
  alt : NumText t.alt
  lon : NumText t.lon
  parang : NumText t.parang
  sep : NumText t.sep

structure Obs.Ok (o : Obs) : Prop where
  g1 : NumText o.geoNums.1
  g2 : NumText o.geoNums.2.1
  g3 : NumText o.geoNums.2.2.1
  g4 : NumText o.geoNums.2.2.2
  data : ∀ t ∈ o.dataNums, NumText t
  hpx : NumText o.hpx

theorem intOk (x : ℤ) : (Piece.num (intText x)).Ok := numTextOf (number_int x)

theorem acc_params {file : CString} {t : ParamTexts} {p : Params} (hf : Plain file) (ht : ParamTexts.Ok t) (hd : Plain p.date) :
    Acc (paramsJson file t p) gKey gKey := by
  have := acc_pieces (g := gKey) (g' := gKey)
    [.lit b!"\"input_params\": {\"tle_file\": ", .str file, .lit b!", \"location\": {\"lat\":", .num t.lat, .lit b!", \"lon\":", .num t.lon,
      .lit b!", \"alt\":", .num t.ht, .lit b!"}, \"region\": {\"ra\":", .num t.ra, .lit b!", \"dec\":", .num t.dec, .lit b!", \"radius\":", .num t.radius,
      .lit b!", \"lmst\":", .num t.lmst, .lit b!", \"az\":", .num t.az, .lit b!", \"alt\":", .num t.alt, .lit b!", \"parang\":", .num t.parang,
      .lit b!"}, \"mjd\": ", .num t.mjd, .lit b!", \"epoch_UTC\": ", .str p.date, .lit b!", \"gmst\":", .num t.gmst,
      .lit b!", \"delta_time_s\": ", .num (intText p.deltaTime), .lit b!", \"max_sats\": ", .num (intText p.maxSats),
      .lit b!", \"notes\": \"All coordinates and radius in degrees. GMST, LMST in hrs.\"}, "]
    (by
      simp only [List.forall_mem_cons]
      refine ⟨trivial, hf, trivial, ht.lat, trivial, ht.lon, trivial, ht.ht, trivial, ht.ra, trivial, ht.dec, trivial, ht.radius, trivial, ht.lmst,
        trivial, ht.az, trivial, ht.alt, trivial, ht.parang, trivial, ht.mjd, trivial, hd, trivial, ht.gmst, trivial, intOk _, trivial, intOk _, trivial, by simp⟩)
    (by simp only [List.map_cons, List.map_nil, Piece.erase]; decide +kernel)
  convert this using 1
  unfold paramsJson
  simp only [List.flatMap_cons, List.flatMap_nil, Piece.text, List.append_assoc, List.append_nil]

theorem acc_sun {t : SunTexts} (ht : SunTexts.Ok t) : Acc (sunJson t) gKey gKey := by
  have := acc_pieces (g := gKey) (g' := gKey)
    [.lit b!"\"sun\": {\"ra\":", .num t.ra, .lit b!", \"dec\":", .num t.dec, .lit b!", \"az\":", .num t.az, .lit b!", \"alt\":", .num t.alt,
      .lit b!", \"lon\":", .num t.lon, .lit b!", \"parang\":", .num t.parang, .lit b!", \"separation_deg\":", .num t.sep, .lit b!"}, "]
    (by
      simp only [List.forall_mem_cons]
      exact ⟨trivial, ht.ra, trivial, ht.dec, trivial, ht.az, trivial, ht.alt, trivial, ht.lon, trivial, ht.parang, trivial, ht.sep, trivial, by simp⟩)
    (by simp only [List.map_cons, List.map_nil, Piece.erase]; decide +kernel)
  convert this using 1
  unfold sunJson
  simp only [List.flatMap_cons, List.flatMap_nil, Piece.text, List.append_assoc, List.append_nil]

theorem acc_close {argv : List CString} {il : Bool} {st : ℤ} {msg : CString} {a b c : ℤ} (hc : Plain (command argv il)) (hm : Plain msg) :
    Acc (closeJson argv il st msg a b c) gKey done := by
  have := acc_pieces (g := gKey) (g' := done)
    [.lit b!" \"run_command\": ", .str (command argv il), .lit b!", \"status\": ", .num (intText st), .lit b!", \"errmsg\": ", .str msg,
      .lit b!", \"n_sats_found\": ", .num (intText a), .lit b!", \"n_sats\": ", .num (intText b), .lit b!", \"n_sunlit_sats\": ", .num (intText c), .lit b!"}\n"]
    (by
      simp only [List.forall_mem_cons]
      exact ⟨trivial, hc, trivial, intOk _, trivial, hm, trivial, intOk _, trivial, intOk _, trivial, intOk _, trivial, by simp⟩)
    (by simp only [List.map_cons, List.map_nil, Piece.erase]; decide +kernel)
  convert this using 1
  unfold closeJson
  simp only [List.flatMap_cons, List.flatMap_nil, Piece.text, List.append_assoc, List.append_nil]

theorem acc_data (l : List CString) (h : ∀ t ∈ l, NumText t) (st : List Bool) (m : Mode) (hm : m = .val0 ∨ m = .val) :
    ∃ m', (m' = .val0 ∨ m' = .val) ∧ Acc (l.flatMap (· ++ [44])) ⟨m, false :: st⟩ ⟨m', false :: st⟩ := by
  induction l generalizing m with
  | nil => exact ⟨m, hm, Acc.nil _⟩
  | cons t l ih =>
    obtain ⟨m', hm', hacc⟩ := ih (fun x hx => h x (by simp [hx])) .val (Or.inr rfl)
    refine ⟨m', hm', ?_⟩
    rw [List.flatMap_cons]
    refine Acc.append (g' := ⟨.val, false :: st⟩) (Acc.append (g' := ⟨.after, false :: st⟩) ?_ ?_) hacc
    · exact acc_piece (a := .num t) (h t (by simp)) (by rcases hm with rfl | rfl <;> rfl)
    · exact acc_piece (a := .lit [44]) trivial rfl

theorem acc_sat {geo : Bool} {r : Report} (hn : Plain r.name) (hd : Plain r.desig) (ho : Obs.Ok r.obs) (m : Mode) (hm : m = .val0 ∨ m = .val) :
    Acc (satJson geo r) ⟨m, [false, true]⟩ gSat := by
  have e : satJson geo r = (b!"{\"name\": " ++ (q r.name ++ (b!", \"intl_desig\": " ++ (q r.desig ++ (b!", \"norad_n\": "
      ++ (intText r.tle.norad ++ (b!", " ++ [])))))))
    ++ ((if geo then geoJson r.obs else []) ++ (b!"\"data\": [" ++ (r.obs.dataNums.flatMap (· ++ [44]) ++ ((if r.obs.sunlit then [49] else [48])
    ++ ([44] ++ (r.obs.hpx ++ (b!"]}" ++ []))))))) := by
    unfold satJson
    simp only [List.append_assoc, List.append_nil]
  rw [e]
  have h1 : Acc (b!"{\"name\": " ++ (q r.name ++ (b!", \"intl_desig\": " ++ (q r.desig ++ (b!", \"norad_n\": "
      ++ (intText r.tle.norad ++ (b!", " ++ []))))))) ⟨m, [false, true]⟩ ⟨.key, [true, false, true]⟩ :=
    acc_pieces [.lit b!"{\"name\": ", .str r.name, .lit b!", \"intl_desig\": ", .str r.desig, .lit b!", \"norad_n\": ", .num (intText r.tle.norad), .lit b!", "]
      (by
        simp only [List.forall_mem_cons]
        exact ⟨trivial, hn, trivial, hd, trivial, intOk _, trivial, by simp⟩)
      (by simp only [List.map_cons, List.map_nil, Piece.erase]; rcases hm with rfl | rfl <;> decide +kernel)
  have h2 : Acc (if geo then geoJson r.obs else []) ⟨.key, [true, false, true]⟩ ⟨.key, [true, false, true]⟩ := by
    cases geo with
    | false => exact Acc.nil _
    | true =>
      rw [if_pos rfl]
      have e2 : geoJson r.obs = b!"\"geoloc\": {\"lat\":" ++ (r.obs.geoNums.1 ++ (b!", \"lon\":" ++ (r.obs.geoNums.2.1 ++ (b!", \"alt\":"
        ++ (r.obs.geoNums.2.2.1 ++ (b!", \"theta\":" ++ (r.obs.geoNums.2.2.2 ++ (b!"}, " ++ [])))))))) := by
        unfold geoJson
        simp only [List.append_assoc, List.append_nil]
      rw [e2]
      exact acc_pieces [.lit b!"\"geoloc\": {\"lat\":", .num r.obs.geoNums.1, .lit b!", \"lon\":", .num r.obs.geoNums.2.1, .lit b!", \"alt\":",
          .num r.obs.geoNums.2.2.1, .lit b!", \"theta\":", .num r.obs.geoNums.2.2.2, .lit b!"}, "]
        (by
          simp only [List.forall_mem_cons]
          exact ⟨trivial, ho.g1, trivial, ho.g2, trivial, ho.g3, trivial, ho.g4, trivial, by simp⟩)
        (by simp only [List.map_cons, List.map_nil, Piece.erase]; decide +kernel)
  have h3 : Acc b!"\"data\": [" ⟨.key, [true, false, true]⟩ ⟨.val0, [false, true, false, true]⟩ :=
    acc_piece (a := .lit b!"\"data\": [") trivial (by decide +kernel)
  obtain ⟨m', hm', h4⟩ := acc_data r.obs.dataNums ho.data [true, false, true] .val0 (Or.inl rfl)
  have h5 : Acc ((if r.obs.sunlit then [49] else [48]) ++ ([44] ++ (r.obs.hpx ++ (b!"]}" ++ []))))
      ⟨m', [false, true, false, true]⟩ gSat := by
    have hs : NumText (if r.obs.sunlit then [49] else [48]) := by
      split
      · exact numTextOf ⟨[], [49], [], [], rfl, Or.inl rfl, Or.inr ⟨49, [], rfl, by omega, by omega, by simp⟩, Or.inl rfl, Or.inl rfl⟩
      · exact numTextOf ⟨[], [48], [], [], rfl, Or.inl rfl, Or.inl rfl, Or.inl rfl, Or.inl rfl⟩
    exact acc_pieces [.num (if r.obs.sunlit then [49] else [48]), .lit [44], .num r.obs.hpx, .lit b!"]}"]
      (by
        simp only [List.forall_mem_cons]
        exact ⟨hs, trivial, ho.hpx, trivial, by simp⟩)
      (by simp only [List.map_cons, List.map_nil, Piece.erase]; rcases hm' with rfl | rfl <;> decide +kernel)
  exact h1.append (h2.append (h3.append (h4.append h5)))

/-- A satellite whose texts can be printed. -/
structure ReportPlain (r : Report) : Prop where
  name : Plain r.name
  desig : Plain r.desig
  obs : Obs.Ok r.obs

theorem acc_emit (p : Params) (hi : p.infoOnly = false) (n : ℤ) (hn : 0 ≤ n) (r : Report) (hr : ReportPlain r) :
    Acc (emit p n r) (if n = 0 then gKey else gSat) gSat := by
  unfold emit
  rw [hi, if_neg (by simp)]
  by_cases h0 : n = 0
  · rw [if_neg (by omega), if_pos h0]
    refine Acc.append ?_ (acc_sat hr.name hr.desig hr.obs .val0 (Or.inl rfl))
    exact acc_piece (a := .lit (fieldsDesc ++ b!" \"satellites\": [")) trivial (by decide +kernel)
  · rw [if_pos (by omega), if_neg h0]
    refine Acc.append ?_ (acc_sat hr.name hr.desig hr.obs .val (Or.inr rfl))
    exact acc_piece (a := .lit b!", ") trivial (by decide +kernel)

theorem acc_render (p : Params) (hi : p.infoOnly = false) (l : List Report) (hl : ∀ r ∈ l, ReportPlain r) (n : ℤ) (hn : 0 ≤ n) :
    Acc (render p n l) (if n = 0 then gKey else gSat) (if n = 0 ∧ l = [] then gKey else gSat) := by
  induction l generalizing n with
  | nil =>
    simp only [render, and_true]
    exact Acc.nil _
  | cons r l ih =>
    rw [render, if_neg (by simp : ¬ (n = 0 ∧ r :: l = []))]
    have h1 := acc_emit p hi n hn r (hl r (by simp))
    have h2 := ih (fun x hx => hl x (by simp [hx])) (n + 1) (by omega)
    rw [if_neg (by omega), if_neg (by omega)] at h2
    exact h1.append h2

theorem render_info (p : Params) (hi : p.infoOnly = true) (l : List Report) (n : ℤ) : render p n l = [] := by
  induction l generalizing n with
  | nil => rfl
  | cons r l ih => simp [render, emit, hi, ih]

/-- Text accepted from the beginning of the outer object to its end. -/
theorem object_of_acc {s : CString} (h : Acc s ⟨.key0, [true]⟩ done) : ObjectDocument (123 :: s) := by
  obtain ⟨ts, rfl, h2, h3⟩ := h
  exact object_of_run ts h2 h3

end SatSky.Json
