import Verif.Model.DateText

/-!
Command line processing of `sat_skymap` (`src/sat_skymap.c` 345-573).

The `for` loop over `argv` changes its own index in the body, so it is modelled as a small-step
machine (`step`), not as a fold: one step is one execution of the loop body followed by `i++`.
Library conversions of text to `double` (`atof`, `%lf`) are parameters (`Lib`): theorems hold for any
behaviour of theirs.  A `double` is modelled by a rational number, so NaN and infinities as *arguments*
are outside the model.
-/

namespace SatSky.Opts

open SatSky Dates

/-- Library functions used on option values. -/
structure Lib where
  /-- `atof`. -/
  atof : CString → ℚ
  /-- The `%lf` conversion of `sscanf`: value and rest of the input, or a matching failure. -/
  scanD : CString → Option (ℚ × CString)
  /-- The text `printf` makes of a number with `%lf`. -/
  showF : ℚ → CString
  /-- Rounding to `double` and to `float`. -/
  F : Fl64
  G : Fl32

/-- `Params` (`sat_skymap_def.h` 24-63) together with the local variables the option loop sets
(`tle_path`, `in_region`, `in_geopos`; `len_intl_desig`, `len_satname` are the lengths). -/
structure Params where
  date : CString := b!"2020-01-13T12:00:00"
  intlDesig : CString := []
  satname : CString := []
  lat : ℚ := 0
  lon : ℚ := 0
  ht : ℚ := 2400
  ra : ℚ := 0
  dec : ℚ := 0
  radius : ℚ := 20
  mjd : ℚ := 117723 / 2
  altMin : ℚ := 0
  altMax : ℚ := 10 ^ 32
  deltaTime : ℤ := 1
  maxSats : ℤ := 1000
  noradN : ℤ := 0
  haversine : Bool := false
  infoOnly : Bool := false
  sunlitOnly : Bool := false
  singleI : Bool := false
  singleN : Bool := false
  nameFilter : Bool := false
  geoloc : Bool := false
  geolocRef : Bool := false
  altRange : Bool := false
  defDir : Bool := false
  tlePath : CString := b!"."
  inRegion : Bool := false
  inGeopos : Bool := false
deriving DecidableEq

/-- How a run of the program ends before the computation (`exit` calls of lines 360-538). -/
inductive Stop where
  /-- `Usage(); exit(0)`: plain text, no JSON. -/
  | usage
  /-- JSON with this status and this message; the status is also the exit code. -/
  | error (status : ℤ) (msg : CString)
deriving DecidableEq

/-- Result of executing something: a value, a regular exit, or undefined behaviour. -/
inductive Res (α : Type) where
  | ok (a : α)
  | stop (s : Stop)
  | ub
deriving DecidableEq

/-- `strcpy` into a buffer of `n` bytes. -/
def copyTo (n : Nat) (s : CString) : Option CString := if fits n s then some s else none

/-- `sscanf(s, "%lf,%lf", &a, &b)`: the values after the call. -/
def scan2 (L : Lib) (s : CString) (a b : ℚ) : ℚ × ℚ :=
  match L.scanD s with
  | none => (a, b)
  | some (x, r) =>
    match (scanLit 44 r).bind L.scanD with
    | none => (x, b)
    | some (y, _) => (x, y)

/-- `sscanf(s, "%lf,%lf,%lf", &a, &b, &c)`. -/
def scan3 (L : Lib) (s : CString) (a b c : ℚ) : ℚ × ℚ × ℚ :=
  match L.scanD s with
  | none => (a, b, c)
  | some (x, r) =>
    match (scanLit 44 r).bind L.scanD with
    | none => (x, b, c)
    | some (y, r) =>
      match (scanLit 44 r).bind L.scanD with
      | none => (x, y, c)
      | some (z, _) => (x, y, z)

/-- `sscanf(s, "%d", &n)`: `none` when the number does not fit an `int` (undefined), the old value when
there is no number. -/
def scanInt (s : CString) (old : ℤ) : Option ℤ :=
  match scanNum (s.length + 1) s with
  | none => some old
  | some (v, _) => int32 v

/-- The conversion of the `long` result of `strtol` to `int` (wraps on the usual platforms, after
`strtol` has limited the value to the range of `long`). -/
def longToInt (x : ℤ) : ℤ :=
  let x := if x > 9223372036854775807 then 9223372036854775807 else if x < -9223372036854775808 then -9223372036854775808 else x
  (x + 2147483648) % 4294967296 - 2147483648

/-- `p.norad_n = strtol(s, &endptr, 10)` (`sat_skymap.c` 510). -/
def noradArg (s : CString) : ℤ := longToInt (strtolVal s)

/-- The kinds of option letters (`sat_skymap.c` 412-526): switches, options with a value, others. -/
def isSwitch (c : CChar) : Bool := c == 69 || c == 71 || c == 72 || c == 73 || c == 84 || c == 86

/-- The body of a switch case, lines 417-440 (without the `i--`). -/
def setSwitch (c : CChar) (p : Params) : Params :=
  if c = 69 then { p with geolocRef := true, geoloc := true }        -- E
  else if c = 71 then { p with geoloc := true }                      -- G
  else if c = 72 then { p with haversine := true }                   -- H
  else if c = 73 then { p with infoOnly := true }                    -- I
  else if c = 84 then { p with defDir := true }                      -- T
  else { p with sunlitOnly := true }                                 -- V

/-- The error messages of lines 479, 492, 498 and 523; `t` is the number printed with `%lf`. -/
def msgLat (t : CString) : CString := b!"Latitude must be in the range [-90, +90] degrees. Read '" ++ t ++ [39]
def msgRa (t : CString) : CString := b!"RA must be in the range [0, 360[ degrees. Read '" ++ t ++ [39]
def msgDec (t : CString) : CString := b!"Dec must be in the range [-90, +90] degrees. Read '" ++ t ++ [39]
def msgOpt (a : CString) : CString := b!"Unrecognized command-line option '" ++ a ++ [39]

/-- `sprintf(errmsg, ...)`, JSON, `exit`: undefined when the text does not fit `errmsg[128]`. -/
def errorExit {α : Type} (status : ℤ) (msg : CString) : Res α :=
  if fits 128 msg then .stop (.error status msg) else .ub

def ofOpt {α : Type} : Option α → Res α
  | some a => .ok a
  | none => .ub

/-- The body of a case with a value, lines 443-525.  `v` is `argv[i] + par_pos`, `a` is `argv[i]`
(used by the default case, line 523). -/
def setValue (L : Lib) (c : CChar) (v a : CString) (p : Params) : Res Params :=
  if c = 97 then                                                     -- a, 443-452
    let (lo, hi) := scan2 L v p.altMin p.altMax
    let (lo, hi) := if hi < lo then (hi, lo) else (lo, hi)
    .ok { p with altMin := lo, altMax := hi, altRange := true, geoloc := true }
  else if c = 100 then                                               -- d, 453-456
    match copyTo 24 v with
    | none => .ub
    | some d => .ok { p with date := d, mjd := (date2mjdNf L.F L.G v).2 }
  else if c = 68 then                                                -- D, 457-460
    match copyTo 128 v with
    | none => .ub
    | some d => .ok { p with tlePath := d, defDir := false }
  else if c = 105 then                                               -- i, 461-467
    match copyTo 12 v with
    | none => .ub
    | some d => .ok { p with intlDesig := d, singleI := true, altRange := false, inRegion := false }
  else if c = 106 then                                               -- j, 468-471
    match optJ L.F (L.atof v) with
    | none => .ub
    | some w => .ok { p with mjd := w.mjd, date := w.date }
  else if c = 108 then                                               -- l, 472-484
    let (lat, lon, ht) := scan3 L v p.lat p.lon p.ht
    let lon := if lon < 0 then lon + 360 else lon
    if lat < -90 ∨ lat > 90 then errorExit (-1) (msgLat (L.showF lat))
    else .ok { p with lat := lat, lon := lon, ht := ht, inGeopos := true }
  else if c = 110 then                                               -- n, 485-487
    match scanInt v p.maxSats with
    | none => .ub
    | some n => .ok { p with maxSats := n }
  else if c = 112 then                                               -- p, 488-503
    let (ra, dec) := scan2 L v p.ra p.dec
    if ra < 0 ∨ ra > 360 then errorExit (-1) (msgRa (L.showF ra))
    else if dec < -90 ∨ dec > 90 then errorExit (-1) (msgDec (L.showF dec))
    else .ok { p with ra := ra, dec := dec, inRegion := true }
  else if c = 114 then                                               -- r, 504-506
    .ok { p with radius := L.atof v }
  else if c = 115 then                                               -- s, 507-512
    .ok { p with noradN := noradArg v, singleN := true, altRange := false, inRegion := false }
  else if c = 83 then                                                -- S, 513-517
    match copyTo 24 v with
    | none => .ub
    | some d => .ok { p with satname := d, nameFilter := true }
  else if c = 116 then                                               -- t, 518-520
    match int32 (truncQ (L.atof v)) with
    | none => .ub
    | some n => .ok { p with deltaTime := n }
  else                                                               -- default, 521-526
    errorExit (-2) (msgOpt a)

/-- State of the option loop: the index `i` and the parameters. -/
structure St where
  i : Nat
  p : Params
deriving DecidableEq

/-- `argv[i]` for `i < argc`; `argv[argc]` is the null pointer, so any use of it is undefined. -/
def arg (argv : List CString) (i : Nat) : Option CString := argv[i]?

/-- One execution of the loop body (lines 402-527) and `i++`, when `i < argc`.
`argv` includes the program name at index 0.  Only called with `1 ≤ i`, so `i--` cannot go below 0. -/
def body (L : Lib) (argv : List CString) (s : St) : Res St :=
  match arg argv s.i with
  | none => .ub
  | some a =>
    if rd a 0 = some 45 then
      match rd a 1, rd a 2 with
      | some opt, some c2 =>
        -- lines 405-411: `blank after option` moves to the next argument
        let i' := if c2 = 0 then s.i + 1 else s.i
        if opt = 104 then .stop .usage                                -- h
        else if isSwitch opt then .ok { i := i', p := setSwitch opt s.p }   -- `i--` then `i++`
        else
          match arg argv i' with
          | none => .ub                                              -- argv[argc] is NULL
          | some a' =>
            match setValue L opt (a'.drop (if c2 = 0 then 0 else 2)) a' s.p with
            | .ok p' => .ok { i := i' + 1, p := p' }
            | .stop e => .stop e
            | .ub => .ub
      | _, _ => .ub                                                  -- "-" alone: argv[i][2] is past the NUL
    else .ok { i := s.i + 1, p := s.p }

/-- One step of the loop machine: the state reached, or the end of the loop. -/
inductive Next where
  | run (s : St)
  | done (p : Params)
  | stop (e : Stop)
  | ub
deriving DecidableEq

/-- `for (i = 1; i < argc; i++)` (line 401): test and body. -/
def step (L : Lib) (argv : List CString) (s : St) : Next :=
  if s.i < argv.length then
    match body L argv s with
    | .ok s' => .run s'
    | .stop e => .stop e
    | .ub => .ub
  else .done s.p

/-- At most `n` steps of the loop from a state; a result other than `run` is final. -/
def steps (L : Lib) (argv : List CString) : Nat → St → Next
  | 0, s => .run s
  | n + 1, s =>
    match step L argv s with
    | .run s' => steps L argv n s'
    | r => r

/-- The initial state: defaults of lines 371-396, `i = 1`. -/
def init : St := { i := 1, p := {} }

/-- The option loop finishes with parameters `p`. -/
def Parses (L : Lib) (argv : List CString) (p : Params) : Prop := ∃ n, steps L argv n init = .done p

/-- Lines 533-538, after the loop: default directory, location required.
`DEF_TLEDIR` is `"/usr/local/TLErepo"` (`sat_skymap_def.h` 83). -/
def afterLoop (p : Params) : Res Params :=
  let p := if p.defDir then { p with tlePath := b!"/usr/local/TLErepo" } else p
  if p.inGeopos then .ok p else .stop .usage

end SatSky.Opts
