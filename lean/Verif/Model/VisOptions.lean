import Verif.Model.Options

/-!
Command line processing of `sat_visibility` (`src/sat_visibility.c` 541-683), in the manner of
`Model/Options.lean`: one step is one execution of the body of the `for` loop followed by `i++`.
Conversions of text to `double` are parameters (`Lib`).
-/

namespace SatSky.Vis

open SatSky Dates Opts

/-- `Params` (`sat_visibility_def.h` 24-51) as far as the option loop sets it, with the local variables
`tle_path`, `in_geopos` (`len_intl_desig` is the length of `intl_desig`).  Defaults of lines 562-571; the
rest of the global structure is zero. -/
structure VParams where
  date0 : CString := []
  date1 : CString := []
  mjd0 : ℚ := 0
  mjd1 : ℚ := 0
  intlDesig : CString := []
  lat : ℚ := 0
  lon : ℚ := 0
  ht : ℚ := 0
  radius : ℚ := 90
  altMin : ℚ := 0
  altMax : ℚ := 10 ^ 32
  dt : ℤ := 3
  noradN : ℤ := 0
  skipDay : Bool := false
  singleI : Bool := false
  singleN : Bool := false
  altRange : Bool := false
  defDir : Bool := false
  tlePath : CString := b!"."
  inGeopos : Bool := false
deriving DecidableEq

/-- The conversion `%ws` of `sscanf` (C11 7.21.6.2): skip white space, then at most `w` characters that are not
white space; a matching failure if there is none. -/
def scanWord (w : Nat) (s : CString) : Option (CString × CString) :=
  let s := s.dropWhile isSpace
  let t := (s.take w).takeWhile (fun c => !isSpace c)
  if t = [] then none else some (t, s.drop t.length)

/-- `sscanf(s, "%19s,%19s", a, b)` (615): the two texts after the call. -/
def scanDates (s a b : CString) : CString × CString :=
  match scanWord 19 s with
  | none => (a, b)
  | some (x, r) =>
    match (scanLit 44 r).bind (scanWord 19) with
    | none => (x, b)
    | some (y, _) => (x, y)

/-- The switches `-N`, `-T` (591-598). -/
def isVSwitch (c : CChar) : Bool := c == 78 || c == 84

/-- The body of a switch case (without the `i--`). -/
def setVSwitch (c : CChar) (p : VParams) : VParams :=
  if c = 78 then { p with skipDay := true } else { p with defDir := true }

/-- The body of a case with a value, lines 601-667.  `v` is `argv[i] + par_pos`, `a` is `argv[i]`. -/
def setVValue (L : Lib) (c : CChar) (v a : CString) (p : VParams) : Res VParams :=
  if c = 97 then                                                     -- a, 601-609
    let (lo, hi) := scan2 L v p.altMin p.altMax
    let (lo, hi) := if hi < lo then (hi, lo) else (lo, hi)
    .ok { p with altMin := lo, altMax := hi, altRange := true }
  else if c = 100 then                                               -- d, 610-618
    if 45 ∈ v then
      let (d0, d1) := scanDates v p.date0 p.date1
      .ok { p with date0 := d0, date1 := d1, mjd0 := (date2mjdNf L.F L.G d0).2, mjd1 := (date2mjdNf L.F L.G d1).2 }
    else .stop .usage
  else if c = 68 then                                                -- D, 619-622
    match copyTo 128 v with
    | none => .ub
    | some d => .ok { p with tlePath := d, defDir := false }
  else if c = 105 then                                               -- i, 623-628
    match copyTo 12 v with
    | none => .ub
    | some d => .ok { p with intlDesig := d, singleI := true, altRange := false }
  else if c = 106 then                                               -- j, 629-637
    if 45 ∈ v then .stop .usage
    else
      let (x, y) := scan2 L v p.mjd0 p.mjd1
      match optJ L.F x, optJ L.F y with
      | some w0, some w1 => .ok { p with mjd0 := x, mjd1 := y, date0 := w0.date, date1 := w1.date }
      | _, _ => .ub
  else if c = 108 then                                               -- l, 638-650
    let (lat, lon, ht) := scan3 L v p.lat p.lon p.ht
    let lon := if lon < 0 then lon + 360 else lon
    if lat < -90 ∨ lat > 90 then errorExit (-1) (msgLat (L.showF lat))
    else .ok { p with lat := lat, lon := lon, ht := ht, inGeopos := true }
  else if c = 114 then                                               -- r, 651-653
    .ok { p with radius := L.atof v }
  else if c = 115 then                                               -- s, 654-658
    .ok { p with noradN := noradArg v, singleN := true, altRange := false }
  else if c = 116 then                                               -- t, 659-661
    match int32 (truncQ (L.atof v)) with
    | none => .ub
    | some n => .ok { p with dt := n }
  else                                                               -- default, 662-667
    errorExit (-2) (msgOpt a)

/-- State of the option loop. -/
structure VSt where
  i : Nat
  p : VParams
deriving DecidableEq

/-- One execution of the loop body (577-669) and `i++`, when `i < argc`. -/
def vbody (L : Lib) (argv : List CString) (s : VSt) : Res VSt :=
  match arg argv s.i with
  | none => .ub
  | some a =>
    if rd a 0 = some 45 then
      match rd a 1, rd a 2 with
      | some opt, some c2 =>
        let i' := if c2 = 0 then s.i + 1 else s.i
        if opt = 104 then .stop .usage                                -- h
        else if isVSwitch opt then .ok { i := i', p := setVSwitch opt s.p }
        else
          match arg argv i' with
          | none => .ub
          | some a' =>
            match setVValue L opt (a'.drop (if c2 = 0 then 0 else 2)) a' s.p with
            | .ok p' => .ok { i := i' + 1, p := p' }
            | .stop e => .stop e
            | .ub => .ub
      | _, _ => .ub
    else .ok { i := s.i + 1, p := s.p }

/-- One step of the loop machine: the state reached, or the end of the loop. -/
inductive VNext where
  | run (s : VSt)
  | done (p : VParams)
  | stop (e : Stop)
  | ub
deriving DecidableEq

/-- `for (i = 1; i < argc; i++)` (576): test and body. -/
def vstep (L : Lib) (argv : List CString) (s : VSt) : VNext :=
  if s.i < argv.length then
    match vbody L argv s with
    | .ok s' => .run s'
    | .stop e => .stop e
    | .ub => .ub
  else .done s.p

/-- At most `n` steps of the loop; a result other than `run` is final. -/
def vsteps (L : Lib) (argv : List CString) : Nat → VSt → VNext
  | 0, s => .run s
  | n + 1, s =>
    match vstep L argv s with
    | .run s' => vsteps L argv n s'
    | r => r

/-- The initial state. -/
def vinit : VSt := { i := 1, p := {} }

/-- The option loop finishes with parameters `p`. -/
def VParses (L : Lib) (argv : List CString) (p : VParams) : Prop := ∃ n, vsteps L argv n vinit = .done p

/-- Lines 675-682, after the loop: default directory, location required. -/
def vafterLoop (p : VParams) : Res VParams :=
  let p := if p.defDir then { p with tlePath := b!"/usr/local/TLErepo" } else p
  if p.inGeopos then .ok p else .stop .usage

end SatSky.Vis
