import Verif.Model.GetEl
import Verif.Model.Options

/-!
The reading loop of `sat_skymap` (`src/sat_skymap.c` 671-942).

What is abstracted: everything that is computed from the elements of one satellite by the
propagators and the geometry functions is one record `Obs`, given by an arbitrary function of the
elements (the observer, the date and the Sun are fixed during a run).  Text of numbers printed with
`%f` is part of `Obs`.  Files are sequences of characters without NUL.
`malloc`/`realloc` are assumed to succeed.
-/

namespace SatSky.Sky

open SatSky Dates GetEl Opts

/-! ### Library functions -/

/-- The characters `fgets` takes from a stream when room for `n` characters is left: up to and
including the first newline. -/
def takeLine : Nat → CString → CString × CString
  | 0, s => ([], s)
  | _ + 1, [] => ([], [])
  | n + 1, c :: t => if c = 10 then ([c], t) else let (l, r) := takeLine n t; (c :: l, r)

/-- `fgets(buf, n, f)` on the rest `s` of a file: the string stored and the new rest; `none` at the
end of the file. -/
def fgets (n : Nat) (s : CString) : Option (CString × CString) :=
  match s with
  | [] => none
  | c :: t => some (takeLine (n - 1) (c :: t))

/-- All the strings that repeated calls of `fgets(buf, n, f)` deliver; `k` bounds the number of calls
(each call with `n ≥ 2` takes at least one character, so the length of the file is enough). -/
def linesGo (n : Nat) : Nat → CString → List CString
  | 0, _ => []
  | k + 1, s =>
    match fgets n s with
    | none => []
    | some (l, r) => l :: linesGo n k r

/-- The lines of a file as read with a buffer of `n` characters. -/
def fileLines (n : Nat) (s : CString) : List CString := linesGo n s.length s

/-- The C string in a character array: `none` if there is no NUL in it. -/
def cstr (buf : List Int) : Option CString :=
  if 0 ∈ buf then some (buf.takeWhile (· ≠ 0)) else none

/-- `strncpy(dst, src, n)` into the beginning of an array (`n ≤` its size): at most `n` characters,
filled up with NULs. -/
def strncpy (dst : List Int) (src : CString) (n : Nat) : List Int :=
  let w := src.take n
  w ++ List.replicate (n - w.length) 0 ++ dst.drop n

/-- The `while` loop of `trimend` (`sat_skymap.c` 137): index `end - str` after it. -/
def trimIdx (s : CString) : Nat → Nat
  | 0 => 0
  | e + 1 => if isSpace (s.getD (e + 1) 0) then trimIdx s e else e + 1

/-- `sat_skymap.c` 132-141 `trimend` on a character array.  `none`: no NUL in the array, or the empty
string (then `end` points before the array). -/
def trimend (buf : List Int) : Option (List Int) :=
  match cstr buf with
  | none => none
  | some [] => none
  | some (c :: t) => some (buf.set (trimIdx (c :: t) t.length + 1) 0)

/-- `strncpy(sat_name, line, 23); trimend(sat_name);` (lines 709-710, 918-919). -/
def setName (buf : List Int) (line : CString) : Option (List Int) := trimend (strncpy buf line 23)

/-- `strstr(hay, needle) != NULL` (7.24.5.7): the needle occurs somewhere. -/
def strstr (hay needle : CString) : Bool :=
  match hay with
  | [] => needle.isEmpty
  | c :: t => needle.isPrefixOf (c :: t) || strstr t needle

/-! ### Per satellite data -/

/-- Everything the loop uses or prints that is computed from one element set: `isnan(ra)||isnan(dec)`
(767), `geo.alt` (781), `ang_sep`, `ang_sep1` (808-846), `is_sunlit` (856), and the printed numbers of
`add_satlatlon_json` (lat, lon, alt, theta) and of the `data` array (892-895). -/
structure Obs where
  nan : Bool
  alt : ℚ
  sep : ℚ
  sep1 : ℚ
  sunlit : Bool
  geoNums : CString × CString × CString × CString
  dataNums : List CString
  hpx : CString
deriving DecidableEq

/-- One reported satellite (ghost: what was printed for it, in order of printing). -/
structure Report where
  name : CString
  desig : CString
  cat : CString
  tle : Tle
  obs : Obs
deriving DecidableEq

/-- `snprintf(intl_desig, 10, "%s%.2s-%s", ...)` (728-731, 861-864), or the initial `"none"`.
`none` when `atoi` overflows. -/
def desigText (d : CString) : Option CString :=
  if d.head? = some 32 then some b!"none"
  else do
    let y ← atoi d
    let s := (if y > 57000 then b!"19" else b!"20") ++ d.take 2 ++ [45] ++ d.drop 2
    some (s.take 9)

/-- `memcmp(buf, s, strlen(s)) == 0` for a buffer at least as long as `s`. -/
def memEq (buf s : List Int) : Bool := s.isPrefixOf buf

/-- State of the loops 671-924.  `reports` and `exam` are ghost: the satellites printed/counted and
the element sets accepted by `parse_elements`, in order. -/
structure LoopSt where
  line1 : CString := []
  name : List Int
  seen : CString := []
  useLen : Nat := 0
  curLen : Nat := 70000
  found : Bool := false
  nFound : ℤ := 0
  nSunlit : ℤ := 0
  out : CString := []
  reports : List Report := []
  exam : List (CString × CString) := []

/-- Outcome of a part of the loop: go on, `goto end_checking`, `exit` after an error (status and
exit code), undefined behaviour. -/
inductive Flow where
  | next (s : LoopSt)
  | stop (s : LoopSt)
  | exit (status code : ℤ) (msg : CString) (s : LoopSt)
  | ub

/-- `single_sat` (599-602). -/
def single (p : Params) : Bool := p.singleN || p.singleI

/-- `p.geoloc_requested` after line 601. -/
def geoRequested (p : Params) : Bool := p.geoloc || single p

/-- Decimal text of an `int` (`%d`). -/
def intText (x : ℤ) : CString := if x < 0 then 45 :: natText x.natAbs else natText x.natAbs

/-- A JSON string as the program prints it: the characters between double quotes, not escaped. -/
def q (s : CString) : CString := 34 :: s ++ [34]

/-- `add_fieldsdesc_json` (209-215). -/
def fieldsDesc : CString :=
  b!"\"data_fields\": {\"name\": [\"RA_start\", \"Dec_start\", \"RA_end\", \"Dec_end\", \"Distance\", \"Separation\", \"PA\", \"Speed\", \"sunlit\", \"HPXID_8\"], \"desc\": [\"RA T_ini\", \"Dec T_ini\", \"RA T_end\", \"Dec T_end\", \"distance to sat.\", \"angular separation\", \"position angle\", \"apparent angular rate of motion\", \"sunlit sat. flag\", \"HEALPix order 8 nested schema ID\"], \"type\": [\"double\", \"double\", \"double\", \"double\", \"double\", \"float\", \"float\", \"float\", \"int\", \"int\"], \"unit\": [\"deg\", \"deg\", \"deg\", \"deg\", \"km\", \"deg\", \"deg\", \"arcmin/s\", \"\", \"\"]},"

/-- `add_satlatlon_json` (227-229). -/
def geoJson (o : Obs) : CString :=
  b!"\"geoloc\": {\"lat\":" ++ o.geoNums.1 ++ b!", \"lon\":" ++ o.geoNums.2.1 ++ b!", \"alt\":"
    ++ o.geoNums.2.2.1 ++ b!", \"theta\":" ++ o.geoNums.2.2.2 ++ b!"}, "

/-- The object printed for one satellite (886-895). -/
def satJson (geo : Bool) (r : Report) : CString :=
  b!"{\"name\": " ++ q r.name ++ b!", \"intl_desig\": " ++ q r.desig ++ b!", \"norad_n\": "
    ++ intText r.tle.norad ++ b!", " ++ (if geo then geoJson r.obs else [])
    ++ b!"\"data\": [" ++ (r.obs.dataNums.flatMap (· ++ [44])) ++ (if r.obs.sunlit then [49] else [48])
    ++ [44] ++ r.obs.hpx ++ b!"]}"

/-- Lines 876-897: what is printed for a satellite, given how many were found before. -/
def emit (p : Params) (n : ℤ) (r : Report) : CString :=
  if p.infoOnly then []
  else (if n > 0 then b!", " else fieldsDesc ++ b!" \"satellites\": [") ++ satJson (geoRequested p) r

/-- Lines 915-920, the end of the body of the `while`: the window moves by one line. -/
def advance (s : LoopSt) (line2 : CString) : Flow :=
  if line2.head? ≠ some 49 ∧ line2.head? ≠ some 50 then
    match setName s.name line2 with
    | none => .ub
    | some b => .next { s with line1 := line2, name := b }
  else .next { s with line1 := line2 }

/-- Lines 722-742: may the satellite be the one asked for?  `none` is undefined behaviour;
`some (continue?, single_sat_found)`. -/
def select (p : Params) (s : LoopSt) (cat : CString) (t : Tle) : Option (Bool × Bool) :=
  if p.singleN then
    let found := s.found || (strtolVal cat == p.noradN)
    some (single p && !found, found)
  else if p.singleI then
    match desigText t.intlDesig with
    | none => none
    | some d =>
      let found := s.found || memEq (d ++ List.replicate (12 - d.length) 0) p.intlDesig
      some (single p && !found, found)
  else if p.nameFilter then
    some (!memEq s.name p.satname, s.found)
  else some (false, s.found)

/-- Lines 745-762: note the catalogue text; `none` when `strcat` writes past the buffer. -/
def remember (s : LoopSt) (key : CString) : Option LoopSt :=
  let cur := if s.useLen ≥ s.curLen then s.curLen + 10000 else s.curLen
  if s.seen.length + key.length + 1 ≤ cur then
    some { s with seen := s.seen ++ key, useLen := s.useLen + 6, curLen := cur }
  else none

/-- Lines 850-911: the satellite is printed and counted. -/
def report (p : Params) (s : LoopSt) (cat : CString) (t : Tle) (o : Obs) (line2 : CString) : Flow :=
  -- 852 `line1[16] = '\0'`
  let s := { s with line1 := s.line1.take 16 }
  if p.sunlitOnly && !o.sunlit then .next s                            -- 858 continue
  else
    match cstr s.name, desigText t.intlDesig with
    | some nm, some d =>
      let r : Report := { name := nm, desig := d, cat := cat, tle := t, obs := o }
      let s := { s with
        out := s.out ++ emit p s.nFound r
        reports := s.reports ++ [r]
        nFound := s.nFound + 1
        nSunlit := if o.sunlit then s.nSunlit + 1 else s.nSunlit }
      if s.found || s.nFound = p.maxSats then .stop s                  -- 907-910
      else advance s line2
    | _, _ => .ub

/-- Lines 764-911: positions, altitude filter, region test. -/
def observe (p : Params) (E : Tle → Obs) (s : LoopSt) (cat : CString) (t : Tle) (line2 : CString) : Flow :=
  let o := E t
  if o.nan then .exit 2 1 b!"Could not decode TLE data" s
  else if p.altRange && (decide (o.alt < p.altMin) || decide (o.alt > p.altMax)) then .next s  -- continue
  else if single p || p.nameFilter || decide (o.sep ≤ p.radius) || decide (o.sep1 ≤ p.radius) then
    report p s cat t o line2
  else advance s line2

/-- Lines 715-912: an element set was found in `line1`, `line2`. -/
def consider (p : Params) (E : Tle → Obs) (s : LoopSt) (t : Tle) (line2 : CString) : Flow :=
  let cat := (s.line1.drop 2).take 5                                   -- `line1` has ≥ 69 characters here
  let s := { s with exam := s.exam ++ [(s.line1, line2)] }
  match select p s cat t with
  | none => .ub
  | some (skip, found) =>
    let s := { s with found := found }
    if skip then .next s
    else if strstr s.seen (cat ++ [44]) then .next s
    else
      match remember s (cat ++ [44]) with
      | none => .ub
      | some s => observe p E s cat t line2

/-- Lines 712-921: one execution of the body of `while (fgets(line2, ...))`. -/
def tleStep (p : Params) (E : Tle → Obs) (s : LoopSt) (line2 : CString) : Flow :=
  match parseElements s.line1 line2 with
  | none => .ub
  | some (rv, ot) =>
    if rv = 0 then
      match ot with
      | some t => consider p E s t line2
      | none => .ub
    else advance s line2

/-- The `while (fgets(line2, ...))` loop over the remaining lines of a file. -/
def tleLoop (p : Params) (E : Tle → Obs) (s : LoopSt) : List CString → Flow
  | [] => .next s
  | l :: ls =>
    match tleStep p E s l with
    | .next s => tleLoop p E s ls
    | f => f

/-- One file (lines 702-923), after it was opened.  `path` is used in the message. -/
def fileLoop (p : Params) (E : Tle → Obs) (path : CString) (s : LoopSt) (content : CString) : Flow :=
  match fileLines 100 content with
  | [] =>
    let msg := b!"Could not read first TLE line from file " ++ path
    if fits 128 msg then .exit (-2) (-2) msg s else .ub
  | l :: ls =>
    match setName s.name l with
    | none => .ub
    | some b => tleLoop p E { s with line1 := l, name := b } ls

/-- The files in the order they are opened (lines 671-924); the content is `none` when `fopen` fails. -/
def filesLoop (p : Params) (E : Tle → Obs) (s : LoopSt) : List (CString × Option CString) → Flow
  | [] => .next s
  | (path, none) :: _ =>
    let msg := b!"Could not open input file " ++ path
    if fits 128 msg then .exit 2 2 msg s else .ub
  | (path, some content) :: fs =>
    match fileLoop p E path s content with
    | .next s => filesLoop p E s fs
    | f => f

/-- The state before the first file (351-353, 583-596): `junk` is the uninitialised array `sat_name`. -/
def start (junk : List Int) : LoopSt := { name := junk }

end SatSky.Sky
