import Verif.Model.VisOptions
import Verif.Model.Visibility
import Verif.Model.Printf
import Verif.Model.Main

/-!
`main` of `sat_visibility` (`src/sat_visibility.c` 541-1082) as a whole: from the argument vector and the
files to the text printed and the exit code.  The option loop is `Model/VisOptions.lean`, the time loop
`Model/Visibility.lean`; here are the search for the record (695-808) and the printing (332-400, 811-1082).

Not modelled: NaN and infinities among the printed numbers, wrapping of the exit code to 8 bits, the text of
`Usage`.
-/

namespace SatSky.Vis

open SatSky Dates GetEl Opts Sky Prog

/-! ### The search for the record -/

/-- `strcpy`/`snprintf` of a text into the beginning of an array. -/
def putStr (buf : List Int) (s : CString) : List Int := s ++ 0 :: buf.drop (s.length + 1)

/-- Lines 775-778 and 945-950: `snprintf(intl_desig, 10, "%s%.2s-%s", ...)` unless the designator of the record is
blank.  `none`: `atoi` overflows. -/
def putDesig (buf : List Int) (d : CString) : Option (List Int) :=
  if d.head? = some 32 then some buf
  else do
    let y ← atoi d
    let s := (if y > 57000 then b!"19" else b!"20") ++ d.take 2 ++ [45] ++ d.drop 2
    some (putStr buf (s.take 9))

/-- The variables of the search: `line1`, `sat_name[25]`, `intl_desig[12]`. -/
structure FSt where
  line1 : CString := []
  name : List Int
  desig : List Int := b!"none" ++ List.replicate 8 0
deriving DecidableEq

/-- Outcome of a part of the search: go on, the record was found (`tle` is the last one parsed), `exit`,
undefined behaviour. -/
inductive Find where
  | next (s : FSt)
  | hit (s : FSt) (t : Tle)
  | exit (status : ℤ) (msg : CString)
  | ub
deriving DecidableEq

/-- Lines 790-794: the window moves by one line. -/
def fadvance (s : FSt) (line2 : CString) : Find :=
  if line2.head? ≠ some 49 ∧ line2.head? ≠ some 50 then
    match setName s.name line2 with
    | none => .ub
    | some b => .next { s with line1 := line2, name := b }
  else .next { s with line1 := line2 }

/-- Lines 766-786: an element set was found in `line1`, `line2`. -/
def fconsider (p : VParams) (s : FSt) (t : Tle) (line2 : CString) : Find :=
  if p.singleN then
    if strtolVal ((s.line1.drop 2).take 5) = p.noradN then .hit s t else fadvance s line2
  else if p.singleI then
    match putDesig s.desig t.intlDesig with
    | none => .ub
    | some d =>
      if memEq d p.intlDesig then .hit { s with desig := d } t else fadvance { s with desig := d } line2
  else fadvance s line2                                                -- excluded at 711

/-- Lines 763-795: one execution of the body of `while (fgets(line2, ...))`. -/
def fstep (p : VParams) (s : FSt) (line2 : CString) : Find :=
  match parseElements s.line1 line2 with
  | none => .ub
  | some (rv, ot) =>
    if rv = 0 then
      match ot with
      | some t => fconsider p s t line2
      | none => .ub
    else fadvance s line2

/-- The `while` loop over the remaining lines of a file. -/
def flines (p : VParams) (s : FSt) : List CString → Find
  | [] => .next s
  | l :: ls =>
    match fstep p s l with
    | .next s => flines p s ls
    | f => f

/-- One file (754-795), after it was opened. -/
def ffile (p : VParams) (path : CString) (s : FSt) (content : CString) : Find :=
  match fileLines 100 content with
  | [] =>
    let msg := b!"Could not read first TLE line from file " ++ path
    if fits 128 msg then .exit (-2) msg else .ub
  | l :: ls =>
    match setName s.name l with
    | none => .ub
    | some b => flines p { s with line1 := l, name := b } ls

/-- The files in the order they are opened (724-800); the content is `none` when `fopen` fails. -/
def ffiles (p : VParams) (s : FSt) : List (CString × Option CString) → Find
  | [] => .next s
  | (path, none) :: _ =>
    let msg := b!"Could not open input file " ++ path
    if fits 128 msg then .exit 2 msg else .ub
  | (path, some content) :: fs =>
    match ffile p path s content with
    | .next s => ffiles p s fs
    | f => f

/-! ### Printed texts -/

/-- The numbers of `add_satlatlon_json` (364-367). -/
structure GeoNums where
  lat : ℚ
  lon : ℚ
  alt : ℚ
  theta : ℚ

/-- The numbers of `add_sundata_json` (379-384). -/
structure SunNums where
  ra : ℚ
  dec : ℚ
  az : ℚ
  alt : ℚ
  lon : ℚ
  parang : ℚ
  sep : ℚ

/-- The numbers of `add_satdata_json` (369-377), apart from the times. -/
structure SatNums where
  ra : ℚ
  dec : ℚ
  az : ℚ
  alt : ℚ
  dist : ℚ
  sep : ℚ
  pa : ℤ
  speed : ℚ

/-- Everything outside the control flow: library conversions, files, numerical results. -/
structure VWorld where
  L : Lib
  /-- `fopen(path, "rb")` and the content of the file. -/
  file : CString → Option CString
  /-- `p.az`, `p.alt`, `p.parang` of the zenith (827). -/
  zenith : VParams → ℚ × ℚ × ℚ
  /-- What the time loop learns. -/
  hist : VParams → Tle → History
  geo : VParams → Tle → ℚ → GeoNums
  sun : VParams → ℚ → SunNums
  sat : VParams → Tle → Block → SatNums
  /-- The uninitialised array `sat_name[25]`. -/
  junk : List Int

/-- `%w.pf`. -/
def fmtW (w p : Nat) (x : ℚ) : CString := padLeft w (fmtF p x)

/-- `open_json` (332-337). -/
def vopenJson : CString :=
  b!"{\"swinfo\": {\"name\": \"sat_visibility\", \"author\": \"L. Nicastro @ INAF-OAS\", \"date\": \"2024-05-13\", \"version\": \"0.1a\"}, "

/-- `add_params_json` (339-345), called at 828: `p.ra_deg`, `p.lmst` and `p.gmst` have not been set yet, they are the
zeros of the global structure; `p.de_deg` is the latitude (822). -/
def vparamsJson (file : CString) (z : ℚ × ℚ × ℚ) (p : VParams) : CString :=
  b!"\"input_params\": {\"tle_file\": " ++ q file
    ++ b!", \"location\": {\"lat\":" ++ fmtW 8 4 p.lat ++ b!", \"lon\":" ++ fmtW 9 4 p.lon ++ b!", \"alt\":" ++ fmtW 8 1 p.ht
    ++ b!"}, \"region\": {\"ra\":" ++ fmtW 9 4 0 ++ b!", \"dec\":" ++ fmtW 8 4 p.lat ++ b!", \"radius\":" ++ fmtW 8 4 p.radius
    ++ b!", \"lmst\":" ++ fmtW 8 4 0 ++ b!", \"az\":" ++ fmtW 9 4 z.1 ++ b!", \"alt\":" ++ fmtW 8 4 z.2.1 ++ b!", \"parang\":" ++ fmtW 8 3 z.2.2
    ++ b!"}, \"mjd_range\": [" ++ fmtW 11 5 p.mjd0 ++ b!", " ++ fmtW 11 5 p.mjd1 ++ b!"], \"date_utc_range\": [" ++ q p.date0 ++ b!", " ++ q p.date1
    ++ b!"], \"gmst\":" ++ fmtW 8 4 0 ++ b!", \"delta_time_s\": " ++ intText p.dt
    ++ b!", \"notes\": \"All coordinates and radius in degrees. GMST, LMST in hrs.\"}, "

/-- `add_fieldsdesc_json` (347-352). -/
def vfieldsDesc : CString :=
  b!"\"sat_fields\": {\"desc\": [\"Date start/end sunlit\", \"MJD start/end sunlit\", \"RA J2000\", \"Dec J2000\", \"Azimuth\", \"Altitude\", \"Distance to sat.\", \"Angular separation\", \"Position angle\", \"Apparent angular rate of motion\"], \"type\": [\"datetime\", \"double\", \"double\", \"double\", \"double\", \"double\", \"double\", \"float\", \"float\", \"float\"], \"unit\": [\"\", \"MJD\", \"deg\", \"deg\", \"deg\", \"deg\", \"km\", \"deg\", \"deg\", \"arcmin/s\"]},"

/-- The ending of the labels. -/
def Label.text : Label → CString
  | .start => b!"start"
  | .fin => b!"end"
  | .mid => b!"mid"
  | .max => b!"max"

/-- `add_satlatlon_json` (364-367). -/
def vgeoJson (label : CString) (g : GeoNums) : CString :=
  q label ++ b!": {\"lat\":" ++ fmtW 7 3 g.lat ++ b!", \"lon\":" ++ fmtW 7 3 g.lon ++ b!", \"alt\":" ++ fmtW 9 2 g.alt
    ++ b!", \"theta\":" ++ fmtW 8 3 g.theta ++ b!"}, "

/-- `add_sundata_json` (379-384). -/
def vsunJson (label : CString) (u : SunNums) : CString :=
  q label ++ b!": {\"ra\":" ++ fmtW 7 3 u.ra ++ b!", \"dec\":" ++ fmtW 7 3 u.dec ++ b!", \"az\":" ++ fmtW 8 3 u.az
    ++ b!", \"alt\":" ++ fmtW 7 3 u.alt ++ b!", \"lon\":" ++ fmtW 8 3 u.lon ++ b!", \"parang\":" ++ fmtW 8 3 u.parang
    ++ b!", \"separation_deg\":" ++ fmtW 7 3 u.sep ++ b!"}, "

/-- `add_satdata_json` (369-377). -/
def vsatJson (label date : CString) (mjd : ℚ) (s : SatNums) : CString :=
  q label ++ b!": {\"Date\": " ++ q date ++ b!", \"MJD\": " ++ fmtW 11 5 mjd ++ b!", \"ra\": " ++ fmtW 8 4 s.ra
    ++ b!", \"dec\": " ++ fmtW 8 4 s.dec ++ b!", \"az\":" ++ fmtW 9 4 s.az ++ b!", \"alt\":" ++ fmtW 8 4 s.alt
    ++ b!", \"Distance\": " ++ fmtW 9 2 s.dist ++ b!", \"Separation\": " ++ fmtW 6 4 s.sep
    ++ b!", \"PA\": " ++ padLeft 3 (intText s.pa) ++ b!", \"Speed\": " ++ fmtW 6 3 s.speed ++ [125]
    ++ (if label = b!"sat_max" then [] else b!", ")

/-- One group (e.g. 961-969).  `none`: `mjd2date` returns NULL or overflows its buffer. -/
def vblockJson (W : VWorld) (p : VParams) (t : Tle) (b : Block) : Option CString :=
  match optJ W.L.F b.date with
  | none => none
  | some w => some (vgeoJson (b!"geoloc_" ++ b.label.text) (W.geo p t b.satAt) ++ vsunJson (b!"sun_" ++ b.label.text) (W.sun p b.sunAt)
      ++ vsatJson (b!"sat_" ++ b.label.text) w.date b.mjd (W.sat p t b))

/-- The groups in order. -/
def vblocksJson (W : VWorld) (p : VParams) (t : Tle) : List Block → Option CString
  | [] => some []
  | b :: bs =>
    match vblockJson W p t b, vblocksJson W p t bs with
    | some x, some y => some (x ++ y)
    | _, _ => none

/-- `close_stat_json` (386-400). -/
def vcloseJson (argv : List CString) (inputList : Bool) (status : ℤ) (msg : CString) (nFound : ℤ) : CString :=
  b!"\"run_command\": " ++ q (b!"sat_visibility" ++
      (if inputList then b!" @" ++ argv.getD 1 [] ++ (argv.drop 2).flatMap (fun a => 32 :: a)
       else (argv.drop 1).flatMap (fun a => 32 :: a)))
    ++ b!", \"status\": " ++ intText status ++ b!", \"errmsg\": " ++ q msg ++ b!", \"n_sats_found\": " ++ intText nFound ++ b!"}\n"

/-! ### The program -/

/-- The message of line 555 (it contains a newline). -/
def vmsgUsage : CString :=
  b!"Example usage:\n sat_visibility stations.txt -l-29.25627,-70.73805,2400 -j58941.72,58941.73 -s 25544"

/-- Lines 553-558: called without arguments. -/
def vnoArgs (argv : List CString) : Outcome := .exit 0 (vopenJson ++ vcloseJson argv false 1 vmsgUsage 0)

/-- The parameters of the time loop (671-672). -/
def cfgOf (F : Fl64) (p : VParams) : Cfg where
  F := F
  jd0 := F.rnd (jdOff + p.mjd0)
  jd1 := F.rnd (jdOff + p.mjd1)
  dt := p.dt
  radius := p.radius
  filter := p.altRange
  altMin := p.altMin
  altMax := p.altMax
  skipDay := p.skipDay

/-- The designator printed at 959, from the array after the search (945-950). -/
def printedDesig (p : VParams) (s : FSt) (t : Tle) : Option CString :=
  (if p.singleI then some s.desig else putDesig s.desig t.intlDesig).bind cstr

/-- Lines 956-959: what precedes the groups. -/
def satHead (nm ds : CString) (t : Tle) : CString :=
  vfieldsDesc ++ b!" \"satellite\": {\"name\": " ++ q nm ++ b!", \"intl_desig\": " ++ q ds ++ b!", \"norad_n\": " ++ intText t.norad ++ b!", "

/-- What was printed for the groups `bs`: nothing if there are none. -/
def passText (W : VWorld) (p : VParams) (s : FSt) (t : Tle) (bs : List Block) : Option CString :=
  if bs = [] then some []
  else
    match cstr s.name, printedDesig p s t, vblocksJson W p t bs with
    | some nm, some ds, some x => some (satHead nm ds t ++ x)
    | _, _, _ => none

/-- Lines 977-1082: the end of a search that ended regularly with these variables at line 1067. -/
def normalEnd (W : VWorld) (argv : List CString) (inputList : Bool) (name : CString) (p : VParams) (s : FSt) (t : Tle) (r : TSt) : Outcome :=
  let C := cfgOf W.L.F p
  let pre := vopenJson ++ geoFields ++ vparamsJson name (W.zenith p) p
  match passText W p s t r.blocks with
  | none => .ub
  | some x =>
    if r.blocks = [] then .exit 0 (pre ++ x ++ vsunJson b!"sun" (W.sun p C.jd0) ++ vcloseJson argv inputList 0 [] 0)
    else .exit 0 (pre ++ x ++ b!"}, \"sunlit_duration_minutes\": " ++ fmtF 2 (minutes C W.L.G r) ++ b!", " ++ vcloseJson argv inputList 0 [] 1)

/-- Lines 872-876: the altitude filter ends the program. -/
def rangeEnd (W : VWorld) (argv : List CString) (inputList : Bool) (name : CString) (p : VParams) (s : FSt) (t : Tle) (r : TSt) : Outcome :=
  let pre := vopenJson ++ geoFields ++ vparamsJson name (W.zenith p) p
  match passText W p s t r.blocks with
  | none => .ub
  | some x => .exit 1 (pre ++ x ++ vcloseJson argv inputList 2 b!"Satellite altitude out of requested range" (if r.blocks = [] then 0 else 1))

/-- Lines 811-1082, after the record was found: the time loop runs and the program ends with `o`. -/
def Observes (W : VWorld) (argv : List CString) (inputList : Bool) (name : CString) (p : VParams) (s : FSt) (t : Tle) (o : Outcome) : Prop :=
  (∃ r, Ends (cfgOf W.L.F p) (W.hist p t) r ∧ o = normalEnd W argv inputList name p s t r) ∨
  ∃ t0 n r, Begins (cfgOf W.L.F p) (W.hist p t) t0 ∧ timeLoop (cfgOf W.L.F p) (W.hist p t) n { t := t0 } = .outOfRange r ∧
    o = rangeEnd W argv inputList name p s t r

/-- Lines 724-1082 for the files `paths`.  With no file at all `fclose` gets a null pointer (802). -/
def Searches (W : VWorld) (argv : List CString) (inputList : Bool) (name : CString) (p : VParams) (paths : List CString) (o : Outcome) : Prop :=
  match ffiles p { name := W.junk } (paths.map (fun f => (f, W.file f))) with
  | .ub => o = .ub
  | .exit st msg => o = .exit st (vopenJson ++ vcloseJson argv inputList st msg 0)
  | .hit s t => Observes W argv inputList name p s t o
  | .next _ =>
    match paths.getLast? with
    | none => o = .ub
    | some path =>
      let msg := b!"Satellite not found in " ++ path
      o = if fits 128 msg then .exit 1 (vopenJson ++ vcloseJson argv inputList 1 msg 0) else .ub

/-- Lines 691-1082, with the parameters of the option loop and the TLE directory settled. -/
def Computes (W : VWorld) (argv : List CString) (p : VParams) (o : Outcome) : Prop :=
  let i := fileIndex argv
  let a := argv.getD i []
  let need := b!"Need to input a NORAD ID or an international designator."
  if a.head? = some 64 then
    -- `++argv[iarg]`, the vector is changed
    let name := a.drop 1
    let argv' := argv.set i name
    let path := p.tlePath ++ 47 :: name
    if fits 200 path then
      match W.file path with
      | none =>
        let msg := b!"Could not open input file " ++ path
        o = if fits 128 msg then .exit 2 (vopenJson ++ vcloseJson argv' true 2 msg 0) else .ub
      | some content =>
        if p.singleN = false ∧ p.singleI = false then o = .exit 2 (vopenJson ++ vcloseJson argv' true 2 need 0)
        else Searches W argv' true name p (listPaths p.tlePath content) o
    else o = .ub
  else if p.singleN = false ∧ p.singleI = false then o = .exit 2 (vopenJson ++ vcloseJson argv false 2 need 0)
  else
    match singlePath p.tlePath a with
    | none => o = .ub
    | some path => Searches W argv false a p [path] o

/-- The program, called with `argv` (including the program name), ends with outcome `o`. -/
def VRuns (W : VWorld) (argv : List CString) (o : Outcome) : Prop :=
  if argv.length < 2 then o = vnoArgs argv
  else ∃ n,
    match vsteps W.L argv n vinit with
    | .run _ => False
    | .ub => o = .ub
    | .stop .usage => o = .usage
    | .stop (.error st msg) => o = .exit st (vopenJson ++ vcloseJson argv false st msg 0)
    | .done p =>
      match vafterLoop p with
      | .ok p => Computes W argv p o
      | .stop .usage => o = .usage
      | .stop (.error st msg) => o = .exit st (vopenJson ++ vcloseJson argv false st msg 0)
      | .ub => o = .ub

end SatSky.Vis
