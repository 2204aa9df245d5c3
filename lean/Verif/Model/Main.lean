import Verif.Model.SkyLoop

/-!
`main` of `sat_skymap` (`src/sat_skymap.c` 345-942) as a whole: from the argument vector and the files
to the text printed and the exit code.  The option loop is `Model/Options.lean`, the reading loop
`Model/SkyLoop.lean`.

Not modelled: failure of `malloc` (line 583), wrapping of the exit code to 8 bits, the text of `Usage`.
-/

namespace SatSky.Prog

open SatSky Dates GetEl Opts Sky

/-- Texts of the numbers in `add_params_json` (195-201), in the order printed. -/
structure ParamTexts where
  lat : CString
  lon : CString
  ht : CString
  ra : CString
  dec : CString
  radius : CString
  lmst : CString
  az : CString
  alt : CString
  parang : CString
  mjd : CString
  gmst : CString

/-- Texts of the numbers in `add_sundata_json` (203-207). -/
structure SunTexts where
  ra : CString
  dec : CString
  az : CString
  alt : CString
  lon : CString
  parang : CString
  sep : CString

/-- Everything outside the control flow: library conversions, files, numerical results. -/
structure World where
  L : Lib
  /-- `fopen(path, "rb")` and the content of the file. -/
  file : CString → Option CString
  nums : Params → ParamTexts
  sun : Params → SunTexts
  E : Params → Tle → Obs
  /-- The uninitialised array `sat_name[25]`. -/
  junk : List Int

/-- What the run does: prints the usage text, exits with a code after printing a text, or has undefined
behaviour. -/
inductive Outcome where
  | usage
  | exit (code : ℤ) (out : CString)
  | ub
deriving DecidableEq

/-- `open_json` (188-193). -/
def openJson : CString :=
  b!"{\"swinfo\": {\"name\": \"sat_skymap\", \"author\": \"L. Nicastro @ INAF-OAS\", \"date\": \"2024-05-06\", \"version\": \"0.3f\"}, "

/-- `add_params_json` (195-201). -/
def paramsJson (file : CString) (t : ParamTexts) (p : Params) : CString :=
  b!"\"input_params\": {\"tle_file\": " ++ q file
    ++ b!", \"location\": {\"lat\":" ++ t.lat ++ b!", \"lon\":" ++ t.lon ++ b!", \"alt\":" ++ t.ht
    ++ b!"}, \"region\": {\"ra\":" ++ t.ra ++ b!", \"dec\":" ++ t.dec ++ b!", \"radius\":" ++ t.radius
    ++ b!", \"lmst\":" ++ t.lmst ++ b!", \"az\":" ++ t.az ++ b!", \"alt\":" ++ t.alt ++ b!", \"parang\":" ++ t.parang
    ++ b!"}, \"mjd\": " ++ t.mjd ++ b!", \"epoch_UTC\": " ++ q p.date ++ b!", \"gmst\":" ++ t.gmst
    ++ b!", \"delta_time_s\": " ++ intText p.deltaTime ++ b!", \"max_sats\": " ++ intText p.maxSats
    ++ b!", \"notes\": \"All coordinates and radius in degrees. GMST, LMST in hrs.\"}, "

/-- `add_sundata_json` (203-207). -/
def sunJson (t : SunTexts) : CString :=
  b!"\"sun\": {\"ra\":" ++ t.ra ++ b!", \"dec\":" ++ t.dec ++ b!", \"az\":" ++ t.az ++ b!", \"alt\":" ++ t.alt
    ++ b!", \"lon\":" ++ t.lon ++ b!", \"parang\":" ++ t.parang ++ b!", \"separation_deg\":" ++ t.sep ++ b!"}, "

/-- `add_geofieldsdesc_json` (217-225). -/
def geoFields : CString :=
  b!"\"geoloc_fields\": {\"lat\": {\"desc\": \"Geodetic Latitude\", \"unit\": \"deg\"}, \"lon\": {\"desc\": \"Geodetic Longitude\", \"unit\": \"deg\"}, \"alt\": {\"desc\": \"Geodetic Altitude\", \"unit\": \"km\"}, \"theta\": {\"desc\": \"Equatorial angle (Lon + GMST = RA)\", \"unit\": \"deg\"}}, "

/-- Lines 233-241: the command line inside `close_stat_json`.  With `input_list` it prints '@' before
`argv[1]`, whichever argument the list was. -/
def command (argv : List CString) (inputList : Bool) : CString :=
  b!"sat_skymap" ++
    (if inputList then b!" @" ++ argv.getD 1 [] ++ (argv.drop 2).flatMap (fun a => 32 :: a)
     else (argv.drop 1).flatMap (fun a => 32 :: a))

/-- `close_stat_json` (231-244). -/
def closeJson (argv : List CString) (inputList : Bool) (status : ℤ) (msg : CString) (nFound nSats nSunlit : ℤ) :
    CString :=
  b!" \"run_command\": " ++ q (command argv inputList) ++ b!", \"status\": " ++ intText status
    ++ b!", \"errmsg\": " ++ q msg ++ b!", \"n_sats_found\": " ++ intText nFound ++ b!", \"n_sats\": " ++ intText nSats
    ++ b!", \"n_sunlit_sats\": " ++ intText nSunlit ++ b!"}\n"

/-- The message of line 362 (it contains a newline). -/
def msgUsage : CString :=
  b!"Example usage:\n sat_skymap default.tle -l-29.25627,-70.73805,2400 -p90.5,-30.3 -j58861.5 -r20"

/-- Lines 360-365: called without arguments. -/
def noArgs (argv : List CString) : Outcome := .exit 0 (openJson ++ closeJson argv false 1 msgUsage 0 0 0)

/-- Lines 556-558: index of the file argument. -/
def fileIndex (argv : List CString) : Nat :=
  if (argv.getD 1 []).head? = some 45 then argv.length - 1 else 1

/-- Lines 682-693, one row of a list file: the path to open, or `none` for a row that is skipped. -/
def rowPath (dir row : CString) : Option CString :=
  if row.head? = some 35 then none
  else
    let r := if row.getLastD 0 < 32 then row.dropLast else row
    if r = [] then none else some (dir ++ 47 :: r)

/-- The paths opened for a list file with this content, in order (rows are read with
`fgets(row, 64, lisfile)`).  `tle_path` has at most 127 characters and a row at most 63, so
`tle_path_file[200]` is large enough. -/
def listPaths (dir content : CString) : List CString := (fileLines 64 content).filterMap (rowPath dir)

/-- Lines 674-678: the path for a single file; `none`: does not fit `tle_path_file[200]`. -/
def singlePath (dir name : CString) : Option CString :=
  let path := if 47 ∈ name then name else dir ++ 47 :: name
  if fits 200 path then some path else none

/-- Lines 617-665: what is printed before the reading loop. -/
def preamble (W : World) (p : Params) (name : CString) : CString :=
  (if geoRequested p then geoFields else []) ++ paramsJson name (W.nums p) p ++ sunJson (W.sun p)

/-- Lines 927-942. -/
def ending (p : Params) (argv : List CString) (inputList : Bool) (s : LoopSt) : CString :=
  (if !p.infoOnly && decide (s.nFound > 0) then b!"]," else [])
    ++ closeJson argv inputList 0
      (if single p && !s.found then b!"Requested satellite not found in TLE file" else [])
      s.nFound (if s.found then 1 else s.nFound) s.nSunlit

/-- Lines 671-942: the reading loop over the files and the end of the program. -/
def scanFiles (W : World) (p : Params) (argv : List CString) (inputList : Bool) (name : CString)
    (paths : List CString) : Outcome :=
  let pre := openJson ++ preamble W p name
  match filesLoop p (W.E p) (start W.junk) (paths.map (fun f => (f, W.file f))) with
  | .next s => .exit 0 (pre ++ s.out ++ ending p argv inputList s)
  | .stop s => .exit 0 (pre ++ s.out ++ ending p argv inputList s)
  | .exit status code msg s => .exit code (pre ++ s.out ++ closeJson argv inputList status msg s.nFound 0 s.nSunlit)
  | .ub => .ub

/-- Lines 553-942, with the parameters of the option loop and the TLE directory settled. -/
def compute (W : World) (argv : List CString) (p : Params) : Outcome :=
  let i := fileIndex argv
  let a := argv.getD i []
  if a.head? = some 64 then
    -- `++argv[iarg]`, the vector is changed
    let name := a.drop 1
    let argv' := argv.set i name
    let path := p.tlePath ++ 47 :: name
    if fits 200 path then
      match W.file path with
      | none =>
        let msg := b!"Could not open input file " ++ path
        if fits 128 msg then .exit 2 (openJson ++ closeJson argv' true 2 msg 0 0 0) else .ub
      | some content => scanFiles W p argv' true name (listPaths p.tlePath content)
    else .ub
  else
    match singlePath p.tlePath a with
    | none => .ub
    | some path => scanFiles W p argv false a [path]

/-- What follows the option loop when it ended with `r` (`none` while it is still running). -/
def conclude (W : World) (argv : List CString) : Next → Option Outcome
  | .run _ => none
  | .ub => some .ub
  | .stop .usage => some .usage
  | .stop (.error st msg) => some (.exit st (openJson ++ closeJson argv false st msg 0 0 0))
  | .done p =>
    match afterLoop p with
    | .ok p => some (compute W argv p)
    | .stop .usage => some .usage
    | .stop (.error st msg) => some (.exit st (openJson ++ closeJson argv false st msg 0 0 0))
    | .ub => some .ub

/-- The program, called with `argv` (including the program name), ends with outcome `o`. -/
def Runs (W : World) (argv : List CString) (o : Outcome) : Prop :=
  if argv.length < 2 then o = noArgs argv
  else ∃ n, conclude W argv (steps W.L argv n init) = some o

end SatSky.Prog
