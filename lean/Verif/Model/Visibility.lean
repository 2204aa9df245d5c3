import Mathlib.Data.List.Basic
import Verif.Model.Float

/-!
The time loop of `sat_visibility` (`src/sat_visibility.c` 811-1082).

What is abstracted: everything computed from the elements, the observer and one instant `t` by the
propagators and the geometry functions is a function of `t` (`History`).  Times are `double`s: every
sum or difference is rounded by `F`.  Comparisons with NaN are outside the model.
The blocks printed are kept as records that say for which instants their contents were computed;
their text is in `Model/VisMain.lean`.
-/

namespace SatSky.Vis

open SatSky

/-- What the loop learns at an instant (a Julian date). -/
structure History where
  /-- `sat.ang_sep`, separation from the zenith in degrees (`sat_visibility.c` 883). -/
  sep : ℚ → ℚ
  /-- `sat.is_sunlit` (909). -/
  lit : ℚ → Bool
  /-- `geo.alt` (869). -/
  alt : ℚ → ℚ
  /-- `sun.alt` (842). -/
  sunAlt : ℚ → ℚ

/-- The parameters used after the record was found. -/
structure Cfg where
  F : Fl64
  /-- `jd[0]`, `jd[1]` (671-672). -/
  jd0 : ℚ
  jd1 : ℚ
  /-- `p.delta_time`, an `int`. -/
  dt : ℤ
  /-- `p.search_radius`. -/
  radius : ℚ
  /-- `p.altrng_requested`, `p.alt_min`, `p.alt_max`. -/
  filter : Bool
  altMin : ℚ
  altMax : ℚ
  /-- `p.skip_daytime`. -/
  skipDay : Bool

/-- `JD_OFF` (`const_def.h`). -/
def jdOff : ℚ := 4800001 / 2

/-- `p.delta_time / SEC_IN_DAY` (`SEC_IN_DAY` is 86400. in `const_def.h`). -/
def Cfg.d (C : Cfg) : ℚ := C.F.rnd ((C.dt : ℚ) / 86400)

/-- `t += p.delta_time / SEC_IN_DAY` (900, 917). -/
def Cfg.next (C : Cfg) (t : ℚ) : ℚ := C.F.rnd (t + C.d)

/-- The four groups of members printed for a pass. -/
inductive Label where
  | start
  | fin
  | mid
  | max
deriving DecidableEq

/-- One group `geoloc_x`, `sun_x`, `sat_x` of the answer. -/
structure Block where
  label : Label
  /-- The number printed as "MJD" (`sat.cur_mjd`). -/
  mjd : ℚ
  /-- The MJD converted for "Date". -/
  date : ℚ
  /-- Instant for which the position of the satellite was computed. -/
  satAt : ℚ
  /-- Instant for which the Sun was computed. -/
  sunAt : ℚ
  /-- Instant at the beginning of the time step over which "PA" and "Speed" were measured. -/
  rateAt : ℚ
  /-- How many times `epoch_of_date_to_j2000` was applied to "ra" and "dec". -/
  conv : ℕ
deriving DecidableEq

/-- The variables of the loop (813-819). -/
structure TSt where
  t : ℚ
  minSep : ℚ := 181
  tMin : ℚ := 0
  startFound : Bool := false
  endFound : Bool := false
  mjdStart : ℚ := 0
  mjdEnd : ℚ := 0
  /-- `sat.cur_mjd`. -/
  cur : ℚ := 0
  /-- Instant of the last computation of `pos`, `sat.ra`, `sat.dec`, `sat.ang_sep`. -/
  posT : ℚ := 0
  /-- Instant of the last `get_sun_data`. -/
  sunT : ℚ := 0
  /-- Instant for which `get_sat_PA_and_speed` was called last (954).  The call for the first sample (888) is
  left out: nothing is printed before 954. -/
  rateT : ℚ := 0
  /-- How many times the present `sat.ra`, `sat.dec` were converted to J2000. -/
  conv : ℕ := 0
  blocks : List Block := []
deriving DecidableEq

/-- Outcome of one execution of a loop body: go on, the loop is left, `exit(1)` (875). -/
inductive TNext where
  | run (s : TSt)
  | over (s : TSt)
  | outOfRange (s : TSt)
deriving DecidableEq

/-- Lines 838-846, one execution of the body: `none` is the `break`. -/
def skipStep (C : Cfg) (H : History) (t : ℚ) : Option ℚ :=
  if H.sunAlt t < 0 ∨ t > C.jd1 then none else some (C.F.rnd (t + C.F.rnd (7 / 10000)))

/-- At most `n` executions of that body: the time reached, and whether the loop was left. -/
def skipLoop (C : Cfg) (H : History) : Nat → ℚ → Option ℚ
  | 0, _ => none
  | n + 1, t =>
    match skipStep C H t with
    | none => some t
    | some t' => skipLoop C H n t'

/-- The value of `t` at line 849: `t0` (lines 816, 836-847). -/
def Begins (C : Cfg) (H : History) (t0 : ℚ) : Prop :=
  if C.skipDay then ∃ n, skipLoop C H n C.jd0 = some t0 else t0 = C.jd0

/-- `t - JD_OFF - p.delta_time / SEC_IN_DAY` (930, 964). -/
def Cfg.stepBack (C : Cfg) (t : ℚ) : ℚ := C.F.rnd (C.F.rnd (t - jdOff) - C.d)

/-- Lines 924-937: the satellite is no longer sunlit. -/
def markEnd (C : Cfg) (s : TSt) : TSt :=
  let cur := C.stepBack s.t
  { s with
    endFound := true
    mjdEnd := C.F.rnd (s.t - jdOff)
    cur := cur
    conv := s.conv + 1
    blocks := s.blocks ++ [{ label := .fin, mjd := cur, date := cur, satAt := s.posT, sunAt := s.sunT, rateAt := s.rateT, conv := s.conv + 1 }] }

/-- Lines 941-972: the satellite is sunlit for the first time. -/
def markStart (C : Cfg) (s : TSt) : TSt :=
  let cur := C.stepBack s.t
  { s with
    startFound := true
    mjdStart := C.F.rnd (s.t - jdOff)
    cur := cur
    rateT := s.posT
    conv := s.conv + 1
    blocks := s.blocks ++ [{ label := .start, mjd := cur, date := cur, satAt := s.posT, sunAt := s.sunT, rateAt := s.posT, conv := s.conv + 1 }] }

/-- Lines 906-974, the satellite is within the radius. -/
def inField (C : Cfg) (H : History) (s : TSt) : TNext :=
  let lit := H.lit s.t                                                  -- 906-909
  let s := { s with sunT := s.t }
  let s := if H.sep s.t < s.minSep ∧ lit = true then { s with minSep := H.sep s.t, tMin := s.t } else s
  let s := { s with t := C.next s.t }                                   -- 917
  if lit = false then
    if s.startFound = false then .run s                                 -- 921 continue
    else if s.endFound = false then .over (markEnd C s)                 -- 936 break
    else .run s
  else if s.startFound = false then .run (markStart C s)
  else .run s

/-- Lines 849-974: the test of the loop and one execution of its body. -/
def timeStep (C : Cfg) (H : History) (s : TSt) : TNext :=
  if s.t ≤ C.jd1 then
    if C.filter = true ∧ (H.alt s.t < C.altMin ∨ H.alt s.t > C.altMax) then .outOfRange s   -- 868-877
    else
      let s := { s with posT := s.t, conv := 0 }                                   -- 858-883
      if H.sep s.t > C.radius then                                      -- 899-904
        let s := { s with t := C.next s.t }
        if s.startFound = false then .run s else .over s
      else inField C H s
  else .over s

/-- At most `n` steps; a result other than `run` is final. -/
def timeLoop (C : Cfg) (H : History) : Nat → TSt → TNext
  | 0, s => .run s
  | n + 1, s =>
    match timeStep C H s with
    | .run s' => timeLoop C H n s'
    | r => r

/-- Lines 977-991: one step back, end of a pass that was still going on. -/
def closePass (C : Cfg) (s : TSt) : TSt :=
  let s := { s with t := C.F.rnd (s.t - C.d) }
  if s.startFound = true ∧ s.endFound = false then
    let e := C.F.rnd (s.t - jdOff)
    { s with
      mjdEnd := e
      cur := e
      conv := s.conv + 1
      blocks := s.blocks ++ [{ label := .fin, mjd := e, date := e, satAt := s.posT, sunAt := s.sunT, rateAt := s.rateT, conv := s.conv + 1 }] }
  else s

/-- `mjd_sunlit_mid` (996). -/
def midOf (C : Cfg) (s : TSt) : ℚ :=
  C.F.rnd (s.mjdStart + C.F.rnd (C.F.rnd (s.mjdEnd - s.mjdStart) / 2))

/-- Lines 995-1065: middle of the pass and least zenith distance. -/
def addMid (C : Cfg) (s : TSt) : TSt :=
  if s.startFound = true then
    let m := midOf C s
    let tm := C.F.rnd (m + jdOff)
    { s with
      blocks := s.blocks ++
        [{ label := .mid, mjd := s.cur, date := m, satAt := tm, sunAt := tm, rateAt := s.rateT, conv := 1 },
         { label := .max, mjd := s.cur, date := C.F.rnd (s.tMin - jdOff), satAt := s.tMin, sunAt := s.tMin, rateAt := s.rateT, conv := 1 }] }
  else s

/-- Lines 977-1065. -/
def finish (C : Cfg) (s : TSt) : TSt := addMid C (closePass C s)

/-- `(float)(mjd_sunlit_end - mjd_sunlit_start)*1440.` (1070), before it is printed with two decimals:
the duration in minutes. -/
def minutes (C : Cfg) (G : Fl32) (s : TSt) : ℚ := C.F.rnd (G.rnd (C.F.rnd (s.mjdEnd - s.mjdStart)) * 1440)

/-- The search ends normally, with these variables at line 1067. -/
def Ends (C : Cfg) (H : History) (r : TSt) : Prop :=
  ∃ t0 n s, Begins C H t0 ∧ timeLoop C H n { t := t0 } = .over s ∧ r = finish C s

end SatSky.Vis
