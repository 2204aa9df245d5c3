import Verif.Model.Propagate
import Verif.Model.Float

/-! Model of the part of `src/sdp4.c` that serves elements of type 'H' (a position and velocity instead of an orbit): positions of Moon and Sun with
their cache, the acceleration and the numerical integration.  Arithmetic is exact and `pi` is π; the conditions of the integration loop are modelled
with rounding in addition (`loopDouble`). -/

namespace SatSky.High

open Real SatSky.Sxp

/-- An array of three, four or six `double`. -/
abbrev Vec (n : ℕ) := Fin n → ℝ

/-- `sdp4.c` 34-35: centuries since 2000. -/
noncomputable def tCen (jd : ℝ) : ℝ := (jd - 2451545) / 36525
/-- `sdp4.c` 37-38. -/
noncomputable def lPrime (t : ℝ) : ℝ := 218.3164477 * π / 180 + (481267.88123421 * π / 180) * t
/-- `sdp4.c` 40-41. -/
noncomputable def mPrime (t : ℝ) : ℝ := 134.9633964 * π / 180 + (477198.8675055 * π / 180) * t
/-- `sdp4.c` 43-44. -/
noncomputable def lSolar (t : ℝ) : ℝ := 280.46646 * π / 180 + (36000.76983 * π / 180) * t
/-- `sdp4.c` 46-47. -/
noncomputable def mSolar (t : ℝ) : ℝ := 357.5291092 * π / 180 + (35999.0502909 * π / 180) * t
/-- `sdp4.c` 49-50. -/
noncomputable def fArg (t : ℝ) : ℝ := 93.2720950 * π / 180 + (483202.0175233 * π / 180) * t
/-- `sdp4.c` 51-52. -/
noncomputable def lunarMeanElong (t : ℝ) : ℝ := 297.8501921 * π / 180 + (445267.1114034 * π / 180) * t

/-- `sdp4.c` 53-60 `lunar_lon`. -/
noncomputable def lunarLon (t : ℝ) : ℝ :=
  let term2 := 2 * lunarMeanElong t - mPrime t
  lPrime t + (6.288774 * π / 180) * sin (mPrime t) + (1.274027 * π / 180) * sin term2 + (0.658314 * π / 180) * sin (2 * lunarMeanElong t)
    + (0.213618 * π / 180) * sin (2 * mPrime t) - (0.185166 * π / 180) * sin (mSolar t) - (0.114332 * π / 180) * sin (2 * fArg t)

/-- `sdp4.c` 61-64 `lunar_lat`. -/
noncomputable def lunarLat (t : ℝ) : ℝ :=
  (5.128122 * π / 180) * sin (fArg t) + (0.280602 * π / 180) * sin (mPrime t + fArg t) + (0.277693 * π / 180) * sin (mPrime t - fArg t)
    + (0.173237 * π / 180) * sin (2 * lunarMeanElong t - fArg t)

/-- `sdp4.c` 65-69 `lunar_r`, metres. -/
noncomputable def lunarR (t : ℝ) : ℝ :=
  let term2 := 2 * lunarMeanElong t - mPrime t
  385000560 - 20905355 * cos (mPrime t) - 3699111 * cos term2 - 2955968 * cos (2 * lunarMeanElong t) - 569925 * cos (2 * mSolar t)

/-- `sdp4.c` 71-72 `solar_lon`. -/
noncomputable def solarLon (t : ℝ) : ℝ := lSolar t + (1.914602 * π / 180) * sin (mSolar t)
/-- `sdp4.c` 70, 73-74 `solar_r`, metres. -/
noncomputable def solarR (t : ℝ) : ℝ := 1.495978707e+11 * (1 - 0.016708634 * cos (mSolar t))

/-- `sdp4.c` 32-87 `lunar_solar_position`: the two arrays written, Moon first. -/
noncomputable def lunarSolar (jd : ℝ) : Vec 4 × Vec 4 :=
  let t := tCen jd
  let tval := lunarR t * cos (lunarLat t)
  (![tval * cos (lunarLon t), tval * sin (lunarLon t), lunarR t * sin (lunarLat t), lunarR t],
   ![solarR t * cos (solarLon t), solarR t * sin (solarLon t), 0, solarR t])

/-- The `static` variables of `cached_lunar_solar_position`, `sdp4.c` 92. -/
structure Cache where
  currJd : ℝ
  lunar : Vec 4
  solar : Vec 4

/-- Their values at the start of the program. -/
def cacheStart : Cache := ⟨0, 0, 0⟩

/-- `sdp4.c` 89-105 `cached_lunar_solar_position`; what is copied to the caller are the members `lunar`, `solar` of the result. -/
noncomputable def cached (s : Cache) (jd : ℝ) : Cache :=
  if s.currJd ≠ jd then ⟨jd, (lunarSolar jd).1, (lunarSolar jd).2⟩ else s

/-- `sdp4.c` 107. -/
noncomputable def sinObliq : ℝ := 0.397777155931913701597179975942380896684
/-- `sdp4.c` 108. -/
noncomputable def cosObliq : ℝ := 0.917482062069181825744000384639406458043

/-- `sdp4.c` 110-117 `equatorial_to_ecliptic`. -/
noncomputable def toEcliptic (v : Vec 3) : Vec 3 := ![v 0, v 1 * cosObliq + v 2 * sinObliq, v 2 * cosObliq - v 1 * sinObliq]
/-- `sdp4.c` 119-126 `ecliptic_to_equatorial`. -/
noncomputable def toEquatorial (v : Vec 3) : Vec 3 := ![v 0, v 1 * cosObliq - v 2 * sinObliq, v 2 * cosObliq + v 1 * sinObliq]

/-- The first three and the last three members of an array of six (`params`, `params + 3`). -/
def fore (v : Vec 6) : Vec 3 := ![v 0, v 1, v 2]
@[inherit_doc fore] def back (v : Vec 6) : Vec 3 := ![v 3, v 4, v 5]
/-- The array of six made of two halves. -/
def glue (a b : Vec 3) : Vec 6 := ![a 0, a 1, a 2, b 0, b 1, b 2]

/-- `sdp4.c` 128-138 `init_high_ephemeris`: the six `double` that start with `tle->xincl` (`norad.h` 33). -/
noncomputable def initHigh (e : Elem) : Vec 6 :=
  let p : Vec 6 := ![e.xincl, e.xnodeo, e.eo, e.omegao, e.xmo, e.xno]
  glue (toEcliptic (fore p)) (toEcliptic (back p))

/-- `sdp4.c` 169-174 `vector_len`. -/
noncomputable def vectorLen (v : Vec 3) : ℝ := √(v 0 * v 0 + v 1 * v 1 + v 2 * v 2)

/-- One round of the loop of `calc_accel`, `sdp4.c` 193-206: the acceleration after the body at `opos` (with its distance in `opos[3]`). -/
noncomputable def addBody (gm : ℝ) (opos : Vec 4) (pos : Vec 3) (accel : Vec 3) : Vec 3 :=
  let factor := gm / (opos 3 * opos 3 * opos 3)
  let delta : Vec 3 := ![opos 0 - pos 0, opos 1 - pos 1, opos 2 - pos 2]
  let d := vectorLen delta
  let factor2 := gm / (d * d * d)
  ![accel 0 - (factor * opos 0 - factor2 * delta 0), accel 1 - (factor * opos 1 - factor2 * delta 1), accel 2 - (factor * opos 2 - factor2 * delta 2)]

/-- `calc_accel` for given positions of Moon and Sun: the Earth (`sdp4.c` 186, 190-191), the Sun, then the Moon. -/
noncomputable def accelOf (lunar solar : Vec 4) (pos : Vec 3) : Vec 3 :=
  let r := vectorLen pos
  let factor := -3.9860044e+14 / (r * r * r)
  addBody 4.902798e+12 lunar pos (addBody 1.3271243994e+20 solar pos ![factor * pos 0, factor * pos 1, factor * pos 2])

/-- `sdp4.c` 210-217 `calc_state_vector_deriv` with 178-208 `calc_accel`, which asks the cache. -/
noncomputable def derivAt (s : Cache) (jd : ℝ) (v : Vec 6) : Cache × Vec 6 :=
  let s := cached s jd
  (s, glue (back v) (accelOf s.lunar s.solar (fore v)))

/-- `sdp4.c` 245-260: one step of the integration, of `dt` days. -/
noncomputable def step (s : Cache) (jd : ℝ) (v : Vec 6) (dt : ℝ) : Cache × Vec 6 :=
  let dts := dt * 86400
  let (s, k0) := derivAt s jd v
  let (s, k1) := derivAt s (jd + dt / 2) (v + (dts * 0.5) • k0)
  let (s, k2) := derivAt s (jd + dt / 2) (v + (dts * 0.5) • k1)
  let (s, k3) := derivAt s (jd + dt) (v + dts • k2)
  (s, v + (dts / 6) • (k0 + (2 : ℝ) • (k1 + k2) + k3))

/-- `sdp4.c` 237-244: the length of the next step. -/
noncomputable def stepLength (tsince : ℝ) : ℝ := if tsince > 1 then 1 else if tsince < -1 then -1 else tsince

/-- `sdp4.c` 235-263, the loop, with at most `fuel` rounds (`none`: not finished).  The lengths of the steps are added to the result for the statements;
the program does not keep them. -/
noncomputable def loop : ℕ → Cache → ℝ → Vec 6 → ℝ → Option (Cache × ℝ × Vec 6 × List ℝ)
  | 0, _, _, _, _ => none
  | fuel + 1, s, jd, v, tsince =>
    if tsince = 0 then some (s, jd, v, []) else
      let dt := stepLength tsince
      let (s, v) := step s jd v dt
      (loop fuel s (jd + dt) v (tsince - dt)).map fun (s, jd, v, l) => (s, jd, v, dt :: l)

/-- `sdp4.c` 264-276: the end of `high_ephemeris`: position in km, velocity in km per minute. -/
noncomputable def output (v : Vec 6) : Vec 3 × Vec 3 :=
  ((1 / 1000 : ℝ) • toEquatorial (fore v), (60 / 1000 : ℝ) • toEquatorial (back v))

/-- `sdp4.c` 222-278 `high_ephemeris`, `tsince` in minutes. -/
noncomputable def highEphemeris (fuel : ℕ) (s : Cache) (e : Elem) (params : Vec 6) (tsince : ℝ) : Option (Cache × Vec 3 × Vec 3) :=
  (loop fuel s e.epoch params (tsince / 1440)).map fun (s, _, v, _) => (s, output v)

/-- The variable `tsince` of the loop `sdp4.c` 235-263 in rounded arithmetic: the steps taken by at most `fuel` rounds (`none`: not finished). -/
def loopDouble (F : Fl64) : ℕ → ℚ → Option (List ℚ)
  | 0, _ => none
  | fuel + 1, tsince =>
    if tsince = 0 then some [] else
      let dt := if tsince > 1 then 1 else if tsince < -1 then -1 else tsince
      (loopDouble F fuel (F.rnd (tsince - dt))).map (dt :: ·)

end SatSky.High
