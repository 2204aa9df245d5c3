import Verif.Model.Printf
import Verif.Model.SepDouble

/-! The numbers printed for a satellite. -/

namespace SatSky.Opts

open SatSky Dates Sky Geo

/-- What line 898 of `sat_skymap.c` prints: angles in radians (`ra`, `dec`, `ra1`, `dec1`, `pa`), kilometres, degrees, arcminutes per second. -/
structure SatData where
  ra : ℚ
  dec : ℚ
  ra1 : ℚ
  dec1 : ℚ
  dist : ℚ
  sep : ℚ
  pa : ℚ
  speed : ℚ
  sunlit : Bool
  hpx : ℤ

/-- `sat_skymap.c` 898-901: the texts of the first eight numbers.  `RAD2DEG` times an angle is rounded. -/
def dataNums (F : Fl64) (d : SatData) : List CString :=
  [padLeft 8 (fmtF 4 (F.rnd (d.ra * r2dD))), padLeft 8 (fmtF 4 (F.rnd (d.dec * r2dD))), padLeft 8 (fmtF 4 (F.rnd (d.ra1 * r2dD))),
    padLeft 8 (fmtF 4 (F.rnd (d.dec1 * r2dD))), padLeft 9 (fmtF 2 d.dist), padLeft 6 (fmtF 4 d.sep),
    padLeft 3 (intText (truncQ (F.rnd (d.pa * r2dD)))), padLeft 6 (fmtF 3 d.speed)]

/-- `sat_skymap.c` 898-901: the text between the brackets. -/
def dataText (F : Fl64) (d : SatData) : CString :=
  (dataNums F d).flatMap (· ++ [44]) ++ (if d.sunlit then [49] else [48]) ++ [44] ++ intText d.hpx

/-- What the loop of `Model/SkyLoop.lean` knows about such a satellite. -/
def obsOf (F : Fl64) (d : SatData) (o : Obs) : Obs := { o with dataNums := dataNums F d, sunlit := d.sunlit, hpx := intText d.hpx }

end SatSky.Opts
