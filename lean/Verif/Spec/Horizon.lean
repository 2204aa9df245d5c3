import Verif.Spec.Sphere

/-!
The horizon system.  Rectangular equatorial axes: towards the meridian on the equator, towards the east, towards the north pole.
An object with hour angle `h` (westwards) and declination `d` has the unit vector `equatorial h d`; the zenith of a place at
latitude `lat` is `equatorial 0 lat`.
-/

namespace SatSky.Spec

open Real

/-- Unit vector of an object with hour angle `h` and declination `d`. -/
noncomputable def equatorial (h d : ℝ) : V3 := ⟨cos d * cos h, -(cos d * sin h), sin d⟩

/-- Axes of the horizon system at latitude `lat`: north, east, up. -/
noncomputable def northAxis (lat : ℝ) : V3 := ⟨-sin lat, 0, cos lat⟩
noncomputable def eastAxis : V3 := ⟨0, 1, 0⟩
noncomputable def upAxis (lat : ℝ) : V3 := equatorial 0 lat

/-- The object in the horizon system: north, east and up components. -/
noncomputable def horizontal (lat h d : ℝ) : V3 :=
  ⟨(equatorial h d).dot (northAxis lat), (equatorial h d).dot eastAxis, (equatorial h d).dot (upAxis lat)⟩

/-- Altitude and azimuth (degrees; azimuth from north over east) are those of the object. -/
def IsAltAz (alt az lat h d : ℝ) : Prop :=
  (-90 ≤ alt ∧ alt ≤ 90) ∧ (0 ≤ az ∧ az < 360) ∧ dir (az * (π / 180)) (alt * (π / 180)) = horizontal lat h d

/-- At the object, the directions of growing declination and of growing right ascension. -/
noncomputable def decAxis (h d : ℝ) : V3 := ⟨-(sin d * cos h), sin d * sin h, cos d⟩
noncomputable def raAxis (h : ℝ) : V3 := ⟨sin h, cos h, 0⟩

/-- `q` (degrees) is the angle at the object from the direction of the pole, over growing right ascension, to the zenith. -/
def IsParallactic (q lat h d : ℝ) : Prop :=
  ∃ r : ℝ, 0 ≤ r ∧ r * cos (q * (π / 180)) = (upAxis lat).dot (decAxis h d) ∧
    r * sin (q * (π / 180)) = (upAxis lat).dot (raAxis h)

end SatSky.Spec
