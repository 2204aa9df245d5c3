import Verif.Spec.Motion
import Verif.Model.Record
import Verif.Props.Separation
import Verif.Props.Shadow
import Verif.Props.Topocentric
import Verif.Props.Precession
import Verif.Props.Geolocation

/-!
What is reported for one satellite: C79 (sunlight), C80 (selection), C81 (direction of motion), C83 (longitude of the Sun), C84 (speed), C85
(coordinates).
-/

namespace SatSky.Props

open SatSky.Spec SatSky.Geo Real

/-- The coordinates of 2000 of a position seen from `obs`. -/
noncomputable def coords (r : Run) (obs pos : V3) : ℝ × ℝ :=
  epoch_of_date_to_j2000 r.jd (get_satellite_ra_dec_delta obs pos).1 (get_satellite_ra_dec_delta obs pos).2.1

/-- The position at the second epoch, `dt` seconds after the first. -/
noncomputable def second (r : Run) (posAt : ℝ → V3) (since : ℝ) : V3 := posAt (since + r.dt / 60)

theorem second_eq (r : Run) (posAt : ℝ → V3) (since : ℝ) : posAt (since + r.dt * 1440 / 86400) = second r posAt since := by
  unfold second
  congr 2
  ring

/-- The steps of `satellite`. -/
theorem satellite_steps {fuel : ℕ} {r : Run} {posAt : ℝ → V3} {since : ℝ} {out : Option Rec} (h : satellite fuel r posAt since = some out)
    {ra dec ra1 dec1 : ℝ} (h0 : coords r r.observer (posAt since) = (ra, dec))
    (h1 : coords r r.observer2 (second r posAt since) = (ra1, dec1)) :
    ∃ (geo : Option Geoloc) (skip : Bool), location fuel r (posAt since) = some geo ∧ altSkip r geo = some skip ∧
      ((skip = true ∧ out = none) ∨ (skip = false ∧ ∃ sep sep1, separations r geo ra dec ra1 dec1 = some (sep, sep1) ∧
        ((¬ (r.single || r.nameFilter || decide (sep ≤ r.radius ∨ sep1 ≤ r.radius)) = true ∧ out = none) ∨
          ((r.single || r.nameFilter || decide (sep ≤ r.radius ∨ sep1 ≤ r.radius)) = true ∧
            ∃ sunlit : Bool, sunlit = ((intersect_satsun_sphere (second r posAt since) r.sunKm).1 == 0) ∧
              (((r.sunlitOnly && !sunlit) = true ∧ out = none) ∨ (¬ (r.sunlitOnly && !sunlit) = true ∧ r.dt ≠ 0 ∧
                ∃ pix, Healpix.ang2pix_nest 256 (π / 2 - dec) ra = some pix ∧
                  out = some {
                    ra := ra, dec := dec, ra1 := ra1, dec1 := dec1,
                    dist := (get_satellite_ra_dec_delta r.observer (posAt since)).2.2, sep := sep,
                    pa := motionAngle ra dec ra1 dec1, speed := skysep_h ra dec ra1 dec1 * 60 / r.dt,
                    sunlit := sunlit, pix := pix, geo := geo })))))) := by
  unfold satellite at h
  unfold coords at h0 h1
  simp only [second_eq] at h
  obtain ⟨geo, hg, h⟩ := Option.bind_eq_some_iff.mp h
  obtain ⟨skip, hs, h⟩ := Option.bind_eq_some_iff.mp h
  simp only [h0, h1] at h
  refine ⟨geo, skip, hg, hs, ?_⟩
  cases skip with
  | true =>
    left
    rw [if_pos rfl] at h
    exact ⟨rfl, (Option.some.inj h).symm⟩
  | false =>
    right
    refine ⟨rfl, ?_⟩
    rw [if_neg Bool.false_ne_true] at h
    obtain ⟨⟨sep, sep1⟩, hsep, h⟩ := Option.bind_eq_some_iff.mp h
    refine ⟨sep, sep1, hsep, ?_⟩
    dsimp only at h
    split_ifs at h with c1 c2 c3
    · exact Or.inr ⟨c1, _, rfl, Or.inl ⟨c2, (Option.some.inj h).symm⟩⟩
    · right
      refine ⟨c1, _, rfl, Or.inr ⟨c2, c3, ?_⟩⟩
      obtain ⟨pix, hp, h⟩ := Option.map_eq_some_iff.mp h
      exact ⟨pix, hp, h.symm⟩
    · exact Or.inl ⟨c1, (Option.some.inj h).symm⟩

theorem sunlit_iff {sat sun : V3} (h : sat ≠ sun) : ((intersect_satsun_sphere sat sun).1 == 0) = true ↔ ¬ RayMeets ERAD sat sun := by
  rw [← C35_ray h, beq_iff_eq]
  rcases C35_binary sat sun with e | e <;> rw [e] <;> norm_num

/-! ### C79 -/

/-- C79, what holds: the flag says whether the satellite is out of the Earth's shadow `dt` seconds after the time asked for.  Missing: at the
time asked for, see `C79_violated`. -/
theorem C79_partial {fuel : ℕ} {r : Run} {posAt : ℝ → V3} {since : ℝ} {rec : Rec} (h : satellite fuel r posAt since = some (some rec))
    (hs : posAt (since + r.dt / 60) ≠ r.sunKm) :
    rec.sunlit = true ↔ ¬ RayMeets ERAD (posAt (since + r.dt / 60)) r.sunKm := by
  obtain ⟨geo, skip, _, _, h⟩ := satellite_steps h (Prod.mk.eta).symm (Prod.mk.eta).symm
  rcases h with ⟨_, h⟩ | ⟨_, sep, sep1, _, ⟨_, h⟩ | ⟨_, sunlit, e, ⟨_, h⟩ | ⟨_, _, pix, _, h⟩⟩⟩
  · simp at h
  · simp at h
  · simp at h
  · rw [Option.some.inj h]
    dsimp only
    rw [e]
    exact sunlit_iff hs

/-- A satellite on a circle of 7000 km that is opposite to the Sun at time 0 and towards the Sun 45 minutes later (`n` is normal to `s`). -/
noncomputable def circle (s n : V3) (t : ℝ) : V3 := (V3.smul (-(7000 * cos (π * t / 45))) s).add (V3.smul (7000 * sin (π * t / 45)) n)

/-- An observer on the equator, 2000, asking for a name, with a step of 45 minutes. -/
noncomputable def half : Run where
  jd := JD2000
  gmst := 0
  lmst := 0
  lat := 0
  lon := 0
  ht := 0
  raDeg := 0
  deDeg := 0
  radius := 20
  dt := 2700
  altMin := 0
  altMax := 0
  inRegion := true
  geoRef := false
  geoReq := false
  altReq := false
  haversine := true
  single := false
  nameFilter := true
  sunlitOnly := false

/-- A satellite not filtered by altitude or sunlight at the epoch 2000 is reported if its name is asked for. -/
theorem reported_named {r : Run} (posAt : ℝ → V3) (since : ℝ) (hjd : r.jd = JD2000) (hn : r.nameFilter = true) (hg : r.geoReq = false)
    (hr : r.geoRef = false) (ha : r.altReq = false) (hl : r.sunlitOnly = false) (hd : r.dt ≠ 0) (hne : r.observer ≠ posAt since) :
    ∃ rec, satellite 0 r posAt since = some (some rec) := by
  obtain ⟨ra, dec, d, hgd⟩ : ∃ ra dec d, get_satellite_ra_dec_delta r.observer (posAt since) = (ra, dec, d) := ⟨_, _, _, rfl⟩
  obtain ⟨h0, h1, _, _⟩ := C37_topocentric hne hgd
  obtain ⟨p, hp, _⟩ := C44_printed h1.1 h1.2 ra
  have e1 : location 0 r (posAt since) = some none := by unfold location; rw [hg]; rfl
  have e2 : altSkip r none = some false := by unfold altSkip; rw [ha]; rfl
  have e3 : ∀ a b c d, ∃ x, separations r none a b c d = some x := by
    intro a b c d
    unfold separations
    rw [hr]
    simp only [Bool.false_eq_true, if_false]
    split_ifs <;> exact ⟨_, rfl⟩
  unfold satellite
  simp only [hgd, e1, e2, hjd, C41_identity dec h0, Option.bind_some, Bool.false_eq_true, if_false]
  obtain ⟨x, hx⟩ := e3 ra dec
    (epoch_of_date_to_j2000 JD2000 (get_satellite_ra_dec_delta r.observer2 (posAt (since + r.dt * 1440 / 86400))).1
      (get_satellite_ra_dec_delta r.observer2 (posAt (since + r.dt * 1440 / 86400))).2.1).1
    (epoch_of_date_to_j2000 JD2000 (get_satellite_ra_dec_delta r.observer2 (posAt (since + r.dt * 1440 / 86400))).1
      (get_satellite_ra_dec_delta r.observer2 (posAt (since + r.dt * 1440 / 86400))).2.1).2
  rw [hx, Option.bind_some]
  simp only [hn, hl, Bool.or_true, Bool.true_or, if_true, Bool.false_and, Bool.false_eq_true, if_false, if_neg hd, hp, Option.map_some,
    Option.some.injEq, exists_eq']

theorem len_smul_dir {k : ℝ} (hk : 0 ≤ k) (a b : ℝ) : (V3.smul k (dir a b)).len = k := by
  unfold V3.len
  rw [show (V3.smul k (dir a b)).dot (V3.smul k (dir a b)) = k * k * (dir a b).dot (dir a b) by
    unfold V3.dot V3.smul; dsimp only; ring, dot_dir_self, mul_one, sqrt_mul_self hk]

theorem sunKm_eq (r : Run) : r.sunKm = V3.smul AU_KM (dir r.sun.1 r.sun.2.1) := by
  unfold Run.sunKm
  rw [(C72_sun_vector _ _).1]
  ext <;> simp only [V3.smul] <;> ring

/-- The observer of the example is on the ground, so the satellite is elsewhere. -/
theorem half_away (n : V3) : half.observer ≠ circle (dir half.sun.1 half.sun.2.1) n 0 := by
  intro h
  have h2 := congrArg V3.len h
  have e0 : circle (dir half.sun.1 half.sun.2.1) n 0 = V3.smul 7000 (dir (half.sun.1 + π) (-half.sun.2.1)) := by
    unfold circle dir
    rw [mul_zero, zero_div, cos_zero, sin_zero]
    ext <;> simp only [V3.smul, V3.add, cos_neg, sin_neg, cos_add_pi, sin_add_pi] <;> ring
  have ea : earth_lat_alt_to_parallax (half.lat * d2r) half.ht = (1, 0) := by
    unfold earth_lat_alt_to_parallax half
    simp
  have eo : half.observer = V3.smul (axis / 1000) (dir (half.lon * d2r + ThetaG half.jd) 0) := by
    unfold Run.observer
    rw [ea]
    dsimp only
    unfold observer_cartesian_coords dir
    rw [cos_zero, sin_zero]
    ext <;> simp only [V3.smul] <;> ring
  rw [e0, eo, len_smul_dir (by unfold axis; norm_num), len_smul_dir (by norm_num)] at h2
  unfold axis at h2
  norm_num at h2

/-- C79 is violated: a satellite that is in the middle of the shadow at the time asked for and between Earth and Sun 45 minutes later is reported
as sunlit. -/
theorem C79_violated (n : V3) :
    ∃ rec, satellite 0 half (circle (dir half.sun.1 half.sun.2.1) n) 0 = some (some rec) ∧ rec.sunlit = true ∧
      RayMeets ERAD (circle (dir half.sun.1 half.sun.2.1) n 0) half.sunKm := by
  obtain ⟨rec, hrec⟩ := reported_named (r := half) (circle (dir half.sun.1 half.sun.2.1) n) 0 rfl rfl rfl rfl rfl rfl (by decide) (half_away n)
  have hau : 7000 < AU_KM := by unfold AU_KM; norm_num
  have e0 : circle (dir half.sun.1 half.sun.2.1) n 0 = V3.smul (-7000) (dir half.sun.1 half.sun.2.1) := by
    unfold circle
    rw [mul_zero, zero_div, cos_zero, sin_zero]
    ext <;> simp only [V3.smul, V3.add] <;> ring
  have e1 : circle (dir half.sun.1 half.sun.2.1) n (0 + half.dt / 60) = V3.smul 7000 (dir half.sun.1 half.sun.2.1) := by
    have : π * (0 + (half.dt : ℝ) / 60) / 45 = π := by
      have : (half.dt : ℝ) = 2700 := by unfold half; norm_num
      rw [this]
      ring
    unfold circle
    rw [this, cos_pi, sin_pi]
    ext <;> simp only [V3.smul, V3.add] <;> ring
  have hq := C79_partial hrec
  rw [e1, sunKm_eq] at hq
  refine ⟨rec, hrec, (hq ?_).mpr ?_, ?_⟩
  · intro h
    have := congrArg V3.len h
    rw [len_smul_dir (by norm_num), len_smul_dir (by linarith)] at this
    linarith
  · rintro ⟨t, ht, hl⟩
    have : (V3.smul 7000 (dir half.sun.1 half.sun.2.1)).add
        (V3.smul t ((V3.smul AU_KM (dir half.sun.1 half.sun.2.1)).sub (V3.smul 7000 (dir half.sun.1 half.sun.2.1))))
        = V3.smul (7000 + t * (AU_KM - 7000)) (dir half.sun.1 half.sun.2.1) := by
      ext <;> simp only [V3.smul, V3.add, V3.sub] <;> ring
    have hpos : 0 ≤ t * (AU_KM - 7000) := mul_nonneg ht (by linarith)
    rw [this, len_smul_dir (by linarith)] at hl
    unfold ERAD at hl
    linarith
  · rw [e0, sunKm_eq]
    refine ⟨7000 / (AU_KM + 7000), by unfold AU_KM; norm_num, ?_⟩
    have : (V3.smul (-7000) (dir half.sun.1 half.sun.2.1)).add
        (V3.smul (7000 / (AU_KM + 7000)) ((V3.smul AU_KM (dir half.sun.1 half.sun.2.1)).sub (V3.smul (-7000) (dir half.sun.1 half.sun.2.1))))
        = V3.smul 0 (dir half.sun.1 half.sun.2.1) := by
      have : AU_KM + 7000 ≠ 0 := by linarith
      ext <;> simp only [V3.smul, V3.add, V3.sub] <;> field_simp <;> ring
    rw [this, len_smul_dir le_rfl]
    exact ERAD_pos.le

/-! ### C80 -/

/-- What the two filters and the region ask of a satellite. -/
def Wanted (r : Run) (geo : Option Geoloc) (near : Prop) (lit : Prop) : Prop :=
  (r.altReq = true → ∃ g, geo = some g ∧ r.altMin ≤ g.alt ∧ g.alt ≤ r.altMax) ∧
    (r.single = true ∨ r.nameFilter = true ∨ near) ∧ (r.sunlitOnly = true → lit)

theorem altSkip_false {r : Run} {geo : Option Geoloc} {skip : Bool} (h : altSkip r geo = some skip) :
    skip = false ↔ (r.altReq = true → ∃ g, geo = some g ∧ r.altMin ≤ g.alt ∧ g.alt ≤ r.altMax) := by
  unfold altSkip at h
  split_ifs at h with hr
  · obtain ⟨g, rfl, rfl⟩ := Option.map_eq_some_iff.mp h
    rw [decide_eq_false_iff_not]
    constructor
    · intro hn _
      push Not at hn
      exact ⟨g, rfl, hn.1, hn.2⟩
    · intro hh
      obtain ⟨g', e, a, b⟩ := hh hr
      rw [← Option.some.inj e] at a b
      push Not
      exact ⟨a, b⟩
  · have := Option.some.inj h
    subst this
    simp [hr]

/-- Selection in terms of the two separations. -/
theorem selected_iff {fuel : ℕ} {r : Run} {posAt : ℝ → V3} {since : ℝ} {out : Option Rec} (h : satellite fuel r posAt since = some out)
    (hs : second r posAt since ≠ r.sunKm) {ra dec ra1 dec1 : ℝ} (h0 : coords r r.observer (posAt since) = (ra, dec))
    (h1 : coords r r.observer2 (second r posAt since) = (ra1, dec1)) {near : Prop}
    (hn : ∀ geo sep sep1, location fuel r (posAt since) = some geo → separations r geo ra dec ra1 dec1 = some (sep, sep1) →
      (near ↔ sep ≤ r.radius ∨ sep1 ≤ r.radius)) :
    ∃ geo, location fuel r (posAt since) = some geo ∧
      (out ≠ none ↔ Wanted r geo near (¬ RayMeets ERAD (second r posAt since) r.sunKm)) := by
  obtain ⟨geo, skip, hg, ha, h⟩ := satellite_steps h h0 h1
  refine ⟨geo, hg, ?_⟩
  have hskip := altSkip_false ha
  have hlit := sunlit_iff hs
  unfold Wanted
  rcases h with ⟨k, h⟩ | ⟨k, sep, sep1, hsep, ⟨hc, h⟩ | ⟨hc, sunlit, e, ⟨hl, h⟩ | ⟨hl, _, pix, _, h⟩⟩⟩
  · rw [k] at hskip
    simp only [Bool.true_eq_false, false_iff] at hskip
    simp [h, hskip]
  · have := hn geo sep sep1 hg hsep
    simp only [Bool.or_eq_true, decide_eq_true_eq, or_assoc] at hc
    rw [this]
    simp [h, hc]
  · rw [← e] at hlit
    simp only [Bool.and_eq_true, Bool.not_eq_true'] at hl
    rw [hl.2] at hlit
    simp only [Bool.false_eq_true, false_iff] at hlit
    simp [h, hl.1, hlit]
  · have := hn geo sep sep1 hg hsep
    simp only [Bool.or_eq_true, decide_eq_true_eq, or_assoc] at hc
    rw [← e] at hlit
    rw [this]
    have e2 : r.sunlitOnly = true → sunlit = true := by
      intro ho
      by_contra hb
      apply hl
      simp [ho, Bool.eq_false_iff.mpr hb]
    rw [h]
    refine ⟨fun _ => ⟨hskip.mp k, hc, fun ho => hlit.mp (e2 ho)⟩, fun _ => by simp⟩

/-- Where the search is aimed: the zenith for a single satellite and when no region is given (right ascension = local sidereal time, 15 degrees
per hour; declination = latitude), else the given right ascension and declination. -/
noncomputable def aim (r : Run) : V3 :=
  if r.single = true ∨ r.inRegion = false then dir (r.lmst * 15 * (π / 180)) (r.lat * (π / 180))
  else dir (r.raDeg * (π / 180)) (r.deDeg * (π / 180))

theorem aim_eq {r : Run} (hE : r.geoRef = false) : aim r = dir r.target.1 r.target.2.1 := by
  unfold aim Run.target d2r r2h
  rw [hE]
  cases r.single <;> cases r.inRegion <;> simp <;> congr 1 <;> field_simp <;> ring

/-- The observer `dt` seconds later. -/
theorem observer2_eq (r : Run) : r.observer2 = Run.observer { r with jd := r.jd + r.dt / 86400 } := rfl

/-- C80: with `-H` a satellite is reported exactly if it passes the altitude and sunlight filters and, unless one satellite or a name is asked
for, is within the radius of the target at the time asked for or at the second epoch. -/
theorem C80_exact {fuel : ℕ} {r : Run} {posAt : ℝ → V3} {since : ℝ} {out : Option Rec} (h : satellite fuel r posAt since = some out)
    (hs : posAt (since + r.dt / 60) ≠ r.sunKm) (hH : r.haversine = true) (hE : r.geoRef = false) {ra dec ra1 dec1 : ℝ}
    (h0 : coords r r.observer (posAt since) = (ra, dec))
    (h1 : coords r (Run.observer { r with jd := r.jd + r.dt / 86400 }) (posAt (since + r.dt / 60)) = (ra1, dec1)) :
    ∃ geo, location fuel r (posAt since) = some geo ∧
      (out ≠ none ↔ Wanted r geo (Within r.radius (aim r) (dir ra dec) ∨ Within r.radius (aim r) (dir ra1 dec1))
        (¬ RayMeets ERAD (posAt (since + r.dt / 60)) r.sunKm)) := by
  rw [← observer2_eq] at h1
  refine selected_iff h hs h0 h1 ?_
  intro geo sep sep1 _ hsep
  rw [aim_eq hE]
  unfold separations at hsep
  rw [hE, hH] at hsep
  simp only [Bool.false_eq_true, if_false, if_true, Option.pure_def, Option.some.injEq, Prod.mk.injEq] at hsep
  obtain ⟨rfl, rfl⟩ := hsep
  unfold Within
  rw [C33_great_circle, C33_great_circle]

/-- C80: without `-H`, what is reported because of the region really is within the radius at one of the two epochs (the converse fails,
see `C34_violated` and `C69_not_complete`). -/
theorem C80_flat {fuel : ℕ} {r : Run} {posAt : ℝ → V3} {since : ℝ} {rec : Rec} (h : satellite fuel r posAt since = some (some rec))
    (hH : r.haversine = false) (hE : r.geoRef = false) (hS : r.single = false) (hN : r.nameFilter = false) :
    Within r.radius (aim r) (dir rec.ra rec.dec) ∨ Within r.radius (aim r) (dir rec.ra1 rec.dec1) := by
  rw [aim_eq hE]
  obtain ⟨geo, skip, _, _, h⟩ := satellite_steps h (Prod.mk.eta).symm (Prod.mk.eta).symm
  rcases h with ⟨_, h⟩ | ⟨_, sep, sep1, hsep, ⟨_, h⟩ | ⟨hc, sunlit, e, ⟨_, h⟩ | ⟨_, _, pix, _, h⟩⟩⟩
  · simp at h
  · simp at h
  · simp at h
  · unfold separations at hsep
    rw [hE, hH] at hsep
    simp only [Bool.false_eq_true, if_false, Option.pure_def, Option.some.injEq, Prod.mk.injEq] at hsep
    obtain ⟨rfl, rfl⟩ := hsep
    rw [hS, hN] at hc
    simp only [Bool.or_self, Bool.false_or, decide_eq_true_eq] at hc
    rw [Option.some.inj h]
    rcases hc with hc | hc
    · exact Or.inl (C69_selected_within hc)
    · exact Or.inr (C69_selected_within hc)

/-- C80: with `-E` and `-H` the region is a circle on the globe around the observer's meridian and parallel: the point below the satellite is
within the radius at the time asked for. -/
theorem C80_globe {fuel : ℕ} {r : Run} {posAt : ℝ → V3} {since : ℝ} {out : Option Rec} (h : satellite fuel r posAt since = some out)
    (hs : posAt (since + r.dt / 60) ≠ r.sunKm) (hH : r.haversine = true) (hE : r.geoRef = true) {g : Geoloc}
    (hg : location fuel r (posAt since) = some (some g)) :
    out ≠ none ↔ Wanted r (some g)
        (Within r.radius (dir (r.lon * (π / 180)) (r.lat * (π / 180))) (dir (g.lon * (π / 180)) (g.lat * (π / 180))))
        (¬ RayMeets ERAD (posAt (since + r.dt / 60)) r.sunKm) := by
  have := selected_iff h hs (Prod.mk.eta).symm (Prod.mk.eta).symm
    (near := Within r.radius (dir (r.lon * (π / 180)) (r.lat * (π / 180))) (dir (g.lon * (π / 180)) (g.lat * (π / 180)))) ?_
  · obtain ⟨geo, hg', hw⟩ := this
    rw [hg] at hg'
    rw [← Option.some.inj hg'] at hw
    exact hw
  · intro geo sep sep1 hg' hsep
    rw [hg] at hg'
    have eg := Option.some.inj hg'
    subst eg
    unfold separations at hsep
    rw [hE, hH] at hsep
    simp only [if_true, Option.pure_def, Option.bind_eq_bind, Option.bind_some, Option.some.injEq, Prod.mk.injEq] at hsep
    obtain ⟨rfl, rfl⟩ := hsep
    have h0 := (C33_range (r.lon * d2r) (r.lat * d2r) (g.lon * d2r) (g.lat * d2r)).1
    unfold Within
    rw [C33_great_circle] at h0 ⊢
    unfold d2r at h0 ⊢
    constructor
    · exact Or.inl
    · rintro (h | h) <;> linarith

/-- What is tested with `-E` and without `-H`. -/
theorem flat_globe {fuel : ℕ} {r : Run} {posAt : ℝ → V3} {since : ℝ} {out : Option Rec} (h : satellite fuel r posAt since = some out)
    (hs : posAt (since + r.dt / 60) ≠ r.sunKm) (hH : r.haversine = false) (hE : r.geoRef = true) {g : Geoloc}
    (hg : location fuel r (posAt since) = some (some g)) :
    out ≠ none ↔ Wanted r (some g) (flatSep (g.lon * d2r) g.lat (r.lon * d2r) (r.lat * d2r) ≤ r.radius)
        (¬ RayMeets ERAD (posAt (since + r.dt / 60)) r.sunKm) := by
  have := selected_iff h hs (Prod.mk.eta).symm (Prod.mk.eta).symm
    (near := flatSep (g.lon * d2r) g.lat (r.lon * d2r) (r.lat * d2r) ≤ r.radius) ?_
  · obtain ⟨geo, hg', hw⟩ := this
    rw [hg] at hg'
    rw [← Option.some.inj hg'] at hw
    exact hw
  · intro geo sep sep1 hg' hsep
    rw [hg] at hg'
    have eg := Option.some.inj hg'
    subst eg
    unfold separations at hsep
    rw [hE, hH] at hsep
    simp only [if_true, Bool.false_eq_true, if_false, Option.pure_def, Option.bind_eq_bind, Option.bind_some, Option.some.injEq,
      Prod.mk.injEq, flatGeoSep_eq] at hsep
    obtain ⟨rfl, rfl⟩ := hsep
    have h0 : 0 ≤ flatSep (g.lon * d2r) g.lat (r.lon * d2r) (r.lat * d2r) := by
      unfold flatSep r2d
      positivity
    constructor
    · exact Or.inl
    · rintro (h | h) <;> linarith

/-- C70 for the whole program: with `-E` and without `-H`, on the equator and for longitudes in `(-180, 180]` with the satellite at most half a
turn east of the place, a satellite is reported exactly if it passes the filters and the difference of the longitudes is within the radius. -/
theorem C70_equator_partial {fuel : ℕ} {r : Run} {posAt : ℝ → V3} {since : ℝ} {out : Option Rec} (h : satellite fuel r posAt since = some out)
    (hs : posAt (since + r.dt / 60) ≠ r.sunKm) (hH : r.haversine = false) (hE : r.geoRef = true) {g : Geoloc}
    (hg : location fuel r (posAt since) = some (some g)) (h0 : r.lat = 0) (h1 : g.lat = 0) (hl : |g.lon - r.lon| ≤ 180) :
    out ≠ none ↔ Wanted r (some g) (|g.lon - r.lon| ≤ r.radius) (¬ RayMeets ERAD (posAt (since + r.dt / 60)) r.sunKm) := by
  rw [flat_globe h hs hH hE hg, h0, h1]
  have hp := pi_pos
  obtain ⟨l1, l2⟩ := abs_le.mp hl
  have e : flatSep (g.lon * d2r) 0 (r.lon * d2r) (0 * d2r) = |g.lon - r.lon| := by
    have ed : deltaRa (g.lon * d2r) (r.lon * d2r) = (g.lon - r.lon) * (π / 180) ∨
        g.lon - r.lon = -180 ∧ deltaRa (g.lon * d2r) (r.lon * d2r) = π := by
      unfold deltaRa d2r
      dsimp only
      split_ifs with hc
      · exact Or.inl (by ring)
      · right
        have : g.lon - r.lon = -180 := by nlinarith
        refine ⟨this, ?_⟩
        linear_combination (π / 180) * this
    unfold flatSep
    rw [zero_mul, sub_zero, mul_zero, add_zero, sqrt_mul_self_eq_abs]
    rcases ed with ed | ⟨e1, e2⟩
    · rw [ed, abs_mul, abs_of_pos (show 0 < π / 180 by positivity), r2d]
      field_simp
    · rw [e1, e2, abs_of_pos hp, r2d, abs_neg, abs_of_pos (by norm_num : (0 : ℝ) < 180)]
      field_simp
  rw [e]

/-- C70 is violated for the whole program: with `-E` and without `-H` a satellite exactly above a place at latitude 45 degrees is not reported,
whatever the search radius up to 180 degrees. -/
theorem C70_overhead_violated {fuel : ℕ} {r : Run} {posAt : ℝ → V3} {since : ℝ} {out : Option Rec}
    (h : satellite fuel r posAt since = some out) (hs : posAt (since + r.dt / 60) ≠ r.sunKm) (hH : r.haversine = false)
    (hE : r.geoRef = true) {g : Geoloc} (hg : location fuel r (posAt since) = some (some g)) (hS : r.single = false)
    (hN : r.nameFilter = false) (hr : r.radius ≤ 180) (h0 : r.lat = 45) (h1 : g.lat = 45) (hl : g.lon = r.lon) : out = none := by
  by_contra hc
  have hw := (flat_globe h hs hH hE hg).mp hc
  unfold Wanted at hw
  have hp := pi_pos
  have hp3 := pi_lt_d2
  have hn : flatSep (g.lon * d2r) g.lat (r.lon * d2r) (r.lat * d2r) ≤ r.radius := by
    simpa [hS, hN] using hw.2.1
  rw [hl, h0, h1] at hn
  unfold flatSep deltaRa d2r r2d at hn
  dsimp only at hn
  rw [if_pos (by linarith), show r.lon * (π / 180) - r.lon * (π / 180) + 2 * π - 2 * π = 0 by ring, zero_mul, zero_add,
    sqrt_mul_self (by linarith)] at hn
  have : (45 - 45 * (π / 180)) * (180 / π) > 180 := by
    rw [gt_iff_lt, mul_div_assoc', lt_div_iff₀ hp]
    nlinarith
  linarith

/-! ### C81 -/

/-- C81, what holds: the position angle is in `[0, 2π)`, and it is the direction of motion unless the right ascension increases by more than half
a turn.  Missing: motion to the west across right ascension 0, see `C81_violated`. -/
theorem C81_partial {ra dec ra1 dec1 : ℝ} (hr : 0 ≤ ra ∧ ra < 2 * π) (hr1 : 0 ≤ ra1 ∧ ra1 < 2 * π) :
    (0 ≤ motionAngle ra dec ra1 dec1 ∧ motionAngle ra dec ra1 dec1 < 2 * π) ∧
      (ra1 - ra ≤ π → PositionAngle (motionAngle ra dec ra1 dec1) ra dec ra1 dec1) := by
  have ⟨a1, a2⟩ := atan2_range (deltaRa ra1 ra * cos dec) (dec1 - dec)
  have ⟨p1, p2⟩ := atan2_polar (deltaRa ra1 ra * cos dec) (dec1 - dec)
  have hrange : 0 ≤ motionAngle ra dec ra1 dec1 ∧ motionAngle ra dec ra1 dec1 < 2 * π := by
    unfold motionAngle
    dsimp only
    split_ifs <;> constructor <;> linarith [pi_pos]
  have hc : cos (motionAngle ra dec ra1 dec1) = cos (atan2 (deltaRa ra1 ra * cos dec) (dec1 - dec)) ∧
      sin (motionAngle ra dec ra1 dec1) = sin (atan2 (deltaRa ra1 ra * cos dec) (dec1 - dec)) := by
    unfold motionAngle
    dsimp only
    split_ifs
    · exact ⟨cos_add_two_pi _, sin_add_two_pi _⟩
    · exact ⟨rfl, rfl⟩
  rw [← hc.1] at p1
  rw [← hc.2] at p2
  exact ⟨hrange, fun h => ⟨hrange, deltaRa ra1 ra, _, deltaRa_wrapped (by linarith) h, sqrt_nonneg _, p1, p2⟩⟩

/-- C81 is violated for a satellite on the equator moving west from right ascension 1 to 359 degrees: the angle is 90 degrees (east) instead of
270. -/
theorem C81_violated : motionAngle (1 * d2r) 0 (359 * d2r) 0 = π / 2 ∧ PositionAngle (3 * π / 2) (1 * d2r) 0 (359 * d2r) 0 ∧
    ¬ PositionAngle (π / 2) (1 * d2r) 0 (359 * d2r) 0 := by
  have hp := pi_pos
  have e1 : deltaRa (359 * d2r) (1 * d2r) = 358 * d2r := by
    unfold deltaRa d2r
    rw [if_pos (by nlinarith)]
    ring
  have hw : Wrapped (-(2 * d2r)) (359 * d2r - 1 * d2r) := by
    unfold d2r
    exact ⟨by linarith, by linarith, -1, by push_cast; ring⟩
  refine ⟨?_, ⟨⟨by linarith, by linarith⟩, _, 2 * d2r, hw, by unfold d2r; positivity, ?_, ?_⟩, ?_⟩
  · have : atan2 (358 * d2r) 0 = π / 2 := by
      have hpos : 0 < 358 * d2r := by unfold d2r; positivity
      unfold atan2
      rw [show (⟨0, 358 * d2r⟩ : ℂ) = ((358 * d2r : ℝ) : ℂ) * Complex.I by apply Complex.ext <;> simp, Complex.arg_real_mul _ hpos,
        Complex.arg_I]
    unfold motionAngle
    dsimp only
    rw [e1, cos_zero, mul_one, sub_zero, this, if_neg (by linarith)]
  · rw [show 3 * π / 2 = π / 2 + π by ring, cos_add_pi, cos_pi_div_two]
    ring
  · rw [show 3 * π / 2 = π / 2 + π by ring, sin_add_pi, sin_pi_div_two, cos_zero]
    ring
  · rintro ⟨_, w, rho, hw', h0, _, h2⟩
    rw [wrapped_unique hw' hw, sin_pi_div_two, cos_zero] at h2
    have : 0 < d2r := by unfold d2r; positivity
    linarith

/-! ### C83 -/

/-- C83: the longitude printed for the Sun is in `(-180, 180]` and is its right ascension less the sidereal time, for sidereal times up to 24
hours. -/
theorem C83_sun_longitude (r : Run) (h : r.gmst ≤ 24) {ra dec lon : ℝ} (hs : r.sun = (ra, dec, lon)) :
    (-180 < lon ∧ lon ≤ 180) ∧ Turns 360 lon (ra * (180 / π) - 15 * r.gmst) ∧
      dir ra dec = sunDir r.jd := by
  unfold Run.sun at hs
  dsimp only at hs
  simp only [Prod.mk.injEq] at hs
  obtain ⟨rfl, rfl, rfl⟩ := hs
  have ⟨⟨s0, s1⟩, _, sd⟩ := C72_sun_direction r.jd (Prod.mk.eta).symm
  have hx : 0 ≤ (lpsun_radec r.jd).1 * r2d - r.gmst * 15 + 360 := by
    have := mul_nonneg s0 r2d_pos.le
    linarith
  have ⟨f0, f1⟩ := fmod_nonneg (by norm_num : (0 : ℝ) < 360) hx
  obtain ⟨k, hk⟩ := fmod_turns ((lpsun_radec r.jd).1 * r2d - r.gmst * 15 + 360) 360
  refine ⟨?_, ?_, sd⟩
  · split_ifs <;> constructor <;> linarith
  · rw [hk]
    unfold r2d
    split_ifs
    · exact ⟨k, by ring⟩
    · exact ⟨k + 1, by push_cast; ring⟩

/-! ### C84 -/

theorem rec_speed {fuel : ℕ} {r : Run} {posAt : ℝ → V3} {since : ℝ} {rec : Rec} (h : satellite fuel r posAt since = some (some rec)) :
    r.dt ≠ 0 ∧ rec.speed = angle (dir rec.ra rec.dec) (dir rec.ra1 rec.dec1) * (180 / π) * 60 / r.dt := by
  obtain ⟨geo, skip, _, _, h⟩ := satellite_steps h (Prod.mk.eta).symm (Prod.mk.eta).symm
  rcases h with ⟨_, h⟩ | ⟨_, sep, sep1, _, ⟨_, h⟩ | ⟨_, sunlit, _, ⟨_, h⟩ | ⟨_, hd, pix, _, h⟩⟩⟩
  · simp at h
  · simp at h
  · simp at h
  · rw [Option.some.inj h]
    dsimp only
    rw [C33_great_circle]
    exact ⟨hd, rfl⟩

/-- C84, what holds: for a positive time step the speed is the angle between the two directions divided by the step, in degrees per minute, and
not negative.  Missing: negative steps, see `C84_violated`. -/
theorem C84_partial {fuel : ℕ} {r : Run} {posAt : ℝ → V3} {since : ℝ} {rec : Rec} (h : satellite fuel r posAt since = some (some rec))
    (hdt : 0 < r.dt) : 0 ≤ rec.speed ∧ rec.speed * (r.dt / 60) = angle (dir rec.ra rec.dec) (dir rec.ra1 rec.dec1) * (180 / π) := by
  obtain ⟨h0, e⟩ := rec_speed h
  have hd : (0 : ℝ) < r.dt := by exact_mod_cast hdt
  have ha : 0 ≤ angle (dir rec.ra rec.dec) (dir rec.ra1 rec.dec1) := InnerProductGeometry.angle_nonneg _ _
  have hq := r2d_pos
  unfold r2d at hq
  rw [e]
  constructor
  · positivity
  · field_simp

/-- C84 is violated for a negative step (the option `-D` accepts any number): the speed of every moving satellite is negative. -/
theorem C84_violated {fuel : ℕ} {r : Run} {posAt : ℝ → V3} {since : ℝ} {rec : Rec} (h : satellite fuel r posAt since = some (some rec))
    (hdt : r.dt < 0) (hm : dir rec.ra rec.dec ≠ dir rec.ra1 rec.dec1) : rec.speed < 0 := by
  obtain ⟨h0, e⟩ := rec_speed h
  have hd : (r.dt : ℝ) < 0 := by exact_mod_cast hdt
  have ha : 0 < angle (dir rec.ra rec.dec) (dir rec.ra1 rec.dec1) := by
    rcases (InnerProductGeometry.angle_nonneg (dir rec.ra rec.dec).toE (dir rec.ra1 rec.dec1).toE).lt_or_eq with h | h
    · exact h
    · exact absurd ((angle_eq_zero _ _ _ _).mp h.symm) hm
  have hq := r2d_pos
  unfold r2d at hq
  rw [e]
  exact div_neg_of_pos_of_neg (by positivity) hd

/-- The satellite of `C79_violated` is reported, with a speed of its two directions. -/
example (n : V3) : ∃ rec, satellite 0 half (circle (dir half.sun.1 half.sun.2.1) n) 0 = some (some rec) ∧
    rec.speed * 45 = angle (dir rec.ra rec.dec) (dir rec.ra1 rec.dec1) * (180 / π) := by
  obtain ⟨rec, h, _⟩ := C79_violated n
  refine ⟨rec, h, ?_⟩
  have := (C84_partial h (by decide)).2
  rwa [show ((half.dt : ℝ) / 60) = 45 by unfold half; norm_num] at this

/-! ### C85 -/

/-- C85: the distance is that from the observer to the satellite, and the coordinates are those of this direction precessed to 2000; they are
in range within a century of 2000 away from the poles, with a pixel from 0 to 786431. -/
theorem C85_coordinates {fuel : ℕ} {r : Run} {posAt : ℝ → V3} {since : ℝ} {rec : Rec} (h : satellite fuel r posAt since = some (some rec))
    (hne : r.observer ≠ posAt since) :
    ∃ ra dec, V3.smul rec.dist (dir ra dec) = (posAt since).sub r.observer ∧ 0 < rec.dist ∧
      epoch_of_date_to_j2000 r.jd ra dec = (rec.ra, rec.dec) ∧
      (|centuries r.jd| ≤ 1 → |tan dec| ≤ 600 → 0 ≤ rec.ra ∧ rec.ra < 2 * π) ∧
      (-(π / 2) ≤ rec.dec ∧ rec.dec ≤ π / 2) ∧ 0 ≤ rec.pix ∧ rec.pix < 786432 := by
  obtain ⟨geo, skip, _, _, h⟩ := satellite_steps h (Prod.mk.eta).symm (Prod.mk.eta).symm
  rcases h with ⟨_, h⟩ | ⟨_, sep, sep1, _, ⟨_, h⟩ | ⟨_, sunlit, _, ⟨_, h⟩ | ⟨_, hd, pix, hp, h⟩⟩⟩
  · simp at h
  · simp at h
  · simp at h
  · rw [Option.some.inj h]
    dsimp only
    obtain ⟨ha, hb, hc, he⟩ := C37_topocentric hne (Prod.mk.eta).symm
    have hdec : -(π / 2) ≤ (coords r r.observer (posAt since)).2 ∧ (coords r r.observer (posAt since)).2 ≤ π / 2 := by
      by_contra hn
      have hx : π / 2 - (coords r r.observer (posAt since)).2 < 0 ∨ π < π / 2 - (coords r r.observer (posAt since)).2 := by
        by_contra hy
        push Not at hy
        exact hn ⟨by linarith [hy.2], by linarith [hy.1]⟩
      rw [(C44_refused 256 hx (coords r r.observer (posAt since)).1).1] at hp
      simp at hp
    obtain ⟨p, hp', q1, q2⟩ := C44_printed hdec.1 hdec.2 (coords r r.observer (posAt since)).1
    rw [hp] at hp'
    rw [← Option.some.inj hp'] at q1 q2
    refine ⟨_, _, he, hc, rfl, ?_, hdec, q1, by omega⟩
    intro ht hd
    exact C41_range (jd := r.jd) rfl ha ht hd

end SatSky.Props
