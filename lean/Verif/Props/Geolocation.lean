import Verif.Spec.Geodetic
import Verif.Lemmas.Geodetic
import Verif.Lemmas.Sphere
import Verif.Props.Shadow

/-! The sub-satellite point: range (C36), end of the loop (C77), geodetic latitude and altitude (C78). -/

namespace SatSky.Props

open SatSky.Spec SatSky.Geo Real

theorem pi_r2d : π * r2d = 180 := by unfold r2d; field_simp

/-! ### C36 -/

theorem nextLat_range {r z phi : ℝ} (hr : 0 ≤ r) : |nextLat r z phi| ≤ π / 2 :=
  Complex.abs_arg_le_pi_div_two_iff.mpr hr

/-- The two last latitudes of the loop. -/
theorem latLoop_some {r z : ℝ} {n : ℕ} {phi lat c : ℝ} (h : latLoop r z n phi = some (lat, c)) :
    ∃ p, lat = nextLat r z p ∧ c = curv p ∧ |lat - p| < 1 / 10 ^ 10 := by
  induction n generalizing phi with
  | zero => simp [latLoop] at h
  | succ n ih =>
    rw [latLoop] at h
    split_ifs at h with hc
    · exact ih h
    · simp only [Option.some.injEq, Prod.mk.injEq] at h
      obtain ⟨rfl, rfl⟩ := h
      exact ⟨phi, rfl, rfl, not_le.mp hc⟩

theorem geo_some {n : ℕ} {gmst : ℝ} {pos : V3} {g : Geoloc} (h : sat_geoLocation n gmst pos = some g) :
    ∃ lat c, latLoop (sqrt (pos.x * pos.x + pos.y * pos.y)) pos.z n (atan2 pos.z (sqrt (pos.x * pos.x + pos.y * pos.y))) = some (lat, c)
      ∧ g.theta = atan2 pos.y pos.x * r2d
      ∧ g.lon = (let lon := g.theta - gmst * 15; if lon > 180 then lon - 360 else if lon < -180 then lon + 360 else lon)
      ∧ g.alt = sqrt (pos.x * pos.x + pos.y * pos.y) / cos lat - ERAD * c
      ∧ g.lat = (if lat * r2d > 90 then lat * r2d - 360 else lat * r2d) := by
  unfold sat_geoLocation at h
  obtain ⟨⟨lat, c⟩, h1, h2⟩ := Option.bind_eq_some_iff.mp h
  simp only [Option.pure_def, Option.some.injEq] at h2
  subst h2
  exact ⟨lat, c, h1, rfl, rfl, rfl, rfl⟩

theorem geo_lat {n : ℕ} {gmst : ℝ} {pos : V3} {g : Geoloc} (h : sat_geoLocation n gmst pos = some g) :
    ∃ lat p, lat = nextLat (sqrt (pos.x * pos.x + pos.y * pos.y)) pos.z p ∧ |lat - p| < 1 / 10 ^ 10 ∧ |lat| ≤ π / 2 ∧
      g.lat = lat * r2d ∧ g.alt = sqrt (pos.x * pos.x + pos.y * pos.y) / cos lat - ERAD * curv p := by
  obtain ⟨lat, c, hl, _, _, ha, hla⟩ := geo_some h
  obtain ⟨p, e, ec, hp⟩ := latLoop_some hl
  have hr := nextLat_range (r := sqrt (pos.x * pos.x + pos.y * pos.y)) (z := pos.z) (phi := p) (sqrt_nonneg _)
  rw [← e] at hr
  refine ⟨lat, p, e, hp, hr, ?_, ?_⟩
  · rw [hla, if_neg]
    have := mul_le_mul_of_nonneg_right (abs_le.mp hr).2 r2d_pos.le
    linarith [pi_r2d]
  · rw [ha, ec]

/-- C36: for any position and a sidereal time between -24 and 24 hours, the longitude is in `[-180, 180]`, the latitude in `[-90, 90]`,
`theta` is the right ascension of the satellite (the angle of its projection on the equator) and longitude is `theta` less the sidereal
angle, up to whole turns. -/
theorem C36_range {n : ℕ} {gmst : ℝ} {pos : V3} {g : Geoloc} (h : sat_geoLocation n gmst pos = some g) (h1 : -24 ≤ gmst) (h2 : gmst ≤ 24) :
    (-180 ≤ g.lon ∧ g.lon ≤ 180) ∧ (-90 ≤ g.lat ∧ g.lat ≤ 90) ∧ Turns 360 g.lon (g.theta - 15 * gmst) ∧
      sqrt (pos.x ^ 2 + pos.y ^ 2) * cos (g.theta * (π / 180)) = pos.x ∧
      sqrt (pos.x ^ 2 + pos.y ^ 2) * sin (g.theta * (π / 180)) = pos.y := by
  obtain ⟨lat, c, _, ht, hlon, _, _⟩ := geo_some h
  obtain ⟨lat', _, _, _, hr, hlat, _⟩ := geo_lat h
  have ⟨a1, a2⟩ := atan2_range pos.y pos.x
  have b1 := mul_lt_mul_of_pos_right a1 r2d_pos
  have b2 := mul_le_mul_of_nonneg_right a2 r2d_pos.le
  rw [← ht] at b1 b2
  have c1 := mul_le_mul_of_nonneg_right (abs_le.mp hr).1 r2d_pos.le
  have c2 := mul_le_mul_of_nonneg_right (abs_le.mp hr).2 r2d_pos.le
  have hpr := pi_r2d
  have ⟨p1, p2⟩ := atan2_polar pos.y pos.x
  have e : g.theta * (π / 180) = atan2 pos.y pos.x := by rw [ht]; unfold r2d; field_simp
  dsimp only at hlon
  refine ⟨?_, ⟨by rw [hlat]; linarith, by rw [hlat]; linarith⟩, ?_, ?_, ?_⟩
  · rw [hlon]
    split_ifs <;> constructor <;> linarith
  · rw [hlon]
    split_ifs
    · exact ⟨-1, by push_cast; ring⟩
    · exact ⟨1, by push_cast; ring⟩
    · exact ⟨0, by push_cast; ring⟩
  · rw [e, sq, sq, p1]
  · rw [e, sq, sq, p2]

/-! ### C77 -/

/-- One pass halves the change of the latitude. -/
theorem contract {r z : ℝ} (hr : 0 ≤ r) (hd : 200 * 200 ≤ r * r + z * z) {s1 s2 : ℝ} (h1 : |s1| ≤ 43) (h2 : |s2| ≤ 43) :
    |atan2 (z + s2) r - atan2 (z + s1) r| ≤ |s2 - s1| / 98 := by
  obtain ⟨a1, a2⟩ := abs_le.mp h1
  obtain ⟨b1, b2⟩ := abs_le.mp h2
  -- the points stay 156 km away
  have hd' : ∀ s : ℝ, |s| ≤ 43 → 156 * 156 ≤ r * r + (z + s) * (z + s) := by
    intro s hs
    obtain ⟨c1, c2⟩ := abs_le.mp hs
    have hz : |z| * |z| = z * z := abs_mul_abs_self z
    have hz0 := abs_nonneg z
    have : -(43 * |z|) ≤ z * s := by
      have := neg_abs_le (z * s)
      rw [abs_mul] at this
      nlinarith
    rcases le_or_gt |z| 157 with hq | hq
    · nlinarith [mul_self_nonneg s, mul_self_nonneg (|z| - 43 - s), mul_self_nonneg (|z| - 43 + s)]
    · nlinarith [mul_self_nonneg s, mul_self_nonneg r]
  have e1 := hd' s1 h1
  have e2 := hd' s2 h2
  have hcos : 0 ≤ r * r + (z + s1) * (z + s2) := by
    nlinarith [mul_self_nonneg (s1 - s2)]
  have := atan2_lip hr (by norm_num : (0 : ℝ) < 156) e1 (by linarith) hcos
  refine le_trans this ?_
  rw [show z + s2 - (z + s1) = s2 - s1 by ring]
  have hp := pi_lt_d2
  have h0 := abs_nonneg (s2 - s1)
  rw [mul_div_assoc', div_le_div_iff₀ (by norm_num) (by norm_num)]
  nlinarith

theorem nextLat_eq (r z phi : ℝ) : nextLat r z phi = atan2 (z + shift phi) r := rfl

theorem loop_ends {r z : ℝ} (hr : 0 ≤ r) (hd : 200 * 200 ≤ r * r + z * z) (n : ℕ) :
    ∀ s, |s| ≤ 43 → |nextLat r z (atan2 (z + s) r) - atan2 (z + s) r| < 2 ^ n / 10 ^ 10 →
      ∃ p, latLoop r z (n + 1) (atan2 (z + s) r) = some p := by
  induction n with
  | zero =>
    intro s hs h
    rw [latLoop]
    rw [if_neg (by rw [ge_iff_le, not_le]; simpa using h)]
    exact ⟨_, rfl⟩
  | succ n ih =>
    intro s hs h
    rw [latLoop]
    split_ifs with hc
    · rw [nextLat_eq]
      apply ih _ (shift_abs _)
      rw [nextLat_eq] at h hc ⊢
      have h1 := contract hr hd (shift_abs (atan2 (z + s) r)) (shift_abs (atan2 (z + shift (atan2 (z + s) r)) r))
      have h2 := shift_lip (atan2 (z + shift (atan2 (z + s) r)) r) (atan2 (z + s) r)
      have h3 : (2 : ℝ) ^ (n + 1) / 10 ^ 10 = 2 * (2 ^ n / 10 ^ 10) := by ring
      rw [h3] at h
      have h0 := abs_nonneg (atan2 (z + shift (atan2 (z + s) r)) r - atan2 (z + s) r)
      rw [le_div_iff₀ (by norm_num)] at h1
      nlinarith
    · exact ⟨_, rfl⟩

/-- C77: for a satellite at least 200 km from the centre of the Earth the loop ends, after at most 37 passes. -/
theorem C77_ends {gmst : ℝ} {pos : V3} (h : 200 ≤ pos.len) : ∃ g, sat_geoLocation 37 gmst pos = some g := by
  have hd : 200 * 200 ≤ pos.x * pos.x + pos.y * pos.y + pos.z * pos.z := by
    have := mul_le_mul h h (by norm_num) (by linarith)
    unfold V3.len at this
    rwa [mul_self_sqrt (dot_nonneg pos)] at this
  have hs := mul_self_sqrt (show 0 ≤ pos.x * pos.x + pos.y * pos.y by nlinarith [mul_self_nonneg pos.x, mul_self_nonneg pos.y])
  unfold sat_geoLocation
  have hr := sqrt_nonneg (pos.x * pos.x + pos.y * pos.y)
  generalize sqrt (pos.x * pos.x + pos.y * pos.y) = r at *
  have hl := loop_ends hr (by rw [hs]; exact hd) 36 0 (by norm_num) (z := pos.z) (by
    have h1 := nextLat_range (z := pos.z) (phi := atan2 (pos.z + 0) r) hr
    have h2 : |atan2 (pos.z + 0) r| ≤ π / 2 := Complex.abs_arg_le_pi_div_two_iff.mpr hr
    have h3 := abs_sub (nextLat r pos.z (atan2 (pos.z + 0) r)) (atan2 (pos.z + 0) r)
    have hp := pi_lt_d2
    have : (4 : ℝ) < 2 ^ 36 / 10 ^ 10 := by norm_num
    linarith)
  obtain ⟨⟨lat, c⟩, hp⟩ := hl
  rw [add_zero] at hp
  dsimp only
  rw [hp]
  exact ⟨_, rfl⟩

/-! ### C78 -/

/-- C78: away from the polar axis, latitude and altitude are geodetic: on the ellipsoid of the program they give back the distance from the
axis and the height above the equator to within `10⁻⁸` km. -/
theorem C78_geodetic {n : ℕ} {gmst : ℝ} {pos : V3} {g : Geoloc} (h : sat_geoLocation n gmst pos = some g) (hne : pos.x ≠ 0 ∨ pos.y ≠ 0) :
    |(geodetic ERAD F (g.lat * (π / 180)) g.alt).1 - sqrt (pos.x ^ 2 + pos.y ^ 2)| ≤ 1 / 10 ^ 8 ∧
      |(geodetic ERAD F (g.lat * (π / 180)) g.alt).2 - pos.z| ≤ 1 / 10 ^ 8 := by
  obtain ⟨lat, p, e, hp, hr, hlat, halt⟩ := geo_lat h
  have el : g.lat * (π / 180) = lat := by rw [hlat]; unfold r2d; field_simp
  have hr0 : 0 < sqrt (pos.x * pos.x + pos.y * pos.y) := by
    apply sqrt_pos.mpr
    rcases hne with h | h
    · nlinarith [mul_self_pos.mpr h, mul_self_nonneg pos.y]
    · nlinarith [mul_self_pos.mpr h, mul_self_nonneg pos.x]
  rw [el, halt, sq, sq]
  have hN : primeVertical ERAD F lat = ERAD * curv lat := by
    unfold primeVertical curv e2
    rw [mul_one_div]
    congr 2
    ring
  have hF : (1 - F) ^ 2 = 1 - e2 := by unfold e2; ring
  unfold geodetic
  rw [hN, hF]
  generalize sqrt (pos.x * pos.x + pos.y * pos.y) = r at *
  have ⟨q1, q2⟩ := atan2_polar (pos.z + shift p) r
  have e' : lat = atan2 (pos.z + shift p) r := e
  rw [← e'] at q1 q2
  have hc : 0 < cos lat := by
    by_contra hn
    push Not at hn
    have := sqrt_nonneg (r * r + (pos.z + shift p) * (pos.z + shift p))
    nlinarith
  -- z plus the shift is r tan lat
  have htan : r / cos lat * sin lat = pos.z + shift p := by
    rw [div_mul_eq_mul_div, div_eq_iff hc.ne']
    calc r * sin lat = sqrt (r * r + (pos.z + shift p) * (pos.z + shift p)) * cos lat * sin lat := by rw [q1]
      _ = sqrt (r * r + (pos.z + shift p) * (pos.z + shift p)) * sin lat * cos lat := by ring
      _ = (pos.z + shift p) * cos lat := by rw [q2]
  have hcl := curv_lip lat p
  have hsl := sin_lip lat p
  have ⟨v1, v2⟩ := e2_val
  have ⟨c1, c2⟩ := curv_bounds p
  have hd : |curv lat - curv p| ≤ 679 / 10 ^ 15 := by
    calc |curv lat - curv p| ≤ 679 / 10 ^ 5 * |sin lat - sin p| := hcl
      _ ≤ 679 / 10 ^ 5 * (1 / 10 ^ 10) := by gcongr; linarith
      _ = 679 / 10 ^ 15 := by norm_num
  constructor
  · have : (ERAD * curv lat + (r / cos lat - ERAD * curv p)) * cos lat - r = ERAD * (curv lat - curv p) * cos lat := by
      field_simp
      ring
    dsimp only
    rw [this, abs_mul, abs_mul, abs_of_pos ERAD_pos]
    have hcc := abs_cos_le_one lat
    have h0 := abs_nonneg (curv lat - curv p)
    have : ERAD * |curv lat - curv p| ≤ 1 / 10 ^ 8 := by unfold ERAD; nlinarith
    nlinarith [abs_nonneg (cos lat), mul_nonneg ERAD_pos.le h0]
  · have : (ERAD * curv lat * (1 - e2) + (r / cos lat - ERAD * curv p)) * sin lat - pos.z
        = ERAD * (curv lat - curv p) * (1 - e2) * sin lat - ERAD * curv p * e2 * (sin lat - sin p) := by
      have hsh : shift p = ERAD * curv p * e2 * sin p := rfl
      linear_combination htan + hsh
    dsimp only
    rw [this]
    refine le_trans (abs_sub _ _) ?_
    rw [abs_mul, abs_mul, abs_mul, abs_mul (ERAD * curv p * e2), abs_of_pos ERAD_pos, abs_of_pos (show 0 < 1 - e2 by linarith),
      abs_of_pos (show 0 < ERAD * curv p * e2 by have := ERAD_pos; positivity)]
    have h0 := abs_nonneg (curv lat - curv p)
    have h1 := abs_sin_le_one lat
    have hA : ERAD * |curv lat - curv p| ≤ 434 / 10 ^ 11 := by unfold ERAD; linarith
    have hA0 : 0 ≤ ERAD * |curv lat - curv p| := mul_nonneg ERAD_pos.le h0
    have hB : ERAD * |curv lat - curv p| * (1 - e2) * |sin lat| ≤ 434 / 10 ^ 11 := by
      have h3 : ERAD * |curv lat - curv p| * (1 - e2) ≤ 434 / 10 ^ 11 := by nlinarith
      have h4 : 0 ≤ ERAD * |curv lat - curv p| * (1 - e2) := mul_nonneg hA0 (by linarith)
      nlinarith [abs_nonneg (sin lat)]
    have hC : ERAD * curv p * e2 ≤ 43 := by
      have k1 : curv p * e2 ≤ 1005 / 1000 * (670 / 10 ^ 5) := mul_le_mul c2 v2.le (by linarith) (by norm_num)
      rw [mul_assoc]
      unfold ERAD
      linarith
    have hC0 : 0 ≤ ERAD * curv p * e2 := by have := ERAD_pos; positivity
    have hD : ERAD * curv p * e2 * |sin lat - sin p| ≤ 43 * (1 / 10 ^ 10) :=
      mul_le_mul hC (by linarith) (abs_nonneg _) (by norm_num)
    have : (434 / 10 ^ 11 : ℝ) + 43 * (1 / 10 ^ 10) ≤ 1 / 10 ^ 8 := by norm_num
    linarith

/-- On the polar axis the altitude is wrong: a satellite 7000 km above the centre has a negative altitude of more than 6000 km. -/
theorem C78_axis_excluded (gmst : ℝ) : ∃ g, sat_geoLocation 1 gmst ⟨0, 0, 7000⟩ = some g ∧ g.alt < -6000 := by
  have hs : sqrt ((0 : ℝ) * 0 + 0 * 0) = 0 := by simp
  have ha : ∀ y : ℝ, 0 < y → atan2 y 0 = π / 2 := by
    intro y hy
    unfold atan2
    rw [show (⟨0, y⟩ : ℂ) = (y : ℂ) * Complex.I by apply Complex.ext <;> simp, Complex.arg_real_mul _ hy, Complex.arg_I]
  have hsh : 0 < 7000 + shift (π / 2) := by
    have := (abs_le.mp (shift_abs (π / 2))).1
    linarith
  have hn : nextLat 0 7000 (π / 2) = π / 2 := ha _ hsh
  have hl : latLoop 0 7000 1 (π / 2) = some (π / 2, curv (π / 2)) := by
    rw [latLoop, hn]
    rw [if_neg (by simp)]
  unfold sat_geoLocation
  dsimp only
  rw [hs, ha 7000 (by norm_num), hl]
  refine ⟨_, rfl, ?_⟩
  dsimp only
  rw [zero_div, zero_sub]
  have := (curv_bounds (π / 2)).1
  unfold ERAD
  nlinarith

/-- A satellite above the equator at right ascension 0: the location exists and the distance from the axis is recovered. -/
example : ∃ g, sat_geoLocation 37 6 ⟨7000, 0, 0⟩ = some g ∧ Turns 360 g.lon (g.theta - 90) := by
  obtain ⟨g, hg⟩ := C77_ends (gmst := 6) (pos := ⟨7000, 0, 0⟩) (by
    unfold V3.len V3.dot
    dsimp only
    rw [show (7000 : ℝ) * 7000 + 0 * 0 + 0 * 0 = 7000 * 7000 by ring, sqrt_mul_self (by norm_num)]
    norm_num)
  have := (C36_range hg (by norm_num) (by norm_num)).2.2.1
  exact ⟨g, hg, by rwa [show (15 : ℝ) * 6 = 90 by norm_num] at this⟩

end SatSky.Props
