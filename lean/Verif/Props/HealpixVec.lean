import Verif.Model.HealpixVec
import Verif.Props.HealpixDist
import Verif.Lemmas.Angles

/-! C169 and C170: vectors and pixels. -/

namespace SatSky.Props

open SatSky SatSky.Healpix SatSky.Spec SatSky.Spec.Healpix

/-! ### Vectors and angles -/

theorem ang2vec_dir (theta phi : ℝ) : ang2vec theta phi = sphDir theta phi := by
  unfold ang2vec sphDir dir
  rw [Real.cos_pi_div_two_sub, Real.sin_pi_div_two_sub]

theorem ang2vec_len (theta phi : ℝ) : (ang2vec theta phi).len = 1 := by
  unfold ang2vec V3.len V3.dot
  rw [Real.sqrt_eq_one]
  dsimp only
  nlinarith [Real.sin_sq_add_cos_sq theta, Real.sin_sq_add_cos_sq phi]

/-- **C169**: the vector of two angles is the unit vector with these spherical coordinates. -/
theorem C169_ang2vec (theta phi : ℝ) : ang2vec theta phi = dir phi (Real.pi / 2 - theta) ∧ (ang2vec theta phi).len = 1 :=
  ⟨ang2vec_dir theta phi, ang2vec_len theta phi⟩

theorem vlen_len (v : V3) : vlen v = v.len := rfl

theorem atan2_nonneg {y x : ℝ} (h : 0 ≤ y) : 0 ≤ Geo.atan2 y x := Complex.arg_nonneg_iff.mpr h

theorem vec2ang_range (v : V3) : 0 ≤ (vec2ang v).1 ∧ (vec2ang v).1 ≤ Real.pi ∧ 0 ≤ (vec2ang v).2 ∧ (vec2ang v).2 < 2 * Real.pi := by
  have hp := Real.pi_pos
  obtain ⟨a, b⟩ := Geo.atan2_range v.y v.x
  refine ⟨atan2_nonneg (Real.sqrt_nonneg _), (Geo.atan2_range _ _).2, ?_, ?_⟩ <;> unfold vec2ang <;> dsimp only <;> split_ifs with h <;> linarith

theorem vec2ang_longitude (v : V3) : ∃ m : ℤ, (vec2ang v).2 = Geo.atan2 v.y v.x + m * (2 * Real.pi) := by
  unfold vec2ang
  dsimp only
  split_ifs with h
  · exact ⟨1, by push_cast; ring⟩
  · exact ⟨0, by push_cast; ring⟩

theorem vec2ang_height (v : V3) : vlen v * Real.cos (vec2ang v).1 = v.z ∧ vlen v * Real.sin (vec2ang v).1 = Real.sqrt (v.x * v.x + v.y * v.y) := by
  obtain ⟨a, b⟩ := Geo.atan2_polar (Real.sqrt (v.x * v.x + v.y * v.y)) v.z
  have hs : Real.sqrt (v.x * v.x + v.y * v.y) * Real.sqrt (v.x * v.x + v.y * v.y) = v.x * v.x + v.y * v.y :=
    Real.mul_self_sqrt (by nlinarith [mul_self_nonneg v.x, mul_self_nonneg v.y])
  rw [hs, show v.z * v.z + (v.x * v.x + v.y * v.y) = v.x * v.x + v.y * v.y + v.z * v.z by ring] at a b
  exact ⟨a, b⟩

/-- **C169**: the angles of a vector are in their ranges, and the vector has this direction. -/
theorem C169_vec2ang (v : V3) : 0 ≤ (vec2ang v).1 ∧ (vec2ang v).1 ≤ Real.pi ∧ 0 ≤ (vec2ang v).2 ∧ (vec2ang v).2 < 2 * Real.pi ∧
    v = (dir (vec2ang v).2 (Real.pi / 2 - (vec2ang v).1)).smul v.len := by
  obtain ⟨a, b, c, d⟩ := vec2ang_range v
  refine ⟨a, b, c, d, ?_⟩
  obtain ⟨h1, h2⟩ := vec2ang_height v
  obtain ⟨m, hm⟩ := vec2ang_longitude v
  obtain ⟨g1, g2⟩ := Geo.atan2_polar v.y v.x
  rw [vlen_len] at h1 h2
  unfold V3.smul dir
  rw [Real.cos_pi_div_two_sub, Real.sin_pi_div_two_sub, hm, Real.cos_add_int_mul_two_pi, Real.sin_add_int_mul_two_pi]
  dsimp only
  rw [← mul_assoc, h2, g1, ← mul_assoc, h2, g2, h1]

/-- **C169**: from the angles to a vector of any length and back. -/
theorem C169_round {theta phi k : ℝ} (h0 : 0 < theta) (h1 : theta < Real.pi) (p0 : 0 ≤ phi) (p1 : phi < 2 * Real.pi) (hk : 0 < k) :
    vec2ang ((ang2vec theta phi).smul k) = (theta, phi) := by
  have hs : 0 < Real.sin theta := Real.sin_pos_of_pos_of_lt_pi h0 h1
  have hp := Real.pi_pos
  have polar : ∀ {r a : ℝ}, 0 < r → -Real.pi < a → a ≤ Real.pi → Geo.atan2 (r * Real.sin a) (r * Real.cos a) = a := by
    intro r a hr ha hb
    unfold Geo.atan2
    have e : (⟨r * Real.cos a, r * Real.sin a⟩ : ℂ) = r * (Complex.cos a + Complex.sin a * Complex.I) := by
      apply Complex.ext
      · simp [Complex.cos_ofReal_re, Complex.sin_ofReal_re]
      · simp [Complex.cos_ofReal_re, Complex.sin_ofReal_re]
    rw [e, Complex.arg_mul_cos_add_sin_mul_I hr ⟨ha, hb⟩]
  have e1 : ((ang2vec theta phi).smul k) = ⟨k * Real.sin theta * Real.cos phi, k * Real.sin theta * Real.sin phi, k * Real.cos theta⟩ := by
    unfold ang2vec V3.smul
    dsimp only
    rw [mul_assoc, mul_assoc]
  have hks : 0 < k * Real.sin theta := mul_pos hk hs
  have e2 : Real.sqrt (k * Real.sin theta * Real.cos phi * (k * Real.sin theta * Real.cos phi) + k * Real.sin theta * Real.sin phi * (k * Real.sin theta * Real.sin phi)) =
      k * Real.sin theta := by
    rw [show k * Real.sin theta * Real.cos phi * (k * Real.sin theta * Real.cos phi) + k * Real.sin theta * Real.sin phi * (k * Real.sin theta * Real.sin phi) =
      (k * Real.sin theta) ^ 2 * (Real.sin phi ^ 2 + Real.cos phi ^ 2) by ring, Real.sin_sq_add_cos_sq, mul_one, Real.sqrt_sq hks.le]
  unfold vec2ang
  rw [e1]
  dsimp only
  rw [e2, polar hk (by linarith) h1.le]
  congr 1
  rcases le_or_gt phi Real.pi with h | h
  · rw [polar hks (by linarith) h, if_neg (not_lt.mpr p0)]
  · have e3 : Geo.atan2 (k * Real.sin theta * Real.sin phi) (k * Real.sin theta * Real.cos phi) = phi - 2 * Real.pi := by
      have h3 := polar (a := phi - 2 * Real.pi) hks (by linarith) (by linarith)
      rwa [Real.sin_sub_two_pi, Real.cos_sub_two_pi] at h3
    rw [e3, if_pos (by linarith)]
    ring

/-- The vector `(0, -2, 0)`: on the equator at three quarters of a turn. -/
example : vec2ang ⟨0, -2, 0⟩ = (Real.pi / 2, 3 * Real.pi / 2) := by
  have hp := Real.pi_pos
  have h := C169_round (theta := Real.pi / 2) (phi := 3 * Real.pi / 2) (k := 2) (by linarith) (by linarith) (by linarith) (by linarith) (by norm_num)
  have e : (ang2vec (Real.pi / 2) (3 * Real.pi / 2)).smul 2 = ⟨0, -2, 0⟩ := by
    unfold ang2vec V3.smul
    rw [show 3 * Real.pi / 2 = Real.pi / 2 + Real.pi by ring, Real.cos_add_pi, Real.sin_add_pi, Real.cos_pi_div_two, Real.sin_pi_div_two]
    norm_num
  rwa [e] at h

/-! ### Vectors and pixels -/

/-- Whole turns do not change the longitude in quarter turns. -/
theorem quarter_period (phi : ℝ) (m : ℤ) : quarter exact (phi + m * (2 * Real.pi)) = quarter exact phi := by
  obtain ⟨t, k, t0, t1, rfl⟩ := any_longitude phi
  have e : (t + 4 * k) * (Real.pi / 2) + m * (2 * Real.pi) = (t + 4 * (k + m : ℤ)) * (Real.pi / 2) := by push_cast; ring
  rw [e, quarter_turns t0 t1, quarter_turns t0 t1]

theorem ring_period {c : ℤ → Option ℤ} (n : ℤ) (z s phi : ℝ) (m : ℤ) :
    ang2pixRing exact c n z s (phi + m * (2 * Real.pi)) = ang2pixRing exact c n z s phi := by
  unfold ang2pixRing
  rw [quarter_period]

theorem xyf_period {c : ℤ → Option ℤ} (n : ℤ) (z s phi : ℝ) (m : ℤ) :
    ang2xyf exact c n z s (phi + m * (2 * Real.pi)) = ang2xyf exact c n z s phi := by
  unfold ang2xyf
  rw [quarter_period]

theorem vec_pos {v : V3} (h : v ≠ ⟨0, 0, 0⟩) : 0 < vlen v := by
  unfold vlen
  rw [Real.sqrt_pos]
  by_contra hc
  have hx := mul_self_nonneg v.x
  have hy := mul_self_nonneg v.y
  have hz := mul_self_nonneg v.z
  apply h
  have : v = ⟨v.x, v.y, v.z⟩ := rfl
  rw [this, mul_self_eq_zero.mp (by linarith : v.x * v.x = 0), mul_self_eq_zero.mp (by linarith : v.y * v.y = 0), mul_self_eq_zero.mp (by linarith : v.z * v.z = 0)]

theorem vec_angles {v : V3} (h : v ≠ ⟨0, 0, 0⟩) : v.z / vlen v = Real.cos (vec2ang v).1 ∧ vecSth v = sth (vec2ang v).1 := by
  have hv := vec_pos h
  obtain ⟨h1, h2⟩ := vec2ang_height v
  have a : v.z / vlen v = Real.cos (vec2ang v).1 := by rw [← h1]; field_simp
  have b : Real.sqrt (v.x * v.x + v.y * v.y) / vlen v = Real.sin (vec2ang v).1 := by rw [← h2]; field_simp
  refine ⟨a, ?_⟩
  unfold vecSth sth
  rw [a, b]

/-- **C170**: the pixel of a vector is the pixel of its angles; no pixel is found for the zero vector. -/
theorem C170_vec2pix (n : ℤ) {v : V3} (h : v ≠ ⟨0, 0, 0⟩) :
    vec2pix_ring n v = ang2pix_ring n (vec2ang v).1 (vec2ang v).2 ∧ vec2pix_nest n v = ang2pix_nest n (vec2ang v).1 (vec2ang v).2 ∧
    vec2pix_ring64 n v = ang2pix_ring64 n (vec2ang v).1 (vec2ang v).2 ∧ vec2pix_nest64 n v = ang2pix_nest64 n (vec2ang v).1 (vec2ang v).2 := by
  have hv := (vec_pos h).ne'
  obtain ⟨a, b⟩ := vec_angles h
  obtain ⟨r0, r1, -, -⟩ := vec2ang_range v
  obtain ⟨m, hm⟩ := vec2ang_longitude v
  unfold vec2pix_ring ang2pix_ring vec2pix_nest ang2pix_nest vec2pix_ring64 ang2pix_ring64 vec2pix_nest64 ang2pix_nest64
  simp only [if_neg hv, if_pos (And.intro r0 r1), a, b, hm, ring_period, ang2pixNest, ang2pixNest64, xyf_period, and_self]

theorem C170_zero (n : ℤ) : vec2pix_ring n ⟨0, 0, 0⟩ = none ∧ vec2pix_nest n ⟨0, 0, 0⟩ = none ∧ vec2pix_ring64 n ⟨0, 0, 0⟩ = none ∧
    vec2pix_nest64 n ⟨0, 0, 0⟩ = none := by
  have e : vlen ⟨0, 0, 0⟩ = 0 := by unfold vlen; simp
  unfold vec2pix_ring vec2pix_nest vec2pix_ring64 vec2pix_nest64
  simp only [if_pos e, and_self]

theorem vec2ang_scale {k : ℝ} (hk : 0 < k) (v : V3) : vec2ang (v.smul k) = vec2ang v := by
  have at2 : ∀ y x : ℝ, Geo.atan2 (k * y) (k * x) = Geo.atan2 y x := by
    intro y x
    unfold Geo.atan2
    have e : (⟨k * x, k * y⟩ : ℂ) = (k : ℂ) * ⟨x, y⟩ := by apply Complex.ext <;> simp
    rw [e, Complex.arg_real_mul _ hk]
  unfold vec2ang V3.smul
  dsimp only
  rw [show k * v.x * (k * v.x) + k * v.y * (k * v.y) = k ^ 2 * (v.x * v.x + v.y * v.y) by ring, Real.sqrt_mul (sq_nonneg k), Real.sqrt_sq hk.le, at2, at2]

/-- **C170**: only the direction of the vector counts. -/
theorem C170_scale (n : ℤ) {k : ℝ} (hk : 0 < k) (v : V3) :
    vec2pix_ring n (v.smul k) = vec2pix_ring n v ∧ vec2pix_nest n (v.smul k) = vec2pix_nest n v ∧
    vec2pix_ring64 n (v.smul k) = vec2pix_ring64 n v ∧ vec2pix_nest64 n (v.smul k) = vec2pix_nest64 n v := by
  by_cases h : v = ⟨0, 0, 0⟩
  · rw [h]
    have e : (⟨0, 0, 0⟩ : V3).smul k = ⟨0, 0, 0⟩ := by unfold V3.smul; simp
    rw [e]
    exact ⟨rfl, rfl, rfl, rfl⟩
  · have hs : v.smul k ≠ ⟨0, 0, 0⟩ := by
      intro hc
      apply h
      unfold V3.smul at hc
      simp only [V3.mk.injEq, mul_eq_zero, hk.ne', false_or] at hc
      have : v = ⟨v.x, v.y, v.z⟩ := rfl
      rw [this, hc.1, hc.2.1, hc.2.2]
    obtain ⟨a1, a2, a3, a4⟩ := C170_vec2pix n hs
    obtain ⟨b1, b2, b3, b4⟩ := C170_vec2pix n h
    rw [a1, a2, a3, a4, b1, b2, b3, b4, vec2ang_scale hk]
    exact ⟨rfl, rfl, rfl, rfl⟩

theorem cylinder_ang {z : ℝ} (hz : |z| ≤ 1) (phi : ℝ) : cylinder z (Real.sqrt ((1 - z) * (1 + z))) phi = ang2vec (Real.arccos z) phi := by
  unfold cylinder ang2vec
  rw [Real.sin_arccos, cos_arccos' hz, show (1 - z) * (1 + z) = 1 - z ^ 2 by ring]

theorem cylinder_ang64 {z : ℝ} (hz : |z| ≤ 1) (phi : ℝ) : cylinder z (stheta64 z) phi = ang2vec (theta64 z) phi := by
  rw [theta64_eq hz, ← cylinder_ang hz]
  have e : stheta64 z = Real.sqrt ((1 - z) * (1 + z)) := by
    unfold stheta64
    split_ifs
    · congr 1
      rw [show (1 - |z|) * (2 - (1 - |z|)) = 1 - |z| ^ 2 by ring, sq_abs]; ring
    · rfl
  rw [e]

theorem ang2vec_turn (theta phi : ℝ) (m : ℤ) : ang2vec theta (phi + m * (2 * Real.pi)) = ang2vec theta phi := by
  unfold ang2vec
  rw [Real.cos_add_int_mul_two_pi, Real.sin_add_int_mul_two_pi]

/-- **C170**: the pixel of the vector of two angles is the pixel of the angles.  At the poles the vector has no longitude. -/
theorem C170_angles (n : ℤ) {theta : ℝ} (phi : ℝ) (h0 : 0 < theta) (h1 : theta < Real.pi) :
    vec2pix_ring n (ang2vec theta phi) = ang2pix_ring n theta phi ∧ vec2pix_nest n (ang2vec theta phi) = ang2pix_nest n theta phi ∧
    vec2pix_ring64 n (ang2vec theta phi) = ang2pix_ring64 n theta phi ∧ vec2pix_nest64 n (ang2vec theta phi) = ang2pix_nest64 n theta phi := by
  have hp := Real.pi_pos
  obtain ⟨t, m, t0, t1, rfl⟩ := any_longitude phi
  have e : (t + 4 * m) * (Real.pi / 2) = t * (Real.pi / 2) + m * (2 * Real.pi) := by ring
  have hv : ang2vec theta (t * (Real.pi / 2)) ≠ ⟨0, 0, 0⟩ := by
    intro hc
    have := ang2vec_len theta (t * (Real.pi / 2))
    rw [hc] at this
    unfold V3.len V3.dot at this
    simp at this
  have hr := C169_round (k := 1) h0 h1 (by positivity : 0 ≤ t * (Real.pi / 2)) (by nlinarith) one_pos
  have h1' : (ang2vec theta (t * (Real.pi / 2))).smul 1 = ang2vec theta (t * (Real.pi / 2)) := by
    unfold V3.smul; simp only [one_mul]
  rw [h1'] at hr
  rw [e, ang2vec_turn]
  obtain ⟨a1, a2, a3, a4⟩ := C170_vec2pix n hv
  rw [a1, a2, a3, a4, hr]
  unfold ang2pix_ring ang2pix_nest ang2pix_ring64 ang2pix_nest64 ang2pixNest ang2pixNest64
  simp only [ring_period, xyf_period, and_self]

theorem centre_off_pole {n i j p : ℤ} (h : RingPix n i j p) : |ringZ n i| < 1 := by
  obtain ⟨i1, i2, -⟩ := h
  have n1 : 1 ≤ n := by omega
  unfold ringZ
  split_ifs with a b
  · obtain ⟨z1, z2, z3⟩ := cap_height i1 a
    rw [abs_pos_height z1]
    have i0 : (0 : ℝ) < i := by exact_mod_cast (by omega : 0 < i)
    have n0 : (0 : ℝ) < n := by exact_mod_cast (by omega : 0 < n)
    have : 0 < (i : ℝ) ^ 2 / (3 * n ^ 2) := by positivity
    linarith
  · have := belt_height n1 (not_lt.mp a) b
    linarith
  · obtain ⟨z1, z2, z3⟩ := cap_height (n := n) (i := 4 * n - i) (by omega) (by omega)
    rw [abs_neg_height z1]
    have i0 : (0 : ℝ) < ((4 * n - i : ℤ) : ℝ) := by exact_mod_cast (by omega : 0 < 4 * n - i)
    have n0 : (0 : ℝ) < n := by exact_mod_cast (by omega : 0 < n)
    have : 0 < ((4 * n - i : ℤ) : ℝ) ^ 2 / (3 * n ^ 2) := by positivity
    linarith

theorem arccos_off_pole {z : ℝ} (h : |z| < 1) : 0 < Real.arccos z ∧ Real.arccos z < Real.pi := by
  obtain ⟨a, b⟩ := abs_lt.mp h
  refine ⟨Real.arccos_pos.mpr b, lt_of_le_of_ne (Real.arccos_le_pi z) fun hc => ?_⟩
  rw [Real.arccos_eq_pi] at hc
  linarith

theorem vector_eval {n p : ℤ} (h0 : 0 ≤ p) {x y f : ℕ} {o : Option (ℕ × ℕ × ℕ)} (e1 : o = some (x, y, f)) {z phi : ℝ} {g : ℝ → ℝ}
    {c : ℤ → Option ℤ} (e3 : xyf2ang exact c n x y f = some (z, phi)) :
    (do
      if p < 0 then none
      let (x, y, f) ← o
      let (z, phi) ← xyf2ang exact c n x y f
      return cylinder z (g z) phi) = some (cylinder z (g z) phi) := by
  rw [if_neg (not_lt.mpr h0), e1]
  simp only [Option.bind_eq_bind, Option.bind_some]
  rw [e3, Option.bind_some, Option.pure_def]

theorem vector_ring {z phi : ℝ} {o : Option (ℝ × ℝ)} {g : ℝ → ℝ} (e : o = some (z, phi)) :
    (do
      let (z, phi) ← o
      return cylinder z (g z) phi) = some (cylinder z (g z) phi) := by
  rw [e]; rfl

/-- **C170**, RING, 32 bit: the vector of a pixel is the unit vector of its centre, and lies in the pixel. -/
theorem C170_ring (F : Fl64) (R : Root) {n : ℤ} (hn1 : 1 ≤ n) (hn2 : n ≤ 8192) {p : ℤ} (h0 : 0 ≤ p) (h1 : p < 12 * n * n) :
    ∃ theta phi, pix2ang_ring F R n p = some (theta, phi) ∧ pix2vec_ring F R n p = some (ang2vec theta phi) ∧
      vec2pix_ring n (ang2vec theta phi) = some p := by
  have E := env32 F R hn1 (by omega : n ≤ 2 ^ 13)
  obtain ⟨i, j, hr⟩ := ring_of_pix E h0 h1
  obtain ⟨theta, phi, e1, e2⟩ := C45_ring F R hn1 hn2 h0 h1
  have e3 := C68_ring F R hn1 hn2 hr
  rw [e3] at e1
  simp only [Option.some.injEq, Prod.mk.injEq] at e1
  obtain ⟨rfl, rfl⟩ := e1
  have hz := centre_off_pole hr
  obtain ⟨a, b⟩ := arccos_off_pole hz
  refine ⟨_, _, e3, ?_, by rw [(C170_angles n _ a b).1, e2]⟩
  rw [← cylinder_ang hz.le]
  unfold pix2vec_ring
  exact vector_ring (g := fun z => Real.sqrt ((1 - z) * (1 + z))) (pix2ang_ring_spec E hr)

/-- **C170**, RING, 64 bit. -/
theorem C170_ring64 (F : Fl64) (R : Root) {n : ℤ} (hn1 : 1 ≤ n) (hn2 : n ≤ 2 ^ 29) {p : ℤ} (h0 : 0 ≤ p) (h1 : p < 12 * n * n) :
    ∃ theta phi, pix2ang_ring64 F R n p = some (theta, phi) ∧ pix2vec_ring64 F R n p = some (ang2vec theta phi) ∧
      vec2pix_ring64 n (ang2vec theta phi) = some p := by
  have E := env64 F R hn1 hn2
  obtain ⟨i, j, hr⟩ := ring_of_pix E h0 h1
  obtain ⟨theta, phi, e1, e2⟩ := C45_ring64 F R hn1 hn2 h0 h1
  have e3 := C68_ring64 F R hn1 hn2 hr
  rw [e3] at e1
  simp only [Option.some.injEq, Prod.mk.injEq] at e1
  obtain ⟨rfl, rfl⟩ := e1
  have hz := centre_off_pole hr
  obtain ⟨a, b⟩ := arccos_off_pole hz
  refine ⟨_, _, e3, ?_, by rw [(C170_angles n _ a b).2.2.1, e2]⟩
  rw [← theta64_eq hz.le, ← cylinder_ang64 hz.le]
  unfold pix2vec_ring64
  exact vector_ring (g := stheta64) (pix2ang_ring_spec E hr)

/-- **C170**, NESTED, 32 bit. -/
theorem C170_nest {k : ℕ} (hk : k ≤ 13) {p : ℤ} (h0 : 0 ≤ p) (h1 : p < 12 * 2 ^ k * 2 ^ k) :
    ∃ theta phi, pix2ang_nest (2 ^ k) p = some (theta, phi) ∧ pix2vec_nest (2 ^ k) p = some (ang2vec theta phi) ∧
      vec2pix_nest (2 ^ k) (ang2vec theta phi) = some p := by
  obtain ⟨u, isq, E⟩ := env32' (one_le_z k) (pow_le_z hk)
  obtain ⟨x, y, f, e1, hf, -, -⟩ := (C42_nest hk).2 _ (nested_int h0 h1)
  obtain ⟨hx, hy⟩ := face_int hf
  obtain ⟨q, i, j, -, hr, e3⟩ := same_centre E hf.f hx hy
  have hz := centre_off_pole hr
  obtain ⟨a, b⟩ := arccos_off_pole hz
  obtain ⟨theta, phi, d1, d2⟩ := C45_nest hk h0 h1
  have d3 : pix2ang_nest (2 ^ k) p = some (Real.arccos (ringZ (2 ^ k) i), ringT (2 ^ k) i j * (Real.pi / 2)) :=
    centre_eval h0 (by rw [pow_toNat]; exact e1) e3
  rw [d3] at d1
  simp only [Option.some.injEq, Prod.mk.injEq] at d1
  obtain ⟨rfl, rfl⟩ := d1
  refine ⟨_, _, d3, ?_, by rw [(C170_angles (2 ^ k) _ a b).2.1, d2]⟩
  rw [← cylinder_ang hz.le]
  unfold pix2vec_nest
  exact vector_eval (g := fun z => Real.sqrt ((1 - z) * (1 + z))) h0 (by rw [pow_toNat]; exact e1) e3

/-- **C170**, NESTED, 64 bit. -/
theorem C170_nest64 {k : ℕ} (hk : k ≤ 29) {p : ℤ} (h0 : 0 ≤ p) (h1 : p < 12 * 2 ^ k * 2 ^ k) :
    ∃ theta phi, pix2ang_nest64 (2 ^ k) p = some (theta, phi) ∧ pix2vec_nest64 (2 ^ k) p = some (ang2vec theta phi) ∧
      vec2pix_nest64 (2 ^ k) (ang2vec theta phi) = some p := by
  obtain ⟨u, isq, E⟩ := env64' (one_le_z k) (pow_le_z hk)
  obtain ⟨x, y, f, e1, hf, -, -⟩ := (C42_nest64 hk).2 _ (nested_int h0 h1)
  obtain ⟨hx, hy⟩ := face_int hf
  obtain ⟨q, i, j, -, hr, e3⟩ := same_centre E hf.f hx hy
  have hz := centre_off_pole hr
  obtain ⟨a, b⟩ := arccos_off_pole hz
  obtain ⟨theta, phi, d1, d2⟩ := C45_nest64 hk h0 h1
  have d3 : pix2ang_nest64 (2 ^ k) p = some (theta64 (ringZ (2 ^ k) i), ringT (2 ^ k) i j * (Real.pi / 2)) :=
    centre_eval h0 (by rw [pow_toNat]; exact e1) e3
  rw [d3] at d1
  simp only [Option.some.injEq, Prod.mk.injEq] at d1
  obtain ⟨rfl, rfl⟩ := d1
  have e4 := theta64_eq hz.le
  refine ⟨_, _, d3, ?_, ?_⟩
  · rw [← cylinder_ang64 hz.le]
    unfold pix2vec_nest64
    exact vector_eval (g := stheta64) h0 (by rw [pow_toNat]; exact e1) e3
  · rw [e4] at d2 ⊢
    rw [(C170_angles (2 ^ k) _ a b).2.2.2, d2]

/-- At the north pole the pixel of the vector is that of longitude 0; other longitudes give the other pixels around the pole. -/
example : vec2pix_ring 1 (ang2vec 0 (3 / 2 * (Real.pi / 2))) = some 0 ∧ ang2pix_ring 1 0 (3 / 2 * (Real.pi / 2)) = some 1 := by
  have hp := Real.pi_pos
  have q : ∀ t : ℝ, 0 ≤ t → t < 4 → ∀ k : ℤ, ⌊t⌋ = k → ang2pix_ring 1 0 (t * (Real.pi / 2)) = some k := by
    intro t t0 t1 k hk
    have hq := quarter_turns t0 t1 0
    rw [Int.cast_zero, mul_zero, add_zero] at hq
    have k0 : 0 ≤ k := by rw [← hk]; exact Int.floor_nonneg.mpr t0
    have k4 : k < 4 := by rw [← hk]; exact Int.floor_lt.mpr (by push_cast; exact t1)
    unfold ang2pix_ring ang2pixRing
    rw [if_pos ⟨le_refl _, hp.le⟩, hq]
    dsimp only
    rw [if_neg (by unfold exact; rw [Real.cos_zero, abs_one]; norm_num)]
    have hpol : polar exact 1 |Real.cos 0| (-5) = 0 := by
      unfold polar exact; rw [if_neg (by norm_num), Real.cos_zero, abs_one]; simp
    have ht : trunc t = k := by unfold trunc; rw [if_pos t0, hk]
    rw [hpol, ht]
    have c : ∀ v : ℤ, 0 ≤ v → v < 100 → signed 31 v = some v := fun v a b => signed_ok (b := 31) (k := 5) (by norm_num) v a (by norm_num; omega)
    have tr0 : trunc (0 : ℝ) = 0 := by unfold trunc; simp
    simp only [show exact.rnd = id from rfl, id, mul_zero, tr0, Option.bind_eq_bind, c k k0 (by omega), c 0 le_rfl (by norm_num), Option.bind_some,
      zero_add, c 1 (by norm_num) (by norm_num), Int.cast_one, mul_one, ht]
    rw [if_neg (by norm_num), if_pos (by rw [Real.cos_zero]; norm_num)]
    have im : imodulo k 4 = k := by interval_cases k <;> decide
    rw [im]
    rw [show 2 * (1 - 1) + k = k by ring]
    exact c _ (by omega) (by omega)
  constructor
  · have e : ang2vec 0 (3 / 2 * (Real.pi / 2)) = ⟨0, 0, 1⟩ := by unfold ang2vec; simp
    have ev : vec2ang ⟨0, 0, 1⟩ = (0, 0) := by
      unfold vec2ang Geo.atan2
      have e1 : (⟨1, 0⟩ : ℂ) = 1 := rfl
      have e2 : (⟨0, 0⟩ : ℂ) = 0 := rfl
      simp [e1, e2]
    rw [e, (C170_vec2pix 1 (by intro hc; simp [V3.mk.injEq] at hc)).1, ev]
    have := q 0 le_rfl (by norm_num) 0 (by simp)
    rwa [zero_mul] at this
  · exact q (3 / 2) (by norm_num) (by norm_num) 1 (by rw [Int.floor_eq_iff]; norm_num)

end SatSky.Props
