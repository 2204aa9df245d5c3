import Verif.Lemmas.HealpixCentre
import Verif.Props.HealpixRing

/-! Directions to pixels and back (C44, C45), in exact arithmetic. -/

namespace SatSky.Props

open SatSky SatSky.Healpix SatSky.Spec.Healpix

/-! ### Directions to pixels -/

theorem sth_ok {theta : ℝ} (h0 : 0 ≤ theta) (h1 : theta ≤ Real.pi) :
    sth theta = -5 ∨ sth theta = Real.sqrt (1 - |Real.cos theta| ^ 2) := by
  unfold sth
  split_ifs
  · right
    rw [sq_abs, ← Real.sin_sq, Real.sqrt_sq (Real.sin_nonneg_of_nonneg_of_le_pi h0 h1)]
  · left; rfl

theorem nat_face {n x y f : ℤ} {k : ℕ} (hn : n = 2 ^ k) (hx : 0 ≤ x ∧ x < n) (hy : 0 ≤ y ∧ y < n) (hf : 0 ≤ f ∧ f < 12) :
    OnFace (2 ^ k) x.toNat y.toNat f.toNat := by
  have : n = ((2 ^ k : ℕ) : ℤ) := by rw [hn]; push_cast; rfl
  exact ⟨by omega, by omega, by omega⟩

theorem pow_toNat (k : ℕ) : ((2 : ℤ) ^ k).toNat = 2 ^ k := by
  rw [z_pow, Int.toNat_natCast]

/-- **C44**, NESTED, 32 bit: for every `nside = 2^k` up to 8192, every colatitude in `[0, π]` and every longitude,
`ang2pix_nest` gives an index from 0 up to but not including `12 nside²`. -/
theorem C44_nest {k : ℕ} (hk : k ≤ 13) {theta : ℝ} (h0 : 0 ≤ theta) (h1 : theta ≤ Real.pi) (phi : ℝ) :
    ∃ p, ang2pix_nest (2 ^ k) theta phi = some p ∧ 0 ≤ p ∧ p < 12 * 2 ^ k * 2 ^ k := by
  have hk2 : (2 : ℤ) ^ k ≤ 2 ^ 13 := pow_le_z hk
  obtain ⟨x, y, f, e, hx, hy, hf⟩ := ang2xyf_range (c := signed 31) (k := k) (s := -5)
    (fun v a b => by unfold signed; rw [if_pos (by omega)]) phi (Real.abs_cos_le_one theta) (Or.inl rfl)
  obtain ⟨p, e2, hp⟩ := xyf2nest_nested hk (nat_face rfl hx hy hf)
  have hlt := nested_lt hp (by omega)
  refine ⟨p, ?_, by omega, ?_⟩
  · unfold ang2pix_nest ang2pixNest
    rw [if_pos ⟨h0, h1⟩, e]
    simp only [Option.bind_eq_bind, Option.bind_some]
    rw [if_neg (by omega), pow_toNat, e2]
    rfl
  · have : ((12 * (2 ^ k * 2 ^ k) : ℕ) : ℤ) = 12 * 2 ^ k * 2 ^ k := by push_cast; ring
    omega

/-- **C44**, NESTED, 64 bit: `nside = 2^k` up to `2^29`. -/
theorem C44_nest64 {k : ℕ} (hk : k ≤ 29) {theta : ℝ} (h0 : 0 ≤ theta) (h1 : theta ≤ Real.pi) (phi : ℝ) :
    ∃ p, ang2pix_nest64 (2 ^ k) theta phi = some p ∧ 0 ≤ p ∧ p < 12 * 2 ^ k * 2 ^ k := by
  have hk2 : (2 : ℤ) ^ k ≤ 2 ^ 29 := pow_le_z hk
  obtain ⟨x, y, f, e, hx, hy, hf⟩ := ang2xyf_range (c := signed 63) (k := k) (s := sth theta)
    (fun v a b => by unfold signed; rw [if_pos (by omega)]) phi (Real.abs_cos_le_one theta) (sth_ok h0 h1)
  obtain ⟨p, e2, hp⟩ := xyf2nest64_nested hk (nat_face rfl hx hy hf)
  have hlt := nested_lt hp (by omega)
  refine ⟨p, ?_, by omega, ?_⟩
  · unfold ang2pix_nest64 ang2pixNest64
    rw [if_pos ⟨h0, h1⟩, e]
    simp only [Option.bind_eq_bind, Option.bind_some]
    rw [if_neg (by omega), pow_toNat, e2]
    rfl
  · have : ((12 * (2 ^ k * 2 ^ k) : ℕ) : ℤ) = 12 * 2 ^ k * 2 ^ k := by push_cast; ring
    omega

/-- Some rounding and root, for statements in which they play no part. -/
theorem env32' {n : ℤ} (h1 : 1 ≤ n) (h2 : n ≤ 2 ^ 13) : ∃ u isq, Env (signed 31) u isq n :=
  ⟨_, _, env32 Fl64.ieee Root.down h1 h2⟩

theorem env64' {n : ℤ} (h1 : 1 ≤ n) (h2 : n ≤ 2 ^ 29) : ∃ u isq, Env (signed 63) u isq n :=
  ⟨_, _, env64 Fl64.ieee Root.down h1 h2⟩

/-- **C44**, RING, 32 bit: every `nside` from 1 to 8192. -/
theorem C44_ring {n : ℤ} (hn1 : 1 ≤ n) (hn2 : n ≤ 8192) {theta : ℝ} (h0 : 0 ≤ theta) (h1 : theta ≤ Real.pi) (phi : ℝ) :
    ∃ p, ang2pix_ring n theta phi = some p ∧ 0 ≤ p ∧ p < 12 * n * n := by
  obtain ⟨u, isq, E⟩ := env32' hn1 (by omega : n ≤ 2 ^ 13)
  unfold ang2pix_ring
  rw [if_pos ⟨h0, h1⟩]
  exact ang2ring_range E phi (Real.abs_cos_le_one theta) (Or.inl rfl)

/-- **C44**, RING, 64 bit: every `nside` from 1 to `2^29`. -/
theorem C44_ring64 {n : ℤ} (hn1 : 1 ≤ n) (hn2 : n ≤ 2 ^ 29) {theta : ℝ} (h0 : 0 ≤ theta) (h1 : theta ≤ Real.pi) (phi : ℝ) :
    ∃ p, ang2pix_ring64 n theta phi = some p ∧ 0 ≤ p ∧ p < 12 * n * n := by
  obtain ⟨u, isq, E⟩ := env64' hn1 hn2
  unfold ang2pix_ring64
  rw [if_pos ⟨h0, h1⟩]
  exact ang2ring_range E phi (Real.abs_cos_le_one theta) (sth_ok h0 h1)

/-- The pixel that `sat_skymap` prints (lines 572 and 881-882: order 8, so `nside` 256, colatitude `π/2 - dec`) is in
0..786431 for every declination and right ascension. -/
theorem C44_printed {dec : ℝ} (h0 : -(Real.pi / 2) ≤ dec) (h1 : dec ≤ Real.pi / 2) (ra : ℝ) :
    ∃ p, ang2pix_nest 256 (Real.pi / 2 - dec) ra = some p ∧ 0 ≤ p ∧ p ≤ 786431 := by
  obtain ⟨p, e, a, b⟩ := C44_nest (k := 8) (by norm_num) (theta := Real.pi / 2 - dec) (by linarith) (by linarith) ra
  norm_num at e b
  exact ⟨p, e, a, by omega⟩

/-- A colatitude outside `[0, π]` is refused. -/
theorem C44_refused (n : ℤ) {theta : ℝ} (h : theta < 0 ∨ Real.pi < theta) (phi : ℝ) :
    ang2pix_nest n theta phi = none ∧ ang2pix_ring n theta phi = none ∧ ang2pix_nest64 n theta phi = none
      ∧ ang2pix_ring64 n theta phi = none := by
  have hn : ¬ (0 ≤ theta ∧ theta ≤ Real.pi) := by
    rintro ⟨a, b⟩
    rcases h with h | h <;> linarith
  unfold ang2pix_nest ang2pix_ring ang2pix_nest64 ang2pix_ring64
  simp only [if_neg hn, and_self]

/-! ### Pixels to directions and back -/

theorem theta64_eq {z : ℝ} (h : |z| ≤ 1) : theta64 z = Real.arccos z := by
  unfold theta64
  split_ifs with h2
  · have h3 : (1 - |z|) * (2 - (1 - |z|)) = 1 - z ^ 2 := by rw [← sq_abs z]; ring
    have h4 : 0 ≤ 1 - z ^ 2 := by rw [← sq_abs z]; nlinarith [abs_nonneg z]
    rw [h3, Complex.arg_of_im_nonneg_of_ne_zero (Real.sqrt_nonneg _)]
    · have : ‖(⟨z, Real.sqrt (1 - z ^ 2)⟩ : ℂ)‖ = 1 := by
        rw [Complex.norm_def, Complex.normSq_mk, Real.mul_self_sqrt h4, show z * z + (1 - z ^ 2) = 1 by ring, Real.sqrt_one]
      rw [this, div_one]
    · intro hc
      have := congrArg Complex.re hc
      simp only [Complex.zero_re] at this
      rw [this, abs_zero] at h2
      norm_num at h2
  · rfl

theorem cos_arccos' {z : ℝ} (h : |z| ≤ 1) : Real.cos (Real.arccos z) = z :=
  Real.cos_arccos (abs_le.mp h).1 (abs_le.mp h).2

theorem sth_arccos {z : ℝ} (h : |z| ≤ 1) : sth (Real.arccos z) = -5 ∨ sth (Real.arccos z) = Real.sqrt (1 - |z| ^ 2) := by
  have := sth_ok (Real.arccos_nonneg z) (Real.arccos_le_pi z)
  rwa [cos_arccos' h] at this

/-- **C45**, RING, 32 bit: the centre of a pixel lies in the pixel. -/
theorem C45_ring (F : Fl64) (R : Root) {n : ℤ} (hn1 : 1 ≤ n) (hn2 : n ≤ 8192) {p : ℤ} (h0 : 0 ≤ p) (h1 : p < 12 * n * n) :
    ∃ theta phi, pix2ang_ring F R n p = some (theta, phi) ∧ ang2pix_ring n theta phi = some p := by
  have E := env32 F R hn1 (by omega : n ≤ 2 ^ 13)
  obtain ⟨i, j, hr⟩ := ring_of_pix E h0 h1
  obtain ⟨e, hz⟩ := ang2ring_centre E hr (s := -5) (Or.inl rfl)
  refine ⟨Real.arccos (ringZ n i), ringT n i j * (Real.pi / 2), ?_, ?_⟩
  · unfold pix2ang_ring
    rw [pix2ang_ring_spec E hr]
    rfl
  · unfold ang2pix_ring
    rw [if_pos ⟨Real.arccos_nonneg _, Real.arccos_le_pi _⟩, cos_arccos' hz, e]

/-- **C45**, RING, 64 bit. -/
theorem C45_ring64 (F : Fl64) (R : Root) {n : ℤ} (hn1 : 1 ≤ n) (hn2 : n ≤ 2 ^ 29) {p : ℤ} (h0 : 0 ≤ p) (h1 : p < 12 * n * n) :
    ∃ theta phi, pix2ang_ring64 F R n p = some (theta, phi) ∧ ang2pix_ring64 n theta phi = some p := by
  have E := env64 F R hn1 hn2
  obtain ⟨i, j, hr⟩ := ring_of_pix E h0 h1
  have hz := (ang2ring_centre E hr (s := -5) (Or.inl rfl)).2
  obtain ⟨e, -⟩ := ang2ring_centre E hr (sth_arccos hz)
  refine ⟨theta64 (ringZ n i), ringT n i j * (Real.pi / 2), ?_, ?_⟩
  · unfold pix2ang_ring64
    rw [pix2ang_ring_spec E hr]
    rfl
  · unfold ang2pix_ring64
    rw [theta64_eq hz, if_pos ⟨Real.arccos_nonneg _, Real.arccos_le_pi _⟩, cos_arccos' hz, e]

theorem nested_int {k : ℕ} {p : ℤ} (h0 : 0 ≤ p) (h1 : p < 12 * 2 ^ k * 2 ^ k) : p.toNat < 12 * (2 ^ k * 2 ^ k) := by
  have : ((12 * (2 ^ k * 2 ^ k) : ℕ) : ℤ) = 12 * 2 ^ k * 2 ^ k := by push_cast; ring
  omega

theorem face_int {k x y f : ℕ} (h : OnFace (2 ^ k) x y f) : ((0 : ℤ) ≤ x ∧ (x : ℤ) < 2 ^ k) ∧ ((0 : ℤ) ≤ y ∧ (y : ℤ) < 2 ^ k) := by
  have e := z_pow k
  have := h.x
  have := h.y
  refine ⟨⟨by omega, by omega⟩, by omega, by omega⟩

theorem cast_not_neg (x y f : ℕ) : ¬ ((x : ℤ) < 0 ∨ (y : ℤ) < 0 ∨ (f : ℤ) < 0) := by omega

theorem centre_eval {n p : ℤ} (h0 : 0 ≤ p) {x y f : ℕ} {o : Option (ℕ × ℕ × ℕ)} (e1 : o = some (x, y, f)) {z phi : ℝ} {t : ℝ → ℝ}
    {c : ℤ → Option ℤ} (e3 : xyf2ang exact c n x y f = some (z, phi)) :
    (do
      if p < 0 then none
      let (x, y, f) ← o
      let (z, phi) ← xyf2ang exact c n x y f
      return (t z, phi)) = some (t z, phi) := by
  rw [if_neg (not_lt.mpr h0), e1]
  simp only [Option.bind_eq_bind, Option.bind_some]
  rw [e3, Option.bind_some, Option.pure_def]

/-- **C45**, NESTED, 32 bit: the centre of a pixel lies in the pixel. -/
theorem C45_nest {k : ℕ} (hk : k ≤ 13) {p : ℤ} (h0 : 0 ≤ p) (h1 : p < 12 * 2 ^ k * 2 ^ k) :
    ∃ theta phi, pix2ang_nest (2 ^ k) p = some (theta, phi) ∧ ang2pix_nest (2 ^ k) theta phi = some p := by
  obtain ⟨u, isq, E⟩ := env32' (one_le_z k) (pow_le_z hk)
  obtain ⟨x, y, f, e1, hf, -, e2⟩ := (C42_nest hk).2 _ (nested_int h0 h1)
  obtain ⟨hx, hy⟩ := face_int hf
  obtain ⟨z, phi, e3, hz, e4⟩ := ang_of_xyf rfl E hf.f hx hy
  refine ⟨Real.arccos z, phi, ?_, ?_⟩
  · exact centre_eval h0 (by rw [pow_toNat]; exact e1) e3
  · unfold ang2pix_nest ang2pixNest
    rw [if_pos ⟨Real.arccos_nonneg _, Real.arccos_le_pi _⟩, cos_arccos' hz, e4 _ (Or.inl rfl)]
    simp only [Option.bind_eq_bind, Option.bind_some]
    rw [if_neg (cast_not_neg x y f), pow_toNat, Int.toNat_natCast, Int.toNat_natCast, Int.toNat_natCast, e2, Option.bind_some, Option.pure_def,
      Int.toNat_of_nonneg h0]

/-- **C45**, NESTED, 64 bit. -/
theorem C45_nest64 {k : ℕ} (hk : k ≤ 29) {p : ℤ} (h0 : 0 ≤ p) (h1 : p < 12 * 2 ^ k * 2 ^ k) :
    ∃ theta phi, pix2ang_nest64 (2 ^ k) p = some (theta, phi) ∧ ang2pix_nest64 (2 ^ k) theta phi = some p := by
  obtain ⟨u, isq, E⟩ := env64' (one_le_z k) (pow_le_z hk)
  obtain ⟨x, y, f, e1, hf, -, e2⟩ := (C42_nest64 hk).2 _ (nested_int h0 h1)
  obtain ⟨hx, hy⟩ := face_int hf
  obtain ⟨z, phi, e3, hz, e4⟩ := ang_of_xyf rfl E hf.f hx hy
  refine ⟨theta64 z, phi, ?_, ?_⟩
  · exact centre_eval h0 (by rw [pow_toNat]; exact e1) e3
  · unfold ang2pix_nest64 ang2pixNest64
    rw [theta64_eq hz, if_pos ⟨Real.arccos_nonneg _, Real.arccos_le_pi _⟩, cos_arccos' hz, e4 _ (sth_arccos hz)]
    simp only [Option.bind_eq_bind, Option.bind_some]
    rw [if_neg (cast_not_neg x y f), pow_toNat, Int.toNat_natCast, Int.toNat_natCast, Int.toNat_natCast, e2, Option.bind_some, Option.pure_def,
      Int.toNat_of_nonneg h0]

/-! ### Centres -/

theorem ring_eval {n p : ℤ} {z phi : ℝ} {o : Option (ℝ × ℝ)} {t : ℝ → ℝ} (e : o = some (z, phi)) :
    (do
      let (z, phi) ← o
      return (t z, phi)) = some (t z, phi) := by
  rw [e]; rfl

/-- **C68**, RING: pixel `j` of ring `i` has the height and longitude of the published formulae. -/
theorem C68_ring (F : Fl64) (R : Root) {n : ℤ} (hn1 : 1 ≤ n) (hn2 : n ≤ 8192) {i j p : ℤ} (h : RingPix n i j p) :
    pix2ang_ring F R n p = some (Real.arccos (ringZ n i), ringT n i j * (Real.pi / 2)) := by
  unfold pix2ang_ring
  exact ring_eval (n := n) (p := p) (pix2ang_ring_spec (env32 F R hn1 (by omega : n ≤ 2 ^ 13)) h)

/-- **C68**, 64 bit. -/
theorem C68_ring64 (F : Fl64) (R : Root) {n : ℤ} (hn1 : 1 ≤ n) (hn2 : n ≤ 2 ^ 29) {i j p : ℤ} (h : RingPix n i j p) :
    pix2ang_ring64 F R n p = some (Real.arccos (ringZ n i), ringT n i j * (Real.pi / 2)) := by
  have E := env64 F R hn1 hn2
  rw [← theta64_eq (ang2ring_centre E h (s := -5) (Or.inl rfl)).2]
  unfold pix2ang_ring64
  exact ring_eval (n := n) (p := p) (pix2ang_ring_spec E h)

/-- Every pixel number is that of a pixel of a ring, so the formulae describe all centres. -/
theorem C68_all {n : ℤ} (hn1 : 1 ≤ n) (hn2 : n ≤ 2 ^ 29) {p : ℤ} (h0 : 0 ≤ p) (h1 : p < 12 * n * n) : ∃ i j, RingPix n i j p := by
  obtain ⟨u, isq, E⟩ := env64' hn1 hn2
  exact ring_of_pix E h0 h1

/-- **C68**, both numberings: a pixel has the same centre in the NESTED numbering and in the RING one. -/
theorem C68_same (F : Fl64) (R : Root) {k : ℕ} (hk : k ≤ 13) {p : ℤ} (h0 : 0 ≤ p) (h1 : p < 12 * 2 ^ k * 2 ^ k) :
    ∃ q theta phi, nest2ring (2 ^ k) p = some q ∧ pix2ang_nest (2 ^ k) p = some (theta, phi) ∧ pix2ang_ring F R (2 ^ k) q = some (theta, phi) := by
  have hk2 : (2 : ℤ) ^ k ≤ 2 ^ 13 := pow_le_z hk
  have E := env32 F R (one_le_z k) (pow_le_z hk)
  obtain ⟨x, y, f, e1, hf, -, -⟩ := (C42_nest hk).2 _ (nested_int h0 h1)
  obtain ⟨hx, hy⟩ := face_int hf
  obtain ⟨q, i, j, e2, hr, e3⟩ := same_centre E hf.f hx hy
  refine ⟨q, _, _, ?_, centre_eval h0 (by rw [pow_toNat]; exact e1) e3, C68_ring F R (one_le_z k) (by omega) hr⟩
  have := nest2ring_unfold hk (nested_int h0 h1) e1
  rw [Int.toNat_of_nonneg h0] at this
  rw [this, e2]

/-- **C68**, both numberings, 64 bit. -/
theorem C68_same64 (F : Fl64) (R : Root) {k : ℕ} (hk : k ≤ 29) {p : ℤ} (h0 : 0 ≤ p) (h1 : p < 12 * 2 ^ k * 2 ^ k) :
    ∃ q theta phi, nest2ring64 (2 ^ k) p = some q ∧ pix2ang_nest64 (2 ^ k) p = some (theta, phi)
      ∧ pix2ang_ring64 F R (2 ^ k) q = some (theta, phi) := by
  have E := env64 F R (one_le_z k) (pow_le_z hk)
  obtain ⟨x, y, f, e1, hf, -, -⟩ := (C42_nest64 hk).2 _ (nested_int h0 h1)
  obtain ⟨hx, hy⟩ := face_int hf
  obtain ⟨q, i, j, e2, hr, e3⟩ := same_centre E hf.f hx hy
  refine ⟨q, _, _, ?_, centre_eval h0 (by rw [pow_toNat]; exact e1) e3, ?_⟩
  · have := nest2ring64_unfold hk e1
    rw [Int.toNat_of_nonneg h0] at this
    rw [this, e2]
  · rw [C68_ring64 F R (one_le_z k) (pow_le_z hk) hr, theta64_eq (ang2ring_centre E hr (s := -5) (Or.inl rfl)).2]

/-- `nside` 2, pixel 4 of the RING numbering: first of the second ring, at height 2/3 and longitude 1/8 turn. -/
example (F : Fl64) (R : Root) : pix2ang_ring F R 2 4 = some (Real.arccos (2 / 3), 1 / 4 * (Real.pi / 2)) := by
  have h := C68_ring F R (n := 2) (i := 2) (j := 1) (p := 4) (by norm_num) (by norm_num)
    ⟨by norm_num, by norm_num, by norm_num, by unfold ringLen; norm_num, by unfold ringStart; norm_num⟩
  unfold ringZ ringT at h
  norm_num at h ⊢
  exact h

/-- And the direction leads back to pixel 4. -/
example : ang2pix_ring 2 (Real.arccos (2 / 3)) (1 / 4 * (Real.pi / 2)) = some 4 := by
  obtain ⟨u, isq, E⟩ := env32' (n := 2) (by norm_num) (by norm_num)
  have h : RingPix 2 2 1 4 := ⟨by norm_num, by norm_num, by norm_num, by unfold ringLen; norm_num, by unfold ringStart; norm_num⟩
  have hz : ringZ 2 2 = 2 / 3 := by unfold ringZ; norm_num
  have ht : ringT 2 2 1 = 1 / 4 := by unfold ringT; norm_num
  have e := (ang2ring_centre E h (s := -5) (Or.inl rfl)).1
  unfold ang2pix_ring
  rw [if_pos ⟨Real.arccos_nonneg _, Real.arccos_le_pi _⟩, Real.cos_arccos (by norm_num) (by norm_num), ← hz, ← ht, e]

end SatSky.Props
