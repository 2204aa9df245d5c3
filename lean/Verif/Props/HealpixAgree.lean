import Verif.Props.HealpixRegion

/-! C166: the two numberings agree about every direction. -/

namespace SatSky.Props

open SatSky SatSky.Healpix SatSky.Spec.Healpix

variable {c u isq : ℤ → Option ℤ} {n : ℤ} {k : ℕ} {z s phi t : ℝ}

theorem belt_differences (hn : 1 ≤ n) (t0 : 0 ≤ t) (hb : |z| ≤ 2 / 3) {jp jm : ℤ}
    (hjp : ⌊(n : ℝ) * (1 / 2 + t) - n * (z * (3 / 4))⌋ = jp) (hjm : ⌊(n : ℝ) * (1 / 2 + t) + n * (z * (3 / 4))⌋ = jm) :
    jm - jp ≤ n ∧ jp - jm ≤ n ∧ n - 2 < jp + jm := by
  have hn' : (1 : ℝ) ≤ n := by exact_mod_cast hn
  obtain ⟨z0, z1⟩ := abs_le.mp hb
  have hA := Int.floor_le ((n : ℝ) * (1 / 2 + t) - n * (z * (3 / 4)))
  have hA' := Int.lt_floor_add_one ((n : ℝ) * (1 / 2 + t) - n * (z * (3 / 4)))
  have hB := Int.floor_le ((n : ℝ) * (1 / 2 + t) + n * (z * (3 / 4)))
  have hB' := Int.lt_floor_add_one ((n : ℝ) * (1 / 2 + t) + n * (z * (3 / 4)))
  rw [hjp] at hA hA'
  rw [hjm] at hB hB'
  have d1 : jm - jp < n + 1 := by
    have : (jm : ℝ) - jp < n + 1 := by nlinarith
    exact_mod_cast this
  have d2 : jp - jm < n + 1 := by
    have : (jp : ℝ) - jm < n + 1 := by nlinarith
    exact_mod_cast this
  have d3 : n - 2 < jp + jm := by
    have : (n : ℝ) - 2 < jp + jm := by nlinarith
    exact_mod_cast this
  exact ⟨by omega, by omega, d3⟩

theorem imodulo_nonneg {v m : ℤ} (h0 : 0 ≤ v) (hm : 0 < m) : imodulo v m = v % m := by
  unfold imodulo
  rw [Int.tmod_eq_emod_of_nonneg h0]
  dsimp only
  rw [if_pos (Int.emod_nonneg _ hm.ne')]

/-- The RING number in the belt. -/
theorem ring_belt (E : Env c u isq n) (hb : |z| ≤ 2 / 3) (ht : quarter exact phi = t) (t0 : 0 ≤ t) (t1 : t < 4) {jp jm : ℤ}
    (hjp : ⌊(n : ℝ) * (1 / 2 + t) - n * (z * (3 / 4))⌋ = jp) (hjm : ⌊(n : ℝ) * (1 / 2 + t) + n * (z * (3 / 4))⌋ = jm) :
    ang2pixRing exact c n z s phi = some (2 * n * (n - 1) + (n + jp - jm) * (4 * n) + (jp + jm - n + (n + jp - jm) % 2) / 2 % (4 * n)) := by
  have hn := E.pos
  have hnn : n ≤ n * n := by nlinarith
  have h12 : 12 * n ≤ 12 * n * n := by nlinarith
  obtain ⟨a0, a1, b0, b1, A0, B0⟩ := belt_floor hn t0 t1 hb
  obtain ⟨d1, d2, d3⟩ := belt_differences hn t0 hb hjp hjm
  unfold ang2pixRing
  rw [ht]
  dsimp only
  rw [if_pos (show |z| ≤ exact.twothird from hb)]
  simp only [show exact.rnd = id from rfl, id, Option.bind_eq_bind, show (n : ℝ) * z * (3 / 4) = n * (z * (3 / 4)) by ring]
  rw [trunc_nonneg A0, trunc_nonneg B0, hjp, hjm]
  rw [hjp] at a0 a1
  rw [hjm] at b0 b1
  rw [E.hc jp (by nlinarith) (by nlinarith), Option.bind_some, E.hc jm (by nlinarith) (by nlinarith), Option.bind_some,
    E.hc (n + 1 + jp - jm) (by nlinarith) (by nlinarith), Option.bind_some,
    E.hc (jp + jm - n + (1 - (n + 1 + jp - jm) % 2) + 1) (by omega) (by omega), Option.bind_some, if_neg (by omega)]
  have q0 : 0 ≤ jp + jm - n + (1 - (n + 1 + jp - jm) % 2) + 1 := by omega
  have q1 : (jp + jm - n + (1 - (n + 1 + jp - jm) % 2) + 1).tdiv 2 = (jp + jm - n + (n + jp - jm) % 2) / 2 := by
    rw [Int.tdiv_eq_ediv_of_nonneg q0]; omega
  rw [q1, imodulo_nonneg (by omega) (by omega)]
  have m0 := Int.emod_nonneg ((jp + jm - n + (n + jp - jm) % 2) / 2) (show 4 * n ≠ 0 by omega)
  have m1 := Int.emod_lt_of_pos ((jp + jm - n + (n + jp - jm) % 2) / 2) (show 0 < 4 * n by omega)
  generalize (jp + jm - n + (n + jp - jm) % 2) / 2 % (4 * n) = ip at *
  have e : n * (n - 1) * 2 + (n + 1 + jp - jm - 1) * 4 * n + ip = 2 * n * (n - 1) + (n + jp - jm) * (4 * n) + ip := by ring
  rw [e]
  have i0 : 0 ≤ n + jp - jm := by omega
  have i1 : n + jp - jm ≤ 2 * n := by omega
  generalize n + jp - jm = ir at *
  have j1 : ir * (4 * n) ≤ 2 * n * (4 * n) := by nlinarith
  have j0 : 0 ≤ ir * (4 * n) := by positivity
  have k0 : 0 ≤ 2 * n * (n - 1) := by nlinarith
  exact E.hc _ (by nlinarith) (by nlinarith)

/-- The place in a ring of a cap. -/
theorem cap_place {tp tau : ℝ} {jp jm : ℤ} (tp0 : 0 ≤ tp) (tp1 : tp < 1) (r0 : 0 ≤ tau) (hjp : ⌊tp * tau⌋ = jp) (hjm : ⌊(1 - tp) * tau⌋ = jm) :
    ⌊tp * ((jp + jm + 1 : ℤ) : ℝ)⌋ = jp := by
  rw [Int.floor_eq_iff] at hjp hjm ⊢
  obtain ⟨a1, a2⟩ := hjp
  obtain ⟨b1, b2⟩ := hjm
  push_cast
  rcases r0.eq_or_lt with h | h
  · rw [← h, mul_zero] at a1 a2 b1 b2
    have j1 : (jp : ℝ) = 0 := by
      have x1 : jp ≤ 0 := by exact_mod_cast a1
      have x2 : (0 : ℤ) < jp + 1 := by exact_mod_cast a2
      have : jp = 0 := by omega
      rw [this]; simp
    have j2 : (jm : ℝ) = 0 := by
      have x1 : jm ≤ 0 := by exact_mod_cast b1
      have x2 : (0 : ℤ) < jm + 1 := by exact_mod_cast b2
      have : jm = 0 := by omega
      rw [this]; simp
    rw [j1, j2]
    constructor <;> linarith
  · have hq : 0 < (1 - tp) * tau := mul_pos (by linarith) h
    have hp : 0 ≤ tp * tau := mul_nonneg tp0 h.le
    have e : tp * tau + (1 - tp) * tau = tau := by ring
    have e2 : tp * (jp + jm + 1) * tau = tp * tau * (jp + jm + 1) := by ring
    generalize hga : tp * tau = a at *
    generalize hgb : (1 - tp) * tau = b at *
    constructor
    · have : (jp : ℝ) * tau ≤ tp * (jp + jm + 1) * tau := by
        rw [e2, ← e]; nlinarith
      exact le_of_mul_le_mul_right this h
    · have : tp * (jp + jm + 1) * tau < (jp + 1) * tau := by
        rw [e2, ← e]; nlinarith
      exact lt_of_mul_lt_mul_right this h.le

/-- The RING number in the caps. -/
theorem ring_cap (E : Env c u isq n) (hz : |z| ≤ 1) (hb : 2 / 3 < |z|) (hs : s = -5 ∨ s = Real.sqrt (1 - |z| ^ 2)) (ht : quarter exact phi = t)
    (t0 : 0 ≤ t) (t1 : t < 4) {g jp jm : ℤ} (hg : ⌊t⌋ = g) (hjp : ⌊(t - g) * (n * Real.sqrt (3 * (1 - |z|)))⌋ = jp)
    (hjm : ⌊(1 - (t - g)) * (n * Real.sqrt (3 * (1 - |z|)))⌋ = jm) :
    ang2pixRing exact c n z s phi = some (if z > 0 then 2 * (jp + jm + 1) * (jp + jm) + (g * (jp + jm + 1) + jp)
      else 12 * n * n - 2 * (jp + jm + 1) * (jp + jm + 2) + (g * (jp + jm + 1) + jp)) := by
  have hn := E.pos
  have hn' : (1 : ℝ) ≤ n := by exact_mod_cast hn
  have h12 : 12 * n ≤ 12 * n * n := by nlinarith
  obtain ⟨r0, r1⟩ := cap_root hb
  have n0 : 0 ≤ ⌊t⌋ := Int.floor_nonneg.mpr t0
  have n1 : ⌊t⌋ < 4 := Int.floor_lt.mpr (by push_cast; exact t1)
  have tp0 : 0 ≤ t - ⌊t⌋ := by linarith [Int.floor_le t]
  have tp1 : t - ⌊t⌋ < 1 := by linarith [Int.lt_floor_add_one t]
  rw [hg] at n0 n1 tp0 tp1
  unfold ang2pixRing
  rw [ht]
  dsimp only
  rw [if_neg (not_le.mpr (show exact.twothird < |z| from hb)), polar_eq (abs_nonneg z) hz hs]
  simp only [show exact.rnd = id from rfl, id, Option.bind_eq_bind]
  generalize Real.sqrt (3 * (1 - |z|)) = r at *
  rw [trunc_nonneg t0, hg, E.hc g (by omega) (by nlinarith), Option.bind_some]
  have pl := cap_place tp0 tp1 (by positivity : 0 ≤ (n : ℝ) * r) hjp hjm
  obtain ⟨a0, b0, ab⟩ := cap_floor hn r0 r1 tp0 tp1
  rw [trunc_nonneg (by positivity), trunc_nonneg (mul_nonneg (by linarith) (by positivity)), hjp, hjm]
  rw [hjp] at a0 ab
  rw [hjm] at b0 ab
  rw [E.hc jp (by omega) (by nlinarith), Option.bind_some, E.hc jm (by omega) (by nlinarith),
    Option.bind_some, E.hc (jp + jm + 1) (by omega) (by nlinarith), Option.bind_some]
  have hir0 : 1 ≤ jp + jm + 1 := by omega
  have hir1 : jp + jm + 1 ≤ n := by omega
  have e2 : 2 * (jp + jm + 1) * (jp + jm) = 2 * (jp + jm + 1) * (jp + jm + 1 - 1) := by ring
  have e3 : 2 * (jp + jm + 1) * (jp + jm + 2) = 2 * (jp + jm + 1) * (jp + jm + 1 + 1) := by ring
  rw [e2, e3]
  have hjp1 : jp < jp + jm + 1 := by omega
  generalize jp + jm + 1 = ir at *
  have e1 : t * (ir : ℝ) = (t - g) * (ir : ℝ) + ((g * ir : ℤ) : ℝ) := by push_cast; ring
  have hir : (1 : ℝ) ≤ ir := by exact_mod_cast hir0
  rw [trunc_nonneg (by positivity), e1, Int.floor_add_intCast, pl]
  have g1 : 0 ≤ g * ir := by positivity
  have g2 : g * ir ≤ 3 * ir := by nlinarith
  rw [E.hc (jp + g * ir) (by nlinarith) (by nlinarith), Option.bind_some, if_neg (by omega), imodulo_nonneg (by omega) (by omega),
    Int.emod_eq_of_lt (by omega) (by omega), add_comm jp]
  have k1 : 0 ≤ 2 * ir * (ir - 1) := by nlinarith
  have k2 : 2 * ir * (ir - 1) ≤ 2 * n * n := by nlinarith
  have k3 : 2 * ir * (ir + 1) ≤ 4 * n * n := by nlinarith
  split_ifs
  · exact E.hc _ (by nlinarith) (by nlinarith)
  · exact E.hc _ (by nlinarith) (by nlinarith)

theorem belt_face_cases {ip im : ℤ} {f : ℕ} (f0 : 0 ≤ ip) (f1 : ip ≤ 4) (f4 : ip ≤ im + 1) (f5 : im ≤ ip + 1) (f3 : im ≤ 4) (f2 : 0 ≤ im)
    (hf : beltFace ip im = f) :
    (im = ip + 1 ∧ (f : ℤ) = ip ∧ f < 4) ∨ (im = ip ∧ ip < 4 ∧ (f : ℤ) = ip + 4 ∧ 4 ≤ f ∧ f < 8) ∨ (im = ip ∧ ip = 4 ∧ f = 4) ∨
      (ip = im + 1 ∧ (f : ℤ) = im + 8 ∧ 8 ≤ f ∧ f < 12) := by
  have h2 := congrArg Int.toNat hf
  rw [Int.toNat_natCast] at h2
  clear hf
  subst h2
  interval_cases ip <;> interval_cases im <;> first | omega | decide

/-- The belt: both numberings. -/
theorem agree_belt (E : Env c u isq n) (hb : |z| ≤ 2 / 3) (ht : quarter exact phi = t) (t0 : 0 ≤ t) (t1 : t < 4) {x y : ℤ} {f : ℕ} {jp jm : ℤ}
    (hjp : ⌊(n : ℝ) * (1 / 2 + t) - n * (z * (3 / 4))⌋ = jp) (hjm : ⌊(n : ℝ) * (1 / 2 + t) + n * (z * (3 / 4))⌋ = jm)
    (hx : jm % n = x) (hy : n - jp % n - 1 = y) (hf : beltFace (jp / n) (jm / n) = f) :
    ang2pixRing exact c n z s phi = xyf2ringG c n x y f := by
  have hn := E.pos
  obtain ⟨d1, d2, d3⟩ := belt_differences hn t0 hb hjp hjm
  have fc := belt_faces hn t0 t1 hb
  rw [hjp, hjm] at fc
  obtain ⟨f0, f1, f2, f3, f4, f5⟩ := fc
  rw [ring_belt E hb ht t0 t1 hjp hjm]
  have m1 := Int.emod_nonneg jm (show n ≠ 0 by omega)
  have m2 := Int.emod_lt_of_pos jm (show 0 < n by omega)
  have m3 := Int.emod_nonneg jp (show n ≠ 0 by omega)
  have m4 := Int.emod_lt_of_pos jp (show 0 < n by omega)
  have dm := Int.mul_ediv_add_emod jm n
  have dp := Int.mul_ediv_add_emod jp n
  generalize hip : jp / n = ip at *
  generalize him : jm / n = im at *
  have fc := belt_face_cases f0 f1 f4 f5 f3 f2 hf
  have hf12 : f < 12 := by omega
  have ⟨jl, hjl⟩ : ∃ jl, jrll[f]? = some jl := by interval_cases f <;> exact ⟨_, rfl⟩
  have ⟨pl, hpl⟩ : ∃ pl, jpll[f]? = some pl := by interval_cases f <;> exact ⟨_, rfl⟩
  have cs := belt_cases hf12 hjl hpl
  -- the ring and twice the place in it
  have key : jl * n - x - y - 1 = 2 * n + jp - jm ∧ (pl * n + x - y + 1 = jp + jm - n + 2 ∨ pl * n + x - y + 1 = jp + jm - n + 2 - 8 * n) := by
    rcases fc with ⟨h1, h2, h3⟩ | ⟨h1, h2, h3, h4, h5⟩ | ⟨h1, h2, h3⟩ | ⟨h1, h2, h3, h4⟩
    · have e1 : jl = 2 := by omega
      have e2 : pl = 2 * ip + 1 := by omega
      subst e1 e2 h1
      exact ⟨by linarith, Or.inl (by linarith)⟩
    · have e1 : jl = 3 := by omega
      have e2 : pl = 2 * ip := by omega
      subst e1 e2 h1
      exact ⟨by linarith, Or.inl (by linarith)⟩
    · have e1 : jl = 3 := by omega
      have e2 : pl = 0 := by omega
      subst e1 e2 h1 h2
      exact ⟨by linarith, Or.inr (by linarith)⟩
    · have e1 : jl = 4 := by omega
      have e2 : pl = 2 * im + 1 := by omega
      subst e1 e2 h1
      exact ⟨by linarith, Or.inl (by linarith)⟩
  obtain ⟨k1, k2⟩ := key
  obtain ⟨A, hpos⟩ := xyf2ring_belt E hf12 (x := x) (y := y) ⟨by omega, by omega⟩ ⟨by omega, by omega⟩ hjl hpl (by omega) (by omega)
  rw [A.num]
  obtain ⟨-, -, -, p1, p2, -⟩ := (A.place.resolve_left (by simp)).resolve_right (by simp)
  rw [k1] at hpos p1 p2 ⊢
  generalize beltPos n (2 * n + jp - jm) pl x y = j at *
  have e1 : 2 * n + jp - jm - n = n + jp - jm := by ring
  rw [e1] at hpos ⊢
  have e2 : (jp + jm - n + (n + jp - jm) % 2) / 2 % (4 * n) = j - 1 := by
    have : (jp + jm - n + (n + jp - jm) % 2) / 2 = j - 1 ∨ (jp + jm - n + (n + jp - jm) % 2) / 2 = j - 1 + 4 * n * 1 ∨
        (jp + jm - n + (n + jp - jm) % 2) / 2 = j - 1 + 4 * n * (-1) := by omega
    rcases this with h | h | h
    · rw [h, Int.emod_eq_of_lt (by omega) (by omega)]
    · rw [h, Int.add_mul_emod_self_left, Int.emod_eq_of_lt (by omega) (by omega)]
    · rw [h, Int.add_mul_emod_self_left, Int.emod_eq_of_lt (by omega) (by omega)]
  rw [e2]
  congr 1
  ring

/-- The caps: both numberings. -/
theorem agree_north (E : Env c u isq n) {jp jm : ℤ} {g : ℕ} (hg : g < 4) (a0 : 0 ≤ jp) (b0 : 0 ≤ jm) (ab : jp + jm < n) :
    xyf2ringG c n (n - jm - 1) (n - jp - 1) g = some (2 * (jp + jm + 1) * (jp + jm) + (g * (jp + jm + 1) + jp)) := by
  have hn := E.pos
  by_cases h : jp + jm + 1 < n
  · have A := xyf2ring_north E hg (x := n - jm - 1) (y := n - jp - 1) ⟨by omega, by omega⟩ ⟨by omega, by omega⟩ (by omega)
    rw [A.num]
    congr 1
    rw [show 2 * n - (n - jm - 1) - (n - jp - 1) - 1 = jp + jm + 1 by ring]
    ring
  · have hir : n = jp + jm + 1 := by omega
    have hjl : jrll[g]? = some 2 := by interval_cases g <;> rfl
    have hpl : jpll[g]? = some (2 * (g : ℤ) + 1) := by interval_cases g <;> rfl
    obtain ⟨A, hpos⟩ := xyf2ring_belt E (f := g) (by omega) (x := n - jm - 1) (y := n - jp - 1) ⟨by omega, by omega⟩ ⟨by omega, by omega⟩ hjl hpl (by omega)
      (by omega)
    rw [A.num]
    have k1 : 2 * n - (n - jm - 1) - (n - jp - 1) - 1 = n := by omega
    rw [k1] at hpos ⊢
    generalize beltPos n n (2 * (g : ℤ) + 1) (n - jm - 1) (n - jp - 1) = j at *
    rw [sub_self, Int.zero_emod] at hpos
    have hj : j = g * n + jp + 1 := by
      rcases hpos with h | ⟨h, -⟩
      · have : 2 * j = 2 * (g * n + jp + 1) := by rw [h, hir]; ring
        omega
      · omega
    rw [hj, hir]
    congr 1
    ring

theorem agree_south (E : Env c u isq n) {jp jm : ℤ} {g : ℕ} (hg : g < 4) (a0 : 0 ≤ jp) (b0 : 0 ≤ jm) (ab : jp + jm < n) :
    xyf2ringG c n jp jm (8 + g) = some (12 * n * n - 2 * (jp + jm + 1) * (jp + jm + 2) + (g * (jp + jm + 1) + jp)) := by
  have hn := E.pos
  by_cases h : jp + jm + 1 < n
  · have A := xyf2ring_south E hg (x := jp) (y := jm) ⟨by omega, by omega⟩ ⟨by omega, by omega⟩ (by omega)
    rw [A.num]
    congr 1
    ring
  · have hir : n = jp + jm + 1 := by omega
    have hjl : jrll[8 + g]? = some 4 := by interval_cases g <;> rfl
    have hpl : jpll[8 + g]? = some (2 * (g : ℤ) + 1) := by interval_cases g <;> rfl
    obtain ⟨A, hpos⟩ := xyf2ring_belt E (f := 8 + g) (by omega) (x := jp) (y := jm) ⟨by omega, by omega⟩ ⟨by omega, by omega⟩ hjl hpl (by omega)
      (by omega)
    rw [A.num]
    have k1 : 4 * n - jp - jm - 1 = 3 * n := by omega
    rw [k1] at hpos ⊢
    generalize beltPos n (3 * n) (2 * (g : ℤ) + 1) jp jm = j at *
    rw [show 3 * n - n = 2 * n by ring, Int.mul_emod_right] at hpos
    have hj : j = g * n + jp + 1 := by
      rcases hpos with h | ⟨h, -⟩
      · have : 2 * j = 2 * (g * n + jp + 1) := by rw [h, hir]; ring
        omega
      · omega
    rw [hj, hir]
    congr 1
    ring

/-- The RING number is that of the coordinates on the face. -/
theorem ring_place (E : Env c u isq n) (hz : |z| ≤ 1) (hs : s = -5 ∨ s = Real.sqrt (1 - |z| ^ 2))
    (ht : quarter exact phi = t) (t0 : 0 ≤ t) (t1 : t < 4) {x y : ℤ} {f : ℕ} (h : place n z t = (x, y, (f : ℤ))) :
    ang2pixRing exact c n z s phi = xyf2ringG c n x y f := by
  have hn := E.pos
  unfold place at h
  rcases le_or_gt |z| (2 / 3) with hb | hb
  · rw [if_pos hb] at h
    simp only [Prod.mk.injEq] at h
    exact agree_belt E hb ht t0 t1 rfl rfl h.1 h.2.1 h.2.2
  · rw [if_neg (not_le.mpr hb)] at h
    rw [ring_cap E hz hb hs ht t0 t1 rfl rfl rfl]
    obtain ⟨r0, r1⟩ := cap_root hb
    have n0 : 0 ≤ ⌊t⌋ := Int.floor_nonneg.mpr t0
    have n1 : ⌊t⌋ < 4 := Int.floor_lt.mpr (by push_cast; exact t1)
    have tp0 : 0 ≤ t - ⌊t⌋ := by linarith [Int.floor_le t]
    have tp1 : t - ⌊t⌋ < 1 := by linarith [Int.lt_floor_add_one t]
    obtain ⟨a0, b0, ab⟩ := cap_floor hn r0 r1 tp0 tp1
    obtain ⟨g, hg⟩ : ∃ g : ℕ, ⌊t⌋ = g := ⟨⌊t⌋.toNat, by omega⟩
    generalize ⌊(t - (⌊t⌋ : ℝ)) * (n * Real.sqrt (3 * (1 - |z|)))⌋ = jp at *
    generalize ⌊(1 - (t - (⌊t⌋ : ℝ))) * (n * Real.sqrt (3 * (1 - |z|)))⌋ = jm at *
    rw [hg] at h ⊢ n1
    by_cases hp : z ≥ 0
    · have hz0 : z > 0 := by
        rcases hp.eq_or_lt with h | h
        · rw [← h, abs_zero] at hb; norm_num at hb
        · exact h
      rw [if_pos hp] at h
      rw [if_pos hz0]
      simp only [Prod.mk.injEq] at h
      obtain ⟨e1, e2, e3⟩ := h
      have : g = f := by exact_mod_cast e3
      subst this e1 e2
      rw [agree_north E (by omega) a0 b0 ab]
    · rw [if_neg hp] at h
      rw [if_neg (fun hh => hp (le_of_lt hh))]
      simp only [Prod.mk.injEq] at h
      obtain ⟨e1, e2, e3⟩ := h
      have : f = 8 + g := by omega
      subst this e1 e2
      rw [agree_south E (by omega) a0 b0 ab]

/-- Both numberings, from the coordinates on the face. -/
theorem agree_xyf (E : Env c u isq n) (hnk : n = 2 ^ k) (hz : |z| ≤ 1) (hs : s = -5 ∨ s = Real.sqrt (1 - |z| ^ 2))
    (ht : quarter exact phi = t) (t0 : 0 ≤ t) (t1 : t < 4) {x y : ℤ} {f : ℕ} (h : ang2xyf exact c n z s phi = some (x, y, (f : ℤ))) :
    ang2pixRing exact c n z s phi = xyf2ringG c n x y f := by
  have hn := E.pos
  rw [nest_place hnk (fun v a b => E.hc v (by nlinarith) (by nlinarith)) hz hs ht t0 t1] at h
  exact ring_place E hz hs ht t0 t1 (Option.some.inj h)

/-- **C166**, 32 bit: for every direction, the RING number is the NESTED number converted by `nest2ring`. -/
theorem C166_agree {k : ℕ} (hk : k ≤ 13) {theta : ℝ} (phi : ℝ) (h0 : 0 ≤ theta) (h1 : theta ≤ Real.pi) :
    ∃ p q : ℤ, ang2pix_nest (2 ^ k) theta phi = some p ∧ ang2pix_ring (2 ^ k) theta phi = some q ∧ nest2ring (2 ^ k) p = some q := by
  obtain ⟨u, isq, E⟩ := env32' (n := 2 ^ k) (one_le_z k) (pow_le_z hk)
  obtain ⟨x, y, f, p, e, ep, hp, hf⟩ := nest_through (phi := phi) hk h0 h1
  obtain ⟨t0, t1⟩ := quarter_range phi
  have ha := agree_xyf E rfl (Real.abs_cos_le_one theta) (Or.inl rfl) rfl t0 t1 e
  obtain ⟨q, eq, -⟩ := C44_ring (n := 2 ^ k) (one_le_z k) (by have := pow_le_z hk; omega) h0 h1 phi
  refine ⟨p, q, ep, eq, ?_⟩
  obtain ⟨p', e2, hp', hlt, e3⟩ := (C42_nest hk).1 x y f hf
  obtain rfl := nested_unique hp hp'
  rw [nest2ring_unfold hk hlt e3, ← ha, ← eq]
  unfold ang2pix_ring
  rw [if_pos ⟨h0, h1⟩]

/-- **C166**, 64 bit. -/
theorem C166_agree64 {k : ℕ} (hk : k ≤ 29) {theta : ℝ} (phi : ℝ) (h0 : 0 ≤ theta) (h1 : theta ≤ Real.pi) :
    ∃ p q : ℤ, ang2pix_nest64 (2 ^ k) theta phi = some p ∧ ang2pix_ring64 (2 ^ k) theta phi = some q ∧ nest2ring64 (2 ^ k) p = some q := by
  obtain ⟨u, isq, E⟩ := env64' (n := 2 ^ k) (one_le_z k) (pow_le_z hk)
  obtain ⟨x, y, f, p, e, ep, hp, hf⟩ := nest_through64 (phi := phi) hk h0 h1
  obtain ⟨t0, t1⟩ := quarter_range phi
  have ha := agree_xyf E rfl (Real.abs_cos_le_one theta) (sth_ok h0 h1) rfl t0 t1 e
  obtain ⟨q, eq, -⟩ := C44_ring64 (n := 2 ^ k) (one_le_z k) (pow_le_z hk) h0 h1 phi
  refine ⟨p, q, ep, eq, ?_⟩
  obtain ⟨p', e2, hp', hlt, e3⟩ := (C42_nest64 hk).1 x y f hf
  obtain rfl := nested_unique hp hp'
  rw [nest2ring64_unfold hk e3, ← ha, ← eq]
  unfold ang2pix_ring64
  rw [if_pos ⟨h0, h1⟩]

/-- A direction on the equator, `nside = 4`: NESTED 69, RING 89. -/
example : ang2pix_ring (2 ^ 2) (Real.pi / 2) (1 / 4 * (Real.pi / 2)) = some 89 := by
  obtain ⟨p, q, h1, h2, h3⟩ := C166_agree (k := 2) (by norm_num) (1 / 4 * (Real.pi / 2)) (theta := Real.pi / 2) (by positivity) (by linarith [Real.pi_pos])
  have h4 : ang2pix_nest (2 ^ 2) (Real.pi / 2) (1 / 4 * (Real.pi / 2)) = some 69 :=
    equator_sixteenth (x := 3) (y := 0) (f := 4) (v := 3) (p := 69) (by norm_num) (by rw [Int.floor_eq_iff]; norm_num) (by norm_num) (by norm_num) (by decide)
      (by decide +kernel)
  rw [h4] at h1
  obtain rfl := Option.some.inj h1
  rw [h2, ← h3]
  decide +kernel

end SatSky.Props
