import Mathlib.Algebra.Order.Archimedean.Basic
import Mathlib.Tactic.Linarith
import Mathlib.Tactic.NormNum
import Verif.Lemmas.Visibility

/-! C56-C60, C120-C125: the time loop of `sat_visibility`. -/

namespace SatSky.Props

open SatSky Spec Vis

/-! ### C56 -/

/-- **C56** (search).  If the search ends, then either no sample of the range is visible and nothing is
reported, or the first block is the start block, its satellite and Sun data belong to the first visible
sample.  Separations are angles of at most 180 degrees. -/
theorem C56_first (C : Cfg) (H : History) (hs : ∀ t, H.sep t ≤ 180) (r : TSt) (h : Ends C H r) :
    ∃ t0, Begins C H t0 ∧
      let T := sample C.next t0
      let V := Visible H.sep H.lit C.radius
      ((NoneIn T V C.jd1 ∧ r.blocks = []) ∨
       ∃ k b rest, IsFirst T V C.jd1 k ∧ r.blocks = b :: rest ∧ b.label = .start ∧ b.satAt = T k ∧ b.sunAt = T k) := by
  obtain ⟨t0, hb, h⟩ := ends_cases (fun t _ => lt_of_le_of_lt (hs t) (by norm_num)) h
  refine ⟨t0, hb, ?_⟩
  rcases h with h | ⟨k, e, s, ha, rfl⟩
  · exact Or.inl h
  · obtain ⟨bf, bm, bx, hbl, -⟩ := finish_blocks ha
    exact Or.inr ⟨k, startBlock C t0 k, [bf, bm, bx], ha.pass.1, hbl, rfl, rfl, rfl⟩

/-- **C56** (skipped daytime).  With `-N` the samples begin at the first of the instants jd[0],
jd[0] + 0.0007, … at which the Sun is below the horizon or the range is over; without it at jd[0]. -/
theorem C56_skipped (C : Cfg) (H : History) (t0 : ℚ) (h : Begins C H t0) :
    (C.skipDay = false → t0 = C.jd0) ∧
    (C.skipDay = true → ∃ n, t0 = sample (fun t => C.F.rnd (t + C.F.rnd (7 / 10000))) C.jd0 n ∧
      (H.sunAlt t0 < 0 ∨ C.jd1 < t0) ∧
      ∀ m < n, let t := sample (fun t => C.F.rnd (t + C.F.rnd (7 / 10000))) C.jd0 m; 0 ≤ H.sunAlt t ∧ t ≤ C.jd1) := by
  unfold Begins at h
  constructor
  · intro hk; rw [hk] at h; simpa using h
  · intro hk
    rw [if_pos hk] at h
    obtain ⟨n, hn⟩ := h
    have key : ∀ (n : ℕ) (t : ℚ), skipLoop C H n t = some t0 →
        ∃ n, t0 = sample (fun t => C.F.rnd (t + C.F.rnd (7 / 10000))) t n ∧ (H.sunAlt t0 < 0 ∨ C.jd1 < t0) ∧
          ∀ m < n, 0 ≤ H.sunAlt (sample (fun t => C.F.rnd (t + C.F.rnd (7 / 10000))) t m) ∧
            sample (fun t => C.F.rnd (t + C.F.rnd (7 / 10000))) t m ≤ C.jd1 := by
      intro n
      induction n with
      | zero => intro t h; simp [skipLoop] at h
      | succ n ih =>
        intro t h
        unfold skipLoop skipStep at h
        by_cases hc : H.sunAlt t < 0 ∨ t > C.jd1
        · rw [if_pos hc] at h
          simp only [Option.some.injEq] at h
          subst h
          exact ⟨0, rfl, hc, fun m hm => absurd hm (Nat.not_lt_zero m)⟩
        · rw [if_neg hc] at h
          obtain ⟨k, h1, h2, h3⟩ := ih _ h
          refine ⟨k + 1, ?_, h2, ?_⟩
          · rw [h1]; rfl
          · intro m hm
            cases m with
            | zero =>
              push Not at hc
              exact hc
            | succ m => exact h3 m (by omega)
    exact key n C.jd0 hn

/-! ### Rounding of the times -/

/-- Dates for which the rounding of times is estimated: Julian dates 0 to 4194000 (years -4712 to 6770),
steps of one second to one day. -/
structure Ordinary (C : Cfg) : Prop where
  lo : 0 ≤ C.jd0
  hi : C.jd1 ≤ 4194000
  dtPos : 1 ≤ C.dt
  dtDay : C.dt ≤ 86400

theorem rnd_near (F : Fl64) {x : ℚ} (h : |x| ≤ 2 ^ 23) : |F.rnd x - x| ≤ 1 / 2 ^ 29 := by
  refine le_trans (F.err x) ?_
  have : |x| / 2 ^ 53 ≤ 2 ^ 23 / 2 ^ 53 := by gcongr
  refine le_trans (add_le_add this le_rfl) ?_
  norm_num

theorem Ordinary.d_near {C : Cfg} (h : Ordinary C) : |C.d - (C.dt : ℚ) / 86400| ≤ 1 / 2 ^ 29 := by
  unfold Cfg.d
  apply rnd_near
  have h1 : (1 : ℚ) ≤ C.dt := by exact_mod_cast h.dtPos
  have h2 : (C.dt : ℚ) ≤ 86400 := by exact_mod_cast h.dtDay
  rw [abs_le]; constructor
  · have : (0 : ℚ) ≤ (C.dt : ℚ) / 86400 := by positivity
    linarith
  · rw [div_le_iff₀ (by norm_num)]; linarith

theorem Ordinary.d_bounds {C : Cfg} (h : Ordinary C) : 1 / 100000 ≤ C.d ∧ C.d ≤ 2 := by
  have h1 : (1 : ℚ) ≤ C.dt := by exact_mod_cast h.dtPos
  have h2 : (C.dt : ℚ) ≤ 86400 := by exact_mod_cast h.dtDay
  obtain ⟨h3, h4⟩ := abs_le.mp h.d_near
  have h5 : (1 : ℚ) / 86400 ≤ (C.dt : ℚ) / 86400 := by gcongr
  have h6 : (C.dt : ℚ) / 86400 ≤ 1 := by rw [div_le_iff₀ (by norm_num)]; linarith
  constructor
  · norm_num at h3 h5 ⊢; linarith
  · norm_num at h4 ⊢; linarith

theorem Ordinary.next_near {C : Cfg} (h : Ordinary C) {t : ℚ} (h0 : 0 ≤ t) (h1 : t ≤ 4194002) :
    |C.next t - (t + C.d)| ≤ 1 / 2 ^ 29 := by
  obtain ⟨h2, h3⟩ := h.d_bounds
  unfold Cfg.next
  apply rnd_near
  rw [abs_le]; constructor
  · linarith
  · norm_num; linarith

theorem Ordinary.next_gt {C : Cfg} (h : Ordinary C) {t : ℚ} (h0 : 0 ≤ t) (h1 : t ≤ 4194002) :
    t + C.d / 2 ≤ C.next t ∧ C.next t ≤ t + C.d + 1 / 2 ^ 29 := by
  obtain ⟨h2, h3⟩ := h.d_bounds
  obtain ⟨h4, h5⟩ := abs_le.mp (h.next_near h0 h1)
  constructor
  · norm_num at h4; linarith
  · linarith

/-- The samples up to the first one beyond the range increase. -/
theorem Ordinary.samples {C : Cfg} (h : Ordinary C) {t0 : ℚ} (h0 : 0 ≤ t0) (n : ℕ)
    (hn : ∀ m < n, sample C.next t0 m ≤ C.jd1) :
    0 ≤ sample C.next t0 n ∧ sample C.next t0 n ≤ max t0 4194002.5 ∧ ∀ m < n, sample C.next t0 m + C.d / 2 ≤ sample C.next t0 n := by
  have hd := h.d_bounds
  induction n with
  | zero =>
    refine ⟨h0, le_max_left _ _, fun m hm => absurd hm (Nat.not_lt_zero m)⟩
  | succ n ih =>
    obtain ⟨i1, -, i3⟩ := ih (fun m hm => hn m (by omega))
    have hT : sample C.next t0 n ≤ 4194000 := le_trans (hn n (Nat.lt_succ_self n)) h.hi
    obtain ⟨g1, g2⟩ := h.next_gt i1 (le_trans hT (by norm_num))
    rw [sample_succ]
    refine ⟨by linarith [hd.1], ?_, ?_⟩
    · refine le_trans ?_ (le_max_right _ _)
      have : (1 : ℚ) / 2 ^ 29 ≤ 1 / 2 := by norm_num
      norm_num
      linarith [hd.2]
    · intro m hm
      rcases Nat.lt_succ_iff_lt_or_eq.mp hm with hm | rfl
      · have := i3 m hm; linarith [hd.1]
      · exact g1

theorem Ordinary.begins {C : Cfg} (h : Ordinary C) {H : History} {t0 : ℚ} (hb : Begins C H t0) : 0 ≤ t0 := by
  obtain ⟨h1, h2⟩ := C56_skipped C H t0 hb
  cases hk : C.skipDay with
  | false => rw [h1 hk]; exact h.lo
  | true =>
    obtain ⟨n, rfl, -, hn⟩ := h2 hk
    clear hb h1 h2
    induction n with
    | zero => exact h.lo
    | succ n ih =>
      rw [sample_succ]
      have h3 := ih (fun m hm => hn m (by omega))
      have h4 := (hn n (Nat.lt_succ_self n)).2
      have h5 := h.hi
      have e1 : |C.F.rnd (7 / 10000) - 7 / 10000| ≤ 1 / 2 ^ 29 := by
        apply rnd_near; rw [abs_le]; constructor <;> norm_num
      obtain ⟨e2, e3⟩ := abs_le.mp e1
      have e4 := rnd_near C.F (x := sample (fun t => C.F.rnd (t + C.F.rnd (7 / 10000))) C.jd0 n + C.F.rnd (7 / 10000)) (by
        rw [abs_le]
        norm_num at e2 e3 ⊢
        constructor <;> linarith)
      obtain ⟨e5, -⟩ := abs_le.mp e4
      norm_num at e2 e5 ⊢
      linarith

/-- Times of the samples around a pass. -/
theorem Ordinary.pass {C : Cfg} (h : Ordinary C) {H : History} {t0 : ℚ} (hb : Begins C H t0) {V : ℚ → Prop} {k e : ℕ}
    (hp : IsPass (sample C.next t0) V C.jd1 k e) :
    (∀ m ≤ e, 0 ≤ sample C.next t0 m ∧ sample C.next t0 m ≤ 4194002.5) ∧
    (∀ m n, m < n → n ≤ e → sample C.next t0 m + C.d / 2 ≤ sample C.next t0 n) := by
  have h0 := h.begins hb
  have hle : ∀ m < e, sample C.next t0 m ≤ C.jd1 := by
    intro m hm
    by_cases hk : m ≤ k
    · exact hp.1.2.1 m hk
    · exact (hp.2.2.1 m (by omega) hm).1
  have ht0 : t0 ≤ 4194000 := le_trans (hle 0 (by have := hp.2.1; omega)) h.hi
  constructor
  · intro m hm
    obtain ⟨a, b, -⟩ := h.samples h0 m (fun i hi => hle i (by omega))
    refine ⟨a, le_trans b (max_le (by norm_num; linarith) le_rfl)⟩
  · intro m n hmn hn
    exact (h.samples h0 n (fun i hi => hle i (by omega))).2.2 m hmn

/-- The printed MJD of a sample for which one step is added and taken off. -/
theorem Ordinary.stepBack_near {C : Cfg} (h : Ordinary C) {t : ℚ} (h0 : 0 ≤ t) (h1 : t ≤ 4194002) :
    |C.stepBack (C.next t) - (t - jdOff)| ≤ 3 / 2 ^ 29 ∧ |C.F.rnd (C.next t - jdOff) - (t + C.d - jdOff)| ≤ 2 / 2 ^ 29 ∧
    |C.F.rnd (C.F.rnd (C.next t - C.d) - jdOff) - (t - jdOff)| ≤ 3 / 2 ^ 29 := by
  obtain ⟨d1, d2⟩ := h.d_bounds
  obtain ⟨a1, a2⟩ := abs_le.mp (h.next_near h0 h1)
  have hJ : jdOff = 4800001 / 2 := rfl
  norm_num at a1 a2
  have b := rnd_near C.F (x := C.next t - jdOff) (by rw [hJ, abs_le]; norm_num; constructor <;> linarith)
  obtain ⟨b1, b2⟩ := abs_le.mp b
  norm_num at b1 b2
  have c := rnd_near C.F (x := C.F.rnd (C.next t - jdOff) - C.d) (by rw [abs_le]; rw [hJ] at *; norm_num; constructor <;> linarith)
  obtain ⟨c1, c2⟩ := abs_le.mp c
  norm_num at c1 c2
  have e := rnd_near C.F (x := C.next t - C.d) (by rw [abs_le]; norm_num; constructor <;> linarith)
  obtain ⟨e1, e2⟩ := abs_le.mp e
  norm_num at e1 e2
  have f := rnd_near C.F (x := C.F.rnd (C.next t - C.d) - jdOff) (by rw [hJ, abs_le]; norm_num; constructor <;> linarith)
  obtain ⟨f1, f2⟩ := abs_le.mp f
  norm_num at f1 f2
  refine ⟨?_, ?_, ?_⟩
  · unfold Cfg.stepBack; rw [abs_le]; norm_num; constructor <;> linarith
  · rw [abs_le]; norm_num; constructor <;> linarith
  · rw [abs_le]; norm_num; constructor <;> linarith

/-! ### Concrete runs -/

/-- The answer after at most `n` steps, when no daytime is skipped. -/
def passAnswer (C : Cfg) (H : History) (n : Nat) : Option TSt :=
  match timeLoop C H n { t := C.jd0 } with
  | .over s => some (finish C s)
  | _ => none

theorem ends_of_passAnswer {C : Cfg} {H : History} {n : Nat} {r : TSt} (hk : C.skipDay = false) (h : passAnswer C H n = some r) :
    Ends C H r := by
  unfold passAnswer at h
  cases hl : timeLoop C H n { t := C.jd0 } with
  | run s => rw [hl] at h; simp at h
  | outOfRange s => rw [hl] at h; simp at h
  | over s =>
    rw [hl] at h
    simp only [Option.some.injEq] at h
    exact ⟨C.jd0, n, s, by unfold Begins; rw [if_neg (by rw [hk]; decide)], hl, h.symm⟩

/-- A run of `sat_visibility` over `n` steps of 675 seconds (1/128 day) from JD 2460000, radius 90 degrees. -/
def runOf (n : ℚ) : Cfg :=
  { F := Fl64.ieee, jd0 := 2460000, jd1 := 2460000 + n / 128, dt := 675, radius := 90, filter := false, altMin := 0,
    altMax := 10 ^ 32, skipDay := false }

/-- A satellite that is in the field from sample 3 to sample 8, highest at sample 5, and enters the
shadow of the Earth at sample `dark`. -/
def passAt (dark : ℚ) : History :=
  { sep := fun t => let n := (t - 2460000) * 128; if n < 3 ∨ 9 ≤ n then 95 else 40 + |n - 5|
    lit := fun t => decide ((t - 2460000) * 128 < dark)
    alt := fun _ => 400
    sunAlt := fun _ => -20 }

/-- Instants of the satellite data of the four blocks, in steps since the beginning. -/
def shown (r : TSt) : List ℚ := r.blocks.map (fun b => (b.satAt - 2460000) * 128)

set_option maxRecDepth 100000 in
/-- Example for C56: the search begins at sample 0 and finds the satellite at sample 3 (end: 9, out of the field;
or 7, in the shadow; or 6, end of the range). -/
example : (passAnswer (runOf 32) (passAt 20) 40).map shown = some [3, 9, 13 / 2, 5] ∧
    (passAnswer (runOf 32) (passAt 7) 40).map shown = some [3, 7, 6, 5] ∧
    (passAnswer (runOf 6) (passAt 20) 40).map shown = some [3, 6, 5, 5] ∧
    (passAnswer (runOf 2) (passAt 20) 40).map shown = some [] := by decide +kernel

/-- **C56** (printed time).  The MJD printed for the start is that of the first visible sample, up to
a millisecond. -/
theorem C56_mjd (C : Cfg) (hC : Ordinary C) (H : History) (hs : ∀ t, H.sep t ≤ 180) (r : TSt) (h : Ends C H r)
    (b : Block) (hb : b ∈ r.blocks) (hl : b.label = .start) :
    ∃ t0 k, Begins C H t0 ∧ IsFirst (sample C.next t0) (Visible H.sep H.lit C.radius) C.jd1 k ∧
      b.satAt = sample C.next t0 k ∧ |b.mjd - (sample C.next t0 k - jdOff)| ≤ 1 / 2 ^ 27 ∧ b.date = b.mjd := by
  obtain ⟨t0, hb0, h⟩ := ends_cases (fun t _ => lt_of_le_of_lt (hs t) (by norm_num)) h
  rcases h with ⟨-, h⟩ | ⟨k, e, s, ha, rfl⟩
  · rw [h] at hb; simp at hb
  · obtain ⟨bf, bm, bx, hbl, l1, l2, l3, -⟩ := finish_blocks ha
    rw [hbl] at hb
    simp only [List.mem_cons, List.not_mem_nil, or_false] at hb
    have hbe : b = startBlock C t0 k := by
      rcases hb with hb | hb | hb | hb
      · exact hb
      · rw [hb, l1] at hl; simp at hl
      · rw [hb, l2] at hl; simp at hl
      · rw [hb, l3] at hl; simp at hl
    refine ⟨t0, k, hb0, ha.pass.1, by rw [hbe]; rfl, ?_, by rw [hbe]; rfl⟩
    obtain ⟨hT, -⟩ := hC.pass hb0 ha.pass
    have hk := hT k (le_of_lt ha.pass.2.1)
    have hk2 : sample C.next t0 k ≤ 4194000 := le_trans (ha.pass.1.2.1 k le_rfl) hC.hi
    have := (hC.stepBack_near hk.1 (le_trans hk2 (by norm_num))).1
    rw [hbe]
    simp only [startBlock, Cfg.T]
    rw [sample_succ]
    refine le_trans this (by norm_num)

/-! ### C57, C58, C120 -/

/-- **C120**.  What is reported is the first uninterrupted run of visible samples `k`, …, `e - 1` of the
range: the start block shows sample `k`, the end block the first sample that is no longer visible, or the
last sample of the range. -/
theorem C120_interval (C : Cfg) (H : History) (hs : ∀ t, H.sep t ≤ 180) (r : TSt) (h : Ends C H r) (hne : r.blocks ≠ []) :
    ∃ t0 k e b bf bm bx, Begins C H t0 ∧ IsPass (sample C.next t0) (Visible H.sep H.lit C.radius) C.jd1 k e ∧
      r.blocks = [b, bf, bm, bx] ∧ b.label = .start ∧ bf.label = .fin ∧ bm.label = .mid ∧ bx.label = .max ∧
      b.satAt = sample C.next t0 k ∧
      (sample C.next t0 e ≤ C.jd1 → bf.satAt = sample C.next t0 e) ∧
      (C.jd1 < sample C.next t0 e → bf.satAt = sample C.next t0 (e - 1)) := by
  obtain ⟨t0, hb, h⟩ := ends_cases (fun t _ => lt_of_le_of_lt (hs t) (by norm_num)) h
  rcases h with ⟨-, h⟩ | ⟨k, e, s, ha, rfl⟩
  · exact absurd h hne
  · obtain ⟨bf, bm, bx, hbl, l1, l2, l3, h1, -⟩ := finish_blocks ha
    refine ⟨t0, k, e, _, bf, bm, bx, hb, ha.pass, hbl, rfl, l1, l2, l3, rfl, ?_, ?_⟩
    · intro hle; rw [h1, lastShown, if_pos hle]
    · intro hlt; rw [h1, lastShown, if_neg (not_le.mpr hlt)]

/-- **C57** (partial).  All samples from the reported start up to the reported end, the end itself
excluded, are visible, and the sample after the end of a pass that lasts to the end of the range is outside
the range.  (Missing: the sample reported as the end of the pass is itself not visible when the satellite
leaves the field or the sunlight, see `C57_end_violated`.) -/
theorem C57_contiguous_partial (C : Cfg) (H : History) (hs : ∀ t, H.sep t ≤ 180) (r : TSt) (h : Ends C H r) (hne : r.blocks ≠ []) :
    ∃ t0 k n b bf, Begins C H t0 ∧ b ∈ r.blocks ∧ bf ∈ r.blocks ∧ b.label = .start ∧ bf.label = .fin ∧ k ≤ n ∧
      b.satAt = sample C.next t0 k ∧ bf.satAt = sample C.next t0 n ∧
      (∀ m, k ≤ m → m < n → Visible H.sep H.lit C.radius (sample C.next t0 m)) ∧
      (Visible H.sep H.lit C.radius (sample C.next t0 n) → C.jd1 < sample C.next t0 (n + 1)) := by
  obtain ⟨t0, k, e, b, bf, bm, bx, h0, hp, hbl, l1, l2, -, -, h1, h2, h3⟩ := C120_interval C H hs r h hne
  have hke := hp.2.1
  rcases le_or_gt (sample C.next t0 e) C.jd1 with hle | hlt
  · refine ⟨t0, k, e, b, bf, h0, by simp [hbl], by simp [hbl], l1, l2, by omega, h1, h2 hle, fun m a c => (hp.2.2.1 m a c).2, ?_⟩
    intro hv
    exact absurd ⟨hle, hv⟩ hp.2.2.2
  · refine ⟨t0, k, e - 1, b, bf, h0, by simp [hbl], by simp [hbl], l1, l2, by omega, h1, h3 hlt, ?_, ?_⟩
    · intro m a c; exact (hp.2.2.1 m a (by omega)).2
    · intro _
      have : e - 1 + 1 = e := by omega
      rw [this]; exact hlt

set_option maxRecDepth 100000 in
/-- **C57** fails: the sample reported as the end of the pass is out of the field (95 degrees from the
zenith with a radius of 90) or in the shadow. -/
theorem C57_end_violated :
    (∃ r bf, Ends (runOf 32) (passAt 20) r ∧ bf ∈ r.blocks ∧ bf.label = .fin ∧ (passAt 20).sep bf.satAt = 95) ∧
    (∃ r bf, Ends (runOf 32) (passAt 7) r ∧ bf ∈ r.blocks ∧ bf.label = .fin ∧ (passAt 7).lit bf.satAt = false) := by
  have h1 : ∃ r, passAnswer (runOf 32) (passAt 20) 40 = some r ∧ ∃ bf ∈ r.blocks, bf.label = .fin ∧ (passAt 20).sep bf.satAt = 95 := by
    have : (passAnswer (runOf 32) (passAt 20) 40).any (fun r => r.blocks.any (fun bf => bf.label = .fin ∧ (passAt 20).sep bf.satAt = 95)) = true := by
      decide +kernel
    simpa [Option.any_eq_true] using this
  have h2 : ∃ r, passAnswer (runOf 32) (passAt 7) 40 = some r ∧ ∃ bf ∈ r.blocks, bf.label = .fin ∧ (passAt 7).lit bf.satAt = false := by
    have : (passAnswer (runOf 32) (passAt 7) 40).any (fun r => r.blocks.any (fun bf => bf.label = .fin ∧ (passAt 7).lit bf.satAt = false)) = true := by
      decide +kernel
    simpa [Option.any_eq_true] using this
  obtain ⟨r, hr, bf, hb, hl, hv⟩ := h1
  obtain ⟨r', hr', bf', hb', hl', hv'⟩ := h2
  exact ⟨⟨r, bf, ends_of_passAnswer rfl hr, hb, hl, hv⟩, ⟨r', bf', ends_of_passAnswer rfl hr', hb', hl', hv'⟩⟩

/-- **C58**.  The "max" block belongs to the visible sample of the pass with the least distance from
the zenith, the first one if there are several. -/
theorem C58_least (C : Cfg) (H : History) (hs : ∀ t, H.sep t ≤ 180) (r : TSt) (h : Ends C H r) (hne : r.blocks ≠ []) :
    ∃ t0 k e j bx, Begins C H t0 ∧ IsPass (sample C.next t0) (Visible H.sep H.lit C.radius) C.jd1 k e ∧
      bx ∈ r.blocks ∧ bx.label = .max ∧ bx.satAt = sample C.next t0 j ∧
      FirstMin (fun m => H.sep (sample C.next t0 m)) k e j := by
  obtain ⟨t0, hb, h⟩ := ends_cases (fun t _ => lt_of_le_of_lt (hs t) (by norm_num)) h
  rcases h with ⟨-, h⟩ | ⟨k, e, s, ha, rfl⟩
  · exact absurd h hne
  · obtain ⟨bf, bm, bx, hbl, -, -, l3, -, -, -, -, -, -, -, -, ⟨j, hj, hx⟩, -⟩ := finish_blocks ha
    exact ⟨t0, k, e, j, bx, hb, ha.pass, by simp [hbl], l3, hx, hj⟩

/-! ### Printed times: C59, C121-C124 -/

set_option maxRecDepth 100000 in
/-- Example for C58, C120: two least distances in a row (samples 4 and 5, 41 degrees): the first is reported. -/
example : (passAnswer (runOf 32) { passAt 20 with sep := fun t => let n := (t - 2460000) * 128; if n < 3 ∨ 9 ≤ n then 95 else 40 + |n - 9 / 2| } 40).map shown =
    some [3, 9, 13 / 2, 4] := by decide +kernel

/-- Everything about the printed times of an ordinary run. -/
theorem times_of_pass {C : Cfg} (hC : Ordinary C) {H : History} (hs : ∀ t, H.sep t ≤ 180) {r : TSt} (h : Ends C H r)
    (hne : r.blocks ≠ []) :
    ∃ b bf bm bx, r.blocks = [b, bf, bm, bx] ∧ b.label = .start ∧ bf.label = .fin ∧ bm.label = .mid ∧ bx.label = .max ∧
      b.date = b.mjd ∧ bf.date = bf.mjd ∧ bm.mjd = bf.mjd ∧ bx.mjd = bf.mjd ∧
      bm.date = midOf C r ∧ bm.satAt = C.F.rnd (bm.date + jdOff) ∧ bx.date = C.F.rnd (bx.satAt - jdOff) ∧
      b.sunAt = b.satAt ∧ bm.sunAt = bm.satAt ∧ bx.sunAt = bx.satAt ∧
      b.satAt ≤ bf.satAt ∧ 0 ≤ b.satAt ∧ bf.satAt ≤ 4194000 ∧ 0 ≤ bx.satAt ∧ bx.satAt ≤ 4194000 ∧
      |b.mjd - (b.satAt - jdOff)| ≤ 3 / 2 ^ 29 ∧ |bf.mjd - (bf.satAt - jdOff)| ≤ 3 / 2 ^ 29 ∧
      |r.mjdStart - (b.satAt + C.d - jdOff)| ≤ 2 / 2 ^ 29 ∧
      ((Visible H.sep H.lit C.radius bf.satAt ∨ C.radius < H.sep bf.satAt) ∧ r.mjdEnd = bf.mjd ∨
       (H.sep bf.satAt ≤ C.radius ∧ H.lit bf.satAt = false ∧ |r.mjdEnd - (bf.satAt + C.d - jdOff)| ≤ 2 / 2 ^ 29 ∧
        b.satAt + C.d / 2 ≤ bf.satAt)) ∧
      (C.radius < H.sep bf.satAt → b.satAt + C.d / 2 ≤ bf.satAt) ∧
      (H.sep bf.satAt ≤ C.radius → bf.sunAt = bf.satAt) := by
  obtain ⟨t0, hb, h⟩ := ends_cases (fun t _ => lt_of_le_of_lt (hs t) (by norm_num)) h
  rcases h with ⟨-, h⟩ | ⟨k, e, s, ha, rfl⟩
  · exact absurd h hne
  · obtain ⟨bf, bm, bx, hbl, l1, l2, l3, f1, f2, f3, m1, m2, m3, m4, m5, ⟨j, hj, x1⟩, -, -, -, -, x2, x3, x4, x5⟩ := finish_blocks ha
    obtain ⟨hT, hmono⟩ := hC.pass hb ha.pass
    have hke := ha.pass.2.1
    have hd := hC.d_bounds
    have hin : ∀ m < e, C.T t0 m ≤ 4194000 := by
      intro m hm
      by_cases hk : m ≤ k
      · exact le_trans (ha.pass.1.2.1 m hk) hC.hi
      · exact le_trans (ha.pass.2.2.1 m (by omega) hm).1 hC.hi
    have hkb := hT k (by omega)
    have hk2 := hin k hke
    have sk := hC.stepBack_near hkb.1 (le_trans hk2 (by norm_num))
    have hjb := hT j (by have := hj.2.1; omega)
    have hj2 := hin j hj.2.1
    refine ⟨_, bf, bm, bx, hbl, rfl, l1, l2, l3, rfl, f3, m1, m2, m3, m4, x3, rfl, m5, x2, ?_⟩
    have hs1 : (startBlock C t0 k).satAt = C.T t0 k := rfl
    have hs2 : (startBlock C t0 k).mjd = C.stepBack (C.next (C.T t0 k)) := by
      show C.stepBack (C.T t0 (k + 1)) = _
      rw [Cfg.T, sample_succ]
    rw [hs1, hs2, x1]
    have hst : (finish C s).mjdStart = C.F.rnd (C.next (C.T t0 k) - jdOff) := by rw [x4, Cfg.T, sample_succ]
    rw [hst]
    have hmk : C.T t0 k + C.d / 2 ≤ C.T t0 e := hmono k e hke le_rfl
    rcases x5 with ⟨y1, y2, y3, y4, y5⟩ | ⟨y1, y2, y3, y4⟩ | ⟨y1, y2, y3⟩
    · have hf : bf.satAt = C.T t0 e := by rw [f1, lastShown, if_pos y1]
      have hsun : bf.sunAt = C.T t0 e := by rw [f2, if_neg (by intro hc; exact absurd hc.2 (not_lt.mpr y2)), lastShown, if_pos y1]
      have he2 : C.T t0 e ≤ 4194000 := le_trans y1 hC.hi
      have se := hC.stepBack_near (hT e le_rfl).1 (le_trans he2 (by norm_num))
      have hn : C.T t0 (e + 1) = C.next (C.T t0 e) := sample_succ _ _ _
      rw [hf]
      refine ⟨by linarith [hd.1], hkb.1, he2, hjb.1, hj2, sk.1, ?_, sk.2.1, Or.inr ⟨y2, y3, ?_, hmk⟩, fun _ => hmk, fun _ => hsun⟩
      · rw [y4, hn]; exact se.1
      · rw [y5, hn]; exact se.2.1
    · have hf : bf.satAt = C.T t0 e := by rw [f1, lastShown, if_pos y1]
      have he2 : C.T t0 e ≤ 4194000 := le_trans y1 hC.hi
      have se := hC.stepBack_near (hT e le_rfl).1 (le_trans he2 (by norm_num))
      have hn : C.T t0 (e + 1) = C.next (C.T t0 e) := sample_succ _ _ _
      rw [hf]
      refine ⟨by linarith [hd.1], hkb.1, he2, hjb.1, hj2, sk.1, ?_, sk.2.1, Or.inl ⟨Or.inr y2, y4⟩, fun _ => hmk, fun hc => absurd hc (not_le.mpr y2)⟩
      rw [y3, hn]; exact se.2.2
    · have hf : bf.satAt = C.T t0 (e - 1) := by rw [f1, lastShown, if_neg (not_le.mpr y1)]
      have hsun : bf.sunAt = C.T t0 (e - 1) := by
        rw [f2, if_neg (by intro hc; exact absurd hc.1 (not_le.mpr y1)), lastShown, if_neg (not_le.mpr y1)]
      have he2 : C.T t0 (e - 1) ≤ 4194000 := hin _ (by omega)
      have hvis := (ha.pass.2.2.1 (e - 1) (by omega) (by omega)).2
      have se := hC.stepBack_near (hT (e - 1) (by omega)).1 (le_trans he2 (by norm_num))
      have hn : C.T t0 e = C.next (C.T t0 (e - 1)) := by
        have := sample_succ C.next t0 (e - 1)
        rwa [show e - 1 + 1 = e by omega] at this
      have hke1 : C.T t0 k ≤ C.T t0 (e - 1) := by
        rcases Nat.lt_or_ge k (e - 1) with hlt | hge
        · have := hmono k (e - 1) hlt (by omega); linarith [hd.1]
        · rw [show e - 1 = k by omega]
      rw [hf]
      refine ⟨hke1, hkb.1, he2, hjb.1, hj2, sk.1, ?_, sk.2.1, Or.inl ⟨Or.inl hvis, y3⟩, fun hc => absurd hvis.1 (not_le.mpr hc), fun _ => hsun⟩
      rw [y2, hn]; exact se.2.2

/-- **C59** (order; part of the claim).  The reported end is not before the reported start. -/
theorem C59_order_partial (C : Cfg) (hC : Ordinary C) (H : History) (hs : ∀ t, H.sep t ≤ 180) (r : TSt) (h : Ends C H r)
    (b bf : Block) (hb : b ∈ r.blocks) (hf : bf ∈ r.blocks) (lb : b.label = .start) (lf : bf.label = .fin) :
    b.satAt ≤ bf.satAt ∧ b.mjd ≤ bf.mjd + 1 / 2 ^ 26 := by
  obtain ⟨b', bf', bm, bx, hbl, l1, l2, l3, l4, -, -, -, -, -, -, -, -, -, -, h1, -, -, -, -, h2, h3, -⟩ :=
    times_of_pass hC hs h (by intro hc; rw [hc] at hb; simp at hb)
  rw [hbl] at hb hf
  simp only [List.mem_cons, List.not_mem_nil, or_false] at hb hf
  have e1 : b = b' := by
    rcases hb with rfl | rfl | rfl | rfl
    · rfl
    · rw [l2] at lb; simp at lb
    · rw [l3] at lb; simp at lb
    · rw [l4] at lb; simp at lb
  have e2 : bf = bf' := by
    rcases hf with rfl | rfl | rfl | rfl
    · rw [l1] at lf; simp at lf
    · rfl
    · rw [l3] at lf; simp at lf
    · rw [l4] at lf; simp at lf
  subst e1; subst e2
  refine ⟨h1, ?_⟩
  obtain ⟨a1, a2⟩ := abs_le.mp h2
  obtain ⟨a3, a4⟩ := abs_le.mp h3
  norm_num at *
  linarith

/-- **C59** (partial).  When the pass ends in the shadow of the Earth, the duration is positive and is the
time from the reported start to the reported end.  In the other cases it is one step too short, and negative
for a pass of one sample at the end of the range (`C59_negative_violated`). -/
theorem C59_duration_partial (C : Cfg) (hC : Ordinary C) (H : History) (hs : ∀ t, H.sep t ≤ 180) (r : TSt) (h : Ends C H r)
    (hne : r.blocks ≠ []) :
    ∃ b bf bm bx, r.blocks = [b, bf, bm, bx] ∧ b.label = .start ∧ bf.label = .fin ∧
      (H.sep bf.satAt ≤ C.radius ∧ H.lit bf.satAt = false →
        0 < r.mjdEnd - r.mjdStart ∧ |(r.mjdEnd - r.mjdStart) - (bf.satAt - b.satAt)| ≤ 1 / 2 ^ 26) ∧
      (¬ (H.sep bf.satAt ≤ C.radius ∧ H.lit bf.satAt = false) →
        |(r.mjdEnd - r.mjdStart) - (bf.satAt - b.satAt - C.d)| ≤ 1 / 2 ^ 26) := by
  obtain ⟨b, bf, bm, bx, hbl, l1, l2, -, -, -, -, -, -, -, -, -, -, -, -, h1, -, -, -, -, h2, h3, h4, h5, -⟩ :=
    times_of_pass hC hs h hne
  obtain ⟨d1, d2⟩ := hC.d_bounds
  refine ⟨b, bf, bm, bx, hbl, l1, l2, ?_, ?_⟩
  · rintro ⟨q1, q2⟩
    rcases h5 with ⟨hv | hv, -⟩ | ⟨-, -, h6, h7⟩
    · exact absurd (hv.2.symm.trans q2) (by decide)
    · exact absurd q1 (not_le.mpr hv)
    · obtain ⟨a1, a2⟩ := abs_le.mp h4
      obtain ⟨a3, a4⟩ := abs_le.mp h6
      norm_num at a1 a2 a3 a4
      refine ⟨by linarith, ?_⟩
      rw [abs_le]; norm_num; constructor <;> linarith
  · intro hq
    rcases h5 with ⟨-, hv⟩ | ⟨q1, q2, -⟩
    · rw [hv]
      obtain ⟨a1, a2⟩ := abs_le.mp h4
      obtain ⟨a3, a4⟩ := abs_le.mp h3
      norm_num at a1 a2 a3 a4
      rw [abs_le]; norm_num; constructor <;> linarith
    · exact absurd ⟨q1, q2⟩ hq

set_option maxRecDepth 100000 in
/-- **C59** fails: a satellite that is seen for the first time at the last sample of the range gets a
negative duration (-11.25 minutes with steps of 675 seconds, -0.05 with the default step). -/
theorem C59_negative_violated (G : Fl32) :
    ∃ r, Ends (runOf 3) (passAt 20) r ∧ r.mjdEnd - r.mjdStart = -1 / 128 ∧ minutes (runOf 3) G r < 0 := by
  have h1 : ∃ r, passAnswer (runOf 3) (passAt 20) 40 = some r ∧ r.mjdEnd - r.mjdStart = -1 / 128 ∧
      Fl64.ieee.rnd (r.mjdEnd - r.mjdStart) = -1 / 128 := by
    have : (passAnswer (runOf 3) (passAt 20) 40).any (fun r => r.mjdEnd - r.mjdStart = -1 / 128 ∧
      Fl64.ieee.rnd (r.mjdEnd - r.mjdStart) = -1 / 128) = true := by decide +kernel
    simpa [Option.any_eq_true] using this
  obtain ⟨r, hr, hd, hd'⟩ := h1
  refine ⟨r, ends_of_passAnswer rfl hr, hd, ?_⟩
  unfold minutes
  have e1 : (runOf 3).F.rnd (r.mjdEnd - r.mjdStart) = -1 / 128 := hd'
  rw [e1]
  have e2 := G.err (-1 / 128)
  obtain ⟨e3, e4⟩ := abs_le.mp e2
  have e5 : |(-1 / 128 : ℚ)| = 1 / 128 := by rw [abs_of_neg (by norm_num)]; norm_num
  rw [e5] at e3 e4
  have e6 : G.rnd (-1 / 128) ≤ -1 / 256 := by norm_num at e4 ⊢; linarith
  have e7 := (runOf 3).F.mono _ (-1) (show G.rnd (-1 / 128) * 1440 ≤ -1 by linarith)
  have e8 := (runOf 3).F.exact (-1) 0 (by norm_num) (by norm_num)
  norm_num at e8
  rw [e8] at e7
  linarith

set_option maxRecDepth 100000 in
/-- **C59** fails: for a satellite that leaves the field the duration is one step less than the time from
the reported start to the reported end (here samples 3 to 9, "duration" of five steps). -/
theorem C59_short_violated :
    ∃ r b bf, Ends (runOf 32) (passAt 20) r ∧ b ∈ r.blocks ∧ b.label = .start ∧ bf ∈ r.blocks ∧ bf.label = .fin ∧
      bf.mjd - b.mjd = 6 / 128 ∧ r.mjdEnd - r.mjdStart = 5 / 128 := by
  have h1 : ∃ r, passAnswer (runOf 32) (passAt 20) 40 = some r ∧ r.mjdEnd - r.mjdStart = 5 / 128 ∧
      ∃ b ∈ r.blocks, b.label = .start ∧ ∃ bf ∈ r.blocks, bf.label = .fin ∧ bf.mjd - b.mjd = 6 / 128 := by
    have : (passAnswer (runOf 32) (passAt 20) 40).any (fun r => r.mjdEnd - r.mjdStart = 5 / 128 ∧
      r.blocks.any (fun b => b.label = .start ∧ r.blocks.any (fun bf => bf.label = .fin ∧ bf.mjd - b.mjd = 6 / 128))) = true := by
      decide +kernel
    simpa [Option.any_eq_true] using this
  obtain ⟨r, hr, hd, b, hb, lb, bf, hf, lf, hx⟩ := h1
  exact ⟨r, b, bf, ends_of_passAnswer rfl hr, hb, lb, hf, lf, hx, hd⟩

/-- **C121**.  In each of the four groups "Date" is the date of the instant for which the satellite was
computed (before the rounding to whole seconds in `mjd2date`), up to a millisecond. -/
theorem C121_date (C : Cfg) (hC : Ordinary C) (H : History) (hs : ∀ t, H.sep t ≤ 180) (r : TSt) (h : Ends C H r)
    (b : Block) (hb : b ∈ r.blocks) : |b.date - (b.satAt - jdOff)| ≤ 1 / 2 ^ 26 := by
  obtain ⟨bs, bf, bm, bx, hbl, -, -, -, -, q1, q2, -, -, q5, q6, q7, -, -, -, g1, g2, g3, g4, g5, h2, h3, h4, h5, -⟩ :=
    times_of_pass hC hs h (by intro hc; rw [hc] at hb; simp at hb)
  obtain ⟨d1, d2⟩ := hC.d_bounds
  have hJ : jdOff = 4800001 / 2 := rfl
  rw [hbl] at hb
  simp only [List.mem_cons, List.not_mem_nil, or_false] at hb
  obtain ⟨a1, a2⟩ := abs_le.mp h2
  obtain ⟨a3, a4⟩ := abs_le.mp h3
  obtain ⟨a5, a6⟩ := abs_le.mp h4
  norm_num at a1 a2 a3 a4 a5 a6
  rcases hb with rfl | rfl | rfl | rfl
  · rw [q1]; exact le_trans h2 (by norm_num)
  · rw [q2]; exact le_trans h3 (by norm_num)
  · -- the middle
    have hE : -2400004 ≤ r.mjdEnd ∧ r.mjdEnd ≤ 1793999.5 + 3 := by
      rcases h5 with ⟨-, hv⟩ | ⟨-, -, h6, -⟩
      · rw [hv]; rw [hJ] at *; norm_num; constructor <;> linarith
      · obtain ⟨a7, a8⟩ := abs_le.mp h6
        norm_num at a7 a8
        rw [hJ] at *; norm_num; constructor <;> linarith
    have hS : -2400004 ≤ r.mjdStart ∧ r.mjdStart ≤ 1793999.5 + 3 := by
      rw [hJ] at *; norm_num; constructor <;> linarith
    norm_num at hE hS
    have r1 := rnd_near C.F (x := r.mjdEnd - r.mjdStart) (by rw [abs_le]; norm_num; constructor <;> linarith [hE.1, hE.2, hS.1, hS.2])
    obtain ⟨r2, r3⟩ := abs_le.mp r1
    norm_num at r2 r3
    have r4 := rnd_near C.F (x := C.F.rnd (r.mjdEnd - r.mjdStart) / 2) (by rw [abs_le]; norm_num; constructor <;> linarith [hE.1, hE.2, hS.1, hS.2])
    obtain ⟨r5, r6⟩ := abs_le.mp r4
    norm_num at r5 r6
    have r7 := rnd_near C.F (x := r.mjdStart + C.F.rnd (C.F.rnd (r.mjdEnd - r.mjdStart) / 2)) (by rw [abs_le]; norm_num; constructor <;> linarith [hE.1, hE.2, hS.1, hS.2])
    obtain ⟨r8, r9⟩ := abs_le.mp r7
    norm_num at r8 r9
    have hm : -2400010 ≤ midOf C r ∧ midOf C r ≤ 1794010 := by
      unfold midOf
      constructor <;> linarith [hE.1, hE.2, hS.1, hS.2]
    have r10 := rnd_near C.F (x := midOf C r + jdOff) (by rw [hJ, abs_le]; norm_num; constructor <;> linarith [hm.1, hm.2])
    rw [q6, q5]
    obtain ⟨r11, r12⟩ := abs_le.mp r10
    norm_num at r11 r12
    rw [abs_le]; norm_num; constructor <;> linarith
  · rw [q7]
    have := rnd_near C.F (x := b.satAt - jdOff) (by rw [hJ, abs_le]; norm_num; constructor <;> linarith)
    exact le_trans this (by norm_num)

set_option maxRecDepth 100000 in
/-- Example for C121: the dates of the four groups, in steps since the beginning. -/
example : (passAnswer (runOf 32) (passAt 7) 40).map (fun r => r.blocks.map (fun b => (b.date + jdOff - 2460000) * 128)) = some [3, 7, 6, 5] := by
  decide +kernel

/-- **C122** (partial).  In the start and end groups the printed MJD is that of the instant for which the
satellite was computed.  (Missing: the "mid" and "max" groups print the MJD of the end, see
`C122_same_violated`.) -/
theorem C122_mjd_partial (C : Cfg) (hC : Ordinary C) (H : History) (hs : ∀ t, H.sep t ≤ 180) (r : TSt) (h : Ends C H r)
    (b : Block) (hb : b ∈ r.blocks) (hl : b.label = .start ∨ b.label = .fin) : |b.mjd - (b.satAt - jdOff)| ≤ 1 / 2 ^ 26 := by
  obtain ⟨bs, bf, bm, bx, hbl, l1, l2, l3, l4, -, -, -, -, -, -, -, -, -, -, -, -, -, -, -, h2, h3, -⟩ :=
    times_of_pass hC hs h (by intro hc; rw [hc] at hb; simp at hb)
  rw [hbl] at hb
  simp only [List.mem_cons, List.not_mem_nil, or_false] at hb
  rcases hb with rfl | rfl | rfl | rfl
  · exact le_trans h2 (by norm_num)
  · exact le_trans h3 (by norm_num)
  · rw [l3] at hl; simp at hl
  · rw [l4] at hl; simp at hl

/-- **C122** fails in every answer with a pass: the MJD of "mid" and "max" is the one printed for the
end. -/
theorem C122_same_violated (C : Cfg) (hC : Ordinary C) (H : History) (hs : ∀ t, H.sep t ≤ 180) (r : TSt) (h : Ends C H r)
    (hne : r.blocks ≠ []) :
    ∃ b bf bm bx, r.blocks = [b, bf, bm, bx] ∧ bm.label = .mid ∧ bx.label = .max ∧ bm.mjd = bf.mjd ∧ bx.mjd = bf.mjd := by
  obtain ⟨b, bf, bm, bx, hbl, -, -, l3, l4, -, -, q3, q4, -⟩ := times_of_pass hC hs h hne
  exact ⟨b, bf, bm, bx, hbl, l3, l4, q3, q4⟩

set_option maxRecDepth 100000 in
/-- **C122** fails: the satellite is highest at sample 5, the "MJD" printed beside it is that of sample 9. -/
theorem C122_max_violated :
    ∃ r b, Ends (runOf 32) (passAt 20) r ∧ b ∈ r.blocks ∧ b.label = .max ∧ b.satAt = 2460000 + 5 / 128 ∧
      b.mjd = 2460000 + 9 / 128 - jdOff := by
  have h1 : ∃ r, passAnswer (runOf 32) (passAt 20) 40 = some r ∧ ∃ b ∈ r.blocks, b.label = .max ∧ b.satAt = 2460000 + 5 / 128 ∧
      b.mjd = 2460000 + 9 / 128 - jdOff := by
    have : (passAnswer (runOf 32) (passAt 20) 40).any (fun r => r.blocks.any (fun b => b.label = .max ∧ b.satAt = 2460000 + 5 / 128 ∧
      b.mjd = 2460000 + 9 / 128 - jdOff)) = true := by decide +kernel
    simpa [Option.any_eq_true] using this
  obtain ⟨r, hr, b, hb, h2⟩ := h1
  exact ⟨r, b, ends_of_passAnswer rfl hr, hb, h2⟩

/-- **C123** (partial).  The Sun's data in a group belong to the instant of the satellite's data, except at
the end of a pass that ends by leaving the field (`C123_sun_violated`). -/
theorem C123_sun_partial (C : Cfg) (hC : Ordinary C) (H : History) (hs : ∀ t, H.sep t ≤ 180) (r : TSt) (h : Ends C H r)
    (b : Block) (hb : b ∈ r.blocks) (hl : b.label ≠ .fin ∨ H.sep b.satAt ≤ C.radius) : b.sunAt = b.satAt := by
  obtain ⟨bs, bf, bm, bx, hbl, l1, l2, l3, l4, -, -, -, -, -, -, -, q1, q2, q3, -, -, -, -, -, -, -, -, -, -, h3⟩ :=
    times_of_pass hC hs h (by intro hc; rw [hc] at hb; simp at hb)
  rw [hbl] at hb
  simp only [List.mem_cons, List.not_mem_nil, or_false] at hb
  rcases hb with rfl | rfl | rfl | rfl
  · exact q1
  · rcases hl with hl | hl
    · exact absurd l2 hl
    · exact h3 hl
  · exact q2
  · exact q3

set_option maxRecDepth 100000 in
/-- **C123** fails: the end group of a pass that leaves the field shows the satellite at sample 9 and the
Sun at sample 8. -/
theorem C123_sun_violated :
    ∃ r b, Ends (runOf 32) (passAt 20) r ∧ b ∈ r.blocks ∧ b.label = .fin ∧ b.satAt = 2460000 + 9 / 128 ∧
      b.sunAt = 2460000 + 8 / 128 := by
  have h1 : ∃ r, passAnswer (runOf 32) (passAt 20) 40 = some r ∧ ∃ b ∈ r.blocks, b.label = .fin ∧ b.satAt = 2460000 + 9 / 128 ∧
      b.sunAt = 2460000 + 8 / 128 := by
    have : (passAnswer (runOf 32) (passAt 20) 40).any (fun r => r.blocks.any (fun b => b.label = .fin ∧ b.satAt = 2460000 + 9 / 128 ∧
      b.sunAt = 2460000 + 8 / 128)) = true := by decide +kernel
    simpa [Option.any_eq_true] using this
  obtain ⟨r, hr, b, hb, h2⟩ := h1
  exact ⟨r, b, ends_of_passAnswer rfl hr, hb, h2⟩

/-- **C124** (partial).  The "mid" group belongs to an instant at most one step after the middle between
the reported start and the reported end, and not before it.  (Missing: it is not the middle.) -/
theorem C124_mid_partial (C : Cfg) (hC : Ordinary C) (H : History) (hs : ∀ t, H.sep t ≤ 180) (r : TSt) (h : Ends C H r)
    (hne : r.blocks ≠ []) :
    ∃ b bf bm bx, r.blocks = [b, bf, bm, bx] ∧ b.label = .start ∧ bf.label = .fin ∧ bm.label = .mid ∧
      (b.satAt + bf.satAt) / 2 - 1 / 2 ^ 25 ≤ bm.satAt ∧ bm.satAt ≤ (b.satAt + bf.satAt) / 2 + C.d + 1 / 2 ^ 25 := by
  obtain ⟨b, bf, bm, bx, hbl, l1, l2, l3, -, -, -, -, -, q5, q6, -, -, -, -, g1, g2, g3, -, -, h2, h3, h4, h5, -⟩ :=
    times_of_pass hC hs h hne
  refine ⟨b, bf, bm, bx, hbl, l1, l2, l3, ?_⟩
  obtain ⟨d1, d2⟩ := hC.d_bounds
  have hdate := C121_date C hC H hs r h bm (by simp [hbl])
  obtain ⟨z1, z2⟩ := abs_le.mp hdate
  rw [q5] at z1 z2
  have hJ : jdOff = 4800001 / 2 := rfl
  obtain ⟨a3, a4⟩ := abs_le.mp h3
  obtain ⟨a5, a6⟩ := abs_le.mp h4
  norm_num at a3 a4 a5 a6 z1 z2
  have hE : bf.satAt - jdOff - 3 / 2 ^ 29 ≤ r.mjdEnd ∧ r.mjdEnd ≤ bf.satAt + C.d - jdOff + 3 / 2 ^ 29 := by
    rcases h5 with ⟨-, hv⟩ | ⟨-, -, h6, -⟩
    · rw [hv]; norm_num; constructor <;> linarith
    · obtain ⟨a7, a8⟩ := abs_le.mp h6
      norm_num at a7 a8
      norm_num; constructor <;> linarith
  obtain ⟨e1, e2⟩ := hE
  norm_num at e1 e2
  have r1 := rnd_near C.F (x := r.mjdEnd - r.mjdStart) (by rw [hJ] at *; rw [abs_le]; norm_num; constructor <;> linarith)
  obtain ⟨r2, r3⟩ := abs_le.mp r1
  norm_num at r2 r3
  have r4 := rnd_near C.F (x := C.F.rnd (r.mjdEnd - r.mjdStart) / 2) (by rw [hJ] at *; rw [abs_le]; norm_num; constructor <;> linarith)
  obtain ⟨r5, r6⟩ := abs_le.mp r4
  norm_num at r5 r6
  have r7 := rnd_near C.F (x := r.mjdStart + C.F.rnd (C.F.rnd (r.mjdEnd - r.mjdStart) / 2)) (by rw [hJ] at *; rw [abs_le]; norm_num; constructor <;> linarith)
  obtain ⟨r8, r9⟩ := abs_le.mp r7
  norm_num at r8 r9
  unfold midOf at z1 z2
  norm_num
  constructor <;> linarith

set_option maxRecDepth 100000 in
/-- **C124** fails: for a satellite seen at sample 3 only (in the shadow from sample 4 on) the "mid" group is computed
for an instant half a step after the reported end. -/
theorem C124_late_violated :
    ∃ r bf bm, Ends (runOf 32) (passAt 4) r ∧ bf ∈ r.blocks ∧ bf.label = .fin ∧ bm ∈ r.blocks ∧ bm.label = .mid ∧
      bm.satAt = bf.satAt + 1 / 256 := by
  have h1 : ∃ r, passAnswer (runOf 32) (passAt 4) 40 = some r ∧ ∃ bf ∈ r.blocks, bf.label = .fin ∧ ∃ bm ∈ r.blocks, bm.label = .mid ∧
      bm.satAt = bf.satAt + 1 / 256 := by
    have : (passAnswer (runOf 32) (passAt 4) 40).any (fun r => r.blocks.any (fun bf => bf.label = .fin ∧
      r.blocks.any (fun bm => bm.label = .mid ∧ bm.satAt = bf.satAt + 1 / 256))) = true := by decide +kernel
    simpa [Option.any_eq_true] using this
  obtain ⟨r, hr, bf, hf, lf, bm, hm, lm, hx⟩ := h1
  exact ⟨r, bf, bm, ends_of_passAnswer rfl hr, hf, lf, hm, lm, hx⟩

/-! ### C60 -/

/-! ### Direction and speed of motion, coordinates of J2000: C125, C126 -/

/-- **C125** (partial).  "PA" and "Speed" of the start group are measured from the instant of the start.
(Missing: the three other groups repeat them, `C125_same_violated`.) -/
theorem C125_start_partial (C : Cfg) (H : History) (hs : ∀ t, H.sep t ≤ 180) (r : TSt) (h : Ends C H r)
    (b : Block) (hb : b ∈ r.blocks) (hl : b.label = .start) : b.rateAt = b.satAt := by
  obtain ⟨t0, h0, h⟩ := ends_cases (fun t _ => lt_of_le_of_lt (hs t) (by norm_num)) h
  rcases h with ⟨-, h⟩ | ⟨k, e, s, ha, rfl⟩
  · rw [h] at hb; simp at hb
  · obtain ⟨bf, bm, bx, hbl, l1, l2, l3, -⟩ := finish_blocks ha
    rw [hbl] at hb
    simp only [List.mem_cons, List.not_mem_nil, or_false] at hb
    rcases hb with rfl | rfl | rfl | rfl
    · rfl
    · rw [l1] at hl; simp at hl
    · rw [l2] at hl; simp at hl
    · rw [l3] at hl; simp at hl

/-- **C125** fails in every answer with a pass: all four groups give direction and speed of the start. -/
theorem C125_same_violated (C : Cfg) (H : History) (hs : ∀ t, H.sep t ≤ 180) (r : TSt) (h : Ends C H r) (hne : r.blocks ≠ []) :
    ∃ b bf bm bx, r.blocks = [b, bf, bm, bx] ∧ b.label = .start ∧ ∀ c ∈ r.blocks, c.rateAt = b.satAt := by
  obtain ⟨t0, h0, h⟩ := ends_cases (fun t _ => lt_of_le_of_lt (hs t) (by norm_num)) h
  rcases h with ⟨-, h⟩ | ⟨k, e, s, ha, rfl⟩
  · exact absurd h hne
  · obtain ⟨bf, bm, bx, hbl, -, -, -, -, -, -, -, -, -, -, -, -, hr, -⟩ := finish_blocks ha
    exact ⟨_, bf, bm, bx, hbl, rfl, hr⟩

set_option maxRecDepth 100000 in
/-- **C125** fails: the group "max" of sample 5 has the direction and speed of sample 3. -/
theorem C125_max_violated :
    ∃ r b, Ends (runOf 32) (passAt 20) r ∧ b ∈ r.blocks ∧ b.label = .max ∧ b.satAt = 2460000 + 5 / 128 ∧ b.rateAt = 2460000 + 3 / 128 := by
  have h1 : ∃ r, passAnswer (runOf 32) (passAt 20) 40 = some r ∧ ∃ b ∈ r.blocks, b.label = .max ∧ b.satAt = 2460000 + 5 / 128 ∧
      b.rateAt = 2460000 + 3 / 128 := by
    have : (passAnswer (runOf 32) (passAt 20) 40).any (fun r => r.blocks.any (fun b => b.label = .max ∧ b.satAt = 2460000 + 5 / 128 ∧
      b.rateAt = 2460000 + 3 / 128)) = true := by decide +kernel
    simpa [Option.any_eq_true] using this
  obtain ⟨r, hr, b, h⟩ := h1
  exact ⟨r, b, ends_of_passAnswer rfl hr, h⟩

/-- **C126** (partial).  "ra" and "dec" of a group were converted from the equinox of date to J2000 exactly
once, except in the end group of a pass of one sample at the end of the range (`C126_twice_violated`). -/
theorem C126_once_partial (C : Cfg) (H : History) (hs : ∀ t, H.sep t ≤ 180) (r : TSt) (h : Ends C H r)
    (b : Block) (hb : b ∈ r.blocks)
    (hl : b.label ≠ .fin ∨ ∀ t0 k, Begins C H t0 → IsPass (sample C.next t0) (Visible H.sep H.lit C.radius) C.jd1 k (k + 1) →
      sample C.next t0 (k + 1) ≤ C.jd1) : b.conv = 1 := by
  obtain ⟨t0, h0, h⟩ := ends_cases (fun t _ => lt_of_le_of_lt (hs t) (by norm_num)) h
  rcases h with ⟨-, h⟩ | ⟨k, e, s, ha, rfl⟩
  · rw [h] at hb; simp at hb
  · obtain ⟨bf, bm, bx, hbl, l1, -, -, -, -, -, -, -, -, -, -, -, -, c1, c2, c3, -⟩ := finish_blocks ha
    rw [hbl] at hb
    simp only [List.mem_cons, List.not_mem_nil, or_false] at hb
    rcases hb with rfl | rfl | rfl | rfl
    · rfl
    · rw [c3, if_neg]
      rintro ⟨he, hlt⟩
      rcases hl with hl | hl
      · exact hl l1
      · subst he
        exact absurd (hl t0 k h0 ha.pass) (not_le.mpr hlt)
    · exact c1
    · exact c2

set_option maxRecDepth 100000 in
/-- **C126** fails: for a satellite that is seen for the first time at the last sample of the range the
coordinates of the end group were converted twice (and its azimuth and altitude computed from coordinates
of J2000). -/
theorem C126_twice_violated :
    ∃ r b, Ends (runOf 3) (passAt 20) r ∧ b ∈ r.blocks ∧ b.label = .fin ∧ b.conv = 2 := by
  have h1 : ∃ r, passAnswer (runOf 3) (passAt 20) 40 = some r ∧ ∃ b ∈ r.blocks, b.label = .fin ∧ b.conv = 2 := by
    have : (passAnswer (runOf 3) (passAt 20) 40).any (fun r => r.blocks.any (fun b => b.label = .fin ∧ b.conv = 2)) = true := by
      decide +kernel
    simpa [Option.any_eq_true] using this
  obtain ⟨r, hr, b, h⟩ := h1
  exact ⟨r, b, ends_of_passAnswer rfl hr, h⟩

set_option maxRecDepth 100000 in
/-- Example for C125, C126: the pass of samples 3 to 8, with the instants of the rates (in steps) and the number of conversions. -/
example : (passAnswer (runOf 32) (passAt 20) 40).map (fun r => r.blocks.map (fun b => ((b.rateAt - 2460000) * 128, b.conv))) =
    some [(3, 1), (3, 1), (3, 1), (3, 1)] := by decide +kernel

/-- Rounding of sums of Julian dates up to 2^30 and steps of up to 2^31 seconds. -/
theorem rnd_wide (F : Fl64) {x : ℚ} (h : |x| ≤ 2 ^ 31) : |F.rnd x - x| ≤ 1 / 2 ^ 21 := by
  refine le_trans (F.err x) ?_
  have : |x| / 2 ^ 53 ≤ 2 ^ 31 / 2 ^ 53 := by gcongr
  refine le_trans (add_le_add this le_rfl) ?_
  norm_num

/-- Adding a constant of at least 1/100000 day leaves every range after finitely many steps. -/
theorem leaves (F : Fl64) {d : ℚ} (h1 : 1 / 100000 ≤ d) (h2 : d ≤ 2 ^ 30) {t1 : ℚ} (ht : t1 ≤ 2 ^ 30) {t0 : ℚ} (h0 : -2 ^ 30 ≤ t0) :
    ∃ n, t1 < sample (fun t => F.rnd (t + d)) t0 n := by
  by_contra hc
  push Not at hc
  have key : ∀ n : ℕ, t0 + n * (1 / 200000) ≤ sample (fun t => F.rnd (t + d)) t0 n := by
    intro n
    induction n with
    | zero => simp [sample]
    | succ n ih =>
      rw [sample_succ]
      have hn := hc n
      have hlo : t0 ≤ sample (fun t => F.rnd (t + d)) t0 n := by
        have : (0 : ℚ) ≤ n * (1 / 200000) := by positivity
        linarith
      have := rnd_wide F (x := sample (fun t => F.rnd (t + d)) t0 n + d) (by
        rw [abs_le]; norm_num at h0 ht h2 ⊢; constructor <;> linarith)
      obtain ⟨a, -⟩ := abs_le.mp this
      push_cast
      norm_num at a ih ⊢
      linarith
  obtain ⟨n, hn⟩ := exists_nat_gt ((t1 - t0) * 200000)
  have h3 := key n
  have h4 := hc n
  have : (t1 - t0) < n * (1 / 200000) := by linarith
  linarith

/-- The time loop is left at the latest when the samples have left the range. -/
theorem timeLoop_ends (C : Cfg) (H : History) (n : ℕ) : ∀ s : TSt, C.jd1 < sample C.next s.t n →
    ∀ s', timeLoop C H (n + 1) s ≠ .run s' := by
  induction n with
  | zero =>
    intro s h s' e
    have h : C.jd1 < s.t := h
    unfold timeLoop timeStep at e
    rw [if_neg (not_le.mpr h)] at e
    simp at e
  | succ n ih =>
    intro s h s' e
    rw [timeLoop] at e
    cases hst : timeStep C H s with
    | run u =>
      rw [hst] at e
      refine ih u ?_ s' e
      have hu : u.t = C.next s.t := by
        unfold timeStep at hst
        unfold inField at hst
        dsimp only at hst
        split_ifs at hst <;> (injection hst with hst; subst hst; rfl)
      rw [hu]
      exact h
    | over u => rw [hst] at e; simp at e
    | outOfRange u => rw [hst] at e; simp at e

/-- **C60** (partial).  For steps of at least one second, and all ranges that `-d` and `-j` can set (MJD up
to 10^9 in size), skipping the daytime and the time loop end after finitely many steps, whatever the
satellite does.  (Missing: steps of less than one second, including `-t 0.5`, are zero and the loop does not
end, see `C60_zero_violated`.) -/
theorem C60_positive_partial (C : Cfg) (H : History) (h1 : 1 ≤ C.dt) (h2 : C.dt ≤ 2147483647) (h0 : -2 ^ 30 ≤ C.jd0)
    (ht : C.jd1 ≤ 2 ^ 30) : ∃ t0 n, Begins C H t0 ∧ ∀ s, timeLoop C H n { t := t0 } ≠ .run s := by
  have hd : 1 / 100000 ≤ C.d ∧ C.d ≤ 2 ^ 30 := by
    have g1 : (1 : ℚ) ≤ C.dt := by exact_mod_cast h1
    have g2 : (C.dt : ℚ) ≤ 2147483647 := by exact_mod_cast h2
    have g3 : (1 : ℚ) / 86400 ≤ (C.dt : ℚ) / 86400 := by gcongr
    have g4 : (C.dt : ℚ) / 86400 ≤ 2147483647 / 86400 := by gcongr
    have := rnd_wide C.F (x := (C.dt : ℚ) / 86400) (by
      rw [abs_le]; norm_num at g3 g4 ⊢; constructor <;> linarith)
    obtain ⟨a, b⟩ := abs_le.mp this
    unfold Cfg.d
    norm_num at a b g3 g4 ⊢
    constructor <;> linarith
  have hbeg : ∃ t0, Begins C H t0 ∧ -2 ^ 30 ≤ t0 := by
    cases hk : C.skipDay with
    | false => exact ⟨C.jd0, by unfold Begins; rw [if_neg (by rw [hk]; decide)], h0⟩
    | true =>
      have hstep : 1 / 100000 ≤ C.F.rnd (7 / 10000) ∧ C.F.rnd (7 / 10000) ≤ 2 ^ 30 := by
        have := rnd_wide C.F (x := 7 / 10000) (by rw [abs_of_pos (by norm_num)]; norm_num)
        obtain ⟨a, b⟩ := abs_le.mp this
        norm_num at a b ⊢
        constructor <;> linarith
      obtain ⟨n, hn⟩ := leaves C.F hstep.1 hstep.2 ht h0
      have key : ∀ (n : ℕ) (t : ℚ), -2 ^ 30 ≤ t → C.jd1 < sample (fun t => C.F.rnd (t + C.F.rnd (7 / 10000))) t n →
          ∃ t0, skipLoop C H (n + 1) t = some t0 ∧ -2 ^ 30 ≤ t0 := by
        intro n
        induction n with
        | zero =>
          intro t hl h
          have h : C.jd1 < t := h
          refine ⟨t, ?_, hl⟩
          unfold skipLoop skipStep
          rw [if_pos (Or.inr h)]
        | succ n ih =>
          intro t hl h
          by_cases hc : H.sunAlt t < 0 ∨ t > C.jd1
          · refine ⟨t, ?_, hl⟩
            unfold skipLoop skipStep
            rw [if_pos hc]
          · have hle : t ≤ C.jd1 := by
              push Not at hc; exact hc.2
            obtain ⟨t0, e, hb⟩ := ih (C.F.rnd (t + C.F.rnd (7 / 10000))) (by
              have := rnd_wide C.F (x := t + C.F.rnd (7 / 10000)) (by
                rw [abs_le]; norm_num at hl hle ht ⊢; norm_num at hstep; constructor <;> linarith [hstep.1, hstep.2])
              obtain ⟨a, -⟩ := abs_le.mp this
              norm_num at a hl ⊢
              norm_num at hstep
              linarith [hstep.1]) h
            refine ⟨t0, ?_, hb⟩
            rw [skipLoop]
            unfold skipStep
            rw [if_neg hc]
            exact e
      obtain ⟨t0, e, hb⟩ := key n C.jd0 h0 hn
      exact ⟨t0, by unfold Begins; rw [if_pos hk]; exact ⟨n + 1, e⟩, hb⟩
  obtain ⟨t0, hb, hlo⟩ := hbeg
  obtain ⟨n, hn⟩ := leaves C.F hd.1 hd.2 ht hlo
  exact ⟨t0, n + 1, hb, timeLoop_ends C H n { t := t0 } hn⟩

/-- **C60** fails: with step 0 (`-t 0`, `-t 0.5`, `-t x`) the loop never ends, for every range that is not
empty and every satellite (no altitude filter). -/
theorem C60_zero_violated (F : Fl64) (H : History) (j0 : ℤ) (hj : |j0| ≤ 2 ^ 40) (j1 radius : ℚ) (hle : (j0 : ℚ) ≤ j1) :
    ∀ n, ∃ s, timeLoop { F := F, jd0 := j0, jd1 := j1, dt := 0, radius := radius, filter := false, altMin := 0, altMax := 0, skipDay := false }
      H n { t := j0 } = .run s := by
  have e0 : F.rnd 0 = 0 := by simpa using F.exact 0 0 (by norm_num) (by norm_num)
  have e1 : F.rnd (j0 : ℚ) = j0 := by
    have := F.exact j0 0 (le_trans hj (by norm_num)) (by norm_num)
    simpa using this
  have key : ∀ (n : ℕ) (s : TSt), s.t = j0 → s.endFound = false → (s.startFound = true → H.sep j0 ≤ radius ∧ H.lit j0 = true) →
      ∃ s', timeLoop { F := F, jd0 := j0, jd1 := j1, dt := 0, radius := radius, filter := false, altMin := 0, altMax := 0, skipDay := false }
        H n s = .run s' := by
    intro n
    induction n with
    | zero => intro s _ _ _; exact ⟨s, rfl⟩
    | succ n ih =>
      intro s ht he hst
      have hnext : ∀ C : Cfg, C.F = F → C.dt = 0 → C.next (j0 : ℚ) = j0 := by
        intro C hF hd
        simp [Cfg.next, Cfg.d, hF, hd, e0, e1]
      by_cases hr : H.sep s.t > radius
      · by_cases hsf : s.startFound = false
        · simp only [timeLoop, timeStep, ht, hle, if_true, Bool.false_eq_true, false_and, if_false]
          rw [ht] at hr
          simp only [hr, hsf, if_true]
          exact ih _ (hnext _ rfl rfl) he (by simp)
        · have := (hst (by simpa using hsf)).1
          rw [ht] at hr
          exact absurd this (not_le.mpr hr)
      · rw [ht] at hr
        simp only [timeLoop, timeStep, ht, hle, if_true, Bool.false_eq_true, false_and, if_false, hr, inField]
        have hr' := not_lt.mp hr
        cases hl : H.lit j0 with
        | false =>
          have hsf : s.startFound = false := by
            cases h : s.startFound with
            | false => rfl
            | true => exact absurd (hl.symm.trans (hst h).2) (by decide)
          simp only [hsf, Bool.false_eq_true, and_false, if_false, if_true]
          exact ih _ (hnext _ rfl rfl) he (by simp)
        | true =>
          by_cases hm : H.sep j0 < s.minSep
          · cases hsf : s.startFound with
            | false =>
              simp only [hm, and_self, if_true, Bool.true_eq_false, if_false]
              exact ih _ (hnext _ rfl rfl) he (fun _ => ⟨hr', hl⟩)
            | true =>
              simp only [hm, and_self, if_true, Bool.true_eq_false, if_false]
              exact ih _ (hnext _ rfl rfl) he (fun _ => ⟨hr', hl⟩)
          · cases hsf : s.startFound with
            | false =>
              simp only [hm, false_and, if_true, Bool.true_eq_false, if_false]
              exact ih _ (hnext _ rfl rfl) he (fun _ => ⟨hr', hl⟩)
            | true =>
              simp only [hm, false_and, Bool.true_eq_false, if_false]
              exact ih _ (hnext _ rfl rfl) he (fun _ => ⟨hr', hl⟩)
  intro n
  exact key n { t := j0 } rfl rfl (by simp)

end SatSky.Props
