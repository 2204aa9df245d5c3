import Verif.Props.DeepLoop

/-! What `SDP4` answers after other calls: C101 (epoch), C102 (no forces), C103 (independence of the calls made before, in the "Dundee" mode). -/

namespace SatSky.Props

open SatSky.Spec SatSky.Sxp Real

/-! ### The "Dundee" mode: only whole steps are kept -/

/-- The step of the integration, where the array is not overrun. -/
noncomputable def adv (cfg : Cfg) (c : Deep) (atime : ℝ) (p : ℝ × ℝ) (h : ℝ) : ℝ × ℝ := (dpsecStep cfg c atime p.1 p.2 h).getD p

theorem step_adv {cfg : Cfg} (ho : cfg.order ≤ 20) (c : Deep) (atime : ℝ) (p : ℝ × ℝ) (h : ℝ) :
    dpsecStep cfg c atime p.1 p.2 h = some (adv cfg c atime p h) := by
  obtain ⟨q, hq⟩ := step_some ho c atime p.1 p.2 h
  unfold adv
  rw [hq]
  rfl

theorem adv_zero {cfg : Cfg} (ho : cfg.order ≤ 20) (c : Deep) (atime : ℝ) (p : ℝ × ℝ) : adv cfg c atime p 0 = p := step_zero (step_adv ho c atime p 0)

/-- The longitude and mean motion after `k` whole steps of length `h` from the epoch. -/
noncomputable def whole (cfg : Cfg) (c : Deep) (h : ℝ) : ℕ → ℝ × ℝ
  | 0 => (c.xlamo, c.xnq)
  | k + 1 => adv cfg c (k * h) (whole cfg c h k) h

/-- The loop started after `k` whole steps. -/
noncomputable def loopAt (cfg : Cfg) (c : Deep) (h t : ℝ) (fuel k : ℕ) : Option ((ℝ × ℝ) × ℝ × ℝ × ℝ) :=
  dpsecLoop cfg c t fuel (k * h) (whole cfg c h k).1 (whole cfg c h k).2

/-- `h` is a step towards `t`, at least `k` of them away. -/
def Ahead (cfg : Cfg) (h t : ℝ) (k : ℕ) : Prop := (h = cfg.step ∧ k * h ≤ t) ∨ (h = -cfg.step ∧ t ≤ k * h)

/-- One pass of the loop: another whole step, or the last part. -/
theorem loopAt_succ {cfg : Cfg} (hs : 0 < cfg.step) (ho : cfg.order ≤ 20) (hd : cfg.dundee = true) (c : Deep) {h t : ℝ} {k : ℕ}
    (ha : Ahead cfg h t k) (fuel : ℕ) : loopAt cfg c h t (fuel + 1) k =
      if cfg.step < |t - k * h| then loopAt cfg c h t fuel (k + 1)
      else some (adv cfg c (k * h) (whole cfg c h k) (t - k * h), k * h, whole cfg c h k) := by
  have hk : (((k + 1 : ℕ) : ℝ)) * h = k * h + h := by push_cast; ring
  unfold loopAt
  rw [hk]
  conv_lhs => unfold dpsecLoop
  dsimp only
  rcases ha with ⟨rfl, h1⟩ | ⟨rfl, h1⟩
  · rw [abs_of_nonneg (by linarith)]
    by_cases h2 : cfg.step < t - k * cfg.step
    · rw [if_pos h2, if_pos h2, step_adv ho]
      rfl
    · rw [if_neg h2, if_neg (by linarith), if_neg h2, step_adv ho, hd]
      rfl
  · rw [abs_of_nonpos (by linarith)]
    by_cases h2 : cfg.step < -(t - k * -cfg.step)
    · rw [if_neg (by linarith), if_pos (by linarith), if_pos h2, step_adv ho]
      rfl
    · rw [if_neg (by linarith), if_neg (by linarith), if_neg h2, step_adv ho, hd]
      rfl

theorem Ahead.next {cfg : Cfg} {h t : ℝ} {k : ℕ} (ha : Ahead cfg h t k) (hk : cfg.step ≤ |t - k * h|) : Ahead cfg h t (k + 1) := by
  rcases ha with ⟨rfl, h1⟩ | ⟨rfl, h1⟩
  · left
    rw [abs_of_nonneg (by linarith)] at hk
    refine ⟨rfl, ?_⟩
    push_cast
    linarith
  · right
    rw [abs_of_nonpos (by linarith)] at hk
    refine ⟨rfl, ?_⟩
    push_cast
    linarith

theorem Ahead.prev {cfg : Cfg} (hs : 0 < cfg.step) {h t : ℝ} {k : ℕ} (ha : Ahead cfg h t (k + 1)) : Ahead cfg h t k ∧ cfg.step ≤ |t - k * h| := by
  rcases ha with ⟨rfl, h1⟩ | ⟨rfl, h1⟩
  · push_cast at h1
    refine ⟨Or.inl ⟨rfl, by linarith⟩, ?_⟩
    rw [abs_of_nonneg (by linarith)]
    linarith
  · push_cast at h1
    refine ⟨Or.inr ⟨rfl, by linarith⟩, ?_⟩
    rw [abs_of_nonpos (by linarith)]
    linarith

/-- The loop keeps a number of whole steps. -/
theorem loopAt_kept {cfg : Cfg} (hs : 0 < cfg.step) (ho : cfg.order ≤ 20) (hd : cfg.dundee = true) (c : Deep) {h t : ℝ} :
    ∀ (fuel k : ℕ), Ahead cfg h t k → ∀ {v : ℝ × ℝ} {st : ℝ × ℝ × ℝ}, loopAt cfg c h t fuel k = some (v, st) → ∃ j : ℕ, st = (j * h, whole cfg c h j)
  | 0, _, _, _, _, hl => by unfold loopAt dpsecLoop at hl; cases hl
  | fuel + 1, k, ha, v, st, hl => by
    rw [loopAt_succ hs ho hd c ha] at hl
    split_ifs at hl with h1
    · exact loopAt_kept hs ho hd c fuel (k + 1) (ha.next h1.le) hl
    · rw [Option.some.injEq, Prod.mk.injEq] at hl
      exact ⟨k, hl.2.symm⟩

/-- The result of the loop for `t`. -/
def LoopValue (cfg : Cfg) (c : Deep) (h t : ℝ) (k : ℕ) (v : ℝ × ℝ) : Prop := ∃ fuel st, loopAt cfg c h t fuel k = some (v, st)

theorem loopValue_unique {cfg : Cfg} (hs : 0 < cfg.step) (ho : cfg.order ≤ 20) (hd : cfg.dundee = true) (c : Deep) {h t : ℝ} {v v' : ℝ × ℝ} :
    ∀ (fuel fuel' k : ℕ) (st st' : ℝ × ℝ × ℝ), Ahead cfg h t k → loopAt cfg c h t fuel k = some (v, st) → loopAt cfg c h t fuel' k = some (v', st') →
      v = v'
  | 0, _, _, _, _, _, h1, _ => by unfold loopAt dpsecLoop at h1; cases h1
  | _ + 1, 0, _, _, _, _, _, h2 => by unfold loopAt dpsecLoop at h2; cases h2
  | fuel + 1, fuel' + 1, k, st, st', ha, h1, h2 => by
    rw [loopAt_succ hs ho hd c ha] at h1 h2
    by_cases hc : cfg.step < |t - k * h|
    · rw [if_pos hc] at h1 h2
      exact loopValue_unique hs ho hd c fuel fuel' (k + 1) st st' (ha.next hc.le) h1 h2
    · rw [if_neg hc, Option.some.injEq, Prod.mk.injEq] at h1 h2
      exact h1.1.symm.trans h2.1

/-- Starting a step later does not change the result. -/
theorem loopValue_succ {cfg : Cfg} (hs : 0 < cfg.step) (ho : cfg.order ≤ 20) (hd : cfg.dundee = true) (c : Deep) {h t : ℝ} {k : ℕ}
    (ha : Ahead cfg h t (k + 1)) {v : ℝ × ℝ} (hv : LoopValue cfg c h t (k + 1) v) : LoopValue cfg c h t k v := by
  obtain ⟨hk, hle⟩ := ha.prev hs
  obtain ⟨fuel, st, hl⟩ := hv
  by_cases hc : cfg.step < |t - k * h|
  · exact ⟨fuel + 1, st, by rw [loopAt_succ hs ho hd c hk, if_pos hc]; exact hl⟩
  · have he : |t - k * h| = cfg.step := le_antisymm (not_lt.mp hc) hle
    have ht : t - k * h = h := by
      rcases hk with ⟨rfl, h1⟩ | ⟨rfl, h1⟩
      · rwa [abs_of_nonneg (by linarith)] at he
      · rw [abs_of_nonpos (by linarith)] at he
        linarith
    have h0 : t - ((k + 1 : ℕ) : ℝ) * h = 0 := by push_cast; linarith
    cases fuel with
    | zero => unfold loopAt dpsecLoop at hl; cases hl
    | succ fuel =>
      rw [loopAt_succ hs ho hd c ha, h0, abs_zero, if_neg (not_lt.mpr hs.le), adv_zero ho, Option.some.injEq, Prod.mk.injEq] at hl
      refine ⟨1, (k * h, whole cfg c h k), ?_⟩
      rw [loopAt_succ hs ho hd c hk, if_neg hc, ht, ← hl.1]
      rfl

theorem loopValue_zero {cfg : Cfg} (hs : 0 < cfg.step) (ho : cfg.order ≤ 20) (hd : cfg.dundee = true) (c : Deep) {h t : ℝ} {v : ℝ × ℝ} :
    ∀ k, Ahead cfg h t k → LoopValue cfg c h t k v → LoopValue cfg c h t 0 v
  | 0, _, hv => hv
  | k + 1, ha, hv => loopValue_zero hs ho hd c k (ha.prev hs).1 (loopValue_succ hs ho hd c ha hv)

/-- What is kept in "Dundee" mode: a number of whole steps forwards or backwards. -/
def Whole (cfg : Cfg) (c : Deep) (st : ℝ × ℝ × ℝ) : Prop := ∃ h, (h = cfg.step ∨ h = -cfg.step) ∧ ∃ k : ℕ, st = (k * h, whole cfg c h k)

theorem whole_start (cfg : Cfg) (c : Deep) : Whole cfg c (0, c.xlamo, c.xnq) := ⟨cfg.step, Or.inl rfl, 0, by simp [whole]⟩

/-- The integration starts a number of whole steps from the epoch on the way to `t`. -/
theorem restart_whole {cfg : Cfg} (hs : 0 < cfg.step) (hd : cfg.dundee = true) {c : Deep} {s : State} (hw : Whole cfg c s.integ) (t : ℝ) :
    ∃ h, (h = cfg.step ∨ h = -cfg.step) ∧ Ahead cfg h t 0 ∧ ∃ k : ℕ, Ahead cfg h t k ∧ restart cfg c s t = (k * h, whole cfg c h k) := by
  have h0 : ∃ h, (h = cfg.step ∨ h = -cfg.step) ∧ Ahead cfg h t 0 := by
    by_cases ht : 0 ≤ t
    · exact ⟨cfg.step, Or.inl rfl, Or.inl ⟨rfl, by simpa using ht⟩⟩
    · exact ⟨-cfg.step, Or.inr rfl, Or.inr ⟨rfl, by simpa using (not_le.mp ht).le⟩⟩
  obtain ⟨g, hg, hg0⟩ := h0
  have base : ∀ st : ℝ × ℝ × ℝ, st = (0, c.xlamo, c.xnq) → restart cfg c s t = st →
      ∃ h, (h = cfg.step ∨ h = -cfg.step) ∧ Ahead cfg h t 0 ∧ ∃ k : ℕ, Ahead cfg h t k ∧ restart cfg c s t = (k * h, whole cfg c h k) := by
    intro st h1 h2
    exact ⟨g, hg, hg0, 0, hg0, by rw [h2, h1]; simp [whole]⟩
  by_cases hr : |t| < |t - s.atime| ∨ (cfg.dundee = true ∧ |t| < |s.atime|)
  · exact base _ rfl (by unfold restart; rw [if_pos hr])
  · have hre : restart cfg c s t = s.integ := by unfold restart; rw [if_neg hr]; rfl
    obtain ⟨h, hh, k, hk⟩ := hw
    rcases Nat.eq_zero_or_pos k with rfl | hk0
    · refine base s.integ ?_ hre
      rw [hk]; simp [whole]
    · push Not at hr
      have h1 := hr.1
      have h2 := hr.2 hd
      have hat : s.atime = k * h := congrArg Prod.fst hk
      rw [hat] at h1 h2
      have hkp : (0 : ℝ) < k := by exact_mod_cast hk0
      have hks : 0 < k * cfg.step := mul_pos hkp hs
      have ha : Ahead cfg h t k ∧ Ahead cfg h t 0 := by
        rcases hh with rfl | rfl
        · have hpos : 0 < t := by
            by_contra hn
            push Not at hn
            rw [abs_of_nonpos (by linarith : t - k * cfg.step ≤ 0), abs_of_nonpos hn] at h1
            linarith
          rw [abs_of_pos hks, abs_of_pos hpos] at h2
          exact ⟨Or.inl ⟨rfl, h2⟩, Or.inl ⟨rfl, by simpa using hpos.le⟩⟩
        · have hneg : t < 0 := by
            by_contra hn
            push Not at hn
            rw [abs_of_nonneg (by linarith : (0:ℝ) ≤ t - k * -cfg.step), abs_of_nonneg hn] at h1
            linarith
          rw [mul_neg, abs_neg, abs_of_pos hks, abs_of_neg hneg] at h2
          exact ⟨Or.inr ⟨rfl, by linarith⟩, Or.inr ⟨rfl, by simpa using hneg.le⟩⟩
      exact ⟨h, hh, ha.2, k, ha.1, hre.trans hk⟩

/-- Every call leaves a number of whole steps. -/
theorem whole_calls {fuel : ℕ} {cfg : Cfg} (hs : 0 < cfg.step) (ho : cfg.order ≤ 20) (hd : cfg.dundee = true) {c : Deep} {e : Elem} {ts : List ℝ}
    {s s' : State} (h0 : Whole cfg c s.integ) (hc : calls fuel cfg c e ts s = some s') : Whole cfg c s'.integ := by
  refine calls_inv (Whole cfg c) ?_ ts s s' h0 hc
  intro s s1 t w w' hw hdp
  by_cases hr : c.res = .none
  · unfold Deep_dpsec at hdp
    dsimp only at hdp
    rw [if_pos hr, Option.some.injEq, Prod.mk.injEq] at hdp
    rwa [← hdp.1]
  · obtain ⟨l, n, hl, -⟩ := dpsec_steps hr hdp
    obtain ⟨h, hh, -, k, hk, hre⟩ := restart_whole hs hd hw t
    rw [hre] at hl
    obtain ⟨j, hj⟩ := loopAt_kept hs ho hd c fuel k hk (v := (l, n)) hl
    exact ⟨h, hh, j, hj⟩

/-- The long-period part of the answer depends on the time only. -/
theorem dpsec_whole {f1 f2 : ℕ} {cfg : Cfg} (hs : 0 < cfg.step) (ho : cfg.order ≤ 20) (hd : cfg.dundee = true) {c : Deep} {e : Elem} {a b a' b' : State}
    {t : ℝ} {w wa wb : Work} (ha : Whole cfg c a.integ) (hb : Whole cfg c b.integ) (h1 : Deep_dpsec f1 cfg c e a t w = some (a', wa))
    (h2 : Deep_dpsec f2 cfg c e b t w = some (b', wb)) : wa = wb := by
  by_cases hr : c.res = .none
  · unfold Deep_dpsec at h1 h2
    dsimp only at h1 h2
    rw [if_pos hr, Option.some.injEq, Prod.mk.injEq] at h1 h2
    exact h1.2.symm.trans h2.2
  · obtain ⟨l, n, hl, rfl⟩ := dpsec_steps hr h1
    obtain ⟨l', n', hl', rfl⟩ := dpsec_steps hr h2
    have key : ∀ (s : State) (fuel : ℕ) (v : ℝ × ℝ) st, Whole cfg c s.integ →
        dpsecLoop cfg c t fuel (restart cfg c s t).1 (restart cfg c s t).2.1 (restart cfg c s t).2.2 = some (v, st) →
        ∃ h, (h = cfg.step ∨ h = -cfg.step) ∧ Ahead cfg h t 0 ∧ LoopValue cfg c h t 0 v := by
      intro s fuel v st hw hv
      obtain ⟨h, hh, h0, k, hk, hre⟩ := restart_whole hs hd hw t
      rw [hre] at hv
      exact ⟨h, hh, h0, loopValue_zero hs ho hd c k hk ⟨fuel, st, hv⟩⟩
    obtain ⟨h, hh, h0, g1, s1, hv⟩ := key a f1 (l, n) _ ha hl
    obtain ⟨h', hh', h0', g2, s2, hv'⟩ := key b f2 (l', n') _ hb hl'
    have : (l, n) = (l', n') := by
      by_cases hhe : h = h'
      · subst hhe
        exact loopValue_unique hs ho hd c _ _ 0 _ _ h0 hv hv'
      · -- both directions lead to `t`: it is the epoch
        have ht : t = 0 := by
          rcases h0 with ⟨rfl, g⟩ | ⟨rfl, g⟩ <;> rcases h0' with ⟨rfl, g'⟩ | ⟨rfl, g'⟩ <;> simp at g g' hhe <;> linarith
        subst ht
        have val : ∀ (h : ℝ) (fuel : ℕ) v st, Ahead cfg h 0 0 → loopAt cfg c h 0 fuel 0 = some (v, st) → v = (c.xlamo, c.xnq) := by
          intro h fuel v st ha hv
          cases fuel with
          | zero => unfold loopAt dpsecLoop at hv; cases hv
          | succ fuel =>
            rw [loopAt_succ hs ho hd c ha, if_neg (by simpa using hs.le), Option.some.injEq, Prod.mk.injEq] at hv
            rw [← hv.1]
            simp only [Nat.cast_zero, zero_mul, sub_zero]
            rw [adv_zero ho]
            rfl
        rw [val h _ _ _ h0 hv, val h' _ _ _ h0' hv']
    rw [Prod.mk.injEq] at this
    rw [this.1, this.2]

/-- In "Dundee" mode the periodic terms are those of the time asked for. -/
theorem refresh_dundee {cfg : Cfg} (hd : cfg.dundee = true) (c : Deep) (s : State) (t : ℝ) : (refresh cfg c s t).per = periodic c t := by
  unfold refresh
  rw [if_pos (by simp [hd])]

/-- C103: whatever was asked for before, the code, position and velocity for `t` are those of a first call for `t`. -/
theorem C103_dundee {f f1 f2 : ℕ} {cfg : Cfg} (hs : 0 < cfg.step) (ho : cfg.order ≤ 20) (hd : cfg.dundee = true) {c : Deep} {e : Elem} {ts : List ℝ}
    {p p' : Periodic} {s s1 s2 : State} {t : ℝ} {r1 r2 : ℤ × Option (V3 × V3)} (hc : calls f cfg c e ts (Deep.start c p) = some s)
    (h1 : SDP4 f1 cfg c e s t = some (s1, r1)) (h2 : SDP4 f2 cfg c e (Deep.start c p') t = some (s2, r2)) : r1 = r2 := by
  have h0 : Whole cfg c (Deep.start c p).integ := whole_start cfg c
  have hw : Whole cfg c s.integ := whole_calls hs ho hd h0 hc
  have hw' : Whole cfg c (Deep.start c p').integ := whole_start cfg c
  unfold SDP4 at h1 h2
  obtain ⟨⟨a', wa⟩, d1, h1⟩ := Option.map_eq_some_iff.mp h1
  obtain ⟨⟨b', wb⟩, d2, h2⟩ := Option.map_eq_some_iff.mp h2
  have := dpsec_whole hs ho hd hw hw' d1 d2
  subst this
  dsimp only at h1 h2
  by_cases hn : wa.xn < 0
  · rw [if_pos hn, Prod.mk.injEq] at h1 h2
    exact h1.2.symm.trans h2.2
  · rw [if_neg hn, Prod.mk.injEq] at h1 h2
    rw [← h1.2, ← h2.2]
    unfold Deep_dpper
    dsimp only
    rw [refresh_dundee hd, refresh_dundee hd]

/-! ### The epoch -/

/-- In the default mode the integration is kept at the time asked for. -/
theorem loop_atime {cfg : Cfg} (hd : cfg.dundee = false) (c : Deep) (t : ℝ) :
    ∀ (fuel : ℕ) (atime xli xni : ℝ) (v : ℝ × ℝ) (st : ℝ × ℝ × ℝ), dpsecLoop cfg c t fuel atime xli xni = some (v, st) → st = (t, v)
  | 0, _, _, _, _, _, h => by unfold dpsecLoop at h; cases h
  | fuel + 1, atime, xli, xni, v, st, h => by
    unfold dpsecLoop at h
    dsimp only at h
    split_ifs at h
    · obtain ⟨p, -, h⟩ := Option.bind_eq_some_iff.mp h
      exact loop_atime hd c t fuel _ _ _ v st h
    · obtain ⟨p, -, h⟩ := Option.bind_eq_some_iff.mp h
      exact loop_atime hd c t fuel _ _ _ v st h
    · rename_i h1
      rw [hd] at h1
      cases h1
    · obtain ⟨p, -, h⟩ := Option.map_eq_some_iff.mp h
      rw [Prod.mk.injEq] at h
      rw [← h.1, ← h.2]
      simp

/-- What is kept at the epoch is the epoch's. -/
def AtEpoch (c : Deep) (st : ℝ × ℝ × ℝ) : Prop := st.1 = 0 → st.2 = (c.xlamo, c.xnq)

/-- For the time of the epoch the integration does not move. -/
theorem loop_epoch {cfg : Cfg} (hs : 0 < cfg.step) {c : Deep} {s : State} (h : AtEpoch c s.integ) {fuel : ℕ} {v : ℝ × ℝ} {st : ℝ × ℝ × ℝ}
    (hl : dpsecLoop cfg c 0 fuel (restart cfg c s 0).1 (restart cfg c s 0).2.1 (restart cfg c s 0).2.2 = some (v, st)) :
    v = (c.xlamo, c.xnq) ∧ st = (0, c.xlamo, c.xnq) := by
  have hre : restart cfg c s 0 = (0, c.xlamo, c.xnq) := by
    unfold restart
    split_ifs with h1
    · rfl
    · push Not at h1
      have h2 := h1.1
      rw [zero_sub, abs_neg, abs_zero] at h2
      have h3 : s.atime = 0 := abs_eq_zero.mp (le_antisymm h2 (abs_nonneg _))
      have h4 := h h3
      unfold State.integ at h4
      dsimp only at h4
      rw [h3, h4]
  rw [hre] at hl
  cases fuel with
  | zero => unfold dpsecLoop at hl; cases hl
  | succ fuel =>
    unfold dpsecLoop at hl
    dsimp only at hl
    rw [sub_zero, if_neg (by linarith), if_neg (by linarith)] at hl
    obtain ⟨p, hp, hl⟩ := Option.map_eq_some_iff.mp hl
    have := step_zero hp
    subst this
    dsimp only at hl
    rw [Prod.mk.injEq] at hl
    refine ⟨hl.1.symm, ?_⟩
    rw [← hl.2]
    split_ifs <;> simp

theorem epoch_calls {fuel : ℕ} {cfg : Cfg} (hs : 0 < cfg.step) (ho : cfg.order ≤ 20) {c : Deep} {e : Elem} {ts : List ℝ} {p : Periodic} {s : State}
    (hc : calls fuel cfg c e ts (Deep.start c p) = some s) : AtEpoch c s.integ := by
  by_cases hd : cfg.dundee = true
  · have h0 : Whole cfg c (Deep.start c p).integ := whole_start cfg c
    obtain ⟨h, hh, k, hk⟩ := whole_calls hs ho hd h0 hc
    intro h1
    rw [hk] at h1 ⊢
    dsimp only at h1
    have hne : h ≠ 0 := by rcases hh with rfl | rfl <;> [exact hs.ne'; exact neg_ne_zero.mpr hs.ne']
    have : k = 0 := by exact_mod_cast (mul_eq_zero.mp h1).resolve_right hne
    subst this
    rfl
  · refine calls_inv (AtEpoch c) ?_ ts _ s (fun _ => rfl) hc
    intro s s1 t w w' hw hdp
    by_cases hr : c.res = .none
    · unfold Deep_dpsec at hdp
      dsimp only at hdp
      rw [if_pos hr, Option.some.injEq, Prod.mk.injEq] at hdp
      rwa [← hdp.1]
    · obtain ⟨l, n, hl, -⟩ := dpsec_steps hr hdp
      by_cases ht : t = 0
      · subst ht
        rw [(loop_epoch hs hw hl).2]
        exact fun _ => rfl
      · rw [loop_atime (by simpa using hd) c t _ _ _ _ _ _ hl]
        exact fun h => absurd h ht

/-- C101: for the time of the epoch the long-period part gives the elements themselves, whatever was asked for before and for every step and
order. -/
theorem C101_epoch {f f1 : ℕ} {cfg : Cfg} (hs : 0 < cfg.step) (ho : cfg.order ≤ 20) {e : Elem} {ts : List ℝ} {p : Periodic} {s s1 : State} {w : Work}
    (hc : calls f cfg (SDP4_init e) e ts (Deep.start (SDP4_init e) p) = some s)
    (h : Deep_dpsec f1 cfg (SDP4_init e) e s 0 (secular (SDP4_init e) e 0) = some (s1, w)) :
    w = { xll := e.xmo, omgadf := e.omegao, xnode := e.xnodeo, em := e.eo, xinc := e.xincl, xn := (sxpx_common_init e).xnodp } := by
  have hi := epoch_calls hs ho hc
  by_cases hr : (SDP4_init e).res = .none
  · unfold Deep_dpsec at h
    dsimp only at h
    rw [if_pos hr, Option.some.injEq, Prod.mk.injEq] at h
    rw [← h.2]
    unfold secular
    simp only [mul_zero, add_zero]
    rfl
  · obtain ⟨l, n, hl, rfl⟩ := dpsec_steps hr h
    obtain ⟨h1, -⟩ := loop_epoch hs hi hl
    rw [Prod.mk.injEq] at h1
    have hx : (SDP4_init e).xnq = (sxpx_common_init e).xnodp := rfl
    have ht : (SDP4_init e).thgr = ThetaG e.epoch := rfl
    have hl' : (SDP4_init e).xlamo = if (SDP4_init e).res = .full then e.xmo + e.xnodeo + e.omegao - ThetaG e.epoch
        else e.xmo + e.xnodeo + e.xnodeo - ThetaG e.epoch - ThetaG e.epoch := by
      have : (SDP4_init e).xlamo = match (SDP4_init e).res with
        | .half => e.xmo + e.xnodeo + e.xnodeo - ThetaG e.epoch - ThetaG e.epoch
        | _ => e.xmo + e.xnodeo + e.omegao - ThetaG e.epoch := rfl
      rw [this]
      cases hq : (SDP4_init e).res with
      | none => exact absurd hq hr
      | half => rfl
      | full => rfl
    rw [h1.1, h1.2, hl', hx, ht]
    unfold secular
    simp only [mul_zero, add_zero, zero_mul]
    congr 1
    split_ifs <;> ring

/-- Elements of a day and a half before and after have been asked for. -/
example (e : Elem) (p : Periodic) (s s1 : State) (w : Work) (hc : calls 100 Cfg.initial (SDP4_init e) e [2160, -2160] (Deep.start (SDP4_init e) p) = some s)
    (h : Deep_dpsec 100 Cfg.initial (SDP4_init e) e s 0 (secular (SDP4_init e) e 0) = some (s1, w)) : w.xll = e.xmo ∧ w.xn = (sxpx_common_init e).xnodp := by
  rw [C101_epoch (by unfold Cfg.initial; norm_num) (by unfold Cfg.initial; norm_num) hc h]
  exact ⟨rfl, rfl⟩

/-! ### Without forces -/

/-- The constants of a satellite with the coefficients of the resonance set to zero. -/
noncomputable def noForce (c : Deep) : Deep := { c with d := ⟨0, 0, 0, 0, 0, 0, 0, 0, 0, 0⟩, del1 := 0, del2 := 0, del3 := 0 }

theorem accel_noForce (c : Deep) (a : ℝ) : accel (noForce c) a = fun _ => 0 := by
  funext l
  unfold accel noForce
  split_ifs <;> simp [waves, fullWaves, halfWaves, Wave.at]

theorem step_noForce {cfg : Cfg} (h1 : 1 ≤ cfg.order) {c : Deep} {atime xli xni h : ℝ} {p : ℝ × ℝ}
    (hs : dpsecStep cfg (noForce c) atime xli xni h = some p) : p = (xli + h * (xni + c.xfact), xni) := by
  have hN : cfg.order = ((cfg.order - 1).toNat : ℤ) + 1 := by omega
  obtain ⟨e1, e2⟩ := C99_step hN (show dpsecStep cfg (noForce c) atime xli xni h = some (p.1, p.2) from hs)
  have hz : ∀ j, iteratedDeriv j (accel (noForce c) atime) xli = 0 := by
    intro j
    rw [accel_noForce]
    have : (fun _ : ℝ => (0 : ℝ)) = waves [] := by funext l; simp [waves]
    rw [this, iteratedDeriv_waves]
    simp [waves]
  simp only [hz, mul_zero, Finset.sum_const_zero, add_zero] at e1 e2
  exact Prod.ext e2 e1

/-- On the straight line through the epoch. -/
def Straight (c : Deep) (st : ℝ × ℝ × ℝ) : Prop := st.2 = (c.xlamo + st.1 * (c.xnq + c.xfact), c.xnq)

theorem loop_noForce {cfg : Cfg} (h1 : 1 ≤ cfg.order) (c : Deep) (t : ℝ) :
    ∀ (fuel : ℕ) (atime xli xni : ℝ) (v : ℝ × ℝ) (st : ℝ × ℝ × ℝ), Straight c (atime, xli, xni) →
      dpsecLoop cfg (noForce c) t fuel atime xli xni = some (v, st) → Straight c (t, v) ∧ Straight c st
  | 0, _, _, _, _, _, _, h => by unfold dpsecLoop at h; cases h
  | fuel + 1, atime, xli, xni, v, st, hS, h => by
    have hS' := hS
    unfold Straight at hS'
    dsimp only at hS'
    rw [Prod.mk.injEq] at hS'
    obtain ⟨rfl, rfl⟩ := hS'
    have go : ∀ h, Straight c (atime + h, c.xlamo + atime * (c.xnq + c.xfact) + h * (c.xnq + c.xfact), c.xnq) := by
      intro h
      unfold Straight
      ext
      · dsimp only; ring
      · rfl
    unfold dpsecLoop at h
    dsimp only at h
    split_ifs at h with a1 a2 a3
    · obtain ⟨p, hp, h⟩ := Option.bind_eq_some_iff.mp h
      rw [step_noForce h1 hp] at h
      exact loop_noForce h1 c t fuel _ _ _ v st (go _) h
    · obtain ⟨p, hp, h⟩ := Option.bind_eq_some_iff.mp h
      rw [step_noForce h1 hp] at h
      exact loop_noForce h1 c t fuel _ _ _ v st (go _) h
    · obtain ⟨p, hp, h⟩ := Option.map_eq_some_iff.mp h
      rw [step_noForce h1 hp, Prod.mk.injEq] at h
      have g := go (t - atime)
      rw [add_sub_cancel] at g
      rw [← h.1, ← h.2]
      exact ⟨g, hS⟩
    · obtain ⟨p, hp, h⟩ := Option.map_eq_some_iff.mp h
      rw [step_noForce h1 hp, Prod.mk.injEq] at h
      have g := go (t - atime)
      rw [← h.1, ← h.2]
      refine ⟨?_, g⟩
      rwa [add_sub_cancel] at g

theorem restart_straight (cfg : Cfg) {c : Deep} {s : State} (h : Straight c s.integ) (t : ℝ) : Straight c (restart cfg (noForce c) s t) := by
  unfold restart
  split_ifs
  · unfold Straight
    simp [noForce]
  · exact h

theorem straight_calls {fuel : ℕ} {cfg : Cfg} (h1 : 1 ≤ cfg.order) {c : Deep} {e : Elem} {ts : List ℝ} {p : Periodic} {s : State}
    (hc : calls fuel cfg (noForce c) e ts (Deep.start (noForce c) p) = some s) : Straight c s.integ := by
  refine calls_inv (Straight c) ?_ ts _ s ?_ hc
  · intro s s1 t w w' hw hdp
    by_cases hr : (noForce c).res = .none
    · unfold Deep_dpsec at hdp
      dsimp only at hdp
      rw [if_pos hr, Option.some.injEq, Prod.mk.injEq] at hdp
      rwa [← hdp.1]
    · obtain ⟨l, n, hl, -⟩ := dpsec_steps hr hdp
      exact (loop_noForce h1 c t _ _ _ _ _ _ (restart_straight cfg hw t) hl).2
  · unfold Straight State.integ Deep.start
    simp [noForce]

/-- C102: with the coefficients of the resonance set to zero, whatever was asked for before and for every step and order, the integration gives
the motion of an orbit without resonance: the mean motion stays and the mean anomaly moves with the secular rates.  What differs is that the
quadratic drag term of the node, which the longitude does not know, is subtracted (once for synchronous, twice for 12-hour orbits). -/
theorem C102_secular {f f1 : ℕ} {cfg : Cfg} (h1 : 1 ≤ cfg.order) {e : Elem} {ts : List ℝ} {p : Periodic} {s s1 : State} {t : ℝ} {w : Work}
    (hc : calls f cfg (noForce (SDP4_init e)) e ts (Deep.start (noForce (SDP4_init e)) p) = some s)
    (h : Deep_dpsec f1 cfg (noForce (SDP4_init e)) e s t (secular (noForce (SDP4_init e)) e t) = some (s1, w)) :
    w.xn = (sxpx_common_init e).xnodp ∧
    w.xll = e.xmo + ((sxpx_common_init e).xmdot + (SDP4_init e).ssl) * t
      - (match (SDP4_init e).res with | .none => 0 | .full => 1 | .half => 2) * (sxpx_common_init e).xnodcf * t ^ 2 := by
  have hst := straight_calls h1 hc
  have hres : (noForce (SDP4_init e)).res = (SDP4_init e).res := rfl
  cases hr : (SDP4_init e).res with
  | none =>
    unfold Deep_dpsec at h
    dsimp only at h
    rw [hres, if_pos hr, Option.some.injEq, Prod.mk.injEq] at h
    rw [← h.2]
    unfold secular
    refine ⟨rfl, ?_⟩
    have e1 : (noForce (SDP4_init e)).i = sxpx_common_init e := rfl
    have e2 : (noForce (SDP4_init e)).ssl = (SDP4_init e).ssl := rfl
    dsimp only
    rw [e1, e2]
    ring
  | full =>
    obtain ⟨l, n, hl, rfl⟩ := dpsec_steps (by rw [hres, hr]; decide) h
    have hv := (loop_noForce h1 (SDP4_init e) t _ _ _ _ _ _ (restart_straight cfg hst t) hl).1
    unfold Straight at hv
    rw [Prod.mk.injEq] at hv
    have e1 : (noForce (SDP4_init e)).i = sxpx_common_init e := rfl
    have e2 : (noForce (SDP4_init e)).ssh = (SDP4_init e).ssh := rfl
    have e3 : (noForce (SDP4_init e)).ssg = (SDP4_init e).ssg := rfl
    have e4 : (noForce (SDP4_init e)).thgr = ThetaG e.epoch := rfl
    have e5 : (SDP4_init e).xnq = (sxpx_common_init e).xnodp := rfl
    have e6 : (SDP4_init e).xlamo = e.xmo + e.xnodeo + e.omegao - ThetaG e.epoch := by
      have : (SDP4_init e).xlamo = match (SDP4_init e).res with
        | .half => e.xmo + e.xnodeo + e.xnodeo - ThetaG e.epoch - ThetaG e.epoch
        | _ => e.xmo + e.xnodeo + e.omegao - ThetaG e.epoch := rfl
      rw [this, hr]
    have e7 : (SDP4_init e).xfact = (sxpx_common_init e).xmdot + (sxpx_common_init e).omgdot + (sxpx_common_init e).xnodot - thdt + (SDP4_init e).ssl
        + (SDP4_init e).ssg + (SDP4_init e).ssh - (sxpx_common_init e).xnodp := by
      have : (SDP4_init e).xfact = (match (SDP4_init e).res with
        | .half => (sxpx_common_init e).xmdot + (sxpx_common_init e).xnodot + (sxpx_common_init e).xnodot - thdt - thdt
          + ((SDP4_init e).ssl + (SDP4_init e).ssh + (SDP4_init e).ssh)
        | _ => (sxpx_common_init e).xmdot + (sxpx_common_init e).omgdot + (sxpx_common_init e).xnodot - thdt + (SDP4_init e).ssl + (SDP4_init e).ssg
          + (SDP4_init e).ssh) - (sxpx_common_init e).xnodp := rfl
      rw [this, hr]
    refine ⟨hv.2.trans e5, ?_⟩
    dsimp only
    rw [hres, hr, if_pos rfl, hv.1, e2, e3, e4, e5, e6, e7]
    unfold secular
    dsimp only
    rw [e1]
    ring
  | half =>
    obtain ⟨l, n, hl, rfl⟩ := dpsec_steps (by rw [hres, hr]; decide) h
    have hv := (loop_noForce h1 (SDP4_init e) t _ _ _ _ _ _ (restart_straight cfg hst t) hl).1
    unfold Straight at hv
    rw [Prod.mk.injEq] at hv
    have e1 : (noForce (SDP4_init e)).i = sxpx_common_init e := rfl
    have e2 : (noForce (SDP4_init e)).ssh = (SDP4_init e).ssh := rfl
    have e3 : (noForce (SDP4_init e)).ssg = (SDP4_init e).ssg := rfl
    have e4 : (noForce (SDP4_init e)).thgr = ThetaG e.epoch := rfl
    have e5 : (SDP4_init e).xnq = (sxpx_common_init e).xnodp := rfl
    have e6 : (SDP4_init e).xlamo = e.xmo + e.xnodeo + e.xnodeo - ThetaG e.epoch - ThetaG e.epoch := by
      have : (SDP4_init e).xlamo = match (SDP4_init e).res with
        | .half => e.xmo + e.xnodeo + e.xnodeo - ThetaG e.epoch - ThetaG e.epoch
        | _ => e.xmo + e.xnodeo + e.omegao - ThetaG e.epoch := rfl
      rw [this, hr]
    have e7 : (SDP4_init e).xfact = (sxpx_common_init e).xmdot + (sxpx_common_init e).xnodot + (sxpx_common_init e).xnodot - thdt - thdt
        + ((SDP4_init e).ssl + (SDP4_init e).ssh + (SDP4_init e).ssh) - (sxpx_common_init e).xnodp := by
      have : (SDP4_init e).xfact = (match (SDP4_init e).res with
        | .half => (sxpx_common_init e).xmdot + (sxpx_common_init e).xnodot + (sxpx_common_init e).xnodot - thdt - thdt
          + ((SDP4_init e).ssl + (SDP4_init e).ssh + (SDP4_init e).ssh)
        | _ => (sxpx_common_init e).xmdot + (sxpx_common_init e).omgdot + (sxpx_common_init e).xnodot - thdt + (SDP4_init e).ssl + (SDP4_init e).ssg
          + (SDP4_init e).ssh) - (sxpx_common_init e).xnodp := rfl
      rw [this, hr]
    refine ⟨hv.2.trans e5, ?_⟩
    dsimp only
    rw [hres, hr, if_neg (by decide), hv.1, e2, e4, e5, e6, e7]
    unfold secular
    dsimp only
    rw [e1]
    ring

/-- The call exists for the settings of the programs, ten days after the epoch. -/
example (e : Elem) (s : State) (w : Work) : (Deep_dpsec 30 Cfg.initial (noForce (SDP4_init e)) e s 14400 w).isSome :=
  C51_terminates (fuel := 29) (by unfold Cfg.initial; norm_num) (by unfold Cfg.initial; norm_num) _ e s w
    (by unfold Cfg.initial; norm_num [abs_of_pos])

end SatSky.Props
