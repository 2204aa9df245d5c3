import Verif.Model.High
import Mathlib.Tactic.LinearCombination

/-! C52, C53, C118: elements of type 'H'. -/

namespace SatSky.Props

open SatSky.High SatSky.Sxp

/-- The cache holds what belongs to its date, or has not been used. -/
def CacheOk (s : Cache) : Prop := s.currJd = 0 ∨ (s.lunar = (lunarSolar s.currJd).1 ∧ s.solar = (lunarSolar s.currJd).2)

theorem cached_ok {s : Cache} {jd : ℝ} (hs : CacheOk s) (h : jd ≠ 0) :
    (cached s jd).lunar = (lunarSolar jd).1 ∧ (cached s jd).solar = (lunarSolar jd).2 ∧ CacheOk (cached s jd) := by
  unfold cached
  by_cases hj : s.currJd = jd
  · rw [if_neg (not_not.mpr hj)]
    rcases hs with h0 | ⟨h1, h2⟩
    · exact absurd (hj.symm.trans h0) h
    · exact ⟨hj ▸ h1, hj ▸ h2, Or.inr ⟨h1, h2⟩⟩
  · rw [if_pos hj]
    exact ⟨rfl, rfl, Or.inr ⟨rfl, rfl⟩⟩

/-- The answers to a sequence of calls. -/
noncomputable def cacheCalls : Cache → List ℝ → List (Vec 4 × Vec 4)
  | _, [] => []
  | s, jd :: l => ((cached s jd).lunar, (cached s jd).solar) :: cacheCalls (cached s jd) l

/-- C52: in any sequence of calls each answer is that of a fresh computation. -/
theorem C52_cached (jds : List ℝ) (h : ∀ jd ∈ jds, jd ≠ 0) (s : Cache) (hs : CacheOk s) : cacheCalls s jds = jds.map lunarSolar := by
  induction jds generalizing s with
  | nil => rfl
  | cons jd l ih =>
    obtain ⟨h1, h2, h3⟩ := cached_ok hs (h jd (by simp))
    unfold cacheCalls
    rw [ih (fun d hd => h d (by simp [hd])) _ h3, h1, h2]
    rfl

/-- C52: the state at the start of the program is one of those states. -/
theorem C52_start : CacheOk cacheStart := Or.inl rfl

/-- C52: the date zero has to be excluded: the first answer would be the zeros of the start. -/
theorem C52_zero_excluded : cacheCalls cacheStart [0] ≠ [0].map lunarSolar := by
  intro h
  have h1 : cacheCalls cacheStart [0] = [(0, 0)] := by
    unfold cacheCalls cached
    rw [if_neg (by simp [cacheStart])]
    rfl
  rw [h1] at h
  have h2 : (0 : Vec 4) = (lunarSolar 0).2 := congrArg Prod.snd (List.cons.inj h).1
  have h3 : (0 : ℝ) = solarR (tCen 0) := congrFun h2 3
  unfold solarR at h3
  nlinarith [Real.neg_one_le_cos (mSolar (tCen 0)), Real.cos_le_one (mSolar (tCen 0))]

/-- The derivative for positions computed afresh. -/
noncomputable def fresh (jd : ℝ) (v : Vec 6) : Vec 6 := glue (back v) (accelOf (lunarSolar jd).1 (lunarSolar jd).2 (fore v))

theorem derivAt_ok {s : Cache} {jd : ℝ} (hs : CacheOk s) (h : jd ≠ 0) (v : Vec 6) :
    ∃ s', derivAt s jd v = (s', fresh jd v) ∧ CacheOk s' := by
  obtain ⟨h1, h2, h3⟩ := cached_ok hs h
  refine ⟨cached s jd, ?_, h3⟩
  unfold derivAt fresh
  dsimp only
  rw [h1, h2]

/-- A step with positions computed afresh. -/
noncomputable def freshStep (jd : ℝ) (v : Vec 6) (dt : ℝ) : Vec 6 :=
  let k0 := fresh jd v
  let k1 := fresh (jd + dt / 2) (v + (dt * 86400 * 0.5) • k0)
  let k2 := fresh (jd + dt / 2) (v + (dt * 86400 * 0.5) • k1)
  let k3 := fresh (jd + dt) (v + (dt * 86400) • k2)
  v + (dt * 86400 / 6) • (k0 + (2 : ℝ) • (k1 + k2) + k3)

theorem step_ok {s : Cache} {jd dt : ℝ} (hs : CacheOk s) (h0 : 0 < jd) (h1 : 0 < jd + dt) (v : Vec 6) :
    ∃ s', step s jd v dt = (s', freshStep jd v dt) ∧ CacheOk s' := by
  have h2 : jd + dt / 2 ≠ 0 := by intro h; linarith
  obtain ⟨s1, e1, o1⟩ := derivAt_ok hs h0.ne' v
  obtain ⟨s2, e2, o2⟩ := derivAt_ok o1 h2 (v + (dt * 86400 * 0.5) • fresh jd v)
  obtain ⟨s3, e3, o3⟩ := derivAt_ok o2 h2 (v + (dt * 86400 * 0.5) • fresh (jd + dt / 2) (v + (dt * 86400 * 0.5) • fresh jd v))
  obtain ⟨s4, e4, o4⟩ := derivAt_ok o3 h1.ne' (v + (dt * 86400) • fresh (jd + dt / 2) (v + (dt * 86400 * 0.5) •
    fresh (jd + dt / 2) (v + (dt * 86400 * 0.5) • fresh jd v)))
  refine ⟨s4, ?_, o4⟩
  unfold step freshStep
  simp only [e1, e2, e3, e4]

theorem stepLength_between {jd t : ℝ} (h0 : 0 < jd) (h1 : 0 < jd + t) : 0 < jd + stepLength t := by
  unfold stepLength
  split_ifs <;> linarith

/-- The integration with positions computed afresh. -/
noncomputable def freshLoop : ℕ → ℝ → Vec 6 → ℝ → Option (ℝ × Vec 6 × List ℝ)
  | 0, _, _, _ => none
  | fuel + 1, jd, v, tsince =>
    if tsince = 0 then some (jd, v, []) else
      (freshLoop fuel (jd + stepLength tsince) (freshStep jd v (stepLength tsince)) (tsince - stepLength tsince)).map fun (jd, v, l) => (jd, v, stepLength tsince :: l)

theorem loop_ok (fuel : ℕ) {s : Cache} {jd t : ℝ} (hs : CacheOk s) (h0 : 0 < jd) (h1 : 0 < jd + t) (v : Vec 6) :
    (loop fuel s jd v t = none ∧ freshLoop fuel jd v t = none) ∨
      ∃ s' r, loop fuel s jd v t = some (s', r) ∧ freshLoop fuel jd v t = some r ∧ CacheOk s' := by
  induction fuel generalizing s jd t v with
  | zero => exact Or.inl ⟨rfl, rfl⟩
  | succ fuel ih =>
    unfold loop freshLoop
    by_cases ht : t = 0
    · rw [if_pos ht, if_pos ht]
      exact Or.inr ⟨s, _, rfl, rfl, hs⟩
    rw [if_neg ht, if_neg ht]
    obtain ⟨s1, e1, o1⟩ := step_ok hs h0 (stepLength_between h0 h1) v
    dsimp only
    rw [e1]
    rcases ih o1 (stepLength_between h0 h1) (t := t - stepLength t) (by linarith) (freshStep jd v (stepLength t)) with ⟨a, b⟩ | ⟨s', r, a, b, c⟩
    · left
      simp only [a, b, Option.map_none, and_self]
    · right
      exact ⟨s', _, by simp only [a, Option.map_some]; rfl, by simp only [b, Option.map_some], c⟩

/-- C52, as a user sees it: position and velocity for elements of type 'H' do not depend on what was asked before; `s` is the state any earlier calls
left, and the state afterwards is again such a state. -/
theorem C52_history (fuel : ℕ) (s : Cache) (hs : CacheOk s) (e : Elem) (p : Vec 6) (t : ℝ) (h0 : 0 < e.epoch) (h1 : 0 < e.epoch + t / 1440) :
    (highEphemeris fuel s e p t).map (·.2) = (highEphemeris fuel cacheStart e p t).map (·.2) ∧
      ∀ r, highEphemeris fuel s e p t = some r → CacheOk r.1 := by
  unfold highEphemeris
  rcases loop_ok fuel hs h0 h1 p with ⟨a, b⟩ | ⟨s1, r1, a, b, c⟩
  · rcases loop_ok fuel C52_start h0 h1 p with ⟨a', b'⟩ | ⟨s2, r2, a', b', c'⟩
    · rw [a, a']
      exact ⟨rfl, by simp⟩
    · rw [b] at b'; simp at b'
  · rcases loop_ok fuel C52_start h0 h1 p with ⟨a', b'⟩ | ⟨s2, r2, a', b', c'⟩
    · rw [b] at b'; simp at b'
    · rw [b] at b'
      obtain rfl := Option.some.inj b'
      rw [a, a']
      refine ⟨rfl, fun r hr => ?_⟩
      obtain rfl := Option.some.inj hr
      exact c

theorem stepLength_bounds {t : ℝ} (h : t ≠ 0) : |stepLength t| ≤ 1 ∧ 0 < stepLength t * t ∧ |t - stepLength t| = max (|t| - 1) 0 ∧
    (t - stepLength t ≠ 0 → 0 < (t - stepLength t) * t) := by
  unfold stepLength
  by_cases h1 : t > 1
  · rw [if_pos h1]
    exact ⟨by norm_num, by linarith, by rw [abs_of_pos (by linarith), abs_of_pos (by linarith), max_eq_left (by linarith)], fun _ => by nlinarith⟩
  rw [if_neg h1]
  by_cases h2 : t < -1
  · rw [if_pos h2]
    exact ⟨by norm_num, by linarith, by rw [abs_of_neg (by linarith), abs_of_neg (by linarith), max_eq_left (by linarith)]; ring, fun _ => by nlinarith⟩
  rw [if_neg h2]
  push Not at h1 h2
  have h3 : |t| ≤ 1 := abs_le.mpr ⟨h2, h1⟩
  exact ⟨h3, mul_self_pos.mpr h, by rw [sub_self, abs_zero, max_eq_right (by linarith)], fun h => absurd (sub_self t) h⟩

/-- C53: for every time asked for the integration ends, at the date asked for, after as many steps as there are days begun; each step goes in the
direction of the time asked for and is a day or less; the steps add up to the time exactly. -/
theorem C53_steps (t : ℝ) (fuel : ℕ) (hf : ⌈|t|⌉₊ < fuel) (s : Cache) (jd : ℝ) (v : Vec 6) :
    ∃ s' v' l, loop fuel s jd v t = some (s', jd + t, v', l) ∧ l.sum = t ∧ l.length = ⌈|t|⌉₊ ∧ ∀ dt ∈ l, |dt| ≤ 1 ∧ 0 < dt * t := by
  induction fuel generalizing s jd v t with
  | zero => omega
  | succ fuel ih =>
    unfold loop
    by_cases ht : t = 0
    · rw [if_pos ht]
      subst ht
      exact ⟨s, v, [], by rw [add_zero], rfl, by simp, by simp⟩
    rw [if_neg ht]
    obtain ⟨b1, b2, b3, b4⟩ := stepLength_bounds ht
    have hpos : 0 < |t| := abs_pos.mpr ht
    have hn : ⌈|t|⌉₊ = ⌈|t - stepLength t|⌉₊ + 1 := by
      rw [b3]
      rcases le_total (|t|) 1 with h | h
      · rw [max_eq_right (by linarith), Nat.ceil_zero, zero_add]
        refine le_antisymm (Nat.ceil_le.mpr (by simpa using h)) (Nat.one_le_ceil_iff.mpr hpos)
      · rw [max_eq_left (by linarith)]
        rw [Nat.ceil_sub_one, Nat.sub_add_cancel (Nat.one_le_ceil_iff.mpr hpos)]
    dsimp only
    obtain ⟨s', v', l, e, h1, h2, h3⟩ := ih (t - stepLength t) (by omega) (step s jd v (stepLength t)).1 (jd + stepLength t) (step s jd v (stepLength t)).2
    rw [e]
    refine ⟨s', v', stepLength t :: l, by rw [show jd + stepLength t + (t - stepLength t) = jd + t by ring]; rfl, by rw [List.sum_cons, h1]; ring,
      by rw [List.length_cons, h2, hn], ?_⟩
    intro dt hdt
    rcases List.mem_cons.mp hdt with rfl | hdt
    · exact ⟨b1, b2⟩
    · obtain ⟨c1, c2⟩ := h3 dt hdt
      have hr : t - stepLength t ≠ 0 := by rintro h; rw [h] at c2; simp at c2
      refine ⟨c1, ?_⟩
      have := mul_pos c2 (b4 hr)
      have hsq : 0 < (t - stepLength t) ^ 2 := by positivity
      rw [show dt * (t - stepLength t) * ((t - stepLength t) * t) = dt * t * (t - stepLength t) ^ 2 by ring] at this
      exact pos_of_mul_pos_left this hsq.le

/-- C53 in rounded arithmetic: a time in days that is a `double` (`k / 2 ^ j` with at most 53 bits) of size up to 2^53 is used up exactly. -/
theorem C53_double (F : Fl64) (n : ℕ) (k : ℤ) (j : ℕ) (hj : j ≤ 1000) (hk : |k| ≤ 2 ^ 53) (fuel : ℕ) (hn : ⌈|(k / 2 ^ j : ℚ)|⌉₊ = n) (hf : n < fuel) :
    ∃ l, loopDouble F fuel (k / 2 ^ j) = some l ∧ l.sum = k / 2 ^ j ∧ l.length = n ∧ ∀ dt ∈ l, |dt| ≤ 1 := by
  induction fuel generalizing n k with
  | zero => omega
  | succ fuel ih =>
    have hp : (0 : ℚ) < 2 ^ j := by positivity
    have hpz : (0 : ℤ) < 2 ^ j := by positivity
    obtain ⟨k1, k2⟩ := abs_le.mp hk
    unfold loopDouble
    by_cases ht : (k / 2 ^ j : ℚ) = 0
    · rw [if_pos ht]
      rw [ht] at hn
      exact ⟨[], rfl, by rw [ht]; rfl, by rw [← hn]; simp, by simp⟩
    rw [if_neg ht]
    have hpos : 0 < |(k / 2 ^ j : ℚ)| := abs_pos.mpr ht
    dsimp only
    by_cases h1 : (k / 2 ^ j : ℚ) > 1
    · rw [if_pos h1]
      have hk1 : (2 ^ j : ℤ) < k := by
        have := (lt_div_iff₀ hp).mp h1
        rw [one_mul] at this
        exact_mod_cast this
      have e : (k / 2 ^ j : ℚ) - 1 = (k - 2 ^ j : ℤ) / 2 ^ j := by push_cast; field_simp
      have hk' : |k - 2 ^ j| ≤ 2 ^ 53 := abs_le.mpr ⟨by linarith, by linarith⟩
      rw [e, F.exact _ _ hk' hj]
      have e2 : |((k - 2 ^ j : ℤ) / 2 ^ j : ℚ)| = |(k / 2 ^ j : ℚ)| - 1 := by
        rw [← e, abs_of_pos (by linarith), abs_of_pos (by linarith)]
      obtain ⟨l, a, b, c, d⟩ := ih (n - 1) (k - 2 ^ j) hk' (by rw [e2, Nat.ceil_sub_one, hn]) (by
        have := Nat.one_le_ceil_iff.mpr hpos; omega)
      rw [a]
      refine ⟨1 :: l, rfl, by rw [List.sum_cons, b, ← e]; ring, by rw [List.length_cons, c]; have := Nat.one_le_ceil_iff.mpr hpos; omega, ?_⟩
      intro dt hdt
      rcases List.mem_cons.mp hdt with rfl | hdt
      · norm_num
      · exact d dt hdt
    rw [if_neg h1]
    by_cases h2 : (k / 2 ^ j : ℚ) < -1
    · rw [if_pos h2]
      have hk1 : k < -(2 ^ j : ℤ) := by
        have := (div_lt_iff₀ hp).mp h2
        rw [neg_one_mul] at this
        exact_mod_cast this
      have e : (k / 2 ^ j : ℚ) - -1 = (k + 2 ^ j : ℤ) / 2 ^ j := by push_cast; field_simp; ring
      have hk' : |k + 2 ^ j| ≤ 2 ^ 53 := abs_le.mpr ⟨by linarith, by linarith⟩
      rw [e, F.exact _ _ hk' hj]
      have e2 : |((k + 2 ^ j : ℤ) / 2 ^ j : ℚ)| = |(k / 2 ^ j : ℚ)| - 1 := by
        rw [← e, abs_of_neg (by linarith), abs_of_neg (by linarith)]; ring
      obtain ⟨l, a, b, c, d⟩ := ih (n - 1) (k + 2 ^ j) hk' (by rw [e2, Nat.ceil_sub_one, hn]) (by
        have := Nat.one_le_ceil_iff.mpr hpos; omega)
      rw [a]
      refine ⟨-1 :: l, rfl, by rw [List.sum_cons, b, ← e]; ring, by rw [List.length_cons, c]; have := Nat.one_le_ceil_iff.mpr hpos; omega, ?_⟩
      intro dt hdt
      rcases List.mem_cons.mp hdt with rfl | hdt
      · norm_num
      · exact d dt hdt
    rw [if_neg h2]
    push Not at h1 h2
    have h3 : |(k / 2 ^ j : ℚ)| ≤ 1 := abs_le.mpr ⟨h2, h1⟩
    have hn1 : n = 1 := by
      rw [← hn]
      exact le_antisymm (Nat.ceil_le.mpr (by simpa using h3)) (Nat.one_le_ceil_iff.mpr hpos)
    obtain ⟨f', rfl⟩ : ∃ f', fuel = f' + 1 := ⟨fuel - 1, by omega⟩
    have e0 : loopDouble F (f' + 1) (F.rnd ((k / 2 ^ j : ℚ) - k / 2 ^ j)) = some [] := by
      have hz : F.rnd 0 = 0 := by simpa using F.exact 0 0 (by norm_num) (by norm_num)
      rw [sub_self, hz]
      unfold loopDouble
      rw [if_pos rfl]
    rw [e0]
    exact ⟨[k / 2 ^ j], rfl, by simp, by simp [hn1], by simpa using h3⟩

/-- C53: beyond 2^53 days the integration need not end: from 2^53 + 4 days the day taken away is lost in rounding. -/
theorem C53_endless_excluded (fuel : ℕ) : loopDouble Fl64.ieee fuel (2 ^ 53 + 4) = none := by
  have h : Fl64.ieee.rnd (2 ^ 53 + 4 - 1) = 2 ^ 53 + 4 := by
    change rndBits 53 _ = _
    decide +kernel
  induction fuel with
  | zero => rfl
  | succ fuel ih =>
    unfold loopDouble
    rw [if_neg (by norm_num)]
    dsimp only
    rw [if_pos (by norm_num), h, ih]
    rfl

theorem obliq_unit : |sinObliq ^ 2 + cosObliq ^ 2 - 1| ≤ 2 / 10 ^ 39 := by
  unfold sinObliq cosObliq
  rw [abs_le]
  constructor <;> norm_num

theorem turn_back (v : Vec 3) : toEquatorial (toEcliptic v) = ![v 0, (sinObliq ^ 2 + cosObliq ^ 2) * v 1, (sinObliq ^ 2 + cosObliq ^ 2) * v 2] := by
  unfold toEquatorial toEcliptic
  ext i
  fin_cases i <;> simp <;> ring

/-- C118: for the date of the elements the position and velocity of the element set come back, in kilometres and kilometres per minute (metres and metres
per second in the elements), to 39 digits; nothing else is written to the state. -/
theorem C118_epoch (fuel : ℕ) (s : Cache) (e : Elem) : ∃ p v, highEphemeris (fuel + 1) s e (initHigh e) 0 = some (s, p, v) ∧
    p 0 = e.xincl / 1000 ∧ |p 1 - e.xnodeo / 1000| ≤ 2 / 10 ^ 39 * |e.xnodeo / 1000| ∧ |p 2 - e.eo / 1000| ≤ 2 / 10 ^ 39 * |e.eo / 1000| ∧
    v 0 = e.omegao * 60 / 1000 ∧ |v 1 - e.xmo * 60 / 1000| ≤ 2 / 10 ^ 39 * |e.xmo * 60 / 1000| ∧
    |v 2 - e.xno * 60 / 1000| ≤ 2 / 10 ^ 39 * |e.xno * 60 / 1000| := by
  have hb : ∀ x y : ℝ, y = (sinObliq ^ 2 + cosObliq ^ 2) * x → |y - x| ≤ 2 / 10 ^ 39 * |x| := by
    intro x y h
    rw [h, show (sinObliq ^ 2 + cosObliq ^ 2) * x - x = (sinObliq ^ 2 + cosObliq ^ 2 - 1) * x by ring, abs_mul]
    exact mul_le_mul_of_nonneg_right obliq_unit (abs_nonneg x)
  have h : highEphemeris (fuel + 1) s e (initHigh e) 0 = some (s, output (initHigh e)) := by
    unfold highEphemeris loop
    rw [if_pos (by norm_num)]
    rfl
  have hf : ∀ a b : Vec 3, fore (glue a b) = a := by intro a b; ext i; fin_cases i <;> rfl
  have hk : ∀ a b : Vec 3, back (glue a b) = b := by intro a b; ext i; fin_cases i <;> rfl
  refine ⟨_, _, h, ?_⟩
  have e1 : toEquatorial (fore (initHigh e)) = ![e.xincl, (sinObliq ^ 2 + cosObliq ^ 2) * e.xnodeo, (sinObliq ^ 2 + cosObliq ^ 2) * e.eo] := by
    unfold initHigh; dsimp only; rw [hf, turn_back]; rfl
  have e2 : toEquatorial (back (initHigh e)) = ![e.omegao, (sinObliq ^ 2 + cosObliq ^ 2) * e.xmo, (sinObliq ^ 2 + cosObliq ^ 2) * e.xno] := by
    unfold initHigh; dsimp only; rw [hk, turn_back]; rfl
  rw [e1, e2]
  refine ⟨?_, hb _ _ ?_, hb _ _ ?_, ?_, hb _ _ ?_, hb _ _ ?_⟩ <;> simp <;> ring

/-- Two and a half days back: three steps. -/
example : ⌈|(-2.5 : ℝ)|⌉₊ = 3 := by
  rw [abs_of_neg (by norm_num), Nat.ceil_eq_iff (by norm_num)]
  norm_num

/-- Two calls for the same date after the start. -/
example : cacheCalls cacheStart [2451545, 2451545] = [lunarSolar 2451545, lunarSolar 2451545] :=
  C52_cached _ (by intro d hd; simp at hd; rw [hd]; norm_num) _ C52_start

end SatSky.Props
