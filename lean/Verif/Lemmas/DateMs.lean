import Verif.Model.DatesMs
import Verif.Lemmas.DateDay
import Verif.Spec.DateText

/-!
`mjd2datef` for arbitrary arguments: the printed fields are valid (IEEE arithmetic) and the printed instant is less than a millisecond
before the argument, up to rounding (any `Fl64`).
-/

namespace SatSky.Dates

open SatSky Cal Spec Props

/-- For each second `s` the largest `double` whose product with 86400 rounds below `s+1`, as `k / 2^(52+j)`
(proof data, checked below). -/
def secTab : List (ℤ × ℕ) :=
  [(6832127434707240, 17), (6832127434707240, 16), (5124095576030430, 15), (6832127434707240, 15),
   (8540159293384050, 15), (5124095576030430, 14), (5978111505368835, 14), (6832127434707240, 14),
   (7686143364045645, 14), (8540159293384050, 14), (4697087611361228, 13), (5124095576030430, 13),
   (5551103540699633, 13), (5978111505368835, 13), (6405119470038038, 13), (6832127434707240, 13),
   (7259135399376443, 13), (7686143364045645, 13), (8113151328714848, 13), (8540159293384050, 13),
   (8967167258053253, 13), (4697087611361228, 12), (4910591593695829, 12), (5124095576030430, 12),
   (5337599558365031, 12), (5551103540699633, 12), (5764607523034234, 12), (5978111505368835, 12),
   (6191615487703437, 12), (6405119470038038, 12), (6618623452372639, 12), (6832127434707240, 12),
   (7045631417041841, 12), (7259135399376443, 12), (7472639381711044, 12), (7686143364045645, 12),
   (7899647346380247, 12), (8113151328714848, 12), (8326655311049449, 12), (8540159293384050, 12),
   (8753663275718652, 12), (8967167258053253, 12), (4590335620193927, 11), (4697087611361228, 11),
   (4803839602528528, 11), (4910591593695829, 11), (5017343584863129, 11), (5124095576030430, 11),
   (5230847567197731, 11), (5337599558365031, 11), (5444351549532332, 11), (5551103540699633, 11),
   (5657855531866933, 11), (5764607523034234, 11), (5871359514201535, 11), (5978111505368835, 11),
   (6084863496536136, 11), (6191615487703437, 11), (6298367478870737, 11), (6405119470038038, 11)]

/-- The table is right, and the bounds it gives keep the milliseconds below 1000. -/
theorem sec_check : ∀ h : Fin 60,
    1 / 2 ^ ((secTab[h.val]?).getD (0, 0)).2
      ≤ (((secTab[h.val]?).getD (0, 0)).1 : ℚ) / 2 ^ (52 + ((secTab[h.val]?).getD (0, 0)).2) ∧
    ((h.val : ℚ) + 1) ≤
      rndBits 53 ((((((secTab[h.val]?).getD (0, 0)).1 + 1 : ℤ) : ℚ) /
        2 ^ (52 + ((secTab[h.val]?).getD (0, 0)).2)) * 86400) ∧
    rndBits 53 (rndBits 53 ((((secTab[h.val]?).getD (0, 0)).1 : ℚ) /
        2 ^ (52 + ((secTab[h.val]?).getD (0, 0)).2) - rndBits 53 ((h.val : ℚ) / 86400)) * 86400000) < 1000 := by
  decide +kernel

/-- The step for the seconds, `s = (int)(f*86400); f -= s/86400`, for a remainder below a minute. -/
theorem step_sec (F : Fl64) (f : ℚ) (h0 : -(1 / 2 ^ 49) ≤ f) (h1 : f ≤ 1 / 1440 + 1 / 2 ^ 49) :
    0 ≤ truncQ (F.rnd (f * 86400)) ∧ F.rnd (f * 86400) < truncQ (F.rnd (f * 86400)) + 1 ∧
    -(1 / 2 ^ 48) ≤ f - (truncQ (F.rnd (f * 86400)) : ℚ) / 86400 ∧
    f - (truncQ (F.rnd (f * 86400)) : ℚ) / 86400 ≤ 1 / 86400 + 1 / 2 ^ 51 ∧
    |F.rnd (f - F.rnd ((truncQ (F.rnd (f * 86400)) : ℚ) / 86400)) - (f - (truncQ (F.rnd (f * 86400)) : ℚ) / 86400)| ≤
      1 / 2 ^ 51 := by
  norm_num at h0 h1
  have e1 := F.err_le (x := f * 86400) (B := 61) (by rw [abs_le]; norm_num; constructor <;> linarith)
  rw [abs_le] at e1
  norm_num at e1
  obtain ⟨t0, t1, t2⟩ := truncQ_spec (x := F.rnd (f * 86400)) (by linarith)
  have hmax : max (F.rnd (f * 86400)) 0 ≤ f * 86400 + 86400 / 2 ^ 48 := by
    apply max_le
    · norm_num; linarith
    · norm_num; linarith
  generalize truncQ (F.rnd (f * 86400)) = n at *
  have t0' : (0 : ℚ) ≤ n := by exact_mod_cast t0
  generalize max (F.rnd (f * 86400)) 0 = M at *
  norm_num at hmax
  have e2 := F.err_le (x := (n : ℚ) / 86400) (B := 1 / 1000) (by rw [abs_le]; norm_num; constructor <;> linarith)
  rw [abs_le] at e2
  norm_num at e2
  generalize F.rnd ((n : ℚ) / 86400) = Q at *
  have e3 := F.err_le (x := f - Q) (B := 1 / 1000) (by rw [abs_le]; norm_num; constructor <;> linarith)
  rw [abs_le] at e3 ⊢
  norm_num at e3 ⊢
  refine ⟨t0, t2, ?_, ?_, ?_, ?_⟩ <;> linarith

/-- The remainder before the milliseconds, as in `splitTime`. -/
def restSec (F : Fl64) (f : ℚ) : ℚ :=
  let h := truncQ (F.rnd (f * 24))
  let f := F.rnd (f - F.rnd ((h : ℚ) / 24))
  let mm := truncQ (F.rnd (f * 1440))
  f - F.rnd ((mm : ℚ) / 1440)

theorem splitTimeMs_eq (F : Fl64) (f : ℚ) :
    splitTimeMs F f = ((splitTime F f).1, (splitTime F f).2.1, (splitTime F f).2.2,
      truncQ (F.rnd (F.rnd (F.rnd (restSec F f) - F.rnd (((splitTime F f).2.2 : ℤ) / 86400)) * 86400000))) ∧
    (splitTime F f).2.2 = truncQ (F.rnd (F.rnd (restSec F f) * 86400)) := ⟨rfl, rfl⟩

/-- The remainder is the fraction without the hours and minutes, up to rounding, and less than a minute. -/
theorem restSec_near (F : Fl64) (f : ℚ) (h0 : 0 ≤ f) (h1 : f ≤ 1) :
    |F.rnd (restSec F f) - (f - (((splitTime F f).2.1 + 60 * (splitTime F f).1 : ℤ) : ℚ) / 1440)| ≤ 1 / 2 ^ 50 ∧
    -(1 / 2 ^ 49) ≤ F.rnd (restSec F f) ∧ F.rnd (restSec F f) ≤ 1 / 1440 + 1 / 2 ^ 49 := by
  obtain ⟨a0, a1, a2, a3⟩ := step_bounds F f 24 (by norm_num) (by norm_num; linarith) (by norm_num; linarith)
  rw [min_eq_right h0] at a1
  unfold splitTime restSec
  simp only
  push_cast at a0 a1 a2 a3
  generalize truncQ (F.rnd (f * 24)) = h at *
  generalize F.rnd (f - F.rnd ((h : ℚ) / 24)) = f1 at *
  rw [abs_le] at a3
  norm_num at a1 a2 a3
  obtain ⟨b0, b1, b2, b3⟩ := step_bounds F f1 1440 (by norm_num) (by norm_num; linarith) (by norm_num; linarith)
  have m1 : -(1 / 2 ^ 50) ≤ min f1 0 := le_min (by norm_num; linarith) (by norm_num)
  generalize min f1 0 = μ at *
  push_cast at b0 b1 b2 b3
  generalize truncQ (F.rnd (f1 * 1440)) = mm at *
  generalize F.rnd (f1 - F.rnd ((mm : ℚ) / 1440)) = f2 at *
  rw [abs_le] at b3 ⊢
  norm_num at b1 b2 b3 m1
  push_cast
  norm_num
  refine ⟨⟨?_, ?_⟩, ?_, ?_⟩ <;> linarith

/-- The instant printed for a fraction of day `f`: at most `f` and less than a millisecond below it, up to rounding. -/
theorem splitTimeMs_instant (F : Fl64) (f : ℚ) (h0 : 0 ≤ f) (h1 : f ≤ 1) :
    let t := splitTimeMs F f;
    -(1 / 2 ^ 47) ≤ f - ((t.2.2.2 + 1000 * (t.2.2.1 + 60 * (t.2.1 + 60 * t.1)) : ℤ) : ℚ) / 86400000 ∧
    f - ((t.2.2.2 + 1000 * (t.2.2.1 + 60 * (t.2.1 + 60 * t.1)) : ℤ) : ℚ) / 86400000 ≤ 1 / 86400000 + 1 / 2 ^ 47 := by
  intro t
  have ht : t = splitTimeMs F f := rfl
  obtain ⟨e1, e2⟩ := splitTimeMs_eq F f
  obtain ⟨n1, n2, n3⟩ := restSec_near F f h0 h1
  rw [e1] at ht
  rw [ht]
  dsimp only
  generalize (splitTime F f).1 = h at *
  generalize (splitTime F f).2.1 = mm at *
  generalize (splitTime F f).2.2 = s at *
  generalize F.rnd (restSec F f) = g at *
  obtain ⟨b0, -, b1, b2, b3⟩ := step_sec F g n2 n3
  rw [← e2] at b0 b1 b2 b3
  generalize F.rnd (g - F.rnd ((s : ℚ) / 86400)) = k at *
  rw [abs_le] at b3 n1
  norm_num at b1 b2 b3 n1
  have e3 := F.err_le (x := k * 86400000) (B := 1001) (by rw [abs_le]; norm_num; constructor <;> linarith)
  rw [abs_le] at e3
  norm_num at e3
  obtain ⟨t0, t1, t2⟩ := truncQ_spec (x := F.rnd (k * 86400000)) (by linarith)
  have hmax : max (F.rnd (k * 86400000)) 0 ≤ k * 86400000 + 1 / 2 ^ 21 := by
    apply max_le
    · norm_num; linarith
    · norm_num; linarith
  generalize truncQ (F.rnd (k * 86400000)) = fs at *
  generalize max (F.rnd (k * 86400000)) 0 = M at *
  push_cast
  norm_num at hmax ⊢
  constructor <;> linarith

/-- In IEEE arithmetic the printed hour, minute, second and millisecond are always in range. -/
theorem splitTimeMs_valid (z : ℚ) (h0 : 0 ≤ Fl64.ieee.rnd z) (h1 : Fl64.ieee.rnd z < 1) :
    let t := splitTimeMs Fl64.ieee (Fl64.ieee.rnd z)
    TimeValid t.1 t.2.1 t.2.2.1 ∧ (0 ≤ t.2.2.2 ∧ t.2.2.2 ≤ 999) := by
  intro t
  have ht : t = splitTimeMs Fl64.ieee (Fl64.ieee.rnd z) := rfl
  have hF : Fl64.ieee.rnd = rndBits 53 := rfl
  obtain ⟨e1, e2⟩ := splitTimeMs_eq Fl64.ieee (Fl64.ieee.rnd z)
  obtain ⟨n1, n2, n3⟩ := restSec_near Fl64.ieee (Fl64.ieee.rnd z) h0 h1.le
  obtain ⟨v1, v2, v3⟩ := splitTime_valid z h0 h1
  rw [e1] at ht
  rw [ht]
  refine ⟨⟨v1, v2, v3⟩, ?_⟩
  dsimp only
  clear e1 ht n1 v1 v2
  generalize (splitTime Fl64.ieee (Fl64.ieee.rnd z)).2.2 = s at *
  generalize restSec Fl64.ieee (Fl64.ieee.rnd z) = w at *
  generalize Fl64.ieee = F at *
  obtain ⟨b0, hlt, b1, b2, b3⟩ := step_sec F (F.rnd w) n2 n3
  rw [← e2] at b0 b1 b2 b3 hlt
  have hs1000 : F.rnd (F.rnd (F.rnd w - F.rnd ((s : ℚ) / 86400)) * 86400000) < 1000 := by
    obtain ⟨c1, c2, c3⟩ := sec_check ⟨s.toNat, by omega⟩
    have hcast : ((s.toNat : ℕ) : ℚ) = s := by
      have : ((s.toNat : ℕ) : ℤ) = s := by omega
      exact_mod_cast this
    simp only [hcast] at c1 c2 c3
    rw [← hF] at c2 c3
    have := le_of_prod_lt F 86400 (s + 1) (by norm_num) _ _ c1 c2 w hlt
    have m1 := F.mono _ _ (sub_le_sub_right this (F.rnd ((s : ℚ) / 86400)))
    have m2 := F.mono _ _ (mul_le_mul_of_nonneg_right m1 (by norm_num : (0 : ℚ) ≤ 86400000))
    linarith
  generalize F.rnd (F.rnd w - F.rnd ((s : ℚ) / 86400)) = k at *
  rw [abs_le] at b3
  norm_num at b1 b2 b3
  have e3 := F.err_le (x := k * 86400000) (B := 1001) (by rw [abs_le]; norm_num; constructor <;> linarith)
  rw [abs_le] at e3
  norm_num at e3
  obtain ⟨u0, u1, u2⟩ := truncQ_spec (x := F.rnd (k * 86400000)) (by linarith)
  refine ⟨u0, ?_⟩
  have : (truncQ (F.rnd (k * 86400000)) : ℚ) < 1000 := lt_of_le_of_lt u1 (max_lt hs1000 (by norm_num))
  have : truncQ (F.rnd (k * 86400000)) < 1000 := by exact_mod_cast this
  omega

/-- Whenever `mjd2datef` does not return NULL: it printed the date of some day `n` and the time of some
fraction `f` with `n + f` equal to the argument, up to rounding.  (The first day of the accepted range, in 4900 BC, is left out.) -/
theorem mjd2datef_some (F : Fl64) (mjd : ℚ) (p : PrintedMs) (hl : -2468569 ≤ mjd) (h : mjd2datef F mjd = some p) :
    ∃ (n : ℤ) (z : ℚ), 0 ≤ F.rnd z ∧ F.rnd z < 1 ∧ -68569 ≤ n + 2400001 ∧
      |(n : ℚ) + F.rnd z - mjd| ≤ slack mjd ∧
      (p.y, p.m, p.d) = toYmd (n + 2400001) ∧ (p.h, p.mm, p.s, p.fs) = splitTimeMs F (F.rnd z) := by
  unfold mjd2datef mjdPartsMs at h
  simp only at h
  have a1 := F.err (DJ1 + mjd)
  by_cases hr : F.rnd (DJ1 + mjd) < DJMIN ∨ F.rnd (DJ1 + mjd) > DJMAX
  · rw [if_pos hr] at h; simp at h
  · rw [if_neg hr] at h
    rw [not_or] at hr
    obtain ⟨r1, r2⟩ := hr
    push Not at r1 r2
    -- range of the argument
    have hb : -2468571 ≤ mjd ∧ mjd ≤ 998000000 := by
      unfold DJMIN at r1
      unfold DJMAX at r2
      generalize F.rnd (DJ1 + mjd) = dj at *
      rcases abs_cases (DJ1 + mjd) with ⟨c1, c2⟩ | ⟨c1, c2⟩
      · rw [c1, abs_le] at a1
        unfold DJ1 at *
        norm_num at a1
        constructor <;> linarith
      · rw [c1, abs_le] at a1
        unfold DJ1 at *
        norm_num at a1
        constructor <;> linarith
    have hmb : |mjd| ≤ 998000000 := by rw [abs_le]; constructor <;> linarith
    have habs : 0 ≤ |mjd| := abs_nonneg _
    by_cases hc : DJ1 ≥ mjd
    · rw [if_pos hc] at h
      have hq : |mjd - 1 / 2| ≤ |mjd| + 51 / 100 := by
        rw [sub_eq_add_neg]
        refine le_trans (abs_add_le _ _) ?_
        rw [abs_neg, abs_of_pos (by norm_num : (0 : ℚ) < 1 / 2)]
        linarith
      have a3 := F.err_le hq
      have hq2 : |F.rnd (mjd - 1 / 2)| ≤ 10 ^ 9 := by
        rw [abs_le] at a3 hq ⊢
        norm_num at a3 ⊢
        constructor <;> linarith
      obtain ⟨n, z, s1, s2, s3, s4⟩ := splitDay_gen_A F (mjd - 1 / 2) hq2
      rw [abs_le] at a3 s4
      simp only [bind, Option.bind, pure, s1, Option.some.injEq] at h
      subst h
      have hclose : |(n : ℚ) + F.rnd z - mjd| ≤ slack mjd := by
        unfold slack
        rw [abs_le]
        norm_num at a3 s4 ⊢
        constructor <;> linarith
      refine ⟨n, z, s2, s3, ?_, hclose, rfl, rfl⟩
      have hs : slack mjd ≤ 1 / 10 ^ 6 := by unfold slack; norm_num; linarith
      rw [abs_le] at hclose
      have hn : (-2468571 : ℚ) < n := by norm_num at hs; linarith
      have : -2468571 < n := by exact_mod_cast hn
      omega
    · rw [if_neg hc] at h
      push Not at hc
      unfold DJ1 at hc
      have e0 : F.rnd (DJ1 - 1 / 2) = 2400000 := by
        have e : DJ1 - 1 / 2 = ((2400000 : ℤ) : ℚ) := by norm_num [DJ1]
        rw [e, F.int _ (by norm_num)]; norm_num
      rw [e0] at h
      obtain ⟨n, z, s1, s2, s3, s4⟩ := splitDay_gen_B F mjd (by linarith) (by norm_num; linarith)
      rw [abs_le] at s4
      simp only [bind, Option.bind, pure, s1, Option.some.injEq] at h
      subst h
      have hclose : |(n : ℚ) + F.rnd z - mjd| ≤ slack mjd := by
        unfold slack
        rw [abs_le]
        norm_num at s4 ⊢
        constructor <;> linarith
      refine ⟨n, z, s2, s3, ?_, hclose, rfl, rfl⟩
      have hn : (-2468571 : ℚ) < n := by
        norm_num at s4; linarith
      have : -2468571 < n := by exact_mod_cast hn
      omega

end SatSky.Dates
