import Verif.Model.TimeDouble
import Verif.Props.Dates
import Verif.Props.ParseCode

/-!
Property C194: the time since the epoch of the elements.  Property C195: the instant of a date given in seconds.
-/

namespace SatSky.Props

open SatSky Spec GetEl Cal Dates

theorem rnd_rat (F : Fl64) {z Z e A E : ℚ} (h : |z - Z| ≤ e) (hZ : |Z| ≤ A) (hE : e + (A + e) / 2 ^ 53 + 1 / 2 ^ 200 ≤ E) : |F.rnd z - Z| ≤ E := by
  have h1 := F.err z
  have h2 := abs_sub_abs_le_abs_sub z Z
  have h3 := abs_sub_le (F.rnd z) z Z
  have h4 : |z| / 2 ^ 53 ≤ (A + e) / 2 ^ 53 := div_le_div_of_nonneg_right (by linarith) (by positivity)
  linarith

/-- The days of the years of the window. -/
theorem window_days (a b : Nat) (ha : a ≤ 9) (hb : b ≤ 9) :
    20000 ≤ yearDays (epochYear (48 + (a : Int)) (48 + (b : Int))) ∧ yearDays (epochYear (48 + (a : Int)) (48 + (b : Int))) ≤ 58000 := by
  have e : (if (48 + (a : Int)) ≥ 48 then 48 + (b : Int) - 48 + (48 + (a : Int) - 48) * 10 else 48 + (b : Int) - 48) = ((10 * a + b : Nat) : Int) := by
    rw [if_pos (by omega)]; push_cast; omega
  unfold epochYear yearDays
  simp only [e]
  split <;> (rw [Int.tdiv_eq_ediv_of_nonneg (by omega)]; omega)

/-- The Julian date of the epoch in `double`: within 48 microseconds. -/
theorem epoch_near (F : Fl64) (a b d f : Nat) (ha : a ≤ 9) (hb : b ≤ 9) (hd : d ≤ 999) (hf : f < 10 ^ 8) :
    |epochD F (48 + (a : Int)) (48 + (b : Int)) d f - ((twiceJd (fullYear (10 * a + b)) d : ℤ) / 2 + f / 10 ^ 8)| ≤ 546 / 10 ^ 12 ∧
      2430000 ≤ ((twiceJd (fullYear (10 * a + b)) d : ℤ) : ℚ) / 2 + f / 10 ^ 8 ∧ ((twiceJd (fullYear (10 * a + b)) d : ℤ) : ℚ) / 2 + f / 10 ^ 8 ≤ 2475000 := by
  have h := C05_epoch_day a b d ha hb
  obtain ⟨y0, y1⟩ := window_days a b ha hb
  dsimp only at h
  unfold epochD
  dsimp only
  generalize yearDays (epochYear (48 + (a : Int)) (48 + (b : Int))) = Y at *
  have y0q : (20000 : ℚ) ≤ Y := by exact_mod_cast y0
  have y1q : (Y : ℚ) ≤ 58000 := by exact_mod_cast y1
  have hq : (2 : ℚ) * (d + Y) + 4830039 = (twiceJd (fullYear (10 * a + b)) d : ℤ) := by
    have : (2 : ℤ) * (d + Y) + 4830039 = twiceJd (fullYear (10 * a + b)) d := by rw [← h]; norm_num
    exact_mod_cast this
  rw [← hq]
  have d1 : (d : ℚ) ≤ 999 := by exact_mod_cast hd
  have d0 : (0 : ℚ) ≤ d := Nat.cast_nonneg d
  have f1 : (f : ℚ) ≤ 10 ^ 8 := by exact_mod_cast hf.le
  have f0 : (0 : ℚ) ≤ f := Nat.cast_nonneg f
  have g1 : (f : ℚ) / 10 ^ 8 ≤ 1 := by rw [div_le_one (by norm_num)]; exact f1
  have g0 : (0 : ℚ) ≤ (f : ℚ) / 10 ^ 8 := by positivity
  have s1 : |F.rnd (1 / 10 ^ 8) - 1 / 10 ^ 8| ≤ 12 / 10 ^ 25 :=
    rnd_rat F (e := 0) (A := 1 / 10 ^ 8) (by rw [sub_self, abs_zero]) (by rw [abs_of_pos (by positivity)]) (by norm_num)
  have s2 : |F.rnd (((f : ℤ) : ℚ) * F.rnd (1 / 10 ^ 8)) - f / 10 ^ 8| ≤ 3 / 10 ^ 16 :=
    rnd_rat F (e := 12 / 10 ^ 17) (A := 1) (by
      push_cast
      rw [show (f : ℚ) * F.rnd (1 / 10 ^ 8) - f / 10 ^ 8 = f * (F.rnd (1 / 10 ^ 8) - 1 / 10 ^ 8) by ring, abs_mul, abs_of_nonneg f0]
      calc (f : ℚ) * |F.rnd (1 / 10 ^ 8) - 1 / 10 ^ 8| ≤ 10 ^ 8 * (12 / 10 ^ 25) := mul_le_mul f1 s1 (abs_nonneg _) (by norm_num)
        _ = 12 / 10 ^ 17 := by norm_num) (by rw [abs_of_nonneg g0]; exact g1) (by norm_num)
  generalize F.rnd (((f : ℤ) : ℚ) * F.rnd (1 / 10 ^ 8)) = p at *
  generalize (f : ℚ) / 10 ^ 8 = g at *
  have s3 : |F.rnd (((d : ℤ) : ℚ) + p) - (d + g)| ≤ 12 / 10 ^ 14 :=
    rnd_rat F (e := 3 / 10 ^ 16) (A := 1000) (by push_cast; rwa [add_sub_add_left_eq_sub]) (by rw [abs_of_nonneg (by linarith)]; linarith) (by norm_num)
  have s4 : |F.rnd (F.rnd (((d : ℤ) : ℚ) + p) + 4830039 / 2) - (d + g + 4830039 / 2)| ≤ 269 / 10 ^ 12 :=
    rnd_rat F (e := 12 / 10 ^ 14) (A := 2416020) (by rwa [add_sub_add_right_eq_sub]) (by rw [abs_of_nonneg (by linarith)]; linarith) (by norm_num)
  have s5 : |F.rnd (F.rnd (F.rnd (((d : ℤ) : ℚ) + p) + 4830039 / 2) + (Y : ℤ)) - (d + g + 4830039 / 2 + Y)| ≤ 546 / 10 ^ 12 :=
    rnd_rat F (e := 269 / 10 ^ 12) (A := 2475000) (by rwa [add_sub_add_right_eq_sub]) (by rw [abs_of_nonneg (by linarith)]; linarith) (by norm_num)
  refine ⟨?_, by linarith, by linarith⟩
  convert s5 using 2
  ring

/-- From the dates to the minutes, for an epoch known to 48 microseconds. -/
theorem since_near (F : Fl64) {mjd E X : ℚ} (hm : |mjd| ≤ 200000) (hE : |E - X| ≤ 546 / 10 ^ 12) (X0 : 2430000 ≤ X) (X1 : X ≤ 2475000) :
    |sinceD F (jdD F mjd) E - (mjd + 4800001 / 2 - X) * 1440| ≤ 14 / 10 ^ 7 := by
  obtain ⟨m0, m1⟩ := abs_le.1 hm
  unfold sinceD jdD
  have s1 : |F.rnd (4800001 / 2 + mjd) - (mjd + 4800001 / 2)| ≤ 289 / 10 ^ 12 :=
    rnd_rat F (e := 0) (A := 2600001) (by rw [add_comm, sub_self, abs_zero]) (by rw [abs_of_nonneg (by linarith)]; linarith) (by norm_num)
  have s2 : |F.rnd (F.rnd (4800001 / 2 + mjd) - E) - (mjd + 4800001 / 2 - X)| ≤ 867 / 10 ^ 12 :=
    rnd_rat F (e := 835 / 10 ^ 12) (A := 275000) (by
      rw [show F.rnd (4800001 / 2 + mjd) - E - (mjd + 4800001 / 2 - X) = (F.rnd (4800001 / 2 + mjd) - (mjd + 4800001 / 2)) - (E - X) by ring]
      refine (abs_sub _ _).trans ?_
      linarith) (by rw [abs_le]; constructor <;> linarith) (by norm_num)
  refine rnd_rat F (e := 1249 / 10 ^ 9) (A := 275000 * 1440) (by
    rw [← sub_mul, abs_mul, abs_of_pos (by norm_num : (0 : ℚ) < 1440)]
    linarith) (by
    rw [abs_mul, abs_of_pos (by norm_num : (0 : ℚ) < 1440)]
    refine mul_le_mul_of_nonneg_right ?_ (by norm_num)
    rw [abs_le]; constructor <;> linarith) (by norm_num)

/-- **C194**: for every epoch field and every date of the request within 200000 days of 1858, the minutes since the epoch handed to the
propagator are right to 84 microseconds (the satellite moves less than 0.7 m in that time). -/
theorem C194_since (F : Fl64) (a b d f : Nat) (ha : a ≤ 9) (hb : b ≤ 9) (hd : d ≤ 999) (hf : f < 10 ^ 8) {mjd : ℚ} (hm : |mjd| ≤ 200000) :
    |sinceD F (jdD F mjd) (epochD F (48 + (a : Int)) (48 + (b : Int)) d f) -
      (mjd + 4800001 / 2 - ((twiceJd (fullYear (10 * a + b)) d : ℤ) / 2 + f / 10 ^ 8)) * 1440| ≤ 14 / 10 ^ 7 := by
  obtain ⟨h, X0, X1⟩ := epoch_near F a b d f ha hb hd hf
  exact since_near F hm h X0 X1

/-- **C194**, the second instant: `delta` seconds later, to 3 microseconds. -/
theorem C194_later (F : Fl64) {t delta : ℚ} (ht : |t| ≤ 4 * 10 ^ 5 * 1000) (hd : |delta| ≤ 10 ^ 5) :
    |laterD F t delta - (t + delta / 60)| ≤ 5 / 10 ^ 8 := by
  unfold laterD
  have b1 : |delta * 1440| ≤ 144 * 10 ^ 6 := by
    rw [abs_mul, abs_of_pos (by norm_num : (0 : ℚ) < 1440)]; linarith
  have b2 : |delta / 60| ≤ 1700 := by
    rw [abs_div, abs_of_pos (by norm_num : (0 : ℚ) < 60)]; linarith
  have s1 : |F.rnd (delta * 1440) - delta * 1440| ≤ 2 / 10 ^ 8 :=
    rnd_rat F (e := 0) (A := 144 * 10 ^ 6) (by rw [sub_self, abs_zero]) b1 (by norm_num)
  have s2 : |F.rnd (F.rnd (delta * 1440) / 86400) - delta / 60| ≤ 1 / 10 ^ 12 :=
    rnd_rat F (e := 3 / 10 ^ 13) (A := 1700) (by
      rw [show F.rnd (delta * 1440) / 86400 - delta / 60 = (F.rnd (delta * 1440) - delta * 1440) / 86400 by ring, abs_div, abs_of_pos (by norm_num : (0 : ℚ) < 86400)]
      linarith) b2 (by norm_num)
  refine rnd_rat F (e := 1 / 10 ^ 12) (A := 4 * 10 ^ 8 + 1700) (by rwa [add_sub_add_left_eq_sub]) ((abs_add_le _ _).trans (by linarith)) (by norm_num)

/-- The elements of 2024, day 60.5, and the request at MJD 60370 (2024 March 1, 0 h): 12 hours after the epoch. -/
example : sinceD Fl64.ieee (jdD Fl64.ieee 60370) (epochD Fl64.ieee 50 52 60 50000000) = 720 ∧ ((60370 + 4800001 / 2 - ((twiceJd 2024 60 : ℤ) / 2 + (50000000 : ℕ) / 10 ^ 8 : ℚ)) * 1440) = 720 := by
  decide +kernel

/-! ### C195 -/

/-- The instant of a date given in seconds, in minutes since an instant `X` of Julian date. -/
def minutesSince (n : ℕ) (h mm s : ℤ) (X : ℚ) : ℚ := ((n : ℚ) + (s + 60 * (mm + 60 * h) : ℤ) / 86400 + 4800001 / 2 - X) * 1440

theorem plus_valid {x : Date} (hv : x.Valid) (hy : 0 ≤ x.y) (n : ℕ) : (x.plus n).Valid ∧ 0 ≤ (x.plus n).y := by
  induction n with
  | zero => exact ⟨hv, hy⟩
  | succ n ih =>
    refine ⟨next_valid _ ih.1, ?_⟩
    have := ih.2
    simp only [Date.plus]
    unfold Date.next
    split <;> (try split) <;> simp only <;> omega

/-- **C195**, part: for every date from 1858 to 2399 given in seconds, the minutes since the epoch handed to the propagator are those of the date
to 0.45 s.  Missing: the date itself, to a millisecond (`C195_date_violated`). -/
theorem C195_date_partial (F : Fl64) (G : Fl32) (a b d f : Nat) (ha : a ≤ 9) (hb : b ≤ 9) (hd : d ≤ 999) (hf : f < 10 ^ 8) (n : ℕ) (hn : n < 199999)
    (hy : (mjdEpoch.plus n).y ≤ 9999) {h mm s : ℤ} (ht : TimeValid h mm s) :
    (date2mjdNf F G (isoText (mjdEpoch.plus n) h mm s)).1 = 0 ∧
      |sinceD F (jdD F (date2mjdNf F G (isoText (mjdEpoch.plus n) h mm s)).2) (epochD F (48 + (a : Int)) (48 + (b : Int)) d f) -
        minutesSince n h mm s ((twiceJd (fullYear (10 * a + b)) d : ℤ) / 2 + f / 10 ^ 8)| ≤ 75 / 10 ^ 4 := by
  obtain ⟨hv, y0⟩ := plus_valid (x := mjdEpoch) (by decide) (by decide) n
  have hN : dateNum (mjdEpoch.plus n).y (mjdEpoch.plus n).m (mjdEpoch.plus n).d = n := by
    rw [C10_day_count mjdEpoch (by decide) (by decide) n, C10_epoch, zero_add]
  have hs := scanDate_iso _ hv ⟨y0, hy⟩ h mm s ht []
  rw [List.append_nil] at hs
  unfold date2mjdNf
  rw [hs]
  refine ⟨rfl, ?_⟩
  have e := date2mjd_err F G _ hv ⟨y0, hy⟩ h mm s ht.1 ht.2.1 ht.2.2
  rw [hN] at e
  obtain ⟨⟨h0, h1⟩, ⟨m0, m1⟩, s0, s1⟩ := ht
  have T0 : (0 : ℚ) ≤ (s + 60 * (mm + 60 * h) : ℤ) := by exact_mod_cast (by omega : 0 ≤ s + 60 * (mm + 60 * h))
  have T1 : ((s + 60 * (mm + 60 * h) : ℤ) : ℚ) ≤ 86399 := by exact_mod_cast (by omega : s + 60 * (mm + 60 * h) ≤ 86399)
  have n1 : (n : ℚ) ≤ 199998 := by exact_mod_cast (by omega : n ≤ 199998)
  have n0 : (0 : ℚ) ≤ n := Nat.cast_nonneg n
  unfold minutesSince
  dsimp only
  generalize date2mjd F G (mjdEpoch.plus n).y (mjdEpoch.plus n).m (mjdEpoch.plus n).d h mm s = q at *
  generalize ((s + 60 * (mm + 60 * h) : ℤ) : ℚ) = T at *
  push_cast at e
  obtain ⟨e1, e2⟩ := abs_le.1 e
  have k := C194_since F a b d f ha hb hd hf (mjd := q) (by rw [abs_le]; constructor <;> linarith)
  obtain ⟨k1, k2⟩ := abs_le.1 k
  rw [abs_le]
  constructor <;> linarith

/-- **C195** fails to a millisecond: `2024-01-01T00:00:54` with the elements of 2024, day 1.0, is computed for 54.432 s after midnight; the satellite moves
3 km in the difference. -/
theorem C195_date_violated : mjdEpoch.plus 60310 = ⟨2024, 1, 1⟩ ∧ (date2mjdNf Fl64.ieee Fl32.ieee b!"2024-01-01T00:00:54").1 = 0 ∧
    minutesSince 60310 0 0 54 ((twiceJd 2024 1 : ℤ) / 2) = 54 / 60 ∧
      54431 / 60000 < sinceD Fl64.ieee (jdD Fl64.ieee (date2mjdNf Fl64.ieee Fl32.ieee b!"2024-01-01T00:00:54").2) (epochD Fl64.ieee 50 52 1 0) := by
  refine ⟨?_, by decide +kernel, by decide +kernel, by decide +kernel⟩
  obtain ⟨hv, y0⟩ := plus_valid (x := mjdEpoch) (by decide) (by decide) 60310
  have h := C11_calendar _ hv y0
  rw [C10_day_count mjdEpoch (by decide) (by decide) 60310, C10_epoch] at h
  have e : toYmd (0 + ((60310 : ℕ) : ℤ) + 2400001) = (2024, 1, 1) := by decide +kernel
  rw [e] at h
  generalize mjdEpoch.plus 60310 = x at *
  obtain ⟨y, m, d⟩ := x
  simp only [Prod.mk.injEq] at h
  obtain ⟨rfl, rfl, rfl⟩ := h
  rfl

/-- The bound of the partial theorem applies: 2024-01-01T12:00:00, elements of 2024, day 1.0. -/
example : |sinceD Fl64.ieee (jdD Fl64.ieee (date2mjdNf Fl64.ieee Fl32.ieee (isoText (mjdEpoch.plus 60310) 12 0 0)).2) (epochD Fl64.ieee 50 52 1 0) - minutesSince 60310 12 0 0 (4920621 / 2)| ≤ 75 / 10 ^ 4 := by
  have h := (C195_date_partial Fl64.ieee Fl32.ieee 2 4 1 0 (by norm_num) (by norm_num) (by norm_num) (by norm_num) 60310 (by norm_num)
    (by rw [C195_date_violated.1]; decide) (h := 12) (mm := 0) (s := 0) (by decide)).2
  have e : ((twiceJd (fullYear (10 * 2 + 4)) 1 : ℤ) : ℚ) / 2 + ((0 : ℕ) : ℚ) / 10 ^ 8 = 4920621 / 2 := by decide +kernel
  rw [e] at h
  exact h

end SatSky.Props
