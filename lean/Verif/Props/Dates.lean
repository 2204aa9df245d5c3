import Verif.Lemmas.DateDay
import Verif.Model.DateText
import Verif.Spec.DateText
import Verif.Props.Calendar
import Verif.Props.RoundTrip

/-!
Properties C11-C14: dates and times as text and as MJD, with floating point rounding.
-/

namespace SatSky.Props

open SatSky Spec Cal Dates

/-! ### C11 -/

/-- **C11** (numbers).  For every valid date of the years 0..9999 and every second of the day, in any
rounding-to-nearest arithmetic, converting to MJD and back prints the same six numbers. -/
theorem C11_roundtrip (F : Fl64) (G : Fl32) (x : Date) (hv : x.Valid) (hy : 0 ≤ x.y ∧ x.y ≤ 9999)
    (h mm s : ℤ) (ht : TimeValid h mm s) :
    mjd2date F (date2mjd F G x.y x.m x.d h mm s) = some ⟨x.y, x.m, x.d, h, mm, s⟩ := by
  obtain ⟨hh, hm, hs⟩ := ht
  have e := date2mjd_err F G x hv hy h mm s hh hm hs
  have b := dateNum_bounds x hv hy
  have hlow : -2400000 ≤ dateNum x.y x.m x.d := by
    rw [dateNum_floor _ _ _ hy.1]
    have := doy_bounds x hv
    unfold dateNumF
    have : -366 ≤ yearCount (mYear x.y x.m) := by
      unfold yearCount mYear; split <;> omega
    omega
  have := mjd2date_near F _ (dateNum x.y x.m x.d) h mm s ⟨hlow, by omega⟩ hh hm hs
    (le_trans e (by norm_num))
  rw [this, C11_calendar x hv hy.1]

/-- The case 2024-02-29T23:59:59 meets the hypotheses. -/
example : mjd2date Fl64.ieee (date2mjd Fl64.ieee Fl32.ieee 2024 2 29 23 59 59)
    = some ⟨2024, 2, 29, 23, 59, 59⟩ :=
  C11_roundtrip _ _ ⟨2024, 2, 29⟩ (by decide) (by decide) 23 59 59 (by decide)

/-- `%wd` reads `w` digits. -/
theorem takeDigits_digits (ds : List Nat) (hd : ∀ d ∈ ds, d ≤ 9) (acc : Nat) (t : CString) :
    takeDigits ds.length (acc : Int) (digitChars ds ++ t) = (ds.length, ((ofDigits acc ds : Nat) : Int), t) := by
  induction ds generalizing acc with
  | nil => simp [takeDigits, digitChars, ofDigits]
  | cons d ds ih =>
    have hd0 : d ≤ 9 := hd d (by simp)
    have hdig : isDigit ((48 : Int) + (d : Int)) = true := isDigit_of (by unfold Digit; omega)
    have e : ((acc : Int) * 10 + ((48 : Int) + (d : Int) - 48)) = ((acc * 10 + d : Nat) : Int) := by
      push_cast; omega
    have := ih (fun x hx => hd x (by simp [hx])) (acc * 10 + d)
    simp only [digitChars, List.map_cons, List.cons_append, List.length_cons, takeDigits, hdig, if_true, e,
      ofDigits] at this ⊢
    rw [this]

theorem scanNum_zeroPad (w n : Nat) (hn : n < 10 ^ (w + 1)) (t : CString) :
    scanNum (w + 1) (zeroPad (w + 1) n ++ t) = some ((n : Int), t) := by
  have hl := zero_len (w + 1) n
  have hle := zero_le (w + 1) n
  have hval := zero_val (w + 1) n hn
  unfold zeroPad
  cases hz : zeroDigits (w + 1) n with
  | nil => rw [hz] at hl; simp at hl
  | cons d ds =>
    rw [hz] at hl hle hval
    have hd0 : d ≤ 9 := hle d (by simp)
    have hsp := not_space_digit d hd0
    have key := takeDigits_digits (d :: ds) hle 0 t
    rw [hl, hval] at key
    have hcons : digitChars (d :: ds) ++ t = ((48 : Int) + (d : Int)) :: (digitChars ds ++ t) := by
      simp [digitChars]
    unfold scanNum
    rw [hcons] at key ⊢
    rw [List.dropWhile_cons, hsp]
    simp only [Bool.false_eq_true, if_false]
    rw [if_neg (by omega)]
    have key' : takeDigits (w + 1) 0 (((48 : Int) + (d : Int)) :: (digitChars ds ++ t)) = (w + 1, (n : Int), t) := key
    rw [key']
    simp

/-- The reader on an ISO text. -/
theorem scanDate_iso (x : Date) (hv : x.Valid) (hy : 0 ≤ x.y ∧ x.y ≤ 9999) (h mm s : ℤ)
    (ht : TimeValid h mm s) (rest : CString) :
    scanDate (isoText x h mm s ++ rest) = some (x.y, x.m, x.d, h, mm, s) := by
  obtain ⟨v1, v2, v3, v4⟩ := hv
  obtain ⟨⟨a1, a2⟩, ⟨a3, a4⟩, a5, a6⟩ := ht
  have v5 : x.d ≤ 31 := by
    unfold monthLength at v4
    split at v4
    · split at v4 <;> omega
    · split at v4 <;> omega
  have e1 : isoText x h mm s ++ rest = zeroPad 4 x.y.toNat ++ (45 :: (zeroPad 2 x.m.toNat ++ (45 ::
      (zeroPad 2 x.d.toNat ++ (84 :: (zeroPad 2 h.toNat ++ (58 :: (zeroPad 2 mm.toNat ++ (58 ::
      (zeroPad 2 s.toNat ++ rest)))))))))) := by
    simp [isoText]
  unfold scanDate
  rw [e1]
  simp only [bind, Option.bind, pure,
    scanNum_zeroPad 3 x.y.toNat (by omega), scanNum_zeroPad 1 x.m.toNat (by omega),
    scanNum_zeroPad 1 x.d.toNat (by omega), scanNum_zeroPad 1 h.toNat (by omega),
    scanNum_zeroPad 1 mm.toNat (by omega), scanNum_zeroPad 1 s.toNat (by omega), scanLit, if_true]
  have c : ∀ z : ℤ, 0 ≤ z → ((z.toNat : ℕ) : ℤ) = z := fun z hz => by omega
  rw [c _ hy.1, c _ (by omega), c _ (by omega), c _ a1, c _ a3, c _ a5]

theorem natText_len : ∀ (k n : Nat), (natText n).length ≤ k + 1 ↔ n < 10 ^ (k + 1) := by
  intro k
  induction k with
  | zero =>
    intro n
    unfold natText
    split
    · simp; omega
    · have : 1 ≤ (natText (n / 10)).length := by
        unfold natText; split <;> simp
      simp only [List.length_append, List.length_singleton]; omega
  | succ k ih =>
    intro n
    unfold natText
    split
    · rename_i h
      simp
      have : 10 ≤ 10 ^ (k + 1 + 1) := by rw [Nat.pow_succ]; have : 0 < 10 ^ (k + 1) := by positivity
                                         omega
      omega
    · have := ih (n / 10)
      simp only [List.length_append, List.length_singleton, Nat.add_le_add_iff_right]
      rw [this, Nat.pow_succ 10 (k + 1)]
      omega

theorem natText_pos (n : Nat) : 1 ≤ (natText n).length := by unfold natText; split <;> simp

/-- `%2.2d` of 0..99 is two digits with a leading zero if necessary. -/
theorem fmt22d_eq (n : ℤ) (h0 : 0 ≤ n) (h1 : n ≤ 99) : fmt22d n = zeroPad 2 n.toNat := by
  obtain ⟨k, rfl⟩ : ∃ k : ℕ, n = k := ⟨n.toNat, by omega⟩
  have hk : k < 100 := by omega
  unfold fmt22d
  rw [if_neg (by omega)]
  simp only [Int.natAbs_natCast, Int.toNat_natCast]
  unfold natText
  split
  · have : k / 10 % 10 = 0 := by omega
    simp [zeroPad, zeroDigits, digitChars, this]; omega
  · have : k / 10 < 10 := by omega
    rw [natText, if_pos this]
    simp [zeroPad, zeroDigits, digitChars]
    omega

/-- `%4d` of 1000..9999 is four digits. -/
theorem fmt4d_eq (n : ℤ) (h0 : 1000 ≤ n) (h1 : n ≤ 9999) : fmt4d n = zeroPad 4 n.toNat := by
  obtain ⟨k, rfl⟩ : ∃ k : ℕ, n = k := ⟨n.toNat, by omega⟩
  unfold fmt4d
  rw [if_neg (by omega)]
  simp only [Int.natAbs_natCast, Int.toNat_natCast]
  have e : natText k = zeroPad 4 k := by
    rw [natText, if_neg (by omega), natText, if_neg (by omega), natText, if_neg (by omega), natText, if_pos (by omega)]
    simp [zeroPad, zeroDigits, digitChars]
    omega
  have := zeroPad_len 4 k
  rw [e, this]; simp

theorem printDate_iso (x : Date) (hv : x.Valid) (hy : 1000 ≤ x.y ∧ x.y ≤ 9999) (h mm s : ℤ)
    (ht : TimeValid h mm s) : printDate ⟨x.y, x.m, x.d, h, mm, s⟩ = isoText x h mm s := by
  obtain ⟨v1, v2, v3, v4⟩ := hv
  obtain ⟨⟨a1, a2⟩, ⟨a3, a4⟩, a5, a6⟩ := ht
  have v5 : x.d ≤ 31 := by
    unfold monthLength at v4
    split at v4
    · split at v4 <;> omega
    · split at v4 <;> omega
  unfold printDate isoText
  simp only
  rw [fmt4d_eq _ hy.1 hy.2, fmt22d_eq x.m (by omega) (by omega), fmt22d_eq x.d (by omega) (by omega),
    fmt22d_eq h (by omega) (by omega), fmt22d_eq mm (by omega) (by omega), fmt22d_eq s (by omega) (by omega)]
  simp

/-- **C11** (text).  For every date of the years 1000..9999 and every second, the text
`YYYY-MM-DDThh:mm:ss` given to the program, converted to MJD, is printed back as the same text. -/
theorem C11_text (F : Fl64) (G : Fl32) (x : Date) (hv : x.Valid) (hy : 1000 ≤ x.y ∧ x.y ≤ 9999)
    (h mm s : ℤ) (ht : TimeValid h mm s) :
    (date2mjdNf F G (isoText x h mm s)).1 = 0 ∧
      mjd2dateText F (date2mjdNf F G (isoText x h mm s)).2 = some (isoText x h mm s) := by
  have hs := scanDate_iso x hv ⟨by omega, hy.2⟩ h mm s ht []
  rw [List.append_nil] at hs
  unfold date2mjdNf
  rw [hs]
  refine ⟨rfl, ?_⟩
  simp only
  unfold mjd2dateText
  rw [C11_roundtrip F G x hv ⟨by omega, hy.2⟩ h mm s ht, Option.map_some, printDate_iso x hv hy h mm s ht]

example : isoText ⟨2024, 2, 29⟩ 23 59 59 = b!"2024-02-29T23:59:59" := by decide

/-! ### C12 -/

theorem isDay_of_count (x : Date) (hv : x.Valid) (n : ℤ) (h : dateNumF x.y x.m x.d = n) : IsDay x n := by
  have hplus : ∀ (y : Date) (_ : y.Valid) (k : Nat), (y.plus k).Valid ∧
      dateNumF (y.plus k).y (y.plus k).m (y.plus k).d = dateNumF y.y y.m y.d + k := by
    intro y hy k
    induction k with
    | zero => exact ⟨hy, by simp [Date.plus]⟩
    | succ k ih =>
      refine ⟨next_valid _ ih.1, ?_⟩
      have := dateNumF_next _ ih.1
      simp only [Date.plus]
      rw [this, ih.2]; push_cast; omega
  have hep : mjdEpoch.Valid := by decide
  have he0 : dateNumF mjdEpoch.y mjdEpoch.m mjdEpoch.d = 0 := by decide
  rcases Int.lt_or_le n 0 with hn | hn
  · right
    refine ⟨hn, hv, ?_⟩
    have := hplus x hv (-n).toNat
    apply dateNumF_inj _ _ this.1 hep
    rw [this.2, he0, h]; omega
  · left
    refine ⟨hn, ?_⟩
    have := hplus _ hep n.toNat
    apply dateNumF_inj _ _ hv this.1
    rw [this.2, he0, h]; omega

/-- **C12** (accuracy).  Whatever `mjd2date` prints for an argument, the date is a date of the
calendar and the instant it names is within half a second of the argument, up to the rounding of the
argument itself (relative 2^-50; 4e-6 s for present-day dates).  Any rounding to nearest. -/
theorem C12_within (F : Fl64) (mjd : ℚ) (p : Printed) (hp : mjd2date F mjd = some p) :
    ∃ n : ℤ, IsDay ⟨p.y, p.m, p.d⟩ n ∧ Date.Valid ⟨p.y, p.m, p.d⟩ ∧
      |(n : ℚ) + ((p.s + 60 * (p.mm + 60 * p.h) : ℤ) : ℚ) / 86400 - mjd|
        ≤ 1 / 172800 + (|mjd| + 8) / 2 ^ 49 := by
  obtain ⟨n, z, z0, z1, hn, hc, hd, ht⟩ := mjd2date_some F mjd p hp
  obtain ⟨v, e⟩ := toYmd_spec (n + 2400001) hn
  have hy : p.y = (toYmd (n + 2400001)).1 := congrArg Prod.fst hd
  have hm : p.m = (toYmd (n + 2400001)).2.1 := congrArg (fun t => t.2.1) hd
  have hdd : p.d = (toYmd (n + 2400001)).2.2 := congrArg (fun t => t.2.2) hd
  have hh : p.h = (splitTime F (F.rnd z)).1 := congrArg Prod.fst ht
  have hmm : p.mm = (splitTime F (F.rnd z)).2.1 := congrArg (fun t => t.2.1) ht
  have hs : p.s = (splitTime F (F.rnd z)).2.2 := congrArg (fun t => t.2.2) ht
  refine ⟨n, ?_, ?_, ?_⟩
  · rw [hy, hm, hdd]
    exact isDay_of_count _ v n (by simp only; rw [e]; omega)
  · rw [hy, hm, hdd]; exact v
  · obtain ⟨i1, i2⟩ := splitTime_instant F (F.rnd z) z0 (by linarith)
    rw [hh, hmm, hs]
    unfold slack HALF_S at hc
    rw [abs_le] at hc ⊢
    generalize (((splitTime F (F.rnd z)).2.2 + 60 * ((splitTime F (F.rnd z)).2.1 + 60 * (splitTime F (F.rnd z)).1) : ℤ) : ℚ)
      = T at *
    have ha : 0 ≤ |mjd| := abs_nonneg _
    generalize |mjd| = A at *
    norm_num at hc i1 i2 ⊢
    constructor <;> linarith

/-- **C12** (validity).  In IEEE double arithmetic every date and time `mjd2date` prints exists:
month 1..12, day within the month, hour ≤ 23, minute ≤ 59, second ≤ 59. -/
theorem C12_valid (mjd : ℚ) (p : Printed) (hp : mjd2date Fl64.ieee mjd = some p) :
    Date.Valid ⟨p.y, p.m, p.d⟩ ∧ TimeValid p.h p.mm p.s := by
  obtain ⟨n, z, z0, z1, hn, hc, hd, ht⟩ := mjd2date_some Fl64.ieee mjd p hp
  obtain ⟨v, e⟩ := toYmd_spec (n + 2400001) hn
  have hy : p.y = (toYmd (n + 2400001)).1 := congrArg Prod.fst hd
  have hm : p.m = (toYmd (n + 2400001)).2.1 := congrArg (fun t => t.2.1) hd
  have hdd : p.d = (toYmd (n + 2400001)).2.2 := congrArg (fun t => t.2.2) hd
  refine ⟨by rw [hy, hm, hdd]; exact v, ?_⟩
  have hh : p.h = (splitTime Fl64.ieee (Fl64.ieee.rnd z)).1 := congrArg Prod.fst ht
  have hmm : p.mm = (splitTime Fl64.ieee (Fl64.ieee.rnd z)).2.1 := congrArg (fun t => t.2.1) ht
  have hs : p.s = (splitTime Fl64.ieee (Fl64.ieee.rnd z)).2.2 := congrArg (fun t => t.2.2) ht
  rw [hh, hmm, hs]
  exact splitTime_valid z z0 z1

/-- **C12** (range).  The argument is accepted whenever it is between -2468569 (4900 BC) and
997599999: NULL is returned only outside. -/
theorem C12_accepted (F : Fl64) (mjd : ℚ) (h0 : -2468569 ≤ mjd) (h1 : mjd ≤ 997599999) :
    (mjd2date F mjd).isSome := by
  have b1 : DJMIN ≤ F.rnd (DJ1 + mjd) := by
    have := F.mono (DJMIN) (DJ1 + mjd) (by unfold DJMIN DJ1; linarith)
    rwa [show F.rnd DJMIN = DJMIN from F.half (-137139) (by norm_num)] at this
  have b2 : F.rnd (DJ1 + mjd) ≤ DJMAX := by
    have := F.mono (DJ1 + mjd) DJMAX (by unfold DJMAX DJ1; linarith)
    rwa [show F.rnd DJMAX = DJMAX by
      have := F.int 1000000000 (by norm_num); unfold DJMAX; exact_mod_cast this] at this
  unfold mjd2date mjdParts
  simp only
  rw [if_neg (by rw [not_or]; constructor <;> linarith)]
  split <;> simp

/-- A concrete argument: 1 January 2024 is MJD 60310. -/
example : mjd2date Fl64.ieee (120621 / 2) = some ⟨2024, 1, 1, 12, 0, 0⟩ := by decide +kernel

/-! ### C13 -/

theorem fmt22d_len (n : ℤ) (h0 : 0 ≤ n) (h1 : n ≤ 99) : (fmt22d n).length = 2 := by
  rw [fmt22d_eq n h0 h1, zeroPad_len]

/-- `%4d` takes four columns exactly for -999..9999. -/
theorem fmt4d_len (n : ℤ) : (fmt4d n).length = 4 ↔ (-999 ≤ n ∧ n ≤ 9999) := by
  unfold fmt4d
  have p := natText_pos n.natAbs
  have l4 := natText_len 3 n.natAbs
  have l3 := natText_len 2 n.natAbs
  by_cases h : n < 0
  · rw [if_pos h]
    simp only [List.length_append, List.length_replicate, List.length_cons]
    constructor
    · intro hh
      have := l3.mp (by omega); omega
    · intro hh
      have := l3.mpr (by omega); omega
  · rw [if_neg h]
    simp only [List.length_append, List.length_replicate]
    constructor
    · intro hh
      have := l4.mp (by omega); omega
    · intro hh
      have := l4.mpr (by omega); omega

theorem fmt4d_ge (n : ℤ) : 4 ≤ (fmt4d n).length := by
  unfold fmt4d; simp only [List.length_append, List.length_replicate]; omega

/-- **C13** (part that holds, exactly).  In IEEE arithmetic the text fits the 20-byte buffer if and
only if the year printed is between -999 and 9999. -/
theorem C13_fits_iff_partial (mjd : ℚ) (p : Printed) (hp : mjd2date Fl64.ieee mjd = some p) :
    fits 20 (printDate p) ↔ (-999 ≤ p.y ∧ p.y ≤ 9999) := by
  obtain ⟨⟨v1, v2, v3, v4⟩, ⟨a1, a2⟩, ⟨a3, a4⟩, a5, a6⟩ := C12_valid mjd p hp
  simp only at v1 v2 v3 v4
  have v5 : p.d ≤ 31 := by
    unfold monthLength at v4
    split at v4
    · split at v4 <;> omega
    · split at v4 <;> omega
  have g := fmt4d_ge p.y
  rw [← fmt4d_len]
  unfold fits printDate
  simp only [List.length_append, List.length_cons, fmt22d_len p.m (by omega) (by omega),
    fmt22d_len p.d (by omega) (by omega), fmt22d_len p.h (by omega) (by omega),
    fmt22d_len p.mm (by omega) (by omega), fmt22d_len p.s (by omega) (by omega)]
  omega

/-- **C13** (part that holds).  For every MJD from -678575 (1 January of year 1) to 2973482 (30
December 9999) option `-j` is safe: the text fits, no NULL. -/
theorem C13_safe_range_partial (mjd : ℚ) (h0 : -678575 ≤ mjd) (h1 : mjd ≤ 2973482) :
    (optJ Fl64.ieee mjd).isSome := by
  have hs := C12_accepted Fl64.ieee mjd (by linarith) (by linarith)
  obtain ⟨p, hp⟩ := Option.isSome_iff_exists.mp hs
  obtain ⟨n, z, z0, z1, hn, hc, hd, ht⟩ := mjd2date_some Fl64.ieee mjd p hp
  obtain ⟨v, e⟩ := toYmd_spec (n + 2400001) hn
  have hy : p.y = (toYmd (n + 2400001)).1 := congrArg Prod.fst hd
  have hsl : slack mjd ≤ 1 / 10 ^ 6 := by
    have : |mjd| ≤ 2973482 := by rw [abs_le]; constructor <;> linarith
    unfold slack; norm_num; linarith
  rw [abs_le] at hc
  unfold HALF_S at hc
  norm_num at hc hsl
  have n0 : (-678577 : ℚ) < n := by linarith
  have n1 : (n : ℚ) < 2973483 := by linarith
  have n0' : -678577 < n := by exact_mod_cast n0
  have n1' : n < 2973483 := by exact_mod_cast n1
  have hfit : fits 20 (printDate p) := by
    rw [C13_fits_iff_partial mjd p hp, hy]
    obtain ⟨w1, w2, w3, w4⟩ := v
    simp only at w1 w2 w3 w4
    unfold dateNumF at e
    rw [doy_month w1 w2] at e
    unfold yearCount mYear at e
    generalize (toYmd (n + 2400001)).1 = y at *
    generalize (toYmd (n + 2400001)).2.1 = m at *
    generalize (toYmd (n + 2400001)).2.2 = d at *
    have v5 : d ≤ 31 := by
      unfold monthLength at w4
      split at w4
      · split at w4 <;> omega
      · split at w4 <;> omega
    rcases months w1 w2 with rfl | rfl | rfl | rfl | rfl | rfl | rfl | rfl | rfl | rfl | rfl | rfl <;>
      simp only [Int.reduceLE, if_true, if_false, Int.reduceEq] at e <;> omega
  unfold optJ mjd2dateText
  rw [hp]
  simp [hfit]

/-- **C13** violated: for MJD 2973484 (10000-01-01) the text has 20 characters and the NUL is written
past the end of the static buffer. -/
theorem C13_overflow_violated : ∃ (mjd : ℚ) (p : Printed), mjd2date Fl64.ieee mjd = some p ∧
    ¬ fits 20 (printDate p) :=
  ⟨2973484, ⟨10000, 1, 1, 0, 0, 0⟩, by decide +kernel, by decide +kernel⟩

/-- **C13** violated: for MJD above 997599999.5 `mjd2date` returns NULL, and option `-j` copies from
it. -/
theorem C13_null_violated (F : Fl64) (mjd : ℚ) (h : 997600000 ≤ mjd) : optJ F mjd = none := by
  have b : DJMAX < F.rnd (DJ1 + mjd) := by
    have := F.mono ((2000000001 : ℤ) / 2) (DJ1 + mjd) (by push_cast; unfold DJ1; linarith)
    rw [F.half 2000000001 (by norm_num)] at this
    unfold DJMAX; push_cast at this; linarith
  unfold optJ mjd2dateText mjd2date mjdParts
  simp only
  rw [if_pos (Or.inr b)]
  rfl

example : optJ Fl64.ieee (120621 / 2) = some ⟨120621 / 2, b!"2024-01-01T12:00:00"⟩ := by
  have h : mjd2date Fl64.ieee (120621 / 2) = some ⟨2024, 1, 1, 12, 0, 0⟩ := by decide +kernel
  have e : printDate ⟨2024, 1, 1, 12, 0, 0⟩ = b!"2024-01-01T12:00:00" := by decide +kernel
  unfold optJ mjd2dateText
  rw [h, Option.map_some, e]
  rfl

/-! ### C14 -/

/-- **C14** (readable dates are read).  Every ISO text of years 0..9999, whatever follows it, is
accepted and gives the MJD of that date and time. -/
theorem C14_accepts (F : Fl64) (G : Fl32) (x : Date) (hv : x.Valid) (hy : 0 ≤ x.y ∧ x.y ≤ 9999)
    (h mm s : ℤ) (ht : TimeValid h mm s) (rest : CString) :
    (date2mjdNf F G (isoText x h mm s ++ rest)).1 = 0 ∧
      mjd2date F (date2mjdNf F G (isoText x h mm s ++ rest)).2 = some ⟨x.y, x.m, x.d, h, mm, s⟩ := by
  unfold date2mjdNf
  rw [scanDate_iso x hv hy h mm s ht rest]
  exact ⟨rfl, C11_roundtrip F G x hv hy h mm s ht⟩

theorem takeDigits_spec (w : Nat) (acc : Int) (s : CString) :
    ∃ ds, s = ds ++ (takeDigits w acc s).2.2 ∧ (∀ c ∈ ds, Digit c) ∧ ds.length = (takeDigits w acc s).1 ∧
      ds.length ≤ w := by
  induction w generalizing acc s with
  | zero => exact ⟨[], by simp [takeDigits]⟩
  | succ w ih =>
    cases s with
    | nil => exact ⟨[], by simp [takeDigits]⟩
    | cons c t =>
      unfold takeDigits
      by_cases hc : isDigit c = true
      · rw [if_pos hc]
        obtain ⟨ds, h1, h2, h3, h4⟩ := ih (acc * 10 + (c - 48)) t
        refine ⟨c :: ds, ?_, ?_, ?_, ?_⟩
        · simp only [List.cons_append]; rw [← h1]
        · intro d hd
          rcases List.mem_cons.mp hd with rfl | hd
          · unfold isDigit at hc; simp at hc; exact hc
          · exact h2 d hd
        · simp [h3]
        · simp; omega
      · rw [if_neg hc]; exact ⟨[], by simp⟩

theorem scanNum_spec (w : Nat) (s t : CString) (v : Int) (h : scanNum w s = some (v, t)) :
    ∃ a, s = a ++ t ∧ NumField w a := by
  unfold scanNum at h
  have hsplit : s = s.takeWhile isSpace ++ s.dropWhile isSpace := List.takeWhile_append_dropWhile.symm
  have hws : ∀ c ∈ s.takeWhile isSpace, c = 32 ∨ (9 ≤ c ∧ c ≤ 13) := by
    intro c hc
    have := (List.all_eq_true.mp (List.all_takeWhile (p := isSpace) (l := s))) c hc
    unfold isSpace at this
    simp at this
    exact this
  cases hd : s.dropWhile isSpace with
  | nil => rw [hd] at h; simp at h
  | cons c r =>
    rw [hd] at h
    simp only at h
    by_cases hc : c = 45 ∨ c = 43
    · rw [if_pos hc] at h
      obtain ⟨ds, h1, h2, h3, h4⟩ := takeDigits_spec (w - 1) 0 r
      by_cases hz : (takeDigits (w - 1) 0 r).1 = 0
      · rw [if_pos hz] at h; simp at h
      · rw [if_neg hz] at h
        simp only [Option.some.injEq, Prod.mk.injEq] at h
        refine ⟨s.takeWhile isSpace ++ [c] ++ ds, ?_, s.takeWhile isSpace, [c], ds, rfl, hws, ?_, ?_, h2, ?_⟩
        · conv_lhs => rw [hsplit, hd]
          rw [← h.2]
          conv_lhs => rw [h1]
          simp
        · rcases hc with rfl | rfl <;> simp
        · intro hds; subst hds; simp at h3; omega
        · simp only [List.length_singleton]
          omega
    · rw [if_neg hc] at h
      obtain ⟨ds, h1, h2, h3, h4⟩ := takeDigits_spec w 0 (c :: r)
      by_cases hz : (takeDigits w 0 (c :: r)).1 = 0
      · rw [if_pos hz] at h; simp at h
      · rw [if_neg hz] at h
        simp only [Option.some.injEq, Prod.mk.injEq] at h
        refine ⟨s.takeWhile isSpace ++ ds, ?_, s.takeWhile isSpace, [], ds, by simp, hws, by simp, ?_, h2, ?_⟩
        · conv_lhs => rw [hsplit, hd]
          rw [← h.2]
          conv_lhs => rw [h1]
          simp
        · intro hds; subst hds; simp at h3; omega
        · simpa using h4

theorem scanLit_spec (c : CChar) (s t : CString) (h : scanLit c s = some t) : s = c :: t := by
  cases s with
  | nil => simp [scanLit] at h
  | cons x r =>
    simp only [scanLit] at h
    by_cases hx : x = c
    · rw [if_pos hx] at h; simp at h; rw [hx, h]
    · rw [if_neg hx] at h; simp at h

/-- **C14** (unreadable dates are refused by `date2mjd_nf`).  If the argument does not have the shape
number-number-numberTnumber:number:number, the return value is -1. -/
theorem C14_rejects (F : Fl64) (G : Fl32) (t : CString) (h : ¬ DateShape t) :
    (date2mjdNf F G t).1 = -1 := by
  unfold date2mjdNf
  cases hs : scanDate t with
  | none => rfl
  | some r =>
    exfalso; apply h
    unfold scanDate at hs
    simp only [bind, Option.bind_eq_some_iff] at hs
    obtain ⟨⟨y, s1⟩, h1, s2, h2, ⟨m, s3⟩, h3, s4, h4, ⟨d, s5⟩, h5, s6, h6, ⟨hh, s7⟩, h7, s8, h8,
      ⟨mm, s9⟩, h9, s10, h10, ⟨sec, s11⟩, h11, _⟩ := hs
    obtain ⟨a, ea, na⟩ := scanNum_spec _ _ _ _ h1
    obtain ⟨b, eb, nb⟩ := scanNum_spec _ _ _ _ h3
    obtain ⟨c, ec, nc⟩ := scanNum_spec _ _ _ _ h5
    obtain ⟨d', ed, nd⟩ := scanNum_spec _ _ _ _ h7
    obtain ⟨e, ee, ne⟩ := scanNum_spec _ _ _ _ h9
    obtain ⟨f, ef, nf⟩ := scanNum_spec _ _ _ _ h11
    simp only at h2 h4 h6 h8 h10
    have l1 := scanLit_spec _ _ _ h2
    have l2 := scanLit_spec _ _ _ h4
    have l3 := scanLit_spec _ _ _ h6
    have l4 := scanLit_spec _ _ _ h8
    have l5 := scanLit_spec _ _ _ h10
    refine ⟨a, b, c, d', e, f, s11, ?_, na, nb, nc, nd, ne, nf⟩
    rw [ea, l1, eb, l2, ec, l3, ed, l4, ee, l5, ef]
    simp

/-- An argument without any 'T' is not of that shape: the hypothesis is met, e.g., by "2024-01-01". -/
example : ¬ DateShape b!"2024-01-01" := by
  rintro ⟨a, b, c, d, e, f, rest, h, -⟩
  have : (84 : Int) ∈ b!"2024-01-01" := by rw [h]; simp
  revert this; decide

/-- **C14** violated (program level): the `-d` code ignores the return value, so every unreadable date
that fits the buffer is silently taken as MJD 0, i.e. 17 November 1858. -/
theorem C14_silent_violated (F : Fl64) (G : Fl32) (t : CString) (h : ¬ DateShape t) (hl : t.length < 24) :
    optD F G t = some { mjd := 0, date := t } := by
  have := C14_rejects F G t h
  unfold optD
  rw [if_pos (by unfold fits; omega)]
  unfold date2mjdNf at this ⊢
  cases hs : scanDate t with
  | none => rfl
  | some r => rw [hs] at this; simp at this

/-- **C14** violated: a date that does not exist is accepted, month 13 of 2024 silently being January
2025 (MJD 60676 is 2025-01-01). -/
theorem C14_month13_violated (F : Fl64) (G : Fl32) :
    (date2mjdNf F G b!"2024-13-01T00:00:00").1 = 0 ∧ ¬ (⟨2024, 13, 1⟩ : Date).Valid := by
  refine ⟨?_, by decide⟩
  have : scanDate b!"2024-13-01T00:00:00" = some (2024, 13, 1, 0, 0, 0) := by decide +kernel
  unfold date2mjdNf
  rw [this]

end SatSky.Props
