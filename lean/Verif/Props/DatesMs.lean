import Verif.Lemmas.DateMs
import Verif.Props.Dates

/-! C172: `mjd2datef`, the date with milliseconds. -/

namespace SatSky.Props

open SatSky Spec Cal Dates

/-- **C172** (accuracy).  The date `mjd2datef` prints is a date of the calendar, and the instant named by date, time and milliseconds is not
after the argument and less than a millisecond before it, up to the rounding of the argument (relative 2^-49).  Any rounding to nearest. -/
theorem C172_within (F : Fl64) (mjd : ℚ) (p : PrintedMs) (hl : -2468569 ≤ mjd) (hp : mjd2datef F mjd = some p) :
    ∃ n : ℤ, IsDay ⟨p.y, p.m, p.d⟩ n ∧ Date.Valid ⟨p.y, p.m, p.d⟩ ∧
      -((|mjd| + 8) / 2 ^ 49) ≤ mjd - ((n : ℚ) + ((p.fs + 1000 * (p.s + 60 * (p.mm + 60 * p.h)) : ℤ) : ℚ) / 86400000) ∧
      mjd - ((n : ℚ) + ((p.fs + 1000 * (p.s + 60 * (p.mm + 60 * p.h)) : ℤ) : ℚ) / 86400000)
        ≤ 1 / 86400000 + (|mjd| + 8) / 2 ^ 49 := by
  obtain ⟨n, z, z0, z1, hn, hc, hd, ht⟩ := mjd2datef_some F mjd p hl hp
  obtain ⟨v, e⟩ := toYmd_spec (n + 2400001) hn
  have hy : p.y = (toYmd (n + 2400001)).1 := congrArg Prod.fst hd
  have hm : p.m = (toYmd (n + 2400001)).2.1 := congrArg (fun t => t.2.1) hd
  have hdd : p.d = (toYmd (n + 2400001)).2.2 := congrArg (fun t => t.2.2) hd
  refine ⟨n, ?_, ?_, ?_⟩
  · rw [hy, hm, hdd]
    exact isDay_of_count _ v n (by simp only; rw [e]; omega)
  · rw [hy, hm, hdd]; exact v
  · obtain ⟨i1, i2⟩ := splitTimeMs_instant F (F.rnd z) z0 z1.le
    rw [← ht] at i1 i2
    dsimp only at i1 i2
    unfold slack at hc
    rw [abs_le] at hc
    generalize ((p.fs + 1000 * (p.s + 60 * (p.mm + 60 * p.h)) : ℤ) : ℚ) = T at *
    have ha : 0 ≤ |mjd| := abs_nonneg _
    generalize |mjd| = A at *
    norm_num at hc i1 i2 ⊢
    constructor <;> linarith

/-- **C172** (validity).  In IEEE double arithmetic every date and time `mjd2datef` prints exists, with milliseconds 0..999. -/
theorem C172_valid (mjd : ℚ) (p : PrintedMs) (hl : -2468569 ≤ mjd) (hp : mjd2datef Fl64.ieee mjd = some p) :
    Date.Valid ⟨p.y, p.m, p.d⟩ ∧ TimeValid p.h p.mm p.s ∧ 0 ≤ p.fs ∧ p.fs ≤ 999 := by
  obtain ⟨n, z, z0, z1, hn, hc, hd, ht⟩ := mjd2datef_some Fl64.ieee mjd p hl hp
  obtain ⟨v, e⟩ := toYmd_spec (n + 2400001) hn
  have hy : p.y = (toYmd (n + 2400001)).1 := congrArg Prod.fst hd
  have hm : p.m = (toYmd (n + 2400001)).2.1 := congrArg (fun t => t.2.1) hd
  have hdd : p.d = (toYmd (n + 2400001)).2.2 := congrArg (fun t => t.2.2) hd
  refine ⟨by rw [hy, hm, hdd]; exact v, ?_⟩
  have := splitTimeMs_valid z z0 z1
  rw [← ht] at this
  exact this

theorem fmt33d_len (n : ℤ) (h0 : 0 ≤ n) (h1 : n ≤ 999) : (fmt33d n).length = 3 := by
  have l3 := (natText_len 2 n.natAbs).mpr (by omega)
  unfold fmt33d
  rw [if_neg (by omega)]
  simp only [List.length_append, List.length_replicate]
  omega

/-- **C172** (buffer).  In IEEE arithmetic the text and its NUL fit the 24 byte buffer if and only if the year is between -999 and 9999. -/
theorem C172_fits (mjd : ℚ) (p : PrintedMs) (hl : -2468569 ≤ mjd) (hp : mjd2datef Fl64.ieee mjd = some p) :
    fits 24 (printDateMs p) ↔ (-999 ≤ p.y ∧ p.y ≤ 9999) := by
  obtain ⟨⟨v1, v2, v3, v4⟩, ⟨⟨a1, a2⟩, ⟨a3, a4⟩, a5, a6⟩, a7, a8⟩ := C172_valid mjd p hl hp
  simp only at v1 v2 v3 v4
  have v5 : p.d ≤ 31 := by
    unfold monthLength at v4
    split at v4
    · split at v4 <;> omega
    · split at v4 <;> omega
  have g := fmt4d_ge p.y
  rw [← fmt4d_len]
  unfold fits printDateMs
  simp only [List.length_append, List.length_cons, fmt22d_len p.m (by omega) (by omega),
    fmt22d_len p.d (by omega) (by omega), fmt22d_len p.h (by omega) (by omega),
    fmt22d_len p.mm (by omega) (by omega), fmt22d_len p.s (by omega) (by omega), fmt33d_len p.fs a7 a8]
  omega

/-- **C172** (range).  NULL is returned only outside -2468569 .. 997599999. -/
theorem C172_accepted (F : Fl64) (mjd : ℚ) (h0 : -2468569 ≤ mjd) (h1 : mjd ≤ 997599999) :
    (mjd2datef F mjd).isSome := by
  have b1 : DJMIN ≤ F.rnd (DJ1 + mjd) := by
    have := F.mono (DJMIN) (DJ1 + mjd) (by unfold DJMIN DJ1; linarith)
    rwa [show F.rnd DJMIN = DJMIN from F.half (-137139) (by norm_num)] at this
  have b2 : F.rnd (DJ1 + mjd) ≤ DJMAX := by
    have := F.mono (DJ1 + mjd) DJMAX (by unfold DJMAX DJ1; linarith)
    rwa [show F.rnd DJMAX = DJMAX by
      have := F.int 1000000000 (by norm_num); unfold DJMAX; exact_mod_cast this] at this
  unfold mjd2datef mjdPartsMs
  simp only
  rw [if_neg (by rw [not_or]; constructor <;> linarith)]
  split <;> simp

/-- The text has the year 10000 and 24 characters: the NUL is written past the end. -/
theorem C172_overflow_excluded : ∃ p, mjd2datef Fl64.ieee 2973484 = some p ∧ p.y = 10000 ∧ ¬ fits 24 (printDateMs p) :=
  ⟨⟨10000, 1, 1, 0, 0, 0, 0⟩, by decide +kernel, rfl, by decide +kernel⟩

/-- A concrete argument: 18 h and 2^-12 day (21.09375 s) of 1 January 2024. -/
example : (mjd2datef Fl64.ieee (60310 + 3 / 4 + 1 / 2 ^ 12)).map printDateMs = some b!"2024-01-01T18:00:21.093" := by decide +kernel

/-- Truncation: the double nearest to 12:00:07 of that day is printed as a millisecond less. -/
example : (mjd2datef Fl64.ieee (Fl64.ieee.rnd (60310 + 43207 / 86400))).map printDateMs = some b!"2024-01-01T12:00:06.999" := by
  decide +kernel

end SatSky.Props
