import Verif.Lemmas.CalendarLemmas

/-!
Property C10 and the day-counting half of C11/C12.
-/

namespace SatSky.Props

open SatSky Spec Cal

/-- **C10**.  On every valid date of a year ≥ 0 the number `date2mjd_nf` assigns to the next day is
one more. -/
theorem C10_next_day (x : Date) (hv : x.Valid) (hy : 0 ≤ x.y) :
    dateNum x.next.y x.next.m x.next.d = dateNum x.y x.m x.d + 1 := by
  have hy' : 0 ≤ x.next.y := by unfold Date.next; split <;> (try split) <;> simp only <;> omega
  rw [dateNum_floor _ _ _ hy, dateNum_floor _ _ _ hy']
  exact dateNumF_next x hv

/-- **C10** (anchor). MJD 0 is 17 November 1858. -/
theorem C10_epoch : dateNum mjdEpoch.y mjdEpoch.m mjdEpoch.d = 0 := by decide

theorem next_valid (x : Date) (hv : x.Valid) : x.next.Valid := by
  obtain ⟨h1, h2, h3, h4⟩ := hv
  unfold Date.next
  have pos : ∀ y m : Int, 1 ≤ monthLength y m := by
    intro y m; unfold monthLength; split
    · split <;> omega
    · split <;> omega
  split
  · exact ⟨h1, h2, by simp only; omega, by simp only; omega⟩
  · split
    · exact ⟨by simp only; omega, by simp only; omega, by simp, pos _ _⟩
    · exact ⟨by simp, by simp, by simp, pos _ _⟩

/-- **C10**, consequence: `n` days after a date (iterating the calendar's "next day") the number is
`n` larger; in particular MJD `n` is the date `n` days after 17 November 1858. -/
theorem C10_day_count (x : Date) (hv : x.Valid) (hy : 0 ≤ x.y) (n : Nat) :
    dateNum (x.plus n).y (x.plus n).m (x.plus n).d = dateNum x.y x.m x.d + n := by
  have key : ∀ n, (x.plus n).Valid ∧ 0 ≤ (x.plus n).y := by
    intro n
    induction n with
    | zero => exact ⟨hv, hy⟩
    | succ n ih =>
      refine ⟨next_valid _ ih.1, ?_⟩
      have := ih.2
      simp only [Date.plus]
      unfold Date.next
      split <;> (try split) <;> simp only <;> omega
  induction n with
  | zero => simp [Date.plus]
  | succ n ih =>
    have := C10_next_day _ (key n).1 (key n).2
    simp only [Date.plus] at this ⊢
    rw [this, ih]; push_cast; omega

/-- The hypotheses are met, e.g. by 28 February 1900 (no leap day), 28 February 2000 (leap day) and
31 December 1999. -/
example : (⟨1900, 2, 28⟩ : Date).Valid ∧ (⟨1900, 2, 28⟩ : Date).next = ⟨1900, 3, 1⟩
    ∧ (⟨2000, 2, 28⟩ : Date).next = ⟨2000, 2, 29⟩ ∧ (⟨1999, 12, 31⟩ : Date).next = ⟨2000, 1, 1⟩
    ∧ dateNum 2000 1 1 = 51544 := by decide

/-- **C12** (calendar part).  For every day number the code supports, the printed year, month, day are
a date that exists, and the next day number prints the next date; day number 2400001 (MJD 0) prints
17 November 1858. -/
theorem C12_calendar (jd : Int) (h : -68569 ≤ jd) :
    Date.Valid ⟨(toYmd jd).1, (toYmd jd).2.1, (toYmd jd).2.2⟩ ∧
    (⟨(toYmd (jd + 1)).1, (toYmd (jd + 1)).2.1, (toYmd (jd + 1)).2.2⟩ : Date)
      = Date.next ⟨(toYmd jd).1, (toYmd jd).2.1, (toYmd jd).2.2⟩ := by
  obtain ⟨v, e⟩ := toYmd_spec jd h
  obtain ⟨v', e'⟩ := toYmd_spec (jd + 1) (by omega)
  refine ⟨v, ?_⟩
  apply dateNumF_inj _ _ v' (next_valid _ v)
  rw [dateNumF_next _ v]
  simp only
  omega

theorem C12_calendar_epoch :
    (⟨(toYmd 2400001).1, (toYmd 2400001).2.1, (toYmd 2400001).2.2⟩ : Date) = mjdEpoch := by decide

/-- **C11** (calendar part).  Converting the day number of a valid date back gives the date. -/
theorem C11_calendar (x : Date) (hv : x.Valid) (hy : 0 ≤ x.y) :
    toYmd (dateNum x.y x.m x.d + 2400001) = (x.y, x.m, x.d) := by
  have hb : -68569 ≤ dateNum x.y x.m x.d + 2400001 := by
    rw [dateNum_floor _ _ _ hy]
    have := doy_bounds x hv
    unfold dateNumF
    have : 0 ≤ yearCount (mYear x.y x.m) + 366 := by
      unfold yearCount mYear; split <;> omega
    omega
  obtain ⟨v, e⟩ := toYmd_spec _ hb
  have := dateNumF_inj _ x v hv (by
    simp only; rw [e, dateNum_floor _ _ _ hy]; omega)
  have h1 := congrArg Date.y this
  have h2 := congrArg Date.m this
  have h3 := congrArg Date.d this
  simp only at h1 h2 h3
  exact Prod.ext h1 (Prod.ext h2 h3)

example : toYmd (dateNum 2024 2 29 + 2400001) = (2024, 2, 29) := by decide

end SatSky.Props
