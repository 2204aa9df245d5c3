import Verif.Lemmas.Checksum

/-!
Properties C01, C02: the TLE line checksum (`src/get_el.c` 80-107).
-/

namespace SatSky.Props

set_option linter.unusedSimpArgs false

open SatSky Spec GetEl

/-- The example lines of the comment `get_el.c` 263-265 (Meteor 2-08). -/
def meteor1 : CString :=
  b!"1 13113U          88245.60005115 0.00000076           63463-4 0  5998"
/-- Second line of the same element set. -/
def meteor2 : CString :=
  b!"2 13113  82.5386 288.0994 0015973 147.1294 213.0868 13.83869004325321"

/-- **C01** (acceptance).  Code 0 means exactly: TLE head, 68 text columns, a check column congruent
to the checksum, nothing printable after it. -/
theorem C01_accept_iff (s : CString) (hs : IsCStr s) :
    tleChecksum s = some 0 ↔ TleHead s ∧ TleBody s ∧ CheckColumn s ∧ TleEnd s := by
  obtain ⟨k1, k2, k3, k4, k5⟩ := tleChecksum_cases s
  constructor
  · intro h
    by_cases hh : TleHead s
    · by_cases hb : TleBody s
      · by_cases hl : s.length = 68
        · rw [k3 hh hb hl] at h; simp at h
        · have hl' : 69 ≤ s.length := by have := hb.1; omega
          by_cases he : TleEnd s
          · have hc : s[68]? = some s[68] := List.getElem?_eq_getElem (by omega)
            rw [k5 hh hb he _ hc] at h
            refine ⟨hh, hb, ⟨_, hc, ?_⟩, he⟩
            simp only [Option.some.injEq] at h
            omega
          · rw [k4 hh hb hl' he] at h; simp at h
      · rw [k2 hh hb] at h; simp at h
    · rw [k1 hh hs] at h; simp at h
  · rintro ⟨hh, hb, ⟨c, hc, hm⟩, he⟩
    rw [k5 hh hb he c hc]
    simp only [Option.some.injEq]
    omega

/-- **C01** (every line as the format wants it is accepted). -/
theorem C01_wellformed_accepted (s : CString) (hs : IsCStr s) (h : WellFormedLine s) :
    tleChecksum s = some 0 := by
  obtain ⟨hh, hb, ⟨c, hc, hd, hv⟩, he⟩ := h
  exact (C01_accept_iff s hs).mpr ⟨hh, hb, ⟨c, hc, by omega⟩, he⟩

theorem weight_of_digit {c : CChar} (h : Digit c) : weight c = c - 48 := by
  unfold weight; rw [if_pos h]

theorem dataSum_set (s : CString) (i : Nat) (x y : CChar) (hi : i < 68) (hx : s[i]? = some x) :
    dataSum (s.set i y) = dataSum s - weight x + weight y := by
  obtain ⟨hil, hxe⟩ := List.getElem?_eq_some_iff.mp hx
  unfold dataSum
  have key : ∀ (l : CString) (n j : Nat), j < n → l[j]? = some x →
      (((l.set j y).take n).map weight).sum = ((l.take n).map weight).sum - weight x + weight y := by
    intro l
    induction l with
    | nil => intro n j _ h; simp at h
    | cons c t ih =>
      intro n j hjn h
      cases n with
      | zero => omega
      | succ n =>
        cases j with
        | zero =>
          simp at h; subst h
          simp; omega
        | succ j =>
          have := ih n j (by omega) (by simpa using h)
          simp only [List.set_cons_succ, List.take_succ_cons, List.map_cons, List.sum_cons, this]
          omega
  exact key s 68 i hi hx

/-- **C01** (error detection).  Replace any one digit of an accepted line (check digit included) by a
different digit: the line is not accepted any more, and unless the very first character was hit
the code is a positive one (checksum error). -/
theorem C01_single_digit_detected (s : CString) (hs : IsCStr s) (h : tleChecksum s = some 0)
    (i : Nat) (hi : i ≤ 68) (d d' : CChar) (hd : s[i]? = some d) (hdd : Digit d)
    (hd' : Digit d') (hne : d' ≠ d) :
    ∃ r, tleChecksum (s.set i d') = some r ∧ r ≠ 0 ∧ (0 < i → 1 ≤ r ∧ r ≤ 9) := by
  obtain ⟨hh, hb, ⟨c, hc, hm⟩, he⟩ := (C01_accept_iff s hs).mp h
  have hlen : 68 < s.length := (List.getElem?_eq_some_iff.mp hc).1
  have hs' : IsCStr (s.set i d') := by
    intro x hx
    rcases List.mem_or_eq_of_mem_set hx with hx | rfl
    · exact hs x hx
    · unfold Digit at hd'; omega
  obtain ⟨k1, k2, k3, k4, k5⟩ := tleChecksum_cases (s.set i d')
  by_cases hh' : TleHead (s.set i d')
  · have hb' : TleBody (s.set i d') := by
      refine ⟨by simpa using hb.1, ?_⟩
      intro x hx
      rw [List.take_set] at hx
      rcases List.mem_or_eq_of_mem_set hx with hx | rfl
      · exact hb.2 x hx
      · unfold Digit at hd'; unfold Printable; omega
    have he' : TleEnd (s.set i d') := by
      intro x hx
      rw [List.getElem?_set_ne (by omega)] at hx
      exact he x hx
    by_cases h68 : i = 68
    · subst h68
      have hcd : c = d := by rw [hc] at hd; simpa using hd
      have e68 : (s.set 68 d')[68]? = some d' := by simp [hlen]
      rw [k5 hh' hb' he' d' e68]
      have hds : dataSum (s.set 68 d') = dataSum s := by
        unfold dataSum; rw [List.take_set_of_le (by omega)]
      rw [hds]
      subst hcd
      unfold Digit at hdd hd'
      refine ⟨_, rfl, by omega, fun _ => by omega⟩
    · have e68 : (s.set i d')[68]? = some c := by rw [List.getElem?_set_ne (by omega)]; exact hc
      rw [k5 hh' hb' he' c e68]
      rw [dataSum_set s i d d' (by omega) hd, weight_of_digit hdd, weight_of_digit hd']
      unfold Digit at hdd hd'
      refine ⟨_, rfl, by omega, fun _ => by omega⟩
  · refine ⟨-1, k1 hh' hs', by decide, ?_⟩
    intro hi0
    exfalso; apply hh'
    obtain ⟨h0, h1⟩ := hh
    have hi1 : i ≠ 1 := by
      rintro rfl
      rw [hd] at h1; simp at h1; unfold Digit at hdd; omega
    refine ⟨?_, ?_⟩
    · rw [List.getElem?_set_ne (by omega)]; exact h0
    · rw [List.getElem?_set_ne (by omega)]; exact h1

/-- Non-vacuity: the Meteor 2-08 line is accepted, and corrupting column 20 is noticed. -/
example : IsCStr meteor1 ∧ tleChecksum meteor1 = some 0 ∧ meteor1[20]? = some 50
    ∧ tleChecksum (meteor1.set 20 51) = some 1 := by decide +kernel

/-- The full claim "only lines whose check column is the right *digit* are accepted" is false: the
check column is not tested to be a digit; here the final '8' is replaced by 'B' (code 66 = 48+18). -/
theorem C63_nondigit_check_accepted_violated :
    ∃ s : CString, IsCStr s ∧ tleChecksum s = some 0 ∧ ¬ WellFormedLine s := by
  refine ⟨meteor1.set 68 66, by decide +kernel, by decide +kernel, ?_⟩
  rintro ⟨_, _, ⟨c, hc, hd, _⟩, _⟩
  have : (meteor1.set 68 66)[68]? = some 66 := by decide +kernel
  rw [this] at hc
  simp at hc; subst hc
  revert hd; decide

/-- **C02** (codes).  For every C string: which of the results is given when.  In particular the
read beyond the terminator (`none`) happens exactly for 68-character lines that look like TLE lines. -/
theorem C02_result (s : CString) (hs : IsCStr s) :
    (tleChecksum s = none ↔ TleHead s ∧ TleBody s ∧ s.length = 68) ∧
    (tleChecksum s = some (-1) ↔ ¬ TleHead s) ∧
    (tleChecksum s = some (-2) ↔ TleHead s ∧ ¬ TleBody s) ∧
    (tleChecksum s = some (-3) ↔ TleHead s ∧ TleBody s ∧ ¬ TleEnd s) ∧
    (∀ r, tleChecksum s = some r → -3 ≤ r ∧ r ≤ 9) := by
  obtain ⟨k1, k2, k3, k4, k5⟩ := tleChecksum_cases s
  by_cases hh : TleHead s
  · by_cases hb : TleBody s
    · by_cases hl : s.length = 68
      · have he : TleEnd s := by
          intro c hc
          have := (List.getElem?_eq_some_iff.mp hc).1
          omega
        simp [k3 hh hb hl, hh, hb, hl, he]
      · have hl' : 69 ≤ s.length := by have := hb.1; omega
        by_cases he : TleEnd s
        · have hc : s[68]? = some s[68] := List.getElem?_eq_getElem (by omega)
          rw [k5 hh hb he _ hc]
          simp only [hh, hb, he, hl, Option.some.injEq, reduceCtorEq, not_true, and_false, and_true,
            true_and, false_iff, iff_false]
          refine ⟨?_, ?_, ?_, ?_⟩
          · omega
          · omega
          · omega
          · rintro r rfl; omega
        · rw [k4 hh hb hl' he]; simp [hh, hb, he, hl]
    · rw [k2 hh hb]; simp [hh, hb]
  · rw [k1 hh hs]; simp [hh]

/-- **C63** (partial).  If the check column of an accepted line happens to be a digit, the line is as
the format wants it.  Missing: the code does not test that it is a digit. -/
theorem C63_digit_check_partial (s : CString) (hs : IsCStr s) (h : tleChecksum s = some 0)
    (hd : ∀ c, s[68]? = some c → Digit c) : WellFormedLine s := by
  obtain ⟨h1, h2, ⟨c, hc, he⟩, h4⟩ := (C01_accept_iff s hs).mp h
  refine ⟨h1, h2, ⟨c, hc, hd c hc, ?_⟩, h4⟩
  have := hd c hc
  unfold Digit at this
  omega

example : tleChecksum meteor1 = some 0 ∧ meteor1[68]? = some 56 ∧ Digit 56 := by decide +kernel

/-- The memory-safety half of C02 is violated by exactly-68-character lines: the routine looks at the
character after the terminator. -/
theorem C02_reads_past_end_violated : ∃ s : CString, IsCStr s ∧ tleChecksum s = none :=
  ⟨meteor1.take 68, by decide +kernel, by decide +kernel⟩

/-- **C02** (memory safety, the part that holds): for every other line nothing beyond the terminator
is read. -/
theorem C02_safe_partial (s : CString) (hs : IsCStr s) (h : s.length ≠ 68) :
    ∃ r, tleChecksum s = some r := by
  have := (C02_result s hs).1
  cases hc : tleChecksum s with
  | none => exact absurd (this.mp hc).2.2 h
  | some r => exact ⟨r, rfl⟩

example : tleChecksum [] = some (-1) ∧ tleChecksum b!"1 25544U" = some (-2)
    ∧ tleChecksum (meteor1 ++ b!"x") = some (-3) ∧ tleChecksum (meteor2 ++ [10]) = some 0 := by
  decide +kernel

end SatSky.Props
