import Verif.Props.Norad

/-!
Properties C04 (return code of `parse_elements`), C05 (epoch), C06 (angles), C07 (exponential
fields), C08 (base-36 fields).
-/

namespace SatSky.Props

open SatSky Spec GetEl

set_option linter.unusedSimpArgs false

/-- What the checks before the field readers give, for lines long enough not to run into the
68-character read of C02. -/
theorem parseCheck_spec (l1 l2 : CString) (h1 : IsCStr l1) (h2 : IsCStr l2)
    (n1 : l1.length ≠ 68) (n2 : l2.length ≠ 68) :
    ∃ rval problem, parseCheck l1 l2 = some (rval, problem) ∧
      (rval = 0 ↔ LooksOk 49 l1 ∧ LooksOk 50 l2) ∧ rval ≤ 0 ∧
      (rval = 0 → problem = documentedCode l1 l2) := by
  -- checksum of a line, in terms of the specification
  have key : ∀ (f : CChar) (s : CString), IsCStr s → s.length ≠ 68 → s[0]? = some f →
      ∃ r, tleChecksum s = some r ∧ (r ≥ 0 ↔ LooksOk f s) ∧
        (LooksOk f s → (r = 0 ↔ CheckColumn s)) := by
    intro f s hs hn h0
    obtain ⟨r, hr⟩ := C02_safe_partial s hs hn
    obtain ⟨k1, k2, k3, k4, k5⟩ := C02_result s hs
    refine ⟨r, hr, ?_, ?_⟩
    · rw [hr] at k2 k3 k4
      simp only [Option.some.injEq] at k2 k3 k4
      have hb := k5 r hr
      constructor
      · intro h
        have hh : TleHead s := by
          by_cases hx : TleHead s
          · exact hx
          · exact absurd (k2.mpr hx) (by omega)
        have hbo : TleBody s := by
          by_cases hx : TleBody s
          · exact hx
          · exact absurd (k3.mpr ⟨hh, hx⟩) (by omega)
        have he : TleEnd s := by
          by_cases hx : TleEnd s
          · exact hx
          · exact absurd (k4.mpr ⟨hh, hbo, hx⟩) (by omega)
        exact ⟨h0, hh, hbo, by have := hbo.1; omega, he⟩
      · rintro ⟨_, hh, hbo, _, he⟩
        have n1 : r ≠ -1 := fun e => (k2.mp e) hh
        have n2 : r ≠ -2 := fun e => (k3.mp e).2 hbo
        have n3 : r ≠ -3 := fun e => (k4.mp e).2.2 he
        omega
    · rintro ⟨_, hh, hbo, _, he⟩
      have := C01_accept_iff s hs
      rw [hr] at this
      simp only [Option.some.injEq] at this
      rw [this]
      simp [hh, hbo, he]
  have rd0 : ∀ s : CString, ∃ c, rd s 0 = some c := by
    intro s; cases s with
    | nil => exact ⟨0, rfl⟩
    | cons c t => exact ⟨c, rfl⟩
  obtain ⟨a, ha⟩ := rd0 l1
  obtain ⟨b, hb⟩ := rd0 l2
  unfold parseCheck
  simp only [ha, hb, Option.bind_eq_bind, Option.bind_some]
  by_cases hab : a ≠ 49 ∨ b ≠ 50
  · refine ⟨-104, 0, by simp [hab], ?_, by omega, by omega⟩
    constructor
    · omega
    · rintro ⟨⟨k1, _⟩, ⟨k2, _⟩⟩
      have e1 := rd_of_getElem? k1
      have e2 := rd_of_getElem? k2
      rw [ha] at e1; rw [hb] at e2
      simp at e1 e2; omega
  · have ha' : a = 49 := by omega
    have hb' : b = 50 := by omega
    subst ha' hb'
    have g1 := getElem?_of_rd ha (by decide)
    have g2 := getElem?_of_rd hb (by decide)
    obtain ⟨r1, e1, p1, q1⟩ := key 49 l1 h1 n1 g1
    obtain ⟨r2, e2, p2, q2⟩ := key 50 l2 h2 n2 g2
    simp only [hab, if_false, e1, e2, Option.bind_some]
    by_cases hr1 : r1 > 0
    · have L1 := p1.mp (by omega)
      have c1 : ¬ CheckColumn l1 := fun h => by have := (q1 L1).mpr h; omega
      simp only [hr1, if_true, Option.bind_some]
      by_cases hr2 : r2 > 0
      · have L2 := p2.mp (by omega)
        have c2 : ¬ CheckColumn l2 := fun h => by have := (q2 L2).mpr h; omega
        exact ⟨0, 3, by simp [hr2], by simp [L1, L2], by omega, by simp [documentedCode, c1, c2]⟩
      · refine ⟨r2, 1, by simp [hr2], ?_, by omega, ?_⟩
        · constructor
          · intro h; exact ⟨L1, p2.mp (by omega)⟩
          · rintro ⟨_, h⟩; have := p2.mpr h; omega
        · intro h
          have L2 := p2.mp (by omega)
          have c2 : CheckColumn l2 := (q2 L2).mp h
          simp [documentedCode, c1, c2]
    · simp only [hr1, if_false, Option.bind_some]
      by_cases hz : r1 = 0
      · subst hz
        have L1 := p1.mp (by omega)
        have c1 : CheckColumn l1 := (q1 L1).mp rfl
        simp only [ne_eq, not_true, if_false]
        by_cases hr2 : r2 > 0
        · have L2 := p2.mp (by omega)
          have c2 : ¬ CheckColumn l2 := fun h => by have := (q2 L2).mpr h; omega
          exact ⟨0, 2, by simp [hr2], by simp [L1, L2], by omega, by simp [documentedCode, c1, c2]⟩
        · refine ⟨r2, 0, by simp [hr2], ?_, by omega, ?_⟩
          · constructor
            · intro h; exact ⟨L1, p2.mp (by omega)⟩
            · rintro ⟨_, h⟩; have := p2.mpr h; omega
          · intro h
            have L2 := p2.mp (by omega)
            have c2 : CheckColumn l2 := (q2 L2).mp h
            simp [documentedCode, c1, c2]
      · refine ⟨r1 - 100, 0, by simp [hz], ?_, by omega, by omega⟩
        constructor
        · omega
        · rintro ⟨h, _⟩; have := p1.mpr h; omega

theorem parseFields_ephType {l1 l2 : CString} {t : Tle} (h : parseFields l1 l2 = some t) :
    rd l1 62 = some t.ephType := by
  unfold parseFields at h
  simp only [Option.bind_eq_bind, Option.bind_eq_some_iff] at h
  obtain ⟨c18, _, c19, _, p20, _, ⟨day, frac⟩, _, p2, _, norad, _, tb, _, bul, _, cls, _, des, _, tb2,
    _, rev, _, et, het, h⟩ := h
  by_cases hH : et = 72
  · simp only [hH, if_true, Option.bind_eq_some_iff] at h
    obtain ⟨x0, _, v0, _, x1, _, v1, _, x2, _, v2, _, h⟩ := h
    simp at h; subst h; subst hH; exact het
  · simp only [hH, if_false, Option.bind_eq_some_iff] at h
    obtain ⟨q1, _, a1, _, q2, _, a2, _, q3, _, a3, _, q4, _, a4, _, q5, _, a5, _, q6, _, a6, _, q7, _,
      a7, _, q8, _, q9, _, a9, _, q10, _, a10, _, h⟩ := h
    simp at h; subst h; exact het

/-- **C04** (partial).  For every pair of lines on which `parse_elements` is defined and whose element
type is not 'H', the return code is negative exactly when one of the lines is not a TLE line, and
otherwise it is the documented 0/1/2/3.  Missing from the full claim: 'H' element sets (next theorem)
and lines of exactly 68 characters (C02). -/
theorem C04_return_code_partial (l1 l2 : CString) (h1 : IsCStr l1) (h2 : IsCStr l2)
    (n1 : l1.length ≠ 68) (n2 : l2.length ≠ 68) (hH : l1[62]? ≠ some 72)
    (r : Int) (o : Option Tle) (h : parseElements l1 l2 = some (r, o)) :
    (r < 0 ↔ ¬ (LooksOk 49 l1 ∧ LooksOk 50 l2)) ∧
    (LooksOk 49 l1 ∧ LooksOk 50 l2 → r = documentedCode l1 l2) ∧
    (r = 0 → tleChecksum l1 = some 0 ∧ tleChecksum l2 = some 0) := by
  obtain ⟨rval, problem, he, hz, hle, hp⟩ := parseCheck_spec l1 l2 h1 h2 n1 n2
  unfold parseElements at h
  simp only [he, Option.bind_eq_bind, Option.bind_some] at h
  have dc : documentedCode l1 l2 ≥ 0 := by
    unfold documentedCode; split <;> split <;> omega
  by_cases hr : rval = 0
  · subst hr
    simp only [if_true, Option.bind_eq_some_iff] at h
    obtain ⟨t, ht, h⟩ := h
    have het : t.ephType ≠ 72 := by
      intro e
      have := parseFields_ephType ht
      rw [e] at this
      exact hH (getElem?_of_rd this (by decide))
    simp only [het, if_false] at h
    simp at h
    obtain ⟨rfl, rfl⟩ := h
    have hl := hz.mp rfl
    have hp' := hp rfl
    refine ⟨?_, fun _ => hp', ?_⟩
    · constructor
      · intro hx; omega
      · intro hx; exact absurd hl hx
    · intro hx
      have : CheckColumn l1 ∧ CheckColumn l2 := by
        rw [hx] at hp'
        unfold documentedCode at hp'
        by_cases c1 : CheckColumn l1 <;> by_cases c2 : CheckColumn l2 <;>
          simp only [c1, c2, if_true, if_false] at hp' <;>
          first | exact ⟨c1, c2⟩ | (exfalso; omega)
      constructor
      · exact (C01_accept_iff l1 h1).mpr ⟨hl.1.2.1, hl.1.2.2.1, this.1, hl.1.2.2.2.2⟩
      · exact (C01_accept_iff l2 h2).mpr ⟨hl.2.2.1, hl.2.2.2.1, this.2, hl.2.2.2.2.2⟩
  · simp only [hr, if_false] at h
    simp at h
    obtain ⟨rfl, rfl⟩ := h
    have hn : ¬ (LooksOk 49 l1 ∧ LooksOk 50 l2) := fun hx => hr (hz.mpr hx)
    refine ⟨⟨fun _ => hn, fun _ => by omega⟩, fun hx => absurd hx hn, fun hx => absurd hx hr⟩

/-- Lines with an 'H' element set and wrong check digits in both lines. -/
def highLine1 : CString :=
  b!"1 40391U 15007B   15091.99922241 +00ABCDEF -00012345 +0000ZZZZH  9990"
/-- Second line. -/
def highLine2 : CString :=
  b!"2 40391 [valid range, acc]       +00000123 -00000ABC +00000001    0 0"

/-- **C04** fails in full: for an 'H' element set both checksums can be wrong and yet the return code
is 0 (`get_el.c` 337). -/
theorem C04_high_type_violated :
    ∃ l1 l2 : CString, IsCStr l1 ∧ IsCStr l2 ∧ LooksOk 49 l1 ∧ LooksOk 50 l2 ∧
      ¬ CheckColumn l1 ∧ ¬ CheckColumn l2 ∧
      ∃ t, parseElements l1 l2 = some (0, some t) := by
  have key : ∀ s : CString, (∃ c, s[68]? = some c ∧ (c - 48) % 10 ≠ dataSum s % 10) →
      ¬ CheckColumn s := by
    rintro s ⟨c, hc, hn⟩ ⟨c', hc', he⟩
    rw [hc] at hc'; simp at hc'; subst hc'; exact hn he
  have fin : ∀ s : CString, s.length = 69 → TleEnd s := by
    intro s hs c hc
    have := (List.getElem?_eq_some_iff.mp hc).1
    omega
  refine ⟨highLine1, highLine2, by decide +kernel, by decide +kernel, ⟨by decide, ?_, ?_, by decide, fin _ (by decide)⟩,
    ⟨by decide, ?_, ?_, by decide, fin _ (by decide)⟩, key _ ⟨48, by decide, by decide +kernel⟩,
    key _ ⟨48, by decide, by decide +kernel⟩, ?_⟩
  · exact ⟨Or.inl (by decide), by decide⟩
  · exact ⟨by decide, by decide +kernel⟩
  · exact ⟨Or.inr (by decide), by decide⟩
  · exact ⟨by decide, by decide +kernel⟩
  · exact ⟨((parseElements highLine1 highLine2).get (by decide +kernel)).2.get (by decide +kernel),
      by decide +kernel⟩

/-- Non-vacuity of C04: a standard pair with good and with bad checksum. -/
example : (∃ t, parseElements meteor1 meteor2 = some (0, some t)) ∧ meteor1[62]? = some 48 ∧
    (parseElements (meteor1.set 20 51) meteor2).map (·.1) = some 1 ∧
    (parseElements meteor1 (meteor2.set 20 51)).map (·.1) = some 2 ∧
    (parseElements (meteor1.set 20 51) (meteor2.set 20 51)).map (·.1) = some 3 ∧
    (parseElements meteor2 meteor1).map (·.1) = some (-104) := by
  refine ⟨⟨(parseElements meteor1 meteor2).get (by decide +kernel) |>.2.get (by decide +kernel), by decide +kernel⟩,
    by decide, by decide +kernel, by decide +kernel, by decide +kernel, by decide +kernel⟩

/-! ### C05: epoch -/

theorem days_closed (n : Nat) (h1 : 1 ≤ n) (h2 : n ≤ 200) :
    daysSince1900 n = 365 * n + (n - 1) / 4 := by
  induction n with
  | zero => omega
  | succ n ih =>
    by_cases hn : n = 0
    · subst hn; decide
    · have := ih (by omega) (by omega)
      unfold daysSince1900
      rw [this]
      unfold yearLength
      by_cases hl : Leap (1900 + n)
      · rw [if_pos hl]; unfold Leap at hl; omega
      · rw [if_neg hl]; unfold Leap at hl; omega

/-- **C05**.  For every two-digit year and every day of the year, `year * 365 + (year-1)/4 + day`
on top of `J1900` is the Julian date of that calendar day.  (`J1900` is 2451545.5 - 36525 - 1 =
2415019.5; the statement is doubled to stay in the integers.) -/
theorem C05_epoch_day (a b d : Nat) (ha : a ≤ 9) (hb : b ≤ 9) :
    let year := epochYear (48 + (a : Int)) (48 + (b : Int))
    2 * ((d : Int) + yearDays year) + (2 * 2451545 + 1 - 2 * 36525 - 2)
      = twiceJd (fullYear (10 * a + b)) d := by
  intro year
  have hy : year = ((fullYear (10 * a + b) - 1900 : Nat) : Int) := by
    have e : (if (48 + (a : Int)) ≥ 48 then 48 + (b : Int) - 48 + (48 + (a : Int) - 48) * 10
        else 48 + (b : Int) - 48) = ((10 * a + b : Nat) : Int) := by
      rw [if_pos (by omega)]; push_cast; omega
    simp only [year, epochYear, fullYear]
    rw [e]
    split <;> split <;> omega
  have hr : 57 ≤ fullYear (10 * a + b) - 1900 ∧ fullYear (10 * a + b) - 1900 ≤ 156 := by
    unfold fullYear; split <;> omega
  rw [hy]
  unfold twiceJd yearDays
  rw [days_closed _ (by omega) (by omega), Int.tdiv_eq_ediv_of_nonneg (by omega)]
  omega

/-- C05, consequences: the next day is one later, and 1 January follows 31 December, in every year of
the window. -/
theorem C05_year_rollover (y : Nat) (h : 1900 ≤ y) :
    twiceJd (y + 1) 1 = twiceJd y (yearLength y) + 2 ∧ ∀ d, 1 ≤ d → twiceJd y (d + 1) = twiceJd y d + 2 := by
  constructor
  · unfold twiceJd
    have e : y + 1 - 1900 = (y - 1900) + 1 := by omega
    have e2 : 1900 + (y - 1900) = y := by omega
    have hl : 1 ≤ yearLength y := by unfold yearLength; split <;> omega
    rw [e, daysSince1900, e2]
    push_cast
    omega
  · intro d hd; unfold twiceJd; push_cast; omega

/-- The window ends are as documented: 57 is 1957, 56 is 2056; 2000-01-01 is JD 2451544.5. -/
example : fullYear 57 = 1957 ∧ fullYear 56 = 2056 ∧ twiceJd 2000 1 = 4903089
    ∧ epochYear 53 55 = 57 ∧ epochYear 53 54 = 156 := by decide

/-! ### C06: angles -/

theorem getAngleLoop_digits (ds : List Nat) (hd : ∀ d ∈ ds, d ≤ 9) (acc : Nat) (t : CString)
    (hb : ofDigits acc ds ≤ 2147483647) :
    getAngleLoop (acc : Int) (digitChars ds ++ t) = getAngleLoop ((ofDigits acc ds : Nat) : Int) t := by
  induction ds generalizing acc with
  | nil => rfl
  | cons d ds ih =>
    have hd0 : d ≤ 9 := hd d (by simp)
    have hmono : acc * 10 + d ≤ ofDigits (acc * 10 + d) ds := by
      rw [ofDigits_acc]
      have : 1 ≤ 10 ^ ds.length := Nat.one_le_pow _ _ (by omega)
      have := Nat.mul_le_mul_left (acc * 10 + d) this
      omega
    have e1 : digitChars (d :: ds) ++ t = ((48 : Int) + (d : Int)) :: (digitChars ds ++ t) := rfl
    rw [e1]
    simp only [getAngleLoop]
    rw [if_neg (by omega), if_neg (by omega)]
    have e2 : ((acc : Int) * 10 + ((48 : Int) + (d : Int) - 48)) = ((acc * 10 + d : Nat) : Int) := by
      push_cast; omega
    rw [e2]
    have hb' : ofDigits (acc * 10 + d) ds ≤ 2147483647 := hb
    have e3 : int32 ((acc * 10 + d : Nat) : Int) = some ((acc * 10 + d : Nat) : Int) := by
      unfold int32; rw [if_pos]; unfold inInt; omega
    simp only [e3, Option.bind_eq_bind, Option.bind_some]
    exact ih (fun x hx => hd x (by simp [hx])) _ hb'

/-- **C06** (angles).  A right-justified angle `DDD.DDDD` followed by a blank is read as the integer
formed by its digits, i.e. 10^4 times (for four decimals) the value. -/
theorem C06_angle (k : Nat) (ip fp : List Nat) (h1 : ∀ d ∈ ip, d ≤ 9) (h2 : ∀ d ∈ fp, d ≤ 9)
    (hl : ip.length + fp.length ≤ 9) (t : CString) :
    getAngle (List.replicate k 32 ++ digitChars ip ++ [46] ++ digitChars fp ++ 32 :: t)
      = some ((ofDigits 0 ip * 10 ^ fp.length + ofDigits 0 fp : Nat) : Int) := by
  have hcat : ofDigits 0 ip * 10 ^ fp.length + ofDigits 0 fp = ofDigits (ofDigits 0 ip) fp := by
    rw [← ofDigits_acc]
  have b1 := ofDigits_lt ip h1
  have b2 := ofDigits_lt fp h2
  have hbound : ofDigits 0 ip * 10 ^ fp.length + ofDigits 0 fp < 10 ^ 9 := by
    have : (ofDigits 0 ip + 1) * 10 ^ fp.length ≤ 10 ^ ip.length * 10 ^ fp.length :=
      Nat.mul_le_mul_right _ b1
    rw [← Nat.pow_add] at this
    have h9 : 10 ^ (ip.length + fp.length) ≤ 10 ^ 9 := Nat.pow_le_pow_right (by omega) hl
    rw [Nat.add_mul] at this
    omega
  have hip : ofDigits 0 ip ≤ 2147483647 := by
    have : 10 ^ ip.length ≤ 10 ^ 9 := Nat.pow_le_pow_right (by omega) (by omega)
    omega
  have strip : ∀ (j : Nat) (u : CString),
      (List.replicate j (32 : Int) ++ u).dropWhile (· == 32) = u.dropWhile (· == 32) := by
    intro j u
    induction j with
    | zero => rfl
    | succ j ih => rw [List.replicate_succ, List.cons_append, List.dropWhile_cons_of_pos (by decide), ih]
  have head : (digitChars ip ++ 46 :: (digitChars fp ++ 32 :: t)).dropWhile (· == (32 : Int))
      = digitChars ip ++ 46 :: (digitChars fp ++ 32 :: t) := by
    cases ip with
    | nil => simp [digitChars]
    | cons a b =>
      have ha : a ≤ 9 := h1 a (by simp)
      have e : digitChars (a :: b) = ((48 : Int) + (a : Int)) :: digitChars b := rfl
      rw [e, List.cons_append, List.dropWhile_cons_of_neg]
      simp; omega
  have assoc : List.replicate k 32 ++ digitChars ip ++ [46] ++ digitChars fp ++ 32 :: t
      = List.replicate k 32 ++ (digitChars ip ++ 46 :: (digitChars fp ++ 32 :: t)) := by simp
  unfold getAngle
  rw [assoc, strip, head]
  have s1 := getAngleLoop_digits ip h1 0 (46 :: (digitChars fp ++ 32 :: t)) hip
  have s2 := getAngleLoop_digits fp h2 (ofDigits 0 ip) (32 :: t) (by rw [← hcat]; omega)
  have c0 : ((0 : Nat) : Int) = 0 := rfl
  rw [c0] at s1
  rw [s1]
  have step : getAngleLoop ((ofDigits 0 ip : Nat) : Int) (46 :: (digitChars fp ++ 32 :: t))
      = getAngleLoop ((ofDigits 0 ip : Nat) : Int) (digitChars fp ++ 32 :: t) := by
    simp [getAngleLoop]
  rw [step, s2, hcat]
  simp [getAngleLoop]

example : getAngle b!" 82.5386 288.0994" = some 825386 ∧ getAngle b!"288.0994 " = some 2880994
    ∧ getAngle b!"  0.0001 x" = some 1 := by decide +kernel

/-- The blank after the field is needed: without it the reader runs off the end of the string. -/
theorem C64_angle_unterminated_violated : getAngle b!"288.0994" = none := by decide +kernel

/-- **C06** (integer fields).  Up to eight digits followed by a non-digit (after any blanks) are read
as the number they form: eccentricity, ndot/2, both parts of the mean motion, revolution number. -/
theorem C06_integer_field (k : Nat) (ds : List Nat) (hd : ∀ d ∈ ds, d ≤ 9) (hne : ds ≠ [])
    (hl : ds.length ≤ 8) (t : CString) (ht : NoDigitHead t) :
    atoi (List.replicate k 32 ++ (digitChars ds ++ t)) = some ((ofDigits 0 ds : Nat) : Int) := by
  rw [atoi_spaces]
  exact atoi_digits ds hd hne (by omega) ht

/-- **C06** (`DD.DDDDDDDD` fields: mean motion).  Blank padding to width 3, then the point, then
eight digits. -/
theorem C06_eight_places (k : Nat) (ip fp : List Nat) (h1 : ∀ d ∈ ip, d ≤ 9) (h2 : ∀ d ∈ fp, d ≤ 9)
    (hi : ip ≠ []) (hf : fp ≠ []) (hw : k + ip.length = 3) (hl : fp.length ≤ 8) (t : CString)
    (ht : NoDigitHead t) :
    getEightPlaces (List.replicate k 32 ++ (digitChars ip ++ 46 :: (digitChars fp ++ t)))
      = some (((ofDigits 0 ip : Nat) : Int), ((ofDigits 0 fp : Nat) : Int)) := by
  have hip : ip.length ≤ 3 := by omega
  have a1 : atoi (List.replicate k 32 ++ (digitChars ip ++ 46 :: (digitChars fp ++ t)))
      = some ((ofDigits 0 ip : Nat) : Int) := by
    apply C06_integer_field k ip h1 hi (by omega)
    intro c hc; simp at hc; subst hc; decide
  have lenk : (List.replicate k (32 : Int) ++ digitChars ip ++ [46]).length = 4 := by
    simp [digitChars]; omega
  have assoc : List.replicate k 32 ++ (digitChars ip ++ 46 :: (digitChars fp ++ t))
      = (List.replicate k (32 : Int) ++ digitChars ip ++ [46]) ++ (digitChars fp ++ t) := by simp
  have a2 : ptrAdd (List.replicate k 32 ++ (digitChars ip ++ 46 :: (digitChars fp ++ t))) 4
      = some (digitChars fp ++ t) := by
    unfold ptrAdd
    rw [assoc, if_pos (by rw [List.length_append]; omega)]
    rw [List.drop_left' lenk]
  unfold getEightPlaces
  simp only [a1, a2, Option.bind_eq_bind, Option.bind_some,
    atoi_digits fp h2 hf (by omega) ht]
  rfl

example : getEightPlaces b!" 13.83869004" = some (13, 83869004)
    ∧ getEightPlaces b!"245.60005115 0.0" = some (245, 60005115) := by decide +kernel

/-! ### C07: exponential fields -/

/-- **C07**.  `sDDDDDtE`: with a nonzero mantissa the value is `±DDDDD × 10^(-5 ± E)`; a zero
mantissa gives zero.  `s` is blank, '+' or '-'; `t` is any non-digit, '-' meaning a negative
exponent. -/
theorem C07_sci (s t : CChar) (ds : List Nat) (e : Nat) (u : CString)
    (hs : s = 32 ∨ s = 43 ∨ s = 45) (hd : ∀ d ∈ ds, d ≤ 9) (hl : ds.length = 5)
    (ht : ¬ Digit t) (he : e ≤ 9) :
    ∃ v : Dec, sci (s :: (digitChars ds ++ t :: (48 + (e : Int)) :: u)) = some v ∧
      (ofDigits 0 ds = 0 → v.mant = 0) ∧
      (ofDigits 0 ds ≠ 0 →
        v.mant = (if s = 45 then -1 else 1) * ((ofDigits 0 ds : Nat) : Int) ∧
        v.expo = -5 + (if t = 45 then -(e : Int) else (e : Int))) := by
  match ds, hl with
  | [a, b, c, d, f], _ =>
  have ha := hd a (by simp)
  have hb := hd b (by simp)
  have hc := hd c (by simp)
  have hdd := hd d (by simp)
  have hf := hd f (by simp)
  have hlt := ofDigits_lt [a, b, c, d, f] hd
  have hlt' : ofDigits 0 [a, b, c, d, f] < 100000 := by simpa using hlt
  have hnd : NoDigitHead (t :: (48 + (e : Int)) :: u) := by
    intro c hc; simp at hc; subst hc; exact ht
  have hat : atoi (s :: (digitChars [a, b, c, d, f] ++ t :: (48 + (e : Int)) :: u))
      = some ((if s = 45 then -1 else 1) * ((ofDigits 0 [a, b, c, d, f] : Nat) : Int)) := by
    have key := digitsVal_digits [a, b, c, d, f] hd 0 hnd
    have c0 : ((0 : Nat) : Int) = 0 := rfl
    rw [c0] at key
    rcases hs with rfl | rfl | rfl
    · rw [atoi_space, atoi_digits _ hd (by simp) (by simp) hnd]; simp
    · unfold atoi strtolVal
      rw [List.dropWhile_cons_of_neg (by decide)]
      simp only [signDigits]
      rw [if_neg (by decide), if_pos trivial, key]
      unfold int32; rw [if_pos (by unfold inInt; omega)]; simp
    · unfold atoi strtolVal
      rw [List.dropWhile_cons_of_neg (by decide)]
      simp only [signDigits]
      rw [if_pos trivial, key]
      unfold int32; rw [if_pos (by unfold inInt; omega)]; simp
  have h1 : rd (s :: (digitChars [a, b, c, d, f] ++ t :: (48 + (e : Int)) :: u)) 1 = some (48 + (a : Int)) := rfl
  have h6 : rd (s :: (digitChars [a, b, c, d, f] ++ t :: (48 + (e : Int)) :: u)) 6 = some t := rfl
  have h7 : rd (s :: (digitChars [a, b, c, d, f] ++ t :: (48 + (e : Int)) :: u)) 7 = some (48 + (e : Int)) := rfl
  have na : (48 + (a : Int)) ≠ 32 := by omega
  unfold sci
  simp only [h1, h6, h7, hat, na, Option.bind_eq_bind, Option.bind_some, ne_eq, not_false_iff, if_true]
  have hsg : (if s = 45 then (-1 : Int) else 1) = 1 ∨ (if s = 45 then (-1 : Int) else 1) = -1 := by
    split <;> simp
  by_cases hz : ofDigits 0 [a, b, c, d, f] = 0
  · rw [hz]
    simp
  · have hnz : ¬ (if s = 45 then (-1 : Int) else 1) * ((ofDigits 0 [a, b, c, d, f] : Nat) : Int) = 0 := by
      rcases hsg with h | h <;> rw [h] <;> omega
    simp only [hnz, not_false_iff, if_true]
    by_cases he0 : e = 0
    · subst he0
      simp [hz]
    · have h48 : ¬ (48 + (e : Int)) = 48 := by omega
      simp only [h48, not_false_iff, if_true]
      rw [if_neg (by omega)]
      by_cases ht45 : t = 45
      · rw [if_pos ht45]
        refine ⟨_, rfl, fun h => absurd h hz, fun _ => ⟨rfl, ?_⟩⟩
        rw [if_pos ht45]; simp only; omega
      · rw [if_neg ht45]
        refine ⟨_, rfl, fun h => absurd h hz, fun _ => ⟨rfl, ?_⟩⟩
        rw [if_neg ht45]; simp only; omega

/-- C07: blank mantissa is zero. -/
theorem C07_sci_blank (s : CChar) (u : CString) : sci (s :: 32 :: u) = some ⟨0, 0⟩ := by
  simp [sci, rd]

example : sci b!" 63463-4 0" = some ⟨63463, -9⟩ ∧ sci b!"-11606-4 " = some ⟨-11606, -9⟩
    ∧ sci b!" 00000-0 0" = some ⟨0, 0⟩ ∧ sci b!"+12345+2" = some ⟨12345, -3⟩ := by decide +kernel

/-- The exponent column is not checked to be a digit: a blank there makes `while( exponent--)` start
from -16 and run away (undefined behaviour). -/
theorem C64_sci_bad_exponent_violated : sci b!" 12345-  " = none := by decide +kernel

/-! ### C08: base 36 -/

theorem dehex_alphabet : ∀ k, k < 36 → mutantDehex (alphabet36.getD k 0) = (k : Int) := by decide

theorem base36_length (w n : Nat) : (base36 w n).length = w := by
  induction w generalizing n with
  | zero => rfl
  | succ w ih => simp [base36, ih]

/-- List form of the digit loop. -/
def highList (acc : Int) : CString → Option Int
  | [] => some acc
  | c :: t => if mutantDehex c < 0 then none else highList (acc * 36 + mutantDehex c) t

theorem highLoop_list (s : CString) (n i : Nat) (acc : Int) (h : i + n ≤ s.length) :
    highLoop s n i acc = highList acc ((s.drop i).take n) := by
  induction n generalizing i acc with
  | zero => simp [highLoop, highList]
  | succ n ih =>
    have hi : i < s.length := by omega
    rw [List.drop_eq_getElem_cons hi, List.take_succ_cons]
    simp only [highLoop, highList, rd_lt hi, Option.bind_eq_bind, Option.bind_some]
    split
    · rfl
    · exact ih _ _ (by omega)

theorem highList_append (a b : CString) (acc r : Int) (h : highList acc a = some r) :
    highList acc (a ++ b) = highList r b := by
  induction a generalizing acc with
  | nil => simp [highList] at h; subst h; rfl
  | cons c t ih =>
    simp only [highList, List.cons_append] at h ⊢
    split at h
    · simp at h
    · rename_i hc; rw [if_neg hc]; exact ih _ h

theorem highList_base36 (w n : Nat) (h : n < 36 ^ w) : highList 0 (base36 w n) = some (n : Int) := by
  induction w generalizing n with
  | zero => simp at h; subst h; rfl
  | succ w ih =>
    have h1 : n / 36 < 36 ^ w := by
      rw [Nat.pow_succ] at h
      exact Nat.div_lt_of_lt_mul (by rw [Nat.mul_comm]; exact h)
    unfold base36
    rw [highList_append _ _ _ _ (ih _ h1)]
    have hd := dehex_alphabet (n % 36) (by omega)
    simp only [highList, hd]
    rw [if_neg (by omega)]
    congr 1
    omega

/-- **C08** (round trip).  Every integer below 36^8 in magnitude survives. -/
theorem C08_roundtrip (v : Int) (h : v.natAbs < 36 ^ 8) (t : CString) :
    getHighValue (highField v ++ t) = some v := by
  have hlen := base36_length 8 v.natAbs
  have key : ∀ c : CChar, highLoop (c :: base36 8 v.natAbs ++ t) 8 1 0 = some (v.natAbs : Int) := by
    intro c
    rw [highLoop_list _ _ _ _ (by simp [hlen])]
    have : ((c :: base36 8 v.natAbs ++ t).drop 1).take 8 = base36 8 v.natAbs := by
      rw [List.cons_append, List.drop_succ_cons, List.drop_zero, List.take_left' hlen]
    rw [this, highList_base36 8 _ h]
  unfold highField getHighValue
  by_cases hv : v < 0
  · rw [if_pos hv]
    have r0 : rd ((45 : Int) :: base36 8 v.natAbs ++ t) 0 = some 45 := rfl
    simp only [r0, Option.bind_eq_bind, Option.bind_some, key]
    simp; omega
  · rw [if_neg hv]
    have r0 : rd ((43 : Int) :: base36 8 v.natAbs ++ t) 0 = some 43 := rfl
    simp only [r0, Option.bind_eq_bind, Option.bind_some, key]
    simp; omega

theorem highList_bound (l : CString) (acc r : Int) (h : highList acc l = some r) (ha : 0 ≤ acc) :
    acc * 36 ^ l.length ≤ r ∧ r < (acc + 1) * 36 ^ l.length := by
  induction l generalizing acc with
  | nil => simp [highList] at h; subst h; simp; omega
  | cons c t ih =>
    simp only [highList] at h
    split at h
    · simp at h
    · rename_i hc
      have hd : mutantDehex c ≤ 35 := by
        unfold mutantDehex at hc ⊢
        split
        · omega
        · split
          · omega
          · omega
      have := ih _ h (by omega)
      simp only [List.length_cons, Int.pow_succ]
      have hp : (0 : Int) < 36 ^ t.length := Int.pow_pos (by decide)
      constructor
      · have h1 : acc * (36 ^ t.length * 36) = (acc * 36) * 36 ^ t.length := by
          rw [Int.mul_assoc, Int.mul_comm 36]
        have h2 : (acc * 36) * 36 ^ t.length ≤ (acc * 36 + mutantDehex c) * 36 ^ t.length :=
          Int.mul_le_mul_of_nonneg_right (by omega) (by omega)
        omega
      · have h1 : (acc + 1) * (36 ^ t.length * 36) = ((acc + 1) * 36) * 36 ^ t.length := by
          rw [Int.mul_assoc, Int.mul_comm 36]
        have h2 : (acc * 36 + mutantDehex c + 1) * 36 ^ t.length ≤ ((acc + 1) * 36) * 36 ^ t.length :=
          Int.mul_le_mul_of_nonneg_right (by omega) (by omega)
        omega

/-- **C08** (range and detection).  Whenever a field of nine characters is accepted, the value is below
36^8 in magnitude (so it is exact in 64-bit integers and in `double`); and a field is accepted only
if it starts with a sign followed by eight base-36 digits. -/
theorem C08_accept (s : CString) (hl : 9 ≤ s.length) (v : Int) (h : getHighValue s = some v) :
    v.natAbs < 36 ^ 8 ∧ (s[0]? = some 43 ∨ s[0]? = some 45) ∧
      ∀ c ∈ (s.drop 1).take 8, c ∈ alphabet36 := by
  unfold getHighValue at h
  simp only [Option.bind_eq_bind, Option.bind_eq_some_iff] at h
  obtain ⟨c, hc, h⟩ := h
  split at h
  · rename_i hs
    simp only [Option.bind_eq_some_iff] at h
    obtain ⟨r, hr, h⟩ := h
    rw [highLoop_list _ _ _ _ (by omega)] at hr
    have hlen : ((s.drop 1).take 8).length = 8 := by simp; omega
    have hbd := highList_bound _ _ _ hr (by omega)
    rw [hlen] at hbd
    refine ⟨?_, ?_, ?_⟩
    · simp at h
      split at h <;> omega
    · rcases hs with rfl | rfl
      · left; exact getElem?_of_rd hc (by decide)
      · right; exact getElem?_of_rd hc (by decide)
    · have all : ∀ (l : CString) (acc r : Int), highList acc l = some r → ∀ c ∈ l, c ∈ alphabet36 := by
        intro l
        induction l with
        | nil => simp
        | cons a t ih =>
          intro acc r h c hc
          simp only [highList] at h
          split at h
          · simp at h
          · rename_i hd
            simp only [List.mem_cons] at hc
            rcases hc with rfl | hc
            · unfold mutantDehex at hd
              simp only [alphabet36, List.mem_cons, List.not_mem_nil, or_false]
              split at hd
              · omega
              · split at hd
                · omega
                · simp at hd
            · exact ih _ _ h c hc
      exact all _ _ _ hr
  · simp at h

example : getHighValue b!"-0000001A " = some (-46) ∧ highField (-46) = b!"-0000001A"
    ∧ getHighValue b!"+ZZZZZZZZ" = some 2821109907455 ∧ getHighValue b!"+0000001a" = none := by
  decide +kernel

end SatSky.Props
