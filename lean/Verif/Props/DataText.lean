import Mathlib.Tactic.Linarith
import Mathlib.Tactic.Ring
import Mathlib.Tactic.NormNum
import Mathlib.Tactic.FieldSimp
import Verif.Model.DataText
import Verif.Spec.Decimal
import Verif.Lemmas.JsonMain
import Verif.Props.Dates
import Verif.Props.AltDouble

/-! C182: the numbers printed for a satellite. -/

namespace SatSky.Props

open SatSky Opts Dates Sky Geo Spec.Decimal

/-! ### Reading a number back -/

theorem whole_natText (n : Nat) : whole (natText n) = n := by
  induction n using Nat.strongRecOn with
  | ind n ih =>
    rw [natText]
    split
    · simp [whole]
    · next h =>
      have h1 := ih (n / 10) (by omega)
      unfold whole at h1 ⊢
      rw [List.foldl_append, h1]
      simp only [List.foldl_cons, List.foldl_nil]
      omega

theorem whole_zeros (k : Nat) (s : CString) : whole (List.replicate k 48 ++ s) = whole s := by
  induction k with
  | zero => simp
  | succ k ih =>
    rw [List.replicate_succ, List.cons_append]
    unfold whole at ih ⊢
    rw [List.foldl_cons]
    simpa using ih

theorem digit_natText (n : Nat) : ∀ c ∈ natText n, digit c = true := by
  intro c hc
  have h := Json.natText_digit n c hc
  unfold Spec.Json.Digit at h
  simpa [digit] using h

theorem natText_ne (n : Nat) : natText n ≠ [] := by
  rw [natText]
  split <;> simp

theorem unsigned_whole (n : Nat) : unsigned (natText n) = some (n : ℚ) := by
  have h1 : (natText n).takeWhile digit = natText n := by
    have := List.takeWhile_append_of_pos (l₂ := []) (digit_natText n)
    simpa using this
  have h2 : (natText n).dropWhile digit = [] := by
    have := List.dropWhile_append_of_pos (l₂ := []) (digit_natText n)
    simpa using this
  unfold unsigned
  rw [h1, h2, if_neg (natText_ne n), whole_natText]
  simp

theorem unsigned_point (n : Nat) (b : CString) (hb : b ≠ []) (hd : ∀ c ∈ b, digit c = true) :
    unsigned (natText n ++ 46 :: b) = some ((n : ℚ) + (whole b : ℚ) / 10 ^ b.length) := by
  have h46 : digit 46 = false := by decide
  have h1 : (natText n ++ 46 :: b).takeWhile digit = natText n := by
    rw [List.takeWhile_append_of_pos (digit_natText n), List.takeWhile_cons, h46]; simp
  have h2 : (natText n ++ 46 :: b).dropWhile digit = 46 :: b := by
    rw [List.dropWhile_append_of_pos (digit_natText n), List.dropWhile_cons, h46]; simp
  have h3 : b.all digit = true := by rw [List.all_eq_true]; exact hd
  unfold unsigned
  rw [h1, h2, if_neg (natText_ne n), whole_natText]
  simp [hb, h3]

theorem value_blanks (k : Nat) (s : CString) : value (List.replicate k 32 ++ s) = value s := by
  induction k with
  | zero => simp
  | succ k ih => rw [List.replicate_succ, List.cons_append, value, ih]

theorem value_minus (s : CString) : value (45 :: s) = (unsigned s).map fun v => -v := by rw [value]

theorem value_plain (n : Nat) (s : CString) : value (natText n ++ s) = unsigned (natText n ++ s) := by
  cases h : natText n with
  | nil => exact absurd h (natText_ne n)
  | cons c t =>
    have hc := Json.natText_digit n c (by rw [h]; simp)
    unfold Spec.Json.Digit at hc
    rw [List.cons_append, value]
    · intro t' h'
      have := (List.cons.inj h').1
      omega
    · intro t' h'
      have := (List.cons.inj h').1
      omega

/-- The integer `fmtF` prints. -/
theorem value_fmtF (p : Nat) (hp : 1 ≤ p) (x : ℚ) :
    value (fmtF p x) = some ((if x < 0 then -1 else 1) * ((roundEven (|x| * 10 ^ p)).natAbs : ℚ) / 10 ^ p) := by
  unfold fmtF
  simp only []
  generalize (roundEven (|x| * 10 ^ p)).natAbs = n
  have hlen : (natText (n % 10 ^ p)).length ≤ p := by
    obtain ⟨k, rfl⟩ : ∃ k, p = k + 1 := ⟨p - 1, by omega⟩
    exact (natText_len k _).2 (Nat.mod_lt _ (by positivity))
  have hd : ∀ c ∈ List.replicate (p - (natText (n % 10 ^ p)).length) (48 : Int) ++ natText (n % 10 ^ p), digit c = true := by
    intro c hc
    rcases List.mem_append.1 hc with h | h
    · rw [List.eq_of_mem_replicate h]; decide
    · exact digit_natText _ c h
  have hne : List.replicate (p - (natText (n % 10 ^ p)).length) (48 : Int) ++ natText (n % 10 ^ p) ≠ [] := by
    intro h
    exact natText_ne _ (List.append_eq_nil_iff.1 h).2
  have hl : (List.replicate (p - (natText (n % 10 ^ p)).length) (48 : Int) ++ natText (n % 10 ^ p)).length = p := by
    rw [List.length_append, List.length_replicate]; omega
  have hw := whole_zeros (p - (natText (n % 10 ^ p)).length) (natText (n % 10 ^ p))
  rw [whole_natText] at hw
  have hu := unsigned_point (n / 10 ^ p) _ hne hd
  rw [hl, hw] at hu
  have h10 : (10 : ℚ) ^ p ≠ 0 := by positivity
  have hq : ((n / 10 ^ p : ℕ) : ℚ) + ((n % 10 ^ p : ℕ) : ℤ) / 10 ^ p = (n : ℚ) / 10 ^ p := by
    have := Nat.div_add_mod n (10 ^ p)
    have h2 : (10 : ℚ) ^ p * ((n / 10 ^ p : ℕ) : ℚ) + ((n % 10 ^ p : ℕ) : ℚ) = n := by exact_mod_cast this
    rw [← h2, Int.cast_natCast, add_div, mul_div_cancel_left₀ _ h10]
  rw [hq] at hu
  by_cases hx : x < 0
  · rw [if_pos hx, if_pos hx, List.append_assoc, List.singleton_append, value_minus, hu]
    simp only [Option.map_some]
    congr 1; ring
  · rw [if_neg hx, if_neg hx, List.nil_append, value_plain, hu]
    congr 1; ring

/-- What `%w.pf` prints is a number with `p` decimals, and no multiple of `10^-p` is nearer. -/
theorem C182_number (w p : Nat) (hp : 1 ≤ p) (x : ℚ) :
    ∃ k : ℤ, value (padLeft w (fmtF p x)) = some ((k : ℚ) / 10 ^ p) ∧ |(k : ℚ) / 10 ^ p - x| ≤ 1 / 2 / 10 ^ p := by
  have h10 : (0 : ℚ) < 10 ^ p := by positivity
  have h0 : 0 ≤ roundEven (|x| * 10 ^ p) := by
    have h := abs_le.1 (abs_sub_roundEven (|x| * 10 ^ p))
    have h1 : 0 ≤ |x| * 10 ^ p := by positivity
    have h2 : (-1 : ℚ) < (roundEven (|x| * 10 ^ p) : ℤ) := by linarith [h.2]
    have h3 : (-1 : ℤ) < roundEven (|x| * 10 ^ p) := by exact_mod_cast h2
    omega
  have hn : ((roundEven (|x| * 10 ^ p)).natAbs : ℚ) = (roundEven (|x| * 10 ^ p) : ℤ) := by
    rw [← Int.cast_natCast, Int.natAbs_of_nonneg h0]
  have hr := abs_sub_roundEven (|x| * 10 ^ p)
  have hv : value (padLeft w (fmtF p x)) = value (fmtF p x) := by unfold padLeft; exact value_blanks _ _
  rw [hv, value_fmtF p hp x, hn]
  generalize roundEven (|x| * 10 ^ p) = k at hr
  by_cases hx : x < 0
  · refine ⟨-k, ?_, ?_⟩
    · rw [if_pos hx]; congr 1; push_cast; ring
    · rw [abs_of_neg hx] at hr
      have : ((-k : ℤ) : ℚ) / 10 ^ p - x = (-x * 10 ^ p - k) / 10 ^ p := by field_simp; push_cast; ring
      rw [this, abs_div, abs_of_pos h10]
      exact div_le_div_of_nonneg_right hr h10.le
  · push Not at hx
    refine ⟨k, ?_, ?_⟩
    · rw [if_neg (not_lt.2 hx)]; congr 1; ring
    · rw [abs_of_nonneg hx] at hr
      have : (k : ℚ) / 10 ^ p - x = -((x * 10 ^ p - k) / 10 ^ p) := by field_simp; ring
      rw [this, abs_neg, abs_div, abs_of_pos h10]
      exact div_le_div_of_nonneg_right hr h10.le

theorem value_int (w : Nat) (k : ℤ) : value (padLeft w (intText k)) = some (k : ℚ) := by
  have hp : value (padLeft w (intText k)) = value (intText k) := by unfold padLeft; exact value_blanks _ _
  rw [hp]
  unfold intText
  by_cases h : k < 0
  · rw [if_pos h, value_minus, unsigned_whole]
    have : ((k.natAbs : ℕ) : ℤ) = -k := by omega
    have h2 : ((k.natAbs : ℕ) : ℚ) = -(k : ℚ) := by rw [← Int.cast_natCast, this, Int.cast_neg]
    simp only [Option.map_some, h2, neg_neg]
  · rw [if_neg h]
    have := value_plain k.natAbs []
    rw [List.append_nil] at this
    rw [this, unsigned_whole]
    have : ((k.natAbs : ℕ) : ℤ) = k := by omega
    rw [← Int.cast_natCast, this]

/-! ### Splitting at the commas -/

theorem fields_cons (a t : CString) (h : ∀ c ∈ a, c ≠ 44) : fields (a ++ 44 :: t) = a :: fields t := by
  induction a with
  | nil => simp [fields]
  | cons c a ih =>
    rw [List.cons_append, fields, if_neg (h c (by simp)), ih (fun c hc => h c (by simp [hc]))]

theorem fields_last (a : CString) (h : ∀ c ∈ a, c ≠ 44) : fields a = [a] := by
  induction a with
  | nil => rfl
  | cons c a ih => rw [fields, if_neg (h c (by simp)), ih (fun c hc => h c (by simp [hc]))]

theorem natText_no (n : Nat) : ∀ c ∈ natText n, c ≠ 44 := by
  intro c hc
  have h := Json.natText_digit n c hc
  unfold Spec.Json.Digit at h
  omega

theorem pad_no (w : Nat) (s : CString) (h : ∀ c ∈ s, c ≠ 44) : ∀ c ∈ padLeft w s, c ≠ 44 := by
  intro c hc
  unfold padLeft at hc
  rcases List.mem_append.1 hc with h1 | h1
  · rw [List.eq_of_mem_replicate h1]; decide
  · exact h c h1

theorem fmtF_no (p : Nat) (x : ℚ) : ∀ c ∈ fmtF p x, c ≠ 44 := by
  intro c hc
  unfold fmtF at hc
  simp only [List.mem_append, List.mem_cons] at hc
  rcases hc with (h | h) | h | h | h
  · split at h
    · simp only [List.mem_singleton] at h; omega
    · simp at h
  · exact natText_no _ c h
  · omega
  · rw [List.eq_of_mem_replicate h]; decide
  · exact natText_no _ c h

theorem intText_no (k : ℤ) : ∀ c ∈ intText k, c ≠ 44 := by
  intro c hc
  unfold intText at hc
  split at hc
  · rcases List.mem_cons.1 hc with h | h
    · omega
    · exact natText_no _ c h
  · exact natText_no _ c hc

theorem fields_data (F : Fl64) (d : SatData) :
    fields (dataText F d) = dataNums F d ++ [if d.sunlit then [49] else [48], intText d.hpx] := by
  have hs : ∀ c ∈ (if d.sunlit then [(49 : Int)] else [48]), c ≠ 44 := by
    intro c hc
    split at hc <;> (simp only [List.mem_singleton] at hc; omega)
  unfold dataText dataNums
  simp only [List.flatMap_cons, List.flatMap_nil, List.append_assoc, List.cons_append, List.nil_append]
  rw [fields_cons _ _ (pad_no _ _ (fmtF_no _ _)), fields_cons _ _ (pad_no _ _ (fmtF_no _ _)),
    fields_cons _ _ (pad_no _ _ (fmtF_no _ _)), fields_cons _ _ (pad_no _ _ (fmtF_no _ _)),
    fields_cons _ _ (pad_no _ _ (fmtF_no _ _)), fields_cons _ _ (pad_no _ _ (fmtF_no _ _)),
    fields_cons _ _ (pad_no _ _ (intText_no _)), fields_cons _ _ (pad_no _ _ (fmtF_no _ _)),
    fields_cons _ _ hs, fields_last _ (intText_no _)]

/-! ### The ten numbers -/

theorem angle_deg (F : Fl64) {a : ℚ} (ha : |a| ≤ 7) : |(F.rnd (a * r2dD) : ℝ) - 180 / Real.pi * a| ≤ 1 / 10 ^ 12 := by
  have hp := Real.pi_gt_d6
  have hr := pi_near
  have ha' : |(a : ℝ)| ≤ 7 := by simpa using abs_real ha
  have h57 : 180 / Real.pi ≤ 5729580 / 10 ^ 5 := by
    rw [div_le_div_iff₀ (by positivity) (by norm_num)]; linarith
  have hpos : 0 < 180 / Real.pi := by positivity
  have hB : |180 / Real.pi * (a : ℝ)| ≤ 402 := by
    rw [abs_mul, abs_of_pos hpos]
    have := mul_le_mul h57 ha' (abs_nonneg _) (by norm_num)
    linarith
  have hm : |((a * r2dD : ℚ) : ℝ) - 180 / Real.pi * a| ≤ 5 / 10 ^ 14 := by
    push_cast
    rw [show (a : ℝ) * r2dD - 180 / Real.pi * a = (r2dD - 180 / Real.pi) * a by ring, abs_mul]
    have h1 : 1 / 2 ^ 53 * (180 / Real.pi) ≤ 1 / 2 ^ 53 * (5729580 / 10 ^ 5) := mul_le_mul_of_nonneg_left h57 (by positivity)
    have := mul_le_mul (hr.trans h1) ha' (abs_nonneg _) (by positivity)
    norm_num at this ⊢
    linarith
  refine rnd_real F hm hB ?_
  norm_num

theorem printed_angle (F : Fl64) (w : Nat) {a : ℚ} (ha : |a| ≤ 7) :
    ∃ k : ℤ, value (padLeft w (fmtF 4 (F.rnd (a * r2dD)))) = some ((k : ℚ) / 10 ^ 4) ∧ |((k : ℝ) / 10 ^ 4) - 180 / Real.pi * a| ≤ 500001 / 10 ^ 10 := by
  obtain ⟨k, h1, h2⟩ := C182_number w 4 (by norm_num) (F.rnd (a * r2dD))
  refine ⟨k, h1, ?_⟩
  have h3 : |((k : ℝ) / 10 ^ 4) - (F.rnd (a * r2dD) : ℝ)| ≤ 1 / 2 / 10 ^ 4 := by simpa using abs_real h2
  have h4 := angle_deg F ha
  have := abs_sub_le ((k : ℝ) / 10 ^ 4) (F.rnd (a * r2dD) : ℝ) (180 / Real.pi * a)
  norm_num at h3 h4 this ⊢
  linarith

theorem turn_deg {a : ℚ} (h : a ≤ twopiD) : 180 / Real.pi * (a : ℝ) ≤ 360 := by
  have h1 : (a : ℝ) ≤ (twopiD : ℚ) := by exact_mod_cast h
  have h2 : ((twopiD : ℚ) : ℝ) ≤ 2 * Real.pi := by
    have := Real.pi_gt_d20
    norm_num [twopiD] at this ⊢
    linarith
  have hpr : 180 / Real.pi * (2 * Real.pi) = 360 := by field_simp; norm_num
  rw [← hpr]
  exact mul_le_mul_of_nonneg_left (h1.trans h2) (by positivity)

theorem int_le_of_near {k n : ℤ} (h : (k : ℝ) / 10 ^ 4 ≤ n + 6 / 10 ^ 5) : (k : ℚ) / 10 ^ 4 ≤ n := by
  have h1 : (k : ℝ) < (n * 10 ^ 4 + 1 : ℤ) := by
    push_cast
    rw [div_le_iff₀ (by norm_num)] at h
    linarith
  have h2 : k < n * 10 ^ 4 + 1 := by exact_mod_cast h1
  have h3 : k ≤ n * 10 ^ 4 := by omega
  rw [div_le_iff₀ (by norm_num)]
  exact_mod_cast h3

theorem le_int_of_near {k n : ℤ} (h : (n : ℝ) - 6 / 10 ^ 5 ≤ (k : ℝ) / 10 ^ 4) : (n : ℚ) ≤ (k : ℚ) / 10 ^ 4 := by
  have h1 : ((n * 10 ^ 4 - 1 : ℤ) : ℝ) < k := by
    push_cast
    rw [le_div_iff₀ (by norm_num)] at h
    linarith
  have h2 : n * 10 ^ 4 - 1 < k := by exact_mod_cast h1
  have h3 : n * 10 ^ 4 ≤ k := by omega
  rw [le_div_iff₀ (by norm_num)]
  exact_mod_cast h3

/-- A right ascension as printed. -/
theorem printed_ra (F : Fl64) (w : Nat) {a : ℚ} (h0 : 0 ≤ a) (h1 : a ≤ twopiD) :
    ∃ v : ℚ, value (padLeft w (fmtF 4 (F.rnd (a * r2dD)))) = some v ∧ |(v : ℝ) - 180 / Real.pi * a| ≤ 500001 / 10 ^ 10 ∧ 0 ≤ v ∧ v ≤ 360 := by
  have ha : |a| ≤ 7 := by
    rw [abs_of_nonneg h0]; refine h1.trans ?_; norm_num [twopiD]
  obtain ⟨k, e, h⟩ := printed_angle F w ha
  have ht := turn_deg h1
  have hz : 0 ≤ 180 / Real.pi * (a : ℝ) := mul_nonneg (by positivity) (by exact_mod_cast h0)
  have hb := abs_le.1 h
  refine ⟨_, e, by push_cast; exact h, ?_, ?_⟩
  · have := le_int_of_near (n := 0) (k := k) (by push_cast; norm_num at hb ⊢; linarith [hb.1])
    exact_mod_cast this
  · have := int_le_of_near (n := 360) (k := k) (by push_cast; norm_num at hb ⊢; linarith [hb.2])
    exact_mod_cast this

/-- A declination as printed. -/
theorem printed_dec (F : Fl64) (w : Nat) {a : ℚ} (h : |a| ≤ piD / 2) :
    ∃ v : ℚ, value (padLeft w (fmtF 4 (F.rnd (a * r2dD)))) = some v ∧ |(v : ℝ) - 180 / Real.pi * a| ≤ 500001 / 10 ^ 10 ∧ -90 ≤ v ∧ v ≤ 90 := by
  have ha : |a| ≤ 7 := by refine h.trans ?_; norm_num [piD]
  obtain ⟨k, e, hk⟩ := printed_angle F w ha
  have h4 : 4 * (piD / 2) = twopiD := by norm_num [piD, twopiD]
  have t1 := turn_deg (a := 4 * a) (by rw [← h4]; linarith [(abs_le.1 h).2])
  have t2 := turn_deg (a := 4 * -a) (by rw [← h4]; linarith [(abs_le.1 h).1])
  push_cast at t1 t2
  have hb := abs_le.1 hk
  refine ⟨_, e, by push_cast; exact hk, ?_, ?_⟩
  · have := le_int_of_near (n := -90) (k := k) (by push_cast; norm_num at hb ⊢; linarith [hb.1])
    exact_mod_cast this
  · have := int_le_of_near (n := 90) (k := k) (by push_cast; norm_num at hb ⊢; linarith [hb.2])
    exact_mod_cast this

/-- A position angle as printed: its integer part. -/
theorem printed_pa (F : Fl64) (w : Nat) {a : ℚ} (h0 : 0 ≤ a) (h1 : a ≤ twopiD) :
    ∃ k : ℤ, value (padLeft w (intText (truncQ (F.rnd (a * r2dD))))) = some (k : ℚ) ∧
      (k : ℝ) ≤ 180 / Real.pi * a + 1 / 10 ^ 12 ∧ 180 / Real.pi * a < k + 1 + 1 / 10 ^ 12 ∧ 0 ≤ k ∧ k ≤ 360 := by
  have ha : |a| ≤ 7 := by
    rw [abs_of_nonneg h0]; refine h1.trans ?_; norm_num [twopiD]
  have hd := abs_le.1 (angle_deg F ha)
  have ht := turn_deg h1
  have hz : 0 ≤ F.rnd (a * r2dD) := by
    have h := F.mono 0 (a * r2dD) (mul_nonneg h0 (by norm_num [r2dD]))
    have e := F.exact 0 0 (by norm_num) (by norm_num)
    norm_num at e
    rwa [e] at h
  refine ⟨_, value_int w _, ?_⟩
  unfold truncQ
  rw [if_pos hz]
  have f1 : ((⌊F.rnd (a * r2dD)⌋ : ℤ) : ℝ) ≤ (F.rnd (a * r2dD) : ℝ) := by exact_mod_cast Int.floor_le (F.rnd (a * r2dD))
  have f2 : (F.rnd (a * r2dD) : ℝ) < ((⌊F.rnd (a * r2dD)⌋ : ℤ) : ℝ) + 1 := by exact_mod_cast Int.lt_floor_add_one (F.rnd (a * r2dD))
  refine ⟨by linarith [hd.2], by linarith [hd.1], Int.floor_nonneg.2 hz, ?_⟩
  have h361 : ((⌊F.rnd (a * r2dD)⌋ : ℤ) : ℝ) < (361 : ℤ) := by push_cast; norm_num at hd ⊢; linarith [hd.2]
  have : ⌊F.rnd (a * r2dD)⌋ < 361 := by exact_mod_cast h361
  omega

/-- The text between the brackets is ten numbers.  They are the computed ones, in the order of `data_fields`: angles in degrees to 0.00005, the
distance to 5 m, the separation to 0.00005 degree, the integer part of the position angle, the speed to 0.0005; then the flag and the cell.  Right
ascensions are printed between 0 and 360, declinations between -90 and 90. -/
theorem C182_record (F : Fl64) (d : SatData) (h0 : 0 ≤ d.ra) (h1 : d.ra ≤ twopiD) (h2 : |d.dec| ≤ piD / 2) (h3 : 0 ≤ d.ra1) (h4 : d.ra1 ≤ twopiD)
    (h5 : |d.dec1| ≤ piD / 2) (h6 : 0 ≤ d.pa) (h7 : d.pa ≤ twopiD) :
    ∃ (a b a1 b1 r s v : ℚ) (k : ℤ), (fields (dataText F d)).mapM value = some [a, b, a1, b1, r, s, (k : ℚ), v, if d.sunlit then 1 else 0, (d.hpx : ℚ)] ∧
      (|(a : ℝ) - 180 / Real.pi * d.ra| ≤ 500001 / 10 ^ 10 ∧ 0 ≤ a ∧ a ≤ 360) ∧
      (|(b : ℝ) - 180 / Real.pi * d.dec| ≤ 500001 / 10 ^ 10 ∧ -90 ≤ b ∧ b ≤ 90) ∧
      (|(a1 : ℝ) - 180 / Real.pi * d.ra1| ≤ 500001 / 10 ^ 10 ∧ 0 ≤ a1 ∧ a1 ≤ 360) ∧
      (|(b1 : ℝ) - 180 / Real.pi * d.dec1| ≤ 500001 / 10 ^ 10 ∧ -90 ≤ b1 ∧ b1 ≤ 90) ∧
      |r - d.dist| ≤ 5 / 10 ^ 3 ∧ |s - d.sep| ≤ 5 / 10 ^ 5 ∧
      ((k : ℝ) ≤ 180 / Real.pi * d.pa + 1 / 10 ^ 12 ∧ 180 / Real.pi * d.pa < k + 1 + 1 / 10 ^ 12 ∧ 0 ≤ k ∧ k ≤ 360) ∧ |v - d.speed| ≤ 5 / 10 ^ 4 := by
  obtain ⟨a, ea, ha⟩ := printed_ra F 8 h0 h1
  obtain ⟨b, eb, hb⟩ := printed_dec F 8 h2
  obtain ⟨a1, ea1, ha1⟩ := printed_ra F 8 h3 h4
  obtain ⟨b1, eb1, hb1⟩ := printed_dec F 8 h5
  obtain ⟨r, er, hr⟩ := C182_number 9 2 (by norm_num) d.dist
  obtain ⟨s, es, hs⟩ := C182_number 6 4 (by norm_num) d.sep
  obtain ⟨k, ek, hk⟩ := printed_pa F 3 h6 h7
  obtain ⟨v, ev, hv⟩ := C182_number 6 3 (by norm_num) d.speed
  have el : value (if d.sunlit then [49] else [48]) = some (if d.sunlit then 1 else 0) := by
    cases d.sunlit <;> decide +kernel
  have eh : value (intText d.hpx) = some (d.hpx : ℚ) := by
    have := value_int 0 d.hpx
    simpa [padLeft] using this
  refine ⟨a, b, a1, b1, (r : ℚ) / 10 ^ 2, (s : ℚ) / 10 ^ 4, (v : ℚ) / 10 ^ 3, k, ?_, ha, hb, ha1, hb1, hr.trans (by norm_num), hs.trans (by norm_num), hk,
    hv.trans (by norm_num)⟩
  rw [fields_data]
  unfold dataNums
  simp only [List.cons_append, List.nil_append, List.mapM_cons, List.mapM_nil, ea, eb, ea1, eb1, er, es, ek, ev, el, eh, Option.pure_def,
    Option.bind_eq_bind, Option.bind_some]

/-- This text is what the record of a satellite ends with. -/
theorem C182_json (F : Fl64) (d : SatData) (geo : Bool) (r : Report) :
    ∃ pre, satJson geo { r with obs := obsOf F d r.obs } = pre ++ b!"\"data\": [" ++ dataText F d ++ b!"]}" := by
  refine ⟨b!"{\"name\": " ++ q r.name ++ b!", \"intl_desig\": " ++ q r.desig ++ b!", \"norad_n\": " ++ intText r.tle.norad ++ b!", "
    ++ (if geo then geoJson r.obs else []), ?_⟩
  simp only [satJson, dataText, List.append_assoc]
  rfl

/-- Right ascensions from 359.99995 are printed as 360.0000: the printed interval is closed at both ends. -/
theorem C182_turn (w : Nat) (x : ℚ) (h : 35999995 / 10 ^ 5 < x) (h' : x ≤ 360) : value (padLeft w (fmtF 4 x)) = some 360 := by
  obtain ⟨k, e, hk⟩ := C182_number w 4 (by norm_num) x
  rw [e]
  have hb := abs_le.1 hk
  have h1 : (3599999 : ℚ) < k := by norm_num at hb h ⊢; linarith [hb.1]
  have h2 : (k : ℚ) < 3600001 := by norm_num at hb h ⊢; linarith [hb.2]
  have h3 : (3599999 : ℤ) < k := by exact_mod_cast h1
  have h4 : k < (3600001 : ℤ) := by exact_mod_cast h2
  have : k = 3600000 := by omega
  subst this
  norm_num

/-- A satellite in Lyra, moving south-east. -/
def satEx : SatData := { ra := 49 / 10, dec := 6 / 10, ra1 := 491 / 100, dec1 := 59 / 100, dist := 51234567 / 10 ^ 4, sep := 123456 / 10 ^ 5, pa := 22 / 10,
                         speed := -5 / 10 ^ 4, sunlit := true, hpx := 123456 }

example : dataText Fl64.ieee satEx = b!"280.7493, 34.3775,281.3223, 33.8045,  5123.46,1.2346,126,-0.000,1,123456" := by decide +kernel

example : (fields (dataText Fl64.ieee satEx)).mapM value =
    some [2807493 / 10 ^ 4, 343775 / 10 ^ 4, 2813223 / 10 ^ 4, 338045 / 10 ^ 4, 512346 / 10 ^ 2, 12346 / 10 ^ 4, 126, 0, 1, 123456] := by decide +kernel

example : fmtF 4 (35999996 / 10 ^ 5) = b!"360.0000" := by decide +kernel

end SatSky.Props
