import Verif.Lemmas.SkyText
import Verif.Lemmas.ParseHeader
import Verif.Props.ParseCode
import Verif.Spec.Report

/-! What `parse_elements` does on the pairs of lines the reading loop meets. -/

namespace SatSky.Sky

open SatSky Spec GetEl Props

theorem rd_zero (s : CString) : rd s 0 = some (s.headD 0) := by cases s <;> rfl

theorem parse_head2 (x y : CString) (h : y.head? ≠ some 50) :
    parseElements x y = some (-104, none) := by
  unfold parseElements parseCheck
  have hy : y.headD 0 ≠ 50 := by
    cases y with
    | nil => simp
    | cons c t => simpa using h
  rw [rd_zero, rd_zero]
  simp only [bind, Option.bind, pure]
  rw [if_pos (Or.inr hy)]
  simp

theorem parse_head1 (x y : CString) (h : x.head? ≠ some 49) :
    parseElements x y = some (-104, none) := by
  unfold parseElements parseCheck
  have hx : x.headD 0 ≠ 49 := by
    cases x with
    | nil => simp
    | cons c t => simpa using h
  rw [rd_zero, rd_zero]
  simp only [bind, Option.bind, pure]
  rw [if_pos (Or.inl hx)]
  simp

/-- The current first line does not form an element set with a line that is not a second line. -/
def Harmless (x : CString) : Prop :=
  ∀ y, NotLine2 y → ∃ c, c ≠ 0 ∧ parseElements x y = some (c, none)

theorem harmless_head (x : CString) (h : x.head? ≠ some 49) : Harmless x := by
  intro y _
  exact ⟨-104, by norm_num, parse_head1 x y h⟩

theorem harmless_line1 (x : CString) (h : LooksOk 49 x) (hc : IsCStr x) : Harmless x := by
  intro y ⟨_, hy, hl, hn⟩
  obtain ⟨rv, pr, h1, h2, -, -⟩ := parseCheck_spec x y hc hy (by have := h.2.2.2.1; omega) hl
  have hrv : rv ≠ 0 := fun h0 => hn (h2.mp h0).2
  refine ⟨rv, hrv, ?_⟩
  unfold parseElements
  rw [h1]
  simp [hrv]

theorem harmless_take (x : CString) (h : LooksOk 49 x) (hc : IsCStr x) : Harmless (x.take 16) := by
  intro y ⟨_, hy, hl, hn⟩
  have hlen : 69 ≤ x.length := h.2.2.2.1
  obtain ⟨rv, pr, h1, h2, -, -⟩ := parseCheck_spec (x.take 16) y
    (fun c hm => hc c (List.mem_of_mem_take hm)) hy (by simp; omega) hl
  have hrv : rv ≠ 0 := fun h0 => hn (h2.mp h0).2
  refine ⟨rv, hrv, ?_⟩
  unfold parseElements
  rw [h1]
  simp [hrv]

theorem looksOk_head {f : CChar} {x : CString} (h : LooksOk f x) : x.head? = some f := by
  rw [List.head?_eq_getElem?]; exact h.1

theorem looksOk_notLine2 (x : CString) (h : LooksOk 49 x) (hc : IsCStr x) : NotLine2 x := by
  refine ⟨?_, hc, ?_, ?_⟩
  · rintro rfl; have := h.2.2.2.1; simp at this
  · have := h.2.2.2.1; omega
  · intro h2; have h1 := h.1; rw [h2.1] at h1; simp at h1

theorem digitsVal_bound (s : CString) (acc : Int) (h : 0 ≤ acc) :
    0 ≤ digitsVal acc s ∧ digitsVal acc s < (acc + 1) * 10 ^ s.length := by
  induction s generalizing acc with
  | nil => simp [digitsVal, h]
  | cons c t ih =>
    unfold digitsVal
    have hp : (0 : Int) < 10 ^ t.length := by positivity
    by_cases hd : isDigit c = true
    · rw [if_pos hd]
      have hd' : 48 ≤ c ∧ c ≤ 57 := by simpa [isDigit] using hd
      obtain ⟨h1, h2⟩ := ih (acc * 10 + (c - 48)) (by omega)
      refine ⟨h1, lt_of_lt_of_le h2 ?_⟩
      rw [List.length_cons, pow_succ]
      nlinarith
    · rw [if_neg hd]
      refine ⟨h, ?_⟩
      rw [List.length_cons, pow_succ]
      nlinarith

theorem strtolVal_bound (s : CString) : |strtolVal s| ≤ 10 ^ s.length := by
  unfold strtolVal
  have hle : (s.dropWhile isSpace).length ≤ s.length := (List.dropWhile_sublist _).length_le
  have hmono : (10 : Int) ^ (s.dropWhile isSpace).length ≤ 10 ^ s.length :=
    pow_le_pow_right₀ (by norm_num) hle
  refine le_trans ?_ hmono
  generalize s.dropWhile isSpace = u
  have key : ∀ v : CString, |digitsVal 0 v| ≤ 10 ^ v.length := by
    intro v
    obtain ⟨h1, h2⟩ := digitsVal_bound v 0 le_rfl
    rw [abs_of_nonneg h1]; omega
  unfold signDigits
  cases u with
  | nil => simp
  | cons c t =>
    have ht := key t
    have hp : (10 : Int) ^ t.length ≤ 10 ^ (t.length + 1) := pow_le_pow_right₀ (by norm_num) (by omega)
    have hc := key (c :: t)
    simp only [List.length_cons] at hc ⊢
    split
    · rw [abs_neg]; omega
    · split
      · omega
      · exact hc

theorem atoi_short (s : CString) (h : s.length ≤ 8) : ∃ v, atoi s = some v := by
  have hb := strtolVal_bound s
  have : (10 : Int) ^ s.length ≤ 10 ^ 8 := pow_le_pow_right₀ (by norm_num) h
  rw [abs_le] at hb
  exact ⟨strtolVal s, by unfold atoi int32; rw [if_pos (by unfold inInt; constructor <;> omega)]⟩

theorem desigText_ok (d : CString) (h : d.length ≤ 8) : ∃ t, desigText d = some t := by
  unfold desigText
  by_cases hd : d.head? = some 32
  · exact ⟨_, by rw [if_pos hd]⟩
  · obtain ⟨v, hv⟩ := atoi_short d h
    rw [if_neg hd, hv]
    exact ⟨_, rfl⟩

theorem parse_fields {l1 l2 : CString} {rv : Int} {t : Tle} (h : parseElements l1 l2 = some (rv, some t)) :
    parseFields l1 l2 = some t := by
  unfold parseElements at h
  simp only [Option.bind_eq_bind, Option.bind_eq_some_iff, Prod.exists] at h
  obtain ⟨rval, pr, -, h⟩ := h
  by_cases h0 : rval = 0
  · rw [if_pos h0] at h
    simp only [Option.bind_eq_some_iff] at h
    obtain ⟨u, hu, h⟩ := h
    by_cases he : u.ephType = 72
    · rw [if_pos he] at h; simp at h; rw [hu, h.2]
    · rw [if_neg he] at h; simp at h; rw [hu, h.2]
  · rw [if_neg h0] at h; simp at h

theorem parse_desig {l1 l2 : CString} {rv : Int} {t : Tle} (h : parseElements l1 l2 = some (rv, some t)) :
    t.intlDesig = (l1.drop 9).take 8 ∧ t.intlDesig.length = 8 ∧ 17 ≤ l1.length := by
  have := (parseFields_header (parse_fields h)).1
  unfold sub at this
  split at this
  · simp only [Option.some.injEq] at this
    refine ⟨this.symm, ?_, by omega⟩
    rw [← this]; simp; omega
  · simp at this

end SatSky.Sky
