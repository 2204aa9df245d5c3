import Verif.Model.GetEl
import Verif.Spec.Tle
import Verif.Lemmas.CStrLemmas

namespace SatSky.GetEl

open SatSky Spec

theorem ckChar_eq_weight (c : CChar) : ckChar c = weight c := by
  unfold ckChar weight
  by_cases hd : Digit c
  · rw [if_pos hd]; unfold Digit at hd
    by_cases h1 : c > 48 ∧ c ≤ 57
    · rw [if_pos h1]
    · rw [if_neg h1]
      have : c = 48 := by omega
      subst this; decide
  · rw [if_neg hd]; unfold Digit at hd
    rw [if_neg (by omega)]

/-- List form of the loop. -/
def ckList : Nat → CString → Int → Int ⊕ Int
  | 0, _, r => .inr r
  | _ + 1, [], _ => .inl (-2)
  | n + 1, c :: t, r => if c < 32 ∨ c > 122 then .inl (-2) else ckList n t (r + ckChar c)

theorem ckLoop_eq (s : CString) (n i : Nat) (r : Int) (h : i ≤ s.length) :
    ckLoop s n i r = some (ckList n (s.drop i) r) := by
  induction n generalizing i r with
  | zero => rfl
  | succ n ih =>
    rcases Nat.lt_or_eq_of_le h with h1 | h1
    · rw [List.drop_eq_getElem_cons h1]
      simp only [ckLoop, rd_lt h1, ckList, Option.bind_eq_bind, Option.bind_some]
      split
      · rfl
      · exact ih _ _ h1
    · subst h1
      simp [ckLoop, rd_eq, ckList]

theorem ckList_good (n : Nat) (l : CString) (r : Int) (hl : n ≤ l.length)
    (hg : ∀ c ∈ l.take n, Printable c) :
    ckList n l r = .inr (r + ((l.take n).map weight).sum) := by
  induction n generalizing l r with
  | zero => simp [ckList]
  | succ n ih =>
    cases l with
    | nil => simp at hl
    | cons c t =>
      have hc : Printable c := hg c (by simp)
      have ht : ∀ x ∈ t.take n, Printable x := fun x hx => hg x (by simp [hx])
      unfold ckList
      rw [if_neg (by unfold Printable at hc; omega), ih t _ (by simpa using hl) ht]
      simp [ckChar_eq_weight, Int.add_assoc]

theorem ckList_bad (n : Nat) (l : CString) (r : Int)
    (hg : ¬ (n ≤ l.length ∧ ∀ c ∈ l.take n, Printable c)) :
    ckList n l r = .inl (-2) := by
  induction n generalizing l r with
  | zero => exact absurd ⟨Nat.zero_le _, by simp⟩ hg
  | succ n ih =>
    cases l with
    | nil => rfl
    | cons c t =>
      unfold ckList
      by_cases hc : c < 32 ∨ c > 122
      · rw [if_pos hc]
      · rw [if_neg hc]
        apply ih
        intro ⟨h1, h2⟩
        apply hg
        refine ⟨by simpa using h1, ?_⟩
        intro x hx
        simp only [List.take_succ_cons, List.mem_cons] at hx
        rcases hx with rfl | hx
        · unfold Printable; omega
        · exact h2 x hx

/-- Normalised remainder of the C code. -/
theorem norm_mod (x : Int) :
    Int.tmod (if Int.tmod x 10 < 0 then Int.tmod x 10 + 10 else Int.tmod x 10) 10 = x % 10 := by
  by_cases hx : 0 ≤ x
  · rw [Int.tmod_eq_emod_of_nonneg hx, if_neg (by omega), Int.tmod_eq_emod_of_nonneg (by omega)]
    omega
  · have h1 : Int.tmod x 10 = - ((-x) % 10) := by
      have : x = -(-x) := by omega
      rw [this, Int.neg_tmod, Int.tmod_eq_emod_of_nonneg (by omega)]
      simp
    rw [h1]
    split
    · rw [Int.tmod_eq_emod_of_nonneg (by omega)]; omega
    · rw [Int.tmod_eq_emod_of_nonneg (by omega)]; omega

/-- The result of the checksum routine, case by case. -/
theorem tleChecksum_cases (s : CString) :
    (¬ TleHead s → IsCStr s → tleChecksum s = some (-1)) ∧
    (TleHead s → ¬ TleBody s → tleChecksum s = some (-2)) ∧
    (TleHead s → TleBody s → s.length = 68 → tleChecksum s = none) ∧
    (TleHead s → TleBody s → 69 ≤ s.length → ¬ TleEnd s → tleChecksum s = some (-3)) ∧
    (TleHead s → TleBody s → TleEnd s → ∀ c, s[68]? = some c →
        tleChecksum s = some ((dataSum s - (c - 48)) % 10)) := by
  have hstart : TleHead s → tleChecksum s = (ckLoop s 68 0 0).bind (ckFinish s) := by
    intro h
    obtain ⟨h0, h1⟩ := h
    have e1 := rd_of_getElem? h1
    unfold tleChecksum
    rcases h0 with h0 | h0 <;> have e0 := rd_of_getElem? h0 <;> simp [e0, e1]
  have hbody : TleBody s → ckLoop s 68 0 0 = some (.inr (dataSum s)) := by
    intro h
    rw [ckLoop_eq s 68 0 0 (Nat.zero_le _), List.drop_zero, ckList_good 68 s 0 h.1 h.2]
    simp [dataSum]
  refine ⟨?_, ?_, ?_, ?_, ?_⟩
  · intro h hc
    unfold tleChecksum
    cases s with
    | nil => rfl
    | cons a t =>
      have hr0 : rd (a :: t) 0 = some a := rfl
      simp only [hr0, Option.bind_eq_bind, Option.bind_some]
      by_cases ha : a ≠ 49 ∧ a ≠ 50
      · simp [ha]
      · simp only [ha, if_false]
        have ha' : a = 49 ∨ a = 50 := by omega
        have hr1 : ∃ c, rd (a :: t) 1 = some c ∧ c ≠ 32 := by
          cases t with
          | nil => exact ⟨0, rfl, by decide⟩
          | cons b u =>
            refine ⟨b, rfl, ?_⟩
            rintro rfl
            apply h
            unfold TleHead
            rcases ha' with rfl | rfl <;> simp
        obtain ⟨c, hr1, hc'⟩ := hr1
        simp [hr1, hc']
  · intro h hb
    rw [hstart h, ckLoop_eq s 68 0 0 (Nat.zero_le _), List.drop_zero, ckList_bad 68 s 0 hb]
    rfl
  · intro h hb hl
    rw [hstart h, hbody hb]
    have e68 : rd s 68 = some 0 := by rw [← hl]; exact rd_eq
    have e69 : rd s 69 = none := rd_gt (by omega)
    simp [ckFinish, e68, e69]
  · intro h hb hl he
    rw [hstart h, hbody hb]
    have e68 : rd s 68 = some s[68] := rd_lt (by omega)
    have : ∃ c, s[69]? = some c ∧ c > 32 := by
      unfold TleEnd at he
      by_cases hx : ∃ c, s[69]? = some c ∧ c > 32
      · exact hx
      · exfalso; apply he; intro c hc
        by_cases h3 : c ≤ 32
        · exact h3
        · exact absurd ⟨c, hc, by omega⟩ hx
    obtain ⟨c, hc, hgt⟩ := this
    have e69 := rd_of_getElem? hc
    simp [ckFinish, e68, e69, hgt]
  · intro h hb he c hc
    rw [hstart h, hbody hb]
    have e68 := rd_of_getElem? hc
    have hlen : 68 < s.length := by
      obtain ⟨hi, _⟩ := List.getElem?_eq_some_iff.mp hc
      exact hi
    have e69 : ∃ d, rd s 69 = some d ∧ ¬ d > 32 := by
      rcases Nat.lt_or_eq_of_le (Nat.succ_le_of_lt hlen) with h1 | h1
      · refine ⟨s[69], rd_lt h1, ?_⟩
        have := he s[69] (List.getElem?_eq_getElem h1)
        omega
      · refine ⟨0, ?_, by decide⟩
        have h2 : s.length = 69 := by omega
        rw [← h2]; exact rd_eq
    obtain ⟨d, e69, hd⟩ := e69
    simp only [ckFinish, e68, e69, hd, Option.bind_eq_bind, Option.bind_some, if_false]
    simp only [norm_mod]
    rfl

end SatSky.GetEl
