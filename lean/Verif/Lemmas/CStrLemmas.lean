import Verif.Model.CStr

namespace SatSky

theorem rd_lt {s : CString} {i : Nat} (h : i < s.length) : rd s i = some s[i] := by
  induction s generalizing i with
  | nil => simp at h
  | cons c t ih =>
    cases i with
    | zero => rfl
    | succ i => simpa [rd] using ih (by simpa using h)

theorem rd_eq {s : CString} : rd s s.length = some 0 := by
  induction s with
  | nil => rfl
  | cons c t ih => simpa [rd] using ih

theorem rd_gt {s : CString} {i : Nat} (h : s.length < i) : rd s i = none := by
  induction s generalizing i with
  | nil => cases i with
    | zero => simp at h
    | succ i => rfl
  | cons c t ih =>
    cases i with
    | zero => simp at h
    | succ i => simpa [rd] using ih (by simpa using h)

theorem rd_none_iff {s : CString} {i : Nat} : rd s i = none ↔ s.length < i := by
  constructor
  · intro h
    rcases Nat.lt_trichotomy i s.length with h1 | h1 | h1
    · rw [rd_lt h1] at h; simp at h
    · subst h1; rw [rd_eq] at h; simp at h
    · exact h1
  · exact rd_gt

theorem rd_of_getElem? {s : CString} {i : Nat} {c : CChar} (h : s[i]? = some c) :
    rd s i = some c := by
  obtain ⟨hi, rfl⟩ := List.getElem?_eq_some_iff.mp h
  exact rd_lt hi

theorem getElem?_of_rd {s : CString} {i : Nat} {c : CChar} (h : rd s i = some c) (hc : c ≠ 0) :
    s[i]? = some c := by
  rcases Nat.lt_trichotomy i s.length with h1 | h1 | h1
  · rw [rd_lt h1] at h; simpa [List.getElem?_eq_getElem h1] using h
  · subst h1; rw [rd_eq] at h; simp at h; exact absurd h.symm hc
  · rw [rd_gt h1] at h; simp at h

theorem rd_drop (s : CString) (i j : Nat) (h : i ≤ s.length) : rd (s.drop i) j = rd s (i + j) := by
  induction i generalizing s with
  | zero => simp
  | succ i ih =>
    cases s with
    | nil => simp at h
    | cons c t =>
      have : i + 1 + j = (i + j) + 1 := by omega
      rw [this]
      simpa [rd] using ih t (by simpa using h)

end SatSky
