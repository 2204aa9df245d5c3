import Verif.Props.ParseCode

/-! Header fields read by `parse_elements`. -/

namespace SatSky.Sky

open SatSky Spec GetEl Props

/-- Header fields of an accepted element set. -/
theorem parseFields_header {l1 l2 : CString} {t : Tle} (h : parseFields l1 l2 = some t) :
    sub l1 9 8 = some t.intlDesig ∧ (ptrAdd l1 2).bind getNoradNumber = some t.norad := by
  unfold parseFields at h
  simp only [Option.bind_eq_bind, Option.bind_eq_some_iff] at h
  obtain ⟨c18, _, c19, _, p20, _, ⟨day, frac⟩, _, p2, hp2, norad, hnor, tb, _, bul, _, cls, _, des, hdes, tb2,
    _, rev, _, et, het, h⟩ := h
  have hn : (ptrAdd l1 2).bind getNoradNumber = some norad := by rw [hp2]; exact hnor
  by_cases hH : et = 72
  · simp only [hH, if_true, Option.bind_eq_some_iff] at h
    obtain ⟨x0, _, v0, _, x1, _, v1, _, x2, _, v2, _, h⟩ := h
    simp at h; subst h; exact ⟨hdes, hn⟩
  · simp only [hH, if_false, Option.bind_eq_some_iff] at h
    obtain ⟨q1, _, a1, _, q2, _, a2, _, q3, _, a3, _, q4, _, a4, _, q5, _, a5, _, q6, _, a6, _, q7, _,
      a7, _, q8, _, q9, _, a9, _, q10, _, a10, _, h⟩ := h
    simp at h; subst h; exact ⟨hdes, hn⟩

end SatSky.Sky
