import Verif.Model.Deep
import Verif.Lemmas.TrigNum

/-! C100: the constants of the resonance terms. -/

namespace SatSky.Props

open SatSky.Sxp SatSky.Trig Real

/-- `c` and `s` are cosine and sine of the angle `x`, to 12 decimals. -/
def CosSin (c s x : ℝ) : Prop := |c - cos x| ≤ 1 / 10 ^ 12 ∧ |s - sin x| ≤ 1 / 10 ^ 12

theorem cosSin_direct {c s : ℝ} {q : ℚ} (cq sq : ℚ) (hq : |q| ≤ 1) (hc : |cosP q - cq| ≤ 1 / 10 ^ 13) (hs : |sinP q - sq| ≤ 1 / 10 ^ 13)
    (ec : c = cq) (es : s = sq) : CosSin c s q := near hq (by simp) hc hs ec es

/-- C100: the constants for synchronous orbits are cosines and sines of the angles `fasx2`, `2·fasx4` and `3·fasx6` of the Spacetrack
report; the comments give these angles rounded to seven decimals. -/
theorem C100_full : CosSin c_fasx2 s_fasx2 (13130908 / 10 ^ 8) ∧ CosSin c_2fasx4 s_2fasx4 (2 * (28843198 / 10 ^ 7)) ∧
    CosSin c_3fasx6 s_3fasx6 (3 * (37448087 / 10 ^ 8)) := by
  have p1 := pi_gt_d20
  have p2 := pi_lt_d20
  refine ⟨?_, ?_, ?_⟩
  · have := cosSin_direct (c := c_fasx2) (s := s_fasx2) (q := 13130908 / 10 ^ 8) (99139134268488593 / 10 ^ 17) (13093206501640101 / 10 ^ 17)
      (by decide +kernel) (by decide +kernel) (by decide +kernel) (by unfold c_fasx2; norm_num) (by unfold s_fasx2; norm_num)
    push_cast at this
    exact this
  · have := near (x := 2 * π - 2 * (28843198 / 10 ^ 7)) (q := 514545707179586477 / 10 ^ 18) (c := c_2fasx4) (s := -s_2fasx4)
      (cq := 87051638752972937 / 10 ^ 17) (sq := 49213943048915526 / 10 ^ 17) (by decide +kernel)
      (by rw [abs_le]; push_cast; constructor <;> norm_num at * <;> linarith) (by decide +kernel) (by decide +kernel)
      (by unfold c_2fasx4; norm_num) (by unfold s_2fasx4; norm_num)
    rw [cos_two_pi_sub, sin_two_pi_sub] at this
    refine ⟨this.1, ?_⟩
    rw [← abs_neg]
    simpa [sub_eq_add_neg, add_comm] using this.2
  · have := near (x := π / 2 - 3 * (37448087 / 10 ^ 8)) (q := 447353716794896619 / 10 ^ 18) (c := s_3fasx6) (s := c_3fasx6)
      (cq := 90159499016666422 / 10 ^ 17) (sq := 43258117585763334 / 10 ^ 17) (by decide +kernel)
      (by rw [abs_le]; push_cast; constructor <;> norm_num at * <;> linarith) (by decide +kernel) (by decide +kernel)
      (by unfold s_3fasx6; norm_num) (by unfold c_3fasx6; norm_num)
    rw [cos_pi_div_two_sub, sin_pi_div_two_sub] at this
    exact ⟨this.2, this.1⟩

/-- C100: the constants for 12-hour orbits are cosines and sines of the angles `g22`, `g32`, `g44`, `g52` and `g54` given in the comments. -/
theorem C100_half : CosSin c_g22 s_g22 (57686396 / 10 ^ 7) ∧ CosSin c_g32 s_g32 (95240898 / 10 ^ 8) ∧ CosSin c_g44 s_g44 (18014998 / 10 ^ 7) ∧
    CosSin c_g52 s_g52 (10508330 / 10 ^ 7) ∧ CosSin c_g54 s_g54 (44108898 / 10 ^ 7) := by
  have p1 := pi_gt_d20
  have p2 := pi_lt_d20
  refine ⟨?_, ?_, ?_, ?_, ?_⟩
  · have := C100_full.2.1
    rw [show (2 : ℝ) * (28843198 / 10 ^ 7) = 57686396 / 10 ^ 7 by norm_num] at this
    exact this
  · have := cosSin_direct (c := c_g32) (s := s_g32) (q := 95240898 / 10 ^ 8) (57972190187001149 / 10 ^ 17) (81481440616389245 / 10 ^ 17)
      (by decide +kernel) (by decide +kernel) (by decide +kernel) (by unfold c_g32; norm_num) (by unfold s_g32; norm_num)
    push_cast at this
    exact this
  · have := near (x := 18014998 / 10 ^ 7 - π / 2) (q := 230703473205103381 / 10 ^ 18) (c := s_g44) (s := -c_g44)
      (cq := 97350577801807991 / 10 ^ 17) (sq := 22866241528815548 / 10 ^ 17) (by decide +kernel)
      (by rw [abs_le]; push_cast; constructor <;> norm_num at * <;> linarith) (by decide +kernel) (by decide +kernel)
      (by unfold s_g44; norm_num) (by unfold c_g44; norm_num)
    rw [cos_sub_pi_div_two, sin_sub_pi_div_two] at this
    refine ⟨?_, this.1⟩
    rw [← abs_neg]
    simpa [sub_eq_add_neg, add_comm] using this.2
  · have := near (x := π / 2 - 10508330 / 10 ^ 7) (q := 519963326794896619 / 10 ^ 18) (c := s_g52) (s := c_g52)
      (cq := 86783740128127729 / 10 ^ 17) (sq := 49684831179884198 / 10 ^ 17) (by decide +kernel)
      (by rw [abs_le]; push_cast; constructor <;> norm_num at * <;> linarith) (by decide +kernel) (by decide +kernel)
      (by unfold s_g52; norm_num) (by unfold c_g52; norm_num)
    rw [cos_pi_div_two_sub, sin_pi_div_two_sub] at this
    exact ⟨this.2, this.1⟩
  · have := near (x := π / 2 - (44108898 / 10 ^ 7 - π)) (q := 301499180384689858 / 10 ^ 18) (c := -s_g54) (s := -c_g54)
      (cq := 95489237761529999 / 10 ^ 17) (sq := 29695209575316894 / 10 ^ 17) (by decide +kernel)
      (by rw [abs_le]; push_cast; constructor <;> norm_num at * <;> linarith) (by decide +kernel) (by decide +kernel)
      (by unfold s_g54; norm_num) (by unfold c_g54; norm_num)
    rw [cos_pi_div_two_sub, sin_pi_div_two_sub, sin_sub_pi, cos_sub_pi] at this
    constructor
    · rw [← abs_neg]
      simpa [sub_eq_add_neg, add_comm] using this.2
    · rw [← abs_neg]
      simpa [sub_eq_add_neg, add_comm] using this.1

/-- The angles as rounded in the comments are not the ones of the constants. -/
theorem C100_comment_excluded : ¬ CosSin c_fasx2 s_fasx2 (1313091 / 10 ^ 7) := by
  have h := cosSin_direct (c := 991391340066244367 / 10 ^ 18) (s := 1309320848442278 / 10 ^ 16) (q := 1313091 / 10 ^ 7) (991391340066244367 / 10 ^ 18)
      (1309320848442278 / 10 ^ 16) (by decide +kernel) (by decide +kernel) (by decide +kernel) (by push_cast; rfl) (by push_cast; rfl)
  rintro ⟨-, h2⟩
  have h3 := h.2
  push_cast at h3
  unfold s_fasx2 at h2
  rw [abs_le] at h2 h3
  norm_num at h2 h3
  linarith [h2.1, h2.2, h3.1, h3.2]

/-- A wrong digit would not pass. -/
example : ¬ CosSin 1 0 (13130908 / 10 ^ 8) := by
  rintro ⟨h, -⟩
  have := C100_full.1.1
  rw [abs_le] at *
  unfold c_fasx2 at this
  norm_num at *
  linarith [this.1, this.2, h.1, h.2]

end SatSky.Props
