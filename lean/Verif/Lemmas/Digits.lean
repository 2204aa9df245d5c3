import Verif.Model.GetEl
import Verif.Spec.Tle
import Verif.Lemmas.CStrLemmas

namespace SatSky

open Spec

/-- Value of a list of digit values, most significant first. -/
def ofDigits (acc : Nat) : List Nat → Nat
  | [] => acc
  | d :: t => ofDigits (acc * 10 + d) t

/-- The characters of a list of digit values. -/
def digitChars (ds : List Nat) : CString := ds.map (fun d : Nat => (48 : Int) + (d : Int))

theorem ofDigits_acc (acc : Nat) (ds : List Nat) :
    ofDigits acc ds = acc * 10 ^ ds.length + ofDigits 0 ds := by
  induction ds generalizing acc with
  | nil => simp [ofDigits]
  | cons d t ih =>
    simp only [ofDigits, List.length_cons]
    rw [ih (acc * 10 + d), ih (0 * 10 + d), Nat.pow_succ]
    have : (acc * 10 + d) * 10 ^ t.length = acc * (10 ^ t.length * 10) + d * 10 ^ t.length := by
      rw [Nat.add_mul]; congr 1; rw [Nat.mul_assoc, Nat.mul_comm 10]
    rw [this]; simp [Nat.add_assoc]

set_option linter.unusedSimpArgs false

theorem isDigit_of {c : Int} (h : Digit c) : isDigit c = true := by
  unfold Digit at h; simp [isDigit]; omega

theorem not_isDigit_of {c : Int} (h : ¬ Digit c) : isDigit c = false := by
  unfold Digit at h
  simp only [isDigit, Bool.and_eq_false_iff, decide_eq_false_iff_not]; omega

theorem digitsVal_nodigit (acc : Int) {t : CString} (h : NoDigitHead t) : digitsVal acc t = acc := by
  cases t with
  | nil => rfl
  | cons c t => simp [digitsVal, not_isDigit_of (h c rfl)]

theorem digitsVal_digits (ds : List Nat) (hd : ∀ d ∈ ds, d ≤ 9) (acc : Nat) {t : CString}
    (h : NoDigitHead t) : digitsVal (acc : Int) (digitChars ds ++ t) = (ofDigits acc ds : Nat) := by
  induction ds generalizing acc with
  | nil => simpa [digitChars, ofDigits] using digitsVal_nodigit (acc : Int) h
  | cons d ds ih =>
    have hd0 : d ≤ 9 := hd d (by simp)
    have hdig : isDigit ((48 : Int) + (d : Int)) = true := isDigit_of (by unfold Digit; omega)
    simp only [digitChars, List.map_cons, List.cons_append, digitsVal, hdig, if_true, ofDigits]
    have e : ((acc : Int) * 10 + ((48 : Int) + (d : Int) - 48)) = ((acc * 10 + d : Nat) : Int) := by
      push_cast; omega
    rw [e]
    exact ih (fun x hx => hd x (by simp [hx])) _

theorem not_space_digit (d : Nat) (h : d ≤ 9) : isSpace ((48 : Int) + (d : Int)) = false := by
  simp [isSpace]; omega

/-- `strtol` on a nonempty digit run. -/
theorem strtolVal_digits (ds : List Nat) (hd : ∀ d ∈ ds, d ≤ 9) {t : CString}
    (hne : ds ≠ []) (h : NoDigitHead t) :
    strtolVal (digitChars ds ++ t) = (ofDigits 0 ds : Nat) := by
  cases ds with
  | nil => exact absurd rfl hne
  | cons d ds =>
    have hd0 : d ≤ 9 := hd d (by simp)
    have key := digitsVal_digits (d :: ds) hd 0 h
    have hdig : digitChars (d :: ds) ++ t = ((48 : Int) + (d : Int)) :: (digitChars ds ++ t) := rfl
    rw [hdig] at key ⊢
    unfold strtolVal
    rw [List.dropWhile_cons_of_neg (by simp [not_space_digit d hd0])]
    simp only [signDigits]
    rw [if_neg (by omega), if_neg (by omega)]
    simpa using key

theorem ofDigits_lt (ds : List Nat) (hd : ∀ d ∈ ds, d ≤ 9) : ofDigits 0 ds < 10 ^ ds.length := by
  induction ds with
  | nil => simp [ofDigits]
  | cons d t ih =>
    have hd0 : d ≤ 9 := hd d (by simp)
    have := ih (fun x hx => hd x (by simp [hx]))
    simp only [ofDigits, List.length_cons]
    rw [ofDigits_acc, Nat.pow_succ]
    have : (0 * 10 + d) * 10 ^ t.length ≤ 9 * 10 ^ t.length := Nat.mul_le_mul_right _ (by omega)
    omega

/-- `atoi` on a nonempty run of at most nine digits. -/
theorem atoi_digits (ds : List Nat) (hd : ∀ d ∈ ds, d ≤ 9) {t : CString}
    (hne : ds ≠ []) (hlen : ds.length ≤ 9) (h : NoDigitHead t) :
    atoi (digitChars ds ++ t) = some ((ofDigits 0 ds : Nat) : Int) := by
  unfold atoi
  rw [strtolVal_digits ds hd hne h]
  have h1 := ofDigits_lt ds hd
  have h2 : 10 ^ ds.length ≤ 10 ^ 9 := Nat.pow_le_pow_right (by omega) hlen
  unfold int32
  rw [if_pos]
  unfold inInt
  omega

theorem strtolVal_space (s : CString) : strtolVal (32 :: s) = strtolVal s := by
  unfold strtolVal
  rw [List.dropWhile_cons_of_pos (by decide)]

theorem atoi_space (s : CString) : atoi (32 :: s) = atoi s := by
  unfold atoi; rw [strtolVal_space]

theorem atoi_spaces (k : Nat) (s : CString) : atoi (List.replicate k 32 ++ s) = atoi s := by
  induction k with
  | zero => rfl
  | succ k ih => rw [List.replicate_succ, List.cons_append, atoi_space, ih]

end SatSky
