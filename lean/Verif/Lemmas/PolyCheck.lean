import Mathlib.Data.Real.Basic
import Mathlib.Tactic.Ring
import Mathlib.Tactic.Linarith
import Mathlib.Tactic.FieldSimp
import Mathlib.Tactic.Positivity
import Mathlib.Tactic.LinearCombination

/-! Polynomials with integer coefficients as lists, and a check that one is positive on an interval. -/

namespace SatSky.PolyCheck

/-- The value of a polynomial; the constant term comes first. -/
def val : List ℤ → ℝ → ℝ
  | [], _ => 0
  | c :: cs, x => c + x * val cs x

def add : List ℤ → List ℤ → List ℤ
  | [], b => b
  | a, [] => a
  | x :: a, y :: b => (x + y) :: add a b

def scale (k : ℤ) : List ℤ → List ℤ
  | [] => []
  | x :: a => k * x :: scale k a

def mul : List ℤ → List ℤ → List ℤ
  | [], _ => []
  | x :: a, b => add (scale x b) (0 :: mul a b)

/-- Multiplication by a power of the variable. -/
def up : ℕ → List ℤ → List ℤ
  | 0, a => a
  | n + 1, a => 0 :: up n a

def pow (a : List ℤ) : ℕ → List ℤ
  | 0 => [1]
  | n + 1 => mul a (pow a n)

/-- The polynomial in the square of the variable. -/
def even : List ℤ → List ℤ
  | [] => []
  | c :: cs => c :: 0 :: even cs

theorem val_add (a b : List ℤ) (x : ℝ) : val (add a b) x = val a x + val b x := by
  induction a generalizing b with
  | nil => simp [add, val]
  | cons c a ih =>
    cases b with
    | nil => simp [add, val]
    | cons d b =>
      simp only [add, val, ih]
      push_cast
      ring

theorem val_scale (k : ℤ) (a : List ℤ) (x : ℝ) : val (scale k a) x = k * val a x := by
  induction a with
  | nil => simp [scale, val]
  | cons c a ih =>
    simp only [scale, val, ih]
    push_cast
    ring

theorem val_mul (a b : List ℤ) (x : ℝ) : val (mul a b) x = val a x * val b x := by
  induction a with
  | nil => simp [mul, val]
  | cons c a ih =>
    simp only [mul, val, val_add, val_scale, ih]
    push_cast
    ring

theorem val_up (n : ℕ) (a : List ℤ) (x : ℝ) : val (up n a) x = x ^ n * val a x := by
  induction n with
  | zero => simp [up]
  | succ n ih =>
    simp only [up, val, ih]
    push_cast
    ring

theorem val_pow (a : List ℤ) (n : ℕ) (x : ℝ) : val (pow a n) x = val a x ^ n := by
  induction n with
  | zero => simp [pow, val]
  | succ n ih => simp only [pow, val_mul, ih]; ring

theorem val_even (a : List ℤ) (x : ℝ) : val (even a) x = val a (x ^ 2) := by
  induction a with
  | nil => simp [even, val]
  | cons c a ih =>
    simp only [even, val, ih]
    push_cast
    ring

/-- The same as `f z`, but the kernel has the digits of `z` before it goes on. -/
def frc {α : Sort _} (z : ℤ) (f : ℤ → α) : α :=
  match z with
  | .ofNat 0 => f (.ofNat 0)
  | .ofNat (n + 1) => f (.ofNat (Nat.succ n))
  | .negSucc 0 => f (.negSucc 0)
  | .negSucc (n + 1) => f (.negSucc (Nat.succ n))

@[simp] theorem frc_eq {α : Sort _} (z : ℤ) (f : ℤ → α) : frc z f = f z := by
  unfold frc
  split <;> rfl

/-- The same as `f a`, but the kernel has all coefficients before it goes on. -/
def frcL {α : Sort _} : List ℤ → (List ℤ → α) → α
  | [], f => f []
  | x :: a, f => frc x fun x => frcL a fun a => f (x :: a)

@[simp] theorem frcL_eq {α : Sort _} (a : List ℤ) (f : List ℤ → α) : frcL a f = f a := by
  induction a generalizing f with
  | nil => rfl
  | cons x a ih => simp [frcL, ih]

/-- For the polynomial `P` with `n` coefficients, `b^(n-1) P((a + h s)/b)` as a polynomial in `s`, and `b^n`. -/
def shift (a h b : ℤ) : List ℤ → List ℤ × ℤ
  | [] => ([], 1)
  | c :: cs => match shift a h b cs with
    | (l, d) => frcL (add [c * d] (add (scale a l) (0 :: scale h l))) fun l => frc (d * b) fun d => (l, d)

theorem val_shift (a h b : ℤ) (hb : (b : ℝ) ≠ 0) (P : List ℤ) (s : ℝ) :
    ((shift a h b P).2 : ℝ) = b ^ P.length ∧ b * val (shift a h b P).1 s = b ^ P.length * val P ((a + h * s) / b) := by
  induction P with
  | nil => simp [shift, val]
  | cons c cs ih =>
    obtain ⟨h1, h2⟩ := ih
    simp only [shift, frc_eq, frcL_eq, val, val_add, val_scale, List.length_cons]
    constructor
    · push_cast
      rw [h1]
      ring
    · push_cast
      rw [h1, mul_zero, add_zero]
      generalize val cs ((a + h * s) / b) = V at *
      generalize val (shift a h b cs).1 s = W at *
      rw [pow_succ]
      field_simp
      linear_combination ((a : ℝ) + h * s) * h2

/-- The sum of `c` and `s`, or `s` if `c` is not negative. -/
def cut (c s : ℤ) : ℤ :=
  match c with
  | .ofNat _ => s
  | .negSucc n => frc (.negSucc n + s) id

theorem cut_eq (c s : ℤ) : cut c s = min c 0 + s := by
  unfold cut
  split
  · rename_i n
    rw [min_eq_right (show (0 : ℤ) ≤ Int.ofNat n from Int.natCast_nonneg n), zero_add]
  · rename_i n
    rw [min_eq_left (Int.negSucc_lt_zero n).le, frc_eq, id]

/-- Whether `z` is positive. -/
def pos : ℤ → Bool
  | .ofNat 0 => false
  | .ofNat (_ + 1) => true
  | .negSucc _ => false

theorem pos_sound {z : ℤ} (h : pos z = true) : 0 < z := by
  unfold pos at h
  split at h
  · cases h
  · rename_i n
    exact Int.natCast_pos.2 n.succ_pos
  · cases h

/-- A lower bound of the values on `[0, 1]`. -/
def low : List ℤ → ℤ
  | [] => 0
  | c :: cs => c + neg cs
where
  /-- The sum of the negative coefficients. -/
  neg : List ℤ → ℤ
    | [] => 0
    | c :: cs => cut c (neg cs)

theorem neg_nonpos (a : List ℤ) : low.neg a ≤ 0 := by
  induction a with
  | nil => simp [low.neg]
  | cons c cs ih => simp only [low.neg, cut_eq]; have := min_le_right c 0; linarith

theorem neg_le (a : List ℤ) {s : ℝ} (h0 : 0 ≤ s) (h1 : s ≤ 1) : (low.neg a : ℝ) ≤ val a s := by
  induction a with
  | nil => simp [low.neg, val]
  | cons c cs ih =>
    simp only [low.neg, cut_eq, val]
    push_cast
    have h2 : ((low.neg cs : ℤ) : ℝ) ≤ 0 := by exact_mod_cast neg_nonpos cs
    have h3 := min_le_left (c : ℝ) 0
    nlinarith

theorem low_le (a : List ℤ) {s : ℝ} (h0 : 0 ≤ s) (h1 : s ≤ 1) : (low a : ℝ) ≤ val a s := by
  cases a with
  | nil => simp [low, val]
  | cons c cs =>
    simp only [low, val]
    push_cast
    have h2 : ((low.neg cs : ℤ) : ℝ) ≤ 0 := by exact_mod_cast neg_nonpos cs
    have h3 := neg_le cs h0 h1
    nlinarith

/-- Whether the polynomial is seen to be positive on `[a/b, (a + h)/b]`, dividing the interval by three up to `n` times. (With an odd `b` the numbers
have different last digits in the binary system, which is what the kernel uses to look up results it has already.) -/
def check (P : List ℤ) : ℕ → ℤ → ℤ → ℤ → Bool
  | 0, _, _, _ => false
  | n + 1, a, h, b => pos (low (shift a h b P).1) ||
    frc (3 * a) fun a => frc (3 * b) fun b => frc (a + h) fun a' => frc (a' + h) fun a'' => check P n a h b && (check P n a' h b && check P n a'' h b)

theorem check_sound (P : List ℤ) (n : ℕ) {a h b : ℤ} (hh : 0 ≤ h) (hb : 0 < b) (hc : check P n a h b = true) {x : ℝ} (h0 : (a : ℝ) / b ≤ x)
    (h1 : x ≤ (a + h) / b) : 0 < val P x := by
  induction n generalizing a b with
  | zero => simp [check] at hc
  | succ n ih =>
    simp only [check, frc_eq, Bool.or_eq_true, Bool.and_eq_true] at hc
    have hb' : (0 : ℝ) < b := by exact_mod_cast hb
    rw [div_le_iff₀ hb'] at h0
    rw [le_div_iff₀ hb'] at h1
    rcases hc with hc | ⟨hl, hm, hr⟩
    · have hc := pos_sound hc
      by_cases hz : h = 0
      · have e : x = (a + h * 0) / b := by
          rw [hz] at h1
          push_cast at h1
          field_simp
          linarith
        have := (val_shift a h b hb'.ne' P 0).2
        rw [← e] at this
        have h3 := low_le (shift a h b P).1 le_rfl zero_le_one
        have h4 : (0 : ℝ) < low (shift a h b P).1 := by exact_mod_cast hc
        by_contra hneg
        push Not at hneg
        have : (b : ℝ) ^ P.length * val P x ≤ 0 := mul_nonpos_of_nonneg_of_nonpos (by positivity) hneg
        nlinarith
      · have hp : (0 : ℝ) < h := by exact_mod_cast lt_of_le_of_ne hh (Ne.symm hz)
        have e : x = (a + h * ((x * b - a) / h)) / b := by field_simp; ring
        have s0 : 0 ≤ (x * b - a) / h := div_nonneg (by linarith) hp.le
        have s1 : (x * b - a) / h ≤ 1 := by rw [div_le_one hp]; linarith
        have := (val_shift a h b hb'.ne' P ((x * b - a) / h)).2
        rw [← e] at this
        have h3 := low_le (shift a h b P).1 s0 s1
        have h4 : (0 : ℝ) < low (shift a h b P).1 := by exact_mod_cast hc
        by_contra hneg
        push Not at hneg
        have : (b : ℝ) ^ P.length * val P x ≤ 0 := mul_nonpos_of_nonneg_of_nonpos (by positivity) hneg
        nlinarith
    · have hb3 : (0 : ℝ) < 3 * b := by linarith
      rcases le_total (3 * b * x) (3 * a + h) with h2 | h2
      · refine ih (by linarith : (0 : ℤ) < 3 * b) hl ?_ ?_
        · push_cast; rw [div_le_iff₀ hb3]; linarith
        · push_cast; rw [le_div_iff₀ hb3]; linarith
      · rcases le_total (3 * b * x) (3 * a + h + h) with h3 | h3
        · refine ih (by linarith : (0 : ℤ) < 3 * b) hm ?_ ?_
          · push_cast; rw [div_le_iff₀ hb3]; linarith
          · push_cast; rw [le_div_iff₀ hb3]; linarith
        · refine ih (by linarith : (0 : ℤ) < 3 * b) hr ?_ ?_
          · push_cast; rw [div_le_iff₀ hb3]; linarith
          · push_cast; rw [le_div_iff₀ hb3]; linarith

/-- Whether the lists are the same. -/
def same : List ℤ → List ℤ → Bool
  | [], [] => true
  | [], _ :: _ => false
  | _ :: _, [] => false
  | x :: a, y :: b => match x - y with
    | .ofNat 0 => same a b
    | _ => false

theorem same_sound {a b : List ℤ} (h : same a b = true) : a = b := by
  induction a generalizing b with
  | nil => cases b with
    | nil => rfl
    | cons y b => simp [same] at h
  | cons x a ih => cases b with
    | nil => simp [same] at h
    | cons y b =>
      rw [same] at h
      split at h
      · rename_i e
        rw [ih h, sub_eq_zero.1 e]
      · cases h

/-- The first `m` coefficients, with a lower bound of the rest on `[0, 1]` added. -/
def front (m : ℕ) (a : List ℤ) : List ℤ := add (a.take m) [low.neg (a.drop m)]

theorem val_take_drop (m : ℕ) (a : List ℤ) (s : ℝ) : val a s = val (a.take m) s + s ^ m * val (a.drop m) s := by
  induction m generalizing a with
  | zero => simp [val]
  | succ m ih =>
    cases a with
    | nil => simp [val]
    | cons c a =>
      simp only [List.take_succ_cons, List.drop_succ_cons, val]
      rw [ih a]
      ring

theorem val_front_le (m : ℕ) (a : List ℤ) {s : ℝ} (h0 : 0 ≤ s) (h1 : s ≤ 1) : val (front m a) s ≤ val a s := by
  rw [front, val_add, val_take_drop m a s]
  have h2 := neg_le (a.drop m) h0 h1
  have h3 : ((low.neg (a.drop m) : ℤ) : ℝ) ≤ 0 := by exact_mod_cast neg_nonpos (a.drop m)
  have h4 : s ^ m ≤ 1 := pow_le_one₀ h0 h1
  have h5 : 0 ≤ s ^ m := by positivity
  simp only [val, mul_zero, add_zero]
  nlinarith

/-- Whether the polynomial is seen to be positive on `[a/b, (a + h)/b]`. The coefficients are divided by the common divisor `c`, and after a change of
variable only the first `m` of them are kept. -/
def checkDiv (c : ℤ) (P : List ℤ) (m n : ℕ) (a h b : ℤ) : Bool :=
  frcL P fun P => frcL (P.map (· / c)) fun R => same (scale c R) P && frcL (front m (shift a h b R).1) fun L => check L n 0 1 1

theorem checkDiv_sound {c : ℤ} (P : List ℤ) (m n : ℕ) {a h b : ℤ} (h0 : 0 < c) (hh : 0 < h) (hb : 0 < b) (hc : checkDiv c P m n a h b = true) {x : ℝ}
    (hx0 : (a : ℝ) / b ≤ x) (hx1 : x ≤ (a + h) / b) : 0 < val P x := by
  simp only [checkDiv, frcL_eq, Bool.and_eq_true] at hc
  obtain ⟨hs, hc⟩ := hc
  have hb' : (0 : ℝ) < b := by exact_mod_cast hb
  have hp : (0 : ℝ) < h := by exact_mod_cast hh
  rw [div_le_iff₀ hb'] at hx0
  rw [le_div_iff₀ hb'] at hx1
  have e : x = (a + h * ((x * b - a) / h)) / b := by field_simp; ring
  have s0 : 0 ≤ (x * b - a) / h := div_nonneg (by linarith) hp.le
  have s1 : (x * b - a) / h ≤ 1 := by rw [div_le_one hp]; linarith
  have hv := check_sound _ n zero_le_one zero_lt_one hc (x := (x * b - a) / h) (by simpa using s0) (by simpa using s1)
  have hf := hv.trans_le (val_front_le m _ s0 s1)
  have ht := (val_shift a h b hb'.ne' (P.map (· / c)) ((x * b - a) / h)).2
  rw [← e] at ht
  rw [← same_sound hs, val_scale]
  refine mul_pos (by exact_mod_cast h0) ?_
  by_contra hneg
  push Not at hneg
  have := mul_nonpos_of_nonneg_of_nonpos (by positivity : (0 : ℝ) ≤ (b : ℝ) ^ (P.map (· / c)).length) hneg
  nlinarith

end SatSky.PolyCheck
