import Verif.Lemmas.HansenSeries
import Verif.Lemmas.PolyCheck
import Mathlib.Analysis.Complex.ExponentialBounds

/-! Hansen's coefficients up to a known error, and how to compare them with a polynomial of the eccentricity. -/

namespace SatSky.Hansen

open SatSky.Spec SatSky.PolyCheck

/-- Coefficients of `(1 - w)^(-p) e^(x w)`. -/
noncomputable def al (p : ℕ) (x : ℝ) (n : ℕ) : ℝ := ∑ k ∈ Finset.range (n + 1), mc p k * (x ^ (n - k) / (n - k).factorial)

theorem cs_al (β x : ℝ) (p n : ℕ) : cs β (β * x) p n = β ^ n * al p x n := by
  unfold cs al
  rw [Finset.mul_sum]
  refine Finset.sum_congr rfl fun k hk => ?_
  have : β ^ n = β ^ k * β ^ (n - k) := by rw [← pow_add, Nat.add_sub_cancel' (Nat.lt_succ_iff.1 (Finset.mem_range.1 hk))]
  rw [this, mul_pow]
  ring

/-- A bound for the binomial coefficients. -/
def top (p n : ℕ) : ℕ := (n + (p - 1)).choose (p - 1)

theorem mc_le (p : ℕ) {k n : ℕ} (h : k ≤ n) : mc p k ≤ top p n := by
  unfold top
  cases p with
  | zero => cases k <;> simp [mc]
  | succ p => exact Nat.choose_le_choose p (by omega)

theorem al_le {p j : ℕ} {x : ℝ} (hx : |x| ≤ j) (n : ℕ) : |al p x n| ≤ top p n * 3 ^ j := by
  have h3 : Real.exp j ≤ 3 ^ j := by
    rw [← Real.exp_one_pow]
    exact pow_le_pow_left₀ (Real.exp_pos _).le (by linarith [Real.exp_one_lt_d9]) j
  have hs : ∑ k ∈ Finset.range (n + 1), |x| ^ (n - k) / ((n - k).factorial : ℝ) ≤ Real.exp j := by
    have e := Finset.sum_range_reflect (fun k => |x| ^ k / (k.factorial : ℝ)) (n + 1)
    simp only [Nat.add_sub_cancel] at e
    rw [e]
    exact (Real.sum_le_exp_of_nonneg (abs_nonneg x) _).trans (Real.exp_le_exp.2 hx)
  unfold al
  calc _ ≤ ∑ k ∈ Finset.range (n + 1), |(mc p k : ℝ) * (x ^ (n - k) / (n - k).factorial)| := Finset.abs_sum_le_sum_abs _ _
    _ ≤ ∑ k ∈ Finset.range (n + 1), (top p n : ℝ) * (|x| ^ (n - k) / (n - k).factorial) := by
      refine Finset.sum_le_sum fun k hk => ?_
      rw [abs_mul, abs_div, abs_pow, Nat.abs_cast, Nat.abs_cast]
      have : (mc p k : ℝ) ≤ top p n := by exact_mod_cast mc_le p (Nat.lt_succ_iff.1 (Finset.mem_range.1 hk))
      exact mul_le_mul_of_nonneg_right this (by positivity)
    _ ≤ _ := by
      rw [← Finset.mul_sum]
      exact mul_le_mul_of_nonneg_left (hs.trans h3) (by positivity)

theorem top_succ (p n : ℕ) : (top p (n + 1) : ℝ) * (n + 1) = top p n * (n + 1 + (p - 1 : ℕ)) := by
  unfold top
  have := Nat.choose_mul_succ_eq (n + (p - 1)) (p - 1)
  rw [show n + (p - 1) + 1 - (p - 1) = n + 1 by omega, show n + (p - 1) + 1 = n + 1 + (p - 1) by ring] at this
  have h : (((n + (p - 1)).choose (p - 1) * (n + 1 + (p - 1)) : ℕ) : ℝ) = (((n + 1 + (p - 1)).choose (p - 1) * (n + 1) : ℕ) : ℝ) := by rw [this]
  push_cast at h ⊢
  linarith

theorem tail_le {x y : ℕ → ℝ} {S ρ : ℝ} {N : ℕ} (h : HasSum x S) (h0 : 0 ≤ ρ) (h1 : ρ < 1) (hy : ∀ i, N ≤ i → |x i| ≤ y i) (hr : ∀ i, N ≤ i → y (i + 1) ≤ ρ * y i) :
    |S - ∑ i ∈ Finset.range N, x i| ≤ y N / (1 - ρ) := by
  have hs := (hasSum_nat_add_iff' N).2 h
  have hg : HasSum (fun i => ρ ^ i * y N) ((1 - ρ)⁻¹ * y N) := (hasSum_geometric_of_lt_one h0 h1).mul_right _
  have hb : ∀ i, y (i + N) ≤ ρ ^ i * y N := by
    intro i
    induction i with
    | zero => simp
    | succ i ih =>
      rw [show i + 1 + N = i + N + 1 by ring, pow_succ']
      calc _ ≤ ρ * y (i + N) := hr _ (by omega)
        _ ≤ ρ * (ρ ^ i * y N) := mul_le_mul_of_nonneg_left ih h0
        _ = _ := by ring
  have := hs.norm_le_of_bounded hg fun i => (hy _ (by omega)).trans (hb i)
  rw [Real.norm_eq_abs] at this
  rw [div_eq_inv_mul]
  exact this

/-- The first `N` terms. -/
noncomputable def first (l p q j D1 D2 N : ℕ) (β : ℝ) : ℝ :=
  (1 + β ^ 2) ^ l * (β ^ (D1 + D2) * ∑ i ∈ Finset.range N, (β ^ 2) ^ i * (al p (j / (1 + β ^ 2)) (i + D1) * al q (-(j / (1 + β ^ 2))) (i + D2)))

theorem ratio_le {B ρ : ℝ} (hB0 : 0 ≤ B) {p q j D1 D2 N : ℕ}
    (hρ : B ^ 2 * ((N + D1 + 1 + (p - 1 : ℕ)) * (N + D2 + 1 + (q - 1 : ℕ))) ≤ ρ * ((N + D1 + 1) * (N + D2 + 1))) {i : ℕ} (hi : N ≤ i) :
    B ^ (D1 + D2) * ((B ^ 2) ^ (i + 1) * (top p (i + 1 + D1) * top q (i + 1 + D2))) * 9 ^ j ≤
      ρ * (B ^ (D1 + D2) * ((B ^ 2) ^ i * (top p (i + D1) * top q (i + D2))) * 9 ^ j) := by
  have t1 := top_succ p (i + D1)
  have t2 := top_succ q (i + D2)
  push_cast at t1 t2
  have hi' : (N : ℝ) ≤ i := by exact_mod_cast hi
  have N0 : (0 : ℝ) ≤ N := by positivity
  have d1 : (0 : ℝ) ≤ D1 := by positivity
  have d2 : (0 : ℝ) ≤ D2 := by positivity
  have p0 : (0 : ℝ) ≤ ((p - 1 : ℕ) : ℝ) := by positivity
  have q0 : (0 : ℝ) ≤ ((q - 1 : ℕ) : ℝ) := by positivity
  have u1 : ((i : ℝ) + D1 + 1 + (p - 1 : ℕ)) * (N + D1 + 1) ≤ (N + D1 + 1 + (p - 1 : ℕ)) * (i + D1 + 1) := by nlinarith
  have u2 : ((i : ℝ) + D2 + 1 + (q - 1 : ℕ)) * (N + D2 + 1) ≤ (N + D2 + 1 + (q - 1 : ℕ)) * (i + D2 + 1) := by nlinarith
  have hrat : B ^ 2 * (((i : ℝ) + D1 + 1 + (p - 1 : ℕ)) * (i + D2 + 1 + (q - 1 : ℕ))) ≤ ρ * ((i + D1 + 1) * (i + D2 + 1)) := by
    have w : (0 : ℝ) < (N + D1 + 1) * (N + D2 + 1) := by positivity
    refine le_of_mul_le_mul_right ?_ w
    have u3 := mul_le_mul u1 u2 (by positivity) (by positivity)
    have u4 := mul_le_mul_of_nonneg_left u3 (sq_nonneg B)
    have u5 := mul_le_mul_of_nonneg_right hρ (by positivity : (0 : ℝ) ≤ (i + D1 + 1) * (i + D2 + 1))
    linarith
  rw [show i + 1 + D1 = i + D1 + 1 by ring, show i + 1 + D2 = i + D2 + 1 by ring]
  have hi1 : (0 : ℝ) < i + D1 + 1 := by positivity
  have hi2 : (0 : ℝ) < i + D2 + 1 := by positivity
  have e1 : (top p (i + D1 + 1) : ℝ) = top p (i + D1) * (i + D1 + 1 + (p - 1 : ℕ)) / (i + D1 + 1) := by rw [eq_div_iff hi1.ne']; exact t1
  have e2 : (top q (i + D2 + 1) : ℝ) = top q (i + D2) * (i + D2 + 1 + (q - 1 : ℕ)) / (i + D2 + 1) := by rw [eq_div_iff hi2.ne']; exact t2
  rw [e1, e2]
  have hrat' : B ^ 2 * (((i : ℝ) + D1 + 1 + (p - 1 : ℕ)) * (i + D2 + 1 + (q - 1 : ℕ))) / ((i + D1 + 1) * (i + D2 + 1)) ≤ ρ := by
    rw [div_le_iff₀ (by positivity)]
    exact hrat
  calc _ = (B ^ 2 * (((i : ℝ) + D1 + 1 + (p - 1 : ℕ)) * (i + D2 + 1 + (q - 1 : ℕ))) / ((i + D1 + 1) * (i + D2 + 1))) *
        (B ^ (D1 + D2) * ((B ^ 2) ^ i * (top p (i + D1) * top q (i + D2))) * 9 ^ j) := by
          rw [pow_succ]
          field_simp
    _ ≤ _ := mul_le_mul_of_nonneg_right hrat' (by positivity)

theorem hansen_first {β B : ℝ} (h0 : 0 ≤ β) (hB : β ≤ B) (hB1 : B < 1) {l p q j : ℕ} {k : ℤ} (hp : (p : ℤ) = l + k) (hq : (q : ℤ) = l - k) {D1 D2 : ℕ}
    (hd : k - j = D2 - D1) (hD : D1 = 0 ∨ D2 = 0) {N : ℕ} {ρ δ : ℝ} (hρ0 : 0 ≤ ρ) (hρ1 : ρ < 1)
    (hρ : B ^ 2 * ((N + D1 + 1 + (p - 1 : ℕ)) * (N + D2 + 1 + (q - 1 : ℕ))) ≤ ρ * ((N + D1 + 1) * (N + D2 + 1)))
    (hδ : (1 + B ^ 2) ^ l * (B ^ (D1 + D2) * ((B ^ 2) ^ N * (top p (N + D1) * top q (N + D2))) * 9 ^ j / (1 - ρ)) ≤ δ) :
    |hansen l k j (2 * β / (1 + β ^ 2)) - first l p q j D1 D2 N β| ≤ δ := by
  have h1 : β < 1 := by linarith
  have hm : 0 < 1 + β ^ 2 := by positivity
  have hB0 : 0 ≤ B := by linarith
  have hs := hansen_series h0 h1 hp hq hd hD
  have eν : (j : ℝ) * β / (1 + β ^ 2) = β * (j / (1 + β ^ 2)) := by ring
  have eν' : -((j : ℝ) * β / (1 + β ^ 2)) = β * -(j / (1 + β ^ 2)) := by ring
  rw [eν', eν] at hs
  simp only [cs_al] at hs
  have hx : |(j : ℝ) / (1 + β ^ 2)| ≤ (j : ℝ) := by
    rw [abs_of_nonneg (by positivity)]
    exact div_le_self (by positivity) (by nlinarith)
  have hx' : |-((j : ℝ) / (1 + β ^ 2))| ≤ (j : ℝ) := by rw [abs_neg]; exact hx
  have ht := tail_le (N := N) (y := fun i => B ^ (D1 + D2) * ((B ^ 2) ^ i * (top p (i + D1) * top q (i + D2))) * 9 ^ j) hs hρ0 hρ1
    (fun i _ => by
      rw [show β ^ (i + D1) * al p (j / (1 + β ^ 2)) (i + D1) * (β ^ (i + D2) * al q (-(j / (1 + β ^ 2))) (i + D2)) =
        (β ^ (D1 + D2) * (β ^ 2) ^ i) * (al p (j / (1 + β ^ 2)) (i + D1) * al q (-(j / (1 + β ^ 2))) (i + D2)) by
          rw [pow_add, pow_add, pow_add, ← pow_mul, mul_comm 2 i, pow_mul]; ring, abs_mul, abs_mul (al _ _ _)]
      have e1 : |β ^ (D1 + D2) * (β ^ 2) ^ i| ≤ B ^ (D1 + D2) * (B ^ 2) ^ i := by
        rw [abs_of_nonneg (by positivity)]
        gcongr
      have e2 := mul_le_mul (al_le (p := p) hx (i + D1)) (al_le (p := q) hx' (i + D2)) (abs_nonneg _) (by positivity)
      refine (mul_le_mul e1 e2 (by positivity) (by positivity)).trans (le_of_eq ?_)
      rw [show (9 : ℝ) = 3 * 3 by norm_num, mul_pow]
      ring)
    (fun i hi => ratio_le hB0 hρ hi)
  have hsum : ∑ i ∈ Finset.range N, β ^ (i + D1) * al p (j / (1 + β ^ 2)) (i + D1) * (β ^ (i + D2) * al q (-(j / (1 + β ^ 2))) (i + D2)) =
      β ^ (D1 + D2) * ∑ i ∈ Finset.range N, (β ^ 2) ^ i * (al p (j / (1 + β ^ 2)) (i + D1) * al q (-(j / (1 + β ^ 2))) (i + D2)) := by
    rw [Finset.mul_sum]
    refine Finset.sum_congr rfl fun i _ => ?_
    rw [pow_add, pow_add, pow_add, ← pow_mul, mul_comm 2 i, pow_mul]
    ring
  rw [hsum] at ht
  have e : hansen l k j (2 * β / (1 + β ^ 2)) - first l p q j D1 D2 N β = (1 + β ^ 2) ^ l * (hansen l k j (2 * β / (1 + β ^ 2)) / (1 + β ^ 2) ^ l -
      β ^ (D1 + D2) * ∑ i ∈ Finset.range N, (β ^ 2) ^ i * (al p (j / (1 + β ^ 2)) (i + D1) * al q (-(j / (1 + β ^ 2))) (i + D2))) := by
    unfold first
    field_simp
  rw [e, abs_mul, abs_of_nonneg (by positivity)]
  refine le_trans (mul_le_mul ?_ ht (abs_nonneg _) (by positivity)) hδ
  gcongr

/-! The first terms as a polynomial -/

/-- The binomial coefficients from factorials. -/
def mcf : ℕ → ℕ → ℕ
  | 0, 0 => 1
  | 0, _ + 1 => 0
  | p + 1, i => (i + p).factorial / (i.factorial * p.factorial)

theorem mcf_eq (p i : ℕ) : mcf p i = mc p i := by
  cases p with
  | zero => cases i <;> rfl
  | succ p => simp only [mcf, mc]; rw [Nat.add_choose]

/-- The coefficient of `(1 + t)^k` in `F (1 + t)^n al p (x/(1 + t)) n`. -/
def coef (p : ℕ) (x : ℤ) (F n k : ℕ) : ℤ := mcf p k * x ^ (n - k) * ((F / (n - k).factorial : ℕ) : ℤ)

/-- The sum of the last `r + 1` terms, divided by a power of `1 + t`. -/
def horner (p : ℕ) (x : ℤ) (F n : ℕ) : ℕ → List ℤ
  | 0 => [coef p x F n n]
  | r + 1 => frcL (add [coef p x F n (n - (r + 1))] (mul [1, 1] (horner p x F n r))) id

theorem val_one_one (t : ℝ) : val [1, 1] t = 1 + t := by simp [val]

theorem val_horner (p : ℕ) (x : ℤ) (F n r : ℕ) (hr : r ≤ n) (t : ℝ) :
    val (horner p x F n r) t = ∑ k ∈ Finset.range (r + 1), (coef p x F n (n - r + k) : ℝ) * (1 + t) ^ k := by
  induction r with
  | zero => simp [horner, val]
  | succ r ih =>
    rw [horner, frcL_eq, id, val_add, val_mul, val_one_one, ih (by omega), Finset.sum_range_succ' _ (r + 1), Finset.mul_sum, add_comm]
    congr 1
    · refine Finset.sum_congr rfl fun k _ => ?_
      rw [show n - (r + 1) + (k + 1) = n - r + k by omega, pow_succ]
      ring
    · simp [val]

theorem val_horner_al (p : ℕ) (x : ℤ) {F n : ℕ} (hF : ∀ m, m ≤ n → m.factorial ∣ F) {t : ℝ} (ht : 0 ≤ t) :
    val (horner p x F n n) t = F * (1 + t) ^ n * al p (x / (1 + t)) n := by
  have h1 : (1 + t) ≠ 0 := by positivity
  rw [val_horner p x F n n le_rfl, al, Finset.mul_sum]
  refine Finset.sum_congr rfl fun k hk => ?_
  have hk' : k ≤ n := Nat.lt_succ_iff.1 (Finset.mem_range.1 hk)
  have hf : ((n - k).factorial : ℝ) ≠ 0 := by exact_mod_cast (n - k).factorial_ne_zero
  have e1 : (1 + t) ^ n = (1 + t) ^ k * (1 + t) ^ (n - k) := by rw [← pow_add, Nat.add_sub_cancel' hk']
  rw [Nat.sub_self, zero_add, coef, mcf_eq, e1, div_pow]
  rw [Int.cast_mul, Int.cast_mul, Int.cast_pow, Int.cast_natCast, Int.cast_natCast, Nat.cast_div (hF _ (Nat.sub_le n k)) hf]
  field_simp

/-- The sum of the first `n` terms, in powers of `t`. -/
def acc (p q : ℕ) (j : ℤ) (F D1 D2 : ℕ) : ℕ → List ℤ
  | 0 => []
  | n + 1 => frcL (acc p q j F D1 D2 n) fun s => frcL (horner p j F (n + D1) (n + D1)) fun a => frcL (horner q (-j) F (n + D2) (n + D2)) fun b =>
      frcL (add (mul [1, 2, 1] s) (up n (mul a b))) id

theorem val_acc (p q : ℕ) (j : ℤ) {F D1 D2 N : ℕ} (hF : ∀ m, m ≤ N + (D1 + D2) → m.factorial ∣ F) {t : ℝ} (ht : 0 ≤ t) {n : ℕ} (hn : n ≤ N) :
    val (acc p q j F D1 D2 n) t * (1 + t) ^ 2 =
      F ^ 2 * (1 + t) ^ (2 * n + (D1 + D2)) * ∑ i ∈ Finset.range n, t ^ i * (al p (j / (1 + t)) (i + D1) * al q (-(j / (1 + t))) (i + D2)) := by
  induction n with
  | zero => simp [acc, val]
  | succ n ih =>
    rw [acc, frcL_eq, frcL_eq, frcL_eq, frcL_eq, id, val_add, val_mul, val_up, val_mul, val_horner_al p j (fun m hm => hF m (by omega)) ht, val_horner_al q (-j) (fun m hm => hF m (by omega)) ht,
      Finset.sum_range_succ, mul_add, show val [1, 2, 1] t = (1 + t) ^ 2 by simp [val]; ring, add_mul, mul_assoc, ih (by omega)]
    have e1 : (1 + t) ^ (2 * (n + 1) + (D1 + D2)) = (1 + t) ^ (2 * n + (D1 + D2)) * (1 + t) ^ 2 := by rw [← pow_add]; congr 1; ring
    have e2 : (1 + t) ^ (2 * n + (D1 + D2)) = (1 + t) ^ (n + D1) * (1 + t) ^ (n + D2) := by rw [← pow_add]; congr 1; ring
    rw [e1, e2]
    push_cast
    rw [neg_div]
    ring

/-- `10⁵ F² (1 + β²)^K` times the difference of the first terms and the cubic polynomial of the eccentricity with the coefficients `f0`, ..., `f3`
(in units of 10⁻⁵), where `K = 2N + D1 + D2 - l - 2`. -/
def diff (l p q : ℕ) (j : ℤ) (D1 D2 N F : ℕ) (f0 f1 f2 f3 : ℤ) : List ℤ :=
  let m : List ℤ := [1, 0, 1]
  frcL (acc p q j F D1 D2 N) fun s => frcL (pow m (2 * N + (D1 + D2) - l - 5)) fun w =>
  add (scale (10 ^ 5) (up (D1 + D2) (even s)))
    (scale (-(F ^ 2 : ℤ)) (mul (add (add (scale f0 (pow m 3)) (scale (2 * f1) (up 1 (pow m 2)))) (add (scale (4 * f2) (up 2 m)) [0, 0, 0, 8 * f3])) w))

/-- `10⁵ F² (1 + β²)^K` times the allowed difference (in units of 10⁻⁵). -/
def allow (l D1 D2 N F : ℕ) (ε : ℤ) : List ℤ := scale ((F ^ 2 : ℤ) * ε) (pow [1, 0, 1] (2 * N + (D1 + D2) - l - 2))

theorem val_diff {l p q : ℕ} {j D1 D2 N F : ℕ} (hF : ∀ m, m ≤ N + (D1 + D2) → m.factorial ∣ F) (hl : l + 5 ≤ 2 * N + (D1 + D2)) (f0 f1 f2 f3 : ℤ) (β : ℝ) :
    val (diff l p q j D1 D2 N F f0 f1 f2 f3) β = 10 ^ 5 * F ^ 2 * (1 + β ^ 2) ^ (2 * N + (D1 + D2) - l - 2) *
      (first l p q j D1 D2 N β - (f0 / 10 ^ 5 + f1 / 10 ^ 5 * (2 * β / (1 + β ^ 2)) + f2 / 10 ^ 5 * (2 * β / (1 + β ^ 2)) ^ 2 +
        f3 / 10 ^ 5 * (2 * β / (1 + β ^ 2)) ^ 3)) := by
  have hm : (1 + β ^ 2) ≠ 0 := by positivity
  have hmv : val [1, 0, 1] β = 1 + β ^ 2 := by simp [val]; ring
  obtain ⟨K, hK⟩ : ∃ K, 2 * N + (D1 + D2) = K + l + 5 := ⟨2 * N + (D1 + D2) - l - 5, by omega⟩
  have hacc := val_acc p q j hF (sq_nonneg β) (le_refl N)
  rw [hK] at hacc
  unfold diff first
  dsimp only
  rw [hK, show K + l + 5 - l - 5 = K by omega, show K + l + 5 - l - 2 = K + 3 by omega]
  simp only [frcL_eq, val_add, val_scale, val_up, val_even, val_mul, val_pow, hmv]
  rw [show val [0, 0, 0, 8 * f3] β = 8 * f3 * β ^ 3 by simp [val]; ring]
  push_cast at hacc ⊢
  generalize val (acc p q j F D1 D2 N) (β ^ 2) = A at *
  generalize ∑ i ∈ Finset.range N, (β ^ 2) ^ i * (al p (j / (1 + β ^ 2)) (i + D1) * al q (-(j / (1 + β ^ 2))) (i + D2)) = S at *
  generalize 1 + β ^ 2 = m at *
  have hA : A = F ^ 2 * m ^ (K + 3) * m ^ l * S := by
    have h2 : m ^ 2 ≠ 0 := pow_ne_zero 2 hm
    apply mul_right_cancel₀ h2
    rw [hacc]
    ring
  rw [hA, pow_add m K 3]
  field_simp
  ring

theorem near_cubic {l p q : ℕ} {j D1 D2 N F : ℕ} (hF : ∀ m, m ≤ N + (D1 + D2) → m.factorial ∣ F) (hF0 : F ≠ 0) (hl : l + 5 ≤ 2 * N + (D1 + D2)) {f0 f1 f2 f3 ε : ℤ}
    {m n : ℕ} {c a h b : ℤ} (hc0 : 0 < c) (hh : 0 < h) (hb : 0 < b)
    (h1 : checkDiv c (add (allow l D1 D2 N F ε) (diff l p q j D1 D2 N F f0 f1 f2 f3)) m n a h b = true)
    (h2 : checkDiv c (add (allow l D1 D2 N F ε) (scale (-1) (diff l p q j D1 D2 N F f0 f1 f2 f3))) m n a h b = true) {β : ℝ} (hβ0 : (a : ℝ) / b ≤ β) (hβ1 : β ≤ (a + h) / b) :
    |first l p q j D1 D2 N β - (f0 / 10 ^ 5 + f1 / 10 ^ 5 * (2 * β / (1 + β ^ 2)) + f2 / 10 ^ 5 * (2 * β / (1 + β ^ 2)) ^ 2 +
        f3 / 10 ^ 5 * (2 * β / (1 + β ^ 2)) ^ 3)| ≤ (ε : ℝ) / 10 ^ 5 := by
  have c1 := checkDiv_sound _ m n hc0 hh hb h1 hβ0 hβ1
  have c2 := checkDiv_sound _ m n hc0 hh hb h2 hβ0 hβ1
  rw [val_add] at c1 c2
  rw [val_scale] at c2
  rw [val_diff hF hl] at c1 c2
  have hmv : val [1, 0, 1] β = 1 + β ^ 2 := by simp [val]; ring
  rw [allow, val_scale, val_pow, hmv] at c1 c2
  push_cast at c1 c2
  have hw : (0 : ℝ) < F ^ 2 * (1 + β ^ 2) ^ (2 * N + (D1 + D2) - l - 2) := by
    have : (F : ℝ) ≠ 0 := by exact_mod_cast hF0
    positivity
  generalize first l p q j D1 D2 N β - _ = d at *
  rw [abs_le]
  constructor
  · by_contra hneg
    push Not at hneg
    have := mul_lt_mul_of_pos_left hneg hw
    nlinarith
  · by_contra hneg
    push Not at hneg
    have := mul_lt_mul_of_pos_left hneg hw
    nlinarith

theorem exists_beta {lo hi e : ℝ} (h : lo ≤ hi) (h1 : 2 * lo / (1 + lo ^ 2) ≤ e) (h2 : e ≤ 2 * hi / (1 + hi ^ 2)) : ∃ β, lo ≤ β ∧ β ≤ hi ∧ 2 * β / (1 + β ^ 2) = e := by
  have hc : ContinuousOn (fun β : ℝ => 2 * β / (1 + β ^ 2)) (Set.Icc lo hi) := by
    refine ContinuousOn.div (by fun_prop) (by fun_prop) fun x _ => by positivity
  obtain ⟨β, hβ, e'⟩ := intermediate_value_Icc h hc ⟨h1, h2⟩
  exact ⟨β, hβ.1, hβ.2, e'⟩

/-- What is checked by computation: the first terms differ from the cubic polynomial by less than `ε` (in units of 10⁻⁵) for `β` between `a/b` and `(a + h)/b`. -/
def fits (l p q j D1 D2 N F : ℕ) (f0 f1 f2 f3 ε c : ℤ) (m n : ℕ) (a h b : ℤ) : Bool :=
  frcL (diff l p q j D1 D2 N F f0 f1 f2 f3) fun d => frcL (allow l D1 D2 N F ε) fun E =>
    checkDiv c (add E d) m n a h b && checkDiv c (add E (scale (-1) d)) m n a h b

/-- Hansen's coefficient near a cubic polynomial. -/
theorem hansen_near {l p q j : ℕ} {k : ℤ} {D1 D2 N : ℕ} (F : ℕ) {f0 f1 f2 f3 ε δ : ℤ} (c : ℤ) (m n : ℕ) {a h b : ℤ} {ρ e : ℝ} {t1 t2 : ℕ}
    (hc : fits l p q j D1 D2 N F f0 f1 f2 f3 ε c m n a h b = true) (hc0 : 0 < c) (hF : F = (N + (D1 + D2)).factorial) (ht1 : t1 = top p (N + D1)) (ht2 : t2 = top q (N + D2))
    (hp : (p : ℤ) = l + k) (hq : (q : ℤ) = l - k) (hd : k - j = D2 - D1) (hD : D1 = 0 ∨ D2 = 0) (hl : l + 5 ≤ 2 * N + (D1 + D2))
    (ha : 0 ≤ a) (hh : 0 < h) (hb : 0 < b) (hah : a + h < b) (hρ0 : 0 ≤ ρ) (hρ1 : ρ < 1)
    (hρ : ((a + h) / b : ℝ) ^ 2 * ((N + D1 + 1 + (p - 1 : ℕ)) * (N + D2 + 1 + (q - 1 : ℕ))) ≤ ρ * ((N + D1 + 1) * (N + D2 + 1)))
    (hδ : (1 + ((a + h) / b : ℝ) ^ 2) ^ l * (((a + h) / b : ℝ) ^ (D1 + D2) * ((((a + h) / b : ℝ) ^ 2) ^ N * (t1 * t2)) * 9 ^ j / (1 - ρ))
      ≤ δ / 10 ^ 5)
    (he1 : 2 * (a / b : ℝ) / (1 + (a / b : ℝ) ^ 2) ≤ e) (he2 : e ≤ 2 * ((a + h) / b : ℝ) / (1 + ((a + h) / b : ℝ) ^ 2)) :
    |hansen l k j e - (f0 / 10 ^ 5 + f1 / 10 ^ 5 * e + f2 / 10 ^ 5 * e ^ 2 + f3 / 10 ^ 5 * e ^ 3)| ≤ ((ε + δ : ℤ) : ℝ) / 10 ^ 5 := by
  subst ht1 ht2
  have ha' : (0 : ℝ) ≤ a := by exact_mod_cast ha
  have hh' : (0 : ℝ) < h := by exact_mod_cast hh
  have hah' : (a : ℝ) + h < b := by exact_mod_cast hah
  have hb' : (0 : ℝ) < b := by exact_mod_cast hb
  obtain ⟨β, b1, b2, rfl⟩ := exists_beta (div_le_div_of_nonneg_right (by linarith) hb'.le) he1 he2
  simp only [fits, frcL_eq, Bool.and_eq_true] at hc
  have h0 : 0 ≤ β := le_trans (by positivity) b1
  have hA := hansen_first h0 b2 (by rw [div_lt_one hb']; exact hah') hp hq hd hD hρ0 hρ1 hρ hδ
  have hB := near_cubic (fun m hm => hF ▸ Nat.factorial_dvd_factorial hm) (hF ▸ Nat.factorial_ne_zero _) hl hc0 hh hb hc.1 hc.2 (β := β)
    b1 b2
  push_cast
  rw [add_div]
  have := abs_sub_le (hansen l k j (2 * β / (1 + β ^ 2))) (first l p q j D1 D2 N β) (f0 / 10 ^ 5 + f1 / 10 ^ 5 * (2 * β / (1 + β ^ 2)) +
    f2 / 10 ^ 5 * (2 * β / (1 + β ^ 2)) ^ 2 + f3 / 10 ^ 5 * (2 * β / (1 + β ^ 2)) ^ 3)
  linarith

end SatSky.Hansen
