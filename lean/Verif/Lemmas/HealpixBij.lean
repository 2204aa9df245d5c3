import Verif.Lemmas.HealpixRing
import Verif.Props.HealpixNest
import Mathlib.Data.Fintype.Card
import Mathlib.Data.Fintype.Prod

/-! The RING numbering is a bijection; the power-of-two test. -/

namespace SatSky.Healpix

open SatSky

variable {c u isq : ℤ → Option ℤ} {n : ℤ}

/-- Every pixel number is that of a point of a face (by counting). -/
theorem ring_surj (E : Env c u isq n) {pix : ℤ} (h0 : 0 ≤ pix) (h1 : pix < 12 * n * n) :
    ∃ (x y : ℤ) (f : ℕ), f < 12 ∧ (0 ≤ x ∧ x < n) ∧ (0 ≤ y ∧ y < n) ∧ xyf2ringG c n x y f = some pix
      ∧ ring2xyfG c u isq n pix = some (x, y, f) := by
  have hn := E.pos
  obtain ⟨m, rfl⟩ : ∃ m : ℕ, n = m := ⟨n.toNat, by omega⟩
  have key : ∀ t : Fin m × Fin m × Fin 12, ∃ p : Fin (12 * m * m), xyf2ringG c m (t.1 : ℕ) (t.2.1 : ℕ) (t.2.2 : ℕ) = some (p : ℕ)
      ∧ ring2xyfG c u isq m (p : ℕ) = some (((t.1 : ℕ) : ℤ), ((t.2.1 : ℕ) : ℤ), (t.2.2 : ℕ)) := by
    rintro ⟨x, y, f⟩
    obtain ⟨part, i, j, p, A, hb⟩ := ring_of_xyf E (x := (x : ℕ)) (y := (y : ℕ)) f.2 ⟨by omega, by omega⟩ ⟨by omega, by omega⟩
    obtain ⟨r0, r1⟩ := A.range E
    obtain ⟨q, rfl⟩ : ∃ q : ℕ, p = q := ⟨p.toNat, by omega⟩
    exact ⟨⟨q, by exact_mod_cast r1⟩, A.num, hb⟩
  choose g hg1 hg2 using key
  have hinj : Function.Injective g := by
    rintro ⟨x, y, f⟩ ⟨x', y', f'⟩ h
    have h2 := hg2 (x, y, f)
    rw [h, hg2 (x', y', f')] at h2
    simp only [Option.some.injEq, Prod.mk.injEq] at h2
    obtain ⟨a, b, d⟩ := h2
    have a' : x' = x := Fin.ext (by exact_mod_cast a)
    have b' : y' = y := Fin.ext (by exact_mod_cast b)
    have d' : f' = f := Fin.ext d
    rw [a', b', d']
  have hcard : Fintype.card (Fin m × Fin m × Fin 12) = Fintype.card (Fin (12 * m * m)) := by
    simp only [Fintype.card_prod, Fintype.card_fin]; ring
  have hsurj : Function.Surjective g := ((Fintype.bijective_iff_injective_and_card g).mpr ⟨hinj, hcard⟩).2
  obtain ⟨q, rfl⟩ : ∃ q : ℕ, pix = q := ⟨pix.toNat, by omega⟩
  obtain ⟨⟨x, y, f⟩, ht⟩ := hsurj ⟨q, by exact_mod_cast h1⟩
  refine ⟨(x : ℕ), (y : ℕ), f, f.2, ⟨by omega, by omega⟩, ⟨by omega, by omega⟩, ?_, ?_⟩
  · have := hg1 (x, y, f); rw [ht] at this; exact this
  · have := hg2 (x, y, f); rw [ht] at this; exact this

/-! ### The types -/

theorem env32 (F : Fl64) (R : Root) (h1 : 1 ≤ n) (h2 : n ≤ 2 ^ 13) : Env (signed 31) unsigned32 (isqrt F R) n := by
  have hb : 12 * n * n + 12 * n ≤ 2 ^ 31 - 1 := by nlinarith
  refine ⟨h1, fun v a b => ?_, fun v a b => ?_, fun v a b => isqrt_eq F R a (by omega)⟩
  · unfold signed; rw [if_pos (by omega)]
  · unfold unsigned32; rw [Int.emod_eq_of_lt a (by omega)]

theorem env64 (F : Fl64) (R : Root) (h1 : 1 ≤ n) (h2 : n ≤ 2 ^ 29) : Env (signed 63) (signed 63) (isqrt64 F R) n := by
  have hb : 12 * n * n + 12 * n ≤ 2 ^ 62 - 1 := by nlinarith
  refine ⟨h1, fun v a b => ?_, fun v a b => ?_, fun v a b => isqrt64_eq F R a (by omega)⟩
  · unfold signed; rw [if_pos (by omega)]
  · unfold signed; rw [if_pos (by omega)]

/-! ### The test for a power of two -/

theorem and_pred_two_pow (k : ℕ) : 2 ^ k &&& (2 ^ k - 1) = 0 := by
  rw [Nat.and_two_pow_sub_one_eq_mod, Nat.mod_self]

theorem top_bit {x k : ℕ} (h1 : 2 ^ k ≤ x) (h2 : x < 2 ^ (k + 1)) : x.testBit k = true := by
  have : x / 2 ^ k = 1 := by
    rw [Nat.div_eq_iff (by positivity)]
    rw [pow_succ] at h2
    omega
  rw [Nat.testBit_eq_decide_div_mod_eq, this]
  rfl

theorem pow_of_and {x : ℕ} (h0 : 0 < x) (h : x &&& (x - 1) = 0) : ∃ k, x = 2 ^ k := by
  refine ⟨Nat.log2 x, ?_⟩
  by_contra hne
  have h1 : 2 ^ Nat.log2 x ≤ x := Nat.log2_self_le h0.ne'
  have h2 : x < 2 ^ (Nat.log2 x + 1) := Nat.lt_log2_self
  have b1 := top_bit h1 h2
  have b2 := top_bit (x := x - 1) (k := Nat.log2 x) (by omega) (by omega)
  have := congrArg (fun m => m.testBit (Nat.log2 x)) h
  simp only [Nat.testBit_and, b1, b2, Nat.zero_testBit] at this
  cases this

theorem bv_of_nat {x : ℕ} : BitVec.ofInt 64 (x : ℤ) = BitVec.ofNat 64 x := BitVec.ofInt_natCast ..

theorem notPow2_pos {x : ℕ} (h0 : 0 < x) (h : x < 2 ^ 63) : (notPow2 (x : ℤ) = false ↔ ∃ k, x = 2 ^ k) := by
  have e : ((x : ℤ) - 1) = ((x - 1 : ℕ) : ℤ) := by omega
  have key : (BitVec.ofNat 64 x &&& BitVec.ofNat 64 (x - 1)).toNat = x &&& (x - 1) := by
    rw [BitVec.toNat_and, BitVec.toNat_ofNat, BitVec.toNat_ofNat, Nat.mod_eq_of_lt (by omega), Nat.mod_eq_of_lt (by omega)]
  unfold notPow2
  rw [e, bv_of_nat, bv_of_nat]
  by_cases hk : ∃ k, x = 2 ^ k
  · have : BitVec.ofNat 64 x &&& BitVec.ofNat 64 (x - 1) = 0 := by
      apply BitVec.eq_of_toNat_eq
      obtain ⟨k, rfl⟩ := hk
      rw [key, and_pred_two_pow]
      rfl
    rw [this]
    simp [hk]
  · have : BitVec.ofNat 64 x &&& BitVec.ofNat 64 (x - 1) ≠ 0 := by
      intro h3
      rw [h3] at key
      exact hk (pow_of_and h0 key.symm)
    simp only [hk, iff_false, bne_eq_false_iff_eq]
    exact this

theorem notPow2_neg {v : ℤ} (h0 : v < 0) (h : -2 ^ 63 < v) : notPow2 v = true := by
  unfold notPow2
  have m1 : (BitVec.ofInt 64 v).msb = true := by
    rw [BitVec.msb_eq_toInt, BitVec.toInt_ofInt_eq_self (by decide) (by norm_num; omega) (by norm_num; omega)]
    simpa using h0
  have m2 : (BitVec.ofInt 64 (v - 1)).msb = true := by
    rw [BitVec.msb_eq_toInt, BitVec.toInt_ofInt_eq_self (by decide) (by norm_num; omega) (by norm_num; omega)]
    simp; omega
  have : BitVec.ofInt 64 v &&& BitVec.ofInt 64 (v - 1) ≠ 0 := by
    intro hz
    have := congrArg BitVec.msb hz
    rw [BitVec.msb_and, m1, m2] at this
    cases this
  simpa using this

end SatSky.Healpix
