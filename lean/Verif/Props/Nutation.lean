import Verif.Model.Nutation
import Verif.Spec.Nutation
import Mathlib.Analysis.SpecialFunctions.Trigonometric.Basic
import Mathlib.Algebra.BigOperators.Group.List.Basic
import Mathlib.Data.List.Perm.Basic
import Mathlib.Tactic.Ring
import Mathlib.Tactic.FieldSimp
import Mathlib.Tactic.NormNum
import Mathlib.Tactic.Linarith

/-! C55: the nutation program evaluates the series of the IAU of 1980. -/

namespace SatSky.Props

open Real SatSky.Spec SatSky.Nut

/-- An integer combination of the five arguments. -/
structure K5 where
  l : ℤ
  l' : ℤ
  f : ℤ
  d : ℤ
  o : ℤ
deriving DecidableEq

/-- The loops run on combinations in the place of cosines and sines. -/
def shadow : Ops K5 where
  base i m := match i with
    | 0 => some ⟨m, 0, 0, 0, 0⟩
    | 1 => some ⟨0, m, 0, 0, 0⟩
    | 2 => some ⟨0, 0, m, 0, 0⟩
    | 3 => some ⟨0, 0, 0, m, 0⟩
    | 4 => some ⟨0, 0, 0, 0, m⟩
    | _ => none
  plus x y := ⟨x.l + y.l, x.l' + y.l', x.f + y.f, x.d + y.d, x.o + y.o⟩
  minus x y := ⟨x.l - y.l, x.l' - y.l', x.f - y.f, x.d - y.d, x.o - y.o⟩

/-- The 106 combinations that the entries of the program stand for. -/
def keys : List K5 := [
  ⟨1, 0, 0, 0, 0⟩, ⟨0, 1, 0, 0, 0⟩, ⟨0, 0, 2, 0, 0⟩, ⟨0, 0, 0, 1, 0⟩, ⟨0, 0, 0, 0, 1⟩, ⟨2, 0, 0, 0, 0⟩,
  ⟨3, 0, 0, 0, 0⟩, ⟨0, 2, 0, 0, 0⟩, ⟨0, 0, 0, 2, 0⟩, ⟨0, 0, 0, 0, 2⟩, ⟨1, 1, 0, 0, 0⟩, ⟨1, -1, 0, 0, 0⟩,
  ⟨2, 0, -2, 0, 0⟩, ⟨1, 0, 2, 0, 0⟩, ⟨1, 0, -2, 0, 0⟩, ⟨1, 0, 0, -1, 0⟩, ⟨2, 0, 0, 2, 0⟩, ⟨2, 0, 0, -2, 0⟩,
  ⟨2, 0, 0, -4, 0⟩, ⟨1, 0, 0, -4, 0⟩, ⟨1, 0, 0, 2, 0⟩, ⟨1, 0, 0, -2, 0⟩, ⟨0, 1, 0, 1, 0⟩, ⟨0, 1, 0, 2, 0⟩,
  ⟨0, 1, 0, -2, 0⟩, ⟨2, 1, 0, -2, 0⟩, ⟨1, -1, 0, -1, 0⟩, ⟨1, 1, 0, -2, 0⟩, ⟨1, -1, 0, -2, 0⟩, ⟨0, 0, 2, -2, 0⟩,
  ⟨1, 0, 2, -2, 0⟩, ⟨1, 0, -2, 2, 0⟩, ⟨1, 0, -2, -2, 0⟩, ⟨0, 1, 2, -2, 0⟩, ⟨0, 1, -2, 2, 0⟩, ⟨1, 0, 0, 0, 2⟩,
  ⟨1, 0, 0, 0, -2⟩, ⟨2, 0, 0, 0, 1⟩, ⟨2, 0, 0, 0, -1⟩, ⟨1, 0, 0, 0, 1⟩, ⟨1, 0, 0, 0, -1⟩, ⟨0, 1, 0, 0, 2⟩,
  ⟨0, 1, 0, 0, 1⟩, ⟨0, 1, 0, 0, -1⟩, ⟨0, 0, 2, 0, 2⟩, ⟨0, 0, 2, 0, 1⟩, ⟨0, 0, 2, 0, -1⟩, ⟨1, 0, -4, 0, -2⟩,
  ⟨1, 0, 2, 0, 1⟩, ⟨1, 0, -2, 0, -1⟩, ⟨2, 0, 2, 0, 2⟩, ⟨2, 0, -2, 0, -2⟩, ⟨3, 0, 2, 0, 2⟩, ⟨1, 0, 2, 0, 2⟩,
  ⟨1, 0, -2, 0, -2⟩, ⟨2, 0, 2, 0, 1⟩, ⟨2, 0, -2, 0, -1⟩, ⟨2, 0, -2, 0, 1⟩, ⟨0, 1, 2, 0, 1⟩, ⟨0, 1, -2, 0, -1⟩,
  ⟨0, 1, 2, 0, 2⟩, ⟨0, 1, -2, 0, -2⟩, ⟨1, 1, 2, 0, 2⟩, ⟨1, -1, 2, 0, 2⟩, ⟨0, 0, 0, 2, 1⟩, ⟨0, 0, 0, 2, -1⟩,
  ⟨1, 0, 0, -1, -1⟩, ⟨2, 0, 0, -2, 1⟩, ⟨2, 0, 0, -2, -1⟩, ⟨1, 0, 0, 2, 1⟩, ⟨1, 0, 0, -2, -1⟩, ⟨1, 0, 0, -2, 1⟩,
  ⟨1, 1, 0, -2, 1⟩, ⟨1, 1, 0, -2, -1⟩, ⟨0, 0, 2, 4, 2⟩, ⟨0, 0, 4, -2, 2⟩, ⟨0, 0, 2, 1, 2⟩, ⟨0, 0, 2, -1, 2⟩,
  ⟨0, 0, 2, 2, 2⟩, ⟨0, 0, 2, -2, 2⟩, ⟨0, 0, 2, 2, 1⟩, ⟨0, 0, 2, -2, 1⟩, ⟨0, 0, 2, -2, -1⟩, ⟨2, 0, 2, -2, 1⟩,
  ⟨2, 0, -2, -4, -2⟩, ⟨1, 0, -2, -4, -2⟩, ⟨2, 0, 2, 2, 2⟩, ⟨2, 0, 2, -2, 2⟩, ⟨2, 0, -2, -2, -2⟩, ⟨3, 0, 2, -2, 2⟩,
  ⟨1, 0, -2, -2, -2⟩, ⟨1, 0, 2, 2, 2⟩, ⟨1, 0, 2, -2, 2⟩, ⟨1, 0, 2, 2, 1⟩, ⟨1, 0, -2, -2, -1⟩, ⟨1, 0, 2, -2, 1⟩,
  ⟨1, 0, -2, 2, -1⟩, ⟨0, 2, 2, -2, 2⟩, ⟨0, 2, -2, 2, -1⟩, ⟨0, 1, 2, -2, 1⟩, ⟨0, 1, -2, 2, -1⟩, ⟨0, 1, 2, -2, 2⟩,
  ⟨0, 1, -2, -2, -2⟩, ⟨0, 1, -2, 2, -2⟩, ⟨1, 1, 2, -2, 2⟩, ⟨1, 1, -2, -2, -2⟩]

theorem shadow_keys : entries shadow = some keys := by decide +kernel

/-- The angle of a combination. -/
noncomputable def K5.angle (k : K5) (a : Fin 5 → ℝ) : ℝ := k.l * a 0 + k.l' * a 1 + k.f * a 2 + k.d * a 3 + k.o * a 4

/-- The entry of the program for a combination. -/
noncomputable def pairOf (a : Fin 5 → ℝ) (k : K5) : Pair := ⟨cos (k.angle a), sin (k.angle a)⟩

/-- A function between kinds of entries that agrees with the operations. -/
structure Hom {α β : Type} (o : Ops α) (o' : Ops β) (f : α → β) : Prop where
  base : ∀ i m, o'.base i m = (o.base i m).map f
  plus : ∀ x y, o'.plus (f x) (f y) = f (o.plus x y)
  minus : ∀ x y, o'.minus (f x) (f y) = f (o.minus x y)

section
variable {α β : Type} {o : Ops α} {o' : Ops β} {f : α → β}

theorem store_map (acc : List α) (x : α) : store (acc.map f) (f x) = (store acc x).map (List.map f) := by
  unfold store
  rw [List.length_map]
  split_ifs <;> simp

theorem loop1_map (h : Hom o o' f) : ∀ (n : ℕ) (l : List ℕ) (acc : List α), l.length ≤ n → loop1 o' l (acc.map f) = (loop1 o l acc).map (List.map f)
  | n, [], acc, _ => by simp [loop1]
  | n, [x], acc, _ => by simp [loop1]
  | 0, i :: j :: rest, acc, hn => by simp at hn
  | n + 1, i :: j :: rest, acc, hn => by
    simp only [loop1, h.base]
    rcases o.base i (j + 1) with _ | x
    · rfl
    · simp only [Option.map_some, Option.bind_eq_bind, Option.bind_some, store_map]
      rcases store acc x with _ | acc'
      · rfl
      · simp only [Option.map_some, Option.bind_some]
        exact loop1_map h n rest acc' (by simp at hn; omega)

theorem loop2_map (h : Hom o o' f) : ∀ (n : ℕ) (l : List ℕ) (acc : List α), l.length ≤ n → loop2 o' l (acc.map f) = (loop2 o l acc).map (List.map f)
  | n, [], acc, _ => by simp [loop2]
  | n, [x], acc, _ => by simp [loop2]
  | 0, i :: j :: rest, acc, hn => by simp at hn
  | n + 1, i :: j :: rest, acc, hn => by
    simp only [loop2, List.getElem?_map]
    rcases acc[i]? with _ | p
    · rfl
    rcases acc[j]? with _ | q
    · rfl
    · simp only [Option.map_some, Option.bind_eq_bind, Option.bind_some, h.plus, store_map]
      rcases store acc (o.plus p q) with _ | acc'
      · rfl
      · simp only [Option.map_some, Option.bind_some]
        exact loop2_map h n rest acc' (by simp at hn; omega)

theorem loop3_map (h : Hom o o' f) : ∀ (n : ℕ) (l : List ℕ) (acc : List α), l.length ≤ n → loop3 o' l (acc.map f) = (loop3 o l acc).map (List.map f)
  | n, [], acc, _ => by simp [loop3]
  | n, [x], acc, _ => by simp [loop3]
  | n, [x, y], acc, _ => by simp [loop3]
  | 0, iop :: i :: j :: rest, acc, hn => by simp at hn
  | n + 1, iop :: i :: j :: rest, acc, hn => by
    have hr : rest.length ≤ n := by simp at hn; omega
    simp only [loop3, List.getElem?_map]
    by_cases h3 : iop = 3
    · rw [if_pos h3, if_pos h3]; rfl
    rw [if_neg h3, if_neg h3]
    by_cases h0 : iop = 0
    · rw [if_pos h0, if_pos h0]
      rcases acc[i]? with _ | p
      · rfl
      rcases acc[j]? with _ | q
      · rfl
      simp only [Option.map_some, Option.bind_eq_bind, Option.bind_some, h.plus, store_map]
      rcases store acc (o.plus p q) with _ | acc'
      · rfl
      simp only [Option.map_some, Option.bind_some]
      exact loop3_map h n rest acc' hr
    rw [if_neg h0, if_neg h0]
    by_cases h1 : iop = 1
    · rw [if_pos h1, if_pos h1]
      rcases acc[i]? with _ | p
      · rfl
      rcases acc[j]? with _ | q
      · rfl
      simp only [Option.map_some, Option.bind_eq_bind, Option.bind_some, h.minus, store_map]
      rcases store acc (o.minus p q) with _ | acc'
      · rfl
      simp only [Option.map_some, Option.bind_some]
      exact loop3_map h n rest acc' hr
    rw [if_neg h1, if_neg h1]
    by_cases h2 : iop = 2
    · rw [if_pos h2, if_pos h2]
      rcases acc[i]? with _ | p
      · rfl
      rcases acc[j]? with _ | q
      · rfl
      simp only [Option.map_some, Option.bind_eq_bind, Option.bind_some, h.minus, h.plus, store_map]
      rcases store acc (o.plus p q) with _ | acc'
      · rfl
      simp only [Option.map_some, Option.bind_some, store_map]
      rcases store acc' (o.minus p q) with _ | acc''
      · rfl
      simp only [Option.map_some, Option.bind_some]
      exact loop3_map h n rest acc'' hr
    rw [if_neg h2, if_neg h2]
    exact loop3_map h n rest acc hr

theorem entries_map (h : Hom o o' f) : entries o' = (entries o).map (List.map f) := by
  unfold entries
  have h1 := loop1_map h _ nav1 [] le_rfl
  rw [List.map_nil] at h1
  rw [h1]
  rcases loop1 o nav1 [] with _ | acc
  · rfl
  simp only [Option.map_some, Option.bind_eq_bind, Option.bind_some]
  rw [loop2_map h _ nav2 acc le_rfl]
  rcases loop2 o nav2 acc with _ | acc
  · rfl
  simp only [Option.map_some, Option.bind_some]
  exact loop3_map h _ nav acc le_rfl
end

theorem shadow_hom (a : Fin 5 → ℝ) : Hom shadow (trig [a 0, a 1, a 2, a 3, a 4]) (pairOf a) where
  base i m := by
    rcases i with _ | _ | _ | _ | _ | i <;> simp [shadow, trig, pairOf, K5.angle, mul_comm]
  plus x y := by
    simp only [shadow, trig, pairOf, K5.angle, Pair.mk.injEq]
    push_cast
    rw [← cos_add, ← sin_add]
    constructor <;> congr 1 <;> ring
  minus x y := by
    simp only [shadow, trig, pairOf, K5.angle, Pair.mk.injEq]
    push_cast
    rw [← cos_sub, ← sin_sub]
    constructor <;> congr 1 <;> ring

/-- C55: for any five arguments the recursion never leaves its arrays, and every entry is the cosine and the sine of a fixed integer combination. -/
theorem C55_entries (a : Fin 5 → ℝ) : entries (trig [a 0, a 1, a 2, a 3, a 4]) = some (keys.map (pairOf a)) := by
  rw [entries_map (shadow_hom a), shadow_keys]; rfl

/-- The terms a sum of the program takes. -/
def picked (tab : List K5) : List ℚ → List ℕ → Option (List (ℚ × K5))
  | k :: ks, i :: is => (tab[i]?).bind fun p => (picked tab ks is).map fun L => (k, p) :: L
  | _, _ => some []

theorem tableSum_eq (f : Pair → ℝ) (a : Fin 5 → ℝ) (tab : List K5) : ∀ (ks : List ℚ) (is : List ℕ) (acc : ℝ),
    tableSum f (tab.map (pairOf a)) ks is acc = (picked tab ks is).map fun L => acc + (L.map fun x => (x.1 : ℝ) * f (pairOf a x.2)).sum
  | [], is, acc => by cases is <;> simp [tableSum, picked]
  | k :: ks, [], acc => by simp [tableSum, picked]
  | k :: ks, i :: is, acc => by
    simp only [tableSum, picked, List.getElem?_map]
    rcases tab[i]? with _ | p
    · rfl
    simp only [Option.map_some, Option.bind_eq_bind, Option.bind_some]
    rw [tableSum_eq f a tab ks is]
    rcases picked tab ks is with _ | L
    · rfl
    simp only [Option.map_some, List.map_cons, List.sum_cons]
    congr 1
    ring

def K5.neg (k : K5) : K5 := ⟨-k.l, -k.l', -k.f, -k.d, -k.o⟩

/-- The first multiple that is not zero is negative. -/
def K5.back (k : K5) : Bool :=
  if k.l ≠ 0 then k.l < 0 else if k.l' ≠ 0 then k.l' < 0 else if k.f ≠ 0 then k.f < 0 else if k.d ≠ 0 then k.d < 0 else k.o < 0

def canonS (x : ℚ × K5) : ℚ × K5 := if x.2.back then (-x.1, x.2.neg) else x
def canonC (x : ℚ × K5) : ℚ × K5 := if x.2.back then (x.1, x.2.neg) else x

theorem neg_angle (k : K5) (a : Fin 5 → ℝ) : k.neg.angle a = -k.angle a := by
  unfold K5.neg K5.angle; push_cast; ring

theorem canonS_eq (x : ℚ × K5) (a : Fin 5 → ℝ) : ((canonS x).1 : ℝ) * sin ((canonS x).2.angle a) = x.1 * sin (x.2.angle a) := by
  unfold canonS
  split_ifs
  · simp only [neg_angle, sin_neg]; push_cast; ring
  · rfl

theorem canonC_eq (x : ℚ × K5) (a : Fin 5 → ℝ) : ((canonC x).1 : ℝ) * cos ((canonC x).2.angle a) = x.1 * cos (x.2.angle a) := by
  unfold canonC
  split_ifs
  · simp only [neg_angle, cos_neg]
  · rfl

def ofTerm (k : Fin 5 → ℤ) : K5 := ⟨k 0, k 1, k 2, k 3, k 4⟩

theorem ofTerm_angle (k : Fin 5 → ℤ) (a : Fin 5 → ℝ) : (ofTerm k).angle a = combo k a := rfl

/-- The terms of the theory in one of its four columns. -/
def column (f : NutTerm → ℚ) : List (ℚ × K5) := (iau1980.map fun x => (f x, ofTerm x.k)).filter fun x => x.1 ≠ 0

def sameTerms (c : ℚ × K5 → ℚ × K5) (p : Option (List (ℚ × K5))) (q : List (ℚ × K5)) : Bool :=
  match p with
  | some L => (L.map c).isPerm (q.map c)
  | none => false

theorem same_lng : sameTerms canonS (picked keys clng llng) (column fun x => x.lon) = true := by decide +kernel
theorem same_lngx : sameTerms canonS (picked keys clngx llngx) (column fun x => x.lonT / 10) = true := by decide +kernel
theorem same_obl : sameTerms canonC (picked keys cobl lobl) (column fun x => x.obl) = true := by decide +kernel
theorem same_oblx : sameTerms canonC (picked keys coblx loblx) (column fun x => x.oblT / 10) = true := by decide +kernel

theorem sum_nonzero {ι : Type} (l : List (ℚ × ι)) (g : ι → ℝ) :
    ((l.filter fun x => x.1 ≠ 0).map fun x => (x.1 : ℝ) * g x.2).sum = (l.map fun x => (x.1 : ℝ) * g x.2).sum := by
  induction l with
  | nil => rfl
  | cons x l ih =>
    by_cases h : x.1 = 0
    · rw [List.filter_cons_of_neg (by simpa using h), List.map_cons, List.sum_cons, ih, h]; simp
    · rw [List.filter_cons_of_pos (by simpa using h), List.map_cons, List.map_cons, List.sum_cons, List.sum_cons, ih]

theorem same_sum {c : ℚ × K5 → ℚ × K5} {F : K5 → ℝ} (hc : ∀ x, ((c x).1 : ℝ) * F (c x).2 = x.1 * F x.2) {p : Option (List (ℚ × K5))} {f : NutTerm → ℚ}
    (h : sameTerms c p (column f) = true) :
    ∃ L, p = some L ∧ (L.map fun x => (x.1 : ℝ) * F x.2).sum = (iau1980.map fun x => (f x : ℝ) * F (ofTerm x.k)).sum := by
  rcases p with _ | L
  · simp [sameTerms] at h
  refine ⟨L, rfl, ?_⟩
  have hp : (L.map c).Perm ((column f).map c) := List.isPerm_iff.mp h
  have h1 := (hp.map fun x => (x.1 : ℝ) * F x.2).sum_eq
  rw [List.map_map, List.map_map] at h1
  simp only [Function.comp_def, hc] at h1
  rw [h1]
  unfold column
  rw [sum_nonzero, List.map_map]
  rfl

theorem sum_split {g : NutTerm → ℝ} (u v : NutTerm → ℝ) (t : ℝ) (l : List NutTerm) :
    (l.map fun x => (u x + v x * t) * g x).sum = (l.map fun x => u x * g x).sum + t * (l.map fun x => v x * g x).sum := by
  induction l with
  | nil => simp
  | cons x l ih => simp only [List.map_cons, List.sum_cons, ih]; ring

/-- C55: for any five arguments and any time the program gives the series of the theory of 1980, with all of its 106 terms. -/
theorem C55_series (a : Fin 5 → ℝ) (t : ℝ) : nutationOf [a 0, a 1, a 2, a 3, a 4] t = some (nutLon a t, nutObl a t) := by
  unfold nutationOf
  rw [C55_entries]
  obtain ⟨L1, h1, e1⟩ := same_sum (F := fun k => sin (k.angle a)) (fun x => canonS_eq x a) same_lng
  obtain ⟨L2, h2, e2⟩ := same_sum (F := fun k => sin (k.angle a)) (fun x => canonS_eq x a) same_lngx
  obtain ⟨L3, h3, e3⟩ := same_sum (F := fun k => cos (k.angle a)) (fun x => canonC_eq x a) same_obl
  obtain ⟨L4, h4, e4⟩ := same_sum (F := fun k => cos (k.angle a)) (fun x => canonC_eq x a) same_oblx
  simp only [Option.bind_eq_bind, Option.bind_some, tableSum_eq, h1, h2, h3, h4, Option.map_some, Option.pure_def, zero_add, pairOf]
  rw [e1, e2, e3, e4]
  unfold nutLon nutObl
  rw [sum_split, sum_split]
  simp only [ofTerm_angle]
  norm_num

/-- The largest term of the half year: the entry with number 79 is twice the Moon's distance from its node less twice its distance from the Sun plus
twice the node, and has the coefficient -1.3187 arcseconds. -/
example : keys[79]? = some ⟨0, 0, 2, -2, 2⟩ ∧ clng[(104 : ℕ)]? = some (-13187) ∧ llng[(104 : ℕ)]? = some 79 := by decide +kernel

end SatSky.Props
