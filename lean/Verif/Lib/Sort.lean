import Mathlib.Data.List.Basic
import Mathlib.Data.List.Perm.Basic
import Mathlib.Data.List.Range
import Mathlib.Order.Lattice
import Mathlib.Algebra.Order.Group.Int
import Mathlib.Data.List.Pairwise

/-!
Sorting vocabulary: `dolfinx::radix_sort` (library, stable sort by an integer key) and
`std::unique`.  Models no file of `/repo`.
-/

namespace Verif

variable {α : Type}

/-- Insert before the first element whose key is not smaller. -/
def insertBy (key : α → ℤ) (a : α) : List α → List α
  | [] => [a]
  | b :: l => if key a ≤ key b then a :: b :: l else b :: insertBy key a l

/-- `dolfinx::radix_sort(l, key)`: stable sort by key.  The algorithm (insertion instead of radix
sort) is not that of the library; the result of a stable sort is unique. -/
def stableSort (key : α → ℤ) : List α → List α
  | [] => []
  | a :: l => insertBy key a (stableSort key l)

/-- `std::unique` + `erase`: removes adjacent duplicates. -/
def uniqueAdj [DecidableEq α] : List α → List α
  | [] => []
  | [x] => [x]
  | x :: y :: l => if x = y then uniqueAdj (y :: l) else x :: uniqueAdj (y :: l)

theorem insertBy_perm (key : α → ℤ) (a : α) (l : List α) : (insertBy key a l).Perm (a :: l) := by
  induction l with
  | nil => exact List.Perm.refl _
  | cons b l ih =>
    unfold insertBy
    split
    · exact List.Perm.refl _
    · exact ((List.Perm.cons b ih).trans (List.Perm.swap a b l))

theorem stableSort_perm (key : α → ℤ) (l : List α) : (stableSort key l).Perm l := by
  induction l with
  | nil => exact List.Perm.refl _
  | cons a l ih => exact (insertBy_perm key a _).trans (ih.cons a)

theorem insertBy_sorted (key : α → ℤ) (a : α) (l : List α)
    (h : l.Pairwise (fun a b => key a ≤ key b)) :
    (insertBy key a l).Pairwise (fun a b => key a ≤ key b) := by
  induction l with
  | nil => simp [insertBy]
  | cons b l ih =>
    have h' := List.pairwise_cons.mp h
    unfold insertBy
    split
    · rename_i hab
      refine List.pairwise_cons.mpr ⟨?_, h⟩
      intro c hc
      rcases List.mem_cons.mp hc with rfl | hc
      · exact hab
      · exact le_trans hab (h'.1 c hc)
    · rename_i hab
      refine List.pairwise_cons.mpr ⟨?_, ih h'.2⟩
      intro c hc
      rcases List.mem_cons.mp ((insertBy_perm key a l).mem_iff.mp hc) with rfl | hc
      · exact (not_le.mp hab).le
      · exact h'.1 c hc

theorem stableSort_sorted (key : α → ℤ) (l : List α) :
    (stableSort key l).Pairwise (fun a b => key a ≤ key b) := by
  induction l with
  | nil => exact List.Pairwise.nil
  | cons a l ih => exact insertBy_sorted key a _ ih

theorem stableSort_nat_sorted (l : List ℕ) :
    (stableSort (fun c : ℕ => (c : ℤ)) l).Pairwise (· ≤ ·) :=
  (stableSort_sorted _ l).imp (S := fun a b : ℕ => a ≤ b) (fun h => Int.ofNat_le.mp h)

theorem map_insertBy {β : Type} (key : β → ℤ) (f : α → β) (a : α) (l : List α) :
    (insertBy (fun x => key (f x)) a l).map f = insertBy key (f a) (l.map f) := by
  induction l with
  | nil => rfl
  | cons b l ih =>
    simp only [insertBy, List.map_cons]
    split
    · rfl
    · simp [ih]

theorem map_stableSort {β : Type} (key : β → ℤ) (f : α → β) (l : List α) :
    (stableSort (fun x => key (f x)) l).map f = stableSort key (l.map f) := by
  induction l with
  | nil => rfl
  | cons a l ih => simp only [stableSort, List.map_cons, map_insertBy, ih]

theorem stableSort_length (key : α → ℤ) (l : List α) : (stableSort key l).length = l.length :=
  (stableSort_perm key l).length_eq

@[simp] theorem mem_stableSort {key : α → ℤ} {l : List α} {x : α} : x ∈ stableSort key l ↔ x ∈ l :=
  (stableSort_perm key l).mem_iff

theorem insertBy_filter_pos (key : α → ℤ) (a : α) (l : List α)
    (h : l.Pairwise (fun a b => key a ≤ key b)) :
    (insertBy key a l).filter (fun b => decide (key b = key a))
      = a :: l.filter (fun b => decide (key b = key a)) := by
  induction l with
  | nil => simp [insertBy]
  | cons b l ih =>
    unfold insertBy
    split
    · simp
    · rename_i hab
      have hne : ¬ key b = key a := fun hc => hab hc.ge
      simp [hne, ih (List.pairwise_cons.mp h).2]

theorem insertBy_filter_neg (key : α → ℤ) (a : α) (c : ℤ) (hc : key a ≠ c) (l : List α) :
    (insertBy key a l).filter (fun b => decide (key b = c))
      = l.filter (fun b => decide (key b = c)) := by
  induction l with
  | nil => simp [insertBy, hc]
  | cons b l ih =>
    unfold insertBy
    split
    · simp [hc]
    · by_cases hb : key b = c
      · simp [hb, ih]
      · simp [hb, ih]

/-- Stability: elements with equal keys keep their order. -/
theorem stableSort_filter (key : α → ℤ) (l : List α) (c : ℤ) :
    (stableSort key l).filter (fun a => decide (key a = c)) = l.filter (fun a => decide (key a = c)) := by
  induction l with
  | nil => rfl
  | cons a l ih =>
    by_cases h : key a = c
    · subst h
      simp only [stableSort]
      rw [insertBy_filter_pos key a _ (stableSort_sorted key l), ih]
      simp
    · simp only [stableSort]
      rw [insertBy_filter_neg key a c h, ih]
      simp [h]

variable [DecidableEq α]

@[simp] theorem uniqueAdj_nil : uniqueAdj ([] : List α) = [] := rfl
@[simp] theorem uniqueAdj_single (x : α) : uniqueAdj [x] = [x] := rfl
theorem uniqueAdj_cons_cons (x y : α) (l : List α) :
    uniqueAdj (x :: y :: l) = if x = y then uniqueAdj (y :: l) else x :: uniqueAdj (y :: l) := rfl

@[simp] theorem mem_uniqueAdj {l : List α} {a : α} : a ∈ uniqueAdj l ↔ a ∈ l := by
  fun_induction uniqueAdj l with
  | case1 => simp
  | case2 => simp
  | case3 x l ih => simp [ih]
  | case4 x y l h ih => simp [ih]

theorem uniqueAdj_sublist (l : List α) : (uniqueAdj l).Sublist l := by
  fun_induction uniqueAdj l with
  | case1 => simp
  | case2 => simp
  | case3 x l ih => exact ih.cons _
  | case4 x y l h ih => exact ih.cons_cons _

theorem uniqueAdj_strict {β : Type} [PartialOrder β] [DecidableEq β] {l : List β}
    (h : l.Pairwise (· ≤ ·)) : (uniqueAdj l).Pairwise (· < ·) := by
  fun_induction uniqueAdj l with
  | case1 => simp
  | case2 => simp
  | case3 x l ih => exact ih h.tail
  | case4 x y l hne ih =>
    rw [List.pairwise_cons]
    refine ⟨?_, ih h.tail⟩
    intro a ha
    rw [mem_uniqueAdj] at ha
    have h' := List.pairwise_cons.mp h
    have hxy : x < y := lt_of_le_of_ne (h'.1 y (by simp)) hne
    rcases List.mem_cons.mp ha with rfl | ha
    · exact hxy
    · exact lt_of_lt_of_le hxy ((List.pairwise_cons.mp h'.2).1 a ha)

/-- A strictly increasing list is determined by its elements. -/
theorem strict_ext {β : Type} [LinearOrder β] : ∀ {l m : List β}, l.Pairwise (· < ·) → m.Pairwise (· < ·) →
    (∀ a, a ∈ l ↔ a ∈ m) → l = m
  | [], m, _, _, h => by
    cases m with
    | nil => rfl
    | cons a m => exact absurd ((h a).mpr (by simp)) (by simp)
  | a :: l, [], _, _, h => absurd ((h a).mp (by simp)) (by simp)
  | a :: l, b :: m, hl, hm, h => by
    have hl' := List.pairwise_cons.mp hl
    have hm' := List.pairwise_cons.mp hm
    have hab : a = b := by
      rcases lt_trichotomy a b with hlt | heq | hgt
      · have := (h a).mp (by simp)
        rcases List.mem_cons.mp this with rfl | hm1
        · rfl
        · exact absurd (hm'.1 a hm1) (not_lt.mpr hlt.le)
      · exact heq
      · have := (h b).mpr (by simp)
        rcases List.mem_cons.mp this with rfl | hm1
        · rfl
        · exact absurd (hl'.1 b hm1) (not_lt.mpr hgt.le)
    subst hab
    congr 1
    refine strict_ext hl'.2 hm'.2 (fun c => ?_)
    constructor
    · intro hc
      rcases List.mem_cons.mp ((h c).mp (by simp [hc])) with rfl | h1
      · exact absurd (hl'.1 c hc) (lt_irrefl _)
      · exact h1
    · intro hc
      rcases List.mem_cons.mp ((h c).mpr (by simp [hc])) with rfl | h1
      · exact absurd (hm'.1 c hc) (lt_irrefl _)
      · exact h1

end Verif
