import Verif.Model.Nullspace
import Verif.Spec.Nullspace
import Verif.Lib.Puts
import Mathlib.Tactic.IntervalCases
import Mathlib.Tactic.Linarith
import Mathlib.Tactic.FinCases

/-! Values of the null space vectors. -/

namespace Verif.Nullspace

open Verif.Spec Finset

noncomputable section

/-- The rigid motion behind vector `m` of a body: translations, then rotations. -/
def mode (d m : ℕ) : Motion where
  a i := if m < d ∧ i = m then 1 else 0
  W i j :=
    if d = 2 then
      if m = 2 ∧ i = 0 ∧ j = 1 then -1 else if m = 2 ∧ i = 1 ∧ j = 0 then 1 else 0
    else
      if m = 3 ∧ i = 0 ∧ j = 1 then -1 else if m = 3 ∧ i = 1 ∧ j = 0 then 1 else
      if m = 4 ∧ i = 0 ∧ j = 2 then 1 else if m = 4 ∧ i = 2 ∧ j = 0 then -1 else
      if m = 5 ∧ i = 2 ∧ j = 1 then 1 else if m = 5 ∧ i = 1 ∧ j = 2 then -1 else 0

theorem mem_bodyDofs (cellDofs : ℕ → List ℕ) (mt : List (ℕ × ℤ)) (t : ℤ) (n : ℕ) :
    n ∈ bodyDofs cellDofs mt t ↔ InBody cellDofs mt t n := by
  simp only [bodyDofs, mem_uniqueAdj, mem_stableSort, find, List.mem_flatMap, List.mem_map,
    List.mem_filter, InBody, decide_eq_true_eq, Prod.exists]
  constructor
  · rintro ⟨c, ⟨_, _, ⟨h, rfl⟩, rfl⟩, hn⟩; exact ⟨_, h, hn⟩
  · rintro ⟨c, h, hn⟩; exact ⟨c, ⟨c, t, ⟨h, rfl⟩, rfl⟩, hn⟩

/-- The writes of one body: vector `o + m`, entry `gdim * dof + i` gets the value of the mode. -/
def BodyW (d o : ℕ) (x : ℕ → ℕ → ℝ) (dofs : List ℕ) (p : ℕ × ℕ) (v : ℝ) : Prop :=
  (∃ k < d, ∃ dof ∈ dofs, p = (o + k, d * dof + k) ∧ v = 1) ∨
  (∃ dof ∈ dofs, if d = 2 then
      (p = (o + 2, d * dof) ∧ v = -x dof 1) ∨ (p = (o + 2, d * dof + 1) ∧ v = x dof 0)
    else
      (p = (o + 3, d * dof) ∧ v = -x dof 1) ∨ (p = (o + 3, d * dof + 1) ∧ v = x dof 0) ∨
      (p = (o + 4, d * dof) ∧ v = x dof 2) ∨ (p = (o + 4, d * dof + 2) ∧ v = -x dof 0) ∨
      (p = (o + 5, d * dof + 2) ∧ v = x dof 1) ∨ (p = (o + 5, d * dof + 1) ∧ v = -x dof 2))

theorem puts_translations (d j : ℕ) (dofs : List ℕ) :
    Puts (translations d j dofs)
      (fun p v => ∃ k < d, ∃ dof ∈ dofs, p = (j * dim d + k, d * dof + k) ∧ v = 1) := by
  unfold translations
  exact (Puts.loop d (W := fun k p v => ∃ dof ∈ dofs, p = (j * dim d + k, d * dof + k) ∧ v = 1)
    fun k _ => Puts.forEach dofs fun dof _ => Puts.put _ _)

theorem puts_body (d j : ℕ) (hd : d = 2 ∨ d = 3) (x : ℕ → ℕ → ℝ) (dofs : List ℕ) :
    Puts (fun b => rotations d j x dofs (translations d j dofs b)) (BodyW d (j * dim d) x dofs) := by
  rcases hd with rfl | rfl
  · have h : Puts (rotations 2 j x dofs) (fun p v => ∃ dof ∈ dofs,
        (p = (j * dim 2 + 2, 2 * dof) ∧ v = -x dof 1) ∨
        (p = (j * dim 2 + 2, 2 * dof + 1) ∧ v = x dof 0)) := by
      unfold rotations
      simp only [if_true]
      exact Puts.forEach dofs fun dof _ => (Puts.put _ _).comp (Puts.put _ _)
    refine ((puts_translations 2 j dofs).comp h).congr fun p v => ?_
    simp [BodyW]
  · have h : Puts (rotations 3 j x dofs) (fun p v => ∃ dof ∈ dofs,
        (((((p = (j * dim 3 + 3, 3 * dof) ∧ v = -x dof 1) ∨
        (p = (j * dim 3 + 3, 3 * dof + 1) ∧ v = x dof 0)) ∨
        (p = (j * dim 3 + 4, 3 * dof) ∧ v = x dof 2)) ∨
        (p = (j * dim 3 + 4, 3 * dof + 2) ∧ v = -x dof 0)) ∨
        (p = (j * dim 3 + 5, 3 * dof + 2) ∧ v = x dof 1)) ∨
        (p = (j * dim 3 + 5, 3 * dof + 1) ∧ v = -x dof 2)) := by
      unfold rotations
      simp only [if_neg (by decide : ¬ (3 : ℕ) = 2)]
      exact Puts.forEach dofs fun dof _ => (((((Puts.put _ _).comp (Puts.put _ _)).comp
        (Puts.put _ _)).comp (Puts.put _ _)).comp (Puts.put _ _)).comp (Puts.put _ _)
    refine ((puts_translations 3 j dofs).comp h).congr fun p v => ?_
    simp [BodyW, or_assoc]

theorem puts_assign (v : ℕ) (dofs : List ℕ) (f : ℕ → ℕ) (val : ℕ → ℝ) :
    Puts (assign v dofs f val) (fun p w => ∃ d ∈ dofs, p = (v, f d) ∧ w = val d) :=
  Puts.forEach dofs fun _ _ => Puts.put _ _

theorem puts_pyBody (d o : ℕ) (hd : d = 2 ∨ d = 3) (x : ℕ → ℕ → ℝ) (dofs : List ℕ) :
    Puts (pyBody d o x dofs) (BodyW d o x dofs) := by
  have ht : Puts (loop d (fun i => assign (o + i) dofs (fun e => d * e + i) (fun _ => 1)))
      (fun p v => ∃ k < d, ∃ dof ∈ dofs, p = (o + k, d * dof + k) ∧ v = 1) :=
    Puts.loop d fun k _ => puts_assign _ _ _ _
  rcases hd with rfl | rfl
  · refine ((ht.comp (puts_assign _ _ _ _)).comp (puts_assign _ _ _ _)).congr fun p v => ?_
    simp only [BodyW, if_true]
    constructor
    · rintro ((h | ⟨e, he, h⟩) | ⟨e, he, h⟩)
      · exact .inl h
      · exact .inr ⟨e, he, .inl h⟩
      · exact .inr ⟨e, he, .inr h⟩
    · rintro (h | ⟨e, he, h | h⟩)
      · exact .inl (.inl h)
      · exact .inl (.inr ⟨e, he, h⟩)
      · exact .inr ⟨e, he, h⟩
  · refine ((((((ht.comp (puts_assign _ _ _ _)).comp (puts_assign _ _ _ _)).comp
      (puts_assign _ _ _ _)).comp (puts_assign _ _ _ _)).comp (puts_assign _ _ _ _)).comp
      (puts_assign _ _ _ _)).congr fun p v => ?_
    simp only [BodyW, if_neg (by decide : ¬ (3 : ℕ) = 2)]
    constructor
    · rintro ((((((h | ⟨e, he, h⟩) | ⟨e, he, h⟩) | ⟨e, he, h⟩) | ⟨e, he, h⟩) | ⟨e, he, h⟩) |
        ⟨e, he, h⟩)
      · exact .inl h
      · exact .inr ⟨e, he, .inl h⟩
      · exact .inr ⟨e, he, .inr (.inl h)⟩
      · exact .inr ⟨e, he, .inr (.inr (.inl h))⟩
      · exact .inr ⟨e, he, .inr (.inr (.inr (.inl h)))⟩
      · exact .inr ⟨e, he, .inr (.inr (.inr (.inr (.inl h))))⟩
      · exact .inr ⟨e, he, .inr (.inr (.inr (.inr (.inr h))))⟩
    · rintro (h | ⟨e, he, h | h | h | h | h | h⟩)
      · exact .inl (.inl (.inl (.inl (.inl (.inl h)))))
      · exact .inl (.inl (.inl (.inl (.inl (.inr ⟨e, he, h⟩)))))
      · exact .inl (.inl (.inl (.inl (.inr ⟨e, he, h⟩))))
      · exact .inl (.inl (.inl (.inr ⟨e, he, h⟩)))
      · exact .inl (.inl (.inr ⟨e, he, h⟩))
      · exact .inl (.inr ⟨e, he, h⟩)
      · exact .inr ⟨e, he, h⟩

/-- Any write of body `j` to entry (`j0 * dim + m`, `d * node + i`) is a write of the value of mode
`m`, of body `j0`, at one of its nodes. -/
theorem bodyW_value {d j j0 m node i : ℕ} (hd : d = 2 ∨ d = 3) (hm : m < dim d) (hi : i < d)
    {x : ℕ → ℕ → ℝ} {dofs : List ℕ} {v : ℝ}
    (h : BodyW d (j * dim d) x dofs (j0 * dim d + m, d * node + i) v) :
    j = j0 ∧ node ∈ dofs ∧ v = (mode d m).at' d (x node) i := by
  rcases hd with rfl | rfl
  · simp only [dim, if_true] at hm h
    rcases h with ⟨k, hk, dof, hdof, he, rfl⟩ | ⟨dof, hdof, h⟩
    · rw [Prod.mk.injEq] at he
      obtain ⟨rfl, rfl, rfl, rfl⟩ : j = j0 ∧ dof = node ∧ k = m ∧ k = i := by omega
      refine ⟨rfl, hdof, ?_⟩
      interval_cases k <;> simp [mode, Motion.at', sum_range_succ]
    · simp only [if_true, Prod.mk.injEq] at h
      rcases h with ⟨he, rfl⟩ | ⟨he, rfl⟩
      · obtain ⟨rfl, rfl, rfl, rfl⟩ : j = j0 ∧ dof = node ∧ m = 2 ∧ i = 0 := by omega
        exact ⟨rfl, hdof, by simp [mode, Motion.at', sum_range_succ]⟩
      · obtain ⟨rfl, rfl, rfl, rfl⟩ : j = j0 ∧ dof = node ∧ m = 2 ∧ i = 1 := by omega
        exact ⟨rfl, hdof, by simp [mode, Motion.at', sum_range_succ]⟩
  · simp only [dim, if_neg (by decide : ¬ (3 : ℕ) = 2)] at hm h
    rcases h with ⟨k, hk, dof, hdof, he, rfl⟩ | ⟨dof, hdof, h⟩
    · rw [Prod.mk.injEq] at he
      obtain ⟨rfl, rfl, rfl, rfl⟩ : j = j0 ∧ dof = node ∧ k = m ∧ k = i := by omega
      refine ⟨rfl, hdof, ?_⟩
      interval_cases k <;> simp [mode, Motion.at', sum_range_succ]
    · simp only [if_neg (by decide : ¬ (3 : ℕ) = 2), Prod.mk.injEq] at h
      rcases h with ⟨he, rfl⟩ | ⟨he, rfl⟩ | ⟨he, rfl⟩ | ⟨he, rfl⟩ | ⟨he, rfl⟩ | ⟨he, rfl⟩
      · obtain ⟨rfl, rfl, rfl, rfl⟩ : j = j0 ∧ dof = node ∧ m = 3 ∧ i = 0 := by omega
        exact ⟨rfl, hdof, by simp [mode, Motion.at', sum_range_succ]⟩
      · obtain ⟨rfl, rfl, rfl, rfl⟩ : j = j0 ∧ dof = node ∧ m = 3 ∧ i = 1 := by omega
        exact ⟨rfl, hdof, by simp [mode, Motion.at', sum_range_succ]⟩
      · obtain ⟨rfl, rfl, rfl, rfl⟩ : j = j0 ∧ dof = node ∧ m = 4 ∧ i = 0 := by omega
        exact ⟨rfl, hdof, by simp [mode, Motion.at', sum_range_succ]⟩
      · obtain ⟨rfl, rfl, rfl, rfl⟩ : j = j0 ∧ dof = node ∧ m = 4 ∧ i = 2 := by omega
        exact ⟨rfl, hdof, by simp [mode, Motion.at', sum_range_succ]⟩
      · obtain ⟨rfl, rfl, rfl, rfl⟩ : j = j0 ∧ dof = node ∧ m = 5 ∧ i = 2 := by omega
        exact ⟨rfl, hdof, by simp [mode, Motion.at', sum_range_succ]⟩
      · obtain ⟨rfl, rfl, rfl, rfl⟩ : j = j0 ∧ dof = node ∧ m = 5 ∧ i = 1 := by omega
        exact ⟨rfl, hdof, by simp [mode, Motion.at', sum_range_succ]⟩

/-- An entry that no write reaches has mode value zero at every node of the body. -/
theorem bodyW_none {d m node i : ℕ} (o : ℕ) (hd : d = 2 ∨ d = 3) (hm : m < dim d) (hi : i < d)
    {x : ℕ → ℕ → ℝ} {dofs : List ℕ} (hn : node ∈ dofs)
    (h : ∀ v, ¬ BodyW d o x dofs (o + m, d * node + i) v) :
    (mode d m).at' d (x node) i = 0 := by
  by_contra hne
  rcases hd with rfl | rfl
  · simp only [dim, if_true] at hm
    apply h ((mode 2 m).at' 2 (x node) i)
    interval_cases m <;> interval_cases i <;>
      simp [mode, Motion.at', sum_range_succ] at hne ⊢ <;>
      first
      | exact .inl ⟨0, by omega, node, hn, rfl, rfl⟩
      | exact .inl ⟨1, by omega, node, hn, rfl, rfl⟩
      | exact .inr ⟨node, hn, by simp⟩
  · simp only [dim, if_neg (by decide : ¬ (3 : ℕ) = 2)] at hm
    apply h ((mode 3 m).at' 3 (x node) i)
    interval_cases m <;> interval_cases i <;>
      simp [mode, Motion.at', sum_range_succ] at hne ⊢ <;>
      first
      | exact .inl ⟨0, by omega, node, hn, rfl, rfl⟩
      | exact .inl ⟨1, by omega, node, hn, rfl, rfl⟩
      | exact .inl ⟨2, by omega, node, hn, rfl, rfl⟩
      | exact .inr ⟨node, hn, by simp⟩

/-- Values after a loop over the bodies that writes, body by body, the modes. -/
theorem value_of_puts {d n : ℕ} (hd : d = 2 ∨ d = 3) {x : ℕ → ℕ → ℝ} {D : ℕ → List ℕ}
    {f : ℕ → Arr (ℕ × ℕ) → Arr (ℕ × ℕ)}
    (hf : ∀ j, j < n → Puts (f j) (BodyW d (j * dim d) x (D j)))
    {j m node i : ℕ} (hj : j < n) (hm : m < dim d) (hi : i < d) :
    loop n f (fun _ => 0) (j * dim d + m, d * node + i)
      = if node ∈ D j then (mode d m).at' d (x node) i else 0 := by
  have hp := Puts.loop n hf
  rcases hp (fun _ => 0) (j * dim d + m, d * node + i) with ⟨v, ⟨j', hj', hw⟩, hv⟩ | ⟨hno, hv⟩
  · obtain ⟨rfl, hn, rfl⟩ := bodyW_value hd hm hi hw
    rw [hv, if_pos hn]
  · rw [hv]
    split
    · rename_i hn
      exact (bodyW_none (j * dim d) hd hm hi hn fun v hw => hno v ⟨j, hj, hw⟩).symm
    · rfl

end

end Verif.Nullspace
