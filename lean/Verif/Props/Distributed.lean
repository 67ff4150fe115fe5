import Verif.Spec.Distributed
import Mathlib.Algebra.BigOperators.Ring.Finset
import Mathlib.Algebra.BigOperators.Group.Finset.Sigma
import Mathlib.Tactic.Ring
import Mathlib.Tactic.Linarith
import Mathlib.Tactic.NormNum
import Mathlib.Tactic.IntervalCases

/-! Properties C105 to C107: residuals on several processes. -/

namespace Verif.Distributed

open Finset

noncomputable section

/-! ### C105 -/

theorem trial_x (S : Problem) (D : Driver) (st : State) (y : ℕ → ℝ) (p g : ℕ) :
    (trial S D st y).x p g = y g := by
  simp [trial, ghostForward, setOwned]

theorem start_x (S : Problem) (D : Driver) (st : State) (p g : ℕ) :
    (start S D st).x p g = st.x (S.owner g) g := rfl

theorem run_snoc (S : Problem) (D : Driver) (st : State) (ys : List (ℕ → ℝ)) (y : ℕ → ℝ) :
    run S D st (ys ++ [y]) = trial S D (run S D st ys) y := by
  simp [run, List.foldl_append]

theorem run_x (S : Problem) (D : Driver) (st : State) (y0 : ℕ → ℝ) (ys : List (ℕ → ℝ))
    (h0 : ∀ g, st.x (S.owner g) g = y0 g) (p g : ℕ) :
    (run S D st ys).x p g = (ys.getLastD y0) g := by
  rcases List.eq_nil_or_concat ys with rfl | ⟨l, y, rfl⟩
  · simpa [run, start_x] using h0 g
  · rw [List.concat_eq_append, run_snoc, trial_x]; simp

/-- C105: with `nitsche_custom`, on any number of processes and after any iterates, the residual of every
process is assembled with contact data and forms evaluated at the current iterate. -/
theorem C105_nitsche_custom (S : Problem) (st : State) (y0 : ℕ → ℝ) (ys : List (ℕ → ℝ))
    (h0 : ∀ g, st.x (S.owner g) g = y0 g) (p g : ℕ) :
    (run S (nitscheCustom S) st ys).b p g =
      ((S.facets p).map (fun f => S.facetVec f (ys.getLastD y0) g)).sum
        + ((S.cells p).map (fun c => S.cellVec c (ys.getLastD y0) g)).sum := by
  have hx : ∀ p, (run S (nitscheCustom S) st ys).x p = ys.getLastD y0 := fun p =>
    funext (fun g => run_x S _ st y0 ys h0 p g)
  have hb : (run S (nitscheCustom S) st ys).b =
      assemble S (run S (nitscheCustom S) st ys).x (run S (nitscheCustom S) st ys).x := by
    rcases List.eq_nil_or_concat ys with rfl | ⟨l, y, rfl⟩
    · rfl
    · rw [List.concat_eq_append, run_snoc]; rfl
  rw [hb, assemble, hx]

/-- The coefficients of `nitsche_rigid_surface_custom` after iterate `y`, when the one before was `z`. -/
theorem rigid_coeffs (S : Problem) (st : State) (y0 : ℕ → ℝ) (ys : List (ℕ → ℝ)) (y : ℕ → ℝ)
    (h0 : ∀ g, st.x (S.owner g) g = y0 g) (p g : ℕ) :
    (run S (nitscheRigidSurfaceCustom S) st (ys ++ [y])).coeffs p g =
      if p = S.owner g then y g else (ys.getLastD y0) g := by
  rw [run_snoc]
  simp only [trial, nitscheRigidSurfaceCustom, setOwned]
  rw [← nitscheRigidSurfaceCustom, run_x S _ st y0 ys h0 p g]

/-- C105: with `nitsche_rigid_surface_custom` the contact data of a process is that of the current iterate
for the dofs the process owns, but that of the iterate before for its ghosts, because the coefficients are
packed before the ghost update; two iterates and two processes suffice for a wrong residual. -/
theorem C105_rigid_surface_custom_violated :
    (∀ (S : Problem) (st : State) (y0 : ℕ → ℝ) (ys : List (ℕ → ℝ)) (y : ℕ → ℝ),
      (∀ g, st.x (S.owner g) g = y0 g) → ∀ p g,
      (run S (nitscheRigidSurfaceCustom S) st (ys ++ [y])).b p g =
        ((S.facets p).map (fun f => S.facetVec f
          (fun j => if p = S.owner j then y j else (ys.getLastD y0) j) g)).sum
        + ((S.cells p).map (fun c => S.cellVec c y g)).sum)
    ∧ ∃ (S : Problem) (st : State) (y : ℕ → ℝ) (p g : ℕ), p < S.procs ∧ S.owner g = p
      ∧ (∀ p g, st.x p g = 0)
      ∧ (run S (nitscheRigidSurfaceCustom S) st [y]).b p g ≠
        ((S.facets p).map (fun f => S.facetVec f y g)).sum + ((S.cells p).map (fun c => S.cellVec c y g)).sum := by
  have key : ∀ (S : Problem) (st : State) (y0 : ℕ → ℝ) (ys : List (ℕ → ℝ)) (y : ℕ → ℝ),
      (∀ g, st.x (S.owner g) g = y0 g) → ∀ p g,
      (run S (nitscheRigidSurfaceCustom S) st (ys ++ [y])).b p g =
        ((S.facets p).map (fun f => S.facetVec f
          (fun j => if p = S.owner j then y j else (ys.getLastD y0) j) g)).sum
        + ((S.cells p).map (fun c => S.cellVec c y g)).sum := by
    intro S st y0 ys y h0 p g
    have hb : (run S (nitscheRigidSurfaceCustom S) st (ys ++ [y])).b =
        assemble S (run S (nitscheRigidSurfaceCustom S) st (ys ++ [y])).coeffs
          (run S (nitscheRigidSurfaceCustom S) st (ys ++ [y])).x := by
      rw [run_snoc]; rfl
    have hc : (run S (nitscheRigidSurfaceCustom S) st (ys ++ [y])).coeffs p =
        fun j => if p = S.owner j then y j else (ys.getLastD y0) j :=
      funext (fun j => rigid_coeffs S st y0 ys y h0 p j)
    have hx : (run S (nitscheRigidSurfaceCustom S) st (ys ++ [y])).x p = y := by
      funext j; rw [run_snoc, trial_x]
    rw [hb, assemble, hc, hx]
  refine ⟨key, ⟨2, fun g => g, fun _ => [], fun p => if p = 0 then [0] else [], fun _ _ _ => 0,
    fun _ x g => if g = 0 then x 0 + x 1 else 0, fun _ _ _ _ => 0⟩, ⟨fun _ _ => 0, fun _ _ => 0, fun _ _ => 0⟩,
    fun _ => 1, 0, 0, by norm_num, rfl, fun _ _ => rfl, ?_⟩
  have := key ⟨2, fun g => g, fun _ => [], fun p => if p = 0 then [0] else [], fun _ _ _ => 0,
    fun _ x g => if g = 0 then x 0 + x 1 else 0, fun _ _ _ _ => 0⟩ ⟨fun _ _ => 0, fun _ _ => 0, fun _ _ => 0⟩
    (fun _ => 0) [] (fun _ => 1) (fun _ => rfl) 0 0
  rw [List.nil_append] at this
  rw [this]
  norm_num

/-- C105: for `nitsche_rigid_surface_custom` the contact data is current on a process whose facets only read
dofs the process owns, in particular on one process, and wherever the iterate has not changed. -/
theorem C105_rigid_surface_custom_partial (S : Problem) (st : State) (y0 : ℕ → ℝ) (ys : List (ℕ → ℝ))
    (y : ℕ → ℝ) (h0 : ∀ g, st.x (S.owner g) g = y0 g) (p : ℕ)
    (hown : ∀ f ∈ S.facets p, ∀ X Y : ℕ → ℝ,
      (∀ j, p = S.owner j ∨ (ys.getLastD y0) j = y j → X j = Y j) → S.facetVec f X = S.facetVec f Y) (g : ℕ) :
    (run S (nitscheRigidSurfaceCustom S) st (ys ++ [y])).b p g =
      ((S.facets p).map (fun f => S.facetVec f y g)).sum + ((S.cells p).map (fun c => S.cellVec c y g)).sum := by
  rw [C105_rigid_surface_custom_violated.1 S st y0 ys y h0 p g]
  congr 1
  refine congrArg List.sum (List.map_congr_left (fun f hf => ?_))
  rw [hown f hf _ y (fun j hj => ?_)]
  split
  · rfl
  · rename_i hne
    exact hj.resolve_left hne

/-- Two processes, one shared dof: the facet of process 1 reads only dofs 1 and 2, which process 1 owns. -/
def exS : Problem where
  procs := 2
  owner := fun g => if g = 0 then 0 else 1
  cells := fun p => [p]
  facets := fun p => if p = 1 then [0] else []
  cellVec := fun c x g => if g = 0 then (if c = 0 then x 0 - 1 else x 0 - 3) else 0
  facetVec := fun _ x g => if g = 1 then x 1 - x 2 else 0
  cellMat := fun _ _ g j => if g = 0 ∧ j = 0 then 1 else 0

example : (∀ f ∈ exS.facets 1, ∀ X Y : ℕ → ℝ,
    (∀ j, 1 = exS.owner j ∨ (([] : List (ℕ → ℝ)).getLastD (fun _ => 0)) j = (fun _ => (1 : ℝ)) j → X j = Y j) →
      exS.facetVec f X = exS.facetVec f Y) ∧ exS.facets 1 ≠ [] := by
  refine ⟨fun f _ X Y h => ?_, by simp [exS]⟩
  funext g
  have h1 := h 1 (Or.inl (by simp [exS]))
  have h2 := h 2 (Or.inl (by simp [exS]))
  simp only [exS, h1, h2]

/-! ### C106 -/

/-- C106: the residual entry the Newton solver of both custom drivers sees for a dof has the element vectors
of the owning process only: it is the residual of the problem when no cell or facet of another process
contributes to the dof, in particular on one process. -/
theorem C106_nitsche_custom_partial (S : Problem) (st : State) (y0 : ℕ → ℝ) (ys : List (ℕ → ℝ))
    (h0 : ∀ g, st.x (S.owner g) g = y0 g) (g : ℕ) (hg : S.owner g < S.procs)
    (hc : ∀ p < S.procs, p ≠ S.owner g → (∀ c ∈ S.cells p, ∀ X, S.cellVec c X g = 0)
      ∧ ∀ f ∈ S.facets p, ∀ X, S.facetVec f X g = 0) :
    S.owned (run S (nitscheCustom S) st ys).b g =
      S.contactResidual (ys.getLastD y0) g + S.formResidual (ys.getLastD y0) g := by
  have hz : ∀ (l : List ℕ) (v : ℕ → ℝ), (∀ c ∈ l, v c = 0) → (l.map v).sum = 0 := by
    intro l v h
    rw [List.map_congr_left h]; simp
  rw [Problem.owned, C105_nitsche_custom S st y0 ys h0, Problem.contactResidual, Problem.formResidual,
    sum_eq_single (S.owner g), sum_eq_single (S.owner g)]
  · exact fun p hp hne => hz _ _ (fun c hc' => (hc p (mem_range.mp hp) hne).1 c hc' _)
  · exact fun h => absurd (mem_range.mpr hg) h
  · exact fun p hp hne => hz _ _ (fun f hf => (hc p (mem_range.mp hp) hne).2 f hf _)
  · exact fun h => absurd (mem_range.mpr hg) h

/-- C106: in general it is not: nothing adds the ghost contributions to the owner's entry.  With two cells on
two processes and a shared dof, all residual entries both drivers show the solver are zero at the iterate 1,
while the residual of the problem is -2. -/
theorem C106_violated : ∃ (S : Problem) (st : State) (y : ℕ → ℝ), (∀ p g, st.x p g = y g)
    ∧ (∀ g, S.owner g < S.procs)
    ∧ (∀ g, S.owned (run S (nitscheCustom S) st []).b g = 0)
    ∧ (∀ g, S.owned (run S (nitscheRigidSurfaceCustom S) st []).b g = 0)
    ∧ S.contactResidual y 0 + S.formResidual y 0 = -2 := by
  refine ⟨exS, ⟨fun _ _ => 1, fun _ _ => 0, fun _ _ => 0⟩, fun _ => 1, fun _ _ => rfl, ?_, ?_, ?_, ?_⟩
  · intro g; simp only [exS]; split <;> norm_num
  · intro g
    simp only [Problem.owned, run, start, List.foldl_nil, nitscheCustom, assemble, ghostForward, exS]
    by_cases h : g = 0
    · subst h; norm_num
    · by_cases h1 : g = 1
      · subst h1; norm_num
      · simp [h, h1]
  · intro g
    simp only [Problem.owned, run, start, List.foldl_nil, nitscheRigidSurfaceCustom, assemble, ghostForward, exS]
    by_cases h : g = 0
    · subst h; norm_num
    · by_cases h1 : g = 1
      · subst h1; norm_num
      · simp [h, h1]
  · simp [Problem.contactResidual, Problem.formResidual, exS, sum_range_succ]; norm_num

/-- The hypotheses of the partial theorem hold for the dofs that are not shared. -/
example : exS.owner 1 < exS.procs ∧ ∀ p < exS.procs, p ≠ exS.owner 1 →
    (∀ c ∈ exS.cells p, ∀ X, exS.cellVec c X 1 = 0) ∧ ∀ f ∈ exS.facets p, ∀ X, exS.facetVec f X 1 = 0 := by
  refine ⟨by simp [exS], fun p hp hne => ?_⟩
  simp only [exS] at hp hne
  interval_cases p
  · simp [exS]
  · simp at hne

/-! ### C107 -/

/-- C107: the residual callback of `NonlinearPDE_SNESProblem` gives, on any number of processes and whatever
is stored in the ghosts of `x`: for constrained dofs the error `x - u_D`, for the others the residual of the
form at `x` plus the lifting `A (u_D - x)`. -/
theorem C107_residual (S : Problem) (n : ℕ) (bc : ℕ → Bool) (ud : ℕ → ℝ) (x : DVec) (g : ℕ) :
    S.owned (snesF S n bc ud x) g =
      if bc g then S.owned x g - ud g
      else S.formResidual (S.owned x) g
        + ∑ j ∈ range n, if bc j then S.formMatrix (S.owned x) g j * (ud j - S.owned x j) else 0 := by
  have hx : ∀ p, ghostForward S x p = S.owned x := fun p => rfl
  have hu : ∀ p, ghostForward S (ghostForward S x) p = S.owned x := fun p => rfl
  simp only [Problem.owned, snesF, true_and, ghostReverseAdd, if_true]
  split
  · simp only [ghostForward]; ring
  · have hswap : ∀ (l : List ℕ) (X : ℕ → ℝ), (l.map (fun c => -1 * ∑ j ∈ range n,
          if bc j = true then S.cellMat c X g j * (ud j - X j) else 0)).sum =
        -∑ j ∈ range n, if bc j = true then (l.map (fun c => S.cellMat c X g j)).sum * (ud j - X j) else 0 := by
      intro l X
      induction l with
      | nil => simp
      | cons a l ih =>
        simp only [List.map_cons, List.sum_cons]
        rw [ih, neg_one_mul, ← neg_add, ← sum_add_distrib]
        refine congrArg Neg.neg (sum_congr rfl (fun j _ => ?_))
        split
        · ring
        · simp
    simp only [hx, hu, hswap, sub_neg_eq_add, sum_add_distrib]
    rw [sum_comm]
    simp only [Problem.formResidual, Problem.formMatrix]
    refine congrArg (_ + ·) (sum_congr rfl (fun j _ => ?_))
    split
    · rw [← sum_mul]; rfl
    · simp

/-- C107: a Newton step `x - y` with this residual and the Jacobian of `NonlinearPDE_SNESProblem` meets the
boundary condition exactly and solves the linearised equations of all other dofs, with the full derivative
matrix. -/
theorem C107_newton_step (S : Problem) (n : ℕ) (bc : ℕ → Bool) (ud : ℕ → ℝ) (x : DVec) (y : ℕ → ℝ)
    (hy : ∀ g < n, ∑ j ∈ range n, snesJ S bc (S.owned x) g j * y j = S.owned (snesF S n bc ud x) g) :
    ∀ g < n, (bc g = true → S.owned x g - y g = ud g)
      ∧ (bc g = false → S.formResidual (S.owned x) g = ∑ j ∈ range n, S.formMatrix (S.owned x) g j * y j) := by
  have hb : ∀ g < n, bc g = true → S.owned x g - y g = ud g := by
    intro g hg h
    have := hy g hg
    rw [C107_residual, if_pos h] at this
    simp only [snesJ, h, Bool.true_or, if_true, ite_mul, one_mul, zero_mul] at this
    rw [sum_ite_eq, if_pos (mem_range.mpr hg)] at this
    linarith
  intro g hg
  refine ⟨hb g hg, fun h => ?_⟩
  have := hy g hg
  rw [C107_residual, if_neg (by simp [h])] at this
  have e : ∑ j ∈ range n, snesJ S bc (S.owned x) g j * y j =
      ∑ j ∈ range n, S.formMatrix (S.owned x) g j * y j
        + ∑ j ∈ range n, if bc j = true then S.formMatrix (S.owned x) g j * (ud j - S.owned x j) else 0 := by
    rw [← sum_add_distrib]
    refine sum_congr rfl (fun j hj => ?_)
    by_cases hj' : bc j = true
    · have hne : g ≠ j := fun e => by rw [e, hj'] at h; exact absurd h (by simp)
      rw [if_pos hj', snesJ, if_pos (by simp [hj']), if_neg hne, ← hb j (mem_range.mp hj) hj']
      ring
    · rw [if_neg hj', snesJ, if_neg (by simp [h, hj'])]
      rw [add_zero]; rfl
  rw [e] at this
  linarith

/-- A step exists in a case with a constrained and a shared free dof. -/
example : ∀ g < 2, ∑ j ∈ range 2, snesJ exS (fun g => g == 1) (exS.owned (fun _ _ => 0)) g j
      * (fun j => if j = 0 then (-2 : ℝ) else -5) j =
    exS.owned (snesF exS 2 (fun g => g == 1) (fun _ => 5) (fun _ _ => 0)) g := by
  intro g hg
  rw [C107_residual]
  interval_cases g <;>
    norm_num [snesJ, exS, sum_range_succ, Problem.owned, Problem.formResidual, Problem.formMatrix]

end

end Verif.Distributed
