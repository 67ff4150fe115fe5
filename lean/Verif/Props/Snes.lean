import Mathlib.Tactic.IntervalCases
import Verif.Lemmas.Snes

/-! Properties C185 to C188: `snes_solver`, a body pressed against a rigid plane by SNES with variable bounds. -/

namespace Verif.Snes

open Finset Verif.OneSided Verif.Distributed Spec

noncomputable section

variable {P : Params} {M : Mesh} {top bottom : ℤ} {solve : Solver} {tol : ℝ} {v : DVec}

/-! ### C185 -/

/-- C185: if `snes_solver` returns, every node of the displaced body is on or above the plane at height `-plane_loc`,
up to the tolerance of SNES. -/
theorem C185_no_penetration (h : snesSolver P M top bottom solve = .ok v)
    (hs : SolvesWithBounds M.owner (numDofs P M) tol solve) (hp : -P.planeLoc ≤ 10000000) (a : ℕ)
    (ha : a < M.numNodes) : -P.planeLoc - tol ≤ M.x a (P.dim - 1) + nodal P M v a (P.dim - 1) := by
  obtain ⟨hd, hr⟩ := run_ok h hs
  have hd0 : 0 < P.dim := by omega
  rcases bounded_ge (hr a ha (P.dim - 1) (by omega)) with h1 | h1
  · rw [upper_eq (by omega)] at h1; linarith
  · have := h1.1
    rw [lower_last hd0] at this; linarith

/-- C185: where the prescribed displacement does not push its nodes through the plane, the returned displacement has
the prescribed value at them, up to the tolerance. -/
theorem C185_prescribed_partial (h : snesSolver P M top bottom solve = .ok v)
    (hs : SolvesWithBounds M.owner (numDofs P M) tol solve) (hT : PrescribedAbove P M top) (a : ℕ)
    (ha : a < M.numNodes) (hf : OnFacet M top a) (i : ℕ) (hi : i < P.dim) :
    |nodal P M v a i - (if i = P.dim - 1 then P.disp else 0)| ≤ tol := by
  obtain ⟨_, hr⟩ := run_ok h hs
  have := hr a ha i hi
  rw [if_pos hf] at this
  obtain ⟨b1, b2⟩ := above_bounds (hT a ha hf) hi
  exact bounded_value this b1 b2

/-- C185: at all other nodes within the box, the forces of the body with the prescribed displacements are, up to the
tolerance: zero along the plane, not directed into the plane, and zero at nodes above the plane. -/
theorem C185_forces_partial (h : snesSolver P M top bottom solve = .ok v)
    (hs : SolvesWithBounds M.owner (numDofs P M) tol solve) (a : ℕ) (ha : a < M.numNodes) (hf : ¬ OnFacet M top a) :
    (∀ i < P.dim - 1, |M.x a i + nodal P M v a i| < 10000000 - tol →
        |nodalForce P M (withPrescribed P M top (nodal P M v)) a i| ≤ tol)
      ∧ (M.x a (P.dim - 1) + nodal P M v a (P.dim - 1) < 10000000 - tol →
        -tol ≤ nodalForce P M (withPrescribed P M top (nodal P M v)) a (P.dim - 1)
        ∧ (-P.planeLoc + tol < M.x a (P.dim - 1) + nodal P M v a (P.dim - 1) →
          nodalForce P M (withPrescribed P M top (nodal P M v)) a (P.dim - 1) ≤ tol)) := by
  obtain ⟨hd, hr⟩ := run_ok h hs
  refine ⟨fun i hi hb => ?_, fun hb => ?_⟩
  · have := hr a ha i (by omega)
    rw [if_neg hf] at this
    have hb := abs_lt.mp hb
    have h1 := bounded_ge this
    have h2 := bounded_le this
    rw [upper_eq (by omega), lower_side hi] at h1
    rw [lower_side hi] at h2
    rw [abs_le]
    constructor
    · rcases h1 with h1 | h1
      · linarith
      · exact h1.2
    · rcases h2.2 with h2 | h2
      · linarith
      · exact h2
  · have := hr a ha (P.dim - 1) (by omega)
    rw [if_neg hf] at this
    have h1 := bounded_ge this
    have h2 := bounded_le this
    rw [upper_eq (by omega), lower_last (by omega)] at h1
    rw [lower_last (by omega)] at h2
    refine ⟨?_, fun hg => ?_⟩
    · rcases h1 with h1 | h1
      · linarith
      · exact h1.2
    · rcases h2.2 with h2 | h2
      · linarith
      · exact h2

/-- With the prescribed values met, putting them in changes nothing. -/
theorem prescribed_exact (h : snesSolver P M top bottom solve = .ok v)
    (hs : SolvesWithBounds M.owner (numDofs P M) 0 solve) (hT : PrescribedAbove P M top) :
    ∀ a < M.numNodes, ∀ i < P.dim, withPrescribed P M top (nodal P M v) a i = nodal P M v a i := by
  intro a ha i hi
  unfold withPrescribed
  by_cases hf : OnFacet M top a
  · rw [if_pos hf]
    have := C185_prescribed_partial h hs hT a ha hf i hi
    have := abs_eq_zero.mp (le_antisymm this (abs_nonneg _))
    linarith
  · rw [if_neg hf]

/-- C185: with exact solves and a prescribed displacement that does not push its nodes through the plane, the returned
displacement is in equilibrium with a plane without friction and adhesion: at nodes without prescribed displacement,
the plane exerts no force along it, only pushes, and pushes only nodes that touch it. -/
theorem C185_exact_partial (h : snesSolver P M top bottom solve = .ok v)
    (hs : SolvesWithBounds M.owner (numDofs P M) 0 solve) (hT : PrescribedAbove P M top) (a : ℕ) (ha : a < M.numNodes)
    (hf : ¬ OnFacet M top a) (hbox : ∀ i < P.dim, |M.x a i + nodal P M v a i| < 10000000) :
    (∀ i < P.dim - 1, nodalForce P M (nodal P M v) a i = 0)
      ∧ 0 ≤ nodalForce P M (nodal P M v) a (P.dim - 1)
      ∧ (-P.planeLoc < M.x a (P.dim - 1) + nodal P M v a (P.dim - 1) →
        nodalForce P M (nodal P M v) a (P.dim - 1) = 0) := by
  have hd := (run_ok h hs).1
  have he : ∀ b i, nodalForce P M (withPrescribed P M top (nodal P M v)) b i = nodalForce P M (nodal P M v) b i :=
    fun b i => work_congr' _ (prescribed_exact h hs hT)
  obtain ⟨h1, h2⟩ := C185_forces_partial h hs a ha hf
  have hl := (abs_lt.mp (hbox (P.dim - 1) (by omega))).2
  have h2 := h2 (by linarith)
  simp only [he, neg_zero, add_zero, sub_zero] at h1 h2
  refine ⟨fun i hi => ?_, h2.1, fun hg => le_antisymm (h2.2 hg) h2.1⟩
  exact abs_eq_zero.mp (le_antisymm (h1 i hi (hbox i (by omega))) (abs_nonneg _))

/-- C185: the forces in any direction at the nodes with prescribed displacement balance those at all others, if the
basis functions sum up to a constant. -/
theorem C185_balance (hsum : ∀ k j, ∑ a ∈ range M.numNodes, M.dphi k a j = 0) (u : ℕ → ℕ → ℝ) (i : ℕ) (hi : i < P.dim) :
    open Classical in
    ∑ a ∈ (range M.numNodes).filter (OnFacet M top), nodalForce P M u a i
      = -∑ a ∈ (range M.numNodes).filter (fun a => ¬ OnFacet M top a), nodalForce P M u a i := by
  classical
  have h0 : bodyWork P M u (fun _ j => if j = i then 1 else 0) = 0 := by
    have : ∀ k i' j, nodalGrad M (fun _ j => if j = i then 1 else 0) k i' j = 0 := by
      intro k i' j
      simp only [nodalGrad]
      rw [← mul_sum, hsum, mul_zero]
    unfold bodyWork
    have hz : ∀ k, stressWork P.dim (shearModulus P.E P.nu) (lameFirst P.planeStrain P.E P.nu) (nodalGrad M u k)
        (nodalGrad M (fun _ j => if j = i then 1 else 0) k) = 0 := by
      intro k
      simp [stressWork, strain, this]
    simp [hz, quadSum]
  rw [work_expand] at h0
  have h1 : ∑ a ∈ range M.numNodes, nodalForce P M u a i = 0 := by
    rw [← h0]
    refine sum_congr rfl (fun a _ => ?_)
    rw [sum_eq_single i]
    · simp
    · intro j _ hj; simp [hj]
    · intro hn; exact absurd (mem_range.mpr hi) hn
  rw [← sum_filter_add_sum_filter_not (range M.numNodes) (OnFacet M top)] at h1
  linarith

/-! ### runs -/

open Classical in
/-- A solver that returns `x` if it solves the problem, and fails otherwise. -/
def solverOf (owner : ℕ → ℕ) (n : ℕ) (tol : ℝ) (x : DVec) : Solver := fun F _ lo up _ =>
  if ∀ g < n, |boundedResidual (lo g) (up g) (x (owner g) g) (F x (owner g) g)| ≤ tol then (2, x) else (-1, x)

theorem solverOf_solves (owner : ℕ → ℕ) (n : ℕ) (tol : ℝ) (x : DVec) :
    SolvesWithBounds owner n tol (solverOf owner n tol x) := by
  intro F J lo up x0 hr
  unfold solverOf at hr ⊢
  split_ifs at hr ⊢ with h
  · exact h
  · simp at hr

open Classical in
theorem solverOf_ok (hm : M.markerDim = M.tdim - 1) (ht : M.tdim = P.dim) (hd : P.dim = 2 ∨ P.dim = 3) (x : DVec)
    (hx : ∀ a < M.numNodes, ∀ i < P.dim,
      |boundedResidual (lower P M (P.dim * a + i)) (upper P M (P.dim * a + i)) (nodal P M x a i)
        (if OnFacet M top a then nodal P M x a i - (if i = P.dim - 1 then P.disp else 0)
          else nodalForce P M (withPrescribed P M top (nodal P M x)) a i)| ≤ tol) :
    snesSolver P M top bottom (solverOf M.owner (numDofs P M) tol x) = .ok (ghostForward (problem P M) x) := by
  have hg : ∀ g < numDofs P M, |boundedResidual (lower P M g) (upper P M g) (x (M.owner g) g)
      (snesF (problem P M) (numDofs P M) (bcDof P M top) (bcValue P) x (M.owner g) g)| ≤ tol := by
    intro g hg
    obtain ⟨h1, h2⟩ := dof_split hg
    have := hx _ h1 _ h2
    have e : P.dim * (g / P.dim) + g % P.dim = g := Nat.div_add_mod _ _
    simp only [nodal, e] at this
    by_cases hf : OnFacet M top (g / P.dim)
    · rw [residual_bc top x hf]; rwa [if_pos hf] at this
    · rw [residual_free top x hg hf]; rwa [if_neg hf] at this
  have hsol : ∀ J x0, solverOf M.owner (numDofs P M) tol x
      (snesF (problem P M) (numDofs P M) (bcDof P M top) (bcValue P)) J (lower P M) (upper P M) x0 = (2, x) :=
    fun _ _ => if_pos hg
  have hd' : ¬ (P.dim ≠ 2 ∧ P.dim ≠ 3) := by tauto
  unfold snesSolver
  simp only [hsol]
  simp [hm, ht, hd']

/-- A triangle with nodes at heights `y0 = y1` and `y2`, and a facet with value 1 between the first two. -/
def exMesh (y0 y2 : ℝ) : Mesh where
  procs := 1
  owner := fun _ => 0
  cells := fun _ => [0]
  tdim := 2
  markerDim := 1
  numNodes := 3
  x := fun a i => if i = 1 then (if a = 2 then y2 else y0) else if a = 1 then 1 else 0
  tags := [(0, 1)]
  facetNodes := fun _ => [0, 1]
  points := fun _ => [0]
  wt := fun _ => 1 / 2
  phi := fun _ _ => 1 / 3
  dphi := fun _ a j => if a = 0 then (if j = 0 then -1 else if j = 1 then y0 - y2 else 0) else if a = 1 then (if j = 0 then 1 else 0)
    else if j = 1 then y2 - y0 else 0

/-- Young's modulus 2, Poisson ratio 0, plane at height 0, prescribed displacement -1/2. -/
def exArgs : Params := ⟨2, false, 2, 0, 1, 1, 0, -1 / 2, false⟩

theorem ex_onFacet (y0 y2 : ℝ) (a : ℕ) : OnFacet (exMesh y0 y2) 1 a ↔ a = 0 ∨ a = 1 := by
  simp [OnFacet, exMesh]

theorem ex_work (y0 y2 : ℝ) (u w : ℕ → ℕ → ℝ) : bodyWork exArgs (exMesh y0 y2) u w =
    1 / 2 * stressWork 2 1 0 (nodalGrad (exMesh y0 y2) u 0) (nodalGrad (exMesh y0 y2) w 0) := by
  unfold bodyWork
  have hm : shearModulus exArgs.E exArgs.nu = 1 := by norm_num [shearModulus, exArgs]
  have hl : lameFirst exArgs.planeStrain exArgs.E exArgs.nu = 0 := by norm_num [lameFirst, exArgs]
  rw [hm, hl]
  simp [quadSum, meshPoints, exMesh, exArgs]

theorem ex_force (y0 y2 : ℝ) (u : ℕ → ℕ → ℝ) (i : ℕ) : nodalForce exArgs (exMesh y0 y2) u 2 i =
    1 / 2 * stressWork 2 1 0 (nodalGrad (exMesh y0 y2) u 0)
      (fun i' j => if i' = i then (if j = 1 then y2 - y0 else 0) else 0) := by
  rw [nodalForce_eq, ex_work]
  congr 2
  funext i' j
  rw [nodalGrad_unit (by simp [exMesh])]
  simp [exMesh]

/-- The support above: node 2 on the plane, pressed against it. -/
def exPressed : DVec := fun _ g => if g = 1 ∨ g = 3 then -1 / 2 else 0

theorem ex_prescribed (y0 y2 : ℝ) (u : ℕ → ℕ → ℝ) (a i : ℕ) : withPrescribed exArgs (exMesh y0 y2) 1 u a i =
    if a = 0 ∨ a = 1 then (if i = 1 then -1 / 2 else 0) else u a i := by
  unfold withPrescribed
  simp only [ex_onFacet]
  split_ifs <;> simp_all [exArgs]

theorem ex_pressed_force (i : ℕ) (hi : i < 2) :
    nodalForce exArgs (exMesh 1 0) (nodal exArgs (exMesh 1 0) exPressed) 2 i = if i = 1 then 1 / 2 else 0 := by
  rw [ex_force]
  interval_cases i <;>
    norm_num [stressWork, stress, strain, nodalGrad, sum_range_succ, exMesh, nodal, exPressed, exArgs]

theorem ex_pressed_eq (a : ℕ) (ha : a < 3) (i : ℕ) (hi : i < 2) :
    withPrescribed exArgs (exMesh 1 0) 1 (nodal exArgs (exMesh 1 0) exPressed) a i
      = nodal exArgs (exMesh 1 0) exPressed a i := by
  rw [ex_prescribed]
  interval_cases a <;> interval_cases i <;> norm_num [nodal, exPressed, exArgs]

theorem ex_pressed_ok (bottom : ℤ) : snesSolver exArgs (exMesh 1 0) 1 bottom (solverOf (fun _ => 0) 6 0 exPressed)
    = .ok exPressed := by
  refine solverOf_ok (P := exArgs) (M := exMesh 1 0) rfl rfl (Or.inl rfl) exPressed (fun a ha i hi => ?_)
  have he : nodalForce exArgs (exMesh 1 0) (withPrescribed exArgs (exMesh 1 0) 1 (nodal exArgs (exMesh 1 0) exPressed)) a i
      = nodalForce exArgs (exMesh 1 0) (nodal exArgs (exMesh 1 0) exPressed) a i := work_congr' _ ex_pressed_eq
  have hd : exArgs.dim = 2 := rfl
  simp only [ex_onFacet, he]
  change a < 3 at ha
  change i < 2 at hi
  by_cases h2 : a = 2
  · subst h2
    rw [ex_pressed_force i hi]
    interval_cases i <;>
      norm_num [boundedResidual, lower, upper, Meshing.umin, Meshing.umax, Meshing.lims, hd, nodal, exPressed, exMesh, exArgs]
  · have h : a = 0 ∨ a = 1 := by omega
    rw [if_pos h]
    rcases h with rfl | rfl <;> interval_cases i <;>
      norm_num [boundedResidual, lower, upper, Meshing.umin, Meshing.umax, Meshing.lims, hd, nodal, exPressed, exMesh, exArgs]

theorem ex_above : PrescribedAbove exArgs (exMesh 1 0) 1 := by
  intro a ha hf
  rw [ex_onFacet] at hf
  rcases hf with rfl | rfl <;> norm_num [Above, exArgs, exMesh]

/-- The hypotheses of C185 hold in a case where the plane carries a load. -/
example (bottom : ℤ) : snesSolver exArgs (exMesh 1 0) 1 bottom (solverOf (fun _ => 0) 6 0 exPressed) = .ok exPressed
    ∧ SolvesWithBounds (exMesh 1 0).owner (numDofs exArgs (exMesh 1 0)) 0 (solverOf (fun _ => 0) 6 0 exPressed)
    ∧ PrescribedAbove exArgs (exMesh 1 0) 1 ∧ ¬ OnFacet (exMesh 1 0) 1 2
    ∧ (∀ i < exArgs.dim, |(exMesh 1 0).x 2 i + nodal exArgs (exMesh 1 0) exPressed 2 i| < 10000000)
    ∧ nodalForce exArgs (exMesh 1 0) (nodal exArgs (exMesh 1 0) exPressed) 2 1 = 1 / 2
    ∧ ∀ k j, ∑ a ∈ range (exMesh 1 0).numNodes, (exMesh 1 0).dphi k a j = 0 := by
  refine ⟨ex_pressed_ok bottom, solverOf_solves _ _ _ _, ex_above, by rw [ex_onFacet]; decide, fun i hi => ?_, ?_,
    fun k j => ?_⟩
  · change i < 2 at hi
    interval_cases i <;> norm_num [exMesh, nodal, exPressed, exArgs]
  · rw [ex_pressed_force 1 (by norm_num)]; norm_num
  · simp only [exMesh, sum_range_succ, sum_range_zero]
    rcases Nat.lt_or_ge j 2 with hj | hj
    · interval_cases j <;> norm_num
    · simp [show j ≠ 0 by omega, show j ≠ 1 by omega]

/-- The support below: it is held back by the plane, the free node above goes down as if it was not. -/
def exHeld : DVec := fun _ g => if g = 5 then -1 / 2 else 0

theorem ex_held_ok (bottom : ℤ) : snesSolver exArgs (exMesh 0 1) 1 bottom (solverOf (fun _ => 0) 6 0 exHeld)
    = .ok exHeld := by
  refine solverOf_ok (P := exArgs) (M := exMesh 0 1) rfl rfl (Or.inl rfl) exHeld (fun a ha i hi => ?_)
  have hd : exArgs.dim = 2 := rfl
  simp only [ex_onFacet]
  change a < 3 at ha
  change i < 2 at hi
  by_cases h2 : a = 2
  · subst h2
    have h0 : nodalForce exArgs (exMesh 0 1)
        (withPrescribed exArgs (exMesh 0 1) 1 (nodal exArgs (exMesh 0 1) exHeld)) 2 i = 0 := by
      rw [ex_force]
      have hg : ∀ i' < 2, ∀ j, nodalGrad (exMesh 0 1)
          (withPrescribed exArgs (exMesh 0 1) 1 (nodal exArgs (exMesh 0 1) exHeld)) 0 i' j = 0 := by
        intro i' hi' j
        simp only [nodalGrad, ex_prescribed]
        simp only [exMesh, sum_range_succ, sum_range_zero]
        interval_cases i' <;> norm_num [nodal, exHeld, exArgs] <;> split_ifs <;> norm_num <;> omega
      simp [stressWork, stress, strain, sum_range_succ, hg]
    rw [h0]
    interval_cases i <;>
      norm_num [boundedResidual, lower, upper, Meshing.umin, Meshing.umax, Meshing.lims, hd, nodal, exHeld, exMesh, exArgs]
  · have h : a = 0 ∨ a = 1 := by omega
    rw [if_pos h]
    rcases h with rfl | rfl <;> interval_cases i <;>
      norm_num [boundedResidual, lower, upper, Meshing.umin, Meshing.umax, Meshing.lims, hd, nodal, exHeld, exMesh, exArgs]

/-- **C185 is violated** if the prescribed displacement pushes its nodes through the plane: there is a run with an exact
solver that returns a displacement which is not the prescribed one, and which is not in equilibrium at a node above
the plane at which nothing is prescribed. -/
theorem C185_violated : ∃ (P : Params) (M : Mesh) (top : ℤ) (solve : Solver) (v : DVec),
    SolvesWithBounds M.owner (numDofs P M) 0 solve ∧ (∀ bottom, snesSolver P M top bottom solve = .ok v)
    ∧ (∃ a < M.numNodes, OnFacet M top a ∧ nodal P M v a (P.dim - 1) ≠ P.disp)
    ∧ ∃ a < M.numNodes, ¬ OnFacet M top a ∧ -P.planeLoc < M.x a (P.dim - 1) + nodal P M v a (P.dim - 1)
      ∧ nodalForce P M (nodal P M v) a (P.dim - 1) ≠ 0 := by
  refine ⟨exArgs, exMesh 0 1, 1, solverOf (fun _ => 0) 6 0 exHeld, exHeld, solverOf_solves _ _ _ _, ex_held_ok,
    ⟨0, by norm_num [exMesh], by rw [ex_onFacet]; exact Or.inl rfl, by norm_num [nodal, exHeld, exArgs]⟩,
    2, by norm_num [exMesh], by rw [ex_onFacet]; decide, by norm_num [nodal, exHeld, exArgs, exMesh], ?_⟩
  rw [ex_force]
  norm_num [stressWork, stress, strain, nodalGrad, sum_range_succ, exMesh, nodal, exHeld, exArgs]

/-! ### C186 -/

/-- C186: the returned displacement, with the prescribed values put in, has no more elastic energy than any displacement
with the prescribed values that keeps all nodes on or above the plane, up to the tolerance. -/
theorem C186_least_energy_partial (h : snesSolver P M top bottom solve = .ok v)
    (hs : SolvesWithBounds M.owner (numDofs P M) tol solve) (hE : 0 < P.E) (hnu : 0 ≤ P.nu) (hnu' : P.nu < 1 / 2)
    (hw : ∀ k, 0 ≤ M.wt k) (y : ℕ → ℕ → ℝ) (hy : ∀ a < M.numNodes, Above P M y a)
    (hyT : ∀ a < M.numNodes, OnFacet M top a → ∀ i < P.dim, y a i = if i = P.dim - 1 then P.disp else 0) :
    bodyEnergy P M (withPrescribed P M top (nodal P M v)) ≤ bodyEnergy P M y
      + tol * ∑ a ∈ range M.numNodes, ∑ i ∈ range P.dim, (|y a i - nodal P M v a i|
        + |nodalForce P M (withPrescribed P M top (nodal P M v)) a i|) := by
  obtain ⟨_, hr⟩ := run_ok h hs
  rw [energy_step (withPrescribed P M top (nodal P M v)) y]
  have h1 : 0 ≤ bodyEnergy P M (y - withPrescribed P M top (nodal P M v)) :=
    mul_nonneg (by norm_num) (work_nonneg hE hnu hnu' hw _)
  have h2 : -(tol * ∑ a ∈ range M.numNodes, ∑ i ∈ range P.dim, (|y a i - nodal P M v a i|
        + |nodalForce P M (withPrescribed P M top (nodal P M v)) a i|))
      ≤ bodyWork P M (withPrescribed P M top (nodal P M v)) (y - withPrescribed P M top (nodal P M v)) := by
    rw [work_expand, mul_sum, ← sum_neg_distrib]
    refine sum_le_sum (fun a ha => ?_)
    rw [mul_sum, ← sum_neg_distrib]
    refine sum_le_sum (fun i hi => ?_)
    have ha := mem_range.mp ha
    have hi := mem_range.mp hi
    have hb := hr a ha i hi
    rw [Pi.sub_apply, Pi.sub_apply]
    by_cases hf : OnFacet M top a
    · have h0 : 0 ≤ tol := (abs_nonneg _).trans hb
      have e : withPrescribed P M top (nodal P M v) a i = if i = P.dim - 1 then P.disp else 0 := by
        rw [withPrescribed, if_pos hf]
      rw [e, hyT a ha hf i hi, sub_self, zero_mul]
      have := abs_nonneg ((if i = P.dim - 1 then P.disp else 0) - nodal P M v a i)
      have := abs_nonneg (nodalForce P M (withPrescribed P M top (nodal P M v)) a i)
      nlinarith
    · rw [if_neg hf] at hb
      obtain ⟨b1, b2⟩ := above_bounds (hy a ha) hi
      have := bounded_step hb b1 b2
      have e : withPrescribed P M top (nodal P M v) a i = nodal P M v a i := by
        rw [withPrescribed, if_neg hf]
      rw [e, mul_comm (y a i - _)]
      exact this
  linarith

/-- C186: with exact solves and a prescribed displacement that does not push its nodes through the plane, the returned
displacement minimises the elastic energy among the displacements with the prescribed values that keep all nodes on or
above the plane. -/
theorem C186_exact_partial (h : snesSolver P M top bottom solve = .ok v)
    (hs : SolvesWithBounds M.owner (numDofs P M) 0 solve) (hT : PrescribedAbove P M top) (hE : 0 < P.E) (hnu : 0 ≤ P.nu)
    (hnu' : P.nu < 1 / 2) (hw : ∀ k, 0 ≤ M.wt k) (y : ℕ → ℕ → ℝ) (hy : ∀ a < M.numNodes, Above P M y a)
    (hyT : ∀ a < M.numNodes, OnFacet M top a → ∀ i < P.dim, y a i = if i = P.dim - 1 then P.disp else 0) :
    bodyEnergy P M (nodal P M v) ≤ bodyEnergy P M y := by
  have := C186_least_energy_partial h hs hE hnu hnu' hw y hy hyT
  rw [zero_mul, add_zero] at this
  have e : bodyEnergy P M (withPrescribed P M top (nodal P M v)) = bodyEnergy P M (nodal P M v) := by
    unfold bodyEnergy
    rw [work_congr' _ (prescribed_exact h hs hT), work_congr _ (prescribed_exact h hs hT)]
  rwa [e] at this

/-- Other displacements to compare with exist: those that lift the free node. -/
example (t : ℝ) (ht : 0 ≤ t) (ht' : t ≤ 1) :
    (0 : ℝ) < exArgs.E ∧ 0 ≤ exArgs.nu ∧ exArgs.nu < 1 / 2 ∧ (∀ k, 0 ≤ (exMesh 1 0).wt k)
    ∧ (∀ a < 3, Above exArgs (exMesh 1 0) (fun a i => if i = 1 then (if a = 2 then t else -1 / 2) else 0) a) := by
  refine ⟨by norm_num [exArgs], by norm_num [exArgs], by norm_num [exArgs], fun k => by norm_num [exMesh], fun a ha => ?_⟩
  have hd : exArgs.dim = 2 := rfl
  interval_cases a <;> simp only [Above, hd, exMesh] <;> norm_num [exArgs]
  constructor <;> linarith

/-! ### C188 -/

/-- **C188 is violated**: the plane acts on nodes that are on no facet with the value given for the contact surface; the
value is not used.  There is a run in which no facet has that value and a node carries a contact force. -/
theorem C188_violated : ∃ (P : Params) (M : Mesh) (top bottom : ℤ) (solve : Solver) (v : DVec),
    SolvesWithBounds M.owner (numDofs P M) 0 solve ∧ PrescribedAbove P M top
    ∧ snesSolver P M top bottom solve = .ok v
    ∧ ∃ a < M.numNodes, ¬ OnFacet M top a ∧ ¬ OnFacet M bottom a
      ∧ 0 < nodalForce P M (nodal P M v) a (P.dim - 1) := by
  refine ⟨exArgs, exMesh 1 0, 1, 2, _, exPressed, solverOf_solves _ _ _ _, ex_above, ex_pressed_ok 2, 2,
    by norm_num [exMesh], by rw [ex_onFacet]; decide, by simp [OnFacet, exMesh], ?_⟩
  show 0 < nodalForce exArgs (exMesh 1 0) (nodal exArgs (exMesh 1 0) exPressed) 2 1
  rw [ex_pressed_force 1 (by norm_num)]
  norm_num

/-- C188: where only nodes of the contact surface come as near to the plane as the tolerance, no other nodes carry a
force. -/
theorem C188_partial (h : snesSolver P M top bottom solve = .ok v)
    (hs : SolvesWithBounds M.owner (numDofs P M) 0 solve) (hT : PrescribedAbove P M top)
    (hfar : ∀ a < M.numNodes, ¬ OnFacet M bottom a → -P.planeLoc < M.x a (P.dim - 1) + nodal P M v a (P.dim - 1))
    (hbox : ∀ a < M.numNodes, ∀ i < P.dim, |M.x a i + nodal P M v a i| < 10000000) (a : ℕ) (ha : a < M.numNodes)
    (hf : ¬ OnFacet M top a) (hc : ¬ OnFacet M bottom a) (i : ℕ) (hi : i < P.dim) :
    nodalForce P M (nodal P M v) a i = 0 := by
  obtain ⟨h1, _, h3⟩ := C185_exact_partial h hs hT a ha hf (hbox a ha)
  by_cases hl : i = P.dim - 1
  · rw [hl]; exact h3 (hfar a ha hc)
  · exact h1 i (by omega)

/-- The plane at height -1, out of reach. -/
def exFar : Params := { exArgs with planeLoc := 1 }

/-- The body moves down as a whole. -/
def exMoved : DVec := fun _ g => if g % 2 = 1 then -1 / 2 else 0

theorem ex_moved_ok (bottom : ℤ) : snesSolver exFar (exMesh 0 1) 1 bottom (solverOf (fun _ => 0) 6 0 exMoved)
    = .ok exMoved := by
  refine solverOf_ok (P := exFar) (M := exMesh 0 1) rfl rfl (Or.inl rfl) exMoved (fun a ha i hi => ?_)
  have hd : exFar.dim = 2 := rfl
  simp only [ex_onFacet]
  change a < 3 at ha
  change i < 2 at hi
  by_cases h2 : a = 2
  · subst h2
    have h0 : nodalForce exFar (exMesh 0 1)
        (withPrescribed exFar (exMesh 0 1) 1 (nodal exFar (exMesh 0 1) exMoved)) 2 i = 0 := by
      show nodalForce exArgs (exMesh 0 1) (withPrescribed exArgs (exMesh 0 1) 1 (nodal exArgs (exMesh 0 1) exMoved)) 2 i = 0
      rw [ex_force]
      have hg : ∀ i' < 2, ∀ j, nodalGrad (exMesh 0 1)
          (withPrescribed exArgs (exMesh 0 1) 1 (nodal exArgs (exMesh 0 1) exMoved)) 0 i' j = 0 := by
        intro i' hi' j
        simp only [nodalGrad, ex_prescribed]
        simp only [exMesh, sum_range_succ, sum_range_zero]
        interval_cases i' <;> norm_num [nodal, exMoved, exArgs] <;> split_ifs <;> norm_num <;> omega
      simp [stressWork, stress, strain, sum_range_succ, hg]
    rw [h0]
    interval_cases i <;>
      norm_num [boundedResidual, lower, upper, Meshing.umin, Meshing.umax, Meshing.lims, hd, nodal, exMoved, exMesh, exArgs,
        exFar]
  · have h : a = 0 ∨ a = 1 := by omega
    rw [if_pos h]
    rcases h with rfl | rfl <;> interval_cases i <;>
      norm_num [boundedResidual, lower, upper, Meshing.umin, Meshing.umax, Meshing.lims, hd, nodal, exMoved, exMesh, exArgs,
        exFar]

example : snesSolver exFar (exMesh 0 1) 1 2 (solverOf (fun _ => 0) 6 0 exMoved) = .ok exMoved
    ∧ PrescribedAbove exFar (exMesh 0 1) 1
    ∧ (∀ a < 3, -exFar.planeLoc < (exMesh 0 1).x a 1 + nodal exFar (exMesh 0 1) exMoved a 1)
    ∧ (∀ a < 3, ∀ i < 2, |(exMesh 0 1).x a i + nodal exFar (exMesh 0 1) exMoved a i| < 10000000)
    ∧ ¬ OnFacet (exMesh 0 1) 1 2 ∧ ¬ OnFacet (exMesh 0 1) 2 2 := by
  refine ⟨ex_moved_ok 2, fun a ha hf => ?_, fun a ha => ?_, fun a ha i hi => ?_, by rw [ex_onFacet]; decide,
    by simp [OnFacet, exMesh]⟩
  · rw [ex_onFacet] at hf
    rcases hf with rfl | rfl <;> norm_num [Above, exFar, exArgs, exMesh]
  · interval_cases a <;> norm_num [exFar, exArgs, exMesh, nodal, exMoved]
  · interval_cases a <;> interval_cases i <;> norm_num [exFar, exArgs, exMesh, nodal, exMoved, abs_lt]

end

end Verif.Snes
