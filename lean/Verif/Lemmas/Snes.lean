import Verif.Spec.Snes
import Verif.Spec.Distributed
import Verif.Lemmas.OneSided
import Verif.Lemmas.Coefficients
import Verif.Props.Distributed

/-! Nodal forces and elastic energy of the body in `snes_solver`. -/

namespace Verif.Snes

open Finset Verif.OneSided Verif.Distributed Spec

noncomputable section

variable {P : Params} {M : Mesh}

/-! ### the work form -/

theorem stressWork_add (d : ℕ) (mu lam : ℝ) (G H K : ℕ → ℕ → ℝ) :
    stressWork d mu lam G (fun i j => H i j + K i j) = stressWork d mu lam G H + stressWork d mu lam G K := by
  simp only [stressWork, strain]
  rw [← sum_add_distrib]
  refine sum_congr rfl (fun i _ => ?_)
  rw [← sum_add_distrib]
  exact sum_congr rfl (fun j _ => by ring)

theorem stressWork_smul (d : ℕ) (mu lam c : ℝ) (G H : ℕ → ℕ → ℝ) :
    stressWork d mu lam G (fun i j => c * H i j) = c * stressWork d mu lam G H := by
  simp only [stressWork, strain]
  rw [mul_sum]
  refine sum_congr rfl (fun i _ => ?_)
  rw [mul_sum]
  exact sum_congr rfl (fun j _ => by ring)

theorem stressWork_congr (d : ℕ) (mu lam : ℝ) (G : ℕ → ℕ → ℝ) {H K : ℕ → ℕ → ℝ}
    (h : ∀ i < d, ∀ j, H i j = K i j) : stressWork d mu lam G H = stressWork d mu lam G K := by
  simp only [stressWork, strain]
  refine sum_congr rfl (fun i hi => sum_congr rfl (fun j hj => ?_))
  rw [h i (mem_range.mp hi), h j (mem_range.mp hj)]

theorem quadSum_add (ks : List ℕ) (wt f g : ℕ → ℝ) :
    quadSum ks wt (fun k => f k + g k) = quadSum ks wt f + quadSum ks wt g := by
  induction ks with
  | nil => simp [quadSum]
  | cons k ks ih => simp only [quadSum, List.map_cons, List.sum_cons] at ih ⊢; rw [ih]; ring

theorem quadSum_smul (ks : List ℕ) (wt f : ℕ → ℝ) (c : ℝ) :
    quadSum ks wt (fun k => c * f k) = c * quadSum ks wt f := by
  induction ks with
  | nil => simp [quadSum]
  | cons k ks ih => simp only [quadSum, List.map_cons, List.sum_cons] at ih ⊢; rw [ih]; ring

theorem quadSum_append (ks ls : List ℕ) (wt f : ℕ → ℝ) : quadSum (ks ++ ls) wt f = quadSum ks wt f + quadSum ls wt f := by
  simp [quadSum]

theorem quadSum_flatMap {α : Type*} (cs : List α) (pts : α → List ℕ) (wt f : ℕ → ℝ) :
    quadSum (cs.flatMap pts) wt f = (cs.map (fun c => quadSum (pts c) wt f)).sum := by
  induction cs with
  | nil => simp [quadSum]
  | cons c cs ih => rw [List.flatMap_cons, quadSum_append, ih, List.map_cons, List.sum_cons]

theorem quadSum_points (M : Mesh) (f : ℕ → ℝ) : quadSum (meshPoints M) M.wt f =
    ∑ p ∈ range M.procs, ((M.cells p).map (fun c => quadSum (M.points c) M.wt f)).sum := by
  rw [meshPoints, quadSum_flatMap]
  simp only [quadSum_flatMap]
  generalize (fun p => ((M.cells p).map (fun c => quadSum (M.points c) M.wt f)).sum) = F
  induction M.procs with
  | zero => simp
  | succ n ih => rw [List.range_succ, List.map_append, List.sum_append, ih, sum_range_succ]; simp

theorem quadSum_nonneg {ks : List ℕ} {wt f : ℕ → ℝ} (hw : ∀ k, 0 ≤ wt k) (hf : ∀ k, 0 ≤ f k) :
    0 ≤ quadSum ks wt f := by
  refine List.sum_nonneg (fun y hy => ?_)
  obtain ⟨k, _, rfl⟩ := List.mem_map.mp hy
  exact mul_nonneg (hw k) (hf k)

/-- The unit displacement of node `a` in direction `i`. -/
def unit (a i : ℕ) : ℕ → ℕ → ℝ := fun b j => if b = a ∧ j = i then 1 else 0

theorem nodalForce_eq (u : ℕ → ℕ → ℝ) (a i : ℕ) : nodalForce P M u a i = bodyWork P M u (unit a i) := rfl

theorem nodalGrad_unit {a : ℕ} (ha : a < M.numNodes) (i k i' j : ℕ) :
    nodalGrad M (unit a i) k i' j = if i' = i then M.dphi k a j else 0 := by
  unfold nodalGrad unit
  rw [sum_eq_single a]
  · by_cases h : i' = i <;> simp [h]
  · intro b _ hb; simp [hb]
  · intro h; exact absurd (mem_range.mpr ha) h

theorem work_symm (u v : ℕ → ℕ → ℝ) : bodyWork P M u v = bodyWork P M v u := by
  unfold bodyWork
  refine congrArg _ (funext fun k => ?_)
  rw [stressWork_comm]

theorem work_add (u v w : ℕ → ℕ → ℝ) : bodyWork P M u (v + w) = bodyWork P M u v + bodyWork P M u w := by
  unfold bodyWork
  rw [← quadSum_add]
  refine congrArg _ (funext fun k => ?_)
  rw [← stressWork_add]
  refine congrArg _ (funext fun i => funext fun j => ?_)
  simp only [nodalGrad, Pi.add_apply, add_mul, sum_add_distrib]

theorem work_smul (u v : ℕ → ℕ → ℝ) (c : ℝ) : bodyWork P M u (c • v) = c * bodyWork P M u v := by
  unfold bodyWork
  rw [← quadSum_smul]
  refine congrArg _ (funext fun k => ?_)
  rw [← stressWork_smul]
  refine congrArg _ (funext fun i => funext fun j => ?_)
  simp only [nodalGrad, Pi.smul_apply, smul_eq_mul, mul_sum, mul_assoc]

theorem work_congr (u : ℕ → ℕ → ℝ) {v w : ℕ → ℕ → ℝ} (h : ∀ a < M.numNodes, ∀ i < P.dim, v a i = w a i) :
    bodyWork P M u v = bodyWork P M u w := by
  unfold bodyWork
  refine congrArg _ (funext fun k => stressWork_congr _ _ _ _ (fun i hi j => ?_))
  exact sum_congr rfl (fun a ha => by rw [h a (mem_range.mp ha) i hi])

theorem work_congr' (v : ℕ → ℕ → ℝ) {u w : ℕ → ℕ → ℝ} (h : ∀ a < M.numNodes, ∀ i < P.dim, u a i = w a i) :
    bodyWork P M u v = bodyWork P M w v := by
  rw [work_symm, work_congr v h, work_symm]

/-- The work form is linear in its second argument. -/
def workLin (P : Params) (M : Mesh) (u : ℕ → ℕ → ℝ) : (ℕ → ℕ → ℝ) →ₗ[ℝ] ℝ where
  toFun := bodyWork P M u
  map_add' := work_add u
  map_smul' := fun c v => by rw [work_smul]; rfl

theorem work_expand (u v : ℕ → ℕ → ℝ) :
    bodyWork P M u v = ∑ a ∈ range M.numNodes, ∑ i ∈ range P.dim, v a i * nodalForce P M u a i := by
  have h : bodyWork P M u v = workLin P M u (∑ a ∈ range M.numNodes, ∑ i ∈ range P.dim, v a i • unit a i) := by
    refine work_congr u (fun a ha i hi => ?_)
    simp only [Finset.sum_apply, Pi.smul_apply, unit, smul_eq_mul]
    rw [sum_eq_single a, sum_eq_single i]
    · simp
    · intro b _ hb; simp [hb.symm]
    · intro hn; exact absurd (mem_range.mpr hi) hn
    · intro b _ hb; exact sum_eq_zero (fun _ _ => by simp [hb.symm])
    · intro hn; exact absurd (mem_range.mpr ha) hn
  rw [h, map_sum]
  refine sum_congr rfl (fun a _ => ?_)
  rw [map_sum]
  refine sum_congr rfl (fun i _ => ?_)
  rw [map_smul]; rfl

theorem work_nonneg (hE : 0 < P.E) (hnu : 0 ≤ P.nu) (hnu' : P.nu < 1 / 2) (hw : ∀ k, 0 ≤ M.wt k) (u : ℕ → ℕ → ℝ) :
    0 ≤ bodyWork P M u u := by
  have hmu : 0 ≤ shearModulus P.E P.nu := div_nonneg hE.le (by linarith)
  have hlam : 0 ≤ lameFirst P.planeStrain P.E P.nu := by
    unfold lameFirst
    split
    · exact div_nonneg (mul_nonneg hE.le hnu) (mul_nonneg (by linarith) (by linarith))
    · exact div_nonneg (mul_nonneg hE.le hnu) (mul_nonneg (by linarith) (by linarith))
  exact quadSum_nonneg hw (fun k => stressWork_nonneg hmu hlam _)

/-- Energy of a displacement and another one. -/
theorem energy_step (u v : ℕ → ℕ → ℝ) :
    bodyEnergy P M v = bodyEnergy P M u + bodyWork P M u (v - u) + bodyEnergy P M (v - u) := by
  have e : v = u + (v - u) := by abel
  have h : bodyWork P M v v = bodyWork P M u u + 2 * bodyWork P M u (v - u) + bodyWork P M (v - u) (v - u) := by
    conv_lhs => rw [e]
    rw [work_add, work_symm (u + (v - u)) u, work_add, work_symm (u + (v - u)) (v - u), work_add,
      work_symm (v - u) u]
    ring
  unfold bodyEnergy
  rw [h]; ring

/-! ### the callback for the residual -/

theorem mu_eq (P : Params) : P.mu = shearModulus P.E P.nu := rfl

theorem lmbda_eq (P : Params) : P.lmbda = lameFirst P.planeStrain P.E P.nu := rfl

theorem dof_split {g : ℕ} (hg : g < numDofs P M) : g / P.dim < M.numNodes ∧ g % P.dim < P.dim := by
  unfold numDofs at hg
  have hd : 0 < P.dim := Nat.pos_of_ne_zero (fun h => by rw [h, mul_zero] at hg; omega)
  exact ⟨(Nat.div_lt_iff_lt_mul hd).mpr hg, Nat.mod_lt _ hd⟩

theorem dof_lt {a i : ℕ} (ha : a < M.numNodes) (hi : i < P.dim) : P.dim * a + i < numDofs P M := by
  unfold numDofs
  calc P.dim * a + i < P.dim * a + P.dim := by omega
    _ = (a + 1) * P.dim := by ring
    _ ≤ M.numNodes * P.dim := Nat.mul_le_mul_right _ ha

theorem dof_div {a i : ℕ} (hi : i < P.dim) : (P.dim * a + i) / P.dim = a ∧ (P.dim * a + i) % P.dim = i := by
  have hd : 0 < P.dim := by omega
  constructor
  · rw [Nat.mul_add_div hd, Nat.div_eq_of_lt hi, add_zero]
  · rw [Nat.mul_add_mod, Nat.mod_eq_of_lt hi]

theorem basis_grad {g : ℕ} (hg : g < numDofs P M) (k : ℕ) :
    (basis P M g k).grad = nodalGrad M (unit (g / P.dim) (g % P.dim)) k := by
  funext i j
  rw [nodalGrad_unit (dof_split hg).1]; rfl

theorem field_grad (u : ℕ → ℝ) (k : ℕ) :
    (field P M u k).grad = nodalGrad M (fun a i => u (P.dim * a + i)) k := rfl

theorem formResidual_eq (u : ℕ → ℝ) {g : ℕ} (hg : g < numDofs P M) :
    (problem P M).formResidual u g = nodalForce P M (fun a i => u (P.dim * a + i)) (g / P.dim) (g % P.dim) := by
  rw [nodalForce_eq, bodyWork, quadSum_points]
  unfold Problem.formResidual
  refine sum_congr rfl (fun p _ => congrArg List.sum (List.map_congr_left (fun c _ => ?_)))
  have h0 : ((M.points c).map (fun k => M.wt k * dotV P.dim (fun _ => 0) (basis P M g k).val)).sum = 0 := by
    rw [List.sum_eq_zero]
    intro y hy
    obtain ⟨k, _, rfl⟩ := List.mem_map.mp hy
    simp [dotV]
  show cellVec P M c u g = _
  rw [cellVec, h0, sub_zero, quadSum]
  refine congrArg List.sum (List.map_congr_left (fun k _ => ?_))
  rw [elastic_work, basis_grad hg, field_grad, mu_eq, lmbda_eq]

theorem formMatrix_eq (u : ℕ → ℝ) {g j : ℕ} (hg : g < numDofs P M) (hj : j < numDofs P M) :
    (problem P M).formMatrix u g j
      = bodyWork P M (unit (j / P.dim) (j % P.dim)) (unit (g / P.dim) (g % P.dim)) := by
  rw [bodyWork, quadSum_points]
  unfold Problem.formMatrix
  refine sum_congr rfl (fun p _ => congrArg List.sum (List.map_congr_left (fun c _ => ?_)))
  show cellMat P M c u g j = _
  rw [cellMat, quadSum]
  refine congrArg List.sum (List.map_congr_left (fun k _ => ?_))
  rw [elastic_work, basis_grad hg, basis_grad hj, mu_eq, lmbda_eq]

theorem sum_dofs (f : ℕ → ℝ) :
    ∑ g ∈ range (numDofs P M), f g = ∑ a ∈ range M.numNodes, ∑ i ∈ range P.dim, f (P.dim * a + i) := by
  rw [numDofs, ← Coefficients.sum_mul_range]
  exact sum_congr rfl (fun a _ => sum_congr rfl (fun i _ => by rw [mul_comm]))

theorem bcDof_iff (top : ℤ) (g : ℕ) : bcDof P M top g = true ↔ OnFacet M top (g / P.dim) := by
  simp only [bcDof, List.contains_iff_mem, List.mem_flatMap, List.mem_filter, beq_iff_eq, OnFacet]
  constructor
  · rintro ⟨⟨f, v⟩, ⟨ht, rfl⟩, ha⟩; exact ⟨f, ht, ha⟩
  · rintro ⟨f, ht, ha⟩; exact ⟨⟨f, top⟩, ⟨ht, rfl⟩, ha⟩

/-- The residual SNES sees at an unconstrained dof is the nodal force of the displacement with the prescribed values
put in. -/
theorem residual_free (top : ℤ) (x : DVec) {g : ℕ} (hg : g < numDofs P M) (hb : ¬ OnFacet M top (g / P.dim)) :
    snesF (problem P M) (numDofs P M) (bcDof P M top) (bcValue P) x (M.owner g) g
      = nodalForce P M (withPrescribed P M top (nodal P M x)) (g / P.dim) (g % P.dim) := by
  have h := C107_residual (problem P M) (numDofs P M) (bcDof P M top) (bcValue P) x g
  rw [if_neg (by rw [bcDof_iff]; exact hb), formResidual_eq _ hg] at h
  refine Eq.trans h ?_
  have e1 : nodalForce P M (fun a i => (problem P M).owned x (P.dim * a + i)) (g / P.dim) (g % P.dim)
      = bodyWork P M (unit (g / P.dim) (g % P.dim)) (nodal P M x) := work_symm _ _
  have e2 : ∑ j ∈ range (numDofs P M), (if bcDof P M top j = true
        then (problem P M).formMatrix ((problem P M).owned x) g j * (bcValue P j - (problem P M).owned x j) else 0)
      = bodyWork P M (unit (g / P.dim) (g % P.dim)) (withPrescribed P M top (nodal P M x) - nodal P M x) := by
    rw [work_expand, sum_dofs]
    refine sum_congr rfl (fun a ha => sum_congr rfl (fun i hi => ?_))
    have ha := mem_range.mp ha
    have hi := mem_range.mp hi
    obtain ⟨d1, d2⟩ := dof_div (P := P) (a := a) hi
    by_cases hf : OnFacet M top a
    · rw [if_pos (by rw [bcDof_iff, d1]; exact hf), formMatrix_eq _ hg (dof_lt ha hi), d1, d2, nodalForce_eq,
        work_symm, mul_comm, Pi.sub_apply, Pi.sub_apply, withPrescribed, if_pos hf, bcValue, d2]
      rfl
    · rw [if_neg (by rw [bcDof_iff, d1]; exact hf), Pi.sub_apply, Pi.sub_apply, withPrescribed, if_neg hf]
      simp
  rw [e1, e2, ← work_add, nodalForce_eq, work_symm _ (unit _ _)]
  congr 1
  abel

theorem residual_bc (top : ℤ) (x : DVec) {g : ℕ} (hb : OnFacet M top (g / P.dim)) :
    snesF (problem P M) (numDofs P M) (bcDof P M top) (bcValue P) x (M.owner g) g
      = x (M.owner g) g - (if g % P.dim = P.dim - 1 then P.disp else 0) := by
  have h := C107_residual (problem P M) (numDofs P M) (bcDof P M top) (bcValue P) x g
  rw [if_pos ((bcDof_iff top g).mpr hb)] at h
  exact h

/-! ### the solver -/

theorem bounded_ge {lo up x F tol : ℝ} (h : |boundedResidual lo up x F| ≤ tol) :
    up - tol ≤ x ∨ lo - tol ≤ x ∧ -tol ≤ F := by
  have := (abs_le.mp h).1
  unfold boundedResidual at this
  rcases le_max_iff.mp this with h | h
  · exact Or.inl (by linarith)
  · obtain ⟨h1, h2⟩ := le_min_iff.mp h
    exact Or.inr ⟨by linarith, h2⟩

theorem bounded_le {lo up x F tol : ℝ} (h : |boundedResidual lo up x F| ≤ tol) :
    x ≤ up + tol ∧ (x ≤ lo + tol ∨ F ≤ tol) := by
  have := (abs_le.mp h).2
  unfold boundedResidual at this
  obtain ⟨h1, h2⟩ := max_le_iff.mp this
  refine ⟨by linarith, ?_⟩
  rcases min_le_iff.mp h2 with h | h
  · exact Or.inl (by linarith)
  · exact Or.inr h

theorem bounded_value {lo up x y tol : ℝ} (h : |boundedResidual lo up x (x - y)| ≤ tol) (hlo : lo ≤ y) (hup : y ≤ up) :
    |x - y| ≤ tol := by
  unfold boundedResidual at h
  rwa [min_eq_right (by linarith), max_eq_right (by linarith)] at h

/-- A step to a point within the bounds gains no energy in first order. -/
theorem bounded_step {lo up x F y tol : ℝ} (h : |boundedResidual lo up x F| ≤ tol) (hlo : lo ≤ y) (hup : y ≤ up) :
    -(tol * (|y - x| + |F|)) ≤ F * (y - x) := by
  have h0 : 0 ≤ tol := (abs_nonneg _).trans h
  have hy := abs_nonneg (y - x)
  have hF := abs_nonneg F
  rcases le_or_gt |F| tol with hs | hs
  · have h1 : -(|F| * |y - x|) ≤ F * (y - x) := by rw [← abs_mul]; exact neg_abs_le _
    nlinarith
  · rcases lt_or_ge F 0 with hn | hn
    · have hx : up - tol ≤ x := by
        rcases bounded_ge h with h1 | h1
        · exact h1
        · rw [abs_of_neg hn] at hs; linarith [h1.2]
      rw [abs_of_neg hn] at hs ⊢
      nlinarith
    · rw [abs_of_nonneg hn] at hs ⊢
      have hx : x ≤ lo + tol := by
        rcases (bounded_le h).2 with h1 | h1
        · exact h1
        · linarith
      nlinarith

variable {top bottom : ℤ} {solve : Solver} {tol : ℝ} {v : DVec}

theorem lower_last {a : ℕ} (hd : 0 < P.dim) :
    lower P M (P.dim * a + (P.dim - 1)) = -P.planeLoc - M.x a (P.dim - 1) := by
  obtain ⟨d1, d2⟩ := dof_div (P := P) (a := a) (show P.dim - 1 < P.dim by omega)
  rw [lower, d1, d2, Meshing.umin, Meshing.lims, if_pos (by omega)]

theorem lower_side {a i : ℕ} (hi : i < P.dim - 1) : lower P M (P.dim * a + i) = -10000000 - M.x a i := by
  obtain ⟨d1, d2⟩ := dof_div (P := P) (a := a) (show i < P.dim by omega)
  rw [lower, d1, d2, Meshing.umin, Meshing.lims, if_neg (by omega), if_pos (by omega)]

theorem upper_eq {a i : ℕ} (hi : i < P.dim) : upper P M (P.dim * a + i) = 10000000 - M.x a i := by
  obtain ⟨d1, d2⟩ := dof_div (P := P) (a := a) hi
  rw [upper, d1, d2, Meshing.umax, Meshing.lims, if_neg (by omega), if_neg (by omega)]

theorem above_bounds {u : ℕ → ℕ → ℝ} {a i : ℕ} (h : Above P M u a) (hi : i < P.dim) :
    lower P M (P.dim * a + i) ≤ u a i ∧ u a i ≤ upper P M (P.dim * a + i) := by
  obtain ⟨h1, h2, h3⟩ := h
  rw [upper_eq hi]
  by_cases hl : i = P.dim - 1
  · subst hl
    rw [lower_last (by omega)]
    constructor <;> linarith
  · rw [lower_side (by omega)]
    have := abs_le.mp (h3 i (by omega))
    constructor <;> linarith

open Classical in
/-- What a successful run gives. -/
theorem run_ok (h : snesSolver P M top bottom solve = .ok v) (hs : SolvesWithBounds M.owner (numDofs P M) tol solve) :
    (P.dim = 2 ∨ P.dim = 3) ∧ ∀ a < M.numNodes, ∀ i < P.dim,
      |boundedResidual (lower P M (P.dim * a + i)) (upper P M (P.dim * a + i)) (nodal P M v a i)
        (if OnFacet M top a then nodal P M v a i - (if i = P.dim - 1 then P.disp else 0)
          else nodalForce P M (withPrescribed P M top (nodal P M v)) a i)| ≤ tol := by
  unfold snesSolver at h
  simp only at h
  split_ifs at h with h1 h2 h3 h4 h5
  have hdim : P.dim = 2 ∨ P.dim = 3 := by tauto
  refine ⟨hdim, fun a ha i hi => ?_⟩
  have hv := Except.ok.inj h
  set r := solve (snesF (problem P M) (numDofs P M) (bcDof P M top) (bcValue P))
    (fun x => snesJ (problem P M) (bcDof P M top) (fun g => x ((problem P M).owner g) g))
    (lower P M) (upper P M) (fun _ => initial P) with hr
  have hreason : r.1 = 2 ∨ r.1 = 3 := by omega
  have := hs _ _ _ _ _ hreason (P.dim * a + i) (dof_lt ha hi)
  rw [← hr] at this
  have hn : nodal P M v = nodal P M r.2 := by
    rw [← hv]; rfl
  obtain ⟨d1, d2⟩ := dof_div (P := P) (a := a) hi
  by_cases hf : OnFacet M top a
  · rw [residual_bc top r.2 (by rw [d1]; exact hf), d2] at this
    rw [if_pos hf, hn]; exact this
  · rw [residual_free top r.2 (dof_lt ha hi) (by rw [d1]; exact hf), d1, d2] at this
    rw [if_neg hf, hn]; exact this

end

end Verif.Snes
