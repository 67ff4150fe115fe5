import Verif.Lemmas.UflForm

/-! Newton's method in `nitsche_ufl` and `nitsche_rigid_surface`. -/

namespace Verif.UflDriver

open Finset Verif.OneSided Verif.Snes Verif.Scalars Verif.Lemmas Spec

noncomputable section

variable {P : Params} {M : Mesh} {Q : Quad} {S : Support} {Fm : Forms}

/-- Forms and boundary conditions are those of the specification. -/
structure Fits (P : Params) (M : Mesh) (Q : Quad) (S : Support) (Fm : Forms) : Prop where
  dim : 0 < P.dim
  F : ∀ x, ∀ d < numDofs P M, Fm.F (field P M x) (basis P M d) = totalWork P M Q S (byNode P x) (unitDof P d)
  J : ∀ x, ∀ d < numDofs P M, ∀ c < numDofs P M, Fm.J (field P M x) (basis P M c) (basis P M d)
    = totalTangent P M Q S (byNode P x) (unitDof P c) (unitDof P d)
  bc : ∀ a, ∀ i < P.dim, Fm.bc (P.dim * a + i) = (S.fixed a).map (fun g => g i)

/-! ### the forms -/

/-- Value and gradient of a displacement at a point. -/
def valOf (M : Mesh) (u : ℕ → ℕ → ℝ) (k : ℕ) : Val := ⟨nodalValue M u k, nodalGrad M u k⟩

theorem field_valOf (x : ℕ → ℝ) (k : ℕ) : field P M x k = valOf M (byNode P x) k := rfl

theorem unitDof_apply {d : ℕ} (a i : ℕ) (hi : i < P.dim) :
    unitDof P d a i = if a = d / P.dim ∧ i = d % P.dim then 1 else 0 := by
  simp only [unitDof, byNode, Pi.single_apply]
  have hd : 0 < P.dim := by omega
  refine if_congr ⟨fun h => ?_, fun ⟨h1, h2⟩ => ?_⟩ rfl rfl
  · rw [← h, Nat.mul_add_div hd, Nat.div_eq_of_lt hi, Nat.mul_add_mod, Nat.mod_eq_of_lt hi]; simp
  · rw [h1, h2]; exact Nat.div_add_mod d P.dim

theorem div_lt {d : ℕ} (h : d < numDofs P M) : d / P.dim < M.numNodes :=
  Nat.div_lt_of_lt_mul (by unfold numDofs at h; rwa [mul_comm] at h)

/-- Two values agree in the components of space. -/
def Agree (n : ℕ) (v w : Val) : Prop := ∀ i < n, v.val i = w.val i ∧ ∀ j, v.grad i j = w.grad i j

theorem basis_agree {d : ℕ} (h : d < numDofs P M) (k : ℕ) : Agree P.dim (basis P M d k) (valOf M (unitDof P d) k) := by
  intro i hi
  have key : ∀ f : ℕ → ℝ, ∑ a ∈ range M.numNodes, unitDof P d a i * f a = if i = d % P.dim then f (d / P.dim) else 0 := by
    intro f
    rw [sum_eq_single (d / P.dim)]
    · rw [unitDof_apply _ _ hi]; by_cases hh : i = d % P.dim <;> simp [hh]
    · intro a _ ha; rw [unitDof_apply _ _ hi]; simp [ha]
    · intro hh; exact absurd (mem_range.mpr (div_lt h)) hh
  exact ⟨(key (fun a => M.phi k a)).symm, fun j => (key (fun a => M.dphi k a j)).symm⟩

theorem stress_agree {mu lam : ℝ} {n : ℕ} {v w : Val} (h : Agree n v w) {i j : ℕ} (hi : i < n) (hj : j < n) :
    stress n mu lam v.grad i j = stress n mu lam w.grad i j := by
  unfold stress strain
  rw [(h i hi).2, (h j hj).2]
  congr 2
  exact congrArg _ (sum_congr rfl (fun k hk => by rw [(h k (mem_range.mp hk)).2]))

theorem traction_agree {mu lam : ℝ} {n : ℕ} {v w : Val} (h : Agree n v w) (m : ℕ → ℝ) {i : ℕ} (hi : i < n) :
    traction n mu lam v.grad m i = traction n mu lam w.grad m i :=
  sum_congr rfl (fun j hj => by rw [stress_agree h hi (mem_range.mp hj)])

theorem stressWork_agree {mu lam : ℝ} {n : ℕ} {u v w : Val} (h : Agree n v w) :
    stressWork n mu lam u.grad v.grad = stressWork n mu lam u.grad w.grad := by
  refine sum_congr rfl (fun i hi => sum_congr rfl (fun j hj => ?_))
  unfold strain
  rw [(h i (mem_range.mp hi)).2, (h j (mem_range.mp hj)).2]

theorem half_slope (q : ℝ) : 0.5 * (1 - uflSign q) = PL.slope q := by
  unfold uflSign PL.slope
  split_ifs <;> norm_num

theorem rMinus_min (q : ℝ) : pyRMinus q = min 0 q := by
  unfold pyRMinus
  rcases le_total q 0 with h | h
  · rw [min_eq_right h, abs_of_nonpos h]; ring
  · rw [min_eq_left h, abs_of_nonneg h]; ring

theorem mu_spec (P : Params) : P.mu = shearModulus P.E P.nu := rfl

theorem lmbda_spec (P : Params) : P.lmbda = lameFirst P.planeStrain P.E P.nu := rfl

/-- The contact terms of the residual. -/
theorem contactF_eq (hd : 0 < P.dim) (n : ℕ → ℝ) (gs g : ℝ) (u : Val) {v w : Val} (h : Agree P.dim v w) :
    contactF P n gs g u v =
      -(P.theta / gs) * approach P.dim (traction P.dim (shearModulus P.E P.nu) (lameFirst P.planeStrain P.E P.nu) u.grad n) * approach P.dim (traction P.dim (shearModulus P.E P.nu) (lameFirst P.planeStrain P.E P.nu) w.grad n)
      + 1 / gs * min 0 (approach P.dim (traction P.dim (shearModulus P.E P.nu) (lameFirst P.planeStrain P.E P.nu) u.grad n) + gs * (g - approach P.dim u.val))
        * (P.theta * approach P.dim (traction P.dim (shearModulus P.E P.nu) (lameFirst P.planeStrain P.E P.nu) w.grad n) - gs * approach P.dim w.val) := by
  unfold contactF
  rw [sigmaN_eq hd, sigmaN_eq hd, mu_spec, lmbda_spec, dotV_n2 hd, dotV_n2 hd, rMinus_min]
  have e1 : approach P.dim (traction P.dim (shearModulus P.E P.nu) (lameFirst P.planeStrain P.E P.nu) v.grad n) = approach P.dim (traction P.dim (shearModulus P.E P.nu) (lameFirst P.planeStrain P.E P.nu) w.grad n) := by
    unfold approach; rw [traction_agree h n (by omega)]
  have e2 : approach P.dim v.val = approach P.dim w.val := by
    unfold approach; rw [(h _ (by omega)).1]
  rw [e1, e2]; ring

theorem contactJ_eq (hd : 0 < P.dim) (n : ℕ → ℝ) (gs g : ℝ) (u : Val) {du dw v w : Val} (h : Agree P.dim v w)
    (h' : Agree P.dim du dw) : contactJ P n gs g u du v =
      -(P.theta / gs) * approach P.dim (traction P.dim (shearModulus P.E P.nu) (lameFirst P.planeStrain P.E P.nu) dw.grad n) * approach P.dim (traction P.dim (shearModulus P.E P.nu) (lameFirst P.planeStrain P.E P.nu) w.grad n)
      + 1 / gs * PL.slope (approach P.dim (traction P.dim (shearModulus P.E P.nu) (lameFirst P.planeStrain P.E P.nu) u.grad n) + gs * (g - approach P.dim u.val))
        * (approach P.dim (traction P.dim (shearModulus P.E P.nu) (lameFirst P.planeStrain P.E P.nu) dw.grad n) - gs * approach P.dim dw.val)
        * (P.theta * approach P.dim (traction P.dim (shearModulus P.E P.nu) (lameFirst P.planeStrain P.E P.nu) w.grad n) - gs * approach P.dim w.val) := by
  unfold contactJ
  simp only
  rw [sigmaN_eq hd, sigmaN_eq hd, sigmaN_eq hd, mu_spec, lmbda_spec, dotV_n2 hd, dotV_n2 hd, dotV_n2 hd, ← half_slope]
  have e1 : ∀ {v w : Val}, Agree P.dim v w →
      approach P.dim (traction P.dim (shearModulus P.E P.nu) (lameFirst P.planeStrain P.E P.nu) v.grad n) = approach P.dim (traction P.dim (shearModulus P.E P.nu) (lameFirst P.planeStrain P.E P.nu) w.grad n) := by
    intro v w h
    unfold approach; rw [traction_agree h n (by omega)]
  have e2 : ∀ {v w : Val}, Agree P.dim v w → approach P.dim v.val = approach P.dim w.val := by
    intro v w h
    unfold approach; rw [(h _ (by omega)).1]
  rw [e1 h, e2 h, e1 h', e2 h']; ring

theorem dirichletF_eq (n ud : ℕ → ℝ) (pen : ℝ) (u : Val) {v w : Val} (h : Agree P.dim v w) (ud' : ℕ → ℝ)
    (hud : ∀ i < P.dim, ud i = ud' i) : dirichletF P n ud pen u v =
      -∑ i ∈ range P.dim, traction P.dim (shearModulus P.E P.nu) (lameFirst P.planeStrain P.E P.nu) u.grad n i * w.val i
      - P.theta * ∑ i ∈ range P.dim, traction P.dim (shearModulus P.E P.nu) (lameFirst P.planeStrain P.E P.nu) w.grad n i * (u.val i - ud' i)
      + pen * ∑ i ∈ range P.dim, (u.val i - ud' i) * w.val i := by
  unfold dirichletF dotV
  rw [sigN_traction, mu_spec, lmbda_spec]
  have e1 : ∑ i ∈ range P.dim, traction P.dim (shearModulus P.E P.nu) (lameFirst P.planeStrain P.E P.nu) u.grad n i * v.val i
      = ∑ i ∈ range P.dim, traction P.dim (shearModulus P.E P.nu) (lameFirst P.planeStrain P.E P.nu) u.grad n i * w.val i :=
    sum_congr rfl (fun i hi => by rw [(h i (mem_range.mp hi)).1])
  have e2 : ∑ i ∈ range P.dim, traction P.dim (shearModulus P.E P.nu) (lameFirst P.planeStrain P.E P.nu) v.grad n i * (u.val i - ud i)
      = ∑ i ∈ range P.dim, traction P.dim (shearModulus P.E P.nu) (lameFirst P.planeStrain P.E P.nu) w.grad n i * (u.val i - ud' i) :=
    sum_congr rfl (fun i hi => by rw [traction_agree h n (mem_range.mp hi), hud i (mem_range.mp hi)])
  have e3 : ∑ i ∈ range P.dim, (u.val i - ud i) * v.val i = ∑ i ∈ range P.dim, (u.val i - ud' i) * w.val i :=
    sum_congr rfl (fun i hi => by rw [(h i (mem_range.mp hi)).1, hud i (mem_range.mp hi)])
  rw [e1, e2, e3]

theorem dirichletJ_eq (n : ℕ → ℝ) (pen : ℝ) {du dw v w : Val} (h : Agree P.dim v w) (h' : Agree P.dim du dw) :
    dirichletJ P n pen du v =
      -∑ i ∈ range P.dim, traction P.dim (shearModulus P.E P.nu) (lameFirst P.planeStrain P.E P.nu) dw.grad n i * w.val i
      - P.theta * ∑ i ∈ range P.dim, traction P.dim (shearModulus P.E P.nu) (lameFirst P.planeStrain P.E P.nu) w.grad n i * dw.val i
      + pen * ∑ i ∈ range P.dim, dw.val i * w.val i := by
  unfold dirichletJ dotV
  rw [sigN_traction, mu_spec, lmbda_spec]
  have e1 : ∑ i ∈ range P.dim, traction P.dim (shearModulus P.E P.nu) (lameFirst P.planeStrain P.E P.nu) du.grad n i * v.val i
      = ∑ i ∈ range P.dim, traction P.dim (shearModulus P.E P.nu) (lameFirst P.planeStrain P.E P.nu) dw.grad n i * w.val i :=
    sum_congr rfl (fun i hi => by rw [(h i (mem_range.mp hi)).1, traction_agree h' n (mem_range.mp hi)])
  have e2 : ∑ i ∈ range P.dim, traction P.dim (shearModulus P.E P.nu) (lameFirst P.planeStrain P.E P.nu) v.grad n i * du.val i
      = ∑ i ∈ range P.dim, traction P.dim (shearModulus P.E P.nu) (lameFirst P.planeStrain P.E P.nu) w.grad n i * dw.val i :=
    sum_congr rfl (fun i hi => by rw [traction_agree h n (mem_range.mp hi), (h' i (mem_range.mp hi)).1])
  have e3 : ∑ i ∈ range P.dim, du.val i * v.val i = ∑ i ∈ range P.dim, dw.val i * w.val i :=
    sum_congr rfl (fun i hi => by rw [(h i (mem_range.mp hi)).1, (h' i (mem_range.mp hi)).1])
  rw [e1, e2, e3]

theorem elastic_eq (u : Val) {v w : Val} (h : Agree P.dim v w) :
    elastic P u v = stressWork P.dim (shearModulus P.E P.nu) (lameFirst P.planeStrain P.E P.nu) u.grad w.grad := by
  rw [elastic_work, mu_spec, lmbda_spec, stressWork_agree h]

theorem elastic_eq' {du dw v w : Val} (h : Agree P.dim v w) (h' : Agree P.dim du dw) :
    elastic P du v = stressWork P.dim (shearModulus P.E P.nu) (lameFirst P.planeStrain P.E P.nu) dw.grad w.grad := by
  rw [elastic_work, mu_spec, lmbda_spec, stressWork_agree h, stressWork_comm, stressWork_agree h', stressWork_comm]

theorem integral_zero' (Q : Quad) (ks : List ℕ) (v : ℕ → Val) :
    integral Q ks (fun k => dotV P.dim (fun _ => 0) (v k).val) = 0 := by
  have : (fun k => dotV P.dim (fun _ => 0) (v k).val) = fun _ => 0 := by
    funext k; simp [dotV]
  rw [this, integral_zero]

theorem inner_eq (u : ℕ → ℕ → ℝ) (U : Field) (hU : ∀ k, U k = valOf M u k) {v : Field} {w : ℕ → ℕ → ℝ}
    (h : ∀ k, Agree P.dim (v k) (valOf M w k)) :
    integral Q Q.cells (fun k => elastic P (U k) (v k)) = innerWork P M Q u w := by
  unfold innerWork
  rw [← integral_quadSum]
  refine integral_congr Q (fun k _ => ?_)
  rw [elastic_eq _ (h k), hU k]
  rfl

theorem inner_eq' {u w : ℕ → ℕ → ℝ} {U v : Field} (h' : ∀ k, Agree P.dim (U k) (valOf M u k))
    (h : ∀ k, Agree P.dim (v k) (valOf M w k)) :
    integral Q Q.cells (fun k => elastic P (U k) (v k)) = innerWork P M Q u w := by
  unfold innerWork
  rw [← integral_quadSum]
  refine integral_congr Q (fun k _ => ?_)
  rw [elastic_eq' (h k) (h' k)]
  rfl

theorem pushed_eq (hd : 0 < P.dim) (i : ℕ) : uD P i = pushed P i := by
  unfold uD pushed
  exact if_congr (by omega) rfl rfl

theorem onFacet_iff (top : ℤ) {a i : ℕ} (hi : i < P.dim) : bcDof P M top (P.dim * a + i) = true ↔ OnFacet M top a := by
  have hd : 0 < P.dim := by omega
  unfold bcDof OnFacet
  rw [Nat.mul_add_div hd, Nat.div_eq_of_lt hi, add_zero, List.contains_iff_mem]
  simp only [List.mem_flatMap, List.mem_filter, beq_iff_eq, Prod.exists]
  constructor
  · rintro ⟨f, v, ⟨h1, h2⟩, h3⟩
    subst h2
    exact ⟨f, h1, h3⟩
  · rintro ⟨f, h1, h2⟩
    exact ⟨f, top, ⟨h1, rfl⟩, h2⟩

theorem bcValue_eq {a i : ℕ} (hi : i < P.dim) : bcValue P (P.dim * a + i) = pushed P i := by
  unfold bcValue
  rw [Nat.mul_add_mod, Nat.mod_eq_of_lt hi, pushed_eq (by omega)]

theorem ufl_F (hd : 0 < P.dim) (top : ℤ) (x : ℕ → ℝ) (d : ℕ) (hlt : d < numDofs P M) :
    (uflForms P M Q top).F (field P M x) (basis P M d) = totalWork P M Q (abovePlane P M Q top) (byNode P x) (unitDof P d) := by
  have hA := fun k => basis_agree hlt k
  show uflF P Q (field P M x) (basis P M d) = _
  unfold uflF
  rw [integral_zero', sub_zero]
  have e1 : integral Q Q.cells (fun k => elastic P (field P M x k) (basis P M d k)) = innerWork P M Q (byNode P x) (unitDof P d) :=
    inner_eq _ _ (fun _ => rfl) hA
  have e2 : integral Q Q.contact (fun k => contactF P (Q.n k) (uflGamma P Q k) (Q.x k (P.dim - 1) + P.planeLoc)
      (field P M x k) (basis P M d k)) = obstacleWork P M Q (abovePlane P M Q top) (byNode P x) (unitDof P d) := by
    refine integral_congr Q (fun k _ => (contactF_eq hd _ _ _ _ (hA k)).trans ?_)
    rw [show Q.x k (P.dim - 1) + P.planeLoc = Q.x k (P.dim - 1) - -P.planeLoc by ring]
    rfl
  rw [e1, e2]
  unfold totalWork
  have e3 : (if P.nitscheBc = true then integral Q Q.dirichlet (fun k =>
        dirichletF P (Q.n k) (uD P) (uflGamma P Q k / Q.diam k) (field P M x k) (basis P M d k)) else 0)
      = heldWork P M Q (abovePlane P M Q top) 1 (byNode P x) (unitDof P d) := by
    unfold heldWork abovePlane
    split
    · simp only [List.map_cons, List.map_nil, List.sum_cons, List.sum_nil, add_zero]
      refine integral_congr Q (fun k _ => (dirichletF_eq _ _ _ _ (hA k) (fun i => 1 * pushed P i)
        (fun i _ => by rw [pushed_eq hd, one_mul])).trans ?_)
      have : uflGamma P Q k / Q.diam k = P.gamma * P.E / Q.diam k ^ 2 := by
        unfold uflGamma; rw [div_div, sq]
      rw [this]
      rfl
    · simp
  rw [e3]; ring

theorem ufl_J (hd : 0 < P.dim) (top : ℤ) (x : ℕ → ℝ) (d : ℕ) (hlt : d < numDofs P M) (c : ℕ) (hlt' : c < numDofs P M) :
    (uflForms P M Q top).J (field P M x) (basis P M c) (basis P M d)
      = totalTangent P M Q (abovePlane P M Q top) (byNode P x) (unitDof P c) (unitDof P d) := by
  have hA := fun k => basis_agree hlt k
  have hB := fun k => basis_agree hlt' k
  show uflJ P Q (field P M x) (basis P M c) (basis P M d) = _
  unfold uflJ totalTangent linWork
  have e1 : integral Q Q.cells (fun k => elastic P (basis P M c k) (basis P M d k)) = innerWork P M Q (unitDof P c) (unitDof P d) :=
    inner_eq' hB hA
  have e2 : integral Q Q.contact (fun k => contactJ P (Q.n k) (uflGamma P Q k) (Q.x k (P.dim - 1) + P.planeLoc)
      (field P M x k) (basis P M c k) (basis P M d k)) =
      quadSum Q.contact Q.wt (fun k => -(P.theta / (abovePlane P M Q top).stiff k) * normalStress P M Q (unitDof P c) k * normalStress P M Q (unitDof P d) k)
      + quadSum Q.contact Q.wt (fun k => 1 / (abovePlane P M Q top).stiff k * PL.slope (pressed P M Q (abovePlane P M Q top) (byNode P x) k)
  * (normalStress P M Q (unitDof P c) k - (abovePlane P M Q top).stiff k * normalMove P M (unitDof P c) k)
  * (P.theta * normalStress P M Q (unitDof P d) k - (abovePlane P M Q top).stiff k * normalMove P M (unitDof P d) k)) := by
    rw [← quadSum_add]
    refine integral_congr Q (fun k _ => (contactJ_eq hd _ _ _ _ (hA k) (hB k)).trans ?_)
    rw [show Q.x k (P.dim - 1) + P.planeLoc = Q.x k (P.dim - 1) - -P.planeLoc by ring]
    rfl
  rw [e1, e2]
  have e3 : (if P.nitscheBc = true then integral Q Q.dirichlet (fun k =>
        dirichletJ P (Q.n k) (uflGamma P Q k / Q.diam k) (basis P M c k) (basis P M d k)) else 0)
      = heldWork P M Q (abovePlane P M Q top) 0 (unitDof P c) (unitDof P d) := by
    unfold heldWork abovePlane
    split
    · simp only [List.map_cons, List.map_nil, List.sum_cons, List.sum_nil, add_zero, zero_mul, sub_zero]
      refine integral_congr Q (fun k _ => (dirichletJ_eq _ _ (hA k) (hB k)).trans ?_)
      have : uflGamma P Q k / Q.diam k = P.gamma * P.E / Q.diam k ^ 2 := by
        unfold uflGamma; rw [div_div, sq]
      rw [this]
      rfl
    · simp
  rw [e3]; ring

theorem ufl_bc (top : ℤ) (a i : ℕ) (hi : i < P.dim) :
    (uflForms P M Q top).bc (P.dim * a + i) = ((abovePlane P M Q top).fixed a).map (fun g => g i) := by
  show uflBc P M top (P.dim * a + i) = _
  unfold uflBc abovePlane
  have hb := onFacet_iff (P := P) (M := M) top (a := a) hi
  by_cases h1 : P.nitscheBc = true
  · simp [h1]
  · by_cases h2 : OnFacet M top a
    · simp [h1, h2, bcValue_eq hi, hb.mpr h2]
    · have : bcDof P M top (P.dim * a + i) = false := by simpa using fun h => h2 (hb.mp h)
      simp [h1, h2, this]

theorem fits_ufl (hd : 0 < P.dim) (top : ℤ) : Fits P M Q (abovePlane P M Q top) (uflForms P M Q top) :=
  ⟨hd, ufl_F hd top, ufl_J hd top, ufl_bc top⟩

theorem rigid_F (hd : 0 < P.dim) (top rigid : ℤ) (x : ℕ → ℝ) (d : ℕ) (hlt : d < numDofs P M) :
    (rigidForms P M Q top rigid).F (field P M x) (basis P M d) = totalWork P M Q (aboveSurface P M Q top rigid) (byNode P x) (unitDof P d) := by
  have hA := fun k => basis_agree hlt k
  show rigidF P Q (field P M x) (basis P M d) = _
  unfold rigidF
  have e1 : integral Q Q.cells (fun k => elastic P (field P M x k) (basis P M d k)) = innerWork P M Q (byNode P x) (unitDof P d) :=
    inner_eq _ _ (fun _ => rfl) hA
  have e2 : integral Q Q.contact (fun k => contactF P (Q.n k) (rigidGamma P Q k) (dotV P.dim (Q.gap k) (n2 P.dim))
      (field P M x k) (basis P M d k)) = obstacleWork P M Q (aboveSurface P M Q top rigid) (byNode P x) (unitDof P d) := by
    refine integral_congr Q (fun k _ => (contactF_eq hd _ _ _ _ (hA k)).trans ?_)
    rw [dotV_n2 hd]
    rfl
  rw [e1, e2]
  unfold totalWork
  have e3 : (if P.nitscheBc = true then integral Q Q.dirichlet (fun k =>
        dirichletF P (Q.n k) (uD P) (P.E * P.gamma / Q.circ k) (field P M x k) (basis P M d k))
        + integral Q Q.rigid (fun k =>
        dirichletF P (Q.n k) (fun _ => 0) (P.E * P.gamma / Q.circ k) (field P M x k) (basis P M d k)) else 0)
      = heldWork P M Q (aboveSurface P M Q top rigid) 1 (byNode P x) (unitDof P d) := by
    unfold heldWork aboveSurface
    split
    · simp only [List.map_cons, List.map_nil, List.sum_cons, List.sum_nil, add_zero]
      refine congrArg₂ (· + ·) (integral_congr Q (fun k _ => (dirichletF_eq _ _ _ _ (hA k) (fun i => 1 * pushed P i)
        (fun i _ => by rw [pushed_eq hd, one_mul])).trans ?_)) (integral_congr Q (fun k _ => (dirichletF_eq _ _ _ _ (hA k)
        (fun i => 1 * 0) (fun i _ => by rw [mul_zero])).trans ?_))
      · rw [mul_comm P.E P.gamma]
        rfl
      · rw [mul_comm P.E P.gamma]
        rfl
    · simp
  rw [e3]

theorem rigid_J (hd : 0 < P.dim) (top rigid : ℤ) (x : ℕ → ℝ) (d : ℕ) (hlt : d < numDofs P M) (c : ℕ) (hlt' : c < numDofs P M) :
    (rigidForms P M Q top rigid).J (field P M x) (basis P M c) (basis P M d)
      = totalTangent P M Q (aboveSurface P M Q top rigid) (byNode P x) (unitDof P c) (unitDof P d) := by
  have hA := fun k => basis_agree hlt k
  have hB := fun k => basis_agree hlt' k
  show rigidJ P Q (field P M x) (basis P M c) (basis P M d) = _
  unfold rigidJ totalTangent linWork
  have e1 : integral Q Q.cells (fun k => elastic P (basis P M c k) (basis P M d k)) = innerWork P M Q (unitDof P c) (unitDof P d) :=
    inner_eq' hB hA
  have e2 : integral Q Q.contact (fun k => contactJ P (Q.n k) (rigidGamma P Q k) (dotV P.dim (Q.gap k) (n2 P.dim))
      (field P M x k) (basis P M c k) (basis P M d k)) =
      quadSum Q.contact Q.wt (fun k => -(P.theta / (aboveSurface P M Q top rigid).stiff k) * normalStress P M Q (unitDof P c) k * normalStress P M Q (unitDof P d) k)
      + quadSum Q.contact Q.wt (fun k => 1 / (aboveSurface P M Q top rigid).stiff k * PL.slope (pressed P M Q (aboveSurface P M Q top rigid) (byNode P x) k)
  * (normalStress P M Q (unitDof P c) k - (aboveSurface P M Q top rigid).stiff k * normalMove P M (unitDof P c) k)
  * (P.theta * normalStress P M Q (unitDof P d) k - (aboveSurface P M Q top rigid).stiff k * normalMove P M (unitDof P d) k)) := by
    rw [← quadSum_add]
    refine integral_congr Q (fun k _ => (contactJ_eq hd _ _ _ _ (hA k) (hB k)).trans ?_)
    rw [dotV_n2 hd]
    rfl
  rw [e1, e2]
  have e3 : (if P.nitscheBc = true then integral Q Q.dirichlet (fun k =>
        dirichletJ P (Q.n k) (P.E * P.gamma / Q.circ k) (basis P M c k) (basis P M d k))
        + integral Q Q.rigid (fun k =>
        dirichletJ P (Q.n k) (P.E * P.gamma / Q.circ k) (basis P M c k) (basis P M d k)) else 0)
      = heldWork P M Q (aboveSurface P M Q top rigid) 0 (unitDof P c) (unitDof P d) := by
    unfold heldWork aboveSurface
    split
    · simp only [List.map_cons, List.map_nil, List.sum_cons, List.sum_nil, add_zero, zero_mul, sub_zero]
      refine congrArg₂ (· + ·) (integral_congr Q (fun k _ => (dirichletJ_eq _ _ (hA k) (hB k)).trans ?_))
        (integral_congr Q (fun k _ => (dirichletJ_eq _ _ (hA k) (hB k)).trans ?_))
      · rw [mul_comm P.E P.gamma]
        rfl
      · rw [mul_comm P.E P.gamma]
        rfl
    · simp
  rw [e3]; ring

theorem rigid_bc (top rigid : ℤ) (a i : ℕ) (hi : i < P.dim) :
    (rigidForms P M Q top rigid).bc (P.dim * a + i) = ((aboveSurface P M Q top rigid).fixed a).map (fun g => g i) := by
  show rigidBc P M top rigid (P.dim * a + i) = _
  unfold rigidBc aboveSurface
  have hb := fun t => onFacet_iff (P := P) (M := M) t (a := a) hi
  by_cases h1 : P.nitscheBc = true
  · simp [h1]
  · by_cases h2 : OnFacet M rigid a
    · simp [h1, h2, (hb rigid).mpr h2]
    · have h4 : bcDof P M rigid (P.dim * a + i) = false := by simpa using fun h => h2 ((hb rigid).mp h)
      by_cases h3 : OnFacet M top a
      · simp [h1, h2, h3, h4, bcValue_eq hi, (hb top).mpr h3]
      · have h5 : bcDof P M top (P.dim * a + i) = false := by simpa using fun h => h3 ((hb top).mp h)
        simp [h1, h2, h3, h4, h5]

theorem fits_rigid (hd : 0 < P.dim) (top rigid : ℤ) : Fits P M Q (aboveSurface P M Q top rigid) (rigidForms P M Q top rigid) :=
  ⟨hd, rigid_F hd top rigid, rigid_J hd top rigid, rigid_bc top rigid⟩


end

end Verif.UflDriver
