import Verif.Lemmas.TieSystemAssembly

/-! Lemmas for C117–C120: the rows the assemblers read, and sums over the assembled arrays. -/

namespace Verif.TieData

open Verif.Spec Verif.Packing Verif.Assembly Verif.Entities Verif.Kernels Verif.ContactProblem Finset

noncomputable section

variable {M : TieMesh} {E EQ : TieElement} {p : Problem} {mat : Key → ℕ → ℝ} {gamma theta : ℝ} {g : Gen ℝ}

/-- Number of leading scalars. -/
def leads : Problem → ℕ
  | .elasticity => 3
  | .poisson => 2
  | .thermo => 4

theorem facet_at (hM : TieMesh.Valid M) {i e : ℕ} (hi : i < M.numPairs) (he : e < M.localFacets i) :
    (M.facets i)[e]? = some ((facetOf M i e).1, (facetOf M i e).2) ∧ facetOf M i e ∈ M.facets i := by
  have hel : e < (M.facets i).length := lt_of_lt_of_le he (hM.loc i hi)
  have : facetOf M i e = (M.facets i)[e] := List.getD_eq_getElem _ _ hel
  rw [this]
  exact ⟨List.getElem?_eq_getElem hel, List.getElem_mem hel⟩

theorem dims_at (G : GeneratedFor M E EQ p mat gamma theta g) (hb : E.bs = comps M.static p) :
    g.dims M.static = tdim M E (leads p) := by
  unfold Gen.dims
  rw [G.problem, G.space]
  cases p with
  | elasticity => rfl
  | thermo => rfl
  | poisson =>
    have hb : E.bs = 1 := hb
    show TieDims.mk M.nq E.nd 1 M.gdim M.nq 2 = TieDims.mk M.nq E.nd E.bs M.gdim M.nq 2
    rw [hb]

section
variable (G : GeneratedFor M E EQ p mat gamma theta g) (hb : E.bs = comps M.static p) {i e : ℕ} {c : ℕ → ℝ}
  (R : g.Row M.static i e c)
include G hb R

theorem row_test : TestRow M E (leads p) i e c := by
  have h1 := R.matrix.test
  have h2 := R.matrix.gtest
  rw [dims_at G hb, G.space] at h1 h2
  exact ⟨h1, h2⟩

omit hb in
/-- The leading scalars. -/
theorem row_lead {cell f : ℕ} (hf : (M.facets i)[e]? = some (cell, f)) :
    (p ≠ .poisson → c 0 = midValue EQ cell f (mat .mu) ∧ c 1 = midValue EQ cell f (mat .lam) ∧ c 2 = M.h i e)
    ∧ (p = .thermo → c 3 = midValue EQ cell f (mat .alpha))
    ∧ (p = .poisson → c 0 = M.h i e ∧ c 1 = midValue EQ cell f (mat .kdt)) := by
  have hl := R.matrix.lead
  unfold Gen.Lead at hl
  rw [G.problem] at hl
  have hm : ∀ k ∈ required p, ((M.func EQ (mat k)).const0 i).v e = midValue EQ cell f (mat k) :=
    fun k _ => (func_const0 M G.scalar (mat k) i).2 e cell f hf
  cases p with
  | elasticity =>
    obtain ⟨h1, h2, h3⟩ := hl
    refine ⟨fun _ => ⟨?_, ?_, h3⟩, by simp, by simp⟩
    · rw [h1 _ (G.mat .mu (by simp [required]))]; exact hm _ (by simp [required])
    · rw [h2 _ (G.mat .lam (by simp [required]))]; exact hm _ (by simp [required])
  | poisson =>
    obtain ⟨h1, h2⟩ := hl
    refine ⟨by simp, by simp, fun _ => ⟨h1, ?_⟩⟩
    rw [h2 _ (G.mat .kdt (by simp [required]))]; exact hm _ (by simp [required])
  | thermo =>
    obtain ⟨h1, h2, h3, h4⟩ := hl
    refine ⟨fun _ => ⟨?_, ?_, h3⟩, fun _ => ?_, by simp⟩
    · rw [h1 _ (G.mat .mu (by simp [required]))]; exact hm _ (by simp [required])
    · rw [h2 _ (G.mat .lam (by simp [required]))]; exact hm _ (by simp [required])
    · rw [h4 _ (G.mat .alpha (by simp [required]))]; exact hm _ (by simp [required])

theorem row_sol (hM : TieMesh.Valid M) (hE : TieElement.Valid M E) {u : ℕ → ℝ} (hu : SolutionIs M E u g)
    {cell f : ℕ} (he : e < M.localFacets i) (hf : (M.facets i)[e]? = some (cell, f)) :
    SolAt M E (leads p) i e cell f u c := by
  obtain ⟨co, h1, h2⟩ := hu
  have S := R.sol co _ h1 h2
  have hd := dims_at G hb
  have h0 : 0 < E.bs := by
    rw [hb]
    have := hM.dim
    cases p <;> first | exact this | exact Nat.one_pos
  have s1 := S.u
  have s2 := S.grad
  have s3 := S.opp
  have s4 := S.gopp
  rw [hd] at s1 s2 s3 s4
  exact sol_at hM hE h0 he hf s1 s2 s3 s4

theorem row_temp (hM : TieMesh.Valid M) {ET : TieElement} (hET : TieElement.Valid M ET) {T : ℕ → ℝ}
    (hT : TemperatureIs M ET T g) (hp : p = .thermo) {cell f : ℕ} (he : e < M.localFacets i)
    (hf : (M.facets i)[e]? = some (cell, f)) {q : ℕ} (hq : q < M.nq) (ht : Tied M i e q) :
    c ((tdim M E (leads p)).oTemp + q) = tieValue M ET cell f T q 0
    ∧ c ((tdim M E (leads p)).oTempOpp + q) = tieOpposite M ET i e T q 0 := by
  obtain ⟨h1, co, h2, h3⟩ := hT
  have S := R.temp co _ h2 (by rw [G.problem, hp]) h3
  have s1 := S.temp q hq
  have s2 := S.tempOpp q hq
  rw [dims_at G hb] at s1 s2
  rw [s1, s2]
  have e1 : ∀ e, e * M.static.nq + q = e * (M.nq * ET.bs) + (q * ET.bs + 0) := by
    intro e; rw [h1, Nat.mul_one, Nat.mul_one, Nat.add_zero]; rfl
  rw [e1]
  exact ⟨(func_val M (by omega) T i).2 e cell f hf q hq 0 (by omega),
    (func_opp hM hET T he hq (by omega)).1 ht⟩

end

/-! ### sums over the assembled arrays -/

section
variable {N : ℕ} (hM : TieMesh.Valid M) (hN : TieDofsBelow M E N) {i e : ℕ}
include hM hN

theorem below (hi : i < M.numPairs) (he : e < M.localFacets i) :
    (∀ j < E.nd, E.bs * E.dofs (facetOf M i e).1 j + E.bs ≤ N)
    ∧ ∀ c ∈ linksOf M E i e, ∀ j < E.nd, E.bs * E.dofs c j + E.bs ≤ N := by
  refine ⟨fun j hj => hN.1 i hi _ (facet_at hM hi he).2 j hj, fun c hc j hj => ?_⟩
  rw [(linksOf_list M E i e).2] at hc
  obtain ⟨q, hq, h⟩ := hc
  rw [linked_tied he hq] at h
  rw [h.2]
  exact hN.2 _ (hM.cells i _) j hj

/-- The assembled vector times dofs `v`. -/
theorem vector_dot (F : ℕ → ℕ → List (ℕ × ℕ → ℝ)) {b : Arr ℕ}
    (hb : ∀ d, b d = ∑ i ∈ range M.numPairs, ∑ e ∈ range (M.localFacets i),
      ((F i e).map (fun a => facetVector E.nd E.bs E.dofs (facetOf M i e).1 (linksOf M E i e) a d)).sum) (v : ℕ → ℝ) :
    ∑ d ∈ range N, b d * v d = ∑ i ∈ range M.numPairs, ∑ e ∈ range (M.localFacets i),
      ((F i e).map (fun a => ∑ B ∈ range ((linksOf M E i e).length + 1), ∑ k ∈ range E.nd, ∑ n ∈ range E.bs,
        a (B, k * E.bs + n) * v (E.bs * E.dofs (coupledCell (facetOf M i e).1 (linksOf M E i e) B) k + n))).sum := by
  simp only [hb, sum_mul]
  rw [sum_comm]
  refine sum_congr rfl (fun i hi => ?_)
  rw [sum_comm]
  refine sum_congr rfl (fun e he => ?_)
  obtain ⟨h1, h2⟩ := below hM hN (mem_range.mp hi) (mem_range.mp he)
  have := sum_list_mul (F i e) N (fun a d => facetVector E.nd E.bs E.dofs (facetOf M i e).1 (linksOf M E i e) a d) v
  rw [this]
  congr 1
  refine List.map_congr_left (fun a _ => ?_)
  exact facetVector_dot E.nd E.bs N E.dofs _ _ a v h1 h2

/-- The assembled matrix between dofs `v` and `u`. -/
theorem matrix_dot (F : ℕ → ℕ → ℕ × ℕ → ℝ) {A : Arr (ℕ × ℕ)}
    (hA : ∀ m, A m = ∑ i ∈ range M.numPairs, ∑ e ∈ range (M.localFacets i),
      facetMatrix E.nd E.bs E.dofs (facetOf M i e).1 (linksOf M E i e) (F i e) m.1 m.2) (u v : ℕ → ℝ) :
    ∑ d ∈ range N, ∑ c ∈ range N, v d * A (d, c) * u c = ∑ i ∈ range M.numPairs, ∑ e ∈ range (M.localFacets i),
      ∑ B ∈ range ((linksOf M E i e).length + 1), ∑ k ∈ range E.nd, ∑ n ∈ range E.bs,
        blockApply (E.bs * E.nd) (linksOf M E i e).length (F i e)
          (coupledDofs E.bs E.dofs (facetOf M i e).1 (linksOf M E i e) u) B (k * E.bs + n)
          * v (E.bs * E.dofs (coupledCell (facetOf M i e).1 (linksOf M E i e) B) k + n) := by
  have h := vector_dot hM hN (fun i e => [fun m => blockApply (E.bs * E.nd) (linksOf M E i e).length (F i e)
          (coupledDofs E.bs E.dofs (facetOf M i e).1 (linksOf M E i e) u) m.1 m.2])
    (b := fun d => ∑ c ∈ range N, A (d, c) * u c) (fun d => by
      simp only [hA, sum_mul]
      rw [sum_comm]
      refine sum_congr rfl (fun i hi => ?_)
      rw [sum_comm]
      refine sum_congr rfl (fun e he => ?_)
      obtain ⟨h1, h2⟩ := below hM hN (mem_range.mp hi) (mem_range.mp he)
      rw [List.map_cons, List.map_nil, List.sum_cons, List.sum_nil, add_zero]
      exact facetMatrix_apply E.nd E.bs N E.dofs _ _ (F i e) u d h1 h2) v
  refine Eq.trans (sum_congr rfl (fun d _ => ?_)) (h.trans ?_)
  · rw [sum_mul]
    exact sum_congr rfl (fun c _ => by ring)
  · refine sum_congr rfl (fun i _ => sum_congr rfl (fun e _ => ?_))
    rw [List.map_cons, List.map_nil, List.sum_cons, List.sum_nil, add_zero]

end

/-- The sum over tied points as a sum over facets. -/
theorem tieSum_facets (hM : TieMesh.Valid M) (E : TieElement) (F : ℕ → ℕ → ℕ → ℕ → ℕ → ℝ) (G : ℕ → ℕ → ℝ)
    (h : ∀ i < M.numPairs, ∀ e < M.localFacets i, ∀ cell f, (M.facets i)[e]? = some (cell, f) →
      (cell, f) = facetOf M i e → G i e = ∑ q ∈ range M.nq, open Classical in
        if Tied M i e q then tieWeight M cell f q * F i e cell f q else 0) :
    ∑ i ∈ range M.numPairs, ∑ e ∈ range (M.localFacets i), G i e = tieSum M F := by
  unfold tieSum
  refine sum_congr rfl (fun i hi => sum_congr rfl (fun e he => ?_))
  obtain ⟨h1, -⟩ := facet_at hM (mem_range.mp hi) (mem_range.mp he)
  rw [h1]
  exact h i (mem_range.mp hi) e (mem_range.mp he) _ _ h1 rfl

end

end Verif.TieData
