import Verif.Lemmas.TieSystemRow
import Verif.Lemmas.TieEnergy
import Verif.Props.SystemBalance

/-!
Properties C117–C121: what `MeshTie.assemble_vector` and `MeshTie.assemble_matrix` build, in terms of the
functions given to `generate_*_data_*` and `update_*_data_*`.
-/

namespace Verif.TieData

open Verif.Spec Verif.Packing Verif.Assembly Verif.Entities Verif.Kernels Verif.ContactProblem Finset

noncomputable section

variable {M : TieMesh} {E EQ : TieElement} {mat : Key → ℕ → ℝ} {gamma theta : ℝ} {g : Gen ℝ}

/-- What is assembled, per facet. -/
theorem assembled' (hM : TieMesh.Valid M) (ops : List (Op ℝ)) (hops : ProperHistory M.static Tracked.new ops) {p : Problem}
    (hg : (ops.foldl Tracked.step Tracked.new).get p = some g) (G : GeneratedFor M E EQ p mat gamma theta g) :
    E.bs = comps M.static p ∧ ∃ s, run M.static State.init ops = some s ∧ ∃ R : ℕ → ℕ → ℕ → ℝ,
      (∀ i < M.numPairs, ∀ e < M.localFacets i, g.Row M.static i e (R i e))
      ∧ (∃ b, M.assembleVector E p s 0 = .ok b
        ∧ ∀ d, b d = ∑ i ∈ range M.numPairs, ∑ e ∈ range (M.localFacets i),
          (((vecKerns p).map (fun k => k.elem M E gamma theta i e (R i e))).map (fun a =>
            facetVector E.nd E.bs E.dofs (facetOf M i e).1 (linksOf M E i e) a d)).sum)
      ∧ ∃ A, M.assembleMatrix E p s 0 = .ok A
        ∧ ∀ m, A m = ∑ i ∈ range M.numPairs, ∑ e ∈ range (M.localFacets i),
          facetMatrix E.nd E.bs E.dofs (facetOf M i e).1 (linksOf M E i e)
            ((matKern p).elem M E gamma theta i e (R i e)) m.1 m.2 := by
  obtain ⟨hb, s, h1, R, h2, ⟨b, h3, h4⟩, A, h5, h6⟩ := assembled hM ops hops hg G.problem G.space
  rw [G.gamma, G.theta] at h4 h6
  refine ⟨hb, s, h1, R, h2, ⟨b, h3, fun d => ?_⟩, A, h5, h6⟩
  rw [h4]
  refine sum_congr rfl (fun i _ => ?_)
  rw [← list_sum_comm]
  simp only [List.map_map]
  rfl

/-! ### C117 -/

/-- C117: the matrix for tied elastic bodies is Nitsche's form, and the vector is the form of the displacement
given last, when on every facet the tied points come first. -/
theorem C117_elasticity_partial (hM : TieMesh.Valid M) (hE : TieElement.Valid M E) (N : ℕ) (hN : TieDofsBelow M E N)
    (hT : TiedFirst M) (ops : List (Op ℝ)) (hops : ProperHistory M.static Tracked.new ops)
    (hg : (ops.foldl Tracked.step Tracked.new).get .elasticity = some g)
    (G : GeneratedFor M E EQ .elasticity mat gamma theta g) :
    ∃ s, run M.static State.init ops = some s
      ∧ (∃ A, M.assembleMatrix E .elasticity s 0 = .ok A ∧ ∀ u v : ℕ → ℝ,
        ∑ d ∈ range N, ∑ c ∈ range N, v d * A (d, c) * u c = elasticTie M E EQ mat gamma theta u v)
      ∧ ∃ b, M.assembleVector E .elasticity s 0 = .ok b ∧ ∀ u : ℕ → ℝ, SolutionIs M E u g → ∀ v : ℕ → ℝ,
        ∑ d ∈ range N, b d * v d = elasticTie M E EQ mat gamma theta u v := by
  obtain ⟨hb, s, h1, R, h2, ⟨b, h3, h4⟩, A, h5, h6⟩ := assembled' hM ops hops hg G
  refine ⟨s, h1, ⟨A, h5, fun u v => ?_⟩, b, h3, fun u hu v => ?_⟩
  · rw [matrix_dot hM hN (fun i e => (matKern .elasticity).elem M E gamma theta i e (R i e)) h6]
    refine tieSum_facets hM E _ _ (fun i hi e he cell f hf hc => ?_)
    have hR := h2 i hi e he
    obtain ⟨e0, e1, e2⟩ := (row_lead G hR hf).1 (by simp)
    rw [← e0, ← e1, ← e2]
    unfold TieKern.elem
    rw [← hc]
    exact elastic_matrix hM hE hb false rfl (row_test G hb hR) he hf (linkedFirst hT hi he) (linksOf_list M E i e)
      (gammaTheta gamma theta) u v
  · rw [vector_dot hM hN _ h4]
    refine tieSum_facets hM E _ _ (fun i hi e he cell f hf hc => ?_)
    have hR := h2 i hi e he
    obtain ⟨e0, e1, e2⟩ := (row_lead G hR hf).1 (by simp)
    rw [← e0, ← e1, ← e2]
    simp only [vecKerns, List.map_cons, List.map_nil, List.sum_cons, List.sum_nil, add_zero]
    unfold TieKern.elem
    rw [← hc]
    exact elastic_vector hM hE hb false rfl (row_test G hb hR) (row_sol G hb hR hM hE hu he hf) he hf
      (linkedFirst hT hi he) (linksOf_list M E i e) (gammaTheta gamma theta) v

/-- C117 for heat conduction. -/
theorem C117_heat_partial (hM : TieMesh.Valid M) (hE : TieElement.Valid M E) (N : ℕ) (hN : TieDofsBelow M E N)
    (hT : TiedFirst M) (ops : List (Op ℝ)) (hops : ProperHistory M.static Tracked.new ops)
    (hg : (ops.foldl Tracked.step Tracked.new).get .poisson = some g)
    (G : GeneratedFor M E EQ .poisson mat gamma theta g) :
    ∃ s, run M.static State.init ops = some s
      ∧ (∃ A, M.assembleMatrix E .poisson s 0 = .ok A ∧ ∀ u v : ℕ → ℝ,
        ∑ d ∈ range N, ∑ c ∈ range N, v d * A (d, c) * u c = heatTie M E EQ mat gamma theta u v)
      ∧ ∃ b, M.assembleVector E .poisson s 0 = .ok b ∧ ∀ u : ℕ → ℝ, SolutionIs M E u g → ∀ v : ℕ → ℝ,
        ∑ d ∈ range N, b d * v d = heatTie M E EQ mat gamma theta u v := by
  obtain ⟨hb, s, h1, R, h2, ⟨b, h3, h4⟩, A, h5, h6⟩ := assembled' hM ops hops hg G
  refine ⟨s, h1, ⟨A, h5, fun u v => ?_⟩, b, h3, fun u hu v => ?_⟩
  · rw [matrix_dot hM hN (fun i e => (matKern .poisson).elem M E gamma theta i e (R i e)) h6]
    refine tieSum_facets hM E _ _ (fun i hi e he cell f hf hc => ?_)
    have hR := h2 i hi e he
    obtain ⟨e0, e1⟩ := (row_lead G hR hf).2.2 rfl
    rw [← e0, ← e1]
    unfold TieKern.elem
    rw [← hc]
    exact heat_matrix hM hE hb (row_test G hb hR) he hf (linkedFirst hT hi he) (linksOf_list M E i e)
      (gammaTheta gamma theta) u v
  · rw [vector_dot hM hN _ h4]
    refine tieSum_facets hM E _ _ (fun i hi e he cell f hf hc => ?_)
    have hR := h2 i hi e he
    obtain ⟨e0, e1⟩ := (row_lead G hR hf).2.2 rfl
    rw [← e0, ← e1]
    simp only [vecKerns, List.map_cons, List.map_nil, List.sum_cons, List.sum_nil, add_zero]
    unfold TieKern.elem
    rw [← hc]
    exact heat_vector hM hE hb (row_test G hb hR) (row_sol G hb hR hM hE hu he hf) he hf
      (linkedFirst hT hi he) (linksOf_list M E i e) (gammaTheta gamma theta) v

/-- C117 for thermo-elasticity: the vector also has the thermal stress of the temperature given last. -/
theorem C117_thermo_partial (hM : TieMesh.Valid M) (hE : TieElement.Valid M E) (N : ℕ) (hN : TieDofsBelow M E N)
    (hT : TiedFirst M) (ops : List (Op ℝ)) (hops : ProperHistory M.static Tracked.new ops)
    (hg : (ops.foldl Tracked.step Tracked.new).get .thermo = some g)
    (G : GeneratedFor M E EQ .thermo mat gamma theta g) :
    ∃ s, run M.static State.init ops = some s
      ∧ (∃ A, M.assembleMatrix E .thermo s 0 = .ok A ∧ ∀ u v : ℕ → ℝ,
        ∑ d ∈ range N, ∑ c ∈ range N, v d * A (d, c) * u c = elasticTie M E EQ mat gamma theta u v)
      ∧ ∃ b, M.assembleVector E .thermo s 0 = .ok b ∧ ∀ u : ℕ → ℝ, SolutionIs M E u g →
        ∀ (ET : TieElement) (T : ℕ → ℝ), TieElement.Valid M ET → TemperatureIs M ET T g → ∀ v : ℕ → ℝ,
        ∑ d ∈ range N, b d * v d = elasticTie M E EQ mat gamma theta u v + thermalTie M E EQ ET mat T v := by
  obtain ⟨hb, s, h1, R, h2, ⟨b, h3, h4⟩, A, h5, h6⟩ := assembled' hM ops hops hg G
  refine ⟨s, h1, ⟨A, h5, fun u v => ?_⟩, b, h3, fun u hu ET T hET hTm v => ?_⟩
  · rw [matrix_dot hM hN (fun i e => (matKern .thermo).elem M E gamma theta i e (R i e)) h6]
    refine tieSum_facets hM E _ _ (fun i hi e he cell f hf hc => ?_)
    have hR := h2 i hi e he
    obtain ⟨e0, e1, e2⟩ := (row_lead G hR hf).1 (by simp)
    rw [← e0, ← e1, ← e2]
    unfold TieKern.elem
    rw [← hc]
    exact elastic_matrix hM hE hb true rfl (row_test G hb hR) he hf (linkedFirst hT hi he) (linksOf_list M E i e)
      (gammaTheta gamma theta) u v
  · rw [vector_dot hM hN _ h4]
    simp only [vecKerns, List.map_cons, List.map_nil, List.sum_cons, List.sum_nil, add_zero, sum_add_distrib]
    congr 1
    · refine tieSum_facets hM E _ _ (fun i hi e he cell f hf hc => ?_)
      have hR := h2 i hi e he
      obtain ⟨e0, e1, e2⟩ := (row_lead G hR hf).1 (by simp)
      rw [← e0, ← e1, ← e2]
      unfold TieKern.elem
      rw [← hc]
      exact elastic_vector hM hE hb true rfl (row_test G hb hR) (row_sol G hb hR hM hE hu he hf) he hf
        (linkedFirst hT hi he) (linksOf_list M E i e) (gammaTheta gamma theta) v
    · refine tieSum_facets hM E _ _ (fun i hi e he cell f hf hc => ?_)
      have hR := h2 i hi e he
      obtain ⟨e0, e1, e2⟩ := (row_lead G hR hf).1 (by simp)
      rw [← e0, ← e1, ← (row_lead G hR hf).2.1 rfl]
      unfold TieKern.elem
      rw [← hc]
      refine thermal_vector hM hE hb (T := fun q => (tieValue M ET cell f T q 0 + tieOpposite M ET i e T q 0) / 2)
        (row_test G hb hR) he hf (fun q hq ht => ?_) (linkedFirst hT hi he) (linksOf_list M E i e) v
      obtain ⟨t1, t2⟩ := row_temp G hb hR hM hET hTm rfl he hf hq ht
      rw [← t1, ← t2]
      rfl

/-! ### C118 -/

theorem row_of_form {N : ℕ} {A : Arr (ℕ × ℕ)} {b : Arr ℕ} {u : ℕ → ℝ} {F : (ℕ → ℝ) → (ℕ → ℝ) → ℝ}
    (hA : ∀ u v : ℕ → ℝ, ∑ d ∈ range N, ∑ c ∈ range N, v d * A (d, c) * u c = F u v)
    (hb : ∀ v : ℕ → ℝ, ∑ d ∈ range N, b d * v d = F u v) {d : ℕ} (hd : d < N) :
    ∑ c ∈ range N, A (d, c) * u c = b d := by
  have h := (hA u (fun k => if k = d then 1 else 0)).trans (hb _).symm
  have e1 : ∑ k ∈ range N, ∑ c ∈ range N, (if k = d then (1 : ℝ) else 0) * A (k, c) * u c
      = ∑ c ∈ range N, A (d, c) * u c := by
    rw [sum_eq_single_of_mem d (mem_range.mpr hd) (fun k _ hk => by simp [hk])]
    simp
  rw [e1] at h
  rw [h]
  simp [hd]

/-- C118: the matrix times the displacement given last is the vector, when on every facet the tied points come
first. -/
theorem C118_elasticity_partial (hM : TieMesh.Valid M) (hE : TieElement.Valid M E) (N : ℕ) (hN : TieDofsBelow M E N)
    (hT : TiedFirst M) (ops : List (Op ℝ)) (hops : ProperHistory M.static Tracked.new ops)
    (hg : (ops.foldl Tracked.step Tracked.new).get .elasticity = some g)
    (G : GeneratedFor M E EQ .elasticity mat gamma theta g) (u : ℕ → ℝ) (hu : SolutionIs M E u g) :
    ∃ s A b, run M.static State.init ops = some s ∧ M.assembleMatrix E .elasticity s 0 = .ok A
      ∧ M.assembleVector E .elasticity s 0 = .ok b ∧ ∀ d < N, ∑ c ∈ range N, A (d, c) * u c = b d := by
  obtain ⟨s, h1, ⟨A, h2, h3⟩, b, h4, h5⟩ := C117_elasticity_partial hM hE N hN hT ops hops hg G
  exact ⟨s, A, b, h1, h2, h4, fun d hd => row_of_form h3 (h5 u hu) hd⟩

/-- C118 for heat conduction. -/
theorem C118_heat_partial (hM : TieMesh.Valid M) (hE : TieElement.Valid M E) (N : ℕ) (hN : TieDofsBelow M E N)
    (hT : TiedFirst M) (ops : List (Op ℝ)) (hops : ProperHistory M.static Tracked.new ops)
    (hg : (ops.foldl Tracked.step Tracked.new).get .poisson = some g)
    (G : GeneratedFor M E EQ .poisson mat gamma theta g) (u : ℕ → ℝ) (hu : SolutionIs M E u g) :
    ∃ s A b, run M.static State.init ops = some s ∧ M.assembleMatrix E .poisson s 0 = .ok A
      ∧ M.assembleVector E .poisson s 0 = .ok b ∧ ∀ d < N, ∑ c ∈ range N, A (d, c) * u c = b d := by
  obtain ⟨s, h1, ⟨A, h2, h3⟩, b, h4, h5⟩ := C117_heat_partial hM hE N hN hT ops hops hg G
  exact ⟨s, A, b, h1, h2, h4, fun d hd => row_of_form h3 (h5 u hu) hd⟩

/-! ### C119 -/

/-- C119: with theta = 1 the matrix `assemble_matrix` builds for tied bodies is symmetric, for every problem and
whichever points are tied. -/
theorem C119_symmetric (hM : TieMesh.Valid M) (ops : List (Op ℝ)) (hops : ProperHistory M.static Tracked.new ops)
    (p : Problem) (hg : (ops.foldl Tracked.step Tracked.new).get p = some g)
    (G : GeneratedFor M E EQ p mat gamma 1 g) :
    ∃ s A, run M.static State.init ops = some s ∧ M.assembleMatrix E p s 0 = .ok A
      ∧ ∀ d c, A (d, c) = A (c, d) := by
  obtain ⟨hb, s, h1, R, h2, -, A, h5, h6⟩ := assembled' hM ops hops hg G
  refine ⟨s, A, h1, h5, fun d c => ?_⟩
  rw [h6, h6]
  refine sum_congr rfl (fun i hi => sum_congr rfl (fun e he => facetMatrix_symm _ _ _ _ _ _ ?_ d c))
  rw [Nat.mul_comm]
  cases p with
  | elasticity => exact C50_symmetric (M.kd E (facetOf M i e).1 (facetOf M i e).2) _ _ _ _ _ rfl
  | thermo => exact C50_symmetric (M.kd E (facetOf M i e).1 (facetOf M i e).2) _ _ _ _ _ rfl
  | poisson =>
    have hb1 : E.bs = 1 := hb
    rw [hb1, Nat.mul_one]
    exact C51_symmetric (M.kd E (facetOf M i e).1 (facetOf M i e).2) hb1 _ _ _ _ _ rfl

/-- C119: with theta = -1 and every positive gamma the matrix is positive semidefinite, for every problem and
whichever points are tied (for heat conduction with a conductivity that is not negative). -/
theorem C119_positive (hM : TieMesh.Valid M) (ops : List (Op ℝ)) (hops : ProperHistory M.static Tracked.new ops)
    (p : Problem) (hg : (ops.foldl Tracked.step Tracked.new).get p = some g)
    (G : GeneratedFor M E EQ p mat gamma (-1) g) (hγ : 0 < gamma)
    (hh : ∀ i < M.numPairs, ∀ e < M.localFacets i, 0 < M.h i e)
    (hwt : ∀ i < M.numPairs, ∀ x ∈ M.facets i, ∀ q < M.nq, 0 ≤ tieWeight M x.1 x.2 q)
    (hk : p = .poisson → ∀ i < M.numPairs, ∀ x ∈ M.facets i, 0 ≤ midValue EQ x.1 x.2 (mat .kdt))
    (N : ℕ) (hN : TieDofsBelow M E N) :
    ∃ s A, run M.static State.init ops = some s ∧ M.assembleMatrix E p s 0 = .ok A
      ∧ ∀ v : ℕ → ℝ, 0 ≤ ∑ d ∈ range N, ∑ c ∈ range N, v d * A (d, c) * v c := by
  obtain ⟨hb, s, h1, R, h2, -, A, h5, h6⟩ := assembled' hM ops hops hg G
  refine ⟨s, A, h1, h5, fun v => ?_⟩
  rw [matrix_dot hM hN (fun i e => (matKern p).elem M E gamma (-1) i e (R i e)) h6]
  refine sum_nonneg (fun i hi => sum_nonneg (fun e he => ?_))
  have hi' := mem_range.mp hi
  have he' := mem_range.mp he
  have hR := h2 i hi' e he'
  have T := row_test G hb hR
  obtain ⟨hf, hmem⟩ := facet_at hM hi' he'
  have hL := linksOf_list M E i e
  have hwt' : ∀ q ∈ linkedPoints ((M.pair E i).row e),
      0 ≤ (M.kd E (facetOf M i e).1 (facetOf M i e).2).w0 q := by
    intro q hq
    rw [← facetWeight_eq (affineConst hM E _ _)]
    exact hwt i hi' _ hmem q (points_lt hq)
  have key : 0 ≤ energy (E.nd * E.bs) (linksOf M E i e).length ((matKern p).elem M E gamma (-1) i e (R i e))
      (coupledDofs E.bs E.dofs (facetOf M i e).1 (linksOf M E i e) v) := by
    have tie : ∀ th : Bool, p ≠ .poisson → leads p = (if th then 4 else 3) → 0 ≤ energy (E.nd * E.bs)
        (linksOf M E i e).length ((TieKern.elJac th).elem M E gamma (-1) i e (R i e))
        (coupledDofs E.bs E.dofs (facetOf M i e).1 (linksOf M E i e) v) := by
      intro th hp hl
      have hbs : E.bs = M.gdim := by cases p <;> first | exact hb | exact absurd rfl hp
      have hd := tdims_eq M hbs (facetOf M i e).1 (facetOf M i e).2 th
      have hbl := tieJac_blocks (M.kd E (facetOf M i e).1 (facetOf M i e).2) (tOff (M.kd E (facetOf M i e).1 (facetOf M i e).2) th) (R i e)
        (gammaTheta gamma (-1)) (linksOf M E i e).length (linkedPoints ((M.pair E i).row e))
      refine tie_energy (M.kd E (facetOf M i e).1 (facetOf M i e).2) _ _ _ _ _ _ _ hbl ?_ ?_ _
      · intro q hq
        obtain ⟨k0, h0, -⟩ := T.someLink he' hL (points_lt hq)
        refine ⟨k0, fun k hk hne m hm n hn => ?_⟩
        show -(R i e) (tieIdx _ _ q k m n) = 0
        rw [tieIdx_eq (M.kd E (facetOf M i e).1 (facetOf M i e).2) th hbs (R i e) q k m n, hd, ← hl, h0 k hk hne m hm n hn, neg_zero]
      · intro q hq
        have hw := hwt' q hq
        rw [KD.w0] at hw
        have h0 : 0 ≤ tieW0 (M.kd E (facetOf M i e).1 (facetOf M i e).2) q := by
          rw [tieW0, mul_assoc]; linarith
        refine mul_nonneg h0 ?_
        show 0 ≤ gamma / (R i e) 2
        rw [((row_lead G hR hf).1 hp).2.2]
        exact (div_pos hγ (hh i hi' e he')).le
    cases p with
    | elasticity => exact tie false (by simp) rfl
    | thermo => exact tie true (by simp) rfl
    | poisson =>
      have hb1 : E.bs = 1 := hb
      have hd := pdims_eq M hb1 (facetOf M i e).1 (facetOf M i e).2
      have hbl := poisJac_blocks (M.kd E (facetOf M i e).1 (facetOf M i e).2) hb1
        (pOff (M.kd E (facetOf M i e).1 (facetOf M i e).2)) (R i e)
        (gammaTheta gamma (-1)) (linksOf M E i e).length (linkedPoints ((M.pair E i).row e))
      obtain ⟨l0, l1⟩ := (row_lead G hR hf).2.2 rfl
      refine tie_energy (M.kd E (facetOf M i e).1 (facetOf M i e).2) _ _ _ _ _ _ _ hbl ?_ ?_ _
      · intro q hq
        obtain ⟨k0, h0, -⟩ := T.someLink he' hL (points_lt hq)
        refine ⟨k0, fun k hk hne m hm n hn => ?_⟩
        show -(R i e) (poisIdx _ _ q k m) = 0
        have h0' := h0 k hk hne m hm 0 (by omega)
        rw [poisIdx_eq (M.kd E (facetOf M i e).1 (facetOf M i e).2) (R i e) q k m, hd]
        exact neg_eq_zero.mpr h0'
      · intro q hq
        have hw := hwt' q hq
        rw [KD.w0] at hw
        have h0 : 0 ≤ poisW0 (M.kd E (facetOf M i e).1 (facetOf M i e).2) (R i e) q := by
          rw [poisW0, l1]
          exact mul_nonneg (by rw [mul_assoc]; linarith) (hk rfl i hi' _ hmem)
        refine mul_nonneg h0 ?_
        show 0 ≤ gamma / (R i e) 0
        rw [l0]
        exact (div_pos hγ (hh i hi' e he')).le
  refine key.trans_eq ?_
  unfold energy
  refine sum_congr rfl (fun B _ => ?_)
  rw [← Coefficients.sum_mul_range E.nd E.bs]
  refine sum_congr rfl (fun m _ => sum_congr rfl (fun n hn => ?_))
  rw [coupledDofs_eq _ _ _ _ _ _ (mem_range.mp hn), mul_comm, Nat.mul_comm E.bs E.nd]

/-! ### C120 -/

theorem linked_row (hM : TieMesh.Valid M) (hunit : TieSumsToOne M E) {n0 i e : ℕ} {c : ℕ → ℝ}
    (T : TestRow M E n0 i e c) (hi : i < M.numPairs) (he : e < M.localFacets i) {q : ℕ} (hq : q < M.nq)
    (ht : Tied M i e q) :
    TieLinked (tdim M E n0) (linksOf M E i e).length
      (facetPhi (M.kd E (facetOf M i e).1 (facetOf M i e).2))
      (facetGrad (M.kd E (facetOf M i e).1 (facetOf M i e).2)) c q := by
  obtain ⟨hf, -⟩ := facet_at hM hi he
  have hL := linksOf_list M E i e
  have hu := fun q hq => hunit i hi e he _ _ hf q hq
  refine ⟨(hu q hq).1, fun b hb => ?_, fun n hn => ?_, fun b hb => ?_⟩
  · show ∑ k ∈ range E.nd, ∑ j ∈ range M.tdim, M.inv (M.geo.jac (facetOf M i e).1 (M.cphi (M.off (facetOf M i e).2 + q))) j b
      * E.dphi j (M.off (facetOf M i e).2 + q) k = 0
    rw [sum_comm]
    refine sum_eq_zero (fun j hj => ?_)
    rw [← mul_sum, (hu q hq).2.1 j (mem_range.mp hj), mul_zero]
  · obtain ⟨k0, h0, h1⟩ := T.someLink he hL hq
    obtain ⟨hk0, r, hr, h2⟩ := h1 ht
    rw [sum_eq_single_of_mem k0 (mem_range.mpr hk0)]
    · rw [← (hu r hr).2.2.1]
      exact sum_congr rfl (fun m hm => h2 m (mem_range.mp hm) n hn)
    · exact fun k hk hne => sum_eq_zero (fun m hm => h0 k (mem_range.mp hk) hne m (mem_range.mp hm) n hn)
  · obtain ⟨k0, h0, h1⟩ := T.gsome hM he hL hq
    refine sum_eq_zero (fun k hk => ?_)
    by_cases hne : k = k0
    · subst hne
      obtain ⟨r, hr, h2⟩ := h1 (mem_range.mp hk)
      rw [← (hu r hr).2.2.2 b hb]
      exact sum_congr rfl (fun m hm => h2 m (mem_range.mp hm) b hb)
    · exact sum_eq_zero (fun m hm => h0 k (mem_range.mp hk) hne m (mem_range.mp hm) b hb)

/-- C120: the forces (heat fluxes) assembled for tied bodies sum to zero in every component: what one body gains
the other loses.  For every problem, whichever points are tied and whatever solution was given. -/
theorem C120_balance (hM : TieMesh.Valid M) (N : ℕ) (hN : TieDofsBelow M E N) (hunit : TieSumsToOne M E)
    (ops : List (Op ℝ)) (hops : ProperHistory M.static Tracked.new ops)
    (p : Problem) (hg : (ops.foldl Tracked.step Tracked.new).get p = some g)
    (G : GeneratedFor M E EQ p mat gamma theta g) :
    ∃ s b, run M.static State.init ops = some s ∧ M.assembleVector E p s 0 = .ok b
      ∧ ∀ n < E.bs, ∑ d ∈ range N with d % E.bs = n, b d = 0 := by
  obtain ⟨hb, s, h1, R, h2, ⟨b, h3, h4⟩, -⟩ := assembled' hM ops hops hg G
  refine ⟨s, b, h1, h3, fun n hn => ?_⟩
  have h5 := vector_dot hM hN _ h4 (fun d => if d % E.bs = n then 1 else 0)
  simp only [mul_ite, mul_one, mul_zero] at h5
  rw [sum_filter, h5]
  refine sum_eq_zero (fun i hi => sum_eq_zero (fun e he => ?_))
  have hi' := mem_range.mp hi
  have he' := mem_range.mp he
  have T := row_test G hb (h2 i hi' e he')
  have haff := affineConst hM E (facetOf M i e).1 (facetOf M i e).2
  have hlk : ∀ q ∈ linkedPoints ((M.pair E i).row e), TieLinked (tdim M E (leads p)) (linksOf M E i e).length
      (facetPhi (M.kd E (facetOf M i e).1 (facetOf M i e).2))
      (facetGrad (M.kd E (facetOf M i e).1 (facetOf M i e).2)) (R i e) q := by
    intro q hq
    refine linked_row hM hunit T hi' he' (points_lt hq) ?_
    rw [points_eq M E he'] at hq
    simpa using (List.mem_filter.mp hq).2
  have work : ∀ a : ℕ × ℕ → ℝ, tieTranslationWork (tdim M E (leads p)) (linksOf M E i e).length a
        (fun m => if m = n then 1 else 0) = 0 →
      (∑ B ∈ range ((linksOf M E i e).length + 1), ∑ k ∈ range E.nd, ∑ m ∈ range E.bs,
        if (E.bs * E.dofs (coupledCell (facetOf M i e).1 (linksOf M E i e) B) k + m) % E.bs = n
          then a (B, k * E.bs + m) else 0) = 0 := by
    intro a ha
    refine Eq.trans ?_ ha
    unfold tieTranslationWork
    refine sum_congr rfl (fun B _ => sum_congr rfl (fun k _ => sum_congr rfl (fun m hm => ?_)))
    have hm' : m < E.bs := mem_range.mp hm
    show _ = a (B, k * E.bs + m) * (if m = n then 1 else 0)
    rw [dof_mod _ hm', mul_ite, mul_one, mul_zero]
  have tie : ∀ th : Bool, p ≠ .poisson → leads p = (if th then 4 else 3) →
      tieTranslationWork (tdim M E (leads p)) (linksOf M E i e).length
        ((TieKern.elRhs th).elem M E gamma theta i e (R i e)) (fun m => if m = n then 1 else 0) = 0
      ∧ (th = true → tieTranslationWork (tdim M E (leads p)) (linksOf M E i e).length
        (TieKern.thRhs.elem M E gamma theta i e (R i e)) (fun m => if m = n then 1 else 0) = 0) := by
    intro th hp hl
    have hbs : E.bs = M.gdim := by cases p <;> first | exact hb | exact absurd rfl hp
    have hd := tdims_eq M hbs (facetOf M i e).1 (facetOf M i e).2 th
    rw [← hl] at hd
    have := C52_translation_tie (M.kd E (facetOf M i e).1 (facetOf M i e).2) haff (linksOf M E i e).length
      (linkedPoints ((M.pair E i).row e)) (gammaTheta gamma theta) (R i e) hbs th (by rw [hd]; exact hlk)
      (fun m => if m = n then 1 else 0)
    rw [hd] at this
    refine ⟨this.1, fun h => ?_⟩
    subst h
    exact this.2 rfl
  cases p with
  | elasticity =>
    simp only [vecKerns, List.map_cons, List.map_nil, List.sum_cons, List.sum_nil, add_zero]
    exact work _ (tie false (by simp) rfl).1
  | thermo =>
    simp only [vecKerns, List.map_cons, List.map_nil, List.sum_cons, List.sum_nil, add_zero]
    rw [work _ (tie true (by simp) rfl).1, work _ ((tie true (by simp) rfl).2 rfl), add_zero]
  | poisson =>
    simp only [vecKerns, List.map_cons, List.map_nil, List.sum_cons, List.sum_nil, add_zero]
    refine work _ ?_
    have hd := pdims_eq M (show E.bs = 1 from hb) (facetOf M i e).1 (facetOf M i e).2
    have := C52_translation_heat (M.kd E (facetOf M i e).1 (facetOf M i e).2) haff (linksOf M E i e).length
      (linkedPoints ((M.pair E i).row e)) (gammaTheta gamma theta) (R i e) (by rw [hd]; exact hlk)
      (fun m => if m = n then 1 else 0)
    rw [hd] at this
    exact this

theorem tieSum_zero (M : TieMesh) (E : TieElement) (F : ℕ → ℕ → ℕ → ℕ → ℕ → ℝ)
    (h : ∀ i < M.numPairs, ∀ e < M.localFacets i, ∀ cell f, (M.facets i)[e]? = some (cell, f) → ∀ q < M.nq,
      F i e cell f q = 0) : tieSum M F = 0 := by
  unfold tieSum
  refine sum_eq_zero (fun i hi => sum_eq_zero (fun e he => ?_))
  cases hf : (M.facets i)[e]? with
  | none => rfl
  | some x =>
    refine sum_eq_zero (fun q hq => ?_)
    rw [h i (mem_range.mp hi) e (mem_range.mp he) x.1 x.2 hf q (mem_range.mp hq), mul_zero, ite_self]

/-- A constant has no jump and no gradient. -/
theorem constant_at (hunit : TieSumsToOne M E) (x : ℕ → ℝ) {i e cell f q a : ℕ}
    (hi : i < M.numPairs) (he : e < M.localFacets i) (hf : (M.facets i)[e]? = some (cell, f)) (hq : q < M.nq)
    (ha : a < E.bs) :
    tieJumpAt M E i e cell f (fun d => x (d % E.bs)) q a = 0
    ∧ ∀ b < M.gdim, tieMeanGrad M E i e cell f (fun d => x (d % E.bs)) q a b = 0 := by
  obtain ⟨h1, h2, h3, h4⟩ := hunit i hi e he cell f hf q hq
  refine ⟨?_, fun b hb => ?_⟩
  · unfold tieJumpAt tieValue tieOpposite
    simp only [dof_mod _ ha]
    rw [← sum_mul, ← sum_mul, h1, h3, sub_self]
  · unfold tieMeanGrad tieGrad tieOppositeGrad
    simp only [dof_mod _ ha]
    rw [← sum_mul, ← sum_mul, h4 b hb, sum_comm]
    rw [sum_eq_zero (fun j hj => by rw [← mul_sum, h2 j (mem_range.mp hj), mul_zero])]
    simp

/-- C121: a translation (constant temperature) of both bodies together is in the kernel of the matrix, when on
every facet the tied points come first. -/
theorem C121_constants_partial (hM : TieMesh.Valid M) (hE : TieElement.Valid M E) (N : ℕ) (hN : TieDofsBelow M E N)
    (hT : TiedFirst M) (hunit : TieSumsToOne M E) (ops : List (Op ℝ))
    (hops : ProperHistory M.static Tracked.new ops) (p : Problem)
    (hg : (ops.foldl Tracked.step Tracked.new).get p = some g) (G : GeneratedFor M E EQ p mat gamma theta g)
    (x : ℕ → ℝ) :
    ∃ s A, run M.static State.init ops = some s ∧ M.assembleMatrix E p s 0 = .ok A
      ∧ ∀ d < N, ∑ c ∈ range N, A (d, c) * x (c % E.bs) = 0 := by
  have hb := (assembled' hM ops hops hg G).1
  have el : p ≠ .poisson → ∀ v, elasticTie M E EQ mat gamma theta (fun d => x (d % E.bs)) v = 0 := by
    intro hp v
    have hbs : E.bs = M.gdim := by cases p <;> first | exact hb | exact absurd rfl hp
    refine tieSum_zero M E _ (fun i hi e he cell f hf q hq => ?_)
    have hc := fun a (ha : a < M.gdim) => constant_at hunit x hi he hf hq (by rw [hbs]; exact ha : a < E.bs)
    unfold elasticPart
    rw [sum_eq_zero (fun a ha => by
        rw [(hc a (mem_range.mp ha)).1, traction_zero _ _ _ (fun a ha b hb => (hc a ha).2 b hb) (mem_range.mp ha)]
        ring),
      sum_eq_zero (fun a ha => by rw [(hc a (mem_range.mp ha)).1]; ring)]
    ring
  cases p with
  | elasticity =>
    obtain ⟨s, h1, ⟨A, h2, h3⟩, -⟩ := C117_elasticity_partial hM hE N hN hT ops hops hg G
    exact ⟨s, A, h1, h2, fun d hd => row_of_form (b := 0) h3 (fun v => by simp [el (by simp) v]) hd⟩
  | thermo =>
    obtain ⟨s, h1, ⟨A, h2, h3⟩, -⟩ := C117_thermo_partial hM hE N hN hT ops hops hg G
    exact ⟨s, A, h1, h2, fun d hd => row_of_form (b := 0) h3 (fun v => by simp [el (by simp) v]) hd⟩
  | poisson =>
    obtain ⟨s, h1, ⟨A, h2, h3⟩, -⟩ := C117_heat_partial hM hE N hN hT ops hops hg G
    refine ⟨s, A, h1, h2, fun d hd => row_of_form (b := 0) h3 (fun v => ?_) hd⟩
    rw [heatTie, tieSum_zero M E _ (fun i hi e he cell f hf q hq => ?_)]
    · simp
    have hc := constant_at hunit x hi he hf hq (show 0 < E.bs by rw [show E.bs = 1 from hb]; omega)
    unfold heatPart
    rw [hc.1, sum_eq_zero (fun b hb => by rw [hc.2 b (mem_range.mp hb), zero_mul])]
    ring

/-! ### the hypotheses can be met -/

/-- Coefficients of one generation: solution `u`, temperature `T` and materials `mat`. -/
def coefsOf (M : TieMesh) (E EQ ET : TieElement) (p : Problem) (mat : Key → ℕ → ℝ) (u T : ℕ → ℝ) : Coefs ℝ := fun k =>
  if k = trigger p then some (M.func E u) else if k = .T then some (M.func ET T) else some (M.func EQ (mat k))

/-- What is remembered after generating the data once. -/
def genOf (M : TieMesh) (E EQ ET : TieElement) (p : Problem) (mat : Key → ℕ → ℝ) (u T : ℕ → ℝ) (gamma theta : ℝ) : Gen ℝ :=
  ⟨p, M.space E, coefsOf M E EQ ET p mat u T, gamma, theta, some (coefsOf M E EQ ET p mat u T)⟩

/-- Generating the data once, for any mesh and spaces of the right kind, satisfies the hypotheses of C117–C121 on
the calls. -/
theorem generate_once (hM : TieMesh.Valid M) (E EQ ET : TieElement) (p : Problem) (hE : E.bs = comps M.static p)
    (hEQ : EQ.bs = 1) (hET : ET.bs = 1) (mat : Key → ℕ → ℝ) (u T : ℕ → ℝ) (gamma theta : ℝ) :
    ProperHistory M.static Tracked.new [Op.gen p (M.space E) (coefsOf M E EQ ET p mat u T) gamma theta]
    ∧ ([Op.gen p (M.space E) (coefsOf M E EQ ET p mat u T) gamma theta].foldl Tracked.step Tracked.new).get p
      = some (genOf M E EQ ET p mat u T gamma theta)
    ∧ GeneratedFor M E EQ p mat gamma theta (genOf M E EQ ET p mat u T gamma theta)
    ∧ SolutionIs M E u (genOf M E EQ ET p mat u T gamma theta)
    ∧ (p = .thermo → TemperatureIs M ET T (genOf M E EQ ET p mat u T gamma theta)) := by
  have h0 : 0 < E.bs := by
    rw [hE]
    have := hM.dim
    cases p <;> first | exact this | exact Nat.one_pos
  have hreq : ∀ k ∈ required p, coefsOf M E EQ ET p mat u T k = some (M.func EQ (mat k)) := by
    cases p <;> simp [required, coefsOf, trigger]
  have packed : ∀ (F : TieElement) (w : ℕ → ℝ), 0 < F.bs → (M.func F w).Packed M.static F.bs := fun F w h =>
    ⟨fun i _ => (func_val M h w i).1, fun i _ => rfl, fun i _ => (func_grad hM h w i).1, fun i _ => rfl⟩
  have g1 : Given (coefsOf M E EQ ET p mat u T) (required p) := fun k hk => by rw [hreq k hk]; rfl
  have g2 : Given (coefsOf M E EQ ET p mat u T) (solution p) := by
    intro k hk
    unfold coefsOf
    split
    · rfl
    · split <;> rfl
  refine ⟨⟨⟨⟨hE, fun i _ => ?_, fun i _ => ?_⟩, fun k hk f hf => ?_, ⟨fun f hf => ?_, fun hp f hf => ?_⟩⟩, trivial⟩,
    ?_, ⟨rfl, rfl, rfl, rfl, hreq, hEQ⟩, ⟨_, rfl, by simp [coefsOf, genOf]⟩, fun hp => ⟨hET, _, rfl, ?_⟩⟩
  · obtain ⟨a, -, h⟩ := test_arr M E i
    rw [h]
    show M.nq * M.nq * E.nd * E.bs = M.nq * E.nd * M.nq * E.bs
    ring
  · obtain ⟨a, -, h⟩ := gtest_arr hM E i
    rw [h]
    show M.nq * M.nq * E.nd * M.gdim = M.nq * E.nd * M.nq * M.gdim
    ring
  · rw [hreq k hk] at hf
    obtain rfl := Option.some.inj hf
    exact fun i _ => (func_const0 M hEQ (mat k) i).1
  · have : coefsOf M E EQ ET p mat u T (trigger p) = some (M.func E u) := by simp [coefsOf]
    rw [this] at hf
    obtain rfl := Option.some.inj hf
    exact ⟨rfl, rfl, packed E u h0⟩
  · subst hp
    have : coefsOf M E EQ ET .thermo mat u T .T = some (M.func ET T) := by simp [coefsOf, trigger]
    rw [this] at hf
    obtain rfl := Option.some.inj hf
    have := packed ET T (by omega)
    rw [hET] at this
    exact this
  · simp only [List.foldl_cons, List.foldl_nil, Tracked.step]
    rw [if_pos g1, if_pos g2]
    cases p <;> rfl
  · subst hp
    simp [coefsOf, trigger]

/-- Two cells tied at one facet with two quadrature points; the gap of the first point is `(far, far)`. -/
def exM (far : ℝ) : TieMesh where
  numPairs := 1
  nq := 2
  gdim := 2
  tdim := 2
  cell := .triangle
  affine := true
  off := fun _ => 0
  weights := fun _ _ => 1
  nref := fun _ a => if a = 0 then 1 else 0
  geo := ⟨1, fun _ => 0, fun _ _ => 0⟩
  cphi := fun _ _ _ => 0
  inv := fun _ j b => if j = b then 1 else 0
  det := fun _ _ => 1
  facets := fun _ => [(0, 0)]
  localFacets := fun _ => 1
  closest := fun _ _ => 0
  subCell := fun _ => 0
  parentCell := fun c => c + 1
  numCells := 1
  gap := fun _ r => if r < 2 then far else 0
  ny := fun _ _ => 0
  h := fun _ _ => 1

/-- One basis function per cell; `basis r` at the closest point of point `r`. -/
def exE (bs : ℕ) (basis : ℕ → ℝ) : TieElement where
  nd := 1
  bs := bs
  phi := fun _ _ => 1
  dphi := fun _ _ _ => 0
  phi0 := fun _ _ => 1
  dofs := fun c _ => c
  sub := fun c _ => c
  basis := fun _ r _ => basis r
  grad := fun _ _ _ _ _ => 0

theorem exM_valid (far : ℝ) : TieMesh.Valid (exM far) where
  dim := by simp [exM]
  cell := by simp [exM]
  loc := by simp [exM]
  cells := by simp [exM]
  order := by intro c c' h h'; simp [exM] at h' ⊢; omega
  affine := by simp [exM]

theorem exE_valid (far : ℝ) (bs : ℕ) (basis : ℕ → ℝ) : TieElement.Valid (exM far) (exE bs basis) := by
  intro c i c' i' hc _ hc' _ h
  have : c < 1 := hc
  have : c' < 1 := hc'
  have : c = c' := by omega
  rw [this]; rfl

theorem exE_below (far : ℝ) (bs : ℕ) (basis : ℕ → ℝ) : TieDofsBelow (exM far) (exE bs basis) (2 * bs) := by
  refine ⟨?_, ?_⟩
  · simp [exM, exE]; omega
  · intro c hc a _
    have : c < 1 := hc
    obtain rfl : c = 0 := by omega
    show bs * (0 + 1) + bs ≤ 2 * bs
    omega

theorem exE_unit (far : ℝ) (bs : ℕ) : TieSumsToOne (exM far) (exE bs fun _ => 1) := by
  intro i _ e _ cell f _ q _
  simp [exE]

/-- The second point is tied, the first one if its gap is not far. -/
theorem exM_tied (far : ℝ) : Tied (exM far) 0 0 1 ∧ (Tied (exM 0) 0 0 0) ∧ (1 < far → ¬Tied (exM far) 0 0 0) := by
  have h : ∀ far q, gapNorm (exM far) 0 0 q
      = Real.sqrt (∑ a ∈ range 2, (if (0 * 2 + q) * 2 + a < 2 then far else 0) ^ 2) := fun _ _ => rfl
  have h1 : gapNorm (exM far) 0 0 1 = 0 := by rw [h]; simp [sum_range_succ]
  have h2 : gapNorm (exM 0) 0 0 0 = 0 := by rw [h]; simp
  refine ⟨⟨⟨0, by simp [exM], ?_⟩, Or.inl ?_⟩, ⟨⟨0, by simp [exM], ?_⟩, Or.inl ?_⟩, ?_⟩
  · rw [h1]; simp [exM]
  · rw [h1]; norm_num
  · rw [h2]; simp [exM]
  · rw [h2]; norm_num
  · rintro hf ⟨⟨e', -, h3⟩, -⟩
    rw [h] at h3
    have h4 : (exM far).h 0 e' = 1 := rfl
    rw [h4, Real.sqrt_le_iff] at h3
    simp [sum_range_succ] at h3
    nlinarith

theorem exM_first : TiedFirst (exM 0) := by
  intro i hi e he q q' hqq hq _
  have h1 : i < 1 := hi
  have h2 : e < 1 := he
  have h3 : q < 2 := hq
  obtain rfl : i = 0 := by omega
  obtain rfl : e = 0 := by omega
  obtain rfl : q' = 0 := by omega
  exact (exM_tied 0).2.1

/-- The hypotheses of C117–C121 hold for the example and every problem, parameters and functions. -/
example (p : Problem) (mat : Key → ℕ → ℝ) (u T : ℕ → ℝ) (gamma theta : ℝ) :
    ∃ bs ops g, TieMesh.Valid (exM 0) ∧ TieElement.Valid (exM 0) (exE bs fun _ => 1)
      ∧ TieDofsBelow (exM 0) (exE bs fun _ => 1) (2 * bs) ∧ TiedFirst (exM 0)
      ∧ TieSumsToOne (exM 0) (exE bs fun _ => 1)
      ∧ ProperHistory (exM 0).static Tracked.new ops
      ∧ (ops.foldl Tracked.step Tracked.new).get p = some g
      ∧ GeneratedFor (exM 0) (exE bs fun _ => 1) (exE 1 fun _ => 1) p mat gamma theta g
      ∧ SolutionIs (exM 0) (exE bs fun _ => 1) u g
      ∧ (p = .thermo → TemperatureIs (exM 0) (exE 1 fun _ => 1) T g)
      ∧ Tied (exM 0) 0 0 0 ∧ Tied (exM 0) 0 0 1 := by
  obtain ⟨h1, h2, h3, h4, h5⟩ := generate_once (exM_valid 0) (exE (comps (exM 0).static p) fun _ => 1) (exE 1 fun _ => 1)
    (exE 1 fun _ => 1) p rfl rfl rfl mat u T gamma theta
  exact ⟨_, _, _, exM_valid 0, exE_valid _ _ _, exE_below _ _ _, exM_first, exE_unit _ _, h1, h2, h3, h4, h5,
    (exM_tied 0).2.1, (exM_tied 0).1⟩

/-- The hypotheses of C119 (and of C120) hold for a facet with a point that is not tied before one that
is. -/
example (p : Problem) (u T : ℕ → ℝ) (theta : ℝ) :
    ∃ bs ops g, TieMesh.Valid (exM 9) ∧ ProperHistory (exM 9).static Tracked.new ops
      ∧ (ops.foldl Tracked.step Tracked.new).get p = some g
      ∧ GeneratedFor (exM 9) (exE bs fun _ => 1) (exE 1 fun _ => 1) p (fun _ _ => 1) 10 theta g
      ∧ (∀ i < (exM 9).numPairs, ∀ e < (exM 9).localFacets i, 0 < (exM 9).h i e)
      ∧ (∀ i < (exM 9).numPairs, ∀ x ∈ (exM 9).facets i, ∀ q < (exM 9).nq,
        0 ≤ tieWeight (exM 9) x.1 x.2 q)
      ∧ (∀ i < (exM 9).numPairs, ∀ x ∈ (exM 9).facets i, 0 ≤ midValue (exE 1 fun _ => 1) x.1 x.2 (fun _ => 1))
      ∧ TieDofsBelow (exM 9) (exE bs fun _ => 1) (2 * bs) ∧ TieSumsToOne (exM 9) (exE bs fun _ => 1)
      ∧ ¬Tied (exM 9) 0 0 0 ∧ Tied (exM 9) 0 0 1 := by
  obtain ⟨h1, h2, h3, -⟩ := generate_once (exM_valid 9) (exE (comps (exM 9).static p) fun _ => 1) (exE 1 fun _ => 1)
    (exE 1 fun _ => 1) p rfl rfl rfl (fun _ _ => 1) u T 10 theta
  refine ⟨_, _, _, exM_valid 9, h1, h2, h3, ?_, ?_, ?_, exE_below _ _ _, exE_unit _ _, (exM_tied 9).2.2 (by norm_num),
    (exM_tied 9).1⟩
  · simp [exM]
  · intro i _ x _ q _
    simp [exM, tieWeight]
  · intro i _ x _
    simp [exE, midValue]

theorem eq_singleton {L : List ℕ} {x : ℕ} (h1 : L.Pairwise (· < ·)) (h2 : ∀ c, c ∈ L ↔ c = x) : L = [x] := by
  cases L with
  | nil => exact absurd ((h2 x).mpr rfl) (by simp)
  | cons y l =>
    have hy : y = x := (h2 y).mp (by simp)
    cases l with
    | nil => rw [hy]
    | cons z l =>
      have hz : z = x := (h2 z).mp (by simp)
      have := (List.pairwise_cons.mp h1).1 z (by simp)
      omega

/-- C118 fails if a point that is not tied comes before one that is: the matrix takes the basis functions of the
linked cell from the wrong point (see C31), the vector does not.  Heat conduction, one facet with two points, the
first one not tied. -/
theorem C118_violated : ∃ (M : TieMesh) (E EQ : TieElement) (mat : Key → ℕ → ℝ) (u : ℕ → ℝ) (ops : List (Op ℝ)) (g : Gen ℝ),
    TieMesh.Valid M ∧ TieElement.Valid M E ∧ TieDofsBelow M E 2
    ∧ ProperHistory M.static Tracked.new ops ∧ (ops.foldl Tracked.step Tracked.new).get .poisson = some g
    ∧ GeneratedFor M E EQ .poisson mat 1 0 g ∧ SolutionIs M E u g
    ∧ ∃ s A b, run M.static State.init ops = some s ∧ M.assembleMatrix E .poisson s 0 = .ok A
      ∧ M.assembleVector E .poisson s 0 = .ok b ∧ ∑ c ∈ range 2, A (0, c) * u c ≠ b 0 := by
  obtain ⟨hops, hg, G, hu, -⟩ := generate_once (exM_valid 9) (exE 1 fun r => r) (exE 1 fun _ => 1)
    (exE 1 fun _ => 1) .poisson rfl rfl rfl (fun _ _ => 1) (fun d => d) 0 1 0
  refine ⟨exM 9, exE 1 fun r => r, exE 1 fun _ => 1, _, _, _, _, exM_valid 9, exE_valid _ _ _, exE_below _ _ _, hops, hg, G, hu, ?_⟩
  obtain ⟨hb, s, h1, R, h2, ⟨b, h3, h4⟩, A, h5, h6⟩ := assembled' (exM_valid 9) _ hops hg G
  refine ⟨s, A, b, h1, h5, h3, ?_⟩
  have he : 0 < (exM 9).localFacets 0 := Nat.one_pos
  have hR := h2 0 Nat.one_pos 0 he
  have T : TestRow (exM 9) (exE 1 fun r => r) 2 0 0 (R 0 0) := row_test G hb hR
  have hf : ((exM 9).facets 0)[0]? = some (0, 0) := rfl
  have S : SolAt (exM 9) (exE 1 fun r => r) 2 0 0 0 0 (fun d => d) (R 0 0) :=
    row_sol G hb hR (exM_valid 9) (exE_valid _ _ _) hu he hf
  obtain ⟨l0, l1⟩ := (row_lead G hR hf).2.2 rfl
  have hL := linksOf_list (exM 9) (exE 1 fun r => r) 0 0
  have ht := (exM_tied 9).1
  have hnt := (exM_tied 9).2.2 (by norm_num)
  have hLe : linksOf (exM 9) (exE 1 fun r => r) 0 0 = [1] := by
    refine eq_singleton hL.1 (fun c => ?_)
    rw [hL.2]
    constructor
    · rintro ⟨q, hq, h⟩
      exact ((linked_tied he hq c).mp h).2
    · rintro rfl
      exact ⟨1, by simp [TieMesh.pair, TieMesh.searched, exM], (linked_tied he (by simp [exM]) 1).mpr ⟨ht, rfl⟩⟩
  have hold : old ((exM 9).pair (exE 1 fun r => r) 0) 0 = [1] := by
    refine eq_singleton (positiveToOld_strict _) (fun q => ?_)
    rw [old, mem_positiveToOld]
    have hq : ∀ q < 2, (0 ≤ (testCells ((exM 9).pair (exE 1 fun r => r) 0) 0).getD q 0 ↔ Tied (exM 9) 0 0 q) := by
      intro q hq
      rw [testCells_nonneg_iff _ _ _ hq]
      exact tied_iff (exM 9) he hq
    have hlen : (testCells ((exM 9).pair (exE 1 fun r => r) 0) 0).length = 2 := by
      rw [testCells, List.length_map, Packing.row_length]; rfl
    rw [hlen]
    constructor
    · rintro ⟨h, h'⟩
      rw [hq q h] at h'
      by_contra hne
      obtain rfl : q = 0 := by omega
      exact hnt h'
    · rintro rfl
      exact ⟨by omega, (hq 1 (by omega)).mpr ht⟩
  have hpt : linkedPoints (((exM 9).pair (exE 1 fun r => r) 0).row 0) = [1] := by
    classical
    rw [points_eq (exM 9) _ he]
    show (List.range 2).filter _ = _
    simp [List.range_succ, ht, hnt]
  have htest : (tdim (exM 9) (exE 1 fun r => r) 2).test (R 0 0) 1 0 0 0 = 0 := by
    obtain ⟨a, ha, hta⟩ := test_arr (exM 9) (exE 1 fun r => r) 0
    obtain ⟨x, hx, hv⟩ := packTest_value ((exM 9).pair (exE 1 fun r => r) 0) ((exE 1 fun r => r).basis 0)
      (pair_fits (exM 9) (exE 1 fun r => r) 0)
    obtain rfl : x = a := Except.ok.inj (hx.symm.trans ha)
    rw [T.entry hta (by simp [exM]) (by simp [exM]) (by simp [exE]) (by simp [exE])]
    have := (hv 0 [1] he (hLe ▸ hL) 0 0 0 (by simp [TieMesh.pair, TieMesh.searched, exM])
      (by simp [TieMesh.pair, TieMesh.searched, exE]) (by simp [TieMesh.pair, TieMesh.searched, exE])).1 0 (by rw [hold]; simp)
      (by simp) (by rw [hold]; exact (linked_tied he (by simp [exM]) 1).mpr ⟨ht, rfl⟩)
    rw [hold] at this
    refine Eq.trans this ?_
    show ((0 * 2 + 0 : ℕ) : ℝ) = 0
    simp
  have hgtest : ∀ b < 2, (tdim (exM 9) (exE 1 fun r => r) 2).gtest (R 0 0) 1 0 0 b = 0 := by
    intro b hb
    obtain ⟨k0, g1, g2⟩ := T.gsome (exM_valid 9) he hL (q := 1) (by simp [exM])
    by_cases hk : 0 = k0
    · subst hk
      obtain ⟨r, hr, g3⟩ := g2 (by rw [hLe]; simp)
      exact g3 0 (by simp [exE]) b hb
    · exact g1 0 (by rw [hLe]; simp) hk 0 (by simp [exE]) b hb
  have hA : A (0, 1) = 0 := by
    rw [h6]
    show ∑ i ∈ range 1, ∑ e ∈ range 1, _ = _
    rw [sum_range_one, sum_range_one, hLe]
    have hbl := poisJac_blocks ((exM 9).kd (exE 1 fun r => r) 0 0) rfl (pOff ((exM 9).kd (exE 1 fun r => r) 0 0)) (R 0 0)
      (gammaTheta 1 0) 1 [1] 0 0 0 0 (by simp [TieMesh.kd, exE]) (by simp [TieMesh.kd, exE]) (by simp [TieMesh.kd, exE])
      (by simp [TieMesh.kd, exE])
    have h : poisJac ((exM 9).kd (exE 1 fun r => r) 0 0) (pOff ((exM 9).kd (exE 1 fun r => r) 0 0)) (R 0 0)
        (gammaTheta 1 0) 1 [1] 0 (1, 0) = 0 := by
      refine ((hbl.2 0 (by omega)).1).trans ?_
      have j1 : poisJ ((exM 9).kd (exE 1 fun r => r) 0 0) (pOff ((exM 9).kd (exE 1 fun r => r) 0 0)) (R 0 0) 1 1 0 0 = 0 := by
        show -(R 0 0) (poisIdx _ _ 1 0 0) = 0
        rw [poisIdx_eq ((exM 9).kd (exE 1 fun r => r) 0 0) (R 0 0) 1 0 0]
        exact neg_eq_zero.mpr htest
      have s1 : poisS ((exM 9).kd (exE 1 fun r => r) 0 0) (pOff ((exM 9).kd (exE 1 fun r => r) 0 0)) (R 0 0) 1 1 0 0 0 = 0 := by
        refine sum_eq_zero (fun b hb => ?_)
        rw [poisGIdx_eq ((exM 9).kd (exE 1 fun r => r) 0 0) (R 0 0) 1 0 0 b]
        exact mul_eq_zero_of_left (hgtest b (mem_range.mp hb)) _
      simp [poisM, absM, j1, s1]
    have e : (matKern .poisson).elem (exM 9) (exE 1 fun r => r) 1 0 0 0 (R 0 0) (1, 0) = 0 := by
      unfold TieKern.elem
      rw [hLe, hpt]
      exact h
    show facetMatrix 1 1 (fun c _ => c) 0 [1] _ 0 1 = 0
    simp [facetMatrix, scatter2]
    exact e
  have hb0 : b 0 = -(1 / 2) := by
    rw [h4]
    show ∑ i ∈ range 1, ∑ e ∈ range 1, _ = _
    rw [sum_range_one, sum_range_one, hLe]
    have h := C79_heat ((exM 9).kd (exE 1 fun r => r) 0 0) (affineConst (exM_valid 9) _ _ _) 1 [1] (gammaTheta 1 0) (R 0 0) 0 0 0
      (by omega) (by simp [TieMesh.kd, exE])
    have e : TieKern.heatRhs.elem (exM 9) (exE 1 fun r => r) 1 0 0 0 (R 0 0) (0, 0) = -(1 / 2) := by
      unfold TieKern.elem
      rw [hLe, hpt]
      refine h.trans ?_
      rw [pdims_eq (exM 9) rfl 0 0]
      simp only [List.map_cons, List.map_nil, List.sum_cons, List.sum_nil, add_zero, zero_add, heatForm_eq]
      have hq : 1 < (exM 9).nq := by simp [exM]
      have ha : 0 < (exE 1 fun r => r).bs := by simp [exE]
      rw [S.jump hq ha ht, l0, l1]
      have hm : ∑ b ∈ range (tdim (exM 9) (exE 1 fun r => r) 2).g,
          (tdim (exM 9) (exE 1 fun r => r) 2).meanGrad (R 0 0) 1 0 b
            * facetNormal ((exM 9).kd (exE 1 fun r => r) 0 0) 1 b = 0 := by
        refine sum_eq_zero (fun b hb => ?_)
        rw [S.mean hq ha (mem_range.mp hb) ht]
        simp [tieMeanGrad, tieGrad, tieOppositeGrad, exE]
      unfold heatPart
      rw [hm]
      simp [facetWeight, TieMesh.kd, tieJumpAt, tieValue, tieOpposite, oppositeCell, midValue, gammaTheta, TieDims.vJump,
        facetPhi, exM, exE]
    show ((([TieKern.heatRhs].map _).map _).sum : ℝ) = _
    simp only [List.map_cons, List.map_nil, List.sum_cons, List.sum_nil, add_zero]
    show facetVector 1 1 (fun c _ => c) 0 [1] _ 0 = _
    simp [facetVector, scatter]
    rw [e]; norm_num
  rw [sum_range_succ, sum_range_one, hA, hb0]
  norm_num

end

end Verif.TieData
