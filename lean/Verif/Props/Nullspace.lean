import Verif.Lemmas.Nullspace
import Verif.Spec.Elasticity
import Mathlib.Algebra.BigOperators.Ring.Finset
import Mathlib.Algebra.BigOperators.Fin
import Mathlib.Tactic.Ring
import Mathlib.Data.List.GetD
import Mathlib.Tactic.NormNum

/-! C58, C89, C90: null space vectors are rigid body motions and carry no stress. -/

namespace Verif.Nullspace

open Verif.Spec Finset

noncomputable section

theorem dim_eq {d : ℕ} (hd : d = 2 ∨ d = 3) : dim d = rigidDim d := by
  rcases hd with rfl | rfl <;> rfl

theorem mode_rigid {d : ℕ} (hd : d = 2 ∨ d = 3) (m : ℕ) : (mode d m).Rigid d := by
  intro i hi j hj
  rcases hd with rfl | rfl
  · interval_cases i <;> interval_cases j <;> simp [mode] <;> split <;> simp
  · by_cases h3 : m = 3
    · subst h3; interval_cases i <;> interval_cases j <;> simp [mode]
    · by_cases h4 : m = 4
      · subst h4; interval_cases i <;> interval_cases j <;> simp [mode]
      · by_cases h5 : m = 5
        · subst h5; interval_cases i <;> interval_cases j <;> simp [mode]
        · simp [mode, h3, h4, h5]

theorem mode_span {d : ℕ} (hd : d = 2 ∨ d = 3) (R : Motion) (hR : R.Rigid d) :
    ∃ c : ℕ → ℝ, ∀ (y : ℕ → ℝ), ∀ i < d,
      R.at' d y i = ∑ m ∈ range (rigidDim d), c m * (mode d m).at' d y i := by
  rcases hd with rfl | rfl
  · refine ⟨fun m => if m = 0 then R.a 0 else if m = 1 then R.a 1 else R.W 1 0, fun y i hi => ?_⟩
    have h00 := hR 0 (by omega) 0 (by omega)
    have h11 := hR 1 (by omega) 1 (by omega)
    have h01 := hR 0 (by omega) 1 (by omega)
    have e0 : R.W 0 0 = 0 := by linarith
    have e1 : R.W 1 1 = 0 := by linarith
    interval_cases i <;> simp [rigidDim, Motion.at', mode, sum_range_succ, e0, e1, h01]
  · refine ⟨fun m => if m = 0 then R.a 0 else if m = 1 then R.a 1 else if m = 2 then R.a 2 else
      if m = 3 then R.W 1 0 else if m = 4 then R.W 0 2 else R.W 2 1, fun y i hi => ?_⟩
    have h00 := hR 0 (by omega) 0 (by omega)
    have h11 := hR 1 (by omega) 1 (by omega)
    have h22 := hR 2 (by omega) 2 (by omega)
    have h01 := hR 0 (by omega) 1 (by omega)
    have h20 := hR 2 (by omega) 0 (by omega)
    have h12 := hR 1 (by omega) 2 (by omega)
    have e0 : R.W 0 0 = 0 := by linarith
    have e1 : R.W 1 1 = 0 := by linarith
    have e2 : R.W 2 2 = 0 := by linarith
    interval_cases i <;> simp [rigidDim, Motion.at', mode, sum_range_succ, e0, e1, e2, h01, h20, h12] <;> ring

theorem build_value {d : ℕ} (hd : d = 2 ∨ d = 3) (x : ℕ → ℕ → ℝ) (cellDofs : ℕ → List ℕ)
    (mt : List (ℕ × ℤ)) (tags : List ℤ) {j m i : ℕ} (node : ℕ) (hj : j < tags.length)
    (hm : m < rigidDim d) (hi : i < d) :
    build d x cellDofs mt tags (j * rigidDim d + m, d * node + i)
      = if node ∈ bodyDofs cellDofs mt (tags.getD j 0) then (mode d m).at' d (x node) i else 0 := by
  rw [← dim_eq hd] at hm ⊢
  exact value_of_puts hd (D := fun j => bodyDofs cellDofs mt (tags.getD j 0))
    (fun j _ => puts_body d j hd x _) hj hm hi

open Classical in
/-- **C58** (vectors).  In two and three dimensions there are rigid motions `M 0, M 1, ...`, the same for
every mesh, such that vector number `j * rigidDim d + m` of `build_nullspace_multibody` has at every
component of every node the value of `M m` at the coordinates of the node if the node belongs to a cell
with the tag of body `j`, and zero otherwise.  The motions `M m` generate every rigid motion. -/
theorem C58_rigid_motions (d : ℕ) (hd : d = 2 ∨ d = 3) :
    ∃ M : ℕ → Motion, (∀ m < rigidDim d, (M m).Rigid d) ∧
      (∀ R : Motion, R.Rigid d → ∃ c : ℕ → ℝ, ∀ (y : ℕ → ℝ), ∀ i < d,
        R.at' d y i = ∑ m ∈ range (rigidDim d), c m * (M m).at' d y i) ∧
      (∀ (x : ℕ → ℕ → ℝ) (cellDofs : ℕ → List ℕ) (mt : List (ℕ × ℤ)) (tags : List ℤ) (j m node i : ℕ),
        j < tags.length → m < rigidDim d → i < d →
        build d x cellDofs mt tags (j * rigidDim d + m, d * node + i)
          = if InBody cellDofs mt (tags.getD j 0) node then (M m).at' d (x node) i else 0) ∧
      (∀ (x : ℕ → ℕ → ℝ) (dofs : List ℕ), ∃ B, pyRigid d x dofs = some B ∧
        ∀ m node i, m < rigidDim d → i < d →
          B (m, d * node + i) = if node ∈ dofs then (M m).at' d (x node) i else 0) := by
  refine ⟨mode d, fun m _ => mode_rigid hd m, mode_span hd, ?_, ?_⟩
  · intro x cellDofs mt tags j m node i hj hm hi
    rw [build_value hd x cellDofs mt tags node hj hm hi]
    simp only [mem_bodyDofs]
  · intro x dofs
    refine ⟨_, by unfold pyRigid; rw [if_pos hd], fun m node i hm hi => ?_⟩
    rw [← dim_eq hd] at hm
    have h := value_of_puts (n := 1) hd (x := x) (D := fun _ => dofs)
      (f := fun j => pyBody d (j * dim d) x dofs) (fun j _ => puts_pyBody d _ hd x _)
      (j := 0) (m := m) (node := node) (i := i) (by omega) hm hi
    simp only [loop_succ, loop_zero, zero_mul, zero_add] at h
    rw [h]

theorem cellGradient_rigid {d : ℕ} {nodes : List ℕ} {x : ℕ → ℕ → ℝ} {D : ℕ → ℕ → ℝ}
    (hD : ReproducesAffine d nodes x D) (R : Motion) {u : ℕ → ℝ} {i l : ℕ} (hl : l < d)
    (hu : ∀ k < nodes.length, u (d * nodes.getD k 0 + i) = R.at' d (x (nodes.getD k 0)) i) :
    cellGradient d nodes D u i l = R.W i l := by
  unfold cellGradient
  have e : ∀ k ∈ range nodes.length, D k l * u (d * nodes.getD k 0 + i)
      = R.a i * D k l + ∑ j ∈ range d, R.W i j * (D k l * x (nodes.getD k 0) j) := by
    intro k hk
    rw [hu k (mem_range.mp hk), Motion.at', mul_add, mul_sum]
    congr 1
    · ring
    · exact sum_congr rfl fun j _ => by ring
  rw [sum_congr rfl e, sum_add_distrib, ← mul_sum, hD.1 l hl, mul_zero, zero_add, sum_comm]
  have e2 : ∀ j ∈ range d, ∑ k ∈ range nodes.length, R.W i j * (D k l * x (nodes.getD k 0) j)
      = if j = l then R.W i l else 0 := by
    intro j hj
    rw [← mul_sum, hD.2 l hl j (mem_range.mp hj)]
    split
    · rename_i h; rw [h, mul_one]
    · rw [mul_zero]
  rw [sum_congr rfl e2, sum_ite_eq' (range d) l, if_pos (mem_range.mpr hl)]

theorem cellGradient_sum {d : ℕ} {nodes : List ℕ} {D : ℕ → ℕ → ℝ} {n : ℕ} (c : ℕ → ℝ)
    (B : ℕ → ℕ → ℝ) (i l : ℕ) :
    cellGradient d nodes D (fun e => ∑ v ∈ range n, c v * B v e) i l
      = ∑ v ∈ range n, c v * cellGradient d nodes D (B v) i l := by
  unfold cellGradient
  simp only [mul_sum]
  rw [sum_comm]
  exact sum_congr rfl fun v _ => sum_congr rfl fun k _ => by ring

/-- **C58** (no stress).  Every linear combination of the vectors (hence also every vector of an
orthonormalised basis of their span) has zero stress at every point of every cell whose nodes lie
either all in body `j` or all outside it, for each `j`, if the element reproduces affine functions. -/
theorem C58_no_stress (d : ℕ) (hd : d = 2 ∨ d = 3) (x : ℕ → ℕ → ℝ) (cellDofs : ℕ → List ℕ)
    (mt : List (ℕ × ℤ)) (tags : List ℤ) (c : ℕ → ℝ) (nodes : List ℕ) (D : ℕ → ℕ → ℝ)
    (hD : ReproducesAffine d nodes x D)
    (hsep : ∀ j < tags.length, (∀ n ∈ nodes, InBody cellDofs mt (tags.getD j 0) n) ∨
      (∀ n ∈ nodes, ¬ InBody cellDofs mt (tags.getD j 0) n))
    (mu lam : ℝ) (i l : ℕ) (hi : i < d) (hl : l < d) :
    stress d mu lam (cellGradient d nodes D (fun e =>
      ∑ v ∈ range (tags.length * rigidDim d), c v * build d x cellDofs mt tags (v, e))) i l = 0 := by
  have hdp : 0 < rigidDim d := by rcases hd with rfl | rfl <;> decide
  have hmem : ∀ k < nodes.length, nodes.getD k 0 ∈ nodes := fun k hk => by
    rw [List.getD_eq_getElem _ _ hk]; exact List.getElem_mem hk
  -- each vector has a skew gradient in the cell
  have hv : ∀ v < tags.length * rigidDim d, ∀ i < d, ∀ l < d,
      cellGradient d nodes D (fun e => build d x cellDofs mt tags (v, e)) i l
        = -cellGradient d nodes D (fun e => build d x cellDofs mt tags (v, e)) l i := by
    intro v hv i hi l hl
    have hj : v / rigidDim d < tags.length := (Nat.div_lt_iff_lt_mul hdp).mpr hv
    have hm : v % rigidDim d < rigidDim d := Nat.mod_lt _ hdp
    have hvv : v = v / rigidDim d * rigidDim d + v % rigidDim d := by
      rw [Nat.mul_comm]; exact (Nat.div_add_mod v _).symm
    rcases hsep _ hj with h | h
    · have hu : ∀ i < d, ∀ k < nodes.length,
          build d x cellDofs mt tags (v, d * nodes.getD k 0 + i)
            = (mode d (v % rigidDim d)).at' d (x (nodes.getD k 0)) i := by
        intro i hi k hk
        conv_lhs => rw [hvv]
        rw [build_value hd x cellDofs mt tags _ hj hm hi,
          if_pos ((mem_bodyDofs _ _ _ _).mpr (h _ (hmem k hk)))]
      rw [cellGradient_rigid hD (mode d (v % rigidDim d)) hl (hu i hi),
        cellGradient_rigid hD (mode d (v % rigidDim d)) hi (hu l hl)]
      exact mode_rigid hd _ i hi l hl
    · have hu : ∀ i < d, ∀ l, cellGradient d nodes D (fun e => build d x cellDofs mt tags (v, e)) i l
          = 0 := by
        intro i hi l
        unfold cellGradient
        refine sum_eq_zero fun k hk => ?_
        have : build d x cellDofs mt tags (v, d * nodes.getD k 0 + i) = 0 := by
          conv_lhs => rw [hvv]
          rw [build_value hd x cellDofs mt tags _ hj hm hi,
            if_neg (fun hh => h _ (hmem k (mem_range.mp hk)) ((mem_bodyDofs _ _ _ _).mp hh))]
        exact mul_eq_zero_of_right _ this
      rw [hu i hi, hu l hl, neg_zero]
  have hskew : ∀ i < d, ∀ l < d, strain (cellGradient d nodes D (fun e =>
      ∑ v ∈ range (tags.length * rigidDim d), c v * build d x cellDofs mt tags (v, e))) i l = 0 := by
    intro i hi l hl
    unfold strain
    rw [cellGradient_sum, cellGradient_sum, ← sum_add_distrib,
      sum_eq_zero (fun v hv' => by rw [hv v (mem_range.mp hv') i hi l hl]; ring), zero_div]
  unfold stress
  rw [hskew i hi l hl, sum_eq_zero (fun k hk => hskew k (mem_range.mp hk) k (mem_range.mp hk))]
  simp

/-- Non-vacuity: two triangles, one per body, with their own nodes; P1 basis derivatives. -/
def exX : ℕ → ℕ → ℝ := fun n c =>
  if (n = 1 ∧ c = 0) ∨ (n = 2 ∧ c = 1) ∨ (n = 3 ∧ c = 0) ∨ (n = 4 ∧ c = 0) ∨ (n = 5) then 1 else 0
def exCells : ℕ → List ℕ := fun c => if c = 0 then [0, 1, 2] else [3, 4, 5]
def exD : ℕ → ℕ → ℝ := fun k l => if k = 0 then -1 else if k = l + 1 then 1 else 0

example : ReproducesAffine 2 [0, 1, 2] exX exD ∧
    (∀ j < 2, (∀ n ∈ [0, 1, 2], InBody exCells [(0, 7), (1, 9)] ([7, 9].getD j 0) n) ∨
      (∀ n ∈ [0, 1, 2], ¬ InBody exCells [(0, 7), (1, 9)] ([7, 9].getD j 0) n)) := by
  refine ⟨⟨?_, ?_⟩, ?_⟩
  · intro l hl; interval_cases l <;> norm_num [exD, sum_range_succ]
  · intro l hl i hi
    interval_cases l <;> interval_cases i <;> norm_num [exD, exX, sum_range_succ]
  · intro j hj
    interval_cases j
    · left; intro n hn; exact ⟨0, by simp, by simpa [exCells] using hn⟩
    · right; rintro n hn ⟨c, hc, h⟩
      simp at hc; subst hc
      simp [exCells] at h hn; omega

/-! ### C90: Python and C++ -/

theorem loop_ext {d n : ℕ} (hd : d = 2 ∨ d = 3) {x : ℕ → ℕ → ℝ} {D : ℕ → List ℕ}
    {f g : ℕ → Arr (ℕ × ℕ) → Arr (ℕ × ℕ)}
    (hf : ∀ j, j < n → Puts (f j) (BodyW d (j * dim d) x (D j)))
    (hg : ∀ j, j < n → Puts (g j) (BodyW d (j * dim d) x (D j))) :
    loop n f (fun _ => 0) = loop n g (fun _ => 0) := by
  have hdp : 0 < dim d := by rcases hd with rfl | rfl <;> decide
  have hd0 : 0 < d := by omega
  funext ⟨v, e⟩
  obtain ⟨j, m, hm, rfl⟩ : ∃ j m, m < dim d ∧ v = j * dim d + m :=
    ⟨v / dim d, v % dim d, Nat.mod_lt _ hdp, by rw [Nat.mul_comm]; exact (Nat.div_add_mod v _).symm⟩
  obtain ⟨node, i, hi, rfl⟩ : ∃ node i, i < d ∧ e = d * node + i :=
    ⟨e / d, e % d, Nat.mod_lt _ hd0, (Nat.div_add_mod e _).symm⟩
  rcases Nat.lt_or_ge j n with hj | hj
  · rw [value_of_puts hd hf hj hm hi, value_of_puts hd hg hj hm hi]
  · have hno : ∀ v, ¬ ∃ j', j' < n ∧ BodyW d (j' * dim d) x (D j') (j * dim d + m, d * node + i) v := by
      rintro v ⟨j', hj', hw⟩
      obtain ⟨rfl, -, -⟩ := bodyW_value hd hm hi hw
      omega
    rw [(Puts.loop n hf).frame hno, (Puts.loop n hg).frame hno]

/-- **C90** (partial).  If every tag has a cell on the process and there are at most `num_domains` tags,
`rigid_motions_nullspace_subdomains` computes, before orthonormalisation, exactly the vectors of
`build_nullspace_multibody`.  Missing: a tag without cells, see `C90_absent_body_violated`. -/
theorem C90_python_cpp_partial (d : ℕ) (hd : d = 2 ∨ d = 3) (x : ℕ → ℕ → ℝ) (cellDofs : ℕ → List ℕ)
    (mt : List (ℕ × ℤ)) (tags : List ℤ) (numDomains : ℕ) (hn : tags.length ≤ numDomains)
    (ht : ∀ t ∈ tags, ∃ c, (c, t) ∈ mt) :
    pySubdomains d x cellDofs mt tags numDomains = some (build d x cellDofs mt tags) := by
  unfold pySubdomains
  rw [if_pos hd, if_neg]
  · exact congrArg some (loop_ext hd (D := fun j => bodyDofs cellDofs mt (tags.getD j 0))
      (fun j _ => puts_pyBody d _ hd x _) (fun j _ => puts_body d j hd x _))
  · rintro (⟨t, h1, h2⟩ | h)
    · obtain ⟨c, hc⟩ := ht t h1
      have : c ∈ find mt t := by simp [find]; exact hc
      rw [h2] at this; simp at this
    · omega

/-- **C90 is violated** for every tagging in which some tag has no cell on the process (as happens on a
process that holds no part of a body): the Python function raises, the C++ function does not. -/
theorem C90_absent_body_violated (d : ℕ) (x : ℕ → ℕ → ℝ) (cellDofs : ℕ → List ℕ)
    (mt : List (ℕ × ℤ)) (tags : List ℤ) (numDomains : ℕ) (t : ℤ) (ht : t ∈ tags)
    (hno : ∀ c, (c, t) ∉ mt) : pySubdomains d x cellDofs mt tags numDomains = none := by
  have hf : find mt t = [] := by
    rw [find, List.map_eq_nil_iff, List.filter_eq_nil_iff]
    rintro ⟨c, s⟩ hc h
    simp at h; subst h; exact hno c hc
  unfold pySubdomains
  split
  · rw [if_pos (.inl ⟨t, ht, hf⟩)]
  · rfl

example : (∀ t ∈ [(7 : ℤ), 9], ∃ c, (c, t) ∈ [((0 : ℕ), (7 : ℤ)), (1, 9)]) ∧
    (∀ c, ((c : ℕ), (9 : ℤ)) ∉ [((0 : ℕ), (7 : ℤ))]) := by
  refine ⟨?_, by simp⟩
  intro t ht
  simp at ht
  rcases ht with rfl | rfl
  · exact ⟨0, by simp⟩
  · exact ⟨1, by simp⟩

/-! ### C89: the scalar near null space -/

theorem pyNear_value (cellDofs : ℕ → List ℕ) (mt : List (ℕ × ℤ)) (tags : List ℤ) (numDomains : ℕ)
    (hn : tags.length ≤ numDomains) (ht : ∀ t ∈ tags, ∃ c, (c, t) ∈ mt) :
    ∃ B, pyNear cellDofs mt tags numDomains = some B ∧ ∀ j < tags.length, ∀ e,
      B (j, e) = if e ∈ bodyDofs cellDofs mt (tags.getD j 0) then 1 else 0 := by
  unfold pyNear
  rw [if_neg]
  · refine ⟨_, rfl, fun j hj e => ?_⟩
    have hp := Puts.loop tags.length (body := fun j =>
      assign j (bodyDofs cellDofs mt (tags.getD j 0)) (fun d => d) (fun _ => 1))
      fun j _ => puts_assign j (bodyDofs cellDofs mt (tags.getD j 0)) (fun d => d) (fun _ => 1)
    rcases hp (fun _ => 0) (j, e) with ⟨v, ⟨j', hj', n, hn', he, rfl⟩, hv⟩ | ⟨hno, hv⟩
    · simp only [Prod.mk.injEq] at he
      obtain ⟨rfl, rfl⟩ := he
      rw [hv, if_pos hn']
    · rw [hv, if_neg]
      intro he
      exact hno 1 ⟨j, hj, e, he, rfl, rfl⟩
  · rintro (⟨t, h1, h2⟩ | h)
    · obtain ⟨c, hc⟩ := ht t h1
      have : c ∈ find mt t := by simp [find]; exact hc
      rw [h2] at this; simp at this
    · omega

open Classical in
/-- **C89** (partial): in a scalar space vector `j` of `near_nullspace_subdomains` is one on the nodes of
body `j` and zero elsewhere.  Missing: block size larger than one, see
`C89_vector_space_violated`. -/
theorem C89_scalar_partial (cellDofs : ℕ → List ℕ) (mt : List (ℕ × ℤ)) (tags : List ℤ)
    (numDomains : ℕ) (hn : tags.length ≤ numDomains) (ht : ∀ t ∈ tags, ∃ c, (c, t) ∈ mt) :
    ∃ B, pyNear cellDofs mt tags numDomains = some B ∧ ∀ j < tags.length, ∀ node,
      B (j, node) = if InBody cellDofs mt (tags.getD j 0) node then 1 else 0 := by
  obtain ⟨B, h1, h2⟩ := pyNear_value cellDofs mt tags numDomains hn ht
  refine ⟨B, h1, fun j hj node => ?_⟩
  rw [h2 j hj]
  simp only [mem_bodyDofs]

/-- **C89 is violated** in every vector-valued space (block size `bs ≥ 2`; the documentation says "build
nullspace for 2D/3D elasticity"): for every body with at least one node, some component of some node of
the body is left zero. -/
theorem C89_vector_space_violated (bs : ℕ) (hbs : 2 ≤ bs) (cellDofs : ℕ → List ℕ) (mt : List (ℕ × ℤ))
    (tags : List ℤ) (numDomains : ℕ) (hn : tags.length ≤ numDomains)
    (ht : ∀ t ∈ tags, ∃ c, (c, t) ∈ mt) (j : ℕ) (hj : j < tags.length)
    (hne : ∃ node, InBody cellDofs mt (tags.getD j 0) node) :
    ∃ B, pyNear cellDofs mt tags numDomains = some B ∧ ∃ node, InBody cellDofs mt (tags.getD j 0) node ∧
      ∃ i < bs, B (j, bs * node + i) = 0 := by
  obtain ⟨B, h1, h2⟩ := pyNear_value cellDofs mt tags numDomains hn ht
  obtain ⟨n0, hn0⟩ := hne
  rw [← mem_bodyDofs] at hn0
  -- the largest node of the body
  obtain ⟨N, hN, hmax⟩ : ∃ N ∈ bodyDofs cellDofs mt (tags.getD j 0),
      ∀ n ∈ bodyDofs cellDofs mt (tags.getD j 0), n ≤ N := by
    obtain ⟨N, h, hm⟩ := Finset.exists_max_image (bodyDofs cellDofs mt (tags.getD j 0)).toFinset id
      ⟨n0, List.mem_toFinset.mpr hn0⟩
    exact ⟨N, List.mem_toFinset.mp h, fun n hn => hm n (List.mem_toFinset.mpr hn)⟩
  refine ⟨B, h1, N, (mem_bodyDofs _ _ _ _).mp hN, 1, by omega, ?_⟩
  rw [h2 j hj, if_neg]
  intro hc
  have := hmax _ hc
  nlinarith

end

end Verif.Nullspace
