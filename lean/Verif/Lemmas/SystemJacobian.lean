import Verif.Lemmas.System
import Verif.Props.Assembly
import Verif.Props.ContactKernels
import Verif.Props.ContactProblem

/-! Lemmas for C113: the assembled matrix is the derivative of the assembled vector. -/

namespace Verif.ContactProblem

open Verif.Spec Verif.Packing Verif.Assembly Verif.Entities Verif.Kernels Finset

noncomputable section

variable {G : Type} {Y : System G}

/-! ### global matrix times vector -/

theorem scatter_add (nd bs : ℕ) (dofs : ℕ → ℕ → ℕ) (cell : ℕ) (v v' : ℕ → ℝ) (d : ℕ) :
    scatter nd bs dofs cell (fun p => v p + v' p) d = scatter nd bs dofs cell v d + scatter nd bs dofs cell v' d := by
  unfold scatter
  rw [← sum_add_distrib]
  refine sum_congr rfl (fun j _ => ?_)
  rw [← sum_add_distrib]
  exact sum_congr rfl (fun k _ => by split <;> simp)

theorem scatter_sum (nd bs : ℕ) (dofs : ℕ → ℕ → ℕ) (cell n : ℕ) (v : ℕ → ℕ → ℝ) (d : ℕ) :
    scatter nd bs dofs cell (fun p => ∑ k ∈ range n, v k p) d = ∑ k ∈ range n, scatter nd bs dofs cell (v k) d := by
  induction n with
  | zero => simp [scatter]
  | succ n ih => simp only [sum_range_succ]; rw [scatter_add, ih]

theorem scatter2_apply (nd bs N : ℕ) (dofs : ℕ → ℕ → ℕ) (rowCell colCell : ℕ) (A v : ℕ → ℝ) (r : ℕ)
    (hN : ∀ j < nd, bs * dofs colCell j + bs ≤ N) :
    ∑ c ∈ range N, scatter2 nd bs dofs rowCell colCell A r c * v c
      = scatter nd bs dofs rowCell (fun p => ∑ s ∈ range (bs * nd),
          A (p * (bs * nd) + s) * v (bs * dofs colCell (s / bs) + s % bs)) r := by
  unfold scatter2 scatter
  simp only [sum_mul]
  rw [sum_comm]
  refine sum_congr rfl (fun i _ => ?_)
  rw [sum_comm]
  refine sum_congr rfl (fun k _ => ?_)
  rw [sum_comm]
  by_cases hr : r = bs * dofs rowCell i + k
  · rw [if_pos hr]
    have : bs * nd = nd * bs := Nat.mul_comm ..
    conv_rhs => rw [show range (bs * nd) = range (nd * bs) by rw [this]]
    rw [← Coefficients.sum_mul_range nd bs (fun s => A ((bs * i + k) * (bs * nd) + s) * v (bs * dofs colCell (s / bs) + s % bs))]
    refine sum_congr rfl (fun j hj => ?_)
    rw [sum_comm]
    refine sum_congr rfl (fun l hl => ?_)
    have hl' := mem_range.mp hl
    have h0 : 0 < bs := by omega
    have hlt : bs * dofs colCell j + l < N := by have := hN j (mem_range.mp hj); omega
    simp only [hr, true_and, ite_mul, zero_mul]
    rw [sum_ite_eq' (range N) (bs * dofs colCell j + l), if_pos (mem_range.mpr hlt),
      Nat.mul_comm j bs, Nat.mul_add_div h0, Nat.div_eq_of_lt hl', Nat.add_zero, Nat.mul_add_mod, Nat.mod_eq_of_lt hl']
  · rw [if_neg hr]
    refine sum_eq_zero (fun j _ => sum_eq_zero (fun l _ => sum_eq_zero (fun c _ => ?_)))
    rw [if_neg (fun h => hr h.1), zero_mul]

theorem facetMatrix_apply (nd bs N : ℕ) (dofs : ℕ → ℕ → ℕ) (cell : ℕ) (L : List ℕ) (A : ℕ × ℕ → ℝ) (v : ℕ → ℝ) (r : ℕ)
    (hc : ∀ j < nd, bs * dofs cell j + bs ≤ N) (hL : ∀ c ∈ L, ∀ j < nd, bs * dofs c j + bs ≤ N) :
    ∑ c ∈ range N, facetMatrix nd bs dofs cell L A r c * v c
      = facetVector nd bs dofs cell L
          (fun m => blockApply (bs * nd) L.length A (coupledDofs bs dofs cell L v) m.1 m.2) r := by
  have hg : ∀ k, k ∈ range L.length → ∀ j < nd, bs * dofs (L.getD k 0) j + bs ≤ N := by
    intro k hk
    have hk' := mem_range.mp hk
    rw [List.getD_eq_getElem _ _ hk']
    exact hL _ (List.getElem_mem hk')
  unfold facetMatrix facetVector
  simp only [add_mul, sum_add_distrib, sum_mul, blockApply]
  rw [scatter2_apply nd bs N dofs cell cell _ v r hc]
  have c1 := fun (f : ℕ → ℕ → ℝ) => sum_comm (s := range N) (t := range L.length) (f := f)
  simp only [c1, scatter_add]
  rw [scatter_sum nd bs dofs cell L.length]
  have e1 : ∀ k ∈ range L.length, ∑ c ∈ range N,
      scatter2 nd bs dofs cell (L.getD k 0) (fun p => A (3 * k + 1, p)) r c * v c = _ :=
    fun k hk => scatter2_apply nd bs N dofs cell (L.getD k 0) _ v r (hg k hk)
  have e2 : ∀ k ∈ range L.length, ∑ c ∈ range N,
      scatter2 nd bs dofs (L.getD k 0) cell (fun p => A (3 * k + 2, p)) r c * v c = _ :=
    fun k _ => scatter2_apply nd bs N dofs (L.getD k 0) cell _ v r hc
  have e3 : ∀ k ∈ range L.length, ∑ c ∈ range N,
      scatter2 nd bs dofs (L.getD k 0) (L.getD k 0) (fun p => A (3 * k + 3, p)) r c * v c = _ :=
    fun k hk => scatter2_apply nd bs N dofs (L.getD k 0) (L.getD k 0) _ v r (hg k hk)
  rw [sum_congr rfl e1, sum_congr rfl e2, sum_congr rfl e3]
  simp only [coupledDofs, coupledCell, sum_add_distrib, add_assoc]

theorem scatter_deriv (nd bs : ℕ) (dofs : ℕ → ℕ → ℕ) (cell : ℕ) (e : ℝ → ℕ → ℝ) (e' : ℕ → ℝ) (d : ℕ) (t : ℝ)
    (h : ∀ p < bs * nd, HasDerivAt (fun s => e s p) (e' p) t) :
    HasDerivAt (fun s => scatter nd bs dofs cell (e s) d) (scatter nd bs dofs cell e' d) t := by
  unfold scatter
  refine HasDerivAt.fun_sum (fun j hj => HasDerivAt.fun_sum (fun k hk => ?_))
  split
  · refine h _ ?_
    have := mem_range.mp hj
    have := mem_range.mp hk
    nlinarith
  · exact hasDerivAt_const ..

theorem facetVector_deriv (nd bs : ℕ) (dofs : ℕ → ℕ → ℕ) (cell : ℕ) (L : List ℕ) (e : ℝ → ℕ × ℕ → ℝ)
    (e' : ℕ × ℕ → ℝ) (d : ℕ) (t : ℝ)
    (h : ∀ B ≤ L.length, ∀ p < bs * nd, HasDerivAt (fun s => e s (B, p)) (e' (B, p)) t) :
    HasDerivAt (fun s => facetVector nd bs dofs cell L (e s) d) (facetVector nd bs dofs cell L e' d) t := by
  unfold facetVector
  refine HasDerivAt.fun_add ?_ (HasDerivAt.fun_sum (fun l hl => ?_))
  · exact scatter_deriv nd bs dofs cell (fun s p => e s (0, p)) _ d t (h 0 (by omega))
  · exact scatter_deriv nd bs dofs _ (fun s p => e s (l + 1, p)) _ d t (h (l + 1) (mem_range.mp hl))

/-! ### kernels -/

/-- A matrix kernel and its residual kernel. -/
inductive KPair where
  | normal | tresca | coulomb

def KPair.mat : KPair → Kernel
  | .normal => .jac
  | .tresca => .trescaJac
  | .coulomb => .coulombJac

def KPair.matFn : KPair → KD → KernelFn
  | .normal => unbiasedJac
  | .tresca => trescaJac
  | .coulomb => coulombJac

def KPair.vecFn : KPair → KD → KernelFn
  | .normal => unbiasedRhs
  | .tresca => trescaRhs
  | .coulomb => coulombRhs

theorem checks_ok (hY : System.Valid Y) : kernelDataChecks ⟨Y.cell, Y.gdim, Y.gdim, false⟩ = .ok () := by
  obtain ⟨h1, h2, h3⟩ := hY.cell
  unfold kernelDataChecks checkCellType unsupportedCells
  have e : Y.gdim / Y.gdim = 1 := Nat.div_self hY.dim
  have e2 : ([CellType.prism, .pyramid, .interval].contains Y.cell) = false := by
    cases h : Y.cell <;> simp_all
  simp only [e2, e]
  rfl

theorem kernel_mat (hY : System.Valid Y) (consts : ℝ × ℝ) (p : KPair) (ml : ℕ) :
    Y.kernel consts (p.mat, ml) = fun row cell f links qs A =>
      p.matFn (Y.kd ml cell f) row (constants consts) links qs A := by
  funext row cell f links qs A
  unfold System.kernel generateContactKernel
  simp only [checks_ok hY]
  cases p <;> rfl

theorem kernel_vec (hY : System.Valid Y) (consts : ℝ × ℝ) (p : KPair) (ml : ℕ) :
    Y.kernel consts (residualOf p.mat, ml) = fun row cell f links qs A =>
      p.vecFn (Y.kd ml cell f) row (constants consts) links qs A := by
  funext row cell f links qs A
  unfold System.kernel generateContactKernel
  simp only [checks_ok hY]
  cases p <;> rfl

theorem fn_points (p : KPair) (D : KD) (c w : ℕ → ℝ) (links : ℕ) :
    SumOfPoints (p.vecFn D c w links) ∧ SumOfPoints (p.matFn D c w links) := by
  obtain ⟨h1, h2, h3, h4, h5, h6⟩ := C54_points D c w links
  cases p
  · exact ⟨h1, h2⟩
  · exact ⟨h3, h4⟩
  · exact ⟨h5, h6⟩

theorem stays_of_points {k : List ℕ → Arr (ℕ × ℕ) → Arr (ℕ × ℕ)} (h : SumOfPoints k) (blocks size : ℕ) (qs : List ℕ) :
    StaysInBlocks blocks size (k qs) := by
  intro a a' ha m h1 h2
  rw [h.sum qs a m, h.sum qs a' m, ha m h1 h2]

theorem fn_extent (p : KPair) (D : KD) (hbs : D.bs = D.gdim) (c c' w : ℕ → ℝ)
    (h : ∀ m < coefficientsSize false D.nq D.gdim D.nd D.bs D.maxLinks, c m = c' m)
    (links : ℕ) (hl : links ≤ D.maxLinks) (qs : List ℕ) (hqs : ∀ q ∈ qs, q < D.nq) :
    p.vecFn D c w links qs = p.vecFn D c' w links qs ∧ p.matFn D c w links qs = p.matFn D c' w links qs := by
  obtain ⟨h1, h2, h3, h4, h5, h6⟩ := C38_extent D hbs c c' w h links hl qs hqs
  cases p
  · exact ⟨h1, h2⟩
  · exact ⟨h3, h4⟩
  · exact ⟨h5, h6⟩

/-- The kernels of a law. -/
def lawPairs : Law → List KPair
  | .frictionless => [.normal]
  | .tresca => [.normal, .tresca]
  | .coulomb => [.normal, .coulomb]

theorem lawPairs_mat (l : Law) : (lawPairs l).map KPair.mat = lawMatrices l := by cases l <;> rfl

/-- C46–C48 for the kernels of a law. -/
theorem fn_deriv (law : Law) (p : KPair) (hp : p ∈ lawPairs law) (D : KD) (haff : AffineConst D) (links : ℕ) (qs : List ℕ)
    (w : ℕ → ℝ) (c : ℝ → ℕ → ℝ) (G : ℕ → ℕ → ℕ → ℝ) (W : ℝ → ℕ → ℕ → ℝ) (δ : ℕ → ℕ → ℝ) (t : ℝ)
    (hbs : D.bs = D.gdim) (h23 : law ≠ .frictionless → D.gdim = 2 ∨ D.gdim = 3) (hl : links ≤ D.maxLinks)
    (hqs : ∀ q ∈ qs, q < D.nq)
    (hc : ∀ s, Carries D.dims links (facetPhi D) (facetGrad D) G (c s) (W s))
    (hs : ∀ s, SameData D.dims (c s) (c t))
    (hW : ∀ B m, HasDerivAt (fun s => W s B m) (δ B m) t)
    (hone : ∀ q ∈ qs, OneLink D.dims links (c t) q)
    (hsw : ∀ q ∈ qs, AwayFromSwitches law D (c t) w q)
    (B r : ℕ) (hB : B ≤ links) (hr : r < D.nd * D.bs) :
    HasDerivAt (fun s => p.vecFn D (c s) w links qs 0 (B, r))
      (blockApply (D.nd * D.bs) links (p.matFn D (c t) w links qs 0) δ B r) t := by
  rcases List.eq_nil_or_concat qs with rfl | ⟨qs', q, rfl⟩
  · have e1 : ∀ s, p.vecFn D (c s) w links [] 0 (B, r) = 0 := by
      intro s; rw [(fn_points p D (c s) w links).1.sum]; simp
    have e2 : ∀ m, p.matFn D (c t) w links [] 0 m = 0 := by
      intro m; rw [(fn_points p D (c t) w links).2.sum]; simp
    simp only [e1]
    have e3 : blockApply (D.nd * D.bs) links (p.matFn D (c t) w links [] 0) δ B r = 0 := by
      cases B <;> simp [blockApply, e2]
    rw [e3]
    exact hasDerivAt_const ..
  · have hq : q ∈ qs'.concat q := by simp
    have h0 : p = .normal → _ := fun _ => C46_jacobian D haff links (qs'.concat q) w c G W δ t hbs hl hqs hc hs hW hone
      (fun q hq => (hsw q hq).1) 0 B r hB hr
    cases law with
    | frictionless =>
      simp only [lawPairs, List.mem_singleton] at hp
      subst hp
      exact h0 rfl
    | tresca =>
      simp only [lawPairs, List.mem_cons, List.not_mem_nil, or_false] at hp
      rcases hp with rfl | rfl
      · exact h0 rfl
      · exact C47_jacobian_partial D haff links (qs'.concat q) w c G W δ t hbs (h23 (by simp)) hl hqs hc hs hW hone
          (fun q hq => (hsw q hq).2.1) (hsw q hq).2.2.1 (fun q hq => (hsw q hq).2.2.2) 0 B r hB hr
    | coulomb =>
      simp only [lawPairs, List.mem_cons, List.not_mem_nil, or_false] at hp
      rcases hp with rfl | rfl
      · exact h0 rfl
      · exact C48_jacobian_partial D haff links (qs'.concat q) w c G W δ t hbs (h23 (by simp)) hl hqs hc hs hW hone
          (fun q hq => (hsw q hq).2.1) (fun q hq => (hsw q hq).1) (fun q hq => (hsw q hq).2.2.1)
          (fun q hq => (hsw q hq).2.2.2) 0 B r hB hr

/-! ### the assembled arrays -/

/-- Cell and local facet of facet `e`. -/
def facetOf (Y : System G) (i e : ℕ) : ℕ × ℕ := (Y.facets i).getD e (0, 0)

/-- The linked cells of facet `e` of pair `i`. -/
def linksOf (Y : System G) (g : G) (i e : ℕ) : List ℕ := linkedCells Y.subCell Y.space.parentCell ((Y.pair g i).row e)

theorem linksOf_list (Y : System G) (g : G) (i e : ℕ) : Packing.Spec.IsLinkList (Y.pair g i) e (linksOf Y g i e) :=
  linkList_exists (Y.pair g i) e

theorem dataRow_flat (m : Mat) (e : ℕ) {k : ℕ} (hk : k < m.cols) : dataRow (flat m) m.cols e k = m.v e k := by
  unfold dataRow flat
  have h0 : 0 < m.cols := by omega
  rw [if_pos hk, Nat.mul_comm e, Nat.mul_add_div h0, Nat.div_eq_of_lt hk, Nat.add_zero, Nat.mul_add_mod,
    Nat.mod_eq_of_lt hk]

theorem linkedPoints_lt {l : List ℤ} {q : ℕ} (hq : q ∈ linkedPoints l) : q < l.length ∧ 0 ≤ l.getD q 0 := by
  simpa [linkedPoints] using hq

theorem row_length (P : PairData) (i : ℕ) : (P.row i).length = P.nq := by simp [PairData.row]

theorem row_getD (P : PairData) (i : ℕ) {q : ℕ} (hq : q < P.nq) : (P.row i).getD q 0 = P.facets (i * P.nq + q) := by
  rw [List.getD_eq_getElem _ _ (by rw [row_length]; exact hq)]
  simp [PairData.row]

theorem assemblyPair_eq {t : Tracked G} {s : State G} (H : Good Y.static t s) {i : ℕ} (hi : i < Y.numPairs) (e : ℕ) :
    (Y.assemblyPair s i).map e = (Y.pair s.geom i).row e := by
  show (Y.pair (s.detected i) i).row e = _
  rw [H.det i hi, H.geom]

theorem assemblyPair_bounded (hY : System.Valid Y) {t : Tracked G} {s : State G} (H : Good Y.static t s) {i : ℕ}
    (hi : i < Y.numPairs) : (Y.assemblyPair s i).Bounded := by
  intro e _
  rw [assemblyPair_eq H hi]
  show (linksOf Y s.geom i e).length ≤ maxLinks Y.static s
  rw [maxLinks_eq (show 0 < Y.static.numPairs from hY.pairs) H.ml]
  exact links_le (linksOf_list Y s.geom i e)

/-- The element arrays of a facet. -/
theorem element_eq {t : Tracked G} {s : State G} (H : Good Y.static t s) (p : KPair) (fn : KPair → KD → KernelFn)
    (hfn : fn = KPair.vecFn ∨ fn = KPair.matFn) (k : Kern) (hk : k = fun row cell f links qs A =>
      fn p (Y.kd Y.nq cell f) row (constants s.consts) links qs A) {m : Mat}
    (hcols : m.cols = coefficientsSize false Y.nq Y.gdim Y.nd Y.gdim Y.nq) {i : ℕ} (hi : i < Y.numPairs) (e : ℕ) :
    element (Y.assemblyPair s i) k (flat m) m.cols (linksOf Y s.geom i e) e
      = fn p (Y.kd Y.nq (facetOf Y i e).1 (facetOf Y i e).2) (m.v e) (constants s.consts) (linksOf Y s.geom i e).length
        (linkedPoints ((Y.pair s.geom i).row e)) 0 := by
  unfold element
  rw [assemblyPair_eq H hi, hk]
  show fn p (Y.kd Y.nq (facetOf Y i e).1 (facetOf Y i e).2) (dataRow (flat m) m.cols e) (constants s.consts) _ _ 0 = _
  have h := fn_extent p (Y.kd Y.nq (facetOf Y i e).1 (facetOf Y i e).2) rfl (dataRow (flat m) m.cols e) (m.v e)
    (constants s.consts) (fun k hk => dataRow_flat m e (by rw [hcols]; exact hk)) (linksOf Y s.geom i e).length
    (links_le (linksOf_list Y s.geom i e)) (linkedPoints ((Y.pair s.geom i).row e))
    (fun q hq => by have := (linkedPoints_lt hq).1; rwa [row_length] at this)
  rcases hfn with rfl | rfl
  · rw [h.1]
  · rw [h.2]

theorem vector_eq (hY : System.Valid Y) {t : Tracked G} {s : State G} (H : Good Y.static t s) (law : Law)
    (hv : s.vecKernels = (lawPairs law).map (fun p => (residualOf p.mat, Y.nq))) (cs : ℕ → Mat)
    (hcols : ∀ i < Y.numPairs, (cs i).cols = coefficientsSize false Y.nq Y.gdim Y.nd Y.gdim Y.nq) :
    ∃ b, Y.assembleVector { s with coeffs := some cs } 0 = .ok b ∧ ∀ d, b d =
      ((List.range Y.numPairs).map (fun i => ((lawPairs law).map (fun p => ∑ e ∈ range (Y.localFacets i),
        facetVector Y.nd Y.gdim Y.space.parent (facetOf Y i e).1 (linksOf Y s.geom i e)
          (p.vecFn (Y.kd Y.nq (facetOf Y i e).1 (facetOf Y i e).2) ((cs i).v e) (constants s.consts)
            (linksOf Y s.geom i e).length (linkedPoints ((Y.pair s.geom i).row e)) 0) d)).sum)).sum := by
  have hs' : Good Y.static t s := H
  obtain ⟨b, hb, he⟩ := C43_problem ((List.range Y.numPairs).map (Y.assemblyPair s))
    (s.vecKernels.map (Y.kernel s.consts)) (fun i => flat (cs i)) (fun i => (cs i).cols)
    (by
      intro P hP
      obtain ⟨i, hi, rfl⟩ := List.mem_map.mp hP
      refine ⟨assemblyPair_bounded hY H (List.mem_range.mp hi), rfl, fun k hk c cell f n q => ?_⟩
      rw [hv, List.map_map] at hk
      obtain ⟨p, -, rfl⟩ := List.mem_map.mp hk
      simp only [Function.comp, kernel_vec hY]
      exact stays_of_points (fn_points p _ c _ n).1 _ _ q)
    (linksOf Y s.geom)
    (by
      intro i hi e _
      simp only [List.length_map, List.length_range] at hi
      simp only [List.getElem_map, List.getElem_range]
      rw [assemblyPair_eq H hi]
      exact C12_linked_cells ..)
    0
  refine ⟨b, hb, fun d => ?_⟩
  rw [he d, Pi.zero_apply, zero_add, List.length_map, List.length_range]
  congr 1
  refine List.map_congr_left (fun i hi => ?_)
  have hi' := List.mem_range.mp hi
  rw [hv, List.map_map, List.map_map]
  congr 1
  refine List.map_congr_left (fun p _ => ?_)
  have e0 : ((List.range Y.numPairs).map (Y.assemblyPair s))[i]? = some (Y.assemblyPair s i) := by
    simp [List.getElem?_range hi']
  simp only [Function.comp, e0, Option.elim_some]
  refine sum_congr rfl (fun e _ => ?_)
  rw [element_eq H p KPair.vecFn (Or.inl rfl) _ (kernel_vec hY s.consts p Y.nq) (hcols i hi') hi']
  rfl

theorem matrix_eq (hY : System.Valid Y) {t : Tracked G} {s : State G} (H : Good Y.static t s) (law : Law)
    (hv : s.matKernels = (lawPairs law).map (fun p => (p.mat, Y.nq))) (cs : ℕ → Mat)
    (hcols : ∀ i < Y.numPairs, (cs i).cols = coefficientsSize false Y.nq Y.gdim Y.nd Y.gdim Y.nq) :
    ∃ A, Y.assembleMatrix { s with coeffs := some cs } 0 = .ok A ∧ ∀ d c, A (d, c) =
      ((List.range Y.numPairs).map (fun i => ((lawPairs law).map (fun p => ∑ e ∈ range (Y.localFacets i),
        facetMatrix Y.nd Y.gdim Y.space.parent (facetOf Y i e).1 (linksOf Y s.geom i e)
          (p.matFn (Y.kd Y.nq (facetOf Y i e).1 (facetOf Y i e).2) ((cs i).v e) (constants s.consts)
            (linksOf Y s.geom i e).length (linkedPoints ((Y.pair s.geom i).row e)) 0) d c)).sum)).sum := by
  obtain ⟨b, hb, he⟩ := C45_problem ((List.range Y.numPairs).map (Y.assemblyPair s))
    (s.matKernels.map (Y.kernel s.consts)) (fun i => flat (cs i)) (fun i => (cs i).cols)
    (by
      intro P hP
      obtain ⟨i, hi, rfl⟩ := List.mem_map.mp hP
      refine ⟨assemblyPair_bounded hY H (List.mem_range.mp hi), rfl, fun k hk c cell f n q => ?_⟩
      rw [hv, List.map_map] at hk
      obtain ⟨p, -, rfl⟩ := List.mem_map.mp hk
      simp only [Function.comp, kernel_mat hY]
      exact stays_of_points (fn_points p _ c _ n).2 _ _ q)
    (linksOf Y s.geom)
    (by
      intro i hi e _
      simp only [List.length_map, List.length_range] at hi
      simp only [List.getElem_map, List.getElem_range]
      rw [assemblyPair_eq H hi]
      exact C12_linked_cells ..)
    0
  refine ⟨b, hb, fun d c => ?_⟩
  rw [he d c, Pi.zero_apply, zero_add, List.length_map, List.length_range]
  congr 1
  refine List.map_congr_left (fun i hi => ?_)
  have hi' := List.mem_range.mp hi
  rw [hv, List.map_map, List.map_map]
  congr 1
  refine List.map_congr_left (fun p _ => ?_)
  have e0 : ((List.range Y.numPairs).map (Y.assemblyPair s))[i]? = some (Y.assemblyPair s i) := by
    simp [List.getElem?_range hi']
  simp only [Function.comp, e0, Option.elim_some]
  refine sum_congr rfl (fun e _ => ?_)
  rw [element_eq H p KPair.matFn (Or.inr rfl) _ (kernel_mat hY s.consts p Y.nq) (hcols i hi') hi']
  rfl

theorem sum_list_mul {α : Type} (l : List α) (N : ℕ) (f : α → ℕ → ℝ) (v : ℕ → ℝ) :
    ∑ c ∈ range N, (l.map (fun x => f x c)).sum * v c = (l.map (fun x => ∑ c ∈ range N, f x c * v c)).sum := by
  induction l with
  | nil => simp
  | cons x l ih => simp only [List.map_cons, List.sum_cons, add_mul, sum_add_distrib, ih]

/-- The kernels of an object: those of the law given last, with room for all links. -/
theorem kernels_of_history (hY : System.Valid Y) (ops : List (Op G)) (hops : ∀ op ∈ ops, OpShaped Y.static op) (g : G)
    (law : Law) (hlaw : lastLaw ops none = some law) :
    (history Y.static ops (init Y.static g)).matKernels = (lawPairs law).map (fun p => (p.mat, Y.nq))
    ∧ (history Y.static ops (init Y.static g)).vecKernels = (lawPairs law).map (fun p => (residualOf p.mat, Y.nq)) := by
  obtain ⟨h1, h2, -⟩ := C84_kernels Y.static ops g _ rfl
  have h3 := kernels_ml (static_shaped hY) ops hops (good_init Y.static g) (by
    have : (init Y.static g).matKernels = [] := by
      have := kc_createDistanceMaps Y.static
        { geom := g, detected := fun _ => g, maxLinks := fun _ => 0, coeffs := none, numQ := none,
          gradU := fun _ => zeros 0 0, consts := (0, 0), matKernels := [], vecKernels := [] }
      simp only [kc, Prod.mk.injEq] at this
      exact this.2.1
    rw [this]; simp)
  rw [hlaw, Option.map_some, Option.getD_some, ← lawPairs_mat] at h2
  have h4 : (history Y.static ops (init Y.static g)).matKernels = (lawPairs law).map (fun p => (p.mat, Y.nq)) := by
    generalize (history Y.static ops (init Y.static g)).matKernels = l at h2 h3
    have : l = (l.map Prod.fst).map (fun k => (k, Y.nq)) := by
      rw [List.map_map]
      conv_lhs => rw [← List.map_id l]
      exact List.map_congr_left (fun k hk => Prod.ext rfl (h3 k hk))
    rw [this, h2, List.map_map]
    rfl
  refine ⟨h4, ?_⟩
  rw [h1, h4, List.map_map]
  rfl

end

end Verif.ContactProblem
