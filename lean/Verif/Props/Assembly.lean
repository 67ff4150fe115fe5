import Verif.Model.Assembly
import Verif.Spec.Assembly
import Verif.Spec.Kernels
import Verif.Props.Entities
import Verif.Props.ContactKernels
import Mathlib.Algebra.BigOperators.Group.List.Basic
import Mathlib.Data.List.GetD
import Mathlib.Tactic.Linarith
import Mathlib.Tactic.Ring
import Mathlib.Tactic.NormNum

/-! C43 (assemble_vector), C44 (sparsity pattern), C45 (assemble_matrix), C53 (unlinked points). -/

namespace Verif.Assembly

open Finset Verif.Entities Verif.Spec

noncomputable section

/-- The contact data of a pair is consistent: `maxLinks` bounds the number of linked cells of every
owned facet (C19). -/
def Pair.Bounded (P : Pair) : Prop :=
  ∀ i < P.numLocal, (linkedCells P.s2p P.pc (P.map i)).length ≤ P.maxLinks

/-- The parent cell of a submesh facet. -/
def Pair.cellOf (P : Pair) (f : ℕ) : ℕ := P.pc (P.s2p f)

theorem isLinkedCells (P : Pair) (i : ℕ) :
    IsLinkedCells P.cellOf (P.map i) (linkedCells P.s2p P.pc (P.map i)) :=
  C12_linked_cells P.s2p P.pc (P.map i)

theorem linkedCells_unique {cellOf : ℕ → ℕ} {l : List ℤ} {a b : List ℕ} (ha : IsLinkedCells cellOf l a)
    (hb : IsLinkedCells cellOf l b) : a = b :=
  strict_ext ha.1 hb.1 (fun c => by rw [ha.2, hb.2])

theorem foldl_filter (p : ℕ → Prop) [DecidablePred p] (l acc : List ℕ) :
    l.foldl (fun q j => if p j then q ++ [j] else q) acc = acc ++ l.filter (fun j => decide (p j)) := by
  induction l generalizing acc with
  | nil => simp
  | cons a l ih =>
    rw [List.foldl_cons, ih]
    by_cases h : p a
    · rw [if_pos h, List.filter_cons_of_pos (by simpa using h)]; simp
    · rw [if_neg h, List.filter_cons_of_neg (by simpa using h)]

theorem linked_nonempty (P : Pair) (i : ℕ) (q : ℕ) (hq : q ∈ linkedPoints (P.map i)) :
    0 < (linkedCells P.s2p P.pc (P.map i)).length := by
  rw [linkedPoints, List.mem_filter, List.mem_range, decide_eq_true_eq] at hq
  obtain ⟨h1, h2⟩ := hq
  rw [List.getD_eq_getElem _ _ h1] at h2
  refine List.length_pos_of_mem (a := P.cellOf ((P.map i)[q]).toNat) ?_
  rw [(isLinkedCells P i).2]
  exact ⟨_, by rw [Int.toNat_of_nonneg h2]; exact List.getElem_mem h1, rfl⟩

theorem qIndices_eq (P : Pair) (hP : P.Bounded) (i : ℕ) (hi : i < P.numLocal) :
    qIndices P i = linkedPoints (P.map i) := by
  unfold qIndices
  by_cases h : P.maxLinks > 0
  · rw [if_pos h]
    dsimp only
    rw [foldl_filter]
    rfl
  · rw [if_neg h]
    symm
    rw [List.eq_nil_iff_forall_not_mem]
    intro q hq
    have := linked_nonempty P i q hq
    have := hP i hi
    omega

theorem links_eq (P : Pair) (hP : P.Bounded) (i : ℕ) (hi : i < P.numLocal) :
    links P i = linkedCells P.s2p P.pc (P.map i) := by
  unfold links
  by_cases h : P.maxLinks > 0
  · rw [if_pos h]
  · rw [if_neg h]
    symm
    have := hP i hi
    exact List.eq_nil_of_length_eq_zero (by omega)

/-! ### one facet -/

theorem scatterVec_adds (P : Pair) (cell l : ℕ) (be : Arr (ℕ × ℕ)) :
    Adds (scatterVec P cell l be) (fun d => scatter P.nd P.bs P.dofs cell (fun p => be (l, p)) d) := by
  unfold scatterVec scatter
  exact Adds.loop _ (fun j _ => Adds.loop _ (fun k _ => Adds.acc _ _))

theorem scatter_congr (nd bs : ℕ) (dofs : ℕ → ℕ → ℕ) (cell : ℕ) (v v' : ℕ → ℝ) (d : ℕ)
    (h : ∀ p < bs * nd, v p = v' p) : scatter nd bs dofs cell v d = scatter nd bs dofs cell v' d := by
  unfold scatter
  refine sum_congr rfl (fun j hj => sum_congr rfl (fun k hk => ?_))
  rw [h (bs * j + k)]
  have h1 := mem_range.mp hj
  have h2 := mem_range.mp hk
  have : bs * (j + 1) ≤ bs * nd := Nat.mul_le_mul_left _ h1
  rw [Nat.mul_succ] at this
  omega

theorem facetVector_congr (nd bs : ℕ) (dofs : ℕ → ℕ → ℕ) (cell : ℕ) (linked : List ℕ) (e e' : ℕ × ℕ → ℝ)
    (d : ℕ) (h : ∀ m : ℕ × ℕ, m.1 < linked.length + 1 → m.2 < bs * nd → e m = e' m) :
    facetVector nd bs dofs cell linked e d = facetVector nd bs dofs cell linked e' d := by
  unfold facetVector
  rw [scatter_congr nd bs dofs cell _ _ d (fun p hp => h (0, p) (by simp) hp)]
  refine congrArg (_ + ·) (sum_congr rfl (fun l hl => ?_))
  have := mem_range.mp hl
  exact scatter_congr nd bs dofs _ _ _ d (fun p hp => h (l + 1, p) (by simp; omega) hp)

theorem fillLoop (size n : ℕ) (a : Arr (ℕ × ℕ)) (m : ℕ × ℕ) (h1 : m.1 < n + 1) (h2 : m.2 < size) :
    loop n (fun j be => fillZero size (j + 1) be) (fillZero size 0 a) m = 0 := by
  have key : ∀ k, loop k (fun j be => fillZero size (j + 1) be) (fillZero size 0 a) m
      = if m.1 < k + 1 then 0 else a m := by
    intro k
    induction k with
    | zero =>
      rw [loop_zero, fillZero]
      by_cases h : m.1 = 0
      · rw [if_pos ⟨h, h2⟩, if_pos (by omega)]
      · rw [if_neg (fun h' => h h'.1), if_neg (by omega)]
    | succ k ih =>
      rw [loop_succ, fillZero, ih]
      by_cases h : m.1 = k + 1
      · rw [if_pos ⟨h, h2⟩, if_pos (by omega)]
      · rw [if_neg (fun h' => h h'.1)]
        by_cases h' : m.1 < k + 1
        · rw [if_pos h', if_pos (by omega)]
        · rw [if_neg h', if_neg (by omega)]
  rw [key, if_pos h1]

/-- The element vectors of facet `i`: the kernel on zeroed blocks, with the facet's coefficient row and
linked points. -/
def element (P : Pair) (kernel : Kern) (coeffs : ℕ → ℝ) (cstride : ℕ) (linked : List ℕ) (i : ℕ) :
    Arr (ℕ × ℕ) :=
  kernel (dataRow coeffs cstride i) (P.facets i).1 (P.facets i).2 linked.length (linkedPoints (P.map i)) 0

theorem vectorFacet_spec (P : Pair) (hP : P.Bounded) (kernel : Kern) (coeffs : ℕ → ℝ) (cstride i : ℕ)
    (hi : i < P.numLocal)
    (hk : ∀ c n q, StaysInBlocks (n + 1) (P.bs * P.nd) (kernel c (P.facets i).1 (P.facets i).2 n q))
    (linked : List ℕ) (hl : IsLinkedCells P.cellOf (P.map i) linked)
    (s : Arr (ℕ × ℕ) × Arr ℕ) (d : ℕ) :
    (vectorFacet P kernel coeffs cstride i s).2 d = s.2 d +
      facetVector P.nd P.bs P.dofs (P.facets i).1 linked (element P kernel coeffs cstride linked i) d := by
  have el : links P i = linked := by
    rw [links_eq P hP i hi]; exact linkedCells_unique (isLinkedCells P i) hl
  unfold vectorFacet
  dsimp only
  rw [el, qIndices_eq P hP i hi]
  set be := kernel (row coeffs cstride i) (P.facets i).1 (P.facets i).2 linked.length
    (linkedPoints (P.map i)) (loop linked.length (fun j be => fillZero (P.bs * P.nd) (j + 1) be)
      (fillZero (P.bs * P.nd) 0 s.1)) with hbe
  rw [Adds.loop linked.length (fun l _ => scatterVec_adds P (linked.getD l 0) (l + 1) be) _ d,
    scatterVec_adds, add_assoc]
  refine congrArg (s.2 d + ·) ?_
  show facetVector P.nd P.bs P.dofs (P.facets i).1 linked be d = _
  refine facetVector_congr _ _ _ _ _ _ _ d (fun m h1 h2 => ?_)
  refine hk _ _ _ _ _ (fun m h1 h2 => ?_) m h1 h2
  rw [fillLoop _ _ _ _ h1 h2]; rfl

/-! ### C43 -/

/-- C43: the assembled vector is the input plus, for every owned facet, its element vectors scattered
to its own cell and its linked cells. The kernel is any function that keeps to its blocks; its blocks
are re-used from facet to facet without leaking values. -/
theorem C43_vector (P : Pair) (hP : P.Bounded) (ht : P.transforms = false) (kernel : Kern)
    (hk : ∀ c cell f n q, StaysInBlocks (n + 1) (P.bs * P.nd) (kernel c cell f n q))
    (coeffs : ℕ → ℝ) (cstride : ℕ) (linked : ℕ → List ℕ)
    (hl : ∀ i < P.numLocal, IsLinkedCells P.cellOf (P.map i) (linked i)) (b : Arr ℕ) :
    ∃ b', assembleVector P kernel coeffs cstride b = .ok b' ∧ ∀ d, b' d = b d +
      ∑ i ∈ range P.numLocal, facetVector P.nd P.bs P.dofs (P.facets i).1 (linked i)
        (element P kernel coeffs cstride (linked i) i) d := by
  rw [assembleVector, if_neg (by simp [ht])]
  refine ⟨_, rfl, fun d => ?_⟩
  have key : ∀ n ≤ P.numLocal, (loop n (vectorFacet P kernel coeffs cstride) (fun _ => 0, b)).2 d = b d +
      ∑ i ∈ range n, facetVector P.nd P.bs P.dofs (P.facets i).1 (linked i)
        (element P kernel coeffs cstride (linked i) i) d := by
    intro n
    induction n with
    | zero => intro _; simp
    | succ n ih =>
      intro hn
      rw [loop_succ, vectorFacet_spec P hP kernel coeffs cstride n (by omega)
        (fun c m q => hk c _ _ m q) (linked n) (hl n (by omega)), ih (by omega), sum_range_succ, add_assoc]
  exact key _ (le_refl _)

/-- C43: spaces that need dof transformations raise. -/
theorem C43_raises (P : Pair) (ht : P.transforms = true) (kernel : Kern) (coeffs : ℕ → ℝ) (cstride : ℕ)
    (b : Arr ℕ) : assembleVector P kernel coeffs cstride b = .error .invalidArgument := by
  rw [assembleVector, if_pos (by simp [ht])]

theorem scatter_zero (nd bs : ℕ) (dofs : ℕ → ℕ → ℕ) (cell : ℕ) (v : ℕ → ℝ) (d : ℕ)
    (h : ∀ j < nd, ∀ k < bs, d ≠ bs * dofs cell j + k) : scatter nd bs dofs cell v d = 0 :=
  sum_eq_zero (fun j hj => sum_eq_zero (fun k hk =>
    if_neg (h j (mem_range.mp hj) k (mem_range.mp hk))))

/-- C43: dofs that belong neither to the cell of an owned facet nor to a cell linked to one are left
untouched. -/
theorem C43_untouched (P : Pair) (hP : P.Bounded) (ht : P.transforms = false) (kernel : Kern)
    (hk : ∀ c cell f n q, StaysInBlocks (n + 1) (P.bs * P.nd) (kernel c cell f n q))
    (coeffs : ℕ → ℝ) (cstride : ℕ) (b : Arr ℕ) (d : ℕ)
    (hd : ∀ i < P.numLocal, ∀ c, (c = (P.facets i).1 ∨ ∃ f : ℕ, (f : ℤ) ∈ P.map i ∧ P.cellOf f = c) →
      ∀ j < P.nd, ∀ k < P.bs, d ≠ P.bs * P.dofs c j + k) :
    ∃ b', assembleVector P kernel coeffs cstride b = .ok b' ∧ b' d = b d := by
  obtain ⟨b', h1, h2⟩ := C43_vector P hP ht kernel hk coeffs cstride
    (fun i => linkedCells P.s2p P.pc (P.map i)) (fun i _ => isLinkedCells P i) b
  refine ⟨b', h1, ?_⟩
  rw [h2, sum_eq_zero, add_zero]
  intro i hi
  have hi := mem_range.mp hi
  unfold facetVector
  rw [scatter_zero _ _ _ _ _ _ (hd i hi _ (Or.inl rfl)), zero_add]
  refine sum_eq_zero (fun l hl => scatter_zero _ _ _ _ _ _ (hd i hi _ (Or.inr ?_)))
  have hl := mem_range.mp hl
  rw [← (isLinkedCells P i).2, List.getD_eq_getElem _ _ hl]
  exact List.getElem_mem hl

/-- C43: the result does not depend on the order of the facets (each with its links and its row of
coefficients). -/
theorem C43_order (P P' : Pair) (hP : P.Bounded) (ht : P.transforms = false) (kernel : Kern)
    (hk : ∀ c cell f n q, StaysInBlocks (n + 1) (P.bs * P.nd) (kernel c cell f n q))
    (coeffs coeffs' : ℕ → ℝ) (cstride : ℕ) (b : Arr ℕ) (perm : ℕ → ℕ)
    (hperm : Set.BijOn perm (Set.Iio P.numLocal) (Set.Iio P.numLocal))
    (hP' : P' = { P with facets := fun i => P.facets (perm i), map := fun i => P.map (perm i) })
    (hc : ∀ i < P.numLocal, ∀ t < cstride, coeffs' (i * cstride + t) = coeffs (perm i * cstride + t)) :
    assembleVector P' kernel coeffs' cstride b = assembleVector P kernel coeffs cstride b := by
  have hmap : ∀ i < P.numLocal, perm i < P.numLocal := fun i hi => hperm.mapsTo hi
  have hB : P'.Bounded := by subst hP'; exact fun i hi => hP (perm i) (hmap i hi)
  obtain ⟨b1, h1, h1'⟩ := C43_vector P hP ht kernel hk coeffs cstride
    (fun i => linkedCells P.s2p P.pc (P.map i)) (fun i _ => isLinkedCells P i) b
  obtain ⟨b2, h2, h2'⟩ := C43_vector P' hB (by subst hP'; exact ht) kernel (by subst hP'; exact hk) coeffs'
    cstride (fun i => linkedCells P.s2p P.pc (P.map (perm i)))
    (fun i _ => by subst hP'; exact isLinkedCells P (perm i)) b
  rw [h1, h2]
  refine congrArg _ (funext (fun d => ?_))
  rw [h1', h2']
  refine congrArg (b d + ·) ?_
  subst hP'
  refine sum_nbij perm (fun i hi => mem_range.mpr (hmap i (mem_range.mp hi))) ?_ ?_ ?_
  · intro i hi j hj; simp at hi hj; exact hperm.injOn hi hj
  · intro i hi; simp at hi
    obtain ⟨j, hj, e⟩ := hperm.surjOn hi
    exact ⟨j, by simpa using hj, e⟩
  · intro i hi
    refine congrArg (fun e => facetVector P.nd P.bs P.dofs (P.facets (perm i)).1
      (linkedCells P.s2p P.pc (P.map (perm i))) e d) ?_
    unfold element
    have : dataRow coeffs' cstride i = dataRow coeffs cstride (perm i) := by
      funext t
      unfold dataRow
      by_cases h : t < cstride
      · rw [if_pos h, if_pos h, hc i (mem_range.mp hi) t h]
      · rw [if_neg h, if_neg h]
    rw [this]

/-- C43: `ContactProblem.assemble_vector` adds the contributions of all pairs and all kernels. -/
theorem C43_problem (pairs : List Pair) (kernels : List Kern) (coeffs : ℕ → ℕ → ℝ) (cstride : ℕ → ℕ)
    (hp : ∀ P ∈ pairs, P.Bounded ∧ P.transforms = false ∧ ∀ k ∈ kernels, ∀ c cell f n q,
      StaysInBlocks (n + 1) (P.bs * P.nd) (k c cell f n q))
    (linked : ℕ → ℕ → List ℕ) (hl : ∀ s (hs : s < pairs.length), ∀ i < pairs[s].numLocal,
      IsLinkedCells pairs[s].cellOf (pairs[s].map i) (linked s i)) (b : Arr ℕ) :
    ∃ b', problemVector pairs kernels coeffs cstride b = .ok b' ∧ ∀ d, b' d = b d +
      ((List.range pairs.length).map (fun s => (kernels.map (fun k => (pairs[s]?.elim 0 (fun P =>
        ∑ i ∈ range P.numLocal, facetVector P.nd P.bs P.dofs (P.facets i).1
          (linked s i) (element P k (coeffs s) (cstride s) (linked s i) i) d)))).sum)).sum := by
  -- a generic fold of additions
  have gen : ∀ {α : Type} (l : List α) (step : α → Arr ℕ → Except Err (Arr ℕ)) (δ : α → ℕ → ℝ),
      (∀ x ∈ l, ∀ b, ∃ b', step x b = .ok b' ∧ ∀ d, b' d = b d + δ x d) →
      ∀ b, ∃ b', l.foldlM (fun b x => step x b) b = .ok b' ∧ ∀ d, b' d = b d + (l.map (fun x => δ x d)).sum := by
    intro α l step δ h
    induction l with
    | nil => intro b; exact ⟨b, rfl, fun d => by simp⟩
    | cons x l ih =>
      intro b
      obtain ⟨b1, h1, h1'⟩ := h x (List.mem_cons_self ..) b
      obtain ⟨b2, h2, h2'⟩ := ih (fun y hy => h y (List.mem_cons_of_mem _ hy)) b1
      refine ⟨b2, ?_, fun d => ?_⟩
      · rw [List.foldlM_cons, h1]; exact h2
      · rw [h2', h1', List.map_cons, List.sum_cons, add_assoc]
  unfold problemVector
  refine gen (List.range pairs.length) (fun s b => kernels.foldlM (fun b kernel =>
      match pairs[s]? with
      | some P => assembleVector P kernel (coeffs s) (cstride s) b
      | none => .ok b) b) _ (fun s hs b => ?_) b
  have hs := List.mem_range.mp hs
  rw [List.getElem?_eq_getElem hs]
  obtain ⟨hB, ht, hk⟩ := hp _ (List.getElem_mem hs)
  refine gen kernels (fun kernel b => assembleVector pairs[s] kernel (coeffs s) (cstride s) b) _
    (fun k hkm b => ?_) b
  exact C43_vector pairs[s] hB ht k (hk k hkm) (coeffs s) (cstride s) (linked s) (hl s hs) b

/-! ### C53: points without a link -/

theorem facetVector_add (nd bs : ℕ) (dofs : ℕ → ℕ → ℕ) (cell : ℕ) (linked : List ℕ) (qs : List ℕ)
    (e : ℕ → ℕ × ℕ → ℝ) (d : ℕ) :
    facetVector nd bs dofs cell linked (fun m => (qs.map (fun q => e q m)).sum) d
      = (qs.map (fun q => facetVector nd bs dofs cell linked (e q) d)).sum := by
  induction qs with
  | nil => simp [facetVector, scatter]
  | cons q qs ih =>
    rw [List.map_cons, List.sum_cons, ← ih]
    simp only [List.map_cons, List.sum_cons, facetVector, scatter]
    have hs : ∀ (f g : ℕ → ℝ) (c : ℕ), (∑ j ∈ range nd, ∑ k ∈ range bs,
        if d = bs * dofs c j + k then f (bs * j + k) + g (bs * j + k) else 0)
        = (∑ j ∈ range nd, ∑ k ∈ range bs, if d = bs * dofs c j + k then f (bs * j + k) else 0)
        + ∑ j ∈ range nd, ∑ k ∈ range bs, if d = bs * dofs c j + k then g (bs * j + k) else 0 := by
      intro f g c
      rw [← sum_add_distrib]
      refine sum_congr rfl (fun j _ => ?_)
      rw [← sum_add_distrib]
      refine sum_congr rfl (fun k _ => ?_)
      by_cases h : d = bs * dofs c j + k <;> simp [h]
    rw [hs (fun p => e q (0, p)) (fun p => (qs.map (fun q => e q (0, p))).sum)]
    rw [sum_congr rfl (fun l _ => hs (fun p => e q (l + 1, p)) (fun p => (qs.map (fun q => e q (l + 1, p))).sum)
      (linked.getD l 0)), sum_add_distrib]
    ring

/-- C53: what `assemble_vector` adds is a sum over the *linked* quadrature points only: for each
owned facet, the element vectors of the kernel at single points whose contact map entry is not
negative.  (Kernels are sums over points by C54.) -/
theorem C53_unlinked (P : Pair) (hP : P.Bounded) (ht : P.transforms = false) (kernel : Kern)
    (hk : ∀ c cell f n, Spec.SumOfPoints (kernel c cell f n))
    (coeffs : ℕ → ℝ) (cstride : ℕ) (linked : ℕ → List ℕ)
    (hl : ∀ i < P.numLocal, IsLinkedCells P.cellOf (P.map i) (linked i)) (b : Arr ℕ) :
    ∃ b', assembleVector P kernel coeffs cstride b = .ok b' ∧ ∀ d, b' d = b d +
      ∑ i ∈ range P.numLocal, ((linkedPoints (P.map i)).map (fun q =>
        facetVector P.nd P.bs P.dofs (P.facets i).1 (linked i)
          (kernel (dataRow coeffs cstride i) (P.facets i).1 (P.facets i).2 (linked i).length [q] 0) d)).sum := by
  obtain ⟨b', h1, h2⟩ := C43_vector P hP ht kernel (fun c cell f n q a a' h m hm hm' => by
    rw [(hk c cell f n).sum q a m, (hk c cell f n).sum q a' m, h m hm hm']) coeffs cstride linked hl b
  refine ⟨b', h1, fun d => ?_⟩
  rw [h2]
  refine congrArg (b d + ·) (sum_congr rfl (fun i _ => ?_))
  rw [← facetVector_add]
  refine congrArg (fun e => facetVector P.nd P.bs P.dofs (P.facets i).1 (linked i) e d) (funext (fun m => ?_))
  rw [element, (hk _ _ _ _).sum]
  simp

/-- C53: a facet none of whose points is linked adds nothing: removing all such facets' coefficient
rows from the data does not change the result. -/
theorem C53_unlinked_facet (P : Pair) (hP : P.Bounded) (ht : P.transforms = false) (kernel : Kern)
    (hk : ∀ c cell f n, Spec.SumOfPoints (kernel c cell f n))
    (coeffs coeffs' : ℕ → ℝ) (cstride : ℕ) (b : Arr ℕ)
    (hc : ∀ i < P.numLocal, (∃ f : ℕ, (f : ℤ) ∈ P.map i) →
      ∀ t < cstride, coeffs' (i * cstride + t) = coeffs (i * cstride + t)) :
    assembleVector P kernel coeffs' cstride b = assembleVector P kernel coeffs cstride b := by
  obtain ⟨b1, h1, h1'⟩ := C53_unlinked P hP ht kernel hk coeffs cstride _ (fun i _ => isLinkedCells P i) b
  obtain ⟨b2, h2, h2'⟩ := C53_unlinked P hP ht kernel hk coeffs' cstride _ (fun i _ => isLinkedCells P i) b
  rw [h1, h2]
  refine congrArg _ (funext (fun d => ?_))
  rw [h1', h2']
  refine congrArg (b d + ·) (sum_congr rfl (fun i hi => ?_))
  by_cases h : ∃ f : ℕ, (f : ℤ) ∈ P.map i
  · have : dataRow coeffs' cstride i = dataRow coeffs cstride i := by
      funext t
      unfold dataRow
      by_cases ht : t < cstride
      · rw [if_pos ht, if_pos ht, hc i (mem_range.mp hi) h t ht]
      · rw [if_neg ht, if_neg ht]
    rw [this]
  · have : linkedPoints (P.map i) = [] := by
      rw [List.eq_nil_iff_forall_not_mem]
      intro q hq
      rw [linkedPoints, List.mem_filter, List.mem_range, decide_eq_true_eq] at hq
      obtain ⟨h1, h2⟩ := hq
      rw [List.getD_eq_getElem _ _ h1] at h2
      exact h ⟨((P.map i)[q]).toNat, by rw [Int.toNat_of_nonneg h2]; exact List.getElem_mem h1⟩
    rw [this]; rfl

/-! ### C45 -/

theorem addValues_adds (P : Pair) (c c' : ℕ) (v : ℕ → ℝ) :
    Adds (addValues P.bs (cellDofs P c) (cellDofs P c') v)
      (fun m => scatter2 P.nd P.bs P.dofs c c' v m.1 m.2) := by
  have len : ∀ c, (cellDofs P c).length = P.nd := fun c => by simp [cellDofs]
  have get : ∀ c, ∀ a < P.nd, (cellDofs P c).getD a 0 = P.dofs c a := by
    intro c a ha
    rw [List.getD_eq_getElem _ _ (by rw [len]; exact ha)]
    simp [cellDofs]
  unfold addValues scatter2
  rw [len, len]
  refine Adds.congr (Adds.loop _ (fun a _ => Adds.loop _ (fun k _ => Adds.loop _ (fun b _ =>
    Adds.loop _ (fun l _ => Adds.acc _ _))))) (fun m => ?_)
  refine sum_congr rfl (fun a ha => sum_congr rfl (fun k _ => sum_congr rfl (fun b hb =>
    sum_congr rfl (fun l _ => ?_))))
  rw [get c a (mem_range.mp ha), get c' b (mem_range.mp hb)]
  refine if_congr ?_ rfl rfl
  rw [Prod.ext_iff]

theorem scatter2_congr (nd bs : ℕ) (dofs : ℕ → ℕ → ℕ) (c c' : ℕ) (v v' : ℕ → ℝ) (r s : ℕ)
    (h : ∀ p < bs * nd * (bs * nd), v p = v' p) :
    scatter2 nd bs dofs c c' v r s = scatter2 nd bs dofs c c' v' r s := by
  unfold scatter2
  refine sum_congr rfl (fun i hi => sum_congr rfl (fun k hk => sum_congr rfl (fun j hj =>
    sum_congr rfl (fun l hl => ?_))))
  rw [h]
  have hlt : ∀ {i k : ℕ}, i ∈ range nd → k ∈ range bs → bs * i + k < bs * nd := by
    intro i k hi hk
    have h1 := mem_range.mp hi
    have h2 := mem_range.mp hk
    have : bs * (i + 1) ≤ bs * nd := Nat.mul_le_mul_left _ h1
    rw [Nat.mul_succ] at this
    omega
  have h1 := hlt hi hk
  have h2 := hlt hj hl
  have : (bs * i + k + 1) * (bs * nd) ≤ bs * nd * (bs * nd) := Nat.mul_le_mul_right _ h1
  rw [Nat.succ_mul] at this
  omega

theorem facetMatrix_congr (nd bs : ℕ) (dofs : ℕ → ℕ → ℕ) (cell : ℕ) (linked : List ℕ) (e e' : ℕ × ℕ → ℝ)
    (r c : ℕ) (h : ∀ m : ℕ × ℕ, m.1 < 3 * linked.length + 1 → m.2 < bs * nd * (bs * nd) → e m = e' m) :
    facetMatrix nd bs dofs cell linked e r c = facetMatrix nd bs dofs cell linked e' r c := by
  unfold facetMatrix
  rw [scatter2_congr nd bs dofs cell cell _ _ r c (fun p hp => h (0, p) (by simp) hp)]
  refine congrArg (_ + ·) (sum_congr rfl (fun l hl => ?_))
  have := mem_range.mp hl
  rw [scatter2_congr nd bs dofs _ _ _ _ r c (fun p hp => h (3 * l + 1, p) (by simp; omega) hp),
    scatter2_congr nd bs dofs _ _ _ _ r c (fun p hp => h (3 * l + 2, p) (by simp; omega) hp),
    scatter2_congr nd bs dofs _ _ _ _ r c (fun p hp => h (3 * l + 3, p) (by simp; omega) hp)]

theorem fillLoop3 (size n : ℕ) (a : Arr (ℕ × ℕ)) (m : ℕ × ℕ) (h1 : m.1 < 3 * n + 1) (h2 : m.2 < size) :
    loop n (fun j be => fillZero size (3 * j + 3) (fillZero size (3 * j + 2) (fillZero size (3 * j + 1) be)))
      (fillZero size 0 a) m = 0 := by
  have key : ∀ k, loop k (fun j be => fillZero size (3 * j + 3) (fillZero size (3 * j + 2)
      (fillZero size (3 * j + 1) be))) (fillZero size 0 a) m = if m.1 < 3 * k + 1 then 0 else a m := by
    intro k
    induction k with
    | zero =>
      rw [loop_zero, fillZero]
      by_cases h : m.1 = 0
      · rw [if_pos ⟨h, h2⟩, if_pos (by omega)]
      · rw [if_neg (fun h' => h h'.1), if_neg (by omega)]
    | succ k ih =>
      rw [loop_succ, fillZero, fillZero, fillZero, ih]
      by_cases h : m.1 = 3 * k + 3
      · rw [if_pos ⟨h, h2⟩, if_pos (by omega)]
      · rw [if_neg (fun h' => h h'.1)]
        by_cases h : m.1 = 3 * k + 2
        · rw [if_pos ⟨h, h2⟩, if_pos (by omega)]
        · rw [if_neg (fun h' => h h'.1)]
          by_cases h : m.1 = 3 * k + 1
          · rw [if_pos ⟨h, h2⟩, if_pos (by omega)]
          · rw [if_neg (fun h' => h h'.1)]
            by_cases h' : m.1 < 3 * k + 1
            · rw [if_pos h', if_pos (by omega)]
            · rw [if_neg h', if_neg (by omega)]
  rw [key, if_pos h1]

theorem matrixFacet_spec (P : Pair) (hP : P.Bounded) (kernel : Kern) (coeffs : ℕ → ℝ) (cstride i : ℕ)
    (hi : i < P.numLocal)
    (hk : ∀ c n q, StaysInBlocks (3 * n + 1) (P.bs * P.nd * (P.bs * P.nd))
      (kernel c (P.facets i).1 (P.facets i).2 n q))
    (linked : List ℕ) (hl : IsLinkedCells P.cellOf (P.map i) linked)
    (s : Arr (ℕ × ℕ) × Arr (ℕ × ℕ)) (r c : ℕ) :
    (matrixFacet (addValues P.bs) P kernel coeffs cstride i s).2 (r, c) = s.2 (r, c) +
      facetMatrix P.nd P.bs P.dofs (P.facets i).1 linked (element P kernel coeffs cstride linked i) r c := by
  have el : links P i = linked := by
    rw [links_eq P hP i hi]; exact linkedCells_unique (isLinkedCells P i) hl
  unfold matrixFacet
  dsimp only
  rw [el, qIndices_eq P hP i hi]
  set Ae := kernel (row coeffs cstride i) (P.facets i).1 (P.facets i).2 linked.length
    (linkedPoints (P.map i)) (loop linked.length (fun j Ae =>
      fillZero (P.bs * P.nd * (P.bs * P.nd)) (3 * j + 3) (fillZero (P.bs * P.nd * (P.bs * P.nd)) (3 * j + 2)
        (fillZero (P.bs * P.nd * (P.bs * P.nd)) (3 * j + 1) Ae)))
      (fillZero (P.bs * P.nd * (P.bs * P.nd)) 0 s.1)) with hAe
  rw [Adds.loop linked.length (fun j _ => ((addValues_adds P (P.facets i).1 (linked.getD j 0) _).comp
      (addValues_adds P (linked.getD j 0) (P.facets i).1 _)).comp
      (addValues_adds P (linked.getD j 0) (linked.getD j 0) _)) _ (r, c),
    addValues_adds, add_assoc]
  refine congrArg (s.2 (r, c) + ·) ?_
  show facetMatrix P.nd P.bs P.dofs (P.facets i).1 linked Ae r c = _
  refine facetMatrix_congr _ _ _ _ _ _ _ r c (fun m h1 h2 => ?_)
  refine hk _ _ _ _ _ (fun m h1 h2 => ?_) m h1 h2
  rw [fillLoop3 _ _ _ _ h1 h2]; rfl

/-- C45: the assembled matrix is the input plus, for every owned facet, its element matrices scattered
to the four kinds of blocks. -/
theorem C45_matrix (P : Pair) (hP : P.Bounded) (ht : P.transforms = false) (kernel : Kern)
    (hk : ∀ c cell f n q, StaysInBlocks (3 * n + 1) (P.bs * P.nd * (P.bs * P.nd)) (kernel c cell f n q))
    (coeffs : ℕ → ℝ) (cstride : ℕ) (linked : ℕ → List ℕ)
    (hl : ∀ i < P.numLocal, IsLinkedCells P.cellOf (P.map i) (linked i)) (A : Arr (ℕ × ℕ)) :
    ∃ A', assembleMatrix (addValues P.bs) P kernel coeffs cstride A = .ok A' ∧ ∀ r c, A' (r, c) = A (r, c) +
      ∑ i ∈ range P.numLocal, facetMatrix P.nd P.bs P.dofs (P.facets i).1 (linked i)
        (element P kernel coeffs cstride (linked i) i) r c := by
  rw [assembleMatrix, if_neg (by simp [ht])]
  refine ⟨_, rfl, fun r c => ?_⟩
  have key : ∀ n ≤ P.numLocal,
      (loop n (matrixFacet (addValues P.bs) P kernel coeffs cstride) (fun _ => 0, A)).2 (r, c) = A (r, c) +
      ∑ i ∈ range n, facetMatrix P.nd P.bs P.dofs (P.facets i).1 (linked i)
        (element P kernel coeffs cstride (linked i) i) r c := by
    intro n
    induction n with
    | zero => intro _; simp
    | succ n ih =>
      intro hn
      rw [loop_succ, matrixFacet_spec P hP kernel coeffs cstride n (by omega)
        (fun c m q => hk c _ _ m q) (linked n) (hl n (by omega)), ih (by omega), sum_range_succ, add_assoc]
  exact key _ (le_refl _)

/-- C45: spaces that need dof transformations raise, whatever the callback. -/
theorem C45_raises {σ : Type} (matSet : List ℕ → List ℕ → (ℕ → ℝ) → σ → σ) (P : Pair)
    (ht : P.transforms = true) (kernel : Kern) (coeffs : ℕ → ℝ) (cstride : ℕ) (A : σ) :
    assembleMatrix matSet P kernel coeffs cstride A = .error .invalidArgument := by
  rw [assembleMatrix, if_pos (by simp [ht])]

/-- C45: `ContactProblem.assemble_matrix` adds the contributions of all pairs and all kernels. -/
theorem C45_problem (pairs : List Pair) (kernels : List Kern) (coeffs : ℕ → ℕ → ℝ) (cstride : ℕ → ℕ)
    (hp : ∀ P ∈ pairs, P.Bounded ∧ P.transforms = false ∧ ∀ k ∈ kernels, ∀ c cell f n q,
      StaysInBlocks (3 * n + 1) (P.bs * P.nd * (P.bs * P.nd)) (k c cell f n q))
    (linked : ℕ → ℕ → List ℕ) (hl : ∀ s (hs : s < pairs.length), ∀ i < pairs[s].numLocal,
      IsLinkedCells pairs[s].cellOf (pairs[s].map i) (linked s i)) (A : Arr (ℕ × ℕ)) :
    ∃ A', problemMatrix pairs kernels coeffs cstride A = .ok A' ∧ ∀ r c, A' (r, c) = A (r, c) +
      ((List.range pairs.length).map (fun s => (kernels.map (fun k => (pairs[s]?.elim 0 (fun P =>
        ∑ i ∈ range P.numLocal, facetMatrix P.nd P.bs P.dofs (P.facets i).1
          (linked s i) (element P k (coeffs s) (cstride s) (linked s i) i) r c)))).sum)).sum := by
  have gen : ∀ {α : Type} (l : List α) (step : α → Arr (ℕ × ℕ) → Except Err (Arr (ℕ × ℕ)))
      (δ : α → ℕ → ℕ → ℝ),
      (∀ x ∈ l, ∀ b, ∃ b', step x b = .ok b' ∧ ∀ d e, b' (d, e) = b (d, e) + δ x d e) →
      ∀ b, ∃ b', l.foldlM (fun b x => step x b) b = .ok b' ∧
        ∀ d e, b' (d, e) = b (d, e) + (l.map (fun x => δ x d e)).sum := by
    intro α l step δ h
    induction l with
    | nil => intro b; exact ⟨b, rfl, fun d e => by simp⟩
    | cons x l ih =>
      intro b
      obtain ⟨b1, h1, h1'⟩ := h x (List.mem_cons_self ..) b
      obtain ⟨b2, h2, h2'⟩ := ih (fun y hy => h y (List.mem_cons_of_mem _ hy)) b1
      refine ⟨b2, ?_, fun d e => ?_⟩
      · rw [List.foldlM_cons, h1]; exact h2
      · rw [h2', h1', List.map_cons, List.sum_cons, add_assoc]
  unfold problemMatrix
  refine gen (List.range pairs.length) (fun s b => kernels.foldlM (fun b kernel =>
      match pairs[s]? with
      | some P => assembleMatrix (addValues P.bs) P kernel (coeffs s) (cstride s) b
      | none => .ok b) b) _ (fun s hs b => ?_) A
  have hs := List.mem_range.mp hs
  rw [List.getElem?_eq_getElem hs]
  obtain ⟨hB, ht, hk⟩ := hp _ (List.getElem_mem hs)
  refine gen kernels (fun kernel b => assembleMatrix (addValues pairs[s].bs) pairs[s] kernel (coeffs s) (cstride s) b) _
    (fun k hkm b => ?_) b
  exact C45_matrix pairs[s] hB ht k (hk k hkm) (coeffs s) (cstride s) (linked s) (hl s hs) b

/-! ### C44 -/

/-- A callback that records the (row, column) blocks it is asked to write. -/
def logCall (rows cols : List ℕ) (_ : ℕ → ℝ) (log : List (ℕ × ℕ)) : List (ℕ × ℕ) := insert rows cols log

theorem mem_insert (rows cols : List ℕ) (p : List (ℕ × ℕ)) (x : ℕ × ℕ) :
    x ∈ insert rows cols p ↔ x ∈ p ∨ (x.1 ∈ rows ∧ x.2 ∈ cols) := by
  obtain ⟨a, b⟩ := x
  simp [insert, List.mem_append, List.mem_flatMap, List.mem_map]

theorem mem_linkedDofsRaw (P : Pair) (i d : ℕ) :
    d ∈ linkedDofsRaw P i ↔ ∃ f : ℕ, (f : ℤ) ∈ P.map i ∧ d ∈ cellDofs P (P.cellOf f) := by
  unfold linkedDofsRaw
  have key : ∀ (l : List ℤ) (acc : List ℕ), d ∈ l.foldl (fun acc link =>
      if link < 0 then acc else acc ++ cellDofs P (P.pc (P.s2p link.toNat))) acc ↔
      d ∈ acc ∨ ∃ f : ℕ, (f : ℤ) ∈ l ∧ d ∈ cellDofs P (P.cellOf f) := by
    intro l
    induction l with
    | nil => intro acc; simp
    | cons a l ih =>
      intro acc
      rw [List.foldl_cons, ih]
      by_cases ha : a < 0
      · rw [if_pos ha]
        refine or_congr Iff.rfl ⟨fun ⟨f, h1, h2⟩ => ⟨f, List.mem_cons_of_mem _ h1, h2⟩, fun ⟨f, h1, h2⟩ => ⟨f, ?_, h2⟩⟩
        rcases List.mem_cons.mp h1 with h | h
        · omega
        · exact h
      · rw [if_neg ha, List.mem_append]
        constructor
        · rintro ((h | h) | ⟨f, h1, h2⟩)
          · exact Or.inl h
          · exact Or.inr ⟨a.toNat, by rw [Int.toNat_of_nonneg (by omega)]; exact List.mem_cons_self .., h⟩
          · exact Or.inr ⟨f, List.mem_cons_of_mem _ h1, h2⟩
        · rintro (h | ⟨f, h1, h2⟩)
          · exact Or.inl (Or.inl h)
          · rcases List.mem_cons.mp h1 with h | h
            · left; right
              have : a.toNat = f := by omega
              rw [this]; exact h2
            · exact Or.inr ⟨f, h, h2⟩
  rw [key]; simp

theorem mem_linkedDofs (P : Pair) (i d : ℕ) :
    d ∈ linkedDofs P i ↔ ∃ f : ℕ, (f : ℤ) ∈ P.map i ∧ d ∈ cellDofs P (P.cellOf f) := by
  rw [linkedDofs, mem_uniqueAdj, mem_stableSort, mem_linkedDofsRaw]

theorem mem_createPattern (pairs : List Pair) (form : List (ℕ × ℕ)) (x : ℕ × ℕ) :
    x ∈ createPattern pairs form ↔ x ∈ form ∨ ∃ P ∈ pairs, ∃ i < P.numLocal,
      (x.1 ∈ cellDofs P (P.facets i).1 ∧ x.2 ∈ linkedDofs P i)
        ∨ (x.1 ∈ linkedDofs P i ∧ x.2 ∈ cellDofs P (P.facets i).1) := by
  unfold createPattern
  have inner : ∀ (P : Pair) (n : ℕ) (p : List (ℕ × ℕ)), x ∈ loop n (fun i pattern =>
      insert (linkedDofs P i) (cellDofs P (P.facets i).1)
        (insert (cellDofs P (P.facets i).1) (linkedDofs P i) pattern)) p ↔
      x ∈ p ∨ ∃ i < n, (x.1 ∈ cellDofs P (P.facets i).1 ∧ x.2 ∈ linkedDofs P i)
        ∨ (x.1 ∈ linkedDofs P i ∧ x.2 ∈ cellDofs P (P.facets i).1) := by
    intro P n p
    induction n with
    | zero => simp
    | succ n ih =>
      rw [loop_succ, mem_insert, mem_insert, ih]
      constructor
      · rintro (((h | ⟨i, hi, h⟩) | h) | h)
        · exact Or.inl h
        · exact Or.inr ⟨i, by omega, h⟩
        · exact Or.inr ⟨n, by omega, Or.inl h⟩
        · exact Or.inr ⟨n, by omega, Or.inr h⟩
      · rintro (h | ⟨i, hi, h⟩)
        · exact Or.inl (Or.inl (Or.inl h))
        · by_cases e : i = n
          · subst e
            rcases h with h | h
            · exact Or.inl (Or.inr h)
            · exact Or.inr h
          · exact Or.inl (Or.inl (Or.inr ⟨i, by omega, h⟩))
  induction pairs generalizing form with
  | nil => simp [forEach]
  | cons P ps ih =>
    refine (ih _).trans ?_
    rw [inner]
    constructor
    · rintro ((h | ⟨i, hi, h⟩) | ⟨Q, hQ, h⟩)
      · exact Or.inl h
      · exact Or.inr ⟨P, List.mem_cons_self .., i, hi, h⟩
      · exact Or.inr ⟨Q, List.mem_cons_of_mem _ hQ, h⟩
    · rintro (h | ⟨Q, hQ, h⟩)
      · exact Or.inl (Or.inl h)
      · rcases List.mem_cons.mp hQ with e | hQ
        · subst e; exact Or.inl (Or.inr h)
        · exact Or.inr ⟨Q, hQ, h⟩

/-- C44: every (row, column) block that `assemble_matrix` writes is in the sparsity pattern of
`create_petsc_matrix`, where the contact map at assembly may have lost links since the matrix was
created (each entry is negative or an entry of the original row).  `form` is the pattern of the bilinear form, which contains all pairs
of dofs of each cell at the surfaces. -/
theorem C44_pattern (pairs : List Pair) (form : List (ℕ × ℕ)) (P : Pair) (hmem : P ∈ pairs)
    (hform : ∀ i < P.numLocal, ∀ c, (c = (P.facets i).1 ∨ ∃ f : ℕ, (f : ℤ) ∈ P.map i ∧ P.cellOf f = c) →
      ∀ a < P.nd, ∀ b < P.nd, (P.dofs c a, P.dofs c b) ∈ form)
    (map' : ℕ → List ℤ) (maxLinks' : ℕ)
    (hmap : ∀ i < P.numLocal, ∀ l ∈ map' i, l < 0 ∨ l ∈ P.map i)
    (kernel : Kern) (coeffs : ℕ → ℝ) (cstride : ℕ) (ht : P.transforms = false) :
    ∃ log, assembleMatrix logCall { P with map := map', maxLinks := maxLinks' } kernel coeffs cstride [] = .ok log
      ∧ ∀ x ∈ log, x ∈ createPattern pairs form := by
  set Q : Pair := { P with map := map', maxLinks := maxLinks' } with hQ
  rw [assembleMatrix, if_neg (by rw [hQ]; simp [ht])]
  refine ⟨_, rfl, ?_⟩
  have hcd : ∀ c, cellDofs Q c = cellDofs P c := fun c => rfl
  have hself : ∀ i < P.numLocal, ∀ c, (c = (P.facets i).1 ∨ ∃ f : ℕ, (f : ℤ) ∈ P.map i ∧ P.cellOf f = c) →
      ∀ x : ℕ × ℕ, x.1 ∈ cellDofs P c → x.2 ∈ cellDofs P c → x ∈ form := by
    intro i hi c hc x h1 h2
    rw [cellDofs, List.mem_map] at h1 h2
    obtain ⟨a, ha, ea⟩ := h1
    obtain ⟨b, hb, eb⟩ := h2
    have := hform i hi c hc a (List.mem_range.mp ha) b (List.mem_range.mp hb)
    rw [ea, eb] at this
    exact this
  have hcell : ∀ i < P.numLocal, ∀ c ∈ links Q i, ∃ f : ℕ, (f : ℤ) ∈ P.map i ∧ P.cellOf f = c := by
    intro i hi c hc
    have hc' : c ∈ linkedCells Q.s2p Q.pc (Q.map i) := by
      unfold links at hc
      split at hc
      · exact hc
      · simp at hc
    rw [(isLinkedCells Q i).2] at hc'
    obtain ⟨f, hf, e⟩ := hc'
    refine ⟨f, ?_, e⟩
    rcases hmap i hi _ hf with h | h
    · omega
    · exact h
  have hlink : ∀ i < P.numLocal, ∀ c ∈ links Q i, ∀ d ∈ cellDofs P c, d ∈ linkedDofs P i := by
    intro i hi c hc d hd
    obtain ⟨f, hf, e⟩ := hcell i hi c hc
    rw [mem_linkedDofs]
    exact ⟨f, hf, by rw [e]; exact hd⟩
  refine (loop_induct (fun _ (s : Arr (ℕ × ℕ) × List (ℕ × ℕ)) => ∀ x ∈ s.2, x ∈ createPattern pairs form)
    Q.numLocal (matrixFacet logCall Q kernel coeffs cstride) (fun _ => 0, []) (by simp) ?_)
  intro i s hi ih
  have hi : i < P.numLocal := hi
  unfold matrixFacet
  dsimp only
  refine loop_induct (fun _ (log : List (ℕ × ℕ)) => ∀ x ∈ log, x ∈ createPattern pairs form) _ _ _ ?_ ?_
  · intro x hx
    rw [logCall, mem_insert] at hx
    rcases hx with hx | ⟨h1, h2⟩
    · exact ih x hx
    · rw [mem_createPattern]
      exact Or.inl (hself i hi _ (Or.inl rfl) x h1 h2)
  · intro j log hj ihl x hx
    have hc : (links Q i).getD j 0 ∈ links Q i := by
      rw [List.getD_eq_getElem _ _ hj]; exact List.getElem_mem hj
    simp only [logCall, mem_insert] at hx
    rw [mem_createPattern]
    rcases hx with ((hx | ⟨h1, h2⟩) | ⟨h1, h2⟩) | ⟨h1, h2⟩
    · rw [← mem_createPattern]; exact ihl x hx
    · exact Or.inr ⟨P, hmem, i, hi, Or.inl ⟨h1, hlink i hi _ hc _ h2⟩⟩
    · exact Or.inr ⟨P, hmem, i, hi, Or.inr ⟨hlink i hi _ hc _ h1, h2⟩⟩
    · exact Or.inl (hself i hi _ (Or.inr (hcell i hi _ hc)) x h1 h2)

/-! ### examples -/

/-- Two facets with two points each: the second point of facet 0 is not linked, facet 1 not at all. -/
def exP : Pair where
  facets i := (i, 0)
  numLocal := 2
  map i := if i = 0 then [3, -1] else [-1, -1]
  s2p f := f
  pc c := c + 2
  maxLinks := 1
  nd := 2
  bs := 2
  dofs c j := c + j
  transforms := false

theorem exP_bounded : exP.Bounded := by
  unfold Pair.Bounded
  show ∀ i < 2, (linkedCells (fun f => f) (fun c => c + 2) (if i = 0 then [3, -1] else [-1, -1])).length ≤ 1
  intro i hi
  have : i = 0 ∨ i = 1 := by omega
  rcases this with h | h <;> subst h <;> decide +kernel

example : linkedPoints (exP.map 0) = [0] ∧ linkedPoints (exP.map 1) = []
    ∧ linkedCells exP.s2p exP.pc (exP.map 0) = [5] := by
  refine ⟨by decide +kernel, by decide +kernel, by decide +kernel⟩

/-- The contact residual kernel as an argument of `assemble_vector`. -/
def exKernel : Kern := fun c _ _ n q => Kernels.unbiasedRhs Kernels.exD c Kernels.exw n q

/-- The contact Jacobian kernel as an argument of `assemble_matrix`. -/
def exJac : Kern := fun c _ _ n q => Kernels.unbiasedJac Kernels.exD c Kernels.exw n q

/-- Kernels that are sums of points keep to their blocks. -/
theorem staysInBlocks {k : List ℕ → Arr (ℕ × ℕ) → Arr (ℕ × ℕ)} (h : SumOfPoints k) (n size : ℕ) (q : List ℕ) :
    StaysInBlocks n size (k q) := by
  intro a a' e m h1 h2
  rw [h.sum, h.sum, e m h1 h2]

/-- C43_vector, C43_problem, C53_unlinked: hypotheses hold for the contact kernel and this pair. -/
example : exP.Bounded ∧ exP.transforms = false ∧ (∀ c cell f n, SumOfPoints (exKernel c cell f n))
    ∧ (∀ c cell f n q, StaysInBlocks (n + 1) (exP.bs * exP.nd) (exKernel c cell f n q)) :=
  ⟨exP_bounded, rfl, fun c _ _ n => (Kernels.C54_points _ c _ n).1,
    fun c _ _ n q => staysInBlocks (Kernels.C54_points _ c _ n).1 _ _ q⟩

/-- C45_matrix likewise. -/
example : exP.Bounded ∧ exP.transforms = false
    ∧ (∀ c cell f n q, StaysInBlocks (3 * n + 1) (exP.bs * exP.nd * (exP.bs * exP.nd)) (exJac c cell f n q)) :=
  ⟨exP_bounded, rfl, fun c _ _ n q => staysInBlocks (Kernels.C54_points _ c _ n).2.1 _ _ q⟩

/-- C43_untouched: dofs 30.. of this pair are not touched. -/
example : ∀ i < exP.numLocal, ∀ c, (c = (exP.facets i).1 ∨ ∃ f : ℕ, (f : ℤ) ∈ exP.map i ∧ exP.cellOf f = c) →
      ∀ j < exP.nd, ∀ k < exP.bs, 30 ≠ exP.bs * exP.dofs c j + k := by
  simp only [exP, Pair.cellOf]
  intro i hi c hc j hj k hk
  have : c ≤ 5 := by
    rcases hc with h | ⟨f, h1, h2⟩
    · omega
    · split at h1 <;> simp at h1 <;> omega
  omega

/-- C43_order: swapping the two facets is a bijection. -/
example : Set.BijOn (fun i => 1 - i) (Set.Iio exP.numLocal) (Set.Iio exP.numLocal) := by
  refine ⟨fun i hi => ?_, fun i hi j hj h => ?_, fun i hi => ⟨1 - i, ?_, ?_⟩⟩ <;>
    simp [exP] at * <;> omega

/-- A kernel whose blocks are the counts of points; the second facet and the second point of the
first facet contribute nothing, block 0 goes to cell 0 (dofs 0 to 3), block 1 to cell 5. -/
def cntKernel : Kern := fun _ _ _ n q a m => if m.1 < n + 1 then a m + q.length else a m

example : ∃ b, assembleVector exP cntKernel (fun _ => 0) 1 (fun _ => 0) = .ok b ∧ b 0 = 1 ∧ b 10 = 1 ∧ b 5 = 0 := by
  obtain ⟨b, h1, h2⟩ := C43_vector exP exP_bounded rfl cntKernel (fun c cell f n q a a' h m e1 e2 => by
    simp only [cntKernel, h m e1 e2]) (fun _ => 0) 1 _ (fun i _ => isLinkedCells exP i) (fun _ => 0)
  refine ⟨b, h1, ?_⟩
  have e0 : linkedCells exP.s2p exP.pc (exP.map 0) = [5] := by decide +kernel
  have e1 : linkedCells exP.s2p exP.pc (exP.map 1) = [] := by decide +kernel
  have q0 : linkedPoints (exP.map 0) = [0] := by decide +kernel
  have q1 : linkedPoints (exP.map 1) = [] := by decide +kernel
  have n2 : exP.numLocal = 2 := rfl
  have hb : exP.bs = 2 := rfl
  have hn : exP.nd = 2 := rfl
  simp only [n2, sum_range_succ, sum_range_zero, e0, e1, element, q0, q1, facetVector, scatter, cntKernel, hb, hn]
    at h2
  refine ⟨?_, ?_, ?_⟩ <;> rw [h2] <;> norm_num [exP]

/-- C44_pattern: cropping the only link of facet 0; the pattern of the form on cells 0, 1 and 5. -/
example : (∀ i < exP.numLocal, ∀ l ∈ (fun _ => [-1, -1] : ℕ → List ℤ) i, l < 0 ∨ l ∈ exP.map i)
    ∧ ∀ i < exP.numLocal, ∀ c, (c = (exP.facets i).1 ∨ ∃ f : ℕ, (f : ℤ) ∈ exP.map i ∧ exP.cellOf f = c) →
      ∀ a < exP.nd, ∀ b < exP.nd, (exP.dofs c a, exP.dofs c b)
        ∈ [(0, 0), (0, 1), (1, 0), (1, 1), (1, 2), (2, 1), (2, 2), (5, 5), (5, 6), (6, 5), (6, 6)] := by
  refine ⟨fun i _ l hl => by simp at hl; omega, ?_⟩
  simp only [exP, Pair.cellOf]
  intro i hi c hc a ha b hb
  have : c = 0 ∨ c = 1 ∨ c = 5 := by
    rcases hc with h | ⟨f, h1, h2⟩
    · omega
    · split at h1 <;> simp at h1 <;> omega
  rcases this with rfl | rfl | rfl <;> rcases (show a = 0 ∨ a = 1 by omega) with rfl | rfl <;>
    rcases (show b = 0 ∨ b = 1 by omega) with rfl | rfl <;> simp

/-- C44: the pattern is not the full one. -/
example : (0, 20) ∉ createPattern [exP] [] ∧ (0, 5) ∈ createPattern [exP] [] := by
  constructor <;> decide +kernel

end

end Verif.Assembly
