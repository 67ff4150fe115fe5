import Verif.Lemmas.TieSystemForm
import Verif.Props.MeshTieData

/-! Lemmas for C117–C120: what `MeshTie::assemble_vector` and `assemble_matrix` add. -/

namespace Verif.TieData

open Verif.Spec Verif.Packing Verif.Assembly Verif.Entities Verif.Kernels Verif.ContactProblem Finset

noncomputable section

variable {M : TieMesh} {E : TieElement}

/-- The kernels. -/
inductive TieKern where
  | elRhs (th : Bool) | elJac (th : Bool) | thRhs | heatRhs | heatJac

def TieKern.fn : TieKern → KD → KernelFn
  | .elRhs th => fun D => tieRhs D (offsets (tieStrides D th))
  | .elJac th => fun D => tieJac D (offsets (tieStrides D th))
  | .thRhs => fun D c _ => thermoRhs D (offsets (tieStrides D true)) c
  | .heatRhs => fun D => poisRhs D (offsets (poissonStrides D))
  | .heatJac => fun D => poisJac D (offsets (poissonStrides D))

def TieKern.width : TieKern → KD → ℕ
  | .elRhs th => fun D => (tieStrides D th).sum
  | .elJac th => fun D => (tieStrides D th).sum
  | .thRhs => fun D => (tieStrides D true).sum
  | _ => fun D => (poissonStrides D).sum

def TieKern.Fits : TieKern → KD → Prop
  | .heatRhs => fun D => D.bs = 1
  | .heatJac => fun D => D.bs = 1
  | _ => fun D => D.bs = D.gdim

theorem TieKern.points (k : TieKern) (D : KD) (c w : ℕ → ℝ) (links : ℕ) : SumOfPoints (k.fn D c w links) := by
  obtain ⟨h1, h2, h3, -, -⟩ := C54_points_tie D (offsets (tieStrides D true)) c w links
  cases k with
  | elRhs th => exact (C54_points_tie D (offsets (tieStrides D th)) c w links).1
  | elJac th => exact (C54_points_tie D (offsets (tieStrides D th)) c w links).2.1
  | thRhs => exact h3
  | heatRhs => exact (C54_points_tie D (offsets (poissonStrides D)) c w links).2.2.2.1
  | heatJac => exact (C54_points_tie D (offsets (poissonStrides D)) c w links).2.2.2.2

theorem offsets_le (l : List ℕ) (k : ℕ) : offsets l k ≤ l.sum := by
  unfold offsets
  conv_rhs => rw [← List.take_append_drop k l, List.sum_append]
  omega

theorem TieKern.extent (k : TieKern) (D : KD) (hf : k.Fits D) (c c' w : ℕ → ℝ) (h : ∀ m < k.width D, c m = c' m)
    (links : ℕ) (hl : links ≤ D.maxLinks) (qs : List ℕ) (hqs : ∀ q ∈ qs, q < D.nq) :
    k.fn D c w links qs = k.fn D c' w links qs := by
  obtain ⟨h1, h2, h3⟩ := C39_extent D c c' w links hl qs hqs
  obtain ⟨h4, h5⟩ := C39_matrix_only D c c' w links hl qs hqs
  cases k with
  | elRhs th => exact h1 th hf h
  | elJac th => exact h4 th hf (fun m hm => h m (lt_of_lt_of_le hm (offsets_le _ _)))
  | thRhs => exact h2 h
  | heatRhs => exact h3 h
  | heatJac => exact h5 (fun m hm => h m (lt_of_lt_of_le hm (offsets_le _ _)))

/-- The kernels of a problem. -/
def vecKerns : Problem → List TieKern
  | .elasticity => [.elRhs false]
  | .poisson => [.heatRhs]
  | .thermo => [.elRhs true, .thRhs]

def matKern : Problem → TieKern
  | .elasticity => .elJac false
  | .poisson => .heatJac
  | .thermo => .elJac true

/-- Cell and local facet of facet `e`. -/
def facetOf (M : TieMesh) (i e : ℕ) : ℕ × ℕ := (M.facets i).getD e (0, 0)

/-- The linked cells of facet `e` of pair `i`. -/
def linksOf (M : TieMesh) (E : TieElement) (i e : ℕ) : List ℕ :=
  linkedCells M.subCell M.parentCell ((M.pair E i).row e)

theorem linksOf_list (M : TieMesh) (E : TieElement) (i e : ℕ) :
    Packing.Spec.IsLinkList (M.pair E i) e (linksOf M E i e) := linkList_exists (M.pair E i) e

theorem pair_bounded (M : TieMesh) (E : TieElement) (i : ℕ) : (M.assemblyPair E i).Bounded := by
  intro e _
  exact links_le (linksOf_list M E i e)

/-- Constants of the kernels. -/
def gammaTheta (gamma theta : ℝ) (n : ℕ) : ℝ := [gamma, theta].getD n 0

/-- The element array of kernel `k` on facet `e` of pair `i` with row `c`. -/
def TieKern.elem (k : TieKern) (M : TieMesh) (E : TieElement) (gamma theta : ℝ) (i e : ℕ) (c : ℕ → ℝ) : Arr (ℕ × ℕ) :=
  k.fn (M.kd E (facetOf M i e).1 (facetOf M i e).2) c (gammaTheta gamma theta) (linksOf M E i e).length
    (linkedPoints ((M.pair E i).row e)) 0

/-- A launch runs kernel `k` on rows `R`. -/
structure Runs (M : TieMesh) (E : TieElement) (p : Problem) (gamma theta : ℝ) (k : TieKern) (l : Launch ℝ) : Prop where
  kern : M.kern E p l = fun row cell f links qs A => k.fn (M.kd E cell f) row (gammaTheta gamma theta) links qs A
  width : ∀ cell f, k.width (M.kd E cell f) = l.stride
  fits : ∀ cell f, k.Fits (M.kd E cell f)

theorem element_eq {p : Problem} {gamma theta : ℝ} {k : TieKern} {l : Launch ℝ} (H : Runs M E p gamma theta k l) (e : ℕ) :
    element (M.assemblyPair E l.pair) (M.kern E p l) l.buf.val l.stride (linksOf M E l.pair e) e
      = k.elem M E gamma theta l.pair e (l.buf.row l.stride e) := by
  unfold element TieKern.elem
  rw [H.kern]
  have h := k.extent (M.kd E (facetOf M l.pair e).1 (facetOf M l.pair e).2) (H.fits _ _)
    (dataRow l.buf.val l.stride e) (l.buf.row l.stride e) (gammaTheta gamma theta) (fun m hm => by
      rw [H.width] at hm
      unfold dataRow Buf.row
      rw [if_pos hm]) (linksOf M E l.pair e).length (links_le (linksOf_list M E l.pair e))
    (linkedPoints ((M.pair E l.pair).row e)) (fun q hq => points_lt hq)
  exact congrFun h 0

theorem launch_vector {p : Problem} {gamma theta : ℝ} {k : TieKern} {l : Launch ℝ} (H : Runs M E p gamma theta k l)
    (b : Arr ℕ) :
    ∃ b', Assembly.assembleVector (M.assemblyPair E l.pair) (M.kern E p l) l.buf.val l.stride b = .ok b'
      ∧ ∀ d, b' d = b d + ∑ e ∈ range (M.localFacets l.pair), facetVector E.nd E.bs E.dofs (facetOf M l.pair e).1
        (linksOf M E l.pair e) (k.elem M E gamma theta l.pair e (l.buf.row l.stride e)) d := by
  obtain ⟨b', h1, h2⟩ := C43_vector (M.assemblyPair E l.pair) (pair_bounded M E l.pair) rfl (M.kern E p l)
    (fun c cell f n q => by
      rw [H.kern]
      exact stays_of_points (k.points (M.kd E cell f) c _ n) _ _ q)
    l.buf.val l.stride (linksOf M E l.pair) (fun e _ => C12_linked_cells ..) b
  refine ⟨b', h1, fun d => ?_⟩
  rw [h2 d]
  congr 1
  refine sum_congr rfl (fun e _ => ?_)
  rw [element_eq H]
  rfl

theorem launch_matrix {p : Problem} {gamma theta : ℝ} {k : TieKern} {l : Launch ℝ} (H : Runs M E p gamma theta k l)
    (A : Arr (ℕ × ℕ)) :
    ∃ A', Assembly.assembleMatrix (addValues E.bs) (M.assemblyPair E l.pair) (M.kern E p l) l.buf.val l.stride A = .ok A'
      ∧ ∀ m, A' m = A m + ∑ e ∈ range (M.localFacets l.pair), facetMatrix E.nd E.bs E.dofs (facetOf M l.pair e).1
        (linksOf M E l.pair e) (k.elem M E gamma theta l.pair e (l.buf.row l.stride e)) m.1 m.2 := by
  obtain ⟨b', h1, h2⟩ := C45_matrix (M.assemblyPair E l.pair) (pair_bounded M E l.pair) rfl (M.kern E p l)
    (fun c cell f n q => by
      rw [H.kern]
      exact stays_of_points (k.points (M.kd E cell f) c _ n) _ _ q)
    l.buf.val l.stride (linksOf M E l.pair) (fun e _ => C12_linked_cells ..) A
  refine ⟨b', h1, fun m => ?_⟩
  rw [show b' m = b' (m.1, m.2) from rfl, h2 m.1 m.2]
  congr 1
  refine sum_congr rfl (fun e _ => ?_)
  rw [element_eq H]
  rfl

theorem fold_add {α β : Type} (l : List α) (step : α → Arr β → Except Assembly.Err (Arr β)) (δ : α → β → ℝ)
    (h : ∀ x ∈ l, ∀ b, ∃ b', step x b = .ok b' ∧ ∀ d, b' d = b d + δ x d) (b : Arr β) :
    ∃ b', l.foldlM (fun b x => step x b) b = .ok b' ∧ ∀ d, b' d = b d + (l.map (fun x => δ x d)).sum := by
  induction l generalizing b with
  | nil => exact ⟨b, rfl, fun d => by simp⟩
  | cons x l ih =>
    obtain ⟨b1, h1, h1'⟩ := h x (List.mem_cons_self ..) b
    obtain ⟨b2, h2, h2'⟩ := ih (fun y hy => h y (List.mem_cons_of_mem _ hy)) b1
    refine ⟨b2, ?_, fun d => ?_⟩
    · rw [List.foldlM_cons, h1]; exact h2
    · rw [h2', h1', List.map_cons, List.sum_cons, add_assoc]

theorem tie_checks (hM : TieMesh.Valid M) (h0 : 0 < E.bs) :
    kernelDataChecks ⟨M.cell, E.bs, E.bs, false⟩ = .ok () ∧ checkCellType M.cell = .ok () := by
  obtain ⟨h1, h2, h3⟩ := hM.cell
  have e : E.bs / E.bs = 1 := Nat.div_self h0
  have e2 : ([CellType.prism, .pyramid, .interval].contains M.cell) = false := by
    cases h : M.cell <;> simp_all
  constructor
  · unfold kernelDataChecks checkCellType unsupportedCells
    simp only [e2, e]
    rfl
  · unfold checkCellType unsupportedCells
    simp only [e2]
    rfl

theorem kern_tie (hM : TieMesh.Valid M) (h0 : 0 < E.bs) {p : Problem} (hp : p ≠ .poisson) (l : Launch ℝ) (th : Bool)
    (hk : l.kernel = some (strides M.static (M.space E) th)) {gamma theta : ℝ} (hc : l.consts = [gamma, theta]) :
    (l.fn = .meshTieRhs → M.kern E p l = fun row cell f links qs A =>
      (TieKern.elRhs th).fn (M.kd E cell f) row (gammaTheta gamma theta) links qs A)
    ∧ (l.fn = .meshTieJac → M.kern E p l = fun row cell f links qs A =>
      (TieKern.elJac th).fn (M.kd E cell f) row (gammaTheta gamma theta) links qs A)
    ∧ (l.fn = .thermoElasticRhs → th = true → M.kern E p l = fun row cell f links qs A =>
      TieKern.thRhs.fn (M.kd E cell f) row (gammaTheta gamma theta) links qs A) := by
  obtain ⟨c1, c2⟩ := tie_checks hM h0
  have hs : ∀ cell f th, tieStrides (M.kd E cell f) th = strides M.static (M.space E) th := fun cell f th =>
    (C39_kernel_strides M.static (M.space E) (M.kd E cell f) rfl rfl rfl rfl rfl).1 th
  refine ⟨fun hf => ?_, fun hf => ?_, fun hf ht => ?_⟩ <;> funext row cell f links qs A <;>
    unfold TieMesh.kern TieKern.fn <;> (try subst ht) <;> rw [hk] <;> dsimp only <;> rw [hs] <;>
    (cases p with
    | poisson => exact absurd rfl hp
    | _ =>
      unfold generateMeshtieKernel
      simp only [c1, c2, hf, hc]
      rfl)

theorem kern_heat (hM : TieMesh.Valid M) (h0 : E.bs = 1) (l : Launch ℝ)
    (hk : l.kernel = some (stridesP M.static (M.space E))) {gamma theta : ℝ} (hc : l.consts = [gamma, theta]) :
    (l.fn = .meshTieRhs → M.kern E .poisson l = fun row cell f links qs A =>
      TieKern.heatRhs.fn (M.kd E cell f) row (gammaTheta gamma theta) links qs A)
    ∧ (l.fn = .meshTieJac → M.kern E .poisson l = fun row cell f links qs A =>
      TieKern.heatJac.fn (M.kd E cell f) row (gammaTheta gamma theta) links qs A) := by
  obtain ⟨c1, c2⟩ := tie_checks hM (E := E) (by omega)
  have hs : ∀ cell f, poissonStrides (M.kd E cell f) = stridesP M.static (M.space E) := fun cell f =>
    (C39_kernel_strides M.static (M.space E) (M.kd E cell f) rfl rfl rfl rfl rfl).2
  refine ⟨fun hf => ?_, fun hf => ?_⟩ <;> funext row cell f links qs A <;>
    unfold TieMesh.kern TieKern.fn <;> rw [hk] <;> dsimp only <;> rw [hs] <;>
    unfold generatePoissonKernel <;> simp only [c1, c2, hf, hc] <;> rw [if_neg (by simpa using h0)] <;> rfl

theorem flat_sum {n : ℕ} {α : Type} (L : ℕ → List α) (δ : α → ℝ) :
    (((List.range n).flatMap L).map δ).sum = ∑ i ∈ range n, ((L i).map δ).sum := by
  rw [List.map_flatMap, ← list_range_sum]
  generalize List.range n = l
  induction l with
  | nil => rfl
  | cons x l ih => simp only [List.flatMap_cons, List.sum_append, ih, List.map_cons, List.sum_cons]

/-- The launches of one pair run the kernels on the rows of `R`. -/
theorem sums_of_launches {p : Problem} {gamma theta : ℝ} (L : ℕ → List (Launch ℝ)) (ks : List TieKern)
    (R : ℕ → ℕ → ℕ → ℝ)
    (h : ∀ i < M.numPairs, List.Forall₂ (fun k l => Runs M E p gamma theta k l ∧ l.pair = i
      ∧ ∀ e, l.buf.row l.stride e = R i e) ks (L i)) :
    (∃ b, ((List.range M.numPairs).flatMap L).foldlM (fun b l =>
        Assembly.assembleVector (M.assemblyPair E l.pair) (M.kern E p l) l.buf.val l.stride b) 0 = .ok b
      ∧ ∀ d, b d = ∑ i ∈ range M.numPairs, (ks.map (fun k => ∑ e ∈ range (M.localFacets i),
        facetVector E.nd E.bs E.dofs (facetOf M i e).1 (linksOf M E i e) (k.elem M E gamma theta i e (R i e)) d)).sum)
    ∧ ∃ A, ((List.range M.numPairs).flatMap L).foldlM (fun b l =>
        Assembly.assembleMatrix (addValues E.bs) (M.assemblyPair E l.pair) (M.kern E p l) l.buf.val l.stride b) 0 = .ok A
      ∧ ∀ m, A m = ∑ i ∈ range M.numPairs, (ks.map (fun k => ∑ e ∈ range (M.localFacets i),
        facetMatrix E.nd E.bs E.dofs (facetOf M i e).1 (linksOf M E i e) (k.elem M E gamma theta i e (R i e))
          m.1 m.2)).sum := by
  classical
  have hex : ∀ l ∈ (List.range M.numPairs).flatMap L, ∃ k, Runs M E p gamma theta k l := by
    intro l hl
    obtain ⟨i, hi, hl⟩ := List.mem_flatMap.mp hl
    have hF := h i (List.mem_range.mp hi)
    generalize L i = ls at hl hF
    clear h
    induction hF with
    | nil => simp at hl
    | cons h1 _ ih =>
      rcases List.mem_cons.mp hl with rfl | hl
      · exact ⟨_, h1.1⟩
      · exact ih hl
  obtain ⟨K, hK⟩ : ∃ K : Launch ℝ → TieKern, ∀ l ∈ (List.range M.numPairs).flatMap L, Runs M E p gamma theta (K l) l :=
    ⟨fun l => if h : ∃ k, Runs M E p gamma theta k l then h.choose else .heatRhs, fun l hl => by
      have := hex l hl
      simp only [dif_pos this]
      exact this.choose_spec⟩
  have same : ∀ {k k' : TieKern} {l : Launch ℝ}, Runs M E p gamma theta k l → Runs M E p gamma theta k' l →
      ∀ e, k.elem M E gamma theta l.pair e (l.buf.row l.stride e)
        = k'.elem M E gamma theta l.pair e (l.buf.row l.stride e) := by
    intro k k' l h1 h2 e
    rw [← element_eq h1, ← element_eq h2]
  have key : ∀ F : ℕ → ℕ → Arr (ℕ × ℕ) → ℝ, ∀ i ∈ range M.numPairs,
      ((L i).map (fun l => ∑ e ∈ range (M.localFacets l.pair),
        F l.pair e ((K l).elem M E gamma theta l.pair e (l.buf.row l.stride e)))).sum
      = (ks.map (fun k => ∑ e ∈ range (M.localFacets i), F i e (k.elem M E gamma theta i e (R i e)))).sum := by
    intro F i hi
    have hF := h i (mem_range.mp hi)
    have hsub : ∀ l ∈ L i, Runs M E p gamma theta (K l) l := fun l hl =>
      hK l (List.mem_flatMap.mpr ⟨i, List.mem_range.mpr (mem_range.mp hi), hl⟩)
    generalize L i = ls at hsub hF
    clear h
    induction hF with
    | nil => rfl
    | @cons k l ks ls h1 _ ih =>
      simp only [List.map_cons, List.sum_cons]
      rw [ih (fun l hl => hsub l (List.mem_cons_of_mem _ hl))]
      congr 1
      obtain ⟨h1, h2, h3⟩ := h1
      have := same (hsub l (List.mem_cons_self ..)) h1
      subst h2
      refine sum_congr rfl (fun e _ => ?_)
      rw [this e, h3 e]
  constructor
  · obtain ⟨b, h1, h2⟩ := fold_add ((List.range M.numPairs).flatMap L) (fun l b =>
      Assembly.assembleVector (M.assemblyPair E l.pair) (M.kern E p l) l.buf.val l.stride b) _
      (fun l hl b => launch_vector (hK l hl) b) 0
    refine ⟨b, h1, fun d => ?_⟩
    rw [h2 d, Pi.zero_apply, zero_add, flat_sum]
    exact sum_congr rfl (key (fun i e A => facetVector E.nd E.bs E.dofs (facetOf M i e).1 (linksOf M E i e) A d))
  · obtain ⟨b, h1, h2⟩ := fold_add ((List.range M.numPairs).flatMap L) (fun l b =>
      Assembly.assembleMatrix (addValues E.bs) (M.assemblyPair E l.pair) (M.kern E p l) l.buf.val l.stride b) _
      (fun l hl b => launch_matrix (hK l hl) b) 0
    refine ⟨b, h1, fun m => ?_⟩
    rw [h2 m, Pi.zero_apply, zero_add, flat_sum]
    exact sum_congr rfl (key (fun i e A => facetMatrix E.nd E.bs E.dofs (facetOf M i e).1 (linksOf M E i e) A m.1 m.2))

/-- What the assembled arrays are after any history of proper calls. -/
theorem assembled (hM : TieMesh.Valid M) (ops : List (Op ℝ)) (hops : ProperHistory M.static Tracked.new ops) {p : Problem}
    {g : Gen ℝ} (hg : (ops.foldl Tracked.step Tracked.new).get p = some g) (hp : g.p = p) (hV : g.V = M.space E) :
    E.bs = comps M.static p ∧ ∃ s, run M.static State.init ops = some s
      ∧ ∃ R : ℕ → ℕ → ℕ → ℝ, (∀ i < M.numPairs, ∀ e < M.localFacets i, g.Row M.static i e (R i e))
      ∧ (∃ b, M.assembleVector E p s 0 = .ok b ∧ ∀ d, b d = ∑ i ∈ range M.numPairs,
        ((vecKerns p).map (fun k => ∑ e ∈ range (M.localFacets i), facetVector E.nd E.bs E.dofs (facetOf M i e).1
          (linksOf M E i e) (k.elem M E g.gamma g.theta i e (R i e)) d)).sum)
      ∧ ∃ A, M.assembleMatrix E p s 0 = .ok A ∧ ∀ m, A m = ∑ i ∈ range M.numPairs, ∑ e ∈ range (M.localFacets i),
        facetMatrix E.nd E.bs E.dofs (facetOf M i e).1 (linksOf M E i e)
          ((matKern p).elem M E g.gamma g.theta i e (R i e)) m.1 m.2 := by
  obtain ⟨s, h1, H⟩ := good_history (S := M.static) (fun _ _ => rfl) ops (good_init M.static) hops
  have hst : ∀ cell f, (∀ th, tieStrides (M.kd E cell f) th = strides M.static (M.space E) th)
      ∧ poissonStrides (M.kd E cell f) = stridesP M.static (M.space E) := fun cell f =>
    C39_kernel_strides M.static (M.space E) (M.kd E cell f) rfl rfl rfl rfl rfl
  rcases get_cases H hg with ⟨hgp, hpo⟩ | ⟨hgp, hel⟩
  · obtain ⟨F, -⟩ := H.po g hpo
    rw [hgp] at hp
    subst hp
    have hb : E.bs = 1 := by have := F.space.bs; rw [hV, hgp] at this; exact this
    have hstr : g.strides M.static = stridesP M.static (M.space E) := by unfold Gen.strides; rw [hgp, hV]
    have hw : (stridesP M.static (M.space E)).sum = s.cstrideP := by rw [F.width, ← hstr]; exact sum_strides _ _ F.space
    refine ⟨hb, s, h1, fun i e => (s.coeffsP i).row s.cstrideP e, fun i hi e he => ?_, ?_, ?_⟩
    · have := (F.rows i hi).2 e he
      rw [← F.width] at this; exact this
    · refine (sums_of_launches (M := M) (E := E) (p := .poisson) (gamma := g.gamma) (theta := g.theta)
        (fun i => [⟨i, .meshTieRhs, s.kRhsP, s.coeffsP i, s.cstrideP, s.constsP⟩]) [.heatRhs] _
        (fun i hi => .cons ⟨⟨?_, fun cell f => ?_, fun cell f => hb⟩, rfl, fun e => rfl⟩ .nil)).1
      · exact (kern_heat hM hb _ (F.kRhs.trans (by rw [hstr])) F.consts).1 rfl
      · show (poissonStrides (M.kd E cell f)).sum = _
        rw [(hst cell f).2]; exact hw
    · have := (sums_of_launches (M := M) (E := E) (p := .poisson) (gamma := g.gamma) (theta := g.theta)
        (fun i => [⟨i, .meshTieJac, s.kJacP, s.coeffsP i, s.cstrideP, s.constsP⟩]) [.heatJac]
        (fun i e => (s.coeffsP i).row s.cstrideP e)
        (fun i hi => .cons ⟨⟨(kern_heat hM hb _ (F.kJac.trans (by rw [hstr])) F.consts).2 rfl, fun cell f => by
          show (poissonStrides (M.kd E cell f)).sum = _
          rw [(hst cell f).2]; exact hw, fun cell f => hb⟩, rfl, fun e => rfl⟩ .nil)).2
      simp only [List.map_cons, List.map_nil, List.sum_cons, List.sum_nil, add_zero] at this
      exact this
  · obtain ⟨F, -, hth⟩ := H.el g hel
    have hb : E.bs = M.gdim := by
      have := F.space.bs
      rw [hV] at this
      revert this hgp
      cases g.p with
      | poisson => intro h; exact absurd rfl h
      | _ => intro _ h; exact h
    have h0 : 0 < E.bs := by rw [hb]; exact hM.dim
    have hrow : ∀ i < M.numPairs, ∀ e < M.localFacets i, g.Row M.static i e ((s.coeffs i).row s.cstride e) := by
      intro i hi e he
      have := (F.rows i hi).2 e he
      rw [← F.width] at this; exact this
    cases hgp' : g.p with
    | poisson => exact absurd hgp' hgp
    | elasticity =>
      rw [hgp'] at hp
      subst hp
      have hstr : g.strides M.static = strides M.static (M.space E) false := by unfold Gen.strides; rw [hgp', hV]
      have hw : (strides M.static (M.space E) false).sum = s.cstride := by
        rw [F.width, ← hstr]; exact sum_strides _ _ F.space
      refine ⟨hb, s, h1, fun i e => (s.coeffs i).row s.cstride e, hrow, ?_, ?_⟩
      · refine (sums_of_launches (M := M) (E := E) (p := .elasticity) (gamma := g.gamma) (theta := g.theta)
          (fun i => [⟨i, .meshTieRhs, s.kRhs, s.coeffs i, s.cstride, s.consts⟩]) [.elRhs false] _
          (fun i hi => .cons ⟨⟨?_, fun cell f => ?_, fun cell f => hb⟩, rfl, fun e => rfl⟩ .nil)).1
        · exact (kern_tie hM h0 (by simp) _ false (F.kRhs.trans (by rw [hstr])) F.consts).1 rfl
        · show (tieStrides (M.kd E cell f) false).sum = _
          rw [(hst cell f).1]; exact hw
      · have := (sums_of_launches (M := M) (E := E) (p := .elasticity) (gamma := g.gamma) (theta := g.theta)
          (fun i => [⟨i, .meshTieJac, s.kJac, s.coeffs i, s.cstride, s.consts⟩]) [.elJac false]
          (fun i e => (s.coeffs i).row s.cstride e)
          (fun i hi => .cons ⟨⟨(kern_tie hM h0 (by simp) _ false (F.kJac.trans (by rw [hstr])) F.consts).2.1 rfl,
            fun cell f => by
              show (tieStrides (M.kd E cell f) false).sum = _
              rw [(hst cell f).1]; exact hw, fun cell f => hb⟩, rfl, fun e => rfl⟩ .nil)).2
        simp only [List.map_cons, List.map_nil, List.sum_cons, List.sum_nil, add_zero] at this
        exact this
    | thermo =>
      rw [hgp'] at hp
      subst hp
      have hstr : g.strides M.static = strides M.static (M.space E) true := by unfold Gen.strides; rw [hgp', hV]
      have hw : (strides M.static (M.space E) true).sum = s.cstride := by
        rw [F.width, ← hstr]; exact sum_strides _ _ F.space
      refine ⟨hb, s, h1, fun i e => (s.coeffs i).row s.cstride e, hrow, ?_, ?_⟩
      · refine (sums_of_launches (M := M) (E := E) (p := .thermo) (gamma := g.gamma) (theta := g.theta)
          (fun i => [⟨i, .meshTieRhs, s.kRhs, s.coeffs i, s.cstride, s.consts⟩,
            ⟨i, .thermoElasticRhs, s.kThermo, s.coeffs i, s.cstride, s.consts⟩]) [.elRhs true, .thRhs] _
          (fun i hi => .cons ⟨⟨?_, fun cell f => ?_, fun cell f => hb⟩, rfl, fun e => rfl⟩
            (.cons ⟨⟨?_, fun cell f => ?_, fun cell f => hb⟩, rfl, fun e => rfl⟩ .nil))).1
        · exact (kern_tie hM h0 (by simp) _ true (F.kRhs.trans (by rw [hstr])) F.consts).1 rfl
        · show (tieStrides (M.kd E cell f) true).sum = _
          rw [(hst cell f).1]; exact hw
        · exact (kern_tie hM h0 (by simp) _ true ((hth hgp').trans (by rw [hstr])) F.consts).2.2 rfl rfl
        · show (tieStrides (M.kd E cell f) true).sum = _
          rw [(hst cell f).1]; exact hw
      · have := (sums_of_launches (M := M) (E := E) (p := .thermo) (gamma := g.gamma) (theta := g.theta)
          (fun i => [⟨i, .meshTieJac, s.kJac, s.coeffs i, s.cstride, s.consts⟩]) [.elJac true]
          (fun i e => (s.coeffs i).row s.cstride e)
          (fun i hi => .cons ⟨⟨(kern_tie hM h0 (by simp) _ true (F.kJac.trans (by rw [hstr])) F.consts).2.1 rfl,
            fun cell f => by
              show (tieStrides (M.kd E cell f) true).sum = _
              rw [(hst cell f).1]; exact hw, fun cell f => hb⟩, rfl, fun e => rfl⟩ .nil)).2
        simp only [List.map_cons, List.map_nil, List.sum_cons, List.sum_nil, add_zero] at this
        exact this

end

end Verif.TieData
