import Verif.Lemmas.SystemForm

/-!
Properties C112, C113 and C114: packing, kernels and assembly together.
-/

namespace Verif.ContactProblem

open Verif.Spec Verif.Packing Verif.Kernels Finset

noncomputable section

variable {G : Type} {Y : System G}

/-- The contact maps of `create_distance_map` have no unlinked point before a linked one. -/
theorem linked_first (hY : System.Valid Y) (g : G) {i e : ℕ} (hi : i < Y.numPairs) (he : e < Y.localFacets i) :
    Packing.Spec.LinkedFirst (Y.pair g i) e := by
  intro q q' h1 h2 h3
  have h2' : q < Y.nq := h2
  rcases hY.search g i hi e he with h | h
  · exact h q' (by omega)
  · have := h q h2'
    have h3' : 0 ≤ Y.map g i (e * Y.nq + q) := h3
    omega

/-- C112: at any time after the data were generated, `update_contact_data(u)` succeeds, changes nothing
but the coefficients, and afterwards the row of every owned facet carries the displacement `u`: its
interpolation and gradient on the facet's cell (plus the gradient packed for the earlier load steps) and
the interpolated displacement of the linked cells; all other entries are as before. -/
theorem C112_update (hY : System.Valid Y) (ops : List (Op G)) (hops : ∀ op ∈ ops, OpShaped Y.static op) (g : G)
    (s : State G) (hs : s = history Y.static ops (init Y.static g)) (cs : ℕ → Mat) (hc : s.coeffs = some cs)
    (u : ℕ → ℝ) :
    ∃ cs', updateContactData Y.static (Y.du u) s = .ok { s with coeffs := some cs' } ∧
      ∀ i < Y.numPairs, (cs' i).rows = (cs i).rows ∧ (cs' i).cols = (cs i).cols ∧
        ∀ e < Y.localFacets i, ∀ cell f, (Y.facets i)[e]? = some (cell, f) →
          SameData ⟨Y.nq, Y.nd, Y.gdim, Y.nq⟩ ((cs' i).v e) ((cs i).v e) ∧
          ∀ L, Packing.Spec.IsLinkList (Y.pair s.geom i) e L →
            Carries ⟨Y.nq, Y.nd, Y.gdim, Y.nq⟩ L.length (facetPhi (Y.kd Y.nq cell f))
              (facetGrad (Y.kd Y.nq cell f)) (fun q a b => (s.gradU i).v e ((q * Y.gdim + a) * Y.gdim + b))
              ((cs' i).v e) (coupledDofs Y.gdim Y.space.parent cell L u) := by
  have H := good_history (static_shaped hY) ops hops (good_init Y.static g)
  rw [← hs] at H
  cases hcr : ((Tracked.new g).history ops).created with
  | false => rw [(H.fresh hcr).1] at hc; cases hc
  | true =>
    obtain ⟨cs0, cs', h1, h2, h3⟩ := carries_row hY H hcr u
    rw [hc] at h1
    cases h1
    refine ⟨cs', h2, fun i hi => ?_⟩
    obtain ⟨a1, a2, -, a4⟩ := h3 i hi
    refine ⟨a1, a2, fun e he cell f hf => ⟨(a4 e he).1, fun L hL => ?_⟩⟩
    obtain ⟨he', hf'⟩ := List.getElem?_eq_some_iff.mp hf
    have := ((a4 e he).2 L hL (linked_first hY s.geom hi he)).2 he'
    rw [hf'] at this
    exact this

/-- C113: the matrix `assemble_matrix` builds is the derivative of the vector `assemble_vector` builds
with respect to the dofs of the displacement passed to `update_contact_data`, for every friction law,
any history of calls and any direction `v`, if the linked points are away from the switches of the
contact and friction conditions. Partial: for the bound on the friction limit (C47, C48). -/
theorem C113_jacobian_partial (hY : System.Valid Y) (ops : List (Op G)) (hops : ∀ op ∈ ops, OpShaped Y.static op) (g : G)
    (law : Law) (hlaw : lastLaw ops none = some law) (h23 : law ≠ .frictionless → Y.gdim = 2 ∨ Y.gdim = 3)
    (s : State G) (hs : s = history Y.static ops (init Y.static g)) (hc : s.coeffs ≠ none)
    (N : ℕ) (hN : DofsBelow Y N) (u v : ℕ → ℝ)
    (hsw : ∀ s0 cs, updateContactData Y.static (Y.du u) s = .ok s0 → s0.coeffs = some cs →
      ∀ i < Y.numPairs, ∀ e < Y.localFacets i, ∀ cell f, (Y.facets i)[e]? = some (cell, f) →
        ∀ q < Y.nq, 0 ≤ Y.map s.geom i (e * Y.nq + q) →
          AwayFromSwitches law (Y.kd Y.nq cell f) ((cs i).v e) (constants s.consts) q) :
    ∃ (upd : ℝ → State G) (b : ℝ → Arr ℕ) (A : Arr (ℕ × ℕ)),
      (∀ t, updateContactData Y.static (Y.du (fun d => u d + t * v d)) s = .ok (upd t))
      ∧ (∀ t, Y.assembleVector (upd t) 0 = .ok (b t)) ∧ Y.assembleMatrix (upd 0) 0 = .ok A
      ∧ ∀ d, HasDerivAt (fun t => b t d) (∑ e ∈ range N, A (d, e) * v e) 0 := by
  have hfirst : ∀ i < Y.numPairs, ∀ e < Y.localFacets i, Packing.Spec.LinkedFirst (Y.pair s.geom i) e :=
    fun i hi e he => linked_first hY s.geom hi he
  have H := good_history (static_shaped hY) ops hops (good_init Y.static g)
  obtain ⟨hm, hv⟩ := kernels_of_history hY ops hops g law hlaw
  rw [← hs] at H hm hv
  have hcr : ((Tracked.new g).history ops).created = true := by
    cases h : ((Tracked.new g).history ops).created with
    | false => exact absurd (H.fresh h).1 hc
    | true => rfl
  choose cs cs' h1 h2 h3 using fun t : ℝ => carries_row hY H hcr (fun d => u d + t * v d)
  have hcs : ∀ t, cs t = cs 0 := fun t => Option.some.inj ((h1 t).symm.trans (h1 0))
  have hcols : ∀ t, ∀ i < Y.numPairs, (cs' t i).cols = coefficientsSize false Y.nq Y.gdim Y.nd Y.gdim Y.nq :=
    fun t i hi => (h3 t i hi).2.1.trans (h3 t i hi).2.2.1
  choose b hb1 hb2 using fun t : ℝ => vector_eq hY H law hv (cs' t) (hcols t)
  obtain ⟨A, hA1, hA2⟩ := matrix_eq hY H law hm (cs' 0) (hcols 0)
  refine ⟨fun t => { s with coeffs := some (cs' t) }, b, A, h2, hb1, hA1, fun d => ?_⟩
  simp only [hb2, hA2]
  rw [sum_list_mul]
  refine hasDerivAt_list_sum _ _ _ 0 (fun i hi => ?_)
  have hi' := List.mem_range.mp hi
  rw [sum_list_mul]
  refine hasDerivAt_list_sum _ _ _ 0 (fun p hp => ?_)
  simp only [sum_mul]
  rw [sum_comm]
  refine HasDerivAt.fun_sum (fun e he => ?_)
  have he' := mem_range.mp he
  have hel : e < (Y.facets i).length := lt_of_lt_of_le he' (hY.loc i hi')
  have hfe : facetOf Y i e = (Y.facets i)[e] := List.getD_eq_getElem _ _ hel
  have hL := linksOf_list Y s.geom i e
  rw [facetMatrix_apply Y.nd Y.gdim N Y.space.parent _ _ _ v d ?_ ?_]
  · refine facetVector_deriv _ _ _ _ _ _ _ d 0 (fun B hB r hr => ?_)
    rw [hfe]
    have hr' : r < Y.nd * Y.gdim := by rw [Nat.mul_comm]; exact hr
    have e1 : Y.gdim * Y.nd = Y.nd * Y.gdim := Nat.mul_comm ..
    dsimp only
    rw [e1]
    refine fn_deriv law p hp (Y.kd Y.nq (Y.facets i)[e].1 (Y.facets i)[e].2) ?_ _ _ _ (fun t => (cs' t i).v e)
      (fun q a b => (s.gradU i).v e ((q * Y.gdim + a) * Y.gdim + b))
      (fun t => coupledDofs Y.gdim Y.space.parent (Y.facets i)[e].1 (linksOf Y s.geom i e) (fun d => u d + t * v d))
      _ 0 rfl h23 (links_le hL) ?_ ?_ ?_ ?_ ?_ ?_ B r hB hr'
    · intro ha q
      have := hY.affine ha (Y.facets i)[e].2 q
      show Y.inv (Y.geo.jac _ (Y.cphi (Y.off (Y.facets i)[e].2 + q))) = Y.inv (Y.geo.jac _ (Y.cphi (Y.off (Y.facets i)[e].2)))
        ∧ Y.det _ (Y.geo.jac _ (Y.cphi (Y.off (Y.facets i)[e].2 + q))) = Y.det _ (Y.geo.jac _ (Y.cphi (Y.off (Y.facets i)[e].2)))
      rw [this]
      exact ⟨rfl, rfl⟩
    · intro q hq
      have := (linkedPoints_lt hq).1
      rwa [row_length] at this
    · intro t
      exact (((h3 t i hi').2.2.2 e he').2 _ hL (hfirst i hi' e he')).2 hel
    · intro t m hm
      rw [((h3 t i hi').2.2.2 e he').1 m hm, ((h3 0 i hi').2.2.2 e he').1 m hm, hcs t]
    · intro B m
      unfold coupledDofs
      have := ((hasDerivAt_id (0 : ℝ)).mul_const
        (v (Y.gdim * Y.space.parent (coupledCell (Y.facets i)[e].1 (linksOf Y s.geom i e) B) (m / Y.gdim) + m % Y.gdim))).const_add
        (u (Y.gdim * Y.space.parent (coupledCell (Y.facets i)[e].1 (linksOf Y s.geom i e) B) (m / Y.gdim) + m % Y.gdim))
      simpa using this
    · intro q hq
      have hq' := (linkedPoints_lt hq).1
      rw [row_length] at hq'
      exact (((h3 0 i hi').2.2.2 e he').2 _ hL (hfirst i hi' e he')).1 q hq'
    · intro q hq
      obtain ⟨hq', hq2⟩ := linkedPoints_lt hq
      rw [row_length] at hq'
      rw [row_getD _ _ hq'] at hq2
      have h20 := h2 0
      have eu : (fun d => u d + 0 * v d) = u := by funext d; rw [zero_mul, add_zero]
      rw [eu] at h20
      exact hsw _ _ h20 rfl i hi' e he' _ _ (List.getElem?_eq_getElem hel) q hq' hq2
  · intro j hj
    rw [hfe]
    exact hN.1 i hi' _ (List.getElem_mem hel) j hj
  · intro c hcL j hj
    rw [hL.2] at hcL
    obtain ⟨q, -, f, hf, rfl⟩ := hcL
    exact hN.2 _ (hY.cells s.geom i _ f hf) j hj

/-- C114: the vector `assemble_vector` builds after `update_contact_data(u)`, tested with any virtual
displacement `v`, is Nitsche's form of the contact conditions at `u`, for every friction law and any
history of calls: with the parameters, materials, normals, gaps and earlier displacement given last. -/
theorem C114_form (hY : System.Valid Y) (ops : List (Op G)) (hops : ∀ op ∈ ops, OpShaped Y.static op) (g : G)
    (law : Law) (hlaw : lastLaw ops none = some law) (h23 : law ≠ .frictionless → Y.gdim = 2 ∨ Y.gdim = 3)
    (gamma theta : ℝ) (hconsts : lastConsts ops none = some (gamma, theta))
    (s : State G) (hs : s = history Y.static ops (init Y.static g)) (hc : s.coeffs ≠ none)
    (N : ℕ) (hN : DofsBelow Y N) (u v : ℕ → ℝ) :
    ∃ (s' : State G) (b : Arr ℕ), updateContactData Y.static (Y.du u) s = .ok s' ∧ Y.assembleVector s' 0 = .ok b
      ∧ ∑ d ∈ range N, b d * v d = contactForm Y ((Tracked.new g).history ops) law gamma theta u v := by
  have hfirst : ∀ i < Y.numPairs, ∀ e < Y.localFacets i, Packing.Spec.LinkedFirst (Y.pair s.geom i) e :=
    fun i hi e he => linked_first hY s.geom hi he
  have H := good_history (static_shaped hY) ops hops (good_init Y.static g)
  obtain ⟨-, hv⟩ := kernels_of_history hY ops hops g law hlaw
  have hk : s.consts = (gamma, theta) := by
    rw [(C84_kernels Y.static ops g s hs).2.2, hconsts]; rfl
  rw [← hs] at H hv
  obtain ⟨t, ht⟩ : ∃ t, t = (Tracked.new g).history ops := ⟨_, rfl⟩
  rw [← ht] at H ⊢
  have hcr : t.created = true := by
    cases h : t.created with
    | false => exact absurd (H.fresh h).1 hc
    | true => rfl
  obtain ⟨cs, cs', -, h2, h3⟩ := carries_row hY H hcr u
  have hcols : ∀ i < Y.numPairs, (cs' i).cols = coefficientsSize false Y.nq Y.gdim Y.nd Y.gdim Y.nq :=
    fun i hi => (h3 i hi).2.1.trans (h3 i hi).2.2.1
  obtain ⟨b, hb1, hb2⟩ := vector_eq hY H law hv cs' hcols
  refine ⟨{ s with coeffs := some cs' }, b, h2, hb1, ?_⟩
  -- the rows
  have hrow : ∀ i < Y.numPairs, ∀ e < Y.localFacets i, RowHolds Y.static (t.setDu (Y.du u)) i e ((cs' i).v e) := by
    obtain ⟨s', hu, H'⟩ := good_updateData (static_shaped hY) (du_shaped hY u) H hcr
    obtain ⟨cs2, nQ2, h5, -, p2⟩ := H'.full hcr
    have e2 : s' = _ := Except.ok.inj (hu.symm.trans h2)
    rw [e2] at h5
    have e3 : cs' = cs2 := Option.some.inj h5
    intro i hi e he
    rw [e3]
    exact ((p2 i hi).row e he).holds
  rw [H.geom] at hfirst
  simp only [hb2, hk]
  rw [sum_list_mul, list_range_sum]
  unfold contactForm
  refine sum_congr rfl (fun i hi => ?_)
  have hi' := mem_range.mp hi
  rw [sum_list_mul]
  simp only [sum_mul]
  have swap : ∀ p : KPair, ∑ d ∈ range N, ∑ e ∈ range (Y.localFacets i),
      facetVector Y.nd Y.gdim Y.space.parent (facetOf Y i e).1 (linksOf Y s.geom i e)
        (p.vecFn (Y.kd Y.nq (facetOf Y i e).1 (facetOf Y i e).2) ((cs' i).v e) (constants (gamma, theta))
          (linksOf Y s.geom i e).length (linkedPoints ((Y.pair s.geom i).row e)) 0) d * v d = _ := fun p => sum_comm
  simp only [swap]
  have lsum : ∀ (l : List KPair) (n : ℕ) (f : KPair → ℕ → ℝ),
      (l.map (fun p => ∑ e ∈ range n, f p e)).sum = ∑ e ∈ range n, (l.map (fun p => f p e)).sum := by
    intro l n f
    induction l with
    | nil => simp
    | cons x l ih => simp only [List.map_cons, List.sum_cons, ih, sum_add_distrib]
  rw [lsum]
  refine sum_congr rfl (fun e he => ?_)
  have he' := mem_range.mp he
  have hel : e < (Y.facets i).length := lt_of_lt_of_le he' (hY.loc i hi')
  have hfe : facetOf Y i e = (Y.facets i)[e] := List.getD_eq_getElem _ _ hel
  rw [List.getElem?_eq_getElem hel, Option.elim_some, H.geom]
  have hL := linksOf_list Y t.cur i e
  have key : ∀ p ∈ lawPairs law, ∑ d ∈ range N,
      facetVector Y.nd Y.gdim Y.space.parent (facetOf Y i e).1 (linksOf Y t.cur i e)
        (p.vecFn (Y.kd Y.nq (facetOf Y i e).1 (facetOf Y i e).2) ((cs' i).v e) (constants (gamma, theta))
          (linksOf Y t.cur i e).length (linkedPoints ((Y.pair t.cur i).row e)) 0) d * v d
      = ∑ q ∈ range Y.nq, if 0 ≤ Y.map t.cur i (e * Y.nq + q) then
        weightAt Y (Y.facets i)[e].1 (Y.facets i)[e].2 q
          * formAt p law (pointAt Y t i e (Y.facets i)[e].1 (Y.facets i)[e].2 q) gamma theta
          (jumpAt Y t.cur i e (Y.facets i)[e].1 (Y.facets i)[e].2 u q)
          (fun a b => gradAt Y (Y.facets i)[e].1 (Y.facets i)[e].2 u q a b
            + (pointAt Y t i e (Y.facets i)[e].1 (Y.facets i)[e].2 q).grad0 a b)
          (jumpAt Y t.cur i e (Y.facets i)[e].1 (Y.facets i)[e].2 v q)
          (gradAt Y (Y.facets i)[e].1 (Y.facets i)[e].2 v q)
        else 0 := by
    intro p hp
    rw [hfe, facetVector_dot Y.nd Y.gdim N Y.space.parent _ _ _ v ?_ ?_]
    · exact kernel_form hY law p hp h23 (gamma, theta) (hrow i hi' e he') he' hel hL (hfirst i hi' e he') v
    · intro j hj
      exact hN.1 i hi' _ (List.getElem_mem hel) j hj
    · intro c hcL j hj
      rw [hL.2] at hcL
      obtain ⟨q, -, f, hf, rfl⟩ := hcL
      exact hN.2 _ (hY.cells t.cur i _ f hf) j hj
  rw [List.map_congr_left key, lsum]
  refine sum_congr rfl (fun q _ => ?_)
  split
  · rw [← formAt_law, ← List.sum_map_mul_left]
  · simp

/-! ### an example -/

/-- Two cells in contact over one facet with one quadrature point; the bodies overlap by two. -/
def exY : System Unit where
  numPairs := 1
  nq := 1
  nd := 1
  gdim := 2
  tdim := 2
  cell := .triangle
  affine := true
  off := fun _ => 0
  phi := fun _ _ => 1
  dphi := fun k _ _ => k + 1
  weights := fun _ _ => 1
  nref := fun _ j => if j = 1 then 1 else 0
  geo := ⟨1, fun _ => 1, fun _ _ => 0⟩
  cphi := fun _ _ _ => 1
  inv := fun _ k b => if k = b then 1 else 0
  det := fun _ _ => 1
  facets := fun _ => [(0, 2)]
  localFacets := fun _ => 1
  map := fun _ _ _ => 0
  subCell := fun _ => 0
  space := ⟨1, 1, 2, fun c _ => c, fun c _ => c, fun _ => 1⟩
  basis := fun _ _ _ _ => 1
  raytracing := fun _ => false
  gap := fun _ _ => ⟨1, 2, fun _ m => if m = 1 then 2 else 0⟩
  nx := fun _ _ => ⟨1, 2, fun _ m => if m = 1 then -1 else 0⟩
  ny := fun _ _ => ⟨1, 2, fun _ m => if m = 1 then 1 else 0⟩

theorem exY_valid : System.Valid exY where
  pairs := by decide
  dim := by decide
  points := by decide
  cell := by simp [exY]
  loc := by simp [exY]
  gap := by simp [exY]
  nx := by simp [exY]
  ny := by simp [exY]
  space := ⟨rfl, rfl⟩
  search := by simp [exY]
  cells := by simp [exY]
  shared := by simp [exY]
  affine := by simp [exY]

/-- Generate the data for Coulomb friction. -/
def exSysOps : List (Op Unit) :=
  [.generate ⟨.coulomb, some (fun _ => ⟨1, 1, fun _ _ => 3⟩), some (fun _ => ⟨1, 1, fun _ _ => 5⟩),
    some (fun _ => ⟨1, 1, fun _ _ => 1⟩), none, none, fun _ => ⟨1, 1, fun _ _ => 1⟩, 1, 1⟩]

theorem exSysOps_shaped : ∀ op ∈ exSysOps, OpShaped exY.static op := by
  simp [exSysOps, OpShaped, ScalarShaped, System.static, exY]

theorem exY_first (e : ℕ) : Packing.Spec.LinkedFirst (exY.pair () 0) e := by
  intro q q' h1 h2
  have : q < 1 := h2
  omega

/-- The row of the facet after `update_contact_data(0)`. -/
theorem exY_row {s0 : State Unit} {cs : ℕ → Mat}
    (h : updateContactData exY.static (exY.du (fun _ => 0)) (history exY.static exSysOps (init exY.static ())) = .ok s0)
    (hcs : s0.coeffs = some cs) :
    (cs 0).v 0 2 = 1 ∧ (cs 0).v 0 3 = 1 ∧ (cs 0).v 0 4 = 0 ∧ (cs 0).v 0 5 = 2 ∧ (cs 0).v 0 6 = 0 ∧ (cs 0).v 0 7 = 1
    ∧ (∀ m, 10 ≤ m → m < 18 → (cs 0).v 0 m = 0) ∧ (cs 0).v 0 18 = 0 ∧ (cs 0).v 0 19 = 1 := by
  have hh : s0 = history exY.static (exSysOps ++ [.updateData (exY.du (fun _ => 0))]) (init exY.static ()) := by
    unfold history at h ⊢
    rw [List.foldl_append, List.foldl_cons, List.foldl_nil]
    show s0 = after (updateContactData _ _ _)
    rw [h]
    rfl
  rw [hh] at hcs
  have hops : ∀ op ∈ exSysOps ++ [.updateData (exY.du (fun _ => 0))], OpShaped exY.static op := by
    intro op hop
    rcases List.mem_append.mp hop with hop | hop
    · exact exSysOps_shaped op hop
    · rw [List.mem_singleton.mp hop]; exact du_shaped exY_valid _
  have R := C38_layout (static_shaped exY_valid) _ hops () cs hcs 0 Nat.one_pos 0 Nat.one_pos
  have g := R.gap
  have n := R.normal
  have o := R.old
  have u := R.u
  have gr := R.grad
  have op := R.opp
  have hfr := R.fric
  have hh := R.h
  have c1 : (dims exY.static).oGap = 4 := rfl
  have c2 : (dims exY.static).oNormal = 6 := rfl
  have c3 : (dims exY.static).oOld = 18 := rfl
  have c4 : (dims exY.static).oU = 10 := rfl
  have c5 : (dims exY.static).oGrad = 12 := rfl
  have c6 : (dims exY.static).oOpp = 16 := rfl
  have c7 : exY.static.nq * exY.static.gdim = 2 := rfl
  have c8 : exY.static.nq * exY.static.gdim * exY.static.gdim = 4 := rfl
  rw [c1, c7] at g
  rw [c2, c7] at n
  rw [c3, c7] at o
  rw [c4, c7] at u
  rw [c5, c8] at gr
  rw [c6, c7] at op
  have t0 : ((Tracked.new ()).history (exSysOps ++ [.updateData (exY.du (fun _ => 0))])).fric 0 0 0 = 1 := by
    simp [exSysOps, Tracked.history, Tracked.call, Tracked.setDu, vals]
  have t1 : ((Tracked.new ()).history (exSysOps ++ [.updateData (exY.du (fun _ => 0))])).h 0 0 0 = 1 := by
    simp [exSysOps, Tracked.history, Tracked.call, Tracked.setDu, vals]
  have t2 : ((Tracked.new ()).history (exSysOps ++ [.updateData (exY.du (fun _ => 0))])).disp
      = vals (exY.packVal (fun _ => 0)) := by
    simp [exSysOps, Tracked.history, Tracked.call, Tracked.setDu, System.du]
  have t3 : ((Tracked.new ()).history (exSysOps ++ [.updateData (exY.du (fun _ => 0))])).dispGrad
      = fun i e c => (exY.packGrad (fun _ => 0) i).v e c + 0 := by
    simp [exSysOps, Tracked.history, Tracked.call, Tracked.setDu, System.du]
  have t4 : ((Tracked.new ()).history (exSysOps ++ [.updateData (exY.du (fun _ => 0))])).dispOpp
      = vals (exY.packOpp (fun _ => 0) ()) := by
    simp [exSysOps, Tracked.history, Tracked.call, Tracked.setDu, System.du]
  have pv := (packVal_eq exY_valid (fun _ => 0) 0).2.2 0 (by decide) 0 (by decide)
  have pg := (packGrad_eq exY_valid (fun _ => 0) 0).2.2 0 (by decide) 0 (by decide)
  have po := fun a ha => packOpp_eq exY_valid (fun _ => 0) () 0 0 0 a _ (by decide) (by decide) ha
    (linksOf_list exY () 0 0) (exY_first 0)
  simp only [mul_zero, sum_const_zero, zero_mul, zero_add] at pv pg po
  refine ⟨hfr.trans t0, hh.trans t1, by simpa [exY, System.static] using g 0 (by omega),
    by simpa [exY, System.static] using g 1 (by omega), by simpa [exY, System.static, normals] using n 0 (by omega),
    by simpa [exY, System.static, normals] using n 1 (by omega), fun m h1 h2 => ?_,
    by simpa [exY, System.static, normals] using o 0 (by omega), by simpa [exY, System.static, normals] using o 1 (by omega)⟩
  rw [t2] at u
  rw [t3] at gr
  rw [t4] at op
  have e2 : exY.gdim = 2 := rfl
  rw [e2] at pv pg po
  by_cases hm : m < 12
  · obtain ⟨k, rfl⟩ : ∃ k, m = 10 + k := ⟨m - 10, by omega⟩
    rw [u k (by omega)]
    exact pv k (by omega)
  by_cases hm2 : m < 16
  · obtain ⟨a, b, ha, hb, rfl⟩ : ∃ a b, a < 2 ∧ b < 2 ∧ m = 12 + (a * 2 + b) :=
      ⟨(m - 12) / 2, (m - 12) % 2, by omega, by omega, by omega⟩
    rw [gr _ (by omega)]
    refine (add_zero _).trans ?_
    exact pg a ha b hb
  · obtain ⟨k, rfl⟩ : ∃ k, m = 16 + k := ⟨m - 16, by omega⟩
    rw [op k (by omega)]
    exact po k (by omega)

/-- The hypotheses of C112, C113 and C114 hold for the example with Coulomb friction and overlapping bodies. -/
example : System.Valid exY ∧ (∀ op ∈ exSysOps, OpShaped exY.static op) ∧ lastLaw exSysOps none = some .coulomb
    ∧ lastConsts exSysOps none = some (1, 1)
    ∧ exY.gdim = 2 ∧ (history exY.static exSysOps (init exY.static ())).coeffs ≠ none ∧ DofsBelow exY 4
    ∧ ∀ s0 cs, updateContactData exY.static (exY.du (fun _ => 0)) (history exY.static exSysOps (init exY.static ()))
        = .ok s0 → s0.coeffs = some cs → ∀ i < exY.numPairs, ∀ e < exY.localFacets i, ∀ cell f,
        (exY.facets i)[e]? = some (cell, f) → ∀ q < exY.nq, 0 ≤ exY.map () i (e * exY.nq + q) →
          AwayFromSwitches .coulomb (exY.kd exY.nq cell f) ((cs i).v e) (constants (1, 1)) q := by
  refine ⟨exY_valid, exSysOps_shaped, rfl, rfl, rfl, ?_, ?_, ?_⟩
  · rcases C38_size (static_shaped exY_valid) exSysOps exSysOps_shaped () with ⟨h, -⟩ | ⟨-, cs, h, -⟩
    · simp [exSysOps, Tracked.history, Tracked.call] at h
    · rw [h]; simp
  · refine ⟨?_, ?_⟩ <;> simp [exY]
  · intro s0 cs h hcs i hi e he cell f _ q hq _
    have h1 : i < 1 := hi
    have h2 : e < 1 := he
    have h3 : q < 1 := hq
    obtain rfl : i = 0 := by omega
    obtain rfl : e = 0 := by omega
    obtain rfl : q = 0 := by omega
    obtain ⟨r2, r3, r4, r5, r6, r7, r0, r18, r19⟩ := exY_row h hcs
    generalize (cs 0).v 0 = c at *
    have hd : (exY.kd exY.nq cell f).dims = ⟨1, 1, 2, 1⟩ := rfl
    have hg : (exY.kd exY.nq cell f).gdim = 2 := rfl
    have n0 : (⟨1, 1, 2, 1⟩ : Dims).normal c 0 0 = 0 := by simp [Dims.normal, Dims.oNormal, r6]
    have n1 : (⟨1, 1, 2, 1⟩ : Dims).normal c 0 1 = -1 := by simp [Dims.normal, Dims.oNormal, r7]
    have o0 : (⟨1, 1, 2, 1⟩ : Dims).oldNormal c 0 0 = 0 := by
      simp [Dims.oldNormal, Dims.oOld, Dims.oOpp, Dims.oGrad, Dims.oU, Dims.oTest, r18]
    have o1 : (⟨1, 1, 2, 1⟩ : Dims).oldNormal c 0 1 = -1 := by
      simp [Dims.oldNormal, Dims.oOld, Dims.oOpp, Dims.oGrad, Dims.oU, Dims.oTest, r19]
    have hj : ∀ a < 2, (⟨1, 1, 2, 1⟩ : Dims).jump c 0 a = 0 := by
      intro a ha
      simp only [Dims.jump, Dims.oOpp, Dims.oGrad, Dims.oU, Dims.oTest]
      rw [r0 _ (by omega) (by omega), r0 _ (by omega) (by omega), sub_zero]
    have hgap : (⟨1, 1, 2, 1⟩ : Dims).gapN c 0 = -2 := by
      simp [Dims.gapN, Dims.dotN, Dims.oGap, sum_range_succ, n0, n1, r4, r5]
    have hdj : (⟨1, 1, 2, 1⟩ : Dims).dotN c 0 ((⟨1, 1, 2, 1⟩ : Dims).jump c 0) = 0 := by
      simp [Dims.dotN, sum_range_succ, hj]
    have ht : ∀ np, ∀ a < 2, (⟨1, 1, 2, 1⟩ : Dims).trac c np 0 a = 0 := by
      intro np a ha
      have z : ∀ a b, a < 2 → b < 2 → c ((⟨1, 1, 2, 1⟩ : Dims).oGrad + (0 * 2 + a) * 2 + b) = 0 := by
        intro a b ha hb
        have : (⟨1, 1, 2, 1⟩ : Dims).oGrad = 12 := rfl
        rw [this]
        exact r0 _ (by omega) (by omega)
      unfold Dims.trac
      rw [Elasticity.traction_eq _ _ _ _ _ _ ha]
      have z00 := z 0 0 (by omega) (by omega)
      have z01 := z 0 1 (by omega) (by omega)
      have z10 := z 1 0 (by omega) (by omega)
      have z11 := z 1 1 (by omega) (by omega)
      interval_cases a <;> simp_all [sum_range_succ]
    have hdt : ∀ np, (⟨1, 1, 2, 1⟩ : Dims).dotN c 0 ((⟨1, 1, 2, 1⟩ : Dims).trac c np 0) = 0 := by
      intro np
      simp [Dims.dotN, sum_range_succ, ht]
    have hp : ∀ w np, (⟨1, 1, 2, 1⟩ : Dims).pressure c w np 0 = 2 := by
      intro w np
      rw [Dims.pressure, hdj, hgap, hdt]; ring
    have hs : ∀ w np, ∀ a < 2, (⟨1, 1, 2, 1⟩ : Dims).slipC c w np 0 a = 0 := by
      intro w np a ha
      unfold Dims.slipC Dims.slip Dims.tang
      rw [hdj, hdt, hj a ha, ht np a ha]
      have : (⟨1, 1, 2, 1⟩ : Dims).dotN c 0 ((⟨1, 1, 2, 1⟩ : Dims).oldNormal c 0) = 1 := by
        simp [Dims.dotN, sum_range_succ, n0, n1, o1]
      rw [this]
      interval_cases a <;> simp [n0, n1, o0, o1]
    unfold AwayFromSwitches
    rw [hd, hg, hp]
    refine ⟨by norm_num, ?_, ?_, ?_⟩
    · simp [Dims.UnitNormal, sum_range_succ, n0, n1]
    · right
      rw [r2]; norm_num
    · rw [sum_congr rfl (fun a ha => by rw [hs _ _ a (mem_range.mp ha)]), r2]
      simp

end

end Verif.ContactProblem
