import Verif.Model.Normals
import Verif.Props.Geometry
import Verif.Props.Packing

/-! Properties C91, C92: packed normals. -/

namespace Verif.Normals

open Verif.Geometry Verif.Packing Verif.SubMesh Verif.Kernels Finset

theorem putNormal_puts (C : Cmap) (G : GeomData) (cell : ℕ) (X nref : ℕ → ℝ) (base : ℕ) :
    Puts (putNormal C G cell X nref base) (fun m v => ∃ k, k < C.gdim ∧ m = base + k ∧
      v = Elasticity.physicalFacetNormal C.gdim C.tdim (C.inv (jac C (nodes G cell) X)) nref k) :=
  Puts.loop _ (fun _ _ => Puts.put _ _)

theorem checkCellType_ok {cell : CellType}
    (h : cell = .triangle ∨ cell = .quadrilateral ∨ cell = .tetrahedron ∨ cell = .hexahedron) :
    checkCellType cell = .ok () := by
  rcases h with rfl | rfl | rfl | rfl <;> rfl

theorem isFacetNormal_congr {gdim tdim : ℕ} {J : ℕ → ℕ → ℝ} {nref n n' : ℕ → ℝ}
    (h : ∀ k < gdim, n' k = n k) (hn : IsFacetNormal gdim tdim J nref n) :
    IsFacetNormal gdim tdim J nref n' := by
  have e : ∀ f : ℕ → ℝ → ℝ, ∑ i ∈ range gdim, f i (n' i) = ∑ i ∈ range gdim, f i (n i) :=
    fun f => sum_congr rfl (fun i hi => by rw [h i (mem_range.mp hi)])
  refine ⟨(e (fun _ x => x ^ 2)).trans hn.1, fun t ht => ?_, fun t ht => ?_⟩
  · exact (e (fun i x => x * ∑ d ∈ range tdim, J i d * t d)).trans (hn.2.1 t ht)
  · exact lt_of_lt_of_eq (hn.2.2 t ht) (e (fun i x => x * ∑ d ∈ range tdim, J i d * t d)).symm

theorem pack_nx_aux (cell : CellType) (C : Cmap) (G : GeomData) (n : ℕ) (all pairs : List (ℕ × ℕ))
    (numFacets nq : ℕ) (point nref : ℕ → ℕ → ℝ) (hcell : checkCellType cell = .ok ())
    (hb : ∀ p ∈ all, p.1 < n) (hsub : ∀ p ∈ pairs, p.1 ∈ all.map Prod.fst)
    (hloc : numFacets ≤ pairs.length)
    (hnref : ∀ p ∈ pairs, ∃ d < C.tdim, nref p.2 d ≠ 0)
    (hinv : ∀ c < (parentCells all).length, ∀ r, LeftInverse C.gdim C.tdim
      (C.inv (jac C (nodes G c) (point r))) (jac C (nodes G c) (point r))) :
    ∃ out, packNx cell C G (meshToSub n (parentCells all)) pairs numFacets nq point nref
        = .ok (out, nq * C.gdim) ∧
      ∀ i (hi : i < numFacets) q, q < nq →
        ∃ c, (parentCells all)[c]? = some (pairs[i]'(by omega)).1 ∧
          IsFacetNormal C.gdim C.tdim
            (jac C (nodes G c) (point ((pairs[i]'(by omega)).2 * nq + q)))
            (nref (pairs[i]'(by omega)).2)
            (fun k => out (i * (nq * C.gdim) + q * C.gdim + k)) := by
  set m := meshToSub n (parentCells all) with hm
  have htup := C27_tuples n all (pairs.take numFacets) hb
    (fun p hp => hsub p (List.mem_of_mem_take hp))
  dsimp only at htup
  rw [← hm] at htup
  have hlen : (submeshTuples m (pairs.take numFacets)).length = numFacets := by
    simp [submeshTuples, hloc]
  by_cases h0 : numFacets = 0
  · refine ⟨fun _ => 0, ?_, fun i hi => by omega⟩
    rw [packNx, hcell]
    simp [h0]
  · refine ⟨_, by rw [packNx, hcell]; simp only [h0, if_false]; rfl, ?_⟩
    intro i hi q hq
    set facets := submeshTuples m (pairs.take numFacets) with hfac
    have hi' : i < facets.length := by omega
    have hg := congrArg (fun l => l[i]?) htup
    simp only [List.getElem?_map, List.getElem?_eq_getElem hi', List.getElem?_take, hi, if_true,
      List.getElem?_eq_getElem (show i < pairs.length by omega), Option.map_some,
      Option.some.injEq, Prod.mk.injEq] at hg
    obtain ⟨h1, h2⟩ := hg
    have hc : facets[i].1 < (parentCells all).length := by
      by_contra h
      rw [List.getElem?_eq_none (by omega)] at h1
      cases h1
    refine ⟨facets[i].1, h1, ?_⟩
    have hput := Puts.loop facets.length (fun i _ => Puts.loop nq (fun q _ =>
      putNormal_puts C G (facets.getD i (0, 0)).1 (point ((facets.getD i (0, 0)).2 * nq + q))
        (nref (facets.getD i (0, 0)).2) (i * (nq * C.gdim) + q * C.gdim)))
    have e : facets.getD i (0, 0) = facets[i] := List.getD_eq_getElem _ _ hi'
    refine isFacetNormal_congr (fun k hk => ?_) (C66_normal C.gdim C.tdim _ _
      (hinv facets[i].1 hc _) _ (hnref _ (List.getElem_mem _)))
    refine hput.value ⟨i, hi', q, hq, k, hk, rfl, by rw [e, h2]⟩ ?_ _
    rintro w ⟨i', _, q', hq', k', hk', hidx, rfl⟩
    have hr : ∀ i q k, i * (nq * C.gdim) + q * C.gdim + k = (i * nq + q) * C.gdim + k := by
      intro i q k; ring
    rw [hr, hr, radix3_inj hq hk hq' hk'] at hidx
    obtain ⟨rfl, rfl, rfl⟩ := hidx
    rw [e, h2]

/-- C91: on supported cells, entry (facet `i`, point `q`) of `pack_nx` is the unit normal, in the
current position of the submesh, of that facet at that quadrature point: orthogonal to the facet and
on the side of the outward reference normal.  `all` are the (cell, local facet) pairs the submesh was
created from, `pairs` those of the quadrature surface; the quadrature points of local facet `f` are
the points `f * nq, f * nq + 1, ...` of the rule. -/
theorem C91_pack_nx (cell : CellType) (C : Cmap) (G : GeomData) (n : ℕ) (all pairs : List (ℕ × ℕ))
    (numFacets nq : ℕ) (point nref : ℕ → ℕ → ℝ) (hcell : cell = .triangle ∨ cell = .quadrilateral ∨ cell = .tetrahedron ∨ cell = .hexahedron)
    (hb : ∀ p ∈ all, p.1 < n) (hsub : ∀ p ∈ pairs, p.1 ∈ all.map Prod.fst)
    (hloc : numFacets ≤ pairs.length)
    (hnref : ∀ p ∈ pairs, ∃ d < C.tdim, nref p.2 d ≠ 0)
    (hinv : ∀ c < (parentCells all).length, ∀ r, LeftInverse C.gdim C.tdim
      (C.inv (jacobian C.ndofs (fun j k => G.x (3 * G.xdof c j + k)) (C.dphi (point r)))) (jacobian C.ndofs (fun j k => G.x (3 * G.xdof c j + k)) (C.dphi (point r)))) :
    ∃ out, packNx cell C G (meshToSub n (parentCells all)) pairs numFacets nq point nref
        = .ok (out, nq * C.gdim) ∧
      ∀ i (hi : i < numFacets) q, q < nq →
        ∃ c, (parentCells all)[c]? = some (pairs[i]'(by omega)).1 ∧
          IsFacetNormal C.gdim C.tdim
            (jacobian C.ndofs (fun j k => G.x (3 * G.xdof c j + k)) (C.dphi (point ((pairs[i]'(by omega)).2 * nq + q))))
            (nref (pairs[i]'(by omega)).2)
            (fun k => out (i * (nq * C.gdim) + q * C.gdim + k)) :=
  pack_nx_aux cell C G n all pairs numFacets nq point nref (checkCellType_ok hcell) hb hsub hloc hnref hinv

/-- C91: unsupported cell types raise. -/
theorem C91_unsupported (cell : CellType) (C : Cmap) (G : GeomData) (m : List ℕ × List ℕ)
    (pairs : List (ℕ × ℕ)) (numFacets nq : ℕ) (point nref : ℕ → ℕ → ℝ)
    (h : cell = .prism ∨ cell = .pyramid ∨ cell = .interval) :
    packNx cell C G m pairs numFacets nq point nref = .error .unsupportedCell := by
  rcases h with rfl | rfl | rfl <;> rfl

theorem pack_ny_aux (cell : CellType) (C : Cmap) (G : GeomData) (P : PairData) (f2c c2f : ℕ → List ℕ)
    (point nref : ℕ → ℕ → ℝ) (hcell : checkCellType cell = .ok ()) :
    ∃ out, packNy cell C G P (some f2c) (some c2f) point nref = .ok (out, P.nq * C.gdim) ∧
      ∀ i < P.numFacets, ∀ q < P.nq,
        (∀ f c lf : ℕ, P.facets (i * P.nq + q) = f → f2c f = [c] → (c2f c).Nodup →
          (c2f c)[lf]? = some f → (∃ d < C.tdim, nref lf d ≠ 0) →
          LeftInverse C.gdim C.tdim (C.inv (jac C (nodes G c) (point (i * P.nq + q))))
            (jac C (nodes G c) (point (i * P.nq + q))) →
          IsFacetNormal C.gdim C.tdim (jac C (nodes G c) (point (i * P.nq + q))) (nref lf)
            (fun k => out (i * (P.nq * C.gdim) + q * C.gdim + k))) ∧
        (P.facets (i * P.nq + q) < 0 →
          ∀ k < C.gdim, out (i * (P.nq * C.gdim) + q * C.gdim + k) = 0) := by
  by_cases h0 : P.numFacets = 0
  · refine ⟨fun _ => 0, by rw [packNy.eq_def]; simp [h0], fun i hi => by omega⟩
  · refine ⟨_, by rw [packNy.eq_def]; simp only [h0, if_false, hcell]; rfl, ?_⟩
    intro i hi q hq
    have hput := Puts.loop P.numFacets (fun i _ => Puts.loop P.nq (fun q _ =>
      Puts.ite (P.facets (i * P.nq + q) < 0) Puts.id
      (putNormal_puts C G ((f2c (P.facets (i * P.nq + q)).toNat).headD 0) (point (i * P.nq + q))
        (nref ((c2f ((f2c (P.facets (i * P.nq + q)).toNat).headD 0)).idxOf
          (P.facets (i * P.nq + q)).toNat)) (i * (P.nq * C.gdim) + q * C.gdim))))
    have hr : ∀ i q k, i * (P.nq * C.gdim) + q * C.gdim + k = (i * P.nq + q) * C.gdim + k := by
      intro i q k; ring
    constructor
    · intro f c lf hf hc hnd hlf hn hinv
      refine isFacetNormal_congr (fun k hk => ?_) (C66_normal C.gdim C.tdim _ _ hinv _ hn)
      have hlf' : lf < (c2f c).length := by
        by_contra h
        rw [List.getElem?_eq_none (by omega)] at hlf
        cases hlf
      have hidx : (c2f c).idxOf f = lf := by
        rw [List.getElem?_eq_getElem hlf', Option.some.injEq] at hlf
        rw [← hlf]
        exact hnd.idxOf_getElem lf hlf'
      refine hput.value ⟨i, hi, q, hq, Or.inr ⟨by omega, k, hk, rfl, ?_⟩⟩ ?_ _
      · simp [hf, hc, hidx]
      · rintro w ⟨i', _, q', hq', (⟨-, hfalse⟩ | ⟨_, k', hk', hm, rfl⟩)⟩
        · exact hfalse.elim
        · rw [hr, hr, radix3_inj hq hk hq' hk'] at hm
          obtain ⟨rfl, rfl, rfl⟩ := hm
          simp [hf, hc, hidx]
    · intro hneg k hk
      refine (hput.frame ?_ _).trans rfl
      rintro w ⟨i', _, q', hq', (⟨-, hfalse⟩ | ⟨hpos, k', hk', hm, rfl⟩)⟩
      · exact hfalse
      · rw [hr, hr, radix3_inj hq hk hq' hk'] at hm
        obtain ⟨rfl, rfl, rfl⟩ := hm
        exact hpos hneg

/-- C92: with the connectivities created, entry (facet `i`, point `q`) of `pack_ny` is the unit normal
of the facet linked to the point: if the point is linked to facet `f`, which is local facet `lf` of the
submesh cell `c`, it is orthogonal to that facet at the contact point, on the side of the outward
reference normal of facet `lf`; it is zero if the point is not linked. -/
theorem C92_pack_ny (cell : CellType) (C : Cmap) (G : GeomData) (P : PairData) (f2c c2f : ℕ → List ℕ)
    (point nref : ℕ → ℕ → ℝ) (hcell : cell = .triangle ∨ cell = .quadrilateral ∨ cell = .tetrahedron ∨ cell = .hexahedron) :
    ∃ out, packNy cell C G P (some f2c) (some c2f) point nref = .ok (out, P.nq * C.gdim) ∧
      ∀ i < P.numFacets, ∀ q < P.nq,
        (∀ f c lf : ℕ, P.facets (i * P.nq + q) = f → f2c f = [c] → (c2f c).Nodup →
          (c2f c)[lf]? = some f → (∃ d < C.tdim, nref lf d ≠ 0) →
          LeftInverse C.gdim C.tdim (C.inv (jacobian C.ndofs (fun j k => G.x (3 * G.xdof c j + k)) (C.dphi (point (i * P.nq + q)))))
            (jacobian C.ndofs (fun j k => G.x (3 * G.xdof c j + k)) (C.dphi (point (i * P.nq + q)))) →
          IsFacetNormal C.gdim C.tdim (jacobian C.ndofs (fun j k => G.x (3 * G.xdof c j + k)) (C.dphi (point (i * P.nq + q)))) (nref lf)
            (fun k => out (i * (P.nq * C.gdim) + q * C.gdim + k))) ∧
        (P.facets (i * P.nq + q) < 0 →
          ∀ k < C.gdim, out (i * (P.nq * C.gdim) + q * C.gdim + k) = 0) :=
  pack_ny_aux cell C G P f2c c2f point nref (checkCellType_ok hcell)

/-- C92: without one of the connectivities, or on an unsupported cell, `pack_ny` raises as soon as the
process has a facet. -/
theorem C92_raises (cell : CellType) (C : Cmap) (G : GeomData) (P : PairData)
    (f2c c2f : Option (ℕ → List ℕ)) (point nref : ℕ → ℕ → ℝ) (h0 : 0 < P.numFacets)
    (h : f2c = none ∨ c2f = none ∨ cell = .prism ∨ cell = .pyramid ∨ cell = .interval) :
    ∃ e, packNy cell C G P f2c c2f point nref = .error e := by
  rw [packNy.eq_def]; dsimp only; rw [if_neg (by omega)]
  rcases hc : checkCellType cell with e | u
  · exact ⟨_, rfl⟩
  · rcases h with rfl | rfl | rfl | rfl | rfl
    · exact ⟨_, rfl⟩
    · cases f2c <;> exact ⟨_, rfl⟩
    all_goals cases hc

/-- The submesh of one triangle (0,0), (2,1), (0,3) and a coordinate element whose inverse is right for
every Jacobian that occurs: the hypotheses of C91 and C92 can be met. -/
example : ∃ (C : Cmap) (G : GeomData) (point nref : ℕ → ℕ → ℝ),
    checkCellType .triangle = .ok () ∧
    (∀ c X, LeftInverse C.gdim C.tdim (C.inv (jac C (nodes G c) X)) (jac C (nodes G c) X)) ∧
    (∃ d < C.tdim, nref 1 d ≠ 0) ∧ (∃ p r, point p r ≠ 0) := by
  refine ⟨p1Triangle 2, ⟨3, fun m => if m = 3 then 2 else if m = 4 then 1 else if m = 7 then 3 else 0,
    fun _ j => j⟩, fun p _ => p, fun f d => f + d, rfl, ?_, ⟨0, by decide, by norm_num⟩,
    1, 0, by norm_num⟩
  intro c X
  refine p1Triangle_inv _ ?_
  simp [jac, p1Triangle, nodes, sum_range_succ]

/-- Surface with facets 1 of cell 5 and 0 of cell 2; the contact map links point 1 to facet 4, local
facet 2 of submesh cell 0. -/
example : (∀ p ∈ [(5, 1), (2, 0)], p.1 < 7) ∧ (∀ p ∈ [(2, 0)], p.1 ∈ [(5, 1), (2, 0)].map Prod.fst) ∧
    ∃ P : PairData, P.facets (0 * P.nq + 1) = (4 : ℕ) ∧ P.facets (0 * P.nq + 0) < 0 ∧ 1 < P.nq ∧
      ((fun _ => [7, 3, 4]) (0 : ℕ) : List ℕ)[2]? = some 4 := by
  refine ⟨by decide, by decide, ⟨1, 2, 1, 1, 1, 2, fun r => if r = 0 then -1 else 4, fun f => f,
    fun c => c⟩, by decide, by decide, by decide, by decide⟩

end Verif.Normals
