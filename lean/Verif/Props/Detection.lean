import Verif.Spec.Detection
import Mathlib.Analysis.InnerProductSpace.PiL2

/-!
Property C152: closest points do not depend on how the mesh is distributed.
-/

namespace Verif.Projection

open Verif.Geometry Verif.Packing Verif.Kernels Verif.Normals Finset

noncomputable section

variable {g : ℕ}

/-- The first `g` components, as a vector of Mathlib. -/
def toVec (g : ℕ) (x : ℕ → ℝ) : EuclideanSpace ℝ (Fin g) := WithLp.toLp 2 (fun i : Fin g => x i)

theorem dist_eq (x y : ℕ → ℝ) : distance g x y = ‖toVec g x - toVec g y‖ := by
  rw [EuclideanSpace.norm_eq, distance, sqLen, ← Fin.sum_univ_eq_sum_range (fun k => (x k - y k) ^ 2)]
  congr 1
  refine sum_congr rfl (fun i _ => ?_)
  rw [Real.norm_eq_abs, sq_abs]
  rfl

theorem dist_triangle' (x y z : ℕ → ℝ) : distance g x z ≤ distance g x y + distance g y z := by
  rw [dist_eq, dist_eq, dist_eq]
  exact norm_sub_le_norm_sub_add_norm_sub _ _ _

theorem dist_comm' (x y : ℕ → ℝ) : distance g x y = distance g y x := by
  rw [dist_eq, dist_eq, norm_sub_rev]

theorem dist_congr {x x' y y' : ℕ → ℝ} (hx : ∀ k < g, x k = x' k) (hy : ∀ k < g, y k = y' k) : distance g x y = distance g x' y' := by
  unfold distance sqLen
  congr 1
  exact sum_congr rfl (fun k hk => by dsimp only; rw [hx k (mem_range.mp hk), hy k (mem_range.mp hk)])

theorem dist_le_iff (x y z w : ℕ → ℝ) :
    distance g x y ≤ distance g z w ↔ sqLen g (fun k => x k - y k) ≤ sqLen g (fun k => z k - w k) :=
  Real.sqrt_le_sqrt_iff (sum_nonneg fun _ _ => sq_nonneg _)

/-- A point of a facet is at most as far from a point as the farthest node. -/
theorem hull_dist {n : ℕ} {p : ℕ → ℕ → ℝ} {z m : ℕ → ℝ} {b : ℝ} (h : InHull g n p z) (hb : ∀ j < n, distance g (p j) m ≤ b) :
    distance g z m ≤ b := by
  obtain ⟨w, h0, h1, hz⟩ := h
  have e : toVec g z - toVec g m = ∑ j ∈ range n, w j • (toVec g (p j) - toVec g m) := by
    rw [sum_congr rfl (fun j _ => smul_sub (w j) (toVec g (p j)) (toVec g m)), sum_sub_distrib, ← sum_smul, h1, one_smul]
    congr 1
    ext i
    rw [WithLp.ofLp_sum, Finset.sum_apply]
    exact hz i i.isLt
  rw [dist_eq, e]
  calc ‖∑ j ∈ range n, w j • (toVec g (p j) - toVec g m)‖ ≤ ∑ j ∈ range n, ‖w j • (toVec g (p j) - toVec g m)‖ := norm_sum_le _ _
    _ ≤ ∑ j ∈ range n, w j * b := by
      refine sum_le_sum (fun j hj => ?_)
      rw [norm_smul, Real.norm_eq_abs, abs_of_nonneg (h0 j (mem_range.mp hj)), ← dist_eq]
      exact mul_le_mul_of_nonneg_left (hb j (mem_range.mp hj)) (h0 j (mem_range.mp hj))
    _ = b := by rw [← sum_mul, h1, one_mul]

theorem hull_same {M M' : Cand} {t t' : ℕ × ℕ} (h : SameFacet g M M' t t') (z : ℕ → ℝ) :
    InHull g M.nf (facetNode M t) z ↔ InHull g M'.nf (facetNode M' t') z := by
  obtain ⟨hn, h⟩ := h
  unfold InHull
  rw [← hn]
  refine exists_congr (fun w => and_congr_right (fun _ => and_congr_right (fun _ => forall_congr' (fun k => forall_congr' (fun hk => ?_)))))
  rw [sum_congr rfl (fun j hj => by rw [h j (mem_range.mp hj) k hk])]

/-- The search of C93, in terms of nearest points. -/
theorem search_nearest {M : Cand} {L : Library} {tdim : ℕ} {f2c c2f : ℕ → List ℕ} {tuples : List (ℕ × ℕ)}
    (S : SearchInput M L g tdim f2c c2f tuples) (Gq : GeomData) (nq : ℕ) (off : ℕ → ℕ) (phi : ℕ → ℕ → ℝ)
    (facets : List (ℕ × ℕ)) (ray : Except Normals.Err Map) (old : PullBack) :
    ∃ map, distanceMap .closestPoint g tdim M L Gq nq off phi facets tuples ray old = .ok map ∧
      ∀ i (hi : i < facets.length) q, q < nq → ∃ t ∈ tuples, map.1 (i * nq + q) = ((c2f t.1).getD t.2 0 : ℕ)
        ∧ InHull g M.nf (facetNode M t) (contactPoint M map t (i * nq + q))
        ∧ IsNearest g M tuples (quadPoint Gq off phi facets[i] q) (contactPoint M map t (i * nq + q)) := by
  obtain ⟨map, h1, h2⟩ := C93_closest M L g tdim f2c c2f Gq nq off phi facets tuples ray old S.f2c S.c2f S.cell S.nonempty
    S.gdim S.tdim S.flat S.affine S.closure S.nf S.cells S.exterior S.gjk S.closest
  refine ⟨map, h1, fun i hi q hq => ?_⟩
  obtain ⟨t, ht, a1, a2, a3⟩ := h2 i hi q hq
  exact ⟨t, ht, a1, a2, ⟨⟨t, ht, a2⟩, fun t' ht' z hz => (dist_le_iff _ _ _ _).mpr (a3 t' ht' z hz)⟩⟩

/-- C152: a process which holds the candidate facets whose midpoints are at a distance below `R` from the
midpoint of its own contact facets finds contact points which are as near as those a single process finds on the
whole candidate surface, if the gap is smaller than `R` minus the sizes of the two facets; and the same contact
points where the nearest point of the surface is unique. -/
theorem C152_nearest {M M' : Cand} {L L' : Library} {tdim : ℕ} {f2c c2f f2c' c2f' : ℕ → List ℕ}
    {tuples tuples' : List (ℕ × ℕ)}
    (S : SearchInput M L g tdim f2c c2f tuples) (S' : SearchInput M' L' g tdim f2c' c2f' tuples')
    (Gq Gq' : GeomData) (nq : ℕ) (off : ℕ → ℕ) (phi : ℕ → ℕ → ℝ) (facets facets' : List (ℕ × ℕ))
    (ray ray' : Except Normals.Err Map) (old old' : PullBack)
    -- facet `i` of the process is facet `facet i` of the whole mesh, with midpoint `mid i`
    (facet : ℕ → ℕ) (hf : ∀ i < facets.length, facet i < facets'.length)
    (hq : ∀ i (hi : i < facets.length) q, q < nq → ∀ k < g,
      quadPoint Gq off phi facets[i] q k = quadPoint Gq' off phi (facets'[facet i]'(hf i hi)) q k)
    (mid : ℕ → ℕ → ℝ) (a b R : ℝ)
    (ha : ∀ i (hi : i < facets.length) q, q < nq → distance g (quadPoint Gq off phi facets[i] q) (mid i) ≤ a)
    (hb : ∀ t ∈ tuples', ∀ j < M'.nf, distance g (facetNode M' t j) (facetMid M' t) ≤ b)
    -- the candidate facets of the process are candidate facets, and the near ones are there
    (hown : ∀ t ∈ tuples, ∃ t' ∈ tuples', SameFacet g M M' t t')
    (hghost : ∀ i < facets.length, ∀ t' ∈ tuples', distance g (facetMid M' t') (mid i) < R →
      ∃ t ∈ tuples, SameFacet g M M' t t') :
    ∃ map map', distanceMap .closestPoint g tdim M L Gq nq off phi facets tuples ray old = .ok map
      ∧ distanceMap .closestPoint g tdim M' L' Gq' nq off phi facets' tuples' ray' old' = .ok map'
      ∧ ∀ i (hi : i < facets.length) q, q < nq → ∃ t ∈ tuples, ∃ t' ∈ tuples',
        map.1 (i * nq + q) = ((c2f t.1).getD t.2 0 : ℕ)
        ∧ map'.1 (facet i * nq + q) = ((c2f' t'.1).getD t'.2 0 : ℕ)
        ∧ ∀ y y', y = contactPoint M map t (i * nq + q) → y' = contactPoint M' map' t' (facet i * nq + q) →
          ∀ x, x = quadPoint Gq off phi facets[i] q →
            (∃ u ∈ tuples', ∃ z, InHull g M'.nf (facetNode M' u) z ∧ distance g z x < R - a - b) →
            distance g y x = distance g y' x
            ∧ ((∀ z, IsNearest g M' tuples' x z → ∀ k < g, z k = y' k) → ∀ k < g, y k = y' k) := by
  obtain ⟨map, h1, h2⟩ := search_nearest S Gq nq off phi facets ray old
  obtain ⟨map', h1', h2'⟩ := search_nearest S' Gq' nq off phi facets' ray' old'
  refine ⟨map, map', h1, h1', fun i hi q hqn => ?_⟩
  obtain ⟨t, ht, c1, c2, c3⟩ := h2 i hi q hqn
  obtain ⟨t', ht', d1, d2, d3⟩ := h2' (facet i) (hf i hi) q hqn
  refine ⟨t, ht, t', ht', c1, d1, ?_⟩
  rintro y y' rfl rfl x rfl ⟨u, hu, z, hz, hzR⟩
  have hx : ∀ z, distance g z (quadPoint Gq' off phi (facets'[facet i]'(hf i hi)) q) = distance g z (quadPoint Gq off phi facets[i] q) :=
    fun z => dist_congr (fun _ _ => rfl) (fun k hk => (hq i hi q hqn k hk).symm)
  have hR := lt_of_le_of_lt (d3.2 u hu z hz) ((hx z).trans_lt hzR)
  rw [hx] at hR
  -- the facet found on the whole surface is on the process
  obtain ⟨s, hs, hst⟩ : ∃ s ∈ tuples, SameFacet g M M' s t' := by
    refine hghost i hi t' ht' ?_
    have e1 := hull_dist d2 (hb t' ht')
    have e2 := ha i hi q hqn
    have e3 := dist_triangle' (g := g) (facetMid M' t') (contactPoint M' map' t' (facet i * nq + q)) (mid i)
    have e4 := dist_triangle' (g := g) (contactPoint M' map' t' (facet i * nq + q)) (quadPoint Gq off phi facets[i] q) (mid i)
    rw [dist_comm'] at e1
    linarith
  obtain ⟨r, hr, htr⟩ := hown t ht
  have le1 : distance g (contactPoint M map t (i * nq + q)) (quadPoint Gq off phi facets[i] q)
      ≤ distance g (contactPoint M' map' t' (facet i * nq + q)) (quadPoint Gq off phi facets[i] q) :=
    c3.2 s hs _ ((hull_same hst _).mpr d2)
  have le2 : distance g (contactPoint M' map' t' (facet i * nq + q)) (quadPoint Gq off phi facets[i] q)
      ≤ distance g (contactPoint M map t (i * nq + q)) (quadPoint Gq off phi facets[i] q) := by
    have := d3.2 r hr _ ((hull_same htr _).mp c2)
    rwa [hx, hx] at this
  refine ⟨le_antisymm le1 le2, fun hu => hu _ ⟨⟨r, hr, (hull_same htr _).mp c2⟩, fun u hu z hz => ?_⟩⟩
  have := d3.2 u hu z hz
  rw [hx, hx] at this
  exact le1.trans this

/-! ### an example -/

/-- Quadrature point at node 1 of the cell. -/
def exNode : ℕ → ℕ → ℝ := fun _ j => if j = 1 then 1 else 0

theorem exMesh_search (tuples : List (ℕ × ℕ)) (hne : tuples ≠ []) (h : ∀ t ∈ tuples, t = (0, 1) ∨ t = (1, 1)) :
    ∃ L, SearchInput exMesh L 2 2 (fun f => [f / 3]) (fun c => [3 * c, 3 * c + 1, 3 * c + 2]) tuples := by
  obtain ⟨L, h1, h2⟩ := library_exists exMesh (by decide) (fun c => [3 * c, 3 * c + 1, 3 * c + 2]) tuples hne
  refine ⟨L, rfl, rfl, Or.inl rfl, hne, rfl, Or.inl rfl, Or.inr ⟨rfl, ?_⟩, rfl, ?_, by decide, ?_, ?_, h1, h2⟩
  · intro j
    simp only [exMesh]
    rw [if_neg (by omega), if_neg (by omega), if_neg (by omega)]
  · intro lf j hj
    change j < 2 at hj
    change (if lf = 0 then j + 1 else if lf = 1 then 2 * j else j) < 3
    split_ifs <;> omega
  · intro t ht
    refine exMesh_cell _ ?_
    rcases h t ht with rfl | rfl <;> norm_num
  · intro t ht
    rcases h t ht with rfl | rfl <;> decide

/-- The hypotheses of C152 are met: the whole surface has the facets `x = 0` and `x = 3` of the two triangles of
`exMesh`, the process only the first one; the quadrature point is `(1, 0)`, at distance 1 of it, and `R = 2`. -/
example : ∃ L L', SearchInput exMesh L 2 2 (fun f => [f / 3]) (fun c => [3 * c, 3 * c + 1, 3 * c + 2]) [(0, 1)]
    ∧ SearchInput exMesh L' 2 2 (fun f => [f / 3]) (fun c => [3 * c, 3 * c + 1, 3 * c + 2]) [(0, 1), (1, 1)]
    ∧ (∀ k < 2, quadPoint exMesh.G (fun _ => 0) exNode (0, 0) 0 k = if k = 0 then 1 else 0)
    ∧ (∀ t ∈ [(0, 1), (1, 1)], ∀ j < exMesh.nf, distance 2 (facetNode exMesh t j) (facetMid exMesh t) ≤ 1 / 2)
    ∧ (∀ t ∈ [(0, 1)], ∃ t' ∈ [(0, 1), (1, 1)], SameFacet 2 exMesh exMesh t t')
    ∧ (∀ t' ∈ [(0, 1), (1, 1)], distance 2 (facetMid exMesh t') (fun k => if k = 0 then 1 else 0) < 2 →
      ∃ t ∈ [(0, 1)], SameFacet 2 exMesh exMesh t t')
    ∧ ∃ u ∈ [(0, 1), (1, 1)], ∃ z, InHull 2 exMesh.nf (facetNode exMesh u) z
      ∧ distance 2 z (fun k => if k = 0 then 1 else 0) < 2 - 0 - 1 / 2 := by
  obtain ⟨L, hL⟩ := exMesh_search [(0, 1)] (by simp) (by simp)
  obtain ⟨L', hL'⟩ := exMesh_search [(0, 1), (1, 1)] (by simp) (by simp)
  refine ⟨L, L', hL, hL', ?_, ?_, fun t ht => ⟨t, by simp at ht ⊢; exact Or.inl ht, rfl, fun _ _ _ _ => rfl⟩, ?_, ?_⟩
  · intro k hk
    interval_cases k <;> simp [quadPoint, exMesh, exNode, sum_range_succ]
  · intro t ht j hj
    have hj' : j < 2 := hj
    rw [distance, Real.sqrt_le_left (by norm_num)]
    simp only [List.mem_cons, List.not_mem_nil, or_false] at ht
    rcases ht with rfl | rfl <;> interval_cases j <;>
      norm_num [sqLen, facetNode, facetMid, exMesh, sum_range_succ]
  · intro t' ht' hd
    simp only [List.mem_cons, List.not_mem_nil, or_false] at ht'
    rcases ht' with rfl | rfl
    · exact ⟨(0, 1), by simp, rfl, fun _ _ _ _ => rfl⟩
    · rw [distance, Real.sqrt_lt' (by norm_num)] at hd
      norm_num [sqLen, facetNode, facetMid, exMesh, sum_range_succ] at hd
  · refine ⟨(0, 1), by simp, facetNode exMesh (0, 1) 0, ⟨fun j => if j = 0 then 1 else 0, ?_, ?_, ?_⟩, ?_⟩
    · intro j _
      dsimp only
      split <;> norm_num
    · simp [exMesh]
    · intro k _
      simp [exMesh, sum_range_succ]
    · rw [distance, Real.sqrt_lt' (by norm_num)]
      norm_num [sqLen, facetNode, exMesh, sum_range_succ]

end

end Verif.Projection
