import Verif.Model.Projection
import Verif.Spec.Projection
import Verif.Props.Normals
import Mathlib.Analysis.Convex.StdSimplex
import Mathlib.Topology.Algebra.Ring.Real

/-! Property C93: closest point mode. -/

namespace Verif.Projection

open Verif.Geometry Verif.Packing Verif.Kernels Verif.Normals Finset

/-- Component `k` of node `j` of local facet `t.2` of cell `t.1`. -/
def facetNode (M : Cand) (t : ℕ × ℕ) (j k : ℕ) : ℝ := M.G.x (3 * M.G.xdof t.1 (M.closure t.2 j) + k)

/-- Contract of `compute_distance_gjk`: shortest vector to the convex hull. -/
def GjkContract (L : Library) : Prop :=
  ∀ n nodes p, 0 < n → IsShortest 3 n nodes p (L.gjk n nodes p)

/-- Contract of `compute_closest_entity` on the facets `tuples`: a facet of the list such that no point
of (the hull of) a facet of the list is closer. -/
def ClosestContract (M : Cand) (L : Library) (c2f : ℕ → List ℕ) (tuples : List (ℕ × ℕ)) : Prop :=
  ∀ p, ∃ t ∈ tuples, L.closest (tuples.map (fun t => (c2f t.1).getD t.2 0)) p = (c2f t.1).getD t.2 0 ∧
    ∀ t' ∈ tuples, ∀ z, InHull 3 M.nf (facetNode M t') z →
      ∃ y, InHull 3 M.nf (facetNode M t) y ∧
        sqLen 3 (fun k => y k - p k) ≤ sqLen 3 (fun k => z k - p k)

/-- The candidate facets are exterior facets of cells with pairwise different facets, and the
connectivities agree with each other. -/
def Exterior (f2c c2f : ℕ → List ℕ) (tuples : List (ℕ × ℕ)) : Prop :=
  ∀ t ∈ tuples, t.2 < (c2f t.1).length ∧ (c2f t.1).Nodup ∧ f2c ((c2f t.1).getD t.2 0) = [t.1]

/-- The cell `c` is a nondegenerate affine image of the reference cell, and its nodes are the images of
reference points. -/
structure AffineCell (C : Cmap) (G : GeomData) (c : ℕ) : Prop where
  affine : AffineMap C (nodes G c)
  inv : LeftInverse C.gdim C.tdim (C.inv (jac C (nodes G c) (fun _ => 0))) (jac C (nodes G c) (fun _ => 0))
  nodal : ∀ j < C.ndofs, ∃ X, ∀ k < C.gdim, push C (nodes G c) X k = nodes G c j k

theorem affine_hull {C : Cmap} {G : GeomData} {c : ℕ} (h : AffineCell C G c) {n : ℕ} {cl : ℕ → ℕ}
    (hcl : ∀ j < n, cl j < C.ndofs) {z : ℕ → ℝ}
    (hz : InHull C.gdim n (fun j k => nodes G c (cl j) k) z) :
    ∃ X, ∀ k < C.gdim, push C (nodes G c) X k = z k := by
  obtain ⟨w, -, hw, hz⟩ := hz
  choose! X hX using h.nodal
  refine ⟨fun d => ∑ j ∈ range n, w j * X (cl j) d, fun k hk => ?_⟩
  rw [h.affine.push _ k hk, hz k hk]
  have e : ∀ j ∈ range n, w j * nodes G c (cl j) k = w j * nodes G c 0 k +
      ∑ d ∈ range C.tdim, jac C (nodes G c) (fun _ => 0) k d * (w j * X (cl j) d) := by
    intro j hj
    rw [← hX (cl j) (hcl j (mem_range.mp hj)) k hk, h.affine.push _ k hk, mul_add, mul_sum]
    congr 1
    exact sum_congr rfl (fun d _ => by ring)
  rw [sum_congr rfl e, sum_add_distrib, ← sum_mul, hw, one_mul, sum_comm]
  congr 1
  exact sum_congr rfl (fun d _ => by rw [mul_sum])

/-- Pulling back a point of the cell and pushing the result forward again. -/
theorem push_pullBack {C : Cmap} {G : GeomData} {c : ℕ} (h : AffineCell C G c) (haff : C.affine = true)
    (det : (ℕ → ℕ → ℝ) → ℝ) (lib : (ℕ → ℝ) → ℕ → ℝ) (x X : ℕ → ℝ) (old : PullBack)
    (hx : ∀ k < C.gdim, push C (nodes G c) X k = x k) (k : ℕ) (hk : k < C.gdim) :
    push C (nodes G c) ((pullBack C det lib (nodes G c) 1 (fun _ => x) old).X 0) k = x k := by
  have e1 : (pullBack C det lib (nodes G c) 1 (fun _ => x) old).X 0 =
      fun i => ∑ j ∈ range C.gdim, C.inv (jac C (nodes G c) (fun _ => 0)) i j * (x j - nodes G c 0 j) := by
    rw [pullBack, if_pos haff]
    simp [loop_succ]
  have e2 := pullBack_affine C det lib (nodes G c) 1 (fun _ => X) old haff h.affine h.inv 0 (by omega)
  dsimp only at e2
  have e3 : (pullBack C det lib (nodes G c) 1 (fun _ => push C (nodes G c) X) old).X 0 =
      fun i => ∑ j ∈ range C.gdim, C.inv (jac C (nodes G c) (fun _ => 0)) i j
        * (push C (nodes G c) X j - nodes G c 0 j) := by
    rw [pullBack, if_pos haff]
    simp [loop_succ]
  rw [e3] at e2
  rw [h.affine.push _ k hk, ← hx k hk, h.affine.push X k hk, e1]
  congr 1
  refine sum_congr rfl (fun d hd => ?_)
  rw [← e2.1 d (mem_range.mp hd)]
  congr 1
  exact sum_congr rfl (fun j hj => by rw [hx j (mem_range.mp hj)])

theorem padded_lt (gdim : ℕ) (qp : Arr ℕ) (i k : ℕ) (hk : k < gdim) : padded gdim qp i k = qp (i * gdim + k) := by
  have hp : Puts (loop gdim (fun k (a : Arr ℕ) => a.put k (qp (i * gdim + k)))) (fun m v =>
      ∃ k, k < gdim ∧ m = k ∧ v = qp (i * gdim + k)) := Puts.loop _ (fun _ _ => Puts.put _ _)
  refine hp.value ⟨k, hk, rfl, rfl⟩ ?_ _
  rintro w ⟨k', -, rfl, rfl⟩; rfl

theorem padded_ge (gdim : ℕ) (qp : Arr ℕ) (i k : ℕ) (hk : gdim ≤ k) : padded gdim qp i k = 0 := by
  have hp : Puts (loop gdim (fun k (a : Arr ℕ) => a.put k (qp (i * gdim + k)))) (fun m v =>
      ∃ k, k < gdim ∧ m = k ∧ v = qp (i * gdim + k)) := Puts.loop _ (fun _ _ => Puts.put _ _)
  refine hp.frame ?_ _
  rintro w ⟨k', h, rfl, rfl⟩; omega

/-- Geometry in the plane: third components vanish. -/
def Flat (gdim : ℕ) (G : GeomData) : Prop := gdim = 3 ∨ gdim = 2 ∧ ∀ j, G.x (3 * j + 2) = 0

theorem inHull_extend {gdim n : ℕ} {M : Cand} {t : ℕ × ℕ} {z : ℕ → ℝ} (hflat : Flat gdim M.G)
    (h : InHull gdim n (facetNode M t) z) :
    InHull 3 n (facetNode M t) (fun k => if k < gdim then z k else 0) := by
  obtain ⟨w, h0, h1, h2⟩ := h
  refine ⟨w, h0, h1, fun k hk => ?_⟩
  dsimp only
  by_cases hkg : k < gdim
  · rw [if_pos hkg]; exact h2 k hkg
  · rw [if_neg hkg]
    rcases hflat with h | ⟨h, hx⟩
    · omega
    · obtain rfl : k = 2 := by omega
      exact (sum_eq_zero (fun j _ => by rw [facetNode, hx, mul_zero])).symm

theorem sqLen_flat {gdim : ℕ} (h : gdim = 3 ∨ gdim = 2) {d : ℕ → ℝ} (hd : gdim = 2 → d 2 = 0) :
    sqLen 3 d = sqLen gdim d := by
  rcases h with rfl | rfl
  · rfl
  · simp [sqLen, sum_range_succ, hd rfl]

theorem projection_closest (M : Cand) (L : Library) (gdim : ℕ) (f2c c2f : ℕ → List ℕ)
    (tuples : List (ℕ × ℕ)) (n : ℕ) (points : ℕ → ℕ → ℝ) (old : PullBack)
    (hf2c : M.f2c = some f2c) (hc2f : M.c2f = some c2f)
    (hcell : checkCellType M.cell = .ok ()) (hne : tuples ≠ [])
    (hg : M.C.gdim = gdim) (hflat : Flat gdim M.G) (hpt : gdim = 2 → ∀ i, points i 2 = 0)
    (haff : M.C.affine = true) (hcl : ∀ lf j, j < M.nf → M.closure lf j < M.C.ndofs) (hnf : 0 < M.nf)
    (hcells : ∀ t ∈ tuples, AffineCell M.C M.G t.1) (hext : Exterior f2c c2f tuples)
    (hgjk : GjkContract L) (hclo : ClosestContract M L c2f tuples) :
    ∃ map, projectionMap M L tuples n points old = .ok map ∧ ∀ r < n, ∃ t ∈ tuples,
      map.1 r = ((c2f t.1).getD t.2 0 : ℕ) ∧
      InHull gdim M.nf (facetNode M t) (push M.C (nodes M.G t.1) (map.2 r)) ∧
      ∀ t' ∈ tuples, ∀ z, InHull gdim M.nf (facetNode M t') z →
        sqLen gdim (fun k => push M.C (nodes M.G t.1) (map.2 r) k - points r k)
          ≤ sqLen gdim (fun k => z k - points r k) := by
  refine ⟨_, by rw [projectionMap.eq_def, if_neg hne, hc2f]; simp only [hcell, hf2c]; rfl, ?_⟩
  intro r hr
  obtain ⟨t, ht, hct, hmin⟩ := hclo (points r)
  obtain ⟨hlf, hnd, hfc⟩ := hext t ht
  have hgd : ((List.range n).map (fun i => L.closest (tuples.map (fun t => (c2f t.1).getD t.2 0))
      (points i))).getD r 0 = (c2f t.1).getD t.2 0 := by
    rw [List.getD_eq_getElem _ _ (by simpa using hr)]
    simpa using hct
  have hidx : (c2f t.1).idxOf ((c2f t.1).getD t.2 0) = t.2 := by
    rw [List.getD_eq_getElem _ _ hlf]; exact hnd.idxOf_getElem _ hlf
  refine ⟨t, ht, by dsimp only; rw [hgd], ?_⟩
  dsimp only
  rw [if_pos hr, hgd, hfc]
  simp only [List.headD_cons]
  -- nodes of the closest facet
  set geom := entitiesToGeometryDofs ⟨f2c, c2f, M.G.xdof, M.closure, M.nf⟩
    (((List.range n).map (fun i => L.closest (tuples.map (fun t => (c2f t.1).getD t.2 0))
      (points i))).map (fun f : ℕ => (f : ℤ))) with hgeom
  have hrow : ∀ j < M.nf, geom.1 (r * M.nf + j) = (M.G.xdof t.1 (M.closure t.2 j) : ℤ) := by
    intro j hj
    have hlen : r < (((List.range n).map (fun i => L.closest (tuples.map (fun t => (c2f t.1).getD t.2 0))
      (points i))).map (fun f : ℕ => (f : ℤ))).length := by simpa using hr
    have hcon : ∀ e : ℕ, (e : ℤ) ∈ (((List.range n).map (fun i => L.closest
        (tuples.map (fun t => (c2f t.1).getD t.2 0)) (points i))).map (fun f : ℕ => (f : ℤ))) →
        f2c e ≠ [] ∧ ∀ c ∈ f2c e, e ∈ c2f c := by
      intro e he
      simp only [List.map_map, List.mem_map, List.mem_range, Function.comp, Nat.cast_inj] at he
      obtain ⟨i, -, he⟩ := he
      obtain ⟨t', ht', hct', -⟩ := hclo (points i)
      obtain ⟨hlf', -, hfc'⟩ := hext t' ht'
      rw [hct'] at he
      rw [← he, hfc']
      refine ⟨by simp, fun c hc => ?_⟩
      rw [List.mem_singleton] at hc
      rw [hc, List.getD_eq_getElem _ _ hlf']
      exact List.getElem_mem _
    have h11 := (C11_geometry_dofs ⟨f2c, c2f, M.G.xdof, M.closure, M.nf⟩ _ r hlen hcon).2.2.1
      ((c2f t.1).getD t.2 0) (by
        have := hct
        simp only [List.getElem_map, List.getElem_range]
        rw [this])
    obtain ⟨cell, hc, l, hl, hj'⟩ := h11
    dsimp only at hc hl hj'
    rw [hfc, List.mem_singleton] at hc
    subst hc
    have hl' : l < (c2f t.1).length := by
      by_contra h
      rw [List.getElem?_eq_none (by omega)] at hl; cases hl
    have : l = t.2 := by
      rw [← hidx]
      rw [List.getElem?_eq_getElem hl', Option.some.injEq] at hl
      rw [← hl]; exact (hnd.idxOf_getElem _ hl').symm
    rw [← this]
    exact hj' j hj
  have hnodes : ∀ (a : ℕ → ℝ) k, ∑ j ∈ range M.nf, a j * M.G.x (3 * (geom.1 (r * M.nf + j)).toNat + k)
      = ∑ j ∈ range M.nf, a j * facetNode M t j k := by
    intro a k
    refine sum_congr rfl (fun j hj => ?_)
    rw [hrow j (mem_range.mp hj), facetNode, Int.toNat_natCast]
  have hiff : ∀ dim z, InHull dim M.nf (fun j k => M.G.x (3 * (geom.1 (r * M.nf + j)).toNat + k)) z ↔
      InHull dim M.nf (facetNode M t) z := by
    intro dim z
    unfold InHull
    simp only [hnodes]
  obtain ⟨hin, hsh⟩ := hgjk M.nf (fun j k => M.G.x (3 * (geom.1 (r * M.nf + j)).toNat + k)) (points r) hnf
  set d := L.gjk M.nf (fun j k => M.G.x (3 * (geom.1 (r * M.nf + j)).toNat + k)) (points r) with hd
  rw [hiff] at hin
  have hin' : InHull gdim M.nf (facetNode M t) (fun k => points r k + d k) := by
    obtain ⟨w, h0, h1, h2⟩ := hin
    refine ⟨w, h0, h1, fun k hk => h2 k ?_⟩
    rcases hflat with h | ⟨h, -⟩ <;> omega
  obtain ⟨X, hX⟩ := affine_hull (hcells t ht) (hcl t.2) (z := fun k => points r k + d k)
    (by rw [hg]; exact hin')
  have hpush : ∀ k < gdim, push M.C (nodes M.G t.1) ((pullBack M.C L.det (L.pullBack (nodes M.G t.1))
      (nodes M.G t.1) 1 (fun _ => fun l => points r l + d l) old).X 0) k = points r k + d k :=
    fun k hk => push_pullBack (hcells t ht) haff L.det _ _ X old hX k (by omega)
  have hg23 : gdim = 3 ∨ gdim = 2 := by rcases hflat with h | ⟨h, -⟩ <;> omega
  have hd2 : gdim = 2 → d 2 = 0 := by
    intro h2
    rcases hflat with h | ⟨h, hx⟩
    · omega
    · obtain ⟨w, -, -, hw⟩ := hin
      have := hw 2 (by omega)
      dsimp only at this
      rw [hpt h2 r, zero_add] at this
      rw [this]
      exact sum_eq_zero (fun j _ => by rw [facetNode, hx, mul_zero])
  constructor
  · obtain ⟨w, h0, h1, h2⟩ := hin'
    exact ⟨w, h0, h1, fun k hk => (hpush k hk).trans (h2 k hk)⟩
  · intro t' ht' z hz
    have e1 : sqLen gdim (fun k => push M.C (nodes M.G t.1) ((pullBack M.C L.det (L.pullBack (nodes M.G t.1))
        (nodes M.G t.1) 1 (fun _ => fun l => points r l + d l) old).X 0) k - points r k) = sqLen 3 d := by
      rw [sqLen_flat hg23 hd2]
      exact sum_congr rfl (fun k hk => by
        dsimp only
        rw [hpush k (mem_range.mp hk), add_sub_cancel_left])
    rw [e1]
    obtain ⟨y, hy, hyz⟩ := hmin t' ht' _ (inHull_extend hflat hz)
    refine le_trans (hsh y ((hiff 3 y).mpr hy)) (le_trans hyz (le_of_eq ?_))
    rw [sqLen_flat hg23 (fun h => by rw [if_neg (by omega), hpt h r, sub_zero])]
    exact sum_congr rfl (fun k hk => by simp only [if_pos (mem_range.mp hk)])

/-- Position of quadrature point `q` of facet `t` (cell, local facet). -/
def quadPoint (G : GeomData) (off : ℕ → ℕ) (phi : ℕ → ℕ → ℝ) (t : ℕ × ℕ) (q k : ℕ) : ℝ :=
  ∑ j ∈ range G.nx, phi (off t.2 + q) j * G.x (3 * G.xdof t.1 j + k)

theorem closest_aux (M : Cand) (L : Library) (gdim tdim : ℕ) (f2c c2f : ℕ → List ℕ) (Gq : GeomData)
    (nq : ℕ) (off : ℕ → ℕ) (phi : ℕ → ℕ → ℝ) (facets tuples : List (ℕ × ℕ)) (ray : Except Normals.Err Map)
    (old : PullBack)
    (hf2c : M.f2c = some f2c) (hc2f : M.c2f = some c2f)
    (hcell : checkCellType M.cell = .ok ()) (hne : tuples ≠ [])
    (hg : M.C.gdim = gdim) (ht : tdim = 2 ∨ tdim = 3) (hflat : Flat gdim M.G)
    (haff : M.C.affine = true) (hcl : ∀ lf j, j < M.nf → M.closure lf j < M.C.ndofs) (hnf : 0 < M.nf)
    (hcells : ∀ t ∈ tuples, AffineCell M.C M.G t.1) (hext : Exterior f2c c2f tuples)
    (hgjk : GjkContract L) (hclo : ClosestContract M L c2f tuples) :
    ∃ map, distanceMap .closestPoint gdim tdim M L Gq nq off phi facets tuples ray old = .ok map ∧
      ∀ i (hi : i < facets.length) q, q < nq → ∃ t ∈ tuples,
        map.1 (i * nq + q) = ((c2f t.1).getD t.2 0 : ℕ) ∧
        InHull gdim M.nf (facetNode M t) (push M.C (nodes M.G t.1) (map.2 (i * nq + q))) ∧
        ∀ t' ∈ tuples, ∀ z, InHull gdim M.nf (facetNode M t') z →
          sqLen gdim (fun k => push M.C (nodes M.G t.1) (map.2 (i * nq + q)) k
              - quadPoint Gq off phi facets[i] q k)
            ≤ sqLen gdim (fun k => z k - quadPoint Gq off phi facets[i] q k) := by
  have hg23 : gdim = 3 ∨ gdim = 2 := by rcases hflat with h | ⟨h, -⟩ <;> omega
  obtain ⟨map, hmap, hprop⟩ := projection_closest M L gdim f2c c2f tuples (facets.length * nq)
    (padded gdim (physicalPoints Gq nq gdim off phi facets (fun _ => 0))) old hf2c hc2f hcell hne hg hflat
    (fun h i => padded_ge _ _ _ _ (by omega)) haff hcl hnf hcells hext hgjk hclo
  refine ⟨map, ?_, ?_⟩
  · rw [distanceMap, hcell]
    simp only
    rw [if_neg (by omega), if_pos ht, hmap]
    rfl
  · intro i hi q hq
    obtain ⟨t, ht, h1, h2, h3⟩ := hprop (i * nq + q) (by
      calc i * nq + q < i * nq + nq := by omega
        _ = (i + 1) * nq := by ring
        _ ≤ facets.length * nq := Nat.mul_le_mul_right _ hi)
    refine ⟨t, ht, h1, h2, fun t' ht' z hz => ?_⟩
    have hp : ∀ k, k ∈ range gdim → padded gdim (physicalPoints Gq nq gdim off phi facets (fun _ => 0))
        (i * nq + q) k = quadPoint Gq off phi facets[i] q k := by
      intro k hk
      rw [padded_lt _ _ _ _ (mem_range.mp hk)]
      exact C30_quadrature_points Gq nq gdim off phi facets _ i q k hi hq (mem_range.mp hk)
    have := h3 t' ht' z hz
    have e : ∀ f : ℕ → ℝ, sqLen gdim (fun k => f k - padded gdim
        (physicalPoints Gq nq gdim off phi facets (fun _ => 0)) (i * nq + q) k) =
        sqLen gdim (fun k => f k - quadPoint Gq off phi facets[i] q k) :=
      fun f => sum_congr rfl (fun k hk => by dsimp only; rw [hp k hk])
    rw [e, e] at this
    exact this

/-- C93: in closest point mode on affine cells, quadrature point `q` of facet `i` is linked to a
candidate facet, its contact point (the image of the reference contact point in the facet's cell)
lies on that facet, and no point of any candidate facet is closer to the quadrature point. -/
theorem C93_closest (M : Cand) (L : Library) (gdim tdim : ℕ) (f2c c2f : ℕ → List ℕ) (Gq : GeomData)
    (nq : ℕ) (off : ℕ → ℕ) (phi : ℕ → ℕ → ℝ) (facets tuples : List (ℕ × ℕ)) (ray : Except Normals.Err Map)
    (old : PullBack)
    (hf2c : M.f2c = some f2c) (hc2f : M.c2f = some c2f)
    (hcell : M.cell = .triangle ∨ M.cell = .quadrilateral ∨ M.cell = .tetrahedron ∨ M.cell = .hexahedron) (hne : tuples ≠ [])
    (hg : M.C.gdim = gdim) (ht : tdim = 2 ∨ tdim = 3) (hflat : Flat gdim M.G)
    (haff : M.C.affine = true) (hcl : ∀ lf j, j < M.nf → M.closure lf j < M.C.ndofs) (hnf : 0 < M.nf)
    (hcells : ∀ t ∈ tuples, AffineCell M.C M.G t.1) (hext : Exterior f2c c2f tuples)
    (hgjk : GjkContract L) (hclo : ClosestContract M L c2f tuples) :
    ∃ map, distanceMap .closestPoint gdim tdim M L Gq nq off phi facets tuples ray old = .ok map ∧
      ∀ i (hi : i < facets.length) q, q < nq → ∃ t ∈ tuples,
        map.1 (i * nq + q) = ((c2f t.1).getD t.2 0 : ℕ) ∧
        InHull gdim M.nf (facetNode M t) (cellPoint M.C.ndofs (fun j k => M.G.x (3 * M.G.xdof t.1 j + k)) (M.C.phi (map.2 (i * nq + q)))) ∧
        ∀ t' ∈ tuples, ∀ z, InHull gdim M.nf (facetNode M t') z →
          sqLen gdim (fun k => cellPoint M.C.ndofs (fun j k => M.G.x (3 * M.G.xdof t.1 j + k)) (M.C.phi (map.2 (i * nq + q))) k
              - quadPoint Gq off phi facets[i] q k)
            ≤ sqLen gdim (fun k => z k - quadPoint Gq off phi facets[i] q k) :=
  closest_aux M L gdim tdim f2c c2f Gq nq off phi facets tuples ray old hf2c hc2f (checkCellType_ok hcell) hne hg ht hflat haff hcl hnf hcells hext hgjk hclo

theorem gap_aux (M : Cand) (L : Library) (gdim tdim : ℕ) (f2c c2f : ℕ → List ℕ)
    (off : ℕ → ℕ) (phi : ℕ → ℕ → ℝ) (facets tuples : List (ℕ × ℕ)) (ray : Except Normals.Err Map)
    (old : PullBack) (P : PairData) (hP : P.gdim = gdim) (hnx : M.G.nx = M.C.ndofs)
    (hf2c : M.f2c = some f2c) (hc2f : M.c2f = some c2f)
    (hcell : checkCellType M.cell = .ok ()) (hne : tuples ≠ [])
    (hg : M.C.gdim = gdim) (ht : tdim = 2 ∨ tdim = 3) (hflat : Flat gdim M.G)
    (haff : M.C.affine = true) (hcl : ∀ lf j, j < M.nf → M.closure lf j < M.C.ndofs) (hnf : 0 < M.nf)
    (hcells : ∀ t ∈ tuples, AffineCell M.C M.G t.1) (hext : Exterior f2c c2f tuples)
    (hgjk : GjkContract L) (hclo : ClosestContract M L c2f tuples)
    (hloc : P.numFacets ≤ facets.length) (map : Map)
    (hmap : distanceMap .closestPoint gdim tdim M L M.G P.nq off phi facets tuples ray old = .ok map)
    (hPm : ∀ r, P.facets r = map.1 r) (qp0 : Arr ℕ) (i q : ℕ) (hi : i < P.numFacets) (hq : q < P.nq) :
    ∃ g : ℕ → ℝ, (∀ k < gdim, packGap P M.G (fun f => (f2c f).headD 0) (fun r => M.C.phi (map.2 r))
          (physicalPoints M.G P.nq P.gdim off phi facets qp0) (i * (P.nq * gdim) + q * gdim + k) = g k) ∧
      (∃ t ∈ tuples, InHull gdim M.nf (facetNode M t)
        (fun k => quadPoint M.G off phi (facets[i]'(by omega)) q k + g k)) ∧
      ∀ t' ∈ tuples, ∀ z, InHull gdim M.nf (facetNode M t') z →
        sqLen gdim g ≤ sqLen gdim (fun k => z k - quadPoint M.G off phi (facets[i]'(by omega)) q k) := by
  obtain ⟨map', hmap', hprop⟩ := closest_aux M L gdim tdim f2c c2f M.G P.nq off phi facets tuples ray old
    hf2c hc2f hcell hne hg ht hflat haff hcl hnf hcells hext hgjk hclo
  rw [hmap] at hmap'
  obtain rfl : map = map' := by injection hmap'
  obtain ⟨t, htm, h1, h2, h3⟩ := hprop i (by omega) q hq
  obtain ⟨-, -, hfc⟩ := hext t htm
  refine ⟨fun k => push M.C (nodes M.G t.1) (map.2 (i * P.nq + q)) k
    - quadPoint M.G off phi (facets[i]'(by omega)) q k, ?_, ⟨t, htm, ?_⟩, h3⟩
  · intro k hk
    have := C30_gap P M.G (fun f => (f2c f).headD 0) (fun r => M.C.phi (map.2 r)) off phi facets qp0 hloc
      i q k hi hq (by omega)
    rw [hP] at this ⊢
    rw [this, hPm, h1, if_pos (Int.natCast_nonneg _), Int.toNat_natCast, hfc]
    congr 1
    rw [hnx]
    exact sum_congr rfl (fun j _ => mul_comm _ _)
  · obtain ⟨w, h0, h1', h2'⟩ := h2
    exact ⟨w, h0, h1', fun k hk => by dsimp only; rw [add_sub_cancel]; exact h2' k hk⟩

/-- C93: the packed gap of a point (computed from such a map, on the same submesh) is a shortest vector
from the quadrature point to the candidate facets. -/
theorem C93_gap (M : Cand) (L : Library) (gdim tdim : ℕ) (f2c c2f : ℕ → List ℕ)
    (off : ℕ → ℕ) (phi : ℕ → ℕ → ℝ) (facets tuples : List (ℕ × ℕ)) (ray : Except Normals.Err Map)
    (old : PullBack) (P : PairData) (hP : P.gdim = gdim) (hnx : M.G.nx = M.C.ndofs)
    (hf2c : M.f2c = some f2c) (hc2f : M.c2f = some c2f)
    (hcell : M.cell = .triangle ∨ M.cell = .quadrilateral ∨ M.cell = .tetrahedron ∨ M.cell = .hexahedron) (hne : tuples ≠ [])
    (hg : M.C.gdim = gdim) (ht : tdim = 2 ∨ tdim = 3) (hflat : Flat gdim M.G)
    (haff : M.C.affine = true) (hcl : ∀ lf j, j < M.nf → M.closure lf j < M.C.ndofs) (hnf : 0 < M.nf)
    (hcells : ∀ t ∈ tuples, AffineCell M.C M.G t.1) (hext : Exterior f2c c2f tuples)
    (hgjk : GjkContract L) (hclo : ClosestContract M L c2f tuples)
    (hloc : P.numFacets ≤ facets.length) (map : Map)
    (hmap : distanceMap .closestPoint gdim tdim M L M.G P.nq off phi facets tuples ray old = .ok map)
    (hPm : ∀ r, P.facets r = map.1 r) (qp0 : Arr ℕ) (i q : ℕ) (hi : i < P.numFacets) (hq : q < P.nq) :
    ∃ g : ℕ → ℝ, (∀ k < gdim, packGap P M.G (fun f => (f2c f).headD 0) (fun r => M.C.phi (map.2 r))
          (physicalPoints M.G P.nq P.gdim off phi facets qp0) (i * (P.nq * gdim) + q * gdim + k) = g k) ∧
      (∃ t ∈ tuples, InHull gdim M.nf (facetNode M t)
        (fun k => quadPoint M.G off phi (facets[i]'(by omega)) q k + g k)) ∧
      ∀ t' ∈ tuples, ∀ z, InHull gdim M.nf (facetNode M t') z →
        sqLen gdim g ≤ sqLen gdim (fun k => z k - quadPoint M.G off phi (facets[i]'(by omega)) q k) :=
  gap_aux M L gdim tdim f2c c2f off phi facets tuples ray old P hP hnx hf2c hc2f (checkCellType_ok hcell) hne hg ht hflat haff hcl hnf hcells hext hgjk hclo hloc map hmap hPm qp0 i q hi hq

theorem no_candidates_aux (M : Cand) (L : Library) (gdim tdim : ℕ) (Gq : GeomData)
    (nq : ℕ) (off : ℕ → ℕ) (phi : ℕ → ℕ → ℝ) (facets : List (ℕ × ℕ)) (ray : Except Normals.Err Map)
    (old : PullBack) (hcell : checkCellType M.cell = .ok ()) (hg : gdim = 2 ∨ gdim = 3)
    (ht : tdim = 2 ∨ tdim = 3) :
    ∃ map, distanceMap .closestPoint gdim tdim M L Gq nq off phi facets [] ray old = .ok map ∧
      ∀ r, map.1 r = -1 := by
  refine ⟨(fun _ => -1, fun _ _ => 0), ?_, fun _ => rfl⟩
  rw [distanceMap, hcell]
  simp only
  rw [if_neg (by omega), if_pos ht]
  rfl

/-- C93: without candidate facets no point is linked. -/
theorem C93_no_candidates (M : Cand) (L : Library) (gdim tdim : ℕ) (Gq : GeomData)
    (nq : ℕ) (off : ℕ → ℕ) (phi : ℕ → ℕ → ℝ) (facets : List (ℕ × ℕ)) (ray : Except Normals.Err Map)
    (old : PullBack) (hcell : M.cell = .triangle ∨ M.cell = .quadrilateral ∨ M.cell = .tetrahedron ∨ M.cell = .hexahedron) (hg : gdim = 2 ∨ gdim = 3)
    (ht : tdim = 2 ∨ tdim = 3) :
    ∃ map, distanceMap .closestPoint gdim tdim M L Gq nq off phi facets [] ray old = .ok map ∧
      ∀ r, map.1 r = -1 :=
  no_candidates_aux M L gdim tdim Gq nq off phi facets ray old (checkCellType_ok hcell) hg ht

/-! ### Non-vacuity: libraries meeting the contracts exist, for every mesh -/

theorem exists_shortest (n : ℕ) (hn : 0 < n) (nd : ℕ → ℕ → ℝ) (p : ℕ → ℝ) :
    ∃ d, IsShortest 3 n nd p d := by
  let pt : (Fin n → ℝ) → ℕ → ℝ := fun w k => ∑ j, w j * nd j k
  have hcont : Continuous (fun w : Fin n → ℝ => sqLen 3 (fun k => pt w k - p k)) := by
    unfold sqLen
    simp only [pt]
    fun_prop
  have hne : (stdSimplex ℝ (Fin n)).Nonempty :=
    ⟨_, single_mem_stdSimplex ℝ (⟨0, hn⟩ : Fin n)⟩
  obtain ⟨w, hw, hmin⟩ := (isCompact_stdSimplex ℝ (Fin n)).exists_isMinOn hne hcont.continuousOn
  have ext : ∀ v : Fin n → ℝ, ∀ g : ℕ → ℝ, ∑ j ∈ range n, (if h : j < n then v ⟨j, h⟩ else 0) * g j
      = ∑ j, v j * g j := by
    intro v g
    rw [← Fin.sum_univ_eq_sum_range (fun j => (if h : j < n then v ⟨j, h⟩ else 0) * g j)]
    exact sum_congr rfl (fun j _ => by simp)
  refine ⟨fun k => pt w k - p k, ⟨fun j => if h : j < n then w ⟨j, h⟩ else 0, ?_, ?_, ?_⟩, ?_⟩
  · intro j hj; dsimp only; rw [dif_pos hj]; exact hw.1 _
  · have := ext w (fun _ => 1)
    simp only [mul_one] at this
    rw [this]; exact hw.2
  · intro k _
    dsimp only
    rw [ext w (fun j => nd j k), add_sub_cancel]
  · rintro z ⟨v, h0, h1, hz⟩
    have hv : (fun j : Fin n => v j) ∈ stdSimplex ℝ (Fin n) :=
      ⟨fun j => h0 j j.2, by rw [Fin.sum_univ_eq_sum_range (fun j => v j)]; exact h1⟩
    refine le_trans (hmin hv) (le_of_eq (sum_congr rfl (fun k hk => ?_)))
    dsimp only [pt]
    rw [hz k (mem_range.mp hk), Fin.sum_univ_eq_sum_range (fun j => v j * nd j k)]

theorem library_exists (M : Cand) (hnf : 0 < M.nf) (c2f : ℕ → List ℕ) (tuples : List (ℕ × ℕ))
    (hne : tuples ≠ []) : ∃ L : Library, GjkContract L ∧ ClosestContract M L c2f tuples := by
  have h1 : ∀ n nd p, ∃ d, 0 < n → IsShortest 3 n nd p d := by
    intro n nd p
    by_cases hn : 0 < n
    · obtain ⟨d, hd⟩ := exists_shortest n hn nd p; exact ⟨d, fun _ => hd⟩
    · exact ⟨fun _ => 0, fun h => absurd h hn⟩
  choose gjk hgjk using h1
  have h2 : ∀ p, ∃ t ∈ tuples, ∀ t' ∈ tuples,
      sqLen 3 (gjk M.nf (facetNode M t) p) ≤ sqLen 3 (gjk M.nf (facetNode M t') p) := by
    intro p
    obtain ⟨t, ht, hm⟩ := Finset.exists_min_image tuples.toFinset
      (fun t => sqLen 3 (gjk M.nf (facetNode M t) p))
      (List.toFinset_nonempty_iff tuples |>.mpr hne)
    exact ⟨t, by simpa using ht, fun t' ht' => hm t' (by simpa using ht')⟩
  choose t ht hm using h2
  refine ⟨⟨fun _ p => (c2f (t p).1).getD (t p).2 0, gjk, fun _ => 0, fun _ x => x⟩, hgjk, fun p =>
    ⟨t p, ht p, rfl, fun t' ht' z hz => ⟨_, (hgjk M.nf (facetNode M (t p)) p hnf).1, ?_⟩⟩⟩
  simp only [add_sub_cancel_left]
  exact (hm p t' ht').trans ((hgjk M.nf (facetNode M t') p hnf).2 z hz)

/-- Two triangles (0,0), (1,0), (0,1) and (3,0), (4,0), (3,1) with facets 0..2 and 3..5. -/
noncomputable def exMesh : Cand where
  cell := .triangle
  C := p1Triangle 2
  G := ⟨3, fun m => if m = 3 ∨ m = 7 ∨ m = 16 then 1 else if m = 9 ∨ m = 15 then 3 else if m = 12 then 4 else 0,
    fun c j => 3 * c + j⟩
  f2c := some (fun f => [f / 3])
  c2f := some (fun c => [3 * c, 3 * c + 1, 3 * c + 2])
  closure := fun lf j => if lf = 0 then j + 1 else if lf = 1 then 2 * j else j
  nf := 2

theorem exMesh_cell (c : ℕ) (hc : c < 2) : AffineCell exMesh.C exMesh.G c where
  affine := p1Triangle_affine 2 _
  inv := by
    refine p1Triangle_inv _ ?_
    interval_cases c <;> norm_num [jac, p1Triangle, exMesh, sum_range_succ, nodes]
  nodal := by
    intro j hj
    change j < 3 at hj
    refine ⟨fun d => if d + 1 = j then 1 else 0, fun k _ => ?_⟩
    interval_cases j <;> simp [push, exMesh, p1Triangle, sum_range_succ]

/-- The hypotheses of `C93_closest` and `C93_gap` are met: facets 1 (x = 0) of both triangles of
`exMesh`. -/
example : ∃ (L : Library) (f2c c2f : ℕ → List ℕ) (tuples : List (ℕ × ℕ)),
    tuples.length = 2 ∧ exMesh.f2c = some f2c ∧ exMesh.c2f = some c2f ∧
    checkCellType exMesh.cell = .ok () ∧ tuples ≠ [] ∧ exMesh.C.gdim = 2 ∧ Flat 2 exMesh.G ∧
    exMesh.C.affine = true ∧ (∀ lf j, j < exMesh.nf → exMesh.closure lf j < exMesh.C.ndofs) ∧
    0 < exMesh.nf ∧ (∀ t ∈ tuples, AffineCell exMesh.C exMesh.G t.1) ∧ Exterior f2c c2f tuples ∧
    GjkContract L ∧ ClosestContract exMesh L c2f tuples ∧ exMesh.G.nx = exMesh.C.ndofs := by
  obtain ⟨L, h1, h2⟩ := library_exists exMesh (by decide) (fun c => [3 * c, 3 * c + 1, 3 * c + 2])
    [(0, 1), (1, 1)] (by simp)
  refine ⟨L, _, _, [(0, 1), (1, 1)], rfl, rfl, rfl, rfl, by simp, rfl, Or.inr ⟨rfl, ?_⟩, rfl, ?_, by decide,
    ?_, ?_, h1, h2, rfl⟩
  · intro j
    simp only [exMesh]
    rw [if_neg (by omega), if_neg (by omega), if_neg (by omega)]
  · intro lf j hj
    change j < 2 at hj
    change (if lf = 0 then j + 1 else if lf = 1 then 2 * j else j) < 3
    split_ifs <;> omega
  · intro t ht
    refine exMesh_cell _ ?_
    simp at ht
    rcases ht with rfl | rfl <;> norm_num
  · intro t ht
    simp at ht
    rcases ht with rfl | rfl <;> decide

end Verif.Projection
