import Verif.Spec.DetectionModes
import Verif.Props.Detection
import Verif.Props.RayTracing

/-!
Property C215: on flat parallel surfaces, ray tracing and the search for the closest point find the same contact points.
-/

namespace Verif.DetectionModes

open Verif.Projection Verif.Kernels Verif.Spec Verif.Ray Verif.Geometry Finset

noncomputable section

/-- A point of a facet in a plane is in the plane. -/
theorem hull_plane {g m : ℕ} {p : ℕ → ℕ → ℝ} {z n : ℕ → ℝ} {c : ℝ} (hz : InHull g m p z)
    (hp : ∀ j < m, ∑ k ∈ range g, n k * p j k = c) : ∑ k ∈ range g, n k * z k = c := by
  obtain ⟨w, -, h1, h2⟩ := hz
  calc ∑ k ∈ range g, n k * z k = ∑ k ∈ range g, ∑ j ∈ range m, w j * (n k * p j k) :=
        sum_congr rfl (fun k hk => by rw [h2 k (mem_range.mp hk), mul_sum]; exact sum_congr rfl (fun j _ => by ring))
    _ = ∑ j ∈ range m, w j * ∑ k ∈ range g, n k * p j k := by
        rw [sum_comm]; exact sum_congr rfl (fun j _ => by rw [mul_sum])
    _ = ∑ j ∈ range m, w j * c := sum_congr rfl (fun j hj => by rw [hp j (mem_range.mp hj)])
    _ = c := by rw [← sum_mul, h1, one_mul]

/-- Points of a plane which are as near to `x` as the foot of the perpendicular are the foot. -/
theorem foot_unique {g : ℕ} {x y p n : ℕ → ℝ} {c s : ℝ} (hy : ∑ k ∈ range g, n k * y k = c)
    (hp : ∑ k ∈ range g, n k * p k = c) (hs : ∀ k < g, y k = x k + s * n k)
    (hle : sqLen g (fun k => p k - x k) ≤ sqLen g (fun k => y k - x k)) : ∀ k < g, p k = y k := by
  have e : sqLen g (fun k => p k - x k) = ∑ k ∈ range g, (p k - y k) ^ 2 + sqLen g (fun k => y k - x k) := by
    have h0 : ∑ k ∈ range g, 2 * s * (n k * p k - n k * y k) = 0 := by
      rw [← mul_sum, sum_sub_distrib, hy, hp, sub_self, mul_zero]
    rw [sqLen, sqLen, ← add_zero (∑ k ∈ range g, (p k - y k) ^ 2), ← h0, ← sum_add_distrib, ← sum_add_distrib]
    refine sum_congr rfl (fun k hk => ?_)
    have := hs k (mem_range.mp hk)
    rw [this]; ring
  have h0 : ∑ k ∈ range g, (p k - y k) ^ 2 = 0 := le_antisymm (by linarith) (sum_nonneg (fun _ _ => sq_nonneg _))
  intro k hk
  have := (sum_eq_zero_iff_of_nonneg (fun _ _ => sq_nonneg _)).mp h0 k (mem_range.mpr hk)
  exact sub_eq_zero.mp (pow_eq_zero_iff (two_ne_zero)|>.mp this)

/-- Points with parameters in the reference facet are points of the facet. -/
theorem traced_hull {M : Cand} {g : ℕ} {u : ℕ × ℕ} {x n : ℕ → ℝ} {F : Facet} (T : Traced M g u x n F) {ys : ℕ → ℝ}
    (hin : InFacet F.cell 0 ys) : InHull g M.nf (facetNode M u) (cellImage F (facetRef F ys)) := by
  obtain ⟨a, A, hA, -⟩ := T.affine
  have hg := T.gdim
  have key : ∀ w : ℕ → ℝ, ∑ j ∈ range M.nf, w j = 1 →
      (∀ m, facetRef F ys m = ∑ j ∈ range M.nf, w j * F.vertex j m) →
      ∀ k < g, cellImage F (facetRef F ys) k = ∑ j ∈ range M.nf, w j * facetNode M u j k := by
    intro w hw hr k hk
    rw [hA _ _ (by omega)]
    have : ∀ j ∈ range M.nf, w j * facetNode M u j k = w j * a k + ∑ m ∈ range F.dim.tdim, A k m * (w j * F.vertex j m) := by
      intro j hj
      rw [← T.nodes j (mem_range.mp hj) k hk, hA _ _ (by omega), mul_add, mul_sum]
      congr 1
      exact sum_congr rfl (fun m _ => by ring)
    rw [sum_congr rfl this, sum_add_distrib, ← sum_mul, hw, one_mul, sum_comm]
    congr 1
    refine sum_congr rfl (fun m _ => ?_)
    rw [hr m, mul_sum]
  have hnf := T.corners
  have hc := T.cell
  have hsolid := T.solid
  rcases hd : F.dim <;> rw [hd] at hc
  · have hnf2 : M.nf = 2 := by rcases hc with h | h <;> rw [hnf, h] <;> rfl
    have hin' : 0 ≤ ys 0 ∧ ys 0 ≤ 1 := by
      rcases hc with h | h <;> rw [h] at hin <;> simpa [InFacet] using hin
    refine ⟨fun j => if j = 0 then 1 - ys 0 else ys 0, ?_, ?_, key _ ?_ ?_⟩
    · intro j _; dsimp only; split_ifs <;> linarith
    · rw [hnf2]; simp [sum_range_succ]
    · rw [hnf2]; simp [sum_range_succ]
    · intro m; rw [hnf2, facetRef, hd]; simp [sum_range_succ, Dim.tdim]; ring
  · rcases hc with h | h
    · have hnf2 : M.nf = 3 := by rw [hnf, h]; rfl
      have hin' : 0 ≤ ys 0 ∧ 0 ≤ ys 1 ∧ ys 0 + ys 1 ≤ 1 := by
        rw [h] at hin
        obtain ⟨h1, -, h3, h4⟩ := hin
        exact ⟨by linarith, by linarith, by linarith⟩
      refine ⟨fun j => if j = 0 then 1 - ys 0 - ys 1 else if j = 1 then ys 0 else ys 1, ?_, ?_, key _ ?_ ?_⟩
      · intro j _; dsimp only; split_ifs <;> linarith [hin'.1, hin'.2.1, hin'.2.2]
      · rw [hnf2]; simp [sum_range_succ]; ring
      · rw [hnf2]; simp [sum_range_succ]; ring
      · intro m; rw [hnf2, facetRef, hd]; simp [sum_range_succ, Dim.tdim]; ring
    · have hnf2 : M.nf = 4 := by rw [hnf, h]; rfl
      have hin' : 0 ≤ ys 0 ∧ ys 0 ≤ 1 ∧ 0 ≤ ys 1 ∧ ys 1 ≤ 1 := by
        rw [h] at hin
        obtain ⟨h1, h2, h3, h4⟩ := hin
        exact ⟨by linarith, by linarith, by linarith, by linarith⟩
      obtain ⟨h1, h2, h3, h4⟩ := hin'
      refine ⟨fun j => if j = 0 then (1 - ys 0) * (1 - ys 1) else if j = 1 then ys 0 * (1 - ys 1)
        else if j = 2 then (1 - ys 0) * ys 1 else ys 0 * ys 1, ?_, ?_, key _ ?_ ?_⟩
      · intro j _
        dsimp only
        split_ifs <;> apply mul_nonneg <;> linarith
      · rw [hnf2]; simp [sum_range_succ]; ring
      · rw [hnf2]; simp [sum_range_succ]; ring
      · intro m; rw [hnf2, facetRef, hd]; simp [sum_range_succ, Dim.tdim, T.square h m]; ring
  · exact absurd hd hsolid

/-- C215: let all candidate facets lie in one plane with normal `n`.  If the line through a quadrature point with
direction `n` meets a candidate facet, the search for the closest point stores the point of intersection, and ray tracing of
that facet succeeds and finds its parameters up to the tolerance. -/
theorem C215_agree {M : Cand} {L : Library} {g tdim : ℕ} {f2c c2f : ℕ → List ℕ} {tuples : List (ℕ × ℕ)}
    (S : SearchInput M L g tdim f2c c2f tuples) (Gq : Packing.GeomData) (nq : ℕ) (off : ℕ → ℕ) (phi : ℕ → ℕ → ℝ)
    (facets : List (ℕ × ℕ)) (ray : Except Normals.Err Map) (old : PullBack)
    (n : ℕ → ℝ) (hn : ∃ k < g, n k ≠ 0) (c : ℝ)
    (hplane : ∀ t ∈ tuples, ∀ j < M.nf, ∑ k ∈ range g, n k * facetNode M t j k = c)
    (maxIter : ℕ) (hmax : 2 ≤ maxIter) (tol : ℝ) (htol : 0 < tol) (htol' : tol ≤ 1 / 4) (st : State) :
    ∃ map, distanceMap .closestPoint g tdim M L Gq nq off phi facets tuples ray old = .ok map ∧
      ∀ i (hi : i < facets.length) q, q < nq → ∀ u ∈ tuples, ∀ F, Traced M g u (quadPoint Gq off phi facets[i] q) n F →
        tol ≤ |rayDet F (rayIterate F 0)| → ∀ (ys : ℕ → ℝ) (s : ℝ), InFacet F.cell 0 ys →
        (∀ k < g, cellImage F (facetRef F ys) k = quadPoint Gq off phi facets[i] q k + s * n k) →
        (∃ t ∈ tuples, map.1 (i * nq + q) = ((c2f t.1).getD t.2 0 : ℕ)
          ∧ ∀ k < g, contactPoint M map t (i * nq + q) k = cellImage F (facetRef F ys) k)
        ∧ ∃ r, raytracingCell F maxIter tol st = .ok r ∧ r.status = 1
          ∧ ∑ j ∈ range (F.dim.tdim - 1), (r.xi j - ys j) ^ 2 < tol ^ 2 := by
  obtain ⟨map, h1, h2⟩ := C93_closest M L g tdim f2c c2f Gq nq off phi facets tuples ray old S.f2c S.c2f S.cell S.nonempty
    S.gdim S.tdim S.flat S.affine S.closure S.nf S.cells S.exterior S.gjk S.closest
  refine ⟨map, h1, fun i hi q hq u hu F T hdet ys s hin hs => ⟨?_, ?_⟩⟩
  · obtain ⟨t, ht, a1, a2, a3⟩ := h2 i hi q hq
    refine ⟨t, ht, a1, ?_⟩
    exact foot_unique (hull_plane (traced_hull T hin) (hplane u hu)) (hull_plane a2 (hplane t ht)) hs
      (a3 u hu _ (traced_hull T hin))
  · obtain ⟨a, A, hA, hJ⟩ := T.affine
    have hg := T.gdim
    obtain ⟨r, hr, hst, hxi⟩ := C80_exact F a A hA hJ T.dxi T.solid T.cell n
      (by obtain ⟨k, hk, h⟩ := hn; exact ⟨k, by omega, h⟩) T.tangents maxIter hmax tol htol htol' hdet ys s
      (fun k hk => by rw [hs k (by omega), T.point k (by omega)]) st
    refine ⟨r, hr, ?_, hxi⟩
    rw [hst, if_pos]
    revert hin
    cases F.cell <;> simp only [InFacet] <;> intro h
    all_goals first | exact h.elim | skip
    all_goals first
      | exact ⟨by linarith [h.1], by linarith [h.2.1], by linarith [h.2.2.1], by linarith [h.2.2.2]⟩
      | exact ⟨by linarith [h.1], by linarith [h.2]⟩

/-- C215: on any surface, the closest point is not farther from the quadrature point than a point of a candidate facet
on the ray: the gap of ray tracing is never smaller than that of the search for the closest point. -/
theorem C215_nearer {M : Cand} {L : Library} {g tdim : ℕ} {f2c c2f : ℕ → List ℕ} {tuples : List (ℕ × ℕ)}
    (S : SearchInput M L g tdim f2c c2f tuples) (Gq : Packing.GeomData) (nq : ℕ) (off : ℕ → ℕ) (phi : ℕ → ℕ → ℝ)
    (facets : List (ℕ × ℕ)) (ray : Except Normals.Err Map) (old : PullBack) :
    ∃ map, distanceMap .closestPoint g tdim M L Gq nq off phi facets tuples ray old = .ok map ∧
      ∀ i (hi : i < facets.length) q, q < nq → ∃ t ∈ tuples, map.1 (i * nq + q) = ((c2f t.1).getD t.2 0 : ℕ)
        ∧ ∀ u ∈ tuples, ∀ n F, Traced M g u (quadPoint Gq off phi facets[i] q) n F →
          ∀ ys, InFacet F.cell 0 ys →
          distance g (contactPoint M map t (i * nq + q)) (quadPoint Gq off phi facets[i] q)
            ≤ distance g (cellImage F (facetRef F ys)) (quadPoint Gq off phi facets[i] q) := by
  obtain ⟨map, h1, h2⟩ := search_nearest S Gq nq off phi facets ray old
  refine ⟨map, h1, fun i hi q hq => ?_⟩
  obtain ⟨t, ht, a1, -, a3⟩ := h2 i hi q hq
  exact ⟨t, ht, a1, fun u hu n F T ys hin => a3.2 u hu _ (traced_hull T hin)⟩

/-- Ray tracing input for the facet `x = 0` of the first triangle of `exMesh`, the quadrature point `(1, 0)` and the
direction `(1, 0)`. -/
def exRay : Facet where
  dim := .d22
  cell := .triangle
  vertex := fun v i => if v = 1 ∧ i = 1 then 1 else 0
  dxi := fun i _ => if i = 1 then 1 else 0
  ndofs := 3
  phi := fun X n => if n = 0 then 1 - X 0 - X 1 else if n = 1 then X 0 else X 1
  dphi := fun _ k n => if n = 0 then -1 else if n = k + 1 then 1 else 0
  coords := fun n i => if n = i + 1 then 1 else 0
  point := fun i => if i = 0 then 1 else 0
  tangents := computeTangents 2 (fun i => if i = 0 then 1 else 0)

/-- The hypotheses of C215 are met: the candidate facet is `x = 0` of the first triangle of `exMesh`, the quadrature point
`(1, 0)`, the direction `(1, 0)`; the point of intersection is the origin. -/
example : ∃ L, SearchInput exMesh L 2 2 (fun f => [f / 3]) (fun c => [3 * c, 3 * c + 1, 3 * c + 2]) [(0, 1)]
    ∧ (∀ t ∈ [(0, 1)], ∀ j < exMesh.nf, ∑ k ∈ range 2, (if k = 0 then (1 : ℝ) else 0) * facetNode exMesh t j k = 0)
    ∧ Traced exMesh 2 (0, 1) (quadPoint exMesh.G (fun _ => 0) exNode (0, 0) 0) (fun i => if i = 0 then 1 else 0) exRay
    ∧ (1e-8 : ℝ) ≤ |rayDet exRay (rayIterate exRay 0)|
    ∧ InFacet exRay.cell 0 (fun _ => 0)
    ∧ ∀ k < 2, cellImage exRay (facetRef exRay (fun _ => 0)) k
      = quadPoint exMesh.G (fun _ => 0) exNode (0, 0) 0 k + (-1) * (fun i => if i = 0 then (1 : ℝ) else 0) k := by
  obtain ⟨L, hL⟩ := exMesh_search [(0, 1)] (by simp) (by simp)
  have hq : ∀ k < 2, quadPoint exMesh.G (fun _ => 0) exNode (0, 0) 0 k = if k = 0 then 1 else 0 := by
    intro k hk
    interval_cases k <;> simp [quadPoint, exMesh, exNode, sum_range_succ]
  have hT : computeTangents 2 (fun i => if i = 0 then 1 else 0) 0 1 = 1 := by
    have hm : maxPos (fun i => if i = 0 then (1 : ℝ) else 0) 1 = 0 := by simp [maxPos]
    have hf : (range 2).filter (fun i => ¬ i = 0) = {1} := by decide
    simp [computeTangents, Ray.normalize, tangent0, sum_range_succ, hm, hf]
  refine ⟨L, hL, ?_, ⟨rfl, by decide, Or.inl rfl, fun k hk => (hq k hk).symm, rfl,
    ⟨fun _ => 0, fun i m => if i = m then 1 else 0, ?_, ?_⟩, ?_, rfl, ?_, nofun⟩, ?_, ?_, ?_⟩
  · intro t ht j hj
    simp at ht; subst ht
    have hj : j < 2 := hj
    interval_cases j <;> simp [facetNode, exMesh, sum_range_succ, Normals.nodes]
  · intro X i hi
    have hi : i < 2 := hi
    interval_cases i <;> simp [cellImage, cellPoint, exRay, Dim.tdim, sum_range_succ]
  · intro X i m hi hm
    have hi : i < 2 := hi
    have hm : m < 2 := hm
    interval_cases i <;> interval_cases m <;> simp [cellJacobian, jacobian, exRay, sum_range_succ]
  · intro m j hm hj
    have hj : j < 1 := hj
    have hm : m < 2 := hm
    interval_cases j; interval_cases m <;> simp [exRay]
  · intro j hj k hk
    have hj : j < 2 := hj
    interval_cases j <;> interval_cases k <;>
      simp [cellImage, cellPoint, exRay, facetNode, exMesh, sum_range_succ, Normals.nodes]
  · have : rayDet exRay (rayIterate exRay 0) = 1 := by
      simp [rayDet, rayDeriv, cellJacobian, jacobian, exRay, Dim.gdim, Dim.tdim, sum_range_succ, hT]
    rw [this]; norm_num
  · simp [InFacet, exRay]
  · intro k hk
    rw [hq k hk]
    interval_cases k <;> simp [cellImage, cellPoint, facetRef, exRay, Dim.tdim, sum_range_succ]

end

end Verif.DetectionModes
