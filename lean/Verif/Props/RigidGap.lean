import Mathlib.Tactic.IntervalCases
import Verif.Spec.RigidGap
import Verif.Props.SubMesh
import Verif.Props.Entities

/-!
Properties C149 (`Contact.facet_map` in Python) and C150 (gap of `nitsche_rigid_surface`).
-/

namespace Verif.RigidGap

open Verif.Entities Verif.SubMesh Verif.Ghosting Finset

/-! ### C149 -/

/-- C149: `Contact.facet_map` has the rows of the contact map, an unlinked point is -1, and a point linked to the local
facet `lf` of a contact cell has the index of this facet in the mesh. -/
theorem C149_facet_map (n nf : ℕ) (pairs : List (ℕ × ℕ)) (sub c2f : ℕ → List ℕ)
    (hb : ∀ p ∈ pairs, p.1 < n) (hlf : ∀ c, ∀ p ∈ pairs, p.2 < (sub c).length)
    (hnf : ∀ c, ∀ f ∈ sub c, f < nf) (hsame : SameFacets (parentCells pairs) sub c2f) (rows : List (List ℤ)) :
    let cells := parentCells pairs
    let out := facetMapPy (facetMap nf (meshToSub n cells) sub pairs) cells c2f rows
    out.map List.length = rows.map List.length
    ∧ ∀ (e q : ℕ) (f : ℤ), (rows[e]?.bind (·[q]?)) = some f →
      (f < 0 → (out[e]?.bind (·[q]?)) = some (-1))
      ∧ ∀ c lf (F : ℕ), (c, lf) ∈ pairs → (c2f c)[lf]? = some F →
        (∃ i, ∃ h : i < cells.length, cells[i] = c ∧ 0 ≤ f ∧ (sub i)[lf]? = some f.toNat) →
        (out[e]?.bind (·[q]?)) = some (F : ℤ) := by
  intro cells out
  refine ⟨by simp [out, facetMapPy, Function.comp_def], fun e q f hf => ?_⟩
  have hout : (out[e]?.bind (·[q]?)) = some (if f < 0 then -1 else
      (((c2f (cells.getD ((links (facetMap nf (meshToSub n cells) sub pairs).1 (facetMap nf (meshToSub n cells) sub pairs).2
        f.toNat).headD 0) 0)).getD ((links (facetMap nf (meshToSub n cells) sub pairs).1
        (facetMap nf (meshToSub n cells) sub pairs).2 f.toNat).getLastD 0) 0 : ℕ) : ℤ)) := by
    obtain ⟨row, h1, h2⟩ := Option.bind_eq_some_iff.mp hf
    simp only [out, facetMapPy, List.getElem?_map, h1, Option.map_some, Option.bind_some, h2]
  rw [hout]
  refine ⟨fun h => by rw [if_pos h], ?_⟩
  rintro c lf F hp hF ⟨i, hi, rfl, h0, hs⟩
  rw [if_neg (by omega)]
  obtain ⟨j, lf', hj, h1, h2, h3⟩ := (C75_facet_map n nf pairs sub hb hlf hnf).1 i lf f.toNat hi hp hs
  rw [h3]
  have e1 : cells.getD j 0 = cells[j] := by rw [List.getD_eq_getElem _ _ hj]
  have e2 := hsame i j hi hj lf lf' f.toNat hs h2
  show some (((c2f (cells.getD j 0)).getD lf' 0 : ℕ) : ℤ) = _
  rw [e1, List.getD_eq_getElem?_getD, ← e2, hF]
  rfl

/-- C149 has content: two triangles with a common facet; both contact facets get their index in the mesh. -/
example : (∀ p ∈ [((4 : ℕ), (2 : ℕ)), (2, 0)], p.1 < 7)
    ∧ (∀ c, ∀ p ∈ [((4 : ℕ), (2 : ℕ)), (2, 0)], p.2 < ((fun i => if i = 0 then [0, 1, 2] else [3, 1, 4]) c : List ℕ).length)
    ∧ (∀ c, ∀ f ∈ ((fun i => if i = 0 then [0, 1, 2] else [3, 1, 4]) c : List ℕ), f < 5)
    ∧ SameFacets (parentCells [(4, 2), (2, 0)]) (fun i => if i = 0 then [0, 1, 2] else [3, 1, 4])
      (fun c => if c = 2 then [15, 6, 9] else [7, 6, 20])
    ∧ facetMapPy (facetMap 5 (meshToSub 7 (parentCells [(4, 2), (2, 0)])) (fun i => if i = 0 then [0, 1, 2] else [3, 1, 4])
        [(4, 2), (2, 0)]) (parentCells [(4, 2), (2, 0)]) (fun c => if c = 2 then [15, 6, 9] else [7, 6, 20])
        [[4, -1], [0, 4]] = [[20, -1], [15, 20]] := by
  refine ⟨by decide, fun c => ?_, fun c => ?_, ?_, by decide⟩
  · by_cases h : c = 0 <;> simp [h]
  · by_cases h : c = 0 <;> simp [h]
  · have hc : parentCells [(4, 2), (2, 0)] = [2, 4] := by decide
    intro i j hi hj l l' f h1 h2
    simp only [hc] at hi hj ⊢
    simp only [List.length_cons, List.length_nil] at hi hj
    have hl : l < 3 := by
      have := (List.getElem?_eq_some_iff.mp h1).1
      interval_cases i <;> simpa using this
    have hl' : l' < 3 := by
      have := (List.getElem?_eq_some_iff.mp h2).1
      interval_cases j <;> simpa using this
    interval_cases i <;> interval_cases j <;> interval_cases l <;> interval_cases l' <;> simp at h1 h2 ⊢ <;> omega

/-! ### C150 -/

theorem insertBy_first {α : Type} (key : α → ℤ) (a : α) (l : List α) (h : ∀ b ∈ l, key a ≤ key b) :
    insertBy key a l = a :: l := by
  cases l with
  | nil => rfl
  | cons b l =>
    rw [insertBy, if_pos (h b (by simp))]

theorem stableSort_of_sorted {α : Type} (key : α → ℤ) (l : List α) (h : l.Pairwise (fun a b => key a ≤ key b)) :
    stableSort key l = l := by
  induction l with
  | nil => rfl
  | cons a l ih =>
    have h' := List.pairwise_cons.mp h
    rw [stableSort, ih h'.2, insertBy_first key a l h'.1]

theorem order_eq (cn : Conn) (facets flat : List ℕ) (hconn : ∀ f ∈ facets, f ∈ cn.c2f (cn.f2c f))
    (h : activeEntities cn facets .exteriorFacet = .ok flat) :
    facetIndicesFromPair cn flat = stableSort (fun f => (cn.f2c f : ℤ)) facets := by
  obtain rfl := Except.ok.inj h
  rw [facetIndices_flatten, ← map_stableSort (fun p : ℕ × ℕ => (p.1 : ℤ)) (facetPair cn) facets, List.map_map]
  conv_rhs => rw [← List.map_id (stableSort (fun f => (cn.f2c f : ℤ)) facets)]
  refine List.map_congr_left (fun f hf => ?_)
  have hf' : f ∈ facets := mem_stableSort.mp hf
  have hlt := List.idxOf_lt_length_of_mem (hconn f hf')
  simp only [Function.comp, facetPair, id]
  rw [List.getD_eq_getElem _ _ hlt, List.getElem_idxOf hlt]

noncomputable section

/-- C150: if the cells of the contact facets, in the order of the facets, are in ascending order, `nitsche_rigid_surface`
uses the vector to the facet of the rigid surface found for the contact facet the point lies on, and zero away from the
contact surface. -/
theorem C150_gap_partial (cn : Conn) (facets : List ℕ) (hconn : ∀ f ∈ facets, f ∈ cn.c2f (cn.f2c f))
    (row : ℕ → List ℤ) (lookup : List (List ℤ)) (hrows : Rows cn facets row lookup)
    (hsorted : facets.Pairwise (fun f g => cn.f2c f ≤ cn.f2c g))
    (closest : (ℕ → ℝ) → ℕ) (dist : ℤ → (ℕ → ℝ) → ℕ → ℝ) (x : ℕ → ℝ) (hx : closest x ∈ facets) :
    rigidGap facets lookup closest dist x = intendedGap row closest dist x := by
  obtain ⟨flat, h1, rfl⟩ := hrows
  rw [order_eq cn facets flat hconn h1, stableSort_of_sorted _ _ (hsorted.imp (fun h => Int.ofNat_le.mpr h))]
  unfold rigidGap intendedGap
  have hlt := List.idxOf_lt_length_of_mem hx
  have e : (facets.map row).getD (facets.idxOf (closest x)) [] = row (closest x) := by
    rw [List.getD_eq_getElem _ _ (by simpa using hlt), List.getElem_map, List.getElem_idxOf hlt]
  simp only [e]

/-- What happens otherwise: for two facets `f < g` whose cells are numbered the other way round, the points of `f` get
the vector to the facet found for `g`. -/
theorem C150_swapped (cn : Conn) (f g : ℕ) (hfg : f < g) (hf : f ∈ cn.c2f (cn.f2c f)) (hg : g ∈ cn.c2f (cn.f2c g))
    (hcell : cn.f2c g < cn.f2c f) (row : ℕ → List ℤ) (lookup : List (List ℤ)) (hrows : Rows cn [f, g] row lookup)
    (closest : (ℕ → ℝ) → ℕ) (dist : ℤ → (ℕ → ℝ) → ℕ → ℝ) (x : ℕ → ℝ) (hx : closest x = f)
    (hon : ∀ i < 3, dist f x i = 0) :
    rigidGap [f, g] lookup closest dist x = dist ((row g).headD 0) x := by
  obtain ⟨flat, h1, rfl⟩ := hrows
  have hconn : ∀ k ∈ [f, g], k ∈ cn.c2f (cn.f2c k) := by
    intro k hk
    rcases List.mem_cons.mp hk with rfl | hk
    · exact hf
    · rw [List.mem_singleton.mp hk]; exact hg
  have hs : stableSort (fun k => (cn.f2c k : ℤ)) [f, g] = [g, f] := by
    have : ¬((cn.f2c f : ℤ) ≤ cn.f2c g) := by omega
    simp [stableSort, insertBy, this]
  have h0 : ∑ i ∈ range 3, dist (f : ℤ) x i ^ 2 = 0 :=
    sum_eq_zero (fun i hi => by rw [hon i (mem_range.mp hi)]; norm_num)
  rw [order_eq cn [f, g] flat hconn h1, hs]
  unfold rigidGap
  simp only [hx, h0, Real.sqrt_zero]
  rw [if_pos (by positivity)]
  simp

/-- Facets 3 and 7 of the elastic body (cells 1 and 0), one and two units above facets 13 and 17 of the rigid one. -/
def exDist (f : ℤ) (_ : ℕ → ℝ) (i : ℕ) : ℝ := if i = 1 ∧ f = 13 then -1 else if i = 1 ∧ f = 17 then -2 else 0

/-- The facets found for the facets of the elastic body. -/
def exRow (f : ℕ) : List ℤ := if f = 3 then [13] else [17]

theorem exRows : Rows exConn [3, 7] exRow [[17], [13]] := ⟨[0, 1, 1, 0], by decide +kernel, by decide +kernel⟩

/-- C150 fails in general: the index of a facet in the mesh tags is used for the contact map, whose rows are sorted by
cells.  Here the gap at a point of facet 3 is 2 instead of 1. -/
theorem C150_violated :
    ∃ (cn : Conn) (facets : List ℕ) (row : ℕ → List ℤ) (lookup : List (List ℤ)) (closest : (ℕ → ℝ) → ℕ)
      (dist : ℤ → (ℕ → ℝ) → ℕ → ℝ) (x : ℕ → ℝ),
      facets.Pairwise (· < ·) ∧ (∀ f ∈ facets, f ∈ cn.c2f (cn.f2c f)) ∧ Rows cn facets row lookup ∧ closest x ∈ facets
      ∧ rigidGap facets lookup closest dist x ≠ intendedGap row closest dist x := by
  refine ⟨exConn, [3, 7], exRow, [[17], [13]], fun _ => 3, exDist, 0, by decide, by decide, exRows, by decide, fun h => ?_⟩
  rw [C150_swapped exConn 3 7 (by norm_num) (by decide) (by decide) (by decide) exRow _ exRows (fun _ => 3) exDist 0 rfl
    (fun i _ => by simp [exDist])] at h
  have h1 := congrFun h 1
  have h2 : ∑ i ∈ range 3, exDist ((3 : ℕ) : ℤ) 0 i ^ 2 = 0 := sum_eq_zero (fun i _ => by simp [exDist])
  unfold intendedGap at h1
  rw [h2, Real.sqrt_zero, if_pos (by positivity)] at h1
  simp [exRow, exDist] at h1

/-- The hypotheses of C150 hold for facets 7 and 9 of cells 0 and 1. -/
example : (∀ f ∈ [7, 9], f ∈ exConn.c2f (exConn.f2c f)) ∧ Rows exConn [7, 9] exRow [[17], [17]]
    ∧ [7, 9].Pairwise (fun f g => exConn.f2c f ≤ exConn.f2c g) ∧ 9 ∈ [7, 9]
    ∧ intendedGap exRow (fun _ => 9) exDist 0 1 = -2 := by
  refine ⟨by decide, ⟨[0, 1, 1, 2], by decide +kernel, by decide +kernel⟩, by decide, by decide, ?_⟩
  have h2 : ∑ i ∈ range 3, exDist ((9 : ℕ) : ℤ) 0 i ^ 2 = 0 := sum_eq_zero (fun i _ => by simp [exDist])
  unfold intendedGap
  rw [h2, Real.sqrt_zero, if_pos (by positivity)]
  simp [exRow, exDist]

end

end Verif.RigidGap
