import Verif.Lemmas.Entities

/-! Properties C06, C07, C08, C11, C12, C17, C18. -/

namespace Verif.Entities

open List

/-! ### C06 -/

/-- C06, main case.  For every non-empty list of non-negative cells: the distinct cells come out
strictly increasing, the offsets run from 0 to the number of entries, and the part of the
permutation between offsets `k` and `k+1` is exactly the list of positions of the `k`-th cell, in
increasing order. -/
theorem C06_sorted (cells : List ℤ) (perm : List ℕ) (hne : cells ≠ []) (hnn : ∀ c ∈ cells, 0 ≤ c) :
    ∃ r, sortCells cells perm = .ok r
      ∧ r.unique.Pairwise (· < ·) ∧ (∀ c, c ∈ r.unique ↔ c ∈ cells)
      ∧ r.perm.Perm (range cells.length)
      ∧ r.offsets.length = r.unique.length + 1
      ∧ r.offsets.getD 0 1 = 0 ∧ r.offsets.getD r.unique.length 0 = cells.length
      ∧ ∀ k (hk : k < r.unique.length),
          (r.perm.take (r.offsets.getD (k + 1) 0)).drop (r.offsets.getD k 0)
            = (range cells.length).filter (fun i => decide (cells.getD i 0 = r.unique[k])) := by
  have hlen : cells.length ≠ 0 := fun h => hne (List.length_eq_zero_iff.mp h)
  have htmp : uniqueAdj cells ≠ [-1] := by
    intro h
    have : (-1 : ℤ) ∈ cells := mem_uniqueAdj.mp (by rw [h]; simp)
    have := hnn _ this
    omega
  have hany : ¬ ((uniqueAdj cells).any (· < 0)) = true := by
    simp only [List.any_eq_true, not_exists, not_and, mem_uniqueAdj, decide_eq_true_eq]
    intro c hc; exact not_lt.mpr (hnn c hc)
  set key : ℕ → ℤ := fun i => cells.getD i 0 with hkey
  set p := stableSort key (range cells.length) with hp
  set s := p.map key with hs
  have hps : p.Pairwise (fun a b => key a ≤ key b) := stableSort_sorted _ _
  have hss : s.Pairwise (· ≤ ·) := List.pairwise_map.mpr hps
  have hsperm : s.Perm cells := by
    have h1 := (stableSort_perm key (range cells.length)).map key
    rw [map_getD_range] at h1
    exact h1
  have hsne : s ≠ [] := by
    intro h; rw [h] at hsperm; exact hne hsperm.symm.eq_nil
  have hslen : s.length = cells.length := hsperm.length_eq
  have hbl := bounds_length s hsne
  have hoff : (offsetLoop s).take ((uniqueAdj s).length + 1) = 0 :: bounds s := by
    rw [offsetLoop_eq s hsne]
    have hcl : (uniqueAdj s).length = (changes s (s.length - 1)).length + 1 := by
      rw [← hbl]; simp [bounds]
    rw [hcl]
    rw [List.take_append_of_le_length (by simp)]
    have : (changes s (s.length - 1)).length + 1 + 1
        = ((0 :: changes s (s.length - 1)) ++ [s.length]).length := by simp
    rw [this, List.take_length]
    simp [bounds]
  refine ⟨⟨uniqueAdj s, 0 :: bounds s, p⟩, ?_, ?_, ?_, ?_, ?_, ?_, ?_, ?_⟩
  · simp only [sortCells, if_neg hlen, if_neg htmp, if_neg hany]
    simp only [← hkey, ← hp, ← hs, hoff]
  · exact uniqueAdj_strict hss
  · intro c; simp only [mem_uniqueAdj]; exact hsperm.mem_iff
  · exact stableSort_perm _ _
  · simp [hbl]
  · simp
  · simp only
    have hpos : 0 < (uniqueAdj s).length := by
      rw [← hbl]; simp [bounds]
    obtain ⟨u, hu⟩ : ∃ u, (uniqueAdj s).length = u + 1 := ⟨_, (Nat.succ_pred_eq_of_pos hpos).symm⟩
    rw [hu, List.getD_cons_succ]
    have hcl : u = (changes s (s.length - 1)).length := by
      have : (bounds s).length = u + 1 := by rw [hbl, hu]
      simp [bounds] at this; omega
    unfold bounds
    rw [hcl, List.getD_append_right _ _ _ _ le_rfl]
    simp [hslen]
  · intro k hk
    simp only at hk ⊢
    have := groups key p hps k hk
    rw [this, ← stableSort_filter key (range cells.length) ((uniqueAdj s)[k])]
    congr 1
    funext a
    rw [List.getD_eq_getElem _ _ hk]

/-- C06, remaining cases: an empty list, a list of only -1, and any other list containing a
negative value. -/
theorem C06_special (cells : List ℤ) (perm : List ℕ) :
    (cells = [] → sortCells cells perm = .ok ⟨[], [0, 0], perm⟩)
    ∧ (cells ≠ [] → (∀ c ∈ cells, c = -1) →
        sortCells cells perm = .ok ⟨[-1], [0, cells.length], perm⟩)
    ∧ ((∃ c ∈ cells, c < 0) → (∃ c ∈ cells, c ≠ -1) → sortCells cells perm = .error .runtimeError) := by
  refine ⟨?_, ?_, ?_⟩
  · rintro rfl; rfl
  · intro hne hall
    have hlen : cells.length ≠ 0 := fun h => hne (List.length_eq_zero_iff.mp h)
    have hu : uniqueAdj cells = [-1] := by
      clear hlen
      induction cells with
      | nil => exact absurd rfl hne
      | cons x l ih =>
        cases l with
        | nil => simp [hall x (by simp)]
        | cons y l =>
          have hx := hall x (by simp)
          have hy := hall y (by simp)
          rw [uniqueAdj_cons_cons, if_pos (hx.trans hy.symm)]
          exact ih (by simp) (fun c hc => hall c (by simp [hc]))
    simp [sortCells, hlen, hu]
  · rintro ⟨c, hc, hneg⟩ ⟨d, hd, hd1⟩
    have hlen : cells.length ≠ 0 := by
      intro h; rw [List.length_eq_zero_iff.mp h] at hc; simp at hc
    have htmp : uniqueAdj cells ≠ [-1] := by
      intro h
      have : d ∈ uniqueAdj cells := mem_uniqueAdj.mpr hd
      rw [h] at this; simp at this; exact hd1 this
    have hany : ((uniqueAdj cells).any (· < 0)) = true := by
      rw [List.any_eq_true]; exact ⟨c, mem_uniqueAdj.mpr hc, by simpa using hneg⟩
    simp only [sortCells, if_neg hlen, if_neg htmp, if_pos hany]

/-- Concrete case: three cells, interleaved. -/
example : sortCells [5, 2, 5, 7, 2] [9, 9, 9, 9, 9] = .ok ⟨[2, 5, 7], [0, 2, 4, 5], [1, 4, 0, 2, 3]⟩ := by
  decide +kernel

/-! ### C07 -/

/-- The (cell, local index) pair denotes the facet. -/
def Denotes (cn : Conn) (p : ℕ × ℕ) (facet : ℕ) : Prop :=
  p.1 = cn.f2c facet ∧ (cn.c2f p.1)[p.2]? = some facet

theorem activeEntities_facets (cn : Conn) (facets : List ℕ) (hconn : ∀ f ∈ facets, f ∈ cn.c2f (cn.f2c f)) :
    ∃ pairs order, activeEntities cn facets .exteriorFacet = .ok (flatten pairs)
      ∧ order.Perm facets ∧ List.Forall₂ (Denotes cn) pairs order
      ∧ pairs.Pairwise (fun p q => p.1 ≤ q.1)
      ∧ ∀ c, order.filter (fun f => decide (cn.f2c f = c))
          = facets.filter (fun f => decide (cn.f2c f = c)) := by
  set key : ℕ × ℕ → ℤ := fun p => (p.1 : ℤ)
  set key' : ℕ → ℤ := fun f => (cn.f2c f : ℤ)
  have hmap : stableSort key (facets.map (facetPair cn))
      = (stableSort key' facets).map (facetPair cn) := by
    exact (map_stableSort key (facetPair cn) facets).symm
  refine ⟨stableSort key (facets.map (facetPair cn)), stableSort key' facets, rfl,
    stableSort_perm _ _, ?_, ?_, ?_⟩
  · rw [hmap, List.forall₂_map_left_iff]
    rw [List.forall₂_same]
    intro f hf
    have hf' : f ∈ facets := by simpa using hf
    refine ⟨rfl, ?_⟩
    have := hconn f hf'
    simp only [facetPair]
    have hlt := List.idxOf_lt_length_of_mem this
    rw [List.getElem?_eq_getElem hlt, List.getElem_idxOf hlt]
  · have := stableSort_sorted key (facets.map (facetPair cn))
    exact this.imp (fun h => Int.ofNat_le.mp h)
  · intro c
    have := stableSort_filter key' facets (c : ℤ)
    simpa [key', Int.natCast_inj] using this

theorem flatten_flatMap (l : List (ℕ × ℕ)) : flatten l = l.flatMap (fun p => [p.1, p.2]) := by
  induction l with
  | nil => rfl
  | cons p l ih => obtain ⟨c, f⟩ := p; rw [flatten, ih]; rfl

/-- C07, exterior facets: the result is a list of pairs, one per input facet, each denoting its
facet, ordered by cell, and pairs of one cell in input order. -/
theorem C07_facets (cn : Conn) (facets : List ℕ) (hconn : ∀ f ∈ facets, f ∈ cn.c2f (cn.f2c f)) :
    ∃ pairs order, activeEntities cn facets .exteriorFacet = .ok (pairs.flatMap (fun p => [p.1, p.2]))
      ∧ order.Perm facets ∧ List.Forall₂ (Denotes cn) pairs order
      ∧ pairs.Pairwise (fun p q => p.1 ≤ q.1)
      ∧ ∀ c, order.filter (fun f => decide (cn.f2c f = c))
          = facets.filter (fun f => decide (cn.f2c f = c)) :=
  by
  simp only [← flatten_flatMap]
  exact activeEntities_facets cn facets hconn

/-- C07, cells and unsupported integral types. -/
theorem C07_cells_and_errors (cn : Conn) (entities : List ℕ) :
    (∃ r, activeEntities cn entities .cell = .ok r ∧ r.Perm entities ∧ r.Pairwise (· ≤ ·))
    ∧ activeEntities cn entities .interiorFacet = .error .invalidArgument
    ∧ activeEntities cn entities .vertex = .error .invalidArgument := by
  refine ⟨⟨_, rfl, stableSort_perm _ _, ?_⟩, rfl, rfl⟩
  exact stableSort_nat_sorted _

/-- Two triangles; facet 7 belongs to cell 0 (local index 1), facets 3 and 9 to cell 1. -/
def exConn : Conn := ⟨fun f => if f = 7 then 0 else 1, fun c => if c = 0 then [5, 7, 4] else [3, 8, 9]⟩

example : (∀ f ∈ [9, 7, 3], f ∈ exConn.c2f (exConn.f2c f))
    ∧ activeEntities exConn [9, 7, 3] .exteriorFacet = .ok [0, 1, 1, 2, 1, 0] := by
  decide +kernel

/-! ### C08, C18 -/

theorem pyActiveEntities_facets (cn : Conn) (sizeLocal : ℕ) (facets : List ℕ) :
    ∃ pairs n, pyActiveEntities cn sizeLocal facets .exteriorFacet = .ok (flatten pairs, n)
      ∧ activeEntities cn facets .exteriorFacet = .ok (flatten pairs)
      ∧ pairs.take n = pairs.filter (fun p => decide (p.1 < sizeLocal))
      ∧ pairs.drop n = pairs.filter (fun p => !decide (p.1 < sizeLocal)) := by
  have hs := (stableSort_sorted (fun p : ℕ × ℕ => (p.1 : ℤ)) (facets.map (facetPair cn))).imp
    (S := fun a b : ℕ × ℕ => a.1 ≤ b.1) (fun h => Int.ofNat_le.mp h)
  set pairs := stableSort (fun p : ℕ × ℕ => (p.1 : ℤ)) (facets.map (facetPair cn)) with hp
  have h := countP_prefix (fun p : ℕ × ℕ => p.1) sizeLocal pairs hs
  refine ⟨pairs, pairs.countP (fun p => decide (p.1 < sizeLocal)), ?_, rfl, h.1, h.2⟩
  have : scanBack (flatten pairs) sizeLocal ((flatten pairs).length / 2)
      = pairs.countP (fun p => decide (p.1 < sizeLocal)) := by
    rw [flatten_length, Nat.mul_div_cancel_left _ (by decide)]
    exact scanBack_eq_countP pairs sizeLocal hs
  simp only [pyActiveEntities, activeEntities, ← hp, this]

/-- C08, facets: `num_local` is the number of facets of owned cells and these come first. -/
theorem C08_num_local_facets (cn : Conn) (sizeLocal : ℕ) (facets : List ℕ) :
    ∃ (pairs : List (ℕ × ℕ)) (n : ℕ), pyActiveEntities cn sizeLocal facets .exteriorFacet = .ok (pairs.flatMap (fun p => [p.1, p.2]), n)
      ∧ activeEntities cn facets .exteriorFacet = .ok (pairs.flatMap (fun p => [p.1, p.2]))
      ∧ pairs.take n = pairs.filter (fun p => decide (p.1 < sizeLocal))
      ∧ pairs.drop n = pairs.filter (fun p => !decide (p.1 < sizeLocal)) :=
  by
  simp only [← flatten_flatMap]
  exact pyActiveEntities_facets cn sizeLocal facets

/-- C08, cells: exactly what the code computes is the number of cells with index `≤ size_local`.
Partial: the property asks for `< size_local`; the two agree iff the first ghost cell (index
`size_local`) is not in the list. -/
theorem C08_num_local_cells_partial (cn : Conn) (sizeLocal : ℕ) (cells : List ℕ)
    (h : sizeLocal ∉ cells) :
    ∃ a n, pyActiveEntities cn sizeLocal cells .cell = .ok (a, n)
      ∧ a.Perm cells ∧ a.take n = a.filter (fun c => decide (c < sizeLocal))
      ∧ n = cells.countP (fun c => decide (c < sizeLocal)) := by
  have hs := (stableSort_sorted (fun c : ℕ => (c : ℤ)) cells).imp
    (S := fun a b : ℕ => a ≤ b) (fun h => Int.ofNat_le.mp h)
  have hperm := stableSort_perm (fun c : ℕ => (c : ℤ)) cells
  set a := stableSort (fun c : ℕ => (c : ℤ)) cells with ha
  have h' : sizeLocal ∉ a := fun hc => h (hperm.mem_iff.mp hc)
  have hub : ∀ l : List ℕ, l.Pairwise (· ≤ ·) → sizeLocal ∉ l →
      upperBound l sizeLocal = l.countP (fun c => decide (c < sizeLocal)) := by
    intro l
    induction l with
    | nil => intros; rfl
    | cons x l ih =>
      intro hl hn
      have hl' := List.pairwise_cons.mp hl
      have hne : sizeLocal ≠ x := fun hc => hn (by simp [hc])
      by_cases hx : x < sizeLocal
      · have := ih hl'.2 (fun hc => hn (by simp [hc]))
        unfold upperBound at this ⊢
        rw [List.takeWhile_cons_of_pos (by simp; omega)]
        simp [hx, this]
      · unfold upperBound
        rw [List.takeWhile_cons_of_neg (by simp; omega)]
        have : (x :: l).countP (fun c => decide (c < sizeLocal)) = 0 := by
          rw [List.countP_eq_zero]
          intro y hy
          rcases List.mem_cons.mp hy with rfl | hy
          · simpa using hx
          · have := hl'.1 y hy; simp; omega
        simp [this]
  refine ⟨a, upperBound a sizeLocal, ?_, hperm, ?_, ?_⟩
  · simp only [pyActiveEntities, activeEntities, ← ha]
  · rw [hub a hs h']; exact (countP_prefix (fun c : ℕ => c) sizeLocal a hs).1
  · rw [hub a hs h']; exact hperm.countP_eq _

/-- C08 is violated for cells: with two owned cells, the ghost cell 2 is counted as local. -/
theorem C08_num_local_cells_violated :
    ∃ (cn : Conn) (a : List ℕ) (n : ℕ), pyActiveEntities cn 2 [0, 1, 2, 3] .cell = .ok (a, n)
      ∧ n ≠ ([0, 1, 2, 3].countP (fun c => decide (c < 2))) ∧ a[n - 1]? = some 2 :=
  ⟨exConn, [0, 1, 2, 3], 3, by decide +kernel, by decide, by decide⟩

example : (5 : ℕ) ∉ [6, 1, 9] ∧ pyActiveEntities exConn 5 [6, 1, 9] .cell = .ok ([1, 6, 9], 1) := by
  decide +kernel

theorem localFacets_spec (pairs : List (ℕ × ℕ)) (numCells : ℕ)
    (hs : pairs.Pairwise (fun p q => p.1 ≤ q.1)) :
    localFacets (flatten pairs) numCells = pairs.countP (fun p => decide (p.1 < numCells))
      ∧ (∀ p ∈ pairs.take (localFacets (flatten pairs) numCells), p.1 < numCells)
      ∧ (∀ p ∈ pairs.drop (localFacets (flatten pairs) numCells), ¬ p.1 < numCells) := by
  have h : localFacets (flatten pairs) numCells = pairs.countP (fun p => decide (p.1 < numCells)) := by
    unfold localFacets
    rw [flatten_length, Nat.mul_div_cancel_left _ (by decide)]
    exact scanBack_eq_countP pairs numCells hs
  obtain ⟨h1, h2⟩ := countP_prefix (fun p : ℕ × ℕ => p.1) numCells pairs hs
  refine ⟨h, ?_, ?_⟩
  · rw [h, h1]; intro p hp; simpa using (List.mem_filter.mp hp).2
  · rw [h, h2]; intro p hp; simpa using (List.mem_filter.mp hp).2

/-- C18: for every surface stored as pairs ordered by cell, `local_facets` is the number of pairs
with an owned cell, and these pairs are the first ones. -/
theorem C18_local_facets (pairs : List (ℕ × ℕ)) (numCells : ℕ)
    (hs : pairs.Pairwise (fun p q => p.1 ≤ q.1)) :
    localFacets (pairs.flatMap (fun p => [p.1, p.2])) numCells = pairs.countP (fun p => decide (p.1 < numCells))
      ∧ (∀ p ∈ pairs.take (localFacets (pairs.flatMap (fun p => [p.1, p.2])) numCells), p.1 < numCells)
      ∧ (∀ p ∈ pairs.drop (localFacets (pairs.flatMap (fun p => [p.1, p.2])) numCells), ¬ p.1 < numCells) :=
  by
  simp only [← flatten_flatMap]
  exact localFacets_spec pairs numCells hs

example : [(0, 1), (2, 0), (2, 2), (5, 1)].Pairwise (fun p q : ℕ × ℕ => p.1 ≤ q.1)
    ∧ localFacets (flatten [(0, 1), (2, 0), (2, 2), (5, 1)]) 3 = 3 := by decide

/-! ### C11 -/

theorem facetIndices_flatten (cn : Conn) (pairs : List (ℕ × ℕ)) :
    facetIndicesFromPair cn (flatten pairs) = pairs.map (fun p => (cn.c2f p.1).getD p.2 0) := by
  induction pairs with
  | nil => rfl
  | cons p l ih => obtain ⟨c, f⟩ := p; simp [flatten, facetIndicesFromPair, ih]

/-- C11: converting facets to pairs and back returns the same facets (ordered by cell). -/
theorem C11_round_trip (cn : Conn) (facets : List ℕ) (hconn : ∀ f ∈ facets, f ∈ cn.c2f (cn.f2c f)) :
    ∃ flat, activeEntities cn facets .exteriorFacet = .ok flat
      ∧ (facetIndicesFromPair cn flat).Perm facets
      ∧ (facetIndicesFromPair cn flat).Pairwise (fun f g => cn.f2c f ≤ cn.f2c g) := by
  obtain ⟨pairs, order, h1, h2, h3, h4, -⟩ := activeEntities_facets cn facets hconn
  have heq : facetIndicesFromPair cn (flatten pairs) = order := by
    rw [facetIndices_flatten]
    clear h1 h2 h4
    induction h3 with
    | nil => rfl
    | cons hd _ ih =>
      simp only [List.map_cons, ih]
      congr 1
      rw [List.getD_eq_getElem?_getD, hd.2]; rfl
  refine ⟨flatten pairs, h1, by rw [heq]; exact h2, ?_⟩
  rw [heq]
  have : order.map cn.f2c = pairs.map Prod.fst := by
    clear h1 h2 h4 heq
    induction h3 with
    | nil => rfl
    | cons hd _ ih => simp [ih, hd.1]
  rw [← List.pairwise_map (R := (· ≤ ·)), this, List.pairwise_map]
  exact h4

example : facetIndicesFromPair exConn [0, 1, 1, 2, 1, 0] = [7, 9, 3] := by decide +kernel

/-! ### C12 -/

/-- C12: the linked cells of a facet are strictly increasing and are exactly the parent cells of the
linked submesh facets; points with a negative facet index are ignored. -/
theorem C12_linked_cells (s2p pc : ℕ → ℕ) (facets : List ℤ) :
    (linkedCells s2p pc facets).Pairwise (· < ·)
      ∧ ∀ c, c ∈ linkedCells s2p pc facets ↔ ∃ f : ℕ, (f : ℤ) ∈ facets ∧ pc (s2p f) = c := by
  constructor
  · apply uniqueAdj_strict
    exact stableSort_nat_sorted _
  · intro c
    unfold linkedCells
    rw [linkedCells_raw]
    simp only [mem_uniqueAdj, mem_stableSort, List.nil_append, List.mem_map, List.mem_filter,
      decide_eq_true_eq]
    constructor
    · rintro ⟨f, ⟨hf, hnn⟩, rfl⟩
      exact ⟨f.toNat, by rwa [Int.toNat_of_nonneg hnn], rfl⟩
    · rintro ⟨f, hf, rfl⟩
      exact ⟨f, ⟨hf, by omega⟩, by simp⟩

/-- C12: the result is unique: no other strictly increasing list has these elements (so the order
of quadrature points and repetitions cannot matter). -/
theorem C12_order_independent (s2p pc : ℕ → ℕ) (l m : List ℤ) (h : ∀ f : ℕ, (f : ℤ) ∈ l ↔ (f : ℤ) ∈ m) :
    linkedCells s2p pc l = linkedCells s2p pc m := by
  apply strict_ext (C12_linked_cells s2p pc l).1 (C12_linked_cells s2p pc m).1
  intro c
  rw [(C12_linked_cells s2p pc l).2, (C12_linked_cells s2p pc m).2]
  simp only [h]

example : linkedCells (fun f => f / 2) (fun c => 10 * c) [5, -1, 0, 4, -1, 1] = [0, 20] := by
  decide +kernel

/-! ### C17 -/

/-- Flattened list of (marker index, tag) in the order of `surfaces.array()`. -/
def tagList (links : ℕ → List ℤ) (nMarkers : ℕ) : List (ℕ × ℤ) :=
  (range nMarkers).flatMap (fun s => (links s).map (fun t => (s, t)))

/-- C17: surface `k` of the resulting adjacency list consists of the active (cell, local facet)
pairs of the `k`-th entry of the flattened `surfaces` array. -/
theorem C17_surfaces (cn : Conn) (find : ℕ → ℤ → List ℕ) (links : ℕ → List ℤ) (nMarkers : ℕ) :
    ∃ data offsets, createCellFacetPairs cn find links nMarkers = .ok (data, offsets)
      ∧ offsets.length = (tagList links nMarkers).length + 1
      ∧ offsets.getLastD 0 = data.length
      ∧ ∀ k (hk : k < (tagList links nMarkers).length),
          activeEntities cn (find (tagList links nMarkers)[k].1 (tagList links nMarkers)[k].2)
              .exteriorFacet
            = .ok ((data.take (offsets.getD (k + 1) 0)).drop (offsets.getD k 0)) := by
  -- generalise over the list of (marker, tag) pairs processed so far
  let step : List ℕ × List ℕ → ℕ × ℤ → Except Err (List ℕ × List ℕ) := fun st t => do
    let pairs ← activeEntities cn (find t.1 t.2) .exteriorFacet
    pure (st.1 ++ pairs, st.2 ++ [st.2.getLastD 0 + pairs.length])
  let P : List (ℕ × ℤ) → List ℕ × List ℕ → Prop := fun ts st =>
    st.2.length = ts.length + 1 ∧ st.2.getLastD 0 = st.1.length
      ∧ (∀ k, k < st.2.length → st.2.getD k 0 ≤ st.1.length)
      ∧ ∀ k (hk : k < ts.length), activeEntities cn (find ts[k].1 ts[k].2) .exteriorFacet
            = .ok ((st.1.take (st.2.getD (k + 1) 0)).drop (st.2.getD k 0))
  have hstep : ∀ ts st t, P ts st → ∃ st', step st t = .ok st' ∧ P (ts ++ [t]) st' := by
    rintro ts ⟨d, o⟩ ⟨s, t⟩ ⟨h1, h2, h3, h4⟩
    simp only at h1 h2 h3 h4
    obtain ⟨pairs, hpairs⟩ : ∃ pairs, activeEntities cn (find s t) .exteriorFacet = .ok pairs :=
      ⟨_, rfl⟩
    refine ⟨(d ++ pairs, o ++ [o.getLastD 0 + pairs.length]), ?_, ?_, ?_, ?_, ?_⟩
    · simp only [step, hpairs]; rfl
    · simp [h1]
    · have : (o ++ [o.getLastD 0 + pairs.length]).getLastD 0 = o.getLastD 0 + pairs.length := by
        simp
      rw [this, h2, List.length_append]
    · intro k hk
      simp only [List.length_append, List.length_cons, List.length_nil] at hk ⊢
      by_cases hk' : k < o.length
      · rw [List.getD_append _ _ _ _ hk']; have := h3 k hk'; omega
      · have : k = o.length := by omega
        subst this
        rw [List.getD_append_right _ _ _ _ le_rfl, h2]; simp
    · intro k hk
      simp only [List.length_append, List.length_cons, List.length_nil] at hk
      by_cases hk' : k < ts.length
      · simp only [List.getElem_append_left hk']
        rw [h4 k hk', List.getD_append _ _ _ _ (by omega), List.getD_append _ _ _ _ (by omega),
          List.take_append_of_le_length (h3 _ (by omega))]
      · have : k = ts.length := by omega
        subst this
        simp only [List.getElem_append_right le_rfl, Nat.sub_self, List.getElem_cons_zero]
        rw [hpairs]
        have e1 : (o ++ [o.getLastD 0 + pairs.length]).getD (ts.length + 1) 0
            = d.length + pairs.length := by
          rw [← h1, List.getD_append_right _ _ _ _ le_rfl, h2]; simp
        have e2 : (o ++ [o.getLastD 0 + pairs.length]).getD ts.length 0 = d.length := by
          rw [List.getD_append _ _ _ _ (by omega)]
          rw [← h2]
          rw [List.getLastD_eq_getLast?, List.getLast?_eq_getElem?, h1]
          simp
        simp only [e1, e2]
        have : d.length + pairs.length = (d ++ pairs).length := by simp
        rw [this, List.take_length, List.drop_left]
  have hfold : ∀ (new ts : List (ℕ × ℤ)) st, P ts st →
      ∃ st', new.foldlM step st = .ok st' ∧ P (ts ++ new) st' := by
    intro new
    induction new with
    | nil => intro ts st h; exact ⟨st, rfl, by simpa using h⟩
    | cons t new ih =>
      intro ts st h
      obtain ⟨st1, hs1, hp1⟩ := hstep ts st t h
      obtain ⟨st2, hs2, hp2⟩ := ih (ts ++ [t]) st1 hp1
      refine ⟨st2, ?_, by simpa using hp2⟩
      rw [List.foldlM_cons, hs1]
      exact hs2
  have hcode : createCellFacetPairs cn find links nMarkers
      = (tagList links nMarkers).foldlM step ([], [0]) := by
    unfold createCellFacetPairs tagList
    generalize ([], [0]) = st0
    generalize range nMarkers = ms
    induction ms generalizing st0 with
    | nil => rfl
    | cons m ms ih =>
      rw [List.foldlM_cons, List.flatMap_cons, List.foldlM_append, List.foldlM_map]
      congr 1
      funext st
      exact ih st
  obtain ⟨⟨data, offsets⟩, h1, h2⟩ := hfold (tagList links nMarkers) [] ([], [0])
    ⟨rfl, rfl, by intro k hk; simp at hk; simp [hk], by intro k hk; simp at hk⟩
  refine ⟨data, offsets, by rw [hcode, h1], ?_, h2.2.1, ?_⟩
  · simpa using h2.1
  · simpa using h2.2.2.2

/-- C17: the marker constructor raises when the number of markers and of tag lists differ. -/
theorem C17_size_check (cn : Conn) (find : ℕ → ℤ → List ℕ) (links : ℕ → List ℤ) (n m : ℕ) :
    contactFromMarkers cn find links n m = .error .runtimeError ↔ n ≠ m := by
  obtain ⟨d, o, h, -⟩ := C17_surfaces cn find links n
  simp only [contactFromMarkers, h]
  by_cases hnm : n = m
  · subst hnm; simp [bind, Except.bind, pure, Except.pure]
  · simp [bind, Except.bind, hnm, throw, throwThe, MonadExceptOf.throw]

example : createCellFacetPairs exConn (fun _ t => if t = 1 then [9, 7] else [3]) (fun _ => [1, 2]) 1
    = .ok ([0, 1, 1, 2, 1, 0], [0, 4, 6]) := by decide +kernel

end Verif.Entities
