import Verif.Spec.ContactMesh
import Verif.Lemmas.ContactMesh
import Verif.Props.Ghosting
import Verif.Props.Search

/-! Properties C94-C96: `create_contact_mesh`. -/

namespace Verif.ContactMesh

open Verif.Ghosting Verif.Search

theorem flatten_locate {α : Type} (ls : List (List α)) (n : ℕ) (hn : n < ls.flatten.length) :
    ∃ r k, r < ls.length ∧ k < (ls.getD r []).length ∧ n = (ls.take r).flatten.length + k := by
  induction ls generalizing n with
  | nil => simp at hn
  | cons a ls ih =>
    rw [List.flatten_cons, List.length_append] at hn
    by_cases h : n < a.length
    · exact ⟨0, n, by simp, by simpa using h, by simp⟩
    · obtain ⟨r, k, h1, h2, h3⟩ := ih (n - a.length) (by omega)
      exact ⟨r + 1, k, by simpa using h1, by simpa using h2, by simp at h3 ⊢; omega⟩

/-- C94: the markers of the new mesh on a process. An entity of the new mesh is marked if and only if some
process of the input mesh marked an entity with the same vertices; its value is one of the values given
to such an entity, thus, if all processes agree, that value; the indices are sorted and unique, as
`MeshTags` requires. -/
theorem C94_markers (dim : ℕ) (hdim : 0 < dim) (procs : List Tags) (N : NewMesh) (out : List (ℕ × ℤ))
    (hverts : ∀ T ∈ procs, ∀ e ∈ T.idx, (T.vertices e).length = dim)
    (hvals : ∀ T ∈ procs, T.val.length = T.idx.length)
    (hnew : ∀ k < N.size dim, ∀ k' < N.size dim, (N.origin dim k).Perm (N.origin dim k') → k = k')
    (h : NewTags dim procs N out) :
    (out.map Prod.fst).Pairwise (· < ·) ∧
    (∀ k, k ∈ out.map Prod.fst ↔ k < N.size dim ∧ ∃ v, Marked procs N dim k v) ∧
    (∀ k v, (k, v) ∈ out → Marked procs N dim k v) ∧
    ((∀ k v v', Marked procs N dim k v → Marked procs N dim k v' → v = v') →
      ∀ k v, (k, v) ∈ out ↔ k < N.size dim ∧ Marked procs N dim k v) := by
  have hrow : ∀ r, r < (procs.map (entityRows dim)).length →
      ((procs.map (entityRows dim)).getD r []).length = dim * ((procs.map Tags.val).getD r []).length := by
    intro r hr
    rw [List.length_map] at hr
    rw [List.getD_eq_getElem _ _ (by simpa using hr), List.getD_eq_getElem _ _ (by simpa using hr),
      List.getElem_map, List.getElem_map,
      (entityRows_spec dim hdim _ (hverts _ (List.getElem_mem hr))).1, hvals _ (List.getElem_mem hr)]
  obtain ⟨hmain, hpos⟩ := copyToAll_spec (procs.map (entityRows dim)) (procs.map Tags.val) dim hdim
    (by simp) hrow
  set all := copyToAll (procs.map (entityRows dim)) (procs.map Tags.val) dim with hall
  have hlen : (newRows dim N).length = N.conn.length := by
    rw [newRows, sortRows_length, List.length_map]
  have hnrow : ∀ k, k < N.size dim → row dim (newRows dim N) k =
      stableSort (fun z : ℤ => z) (N.origin dim k) := by
    intro k hk
    rw [newRows, row_sortRows _ _ _ (by rw [List.length_map]; exact hk), row_map]; rfl
  have hsz : (newRows dim N).length / dim = N.size dim := by rw [hlen]; rfl
  have hsum : ∀ l : List Tags, (∀ T ∈ l, T ∈ procs) →
      ((l.map (entityRows dim)).flatten).length = dim * ((l.map Tags.val).flatten).length := by
    intro l hl
    induction l with
    | nil => simp
    | cons T l ih =>
      have hT := hl T (by simp)
      simp only [List.map_cons, List.flatten_cons, List.length_append]
      rw [ih (fun T' h' => hl T' (by simp [h'])), (entityRows_spec dim hdim T (hverts T hT)).1, hvals T hT]
      ring
  have hcount : all.1.length / dim = (procs.map Tags.val).flatten.length := by
    rw [hmain]; dsimp only
    rw [hsum procs (fun _ h => h), Nat.mul_div_cancel_left _ hdim]
  -- rows of the gathered data are the entities of the processes
  have hloc : ∀ n, n < all.1.length / dim → ∃ T ∈ procs, ∃ i, ∃ hi : i < T.idx.length,
      row dim all.1 n = stableSort (fun z : ℤ => z) (T.global T.idx[i]) ∧ all.2.getD n 0 = T.val.getD i 0 := by
    intro n hn
    rw [hcount] at hn
    obtain ⟨r, k, hr, hk, rfl⟩ := flatten_locate _ n hn
    have hp := hpos r (by simpa using hr) k hk
    dsimp only at hp
    rw [List.length_map] at hr
    have e1 : (procs.map Tags.val).getD r [] = (procs[r]).val := by
      rw [List.getD_eq_getElem _ _ (by simpa using hr), List.getElem_map]
    have e2 : (procs.map (entityRows dim)).getD r [] = entityRows dim procs[r] := by
      rw [List.getD_eq_getElem _ _ (by simpa using hr), List.getElem_map]
    rw [e1] at hk hp
    rw [e2] at hp
    have hm := List.getElem_mem hr
    have hk' : k < (procs[r]).idx.length := by rw [← hvals _ hm]; exact hk
    exact ⟨procs[r], hm, k, hk', by
      rw [hp.2, (entityRows_spec dim hdim _ (hverts _ hm)).2 k hk']; rfl, hp.1⟩
  have hloc' : ∀ T ∈ procs, ∀ i, ∀ hi : i < T.idx.length, ∃ n, n < all.1.length / dim ∧
      row dim all.1 n = stableSort (fun z : ℤ => z) (T.global T.idx[i]) ∧ all.2.getD n 0 = T.val.getD i 0 := by
    intro T hT i hi
    obtain ⟨r, hr, rfl⟩ := List.getElem_of_mem hT
    have e1 : (procs.map Tags.val).getD r [] = (procs[r]).val := by
      rw [List.getD_eq_getElem _ _ (by simpa using hr), List.getElem_map]
    have e2 : (procs.map (entityRows dim)).getD r [] = entityRows dim procs[r] := by
      rw [List.getD_eq_getElem _ _ (by simpa using hr), List.getElem_map]
    have hk : i < ((procs.map Tags.val).getD r []).length := by rw [e1, hvals _ hT]; exact hi
    have hp := hpos r (by simpa using hr) i hk
    dsimp only at hp
    rw [e1, e2] at hp
    refine ⟨_, ?_, by rw [hp.2, (entityRows_spec dim hdim _ (hverts _ hT)).2 i hi]; rfl, hp.1⟩
    rw [hcount, flatten_split (procs.map Tags.val) r (by simpa using hr)]
    simp only [List.length_append]
    omega
  have hdist : ∀ a b, a < (newRows dim N).length / dim → b < (newRows dim N).length / dim →
      row dim (newRows dim N) a = row dim (newRows dim N) b → a = b := by
    intro a b ha hb hab
    rw [hsz] at ha hb
    rw [hnrow a ha, hnrow b hb, sort_eq_iff] at hab
    exact hnew a ha b hb hab
  obtain ⟨h1, h2, h3⟩ := lexMatch_spec dim (newRows dim N) all.1 all.2 out hdist h
  have hmem : ∀ k, k ∈ out.map Prod.fst → k < N.size dim := fun k hk => by
    rw [← hsz]; exact ((h2 k).mp hk).1
  have hval : ∀ k v, (k, v) ∈ out → Marked procs N dim k v := by
    intro k v hkv
    obtain ⟨n, hn, hr, hv⟩ := h3 k v hkv
    have hk := hmem k (List.mem_map.mpr ⟨_, hkv, rfl⟩)
    obtain ⟨T, hT, i, hi, hr', hv'⟩ := hloc n hn
    refine ⟨T, hT, i, hi, ?_, by rw [hv, hv']⟩
    rw [hr, hnrow k hk] at hr'
    exact (sort_eq_iff _ _).mp hr'.symm
  have hiff : ∀ k, k ∈ out.map Prod.fst ↔ k < N.size dim ∧ ∃ v, Marked procs N dim k v := by
    intro k
    constructor
    · intro hk
      obtain ⟨⟨k', v⟩, hkv, rfl⟩ := List.mem_map.mp hk
      exact ⟨hmem _ hk, v, hval _ _ hkv⟩
    · rintro ⟨hk, v, T, hT, i, hi, hp, -⟩
      rw [h2, hsz]
      obtain ⟨n, hn, hr, -⟩ := hloc' T hT i hi
      refine ⟨hk, n, hn, ?_⟩
      rw [hr, hnrow k hk, sort_eq_iff]
      exact hp
  refine ⟨h1, hiff, hval, fun hcons k v => ⟨fun hkv =>
    ⟨hmem k (List.mem_map.mpr ⟨_, hkv, rfl⟩), hval k v hkv⟩, fun ⟨hk, hv⟩ => ?_⟩⟩
  obtain ⟨⟨k', v'⟩, hkv, rfl⟩ := List.mem_map.mp ((hiff k).mpr ⟨hk, v, hv⟩)
  rw [hcons _ v v' hv (hval _ _ hkv)]
  exact hkv

/-- Two processes; the second one holds a copy of facet 1 of the first one (vertices 1, 2), with the same
marker, and the new mesh numbers its vertices the other way round. -/
def exTags : List Tags :=
  [⟨[0, 1], [5, 6], fun e => [e, e + 1], fun v => v⟩, ⟨[0], [6], fun _ => [0, 1], fun v => 2 - v⟩]

/-- The new mesh of the example. -/
def exNew : NewMesh := ⟨[0, 1, 1, 2], fun v => v, fun v => 2 - v⟩

example : NewTags 2 exTags exNew [(0, 6), (1, 5)] ∧
    (∀ T ∈ exTags, ∀ e ∈ T.idx, (T.vertices e).length = 2) ∧
    (∀ T ∈ exTags, T.val.length = T.idx.length) ∧
    (∀ k < exNew.size 2, ∀ k' < exNew.size 2, (exNew.origin 2 k).Perm (exNew.origin 2 k') → k = k') := by
  refine ⟨⟨[1, 0], [0, 1, 2], [(0, 6), (1, 5)], ⟨?_, ?_⟩, ⟨?_, ?_⟩, ?_, ?_, ?_⟩, ?_, ?_, ?_⟩
  · decide +kernel
  · decide +kernel
  · decide +kernel
  · decide +kernel
  · decide +kernel
  · simp [pairLe]
  · decide +kernel
  · decide +kernel
  · decide +kernel
  · decide +kernel

/-! ### C95 -/

variable {K : Type} [Field K]

theorem inputX_eq (P : Proc K) (gdim : ℕ) :
    inputX P gdim = (List.range P.nverts).flatMap (fun i => (List.range gdim).map (fun j => P.xg (i * 3 + j))) := by
  have e : ∀ (i : ℕ) (x : List K), (List.range gdim).foldl (fun x j => x ++ [P.xg (i * 3 + j)]) x =
      x ++ (List.range gdim).map (fun j => P.xg (i * 3 + j)) := by
    intro i x
    rw [foldl_append_eq (fun j => [P.xg (i * 3 + j)])]
    congr 1
    induction List.range gdim with
    | nil => rfl
    | cons a l ih => rw [List.flatMap_cons, ih]; rfl
  unfold inputX
  simp only [e]
  rw [foldl_append_eq, List.nil_append]

theorem inputX_length (P : Proc K) (gdim : ℕ) : (inputX P gdim).length = P.nverts * gdim := by
  rw [inputX_eq, flatMap_length _ _ gdim (by simp), List.length_range]

/-- C95, partial: the vertex number `i` owned by process `r` (global index: vertices of the processes before
it, plus `i`) gets in the new mesh the coordinates of geometry node `i`, thus keeps its coordinates if the
geometry node of owned vertex `i` has number `i` on its process. Missing: other numberings of the
geometry, for which the next theorem shows that the claim is false, and nodes that are not vertices. -/
theorem C95_coordinates_partial (procs : List (Proc K)) (gdim : ℕ) (v2g : ℕ → ℕ → ℕ) (r : ℕ)
    (hr : r < procs.length) (i j : ℕ) (hi : i < (procs[r]).nverts) (hj : j < gdim)
    (hid : v2g r i = i) :
    newCoord procs gdim (((procs.take r).map Proc.nverts).sum + i) j = (procs[r]).xg (3 * v2g r i + j) := by
  have hb : ∀ l : List (Proc K), ((l.map (fun P => inputX P gdim)).flatten).length =
      (l.map Proc.nverts).sum * gdim := by
    intro l
    induction l with
    | nil => simp
    | cons P l ih => simp only [List.map_cons, List.flatten_cons, List.length_append, ih, inputX_length,
        List.sum_cons, Nat.add_mul]
  have hlt : gdim * i + j < (inputX procs[r] gdim).length := by
    rw [inputX_length]
    calc gdim * i + j < gdim * i + gdim := by omega
      _ = (i + 1) * gdim := by ring
      _ ≤ _ := Nat.mul_le_mul_right _ hi
  have hg : (procs.map (fun P => inputX P gdim)).getD r [] = inputX procs[r] gdim := by
    rw [List.getD_eq_getElem _ _ (by simpa using hr), List.getElem_map]
  unfold newCoord
  rw [flatten_split _ r (by simpa using hr), ← List.map_take, hg]
  rw [List.getD_append_right _ _ _ _ (by rw [hb, Nat.add_mul]; omega), hb, Nat.add_mul]
  have e : ((procs.take r).map Proc.nverts).sum * gdim + i * gdim + j -
      ((procs.take r).map Proc.nverts).sum * gdim = gdim * i + j := by rw [Nat.mul_comm gdim i]; omega
  rw [e, List.getD_append _ _ _ _ hlt, List.getD_eq_getElem?_getD, inputX_eq,
    flatMap_getElem? _ _ gdim (by simp) i j (by simpa using hi) hj, hid]
  simp only [List.getElem_range]
  rw [List.getElem?_eq_getElem (by simpa using hj), Option.getD_some, List.getElem_map, List.getElem_range,
    Nat.mul_comm]

/-- C95 is violated if geometry nodes and vertices are numbered differently: two vertices on one process
whose geometry nodes are 1 and 0, at the points 7 and 3; vertex 0 moves from 7 to 3. -/
theorem C95_coordinates_violated :
    ∃ (P : Proc ℚ) (v2g : ℕ → ℕ), P.nverts = 2 ∧ v2g 0 = 1 ∧ v2g 1 = 0 ∧
      newCoord [P] 2 0 0 ≠ P.xg (3 * v2g 0 + 0) := by
  refine ⟨⟨[], [], fun _ => [], 1, 2, [0, 1], fun v => v, fun m => if m = 0 then 3 else if m = 3 then 7 else 0,
    fun _ => []⟩, fun i => 1 - i, rfl, rfl, rfl, ?_⟩
  decide +kernel

omit [Field K] in
theorem topoGlobal_cells (P : Proc K) (nv : ℕ) (cells : List (List ℕ)) (hcells : ∀ c ∈ cells, c.length = nv)
    (htopo : P.topo = cells.flatten) (howned : P.ncells ≤ cells.length) :
    (topoGlobal P nv).length = P.ncells * nv ∧
    ∀ c (hc : c < P.ncells), row nv (topoGlobal P nv) c = (cells[c]).map P.l2g := by
  have hl : P.topo.length = cells.length * nv := by
    rw [htopo, ← List.flatMap_id, flatMap_length id _ nv hcells]
  have hle : P.ncells * nv ≤ P.topo.length := by rw [hl]; exact Nat.mul_le_mul_right _ howned
  have e : topoGlobal P nv = (P.topo.take (P.ncells * nv)).map P.l2g := by
    unfold topoGlobal
    rw [Nat.sub_eq_zero_of_le hle, List.replicate_zero, List.append_nil]
  refine ⟨by rw [e]; simp; omega, fun c hc => ?_⟩
  rw [e, row_map]
  congr 1
  apply List.ext_getElem?
  intro m
  rw [List.getElem?_take]
  by_cases hm : m < nv
  · rw [if_pos hm, List.getElem?_drop, List.getElem?_take, if_pos, htopo, ← List.flatMap_id,
      flatMap_getElem? id _ nv hcells c m (by omega) hm]
    · rfl
    · calc nv * c + m < nv * c + nv := by omega
        _ = (c + 1) * nv := by ring
        _ ≤ _ := Nat.mul_le_mul_right _ hc
  · rw [if_neg hm, List.getElem?_eq_none]
    rw [hcells _ (List.getElem_mem _)]; omega

omit [Field K] in
/-- C95: the cells given to `create_mesh` are the owned cells, each with the global indices of its
vertices. -/
theorem C95_cells (P : Proc K) (nv : ℕ) (cells : List (List ℕ)) (hcells : ∀ c ∈ cells, c.length = nv)
    (htopo : P.topo = cells.flatten) (howned : P.ncells ≤ cells.length) :
    (topoGlobal P nv).length = P.ncells * nv ∧
    ∀ c (hc : c < P.ncells), Spec.tuple nv (topoGlobal P nv) c = (cells[c]).map P.l2g :=
  topoGlobal_cells P nv cells hcells htopo howned

example : ∃ (P : Proc ℚ) (cells : List (List ℕ)), (∀ c ∈ cells, c.length = 3) ∧ P.topo = cells.flatten ∧
    P.ncells ≤ cells.length ∧ P.ncells = 1 ∧ cells.length = 2 :=
  ⟨⟨[], [], fun _ => [], 1, 4, [0, 1, 2, 1, 2, 3], fun v => v, fun _ => 0, fun _ => []⟩,
    [[0, 1, 2], [1, 2, 3]], by decide, rfl, by decide, rfl, rfl⟩

/-! ### C96 -/

theorem foldl_add_eq (f : ℕ → K) (l : List ℕ) (a : K) :
    l.foldl (fun m j => m + f j) a = a + (l.map f).sum := by
  induction l generalizing a with
  | nil => simp
  | cons b l ih => rw [List.foldl_cons, ih, List.map_cons, List.sum_cons, add_assoc]

theorem map_range_getD (l : List ℕ) (h : ℕ → K) : (List.range l.length).map (fun j => h (l.getD j 0)) = l.map h := by
  apply List.ext_getElem
  · simp
  · intro j h1 h2
    simp only [List.length_map, List.length_range] at h1
    simp only [List.getElem_map, List.getElem_range]
    rw [List.getD_eq_getElem _ _ h1]

theorem midpoints_eq (P : Proc K) (facets : List ℕ) (nv : ℕ)
    (hnv : ∀ f ∈ facets, (P.facetNodes f).length = nv) :
    midpoints P facets = facets.flatMap (fun f => (List.finRange 3).map (P.mid f)) := by
  by_cases h0 : 0 < facets.length
  · unfold midpoints
    dsimp only
    rw [if_pos h0, foldl_append_eq, List.nil_append, foldl_append_eq, List.nil_append,
      flatMap_length _ _ nv hnv, Nat.mul_div_cancel_left _ h0]
    have e : facets = (List.range facets.length).map (fun i => facets.getD i 0) := by
      have : ∀ l : List ℕ, l = (List.range l.length).map (fun i => l.getD i 0) := by
        intro l
        apply List.ext_getElem
        · simp
        · intro j h1 h2
          simp only [List.getElem_map, List.getElem_range]
          rw [List.getD_eq_getElem _ _ h1]
      exact this facets
    conv_rhs => rw [e, List.flatMap_map]
    apply List.flatMap_congr
    intro i hi
    rw [List.mem_range] at hi
    have hrange : (List.range 3) = (List.finRange 3).map Fin.val := by decide
    rw [hrange, List.map_map]
    apply List.map_congr_left
    intro k _
    dsimp only [Function.comp]
    rw [foldl_add_eq (fun j => P.xg ((facets.flatMap P.facetNodes).getD (i * nv + j) 0 * 3 + k.val) / (nv : K)),
      zero_add, List.getD_eq_getElem _ _ hi, Proc.mid, hnv _ (List.getElem_mem hi)]
    rw [← map_range_getD (P.facetNodes facets[i]), hnv _ (List.getElem_mem hi), List.map_congr_left (g := fun j =>
      P.xg (3 * (P.facetNodes facets[i]).getD j 0 + k.val) / (nv : K))]
    · induction List.range nv with
      | nil => simp
      | cons a l ih => simp only [List.map_cons, List.sum_cons, ih, add_div]
    · intro j hj
      rw [List.mem_range] at hj
      have hlt : j < (P.facetNodes facets[i]).length := by rw [hnv _ (List.getElem_mem hi)]; exact hj
      rw [Nat.mul_comm i nv, List.getD_eq_getElem?_getD, flatMap_getElem? _ _ nv hnv i j hi hj,
        ← List.getD_eq_getElem?_getD, Nat.mul_comm]
  · have : facets = [] := List.length_eq_zero_iff.mp (by omega)
    subst this; rfl

omit [Field K] in
theorem mem_subset_iff (tags : List ℤ) (P : Proc K) (f : ℕ) : f ∈ subset tags P ↔ Tagged tags P f := by
  unfold subset markerSubset Tagged
  simp only [List.mem_filterMap, List.mem_range, List.any_eq_true, decide_eq_true_eq]
  constructor
  · rintro ⟨i, hi, h⟩
    split at h
    · rename_i hk
      obtain ⟨k, hk, rfl⟩ := hk
      rw [Option.some.injEq, List.getD_eq_getElem _ _ hi] at h
      exact ⟨i, hi, h, hk⟩
    · cases h
  · rintro ⟨i, hi, h, hk⟩
    refine ⟨i, hi, ?_⟩
    rw [if_pos ⟨_, hk, rfl⟩, List.getD_eq_getElem _ _ hi, h]

/-- Every facet marked with one of the tags, on every process, has `nv` nodes. -/
def Uniform (tags : List ℤ) (procs : List (Proc K)) (nv : ℕ) : Prop :=
  ∀ P ∈ procs, ∀ f, Tagged tags P f → (P.facetNodes f).length = nv

section

variable (tags : List ℤ) (procs : List (Proc K)) (nv : ℕ) (hnv : Uniform tags procs nv)
include hnv

theorem midpoints_subset (P : Proc K) (hP : P ∈ procs) : midpoints P (subset tags P) =
    (subset tags P).flatMap (fun f => (List.finRange 3).map (P.mid f)) :=
  midpoints_eq P _ nv (fun f hf => hnv P hP f ((mem_subset_iff tags P f).mp hf))

theorem midpoints_length (P : Proc K) (hP : P ∈ procs) :
    (midpoints P (subset tags P)).length = (subset tags P).length * 3 := by
  rw [midpoints_subset tags procs nv hnv P hP, flatMap_length _ _ 3 (by simp)]

theorem counts_eq : counts tags procs = procs.map (fun P => (subset tags P).length) := by
  unfold counts
  rw [List.map_map]
  apply List.map_congr_left
  intro P hP
  dsimp only [Function.comp]
  rw [midpoints_length tags procs nv hnv P hP, Nat.mul_div_cancel _ (by norm_num)]

theorem gathered_eq : gathered tags procs = (procs.map (fun P => midpoints P (subset tags P))).flatten := by
  unfold gathered
  dsimp only
  rw [allgatherv_flatten]
  rw [List.length_replicate, prefixSums_getLastD, List.length_flatten, Nat.zero_add]

theorem flat_length (l : List (Proc K)) (hl : ∀ P ∈ l, P ∈ procs) :
    ((l.map (fun P => midpoints P (subset tags P))).flatten).length =
      3 * (l.map (fun P => (subset tags P).length)).sum := by
  induction l with
  | nil => simp
  | cons P l ih =>
    simp only [List.map_cons, List.flatten_cons, List.length_append, List.sum_cons]
    rw [ih (fun Q hQ => hl Q (by simp [hQ])), midpoints_length tags procs nv hnv P (hl P (by simp))]
    omega

theorem gathered_length : (gathered tags procs).length / 3 = (counts tags procs).sum := by
  rw [gathered_eq tags procs nv hnv, flat_length tags procs nv hnv procs (fun _ h => h),
    counts_eq tags procs nv hnv, Nat.mul_div_cancel_left _ (by norm_num)]

/-- Point number (facets of the processes before `q`) + `j` is the midpoint of tagged facet `j` of
process `q`. -/
theorem points_eq (q : ℕ) (hq : q < procs.length) (j : ℕ) (hj : j < (subset tags procs[q]).length) :
    points tags procs (((counts tags procs).take q).sum + j) = (procs[q]).mid ((subset tags procs[q])[j]) := by
  funext k
  have hg : (procs.map (fun P => midpoints P (subset tags P))).getD q [] =
      midpoints procs[q] (subset tags procs[q]) := by
    rw [List.getD_eq_getElem _ _ (by simpa using hq), List.getElem_map]
  have hm := List.getElem_mem hq
  unfold points
  rw [gathered_eq tags procs nv hnv, counts_eq tags procs nv hnv, ← List.map_take,
    flatten_split _ q (by simpa using hq), ← List.map_take, hg]
  have hb := flat_length tags procs nv hnv (procs.take q) (fun P hP => List.mem_of_mem_take hP)
  rw [List.getD_append_right _ _ _ _ (by rw [hb]; omega), hb]
  have e : 3 * (((procs.take q).map (fun P => (subset tags P).length)).sum + j) + k.val -
      3 * ((procs.take q).map (fun P => (subset tags P).length)).sum = 3 * j + k.val := by omega
  have hk := k.isLt
  rw [e, List.getD_append _ _ _ _ (by rw [midpoints_length tags procs nv hnv _ hm]; omega),
    midpoints_subset tags procs nv hnv _ hm, List.getD_eq_getElem?_getD,
    flatMap_getElem? _ _ 3 (by simp) j k.val hj hk, List.getElem?_eq_getElem (by simp)]
  simp

end

variable [LinearOrder K] [IsStrictOrderedRing K]

theorem destinations_eq (tags : List ℤ) (R : K) (procs : List (Proc K)) (xFwd : List ℕ) (p : ℕ) (P : Proc K)
    (c : ℕ) (hc : c < P.ncells) : ∃ tail, destinations tags R procs xFwd p P c = p :: tail ∧
      ((tail = [] ∧ ∀ i < (subset tags P).length, (P.f2c ((subset tags P).getD i 0)).headD 0 ≠ c) ∨
       ∃ i < (subset tags P).length, (P.f2c ((subset tags P).getD i 0)).headD 0 = c ∧
         tail = cellDests (counts tags procs)
           (fun i => (pointCloudPairs (points tags procs) R xFwd).getD i []) p i) := by
  unfold destinations
  dsimp only
  rw [partitioner_links _ _ _ _ hc]
  refine ⟨_, rfl, ?_⟩
  rcases cellToDests_aux (fun f => (P.f2c f).headD 0) (subset tags P) (fun j => cellDests (counts tags procs)
    (fun i => (pointCloudPairs (points tags procs) R xFwd).getD i []) p j) c (subset tags P).length with
    ⟨h1, h2⟩ | ⟨i, h1, h2, _, h4⟩
  · left
    refine ⟨?_, h1⟩
    unfold cellToDests; dsimp only; rw [h2]; rfl
  · right
    refine ⟨i, h1, h2, ?_⟩
    unfold cellToDests; dsimp only; rw [h4]; rfl

theorem counts_take_succ (tags : List ℤ) (procs : List (Proc K)) (nv : ℕ) (hnv : Uniform tags procs nv)
    (q : ℕ) (hq : q < procs.length) : ((counts tags procs).take (q + 1)).sum =
      ((counts tags procs).take q).sum + (subset tags procs[q]).length := by
  rw [counts_eq tags procs nv hnv, List.take_succ_eq_append_getElem (by simpa using hq), List.sum_append]
  simp

theorem take_sum_le (l : List ℕ) (q : ℕ) : (l.take q).sum ≤ l.sum := by
  conv_rhs => rw [← List.take_append_drop q l, List.sum_append]
  omega

theorem near_range (tags : List ℤ) (R : K) (procs : List (Proc K)) (nv : ℕ) (hnv : Uniform tags procs nv)
    (xFwd : List ℕ) (hsort : IsStdSort (fun i => points tags procs i 0)
      (List.range ((gathered tags procs).length / 3)) xFwd) (i : ℕ) (hi : i < (counts tags procs).sum) :
    ∀ n ∈ (pointCloudPairs (points tags procs) R xFwd).getD i [], n < (counts tags procs).sum := by
  rw [gathered_length tags procs nv hnv] at hsort
  exact fun n hn => (C09_sound _ R _ xFwd hsort i n hi hn).1

/-- C96: every cell stays on its process (which is named first), and is sent to another process only if
it has a tagged facet whose midpoint is at a distance below `R` from the midpoint of a tagged facet of
that process. -/
theorem C96_sound (tags : List ℤ) (R : K) (procs : List (Proc K)) (nv : ℕ) (hnv : Uniform tags procs nv)
    (xFwd : List ℕ) (hsort : IsStdSort (fun i => points tags procs i 0)
      (List.range ((gathered tags procs).length / 3)) xFwd)
    (p : ℕ) (hp : p < procs.length) (c : ℕ) (hc : c < (procs[p]).ncells) :
    (destinations tags R procs xFwd p procs[p] c).head? = some p ∧
    (destinations tags R procs xFwd p procs[p] c).Nodup ∧
    ∀ q ∈ destinations tags R procs xFwd p procs[p] c, q ≠ p →
      ∃ (hq : q < procs.length) (f g : ℕ), Tagged tags procs[p] f ∧ ((procs[p]).f2c f).headD 0 = c ∧
        Tagged tags procs[q] g ∧ 0 ≤ R ∧ sqDist ((procs[p]).mid f) ((procs[q]).mid g) < R ^ 2 := by
  obtain ⟨tail, hd, h⟩ := destinations_eq tags R procs xFwd p procs[p] c hc
  rw [hd]
  have hcl : (counts tags procs).length = procs.length := by rw [counts_eq tags procs nv hnv]; simp
  rcases h with ⟨rfl, -⟩ | ⟨i, hi, hic, htail⟩
  · refine ⟨rfl, by simp, fun q hq hne => ?_⟩
    simp at hq; exact absurd hq hne
  · have hget : (counts tags procs).getD p 0 = (subset tags procs[p]).length := by
      rw [counts_eq tags procs nv hnv, List.getD_eq_getElem _ _ (by simpa using hp), List.getElem_map]
    have hlt : ((counts tags procs).take p).sum + i < (counts tags procs).sum := by
      have := counts_take_succ tags procs nv hnv p hp
      have := take_sum_le (counts tags procs) (p + 1)
      omega
    have h14 := C14_destinations (counts tags procs)
      (fun i => (pointCloudPairs (points tags procs) R xFwd).getD i []) p i (by omega) (by omega)
      (near_range tags R procs nv hnv xFwd hsort _ hlt)
    rw [← htail] at h14
    refine ⟨rfl, ?_, fun q hq hne => ?_⟩
    · rw [List.nodup_cons]
      exact ⟨fun hm => ((h14.2 p).mp hm).1 rfl, h14.1.imp (fun h => Nat.ne_of_lt h)⟩
    · rw [List.mem_cons] at hq
      have hq := hq.resolve_left hne
      obtain ⟨-, hql, n, hn, h1, h2⟩ := (h14.2 q).mp hq
      have hq' : q < procs.length := by omega
      rw [counts_take_succ tags procs nv hnv q hq'] at h2
      obtain ⟨j, rfl⟩ := Nat.exists_eq_add_of_le h1
      have hj : j < (subset tags procs[q]).length := by omega
      rw [gathered_length tags procs nv hnv] at hsort
      obtain ⟨-, -, hR, hd⟩ := C09_sound _ R _ xFwd hsort _ _ hlt hn
      rw [points_eq tags procs nv hnv p hp i hi, points_eq tags procs nv hnv q hq' j hj] at hd
      rw [List.getD_eq_getElem _ _ hi] at hic
      exact ⟨hq', _, _, (mem_subset_iff _ _ _).mp (List.getElem_mem hi), hic,
        (mem_subset_iff _ _ _).mp (List.getElem_mem hj), hR, hd⟩

/-- C96, partial: the cell of a tagged facet `f` is sent to every other process with a tagged facet `g`
within the distance `R`. Missing: cells with a second tagged facet (the destinations of one facet
overwrite those of the other) and facets `g` with the smallest x coordinate (`point_cloud_pairs` loses the
leftmost point); the next theorem shows that the claim is false there. -/
theorem C96_complete_partial (tags : List ℤ) (R : K) (hR : 0 ≤ R) (procs : List (Proc K)) (nv : ℕ)
    (hnv : Uniform tags procs nv)
    (xFwd : List ℕ) (hsort : IsStdSort (fun i => points tags procs i 0)
      (List.range ((gathered tags procs).length / 3)) xFwd)
    (p q : ℕ) (hp : p < procs.length) (hq : q < procs.length) (hpq : q ≠ p)
    (f g : ℕ) (hf : Tagged tags procs[p] f) (hg : Tagged tags procs[q] g)
    (hc : ((procs[p]).f2c f).headD 0 < (procs[p]).ncells)
    (hnear : sqDist ((procs[p]).mid f) ((procs[q]).mid g) < R ^ 2)
    (honly : ∀ f', Tagged tags procs[p] f' → ((procs[p]).f2c f').headD 0 = ((procs[p]).f2c f).headD 0 →
      f' = f)
    (hleft : ∃ (s : ℕ) (hs : s < procs.length) (h : ℕ), Tagged tags procs[s] h ∧
      (procs[s]).mid h 0 < (procs[q]).mid g 0) :
    q ∈ destinations tags R procs xFwd p procs[p] (((procs[p]).f2c f).headD 0) := by
  obtain ⟨tail, hd, h⟩ := destinations_eq tags R procs xFwd p procs[p] _ hc
  rw [hd]
  have hcl : (counts tags procs).length = procs.length := by rw [counts_eq tags procs nv hnv]; simp
  have locate : ∀ r (hr : r < procs.length) e, Tagged tags procs[r] e → ∃ j, ∃ hj : j < (subset tags procs[r]).length,
      (subset tags procs[r])[j] = e ∧ ((counts tags procs).take r).sum + j < (counts tags procs).sum ∧
      points tags procs (((counts tags procs).take r).sum + j) = (procs[r]).mid e := by
    intro r hr e he
    obtain ⟨j, hj, hje⟩ := List.getElem_of_mem ((mem_subset_iff _ _ _).mpr he)
    refine ⟨j, hj, hje, ?_, by rw [points_eq tags procs nv hnv r hr j hj, hje]⟩
    have := counts_take_succ tags procs nv hnv r hr
    have := take_sum_le (counts tags procs) (r + 1)
    omega
  rcases h with ⟨-, hno⟩ | ⟨i, hi, hic, htail⟩
  · obtain ⟨j, hj, hje, -, -⟩ := locate p hp f hf
    have := hno j hj
    rw [List.getD_eq_getElem _ _ hj, hje] at this
    exact absurd rfl this
  · rw [List.getD_eq_getElem _ _ hi] at hic
    have hif := honly _ ((mem_subset_iff _ _ _).mp (List.getElem_mem hi)) hic
    have hget : (counts tags procs).getD p 0 = (subset tags procs[p]).length := by
      rw [counts_eq tags procs nv hnv, List.getD_eq_getElem _ _ (by simpa using hp), List.getElem_map]
    have hlt : ((counts tags procs).take p).sum + i < (counts tags procs).sum := by
      have := counts_take_succ tags procs nv hnv p hp
      have := take_sum_le (counts tags procs) (p + 1)
      omega
    have h14 := C14_destinations (counts tags procs)
      (fun i => (pointCloudPairs (points tags procs) R xFwd).getD i []) p i (by omega) (by omega)
      (near_range tags R procs nv hnv xFwd hsort _ hlt)
    rw [← htail] at h14
    refine List.mem_cons_of_mem _ ((h14.2 q).mpr ⟨hpq, by omega, ?_⟩)
    obtain ⟨j, hj, hje, hjlt, hjp⟩ := locate q hq g hg
    obtain ⟨s, hs, e, he, hlt'⟩ := hleft
    obtain ⟨l, hl, hle, hllt, hlp⟩ := locate s hs e he
    have hts := counts_take_succ tags procs nv hnv q hq
    refine ⟨((counts tags procs).take q).sum + j, ?_, by omega, by omega⟩
    rw [gathered_length tags procs nv hnv] at hsort
    rw [C09_exact_partial _ R _ xFwd hsort _ _ hlt]
    refine ⟨hjlt, ⟨?_, hR, ?_⟩, ?_⟩
    · intro heq
      have htp := counts_take_succ tags procs nv hnv p hp
      rcases Nat.lt_or_gt_of_ne hpq with hlt | hgt
      · have := take_sum_mono (counts tags procs) (show q + 1 ≤ p from hlt); omega
      · have := take_sum_mono (counts tags procs) (show p + 1 ≤ q from hgt); omega
    · rw [points_eq tags procs nv hnv p hp i hi, hjp, hif]; exact hnear
    · intro hhead
      obtain ⟨hperm, hs'⟩ := hsort
      cases xFwd with
      | nil => simp at hhead
      | cons a l' =>
        rw [List.head?_cons, Option.some.injEq] at hhead
        subst hhead
        have hmem : ((counts tags procs).take s).sum + l ∈
            (((counts tags procs).take q).sum + j) :: l' := hperm.mem_iff.mpr (by simpa using hllt)
        rw [List.mem_cons] at hmem
        rcases hmem with h | h
        · rw [← hjp, ← hlp, h] at hlt'; exact lt_irrefl _ hlt'
        · have := (List.pairwise_cons.mp hs').1 _ h
          dsimp only at this
          rw [hjp, hlp] at this
          exact absurd hlt' (not_lt.mpr this)

/-- Process with one cell and one tagged facet, whose two nodes have the given x coordinate. -/
def exProc (x : ℚ) : Proc ℚ :=
  ⟨[0], [1], fun _ => [0], 1, 3, [0, 1, 2], fun v => v, fun m => if m = 0 ∨ m = 3 then x else 0, fun _ => [0, 1]⟩

/-- C96 is violated: two processes with one tagged facet each, midpoints at 0 and 1, radius 2. The cell
of the first process is sent to the second one, but not vice versa, although each process has a facet
within the radius of the other one's. -/
theorem C96_complete_violated :
    IsStdSort (fun i => points [1] [exProc 0, exProc 1] i 0)
      (List.range ((gathered [1] [exProc 0, exProc 1]).length / 3)) [0, 1] ∧
    Uniform [1] [exProc 0, exProc 1] 2 ∧
    sqDist ((exProc 1).mid 0) ((exProc 0).mid 0) < (2 : ℚ) ^ 2 ∧
    destinations [1] 2 [exProc 0, exProc 1] [0, 1] 0 (exProc 0) 0 = [0, 1] ∧
    destinations [1] 2 [exProc 0, exProc 1] [0, 1] 1 (exProc 1) 0 = [1] := by
  refine ⟨⟨by decide +kernel, by decide +kernel⟩, ?_, by decide +kernel, by decide +kernel, by decide +kernel⟩
  intro P hP f _
  simp at hP
  rcases hP with rfl | rfl <;> rfl

/-- The hypotheses of `C96_sound` and `C96_complete_partial` are met: the same two processes, with the facets
of process 0 (f) and process 1 (g). -/
example : Tagged [1] (exProc 0) 0 ∧ Tagged [1] (exProc 1) 0 ∧ 0 < (exProc 0).ncells ∧
    (exProc 0).mid 0 0 < (exProc 1).mid 0 0 ∧ sqDist ((exProc 0).mid 0) ((exProc 1).mid 0) < (2 : ℚ) ^ 2 ∧
    ∀ f', Tagged [1] (exProc 0) f' → f' = 0 := by
  refine ⟨⟨0, by decide, rfl, by decide⟩, ⟨0, by decide, rfl, by decide⟩, by decide, by decide +kernel,
    by decide +kernel, ?_⟩
  rintro f' ⟨i, hi, h, -⟩
  simp [exProc] at hi h
  omega

end Verif.ContactMesh
