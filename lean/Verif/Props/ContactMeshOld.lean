import Verif.Model.ContactMeshOld
import Verif.Props.ContactMesh

/-!
Property C162: `create_contact_mesh` and its earlier version in Python.
-/

namespace Verif.ContactMesh

open Verif.Ghosting Verif.Search

theorem rows_ext (dim n : ℕ) (xs ys : List ℤ) (hd : 0 < dim) (hx : xs.length = dim * n) (hy : ys.length = dim * n)
    (h : ∀ k < n, row dim xs k = row dim ys k) : xs = ys := by
  apply List.ext_getElem?
  intro m
  by_cases hm : m < dim * n
  · have hk : m / dim < n := Nat.div_lt_of_lt_mul hm
    have := congrArg (fun l => l[m % dim]?) (h _ hk)
    simp only [row_getElem?, if_pos (Nat.mod_lt m hd), Nat.div_add_mod] at this
    exact this
  · rw [List.getElem?_eq_none (by omega), List.getElem?_eq_none (by omega)]

theorem flatten_length_of {α : Type} (d : ℕ) (ls : List (List α)) (h : ∀ l ∈ ls, l.length = d) :
    ls.flatten.length = d * ls.length := by
  induction ls with
  | nil => simp
  | cons a l ih =>
    rw [List.flatten_cons, List.length_append, h a (by simp), ih (fun b hb => h b (by simp [hb])), List.length_cons]
    ring

theorem row_flatten (d : ℕ) (ls : List (List ℤ)) (h : ∀ l ∈ ls, l.length = d) (i : ℕ) (hi : i < ls.length) :
    row d ls.flatten i = ls[i] := by
  have := row_flatMap (fun l : List ℤ => l) ls d h i hi
  rwa [List.flatMap_id'] at this

theorem reshape_flatten (d n : ℕ) (hd : 0 < d) (xs : List ℤ) (h : xs.length = d * n) :
    ∃ rows, reshape d xs = some rows ∧ rows = (List.range n).map (row d xs) ∧ rows.flatten = xs := by
  have e : xs.length / d = n := by rw [h, Nat.mul_div_cancel_left _ hd]
  refine ⟨_, by rw [reshape, if_pos (by rw [h, Nat.mul_mod_right])], by rw [e], ?_⟩
  rw [e]
  have hl : ∀ l ∈ (List.range n).map (row d xs), l.length = d := by
    intro l hl
    obtain ⟨k, hk, rfl⟩ := List.mem_map.mp hl
    rw [List.mem_range] at hk
    apply row_length
    rw [h]
    nlinarith
  refine rows_ext d n _ _ hd (by rw [flatten_length_of d _ hl]; simp) h (fun k hk => ?_)
  rw [row_flatten d _ hl k (by simpa using hk)]
  simp

theorem stableSort_length' (l : List ℤ) : (stableSort (fun z : ℤ => z) l).length = l.length :=
  (stableSort_perm _ l).length_eq

theorem entityRows_flatten (dim : ℕ) (hd : 0 < dim) (T : Tags) (h : ∀ e ∈ T.idx, (T.vertices e).length = dim) :
    entityRows dim T = (sortedVertices T).flatten ∧ (sortedVertices T).flatten.length = dim * T.idx.length := by
  have hs : ∀ l ∈ sortedVertices T, l.length = dim := by
    intro l hl
    obtain ⟨e, he, rfl⟩ := List.mem_map.mp hl
    rw [stableSort_length', List.length_map, h e he]
  have hl : (sortedVertices T).length = T.idx.length := by simp [sortedVertices]
  have hlen := flatten_length_of dim _ hs
  rw [hl] at hlen
  obtain ⟨h1, h2⟩ := entityRows_spec dim hd T h
  refine ⟨rows_ext dim _ _ _ hd h1 hlen (fun k hk => ?_), hlen⟩
  rw [h2 k hk, row_flatten dim _ hs k (by rw [hl]; exact hk)]
  simp [sortedVertices]

theorem flatten_filter {α : Type} (ls : List (List α)) : (ls.filter (fun f => 0 < f.length)).flatten = ls.flatten := by
  induction ls with
  | nil => rfl
  | cons a l ih =>
    cases a with
    | nil => simpa using ih
    | cons x a => rw [List.filter_cons_of_pos (by simp), List.flatten_cons, List.flatten_cons, ih]

theorem toInt32_small {z : ℤ} (h0 : 0 ≤ z) (h1 : z < 2 ^ 31) : toInt32 z = z := by
  unfold toInt32
  rw [Int.emod_eq_of_lt (by positivity) (by norm_num at h1 ⊢; linarith)]
  ring

/-- The new entities in Python. -/
theorem remapped_eq (dim : ℕ) (hd : 0 < dim) (N : NewMesh) (hne : N.conn ≠ []) (hdvd : dim ∣ N.conn.length)
    (hsmall : ∀ m, 0 ≤ N.inputGlobal m ∧ N.inputGlobal m < 2 ^ 31) : remapped dim N = some (newRows dim N) := by
  obtain ⟨n, hn⟩ := hdvd
  have e : N.conn.map (fun v => toInt32 (N.inputGlobal (N.vertToGeom v)))
      = N.conn.map (fun v => N.inputGlobal (N.vertToGeom v)) :=
    List.map_congr_left (fun v _ => toInt32_small (hsmall _).1 (hsmall _).2)
  obtain ⟨rows, h1, h2, -⟩ := reshape_flatten dim n hd (N.conn.map (fun v => N.inputGlobal (N.vertToGeom v)))
    (by rw [List.length_map, hn])
  have hc : N.conn.isEmpty = false := by simpa using hne
  unfold remapped
  rw [hc, e, h1]
  show some _ = some _
  congr 1
  set xs := N.conn.map (fun v => N.inputGlobal (N.vertToGeom v)) with hxs
  have hx : xs.length = dim * n := by rw [hxs, List.length_map, hn]
  have hs : ∀ l ∈ rows.map (stableSort (fun z : ℤ => z)), l.length = dim := by
    intro l hl
    obtain ⟨r, hr, rfl⟩ := List.mem_map.mp hl
    rw [h2] at hr
    obtain ⟨k, hk, rfl⟩ := List.mem_map.mp hr
    rw [List.mem_range] at hk
    rw [stableSort_length', row_length]
    rw [hx]
    nlinarith
  have hrl : rows.length = n := by rw [h2]; simp
  refine rows_ext dim n _ _ hd (by rw [flatten_length_of dim _ hs]; simp [hrl])
    (by rw [newRows, sortRows_length]; exact hx) (fun k hk => ?_)
  rw [row_flatten dim _ hs k (by simpa [hrl] using hk), newRows, row_sortRows _ _ _
    (by rw [← hxs, hx, Nat.mul_div_cancel_left _ hd]; exact hk)]
  simp [h2, hxs]

theorem allgathered_eq (dim : ℕ) (hd : 0 < dim) (procs : List Tags)
    (hverts : ∀ T ∈ procs, ∀ e ∈ T.idx, (T.vertices e).length = dim)
    (hvals : ∀ T ∈ procs, T.val.length = T.idx.length) :
    copyToAll (procs.map (entityRows dim)) (procs.map Tags.val) dim
      = ((procs.map (fun T => (sortedVertices T).flatten)).flatten, (procs.map Tags.val).flatten)
    ∧ (procs.map (fun T => (sortedVertices T).flatten)).flatten.length = dim * (procs.map Tags.val).flatten.length := by
  have hrow : ∀ r, r < (procs.map (entityRows dim)).length →
      ((procs.map (entityRows dim)).getD r []).length = dim * ((procs.map Tags.val).getD r []).length := by
    intro r hr
    rw [List.length_map] at hr
    rw [List.getD_eq_getElem _ _ (by simpa using hr), List.getD_eq_getElem _ _ (by simpa using hr),
      List.getElem_map, List.getElem_map,
      (entityRows_spec dim hd _ (hverts _ (List.getElem_mem hr))).1, hvals _ (List.getElem_mem hr)]
  have e : procs.map (entityRows dim) = procs.map (fun T => (sortedVertices T).flatten) :=
    List.map_congr_left (fun T hT => (entityRows_flatten dim hd T (hverts T hT)).1)
  refine ⟨by rw [(copyToAll_spec _ _ dim hd (by simp) hrow).1, e], ?_⟩
  clear hrow e
  induction procs with
  | nil => simp
  | cons T l ih =>
    simp only [List.map_cons, List.flatten_cons, List.length_append]
    rw [ih (fun T' h' => hverts T' (by simp [h'])) (fun T' h' => hvals T' (by simp [h'])),
      (entityRows_flatten dim hd T (hverts T (by simp))).2, hvals T (by simp)]
    ring

theorem allFacets_eq (dim : ℕ) (hd : 0 < dim) (procs : List Tags)
    (hverts : ∀ T ∈ procs, ∀ e ∈ T.idx, (T.vertices e).length = dim)
    (hvals : ∀ T ∈ procs, T.val.length = T.idx.length) (hany : ∃ T ∈ procs, T.idx ≠ []) :
    ∃ a, allFacets dim procs = some a ∧ (a.1.flatten, a.2)
      = copyToAll (procs.map (entityRows dim)) (procs.map Tags.val) dim := by
  obtain ⟨hall, hlen⟩ := allgathered_eq dim hd procs hverts hvals
  obtain ⟨T, hT, hTne⟩ := hany
  have e1 : procs.map (fun T => if 0 < (sortedVertices T).length then (sortedVertices T).flatten else [])
      = procs.map (fun T => (sortedVertices T).flatten) := by
    refine List.map_congr_left (fun T _ => ?_)
    split
    · rfl
    · rename_i h
      rw [List.eq_nil_of_length_eq_zero (Nat.eq_zero_of_not_pos h)]
      rfl
  have hp : 0 < T.idx.length := List.length_pos_iff.mpr hTne
  have c1 : concatenate ((procs.map (fun T => (sortedVertices T).flatten)).filter (fun f => 0 < f.length))
      = some (procs.map (fun T => (sortedVertices T).flatten)).flatten := by
    rw [concatenate, if_neg, flatten_filter]
    rw [List.isEmpty_iff, List.filter_eq_nil_iff]
    intro hc
    have := hc _ (List.mem_map_of_mem hT)
    rw [(entityRows_flatten dim hd T (hverts T hT)).2] at this
    have : 0 < dim * T.idx.length := by positivity
    simp_all
  have c2 : concatenate ((procs.map Tags.val).filter (fun v => 0 < v.length)) = some (procs.map Tags.val).flatten := by
    rw [concatenate, if_neg, flatten_filter]
    rw [List.isEmpty_iff, List.filter_eq_nil_iff]
    intro hc
    have := hc _ (List.mem_map_of_mem hT)
    rw [hvals T hT] at this
    simp [hp] at this
  obtain ⟨rows, r1, r2, r3⟩ := reshape_flatten dim _ hd _ hlen
  refine ⟨(rows, (procs.map Tags.val).flatten), ?_, by rw [hall, ← r3]⟩
  unfold allFacets
  rw [e1]
  dsimp only
  rw [c1, c2]
  show (reshape dim _).bind _ = _
  rw [r1]
  show (if _ then _ else _) = _
  rw [if_pos]
  rw [r2]
  simp

theorem allCells_eq (dim : ℕ) (hd : 0 < dim) (procs : List Tags)
    (hverts : ∀ T ∈ procs, ∀ e ∈ T.idx, (T.vertices e).length = dim)
    (hvals : ∀ T ∈ procs, T.val.length = T.idx.length) (hne : procs ≠ []) (hevery : ∀ T ∈ procs, T.idx ≠ []) :
    ∃ a, allCells dim procs = some a ∧ (a.1.flatten, a.2)
      = copyToAll (procs.map (entityRows dim)) (procs.map Tags.val) dim := by
  obtain ⟨hall, hlen⟩ := allgathered_eq dim hd procs hverts hvals
  have c1 : procs.mapM (fun T => concatenate (sortedVertices T)) = some (procs.map (fun T => (sortedVertices T).flatten)) := by
    clear hall hlen hverts hvals hne
    induction procs with
    | nil => rfl
    | cons T l ih =>
      have : concatenate (sortedVertices T) = some (sortedVertices T).flatten := by
        rw [concatenate, if_neg]
        have := hevery T (by simp)
        simpa [sortedVertices] using this
      rw [List.mapM_cons, this, ih (fun T' h' => hevery T' (by simp [h']))]
      rfl
  have c2 : concatenate (procs.map (fun T => (sortedVertices T).flatten))
      = some (procs.map (fun T => (sortedVertices T).flatten)).flatten := by
    rw [concatenate, if_neg (by simpa using hne)]
  have c3 : concatenate (procs.map Tags.val) = some (procs.map Tags.val).flatten := by
    rw [concatenate, if_neg (by simpa using hne)]
  obtain ⟨rows, r1, r2, r3⟩ := reshape_flatten dim _ hd _ hlen
  refine ⟨(rows, (procs.map Tags.val).flatten), ?_, by rw [hall, ← r3]⟩
  unfold allCells
  rw [c1]
  show (concatenate _).bind _ = _
  rw [c2]
  show (reshape dim _).bind _ = _
  rw [r1]
  show (concatenate _).bind _ = _
  rw [c3]
  rfl

/-- C162: the two versions give the same facet markers if some process has a marked facet, the process has facets in the new
mesh and vertex numbers fit into 32 bits. -/
theorem C162_facets_partial (dim : ℕ) (hd : 0 < dim) (procs : List Tags) (N : NewMesh) (out : List (ℕ × ℤ))
    (hverts : ∀ T ∈ procs, ∀ e ∈ T.idx, (T.vertices e).length = dim)
    (hvals : ∀ T ∈ procs, T.val.length = T.idx.length) (hany : ∃ T ∈ procs, T.idx ≠ [])
    (hne : N.conn ≠ []) (hdvd : dim ∣ N.conn.length) (hsmall : ∀ m, 0 ≤ N.inputGlobal m ∧ N.inputGlobal m < 2 ^ 31) :
    OldTags dim (allFacets dim procs) N out ↔ NewTags dim procs N out := by
  obtain ⟨a, ha, hall⟩ := allFacets_eq dim hd procs hverts hvals hany
  unfold OldTags NewTags
  rw [ha, remapped_eq dim hd N hne hdvd hsmall, ← hall]
  constructor
  · rintro ⟨a', rows, h1, h2, h3⟩
    obtain rfl := Option.some.inj h1
    obtain rfl := Option.some.inj h2
    exact h3
  · exact fun h => ⟨a, _, rfl, rfl, h⟩

/-- C162: the two versions give the same cell markers if every process has a marked cell, the process has cells in the new
mesh and vertex numbers fit into 32 bits. -/
theorem C162_cells_partial (dim : ℕ) (hd : 0 < dim) (procs : List Tags) (N : NewMesh) (out : List (ℕ × ℤ))
    (hverts : ∀ T ∈ procs, ∀ e ∈ T.idx, (T.vertices e).length = dim)
    (hvals : ∀ T ∈ procs, T.val.length = T.idx.length) (hprocs : procs ≠ []) (hevery : ∀ T ∈ procs, T.idx ≠ [])
    (hne : N.conn ≠ []) (hdvd : dim ∣ N.conn.length) (hsmall : ∀ m, 0 ≤ N.inputGlobal m ∧ N.inputGlobal m < 2 ^ 31) :
    OldTags dim (allCells dim procs) N out ↔ NewTags dim procs N out := by
  obtain ⟨a, ha, hall⟩ := allCells_eq dim hd procs hverts hvals hprocs hevery
  unfold OldTags NewTags
  rw [ha, remapped_eq dim hd N hne hdvd hsmall, ← hall]
  constructor
  · rintro ⟨a', rows, h1, h2, h3⟩
    obtain rfl := Option.some.inj h1
    obtain rfl := Option.some.inj h2
    exact h3
  · exact fun h => ⟨a, _, rfl, rfl, h⟩

/-- The example of C94 meets the hypotheses (numbers of vertices cut off at zero outside of the mesh). -/
example : (∃ T ∈ exTags, T.idx ≠ []) ∧ (exTags ≠ [] ∧ ∀ T ∈ exTags, T.idx ≠ []) ∧
    (∀ T ∈ exTags, ∀ e ∈ T.idx, (T.vertices e).length = 2) ∧ (∀ T ∈ exTags, T.val.length = T.idx.length) ∧
    (let N : NewMesh := ⟨[0, 1, 1, 2], fun v => v, fun v => ((2 - v : ℕ) : ℤ)⟩
     N.conn ≠ [] ∧ 2 ∣ N.conn.length ∧ ∀ m, 0 ≤ N.inputGlobal m ∧ N.inputGlobal m < 2 ^ 31) := by
  refine ⟨by decide, ⟨by decide, by decide⟩, by decide, by decide, by decide, by decide, fun m => ⟨?_, ?_⟩⟩
  · exact Int.natCast_nonneg _
  · show ((2 - m : ℕ) : ℤ) < 2 ^ 31
    have : ((2 - m : ℕ) : ℤ) ≤ 2 := by exact_mod_cast Nat.sub_le 2 m
    linarith

/-- C162 in full fails: without a marked facet on any process, with a process without marked cells, and on a process
without facets in the new mesh, the earlier version raises an exception, whatever the rest of the input is; with a vertex
number from `2 ^ 31` on it loses the marker. -/
theorem C162_violated :
    (∀ (dim : ℕ) (_ : 0 < dim) (procs : List Tags), (∀ T ∈ procs, T.idx = [] ∧ T.val = []) → allFacets dim procs = none
      ∧ ∀ N : NewMesh, N.conn = [] → NewTags dim procs N []) ∧
    (∀ (dim : ℕ) (procs : List Tags), (∃ T ∈ procs, T.idx = []) → allCells dim procs = none) ∧
    (∀ (dim : ℕ) (N : NewMesh), N.conn = [] → remapped dim N = none) ∧
    (let procs : List Tags := [⟨[0], [7], fun _ => [0], fun _ => 2 ^ 31⟩]
     let N : NewMesh := ⟨[0], fun v => v, fun _ => 2 ^ 31⟩
     NewTags 1 procs N [(0, 7)] ∧ OldTags 1 (allFacets 1 procs) N []) := by
  refine ⟨fun dim hd procs h => ⟨?_, fun N hN => ?_⟩, fun dim procs h => ?_, fun dim N hN => ?_, ?_, ?_⟩
  · have : (procs.map (fun T => if 0 < (sortedVertices T).length then (sortedVertices T).flatten else [])).filter
        (fun f => 0 < f.length) = [] := by
      rw [List.filter_eq_nil_iff]
      intro l hl
      obtain ⟨T, hT, rfl⟩ := List.mem_map.mp hl
      simp [sortedVertices, (h T hT).1]
    unfold allFacets
    dsimp only
    rw [this]
    rfl
  · refine ⟨[], [], [], ⟨by simp [newRows, hN, sortRows], by simp⟩, ⟨?_, by simp⟩, by simp [lexMerge], by simp, rfl⟩
    have hl : ∀ T ∈ procs, entityRows dim T = [] := by
      intro T hT
      simp [entityRows, (h T hT).1, sortRows]
    have e : procs.map (entityRows dim) = procs.map (fun _ => []) := List.map_congr_left hl
    have ev : procs.map Tags.val = procs.map (fun _ => []) := List.map_congr_left (fun T hT => (h T hT).2)
    rw [e, ev]
    have : (copyToAll (procs.map (fun _ => [])) (procs.map (fun _ => [])) dim).1 = [] := by
      rw [(copyToAll_spec (procs.map (fun _ => ([] : List ℤ))) (procs.map (fun _ => ([] : List ℤ))) dim hd (by simp) ?_).1]
      · simp
      · intro r hr
        rw [List.getD_eq_getElem _ _ hr]
        simp
    rw [this]
    simp
  · obtain ⟨T, hT, h0⟩ := h
    have : procs.mapM (fun T => concatenate (sortedVertices T)) = none := by
      induction procs with
      | nil => simp at hT
      | cons a l ih =>
        rw [List.mapM_cons]
        rcases List.mem_cons.mp hT with rfl | hT'
        · rw [concatenate, if_pos (by simp [sortedVertices, h0])]
          rfl
        · rw [ih hT']
          cases concatenate (sortedVertices a) <;> rfl
    unfold allCells
    rw [this]
    rfl
  · unfold remapped
    rw [hN]
    rfl
  · refine ⟨[0], [0], [(0, 7)], ⟨by decide +kernel, by decide +kernel⟩, ⟨by decide +kernel, by decide +kernel⟩,
      by decide +kernel, by simp, by decide +kernel⟩
  · refine ⟨([[2 ^ 31]], [7]), [-2 ^ 31], by decide +kernel, by decide +kernel, [0], [0], [], ⟨by decide +kernel, by decide +kernel⟩,
      ⟨by decide +kernel, by decide +kernel⟩, by decide +kernel, by simp, by decide +kernel⟩

/-! ### input of `create_mesh` -/

variable {K : Type} [Field K] [LinearOrder K] [IsStrictOrderedRing K]

omit [Field K] [LinearOrder K] [IsStrictOrderedRing K] in
theorem oldTopo_eq (P : Proc K) (nv : ℕ) (hnv : 0 < nv) (n : ℕ) (htopo : P.topo.length = nv * n) (hn : P.ncells ≤ n) :
    ∃ rows, oldTopo P nv = some rows ∧ rows.flatten = topoGlobal P nv := by
  obtain ⟨rows, h1, h2, -⟩ := reshape_flatten nv n hnv (P.topo.map P.l2g) (by rw [List.length_map, htopo])
  refine ⟨rows.take P.ncells, by rw [oldTopo, h1]; rfl, ?_⟩
  have hle : P.ncells * nv ≤ P.topo.length := by rw [htopo]; nlinarith
  have hs : ∀ l ∈ rows.take P.ncells, l.length = nv := by
    intro l hl
    have hl' := List.mem_of_mem_take hl
    rw [h2] at hl'
    obtain ⟨k, hk, rfl⟩ := List.mem_map.mp hl'
    rw [List.mem_range] at hk
    apply row_length
    rw [List.length_map, htopo]
    nlinarith
  have hrl : (rows.take P.ncells).length = P.ncells := by rw [h2]; simp [hn]
  have ht : topoGlobal P nv = (P.topo.take (P.ncells * nv)).map P.l2g := by
    rw [topoGlobal, Nat.sub_eq_zero_of_le hle]
    simp
  have htl : (topoGlobal P nv).length = nv * P.ncells := by rw [ht]; simp; rw [Nat.min_eq_left hle, Nat.mul_comm]
  refine rows_ext nv P.ncells _ _ hnv (by rw [flatten_length_of nv _ hs, hrl]) htl (fun k hk => ?_)
  rw [row_flatten nv _ hs k (by rw [hrl]; exact hk), List.getElem_take]
  simp only [h2, List.getElem_map, List.getElem_range]
  rw [ht, row_map, row_map]
  congr 1
  rw [List.drop_take, List.take_take, Nat.min_eq_left]
  have : nv * k + nv ≤ P.ncells * nv := by nlinarith
  omega

theorem filterMap_if {α β : Type} (p : α → Bool) (f : α → β) (l : List α) :
    l.filterMap (fun i => if p i then some (f i) else none) = (l.filter p).map f := by
  induction l with
  | nil => rfl
  | cons a l ih => cases h : p a <;> simp [h, ih]

theorem zipIdx_range {α : Type} (l : List α) (d : α) : l.zipIdx = (List.range l.length).map (fun i => (l.getD i d, i)) := by
  apply List.ext_getElem
  · simp
  · intro i h1 h2
    simp at h1
    simp [h1]

/-- C162: the two versions pass the same cells, the same coordinates and the same destinations of the cells to `create_mesh`. -/
theorem C162_input (P : Proc K) (nv n nnodes gdim : ℕ) (hnv : 0 < nv) (htopo : P.topo.length = nv * n) (hn : P.ncells ≤ n)
    (hnodes : P.nverts ≤ nnodes) (hg : gdim ≤ 3) (hvals : P.fVal.length = P.fIdx.length) (tags : List ℤ) (rank : ℕ)
    (dests : ℕ → List ℕ) :
    (oldTopo P nv).map List.flatten = some (topoGlobal P nv) ∧
    (oldX P nnodes gdim).flatten = inputX P gdim ∧
    oldSubset tags P = subset tags P ∧
    oldPartitioner rank P.ncells (oldCellToDests P.f2c (oldSubset tags P) dests)
      = partitioner rank P.ncells (cellToDests (fun f => (P.f2c f).headD 0) (subset tags P) dests) := by
  have hsub : oldSubset tags P = subset tags P := by
    have e : (P.fIdx.zip P.fVal).zipIdx
        = (List.range P.fIdx.length).map (fun i => ((P.fIdx.getD i 0, P.fVal.getD i 0), i)) := by
      apply List.ext_getElem
      · simp [hvals]
      · intro i h1 h2
        simp [hvals] at h1
        simp [h1, hvals]
    unfold oldSubset subset markerSubset
    dsimp only
    rw [e, filterMap_if (fun i => tags.any (fun k => decide (k = P.fVal.getD i 0)))]
    rw [List.filter_map, List.map_map, List.map_map]
    congr 1
    refine List.filter_congr (fun i _ => ?_)
    rw [Bool.eq_iff_iff]
    simp
  refine ⟨?_, ?_, hsub, ?_⟩
  · obtain ⟨rows, h1, h2⟩ := oldTopo_eq P nv hnv n htopo hn
    rw [h1, ← h2]
    rfl
  · rw [inputX_eq, oldX, ← List.map_take, List.take_range, Nat.min_eq_left hnodes, List.map_map, List.flatMap_def]
    congr 1
    refine List.map_congr_left (fun i _ => ?_)
    show List.take gdim ((List.range 3).map _) = _
    rw [← List.map_take, List.take_range, Nat.min_eq_left hg]
  · rw [hsub]
    have e : oldCellToDests P.f2c (subset tags P) dests
        = cellToDests (fun f => (P.f2c f).headD 0) (subset tags P) dests := by
      unfold oldCellToDests cellToDests
      rw [List.zipIdx_map, List.foldl_map, zipIdx_range _ 0, List.foldl_map]
      rfl
    rw [e]
    unfold oldPartitioner partitioner
    congr 1
    funext st c
    cases cellToDests (fun f => (P.f2c f).headD 0) (subset tags P) dests c <;> rfl

/-- An owned and a ghost triangle, two marked facets of the owned one: the hypotheses hold and the later facet decides. -/
example : ∃ P : Proc ℚ, P.topo.length = 3 * 2 ∧ P.ncells ≤ 2 ∧ P.nverts ≤ 4 ∧ P.fVal.length = P.fIdx.length
    ∧ oldPartitioner 0 P.ncells (oldCellToDests P.f2c (oldSubset [5, 6] P) (fun i => [i + 1])) = ([0, 2], [0, 2]) :=
  ⟨⟨[2, 7, 9], [5, 4, 6], fun _ => [0], 1, 3, [0, 1, 2, 1, 2, 3], fun v => v, fun _ => 0, fun _ => []⟩, by decide, by decide,
    by decide, by decide, by decide +kernel⟩

end Verif.ContactMesh
