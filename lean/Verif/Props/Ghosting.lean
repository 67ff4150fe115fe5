import Verif.Lemmas.Ghosting
import Verif.Spec.Tuples
import Verif.Lemmas.Entities
import Mathlib.Data.Set.Card

/-! C13–C16, C19, C74: parallel ghosting helpers and link counts. -/

namespace Verif.Ghosting

open Verif.Entities

theorem lexMatch_spec (dim : ℕ) (loc inn vals : List ℤ) (out : List (ℕ × ℤ))
    (hdist : ∀ a b, a < loc.length / dim → b < loc.length / dim →
      row dim loc a = row dim loc b → a = b)
    (h : LexMatch dim loc inn vals out) :
    (out.map Prod.fst).Pairwise (· < ·) ∧
    (∀ j, j ∈ out.map Prod.fst ↔
      j < loc.length / dim ∧ ∃ i, i < inn.length / dim ∧ row dim inn i = row dim loc j) ∧
    (∀ j v, (j, v) ∈ out →
      ∃ i, i < inn.length / dim ∧ row dim inn i = row dim loc j ∧ v = vals.getD i 0) := by
  obtain ⟨pl, pin, sorted, ⟨hpl, hpls⟩, ⟨hpi, hpis⟩, hperm, hsorted, rfl⟩ := h
  obtain ⟨hsub, hsound⟩ := lexMerge_sound dim loc inn vals pin pl
  have hnd : pl.Nodup := (hpl.nodup_iff).mpr List.nodup_range
  have hmemL : ∀ j, j ∈ pl ↔ j < loc.length / dim := fun j => by rw [hpl.mem_iff, List.mem_range]
  have hmemI : ∀ i, i ∈ pin ↔ i < inn.length / dim := fun i => by rw [hpi.mem_iff, List.mem_range]
  have hstrict : pl.Pairwise (fun a b => row dim loc a < row dim loc b) := by
    have hne : pl.Pairwise (fun a b => row dim loc a ≠ row dim loc b) := by
      refine List.Pairwise.imp_of_mem ?_ hnd
      intro a b ha hb hab e
      exact hab (hdist a b ((hmemL a).mp ha) ((hmemL b).mp hb) e)
    have := hpls.and hne
    refine List.Pairwise.imp ?_ this
    rintro a b ⟨h1, h2⟩
    exact lt_of_le_of_ne ((lexLess_false_iff _ _).mp h1) h2
  have hpin : pin.Pairwise (fun a b => row dim inn a ≤ row dim inn b) := by
    refine List.Pairwise.imp ?_ hpis
    intro a b h
    exact (lexLess_false_iff _ _).mp h
  have hcompl := lexMerge_complete dim loc inn vals pin pl hpin hstrict
  have hnodup : (sorted.map Prod.fst).Nodup :=
    ((hperm.map Prod.fst).nodup_iff).mpr (hsub.nodup hnd)
  have hlt : (sorted.map Prod.fst).Pairwise (· < ·) := by
    apply pairwise_lt_of_le_nodup _ hnodup
    rw [List.pairwise_map]
    refine List.Pairwise.imp ?_ hsorted
    intro a b hab
    rcases hab with h | ⟨h, -⟩ <;> omega
  have hmem : ∀ x, x ∈ uniqueAdj sorted ↔ x ∈ lexMerge dim loc inn vals pin pl := fun x => by
    rw [mem_uniqueAdj, hperm.mem_iff]
  refine ⟨hlt.sublist ((uniqueAdj_sublist sorted).map Prod.fst), ?_, ?_⟩
  · intro j
    rw [List.mem_map]
    constructor
    · rintro ⟨⟨j', v⟩, hx, rfl⟩
      rw [hmem] at hx
      obtain ⟨i, hi, he, -⟩ := hsound j' v hx
      refine ⟨(hmemL _).mp (hsub.subset (List.mem_map.mpr ⟨_, hx, rfl⟩)), i, (hmemI i).mp hi, he⟩
    · rintro ⟨hj, i, hi, he⟩
      obtain ⟨v, hv⟩ := hcompl j ((hmemL j).mpr hj) i ((hmemI i).mpr hi) he
      exact ⟨(j, v), (hmem _).mpr hv, rfl⟩
  · intro j v hx
    rw [hmem] at hx
    obtain ⟨i, hi, he, hv⟩ := hsound j v hx
    exact ⟨i, (hmemI i).mp hi, he, hv⟩

/-- **C13.** If the vertex tuples of the local entities are pairwise different, every possible
result of `lex_match` lists local indices in strictly increasing order, exactly those whose tuple
occurs among the input tuples, each with a value the input attaches to that tuple. -/
theorem C13_lex_match (dim : ℕ) (loc inn vals : List ℤ) (out : List (ℕ × ℤ))
    (hdist : ∀ a b, a < loc.length / dim → b < loc.length / dim →
      Spec.tuple dim loc a = Spec.tuple dim loc b → a = b)
    (h : LexMatch dim loc inn vals out) :
    (out.map Prod.fst).Pairwise (· < ·) ∧
    (∀ j, j ∈ out.map Prod.fst ↔
      j < loc.length / dim ∧ ∃ i, i < inn.length / dim ∧ Spec.tuple dim inn i = Spec.tuple dim loc j) ∧
    (∀ j v, (j, v) ∈ out →
      ∃ i, i < inn.length / dim ∧ Spec.tuple dim inn i = Spec.tuple dim loc j ∧ v = vals.getD i 0) :=
  lexMatch_spec dim loc inn vals out hdist h

/-- Three local edges, input with a duplicate and a foreign edge: a result exists. -/
example : LexMatch 2 [4, 5, 1, 2, 2, 3] [2, 3, 1, 9, 4, 5, 2, 3] [7, 8, 9, 7] [(0, 9), (2, 7)] := by
  refine ⟨[1, 2, 0], [1, 0, 3, 2], [(0, 9), (2, 7)], ⟨by decide, by decide +kernel⟩,
    ⟨by decide, by decide +kernel⟩, ?_, ?_, by decide⟩
  · have : lexMerge 2 [4, 5, 1, 2, 2, 3] [2, 3, 1, 9, 4, 5, 2, 3] [7, 8, 9, 7] [1, 0, 3, 2] [1, 2, 0] =
        [(2, 7), (0, 9)] := by
      simp [lexMerge, row, lexLess]
    rw [this]; decide
  · simp [pairLe]

/-- **C14.** For every distribution of facets over processes and every neighbour search result
within range, facet `j` of process `p` receives exactly the other processes that own one of its
neighbours, in strictly increasing order. Facet numbers of process `q` are the interval
`[Σ_{r<q} counts r, Σ_{r≤q} counts r)`. -/
theorem C14_destinations (counts : List ℕ) (near : ℕ → List ℕ) (p j : ℕ) (hp : p < counts.length)
    (hj : j < counts.getD p 0)
    (hrange : ∀ n ∈ near ((counts.take p).sum + j), n < counts.sum) :
    (cellDests counts near p j).Pairwise (· < ·) ∧
    ∀ q, q ∈ cellDests counts near p j ↔
      q ≠ p ∧ q < counts.length ∧ ∃ n ∈ near ((counts.take p).sum + j),
        (counts.take q).sum ≤ n ∧ n < (counts.take (q + 1)).sum := by
  rw [cellDests_eq counts near p j hp hj]
  obtain ⟨h1, h2⟩ := facetProcs_spec (prefixSums 0 counts) p (near ((counts.take p).sum + j))
  refine ⟨h1, fun q => ?_⟩
  rw [h2 q]
  constructor
  · rintro ⟨hq, n, hn, ho⟩
    have := (owner_iff counts n q (hrange n hn)).mp ho
    exact ⟨hq, this.1, n, hn, this.2⟩
  · rintro ⟨hq, hl, n, hn, ho⟩
    exact ⟨hq, n, hn, (owner_iff counts n q (hrange n hn)).mpr ⟨hl, ho⟩⟩

/-- Four processes, one of them empty; facet 1 of process 2 (global number 4) has neighbours on
processes 0, 2 and 3. -/
example : cellDests [3, 0, 2, 1] (fun i => if i = 4 then [5, 0, 3, 1] else []) 2 1 = [0, 3] := by
  decide +kernel

theorem copyToAll_spec (indices values : List (List ℤ)) (nv : ℕ) (hnv : 0 < nv)
    (hlen : indices.length = values.length)
    (hrow : ∀ r, r < indices.length → (indices.getD r []).length = nv * (values.getD r []).length) :
    copyToAll indices values nv = (indices.flatten, values.flatten) ∧
    ∀ r, r < indices.length → ∀ k, k < (values.getD r []).length →
      let base := (values.take r).flatten.length
      (copyToAll indices values nv).2.getD (base + k) 0 = (values.getD r []).getD k 0 ∧
      row nv (copyToAll indices values nv).1 (base + k) = row nv (indices.getD r []) k := by
  have hmap : ∀ (m : ℕ), m ≤ indices.length →
      ((indices.take m).map List.length) = ((values.take m).map (fun l => nv * l.length)) := by
    intro m hm
    apply List.ext_getElem
    · simp; omega
    · intro i h1 h2
      simp only [List.length_map, List.length_take] at h1
      have := hrow i (by omega)
      rw [List.getD_eq_getElem _ _ (by omega), List.getD_eq_getElem _ _ (by omega)] at this
      simpa using this
  have hall : indices.map List.length = values.map (fun l => nv * l.length) := by
    have := hmap indices.length (le_refl _)
    rwa [List.take_length, hlen, List.take_length] at this
  have hcount : (indices.map List.length).map (· / nv) = values.map List.length := by
    rw [hall, List.map_map]
    apply List.map_congr_left
    intro a _
    simp [Nat.mul_div_cancel_left _ hnv]
  have hdiv : ∀ (s : ℕ) (l : List (List ℤ)),
      (prefixSums (nv * s) (l.map (fun l => nv * l.length))).map (· / nv) =
        prefixSums s (l.map List.length) := by
    intro s l
    induction l generalizing s with
    | nil => simp [prefixSums, Nat.mul_div_cancel_left _ hnv]
    | cons a l ih =>
      simp only [List.map_cons, prefixSums, Nat.mul_div_cancel_left _ hnv, List.cons.injEq, true_and]
      rw [← Nat.mul_add]
      exact ih (s + a.length)
  have hoff : (prefixSums 0 (indices.map List.length)).map (· / nv) =
      prefixSums 0 (values.map List.length) := by
    rw [hall]
    simpa using hdiv 0 values
  have hmain : copyToAll indices values nv = (indices.flatten, values.flatten) := by
    unfold copyToAll
    dsimp only
    rw [hcount, hoff, prefixSums_getLastD, prefixSums_getLastD]
    rw [allgatherv_flatten _ _ (by simp [List.length_flatten]),
      allgatherv_flatten _ _ (by simp [List.length_flatten])]
  refine ⟨hmain, ?_⟩
  intro r hr k hk
  rw [hmain]
  dsimp only
  constructor
  · rw [flatten_split values r (by omega), List.getD_append_right _ _ _ _ (by omega),
      List.getD_append _ _ _ _ (by omega)]
    congr 1; omega
  · have hb : (indices.take r).flatten.length = nv * (values.take r).flatten.length := by
      rw [List.length_flatten, hmap r (by omega), List.length_flatten]
      induction values.take r with
      | nil => simp
      | cons a l ih => simp [ih, Nat.mul_add]
    have hlen' := hrow r hr
    unfold row
    rw [flatten_split indices r hr, Nat.mul_add, ← hb, List.drop_append]
    have : (indices.take r).flatten.drop ((indices.take r).flatten.length + nv * k) = [] :=
      List.drop_of_length_le (by omega)
    rw [this, List.nil_append, Nat.add_sub_cancel_left, List.drop_append, List.take_append]
    have hle : nv * k + nv ≤ (indices.getD r []).length := by
      rw [hlen']
      calc nv * k + nv = nv * (k + 1) := (Nat.mul_succ nv k).symm
        _ ≤ nv * (values.getD r []).length := Nat.mul_le_mul_left _ hk
    have h0 : nv - (List.drop (nv * k) (indices.getD r [])).length = 0 := by
      rw [List.length_drop]; omega
    rw [h0, List.take_zero, List.append_nil]

/-- **C16.** After `copy_to_all` the index rows and values of all processes are concatenated in
rank order, and row `k` / value `k` of process `r` sit at the same position `base + k`. -/
theorem C16_copy_to_all (indices values : List (List ℤ)) (nv : ℕ) (hnv : 0 < nv)
    (hlen : indices.length = values.length)
    (hrow : ∀ r, r < indices.length → (indices.getD r []).length = nv * (values.getD r []).length) :
    copyToAll indices values nv = (indices.flatten, values.flatten) ∧
    ∀ r, r < indices.length → ∀ k, k < (values.getD r []).length →
      let base := (values.take r).flatten.length
      (copyToAll indices values nv).2.getD (base + k) 0 = (values.getD r []).getD k 0 ∧
      Spec.tuple nv (copyToAll indices values nv).1 (base + k) = Spec.tuple nv (indices.getD r []) k :=
  copyToAll_spec indices values nv hnv hlen hrow

example : copyToAll [[1, 2, 3, 4], [], [5, 6]] [[10, 20], [], [30]] 2 =
    ([1, 2, 3, 4, 5, 6], [10, 20, 30]) := by decide +kernel

/-- Row `c` of the partitioner: the own process, then the recorded destinations. -/
theorem partitioner_links (rank ncells : ℕ) (m : ℕ → Option (List ℕ)) (c : ℕ) (hc : c < ncells) :
    links (partitioner rank ncells m).1 (partitioner rank ncells m).2 c =
      rank :: (m c).getD [] := by
  have key : ∀ n, (List.range n).foldl (fun (st : List ℕ × List ℕ) c =>
      let d := st.1 ++ [rank]
      let d := match m c with
        | some l => d ++ l
        | none => d
      (d, st.2 ++ [d.length])) ([], [0]) =
      (((List.range n).map (fun c => rank :: (m c).getD [])).flatten,
        prefixSums 0 (((List.range n).map (fun c => rank :: (m c).getD [])).map List.length)) := by
    intro n
    induction n with
    | zero => simp [prefixSums]
    | succ n ih =>
      rw [List.range_succ, List.foldl_append, ih]
      simp only [List.foldl_cons, List.foldl_nil, List.map_append, List.map_singleton,
        prefixSums_append_single, List.flatten_append]
      cases hm : m n <;> simp [List.length_flatten]
  have hp : partitioner rank ncells m = _ := key ncells
  rw [hp, links_flatten _ _ (by simpa using hc), List.getD_eq_getElem _ _ (by simpa using hc)]
  simp

theorem cellToDests_aux (f2c : ℕ → ℕ) (subset : List ℕ) (dests : ℕ → List ℕ) (c n : ℕ) :
    (∀ i, i < n → f2c (subset.getD i 0) ≠ c) ∧
      (List.range n).foldl (fun (m : ℕ → Option (List ℕ)) i =>
        Function.update m (f2c (subset.getD i 0)) (some (dests i))) (fun _ => none) c = none ∨
    ∃ i, i < n ∧ f2c (subset.getD i 0) = c ∧
      (∀ i', i' < n → i < i' → f2c (subset.getD i' 0) ≠ c) ∧
      (List.range n).foldl (fun (m : ℕ → Option (List ℕ)) i =>
        Function.update m (f2c (subset.getD i 0)) (some (dests i))) (fun _ => none) c =
        some (dests i) := by
  induction n with
  | zero => left; simp
  | succ n ih =>
    rw [List.range_succ, List.foldl_append]
    simp only [List.foldl_cons, List.foldl_nil]
    by_cases h : f2c (subset.getD n 0) = c
    · right
      refine ⟨n, by omega, h, fun i' h1 h2 => by omega, ?_⟩
      rw [← h, Function.update_self]
    · rcases ih with ⟨h1, h2⟩ | ⟨i, h1, h2, h3, h4⟩
      · left
        refine ⟨fun i hi => ?_, ?_⟩
        · by_cases hin : i < n
          · exact h1 i hin
          · have : i = n := by omega
            subst this; exact h
        · rw [Function.update_of_ne (Ne.symm h)]; exact h2
      · right
        refine ⟨i, by omega, h2, fun i' hi' hlt => ?_, ?_⟩
        · by_cases hin : i' < n
          · exact h3 i' hin hlt
          · have : i' = n := by omega
            subst this; exact h
        · rw [Function.update_of_ne (Ne.symm h)]; exact h4

/-- **C15** (partial). Every owned cell is sent to its own process first; a cell without marked
facet nowhere else; and if no cell has two marked facets, a cell with marked facet number `i` is
also sent exactly to the ghost destinations of that facet.
Missing: cells with several marked facets, see `C15_two_facets_violated`. -/
theorem C15_partition_partial (rank ncells : ℕ) (f2c : ℕ → ℕ) (subset : List ℕ) (dests : ℕ → List ℕ)
    (c : ℕ) (hc : c < ncells) :
    let P := partitioner rank ncells (cellToDests f2c subset dests)
    (links P.1 P.2 c).head? = some rank ∧
    ((∀ i, i < subset.length → f2c (subset.getD i 0) ≠ c) → links P.1 P.2 c = [rank]) ∧
    ((∀ i i', i < subset.length → i' < subset.length →
        f2c (subset.getD i 0) = f2c (subset.getD i' 0) → i = i') →
      ∀ i, i < subset.length → f2c (subset.getD i 0) = c → links P.1 P.2 c = rank :: dests i) := by
  dsimp only
  rw [partitioner_links _ _ _ _ hc]
  rcases cellToDests_aux f2c subset dests c subset.length with ⟨h1, h2⟩ | ⟨i, h1, h2, h3, h4⟩
  · refine ⟨rfl, fun _ => ?_, fun _ i hi he => absurd he (h1 i hi)⟩
    unfold cellToDests; rw [h2]; rfl
  · refine ⟨rfl, fun h => absurd h2 (h i h1), fun hinj i' hi' he => ?_⟩
    have : i' = i := hinj i' i hi' h1 (he.trans h2.symm)
    subst this
    unfold cellToDests; rw [h4]; rfl

example : links (partitioner 7 3 (cellToDests (fun f => f / 4) [1, 9] (fun i => [i + 1]))).1
    (partitioner 7 3 (cellToDests (fun f => f / 4) [1, 9] (fun i => [i + 1]))).2 2 = [7, 2] := by
  decide +kernel

/-- **C15, violated for cells with several marked facets.** Such a cell is sent only to the
destinations of its *last* marked facet: a destination needed by an earlier facet of the same cell
and not by the last one is lost. -/
theorem C15_two_facets_violated (rank ncells : ℕ) (f2c : ℕ → ℕ) (subset : List ℕ)
    (dests : ℕ → List ℕ) (c i i' q : ℕ) (hc : c < ncells) (_hii : i < i') (hi : i' < subset.length)
    (_hfi : f2c (subset.getD i 0) = c) (hfi' : f2c (subset.getD i' 0) = c)
    (hlast : ∀ k, k < subset.length → i' < k → f2c (subset.getD k 0) ≠ c)
    (_hq : q ∈ dests i) (hq' : q ∉ dests i') (hqr : q ≠ rank) :
    q ∉ links (partitioner rank ncells (cellToDests f2c subset dests)).1
      (partitioner rank ncells (cellToDests f2c subset dests)).2 c := by
  rw [partitioner_links _ _ _ _ hc]
  rcases cellToDests_aux f2c subset dests c subset.length with ⟨h1, h2⟩ | ⟨k, h1, h2, h3, h4⟩
  · exact absurd hfi' (h1 i' hi)
  · have : k = i' := by
      rcases lt_trichotomy k i' with h | h | h
      · exact absurd hfi' (h3 i' hi h)
      · exact h
      · exact absurd h2 (hlast k h1 h)
    subst this
    unfold cellToDests
    rw [h4]
    simp [hqr, hq']

/-- Facets 0 and 1 of the same corner cell, needed on processes 1 and 2: process 1 never gets it. -/
example : links (partitioner 0 1 (cellToDests (fun _ => 0) [0, 1] (fun i => [i + 1]))).1
    (partitioner 0 1 (cellToDests (fun _ => 0) [0, 1] (fun i => [i + 1]))).2 0 = [0, 2] := by
  decide +kernel

theorem uniqueAdj_stableSort_length (l : List ℕ) :
    (uniqueAdj (stableSort (fun c : ℕ => (c : ℤ)) l)).length ≤ l.length := by
  calc _ ≤ (stableSort (fun c : ℕ => (c : ℤ)) l).length := (uniqueAdj_sublist _).length_le
    _ = l.length := stableSort_length _ _

/-- **C19.** A facet with `nq` contact map entries has at most `nq` linked cells; since
`create_distance_map` sets `max_links` to the number of points per facet, every block index
`3k + 3` (matrix) and `k + 1` (vector) of a linked cell `k` is within the allocated
`3·max_links + 1` resp. `max_links + 1` blocks. -/
theorem C19_link_bound (s2p pc : ℕ → ℕ) (facets : List ℤ) (nq : ℕ) (h : facets.length = nq) :
    (linkedCells s2p pc facets).length ≤ nq ∧
    ∀ k, k < (linkedCells s2p pc facets).length → 3 * k + 3 < 3 * nq + 1 ∧ k + 1 < nq + 1 := by
  have hle : (linkedCells s2p pc facets).length ≤ nq := by
    unfold linkedCells
    dsimp only
    refine le_trans (uniqueAdj_stableSort_length _) ?_
    have : ∀ (l : List ℤ) (init : List ℕ), (l.foldl (fun acc facet =>
        if facet ≥ 0 then acc ++ [pc (s2p facet.toNat)] else acc) init).length ≤
        init.length + l.length := by
      intro l
      induction l with
      | nil => simp
      | cons a l ih =>
        intro init
        simp only [List.foldl_cons, List.length_cons]
        split_ifs
        · have := ih (init ++ [pc (s2p a.toNat)])
          rw [List.length_append, List.length_singleton] at this; omega
        · have := ih init; omega
    have := this facets []
    simpa [h] using this
  exact ⟨hle, fun k hk => by omega⟩

example : (linkedCells (fun f => f) (fun c => c) [4, 2, -1, 4]).length = 2 := by decide

/-- **C19**, explicit recomputation: if every active facet has an entry in the contact map, the
value computed by `Contact::max_links` bounds the number of distinct cells of every facet. -/
theorem C19_max_links (map : List (List ℤ)) (cellOf : ℕ → ℕ) :
    ∃ m, maxLinks map.length map cellOf = some m ∧
      ∀ i, i < map.length → (linkedCells id cellOf (map.getD i [])).length ≤ m := by
  have hl : ∀ l : List ℤ, uniqueAdj (stableSort (fun c : ℕ => (c : ℤ))
      (l.filterMap (fun f => if f ≥ 0 then some (cellOf f.toNat) else none))) =
      linkedCells id cellOf l := by
    intro l
    unfold linkedCells
    rw [linkedCells_raw]
    simp only [List.nil_append]
    congr 2
    induction l with
    | nil => rfl
    | cons a l ih =>
      by_cases ha : a ≥ 0
      · simp_all
      · simp_all
  have key : ∀ n, n ≤ map.length → ∃ m, (List.range n).foldlM (fun m i => do
      let l ← map[i]?
      let cells := l.filterMap (fun f => if f ≥ 0 then some (cellOf f.toNat) else none)
      let cells := uniqueAdj (stableSort (fun c : ℕ => (c : ℤ)) cells)
      some (max m cells.length)) 0 = some m ∧
      ∀ i, i < n → (linkedCells id cellOf (map.getD i [])).length ≤ m := by
    intro n
    induction n with
    | zero => intro _; exact ⟨0, rfl, by simp⟩
    | succ n ih =>
      intro hn
      obtain ⟨m, h1, h2⟩ := ih (by omega)
      rw [List.range_succ, List.foldlM_append, h1]
      refine ⟨max m (linkedCells id cellOf (map.getD n [])).length, ?_, ?_⟩
      · have : map[n]? = some (map.getD n []) := by
          rw [List.getD_eq_getElem _ _ (by omega)]
          exact List.getElem?_eq_getElem (by omega)
        simp only [List.foldlM_cons, List.foldlM_nil, Option.bind_eq_bind, Option.bind_some, this, hl]
        rfl
      · intro i hi
        by_cases hin : i < n
        · exact le_trans (h2 i hin) (le_max_left _ _)
        · have : i = n := by omega
          subst this; exact le_max_right _ _
  exact key map.length (le_refl _)

example : maxLinks 2 [[4, 2, -1, 4], [1, -1]] (fun f => f) = some 2 := by decide +kernel

/-- **C74, violated.** `max_links` loops over all facets of the surface, ghosts included, while the
contact map has entries for the local facets only: as soon as the surface has a ghost facet the
recomputation reads past the end of the map. -/
theorem C74_max_links_ghost_violated (map : List (List ℤ)) (cellOf : ℕ → ℕ) (numActive : ℕ)
    (h : map.length < numActive) : maxLinks numActive map cellOf = none := by
  obtain ⟨d, rfl⟩ := Nat.exists_eq_add_of_lt h
  unfold maxLinks
  have : List.range (map.length + d + 1) = List.range map.length ++ map.length ::
      (List.range d).map (fun i => map.length + 1 + i) := by
    rw [show map.length + d + 1 = map.length + (d + 1) by omega, List.range_add,
      List.range_succ_eq_map]
    simp [Function.comp_def]
    intro a _; omega
  rw [this, List.foldlM_append]
  obtain ⟨m, h1, -⟩ := C19_max_links map cellOf
  unfold maxLinks at h1
  rw [h1]
  simp

/-- **C74**, what holds: on a surface without ghost facets the recomputation reads existing entries only and
returns the largest number of distinct cells linked to a facet (zero without facets).  Missing: surfaces with
ghost facets, see `C74_max_links_ghost_violated`. -/
theorem C74_no_ghosts_partial (map : List (List ℤ)) (cellOf : ℕ → ℕ) (numActive : ℕ) (h : numActive = map.length) :
    ∃ m, maxLinks numActive map cellOf = some m ∧
      (∀ l ∈ map, {c | ∃ f : ℕ, (f : ℤ) ∈ l ∧ c = cellOf f}.ncard ≤ m) ∧
      (m = 0 ∨ ∃ l ∈ map, {c | ∃ f : ℕ, (f : ℤ) ∈ l ∧ c = cellOf f}.ncard = m) := by
  subst h
  have hcard : ∀ l : List ℤ, {c | ∃ f : ℕ, (f : ℤ) ∈ l ∧ c = cellOf f}.ncard =
      (uniqueAdj (stableSort (fun c : ℕ => (c : ℤ))
        (l.filterMap (fun f => if f ≥ 0 then some (cellOf f.toNat) else none)))).length := by
    intro l
    generalize hr : uniqueAdj (stableSort (fun c : ℕ => (c : ℤ))
        (l.filterMap (fun f => if f ≥ 0 then some (cellOf f.toNat) else none))) = r
    have hn : r.Nodup := by
      rw [← hr]
      exact (uniqueAdj_strict (stableSort_nat_sorted _)).imp (fun h => h.ne)
    have hm : {c | ∃ f : ℕ, (f : ℤ) ∈ l ∧ c = cellOf f} = (r.toFinset : Set ℕ) := by
      ext c
      rw [← hr]
      simp only [Set.mem_setOf_eq, List.coe_toFinset, mem_uniqueAdj, mem_stableSort, List.mem_filterMap]
      constructor
      · rintro ⟨f, hf, rfl⟩
        exact ⟨f, hf, by simp⟩
      · rintro ⟨f, hf, h⟩
        by_cases h0 : f ≥ 0
        · rw [if_pos h0] at h
          exact ⟨f.toNat, by rwa [Int.toNat_of_nonneg h0], (Option.some.inj h).symm⟩
        · rw [if_neg h0] at h
          cases h
    rw [hm, Set.ncard_coe_finset, List.toFinset_card_of_nodup hn]
  have key : ∀ n ≤ map.length, ∃ m, maxLinks n map cellOf = some m ∧
      (∀ l ∈ map.take n, {c | ∃ f : ℕ, (f : ℤ) ∈ l ∧ c = cellOf f}.ncard ≤ m) ∧
      (m = 0 ∨ ∃ l ∈ map.take n, {c | ∃ f : ℕ, (f : ℤ) ∈ l ∧ c = cellOf f}.ncard = m) := by
    intro n
    induction n with
    | zero => intro _; exact ⟨0, rfl, by simp, Or.inl rfl⟩
    | succ n ih =>
      intro hn
      have hlt : n < map.length := by omega
      obtain ⟨m, h1, h2, h3⟩ := ih (by omega)
      refine ⟨max m {c | ∃ f : ℕ, (f : ℤ) ∈ map[n] ∧ c = cellOf f}.ncard, ?_, ?_, ?_⟩
      · unfold maxLinks at h1 ⊢
        rw [List.range_succ, List.foldlM_append, h1]
        simp only [List.foldlM_cons, List.foldlM_nil, Option.bind_eq_bind, Option.bind_some,
          List.getElem?_eq_getElem hlt, hcard]
        rfl
      · rw [List.take_succ_eq_append_getElem hlt]
        intro l hl
        rcases List.mem_append.mp hl with hl | hl
        · exact le_trans (h2 l hl) (le_max_left _ _)
        · rw [List.mem_singleton.mp hl]; exact le_max_right _ _
      · rw [List.take_succ_eq_append_getElem hlt]
        rcases le_total m {c | ∃ f : ℕ, (f : ℤ) ∈ map[n] ∧ c = cellOf f}.ncard with h | h
        · exact Or.inr ⟨map[n], List.mem_append_right _ (List.mem_singleton_self _), (max_eq_right h).symm⟩
        · rw [max_eq_left h]
          exact h3.imp_right (fun ⟨l, hl, e⟩ => ⟨l, List.mem_append_left _ hl, e⟩)
  obtain ⟨m, h1, h2, h3⟩ := key map.length le_rfl
  rw [List.take_length] at h2 h3
  exact ⟨m, h1, h2, h3⟩

/-- Facets linked to the cells 4, 2 and 1. -/
example : ∃ m, maxLinks 2 [[4, 2, -1, 4], [1, -1]] id = some m ∧ {c | ∃ f : ℕ, (f : ℤ) ∈ [4, 2, -1, (4 : ℤ)] ∧ c = id f}.ncard ≤ m := by
  obtain ⟨m, h, h', -⟩ := C74_no_ghosts_partial [[4, 2, -1, 4], [1, -1]] id 2 rfl
  exact ⟨m, h, h' _ (by simp)⟩

/-- One local and one ghost facet. -/
example : maxLinks 2 [[0, 1]] (fun f => f) = none := by decide +kernel

end Verif.Ghosting
