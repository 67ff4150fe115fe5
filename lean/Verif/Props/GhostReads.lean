import Verif.Model.GhostReads
import Verif.Spec.GhostReads
import Verif.Props.Ghosting
import Mathlib.Algebra.BigOperators.Field
import Mathlib.Tactic.IntervalCases
import Mathlib.Tactic.Linarith

/-!
Property C200: array accesses of `compute_ghost_cell_destinations`.
-/

namespace Verif.Ghosting

open Verif.Spec

noncomputable section

theorem facetLoopChecked_eq (offsets : List ℕ) (near : List (List ℕ)) (p nf : ℕ) (st : List ℕ × ℕ)
    (hl : nf + 1 ≤ st.1.length) (hn : st.2 + nf ≤ near.length) :
    facetLoopChecked offsets near p nf st = some (facetLoop offsets (fun i => near.getD i []) p nf st)
    ∧ (facetLoop offsets (fun i => near.getD i []) p nf st).2 = st.2 + nf := by
  have key : ∀ k ≤ nf, ∃ t : List ℕ × ℕ,
      (List.range k).foldlM (fun (st : List ℕ × ℕ) j => do
        let ns ← near[st.2]?
        let nb := st.1 ++ facetProcs offsets p ns
        if j + 1 < nb.length then some (nb.set (j + 1) (nb.length - (nf + 1)), st.2 + 1) else none) st = some t
      ∧ (List.range k).foldl (fun (st : List ℕ × ℕ) j =>
        let nb := st.1 ++ facetProcs offsets p (near.getD st.2 [])
        (nb.set (j + 1) (nb.length - (nf + 1)), st.2 + 1)) st = t
      ∧ nf + 1 ≤ t.1.length ∧ t.2 = st.2 + k := by
    intro k
    induction k with
    | zero => intro _; exact ⟨st, rfl, rfl, hl, rfl⟩
    | succ k ih =>
      intro hk
      obtain ⟨t, e1, e2, h1, h2⟩ := ih (by omega)
      have hlt : t.2 < near.length := by omega
      refine ⟨((t.1 ++ facetProcs offsets p (near.getD t.2 [])).set (k + 1)
        ((t.1 ++ facetProcs offsets p (near.getD t.2 [])).length - (nf + 1)), t.2 + 1), ?_, ?_, ?_, ?_⟩
      · rw [List.range_succ, List.foldlM_append, e1]
        simp only [List.foldlM_cons, List.foldlM_nil, Option.bind_eq_bind, Option.bind_some, List.getElem?_eq_getElem hlt,
          List.getD_eq_getElem _ _ hlt]
        rw [if_pos (by simp; omega)]
        rfl
      · rw [List.range_succ, List.foldl_append, e2]
        rfl
      · simp
        omega
      · simp only
        omega
  obtain ⟨t, e1, e2, -, h2⟩ := key nf le_rfl
  refine ⟨?_, ?_⟩
  · unfold facetLoopChecked facetLoop
    rw [e1, e2]
  · unfold facetLoop
    rw [e2, h2]

theorem rootLoopChecked_eq (counts : List ℕ) (near : List (List ℕ)) (h : near.length = counts.sum) :
    rootLoopChecked counts near = some (rootLoop counts (fun i => near.getD i [])) := by
  have key : ∀ k ≤ counts.length, ∃ t : Root,
      (List.range k).foldlM (fun (st : Root) p => do
        let nf ← counts[p]?
        let r ← facetLoopChecked (prefixSums 0 counts) near p nf (resize st.neighborP (nf + 1), st.i)
        let procs := st.nbrProcs ++ r.1
        some (⟨procs, st.nbrOffsets ++ [procs.length], r.1, r.2⟩ : Root)) ⟨[], [0], [], 0⟩ = some t
      ∧ (List.range k).foldl (fun (st : Root) p =>
        let nf := counts.getD p 0
        let r := facetLoop (prefixSums 0 counts) (fun i => near.getD i []) p nf (resize st.neighborP (nf + 1), st.i)
        let procs := st.nbrProcs ++ r.1
        (⟨procs, st.nbrOffsets ++ [procs.length], r.1, r.2⟩ : Root)) ⟨[], [0], [], 0⟩ = t
      ∧ t.i = (counts.take k).sum := by
    intro k
    induction k with
    | zero => intro _; exact ⟨_, rfl, rfl, by simp⟩
    | succ k ih =>
      intro hk
      obtain ⟨t, e1, e2, h1⟩ := ih (by omega)
      have hlt : k < counts.length := by omega
      have htake : (counts.take (k + 1)).sum = (counts.take k).sum + counts[k] := by
        rw [List.take_succ_eq_append_getElem hlt, List.sum_append, List.sum_singleton]
      have hle : (counts.take (k + 1)).sum ≤ counts.sum := by
        have := take_sum_mono counts hk
        rwa [List.take_length] at this
      obtain ⟨f1, f2⟩ := facetLoopChecked_eq (prefixSums 0 counts) near k counts[k]
        (resize t.neighborP (counts[k] + 1), t.i) (by simp [resize]; omega) (by dsimp only; omega)
      obtain ⟨r, hr⟩ : ∃ r, r = facetLoop (prefixSums 0 counts) (fun i => near.getD i []) k counts[k]
        (resize t.neighborP (counts[k] + 1), t.i) := ⟨_, rfl⟩
      rw [← hr] at f1 f2
      refine ⟨⟨t.nbrProcs ++ r.1, t.nbrOffsets ++ [(t.nbrProcs ++ r.1).length], r.1, r.2⟩, ?_, ?_, ?_⟩
      · rw [List.range_succ, List.foldlM_append, e1]
        simp only [List.foldlM_cons, List.foldlM_nil, Option.bind_eq_bind, Option.bind_some, List.getElem?_eq_getElem hlt, f1]
        rfl
      · rw [List.range_succ, List.foldl_append, e2]
        simp only [List.foldl_cons, List.foldl_nil, List.getD_eq_getElem _ _ hlt, ← hr]
      · show r.2 = _
        rw [f2, htake, ← h1]
  obtain ⟨t, e1, e2, -⟩ := key counts.length le_rfl
  unfold rootLoopChecked rootLoop
  rw [e1, e2]

theorem sendSizes_ok {size : ℕ} {o : List ℕ} (h : size < o.length) : ∃ s, sendSizes size o = some s := by
  unfold sendSizes
  have key : ∀ l : List ℕ, (∀ i ∈ l, i + 1 < o.length) → ∃ s, l.mapM (fun i => do
    let a ← o[i + 1]?
    let b ← o[i]?
    some (Int.ofNat a - Int.ofNat b)) = some s := by
    intro l
    induction l with
    | nil => exact fun _ => ⟨[], rfl⟩
    | cons i l ih =>
      intro hl
      obtain ⟨s, hs⟩ := ih (fun j hj => hl j (List.mem_cons_of_mem _ hj))
      have h1 := hl i List.mem_cons_self
      have h2 : i < o.length := by omega
      refine ⟨(Int.ofNat o[i + 1] - Int.ofNat o[i]) :: s, ?_⟩
      rw [List.mapM_cons, List.getElem?_eq_getElem h1, List.getElem?_eq_getElem h2, hs]
      rfl
  exact key _ (fun i hi => by have := List.mem_range.mp hi; omega)

/-- C200, what holds: process zero accesses its arrays inside only, for all numbers of facets and results of
the search.  The part it sends to a process can be unpacked: it gives a well-formed adjacency list with one
node per facet of the process.  Missing: the other processes, see `C200_offsets_violated`. -/
theorem C200_root_partial (counts : List ℕ) (near : List (List ℕ)) (hnear : near.length = counts.sum) (hsize : 0 < counts.length) :
    (∃ r, ghostDestinations 0 counts near = some r)
    ∧ ∃ root, rootLoopChecked counts near = some root
      ∧ ∀ p (hp : p < counts.length), ∃ o d, unpackDests (links root.nbrProcs root.nbrOffsets p) counts[p] = some (o, d)
        ∧ AdjacencyOk counts[p] d o := by
  have hroot := rootLoopChecked_eq counts near hnear
  obtain ⟨blocks, hb, h1, h2, h3⟩ := rootLoop_spec counts (fun i => near.getD i [])
  have hun : ∀ p (hp : p < counts.length), ∃ o d,
      unpackDests (links (rootLoop counts (fun i => near.getD i [])).nbrProcs (rootLoop counts (fun i => near.getD i [])).nbrOffsets p)
        counts[p] = some (o, d) ∧ AdjacencyOk counts[p] d o := by
    intro p hp
    have h4 := h3 p hp
    dsimp only at h4
    rw [h1, h2, links_flatten blocks p (by omega), h4, List.getD_eq_getElem _ _ hp]
    generalize hls : destLists (prefixSums 0 counts) (fun i => near.getD i []) p counts[p] (counts.take p).sum = ls
    have hlen : ls.length = counts[p] := by rw [← hls]; simp [destLists]
    have hpl : (prefixSums 0 (ls.map List.length)).length = counts[p] + 1 := by simp [hlen]
    refine ⟨prefixSums 0 (ls.map List.length), ls.flatten, ?_, hpl, ?_, ?_, ?_⟩
    · unfold unpackDests
      rw [if_pos (by rw [List.length_append, hpl]; omega), List.take_left' hpl, List.drop_left' hpl]
    · rw [prefixSums_getD _ _ _ (by omega)]
      simp
    · intro i hi
      rw [prefixSums_getD _ _ _ (by simp; omega), prefixSums_getD _ _ _ (by simp; omega)]
      have := take_sum_mono (ls.map List.length) (show i ≤ i + 1 by omega)
      omega
    · rw [prefixSums_getD _ _ _ (by simp [hlen]), List.take_of_length_le (by simp [hlen]), List.length_flatten]
      simp
  refine ⟨?_, _, hroot, hun⟩
  obtain ⟨o, d, h4, -⟩ := hun 0 hsize
  obtain ⟨s, hs⟩ := sendSizes_ok (size := counts.length) (o := (rootLoop counts (fun i => near.getD i [])).nbrOffsets)
    (by rw [h2]; simp [hb])
  refine ⟨(o, d), ?_⟩
  unfold ghostDestinations
  rw [hroot]
  simp only [Option.bind_eq_bind, Option.bind_some, if_true, hs, List.getElem?_eq_getElem hsize, h4]

/-- C200, what does not: every process but zero reads `nbr_offsets` past its end (line 399), in every run with
at least two processes, whatever the mesh and the facets. -/
theorem C200_offsets_violated (counts : List ℕ) (near : List (List ℕ)) (rank : ℕ) (h0 : rank ≠ 0) (h : rank < counts.length) :
    ghostDestinations rank counts near = none := by
  have hs : sendSizes counts.length [0] = none := by
    unfold sendSizes
    obtain ⟨n, hn⟩ : ∃ n, counts.length = n + 1 := ⟨counts.length - 1, by omega⟩
    rw [hn, List.range_succ_eq_map, List.mapM_cons]
    rfl
  unfold ghostDestinations
  cases rootLoopChecked counts near with
  | none => rfl
  | some root =>
    simp only [Option.bind_eq_bind, Option.bind_some, if_neg h0, hs]
    rfl

/-- The sum over the vertices of a facet. -/
theorem midpoint_sum (x : List ℝ) (geom : List ℕ) (i nv : ℕ) (hg : ∀ j < nv, i * nv + j < geom.length)
    (hx : ∀ g ∈ geom, 3 * (g + 1) ≤ x.length) :
    (List.range nv).foldlM (fun (m : ℝ × ℝ × ℝ) j => do
        let g ← geom[i * nv + j]?
        let x0 ← x[g * 3 + 0]?
        let x1 ← x[g * 3 + 1]?
        let x2 ← x[g * 3 + 2]?
        some (m.1 + x0 / nv, m.2.1 + x1 / nv, m.2.2 + x2 / nv)) (0, 0, 0)
      = some (∑ j ∈ Finset.range nv, x.getD (3 * geom.getD (i * nv + j) 0 + 0) 0 / nv,
        ∑ j ∈ Finset.range nv, x.getD (3 * geom.getD (i * nv + j) 0 + 1) 0 / nv,
        ∑ j ∈ Finset.range nv, x.getD (3 * geom.getD (i * nv + j) 0 + 2) 0 / nv) := by
  obtain ⟨c, hc⟩ : ∃ c : ℝ, c = nv := ⟨_, rfl⟩
  rw [← hc]
  have key : ∀ k ≤ nv, (List.range k).foldlM (fun (m : ℝ × ℝ × ℝ) j => do
        let g ← geom[i * nv + j]?
        let x0 ← x[g * 3 + 0]?
        let x1 ← x[g * 3 + 1]?
        let x2 ← x[g * 3 + 2]?
        some (m.1 + x0 / c, m.2.1 + x1 / c, m.2.2 + x2 / c)) (0, 0, 0)
      = some (∑ j ∈ Finset.range k, x.getD (3 * geom.getD (i * nv + j) 0 + 0) 0 / c,
        ∑ j ∈ Finset.range k, x.getD (3 * geom.getD (i * nv + j) 0 + 1) 0 / c,
        ∑ j ∈ Finset.range k, x.getD (3 * geom.getD (i * nv + j) 0 + 2) 0 / c) := by
    intro k
    induction k with
    | zero => intro _; simp
    | succ k ih =>
      intro hk
      have h1 := hg k (by omega)
      have h2 := hx _ (List.getElem_mem h1)
      have e : ∀ a < 3, x[geom[i * nv + k] * 3 + a]? = some (x.getD (3 * geom.getD (i * nv + k) 0 + a) 0) := by
        intro a ha
        rw [List.getD_eq_getElem geom _ h1, List.getD_eq_getElem x _ (by omega), List.getElem?_eq_getElem (by omega)]
        congr 2
        omega
      rw [List.range_succ, List.foldlM_append, ih (by omega)]
      simp only [List.foldlM_cons, List.foldlM_nil, Option.bind_eq_bind, Option.bind_some, List.getElem?_eq_getElem h1,
        e 0 (by omega), e 1 (by omega), e 2 (by omega), Finset.sum_range_succ]
      rfl
  exact key nv le_rfl

/-- C200, the points sent to process zero: if every facet has `nv` nodes of the mesh, the arrays are accessed
inside only and point `i` is the mean of the nodes of facet `i`. -/
theorem C200_midpoints (x : List ℝ) (geom : List ℕ) (nf nv : ℕ) (hgeom : geom.length = nf * nv)
    (hx : ∀ g ∈ geom, 3 * (g + 1) ≤ x.length) :
    ∃ m, midpoints x geom nf = some m ∧ m.length = 3 * nf
      ∧ ∀ i < nf, ∀ k < 3, m.getD (3 * i + k) 0
        = (∑ j ∈ Finset.range nv, x.getD (3 * geom.getD (i * nv + j) 0 + k) 0) / nv := by
  unfold midpoints
  by_cases h0 : nf > 0
  · have hnv : geom.length / nf = nv := by rw [hgeom]; exact Nat.mul_div_cancel_left nv h0
    rw [if_pos h0]
    simp only [hnv]
    have key : ∀ n ≤ nf, ∃ m : List ℝ, (List.range n).foldlM (fun (out : List ℝ) i => do
        let m ← (List.range nv).foldlM (fun (m : ℝ × ℝ × ℝ) j => do
          let g ← geom[i * nv + j]?
          let x0 ← x[g * 3 + 0]?
          let x1 ← x[g * 3 + 1]?
          let x2 ← x[g * 3 + 2]?
          some (m.1 + x0 / nv, m.2.1 + x1 / nv, m.2.2 + x2 / nv)) (0, 0, 0)
        some (out ++ [m.1, m.2.1, m.2.2])) [] = some m ∧ m.length = 3 * n
        ∧ ∀ i < n, ∀ k < 3, m.getD (3 * i + k) 0
          = (∑ j ∈ Finset.range nv, x.getD (3 * geom.getD (i * nv + j) 0 + k) 0) / nv := by
      intro n
      induction n with
      | zero => intro _; exact ⟨[], rfl, rfl, fun i hi => by omega⟩
      | succ n ih =>
        intro hn
        obtain ⟨m, e1, e2, e3⟩ := ih (by omega)
        have hsum := midpoint_sum x geom n nv (fun j hj => by rw [hgeom]; nlinarith) hx
        simp only [Nat.add_zero] at e1 hsum
        refine ⟨m ++ [∑ j ∈ Finset.range nv, x.getD (3 * geom.getD (n * nv + j) 0) 0 / nv,
          ∑ j ∈ Finset.range nv, x.getD (3 * geom.getD (n * nv + j) 0 + 1) 0 / nv,
          ∑ j ∈ Finset.range nv, x.getD (3 * geom.getD (n * nv + j) 0 + 2) 0 / nv], ?_, ?_, ?_⟩
        · simp only [Nat.add_zero]
          rw [List.range_succ, List.foldlM_append, e1]
          simp only [Option.bind_eq_bind] at hsum
          simp only [List.foldlM_cons, List.foldlM_nil, Option.bind_eq_bind, Option.bind_some, hsum]
          rfl
        · simp [e2]; omega
        · intro i hi k hk
          by_cases hin : i < n
          · rw [List.getD_append _ _ _ _ (by omega)]
            exact e3 i hin k hk
          · obtain rfl : i = n := by omega
            rw [List.getD_append_right _ _ _ _ (by omega), e2, Nat.add_sub_cancel_left, Finset.sum_div]
            interval_cases k <;> simp
    exact key nf le_rfl
  · obtain rfl : nf = 0 := by omega
    exact ⟨[], by simp, rfl, fun i hi => by omega⟩

/-- Two facets of two nodes each that share a node: the midpoints of the sides of a triangle. -/
example : ∃ m, midpoints [0, 0, 0, 2, 0, 0, 0, 2, 0] [0, 1, 1, 2] 2 = some m ∧ m.getD 0 0 = 1 ∧ m.getD 4 0 = 1 := by
  obtain ⟨m, h1, -, h3⟩ := C200_midpoints [0, 0, 0, 2, 0, 0, 0, 2, 0] [0, 1, 1, 2] 2 2 rfl (by simp)
  have a := h3 0 (by norm_num) 0 (by norm_num)
  have b := h3 1 (by norm_num) 1 (by norm_num)
  refine ⟨m, h1, a.trans ?_, b.trans ?_⟩ <;> norm_num [Finset.sum_range_succ]

/-- Three processes with 2, 0 and 1 facets; the facets of the first are near the other one.  Process zero sends
the offsets and destinations of each process; the others fail before they unpack them. -/
example : rootLoopChecked [2, 0, 1] [[1, 2], [0], [0]] ≠ none
    ∧ ghostDestinations 0 [2, 0, 1] [[1, 2], [0], [0]] = some ([0, 1, 1], [2])
    ∧ ghostDestinations 2 [2, 0, 1] [[1, 2], [0], [0]] = none := by decide +kernel

end

end Verif.Ghosting
