import Verif.Lemmas.SubMesh

/-!
Properties C26, C27, C28, C29, C75.
-/

namespace Verif.SubMesh

open Verif.Entities Verif.Ghosting

/-- C26: for every list of (cell, local facet) pairs with cells on the process, `parent_cells` is
strictly increasing and contains exactly the cells of the pairs; the map from parent cells to
submesh cells sends `parent_cells[i]` to `i` and any other cell to nothing. -/
theorem C26_parent_cells (n : ℕ) (pairs : List (ℕ × ℕ)) (hb : ∀ p ∈ pairs, p.1 < n) :
    let cells := parentCells pairs
    let m := meshToSub n cells
    cells.Pairwise (· < ·) ∧
    (∀ c, c ∈ cells ↔ ∃ p ∈ pairs, p.1 = c) ∧
    (∀ i, (h : i < cells.length) → links m.1 m.2 cells[i] = [i]) ∧
    (∀ c, c < n → (∀ p ∈ pairs, p.1 ≠ c) → links m.1 m.2 c = []) := by
  have hs := parentCells_strict pairs
  have hmem : ∀ c, c ∈ parentCells pairs ↔ ∃ p ∈ pairs, p.1 = c := by
    intro c
    rw [mem_parentCells]
    constructor
    · rintro ⟨lf, h⟩; exact ⟨_, h, rfl⟩
    · rintro ⟨⟨a, b⟩, h, rfl⟩; exact ⟨b, h⟩
  have hb' : ∀ c ∈ parentCells pairs, c < n := by
    intro c hc
    obtain ⟨p, hp, rfl⟩ := (hmem c).mp hc
    exact hb p hp
  have h := meshToSub_links n (parentCells pairs) hs hb'
  refine ⟨hs, hmem, h.1, fun c hc hno => h.2 c hc ?_⟩
  intro hcc
  obtain ⟨p, hp, e⟩ := (hmem c).mp hcc
  exact hno p hp e

/-- Two facets of cell 5 and one of cell 2, on a process with 7 cells. -/
example : parentCells [(5, 0), (2, 1), (5, 2)] = [2, 5] ∧
    (meshToSub 7 [2, 5]).1 = [0, 1] ∧ ∀ p ∈ [(5, 0), (2, 1), (5, 2)], p.1 < 7 := by decide

/-- C27: for pairs whose cells are in the submesh, `get_submesh_tuples` keeps the local facet, and
its cells go back to the input cells through `parent_cells`. -/
theorem C27_tuples (n : ℕ) (pairs facets : List (ℕ × ℕ)) (hb : ∀ p ∈ pairs, p.1 < n)
    (hf : ∀ p ∈ facets, p.1 ∈ pairs.map Prod.fst) :
    let cells := parentCells pairs
    let out := submeshTuples (meshToSub n cells) facets
    out.map (fun p => (cells[p.1]?, p.2)) = facets.map (fun p => (some p.1, p.2)) := by
  obtain ⟨hs, hmem, h1, -⟩ := C26_parent_cells n pairs hb
  dsimp only
  unfold submeshTuples
  rw [List.map_map]
  apply List.map_congr_left
  intro p hp
  obtain ⟨q, hq, e⟩ := List.mem_map.mp (hf p hp)
  obtain ⟨i, hi, hip⟩ := List.getElem_of_mem ((hmem p.1).mpr ⟨q, hq, e⟩)
  have : subCell (meshToSub n (parentCells pairs)) p.1 = i := by
    rw [← hip, subCell, h1 i hi]; rfl
  simp only [Function.comp, this, Prod.mk.injEq, and_true]
  rw [List.getElem?_eq_getElem hi, hip]

example : submeshTuples (meshToSub 7 (parentCells [(5, 0), (2, 1)])) [(5, 3), (2, 0)] =
    [(1, 3), (0, 0)] := by decide

/-- C75: `facet_map`: a submesh facet met by one of the input pairs has exactly one entry, the
submesh cell and the local facet of such a pair, and this cell has the facet at that place; a
facet met by no input pair has no entry.  `c2f` is the submesh cell-facet connectivity. -/
theorem C75_facet_map (n nf : ℕ) (pairs : List (ℕ × ℕ)) (c2f : ℕ → List ℕ)
    (hb : ∀ p ∈ pairs, p.1 < n) (hlf : ∀ c, ∀ p ∈ pairs, p.2 < (c2f c).length)
    (hnf : ∀ c, ∀ f ∈ c2f c, f < nf) :
    let cells := parentCells pairs
    let fm := facetMap nf (meshToSub n cells) c2f pairs
    (∀ i lf f, (h : i < cells.length) → (cells[i], lf) ∈ pairs → (c2f i)[lf]? = some f →
      ∃ j lf', ∃ h' : j < cells.length, (cells[j], lf') ∈ pairs ∧ (c2f j)[lf']? = some f ∧
        links fm.1 fm.2 f = [j, lf']) ∧
    (∀ f, f < nf →
      (∀ i lf, (h : i < cells.length) → (cells[i], lf) ∈ pairs → (c2f i)[lf]? ≠ some f) →
      links fm.1 fm.2 f = []) := by
  obtain ⟨hs, hmem, h1, -⟩ := C26_parent_cells n pairs hb
  have hsc : ∀ i, (h : i < (parentCells pairs).length) →
      subCell (meshToSub n (parentCells pairs)) (parentCells pairs)[i] = i := by
    intro i h; rw [subCell, h1 i h]; rfl
  have hsf : ∀ i lf, (h : i < (parentCells pairs).length) → ((parentCells pairs)[i], lf) ∈ pairs →
      (c2f i)[lf]? = some (subFacet (meshToSub n (parentCells pairs)) c2f ((parentCells pairs)[i], lf)) := by
    intro i lf h hp
    have hl : lf < (c2f i).length := hlf i _ hp
    rw [subFacet, hsc i h, List.getD_eq_getElem _ _ hl, List.getElem?_eq_getElem hl]
  have hidx : ∀ p ∈ pairs, ∃ i, ∃ h : i < (parentCells pairs).length, (parentCells pairs)[i] = p.1 :=
    fun p hp => List.getElem_of_mem ((hmem p.1).mpr ⟨p, hp, rfl⟩)
  have hbf : ∀ p ∈ pairs, subFacet (meshToSub n (parentCells pairs)) c2f p < nf := by
    intro p hp
    obtain ⟨i, hi, e⟩ := hidx p hp
    have h2 := hsf i p.2 hi (by rw [e]; exact hp)
    rw [e] at h2
    exact hnf i _ (List.mem_of_getElem? h2)
  have hspec := facetMap_spec nf (meshToSub n (parentCells pairs)) c2f pairs hbf
  dsimp only
  constructor
  · intro i lf f h hp hf
    have h2 := hsf i lf h hp
    rw [hf] at h2
    have hfe := Option.some.inj h2
    obtain ⟨q, hq, hqf, hl⟩ := hspec.1 f (by rw [hfe]; exact hbf _ hp) ⟨_, hp, hfe.symm⟩
    obtain ⟨j, hj, e⟩ := hidx q hq
    have hq' : ((parentCells pairs)[j], q.2) ∈ pairs := by rw [e]; exact hq
    refine ⟨j, q.2, hj, hq', ?_, ?_⟩
    · rw [hsf j q.2 hj hq', e, hqf]
    · rw [hl, ← e, hsc j hj]
  · intro f hf hno
    apply hspec.2 f hf
    intro p hp e
    obtain ⟨i, hi, hie⟩ := hidx p hp
    have hp' : ((parentCells pairs)[i], p.2) ∈ pairs := by rw [hie]; exact hp
    apply hno i p.2 hi hp'
    rw [hsf i p.2 hi hp', hie, e]

example : facetMap 5 (meshToSub 7 (parentCells [(5, 0), (2, 1)])) (fun c => [2 * c, 2 * c + 1, 4])
    [(5, 0), (2, 1)] = ([0, 1, 1, 0], [0, 0, 2, 4, 4, 4]) := by decide

/-- C28: whenever some submesh function agrees with `u` on every cell, the function produced by
`copy_function` agrees with `u` on every dof of every submesh cell; all other entries keep their
value. -/
theorem C28_copy_function (S : Spaces) (u uSub : Arr ℕ)
    (hex : ∃ w : Arr ℕ, ∀ c i j, c < S.numCells → i < S.nd → j < S.bs →
      w (S.bs * S.sub c i + j) = u (S.bs * S.parent (S.parentCell c) i + j)) :
    (∀ c i j, c < S.numCells → i < S.nd → j < S.bs →
      copyFunction S u uSub (S.bs * S.sub c i + j) = u (S.bs * S.parent (S.parentCell c) i + j)) ∧
    (∀ m, (∀ c i j, c < S.numCells → i < S.nd → j < S.bs → m ≠ S.bs * S.sub c i + j) →
      copyFunction S u uSub m = uSub m) := by
  obtain ⟨w, hw⟩ := hex
  constructor
  · intro c i j hc hi hj
    apply (copyFunction_puts S u).value ⟨c, hc, i, hi, j, hj, rfl, rfl⟩
    rintro v ⟨c', hc', i', hi', j', hj', hm, rfl⟩
    rw [← hw c i j hc hi hj, ← hw c' i' j' hc' hi' hj', hm]
  · intro m hm
    apply (copyFunction_puts S u).frame
    rintro v ⟨c', hc', i', hi', j', hj', e, -⟩
    exact hm c' i' j' hc' hi' hj' e

/-- The dofmap condition under which C28 applies to every `u`: dofs shared by submesh cells are
shared by their parent cells. -/
theorem C28_shared_dofs (S : Spaces) (u uSub : Arr ℕ)
    (hsh : ∀ c i c' i', c < S.numCells → i < S.nd → c' < S.numCells → i' < S.nd →
      S.sub c i = S.sub c' i' → S.parent (S.parentCell c) i = S.parent (S.parentCell c') i')
    (c i j : ℕ) (hc : c < S.numCells) (hi : i < S.nd) (hj : j < S.bs) :
    copyFunction S u uSub (S.bs * S.sub c i + j) = u (S.bs * S.parent (S.parentCell c) i + j) := by
  apply (copyFunction_puts S u).value ⟨c, hc, i, hi, j, hj, rfl, rfl⟩
  rintro v ⟨c', hc', i', hi', j', hj', hm, rfl⟩
  have hb : 0 < S.bs := by omega
  have e1 : S.sub c i = S.sub c' i' := by
    have := congrArg (· / S.bs) hm
    simpa [Nat.mul_add_div hb, Nat.div_eq_of_lt hj, Nat.div_eq_of_lt hj'] using this
  have e2 : j = j' := by rw [e1] at hm; omega
  rw [hsh c i c' i' hc hi hc' hi' e1, e2]

/-- Two interval cells sharing a dof, parent numbering reversed, block size 2. -/
example : ∃ S : Spaces, S.numCells = 2 ∧ S.bs = 2 ∧ S.nd = 2 ∧ S.sub 0 1 = S.sub 1 0 ∧
    (∀ c i c' i', c < S.numCells → i < S.nd → c' < S.numCells → i' < S.nd →
      S.sub c i = S.sub c' i' → S.parent (S.parentCell c) i = S.parent (S.parentCell c') i') := by
  refine ⟨⟨2, 2, 2, fun c i => c + i, fun c i => 9 - (c + i), fun c => c⟩, rfl, rfl, rfl, rfl, ?_⟩
  intro c i c' i' _ _ _ _ h
  simp only at h ⊢
  omega

/-- C29: after any history of `update_geometry` calls, whatever the submesh coordinates were, the
coordinates of every node of every submesh cell are the parent coordinates plus the displacement of
the last call alone. `dofsX` is the submesh geometry dofmap, `xmap` the map of submesh nodes to
parent nodes; geometry and displacement use the same nodes (isoparametric), at most three
components. The parent coordinates are an input that is only read. -/
theorem C29_last_update (S : Spaces) (dofsX : ℕ → ℕ → ℕ) (numX : ℕ) (xmap : ℕ → ℕ)
    (parentX : Arr ℕ) (subX0 : Arr ℕ) (history : List (Arr ℕ)) (u : Arr ℕ)
    (hbs : S.bs ≤ 3)
    (hx : ∀ c i, c < S.numCells → i < S.nd → dofsX c i < numX)
    (hiso : ∀ c i c' i', c < S.numCells → i < S.nd → c' < S.numCells → i' < S.nd →
      dofsX c i = dofsX c' i' → S.sub c i = S.sub c' i')
    (hsh : ∀ c i c' i', c < S.numCells → i < S.nd → c' < S.numCells → i' < S.nd →
      S.sub c i = S.sub c' i' → S.parent (S.parentCell c) i = S.parent (S.parentCell c') i')
    (c i k : ℕ) (hc : c < S.numCells) (hi : i < S.nd) (hk : k < 3) :
    (history ++ [u]).foldl (fun x u => subUpdateGeometry S dofsX numX xmap parentX u x) subX0
        (3 * dofsX c i + k) =
      parentX (3 * xmap (dofsX c i) + k) +
        if k < S.bs then u (S.bs * S.parent (S.parentCell c) i + k) else 0 := by
  rw [List.foldl_append, List.foldl_cons, List.foldl_nil]
  generalize history.foldl _ subX0 = x0
  unfold subUpdateGeometry updateGeometry
  have hA : Puts (loop numX (fun i => loop 3 (fun k (a : Arr ℕ) =>
      a.put (3 * i + k) (parentX (3 * xmap i + k)))))
      (fun m v => ∃ i, i < numX ∧ ∃ k, k < 3 ∧ m = 3 * i + k ∧ v = parentX (3 * xmap i + k)) :=
    Puts.loop _ (fun i _ => Puts.loop _ (fun k _ => Puts.put _ _))
  have hB : ∀ uS : Arr ℕ, Puts (loop S.numCells (fun c => loop S.nd (fun i => loop S.bs
      (fun j (a : Arr ℕ) => a.put (3 * dofsX c i + j) (uS (S.bs * S.sub c i + j))))))
      (fun m v => ∃ c, c < S.numCells ∧ ∃ i, i < S.nd ∧ ∃ j, j < S.bs ∧
        m = 3 * dofsX c i + j ∧ v = uS (S.bs * S.sub c i + j)) :=
    fun uS => Puts.loop _ (fun c _ => Puts.loop _ (fun i _ => Puts.loop _ (fun j _ => Puts.put _ _)))
  congr 1
  · apply hA.value ⟨dofsX c i, hx c i hc hi, k, hk, rfl, rfl⟩
    rintro w ⟨i', hi', k', hk', e, rfl⟩
    have : i' = dofsX c i := by omega
    have : k' = k := by omega
    subst_vars; rfl
  · by_cases h : k < S.bs
    · rw [if_pos h]
      apply (hB _).value ⟨c, hc, i, hi, k, h, rfl, (C28_shared_dofs S u _ hsh c i k hc hi h).symm⟩
      rintro w ⟨c', hc', i', hi', j', hj', e, rfl⟩
      have e1 : dofsX c i = dofsX c' i' := by omega
      have e2 : j' = k := by omega
      rw [e2, ← hiso c i c' i' hc hi hc' hi' e1, C28_shared_dofs S u _ hsh c i k hc hi h]
    · rw [if_neg h]
      apply (hB _).frame (a := fun _ => 0)
      rintro w ⟨c', hc', i', hi', j', hj', e, -⟩
      omega

/-- Same two cells, with the geometry dofmap numbered differently from the displacement. -/
example : ∃ (S : Spaces) (dofsX : ℕ → ℕ → ℕ), S.numCells = 2 ∧ S.bs ≤ 3 ∧
    (∀ c i, c < S.numCells → i < S.nd → dofsX c i < 3) ∧
    (∀ c i c' i', c < S.numCells → i < S.nd → c' < S.numCells → i' < S.nd →
      dofsX c i = dofsX c' i' → S.sub c i = S.sub c' i') ∧
    (∀ c i c' i', c < S.numCells → i < S.nd → c' < S.numCells → i' < S.nd →
      S.sub c i = S.sub c' i' → S.parent (S.parentCell c) i = S.parent (S.parentCell c') i') := by
  refine ⟨⟨2, 2, 2, fun c i => c + i, fun c i => 9 - (c + i), fun c => c⟩, fun c i => 2 - (c + i),
    rfl, by decide, ?_, ?_, ?_⟩
  · intro c i hc hi; simp only at *; omega
  · intro c i c' i' hc hi hc' hi' h; simp only at *; omega
  · intro c i c' i' hc hi hc' hi' h; simp only at *; omega

end Verif.SubMesh
