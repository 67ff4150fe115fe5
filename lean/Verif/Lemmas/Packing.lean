import Verif.Spec.Packing
import Verif.Lib.Puts
import Verif.Lib.Radix
import Verif.Props.Entities
import Verif.Lemmas.SubMesh

namespace Verif.Packing

open Verif.Entities Verif.SubMesh Finset

theorem foldlM_ok {σ : Type} (n : ℕ) (body : σ → ℕ → Except Err σ) (f : ℕ → σ → σ) (s : σ)
    (h : ∀ i s, i < n → body s i = .ok (f i s)) :
    (List.range n).foldlM body s = .ok (loop n f s) := by
  induction n with
  | zero => rfl
  | succ n ih =>
    rw [List.range_succ, List.foldlM_append, ih (fun i s hi => h i s (by omega)), loop_succ]
    show (do let s ← List.foldlM body (loop n f s) [n]; pure s) = _
    simp [h n _ (Nat.lt_succ_self n)]

/-- `sort_cells` on non-negative cells, including the empty list. -/
theorem sortCells_nonneg (cells : List ℤ) (perm : List ℕ) (hnn : ∀ c ∈ cells, 0 ≤ c) :
    ∃ r, sortCells cells perm = .ok r
      ∧ r.unique.Pairwise (· < ·) ∧ (∀ c, c ∈ r.unique ↔ c ∈ cells)
      ∧ ∀ k (hk : k < r.unique.length), SortedCells.indices r k
            = (List.range cells.length).filter (fun i => decide (cells.getD i 0 = r.unique[k])) := by
  by_cases hne : cells = []
  · subst hne
    refine ⟨⟨[], [0, 0], perm⟩, (C06_special [] perm).1 rfl, by simp, by simp, ?_⟩
    intro k hk; simp at hk
  · obtain ⟨r, h1, h2, h3, -, -, -, -, h8⟩ := C06_sorted cells perm hne hnn
    exact ⟨r, h1, h2, h3, h8⟩

theorem mem_positiveToOld (cells : List ℤ) (j : ℕ) :
    j ∈ positiveToOld cells ↔ j < cells.length ∧ 0 ≤ cells.getD j 0 := by
  simp [positiveToOld]

theorem positiveToOld_strict (cells : List ℤ) : (positiveToOld cells).Pairwise (· < ·) :=
  List.Pairwise.filter _ List.pairwise_lt_range

theorem positiveCells_length (cells : List ℤ) :
    (positiveCells cells).length = (positiveToOld cells).length := by simp [positiveCells]

theorem positiveCells_getD (cells : List ℤ) (ind : ℕ) (h : ind < (positiveToOld cells).length) :
    (positiveCells cells).getD ind 0 = cells.getD ((positiveToOld cells).getD ind 0) 0 := by
  rw [List.getD_eq_getElem _ _ (by simpa [positiveCells] using h), List.getD_eq_getElem _ _ h]
  simp [positiveCells]

theorem mem_positiveCells (cells : List ℤ) (c : ℤ) :
    c ∈ positiveCells cells ↔ c ∈ cells ∧ 0 ≤ c := by
  simp only [positiveCells, List.mem_map, mem_positiveToOld]
  constructor
  · rintro ⟨j, ⟨hj, hn⟩, rfl⟩
    exact ⟨by rw [List.getD_eq_getElem _ _ hj]; exact List.getElem_mem hj, hn⟩
  · rintro ⟨hc, hn⟩
    obtain ⟨j, hj, rfl⟩ := List.getElem_of_mem hc
    refine ⟨j, ⟨hj, ?_⟩, ?_⟩ <;> rw [List.getD_eq_getElem _ _ hj]
    exact hn

theorem strict_getD_inj {l : List ℕ} (h : l.Pairwise (· < ·)) {a b : ℕ} (ha : a < l.length)
    (hb : b < l.length) (e : l.getD a 0 = l.getD b 0) : a = b := by
  rw [List.getD_eq_getElem _ _ ha, List.getD_eq_getElem _ _ hb] at e
  rcases Nat.lt_trichotomy a b with h1 | h1 | h1
  · have := List.pairwise_iff_getElem.mp h a b ha hb h1; omega
  · exact h1
  · have := List.pairwise_iff_getElem.mp h b a hb ha h1; omega

theorem strict_ge_index {l : List ℕ} (h : l.Pairwise (· < ·)) : ∀ a, (ha : a < l.length) →
    a ≤ l[a] := by
  intro a
  induction a with
  | zero => intro _; omega
  | succ a ih =>
    intro ha
    have h1 := ih (by omega)
    have h2 := List.pairwise_iff_getElem.mp h a (a + 1) (by omega) ha (by omega)
    omega

/-- If the non-negative entries come first, filtering does not move them. -/
theorem positiveToOld_prefix (cells : List ℤ)
    (h : ∀ q q', q' < q → q < cells.length → 0 ≤ cells.getD q 0 → 0 ≤ cells.getD q' 0) :
    ∃ n, positiveToOld cells = List.range n := by
  have key : ∀ (p : ℕ → Bool) (n : ℕ), (∀ q q', q' < q → q < n → p q = true → p q' = true) →
      ∃ m, (List.range n).filter p = List.range m := by
    intro p n
    induction n with
    | zero => intro _; exact ⟨0, by simp⟩
    | succ n ih =>
      intro hp
      by_cases hn : p n = true
      · refine ⟨n + 1, ?_⟩
        rw [List.filter_eq_self]
        intro a ha
        rcases Nat.lt_or_ge a n with h' | h'
        · exact hp n a h' (by omega) hn
        · have : a = n := by have := List.mem_range.mp ha; omega
          rw [this]; exact hn
      · obtain ⟨m, hm⟩ := ih (fun q q' h1 h2 => hp q q' h1 (by omega))
        refine ⟨m, ?_⟩
        rw [List.range_succ, List.filter_append, hm]
        simp [hn]
  apply key
  intro q q' h1 h2 h3
  simp only [ge_iff_le, decide_eq_true_eq] at h3 ⊢
  exact h q q' h1 h2 h3

@[simp] theorem row_length (P : PairData) (i : ℕ) : (P.row i).length = P.nq := by
  simp [PairData.row]

theorem row_getD (P : PairData) (i q : ℕ) (h : q < P.nq) :
    (P.row i).getD q 0 = P.facets (i * P.nq + q) := by
  rw [List.getD_eq_getElem _ _ (by simpa using h)]
  simp [PairData.row]

@[simp] theorem testCells_length (P : PairData) (i : ℕ) : (testCells P i).length = P.nq := by
  simp [testCells]

@[simp] theorem gradCells_length (P : PairData) (i : ℕ) : (gradCells P i).length = P.nq := by
  simp [gradCells]

theorem testCells_getD (P : PairData) (i q : ℕ) (h : q < P.nq) :
    (testCells P i).getD q 0 = if P.facets (i * P.nq + q) ≥ 0 then
      (P.parentCells (P.subCell (P.facets (i * P.nq + q)).toNat) : ℤ) else -1 := by
  rw [List.getD_eq_getElem _ _ (by simpa using h)]
  simp [testCells, PairData.row]

theorem gradCells_getD (P : PairData) (i q : ℕ) (h : q < P.nq) :
    (gradCells P i).getD q 0 = if P.facets (i * P.nq + q) < 0 then -1 else
      (P.subCell (P.facets (i * P.nq + q)).toNat : ℤ) := by
  rw [List.getD_eq_getElem _ _ (by simpa using h)]
  simp [gradCells, PairData.row]

theorem testCells_eq_iff (P : PairData) (i q c : ℕ) (h : q < P.nq) :
    (testCells P i).getD q 0 = (c : ℤ) ↔ Spec.LinkedTo P i q c := by
  rw [testCells_getD P i q h]
  constructor
  · intro e
    by_cases hf : P.facets (i * P.nq + q) ≥ 0
    · rw [if_pos hf] at e
      exact ⟨_, (Int.toNat_of_nonneg hf).symm, by exact_mod_cast e⟩
    · rw [if_neg hf] at e; omega
  · rintro ⟨f, hf, rfl⟩
    rw [hf, if_pos (by omega)]; simp

theorem testCells_nonneg_iff (P : PairData) (i q : ℕ) (h : q < P.nq) :
    0 ≤ (testCells P i).getD q 0 ↔ 0 ≤ P.facets (i * P.nq + q) := by
  rw [testCells_getD P i q h]
  by_cases hf : P.facets (i * P.nq + q) ≥ 0
  · rw [if_pos hf]; constructor <;> intro _ <;> omega
  · rw [if_neg hf]; constructor <;> intro _ <;> omega

theorem gradCells_nonneg_iff (P : PairData) (i q : ℕ) (h : q < P.nq) :
    0 ≤ (gradCells P i).getD q 0 ↔ 0 ≤ P.facets (i * P.nq + q) := by
  rw [gradCells_getD P i q h]
  by_cases hf : P.facets (i * P.nq + q) < 0
  · rw [if_pos hf]; constructor <;> intro _ <;> omega
  · rw [if_neg hf]; constructor <;> intro _ <;> omega

/-- The sorted cells of `pack_test_functions` are the link list. -/
theorem testSort_spec (P : PairData) (i : ℕ) (L : List ℕ) (hL : Spec.IsLinkList P i L) :
    ∃ s, testSort P i = .ok s ∧ s.unique = L.map (fun c : ℕ => (c : ℤ)) ∧
      ∀ j (hj : j < L.length), SortedCells.indices s j =
        (List.range (positiveToOld (testCells P i)).length).filter (fun ind =>
          decide ((testCells P i).getD ((positiveToOld (testCells P i)).getD ind 0) 0 = (L[j] : ℤ))) := by
  obtain ⟨s, h1, h2, h3, h4⟩ := sortCells_nonneg (positiveCells (testCells P i))
    (List.replicate (positiveCells (testCells P i)).length 0)
    (fun c hc => ((mem_positiveCells _ c).mp hc).2)
  have hu : s.unique = L.map (fun c : ℕ => (c : ℤ)) := by
    apply strict_ext h2
    · rw [List.pairwise_map]
      exact List.Pairwise.imp (fun h => by exact_mod_cast h) hL.1
    · intro c
      rw [h3, mem_positiveCells, List.mem_map]
      constructor
      · rintro ⟨hc, hn⟩
        refine ⟨c.toNat, (hL.2 _).mpr ?_, Int.toNat_of_nonneg hn⟩
        obtain ⟨q, hq, e⟩ := List.getElem_of_mem hc
        have hq' : q < P.nq := by simpa using hq
        refine ⟨q, hq', (testCells_eq_iff P i q _ hq').mp ?_⟩
        rw [List.getD_eq_getElem _ _ hq, e, Int.toNat_of_nonneg hn]
      · rintro ⟨a, ha, rfl⟩
        obtain ⟨q, hq, hl⟩ := (hL.2 a).mp ha
        have e := (testCells_eq_iff P i q a hq).mpr hl
        have hq' : q < (testCells P i).length := by simpa using hq
        rw [List.getD_eq_getElem _ _ hq'] at e
        exact ⟨e ▸ List.getElem_mem hq', by omega⟩
  refine ⟨s, h1, hu, ?_⟩
  intro j hj
  have hj' : j < s.unique.length := by rw [hu]; simpa using hj
  rw [h4 j hj', positiveCells_length]
  apply List.filter_congr
  intro ind hind
  rw [positiveCells_getD _ _ (List.mem_range.mp hind)]
  have : s.unique[j] = (L[j] : ℤ) := by simp [hu]
  rw [this]

/-- Same for `pack_grad_test_functions`, which sorts submesh cells. -/
theorem gradSort_spec (P : PairData) (i : ℕ) (L : List ℕ) (hL : Spec.IsLinkList P i L)
    (hmono : ∀ q q' f f' : ℕ, q < P.nq → q' < P.nq → P.facets (i * P.nq + q) = f →
      P.facets (i * P.nq + q') = f' → P.subCell f < P.subCell f' →
      P.parentCells (P.subCell f) < P.parentCells (P.subCell f')) :
    ∃ s, gradSort P i = .ok s ∧ (∀ u ∈ s.unique, 0 ≤ u) ∧
      s.unique.map (fun u => P.parentCells u.toNat) = L ∧
      ∀ j (hj : j < L.length), SortedCells.indices s j =
        (List.range (positiveToOld (testCells P i)).length).filter (fun ind =>
          decide ((testCells P i).getD ((positiveToOld (testCells P i)).getD ind 0) 0 = (L[j] : ℤ))) := by
  obtain ⟨s, h1, h2, h3, h4⟩ := sortCells_nonneg (positiveCells (gradCells P i))
    (List.replicate (positiveCells (gradCells P i)).length 0)
    (fun c hc => ((mem_positiveCells _ c).mp hc).2)
  have hnn : ∀ u ∈ s.unique, 0 ≤ u := fun u hu => ((mem_positiveCells _ u).mp ((h3 u).mp hu)).2
  -- members of `unique` are submesh cells of linked points
  have hmem : ∀ u, u ∈ s.unique ↔ ∃ q, q < P.nq ∧ ∃ f : ℕ, P.facets (i * P.nq + q) = f ∧
      u = (P.subCell f : ℤ) := by
    intro u
    rw [h3, mem_positiveCells]
    constructor
    · rintro ⟨hc, hn⟩
      obtain ⟨q, hq, e⟩ := List.getElem_of_mem hc
      have hq' : q < P.nq := by simpa using hq
      rw [← List.getD_eq_getElem _ 0 hq, gradCells_getD P i q hq'] at e
      by_cases hf : P.facets (i * P.nq + q) < 0
      · rw [if_pos hf] at e; omega
      · rw [if_neg hf] at e
        exact ⟨q, hq', _, (Int.toNat_of_nonneg (by omega)).symm, e.symm⟩
    · rintro ⟨q, hq, f, hf, rfl⟩
      refine ⟨?_, by omega⟩
      have hq' : q < (gradCells P i).length := by simpa using hq
      have e := gradCells_getD P i q hq
      rw [hf, if_neg (by omega), List.getD_eq_getElem _ _ hq'] at e
      simp only [Int.toNat_natCast] at e
      exact e ▸ List.getElem_mem hq'
  have hpar : s.unique.map (fun u => P.parentCells u.toNat) = L := by
    apply strict_ext _ hL.1
    · intro c
      rw [List.mem_map, hL.2]
      constructor
      · rintro ⟨u, hu, rfl⟩
        obtain ⟨q, hq, f, hf, rfl⟩ := (hmem u).mp hu
        exact ⟨q, hq, f, hf, by simp⟩
      · rintro ⟨q, hq, f, hf, rfl⟩
        exact ⟨_, (hmem _).mpr ⟨q, hq, f, hf, rfl⟩, by simp⟩
    · rw [List.pairwise_map]
      refine List.Pairwise.imp_of_mem ?_ h2
      intro a b ha hb hab
      obtain ⟨q, hq, f, hf, rfl⟩ := (hmem a).mp ha
      obtain ⟨q', hq', f', hf', rfl⟩ := (hmem b).mp hb
      have := hmono q q' f f' hq hq' hf hf' (by exact_mod_cast hab)
      simpa using this
  have hold : positiveToOld (gradCells P i) = positiveToOld (testCells P i) := by
    unfold positiveToOld
    rw [gradCells_length, testCells_length]
    apply List.filter_congr
    intro q hq
    have hq' := List.mem_range.mp hq
    simp only [ge_iff_le, decide_eq_decide]
    rw [gradCells_nonneg_iff P i q hq', testCells_nonneg_iff P i q hq']
  refine ⟨s, h1, hnn, hpar, ?_⟩
  intro j hj
  have hj' : j < s.unique.length := by rw [← hpar] at hj; simpa using hj
  rw [h4 j hj', positiveCells_length, hold]
  apply List.filter_congr
  intro ind hind
  have hind' := List.mem_range.mp hind
  rw [positiveCells_getD _ _ (by rw [hold]; exact hind'), hold]
  -- compare submesh cells via parent cells
  set q := (positiveToOld (testCells P i)).getD ind 0 with hq
  have hqm : q ∈ positiveToOld (testCells P i) := by
    rw [hq, List.getD_eq_getElem _ _ hind']; exact List.getElem_mem hind'
  obtain ⟨hqn, hqnn⟩ := (mem_positiveToOld _ _).mp hqm
  rw [testCells_length] at hqn
  rw [testCells_nonneg_iff P i q hqn] at hqnn
  obtain ⟨f, hf⟩ := Int.eq_ofNat_of_zero_le hqnn
  rw [gradCells_getD P i q hqn, testCells_getD P i q hqn, hf, if_neg (by omega), if_pos (by omega)]
  obtain ⟨q', hq', f', hf', e⟩ := (hmem s.unique[j]).mp (List.getElem_mem hj')
  have hLj : L[j] = P.parentCells (P.subCell f') := by
    have : (s.unique.map (fun u => P.parentCells u.toNat))[j]'(by simpa using hj') =
      P.parentCells (P.subCell f') := by rw [List.getElem_map, e]; simp
    rw [← this]; congr 1; exact hpar.symm
  rw [e, hLj]
  simp only [Int.toNat_natCast, decide_eq_decide, Nat.cast_inj]
  constructor
  · intro h; rw [h]
  · intro h
    rcases Nat.lt_trichotomy (P.subCell f) (P.subCell f') with h' | h' | h'
    · have := hmono q q' f f' hqn hq' hf hf' h'; omega
    · exact h'
    · have := hmono q' q f' f hq' hqn hf' hf h'; omega

theorem linkList_exists (P : PairData) (i : ℕ) :
    Spec.IsLinkList P i (linkedCells P.subCell P.parentCells (P.row i)) := by
  obtain ⟨h1, h2⟩ := C12_linked_cells P.subCell P.parentCells (P.row i)
  refine ⟨h1, fun c => ?_⟩
  rw [h2]
  constructor
  · rintro ⟨f, hf, rfl⟩
    simp only [PairData.row, List.mem_map, List.mem_range] at hf
    obtain ⟨q, hq, e⟩ := hf
    exact ⟨q, hq, f, e, rfl⟩
  · rintro ⟨q, hq, f, hf, rfl⟩
    refine ⟨f, ?_, rfl⟩
    simp only [PairData.row, List.mem_map, List.mem_range]
    exact ⟨q, hq, hf⟩

theorem linkList_unique (P : PairData) (i : ℕ) {L L' : List ℕ} (h : Spec.IsLinkList P i L)
    (h' : Spec.IsLinkList P i L') : L = L' :=
  strict_ext h.1 h'.1 (fun c => by rw [h.2, h'.2])

theorem testIndex_inj (P : PairData) {i j k q l i' j' k' q' l' : ℕ}
    (hj : j < P.ml) (hk : k < P.nd) (hq : q < P.nq) (hl : l < P.bs)
    (hj' : j' < P.ml) (hk' : k' < P.nd) (hq' : q' < P.nq) (hl' : l' < P.bs) :
    P.testIndex i j k q l = P.testIndex i' j' k' q' l' ↔
      i = i' ∧ j = j' ∧ k = k' ∧ q = q' ∧ l = l' := by
  unfold PairData.testIndex
  rw [radix_inj hl hl', radix_inj hq hq', radix_inj hk hk', radix_inj hj hj']
  tauto

theorem gradIndex_eq (P : PairData) (i j k q l : ℕ) :
    P.gradIndex i j k q l = (((i * P.ml + j) * P.nd + k) * P.nq + q) * P.gdim + l := by
  unfold PairData.gradIndex; ring

theorem gradIndex_inj (P : PairData) {i j k q l i' j' k' q' l' : ℕ}
    (hj : j < P.ml) (hk : k < P.nd) (hq : q < P.nq) (hl : l < P.gdim)
    (hj' : j' < P.ml) (hk' : k' < P.nd) (hq' : q' < P.nq) (hl' : l' < P.gdim) :
    P.gradIndex i j k q l = P.gradIndex i' j' k' q' l' ↔
      i = i' ∧ j = j' ∧ k = k' ∧ q = q' ∧ l = l' := by
  rw [gradIndex_eq, gradIndex_eq, radix_inj hl hl', radix_inj hq hq', radix_inj hk hk',
    radix_inj hj hj']
  tauto

/-- Number of linked points of facet `i` (length of the filtered list). -/
def old (P : PairData) (i : ℕ) : List ℕ := positiveToOld (testCells P i)

theorem old_lt (P : PairData) (i ind : ℕ) (h : ind < (old P i).length) : (old P i).getD ind 0 < P.nq := by
  have : (old P i).getD ind 0 ∈ old P i := by
    rw [List.getD_eq_getElem _ _ h]; exact List.getElem_mem h
  have := ((mem_positiveToOld _ _).mp this).1
  simpa using this

theorem old_length_le (P : PairData) (i : ℕ) : (old P i).length ≤ P.nq := by
  have := List.length_filter_le (fun j => decide ((testCells P i).getD j 0 ≥ 0))
    (List.range (testCells P i).length)
  simpa [old, positiveToOld] using this

theorem old_of_linked (P : PairData) (i q : ℕ) (hq : q < P.nq) (h : 0 ≤ P.facets (i * P.nq + q)) :
    ∃ ind, ind < (old P i).length ∧ (old P i).getD ind 0 = q := by
  have : q ∈ old P i := (mem_positiveToOld _ _).mpr
    ⟨by simpa using hq, (testCells_nonneg_iff P i q hq).mpr h⟩
  obtain ⟨ind, h1, h2⟩ := List.getElem_of_mem this
  exact ⟨ind, h1, by rw [List.getD_eq_getElem _ _ h1, h2]⟩

/-- The writes of `pack_test_functions`. -/
theorem packTest_puts (P : PairData) (basis : ℕ → ℕ → ℝ) :
    ∃ f : Arr ℕ → Arr ℕ, packTest P basis = .ok (f (fun _ => 0)) ∧
      Puts f (fun m v => ∃ i, i < P.numFacets ∧ ∃ j, ∃ hj : j < (linkedCells P.subCell P.parentCells (P.row i)).length,
        ∃ k, k < P.nd ∧ ∃ ind, ind < (old P i).length ∧
          Spec.LinkedTo P i ((old P i).getD ind 0) (linkedCells P.subCell P.parentCells (P.row i))[j] ∧
          ∃ l, l < P.bs ∧ m = P.testIndex i j k ((old P i).getD ind 0) l ∧
            v = basis (i * P.nq + ind) k) := by
  choose s h1 h2 h3 using fun i => testSort_spec P i _ (linkList_exists P i)
  refine ⟨loop P.numFacets (fun i => testFacet P basis i (s i)), ?_, ?_⟩
  · apply foldlM_ok
    intro i c _
    rw [h1 i]; rfl
  · have : ∀ i, i < P.numFacets → Puts (testFacet P basis i (s i)) (fun m v =>
        ∃ j, j < (s i).unique.length ∧ ∃ k, k < P.nd ∧ ∃ ind ∈ SortedCells.indices (s i) j,
          ∃ l, l < P.bs ∧ (m = P.testIndex i j k ((old P i).getD ind 0) l ∧
            v = basis (i * P.nq + ind) k)) := fun i _ =>
      Puts.loop _ (fun j _ => Puts.loop _ (fun k _ => Puts.forEach _ (fun ind _ =>
        Puts.loop _ (fun l _ => Puts.put _ _))))
    refine (Puts.loop P.numFacets this).congr ?_
    intro m v
    have hlen : ∀ i, (s i).unique.length = (linkedCells P.subCell P.parentCells (P.row i)).length := by
      intro i; rw [h2 i]; simp
    have hind : ∀ i j (hj : j < (linkedCells P.subCell P.parentCells (P.row i)).length) ind,
        ind ∈ SortedCells.indices (s i) j ↔ ind < (old P i).length ∧
          Spec.LinkedTo P i ((old P i).getD ind 0) (linkedCells P.subCell P.parentCells (P.row i))[j] := by
      intro i j hj ind
      rw [h3 i j hj, List.mem_filter, List.mem_range]
      constructor
      · rintro ⟨h, e⟩
        exact ⟨h, (testCells_eq_iff P i _ _ (old_lt P i ind h)).mp (of_decide_eq_true e)⟩
      · rintro ⟨h, e⟩
        exact ⟨h, decide_eq_true ((testCells_eq_iff P i _ _ (old_lt P i ind h)).mpr e)⟩
    constructor
    · rintro ⟨i, hi, j, hj, k, hk, ind, hin, l, hl, hm, hv⟩
      have hj' : j < (linkedCells P.subCell P.parentCells (P.row i)).length := by rw [← hlen]; exact hj
      obtain ⟨ha, hb⟩ := (hind i j hj' ind).mp hin
      exact ⟨i, hi, j, hj', k, hk, ind, ha, hb, l, hl, hm, hv⟩
    · rintro ⟨i, hi, j, hj, k, hk, ind, ha, hb, l, hl, hm, hv⟩
      exact ⟨i, hi, j, by rw [hlen]; exact hj, k, hk, ind, (hind i j hj ind).mpr ⟨ha, hb⟩, l, hl, hm, hv⟩

/-- Complete description of `pack_test_functions`: the entry of a linked point is the basis function
at the contact point whose number is the position among the *linked* points. -/
theorem packTest_value (P : PairData) (basis : ℕ → ℕ → ℝ) (hfit : Spec.Fits P) :
    ∃ c, packTest P basis = .ok c ∧ ∀ i L, i < P.numFacets → Spec.IsLinkList P i L →
      ∀ link k l, link < P.ml → k < P.nd → l < P.bs →
      (∀ ind, ind < (old P i).length → ∀ h : link < L.length,
        Spec.LinkedTo P i ((old P i).getD ind 0) L[link] →
          c (P.testIndex i link k ((old P i).getD ind 0) l) = basis (i * P.nq + ind) k) ∧
      (∀ q, q < P.nq → (∀ h : link < L.length, ¬ Spec.LinkedTo P i q L[link]) →
        c (P.testIndex i link k q l) = 0) := by
  obtain ⟨f, hf, hp⟩ := packTest_puts P basis
  refine ⟨_, hf, ?_⟩
  intro i L hi hL link k l hlink hk hl
  have hLe := linkList_unique P i hL (linkList_exists P i)
  subst hLe
  have hml : ∀ i j, i < P.numFacets → j < (linkedCells P.subCell P.parentCells (P.row i)).length →
      j < P.ml := fun i j hi hj => lt_of_lt_of_le hj (hfit i hi _ (linkList_exists P i))
  constructor
  · intro ind hind hlt hto
    apply hp.value ⟨i, hi, link, hlt, k, hk, ind, hind, hto, l, hl, rfl, rfl⟩
    rintro w ⟨i', hi', j', hj', k', hk', ind', hind', -, l', hl', hm, rfl⟩
    rw [testIndex_inj P hlink hk (old_lt P i ind hind) hl (hml i' j' hi' hj') hk'
      (old_lt P i' ind' hind') hl'] at hm
    obtain ⟨rfl, rfl, rfl, he, rfl⟩ := hm
    rw [strict_getD_inj (positiveToOld_strict _) hind hind' he]
  · intro q hq hno
    have := hp.frame (m := P.testIndex i link k q l) (a := fun _ => 0) (by
      rintro w ⟨i', hi', j', hj', k', hk', ind', hind', hto, l', hl', hm, rfl⟩
      rw [testIndex_inj P hlink hk hq hl (hml i' j' hi' hj') hk'
        (old_lt P i' ind' hind') hl'] at hm
      obtain ⟨rfl, rfl, rfl, rfl, rfl⟩ := hm
      exact hno hj' hto)
    simpa using this

/-- The pair state of `gradFacet`: the link counter equals the loop index. -/
theorem gradFacet_eq (P : PairData) (grad : ℕ → ℕ → ℕ → ℕ → ℝ) (i : ℕ) (s : SortedCells)
    (hnn : ∀ u ∈ s.unique, 0 ≤ u) (c : Arr ℕ) :
    gradFacet P grad i s c = loop s.unique.length (fun j => loop P.nd (fun k =>
      forEach (SortedCells.indices s j) (fun ind => loop P.gdim (fun l (c : Arr ℕ) =>
        c.put (P.gradIndex i j k ind l)
          (grad (P.parentCells (s.unique.getD j 0).toNat)
            (P.nq * i + (positiveToOld (gradCells P i)).getD ind 0) k l))))) c := by
  have key : ∀ n, n ≤ s.unique.length →
      loop n (fun j (st : Arr ℕ × ℕ) =>
        let u := s.unique.getD j 0
        if u < 0 then st
        else
          let cell := P.parentCells u.toNat
          (loop P.nd (fun k => forEach (SortedCells.indices s j) (fun ind => loop P.gdim (fun l (c : Arr ℕ) =>
            c.put (P.gradIndex i st.2 k ind l)
              (grad cell (P.nq * i + (positiveToOld (gradCells P i)).getD ind 0) k l)))) st.1,
            st.2 + 1)) (c, 0) =
      (loop n (fun j => loop P.nd (fun k =>
      forEach (SortedCells.indices s j) (fun ind => loop P.gdim (fun l (c : Arr ℕ) =>
        c.put (P.gradIndex i j k ind l)
          (grad (P.parentCells (s.unique.getD j 0).toNat)
            (P.nq * i + (positiveToOld (gradCells P i)).getD ind 0) k l))))) c, n) := by
    intro n
    induction n with
    | zero => intro _; rfl
    | succ n ih =>
      intro hn
      rw [loop_succ, loop_succ, ih (by omega)]
      have : ¬ s.unique.getD n 0 < 0 := by
        rw [List.getD_eq_getElem _ _ (by omega)]
        exact not_lt.mpr (hnn _ (List.getElem_mem _))
      simp only [if_neg this]
  unfold gradFacet
  rw [key _ le_rfl]

theorem packGradTest_puts (P : PairData) (grad : ℕ → ℕ → ℕ → ℕ → ℝ)
    (hmono : Spec.ParentsIncreasing P) :
    ∃ f : Arr ℕ → Arr ℕ, packGradTest P grad = .ok (f (fun _ => 0)) ∧
      Puts f (fun m v => ∃ i, i < P.numFacets ∧ ∃ j, ∃ hj : j < (linkedCells P.subCell P.parentCells (P.row i)).length,
        ∃ k, k < P.nd ∧ ∃ ind, ind < (old P i).length ∧
          Spec.LinkedTo P i ((old P i).getD ind 0) (linkedCells P.subCell P.parentCells (P.row i))[j] ∧
          ∃ l, l < P.gdim ∧ m = P.gradIndex i j k ind l ∧
            v = grad (linkedCells P.subCell P.parentCells (P.row i))[j]
              (P.nq * i + (old P i).getD ind 0) k l) := by
  choose s h1 hnn h2 h3 using fun i => gradSort_spec P i _ (linkList_exists P i)
    (fun q q' f f' hq hq' h h' hs => hmono i q q' f f' hq hq' h h' hs)
  refine ⟨loop P.numFacets (fun i => gradFacet P grad i (s i)), ?_, ?_⟩
  · apply foldlM_ok
    intro i c _
    rw [h1 i]; rfl
  · have hlen : ∀ i, (s i).unique.length = (linkedCells P.subCell P.parentCells (P.row i)).length := by
      intro i; rw [← congrArg List.length (h2 i)]; simp
    have hold : ∀ i, positiveToOld (gradCells P i) = old P i := by
      intro i
      unfold old positiveToOld
      rw [gradCells_length, testCells_length]
      apply List.filter_congr
      intro q hq
      have hq' := List.mem_range.mp hq
      simp only [ge_iff_le, decide_eq_decide]
      rw [gradCells_nonneg_iff P i q hq', testCells_nonneg_iff P i q hq']
    have : ∀ i, i < P.numFacets → Puts (gradFacet P grad i (s i)) (fun m v =>
        ∃ j, j < (s i).unique.length ∧ ∃ k, k < P.nd ∧ ∃ ind ∈ SortedCells.indices (s i) j,
          ∃ l, l < P.gdim ∧ (m = P.gradIndex i j k ind l ∧
            v = grad (P.parentCells ((s i).unique.getD j 0).toNat)
            (P.nq * i + (positiveToOld (gradCells P i)).getD ind 0) k l)) := by
      intro i _
      have e : gradFacet P grad i (s i) = _ := funext (gradFacet_eq P grad i (s i) (hnn i))
      rw [e]
      exact Puts.loop _ (fun j _ => Puts.loop _ (fun k _ => Puts.forEach _ (fun ind _ =>
        Puts.loop _ (fun l _ => Puts.put _ _))))
    refine (Puts.loop P.numFacets this).congr ?_
    intro m v
    have hind : ∀ i j (hj : j < (linkedCells P.subCell P.parentCells (P.row i)).length) ind,
        ind ∈ SortedCells.indices (s i) j ↔ ind < (old P i).length ∧
          Spec.LinkedTo P i ((old P i).getD ind 0) (linkedCells P.subCell P.parentCells (P.row i))[j] := by
      intro i j hj ind
      rw [h3 i j hj, List.mem_filter, List.mem_range]
      constructor
      · rintro ⟨h, e⟩
        exact ⟨h, (testCells_eq_iff P i _ _ (old_lt P i ind h)).mp (of_decide_eq_true e)⟩
      · rintro ⟨h, e⟩
        exact ⟨h, decide_eq_true ((testCells_eq_iff P i _ _ (old_lt P i ind h)).mpr e)⟩
    have hcell : ∀ i j (hj : j < (linkedCells P.subCell P.parentCells (P.row i)).length),
        P.parentCells ((s i).unique.getD j 0).toNat =
          (linkedCells P.subCell P.parentCells (P.row i))[j] := by
      intro i j hj
      have hj' : j < (s i).unique.length := by rw [hlen]; exact hj
      rw [List.getD_eq_getElem _ _ hj']
      have : ((s i).unique.map (fun u => P.parentCells u.toNat))[j]'(by simpa using hj') =
        P.parentCells ((s i).unique[j]).toNat := by rw [List.getElem_map]
      rw [← this]; congr 1; exact h2 i
    constructor
    · rintro ⟨i, hi, j, hj, k, hk, ind, hin, l, hl, hm, hv⟩
      have hj' : j < (linkedCells P.subCell P.parentCells (P.row i)).length := by rw [← hlen]; exact hj
      obtain ⟨ha, hb⟩ := (hind i j hj' ind).mp hin
      rw [hcell i j hj', hold] at hv
      exact ⟨i, hi, j, hj', k, hk, ind, ha, hb, l, hl, hm, hv⟩
    · rintro ⟨i, hi, j, hj, k, hk, ind, ha, hb, l, hl, hm, hv⟩
      rw [← hcell i j hj, ← hold] at hv
      exact ⟨i, hi, j, by rw [hlen]; exact hj, k, hk, ind, (hind i j hj ind).mpr ⟨ha, hb⟩, l, hl, hm, hv⟩

/-- Complete description of `pack_grad_test_functions`: position `ind` of the output holds the
gradient at the `ind`-th *linked* point. -/
theorem packGradTest_value (P : PairData) (grad : ℕ → ℕ → ℕ → ℕ → ℝ) (hfit : Spec.Fits P)
    (hmono : Spec.ParentsIncreasing P) :
    ∃ c, packGradTest P grad = .ok c ∧ ∀ i L, i < P.numFacets → Spec.IsLinkList P i L →
      ∀ link k l, link < P.ml → k < P.nd → l < P.gdim →
      (∀ ind, ind < (old P i).length → ∀ h : link < L.length,
        Spec.LinkedTo P i ((old P i).getD ind 0) L[link] →
          c (P.gradIndex i link k ind l) = grad L[link] (P.nq * i + (old P i).getD ind 0) k l) ∧
      (∀ q, q < P.nq → (q < (old P i).length → ∀ h : link < L.length,
          ¬ Spec.LinkedTo P i ((old P i).getD q 0) L[link]) →
        c (P.gradIndex i link k q l) = 0) := by
  obtain ⟨f, hf, hp⟩ := packGradTest_puts P grad hmono
  refine ⟨_, hf, ?_⟩
  intro i L hi hL link k l hlink hk hl
  have hLe := linkList_unique P i hL (linkList_exists P i)
  subst hLe
  have hml : ∀ i j, i < P.numFacets → j < (linkedCells P.subCell P.parentCells (P.row i)).length →
      j < P.ml := fun i j hi hj => lt_of_lt_of_le hj (hfit i hi _ (linkList_exists P i))
  constructor
  · intro ind hind hlt hto
    apply hp.value ⟨i, hi, link, hlt, k, hk, ind, hind, hto, l, hl, rfl, rfl⟩
    rintro w ⟨i', hi', j', hj', k', hk', ind', hind', -, l', hl', hm, rfl⟩
    rw [gradIndex_inj P hlink hk (lt_of_lt_of_le hind (old_length_le P i)) hl (hml i' j' hi' hj') hk'
      (lt_of_lt_of_le hind' (old_length_le P i')) hl'] at hm
    obtain ⟨rfl, rfl, rfl, rfl, rfl⟩ := hm
    rfl
  · intro q hq hno
    have := hp.frame (m := P.gradIndex i link k q l) (a := fun _ => 0) (by
      rintro w ⟨i', hi', j', hj', k', hk', ind', hind', hto, l', hl', hm, rfl⟩
      rw [gradIndex_inj P hlink hk hq hl (hml i' j' hi' hj') hk'
        (lt_of_lt_of_le hind' (old_length_le P i')) hl'] at hm
      obtain ⟨rfl, rfl, rfl, rfl, rfl⟩ := hm
      exact hno hind' hj' hto)
    simpa using this

/-- On facets where linked points come first, the filtered positions are the positions. -/
theorem old_prefix (P : PairData) (i : ℕ) (h : Spec.LinkedFirst P i) (ind : ℕ)
    (hind : ind < (old P i).length) : (old P i).getD ind 0 = ind := by
  obtain ⟨n, hn⟩ := positiveToOld_prefix (testCells P i) (by
    intro q q' h1 h2 h3
    rw [testCells_length] at h2
    rw [testCells_nonneg_iff P i q h2] at h3
    rw [testCells_nonneg_iff P i q' (by omega)]
    exact h q q' h1 h2 h3)
  have hn' : old P i = List.range n := hn
  rw [hn'] at hind ⊢
  rw [List.getD_eq_getElem _ _ hind]; simp

/-- In a strictly increasing list of naturals, `l[q] = q` forces `l[a] = a` for all `a ≤ q`. -/
theorem strict_fixed {l : List ℕ} (hs : l.Pairwise (· < ·)) (q : ℕ) (hq : q < l.length)
    (he : l[q] = q) : ∀ d a, (h : a + d = q) → l[a]'(by omega) = a := by
  have key : ∀ d a, (h : a + d = q) → l[a]'(by omega) + d ≤ q := by
    intro d
    induction d with
    | zero =>
      intro a had
      have : a = q := by omega
      subst this
      omega
    | succ d ih =>
      intro a had
      have h2 := ih (a + 1) (by omega)
      have h3 := List.pairwise_iff_getElem.mp hs a (a + 1) (by omega) (by omega) (by omega)
      omega
  intro d a had
  have h1 := strict_ge_index hs a (by omega)
  have h2 := key d a had
  omega

end Verif.Packing
