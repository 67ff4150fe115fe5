import Verif.Model.SubMesh
import Verif.Lemmas.Ghosting
import Verif.Lemmas.Entities
import Verif.Lib.Puts
import Mathlib.Data.List.GetD
import Mathlib.Tactic.Linarith
import Mathlib.Tactic.Ring

namespace Verif.SubMesh

open Verif.Entities Verif.Ghosting

theorem foldl_set_length {α : Type} (key : α → ℕ) (val : α → ℕ) (l : List α) (d : List ℕ) :
    (l.foldl (fun m c => m.set (key c) (val c)) d).length = d.length := by
  induction l generalizing d with
  | nil => rfl
  | cons a l ih => simp [ih]

theorem getD_set (d : List ℕ) (i v k : ℕ) :
    (d.set i v).getD k 0 = if i = k ∧ k < d.length then v else d.getD k 0 := by
  simp only [List.getD_eq_getElem?_getD, List.getElem?_set]
  by_cases h : i = k
  · subst h
    by_cases h2 : i < d.length <;> simp [h2]
  · simp [h]

/-- Value of an entry after a list of writes whose values agree on that entry. -/
theorem foldl_set_getD {α : Type} (key : α → ℕ) (val : α → ℕ) (l : List α) (d : List ℕ) (k v : ℕ)
    (hk : k < d.length) (hw : ∃ c ∈ l, key c = k) (hv : ∀ c ∈ l, key c = k → val c = v) :
    (l.foldl (fun m c => m.set (key c) (val c)) d).getD k 0 = v := by
  induction l using List.reverseRecOn with
  | nil => simp at hw
  | append_singleton l a ih =>
    rw [List.foldl_append, List.foldl_cons, List.foldl_nil, getD_set, foldl_set_length]
    by_cases h : key a = k
    · rw [if_pos ⟨h, hk⟩]; exact hv a (by simp) h
    · rw [if_neg (by tauto)]
      apply ih
      · obtain ⟨c, hc, hck⟩ := hw
        rcases List.mem_append.mp hc with hc | hc
        · exact ⟨c, hc, hck⟩
        · simp at hc; subst hc; exact absurd hck h
      · intro c hc; exact hv c (by simp [hc])

theorem foldl_set_frame {α : Type} (key : α → ℕ) (val : α → ℕ) (l : List α) (d : List ℕ) (k : ℕ)
    (hw : ∀ c ∈ l, key c ≠ k) :
    (l.foldl (fun m c => m.set (key c) (val c)) d).getD k 0 = d.getD k 0 := by
  induction l generalizing d with
  | nil => rfl
  | cons a l ih =>
    rw [List.foldl_cons, ih _ (fun c hc => hw c (by simp [hc])), getD_set,
      if_neg (fun h => hw a (by simp) h.1)]

theorem mark_eq {α : Type} (n v : ℕ) (key : α → ℕ) (l : List α) :
    l.foldl (fun m c => m.set (key c) v) (List.replicate n 0) =
      (List.range n).map (fun k => if k ∈ l.map key then v else 0) := by
  apply List.ext_getElem
  · rw [foldl_set_length key (fun _ => v)]; simp
  · intro i h1 h2
    have hn : i < n := by simpa using h2
    rw [← List.getD_eq_getElem _ 0 h1, ← List.getD_eq_getElem _ 0 h2]
    have : ((List.range n).map (fun k => if k ∈ l.map key then v else 0)).getD i 0 =
        if i ∈ l.map key then v else 0 := by
      rw [List.getD_eq_getElem _ _ h2]; simp
    rw [this]
    by_cases h : i ∈ l.map key
    · rw [if_pos h]
      obtain ⟨c, hc, hck⟩ := List.mem_map.mp h
      exact foldl_set_getD key (fun _ => v) l _ i v (by simpa using hn) ⟨c, hc, hck⟩ (by simp)
    · rw [if_neg h, foldl_set_frame key (fun _ => v) l _ i
        (fun c hc e => h (List.mem_map.mpr ⟨c, hc, e⟩))]
      simp [List.getD_eq_getElem?_getD, hn]

/-- Number of marks before `k`. -/
def marksBefore (l : List ℕ) (v k : ℕ) : ℕ := ((List.range k).map (fun j => if j ∈ l then v else 0)).sum

theorem marksBefore_succ (l : List ℕ) (v k : ℕ) :
    marksBefore l v (k + 1) = marksBefore l v k + if k ∈ l then v else 0 := by
  simp [marksBefore, List.range_succ]

theorem marksBefore_mono (l : List ℕ) (v : ℕ) {j k : ℕ} (h : j ≤ k) :
    marksBefore l v j ≤ marksBefore l v k := by
  induction k with
  | zero => have : j = 0 := by omega
            rw [this]
  | succ k ih =>
    rcases Nat.lt_or_ge k j with h' | h'
    · have : j = k + 1 := by omega
      rw [this]
    · rw [marksBefore_succ]; have := ih h'; omega

/-- Blocks of different marked entries do not overlap. -/
theorem marksBefore_sep (l : List ℕ) (v : ℕ) {j k : ℕ} (hj : j ∈ l) (h : j < k) :
    marksBefore l v j + v ≤ marksBefore l v k := by
  have := marksBefore_mono l v (show j + 1 ≤ k from h)
  rw [marksBefore_succ, if_pos hj] at this
  exact this

theorem offsets_getD (l : List ℕ) (v n k : ℕ) (hk : k ≤ n) :
    (prefixSums 0 ((List.range n).map (fun j => if j ∈ l then v else 0))).getD k 0 =
      marksBefore l v k := by
  rw [prefixSums_getD _ _ _ (by simpa using hk), Nat.zero_add, ← List.map_take, List.take_range,
    Nat.min_eq_left hk]
  rfl

theorem offsets_last (l : List ℕ) (v n : ℕ) :
    (prefixSums 0 ((List.range n).map (fun j => if j ∈ l then v else 0))).getLastD 0 =
      marksBefore l v n := by
  rw [prefixSums_getLastD, Nat.zero_add]; rfl

/-- In a strictly increasing list the number of members below the `i`-th is `i`. -/
theorem marksBefore_strict : ∀ (l : List ℕ), l.Pairwise (· < ·) → ∀ (k : ℕ),
    marksBefore l 1 k = (l.filter (· < k)).length := by
  intro l hl k
  induction k with
  | zero => simp [marksBefore]
  | succ k ih =>
    rw [marksBefore_succ, ih]
    clear ih
    induction l with
    | nil => simp
    | cons a l ih =>
      have h1 := List.pairwise_cons.mp hl
      have ih := ih h1.2
      by_cases hak : a = k
      · subst hak
        have hn : a ∉ l := fun h => Nat.lt_irrefl _ (h1.1 a h)
        simp only [hn, if_false, Nat.add_zero] at ih
        rw [if_pos (by simp), List.filter_cons_of_neg (by simp), List.filter_cons_of_pos (by simp)]
        simp only [List.length_cons]; omega
      · have hm : (k ∈ a :: l) ↔ k ∈ l := by simp [Ne.symm hak]
        by_cases hlt : a < k
        · rw [List.filter_cons_of_pos (by simpa using hlt),
            List.filter_cons_of_pos (by simp; omega)]
          simp only [hm, List.length_cons]
          omega
        · rw [List.filter_cons_of_neg (by simpa using hlt),
            List.filter_cons_of_neg (by simp; omega)]
          simp only [hm]; exact ih

theorem filter_lt_strict : ∀ (l : List ℕ), l.Pairwise (· < ·) → ∀ i, (h : i < l.length) →
    (l.filter (· < l[i])).length = i := by
  intro l
  induction l with
  | nil => intro _ i h; simp at h
  | cons a l ih =>
    intro hl i h
    have h1 := List.pairwise_cons.mp hl
    cases i with
    | zero =>
      simp only [List.getElem_cons_zero]
      rw [List.filter_cons_of_neg (by simp), List.length_eq_zero_iff, List.filter_eq_nil_iff]
      intro b hb; have := h1.1 b hb; simp; omega
    | succ i =>
      simp only [List.getElem_cons_succ]
      have hi : i < l.length := by simpa using h
      rw [List.filter_cons_of_pos (by simpa using h1.1 _ (List.getElem_mem hi)), List.length_cons,
        ih h1.2 i hi]

theorem parentCells_strict (pairs : List (ℕ × ℕ)) : (parentCells pairs).Pairwise (· < ·) :=
  uniqueAdj_strict (stableSort_nat_sorted _)

theorem mem_parentCells (pairs : List (ℕ × ℕ)) (c : ℕ) :
    c ∈ parentCells pairs ↔ ∃ lf, (c, lf) ∈ pairs := by
  simp [parentCells]

theorem markCells_eq (n : ℕ) (cells : List ℕ) :
    markCells n cells = (List.range n).map (fun k => if k ∈ cells then 1 else 0) := by
  have := mark_eq n 1 (id : ℕ → ℕ) cells
  simpa [markCells] using this

/-- The data array of the cell map is `0, 1, 2, ...`. -/
theorem meshToSub_eq (n : ℕ) (cells : List ℕ) (hs : cells.Pairwise (· < ·)) (hb : ∀ c ∈ cells, c < n) :
    meshToSub n cells = (List.range cells.length,
      prefixSums 0 ((List.range n).map (fun k => if k ∈ cells then 1 else 0))) := by
  have hoff : ∀ i, (h : i < cells.length) →
      (prefixSums 0 ((List.range n).map (fun k => if k ∈ cells then 1 else 0))).getD cells[i] 0 = i := by
    intro i h
    rw [offsets_getD _ _ _ _ (Nat.le_of_lt (hb _ (List.getElem_mem h))),
      marksBefore_strict _ hs, filter_lt_strict _ hs i h]
  have hlast : marksBefore cells 1 n = cells.length := by
    rw [marksBefore_strict _ hs, List.filter_eq_self.mpr (by simpa using hb)]
  unfold meshToSub
  dsimp only
  rw [markCells_eq, offsets_last, hlast]
  congr 1
  apply List.ext_getElem
  · rw [foldl_set_length (fun c => (prefixSums 0 ((List.range n).map
      (fun k => if k ∈ cells then 1 else 0))).getD (cells.getD c 0) 0) (fun c => c)]
    simp
  · intro i h1 h2
    have hi : i < cells.length := by simpa using h2
    rw [← List.getD_eq_getElem _ 0 h1, List.getElem_range]
    apply foldl_set_getD (fun c => (prefixSums 0 ((List.range n).map
      (fun k => if k ∈ cells then 1 else 0))).getD (cells.getD c 0) 0) (fun c => c)
    · simpa using hi
    · exact ⟨i, by simpa using hi, by rw [List.getD_eq_getElem _ _ hi]; exact hoff i hi⟩
    · intro c hc hcc
      have hc' : c < cells.length := by simpa using hc
      rw [List.getD_eq_getElem _ _ hc', hoff c hc'] at hcc
      exact hcc

theorem meshToSub_links (n : ℕ) (cells : List ℕ) (hs : cells.Pairwise (· < ·))
    (hb : ∀ c ∈ cells, c < n) :
    (∀ i, (h : i < cells.length) →
      links (meshToSub n cells).1 (meshToSub n cells).2 cells[i] = [i]) ∧
    (∀ c, c < n → c ∉ cells → links (meshToSub n cells).1 (meshToSub n cells).2 c = []) := by
  rw [meshToSub_eq n cells hs hb]
  constructor
  · intro i h
    have hm := List.getElem_mem h
    have hn := hb _ hm
    have e1 : marksBefore cells 1 cells[i] = i := by
      rw [marksBefore_strict _ hs, filter_lt_strict _ hs i h]
    unfold links
    rw [offsets_getD _ _ _ _ (by omega), offsets_getD _ _ _ _ (by omega), marksBefore_succ,
      if_pos hm, e1, Nat.add_sub_cancel_left]
    apply List.ext_getElem
    · simp; omega
    · intro k h1 h2
      have : k = 0 := by simpa using h2
      subst this
      simp
  · intro c hc hm
    unfold links
    rw [offsets_getD _ _ _ _ (by omega), offsets_getD _ _ _ _ (by omega), marksBefore_succ,
      if_neg hm]
    simp

theorem subCell_getElem (n : ℕ) (cells : List ℕ) (hs : cells.Pairwise (· < ·))
    (hb : ∀ c ∈ cells, c < n) (i : ℕ) (h : i < cells.length) :
    subCell (meshToSub n cells) cells[i] = i := by
  rw [subCell, (meshToSub_links n cells hs hb).1 i h]; rfl

/-- The facet map, without reference to the cell map. -/
theorem facetMap_spec (nf : ℕ) (m : List ℕ × List ℕ) (c2f : ℕ → List ℕ) (pairs : List (ℕ × ℕ))
    (hb : ∀ p ∈ pairs, subFacet m c2f p < nf) :
    (∀ f, f < nf → (∃ p ∈ pairs, subFacet m c2f p = f) →
      ∃ p ∈ pairs, subFacet m c2f p = f ∧
        links (facetMap nf m c2f pairs).1 (facetMap nf m c2f pairs).2 f = [subCell m p.1, p.2]) ∧
    (∀ f, f < nf → (∀ p ∈ pairs, subFacet m c2f p ≠ f) →
      links (facetMap nf m c2f pairs).1 (facetMap nf m c2f pairs).2 f = []) := by
  set L := pairs.map (subFacet m c2f) with hL
  have hfm : facetMap nf m c2f pairs =
      (pairs.foldl (fun d p =>
        (d.set (marksBefore L 2 (subFacet m c2f p)) (subCell m p.1)).set
          (marksBefore L 2 (subFacet m c2f p) + 1) p.2) (List.replicate (marksBefore L 2 nf) 0),
        prefixSums 0 ((List.range nf).map (fun j => if j ∈ L then 2 else 0))) := by
    unfold facetMap
    dsimp only
    rw [mark_eq nf 2 (subFacet m c2f) pairs, ← hL, offsets_last]
    congr 1
    apply List.foldl_ext
    intro d p hp
    rw [offsets_getD _ _ _ _ (Nat.le_of_lt (hb p hp))]
  have hmem : ∀ p ∈ pairs, subFacet m c2f p ∈ L := fun p hp => List.mem_map.mpr ⟨p, hp, rfl⟩
  have hlen : ∀ (ps : List (ℕ × ℕ)) (d : List ℕ), (ps.foldl (fun d p =>
        (d.set (marksBefore L 2 (subFacet m c2f p)) (subCell m p.1)).set
          (marksBefore L 2 (subFacet m c2f p) + 1) p.2) d).length = d.length := by
    intro ps
    induction ps with
    | nil => intro d; rfl
    | cons a l ih => intro d; simp [ih]
  -- value of the two entries of a marked facet after any prefix of the writes
  have key : ∀ (ps : List (ℕ × ℕ)), (∀ p ∈ ps, p ∈ pairs) → ∀ f, f < nf →
      (∃ p ∈ ps, subFacet m c2f p = f) →
      ∃ p ∈ ps, subFacet m c2f p = f ∧
        (ps.foldl (fun d p =>
        (d.set (marksBefore L 2 (subFacet m c2f p)) (subCell m p.1)).set
          (marksBefore L 2 (subFacet m c2f p) + 1) p.2)
            (List.replicate (marksBefore L 2 nf) 0)).getD (marksBefore L 2 f) 0 = subCell m p.1 ∧
        (ps.foldl (fun d p =>
        (d.set (marksBefore L 2 (subFacet m c2f p)) (subCell m p.1)).set
          (marksBefore L 2 (subFacet m c2f p) + 1) p.2)
            (List.replicate (marksBefore L 2 nf) 0)).getD (marksBefore L 2 f + 1) 0 = p.2 := by
    intro ps
    induction ps using List.reverseRecOn with
    | nil => intro _ f _ h; simp at h
    | append_singleton ps a ih =>
      intro hps f hf hex
      have haL := hmem a (hps a (by simp))
      have hsz : ∀ g, g ∈ L → g < nf → marksBefore L 2 g + 2 ≤ marksBefore L 2 nf :=
        fun g hg hgn => marksBefore_sep L 2 hg hgn
      simp only [List.foldl_append, List.foldl_cons, List.foldl_nil]
      by_cases h : subFacet m c2f a = f
      · have h3 := hsz f (h ▸ haL) hf
        refine ⟨a, by simp, h, ?_, ?_⟩
        · rw [getD_set, getD_set, h, if_neg (by omega), if_pos]
          refine ⟨rfl, ?_⟩
          rw [hlen, List.length_replicate]; omega
        · rw [getD_set, h, if_pos]
          refine ⟨rfl, ?_⟩
          rw [List.length_set, hlen, List.length_replicate]; omega
      · obtain ⟨p, hp, hpf⟩ := hex
        have hp' : p ∈ ps := by
          rcases List.mem_append.mp hp with hp | hp
          · exact hp
          · simp at hp; subst hp; exact absurd hpf h
        obtain ⟨q, hq, hqf, e1, e2⟩ := ih (fun p hp => hps p (by simp [hp])) f hf ⟨p, hp', hpf⟩
        have hfL : f ∈ L := hpf ▸ hmem p (hps p hp)
        refine ⟨q, by simp [hq], hqf, ?_, ?_⟩
        all_goals
          rw [getD_set, getD_set, if_neg, if_neg]
          · assumption
          all_goals
            rcases Nat.lt_or_gt_of_ne h with h' | h'
            · have := marksBefore_sep L 2 haL h'; omega
            · have := marksBefore_sep L 2 hfL h'; omega
  constructor
  · intro f hf hex
    obtain ⟨p, hp, hpf, e1, e2⟩ := key pairs (fun _ h => h) f hf hex
    have hfL : f ∈ L := hpf ▸ hmem p hp
    refine ⟨p, hp, hpf, ?_⟩
    rw [hfm]
    unfold links
    dsimp only
    rw [offsets_getD _ _ _ _ (by omega), offsets_getD _ _ _ _ (by omega), marksBefore_succ,
      if_pos hfL, Nat.add_sub_cancel_left]
    have hsz := marksBefore_sep L 2 hfL hf
    have hl := hlen pairs (List.replicate (marksBefore L 2 nf) 0)
    rw [List.length_replicate] at hl
    rw [List.drop_eq_getElem_cons (by rw [hl]; omega), List.drop_eq_getElem_cons (by rw [hl]; omega)]
    simp only [List.take_succ_cons, List.take_zero]
    rw [← e1, ← e2]
    rw [List.getD_eq_getElem _ _ (by rw [hl]; omega), List.getD_eq_getElem _ _ (by rw [hl]; omega)]
  · intro f hf hno
    rw [hfm]
    have hfL : f ∉ L := by
      intro h
      obtain ⟨p, hp, e⟩ := List.mem_map.mp h
      exact hno p hp e
    unfold links
    dsimp only
    rw [offsets_getD _ _ _ _ (by omega), offsets_getD _ _ _ _ (by omega), marksBefore_succ,
      if_neg hfL]
    simp

/-! ### function copies and geometry updates -/

theorem copyFunction_puts (S : Spaces) (u : Arr ℕ) :
    Puts (copyFunction S u) (fun m v => ∃ c, c < S.numCells ∧ ∃ i, i < S.nd ∧ ∃ j, j < S.bs ∧
      m = S.bs * S.sub c i + j ∧ v = u (S.bs * S.parent (S.parentCell c) i + j)) :=
  Puts.loop _ (fun c _ => Puts.loop _ (fun i _ => Puts.loop _ (fun j _ => Puts.put _ _)))

end Verif.SubMesh
