import Verif.Model.Ghosting
import Mathlib.Data.List.GetD
import Mathlib.Data.List.Lex
import Mathlib.Data.List.Basic
import Mathlib.Data.List.Nodup
import Mathlib.Algebra.BigOperators.Group.List.Basic
import Mathlib.Tactic.Linarith
import Mathlib.Tactic.Tauto

namespace Verif.Ghosting

open Verif.Entities

/-! ### prefix sums and adjacency lists -/

@[simp] theorem prefixSums_length (s : ℕ) (l : List ℕ) : (prefixSums s l).length = l.length + 1 := by
  induction l generalizing s with
  | nil => rfl
  | cons a l ih => simp [prefixSums, ih]

theorem prefixSums_getD (s : ℕ) (l : List ℕ) (i : ℕ) (h : i ≤ l.length) :
    (prefixSums s l).getD i 0 = s + (l.take i).sum := by
  induction l generalizing s i with
  | nil =>
    have : i = 0 := by simpa using h
    subst this; simp [prefixSums]
  | cons a l ih =>
    cases i with
    | zero => simp [prefixSums]
    | succ i =>
      have := ih (s + a) i (by simpa using h)
      simp only [prefixSums, List.getD_cons_succ, List.take_succ_cons, List.sum_cons, this]
      omega

theorem prefixSums_ne_nil (s : ℕ) (l : List ℕ) : prefixSums s l ≠ [] := by
  cases l <;> simp [prefixSums]

theorem prefixSums_getLastD (s : ℕ) (l : List ℕ) (d : ℕ) : (prefixSums s l).getLastD d = s + l.sum := by
  induction l generalizing s with
  | nil => simp [prefixSums]
  | cons a l ih =>
    simp only [prefixSums, List.sum_cons]
    have := ih (s + a)
    rw [List.getLastD_cons]
    cases hp : prefixSums (s + a) l with
    | nil => exact absurd hp (prefixSums_ne_nil _ _)
    | cons b m =>
      rw [hp] at this
      simp only [List.getLastD_cons] at this ⊢
      omega

theorem prefixSums_append_single (s : ℕ) (l : List ℕ) (a : ℕ) :
    prefixSums s (l ++ [a]) = prefixSums s l ++ [s + l.sum + a] := by
  induction l generalizing s with
  | nil => simp [prefixSums]
  | cons b l ih => simp [prefixSums, ih]; omega

theorem take_flatten_len {α : Type} (bs : List (List α)) (i : ℕ) :
    ((bs.map List.length).take i).sum = (bs.take i).flatten.length := by
  rw [List.length_flatten, List.map_take]

theorem flatten_split {α : Type} (bs : List (List α)) (i : ℕ) (h : i < bs.length) :
    bs.flatten = (bs.take i).flatten ++ (bs.getD i [] ++ (bs.drop (i + 1)).flatten) := by
  conv_lhs => rw [← List.take_append_drop i bs, List.drop_eq_getElem_cons h]
  rw [List.flatten_append, List.flatten_cons, List.getD_eq_getElem _ _ h]

/-- Slices of concatenated data with prefix-sum offsets are the original pieces. -/
theorem links_flatten {α : Type} (bs : List (List α)) (i : ℕ) (h : i < bs.length) :
    links bs.flatten (prefixSums 0 (bs.map List.length)) i = bs.getD i [] := by
  unfold links
  rw [prefixSums_getD _ _ _ (by simp; omega), prefixSums_getD _ _ _ (by simp; omega)]
  rw [take_flatten_len, take_flatten_len]
  have e : (bs.take (i + 1)).flatten.length = (bs.take i).flatten.length + (bs.getD i []).length := by
    rw [List.take_succ_eq_append_getElem h, List.flatten_append, List.length_append,
      List.getD_eq_getElem _ _ h]
    simp
  rw [e, flatten_split bs i h]
  simp

/-! ### owner -/

theorem upperBound_zero (s n : ℕ) (l : List ℕ) (h : n < s) : upperBound (prefixSums s l) n = 0 := by
  cases l <;> simp [prefixSums, upperBound, h]

theorem upperBound_cons (s n a : ℕ) (l : List ℕ) (h : s ≤ n) :
    upperBound (prefixSums s (a :: l)) n = upperBound (prefixSums (s + a) l) n + 1 := by
  have : ¬ n < s := by omega
  simp [prefixSums, upperBound, this]

theorem owner_spec (l : List ℕ) : ∀ (s n : ℕ), s ≤ n → n < s + l.sum →
    owner (prefixSums s l) n < l.length ∧ s + (l.take (owner (prefixSums s l) n)).sum ≤ n ∧
      n < s + (l.take (owner (prefixSums s l) n + 1)).sum := by
  induction l with
  | nil => intro s n h1 h2; simp at h2; omega
  | cons a l ih =>
    intro s n h1 h2
    unfold owner at *
    rw [upperBound_cons _ _ _ _ h1]
    by_cases h : n < s + a
    · rw [upperBound_zero _ _ _ h]
      simp
      omega
    · have := ih (s + a) n (by omega) (by simp at h2; omega)
      have hpos : 0 < upperBound (prefixSums (s + a) l) n := by
        cases l with
        | nil => simp at h2; omega
        | cons b m => rw [upperBound_cons _ _ _ _ (by omega)]; omega
      obtain ⟨k, hk⟩ : ∃ k, upperBound (prefixSums (s + a) l) n = k + 1 := ⟨_, (Nat.succ_pred_eq_of_pos hpos).symm⟩
      rw [hk] at this ⊢
      simp only [Nat.add_sub_cancel, List.length_cons, List.take_succ_cons, List.sum_cons] at this ⊢
      omega

theorem take_sum_mono (l : List ℕ) {i j : ℕ} (h : i ≤ j) : (l.take i).sum ≤ (l.take j).sum := by
  obtain ⟨k, rfl⟩ := Nat.exists_eq_add_of_le h
  rw [List.take_add, List.sum_append]; omega

/-- The owner is the only process whose index range contains `n`. -/
theorem owner_iff (l : List ℕ) (n q : ℕ) (hn : n < l.sum) :
    owner (prefixSums 0 l) n = q ↔
      q < l.length ∧ (l.take q).sum ≤ n ∧ n < (l.take (q + 1)).sum := by
  have h := owner_spec l 0 n (Nat.zero_le _) (by omega)
  simp only [Nat.zero_add] at h
  constructor
  · rintro rfl; exact h
  · rintro ⟨h1, h2, h3⟩
    rcases lt_trichotomy (owner (prefixSums 0 l) n) q with hlt | heq | hgt
    · have := take_sum_mono l (show owner (prefixSums 0 l) n + 1 ≤ q by omega); omega
    · exact heq
    · have := take_sum_mono l (show q + 1 ≤ owner (prefixSums 0 l) n by omega); omega

/-! ### destinations of one facet -/

theorem pairwise_lt_of_le_nodup {l : List ℕ} (h1 : l.Pairwise (· ≤ ·)) (h2 : l.Nodup) :
    l.Pairwise (· < ·) := by
  induction l with
  | nil => exact List.Pairwise.nil
  | cons a l ih =>
    rw [List.pairwise_cons] at h1 ⊢
    rw [List.nodup_cons] at h2
    exact ⟨fun b hb => lt_of_le_of_ne (h1.1 b hb) (fun e => h2.1 (e ▸ hb)), ih h1.2 h2.2⟩

theorem facetProcs_aux (offsets : List ℕ) (p : ℕ) (ns : List ℕ) : ∀ (pr : List ℕ),
    pr.Pairwise (· < ·) →
    let out := ns.foldl (fun pr n =>
      let q := owner offsets n
      if q ≠ p then
        if q ∈ pr then pr else stableSort (fun x : ℕ => (x : ℤ)) (pr ++ [q])
      else pr) pr
    out.Pairwise (· < ·) ∧ ∀ q, q ∈ out ↔ q ∈ pr ∨ (q ≠ p ∧ ∃ n ∈ ns, owner offsets n = q) := by
  induction ns with
  | nil => intro pr h; simp [h]
  | cons n ns ih =>
    intro pr h
    simp only [List.foldl_cons]
    by_cases h1 : owner offsets n = p
    · rw [if_neg (by simpa using h1)]
      obtain ⟨e1, e2⟩ := ih pr h
      refine ⟨e1, fun q => ?_⟩
      rw [e2 q]
      constructor
      · rintro (h | ⟨h2, n', h3, h4⟩)
        · exact Or.inl h
        · exact Or.inr ⟨h2, n', List.mem_cons_of_mem _ h3, h4⟩
      · rintro (h | ⟨h2, n', h3, h4⟩)
        · exact Or.inl h
        · rcases List.mem_cons.mp h3 with rfl | h3
          · exact absurd (h4.symm.trans h1) h2
          · exact Or.inr ⟨h2, n', h3, h4⟩
    · rw [if_pos h1]
      by_cases h2 : owner offsets n ∈ pr
      · rw [if_pos h2]
        obtain ⟨e1, e2⟩ := ih pr h
        refine ⟨e1, fun q => ?_⟩
        rw [e2 q]
        constructor
        · rintro (h | ⟨h2, n', h3, h4⟩)
          · exact Or.inl h
          · exact Or.inr ⟨h2, n', List.mem_cons_of_mem _ h3, h4⟩
        · rintro (h | ⟨h2', n', h3, h4⟩)
          · exact Or.inl h
          · rcases List.mem_cons.mp h3 with rfl | h3
            · exact Or.inl (h4 ▸ h2)
            · exact Or.inr ⟨h2', n', h3, h4⟩
      · rw [if_neg h2]
        have hs : (stableSort (fun x : ℕ => (x : ℤ)) (pr ++ [owner offsets n])).Pairwise (· < ·) := by
          apply pairwise_lt_of_le_nodup (stableSort_nat_sorted _)
          rw [(stableSort_perm _ _).nodup_iff, List.nodup_append]
          refine ⟨h.imp (fun hab => Nat.ne_of_lt hab), by simp, ?_⟩
          intro a ha b hb
          rw [List.mem_singleton] at hb
          subst hb
          intro e; exact h2 (e ▸ ha)
        obtain ⟨e1, e2⟩ := ih _ hs
        refine ⟨e1, fun q => ?_⟩
        rw [e2 q]
        simp only [mem_stableSort, List.mem_append, List.mem_singleton]
        constructor
        · rintro ((h | h) | ⟨h2, n', h3, h4⟩)
          · exact Or.inl h
          · exact Or.inr ⟨h ▸ h1, n, List.mem_cons_self, h.symm⟩
          · exact Or.inr ⟨h2, n', List.mem_cons_of_mem _ h3, h4⟩
        · rintro (h | ⟨h2', n', h3, h4⟩)
          · exact Or.inl (Or.inl h)
          · rcases List.mem_cons.mp h3 with rfl | h3
            · exact Or.inl (Or.inr h4.symm)
            · exact Or.inr ⟨h2', n', h3, h4⟩

theorem facetProcs_spec (offsets : List ℕ) (p : ℕ) (ns : List ℕ) :
    (facetProcs offsets p ns).Pairwise (· < ·) ∧
      ∀ q, q ∈ facetProcs offsets p ns ↔ q ≠ p ∧ ∃ n ∈ ns, owner offsets n = q := by
  have := facetProcs_aux offsets p ns [] List.Pairwise.nil
  simpa [facetProcs] using this

/-! ### the loops on the root process -/

/-- Destination lists of the facets of process `p`, the first of which has global number `i`. -/
def destLists (offsets : List ℕ) (near : ℕ → List ℕ) (p nf i : ℕ) : List (List ℕ) :=
  (List.range nf).map (fun j => facetProcs offsets p (near (i + j)))

theorem facetLoop_spec (offsets : List ℕ) (near : ℕ → List ℕ) (p nf i : ℕ) (hd : List ℕ)
    (hlen : hd.length = nf + 1) (h0 : hd.getD 0 0 = 0) :
    facetLoop offsets near p nf (hd, i) =
      (prefixSums 0 ((destLists offsets near p nf i).map List.length) ++
        (destLists offsets near p nf i).flatten, i + nf) := by
  have key : ∀ k, k ≤ nf → (List.range k).foldl (fun (st : List ℕ × ℕ) j =>
      let nb := st.1 ++ facetProcs offsets p (near st.2)
      (nb.set (j + 1) (nb.length - (nf + 1)), st.2 + 1)) (hd, i) =
      (prefixSums 0 ((destLists offsets near p k i).map List.length) ++ hd.drop (k + 1) ++
        (destLists offsets near p k i).flatten, i + k) := by
    intro k
    induction k with
    | zero =>
      intro _
      cases hd with
      | nil => simp at hlen
      | cons a m =>
        simp only [List.getD_cons_zero] at h0
        subst h0
        simp [destLists, prefixSums]
    | succ k ih =>
      intro hk
      rw [List.range_succ, List.foldl_append, ih (by omega)]
      have hdl : destLists offsets near p (k + 1) i =
          destLists offsets near p k i ++ [facetProcs offsets p (near (i + k))] := by
        simp [destLists, List.range_succ]
      have hdlen : (destLists offsets near p k i).length = k := by simp [destLists]
      simp only [List.foldl_cons, List.foldl_nil, Prod.mk.injEq]
      refine ⟨?_, by omega⟩
      rw [hdl, List.map_append, List.map_singleton, prefixSums_append_single, List.flatten_append]
      have hdrop : hd.drop (k + 1) = hd.getD (k + 1) 0 :: hd.drop (k + 2) := by
        rw [List.getD_eq_getElem _ _ (by omega)]
        exact List.drop_eq_getElem_cons (by omega)
      rw [hdrop]
      have hl : (prefixSums 0 ((destLists offsets near p k i).map List.length)).length = k + 1 := by
        simp [hdlen]
      simp only [List.append_assoc, List.length_append, List.cons_append, List.length_cons,
        List.length_drop, hlen, hl]
      rw [List.set_append_right _ _ (by omega), hl]
      simp only [Nat.sub_self, List.set_cons_zero, List.nil_append, List.flatten_singleton,
        List.length_flatten, Nat.zero_add, List.append_cancel_left_eq, List.cons.injEq, and_true]
      omega
  unfold facetLoop
  rw [key nf (le_refl _), List.drop_of_length_le (by omega)]
  simp

theorem rootLoop_spec (counts : List ℕ) (near : ℕ → List ℕ) :
    ∃ blocks : List (List ℕ), blocks.length = counts.length ∧
      (rootLoop counts near).nbrProcs = blocks.flatten ∧
      (rootLoop counts near).nbrOffsets = prefixSums 0 (blocks.map List.length) ∧
      ∀ p, p < counts.length →
        let ls := destLists (prefixSums 0 counts) near p (counts.getD p 0) (counts.take p).sum
        blocks.getD p [] = prefixSums 0 (ls.map List.length) ++ ls.flatten := by
  have key : ∀ k, k ≤ counts.length → ∃ blocks : List (List ℕ), blocks.length = k ∧
      let st := (List.range k).foldl (fun (st : Root) p =>
        let nf := counts.getD p 0
        let r := facetLoop (prefixSums 0 counts) near p nf (resize st.neighborP (nf + 1), st.i)
        let procs := st.nbrProcs ++ r.1
        (⟨procs, st.nbrOffsets ++ [procs.length], r.1, r.2⟩ : Root)) ⟨[], [0], [], 0⟩
      st.nbrProcs = blocks.flatten ∧ st.nbrOffsets = prefixSums 0 (blocks.map List.length) ∧
      st.i = (counts.take k).sum ∧ st.neighborP.getD 0 0 = 0 ∧
      ∀ p, p < k →
        let ls := destLists (prefixSums 0 counts) near p (counts.getD p 0) (counts.take p).sum
        blocks.getD p [] = prefixSums 0 (ls.map List.length) ++ ls.flatten := by
    intro k
    induction k with
    | zero => intro _; exact ⟨[], rfl, by simp [prefixSums]⟩
    | succ k ih =>
      intro hk
      obtain ⟨blocks, hb, h1, h2, h3, h4, h5⟩ := ih (by omega)
      simp only [List.range_succ, List.foldl_append, List.foldl_cons, List.foldl_nil]
      generalize (List.range k).foldl _ _ = st at *
      have hres : (resize st.neighborP (counts.getD k 0 + 1)).length = counts.getD k 0 + 1 := by
        simp [resize]; omega
      have hr0 : (resize st.neighborP (counts.getD k 0 + 1)).getD 0 0 = 0 := by
        unfold resize
        cases hn : st.neighborP with
        | nil => simp
        | cons a l => rw [hn] at h4; simpa using h4
      have hf := facetLoop_spec (prefixSums 0 counts) near k (counts.getD k 0) st.i _ hres hr0
      rw [hf]
      dsimp only
      rw [h3]
      refine ⟨blocks ++ [prefixSums 0 ((destLists (prefixSums 0 counts) near k (counts.getD k 0)
            (counts.take k).sum).map List.length) ++ (destLists (prefixSums 0 counts) near k (counts.getD k 0)
            (counts.take k).sum).flatten], by simp [hb], ?_, ?_, ?_, ?_, ?_⟩
      · rw [h1]; simp
      · rw [h2, h1, List.map_append, List.map_singleton, prefixSums_append_single]
        simp [List.length_flatten]
      · rw [List.take_succ_eq_append_getElem (by omega), List.sum_append,
          List.getD_eq_getElem _ _ (by omega)]
        simp
      · cases hc : (destLists (prefixSums 0 counts) near k (counts.getD k 0)
            (counts.take k).sum).map List.length <;> simp [prefixSums]
      · intro p hp
        by_cases hpk : p < k
        · have := h5 p hpk
          rw [List.getD_append _ _ _ _ (by omega)]
          exact this
        · have : p = k := by omega
          subst this
          rw [List.getD_append_right _ _ _ _ (by omega), hb]
          simp
  obtain ⟨blocks, hb, h1, h2, -, -, h5⟩ := key counts.length (le_refl _)
  exact ⟨blocks, hb, h1, h2, h5⟩

theorem cellDests_eq (counts : List ℕ) (near : ℕ → List ℕ) (p j : ℕ) (hp : p < counts.length)
    (hj : j < counts.getD p 0) :
    cellDests counts near p j =
      facetProcs (prefixSums 0 counts) p (near ((counts.take p).sum + j)) := by
  obtain ⟨blocks, hb, h1, h2, h3⟩ := rootLoop_spec counts near
  unfold cellDests
  dsimp only
  rw [h1, h2, links_flatten blocks p (by omega), h3 p hp]
  have hl : (prefixSums 0 ((destLists (prefixSums 0 counts) near p (counts.getD p 0)
      (counts.take p).sum).map List.length)).length = counts.getD p 0 + 1 := by
    simp [destLists]
  rw [List.take_left' hl, List.drop_left' hl, links_flatten _ _ (by simpa [destLists] using hj)]
  rw [List.getD_eq_getElem _ _ (by simpa [destLists] using hj)]
  simp [destLists]

/-! ### gather -/

theorem allgatherv_flatten {α : Type} (init : List α) (send : List (List α))
    (hinit : init.length = send.flatten.length) :
    allgatherv init send (send.map List.length) (prefixSums 0 (send.map List.length)) =
      send.flatten := by
  have key : ∀ k, k ≤ send.length → (List.range k).foldl (fun buf i =>
      writeAt buf ((prefixSums 0 (send.map List.length)).getD i 0)
        ((send.getD i []).take ((send.map List.length).getD i 0))) init =
      (send.take k).flatten ++ init.drop (send.take k).flatten.length := by
    intro k
    induction k with
    | zero => simp
    | succ k ih =>
      intro hk
      rw [List.range_succ, List.foldl_append, ih (by omega)]
      simp only [List.foldl_cons, List.foldl_nil]
      rw [prefixSums_getD _ _ _ (by simp; omega), take_flatten_len]
      have hlen : (send.map List.length).getD k 0 = (send.getD k []).length := by
        rw [List.getD_eq_getElem _ _ (by simp; omega), List.getD_eq_getElem _ _ (by omega)]
        simp
      rw [hlen, List.take_length]
      have e : (send.take (k + 1)).flatten = (send.take k).flatten ++ send.getD k [] := by
        rw [List.take_succ_eq_append_getElem (by omega), List.flatten_append,
          List.getD_eq_getElem _ _ (by omega)]
        simp
      rw [e]
      unfold writeAt
      simp [List.drop_append, List.length_append]
  unfold allgatherv
  rw [key send.length (le_refl _)]
  rw [List.take_length, List.drop_of_length_le (by omega), List.append_nil]

/-! ### `lex_match` -/

theorem lexLess_iff (a b : List ℤ) : lexLess a b = true ↔ a < b := by
  induction a generalizing b with
  | nil => cases b <;> simp [lexLess]
  | cons x a ih =>
    cases b with
    | nil => simp [lexLess]
    | cons y b =>
      rw [List.cons_lt_cons_iff]
      unfold lexLess
      by_cases h1 : x < y
      · simp [h1]
      · by_cases h2 : y < x
        · simp [h1, h2]; omega
        · have : x = y := by omega
          simp [this, ih]

theorem lexLess_false_iff (a b : List ℤ) : lexLess a b = false ↔ b ≤ a := by
  rw [← not_lt, ← lexLess_iff]; simp

theorem lexMerge_sound (dim : ℕ) (loc inn vals : List ℤ) : ∀ (is js : List ℕ),
    ((lexMerge dim loc inn vals is js).map Prod.fst).Sublist js ∧
    ∀ j v, (j, v) ∈ lexMerge dim loc inn vals is js →
      ∃ i ∈ is, row dim inn i = row dim loc j ∧ v = vals.getD i 0 := by
  intro is js
  induction is, js using lexMerge.induct dim loc inn with
  | case1 i is j js h ih =>
    rw [lexMerge, if_pos h]
    refine ⟨by simpa using ih.1, ?_⟩
    intro j' v hm
    rcases List.mem_cons.mp hm with e | hm
    · injection e with e1 e2
      subst e1 e2
      exact ⟨i, by simp, h, rfl⟩
    · obtain ⟨i', h1, h2⟩ := ih.2 j' v hm
      exact ⟨i', List.mem_cons_of_mem _ h1, h2⟩
  | case2 i is j js h h' ih =>
    rw [lexMerge, if_neg h, if_pos h']
    refine ⟨ih.1, ?_⟩
    intro j' v hm
    obtain ⟨i', h1, h2⟩ := ih.2 j' v hm
    exact ⟨i', List.mem_cons_of_mem _ h1, h2⟩
  | case3 i is j js h h' ih =>
    rw [lexMerge, if_neg h, if_neg h']
    exact ⟨ih.1.cons _, ih.2⟩
  | case4 is js h =>
    have : lexMerge dim loc inn vals is js = [] := by
      unfold lexMerge
      split
      · exact absurd rfl (h _ _ _ _ rfl)
      · rfl
    rw [this]
    simp

theorem lexMerge_complete (dim : ℕ) (loc inn vals : List ℤ) : ∀ (is js : List ℕ),
    is.Pairwise (fun a b => row dim inn a ≤ row dim inn b) →
    js.Pairwise (fun a b => row dim loc a < row dim loc b) →
    ∀ j ∈ js, ∀ i ∈ is, row dim inn i = row dim loc j →
      ∃ v, (j, v) ∈ lexMerge dim loc inn vals is js := by
  intro is js
  induction is, js using lexMerge.induct dim loc inn with
  | case1 i is j js h ih =>
    intro hi hj j' hj' i' hi' heq
    rw [lexMerge, if_pos h]
    rw [List.pairwise_cons] at hi hj
    rcases List.mem_cons.mp hj' with rfl | hj''
    · exact ⟨_, List.mem_cons_self⟩
    · rcases List.mem_cons.mp hi' with rfl | hi''
      · have := hj.1 j' hj''
        rw [← heq, h] at this
        exact absurd this (lt_irrefl _)
      · obtain ⟨v, hv⟩ := ih hi.2 hj.2 j' hj'' i' hi'' heq
        exact ⟨v, List.mem_cons_of_mem _ hv⟩
  | case2 i is j js h h' ih =>
    intro hi hj j' hj' i' hi' heq
    rw [lexMerge, if_neg h, if_pos h']
    have hlt := (lexLess_iff _ _).mp h'
    rcases List.mem_cons.mp hi' with rfl | hi''
    · exfalso
      rcases List.mem_cons.mp hj' with rfl | hj''
      · exact h heq
      · have := (List.pairwise_cons.mp hj).1 j' hj''
        rw [heq] at hlt
        exact absurd (lt_trans this hlt) (lt_irrefl _)
    · exact ih (List.pairwise_cons.mp hi).2 hj j' hj' i' hi'' heq
  | case3 i is j js h h' ih =>
    intro hi hj j' hj' i' hi' heq
    rw [lexMerge, if_neg h, if_neg h']
    have hle := (lexLess_false_iff _ _).mp (by simpa using h')
    rcases List.mem_cons.mp hj' with rfl | hj''
    · exfalso
      have hlt : row dim loc j' < row dim inn i := lt_of_le_of_ne hle (fun e => h e.symm)
      rcases List.mem_cons.mp hi' with rfl | hi''
      · exact h heq
      · have := (List.pairwise_cons.mp hi).1 i' hi''
        rw [heq] at this
        exact absurd (lt_of_lt_of_le hlt this) (lt_irrefl _)
    · exact ih hi (List.pairwise_cons.mp hj).2 j' hj'' i' hi' heq
  | case4 is js h =>
    intro _ _ j hj i hi
    cases is with
    | nil => simp at hi
    | cons a is =>
      cases js with
      | nil => simp at hj
      | cons b js => exact absurd rfl (h _ _ _ _ rfl)

/-! ### linked cells -/

theorem filterMap_nonneg_length (g : ℕ → ℕ) (l : List ℤ) :
    (l.filterMap (fun f => if f ≥ 0 then some (g f.toNat) else none)).length ≤ l.length :=
  List.length_filterMap_le _ _

end Verif.Ghosting
