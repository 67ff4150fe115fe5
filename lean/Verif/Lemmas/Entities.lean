import Verif.Model.Entities
import Mathlib.Tactic.Push
import Mathlib.Data.List.GetD
import Mathlib.Tactic.Tauto

namespace Verif.Entities

open List

/-! ### The offset loop of `sort_cells` -/

/-- Positions where a new value starts (first `m` adjacent pairs). -/
def changes (s : List ℤ) (m : ℕ) : List ℕ :=
  (range m).filterMap (fun i => if s.getD i 0 ≠ s.getD (i + 1) 0 then some (i + 1) else none)

theorem changes_succ (s : List ℤ) (m : ℕ) :
    changes s (m + 1) = changes s m ++ (if s.getD m 0 ≠ s.getD (m + 1) 0 then [m + 1] else []) := by
  unfold changes
  rw [range_succ, filterMap_append]
  congr 1
  by_cases h : s.getD m 0 ≠ s.getD (m + 1) 0
  · simp only [List.filterMap_cons, if_pos h, List.filterMap_nil]
  · simp only [List.filterMap_cons, if_neg h, List.filterMap_nil]

theorem changes_length_le (s : List ℤ) (m : ℕ) : (changes s m).length ≤ m := by
  unfold changes
  exact (length_filterMap_le _ _).trans (by simp)

theorem set_append_replicate (l : List ℕ) (k v : ℕ) (hk : 0 < k) :
    (l ++ replicate k 0).set l.length v = (l ++ [v]) ++ replicate (k - 1) 0 := by
  obtain ⟨k, rfl⟩ : ∃ j, k = j + 1 := ⟨k - 1, by omega⟩
  simp [replicate_succ]

theorem offsetLoop_eq (s : List ℤ) (hs : s ≠ []) :
    offsetLoop s = (0 :: changes s (s.length - 1)) ++ [s.length]
      ++ replicate (s.length - 1 - (changes s (s.length - 1)).length) 0 := by
  have hn : 0 < s.length := length_pos_iff.mpr hs
  have inv : ∀ m, m ≤ s.length - 1 →
      (range m).foldl (fun (st : ℕ × List ℕ) i =>
        if s.getD i 0 ≠ s.getD (i + 1) 0 then (st.1 + 1, st.2.set (st.1 + 1) (i + 1)) else st)
        (0, replicate (s.length + 1) 0)
      = ((changes s m).length, (0 :: changes s m) ++ replicate (s.length - (changes s m).length) 0) := by
    intro m
    induction m with
    | zero => intro _; simp [changes, replicate_succ]
    | succ m ih =>
      intro hm
      rw [range_succ, foldl_append, ih (by omega), changes_succ]
      have hl := changes_length_le s m
      by_cases h : s.getD m 0 ≠ s.getD (m + 1) 0
      · simp only [foldl_cons, foldl_nil, if_pos h]
        refine Prod.ext (by simp) ?_
        have := set_append_replicate (0 :: changes s m) (s.length - (changes s m).length) (m + 1)
          (by omega)
        simp only [length_cons] at this
        simp only [this]
        simp [Nat.sub_sub]
      · simp only [foldl_cons, foldl_nil, if_neg h, append_nil]
  unfold offsetLoop
  simp only [inv _ le_rfl]
  have hl := changes_length_le s (s.length - 1)
  have := set_append_replicate (0 :: changes s (s.length - 1))
    (s.length - (changes s (s.length - 1)).length) s.length (by omega)
  simp only [length_cons] at this
  rw [this]
  congr 2
  omega

/-- End positions of the groups. -/
def bounds (s : List ℤ) : List ℕ := changes s (s.length - 1) ++ [s.length]

theorem bounds_single (x : ℤ) : bounds [x] = [1] := by simp [bounds, changes]

theorem bounds_cons_cons (x y : ℤ) (l : List ℤ) :
    bounds (x :: y :: l) = (if x ≠ y then [1] else []) ++ (bounds (y :: l)).map (· + 1) := by
  have h : changes (x :: y :: l) (l.length + 1)
      = (if x ≠ y then [1] else []) ++ (changes (y :: l) l.length).map (· + 1) := by
    unfold changes
    rw [range_succ_eq_map, filterMap_cons, filterMap_map, map_filterMap]
    have e : (fun i => if (x :: y :: l).getD i 0 ≠ (x :: y :: l).getD (i + 1) 0
        then some (i + 1) else none) ∘ Nat.succ
        = fun i => Option.map (· + 1) (if (y :: l).getD i 0 ≠ (y :: l).getD (i + 1) 0
          then some (i + 1) else none) := by
      funext i
      by_cases hc : (y :: l).getD i 0 ≠ (y :: l).getD (i + 1) 0
      · have hc' : (x :: y :: l).getD (i + 1) 0 ≠ (x :: y :: l).getD (i + 1 + 1) 0 := by simpa using hc
        simp only [Function.comp, Nat.succ_eq_add_one, if_pos hc, if_pos hc', Option.map_some]
      · have hc' : ¬ (x :: y :: l).getD (i + 1) 0 ≠ (x :: y :: l).getD (i + 1 + 1) 0 := by simpa using hc
        simp only [Function.comp, Nat.succ_eq_add_one, if_neg hc, if_neg hc', Option.map_none]
    rw [e]
    by_cases hxy : x = y
    · subst hxy; simp
    · simp [hxy]
  unfold bounds
  simp only [length_cons, Nat.add_sub_cancel]
  rw [h]
  simp

theorem bounds_length (s : List ℤ) (hs : s ≠ []) : (bounds s).length = (uniqueAdj s).length := by
  fun_induction uniqueAdj s with
  | case1 => exact absurd rfl hs
  | case2 x => simp [bounds_single]
  | case3 x l ih => rw [bounds_cons_cons]; simp [ih]
  | case4 x y l h ih => rw [bounds_cons_cons]; simp [h, ih]

theorem uniqueAdj_head (x : ℤ) (l : List ℤ) : ∃ m, uniqueAdj (x :: l) = x :: m := by
  induction l generalizing x with
  | nil => exact ⟨[], rfl⟩
  | cons y l ih =>
    rw [uniqueAdj_cons_cons]
    by_cases h : x = y
    · subst h; simpa using ih x
    · exact ⟨_, by rw [if_neg h]⟩

/-- Each group between two consecutive offsets of a list sorted by `key` is exactly the list of
elements with that key. -/
theorem groups {α : Type} (key : α → ℤ) (l : List α)
    (hs : l.Pairwise (fun a b => key a ≤ key b)) (k : ℕ)
    (hk : k < (uniqueAdj (l.map key)).length) :
    (l.take ((0 :: bounds (l.map key)).getD (k + 1) 0)).drop ((0 :: bounds (l.map key)).getD k 0)
      = l.filter (fun a => decide (key a = (uniqueAdj (l.map key)).getD k 0)) := by
  induction l generalizing k with
  | nil => simp at hk
  | cons a t ih =>
    cases t with
    | nil =>
      have : k = 0 := by simpa using hk
      subst this
      simp [bounds_single]
    | cons b m =>
      have hs' := List.pairwise_cons.mp hs
      have ih := ih hs'.2
      have hsm : ((b :: m).map key).Pairwise (· ≤ ·) := List.pairwise_map.mpr hs'.2
      have hstrict := uniqueAdj_strict hsm
      simp only [List.map_cons] at hk ih hstrict ⊢
      obtain ⟨u', hu'⟩ := uniqueAdj_head (key b) (m.map key)
      rw [bounds_cons_cons, uniqueAdj_cons_cons] at *
      have hlen := bounds_length (key b :: m.map key) (by simp)
      by_cases hab : key a = key b
      · rw [if_pos hab] at hk ⊢
        simp only [hab, ne_eq, not_true_eq_false, if_false, nil_append]
        cases k with
        | zero =>
          have h0 := ih 0 hk
          have hpos : 0 < (bounds (key b :: m.map key)).length := by rw [hlen]; exact hk
          simp only [List.getD_cons_zero, List.drop_zero, List.getD_cons_succ] at h0 ⊢
          have hget : ((bounds (key b :: m.map key)).map (· + 1)).getD 0 0
              = (bounds (key b :: m.map key)).getD 0 0 + 1 := by
            rw [List.getD_eq_getElem _ _ (by simpa using hpos), List.getD_eq_getElem _ _ hpos]
            simp
          rw [hget, List.take_succ_cons, h0, List.filter_cons_of_pos (a := a)]
          rw [hu']; simp [hab]
        | succ k =>
          have h1 := ih (k + 1) hk
          have hlt : k + 1 < (bounds (key b :: m.map key)).length := by rw [hlen]; exact hk
          simp only [List.getD_cons_succ] at h1 ⊢
          have hget : ∀ j, j < (bounds (key b :: m.map key)).length →
              ((bounds (key b :: m.map key)).map (· + 1)).getD j 0
              = (bounds (key b :: m.map key)).getD j 0 + 1 := by
            intro j hj
            rw [List.getD_eq_getElem _ _ (by simpa using hj), List.getD_eq_getElem _ _ hj]
            simp
          rw [hget k (by omega), hget (k + 1) hlt, List.take_succ_cons, List.drop_succ_cons, h1,
            List.filter_cons_of_neg (a := a)]
          rw [decide_eq_true_eq, hab]
          rw [hu'] at hstrict hk ⊢
          simp only [List.getD_cons_succ]
          simp only [length_cons] at hk
          rw [List.getD_eq_getElem _ _ (by omega)]
          exact ((List.pairwise_cons.mp hstrict).1 _ (List.getElem_mem _)).ne
      · rw [if_neg hab] at hk ⊢
        simp only [ne_eq, hab, not_false_eq_true, if_true, cons_append, nil_append]
        have hlt_ab : key a < key b := lt_of_le_of_ne (hs'.1 b (by simp)) hab
        have hkeys : ∀ c ∈ b :: m, key a < key c := by
          intro c hc
          rcases List.mem_cons.mp hc with rfl | hc
          · exact hlt_ab
          · exact lt_of_lt_of_le hlt_ab ((List.pairwise_cons.mp hs'.2).1 c hc)
        cases k with
        | zero =>
          simp only [List.getD_cons_zero, List.getD_cons_succ, List.drop_zero]
          rw [List.filter_cons_of_pos (by simp)]
          have : (b :: m).filter (fun c => decide (key c = key a)) = [] := by
            rw [List.filter_eq_nil_iff]
            intro c hc
            simp [(hkeys c hc).ne']
          rw [this]; simp
        | succ k =>
          simp only [length_cons] at hk
          have hk' : k < (uniqueAdj (key b :: m.map key)).length := by omega
          have h1 := ih k hk'
          have hlt : k < (bounds (key b :: m.map key)).length := by rw [hlen]; exact hk'
          simp only [List.getD_cons_succ] at h1 ⊢
          have hget : ∀ j, j < (bounds (key b :: m.map key)).length →
              ((bounds (key b :: m.map key)).map (· + 1)).getD j 0
              = (bounds (key b :: m.map key)).getD j 0 + 1 := by
            intro j hj
            rw [List.getD_eq_getElem _ _ (by simpa using hj), List.getD_eq_getElem _ _ hj]
            simp
          have e1 : (1 :: (bounds (key b :: m.map key)).map (· + 1)).getD k 0
              = (0 :: bounds (key b :: m.map key)).getD k 0 + 1 := by
            cases k with
            | zero => simp
            | succ k => simp only [List.getD_cons_succ]; exact hget k (by omega)
          rw [e1, hget k hlt, List.take_succ_cons, List.drop_succ_cons, h1, List.filter_cons_of_neg (a := a)]
          rw [decide_eq_true_eq]
          rw [List.getD_eq_getElem _ _ hk']
          have hmem : (uniqueAdj (key b :: m.map key))[k] ∈ uniqueAdj (key b :: m.map key) :=
            List.getElem_mem _
          rw [mem_uniqueAdj] at hmem
          have : (uniqueAdj (key b :: m.map key))[k] ∈ (b :: m).map key := by simpa using hmem
          obtain ⟨c, hc, hceq⟩ := List.mem_map.mp this
          rw [← hceq]
          exact (hkeys c hc).ne

theorem map_getD_range (cells : List ℤ) :
    (range cells.length).map (fun i => cells.getD i 0) = cells := by
  apply List.ext_getElem
  · simp
  · intro i h1 h2
    simp at h1
    simp [List.getElem?_eq_getElem h1]

/-! ### Flattened pairs -/

@[simp] theorem flatten_length (l : List (ℕ × ℕ)) : (flatten l).length = 2 * l.length := by
  induction l with
  | nil => rfl
  | cons p l ih => obtain ⟨c, f⟩ := p; simp [flatten, ih]; omega

theorem flatten_getD_even (l : List (ℕ × ℕ)) (k : ℕ) (d : ℕ) (hk : k < l.length) :
    (flatten l).getD (2 * k) d = (l[k]).1 := by
  induction l generalizing k with
  | nil => simp at hk
  | cons p l ih =>
    obtain ⟨c, f⟩ := p
    cases k with
    | zero => simp [flatten]
    | succ k =>
      have : 2 * (k + 1) = 2 * k + 1 + 1 := by omega
      rw [this]
      simp only [flatten, List.getD_cons_succ, List.getElem_cons_succ]
      exact ih k (by simpa using hk)

theorem flatten_append (l m : List (ℕ × ℕ)) : flatten (l ++ m) = flatten l ++ flatten m := by
  induction l with
  | nil => rfl
  | cons p l ih => obtain ⟨c, f⟩ := p; simp [flatten, ih]

theorem flatten_injective {l m : List (ℕ × ℕ)} (h : flatten l = flatten m) : l = m := by
  induction l generalizing m with
  | nil =>
    cases m with
    | nil => rfl
    | cons p m => obtain ⟨c, f⟩ := p; simp [flatten] at h
  | cons p l ih =>
    obtain ⟨c, f⟩ := p
    cases m with
    | nil => simp [flatten] at h
    | cons q m =>
      obtain ⟨c', f'⟩ := q
      simp only [flatten, List.cons.injEq] at h
      obtain ⟨rfl, rfl, h⟩ := h
      rw [ih h]

/-- In a list sorted by key, the elements below a bound form a prefix. -/
theorem countP_prefix {α : Type} (key : α → ℕ) (n : ℕ) (l : List α)
    (hs : l.Pairwise (fun a b => key a ≤ key b)) :
    l.take (l.countP (fun a => decide (key a < n))) = l.filter (fun a => decide (key a < n))
      ∧ l.drop (l.countP (fun a => decide (key a < n))) = l.filter (fun a => !decide (key a < n)) := by
  induction l with
  | nil => simp
  | cons a l ih =>
    have hs' := List.pairwise_cons.mp hs
    obtain ⟨h1, h2⟩ := ih hs'.2
    by_cases h : key a < n
    · simp [h, h1, h2]
    · have hall : ∀ b ∈ l, ¬ key b < n := fun b hb hc => h (lt_of_le_of_lt (hs'.1 b hb) hc)
      have h0 : l.countP (fun a => decide (key a < n)) = 0 := by
        rw [List.countP_eq_zero]; intro b hb; simpa using hall b hb
      have hf : l.filter (fun a => !decide (key a < n)) = l := by
        rw [List.filter_eq_self]; intro b hb; simpa using hall b hb
      have hf2 : l.filter (fun a => decide (key a < n)) = [] := by
        rw [List.filter_eq_nil_iff]; intro b hb; simpa using hall b hb
      simp [h, h0, hf, hf2]

/-- The backward scan over a list sorted by cell counts the entries below the bound. -/
theorem scanBack_eq_countP (l : List (ℕ × ℕ)) (n : ℕ)
    (hs : l.Pairwise (fun a b => a.1 ≤ b.1)) :
    scanBack (flatten l) n l.length = l.countP (fun p => decide (p.1 < n)) := by
  have aux : ∀ (k : ℕ), k ≤ l.length →
      scanBack (flatten l) n k = (l.take k).countP (fun p => decide (p.1 < n)) := by
    intro k
    induction k with
    | zero => intro _; simp [scanBack]
    | succ k ih =>
      intro hk
      have hkl : k < l.length := by omega
      rw [scanBack, flatten_getD_even l k 0 hkl]
      have htake : l.take (k + 1) = l.take k ++ [l[k]] := by
        rw [List.take_succ_eq_append_getElem hkl]
      by_cases h : (l[k]).1 < n
      · rw [if_pos h, htake, List.countP_append]
        have hall : (l.take k).countP (fun p => decide (p.1 < n)) = (l.take k).length := by
          rw [List.countP_eq_length]
          intro p hp
          obtain ⟨i, hi, rfl⟩ := List.getElem_of_mem hp
          simp only [List.getElem_take, decide_eq_true_eq]
          have hi' : i < k := by
            rw [List.length_take] at hi; omega
          exact lt_of_le_of_lt (List.pairwise_iff_getElem.mp hs i k (by omega) hkl hi') h
        rw [hall]
        simp [h]; omega
      · rw [if_neg h, ih (by omega), htake, List.countP_append]
        simp [h]
  rw [aux _ le_rfl, List.take_length]

theorem linkedCells_raw (s2p pc : ℕ → ℕ) (l : List ℤ) (init : List ℕ) :
    l.foldl (fun acc facet => if facet ≥ 0 then acc ++ [pc (s2p facet.toNat)] else acc) init
      = init ++ (l.filter (fun f => decide (0 ≤ f))).map (fun f => pc (s2p f.toNat)) := by
  induction l generalizing init with
  | nil => simp
  | cons f l ih =>
    by_cases h : 0 ≤ f
    · simp [h, ih]
    · simp [h, ih]

end Verif.Entities
