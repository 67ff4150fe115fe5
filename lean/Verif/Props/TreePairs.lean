import Verif.Spec.TreePairs
import Verif.Props.Entities
import Verif.Props.Search

/-!
# C214: contact pairs of the Christmas tree
-/

namespace Verif.Props.TreePairs

open Verif.TreePairs Verif.Spec.TreePairs Verif.Entities

theorem offsets_succ {split j : ℕ} (hj : j ≤ 2 * split) : (offsets split).getD (j + 1) 0 = 2 * split + j := by
  rcases j with _ | j
  · simp [offsets]
  · have : j < 2 * split := by omega
    simp [offsets, this]; omega

theorem offsets_length (split : ℕ) : (offsets split).length - 1 = 1 + 2 * split := by simp [offsets]; omega

theorem markers_length (I : Input) (off split : ℕ) : (markers I off split).length = 1 + 2 * split := by simp [markers]; omega

theorem links_zero (off split : ℕ) : links off split 0 = (List.range (2 * split)).map (fun i => ((off + i : ℕ) : ℤ)) := by
  have h0 : (offsets split).getD 0 0 = 0 := by simp [offsets]
  rw [links, offsets_succ (Nat.zero_le _), h0, List.drop_zero, data, ← List.map_take, List.take_range]
  congr 2
  omega

theorem links_succ {off split j : ℕ} (hj : j < 2 * split) : links off split (j + 1) = [((off + 2 * split + j : ℕ) : ℤ)] := by
  rw [links, offsets_succ (by omega : j + 1 ≤ 2 * split), offsets_succ hj.le, data, ← List.map_take, List.take_range,
    ← List.map_drop, show min (2 * split + (j + 1)) (4 * split) = 2 * split + j + 1 by omega, List.range_succ,
    List.drop_append_of_le_length (by simp), List.drop_of_length_le (by simp)]
  simp [Nat.add_assoc]

theorem tagList_eq (off split : ℕ) : tagList (links off split) (1 + 2 * split) =
    (List.range (2 * split)).map (fun i => (0, ((off + i : ℕ) : ℤ)))
      ++ (List.range (2 * split)).map (fun j => (j + 1, ((off + 2 * split + j : ℕ) : ℤ))) := by
  rw [tagList, Nat.add_comm, List.range_succ_eq_map, List.flatMap_cons, links_zero, List.map_map, List.flatMap_map]
  congr 1
  rw [← List.flatMap_singleton' (List.range (2 * split)), List.flatMap_singleton']
  rw [List.map_eq_flatMap]
  refine List.flatMap_congr (fun j hj => ?_)
  rw [List.mem_range] at hj
  simp [links_succ hj]

theorem get_first (off : ℕ) {split k : ℕ} (hk : k < 2 * split) : ((List.range (2 * split)).map (fun i => (0, ((off + i : ℕ) : ℤ)))
      ++ (List.range (2 * split)).map (fun j => (j + 1, ((off + 2 * split + j : ℕ) : ℤ))))[k]? = some (0, ((off + k : ℕ) : ℤ)) := by
  rw [List.getElem?_append_left (by simpa using hk), List.getElem?_map, List.getElem?_range hk]
  rfl

theorem get_second (off : ℕ) {split j : ℕ} (hj : j < 2 * split) : ((List.range (2 * split)).map (fun i => (0, ((off + i : ℕ) : ℤ)))
      ++ (List.range (2 * split)).map (fun j => (j + 1, ((off + 2 * split + j : ℕ) : ℤ))))[2 * split + j]? =
        some (j + 1, ((off + 2 * split + j : ℕ) : ℤ)) := by
  rw [List.getElem?_append_right (by simp), List.getElem?_map, List.length_map, List.length_range, Nat.add_sub_cancel_left,
    List.getElem?_range hj]
  rfl

theorem marker_zero (I : Input) (off split : ℕ) : (markers I off split).getD 0 (fun _ => []) = I.find := by simp [markers]

theorem marker_first (I : Input) (off : ℕ) {split i : ℕ} (hi : i < split) :
    (markers I off split).getD (i + 1) (fun _ => []) ((off + 2 * split + i : ℕ) : ℤ) =
      segmentNear I (I.find ((off + split + i : ℕ) : ℤ)) (cand0 I off split) := by
  simp [markers, hi, single, List.getElem?_append]

theorem marker_second (I : Input) (off : ℕ) {split i : ℕ} (hi : i < split) :
    (markers I off split).getD (split + i + 1) (fun _ => []) ((off + 3 * split + i : ℕ) : ℤ) =
      segmentNear I (I.find ((off + i : ℕ) : ℤ)) (cand1 I off split) := by
  simp [markers, hi, single, List.getElem?_append]

theorem near_mem (I : Input) (facets cand : List ℕ) (g : ℕ) :
    g ∈ segmentNear I facets cand ↔ g ∈ cand ∧ ∃ f ∈ facets, Near I f g := by
  classical
  rw [segmentNear, Search.C10_surface_segment, if_neg (by norm_num)]
  simp only [List.mem_map, List.mem_filter, decide_eq_true_eq, Search.sqDist, Fin.sum_univ_three, Near]
  constructor
  · rintro ⟨p, ⟨⟨f, hf, rfl⟩, q, ⟨k, hk, rfl⟩, h⟩, rfl⟩
    exact ⟨hf, k, hk, h⟩
  · rintro ⟨hg, f, hf, h⟩
    exact ⟨_, ⟨⟨g, hg, rfl⟩, _, ⟨f, hf, rfl⟩, h⟩, rfl⟩

theorem near_sublist (I : Input) (facets cand : List ℕ) : (segmentNear I facets cand).Sublist cand := by
  classical
  rw [segmentNear, Search.C10_surface_segment, if_neg (by norm_num)]
  have := (List.filter_sublist (p := fun c : ℕ × (Fin 3 → ℝ) => decide (∃ q ∈ facets.map I.mid, Search.sqDist q c.2 < (8 / 10) ^ 2))
    (l := cand.map (fun f => (f, I.mid f)))).map Prod.fst
  rw [List.map_map] at this
  have e : cand.map (Prod.fst ∘ fun f => (f, I.mid f)) = cand := by
    conv_rhs => rw [← List.map_id cand]
    rfl
  rw [e] at this
  exact this

theorem mem_cand0 (I : Input) (off split g : ℕ) : g ∈ cand0 I off split ↔ g ∈ whole I off split := by
  simp [cand0, whole]

theorem mem_cand1 (I : Input) (off split g : ℕ) : g ∈ cand1 I off split ↔ g ∈ whole I (off + split) split := by
  simp [cand1, whole]

/-- **C214.** Every part of the contact surface of the tree is paired with the facets of the surrounding body that are near it, in
whatever part they are, and the other way round; every part is the first of exactly one pair. -/
theorem C214_pairs (cn : Conn) (I : Input) (off split : ℕ) :
    ∃ s, surfaces cn I off split = .ok s ∧ s.2.length = 4 * split + 1 ∧
      ((contactPairs split).map Prod.fst).Perm (List.range (2 * split)) ∧
      ∀ p ∈ contactPairs split, ∃ k < split, ∃ near,
        activeEntities cn near .exteriorFacet = .ok (surface s p.2) ∧
        ((p.1 = k ∧ activeEntities cn (I.find ((off + k : ℕ) : ℤ)) .exteriorFacet = .ok (surface s p.1) ∧
            IsNear I (I.find ((off + k : ℕ) : ℤ)) (whole I (off + split) split) near) ∨
          (p.1 = split + k ∧ activeEntities cn (I.find ((off + split + k : ℕ) : ℤ)) .exteriorFacet = .ok (surface s p.1) ∧
            IsNear I (I.find ((off + split + k : ℕ) : ℤ)) (whole I off split) near)) := by
  obtain ⟨d, o, hc, hl, -, hk⟩ := C17_surfaces cn (fun s t => ((markers I off split).getD s (fun _ => [])) t) (links off split)
    (1 + 2 * split)
  rw [tagList_eq] at hl
  have key : ∀ (k s : ℕ) (t : ℤ), ((List.range (2 * split)).map (fun i => (0, ((off + i : ℕ) : ℤ)))
      ++ (List.range (2 * split)).map (fun j => (j + 1, ((off + 2 * split + j : ℕ) : ℤ))))[k]? = some (s, t) →
      activeEntities cn ((markers I off split).getD s (fun _ => []) t) .exteriorFacet = .ok (surface (d, o) k) := by
    intro k s t h
    rw [← tagList_eq] at h
    obtain ⟨h1, h2⟩ := List.getElem?_eq_some_iff.1 h
    have := hk k h1
    rw [h2] at this
    exact this
  refine ⟨(d, o), ?_, ?_, ?_, ?_⟩
  · rw [surfaces, contactFromMarkers, markers_length, hc, offsets_length]
    simp
  · rw [hl]; simp; omega
  · rw [contactPairs, List.map_flatMap]
    simp only [List.map_cons, List.map_nil]
    have : ∀ n, (List.range n).flatMap (fun i => [i, split + i]) |>.Perm (List.range n ++ (List.range n).map (split + ·)) := by
      intro n
      induction n with
      | zero => simp
      | succ n ih =>
        rw [List.range_succ, List.flatMap_append, List.map_append]
        simp only [List.flatMap_cons, List.flatMap_nil, List.append_nil, List.map_cons, List.map_nil]
        refine (ih.append_right _).trans ?_
        simp only [List.append_assoc]
        refine List.Perm.append_left _ ?_
        have h := (List.perm_append_comm (l₁ := (List.range n).map (split + ·)) (l₂ := [n])).append_right [split + n]
        simpa only [List.append_assoc, List.cons_append, List.nil_append] using h
    rw [Nat.two_mul, List.range_add]
    exact this split
  · intro p hp
    simp only [contactPairs, List.mem_flatMap, List.mem_range, List.mem_cons, List.not_mem_nil, or_false] at hp
    obtain ⟨i, hi, rfl | rfl⟩ := hp
    · refine ⟨i, hi, segmentNear I (I.find ((off + i : ℕ) : ℤ)) (cand1 I off split), ?_, Or.inl ⟨rfl, ?_, ?_⟩⟩
      · rw [← marker_second I off hi]
        have := get_second off (split := split) (j := split + i) (by omega)
        rw [show 2 * split + (split + i) = 3 * split + i by omega,
          show off + 2 * split + (split + i) = off + 3 * split + i by omega] at this
        exact key _ _ _ this
      · have := key i 0 ((off + i : ℕ) : ℤ) (get_first off (by omega))
        rwa [marker_zero] at this
      · intro g
        rw [near_mem, mem_cand1]
    · refine ⟨i, hi, segmentNear I (I.find ((off + split + i : ℕ) : ℤ)) (cand0 I off split), ?_, Or.inr ⟨rfl, ?_, ?_⟩⟩
      · rw [← marker_first I off hi]
        exact key _ _ _ (get_second off (by omega))
      · have := key (split + i) 0 ((off + split + i : ℕ) : ℤ) (by
          have := get_first off (split := split) (k := split + i) (by omega)
          rwa [← Nat.add_assoc] at this)
        rwa [marker_zero] at this
      · intro g
        rw [near_mem, mem_cand0]

theorem sort_strict {l : List ℕ} (h : l.Nodup) : (l.insertionSort (· ≤ ·)).Pairwise (· < ·) := by
  have hs := List.pairwise_insertionSort (· ≤ ·) l
  have hn : (l.insertionSort (· ≤ ·)).Nodup := (List.perm_insertionSort _ l).nodup_iff.2 h
  exact (hs.and hn).imp (fun h => Nat.lt_of_le_of_ne h.1 h.2)

theorem parts_nodup {I : Input} (h1 : ∀ t, (I.find t).Nodup) (h2 : ∀ s t, s ≠ t → ∀ f, f ∈ I.find s → f ∉ I.find t) (first split : ℕ) :
    ((List.range split).flatMap (fun i => I.find ((first + i : ℕ) : ℤ))).Nodup := by
  rw [List.nodup_flatMap]
  refine ⟨fun i _ => h1 _, (List.nodup_range (n := split)).imp ?_⟩
  intro i j hij f hi hj
  exact h2 _ _ (by omega) f hi hj

/-- **C214.** If no facet has two tags, the facets of each of the new markers are strictly increasing, as `meshtags` asks. -/
theorem C214_sorted {I : Input} (h1 : ∀ t, (I.find t).Nodup) (h2 : ∀ s t, s ≠ t → ∀ f, f ∈ I.find s → f ∉ I.find t)
    (off split : ℕ) {m : ℤ → List ℕ} (hm : m ∈ (markers I off split).drop 1) (t : ℤ) : (m t).Pairwise (· < ·) := by
  simp only [markers, List.cons_append, List.nil_append, List.drop_succ_cons, List.drop_zero, List.mem_append, List.mem_map] at hm
  rcases hm with ⟨i, -, rfl⟩ | ⟨i, -, rfl⟩
  · rw [single]
    split
    · exact (sort_strict (parts_nodup h1 h2 off split)).sublist (near_sublist _ _ _)
    · exact List.Pairwise.nil
  · rw [single]
    split
    · exact (sort_strict (parts_nodup h1 h2 (off + split) split)).sublist (near_sublist _ _ _)
    · exact List.Pairwise.nil

/-- **C214.** The tags the demo counts from `marker_offset` are those of the parts of the contact surfaces in the mesh, and no tag of
the mesh is used twice (in space the end faces of the tree have tag 5). -/
theorem C214_tags (threed : Bool) {split : ℕ} (hs : 0 < split) :
    (∀ k < split, (innerTags (base threed) split)[k]? = some ((markerOffset threed + k : ℕ) : ℤ) ∧
      (outerTags (base threed) split)[k + 1]? = some ((markerOffset threed + split + k : ℕ) : ℤ)) ∧
    (innerTags (base threed) split ++ outerTags (base threed) split ++ if threed then [5] else []).Nodup := by
  have hb : markerOffset threed = base threed + 1 := by cases threed <;> rfl
  have hin : innerTags (base threed) split = (List.range split).map (fun i => ((base threed + i + 1 : ℕ) : ℤ)) ++ [3] := by
    rw [innerTags]
    congr 1
    obtain ⟨n, rfl⟩ : ∃ n, split = n + 1 := ⟨split - 1, by omega⟩
    rw [List.range_succ, List.map_append]
    simp [Nat.add_assoc]
  refine ⟨fun k hk => ⟨?_, ?_⟩, ?_⟩
  · rw [hin, List.getElem?_append_left (by simpa using hk), List.getElem?_map, List.getElem?_range hk, hb]
    simp; omega
  · rw [outerTags, List.getElem?_cons_succ, List.getElem?_map, List.getElem?_range hk, hb]
    simp; omega
  · have h4 : 4 ≤ base threed := by cases threed <;> decide
    have inj : ∀ c : ℕ, ((List.range split).map (fun i => ((c + i + 1 : ℕ) : ℤ))).Nodup := fun c =>
      List.Nodup.map (fun a b h => by simp at h; omega) List.nodup_range
    rw [hin, outerTags]
    simp only [List.nodup_append, List.nodup_cons, List.mem_map, List.mem_range, List.mem_append, List.mem_cons, List.not_mem_nil,
      or_false]
    refine ⟨⟨⟨inj _, by simp, ?_⟩, ⟨?_, inj _⟩, ?_⟩, by cases threed <;> simp, ?_⟩
    · rintro a ⟨i, -, rfl⟩ b rfl; omega
    · rintro ⟨i, -, h⟩; omega
    · rintro a (⟨i, hi, rfl⟩ | rfl) b (rfl | ⟨j, hj, rfl⟩) <;> omega
    · intro a ha b hb'
      cases threed
      · simp at hb'
      · simp only [if_true, List.mem_cons, List.not_mem_nil, or_false] at hb'
        subst hb'
        simp only [base, if_true] at ha
        rcases ha with (⟨i, -, rfl⟩ | rfl) | rfl | ⟨i, -, rfl⟩ <;> omega

/-! ### two parts -/

/-- Four facets, one for each part; facet `f` has its midpoint at height `f / 2`. -/
noncomputable def exInput : Input := ⟨fun t => if 5 ≤ t ∧ t < 9 then [(t - 5).toNat] else [], fun f i => if i = 1 then (f : ℝ) / 2 else 0⟩

theorem exInput_find (i : ℕ) (hi : i < 4) : exInput.find ((5 + i : ℕ) : ℤ) = [i] := by
  have : (5 : ℤ) ≤ ((5 + i : ℕ) : ℤ) ∧ ((5 + i : ℕ) : ℤ) < 9 := by omega
  simp only [exInput, this, and_self, if_true]
  congr 1
  omega

/-- The second part of the tree (facet 1) is near the first part of the surrounding body (facet 2) but not near the second. -/
example : IsNear exInput (exInput.find ((5 + 1 : ℕ) : ℤ)) (whole exInput (5 + 2) 2) [2] := by
  have h21 : (2 : Fin 3) ≠ 1 := by decide
  have h2 := exInput_find 2 (by norm_num)
  have h3 := exInput_find 3 (by norm_num)
  intro g
  rw [exInput_find 1 (by norm_num)]
  simp only [List.mem_cons, List.not_mem_nil, or_false, whole, Set.mem_setOf_eq, exists_eq_left, Near]
  constructor
  · rintro rfl
    exact ⟨⟨0, by norm_num, by rw [h2]; simp⟩, by norm_num [exInput, h21]⟩
  · rintro ⟨⟨i, hi, hg⟩, hn⟩
    obtain rfl | rfl : i = 0 ∨ i = 1 := by omega
    · rw [h2] at hg; simpa using hg
    · rw [show 5 + 2 + 1 = 5 + 3 by rfl, h3] at hg
      simp only [List.mem_cons, List.not_mem_nil, or_false] at hg
      subst hg
      norm_num [exInput, h21] at hn

end Verif.Props.TreePairs
