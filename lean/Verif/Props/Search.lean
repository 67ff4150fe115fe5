import Verif.Model.Search
import Mathlib.Tactic.Linarith
import Mathlib.Tactic.Ring
import Mathlib.Data.List.Nodup
import Mathlib.Algebra.BigOperators.Fin
import Mathlib.Data.Fin.VecNotation

/-! Properties C09, C10. -/

namespace Verif.Search

variable {K : Type} [Field K] [LinearOrder K] [IsStrictOrderedRing K]

/-! ### C09 -/

/-- Specification: the squared Euclidean distance of two points. -/
def sqDist (p q : Fin 3 → K) : K := ∑ k, (p k - q k) ^ 2

/-- Specification: `j` is a neighbour of `i`: another point at a distance below `r`. -/
def Near (x : Points K) (r : K) (i j : ℕ) : Prop := i ≠ j ∧ 0 ≤ r ∧ sqDist (x i) (x j) < r ^ 2

omit [LinearOrder K] [IsStrictOrderedRing K] in
theorem dr_eq (x : Points K) (i j : ℕ) (dx : K) (h : dx = x j 0 - x i 0 ∨ dx = x i 0 - x j 0) :
    dr x i j dx = sqDist (x i) (x j) := by
  unfold dr sqDist
  simp only [Fin.sum_univ_three]
  rcases h with rfl | rfl <;> ring

theorem near_abs (x : Points K) (r : K) (i j : ℕ) (h0 : 0 ≤ r) (h : sqDist (x i) (x j) < r ^ 2) :
    |x i 0 - x j 0| ≤ r := by
  refine abs_le_of_sq_le_sq ?_ h0
  have : sqDist (x i) (x j) = (x i 0 - x j 0) ^ 2 + (x i 1 - x j 1) ^ 2 + (x i 2 - x j 2) ^ 2 := by
    simp [sqDist, Fin.sum_univ_three]
  nlinarith [sq_nonneg (x i 1 - x j 1), sq_nonneg (x i 2 - x j 2)]

theorem mem_scanFwd (x : Points K) (r : K) (xFwd : List ℕ)
    (hs : xFwd.Pairwise (fun a b => x a 0 ≤ x b 0)) (i : ℕ) (k : ℕ) (hk : k ≤ xFwd.length) (j : ℕ) :
    j ∈ scanFwd x r xFwd i k ↔
      ∃ p, xFwd.length - k ≤ p ∧ ∃ hp : p < xFwd.length, xFwd[p] = j
        ∧ x j 0 - x i 0 ≤ r ∧ sqDist (x i) (x j) < r * r := by
  induction k with
  | zero =>
    simp only [scanFwd, List.not_mem_nil, false_iff, not_exists]
    intro p ⟨h1, h2, _⟩; omega
  | succ k ih =>
    have ih := ih (by omega)
    have hlt : xFwd.length - (k + 1) < xFwd.length := by omega
    unfold scanFwd
    rw [List.getD_eq_getElem _ _ hlt]
    set a := xFwd[xFwd.length - (k + 1)] with ha
    have hsplit : ∀ p, xFwd.length - (k + 1) ≤ p ↔ p = xFwd.length - (k + 1) ∨ xFwd.length - k ≤ p := by
      intro p; omega
    simp only
    by_cases hdx : x a 0 - x i 0 > r
    · rw [if_pos hdx]
      simp only [List.not_mem_nil, false_iff, not_exists]
      rintro p ⟨h1, h2, h3, h4, -⟩
      have : x a 0 ≤ x j 0 := by
        rcases (hsplit p).mp h1 with rfl | h1
        · rw [ha, h3]
        · rw [ha, ← h3]
          exact List.pairwise_iff_getElem.mp hs _ _ hlt h2 (by omega)
      linarith
    · rw [if_neg hdx]
      have hdx' := not_lt.mp hdx
      rw [dr_eq x i a _ (Or.inl rfl)]
      by_cases hd : sqDist (x i) (x a) < r * r
      · rw [if_pos hd, List.mem_cons, ih]
        constructor
        · rintro (rfl | ⟨p, h1, h⟩)
          · exact ⟨_, le_rfl, hlt, ha.symm, hdx', hd⟩
          · exact ⟨p, by omega, h⟩
        · rintro ⟨p, h1, h2, h3, h⟩
          rcases (hsplit p).mp h1 with rfl | h1
          · left; rw [ha, h3]
          · right; exact ⟨p, h1, h2, h3, h⟩
      · rw [if_neg hd, ih]
        constructor
        · rintro ⟨p, h1, h⟩; exact ⟨p, by omega, h⟩
        · rintro ⟨p, h1, h2, h3, h4, h5⟩
          rcases (hsplit p).mp h1 with rfl | h1
          · exact absurd (by rw [ha, h3]; exact h5) hd
          · exact ⟨p, h1, h2, h3, h4, h5⟩

theorem mem_scanBwd (x : Points K) (r : K) (xFwd : List ℕ)
    (hs : xFwd.Pairwise (fun a b => x a 0 ≤ x b 0)) (i : ℕ) (k : ℕ) (hk : k < xFwd.length ∨ k = 0) (j : ℕ) :
    j ∈ scanBwd x r xFwd i k ↔
      ∃ p, 0 < p ∧ p ≤ k ∧ ∃ hp : p < xFwd.length, xFwd[p] = j
        ∧ x i 0 - x j 0 ≤ r ∧ sqDist (x i) (x j) < r * r := by
  induction k with
  | zero =>
    simp only [scanBwd, List.not_mem_nil, false_iff, not_exists]
    intro p ⟨h1, h2, _⟩; omega
  | succ k ih =>
    have hlt : k + 1 < xFwd.length := by omega
    have ih := ih (by omega)
    unfold scanBwd
    rw [List.getD_eq_getElem _ _ hlt]
    set a := xFwd[k + 1] with ha
    have hsplit : ∀ p, p ≤ k + 1 ↔ p = k + 1 ∨ p ≤ k := by intro p; omega
    simp only
    by_cases hdx : x i 0 - x a 0 > r
    · rw [if_pos hdx]
      simp only [List.not_mem_nil, false_iff, not_exists]
      rintro p ⟨h0, h1, h2, h3, h4, -⟩
      have : x j 0 ≤ x a 0 := by
        rcases (hsplit p).mp h1 with rfl | h1
        · rw [ha, h3]
        · rw [ha, ← h3]
          exact List.pairwise_iff_getElem.mp hs _ _ h2 hlt (by omega)
      linarith
    · rw [if_neg hdx]
      have hdx' := not_lt.mp hdx
      rw [dr_eq x i a _ (Or.inr rfl)]
      by_cases hd : sqDist (x i) (x a) < r * r
      · rw [if_pos hd, List.mem_cons, ih]
        constructor
        · rintro (rfl | ⟨p, h0, h1, h⟩)
          · exact ⟨k + 1, by omega, le_rfl, hlt, ha.symm, hdx', hd⟩
          · exact ⟨p, h0, by omega, h⟩
        · rintro ⟨p, h0, h1, h2, h3, h⟩
          rcases (hsplit p).mp h1 with rfl | h1
          · left; rw [ha, h3]
          · right; exact ⟨p, h0, h1, h2, h3, h⟩
      · rw [if_neg hd, ih]
        constructor
        · rintro ⟨p, h0, h1, h⟩; exact ⟨p, h0, by omega, h⟩
        · rintro ⟨p, h0, h1, h2, h3, h4, h5⟩
          rcases (hsplit p).mp h1 with rfl | h1
          · exact absurd (by rw [ha, h3]; exact h5) hd
          · exact ⟨p, h0, h1, h2, h3, h4, h5⟩

/-- C09, exact content of the result.  `n` points, `xFwd` any outcome of `std::sort`.  A point is
listed iff it is near, *except* that the first point in sorted order is never listed.
Partial: the property asks for all near points (see `C09_complete_violated`). -/
theorem C09_exact_partial (x : Points K) (r : K) (n : ℕ) (xFwd : List ℕ)
    (hsort : IsStdSort (fun i => x i 0) (List.range n) xFwd) (i j : ℕ) (hi : i < n) :
    j ∈ (pointCloudPairs x r xFwd).getD i [] ↔ j < n ∧ Near x r i j ∧ xFwd.head? ≠ some j := by
  obtain ⟨hperm, hs⟩ := hsort
  have hlen : xFwd.length = n := by simpa using hperm.length_eq
  have hnd : xFwd.Nodup := hperm.nodup_iff.mpr List.nodup_range
  have hmem : ∀ a, a ∈ xFwd ↔ a < n := fun a => by rw [hperm.mem_iff]; simp
  have hget : (pointCloudPairs x r xFwd).getD i [] = neighbours x r xFwd i := by
    rw [List.getD_eq_getElem _ _ (by simp [pointCloudPairs, hlen, hi])]
    simp [pointCloudPairs]
  have himem : i ∈ xFwd := (hmem i).mpr hi
  have hpos := List.idxOf_lt_length_of_mem himem
  rw [hget]
  unfold neighbours
  set pos := xFwd.idxOf i with hposdef
  have hposget : xFwd[pos] = i := List.getElem_idxOf hpos
  simp only [List.mem_append]
  rw [mem_scanFwd x r xFwd hs i _ (by omega), mem_scanBwd x r xFwd hs i _ (by omega)]
  have hhead : xFwd.head? = xFwd[0]? := List.head?_eq_getElem?
  have hhead' : ∀ p (hp : p < xFwd.length), xFwd.head? ≠ some xFwd[p] ↔ 0 < p := by
    intro p hp
    rw [hhead, List.getElem?_eq_getElem (by omega)]
    simp only [ne_eq, Option.some.injEq]
    rw [hnd.getElem_inj_iff]
    omega
  have hr : ∀ {d : K}, d ≤ r → ∀ (h1 : 0 ≤ d), 0 ≤ r := fun h h1 => le_trans h1 h
  constructor
  · rintro (⟨p, h1, h2, rfl, h4, h5⟩ | ⟨p, h0, h1, h2, rfl, h4, h5⟩)
    · have hlt : pos < p := by omega
      have hord := List.pairwise_iff_getElem.mp hs pos p hpos h2 hlt
      rw [hposget] at hord
      refine ⟨(hmem _).mp (List.getElem_mem h2), ⟨?_, hr h4 (by linarith), by rw [sq]; exact h5⟩,
        (hhead' p h2).mpr (by omega)⟩
      intro hc
      rw [← hposget, hnd.getElem_inj_iff] at hc
      omega
    · have hlt : p < pos := by omega
      have hord := List.pairwise_iff_getElem.mp hs p pos h2 hpos hlt
      rw [hposget] at hord
      refine ⟨(hmem _).mp (List.getElem_mem h2), ⟨?_, hr h4 (by linarith), by rw [sq]; exact h5⟩,
        (hhead' p h2).mpr h0⟩
      intro hc
      rw [← hposget, hnd.getElem_inj_iff] at hc
      omega
  · rintro ⟨hj, ⟨hne, hr0, hd⟩, hh⟩
    have hjm := (hmem j).mpr hj
    obtain ⟨p, hp, rfl⟩ := List.getElem_of_mem hjm
    have hp0 := (hhead' p hp).mp hh
    have habs := near_abs x r i _ hr0 hd
    rw [sq] at hd
    rw [abs_le] at habs
    have hpne : p ≠ pos := by
      rintro rfl; exact hne hposget.symm
    rcases lt_or_gt_of_ne hpne with h | h
    · right; exact ⟨p, hp0, by omega, hp, rfl, habs.2, hd⟩
    · left; exact ⟨p, by omega, hp, rfl, by linarith [habs.1], hd⟩

theorem near_symm (x : Points K) (r : K) (i j : ℕ) : Near x r i j ↔ Near x r j i := by
  have : sqDist (x i) (x j) = sqDist (x j) (x i) := by
    simp only [sqDist, Fin.sum_univ_three]; ring
  unfold Near; rw [this]; tauto

/-- C09, soundness: every listed point is a near point (no exception). -/
theorem C09_sound (x : Points K) (r : K) (n : ℕ) (xFwd : List ℕ)
    (hsort : IsStdSort (fun i => x i 0) (List.range n) xFwd) (i j : ℕ) (hi : i < n)
    (h : j ∈ (pointCloudPairs x r xFwd).getD i []) : j < n ∧ Near x r i j := by
  have := (C09_exact_partial x r n xFwd hsort i j hi).mp h
  exact ⟨this.1, this.2.1⟩

/-- C09, symmetry.  Partial: not for the first point in sorted order. -/
theorem C09_symmetric_partial (x : Points K) (r : K) (n : ℕ) (xFwd : List ℕ)
    (hsort : IsStdSort (fun i => x i 0) (List.range n) xFwd) (i j : ℕ) (hi : i < n) (hj : j < n)
    (hi0 : xFwd.head? ≠ some i) (hj0 : xFwd.head? ≠ some j) :
    j ∈ (pointCloudPairs x r xFwd).getD i [] ↔ i ∈ (pointCloudPairs x r xFwd).getD j [] := by
  rw [C09_exact_partial x r n xFwd hsort i j hi, C09_exact_partial x r n xFwd hsort j i hj,
    near_symm x r i j]
  tauto

/-- C09 is violated: in every cloud the first point in sorted order is missing from the list of
each of its neighbours, although the neighbours are in its own list. -/
theorem C09_leftmost_missing (x : Points K) (r : K) (n : ℕ) (xFwd : List ℕ)
    (hsort : IsStdSort (fun i => x i 0) (List.range n) xFwd) (i j : ℕ) (hi : i < n) (hj : j < n)
    (hhead : xFwd.head? = some j) (hnear : Near x r i j) :
    j ∉ (pointCloudPairs x r xFwd).getD i [] ∧ i ∈ (pointCloudPairs x r xFwd).getD j [] := by
  rw [C09_exact_partial x r n xFwd hsort i j hi, C09_exact_partial x r n xFwd hsort j i hj]
  refine ⟨fun h => h.2.2 hhead, hi, (near_symm x r i j).mp hnear, ?_⟩
  rw [hhead]; intro h; exact hnear.1 (Option.some.inj h).symm

/-- A concrete cloud: points on the x-axis at 0, 1, 5/2. -/
def exPoints : Points ℚ := fun i => if i = 0 then ![5 / 2, 0, 0] else if i = 1 then ![0, 0, 0] else ![1, 0, 0]

/-- C09 is violated on a concrete cloud: points 1 and 2 are near, 2 is listed for 1 but 1 is not
listed for 2. -/
theorem C09_complete_violated :
    IsStdSort (fun i => exPoints i 0) (List.range 3) [1, 2, 0]
      ∧ Near exPoints 2 2 1
      ∧ pointCloudPairs exPoints 2 [1, 2, 0] = [[2], [2], [0]] := by
  refine ⟨⟨by decide, by decide +kernel⟩, ⟨by decide, by decide +kernel, by decide +kernel⟩, by decide +kernel⟩

/-! ### C10 -/

theorem midDist_eq (p q : Fin 3 → K) : midDist p q = sqDist p q := by
  simp only [midDist, sqDist, Fin.sum_univ_three, abs_mul_abs_self, sq, zero_add]

/-- Specification of the radius test: everything for a negative radius, otherwise strictly closer
than the radius. -/
def Within (p q : Fin 3 → K) (radius : K) : Prop := radius < 0 ∨ sqDist p q < radius ^ 2

omit [IsStrictOrderedRing K] in
theorem candPatch_eq (q : Fin 3 → K) (cand : List (Fin 3 → K)) (radius : K) :
    candPatch q cand radius
      = ((List.range cand.length).filter (fun i => decide
          (radius < 0 ∨ midDist q (cand.getD i (fun _ => 0)) < radius * radius))).map
          (fun i => (i, midDist q (cand.getD i (fun _ => 0)))) := by
  unfold candPatch
  have : ∀ (l : List ℕ) (init : List (ℕ × K)), l.foldl (fun acc i =>
      let dist := midDist q (cand.getD i (fun _ => 0))
      if radius < 0 ∨ dist < radius * radius then acc ++ [(i, dist)] else acc) init
      = init ++ (l.filter (fun i => decide
          (radius < 0 ∨ midDist q (cand.getD i (fun _ => 0)) < radius * radius))).map
          (fun i => (i, midDist q (cand.getD i (fun _ => 0)))) := by
    intro l
    induction l with
    | nil => intro init; simp
    | cons a l ih =>
      intro init
      simp only [List.foldl_cons]
      by_cases h : radius < 0 ∨ midDist q (cand.getD a (fun _ => 0)) < radius * radius
      · rw [if_pos h, ih, List.filter_cons_of_pos (by simpa using h)]; simp
      · rw [if_neg h, ih, List.filter_cons_of_neg (by simpa using h)]
  rw [this]; simp

/-- C10: `find_candidate_facets` returns exactly the candidates within the radius, each once,
ordered by increasing distance, for every outcome `perm` of `std::sort`. -/
theorem C10_candidate_facets (q : Fin 3 → K) (cand : List (Fin 3 → K)) (radius : K) (perm : List ℕ)
    (hsort : IsStdSort (fun i => ((candPatch q cand radius).getD i (0, 0)).2)
      (List.range (candPatch q cand radius).length) perm) :
    (∀ i, i ∈ findCandidateFacets q cand radius perm ↔ ∃ h : i < cand.length, Within q cand[i] radius)
      ∧ (findCandidateFacets q cand radius perm).Nodup
      ∧ (findCandidateFacets q cand radius perm).Pairwise
          (fun a b => sqDist q (cand.getD a (fun _ => 0)) ≤ sqDist q (cand.getD b (fun _ => 0))) := by
  obtain ⟨hperm, hs⟩ := hsort
  set patch := candPatch q cand radius with hpatch
  have hlen : perm.length = patch.length := by simpa using hperm.length_eq
  have hres : findCandidateFacets q cand radius perm = perm.map (fun i => (patch.getD i (0, 0)).1) := by
    unfold findCandidateFacets
    simp only [← hpatch]
    apply List.ext_getElem
    · simp [hlen]
    · intro i h1 h2
      simp at h1 h2
      simp [List.getElem?_eq_getElem h2]
  have hpp : (findCandidateFacets q cand radius perm).Perm (patch.map (·.1)) := by
    rw [hres]
    have h1 := hperm.map (fun i => (patch.getD i (0, 0)).1)
    have h2 : (List.range patch.length).map (fun i => (patch.getD i (0, 0)).1) = patch.map (·.1) := by
      apply List.ext_getElem
      · simp
      · intro i h1 h2
        simp at h2
        simp [List.getElem?_eq_getElem h2]
    rw [h2] at h1
    exact h1
  have hfst : patch.map (·.1) = (List.range cand.length).filter (fun i => decide
          (radius < 0 ∨ midDist q (cand.getD i (fun _ => 0)) < radius * radius)) := by
    rw [hpatch, candPatch_eq, List.map_map]
    simp [Function.comp_def]
  refine ⟨?_, ?_, ?_⟩
  · intro i
    rw [hpp.mem_iff, hfst, List.mem_filter, List.mem_range, decide_eq_true_eq]
    constructor
    · rintro ⟨h, hw⟩
      refine ⟨h, ?_⟩
      rw [midDist_eq, List.getD_eq_getElem _ _ h] at hw
      rw [Within, sq]; exact hw
    · rintro ⟨h, hw⟩
      refine ⟨h, ?_⟩
      rw [midDist_eq, List.getD_eq_getElem _ _ h]
      rw [Within, sq] at hw; exact hw
  · rw [hpp.nodup_iff, hfst]
    exact List.nodup_range.filter _
  · rw [hres, List.pairwise_map]
    have hin : ∀ i ∈ perm, i < patch.length := fun i hi => by
      have := hperm.mem_iff.mp hi; simpa using this
    refine hs.imp_of_mem ?_
    intro a b ha hb hab
    have key : ∀ i, i < patch.length → (patch.getD i (0, 0)).2
        = sqDist q (cand.getD (patch.getD i (0, 0)).1 (fun _ => 0)) := by
      intro i hi
      rw [List.getD_eq_getElem _ _ hi]
      have hall : ∀ e ∈ patch, e.2 = sqDist q (cand.getD e.1 (fun _ => 0)) := by
        intro e he
        rw [hpatch, candPatch_eq, List.mem_map] at he
        obtain ⟨k, -, rfl⟩ := he
        exact midDist_eq _ _
      exact hall _ (List.getElem_mem hi)
    rw [← key a (hin a ha), ← key b (hin b hb)]
    exact hab

omit [IsStrictOrderedRing K] in
theorem anyWithin_iff (c : Fin 3 → K) (r2 : K) (qs : List (Fin 3 → K)) :
    anyWithin c r2 qs = true ↔ ∃ q ∈ qs, midDist q c < r2 := by
  induction qs with
  | nil => simp [anyWithin]
  | cons q qs ih =>
    unfold anyWithin
    by_cases h : midDist q c < r2
    · simp [h]
    · simp [h, ih]

theorem surfaceSegment_spec (quad : List (Fin 3 → K)) (cand : List (ℕ × (Fin 3 → K))) (radius : K) :
    findSurfaceSegment quad cand radius
        = (if radius < 0 then cand
           else cand.filter (fun c => anyWithin c.2 (radius * radius) quad)).map (·.1)
    ∧ ∀ c : Fin 3 → K, anyWithin c (radius * radius) quad = true ↔ ∃ q ∈ quad, sqDist q c < radius ^ 2 := by
  constructor
  · unfold findSurfaceSegment
    by_cases h : radius < 0
    · simp [h]
    · simp only [h, if_false]
      have : ∀ (l : List (ℕ × (Fin 3 → K))) (init : List ℕ),
          l.foldl (fun acc c => if anyWithin c.2 (radius * radius) quad then acc ++ [c.1] else acc) init
          = init ++ (l.filter (fun c => anyWithin c.2 (radius * radius) quad)).map (·.1) := by
        intro l
        induction l with
        | nil => intro init; simp
        | cons a l ih =>
          intro init
          by_cases ha : anyWithin a.2 (radius * radius) quad = true
          · simp [ha, ih]
          · simp [ha, ih]
      rw [this]; simp
  · intro c
    rw [anyWithin_iff]
    simp only [midDist_eq, sq]

open Classical in
/-- C10: `find_candidate_surface_segment` keeps, in order, exactly the candidates closer than the
radius to some quadrature facet; all of them for a negative radius. -/
theorem C10_surface_segment (quad : List (Fin 3 → K)) (cand : List (ℕ × (Fin 3 → K))) (radius : K) :
    findSurfaceSegment quad cand radius
        = (if radius < 0 then cand
           else cand.filter (fun c => ∃ q ∈ quad, sqDist q c.2 < radius ^ 2)).map (·.1) :=
  by
  obtain ⟨h1, h2⟩ := surfaceSegment_spec quad cand radius
  rw [h1]
  congr 3
  funext c
  rw [Bool.eq_iff_iff, h2, decide_eq_true_iff]

/-- Concrete search: two of three candidates are within radius 2 and come out nearest first. -/
example : IsStdSort (fun i => ((candPatch (K := ℚ) ![0,0,0] [![3/2,0,0], ![5,0,0], ![0,1,0]] 2).getD i (0, 0)).2)
      (List.range (candPatch (K := ℚ) ![0,0,0] [![3/2,0,0], ![5,0,0], ![0,1,0]] 2).length) [1, 0]
    ∧ findCandidateFacets (K := ℚ) ![0,0,0] [![3/2,0,0], ![5,0,0], ![0,1,0]] 2 [1, 0] = [2, 0] := by
  refine ⟨⟨by decide +kernel, by decide +kernel⟩, by decide +kernel⟩

end Verif.Search
