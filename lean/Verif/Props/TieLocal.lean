import Verif.Spec.TieLocal
import Verif.Props.TieSystem

/-!
Property C165: the tie acts only on dofs of cells at tied points.
-/

namespace Verif.TieData

open Verif.Spec Verif.Packing Verif.Assembly Verif.Entities Verif.Kernels Finset

noncomputable section

variable {M : TieMesh} {E EQ : TieElement} {mat : Key → ℕ → ℝ} {gamma theta : ℝ} {g : Gen ℝ}

theorem scatter_off {nd bs : ℕ} {dofs : ℕ → ℕ → ℕ} {cell : ℕ} (v : ℕ → ℝ) {d : ℕ}
    (h : ¬∃ a < nd, ∃ n < bs, d = bs * dofs cell a + n) : scatter nd bs dofs cell v d = 0 := by
  unfold scatter
  refine sum_eq_zero (fun a ha => sum_eq_zero (fun n hn => if_neg (fun hd => h ?_)))
  exact ⟨a, mem_range.mp ha, n, mem_range.mp hn, hd⟩

theorem scatter2_off {nd bs : ℕ} {dofs : ℕ → ℕ → ℕ} {cell cell' : ℕ} (v : ℕ → ℝ) {d c : ℕ}
    (h : (¬∃ a < nd, ∃ n < bs, d = bs * dofs cell a + n) ∨ ¬∃ a < nd, ∃ n < bs, c = bs * dofs cell' a + n) :
    scatter2 nd bs dofs cell cell' v d c = 0 := by
  unfold scatter2
  refine sum_eq_zero (fun a ha => sum_eq_zero (fun n hn => sum_eq_zero (fun a' ha' => sum_eq_zero (fun n' hn' =>
    if_neg (fun hd => ?_)))))
  rcases h with h | h
  · exact h ⟨a, mem_range.mp ha, n, mem_range.mp hn, hd.1⟩
  · exact h ⟨a', mem_range.mp ha', n', mem_range.mp hn', hd.2⟩

/-- The cells which a facet couples. -/
theorem at_cell (hM : TieMesh.Valid M) {i e d : ℕ} (hi : i < M.numPairs) (he : e < M.localFacets i)
    (h : TieDofOf E (facetOf M i e).1 d) : DofAtFacet M E i e d := Or.inl ⟨_, _, (facet_at hM hi he).1, h⟩

theorem at_link {i e d j : ℕ} (he : e < M.localFacets i) (hj : j < (linksOf M E i e).length)
    (h : TieDofOf E ((linksOf M E i e).getD j 0) d) : DofAtFacet M E i e d := by
  have hm : (linksOf M E i e).getD j 0 ∈ linksOf M E i e := by
    rw [List.getD_eq_getElem _ _ hj]; exact List.getElem_mem hj
  rw [(linksOf_list M E i e).2] at hm
  obtain ⟨q, hq, hl⟩ := hm
  rw [linked_tied he hq] at hl
  rw [hl.2] at h
  exact Or.inr ⟨q, hq, hl.1, h⟩

/-- Without linked points kernels add nothing. -/
theorem elem_nil (k : TieKern) {i e : ℕ} (he : e < M.localFacets i) (h : ¬∃ q < M.nq, Tied M i e q) (c : ℕ → ℝ) :
    k.elem M E gamma theta i e c = 0 := by
  have hnil : linkedPoints ((M.pair E i).row e) = [] := by
    rw [points_eq M E he]
    refine List.filter_eq_nil_iff.mpr (fun q hq ht => h ⟨q, List.mem_range.mp hq, by simpa using ht⟩)
  unfold TieKern.elem
  rw [hnil]
  cases k <;> rfl

theorem facetVector_zero (nd bs : ℕ) (dofs : ℕ → ℕ → ℕ) (cell : ℕ) (L : List ℕ) (d : ℕ) :
    facetVector nd bs dofs cell L 0 d = 0 := by
  unfold facetVector scatter
  simp

theorem facetMatrix_zero (nd bs : ℕ) (dofs : ℕ → ℕ → ℕ) (cell : ℕ) (L : List ℕ) (d c : ℕ) :
    facetMatrix nd bs dofs cell L 0 d c = 0 := by
  unfold facetMatrix scatter2
  simp

/-- C165: `assemble_matrix` of tied bodies couples two dofs only if both belong to cells at one facet with tied points (its cell
and the cells of the closest points of its tied points), and `assemble_vector` is zero at dofs that belong to no such cell, for every
problem and every history of calls. -/
theorem C165_local (hM : TieMesh.Valid M) (ops : List (Op ℝ)) (hops : ProperHistory M.static Tracked.new ops) (p : Problem)
    (hg : (ops.foldl Tracked.step Tracked.new).get p = some g) (G : GeneratedFor M E EQ p mat gamma theta g) :
    ∃ s A b, run M.static State.init ops = some s ∧ M.assembleMatrix E p s 0 = .ok A ∧ M.assembleVector E p s 0 = .ok b
      ∧ (∀ d c, ¬TiedDofs M E d c → A (d, c) = 0) ∧ ∀ d, ¬TiedDofs M E d d → b d = 0 := by
  obtain ⟨-, s, h1, R, -, ⟨b, h3, h4⟩, A, h5, h6⟩ := assembled' hM ops hops hg G
  refine ⟨s, A, b, h1, h5, h3, fun d c hdc => ?_, fun d hd => ?_⟩
  · rw [h6]
    refine sum_eq_zero (fun i hi => sum_eq_zero (fun e he => ?_))
    have hi' := mem_range.mp hi
    have he' := mem_range.mp he
    by_cases ht : ∃ q < M.nq, Tied M i e q
    · have hno : ∀ {x y}, (TieDofOf E x d → DofAtFacet M E i e d) → (TieDofOf E y c → DofAtFacet M E i e c) →
          ¬TieDofOf E x d ∨ ¬TieDofOf E y c := by
        intro x y hx hy
        by_contra hcon
        push Not at hcon
        exact hdc ⟨i, hi', e, he', ht, hx hcon.1, hy hcon.2⟩
      unfold facetMatrix
      rw [scatter2_off _ (hno (at_cell hM hi' he') (at_cell hM hi' he')), zero_add]
      refine sum_eq_zero (fun j hj => ?_)
      have hj' := mem_range.mp hj
      rw [scatter2_off _ (hno (at_cell hM hi' he') (at_link he' hj')), scatter2_off _ (hno (at_link he' hj') (at_cell hM hi' he')),
        scatter2_off _ (hno (at_link he' hj') (at_link he' hj')), add_zero, add_zero]
    · rw [elem_nil _ he' ht, facetMatrix_zero]
  · rw [h4]
    refine sum_eq_zero (fun i hi => sum_eq_zero (fun e he => List.sum_eq_zero (fun x hx => ?_)))
    have hi' := mem_range.mp hi
    have he' := mem_range.mp he
    rw [List.map_map, List.mem_map] at hx
    obtain ⟨k, -, rfl⟩ := hx
    rw [Function.comp_apply]
    by_cases ht : ∃ q < M.nq, Tied M i e q
    · have hno : ∀ {x}, (TieDofOf E x d → DofAtFacet M E i e d) → ¬TieDofOf E x d :=
        fun hx h => hd ⟨i, hi', e, he', ht, hx h, hx h⟩
      unfold facetVector
      rw [scatter_off _ (hno (at_cell hM hi' he')), zero_add]
      exact sum_eq_zero (fun j hj => scatter_off _ (hno (at_link he' (mem_range.mp hj))))
    · rw [elem_nil _ he' ht, facetVector_zero]

/-- The hypotheses hold for two cells tied at one facet; the dofs of the two cells are tied, other dofs are not. -/
example (p : Problem) (mat : Key → ℕ → ℝ) (u T : ℕ → ℝ) (gamma theta : ℝ) :
    ∃ bs ops g, TieMesh.Valid (exM 0) ∧ ProperHistory (exM 0).static Tracked.new ops
      ∧ (ops.foldl Tracked.step Tracked.new).get p = some g
      ∧ GeneratedFor (exM 0) (exE bs fun _ => 1) (exE 1 fun _ => 1) p mat gamma theta g := by
  obtain ⟨h1, h2, h3, -⟩ := generate_once (exM_valid 0) (exE (comps (exM 0).static p) fun _ => 1) (exE 1 fun _ => 1)
    (exE 1 fun _ => 1) p rfl rfl rfl mat u T gamma theta
  exact ⟨_, _, _, exM_valid 0, h1, h2, h3⟩

/-- In the scalar example the dofs 0 and 1 are tied, dof 2 is not. -/
theorem exM_tiedDofs (d c : ℕ) : TiedDofs (exM 0) (exE 1 fun _ => 1) d c ↔ d < 2 ∧ c < 2 := by
  have key : ∀ d, DofAtFacet (exM 0) (exE 1 fun _ => 1) 0 0 d ↔ d < 2 := by
    intro d
    constructor
    · rintro (⟨cell, f, hf, a, ha, n, hn, rfl⟩ | ⟨q, -, -, a, ha, n, hn, rfl⟩)
      · have : (some ((0 : ℕ), (0 : ℕ))) = some (cell, f) := hf
        injection this with this
        injection this with h1 h2
        subst h1
        have : n < 1 := hn
        show 1 * 0 + n < 2
        omega
      · have : n < 1 := hn
        show 1 * 1 + n < 2
        omega
    · intro h
      rcases Nat.lt_or_ge d 1 with h1 | h1
      · exact Or.inl ⟨0, 0, rfl, 0, Nat.one_pos, 0, Nat.one_pos, by show d = 1 * 0 + 0; omega⟩
      · exact Or.inr ⟨1, by show 1 < 2; omega, (exM_tied 0).1, 0, Nat.one_pos, 0, Nat.one_pos, by show d = 1 * 1 + 0; omega⟩
  constructor
  · rintro ⟨i, hi, e, he, -, h1, h2⟩
    have hi' : i < 1 := hi
    have he' : e < 1 := he
    obtain rfl : i = 0 := by omega
    obtain rfl : e = 0 := by omega
    exact ⟨(key d).mp h1, (key c).mp h2⟩
  · rintro ⟨h1, h2⟩
    exact ⟨0, Nat.one_pos, 0, Nat.one_pos, ⟨1, by show 1 < 2; omega, (exM_tied 0).1⟩, (key d).mpr h1, (key c).mpr h2⟩

end

end Verif.TieData
