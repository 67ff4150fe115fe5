import Verif.Props.TieSystem

/-! C117, C121: what goes wrong when a point that is not tied comes before one that is. -/

namespace Verif.TieData

open Verif.Scalars Verif.Spec Verif.Kernels Verif.ContactProblem Verif.Packing Finset

noncomputable section

/-- C117 fails if a point that is not tied comes before one that is: matrix and vector are not those of the
same form (the matrix takes the basis functions of the linked cell from the wrong point, see C31).  Heat
conduction, one facet with two points, the first one not tied. -/
theorem C117_violated : ∃ (M : TieMesh) (E EQ : TieElement) (mat : Key → ℕ → ℝ) (u : ℕ → ℝ) (ops : List (Op ℝ)) (g : Gen ℝ),
    TieMesh.Valid M ∧ TieElement.Valid M E ∧ TieDofsBelow M E 2
    ∧ ProperHistory M.static Tracked.new ops ∧ (ops.foldl Tracked.step Tracked.new).get .poisson = some g
    ∧ GeneratedFor M E EQ .poisson mat 1 0 g ∧ SolutionIs M E u g
    ∧ ∃ s A b, run M.static State.init ops = some s ∧ M.assembleMatrix E .poisson s 0 = .ok A
      ∧ M.assembleVector E .poisson s 0 = .ok b
      ∧ ¬((∀ u v : ℕ → ℝ, ∑ d ∈ range 2, ∑ c ∈ range 2, v d * A (d, c) * u c = heatTie M E EQ mat 1 0 u v)
        ∧ ∀ v : ℕ → ℝ, ∑ d ∈ range 2, b d * v d = heatTie M E EQ mat 1 0 u v) := by
  obtain ⟨M, E, EQ, mat, u, ops, g, h1, h2, h3, h4, h5, h6, h7, s, A, b, h8, h9, h10, h11⟩ := C118_violated
  refine ⟨M, E, EQ, mat, u, ops, g, h1, h2, h3, h4, h5, h6, h7, s, A, b, h8, h9, h10, ?_⟩
  rintro ⟨h, h'⟩
  exact h11 (row_of_form h h' (by omega))

/-! ### C121 -/

/-- A facet of cell 0 with three points: the first one is not tied, the others are tied to cells 1 and 2. -/
def exM3 : TieMesh where
  numPairs := 1
  nq := 3
  gdim := 2
  tdim := 2
  cell := .triangle
  affine := true
  off := fun _ => 0
  weights := fun _ _ => 1
  nref := fun _ a => if a = 0 then 1 else 0
  geo := ⟨1, fun _ => 0, fun _ _ => 0⟩
  cphi := fun _ _ _ => 0
  inv := fun _ j b => if j = b then 1 else 0
  det := fun _ _ => 1
  facets := fun _ => [(0, 0)]
  localFacets := fun _ => 1
  closest := fun _ r => if r = 2 then 1 else 0
  subCell := fun f => f
  parentCell := fun c => c + 1
  numCells := 2
  gap := fun _ r => if r < 2 then 9 else 0
  ny := fun _ _ => 0
  h := fun _ _ => 1

/-- Two basis functions per cell; on the linked cells they have opposite gradients. -/
def exE3 : TieElement where
  nd := 2
  bs := 1
  phi := fun _ k => if k = 0 then 1 else 0
  dphi := fun _ _ _ => 0
  phi0 := fun _ _ => 1
  dofs := fun c k => 2 * c + k
  sub := fun c k => 2 * c + k
  basis := fun _ _ k => if k = 0 then 1 else 0
  grad := fun _ _ _ k b => if b = 0 then (if k = 0 then 1 else -1) else 0

theorem exM3_valid : TieMesh.Valid exM3 where
  dim := by simp [exM3]
  cell := by simp [exM3]
  loc := by simp [exM3]
  cells := by intro i r; simp only [exM3]; split <;> omega
  order := by intro c c' h h'; simp [exM3] at h' ⊢; omega
  affine := by simp [exM3]

theorem exE3_valid : TieElement.Valid exM3 exE3 := by
  intro c i c' i' _ hi _ hi' h
  have h1 : i < 2 := hi
  have h2 : i' < 2 := hi'
  have h3 : 2 * c + i = 2 * c' + i' := h
  show 2 * (c + 1) + i = 2 * (c' + 1) + i'
  omega

theorem exE3_below : TieDofsBelow exM3 exE3 6 := by
  refine ⟨fun i _ p hp a ha => ?_, fun c hc a ha => ?_⟩
  · have h1 : a < 2 := ha
    have h2 : p = (0, 0) := by simpa [exM3] using hp
    subst h2
    show 1 * (2 * 0 + a) + 1 ≤ 6
    omega
  · have h1 : a < 2 := ha
    have h2 : c < 2 := hc
    show 1 * (2 * (c + 1) + a) + 1 ≤ 6
    omega

theorem exE3_unit : TieSumsToOne exM3 exE3 := by
  intro i _ e _ cell f _ q _
  refine ⟨by simp [exE3], by simp [exE3], by simp [exE3], fun b _ => ?_⟩
  show ∑ k ∈ range 2, (if b = 0 then (if k = 0 then (1 : ℝ) else -1) else 0) = 0
  by_cases h : b = 0 <;> simp [h, sum_range_succ]

theorem exM3_tied {q : ℕ} (hq : q < 3) : Tied exM3 0 0 q ↔ q ≠ 0 := by
  have h : gapNorm exM3 0 0 q
      = Real.sqrt (∑ a ∈ range 2, (if (0 * 3 + q) * 2 + a < 2 then (9 : ℝ) else 0) ^ 2) := rfl
  constructor
  · rintro ⟨⟨e', -, h3⟩, -⟩ rfl
    rw [h] at h3
    have h4 : exM3.h 0 e' = 1 := rfl
    rw [h4, Real.sqrt_le_iff] at h3
    simp [sum_range_succ] at h3
    norm_num at h3
  · intro hne
    have h1 : gapNorm exM3 0 0 q = 0 := by
      rw [h, sum_eq_zero, Real.sqrt_zero]
      intro a ha
      rw [if_neg (by omega)]; simp
    exact ⟨⟨0, by simp [exM3], by rw [h1]; simp [exM3]⟩, Or.inl (by rw [h1]; norm_num)⟩

theorem eq_pair {L : List ℕ} {x y : ℕ} (h1 : L.Pairwise (· < ·)) (hxy : x < y) (h2 : ∀ c, c ∈ L ↔ c = x ∨ c = y) :
    L = [x, y] := by
  refine List.Perm.eq_of_pairwise (le := (· < ·)) (fun a b _ _ h h' => absurd h (by omega)) h1 (by simpa using hxy) ?_
  rw [List.perm_ext_iff_of_nodup (h1.imp (fun h => ne_of_lt h)) (by simp; omega)]
  intro a
  rw [h2]; simp

/-- C121 fails if a point that is not tied comes before one that is and the facet is tied to more than one cell:
the matrix takes the basis functions and their gradients from different cells (see C31).  Heat conduction, one
facet with three points, the first one not tied. -/
theorem C121_violated : ∃ (M : TieMesh) (E EQ : TieElement) (mat : Key → ℕ → ℝ) (ops : List (Op ℝ)) (g : Gen ℝ),
    TieMesh.Valid M ∧ TieElement.Valid M E ∧ TieDofsBelow M E 6 ∧ TieSumsToOne M E
    ∧ ProperHistory M.static Tracked.new ops ∧ (ops.foldl Tracked.step Tracked.new).get .poisson = some g
    ∧ GeneratedFor M E EQ .poisson mat 1 1 g
    ∧ ∃ s A, run M.static State.init ops = some s ∧ M.assembleMatrix E .poisson s 0 = .ok A
      ∧ ∑ c ∈ range 6, A (4, c) ≠ 0 := by
  obtain ⟨hops, hg, G, -, -⟩ := generate_once exM3_valid exE3 (exE 1 fun _ => 1)
    (exE 1 fun _ => 1) .poisson rfl rfl rfl (fun _ _ => 1) (fun d => d) 0 1 1
  refine ⟨exM3, exE3, exE 1 fun _ => 1, _, _, _, exM3_valid, exE3_valid, exE3_below, exE3_unit, hops, hg, G, ?_⟩
  obtain ⟨hb, s, h1, R, h2, -, A, h5, h6⟩ := assembled' exM3_valid _ hops hg G
  refine ⟨s, A, h1, h5, ?_⟩
  have he : 0 < exM3.localFacets 0 := Nat.one_pos
  have hR := h2 0 Nat.one_pos 0 he
  have T : TestRow exM3 exE3 2 0 0 (R 0 0) := row_test G hb hR
  obtain ⟨l0, l1⟩ := (row_lead G hR (show (exM3.facets 0)[0]? = some (0, 0) from rfl)).2.2 rfl
  have hL := linksOf_list exM3 exE3 0 0
  have hopp : ∀ q, oppositeCell exM3 0 0 q = if q = 2 then 2 else 1 := by
    intro q
    show (if 0 * 3 + q = 2 then 1 else 0) + 1 = _
    rw [Nat.zero_mul, Nat.zero_add]
    split <;> rfl
  have hto : ∀ q < 3, ∀ c, Packing.Spec.LinkedTo (exM3.pair exE3 0) 0 q c ↔ q ≠ 0 ∧ c = if q = 2 then 2 else 1 := by
    intro q hq c
    rw [linked_tied he hq, exM3_tied hq, hopp]
  have hLe : linksOf exM3 exE3 0 0 = [1, 2] := by
    refine eq_pair hL.1 (by omega) (fun c => ?_)
    rw [hL.2]
    constructor
    · rintro ⟨q, hq, h⟩
      have := ((hto q hq c).mp h).2
      split at this <;> omega
    · rintro (rfl | rfl)
      · exact ⟨1, by simp [TieMesh.pair, TieMesh.searched, exM3], (hto 1 (by omega) 1).mpr (by simp)⟩
      · exact ⟨2, by simp [TieMesh.pair, TieMesh.searched, exM3], (hto 2 (by omega) 2).mpr (by simp)⟩
  have hold : old (exM3.pair exE3 0) 0 = [1, 2] := by
    refine eq_pair (positiveToOld_strict _) (by omega) (fun q => ?_)
    rw [old, mem_positiveToOld]
    have hq : ∀ q < 3, (0 ≤ (testCells (exM3.pair exE3 0) 0).getD q 0 ↔ q ≠ 0) := by
      intro q hq
      rw [testCells_nonneg_iff _ _ _ hq, ← exM3_tied hq]
      exact tied_iff exM3 he hq
    have hlen : (testCells (exM3.pair exE3 0) 0).length = 3 := by
      rw [testCells, List.length_map, Packing.row_length]; rfl
    rw [hlen]
    constructor
    · rintro ⟨h, h'⟩
      rw [hq q h] at h'
      omega
    · rintro (rfl | rfl)
      · exact ⟨by omega, (hq 1 (by omega)).mpr (by omega)⟩
      · exact ⟨by omega, (hq 2 (by omega)).mpr (by omega)⟩
  have hpt : linkedPoints ((exM3.pair exE3 0).row 0) = [1, 2] := by
    classical
    rw [points_eq exM3 _ he]
    show (List.range 3).filter _ = _
    simp [List.range_succ, exM3_tied (show 0 < 3 by omega), exM3_tied (show 1 < 3 by omega), exM3_tied (show 2 < 3 by omega)]
  -- test functions of the second linked cell
  obtain ⟨a, ha, hta⟩ := test_arr exM3 exE3 0
  obtain ⟨x, hx, hv⟩ := packTest_value (exM3.pair exE3 0) (exE3.basis 0) (pair_fits exM3 exE3 0)
  obtain rfl : x = a := Except.ok.inj (hx.symm.trans ha)
  have t1 : ∀ m < 2, (tdim exM3 exE3 2).test (R 0 0) 1 1 m 0 = 0 := by
    intro m hm
    rw [T.entry hta (by simp [exM3]) (by simp [exM3]) hm (by simp [exE3])]
    refine (hv 0 [1, 2] he (hLe ▸ hL) 1 m 0 (by simp [TieMesh.pair, TieMesh.searched, exM3]) hm
      (by simp [TieMesh.pair, TieMesh.searched, exE3])).2 1 (by simp [TieMesh.pair, TieMesh.searched, exM3]) ?_
    intro _ h
    simpa using ((hto 1 (by omega) _).mp h).2
  have t2 : ∀ m < 2, (tdim exM3 exE3 2).test (R 0 0) 2 1 m 0 = if m = 0 then 1 else 0 := by
    intro m hm
    rw [T.entry hta (by simp [exM3]) (by simp [exM3]) hm (by simp [exE3])]
    have := (hv 0 [1, 2] he (hLe ▸ hL) 1 m 0 (by simp [TieMesh.pair, TieMesh.searched, exM3]) hm
      (by simp [TieMesh.pair, TieMesh.searched, exE3])).1 1 (by rw [hold]; simp) (by simp)
      (by rw [hold]; exact (hto 2 (by omega) 2).mpr (by simp))
    rw [hold] at this
    exact this
  obtain ⟨a', ha', hga⟩ := gtest_arr exM3_valid exE3 0
  obtain ⟨y, hy, hw⟩ := packGradTest_value (exM3.pair exE3 0) (exE3.grad 0) (pair_fits exM3 exE3 0)
    (pair_increasing exM3_valid exE3 0)
  obtain rfl : y = a' := Except.ok.inj (hy.symm.trans ha')
  have g1 : ∀ m < 2, ∀ b < 2, (tdim exM3 exE3 2).gtest (R 0 0) 1 1 m b
      = if b = 0 then (if m = 0 then 1 else -1) else 0 := by
    intro m hm b hb
    rw [T.gentry hga (by simp [exM3]) (by simp [exM3]) hm hb,
      ← show (exM3.pair exE3 0).gradIndex 0 1 m 1 b = Packing.Spec.entry (exM3.pair exE3 0) exM3.gdim 0 1 m 1 b from
        gradIndex_entry _ _ _ _ _ _]
    have := (hw 0 [1, 2] he (hLe ▸ hL) 1 m b (by simp [TieMesh.pair, TieMesh.searched, exM3]) hm hb).1 1
      (by rw [hold]; simp) (by simp) (by rw [hold]; exact (hto 2 (by omega) 2).mpr (by simp))
    rw [this]
    rfl
  have g2 : ∀ m < 2, ∀ b < 2, (tdim exM3 exE3 2).gtest (R 0 0) 2 1 m b = 0 := by
    intro m hm b hb
    rw [T.gentry hga (by simp [exM3]) (by simp [exM3]) hm hb,
      ← show (exM3.pair exE3 0).gradIndex 0 1 m 2 b = Packing.Spec.entry (exM3.pair exE3 0) exM3.gdim 0 1 m 2 b from
        gradIndex_entry _ _ _ _ _ _]
    exact (hw 0 [1, 2] he (hLe ▸ hL) 1 m b (by simp [TieMesh.pair, TieMesh.searched, exM3]) hm hb).2 2
      (by simp [TieMesh.pair, TieMesh.searched, exM3]) (fun h => by rw [hold] at h; simp at h)
  -- row of the first dof of the second linked cell
  have hdot := matrix_dot exM3_valid exE3_below (fun i e => (matKern .poisson).elem exM3 exE3 1 1 i e (R i e)) h6
    (fun _ => 1) (fun d => if d = 4 then 1 else 0)
  have hrow : ∑ d ∈ range 6, ∑ c ∈ range 6, (if d = 4 then (1 : ℝ) else 0) * A (d, c) * 1 = ∑ c ∈ range 6, A (4, c) := by
    rw [sum_eq_single_of_mem 4 (by simp) (fun k _ hk => by simp [hk])]
    simp
  rw [hrow] at hdot
  rw [hdot]
  show ∑ i ∈ range 1, ∑ e ∈ range 1, _ ≠ _
  rw [sum_range_one, sum_range_one, hLe]
  have hel : (matKern .poisson).elem exM3 exE3 1 1 0 0 (R 0 0)
      = poisJac (exM3.kd exE3 0 0) (pOff (exM3.kd exE3 0 0)) (R 0 0) (gammaTheta 1 1) 2 [1, 2] 0 := by
    unfold TieKern.elem
    rw [hLe, hpt]
    rfl
  rw [hel]
  have hbl := poisJac_blocks (exM3.kd exE3 0 0) rfl (pOff (exM3.kd exE3 0 0)) (R 0 0) (gammaTheta 1 1) 2 [1, 2]
  have hJ0 : ∀ q j, poisJ (exM3.kd exE3 0 0) (pOff (exM3.kd exE3 0 0)) (R 0 0) q 0 j 0 = if j = 0 then 1 else 0 :=
    fun _ _ => rfl
  have hJ1 : ∀ j < 2, poisJ (exM3.kd exE3 0 0) (pOff (exM3.kd exE3 0 0)) (R 0 0) 1 2 j 0 = 0 := by
    intro j hj
    show -(R 0 0) (poisIdx _ _ 1 1 j) = 0
    rw [poisIdx_eq (exM3.kd exE3 0 0) (R 0 0) 1 1 j]
    exact neg_eq_zero.mpr (t1 j hj)
  have hJ2 : ∀ j < 2, poisJ (exM3.kd exE3 0 0) (pOff (exM3.kd exE3 0 0)) (R 0 0) 2 2 j 0 = if j = 0 then -1 else 0 := by
    intro j hj
    show -(R 0 0) (poisIdx _ _ 2 1 j) = _
    rw [poisIdx_eq (exM3.kd exE3 0 0) (R 0 0) 2 1 j]
    refine (congrArg Neg.neg (t2 j hj)).trans ?_
    split <;> simp
  have hS0 : ∀ q j, poisS (exM3.kd exE3 0 0) (pOff (exM3.kd exE3 0 0)) (R 0 0) q 0 j 0 0 = 0 := by
    intro q j
    simp [poisS, gradN, TieMesh.kd, exE3, KD.dph]
  have hn : (exM3.kd exE3 0 0).nPhys 1 0 = 1 := by
    simp [KD.nPhys, KD.K, Elasticity.physicalFacetNormal, Elasticity.covariantNormal, TieMesh.kd, exM3, loop, List.range_succ]
  have hS1 : poisS (exM3.kd exE3 0 0) (pOff (exM3.kd exE3 0 0)) (R 0 0) 1 2 0 0 0 = 1 := by
    have : ∑ b ∈ range 2, (tdim exM3 exE3 2).gtest (R 0 0) 1 1 0 b * (exM3.kd exE3 0 0).nPhys 1 b = 1 := by
      rw [sum_range_succ, sum_range_one, g1 0 (by omega) 0 (by omega), g1 0 (by omega) 1 (by omega), hn]
      simp
    refine Eq.trans (sum_congr rfl (fun b _ => ?_)) this
    rw [poisGIdx_eq (exM3.kd exE3 0 0) (R 0 0) 1 1 0 b]
    rfl
  have hS2 : ∀ j < 2, poisS (exM3.kd exE3 0 0) (pOff (exM3.kd exE3 0 0)) (R 0 0) 2 2 j 0 0 = 0 := by
    intro j hj
    refine sum_eq_zero (fun b hb => ?_)
    rw [poisGIdx_eq (exM3.kd exE3 0 0) (R 0 0) 2 1 j b]
    exact mul_eq_zero_of_left (g2 j hj b (mem_range.mp hb)) _
  have hw0 : ∀ q, poisW0 (exM3.kd exE3 0 0) (R 0 0) q = 1 / 2 := by
    intro q
    rw [poisW0, l1]
    simp [TieMesh.kd, exM3, midValue, exE]
    norm_num
  have hc : R 0 0 0 = 1 := l0
  have e1 : ∀ j < 2, poisJac (exM3.kd exE3 0 0) (pOff (exM3.kd exE3 0 0)) (R 0 0) (gammaTheta 1 1) 2 [1, 2] 0 (5, 0 * 2 + j)
      = if j = 0 then -(3 / 4) else 0 := by
    intro j hj
    have h := ((hbl 0 0 j 0 (by simp [TieMesh.kd, exE3]) (by simp [TieMesh.kd, exE3]) hj
      (by simp [TieMesh.kd, exE3])).2 1 (by omega)).2.1
    have hi : mIdx (exM3.kd exE3 0 0) 0 0 j 0 = 0 * 2 + j := by simp [mIdx, TieMesh.kd, exE3]
    rw [hi] at h
    refine h.trans ?_
    simp only [List.map_cons, List.map_nil, List.sum_cons, List.sum_nil, add_zero, poisM, absM, hw0, hJ0,
      hJ1 0 (by omega), hJ2 0 (by omega), hS0, hS1, hS2 0 (by omega), hc]
    by_cases h0 : j = 0 <;> simp [h0, gammaTheta]
    norm_num
  have e2 : ∀ j < 2, poisJac (exM3.kd exE3 0 0) (pOff (exM3.kd exE3 0 0)) (R 0 0) (gammaTheta 1 1) 2 [1, 2] 0 (6, 0 * 2 + j)
      = if j = 0 then 1 / 2 else 0 := by
    intro j hj
    have h := ((hbl 0 0 j 0 (by simp [TieMesh.kd, exE3]) (by simp [TieMesh.kd, exE3]) hj
      (by simp [TieMesh.kd, exE3])).2 1 (by omega)).2.2
    have hi : mIdx (exM3.kd exE3 0 0) 0 0 j 0 = 0 * 2 + j := by simp [mIdx, TieMesh.kd, exE3]
    rw [hi] at h
    refine h.trans ?_
    simp only [List.map_cons, List.map_nil, List.sum_cons, List.sum_nil, add_zero, poisM, absM, hw0,
      hJ1 0 (by omega), hJ1 j hj, hJ2 0 (by omega), hJ2 j hj, hS1, hS2 0 (by omega), hS2 j hj, hc]
    by_cases h0 : j = 0 <;> simp [h0, gammaTheta]
  have key : blockApply 2 2 (poisJac (exM3.kd exE3 0 0) (pOff (exM3.kd exE3 0 0)) (R 0 0) (gammaTheta 1 1) 2 [1, 2] 0)
      (fun _ _ => 1) 2 0 = -(1 / 4) := by
    show ∑ s ∈ range 2, _ + ∑ s ∈ range 2, _ = _
    rw [sum_range_succ, sum_range_one, sum_range_succ, sum_range_one, e1 0 (by omega), e1 1 (by omega), e2 0 (by omega),
      e2 1 (by omega)]
    norm_num
  have hfin : ∀ f : ℕ → ℕ → ℝ, ∑ B ∈ range 3, ∑ k ∈ range 2, ∑ n ∈ range 1,
      f B (k * 1 + n) * (if 1 * (2 * coupledCell 0 [1, 2] B + k) + n = 4 then (1 : ℝ) else 0) = f 2 0 := by
    intro f
    simp [sum_range_succ, coupledCell]
  have hall := (hfin (blockApply 2 2 (poisJac (exM3.kd exE3 0 0) (pOff (exM3.kd exE3 0 0)) (R 0 0) (gammaTheta 1 1) 2
    [1, 2] 0) (fun _ _ => 1))).trans key
  intro h
  have : (-(1 / 4) : ℝ) = 0 := hall.symm.trans h
  norm_num at this

end

end Verif.TieData
