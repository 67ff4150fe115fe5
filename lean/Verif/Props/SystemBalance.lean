import Verif.Props.System
import Verif.Props.Stability

/-!
Properties C115 and C116: balance of the assembled contact forces, symmetry and positivity of the
assembled matrix.
-/

namespace Verif.ContactProblem

open Verif.Spec Verif.Packing Verif.Assembly Verif.Kernels Finset

noncomputable section

variable {G : Type} {Y : System G}

/-! ### C115 -/

theorem traction_zero {g : ℕ} (mu lam : ℝ) (n : ℕ → ℝ) {D : ℕ → ℕ → ℝ} (hD : ∀ a < g, ∀ b < g, D a b = 0) {a : ℕ}
    (ha : a < g) : traction g mu lam D n a = 0 := by
  rw [Elasticity.traction_eq _ _ _ _ _ _ ha]
  rw [sum_eq_zero (fun j hj => by rw [hD _ (mem_range.mp hj) _ ha, hD _ ha _ (mem_range.mp hj)]; ring),
    sum_eq_zero (fun j hj => hD _ (mem_range.mp hj) _ (mem_range.mp hj))]
  ring

/-- A test function without jump and gradient has no virtual work. -/
theorem form_zero (p : ContactPoint) (law : Law) (gamma theta : ℝ) (J : ℕ → ℝ) (D : ℕ → ℕ → ℝ) {J' : ℕ → ℝ}
    {D' : ℕ → ℕ → ℝ} (hJ : ∀ a < p.g, J' a = 0) (hD : ∀ a < p.g, ∀ b < p.g, D' a b = 0) :
    p.form law gamma theta J D J' D' = 0 := by
  have ht : ∀ a < p.g, p.trac D' a = 0 := fun a ha => traction_zero _ _ _ hD ha
  have d0 : ∀ {x : ℕ → ℝ}, (∀ a < p.g, x a = 0) → p.dot x = 0 := by
    intro x hx
    exact sum_eq_zero (fun a ha => by rw [hx a (mem_range.mp ha), zero_mul])
  have t0 : ∀ {x : ℕ → ℝ}, (∀ a < p.g, x a = 0) → ∀ a < p.g, p.tang x a = 0 := by
    intro x hx a ha
    rw [ContactPoint.tang, d0 hx, hx a ha, zero_mul, sub_zero]
  have e1 : p.normalPart gamma theta J D J' D' = 0 := by
    rw [ContactPoint.normalPart, d0 hJ, d0 ht]; ring
  have e2 : p.frictionPart law gamma theta J D J' D' = 0 := by
    rw [ContactPoint.frictionPart,
      sum_eq_zero (fun a ha => by rw [t0 hJ a (mem_range.mp ha), t0 ht a (mem_range.mp ha)]; ring),
      sum_eq_zero (fun a ha => by rw [t0 ht a (mem_range.mp ha)]; ring)]
    ring
  rw [ContactPoint.form, e1, e2]
  simp

theorem dof_mod {g k : ℕ} (m : ℕ) (hk : k < g) : (g * m + k) % g = k := by
  rw [Nat.mul_add_mod, Nat.mod_eq_of_lt hk]

/-- C115: the contact forces assembled after `update_contact_data(u)` sum to zero in every direction: what
one surface gains the other loses. -/
theorem C115_balance (hY : System.Valid Y) (ops : List (Op G)) (hops : ∀ op ∈ ops, OpShaped Y.static op) (g : G)
    (law : Law) (hlaw : lastLaw ops none = some law) (h23 : law ≠ .frictionless → Y.gdim = 2 ∨ Y.gdim = 3)
    (s : State G) (hs : s = history Y.static ops (init Y.static g)) (hc : s.coeffs ≠ none)
    (N : ℕ) (hN : DofsBelow Y N) (u : ℕ → ℝ)
    (hunit : SumsToOne Y s.geom) :
    ∃ (s' : State G) (b : Arr ℕ), updateContactData Y.static (Y.du u) s = .ok s' ∧ Y.assembleVector s' 0 = .ok b
      ∧ ∀ n < Y.gdim, ∑ d ∈ range N with d % Y.gdim = n, b d = 0 := by
  have H := good_history (static_shaped hY) ops hops (good_init Y.static g)
  rw [← hs] at H
  obtain ⟨gamma, theta, hconsts⟩ : ∃ gamma theta, lastConsts ops none = some (gamma, theta) := by
    have key : ∀ (ops : List (Op G)) (l : Option Law) (c : Option (ℝ × ℝ)), (l ≠ none → c ≠ none) →
        lastLaw ops l ≠ none → lastConsts ops c ≠ none := by
      intro ops
      induction ops with
      | nil => intro l c h h'; exact h h'
      | cons op ops ih =>
        intro l c h h'
        cases op with
        | generate a => exact ih (some a.law) (some (a.gamma, a.theta)) (by simp) h'
        | updateData du => exact ih l c h h'
        | updateDetection m gu => exact ih l c h h'
        | updateNitsche ga th => exact ih l _ (by simpa using h) h'
    have := key ops none none (by simp) (by rw [hlaw]; simp)
    cases hcs : lastConsts ops none with
    | none => exact absurd hcs this
    | some c => exact ⟨c.1, c.2, rfl⟩
  have hform := fun v => C114_form hY ops hops g law hlaw h23 gamma theta hconsts s hs hc N hN u v
  obtain ⟨s', b, h1, h2, -⟩ := hform 0
  refine ⟨s', b, h1, h2, fun n hn => ?_⟩
  obtain ⟨s2, b2, h3, h4, h5⟩ := hform (fun d => if d % Y.gdim = n then 1 else 0)
  obtain rfl : s2 = s' := Except.ok.inj (h3.symm.trans h1)
  obtain rfl : b2 = b := Except.ok.inj (h4.symm.trans h2)
  simp only [mul_ite, mul_one, mul_zero] at h5
  rw [sum_filter, h5]
  rw [H.geom] at hunit
  generalize (Tracked.new g).history ops = t at hunit ⊢
  unfold contactForm
  refine sum_eq_zero (fun i hi => sum_eq_zero (fun e he => ?_))
  have hi' := mem_range.mp hi
  have hel : e < (Y.facets i).length := lt_of_lt_of_le (mem_range.mp he) (hY.loc i hi')
  rw [List.getElem?_eq_getElem hel, Option.elim_some]
  refine sum_eq_zero (fun q hq => ?_)
  split
  · rename_i hl
    obtain ⟨hu1, hu2, hu3⟩ := hunit i hi' e (mem_range.mp he) (Y.facets i)[e].1 (Y.facets i)[e].2
      (List.getElem?_eq_getElem hel) q (mem_range.mp hq)
    rw [form_zero, mul_zero]
    · intro a ha
      have ha' : a < Y.gdim := ha
      unfold jumpAt valueAt oppositeAt
      simp only [dof_mod _ ha']
      rw [← sum_mul, ← sum_mul, hu1, hu3 hl, sub_self]
    · intro a ha b hb
      have ha' : a < Y.gdim := ha
      unfold gradAt
      simp only [dof_mod _ ha']
      rw [← sum_mul, sum_comm]
      rw [sum_eq_zero (fun j hj => by rw [← mul_sum, hu2 j (mem_range.mp hj), mul_zero]), zero_mul]
  · rfl

/-- The example with a constant basis function. -/
def exYc : System Unit := { exY with dphi := fun _ _ _ => 0 }

theorem exYc_valid : System.Valid exYc where
  pairs := by decide
  dim := by decide
  points := by decide
  cell := by simp [exYc, exY]
  loc := by simp [exYc, exY]
  gap := by simp [exYc, exY]
  nx := by simp [exYc, exY]
  ny := by simp [exYc, exY]
  space := ⟨rfl, rfl⟩
  search := by simp [exYc, exY]
  cells := by simp [exYc, exY]
  shared := by simp [exYc, exY]
  affine := by simp [exYc, exY]

/-- The hypotheses of C115 hold for two cells with overlapping bodies and Coulomb friction. -/
example : System.Valid exYc ∧ (∀ op ∈ exSysOps, OpShaped exYc.static op) ∧ lastLaw exSysOps none = some .coulomb
    ∧ exYc.gdim = 2 ∧ (history exYc.static exSysOps (init exYc.static ())).coeffs ≠ none ∧ DofsBelow exYc 4
    ∧ SumsToOne exYc (history exYc.static exSysOps (init exYc.static ())).geom := by
  have hsh : ∀ op ∈ exSysOps, OpShaped exYc.static op := by
    simp [exSysOps, OpShaped, ScalarShaped, System.static, exYc, exY]
  refine ⟨exYc_valid, hsh, rfl, rfl, ?_, ?_, ?_⟩
  · rcases C38_size (static_shaped exYc_valid) exSysOps hsh () with ⟨h, -⟩ | ⟨-, cs, h, -⟩
    · simp [exSysOps, Tracked.history, Tracked.call] at h
    · rw [h]; simp
  · refine ⟨?_, ?_⟩ <;> simp [exYc, exY]
  · intro i hi e he cell f hf q hq
    simp [exYc, exY]

/-! ### C116 -/

theorem scatter2_symm (nd bs : ℕ) (dofs : ℕ → ℕ → ℕ) (rowCell colCell : ℕ) (A A' : ℕ → ℝ) (r c : ℕ)
    (h : ∀ p < bs * nd, ∀ s < bs * nd, A (p * (bs * nd) + s) = A' (s * (bs * nd) + p)) :
    scatter2 nd bs dofs rowCell colCell A r c = scatter2 nd bs dofs colCell rowCell A' c r := by
  unfold scatter2
  have lt : ∀ {i k : ℕ}, i ∈ range nd → k ∈ range bs → bs * i + k < bs * nd := by
    intro i k hi hk
    have := mem_range.mp hi
    have := mem_range.mp hk
    nlinarith
  have e : ∀ (F : ℕ → ℕ → ℕ → ℕ → ℝ), ∑ i ∈ range nd, ∑ k ∈ range bs, ∑ j ∈ range nd, ∑ l ∈ range bs, F i k j l
      = ∑ j ∈ range nd, ∑ l ∈ range bs, ∑ i ∈ range nd, ∑ k ∈ range bs, F i k j l := by
    intro F
    have s1 : ∀ i, ∑ k ∈ range bs, ∑ j ∈ range nd, ∑ l ∈ range bs, F i k j l
        = ∑ j ∈ range nd, ∑ l ∈ range bs, ∑ k ∈ range bs, F i k j l := by
      intro i
      rw [sum_comm]
      exact sum_congr rfl (fun j _ => sum_comm)
    simp only [s1]
    rw [sum_comm]
    exact sum_congr rfl (fun j _ => sum_comm)
  rw [e]
  refine sum_congr rfl (fun j hj => sum_congr rfl (fun l hl => sum_congr rfl (fun i hi => sum_congr rfl (fun k hk => ?_))))
  by_cases hrc : r = bs * dofs rowCell i + k ∧ c = bs * dofs colCell j + l
  · rw [if_pos hrc, if_pos hrc.symm, h _ (lt hi hk) _ (lt hj hl)]
  · rw [if_neg hrc, if_neg (fun h => hrc h.symm)]

theorem facetMatrix_symm (nd bs : ℕ) (dofs : ℕ → ℕ → ℕ) (cell : ℕ) (L : List ℕ) (A : ℕ × ℕ → ℝ)
    (hA : BlockSymmetric (bs * nd) L.length A) (r c : ℕ) :
    facetMatrix nd bs dofs cell L A r c = facetMatrix nd bs dofs cell L A c r := by
  unfold facetMatrix
  rw [scatter2_symm nd bs dofs cell cell _ (fun p => A (0, p)) r c (fun p hp s hs => (hA p s hp hs).1)]
  congr 1
  refine sum_congr rfl (fun k hk => ?_)
  have hk' := mem_range.mp hk
  rw [scatter2_symm nd bs dofs cell (L.getD k 0) _ (fun p => A (3 * k + 2, p)) r c
      (fun p hp s hs => ((hA p s hp hs).2 k hk').1),
    scatter2_symm nd bs dofs (L.getD k 0) cell _ (fun p => A (3 * k + 1, p)) r c
      (fun p hp s hs => ((hA s p hs hp).2 k hk').1.symm),
    scatter2_symm nd bs dofs (L.getD k 0) (L.getD k 0) _ (fun p => A (3 * k + 3, p)) r c
      (fun p hp s hs => ((hA p s hp hs).2 k hk').2)]
  ring

/-- At every point of a facet at most one linked cell has test functions. -/
theorem test_one' (Y : System G) (g : G) (i e q : ℕ) (L : List ℕ) (he : e < Y.localFacets i)
    (hq : q < Y.nq) (hL : Packing.Spec.IsLinkList (Y.pair g i) e L) :
    ∃ k0, ∀ k m n, k < L.length → k ≠ k0 → m < Y.nd → n < Y.gdim →
      (Y.test g i).v e (((k * Y.nd + m) * Y.nq + q) * Y.gdim + n) = 0 := by
  obtain ⟨c, hc, ht⟩ := test_eq Y g i
  obtain ⟨c', hc', hv⟩ := packTest_value (Y.pair g i) (Y.basis g i) (pair_fits Y g i)
  have : c' = c := by rw [hc'] at hc; exact Except.ok.inj hc
  subst this
  refine ⟨L.idxOf ((Y.pair g i).parentCells ((Y.pair g i).subCell
    ((Y.pair g i).facets (e * (Y.pair g i).nq + q)).toNat)), fun k m n hk hne hm hn => ?_⟩
  have hidx : (Y.pair g i).testIndex e k m q n = Packing.Spec.entry (Y.pair g i) Y.gdim e k m q n := by
    simp only [PairData.testIndex, Packing.Spec.entry, System.pair]
  rw [test_entry Y g i e k m q n c' ht, ← hidx]
  refine (hv e L he hL k m n (lt_of_lt_of_le hk (links_le hL)) hm hn).2 q hq ?_
  rintro h ⟨f, hf, hc⟩
  apply hne
  rw [hf, Int.toNat_natCast, hc]
  exact (List.Nodup.idxOf_getElem (hL.1.imp (fun h => ne_of_lt h)) k hk).symm

/-- The assembled matrix of a reachable state. -/
theorem matrix_of_history (hY : System.Valid Y) (ops : List (Op G)) (hops : ∀ op ∈ ops, OpShaped Y.static op) (g : G)
    (law : Law) (hlaw : lastLaw ops none = some law) (s : State G) (hs : s = history Y.static ops (init Y.static g))
    (cs : ℕ → Mat) (hc : s.coeffs = some cs) :
    Good Y.static ((Tracked.new g).history ops) s ∧
    (∀ i < Y.numPairs, ∀ e < Y.localFacets i,
      RowHolds Y.static ((Tracked.new g).history ops) i e ((cs i).v e)) ∧
    ∃ A, Y.assembleMatrix s 0 = .ok A ∧ ∀ d c, A (d, c) =
      ((List.range Y.numPairs).map (fun i => ((lawPairs law).map (fun p => ∑ e ∈ range (Y.localFacets i),
        facetMatrix Y.nd Y.gdim Y.space.parent (facetOf Y i e).1 (linksOf Y s.geom i e)
          (p.matFn (Y.kd Y.nq (facetOf Y i e).1 (facetOf Y i e).2) ((cs i).v e) (constants s.consts)
            (linksOf Y s.geom i e).length (linkedPoints ((Y.pair s.geom i).row e)) 0) d c)).sum)).sum := by
  have H := good_history (static_shaped hY) ops hops (good_init Y.static g)
  obtain ⟨hm, -⟩ := kernels_of_history hY ops hops g law hlaw
  have hR := C38_layout (static_shaped hY) ops hops g cs (by rw [← hs]; exact hc)
  rw [← hs] at H hm
  have hcr : ((Tracked.new g).history ops).created = true := by
    cases h : ((Tracked.new g).history ops).created with
    | false => rw [(H.fresh h).1] at hc; cases hc
    | true => rfl
  obtain ⟨cs0, cs', h1, -, h3⟩ := carries_row hY H hcr 0
  have e0 : cs0 = cs := Option.some.inj (h1.symm.trans hc)
  subst e0
  have := matrix_eq hY H law hm cs0 (fun i hi => (h3 i hi).2.2.1)
  have e1 : { s with coeffs := some cs0 } = s := by cases s; simp_all
  rw [e1] at this
  exact ⟨H, hR, this⟩

/-- The normals of a row are those of the detection. -/
theorem unitNormal_row {t : Tracked G} {i e : ℕ} {c : ℕ → ℝ} (R : RowHolds Y.static t i e c) {q : ℕ} (hq : q < Y.nq)
    (h : ∑ a ∈ range Y.gdim, contactNormalAt Y t.cur i e q a ^ 2 = 1) :
    (dims Y.static).UnitNormal c q := by
  unfold Dims.UnitNormal
  refine Eq.trans (sum_congr rfl (fun a ha => ?_)) h
  show (-c ((dims Y.static).oNormal + q * Y.gdim + a)) ^ 2 = _
  rw [Nat.add_assoc, R.normal (q * Y.gdim + a) (sA_le Y.static hq (mem_range.mp ha)), contactNormalAt_eq]

/-- C116: with theta = 1 the matrix `assemble_matrix` builds is symmetric, at any time after the data were
generated, without friction and with Tresca friction. -/
theorem C116_symmetric (hY : System.Valid Y) (ops : List (Op G)) (hops : ∀ op ∈ ops, OpShaped Y.static op) (g : G)
    (law : Law) (hlaw : lastLaw ops none = some law) (hl : law ≠ .coulomb)
    (gamma : ℝ) (hconsts : lastConsts ops none = some (gamma, 1))
    (s : State G) (hs : s = history Y.static ops (init Y.static g)) (hc : s.coeffs ≠ none)
    (hT : law = .tresca → (Y.gdim = 2 ∨ Y.gdim = 3) ∧ UnitNormals Y ((Tracked.new g).history ops)) :
    ∃ A : Arr (ℕ × ℕ), Y.assembleMatrix s 0 = .ok A ∧ ∀ d c, A (d, c) = A (c, d) := by
  obtain ⟨cs, hcs⟩ : ∃ cs, s.coeffs = some cs := Option.ne_none_iff_exists'.mp hc
  obtain ⟨H, hR, A, hA, hA2⟩ := matrix_of_history hY ops hops g law hlaw s hs cs hcs
  have hk : s.consts = (gamma, 1) := by
    rw [(C84_kernels Y.static ops g s hs).2.2, hconsts]; rfl
  refine ⟨A, hA, fun d c => ?_⟩
  rw [hA2, hA2]
  congr 1
  refine List.map_congr_left (fun i hi => ?_)
  congr 1
  refine List.map_congr_left (fun p hp => ?_)
  refine sum_congr rfl (fun e he => facetMatrix_symm _ _ _ _ _ _ ?_ d c)
  have hw : constants s.consts 1 = 1 := by rw [hk]; rfl
  have hM : Y.gdim * Y.nd = Y.nd * Y.gdim := Nat.mul_comm ..
  rw [hM]
  have hi' := List.mem_range.mp hi
  have he' := mem_range.mp he
  cases p with
  | normal => exact C99_frictionless (Y.kd Y.nq (facetOf Y i e).1 (facetOf Y i e).2) _ _ _ _ hw
  | tresca =>
    have ht : law = .tresca := by cases law <;> simp [lawPairs] at hp ⊢
    obtain ⟨h23, hun⟩ := hT ht
    refine C99_tresca (Y.kd Y.nq (facetOf Y i e).1 (facetOf Y i e).2) _ _ _ _ rfl h23 (fun q hq => ?_) hw
    obtain ⟨hq', hq2⟩ := linkedPoints_lt hq
    rw [row_length] at hq'
    rw [row_getD _ _ hq'] at hq2
    rw [H.geom] at hq2
    exact unitNormal_row (hR i hi' e he') hq' (hun i hi' e he' q hq' hq2)
  | coulomb => cases law <;> simp [lawPairs] at hp hl

/-- C116: with theta = -1 and every positive gamma the matrix `assemble_matrix` builds is positive
semidefinite, at any time after the data were generated, without friction and with Tresca friction, whatever
the contact status. -/
theorem C116_positive (hY : System.Valid Y) (ops : List (Op G)) (hops : ∀ op ∈ ops, OpShaped Y.static op) (g : G)
    (law : Law) (hlaw : lastLaw ops none = some law) (hl : law ≠ .coulomb)
    (gamma : ℝ) (hγ : 0 < gamma) (hconsts : lastConsts ops none = some (gamma, -1))
    (s : State G) (hs : s = history Y.static ops (init Y.static g)) (hc : s.coeffs ≠ none)
    (hT : law = .tresca → (Y.gdim = 2 ∨ Y.gdim = 3) ∧ UnitNormals Y ((Tracked.new g).history ops))
    (hh : ∀ i < Y.numPairs, ∀ e < Y.localFacets i, 0 < ((Tracked.new g).history ops).h i e 0)
    (hwt : ∀ i < Y.numPairs, ∀ p ∈ Y.facets i, ∀ q < Y.nq, 0 ≤ weightAt Y p.1 p.2 q)
    (N : ℕ) (hN : DofsBelow Y N) :
    ∃ A : Arr (ℕ × ℕ), Y.assembleMatrix s 0 = .ok A
      ∧ ∀ v : ℕ → ℝ, 0 ≤ ∑ d ∈ range N, ∑ c ∈ range N, v d * A (d, c) * v c := by
  obtain ⟨cs, hcs⟩ : ∃ cs, s.coeffs = some cs := Option.ne_none_iff_exists'.mp hc
  obtain ⟨H, hR, A, hA, hA2⟩ := matrix_of_history hY ops hops g law hlaw s hs cs hcs
  have hk : s.consts = (gamma, -1) := by
    rw [(C84_kernels Y.static ops g s hs).2.2, hconsts]; rfl
  refine ⟨A, hA, fun v => ?_⟩
  have e0 : ∑ d ∈ range N, ∑ c ∈ range N, v d * A (d, c) * v c
      = ∑ d ∈ range N, (∑ c ∈ range N, A (d, c) * v c) * v d := by
    refine sum_congr rfl (fun d _ => ?_)
    rw [sum_mul]
    exact sum_congr rfl (fun c _ => by ring)
  rw [e0]
  simp only [hA2]
  simp only [sum_list_mul]
  refine list_sum_nonneg _ _ (fun i hi => list_sum_nonneg _ _ (fun p hp => ?_))
  have hi' := List.mem_range.mp hi
  simp only [sum_mul]
  have e1 : ∀ d, ∑ c ∈ range N, ∑ e ∈ range (Y.localFacets i),
      facetMatrix Y.nd Y.gdim Y.space.parent (facetOf Y i e).1 (linksOf Y s.geom i e)
        (p.matFn (Y.kd Y.nq (facetOf Y i e).1 (facetOf Y i e).2) ((cs i).v e) (constants s.consts)
          (linksOf Y s.geom i e).length (linkedPoints ((Y.pair s.geom i).row e)) 0) d c * v c * v d
      = ∑ e ∈ range (Y.localFacets i), (∑ c ∈ range N,
        facetMatrix Y.nd Y.gdim Y.space.parent (facetOf Y i e).1 (linksOf Y s.geom i e)
        (p.matFn (Y.kd Y.nq (facetOf Y i e).1 (facetOf Y i e).2) ((cs i).v e) (constants s.consts)
          (linksOf Y s.geom i e).length (linkedPoints ((Y.pair s.geom i).row e)) 0) d c * v c) * v d := by
    intro d
    rw [sum_comm]
    exact sum_congr rfl (fun e _ => (sum_mul ..).symm)
  simp only [e1]
  rw [sum_comm]
  refine sum_nonneg (fun e he => ?_)
  have he' := mem_range.mp he
  have hel : e < (Y.facets i).length := lt_of_lt_of_le he' (hY.loc i hi')
  have hfe : facetOf Y i e = (Y.facets i)[e] := List.getD_eq_getElem _ _ hel
  have hL := linksOf_list Y s.geom i e
  rw [hfe]
  have hc1 : ∀ j < Y.nd, Y.gdim * Y.space.parent (Y.facets i)[e].1 j + Y.gdim ≤ N :=
    fun j hj => hN.1 i hi' _ (List.getElem_mem hel) j hj
  have hc2 : ∀ c ∈ linksOf Y s.geom i e, ∀ j < Y.nd, Y.gdim * Y.space.parent c j + Y.gdim ≤ N := by
    intro c hcL j hj
    rw [hL.2] at hcL
    obtain ⟨q, -, f, hf, rfl⟩ := hcL
    exact hN.2 _ (hY.cells s.geom i _ f hf) j hj
  have e2 := fun (M : ℕ × ℕ → ℝ) (d : ℕ) => facetMatrix_apply Y.nd Y.gdim N Y.space.parent (Y.facets i)[e].1
    (linksOf Y s.geom i e) M v d hc1 hc2
  simp only [e2]
  rw [facetVector_dot Y.nd Y.gdim N Y.space.parent _ _ _ v hc1 hc2]
  have hR' := hR i hi' e he'
  have hw0 : constants s.consts 0 = gamma := by rw [hk]; rfl
  have hw1 : constants s.consts 1 = -1 := by rw [hk]; rfl
  have haff : AffineConst (Y.kd Y.nq (Y.facets i)[e].1 (Y.facets i)[e].2) := by
    intro ha q
    have := hY.affine ha (Y.facets i)[e].2 q
    show Y.inv (Y.geo.jac _ (Y.cphi (Y.off (Y.facets i)[e].2 + q))) = Y.inv (Y.geo.jac _ (Y.cphi (Y.off (Y.facets i)[e].2)))
      ∧ Y.det _ (Y.geo.jac _ (Y.cphi (Y.off (Y.facets i)[e].2 + q))) = Y.det _ (Y.geo.jac _ (Y.cphi (Y.off (Y.facets i)[e].2)))
    rw [this]
    exact ⟨rfl, rfl⟩
  have hpt : ∀ q ∈ linkedPoints ((Y.pair s.geom i).row e), q < Y.nq ∧ 0 ≤ Y.map s.geom i (e * Y.nq + q) := by
    intro q hq
    obtain ⟨hq', hq2⟩ := linkedPoints_lt hq
    rw [row_length] at hq'
    rw [row_getD _ _ hq'] at hq2
    exact ⟨hq', hq2⟩
  have hone : ∀ q ∈ linkedPoints ((Y.pair s.geom i).row e),
      OneLink (dims Y.static) (linksOf Y s.geom i e).length ((cs i).v e) q := by
    intro q hq
    obtain ⟨hq', -⟩ := hpt q hq
    obtain ⟨k0, h0⟩ := test_one' Y s.geom i e q _ he' hq' hL
    refine ⟨k0, fun k m n hk hne (hm : m < Y.nd) (hn : n < Y.gdim) => ?_⟩
    rw [← h0 k m n hk hne hm hn]
    unfold Dims.test
    rw [Nat.add_assoc, H.geom]
    refine hR'.test _ ?_
    have hk' : k < Y.nq := lt_of_lt_of_le hk (links_le hL)
    show ((k * Y.nd + m) * Y.nq + q) * Y.gdim + n < Y.nq * Y.nd * Y.nq * Y.gdim
    have a1 : k * Y.nd + m < Y.nq * Y.nd := by nlinarith
    have a2 : (k * Y.nd + m) * Y.nq + q < Y.nq * Y.nd * Y.nq := by nlinarith
    nlinarith
  have hwt' : ∀ q ∈ linkedPoints ((Y.pair s.geom i).row e),
      0 ≤ weightAt Y (Y.facets i)[e].1 (Y.facets i)[e].2 q :=
    fun q hq => hwt i hi' _ (List.getElem_mem hel) q (hpt q hq).1
  have hh' : 0 < (cs i).v e 3 := by rw [hR'.h]; exact hh i hi' e he'
  have hγ' : 0 < constants s.consts 0 := by rw [hw0]; exact hγ
  have key : 0 ≤ energy (Y.nd * Y.gdim) (linksOf Y s.geom i e).length
      (p.matFn (Y.kd Y.nq (Y.facets i)[e].1 (Y.facets i)[e].2) ((cs i).v e) (constants s.consts)
        (linksOf Y s.geom i e).length (linkedPoints ((Y.pair s.geom i).row e)) 0)
      (coupledDofs Y.gdim Y.space.parent (Y.facets i)[e].1 (linksOf Y s.geom i e) v) := by
    cases p with
    | normal =>
      exact C100_frictionless (Y.kd Y.nq (Y.facets i)[e].1 (Y.facets i)[e].2) haff _ _ _ _ rfl hγ' hh' hw1
        hone hwt' _
    | tresca =>
      have ht : law = .tresca := by cases law <;> simp [lawPairs] at hp ⊢
      obtain ⟨h23, hun⟩ := hT ht
      refine C100_tresca (Y.kd Y.nq (Y.facets i)[e].1 (Y.facets i)[e].2) haff _ _ _ _ rfl h23 hγ' hh' hw1
        hone (fun q hq => ?_) hwt' _
      obtain ⟨hq', hq2⟩ := hpt q hq
      rw [H.geom] at hq2
      exact unitNormal_row hR' hq' (hun i hi' e he' q hq' hq2)
    | coulomb => cases law <;> simp [lawPairs] at hp hl
  refine key.trans_eq ?_
  unfold energy
  refine sum_congr rfl (fun B _ => ?_)
  rw [← Coefficients.sum_mul_range Y.nd Y.gdim]
  refine sum_congr rfl (fun m _ => sum_congr rfl (fun n hn => ?_))
  rw [coupledDofs_eq _ _ _ _ _ _ (mem_range.mp hn), mul_comm, Nat.mul_comm Y.gdim Y.nd]

/-- Generate the data for Tresca friction. -/
def exSysOpsT (theta : ℝ) : List (Op Unit) :=
  [.generate ⟨.tresca, some (fun _ => ⟨1, 1, fun _ _ => 3⟩), some (fun _ => ⟨1, 1, fun _ _ => 5⟩),
    some (fun _ => ⟨1, 1, fun _ _ => 1⟩), none, none, fun _ => ⟨1, 1, fun _ _ => 1⟩, 10, theta⟩]

/-- The hypotheses of C116 hold for the example with Tresca friction, both for theta = 1 and theta = -1. -/
example (theta : ℝ) : System.Valid exY ∧ (∀ op ∈ exSysOpsT theta, OpShaped exY.static op)
    ∧ lastLaw (exSysOpsT theta) none = some .tresca ∧ lastConsts (exSysOpsT theta) none = some (10, theta)
    ∧ (history exY.static (exSysOpsT theta) (init exY.static ())).coeffs ≠ none
    ∧ exY.gdim = 2 ∧ UnitNormals exY ((Tracked.new ()).history (exSysOpsT theta))
    ∧ (∀ i < exY.numPairs, ∀ e < exY.localFacets i, 0 < ((Tracked.new ()).history (exSysOpsT theta)).h i e 0)
    ∧ (∀ i < exY.numPairs, ∀ p ∈ exY.facets i, ∀ q < exY.nq, 0 ≤ weightAt exY p.1 p.2 q)
    ∧ DofsBelow exY 4 := by
  have hsh : ∀ op ∈ exSysOpsT theta, OpShaped exY.static op := by
    simp [exSysOpsT, OpShaped, ScalarShaped, System.static, exY]
  refine ⟨exY_valid, hsh, rfl, rfl, ?_, rfl, ?_, ?_, ?_, ?_⟩
  · rcases C38_size (static_shaped exY_valid) _ hsh () with ⟨h, -⟩ | ⟨-, cs, h, -⟩
    · simp [exSysOpsT, Tracked.history, Tracked.call] at h
    · rw [h]; simp
  · intro i hi e he q hq _
    have h3 : q < 1 := hq
    obtain rfl : q = 0 := by omega
    simp [exY, contactNormalAt, sum_range_succ]
  · intro i hi e he
    simp [exSysOpsT, Tracked.history, Tracked.call, vals]
  · intro i hi p hp q hq
    simp [exY, weightAt]
  · refine ⟨?_, ?_⟩ <;> simp [exY]

end

end Verif.ContactProblem
