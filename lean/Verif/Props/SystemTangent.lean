import Verif.Lemmas.SystemTangent
import Verif.Props.SystemBalance
import Verif.Props.Helpers

/-!
C131: the assembled matrix as a bilinear form of displacements.
-/

namespace Verif.ContactProblem

open Verif.Spec Verif.Packing Verif.Assembly Verif.Entities Verif.Kernels Finset

noncomputable section

variable {G : Type} {Y : System G}

/-- C131: the matrix `assemble_matrix` builds after `update_contact_data(u)`, applied to any displacement
`w` and tested with any `v`, is the linearisation of Nitsche's form at `u`, for every friction law, any
history of calls and every contact status, also where the status switches; the derivative of the projection
onto the friction ball is the one `d_ball_projection` computes (zero if the friction bound is less than
`1e-14`). -/
theorem C131_matrix (hY : System.Valid Y) (ops : List (Op G)) (hops : ∀ op ∈ ops, OpShaped Y.static op) (g : G)
    (law : Law) (hlaw : lastLaw ops none = some law)
    (h23 : law ≠ .frictionless → (Y.gdim = 2 ∨ Y.gdim = 3) ∧ UnitNormals Y ((Tracked.new g).history ops))
    (gamma theta : ℝ) (hconsts : lastConsts ops none = some (gamma, theta))
    (s : State G) (hs : s = history Y.static ops (init Y.static g)) (hc : s.coeffs ≠ none)
    (N : ℕ) (hN : DofsBelow Y N) (u : ℕ → ℝ) :
    ∃ (s' : State G) (A : Arr (ℕ × ℕ)), updateContactData Y.static (Y.du u) s = .ok s'
      ∧ Y.assembleMatrix s' 0 = .ok A
      ∧ ∀ w v : ℕ → ℝ, ∑ d ∈ range N, ∑ c ∈ range N, v d * A (d, c) * w c
        = contactTangent Y ((Tracked.new g).history ops) cutSlope law gamma theta u w v := by
  have hfirst : ∀ i < Y.numPairs, ∀ e < Y.localFacets i, Packing.Spec.LinkedFirst (Y.pair s.geom i) e :=
    fun i hi e he => linked_first hY s.geom hi he
  have H := good_history (static_shaped hY) ops hops (good_init Y.static g)
  obtain ⟨hm, -⟩ := kernels_of_history hY ops hops g law hlaw
  have hk : s.consts = (gamma, theta) := by
    rw [(C84_kernels Y.static ops g s hs).2.2, hconsts]; rfl
  rw [← hs] at H hm
  obtain ⟨t, ht⟩ : ∃ t, t = (Tracked.new g).history ops := ⟨_, rfl⟩
  rw [← ht] at H h23 ⊢
  have hcr : t.created = true := by
    cases h : t.created with
    | false => exact absurd (H.fresh h).1 hc
    | true => rfl
  obtain ⟨cs, cs', -, h2, h3⟩ := carries_row hY H hcr u
  have hcols : ∀ i < Y.numPairs, (cs' i).cols = coefficientsSize false Y.nq Y.gdim Y.nd Y.gdim Y.nq :=
    fun i hi => (h3 i hi).2.1.trans (h3 i hi).2.2.1
  obtain ⟨A, hA1, hA2⟩ := matrix_eq hY H law hm cs' hcols
  refine ⟨{ s with coeffs := some cs' }, A, h2, hA1, fun x v => ?_⟩
  have hrow : ∀ i < Y.numPairs, ∀ e < Y.localFacets i, RowHolds Y.static (t.setDu (Y.du u)) i e ((cs' i).v e) := by
    obtain ⟨s', hu, H'⟩ := good_updateData (static_shaped hY) (du_shaped hY u) H hcr
    obtain ⟨cs2, nQ2, h5, -, p2⟩ := H'.full hcr
    have e2 : s' = _ := Except.ok.inj (hu.symm.trans h2)
    rw [e2] at h5
    have e3 : cs' = cs2 := Option.some.inj h5
    intro i hi e he
    rw [e3]
    exact ((p2 i hi).row e he).holds
  rw [H.geom] at hfirst
  have e0 : ∑ d ∈ range N, ∑ c ∈ range N, v d * A (d, c) * x c
      = ∑ d ∈ range N, (∑ c ∈ range N, A (d, c) * x c) * v d := by
    refine sum_congr rfl (fun d _ => ?_)
    rw [sum_mul]
    exact sum_congr rfl (fun c _ => by ring)
  rw [e0]
  simp only [hA2, hk]
  simp only [sum_list_mul]
  rw [list_range_sum]
  unfold contactTangent
  refine sum_congr rfl (fun i hi => ?_)
  have hi' := mem_range.mp hi
  simp only [sum_mul]
  have e1 : ∀ (p : KPair) (d : ℕ), ∑ c ∈ range N, ∑ e ∈ range (Y.localFacets i),
      facetMatrix Y.nd Y.gdim Y.space.parent (facetOf Y i e).1 (linksOf Y s.geom i e)
        (p.matFn (Y.kd Y.nq (facetOf Y i e).1 (facetOf Y i e).2) ((cs' i).v e) (constants (gamma, theta))
          (linksOf Y s.geom i e).length (linkedPoints ((Y.pair s.geom i).row e)) 0) d c * x c * v d
      = ∑ e ∈ range (Y.localFacets i), (∑ c ∈ range N,
        facetMatrix Y.nd Y.gdim Y.space.parent (facetOf Y i e).1 (linksOf Y s.geom i e)
        (p.matFn (Y.kd Y.nq (facetOf Y i e).1 (facetOf Y i e).2) ((cs' i).v e) (constants (gamma, theta))
          (linksOf Y s.geom i e).length (linkedPoints ((Y.pair s.geom i).row e)) 0) d c * x c) * v d := by
    intro p d
    rw [sum_comm]
    exact sum_congr rfl (fun e _ => (sum_mul ..).symm)
  simp only [e1]
  have swap : ∀ F : ℕ → ℕ → ℝ, ∑ d ∈ range N, ∑ e ∈ range (Y.localFacets i), F d e
      = ∑ e ∈ range (Y.localFacets i), ∑ d ∈ range N, F d e := fun F => sum_comm
  simp only [swap]
  have lsum : ∀ (l : List KPair) (n : ℕ) (f : KPair → ℕ → ℝ),
      (l.map (fun p => ∑ e ∈ range n, f p e)).sum = ∑ e ∈ range n, (l.map (fun p => f p e)).sum := by
    intro l n f
    induction l with
    | nil => simp
    | cons x l ih => simp only [List.map_cons, List.sum_cons, ih, sum_add_distrib]
  rw [lsum]
  refine sum_congr rfl (fun e he => ?_)
  have he' := mem_range.mp he
  have hel : e < (Y.facets i).length := lt_of_lt_of_le he' (hY.loc i hi')
  have hfe : facetOf Y i e = (Y.facets i)[e] := List.getD_eq_getElem _ _ hel
  rw [List.getElem?_eq_getElem hel, Option.elim_some, H.geom]
  have hL := linksOf_list Y t.cur i e
  have hone := (((h3 i hi').2.2.2 e he').2 _ (by rw [H.geom]; exact hL) (by rw [H.geom]; exact hfirst i hi' e he')).1
  have hc1 : ∀ j < Y.nd, Y.gdim * Y.space.parent (Y.facets i)[e].1 j + Y.gdim ≤ N :=
    fun j hj => hN.1 i hi' _ (List.getElem_mem hel) j hj
  have hc2 : ∀ c ∈ linksOf Y t.cur i e, ∀ j < Y.nd, Y.gdim * Y.space.parent c j + Y.gdim ≤ N := by
    intro c hcL j hj
    rw [hL.2] at hcL
    obtain ⟨q, -, f, hf, rfl⟩ := hcL
    exact hN.2 _ (hY.cells t.cur i _ f hf) j hj
  have key : ∀ p ∈ lawPairs law, ∑ d ∈ range N, (∑ c ∈ range N,
      facetMatrix Y.nd Y.gdim Y.space.parent (facetOf Y i e).1 (linksOf Y t.cur i e)
        (p.matFn (Y.kd Y.nq (facetOf Y i e).1 (facetOf Y i e).2) ((cs' i).v e) (constants (gamma, theta))
          (linksOf Y t.cur i e).length (linkedPoints ((Y.pair t.cur i).row e)) 0) d c * x c) * v d
      = ∑ q ∈ range Y.nq, if 0 ≤ Y.map t.cur i (e * Y.nq + q) then
        weightAt Y (Y.facets i)[e].1 (Y.facets i)[e].2 q
          * dFormAt p law (pointAt Y t i e (Y.facets i)[e].1 (Y.facets i)[e].2 q) gamma theta
          (jumpAt Y t.cur i e (Y.facets i)[e].1 (Y.facets i)[e].2 u q)
          (fun a b => gradAt Y (Y.facets i)[e].1 (Y.facets i)[e].2 u q a b
            + (pointAt Y t i e (Y.facets i)[e].1 (Y.facets i)[e].2 q).grad0 a b)
          (jumpAt Y t.cur i e (Y.facets i)[e].1 (Y.facets i)[e].2 x q)
          (gradAt Y (Y.facets i)[e].1 (Y.facets i)[e].2 x q)
          (jumpAt Y t.cur i e (Y.facets i)[e].1 (Y.facets i)[e].2 v q)
          (gradAt Y (Y.facets i)[e].1 (Y.facets i)[e].2 v q)
        else 0 := by
    intro p hp
    rw [hfe]
    have e2 := fun (M : ℕ × ℕ → ℝ) (d : ℕ) => facetMatrix_apply Y.nd Y.gdim N Y.space.parent (Y.facets i)[e].1
      (linksOf Y t.cur i e) M x d hc1 hc2
    simp only [e2]
    rw [facetVector_dot Y.nd Y.gdim N Y.space.parent _ _ _ v hc1 hc2]
    exact kernel_tangent hY law p hp h23 (gamma, theta) (hrow i hi' e he') hi' he' hel hL (hfirst i hi' e he') hone x v
  rw [List.map_congr_left key, lsum]
  refine sum_congr rfl (fun q _ => ?_)
  split
  · rw [← dFormAt_law, ← List.sum_map_mul_left]
  · simp

/-! ### the linearised form is the derivative of the form -/

section Deriv

variable {p : ContactPoint} {J : ℝ → ℕ → ℝ} {D : ℝ → ℕ → ℕ → ℝ} {K : ℕ → ℝ} {E : ℕ → ℕ → ℝ} {t : ℝ}

theorem dot_deriv (hJ : ∀ a < p.g, HasDerivAt (fun s => J s a) (K a) t) :
    HasDerivAt (fun s => p.dot (J s)) (p.dot K) t :=
  HasDerivAt.fun_sum (fun a ha => (hJ a (mem_range.mp ha)).mul_const _)

theorem tang_deriv (hJ : ∀ a < p.g, HasDerivAt (fun s => J s a) (K a) t) {a : ℕ} (ha : a < p.g) :
    HasDerivAt (fun s => p.tang (J s) a) (p.tang K a) t :=
  (hJ a ha).fun_sub ((dot_deriv hJ).mul_const _)

theorem trac_deriv (hD : ∀ a < p.g, ∀ b < p.g, HasDerivAt (fun s => D s a b) (E a b) t) {a : ℕ} (ha : a < p.g) :
    HasDerivAt (fun s => p.trac (D s) a) (p.trac E a) t := by
  unfold ContactPoint.trac
  simp only [Elasticity.traction_eq _ _ _ _ _ _ ha]
  refine HasDerivAt.fun_add ?_ ?_
  · refine HasDerivAt.fun_sum (fun j hj => ?_)
    have hj' := mem_range.mp hj
    exact (((hD j hj' a ha).fun_add (hD a ha j hj')).const_mul _).mul_const _
  · refine HasDerivAt.mul_const (HasDerivAt.const_mul _ (HasDerivAt.fun_sum (fun j hj => ?_))) _
    exact hD j (mem_range.mp hj) j (mem_range.mp hj)

theorem pressure_deriv (gamma : ℝ) (hJ : ∀ a < p.g, HasDerivAt (fun s => J s a) (K a) t)
    (hD : ∀ a < p.g, ∀ b < p.g, HasDerivAt (fun s => D s a b) (E a b) t) :
    HasDerivAt (fun s => p.pressure gamma (J s) (D s)) (p.dPressure gamma K E) t := by
  unfold ContactPoint.pressure ContactPoint.dPressure
  exact ((dot_deriv hJ).sub_const _).fun_sub ((dot_deriv (fun a ha => trac_deriv hD ha)).const_mul _)

theorem slip_deriv (gamma : ℝ) (hJ : ∀ a < p.g, HasDerivAt (fun s => J s a) (K a) t)
    (hD : ∀ a < p.g, ∀ b < p.g, HasDerivAt (fun s => D s a b) (E a b) t) {a : ℕ} (ha : a < p.g) :
    HasDerivAt (fun s => p.slip gamma (J s) (D s) a) (p.slip gamma K E a) t := by
  unfold ContactPoint.slip
  exact (tang_deriv hJ ha).fun_sub ((tang_deriv (fun a ha => trac_deriv hD ha) ha).const_mul _)

theorem max_deriv {f : ℝ → ℝ} {f' : ℝ} (hf : HasDerivAt f f' t) (h0 : f t ≠ 0) :
    HasDerivAt (fun s => max 0 (f s)) (step (f t) * f') t := by
  unfold step
  rcases lt_or_gt_of_ne h0 with h | h
  · rw [if_neg (not_lt.mpr h.le), zero_mul]
    refine (hasDerivAt_const t (0 : ℝ)).congr_of_eventuallyEq ?_
    filter_upwards [hf.continuousAt.eventually_lt continuousAt_const h] with s hs
    exact max_eq_left hs.le
  · rw [if_pos h, one_mul]
    refine hf.congr_of_eventuallyEq ?_
    filter_upwards [continuousAt_const.eventually_lt hf.continuousAt h] with s hs
    exact max_eq_right hs.le

/-- Away from the sphere `ballSlope` and `ballRadiusSlope` are the derivatives of the projection. -/
theorem ball_deriv {g : ℕ} {x : ℝ → ℕ → ℝ} {x' : ℕ → ℝ} {r : ℝ → ℝ} {r' : ℝ}
    (hx : ∀ a < g, HasDerivAt (fun s => x s a) (x' a) t) (hr : HasDerivAt r r' t) (h0 : 0 ≤ r t)
    (hne : Real.sqrt (∑ b ∈ range g, x t b ^ 2) ≠ r t) {a : ℕ} (ha : a < g) :
    HasDerivAt (fun s => ball g (x s) (r s) a)
      (ballSlope g (x t) (r t) x' a + ballRadiusSlope g (x t) (r t) a * r') t := by
  have h := Helpers.C127_derivative g x x' r r' t hx hr h0 hne a ha
  have e : (fun s => Scalars.pyBallProjection g (x s) (r s) a) = fun s => ball g (x s) (r s) a := by
    funext s
    unfold Scalars.pyBallProjection ball
    split <;> rfl
  rw [e] at h
  refine h.congr_deriv ?_
  unfold ballSlope ballRadiusSlope Helpers.pyDBallProjection Helpers.pyDAlphaBallProjection
  dsimp only
  obtain ⟨N, hN⟩ : ∃ N, N = Real.sqrt (∑ b ∈ range g, x t b ^ 2) := ⟨_, rfl⟩
  rw [← hN] at hne ⊢
  rcases lt_or_gt_of_ne hne with h | h
  · rw [if_pos h, if_neg (not_lt.mpr h.le), if_pos h.le]
    simp [h.le, mem_range.mpr ha, ite_mul]
  · have h1 : ¬ N ≤ r t := not_le.mpr h
    rw [if_neg (not_lt.mpr h.le), if_pos h, if_neg h1]
    simp only [if_neg h1]
    have e2 : ∀ j ∈ range g, r t / N * ((if a = j then 1 else 0) - x t a / N * (x t j / N)) * x' j
        = (if a = j then r t / N * x' j else 0) - r t * (x t j * x' j) * x t a / N ^ 3 := by
      intro j _
      have : N ≠ 0 := by linarith
      split <;> field_simp <;> ring
    rw [sum_congr rfl e2, sum_sub_distrib, sum_ite_eq, if_pos (mem_range.mpr ha), ← sum_div, ← sum_mul, ← mul_sum]
    ring

theorem projected_deriv (law : Law) (gamma : ℝ) (hJ : ∀ a < p.g, HasDerivAt (fun s => J s a) (K a) t)
    (hD : ∀ a < p.g, ∀ b < p.g, HasDerivAt (fun s => D s a b) (E a b) t)
    (hP : p.pressure gamma (J t) (D t) ≠ 0) (h0 : 0 ≤ p.bound law gamma (J t) (D t))
    (hne : Real.sqrt (∑ c ∈ range p.g, p.trial law gamma (J t) (D t) c ^ 2) ≠ p.bound law gamma (J t) (D t))
    {a : ℕ} (ha : a < p.g) :
    HasDerivAt (fun s => p.projected law gamma (J s) (D s) a) (p.dProjected ballSlope law gamma (J t) (D t) K E a) t := by
  cases law with
  | frictionless => exact hasDerivAt_const _ _
  | tresca =>
    refine (ball_deriv (fun a ha => slip_deriv gamma hJ hD ha) (hasDerivAt_const t (p.h / gamma * p.fric)) h0 hne
      ha).congr_deriv ?_
    rw [mul_zero, add_zero]; rfl
  | coulomb =>
    have hx : ∀ a < p.g, HasDerivAt (fun s => p.slip gamma (J s) (D s) a - (p.dot p.gap - p.dot (J s)) * p.tang p.oldNormal a)
        (p.slip gamma K E a + p.dot K * p.tang p.oldNormal a) t := by
      intro a ha
      refine ((slip_deriv gamma hJ hD ha).fun_sub (((dot_deriv hJ).const_sub _).mul_const _)).congr_deriv ?_
      ring
    have hr : HasDerivAt (fun s => p.fric * max 0 (p.pressure gamma (J s) (D s)))
        (p.fric * (step (p.pressure gamma (J t) (D t)) * p.dPressure gamma K E)) t :=
      (max_deriv (pressure_deriv gamma hJ hD) hP).const_mul _
    exact ball_deriv hx hr h0 hne ha

theorem form_deriv (law : Law) (gamma theta : ℝ) (hJ : ∀ a < p.g, HasDerivAt (fun s => J s a) (K a) t)
    (hD : ∀ a < p.g, ∀ b < p.g, HasDerivAt (fun s => D s a b) (E a b) t)
    (hP : p.pressure gamma (J t) (D t) ≠ 0)
    (hF : law ≠ .frictionless → 0 ≤ p.bound law gamma (J t) (D t)
      ∧ Real.sqrt (∑ c ∈ range p.g, p.trial law gamma (J t) (D t) c ^ 2) ≠ p.bound law gamma (J t) (D t))
    (J' : ℕ → ℝ) (D' : ℕ → ℕ → ℝ) :
    HasDerivAt (fun s => p.form law gamma theta (J s) (D s) J' D')
      (p.dForm ballSlope law gamma theta (J t) (D t) K E J' D') t := by
  unfold ContactPoint.form ContactPoint.dForm
  refine HasDerivAt.fun_add ?_ ?_
  · unfold ContactPoint.normalPart ContactPoint.dNormalPart
    refine HasDerivAt.fun_sub ?_ ?_
    · exact ((max_deriv (pressure_deriv gamma hJ hD) hP).const_mul _).mul_const _
    · exact ((dot_deriv (fun a ha => trac_deriv hD ha)).const_mul _).mul_const _
  · by_cases hl : law = .frictionless
    · simp only [hl, if_true]
      exact hasDerivAt_const _ _
    · simp only [hl, if_false]
      unfold ContactPoint.frictionPart ContactPoint.dFrictionPart
      refine HasDerivAt.fun_sub ?_ ?_
      · refine HasDerivAt.const_mul _ (HasDerivAt.fun_sum (fun a ha => ?_))
        exact (projected_deriv law gamma hJ hD hP (hF hl).1 (hF hl).2 (mem_range.mp ha)).mul_const _
      · refine HasDerivAt.const_mul _ (HasDerivAt.fun_sum (fun a ha => ?_))
        exact (tang_deriv (fun a ha => trac_deriv hD ha) (mem_range.mp ha)).mul_const _

end Deriv

theorem jumpAt_line (g : G) (i e cell f : ℕ) (u w : ℕ → ℝ) (q a : ℕ) (s : ℝ) :
    jumpAt Y g i e cell f (fun d => u d + s * w d) q a = jumpAt Y g i e cell f u q a + s * jumpAt Y g i e cell f w q a := by
  unfold jumpAt valueAt oppositeAt
  simp only [mul_add, sum_add_distrib]
  rw [mul_sub, mul_sum, mul_sum]
  simp only [mul_left_comm]
  ring

theorem gradAt_line (cell f : ℕ) (u w : ℕ → ℝ) (q a b : ℕ) (s : ℝ) :
    gradAt Y cell f (fun d => u d + s * w d) q a b = gradAt Y cell f u q a b + s * gradAt Y cell f w q a b := by
  unfold gradAt
  simp only [mul_add, sum_add_distrib]
  congr 1
  rw [mul_sum]
  exact sum_congr rfl (fun k _ => by ring)

theorem line_deriv (a b : ℝ) : HasDerivAt (fun s => a + s * b) b 0 := by
  simpa using ((hasDerivAt_id (0 : ℝ)).mul_const b).const_add a

/-- C131: the linearised form is what its name says: where no contact status switches it is the derivative
of Nitsche's form (that of C114). -/
theorem C131_linearisation (Y : System G) (t : Tracked G) (law : Law) (gamma theta : ℝ) (u w v : ℕ → ℝ)
    (hsw : NoSwitch Y t law gamma u) :
    HasDerivAt (fun s => contactForm Y t law gamma theta (fun d => u d + s * w d) v)
      (contactTangent Y t ballSlope law gamma theta u w v) 0 := by
  unfold contactForm contactTangent
  refine HasDerivAt.fun_sum (fun i hi => HasDerivAt.fun_sum (fun e he => ?_))
  have hi' := mem_range.mp hi
  have he' := mem_range.mp he
  cases hf : (Y.facets i)[e]? with
  | none => exact hasDerivAt_const _ _
  | some c =>
    obtain ⟨cell, f⟩ := c
    simp only [Option.elim_some]
    refine HasDerivAt.fun_sum (fun q hq => ?_)
    by_cases hl : 0 ≤ Y.map t.cur i (e * Y.nq + q)
    · simp only [if_pos hl]
      refine HasDerivAt.const_mul _ ?_
      obtain ⟨h1, h2⟩ := hsw i hi' e he' cell f hf q (mem_range.mp hq) hl
      have e0 : (fun d => u d + 0 * w d) = u := by funext d; ring
      have := form_deriv (p := pointAt Y t i e cell f q)
        (J := fun s => jumpAt Y t.cur i e cell f (fun d => u d + s * w d) q)
        (D := fun s a b => gradAt Y cell f (fun d => u d + s * w d) q a b + (pointAt Y t i e cell f q).grad0 a b)
        (K := jumpAt Y t.cur i e cell f w q) (E := gradAt Y cell f w q) (t := 0) law gamma theta
        (fun a _ => by simp only [jumpAt_line]; exact line_deriv _ _)
        (fun a _ b _ => by simp only [gradAt_line]; exact (line_deriv _ _).add_const _)
        (by simp only [e0]; exact h1) (by simp only [e0]; exact h2)
        (jumpAt Y t.cur i e cell f v q) (gradAt Y cell f v q)
      simp only [e0] at this
      exact this
    · simp only [if_neg hl]
      exact hasDerivAt_const _ _

/-! ### friction bounds below `1e-14` -/

theorem cut_ball {g : ℕ} (x : ℕ → ℝ) {r : ℝ} (y : ℕ → ℝ) (a : ℕ) (h : r = 0 ∨ 1e-14 ≤ r) :
    cutSlope g x r y a = ballSlope g x r y a := by
  unfold cutSlope
  rcases h with rfl | h
  · rw [if_pos (by norm_num)]
    unfold ballSlope
    rw [if_neg (not_lt.mpr (Real.sqrt_nonneg _))]
    simp
  · rw [if_neg (not_lt.mpr h)]

theorem tangent_cut (Y : System G) (t : Tracked G) (law : Law) (gamma theta : ℝ) (u w v : ℕ → ℝ)
    (hb : BoundsResolved Y t law gamma u) :
    contactTangent Y t cutSlope law gamma theta u w v = contactTangent Y t ballSlope law gamma theta u w v := by
  unfold contactTangent
  refine sum_congr rfl (fun i hi => sum_congr rfl (fun e he => ?_))
  have hi' := mem_range.mp hi
  have he' := mem_range.mp he
  cases hf : (Y.facets i)[e]? with
  | none => rfl
  | some c =>
    obtain ⟨cell, f⟩ := c
    simp only [Option.elim_some]
    refine sum_congr rfl (fun q hq => ?_)
    by_cases hl : 0 ≤ Y.map t.cur i (e * Y.nq + q)
    · simp only [if_pos hl]
      have h1 := hb i hi' e he' cell f hf q (mem_range.mp hq) hl
      unfold ContactPoint.dForm ContactPoint.dFrictionPart
      congr 5
      refine sum_congr rfl (fun a _ => ?_)
      congr 1
      cases law with
      | frictionless => rfl
      | tresca => exact cut_ball _ _ _ h1
      | coulomb =>
        unfold ContactPoint.dProjected
        dsimp only
        congr 1
        exact cut_ball _ _ _ h1
    · simp only [if_neg hl]

/-- C131 (partial: the friction bound at each linked point is zero or at least `1e-14`): the assembled
matrix is the derivative of Nitsche's form, with the one-sided choice made where the status switches. -/
theorem C131_derivative_partial (hY : System.Valid Y) (ops : List (Op G)) (hops : ∀ op ∈ ops, OpShaped Y.static op)
    (g : G) (law : Law) (hlaw : lastLaw ops none = some law)
    (h23 : law ≠ .frictionless → (Y.gdim = 2 ∨ Y.gdim = 3) ∧ UnitNormals Y ((Tracked.new g).history ops))
    (gamma theta : ℝ) (hconsts : lastConsts ops none = some (gamma, theta))
    (s : State G) (hs : s = history Y.static ops (init Y.static g)) (hc : s.coeffs ≠ none)
    (N : ℕ) (hN : DofsBelow Y N) (u : ℕ → ℝ)
    (hb : BoundsResolved Y ((Tracked.new g).history ops) law gamma u) :
    ∃ (s' : State G) (A : Arr (ℕ × ℕ)), updateContactData Y.static (Y.du u) s = .ok s'
      ∧ Y.assembleMatrix s' 0 = .ok A
      ∧ ∀ w v : ℕ → ℝ, ∑ d ∈ range N, ∑ c ∈ range N, v d * A (d, c) * w c
        = contactTangent Y ((Tracked.new g).history ops) ballSlope law gamma theta u w v := by
  obtain ⟨s', A, h1, h2, h3⟩ := C131_matrix hY ops hops g law hlaw h23 gamma theta hconsts s hs hc N hN u
  exact ⟨s', A, h1, h2, fun w v => (h3 w v).trans (tangent_cut _ _ _ _ _ _ _ _ hb)⟩

/-- C113, with the conditions on the displacement (partial: the friction bound at each linked point is zero
or at least `1e-14`; `C131_violated`): if no point switches its status, the assembled matrix is the
derivative of the assembled vector with respect to the displacement passed to `update_contact_data`. -/
theorem C113_displacement_partial (hY : System.Valid Y) (ops : List (Op G)) (hops : ∀ op ∈ ops, OpShaped Y.static op)
    (g : G) (law : Law) (hlaw : lastLaw ops none = some law)
    (h23 : law ≠ .frictionless → (Y.gdim = 2 ∨ Y.gdim = 3) ∧ UnitNormals Y ((Tracked.new g).history ops))
    (gamma theta : ℝ) (hconsts : lastConsts ops none = some (gamma, theta))
    (s : State G) (hs : s = history Y.static ops (init Y.static g)) (hc : s.coeffs ≠ none)
    (N : ℕ) (hN : DofsBelow Y N) (u w : ℕ → ℝ)
    (hb : BoundsResolved Y ((Tracked.new g).history ops) law gamma u)
    (hsw : NoSwitch Y ((Tracked.new g).history ops) law gamma u) :
    ∃ (upd : ℝ → State G) (b : ℝ → Arr ℕ) (A : Arr (ℕ × ℕ)),
      (∀ t, updateContactData Y.static (Y.du (fun d => u d + t * w d)) s = .ok (upd t))
      ∧ (∀ t, Y.assembleVector (upd t) 0 = .ok (b t)) ∧ Y.assembleMatrix (upd 0) 0 = .ok A
      ∧ ∀ d < N, HasDerivAt (fun t => b t d) (∑ c ∈ range N, A (d, c) * w c) 0 := by
  have hv := fun (t : ℝ) (v : ℕ → ℝ) => C114_form hY ops hops g law hlaw (fun h => (h23 h).1) gamma theta hconsts s hs hc N hN
    (fun d => u d + t * w d) v
  choose upd b h1 h2 _ using fun t : ℝ => hv t 0
  obtain ⟨s', A, h4, h5, h6⟩ := C131_derivative_partial hY ops hops g law hlaw h23 gamma theta hconsts s hs hc N hN u hb
  have e0 : (fun d => u d + 0 * w d) = u := by funext d; ring
  have hs' : s' = upd 0 := by
    have := h1 0
    rw [e0, h4] at this
    exact Except.ok.inj this
  refine ⟨upd, b, A, h1, h2, hs' ▸ h5, fun d hd => ?_⟩
  obtain ⟨δ, hδ⟩ : ∃ δ : ℕ → ℝ, δ = fun c => if c = d then 1 else 0 := ⟨_, rfl⟩
  have hbt : (fun t => b t d)
      = fun t => contactForm Y ((Tracked.new g).history ops) law gamma theta (fun d => u d + t * w d) δ := by
    funext t
    obtain ⟨s2, b2, k1, k2, k3⟩ := hv t δ
    obtain rfl : s2 = upd t := Except.ok.inj (k1.symm.trans (h1 t))
    obtain e2 : b2 = b t := Except.ok.inj (k2.symm.trans (h2 t))
    rw [← k3, e2, hδ]
    simp [hd]
  have hA : ∑ c ∈ range N, A (d, c) * w c
      = contactTangent Y ((Tracked.new g).history ops) ballSlope law gamma theta u w δ := by
    rw [← h6 w δ, hδ]
    simp [hd]
  rw [hbt, hA]
  exact C131_linearisation Y _ law gamma theta u w δ hsw

/-! ### an example with a tiny friction bound -/

/-- Tresca friction with a bound `h / γ * s = r`. -/
def exOpsBound (r : ℝ) : List (Op Unit) :=
  [.generate ⟨.tresca, some (fun _ => ⟨1, 1, fun _ _ => 3⟩), some (fun _ => ⟨1, 1, fun _ _ => 5⟩),
    some (fun _ => ⟨1, 1, fun _ _ => r⟩), none, none, fun _ => ⟨1, 1, fun _ _ => 1⟩, 1, 0⟩]

theorem exOpsBound_shaped (r : ℝ) : ∀ op ∈ exOpsBound r, OpShaped exY.static op := by
  simp [exOpsBound, OpShaped, ScalarShaped, System.static, exY]

theorem exOpsBound_created (r : ℝ) : (history exY.static (exOpsBound r) (init exY.static ())).coeffs ≠ none := by
  rcases C38_size (static_shaped exY_valid) _ (exOpsBound_shaped r) () with ⟨h, -⟩ | ⟨-, cs, h, -⟩
  · simp [exOpsBound, Tracked.history, Tracked.call] at h
  · rw [h]; simp

theorem exOpsBound_unit (r : ℝ) : UnitNormals exY ((Tracked.new ()).history (exOpsBound r)) := by
  intro i hi e he q hq _
  have h3 : q < 1 := hq
  obtain rfl : q = 0 := by omega
  simp [exY, contactNormalAt, sum_range_succ]

theorem exY_below : DofsBelow exY 4 := by refine ⟨?_, ?_⟩ <;> simp [exY]

theorem exBound_jump (u : ℕ → ℝ) (q a : ℕ) : jumpAt exY () 0 0 0 2 u q a = u a - u (2 + a) := by
  simp [jumpAt, valueAt, oppositeAt, exY]

theorem exBound_grad (u : ℕ → ℝ) (h : u 0 = 0 ∧ u 1 = 0) (q a b : ℕ) (ha : a < 2) : gradAt exY 0 2 u q a b = 0 := by
  have : u a = 0 := by
    rcases (show a = 0 ∨ a = 1 by omega) with rfl | rfl
    · exact h.1
    · exact h.2
  simp [gradAt, exY, this]

/-- Data of the only quadrature point of the example. -/
theorem exBound_point (r : ℝ) : ∃ n1 : ℝ, n1 ^ 2 = 1 ∧
    ∀ p, p = pointAt exY ((Tracked.new ()).history (exOpsBound r)) 0 0 0 2 0 →
      p.g = 2 ∧ p.h = 1 ∧ p.fric = r ∧ p.normal 0 = 0 ∧ p.normal 1 = n1 ∧ p.gap 0 = 0 ∧ p.gap 1 = 2
      ∧ ∀ a b, p.grad0 a b = 0 := by
  refine ⟨contactNormalAt exY () 0 0 0 1, ?_, ?_⟩
  · simp [contactNormalAt, exY]
  · rintro p rfl
    refine ⟨rfl, ?_, ?_, ?_, ?_, ?_, ?_, ?_⟩
    all_goals simp [pointAt, exOpsBound, Tracked.history, Tracked.call, vals, contactNormalAt, exY]

/-- The first component at the opposite cell. -/
def exDir (d : ℕ) : ℝ := if d = 2 then 1 else 0

theorem exBound_sum (F : ℕ → ℕ → ℕ → ℕ → ℕ → ℝ) :
    (∑ i ∈ range exY.numPairs, ∑ e ∈ range (exY.localFacets i),
      ((exY.facets i)[e]?).elim 0 (fun p => ∑ q ∈ range exY.nq,
        if 0 ≤ exY.map () i (e * exY.nq + q) then F i e p.1 p.2 q else 0)) = F 0 0 0 2 0 := by
  simp [exY]

theorem trac_zero (p : ContactPoint) {D : ℕ → ℕ → ℝ} (h : ∀ a < p.g, ∀ b < p.g, D a b = 0) {a : ℕ} (ha : a < p.g) :
    p.trac D a = 0 := by
  unfold ContactPoint.trac
  rw [Elasticity.traction_eq _ _ _ _ _ _ ha]
  rw [sum_eq_zero (fun j hj => by rw [h j (mem_range.mp hj) a ha, h a ha j (mem_range.mp hj)]; ring),
    sum_eq_zero (fun j hj => h j (mem_range.mp hj) j (mem_range.mp hj))]
  ring

theorem exBound_cur (r : ℝ) : ((Tracked.new ()).history (exOpsBound r)).cur = () := rfl

/-- With a friction bound between zero and `1e-14` the two derivatives differ. -/
theorem exBound_differs (r : ℝ) (h0 : 0 < r) (h1 : r < 1e-14) :
    contactTangent exY ((Tracked.new ()).history (exOpsBound r)) ballSlope .tresca 1 0 0 exDir exDir
      = contactTangent exY ((Tracked.new ()).history (exOpsBound r)) cutSlope .tresca 1 0 0 exDir exDir + 1 / 2 := by
  obtain ⟨n1, hn1, hp⟩ := exBound_point r
  obtain ⟨p, hpd⟩ : ∃ p, p = pointAt exY ((Tracked.new ()).history (exOpsBound r)) 0 0 0 2 0 := ⟨_, rfl⟩
  obtain ⟨hg, hh, hf, hn0, hnn, hg0, hg1, hgr⟩ := hp p hpd
  unfold contactTangent
  rw [exBound_cur]
  have hs := fun S : Slope => exBound_sum (fun i e cell f q => weightAt exY cell f q
    * (pointAt exY ((Tracked.new ()).history (exOpsBound r)) i e cell f q).dForm S .tresca 1 0
          (jumpAt exY () i e cell f 0 q)
          (fun a b => gradAt exY cell f 0 q a b
            + (pointAt exY ((Tracked.new ()).history (exOpsBound r)) i e cell f q).grad0 a b)
          (jumpAt exY () i e cell f exDir q) (gradAt exY cell f exDir q)
          (jumpAt exY () i e cell f exDir q) (gradAt exY cell f exDir q))
  rw [hs ballSlope, hs cutSlope, ← hpd]
  have hw : weightAt exY 0 2 0 = 1 := by simp [exY, weightAt]
  rw [hw, one_mul, one_mul]
  unfold ContactPoint.dForm
  rw [if_neg (by simp), if_neg (by simp), add_assoc]
  congr 1
  -- zero displacement
  have z1 : ∀ a, jumpAt exY () 0 0 0 2 0 0 a = 0 := fun a => by rw [exBound_jump]; simp
  have z2 : ∀ a < p.g, ∀ b < p.g, gradAt exY 0 2 0 0 a b + p.grad0 a b = 0 := fun a ha b _ => by
    rw [hgr, exBound_grad 0 ⟨rfl, rfl⟩ 0 a b (by omega), add_zero]
  have z3 : ∀ a < p.g, ∀ b < p.g, gradAt exY 0 2 exDir 0 a b = 0 := fun a ha b _ =>
    exBound_grad exDir ⟨rfl, rfl⟩ 0 a b (by omega)
  have dz : ∀ x : ℕ → ℝ, (∀ a < p.g, x a = 0) → p.dot x = 0 := fun x hx =>
    sum_eq_zero (fun a ha => by rw [hx a (mem_range.mp ha), zero_mul])
  have tz : ∀ x : ℕ → ℝ, (∀ a < p.g, x a = 0) → ∀ a < p.g, p.tang x a = 0 := fun x hx a ha => by
    unfold ContactPoint.tang; rw [dz x hx, hx a ha]; ring
  have s0 : ∀ a < p.g, p.slip 1 (jumpAt exY () 0 0 0 2 0 0) (fun a b => gradAt exY 0 2 0 0 a b + p.grad0 a b) a = 0 := by
    intro a ha
    unfold ContactPoint.slip
    rw [tz _ (fun a _ => z1 a) a ha, tz _ (fun a ha => trac_zero p z2 ha) a ha]
    ring
  have k0 : jumpAt exY () 0 0 0 2 exDir 0 0 = -1 := by rw [exBound_jump]; simp [exDir]
  have k1 : jumpAt exY () 0 0 0 2 exDir 0 1 = 0 := by rw [exBound_jump]; simp [exDir]
  have kd : p.dot (jumpAt exY () 0 0 0 2 exDir 0) = 0 := by
    unfold ContactPoint.dot
    rw [hg, sum_range_succ, sum_range_one, k0, k1, hn0]; ring
  have kt : p.tang (jumpAt exY () 0 0 0 2 exDir 0) 0 = -1 ∧ p.tang (jumpAt exY () 0 0 0 2 exDir 0) 1 = 0 := by
    unfold ContactPoint.tang
    rw [kd, k0, k1]; constructor <;> ring
  have ks : ∀ a < p.g, p.slip 1 (jumpAt exY () 0 0 0 2 exDir 0) (gradAt exY 0 2 exDir 0) a
      = p.tang (jumpAt exY () 0 0 0 2 exDir 0) a := by
    intro a ha
    unfold ContactPoint.slip
    rw [tz _ (fun a ha => trac_zero p z3 ha) a ha]
    ring
  have hb : ∀ a < p.g, p.dProjected ballSlope .tresca 1 (jumpAt exY () 0 0 0 2 0 0)
      (fun a b => gradAt exY 0 2 0 0 a b + p.grad0 a b) (jumpAt exY () 0 0 0 2 exDir 0) (gradAt exY 0 2 exDir 0) a
      = p.tang (jumpAt exY () 0 0 0 2 exDir 0) a := by
    intro a ha
    unfold ContactPoint.dProjected ballSlope
    dsimp only
    rw [if_pos, ks a ha]
    rw [sum_eq_zero (fun b hb => by rw [s0 b (mem_range.mp hb)]; ring), hh, hf, Real.sqrt_zero]
    linarith
  have hcut : ∀ a < p.g, p.dProjected cutSlope .tresca 1 (jumpAt exY () 0 0 0 2 0 0)
      (fun a b => gradAt exY 0 2 0 0 a b + p.grad0 a b) (jumpAt exY () 0 0 0 2 exDir 0) (gradAt exY 0 2 exDir 0) a
      = 0 := by
    intro a ha
    unfold ContactPoint.dProjected cutSlope
    dsimp only
    rw [if_pos]
    rw [hh, hf]
    linarith
  unfold ContactPoint.dFrictionPart
  rw [hg, sum_range_succ, sum_range_one, hb 0 (by omega), hb 1 (by omega)]
  rw [sum_range_succ (n := 1) (f := fun a => p.dProjected cutSlope .tresca 1 (jumpAt exY () 0 0 0 2 0 0) _ _ _ a * _),
    sum_range_one, hcut 0 (by omega), hcut 1 (by omega), kt.1, kt.2, hh]
  ring

theorem exBound_noSwitch (r : ℝ) (h0 : 0 < r) :
    NoSwitch exY ((Tracked.new ()).history (exOpsBound r)) .tresca 1 0 := by
  intro i hi e he cell f hf q hq _
  obtain rfl : i = 0 := by have : i < 1 := hi; omega
  obtain rfl : e = 0 := by have : e < 1 := he; omega
  obtain rfl : q = 0 := by have : q < 1 := hq; omega
  have hf' : some ((0 : ℕ), (2 : ℕ)) = some (cell, f) := hf
  obtain ⟨rfl, rfl⟩ := Prod.mk.inj (Option.some.inj hf')
  obtain ⟨n1, hn1, hp⟩ := exBound_point r
  obtain ⟨p, hpd⟩ : ∃ p, p = pointAt exY ((Tracked.new ()).history (exOpsBound r)) 0 0 0 2 0 := ⟨_, rfl⟩
  obtain ⟨hg, hh, hfr, hn0, hnn, hg0, hg1, hgr⟩ := hp p hpd
  rw [← hpd, exBound_cur]
  have z1 : ∀ a, jumpAt exY () 0 0 0 2 0 0 a = 0 := fun a => by rw [exBound_jump]; simp
  have z2 : ∀ a < p.g, ∀ b < p.g, gradAt exY 0 2 0 0 a b + p.grad0 a b = 0 := fun a ha b _ => by
    rw [hgr, exBound_grad 0 ⟨rfl, rfl⟩ 0 a b (by omega), add_zero]
  have dz : ∀ x : ℕ → ℝ, (∀ a < p.g, x a = 0) → p.dot x = 0 := fun x hx =>
    sum_eq_zero (fun a ha => by rw [hx a (mem_range.mp ha), zero_mul])
  have tz : ∀ x : ℕ → ℝ, (∀ a < p.g, x a = 0) → ∀ a < p.g, p.tang x a = 0 := fun x hx a ha => by
    unfold ContactPoint.tang; rw [dz x hx, hx a ha]; ring
  refine ⟨?_, fun _ => ⟨?_, ?_⟩⟩
  · unfold ContactPoint.pressure
    rw [dz _ (fun a _ => z1 a), dz _ (fun a ha => trac_zero p z2 ha)]
    unfold ContactPoint.dot
    rw [hg, sum_range_succ, sum_range_one, hg0, hg1, hnn]
    intro h
    have : n1 = 0 := by linarith
    rw [this] at hn1
    norm_num at hn1
  · show 0 ≤ p.h / 1 * p.fric
    rw [hh, hfr]; linarith
  · have : ∑ c ∈ range exY.gdim, p.trial .tresca 1 (jumpAt exY () 0 0 0 2 0 0)
        (fun a b => gradAt exY 0 2 0 0 a b + p.grad0 a b) c ^ 2 = 0 := by
      refine sum_eq_zero (fun a ha => ?_)
      have ha' : a < p.g := by rw [hg]; exact mem_range.mp ha
      show p.slip 1 _ _ a ^ 2 = 0
      unfold ContactPoint.slip
      rw [tz _ (fun a _ => z1 a) a ha', tz _ (fun a ha => trac_zero p z2 ha) a ha']
      ring
    rw [this, Real.sqrt_zero]
    show (0 : ℝ) ≠ p.h / 1 * p.fric
    rw [hh, hfr]
    intro h
    linarith

/-- C131 fails without the restriction: for every Tresca friction bound between zero and `1e-14` there is a
problem in which no contact status switches, the assembled vector is differentiable, and the assembled matrix
is not its derivative: a point which sticks gets no friction stiffness. -/
theorem C131_violated (r : ℝ) (h0 : 0 < r) (h1 : r < 1e-14) :
    System.Valid exY ∧ UnitNormals exY ((Tracked.new ()).history (exOpsBound r)) ∧
    NoSwitch exY ((Tracked.new ()).history (exOpsBound r)) .tresca 1 0 ∧
    ∃ (s0 : State Unit) (A : Arr (ℕ × ℕ)) (b : ℝ → Arr ℕ) (b' : ℝ),
      updateContactData exY.static (exY.du 0) (history exY.static (exOpsBound r) (init exY.static ())) = .ok s0
      ∧ exY.assembleMatrix s0 0 = .ok A
      ∧ (∀ s : ℝ, ∃ s1, updateContactData exY.static (exY.du (fun d => 0 + s * exDir d))
          (history exY.static (exOpsBound r) (init exY.static ())) = .ok s1 ∧ exY.assembleVector s1 0 = .ok (b s))
      ∧ HasDerivAt (fun s => ∑ d ∈ range 4, b s d * exDir d) b' 0
      ∧ ∑ d ∈ range 4, ∑ c ∈ range 4, exDir d * A (d, c) * exDir c ≠ b' := by
  refine ⟨exY_valid, exOpsBound_unit r, exBound_noSwitch r h0, ?_⟩
  obtain ⟨s0, A, e1, e2, e3⟩ := C131_matrix exY_valid (exOpsBound r) (exOpsBound_shaped r) () .tresca rfl
    (fun _ => ⟨Or.inl rfl, exOpsBound_unit r⟩) 1 0 rfl _ rfl (exOpsBound_created r) 4 exY_below 0
  have hv := fun s : ℝ => C114_form exY_valid (exOpsBound r) (exOpsBound_shaped r) () .tresca rfl
    (fun _ => Or.inl rfl) 1 0 rfl _ rfl (exOpsBound_created r) 4 exY_below (fun d => 0 + s * exDir d) exDir
  choose s1 b hb using hv
  refine ⟨s0, A, b, contactTangent exY ((Tracked.new ()).history (exOpsBound r)) ballSlope .tresca 1 0 0 exDir exDir,
    e1, e2, fun s => ⟨s1 s, (hb s).1, (hb s).2.1⟩, ?_, ?_⟩
  · have h := C131_linearisation exY ((Tracked.new ()).history (exOpsBound r)) .tresca 1 0 0 exDir exDir
      (exBound_noSwitch r h0)
    refine h.congr_of_eventuallyEq (Filter.Eventually.of_forall (fun s => ?_))
    exact (hb s).2.2
  · rw [e3, exBound_differs r h0 h1]
    intro h
    linarith

/-- The hypotheses of C113 and C131 hold for the example, with a friction bound of `0.5`. -/
example : System.Valid exY ∧ (∀ op ∈ exOpsBound 0.5, OpShaped exY.static op)
    ∧ lastLaw (exOpsBound 0.5) none = some .tresca ∧ lastConsts (exOpsBound 0.5) none = some (1, 0)
    ∧ (history exY.static (exOpsBound 0.5) (init exY.static ())).coeffs ≠ none
    ∧ exY.gdim = 2 ∧ UnitNormals exY ((Tracked.new ()).history (exOpsBound 0.5))
    ∧ BoundsResolved exY ((Tracked.new ()).history (exOpsBound 0.5)) .tresca 1 0
    ∧ NoSwitch exY ((Tracked.new ()).history (exOpsBound 0.5)) .tresca 1 0
    ∧ DofsBelow exY 4 := by
  refine ⟨exY_valid, exOpsBound_shaped _, rfl, rfl, exOpsBound_created _, rfl, exOpsBound_unit _, ?_,
    exBound_noSwitch _ (by norm_num), exY_below⟩
  intro i hi e he cell f hf q hq _
  right
  show (1e-14 : ℝ) ≤ (vals (fun _ => ⟨1, 1, fun _ _ => 1⟩) i e 0) / 1 * (vals (fun _ => ⟨1, 1, fun _ _ => 0.5⟩) i e 0)
  simp only [vals]
  norm_num

end

end Verif.ContactProblem
