import Verif.Lemmas.Coulomb

/-!
C204: with Coulomb friction the assembled contact problem has exactly one solution if friction is small.
-/

namespace Verif.ContactProblem

open Verif.Spec Verif.Packing Verif.Assembly Verif.Kernels Verif.Lemmas Finset

noncomputable section

variable {G : Type} {Y : System G}

/-- The difference of the residuals works on the difference of the displacements. -/
theorem residual_mono_of {E : (ℕ → ℝ) → ℝ} {N : ℕ} {F : Finset ℕ} {K : ℕ → ℕ → ℝ} {b : (ℕ → ℝ) → Arr ℕ}
    (hlow : ∀ u1 u2 : ℕ → ℝ, -E (fun d => u1 d - u2 d)
      ≤ ∑ d ∈ range N, b u1 d * (u1 d - u2 d) - ∑ d ∈ range N, b u2 d * (u1 d - u2 d)) (hF : ∀ d ∈ F, d < N) {m : ℝ}
    (hm : ∀ x : EuclideanSpace ℝ F, m * ‖x‖ ^ 2
      ≤ ∑ d ∈ range N, ∑ c ∈ range N, extend 0 x d * K d c * extend 0 x c - E (extend 0 x))
    (u0 : ℕ → ℝ) (x y : EuclideanSpace ℝ F) :
    m * ‖x - y‖ ^ 2 ≤ inner ℝ
      (WithLp.toLp 2 (fun d : F => (∑ c ∈ range N, K d c * extend u0 x c + b (extend u0 x) d)
        - (∑ c ∈ range N, K d c * extend u0 y c + b (extend u0 y) d))) (x - y) := by
  refine (hm (x - y)).trans ?_
  have h1 := hlow (extend u0 x) (extend u0 y)
  simp only [fun d => congrFun (extend_sub u0 x y) d] at h1
  rw [← sum_sub_distrib] at h1
  rw [inner_extend hF (fun d => (∑ c ∈ range N, K d c * extend u0 x c + b (extend u0 x) d)
        - (∑ c ∈ range N, K d c * extend u0 y c + b (extend u0 y) d))]
  have e : ∑ d ∈ range N, ((∑ c ∈ range N, K d c * extend u0 x c + b (extend u0 x) d)
        - (∑ c ∈ range N, K d c * extend u0 y c + b (extend u0 y) d)) * extend 0 (x - y) d
      = ∑ d ∈ range N, ∑ c ∈ range N, extend 0 (x - y) d * K d c * extend 0 (x - y) c
        + ∑ d ∈ range N, (b (extend u0 x) d * extend 0 (x - y) d - b (extend u0 y) d * extend 0 (x - y) d) := by
    rw [← sum_add_distrib]
    refine sum_congr rfl (fun d _ => ?_)
    have e2 : ∑ c ∈ range N, extend 0 (x - y) d * K d c * extend 0 (x - y) c
        = (∑ c ∈ range N, K d c * extend u0 x c - ∑ c ∈ range N, K d c * extend u0 y c) * extend 0 (x - y) d := by
      rw [← sum_sub_distrib, sum_mul]
      refine sum_congr rfl (fun c _ => ?_)
      rw [← congrFun (extend_sub u0 x y) c]
      ring
    rw [e2]
    ring
  rw [e]
  linarith

/-- What Coulomb friction gives for the hypothesis of `residual_mono_of`. -/
theorem coulomb_low {t : Tracked G} (hB : CoulombBounded Y t) {gamma : ℝ} (hγ : 0 < gamma) {theta : ℝ} {N : ℕ}
    {b : (ℕ → ℝ) → Arr ℕ} (hb : ∀ u v, ∑ d ∈ range N, b u d * v d = contactForm Y t .coulomb gamma theta u v)
    (u1 u2 : ℕ → ℝ) :
    -((1 + theta) ^ 2 / (8 * gamma) * tractionSquare Y t .coulomb (fun d => u1 d - u2 d)
        + frictionCoupling Y t gamma theta (fun d => u1 d - u2 d))
      ≤ ∑ d ∈ range N, b u1 d * (u1 d - u2 d) - ∑ d ∈ range N, b u2 d * (u1 d - u2 d) := by
  have := coulombForm_lower hB hγ theta u1 u2
  rw [← hb, ← hb] at this
  linarith

section

variable (hY : System.Valid Y) (ops : List (Op G)) (hops : ∀ op ∈ ops, OpShaped Y.static op)
  (g : G) (hlaw : lastLaw ops none = some .coulomb) (h23 : Y.gdim = 2 ∨ Y.gdim = 3)
  (gamma theta : ℝ) (hγ : 0 < gamma) (hconsts : lastConsts ops none = some (gamma, theta))
  (s : State G) (hs : s = history Y.static ops (init Y.static g)) (hc : s.coeffs ≠ none)
  (hf : ∀ i < Y.numPairs, ∀ e < Y.localFacets i, 0 ≤ ((Tracked.new g).history ops).fric i e 0)
  (hh : ∀ i < Y.numPairs, ∀ e < Y.localFacets i, 0 < ((Tracked.new g).history ops).h i e 0)
  (hwt : ∀ i < Y.numPairs, ∀ p ∈ Y.facets i, ∀ q < Y.nq, 0 ≤ weightAt Y p.1 p.2 q)
  (N : ℕ) (hN : DofsBelow Y N) (F : Finset ℕ) (hF : ∀ d ∈ F, d < N) (K : ℕ → ℕ → ℝ)
  (hK : CoulombCoercive Y ((Tracked.new g).history ops) gamma theta N F K)

include hY hops hlaw h23 hγ hconsts hs hc hf hh hwt hN hF hK

/-- C204: with Coulomb friction the assembled contact problem has exactly one solution for every load `l` and all
values `u0` of the constrained dofs, if the energy of the bodies exceeds the coupling by friction. -/
theorem C204_wellposed (l u0 : ℕ → ℝ) :
    ∃! u : ℕ → ℝ, (∀ d, d ∉ F → u d = u0 d) ∧ ∃ (s' : State G) (b : Arr ℕ),
      updateContactData Y.static (Y.du u) s = .ok s' ∧ Y.assembleVector s' 0 = .ok b
      ∧ ∀ d ∈ F, ∑ c ∈ range N, K d c * u c - l d + b d = 0 := by
  obtain ⟨b, hb1, hb⟩ := vector_of hY ops hops g .coulomb hlaw (fun _ => h23) gamma theta hconsts s hs hc N hN
  have hB : CoulombBounded Y ((Tracked.new g).history ops) := ⟨hY.loc, hf, hh, hwt⟩
  obtain ⟨m, hm, hmb⟩ := coulomb_bound hK
  have hmono := residual_mono_of (E := fun v => (1 + theta) ^ 2 / (8 * gamma)
    * tractionSquare Y ((Tracked.new g).history ops) .coulomb v
    + frictionCoupling Y ((Tracked.new g).history ops) gamma theta v) (coulomb_low hB hγ hb) hF hmb u0
  let A : EuclideanSpace ℝ F → EuclideanSpace ℝ F :=
    fun x => WithLp.toLp 2 (fun d : F => ∑ c ∈ range N, K d c * extend u0 x c + b (extend u0 x) d)
  have hA : ∀ x y, m * ‖x - y‖ ^ 2 ≤ inner ℝ (A x - A y) (x - y) := hmono
  have hbd : ∀ u, ∀ d < N, b u d = contactForm Y ((Tracked.new g).history ops) .coulomb gamma theta u (fun c => if c = d then 1 else 0) := by
    intro u d hd
    rw [← hb]
    simp [hd]
  have hcomp : ∀ d : F, Lip (fun x => A x d) := by
    intro d
    show Lip (fun x : EuclideanSpace ℝ F => ∑ c ∈ range N, K d c * extend u0 x c + b (extend u0 x) d)
    refine Lip.add (Lip.sum _ (fun c _ => (extend_lip u0 c).const_mul _)) ?_
    simp only [hbd _ _ (hF d d.2)]
    exact coulombForm_lip hB gamma theta (extend_lip u0) _
  obtain ⟨L, hL⟩ := Lip.vector hcomp
  obtain ⟨x, hx⟩ := zarantonello A hm hA (fun x y => by rw [← dist_eq_norm x y]; exact hL x y)
    (WithLp.toLp 2 (fun d : F => l d))
  have hsol : ∀ d : F, ∑ c ∈ range N, K d c * extend u0 x c + b (extend u0 x) d = l d :=
    fun d => congrFun (congrArg (WithLp.ofLp) hx) d
  refine ⟨extend u0 x, ⟨fun d hd => extend_off u0 x hd, ?_⟩, ?_⟩
  · obtain ⟨s', h1, h2⟩ := hb1 (extend u0 x)
    refine ⟨s', _, h1, h2, fun d hd => ?_⟩
    have := hsol ⟨d, hd⟩
    simp only at this
    linarith
  · rintro u ⟨hu0, s', b', h1, h2, h3⟩
    obtain ⟨y, rfl⟩ := extend_of u0 u hu0
    obtain ⟨s'', h4, h5⟩ := hb1 (extend u0 y)
    have es : s' = s'' := Except.ok.inj (h1.symm.trans h4)
    rw [es] at h2
    have eb : b' = b (extend u0 y) := Except.ok.inj (h2.symm.trans h5)
    rw [eb] at h3
    have hAy : A y = A x := by
      ext d
      show ∑ c ∈ range N, K d c * extend u0 y c + b (extend u0 y) d = ∑ c ∈ range N, K d c * extend u0 x c + b (extend u0 x) d
      rw [hsol d]
      have := h3 d d.2
      linarith
    have h6 := hA y x
    rw [hAy, sub_self, inner_zero_left] at h6
    have h7 : ‖y - x‖ ^ 2 ≤ 0 := by
      by_contra h
      push Not at h
      have := mul_pos hm h
      linarith
    have h8 : y - x = 0 := norm_eq_zero.mp (pow_eq_zero_iff two_ne_zero |>.mp (le_antisymm h7 (sq_nonneg _)))
    rw [sub_eq_zero.mp h8]

/-- C204: the solution depends on the load continuously: there is a positive constant `m` such that the distance of
the solutions for two loads is at most `1 / m` times the distance of the loads. -/
theorem C204_stable :
    ∃ m : ℝ, 0 < m ∧ ∀ l1 l2 u1 u2 : ℕ → ℝ, ∀ (s1 s2 : State G) (b1 b2 : Arr ℕ),
      (∀ d, d ∉ F → u1 d = u2 d) →
      updateContactData Y.static (Y.du u1) s = .ok s1 → Y.assembleVector s1 0 = .ok b1 →
      updateContactData Y.static (Y.du u2) s = .ok s2 → Y.assembleVector s2 0 = .ok b2 →
      (∀ d ∈ F, ∑ c ∈ range N, K d c * u1 c - l1 d + b1 d = 0) →
      (∀ d ∈ F, ∑ c ∈ range N, K d c * u2 c - l2 d + b2 d = 0) →
      m ^ 2 * ∑ d ∈ F, (u1 d - u2 d) ^ 2 ≤ ∑ d ∈ F, (l1 d - l2 d) ^ 2 := by
  obtain ⟨b, hb1, hb⟩ := vector_of hY ops hops g .coulomb hlaw (fun _ => h23) gamma theta hconsts s hs hc N hN
  have hB : CoulombBounded Y ((Tracked.new g).history ops) := ⟨hY.loc, hf, hh, hwt⟩
  obtain ⟨m, hm, hmb⟩ := coulomb_bound hK
  refine ⟨m, hm, fun l1 l2 u1 u2 s1 s2 b1 b2 hu h1 h2 h3 h4 r1 r2 => ?_⟩
  have eb : ∀ (u : ℕ → ℝ) (s' : State G) (b' : Arr ℕ), updateContactData Y.static (Y.du u) s = .ok s' →
      Y.assembleVector s' 0 = .ok b' → b' = b u := by
    intro u s' b' h1 h2
    obtain ⟨s'', h4, h5⟩ := hb1 u
    have es : s' = s'' := Except.ok.inj (h1.symm.trans h4)
    rw [es] at h2
    exact Except.ok.inj (h2.symm.trans h5)
  rw [eb u1 s1 b1 h1 h2] at r1
  rw [eb u2 s2 b2 h3 h4] at r2
  obtain ⟨x, rfl⟩ := extend_of u2 u1 hu
  obtain ⟨y, hy⟩ := extend_of (F := F) u2 u2 (fun _ _ => rfl)
  have hmono := residual_mono_of (E := fun v => (1 + theta) ^ 2 / (8 * gamma)
    * tractionSquare Y ((Tracked.new g).history ops) .coulomb v
    + frictionCoupling Y ((Tracked.new g).history ops) gamma theta v) (coulomb_low hB hγ hb) hF hmb u2 x y
  rw [hy] at hmono
  have el : (fun d : F => (∑ c ∈ range N, K d c * extend u2 x c + b (extend u2 x) d)
      - (∑ c ∈ range N, K d c * u2 c + b u2 d)) = fun d : F => l1 d - l2 d := by
    funext d
    have e1 := r1 d d.2
    have e2 := r2 d d.2
    linarith
  rw [el] at hmono
  set L : EuclideanSpace ℝ F := WithLp.toLp 2 (fun d : F => l1 d - l2 d) with hL
  have h5 : m * ‖x - y‖ ^ 2 ≤ ‖L‖ * ‖x - y‖ := hmono.trans (real_inner_le_norm _ _)
  have h6 : m * ‖x - y‖ ≤ ‖L‖ := by
    rcases (norm_nonneg (x - y)).eq_or_lt with h | h
    · rw [← h, mul_zero]; exact norm_nonneg _
    · refine le_of_mul_le_mul_right ?_ h
      rw [sq] at h5; linarith
  have h7 : (m * ‖x - y‖) ^ 2 ≤ ‖L‖ ^ 2 := pow_le_pow_left₀ (mul_nonneg hm.le (norm_nonneg _)) h6 2
  rw [mul_pow, EuclideanSpace.real_norm_sq_eq, EuclideanSpace.real_norm_sq_eq] at h7
  have e1 : ∑ d : F, (x - y) d ^ 2 = ∑ d ∈ F, (extend u2 x d - u2 d) ^ 2 := by
    rw [← sum_coe_sort F (fun d => (extend u2 x d - u2 d) ^ 2)]
    refine sum_congr rfl (fun d _ => ?_)
    have : u2 d = y d := by
      have := congrFun hy d
      unfold extend at this
      rw [dif_pos d.2] at this
      exact this.symm
    rw [this]
    simp [extend]
  have e2 : ∑ d : F, L d ^ 2 = ∑ d ∈ F, (l1 d - l2 d) ^ 2 := sum_coe_sort F (fun d => (l1 d - l2 d) ^ 2)
  rwa [e1, e2] at h7

/-- C204: every Newton step is possible: whatever the displacement `u` at which the matrix is assembled, the linear
system with the stiffness matrix plus the matrix `assemble_matrix` builds, restricted to the free dofs `F`, has
exactly one solution for every right-hand side `r`. -/
theorem C204_solvable (hU : UnitNormals Y ((Tracked.new g).history ops)) (u r : ℕ → ℝ) :
    ∃ (s' : State G) (A : Arr (ℕ × ℕ)), updateContactData Y.static (Y.du u) s = .ok s' ∧ Y.assembleMatrix s' 0 = .ok A
      ∧ ∃! w : ℕ → ℝ, (∀ d, d ∉ F → w d = 0) ∧ ∀ d ∈ F, ∑ c ∈ range N, (K d c + A (d, c)) * w c = r d := by
  obtain ⟨s', A, h1, h2, h3⟩ := C131_matrix hY ops hops g .coulomb hlaw (fun _ => ⟨h23, hU⟩) gamma theta hconsts s hs hc N hN u
  refine ⟨s', A, h1, h2, posdef_solvable hF (fun d c => K d c + A (d, c)) (fun v hv hne => ?_) r 0⟩
  have h4 := hK v hv hne
  have h5 := coulombTangent_lower (⟨hY.loc, hf, hh, hwt⟩ : CoulombBounded Y ((Tracked.new g).history ops)) hγ theta u v
  rw [← h3] at h5
  have e : ∑ d ∈ range N, ∑ c ∈ range N, v d * (K d c + A (d, c)) * v c
      = ∑ d ∈ range N, ∑ c ∈ range N, v d * K d c * v c + ∑ d ∈ range N, ∑ c ∈ range N, v d * A (d, c) * v c := by
    rw [← sum_add_distrib]
    refine sum_congr rfl (fun d _ => ?_)
    rw [← sum_add_distrib]
    exact sum_congr rfl (fun c _ => by ring)
  rw [e]
  linarith

end

/-! ### histories with other friction coefficients -/

theorem lastLaw_forget (ops : List (Op G)) (l : Option Law) : lastLaw (ops.map forgetFriction) l = lastLaw ops l := by
  induction ops generalizing l with
  | nil => rfl
  | cons o ops ih => cases o <;> exact ih _

theorem lastConsts_forget (ops : List (Op G)) (c : Option (ℝ × ℝ)) :
    lastConsts (ops.map forgetFriction) c = lastConsts ops c := by
  induction ops generalizing c with
  | nil => rfl
  | cons o ops ih => cases o <;> exact ih _

/-- What is tracked, without friction coefficients. -/
def noFric (t : Tracked G) : Tracked G := { t with fric := fun _ _ _ => 0 }

theorem noFric_call (t : Tracked G) (op : Op G) : noFric (t.call op) = noFric ((noFric t).call (forgetFriction op)) := by
  cases op with
  | generate a =>
    obtain ⟨law, mu, lam, fric, u, du, h, gamma, theta⟩ := a
    cases mu <;> cases lam <;> cases du <;> rfl
  | updateData du => unfold forgetFriction Tracked.call noFric; dsimp only; split <;> rfl
  | updateDetection a b => unfold forgetFriction Tracked.call noFric; dsimp only; split <;> rfl
  | updateNitsche a b => rfl

theorem noFric_history (ops : List (Op G)) (t t' : Tracked G) (h : noFric t = noFric t') :
    noFric (t.history ops) = noFric (t'.history (ops.map forgetFriction)) := by
  induction ops generalizing t t' with
  | nil => exact h
  | cons op ops ih =>
    refine ih (t.call op) (t'.call (forgetFriction op)) ?_
    have e : forgetFriction (forgetFriction op) = forgetFriction op := by cases op <;> rfl
    rw [noFric_call t op, noFric_call t' (forgetFriction op), e, h]

theorem noFric_same {ops ops' : List (Op G)} (h : SameButFriction ops ops') (t : Tracked G) :
    noFric (t.history ops') = noFric (t.history ops) := by
  rw [noFric_history ops' t t rfl, noFric_history ops t t rfl, h]

/-- The coupling with small friction coefficients and normals that have not turned is bounded by that for friction
coefficient one. -/
theorem coupling_small {t : Tracked G} (hT : NormalsKept Y t) {gamma theta f0 : ℝ} (hγ : 0 < gamma) (hf0 : 0 ≤ f0)
    (hB : CoulombBounded Y t)
    (hf : ∀ i < Y.numPairs, ∀ e < Y.localFacets i, t.fric i e 0 ≤ f0) (v : ℕ → ℝ) :
    frictionCoupling Y t gamma theta v
      ≤ f0 * frictionCoupling Y { t with fric := fun _ _ _ => 1 } gamma theta v := by
  unfold frictionCoupling
  rw [mul_sum]
  refine sum_le_sum (fun i hi => ?_)
  rw [mul_sum]
  refine sum_le_sum (fun e he => ?_)
  have hi' := mem_range.mp hi
  have he' := mem_range.mp he
  have hel : e < (Y.facets i).length := lt_of_lt_of_le he' (hB.loc i hi')
  rw [List.getElem?_eq_getElem hel]
  simp only [Option.elim_some]
  rw [mul_sum]
  refine sum_le_sum (fun q hq => ?_)
  by_cases hk : 0 ≤ Y.map t.cur i (e * Y.nq + q)
  · rw [if_pos hk, if_pos hk, mul_left_comm]
    refine mul_le_mul_of_nonneg_left ?_ (hB.weight i hi' _ (List.getElem_mem hel) q (mem_range.mp hq))
    generalize hJ : jumpAt Y t.cur i e ((Y.facets i)[e]).1 ((Y.facets i)[e]).2 v q = J
    generalize gradAt Y ((Y.facets i)[e]).1 ((Y.facets i)[e]).2 v q = D
    have hz : vecLength Y.gdim ((pointAt Y t i e ((Y.facets i)[e]).1 ((Y.facets i)[e]).2 q).tang
        (pointAt Y t i e ((Y.facets i)[e]).1 ((Y.facets i)[e]).2 q).oldNormal) = 0 := by
      have h1 := hT.1 i hi' e he' q (mem_range.mp hq) hk
      have h2 := hT.2 i hi' e he' q (mem_range.mp hq) hk
      have h3 : ∀ a < Y.gdim, (pointAt Y t i e ((Y.facets i)[e]).1 ((Y.facets i)[e]).2 q).tang
          (pointAt Y t i e ((Y.facets i)[e]).1 ((Y.facets i)[e]).2 q).oldNormal a = 0 := by
        intro a ha
        have e1 : (pointAt Y t i e ((Y.facets i)[e]).1 ((Y.facets i)[e]).2 q).dot
            (pointAt Y t i e ((Y.facets i)[e]).1 ((Y.facets i)[e]).2 q).oldNormal = 1 := by
          rw [← h1]
          show ∑ b ∈ range Y.gdim, _ = _
          refine sum_congr rfl (fun b hb => ?_)
          show contactNormalAt Y t.prev i e q b * contactNormalAt Y t.cur i e q b = _
          rw [h2 b (mem_range.mp hb)]; ring
        unfold ContactPoint.tang
        rw [e1]
        show contactNormalAt Y t.prev i e q a - 1 * contactNormalAt Y t.cur i e q a = 0
        rw [h2 a ha]; ring
      unfold vecLength
      rw [sum_eq_zero (fun a ha => by rw [h3 a (mem_range.mp ha)]; ring), Real.sqrt_zero]
    have hh := hB.h i hi' e he'
    have hki : 0 ≤ 1 / 2 * (gamma / t.h i e 0) := by positivity
    have hf' := hf i hi' e he'
    unfold ContactPoint.coupling
    show 1 / 2 * (gamma / t.h i e 0) * (t.fric i e 0 * _ * _ + _ * vecLength Y.gdim _ * _)
      ≤ f0 * (1 / 2 * (gamma / t.h i e 0) * (1 * _ * _ + _ * vecLength Y.gdim _ * _))
    rw [mul_left_comm f0]
    refine mul_le_mul_of_nonneg_left ?_ hki
    rw [mul_add f0]
    refine add_le_add ?_ ?_
    · rw [one_mul, mul_assoc]
      exact mul_le_mul_of_nonneg_right hf' (mul_nonneg (abs_nonneg _) (vecLength_nonneg _ _))
    · rw [hz, mul_zero, zero_mul]
      exact mul_nonneg hf0 (mul_nonneg (mul_nonneg (abs_nonneg _) (vecLength_nonneg _ _)) (vecLength_nonneg _ _))
  · rw [if_neg hk, if_neg hk, mul_zero]

/-- C204: if the contact normals are those of the detection before and the bodies satisfy the condition of C143, then
there is a positive bound `f0` such that with Coulomb friction coefficients from `0` to `f0`, everything else given in
the same way, the assembled contact problem has exactly one solution for every load and all values of the constrained
dofs, and every Newton step is possible. -/
theorem C204_small (hY : System.Valid Y) (ops : List (Op G)) (g : G) (hlaw : lastLaw ops none = some .coulomb)
    (h23 : Y.gdim = 2 ∨ Y.gdim = 3) (gamma theta : ℝ) (hγ : 0 < gamma) (hconsts : lastConsts ops none = some (gamma, theta))
    (hh : ∀ i < Y.numPairs, ∀ e < Y.localFacets i, 0 < ((Tracked.new g).history ops).h i e 0)
    (hwt : ∀ i < Y.numPairs, ∀ p ∈ Y.facets i, ∀ q < Y.nq, 0 ≤ weightAt Y p.1 p.2 q)
    (hT : NormalsKept Y ((Tracked.new g).history ops))
    (N : ℕ) (hN : DofsBelow Y N) (F : Finset ℕ) (hF : ∀ d ∈ F, d < N) (K : ℕ → ℕ → ℝ)
    (hK : Coercive Y ((Tracked.new g).history ops) .coulomb gamma theta N F K) :
    ∃ f0 : ℝ, 0 < f0 ∧ ∀ ops' : List (Op G), SameButFriction ops ops' → (∀ op ∈ ops', OpShaped Y.static op) →
      (∀ i < Y.numPairs, ∀ e < Y.localFacets i,
        0 ≤ ((Tracked.new g).history ops').fric i e 0 ∧ ((Tracked.new g).history ops').fric i e 0 ≤ f0) →
      ∀ s : State G, s = history Y.static ops' (init Y.static g) → s.coeffs ≠ none → ∀ l u0 : ℕ → ℝ,
      (∃! u : ℕ → ℝ, (∀ d, d ∉ F → u d = u0 d) ∧ ∃ (s' : State G) (b : Arr ℕ),
        updateContactData Y.static (Y.du u) s = .ok s' ∧ Y.assembleVector s' 0 = .ok b
        ∧ ∀ d ∈ F, ∑ c ∈ range N, K d c * u c - l d + b d = 0)
      ∧ ∀ u r : ℕ → ℝ, ∃ (s' : State G) (A : Arr (ℕ × ℕ)),
        updateContactData Y.static (Y.du u) s = .ok s' ∧ Y.assembleMatrix s' 0 = .ok A
        ∧ ∃! w : ℕ → ℝ, (∀ d, d ∉ F → w d = 0) ∧ ∀ d ∈ F, ∑ c ∈ range N, (K d c + A (d, c)) * w c = r d := by
  obtain ⟨m, hm, hmb⟩ := coercive_bound hK
  obtain ⟨C, hC0, hC⟩ := homogeneous_bound (fun x : EuclideanSpace ℝ F =>
      frictionCoupling Y { (Tracked.new g).history ops with fric := fun _ _ _ => 1 } gamma theta (extend 0 x))
    (frictionCoupling_cont (extend_lip 0) Y _ gamma theta)
    (fun r x => by rw [extend_smul]; exact frictionCoupling_smul Y _ gamma theta r _)
  refine ⟨m / (C + 1), by positivity, fun ops' hsame hops hf s hs hc l u0 => ?_⟩
  have hno := noFric_same hsame (Tracked.new g)
  have hlaw' : lastLaw ops' none = some .coulomb := by
    rw [← lastLaw_forget, hsame, lastLaw_forget, hlaw]
  have hconsts' : lastConsts ops' none = some (gamma, theta) := by
    rw [← lastConsts_forget, hsame, lastConsts_forget, hconsts]
  generalize ht : (Tracked.new g).history ops = t at hno hh hT hK hmb hC
  generalize ht' : (Tracked.new g).history ops' = t' at hno hf
  have e1 : { t' with fric := fun _ _ _ => 1 } = { t with fric := fun _ _ _ => (1 : ℝ) } :=
    congrArg (fun z : Tracked G => { z with fric := fun _ _ _ => (1 : ℝ) }) hno
  have eh : t'.h = t.h := by have e := congrArg Tracked.h hno; exact e
  have ec : t'.cur = t.cur := by have e := congrArg Tracked.cur hno; exact e
  have ep : t'.prev = t.prev := by have e := congrArg Tracked.prev hno; exact e
  have eq : ∀ v, tractionSquare Y t' .coulomb v = tractionSquare Y t .coulomb v :=
    fun v => by have e := congrArg (fun z : Tracked G => tractionSquare Y z .coulomb v) hno; exact e
  have hT' : NormalsKept Y t' := by
    unfold NormalsKept UnitNormals at hT ⊢
    rw [ec, ep]; exact hT
  have hh' : ∀ i < Y.numPairs, ∀ e < Y.localFacets i, 0 < t'.h i e 0 := by rw [eh]; exact hh
  have hB : CoulombBounded Y t' := ⟨hY.loc, fun i hi e he => (hf i hi e he).1, hh', hwt⟩
  have hK' : CoulombCoercive Y t' gamma theta N F K := by
    intro v hv hne
    obtain ⟨x, hx⟩ := extend_of (F := F) 0 v hv
    have hx0 : x ≠ 0 := by
      rintro rfl
      obtain ⟨d, hd⟩ := hne
      rw [← hx] at hd
      unfold extend at hd
      split at hd <;> simp at hd
    have h1 := hmb x
    have h2 := hC x
    have h3 := coupling_small hT' (theta := theta) hγ (by positivity : 0 ≤ m / (C + 1)) hB (fun i hi e he => (hf i hi e he).2) v
    rw [e1] at h3
    simp only [hx] at h1 h2
    rw [eq]
    have hn : 0 < ‖x‖ ^ 2 := by positivity
    have h4 : m / (C + 1) * frictionCoupling Y { t with fric := fun _ _ _ => 1 } gamma theta v < m * ‖x‖ ^ 2 := by
      refine (mul_le_mul_of_nonneg_left h2 (by positivity : 0 ≤ m / (C + 1))).trans_lt ?_
      have e : m / (C + 1) * (C * ‖x‖ ^ 2) = m * ‖x‖ ^ 2 * (C / (C + 1)) := by ring
      rw [e]
      have hlt : C / (C + 1) < 1 := (div_lt_one (by positivity)).mpr (by linarith)
      exact mul_lt_of_lt_one_right (mul_pos hm hn) hlt
    linarith
  subst ht'
  exact ⟨C204_wellposed hY ops' hops g hlaw' h23 gamma theta hγ hconsts' s hs hc (fun i hi e he => (hf i hi e he).1) hh' hwt
      N hN F hF K hK' l u0,
    C204_solvable hY ops' hops g hlaw' h23 gamma theta hγ hconsts' s hs hc (fun i hi e he => (hf i hi e he).1) hh' hwt
      N hN F hF K hK' hT'.1⟩

/-- C204: without friction coefficient the condition is that of C143, if the contact normals are those of the
detection before. -/
theorem C204_zero (t : Tracked G) (hT : NormalsKept Y t) (gamma theta : ℝ) (hγ : 0 < gamma)
    (hY : System.Valid Y) (hh : ∀ i < Y.numPairs, ∀ e < Y.localFacets i, 0 < t.h i e 0)
    (hwt : ∀ i < Y.numPairs, ∀ p ∈ Y.facets i, ∀ q < Y.nq, 0 ≤ weightAt Y p.1 p.2 q)
    (hf : ∀ i < Y.numPairs, ∀ e < Y.localFacets i, t.fric i e 0 = 0) (N : ℕ) (F : Finset ℕ) (K : ℕ → ℕ → ℝ)
    (hK : Coercive Y t .coulomb gamma theta N F K) : CoulombCoercive Y t gamma theta N F K := by
  intro v hv hne
  have h1 := hK v hv hne
  have h2 := coupling_small (theta := theta) hT hγ le_rfl ⟨hY.loc, fun i hi e he => (hf i hi e he).ge, hh, hwt⟩
    (fun i hi e he => (hf i hi e he).le) v
  rw [zero_mul] at h2
  linarith

/-! ### example -/

/-- Coulomb friction with coefficient `f`, gamma = 10. -/
def exCoulombOps (f theta : ℝ) : List (Op Unit) :=
  [.generate ⟨.coulomb, some (fun _ => ⟨1, 1, fun _ _ => 3⟩), some (fun _ => ⟨1, 1, fun _ _ => 5⟩),
    some (fun _ => ⟨1, 1, fun _ _ => f⟩), none, none, fun _ => ⟨1, 1, fun _ _ => 1⟩, 10, theta⟩]

/-- The hypotheses of `C204_small` hold for the example with Coulomb friction, dof 0 constrained, and bodies with
stiffness matrix `100`: for theta = -1 and for theta = 1. -/
example (f theta : ℝ) (ht : theta = -1 ∨ theta = 1) :
    lastLaw (exCoulombOps f theta) none = some .coulomb
    ∧ lastConsts (exCoulombOps f theta) none = some (10, theta)
    ∧ NormalsKept exY ((Tracked.new ()).history (exCoulombOps f theta))
    ∧ Coercive exY ((Tracked.new ()).history (exCoulombOps f theta)) .coulomb 10 theta 4 {1, 2, 3}
      (fun d c => if d = c then 100 else 0)
    ∧ (∀ f', SameButFriction (exCoulombOps f theta) (exCoulombOps f' theta)
      ∧ ((Tracked.new ()).history (exCoulombOps f' theta)).fric 0 0 0 = f'
      ∧ ∀ op ∈ exCoulombOps f' theta, OpShaped exY.static op) := by
  refine ⟨rfl, rfl, ⟨?_, fun _ _ _ _ _ _ _ _ _ => ?_⟩, ?_, fun f' => ⟨rfl, rfl, ?_⟩⟩
  · intro i hi e he q hq hk
    have hq' : q = 0 := Nat.lt_one_iff.mp hq
    subst hq'
    simp [contactNormalAt, outwardAt, exY, sum_range_succ]
  · simp [exCoulombOps, Tracked.history, Tracked.call]
  · rintro v hv ⟨d, hd⟩
    have h0 : v 0 = 0 := hv 0 (by decide)
    have hpos : 0 < v 1 ^ 2 + v 2 ^ 2 + v 3 ^ 2 := by
      have hmem : d ∈ ({1, 2, 3} : Finset ℕ) := by
        by_contra h
        exact hd (hv d h)
      simp only [Finset.mem_insert, Finset.mem_singleton] at hmem
      rcases hmem with rfl | rfl | rfl <;> positivity
    have e : tractionSquare exY ((Tracked.new ()).history (exCoulombOps f theta)) .coulomb v
        = (5 * v 0 + 22 * v 1) ^ 2 + (6 * v 0 + 3 * v 1) ^ 2 := by
      simp [tractionSquare, ContactPoint.tractionSquare, ContactPoint.dot, ContactPoint.tang, ContactPoint.trac, pointAt,
        contactNormalAt, outwardAt, gradAt, weightAt, exY, exCoulombOps, Tracked.history, Tracked.call, vals,
        sum_range_succ, Elasticity.traction_eq]
      ring
    rw [e, h0]
    simp [sum_range_succ, h0]
    rcases ht with rfl | rfl <;> norm_num <;> nlinarith [sq_nonneg (v 1), sq_nonneg (v 2), sq_nonneg (v 3)]
  · simp [exCoulombOps, OpShaped, ScalarShaped, System.static, exY]

/-- The hypotheses of `C204_wellposed` and `C204_stable` hold for the example with friction coefficient `1/10`. -/
example : CoulombCoercive exY ((Tracked.new ()).history (exCoulombOps (1 / 10) (-1))) 10 (-1) 4 {1, 2, 3}
    (fun d c => if d = c then 100 else 0) := by
  rintro v hv ⟨d, hd⟩
  have h0 : v 0 = 0 := hv 0 (by decide)
  have e : frictionCoupling exY ((Tracked.new ()).history (exCoulombOps (1 / 10) (-1))) 10 (-1) v
      = 1 / 2 * (|v 3 + 12 / 10 * v 1| * |-v 2 + 3 / 10 * v 1|) := by
    have e1 : v 3 - v 1 + 10⁻¹ * (3 * ((1 + 1) * v 1 + (1 + 1) * v 1) + 5 * ((1 + 1) * v 1)) = v 3 + 12 / 10 * v 1 := by ring
    have e2 : -v 2 + 10⁻¹ * (3 * v 1) = -v 2 + 3 / 10 * v 1 := by ring
    simp [frictionCoupling, ContactPoint.coupling, vecLength, ContactPoint.dot, ContactPoint.tang, ContactPoint.trac, pointAt,
      contactNormalAt, outwardAt, gradAt, weightAt, exY, exCoulombOps, Tracked.history, Tracked.call, vals,
      sum_range_succ, Elasticity.traction_eq, jumpAt, valueAt, oppositeAt, h0, Real.sqrt_sq_eq_abs, e1, e2]
    ring
  have hpos : 0 < v 1 ^ 2 + v 2 ^ 2 + v 3 ^ 2 := by
    have hmem : d ∈ ({1, 2, 3} : Finset ℕ) := by
      by_contra h
      exact hd (hv d h)
    simp only [Finset.mem_insert, Finset.mem_singleton] at hmem
    rcases hmem with rfl | rfl | rfl <;> positivity
  rw [e, ← abs_mul]
  simp [sum_range_succ, h0]
  have h1 : |(v 3 + 12 / 10 * v 1) * (-v 2 + 3 / 10 * v 1)| ≤ (v 3 + 12 / 10 * v 1) ^ 2 + (-v 2 + 3 / 10 * v 1) ^ 2 := by
    refine abs_le.mpr ⟨?_, ?_⟩ <;> nlinarith [sq_nonneg (v 3 + 12 / 10 * v 1 + (-v 2 + 3 / 10 * v 1)),
      sq_nonneg (v 3 + 12 / 10 * v 1 - (-v 2 + 3 / 10 * v 1)), sq_nonneg (v 3 + 12 / 10 * v 1), sq_nonneg (-v 2 + 3 / 10 * v 1)]
  have h2 : (v 3 + 12 / 10 * v 1) ^ 2 + (-v 2 + 3 / 10 * v 1) ^ 2 ≤ 10 * (v 1 ^ 2 + v 2 ^ 2 + v 3 ^ 2) := by
    nlinarith [sq_nonneg (v 3 - v 1), sq_nonneg (v 2 + v 1), sq_nonneg (v 1), sq_nonneg (v 2), sq_nonneg (v 3)]
  rw [abs_mul] at h1
  nlinarith

end

end Verif.ContactProblem
