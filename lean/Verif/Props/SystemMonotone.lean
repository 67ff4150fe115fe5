import Verif.Props.SystemBalance

/-!
Property C122: with theta = -1 the assembled contact vector is a monotone function of the displacement.
-/

namespace Verif.ContactProblem

open Verif.Spec Verif.Packing Verif.Assembly Verif.Kernels Finset

noncomputable section

variable {G : Type} {Y : System G}

/-! ### projections are firmly nonexpansive -/

theorem posPart_firm (a b : ℝ) : (max 0 a - max 0 b) ^ 2 ≤ (max 0 a - max 0 b) * (a - b) := by
  rcases le_total 0 a with ha | ha <;> rcases le_total 0 b with hb | hb <;>
    simp only [max_eq_right, max_eq_left, ha, hb] <;> nlinarith

/-- Cauchy's inequality. -/
theorem dot_le_sqrt (g : ℕ) (x y : ℕ → ℝ) :
    ∑ a ∈ range g, x a * y a ≤ Real.sqrt (∑ a ∈ range g, x a ^ 2) * Real.sqrt (∑ a ∈ range g, y a ^ 2) :=
  Real.sum_mul_le_sqrt_mul_sqrt _ _ _

theorem ball_norm (g : ℕ) (x : ℕ → ℝ) {α : ℝ} (hα : 0 ≤ α) : Real.sqrt (∑ a ∈ range g, ball g x α a ^ 2) ≤ α := by
  unfold ball
  by_cases h : Real.sqrt (∑ b ∈ range g, x b ^ 2) ≤ α
  · simp only [if_pos h]; exact h
  · simp only [if_neg h]
    push Not at h
    have hn : 0 < Real.sqrt (∑ b ∈ range g, x b ^ 2) := lt_of_le_of_lt hα h
    have h2 : (∑ b ∈ range g, x b ^ 2) = Real.sqrt (∑ b ∈ range g, x b ^ 2) ^ 2 :=
      (Real.sq_sqrt (sum_nonneg (fun _ _ => sq_nonneg _))).symm
    have e : ∑ a ∈ range g, (α * x a / Real.sqrt (∑ b ∈ range g, x b ^ 2)) ^ 2 = α ^ 2 := by
      have : ∀ a, (α * x a / Real.sqrt (∑ b ∈ range g, x b ^ 2)) ^ 2
          = α ^ 2 / Real.sqrt (∑ b ∈ range g, x b ^ 2) ^ 2 * x a ^ 2 := by intro a; field_simp
      rw [sum_congr rfl (fun a _ => this a), ← mul_sum, ← h2]
      rw [h2]; field_simp
    rw [e, Real.sqrt_sq hα]

/-- The projection leaves a remainder at an obtuse angle to the ball. -/
theorem ball_angle (g : ℕ) (x y : ℕ → ℝ) {α : ℝ} (hα : 0 ≤ α) (hy : Real.sqrt (∑ a ∈ range g, y a ^ 2) ≤ α) :
    ∑ a ∈ range g, (x a - ball g x α a) * (y a - ball g x α a) ≤ 0 := by
  unfold ball
  by_cases h : Real.sqrt (∑ b ∈ range g, x b ^ 2) ≤ α
  · simp [if_pos h]
  · simp only [if_neg h]
    push Not at h
    set r := Real.sqrt (∑ b ∈ range g, x b ^ 2) with hr
    have hn : 0 < r := lt_of_le_of_lt hα h
    have h2 : (∑ b ∈ range g, x b ^ 2) = r ^ 2 := (Real.sq_sqrt (sum_nonneg (fun _ _ => sq_nonneg _))).symm
    have e : ∀ a, (x a - α * x a / r) * (y a - α * x a / r) = (1 - α / r) * (x a * y a) - (1 - α / r) * (α / r) * x a ^ 2 := by
      intro a; field_simp
    rw [sum_congr rfl (fun a _ => e a), sum_sub_distrib, ← mul_sum, ← mul_sum, h2]
    have h1 : 0 ≤ 1 - α / r := by rw [sub_nonneg, div_le_one hn]; exact h.le
    have h3 : ∑ a ∈ range g, x a * y a ≤ r * α :=
      (dot_le_sqrt g x y).trans (mul_le_mul_of_nonneg_left hy hn.le)
    have e2 : (1 - α / r) * (α / r) * r ^ 2 = (1 - α / r) * (r * α) := by field_simp
    rw [e2, ← mul_sub]
    exact mul_nonpos_of_nonneg_of_nonpos h1 (by linarith)

theorem ball_firm (g : ℕ) (x y : ℕ → ℝ) {α : ℝ} (hα : 0 ≤ α) :
    ∑ a ∈ range g, (ball g x α a - ball g y α a) ^ 2 ≤ ∑ a ∈ range g, (ball g x α a - ball g y α a) * (x a - y a) := by
  have h1 := ball_angle g x (ball g y α) hα (ball_norm g y hα)
  have h2 := ball_angle g y (ball g x α) hα (ball_norm g x hα)
  have e : ∑ a ∈ range g, (ball g x α a - ball g y α a) ^ 2 - ∑ a ∈ range g, (ball g x α a - ball g y α a) * (x a - y a)
      = ∑ a ∈ range g, (x a - ball g x α a) * (ball g y α a - ball g x α a)
        + ∑ a ∈ range g, (y a - ball g y α a) * (ball g x α a - ball g y α a) := by
    rw [← sum_sub_distrib, ← sum_add_distrib]
    exact sum_congr rfl (fun a _ => by ring)
  linarith

/-! ### the form at one point -/

theorem traction_sub (g : ℕ) (mu lam : ℝ) (n : ℕ → ℝ) (D D' E : ℕ → ℕ → ℝ)
    (h : ∀ a < g, ∀ b < g, E a b = D a b - D' a b) {a : ℕ} (ha : a < g) :
    traction g mu lam E n a = traction g mu lam D n a - traction g mu lam D' n a := by
  rw [Elasticity.traction_eq _ _ _ _ _ _ ha, Elasticity.traction_eq _ _ _ _ _ _ ha, Elasticity.traction_eq _ _ _ _ _ _ ha]
  have e1 : ∑ j ∈ range g, mu * (E j a + E a j) * n j
      = ∑ j ∈ range g, mu * (D j a + D a j) * n j - ∑ j ∈ range g, mu * (D' j a + D' a j) * n j := by
    rw [← sum_sub_distrib]
    exact sum_congr rfl (fun j hj => by rw [h _ ha _ (mem_range.mp hj), h _ (mem_range.mp hj) _ ha]; ring)
  have e2 : ∑ k ∈ range g, E k k = ∑ k ∈ range g, D k k - ∑ k ∈ range g, D' k k := by
    rw [← sum_sub_distrib]
    exact sum_congr rfl (fun j hj => h _ (mem_range.mp hj) _ (mem_range.mp hj))
  rw [e1, e2]; ring

theorem dot_sub (p : ContactPoint) {x y z : ℕ → ℝ} (h : ∀ a < p.g, z a = x a - y a) : p.dot z = p.dot x - p.dot y := by
  unfold ContactPoint.dot
  rw [← sum_sub_distrib]
  exact sum_congr rfl (fun a ha => by rw [h a (mem_range.mp ha)]; ring)

theorem tang_sub (p : ContactPoint) {x y z : ℕ → ℝ} (h : ∀ a < p.g, z a = x a - y a) {a : ℕ} (ha : a < p.g) :
    p.tang z a = p.tang x a - p.tang y a := by
  unfold ContactPoint.tang
  rw [dot_sub p h, h a ha]; ring

/-- With theta = -1 the virtual work at a point grows with the displacement. -/
theorem form_monotone (p : ContactPoint) {law : Law} (hl : law ≠ .coulomb) {gamma : ℝ} (hγ : 0 < gamma) (hh : 0 < p.h)
    (hf : law = .tresca → 0 ≤ p.fric) {J1 J2 J : ℕ → ℝ} {D1 D2 D : ℕ → ℕ → ℝ} (hJ : ∀ a < p.g, J a = J1 a - J2 a)
    (hD : ∀ a < p.g, ∀ b < p.g, D a b = D1 a b - D2 a b) :
    p.form law gamma (-1) J2 D2 J D ≤ p.form law gamma (-1) J1 D1 J D := by
  have ht : ∀ a < p.g, p.trac D a = p.trac D1 a - p.trac D2 a := fun a ha => traction_sub _ _ _ _ _ _ _ hD ha
  have hk : 0 < p.h / gamma := div_pos hh hγ
  have hki : 0 < gamma / p.h := div_pos hγ hh
  have h1 : gamma / p.h * (p.h / gamma) = 1 := by field_simp
  have e1 : p.normalPart gamma (-1) J2 D2 J D ≤ p.normalPart gamma (-1) J1 D1 J D := by
    have f := posPart_firm (p.pressure gamma J1 D1) (p.pressure gamma J2 D2)
    unfold ContactPoint.normalPart
    rw [dot_sub p hJ, dot_sub p ht]
    have ep : p.pressure gamma J1 D1 - p.pressure gamma J2 D2
        = (p.dot J1 - p.dot J2) - p.h / gamma * (p.dot (p.trac D1) - p.dot (p.trac D2)) := by
      unfold ContactPoint.pressure; ring
    rw [ep] at f
    set r1 := max 0 (p.pressure gamma J1 D1)
    set r2 := max 0 (p.pressure gamma J2 D2)
    set n := p.dot J1 - p.dot J2
    set t1 := p.dot (p.trac D1)
    set t2 := p.dot (p.trac D2)
    set k := p.h / gamma
    set ki := gamma / p.h
    have key : 0 ≤ 1 / 2 * ki * ((r1 - r2) * (n - k * (t1 - t2)) - (r1 - r2) ^ 2)
        + 1 / 2 * ki * (r1 - r2 + k * (t1 - t2)) ^ 2 := by
      have := mul_nonneg hki.le (sub_nonneg.mpr f)
      have := mul_nonneg hki.le (sq_nonneg (r1 - r2 + k * (t1 - t2)))
      linarith
    have e : (1 / 2 * ki * r1 * (n - -1 * k * (t1 - t2)) - 1 / 2 * -1 * k * t1 * (t1 - t2))
        - (1 / 2 * ki * r2 * (n - -1 * k * (t1 - t2)) - 1 / 2 * -1 * k * t2 * (t1 - t2))
        = 1 / 2 * ki * ((r1 - r2) * (n - k * (t1 - t2)) - (r1 - r2) ^ 2)
        + 1 / 2 * ki * (r1 - r2 + k * (t1 - t2)) ^ 2 := by
      linear_combination (1 / 2 * k * (t1 - t2) ^ 2) * (-h1)
    linarith
  unfold ContactPoint.form
  refine add_le_add e1 ?_
  cases law with
  | frictionless => simp
  | coulomb => exact absurd rfl hl
  | tresca =>
    simp only [reduceCtorEq, if_false]
    have f := ball_firm p.g (p.slip gamma J1 D1) (p.slip gamma J2 D2) (mul_nonneg hk.le (hf rfl))
    unfold ContactPoint.frictionPart
    simp only [ContactPoint.projected]
    set r1 := ball p.g (p.slip gamma J1 D1) (p.h / gamma * p.fric)
    set r2 := ball p.g (p.slip gamma J2 D2) (p.h / gamma * p.fric)
    set t1 := p.tang (p.trac D1) with ht1
    set t2 := p.tang (p.trac D2) with ht2
    set k := p.h / gamma
    set ki := gamma / p.h
    have key : 0 ≤ 1 / 2 * ki * (∑ a ∈ range p.g, (r1 a - r2 a) * (p.slip gamma J1 D1 a - p.slip gamma J2 D2 a)
        - ∑ a ∈ range p.g, (r1 a - r2 a) ^ 2)
        + 1 / 2 * ki * ∑ a ∈ range p.g, (r1 a - r2 a + k * (t1 a - t2 a)) ^ 2 := by
      have := mul_nonneg hki.le (sub_nonneg.mpr f)
      have := mul_nonneg hki.le (sum_nonneg (fun a (_ : a ∈ range p.g) => sq_nonneg (r1 a - r2 a + k * (t1 a - t2 a))))
      linarith
    have e : (1 / 2 * ki * ∑ a ∈ range p.g, r1 a * (p.tang J a - -1 * k * p.tang (p.trac D) a)
          - 1 / 2 * -1 * k * ∑ a ∈ range p.g, t1 a * p.tang (p.trac D) a)
        - (1 / 2 * ki * ∑ a ∈ range p.g, r2 a * (p.tang J a - -1 * k * p.tang (p.trac D) a)
          - 1 / 2 * -1 * k * ∑ a ∈ range p.g, t2 a * p.tang (p.trac D) a)
        = 1 / 2 * ki * (∑ a ∈ range p.g, (r1 a - r2 a) * (p.slip gamma J1 D1 a - p.slip gamma J2 D2 a)
        - ∑ a ∈ range p.g, (r1 a - r2 a) ^ 2)
        + 1 / 2 * ki * ∑ a ∈ range p.g, (r1 a - r2 a + k * (t1 a - t2 a)) ^ 2 := by
      simp only [mul_sum, ← sum_sub_distrib, ← sum_add_distrib]
      refine sum_congr rfl (fun a ha => ?_)
      rw [tang_sub p hJ (mem_range.mp ha), tang_sub p ht (mem_range.mp ha)]
      simp only [ContactPoint.slip, ← ht1, ← ht2]
      linear_combination (1 / 2 * k * (t1 a - t2 a) ^ 2) * (-h1)
    linarith

/-! ### C122 -/

theorem valueAt_sub (cell f : ℕ) (u w : ℕ → ℝ) (q a : ℕ) :
    valueAt Y cell f (fun d => u d - w d) q a = valueAt Y cell f u q a - valueAt Y cell f w q a := by
  unfold valueAt
  rw [← sum_sub_distrib]
  exact sum_congr rfl (fun _ _ => by ring)

theorem gradAt_sub (cell f : ℕ) (u w : ℕ → ℝ) (q a b : ℕ) :
    gradAt Y cell f (fun d => u d - w d) q a b = gradAt Y cell f u q a b - gradAt Y cell f w q a b := by
  unfold gradAt
  rw [← sum_sub_distrib]
  exact sum_congr rfl (fun _ _ => by ring)

theorem oppositeAt_sub (g : G) (i e : ℕ) (u w : ℕ → ℝ) (q a : ℕ) :
    oppositeAt Y g i e (fun d => u d - w d) q a = oppositeAt Y g i e u q a - oppositeAt Y g i e w q a := by
  unfold oppositeAt
  rw [← sum_sub_distrib]
  exact sum_congr rfl (fun _ _ => by ring)

/-- C122: without friction and with Tresca friction, for theta = -1 and every positive gamma, the assembled
contact vector is a monotone function of the displacement: between any two displacements, whatever their contact
status, the difference of the contact forces works against the difference of the displacements. -/
theorem C122_monotone (hY : System.Valid Y) (ops : List (Op G)) (hops : ∀ op ∈ ops, OpShaped Y.static op) (g : G)
    (law : Law) (hlaw : lastLaw ops none = some law) (hl : law ≠ .coulomb)
    (gamma : ℝ) (hγ : 0 < gamma) (hconsts : lastConsts ops none = some (gamma, -1))
    (s : State G) (hs : s = history Y.static ops (init Y.static g)) (hc : s.coeffs ≠ none)
    (hT : law = .tresca → (Y.gdim = 2 ∨ Y.gdim = 3)
      ∧ ∀ i < Y.numPairs, ∀ e < Y.localFacets i, 0 ≤ ((Tracked.new g).history ops).fric i e 0)
    (hh : ∀ i < Y.numPairs, ∀ e < Y.localFacets i, 0 < ((Tracked.new g).history ops).h i e 0)
    (hwt : ∀ i < Y.numPairs, ∀ p ∈ Y.facets i, ∀ q < Y.nq, 0 ≤ weightAt Y p.1 p.2 q)
    (N : ℕ) (hN : DofsBelow Y N) (u1 u2 : ℕ → ℝ) :
    ∃ (s1 s2 : State G) (b1 b2 : Arr ℕ),
      updateContactData Y.static (Y.du u1) s = .ok s1 ∧ Y.assembleVector s1 0 = .ok b1
      ∧ updateContactData Y.static (Y.du u2) s = .ok s2 ∧ Y.assembleVector s2 0 = .ok b2
      ∧ 0 ≤ ∑ d ∈ range N, (b1 d - b2 d) * (u1 d - u2 d) := by
  have h23 : law ≠ .frictionless → Y.gdim = 2 ∨ Y.gdim = 3 := by
    intro h
    cases law with
    | frictionless => exact absurd rfl h
    | coulomb => exact absurd rfl hl
    | tresca => exact (hT rfl).1
  obtain ⟨s1, b1, h1, h2, h3⟩ := C114_form hY ops hops g law hlaw h23 gamma (-1) hconsts s hs hc N hN u1
    (fun d => u1 d - u2 d)
  obtain ⟨s2, b2, h4, h5, h6⟩ := C114_form hY ops hops g law hlaw h23 gamma (-1) hconsts s hs hc N hN u2
    (fun d => u1 d - u2 d)
  refine ⟨s1, s2, b1, b2, h1, h2, h4, h5, ?_⟩
  simp only [sub_mul, sum_sub_distrib]
  rw [h3, h6, sub_nonneg]
  unfold contactForm
  refine sum_le_sum (fun i hi => sum_le_sum (fun e he => ?_))
  have hi' := mem_range.mp hi
  have he' := mem_range.mp he
  have hel : e < (Y.facets i).length := lt_of_lt_of_le he' (hY.loc i hi')
  rw [List.getElem?_eq_getElem hel]
  refine sum_le_sum (fun q hq => ?_)
  split
  · refine mul_le_mul_of_nonneg_left ?_ (hwt i hi' _ (List.getElem_mem hel) q (mem_range.mp hq))
    refine form_monotone _ hl hγ (hh i hi' e he') (fun h => (hT h).2 i hi' e he') (fun a ha => ?_) (fun a ha b hb => ?_)
    · unfold jumpAt
      rw [valueAt_sub, oppositeAt_sub]; ring
    · rw [gradAt_sub]; ring
  · exact le_refl _

/-- The hypotheses of C122 hold for the example with Tresca friction. -/
example : System.Valid exY ∧ (∀ op ∈ exSysOpsT (-1), OpShaped exY.static op)
    ∧ lastLaw (exSysOpsT (-1)) none = some .tresca ∧ lastConsts (exSysOpsT (-1)) none = some (10, -1)
    ∧ (history exY.static (exSysOpsT (-1)) (init exY.static ())).coeffs ≠ none ∧ exY.gdim = 2
    ∧ (∀ i < exY.numPairs, ∀ e < exY.localFacets i, 0 ≤ ((Tracked.new ()).history (exSysOpsT (-1))).fric i e 0)
    ∧ (∀ i < exY.numPairs, ∀ e < exY.localFacets i, 0 < ((Tracked.new ()).history (exSysOpsT (-1))).h i e 0)
    ∧ (∀ i < exY.numPairs, ∀ p ∈ exY.facets i, ∀ q < exY.nq, 0 ≤ weightAt exY p.1 p.2 q)
    ∧ DofsBelow exY 4 := by
  have hsh : ∀ op ∈ exSysOpsT (-1), OpShaped exY.static op := by
    simp [exSysOpsT, OpShaped, ScalarShaped, System.static, exY]
  refine ⟨exY_valid, hsh, rfl, rfl, ?_, rfl, ?_, ?_, ?_, ?_⟩
  · rcases C38_size (static_shaped exY_valid) _ hsh () with ⟨h, -⟩ | ⟨-, cs, h, -⟩
    · simp [exSysOpsT, Tracked.history, Tracked.call] at h
    · rw [h]; simp
  · intro i hi e he
    simp [exSysOpsT, Tracked.history, Tracked.call, vals]
  · intro i hi e he
    simp [exSysOpsT, Tracked.history, Tracked.call, vals]
  · intro i hi p hp q hq
    simp [exY, weightAt]
  · refine ⟨?_, ?_⟩ <;> simp [exY]

end

end Verif.ContactProblem
