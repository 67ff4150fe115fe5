import Verif.Spec.OneSidedDriver
import Verif.Spec.OneSidedWellPosed
import Verif.Lemmas.Elasticity
import Verif.Lemmas.Zarantonello
import Mathlib.Analysis.Calculus.Deriv.Add
import Mathlib.Analysis.Calculus.Deriv.Mul
import Mathlib.Tactic.LinearCombination
import Mathlib.Tactic.FieldSimp

/-!
Nitsche's form for a rigid obstacle as a function of the displacement: linear parts, derivative, lower bounds.
-/

namespace Verif.OneSidedDriver

open Verif.ContactProblem Verif.Spec Verif.Lemmas Finset

noncomputable section

/-! ### one point -/

section Point

variable {p : ObstaclePoint}

theorem dot_lin {x y z : ℕ → ℝ} {s : ℝ} (h : ∀ a < p.g, z a = x a + s * y a) : p.dot z = p.dot x + s * p.dot y := by
  unfold ObstaclePoint.dot
  rw [mul_sum, ← sum_add_distrib]
  exact sum_congr rfl (fun a ha => by rw [h a (mem_range.mp ha)]; ring)

theorem stress_lin {D E F : ℕ → ℕ → ℝ} {s : ℝ} (h : ∀ a < p.g, ∀ b < p.g, F a b = D a b + s * E a b) :
    p.stress F = p.stress D + s * p.stress E := by
  refine dot_lin (fun a ha => ?_)
  rw [Elasticity.traction_eq _ _ _ _ _ _ ha, Elasticity.traction_eq _ _ _ _ _ _ ha, Elasticity.traction_eq _ _ _ _ _ _ ha]
  have e1 : ∑ j ∈ range p.g, p.mu * (F j a + F a j) * p.nPhys j
      = ∑ j ∈ range p.g, p.mu * (D j a + D a j) * p.nPhys j + s * ∑ j ∈ range p.g, p.mu * (E j a + E a j) * p.nPhys j := by
    rw [mul_sum, ← sum_add_distrib]
    exact sum_congr rfl (fun j hj => by rw [h _ ha _ (mem_range.mp hj), h _ (mem_range.mp hj) _ ha]; ring)
  have e2 : ∑ k ∈ range p.g, F k k = ∑ k ∈ range p.g, D k k + s * ∑ k ∈ range p.g, E k k := by
    rw [mul_sum, ← sum_add_distrib]
    exact sum_congr rfl (fun j hj => h _ (mem_range.mp hj) _ (mem_range.mp hj))
  rw [e1, e2]; ring

theorem switch_lin {gamma : ℝ} {U W Z : ℕ → ℝ} {D E F : ℕ → ℕ → ℝ} {s : ℝ} (hU : ∀ a < p.g, Z a = U a + s * W a)
    (hD : ∀ a < p.g, ∀ b < p.g, F a b = D a b + s * E a b) :
    p.switch gamma Z F = p.switch gamma U D + s * (p.h / gamma * p.stress E - p.dot W) := by
  unfold ObstaclePoint.switch
  rw [dot_lin hU, stress_lin hD]; ring

theorem min_deriv {f : ℝ → ℝ} {f' t : ℝ} (hf : HasDerivAt f f' t) (h0 : f t ≠ 0) :
    HasDerivAt (fun s => min 0 (f s)) (if f t < 0 then f' else 0) t := by
  rcases lt_or_gt_of_ne h0 with h | h
  · rw [if_pos h]
    refine hf.congr_of_eventuallyEq ?_
    filter_upwards [hf.continuousAt.eventually_lt continuousAt_const h] with s hs
    exact min_eq_right hs.le
  · rw [if_neg (not_lt.mpr h.le)]
    refine (hasDerivAt_const t (0 : ℝ)).congr_of_eventuallyEq ?_
    filter_upwards [continuousAt_const.eventually_lt hf.continuousAt h] with s hs
    exact min_eq_left hs.le

theorem affine_deriv (a b : ℝ) : HasDerivAt (fun s => a + s * b) b 0 := by
  simpa using ((hasDerivAt_id (0 : ℝ)).mul_const b).const_add a

theorem form_deriv {gamma theta : ℝ} {U W : ℕ → ℝ} {D E : ℕ → ℕ → ℝ} {Z : ℝ → ℕ → ℝ} {F : ℝ → ℕ → ℕ → ℝ}
    (hU : ∀ s, ∀ a < p.g, Z s a = U a + s * W a) (hD : ∀ s, ∀ a < p.g, ∀ b < p.g, F s a b = D a b + s * E a b)
    (h0 : p.switch gamma U D ≠ 0) (V : ℕ → ℝ) (D' : ℕ → ℕ → ℝ) :
    HasDerivAt (fun s => p.form gamma theta (Z s) (F s) V D') (p.tangent gamma theta U D W E V D') 0 := by
  unfold ObstaclePoint.form ObstaclePoint.tangent
  simp only [fun s => switch_lin (gamma := gamma) (hU s) (hD s), fun s => stress_lin (hD s)]
  refine HasDerivAt.fun_add ?_ ?_
  · exact ((affine_deriv _ _).const_mul _).mul_const _
  · have h := min_deriv (affine_deriv (p.switch gamma U D) (p.h / gamma * p.stress E - p.dot W)) (by simpa using h0)
    simp only [zero_mul, add_zero] at h
    exact h.mul_const _

theorem min_firm (a b : ℝ) : (min 0 a - min 0 b) ^ 2 ≤ (min 0 a - min 0 b) * (a - b) := by
  rcases le_total 0 a with ha | ha <;> rcases le_total 0 b with hb | hb <;>
    simp only [min_eq_right, min_eq_left, ha, hb] <;> nlinarith

/-- The inequality behind both lower bounds: `m` is the change of the negative part, `b` of the stress, `a` of the
normal displacement. -/
theorem obstacle_bound {ki k m b a θ : ℝ} (h1 : ki * k = 1) (hki : 0 ≤ ki) (hm : m ^ 2 ≤ m * (k * b - a)) :
    -((1 + θ) ^ 2 / 4 * (k * b ^ 2)) ≤ -θ * k * b * b + m * (θ * b - ki * a) := by
  have h2 := mul_le_mul_of_nonneg_left hm hki
  have h3 := mul_nonneg hki (sq_nonneg (m + (θ - 1) / 2 * (k * b)))
  have e : -θ * k * b * b + m * (θ * b - ki * a) + (1 + θ) ^ 2 / 4 * (k * b ^ 2)
      = (ki * (m * (k * b - a)) - ki * m ^ 2) + ki * (m + (θ - 1) / 2 * (k * b)) ^ 2 := by
    linear_combination (-(m * b) - (θ - 1) * m * b - (θ - 1) ^ 2 / 4 * k * b ^ 2) * h1
  linarith

theorem form_lower {gamma theta : ℝ} (hγ : 0 < gamma) (hh : 0 < p.h) {U1 U2 U : ℕ → ℝ} {D1 D2 D : ℕ → ℕ → ℝ}
    (hU : ∀ a < p.g, U a = U1 a - U2 a) (hD : ∀ a < p.g, ∀ b < p.g, D a b = D1 a b - D2 a b) :
    -((1 + theta) ^ 2 / (4 * gamma) * (p.h * p.stress D ^ 2))
      ≤ p.form gamma theta U1 D1 U D - p.form gamma theta U2 D2 U D := by
  have hs : p.stress D = p.stress D1 + (-1) * p.stress D2 := stress_lin (fun a ha b hb => by rw [hD a ha b hb]; ring)
  have hu : p.dot U = p.dot U1 + (-1) * p.dot U2 := dot_lin (fun a ha => by rw [hU a ha]; ring)
  have hki : 0 < gamma / p.h := div_pos hγ hh
  have h1 : gamma / p.h * (p.h / gamma) = 1 := by field_simp
  have f := min_firm (p.switch gamma U1 D1) (p.switch gamma U2 D2)
  have ef : p.switch gamma U1 D1 - p.switch gamma U2 D2 = p.h / gamma * p.stress D - p.dot U := by
    rw [hs, hu]; unfold ObstaclePoint.switch; ring
  rw [ef] at f
  refine le_trans (le_of_eq ?_) ((obstacle_bound (θ := theta) h1 hki.le f).trans_eq ?_)
  · field_simp
  · unfold ObstaclePoint.form
    linear_combination (-theta * (p.h / gamma) * p.stress D) * hs

theorem tangent_lower {gamma theta : ℝ} (hγ : 0 < gamma) (hh : 0 < p.h) (U W : ℕ → ℝ) (D E : ℕ → ℕ → ℝ) :
    -((1 + theta) ^ 2 / (4 * gamma) * (p.h * p.stress E ^ 2)) ≤ p.tangent gamma theta U D W E W E := by
  have hki : 0 < gamma / p.h := div_pos hγ hh
  have h1 : gamma / p.h * (p.h / gamma) = 1 := by field_simp
  have f : (if p.switch gamma U D < 0 then p.h / gamma * p.stress E - p.dot W else 0) ^ 2
      ≤ (if p.switch gamma U D < 0 then p.h / gamma * p.stress E - p.dot W else 0) * (p.h / gamma * p.stress E - p.dot W) := by
    split <;> nlinarith
  refine le_trans (le_of_eq ?_) ((obstacle_bound (θ := theta) h1 hki.le f).trans_eq ?_)
  · field_simp
  · unfold ObstaclePoint.tangent; ring

theorem _root_.Verif.Lemmas.Lip.negPart {X : Type*} [PseudoMetricSpace X] {f : X → ℝ} (hf : Lip f) : Lip (fun x => min 0 (f x)) := by
  obtain ⟨C, hC⟩ := hf
  refine ⟨C, fun x y => (?_ : _ ≤ |f x - f y|).trans (hC x y)⟩
  have := abs_min_sub_min_le_max 0 (f x) 0 (f y)
  simpa using this

theorem form_lip {X : Type*} [PseudoMetricSpace X] {Z : X → ℕ → ℝ} {F : X → ℕ → ℕ → ℝ} (gamma theta : ℝ)
    (hZ : ∀ a, Lip (fun s => Z s a)) (hF : ∀ a b, Lip (fun s => F s a b)) (V : ℕ → ℝ) (D' : ℕ → ℕ → ℝ) :
    Lip (fun s => p.form gamma theta (Z s) (F s) V D') := by
  have ht : Lip (fun s => p.stress (F s)) := by
    unfold ObstaclePoint.stress ObstaclePoint.dot
    refine Lip.sum _ (fun a ha => Lip.mul_const ?_ _)
    simp only [Elasticity.traction_eq _ _ _ _ _ _ (mem_range.mp ha)]
    refine Lip.add ?_ ?_
    · exact Lip.sum _ (fun j _ => (((hF j a).add (hF a j)).const_mul _).mul_const _)
    · exact ((Lip.sum _ (fun j _ => hF j j)).const_mul _).mul_const _
  have hd : Lip (fun s => p.dot (Z s)) := Lip.sum _ (fun a _ => (hZ a).mul_const _)
  unfold ObstaclePoint.form ObstaclePoint.switch
  exact ((ht.const_mul _).mul_const _).add (((ht.const_mul _).add ((Lip.const _).sub hd)).negPart.mul_const _)

end Point

/-! ### sums over the surface -/

variable {G : Type} {Y : System G}

theorem value_line (cell f : ℕ) (u w : ℕ → ℝ) (q a : ℕ) (s : ℝ) :
    valueAt Y cell f (fun d => u d + s * w d) q a = valueAt Y cell f u q a + s * valueAt Y cell f w q a := by
  unfold valueAt
  rw [mul_sum, ← sum_add_distrib]
  exact sum_congr rfl (fun k _ => by ring)

theorem grad_line (cell f : ℕ) (u w : ℕ → ℝ) (q a b : ℕ) (s : ℝ) :
    gradAt Y cell f (fun d => u d + s * w d) q a b = gradAt Y cell f u q a b + s * gradAt Y cell f w q a b := by
  unfold gradAt
  rw [mul_sum, ← sum_add_distrib]
  exact sum_congr rfl (fun k _ => by ring)

theorem overSurface_sub (F F' : ℕ → ℕ → ℕ → ℕ → ℝ) :
    overSurface Y (fun e c f q => F e c f q - F' e c f q) = overSurface Y F - overSurface Y F' := by
  unfold overSurface
  rw [← sum_sub_distrib]
  refine sum_congr rfl (fun e _ => ?_)
  cases (Y.facets 0)[e]? with
  | none => simp
  | some p => simp only [Option.elim_some]; rw [← sum_sub_distrib]; exact sum_congr rfl (fun q _ => by ring)

theorem overSurface_mul (c : ℝ) (F : ℕ → ℕ → ℕ → ℕ → ℝ) :
    overSurface Y (fun e cell f q => c * F e cell f q) = c * overSurface Y F := by
  unfold overSurface
  rw [mul_sum]
  refine sum_congr rfl (fun e _ => ?_)
  cases (Y.facets 0)[e]? with
  | none => simp
  | some p => simp only [Option.elim_some]; rw [mul_sum]; exact sum_congr rfl (fun q _ => by ring)

/-- Areas are not negative. -/
def Weighted (Y : System G) : Prop := ∀ p ∈ Y.facets 0, ∀ q < Y.nq, 0 ≤ Y.weights p.2 q

theorem overSurface_le (hw : Weighted Y) {F F' : ℕ → ℕ → ℕ → ℕ → ℝ}
    (h : ∀ e < Y.localFacets 0, ∀ cell f, (Y.facets 0)[e]? = some (cell, f) → ∀ q < Y.nq, F e cell f q ≤ F' e cell f q) :
    overSurface Y F ≤ overSurface Y F' := by
  unfold overSurface
  refine sum_le_sum (fun e he => ?_)
  cases hp : (Y.facets 0)[e]? with
  | none => simp
  | some p =>
    simp only [Option.elim_some]
    refine sum_le_sum (fun q hq => mul_le_mul_of_nonneg_left (h e (mem_range.mp he) p.1 p.2 hp q (mem_range.mp hq)) ?_)
    exact mul_nonneg (hw p (List.mem_of_getElem? hp) q (mem_range.mp hq)) (abs_nonneg _)

theorem overSurface_congr {F F' : ℕ → ℕ → ℕ → ℕ → ℝ}
    (h : ∀ e < Y.localFacets 0, ∀ cell f, (Y.facets 0)[e]? = some (cell, f) → ∀ q < Y.nq, F e cell f q = F' e cell f q) :
    overSurface Y F = overSurface Y F' := by
  unfold overSurface
  refine sum_congr rfl (fun e he => ?_)
  cases hp : (Y.facets 0)[e]? with
  | none => simp
  | some p =>
    simp only [Option.elim_some]
    exact sum_congr rfl (fun q hq => by rw [h e (mem_range.mp he) p.1 p.2 hp q (mem_range.mp hq)])

variable {pt : ℕ → ℕ → ℕ → ℕ → ObstaclePoint}

theorem obstacleForm_deriv (gamma theta : ℝ) (u w v : ℕ → ℝ) (h : NotSwitching Y pt gamma u) :
    HasDerivAt (fun s => obstacleForm Y pt gamma theta (fun d => u d + s * w d) v)
      (obstacleTangent Y pt gamma theta u w v) 0 := by
  unfold obstacleForm obstacleTangent overSurface
  refine HasDerivAt.fun_sum (fun e he => ?_)
  cases hp : (Y.facets 0)[e]? with
  | none => exact hasDerivAt_const _ _
  | some p =>
    simp only [Option.elim_some]
    refine HasDerivAt.fun_sum (fun q hq => HasDerivAt.const_mul _ ?_)
    exact form_deriv (fun s a _ => value_line _ _ u w q a s) (fun s a _ b _ => grad_line _ _ u w q a b s)
      (h e (mem_range.mp he) p.1 p.2 hp q (mem_range.mp hq)) _ _

/-- Sizes of the points are positive. -/
def Sized (Y : System G) (pt : ℕ → ℕ → ℕ → ℕ → ObstaclePoint) : Prop :=
  ∀ e < Y.localFacets 0, ∀ cell f, (Y.facets 0)[e]? = some (cell, f) → ∀ q < Y.nq, 0 < (pt e cell f q).h

theorem overSurface_bound {gamma theta : ℝ} (v : ℕ → ℝ) :
    -((1 + theta) ^ 2 / (4 * gamma) * stressSquare Y pt v)
      = overSurface Y (fun e cell f q => -((1 + theta) ^ 2 / (4 * gamma) * ((pt e cell f q).h
          * (pt e cell f q).stress (gradAt Y cell f v q) ^ 2))) := by
  unfold stressSquare
  rw [← neg_mul, ← overSurface_mul]
  exact overSurface_congr (fun e _ cell f _ q _ => by ring)

theorem obstacleForm_lower (hw : Weighted Y) (hs : Sized Y pt) {gamma : ℝ} (hγ : 0 < gamma) (theta : ℝ) (u1 u2 : ℕ → ℝ) :
    -((1 + theta) ^ 2 / (4 * gamma) * stressSquare Y pt (fun d => u1 d - u2 d))
      ≤ obstacleForm Y pt gamma theta u1 (fun d => u1 d - u2 d) - obstacleForm Y pt gamma theta u2 (fun d => u1 d - u2 d) := by
  have e0 : (fun d => u1 d - u2 d) = fun d => u1 d + (-1) * u2 d := by funext d; ring
  rw [overSurface_bound]
  unfold obstacleForm
  rw [← overSurface_sub]
  refine overSurface_le hw (fun e he cell f hp q hq => form_lower hγ (hs e he cell f hp q hq) (fun a _ => ?_) (fun a _ b _ => ?_))
  · rw [e0, value_line]; ring
  · rw [e0, grad_line]; ring

theorem obstacleTangent_lower (hw : Weighted Y) (hs : Sized Y pt) {gamma : ℝ} (hγ : 0 < gamma) (theta : ℝ) (u w : ℕ → ℝ) :
    -((1 + theta) ^ 2 / (4 * gamma) * stressSquare Y pt w) ≤ obstacleTangent Y pt gamma theta u w w := by
  rw [overSurface_bound]
  unfold obstacleTangent
  exact overSurface_le hw (fun e he cell f hp q hq => tangent_lower hγ (hs e he cell f hp q hq) _ _ _ _)

theorem obstacleForm_lip {X : Type} [PseudoMetricSpace X] {U : X → ℕ → ℝ} (hU : ∀ d, Lip (fun x => U x d)) (gamma theta : ℝ)
    (v : ℕ → ℝ) : Lip (fun x => obstacleForm Y pt gamma theta (U x) v) := by
  unfold obstacleForm overSurface
  refine Lip.sum _ (fun e _ => ?_)
  cases hp : (Y.facets 0)[e]? with
  | none => exact Lip.const _
  | some p =>
    simp only [Option.elim_some]
    refine Lip.sum _ (fun q _ => Lip.const_mul (form_lip gamma theta (fun a => ?_) (fun a b => ?_) _ _) _)
    · unfold valueAt; exact Lip.sum _ (fun k _ => (hU _).const_mul _)
    · unfold gradAt; exact Lip.sum _ (fun k _ => (hU _).const_mul _)

theorem stressSquare_smul (r : ℝ) (v : ℕ → ℝ) : stressSquare Y pt (fun d => r * v d) = r ^ 2 * stressSquare Y pt v := by
  unfold stressSquare
  rw [← overSurface_mul]
  refine overSurface_congr (fun e _ cell f _ q _ => ?_)
  have h := stress_lin (p := pt e cell f q) (D := fun _ _ => 0) (E := gradAt Y cell f v q) (s := r)
    (F := gradAt Y cell f (fun d => r * v d) q) (fun a _ b _ => by
      unfold gradAt; rw [zero_add, mul_sum]; exact sum_congr rfl (fun k _ => by ring))
  have z : (pt e cell f q).stress (fun _ _ => 0) = 0 := by
    have := stress_lin (p := pt e cell f q) (D := fun _ _ => 0) (E := fun _ _ => 0) (s := 1) (F := fun _ _ => 0) (fun a _ b _ => by ring)
    linarith
  rw [h, z]; ring

theorem stressSquare_cont {X : Type} [PseudoMetricSpace X] {U : X → ℕ → ℝ} (hU : ∀ d, Continuous (fun x => U x d)) :
    Continuous (fun x => stressSquare Y pt (U x)) := by
  have hg : ∀ cell f q a b, Continuous (fun x => gradAt Y cell f (U x) q a b) := by
    intro cell f q a b
    unfold gradAt
    exact continuous_finsetSum _ (fun k _ => (hU _).const_mul _)
  unfold stressSquare overSurface
  refine continuous_finsetSum _ (fun e _ => ?_)
  cases hp : (Y.facets 0)[e]? with
  | none => exact continuous_const
  | some p =>
    simp only [Option.elim_some]
    refine continuous_finsetSum _ (fun q _ => Continuous.const_mul (Continuous.const_mul (Continuous.pow ?_ 2) _) _)
    unfold ObstaclePoint.stress ObstaclePoint.dot
    refine continuous_finsetSum _ (fun a ha => Continuous.mul_const ?_ _)
    simp only [Elasticity.traction_eq _ _ _ _ _ _ (mem_range.mp ha)]
    refine Continuous.add ?_ ?_
    · exact continuous_finsetSum _ (fun j _ => (((hg _ _ _ j a).add (hg _ _ _ a j)).const_mul _).mul_const _)
    · exact ((continuous_finsetSum _ (fun j _ => hg _ _ _ j j)).const_mul _).mul_const _

theorem obstacle_coercive_bound {gamma theta : ℝ} {N : ℕ} {K : ℕ → ℕ → ℝ} (hK : ObstacleCoercive Y pt gamma theta N K) :
    ∃ m, 0 < m ∧ ∀ x : EuclideanSpace ℝ (range N), m * ‖x‖ ^ 2
      ≤ ∑ d ∈ range N, ∑ c ∈ range N, extend 0 x d * K d c * extend 0 x c
        - (1 + theta) ^ 2 / (4 * gamma) * stressSquare Y pt (extend 0 x) := by
  refine coercive_const _ ?_ ?_ ?_
  · have hc : ∀ d, Continuous (fun x : EuclideanSpace ℝ (range N) => extend 0 x d) := fun d => (extend_lip 0 d).continuous
    refine Continuous.sub ?_ ((stressSquare_cont hc).const_mul _)
    exact continuous_finsetSum _ (fun d _ => continuous_finsetSum _ (fun c _ => ((hc d).mul_const _).mul (hc c)))
  · intro r x
    rw [extend_smul, stressSquare_smul, mul_sub]
    congr 1
    · rw [mul_sum]
      refine sum_congr rfl (fun d _ => ?_)
      rw [mul_sum]
      exact sum_congr rfl (fun c _ => by ring)
    · ring
  · intro x hx
    have := hK (extend 0 x) (fun d hd => extend_off _ _ (by simpa using hd)) (extend_ne hx)
    linarith

/-- A residual `K u - l + contact` with a coercive stiffness matrix vanishes at exactly one displacement. -/
theorem obstacle_wellposed (hw : Weighted Y) (hs : Sized Y pt) {gamma theta : ℝ} (hγ : 0 < gamma) {N : ℕ} {K : ℕ → ℕ → ℝ}
    (hK : ObstacleCoercive Y pt gamma theta N K) (b : (ℕ → ℝ) → ℕ → ℝ)
    (hb : ∀ u v, ∑ d ∈ range N, b u d * v d = obstacleForm Y pt gamma theta u v) (l : ℕ → ℝ) :
    ∃! u : ℕ → ℝ, (∀ d, N ≤ d → u d = 0) ∧ ∀ d < N, ∑ c ∈ range N, K d c * u c - l d + b u d = 0 := by
  obtain ⟨m, hm, hmb⟩ := obstacle_coercive_bound hK
  have hF : ∀ d ∈ range N, d < N := fun d hd => mem_range.mp hd
  let A : EuclideanSpace ℝ (range N) → EuclideanSpace ℝ (range N) :=
    fun x => WithLp.toLp 2 (fun d : range N => ∑ c ∈ range N, K d c * extend 0 x c + b (extend 0 x) d)
  have hA : ∀ x y, m * ‖x - y‖ ^ 2 ≤ inner ℝ (A x - A y) (x - y) := by
    intro x y
    refine (hmb (x - y)).trans ?_
    have h1 := obstacleForm_lower hw hs hγ theta (extend 0 x) (extend 0 y)
    rw [extend_sub, ← hb, ← hb, ← sum_sub_distrib] at h1
    have e0 : A x - A y = WithLp.toLp 2 (fun d : range N => (∑ c ∈ range N, K d c * extend 0 x c + b (extend 0 x) d)
        - (∑ c ∈ range N, K d c * extend 0 y c + b (extend 0 y) d)) := rfl
    rw [e0, inner_extend hF (fun d => (∑ c ∈ range N, K d c * extend 0 x c + b (extend 0 x) d)
        - (∑ c ∈ range N, K d c * extend 0 y c + b (extend 0 y) d))]
    have e : ∑ d ∈ range N, ((∑ c ∈ range N, K d c * extend 0 x c + b (extend 0 x) d)
          - (∑ c ∈ range N, K d c * extend 0 y c + b (extend 0 y) d)) * extend 0 (x - y) d
        = ∑ d ∈ range N, ∑ c ∈ range N, extend 0 (x - y) d * K d c * extend 0 (x - y) c
          + ∑ d ∈ range N, (b (extend 0 x) d * extend 0 (x - y) d - b (extend 0 y) d * extend 0 (x - y) d) := by
      rw [← sum_add_distrib]
      refine sum_congr rfl (fun d _ => ?_)
      have e2 : ∑ c ∈ range N, extend 0 (x - y) d * K d c * extend 0 (x - y) c
          = (∑ c ∈ range N, K d c * extend 0 x c - ∑ c ∈ range N, K d c * extend 0 y c) * extend 0 (x - y) d := by
        rw [← sum_sub_distrib, sum_mul]
        refine sum_congr rfl (fun c _ => ?_)
        rw [← congrFun (extend_sub 0 x y) c]
        ring
      rw [e2]
      ring
    rw [e]
    linarith
  have hbd : ∀ u, ∀ d < N, b u d = obstacleForm Y pt gamma theta u (fun c => if c = d then 1 else 0) := by
    intro u d hd
    rw [← hb]
    simp [hd]
  have hcomp : ∀ d : range N, Lip (fun x => A x d) := by
    intro d
    show Lip (fun x : EuclideanSpace ℝ (range N) => ∑ c ∈ range N, K d c * extend 0 x c + b (extend 0 x) d)
    refine Lip.add (Lip.sum _ (fun c _ => (extend_lip 0 c).const_mul _)) ?_
    simp only [hbd _ _ (hF d d.2)]
    exact obstacleForm_lip (extend_lip 0) _ _ _
  obtain ⟨L, hL⟩ := Lip.vector hcomp
  obtain ⟨x, hx⟩ := zarantonello A hm hA (fun x y => by rw [← dist_eq_norm x y]; exact hL x y)
    (WithLp.toLp 2 (fun d : range N => l d))
  have hsol : ∀ d : range N, ∑ c ∈ range N, K d c * extend 0 x c + b (extend 0 x) d = l d :=
    fun d => congrFun (congrArg (WithLp.ofLp) hx) d
  refine ⟨extend 0 x, ⟨fun d hd => extend_off 0 x (by simpa using hd), fun d hd => ?_⟩, ?_⟩
  · have := hsol ⟨d, mem_range.mpr hd⟩
    simp only at this
    linarith
  · rintro u ⟨hu0, h3⟩
    obtain ⟨y, rfl⟩ := extend_of (F := range N) 0 u (fun d hd => hu0 d (by simpa using hd))
    have hAy : A y = A x := by
      ext d
      show ∑ c ∈ range N, K d c * extend 0 y c + b (extend 0 y) d = ∑ c ∈ range N, K d c * extend 0 x c + b (extend 0 x) d
      rw [hsol d]
      have := h3 d (hF d d.2)
      linarith
    have h6 := hA y x
    rw [hAy, sub_self, inner_zero_left] at h6
    have h7 : ‖y - x‖ ^ 2 ≤ 0 := by
      by_contra h
      push Not at h
      have := mul_pos hm h
      linarith
    have h8 : y - x = 0 := norm_eq_zero.mp (pow_eq_zero_iff two_ne_zero |>.mp (le_antisymm h7 (sq_nonneg _)))
    rw [sub_eq_zero.mp h8]

end

end Verif.OneSidedDriver
