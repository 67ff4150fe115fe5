import Verif.Props.CoulombWellPosed
import Verif.Spec.GapStability

/-!
C217: the solution of the assembled contact problem depends on the gap Lipschitz continuously.
-/

namespace Verif.ContactProblem

open Verif.Spec Verif.Packing Verif.Assembly Verif.Kernels Verif.Lemmas Finset

noncomputable section

variable {G : Type} {Y : System G}

/-- What bounds the change of the form of a point, per unit of change of the normal gap. -/
def gapWork (p : ContactPoint) (gamma theta : ℝ) (J' : ℕ → ℝ) (D' : ℕ → ℕ → ℝ) : ℝ :=
  1 / 2 * (gamma / p.h) * (|p.dot J' - theta * (p.h / gamma) * p.dot (p.trac D')|
    + (vecLength p.g (p.tang p.oldNormal) + p.fric)
      * ∑ a ∈ range p.g, |p.tang J' a - theta * (p.h / gamma) * p.tang (p.trac D') a|)

theorem vecLength_le_sum (g : ℕ) (x : ℕ → ℝ) : vecLength g x ≤ ∑ a ∈ range g, |x a| := by
  have := sum_sq_le_sq_sum_of_nonneg (s := range g) (f := fun b => |x b|) (fun b _ => abs_nonneg _)
  simp only [sq_abs] at this
  exact (Real.sqrt_le_sqrt this).trans_eq (Real.sqrt_sq (sum_nonneg (fun _ _ => abs_nonneg _)))

theorem posPart_sub (a b : ℝ) : |max 0 a - max 0 b| ≤ |a - b| := by
  have := abs_max_sub_max_le_abs a b 0
  simpa only [max_comm] using this

theorem vecLength_triangle (g : ℕ) (x y : ℕ → ℝ) : vecLength g (fun a => x a + y a) ≤ vecLength g x + vecLength g y := by
  refine le_of_sq_le_sq ?_ (add_nonneg (vecLength_nonneg _ _) (vecLength_nonneg _ _))
  rw [← vecLength_sq, add_sq, ← vecLength_sq, ← vecLength_sq]
  have h := dot_vecLength g x y
  have e : ∑ a ∈ range g, (x a + y a) ^ 2
      = ∑ a ∈ range g, x a ^ 2 + 2 * ∑ a ∈ range g, x a * y a + ∑ a ∈ range g, y a ^ 2 := by
    rw [mul_sum, ← sum_add_distrib, ← sum_add_distrib]
    exact sum_congr rfl (fun a _ => by ring)
  rw [e]
  linarith

/-- The projected slips for two gaps. -/
theorem projected_gap (p : ContactPoint) (gap : ℕ → ℝ) (hf : 0 ≤ p.fric) (gamma : ℝ) (J : ℕ → ℝ) (D : ℕ → ℕ → ℝ) :
    vecLength p.g (fun a => ({ p with gap := gap } : ContactPoint).projected .coulomb gamma J D a
        - p.projected .coulomb gamma J D a)
      ≤ |p.dot gap - p.dot p.gap| * (vecLength p.g (p.tang p.oldNormal) + p.fric) := by
  set x1 : ℕ → ℝ := fun a => p.slip gamma J D a - (p.dot gap - p.dot J) * p.tang p.oldNormal a with hx1
  set x2 : ℕ → ℝ := fun a => p.slip gamma J D a - (p.dot p.gap - p.dot J) * p.tang p.oldNormal a with hx2
  set P1 : ℝ := p.dot J - p.dot gap - p.h / gamma * p.dot (p.trac D) with hP1
  set P2 : ℝ := p.pressure gamma J D with hP2
  have r1 : 0 ≤ p.fric * max 0 P1 := mul_nonneg hf (le_max_left _ _)
  have r2 : 0 ≤ p.fric * max 0 P2 := mul_nonneg hf (le_max_left _ _)
  show vecLength p.g (fun a => ball p.g x1 (p.fric * max 0 P1) a - ball p.g x2 (p.fric * max 0 P2) a) ≤ _
  have h1 := ball_nonexpansive p.g x1 x2 r1
  have h2 := ball_radius p.g x2 r1 r2
  have h3 := vecLength_triangle p.g (fun b => ball p.g x1 (p.fric * max 0 P1) b - ball p.g x2 (p.fric * max 0 P1) b)
    (fun b => ball p.g x2 (p.fric * max 0 P1) b - ball p.g x2 (p.fric * max 0 P2) b)
  simp only [sub_add_sub_cancel] at h3
  have h4 : vecLength p.g (fun b => x1 b - x2 b) = |p.dot gap - p.dot p.gap| * vecLength p.g (p.tang p.oldNormal) := by
    rw [abs_sub_comm, ← vecLength_smul]
    refine vecLength_congr (fun a _ => ?_)
    rw [hx1, hx2]
    ring
  have h5 : |p.fric * max 0 P1 - p.fric * max 0 P2| ≤ |p.dot gap - p.dot p.gap| * p.fric := by
    rw [← mul_sub, abs_mul, abs_of_nonneg hf, mul_comm]
    refine mul_le_mul_of_nonneg_right ((posPart_sub P1 P2).trans (le_of_eq ?_)) hf
    rw [abs_sub_comm]
    congr 1
    rw [hP1, hP2]
    unfold ContactPoint.pressure
    ring
  rw [mul_add, ← h4]
  linarith

/-- The form of a point for two gaps. -/
theorem form_gap (p : ContactPoint) (gap : ℕ → ℝ) (law : Law) {gamma : ℝ} (hγ : 0 < gamma) (hh : 0 < p.h)
    (hf : 0 ≤ p.fric) (theta : ℝ) (J : ℕ → ℝ) (D : ℕ → ℕ → ℝ) (J' : ℕ → ℝ) (D' : ℕ → ℕ → ℝ) :
    |({ p with gap := gap } : ContactPoint).form law gamma theta J D J' D' - p.form law gamma theta J D J' D'|
      ≤ |p.dot gap - p.dot p.gap| * gapWork p gamma theta J' D' := by
  have hk : 0 ≤ 1 / 2 * (gamma / p.h) := by positivity
  have hS : 0 ≤ ∑ a ∈ range p.g, |p.tang J' a - theta * (p.h / gamma) * p.tang (p.trac D') a| :=
    sum_nonneg (fun _ _ => abs_nonneg _)
  have hN : |({ p with gap := gap } : ContactPoint).normalPart gamma theta J D J' D' - p.normalPart gamma theta J D J' D'|
      ≤ |p.dot gap - p.dot p.gap| * (1 / 2 * (gamma / p.h) * |p.dot J' - theta * (p.h / gamma) * p.dot (p.trac D')|) := by
    have e : ({ p with gap := gap } : ContactPoint).normalPart gamma theta J D J' D' - p.normalPart gamma theta J D J' D'
        = 1 / 2 * (gamma / p.h) * (max 0 (p.dot J - p.dot gap - p.h / gamma * p.dot (p.trac D)) - max 0 (p.pressure gamma J D))
          * (p.dot J' - theta * (p.h / gamma) * p.dot (p.trac D')) := by
      have : ({ p with gap := gap } : ContactPoint).normalPart gamma theta J D J' D'
          = 1 / 2 * (gamma / p.h) * max 0 (p.dot J - p.dot gap - p.h / gamma * p.dot (p.trac D))
            * (p.dot J' - theta * (p.h / gamma) * p.dot (p.trac D'))
            - 1 / 2 * theta * (p.h / gamma) * p.dot (p.trac D) * p.dot (p.trac D') := rfl
      rw [this]
      unfold ContactPoint.normalPart
      ring
    rw [e, abs_mul, abs_mul, abs_of_nonneg hk]
    have h1 := posPart_sub (p.dot J - p.dot gap - p.h / gamma * p.dot (p.trac D)) (p.pressure gamma J D)
    have e2 : p.dot J - p.dot gap - p.h / gamma * p.dot (p.trac D) - p.pressure gamma J D = -(p.dot gap - p.dot p.gap) := by
      unfold ContactPoint.pressure
      ring
    rw [e2, abs_neg] at h1
    have h2 := mul_le_mul_of_nonneg_left h1 (mul_nonneg hk (abs_nonneg (p.dot J' - theta * (p.h / gamma) * p.dot (p.trac D'))))
    linarith
  have hV := vecLength_nonneg p.g (p.tang p.oldNormal)
  have hrest : 0 ≤ |p.dot gap - p.dot p.gap| * (1 / 2 * (gamma / p.h) * ((vecLength p.g (p.tang p.oldNormal) + p.fric)
      * ∑ a ∈ range p.g, |p.tang J' a - theta * (p.h / gamma) * p.tang (p.trac D') a|)) := by positivity
  unfold gapWork
  rw [mul_add, mul_add]
  cases law with
  | frictionless =>
    have e : ({ p with gap := gap } : ContactPoint).form .frictionless gamma theta J D J' D' - p.form .frictionless gamma theta J D J' D'
        = ({ p with gap := gap } : ContactPoint).normalPart gamma theta J D J' D' - p.normalPart gamma theta J D J' D' := by
      simp [ContactPoint.form]
    rw [e]
    linarith
  | tresca =>
    have e : ({ p with gap := gap } : ContactPoint).form .tresca gamma theta J D J' D' - p.form .tresca gamma theta J D J' D'
        = ({ p with gap := gap } : ContactPoint).normalPart gamma theta J D J' D' - p.normalPart gamma theta J D J' D' := by
      have h : ({ p with gap := gap } : ContactPoint).frictionPart .tresca gamma theta J D J' D'
          = p.frictionPart .tresca gamma theta J D J' D' := rfl
      unfold ContactPoint.form
      rw [h]
      ring
    rw [e]
    linarith
  | coulomb =>
    set f := fun a => ({ p with gap := gap } : ContactPoint).projected .coulomb gamma J D a
        - p.projected .coulomb gamma J D a with hfd
    set y := fun a => p.tang J' a - theta * (p.h / gamma) * p.tang (p.trac D') a with hy
    have e : ({ p with gap := gap } : ContactPoint).form .coulomb gamma theta J D J' D' - p.form .coulomb gamma theta J D J' D'
        = (({ p with gap := gap } : ContactPoint).normalPart gamma theta J D J' D' - p.normalPart gamma theta J D J' D')
          + 1 / 2 * (gamma / p.h) * ∑ a ∈ range p.g, f a * y a := by
      have h : ({ p with gap := gap } : ContactPoint).frictionPart .coulomb gamma theta J D J' D'
          = 1 / 2 * (gamma / p.h) * ∑ a ∈ range p.g, ({ p with gap := gap } : ContactPoint).projected .coulomb gamma J D a * y a
            - 1 / 2 * theta * (p.h / gamma) * ∑ a ∈ range p.g, p.tang (p.trac D) a * p.tang (p.trac D') a := rfl
      have h' : p.frictionPart .coulomb gamma theta J D J' D'
          = 1 / 2 * (gamma / p.h) * ∑ a ∈ range p.g, p.projected .coulomb gamma J D a * y a
            - 1 / 2 * theta * (p.h / gamma) * ∑ a ∈ range p.g, p.tang (p.trac D) a * p.tang (p.trac D') a := rfl
      have hs : ∑ a ∈ range p.g, f a * y a
          = ∑ a ∈ range p.g, ({ p with gap := gap } : ContactPoint).projected .coulomb gamma J D a * y a
            - ∑ a ∈ range p.g, p.projected .coulomb gamma J D a * y a := by
        rw [← sum_sub_distrib]
        exact sum_congr rfl (fun a _ => by rw [hfd]; ring)
      unfold ContactPoint.form
      rw [h, h', hs]
      simp only [reduceCtorEq, if_false]
      ring
    rw [e]
    have h1 : |∑ a ∈ range p.g, f a * y a| ≤ |p.dot gap - p.dot p.gap| * (vecLength p.g (p.tang p.oldNormal) + p.fric)
        * ∑ a ∈ range p.g, |y a| := by
      refine (abs_dot_vecLength p.g f y).trans ?_
      exact mul_le_mul (projected_gap p gap hf gamma J D) (vecLength_le_sum _ _) (vecLength_nonneg _ _) (by positivity)
    refine (abs_add_le _ _).trans (add_le_add hN ?_)
    rw [abs_mul, abs_of_nonneg hk]
    have := mul_le_mul_of_nonneg_left h1 hk
    linarith

/-- Bound for the change of the form, per unit of change of the normal gap. -/
def gapWorkSum (Y : System G) (t : Tracked G) (gamma theta : ℝ) (v : ℕ → ℝ) : ℝ :=
  ∑ i ∈ range Y.numPairs, ∑ e ∈ range (Y.localFacets i),
    ((Y.facets i)[e]?).elim 0 (fun p => ∑ q ∈ range Y.nq,
      if 0 ≤ Y.map t.cur i (e * Y.nq + q) then
        weightAt Y p.1 p.2 q * gapWork (pointAt Y t i e p.1 p.2 q) gamma theta
          (jumpAt Y t.cur i e p.1 p.2 v q) (gradAt Y p.1 p.2 v q)
      else 0)

theorem gapWork_nonneg (p : ContactPoint) {gamma : ℝ} (hγ : 0 < gamma) (hh : 0 < p.h)
    (hf : 0 ≤ p.fric) (theta : ℝ) (J' : ℕ → ℝ) (D' : ℕ → ℕ → ℝ) : 0 ≤ gapWork p gamma theta J' D' := by
  have hV := vecLength_nonneg p.g (p.tang p.oldNormal)
  have hS : 0 ≤ ∑ a ∈ range p.g, |p.tang J' a - theta * (p.h / gamma) * p.tang (p.trac D') a| :=
    sum_nonneg (fun _ _ => abs_nonneg _)
  unfold gapWork
  positivity

/-- The form for two gaps. -/
theorem contactForm_gap {t : Tracked G} (hB : CoulombBounded Y t) (law : Law) {gamma : ℝ} (hγ : 0 < gamma) (theta : ℝ)
    {gap : G → ℕ → Mat} {eps : ℝ} (hg : GapsWithin Y t gap eps) (u v : ℕ → ℝ) :
    |contactForm (withGap Y gap) t law gamma theta u v - contactForm Y t law gamma theta u v|
      ≤ eps * gapWorkSum Y t gamma theta v := by
  have e0 : contactForm (withGap Y gap) t law gamma theta u v
      = ∑ i ∈ range Y.numPairs, ∑ e ∈ range (Y.localFacets i),
    ((Y.facets i)[e]?).elim 0 (fun p => ∑ q ∈ range Y.nq,
      if 0 ≤ Y.map t.cur i (e * Y.nq + q) then
        weightAt Y p.1 p.2 q * ({ pointAt Y t i e p.1 p.2 q with gap := fun a => (gap t.cur i).v e (q * Y.gdim + a) } : ContactPoint).form law gamma theta
          (jumpAt Y t.cur i e p.1 p.2 u q)
          (fun a b => gradAt Y p.1 p.2 u q a b + (pointAt Y t i e p.1 p.2 q).grad0 a b)
          (jumpAt Y t.cur i e p.1 p.2 v q) (gradAt Y p.1 p.2 v q)
      else 0) := rfl
  rw [e0]
  unfold contactForm gapWorkSum
  rw [← sum_sub_distrib, mul_sum]
  refine (abs_sum_le_sum_abs _ _).trans (sum_le_sum (fun i hi => ?_))
  rw [← sum_sub_distrib, mul_sum]
  refine (abs_sum_le_sum_abs _ _).trans (sum_le_sum (fun e he => ?_))
  have hi' := mem_range.mp hi
  have he' := mem_range.mp he
  have hel : e < (Y.facets i).length := lt_of_lt_of_le he' (hB.loc i hi')
  rw [List.getElem?_eq_getElem hel]
  simp only [Option.elim_some]
  rw [← sum_sub_distrib, mul_sum]
  refine (abs_sum_le_sum_abs _ _).trans (sum_le_sum (fun q hq => ?_))
  by_cases hk : 0 ≤ Y.map t.cur i (e * Y.nq + q)
  · simp only [if_pos hk]
    have hw := hB.weight i hi' _ (List.getElem_mem hel) q (mem_range.mp hq)
    have hd : |(pointAt Y t i e (Y.facets i)[e].1 (Y.facets i)[e].2 q).dot (fun a => (gap t.cur i).v e (q * Y.gdim + a))
        - (pointAt Y t i e (Y.facets i)[e].1 (Y.facets i)[e].2 q).dot
          (pointAt Y t i e (Y.facets i)[e].1 (Y.facets i)[e].2 q).gap| ≤ eps := by
      refine (le_of_eq (congrArg abs ?_)).trans (hg i hi' e he' q (mem_range.mp hq) hk)
      unfold ContactPoint.dot
      rw [← sum_sub_distrib]
      exact sum_congr rfl (fun a _ => (sub_mul _ _ _).symm)
    rw [← mul_sub, abs_mul, abs_of_nonneg hw, mul_left_comm]
    refine mul_le_mul_of_nonneg_left ?_ hw
    refine (form_gap _ _ law hγ (hB.h i hi' e he') (hB.fric i hi' e he') theta _ _ _ _).trans ?_
    exact mul_le_mul_of_nonneg_right hd (gapWork_nonneg _ hγ (hB.h i hi' e he') (hB.fric i hi' e he') theta _ _)
  · simp [if_neg hk]

theorem Lip_abs {X : Type} [PseudoMetricSpace X] {f : X → ℝ} (hf : Lip f) : Lip (fun x => |f x|) :=
  Lip_bound (fun s s' => abs_abs_sub_abs_le (f s) (f s')) hf

theorem gapWorkSum_lip {X : Type} [PseudoMetricSpace X] {U : X → ℕ → ℝ} (Y : System G) (t : Tracked G) (gamma theta : ℝ)
    (hU : ∀ d, Lip (fun x => U x d)) : Lip (fun x => gapWorkSum Y t gamma theta (U x)) := by
  unfold gapWorkSum
  refine Lip.sum _ (fun i _ => Lip.sum _ (fun e _ => ?_))
  cases (Y.facets i)[e]? with
  | none => exact Lip.const _
  | some c =>
    simp only [Option.elim_some]
    refine Lip.sum _ (fun q _ => ?_)
    by_cases hk : 0 ≤ Y.map t.cur i (e * Y.nq + q)
    · simp only [if_pos hk]
      unfold gapWork
      have hJ := fun a => jumpAt_lip (Y := Y) hU t.cur i e c.1 c.2 q a
      have hD := fun a b => gradAt_lip (Y := Y) hU c.1 c.2 q a b
      refine Lip.const_mul (Lip.const_mul (Lip.add (Lip_abs ?_) (Lip.const_mul (Lip.sum _ (fun a ha => Lip_abs ?_)) _)) _) _
      · exact (dot_lip (fun a _ => hJ a)).sub (Lip.const_mul (dot_lip (fun a ha => trac_lip hD ha)) _)
      · exact (tang_lip (fun a _ => hJ a) (mem_range.mp ha)).sub
          (Lip.const_mul (tang_lip (fun a ha => trac_lip hD ha) (mem_range.mp ha)) _)
    · simp only [if_neg hk]; exact Lip.const _

theorem gapWorkSum_zero (Y : System G) (t : Tracked G) (gamma theta : ℝ) : gapWorkSum Y t gamma theta (fun _ => 0) = 0 := by
  unfold gapWorkSum
  refine sum_eq_zero (fun i _ => sum_eq_zero (fun e _ => ?_))
  cases (Y.facets i)[e]? with
  | none => rfl
  | some c =>
    simp only [Option.elim_some]
    refine sum_eq_zero (fun q _ => ?_)
    split
    · have hJ : jumpAt Y t.cur i e c.1 c.2 (fun _ => 0) q = fun _ => 0 := by
        funext a; simp [jumpAt, valueAt, oppositeAt]
      have hD : gradAt Y c.1 c.2 (fun _ => 0) q = fun _ _ => 0 := by
        funext a b; simp [gradAt]
      rw [hJ, hD]
      have hT : ∀ p : ContactPoint, ∀ a < p.g, p.trac (fun _ _ => 0) a = 0 := by
        intro p a ha
        unfold ContactPoint.trac
        rw [Elasticity.traction_eq _ _ _ _ _ _ ha]
        simp
      have hT2 : ∀ p : ContactPoint, p.dot (p.trac (fun _ _ => 0)) = 0 := fun p =>
        sum_eq_zero (fun a ha => by rw [hT p a (mem_range.mp ha), zero_mul])
      have hT3 : ∀ p : ContactPoint, ∀ a < p.g, p.tang (p.trac (fun _ _ => 0)) a = 0 := by
        intro p a ha
        unfold ContactPoint.tang
        rw [hT p a ha, hT2]
        simp
      unfold gapWork
      have hs : ∑ a ∈ range (pointAt Y t i e c.1 c.2 q).g, |(pointAt Y t i e c.1 c.2 q).tang (fun _ => 0) a
          - theta * ((pointAt Y t i e c.1 c.2 q).h / gamma)
            * (pointAt Y t i e c.1 c.2 q).tang ((pointAt Y t i e c.1 c.2 q).trac (fun _ _ => 0)) a| = 0 := by
        refine sum_eq_zero (fun a ha => ?_)
        rw [hT3 _ a (mem_range.mp ha)]
        simp [ContactPoint.tang, ContactPoint.dot]
      rw [hs, hT2]
      simp [ContactPoint.dot]
    · rfl

/-- Both laws: from the monotonicity of the residual. -/
theorem gap_stable {t : Tracked G} (hB : CoulombBounded Y t) (law : Law) {gamma : ℝ} (hγ : 0 < gamma) (theta : ℝ)
    {N : ℕ} {F : Finset ℕ} (hF : ∀ d ∈ F, d < N) {K : ℕ → ℕ → ℝ} {b : (ℕ → ℝ) → Arr ℕ}
    (hb : ∀ u v, ∑ d ∈ range N, b u d * v d = contactForm Y t law gamma theta u v) {m : ℝ} (hm : 0 < m)
    (hmono : ∀ (u0 : ℕ → ℝ) (x y : EuclideanSpace ℝ F), m * ‖x - y‖ ^ 2 ≤ inner ℝ
      (WithLp.toLp 2 (fun d : F => (∑ c ∈ range N, K d c * extend u0 x c + b (extend u0 x) d)
        - (∑ c ∈ range N, K d c * extend u0 y c + b (extend u0 y) d))) (x - y)) :
    ∃ C : ℝ, 0 ≤ C ∧ ∀ (gap : G → ℕ → Mat) (eps : ℝ) (l u1 u2 : ℕ → ℝ) (b' : (ℕ → ℝ) → Arr ℕ),
      GapsWithin Y t gap eps → 0 ≤ eps → (∀ d, d ∉ F → u1 d = u2 d) →
      (∀ u v, ∑ d ∈ range N, b' u d * v d = contactForm (withGap Y gap) t law gamma theta u v) →
      (∀ d ∈ F, ∑ c ∈ range N, K d c * u1 c - l d + b u1 d = 0) →
      (∀ d ∈ F, ∑ c ∈ range N, K d c * u2 c - l d + b' u2 d = 0) →
      ∑ d ∈ F, (u1 d - u2 d) ^ 2 ≤ (C * eps) ^ 2 := by
  obtain ⟨L, hL⟩ := gapWorkSum_lip (X := EuclideanSpace ℝ F) Y t gamma theta (extend_lip 0)
  refine ⟨max L 0 / m, div_nonneg (le_max_right _ _) hm.le, fun gap eps l u1 u2 b' hg heps hu hb' r1 r2 => ?_⟩
  obtain ⟨x, rfl⟩ := extend_of u2 u1 hu
  obtain ⟨y, hy⟩ := extend_of (F := F) u2 u2 (fun _ _ => rfl)
  have h1 := hmono u2 x y
  rw [hy] at h1
  have el : (fun d : F => (∑ c ∈ range N, K d c * extend u2 x c + b (extend u2 x) d)
      - (∑ c ∈ range N, K d c * u2 c + b u2 d)) = fun d : F => b' u2 d - b u2 d := by
    funext d
    have e1 := r1 d d.2
    have e2 := r2 d d.2
    linarith
  rw [el, inner_extend hF (fun d => b' u2 d - b u2 d)] at h1
  have e3 : ∑ d ∈ range N, (b' u2 d - b u2 d) * extend 0 (x - y) d
      = contactForm (withGap Y gap) t law gamma theta u2 (extend 0 (x - y)) - contactForm Y t law gamma theta u2 (extend 0 (x - y)) := by
    rw [← hb, ← hb', ← sum_sub_distrib]
    exact sum_congr rfl (fun d _ => by ring)
  rw [e3] at h1
  have h2 := (le_abs_self _).trans (contactForm_gap hB law hγ theta hg u2 (extend 0 (x - y)))
  have h3 : gapWorkSum Y t gamma theta (extend 0 (x - y)) ≤ max L 0 * ‖x - y‖ := by
    have h := hL (x - y) 0
    have e0 : extend (F := F) 0 0 = fun _ => 0 := by
      funext d; unfold extend; split <;> rfl
    dsimp only at h
    rw [e0, gapWorkSum_zero, sub_zero, dist_zero_right] at h
    exact (le_abs_self _).trans (h.trans (mul_le_mul_of_nonneg_right (le_max_left _ _) (norm_nonneg _)))
  have h4 := mul_le_mul_of_nonneg_left h3 heps
  have h6 : ‖x - y‖ ≤ max L 0 / m * eps := by
    rw [div_mul_eq_mul_div, le_div_iff₀ hm]
    rcases (norm_nonneg (x - y)).eq_or_lt with h | h
    · rw [← h, zero_mul]; exact mul_nonneg (le_max_right _ _) heps
    · refine le_of_mul_le_mul_right ?_ h
      have : m * ‖x - y‖ ^ 2 = ‖x - y‖ * m * ‖x - y‖ := by ring
      rw [← this]
      linarith
  have h7 := pow_le_pow_left₀ (norm_nonneg _) h6 2
  rw [EuclideanSpace.real_norm_sq_eq] at h7
  have e1 : ∑ d : F, (x - y) d ^ 2 = ∑ d ∈ F, (extend u2 x d - u2 d) ^ 2 := by
    rw [← sum_coe_sort F (fun d => (extend u2 x d - u2 d) ^ 2)]
    refine sum_congr rfl (fun d _ => ?_)
    have : u2 d = y d := by
      have := congrFun hy d
      unfold extend at this
      rw [dif_pos d.2] at this
      exact this.symm
    rw [this]
    simp [extend]
  rwa [e1] at h7

section

variable (hY : System.Valid Y) (ops : List (Op G)) (hops : ∀ op ∈ ops, OpShaped Y.static op)
  (g : G) (law : Law) (hlaw : lastLaw ops none = some law) (h23 : law ≠ .frictionless → Y.gdim = 2 ∨ Y.gdim = 3)
  (gamma theta : ℝ) (hγ : 0 < gamma) (hconsts : lastConsts ops none = some (gamma, theta))
  (s : State G) (hs : s = history Y.static ops (init Y.static g)) (hc : s.coeffs ≠ none)
  (hf : ∀ i < Y.numPairs, ∀ e < Y.localFacets i, 0 ≤ ((Tracked.new g).history ops).fric i e 0)
  (hh : ∀ i < Y.numPairs, ∀ e < Y.localFacets i, 0 < ((Tracked.new g).history ops).h i e 0)
  (hwt : ∀ i < Y.numPairs, ∀ p ∈ Y.facets i, ∀ q < Y.nq, 0 ≤ weightAt Y p.1 p.2 q)
  (N : ℕ) (hN : DofsBelow Y N) (F : Finset ℕ) (hF : ∀ d ∈ F, d < N) (K : ℕ → ℕ → ℝ)

include hY hops hlaw h23 hγ hconsts hs hc hf hh hwt hN hF

/-- C217: the solution depends on the gap Lipschitz continuously: there is a constant `C` such that, if the normal gaps
of two problems which are otherwise equal differ by at most `eps`, then their solutions for the same load and the same
values of the constrained dofs differ by at most `C eps`.  Without friction, with Tresca friction and with Coulomb
friction, under the conditions under which the problem is well posed (C143, C204). -/
theorem C217_gap
    (hK : (law ≠ .coulomb ∧ Coercive Y ((Tracked.new g).history ops) law gamma theta N F K)
      ∨ (law = .coulomb ∧ CoulombCoercive Y ((Tracked.new g).history ops) gamma theta N F K)) :
    ∃ C : ℝ, 0 ≤ C ∧ ∀ (gap : G → ℕ → Mat) (eps : ℝ) (s' : State G),
      (∀ g, ∀ i < Y.numPairs, (gap g i).rows = Y.localFacets i ∧ (gap g i).cols = Y.nq * Y.gdim) →
      GapsWithin Y ((Tracked.new g).history ops) gap eps → 0 ≤ eps →
      s' = history (withGap Y gap).static ops (init (withGap Y gap).static g) →
      ∀ (l u1 u2 : ℕ → ℝ) (s1 s2 : State G) (b1 b2 : Arr ℕ),
      (∀ d, d ∉ F → u1 d = u2 d) →
      updateContactData Y.static (Y.du u1) s = .ok s1 → Y.assembleVector s1 0 = .ok b1 →
      updateContactData (withGap Y gap).static ((withGap Y gap).du u2) s' = .ok s2 →
      (withGap Y gap).assembleVector s2 0 = .ok b2 →
      (∀ d ∈ F, ∑ c ∈ range N, K d c * u1 c - l d + b1 d = 0) →
      (∀ d ∈ F, ∑ c ∈ range N, K d c * u2 c - l d + b2 d = 0) →
      ∑ d ∈ F, (u1 d - u2 d) ^ 2 ≤ (C * eps) ^ 2 := by
  obtain ⟨b, hb1, hb⟩ := vector_of hY ops hops g law hlaw h23 gamma theta hconsts s hs hc N hN
  have hB : CoulombBounded Y ((Tracked.new g).history ops) := ⟨hY.loc, hf, hh, hwt⟩
  have hmono : ∃ m : ℝ, 0 < m ∧ ∀ (u0 : ℕ → ℝ) (x y : EuclideanSpace ℝ F), m * ‖x - y‖ ^ 2 ≤ inner ℝ
      (WithLp.toLp 2 (fun d : F => (∑ c ∈ range N, K d c * extend u0 x c + b (extend u0 x) d)
        - (∑ c ∈ range N, K d c * extend u0 y c + b (extend u0 y) d))) (x - y) := by
    rcases hK with ⟨hl, hK⟩ | ⟨hl, hK⟩
    · have hB' : Bounded Y ((Tracked.new g).history ops) law := ⟨hY.loc, fun _ => hf, hh, hwt⟩
      obtain ⟨m, hm, hmb⟩ := coercive_bound hK
      exact ⟨m, hm, residual_mono hB' hl hγ hb hF hmb⟩
    · subst hl
      obtain ⟨m, hm, hmb⟩ := coulomb_bound hK
      exact ⟨m, hm, residual_mono_of (E := fun v => (1 + theta) ^ 2 / (8 * gamma)
        * tractionSquare Y ((Tracked.new g).history ops) .coulomb v
        + frictionCoupling Y ((Tracked.new g).history ops) gamma theta v) (coulomb_low hB hγ hb) hF hmb⟩
  obtain ⟨m, hm, hmono⟩ := hmono
  obtain ⟨C, hC0, hC⟩ := gap_stable hB law hγ theta hF hb hm hmono
  refine ⟨C, hC0, fun gap eps s' hgs hg heps hs' l u1 u2 s1 s2 b1 b2 hu h1 h2 h3 h4 r1 r2 => ?_⟩
  have hY' : System.Valid (withGap Y gap) := ⟨hY.pairs, hY.dim, hY.points, hY.cell, hY.loc, hgs, hY.nx, hY.ny, hY.space,
    hY.search, hY.cells, hY.shared, hY.affine⟩
  have hops' : ∀ op ∈ ops, OpShaped (withGap Y gap).static op := by
    intro op hop
    have h := hops op hop
    cases op with
    | generate a => exact ⟨h.1, h.2.1, h.2.2.1, h.2.2.2.1, h.2.2.2.2.1, fun d hd => by
        have h' := h.2.2.2.2.2 d hd
        exact ⟨h'.val, h'.grad, h'.opp⟩⟩
    | updateData du =>
      have h' : DuShaped Y.static du := h
      exact ⟨h'.val, h'.grad, h'.opp⟩
    | updateDetection _ _ => exact h
    | updateNitsche _ _ => trivial
  have hc' : s'.coeffs ≠ none := by
    rw [hs']
    rcases C38_size (static_shaped hY') ops hops' g with ⟨h1, -⟩ | ⟨-, cs, h, -⟩
    · rcases C38_size (static_shaped hY) ops hops g with ⟨-, h2⟩ | ⟨h2, -⟩
      · rw [hs, h2] at hc; exact absurd rfl hc
      · rw [h1] at h2; exact absurd h2 (by simp)
    · rw [h]; simp
  obtain ⟨b', hb1', hb'⟩ := vector_of hY' ops hops' g law hlaw h23 gamma theta hconsts s' hs' hc' N hN
  have e1 : b1 = b u1 := by
    obtain ⟨s'', h5, h6⟩ := hb1 u1
    have es : s1 = s'' := Except.ok.inj (h1.symm.trans h5)
    rw [es] at h2
    exact Except.ok.inj (h2.symm.trans h6)
  have e2 : b2 = b' u2 := by
    obtain ⟨s'', h5, h6⟩ := hb1' u2
    have es : s2 = s'' := Except.ok.inj (h3.symm.trans h5)
    rw [es] at h4
    exact Except.ok.inj (h4.symm.trans h6)
  rw [e1] at r1
  rw [e2] at r2
  exact hC gap eps l u1 u2 b' hg heps hu hb' r1 r2

end

/-- The hypotheses of C217 hold for the example with Tresca friction and with Coulomb friction with coefficient `1/10`
(C143, C204 show that its bodies are stiff enough): with the gap `2` changed by `d` the normal gaps differ by `|d|`. -/
example (d : ℝ) :
    let gap : Unit → ℕ → Mat := fun _ _ => ⟨1, 2, fun _ m => if m = 1 then 2 + d else 0⟩
    System.Valid exY
    ∧ (∀ g, ∀ i < exY.numPairs, (gap g i).rows = exY.localFacets i ∧ (gap g i).cols = exY.nq * exY.gdim)
    ∧ (∀ theta, GapsWithin exY ((Tracked.new ()).history (exSysOpsT theta)) gap |d|)
    ∧ (∀ f theta, GapsWithin exY ((Tracked.new ()).history (exCoulombOps f theta)) gap |d|)
    ∧ (∀ theta, lastLaw (exSysOpsT theta) none = some .tresca) ∧ (0 : ℝ) ≤ |d| := by
  have h : ∀ t : Tracked Unit, GapsWithin exY t (fun _ _ => ⟨1, 2, fun _ m => if m = 1 then 2 + d else 0⟩) |d| := by
    intro t i hi e he q hq _
    obtain rfl : q = 0 := Nat.lt_one_iff.mp hq
    simp [exY, contactNormalAt]
  exact ⟨exY_valid, by simp [exY], fun _ => h _, fun _ _ => h _, fun _ => rfl, abs_nonneg d⟩

end

end Verif.ContactProblem
