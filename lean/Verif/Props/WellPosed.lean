import Verif.Lemmas.Zarantonello
import Verif.Spec.WellPosed
import Verif.Props.NewtonStep
import Verif.Props.SystemMonotone
import Verif.Props.Continuity

/-!
Properties C143 and C144: the assembled contact problem has exactly one solution, and so has the linear system of
every Newton step.
-/

namespace Verif.ContactProblem

open Verif.Spec Verif.Packing Verif.Assembly Verif.Kernels Verif.Lemmas Finset

noncomputable section

variable {G : Type} {Y : System G}

/-! ### lower bounds at one point -/

theorem nitsche_bound {ki k r n t θ : ℝ} (h1 : ki * k = 1) (hki : 0 ≤ ki) (hr : r ^ 2 ≤ r * (n - k * t)) :
    -((1 + θ) ^ 2 / 8 * (k * t ^ 2)) ≤ 1 / 2 * ki * r * (n - θ * k * t) - 1 / 2 * θ * k * t * t := by
  have h2 := mul_le_mul_of_nonneg_left hr hki
  have h3 := mul_nonneg hki (sq_nonneg (r + (1 - θ) / 2 * (k * t)))
  have e : 1 / 2 * ki * r * (n - θ * k * t) - 1 / 2 * θ * k * t * t + (1 + θ) ^ 2 / 8 * (k * t ^ 2)
      = 1 / 2 * (ki * (r * (n - k * t)) - ki * r ^ 2) + 1 / 2 * (ki * (r + (1 - θ) / 2 * (k * t)) ^ 2) := by
    linear_combination (-(1 - θ) ^ 2 / 8 * k * t ^ 2) * h1
  linarith

theorem nitsche_bound_sum {g : ℕ} {ki k θ : ℝ} {r n t : ℕ → ℝ} (h1 : ki * k = 1) (hki : 0 ≤ ki)
    (hr : ∑ a ∈ range g, r a ^ 2 ≤ ∑ a ∈ range g, r a * (n a - k * t a)) :
    -((1 + θ) ^ 2 / 8 * (k * ∑ a ∈ range g, t a ^ 2))
      ≤ 1 / 2 * ki * ∑ a ∈ range g, r a * (n a - θ * k * t a) - 1 / 2 * θ * k * ∑ a ∈ range g, t a * t a := by
  have h2 := mul_le_mul_of_nonneg_left hr hki
  have h3 := mul_nonneg hki (sum_nonneg (fun a (_ : a ∈ range g) => sq_nonneg (r a + (1 - θ) / 2 * (k * t a))))
  have e : 1 / 2 * ki * ∑ a ∈ range g, r a * (n a - θ * k * t a) - 1 / 2 * θ * k * ∑ a ∈ range g, t a * t a
        + (1 + θ) ^ 2 / 8 * (k * ∑ a ∈ range g, t a ^ 2)
      = 1 / 2 * (ki * (∑ a ∈ range g, r a * (n a - k * t a)) - ki * ∑ a ∈ range g, r a ^ 2)
        + 1 / 2 * (ki * ∑ a ∈ range g, (r a + (1 - θ) / 2 * (k * t a)) ^ 2) := by
    simp only [mul_sum, ← sum_sub_distrib, ← sum_add_distrib]
    exact sum_congr rfl (fun a _ => by linear_combination (-(1 - θ) ^ 2 / 8 * k * t a ^ 2) * h1)
  linarith

/-- The virtual work at a point decreases by not more than a multiple of the traction. -/
theorem form_lower (p : ContactPoint) {law : Law} (hl : law ≠ .coulomb) {gamma : ℝ} (hγ : 0 < gamma) (hh : 0 < p.h)
    (hf : law = .tresca → 0 ≤ p.fric) (theta : ℝ) {J1 J2 J : ℕ → ℝ} {D1 D2 D : ℕ → ℕ → ℝ}
    (hJ : ∀ a < p.g, J a = J1 a - J2 a) (hD : ∀ a < p.g, ∀ b < p.g, D a b = D1 a b - D2 a b) :
    -((1 + theta) ^ 2 / (8 * gamma) * p.tractionSquare law D)
      ≤ p.form law gamma theta J1 D1 J D - p.form law gamma theta J2 D2 J D := by
  have ht : ∀ a < p.g, p.trac D a = p.trac D1 a - p.trac D2 a := fun a ha => traction_sub _ _ _ _ _ _ _ hD ha
  have hk : 0 < p.h / gamma := div_pos hh hγ
  have hki : 0 < gamma / p.h := div_pos hγ hh
  have h1 : gamma / p.h * (p.h / gamma) = 1 := by field_simp
  have n : -((1 + theta) ^ 2 / 8 * (p.h / gamma * p.dot (p.trac D) ^ 2))
      ≤ p.normalPart gamma theta J1 D1 J D - p.normalPart gamma theta J2 D2 J D := by
    have f := posPart_firm (p.pressure gamma J1 D1) (p.pressure gamma J2 D2)
    have ep : p.pressure gamma J1 D1 - p.pressure gamma J2 D2 = p.dot J - p.h / gamma * p.dot (p.trac D) := by
      rw [dot_sub p hJ, dot_sub p ht]
      unfold ContactPoint.pressure; ring
    rw [ep] at f
    refine (nitsche_bound (θ := theta) h1 hki.le f).trans_eq ?_
    unfold ContactPoint.normalPart
    have := dot_sub p ht
    linear_combination (-(1 / 2 * theta * (p.h / gamma)) * p.dot (p.trac D)) * this
  unfold ContactPoint.form ContactPoint.tractionSquare
  cases law with
  | frictionless =>
    simp only [if_true, add_zero]
    refine le_trans (le_of_eq ?_) n
    field_simp
  | coulomb => exact absurd rfl hl
  | tresca =>
    simp only [reduceCtorEq, if_false]
    have fr : -((1 + theta) ^ 2 / 8 * (p.h / gamma * ∑ a ∈ range p.g, p.tang (p.trac D) a ^ 2))
        ≤ p.frictionPart .tresca gamma theta J1 D1 J D - p.frictionPart .tresca gamma theta J2 D2 J D := by
      have f := ball_firm p.g (p.slip gamma J1 D1) (p.slip gamma J2 D2) (mul_nonneg hk.le (hf rfl))
      have es : ∑ a ∈ range p.g, (ball p.g (p.slip gamma J1 D1) (p.h / gamma * p.fric) a
            - ball p.g (p.slip gamma J2 D2) (p.h / gamma * p.fric) a) * (p.slip gamma J1 D1 a - p.slip gamma J2 D2 a)
          = ∑ a ∈ range p.g, (ball p.g (p.slip gamma J1 D1) (p.h / gamma * p.fric) a
            - ball p.g (p.slip gamma J2 D2) (p.h / gamma * p.fric) a)
            * (p.tang J a - p.h / gamma * p.tang (p.trac D) a) := by
        refine sum_congr rfl (fun a ha => ?_)
        rw [tang_sub p hJ (mem_range.mp ha), tang_sub p ht (mem_range.mp ha)]
        unfold ContactPoint.slip; ring
      rw [es] at f
      refine (nitsche_bound_sum (θ := theta) h1 hki.le f).trans_eq ?_
      unfold ContactPoint.frictionPart
      simp only [ContactPoint.projected]
      simp only [mul_sum, ← sum_sub_distrib]
      refine sum_congr rfl (fun a ha => ?_)
      have := tang_sub p ht (mem_range.mp ha)
      linear_combination (-(1 / 2 * theta * (p.h / gamma)) * p.tang (p.trac D) a) * this
    have e : (1 + theta) ^ 2 / (8 * gamma) * (p.h * (p.dot (p.trac D) ^ 2 + ∑ a ∈ range p.g, p.tang (p.trac D) a ^ 2))
        = (1 + theta) ^ 2 / 8 * (p.h / gamma * p.dot (p.trac D) ^ 2)
          + (1 + theta) ^ 2 / 8 * (p.h / gamma * ∑ a ∈ range p.g, p.tang (p.trac D) a ^ 2) := by
      field_simp
    rw [e]
    linarith

/-- The derivative of the projection, as computed, is firmly nonexpansive. -/
theorem cutSlope_firm (g : ℕ) (x : ℕ → ℝ) (r : ℝ) (y : ℕ → ℝ) :
    ∑ a ∈ range g, cutSlope g x r y a ^ 2 ≤ ∑ a ∈ range g, cutSlope g x r y a * y a := by
  unfold cutSlope
  by_cases hr : r < 1e-14
  · simp [if_pos hr]
  · simp only [if_neg hr]
    have hr0 : 0 < r := lt_of_lt_of_le (by norm_num) (not_lt.mp hr)
    unfold ballSlope
    by_cases hx : Real.sqrt (∑ b ∈ range g, x b ^ 2) < r
    · simp only [if_pos hx]
      exact le_of_eq (sum_congr rfl (fun a _ => by ring))
    · simp only [if_neg hx]
      push Not at hx
      set R := Real.sqrt (∑ b ∈ range g, x b ^ 2) with hR
      have hR0 : 0 < R := lt_of_lt_of_le hr0 hx
      have h2 : (∑ b ∈ range g, x b ^ 2) = R ^ 2 := (Real.sq_sqrt (sum_nonneg (fun _ _ => sq_nonneg _))).symm
      set S := ∑ b ∈ range g, x b * y b with hS
      set T := ∑ b ∈ range g, y b ^ 2 with hT
      have e1 : ∑ a ∈ range g, (r / R * y a - r * S * x a / R ^ 3) ^ 2 = (r / R) ^ 2 * (T - S ^ 2 / R ^ 2) := by
        have : ∀ a, (r / R * y a - r * S * x a / R ^ 3) ^ 2
            = (r / R) ^ 2 * y a ^ 2 - 2 * (r / R) * (r * S / R ^ 3) * (x a * y a) + (r * S / R ^ 3) ^ 2 * x a ^ 2 := by
          intro a; ring
        rw [sum_congr rfl (fun a _ => this a), sum_add_distrib, sum_sub_distrib, ← mul_sum, ← mul_sum, ← mul_sum, h2,
          ← hS, ← hT]
        field_simp
        ring
      have e2 : ∑ a ∈ range g, (r / R * y a - r * S * x a / R ^ 3) * y a = (r / R) * (T - S ^ 2 / R ^ 2) := by
        have : ∀ a, (r / R * y a - r * S * x a / R ^ 3) * y a = r / R * y a ^ 2 - r * S / R ^ 3 * (x a * y a) := by
          intro a; ring
        rw [sum_congr rfl (fun a _ => this a), sum_sub_distrib, ← mul_sum, ← mul_sum, ← hS, ← hT]
        field_simp
      rw [e1, e2]
      have hb : S ^ 2 ≤ R ^ 2 * T := by
        rw [← h2, hS, hT]
        exact sum_mul_sq_le_sq_mul_sq _ _ _
      have hb2 : 0 ≤ T - S ^ 2 / R ^ 2 := by
        rw [sub_nonneg, div_le_iff₀ (by positivity)]; linarith
      refine mul_le_mul_of_nonneg_right ?_ hb2
      have h3 : r / R ≤ 1 := (div_le_one hR0).mpr hx
      have h4 : 0 ≤ r / R := by positivity
      nlinarith

/-- The linearised work of a displacement at a point, tested with itself. -/
theorem dForm_lower (p : ContactPoint) {law : Law} (hl : law ≠ .coulomb) {gamma : ℝ} (hγ : 0 < gamma) (hh : 0 < p.h)
    (theta : ℝ) (J K : ℕ → ℝ) (D E : ℕ → ℕ → ℝ) :
    -((1 + theta) ^ 2 / (8 * gamma) * p.tractionSquare law E)
      ≤ p.dForm cutSlope law gamma theta J D K E K E := by
  have hk : 0 < p.h / gamma := div_pos hh hγ
  have hki : 0 < gamma / p.h := div_pos hγ hh
  have h1 : gamma / p.h * (p.h / gamma) = 1 := by field_simp
  have n : -((1 + theta) ^ 2 / 8 * (p.h / gamma * p.dot (p.trac E) ^ 2)) ≤ p.dNormalPart gamma theta J D K E K E := by
    have f : (step (p.pressure gamma J D) * p.dPressure gamma K E) ^ 2
        ≤ (step (p.pressure gamma J D) * p.dPressure gamma K E) * (p.dot K - p.h / gamma * p.dot (p.trac E)) := by
      show _ ≤ _ * p.dPressure gamma K E
      unfold step
      split <;> nlinarith
    exact nitsche_bound (θ := theta) h1 hki.le f
  unfold ContactPoint.dForm ContactPoint.tractionSquare
  cases law with
  | frictionless =>
    simp only [if_true, add_zero]
    refine le_trans (le_of_eq ?_) n
    field_simp
  | coulomb => exact absurd rfl hl
  | tresca =>
    simp only [reduceCtorEq, if_false]
    have fr : -((1 + theta) ^ 2 / 8 * (p.h / gamma * ∑ a ∈ range p.g, p.tang (p.trac E) a ^ 2))
        ≤ p.dFrictionPart cutSlope .tresca gamma theta J D K E K E :=
      nitsche_bound_sum (θ := theta) h1 hki.le
        (cutSlope_firm p.g (p.slip gamma J D) (p.h / gamma * p.fric) (p.slip gamma K E))
    have e : (1 + theta) ^ 2 / (8 * gamma) * (p.h * (p.dot (p.trac E) ^ 2 + ∑ a ∈ range p.g, p.tang (p.trac E) a ^ 2))
        = (1 + theta) ^ 2 / 8 * (p.h / gamma * p.dot (p.trac E) ^ 2)
          + (1 + theta) ^ 2 / 8 * (p.h / gamma * ∑ a ∈ range p.g, p.tang (p.trac E) a ^ 2) := by
      field_simp
    rw [e]
    linarith

/-! ### lower bounds for the sums -/

/-- What the bounds need: positive mesh sizes, weights and friction bounds which are not negative. -/
structure Bounded (Y : System G) (t : Tracked G) (law : Law) : Prop where
  loc : ∀ i < Y.numPairs, Y.localFacets i ≤ (Y.facets i).length
  fric : law = .tresca → ∀ i < Y.numPairs, ∀ e < Y.localFacets i, 0 ≤ t.fric i e 0
  h : ∀ i < Y.numPairs, ∀ e < Y.localFacets i, 0 < t.h i e 0
  weight : ∀ i < Y.numPairs, ∀ p ∈ Y.facets i, ∀ q < Y.nq, 0 ≤ weightAt Y p.1 p.2 q

theorem contactForm_lower {t : Tracked G} {law : Law} (hB : Bounded Y t law) (hl : law ≠ .coulomb) {gamma : ℝ}
    (hγ : 0 < gamma) (theta : ℝ) (u1 u2 : ℕ → ℝ) :
    -((1 + theta) ^ 2 / (8 * gamma) * tractionSquare Y t law (fun d => u1 d - u2 d))
      ≤ contactForm Y t law gamma theta u1 (fun d => u1 d - u2 d)
        - contactForm Y t law gamma theta u2 (fun d => u1 d - u2 d) := by
  unfold contactForm tractionSquare
  rw [← sum_sub_distrib, mul_sum, ← sum_neg_distrib]
  refine sum_le_sum (fun i hi => ?_)
  rw [← sum_sub_distrib, mul_sum, ← sum_neg_distrib]
  refine sum_le_sum (fun e he => ?_)
  have hi' := mem_range.mp hi
  have he' := mem_range.mp he
  have hel : e < (Y.facets i).length := lt_of_lt_of_le he' (hB.loc i hi')
  rw [List.getElem?_eq_getElem hel]
  simp only [Option.elim_some]
  rw [← sum_sub_distrib, mul_sum, ← sum_neg_distrib]
  refine sum_le_sum (fun q hq => ?_)
  split
  · have hw := hB.weight i hi' _ (List.getElem_mem hel) q (mem_range.mp hq)
    rw [← mul_sub, mul_left_comm, ← mul_neg]
    refine mul_le_mul_of_nonneg_left ?_ hw
    refine form_lower _ hl hγ (hB.h i hi' e he') (fun h => hB.fric h i hi' e he') theta (fun a ha => ?_)
      (fun a ha b hb => ?_)
    · unfold jumpAt
      rw [valueAt_sub, oppositeAt_sub]; ring
    · rw [gradAt_sub]; ring
  · simp

theorem contactTangent_lower {t : Tracked G} {law : Law} (hB : Bounded Y t .frictionless) (hl : law ≠ .coulomb) {gamma : ℝ}
    (hγ : 0 < gamma) (theta : ℝ) (u w : ℕ → ℝ) :
    -((1 + theta) ^ 2 / (8 * gamma) * tractionSquare Y t law w)
      ≤ contactTangent Y t cutSlope law gamma theta u w w := by
  unfold contactTangent tractionSquare
  rw [mul_sum, ← sum_neg_distrib]
  refine sum_le_sum (fun i hi => ?_)
  rw [mul_sum, ← sum_neg_distrib]
  refine sum_le_sum (fun e he => ?_)
  have hi' := mem_range.mp hi
  have he' := mem_range.mp he
  have hel : e < (Y.facets i).length := lt_of_lt_of_le he' (hB.loc i hi')
  rw [List.getElem?_eq_getElem hel]
  simp only [Option.elim_some]
  rw [mul_sum, ← sum_neg_distrib]
  refine sum_le_sum (fun q hq => ?_)
  split
  · have hw := hB.weight i hi' _ (List.getElem_mem hel) q (mem_range.mp hq)
    rw [mul_left_comm, ← mul_neg]
    exact mul_le_mul_of_nonneg_left (dForm_lower _ hl hγ (hB.h i hi' e he') theta _ _ _ _) hw
  · simp

/-! ### the form is Lipschitz continuous in the displacement -/

section Point

variable {X : Type} [PseudoMetricSpace X] {p : ContactPoint} {J : X → ℕ → ℝ} {D : X → ℕ → ℕ → ℝ}

theorem dot_lip (hJ : ∀ a < p.g, Lip (fun s => J s a)) : Lip (fun s => p.dot (J s)) :=
  Lip.sum _ (fun a ha => (hJ a (mem_range.mp ha)).mul_const _)

theorem tang_lip (hJ : ∀ a < p.g, Lip (fun s => J s a)) {a : ℕ} (ha : a < p.g) : Lip (fun s => p.tang (J s) a) :=
  (hJ a ha).sub ((dot_lip hJ).mul_const _)

theorem trac_lip (hD : ∀ a b, Lip (fun s => D s a b)) {a : ℕ} (ha : a < p.g) : Lip (fun s => p.trac (D s) a) := by
  unfold ContactPoint.trac
  simp only [Elasticity.traction_eq _ _ _ _ _ _ ha]
  refine Lip.add ?_ ?_
  · exact Lip.sum _ (fun j _ => (((hD j a).add (hD a j)).const_mul _).mul_const _)
  · exact ((Lip.sum _ (fun j _ => hD j j)).const_mul _).mul_const _

theorem ball_lip {g : ℕ} {x : X → ℕ → ℝ} {r : ℝ} (hr : 0 ≤ r) (hx : ∀ a < g, Lip (fun s => x s a)) {a : ℕ} (ha : a < g) :
    Lip (fun s => ball g (x s) r a) := by
  choose C hC using hx
  refine ⟨∑ b : Fin g, C b b.2, fun s s' => ?_⟩
  rw [sum_mul]
  refine le_trans ?_ (sum_le_sum (fun b _ => hC b b.2 s s'))
  have hf := ball_firm g (x s) (x s') hr
  set δ := Real.sqrt (∑ b ∈ range g, (ball g (x s) r b - ball g (x s') r b) ^ 2) with hδ
  set ε := Real.sqrt (∑ b ∈ range g, (x s b - x s' b) ^ 2) with hε
  have h2 : (∑ b ∈ range g, (ball g (x s) r b - ball g (x s') r b) ^ 2) = δ ^ 2 :=
    (Real.sq_sqrt (sum_nonneg (fun _ _ => sq_nonneg _))).symm
  have h3 := dot_le_sqrt g (fun b => ball g (x s) r b - ball g (x s') r b) (fun b => x s b - x s' b)
  have h4 : δ ^ 2 ≤ δ * ε := by rw [← h2]; exact hf.trans h3
  have h5 : δ ≤ ε := by
    rcases (Real.sqrt_nonneg (∑ b ∈ range g, (ball g (x s) r b - ball g (x s') r b) ^ 2)).eq_or_lt with h | h
    · rw [hδ, ← h]; exact Real.sqrt_nonneg _
    · rw [sq] at h4; exact le_of_mul_le_mul_left h4 h
  have h6 : |ball g (x s) r a - ball g (x s') r a| ≤ δ := by
    rw [hδ]
    refine Real.abs_le_sqrt ?_
    exact single_le_sum (f := fun b => (ball g (x s) r b - ball g (x s') r b) ^ 2) (fun _ _ => sq_nonneg _) (mem_range.mpr ha)
  have h7 : ε ≤ ∑ b ∈ range g, |x s b - x s' b| := by
    have := sum_sq_le_sq_sum_of_nonneg (s := range g) (f := fun b => |x s b - x s' b|) (fun b _ => abs_nonneg _)
    simp only [sq_abs] at this
    exact (Real.sqrt_le_sqrt this).trans_eq (Real.sqrt_sq (sum_nonneg (fun _ _ => abs_nonneg _)))
  rw [← Fin.sum_univ_eq_sum_range] at h7
  linarith

theorem form_lip {law : Law} (hl : law ≠ .coulomb) (gamma theta : ℝ) (hJ : ∀ a, Lip (fun s => J s a))
    (hD : ∀ a b, Lip (fun s => D s a b)) (ht : law = .tresca → 0 ≤ p.h / gamma * p.fric) (J' : ℕ → ℝ) (D' : ℕ → ℕ → ℝ) :
    Lip (fun s => p.form law gamma theta (J s) (D s) J' D') := by
  have hT : Lip (fun s => p.dot (p.trac (D s))) := dot_lip (fun a ha => trac_lip hD ha)
  have hTt : ∀ a < p.g, Lip (fun s => p.tang (p.trac (D s)) a) := fun a ha => tang_lip (fun a ha => trac_lip hD ha) ha
  have hP : Lip (fun s => p.pressure gamma (J s) (D s)) :=
    ((dot_lip (fun a _ => hJ a)).sub (Lip.const _)).sub (hT.const_mul _)
  unfold ContactPoint.form
  refine Lip.add ?_ ?_
  · unfold ContactPoint.normalPart
    exact (((Lip.posPart hP).const_mul _).mul_const _).sub ((hT.const_mul _).mul_const _)
  · cases law with
    | frictionless => simp only [if_true]; exact Lip.const _
    | coulomb => exact absurd rfl hl
    | tresca =>
      simp only [reduceCtorEq, if_false]
      unfold ContactPoint.frictionPart
      refine Lip.sub ?_ ?_
      · refine Lip.const_mul (Lip.sum _ (fun a ha => Lip.mul_const ?_ _)) _
        exact ball_lip (ht rfl) (fun b hb => (tang_lip (fun a _ => hJ a) hb).sub ((hTt b hb).const_mul _)) (mem_range.mp ha)
      · exact Lip.const_mul (Lip.sum _ (fun a ha => (hTt a (mem_range.mp ha)).mul_const _)) _

end Point

section Sum

variable {X : Type} [PseudoMetricSpace X] {U : X → ℕ → ℝ}

theorem jumpAt_lip (hU : ∀ d, Lip (fun x => U x d)) (g : G) (i e cell f q a : ℕ) :
    Lip (fun x => jumpAt Y g i e cell f (U x) q a) := by
  unfold jumpAt valueAt oppositeAt
  exact (Lip.sum _ (fun k _ => (hU _).const_mul _)).sub (Lip.sum _ (fun k _ => (hU _).const_mul _))

theorem gradAt_lip (hU : ∀ d, Lip (fun x => U x d)) (cell f q a b : ℕ) :
    Lip (fun x => gradAt Y cell f (U x) q a b) := by
  unfold gradAt
  exact Lip.sum _ (fun k _ => (hU _).const_mul _)

theorem contactForm_lip {t : Tracked G} {law : Law} (hB : Bounded Y t law) (hl : law ≠ .coulomb) {gamma : ℝ}
    (hγ : 0 < gamma) (theta : ℝ) (hU : ∀ d, Lip (fun x => U x d)) (v : ℕ → ℝ) :
    Lip (fun x => contactForm Y t law gamma theta (U x) v) := by
  unfold contactForm
  refine Lip.sum _ (fun i hi => Lip.sum _ (fun e he => ?_))
  cases hf : (Y.facets i)[e]? with
  | none => exact Lip.const _
  | some c =>
    simp only [Option.elim_some]
    refine Lip.sum _ (fun q _ => ?_)
    by_cases hk : 0 ≤ Y.map t.cur i (e * Y.nq + q)
    · simp only [if_pos hk]
      refine Lip.const_mul (form_lip hl gamma theta (fun a => jumpAt_lip hU _ _ _ _ _ _ a)
        (fun a b => (gradAt_lip hU _ _ _ a b).add (Lip.const _)) (fun h => ?_) _ _) _
      exact mul_nonneg (div_nonneg (hB.h i (mem_range.mp hi) e (mem_range.mp he)).le hγ.le)
        (hB.fric h i (mem_range.mp hi) e (mem_range.mp he))
    · simp only [if_neg hk]; exact Lip.const _

end Sum

/-! ### the size of the tractions is a quadratic form -/

theorem gradAt_smul (cell f : ℕ) (r : ℝ) (u : ℕ → ℝ) (q a b : ℕ) :
    gradAt Y cell f (fun d => r * u d) q a b = r * gradAt Y cell f u q a b := by
  unfold gradAt
  rw [mul_sum]
  exact sum_congr rfl (fun _ _ => by ring)

theorem tractionSquare_smul (Y : System G) (t : Tracked G) (law : Law) (r : ℝ) (v : ℕ → ℝ) :
    tractionSquare Y t law (fun d => r * v d) = r ^ 2 * tractionSquare Y t law v := by
  have hp : ∀ (p : ContactPoint) (D D' : ℕ → ℕ → ℝ), (∀ a b, D' a b = r * D a b) →
      p.tractionSquare law D' = r ^ 2 * p.tractionSquare law D := by
    intro p D D' h
    have ht : ∀ a < p.g, p.trac D' a = r * p.trac D a := by
      intro a ha
      unfold ContactPoint.trac
      rw [Elasticity.traction_eq _ _ _ _ _ _ ha, Elasticity.traction_eq _ _ _ _ _ _ ha]
      have e1 : ∑ j ∈ range p.g, p.mu * (D' j a + D' a j) * p.nPhys j
          = r * ∑ j ∈ range p.g, p.mu * (D j a + D a j) * p.nPhys j := by
        rw [mul_sum]
        exact sum_congr rfl (fun j _ => by rw [h, h]; ring)
      have e2 : ∑ j ∈ range p.g, D' j j = r * ∑ j ∈ range p.g, D j j := by
        rw [mul_sum]
        exact sum_congr rfl (fun j _ => h _ _)
      rw [e1, e2]
      ring
    have hd : p.dot (p.trac D') = r * p.dot (p.trac D) := by
      unfold ContactPoint.dot
      rw [mul_sum]
      exact sum_congr rfl (fun a ha => by rw [ht a (mem_range.mp ha)]; ring)
    have hT : ∑ a ∈ range p.g, p.tang (p.trac D') a ^ 2 = r ^ 2 * ∑ a ∈ range p.g, p.tang (p.trac D) a ^ 2 := by
      rw [mul_sum]
      refine sum_congr rfl (fun a ha => ?_)
      unfold ContactPoint.tang
      rw [hd, ht a (mem_range.mp ha)]; ring
    unfold ContactPoint.tractionSquare
    rw [hd, hT]
    split <;> ring
  unfold tractionSquare
  rw [mul_sum]
  refine sum_congr rfl (fun i _ => ?_)
  rw [mul_sum]
  refine sum_congr rfl (fun e _ => ?_)
  cases hf : (Y.facets i)[e]? with
  | none => simp
  | some c =>
    simp only [Option.elim_some]
    rw [mul_sum]
    refine sum_congr rfl (fun q _ => ?_)
    rw [hp _ (gradAt Y c.1 c.2 v q) _ (fun a b => gradAt_smul c.1 c.2 r v q a b)]
    split
    · ring
    · simp

theorem tractionSquare_cont {X : Type} [TopologicalSpace X] {U : X → ℕ → ℝ} (hU : ∀ d, Continuous (fun x => U x d))
    (Y : System G) (t : Tracked G) (law : Law) : Continuous (fun x => tractionSquare Y t law (U x)) := by
  have hg : ∀ cell f q a b, Continuous (fun x => gradAt Y cell f (U x) q a b) := by
    intro cell f q a b
    unfold gradAt
    exact continuous_finsetSum _ (fun k _ => (hU _).const_mul _)
  unfold tractionSquare
  refine continuous_finsetSum _ (fun i _ => continuous_finsetSum _ (fun e _ => ?_))
  cases hf : (Y.facets i)[e]? with
  | none => exact continuous_const
  | some c =>
    simp only [Option.elim_some]
    refine continuous_finsetSum _ (fun q _ => ?_)
    by_cases hk : 0 ≤ Y.map t.cur i (e * Y.nq + q)
    · simp only [if_pos hk]
      refine Continuous.const_mul ?_ _
      unfold ContactPoint.tractionSquare
      refine Continuous.const_mul (Continuous.add ((dot_trac_cont (hg _ _ _)).pow 2) ?_) _
      by_cases hl : law = .frictionless
      · simp only [if_pos hl]; exact continuous_const
      · simp only [if_neg hl]
        exact continuous_finsetSum _ (fun a ha => (tang_trac_cont (hg _ _ _) (mem_range.mp ha)).pow 2)
    · simp only [if_neg hk]; exact continuous_const

/-- The constant of coercivity. -/
theorem coercive_bound {t : Tracked G} {law : Law} {gamma theta : ℝ} {N : ℕ} {F : Finset ℕ} {K : ℕ → ℕ → ℝ}
    (hK : Coercive Y t law gamma theta N F K) :
    ∃ m, 0 < m ∧ ∀ x : EuclideanSpace ℝ F, m * ‖x‖ ^ 2
      ≤ ∑ d ∈ range N, ∑ c ∈ range N, extend 0 x d * K d c * extend 0 x c
        - (1 + theta) ^ 2 / (8 * gamma) * tractionSquare Y t law (extend 0 x) := by
  refine coercive_const _ ?_ ?_ ?_
  · have hc : ∀ d, Continuous (fun x : EuclideanSpace ℝ F => extend 0 x d) := fun d => (extend_lip 0 d).continuous
    refine Continuous.sub ?_ ((tractionSquare_cont hc Y t law).const_mul _)
    exact continuous_finsetSum _ (fun d _ => continuous_finsetSum _ (fun c _ => ((hc d).mul_const _).mul (hc c)))
  · intro r x
    rw [extend_smul, tractionSquare_smul, mul_sub]
    congr 1
    · rw [mul_sum]
      refine sum_congr rfl (fun d _ => ?_)
      rw [mul_sum]
      exact sum_congr rfl (fun c _ => by ring)
    · ring
  · intro x hx
    have := hK (extend 0 x) (fun d hd => extend_off _ _ hd) (extend_ne hx)
    linarith

/-- C143, C144: for theta = -1 the condition on the bodies is that their stiffness matrix is positive definite on the
free dofs, for every gamma. -/
theorem C143_skew (Y : System G) (t : Tracked G) (law : Law) (gamma : ℝ) (N : ℕ) (F : Finset ℕ) (K : ℕ → ℕ → ℝ) :
    Coercive Y t law gamma (-1) N F K ↔ ∀ v : ℕ → ℝ, (∀ d, d ∉ F → v d = 0) → (∃ d, v d ≠ 0) →
      0 < ∑ d ∈ range N, ∑ c ∈ range N, v d * K d c * v c := by
  simp [Coercive]

/-- The assembled vector as a function of the displacement. -/
theorem vector_of (hY : System.Valid Y) (ops : List (Op G)) (hops : ∀ op ∈ ops, OpShaped Y.static op)
    (g : G) (law : Law) (hlaw : lastLaw ops none = some law)
    (h23 : law ≠ .frictionless → Y.gdim = 2 ∨ Y.gdim = 3)
    (gamma theta : ℝ) (hconsts : lastConsts ops none = some (gamma, theta))
    (s : State G) (hs : s = history Y.static ops (init Y.static g)) (hc : s.coeffs ≠ none)
    (N : ℕ) (hN : DofsBelow Y N) :
    ∃ b : (ℕ → ℝ) → Arr ℕ,
      (∀ u, ∃ s', updateContactData Y.static (Y.du u) s = .ok s' ∧ Y.assembleVector s' 0 = .ok (b u))
      ∧ ∀ u v, ∑ d ∈ range N, b u d * v d = contactForm Y ((Tracked.new g).history ops) law gamma theta u v := by
  have hv := fun u v : ℕ → ℝ => C114_form hY ops hops g law hlaw h23 gamma theta hconsts s hs hc N hN u v
  choose s' b h using hv
  have hb : ∀ u v, b u v = b u 0 := by
    intro u v
    have e : s' u v = s' u 0 := Except.ok.inj ((h u v).1.symm.trans (h u 0).1)
    have h2 := (h u v).2.1
    rw [e] at h2
    exact Except.ok.inj (h2.symm.trans (h u 0).2.1)
  refine ⟨fun u => b u 0, fun u => ⟨s' u 0, (h u 0).1, (h u 0).2.1⟩, fun u v => ?_⟩
  show ∑ d ∈ range N, b u 0 d * v d = _
  rw [← hb u v]
  exact (h u v).2.2

theorem friction_dim {law : Law} (hl : law ≠ .coulomb) {P : Prop} (hT : law = .tresca → P) : law ≠ .frictionless → P := by
  intro h
  cases law with
  | frictionless => exact absurd rfl h
  | coulomb => exact absurd rfl hl
  | tresca => exact hT rfl

/-- Two displacements with the same values at the constrained dofs: the difference of the residuals works on the
difference of the displacements. -/
theorem residual_mono {t : Tracked G} {law : Law} (hB : Bounded Y t law) (hl : law ≠ .coulomb) {gamma theta : ℝ}
    (hγ : 0 < gamma) {N : ℕ} {F : Finset ℕ} {K : ℕ → ℕ → ℝ} {b : (ℕ → ℝ) → Arr ℕ}
    (hb : ∀ u v, ∑ d ∈ range N, b u d * v d = contactForm Y t law gamma theta u v) (hF : ∀ d ∈ F, d < N) {m : ℝ}
    (hm : ∀ x : EuclideanSpace ℝ F, m * ‖x‖ ^ 2
      ≤ ∑ d ∈ range N, ∑ c ∈ range N, extend 0 x d * K d c * extend 0 x c
        - (1 + theta) ^ 2 / (8 * gamma) * tractionSquare Y t law (extend 0 x)) (u0 : ℕ → ℝ) (x y : EuclideanSpace ℝ F) :
    m * ‖x - y‖ ^ 2 ≤ inner ℝ
      (WithLp.toLp 2 (fun d : F => (∑ c ∈ range N, K d c * extend u0 x c + b (extend u0 x) d)
        - (∑ c ∈ range N, K d c * extend u0 y c + b (extend u0 y) d))) (x - y) := by
  refine (hm (x - y)).trans ?_
  have h1 := contactForm_lower hB hl hγ theta (extend u0 x) (extend u0 y)
  rw [extend_sub, ← hb, ← hb, ← sum_sub_distrib] at h1
  rw [inner_extend hF (fun d => (∑ c ∈ range N, K d c * extend u0 x c + b (extend u0 x) d)
        - (∑ c ∈ range N, K d c * extend u0 y c + b (extend u0 y) d))]
  have e : ∑ d ∈ range N, ((∑ c ∈ range N, K d c * extend u0 x c + b (extend u0 x) d)
        - (∑ c ∈ range N, K d c * extend u0 y c + b (extend u0 y) d)) * extend 0 (x - y) d
      = ∑ d ∈ range N, ∑ c ∈ range N, extend 0 (x - y) d * K d c * extend 0 (x - y) c
        + ∑ d ∈ range N, (b (extend u0 x) d * extend 0 (x - y) d - b (extend u0 y) d * extend 0 (x - y) d) := by
    rw [← sum_add_distrib]
    refine sum_congr rfl (fun d _ => ?_)
    have e2 : ∑ c ∈ range N, extend 0 (x - y) d * K d c * extend 0 (x - y) c
        = (∑ c ∈ range N, K d c * extend u0 x c - ∑ c ∈ range N, K d c * extend u0 y c) * extend 0 (x - y) d := by
      rw [← sum_sub_distrib, sum_mul]
      refine sum_congr rfl (fun c _ => ?_)
      rw [← congrFun (extend_sub u0 x y) c]
      ring
    rw [e2]
    ring
  rw [e]
  linarith

section

variable (hY : System.Valid Y) (ops : List (Op G)) (hops : ∀ op ∈ ops, OpShaped Y.static op)
  (g : G) (law : Law) (hlaw : lastLaw ops none = some law) (hl : law ≠ .coulomb)
  (gamma theta : ℝ) (hγ : 0 < gamma) (hconsts : lastConsts ops none = some (gamma, theta))
  (s : State G) (hs : s = history Y.static ops (init Y.static g)) (hc : s.coeffs ≠ none)
  (hh : ∀ i < Y.numPairs, ∀ e < Y.localFacets i, 0 < ((Tracked.new g).history ops).h i e 0)
  (hwt : ∀ i < Y.numPairs, ∀ p ∈ Y.facets i, ∀ q < Y.nq, 0 ≤ weightAt Y p.1 p.2 q)
  (N : ℕ) (hN : DofsBelow Y N) (F : Finset ℕ) (hF : ∀ d ∈ F, d < N) (K : ℕ → ℕ → ℝ)
  (hK : Coercive Y ((Tracked.new g).history ops) law gamma theta N F K)

include hY hops hlaw hl hγ hconsts hs hc hh hwt hN hF hK

/-- C143: the assembled contact problem is well posed.  For every load `l` and all values `u0` of the constrained
dofs there is exactly one displacement at which the residual (stiffness matrix times displacement minus load plus
the vector `assemble_vector` builds after `update_contact_data`) vanishes at the free dofs `F`.  Without friction and
with Tresca friction, for every theta; for theta = -1 all that is needed of the bodies is a positive definite
stiffness matrix. -/
theorem C143_wellposed (hT : law = .tresca → (Y.gdim = 2 ∨ Y.gdim = 3)
      ∧ ∀ i < Y.numPairs, ∀ e < Y.localFacets i, 0 ≤ ((Tracked.new g).history ops).fric i e 0) (l u0 : ℕ → ℝ) :
    ∃! u : ℕ → ℝ, (∀ d, d ∉ F → u d = u0 d) ∧ ∃ (s' : State G) (b : Arr ℕ),
      updateContactData Y.static (Y.du u) s = .ok s' ∧ Y.assembleVector s' 0 = .ok b
      ∧ ∀ d ∈ F, ∑ c ∈ range N, K d c * u c - l d + b d = 0 := by
  obtain ⟨b, hb1, hb⟩ := vector_of hY ops hops g law hlaw (friction_dim hl (fun h => (hT h).1)) gamma theta hconsts s hs hc N hN
  have hB : Bounded Y ((Tracked.new g).history ops) law := ⟨hY.loc, fun h => (hT h).2, hh, hwt⟩
  obtain ⟨m, hm, hmb⟩ := coercive_bound hK
  have hmono := residual_mono hB hl hγ hb hF hmb u0
  let A : EuclideanSpace ℝ F → EuclideanSpace ℝ F :=
    fun x => WithLp.toLp 2 (fun d : F => ∑ c ∈ range N, K d c * extend u0 x c + b (extend u0 x) d)
  have hA : ∀ x y, m * ‖x - y‖ ^ 2 ≤ inner ℝ (A x - A y) (x - y) := hmono
  have hbd : ∀ u, ∀ d < N, b u d = contactForm Y ((Tracked.new g).history ops) law gamma theta u (fun c => if c = d then 1 else 0) := by
    intro u d hd
    rw [← hb]
    simp [hd]
  have hcomp : ∀ d : F, Lip (fun x => A x d) := by
    intro d
    show Lip (fun x : EuclideanSpace ℝ F => ∑ c ∈ range N, K d c * extend u0 x c + b (extend u0 x) d)
    refine Lip.add (Lip.sum _ (fun c _ => (extend_lip u0 c).const_mul _)) ?_
    simp only [hbd _ _ (hF d d.2)]
    exact contactForm_lip hB hl hγ theta (extend_lip u0) _
  obtain ⟨L, hL⟩ := Lip.vector hcomp
  obtain ⟨x, hx⟩ := zarantonello A hm hA (fun x y => by rw [← dist_eq_norm x y]; exact hL x y)
    (WithLp.toLp 2 (fun d : F => l d))
  have hsol : ∀ d : F, ∑ c ∈ range N, K d c * extend u0 x c + b (extend u0 x) d = l d :=
    fun d => congrFun (congrArg (WithLp.ofLp) hx) d
  refine ⟨extend u0 x, ⟨fun d hd => extend_off u0 x hd, ?_⟩, ?_⟩
  · obtain ⟨s', h1, h2⟩ := hb1 (extend u0 x)
    refine ⟨s', _, h1, h2, fun d hd => ?_⟩
    have := hsol ⟨d, hd⟩
    simp only at this
    linarith
  · rintro u ⟨hu0, s', b', h1, h2, h3⟩
    obtain ⟨y, rfl⟩ := extend_of u0 u hu0
    obtain ⟨s'', h4, h5⟩ := hb1 (extend u0 y)
    have es : s' = s'' := Except.ok.inj (h1.symm.trans h4)
    rw [es] at h2
    have eb : b' = b (extend u0 y) := Except.ok.inj (h2.symm.trans h5)
    rw [eb] at h3
    have hAy : A y = A x := by
      ext d
      show ∑ c ∈ range N, K d c * extend u0 y c + b (extend u0 y) d = ∑ c ∈ range N, K d c * extend u0 x c + b (extend u0 x) d
      rw [hsol d]
      have := h3 d d.2
      linarith
    have h6 := hA y x
    rw [hAy, sub_self, inner_zero_left] at h6
    have h7 : ‖y - x‖ ^ 2 ≤ 0 := by
      by_contra h
      push Not at h
      have := mul_pos hm h
      linarith
    have h8 : y - x = 0 := norm_eq_zero.mp (pow_eq_zero_iff two_ne_zero |>.mp (le_antisymm h7 (sq_nonneg _)))
    rw [sub_eq_zero.mp h8]

/-- C143: the solution depends on the load continuously: there is a positive constant `m` such that the distance of
the solutions for two loads is at most `1 / m` times the distance of the loads. -/
theorem C143_stable (hT : law = .tresca → (Y.gdim = 2 ∨ Y.gdim = 3)
      ∧ ∀ i < Y.numPairs, ∀ e < Y.localFacets i, 0 ≤ ((Tracked.new g).history ops).fric i e 0) :
    ∃ m : ℝ, 0 < m ∧ ∀ l1 l2 u1 u2 : ℕ → ℝ, ∀ (s1 s2 : State G) (b1 b2 : Arr ℕ),
      (∀ d, d ∉ F → u1 d = u2 d) →
      updateContactData Y.static (Y.du u1) s = .ok s1 → Y.assembleVector s1 0 = .ok b1 →
      updateContactData Y.static (Y.du u2) s = .ok s2 → Y.assembleVector s2 0 = .ok b2 →
      (∀ d ∈ F, ∑ c ∈ range N, K d c * u1 c - l1 d + b1 d = 0) →
      (∀ d ∈ F, ∑ c ∈ range N, K d c * u2 c - l2 d + b2 d = 0) →
      m ^ 2 * ∑ d ∈ F, (u1 d - u2 d) ^ 2 ≤ ∑ d ∈ F, (l1 d - l2 d) ^ 2 := by
  obtain ⟨b, hb1, hb⟩ := vector_of hY ops hops g law hlaw (friction_dim hl (fun h => (hT h).1)) gamma theta hconsts s hs hc N hN
  have hB : Bounded Y ((Tracked.new g).history ops) law := ⟨hY.loc, fun h => (hT h).2, hh, hwt⟩
  obtain ⟨m, hm, hmb⟩ := coercive_bound hK
  refine ⟨m, hm, fun l1 l2 u1 u2 s1 s2 b1 b2 hu h1 h2 h3 h4 r1 r2 => ?_⟩
  have eb : ∀ (u : ℕ → ℝ) (s' : State G) (b' : Arr ℕ), updateContactData Y.static (Y.du u) s = .ok s' →
      Y.assembleVector s' 0 = .ok b' → b' = b u := by
    intro u s' b' h1 h2
    obtain ⟨s'', h4, h5⟩ := hb1 u
    have es : s' = s'' := Except.ok.inj (h1.symm.trans h4)
    rw [es] at h2
    exact Except.ok.inj (h2.symm.trans h5)
  rw [eb u1 s1 b1 h1 h2] at r1
  rw [eb u2 s2 b2 h3 h4] at r2
  obtain ⟨x, rfl⟩ := extend_of u2 u1 hu
  obtain ⟨y, hy⟩ := extend_of (F := F) u2 u2 (fun _ _ => rfl)
  have hmono := residual_mono hB hl hγ hb hF hmb u2 x y
  rw [hy] at hmono
  have el : (fun d : F => (∑ c ∈ range N, K d c * extend u2 x c + b (extend u2 x) d)
      - (∑ c ∈ range N, K d c * u2 c + b u2 d)) = fun d : F => l1 d - l2 d := by
    funext d
    have e1 := r1 d d.2
    have e2 := r2 d d.2
    linarith
  rw [el] at hmono
  set L : EuclideanSpace ℝ F := WithLp.toLp 2 (fun d : F => l1 d - l2 d) with hL
  have h5 : m * ‖x - y‖ ^ 2 ≤ ‖L‖ * ‖x - y‖ := hmono.trans (real_inner_le_norm _ _)
  have h6 : m * ‖x - y‖ ≤ ‖L‖ := by
    rcases (norm_nonneg (x - y)).eq_or_lt with h | h
    · rw [← h, mul_zero]; exact norm_nonneg _
    · refine le_of_mul_le_mul_right ?_ h
      rw [sq] at h5; linarith
  have h7 : (m * ‖x - y‖) ^ 2 ≤ ‖L‖ ^ 2 := pow_le_pow_left₀ (mul_nonneg hm.le (norm_nonneg _)) h6 2
  rw [mul_pow, EuclideanSpace.real_norm_sq_eq, EuclideanSpace.real_norm_sq_eq] at h7
  have e1 : ∑ d : F, (x - y) d ^ 2 = ∑ d ∈ F, (extend u2 x d - u2 d) ^ 2 := by
    rw [← sum_coe_sort F (fun d => (extend u2 x d - u2 d) ^ 2)]
    refine sum_congr rfl (fun d _ => ?_)
    have : u2 d = y d := by
      have := congrFun hy d
      unfold extend at this
      rw [dif_pos d.2] at this
      exact this.symm
    rw [this]
    simp [extend]
  have e2 : ∑ d : F, L d ^ 2 = ∑ d ∈ F, (l1 d - l2 d) ^ 2 := sum_coe_sort F (fun d => (l1 d - l2 d) ^ 2)
  rwa [e1, e2] at h7

/-- C144: every Newton step is possible: whatever the displacement `u` at which the matrix is assembled, the linear
system with the stiffness matrix plus the matrix `assemble_matrix` builds, restricted to the free dofs `F`, has
exactly one solution for every right-hand side `r`. -/
theorem C144_solvable (hT : law = .tresca → (Y.gdim = 2 ∨ Y.gdim = 3) ∧ UnitNormals Y ((Tracked.new g).history ops))
    (u r : ℕ → ℝ) :
    ∃ (s' : State G) (A : Arr (ℕ × ℕ)), updateContactData Y.static (Y.du u) s = .ok s' ∧ Y.assembleMatrix s' 0 = .ok A
      ∧ ∃! w : ℕ → ℝ, (∀ d, d ∉ F → w d = 0) ∧ ∀ d ∈ F, ∑ c ∈ range N, (K d c + A (d, c)) * w c = r d := by
  obtain ⟨s', A, h1, h2, h3⟩ := C131_matrix hY ops hops g law hlaw (friction_dim hl hT) gamma theta hconsts s hs hc N hN u
  refine ⟨s', A, h1, h2, posdef_solvable hF (fun d c => K d c + A (d, c)) (fun v hv hne => ?_) r 0⟩
  have h4 := hK v hv hne
  have h5 : -((1 + theta) ^ 2 / (8 * gamma) * tractionSquare Y ((Tracked.new g).history ops) law v)
      ≤ ∑ d ∈ range N, ∑ c ∈ range N, v d * A (d, c) * v c := by
    rw [h3]
    have hB : Bounded Y ((Tracked.new g).history ops) .frictionless := ⟨hY.loc, (fun h => nomatch h), hh, hwt⟩
    exact contactTangent_lower hB hl hγ theta u v
  have e : ∑ d ∈ range N, ∑ c ∈ range N, v d * (K d c + A (d, c)) * v c
      = ∑ d ∈ range N, ∑ c ∈ range N, v d * K d c * v c + ∑ d ∈ range N, ∑ c ∈ range N, v d * A (d, c) * v c := by
    rw [← sum_add_distrib]
    refine sum_congr rfl (fun d _ => ?_)
    rw [← sum_add_distrib]
    exact sum_congr rfl (fun c _ => by ring)
  rw [e]
  linarith

end

/-- The size of the tractions in the example with Tresca friction. -/
theorem exY_traction (theta : ℝ) (v : ℕ → ℝ) :
    tractionSquare exY ((Tracked.new ()).history (exSysOpsT theta)) .tresca v
      = (5 * v 0 + 22 * v 1) ^ 2 + (6 * v 0 + 3 * v 1) ^ 2 := by
  simp [tractionSquare, ContactPoint.tractionSquare, ContactPoint.dot, ContactPoint.tang, ContactPoint.trac, pointAt,
    contactNormalAt, outwardAt, gradAt, weightAt, exY, exSysOpsT, Tracked.history, Tracked.call, vals, sum_range_succ,
    Elasticity.traction_eq]
  ring

/-- The hypotheses of C143 and C144 hold for the example with Tresca friction, dof 0 constrained, and bodies with
stiffness matrix `100`: for theta = -1 and for theta = 1. -/
example (theta : ℝ) (ht : theta = -1 ∨ theta = 1) :
    Coercive exY ((Tracked.new ()).history (exSysOpsT theta)) .tresca 10 theta 4 {1, 2, 3}
      (fun d c => if d = c then 100 else 0)
    ∧ (∀ d ∈ ({1, 2, 3} : Finset ℕ), d < 4) ∧ (0 : ℝ) < 10
    ∧ (∀ i < exY.numPairs, ∀ e < exY.localFacets i, 0 ≤ ((Tracked.new ()).history (exSysOpsT theta)).fric i e 0) := by
  refine ⟨?_, by decide, by norm_num, ?_⟩
  · rintro v hv ⟨d, hd⟩
    have h0 : v 0 = 0 := hv 0 (by decide)
    have hpos : 0 < v 1 ^ 2 + v 2 ^ 2 + v 3 ^ 2 := by
      have hmem : d ∈ ({1, 2, 3} : Finset ℕ) := by
        by_contra h
        exact hd (hv d h)
      simp only [Finset.mem_insert, Finset.mem_singleton] at hmem
      rcases hmem with rfl | rfl | rfl <;> positivity
    rw [exY_traction, h0]
    simp [sum_range_succ, h0]
    rcases ht with rfl | rfl <;> norm_num <;> nlinarith [sq_nonneg (v 1), sq_nonneg (v 2), sq_nonneg (v 3)]
  · intro i hi e he
    simp [exSysOpsT, Tracked.history, Tracked.call, vals]

end

end Verif.ContactProblem
