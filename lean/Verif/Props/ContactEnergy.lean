import Verif.Spec.ContactEnergy
import Verif.Props.SystemTangent
import Mathlib.Analysis.Calculus.LocalExtr.Basic

/-!
C135: the symmetric variant of Nitsche's method is the gradient of an energy.
-/

namespace Verif.ContactProblem

open Verif.Spec Verif.Packing Verif.Assembly Verif.Entities Verif.Kernels Finset

noncomputable section

variable {G : Type} {Y : System G}

section Point

variable {p : ContactPoint} {J : ℝ → ℕ → ℝ} {D : ℝ → ℕ → ℕ → ℝ} {K : ℕ → ℝ} {E : ℕ → ℕ → ℝ} {t : ℝ}

/-- The square of the positive part is differentiable everywhere. -/
theorem pos_sq_deriv (x : ℝ) : HasDerivAt (fun s : ℝ => max 0 s ^ 2) (2 * max 0 x) x := by
  rcases lt_trichotomy x 0 with h | rfl | h
  · rw [max_eq_left h.le, mul_zero]
    refine (hasDerivAt_const x (0 : ℝ)).congr_of_eventuallyEq ?_
    filter_upwards [eventually_lt_nhds h] with s hs
    rw [max_eq_left hs.le]; norm_num
  · rw [max_self, mul_zero, hasDerivAt_iff_isLittleO_nhds_zero]
    refine Asymptotics.IsBigO.trans_isLittleO (g := fun h : ℝ => h ^ 2) ?_ ?_
    · refine Asymptotics.IsBigO.of_bound 1 (Filter.Eventually.of_forall (fun h => ?_))
      rw [zero_add, max_self, smul_zero, sub_zero, zero_pow two_ne_zero, sub_zero, one_mul, norm_pow, norm_pow,
        Real.norm_eq_abs, Real.norm_eq_abs]
      refine pow_le_pow_left₀ (abs_nonneg _) ?_ 2
      rw [abs_of_nonneg (le_max_left _ _)]
      exact max_le (abs_nonneg _) (le_abs_self _)
    · exact Asymptotics.isLittleO_pow_id one_lt_two
  · rw [max_eq_right h.le]
    have : HasDerivAt (fun s : ℝ => s ^ 2) (2 * x) x := by simpa using hasDerivAt_pow 2 x
    refine this.congr_of_eventuallyEq ?_
    filter_upwards [eventually_gt_nhds h] with s hs
    rw [max_eq_right hs.le]

/-- `slipWork` without cases. -/
theorem slipWork_eq (g : ℕ) (x : ℕ → ℝ) (r : ℝ) :
    slipWork g x r = 1 / 2 * ∑ a ∈ range g, x a ^ 2 - 1 / 2 * max 0 (Real.sqrt (∑ a ∈ range g, x a ^ 2) - r) ^ 2 := by
  unfold slipWork
  split
  · rename_i h
    rw [max_eq_left (by linarith)]; ring
  · rename_i h
    have h0 : 0 ≤ ∑ a ∈ range g, x a ^ 2 := sum_nonneg (fun _ _ => sq_nonneg _)
    rw [max_eq_right (by linarith [not_le.mp h])]
    nlinarith [Real.sq_sqrt h0]

/-- The projection onto the friction ball is the gradient of `slipWork`, also where stick turns into slip. -/
theorem slipWork_deriv {g : ℕ} {x : ℝ → ℕ → ℝ} {x' : ℕ → ℝ} {r : ℝ} (h0 : 0 ≤ r)
    (hx : ∀ a < g, HasDerivAt (fun s => x s a) (x' a) t) :
    HasDerivAt (fun s => slipWork g (x s) r) (∑ a ∈ range g, ball g (x t) r a * x' a) t := by
  have hS : HasDerivAt (fun s => ∑ a ∈ range g, x s a ^ 2) (2 * ∑ a ∈ range g, x t a * x' a) t := by
    rw [mul_sum]
    refine HasDerivAt.fun_sum (fun a ha => ((hx a (mem_range.mp ha)).fun_pow 2).congr_deriv ?_)
    norm_num; ring
  have hnn : ∀ s, 0 ≤ ∑ a ∈ range g, x s a ^ 2 := fun s => sum_nonneg (fun _ _ => sq_nonneg _)
  obtain ⟨N, hN⟩ : ∃ N, N = Real.sqrt (∑ a ∈ range g, x t a ^ 2) := ⟨_, rfl⟩
  have hcont : ContinuousAt (fun s => Real.sqrt (∑ a ∈ range g, x s a ^ 2)) t := hS.continuousAt.sqrt
  by_cases hlt : N < r
  · -- stick
    have hb : ∀ a, ball g (x t) r a = x t a := fun a => by
      unfold ball; rw [← hN, if_pos hlt.le]
    simp only [hb]
    refine ((hS.const_mul (1 / 2)).congr_deriv (by ring)).congr_of_eventuallyEq ?_
    filter_upwards [hcont.eventually_lt continuousAt_const (by rw [← hN]; exact hlt)] with s hs
    exact if_pos hs.le
  · by_cases hz : N = 0
    · have hr : r = 0 := le_antisymm (by linarith) h0
      have e1 : (fun s => slipWork g (x s) r) = fun _ => 0 := by
        funext s
        rw [slipWork_eq, hr, sub_zero, max_eq_right (Real.sqrt_nonneg _), Real.sq_sqrt (hnn s)]; ring
      have e2 : ∀ a ∈ range g, ball g (x t) r a * x' a = 0 := by
        intro a ha
        have hza : x t a = 0 := by
          have : ∑ a ∈ range g, x t a ^ 2 = 0 := by
            rw [hN] at hz
            exact (Real.sqrt_eq_zero (hnn t)).mp hz
          exact pow_eq_zero_iff two_ne_zero |>.mp ((sum_eq_zero_iff_of_nonneg (fun _ _ => sq_nonneg _)).mp this a ha)
        unfold ball
        rw [← hN, if_pos (by linarith), hza, zero_mul]
      rw [e1, sum_eq_zero e2]
      exact hasDerivAt_const _ _
    · have hpos : 0 < N := lt_of_le_of_ne (hN ▸ Real.sqrt_nonneg _) (Ne.symm hz)
      have hsum : ∑ a ∈ range g, x t a ^ 2 ≠ 0 := by
        intro h; rw [h, Real.sqrt_zero] at hN; exact hz hN
      have hq := ((pos_sq_deriv (N - r)).comp_of_eq t ((hS.sqrt hsum).sub_const r) (by rw [← hN]))
      simp only [slipWork_eq]
      refine ((hS.const_mul (1 / 2)).fun_sub (hq.const_mul (1 / 2))).congr_deriv ?_
      rw [max_eq_right (by linarith), ← hN]
      have hb : ∀ a, ball g (x t) r a = r / N * x t a := by
        intro a
        unfold ball
        rw [← hN]
        split
        · have : N = r := le_antisymm ‹_› (not_lt.mp hlt)
          rw [← this, div_self hz, one_mul]
        · ring
      simp only [hb, mul_assoc]
      rw [← mul_sum (range g) (fun a => x t a * x' a) (r / N)]
      obtain ⟨S, hS⟩ : ∃ S, S = ∑ a ∈ range g, x t a * x' a := ⟨_, rfl⟩
      rw [← hS]
      field_simp
      ring

/-- The form of a point with `theta = 1` is the derivative of its energy. -/
theorem energy_deriv (law : Law) (hl : law ≠ .coulomb) (gamma : ℝ)
    (hr : law = .tresca → 0 ≤ p.h / gamma * p.fric)
    (hJ : ∀ a < p.g, HasDerivAt (fun s => J s a) (K a) t)
    (hD : ∀ a < p.g, ∀ b < p.g, HasDerivAt (fun s => D s a b) (E a b) t) :
    HasDerivAt (fun s => p.energy law gamma (J s) (D s)) (p.form law gamma 1 (J t) (D t) K E) t := by
  unfold ContactPoint.energy ContactPoint.form
  refine HasDerivAt.fun_add (HasDerivAt.congr_deriv (HasDerivAt.fun_sub
    (((pos_sq_deriv _).comp t (pressure_deriv gamma hJ hD)).const_mul _)
    (((dot_deriv (fun a ha => trac_deriv hD ha)).fun_pow 2).const_mul _)) ?_) ?_
  · unfold ContactPoint.normalPart ContactPoint.dPressure
    norm_num
    ring
  · cases law with
    | frictionless => simp only [if_true]; exact hasDerivAt_const _ _
    | coulomb => exact absurd rfl hl
    | tresca =>
      simp only [reduceCtorEq, if_false]
      refine HasDerivAt.congr_deriv (HasDerivAt.fun_sub
        ((slipWork_deriv (hr rfl) (fun a ha => slip_deriv gamma hJ hD ha)).const_mul _)
        ((HasDerivAt.fun_sum (fun a ha =>
          (tang_deriv (fun a ha => trac_deriv hD ha) (mem_range.mp ha)).fun_pow 2)).const_mul _)) ?_
      unfold ContactPoint.frictionPart
      congr 1
      · congr 1
        refine sum_congr rfl (fun a _ => ?_)
        unfold ContactPoint.projected ContactPoint.slip
        ring
      · rw [mul_sum, mul_sum]
        refine sum_congr rfl (fun a _ => ?_)
        norm_num
        ring

end Point

/-- The form with `theta = 1` is the derivative of the energy, at every displacement. -/
theorem contactEnergy_deriv (Y : System G) (t : Tracked G) (law : Law) (hl : law ≠ .coulomb) (gamma : ℝ)
    (hr : NonnegativeFriction Y t law gamma) (u w : ℕ → ℝ) :
    HasDerivAt (fun s => contactEnergy Y t law gamma (fun d => u d + s * w d))
      (contactForm Y t law gamma 1 u w) 0 := by
  unfold contactForm contactEnergy
  refine HasDerivAt.fun_sum (fun i hi => HasDerivAt.fun_sum (fun e he => ?_))
  have hi' := mem_range.mp hi
  have he' := mem_range.mp he
  cases hf : (Y.facets i)[e]? with
  | none => exact hasDerivAt_const _ _
  | some c =>
    obtain ⟨cell, f⟩ := c
    simp only [Option.elim_some]
    refine HasDerivAt.fun_sum (fun q hq => ?_)
    by_cases hl' : 0 ≤ Y.map t.cur i (e * Y.nq + q)
    · simp only [if_pos hl']
      refine HasDerivAt.const_mul _ ?_
      have e0 : (fun d => u d + 0 * w d) = u := by funext d; ring
      have := energy_deriv (p := pointAt Y t i e cell f q)
        (J := fun s => jumpAt Y t.cur i e cell f (fun d => u d + s * w d) q)
        (D := fun s a b => gradAt Y cell f (fun d => u d + s * w d) q a b + (pointAt Y t i e cell f q).grad0 a b)
        (K := jumpAt Y t.cur i e cell f w q) (E := gradAt Y cell f w q) (t := 0) law hl gamma
        (fun h => by have := hr i hi' e he'; rw [h] at this; exact this)
        (fun a _ => by simp only [jumpAt_line]; exact line_deriv _ _)
        (fun a _ b _ => by simp only [gradAt_line]; exact (line_deriv _ _).add_const _)
      simp only [e0] at this
      exact this
    · simp only [if_neg hl']
      exact hasDerivAt_const _ _

/-- C135: with `theta = 1` and no friction or Tresca friction the vector `assemble_vector` builds is the
gradient of the contact energy, at every displacement, also where the contact status switches. -/
theorem C135_energy (hY : System.Valid Y) (ops : List (Op G)) (hops : ∀ op ∈ ops, OpShaped Y.static op)
    (g : G) (law : Law) (hlaw : lastLaw ops none = some law) (hl : law ≠ .coulomb)
    (h23 : law ≠ .frictionless → Y.gdim = 2 ∨ Y.gdim = 3)
    (gamma : ℝ) (hconsts : lastConsts ops none = some (gamma, 1))
    (hr : NonnegativeFriction Y ((Tracked.new g).history ops) law gamma)
    (s : State G) (hs : s = history Y.static ops (init Y.static g)) (hc : s.coeffs ≠ none)
    (N : ℕ) (hN : DofsBelow Y N) (u : ℕ → ℝ) :
    ∃ (s' : State G) (b : Arr ℕ), updateContactData Y.static (Y.du u) s = .ok s' ∧ Y.assembleVector s' 0 = .ok b
      ∧ ∀ w : ℕ → ℝ, HasDerivAt (fun x => contactEnergy Y ((Tracked.new g).history ops) law gamma (fun d => u d + x * w d))
        (∑ d ∈ range N, b d * w d) 0 := by
  have hv := fun v : ℕ → ℝ => C114_form hY ops hops g law hlaw h23 gamma 1 hconsts s hs hc N hN u v
  obtain ⟨s', b, h1, h2, -⟩ := hv 0
  refine ⟨s', b, h1, h2, fun w => ?_⟩
  obtain ⟨s2, b2, k1, k2, k3⟩ := hv w
  obtain rfl : s2 = s' := Except.ok.inj (k1.symm.trans h1)
  obtain rfl : b2 = b := Except.ok.inj (k2.symm.trans h2)
  rw [k3]
  exact contactEnergy_deriv Y _ law hl gamma hr u w

theorem quadratic_deriv (N : ℕ) (K : ℕ → ℕ → ℝ) (hK : ∀ d < N, ∀ c < N, K d c = K c d) (l u w : ℕ → ℝ) :
    HasDerivAt (fun x : ℝ => 1 / 2 * ∑ d ∈ range N, ∑ c ∈ range N, K d c * (u d + x * w d) * (u c + x * w c)
      - ∑ d ∈ range N, l d * (u d + x * w d)) (∑ d ∈ range N, (∑ c ∈ range N, K d c * u c - l d) * w d) 0 := by
  have h1 : HasDerivAt (fun x : ℝ => ∑ d ∈ range N, ∑ c ∈ range N, K d c * (u d + x * w d) * (u c + x * w c))
      (∑ d ∈ range N, ∑ c ∈ range N, (K d c * w d * u c + K d c * u d * w c)) 0 :=
    HasDerivAt.fun_sum (fun d _ => HasDerivAt.fun_sum (fun c _ => by
      refine (((line_deriv (u d) (w d)).const_mul (K d c)).fun_mul (line_deriv (u c) (w c))).congr_deriv ?_
      ring))
  have h2 : HasDerivAt (fun x : ℝ => ∑ d ∈ range N, l d * (u d + x * w d)) (∑ d ∈ range N, l d * w d) 0 :=
    HasDerivAt.fun_sum (fun d _ => (line_deriv (u d) (w d)).const_mul (l d))
  refine ((h1.const_mul (1 / 2)).fun_sub h2).congr_deriv ?_
  have e1 : ∑ d ∈ range N, ∑ c ∈ range N, K d c * u d * w c = ∑ d ∈ range N, ∑ c ∈ range N, K d c * w d * u c := by
    rw [sum_comm]
    exact sum_congr rfl (fun d hd => sum_congr rfl (fun c hc => by
      rw [hK d (mem_range.mp hd) c (mem_range.mp hc)]; ring))
  simp only [sum_add_distrib, e1, sub_mul, sum_sub_distrib, sum_mul]
  rw [← two_mul, ← mul_assoc]
  norm_num
  exact sum_congr rfl (fun d _ => sum_congr rfl (fun c _ => by ring))

/-- C135: a displacement at which bulk energy plus contact energy is least satisfies the assembled equations:
stiffness matrix times displacement minus load plus contact vector is zero. -/
theorem C135_minimiser (hY : System.Valid Y) (ops : List (Op G)) (hops : ∀ op ∈ ops, OpShaped Y.static op)
    (g : G) (law : Law) (hlaw : lastLaw ops none = some law) (hl : law ≠ .coulomb)
    (h23 : law ≠ .frictionless → Y.gdim = 2 ∨ Y.gdim = 3)
    (gamma : ℝ) (hconsts : lastConsts ops none = some (gamma, 1))
    (hr : NonnegativeFriction Y ((Tracked.new g).history ops) law gamma)
    (s : State G) (hs : s = history Y.static ops (init Y.static g)) (hc : s.coeffs ≠ none)
    (N : ℕ) (hN : DofsBelow Y N) (K : ℕ → ℕ → ℝ) (hK : ∀ d < N, ∀ c < N, K d c = K c d) (l u : ℕ → ℝ)
    (hmin : ∀ v : ℕ → ℝ,
      1 / 2 * ∑ d ∈ range N, ∑ c ∈ range N, K d c * u d * u c - ∑ d ∈ range N, l d * u d
        + contactEnergy Y ((Tracked.new g).history ops) law gamma u
      ≤ 1 / 2 * ∑ d ∈ range N, ∑ c ∈ range N, K d c * v d * v c - ∑ d ∈ range N, l d * v d
        + contactEnergy Y ((Tracked.new g).history ops) law gamma v) :
    ∃ (s' : State G) (b : Arr ℕ), updateContactData Y.static (Y.du u) s = .ok s' ∧ Y.assembleVector s' 0 = .ok b
      ∧ ∀ d < N, ∑ c ∈ range N, K d c * u c - l d + b d = 0 := by
  obtain ⟨s', b, h1, h2, h3⟩ := C135_energy hY ops hops g law hlaw hl h23 gamma hconsts hr s hs hc N hN u
  refine ⟨s', b, h1, h2, fun d hd => ?_⟩
  obtain ⟨w, hw⟩ : ∃ w : ℕ → ℝ, w = fun c => if c = d then 1 else 0 := ⟨_, rfl⟩
  have hder := (quadratic_deriv N K hK l u w).fun_add (h3 w)
  have hloc : IsLocalMin (fun x : ℝ => 1 / 2 * ∑ d ∈ range N, ∑ c ∈ range N, K d c * (u d + x * w d) * (u c + x * w c)
      - ∑ d ∈ range N, l d * (u d + x * w d)
      + contactEnergy Y ((Tracked.new g).history ops) law gamma (fun d => u d + x * w d)) 0 := by
    refine Filter.Eventually.of_forall (fun x => ?_)
    have e0 : (fun d => u d + 0 * w d) = u := by funext d; ring
    have := hmin (fun d => u d + x * w d)
    have e1 : ∀ d, u d + 0 * w d = u d := fun d => by ring
    simp only [e1]
    exact this
  have hz := hloc.hasDerivAt_eq_zero hder
  rw [hw] at hz
  simpa [mul_ite, sum_ite_eq', hd] using hz

/-- Tresca friction with bound `0.5` and `theta = 1`. -/
def exOpsSym : List (Op Unit) :=
  [.generate ⟨.tresca, some (fun _ => ⟨1, 1, fun _ _ => 3⟩), some (fun _ => ⟨1, 1, fun _ _ => 5⟩),
    some (fun _ => ⟨1, 1, fun _ _ => 0.5⟩), none, none, fun _ => ⟨1, 1, fun _ _ => 1⟩, 1, 1⟩]

/-- The hypotheses of C135 hold for the example with Tresca friction. -/
example : System.Valid exY ∧ (∀ op ∈ exOpsSym, OpShaped exY.static op) ∧ lastLaw exOpsSym none = some .tresca
    ∧ exY.gdim = 2 ∧ lastConsts exOpsSym none = some (1, 1)
    ∧ NonnegativeFriction exY ((Tracked.new ()).history exOpsSym) .tresca 1
    ∧ (history exY.static exOpsSym (init exY.static ())).coeffs ≠ none ∧ DofsBelow exY 4 := by
  have hsh : ∀ op ∈ exOpsSym, OpShaped exY.static op := by
    simp [exOpsSym, OpShaped, ScalarShaped, System.static, exY]
  refine ⟨exY_valid, hsh, rfl, rfl, rfl, ?_, ?_, exY_below⟩
  · intro i hi e he
    obtain rfl : i = 0 := by have : i < 1 := hi; omega
    obtain rfl : e = 0 := by have : e < 1 := he; omega
    simp [exOpsSym, Tracked.history, Tracked.call, vals, exY]
    norm_num
  · rcases C38_size (static_shaped exY_valid) _ hsh () with ⟨h, -⟩ | ⟨-, cs, h, -⟩
    · simp [exOpsSym, Tracked.history, Tracked.call] at h
    · rw [h]; simp

end

end Verif.ContactProblem
