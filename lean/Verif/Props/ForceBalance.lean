import Verif.Props.HertzSteps
import Verif.Spec.ForceBalance

/-!
C223: in the force driven computation of two cylinders contact carries the pressure and then the tangential traction.
-/

namespace Verif.ContactProblem

open Verif.Spec Verif.Packing Verif.Assembly Verif.Hertz Finset

variable {G : Type} {Y : System G}

theorem upper_load {D : CylinderDofs} {inner : (ℕ → ℝ) → ℕ → ℝ} {w : ℕ → ℝ} {B : Finset ℕ} {size : ℝ}
    (h : UpperBody D inner w B size) (stiff : (ℕ → ℝ) → ℕ → ℕ → ℝ) (bc : ℕ → Option ℝ) (tx ty : ℝ) {n : ℕ} (hn : n < 2) :
    BodyWithLoad 2 ⟨underTraction D inner w tx ty, stiff, bc⟩ B n ((if n = 0 then tx else ty) * size) := by
  intro u
  have e : ∑ d ∈ B with d % 2 = n, underTraction D inner w tx ty u d
      = ∑ d ∈ B with d % 2 = n, (inner u d - (if n = 0 then tx else ty) * w d) := by
    refine sum_congr rfl (fun d hd => ?_)
    obtain ⟨h1, h2⟩ := mem_filter.mp hd
    rw [underTraction, h.comp d h1, h2]
  show ∑ d ∈ B with d % 2 = n, underTraction D inner w tx ty u d = _
  rw [e, sum_sub_distrib, h.unstrained n hn, ← mul_sum, h.measure n hn]
  ring

/-- C223: if the program ends without an exception, contact pushes the upper cylinder upwards in load step `i` of the first
phase with `(i + 1) / 4` of the pressure times the length of the top, and in load step `i - 4` of the second phase it holds
it back with `(i - 4 + 1) / 8` of the tangential traction times that length, up to multiples of the tolerance. -/
theorem C223_forces (hY : System.Valid Y) (Z : Setting G) (hN : DofsBelow Y Z.numDofs) (opts : Newton.Opts)
    (hcrit : opts.crit = .residual) (herr : opts.errorOnNonconvergence = true) (rank0 : Bool) (D : CylinderDofs)
    (inner : (ℕ → ℝ) → ℕ → ℝ) (stiff : (ℕ → ℝ) → ℕ → ℕ → ℝ) (w : ℕ → ℝ) (hD : TopDofs D w)
    (lin1 lin2 : (ℕ × ℕ → ℝ) → (ℕ → ℝ) → (ℕ → ℝ) → (ℕ → ℝ) × ℕ × ℤ) (p q : ℝ)
    (P1 P2 : Phase) (hP1 : PhaseShaped Y.static P1) (hP2 : PhaseShaped Y.static P2) (hdim : Y.gdim = 2)
    (B : Finset ℕ) (hB : B ⊆ range Z.numDofs) (size : ℝ) (hbody : UpperBody D inner w B size)
    (out : List Report × Option DriverErr)
    (hout : out = actions Y Z rank0 (forceDriven D inner stiff w lin1 lin2 p q P1 P2) (newRun Y Z opts))
    (hend : out.2 = none) (i : ℕ) (R : Report) (hR : out.1[i]? = some R) :
    (i < 4 →
      |contactPush Y
          (stepData Y Z.place (vals P1.mu) (vals P1.lam) (P1.fric.elim (fun _ _ _ => 0) vals) (vals P1.h) R.before
            (totalAfter out.1 (i - 1)))
          P1.law P1.gamma P1.theta R.du B 1
        - ((i : ℝ) + 1) / 4 * p * size|
      ≤ opts.atol * balanceFactor 2 ⟨underTraction D inner w 0 (-(((i : ℝ) + 1) / 4 * p)), stiff, forceBc1 D⟩ Z.numDofs
          (fun c => R.before c + R.du c) B 1)
    ∧ (4 ≤ i → ∀ f, P2.fric = some f →
      |contactPush Y
          (stepData Y Z.place (vals P2.mu) (vals P2.lam) (vals f) (vals P2.h) R.before (totalAfter out.1 (i - 1)))
          P2.law P2.gamma P2.theta R.du B 0
        + (((i - 4 : ℕ) : ℝ) + 1) / 8 * q * size|
      ≤ opts.atol * balanceFactor 2 ⟨underTraction D inner w ((((i - 4 : ℕ) : ℝ) + 1) / 8 * q) (-p), stiff, forceBc2 D⟩
          Z.numDofs (fun c => R.before c + R.du c) B 0) := by
  obtain ⟨-, -, h1, h2⟩ := (C221_loads hY Z hN opts hcrit herr rank0 D inner stiff w hD lin1 lin2 p q P1 P2 hP1 hP2 hdim out hout
    hend).2.2.2 i R hR
  refine ⟨fun hi => ?_, fun hi f hf => ?_⟩
  · have hbal := body_balance (h1 hi) hB (by rw [hdim]; exact upper_load hbody stiff _ _ _ (n := 1) (by norm_num))
    rw [supportPush_free (Y := Y) _ _ _ _ _ _ _ _ _ (fun d hd hn => by
      rw [hdim] at hn
      show forceBc1 D d = none
      rw [forceBc1, hbody.bottom d hd, if_neg (by simp)]
      cases hs : D.symmetry d with
      | false => simp
      | true =>
        have := hbody.symmetry d hd hs
        omega), zero_add, if_neg (by norm_num), hdim] at hbal
    have e : ((i : ℝ) + 1) / 4 * p * size = -(-(((i : ℝ) + 1) / 4 * p) * size) := by ring
    rw [e, sub_neg_eq_add]
    exact hbal
  · have hbal := body_balance (h2 hi f hf) hB (by rw [hdim]; exact upper_load hbody stiff _ _ _ (n := 0) (by norm_num))
    rw [supportPush_free (Y := Y) _ _ _ _ _ _ _ _ _ (fun d hd hn => by
      rw [hdim] at hn
      show forceBc2 D d = none
      rw [forceBc2, hbody.bottom d hd]
      cases hs : D.constraint d with
      | false => simp
      | true =>
        have := ((hD.held d).mp hs).2
        rw [hbody.comp d hd] at this
        omega), zero_add, if_pos rfl, hdim] at hbal
    exact hbal

/-! ### a computation which meets the hypotheses -/

section

/-- A load step for which the residual is `x - g` as long as `W` holds converges. -/
theorem shift_step {mu lam fric h : Packed} {law : Law} {gamma theta : ℝ} {S : PhaseStep} (hlin : S.linSolve = exSame)
    (g : ℕ → ℝ) (W : (ℕ → ℝ) → Prop) {uold : ℕ → ℝ} {r : Run Unit}
    (H : BeforeStep exYc exSinkSetting mu lam fric h law gamma theta true exOpts uold r)
    (hstiff : ∀ u d c, d ≠ c → S.load.stiff u d c = 0)
    (hfree : ∀ x, W x → ∀ d < 4, S.load.bc d = none →
      contactForm exYc (stepData exYc exSinkSetting.place mu lam fric h r.u uold) law gamma theta x (unit d)
        + S.load.bulk (fun c => r.u c + x c) d = x d - g d)
    (hbc : ∀ d < 4, ∀ v, S.load.bc d = some v → g d = v)
    (hW : W (presetBc S.preset r.solver.x)) (hWg : ∀ y, (∀ d < 4, y d = g d) → W y)
    (hne : r.solver.initialResidual ≠ 0 ∨ ∃ d < 4, presetBc S.preset r.solver.x d ≠ g d) :
    ∃ R r' x, phaseStep exYc exSinkSetting true S r = .ok (R, r')
      ∧ BeforeStep exYc exSinkSetting mu lam fric h law gamma theta true exOpts r.u r'
      ∧ W x ∧ r'.solver.x = (fun d => S.factor * x d) ∧ r'.solver.initialResidual ≠ 0 := by
  obtain ⟨hready, hopts, ops, hops, hlaw, hconsts, hco, hsame⟩ := id H
  obtain ⟨Z', hZ'⟩ : ∃ Z' : Setting Unit, Z' = { exSinkSetting with linSolve := S.linSolve } := ⟨_, rfl⟩
  obtain ⟨r0, hr0⟩ : ∃ r0, r0 = { r.solver with x := presetBc S.preset r.solver.x } := ⟨_, rfl⟩
  have hn : Z'.numDofs = 4 := by rw [hZ']; rfl
  have hx0 : r0.x = presetBc S.preset r.solver.x := by rw [hr0]
  have hres : ∀ x s, W x → Reached exYc ops (exSinkSetting.place fun _ => 0) s → ∀ d < 4,
      (driverProblem exYc Z' S.load r.u).residual x ((driverProblem exYc Z' S.load r.u).coefficients x s) d
        = x d - g d := by
    intro x s hx hc d hd
    show driverResidual exYc Z' S.load r.u x (driverCoefficients exYc x s) d = _
    unfold driverResidual
    dsimp only
    cases hb : S.load.bc d with
    | none =>
      rw [Option.elim_none, driver_entry exYc_valid hops hlaw (fun _ => Or.inl rfl) hconsts hsame.created exYc_below4
        hc x hd, hsame.form, hfree x hx d hd hb, sum_eq_zero, mul_zero, sub_zero]
      intro c' _
      cases hb' : S.load.bc c' with
      | none => rfl
      | some v =>
        have hdc : d ≠ c' := by rintro rfl; rw [hb] at hb'; cases hb'
        rw [Option.elim_some, hstiff _ _ _ hdc, zero_mul]
    | some v =>
      rw [Option.elim_some, hbc d hd v hb]
      norm_num
  obtain ⟨s', n, hsolve, hir, hW'⟩ := solve_shift_in (driverProblem exYc Z' S.load r.u) 4 g
    (Reached exYc ops (exSinkSetting.place fun _ => 0)) W
    (fun x c hc => reached_coefficients x c hc) hres
    (fun A b d => by show Z'.linSolve A b d = _; rw [hZ']; show S.linSolve A b d = _; rw [hlin]; rfl) (fun _ => rfl) (fun _ => rfl)
    (fun b => by rw [← hn]; rfl) (fun b => by rw [← hn]; rfl) true r0 (by rw [hr0]; exact hready)
    (by rw [hr0]; exact ⟨[], by simp [updates, hco]⟩) (by rw [hr0]; show r.solver.opts.crit = _; rw [hopts]; rfl)
    (by rw [hr0]; show 0 < r.solver.opts.atol; rw [hopts]; norm_num [exOpts])
    (by rw [hr0]; show 0 < r.solver.opts.rtol; rw [hopts]; norm_num [exOpts])
    (by rw [hr0]; show 1 ≤ r.solver.opts.maxIt; rw [hopts]; norm_num [exOpts])
    (by rw [hx0]; exact hW) hWg (by rw [hx0, hr0]; exact hne)
  rcases phaseStep_ok exYc_valid (fun _ => Or.inl rfl) exYc_below4 rfl (S := S) H with ⟨e, he⟩ | ⟨R, r', hR, -, -, hB, -⟩
  · unfold phaseStep at he
    rw [← hZ', ← hr0, hsolve] at he
    dsimp only at he
    split at he
    · cases he
    · split at he <;> cases he
  · refine ⟨R, r', s'.x, hR, hB, hW', ?_⟩
    unfold phaseStep at hR
    rw [← hZ', ← hr0, hsolve] at hR
    dsimp only at hR
    split at hR
    · cases hR
    · split at hR
      · cases hR
      · obtain ⟨rfl, rfl⟩ := Prod.mk.inj (Except.ok.inj hR)
        exact ⟨rfl, hir⟩

/-- Coulomb friction with coefficient 1 between dofs 0, 1 and 2, 3, which overlap by 2, in stick. -/
theorem exStick_form (t : Tracked Unit) (ht : t.h 0 0 0 = 1) (hfr : t.fric 0 0 0 = 1)
    (hg : ∀ a < 2, ∀ b < 2, t.gradU 0 0 ((0 * 2 + a) * 2 + b) = 0)
    (x : ℕ → ℝ) (hx : |x 0 - x 2| ≤ 2 - x 1 + x 3) :
    contactForm exYc t .coulomb 2 1 x (unit 0) = x 0 - x 2 := by
  obtain ⟨P, hP⟩ : ∃ P, P = pointAt exYc t 0 0 0 2 0 := ⟨_, rfl⟩
  have hPg : P.g = 2 := by rw [hP]; rfl
  have z : ∀ (u : ℕ → ℝ) (a b : ℕ), gradAt exYc 0 2 u 0 a b = 0 := by
    intro u a b
    simp [gradAt, exYc]
  have tr : ∀ D : ℕ → ℕ → ℝ, (∀ a < 2, ∀ b < 2, D a b = 0) → ∀ a < 2, P.trac D a = 0 := by
    intro D hD a ha
    exact trac_zero P (fun a ha b hb => hD a (by omega) b (by omega)) (by omega)
  have dz : ∀ D : ℕ → ℕ → ℝ, (∀ a < 2, ∀ b < 2, D a b = 0) → P.dot (P.trac D) = 0 := by
    intro D hD
    refine sum_eq_zero (fun a ha => ?_)
    rw [tr D hD a (by have := mem_range.mp ha; omega), zero_mul]
  have tz : ∀ D : ℕ → ℕ → ℝ, (∀ a < 2, ∀ b < 2, D a b = 0) → ∀ a < 2, P.tang (P.trac D) a = 0 := by
    intro D hD a ha
    rw [ContactPoint.tang, dz D hD, tr D hD a ha]
    ring
  obtain ⟨Du, hDu⟩ : ∃ Du : ℕ → ℕ → ℝ, Du = fun a b => gradAt exYc 0 2 x 0 a b + P.grad0 a b := ⟨_, rfl⟩
  have hDu0 : ∀ a < 2, ∀ b < 2, Du a b = 0 := by
    intro a ha b hb
    rw [hDu, hP]
    show gradAt exYc 0 2 x 0 a b + _ = _
    rw [z, zero_add]
    exact hg a ha b hb
  obtain ⟨J, hJ⟩ : ∃ J, J = jumpAt exYc t.cur 0 0 0 2 x 0 := ⟨_, rfl⟩
  obtain ⟨T, hT⟩ : ∃ T, T = jumpAt exYc t.cur 0 0 0 2 (unit 0) 0 := ⟨_, rfl⟩
  obtain ⟨E, hE⟩ : ∃ E, E = gradAt exYc 0 2 (unit 0) 0 := ⟨_, rfl⟩
  have hE0 : ∀ a < 2, ∀ b < 2, E a b = 0 := fun a _ b _ => by rw [hE]; exact z _ a b
  have e1 : contactForm exYc t .coulomb 2 1 x (unit 0) = P.form .coulomb 2 1 J Du T E := by
    have hw : weightAt exYc 0 2 0 = 1 := by simp [weightAt, exYc, exY]
    rw [← one_mul (P.form _ _ _ _ _ _ _), ← hw, hP, hJ, hT, hE, hDu, hP]
    unfold contactForm
    simp [exYc, exY]
  have hn0 : P.normal 0 = 0 := by rw [hP]; simp [pointAt, contactNormalAt, exYc, exY]
  have hn1 : P.normal 1 = -1 := by rw [hP]; simp [pointAt, contactNormalAt, exYc, exY]
  have hdot : ∀ y : ℕ → ℝ, P.dot y = -y 1 := by
    intro y
    rw [ContactPoint.dot, hPg, sum_range_succ, sum_range_succ, sum_range_zero, hn0, hn1]
    ring
  have htang : ∀ y : ℕ → ℝ, P.tang y 0 = y 0 ∧ P.tang y 1 = 0 := by
    intro y
    rw [ContactPoint.tang, ContactPoint.tang, hdot, hn0, hn1]
    constructor <;> ring
  have hold : P.oldNormal = P.normal := by rw [hP]; rfl
  have hh : P.h = 1 := by rw [hP]; exact ht
  have hf : P.fric = 1 := by rw [hP]; exact hfr
  have hgap : P.gap 1 = 2 := by rw [hP]; simp [pointAt, exYc, exY]
  have hJ0 : J 0 = x 0 - x 2 := by rw [hJ]; simp [jumpAt, valueAt, oppositeAt, exYc, exY]
  have hJ1 : J 1 = x 1 - x 3 := by rw [hJ]; simp [jumpAt, valueAt, oppositeAt, exYc, exY]
  have hT0 : T 0 = 1 := by rw [hT]; simp [jumpAt, valueAt, oppositeAt, exYc, exY, unit]
  have hT1 : T 1 = 0 := by rw [hT]; simp [jumpAt, valueAt, oppositeAt, exYc, exY, unit]
  have hpr : P.pressure 2 J Du = 2 - x 1 + x 3 := by
    rw [ContactPoint.pressure, dz Du hDu0, hdot, hdot, hJ1, hgap]
    ring
  have hs0 : P.slip 2 J Du 0 - (P.dot P.gap - P.dot J) * P.tang P.oldNormal 0 = x 0 - x 2 := by
    rw [ContactPoint.slip, tz Du hDu0 0 (by norm_num), (htang J).1, hold, (htang P.normal).1, hn0, hJ0]
    ring
  have hs1 : P.slip 2 J Du 1 - (P.dot P.gap - P.dot J) * P.tang P.oldNormal 1 = 0 := by
    rw [ContactPoint.slip, tz Du hDu0 1 (by norm_num), (htang J).2, hold, (htang P.normal).2]
    ring
  have hproj : ∀ a, P.projected .coulomb 2 J Du a
      = P.slip 2 J Du a - (P.dot P.gap - P.dot J) * P.tang P.oldNormal a := by
    intro a
    rw [ContactPoint.projected, ball, if_pos]
    rw [hPg, sum_range_succ, sum_range_succ, sum_range_zero, hs0, hs1, hf, hpr, zero_add, one_mul]
    rw [show (x 0 - x 2) ^ 2 + (0 : ℝ) ^ 2 = (x 0 - x 2) ^ 2 by ring, Real.sqrt_sq_eq_abs]
    exact hx.trans (le_max_right _ _)
  rw [e1, ContactPoint.form, if_neg (by simp), ContactPoint.normalPart, ContactPoint.frictionPart, dz Du hDu0, dz E hE0,
    hdot T, hT1, hPg, sum_range_succ, sum_range_succ, sum_range_zero, sum_range_succ, sum_range_succ, sum_range_zero,
    tz Du hDu0 0 (by norm_num), tz Du hDu0 1 (by norm_num), tz E hE0 0 (by norm_num), tz E hE0 1 (by norm_num), hproj, hproj,
    hs0, hs1, (htang T).1, hT0, hh]
  ring

/-- The lower body has dofs 2 and 3; dofs 0 and 1 are the top of the upper one. -/
def exCylinders : CylinderDofs where
  symmetry := fun d => decide (d = 0)
  bottom := fun d => decide (d = 2) || decide (d = 3)
  top := fun d => decide (d = 0) || decide (d = 1)
  constraint := fun d => decide (d = 1)
  comp := fun d => d % 2

/-- The top has length one. -/
def exLength (d : ℕ) : ℝ := if d = 0 ∨ d = 1 then 1 else 0

/-- Coulomb friction with coefficient one. -/
noncomputable def exStickPhase : Phase :=
  ⟨.coulomb, fun _ => ⟨1, 1, fun _ _ => 3⟩, fun _ => ⟨1, 1, fun _ _ => 5⟩, some fun _ => ⟨1, 1, fun _ _ => 1⟩,
    fun _ => ⟨1, 1, fun _ _ => 1⟩, 2, 1, id⟩

theorem exStickPhase_shaped : PhaseShaped exYc.static exStickPhase := by
  refine ⟨?_, ?_, ?_, ?_⟩ <;> simp [exStickPhase, ScalarShaped, System.static, exYc, exY]

theorem exCylinders_top : TopDofs exCylinders exLength where
  loaded d hd := by
    by_contra h
    apply hd
    simp only [exCylinders, Bool.or_eq_true, decide_eq_true_eq] at h
    rw [exLength, if_neg h]
  held d := by
    simp only [exCylinders, Bool.or_eq_true, decide_eq_true_eq]
    constructor
    · rintro rfl
      exact ⟨Or.inr rfl, by decide⟩
    · rintro ⟨rfl | rfl, h⟩
      · exact absurd rfl h
      · rfl

theorem exCylinders_upper : UpperBody exCylinders (fun _ _ => 0) exLength {0, 1} 1 where
  unstrained n _ u := by simp
  comp d _ := rfl
  bottom d hd := by
    simp only [Finset.mem_insert, Finset.mem_singleton] at hd
    rcases hd with rfl | rfl <;> rfl
  symmetry d _ h := by
    simp only [exCylinders, decide_eq_true_eq] at h
    omega
  measure n hn := by
    interval_cases n
    · rw [show ({d ∈ ({0, 1} : Finset ℕ) | d % 2 = 0}) = {0} by decide, sum_singleton]
      exact if_pos (Or.inl rfl)
    · rw [show ({d ∈ ({0, 1} : Finset ℕ) | d % 2 = 1}) = {1} by decide, sum_singleton]
      exact if_pos (Or.inr rfl)

/-- Load step of the first phase with pressure `f`, of the second one with tangential traction `f`. -/
noncomputable def exPress (f : ℝ) : PhaseStep :=
  ⟨forceBc1 exCylinders, ⟨withTraction exCylinders (fun _ _ => 0) exLength (pair 0 (-f)), fun _ _ _ => 0, forceBc1 exCylinders⟩, exSame, 0.1⟩

noncomputable def exDrag (f p : ℝ) : PhaseStep :=
  ⟨forceBc2 exCylinders, ⟨withTraction exCylinders (fun _ _ => 0) exLength (pair f p), fun _ _ _ => 0, forceBc2 exCylinders⟩, exSame, 0.1⟩

theorem exGrad_zero (U : ℕ → ℝ) {a b : ℕ} (ha : a < 2) (hb : b < 2) :
    (exYc.packGrad U 0).v 0 ((0 * 2 + a) * 2 + b) = 0 := by
  have := packGrad_gradAt exYc_valid U (i := 0) (e := 0) (cell := 0) (f := 2) rfl (q := 0) (a := a) (b := b) (by decide) ha hb
  exact this.trans (by simp [gradAt, exYc])

theorem exPress_converges {f : ℝ} (hf : 0 ≤ f) (hf1 : f ≤ 1) {uold : ℕ → ℝ} {r : Run Unit}
    (H : BeforeStep exYc exSinkSetting (vals exSinkPhase.mu) (vals exSinkPhase.lam) (fun _ _ _ => 0) (vals exSinkPhase.h)
      .frictionless 2 1 true exOpts uold r)
    (hW : r.solver.x 1 ≤ 2) (hne : r.solver.initialResidual ≠ 0 ∨ r.solver.x 1 < 1) :
    ∃ R r', phaseStep exYc exSinkSetting true (exPress f) r = .ok (R, r')
      ∧ BeforeStep exYc exSinkSetting (vals exSinkPhase.mu) (vals exSinkPhase.lam) (fun _ _ _ => 0) (vals exSinkPhase.h)
        .frictionless 2 1 true exOpts r.u r'
      ∧ (r'.solver.x 1 ≤ 2 ∧ r'.solver.x 0 = 0) ∧ r'.solver.initialResidual ≠ 0 := by
  have hpre : presetBc (exPress f).preset r.solver.x 1 = r.solver.x 1 := rfl
  obtain ⟨R, r', x, h1, h2, h3, h4, h5⟩ := shift_step (S := exPress f) rfl (fun d => if d = 1 then 2 - f else 0)
    (fun x => x 1 ≤ 2 ∧ x 3 = 0 ∧ x 0 = 0) H (fun _ _ _ _ => rfl)
    (fun x hx d hd hb => by
      interval_cases d
      · cases hb
      · rw [exSink_form _ rfl (fun a ha b hb => exGrad_zero r.u ha hb), max_eq_right (by linarith [hx.1, hx.2.1])]
        have e : (exPress f).load.bulk (fun c => r.u c + x c) 1 = f := by
          show withTraction exCylinders (fun _ _ => 0) exLength (pair 0 (-f)) (fun c => r.u c + x c) 1 = _
          simp [withTraction, pair, exCylinders, exLength]
        rw [e, hx.2.1, if_pos rfl]
        ring
      · cases hb
      · cases hb)
    (fun d hd v hb => by
      interval_cases d
      · exact Option.some.inj hb
      · cases hb
      · exact Option.some.inj hb
      · exact Option.some.inj hb)
    ⟨hW, rfl, rfl⟩
    (fun y hy => ⟨by
      rw [hy 1 (by norm_num), if_pos rfl]
      linarith, by rw [hy 3 (by norm_num)]; exact if_neg (by norm_num), by rw [hy 0 (by norm_num)]; exact if_neg (by norm_num)⟩)
    (by
      rcases hne with h | h
      · exact Or.inl h
      · refine Or.inr ⟨1, by norm_num, ?_⟩
        rw [hpre, if_pos rfl]
        intro e
        linarith)
  refine ⟨R, r', h1, h2, ⟨?_, ?_⟩, h5⟩
  · rw [h4]
    show 0.1 * x 1 ≤ 2
    linarith [h3.1]
  · rw [h4]
    show 0.1 * x 0 = 0
    rw [h3.2.2, mul_zero]

theorem exDrag_converges {f p : ℝ} (hf : 0 ≤ f) (hf1 : f ≤ 1) {uold : ℕ → ℝ} {r : Run Unit}
    (H : BeforeStep exYc exSinkSetting (vals exStickPhase.mu) (vals exStickPhase.lam) (fun _ _ _ => 1) (vals exStickPhase.h)
      .coulomb 2 1 true exOpts uold r)
    (hW : |r.solver.x 0| ≤ 2) (hne : r.solver.initialResidual ≠ 0) :
    ∃ R r', phaseStep exYc exSinkSetting true (exDrag f p) r = .ok (R, r')
      ∧ BeforeStep exYc exSinkSetting (vals exStickPhase.mu) (vals exStickPhase.lam) (fun _ _ _ => 1) (vals exStickPhase.h)
        .coulomb 2 1 true exOpts r.u r'
      ∧ |r'.solver.x 0| ≤ 2 ∧ r'.solver.initialResidual ≠ 0 := by
  obtain ⟨R, r', x, h1, h2, h3, h4, h5⟩ := shift_step (S := exDrag f p) rfl (fun d => if d = 0 then f else 0)
    (fun x => |x 0| ≤ 2 ∧ x 1 = 0 ∧ x 2 = 0 ∧ x 3 = 0) H (fun _ _ _ _ => rfl)
    (fun x hx d hd hb => by
      obtain ⟨k0, k1, k2, k3⟩ := hx
      interval_cases d
      · rw [exStick_form _ rfl rfl (fun a ha b hb => exGrad_zero r.u ha hb) x (by rw [k1, k2, k3]; simpa using k0)]
        have e : (exDrag f p).load.bulk (fun c => r.u c + x c) 0 = -f := by
          show withTraction exCylinders (fun _ _ => 0) exLength (pair f p) (fun c => r.u c + x c) 0 = _
          simp [withTraction, pair, exCylinders, exLength]
        rw [e, k2, if_pos rfl]
        ring
      · cases hb
      · cases hb
      · cases hb)
    (fun d hd v hb => by
      interval_cases d
      · cases hb
      · exact Option.some.inj hb
      · exact Option.some.inj hb
      · exact Option.some.inj hb)
    ⟨hW, rfl, rfl, rfl⟩
    (fun y hy => ⟨by
      rw [hy 0 (by norm_num), if_pos rfl, abs_of_nonneg hf]
      linarith, by rw [hy 1 (by norm_num)]; exact if_neg (by norm_num), by rw [hy 2 (by norm_num)]; exact if_neg (by norm_num),
      by rw [hy 3 (by norm_num)]; exact if_neg (by norm_num)⟩)
    (Or.inl hne)
  refine ⟨R, r', h1, h2, ?_, h5⟩
  rw [h4]
  show |0.1 * x 0| ≤ 2
  rw [abs_mul, abs_of_pos (by norm_num : (0 : ℝ) < 0.1)]
  linarith [h3.1]

theorem exDrag_actions (fs : List ℝ) (p : ℝ) (hfs : ∀ f ∈ fs, 0 ≤ f ∧ f ≤ 1) (uold : ℕ → ℝ) (r : Run Unit)
    (H : BeforeStep exYc exSinkSetting (vals exStickPhase.mu) (vals exStickPhase.lam) (fun _ _ _ => 1) (vals exStickPhase.h)
      .coulomb 2 1 true exOpts uold r)
    (hW : |r.solver.x 0| ≤ 2) (hne : r.solver.initialResidual ≠ 0) :
    (actions exYc exSinkSetting true (fs.map fun f => .step (exDrag f p)) r).2 = none := by
  induction fs generalizing uold r with
  | nil => rfl
  | cons f fs ih =>
    obtain ⟨k1, k2⟩ := hfs f List.mem_cons_self
    obtain ⟨R, r', h1, h2, h3, h4⟩ := exDrag_converges (p := p) k1 k2 H hW hne
    rw [List.map_cons, actions, h1]
    exact ih (fun f hf => hfs f (List.mem_cons_of_mem _ hf)) r.u r' h2 h3 h4

theorem exPress_actions (fs gs : List ℝ) (p : ℝ) (hfs : ∀ f ∈ fs, 0 ≤ f ∧ f ≤ 1) (hgs : ∀ f ∈ gs, 0 ≤ f ∧ f ≤ 1)
    (uold : ℕ → ℝ) (r : Run Unit)
    (H : BeforeStep exYc exSinkSetting (vals exSinkPhase.mu) (vals exSinkPhase.lam) (fun _ _ _ => 0) (vals exSinkPhase.h)
      .frictionless 2 1 true exOpts uold r)
    (hW : r.solver.x 1 ≤ 2) (h0 : r.solver.x 0 = 0)
    (hne : r.solver.initialResidual ≠ 0 ∨ r.solver.x 1 < 1 ∧ fs ≠ []) :
    (actions exYc exSinkSetting true ((fs.map fun f => .step (exPress f)) ++ .begin exStickPhase ::
      gs.map fun f => .step (exDrag f p)) r).2 = none := by
  induction fs generalizing uold r with
  | nil =>
    rw [List.map_nil, List.nil_append, actions]
    refine exDrag_actions gs p hgs uold _ (beginPhase_ok exYc_valid exStickPhase_shaped H) ?_ ?_
    · show |r.solver.x 0| ≤ 2
      rw [h0]
      norm_num
    · rcases hne with h | h
      · exact h
      · exact absurd rfl h.2
  | cons f fs ih =>
    obtain ⟨k1, k2⟩ := hfs f List.mem_cons_self
    obtain ⟨R, r', h1, h2, ⟨h3, h3'⟩, h4⟩ := exPress_converges k1 k2 H hW (hne.imp id And.left)
    rw [List.map_cons, List.cons_append, actions, h1]
    exact ih (fun f hf => hfs f (List.mem_cons_of_mem _ hf)) r.u r' h2 h3 h3' (Or.inl h4)

/-- Hypotheses are met by a computation with pressure 1 and tangential traction 1/2, in which the bodies touch and stick. -/
example : TopDofs exCylinders exLength ∧ UpperBody exCylinders (fun _ _ => 0) exLength {0, 1} 1
    ∧ PhaseShaped exYc.static exSinkPhase ∧ PhaseShaped exYc.static exStickPhase
    ∧ ∃ out, out = actions exYc exSinkSetting true (forceDriven exCylinders (fun _ _ => 0) (fun _ _ _ => 0) exLength exSame exSame 1
        (1 / 2) exSinkPhase exStickPhase) (newRun exYc exSinkSetting exOpts)
      ∧ out.2 = none ∧ out.1.length = 12 := by
  obtain ⟨out, hout⟩ : ∃ out, out = actions exYc exSinkSetting true (forceDriven exCylinders (fun _ _ => 0) (fun _ _ _ => 0) exLength
    exSame exSame 1 (1 / 2) exSinkPhase exStickPhase) (newRun exYc exSinkSetting exOpts) := ⟨_, rfl⟩
  obtain ⟨fs, hfs⟩ : ∃ fs : List ℝ, fs = (List.range 4).map (fun i : ℕ => ((i : ℝ) + 1) / 4) := ⟨_, rfl⟩
  obtain ⟨gs, hgs⟩ : ∃ gs : List ℝ, gs = (List.range 8).map (fun i : ℕ => 1 / 2 * ((i : ℝ) + 1) / 8) := ⟨_, rfl⟩
  obtain ⟨p, hp⟩ : ∃ p : ℝ, p = -1 * (((4 - 1 : ℕ) : ℝ) + 1) / 4 := ⟨_, rfl⟩
  have hprog : forceDriven exCylinders (fun _ _ => 0) (fun _ _ _ => 0) exLength exSame exSame 1 (1 / 2) exSinkPhase exStickPhase
      = .begin exSinkPhase :: ((fs.map fun f => .step (exPress f)) ++ .begin exStickPhase ::
        gs.map fun f => .step (exDrag f p)) := by
    have e : ∀ i : ℕ, traction1 1 i = pair 0 (-(((i : ℝ) + 1) / 4)) := fun i => by
      rw [traction1]
      congr 1
      ring
    rw [hfs, hgs, hp, List.map_map, List.map_map]
    unfold forceDriven forceSteps2
    simp only [e, List.append_assoc, List.singleton_append]
    rfl
  have hend : out.2 = none := by
    rw [hout, hprog, actions]
    refine exPress_actions fs gs p (fun f hf => ?_) (fun f hf => ?_) (fun _ => 0) _
      (firstPhase_ok exYc_valid exSinkPhase_shaped) ?_ ?_ (Or.inr ⟨?_, ?_⟩)
    · rw [hfs] at hf
      obtain ⟨i, hi, rfl⟩ := List.mem_map.mp hf
      have hi : i < 4 := List.mem_range.mp hi
      have hi' : (i : ℝ) ≤ 3 := by exact_mod_cast (by omega : i ≤ 3)
      exact ⟨by positivity, by linarith⟩
    · rw [hgs] at hf
      obtain ⟨i, hi, rfl⟩ := List.mem_map.mp hf
      have hi : i < 8 := List.mem_range.mp hi
      have hi' : (i : ℝ) ≤ 7 := by exact_mod_cast (by omega : i ≤ 7)
      exact ⟨by positivity, by linarith⟩
    · show exSinkPhase.guess (fun _ => 0) 1 ≤ 2
      norm_num [exSinkPhase]
    · show exSinkPhase.guess (fun _ => 0) 0 = 0
      norm_num [exSinkPhase]
    · show exSinkPhase.guess (fun _ => 0) 1 < 1
      norm_num [exSinkPhase]
    · rw [hfs]
      simp
  exact ⟨exCylinders_top, exCylinders_upper, exSinkPhase_shaped, exStickPhase_shaped, out, hout, hend,
    (C221_loads exYc_valid exSinkSetting exYc_below4 exOpts rfl rfl true exCylinders _ _ exLength exCylinders_top exSame exSame 1 (1 / 2)
      exSinkPhase exStickPhase exSinkPhase_shaped exStickPhase_shaped rfl out hout hend).1⟩

end

end Verif.ContactProblem
