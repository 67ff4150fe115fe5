import Verif.Props.ForceDriven
import Verif.Props.Reactions
import Verif.Props.Hertz
import Verif.Spec.HertzSteps

/-!
C222: in the Hertz demo contact carries the load.
-/

namespace Verif.Hertz

open Verif.ContactProblem Verif.Spec Verif.Packing Verif.Assembly Finset

variable {G : Type} {Y : System G}

theorem contactForm_zero (t : Tracked G) (law : Law) (gamma theta : ℝ) (x : ℕ → ℝ) :
    contactForm Y t law gamma theta x (fun _ => 0) = 0 := by
  have h := contactForm_test_add (Y := Y) (t := t) law gamma theta x (fun _ => 0) (fun _ => 0)
  simp only [add_zero] at h
  linarith

/-- A body which is not held along an axis is not pushed by supports. -/
theorem supportPush_free (t : Tracked G) (law : Law) (gamma theta : ℝ) (L : LoadCase) (U x : ℕ → ℝ) (B : Finset ℕ) (n : ℕ)
    (h : ∀ d ∈ B, d % Y.gdim = n → L.bc d = none) : supportPush Y t law gamma theta L U x B n = 0 := by
  have e1 : ({d ∈ supported L B | d % Y.gdim = n} : Finset ℕ) = ∅ := by
    refine filter_eq_empty_iff.mpr (fun d hd hn => ?_)
    obtain ⟨h1, h2⟩ := mem_filter.mp hd
    exact h2 (h d h1 hn)
  have e2 : shiftOf Y.gdim n (supported L B) = fun _ => 0 := by
    funext d
    unfold shiftOf
    rw [if_neg]
    rintro ⟨hd, hn⟩
    obtain ⟨h1, h2⟩ := mem_filter.mp hd
    exact h2 (h d h1 hn)
  rw [supportPush, e1, sum_empty, contactPush, e2, contactForm_zero]
  ring

/-- C222: if the program ends without an exception, all four load steps were done and converged, and after load step `i`
contact pushes the upper body upwards with the force that has been applied to it: `(i + 1) / 4` of the load, times the size
of the meshed body (or of its top) over that of the exact one, up to a multiple of the tolerance. -/
theorem C222_force (hY : System.Valid Y) (Z : Setting G) (hN : DofsBelow Y Z.numDofs) (opts : Newton.Opts)
    (hcrit : opts.crit = .residual) (herr : opts.errorOnNonconvergence = true) (rank0 : Bool)
    (threed : Bool) (hdim : Y.gdim = if threed then 3 else 2) (pb : Problem) (R load : ℝ) (hR : 0 < R)
    (inner : (ℕ → ℝ) → ℕ → ℝ) (stiff : (ℕ → ℝ) → ℕ → ℕ → ℝ) (m : ℕ → ℝ) (pinned : ℕ → Bool)
    (lin : (ℕ × ℕ → ℝ) → (ℕ → ℝ) → (ℕ → ℝ) → (ℕ → ℝ) × ℕ × ℤ) (P : Phase) (hP : PhaseShaped Y.static P)
    (B : Finset ℕ) (hB : B ⊆ range Z.numDofs) (size : ℝ) (hfree : FreeToSink Y.gdim inner m pinned B size)
    (out : List Report × Option DriverErr)
    (hout : out = actions Y Z rank0 (hertzProgram threed pb R load inner stiff m pinned lin P) (newRun Y Z opts))
    (hend : out.2 = none) :
    out.1.length = 4
    ∧ ∀ (i : ℕ) (Rp : Report), out.1[i]? = some Rp → Rp.before = totalAfter out.1 i ∧ Rp.converged = true
      ∧ |contactPush Y
          (stepData Y Z.place (vals P.mu) (vals P.lam) (P.fric.elim (fun _ _ _ => 0) vals) (vals P.h) Rp.before
            (totalAfter out.1 (i - 1)))
          P.law P.gamma P.theta Rp.du B (Y.gdim - 1)
        - ((i : ℝ) + 1) / 4 * load * (size / exactSize threed pb R)|
        ≤ opts.atol * balanceFactor Y.gdim
          ⟨loadedBulk Y.gdim inner m (density threed pb R load 4 i), stiff, hertzBc pinned⟩ Z.numDofs
          (fun c => Rp.before c + Rp.du c) B (Y.gdim - 1) := by
  obtain ⟨Ss, hSs⟩ : ∃ Ss : ℕ → PhaseStep, Ss = fun i => ⟨fun _ => none,
    ⟨loadedBulk (if threed then 3 else 2) inner m (density threed pb R load 4 i), stiff, hertzBc pinned⟩, lin, 0.1⟩ := ⟨_, rfl⟩
  obtain ⟨as, has⟩ : ∃ as, as = (List.range 4).map (fun i => Action.step (Ss i)) := ⟨_, rfl⟩
  have hout' : out = actions Y Z rank0 (.begin P :: as) (newRun Y Z opts) := by
    rw [hout, has, hSs]
    rfl
  have hph : ∀ Q, .begin Q ∈ .begin P :: as → PhaseShaped Y.static Q ∧ (Q.law ≠ .frictionless → Y.gdim = 2 ∨ Y.gdim = 3) := by
    intro Q hQ
    rcases List.mem_cons.mp hQ with h | h
    · rw [Action.begin.inj h]
      refine ⟨hP, fun _ => ?_⟩
      rw [hdim]
      cases threed
      · exact Or.inl rfl
      · exact Or.inr rfl
    · rw [has] at h
      simp at h
  have hin : ∀ f, inEffect P f as = (List.range 4).map (fun i => (P, f, Ss i)) := by
    intro f
    rw [has, ← List.append_nil (List.map _ (List.range 4)), inEffect_steps, inEffect, List.append_nil]
  obtain ⟨hconv, hlen⟩ := C219_ended hY Z hN opts hcrit herr rank0 P as hph out hout'
  have hlen : out.1.length = 4 := by
    rw [hlen hend, hin]
    simp
  refine ⟨hlen, fun i Rp hRp => ?_⟩
  have hi : i < 4 := by
    have := (List.getElem?_eq_some_iff.mp hRp).1
    omega
  obtain ⟨Q, φ, S, hS, hbf, hb⟩ := (C219_phases hY Z hN opts hcrit rank0 P as hph out hout').2 i Rp hRp
  have hc := hconv Rp (List.mem_of_getElem? hRp)
  have hb := hb hc
  rw [hin, List.getElem?_map, List.getElem?_range hi] at hS
  simp only [Option.map_some, Option.some.injEq, Prod.mk.injEq] at hS
  obtain ⟨rfl, rfl, rfl⟩ := hS
  have hL : (Ss i).load = ⟨loadedBulk Y.gdim inner m (density threed pb R load 4 i), stiff, hertzBc pinned⟩ := by
    rw [hSs, hdim]
  rw [hL] at hb
  refine ⟨hbf, hc, ?_⟩
  have hw : BodyWithLoad Y.gdim ⟨loadedBulk Y.gdim inner m (density threed pb R load 4 i), stiff, hertzBc pinned⟩ B
      (Y.gdim - 1) (-(density threed pb R load 4 i * size)) := by
    intro u
    have e : ∑ d ∈ B with d % Y.gdim = Y.gdim - 1, loadedBulk Y.gdim inner m (density threed pb R load 4 i) u d
        = ∑ d ∈ B with d % Y.gdim = Y.gdim - 1, (inner u d + density threed pb R load 4 i * m d) := by
      refine sum_congr rfl (fun d hd => ?_)
      rw [loadedBulk, if_pos (mem_filter.mp hd).2]
      ring
    show ∑ d ∈ B with d % Y.gdim = Y.gdim - 1, loadedBulk Y.gdim inner m (density threed pb R load 4 i) u d = _
    rw [e, sum_add_distrib, hfree.unstrained, ← mul_sum, hfree.measure]
    ring
  have hbal := body_balance hb hB hw
  rw [supportPush_free (Y := Y) _ _ _ _ _ _ _ _ _ (fun d hd hn => by
    show hertzBc pinned d = none
    rw [hertzBc, hfree.free d hd hn]
    rfl), zero_add] at hbal
  have hden : density threed pb R load 4 i * size = ((i : ℝ) + 1) / 4 * load * (size / exactSize threed pb R) := by
    have hpi := Real.pi_pos
    have hpi' := Real.pi_ne_zero
    have hR' := hR.ne'
    cases threed <;> cases pb <;> simp only [density, exactSize] <;> push_cast <;> field_simp
  rw [hden] at hbal
  rw [sub_eq_add_neg]
  exact hbal

/-- C222: with a traction in two dimensions and a top of length `2 R`, which straight facets mesh exactly, contact carries
exactly the load of the step, whose Hertz pressure the demo writes. -/
theorem C222_traction (hY : System.Valid Y) (Z : Setting G) (hN : DofsBelow Y Z.numDofs) (opts : Newton.Opts)
    (hcrit : opts.crit = .residual) (herr : opts.errorOnNonconvergence = true) (rank0 : Bool)
    (hdim : Y.gdim = 2) (R Estar load : ℝ) (hR : 0 < R) (hE : 0 < Estar) (hl : 0 < load)
    (inner : (ℕ → ℝ) → ℕ → ℝ) (stiff : (ℕ → ℝ) → ℕ → ℕ → ℝ) (m : ℕ → ℝ) (pinned : ℕ → Bool)
    (lin : (ℕ × ℕ → ℝ) → (ℕ → ℝ) → (ℕ → ℝ) → (ℕ → ℝ) × ℕ × ℤ) (P : Phase) (hP : PhaseShaped Y.static P)
    (B : Finset ℕ) (hB : B ⊆ range Z.numDofs) (hfree : FreeToSink Y.gdim inner m pinned B (2 * R))
    (out : List Report × Option DriverErr)
    (hout : out = actions Y Z rank0 (hertzProgram false .traction R load inner stiff m pinned lin P) (newRun Y Z opts))
    (hend : out.2 = none) (i : ℕ) (Rp : Report) (hRp : out.1[i]? = some Rp) :
    ∃ (F : ℝ) (p0 a : ℝ) (p : ℝ → ℝ), stepReference R Estar load 4 i = some (p0, a) ∧ (∀ x, pressure p0 a x = some (p x))
      ∧ Spec.Hertz.IsHertz R Estar F a p
      ∧ |contactPush Y
          (stepData Y Z.place (vals P.mu) (vals P.lam) (P.fric.elim (fun _ _ _ => 0) vals) (vals P.h) Rp.before
            (totalAfter out.1 (i - 1)))
          P.law P.gamma P.theta Rp.du B 1 - F|
        ≤ opts.atol * balanceFactor Y.gdim
          ⟨loadedBulk Y.gdim inner m (density false .traction R load 4 i), stiff, hertzBc pinned⟩ Z.numDofs
          (fun c => Rp.before c + Rp.du c) B 1 := by
  obtain ⟨h1, h2⟩ := C222_force hY Z hN opts hcrit herr rank0 false hdim .traction R load hR inner stiff m pinned lin P hP B hB
    (2 * R) hfree out hout hend
  have hi : i < 4 := by
    have := (List.getElem?_eq_some_iff.mp hRp).1
    omega
  obtain ⟨-, -, h3⟩ := h2 i Rp hRp
  obtain ⟨-, p0, a, p, k1, k2, k3⟩ := C209_twoD_partial hR hE hl hi .traction
  refine ⟨load * ((i + 1 : ℕ) / (4 : ℕ)), p0, a, p, k1, k2, k3, ?_⟩
  have e : ((i : ℝ) + 1) / 4 * load * (2 * R / exactSize false .traction R) = load * ((i + 1 : ℕ) / (4 : ℕ)) := by
    simp only [exactSize]
    rw [div_self (by positivity)]
    push_cast
    ring
  rw [e, hdim] at h3
  rw [hdim]
  exact h3

/-! ### a computation which meets the hypotheses -/

section

open Verif.ContactProblem

/-- Contact between dofs 0, 1 (above) and 2, 3 (below), which overlap by 2. -/
theorem exSink_form (t : Tracked Unit) (ht : t.h 0 0 0 = 1) (hg : ∀ a < 2, ∀ b < 2, t.gradU 0 0 ((0 * 2 + a) * 2 + b) = 0)
    (x : ℕ → ℝ) : contactForm exYc t .frictionless 2 1 x (unit 1) = -max 0 (2 - x 1 + x 3) := by
  have tr : ∀ (p : ContactPoint) (D : ℕ → ℕ → ℝ), p.g = 2 → (∀ a < 2, ∀ b < 2, D a b = 0) → p.dot (p.trac D) = 0 := by
    intro p D hp hD
    refine sum_eq_zero (fun a ha => ?_)
    rw [trac_zero p (fun a ha b hb => hD a (by omega) b (by omega)) (mem_range.mp ha), zero_mul]
  have z : ∀ (u : ℕ → ℝ) (a b : ℕ), gradAt exYc 0 2 u 0 a b = 0 := by
    intro u a b
    simp [gradAt, exYc]
  have t1 := tr (pointAt exYc t 0 0 0 2 0) (fun a b => gradAt exYc 0 2 x 0 a b + (pointAt exYc t 0 0 0 2 0).grad0 a b) rfl
    (fun a ha b hb => by
      rw [z, zero_add]
      exact hg a ha b hb)
  have t2 := tr (pointAt exYc t 0 0 0 2 0) (gradAt exYc 0 2 (unit 1) 0) rfl (fun a _ b _ => z _ a b)
  have e1 : contactForm exYc t .frictionless 2 1 x (unit 1)
      = weightAt exYc 0 2 0 * (pointAt exYc t 0 0 0 2 0).form .frictionless 2 1 (jumpAt exYc t.cur 0 0 0 2 x 0)
        (fun a b => gradAt exYc 0 2 x 0 a b + (pointAt exYc t 0 0 0 2 0).grad0 a b)
        (jumpAt exYc t.cur 0 0 0 2 (unit 1) 0) (gradAt exYc 0 2 (unit 1) 0) := by
    unfold contactForm
    simp [exYc, exY]
  have hh : (pointAt exYc t 0 0 0 2 0).h = 1 := ht
  have hw : weightAt exYc 0 2 0 = 1 := by simp [weightAt, exYc, exY]
  have d1 : (pointAt exYc t 0 0 0 2 0).dot (jumpAt exYc t.cur 0 0 0 2 x 0) = -(x 1 - x 3) := by
    simp [ContactPoint.dot, pointAt, contactNormalAt, jumpAt, valueAt, oppositeAt, exYc, exY, sum_range_succ]
  have d2 : (pointAt exYc t 0 0 0 2 0).dot (jumpAt exYc t.cur 0 0 0 2 (unit 1) 0) = -1 := by
    simp [ContactPoint.dot, pointAt, contactNormalAt, jumpAt, valueAt, oppositeAt, exYc, exY, sum_range_succ, unit]
  have d3 : (pointAt exYc t 0 0 0 2 0).dot (pointAt exYc t 0 0 0 2 0).gap = -2 := by
    simp [ContactPoint.dot, pointAt, contactNormalAt, exYc, exY, sum_range_succ]
  rw [e1, hw, ContactPoint.form, if_pos rfl, ContactPoint.normalPart, ContactPoint.pressure, t1, t2, d1, d2, d3, hh]
  have : -(x 1 - x 3) - -2 - 1 / 2 * 0 = 2 - x 1 + x 3 := by ring
  rw [this]
  ring

/-- Stiffness along the first axis only: the upper body can sink. -/
def exInner (u : ℕ → ℝ) (d : ℕ) : ℝ := if d % 2 = 0 then u d else 0

def exInnerK (_ : ℕ → ℝ) (d c : ℕ) : ℝ := if d % 2 = 0 ∧ d = c then 1 else 0

/-- All dofs but 1 are held. -/
def exPinned (d : ℕ) : Bool := decide (d ≠ 1)

/-- The top has length 2. -/
def exTop (d : ℕ) : ℝ := if d = 1 then 2 else 0

def exSinkSetting : Setting Unit := ⟨4, exSame, fun _ => ()⟩

theorem exYc_below4 : DofsBelow exYc 4 := by refine ⟨?_, ?_⟩ <;> simp [exYc, exY]

/-- Frictionless, with an initial guess which moves the upper body down. -/
noncomputable def exSinkPhase : Phase :=
  ⟨.frictionless, fun _ => ⟨1, 1, fun _ _ => 3⟩, fun _ => ⟨1, 1, fun _ _ => 5⟩, none, fun _ => ⟨1, 1, fun _ _ => 1⟩, 2, 1,
    fun x d => if d = 1 then -1 / 100 else x d⟩

theorem exSinkPhase_shaped : PhaseShaped exYc.static exSinkPhase := by
  refine ⟨?_, ?_, ?_, ?_⟩ <;> simp [exSinkPhase, ScalarShaped, System.static, exYc, exY]

theorem exSink_free : FreeToSink 2 exInner exTop exPinned {0, 1} 2 where
  unstrained u := by
    refine sum_eq_zero (fun d hd => ?_)
    have := (mem_filter.mp hd).2
    exact if_neg (by omega)
  free d hd hn := by
    simp only [Finset.mem_insert, Finset.mem_singleton] at hd
    rcases hd with rfl | rfl
    · cases hn
    · rfl
  measure := by
    rw [show ({d ∈ ({0, 1} : Finset ℕ) | d % 2 = 2 - 1}) = {1} by decide, sum_singleton]
    exact if_pos rfl

/-- The step with force density `f`. -/
noncomputable def exSinkStep (f : ℝ) : PhaseStep :=
  ⟨fun _ => none, ⟨loadedBulk 2 exInner exTop f, exInnerK, hertzBc exPinned⟩, exSame, 0.1⟩

/-- The bodies overlap, and the lower one does not move up or down. -/
def ExMeet (x : ℕ → ℝ) : Prop := x 1 ≤ 2 ∧ x 3 = 0

theorem exSink_converges {f : ℝ} (hf : 0 ≤ f) {uold : ℕ → ℝ} {r : Run Unit}
    (H : BeforeStep exYc exSinkSetting (vals exSinkPhase.mu) (vals exSinkPhase.lam) (fun _ _ _ => 0) (vals exSinkPhase.h)
      .frictionless 2 1 true exOpts uold r)
    (hW : ExMeet r.solver.x) (hne : r.solver.initialResidual ≠ 0 ∨ r.solver.x 1 ≠ 2 - 2 * f) :
    ∃ R r', phaseStep exYc exSinkSetting true (exSinkStep f) r = .ok (R, r')
      ∧ BeforeStep exYc exSinkSetting (vals exSinkPhase.mu) (vals exSinkPhase.lam) (fun _ _ _ => 0) (vals exSinkPhase.h)
        .frictionless 2 1 true exOpts r.u r'
      ∧ ExMeet r'.solver.x ∧ r'.solver.initialResidual ≠ 0 := by
  obtain ⟨hready, hopts, ops, hops, hlaw, hconsts, hco, hsame⟩ := id H
  obtain ⟨S, hS⟩ : ∃ S, S = exSinkStep f := ⟨_, rfl⟩
  obtain ⟨Z', hZ'⟩ : ∃ Z' : Setting Unit, Z' = { exSinkSetting with linSolve := S.linSolve } := ⟨_, rfl⟩
  obtain ⟨r0, hr0⟩ : ∃ r0, r0 = { r.solver with x := presetBc S.preset r.solver.x } := ⟨_, rfl⟩
  have hn : Z'.numDofs = 4 := by rw [hZ']; rfl
  have hx0 : r0.x = r.solver.x := by rw [hr0, hS]; rfl
  obtain ⟨g, hg⟩ : ∃ g : ℕ → ℝ, g = fun d => if d = 1 then 2 - 2 * f else 0 := ⟨_, rfl⟩
  have hform : ∀ x, contactForm exYc ((Tracked.new (exSinkSetting.place fun _ => 0)).history ops) .frictionless 2 1 x (unit 1)
      = -max 0 (2 - x 1 + x 3) := by
    intro x
    refine exSink_form _ ?_ (fun a ha b hb => ?_) x
    · rw [hsame.h]; rfl
    · rw [hsame.gradU]
      show (exYc.packGrad r.u 0).v 0 ((0 * exYc.gdim + a) * exYc.gdim + b) = 0
      rw [(packGrad_eq exYc_valid r.u 0).2.2 0 (by decide) 0 (by decide) a ha b hb]
      simp [exYc, exY]
  have hres : ∀ x s, ExMeet x → Reached exYc ops (exSinkSetting.place fun _ => 0) s → ∀ d < 4,
      (driverProblem exYc Z' S.load r.u).residual x ((driverProblem exYc Z' S.load r.u).coefficients x s) d
        = x d - g d := by
    intro x s hx hc d hd
    show driverResidual exYc Z' S.load r.u x (driverCoefficients exYc x s) d = _
    unfold driverResidual
    dsimp only
    by_cases h1 : d = 1
    · subst h1
      have hb : S.load.bc 1 = none := by rw [hS]; rfl
      rw [hb, Option.elim_none, driver_entry exYc_valid hops hlaw (fun _ => Or.inl rfl) hconsts hsame.created exYc_below4
        hc x hd, hform, hg, sum_eq_zero]
      · rw [hS, max_eq_right (by linarith [hx.1, hx.2])]
        have e : (exSinkStep f).load.bulk (fun c => r.u c + x c) 1 = 2 * f := by
          show loadedBulk 2 exInner exTop f _ 1 = _
          simp [loadedBulk, exInner, exTop, mul_comm]
        rw [e, hx.2, mul_zero, sub_zero]
        dsimp only
        rw [if_pos rfl]
        ring
      · intro c' _
        cases S.load.bc c' with
        | none => rfl
        | some v =>
          rw [Option.elim_some, hS]
          simp [exSinkStep, exInnerK]
    · have hb : S.load.bc d = some 0 := by
        rw [hS]
        simp [exSinkStep, hertzBc, exPinned, h1]
      rw [hb, Option.elim_some, hg]
      simp [h1]
      norm_num
  obtain ⟨s', n, hsolve, hir, hW'⟩ := solve_shift_in (driverProblem exYc Z' S.load r.u) 4 g
    (Reached exYc ops (exSinkSetting.place fun _ => 0)) ExMeet
    (fun x c hc => reached_coefficients x c hc) hres
    (fun A b d => by show Z'.linSolve A b d = _; rw [hZ', hS]; rfl) (fun _ => rfl) (fun _ => rfl)
    (fun b => by rw [← hn]; rfl) (fun b => by rw [← hn]; rfl) true r0 (by rw [hr0]; exact hready)
    (by rw [hr0]; exact ⟨[], by simp [updates, hco]⟩) (by rw [hr0]; show r.solver.opts.crit = _; rw [hopts]; rfl)
    (by rw [hr0]; show 0 < r.solver.opts.atol; rw [hopts]; norm_num [exOpts])
    (by rw [hr0]; show 0 < r.solver.opts.rtol; rw [hopts]; norm_num [exOpts])
    (by rw [hr0]; show 1 ≤ r.solver.opts.maxIt; rw [hopts]; norm_num [exOpts])
    (by rw [hx0]; exact hW)
    (fun y hy => ⟨by
      rw [hy 1 (by norm_num), hg]
      show 2 - 2 * f ≤ 2
      linarith, by rw [hy 3 (by norm_num), hg]; rfl⟩)
    (by
      rcases hne with h | h
      · left; rw [hr0]; exact h
      · refine Or.inr ⟨1, by norm_num, ?_⟩
        rw [hx0, hg]
        exact h)
  have hok := phaseStep_ok exYc_valid (fun _ => Or.inl rfl) exYc_below4 rfl (S := S) H
  rw [← hS]
  have hfac : S.factor = 0.1 := by rw [hS]; rfl
  rcases hok with ⟨e, he⟩ | ⟨R, r', hR, -, -, hB, -⟩
  · unfold phaseStep at he
    rw [← hZ', ← hr0, hsolve] at he
    dsimp only at he
    split at he
    · cases he
    · split at he <;> cases he
  · refine ⟨R, r', hR, hB, ?_⟩
    unfold phaseStep at hR
    rw [← hZ', ← hr0, hsolve] at hR
    dsimp only at hR
    split at hR
    · cases hR
    · split at hR
      · cases hR
      · obtain ⟨rfl, rfl⟩ := Prod.mk.inj (Except.ok.inj hR)
        refine ⟨⟨?_, ?_⟩, hir⟩
        · show S.factor * s'.x 1 ≤ 2
          rw [hfac]
          linarith [hW'.1]
        · show S.factor * s'.x 3 = 0
          rw [hW'.2, mul_zero]

theorem exSink_actions (fs : List ℝ) (hfs : ∀ f ∈ fs, 0 ≤ f) (uold : ℕ → ℝ) (r : Run Unit)
    (H : BeforeStep exYc exSinkSetting (vals exSinkPhase.mu) (vals exSinkPhase.lam) (fun _ _ _ => 0) (vals exSinkPhase.h)
      .frictionless 2 1 true exOpts uold r)
    (hW : ExMeet r.solver.x) (hne : r.solver.initialResidual ≠ 0 ∨ r.solver.x 1 < 0 ∧ ∀ f ∈ fs, f ≤ 1) :
    (actions exYc exSinkSetting true (fs.map fun f => .step (exSinkStep f)) r).2 = none := by
  induction fs generalizing uold r with
  | nil => rfl
  | cons f fs ih =>
    obtain ⟨R, r', h1, h2, h3, h4⟩ := exSink_converges (hfs f List.mem_cons_self) H hW (by
      rcases hne with h | ⟨h, h'⟩
      · exact Or.inl h
      · right
        have := h' f List.mem_cons_self
        intro e
        linarith)
    rw [List.map_cons, actions, h1]
    exact ih (fun f hf => hfs f (List.mem_cons_of_mem _ hf)) r.u r' h2 h3 (Or.inl h4)

/-- Hypotheses are met by a computation with load 1 and radius 1, in which the bodies touch. -/
example : FreeToSink exYc.gdim exInner exTop exPinned {0, 1} (2 * 1) ∧ PhaseShaped exYc.static exSinkPhase
    ∧ ∃ out, out = actions exYc exSinkSetting true
        (hertzProgram false .traction 1 1 exInner exInnerK exTop exPinned exSame exSinkPhase) (newRun exYc exSinkSetting exOpts)
      ∧ out.2 = none
      ∧ ∃ Rp, out.1[3]? = some Rp
        ∧ |contactPush exYc (stepData exYc exSinkSetting.place (vals exSinkPhase.mu) (vals exSinkPhase.lam)
              (exSinkPhase.fric.elim (fun _ _ _ => 0) vals) (vals exSinkPhase.h) Rp.before (totalAfter out.1 2))
            .frictionless 2 1 Rp.du {0, 1} 1 - 1|
          ≤ 1e-8 * balanceFactor 2 ⟨loadedBulk 2 exInner exTop (density false .traction 1 1 4 3), exInnerK, hertzBc exPinned⟩ 4
            (fun c => Rp.before c + Rp.du c) {0, 1} 1 := by
  have hfree : FreeToSink exYc.gdim exInner exTop exPinned {0, 1} (2 * 1) := by
    rw [mul_one]
    exact exSink_free
  obtain ⟨fs, hfs⟩ : ∃ fs, fs = (List.range 4).map (fun i => density false .traction 1 1 4 i) := ⟨_, rfl⟩
  have hprog : hertzProgram false .traction 1 1 exInner exInnerK exTop exPinned exSame exSinkPhase
      = .begin exSinkPhase :: fs.map fun f => .step (exSinkStep f) := by
    rw [hfs, List.map_map]
    rfl
  have hend : (actions exYc exSinkSetting true
      (hertzProgram false .traction 1 1 exInner exInnerK exTop exPinned exSame exSinkPhase) (newRun exYc exSinkSetting exOpts)).2
      = none := by
    rw [hprog, actions]
    refine exSink_actions fs (fun f hf => ?_) (fun _ => 0) _ (firstPhase_ok exYc_valid exSinkPhase_shaped) ⟨?_, ?_⟩
      (Or.inr ⟨?_, fun f hf => ?_⟩)
    · rw [hfs] at hf
      obtain ⟨i, -, rfl⟩ := List.mem_map.mp hf
      simp only [density]
      positivity
    · show exSinkPhase.guess (fun _ => 0) 1 ≤ 2
      norm_num [exSinkPhase]
    · show exSinkPhase.guess (fun _ => 0) 3 = 0
      norm_num [exSinkPhase]
    · show exSinkPhase.guess (fun _ => 0) 1 < 0
      norm_num [exSinkPhase]
    · rw [hfs] at hf
      obtain ⟨i, hi, rfl⟩ := List.mem_map.mp hf
      have hi : i < 4 := List.mem_range.mp hi
      have hi' : (i : ℝ) ≤ 3 := by exact_mod_cast (by omega : i ≤ 3)
      simp only [density]
      push_cast
      linarith
  obtain ⟨out, hout⟩ : ∃ out, out = actions exYc exSinkSetting true
    (hertzProgram false .traction 1 1 exInner exInnerK exTop exPinned exSame exSinkPhase) (newRun exYc exSinkSetting exOpts) :=
    ⟨_, rfl⟩
  rw [← hout] at hend
  refine ⟨hfree, exSinkPhase_shaped, out, hout, hend, ?_⟩
  obtain ⟨hlen, hall⟩ := C222_force exYc_valid exSinkSetting exYc_below4 exOpts rfl rfl true false rfl .traction 1 1 one_pos
    exInner exInnerK exTop exPinned exSame exSinkPhase exSinkPhase_shaped {0, 1} (by decide) (2 * 1) hfree out hout hend
  obtain ⟨Rp, hRp⟩ : ∃ Rp, out.1[3]? = some Rp := ⟨out.1[3], List.getElem?_eq_getElem (by omega)⟩
  obtain ⟨-, -, h⟩ := hall 3 Rp hRp
  refine ⟨Rp, hRp, ?_⟩
  have e : (((3 : ℕ) : ℝ) + 1) / 4 * 1 * (2 * 1 / exactSize false .traction 1) = 1 := by
    simp only [exactSize]
    norm_num
  rw [e] at h
  exact h

end

end Verif.Hertz
