import Verif.Props.LoadSchedule
import Verif.Spec.ForceDriven

/-!
C221: the force driven computation.
-/

namespace Verif.ContactProblem

open Verif.Spec Verif.Packing Verif.Assembly Finset

variable {G : Type} {Y : System G} {Z : Setting G}

theorem underTraction_eq (D : CylinderDofs) (inner : (ℕ → ℝ) → ℕ → ℝ) (w : ℕ → ℝ) (tx ty : ℝ) :
    withTraction D inner w (pair tx ty) = underTraction D inner w tx ty := rfl

section

variable {D : CylinderDofs} {inner : (ℕ → ℝ) → ℕ → ℝ} {stiff : (ℕ → ℝ) → ℕ → ℕ → ℝ} {w : ℕ → ℝ}
  {lin1 lin2 : (ℕ × ℕ → ℝ) → (ℕ → ℝ) → (ℕ → ℝ) → (ℕ → ℝ) × ℕ × ℤ} {p q : ℝ} {P1 P2 : Phase} {as : List Action}
  (has : .begin P1 :: as = forceDriven D inner stiff w lin1 lin2 p q P1 P2)

include has

/-- The load steps of the program. -/
theorem force_steps (f : Packed) (i : ℕ) (Q : Phase) (φ : Packed)
    (S : PhaseStep) (hS : (inEffect P1 f as)[i]? = some (Q, φ, S)) :
    (i < 4 ∧ Q = P1 ∧ φ = f
      ∧ S.load = ⟨underTraction D inner w 0 (-(((i : ℝ) + 1) / 4 * p)), stiff, forceBc1 D⟩)
    ∨ (4 ≤ i ∧ i < 12 ∧ Q = P2 ∧ φ = P2.fric.elim f vals
      ∧ S.load = ⟨underTraction D inner w ((((i - 4 : ℕ) : ℝ) + 1) / 8 * q) (-p), stiff, forceBc2 D⟩) := by
  simp only [forceDriven, forceSteps2, List.singleton_append, List.cons_append, List.nil_append, List.append_assoc,
    List.cons.injEq, true_and] at has
  rw [has, inEffect_steps, inEffect, ← List.append_nil (List.map _ (List.range 8)), inEffect_steps] at hS
  by_cases h4 : i < 4
  · left
    rw [List.getElem?_append_left (by simpa using h4), List.getElem?_map, List.getElem?_range h4] at hS
    simp only [Option.map_some, Option.some.injEq, Prod.mk.injEq] at hS
    obtain ⟨rfl, rfl, rfl⟩ := hS
    refine ⟨h4, rfl, rfl, ?_⟩
    rw [← underTraction_eq, traction1, show -p * ((i : ℝ) + 1) / 4 = -(((i : ℝ) + 1) / 4 * p) by ring]
  · right
    rw [List.getElem?_append_right (by simpa using h4), inEffect, List.append_nil, List.length_map, List.length_range,
      List.getElem?_map] at hS
    by_cases h8 : i - 4 < 8
    · rw [List.getElem?_range h8] at hS
      simp only [Option.map_some, Option.some.injEq, Prod.mk.injEq] at hS
      obtain ⟨rfl, rfl, rfl⟩ := hS
      refine ⟨by omega, by omega, rfl, rfl, ?_⟩
      rw [← underTraction_eq, traction2, show q * (((i - 4 : ℕ) : ℝ) + 1) / 8 = (((i - 4 : ℕ) : ℝ) + 1) / 8 * q by ring,
        show -p * (((4 - 1 : ℕ) : ℝ) + 1) / 4 = -p by rw [show ((4 - 1 : ℕ) : ℝ) = 3 by norm_num]; ring]
    · rw [List.getElem?_eq_none (by simpa using h8)] at hS
      simp at hS

theorem force_length (f : Packed) : (inEffect P1 f as).length = 12 := by
  simp only [forceDriven, forceSteps2, List.singleton_append, List.cons_append, List.nil_append, List.append_assoc,
    List.cons.injEq, true_and] at has
  rw [has, inEffect_steps, inEffect, ← List.append_nil (List.map _ (List.range 8)), inEffect_steps, inEffect]
  simp

theorem force_phases (hP1 : PhaseShaped Y.static P1) (hP2 : PhaseShaped Y.static P2) (hdim : Y.gdim = 2) :
    ∀ Q, .begin Q ∈ .begin P1 :: as → PhaseShaped Y.static Q ∧ (Q.law ≠ .frictionless → Y.gdim = 2 ∨ Y.gdim = 3) := by
  intro Q hQ
  refine ⟨?_, fun _ => Or.inl hdim⟩
  rw [has] at hQ
  simp only [forceDriven, forceSteps2, List.mem_append, List.mem_map, List.mem_singleton, Action.begin.injEq, reduceCtorEq,
    and_false, exists_false, or_false] at hQ
  rcases hQ with rfl | rfl
  · exact hP1
  · exact hP2

end

/-- Prescribed increments add up from load step `m` on. -/
theorem prescribed_from (hY : System.Valid Y) (Z : Setting G) (hN : DofsBelow Y Z.numDofs) (opts : Newton.Opts)
    (hcrit : opts.crit = .residual) (rank0 : Bool) (P0 : Phase) (as : List Action)
    (hphases : ∀ Q, .begin Q ∈ .begin P0 :: as →
      PhaseShaped Y.static Q ∧ (Q.law ≠ .frictionless → Y.gdim = 2 ∨ Y.gdim = 3))
    (out : List Report × Option DriverErr) (hout : out = actions Y Z rank0 (.begin P0 :: as) (newRun Y Z opts))
    (m n : ℕ) (hn : m + n ≤ out.1.length) (hconv : ∀ R ∈ out.1, R.converged = true)
    (d : ℕ) (hd : d < Z.numDofs)
    (hg : ∀ i, m ≤ i → i < m + n → ∀ Q φ S, (inEffect P0 (P0.fric.elim (fun _ _ _ => 0) vals) as)[i]? = some (Q, φ, S) →
      S.load.bc d = some 0) :
    |totalAfter out.1 (m + n) d - totalAfter out.1 m d| ≤ n * opts.atol := by
  obtain ⟨-, h2⟩ := C219_phases hY Z hN opts hcrit rank0 P0 as hphases out hout
  induction n with
  | zero => simp
  | succ n ih =>
    have ih := ih (by omega) (fun i hm hi => hg i hm (by omega))
    obtain ⟨R, hR⟩ : ∃ R, out.1[m + n]? = some R := ⟨_, List.getElem?_eq_getElem (by omega)⟩
    obtain ⟨Q, φ, S, hS, -, hb⟩ := h2 (m + n) R hR
    have hlt := (hb (hconv R (List.mem_of_getElem? hR))).1 d hd 0 (hg (m + n) (by omega) (by omega) Q φ S hS)
    have e : totalAfter out.1 (m + (n + 1)) d = totalAfter out.1 (m + n) d + R.du d := by
      simp only [← add_assoc, totalAfter, List.take_add_one, hR, Option.toList_some, List.map_append, List.sum_append,
        List.map_cons, List.map_nil, List.sum_cons, List.sum_nil, add_zero]
    rw [e, show totalAfter out.1 (m + n) d + R.du d - totalAfter out.1 m d
      = (totalAfter out.1 (m + n) d - totalAfter out.1 m d) + (R.du d - 0) by ring]
    refine (abs_add_le _ _).trans ?_
    push_cast
    linarith

/-- C221: if the program ends without an exception, all 12 load steps were done; load step `i` of the first phase satisfies
the equations with `(i + 1) / 4` of the pressure on top, load step `i` of the second phase those with the whole pressure
and `(i + 1) / 8` of the tangential traction, but for the vertical dofs of the top, which stay where the first phase has
put them; the bottom is fixed. -/
theorem C221_loads (hY : System.Valid Y) (Z : Setting G) (hN : DofsBelow Y Z.numDofs) (opts : Newton.Opts)
    (hcrit : opts.crit = .residual) (herr : opts.errorOnNonconvergence = true) (rank0 : Bool) (D : CylinderDofs)
    (inner : (ℕ → ℝ) → ℕ → ℝ) (stiff : (ℕ → ℝ) → ℕ → ℕ → ℝ) (w : ℕ → ℝ) (hD : TopDofs D w)
    (lin1 lin2 : (ℕ × ℕ → ℝ) → (ℕ → ℝ) → (ℕ → ℝ) → (ℕ → ℝ) × ℕ × ℤ) (p q : ℝ)
    (P1 P2 : Phase) (hP1 : PhaseShaped Y.static P1) (hP2 : PhaseShaped Y.static P2) (hdim : Y.gdim = 2)
    (out : List Report × Option DriverErr)
    (hout : out = actions Y Z rank0 (forceDriven D inner stiff w lin1 lin2 p q P1 P2) (newRun Y Z opts))
    (hend : out.2 = none) :
    out.1.length = 12
    ∧ (∀ d < Z.numDofs, D.top d = true → D.comp d ≠ 0 →
        |totalAfter out.1 12 d - totalAfter out.1 4 d| ≤ 8 * opts.atol)
    ∧ (∀ d < Z.numDofs, D.bottom d = true → |totalAfter out.1 12 d| ≤ 12 * opts.atol)
    ∧ ∀ (i : ℕ) (R : Report), out.1[i]? = some R → R.before = totalAfter out.1 i ∧ R.converged = true
      ∧ (i < 4 → Balanced Y
          (stepData Y Z.place (vals P1.mu) (vals P1.lam) (P1.fric.elim (fun _ _ _ => 0) vals) (vals P1.h) R.before
            (totalAfter out.1 (i - 1)))
          P1.law P1.gamma P1.theta ⟨underTraction D inner w 0 (-(((i : ℝ) + 1) / 4 * p)), stiff, forceBc1 D⟩ Z.numDofs
          R.before R.du opts.atol)
      ∧ (4 ≤ i → ∀ f, P2.fric = some f → Balanced Y
          (stepData Y Z.place (vals P2.mu) (vals P2.lam) (vals f) (vals P2.h) R.before (totalAfter out.1 (i - 1)))
          P2.law P2.gamma P2.theta ⟨underTraction D inner w ((((i - 4 : ℕ) : ℝ) + 1) / 8 * q) (-p), stiff, forceBc2 D⟩
          Z.numDofs R.before R.du opts.atol) := by
  obtain ⟨as, has⟩ : ∃ as, .begin P1 :: as = forceDriven D inner stiff w lin1 lin2 p q P1 P2 := ⟨_, rfl⟩
  have hph := force_phases (Y := Y) has hP1 hP2 hdim
  rw [← has] at hout
  obtain ⟨hconv, hlen⟩ := C219_ended hY Z hN opts hcrit herr rank0 P1 as hph out hout
  have hlen := (hlen hend).trans (force_length has _)
  refine ⟨hlen, fun d hd ht hc => ?_, fun d hd hb => ?_, fun i R hR => ?_⟩
  · have := prescribed_from hY Z hN opts hcrit rank0 P1 as hph out hout 4 8 (by omega) hconv d hd (fun i hi _ Q φ S hS => by
      rcases force_steps has _ i Q φ S hS with ⟨h4, -, -, -⟩ | ⟨-, -, -, -, hl⟩
      · omega
      · rw [hl]
        show forceBc2 D d = _
        rw [forceBc2, if_pos ((hD.held d).mpr ⟨ht, hc⟩)])
    exact_mod_cast this
  · have := prescribed_from hY Z hN opts hcrit rank0 P1 as hph out hout 0 12 (by omega) hconv d hd (fun i _ _ Q φ S hS => by
      rcases force_steps has _ i Q φ S hS with ⟨-, -, -, hl⟩ | ⟨-, -, -, -, hl⟩
      · rw [hl]
        show forceBc1 D d = _
        rw [forceBc1, if_pos hb]
      · rw [hl]
        show forceBc2 D d = _
        rw [forceBc2, if_pos hb, ite_self])
    have e0 : totalAfter out.1 0 d = 0 := by simp [totalAfter]
    rw [e0, sub_zero, zero_add] at this
    exact_mod_cast this
  · obtain ⟨Q, φ, S, hS, hbf, hb⟩ := (C219_phases hY Z hN opts hcrit rank0 P1 as hph out hout).2 i R hR
    have hc := hconv R (List.mem_of_getElem? hR)
    have hb := hb hc
    refine ⟨hbf, hc, ?_⟩
    rcases force_steps has _ i Q φ S hS with ⟨h4, rfl, rfl, hbc⟩ | ⟨h4, h12, rfl, rfl, hbc⟩
    · rw [hbc] at hb
      exact ⟨fun _ => hb, fun h => absurd h (by omega)⟩
    · rw [hbc] at hb
      refine ⟨fun h => absurd h (by omega), fun _ f hf => ?_⟩
      rw [hf] at hb
      exact hb

theorem residual_held {D : CylinderDofs} {w : ℕ → ℝ} (hD : TopDofs D w) (inner : (ℕ → ℝ) → ℕ → ℝ)
    (stiff : (ℕ → ℝ) → ℕ → ℕ → ℝ) (Z : Setting G) (tx ty ty' : ℝ) (u : ℕ → ℝ) :
    driverProblem Y Z ⟨withTraction D inner w (pair tx ty), stiff, forceBc2 D⟩ u
      = driverProblem Y Z ⟨withTraction D inner w (pair tx ty'), stiff, forceBc2 D⟩ u := by
  have e : driverResidual Y Z ⟨withTraction D inner w (pair tx ty), stiff, forceBc2 D⟩ u
      = driverResidual Y Z ⟨withTraction D inner w (pair tx ty'), stiff, forceBc2 D⟩ u := by
    funext x s d
    unfold driverResidual
    dsimp only
    cases hb : forceBc2 D d with
    | some g => rfl
    | none =>
      have h0 : pair tx ty (D.comp d) * w d = pair tx ty' (D.comp d) * w d := by
        by_cases hc : D.comp d = 0
        · simp [pair, hc]
        · by_cases hw : w d = 0
          · rw [hw]; ring
          · rw [forceBc2, if_pos ((hD.held d).mpr ⟨hD.loaded d hw, hc⟩)] at hb
            cases hb
      simp only [withTraction, h0]
  unfold driverProblem
  rw [e]
  rfl

/-- C221: in the second phase the pressure has no effect: from the state the first phase has left, the load steps compute
the same for every pressure `p'`. The cylinders are then pressed together by the displacement of the top alone. -/
theorem C221_pressure_unused (Z : Setting G) (rank0 : Bool) (D : CylinderDofs) (inner : (ℕ → ℝ) → ℕ → ℝ)
    (stiff : (ℕ → ℝ) → ℕ → ℕ → ℝ) (w : ℕ → ℝ) (hD : TopDofs D w)
    (lin2 : (ℕ × ℕ → ℝ) → (ℕ → ℝ) → (ℕ → ℝ) → (ℕ → ℝ) × ℕ × ℤ) (p p' q : ℝ) (r : Run G) :
    actions Y Z rank0 (forceSteps2 D inner stiff w lin2 p q) r
      = actions Y Z rank0 (forceSteps2 D inner stiff w lin2 p' q) r := by
  unfold forceSteps2
  generalize List.range 8 = l
  induction l generalizing r with
  | nil => rfl
  | cons i l ih =>
    rw [List.map_cons, List.map_cons, actions, actions]
    have e : phaseStep Y Z rank0 ⟨forceBc2 D, ⟨withTraction D inner w (traction2 p q i), stiff, forceBc2 D⟩, lin2, 0.1⟩ r
        = phaseStep Y Z rank0 ⟨forceBc2 D, ⟨withTraction D inner w (traction2 p' q i), stiff, forceBc2 D⟩, lin2, 0.1⟩ r := by
      unfold phaseStep traction2
      dsimp only
      rw [residual_held hD inner stiff _ _ _ (-p' * (((4 - 1 : ℕ) : ℝ) + 1) / 4)]
    rw [e]
    generalize phaseStep Y Z rank0
      ⟨forceBc2 D, ⟨withTraction D inner w (traction2 p' q i), stiff, forceBc2 D⟩, lin2, 0.1⟩ r = x
    rcases x with e | ⟨R, r'⟩
    · rfl
    · dsimp only
      rw [ih]

/-! ### a computation which meets the hypotheses -/

/-- A load step of bodies which do not meet, on springs of stiffness one. -/
structure OnSprings (S : PhaseStep) (c : ℕ → ℝ) : Prop where
  lin : S.linSolve = exSame
  bulk : ∀ u d, S.load.bc d = none → S.load.bulk u d = u d - c d
  stiff : S.load.stiff = fun _ d c => if d = c then 1 else 0

theorem springs_converge {mu lam fric h : Packed} {law : Law} {gamma theta : ℝ} {S : PhaseStep} {c : ℕ → ℝ}
    (hS : OnSprings S c) {opts : Newton.Opts}
    (ho : opts.crit = .residual ∧ 0 < opts.atol ∧ 0 < opts.rtol ∧ 1 ≤ opts.maxIt)
    {uold : ℕ → ℝ} {r : Run Unit} (H : BeforeStep exApart exSetting mu lam fric h law gamma theta true opts uold r)
    (hne : r.solver.initialResidual ≠ 0
      ∨ ∃ d < 6, S.preset d = none ∧ S.load.bc d = none ∧ r.solver.x d ≠ c d - r.u d) :
    ∃ R r', phaseStep exApart exSetting true S r = .ok (R, r') ∧ R.converged = true
      ∧ BeforeStep exApart exSetting mu lam fric h law gamma theta true opts r.u r' ∧ r'.solver.initialResidual ≠ 0 := by
  have hN : DofsBelow exApart 6 := exY_below6
  obtain ⟨hready, hopts, ops, hops, hlaw, hconsts, hco, hsame⟩ := id H
  obtain ⟨Z', hZ'⟩ : ∃ Z' : Setting Unit, Z' = { exSetting with linSolve := S.linSolve } := ⟨_, rfl⟩
  obtain ⟨r0, hr0⟩ : ∃ r0, r0 = { r.solver with x := presetBc S.preset r.solver.x } := ⟨_, rfl⟩
  have hn : Z'.numDofs = 6 := by rw [hZ']; rfl
  obtain ⟨g, hg⟩ : ∃ g : ℕ → ℝ, g = fun d => (S.load.bc d).elim (c d - r.u d) id := ⟨_, rfl⟩
  have hres : ∀ x s, Reached exApart ops (exSetting.place fun _ => 0) s → ∀ d < 6,
      (driverProblem exApart Z' S.load r.u).residual x ((driverProblem exApart Z' S.load r.u).coefficients x s) d
        = x d - g d := by
    intro x s hc d hd
    show driverResidual exApart Z' S.load r.u x (driverCoefficients exApart x s) d = _
    unfold driverResidual
    dsimp only
    cases hb : S.load.bc d with
    | none =>
      rw [Option.elim_none, driver_entry exApart_valid hops hlaw (fun _ => Or.inl rfl) hconsts hsame.created hN
        hc x hd, exApart_form, hS.bulk _ d hb, hg, sum_eq_zero]
      · simp [hb]
        ring
      · intro c' _
        cases hb' : S.load.bc c' with
        | none => rw [Option.elim_none]
        | some v =>
          have hdc : d ≠ c' := by rintro rfl; rw [hb] at hb'; cases hb'
          rw [Option.elim_some, hS.stiff]
          simp [hdc]
    | some v =>
      rw [Option.elim_some, hg]
      simp [hb]
      norm_num
  obtain ⟨s', n, hsolve, hir⟩ := solve_shift (driverProblem exApart Z' S.load r.u) 6 g
    (Reached exApart ops (exSetting.place fun _ => 0))
    (fun x c hc => reached_coefficients x c hc) hres
    (fun A b d => by show Z'.linSolve A b d = _; rw [hZ', hS.lin]; rfl) (fun _ => rfl) (fun _ => rfl)
    (fun b => by rw [← hn]; rfl) (fun b => by rw [← hn]; rfl) true r0 (by rw [hr0]; exact hready)
    (by rw [hr0]; exact ⟨[], by simp [updates, hco]⟩) (by rw [hr0]; show r.solver.opts.crit = _; rw [hopts]; exact ho.1)
    (by rw [hr0]; show 0 < r.solver.opts.atol; rw [hopts]; exact ho.2.1)
    (by rw [hr0]; show 0 < r.solver.opts.rtol; rw [hopts]; exact ho.2.2.1)
    (by rw [hr0]; show 1 ≤ r.solver.opts.maxIt; rw [hopts]; exact ho.2.2.2)
    (by
      rcases hne with h | ⟨d, hd, h1, h2, h3⟩
      · left; rw [hr0]; exact h
      · refine Or.inr ⟨d, hd, ?_⟩
        rw [hr0, hg]
        show presetBc S.preset r.solver.x d ≠ _
        rw [presetBc, h1]
        dsimp only
        rw [h2]
        exact h3)
  have hok := phaseStep_ok exApart_valid (fun _ => Or.inl rfl) hN ho.1 (S := S) H
  rcases hok with ⟨e, he⟩ | ⟨R, r', hR, -, -, hB, -⟩
  · unfold phaseStep at he
    rw [← hZ', ← hr0, hsolve] at he
    dsimp only at he
    split at he
    · cases he
    · split at he <;> cases he
  · refine ⟨R, r', hR, ?_, hB, ?_⟩
    all_goals
      unfold phaseStep at hR
      rw [← hZ', ← hr0, hsolve] at hR
      dsimp only at hR
      split at hR
      · cases hR
      · split at hR
        · cases hR
        · obtain ⟨rfl, rfl⟩ := Prod.mk.inj (Except.ok.inj hR)
          first
          | rfl
          | exact hir

theorem springs_actions {opts : Newton.Opts} (ho : opts.crit = .residual ∧ 0 < opts.atol ∧ 0 < opts.rtol ∧ 1 ≤ opts.maxIt)
    (as : List Action) (hb : ∀ Q, .begin Q ∈ as → PhaseShaped exApart.static Q)
    (hs : ∀ S, .step S ∈ as → ∃ c, OnSprings S c) (P : Phase) (f : Packed) (uold : ℕ → ℝ) (r : Run Unit)
    (H : BeforeStep exApart exSetting (vals P.mu) (vals P.lam) f (vals P.h) P.law P.gamma P.theta true opts uold r)
    (hne : r.solver.initialResidual ≠ 0) : (actions exApart exSetting true as r).2 = none := by
  induction as generalizing P f uold r with
  | nil => rfl
  | cons a as ih =>
    have hb' := fun Q hQ => hb Q (List.mem_cons_of_mem _ hQ)
    have hs' := fun S hS => hs S (List.mem_cons_of_mem _ hS)
    cases a with
    | «begin» Q =>
      exact ih hb' hs' Q _ uold (beginPhase exApart Q r) (beginPhase_ok exApart_valid (hb Q List.mem_cons_self) H) hne
    | step S =>
      obtain ⟨c, hc⟩ := hs S List.mem_cons_self
      obtain ⟨R, r', hR, -, H', hne'⟩ := springs_converge hc ho H (Or.inl hne)
      rw [actions, hR]
      exact ih hb' hs' P f r.u r' H' hne'

/-- The bottom has dofs 0 and 1, the top 4 and 5. -/
def exForce : CylinderDofs where
  symmetry := fun _ => false
  bottom := fun d => decide (d ≤ 1)
  top := fun d => decide (d = 4) || decide (d = 5)
  constraint := fun d => decide (d = 5)
  comp := fun d => d % 2

/-- Integrals of the basis functions over the top. -/
def exTopWeights (d : ℕ) : ℝ := if d = 4 ∨ d = 5 then 1 else 0

/-- Hypotheses of `C221_loads` are met by a computation with pressure 1 and tangential traction 1/2. -/
example : TopDofs exForce exTopWeights ∧ ∃ P1 P2 out, PhaseShaped exApart.static P1 ∧ PhaseShaped exApart.static P2
    ∧ P1.law = .frictionless ∧ P2.law = .coulomb
    ∧ out = actions exApart exSetting true (forceDriven exForce (fun u => u) (fun _ d c => if d = c then 1 else 0) exTopWeights
      exSame exSame 1 (1 / 2) P1 P2) (newRun exApart exSetting exOpts)
    ∧ out.2 = none ∧ |totalAfter out.1 12 5 - totalAfter out.1 4 5| ≤ 8 * 1e-8 := by
  have hD : TopDofs exForce exTopWeights := by
    refine ⟨fun d hd => ?_, fun d => ?_⟩
    · by_contra h
      apply hd
      simp only [exForce, Bool.or_eq_true, decide_eq_true_eq] at h
      rw [exTopWeights, if_neg h]
    · simp only [exForce, Bool.or_eq_true, decide_eq_true_eq]
      constructor
      · rintro rfl
        exact ⟨Or.inr rfl, by decide⟩
      · rintro ⟨rfl | rfl, h⟩
        · exact absurd rfl h
        · rfl
  obtain ⟨P1, P2, sh1, sh2, l1, l2, hid⟩ : ∃ P1 P2 : Phase, PhaseShaped exApart.static P1 ∧ PhaseShaped exApart.static P2
      ∧ P1.law = .frictionless ∧ P2.law = .coulomb ∧ P1.guess = id := by
    refine ⟨exPhase .frictionless none, exPhase .coulomb (some fun _ => ⟨1, 1, fun _ _ => 0.3⟩), ?_, ?_, rfl, rfl, rfl⟩
    · refine ⟨?_, ?_, ?_, ?_⟩ <;> simp [exPhase, ScalarShaped, System.static, exApart, exY]
    · refine ⟨?_, ?_, ?_, ?_⟩ <;> simp [exPhase, ScalarShaped, System.static, exApart, exY]
  have ho : exOpts.crit = .residual ∧ 0 < exOpts.atol ∧ 0 < exOpts.rtol ∧ 1 ≤ exOpts.maxIt :=
    ⟨rfl, by norm_num [exOpts], by norm_num [exOpts], by norm_num [exOpts]⟩
  obtain ⟨as, has⟩ : ∃ as, as = forceDriven exForce (fun u => u) (fun _ d c => if d = c then 1 else 0) exTopWeights
      exSame exSame 1 (1 / 2) P1 P2 := ⟨_, rfl⟩
  have hb : ∀ Q, .begin Q ∈ as → PhaseShaped exApart.static Q := by
    intro Q hQ
    rw [has] at hQ
    simp only [forceDriven, forceSteps2, List.mem_append, List.mem_map, List.mem_singleton, Action.begin.injEq, reduceCtorEq,
      and_false, exists_false, or_false] at hQ
    rcases hQ with rfl | rfl
    · exact sh1
    · exact sh2
  have hspr : ∀ (S : PhaseStep) (t : ℕ → ℝ), S.linSolve = exSame → S.load.bulk = withTraction exForce (fun u => u) exTopWeights t →
      S.load.stiff = (fun _ d c => if d = c then 1 else 0) → OnSprings S (fun d => t (exForce.comp d) * exTopWeights d) :=
    fun S t e1 e2 e3 => ⟨e1, fun u d _ => by rw [e2]; rfl, e3⟩
  have hs : ∀ S, .step S ∈ as → ∃ c, OnSprings S c := by
    intro S hS
    rw [has] at hS
    simp only [forceDriven, forceSteps2, List.mem_append, List.mem_map, List.mem_singleton, reduceCtorEq, false_or, or_false,
      Action.step.injEq] at hS
    rcases hS with ⟨i, -, rfl⟩ | ⟨i, -, rfl⟩
    · exact ⟨_, hspr _ (traction1 1 i) rfl rfl rfl⟩
    · exact ⟨_, hspr _ (traction2 1 (1 / 2) i) rfl rfl rfl⟩
  obtain ⟨S, bs, hbs, hS⟩ : ∃ S bs, as = .begin P1 :: .step S :: bs
      ∧ S = ⟨forceBc1 exForce, ⟨withTraction exForce (fun u => u) exTopWeights (traction1 1 0),
        fun _ d c => if d = c then 1 else 0, forceBc1 exForce⟩, exSame, 0.1⟩ := ⟨_, _, has.trans rfl, rfl⟩
  have H := firstPhase_ok (rank0 := true) (opts := exOpts) (Z := exSetting) exApart_valid sh1
  obtain ⟨R, r', hR, -, H', hne'⟩ := springs_converge (hspr S (traction1 1 0) (by rw [hS]) (by rw [hS]) (by rw [hS])) ho H
    (Or.inr ⟨5, by norm_num, by rw [hS]; simp [forceBc1, exForce], by rw [hS]; simp [forceBc1, exForce], by
      show P1.guess (fun _ => 0) 5 ≠ traction1 1 0 (exForce.comp 5) * exTopWeights 5 - 0
      rw [hid]
      norm_num [traction1, pair, exForce, exTopWeights]⟩)
  have h1 := springs_actions ho bs (fun Q hQ => hb Q (by rw [hbs]; simp [hQ])) (fun S hS => hs S (by rw [hbs]; simp [hS]))
    P1 _ _ r' H' hne'
  obtain ⟨out, hout⟩ : ∃ out, out = actions exApart exSetting true as (newRun exApart exSetting exOpts) := ⟨_, rfl⟩
  have k1 : out.2 = none := by
    rw [hout, hbs, actions, actions, hR]
    exact h1
  rw [has] at hout
  refine ⟨hD, P1, P2, out, sh1, sh2, l1, l2, hout, k1, ?_⟩
  exact (C221_loads exApart_valid exSetting exY_below6 exOpts rfl rfl true exForce _ _ exTopWeights hD exSame exSame 1 (1 / 2)
    P1 P2 sh1 sh2 rfl out hout k1).2.1 5 (by norm_num [exSetting]) (by simp [exForce]) (by simp [exForce])

end Verif.ContactProblem
