import Verif.Props.Driver
import Verif.Props.NewtonStep

/-!
C141 for a whole solve, and a computation which meets the hypotheses of C139–C141.
-/

namespace Verif.ContactProblem

open Verif.Packing Verif.Assembly Verif.Spec Finset

noncomputable section

variable {G : Type} {Y : System G}

/-- C141 for a whole solve: if the linear solver solves its first system and no point changes its status from the
initial guess `x` to `x - dx`, then `solve` converges with at most one iteration: with none if the initial guess
is accepted (only by a solver used before); otherwise the increment is `x - dx`, and satisfies the equations of
the load step exactly. -/
theorem C141_one_step (hY : System.Valid Y) (ops : List (Op G)) (hops : ∀ op ∈ ops, OpShaped Y.static op)
    (g : G) (law : Law) (hlaw : lastLaw ops none = some law)
    (h23 : law ≠ .frictionless → (Y.gdim = 2 ∨ Y.gdim = 3) ∧ UnitNormals Y ((Tracked.new g).history ops))
    (gamma theta : ℝ) (hconsts : lastConsts ops none = some (gamma, theta))
    (hc : ((Tracked.new g).history ops).created = true)
    (Z : Setting G) (hN : DofsBelow Y Z.numDofs) (L : LoadCase) (u : ℕ → ℝ)
    (K : ℕ → ℕ → ℝ) (l : ℕ → ℝ) (hL : LinearBulk L Z.numDofs K l)
    (hbc : ∀ d < Z.numDofs, L.bc d ≠ none → AwayFromContact Y ((Tracked.new g).history ops) d)
    (rank0 : Bool) (s : Newton.St (ℕ → ℝ) (ℕ → ℝ) (State G)) (hs : s.coeffs = history Y.static ops (init Y.static g))
    (c : State G) (hcoeffs : c = history Y.static (ops ++ [.updateData (Y.du s.x)]) (init Y.static g))
    (A : ℕ × ℕ → ℝ) (hA : A = driverJacobian Y L u s.x c) (b : ℕ → ℝ) (hb : b = driverResidual Y Z L u s.x c)
    (dx : ℕ → ℝ) (hdx : dx = (Z.linSolve A b (s.dx.getD 0)).1) (hsol : SolvesExactly Z A b (s.dx.getD 0))
    (hst : SameStatus Y ((Tracked.new g).history ops) law gamma s.x (fun d => s.x d + -dx d))
    (hready : Newton.Ready rank0 s)
    (hcrit : s.opts.crit = .residual) (hatol : 0 < s.opts.atol) (hrtol : 0 < s.opts.rtol) (hmax : 1 ≤ s.opts.maxIt)
    (hne : norm2 Z.numDofs dx ≠ 0) :
    ∃ s' n, Newton.solve (driverProblem Y Z L u) rank0 .function s = (s', .ok (n, true)) ∧ n ≤ 1
      ∧ (n = 0 → s'.x = s.x ∧ s.initialResidual ≠ 0 ∧ norm2 Z.numDofs b < s.opts.atol)
      ∧ (n = 1 → s'.x = (fun d => s.x d + -dx d)
        ∧ ∀ tol > 0, Balanced Y ((Tracked.new g).history ops) law gamma theta L Z.numDofs u s'.x tol) := by
  rw [Newton.solve_function _ _ _ hready]
  obtain ⟨P, hP⟩ : ∃ P, P = driverProblem Y Z L u := ⟨_, rfl⟩
  have hc1 : driverCoefficients Y s.x s.coeffs = c := by
    rw [hcoeffs, history_snoc, hs]
    rfl
  obtain ⟨s1, hs1⟩ : ∃ s1 : Newton.St (ℕ → ℝ) (ℕ → ℝ) (State G), s1 = ⟨s.opts, 0, 0,
    s.initialResidual, -1, s.relax, s.dx, s.x, c, b, s.nRes + 1, s.nLin⟩ := ⟨_, rfl⟩
  have hnB : ∀ b, P.normB b = norm2 Z.numDofs b := fun b => by rw [hP]; rfl
  have hr : rank0 = false ∨ s1.relax ≠ none := by
    rw [hs1]
    rcases hready with h | h | h
    · exact Or.inl h
    · exact Or.inr h
    · rw [hcrit] at h; cases h
  obtain ⟨conv, k1, k0⟩ := Newton.checkConvergence_ok rank0 s1 (norm2 Z.numDofs b) hr
  obtain ⟨s2, hs2⟩ : ∃ s2 : Newton.St (ℕ → ℝ) (ℕ → ℝ) (State G), s2 = { s1 with lastResidual := norm2 Z.numDofs b } := ⟨_, rfl⟩
  have hin : Newton.solveInner P rank0 s = match Newton.newtonLoop P rank0 (s2.opts.maxIt + 1) conv (norm2 Z.numDofs b) s2 with
    | (s, .error e) => (s, .error e)
    | (s, .ok conv) =>
      if conv = false ∧ s.opts.errorOnNonconvergence = true then (s, .error .runtimeError)
      else (s, .ok (s.iteration, conv)) := by
    have e1 : P.coefficients s.x s.coeffs = c := by rw [hP]; exact hc1
    have e2 : P.pre s.x = s.x := by rw [hP]; rfl
    have e3 : P.residual s.x c = b := by rw [hP, hb]; rfl
    unfold Newton.solveInner
    simp only [e1, e2, e3, hcrit, hnB]
    have k2 := k1
    rw [hs1] at k2
    rw [k2, hs2, hs1]
    dsimp only
    generalize Newton.newtonLoop P rank0 _ conv _ _ = o
    obtain ⟨o1, o2⟩ := o
    cases o2 <;> rfl
  rw [← hP, hin]
  cases conv with
  | true =>
    have hl : Newton.newtonLoop P rank0 (s2.opts.maxIt + 1) true (norm2 Z.numDofs b) s2 = (s2, .ok true) := by
      unfold Newton.newtonLoop
      rw [if_neg (by simp)]
    rw [hl]
    have : s2.iteration = 0 := by rw [hs2, hs1]
    have hk := k0.mp rfl
    refine ⟨s2, 0, ?_, by omega, fun _ => ⟨by rw [hs2, hs1], by rw [hs1] at hk; exact hk.1,
      by rw [hs1] at hk; exact hk.2.2⟩, by omega⟩
    dsimp only
    rw [this]
    simp
  | false =>
    obtain ⟨s', h1, h2, h3, h4, h5⟩ := C141_settled hY ops hops g law hlaw h23 gamma theta hconsts hc Z hN L u K l hL hbc rank0 s2 []
      (by rw [hs2, hs1]; simpa using hcoeffs) (by rw [hs2, hs1]; exact hb) A (by rw [hs2, hs1]; exact hA) dx
      (by rw [hs2, hs1]; exact hdx) (by rw [hs2, hs1]; exact hsol) (by rw [hs2, hs1]; exact hst)
      (by rw [hs2, hs1]; exact hcrit) (by rw [hs2, hs1]; exact hatol) (by rw [hs2, hs1]; exact hrtol)
      (by rw [hs2, hs1]; simpa using hne)
    have b2 : s2.b = b := by rw [hs2, hs1]
    rw [b2, ← hP] at h1
    have hl : Newton.newtonLoop P rank0 (s2.opts.maxIt + 1) false (norm2 Z.numDofs b) s2 = (s', .ok true) := by
      unfold Newton.newtonLoop
      rw [if_pos ⟨rfl, by rw [hs2, hs1]; exact hmax⟩, h1]
      dsimp only
      obtain ⟨m, hm⟩ : ∃ m, s2.opts.maxIt = m + 1 := ⟨s2.opts.maxIt - 1, by
        have : 1 ≤ s2.opts.maxIt := by rw [hs2, hs1]; exact hmax
        omega⟩
      rw [hm]
      unfold Newton.newtonLoop
      rw [if_neg (by simp)]
    have hi : s'.iteration = 1 := by rw [h5, hs2, hs1]
    have hx : s'.x = fun d => s.x d + -dx d := by rw [h2, hs2, hs1]
    rw [hl]
    refine ⟨s', 1, ?_, le_refl _, by omega, fun _ => ⟨hx, fun tol htol => ?_⟩⟩
    · dsimp only
      rw [hi]
      simp
    · have hfresh := Newton.solve_fresh (P := P) (I := Reached Y ops g) (by rw [hP]; exact fun _ => rfl)
        (by rw [hP]; exact fun x c hc => reached_coefficients x c hc) (by rw [hP]; exact fun _ => rfl) rank0 s
        ⟨[], by rw [hs]; simp [updates]⟩
      have hsv : (Newton.solve P rank0 .function s).1 = s' := by
        rw [Newton.solve_function _ _ _ hready, hin, hl]
        dsimp only
        simp
      rw [hsv] at hfresh
      exact balanced_of_small hY hops hlaw (fun hl => (h23 hl).1) hconsts hc hN (by rw [hP] at hfresh; exact hfresh) (by
        rw [norm2, sum_eq_zero (fun d hd => by rw [h3 d (mem_range.mp hd)]; norm_num), Real.sqrt_zero]; exact htol)

/-! ### a computation -/

/-- The arguments of `generate_contact_data` in the example: Tresca friction with bound 2. -/
def exTresca : GenArgs Unit :=
  ⟨.tresca, some (fun _ => ⟨1, 1, fun _ _ => 3⟩), some (fun _ => ⟨1, 1, fun _ _ => 5⟩),
    some (fun _ => ⟨1, 1, fun _ _ => 2⟩), some (exY.packGrad fun _ => 0), none, fun _ => ⟨1, 1, fun _ _ => 1⟩, 1, 0⟩

theorem exTresca_shaped : ∀ op ∈ [Op.generate exTresca], OpShaped exY.static op := by
  intro op hop
  obtain rfl := List.mem_singleton.mp hop
  have h := packGrad_eq exY_valid (fun _ => 0)
  refine ⟨?_, ?_, ?_, ?_, fun m hm => ?_, ?_⟩
  · simp [exTresca, ScalarShaped, System.static, exY]
  · simp [exTresca, ScalarShaped, System.static, exY]
  · simp [exTresca, ScalarShaped, System.static, exY]
  · simp [exTresca, ScalarShaped, System.static, exY]
  · obtain rfl := Option.some.inj hm
    exact fun i _ => ⟨(h i).1, (h i).2.1⟩
  · simp [exTresca]

theorem exTresca_sameStatus (w : ℕ → ℝ) (hw : (w 0 = 0 ∧ w 1 = 0) ∧ w 2 = 1 ∧ w 3 = 0) :
    SameStatus exY ((Tracked.new ()).history [.generate exTresca]) .tresca 1 (fun _ => 0) w := by
  refine ex_sameStatus _ (contactNormalAt exY () 0 0 0 1) ?_ _ w ⟨⟨rfl, rfl⟩, rfl, rfl⟩ hw
  rintro p rfl
  refine ⟨rfl, ?_, ?_, ?_, ?_, ?_, ?_, ?_⟩
  iterate 6 simp [pointAt, exTresca, Tracked.history, Tracked.call, vals, contactNormalAt, exY]
  intro a ha b hb
  have := packGrad_gradAt exY_valid (fun _ => 0) (i := 0) (e := 0) (cell := 0) (f := 2) rfl (q := 0) (a := a) (b := b)
    (by decide) ha hb
  rw [exBound_grad _ ⟨rfl, rfl⟩ 0 a b ha] at this
  exact this

theorem exTresca_unit : UnitNormals exY ((Tracked.new ()).history [.generate exTresca]) := exOpsBound_unit 2

theorem exY_below6 : DofsBelow exY 6 := by refine ⟨?_, ?_⟩ <;> simp [exY]

/-- The solution of the first linear system: dofs 2 and 4 move by one. -/
def exStep (d : ℕ) : ℝ := if d = 2 ∨ d = 4 then -1 else 0

def exSetting : Setting Unit := ⟨6, fun _ _ _ => (exStep, 1, 1), fun _ => ()⟩

/-- State of the contact problem for the initial guess zero. -/
def exFirst : State Unit :=
  driverCoefficients exY (fun _ => 0) (history exY.static [.generate exTresca] (init exY.static ()))

/-- Springs at all dofs, dof 4 (not at the contact surface) prescribed, and loads. -/
def exLoad : LoadCase where
  bulk := fun u d => ∑ c ∈ range 6, (if d = c then 1 else 0) * u c
    - (contactVector exY exFirst d - ∑ c ∈ range 6, contactMatrix exY exFirst (d, c) * exStep c - exStep d)
  stiff := fun _ d c => if d = c then 1 else 0
  bc := fun d => if d = 4 then some 1 else none

theorem exLoad_away : AwayFromContact exY ((Tracked.new ()).history [.generate exTresca]) 4 := by
  intro i hi e he cell f hf
  have hf' : some ((0 : ℕ), (2 : ℕ)) = some (cell, f) := by
    have : e < 1 := he
    obtain rfl : e = 0 := by omega
    exact hf
  obtain ⟨rfl, rfl⟩ := Prod.mk.inj (Option.some.inj hf')
  refine ⟨fun k _ a ha => ?_, fun q _ _ k _ a ha => ?_⟩
  · have : a < 2 := ha
    show 2 * 0 + a ≠ 4
    omega
  · have : a < 2 := ha
    show 2 * 1 + a ≠ 4
    omega

theorem exLoad_linear : LinearBulk exLoad 6 (fun d c => if d = c then 1 else 0)
    (fun d => contactVector exY exFirst d - ∑ c ∈ range 6, contactMatrix exY exFirst (d, c) * exStep c - exStep d) :=
  ⟨fun _ _ _ => rfl, fun _ _ _ _ _ => rfl⟩

theorem exLoad_row : ∀ c < 6, contactMatrix exY exFirst (4, c) = 0 := by
  intro c hc
  have := driver_row exY_valid exTresca_shaped (g := ()) (N := 6) rfl (fun _ => ⟨Or.inl rfl, exTresca_unit⟩) rfl rfl exY_below6
    ⟨[], by simp [updates]; rfl⟩ (fun _ => 0) (unit c) (d := 4) (by norm_num)
  rw [contactTangent_away exLoad_away] at this
  unfold exFirst
  simpa [unit, hc] using this

theorem exLoad_solved : SolvesExactly exSetting (driverJacobian exY exLoad (fun _ => 0) (fun _ => 0) exFirst)
    (driverResidual exY exSetting exLoad (fun _ => 0) (fun _ => 0) exFirst) 0 := by
  refine ⟨by simp [exSetting], fun d hd => ?_⟩
  have hd : d < 6 := hd
  show ∑ c ∈ range 6, driverJacobian exY exLoad (fun _ => 0) (fun _ => 0) exFirst (d, c) * exStep c = _
  by_cases h4 : d = 4
  · subst h4
    rw [driverResidual_bc exY (g := 1) rfl, sum_eq_single_of_mem 4 (by simp) (fun k hk hk4 => ?_)]
    · simp [driverJacobian, exLoad, exStep]
    · unfold driverJacobian
      simp [exLoad, Ne.symm hk4, exLoad_row k (mem_range.mp hk)]
  · have hb : exLoad.bc d = none := if_neg h4
    rw [driverResidual_free exY hb]
    have e1 : ∑ c ∈ range exSetting.numDofs, (exLoad.bc c).elim 0 (fun g => exLoad.stiff (fun c => 0 + 0) d c * (g - 0)) = 0 :=
      sum_eq_zero (fun c _ => by
        by_cases hc : c = 4
        · subst hc; simp [exLoad, h4]
        · simp [exLoad, hc])
    have e2 : ∑ c ∈ range 6, driverJacobian exY exLoad (fun _ => 0) (fun _ => 0) exFirst (d, c) * exStep c
        = ∑ c ∈ range 6, contactMatrix exY exFirst (d, c) * exStep c + ∑ c ∈ range 6, (if c = d then exStep c else 0) := by
      rw [← sum_add_distrib]
      refine sum_congr rfl (fun c _ => ?_)
      unfold driverJacobian
      by_cases hc : c = 4
      · subst hc; simp [exLoad, h4, Ne.symm h4]
      · by_cases hdc : c = d
        · subst hdc; simp [exLoad, h4]; ring
        · simp [exLoad, h4, hc, hdc, Ne.symm hdc]
    rw [e1, e2, sum_ite_eq' (range 6) d, if_pos (mem_range.mpr hd)]
    simp [exLoad]
    ring

/-- Options of the solver in the example. -/
def exOpts : Newton.Opts := ⟨10, 1e-8, 1e-8, .residual, true⟩

theorem exSolved : ∃ s', Newton.solve (driverProblem exY exSetting exLoad (fun _ => 0)) true .function
    (startRun exY exSetting exTresca exOpts).solver = (s', .ok (1, true)) ∧ s'.x = fun d => 0 + -exStep d := by
  obtain ⟨s', n, h1, h2, h0, h3⟩ := C141_one_step exY_valid [.generate exTresca] exTresca_shaped () .tresca rfl
    (fun _ => ⟨Or.inl rfl, exTresca_unit⟩) 1 0 rfl rfl exSetting exY_below6 exLoad (fun _ => 0) _ _ exLoad_linear
    (fun d _ hb => by
      by_cases h4 : d = 4
      · subst h4; exact exLoad_away
      · exact absurd (if_neg h4) hb) true (startRun exY exSetting exTresca exOpts).solver rfl exFirst rfl _ rfl _ rfl exStep rfl
    exLoad_solved (exTresca_sameStatus _ (by simp [startRun, exStep, Newton.St.init])) (Or.inr (Or.inl (by simp [startRun])))
    rfl (by norm_num [startRun, exOpts]) (by norm_num [startRun, exOpts]) (by norm_num [startRun, exOpts])
    (by simp only [norm2, exSetting, exStep, ne_eq, Real.sqrt_eq_zero', not_le]; norm_num; exact ⟨2, by simp⟩)
  have hn : n ≠ 0 := by
    intro hn
    exact (h0 hn).2.1 rfl
  obtain rfl : n = 1 := by omega
  exact ⟨s', h1, (h3 rfl).1⟩

/-- The hypotheses of C139–C141 hold for a solve with friction and a prescribed dof, and it converges. -/
example : System.Valid exY ∧ (∀ op ∈ [Op.generate exTresca], OpShaped exY.static op)
    ∧ lastLaw [Op.generate exTresca] none = some .tresca ∧ lastConsts [Op.generate exTresca] none = some (1, 0)
    ∧ ((Tracked.new ()).history [.generate exTresca]).created = true ∧ DofsBelow exY exSetting.numDofs
    ∧ LinearBulk exLoad exSetting.numDofs (fun d c => if d = c then 1 else 0)
      (fun d => contactVector exY exFirst d - ∑ c ∈ range 6, contactMatrix exY exFirst (d, c) * exStep c - exStep d)
    ∧ exLoad.bc 4 = some 1
    ∧ (Newton.solve (driverProblem exY exSetting exLoad (fun _ => 0)) true .function
        (startRun exY exSetting exTresca exOpts).solver).2 = .ok (1, true) := by
  obtain ⟨s', h, -⟩ := exSolved
  refine ⟨exY_valid, exTresca_shaped, rfl, rfl, rfl, exY_below6, exLoad_linear, rfl, ?_⟩
  rw [h]

/-- The load step of C140 with these data reports convergence. -/
example : ∃ R r, loadStep exY exSetting true exLoad (startRun exY exSetting exTresca exOpts) = .ok (R, r)
    ∧ R.converged = true ∧ R.du 2 = 1 ∧ R.du 4 = 1 := by
  obtain ⟨s', h, hx⟩ := exSolved
  have H : BeforeStep exY exSetting (vals fun _ => ⟨1, 1, fun _ _ => 3⟩) (vals fun _ => ⟨1, 1, fun _ _ => 5⟩)
      (vals fun _ => ⟨1, 1, fun _ _ => 2⟩) (vals fun _ => ⟨1, 1, fun _ _ => 1⟩) .tresca 1 0 true exOpts (fun _ => 0)
      (startRun exY exSetting exTresca exOpts) :=
    ⟨Or.inr (Or.inl (by simp [startRun])), rfl, [.generate exTresca], exTresca_shaped, rfl, rfl, rfl,
      rfl, rfl, rfl, rfl, rfl, rfl, rfl, rfl⟩
  rcases loadStep_ok exY_valid (fun _ => Or.inl rfl) exY_below6 rfl (L := exLoad) H with ⟨e, he⟩ | ⟨R, r, hR, -⟩
  · unfold loadStep at he
    have h' : Newton.solve (driverProblem exY exSetting exLoad (startRun exY exSetting exTresca exOpts).u) true .function
      (startRun exY exSetting exTresca exOpts).solver = (s', .ok (1, true)) := h
    rw [h'] at he
    dsimp only at he
    split at he
    · cases he
    · split at he <;> cases he
  · refine ⟨R, r, hR, ?_⟩
    unfold loadStep at hR
    have h' : Newton.solve (driverProblem exY exSetting exLoad (startRun exY exSetting exTresca exOpts).u) true .function
      (startRun exY exSetting exTresca exOpts).solver = (s', .ok (1, true)) := h
    rw [h'] at hR
    dsimp only at hR
    split at hR
    · cases hR
    · split at hR
      · cases hR
      · obtain ⟨rfl, -⟩ := Prod.mk.inj (Except.ok.inj hR)
        refine ⟨rfl, ?_, ?_⟩
        · show s'.x 2 = 1
          rw [hx]
          simp [exStep]
        · show s'.x 4 = 1
          rw [hx]
          simp [exStep]

end

end Verif.ContactProblem
