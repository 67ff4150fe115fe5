import Verif.Lemmas.ThermoDemo
import Mathlib.Tactic.IntervalCases

/-!
C166–C168: the demos with time steps for tied bodies.
-/

namespace Verif.TieData

open Verif.Spec Verif.Lemmas Verif.Packing Verif.Assembly Verif.Entities Verif.Kernels Finset

noncomputable section

variable {D : Demo}

/-! ### C166 -/

/-- The temperatures of the demo with the heat equation. -/
theorem heatSteps_some (hD : DemoValid D) (hT : TiedFirst D.M) (hpos : HeatPositive D)
    (haway : AwayFromTie D.M D.Q D.H.numDofs D.H.bc) (hsol : LinearSolver D.H.numDofs D.H.solve) (n : ℕ) :
    ∃ T, D.heatSteps n = some T := by
  induction n with
  | zero => exact ⟨_, rfl⟩
  | succ n ih =>
    obtain ⟨T, h1⟩ := ih
    obtain ⟨s, h2, h3⟩ := heatStart_ok hD
    obtain ⟨T', h4, -⟩ := heatStep_ok hD hT hpos haway hsol h3 T
    exact ⟨T', by unfold Demo.heatSteps; rw [h1, h2]; exact h4⟩

/-- C166, what is computed: every time step of the demo with the heat equation returns, and is a step of implicit Euler with a
heat source which belongs to the initial temperature. -/
theorem C166_source (hD : DemoValid D) (hT : TiedFirst D.M) (hpos : HeatPositive D)
    (haway : AwayFromTie D.M D.Q D.H.numDofs D.H.bc) (hsol : LinearSolver D.H.numDofs D.H.solve) (n : ℕ) :
    ∃ T T', D.heatSteps n = some T ∧ D.heatSteps (n + 1) = some T' ∧ Euler D (tieSource D) T T' := by
  obtain ⟨T, h1⟩ := heatSteps_some hD hT hpos haway hsol n
  obtain ⟨s, h2, h3⟩ := heatStart_ok hD
  obtain ⟨T', h4, h5⟩ := heatStep_ok hD hT hpos haway hsol h3 T
  exact ⟨T, T', h1, by unfold Demo.heatSteps; rw [h1, h2]; exact h4, h5⟩

theorem timeStep_some (hD : DemoValid D) (hU : DemoValidU D) (hT : TiedFirst D.M) (hpos : HeatPositive D)
    (haway : AwayFromTie D.M D.Q D.H.numDofs D.H.bc) (hsol : LinearSolver D.H.numDofs D.H.solve) (k : ℕ) {r : DemoRun}
    (h : ThermoReach D (fun _ => True) r.s) :
    ∃ r', D.timeStep k r = some r' ∧ ThermoReach D (fun _ => True) r'.s ∧ Euler D (tieSource D) r.T r'.T := by
  obtain ⟨T', h4, h5⟩ := heatStep_ok hD hT hpos haway hsol h.heat r.T
  obtain ⟨s', f, h6, h7, -⟩ := residual_ok hD hU hT h k T' r.u
  obtain ⟨u', s'', h8, h9⟩ := newton_reach hD hU hT k T' (D.L.its k) r.u
    (bcVector D.L.numDofs (D.L.bc k) D.L.stiff r.u (-1.0) f) s' h7
  refine ⟨⟨T', u', s''⟩, ?_, h9, h5⟩
  unfold Demo.timeStep
  simp only [h4, h6, h8, Option.bind_eq_bind, Option.bind_some]
  rfl

/-- The states of the demos with thermo-elasticity. -/
theorem timeSteps_some (hD : DemoValid D) (hU : DemoValidU D) (hT : TiedFirst D.M) (hpos : HeatPositive D)
    (haway : AwayFromTie D.M D.Q D.H.numDofs D.H.bc) (hsol : LinearSolver D.H.numDofs D.H.solve) (n : ℕ) :
    ∃ r, D.timeSteps n = some r ∧ ThermoReach D (fun _ => True) r.s := by
  induction n with
  | zero =>
    obtain ⟨s, h1, h2⟩ := thermoStart_ok hD hU
    exact ⟨_, h1, h2⟩
  | succ n ih =>
    obtain ⟨r, h1, h2⟩ := ih
    obtain ⟨r', h3, h4, -⟩ := timeStep_some hD hU hT hpos haway hsol n h2
    exact ⟨r', by unfold Demo.timeSteps; rw [h1]; exact h3, h4⟩

/-- C166 for the demos with thermo-elasticity, whatever the Newton solver does. -/
theorem C166_source_thermo (hD : DemoValid D) (hU : DemoValidU D) (hT : TiedFirst D.M) (hpos : HeatPositive D)
    (haway : AwayFromTie D.M D.Q D.H.numDofs D.H.bc) (hsol : LinearSolver D.H.numDofs D.H.solve) (n : ℕ) :
    ∃ r r', D.timeSteps n = some r ∧ D.timeSteps (n + 1) = some r' ∧ Euler D (tieSource D) r.T r'.T := by
  obtain ⟨r, h1, h2⟩ := timeSteps_some hD hU hT hpos haway hsol n
  obtain ⟨r', h3, -, h5⟩ := timeStep_some hD hU hT hpos haway hsol n h2
  exact ⟨r, r', h1, by unfold Demo.timeSteps; rw [h1]; exact h3, h5⟩

/-- The form of the tie for heat conduction is that of a matrix. -/
theorem heatTie_matrix (hD : DemoValid D) (hT : TiedFirst D.M) : ∃ A : Arr (ℕ × ℕ), ∀ u v : ℕ → ℝ,
    ∑ d ∈ range D.H.numDofs, ∑ c ∈ range D.H.numDofs, v d * A (d, c) * u c
      = heatTie D.M D.Q D.EQ D.mat D.gamma D.theta u v := by
  obtain ⟨s, -, ops, g, h1, h2, h3, h4, -⟩ := heatStart_ok hD
  obtain ⟨-, -, ⟨A, -, k3⟩, -⟩ := C117_heat_partial hD.mesh hD.heat _ hD.heatDofs hT ops h1 h3 h4
  exact ⟨A, k3⟩

/-- Without source. -/
theorem source_zero (hD : DemoValid D) (hT : TiedFirst D.M)
    (h0 : D.addTie = true → D.withT = true → ∀ d < D.H.numDofs, D.start d = 0) : tieSource D = fun _ => 0 := by
  funext v
  unfold tieSource
  split_ifs with h
  · obtain ⟨A, hA⟩ := heatTie_matrix hD hT
    rw [← hA]
    refine sum_eq_zero (fun d _ => sum_eq_zero (fun c hc => ?_))
    rw [h0 h.1 h.2 c (mem_range.mp hc), mul_zero]
  · rfl

/-- C166: every time step of the demo with the heat equation is a step of implicit Euler, if no temperature is prescribed at a
cell with a tied point, the tied points come first on every facet, and the initial temperature is zero or does not enter the
vector of the tie. -/
theorem C166_euler_partial (hD : DemoValid D) (hT : TiedFirst D.M) (hpos : HeatPositive D)
    (haway : AwayFromTie D.M D.Q D.H.numDofs D.H.bc) (hsol : LinearSolver D.H.numDofs D.H.solve)
    (h0 : D.addTie = true → D.withT = true → ∀ d < D.H.numDofs, D.start d = 0) (n : ℕ) :
    ∃ T T', D.heatSteps n = some T ∧ D.heatSteps (n + 1) = some T' ∧ Euler D (fun _ => 0) T T' := by
  have := C166_source hD hT hpos haway hsol n
  rwa [source_zero hD hT h0] at this

/-- C166 for the demos with thermo-elasticity. -/
theorem C166_euler_thermo_partial (hD : DemoValid D) (hU : DemoValidU D) (hT : TiedFirst D.M) (hpos : HeatPositive D)
    (haway : AwayFromTie D.M D.Q D.H.numDofs D.H.bc) (hsol : LinearSolver D.H.numDofs D.H.solve)
    (h0 : D.addTie = true → D.withT = true → ∀ d < D.H.numDofs, D.start d = 0) (n : ℕ) :
    ∃ r r', D.timeSteps n = some r ∧ D.timeSteps (n + 1) = some r' ∧ Euler D (fun _ => 0) r.T r'.T := by
  have := C166_source_thermo hD hU hT hpos haway hsol n
  rwa [source_zero hD hT h0] at this

/-! ### C167 -/

theorem conduction_sub (hD : DemoValid D) (hT : TiedFirst D.M) (u w v : ℕ → ℝ) :
    conduction D (fun d => u d - w d) v = conduction D u v - conduction D w v := by
  obtain ⟨A, hA⟩ := heatTie_matrix hD hT
  unfold conduction
  rw [formOf_sub, ← hA, ← hA, ← hA]
  have := formOf_sub D.H.numDofs D.H.numDofs (fun d c => A (d, c)) u w v
  unfold formOf at this ⊢
  rw [this]
  ring

theorem conduction_congr (hD : DemoValid D) (hT : TiedFirst D.M) {u w : ℕ → ℝ} (h : ∀ d < D.H.numDofs, u d = w d) (v : ℕ → ℝ) :
    conduction D u v = conduction D w v := by
  obtain ⟨A, hA⟩ := heatTie_matrix hD hT
  unfold conduction
  rw [← hA, ← hA]
  unfold formOf
  congr 1
  all_goals exact sum_congr rfl (fun d _ => sum_congr rfl (fun c hc => by rw [h c (mem_range.mp hc)]))

theorem content_congr {u w : ℕ → ℝ} (h : ∀ d < D.H.numDofs, u d = w d) (v : ℕ → ℝ) : content D u v = content D w v := by
  unfold content formOf
  exact sum_congr rfl (fun d _ => sum_congr rfl (fun c hc => by rw [h c (mem_range.mp hc)]))

/-- The difference of two steps. -/
theorem euler_sub (hD : DemoValid D) (hT : TiedFirst D.M) {r : (ℕ → ℝ) → ℝ} {T0 T1 S0 S1 : ℕ → ℝ} (h : Euler D r T0 T1)
    (h' : Euler D r S0 S1) : Admissible D.H.numDofs D.H.bc (fun d => T1 d - S1 d)
      ∧ ∀ v, Admissible D.H.numDofs D.H.bc v → content D (fun d => T1 d - S1 d) v - content D (fun d => T0 d - S0 d) v
        + conduction D (fun d => T1 d - S1 d) v = 0 := by
  refine ⟨fun d hd hb => ?_, fun v hv => ?_⟩
  · obtain ⟨g, hg⟩ := Option.ne_none_iff_exists'.mp hb
    show T1 d - S1 d = 0
    rw [h.1 d hd g hg, h'.1 d hd g hg, sub_self]
  · rw [conduction_sub hD hT]
    unfold content
    rw [formOf_sub, formOf_sub]
    have k1 := h.2 v hv
    have k2 := h'.2 v hv
    unfold content at k1 k2
    linarith

/-- A step has only one result. -/
theorem euler_unique (hD : DemoValid D) (hT : TiedFirst D.M) (hpos : HeatPositive D) {r : (ℕ → ℝ) → ℝ} {T0 T1 S0 S1 : ℕ → ℝ}
    (h : Euler D r T0 T1) (h' : Euler D r S0 S1) (h0 : ∀ d < D.H.numDofs, T0 d = S0 d) : ∀ d < D.H.numDofs, T1 d = S1 d := by
  obtain ⟨k1, k2⟩ := euler_sub hD hT h h'
  by_contra hcon
  push Not at hcon
  obtain ⟨d, hd, hne⟩ := hcon
  have hp := hpos _ k1 ⟨d, hd, sub_ne_zero.mpr hne⟩
  have h2 := k2 _ k1
  have h3 : content D (fun d => T0 d - S0 d) (fun d => T1 d - S1 d) = 0 := by
    unfold content formOf
    exact sum_eq_zero (fun d _ => sum_eq_zero (fun c hc => by dsimp only; rw [h0 c (mem_range.mp hc), sub_self, mul_zero]))
  dsimp only at hp
  linarith

/-- C166: the temperatures of the demos with thermo-elasticity are those of the heat equation alone. -/
theorem C166_uncoupled (hD : DemoValid D) (hU : DemoValidU D) (hT : TiedFirst D.M) (hpos : HeatPositive D)
    (haway : AwayFromTie D.M D.Q D.H.numDofs D.H.bc) (hsol : LinearSolver D.H.numDofs D.H.solve) (n : ℕ) :
    ∃ T r, D.heatSteps n = some T ∧ D.timeSteps n = some r ∧ ∀ d < D.H.numDofs, r.T d = T d := by
  induction n with
  | zero =>
    obtain ⟨s, h1, -⟩ := thermoStart_ok hD hU
    exact ⟨_, _, rfl, h1, fun d _ => rfl⟩
  | succ n ih =>
    obtain ⟨T, r, h1, h2, h3⟩ := ih
    obtain ⟨T0, T1, k1, k2, k3⟩ := C166_source hD hT hpos haway hsol n
    obtain ⟨r0, r1, l1, l2, l3⟩ := C166_source_thermo hD hU hT hpos haway hsol n
    obtain rfl := Option.some.inj (h1.symm.trans k1)
    obtain rfl := Option.some.inj (h2.symm.trans l1)
    exact ⟨T1, r1, k2, l2, euler_unique hD hT hpos l3 k3 h3⟩

/-- A constant test function or temperature: no conduction through the tie. -/
theorem heatTie_const (hD : DemoValid D) (hunit : TieSumsToOne D.M D.Q) (x : ℝ) (u : ℕ → ℝ) :
    heatTie D.M D.Q D.EQ D.mat D.gamma D.theta u (fun _ => x) = 0
    ∧ heatTie D.M D.Q D.EQ D.mat D.gamma D.theta (fun _ => x) u = 0 := by
  have hb : 0 < D.Q.bs := by rw [hD.scalar]; omega
  constructor
  all_goals
    rw [heatTie, tieSum_zero D.M D.Q _ (fun i hi e he cell f hf q hq => ?_)]
    have hc := constant_at hunit (fun _ => x) hi he hf hq hb
    unfold heatPart
    rw [hc.1, sum_eq_zero (f := fun b => tieMeanGrad D.M D.Q i e cell f (fun _ => x) q 0 b * _)
      (fun b hb => by rw [hc.2 b (mem_range.mp hb), zero_mul])]
    ring

/-- C167: without prescribed temperatures, time steps conserve the heat. -/
theorem C167_conserved_partial (hD : DemoValid D) (hT : TiedFirst D.M) (hpos : HeatPositive D)
    (hsol : LinearSolver D.H.numDofs D.H.solve) (hbc : ∀ d, D.H.bc d = none) (hunit : TieSumsToOne D.M D.Q)
    (hcol : ∀ c < D.H.numDofs, ∑ d ∈ range D.H.numDofs, D.H.stiff d c = 0) (n : ℕ) :
    ∃ T, D.heatSteps n = some T
      ∧ ∑ d ∈ range D.H.numDofs, ∑ c ∈ range D.H.numDofs, D.H.mass d c * T c
        = ∑ d ∈ range D.H.numDofs, ∑ c ∈ range D.H.numDofs, D.H.mass d c * D.start c := by
  induction n with
  | zero => exact ⟨_, rfl, rfl⟩
  | succ n ih =>
    obtain ⟨T, h1, h2⟩ := ih
    obtain ⟨T0, T1, k1, k2, k3⟩ := C166_source hD hT hpos (fun d _ hb => absurd (hbc d) hb) hsol n
    obtain rfl := Option.some.inj (h1.symm.trans k1)
    refine ⟨T1, k2, ?_⟩
    have h3 := k3.2 (fun _ => 1) (fun d _ hb => absurd (hbc d) hb)
    have h4 : tieSource D (fun _ => 1) = 0 := by
      unfold tieSource
      split_ifs
      · exact (heatTie_const hD hunit 1 _).1
      · rfl
    have h5 : formOf D.H.numDofs D.H.numDofs D.H.stiff T1 (fun _ => 1) = 0 := by
      unfold formOf
      rw [sum_comm]
      refine sum_eq_zero (fun c hc => ?_)
      simp only [one_mul]
      rw [← sum_mul, hcol c (mem_range.mp hc), zero_mul]
    rw [h4] at h3
    unfold content conduction at h3
    rw [h5, (heatTie_const hD hunit 1 _).1] at h3
    unfold formOf at h3
    simp only [one_mul] at h3
    linarith

/-- Energy of a difference after a step. -/
theorem euler_contract (hD : DemoValid D) (hT : TiedFirst D.M) {r : (ℕ → ℝ) → ℝ} {T0 T1 S0 S1 : ℕ → ℝ}
    (h : Euler D r T0 T1) (h' : Euler D r S0 S1)
    (hsym : ∀ d < D.H.numDofs, ∀ c < D.H.numDofs, D.H.mass d c = D.H.mass c d) (hpsd : ∀ v, 0 ≤ content D v v) {a : ℝ}
    (ha : ∀ v, Admissible D.H.numDofs D.H.bc v → a * content D v v ≤ conduction D v v) :
    (1 + 2 * a) * content D (fun d => T1 d - S1 d) (fun d => T1 d - S1 d)
      ≤ content D (fun d => T0 d - S0 d) (fun d => T0 d - S0 d) := by
  obtain ⟨k1, k2⟩ := euler_sub hD hT h h'
  have h1 := k2 _ k1
  have h2 := ha _ k1
  set e1 := fun d => T1 d - S1 d
  set e0 := fun d => T0 d - S0 d
  have h3 := hpsd (fun d => e1 d - e0 d)
  have h4 : content D (fun d => e1 d - e0 d) (fun d => e1 d - e0 d)
      = content D e1 e1 - 2 * content D e0 e1 + content D e0 e0 := by
    have h5 : content D e1 e0 = content D e0 e1 := by
      unfold content formOf
      rw [sum_comm]
      refine sum_congr rfl (fun d hd => sum_congr rfl (fun c hc => ?_))
      rw [hsym c (mem_range.mp hc) d (mem_range.mp hd)]
      ring
    have h6 : ∀ u, content D u (fun d => e1 d - e0 d) = content D u e1 - content D u e0 := by
      intro u
      unfold content formOf
      rw [← sum_sub_distrib]
      refine sum_congr rfl (fun d _ => ?_)
      rw [← sum_sub_distrib]
      exact sum_congr rfl (fun c _ => by ring)
    have h7 : ∀ v, content D (fun d => e1 d - e0 d) v = content D e1 v - content D e0 v := fun v => formOf_sub ..
    rw [h6, h7, h7, h5]
    ring
  rw [h4] at h3
  nlinarith

/-- C167: differences between two runs decay. -/
theorem C167_contract_partial (hD : DemoValid D) (hT : TiedFirst D.M) (hpos : HeatPositive D)
    (haway : AwayFromTie D.M D.Q D.H.numDofs D.H.bc) (hsol : LinearSolver D.H.numDofs D.H.solve)
    (hsym : ∀ d < D.H.numDofs, ∀ c < D.H.numDofs, D.H.mass d c = D.H.mass c d) (hpsd : ∀ v, 0 ≤ content D v v) {a : ℝ}
    (ha : ∀ v, Admissible D.H.numDofs D.H.bc v → a * content D v v ≤ conduction D v v)
    (hw : D.addTie = true → D.withT = false) (start' : ℕ → ℝ) (n : ℕ) :
    ∃ T T' S S', D.heatSteps n = some T ∧ D.heatSteps (n + 1) = some T'
      ∧ { D with start := start' }.heatSteps n = some S ∧ { D with start := start' }.heatSteps (n + 1) = some S'
      ∧ (1 + 2 * a) * content D (fun d => T' d - S' d) (fun d => T' d - S' d)
        ≤ content D (fun d => T d - S d) (fun d => T d - S d) := by
  have hD' : DemoValid { D with start := start' } := ⟨hD.mesh, hD.heat, hD.scalar, hD.material, hD.heatDofs⟩
  obtain ⟨T, T', h1, h2, h3⟩ := C166_euler_partial hD hT hpos haway hsol (fun h h' => by rw [hw h] at h'; cases h') n
  obtain ⟨S, S', k1, k2, k3⟩ := C166_euler_partial (D := { D with start := start' }) hD' hT hpos haway hsol
    (fun h h' => by
      have := hw h
      rw [show D.withT = true from h'] at this
      cases this) n
  exact ⟨T, T', S, S', h1, h2, k1, k2, euler_contract hD hT h3 k3 hsym hpsd ha⟩

/-- C167: the temperatures approach a steady state. -/
theorem C167_steady_partial (hD : DemoValid D) (hT : TiedFirst D.M) (hpos : HeatPositive D)
    (haway : AwayFromTie D.M D.Q D.H.numDofs D.H.bc) (hsol : LinearSolver D.H.numDofs D.H.solve)
    (h0 : D.addTie = true → D.withT = true → ∀ d < D.H.numDofs, D.start d = 0)
    (hsym : ∀ d < D.H.numDofs, ∀ c < D.H.numDofs, D.H.mass d c = D.H.mass c d) (hpsd : ∀ v, 0 ≤ content D v v) {a : ℝ}
    (ha0 : 0 ≤ a) (ha : ∀ v, Admissible D.H.numDofs D.H.bc v → a * content D v v ≤ conduction D v v) (S : ℕ → ℝ)
    (hS : HasValues D.H.numDofs D.H.bc S) (hS' : ∀ v, Admissible D.H.numDofs D.H.bc v → conduction D S v = 0) (n : ℕ) :
    ∃ T, D.heatSteps n = some T ∧ (1 + 2 * a) ^ n * content D (fun d => T d - S d) (fun d => T d - S d)
        ≤ content D (fun d => D.start d - S d) (fun d => D.start d - S d) := by
  induction n with
  | zero => exact ⟨_, rfl, by rw [pow_zero, one_mul]⟩
  | succ n ih =>
    obtain ⟨T, h1, h2⟩ := ih
    obtain ⟨T0, T1, k1, k2, k3⟩ := C166_euler_partial hD hT hpos haway hsol h0 n
    obtain rfl := Option.some.inj (h1.symm.trans k1)
    refine ⟨T1, k2, le_trans ?_ h2⟩
    have hE : Euler D (fun _ => 0) S S := ⟨hS, fun v hv => by rw [sub_self, zero_add]; exact hS' v hv⟩
    have := euler_contract hD hT k3 hE hsym hpsd ha
    rw [pow_succ, mul_assoc]
    exact mul_le_mul_of_nonneg_left this (by positivity)

/-- C167: a constant temperature stays if all prescribed temperatures equal it. -/
theorem C167_constant_partial (hD : DemoValid D) (hT : TiedFirst D.M) (hpos : HeatPositive D)
    (haway : AwayFromTie D.M D.Q D.H.numDofs D.H.bc) (hsol : LinearSolver D.H.numDofs D.H.solve)
    (hunit : TieSumsToOne D.M D.Q) (hrow : ∀ d < D.H.numDofs, ∑ c ∈ range D.H.numDofs, D.H.stiff d c = 0) (x : ℝ)
    (hbc : ∀ d < D.H.numDofs, ∀ g, D.H.bc d = some g → g = x) (hs : D.start = fun _ => x) (n : ℕ) :
    ∃ T, D.heatSteps n = some T ∧ ∀ d < D.H.numDofs, T d = x := by
  induction n with
  | zero => exact ⟨_, rfl, fun d _ => by rw [hs]⟩
  | succ n ih =>
    obtain ⟨T, h1, h2⟩ := ih
    obtain ⟨T0, T1, k1, k2, k3⟩ := C166_source hD hT hpos haway hsol n
    obtain rfl := Option.some.inj (h1.symm.trans k1)
    refine ⟨T1, k2, ?_⟩
    have hE : Euler D (tieSource D) (fun _ => x) (fun _ => x) := by
      refine ⟨fun d hd g hg => (hbc d hd g hg).symm, fun v hv => ?_⟩
      have h4 : tieSource D v = 0 := by
        unfold tieSource
        split_ifs
        · rw [hs]; exact (heatTie_const hD hunit x v).2
        · rfl
      rw [h4, sub_self, zero_add]
      unfold conduction
      rw [(heatTie_const hD hunit x v).2, formOf_eq, add_zero]
      refine sum_eq_zero (fun d hd => ?_)
      rw [← sum_mul, hrow d (mem_range.mp hd), zero_mul, zero_mul]
    exact euler_unique hD hT hpos k3 hE h2

/-! ### C168 -/

/-- C168: after every time step in which the Newton solver iterates at least once, the displacement is in equilibrium with
the new temperature, and it is the only such displacement.  The tied points come first on every facet, and no dof is prescribed
at a cell with a tied point. -/
theorem C168_equilibrium_partial (hD : DemoValid D) (hU : DemoValidU D) (hT : TiedFirst D.M) (hpos : HeatPositive D)
    (haway : AwayFromTie D.M D.Q D.H.numDofs D.H.bc) (hsol : LinearSolver D.H.numDofs D.H.solve) (n : ℕ) (hn : 0 < D.L.its n)
    (hposU : PositiveOn D.L.numDofs (D.L.bc n) (elasticity D)) (hawayU : AwayFromTie D.M D.V D.L.numDofs (D.L.bc n))
    (hsolU : LinearSolver D.L.numDofs D.L.solve) :
    ∃ r', D.timeSteps (n + 1) = some r' ∧ Equilibrium D n r'.T r'.u
      ∧ ∀ u, Equilibrium D n r'.T u → ∀ d < D.L.numDofs, u d = r'.u d := by
  obtain ⟨r, h1, h2⟩ := timeSteps_some hD hU hT hpos haway hsol n
  obtain ⟨T', h4, h5⟩ := heatStep_ok hD hT hpos haway hsol h2.heat r.T
  obtain ⟨s', f, h6, h7, h8⟩ := residual_ok hD hU hT h2 n T' r.u
  obtain ⟨u', s'', h9, -, h10⟩ := newton_ok hD hU hT n hawayU hposU hsolU T' (D.L.its n) r.u r.s s' f h7 h8
  have heq := h10 (Or.inl hn)
  refine ⟨⟨T', u', s''⟩, ?_, heq, fun u hu => ?_⟩
  · unfold Demo.timeSteps Demo.timeStep
    simp only [h1, h4, h6, h9, Option.bind_eq_bind, Option.bind_some]
    rfl
  · obtain ⟨A, -, -, a3⟩ := jacobian_ok hD hU hT h2 n hawayU
    have hadm : Admissible D.L.numDofs (D.L.bc n) (fun d => u d - u' d) := by
      intro d hd hb
      obtain ⟨g, hg⟩ := Option.ne_none_iff_exists'.mp hb
      show u d - u' d = 0
      rw [hu.1 d hd g hg, heq.1 d hd g hg, sub_self]
    by_contra hcon
    push Not at hcon
    obtain ⟨d, hd, hne⟩ := hcon
    have hp := hposU _ hadm ⟨d, hd, sub_ne_zero.mpr hne⟩
    rw [elasticity_sub a3] at hp
    have e1 := hu.2 _ hadm
    have e2 := heq.2 _ hadm
    dsimp only at e1 e2
    linarith

/-! ### examples -/

/-- A linear solver. -/
def exSolve (N : ℕ) (A : ℕ × ℕ → ℝ) (b : ℕ → ℝ) : ℕ → ℝ :=
  open Classical in if h : ∃ x, Solves N A x b then h.choose else b

theorem exSolve_solver (N : ℕ) : LinearSolver N (exSolve N) := by
  intro A hA b
  unfold exSolve
  rw [dif_pos (hA b)]
  exact (hA b).choose_spec

/-- Two tied cells and `N - 2` further dofs; dof 2 is joined to dof 1 by a matrix of heat conduction. -/
def exD (N : ℕ) (bc : ℕ → Option ℝ) (start : ℕ → ℝ) (withT : Bool) : Demo where
  M := exM 0
  Q := exE 1 fun _ => 1
  V := exE 2 fun _ => 1
  EQ := exE 1 fun _ => 1
  mat := fun _ _ => 1
  gamma := 1
  gammaE := 1
  theta := 1
  H := ⟨N, fun d c => if d = c then 1 else 0,
    fun d c => if N = 3 then (if d = c ∧ 0 < d then 1 else if 0 < d ∧ 0 < c then -1 else 0) else 0, bc, exSolve N⟩
  L := ⟨5, fun d c => if d = c then 1 else 0, fun d c => if d = c then 1 else 0, fun k d => if d = 4 then some k else none,
    exSolve 5, fun _ => 1⟩
  start := start
  withT := withT
  addTie := true
  withU := true

theorem exD_valid {N : ℕ} (hN : 2 ≤ N) (bc start withT) : DemoValid (exD N bc start withT) := by
  refine ⟨exM_valid 0, exE_valid 0 1 _, rfl, rfl, ?_⟩
  obtain ⟨h1, h2⟩ := exE_below 0 1 fun _ => 1
  exact ⟨fun i hi p hp a ha => le_trans (h1 i hi p hp a ha) hN, fun c hc a ha => le_trans (h2 c hc a ha) hN⟩

theorem exD_validU (N bc start withT) : DemoValidU (exD N bc start withT) := by
  refine ⟨exE_valid 0 2 _, rfl, ?_⟩
  obtain ⟨h1, h2⟩ := exE_below 0 2 fun _ => 1
  exact ⟨fun i hi p hp a ha => le_trans (h1 i hi p hp a ha) (by show 2 * 2 ≤ 5; omega),
    fun c hc a ha => le_trans (h2 c hc a ha) (by show 2 * 2 ≤ 5; omega)⟩

theorem exE_jump (bs q a : ℕ) (v : ℕ → ℝ) : tieJumpAt (exM 0) (exE bs fun _ => 1) 0 0 0 0 v q a = v a - v (bs + a) := by
  simp [tieJumpAt, tieValue, tieOpposite, oppositeCell, exE, exM]

theorem exE_grad (bs q a b : ℕ) (v : ℕ → ℝ) : tieMeanGrad (exM 0) (exE bs fun _ => 1) 0 0 0 0 v q a b = 0 := by
  simp [tieMeanGrad, tieGrad, tieOppositeGrad, exE, exM]

theorem exD_heatTie (u v : ℕ → ℝ) : heatTie (exM 0) (exE 1 fun _ => 1) (exE 1 fun _ => 1) (fun _ _ => 1) 1 1 u v
    = (u 0 - u 1) * (v 0 - v 1) := by
  have hmid : midValue (exE 1 fun _ => 1) 0 0 (fun _ => 1) = 1 := by simp [midValue, exE]
  have e2 : (exM 0).h 0 0 = 1 := rfl
  unfold heatTie
  rw [exM_sum]
  unfold heatPart
  simp only [exE_jump, exE_grad, hmid, e2]
  simp
  ring

theorem exD_content {N : ℕ} {bc start withT} (u v : ℕ → ℝ) : content (exD N bc start withT) u v = ∑ d ∈ range N, u d * v d := by
  unfold content formOf
  refine sum_congr rfl (fun d hd => ?_)
  show ∑ c ∈ range N, v d * (if d = c then 1 else 0) * u c = _
  rw [sum_eq_single_of_mem d hd (fun c _ hc => by rw [if_neg (Ne.symm hc)]; ring), if_pos rfl]
  ring

theorem exD_conduction2 {bc start withT} (u v : ℕ → ℝ) : conduction (exD 2 bc start withT) u v = (u 0 - u 1) * (v 0 - v 1) := by
  unfold conduction
  have e : heatTie (exD 2 bc start withT).M (exD 2 bc start withT).Q (exD 2 bc start withT).EQ (exD 2 bc start withT).mat
      (exD 2 bc start withT).gamma (exD 2 bc start withT).theta u v = (u 0 - u 1) * (v 0 - v 1) := exD_heatTie u v
  have f : formOf (exD 2 bc start withT).H.numDofs (exD 2 bc start withT).H.numDofs (exD 2 bc start withT).H.stiff u v = 0 := by
    simp [formOf, exD]
  rw [e, f, zero_add]

theorem exD_conduction3 {bc start withT} (u v : ℕ → ℝ) :
    conduction (exD 3 bc start withT) u v = (u 1 - u 2) * (v 1 - v 2) + (u 0 - u 1) * (v 0 - v 1) := by
  unfold conduction
  have e : heatTie (exD 3 bc start withT).M (exD 3 bc start withT).Q (exD 3 bc start withT).EQ (exD 3 bc start withT).mat
      (exD 3 bc start withT).gamma (exD 3 bc start withT).theta u v = (u 0 - u 1) * (v 0 - v 1) := exD_heatTie u v
  have f : formOf (exD 3 bc start withT).H.numDofs (exD 3 bc start withT).H.numDofs (exD 3 bc start withT).H.stiff u v
      = (u 1 - u 2) * (v 1 - v 2) := by
    simp [formOf, exD, sum_range_succ]
    ring
  rw [e, f]

theorem exD_positive {N : ℕ} (hN : N = 2 ∨ N = 3) (bc start withT) : HeatPositive (exD N bc start withT) := by
  rintro v - ⟨d, hd, hne⟩
  dsimp only
  have h1 : 0 < content (exD N bc start withT) v v := by
    rw [exD_content]
    exact sum_pos' (fun c _ => mul_self_nonneg _) ⟨d, mem_range.mpr hd, mul_self_pos.mpr hne⟩
  have h2 : 0 ≤ conduction (exD N bc start withT) v v := by
    rcases hN with rfl | rfl
    · rw [exD_conduction2]; exact mul_self_nonneg _
    · rw [exD_conduction3]; exact add_nonneg (mul_self_nonneg _) (mul_self_nonneg _)
  linarith

theorem exD_away (g : ℝ) (start withT) : AwayFromTie (exD 3 (fun d => if d = 2 then some g else none) start withT).M
    (exD 3 (fun d => if d = 2 then some g else none) start withT).Q 3 (fun d => if d = 2 then some g else none) := by
  intro d hd hb c
  have h2 : d = 2 := by
    by_contra h
    simp [h] at hb
  subst h2
  show ¬TiedDofs (exM 0) (exE 1 fun _ => 1) 2 c ∧ ¬TiedDofs (exM 0) (exE 1 fun _ => 1) c 2
  rw [exM_tiedDofs, exM_tiedDofs]
  omega

theorem exD_decay (g : ℝ) (start withT) (v : ℕ → ℝ)
    (hv : Admissible 3 (fun d => if d = 2 then some g else none) v) :
    1 / 3 * content (exD 3 (fun d => if d = 2 then some g else none) start withT) v v
      ≤ conduction (exD 3 (fun d => if d = 2 then some g else none) start withT) v v := by
  have h2 : v 2 = 0 := hv 2 (by omega) (by simp)
  rw [exD_content, exD_conduction3, sum_range_succ, sum_range_succ, sum_range_one, h2]
  nlinarith [sq_nonneg (v 0 - 3 / 2 * v 1), sq_nonneg (v 1)]

/-- The hypotheses of C166, `C167_contract_partial` and `C167_steady_partial` hold for a demo with two tied cells whose second is
joined to a dof with temperature `g`; it starts from zero. -/
example (g : ℝ) (withT : Bool) : ∃ D : Demo, DemoValid D ∧ DemoValidU D ∧ TiedFirst D.M ∧ HeatPositive D
    ∧ AwayFromTie D.M D.Q D.H.numDofs D.H.bc ∧ LinearSolver D.H.numDofs D.H.solve
    ∧ (D.addTie = true → D.withT = true → ∀ d < D.H.numDofs, D.start d = 0) ∧ (D.addTie = true → D.withT = withT)
    ∧ (∀ d < D.H.numDofs, ∀ c < D.H.numDofs, D.H.mass d c = D.H.mass c d) ∧ (∀ v, 0 ≤ content D v v)
    ∧ (∀ v, Admissible D.H.numDofs D.H.bc v → 1 / 3 * content D v v ≤ conduction D v v)
    ∧ HasValues D.H.numDofs D.H.bc (fun _ => g) ∧ (∀ v, Admissible D.H.numDofs D.H.bc v → conduction D (fun _ => g) v = 0)
    ∧ D.H.bc 2 = some g ∧ ∃ d c, TiedDofs D.M D.Q d c := by
  refine ⟨exD 3 (fun d => if d = 2 then some g else none) (fun _ => 0) withT, exD_valid (by omega) _ _ _, exD_validU _ _ _ _,
    exM_first, exD_positive (Or.inr rfl) _ _ _, exD_away g _ _, exSolve_solver 3, fun _ _ _ _ => rfl, fun _ => rfl,
    fun d _ c _ => ?_, fun v => ?_, exD_decay g _ _, fun d hd g' hg' => ?_, fun v _ => ?_, rfl, 0, 1, ?_⟩
  · show (if d = c then (1 : ℝ) else 0) = if c = d then 1 else 0
    simp only [eq_comm]
  · rw [exD_content]
    exact sum_nonneg (fun c _ => mul_self_nonneg _)
  · have : (if d = 2 then some g else none) = some g' := hg'
    split_ifs at this
    exact Option.some.inj this
  · rw [exD_conduction3]
    ring
  · show TiedDofs (exM 0) (exE 1 fun _ => 1) 0 1
    rw [exM_tiedDofs]
    omega

/-- Those of `C167_conserved_partial`, for every initial temperature. -/
example (start : ℕ → ℝ) : ∃ D : Demo, D.start = start ∧ DemoValid D ∧ TiedFirst D.M ∧ HeatPositive D
    ∧ LinearSolver D.H.numDofs D.H.solve ∧ (∀ d, D.H.bc d = none) ∧ TieSumsToOne D.M D.Q
    ∧ ∀ c < D.H.numDofs, ∑ d ∈ range D.H.numDofs, D.H.stiff d c = 0 := by
  refine ⟨exD 3 (fun _ => none) start true, rfl, exD_valid (by omega) _ _ _, exM_first, exD_positive (Or.inr rfl) _ _ _,
    exSolve_solver 3, fun _ => rfl, exE_unit 0 1, fun c hc => ?_⟩
  have hc' : c < 3 := hc
  show ∑ d ∈ range 3, (if 3 = 3 then (if d = c ∧ 0 < d then 1 else if 0 < d ∧ 0 < c then -1 else 0) else 0) = (0 : ℝ)
  interval_cases c <;> simp [sum_range_succ]

/-- Those of `C167_constant_partial`. -/
example (x : ℝ) : ∃ D : Demo, DemoValid D ∧ TiedFirst D.M ∧ HeatPositive D
    ∧ AwayFromTie D.M D.Q D.H.numDofs D.H.bc ∧ LinearSolver D.H.numDofs D.H.solve
    ∧ TieSumsToOne D.M D.Q ∧ (∀ d < D.H.numDofs, ∑ c ∈ range D.H.numDofs, D.H.stiff d c = 0)
    ∧ (∀ d < D.H.numDofs, ∀ g, D.H.bc d = some g → g = x) ∧ D.start = (fun _ => x) ∧ D.H.bc 2 = some x := by
  refine ⟨exD 3 (fun d => if d = 2 then some x else none) (fun _ => x) true, exD_valid (by omega) _ _ _, exM_first,
    exD_positive (Or.inr rfl) _ _ _, exD_away x _ _, exSolve_solver 3, exE_unit 0 1, fun c hc => ?_, fun d hd g hg => ?_, rfl, rfl⟩
  · have hc' : c < 3 := hc
    show ∑ d ∈ range 3, (if 3 = 3 then (if c = d ∧ 0 < c then 1 else if 0 < c ∧ 0 < d then -1 else 0) else 0) = (0 : ℝ)
    interval_cases c <;> simp [sum_range_succ]
  · have : (if d = 2 then some x else none) = some g := hg
    split_ifs at this
    exact (Option.some.inj this).symm

theorem exD_elasticity {N : ℕ} {bc start withT} (v : ℕ → ℝ) : ∑ d ∈ range 5, v d ^ 2 ≤ elasticity (exD N bc start withT) v v := by
  unfold elasticity
  have h1 : formOf (exD N bc start withT).L.numDofs (exD N bc start withT).L.numDofs (exD N bc start withT).L.stiff v v
      = ∑ d ∈ range 5, v d ^ 2 := by
    unfold formOf
    show ∑ d ∈ range 5, ∑ c ∈ range 5, v d * (if d = c then 1 else 0) * v c = _
    refine sum_congr rfl (fun d hd => ?_)
    rw [sum_eq_single_of_mem d hd (fun c _ hc => by rw [if_neg (Ne.symm hc)]; ring), if_pos rfl]
    ring
  rw [h1]
  have h2 : 0 ≤ elasticTie (exM 0) (exE 2 fun _ => 1) (exE 1 fun _ => 1) (fun _ _ => 1) 1 1 v v := by
    have hmid : midValue (exE 1 fun _ => 1) 0 0 (fun _ => 1) = 1 := by simp [midValue, exE]
    have e2 : (exM 0).h 0 0 = 1 := rfl
    have e1 : (exM 0).gdim = 2 := rfl
    unfold elasticTie
    rw [exM_sum]
    unfold elasticPart
    simp only [exE_jump, exE_grad, hmid, e2, e1, sum_range_succ, sum_range_zero]
    simp [Elasticity.traction_eq, exE_grad, sum_range_succ]
    nlinarith [sq_nonneg (v 0 - v 2), sq_nonneg (v 1 - v 3)]
  exact le_add_of_nonneg_right h2

theorem exE2_tied {d c : ℕ} (h : TiedDofs (exM 0) (exE 2 fun _ => 1) d c) : d < 4 ∧ c < 4 := by
  have key : ∀ i e d, DofAtFacet (exM 0) (exE 2 fun _ => 1) i e d → d < 4 := by
    rintro i e d (⟨cell, f, hf, a, ha, n, hn, rfl⟩ | ⟨q, -, -, a, ha, n, hn, rfl⟩)
    · have h1 : ([((0 : ℕ), (0 : ℕ))])[e]? = some (cell, f) := hf
      have h2 := List.mem_of_getElem? h1
      simp only [List.mem_singleton, Prod.mk.injEq] at h2
      rw [h2.1]
      have : n < 2 := hn
      show 2 * 0 + n < 4
      omega
    · have : n < 2 := hn
      show 2 * 1 + n < 4
      omega
  obtain ⟨i, -, e, -, -, h1, h2⟩ := h
  exact ⟨key _ _ _ h1, key _ _ _ h2⟩

/-- The hypotheses of C168 hold for the same demo; a dof of the displacement is moved in every time step. -/
example (g : ℝ) (n : ℕ) : ∃ D : Demo, DemoValid D ∧ DemoValidU D ∧ TiedFirst D.M ∧ HeatPositive D
    ∧ AwayFromTie D.M D.Q D.H.numDofs D.H.bc ∧ LinearSolver D.H.numDofs D.H.solve ∧ 0 < D.L.its n
    ∧ PositiveOn D.L.numDofs (D.L.bc n) (elasticity D) ∧ AwayFromTie D.M D.V D.L.numDofs (D.L.bc n)
    ∧ LinearSolver D.L.numDofs D.L.solve ∧ D.H.bc 2 = some g ∧ D.L.bc n 4 = some (n : ℝ) := by
  refine ⟨exD 3 (fun d => if d = 2 then some g else none) (fun _ => 0) true, exD_valid (by omega) _ _ _, exD_validU _ _ _ _,
    exM_first, exD_positive (Or.inr rfl) _ _ _, exD_away g _ _, exSolve_solver 3, Nat.one_pos, ?_, ?_, exSolve_solver 5, rfl, rfl⟩
  · rintro v - ⟨d, hd, hne⟩
    refine lt_of_lt_of_le ?_ (exD_elasticity v)
    exact sum_pos' (fun c _ => sq_nonneg _) ⟨d, mem_range.mpr hd, by positivity⟩
  · intro d hd hb c
    have h4 : d = 4 := by
      by_contra h
      have : (if d = 4 then some (n : ℝ) else none) ≠ none := hb
      simp [h] at this
    subst h4
    exact ⟨fun h => absurd (exE2_tied h).1 (by omega), fun h => absurd (exE2_tied h).2 (by omega)⟩

/-- C166 fails if the tie vector is added with an initial temperature which is not zero: two tied cells with temperatures one and
zero keep them in all time steps, although heat flows between them. -/
theorem C166_start_violated : ∃ D : Demo, DemoValid D ∧ TiedFirst D.M ∧ HeatPositive D
    ∧ AwayFromTie D.M D.Q D.H.numDofs D.H.bc ∧ LinearSolver D.H.numDofs D.H.solve ∧ (∀ d, D.H.bc d = none)
    ∧ ∀ n, ∃ T T', D.heatSteps n = some T ∧ D.heatSteps (n + 1) = some T' ∧ T' 0 = 1 ∧ T' 1 = 0 ∧ ¬Euler D (fun _ => 0) T T' := by
  set D := exD 2 (fun _ => none) (fun d => if d = 0 then 1 else 0) true with hD
  have v1 : DemoValid D := exD_valid (le_refl 2) _ _ _
  have v2 : HeatPositive D := exD_positive (Or.inl rfl) _ _ _
  have v3 : AwayFromTie D.M D.Q D.H.numDofs D.H.bc := fun d _ hb => absurd rfl hb
  have v4 : LinearSolver D.H.numDofs D.H.solve := exSolve_solver 2
  have key : ∀ n, ∃ T, D.heatSteps n = some T ∧ ∀ d < 2, T d = D.start d := by
    intro n
    induction n with
    | zero => exact ⟨_, rfl, fun _ _ => rfl⟩
    | succ n ih =>
      obtain ⟨T, h1, h2⟩ := ih
      obtain ⟨T0, T1, k1, k2, k3⟩ := C166_source v1 exM_first v2 v3 v4 n
      obtain rfl := Option.some.inj (h1.symm.trans k1)
      refine ⟨T1, k2, euler_unique v1 exM_first v2 k3 (S0 := D.start) ⟨fun d _ g hg => (nomatch hg), fun v _ => ?_⟩ h2⟩
      rw [sub_self, zero_add, exD_conduction2]
      exact (exD_heatTie _ _).symm
  refine ⟨D, v1, exM_first, v2, v3, v4, fun _ => rfl, fun n => ?_⟩
  obtain ⟨T, h1, h2⟩ := key n
  obtain ⟨T', h3, h4⟩ := key (n + 1)
  have t0 : T' 0 = 1 := by rw [h4 0 (by omega)]; simp [hD, exD]
  have t1 : T' 1 = 0 := by rw [h4 1 (by omega)]; simp [hD, exD]
  refine ⟨T, T', h1, h3, t0, t1, fun hE => ?_⟩
  have := hE.2 (fun d => if d = 0 then 1 else 0) (fun d _ hb => absurd rfl hb)
  rw [exD_content, exD_content, exD_conduction2, t0, t1] at this
  simp [sum_range_succ, t0, h2 0 (by omega), hD, exD] at this

/-- C166 fails if a temperature is prescribed at a cell with a tied point: the prescribed value one becomes two. -/
theorem C166_prescribed_violated : ∃ D : Demo, DemoValid D ∧ TiedFirst D.M ∧ HeatPositive D
    ∧ LinearSolver D.H.numDofs D.H.solve ∧ (∀ d, D.start d = 0) ∧ D.H.bc 1 = some 1 ∧ 1 < D.H.numDofs
    ∧ ∃ T, D.heatSteps 1 = some T ∧ T 1 = 2 := by
  set D := exD 2 (fun d => if d = 1 then some 1 else none) (fun _ => 0) true with hD
  have v1 : DemoValid D := exD_valid (le_refl 2) _ _ _
  have v2 : HeatPositive D := exD_positive (Or.inl rfl) _ _ _
  refine ⟨D, v1, exM_first, v2, exSolve_solver 2, fun _ => rfl, rfl, Nat.one_lt_two, ?_⟩
  obtain ⟨s, h2, h3⟩ := heatStart_ok v1
  obtain ⟨A, b, k1, k2, -, k3⟩ := heatStep_raw v1 exM_first h3 D.start
  refine ⟨_, by unfold Demo.heatSteps Demo.heatSteps; rw [h2]; exact k1, ?_⟩
  have hA : ∀ u v : ℕ → ℝ, ∑ d ∈ range 2, ∑ c ∈ range 2, v d * A (d, c) * u c = (u 0 - u 1) * (v 0 - v 1) :=
    fun u v => (k2 u v).trans (exD_heatTie u v)
  have a00 := hA (fun d => if d = 0 then 1 else 0) (fun d => if d = 0 then 1 else 0)
  have a01 := hA (fun d => if d = 1 then 1 else 0) (fun d => if d = 0 then 1 else 0)
  have a10 := hA (fun d => if d = 0 then 1 else 0) (fun d => if d = 1 then 1 else 0)
  simp [sum_range_succ] at a00 a01 a10
  have hb : ∀ v : ℕ → ℝ, ∑ d ∈ range 2, b d * v d = 0 := by
    intro v
    rw [show ∑ d ∈ range 2, b d * v d = _ from k3 v]
    have : tieSource D v = (D.start 0 - D.start 1) * (v 0 - v 1) := exD_heatTie _ _
    rw [this]
    simp [hD, exD]
  have b0 := hb (fun d => if d = 0 then 1 else 0)
  simp [sum_range_succ] at b0
  set B := bcMatrix D.H.bc A D.H.form with hB
  set f := bcVector D.H.numDofs D.H.bc D.H.form (fun _ => 0) 1.0 (fun d => b d + ∑ c ∈ range D.H.numDofs, D.H.mass d c * D.start c)
    with hf
  have B00 : B (0, 0) = 2 := by
    simp [hB, bcMatrix, hD, exD, HeatForms.form, a00]
    norm_num
  have B01 : B (0, 1) = -1 := by simp [hB, bcMatrix, hD, exD, a01]
  have B10 : B (1, 0) = -1 := by simp [hB, bcMatrix, hD, exD, a10]
  have B11 : B (1, 1) = 1 := by simp [hB, bcMatrix, hD, exD]
  have f0 : f 0 = 0 := by
    simp [hf, bcVector, hD, exD, HeatForms.form, b0, sum_range_succ]
  have f1 : f 1 = 1 := by
    simp [hf, bcVector, hD, exD]
    norm_num
  have hs := exSolve_solver 2 B (fun b => ⟨fun d => if d = 0 then b 0 + b 1 else b 0 + 2 * b 1, fun d hd => by
    interval_cases d
    · simp [sum_range_succ, B00, B01]; ring
    · simp [sum_range_succ, B10, B11]; ring⟩) f
  have e0 := hs 0 (by omega)
  have e1 := hs 1 (by omega)
  simp only [sum_range_succ, sum_range_zero, B00, B01, B10, B11, f0, f1] at e0 e1
  show exSolve 2 B f 1 = 2
  linarith

end

end Verif.TieData
