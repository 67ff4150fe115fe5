import Mathlib.Tactic.IntervalCases
import Verif.Lemmas.UflError

/-! Properties C190 to C192: `nitsche_ufl` and `nitsche_rigid_surface`. -/

namespace Verif.UflDriver

open Finset Verif.OneSided Verif.Snes Spec

noncomputable section

variable {P : Params} {M : Mesh} {Q : Quad} {top rigid : ℤ} {o : Options} {lin : LinSolver} {n : ℕ} {u : ℕ → ℝ}

theorem ufl_run (h : nitscheUfl P M Q top o lin = .ok (n, u)) : 0 < P.dim ∧ ∃ b,
    newtonSolve P M (uflForms P M Q top) o lin (Snes.initial P) = .ok (n, b, u) ∧ (o.errorOnNonconvergence = true → b = true) := by
  unfold nitscheUfl at h
  split at h
  · cases h
  split at h
  · cases h
  split at h
  · cases h
  rename_i hd
  refine ⟨by omega, ?_⟩
  cases hs : newtonSolve P M (uflForms P M Q top) o lin (Snes.initial P) with
  | error e => rw [hs] at h; cases h
  | ok t =>
    obtain ⟨n', b, u'⟩ := t
    rw [hs] at h
    simp only at h
    split at h
    · cases h
    rename_i hc
    injection h with h
    obtain ⟨h1, h2⟩ := Prod.mk.inj h
    subst h1 h2
    refine ⟨b, rfl, fun he => ?_⟩
    cases b with
    | true => rfl
    | false => exact absurd ⟨he, rfl⟩ hc

theorem rigid_run (h : nitscheRigidSurface P M Q top rigid o lin = .ok (n, u)) : 0 < P.dim ∧ ∃ b,
    newtonSolve P M (rigidForms P M Q top rigid) o lin (rigidInitial P) = .ok (n, b, u)
      ∧ (o.errorOnNonconvergence = true → b = true) := by
  unfold nitscheRigidSurface at h
  split at h
  · cases h
  split at h
  · cases h
  rename_i hd
  refine ⟨by omega, ?_⟩
  cases hs : newtonSolve P M (rigidForms P M Q top rigid) o lin (rigidInitial P) with
  | error e => rw [hs] at h; cases h
  | ok t =>
    obtain ⟨n', b, u'⟩ := t
    rw [hs] at h
    simp only at h
    split at h
    · cases h
    rename_i hc
    injection h with h
    obtain ⟨h1, h2⟩ := Prod.mk.inj h
    subst h1 h2
    refine ⟨b, rfl, fun he => ?_⟩
    cases b with
    | true => rfl
    | false => exact absurd ⟨he, rfl⟩ hc

theorem ufl_start {a i : ℕ} (hi : i < P.dim) : byNode P (Snes.initial P) a i = movedBy P (-1 / 100 - P.planeLoc) a i := by
  unfold byNode Snes.initial movedBy
  rw [Nat.mul_add_mod, Nat.mod_eq_of_lt hi]
  by_cases h : i + 1 = P.dim
  · rw [if_pos h, if_pos (by omega)]; norm_num
  · rw [if_neg h, if_neg (by omega)]

theorem rigid_start {a i : ℕ} (hi : i < P.dim) : byNode P (rigidInitial P) a i = movedBy P (-1 / 100) a i := by
  unfold byNode rigidInitial movedBy
  rw [Nat.mul_add_mod, Nat.mod_eq_of_lt hi]
  by_cases h : i + 1 = P.dim
  · rw [if_pos h, if_pos (by omega)]; norm_num
  · rw [if_neg h, if_neg (by omega)]

/-! ### C190 -/

/-- C190: without `nitsche_bc`, the nodes of the facets with value `top` deviate from the prescribed displacement by
`(1 - ω)^n` times the deviation of the start, for relaxation `ω` and `n` iterations. -/
theorem C190_prescribed_ufl (h : nitscheUfl P M Q top o lin = .ok (n, u)) (hlin : ExactSolver (numDofs P M) lin)
    (hbc : P.nitscheBc = false) (a : ℕ) (ha : a < M.numNodes) (hf : OnFacet M top a) (i : ℕ) (hi : i < P.dim) :
    byNode P u a i - pushed P i = (1 - o.relaxation) ^ n * (movedBy P (-1 / 100 - P.planeLoc) a i - pushed P i) := by
  obtain ⟨hd, b, hs, _⟩ := ufl_run h
  rw [← ufl_start hi]
  exact solve_prescribed (fits_ufl hd top) hlin hs a ha _ (by
    unfold abovePlane; simp only; rw [if_pos ⟨hbc, hf⟩]) i hi

/-- C190: the same for `nitsche_rigid_surface`, whose start does not depend on `plane_loc`; the prescribed
displacement is zero at the nodes of the facets with value `rigid`. -/
theorem C190_prescribed_rigid (h : nitscheRigidSurface P M Q top rigid o lin = .ok (n, u))
    (hlin : ExactSolver (numDofs P M) lin) (hbc : P.nitscheBc = false) (a : ℕ) (ha : a < M.numNodes) (i : ℕ) (hi : i < P.dim) :
    (OnFacet M rigid a → byNode P u a i = (1 - o.relaxation) ^ n * movedBy P (-1 / 100) a i)
    ∧ (OnFacet M top a → ¬ OnFacet M rigid a →
      byNode P u a i - pushed P i = (1 - o.relaxation) ^ n * (movedBy P (-1 / 100) a i - pushed P i)) := by
  obtain ⟨hd, b, hs, _⟩ := rigid_run h
  rw [← rigid_start hi]
  constructor
  · intro hr
    have := solve_prescribed (fits_rigid (Q := Q) hd top rigid) hlin hs a ha (fun _ => 0) (by
      unfold aboveSurface; simp only; rw [if_neg (by simp [hbc]), if_pos hr]) i hi
    simpa using this
  · intro ht hr
    exact solve_prescribed (fits_rigid hd top rigid) hlin hs a ha _ (by
      unfold aboveSurface; simp only; rw [if_neg (by simp [hbc]), if_neg hr, if_pos ht]) i hi

/-- C190: with the relaxation of `nitsche_ufl` by default, 0.8, the prescribed displacement is never met exactly,
unless the start has it. -/
theorem C190_relaxed_never_exact (h : nitscheUfl P M Q top o lin = .ok (n, u)) (hlin : ExactSolver (numDofs P M) lin)
    (hbc : P.nitscheBc = false) (hom : o.relaxation = uflDefaults.relaxation) (a : ℕ) (ha : a < M.numNodes)
    (hf : OnFacet M top a) (hne : P.disp ≠ -1 / 100 - P.planeLoc) :
    byNode P u a (P.dim - 1) ≠ P.disp := by
  obtain ⟨hd, _⟩ := ufl_run h
  have := C190_prescribed_ufl h hlin hbc a ha hf (P.dim - 1) (by omega)
  unfold pushed movedBy at this
  rw [if_pos (by omega), if_pos (by omega), hom] at this
  intro he
  rw [he, sub_self] at this
  rcases mul_eq_zero.mp this.symm with h0 | h0
  · have h1 : (1 : ℝ) - uflDefaults.relaxation ≠ 0 := by norm_num [uflDefaults]
    exact pow_ne_zero n h1 h0
  · exact hne (by linarith)

/-- C190: a returned displacement of `nitsche_ufl` has the prescribed values and is in equilibrium with the contact
forces up to the tolerance of the Newton solver, if that raises when it does not converge; `C` depends on mesh and
parameters only. -/
theorem C190_equilibrium_ufl (P : Params) (M : Mesh) (Q : Quad) (top : ℤ) :
    ∃ C, ∀ (o : Options) (lin : LinSolver) (n : ℕ) (u : ℕ → ℝ), nitscheUfl P M Q top o lin = .ok (n, u) →
      ExactSolver (numDofs P M) lin → o.errorOnNonconvergence = true →
      ∃ δ, Tolerated P M Q (abovePlane P M Q top) o.atol o.rtol (movedBy P (-1 / 100 - P.planeLoc)) δ
        ∧ (∀ a < M.numNodes, ∀ g, (abovePlane P M Q top).fixed a = some g → ∀ i < P.dim,
          |byNode P u a i - g i| ≤ (1 + |1 - o.relaxation|) * δ)
        ∧ ∀ v, Virtual P (abovePlane P M Q top) v →
          |totalWork P M Q (abovePlane P M Q top) (byNode P u) v| ≤ C * (1 + |1 - o.relaxation|) * δ * nodalSize P M v := by
  by_cases hd : 0 < P.dim
  · obtain ⟨C, hC⟩ := converged_work (fits_ufl (M := M) (Q := Q) hd top)
    refine ⟨C, fun o lin n u h hlin he => ?_⟩
    obtain ⟨_, b, hs, hb⟩ := ufl_run h
    rw [hb he] at hs
    obtain ⟨δ, h1, h2, h3⟩ := hC o lin _ n u hlin hs
    exact ⟨δ, tolerated_congr hd (fun a _ i hi => ufl_start hi) h1, h2, h3⟩
  · exact ⟨0, fun o lin n u h => absurd (ufl_run h).1 hd⟩

/-- C190: the same for `nitsche_rigid_surface`. -/
theorem C190_equilibrium_rigid (P : Params) (M : Mesh) (Q : Quad) (top rigid : ℤ) :
    ∃ C, ∀ (o : Options) (lin : LinSolver) (n : ℕ) (u : ℕ → ℝ), nitscheRigidSurface P M Q top rigid o lin = .ok (n, u) →
      ExactSolver (numDofs P M) lin → o.errorOnNonconvergence = true →
      ∃ δ, Tolerated P M Q (aboveSurface P M Q top rigid) o.atol o.rtol (movedBy P (-1 / 100)) δ
        ∧ (∀ a < M.numNodes, ∀ g, (aboveSurface P M Q top rigid).fixed a = some g → ∀ i < P.dim,
          |byNode P u a i - g i| ≤ (1 + |1 - o.relaxation|) * δ)
        ∧ ∀ v, Virtual P (aboveSurface P M Q top rigid) v →
          |totalWork P M Q (aboveSurface P M Q top rigid) (byNode P u) v|
            ≤ C * (1 + |1 - o.relaxation|) * δ * nodalSize P M v := by
  by_cases hd : 0 < P.dim
  · obtain ⟨C, hC⟩ := converged_work (fits_rigid (M := M) (Q := Q) hd top rigid)
    refine ⟨C, fun o lin n u h hlin he => ?_⟩
    obtain ⟨_, b, hs, hb⟩ := rigid_run h
    rw [hb he] at hs
    obtain ⟨δ, h1, h2, h3⟩ := hC o lin _ n u hlin hs
    exact ⟨δ, tolerated_congr hd (fun a _ i hi => rigid_start hi) h1, h2, h3⟩
  · exact ⟨0, fun o lin n u h => absurd (rigid_run h).1 hd⟩

/-! ### C191 -/

/-- C191: if the body is stiff enough and held, there is exactly one equilibrium, and what `nitsche_ufl` returns is
close to it, whatever start, solver and options, if the Newton solver raises when it does not converge. -/
theorem C191_close_ufl (hd : 0 < P.dim) (hs : Sound Q (abovePlane P M Q top)) (hst : Stiff P M Q (abovePlane P M Q top)) :
    ∃ w : ℕ → ℕ → ℝ, AtRest P M Q (abovePlane P M Q top) w
      ∧ (∀ w', AtRest P M Q (abovePlane P M Q top) w' → ∀ a < M.numNodes, ∀ i < P.dim, w' a i = w a i)
      ∧ ∃ C, ∀ (o : Options) (lin : LinSolver) (n : ℕ) (u : ℕ → ℝ), nitscheUfl P M Q top o lin = .ok (n, u) →
        ExactSolver (numDofs P M) lin → o.errorOnNonconvergence = true →
        ∃ δ, Tolerated P M Q (abovePlane P M Q top) o.atol o.rtol (movedBy P (-1 / 100 - P.planeLoc)) δ
          ∧ nodalSize P M (fun a i => byNode P u a i - w a i) ≤ C * (1 + |1 - o.relaxation|) * δ := by
  obtain ⟨s, h1, h2⟩ := equilibrium_unique (fits_ufl hd top) hs hst
  obtain ⟨C, hC⟩ := converged_close (fits_ufl hd top) hs hst
  refine ⟨byNode P s, h1, h2, C, fun o lin n u h hlin he => ?_⟩
  obtain ⟨_, b, hr, hb⟩ := ufl_run h
  rw [hb he] at hr
  obtain ⟨δ, e1, e2⟩ := hC o lin _ n u s hlin h1 hr
  exact ⟨δ, tolerated_congr hd (fun a _ i hi => ufl_start hi) e1, (size_eq (fun d => u d - s d)).trans_le e2⟩

/-- C191: the same for `nitsche_rigid_surface`. -/
theorem C191_close_rigid (hd : 0 < P.dim) (hs : Sound Q (aboveSurface P M Q top rigid))
    (hst : Stiff P M Q (aboveSurface P M Q top rigid)) :
    ∃ w : ℕ → ℕ → ℝ, AtRest P M Q (aboveSurface P M Q top rigid) w
      ∧ (∀ w', AtRest P M Q (aboveSurface P M Q top rigid) w' → ∀ a < M.numNodes, ∀ i < P.dim, w' a i = w a i)
      ∧ ∃ C, ∀ (o : Options) (lin : LinSolver) (n : ℕ) (u : ℕ → ℝ), nitscheRigidSurface P M Q top rigid o lin = .ok (n, u) →
        ExactSolver (numDofs P M) lin → o.errorOnNonconvergence = true →
        ∃ δ, Tolerated P M Q (aboveSurface P M Q top rigid) o.atol o.rtol (movedBy P (-1 / 100)) δ
          ∧ nodalSize P M (fun a i => byNode P u a i - w a i) ≤ C * (1 + |1 - o.relaxation|) * δ := by
  obtain ⟨s, h1, h2⟩ := equilibrium_unique (fits_rigid hd top rigid) hs hst
  obtain ⟨C, hC⟩ := converged_close (fits_rigid hd top rigid) hs hst
  refine ⟨byNode P s, h1, h2, C, fun o lin n u h hlin he => ?_⟩
  obtain ⟨_, b, hr, hb⟩ := rigid_run h
  rw [hb he] at hr
  obtain ⟨δ, e1, e2⟩ := hC o lin _ n u s hlin h1 hr
  exact ⟨δ, tolerated_congr hd (fun a _ i hi => rigid_start hi) e1, (size_eq (fun d => u d - s d)).trans_le e2⟩

/-! ### C192 -/

/-- C192: if no contact point is in another state at the start than at the equilibrium `w`, `nitsche_ufl` with
relaxation `0 < ω ≤ 1` stops after the first `k ≥ 2` iterations with `(1 - ω)^(k-1)` below the relative tolerance, or
`(1 - ω)^(k-1)` times the distance of the start from `w` below the absolute one, with `(1 - ω)^k` times the error of
the start, if `max_it` allows; otherwise it raises or returns the last iterate. -/
theorem C192_iterations_ufl (hdim : P.dim = 2 ∨ P.dim = 3) (htd : P.dim = M.tdim) (hmd : M.markerDim = M.tdim - 1)
    (hs : Sound Q (abovePlane P M Q top)) (hst : Stiff P M Q (abovePlane P M Q top)) (hlin : ExactSolver (numDofs P M) lin)
    (hcrit : o.criterion = "incremental") (ho : 0 < o.relaxation) (ho1 : o.relaxation ≤ 1) (hat : 0 < o.atol)
    {w : ℕ → ℕ → ℝ} (he : AtRest P M Q (abovePlane P M Q top) w)
    (hsame : ContactKept P M Q (abovePlane P M Q top) (movedBy P (-1 / 100 - P.planeLoc)) w) (k : ℕ)
    (hk : IsLeast (MayStop o.relaxation o.atol o.rtol
      (nodalSize P M (fun a i => movedBy P (-1 / 100 - P.planeLoc) a i - w a i))) k) :
    if k ≤ o.maxIt then ∃ u, nitscheUfl P M Q top o lin = .ok (k, u) ∧ ∀ a < M.numNodes, ∀ i < P.dim,
        byNode P u a i - w a i = (1 - o.relaxation) ^ k * (movedBy P (-1 / 100 - P.planeLoc) a i - w a i)
    else if o.errorOnNonconvergence then nitscheUfl P M Q top o lin = .error "RuntimeError"
    else ∃ u, nitscheUfl P M Q top o lin = .ok (o.maxIt, u) ∧ ∀ a < M.numNodes, ∀ i < P.dim,
        byNode P u a i - w a i = (1 - o.relaxation) ^ o.maxIt * (movedBy P (-1 / 100 - P.planeLoc) a i - w a i) := by
  have hd : 0 < P.dim := by omega
  have := solve_near_nodal (fits_ufl hd top) hs hst hlin hcrit ho ho1 hat he (x := Snes.initial P)
    (fun a _ i hi => ufl_start hi) hsame k hk
  have hrun : nitscheUfl P M Q top o lin = match newtonSolve P M (uflForms P M Q top) o lin (Snes.initial P) with
    | .error e => .error e
    | .ok (n, conv, u) => if o.errorOnNonconvergence ∧ conv = false then .error "AssertionError" else .ok (n, u) := by
    unfold nitscheUfl
    rw [if_neg (by simp [hmd]), if_neg (by simp [htd]), if_neg (by omega)]
    rfl
  rw [hrun]
  split_ifs at this ⊢ with h1 h2
  · obtain ⟨y, e1, e2⟩ := this
    exact ⟨y, by rw [e1]; simp, e2⟩
  · rw [this]
  · obtain ⟨y, e1, e2⟩ := this
    exact ⟨y, by rw [e1]; simp [h2], e2⟩

/-- C192: the same for `nitsche_rigid_surface`. -/
theorem C192_iterations_rigid (hdim : P.dim = 2 ∨ P.dim = 3) (hmd : M.markerDim = M.tdim - 1)
    (hs : Sound Q (aboveSurface P M Q top rigid)) (hst : Stiff P M Q (aboveSurface P M Q top rigid))
    (hlin : ExactSolver (numDofs P M) lin) (hcrit : o.criterion = "incremental") (ho : 0 < o.relaxation)
    (ho1 : o.relaxation ≤ 1) (hat : 0 < o.atol) {w : ℕ → ℕ → ℝ} (he : AtRest P M Q (aboveSurface P M Q top rigid) w)
    (hsame : ContactKept P M Q (aboveSurface P M Q top rigid) (movedBy P (-1 / 100)) w) (k : ℕ)
    (hk : IsLeast (MayStop o.relaxation o.atol o.rtol (nodalSize P M (fun a i => movedBy P (-1 / 100) a i - w a i))) k) :
    if k ≤ o.maxIt then ∃ u, nitscheRigidSurface P M Q top rigid o lin = .ok (k, u) ∧ ∀ a < M.numNodes, ∀ i < P.dim,
        byNode P u a i - w a i = (1 - o.relaxation) ^ k * (movedBy P (-1 / 100) a i - w a i)
    else if o.errorOnNonconvergence then nitscheRigidSurface P M Q top rigid o lin = .error "RuntimeError"
    else ∃ u, nitscheRigidSurface P M Q top rigid o lin = .ok (o.maxIt, u) ∧ ∀ a < M.numNodes, ∀ i < P.dim,
        byNode P u a i - w a i = (1 - o.relaxation) ^ o.maxIt * (movedBy P (-1 / 100) a i - w a i) := by
  have hd : 0 < P.dim := by omega
  have := solve_near_nodal (fits_rigid hd top rigid) hs hst hlin hcrit ho ho1 hat he (x := rigidInitial P)
    (fun a _ i hi => rigid_start hi) hsame k hk
  have hrun : nitscheRigidSurface P M Q top rigid o lin
      = match newtonSolve P M (rigidForms P M Q top rigid) o lin (rigidInitial P) with
    | .error e => .error e
    | .ok (n, conv, u) => if o.errorOnNonconvergence ∧ conv = false then .error "AssertionError" else .ok (n, u) := by
    unfold nitscheRigidSurface
    rw [if_neg (by simp [hmd]), if_neg (by omega)]
    rfl
  rw [hrun]
  split_ifs at this ⊢ with h1 h2
  · obtain ⟨y, e1, e2⟩ := this
    exact ⟨y, by rw [e1]; simp, e2⟩
  · rw [this]
  · obtain ⟨y, e1, e2⟩ := this
    exact ⟨y, by rw [e1]; simp [h2], e2⟩

/-- C192: with the default options, `nitsche_rigid_surface` then returns the equilibrium after two iterations. -/
theorem C192_default_rigid (hdim : P.dim = 2 ∨ P.dim = 3) (hmd : M.markerDim = M.tdim - 1)
    (hs : Sound Q (aboveSurface P M Q top rigid)) (hst : Stiff P M Q (aboveSurface P M Q top rigid))
    (hlin : ExactSolver (numDofs P M) lin) {w : ℕ → ℕ → ℝ} (he : AtRest P M Q (aboveSurface P M Q top rigid) w)
    (hsame : ContactKept P M Q (aboveSurface P M Q top rigid) (movedBy P (-1 / 100)) w) :
    ∃ u, nitscheRigidSurface P M Q top rigid rigidDefaults lin = .ok (2, u)
      ∧ ∀ a < M.numNodes, ∀ i < P.dim, byNode P u a i = w a i := by
  have := C192_iterations_rigid (o := rigidDefaults) hdim hmd hs hst hlin rfl (by norm_num [rigidDefaults])
    (by norm_num [rigidDefaults]) (by norm_num [rigidDefaults]) he hsame 2
    ⟨⟨le_refl _, Or.inl (by norm_num [rigidDefaults])⟩, fun j hj => hj.1⟩
  rw [if_pos (by norm_num [rigidDefaults])] at this
  obtain ⟨u, h1, h2⟩ := this
  refine ⟨u, h1, fun a ha i hi => ?_⟩
  have := h2 a ha i hi
  rw [show (1:ℝ) - rigidDefaults.relaxation = 0 by norm_num [rigidDefaults], zero_pow (by norm_num), zero_mul] at this
  linarith

/-- C192: with the default options, `nitsche_ufl` then needs `k ≤ 14` iterations and returns the equilibrium up to
`1/5^k` times the error of the start. -/
theorem C192_default_ufl (hdim : P.dim = 2 ∨ P.dim = 3) (htd : P.dim = M.tdim) (hmd : M.markerDim = M.tdim - 1)
    (hs : Sound Q (abovePlane P M Q top)) (hst : Stiff P M Q (abovePlane P M Q top)) (hlin : ExactSolver (numDofs P M) lin)
    {w : ℕ → ℕ → ℝ} (he : AtRest P M Q (abovePlane P M Q top) w)
    (hsame : ContactKept P M Q (abovePlane P M Q top) (movedBy P (-1 / 100 - P.planeLoc)) w) :
    ∃ k u, k ≤ 14 ∧ nitscheUfl P M Q top uflDefaults lin = .ok (k, u) ∧ ∀ a < M.numNodes, ∀ i < P.dim,
      byNode P u a i - w a i = (1 / 5) ^ k * (movedBy P (-1 / 100 - P.planeLoc) a i - w a i) := by
  classical
  have h14 : MayStop uflDefaults.relaxation uflDefaults.atol uflDefaults.rtol
      (nodalSize P M (fun a i => movedBy P (-1 / 100 - P.planeLoc) a i - w a i)) 14 :=
    ⟨by norm_num, Or.inl (by norm_num [uflDefaults])⟩
  have hex : ∃ k, MayStop uflDefaults.relaxation uflDefaults.atol uflDefaults.rtol
      (nodalSize P M (fun a i => movedBy P (-1 / 100 - P.planeLoc) a i - w a i)) k := ⟨14, h14⟩
  have hk14 : Nat.find hex ≤ 14 := Nat.find_min' hex h14
  have := C192_iterations_ufl (o := uflDefaults) hdim htd hmd hs hst hlin rfl (by norm_num [uflDefaults])
    (by norm_num [uflDefaults]) (by norm_num [uflDefaults]) he hsame (Nat.find hex)
    ⟨Nat.find_spec hex, fun j hj => Nat.find_min' hex hj⟩
  rw [if_pos (show Nat.find hex ≤ uflDefaults.maxIt from hk14.trans (by norm_num [uflDefaults]))] at this
  obtain ⟨u, h1, h2⟩ := this
  refine ⟨Nat.find hex, u, hk14, h1, fun a ha i hi => ?_⟩
  rw [h2 a ha i hi, show (1:ℝ) - uflDefaults.relaxation = 1 / 5 by norm_num [uflDefaults]]

/-! ### the hypotheses can be met -/

/-- A triangle with corners `(0,3)`, `(0,0)`, `(4,0)` and a facet with value 1 between the first two, and for `m = 6`
another one below it with facets with value 2.  Point 0 is in the triangle, point 1 on its bottom, point 2 below. -/
def exMesh (m : ℕ) : Mesh where
  procs := 1
  owner := fun _ => 0
  cells := fun _ => [0]
  tdim := 2
  markerDim := 1
  numNodes := m
  x := fun a i => if i = 0 then (if a % 3 = 2 then 4 else 0) else if a = 0 then 3 else if a = 3 then -3 else 0
  tags := [(0, 1), (1, 2), (2, 2)]
  facetNodes := fun f => if f = 0 then [0, 1] else if f = 1 then [3, 4] else [4, 5]
  points := fun _ => [0]
  wt := fun _ => 6
  phi := fun k a => if k = 0 then (if a < 3 then 1 / 3 else 0) else if k = 1 then (if a = 1 ∨ a = 2 then 1 / 2 else 0)
    else if 3 ≤ a then 1 / 3 else 0
  dphi := fun k a j => if k = 2 then (if a < 3 then 0 else if a = 3 then (if j = 1 then -1 / 3 else 0)
      else if a = 4 then (if j = 0 then -1 / 4 else 1 / 3) else if j = 0 then 1 / 4 else 0)
    else if a = 0 then (if j = 1 then 1 / 3 else 0) else if a = 1 then (if j = 0 then -1 / 4 else -1 / 3)
    else if a = 2 then (if j = 0 then 1 / 4 else 0) else 0

/-- One quadrature point per cell and on the bottom of the triangle. -/
def exQuad (cells : List ℕ) : Quad where
  cells := cells
  contact := [1]
  dirichlet := []
  rigid := []
  wt := fun k => if k = 1 then 4 else 6
  diam := fun _ => 5
  circ := fun _ => 5 / 2
  n := fun _ i => if i = 1 then -1 else 0
  x := fun k i => if k = 1 then (if i = 0 then 2 else 0) else 1
  gap := fun _ _ => 0

/-- Young's modulus 3, Poisson ratio 1/2, symmetric Nitsche method, plane at height 0, displacement `d`. -/
def exArgs (g d : ℝ) : Params := ⟨2, false, 3, 1 / 2, 1, g, 0, d, false⟩

theorem ex_mu (g d : ℝ) : shearModulus (exArgs g d).E (exArgs g d).nu = 1 := by norm_num [shearModulus, exArgs]

theorem ex_lam (g d : ℝ) : lameFirst (exArgs g d).planeStrain (exArgs g d).E (exArgs g d).nu = 2 := by
  norm_num [lameFirst, exArgs]

theorem ex_top (m a : ℕ) : OnFacet (exMesh m) 1 a ↔ a = 0 ∨ a = 1 := by
  simp [OnFacet, exMesh]

theorem ex_low (m a : ℕ) : OnFacet (exMesh m) 2 a ↔ a = 3 ∨ a = 4 ∨ a = 5 := by
  simp [OnFacet, exMesh]
  omega

theorem ex_grad {m : ℕ} (hm : m = 3 ∨ m = 6) (v : ℕ → ℕ → ℝ) {k : ℕ} (hk : k < 2) (i j : ℕ) :
    nodalGrad (exMesh m) v k i j = v 0 i * (if j = 1 then 1 / 3 else 0) + v 1 i * (if j = 0 then -1 / 4 else -1 / 3)
      + v 2 i * (if j = 0 then 1 / 4 else 0) := by
  have h2 : k ≠ 2 := by omega
  rcases hm with rfl | rfl <;> simp [nodalGrad, exMesh, sum_range_succ, h2]

theorem ex_value {m : ℕ} (hm : m = 3 ∨ m = 6) (v : ℕ → ℕ → ℝ) (i : ℕ) :
    nodalValue (exMesh m) v 1 i = (v 1 i + v 2 i) / 2 := by
  rcases hm with rfl | rfl <;> simp [nodalValue, exMesh, sum_range_succ] <;> ring

theorem ex_normalStress {m : ℕ} (hm : m = 3 ∨ m = 6) (g d : ℝ) (c : List ℕ) (v : ℕ → ℕ → ℝ) :
    normalStress (exArgs g d) (exMesh m) (exQuad c) v 1 = 4 * ((v 0 1 - v 1 1) / 3) + 2 * ((v 2 0 - v 1 0) / 4) := by
  unfold normalStress tractionAt approach
  rw [ex_mu, ex_lam]
  simp only [traction, stress, strain, ex_grad hm v (show 1 < 2 by norm_num), sum_range_succ, sum_range_zero, exArgs, exQuad]
  norm_num
  ring

theorem ex_inner {m : ℕ} (hm : m = 3 ∨ m = 6) (g d : ℝ) (c : List ℕ) (u v : ℕ → ℕ → ℝ) :
    innerWork (exArgs g d) (exMesh m) (exQuad (0 :: c)) u v
      = 6 * ((4 * ((u 2 0 - u 1 0) / 4) + 2 * ((u 0 1 - u 1 1) / 3)) * ((v 2 0 - v 1 0) / 4)
          + (2 * ((u 2 0 - u 1 0) / 4) + 4 * ((u 0 1 - u 1 1) / 3)) * ((v 0 1 - v 1 1) / 3)
          + ((u 0 0 - u 1 0) / 3 + (u 2 1 - u 1 1) / 4) * ((v 0 0 - v 1 0) / 3 + (v 2 1 - v 1 1) / 4))
        + quadSum c (exQuad c).wt (fun k => stressWork 2 1 2 (nodalGrad (exMesh m) u k) (nodalGrad (exMesh m) v k)) := by
  unfold innerWork
  rw [ex_mu, ex_lam]
  have hc : (exQuad (0 :: c)).cells = 0 :: c := rfl
  have hw : (exQuad (0 :: c)).wt = (exQuad c).wt := rfl
  have hd : (exArgs g d).dim = 2 := rfl
  have hw0 : (exQuad c).wt 0 = 6 := rfl
  rw [hc, hw, hd]
  unfold quadSum
  rw [List.map_cons, List.sum_cons, hw0]
  congr 1
  simp only [stressWork, stress, strain, ex_grad hm _ (show 0 < 2 by norm_num), sum_range_succ, sum_range_zero]
  norm_num
  ring

/-- Where the free corner of the triangle comes to rest. -/
def exRest (a i : ℕ) : ℝ := if a = 2 then (if i = 0 then 1 / 40 else 119 / 480) else if 2 < a then 0
  else if i = 0 then 0 else -137 / 480

theorem ex_low_cell (u v : ℕ → ℕ → ℝ) (h : ∀ a, 3 ≤ a → a < 6 → ∀ i < 2, v a i = 0) :
    quadSum [2] (exQuad [2]).wt (fun k => stressWork 2 1 2 (nodalGrad (exMesh 6) u k) (nodalGrad (exMesh 6) v k)) = 0 := by
  have hg : ∀ i < 2, ∀ j, nodalGrad (exMesh 6) v 2 i j = 0 := by
    intro i hi j
    simp [nodalGrad, exMesh, sum_range_succ, h 3 (by norm_num) (by norm_num) i hi, h 4 (by norm_num) (by norm_num) i hi,
      h 5 (by norm_num) (by norm_num) i hi]
  simp [quadSum, stressWork, strain, sum_range_succ, hg]

/-- The free corner of the triangle and its equations. -/
theorem ex_obstacle {m : ℕ} (hm : m = 3 ∨ m = 6) (g d : ℝ) (c : List ℕ) (S : Support) (h6 : S.stiff 1 = 6) (u v : ℕ → ℕ → ℝ) :
    obstacleWork (exArgs g d) (exMesh m) (exQuad c) S u v
      = 4 * (-(1 / 6) * normalStress (exArgs g d) (exMesh m) (exQuad c) u 1 * normalStress (exArgs g d) (exMesh m) (exQuad c) v 1
        + 1 / 6 * min 0 (pressed (exArgs g d) (exMesh m) (exQuad c) S u 1)
          * (normalStress (exArgs g d) (exMesh m) (exQuad c) v 1 + 6 * ((v 1 1 + v 2 1) / 2))) := by
  have hc : (exQuad c).contact = [1] := rfl
  have hw : (exQuad c).wt 1 = 4 := rfl
  have ht : (exArgs g d).theta = 1 := rfl
  have hmv : normalMove (exArgs g d) (exMesh m) v 1 = -((v 1 1 + v 2 1) / 2) := by
    unfold normalMove approach
    rw [ex_value hm]; rfl
  unfold obstacleWork quadSum
  rw [hc, List.map_cons, List.map_nil, List.sum_cons, List.sum_nil, hw, ht]
  simp only [h6, hmv]
  ring

theorem ex_pressed {m : ℕ} (hm : m = 3 ∨ m = 6) (g d : ℝ) (c : List ℕ) (S : Support) (h6 : S.stiff 1 = 6) (h0 : S.gap 1 = 0)
    (u : ℕ → ℕ → ℝ) : pressed (exArgs g d) (exMesh m) (exQuad c) S u 1
      = 4 * ((u 0 1 - u 1 1) / 3) + 2 * ((u 2 0 - u 1 0) / 4) + 6 * ((u 1 1 + u 2 1) / 2) := by
  have hmv : normalMove (exArgs g d) (exMesh m) u 1 = -((u 1 1 + u 2 1) / 2) := by
    unfold normalMove approach
    rw [ex_value hm]; rfl
  unfold pressed
  rw [ex_normalStress hm, hmv, h6, h0]
  ring

/-- The example is stiff, the displacement `exRest` an equilibrium, and the corner pressed at the start. -/
theorem ex_all {m : ℕ} (hm : m = 3 ∨ m = 6) (g : ℝ) (c : List ℕ) (S : Support) (h6 : S.stiff 1 = 6) (h0 : S.gap 1 = 0)
    (hh : S.held = []) (hfix : ∀ a < m, S.fixed a = if a = 2 then none else if 2 < a then some (fun _ => 0)
      else some (fun i => if i + 1 = 2 then -137 / 480 else 0))
    (hc : ∀ u v, Virtual (exArgs g (-137 / 480)) S v →
      quadSum c (exQuad c).wt (fun k => stressWork 2 1 2 (nodalGrad (exMesh m) u k) (nodalGrad (exMesh m) v k)) = 0) :
    Sound (exQuad (0 :: c)) S ∧ Stiff (exArgs g (-137 / 480)) (exMesh m) (exQuad (0 :: c)) S
      ∧ AtRest (exArgs g (-137 / 480)) (exMesh m) (exQuad (0 :: c)) S exRest
      ∧ ContactKept (exArgs g (-137 / 480)) (exMesh m) (exQuad (0 :: c)) S (movedBy (exArgs g (-137 / 480)) (-1 / 100)) exRest := by
  have h3 : 3 ≤ m := by omega
  have hv0 : ∀ v, Virtual (exArgs g (-137 / 480)) S v → ∀ i < 2, v 0 i = 0 ∧ v 1 i = 0 := by
    intro v hv i hi
    exact ⟨hv 0 (by rw [hfix 0 (by omega)]; simp) i hi, hv 1 (by rw [hfix 1 (by omega)]; simp) i hi⟩
  have hheld : ∀ b u v, heldWork (exArgs g (-137 / 480)) (exMesh m) (exQuad (0 :: c)) S b u v = 0 := by
    intro b u v; unfold heldWork; rw [hh]; rfl
  refine ⟨?_, ?_, ⟨?_, ?_⟩, ?_⟩
  · intro k hk
    have : k = 1 := by simpa [exQuad] using hk
    subst this
    exact ⟨by norm_num [exQuad], by rw [h6]; norm_num⟩
  · rintro v hv ⟨a, ha, i, hi, hne⟩
    change i < 2 at hi
    change a < m at ha
    have e00 := hv0 v hv 0 (by norm_num)
    have e01 := hv0 v hv 1 (by norm_num)
    have ha2 : a = 2 := by
      by_contra h2
      refine hne (hv a ?_ i hi)
      rw [hfix a ha, if_neg h2]
      split <;> simp
    subst ha2
    have hq : quadSum (exQuad (0 :: c)).contact (exQuad (0 :: c)).wt (fun k => 1 / S.stiff k
        * normalStress (exArgs g (-137 / 480)) (exMesh m) (exQuad (0 :: c)) v k ^ 2) = 4 * (1 / 6 * (v 2 0 / 2) ^ 2) := by
      have hcn : (exQuad (0 :: c)).contact = [1] := rfl
      have hw : (exQuad (0 :: c)).wt 1 = 4 := rfl
      unfold quadSum
      rw [hcn, List.map_cons, List.map_nil, List.sum_cons, List.sum_nil, hw]
      simp only [h6, ex_normalStress hm, e00.1, e00.2, e01.1, e01.2]
      ring
    rw [hq, hheld, ex_inner hm, hc v v hv, e00.1, e00.2, e01.1, e01.2]
    have ht : (exArgs g (-137 / 480)).theta = 1 := rfl
    rw [ht]
    have hpos : 0 < v 2 0 ^ 2 + v 2 1 ^ 2 := by
      interval_cases i
      · have := sq_nonneg (v 2 1); have := pow_pos (abs_pos.mpr hne) 2; rw [sq_abs] at this; linarith
      · have := sq_nonneg (v 2 0); have := pow_pos (abs_pos.mpr hne) 2; rw [sq_abs] at this; linarith
    nlinarith [sq_nonneg (v 2 0), sq_nonneg (v 2 1)]
  · intro a ha f hf i hi
    change i < 2 at hi
    rw [hfix a ha] at hf
    split_ifs at hf with h1 h2
    · injection hf with hf
      rw [← hf]; unfold exRest; rw [if_neg h1, if_pos h2]
    · injection hf with hf
      rw [← hf]; unfold exRest; rw [if_neg h1, if_neg h2]
      interval_cases i <;> norm_num
  · intro v hv
    have e00 := hv0 v hv 0 (by norm_num)
    have e01 := hv0 v hv 1 (by norm_num)
    unfold totalWork
    rw [hheld, ex_inner hm, hc _ v hv, ex_obstacle hm _ _ _ _ h6, ex_pressed hm _ _ _ _ h6 h0, ex_normalStress hm, ex_normalStress hm,
      e00.1, e00.2, e01.1, e01.2]
    norm_num [exRest]
    ring
  · intro k hk
    have : k = 1 := by simpa [exQuad] using hk
    subst this
    rw [ex_pressed hm _ _ _ _ h6 h0, ex_pressed hm _ _ _ _ h6 h0]
    norm_num [exRest, movedBy, exArgs]

theorem ex_ufl : Sound (exQuad [0]) (abovePlane (exArgs 10 (-137 / 480)) (exMesh 3) (exQuad [0]) 1)
    ∧ Stiff (exArgs 10 (-137 / 480)) (exMesh 3) (exQuad [0]) (abovePlane (exArgs 10 (-137 / 480)) (exMesh 3) (exQuad [0]) 1)
    ∧ AtRest (exArgs 10 (-137 / 480)) (exMesh 3) (exQuad [0])
      (abovePlane (exArgs 10 (-137 / 480)) (exMesh 3) (exQuad [0]) 1) exRest
    ∧ ContactKept (exArgs 10 (-137 / 480)) (exMesh 3) (exQuad [0])
      (abovePlane (exArgs 10 (-137 / 480)) (exMesh 3) (exQuad [0]) 1) (movedBy (exArgs 10 (-137 / 480)) (-1 / 100)) exRest := by
  refine ex_all (Or.inl rfl) 10 [] _ ?_ ?_ ?_ ?_ ?_
  · norm_num [abovePlane, exArgs, exQuad]
  · norm_num [abovePlane, exArgs, exQuad]
  · simp [abovePlane, exArgs]
  · intro a ha
    unfold abovePlane
    simp only [ex_top]
    interval_cases a <;> simp [exArgs] <;> (funext i; simp [pushed])
  · intro u v _; rfl

theorem ex_rigid : Sound (exQuad [0, 2]) (aboveSurface (exArgs 5 (-137 / 480)) (exMesh 6) (exQuad [0, 2]) 1 2)
    ∧ Stiff (exArgs 5 (-137 / 480)) (exMesh 6) (exQuad [0, 2]) (aboveSurface (exArgs 5 (-137 / 480)) (exMesh 6) (exQuad [0, 2]) 1 2)
    ∧ AtRest (exArgs 5 (-137 / 480)) (exMesh 6) (exQuad [0, 2])
      (aboveSurface (exArgs 5 (-137 / 480)) (exMesh 6) (exQuad [0, 2]) 1 2) exRest
    ∧ ContactKept (exArgs 5 (-137 / 480)) (exMesh 6) (exQuad [0, 2])
      (aboveSurface (exArgs 5 (-137 / 480)) (exMesh 6) (exQuad [0, 2]) 1 2) (movedBy (exArgs 5 (-137 / 480)) (-1 / 100)) exRest := by
  have hfix : ∀ a < 6, (aboveSurface (exArgs 5 (-137 / 480)) (exMesh 6) (exQuad [0, 2]) 1 2).fixed a
      = if a = 2 then none else if 2 < a then some (fun _ => 0) else some (fun i => if i + 1 = 2 then -137 / 480 else 0) := by
    intro a ha
    unfold aboveSurface
    simp only [ex_top, ex_low]
    interval_cases a <;> simp [exArgs] <;> (funext i; simp [pushed])
  refine ex_all (Or.inr rfl) 5 [2] _ ?_ ?_ ?_ hfix ?_
  · norm_num [aboveSurface, exArgs, exQuad]
  · simp [aboveSurface, exArgs, exQuad, approach]
  · simp [aboveSurface, exArgs]
  · intro u v hv
    refine ex_low_cell u v (fun a h3 h6 i hi => hv a ?_ i hi)
    rw [hfix a h6, if_neg (by omega), if_pos (by omega)]
    simp

/-- Hypotheses of C191 and C192 for `nitsche_rigid_surface`: with the default options the triangle comes to rest after
two iterations, at the displacement `exRest`. -/
example : ∃ lin u, nitscheRigidSurface (exArgs 5 (-137 / 480)) (exMesh 6) (exQuad [0, 2]) 1 2 rigidDefaults lin = .ok (2, u)
    ∧ byNode (exArgs 5 (-137 / 480)) u 2 1 = 119 / 480 := by
  obtain ⟨lin, hlin⟩ := exists_solver (numDofs (exArgs 5 (-137 / 480)) (exMesh 6))
  obtain ⟨h1, h2, h3, h4⟩ := ex_rigid
  obtain ⟨u, e1, e2⟩ := C192_default_rigid (Or.inl rfl) rfl h1 h2 hlin h3 h4
  refine ⟨lin, u, e1, ?_⟩
  rw [e2 2 (by norm_num [exMesh]) 1 (by norm_num [exArgs])]
  norm_num [exRest]

/-- Hypotheses of C190 to C192 for `nitsche_ufl`: a run with the default options; the prescribed displacement is not
met exactly. -/
example : ∃ lin n u, n ≤ 14 ∧ nitscheUfl (exArgs 10 (-137 / 480)) (exMesh 3) (exQuad [0]) 1 uflDefaults lin = .ok (n, u)
    ∧ byNode (exArgs 10 (-137 / 480)) u 0 1 ≠ -137 / 480 := by
  obtain ⟨lin, hlin⟩ := exists_solver (numDofs (exArgs 10 (-137 / 480)) (exMesh 3))
  obtain ⟨h1, h2, h3, h4⟩ := ex_ufl
  have hz : (-1 / 100 - (exArgs 10 (-137 / 480)).planeLoc) = -1 / 100 := sub_zero _
  obtain ⟨k, u, e0, e1, e2⟩ := C192_default_ufl (Or.inl rfl) rfl rfl h1 h2 hlin h3 (by rw [hz]; exact h4)
  exact ⟨lin, k, u, e0, e1, C190_relaxed_never_exact e1 hlin rfl rfl 0 (by norm_num [exMesh])
    ((ex_top 3 0).mpr (Or.inl rfl)) (by norm_num [exArgs])⟩

end

end Verif.UflDriver
