import Verif.Lemmas.UflEnergy
import Verif.Props.UflDriver

/-! Property C197: with theta = 1, `nitsche_ufl` and `nitsche_rigid_surface` approximate the displacement of least energy. -/

namespace Verif.UflDriver

open Finset Verif.OneSided Verif.Snes Spec

noncomputable section

variable {P : Params} {M : Mesh} {Q : Quad} {top rigid : ℤ} {o : Options} {lin : LinSolver} {n : ℕ}

/-- C197: with theta = 1, a body above a plane is in equilibrium with the contact forces of `nitsche_ufl` exactly at the
displacement of least energy. -/
theorem C197_equilibrium_ufl (hd : 0 < P.dim) (hθ : P.theta = 1) (hs : Sound Q (abovePlane P M Q top))
    (hst : Stiff P M Q (abovePlane P M Q top)) (u : ℕ → ℕ → ℝ) :
    AtRest P M Q (abovePlane P M Q top) u ↔ LeastEnergy P M Q (abovePlane P M Q top) u :=
  rest_iff_least hd hθ hs hst u

/-- C197: the same for a body above a surface and `nitsche_rigid_surface`. -/
theorem C197_equilibrium_rigid (hd : 0 < P.dim) (hθ : P.theta = 1) (hs : Sound Q (aboveSurface P M Q top rigid))
    (hst : Stiff P M Q (aboveSurface P M Q top rigid)) (u : ℕ → ℕ → ℝ) :
    AtRest P M Q (aboveSurface P M Q top rigid) u ↔ LeastEnergy P M Q (aboveSurface P M Q top rigid) u :=
  rest_iff_least hd hθ hs hst u

/-- C197: there is a displacement of least energy, and what `nitsche_ufl` with theta = 1 returns is close to it, whatever
solver and options, if the Newton solver raises when it does not converge. -/
theorem C197_least_ufl (hd : 0 < P.dim) (hθ : P.theta = 1) (hs : Sound Q (abovePlane P M Q top))
    (hst : Stiff P M Q (abovePlane P M Q top)) :
    ∃ w : ℕ → ℕ → ℝ, LeastEnergy P M Q (abovePlane P M Q top) w
      ∧ ∃ C, ∀ (o : Options) (lin : LinSolver) (n : ℕ) (u : ℕ → ℝ), nitscheUfl P M Q top o lin = .ok (n, u) →
        ExactSolver (numDofs P M) lin → o.errorOnNonconvergence = true →
        ∃ δ, Tolerated P M Q (abovePlane P M Q top) o.atol o.rtol (movedBy P (-1 / 100 - P.planeLoc)) δ
          ∧ nodalSize P M (fun a i => byNode P u a i - w a i) ≤ C * (1 + |1 - o.relaxation|) * δ := by
  obtain ⟨w, h1, -, h2⟩ := C191_close_ufl hd hs hst
  exact ⟨w, (C197_equilibrium_ufl hd hθ hs hst w).mp h1, h2⟩

/-- C197: the same for `nitsche_rigid_surface`. -/
theorem C197_least_rigid (hd : 0 < P.dim) (hθ : P.theta = 1) (hs : Sound Q (aboveSurface P M Q top rigid))
    (hst : Stiff P M Q (aboveSurface P M Q top rigid)) :
    ∃ w : ℕ → ℕ → ℝ, LeastEnergy P M Q (aboveSurface P M Q top rigid) w
      ∧ ∃ C, ∀ (o : Options) (lin : LinSolver) (n : ℕ) (u : ℕ → ℝ), nitscheRigidSurface P M Q top rigid o lin = .ok (n, u) →
        ExactSolver (numDofs P M) lin → o.errorOnNonconvergence = true →
        ∃ δ, Tolerated P M Q (aboveSurface P M Q top rigid) o.atol o.rtol (movedBy P (-1 / 100)) δ
          ∧ nodalSize P M (fun a i => byNode P u a i - w a i) ≤ C * (1 + |1 - o.relaxation|) * δ := by
  obtain ⟨w, h1, -, h2⟩ := C191_close_rigid hd hs hst
  exact ⟨w, (C197_equilibrium_rigid hd hθ hs hst w).mp h1, h2⟩

/-- C197: with the default options and no change of contact at the start, `nitsche_rigid_surface` with theta = 1 returns
the displacement of least energy. -/
theorem C197_exact_rigid (hdim : P.dim = 2 ∨ P.dim = 3) (hmd : M.markerDim = M.tdim - 1) (hθ : P.theta = 1)
    (hs : Sound Q (aboveSurface P M Q top rigid)) (hst : Stiff P M Q (aboveSurface P M Q top rigid))
    (hlin : ExactSolver (numDofs P M) lin) {w : ℕ → ℕ → ℝ} (he : LeastEnergy P M Q (aboveSurface P M Q top rigid) w)
    (hsame : ContactKept P M Q (aboveSurface P M Q top rigid) (movedBy P (-1 / 100)) w) :
    ∃ u, nitscheRigidSurface P M Q top rigid rigidDefaults lin = .ok (2, u)
      ∧ LeastEnergy P M Q (aboveSurface P M Q top rigid) (byNode P u) := by
  have hd : 0 < P.dim := by omega
  obtain ⟨u, h1, h2⟩ := C192_default_rigid hdim hmd hs hst hlin ((C197_equilibrium_rigid hd hθ hs hst w).mpr he) hsame
  refine ⟨u, h1, fun a ha g hg i hi => ?_, fun v hv hne => ?_⟩
  · rw [h2 a ha i hi]
    exact he.1 a ha g hg i hi
  · rw [energy_congr hd h2]
    refine he.2 v hv ?_
    obtain ⟨a, ha, i, hi, h⟩ := hne
    exact ⟨a, ha, i, hi, by rwa [← h2 a ha i hi]⟩

/-- Hypotheses of C197 for both drivers: `exRest` is the displacement of least energy, and `nitsche_rigid_surface` returns
it. -/
example : LeastEnergy (exArgs 10 (-137 / 480)) (exMesh 3) (exQuad [0]) (abovePlane (exArgs 10 (-137 / 480)) (exMesh 3) (exQuad [0]) 1) exRest
    ∧ ∃ lin u, nitscheRigidSurface (exArgs 5 (-137 / 480)) (exMesh 6) (exQuad [0, 2]) 1 2 rigidDefaults lin = .ok (2, u)
      ∧ LeastEnergy (exArgs 5 (-137 / 480)) (exMesh 6) (exQuad [0, 2])
        (aboveSurface (exArgs 5 (-137 / 480)) (exMesh 6) (exQuad [0, 2]) 1 2) (byNode (exArgs 5 (-137 / 480)) u) := by
  obtain ⟨h1, h2, h3, -⟩ := ex_ufl
  refine ⟨(C197_equilibrium_ufl (by norm_num [exArgs]) rfl h1 h2 _).mp h3, ?_⟩
  obtain ⟨lin, hlin⟩ := exists_solver (numDofs (exArgs 5 (-137 / 480)) (exMesh 6))
  obtain ⟨h1, h2, h3, h4⟩ := ex_rigid
  exact ⟨lin, C197_exact_rigid (Or.inl rfl) rfl rfl h1 h2 hlin
    ((C197_equilibrium_rigid (by norm_num [exArgs]) rfl h1 h2 _).mp h3) h4⟩

end

end Verif.UflDriver
