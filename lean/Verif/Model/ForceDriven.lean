import Verif.Model.Phases

/-!
The force driven computation `python/demos/hertz_contact/demo_friction_cylinders_force_driven.py:150-433`: two cylinders are
pressed together by a traction on top of the upper one, without friction; then a tangential traction is added, with
Coulomb friction.

Not modelled: output, analytic pressures, near null space, ghost values (one process).
-/

namespace Verif.ContactProblem

noncomputable section

/-- `demo_friction_cylinders_force_driven.py:191-197`: the compiled residual. `inner` is the form without the traction, and
`w d` the integral of the basis function of dof `d` over the top. -/
def withTraction (D : CylinderDofs) (inner : (ℕ → ℝ) → ℕ → ℝ) (w : ℕ → ℝ) (t : ℕ → ℝ) (u : ℕ → ℝ) (d : ℕ) : ℝ :=
  inner u d - t (D.comp d) * w d

/-- `demo_friction_cylinders_force_driven.py:164-167`: boundary conditions of the first phase. -/
def forceBc1 (D : CylinderDofs) (d : ℕ) : Option ℝ :=
  if D.bottom d then some 0 else if D.symmetry d then some 0 else none

/-- `demo_friction_cylinders_force_driven.py:382-387`: boundary conditions of the second phase. -/
def forceBc2 (D : CylinderDofs) (d : ℕ) : Option ℝ :=
  if D.constraint d then some 0 else if D.bottom d then some 0 else none

/-- `demo_friction_cylinders_force_driven.py:327-329`: the traction in load step `i` of the first phase. -/
def traction1 (p : ℝ) (i : ℕ) : ℕ → ℝ := pair 0 (-p * ((i : ℝ) + 1) / 4)

/-- `demo_friction_cylinders_force_driven.py:408-409`: the traction in load step `i` of the second phase; the vertical
component is the last one of the first phase. -/
def traction2 (p q : ℝ) (i : ℕ) : ℕ → ℝ := pair (q * ((i : ℝ) + 1) / 8) (-p * (((4 - 1 : ℕ) : ℝ) + 1) / 4)

/-- `demo_friction_cylinders_force_driven.py:402-433`: the load steps of the second phase. -/
def forceSteps2 (D : CylinderDofs) (inner : (ℕ → ℝ) → ℕ → ℝ) (stiff : (ℕ → ℝ) → ℕ → ℕ → ℝ) (w : ℕ → ℝ)
    (lin2 : (ℕ × ℕ → ℝ) → (ℕ → ℝ) → (ℕ → ℝ) → (ℕ → ℝ) × ℕ × ℤ) (p q : ℝ) : List Action :=
  (List.range 8).map (fun i =>
    .step ⟨forceBc2 D, ⟨withTraction D inner w (traction2 p q i), stiff, forceBc2 D⟩, lin2, 0.1⟩)

/-- `demo_friction_cylinders_force_driven.py:240-433`: the program; `p` and `q` are the normal and tangential
traction. -/
def forceDriven (D : CylinderDofs) (inner : (ℕ → ℝ) → ℕ → ℝ) (stiff : (ℕ → ℝ) → ℕ → ℕ → ℝ) (w : ℕ → ℝ)
    (lin1 lin2 : (ℕ × ℕ → ℝ) → (ℕ → ℝ) → (ℕ → ℝ) → (ℕ → ℝ) × ℕ × ℤ) (p q : ℝ) (P1 P2 : Phase) : List Action :=
  [.begin P1] ++ (List.range 4).map (fun i =>
      .step ⟨forceBc1 D, ⟨withTraction D inner w (traction1 p i), stiff, forceBc1 D⟩, lin1, 0.1⟩)
    ++ [.begin P2] ++ forceSteps2 D inner stiff w lin2 p q

end

end Verif.ContactProblem
