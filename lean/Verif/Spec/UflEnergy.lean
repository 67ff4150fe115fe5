import Verif.Spec.UflDriver

/-!
Energy of a linear elastic body that is held at some places and pressed against an obstacle, as in Nitsche's method.
-/

namespace Verif.Spec

open Finset Verif.OneSided Verif.Snes Verif.UflDriver

noncomputable section

variable (P : Params) (M : Mesh) (Q : Quad) (S : Support)

/-- Energy of the places where the body is held weakly: minus the work of the tractions on what is missing to the
prescribed displacement, plus the penalty for it. -/
def heldEnergy (u : ℕ → ℕ → ℝ) : ℝ :=
  (S.held.map (fun h => quadSum h.1 Q.wt (fun k =>
    -∑ i ∈ range P.dim, tractionAt P M Q u k i * (nodalValue M u k i - h.2 i)
      + S.penalty k / 2 * ∑ i ∈ range P.dim, (nodalValue M u k i - h.2 i) ^ 2))).sum

/-- Energy of contact: `1 / (2 γ) ([σ_n(u) + γ (gap - u_n)]₋² - σ_n(u)²)`. -/
def pressEnergy (u : ℕ → ℕ → ℝ) : ℝ :=
  quadSum Q.contact Q.wt (fun k =>
    1 / (2 * S.stiff k) * (min 0 (pressed P M Q S u k) ^ 2 - normalStress P M Q u k ^ 2))

/-- Elastic energy, energy of the places where the body is held and of contact. -/
def supportedEnergy (u : ℕ → ℕ → ℝ) : ℝ := innerWork P M Q u u / 2 + heldEnergy P M Q S u + pressEnergy P M Q S u

/-- `u` has the prescribed displacement, and every other displacement of the nodes that has it has more energy. -/
def LeastEnergy (u : ℕ → ℕ → ℝ) : Prop := Held P M S u ∧ ∀ v, Held P M S v →
  (∃ a < M.numNodes, ∃ i < P.dim, v a i ≠ u a i) → supportedEnergy P M Q S u < supportedEnergy P M Q S v

end

end Verif.Spec
