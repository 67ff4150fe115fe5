import Verif.Model.Rates

/-!
Specification for C218: the order of convergence between two levels.
-/

namespace Verif.Rates

noncomputable section

/-- The order of convergence seen on two levels with `n` and `n'` dofs of a mesh of dimension `d` and the errors `e` and
`e'`: the exponent `p` of the power `h ^ p` of the mesh size `h = n ^ (-1 / d)` by which the errors differ. -/
def IsOrder (d n n' : ℕ) (e e' p : ℝ) : Prop :=
  e / e' = ((n : ℝ) ^ (-(1 : ℝ) / d) / (n' : ℝ) ^ (-(1 : ℝ) / d)) ^ p

/-- The inputs of level `k` of `unsplit_domain`: half the resolution and twice the segments of the level before. -/
def unsplitInput (k : ℕ) : Input ℕ := ⟨k + 1, 0.6 / 2 ^ k, 12 * 2 ^ k⟩

/-- The inputs of level `k` of `test_meshtie`. -/
def meshtieInput (simplex : Bool) (k : ℕ) : Input (ℕ × ℕ) :=
  ⟨k + 1, (if simplex then 0.8 else 1.2) / 2 ^ k, (10 * 2 ^ k, 12 * 2 ^ k)⟩

/-- The dimension of the meshes of the demos. -/
def dim (threed : Bool) : ℕ := if threed then 3 else 2

/-- `rep` is the report of one of the studies. -/
def Reported (threed : Bool) (rep : Report) : Prop :=
  (∃ solve runs ins, unsplitDomain threed solve runs = .ok (ins, rep))
  ∨ ∃ simplex solve runs ins, testMeshtie threed simplex solve runs = .ok (ins, rep)

end

end Verif.Rates
