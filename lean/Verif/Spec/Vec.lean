import Mathlib.Analysis.Real.Sqrt
import Mathlib.Algebra.BigOperators.Fin

/-! Specification vocabulary for small vectors, independent of the model. -/

namespace Verif.Spec

noncomputable section

/-- Euclidean product. -/
def dot {d : ℕ} (x y : Fin d → ℝ) : ℝ := ∑ i, x i * y i

/-- Euclidean length. -/
def len {d : ℕ} (x : Fin d → ℝ) : ℝ := Real.sqrt (dot x x)

/-- Euclidean distance. -/
def distance {d : ℕ} (x y : Fin d → ℝ) : ℝ := len (fun i => x i - y i)

end

end Verif.Spec
