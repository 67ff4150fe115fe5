import Verif.Model.MeshTieData

/-!
`MeshTie.coeffs` as seen from Python (`MeshTie.cpp:534-539`, `wrappers.cpp:387-395`).
-/

namespace Verif.TieData

variable {R : Type}

/-- A two-dimensional numpy array. -/
structure Table (R : Type) where
  rows : ℕ
  cols : ℕ
  entry : ℕ → ℕ → R

/-- `MeshTie.coeffs(pair)` (`MeshTie.cpp:534-539`, `wrappers.cpp:387-395`): a copy of `_coeffs[pair]` with
`coeffs.size() / cstride` rows. `none` is undefined behaviour: `_coeffs` has one vector per pair, and
`cstride` may be zero (the other bindings test for it, e.g. `wrappers.cpp:142`). -/
def pyCoeffs (S : Static R) (s : State R) (pair : ℕ) : Option (Table R) :=
  if pair < S.pairs then
    if s.cstride = 0 then none
    else some ⟨(s.coeffs pair).size / s.cstride, s.cstride, fun e m => (s.coeffs pair).val (e * s.cstride + m)⟩
  else none

end Verif.TieData
