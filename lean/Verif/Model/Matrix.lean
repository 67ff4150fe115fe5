import Verif.Model.System
import Verif.Model.TieSystem

/-!
`create_matrix` (`contact_problem.py:394-401`, `MeshTie` in `wrappers.cpp:423-428`) and assembly into the matrix
it returns, which has room for the entries of its sparsity pattern only.
-/

namespace Verif.Assembly

noncomputable section

/-- `MatSetValuesBlockedLocal` with `ADD_VALUES` on a matrix with a fixed sparsity pattern (library, called
through `la::petsc::Matrix::set_block_fn`, `wrappers.cpp:260`).  A block outside the pattern is an error of
PETSc, here `none`. -/
def addInside (pattern : List (ℕ × ℕ)) (bs : ℕ) (rows cols : List ℕ) (vals : ℕ → ℝ)
    (A : Option (Arr (ℕ × ℕ))) : Option (Arr (ℕ × ℕ)) :=
  match A with
  | none => none
  | some A => if ∀ r ∈ rows, ∀ c ∈ cols, (r, c) ∈ pattern then some (addValues bs rows cols vals A) else none

end

end Verif.Assembly

namespace Verif.ContactProblem

noncomputable section

variable {G : Type} (Y : System G)

/-- `contact_problem.py:394-401` `create_matrix`, `Contact.cpp:240-294`: the sparsity pattern (in blocks) of the
matrix created now, `form` being that of the bilinear form. -/
def System.createMatrix (s : State G) (form : List (ℕ × ℕ)) : List (ℕ × ℕ) :=
  Assembly.createPattern ((List.range Y.numPairs).map (Y.assemblyPair s)) form

/-- `contact_problem.py:426-448` `assemble_matrix` into a matrix with the given pattern. -/
def System.assembleInto (pattern : List (ℕ × ℕ)) (s : State G) (A : Option (Arr (ℕ × ℕ))) :
    Except Assembly.Err (Option (Arr (ℕ × ℕ))) :=
  match s.coeffs with
  | none => .error .invalidArgument
  | some cs => (List.range Y.numPairs).foldlM (fun A i =>
      (s.matKernels.map (Y.kernel s.consts)).foldlM (fun A kernel =>
        Assembly.assembleMatrix (Assembly.addInside pattern Y.gdim) (Y.assemblyPair s i) kernel (flat (cs i))
          (cs i).cols A) A) A

end

end Verif.ContactProblem

namespace Verif.TieData

noncomputable section

variable (M : TieMesh) (E : TieElement)

/-- `MeshTie.create_matrix` (`wrappers.cpp:423-428`, `Contact.cpp:240-294`) for a form on the space `E`. -/
def TieMesh.createMatrix (form : List (ℕ × ℕ)) : List (ℕ × ℕ) :=
  Assembly.createPattern ((List.range M.numPairs).map (M.assemblyPair E)) form

/-- `MeshTie::assemble_matrix` (`MeshTie.cpp:501-532`) into a matrix with the given pattern. -/
def TieMesh.assembleInto (pattern : List (ℕ × ℕ)) (p : Problem) (s : State ℝ) (A : Option (Arr (ℕ × ℕ))) :
    Except Assembly.Err (Option (Arr (ℕ × ℕ))) :=
  (TieData.assembleMatrix M.static p s).foldlM (fun A l =>
    Assembly.assembleMatrix (Assembly.addInside pattern E.bs) (M.assemblyPair E l.pair) (M.kern E p l) l.buf.val
      l.stride A) A

end

end Verif.TieData
