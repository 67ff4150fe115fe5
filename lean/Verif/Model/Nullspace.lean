import Verif.Lib.Arr
import Verif.Lib.Sort

/-!
Null space vectors: `cpp/utils.cpp:1131-1226` `build_nullspace_multibody` and the three functions of
`python/dolfinx_contact/helpers.py:187-348`, up to the call of the library function `orthonormalize`.

A list of vectors is an array indexed by (number of the vector, flat dof index).  `x dof c` is
coordinate `c` of the dof block `dof` (library function `tabulate_dof_coordinates`).
-/

namespace Verif.Nullspace

noncomputable section

/-- `MeshTags::find(tag)` on the list of (cell, value) pairs (library). -/
def find (mt : List (ℕ × ℤ)) (t : ℤ) : List ℕ := (mt.filter (fun c => c.2 = t)).map (·.1)

/-- `utils.cpp:1152-1161`: the sorted dof blocks of all cells with a tag, without duplicates. -/
def bodyDofs (cellDofs : ℕ → List ℕ) (mt : List (ℕ × ℤ)) (t : ℤ) : List ℕ :=
  uniqueAdj (stableSort (fun n : ℕ => (n : ℤ)) ((find mt t).flatMap cellDofs))

/-- `utils.cpp:1137`, `helpers.py:202,310`. -/
def dim (gdim : ℕ) : ℕ := if gdim = 2 then 3 else 6

/-- `utils.cpp:1164-1169`: translations of body `j`. -/
def translations (gdim j : ℕ) (dofs : List ℕ) : Arr (ℕ × ℕ) → Arr (ℕ × ℕ) :=
  loop gdim fun k => forEach dofs fun dof b => b.put (j * dim gdim + k, gdim * dof + k) 1

/-- `utils.cpp:1172-1200`: rotations of body `j`. -/
def rotations (gdim j : ℕ) (x : ℕ → ℕ → ℝ) (dofs : List ℕ) (b : Arr (ℕ × ℕ)) : Arr (ℕ × ℕ) :=
  if gdim = 2 then
    forEach dofs (fun dof b =>
      (b.put (j * dim gdim + gdim, gdim * dof) (-x dof 1)).put
        (j * dim gdim + gdim, gdim * dof + 1) (x dof 0)) b
  else
    forEach dofs (fun dof b =>
      (((((b.put (j * dim gdim + gdim, gdim * dof) (-x dof 1)).put
        (j * dim gdim + gdim, gdim * dof + 1) (x dof 0)).put
        (j * dim gdim + 4, gdim * dof) (x dof 2)).put
        (j * dim gdim + 4, gdim * dof + 2) (-x dof 0)).put
        (j * dim gdim + 5, gdim * dof + 2) (x dof 1)).put
        (j * dim gdim + 5, gdim * dof + 1) (-x dof 2)) b

/-- `utils.cpp:1145-1201`: all vectors of `build_nullspace_multibody` before `orthonormalize`. -/
def build (gdim : ℕ) (x : ℕ → ℕ → ℝ) (cellDofs : ℕ → List ℕ) (mt : List (ℕ × ℤ)) (tags : List ℤ) :
    Arr (ℕ × ℕ) :=
  loop tags.length (fun j b =>
    let dofs := bodyDofs cellDofs mt (tags.getD j 0)
    rotations gdim j x dofs (translations gdim j dofs b)) (fun _ => 0)

/-- numpy `b[v][[f(d) for d in dofs]] = [val(d) for d in dofs]`. -/
def assign (v : ℕ) (dofs : List ℕ) (f : ℕ → ℕ) (val : ℕ → ℝ) : Arr (ℕ × ℕ) → Arr (ℕ × ℕ) :=
  forEach dofs fun d b => b.put (v, f d) (val d)

/-- `helpers.py:325-342` (and `210-231` with `o = 0`): the assignments for one body whose vectors start
at number `o`. -/
def pyBody (gdim o : ℕ) (x : ℕ → ℕ → ℝ) (dofs : List ℕ) (b : Arr (ℕ × ℕ)) : Arr (ℕ × ℕ) :=
  let b := loop gdim (fun i => assign (o + i) dofs (fun d => gdim * d + i) (fun _ => 1)) b
  if gdim = 2 then
    assign (o + 2) dofs (fun d => gdim * d + 1) (fun d => x d 0)
      (assign (o + 2) dofs (fun d => gdim * d + 0) (fun d => -x d 1) b)
  else if gdim = 3 then
    assign (o + 5) dofs (fun d => gdim * d + 1) (fun d => -x d 2)
      (assign (o + 5) dofs (fun d => gdim * d + 2) (fun d => x d 1)
        (assign (o + 4) dofs (fun d => gdim * d + 2) (fun d => -x d 0)
          (assign (o + 4) dofs (fun d => gdim * d + 0) (fun d => x d 2)
            (assign (o + 3) dofs (fun d => gdim * d + 1) (fun d => x d 0)
              (assign (o + 3) dofs (fun d => gdim * d + 0) (fun d => -x d 1) b)))))
  else b

/-- `helpers.py:187-233` `rigid_motions_nullspace` before `orthonormalize`.  `dofs` is
`V.dofmap.list.flatten()`; the flattened dofmap of `V.sub(i)` is `gdim * dofs + i` (library, blocked
space).  `none`: the assertion `gdim == 2 or gdim == 3` fails. -/
def pyRigid (gdim : ℕ) (x : ℕ → ℕ → ℝ) (dofs : List ℕ) : Option (Arr (ℕ × ℕ)) :=
  if gdim = 2 ∨ gdim = 3 then some (pyBody gdim 0 x dofs (fun _ => 0)) else none

/-- `helpers.py:282-342` `rigid_motions_nullspace_subdomains` before `orthonormalize`.  `none`: an
exception, from the assertion (line 306), from `numpy.hstack` of an empty list when no cell has the
tag (line 321) or from `basis[j * dim + i]` when there are more tags than `num_domains` (line 326). -/
def pySubdomains (gdim : ℕ) (x : ℕ → ℕ → ℝ) (cellDofs : ℕ → List ℕ) (mt : List (ℕ × ℤ))
    (tags : List ℤ) (numDomains : ℕ) : Option (Arr (ℕ × ℕ)) :=
  if gdim = 2 ∨ gdim = 3 then
    if (∃ t ∈ tags, find mt t = []) ∨ numDomains < tags.length then none
    else some (loop tags.length (fun j b =>
      pyBody gdim (j * dim gdim) x (bodyDofs cellDofs mt (tags.getD j 0)) b) (fun _ => 0))
  else none

/-- `helpers.py:243-279` `near_nullspace_subdomains` before `orthonormalize`: `basis[j][dofs] = 1.0`
with the block numbers `dofs`, whatever the block size of the space is. -/
def pyNear (cellDofs : ℕ → List ℕ) (mt : List (ℕ × ℤ)) (tags : List ℤ) (numDomains : ℕ) :
    Option (Arr (ℕ × ℕ)) :=
  if (∃ t ∈ tags, find mt t = []) ∨ numDomains < tags.length then none
  else some (loop tags.length (fun j =>
    assign j (bodyDofs cellDofs mt (tags.getD j 0)) (fun d => d) (fun _ => 1)) (fun _ => 0))

end

end Verif.Nullspace
