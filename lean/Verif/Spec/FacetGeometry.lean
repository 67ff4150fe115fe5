import Verif.Model.ContactKernels
import Verif.Spec.MeshTie
import Verif.Spec.Rigid

/-!
Geometry of a contact facet, read off the data a kernel is given (the fields of `KD`): quadrature
point `q` of the facet is tabulated point `qStart + q`.
-/

namespace Verif.Kernels

open Finset

noncomputable section

/-- Basis function `i` at quadrature point `q`. -/
def facetPhi (D : KD) (q i : ℕ) : ℝ := D.phi (D.qStart + q) i

/-- Derivative of basis function `i` in physical direction `b` at quadrature point `q` (chain rule
with the inverse Jacobian at that point). -/
def facetGrad (D : KD) (q i b : ℕ) : ℝ :=
  ∑ k ∈ range D.tdim, D.inv (D.qStart + q) k b * D.dphi k (D.qStart + q) i

/-- Unit outward normal of the facet at quadrature point `q`: the reference normal mapped with the
inverse transpose of the Jacobian at that point, scaled to length one. -/
def facetNormal (D : KD) (q a : ℕ) : ℝ :=
  (∑ j ∈ range D.tdim, D.inv (D.qStart + q) j a * D.nref j)
    / Real.sqrt (∑ b ∈ range D.gdim, (∑ j ∈ range D.tdim, D.inv (D.qStart + q) j b * D.nref j) ^ 2)

/-- Integration weight of quadrature point `q`: reference weight times surface determinant at that
point. -/
def facetWeight (D : KD) (q : ℕ) : ℝ := D.weights q * D.det (D.qStart + q)

/-- Only cells with the same Jacobian at all points are declared affine. -/
def AffineConst (D : KD) : Prop :=
  D.affine = true → ∀ q, D.inv (D.qStart + q) = D.inv D.qStart ∧ D.det (D.qStart + q) = D.det D.qStart

/-- Sizes of a contact facet. -/
def KD.dims (D : KD) : Spec.Dims := ⟨D.nq, D.nd, D.gdim, D.maxLinks⟩

/-- Sizes of a mesh tie row of elasticity. -/
def KD.tdims (D : KD) (thermo : Bool) : Spec.TieDims :=
  ⟨D.nq, D.nd, D.gdim, D.gdim, D.maxLinks, if thermo then 4 else 3⟩

/-- Sizes of a mesh tie row of heat conduction. -/
def KD.pdims (D : KD) : Spec.TieDims := ⟨D.nq, D.nd, 1, D.gdim, D.maxLinks, 2⟩

/-- Sizes of a facet in contact with a rigid surface. -/
def KD.rdims (D : KD) : Spec.RigidDims := ⟨D.nq, D.nd, D.gdim⟩

end

end Verif.Kernels
