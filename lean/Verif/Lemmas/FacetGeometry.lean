import Verif.Spec.FacetGeometry
import Verif.Lemmas.Elasticity

namespace Verif.Kernels

open Verif.Elasticity Finset

noncomputable section

theorem facetPhi_eq (D : KD) : facetPhi D = D.ph := rfl

variable {D : KD} (h : AffineConst D)
include h

theorem K_eq (q : ℕ) : D.K q = D.inv (D.qStart + q) := by
  rw [KD.K, KD.at]
  split
  · rename_i ha; exact ((h ha q).1).symm
  · rfl

theorem facetGrad_eq : facetGrad D = fun q i b => gradV D.tdim (D.K q) (D.dph q) i b := by
  funext q i b
  rw [gradV_eq, K_eq h, facetGrad]; rfl

theorem facetNormal_eq : facetNormal D = D.nPhys := by
  funext q a
  rw [facetNormal, KD.nPhys, physicalFacetNormal, K_eq h]
  simp only [covariantNormal, loop_acc, zero_add]

theorem det_eq (q : ℕ) : D.det (D.at q) = D.det (D.qStart + q) := by
  rw [KD.at]
  split
  · rename_i ha; rw [(h ha q).2]
  · rfl

theorem facetWeight_eq : facetWeight D = D.w0 := by
  funext q
  rw [facetWeight, KD.w0, KD.at]
  split
  · rename_i ha; rw [(h ha q).2]
  · rfl

theorem facetWeight_eq' (q : ℕ) : facetWeight D q = D.weights q * D.det (D.at q) := by
  rw [facetWeight_eq h]; rfl

end

end Verif.Kernels
