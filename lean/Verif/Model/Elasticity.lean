import Verif.Lib.Arr
import Mathlib.Analysis.Real.Sqrt

/-!
`cpp/elasticity.cpp` and `physical_facet_normal` (`cpp/geometric_quantities.h`).

Each array entry is filled independently of the others, so the entries of the two- and
three-dimensional work arrays are modelled one by one: the loops over the entry's own index are
dropped, the loops that accumulate into the entry are kept.
-/

namespace Verif.Elasticity

noncomputable section

/-- `geometric_quantities.h:92-110` `physical_facet_normal`, entry `i` before normalisation:
`n[i] = 0; n[i] += K(j, i) * n_ref[j]`. -/
def covariantNormal (tdim : ℕ) (K : ℕ → ℕ → ℝ) (nref : ℕ → ℝ) (i : ℕ) : ℝ :=
  loop tdim (fun j s => s + K j i * nref j) 0

/-- `geometric_quantities.h:92-110` `physical_facet_normal`. -/
def physicalFacetNormal (gdim tdim : ℕ) (K : ℕ → ℕ → ℝ) (nref : ℕ → ℝ) (i : ℕ) : ℝ :=
  let norm := Real.sqrt (loop gdim (fun i s => s + covariantNormal tdim K nref i ^ 2) 0)
  covariantNormal tdim K nref i / norm

/-- `elasticity.cpp:25-38`: entry `tr(j, l)` of `compute_normal_strain_basis`. -/
def strainTrace (tdim : ℕ) (K : ℕ → ℕ → ℝ) (dphi : ℕ → ℕ → ℝ) (j l : ℕ) : ℝ :=
  loop tdim (fun k s => s + K k l * dphi k j) 0

/-- `elasticity.cpp:25-46`: entry `epsn(j, l)` of `compute_normal_strain_basis`; `bs` is the number
of columns of `K`, `dphi k j` is `dphi(k, q_pos, j)`. -/
def normalStrain (tdim bs : ℕ) (K : ℕ → ℕ → ℝ) (dphi : ℕ → ℕ → ℝ) (nSurf nPhys : ℕ → ℝ)
    (j l : ℕ) : ℝ :=
  loop tdim (fun k s => loop bs (fun s' e =>
    e + K k s' * dphi k j * (nPhys s' * nSurf l + nPhys l * nSurf s')) s) 0

/-- `elasticity.cpp:70-74`: entry `grad_v[j]` of basis function `i`. -/
def gradV (tdim : ℕ) (K : ℕ → ℕ → ℝ) (dphi : ℕ → ℕ → ℝ) (i j : ℕ) : ℝ :=
  loop tdim (fun k s => s + K k j * dphi k i) 0

/-- `elasticity.cpp:49-89`: entry `sig_n(i, j, l)` of `compute_sigma_n_basis`: the diagonal entry is
written first, then all entries of the row. -/
def sigmaNBasis (tdim bs : ℕ) (K : ℕ → ℕ → ℝ) (dphi : ℕ → ℕ → ℝ) (n : ℕ → ℝ) (mu lam : ℝ)
    (i j l : ℕ) : ℝ :=
  let g := gradV tdim K dphi i
  let dvn := loop bs (fun j s => s + g j * n j) 0
  let s : ℝ := 0
  let s := if l = j then s + mu * dvn else s
  s + (lam * g j * n l + mu * n j * g l)

/-- `elasticity.cpp:91-101`: entry `sig_n_u[i]` of `compute_sigma_n_u`, zero before the call (all
callers fill with zero). -/
def sigmaNU (gdim : ℕ) (gradU n : ℕ → ℝ) (mu lam : ℝ) (i : ℕ) : ℝ :=
  loop gdim (fun j s => s + (mu * (gradU (j * gdim + i) + gradU (i * gdim + j)) * n j
    + lam * gradU (j * gdim + j) * n i)) 0

/-- `elasticity.cpp:103-139`: entry `sig_n_opp(i, j, k, l)` of `compute_sigma_n_opp`. -/
def sigmaNOpp (nd gdim nq q : ℕ) (gradV n : ℕ → ℝ) (mu lam : ℝ) (i j k l : ℕ) : ℝ :=
  let offset := i * nq * nd * gdim + j * nq * gdim + q * gdim
  let dvn := loop gdim (fun k s => s + gradV (offset + k) * n k) 0
  let s : ℝ := 0
  let s := if l = k then s + mu * dvn else s
  s + (lam * gradV (offset + k) * n l + mu * n k * gradV (offset + l))

/-- `elasticity.cpp:141-165` `compute_contact_forces`. -/
def contactForces (gradU nx : ℕ → ℝ) (nq nf gdim : ℕ) (mu lam : ℝ) : Arr ℕ :=
  loop nf (fun f => loop nq (fun q =>
    let fOffset := nq * gdim * f
    let sig := sigmaNU gdim (fun m => gradU (fOffset * gdim + q * gdim * gdim + m))
      (fun m => nx (fOffset + q * gdim + m)) mu lam
    loop gdim (fun j (sign : Arr ℕ) => sign.put (f * nq * gdim + q * gdim + j) (sig j))))
    (fun _ => 0)

end

end Verif.Elasticity
