import Verif.Model.ContactKernels

/-!
`cpp/rigid_surface_kernels.cpp`: contact with a rigid surface.  Scalar accumulators are written as
finite sums; the updates of the result arrays are kept as the loop nest of the source.
-/

namespace Verif.Kernels

open Verif.Elasticity Verif.Scalars Finset

noncomputable section

/-- `rigid_surface_kernels.cpp:39-45`. -/
def rigidStrides (D : KD) : List ℕ :=
  [1, 1, 1, D.gdim * D.nq, D.gdim * D.nq, D.gdim * D.gdim * D.nq, D.gdim * D.nq]

/-- `kd.offsets(i)`. -/
def rOff (D : KD) (i : ℕ) : ℕ := offsets (rigidStrides D) i

/-- `rigid_surface_kernels.cpp:110-123`, `157-169` (and `271-284`, `319-331`): `n_surf[i]`. -/
def rN (D : KD) (cn : Bool) (c w : ℕ → ℝ) (q i : ℕ) : ℝ :=
  if cn then -w (i + 2) else -c (rOff D 6 + q * D.gdim + i)

/-- `rigid_surface_kernels.cpp:96`, `99-106`: the array `n_phys` before the quadrature loop: the
facet normal for affine cells, otherwise the uninitialised stack memory `junk`. -/
def rNPhys0 (D : KD) (junk : ℕ → ℝ) : ℕ → ℝ := if D.affine then D.nPhys 0 else junk

/-- `rigid_surface_kernels.cpp:120`, `167`, `282`, `329`: `n_dot`. -/
def rNDot (D : KD) (cn : Bool) (junk c w : ℕ → ℝ) (q : ℕ) : ℝ :=
  if cn then ∑ i ∈ range D.gdim, rNPhys0 D junk i * rN D cn c w q i
  else ∑ i ∈ range D.gdim, D.nPhys q i * rN D cn c w q i

/-- `rigid_surface_kernels.cpp:171-174`, `333-336`: `gap`. -/
def rGap (D : KD) (cn : Bool) (c w : ℕ → ℝ) (q : ℕ) : ℝ :=
  ∑ i ∈ range D.gdim, c (rOff D 3 + q * D.gdim + i) * rN D cn c w q i

/-- `rigid_surface_kernels.cpp:180-183`, `342-345`: `sig_n_u[j]`. -/
def rSigU (D : KD) (c : ℕ → ℝ) (q j : ℕ) : ℝ :=
  sigmaNU D.gdim (fun m => c (rOff D 5 + q * D.gdim * D.gdim + m)) (D.nPhys q) (c 0) (c 1) j

/-- `rigid_surface_kernels.cpp:190`, `352`: `sign_u`. -/
def rSignU (D : KD) (cn : Bool) (c w : ℕ → ℝ) (q : ℕ) : ℝ :=
  ∑ j ∈ range D.gdim, rSigU D c q j * rN D cn c w q j

/-- `rigid_surface_kernels.cpp:191`, `353`: `u_dot_nsurf`. -/
def rUn (D : KD) (cn : Bool) (c w : ℕ → ℝ) (q : ℕ) : ℝ :=
  ∑ j ∈ range D.gdim, c (rOff D 4 + D.gdim * q + j) * rN D cn c w q j

/-- `rigid_surface_kernels.cpp:202`, `362`, `374`: `sign_v` (`sign_du`) of a basis function. -/
def rSignV (D : KD) (cn : Bool) (junk c w : ℕ → ℝ) (q i n : ℕ) : ℝ :=
  c 1 * strainTrace D.tdim (D.K q) (D.dph q) i n * rNDot D cn junk c w q
    + c 0 * normalStrain D.tdim D.gdim (D.K q) (D.dph q) (rN D cn c w q) (D.nPhys q) i n

/-- `rigid_surface_kernels.cpp:126`, `287`: `gamma`. -/
def rGam (c w : ℕ → ℝ) : ℝ := w 0 / c 2

/-- `rigid_surface_kernels.cpp:127`, `288`: `gamma_inv`. -/
def rGamInv (c w : ℕ → ℝ) : ℝ := c 2 / w 0

/-- `rigid_surface_kernels.cpp:152`, `195`, `357`: `detJ * weights[q]`. -/
def rW0 (D : KD) (q : ℕ) : ℝ := |D.det (D.at q)| * D.weights q

/-- `rigid_surface_kernels.cpp:146-209`: body of the quadrature loop of `nitsche_rigid_rhs`. -/
def rigidRhsPoint (D : KD) (cn : Bool) (junk c w : ℕ → ℝ) (q : ℕ) : Arr (ℕ × ℕ) → Arr (ℕ × ℕ) :=
  let gamma := rGam c w
  let gammaInv := rGamInv c w
  let theta := w 1
  let r := rMinus (gammaInv * rSignU D cn c w q + (rGap D cn c w q - rUn D cn c w q)) * rW0 D q
  let su := rSignU D cn c w q * rW0 D q
  loop D.nd (fun j => loop D.bs (fun l b =>
    let sv := rSignV D cn junk c w q j l
    let vn := rN D cn c w q l * D.ph q j
    b.acc (0, l + j * D.bs) (-theta * gammaInv * sv * su + r * (theta * sv - gamma * vn))))

/-- `rigid_surface_kernels.cpp:68-210` `nitsche_rigid_rhs`. -/
def rigidRhs (D : KD) (cn : Bool) (junk c w : ℕ → ℝ) : Arr (ℕ × ℕ) → Arr (ℕ × ℕ) :=
  forEach (List.range D.nq) (rigidRhsPoint D cn junk c w)

/-- `rigid_surface_kernels.cpp:308-381`: body of the quadrature loop of `nitsche_rigid_jacobian`. -/
def rigidJacPoint (D : KD) (cn : Bool) (junk c w : ℕ → ℝ) (q : ℕ) : Arr (ℕ × ℕ) → Arr (ℕ × ℕ) :=
  let gamma := rGam c w
  let gammaInv := rGamInv c w
  let theta := w 1
  let pnU := dRMinus (rSignU D cn c w q + gamma * (rGap D cn c w q - rUn D cn c w q))
  let w0 := rW0 D q
  loop D.nd (fun j => loop D.bs (fun l =>
    let pnDu := (gammaInv * rSignV D cn junk c w q j l - rN D cn c w q l * D.ph q j) * pnU * w0
    let sdu := rSignV D cn junk c w q j l * w0
    loop D.nd (fun i => loop D.bs (fun b A =>
      let vn := rN D cn c w q b * D.ph q i
      let sv := rSignV D cn junk c w q i b
      A.acc (0, mIdx D i b j l)
        (-theta * gammaInv * sdu * sv + pnDu * (theta * sv - gamma * vn))))))

/-- `rigid_surface_kernels.cpp:230-382` `nitsche_rigid_jacobian`. -/
def rigidJac (D : KD) (cn : Bool) (junk c w : ℕ → ℝ) : Arr (ℕ × ℕ) → Arr (ℕ × ℕ) :=
  forEach (List.range D.nq) (rigidJacPoint D cn junk c w)

end

end Verif.Kernels
