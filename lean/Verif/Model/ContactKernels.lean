import Verif.Model.Elasticity
import Verif.Model.Scalars

/-!
`cpp/contact_kernels.cpp` (the six unbiased contact kernels) and the parts of
`cpp/KernelData.{h,cpp}` they use.

Scalar accumulators (`double x = 0; for (j) x += e;`) are written as finite sums.  Everything that
writes into the result arrays is kept as the loop nest of the source.  The code that evaluates one
quadrature point is repeated literally in the six kernels; it is modelled once and the comments cite
all copies.
-/

namespace Verif.Kernels

open Verif.Elasticity Verif.Scalars Finset

noncomputable section

/-- `KernelData.cpp:66-70`: `_offsets[i]`, the partial sums of the strides. -/
def offsets (cstrides : List ℕ) (i : ℕ) : ℕ := (cstrides.take i).sum

/-- What `KernelData` provides for one facet (`KernelData.h`), plus `max_links`. `inv r`, `det r`
are the results of `compute_facet_jacobian` (`utils.cpp:585-607`: inverse Jacobian of the cell and
absolute facet determinant) at tabulated point `r`; they are library functions of the coordinates.
Simplification: every facet has the same number `nq` of points (the code's own restriction,
`contact_kernels.cpp:19-21`; prisms are rejected). -/
structure KD where
  gdim : ℕ
  tdim : ℕ
  nd : ℕ
  bs : ℕ
  maxLinks : ℕ
  nq : ℕ
  affine : Bool
  /-- `qp_offsets(facet_index)` -/
  qStart : ℕ
  inv : ℕ → ℕ → ℕ → ℝ
  det : ℕ → ℝ
  /-- row `facet_index` of `facet_normals()` -/
  nref : ℕ → ℝ
  phi : ℕ → ℕ → ℝ
  /-- `dphi(k, r, i)` -/
  dphi : ℕ → ℕ → ℕ → ℝ
  /-- `weights(facet_index)[q]` -/
  weights : ℕ → ℝ

/-- The tabulated point whose Jacobian is in use at quadrature point `q`: affine cells compute it
once at the first point of the facet (`KernelData.cpp:90-107`, `utils.cpp:618-629`), others update
it at every point (`KernelData.h:134-153`, `utils.cpp:631-647`, `664-677`). -/
def KD.at (D : KD) (q : ℕ) : ℕ := if D.affine then D.qStart else D.qStart + q

/-- `K` at quadrature point `q`. -/
def KD.K (D : KD) (q : ℕ) : ℕ → ℕ → ℝ := D.inv (D.at q)

/-- `n_phys` at quadrature point `q` (`contact_kernels.cpp:97-100`, `137`). -/
def KD.nPhys (D : KD) (q : ℕ) : ℕ → ℝ := physicalFacetNormal D.gdim D.tdim (D.K q) D.nref

/-- `const double w0 = weights[q] * detJ` (`contact_kernels.cpp:171`, `320`, `502`, `687`, `932`,
`1133`). -/
def KD.w0 (D : KD) (q : ℕ) : ℝ := D.weights q * D.det (D.at q)

/-- `phi(q_pos, i)`. -/
def KD.ph (D : KD) (q i : ℕ) : ℝ := D.phi (D.qStart + q) i

/-- `dphi(k, q_pos, i)`. -/
def KD.dph (D : KD) (q k i : ℕ) : ℝ := D.dphi k (D.qStart + q) i

/-- `contact_kernels.cpp:36-44`. -/
def KD.cstrides (D : KD) : List ℕ :=
  [4, D.nq * D.gdim, D.nq * D.gdim, D.nq * D.nd * D.bs * D.maxLinks, D.nq * D.gdim,
    D.nq * D.gdim * D.gdim, D.nq * D.bs, D.nq * D.gdim]

/-- `kd.offsets(i)`. -/
def KD.off (D : KD) (i : ℕ) : ℕ := offsets D.cstrides i

/-- `contact_kernels.cpp:145`, `291`, `467`, `648`, `888`, `1081`: `n_surf[i]`. -/
def nSurf (D : KD) (c : ℕ → ℝ) (q i : ℕ) : ℝ := -c (D.off 2 + q * D.gdim + i)

/-- `contact_kernels.cpp:889`, `1082`: `n_old[i]`. -/
def nOld (D : KD) (c : ℕ → ℝ) (q i : ℕ) : ℝ := -c (D.off 7 + q * D.gdim + i)

/-- `contact_kernels.cpp:146` (and copies): `n_dot`. -/
def nDot (D : KD) (c : ℕ → ℝ) (q : ℕ) : ℝ := ∑ i ∈ range D.gdim, D.nPhys q i * nSurf D c q i

/-- `contact_kernels.cpp:147` (and copies): `gap`. -/
def gap (D : KD) (c : ℕ → ℝ) (q : ℕ) : ℝ :=
  ∑ i ∈ range D.gdim, c (D.off 1 + q * D.gdim + i) * nSurf D c q i

/-- `contact_kernels.cpp:150-151` (and copies): `tr(i, n)`. -/
def trB (D : KD) (q i n : ℕ) : ℝ := strainTrace D.tdim (D.K q) (D.dph q) i n

/-- `contact_kernels.cpp:150-151` (and copies): `epsn(i, n)`. -/
def epsB (D : KD) (c : ℕ → ℝ) (q i n : ℕ) : ℝ :=
  normalStrain D.tdim D.gdim (D.K q) (D.dph q) (nSurf D c q) (D.nPhys q) i n

/-- `contact_kernels.cpp:154-157` (and copies): `sig_n_u[i]`. -/
def sigU (D : KD) (c : ℕ → ℝ) (q i : ℕ) : ℝ :=
  sigmaNU D.gdim (fun m => c (D.off 5 + q * D.gdim * D.gdim + m)) (D.nPhys q) (c 0) (c 1) i

/-- `contact_kernels.cpp:481-482`, `662-663`, `903-904`, `1096-1097`: `sig_n(i, n, j)`. -/
def sigB (D : KD) (c : ℕ → ℝ) (q i n j : ℕ) : ℝ :=
  sigmaNBasis D.tdim D.gdim (D.K q) (D.dph q) (D.nPhys q) (c 0) (c 1) i n j

/-- `contact_kernels.cpp:164` (and copies): `sign_u`. -/
def signU (D : KD) (c : ℕ → ℝ) (q : ℕ) : ℝ := ∑ j ∈ range D.gdim, sigU D c q j * nSurf D c q j

/-- `contact_kernels.cpp:165-169` (and copies): `jump_un`. -/
def jumpN (D : KD) (c : ℕ → ℝ) (q : ℕ) : ℝ :=
  ∑ j ∈ range D.gdim, c (D.off 4 + D.gdim * q + j) * nSurf D c q j
    + ∑ j ∈ range D.bs, -c (D.off 6 + q * D.bs + j) * nSurf D c q j

/-- `contact_kernels.cpp:180` (and copies): `sign_v` of the basis function `(i, n)`. -/
def signV (D : KD) (c : ℕ → ℝ) (q i n : ℕ) : ℝ :=
  c 1 * trB D q i n * nDot D c q + c 0 * epsB D c q i n

/-- `contact_kernels.cpp:104`: `gamma = c[3] / w[0]`. -/
def gam (c w : ℕ → ℝ) : ℝ := c 3 / w 0

/-- `contact_kernels.cpp:105`: `gamma_inv = w[0] / c[3]`. -/
def gamInv (c w : ℕ → ℝ) : ℝ := w 0 / c 3

/-- `contact_kernels.cpp:188-189`, `344-346`, `350-351` (and copies): coefficient index of the test
function `(k, i, n)` of a linked cell at point `q`. -/
def tIdx (D : KD) (q k i n : ℕ) : ℕ :=
  D.off 3 + k * D.nq * D.nd * D.bs + i * D.nq * D.bs + q * D.bs + n

/-- Flat matrix index `(b + i * bs) * ndofs_cell * bs + l + j * bs`. -/
def mIdx (D : KD) (i b j l : ℕ) : ℕ := (b + i * D.bs) * D.nd * D.bs + l + j * D.bs

/-! ### frictionless contact -/

/-- `contact_kernels.cpp:171-195`: body of the quadrature loop of `unbiased_rhs`. -/
def unbiasedRhsPoint (D : KD) (c w : ℕ → ℝ) (links q : ℕ) : Arr (ℕ × ℕ) → Arr (ℕ × ℕ) :=
  let gamma := gam c w
  let gammaInv := gamInv c w
  let theta := w 1
  let su := signU D c q
  let w0 := D.w0 q
  let pnU := rPlus ((jumpN D c q - gap D c q) - gamma * su) * w0
  loop D.nd (fun i => loop D.bs (fun n b =>
    let vn := nSurf D c q n * D.ph q i
    let sv := signV D c q i n
    let pnV := vn - gamma * theta * sv
    let b := b.acc (0, n + i * D.bs) (0.5 * gammaInv * pnU * pnV)
    let b := b.acc (0, n + i * D.bs) (-(0.5 * theta * gamma * su * sv * w0))
    loop links (fun k b =>
      let vnOpp := c (tIdx D q k i n) * nSurf D c q n
      b.acc (k + 1, n + i * D.bs) (-(0.5 * gammaInv * vnOpp * pnU))) b))

/-- `contact_kernels.cpp:63-197` `unbiased_rhs`. -/
def unbiasedRhs (D : KD) (c w : ℕ → ℝ) (links : ℕ) (qs : List ℕ) : Arr (ℕ × ℕ) → Arr (ℕ × ℕ) :=
  forEach qs (unbiasedRhsPoint D c w links)

/-- `contact_kernels.cpp:317-363`: body of the quadrature loop of `unbiased_jac`. -/
def unbiasedJacPoint (D : KD) (c w : ℕ → ℝ) (links q : ℕ) : Arr (ℕ × ℕ) → Arr (ℕ × ℕ) :=
  let gamma := gam c w
  let gammaInv := gamInv c w
  let theta := w 1
  let pnU := dRPlus ((jumpN D c q - gap D c q) - gamma * signU D c q)
  let w0 := D.w0 q
  loop D.nd (fun j => loop D.bs (fun l =>
    let sdu := signV D c q j l
    let pnDu := (D.ph q j * nSurf D c q l - gamma * sdu) * pnU * w0
    let sdu := sdu * w0
    loop D.nd (fun i => loop D.bs (fun b A =>
      let vn := nSurf D c q b * D.ph q i
      let sv := signV D c q i b
      let pnV := vn - gamma * theta * sv
      let A := A.acc (0, mIdx D i b j l)
        (0.5 * gammaInv * pnDu * pnV - 0.5 * theta * gamma * sdu * sv)
      loop links (fun k A =>
        let duOpp := c (tIdx D q k j l) * nSurf D c q l
        let duOpp := duOpp * (w0 * pnU)
        let vnOpp := c (tIdx D q k i b) * nSurf D c q b
        let A := Arr.acc A (3 * k + 1, mIdx D i b j l) (-(0.5 * gammaInv * duOpp * pnV))
        let A := A.acc (3 * k + 2, mIdx D i b j l) (-(0.5 * gammaInv * pnDu * vnOpp))
        A.acc (3 * k + 3, mIdx D i b j l) (0.5 * gammaInv * duOpp * vnOpp)) A))))

/-- `contact_kernels.cpp:215-365` `unbiased_jac`. -/
def unbiasedJac (D : KD) (c w : ℕ → ℝ) (links : ℕ) (qs : List ℕ) : Arr (ℕ × ℕ) → Arr (ℕ × ℕ) :=
  forEach qs (unbiasedJacPoint D c w links)

/-! ### friction -/

/-- A `std::array<double, 3>` initialised with zeros of which the first `bs` entries are set. -/
def vec3 (bs : ℕ) (x : ℕ → ℝ) : Vec3 := fun j => if (j : ℕ) < bs then x j else 0

/-- `contact_kernels.cpp:522`, `724` (and copies): tangential part of the traction of a basis
function, `sig_n(i, n, j) - sign_v * n_surf[j]`. -/
def sigT (D : KD) (c : ℕ → ℝ) (q i n j : ℕ) : ℝ := sigB D c q i n j - signV D c q i n * nSurf D c q j

/-- `contact_kernels.cpp:496-501`, `676-681`: `Pt_u[j]`, Tresca. -/
def ptU (D : KD) (c w : ℕ → ℝ) (q j : ℕ) : ℝ :=
  (c (D.off 4 + D.gdim * q + j) - c (D.off 6 + q * D.bs + j) - jumpN D c q * nSurf D c q j)
    - gam c w * (sigU D c q j - signU D c q * nSurf D c q j)

/-- `contact_kernels.cpp:914`, `1107`: `ndotn`. -/
def nDotN (D : KD) (c : ℕ → ℝ) (q : ℕ) : ℝ := ∑ j ∈ range D.gdim, nSurf D c q j * nOld D c q j

/-- `contact_kernels.cpp:921-926`, `1114-1119`: `v_rel[j]`. -/
def vRel (D : KD) (c : ℕ → ℝ) (q j : ℕ) : ℝ :=
  c (D.off 4 + D.gdim * q + j) - c (D.off 6 + q * D.bs + j) - jumpN D c q * nSurf D c q j
    - (gap D c q - jumpN D c q) * (nOld D c q j - nDotN D c q * nSurf D c q j)

/-- `contact_kernels.cpp:928-931`, `1121-1122`: `Pt_u[j]`, Coulomb. -/
def ptUc (D : KD) (c w : ℕ → ℝ) (q j : ℕ) : ℝ :=
  vRel D c q j - gam c w * (sigU D c q j - signU D c q * nSurf D c q j)

/-- `contact_kernels.cpp:506-548` and `936-978`: the part of the quadrature loop of `tresca_rhs` and
`coulomb_rhs` after the projection `proj = Pt_u_proj` (identical code). -/
def frictionRhsFill (D : KD) (c w : ℕ → ℝ) (links q : ℕ) (proj : ℕ → ℝ) :
    Arr (ℕ × ℕ) → Arr (ℕ × ℕ) :=
  let gamma := gam c w
  let gammaInv := gamInv c w
  let theta := w 1
  let w0 := D.w0 q
  loop D.nd (fun i => loop D.bs (fun n b =>
    let vn := nSurf D c q n * D.ph q i
    let sv := signV D c q i n
    let b := b.acc (0, n + i * D.bs) (0.5 * gammaInv * proj n * D.ph q i * w0)
    let b := loop D.bs (fun j b =>
      let ptVj := -vn * nSurf D c q j - theta * gamma * (sigB D c q i n j - sv * nSurf D c q j)
      Arr.acc b (0, n + i * D.bs) (0.5 * gammaInv * proj j * ptVj * w0
        - 0.5 * w0 * gamma * theta * (sigU D c q j - signU D c q * nSurf D c q j)
          * (sigB D c q i n j - sv * nSurf D c q j))) b
    loop links (fun k b =>
      let vnOpp := c (tIdx D q k i n) * nSurf D c q n
      let b := Arr.acc b (k + 1, n + i * D.bs)
        (-(0.5 * gammaInv * proj n * c (tIdx D q k i n) * w0))
      loop D.bs (fun j b =>
        Arr.acc b (k + 1, n + i * D.bs) (0.5 * gammaInv * proj j * vnOpp * nSurf D c q j * w0)) b) b))

/-- `contact_kernels.cpp:451-549`: body of the quadrature loop of `tresca_rhs`. -/
def trescaRhsPoint (D : KD) (c w : ℕ → ℝ) (links q : ℕ) : Arr (ℕ × ℕ) → Arr (ℕ × ℕ) :=
  let proj := ballProjection (vec3 D.bs (ptU D c w q)) (gam c w * c 2)
  frictionRhsFill D c w links q (at3 proj)

/-- `contact_kernels.cpp:381-550` `tresca_rhs`. -/
def trescaRhs (D : KD) (c w : ℕ → ℝ) (links : ℕ) (qs : List ℕ) : Arr (ℕ × ℕ) → Arr (ℕ × ℕ) :=
  forEach qs (trescaRhsPoint D c w links)

/-- `contact_kernels.cpp:872-979`: body of the quadrature loop of `coulomb_rhs`. -/
def coulombRhsPoint (D : KD) (c w : ℕ → ℝ) (links q : ℕ) : Arr (ℕ × ℕ) → Arr (ℕ × ℕ) :=
  let pnU := rPlus ((jumpN D c q - gap D c q) - gam c w * signU D c q)
  let proj := ballProjection (vec3 D.bs (ptUc D c w q)) (c 2 * pnU)
  frictionRhsFill D c w links q (at3 proj)

/-- `contact_kernels.cpp:799-980` `coulomb_rhs`. -/
def coulombRhs (D : KD) (c w : ℕ → ℝ) (links : ℕ) (qs : List ℕ) : Arr (ℕ × ℕ) → Arr (ℕ × ℕ) :=
  forEach qs (coulombRhsPoint D c w links)

/-- `contact_kernels.cpp:633-782`: body of the quadrature loop of `tresca_jac`. -/
def trescaJacPoint (D : KD) (c w : ℕ → ℝ) (links q : ℕ) : Arr (ℕ × ℕ) → Arr (ℕ × ℕ) :=
  let gamma := gam c w
  let gammaInv := gamInv c w
  let theta := w 1
  let w0 := D.w0 q
  let bs := D.bs
  let ns := nSurf D c q
  let P := dBallProjection (vec3 bs (ptU D c w q)) (gamma * c 2) bs
  loop D.nd (fun j => loop bs (fun l =>
    let wn := ns l * D.ph q j
    let sw := signV D c q j l
    let ptW : ℕ → ℝ := fun m => P (l * bs + m) * D.ph q j
      - ∑ n ∈ range bs, P (n * bs + m) * (wn * ns n + gamma * (sigB D c q j l n - sw * ns n))
    loop D.nd (fun i => loop bs (fun b A =>
      let vn := ns b * D.ph q i
      let sv := signV D c q i b
      let ptV : ℕ → ℝ := fun n => -vn * ns n - theta * gamma * (sigB D c q i b n - sv * ns n)
      let A := A.acc (0, mIdx D i b j l) (0.5 * gammaInv * ptW b * D.ph q i * w0)
      let A := loop bs (fun n A =>
        Arr.acc A (0, mIdx D i b j l) (0.5 * gammaInv * ptW n * ptV n * w0
          - 0.5 * gamma * theta * w0 * (sigB D c q i b n - sv * ns n)
            * (sigB D c q j l n - sw * ns n))) A
      loop links (fun k A =>
        let cw := c (tIdx D q k j l)
        let wnOpp := cw * ns l
        let ptWOpp : ℕ → ℝ := fun m => P (l * bs + m) * cw
          - ∑ n ∈ range bs, P (n * bs + m) * wnOpp * ns n
        let cv := c (tIdx D q k i b)
        let vnOpp := cv * ns b
        let A := Arr.acc A (3 * k + 1, mIdx D i b j l) (-(0.5 * gammaInv * ptWOpp b * D.ph q i * w0))
        let A := A.acc (3 * k + 2, mIdx D i b j l) (-(0.5 * gammaInv * ptW b * cv * w0))
        let A := A.acc (3 * k + 3, mIdx D i b j l) (0.5 * gammaInv * ptWOpp b * cv * w0)
        loop bs (fun n A =>
          let A := Arr.acc A (3 * k + 1, mIdx D i b j l) (-(0.5 * gammaInv * ptWOpp n * ptV n * w0))
          let A := A.acc (3 * k + 2, mIdx D i b j l) (0.5 * gammaInv * ptW n * ns n * vnOpp * w0)
          A.acc (3 * k + 3, mIdx D i b j l) (-(0.5 * gammaInv * ptWOpp n * ns n * vnOpp))) A) A))))

/-- `contact_kernels.cpp:568-783` `tresca_jac`. -/
def trescaJac (D : KD) (c w : ℕ → ℝ) (links : ℕ) (qs : List ℕ) : Arr (ℕ × ℕ) → Arr (ℕ × ℕ) :=
  forEach qs (trescaJacPoint D c w links)

/-- `contact_kernels.cpp:1065-1263`: body of the quadrature loop of `coulomb_jac`. -/
def coulombJacPoint (D : KD) (c w : ℕ → ℝ) (links q : ℕ) : Arr (ℕ × ℕ) → Arr (ℕ × ℕ) :=
  let gamma := gam c w
  let gammaInv := gamInv c w
  let theta := w 1
  let w0 := D.w0 q
  let bs := D.bs
  let ns := nSurf D c q
  let arg := (jumpN D c q - gap D c q) - gamma * signU D c q
  let pnU := rPlus arg
  let P := dBallProjection (vec3 bs (ptUc D c w q)) (c 2 * pnU) bs
  let dAlpha := dRPlus arg * c 2
  let dAB := at3 (dAlphaBallProjection (vec3 bs (ptUc D c w q)) (c 2 * pnU) dAlpha)
  let nt : ℕ → ℝ := fun n => ns n - nOld D c q n + nDotN D c q * ns n
  loop D.nd (fun j => loop bs (fun l =>
    let wn := ns l * D.ph q j
    let sw := signV D c q j l
    let ptW : ℕ → ℝ := fun m => P (l * bs + m) * D.ph q j
      - ∑ n ∈ range bs, P (n * bs + m) * (wn * nt n + gamma * (sigB D c q j l n - sw * ns n))
    let pnW := D.ph q j * ns l - gamma * sw
    loop D.nd (fun i => loop bs (fun b A =>
      let vn := ns b * D.ph q i
      let sv := signV D c q i b
      let ptV : ℕ → ℝ := fun n => -vn * ns n - theta * gamma * (sigB D c q i b n - sv * ns n)
      let A := A.acc (0, mIdx D i b j l) (0.5 * gammaInv * ptW b * D.ph q i * w0)
      let A := A.acc (0, mIdx D i b j l) (0.5 * gammaInv * dAB b * pnW * D.ph q i * w0)
      let A := loop bs (fun n A =>
        let A := Arr.acc A (0, mIdx D i b j l) (0.5 * gammaInv * ptW n * ptV n * w0)
        A.acc (0, mIdx D i b j l) (0.5 * gammaInv * dAB n * pnW * ptV n * w0
          - 0.5 * gamma * theta * w0 * (sigB D c q i b n - sv * ns n)
            * (sigB D c q j l n - sw * ns n))) A
      loop links (fun k A =>
        let cw := c (tIdx D q k j l)
        let wnOpp := cw * ns l
        let ptWOpp : ℕ → ℝ := fun m => P (l * bs + m) * cw
          - ∑ n ∈ range bs, P (n * bs + m) * nt n * wnOpp
        let cv := c (tIdx D q k i b)
        let vnOpp := cv * ns b
        let A := Arr.acc A (3 * k + 1, mIdx D i b j l) (-(0.5 * gammaInv * ptWOpp b * D.ph q i * w0))
        let A := A.acc (3 * k + 1, mIdx D i b j l) (-(0.5 * gammaInv * dAB b * wnOpp * D.ph q i * w0))
        let A := A.acc (3 * k + 2, mIdx D i b j l) (-(0.5 * gammaInv * ptW b * cv * w0))
        let A := A.acc (3 * k + 2, mIdx D i b j l) (-(0.5 * gammaInv * dAB b * pnW * cv * w0))
        let A := A.acc (3 * k + 3, mIdx D i b j l) (0.5 * gammaInv * ptWOpp b * cv * w0)
        let A := A.acc (3 * k + 3, mIdx D i b j l) (0.5 * gammaInv * dAB b * wnOpp * cv * w0)
        loop bs (fun n A =>
          let A := Arr.acc A (3 * k + 1, mIdx D i b j l) (-(0.5 * gammaInv * ptWOpp n * ptV n * w0))
          let A := A.acc (3 * k + 1, mIdx D i b j l) (-(0.5 * gammaInv * dAB n * wnOpp * ptV n * w0))
          let A := A.acc (3 * k + 2, mIdx D i b j l) (0.5 * gammaInv * ptW n * ns n * vnOpp * w0)
          let A := A.acc (3 * k + 2, mIdx D i b j l)
            (0.5 * gammaInv * dAB n * pnW * ns n * vnOpp * w0)
          let A := A.acc (3 * k + 3, mIdx D i b j l) (-(0.5 * gammaInv * ptWOpp n * ns n * vnOpp))
          A.acc (3 * k + 3, mIdx D i b j l)
            (-(0.5 * gammaInv * dAB n * wnOpp * ns n * vnOpp))) A) A))))

/-- `contact_kernels.cpp:998-1264` `coulomb_jac`. -/
def coulombJac (D : KD) (c w : ℕ → ℝ) (links : ℕ) (qs : List ℕ) : Arr (ℕ × ℕ) → Arr (ℕ × ℕ) :=
  forEach qs (coulombJacPoint D c w links)

end

end Verif.Kernels
