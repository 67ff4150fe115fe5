import Verif.Model.ContactKernels

/-!
`cpp/meshtie_kernels.cpp`.  The offsets `o i = kd.offsets(i)` come from the strides passed by
`MeshTie` (`cpp/MeshTie.cpp:137-149`, `400-407`).  Scalar accumulators are written as finite sums;
everything that writes into the result arrays is kept as the loop nest of the source.
-/

namespace Verif.Kernels

open Verif.Elasticity Finset

noncomputable section

/-- `MeshTie.cpp:137-144` and, for thermo-elasticity, `146-149`: strides of a coefficient row. -/
def tieStrides (D : KD) (thermo : Bool) : List ℕ :=
  let A := D.nq * D.nd * D.bs * D.maxLinks
  [if thermo then 4 else 3, A, A, D.nq * D.gdim, D.nq * D.gdim * D.gdim, D.nq * D.bs,
    D.nq * D.gdim * D.bs] ++ (if thermo then [D.nq, D.nq] else [])

/-- `MeshTie.cpp:400-407`. -/
def poissonStrides (D : KD) : List ℕ :=
  [2, D.nq * D.nd * D.maxLinks, D.nq * D.nd * D.gdim * D.maxLinks, D.nq, D.nq * D.gdim, D.nq,
    D.nq * D.gdim]

/-- `meshtie_kernels.cpp:137`, `357`: `w0 = 0.5 * weights[q] * detJ`. -/
def tieW0 (D : KD) (q : ℕ) : ℝ := 0.5 * D.weights q * D.det (D.at q)

/-- `meshtie_kernels.cpp:86`, `321`: `gamma = w[0] / c[2]`. -/
def tieGam (c w : ℕ → ℝ) : ℝ := w 0 / c 2

/-- `meshtie_kernels.cpp:152-153`, `259-260`, `374-379`, `405-410`: index of the test function
`(k, i, n)` of a linked cell. -/
def tieIdx (D : KD) (o : ℕ → ℕ) (q k i n : ℕ) : ℕ :=
  o 1 + k * D.nq * D.nd * D.bs + i * D.nq * D.bs + q * D.bs + n

/-- `meshtie_kernels.cpp:116-118`, `352-354`: `sig_n_opp(k, i, n, g)`. -/
def tieSigOpp (D : KD) (o : ℕ → ℕ) (c : ℕ → ℝ) (q k i n g : ℕ) : ℝ :=
  sigmaNOpp D.nd D.gdim D.nq q (fun m => c (o 2 + m)) (D.nPhys q) (c 0) (c 1) k i n g

/-- `meshtie_kernels.cpp:121-128`: `sig_n_u[n]`, filled with zero, then two accumulating calls. -/
def tieSigU (D : KD) (o : ℕ → ℕ) (c : ℕ → ℝ) (q n : ℕ) : ℝ :=
  sigmaNU D.gdim (fun m => c (o 4 + q * D.gdim * D.gdim + m)) (D.nPhys q) (c 0) (c 1) n
    + sigmaNU D.gdim (fun m => c (o 6 + q * D.gdim * D.gdim + m)) (D.nPhys q) (c 0) (c 1) n

/-- `meshtie_kernels.cpp:131-134`: `jump_u[j]`. -/
def tieJump (D : KD) (o : ℕ → ℕ) (c : ℕ → ℝ) (q j : ℕ) : ℝ :=
  c (o 3 + q * D.bs + j) - c (o 5 + q * D.bs + j)

/-- `meshtie_kernels.cpp:104-166`: body of the quadrature loop of `meshtie_rhs`. -/
def tieRhsPoint (D : KD) (o : ℕ → ℕ) (c w : ℕ → ℝ) (links q : ℕ) : Arr (ℕ × ℕ) → Arr (ℕ × ℕ) :=
  let gamma := tieGam c w
  let theta := w 1
  let w0 := tieW0 D q
  let su := tieSigU D o c q
  let ju := tieJump D o c q
  loop D.nd (fun i => loop D.bs (fun n b =>
    let b := b.acc (0, n + i * D.bs) ((-0.5 * su n + gamma * ju n) * D.ph q i * w0)
    let b := loop D.gdim (fun g b =>
      Arr.acc b (0, n + i * D.bs) (-0.5 * theta * sigB D c q i n g * ju g * w0)) b
    loop links (fun k b =>
      let b := Arr.acc b (k + 1, n + i * D.bs)
        ((0.5 * su n - gamma * ju n) * c (tieIdx D o q k i n) * w0)
      loop D.gdim (fun g b =>
        Arr.acc b (k + 1, n + i * D.bs) (-0.5 * theta * tieSigOpp D o c q k i n g * ju g * w0)) b) b))

/-- `meshtie_kernels.cpp:38-168` `meshtie_rhs`. -/
def tieRhs (D : KD) (o : ℕ → ℕ) (c w : ℕ → ℝ) (links : ℕ) (qs : List ℕ) :
    Arr (ℕ × ℕ) → Arr (ℕ × ℕ) :=
  forEach qs (tieRhsPoint D o c w links)

/-- `meshtie_kernels.cpp:232-267`: body of the quadrature loop of `meshtie_thermo_elastic`. -/
def thermoRhsPoint (D : KD) (o : ℕ → ℕ) (c : ℕ → ℝ) (links q : ℕ) :
    Arr (ℕ × ℕ) → Arr (ℕ × ℕ) :=
  let alpha := c 3 * (3 * c 1 + 2 * c 0)
  let w0 := tieW0 D q
  let avgT := 0.5 * (c (o 7 + q) + c (o 8 + q))
  loop D.nd (fun i => loop D.bs (fun n b =>
    let b := b.acc (0, n + i * D.bs) (alpha * avgT * D.nPhys q n * D.ph q i * w0)
    loop links (fun k b =>
      Arr.acc b (k + 1, n + i * D.bs)
        (-(alpha * avgT * D.nPhys q n * c (tieIdx D o q k i n) * w0))) b))

/-- `meshtie_kernels.cpp:181-269` `meshtie_thermo_elastic`. -/
def thermoRhs (D : KD) (o : ℕ → ℕ) (c : ℕ → ℝ) (links : ℕ) (qs : List ℕ) :
    Arr (ℕ × ℕ) → Arr (ℕ × ℕ) :=
  forEach qs (thermoRhsPoint D o c links)

/-- `meshtie_kernels.cpp:340-433`: body of the quadrature loop of `meshtie_jac`. The source writes
some of the indices as `(b + i * bs) * bs * ndofs_cell + ...`, the same number as `mIdx`. -/
def tieJacPoint (D : KD) (o : ℕ → ℕ) (c w : ℕ → ℝ) (links q : ℕ) : Arr (ℕ × ℕ) → Arr (ℕ × ℕ) :=
  let gamma := tieGam c w
  let theta := w 1
  let w0 := tieW0 D q
  loop D.nd (fun j => loop D.bs (fun l => loop D.nd (fun i A =>
    let A := A.acc (0, mIdx D i l j l) (gamma * D.ph q j * D.ph q i * w0)
    let A := loop links (fun k A =>
      let cu := c (tieIdx D o q k j l)
      let cv := c (tieIdx D o q k i l)
      let A := Arr.acc A (3 * k + 1, mIdx D i l j l) (-gamma * cu * D.ph q i * w0)
      let A := A.acc (3 * k + 2, mIdx D i l j l) (-gamma * D.ph q j * cv * w0)
      A.acc (3 * k + 3, mIdx D i l j l) (gamma * cu * cv * w0)) A
    loop D.bs (fun b A =>
      let A := Arr.acc A (0, mIdx D i b j l) ((-0.5 * sigB D c q j l b * D.ph q i
        - 0.5 * theta * sigB D c q i b l * D.ph q j) * w0)
      loop links (fun k A =>
        let cu := c (tieIdx D o q k j l)
        let cv := c (tieIdx D o q k i b)
        let A := Arr.acc A (3 * k + 1, mIdx D i b j l) ((-0.5 * tieSigOpp D o c q k j l b * D.ph q i
          + 0.5 * theta * sigB D c q i b l * cu) * w0)
        let A := A.acc (3 * k + 2, mIdx D i b j l) ((0.5 * sigB D c q j l b * cv
          - 0.5 * theta * tieSigOpp D o c q k i b l * D.ph q j) * w0)
        A.acc (3 * k + 3, mIdx D i b j l) ((0.5 * tieSigOpp D o c q k j l b * cv
          + 0.5 * theta * tieSigOpp D o c q k i b l * cu) * w0)) A) A)))

/-- `meshtie_kernels.cpp:283-434` `meshtie_jac`. -/
def tieJac (D : KD) (o : ℕ → ℕ) (c w : ℕ → ℝ) (links : ℕ) (qs : List ℕ) :
    Arr (ℕ × ℕ) → Arr (ℕ × ℕ) :=
  forEach qs (tieJacPoint D o c w links)

/-! ### Poisson -/

/-- `meshtie_kernels.cpp:561`, `679`: `w0 = 0.5 * weights[q] * detJ * kdt`. -/
def poisW0 (D : KD) (c : ℕ → ℝ) (q : ℕ) : ℝ := 0.5 * D.weights q * D.det (D.at q) * c 1

/-- `meshtie_kernels.cpp:568-571`, `683-686`, `691-694`: `grad_v_n`, `grad_w_n` of basis function
`i`. -/
def gradN (D : KD) (q i : ℕ) : ℝ :=
  ∑ j ∈ range D.gdim, ∑ k ∈ range D.tdim, D.K q k j * D.dph q k i * D.nPhys q j

/-- `meshtie_kernels.cpp:549-560`: `avg_grad_T_n`. -/
def avgGradN (D : KD) (o : ℕ → ℕ) (c : ℕ → ℝ) (q : ℕ) : ℝ :=
  ∑ j ∈ range D.gdim,
    0.5 * (c (o 4 + q * D.gdim + j) + c (o 6 + q * D.gdim + j)) * D.nPhys q j

/-- `meshtie_kernels.cpp:551`: `jump_T`. -/
def jumpT (o : ℕ → ℕ) (c : ℕ → ℝ) (q : ℕ) : ℝ := c (o 3 + q) - c (o 5 + q)

/-- `meshtie_kernels.cpp:581-582`, `705-708`: index of the test function `(k, i)`. -/
def poisIdx (D : KD) (o : ℕ → ℕ) (q k i : ℕ) : ℕ := o 1 + k * D.nq * D.nd + i * D.nq + q

/-- `meshtie_kernels.cpp:587-588`, `721-726`: index of the gradient of the test function `(k, i)`. -/
def poisGIdx (D : KD) (o : ℕ → ℕ) (q k i : ℕ) : ℕ :=
  o 2 + k * D.nq * D.nd * D.gdim + i * D.gdim * D.nq + q * D.gdim

/-- `meshtie_kernels.cpp:538-596`: body of the quadrature loop of `poisson_rhs`. -/
def poisRhsPoint (D : KD) (o : ℕ → ℕ) (c w : ℕ → ℝ) (links q : ℕ) : Arr (ℕ × ℕ) → Arr (ℕ × ℕ) :=
  let gamma := w 0 / c 0
  let theta := w 1
  let w0 := poisW0 D c q
  let avg := avgGradN D o c q
  let jT := jumpT o c q
  loop D.nd (fun i b =>
    let b := b.acc (0, i) ((-avg + gamma * jT) * D.ph q i * w0 - theta * 0.5 * gradN D q i * jT * w0)
    loop links (fun k b =>
      let b := Arr.acc b (k + 1, i) ((avg - gamma * jT) * c (poisIdx D o q k i) * w0)
      loop D.gdim (fun g b =>
        Arr.acc b (k + 1, i)
          (-0.5 * theta * c (poisGIdx D o q k i + g) * D.nPhys q g * jT * w0)) b) b)

/-- `meshtie_kernels.cpp:481-597` `poisson_rhs`. -/
def poisRhs (D : KD) (o : ℕ → ℕ) (c w : ℕ → ℝ) (links : ℕ) (qs : List ℕ) :
    Arr (ℕ × ℕ) → Arr (ℕ × ℕ) :=
  forEach qs (poisRhsPoint D o c w links)

/-- `meshtie_kernels.cpp:668-745`: body of the quadrature loop of `poisson_jac`. -/
def poisJacPoint (D : KD) (o : ℕ → ℕ) (c w : ℕ → ℝ) (links q : ℕ) : Arr (ℕ × ℕ) → Arr (ℕ × ℕ) :=
  let gamma := w 0 / c 0
  let theta := w 1
  let w0 := poisW0 D c q
  loop D.nd (fun j => loop D.nd (fun i A =>
    let A := A.acc (0, i * D.nd + j) ((-0.5 * gradN D q j + gamma * D.ph q j) * D.ph q i * w0
      - theta * 0.5 * gradN D q i * D.ph q j * w0)
    loop links (fun k A =>
      let cw := c (poisIdx D o q k j)
      let cv := c (poisIdx D o q k i)
      let A := Arr.acc A (3 * k + 1, i * D.nd + j)
        ((-gamma * D.ph q i + theta * 0.5 * gradN D q i) * cw * w0)
      let A := A.acc (3 * k + 2, i * D.nd + j) ((0.5 * gradN D q j - gamma * D.ph q j) * cv * w0)
      let A := A.acc (3 * k + 3, i * D.nd + j) (gamma * cw * cv * w0)
      loop D.gdim (fun g A =>
        let A := Arr.acc A (3 * k + 1, i * D.nd + j)
          (-0.5 * c (poisGIdx D o q k j + g) * D.nPhys q g * D.ph q i * w0)
        let A := A.acc (3 * k + 2, i * D.nd + j)
          (-theta * 0.5 * c (poisGIdx D o q k i + g) * D.nPhys q g * D.ph q j * w0)
        A.acc (3 * k + 3, i * D.nd + j)
          (0.5 * c (poisGIdx D o q k j + g) * D.nPhys q g * cv * w0
            + theta * 0.5 * c (poisGIdx D o q k i + g) * D.nPhys q g * cw * w0)) A) A))

/-- `meshtie_kernels.cpp:611-746` `poisson_jac`. -/
def poisJac (D : KD) (o : ℕ → ℕ) (c w : ℕ → ℝ) (links : ℕ) (qs : List ℕ) :
    Arr (ℕ × ℕ) → Arr (ℕ × ℕ) :=
  forEach qs (poisJacPoint D o c w links)

end

end Verif.Kernels
