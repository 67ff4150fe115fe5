import Verif.Model.Dispatch

/-!
Model of the data side of `MeshTie` (`cpp/MeshTie.cpp`): the coefficient vectors of the pairs as flat
arrays with a size, filled with `std::copy_n` at computed positions, and the kernels with the strides
they were generated with.

Simplifications. Values are of any type with a zero (`std::vector::resize` fills with zero). What the
packing functions return for a pair is given as a flat array with its width (`Pk`); the packing functions
themselves are modelled in `Model/Packing.lean` and `Model/Coefficients.lean`. A write outside a vector is
undefined behaviour, modelled by the outcome `ub`. The distance map is built once, in the constructor, so
`max_links` is fixed. Generating a kernel is modelled by remembering the strides it gets.
-/

namespace Verif.TieData

/-- `utils.h:56-61`. -/
inductive Problem where
  | elasticity
  | poisson
  | thermo
deriving DecidableEq, Repr

/-- The names under which `MeshTie.cpp:64-103`, `248-289` look up coefficients. -/
inductive Key where
  | mu
  | lam
  | alpha
  | kdt
  | u
  | T
deriving DecidableEq, Repr

variable {R : Type}

/-- `std::vector<double>`: size and content. -/
structure Buf (R : Type) where
  size : ℕ
  val : ℕ → R

/-- `std::vector::resize`: old content stays, new entries are zero. -/
def Buf.resize [Zero R] (b : Buf R) (n : ℕ) : Buf R := ⟨n, fun k => if k < b.size then b.val k else 0⟩

/-- Result of a packing function: flat values and values per facet. -/
structure Pk (R : Type) where
  c : ℕ
  v : ℕ → R

/-- A `fem::Function`: dofs per cell and block size of its space, and what the packing functions return
for pair `i` (`MeshTie.cpp:190-193`, `330-331`, `364-367`). -/
structure Func (R : Type) where
  nd : ℕ
  bs : ℕ
  /-- `pack_coefficient_quadrature(f, 0, entities)` -/
  const0 : ℕ → Pk R
  /-- `pack_coefficient_quadrature(f, _q_deg, entities)` -/
  val : ℕ → Pk R
  /-- `pack_u_contact(i, f)` -/
  opp : ℕ → Pk R
  /-- `pack_gradient_quadrature(f, _q_deg, entities)` -/
  grad : ℕ → Pk R
  /-- `pack_grad_u_contact(i, f)` -/
  gradOpp : ℕ → Pk R

/-- A `fem::FunctionSpace`: dofs per cell, block size, `pack_test_functions(i, V)` and
`pack_grad_test_functions(i, V)` (`MeshTie.cpp:192-194`). -/
structure Space (R : Type) where
  nd : ℕ
  bs : ℕ
  test : ℕ → Pk R
  gtest : ℕ → Pk R

/-- What is fixed by the constructor (`MeshTie.cpp:10-50`): number of pairs, owned facets of the
integration surface of each pair, points per facet, dimension, `max_links`, and cell sizes. -/
structure Static (R : Type) where
  pairs : ℕ
  nf : ℕ → ℕ
  nq : ℕ
  gdim : ℕ
  ml : ℕ
  h : ℕ → Pk R

/-- `coefficients`, the map given by the caller. -/
abbrev Coefs (R : Type) := Key → Option (Func R)

/-- The members of `MeshTie` (`MeshTie.h:150-184`). A kernel is the list of strides it was generated
with, `none` before it is generated. -/
structure State (R : Type) where
  coeffs : ℕ → Buf R
  cstride : ℕ
  consts : List R
  kRhs : Option (List ℕ)
  kJac : Option (List ℕ)
  kThermo : Option (List ℕ)
  coeffsP : ℕ → Buf R
  cstrideP : ℕ
  constsP : List R
  kRhsP : Option (List ℕ)
  kJacP : Option (List ℕ)

/-- State after construction: empty vectors. -/
def State.init [Zero R] : State R :=
  ⟨fun _ => ⟨0, fun _ => 0⟩, 0, [], none, none, none, fun _ => ⟨0, fun _ => 0⟩, 0, [], none, none⟩

/-- Outcome of a call: normal return, `std::invalid_argument` for a missing coefficient, or undefined
behaviour. -/
inductive Out (R : Type) where
  | ok (s : State R)
  | throws (s : State R) (missing : Key)
  | ub

/-- Sequencing. -/
def Out.bind (o : Out R) (f : State R → Out R) : Out R :=
  match o with
  | .ok s => f s
  | .throws s k => .throws s k
  | .ub => .ub

/-- A write outside a vector is undefined. -/
def Out.ofOption (f : (ℕ → Buf R) → State R) : Option (ℕ → Buf R) → Out R
  | some cs => .ok (f cs)
  | none => .ub

/-- `std::copy_n(std::next(p.begin(), e * c), c, std::next(b.begin(), start))`. -/
def copyN (p : Pk R) (e start : ℕ) (b : Buf R) : Option (Buf R) :=
  if start + p.c ≤ b.size then
    some ⟨b.size, fun k => if start ≤ k ∧ k < start + p.c then p.v (e * p.c + (k - start)) else b.val k⟩
  else none

/-- `for (e = 0; e < n; ++e)`. -/
def facets : ℕ → (ℕ → Buf R → Option (Buf R)) → Buf R → Option (Buf R)
  | 0, _, b => some b
  | n + 1, f, b => (facets n f b).bind (f n)

/-- `for (i = 0; i < n; ++i)`, the body changing `coeffs[i]`. -/
def pairs : ℕ → (ℕ → Buf R → Option (Buf R)) → (ℕ → Buf R) → Option (ℕ → Buf R)
  | 0, _, cs => some cs
  | n + 1, f, cs => (pairs n f cs).bind fun cs => (f n (cs n)).map fun b => Function.update cs n b

/-- `MeshTie.cpp:139-155`. -/
def strides (S : Static R) (V : Space R) (thermo : Bool) : List ℕ :=
  let A := S.nq * V.nd * V.bs * S.ml
  if thermo then
    [4, A, A, S.nq * S.gdim, S.nq * S.gdim * S.gdim, S.nq * V.bs, S.nq * S.gdim * V.bs, S.nq, S.nq]
  else
    [3, A, A, S.nq * S.gdim, S.nq * S.gdim * S.gdim, S.nq * V.bs, S.nq * S.gdim * V.bs]

/-- `MeshTie.cpp:196-222`: fill the vector of pair `i`. -/
def fillPair [Zero R] (S : Static R) (V : Space R) (mu lam : Func R) (alpha : Option (Func R))
    (c0 C i : ℕ) (b : Buf R) : Option (Buf R) :=
  (facets (S.nf i) (fun e b =>
      (copyN (mu.const0 i) e (e * C) b).bind fun b =>
      (copyN (lam.const0 i) e (e * C + (mu.const0 i).c) b).bind fun b =>
      (copyN (S.h i) e (e * C + ((mu.const0 i).c + (lam.const0 i).c)) b).bind fun b =>
      (copyN (V.test i) e (e * C + c0) b).bind fun b =>
      copyN (V.gtest i) e (e * C + (c0 + (V.test i).c)) b)
    (b.resize (C * S.nf i))).bind fun b =>
  match alpha with
  | none => some b
  | some a => facets (S.nf i) (fun e b => copyN (a.const0 i) e (e * C + 3) b) b

/-- `MeshTie::generate_meshtie_data_matrix_only` (`MeshTie.cpp:115-227`); `alpha` is `coeffs[2]`, given
when the problem is thermo-elasticity. -/
def generateMatrixOnly [Zero R] (S : Static R) (V : Space R) (mu lam : Func R) (alpha : Option (Func R))
    (gamma theta : R) (s : State R) : Out R :=
  let cstrides := strides S V alpha.isSome
  let C := cstrides.sum
  Out.ofOption
    (fun cs => ⟨cs, C, [gamma, theta], some cstrides, some cstrides,
      if alpha.isSome then some cstrides else s.kThermo,
      s.coeffsP, s.cstrideP, s.constsP, s.kRhsP, s.kJacP⟩)
    (pairs S.pairs (fillPair S V mu lam alpha (cstrides.getD 0 0) C) s.coeffs)

/-- `MeshTie.cpp:403-410`. -/
def stridesP (S : Static R) (V : Space R) : List ℕ :=
  [2, S.nq * V.nd * S.ml, S.nq * V.nd * S.gdim * S.ml, S.nq, S.nq * S.gdim, S.nq, S.nq * S.gdim]

/-- `MeshTie.cpp:446-463`: fill the vector of pair `i`. -/
def fillPairP [Zero R] (S : Static R) (V : Space R) (kdt : Func R) (C i : ℕ) (b : Buf R) :
    Option (Buf R) :=
  facets (S.nf i) (fun e b =>
      (copyN (S.h i) e (e * C) b).bind fun b =>
      (copyN (kdt.const0 i) e (e * C + (S.h i).c) b).bind fun b =>
      (copyN (V.test i) e (e * C + ((S.h i).c + (kdt.const0 i).c)) b).bind fun b =>
      copyN (V.gtest i) e (e * C + ((S.h i).c + (kdt.const0 i).c + (V.test i).c)) b)
    (b.resize (C * S.nf i))

/-- `MeshTie::generate_poisson_data_matrix_only` (`MeshTie.cpp:382-465`). -/
def generatePoisson [Zero R] (S : Static R) (V : Space R) (kdt : Func R) (gamma theta : R)
    (s : State R) : Out R :=
  let cstrides := stridesP S V
  let C := cstrides.sum
  Out.ofOption
    (fun cs => ⟨s.coeffs, s.cstride, s.consts, s.kRhs, s.kJac, s.kThermo,
      cs, C, [gamma, theta], some cstrides, some cstrides⟩)
    (pairs S.pairs (fillPairP S V kdt C) s.coeffsP)

/-- `MeshTie::update_function_data` (`MeshTie.cpp:309-343`). -/
def updateFunctionData (S : Static R) (u : Func R) (o0 o1 C : ℕ) (cs : ℕ → Buf R) :
    Option (ℕ → Buf R) :=
  pairs S.pairs (fun i => facets (S.nf i) fun e b =>
    (copyN (u.val i) e (e * C + o0) b).bind (copyN (u.opp i) e (e * C + o1))) cs

/-- `MeshTie::update_gradient_data` (`MeshTie.cpp:345-380`). -/
def updateGradientData (S : Static R) (u : Func R) (o0 o1 C : ℕ) (cs : ℕ → Buf R) :
    Option (ℕ → Buf R) :=
  pairs S.pairs (fun i => facets (S.nf i) fun e b =>
    (copyN (u.grad i) e (e * C + o0) b).bind (copyN (u.gradOpp i) e (e * C + o1))) cs

/-- `MeshTie.cpp:254-261`: the elasticity branch once `u` is found. -/
def updateElastic (S : Static R) (u : Func R) (s : State R) : Out R :=
  let o0 := 3 + 2 * (S.nq * S.ml * u.bs * u.nd)
  let o1 := o0 + (1 + S.gdim) * S.nq * u.bs
  Out.ofOption (fun cs => { s with coeffs := cs })
    ((updateFunctionData S u o0 o1 s.cstride s.coeffs).bind
      (updateGradientData S u (o0 + S.nq * u.bs) (o1 + S.nq * u.bs) s.cstride))

/-- `MeshTie.cpp:269-278`: the Poisson branch once `T` is found. -/
def updatePoisson (S : Static R) (T : Func R) (s : State R) : Out R :=
  let o0 := 2 + (1 + S.gdim) * (S.nq * S.ml * T.nd)
  let o1 := o0 + (1 + S.gdim) * S.nq
  Out.ofOption (fun cs => { s with coeffsP := cs })
    ((updateFunctionData S T o0 o1 s.cstrideP s.coeffsP).bind
      (updateGradientData S T (o0 + S.nq) (o1 + S.nq) s.cstrideP))

/-- `MeshTie.cpp:291-302`: the thermo-elastic branch once `u` and `T` are found. -/
def updateThermo (S : Static R) (u T : Func R) (s : State R) : Out R :=
  let o0 := 4 + 2 * (S.nq * S.ml * u.bs * u.nd)
  let o1 := o0 + (1 + S.gdim) * S.nq * u.bs
  let o0' := o0 + S.nq * u.bs
  let o1' := o1 + S.nq * u.bs
  let o0'' := o1' + S.nq * u.bs * S.gdim
  let o1'' := o0'' + S.nq
  Out.ofOption (fun cs => { s with coeffs := cs })
    (((updateFunctionData S u o0 o1 s.cstride s.coeffs).bind
      (updateGradientData S u o0' o1' s.cstride)).bind
      (updateFunctionData S T o0'' o1'' s.cstride))

/-- `MeshTie::update_kernel_data` (`MeshTie.cpp:229-307`). -/
def updateKernelData (S : Static R) (co : Coefs R) (p : Problem) (s : State R) : Out R :=
  match p with
  | .elasticity =>
    match co .u with
    | none => .throws s .u
    | some u => updateElastic S u s
  | .poisson =>
    match co .T with
    | none => .throws s .T
    | some T => updatePoisson S T s
  | .thermo =>
    match co .u with
    | none => .throws s .u
    | some u =>
      match co .T with
      | none => .throws s .T
      | some T => updateThermo S u T s

/-- `MeshTie::generate_kernel_data` (`MeshTie.cpp:52-113`). -/
def generateKernelData [Zero R] (S : Static R) (p : Problem) (V : Space R) (co : Coefs R)
    (gamma theta : R) (s : State R) : Out R :=
  match p with
  | .elasticity =>
    match co .mu with
    | none => .throws s .mu
    | some mu =>
      match co .lam with
      | none => .throws s .lam
      | some lam =>
        (generateMatrixOnly S V mu lam none gamma theta s).bind fun s =>
        match co .u with
        | none => .ok s
        | some _ => updateKernelData S co .elasticity s
  | .poisson =>
    match co .kdt with
    | none => .throws s .kdt
    | some kdt =>
      (generatePoisson S V kdt gamma theta s).bind fun s =>
      match co .T with
      | none => .ok s
      | some _ => updateKernelData S co .poisson s
  | .thermo =>
    match co .mu with
    | none => .throws s .mu
    | some mu =>
      match co .lam with
      | none => .throws s .lam
      | some lam =>
        match co .alpha with
        | none => .throws s .alpha
        | some alpha =>
          (generateMatrixOnly S V mu lam (some alpha) gamma theta s).bind fun s =>
          match co .u with
          | none => .ok s
          | some _ => updateKernelData S co .thermo s

/-- One call to `Contact::assemble_vector` or `Contact::assemble_matrix`: pair, kernel (its type, as the
members are always generated with the same one, `MeshTie.cpp:157-180`, `412-430`, and the strides it was
generated with), coefficients, width of a row and constants. -/
structure Launch (R : Type) where
  pair : ℕ
  fn : Kernels.Kernel
  kernel : Option (List ℕ)
  buf : Buf R
  stride : ℕ
  consts : List R

/-- `MeshTie::assemble_vector` (`MeshTie.cpp:467-499`): the assembly calls it makes. -/
def assembleVector (S : Static R) (p : Problem) (s : State R) : List (Launch R) :=
  (List.range S.pairs).flatMap fun i =>
    match p with
    | .elasticity => [⟨i, .meshTieRhs, s.kRhs, s.coeffs i, s.cstride, s.consts⟩]
    | .poisson => [⟨i, .meshTieRhs, s.kRhsP, s.coeffsP i, s.cstrideP, s.constsP⟩]
    | .thermo => [⟨i, .meshTieRhs, s.kRhs, s.coeffs i, s.cstride, s.consts⟩,
      ⟨i, .thermoElasticRhs, s.kThermo, s.coeffs i, s.cstride, s.consts⟩]

/-- `MeshTie::assemble_matrix` (`MeshTie.cpp:501-532`). -/
def assembleMatrix (S : Static R) (p : Problem) (s : State R) : List (Launch R) :=
  (List.range S.pairs).flatMap fun i =>
    match p with
    | .elasticity => [⟨i, .meshTieJac, s.kJac, s.coeffs i, s.cstride, s.consts⟩]
    | .poisson => [⟨i, .meshTieJac, s.kJacP, s.coeffsP i, s.cstrideP, s.constsP⟩]
    | .thermo => [⟨i, .meshTieJac, s.kJac, s.coeffs i, s.cstride, s.consts⟩]

/-- A call by the user. -/
inductive Op (R : Type) where
  | gen (p : Problem) (V : Space R) (co : Coefs R) (gamma theta : R)
  | upd (p : Problem) (co : Coefs R)

/-- Effect of a call. -/
def call [Zero R] (S : Static R) (s : State R) : Op R → Out R
  | .gen p V co gamma theta => generateKernelData S p V co gamma theta s
  | .upd p co => updateKernelData S co p s

/-- State after a list of calls, each exception being caught by the caller; `none` once there was undefined
behaviour. -/
def run [Zero R] (S : Static R) : State R → List (Op R) → Option (State R)
  | s, [] => some s
  | s, o :: os =>
    match call S s o with
    | .ok s' => run S s' os
    | .throws s' _ => run S s' os
    | .ub => none

end Verif.TieData
