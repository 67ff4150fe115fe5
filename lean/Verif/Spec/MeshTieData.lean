import Verif.Model.MeshTieData
import Verif.Spec.MeshTie

/-!
What the data of `MeshTie` should be, stated by remembering the arguments of the calls only: which
generation was the last one for elasticity or thermo-elasticity (they share the storage) and for Poisson,
and which solution was given last for it.
-/

namespace Verif.TieData

open Verif.Spec (TieDims)

variable {R : Type}

/-- Coefficients without which data cannot be generated. -/
def required : Problem → List Key
  | .elasticity => [.mu, .lam]
  | .poisson => [.kdt]
  | .thermo => [.mu, .lam, .alpha]

/-- The solution of a problem. -/
def solution : Problem → List Key
  | .elasticity => [.u]
  | .poisson => [.T]
  | .thermo => [.u, .T]

/-- The coefficient whose presence makes a generation include the solution. -/
def trigger : Problem → Key
  | .elasticity => .u
  | .poisson => .T
  | .thermo => .u

/-- All the named coefficients are given. -/
def Given (co : Coefs R) (ks : List Key) : Prop := ∀ k ∈ ks, (co k).isSome

instance (co : Coefs R) (ks : List Key) : Decidable (Given co ks) := by
  unfold Given; infer_instance

/-- First coefficient that a generation misses. -/
def missing (p : Problem) (co : Coefs R) : Option Key :=
  (required p ++ if (co (trigger p)).isSome then solution p else []).find? fun k => (co k).isNone

/-- First coefficient that an update misses. -/
def missingU (p : Problem) (co : Coefs R) : Option Key := (solution p).find? fun k => (co k).isNone

/-- What is remembered of a generation: its arguments, and the solution given last since. -/
structure Gen (R : Type) where
  p : Problem
  V : Space R
  co : Coefs R
  gamma : R
  theta : R
  sol : Option (Coefs R)

/-- The last generation for (thermo-)elasticity and the last one for Poisson. -/
structure Tracked (R : Type) where
  el : Option (Gen R)
  po : Option (Gen R)

/-- Nothing generated. -/
def Tracked.new : Tracked R := ⟨none, none⟩

/-- The last generation sharing storage with problem `p`. -/
def Tracked.get (t : Tracked R) : Problem → Option (Gen R)
  | .poisson => t.po
  | _ => t.el

/-- Replace it. -/
def Tracked.set (t : Tracked R) (p : Problem) (g : Option (Gen R)) : Tracked R :=
  match p with
  | .poisson => ⟨t.el, g⟩
  | _ => ⟨g, t.po⟩

/-- Effect of a call on what is remembered. -/
def Tracked.step (t : Tracked R) : Op R → Tracked R
  | .gen p V co gamma theta =>
    if Given co (required p) then
      t.set p (some ⟨p, V, co, gamma, theta, if Given co (solution p) then some co else none⟩)
    else t
  | .upd p co =>
    if Given co (solution p) then t.set p ((t.get p).map fun g => { g with sol := some co }) else t

/-- Layout of a row (the leading scalars are `μ, λ, h`, or `μ, λ, h, α`, or `h, κ`). -/
def Gen.dims (S : Static R) (g : Gen R) : TieDims :=
  match g.p with
  | .elasticity => ⟨S.nq, g.V.nd, g.V.bs, S.gdim, S.ml, 3⟩
  | .poisson => ⟨S.nq, g.V.nd, 1, S.gdim, S.ml, 2⟩
  | .thermo => ⟨S.nq, g.V.nd, g.V.bs, S.gdim, S.ml, 4⟩

/-- Width of a row. -/
def Gen.width (S : Static R) (g : Gen R) : ℕ :=
  match g.p with
  | .thermo => (g.dims S).oTempOpp + S.nq
  | _ => (g.dims S).oTemp

/-- Row `c` starts with the scalars of facet `e` of pair `i`. -/
def Gen.Lead (S : Static R) (g : Gen R) (i e : ℕ) (c : ℕ → R) : Prop :=
  match g.p with
  | .elasticity => (∀ f, g.co .mu = some f → c 0 = (f.const0 i).v e)
      ∧ (∀ f, g.co .lam = some f → c 1 = (f.const0 i).v e) ∧ c 2 = (S.h i).v e
  | .poisson => c 0 = (S.h i).v e ∧ ∀ f, g.co .kdt = some f → c 1 = (f.const0 i).v e
  | .thermo => (∀ f, g.co .mu = some f → c 0 = (f.const0 i).v e)
      ∧ (∀ f, g.co .lam = some f → c 1 = (f.const0 i).v e) ∧ c 2 = (S.h i).v e
      ∧ ∀ f, g.co .alpha = some f → c 3 = (f.const0 i).v e

/-- Row `c` holds the data of facet `e` of pair `i` for the matrix. -/
structure Gen.MatrixRow (S : Static R) (g : Gen R) (i e : ℕ) (c : ℕ → R) : Prop where
  lead : g.Lead S i e c
  test : ∀ m < S.ml * g.V.nd * S.nq * (g.dims S).bs,
    c ((g.dims S).oTest + m) = (g.V.test i).v (e * (S.ml * g.V.nd * S.nq * (g.dims S).bs) + m)
  gtest : ∀ m < S.ml * g.V.nd * S.nq * S.gdim,
    c ((g.dims S).oGTest + m) = (g.V.gtest i).v (e * (S.ml * g.V.nd * S.nq * S.gdim) + m)

/-- Row `c` holds the solution `f` of facet `e` of pair `i` on both sides. -/
structure Gen.SolRow (S : Static R) (g : Gen R) (f : Func R) (i e : ℕ) (c : ℕ → R) : Prop where
  u : ∀ m < S.nq * (g.dims S).bs,
    c ((g.dims S).oU + m) = (f.val i).v (e * (S.nq * (g.dims S).bs) + m)
  grad : ∀ m < S.nq * (g.dims S).bs * S.gdim,
    c ((g.dims S).oGrad + m) = (f.grad i).v (e * (S.nq * (g.dims S).bs * S.gdim) + m)
  opp : ∀ m < S.nq * (g.dims S).bs,
    c ((g.dims S).oOpp + m) = (f.opp i).v (e * (S.nq * (g.dims S).bs) + m)
  gopp : ∀ m < S.nq * (g.dims S).bs * S.gdim,
    c ((g.dims S).oGOpp + m) = (f.gradOpp i).v (e * (S.nq * (g.dims S).bs * S.gdim) + m)

/-- Row `c` holds the temperature `f` of facet `e` of pair `i` on both sides. -/
structure Gen.TempRow (S : Static R) (g : Gen R) (f : Func R) (i e : ℕ) (c : ℕ → R) : Prop where
  temp : ∀ m < S.nq, c ((g.dims S).oTemp + m) = (f.val i).v (e * S.nq + m)
  tempOpp : ∀ m < S.nq, c ((g.dims S).oTempOpp + m) = (f.opp i).v (e * S.nq + m)

/-- Row `c` is as the calls so far say. -/
structure Gen.Row (S : Static R) (g : Gen R) (i e : ℕ) (c : ℕ → R) : Prop where
  matrix : g.MatrixRow S i e c
  sol : ∀ co f, g.sol = some co → co (trigger g.p) = some f → g.SolRow S f i e c
  temp : ∀ co f, g.sol = some co → g.p = .thermo → co .T = some f → g.TempRow S f i e c

/-- Row `e` of a flat vector with rows of width `C`. -/
def Buf.row (b : Buf R) (C e : ℕ) : ℕ → R := fun m => b.val (e * C + m)

/-- A scalar coefficient packed with quadrature degree 0 has one value per facet. -/
def Func.Scalar (S : Static R) (f : Func R) : Prop := ∀ i < S.pairs, (f.const0 i).c = 1

/-- Widths of a packed solution with `bs` components. -/
structure Func.Packed (S : Static R) (bs : ℕ) (f : Func R) : Prop where
  val : ∀ i < S.pairs, (f.val i).c = S.nq * bs
  opp : ∀ i < S.pairs, (f.opp i).c = S.nq * bs
  grad : ∀ i < S.pairs, (f.grad i).c = S.nq * bs * S.gdim
  gradOpp : ∀ i < S.pairs, (f.gradOpp i).c = S.nq * bs * S.gdim

/-- Number of components of the solution of a problem. -/
def comps (S : Static R) : Problem → ℕ
  | .poisson => 1
  | _ => S.gdim

/-- A space for problem `p` with the widths of its packed test functions. -/
structure Space.Packed (S : Static R) (p : Problem) (V : Space R) : Prop where
  bs : V.bs = comps S p
  test : ∀ i < S.pairs, (V.test i).c = S.ml * V.nd * S.nq * V.bs
  gtest : ∀ i < S.pairs, (V.gtest i).c = S.ml * V.nd * S.nq * S.gdim

/-- A solution for problem `p` from space `V`. -/
structure SolOk (S : Static R) (p : Problem) (V : Space R) (co : Coefs R) : Prop where
  sol : ∀ f, co (trigger p) = some f → f.nd = V.nd ∧ f.bs = V.bs ∧ f.Packed S V.bs
  temp : p = .thermo → ∀ f, co .T = some f → f.Packed S 1

/-- Cell sizes are one value per facet. -/
def Static.Ok (S : Static R) : Prop := ∀ i < S.pairs, (S.h i).c = 1

/-- Arguments of a generation are of the kind the problem needs. -/
structure GenOk (S : Static R) (p : Problem) (V : Space R) (co : Coefs R) : Prop where
  space : V.Packed S p
  coef : ∀ k ∈ required p, ∀ f, co k = some f → f.Scalar S
  sol : SolOk S p V co

/-- A call is proper: arguments of the right kind and an update is for the problem, and from the space,
data were last generated for. -/
def Tracked.Proper (S : Static R) (t : Tracked R) : Op R → Prop
  | .gen p V co _ _ => GenOk S p V co
  | .upd p co => Given co (solution p) → ∃ g, t.get p = some g ∧ g.p = p ∧ SolOk S p g.V co

/-- All calls of a history are proper. -/
def ProperHistory (S : Static R) : Tracked R → List (Op R) → Prop
  | _, [] => True
  | t, o :: os => t.Proper S o ∧ ProperHistory S (t.step o) os

end Verif.TieData
