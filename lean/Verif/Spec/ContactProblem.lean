import Verif.Model.ContactProblem
import Verif.Spec.Kernels

/-!
Specification for `ContactProblem` (C38, C40, C81, C82): what a user expects the coefficient rows to
hold after a sequence of calls, written without the offsets of the code.  The offsets are those of
`Spec.Dims`, which the theorems about the kernels (C46–C48, C78) use.
-/

namespace Verif.Spec

open Verif.ContactProblem

noncomputable section

/-- Values packed for pair, facet and column. -/
abbrev Packed := ℕ → ℕ → ℕ → ℝ

/-- What was given to the object last. `cur` is the geometry of the last contact detection, `prev` the
one before; `disp`, `dispGrad`, `dispOpp` are the packed displacement increment, total displacement
gradient, and displacement increment of the opposite surface. -/
structure Tracked (G : Type) where
  created : Bool
  cur : G
  prev : G
  mu : Packed
  lam : Packed
  fric : Packed
  h : Packed
  gradU : Packed
  disp : Packed
  dispGrad : Packed
  dispOpp : Packed

variable {G : Type}

/-- Packed values of an array per pair. -/
def vals (m : ℕ → Mat) : Packed := fun i => (m i).v

/-- A new object. -/
def Tracked.new (g : G) : Tracked G where
  created := false
  cur := g
  prev := g
  mu := fun _ _ _ => 0
  lam := fun _ _ _ => 0
  fric := fun _ _ _ => 0
  h := fun _ _ _ => 0
  gradU := fun _ _ _ => 0
  disp := fun _ _ _ => 0
  dispGrad := fun _ _ _ => 0
  dispOpp := fun _ _ _ => 0

/-- A displacement increment is packed: its value, the total gradient, its value on the opposite surface
found by the current detection. -/
def Tracked.setDu (t : Tracked G) (du : Du G) : Tracked G :=
  { t with
    disp := vals du.val
    dispGrad := fun i e c => (du.grad i).v e c + t.gradU i e c
    dispOpp := vals (du.opp t.cur) }

/-- What a call changes. Generating needs mu and lambda; it keeps the friction coefficient if none is given
(see C81 for what users expect), starts the history of normals when called first, and forgets the
displacement so far if no `u` is given. Updates before generating have no effect on the rows. -/
def Tracked.call (t : Tracked G) : Op G → Tracked G
  | .generate a =>
    match a.mu, a.lam with
    | some mu, some lam =>
      let t' : Tracked G := { t with
        created := true
        prev := if t.created then t.prev else t.cur
        mu := vals mu
        lam := vals lam
        fric := match a.fric with
          | some f => vals f
          | none => t.fric
        h := vals a.h
        gradU := match a.u with
          | some u => vals u
          | none => fun _ _ _ => 0 }
      match a.du with
      | some du => t'.setDu du
      | none => t'
    | _, _ => t
  | .updateData du => if t.created then t.setDu du else t
  | .updateDetection move gradU =>
    if t.created then { t with cur := move t.cur, prev := t.cur, gradU := vals gradU }
    else { t with cur := move t.cur }
  | .updateNitsche _ _ => t

/-- A sequence of calls. -/
def Tracked.history (t : Tracked G) (ops : List (Op G)) : Tracked G := ops.foldl Tracked.call t

/-- Contact normals of pair `i` for a detection on geometry `g`: minus the surface normal for ray tracing,
the normal of the closest point otherwise. -/
def normals (S : Static G) (g : G) (i e c : ℕ) : ℝ :=
  if S.raytracing i then -(S.nx g i).v e c else (S.ny g i).v e c

/-- The sizes of a row: one link per quadrature point. -/
def dims (S : Static G) : Dims := ⟨S.nq, S.nd, S.gdim, S.nq⟩

/-- The row `c` of owned facet `e` of pair `i` holds the tracked data. -/
structure RowHolds (S : Static G) (t : Tracked G) (i e : ℕ) (c : ℕ → ℝ) : Prop where
  mu : c 0 = t.mu i e 0
  lam : c 1 = t.lam i e 0
  fric : c 2 = t.fric i e 0
  h : c 3 = t.h i e 0
  gap : ∀ m < S.nq * S.gdim, c ((dims S).oGap + m) = (S.gap t.cur i).v e m
  normal : ∀ m < S.nq * S.gdim, c ((dims S).oNormal + m) = normals S t.cur i e m
  test : ∀ m < S.nq * S.nd * S.nq * S.gdim, c ((dims S).oTest + m) = (S.test t.cur i).v e m
  u : ∀ m < S.nq * S.gdim, c ((dims S).oU + m) = t.disp i e m
  grad : ∀ m < S.nq * S.gdim * S.gdim, c ((dims S).oGrad + m) = t.dispGrad i e m
  opp : ∀ m < S.nq * S.gdim, c ((dims S).oOpp + m) = t.dispOpp i e m
  old : ∀ m < S.nq * S.gdim, c ((dims S).oOld + m) = normals S t.prev i e m

/-- The shapes of what the packing functions return (C27–C33), for vector valued spaces: at least one
pair; the local facets are among the active ones. -/
structure Static.Shaped (S : Static G) : Prop where
  pairs : 0 < S.numPairs
  dim : 0 < S.gdim
  points : 0 < S.nq
  block : S.bs = S.gdim
  loc : ∀ i < S.numPairs, S.localFacets i ≤ S.entities i
  gap : ∀ g, ∀ i < S.numPairs, (S.gap g i).rows = S.localFacets i ∧ (S.gap g i).cols = S.nq * S.gdim
  nx : ∀ g, ∀ i < S.numPairs, (S.nx g i).rows = S.localFacets i ∧ (S.nx g i).cols = S.nq * S.gdim
  ny : ∀ g, ∀ i < S.numPairs, (S.ny g i).rows = S.localFacets i ∧ (S.ny g i).cols = S.nq * S.gdim
  test : ∀ g, ∀ i < S.numPairs,
    (S.test g i).rows = S.localFacets i ∧ (S.test g i).cols = S.nq * S.nq * S.nd * S.bs

/-- Shapes of a packed scalar. -/
def ScalarShaped (S : Static G) (m : ℕ → Mat) : Prop :=
  ∀ i < S.numPairs, (m i).rows = S.entities i ∧ 0 < (m i).cols

/-- Shapes of a packed gradient. -/
def GradShaped (S : Static G) (m : ℕ → Mat) : Prop :=
  ∀ i < S.numPairs, (m i).rows = S.entities i ∧ (m i).cols = S.nq * S.gdim * S.gdim

/-- Shapes of a packed displacement increment. -/
structure DuShaped (S : Static G) (du : Du G) : Prop where
  val : ∀ i < S.numPairs, (du.val i).rows = S.entities i ∧ (du.val i).cols = S.nq * S.gdim
  grad : GradShaped S du.grad
  opp : ∀ g, ∀ i < S.numPairs, (du.opp g i).rows = S.localFacets i ∧ (du.opp g i).cols = S.nq * S.gdim

/-- Shapes of the arguments of a call. -/
def OpShaped (S : Static G) : Op G → Prop
  | .generate a => (∀ m, a.mu = some m → ScalarShaped S m) ∧ (∀ m, a.lam = some m → ScalarShaped S m)
      ∧ (∀ m, a.fric = some m → ScalarShaped S m) ∧ ScalarShaped S a.h
      ∧ (∀ m, a.u = some m → GradShaped S m) ∧ (∀ d, a.du = some d → DuShaped S d)
  | .updateData du => DuShaped S du
  | .updateDetection _ gradU => GradShaped S gradU
  | .updateNitsche _ _ => True

/-- The residual kernel a matrix kernel is the derivative of (C46-C48). -/
def residualOf : Kernels.Kernel → Kernels.Kernel
  | .jac => .rhs
  | .trescaJac => .trescaRhs
  | .coulombJac => .coulombRhs
  | k => k

/-- The law and the Nitsche parameters given last, by calls which may have raised for other reasons. -/
def lastLaw : List (Op G) → Option Law → Option Law
  | [], l => l
  | .generate a :: ops, _ => lastLaw ops (some a.law)
  | _ :: ops, l => lastLaw ops l

/-- `gamma` and `theta` given last; before the first generate there are none. -/
def lastConsts : List (Op G) → Option (ℝ × ℝ) → Option (ℝ × ℝ)
  | [], c => c
  | .generate a :: ops, _ => lastConsts ops (some (a.gamma, a.theta))
  | .updateNitsche gamma theta :: ops, c => lastConsts ops (c.map fun _ => (gamma, theta))
  | _ :: ops, c => lastConsts ops c

/-- The kernels of a friction law: matrices. -/
def lawMatrices : Law → List Kernels.Kernel
  | .frictionless => [.jac]
  | .tresca => [.jac, .trescaJac]
  | .coulomb => [.jac, .coulombJac]

end

end Verif.Spec
