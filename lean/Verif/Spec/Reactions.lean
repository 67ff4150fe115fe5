import Verif.Spec.Driver

/-!
Specification for C198: forces on a body along a coordinate axis.
-/

namespace Verif.Spec

open Verif.ContactProblem Finset

noncomputable section

variable {G : Type}

/-- The displacement that moves the dofs `B` by one along axis `n` and nothing else; dof `d` belongs to axis `d % g`. -/
def shiftOf (g n : ℕ) (B : Finset ℕ) (d : ℕ) : ℝ := if d ∈ B ∧ d % g = n then 1 else 0

/-- The force of contact on the dofs `B` along axis `n`: minus the virtual work of contact for moving `B`. -/
def contactPush (Y : System G) (t : Tracked G) (law : Law) (gamma theta : ℝ) (x : ℕ → ℝ) (B : Finset ℕ) (n : ℕ) : ℝ :=
  -contactForm Y t law gamma theta x (shiftOf Y.gdim n B)

/-- The dofs of `B` with prescribed displacement. -/
def supported (L : LoadCase) (B : Finset ℕ) : Finset ℕ := B.filter (fun d => L.bc d ≠ none)

/-- The dofs of `B` without. -/
def unsupported (L : LoadCase) (B : Finset ℕ) : Finset ℕ := B.filter (fun d => L.bc d = none)

/-- The force of the supports on `B` along axis `n` for the increment `x` to `U`: it balances the forces of the bulk
and of contact at the prescribed dofs. -/
def supportPush (Y : System G) (t : Tracked G) (law : Law) (gamma theta : ℝ) (L : LoadCase) (U x : ℕ → ℝ) (B : Finset ℕ)
    (n : ℕ) : ℝ :=
  ∑ d ∈ supported L B with d % Y.gdim = n, L.bulk (fun c => U c + x c) d
    - contactPush Y t law gamma theta x (supported L B) n

/-- `B` is a body (or several) with load `P` along axis `n`: moving it along the axis strains nothing, so that only the
load does work. -/
def BodyWithLoad (g : ℕ) (L : LoadCase) (B : Finset ℕ) (n : ℕ) (P : ℝ) : Prop :=
  ∀ u, ∑ d ∈ B with d % g = n, L.bulk u d = -P

/-- Number of equations of `B` along axis `n` the solver has solved up to the tolerance, in the 2-norm, and the
stiffness through which misfits of prescribed values enter them. -/
def balanceFactor (g : ℕ) (L : LoadCase) (N : ℕ) (u : ℕ → ℝ) (B : Finset ℕ) (n : ℕ) : ℝ :=
  Real.sqrt #{d ∈ unsupported L B | d % g = n}
    + ∑ d ∈ unsupported L B with d % g = n, ∑ c ∈ range N with L.bc c ≠ none, |L.stiff u d c|

end

end Verif.Spec
