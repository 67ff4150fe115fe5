import Verif.Spec.TieRotation

/-!
Specification for C154: tied bodies in other units of length and stress.
-/

namespace Verif.Spec

open Verif.TieData Finset

noncomputable section

/-- The same tie with another unit of length: coordinates, gap vectors and cell sizes are `a` times as large;
the facets, closest points and normals are the same. -/
def tieInUnits (a : ℝ) (M : TieMesh) : TieMesh := { M with
  geo := { M.geo with x := fun k => a * M.geo.x k }
  gap := fun i k => a * M.gap i k
  h := fun i e => a * M.h i e }

/-- The same space: the basis functions have the same values, their gradients are per length. -/
def spaceInUnits (a : ℝ) (E : TieElement) : TieElement := { E with
  grad := fun i c r k b => E.grad i c r k b / a }

/-- Lamé parameters are stresses, `k` is also the factor of the conductivity; the thermal expansion is per
temperature. -/
def matInUnits (k : ℝ) (mat : Key → ℕ → ℝ) (key : Key) (d : ℕ) : ℝ :=
  if key = .alpha then mat key d else k * mat key d

/-- What the library guarantees: the surface factor of a facet of dimension `tdim - 1` is an area. -/
def TieSurfaceFactorIsArea (M : TieMesh) : Prop :=
  ∀ (f : ℕ) (a : ℝ) (J J' : ℕ → ℕ → ℝ), 0 < a → (∀ i < M.gdim, ∀ j < M.tdim, J' i j = a * J i j) →
    M.det f J' = a ^ (M.tdim - 1) * M.det f J

/-- The gaps of at most `1e-7` are the same in both units. -/
def SameTinyGaps (a : ℝ) (M : TieMesh) : Prop :=
  ∀ i < M.numPairs, ∀ e < M.localFacets i, ∀ q < M.nq, gapNorm M i e q ≤ 1 / 10 ^ 7 ↔ a * gapNorm M i e q ≤ 1 / 10 ^ 7

end

end Verif.Spec
