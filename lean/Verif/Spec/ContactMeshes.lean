import Verif.Model.ContactMeshes
import Mathlib.Analysis.Convex.Hull
import Mathlib.Analysis.Real.Sqrt

/-!
What Gmsh makes of the curves and solids of the mesh generators, by its documentation, and what a user expects of the two bodies.
-/

namespace Verif.ContactMeshes

noncomputable section

def sq (p q : ℝ × ℝ) : ℝ := (p.1 - q.1) ^ 2 + (p.2 - q.2) ^ 2

/-- Distance in the plane. -/
def apart (p q : ℝ × ℝ) : ℝ := Real.sqrt (sq p q)

/-- The points of a curve.  Arcs run the short way around the circle, i.e. through the angle between the two radii.  An arc of a
half turn runs below its centre; the documentation of the generators (`y <= 0`) asks for this one. -/
def points : Curve → Set (ℝ × ℝ)
  | .line a b => segment ℝ a b
  | .arc a c b => {p | sq p c = sq a c ∧
      ((∃ s t : ℝ, 0 ≤ s ∧ 0 ≤ t ∧ p - c = s • (a - c) + t • (b - c)) ∨ (b - c = -(a - c) ∧ p.2 ≤ c.2))}

/-- The surface bounded by a loop.  All loops of the generators bound convex surfaces. -/
def region (l : List Curve) : Set (ℝ × ℝ) := convexHull ℝ {p | ∃ k ∈ l, p ∈ points k}

def start : Curve → ℝ × ℝ
  | .line a _ => a
  | .arc a _ _ => a

def stop : Curve → ℝ × ℝ
  | .line _ b => b
  | .arc _ _ b => b

/-- Gmsh accepts an arc only if both ends are equally far from the centre, and not in the centre. -/
def IsCurve : Curve → Prop
  | .line a b => a ≠ b
  | .arc a c b => sq a c = sq b c ∧ 0 < sq a c ∧ a ≠ b

/-- Each curve begins where the one before ends, and the first one where the last one ends. -/
def Closed (l : List Curve) : Prop :=
  l ≠ [] ∧ (∀ k ∈ l, IsCurve k) ∧ ∀ i (h : i < l.length), ∃ h' : (i + 1) % l.length < l.length, stop l[i] = start l[(i + 1) % l.length]

/-- The bodies are as far apart as `g` says: no two points are closer, and two points have this distance. -/
def GapIs (A B : Set (ℝ × ℝ)) (g : ℝ) : Prop :=
  (∀ p ∈ A, ∀ q ∈ B, g ≤ apart p q) ∧ ∃ p ∈ A, ∃ q ∈ B, apart p q = g

/-! ### three dimensions -/

def sq3 (p q : ℝ × ℝ × ℝ) : ℝ := (p.1 - q.1) ^ 2 + (p.2.1 - q.2.1) ^ 2 + (p.2.2 - q.2.2) ^ 2

def apart3 (p q : ℝ × ℝ × ℝ) : ℝ := Real.sqrt (sq3 p q)

/-- A box; the part of a ball between two latitudes. -/
def occupied : Solid → Set (ℝ × ℝ × ℝ)
  | .box x y z dx dy dz =>
    {p | x ≤ p.1 ∧ p.1 ≤ x + dx ∧ y ≤ p.2.1 ∧ p.2.1 ≤ y + dy ∧ z ≤ p.2.2 ∧ p.2.2 ≤ z + dz}
  | .sphere x y z r angle1 angle2 =>
    {p | sq3 p (x, y, z) ≤ r ^ 2 ∧ z + r * Real.sin angle1 ≤ p.2.2 ∧ p.2.2 ≤ z + r * Real.sin angle2}

def GapIs3 (A B : Set (ℝ × ℝ × ℝ)) (g : ℝ) : Prop :=
  (∀ p ∈ A, ∀ q ∈ B, g ≤ apart3 p q) ∧ ∃ p ∈ A, ∃ q ∈ B, apart3 p q = g

end

end Verif.ContactMeshes
