import Verif.Spec.Tree

/-!
Specification for C161: boundaries that run once around a body.  Nothing here refers to the model.
-/

namespace Verif.Spec

noncomputable section

/-- Every edge of the closed polygon with the given corners, from a corner to the next one and from the last to the first,
is a step of the given kind. -/
def EveryEdge (step : ℝ × ℝ → ℝ × ℝ → Prop) (corners : List (ℝ × ℝ)) : Prop :=
  ∀ i (h : i < corners.length),
    step (corners[if i = 0 then corners.length - 1 else i - 1]'(by split <;> omega)) corners[i]

/-- Mirror image in the `x` axis. -/
def mirror (p : ℝ × ℝ) : ℝ × ℝ := (p.1, -p.2)

/-- Steps along the tree: backwards from point to point along the mirrored curve, across from the mirror image of its first
point to this point, and forwards from point to point along the curve. -/
inductive AlongTree (pts : List (ℝ × ℝ)) : ℝ × ℝ → ℝ × ℝ → Prop
  | lower (i : ℕ) (h : i + 1 < pts.length) : AlongTree pts (mirror pts[i + 1]) (mirror pts[i])
  | tip (h : 0 < pts.length) : AlongTree pts (mirror pts[0]) pts[0]
  | upper (i : ℕ) (h : i + 1 < pts.length) : AlongTree pts pts[i] pts[i + 1]

/-- Steps along the sides of the rectangle from `(left, -height)` to `(right, height)`, always counterclockwise. -/
inductive AlongFrame (left right height : ℝ) : ℝ × ℝ → ℝ × ℝ → Prop
  | up (y y' : ℝ) : -height ≤ y → y < y' → y' ≤ height → AlongFrame left right height (right, y) (right, y')
  | back (x x' : ℝ) : left ≤ x' → x' < x → x ≤ right → AlongFrame left right height (x, height) (x', height)
  | down (y y' : ℝ) : -height ≤ y' → y' < y → y ≤ height → AlongFrame left right height (left, y) (left, y')
  | forth (x x' : ℝ) : left ≤ x → x < x' → x' ≤ right → AlongFrame left right height (x, -height) (x', -height)

/-- Steps downwards along a vertical line, between two heights. -/
def Downwards (x low high : ℝ) (a b : ℝ × ℝ) : Prop := a.1 = x ∧ b.1 = x ∧ low ≤ b.2 ∧ b.2 < a.2 ∧ a.2 ≤ high

end

end Verif.Spec
