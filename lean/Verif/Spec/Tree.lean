import Mathlib.Analysis.SpecialFunctions.Trigonometric.Arctan

/-!
Specification for C155 and C156: the curve of the Christmas tree and the boundaries made of it.  Nothing here refers to
the model.
-/

namespace Verif.Spec

noncomputable section

/-- The sawtooth-like curve with amplitude `r0` and slope `r1`; `t` sets how sharp the teeth are. -/
def sawtooth (t : ℝ) (r0 r1 : ℝ → ℝ) (x : ℝ) : ℝ :=
  r0 x * Real.arctan (t * Real.sin (Real.pi * x) / (1 - t * Real.cos (Real.pi * x))) / t + r1 x * x

/-- `ps` samples the graph of `f` from the origin to the first sample at or beyond `xmax`: strictly from left to right, with
widths of at most `dx` and distances of at most `2 dx` between neighbours. -/
structure FineSample (f : ℝ → ℝ) (dx xmax : ℝ) (ps : List (ℝ × ℝ)) : Prop where
  first : ps.head? = some (0, 0)
  graph : ∀ p ∈ ps, p.2 = f p.1
  right : ∀ i (h : i + 1 < ps.length), ps[i].1 < ps[i + 1].1
  width : ∀ i (h : i + 1 < ps.length), ps[i + 1].1 - ps[i].1 ≤ dx
  near : ∀ i (h : i + 1 < ps.length), Real.sqrt ((ps[i + 1].1 - ps[i].1) ^ 2 + (ps[i + 1].2 - ps[i].2) ^ 2) ≤ 2 * dx
  before : ∀ i (h : i + 1 < ps.length), ps[i].1 < xmax
  reach : ∃ p, ps.getLast? = some p ∧ xmax ≤ p.1

/-- Edge `i` of the closed polygon with the given corners joins corner `i - 1` (the last one if `i = 0`) and corner `i`; both
have the property. -/
def EdgeOn (corners : List (ℝ × ℝ)) (i : ℕ) (S : ℝ × ℝ → Prop) : Prop :=
  ∃ a b, corners[if i = 0 then corners.length - 1 else i - 1]? = some a ∧ corners[i]? = some b ∧ S a ∧ S b

/-- A point of the list or the mirror image of one in the `x` axis. -/
def OnTree (pts : List (ℝ × ℝ)) (a : ℝ × ℝ) : Prop := a ∈ pts ∨ (a.1, -a.2) ∈ pts

/-- On the boundary of the rectangle from `(left, -height)` to `(right, height)`, continued as lines. -/
def OnFrame (left right height : ℝ) (a : ℝ × ℝ) : Prop :=
  a.1 = left ∨ a.1 = right ∨ a.2 = height ∨ a.2 = -height

end

end Verif.Spec
