import Mathlib.Data.Real.Basic
import Mathlib.Data.List.Count

/-!
What a user expects of the bodies of the split boxes.  Nothing here refers to the model.
-/

namespace Verif.Spec

noncomputable section

/-- `det (a, b)`. -/
def cross (a b : ℝ × ℝ) : ℝ := a.1 * b.2 - b.1 * a.2

/-- Sum of the determinants along a polyline. -/
def alongLine : List (ℝ × ℝ) → ℝ
  | a :: b :: l => cross a b + alongLine (b :: l)
  | _ => 0

/-- The signed area of a closed polygon by the shoelace formula, positive for counterclockwise ones. -/
def area (ps : List (ℝ × ℝ)) : ℝ := alongLine (ps ++ ps.head?.toList) / 2

/-- The polyline starts at `a` and ends at `b`. -/
def RunsFrom (line : List (ℝ × ℝ)) (a b : ℝ × ℝ) : Prop := line.head? = some a ∧ line.getLast? = some b

end

section

variable {Line Pt : Type} [DecidableEq Line]

/-- Start and end of a line with a direction. -/
def startOf (ends : Line → Pt × Pt) (l : Line × Bool) : Pt := if l.2 then (ends l.1).2 else (ends l.1).1

def endOf (ends : Line → Pt × Pt) (l : Line × Bool) : Pt := if l.2 then (ends l.1).1 else (ends l.1).2

/-- A closed loop of lines: each starts where the one before it ends, the first one where the last one ends; no line occurs
twice. -/
def ClosedLoop (ends : Line → Pt × Pt) (loop : List (Line × Bool)) : Prop :=
  (loop.map Prod.fst).Nodup ∧ ∀ i (h : i < loop.length),
    startOf ends loop[i] = endOf ends (loop[if i = 0 then loop.length - 1 else i - 1]'(by split <;> omega))

/-- The surfaces leave no hole: each line of one of them is a line of exactly two of them. -/
def Watertight (loops : List (List (Line × Bool))) : Prop :=
  ∀ loop ∈ loops, ∀ l ∈ loop.map Prod.fst, loops.countP (fun k => l ∈ k.map Prod.fst) = 2

end

end Verif.Spec
