import Verif.Model.SplitBox
import Verif.Spec.SplitBox
import Verif.Props.Meshing
import Verif.Props.TreeBoundary
import Mathlib.Algebra.BigOperators.Intervals
import Mathlib.Tactic.FieldSimp
import Mathlib.Tactic.LinearCombination
import Mathlib.Tactic.IntervalCases

/-!
Properties C163, C164: the bodies of the split boxes.
-/

namespace Verif.SplitBox

open Verif.Meshing Verif.Spec Verif.Spec.Meshing

noncomputable section

/-! ### shoelace formula -/

theorem cross_self (a : ℝ × ℝ) : cross a a = 0 := by unfold cross; ring

theorem cross_swap (a b : ℝ × ℝ) : cross b a = -cross a b := by unfold cross; ring

theorem alongLine_join (l m : List (ℝ × ℝ)) (a : ℝ × ℝ) :
    alongLine (l ++ a :: m) = alongLine (l ++ [a]) + alongLine (a :: m) := by
  induction l with
  | nil => simp [alongLine]
  | cons b l ih =>
    cases l with
    | nil => simp [alongLine]
    | cons c l =>
      simp only [List.cons_append] at ih ⊢
      simp only [alongLine, ih]
      ring

theorem alongLine_reverse (l : List (ℝ × ℝ)) : alongLine l.reverse = -alongLine l := by
  induction l with
  | nil => simp [alongLine]
  | cons a l ih =>
    cases l with
    | nil => simp [alongLine]
    | cons b l =>
      rw [List.reverse_cons] at ih ⊢
      rw [List.reverse_cons, List.append_assoc, List.singleton_append, alongLine_join, ih]
      simp only [alongLine, cross_swap a b]
      ring

theorem area_cons (a : ℝ × ℝ) (l : List (ℝ × ℝ)) : area (a :: l) = alongLine (a :: (l ++ [a])) / 2 := rfl

theorem area_rotate_one (a : ℝ × ℝ) (l : List (ℝ × ℝ)) : area (l ++ [a]) = area (a :: l) := by
  cases l with
  | nil => rfl
  | cons b l =>
    rw [List.cons_append, area_cons, area_cons]
    have h1 := alongLine_join (b :: l) [b] a
    have h2 : alongLine (a :: (b :: l ++ [a])) = cross a b + alongLine (b :: l ++ [a]) := rfl
    have h3 : alongLine [a, b] = cross a b := by simp [alongLine]
    rw [h2, ← h3, add_comm]
    rw [← h1]
    simp

theorem area_rotated {l m : List (ℝ × ℝ)} (h : l ~r m) : area l = area m := by
  obtain ⟨n, rfl⟩ := h
  induction n generalizing l with
  | zero => simp
  | succ n ih =>
    cases l with
    | nil => simp
    | cons a l => rw [List.rotate_cons_succ, ← ih, area_rotate_one]

theorem area_reverse (l : List (ℝ × ℝ)) : area l.reverse = -area l := by
  cases l with
  | nil => simp [area, alongLine]
  | cons a l =>
    rw [List.reverse_cons, area_rotate_one, area_cons, area_cons]
    have : a :: (l.reverse ++ [a]) = (a :: (l ++ [a])).reverse := by simp
    rw [this, alongLine_reverse]
    ring

/-- A polyline and the rest of a polygon: the area changes by that between the polyline and its chord. -/
theorem area_replace {line rest : List (ℝ × ℝ)} {a b : ℝ × ℝ} (h : RunsFrom line a b) (hrest : rest ≠ []) :
    area (line ++ rest) = area (a :: b :: rest) + area line := by
  obtain ⟨h1, h2⟩ := h
  cases line with
  | nil => simp at h1
  | cons c line =>
    obtain rfl : c = a := by simpa using h1
    obtain ⟨r, rest, rfl⟩ := List.exists_cons_of_ne_nil hrest
    rw [List.cons_append, area_cons, area_cons, area_cons]
    -- the last point of the polyline
    obtain ⟨init, hinit⟩ : ∃ init, c :: line = init ++ [b] := by
      refine ⟨(c :: line).dropLast, ?_⟩
      rw [List.dropLast_append_getLast? b h2]
    have e1 : alongLine (c :: (line ++ r :: rest ++ [c])) = alongLine (c :: line) + alongLine (b :: (r :: rest ++ [c])) := by
      have : c :: (line ++ r :: rest ++ [c]) = init ++ b :: (r :: rest ++ [c]) := by
        rw [List.append_assoc, ← List.cons_append, hinit]
        simp
      rw [this, alongLine_join, ← hinit]
    have e2 : alongLine (c :: (line ++ [c])) = alongLine (c :: line) + cross b c := by
      have : c :: (line ++ [c]) = init ++ b :: [c] := by rw [← List.cons_append, hinit]; simp
      rw [this, alongLine_join, ← hinit]
      simp [alongLine]
    have e3 : alongLine (c :: (b :: r :: rest ++ [c])) = cross c b + alongLine (b :: (r :: rest ++ [c])) := rfl
    rw [e1, e2, e3, cross_swap c b]
    ring

/-! ### the curves -/

theorem foldl_points {α : Type} (f : ℝ → α) (t : List ℝ) (acc : List α) :
    t.foldl (fun points tt => points ++ [f tt]) acc = acc ++ t.map f := by
  induction t generalizing acc with
  | nil => simp
  | cons a t ih => rw [List.foldl_cons, ih, List.map_cons, List.append_assoc]; rfl

theorem verticalLine_eq (t : List ℝ) (x0 x1 : ℝ × ℝ) :
    verticalLine t x0 x1 = t.map (fun tt => (x0.1, x0.2 + tt * (x1.2 - x0.2))) := by
  rw [verticalLine, foldl_points, List.nil_append]

theorem horizontalLine_eq (t : List ℝ) (x0 x1 : ℝ × ℝ) :
    horizontalLine t x0 x1 = t.map (fun tt => (x0.1 + tt * (x1.1 - x0.1), x0.2 + tt * (x1.2 - x0.2))) := by
  rw [horizontalLine, foldl_points, List.nil_append]

theorem horizontalSine_eq (t : List ℝ) (x0 x1 : ℝ × ℝ) :
    horizontalSine t x0 x1 = t.map (fun tt => (x0.1 + tt * (x1.1 - x0.1),
      x0.2 + tt * (x1.2 - x0.2) + 0.1 * Real.sin (8 * Real.pi * tt))) := by
  rw [horizontalSine, foldl_points, List.nil_append]

theorem sine_start : Real.sin (8 * Real.pi * 0) = 0 := by simp

theorem sine_end : Real.sin (8 * Real.pi * 1) = 0 := by
  rw [mul_one, show 8 * Real.pi = (8 : ℕ) * Real.pi by norm_num]
  exact Real.sin_nat_mul_pi 8

theorem runs_map (f : ℝ → ℝ × ℝ) {n : ℕ} (hn : 1 ≤ n) : RunsFrom ((Tree.linspace 0 1 (n + 1)).map f) (f 0) (f 1) := by
  refine ⟨?_, ?_⟩
  · rw [List.head?_map, Tree.linspace_head _ _ (by omega)]; rfl
  · rw [List.getLast?_map, Tree.linspace_last _ _ (by omega)]; rfl

/-- C163: the sine and the straight line of `horizontal_line` run from `x0` to `x1`. -/
theorem C163_ends (n : ℕ) (hn : 1 ≤ n) (x0 x1 : ℝ × ℝ) :
    RunsFrom (horizontalLine (Tree.linspace 0 1 (n + 1)) x0 x1) x0 x1 ∧
    RunsFrom (horizontalSine (Tree.linspace 0 1 (n + 1)) x0 x1) x0 x1 := by
  rw [horizontalLine_eq, horizontalSine_eq]
  refine ⟨?_, ?_⟩
  · have h := runs_map (fun tt => (x0.1 + tt * (x1.1 - x0.1), x0.2 + tt * (x1.2 - x0.2))) hn
    simpa using h
  · have h := runs_map (fun tt => (x0.1 + tt * (x1.1 - x0.1),
      x0.2 + tt * (x1.2 - x0.2) + 0.1 * Real.sin (8 * Real.pi * tt))) hn
    simp only [sine_start, sine_end] at h
    simpa using h

/-- C163, what holds of `vertical_line`: it runs to the point at the height of `x1` above or below `x0`, which is `x1` only if
both have the same abscissa. -/
theorem C163_vertical_partial (n : ℕ) (hn : 1 ≤ n) (x0 x1 : ℝ × ℝ) (h : x0.1 = x1.1) :
    RunsFrom (verticalLine (Tree.linspace 0 1 (n + 1)) x0 x1) x0 x1 := by
  rw [verticalLine_eq]
  have h' := runs_map (fun tt => (x0.1, x0.2 + tt * (x1.2 - x0.2))) hn
  simp only [h] at h' ⊢
  have e : x0 = (x1.1, x0.2) := by rw [← h]
  rw [e]
  simpa using h'

/-- C163 in full fails for `vertical_line`: for every `x0`, `x1` with different abscissas the interface does not run to `x1`. -/
theorem C163_vertical_violated (n : ℕ) (hn : 1 ≤ n) (x0 x1 : ℝ × ℝ) (h : x0.1 ≠ x1.1) :
    ¬ RunsFrom (verticalLine (Tree.linspace 0 1 (n + 1)) x0 x1) x0 x1 := by
  rw [verticalLine_eq]
  have h' := (runs_map (fun tt => (x0.1, x0.2 + tt * (x1.2 - x0.2))) hn).2
  rintro ⟨-, h2⟩
  rw [h'] at h2
  have h3 := Option.some.inj h2
  exact h (by rw [← h3])

theorem alongLine_range (f : ℕ → ℝ × ℝ) (n : ℕ) :
    alongLine ((List.range (n + 1)).map f) = ∑ i ∈ Finset.range n, cross (f i) (f (i + 1)) := by
  induction n with
  | zero => simp [alongLine]
  | succ n ih =>
    rw [List.range_succ, List.map_append, Finset.sum_range_succ, ← ih]
    rw [List.range_succ, List.map_append]
    show alongLine (List.map f (List.range n) ++ [f n] ++ [f (n + 1)]) = _
    rw [List.append_assoc, List.singleton_append, alongLine_join]
    simp [alongLine]

/-- Area between a curve over the chord and the chord. -/
theorem area_wave (s : ℝ → ℝ) (n : ℕ) (hn : 1 ≤ n) (x0 d : ℝ × ℝ) (h0 : s 0 = 0) (h1 : s 1 = 0)
    (hs : ∀ t, s (1 - t) = -s t) :
    area ((Tree.linspace 0 1 (n + 1)).map (fun t => (x0.1 + t * d.1, x0.2 + t * d.2 + s t))) = 0 := by
  set f : ℝ → ℝ × ℝ := fun t => (x0.1 + t * d.1, x0.2 + t * d.2 + s t) with hf
  have hn0 : (n : ℝ) ≠ 0 := by
    have : n ≠ 0 := by omega
    exact_mod_cast this
  have e : (Tree.linspace 0 1 (n + 1)).map f = (List.range (n + 1)).map (fun i : ℕ => f ((i : ℝ) / n)) := by
    rw [Tree.linspace, List.map_map]
    refine List.map_congr_left (fun i _ => ?_)
    simp [Function.comp]
  have hrun := runs_map f hn
  have harea : area ((Tree.linspace 0 1 (n + 1)).map f)
      = (alongLine ((Tree.linspace 0 1 (n + 1)).map f) + cross (f 1) (f 0)) / 2 := by
    obtain ⟨h1, h2⟩ := hrun
    unfold area
    rw [h1]
    generalize (Tree.linspace 0 1 (n + 1)).map f = l at h2
    have hl : l = l.dropLast ++ [f 1] := (List.dropLast_append_getLast? (f 1) h2).symm
    have : l ++ (some (f 0)).toList = l.dropLast ++ f 1 :: [f 0] := by
      conv_lhs => rw [hl]
      simp
    rw [this, alongLine_join, ← hl]
    simp [alongLine]
  rw [harea, e, alongLine_range]
  set a : ℕ → ℝ := fun i => s ((i : ℝ) / n) with ha
  have ha0 : a 0 = 0 := by simp [ha, h0]
  have han : a n = 0 := by simp [ha, hn0, h1]
  have hrefl : ∀ i ≤ n, a (n - i) = -a i := by
    intro i hi
    have : ((n - i : ℕ) : ℝ) / n = 1 - (i : ℝ) / n := by
      rw [Nat.cast_sub hi]
      field_simp
    simp only [ha, this, hs]
  have hsum : ∑ i ∈ Finset.range n, a i = 0 := by
    have h1 : ∑ i ∈ Finset.range (n + 1), a i = ∑ i ∈ Finset.range n, a i := by
      rw [Finset.sum_range_succ, han, add_zero]
    have h2 := Finset.sum_range_reflect a (n + 1)
    have h3 : ∑ i ∈ Finset.range (n + 1), a (n + 1 - 1 - i) = -∑ i ∈ Finset.range (n + 1), a i := by
      rw [← Finset.sum_neg_distrib]
      refine Finset.sum_congr rfl (fun i hi => ?_)
      rw [Finset.mem_range] at hi
      rw [Nat.add_sub_cancel]
      exact hrefl i (by omega)
    linarith
  have hshift : ∑ i ∈ Finset.range n, (i : ℝ) * a (i + 1) = -∑ i ∈ Finset.range n, ((n : ℝ) - 1 - i) * a i := by
    rw [← Finset.sum_range_reflect (fun i : ℕ => (i : ℝ) * a (i + 1)) n, ← Finset.sum_neg_distrib]
    refine Finset.sum_congr rfl (fun i hi => ?_)
    rw [Finset.mem_range] at hi
    have e1 : n - 1 - i + 1 = n - i := by omega
    have e2 : ((n - 1 - i : ℕ) : ℝ) = (n : ℝ) - 1 - i := by
      rw [Nat.sub_sub, Nat.cast_sub (by omega)]
      push_cast
      ring
    rw [e1, hrefl i (by omega), e2]
    ring
  have hterm : ∀ i ∈ Finset.range n, cross (f ((i : ℝ) / n)) (f (((i + 1 : ℕ) : ℝ) / n))
      = (x0.1 * d.2 - d.1 * x0.2) / n + x0.1 * (a (i + 1) - a i) + d.1 / n * ((i : ℝ) * a (i + 1))
        - d.1 / n * (((i : ℝ) + 1) * a i) := by
    intro i _
    simp only [cross, hf, ha]
    push_cast
    field_simp
    ring
  rw [Finset.sum_congr rfl hterm]
  rw [Finset.sum_sub_distrib, Finset.sum_add_distrib, Finset.sum_add_distrib, ← Finset.mul_sum, ← Finset.mul_sum,
    ← Finset.mul_sum, Finset.sum_range_sub, Finset.sum_const, Finset.card_range, hshift, ha0, han]
  have hcomb : ∑ i ∈ Finset.range n, ((i : ℝ) + 1) * a i + ∑ i ∈ Finset.range n, ((n : ℝ) - 1 - i) * a i = 0 := by
    rw [← Finset.sum_add_distrib]
    have : ∀ i ∈ Finset.range n, ((i : ℝ) + 1) * a i + ((n : ℝ) - 1 - i) * a i = (n : ℝ) * a i := by
      intro i _; ring
    rw [Finset.sum_congr rfl this, ← Finset.mul_sum, hsum, mul_zero]
  have hend : cross (f 1) (f 0) = -(x0.1 * d.2 - d.1 * x0.2) := by
    simp only [cross, hf, h0, h1]
    ring
  rw [hend]
  simp only [nsmul_eq_mul]
  have : (n : ℝ) * ((x0.1 * d.2 - d.1 * x0.2) / n) = x0.1 * d.2 - d.1 * x0.2 := by field_simp
  rw [this]
  linear_combination (-(d.1 / n) / 2) * hcomb

/-- The area between each of the curves and its chord is zero. -/
theorem curve_area (n : ℕ) (hn : 1 ≤ n) (x0 x1 : ℝ × ℝ) :
    area (horizontalLine (Tree.linspace 0 1 (n + 1)) x0 x1) = 0 ∧
    area (horizontalSine (Tree.linspace 0 1 (n + 1)) x0 x1) = 0 ∧
    area (verticalLine (Tree.linspace 0 1 (n + 1)) x0 x1) = 0 := by
  rw [horizontalLine_eq, horizontalSine_eq, verticalLine_eq]
  refine ⟨?_, ?_, ?_⟩
  · have := area_wave (fun _ => 0) n hn x0 (x1.1 - x0.1, x1.2 - x0.2) rfl rfl (fun _ => by simp)
    simpa using this
  · refine area_wave (fun t => 0.1 * Real.sin (8 * Real.pi * t)) n hn x0 (x1.1 - x0.1, x1.2 - x0.2) (by simp)
      (by rw [sine_end]; simp) (fun t => ?_)
    have : Real.sin (8 * Real.pi * (1 - t)) = -Real.sin (8 * Real.pi * t) := by
      rw [show 8 * Real.pi * (1 - t) = (4 : ℕ) * (2 * Real.pi) - 8 * Real.pi * t by push_cast; ring,
        Real.sin_nat_mul_two_pi_sub]
    rw [this]
    ring
  · have := area_wave (fun _ => 0) n hn x0 (0, x1.2 - x0.2) rfl rfl (fun _ => by simp)
    simpa using this

/-- The curve functions of the module. -/
inductive IsCurveFun : (List ℝ → ℝ × ℝ → ℝ × ℝ → List (ℝ × ℝ)) → Prop
  | vertical : IsCurveFun verticalLine
  | line : IsCurveFun horizontalLine
  | sine : IsCurveFun horizontalSine

theorem curveFun_area {curve : List ℝ → ℝ × ℝ → ℝ × ℝ → List (ℝ × ℝ)} (hc : IsCurveFun curve) {n : ℕ} (hn : 1 ≤ n)
    (x0 x1 : ℝ × ℝ) : area (curve (Tree.linspace 0 1 (n + 1)) x0 x1) = 0 := by
  obtain ⟨h1, h2, h3⟩ := curve_area n hn x0 x1
  cases hc
  · exact h3
  · exact h1
  · exact h2

/-- C163: the edge between `x0` and `x1` is replaced by the interface, in the direction of the edge.  If the interface runs
from `x0` to `x1` and has area zero with its chord, the body has the area of the polygon of its corners. -/
theorem body_area {curve : List ℝ → ℝ × ℝ → ℝ × ℝ → List (ℝ × ℝ)} {n : ℕ} {L H : ℝ} {x0 x1 : ℝ × ℝ}
    (hrun : RunsFrom (curve (Tree.linspace 0 1 (n + 1)) x0 x1) x0 x1)
    (ha : area (curve (Tree.linspace 0 1 (n + 1)) x0 x1) = 0) {domain rest : List ℕ} (h1 : Once domain) (hrest : rest ≠ [])
    (h : Around domain 4 5 rest ∨ Around domain 5 4 rest) :
    ∃ r, body curve n domain L H x0 x1 = .ok r ∧ area r = area (domain.map (corners L H x0 x1)) := by
  have hr : rest.map (corners L H x0 x1) ≠ [] := by simpa using hrest
  rcases h with h | h
  · refine ⟨_, C69_forward domain rest _ _ h hrest h1, ?_⟩
    rw [area_replace hrun hr, ha, add_zero]
    exact area_rotated (h.map (corners L H x0 x1)).symm
  · refine ⟨_, C69_backward domain rest _ _ h hrest h1, ?_⟩
    have hrun' : RunsFrom (curve (Tree.linspace 0 1 (n + 1)) x0 x1).reverse x1 x0 :=
      ⟨by rw [List.head?_reverse]; exact hrun.2, by rw [List.getLast?_reverse]; exact hrun.1⟩
    rw [area_replace hrun' hr, area_reverse, ha, neg_zero, add_zero]
    exact area_rotated (h.map (corners L H x0 x1)).symm

/-- C163: a box split from bottom to top, as by default: both bodies exist and their areas add up to that of the box, whatever
the numbers of segments are. -/
theorem C163_split_vertical {curve : List ℝ → ℝ × ℝ → ℝ × ℝ → List (ℝ × ℝ)} (hc : IsCurveFun curve) (n1 n2 : ℕ) (hn1 : 1 ≤ n1)
    (hn2 : 1 ≤ n2) (L H a b : ℝ) (hrun : ∀ n, 1 ≤ n → RunsFrom (curve (Tree.linspace 0 1 (n + 1)) (a, 0) (b, H)) (a, 0) (b, H)) :
    ∃ r1 r2, body curve n1 [0, 4, 5, 3] L H (a, 0) (b, H) = .ok r1 ∧ body curve n2 [4, 1, 2, 5] L H (a, 0) (b, H) = .ok r2
      ∧ area r1 = (a + b) / 2 * H ∧ area r2 = (L - (a + b) / 2) * H ∧ area r1 + area r2 = L * H := by
  obtain ⟨r1, e1, h1⟩ := body_area (L := L) (H := H) (domain := [0, 4, 5, 3]) (rest := [3, 0]) (hrun n1 hn1)
    (curveFun_area hc hn1 _ _) (by decide) (by simp) (.inl ⟨1, by rfl⟩)
  obtain ⟨r2, e2, h2⟩ := body_area (L := L) (H := H) (domain := [4, 1, 2, 5]) (rest := [1, 2]) (hrun n2 hn2)
    (curveFun_area hc hn2 _ _) (by decide) (by simp) (.inr ⟨3, by rfl⟩)
  have a1 : area r1 = (a + b) / 2 * H := by
    rw [h1]
    simp [corners, area, alongLine, cross]
    ring
  have a2 : area r2 = (L - (a + b) / 2) * H := by
    rw [h2]
    simp [corners, area, alongLine, cross]
    ring
  exact ⟨r1, r2, e1, e2, a1, a2, by rw [a1, a2]; ring⟩

/-- C163: a box split from left to right, as in the demos. -/
theorem C163_split_horizontal {curve : List ℝ → ℝ × ℝ → ℝ × ℝ → List (ℝ × ℝ)} (hc : IsCurveFun curve) (n1 n2 : ℕ)
    (hn1 : 1 ≤ n1) (hn2 : 1 ≤ n2) (L H a b : ℝ)
    (hrun : ∀ n, 1 ≤ n → RunsFrom (curve (Tree.linspace 0 1 (n + 1)) (0, a) (L, b)) (0, a) (L, b)) :
    ∃ r1 r2, body curve n1 [0, 1, 5, 4] L H (0, a) (L, b) = .ok r1 ∧ body curve n2 [4, 5, 2, 3] L H (0, a) (L, b) = .ok r2
      ∧ area r1 = (a + b) / 2 * L ∧ area r2 = (H - (a + b) / 2) * L ∧ area r1 + area r2 = L * H := by
  obtain ⟨r1, e1, h1⟩ := body_area (L := L) (H := H) (domain := [0, 1, 5, 4]) (rest := [0, 1]) (hrun n1 hn1)
    (curveFun_area hc hn1 _ _) (by decide) (by simp) (.inr ⟨2, by rfl⟩)
  obtain ⟨r2, e2, h2⟩ := body_area (L := L) (H := H) (domain := [4, 5, 2, 3]) (rest := [2, 3]) (hrun n2 hn2)
    (curveFun_area hc hn2 _ _) (by decide) (by simp) (.inl ⟨0, by rfl⟩)
  have a1 : area r1 = (a + b) / 2 * L := by
    rw [h1]
    simp [corners, area, alongLine, cross]
    ring
  have a2 : area r2 = (H - (a + b) / 2) * L := by
    rw [h2]
    simp [corners, area, alongLine, cross]
    ring
  exact ⟨r1, r2, e1, e2, a1, a2, by rw [a1, a2]; ring⟩

/-- C163: the two loops of the unsplit box run around its parts above and below the interface, the second one clockwise. -/
theorem C163_unsplit {curve : List ℝ → ℝ × ℝ → ℝ × ℝ → List (ℝ × ℝ)} (hc : IsCurveFun curve) (n : ℕ)
    (hn : 1 ≤ n) (L H a b : ℝ) (hrun : RunsFrom (curve (Tree.linspace 0 1 (n + 1)) (0, a) (L, b)) (0, a) (L, b)) :
    ∃ r1 r2, unsplit curve n L H (0, a) (L, b) = .ok (r1, r2)
      ∧ area r1 = (H - (a + b) / 2) * L ∧ area r2.reverse = (a + b) / 2 * L ∧ area r1 + area r2.reverse = L * H := by
  have hb : body curve n [2, 3, 4, 5] L H (0, a) (L, b)
      = .ok (curve (Tree.linspace 0 1 (n + 1)) (0, a) (L, b) ++ [(L, H), (0, H)]) :=
    C69_forward [2, 3, 4, 5] [2, 3] _ _ ⟨2, by rfl⟩ (by simp) (by decide)
  have ha := curveFun_area hc hn (0, a) (L, b)
  generalize curve (Tree.linspace 0 1 (n + 1)) (0, a) (L, b) = line at hrun hb ha
  have hgen := hrun
  obtain ⟨h1, h2⟩ := hrun
  cases line with
  | nil => simp at h1
  | cons c t =>
    obtain rfl : c = (0, a) := by simpa using h1
    set c : ℝ × ℝ := (0, a) with hcdef
    have e1 : (c :: t ++ [(L, H), (0, H)]).getD ((c :: t ++ [(L, H), (0, H)]).length - 3) 0 = (L, b) := by
      rw [List.getLast?_eq_getElem?] at h2
      rw [List.getD_eq_getElem?_getD, List.getElem?_append_left (by simp)]
      have : (c :: t ++ [(L, H), (0, H)]).length - 3 = (c :: t).length - 1 := by simp
      rw [this, h2]
      rfl
    have e2 : (slice 1 ((c :: t ++ [(L, H), (0, H)]).length - 2) (c :: t ++ [(L, H), (0, H)]).length).map
        (fun i => (c :: t ++ [(L, H), (0, H)]).getD i 0) = t := by
      apply List.ext_getElem
      · simp [slice]
      · intro i h1 h2
        simp [slice, List.getElem_range', Nat.add_comm 1 i, List.getElem?_append_left h2, List.getElem?_eq_getElem h2]
    refine ⟨c :: t ++ [(L, H), (0, H)], t ++ [(L, 0), (0, 0), c], ?_, ?_⟩
    · unfold unsplit
      rw [hb]
      show Except.ok (_, _) = _
      rw [e1, e2]
      rfl
    · have a1 : area (c :: t ++ [(L, H), (0, H)]) = (H - (a + b) / 2) * L := by
        rw [area_replace hgen (by simp), ha, hcdef]
        simp [area, alongLine, cross]
        ring
      have a2 : area (t ++ [(L, 0), (0, 0), c]).reverse = (a + b) / 2 * L := by
        have : area (t ++ [(L, 0), (0, 0), c]) = area (c :: t ++ [(L, 0), (0, 0)]) := by
          have := area_rotate_one c (t ++ [(L, 0), (0, 0)])
          simpa using this
        rw [area_reverse, this, area_replace hgen (by simp), ha, hcdef]
        simp [area, alongLine, cross]
        ring
      exact ⟨a1, a2, by rw [a1, a2]; ring⟩

/-- The hypotheses of C163 hold for the arguments of the demos and the default ones. -/
example : IsCurveFun horizontalSine ∧ IsCurveFun verticalLine
    ∧ (∀ n, 1 ≤ n → RunsFrom (horizontalSine (Tree.linspace 0 1 (n + 1)) (0, 1 / 2) (5, 7 / 10)) (0, 1 / 2) (5, 7 / 10))
    ∧ (∀ n, 1 ≤ n → RunsFrom (verticalLine (Tree.linspace 0 1 (n + 1)) (5 / 2, 0) (5 / 2, 1)) (5 / 2, 0) (5 / 2, 1)) :=
  ⟨.sine, .vertical, fun n hn => (C163_ends n hn _ _).2, fun n hn => C163_vertical_partial n hn _ _ rfl⟩

end

/-! ### loops and volumes -/

section

variable {Line Pt : Type} [DecidableEq Line]

omit [DecidableEq Line] in
/-- A loop around all lines `g i` from point `i - 1` to point `i`. -/
theorem closed_ring (ends : Line → Pt × Pt) (g : ℕ → Line) (hg : Function.Injective g) (p : ℕ → Pt) (N : ℕ)
    (h : ∀ i < N, ends (g i) = (p (prev N i), p i)) :
    ClosedLoop ends ((List.range N).map (fun i => (g i, false))) := by
  refine ⟨?_, ?_⟩
  · rw [List.map_map]
    exact List.nodup_range.map (f := Prod.fst ∘ fun i => (g i, false)) (fun a b hab => hg hab)
  · intro i hi
    simp only [List.length_map, List.length_range] at hi
    have hp : prev N i < N := by unfold prev; split <;> omega
    simp only [List.length_map, List.length_range, List.getElem_map, List.getElem_range]
    show (ends (g i)).1 = (ends (g (prev N i))).2
    rw [h i hi, h _ hp]

omit [DecidableEq Line] in
/-- A loop of four lines. -/
theorem closed_four (ends : Line → Pt × Pt) (a b c d : Line × Bool) (hn : [a.1, b.1, c.1, d.1].Nodup)
    (h1 : startOf ends a = endOf ends d) (h2 : startOf ends b = endOf ends a) (h3 : startOf ends c = endOf ends b)
    (h4 : startOf ends d = endOf ends c) : ClosedLoop ends [a, b, c, d] := by
  refine ⟨hn, fun i hi => ?_⟩
  simp only [List.length_cons, List.length_nil] at hi
  interval_cases i
  · exact h1
  · exact h2
  · exact h3
  · exact h4

/-- Count of the elements with a property in a list without duplicates. -/
theorem countP_of {α : Type} [DecidableEq α] (l m : List α) (q : α → Bool) (hl : l.Nodup) (hm : m.Nodup)
    (h : ∀ x, x ∈ m ↔ x ∈ l ∧ q x = true) : l.countP q = m.length := by
  rw [List.countP_eq_length_filter]
  refine (List.Perm.length_eq ?_).symm
  rw [List.perm_ext_iff_of_nodup hm (hl.filter q)]
  intro x
  rw [h, List.mem_filter]

end

theorem prev_lt {N i : ℕ} (hi : i < N) : prev N i < N := by unfold prev; split <;> omega

theorem prev_ne {N i : ℕ} (hN : 2 ≤ N) (hi : i < N) : prev N i ≠ i := by unfold prev; split <;> omega

/-- The line `z i` is in the lateral surfaces `i` and the one after it. -/
theorem next_of {N j : ℕ} (hj : j < N) (i : ℕ) (hi : i < N) : prev N i = j ↔ i = (if j + 1 = N then 0 else j + 1) := by
  unfold prev
  split <;> split <;> omega

/-- C164: all curve loops of `create_tet_mesh` are closed, and the surfaces of its volume leave no hole. -/
theorem C164_tet (N : ℕ) (hN : 3 ≤ N) : (∀ loop ∈ tetLoops N, ClosedLoop (tetEnds N) loop) ∧ Watertight (tetLoops N) := by
  refine ⟨?_, ?_⟩
  · intro loop hloop
    simp only [tetLoops, List.mem_append, List.mem_singleton, List.mem_map, List.mem_range] at hloop
    rcases hloop with (rfl | ⟨i, hi, rfl⟩) | rfl
    · exact closed_ring _ TetLine.one (fun a b h => by simpa using h) (fun i => (i, false)) N (fun i _ => rfl)
    · refine closed_four _ _ _ _ _ ?_ rfl rfl rfl rfl
      have := prev_ne (by omega) hi
      simp [this.symm]
    · exact closed_ring _ TetLine.two (fun a b h => by simpa using h) (fun i => (i, true)) N (fun i _ => rfl)
  · have key1 : ∀ j < N, (tetLoops N).countP (fun k => decide (TetLine.one j ∈ k.map Prod.fst)) = 2 := by
      intro j hj
      have hc := countP_of (List.range N) [j] (fun i => decide (TetLine.one j ∈
        [((TetLine.one i, false) : TetLine × Bool), (.z i, false), (.two i, true), (.z (prev N i), true)].map Prod.fst))
        List.nodup_range (by simp) (fun x => by simp; constructor <;> (intro h; omega))
      simp only [tetLoops, List.countP_append, List.countP_map, List.countP_singleton]
      have e : ((fun k : List (TetLine × Bool) => decide (TetLine.one j ∈ k.map Prod.fst)) ∘
          fun i => [(.one i, false), (.z i, false), (.two i, true), (.z (prev N i), true)])
          = fun i => decide (TetLine.one j ∈ [((TetLine.one i, false) : TetLine × Bool), (.z i, false), (.two i, true),
            (.z (prev N i), true)].map Prod.fst) := rfl
      rw [e, hc]
      simp [hj]
    have key2 : ∀ j < N, (tetLoops N).countP (fun k => decide (TetLine.two j ∈ k.map Prod.fst)) = 2 := by
      intro j hj
      have hc := countP_of (List.range N) [j] (fun i => decide (TetLine.two j ∈
        [((TetLine.one i, false) : TetLine × Bool), (.z i, false), (.two i, true), (.z (prev N i), true)].map Prod.fst))
        List.nodup_range (by simp) (fun x => by simp; constructor <;> (intro h; omega))
      simp only [tetLoops, List.countP_append, List.countP_map, List.countP_singleton]
      have e : ((fun k : List (TetLine × Bool) => decide (TetLine.two j ∈ k.map Prod.fst)) ∘
          fun i => [(.one i, false), (.z i, false), (.two i, true), (.z (prev N i), true)])
          = fun i => decide (TetLine.two j ∈ [((TetLine.one i, false) : TetLine × Bool), (.z i, false), (.two i, true),
            (.z (prev N i), true)].map Prod.fst) := rfl
      rw [e, hc]
      simp [hj]
    have key3 : ∀ j < N, (tetLoops N).countP (fun k => decide (TetLine.z j ∈ k.map Prod.fst)) = 2 := by
      intro j hj
      have hc := countP_of (List.range N) [j, if j + 1 = N then 0 else j + 1] (fun i => decide (TetLine.z j ∈
        [((TetLine.one i, false) : TetLine × Bool), (.z i, false), (.two i, true), (.z (prev N i), true)].map Prod.fst))
        List.nodup_range (by simp; split <;> omega) (fun x => by
          simp
          constructor
          · intro h
            have hx : x < N := by rcases h with h | h <;> (try split at h) <;> omega
            refine ⟨hx, ?_⟩
            rcases h with h | h
            · exact .inl h.symm
            · exact .inr ((next_of hj x hx).mpr h).symm
          · rintro ⟨hx, h | h⟩
            · exact .inl h.symm
            · exact .inr ((next_of hj x hx).mp h.symm))
      simp only [tetLoops, List.countP_append, List.countP_map, List.countP_singleton]
      have e : ((fun k : List (TetLine × Bool) => decide (TetLine.z j ∈ k.map Prod.fst)) ∘
          fun i => [(.one i, false), (.z i, false), (.two i, true), (.z (prev N i), true)])
          = fun i => decide (TetLine.z j ∈ [((TetLine.one i, false) : TetLine × Bool), (.z i, false), (.two i, true),
            (.z (prev N i), true)].map Prod.fst) := rfl
      rw [e, hc]
      simp
    intro loop hloop l hl
    simp only [tetLoops, List.mem_append, List.mem_singleton, List.mem_map, List.mem_range] at hloop
    rcases hloop with (rfl | ⟨i, hi, rfl⟩) | rfl
    · simp only [List.map_map, List.mem_map, List.mem_range] at hl
      obtain ⟨j, hj, rfl⟩ := hl
      exact key1 j hj
    · simp only [List.map_cons, List.map_nil, List.mem_cons, List.not_mem_nil, or_false] at hl
      rcases hl with rfl | rfl | rfl | rfl
      · exact key1 i hi
      · exact key3 i hi
      · exact key2 i hi
      · exact key3 _ (prev_lt hi)
    · simp only [List.map_map, List.mem_map, List.mem_range] at hl
      obtain ⟨j, hj, rfl⟩ := hl
      exact key2 j hj

/-! ### the unsplit box -/

/-- The lines of the first volume of the unsplit box, as those of a body of the split box. -/
def asBox : TetLine → BoxLine
  | .one i => .one i
  | .two i => .three i
  | .z i => .five i

theorem asBox_injective : Function.Injective asBox := by
  intro a b h
  cases a <;> cases b <;> simp_all [asBox]

theorem boxVolume1_eq (N : ℕ) : boxVolume1 N = (tetLoops N).map (fun loop => loop.map (fun l => (asBox l.1, l.2))) := by
  simp [boxVolume1, tetLoops, boxPlanar, boxLateral, asBox, Function.comp_def]

theorem boxEnds_asBox (N : ℕ) (l : TetLine) : boxEnds N (asBox l) = tetEnds N l := by cases l <;> rfl

theorem closed_chain {Line Pt : Type} (ends : Line → Pt × Pt) (g : ℕ → Line) (N : ℕ)
    (hg : ∀ i < N, ∀ j < N, g i = g j → i = j) (h : ∀ i < N, (ends (g i)).1 = (ends (g (prev N i))).2) :
    ClosedLoop ends ((List.range N).map (fun i => (g i, false))) := by
  refine ⟨?_, ?_⟩
  · rw [List.map_map]
    exact List.Nodup.map_on (f := Prod.fst ∘ fun i => (g i, false))
      (fun a ha b hb hab => hg a (List.mem_range.mp ha) b (List.mem_range.mp hb) hab) List.nodup_range
  · intro i hi
    simp only [List.length_map, List.length_range] at hi
    simp only [List.length_map, List.length_range, List.getElem_map, List.getElem_range]
    exact h i hi

/-- The loop of a planar surface of the second volume: the lines `g 1, ..., g (N - 3)` along the interface and then `k 0, k 1,
k 2`. -/
theorem planar_eq {Line : Type} (g k : ℕ → Line) (N : ℕ) (hN : 4 ≤ N) :
    (slice 1 (N - 2) N).map (fun i => (g i, false)) ++ (List.range 3).map (fun i => (k i, false))
      = (List.range N).map (fun i => (if i < N - 3 then g (i + 1) else k (i - (N - 3)), false)) := by
  apply List.ext_getElem
  · simp [slice]; omega
  · intro i h1 h2
    simp at h2
    by_cases hi : i < N - 3
    · rw [List.getElem_append_left (by simp [slice]; omega)]
      simp [slice, hi, Nat.add_comm 1 i]
    · rw [List.getElem_append_right (by simp [slice]; omega)]
      have : N - 2 - 1 = N - 3 := by omega
      simp [slice, hi, this]

theorem planar_closed (ends : BoxLine → (ℕ × Bool) × (ℕ × Bool)) (g k : ℕ → BoxLine) (N : ℕ) (hN : 4 ≤ N) (s : Bool)
    (hg : ∀ i, ends (g i) = ((prev N i, s), (i, s)))
    (hk : ∀ i, ends (k i) = (((cornerPts N).getD i 0, s), ((cornerPts N).getD (i + 1) 0, s)))
    (i : ℕ) (hi : i < N) :
    (ends (if i < N - 3 then g (i + 1) else k (i - (N - 3)))).1
      = (ends (if prev N i < N - 3 then g (prev N i + 1) else k (prev N i - (N - 3)))).2 := by
  by_cases h0 : i = 0
  · subst h0
    have e : prev N 0 = N - 1 := rfl
    have e2 : N - 1 - (N - 3) = 2 := by omega
    rw [if_pos (by omega), e, if_neg (by omega), hg, hk, e2]
    rfl
  · have e : prev N i = i - 1 := by simp [prev, h0]
    rw [e]
    by_cases h1 : i < N - 3
    · rw [if_pos h1, if_pos (by omega), hg, hg]
      have : prev N (i + 1) = i - 1 + 1 := by simp [prev]; omega
      rw [this]
    · rw [if_neg h1, hk]
      by_cases h2 : i = N - 3
      · rw [if_pos (by omega), hg, h2, Nat.sub_self]
        have : N - 3 - 1 + 1 = N - 3 := by omega
        rw [this]
        rfl
      · rw [if_neg (by omega), hk]
        have : i - 1 - (N - 3) + 1 = i - (N - 3) := by omega
        rw [this]

theorem volume2_count (N : ℕ) (x : BoxLine) :
    (boxVolume2 N).countP (fun k => decide (x ∈ k.map Prod.fst))
      = (if x ∈ (slice 1 (N - 2) N).map BoxLine.one ++ (List.range 3).map BoxLine.two then 1 else 0)
        + (slice 1 (N - 2) N).countP (fun i => decide (x ∈ [BoxLine.one i, .five i, .three i, .five (prev N i)]))
        + (List.range 3).countP (fun i => decide (x ∈ [BoxLine.two i, (lines6 N).getD (i + 1) (.six 0), .four i,
          (lines6 N).getD i (.six 0)]))
        + (if x ∈ (slice 1 (N - 2) N).map BoxLine.three ++ (List.range 3).map BoxLine.four then 1 else 0) := by
  simp only [boxVolume2, List.countP_append, List.countP_map, List.countP_singleton]
  simp [boxPlanar, boxLateral, boxOuter, Function.comp_def, Bool.or_assoc]

theorem volume2_watertight (N : ℕ) (hN : 4 ≤ N) : Watertight (boxVolume2 N) := by
  have r3 : List.range 3 = [0, 1, 2] := rfl
  have hnd : (slice 1 (N - 2) N).Nodup := List.nodup_range'
  have hmem : ∀ i, i ∈ slice 1 (N - 2) N ↔ 1 ≤ i ∧ i ≤ N - 3 := by
    intro i
    simp only [slice, List.mem_range'_1]
    omega
  have k1 : ∀ j, 1 ≤ j → j ≤ N - 3 → (boxVolume2 N).countP (fun k => decide (BoxLine.one j ∈ k.map Prod.fst)) = 2 := by
    intro j h1 h2
    rw [volume2_count, countP_of _ [j] _ hnd (by simp) (fun x => by simp [hmem]; constructor <;> (intro h; omega))]
    simp [hmem, h1, h2, r3, lines6]
  have k3 : ∀ j, 1 ≤ j → j ≤ N - 3 → (boxVolume2 N).countP (fun k => decide (BoxLine.three j ∈ k.map Prod.fst)) = 2 := by
    intro j h1 h2
    rw [volume2_count, countP_of _ [j] _ hnd (by simp) (fun x => by simp [hmem]; constructor <;> (intro h; omega))]
    simp [hmem, h1, h2, r3, lines6]
  have k2 : ∀ j < 3, (boxVolume2 N).countP (fun k => decide (BoxLine.two j ∈ k.map Prod.fst)) = 2 := by
    intro j h1
    rw [volume2_count, countP_of (slice 1 (N - 2) N) [] _ hnd (by simp) (fun x => by simp)]
    interval_cases j <;> simp [r3, lines6]
  have k4 : ∀ j < 3, (boxVolume2 N).countP (fun k => decide (BoxLine.four j ∈ k.map Prod.fst)) = 2 := by
    intro j h1
    rw [volume2_count, countP_of (slice 1 (N - 2) N) [] _ hnd (by simp) (fun x => by simp)]
    interval_cases j <;> simp [r3, lines6]
  have k6 : ∀ j, j = 1 ∨ j = 2 → (boxVolume2 N).countP (fun k => decide (BoxLine.six j ∈ k.map Prod.fst)) = 2 := by
    intro j h1
    rw [volume2_count, countP_of (slice 1 (N - 2) N) [] _ hnd (by simp) (fun x => by simp)]
    rcases h1 with rfl | rfl <;> simp [r3, lines6]
  have k5 : ∀ j ≤ N - 3, (boxVolume2 N).countP (fun k => decide (BoxLine.five j ∈ k.map Prod.fst)) = 2 := by
    intro j hj
    have hp : ∀ x, 1 ≤ x → (j = prev N x ↔ x = j + 1) := by
      intro x hx
      simp only [prev, if_neg (show x ≠ 0 by omega)]
      omega
    rw [volume2_count]
    by_cases h0 : j = 0
    · rw [countP_of (slice 1 (N - 2) N) [1] _ hnd (by simp) (fun x => by
        simp only [hmem, List.mem_cons, List.not_mem_nil, or_false, BoxLine.five.injEq, reduceCtorEq, false_or,
          decide_eq_true_eq]
        constructor
        · intro h
          exact ⟨⟨by omega, by omega⟩, .inr ((hp x (by omega)).mpr (by omega))⟩
        · rintro ⟨h1, h2⟩
          rcases h2 with h2 | h2
          · omega
          · have := (hp x h1.1).mp h2
            omega)]
      have : N - 3 ≠ 0 := by omega
      simp [r3, lines6, h0, this.symm]
    · by_cases hM : j = N - 3
      · rw [countP_of (slice 1 (N - 2) N) [j] _ hnd (by simp) (fun x => by
          simp only [hmem, List.mem_cons, List.not_mem_nil, or_false, BoxLine.five.injEq, reduceCtorEq, false_or,
            decide_eq_true_eq]
          constructor
          · intro h
            exact ⟨⟨by omega, by omega⟩, .inl h.symm⟩
          · rintro ⟨h1, h2⟩
            rcases h2 with h2 | h2
            · exact h2.symm
            · have := (hp x h1.1).mp h2
              omega)]
        have : N - 3 ≠ 0 := by omega
        simp [r3, lines6, hM, this]
      · rw [countP_of (slice 1 (N - 2) N) [j, j + 1] _ hnd (by simp) (fun x => by
          simp only [hmem, List.mem_cons, List.not_mem_nil, or_false, BoxLine.five.injEq, reduceCtorEq, false_or,
            decide_eq_true_eq]
          constructor
          · intro h
            refine ⟨⟨by omega, by omega⟩, ?_⟩
            rcases h with h | h
            · exact .inl h.symm
            · exact .inr ((hp x (by omega)).mpr h)
          · rintro ⟨h1, h2⟩
            rcases h2 with h2 | h2
            · exact .inl h2.symm
            · exact .inr ((hp x h1.1).mp h2))]
        simp [r3, lines6, h0, hM]
  intro loop hloop l hl
  simp only [boxVolume2, List.mem_append, List.mem_singleton, List.mem_map, List.mem_range] at hloop
  rcases hloop with ((rfl | ⟨i, hi, rfl⟩) | ⟨i, hi, rfl⟩) | rfl
  · simp only [boxPlanar, List.getD_cons_succ, List.getD_cons_zero, List.map_append, List.map_map, List.mem_append,
      List.mem_map, Function.comp_apply, List.mem_range] at hl
    rcases hl with ⟨j, hj, rfl⟩ | ⟨j, hj, rfl⟩
    · exact k1 j ((hmem j).mp hj).1 ((hmem j).mp hj).2
    · exact k2 j hj
  · obtain ⟨h1, h2⟩ := (hmem i).mp hi
    simp only [boxLateral, List.map_cons, List.map_nil, List.mem_cons, List.not_mem_nil, or_false] at hl
    rcases hl with rfl | rfl | rfl | rfl
    · exact k1 i h1 h2
    · exact k5 i h2
    · exact k3 i h1 h2
    · refine k5 _ ?_
      simp only [prev, if_neg (show i ≠ 0 by omega)]
      omega
  · interval_cases i
    · have hl' : l ∈ [BoxLine.two 0, .six 1, .four 0, .five (N - 3)] := hl
      simp only [List.mem_cons, List.not_mem_nil, or_false] at hl'
      rcases hl' with rfl | rfl | rfl | rfl
      · exact k2 0 (by omega)
      · exact k6 1 (.inl rfl)
      · exact k4 0 (by omega)
      · exact k5 (N - 3) le_rfl
    · have hl' : l ∈ [BoxLine.two 1, .six 2, .four 1, .six 1] := hl
      simp only [List.mem_cons, List.not_mem_nil, or_false] at hl'
      rcases hl' with rfl | rfl | rfl | rfl
      · exact k2 1 (by omega)
      · exact k6 2 (.inr rfl)
      · exact k4 1 (by omega)
      · exact k6 1 (.inl rfl)
    · have hl' : l ∈ [BoxLine.two 2, .five 0, .four 2, .six 2] := hl
      simp only [List.mem_cons, List.not_mem_nil, or_false] at hl'
      rcases hl' with rfl | rfl | rfl | rfl
      · exact k2 2 (by omega)
      · exact k5 0 (by omega)
      · exact k4 2 (by omega)
      · exact k6 2 (.inr rfl)
  · simp only [boxPlanar, List.getD_cons_succ, List.getD_cons_zero, List.map_append, List.map_map, List.mem_append,
      List.mem_map, Function.comp_apply, List.mem_range] at hl
    rcases hl with ⟨j, hj, rfl⟩ | ⟨j, hj, rfl⟩
    · exact k3 j ((hmem j).mp hj).1 ((hmem j).mp hj).2
    · exact k4 j hj

/-- C164: all curve loops of the unsplit box are closed and the surfaces of its two volumes leave no hole. -/
theorem C164_unsplit (N : ℕ) (hN : 4 ≤ N) :
    (∀ loop ∈ boxVolume1 N ++ boxVolume2 N, ClosedLoop (boxEnds N) loop) ∧ Watertight (boxVolume1 N) ∧
      Watertight (boxVolume2 N) := by
  obtain ⟨t1, t2⟩ := C164_tet N (by omega)
  refine ⟨?_, ?_, ?_⟩
  · intro loop hloop
    rw [List.mem_append] at hloop
    rcases hloop with hloop | hloop
    · rw [boxVolume1_eq, List.mem_map] at hloop
      obtain ⟨l, hl, rfl⟩ := hloop
      obtain ⟨h1, h2⟩ := t1 l hl
      refine ⟨?_, fun i hi => ?_⟩
      · rw [List.map_map]
        have : (Prod.fst ∘ fun l : TetLine × Bool => (asBox l.1, l.2)) = asBox ∘ Prod.fst := rfl
        rw [this, ← List.map_map]
        exact h1.map asBox_injective
      · have := h2 i (by simpa using hi)
        simp only [List.length_map, List.getElem_map]
        simp only [startOf, endOf, boxEnds_asBox] at this ⊢
        exact this
    · simp only [boxVolume2, List.mem_append, List.mem_singleton, List.mem_map, List.mem_range] at hloop
      rcases hloop with ((rfl | ⟨i, hi, rfl⟩) | ⟨i, hi, rfl⟩) | rfl
      · show ClosedLoop (boxEnds N) ((slice 1 (N - 2) N).map (fun i => (BoxLine.one i, false))
          ++ (List.range 3).map (fun i => (BoxLine.two i, false)))
        rw [planar_eq _ _ N hN]
        refine closed_chain _ _ N (fun i hi j hj h => ?_) (fun i hi => ?_)
        · split at h <;> split at h <;> simp at h <;> omega
        · exact planar_closed (boxEnds N) BoxLine.one BoxLine.two N hN false (fun _ => rfl) (fun _ => rfl) i hi
      · simp only [slice, List.mem_range'_1] at hi
        refine closed_four _ _ _ _ _ ?_ rfl rfl rfl rfl
        have := prev_ne (N := N) (by omega) (show i < N by omega)
        simp [this.symm]
      · interval_cases i
        · refine closed_four _ _ _ _ _ ?_ ?_ ?_ ?_ ?_ <;> simp [lines6, startOf, endOf, boxEnds, cornerPts]
        · refine closed_four _ _ _ _ _ ?_ ?_ ?_ ?_ ?_ <;> simp [lines6, startOf, endOf, boxEnds, cornerPts]
        · refine closed_four _ _ _ _ _ ?_ ?_ ?_ ?_ ?_ <;> simp [lines6, startOf, endOf, boxEnds, cornerPts]
      · show ClosedLoop (boxEnds N) ((slice 1 (N - 2) N).map (fun i => (BoxLine.three i, false))
          ++ (List.range 3).map (fun i => (BoxLine.four i, false)))
        rw [planar_eq _ _ N hN]
        refine closed_chain _ _ N (fun i hi j hj h => ?_) (fun i hi => ?_)
        · split at h <;> split at h <;> simp at h <;> omega
        · exact planar_closed (boxEnds N) BoxLine.three BoxLine.four N hN true (fun _ => rfl) (fun _ => rfl) i hi
  · intro loop hloop l hl
    rw [boxVolume1_eq] at hloop ⊢
    obtain ⟨lo, hlo, rfl⟩ := List.mem_map.mp hloop
    simp only [List.map_map, List.mem_map, Function.comp_apply] at hl
    obtain ⟨x, hx, rfl⟩ := hl
    have := t2 lo hlo x.1 (List.mem_map_of_mem hx)
    rw [List.countP_map, ← this]
    congr 1
    funext k
    simp only [Function.comp_apply, List.map_map, decide_eq_decide]
    have : (Prod.fst ∘ fun l : TetLine × Bool => (asBox l.1, l.2)) = asBox ∘ Prod.fst := rfl
    rw [this, ← List.map_map]
    exact List.mem_map_of_injective asBox_injective
  · exact volume2_watertight N hN

/-- Four points of the interface and two corners. -/
example : (3 ≤ 6 ∧ 4 ≤ 6) ∧ (tetLoops 6).length = 8 ∧ (boxVolume1 6).length = 8 ∧ (boxVolume2 6).length = 8 := by decide

end Verif.SplitBox
