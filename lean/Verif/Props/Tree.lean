import Mathlib.Topology.UniformSpace.HeineCantor
import Mathlib.Topology.MetricSpace.Bounded
import Mathlib.Analysis.SpecialFunctions.Trigonometric.ArctanDeriv
import Verif.Model.Tree
import Verif.Spec.Tree
import Verif.Spec.Meshing

/-!
Properties C155 (the curve of the Christmas tree is sampled in finitely many steps) and C156 (physical groups of
its boundary).
-/

namespace Verif.Tree

open Verif.Spec Verif.Spec.Meshing

noncomputable section

/-! ### C155 -/

section

variable {f : ℝ → ℝ} {dx xmax : ℝ}

theorem inner_unique {last : ℝ × ℝ} {xp : ℝ} {p : ℝ × ℝ} (h : Inner f dx last xp p) :
    ∀ q, Inner f dx last xp q → q = p := by
  induction h with
  | stop xp h =>
    intro q hq
    cases hq with
    | stop _ _ => rfl
    | again _ _ h' _ => exact absurd h' h
  | again xp p h _ ih =>
    intro q hq
    cases hq with
    | stop _ h' => exact absurd h h'
    | again _ _ _ hq => exact ih q hq

theorem outer_unique {ps : List (ℝ × ℝ)} {last : ℝ × ℝ} {r : Result} (h : Outer f dx xmax ps last r) :
    ∀ r', Outer f dx xmax ps last r' → r' = r := by
  induction h with
  | stop ps last h =>
    intro r' h'
    cases h' with
    | stop _ _ _ => rfl
    | next _ _ _ _ h1 => exact absurd h1 h
    | unbound _ _ h1 => exact absurd h1 h
  | next ps last p r h1 h2 h3 _ ih =>
    intro r' h'
    cases h' with
    | stop _ _ h => exact absurd h1 h
    | next _ _ p' _ _ _ h3' h4' =>
      obtain rfl := inner_unique h3 p' h3'
      exact ih r' h4'
    | unbound _ _ _ h => exact absurd h2 h
  | unbound ps last h1 h2 =>
    intro r' h'
    cases h' with
    | stop _ _ h => exact absurd h1 h
    | next _ _ _ _ _ h => exact absurd h h2
    | unbound _ _ _ _ => rfl

/-- The inner loop ends, with a width that is at least `s`. -/
theorem inner_ends (hdx : 0 < dx) {last : ℝ × ℝ} {d : ℝ} (hd : 0 < d)
    (hf : ∀ w, 0 < w → w ≤ d → step last (last.1 + w, f (last.1 + w)) ≤ 2 * dx) (n : ℕ) :
    ∀ xp, 0 < xp → xp ≤ dx → xp * (8 / 10) ^ n ≤ d →
      ∃ w, Inner f dx last xp (last.1 + w, f (last.1 + w)) ∧ min xp (d * (8 / 10)) ≤ w ∧ w ≤ xp
        ∧ step last (last.1 + w, f (last.1 + w)) ≤ 2 * dx := by
  induction n with
  | zero =>
    intro xp h0 h1 h2
    rw [pow_zero, mul_one] at h2
    exact ⟨xp, .stop xp (not_lt.mpr (hf xp h0 h2)), min_le_left _ _, le_rfl, hf xp h0 h2⟩
  | succ n ih =>
    intro xp h0 h1 h2
    by_cases hs : step last (last.1 + xp, f (last.1 + xp)) > 2 * dx
    · have hx : d < xp := by
        by_contra hc
        exact absurd (hf xp h0 (not_lt.mp hc)) (not_le.mpr hs)
      obtain ⟨w, h3, h4, h5, h6⟩ := ih (xp * (8 / 10)) (by linarith) (by linarith) (by rw [pow_succ] at h2; linarith)
      refine ⟨w, .again xp _ hs h3, ?_, by linarith, h6⟩
      refine le_trans ?_ h4
      rw [min_eq_right (by linarith), min_eq_right (by linarith)]
    · exact ⟨xp, .stop xp hs, min_le_left _ _, le_rfl, not_lt.mp hs⟩

/-- What holds of the points so far. -/
structure Sampled (f : ℝ → ℝ) (dx xmax : ℝ) (ps : List (ℝ × ℝ)) : Prop where
  first : ps.head? = some (0, 0)
  graph : ∀ p ∈ ps, p.2 = f p.1
  right : ∀ i (h : i + 1 < ps.length), ps[i].1 < ps[i + 1].1
  width : ∀ i (h : i + 1 < ps.length), ps[i + 1].1 - ps[i].1 ≤ dx
  near : ∀ i (h : i + 1 < ps.length), Real.sqrt ((ps[i + 1].1 - ps[i].1) ^ 2 + (ps[i + 1].2 - ps[i].2) ^ 2) ≤ 2 * dx
  before : ∀ i (h : i + 1 < ps.length), ps[i].1 < xmax

theorem step_comm (a b : ℝ × ℝ) : Real.sqrt ((b.1 - a.1) ^ 2 + (b.2 - a.2) ^ 2) = step a b := by
  rw [step, add_comm]

theorem Sampled.snoc {ps : List (ℝ × ℝ)} {last : ℝ × ℝ} (S : Sampled f dx xmax (ps ++ [last])) (hl : last.1 < xmax)
    {w : ℝ} (hw : 0 < w) (hw' : w ≤ dx) (hs : step last (last.1 + w, f (last.1 + w)) ≤ 2 * dx) :
    Sampled f dx xmax (ps ++ [last] ++ [(last.1 + w, f (last.1 + w))]) := by
  have key : ∀ (P : ℝ × ℝ → ℝ × ℝ → Prop), (∀ i (h : i + 1 < (ps ++ [last]).length), P (ps ++ [last])[i] (ps ++ [last])[i + 1]) →
      P last (last.1 + w, f (last.1 + w)) →
      ∀ i (h : i + 1 < (ps ++ [last] ++ [(last.1 + w, f (last.1 + w))]).length),
        P (ps ++ [last] ++ [(last.1 + w, f (last.1 + w))])[i] (ps ++ [last] ++ [(last.1 + w, f (last.1 + w))])[i + 1] := by
    intro P h1 h2 i h
    by_cases hi : i + 1 < (ps ++ [last]).length
    · rw [List.getElem_append_left (by omega), List.getElem_append_left hi]
      exact h1 i hi
    · have e : i = ps.length := by
        simp only [List.length_append, List.length_cons, List.length_nil] at h hi
        omega
      subst e
      have : (ps ++ [last] ++ [(last.1 + w, f (last.1 + w))])[ps.length + 1] = (last.1 + w, f (last.1 + w)) := by
        rw [List.getElem_append_right (by simp)]
        simp
      rw [this, List.getElem_append_left (by simp), List.getElem_append_right (by simp)]
      simpa using h2
  refine ⟨?_, ?_, key (fun a b => a.1 < b.1) S.right (by simpa using hw), key (fun a b => b.1 - a.1 ≤ dx) S.width (by simpa using hw'),
    key (fun a b => Real.sqrt ((b.1 - a.1) ^ 2 + (b.2 - a.2) ^ 2) ≤ 2 * dx) S.near (by rw [step_comm]; exact hs),
    key (fun a _ => a.1 < xmax) S.before hl⟩
  · rw [List.head?_append_of_ne_nil _ (by simp)]
    exact S.first
  · intro p hp
    rcases List.mem_append.mp hp with hp | hp
    · exact S.graph p hp
    · obtain rfl := List.mem_singleton.mp hp
      rfl

theorem outer_ends (hdx : 0 < dx) (hf : ContinuousOn f (Set.Icc 0 (xmax + dx))) {last : ℝ × ℝ} (hy : last.2 = f last.1)
    (h0 : 0 ≤ last.1) : ∀ ps, Sampled f dx xmax (ps ++ [last]) →
      ∃ qs, Outer f dx xmax ps last (.points qs) ∧ FineSample f dx xmax qs := by
  obtain ⟨d, hd, hu⟩ := Metric.uniformContinuousOn_iff.mp (isCompact_Icc.uniformContinuousOn_of_continuous hf) dx hdx
  have hm : 0 < min (d / 2) dx := lt_min (by linarith) hdx
  set m := min (d / 2) dx with hmdef
  have near : ∀ last : ℝ × ℝ, last.2 = f last.1 → 0 ≤ last.1 → last.1 < xmax → ∀ w, 0 < w → w ≤ m →
      step last (last.1 + w, f (last.1 + w)) ≤ 2 * dx := by
    intro last hy h0 hx w hw hwm
    have w1 : w ≤ d / 2 := hwm.trans (min_le_left _ _)
    have w2 : w ≤ dx := hwm.trans (min_le_right _ _)
    have := hu (last.1 + w) ⟨by linarith, by linarith⟩ last.1 ⟨h0, by linarith⟩ (by
      rw [Real.dist_eq, add_sub_cancel_left, abs_of_pos hw]
      linarith)
    rw [Real.dist_eq] at this
    have hb := abs_lt.mp this
    unfold step
    refine Real.sqrt_le_iff.mpr ⟨by linarith, ?_⟩
    simp only [add_sub_cancel_left, hy]
    nlinarith
  -- each step is at least `s` wide
  have hs : 0 < min dx (m * (8 / 10)) := lt_min hdx (by linarith)
  set s := min dx (m * (8 / 10)) with hsdef
  have main : ∀ (n : ℕ) (last : ℝ × ℝ), last.2 = f last.1 → 0 ≤ last.1 → xmax - last.1 ≤ n * s →
      ∀ ps, Sampled f dx xmax (ps ++ [last]) → ∃ qs, Outer f dx xmax ps last (.points qs) ∧ FineSample f dx xmax qs := by
    intro n
    induction n with
    | zero =>
      intro last hy h0 hn ps S
      have hx : ¬ last.1 < xmax := by
        rw [Nat.cast_zero, zero_mul] at hn
        linarith
      exact ⟨_, .stop ps last hx, ⟨S.first, S.graph, S.right, S.width, S.near, S.before, last, by simp, not_lt.mp hx⟩⟩
    | succ n ih =>
      intro last hy h0 hn ps S
      by_cases hx : last.1 < xmax
      · obtain ⟨k, hk⟩ := exists_pow_lt_of_lt_one (show (0 : ℝ) < m / dx by positivity) (show (8 / 10 : ℝ) < 1 by norm_num)
        obtain ⟨w, h1, h2, h3, h4⟩ := inner_ends hdx hm (near last hy h0 hx) k dx hdx le_rfl (by
          rw [lt_div_iff₀ hdx] at hk
          linarith)
        have hw : 0 < w := lt_of_lt_of_le hs h2
        obtain ⟨qs, h5, h6⟩ := ih (last.1 + w, f (last.1 + w)) rfl (by show (0 : ℝ) ≤ last.1 + w; linarith) (by
          show xmax - (last.1 + w) ≤ n * s
          push_cast at hn
          linarith) (ps ++ [last]) (S.snoc hx hw h3 h4)
        exact ⟨qs, .next ps last _ _ hx (by linarith) h1 h5, h6⟩
      · exact ⟨_, .stop ps last hx, ⟨S.first, S.graph, S.right, S.width, S.near, S.before, last, by simp, not_lt.mp hx⟩⟩
  obtain ⟨n, hn⟩ := exists_nat_ge ((xmax - last.1) / s)
  exact main n last hy h0 (by rw [div_le_iff₀ hs] at hn; exact hn)

end

theorem sawtooth_continuous {t : ℝ} (ht : |t| < 1) {r0 r1 : ℝ → ℝ} (h0 : Continuous r0) (h1 : Continuous r1) :
    Continuous (sawtooth t r0 r1) := by
  unfold sawtooth
  have hne : ∀ x : ℝ, 1 - t * Real.cos (Real.pi * x) ≠ 0 := by
    intro x hx
    have : |t * Real.cos (Real.pi * x)| < 1 := by
      rw [abs_mul]
      calc |t| * |Real.cos (Real.pi * x)| ≤ |t| * 1 := mul_le_mul_of_nonneg_left (Real.abs_cos_le_one _) (abs_nonneg _)
        _ < 1 := by linarith
    have h := (abs_lt.mp this).2
    linarith
  have harg : Continuous (fun x : ℝ => t * Real.sin (Real.pi * x) / (1 - t * Real.cos (Real.pi * x))) :=
    Continuous.div (by fun_prop) (by fun_prop) hne
  have ha : Continuous (fun x : ℝ => Real.arctan (t * Real.sin (Real.pi * x) / (1 - t * Real.cos (Real.pi * x)))) :=
    Real.continuous_arctan.comp harg
  exact ((h0.mul ha).div_const t).add (h1.mul continuous_id)

/-- C155: for every positive number of points, every `0 < |t| < 1` (the curve divides by `t`) and all continuous `r0`, `r1` the call ends, has one result, and
this is a fine sample of the curve. -/
theorem C155_jagged_curve (npoints : ℤ) (hn : 0 < npoints) (t : ℝ) (_ : t ≠ 0) (ht : |t| < 1) (r0 r1 : ℝ → ℝ) (h0 : Continuous r0)
    (h1 : Continuous r1) (xmax : ℝ) :
    ∃ ps, JaggedCurve npoints t r0 r1 xmax (.points ps)
      ∧ (∀ r, JaggedCurve npoints t r0 r1 xmax r → r = .points ps)
      ∧ FineSample (sawtooth t r0 r1) (xmax / npoints) xmax ps := by
  have hz : sawtooth t r0 r1 0 = 0 := by simp [sawtooth]
  have hc : curve t r0 r1 = sawtooth t r0 r1 := rfl
  have hn' : (0 : ℝ) < npoints := by exact_mod_cast hn
  have S : ∀ dx, Sampled (sawtooth t r0 r1) dx xmax ([] ++ [((0 : ℝ), (0 : ℝ))]) := by
    intro dx
    refine ⟨rfl, ?_, ?_, ?_, ?_, ?_⟩
    · intro p hp
      obtain rfl := List.mem_singleton.mp hp
      exact hz.symm
    all_goals
      intro i h
      simp at h
  unfold JaggedCurve
  simp only [if_neg hn.ne', hc]
  obtain ⟨ps, h2, h3⟩ : ∃ ps, Outer (sawtooth t r0 r1) (xmax / npoints) xmax [] (0, 0) (.points ps)
      ∧ FineSample (sawtooth t r0 r1) (xmax / npoints) xmax ps := by
    by_cases hx : 0 < xmax
    · exact outer_ends (div_pos hx hn') (sawtooth_continuous ht h0 h1).continuousOn hz.symm le_rfl [] (S _)
    · have T := S (xmax / npoints)
      exact ⟨_, .stop [] (0, 0) hx, ⟨T.first, T.graph, T.right, T.width, T.near, T.before, (0, 0), rfl, not_lt.mp hx⟩⟩
  exact ⟨ps, h2, fun r hr => outer_unique h2 r hr, h3⟩

/-- The parameters of `create_christmas_tree_mesh` (`christmas_tree.py:172`). -/
example : (0 : ℤ) < 101 ∧ (-95 / 100 : ℝ) ≠ 0 ∧ |(-95 / 100 : ℝ)| < 1 ∧ Continuous (fun x : ℝ => 8 / 10 * x / 5) ∧ Continuous (fun _ : ℝ => (6 / 10 : ℝ)) :=
  ⟨by norm_num, by norm_num, by rw [abs_lt]; constructor <;> norm_num, by fun_prop, by fun_prop⟩

/-- C155: a number of points that is not positive is reported by an exception instead (for a curve of positive length). -/
theorem C155_invalid (npoints : ℤ) (hn : npoints ≤ 0) (t : ℝ) (r0 r1 : ℝ → ℝ) {xmax : ℝ} (hx : 0 < xmax) (r : Result) :
    JaggedCurve npoints t r0 r1 xmax r ↔ r = if npoints = 0 then .zeroDivision else .unbound := by
  unfold JaggedCurve
  by_cases h : npoints = 0
  · rw [if_pos h, if_pos h]
  · rw [if_neg h, if_neg h]
    have hn' : (npoints : ℝ) < 0 := by exact_mod_cast lt_of_le_of_ne hn h
    have hd := div_neg_of_pos_of_neg hx hn'
    have hu : Outer (curve t r0 r1) (xmax / npoints) xmax [] (0, 0) .unbound := .unbound [] (0, 0) hx (by
      intro h
      linarith)
    exact ⟨fun hr => outer_unique hu r hr, fun hr => hr ▸ hu⟩

example : (-3 : ℤ) ≤ 0 ∧ (0 : ℝ) < 8 := by norm_num

/-! ### C156 -/

theorem take_pySlice {α : Type} (xs : List α) {a b : ℕ} (h : a ≤ b) : xs.take a ++ pySlice xs a b = xs.take b := by
  unfold pySlice
  have : (xs.take b).take a = xs.take a := by rw [List.take_take, min_eq_left h]
  rw [← this, List.take_append_drop]

/-- Consecutive parts of a list, cut at `c 0, c 1, …`. -/
theorem parts_flatten {α : Type} (xs : List α) (c : ℕ → ℕ) (h0 : c 0 = 0) (n : ℕ) (h : ∀ i < n, c i ≤ c (i + 1)) :
    ((List.range n).map (fun i => pySlice xs (c i) (c (i + 1)))).flatten = xs.take (c n) := by
  induction n with
  | zero => simp [h0]
  | succ n ih =>
    rw [List.range_succ, List.map_append, List.flatten_append, ih (fun i hi => h i (by omega))]
    simp [take_pySlice xs (h n (by omega))]

theorem slice_range {a b n : ℕ} (h : b ≤ n) : Verif.Meshing.slice a b n = List.range' a (b - a) := by
  rw [Verif.Meshing.slice, min_eq_left h]

theorem treeInner_eq {X B : ℕ} (hX : 2 ≤ X) (hB : 2 ≤ B) :
    treeInner X B (2 * X + B - 4) = List.range' (X + B - 2) (X - 2) ++ List.range' 0 (X - 1) := by
  rw [treeInner, slice_range le_rfl, slice_range (by omega)]
  congr 2
  omega

theorem innerGroups_flatten (X B N : ℕ) {split : ℕ} (hs : 0 < split) :
    (innerGroups X B N split).flatten = treeInner X B N ++ treeBottom X B N := by
  unfold innerGroups
  simp only [List.flatten_append, List.flatten_cons, List.flatten_nil, List.append_nil]
  rw [parts_flatten (treeInner X B N) (fun i => i * ((treeInner X B N).length / split)) (zero_mul _) (split - 1)
    (fun i _ => Nat.mul_le_mul_right _ (Nat.le_succ i)), List.take_append_drop]

theorem partition_inner {X B split : ℕ} (hX : 2 ≤ X) (hB : 2 ≤ B) (hs : 0 < split) :
    Partition (innerGroups X B (2 * X + B - 4) split) (2 * X + B - 4) := by
  unfold Partition
  rw [innerGroups_flatten X B _ hs, treeInner_eq hX hB, treeBottom, slice_range (by omega)]
  have e1 := List.range'_append_1 (s := 0) (m := X - 1) (n := X + B - 2 - (X - 1))
  have e2 := List.range'_append_1 (s := 0) (m := X - 1 + (X + B - 2 - (X - 1))) (n := X - 2)
  rw [show 0 + (X - 1) = X - 1 by omega] at e1
  rw [show 0 + (X - 1 + (X + B - 2 - (X - 1))) = X + B - 2 by omega,
    show X - 1 + (X + B - 2 - (X - 1)) + (X - 2) = 2 * X + B - 4 by omega] at e2
  rw [List.range_eq_range', ← e2, ← e1, List.append_assoc]
  exact List.perm_append_comm

theorem linspace_length (a b : ℝ) (n : ℕ) : (linspace a b n).length = n := by simp [linspace]

theorem inside_length {α : Type} (xs : List α) : (inside xs).length = xs.length - 2 := by
  simp only [inside, List.length_dropLast, List.length_drop]
  omega

theorem innerTree_length {pts : List (ℝ × ℝ)} {nc : ℕ} (h : 2 ≤ pts.length) (hnc : 2 ≤ nc) :
    (innerTree pts nc).length = 2 * pts.length + nc - 4 := by
  simp only [innerTree, List.length_append, List.length_drop, List.length_map, List.length_reverse, inside_length,
    linspace_length]
  omega

/-- Edges whose two end points are corners number `a` to `b`. -/
theorem edgeOn_of {corners : List (ℝ × ℝ)} {i : ℕ} {S : ℝ × ℝ → Prop} (hi : i < corners.length)
    (h1 : ∀ x, corners[if i = 0 then corners.length - 1 else i - 1]? = some x → S x)
    (h2 : ∀ x, corners[i]? = some x → S x) : EdgeOn corners i S := by
  have hj : (if i = 0 then corners.length - 1 else i - 1) < corners.length := by split <;> omega
  exact ⟨_, _, List.getElem?_eq_getElem hj, List.getElem?_eq_getElem hi, h1 _ (List.getElem?_eq_getElem hj),
    h2 _ (List.getElem?_eq_getElem hi)⟩

theorem innerTree_low {pts : List (ℝ × ℝ)} {nc j : ℕ} {x : ℝ × ℝ} (hj : j < pts.length - 1)
    (h : (innerTree pts nc)[j]? = some x) : x ∈ pts ∧ (j = pts.length - 2 → x = pts.getLastD (0, 0)) := by
  simp only [innerTree, List.append_assoc] at h
  rw [List.getElem?_append_left (by simpa using hj), List.getElem?_drop] at h
  refine ⟨List.mem_of_getElem? h, fun hl => ?_⟩
  rw [List.getLastD_eq_getLast?, List.getLast?_eq_getElem?, ← show 1 + j = pts.length - 1 by omega, h]
  rfl

theorem innerTree_mid {pts : List (ℝ × ℝ)} {nc j : ℕ} {x : ℝ × ℝ} (h1 : pts.length - 1 ≤ j)
    (h2 : j < pts.length - 1 + (nc - 2)) (h : (innerTree pts nc)[j]? = some x) : x.1 = (pts.getLastD (0, 0)).1 := by
  simp only [innerTree, List.append_assoc] at h
  rw [List.getElem?_append_right (by simpa using h1), List.getElem?_append_left (by
    simp only [List.length_map, inside_length, linspace_length, List.length_drop]
    omega)] at h
  obtain ⟨y, -, rfl⟩ := List.mem_map.mp (List.mem_of_getElem? h)
  rfl

theorem innerTree_high {pts : List (ℝ × ℝ)} {nc j : ℕ} {x : ℝ × ℝ} (h0 : 2 ≤ pts.length)
    (h1 : pts.length - 1 + (nc - 2) ≤ j) (h : (innerTree pts nc)[j]? = some x) :
    (x.1, -x.2) ∈ pts ∧ (j = pts.length - 1 + (nc - 2) → x.1 = (pts.getLastD (0, 0)).1) := by
  simp only [innerTree] at h
  rw [List.getElem?_append_right (by
    simp only [List.length_append, List.length_map, inside_length, linspace_length, List.length_drop]
    omega)] at h
  have hl : (pts.drop 1 ++ (inside (linspace (pts.getLastD (0, 0)).2 (-(pts.getLastD (0, 0)).2) nc)).map
      (fun y => ((pts.getLastD (0, 0)).1, y))).length = pts.length - 1 + (nc - 2) := by
    simp only [List.length_append, List.length_map, inside_length, linspace_length, List.length_drop]
  constructor
  · have := List.mem_of_getElem? h
    rw [List.mem_reverse] at this
    obtain ⟨p, hp, rfl⟩ := List.mem_map.mp this
    simpa using List.mem_of_mem_drop hp
  · intro hj
    rw [hl, hj, Nat.sub_self] at h
    rw [List.getElem?_reverse (by simp; omega)] at h
    simp only [List.length_map, List.length_drop, List.getElem?_map, List.getElem?_drop] at h
    rw [List.getLastD_eq_getLast?, List.getLast?_eq_getElem?]
    rw [show 1 + (pts.length - 1 - 1 - 0) = pts.length - 1 by omega] at h
    rw [List.getElem?_eq_getElem (by omega)] at h ⊢
    simp only [Option.map_some, Option.some.injEq] at h
    rw [← h]
    rfl

/-- C156: the groups of the inner body.  Every edge of its boundary is in exactly one group; the edges of the last group (tag 3)
lie on the bottom, those of the other groups on the tree. -/
theorem C156_inner (pts : List (ℝ × ℝ)) (nc split : ℕ) (hX : 2 ≤ pts.length) (hB : 2 ≤ nc) (hs : 0 < split) :
    Partition (innerGroups pts.length nc (innerTree pts nc).length split) (innerTree pts nc).length
    ∧ (innerGroups pts.length nc (innerTree pts nc).length split).length = split + 1
    ∧ (∀ i, InGroup (innerGroups pts.length nc (innerTree pts nc).length split) split i →
        EdgeOn (innerTree pts nc) i (fun a => a.1 = (pts.getLastD (0, 0)).1))
    ∧ ∀ g < split, ∀ i, InGroup (innerGroups pts.length nc (innerTree pts nc).length split) g i →
        EdgeOn (innerTree pts nc) i (OnTree pts) := by
  have hlen := innerTree_length hX hB
  have hg : (innerGroups pts.length nc (innerTree pts nc).length split).length = split + 1 := by
    simp only [innerGroups, List.length_append, List.length_map, List.length_range, List.length_cons, List.length_nil]
    omega
  have hl : (innerGroups pts.length nc (innerTree pts nc).length split)[split]? =
      some (treeBottom pts.length nc (innerTree pts nc).length) := by
    unfold innerGroups
    dsimp only
    rw [List.getElem?_append_right (by simp; omega)]
    simp [show split - (split - 1 + 1) = 0 by omega]
  refine ⟨by rw [hlen]; exact partition_inner hX hB hs, hg, fun i hi => ?_, fun g hgs i hi => ?_⟩
  · unfold InGroup at hi
    rw [List.getD_eq_getElem?_getD, hl, Option.getD_some, hlen, treeBottom, slice_range (by omega), List.mem_range'_1] at hi
    refine edgeOn_of (by omega) (fun x hx => ?_) (fun x hx => ?_)
    · rw [if_neg (by omega)] at hx
      by_cases h : i - 1 < pts.length - 1
      · rw [(innerTree_low h hx).2 (by omega)]
      · exact innerTree_mid (by omega) (by omega) hx
    · by_cases h : i < pts.length - 1 + (nc - 2)
      · exact innerTree_mid (by omega) h hx
      · exact (innerTree_high hX (by omega) hx).2 (by omega)
  · unfold InGroup at hi
    have hmem : i ∈ treeInner pts.length nc (innerTree pts nc).length := by
      have key : ∀ G ∈ (innerGroups pts.length nc (innerTree pts nc).length split).take split, ∀ j ∈ G,
          j ∈ treeInner pts.length nc (innerTree pts nc).length := by
        intro G hG j hj
        unfold innerGroups at hG
        dsimp only at hG
        rw [List.take_append_of_le_length (by simp; omega)] at hG
        rcases List.mem_append.mp (List.mem_of_mem_take hG) with h | h
        · obtain ⟨k, -, rfl⟩ := List.mem_map.mp h
          exact List.mem_of_mem_take (List.mem_of_mem_drop hj)
        · obtain rfl := List.mem_singleton.mp h
          exact List.mem_of_mem_drop hj
      have hgl : g < (innerGroups pts.length nc (innerTree pts nc).length split).length := by omega
      rw [List.getD_eq_getElem?_getD, List.getElem?_eq_getElem hgl, Option.getD_some] at hi
      refine key _ ?_ i hi
      rw [List.mem_take_iff_getElem]
      exact ⟨g, by omega, rfl⟩
    rw [hlen, treeInner_eq hX hB, List.mem_append, List.mem_range'_1, List.mem_range'_1] at hmem
    refine edgeOn_of (by omega) (fun x hx => ?_) (fun x hx => ?_)
    · rcases hmem with h | h
      · rw [if_neg (by omega)] at hx
        exact Or.inr (innerTree_high hX (by omega) hx).1
      · by_cases h0 : i = 0
        · rw [if_pos h0] at hx
          by_cases h3 : (innerTree pts nc).length - 1 < pts.length - 1
          · exact Or.inl (innerTree_low h3 hx).1
          · exact Or.inr (innerTree_high hX (by omega) hx).1
        · rw [if_neg h0] at hx
          exact Or.inl (innerTree_low (by omega) hx).1
    · rcases hmem with h | h
      · exact Or.inr (innerTree_high hX (by omega) hx).1
      · exact Or.inl (innerTree_low (by omega) hx).1

/-- The points of the surrounding body's tree: the curve, shifted. -/
def shifted (pts : List (ℝ × ℝ)) : List (ℝ × ℝ) := pts.map (fun p => (p.1 + 1 / 100, p.2 + 1 / 10))

theorem shifted_length (pts : List (ℝ × ℝ)) : (shifted pts).length = pts.length := by simp [shifted]

theorem outerTree_length (pts : List (ℝ × ℝ)) {nc : ℕ} (factor : ℝ) (hnc : 2 ≤ nc) :
    (outerTree pts nc factor).length = 2 * pts.length + 3 * nc + 10 := by
  simp only [outerTree, List.length_append, List.length_map, List.length_reverse, inside_length, linspace_length]
  omega

/-- The parts of the boundary of the surrounding body. -/
theorem outerTree_eq (pts : List (ℝ × ℝ)) (nc : ℕ) (factor : ℝ) :
    ∃ A B : List (ℝ × ℝ), outerTree pts nc factor
        = A ++ (((shifted pts).map (fun p => (p.1, -p.2))).reverse ++ ((shifted pts) ++ B))
      ∧ A.length = 6 ∧ (∀ a ∈ A, OnFrame (-1) ((shifted pts).getLastD (0, 0)).1 (((shifted pts).getLastD (0, 0)).2 * factor) a)
      ∧ (∀ a ∈ B, OnFrame (-1) ((shifted pts).getLastD (0, 0)).1 (((shifted pts).getLastD (0, 0)).2 * factor) a) := by
  refine ⟨_, _, by
    simp only [outerTree, List.append_assoc]
    rfl, ?_, ?_, ?_⟩
  · simp [inside_length, linspace_length]
  · intro a ha
    obtain ⟨y, -, rfl⟩ := List.mem_map.mp ha
    exact Or.inr (Or.inl rfl)
  · intro a ha
    simp only [List.mem_append, List.mem_reverse] at ha
    rcases ha with ha | ha | ha | ha <;> obtain ⟨y, -, rfl⟩ := List.mem_map.mp ha
    · exact Or.inr (Or.inl rfl)
    · exact Or.inr (Or.inr (Or.inl rfl))
    · exact Or.inl rfl
    · exact Or.inr (Or.inr (Or.inr rfl))

theorem outerParts_flatten {outer : List ℕ} {num split : ℕ} (hs : 0 < split) (h : (split - 1) * num + 1 ≤ outer.length) :
    (outerParts outer num split).flatten = outer := by
  have e : outerParts outer num split = (List.range split).map (fun i => pySlice outer
      (if i = 0 then 0 else if i = split then outer.length else i * num + 1)
      (if i + 1 = 0 then 0 else if i + 1 = split then outer.length else (i + 1) * num + 1)) := by
    unfold outerParts
    refine List.map_congr_left (fun i hi => ?_)
    have hi' := List.mem_range.mp hi
    rw [if_neg (show i + 1 ≠ 0 by omega)]
    by_cases h1 : i = split - 1
    · rw [if_pos h1, if_pos (show i + 1 = split by omega), if_neg (show i ≠ split by omega)]
    · rw [if_neg h1, if_neg (show i + 1 ≠ split by omega), if_neg (show i ≠ split by omega)]
  rw [e, parts_flatten outer (fun i => if i = 0 then 0 else if i = split then outer.length else i * num + 1) rfl split ?_]
  · rw [if_neg (by omega), if_pos rfl, List.take_length]
  · intro i hi
    rw [if_neg (show i + 1 ≠ 0 by omega)]
    by_cases h0 : i = 0
    · rw [if_pos h0]
      exact Nat.zero_le _
    · rw [if_neg h0, if_neg (show i ≠ split by omega)]
      by_cases h1 : i + 1 = split
      · rw [if_pos h1]
        have : i = split - 1 := by omega
        rw [this]
        exact h
      · rw [if_neg h1]
        have : i * num ≤ (i + 1) * num := Nat.mul_le_mul_right num (Nat.le_succ i)
        omega

theorem treeInner_length {X B : ℕ} (hX : 2 ≤ X) (hB : 2 ≤ B) : (treeInner X B (2 * X + B - 4)).length = 2 * X - 3 := by
  rw [treeInner_eq hX hB]
  simp
  omega

theorem parts_fit {X split : ℕ} (hX : 2 ≤ X) (hs : 0 < split) : (split - 1) * ((2 * X - 3) / split) + 1 ≤ 2 * X - 1 := by
  have h1 : (split - 1) * ((2 * X - 3) / split) ≤ split * ((2 * X - 3) / split) := Nat.mul_le_mul_right _ (by omega)
  have h2 := Nat.mul_div_le (2 * X - 3) split
  omega

theorem treeOuter_eq {h X N : ℕ} (hN : h + 2 * X ≤ N) : treeOuter h X N = List.range' (h + 1) (2 * X - 1) := by
  rw [treeOuter, slice_range hN]
  congr 1
  omega

theorem mem_outerParts {outer : List ℕ} {num split g i : ℕ} (hi : InGroup (outerParts outer num split) g i) : i ∈ outer := by
  unfold InGroup at hi
  rw [List.getD_eq_getElem?_getD] at hi
  cases hG : (outerParts outer num split)[g]? with
  | none => rw [hG] at hi; simp at hi
  | some G =>
    rw [hG, Option.getD_some] at hi
    obtain ⟨k, -, rfl⟩ := List.mem_map.mp (List.mem_of_getElem? hG)
    exact List.mem_of_mem_take (List.mem_of_mem_drop hi)

theorem last_mirrored {pts : List (ℝ × ℝ)} (h : pts ≠ []) {x : ℝ × ℝ}
    (hx : ((pts.map (fun p => (p.1, -p.2))).reverse)[0]? = some x) : x.1 = (pts.getLastD (0, 0)).1 := by
  have hl := List.length_pos_iff.mpr h
  rw [List.getElem?_reverse (by simpa using hl), List.length_map, List.getElem?_map, Nat.sub_zero,
    List.getElem?_eq_getElem (by omega)] at hx
  rw [List.getLastD_eq_getLast?, List.getLast?_eq_getElem?, List.getElem?_eq_getElem (by omega)]
  simp only [Option.map_some, Option.some.injEq] at hx
  rw [← hx]
  rfl

/-- Edges between the frame's corners, and edges between the tree's corners. -/
theorem outer_edges (pts : List (ℝ × ℝ)) {nc : ℕ} (factor : ℝ) (hX : 2 ≤ pts.length) (hB : 2 ≤ nc) {i : ℕ}
    (hi : i < (outerTree pts nc factor).length) :
    (i < 7 ∨ 6 + 2 * pts.length ≤ i → EdgeOn (outerTree pts nc factor) i
      (OnFrame (-1) ((shifted pts).getLastD (0, 0)).1 (((shifted pts).getLastD (0, 0)).2 * factor)))
    ∧ (7 ≤ i ∧ i < 6 + 2 * pts.length → EdgeOn (outerTree pts nc factor) i (OnTree (shifted pts))) := by
  have hlen := outerTree_length pts factor hB
  obtain ⟨A, B, e, hA, h1, h2⟩ := outerTree_eq pts nc factor
  have hM : ((shifted pts).map (fun p => (p.1, -p.2))).reverse.length = pts.length := by simp [shifted_length]
  have hne : shifted pts ≠ [] := by
    intro h
    have := congrArg List.length h
    rw [shifted_length, List.length_nil] at this
    omega
  have low : ∀ j x, j < 7 → (outerTree pts nc factor)[j]? = some x →
      OnFrame (-1) ((shifted pts).getLastD (0, 0)).1 (((shifted pts).getLastD (0, 0)).2 * factor) x := by
    intro j x hj hx
    rw [e] at hx
    by_cases h : j < A.length
    · rw [List.getElem?_append_left h] at hx
      exact h1 x (List.mem_of_getElem? hx)
    · rw [List.getElem?_append_right (by omega), List.getElem?_append_left (by omega), show j - A.length = 0 by omega] at hx
      exact Or.inr (Or.inl (last_mirrored hne hx))
  have high : ∀ j x, 5 + 2 * pts.length ≤ j → (outerTree pts nc factor)[j]? = some x →
      OnFrame (-1) ((shifted pts).getLastD (0, 0)).1 (((shifted pts).getLastD (0, 0)).2 * factor) x := by
    intro j x hj hx
    rw [e, List.getElem?_append_right (by omega), List.getElem?_append_right (by omega)] at hx
    by_cases h : j - A.length - ((shifted pts).map (fun p => (p.1, -p.2))).reverse.length < (shifted pts).length
    · rw [List.getElem?_append_left h] at hx
      right; left
      rw [List.getLastD_eq_getLast?, List.getLast?_eq_getElem?,
        show (shifted pts).length - 1 = j - A.length - ((shifted pts).map (fun p => (p.1, -p.2))).reverse.length by
          rw [shifted_length] at h ⊢
          omega, hx]
      rfl
    · rw [List.getElem?_append_right (by omega)] at hx
      exact h2 x (List.mem_of_getElem? hx)
  have mid : ∀ j x, 6 ≤ j → j < 6 + 2 * pts.length → (outerTree pts nc factor)[j]? = some x → OnTree (shifted pts) x := by
    intro j x hj hj' hx
    rw [e, List.getElem?_append_right (by omega)] at hx
    by_cases h : j - A.length < ((shifted pts).map (fun p => (p.1, -p.2))).reverse.length
    · rw [List.getElem?_append_left h] at hx
      have := List.mem_of_getElem? hx
      rw [List.mem_reverse] at this
      obtain ⟨p, hp, rfl⟩ := List.mem_map.mp this
      right
      simpa using hp
    · rw [List.getElem?_append_right (by omega), List.getElem?_append_left (by rw [shifted_length]; omega)] at hx
      exact Or.inl (List.mem_of_getElem? hx)
  constructor
  · intro h
    refine edgeOn_of hi (fun x hx => ?_) (fun x hx => ?_)
    · by_cases h0 : i = 0
      · rw [if_pos h0] at hx
        exact high _ x (by omega) hx
      · rw [if_neg h0] at hx
        rcases h with h | h
        · exact low _ x (by omega) hx
        · exact high _ x (by omega) hx
    · rcases h with h | h
      · exact low _ x (by omega) hx
      · exact high _ x (by omega) hx
  · intro h
    refine edgeOn_of hi (fun x hx => ?_) (fun x hx => ?_)
    · rw [if_neg (by omega)] at hx
      exact mid _ x (by omega) (by omega) hx
    · exact mid _ x (by omega) (by omega) hx

/-- C156: the groups of the surrounding body in two dimensions (tag 4, then `split` tags).  Every edge of its boundary is in
exactly one group; those of the first group lie on the frame, the others on the tree. -/
theorem C156_outer_2D (pts : List (ℝ × ℝ)) (nc split : ℕ) (factor : ℝ) (hX : 2 ≤ pts.length) (hB : 2 ≤ nc) (hs : 0 < split) :
    let N := (outerTree pts nc factor).length
    let groups := outerGroups2D 6 pts.length N ((treeInner pts.length nc (innerTree pts nc).length).length / split) split
    Partition groups N ∧ groups.length = split + 1
    ∧ (∀ i, InGroup groups 0 i → EdgeOn (outerTree pts nc factor) i
        (OnFrame (-1) ((shifted pts).getLastD (0, 0)).1 (((shifted pts).getLastD (0, 0)).2 * factor)))
    ∧ ∀ g, 0 < g → ∀ i, InGroup groups g i → EdgeOn (outerTree pts nc factor) i (OnTree (shifted pts)) := by
  intro N groups
  have hlen : N = 2 * pts.length + 3 * nc + 10 := outerTree_length pts factor hB
  have ho : treeOuter 6 pts.length N = List.range' 7 (2 * pts.length - 1) := treeOuter_eq (by omega)
  have hbox : box2D 6 pts.length N = List.range' 0 7 ++ List.range' (6 + 2 * pts.length) (N - (6 + 2 * pts.length)) := by
    rw [box2D, slice_range (by omega), slice_range le_rfl]
  refine ⟨?_, ?_, fun i hi => ?_, fun g hg i hi => ?_⟩
  · show ((outerGroups2D 6 pts.length N ((treeInner pts.length nc (innerTree pts nc).length).length / split) split).flatten).Perm _
    rw [outerGroups2D, List.flatten_cons, outerParts_flatten hs (by
      rw [ho, List.length_range', innerTree_length hX hB, treeInner_length hX hB]
      exact parts_fit hX hs), hbox, ho]
    have e1 := List.range'_append_1 (s := 0) (m := 7) (n := 2 * pts.length - 1)
    have e2 := List.range'_append_1 (s := 0) (m := 7 + (2 * pts.length - 1)) (n := N - (6 + 2 * pts.length))
    rw [show 0 + 7 = 7 by omega] at e1
    rw [show 0 + (7 + (2 * pts.length - 1)) = 6 + 2 * pts.length by omega,
      show 7 + (2 * pts.length - 1) + (N - (6 + 2 * pts.length)) = N by omega] at e2
    rw [List.range_eq_range', ← e2, ← e1, List.append_assoc, List.append_assoc]
    exact List.Perm.append_left _ List.perm_append_comm
  · show (outerGroups2D 6 pts.length N _ split).length = _
    simp [outerGroups2D, outerParts]
  · have hm : i ∈ box2D 6 pts.length N := hi
    rw [hbox, List.mem_append, List.mem_range'_1, List.mem_range'_1] at hm
    exact (outer_edges pts factor hX hB (show i < N by omega)).1 (by omega)
  · obtain ⟨g, rfl⟩ : ∃ k, g = k + 1 := ⟨g - 1, by omega⟩
    have hm : i ∈ treeOuter 6 pts.length N := mem_outerParts (g := g) hi
    rw [ho, List.mem_range'_1] at hm
    exact (outer_edges pts factor hX hB (show i < N by omega)).2 (by omega)

/-- C156: in three dimensions two lateral surfaces of the surrounding body, numbers 6 and `6 + 2 len(x)`, are in no group; every other
one is in exactly one. -/
theorem C156_outer_3D_violated (pts : List (ℝ × ℝ)) (nc split : ℕ) (factor : ℝ) (hX : 2 ≤ pts.length) (hB : 2 ≤ nc) (hs : 0 < split) :
    let N := (outerTree pts nc factor).length
    let groups := outerGroups3D 6 pts.length N ((treeInner pts.length nc (innerTree pts nc).length).length / split) split
    (6 :: (6 + 2 * pts.length) :: groups.flatten).Perm (List.range N) ∧ ¬ Partition groups N := by
  intro N groups
  have hlen : N = 2 * pts.length + 3 * nc + 10 := outerTree_length pts factor hB
  have ho : treeOuter 6 pts.length N = List.range' 7 (2 * pts.length - 1) := treeOuter_eq (by omega)
  have hbox : box3D 6 pts.length N = List.range' 0 6 ++ List.range' (7 + 2 * pts.length) (N - (7 + 2 * pts.length)) := by
    rw [box3D, slice_range (by omega), slice_range le_rfl, show 1 + 6 + 2 * pts.length = 7 + 2 * pts.length by omega]
  have h : (6 :: (6 + 2 * pts.length) :: groups.flatten).Perm (List.range N) := by
    show (6 :: (6 + 2 * pts.length) ::
      (outerGroups3D 6 pts.length N ((treeInner pts.length nc (innerTree pts nc).length).length / split) split).flatten).Perm _
    rw [outerGroups3D, List.flatten_cons, outerParts_flatten hs (by
      rw [ho, List.length_range', innerTree_length hX hB, treeInner_length hX hB]
      exact parts_fit hX hs), hbox, ho]
    have e1 := List.range'_append_1 (s := 0) (m := 6) (n := 1)
    have e2 := List.range'_append_1 (s := 0) (m := 7) (n := 2 * pts.length - 1)
    have e3 := List.range'_append_1 (s := 0) (m := 7 + (2 * pts.length - 1)) (n := 1)
    have e4 := List.range'_append_1 (s := 0) (m := 7 + (2 * pts.length - 1) + 1) (n := N - (7 + 2 * pts.length))
    rw [show 0 + 6 = 6 by omega, show 6 + 1 = 7 by omega] at e1
    rw [show 0 + 7 = 7 by omega] at e2
    rw [show 0 + (7 + (2 * pts.length - 1)) = 6 + 2 * pts.length by omega] at e3
    rw [show 0 + (7 + (2 * pts.length - 1) + 1) = 7 + 2 * pts.length by omega,
      show 7 + (2 * pts.length - 1) + 1 + (N - (7 + 2 * pts.length)) = N by omega] at e4
    rw [List.range_eq_range', ← e4, ← e3, ← e2, ← e1]
    rw [List.perm_iff_count]
    intro a
    simp only [List.count_append, List.count_cons, List.range'_one, List.count_nil]
    ring
  refine ⟨h, fun hp => ?_⟩
  have h1 := h.length_eq
  have h2 := List.Perm.length_eq hp
  simp only [List.length_cons] at h1
  omega

/-- The hypotheses of C156 hold for a curve with three points, split in two. -/
example : 2 ≤ ([(0, 0), (1, 1), (2, 1)] : List (ℝ × ℝ)).length ∧ 2 ≤ 51 ∧ 0 < 2 := by decide

example : innerGroups 3 4 6 2 = [[5], [0, 1], [2, 3, 4]] := by decide

end

end Verif.Tree
