import Verif.Spec.Ray
import Verif.Props.Search
import Mathlib.Algebra.BigOperators.Field
import Mathlib.Tactic.Linarith
import Mathlib.Tactic.FieldSimp
import Mathlib.Tactic.Ring
import Mathlib.Tactic.NormNum
import Mathlib.Tactic.IntervalCases

/-!
Ray tracing: C20 (status of one facet), C21 (first facet hit), C22 (tangents), C23 (filters),
C24 (facets linked completely or not at all), C25 (disjoint views), C80 (exactness on affine facets).
-/

namespace Verif.Ray

open Finset Verif.Kernels Verif.Spec

noncomputable section

/-! ### C22 -/

theorem maxPos_le (n : ℕ → ℝ) (k : ℕ) : maxPos n k ≤ k := by
  induction k with
  | zero => exact le_refl _
  | succ k ih => rw [maxPos]; split <;> omega

theorem maxPos_max (n : ℕ → ℝ) (k j : ℕ) (hj : j ≤ k) :
    n j * n j ≤ n (maxPos n k) * n (maxPos n k) := by
  induction k with
  | zero => obtain rfl : j = 0 := by omega
            exact le_refl _
  | succ k ih =>
    rw [maxPos]
    split
    · rename_i h
      rcases Nat.lt_or_ge k j with h1 | h1
      · obtain rfl : j = k + 1 := by omega
        exact le_refl _
      · exact (ih h1).trans h.le
    · rename_i h
      rcases Nat.lt_or_ge k j with h1 | h1
      · obtain rfl : j = k + 1 := by omega
        exact not_lt.mp h
      · exact ih h1

theorem maxPos_ne (gdim : ℕ) (n : ℕ → ℝ) (h : ∃ i < gdim, n i ≠ 0) : n (maxPos n (gdim - 1)) ≠ 0 := by
  obtain ⟨i, hi, hne⟩ := h
  intro h0
  have := maxPos_max n (gdim - 1) i (by omega)
  rw [h0, mul_zero] at this
  exact hne (mul_self_eq_zero.mp (le_antisymm this (mul_self_nonneg _)))

/-- The first tangent is orthogonal to the normal and not zero. -/
theorem tangent0_orth (gdim : ℕ) (n : ℕ → ℝ) (h : ∃ i < gdim, n i ≠ 0) :
    ∑ i ∈ range gdim, tangent0 gdim n i * n i = 0 := by
  have hm := maxPos_ne gdim n h
  obtain ⟨i, hi, _⟩ := h
  have hle : maxPos n (gdim - 1) < gdim := by have := maxPos_le n (gdim - 1); omega
  simp only [tangent0]
  generalize maxPos n (gdim - 1) = m at *
  rw [← sum_filter_add_sum_filter_not (range gdim) (fun i => i ≠ m)]
  have e2 : (range gdim).filter (fun i => ¬ i ≠ m) = {m} := by
    ext j; simp only [mem_filter, mem_range, not_not, mem_singleton]
    constructor
    · exact fun h => h.2
    · rintro rfl; exact ⟨hle, rfl⟩
  rw [e2, sum_singleton, if_pos rfl, sum_congr rfl (fun j hj => by
    rw [if_neg (mem_filter.mp hj).2, one_mul]), zero_sub, neg_mul, sum_mul]
  rw [← sub_eq_add_neg, sub_eq_zero]
  exact sum_congr rfl (fun j _ => by field_simp)

theorem tangent0_pos (gdim : ℕ) (hg : 2 ≤ gdim) (n : ℕ → ℝ) :
    0 < ∑ i ∈ range gdim, tangent0 gdim n i * tangent0 gdim n i := by
  obtain ⟨j, hj, hne⟩ : ∃ j < gdim, j ≠ maxPos n (gdim - 1) := by
    rcases Nat.eq_zero_or_pos (maxPos n (gdim - 1)) with h | h
    · exact ⟨1, by omega, by omega⟩
    · exact ⟨0, by omega, by omega⟩
  refine lt_of_lt_of_le ?_ (single_le_sum (f := fun i => tangent0 gdim n i * tangent0 gdim n i)
    (fun i _ => mul_self_nonneg _) (mem_range.mpr hj))
  simp [tangent0, hne]

theorem normalize_unit (len : ℕ) (v : ℕ → ℝ) (h : 0 < ∑ j ∈ range len, v j * v j) :
    ∑ i ∈ range len, normalize len v i * normalize len v i = 1 := by
  have hs := Real.mul_self_sqrt h.le
  simp only [normalize]
  have : ∀ i, v i / Real.sqrt (∑ j ∈ range len, v j * v j) *
      (v i / Real.sqrt (∑ j ∈ range len, v j * v j)) = v i * v i / (∑ j ∈ range len, v j * v j) := by
    intro i; rw [div_mul_div_comm, hs]
  simp only [this]
  rw [← sum_div, div_self h.ne']

theorem normalize_orth (len : ℕ) (v u : ℕ → ℝ) (h : ∑ i ∈ range len, v i * u i = 0) :
    ∑ i ∈ range len, normalize len v i * u i = 0 := by
  simp only [normalize, div_mul_eq_mul_div]
  rw [← sum_div, h, zero_div]

/-- C22: for every non-zero normal in the plane or in space the tangents are unit vectors, orthogonal
to the normal and to each other. -/
theorem C22_tangents (gdim : ℕ) (hg : gdim = 2 ∨ gdim = 3) (n : ℕ → ℝ) (hn : ∃ i < gdim, n i ≠ 0) :
    OrthonormalComplement gdim n (computeTangents gdim n) := by
  have h0 := tangent0_orth gdim n hn
  have p0 := tangent0_pos gdim (by omega) n
  have n0 : ∑ i ∈ range gdim, computeTangents gdim n 0 i * n i = 0 := normalize_orth _ _ _ h0
  have u0 : ∑ i ∈ range gdim, computeTangents gdim n 0 i * computeTangents gdim n 0 i = 1 :=
    normalize_unit _ _ p0
  rcases hg with rfl | rfl
  · refine ⟨fun r hr => ?_, fun r hr => ?_, fun r s hr hs hne => absurd hne (by omega)⟩
    · obtain rfl : r = 0 := by omega
      exact n0
    · obtain rfl : r = 0 := by omega
      exact u0
  · have o1 : ∑ i ∈ range 3, tangent1 (tangent0 3 n) n i * n i = 0 := by
      simp [sum_range_succ, tangent1]; ring
    have o2 : ∑ i ∈ range 3, tangent1 (tangent0 3 n) n i * tangent0 3 n i = 0 := by
      simp [sum_range_succ, tangent1]; ring
    have pn : 0 < ∑ i ∈ range 3, n i * n i := by
      obtain ⟨i, hi, hne⟩ := hn
      exact lt_of_lt_of_le (mul_self_pos.mpr hne) (single_le_sum (f := fun i => n i * n i)
        (fun i _ => mul_self_nonneg _) (mem_range.mpr hi))
    have p1 : 0 < ∑ i ∈ range 3, tangent1 (tangent0 3 n) n i * tangent1 (tangent0 3 n) n i := by
      have e : ∑ i ∈ range 3, tangent1 (tangent0 3 n) n i * tangent1 (tangent0 3 n) n i =
          (∑ i ∈ range 3, tangent0 3 n i * tangent0 3 n i) * (∑ i ∈ range 3, n i * n i)
            - (∑ i ∈ range 3, tangent0 3 n i * n i) ^ 2 := by
        simp [sum_range_succ, tangent1]; ring
      rw [e, h0]
      have := mul_pos p0 pn
      linarith [this, show (0 : ℝ) ^ 2 = 0 by norm_num]
    have n1 : ∑ i ∈ range 3, computeTangents 3 n 1 i * n i = 0 := normalize_orth _ _ _ o1
    have u1 : ∑ i ∈ range 3, computeTangents 3 n 1 i * computeTangents 3 n 1 i = 1 :=
      normalize_unit _ _ p1
    have c1 : ∑ i ∈ range 3, computeTangents 3 n 1 i * computeTangents 3 n 0 i = 0 := by
      refine normalize_orth _ _ _ ?_
      show ∑ i ∈ range 3, tangent1 (tangent0 3 n) n i * normalize 3 (tangent0 3 n) i = 0
      simp only [normalize, mul_div_assoc']
      rw [← sum_div, o2, zero_div]
    refine ⟨fun r hr => ?_, fun r hr => ?_, fun r s hr hs hne => ?_⟩
    · obtain rfl | rfl : r = 0 ∨ r = 1 := by omega
      · exact n0
      · exact n1
    · obtain rfl | rfl : r = 0 ∨ r = 1 := by omega
      · exact u0
      · exact u1
    · obtain ⟨rfl, rfl⟩ | ⟨rfl, rfl⟩ : (r = 0 ∧ s = 1) ∨ (r = 1 ∧ s = 0) := by omega
      · rw [← c1]; exact sum_congr rfl (fun i _ => mul_comm _ _)
      · exact c1

example : ∃ i < 3, (fun i : ℕ => if i = 2 then (-3 : ℝ) else 1) i ≠ 0 := ⟨2, by omega, by norm_num⟩

/-! ### C20 -/

/-- The Newton iterates for the facet, starting from the midpoint. -/
def iterate (F : Facet) : ℕ → ℕ → ℝ
  | 0 => xi0 F
  | k + 1 => fun i => iterate F k i - step F (iterate F k) i

/-- The iteration stops: singular derivative or small increment. -/
def Stops (F : Facet) (tol : ℝ) (xi : ℕ → ℝ) : Prop :=
  |detG F xi| < tol ∨ stepNorm F xi < tol * tol

theorem newton_spec (F : Facet) (tol : ℝ) (n k : ℕ) (s : State) (hs : s.xi = iterate F k)
    (hst : s.status = -1) :
    (∃ m, k ≤ m ∧ m < k + n ∧ (∀ j, k ≤ j → j < m → ¬ Stops F tol (iterate F j)) ∧
      Stops F tol (iterate F m) ∧ (newton F tol n s).xi = iterate F m ∧
      (newton F tol n s).X = refMap F (iterate F m) ∧
      (newton F tol n s).x = push F (refMap F (iterate F m)) ∧
      (newton F tol n s).status = if |detG F (iterate F m)| < tol then -2 else 1)
    ∨ ((∀ j, k ≤ j → j < k + n → ¬ Stops F tol (iterate F j)) ∧
      (newton F tol n s).xi = iterate F (k + n) ∧ (newton F tol n s).status = -1) := by
  induction n generalizing k s with
  | zero => right; exact ⟨fun j h1 h2 => absurd h2 (by omega), hs, hst⟩
  | succ n ih =>
    rw [newton]
    dsimp only
    by_cases h1 : |detG F s.xi| < tol
    · left
      rw [if_pos h1]
      rw [hs] at h1
      refine ⟨k, le_refl _, by omega, fun j hj hj' => absurd hj' (by omega), Or.inl h1, hs, ?_, ?_, ?_⟩
      · simp only [hs]
      · simp only [hs]
      · simp only [h1, if_true]
    · rw [if_neg h1]
      by_cases h2 : stepNorm F s.xi < tol * tol
      · left
        rw [if_pos h2]
        rw [hs] at h1 h2
        refine ⟨k, le_refl _, by omega, fun j hj hj' => absurd hj' (by omega), Or.inr h2, hs, ?_, ?_, ?_⟩
        · simp only [hs]
        · simp only [hs]
        · simp only [h1, if_false]
      · rw [if_neg h2]
        have hno : ¬ Stops F tol (iterate F k) := by
          rw [hs] at h1 h2; exact fun h => h.elim h1 h2
        rcases ih (k + 1) ⟨fun i => s.xi i - step F s.xi i, refMap F s.xi,
            push F (refMap F s.xi), jac F (refMap F s.xi), s.status⟩
            (by simp only [hs]; rfl) hst with ⟨m, hm1, hm2, hm3, hm⟩ | ⟨hn, hx, hst'⟩
        · left
          refine ⟨m, by omega, by omega, fun j hj hj' => ?_, hm⟩
          rcases Nat.eq_or_lt_of_le hj with rfl | hlt
          · exact hno
          · exact hm3 j hlt hj'
        · right
          refine ⟨fun j hj hj' => ?_, ?_, hst'⟩
          · rcases Nat.eq_or_lt_of_le hj with rfl | hlt
            · exact hno
            · exact hn j hlt (by omega)
          · rw [hx]; congr 1; omega

theorem outOfBounds_iff (c : CellType) (tol : ℝ) (xi : ℕ → ℝ) (out : Prop)
    (h : outOfBounds c tol xi = some out) : out ↔ ¬ InFacet c tol xi := by
  cases c <;> simp only [outOfBounds, Option.some.injEq, reduceCtorEq] at h <;> subst h <;>
    simp only [InFacet, not_and_or, not_le, gt_iff_lt]
  rw [show 1 - xi 0 + tol < xi 1 ↔ 1 + tol < xi 0 + xi 1 by constructor <;> intro h <;> linarith]

open Classical in
theorem raytracing_status (F : Facet) (maxIter : ℕ) (tol : ℝ) (st : State) :
    (F.cell ∉ [.triangle, .quadrilateral, .tetrahedron, .hexahedron] ∧
      raytracingCell F maxIter tol st = .error .invalidArgument)
    ∨ (F.cell ∈ [.triangle, .quadrilateral, .tetrahedron, .hexahedron] ∧
      ∃ s, raytracingCell F maxIter tol st = .ok s ∧
      ((∃ m < maxIter, (∀ j < m, ¬ Stops F tol (iterate F j)) ∧ Stops F tol (iterate F m) ∧
          s.xi = iterate F m ∧ s.X = refMap F (iterate F m) ∧
          s.x = push F (refMap F (iterate F m)) ∧
          s.status = if ¬ InFacet F.cell tol (iterate F m) then -3
            else if |detG F (iterate F m)| < tol then -2 else 1)
        ∨ ((∀ j < maxIter, ¬ Stops F tol (iterate F j)) ∧
          s.status = if ¬ InFacet F.cell tol (iterate F maxIter) then -3 else -1))) := by
  unfold raytracingCell
  have hn := newton_spec F tol maxIter 0
    { st with xi := xi0 F, x := fun _ => 0, status := -1 } rfl rfl
  simp only [Nat.zero_le, true_imp_iff, Nat.zero_add] at hn
  revert hn
  generalize newton F tol maxIter { st with xi := xi0 F, x := fun _ => 0, status := -1 } = s
  intro hn
  dsimp only
  cases ho : outOfBounds F.cell tol s.xi with
  | none =>
    left
    refine ⟨?_, rfl⟩
    cases hc : F.cell <;> simp_all [outOfBounds]
  | some out =>
    right
    have hiff := outOfBounds_iff _ _ _ _ ho
    refine ⟨by cases hc : F.cell <;> simp_all [outOfBounds], _, rfl, ?_⟩
    rcases hn with ⟨m, _, hm, hno, hs, hxi, hX, hx, hst⟩ | ⟨hno, hxi, hst⟩
    · left
      rw [hxi] at hiff
      refine ⟨m, hm, hno, hs, ?_⟩
      by_cases h : out
      · rw [if_pos h, if_pos (hiff.mp h)]; exact ⟨hxi, hX, hx, rfl⟩
      · rw [if_neg h, if_neg (fun h' => h (hiff.mpr h'))]; exact ⟨hxi, hX, hx, hst⟩
    · right
      rw [hxi] at hiff
      refine ⟨hno, ?_⟩
      by_cases h : out
      · rw [if_pos h, if_pos (hiff.mp h)]
      · rw [if_neg h, if_neg (fun h' => h (hiff.mpr h'))]; exact hst

theorem detG_eq (F : Facet) (xi : ℕ → ℝ) : detG F xi = Spec.rayDet F xi := by
  unfold detG Spec.rayDet
  cases F.dim <;> rfl

theorem step_eq (F : Facet) (xi : ℕ → ℝ) (i : ℕ) : step F xi i = Spec.rayStep F xi i := by
  have hr : ∀ j, resid F xi j = Spec.rayMiss F xi j := fun _ => rfl
  have hD : ∀ i j, dResid F xi i j = Spec.rayDeriv F xi i j := fun _ _ => rfl
  unfold step Spec.rayStep invG
  simp only [hr, hD]
  cases hd : F.dim with
  | d22 => simp [Dim.gdim, div_eq_mul_inv, mul_comm]
  | d33 =>
    by_cases hi : i = 0
    · simp [Dim.gdim, sum_range_succ, hi]; ring
    · simp [Dim.gdim, sum_range_succ, hi]; ring
  | d23 => simp [Dim.gdim, sum_range_succ]; ring

theorem iterate_eq (F : Facet) (k : ℕ) : iterate F k = Spec.rayIterate F k := by
  induction k with
  | zero =>
    funext j
    simp only [iterate, xi0, Spec.rayIterate]
    by_cases h : F.dim = .d33 <;> by_cases hj : j = 0 <;> simp [h, hj] <;> norm_num
  | succ k ih => funext i; simp only [iterate, Spec.rayIterate, ih, step_eq]

theorem stops_eq (F : Facet) (tol : ℝ) (xi : ℕ → ℝ) : Stops F tol xi ↔ Spec.RayStops F tol xi := by
  unfold Stops Spec.RayStops stepNorm
  simp only [detG_eq, step_eq, sq]

open Classical in
/-- C20: complete description of `raytracing_cell` in terms of the Newton iterates.  If iterate `m`
is the first at which the iteration stops, and `m < max_iter`, the reported points are the facet point
of that iterate and the status is -3 if it is outside of the (enlarged) facet, else -2 if the
derivative is singular there, else 1; without such an iterate it is -3 or -1.  Other cell types
raise. -/
theorem C20_status (F : Facet) (maxIter : ℕ) (tol : ℝ) (st : State) :
    (F.cell ∉ [.triangle, .quadrilateral, .tetrahedron, .hexahedron] ∧
      raytracingCell F maxIter tol st = .error .invalidArgument)
    ∨ (F.cell ∈ [.triangle, .quadrilateral, .tetrahedron, .hexahedron] ∧
      ∃ s, raytracingCell F maxIter tol st = .ok s ∧
      ((∃ m < maxIter, (∀ j < m, ¬ RayStops F tol (rayIterate F j)) ∧ RayStops F tol (rayIterate F m) ∧
          s.xi = rayIterate F m ∧ s.X = facetRef F (rayIterate F m) ∧
          s.x = cellImage F (facetRef F (rayIterate F m)) ∧
          s.status = if ¬ InFacet F.cell tol (rayIterate F m) then -3
            else if |rayDet F (rayIterate F m)| < tol then -2 else 1)
        ∨ ((∀ j < maxIter, ¬ RayStops F tol (rayIterate F j)) ∧
          s.status = if ¬ InFacet F.cell tol (rayIterate F maxIter) then -3 else -1))) :=
  by
  have h := raytracing_status F maxIter tol st
  simp only [stops_eq, iterate_eq, detG_eq] at h
  exact h

/-- In the square cases the increment solves the linearised equations. -/
theorem step_solves (F : Facet) (xi : ℕ → ℝ) (hd : F.dim ≠ .d23) (hdet : detG F xi ≠ 0) (i : ℕ)
    (hi : i < F.dim.gdim - 1) :
    ∑ j ∈ range (F.dim.tdim - 1), dResid F xi i j * step F xi j = resid F xi i := by
  unfold step invG
  unfold detG at hdet
  dsimp only at hdet ⊢
  revert hdet hi
  cases h : F.dim with
  | d22 =>
    intro hi hdet
    simp only [Dim.gdim, Dim.tdim, sum_range_succ, sum_range_zero] at *
    obtain rfl : i = 0 := by omega
    field_simp
    ring
  | d33 =>
    intro hdet hi
    simp only [Dim.gdim, Dim.tdim, sum_range_succ, sum_range_zero] at *
    generalize hD : dResid F xi 0 0 * dResid F xi 1 1 - dResid F xi 0 1 * dResid F xi 1 0 = det at *
    obtain rfl | rfl : i = 0 ∨ i = 1 := by omega
    · simp
      field_simp
      rw [← hD]
      ring
    · simp
      field_simp
      rw [← hD]
      ring
  | d23 => exact absurd h hd

theorem raytracing_hit (F : Facet) (maxIter : ℕ) (tol : ℝ) (htol : 0 < tol) (st s : State)
    (hd : F.dim ≠ .d23) (h : raytracingCell F maxIter tol st = .ok s) (hs : 0 < s.status) :
    s.status = 1 ∧ InFacet F.cell tol s.xi ∧ s.X = refMap F s.xi ∧ s.x = push F s.X ∧
      ∃ δ : ℕ → ℝ, (∑ j ∈ range (F.dim.tdim - 1), δ j ^ 2 < tol ^ 2) ∧
        ∀ i < F.dim.gdim - 1,
          ∑ l ∈ range F.dim.gdim, (s.x l - F.point l) * F.tangents i l =
          ∑ j ∈ range (F.dim.tdim - 1), (∑ l ∈ range F.dim.gdim,
            (∑ m ∈ range F.dim.tdim, jac F s.X l m * F.dxi m j) * F.tangents i l) * δ j := by
  rcases raytracing_status F maxIter tol st with ⟨_, he⟩ | ⟨_, s', hs', hcase⟩
  · rw [he] at h; cases h
  rw [hs'] at h
  cases h
  rcases hcase with ⟨m, hm, hno, hst, hxi, hX, hx, hstat⟩ | ⟨_, hstat⟩
  · rw [hstat] at hs ⊢
    by_cases h1 : InFacet F.cell tol (iterate F m)
    · rw [if_neg (not_not.mpr h1)] at hs ⊢
      by_cases h2 : |detG F (iterate F m)| < tol
      · rw [if_pos h2] at hs; omega
      · rw [if_neg h2]
        refine ⟨rfl, hxi ▸ h1, hxi ▸ hX, hX ▸ hx, step F s.xi, ?_, fun i hi => ?_⟩
        · rcases hst with hst | hst
          · exact absurd hst h2
          · rw [stepNorm, ← hxi] at hst
            simpa only [sq] using hst
        · have hdet : detG F (iterate F m) ≠ 0 := by
            intro h0; rw [h0, abs_zero] at h2; exact h2 htol
          rw [← hxi] at hdet
          have := step_solves F s.xi hd hdet i hi
          rw [hx, ← hxi]
          rw [hX, ← hxi]
          exact this.symm
    · rw [if_pos h1] at hs; omega
  · rw [hstat] at hs
    split at hs <;> omega

/-- C20: a positive status is only reported for a point of the facet (up to the tolerance) at which
the linearised equations have a solution shorter than the tolerance, so that the distance of the point
from the ray in direction of each tangent is below `tol` times the derivative of the facet map.
Missing: surfaces in space (`gdim = 3`, `tdim = 2`), see `C20_surface_violated`. -/
theorem C20_hit_partial (F : Facet) (maxIter : ℕ) (tol : ℝ) (htol : 0 < tol) (st s : State)
    (hd : F.dim ≠ .d23) (h : raytracingCell F maxIter tol st = .ok s) (hs : 0 < s.status) :
    s.status = 1 ∧ InFacet F.cell tol s.xi ∧ s.X = facetRef F s.xi ∧ s.x = cellImage F s.X ∧
      ∃ δ : ℕ → ℝ, (∑ j ∈ range (F.dim.tdim - 1), δ j ^ 2 < tol ^ 2) ∧
        ∀ i < F.dim.gdim - 1,
          ∑ l ∈ range F.dim.gdim, (s.x l - F.point l) * F.tangents i l =
          ∑ j ∈ range (F.dim.tdim - 1), (∑ l ∈ range F.dim.gdim,
            (∑ m ∈ range F.dim.tdim, cellJacobian F s.X l m * F.dxi m j) * F.tangents i l) * δ j :=
  raytracing_hit F maxIter tol htol st s hd h hs

/-! #### examples: facets of affine cells -/

/-- First edge of the unit triangle (vertices `(0,0)` and `(1,0)`), embedded by the identity in the
plane or in space; the coordinate element is the linear one. -/
def exFacet (d : Dim) (p : ℕ → ℝ) (t : ℕ → ℕ → ℝ) : Facet where
  dim := d
  cell := .triangle
  vertex := fun v i => if v = 1 ∧ i = 0 then 1 else 0
  dxi := fun i _ => if i = 0 then 1 else 0
  ndofs := 3
  phi := fun X n => if n = 0 then 1 - X 0 - X 1 else if n = 1 then X 0 else X 1
  dphi := fun _ k n => if n = 0 then -1 else if n = k + 1 then 1 else 0
  coords := fun n i => if n = i + 1 then 1 else 0
  point := p
  tangents := t

theorem raytracing_surface : ∃ (F : Facet) (s : State) (n : ℕ → ℝ),
    F.dim = .d23 ∧ F.tangents = computeTangents 3 n ∧
      raytracingCell F 25 1e-8 freshState = .ok s ∧ s.status = 1 ∧
      ∀ a xi : ℝ, 1 ≤ ∑ i ∈ range 3, (F.point i + a * n i - push F (refMap F (fun _ => xi)) i) ^ 2 := by
  let n : ℕ → ℝ := fun i => if i = 1 then 1 else 0
  let p : ℕ → ℝ := fun i => if i = 0 then 1 / 2 else if i = 1 then 5 else 1
  have hm : maxPos n 2 = 1 := by simp [maxPos, n]
  have t0 : ∀ i, tangent0 3 n i = if i = 1 then 0 else 1 := by
    intro i
    simp only [tangent0, hm]
    have : (range 3).filter (· ≠ 1) = {0, 2} := by decide
    rw [this]
    by_cases h : i = 1 <;> simp [h, n]
  have hs0 : ∑ j ∈ range 3, tangent0 3 n j * tangent0 3 n j = 2 := by
    simp [sum_range_succ, t0]; norm_num
  have t1 : ∀ i, tangent1 (tangent0 3 n) n i = if i = 0 then -1 else if i = 1 then 0 else 1 := by
    intro i
    simp only [tangent1, t0]
    by_cases h : i = 0
    · simp [h, n]
    · by_cases h' : i = 1 <;> simp [h, h', n]
  have hs1 : ∑ j ∈ range 3, tangent1 (tangent0 3 n) n j * tangent1 (tangent0 3 n) n j = 2 := by
    simp [sum_range_succ, t1]; norm_num
  have hT0 : ∀ i, computeTangents 3 n 0 i = (if i = 1 then 0 else 1) / Real.sqrt 2 := by
    intro i; rw [computeTangents, if_pos rfl, normalize, hs0, t0]
  have hT1 : ∀ i, computeTangents 3 n 1 i =
      (if i = 0 then -1 else if i = 1 then 0 else 1) / Real.sqrt 2 := by
    intro i; rw [computeTangents, if_neg (by omega), normalize, hs1, t1]
  set F := exFacet .d23 p (computeTangents 3 n) with hF
  have hX : ∀ xi, refMap F xi = fun i => if i = 0 then xi 0 else 0 := by
    intro xi; funext i
    by_cases h : i = 0 <;> simp [refMap, hF, exFacet, Dim.tdim, h]
  have hP : ∀ xi, push F (refMap F xi) = fun i => if i = 0 then xi 0 else 0 := by
    intro xi; funext i
    rw [hX]
    rcases i with _ | _ | i <;> simp [push, hF, exFacet, sum_range_succ]
  have hJ : ∀ xi l, (∑ m ∈ range F.dim.tdim, jac F (refMap F xi) l m * F.dxi m 0) =
      if l = 0 then 1 else 0 := by
    intro xi l
    rcases l with _ | _ | l <;> simp [jac, hF, exFacet, Dim.tdim, sum_range_succ]
  have hd0 : ∀ xi, dResid F xi 0 0 = 1 / Real.sqrt 2 := by
    intro xi
    simp only [dResid, hJ]
    have : F.dim.gdim = 3 := rfl
    rw [this]
    have ht : F.tangents = computeTangents 3 n := rfl
    simp [sum_range_succ, ht, hT0]
  have hd1 : ∀ xi, dResid F xi 1 0 = -(1 / Real.sqrt 2) := by
    intro xi
    simp only [dResid, hJ]
    have : F.dim.gdim = 3 := rfl
    rw [this]
    have ht : F.tangents = computeTangents 3 n := rfl
    simp [sum_range_succ, ht, hT1]
    ring
  have h2 : Real.sqrt 2 * Real.sqrt 2 = 2 := Real.mul_self_sqrt (by norm_num)
  have hr : ∀ k, k < 2 → resid F (xi0 F) k = -(1 / Real.sqrt 2) := by
    intro k hk
    simp only [resid, hP]
    have : F.dim.gdim = 3 := rfl
    rw [this]
    have ht : F.tangents = computeTangents 3 n := rfl
    have hp : F.point = p := rfl
    have hx : xi0 F 0 = 1 / 2 := by simp [xi0, hF, exFacet]; norm_num
    interval_cases k
    · simp [sum_range_succ, ht, hT0, hp, p, hx]
    · simp [sum_range_succ, ht, hT1, hp, p, hx]
  have hone : 1 / Real.sqrt 2 * (1 / Real.sqrt 2) + -(1 / Real.sqrt 2) * -(1 / Real.sqrt 2) = 1 := by
    rw [neg_mul_neg, div_mul_div_comm, h2]; norm_num
  have hdet : detG F (xi0 F) = 1 := by
    have : F.dim = .d23 := rfl
    simp only [detG, this, hd0, hd1, hone, Real.sqrt_one]
  have hstep : step F (xi0 F) 0 = 0 := by
    have : F.dim = .d23 := rfl
    simp only [step, invG, this, Dim.gdim, sum_range_succ, sum_range_zero, hd0, hd1, hone, hr 0
      (by omega), hr 1 (by omega)]
    norm_num
  have hsn : stepNorm F (xi0 F) = 0 := by
    have : F.dim.tdim - 1 = 1 := rfl
    rw [stepNorm, this]; simp [hstep]
  refine ⟨F, ⟨xi0 F, refMap F (xi0 F), push F (refMap F (xi0 F)), jac F (refMap F (xi0 F)), 1⟩, n, rfl,
    rfl, ?_, rfl, ?_⟩
  · unfold raytracingCell
    have : newton F 1e-8 25 { freshState with xi := xi0 F, x := fun _ => 0, status := -1 } =
        ⟨xi0 F, refMap F (xi0 F), push F (refMap F (xi0 F)), jac F (refMap F (xi0 F)), 1⟩ := by
      rw [newton]
      dsimp only
      rw [if_neg (by rw [hdet]; norm_num), if_pos (by rw [hsn]; norm_num)]
    rw [this]
    have hc : F.cell = .triangle := rfl
    rw [hc]
    dsimp only [outOfBounds]
    rw [if_neg]
    simp [xi0, hF, exFacet]; norm_num
  · intro a xi
    simp only [hP]
    have hp : F.point = p := rfl
    rw [hp]
    simp only [sum_range_succ, sum_range_zero, n, p]
    norm_num
    nlinarith [sq_nonneg (1 / 2 - xi), sq_nonneg (5 + a)]

/-- C20 fails for surfaces in space: the ray from `(1/2, 5, 1)` in direction `(0, 1, 0)` (tangents as
computed by the code) passes the edge from `(0,0,0)` to `(1,0,0)` at distance one, yet the status
is 1: the least squares increment of the 2x1 system is zero although the residual is not. -/
theorem C20_surface_violated : ∃ (F : Facet) (s : State) (n : ℕ → ℝ),
    F.dim = .d23 ∧ F.tangents = computeTangents 3 n ∧
      raytracingCell F 25 1e-8 freshState = .ok s ∧ s.status = 1 ∧
      ∀ a xi : ℝ, 1 ≤ ∑ i ∈ range 3, (F.point i + a * n i - cellImage F (facetRef F (fun _ => xi)) i) ^ 2 :=
  raytracing_surface

/-- The hypotheses of `C20_hit_partial` are met: the ray from `(1/4, 3)` in direction `(0,1)` hits the
edge. -/
example : ∃ s, raytracingCell (exFacet .d22 (fun i => if i = 0 then 1 / 4 else 3)
      (fun _ i => if i = 0 then 1 else 0)) 25 1e-8 freshState = .ok s ∧ 0 < s.status ∧ s.x 0 = 1 / 4 := by
  set F := exFacet .d22 (fun i => if i = 0 then 1 / 4 else 3) (fun _ i => if i = 0 then 1 else 0) with hF
  have hX : ∀ xi, refMap F xi = fun i => if i = 0 then xi 0 else 0 := by
    intro xi; funext i
    by_cases h : i = 0 <;> simp [refMap, hF, exFacet, Dim.tdim, h]
  have hP : ∀ xi, push F (refMap F xi) = fun i => if i = 0 then xi 0 else 0 := by
    intro xi; funext i
    rw [hX]
    rcases i with _ | _ | i <;> simp [push, hF, exFacet, sum_range_succ]
  have hd0 : ∀ xi, dResid F xi 0 0 = 1 := by
    intro xi
    simp [dResid, jac, hF, exFacet, Dim.gdim, Dim.tdim, sum_range_succ]
  have hr : ∀ xi, resid F xi 0 = xi 0 - 1 / 4 := by
    intro xi
    simp only [resid, hP]
    simp [hF, exFacet, Dim.gdim, sum_range_succ]
  have hdim : F.dim = .d22 := rfl
  have hdet : ∀ xi, detG F xi = 1 := by intro xi; simp only [detG, hdim, hd0]
  have hst : ∀ xi, step F xi 0 = xi 0 - 1 / 4 := by
    intro xi
    simp [step, invG, hdim, Dim.gdim, hd0, hr]
  have hsn : ∀ xi, stepNorm F xi = (xi 0 - 1 / 4) * (xi 0 - 1 / 4) := by
    intro xi; simp [stepNorm, hdim, Dim.tdim, hst]
  let xi1 : ℕ → ℝ := fun i => xi0 F i - step F (xi0 F) i
  have hx1 : xi1 0 = 1 / 4 := by simp [xi1, hst]
  have hx0 : xi0 F 0 = 1 / 2 := by simp [xi0, hdim]; norm_num
  refine ⟨⟨xi1, refMap F xi1, push F (refMap F xi1), jac F (refMap F xi1), 1⟩, ?_, by norm_num, ?_⟩
  · unfold raytracingCell
    have : newton F 1e-8 25 { freshState with xi := xi0 F, x := fun _ => 0, status := -1 } =
        ⟨xi1, refMap F xi1, push F (refMap F xi1), jac F (refMap F xi1), 1⟩ := by
      rw [newton]
      dsimp only
      rw [if_neg (by rw [hdet]; norm_num), if_neg (by rw [hsn, hx0]; norm_num), newton]
      dsimp only
      rw [if_neg (by rw [hdet]; norm_num), if_pos (by rw [hsn]; show (xi1 0 - 1 / 4) * (xi1 0 - 1 / 4) < _
                                                      rw [hx1]; norm_num)]
    rw [this]
    have hc : F.cell = .triangle := rfl
    rw [hc]
    dsimp only [outOfBounds]
    rw [if_neg]
    rw [hx1]; norm_num
  · show push F (refMap F xi1) 0 = 1 / 4
    rw [hP]; simp [hx1]

/-! ### C21 -/

theorem rayLoop_spec (facets : ℕ → Facet) (maxIter : ℕ) (tol : ℝ) (total k : ℕ) (hk : k ≤ total)
    (st r : State) (idx : ℤ) (hst : st.status ≤ 0)
    (h : rayLoop facets maxIter tol total k st = .ok (r, idx)) :
    (∃ (i : ℕ) (seq : ℕ → State), total - k ≤ i ∧ i < total ∧ idx = i ∧ seq (total - k) = st ∧
      (∀ j, total - k ≤ j → j < i → raytracingCell (facets j) maxIter tol (seq j) = .ok (seq (j + 1)) ∧
        (seq (j + 1)).status ≤ 0) ∧
      raytracingCell (facets i) maxIter tol (seq i) = .ok r ∧ 0 < r.status)
    ∨ (idx = -1 ∧ r.status ≤ 0 ∧ ∃ seq : ℕ → State, seq (total - k) = st ∧ seq total = r ∧
      ∀ j, total - k ≤ j → j < total →
        raytracingCell (facets j) maxIter tol (seq j) = .ok (seq (j + 1)) ∧ (seq (j + 1)).status ≤ 0) := by
  induction k generalizing st with
  | zero =>
    rw [rayLoop] at h
    cases h
    right
    exact ⟨rfl, hst, fun _ => r, rfl, rfl, fun j h1 h2 => absurd h2 (by omega)⟩
  | succ k ih =>
    rw [rayLoop] at h
    cases hc : raytracingCell (facets (total - (k + 1))) maxIter tol st with
    | error e => rw [hc] at h; cases h
    | ok s =>
      rw [hc] at h
      dsimp only at h
      by_cases hpos : s.status > 0
      · rw [if_pos hpos] at h
        cases h
        left
        exact ⟨total - (k + 1), fun _ => st, le_refl _, by omega, rfl, rfl,
          fun j h1 h2 => absurd h2 (by omega), hc, hpos⟩
      · rw [if_neg hpos] at h
        have e : total - k = total - (k + 1) + 1 := by omega
        rcases ih (by omega) s (not_lt.mp hpos) h with ⟨i, seq, h1, h2, h3, h4, h5, h6, h7⟩ | ⟨h1, h2, seq, h3, h4, h5⟩
        · left
          refine ⟨i, Function.update seq (total - (k + 1)) st, by omega, h2, h3, by simp, ?_, ?_, h7⟩
          · intro j hj hj'
            rcases Nat.eq_or_lt_of_le hj with rfl | hlt
            · rw [Function.update_self, Function.update_of_ne (by omega), ← e, h4]
              exact ⟨hc, not_lt.mp hpos⟩
            · rw [Function.update_of_ne (by omega), Function.update_of_ne (by omega)]
              exact h5 j (by omega) hj'
          · rw [Function.update_of_ne (by omega)]; exact h6
        · right
          refine ⟨h1, h2, Function.update seq (total - (k + 1)) st, by simp, ?_, ?_⟩
          · rw [Function.update_of_ne (by omega)]; exact h4
          · intro j hj hj'
            rcases Nat.eq_or_lt_of_le hj with rfl | hlt
            · rw [Function.update_self, Function.update_of_ne (by omega), ← e, h3]
              exact ⟨hc, not_lt.mp hpos⟩
            · rw [Function.update_of_ne (by omega), Function.update_of_ne (by omega)]
              exact h5 j (by omega) hj'

/-- What is reported about a facet does not depend on the storage left by earlier facets (as long as
at least one Newton step is made). -/
theorem raytracingCell_storage (F : Facet) (maxIter : ℕ) (tol : ℝ) (st st' : State) (h : 0 < maxIter) :
    raytracingCell F maxIter tol st = raytracingCell F maxIter tol st' := by
  obtain ⟨k, rfl⟩ : ∃ k, maxIter = k + 1 := ⟨maxIter - 1, by omega⟩
  unfold raytracingCell
  have : newton F tol (k + 1) { st with xi := xi0 F, x := fun _ => 0, status := -1 } =
      newton F tol (k + 1) { st' with xi := xi0 F, x := fun _ => 0, status := -1 } := by
    rw [newton, newton]
  rw [this]

/-- C21: the ray search returns the first facet of the list with a positive status, together with
that facet's status and points, or index -1 and a non-positive status if no facet is hit.  The result
of each facet (`seq`) is that of tracing it alone. -/
theorem C21_first (cell : CellType) (facets : ℕ → Facet) (total maxIter : ℕ) (tol : ℝ)
    (hit : 0 < maxIter) (r : State) (idx : ℤ)
    (h : computeRay cell facets total maxIter tol = .ok (r, idx)) :
    (∃ i < total, idx = (i : ℤ) ∧ raytracingCell (facets i) maxIter tol freshState = .ok r ∧ 0 < r.status ∧
      ∀ j < i, ∃ s, raytracingCell (facets j) maxIter tol freshState = .ok s ∧ s.status ≤ 0)
    ∨ (idx = -1 ∧ r.status ≤ 0 ∧
      (∀ j < total, ∃ s, raytracingCell (facets j) maxIter tol freshState = .ok s ∧ s.status ≤ 0) ∧
      ∀ last, total = last + 1 → raytracingCell (facets last) maxIter tol freshState = .ok r) := by
  have hl : rayLoop facets maxIter tol total total freshState = .ok (r, idx) := by
    unfold computeRay at h
    cases hc : checkCellType cell with
    | error e => rw [hc] at h; cases h
    | ok u => rw [hc] at h; exact h
  rcases rayLoop_spec facets maxIter tol total total (le_refl _) freshState r idx
    (by simp [freshState]) hl with ⟨i, seq, _, h2, h3, _, h5, h6, h7⟩ | ⟨h1, h2, seq, _, h4, h5⟩
  · left
    refine ⟨i, h2, h3, ?_, h7, fun j hj => ⟨seq (j + 1), ?_, (h5 j (by omega) hj).2⟩⟩
    · rw [← h6]; exact raytracingCell_storage _ _ _ _ _ hit
    · rw [← (h5 j (by omega) hj).1]; exact raytracingCell_storage _ _ _ _ _ hit
  · right
    refine ⟨h1, h2, fun j hj => ⟨seq (j + 1), ?_, (h5 j (by omega) hj).2⟩, fun last hlast => ?_⟩
    · rw [← (h5 j (by omega) hj).1]; exact raytracingCell_storage _ _ _ _ _ hit
    · rw [← h4, hlast, ← (h5 last (by omega) (by omega)).1]; exact raytracingCell_storage _ _ _ _ _ hit

/-- C21: an empty list gives status -1 and index -1. -/
theorem C21_empty (cell : CellType) (facets : ℕ → Facet) (maxIter : ℕ) (tol : ℝ)
    (hc : cell ≠ .prism ∧ cell ≠ .pyramid ∧ cell ≠ .interval) :
    ∃ r, computeRay cell facets 0 maxIter tol = .ok (r, -1) ∧ r.status = -1 := by
  refine ⟨freshState, ?_, rfl⟩
  have : checkCellType cell = .ok () := by cases cell <;> simp_all [checkCellType, unsupportedCells]
  rw [computeRay, this]; rfl

/-- C21: with supported cells the search never raises. -/
theorem C21_total (cell : CellType) (facets : ℕ → Facet) (total maxIter : ℕ) (tol : ℝ)
    (hc : cell ∈ [CellType.triangle, .quadrilateral, .tetrahedron, .hexahedron])
    (hf : ∀ i < total, (facets i).cell = cell) :
    ∃ r, computeRay cell facets total maxIter tol = .ok r := by
  have hch : checkCellType cell = .ok () := by cases cell <;> simp_all [checkCellType, unsupportedCells]
  rw [computeRay, hch]
  have key : ∀ k st, k ≤ total → ∃ r, rayLoop facets maxIter tol total k st = .ok r := by
    intro k
    induction k with
    | zero => intro st _; exact ⟨_, rfl⟩
    | succ k ih =>
      intro st hk
      rw [rayLoop]
      rcases raytracing_status (facets (total - (k + 1))) maxIter tol st with ⟨hn, _⟩ | ⟨_, s, hs, _⟩
      · rw [hf _ (by omega)] at hn; exact absurd hc hn
      · rw [hs]
        dsimp only
        split
        · exact ⟨_, rfl⟩
        · exact ih s (by omega)
  exact key total freshState (le_refl _)

example : CellType.triangle ∈ [CellType.triangle, .quadrilateral, .tetrahedron, .hexahedron] ∧
    ∀ i < 5, ((fun i => exFacet .d22 (fun _ => i) (fun _ _ => 1)) i : Facet).cell = .triangle ∧ 0 < 25 :=
  ⟨by decide, fun _ _ => ⟨rfl, by decide⟩⟩

/-! ### C80: affine facets -/

/-- The facet problem of an affine cell: the coordinate map is `X ↦ a + A X` with Jacobian `A`, and
`dxi` is the Jacobian of the parameterisation of the reference facet. -/
structure AffineFacet (F : Facet) (a : ℕ → ℝ) (A : ℕ → ℕ → ℝ) : Prop where
  push : ∀ X i, i < F.dim.gdim → push F X i = a i + ∑ m ∈ range F.dim.tdim, A i m * X m
  jac : ∀ X i m, i < F.dim.gdim → m < F.dim.tdim → jac F X i m = A i m
  dxi : ∀ m j, m < F.dim.tdim → j < F.dim.tdim - 1 → F.dxi m j = F.vertex (j + 1) m - F.vertex 0 m

theorem AffineFacet.of {F : Facet} {a : ℕ → ℝ} {A : ℕ → ℕ → ℝ}
    (point : ∀ X i, i < F.dim.gdim → Spec.cellImage F X i = a i + ∑ m ∈ range F.dim.tdim, A i m * X m)
    (jac : ∀ X i m, i < F.dim.gdim → m < F.dim.tdim → Spec.cellJacobian F X i m = A i m)
    (dxi : ∀ m j, m < F.dim.tdim → j < F.dim.tdim - 1 → F.dxi m j = F.vertex (j + 1) m - F.vertex 0 m) :
    AffineFacet F a A := ⟨point, jac, dxi⟩

theorem resid_affine (F : Facet) (a : ℕ → ℝ) (A : ℕ → ℕ → ℝ) (h : AffineFacet F a A) (xi ys : ℕ → ℝ)
    (i : ℕ) :
    resid F xi i - resid F ys i =
      ∑ j ∈ range (F.dim.tdim - 1), dResid F xi i j * (xi j - ys j) := by
  have e : ∀ l < F.dim.gdim, push F (refMap F xi) l - push F (refMap F ys) l =
      ∑ j ∈ range (F.dim.tdim - 1),
        (∑ m ∈ range F.dim.tdim, jac F (refMap F xi) l m * F.dxi m j) * (xi j - ys j) := by
    intro l hl
    rw [h.push _ l hl, h.push _ l hl, add_sub_add_left_eq_sub, ← sum_sub_distrib]
    simp only [sum_mul]
    rw [sum_comm]
    refine sum_congr rfl (fun m hm => ?_)
    simp only [refMap, ← mul_sub, add_sub_add_left_eq_sub]
    rw [← sum_sub_distrib, mul_sum]
    refine sum_congr rfl (fun j hj => ?_)
    rw [h.jac _ l m hl (mem_range.mp hm), h.dxi m j (mem_range.mp hm) (mem_range.mp hj)]
    ring
  simp only [resid, dResid]
  rw [← sum_sub_distrib]
  rw [sum_congr rfl (fun l hl => by
    rw [← sub_mul, sub_sub_sub_cancel_right, e l (mem_range.mp hl), sum_mul])]
  rw [sum_comm]
  refine sum_congr rfl (fun j _ => ?_)
  rw [sum_mul]
  exact sum_congr rfl (fun l _ => by ring)

theorem step_affine (F : Facet) (a : ℕ → ℝ) (A : ℕ → ℕ → ℝ) (h : AffineFacet F a A) (hd : F.dim ≠ .d23)
    (xi ys : ℕ → ℝ) (hy : ∀ i < F.dim.gdim - 1, resid F ys i = 0) (hdet : detG F xi ≠ 0) (j : ℕ)
    (hj : j < F.dim.tdim - 1) : step F xi j = xi j - ys j := by
  have hr : ∀ i < F.dim.gdim - 1, resid F xi i =
      ∑ j ∈ range (F.dim.tdim - 1), dResid F xi i j * (xi j - ys j) := fun i hi => by
    rw [← resid_affine F a A h xi ys i, hy i hi, sub_zero]
  unfold step invG
  unfold detG at hdet
  dsimp only at hdet ⊢
  revert hdet hj hr
  cases hdim : F.dim with
  | d22 =>
    intro hdet hj hr
    simp only [Dim.gdim, Dim.tdim, sum_range_succ, sum_range_zero] at *
    obtain rfl : j = 0 := by omega
    rw [hr 0 (by omega)]
    field_simp
    ring
  | d33 =>
    intro hdet hj hr
    simp only [Dim.gdim, Dim.tdim, sum_range_succ, sum_range_zero] at *
    rw [hr 0 (by omega), hr 1 (by omega)]
    generalize hD : dResid F xi 0 0 * dResid F xi 1 1 - dResid F xi 0 1 * dResid F xi 1 0 = det at *
    obtain rfl | rfl : j = 0 ∨ j = 1 := by omega
    · simp
      field_simp
      rw [← hD]
      ring
    · simp
      field_simp
      rw [← hD]
      ring
  | d23 => exact absurd hdim hd

theorem detG_affine (F : Facet) (a : ℕ → ℝ) (A : ℕ → ℕ → ℝ) (h : AffineFacet F a A) (xi ys : ℕ → ℝ) :
    detG F xi = detG F ys := by
  have e : ∀ i j, dResid F xi i j = dResid F ys i j := by
    intro i j
    simp only [dResid]
    refine sum_congr rfl (fun l hl => ?_)
    congr 1
    refine sum_congr rfl (fun m hm => ?_)
    rw [h.jac _ l m (mem_range.mp hl) (mem_range.mp hm), h.jac _ l m (mem_range.mp hl) (mem_range.mp hm)]
  simp only [detG, e]

theorem inFacet_congr (d : Dim) (c : CellType) (hc : CellOf d c) (tol : ℝ) (x y : ℕ → ℝ)
    (h : ∀ j < d.tdim - 1, x j = y j) : InFacet c tol x ↔ InFacet c tol y := by
  cases d <;> simp only [CellOf, Dim.tdim] at hc h <;> rcases hc with rfl | rfl <;>
    simp only [InFacet, h 0 (by omega)]
  · rw [h 1 (by omega)]
  · rw [h 1 (by omega)]

theorem inFacet_mid (F : Facet) (hc : CellOf F.dim F.cell) (tol : ℝ) (ht : 0 ≤ tol) :
    InFacet F.cell tol (xi0 F) := by
  rcases hF : F.dim <;> rw [hF] at hc <;> simp only [CellOf] at hc <;>
    rcases hc with h | h <;> rw [h] <;> simp only [InFacet, xi0, hF] <;> norm_num <;>
    refine ⟨?_, ?_⟩ <;> first | linarith | (refine ⟨?_, ?_⟩ <;> first | linarith | (refine ⟨?_, ?_⟩ <;> linarith))

/-- Parameters close to the midpoint are inside. -/
theorem inFacet_near (F : Facet) (hc : CellOf F.dim F.cell) (tol : ℝ) (ht : 0 ≤ tol) (ht' : tol ≤ 1 / 4)
    (ys : ℕ → ℝ) (h : ∑ j ∈ range (F.dim.tdim - 1), (xi0 F j - ys j) * (xi0 F j - ys j) < tol * tol) :
    InFacet F.cell tol ys := by
  have hb : ∀ j < F.dim.tdim - 1, |xi0 F j - ys j| ≤ tol := by
    intro j hj
    have h1 : (xi0 F j - ys j) * (xi0 F j - ys j) ≤ tol * tol :=
      (single_le_sum (f := fun j => (xi0 F j - ys j) * (xi0 F j - ys j))
        (fun i _ => mul_self_nonneg _) (mem_range.mpr hj)).trans h.le
    exact abs_le_of_sq_le_sq (by simpa only [sq] using h1) ht
  rcases hF : F.dim <;> rw [hF] at hc hb <;> simp only [CellOf] at hc <;>
    simp only [Dim.tdim] at hb <;> rcases hc with h | h <;> rw [h] <;> simp only [InFacet]
  all_goals have b0 := abs_le.mp (hb 0 (by omega))
  all_goals simp only [xi0, hF, reduceCtorEq, if_true, if_false] at b0
  · constructor <;> norm_num at b0 <;> linarith [b0.1, b0.2]
  · constructor <;> norm_num at b0 <;> linarith [b0.1, b0.2]
  · have b1 := abs_le.mp (hb 1 (by omega))
    simp only [xi0, hF, if_true, one_ne_zero, if_false] at b1
    norm_num at b0 b1
    refine ⟨?_, ?_, ?_, ?_⟩ <;> linarith [b0.1, b0.2, b1.1, b1.2]
  · have b1 := abs_le.mp (hb 1 (by omega))
    simp only [xi0, hF, if_true, one_ne_zero, if_false] at b1
    norm_num at b0 b1
    refine ⟨?_, ?_, ?_, ?_⟩ <;> linarith [b0.1, b0.2, b1.1, b1.2]
  · constructor <;> norm_num at b0 <;> linarith [b0.1, b0.2]
  · constructor <;> norm_num at b0 <;> linarith [b0.1, b0.2]

open Classical in
theorem raytracing_exact (F : Facet) (a : ℕ → ℝ) (A : ℕ → ℕ → ℝ) (h : AffineFacet F a A) (hd : F.dim ≠ .d23)
    (hc : CellOf F.dim F.cell) (n : ℕ → ℝ) (hn : ∃ i < F.dim.gdim, n i ≠ 0)
    (ht : F.tangents = computeTangents F.dim.gdim n) (maxIter : ℕ) (hmax : 2 ≤ maxIter)
    (tol : ℝ) (htol : 0 < tol) (htol' : tol ≤ 1 / 4) (hdet : tol ≤ |detG F (xi0 F)|)
    (ys : ℕ → ℝ) (c : ℝ) (hy : ∀ i < F.dim.gdim, push F (refMap F ys) i = F.point i + c * n i)
    (st : State) :
    ∃ s, raytracingCell F maxIter tol st = .ok s ∧
      s.status = (if InFacet F.cell tol ys then 1 else -3) ∧
      ∑ j ∈ range (F.dim.tdim - 1), (s.xi j - ys j) ^ 2 < tol ^ 2 := by
  have hg : F.dim.gdim = 2 ∨ F.dim.gdim = 3 := by cases F.dim <;> simp [Dim.gdim]
  have ho := C22_tangents F.dim.gdim hg n hn
  have hres : ∀ i < F.dim.gdim - 1, resid F ys i = 0 := by
    intro i hi
    rw [resid, sum_congr rfl (fun l hl => by
      rw [hy l (mem_range.mp hl), add_sub_cancel_left, mul_assoc]), ← mul_sum, ht]
    have := ho.normal i hi
    rw [sum_congr rfl (fun l _ => mul_comm (n l) _), this, mul_zero]
  have hdet' : ∀ xi, ¬ |detG F xi| < tol := fun xi => by
    rw [detG_affine F a A h xi (xi0 F)]; exact not_lt.mpr hdet
  have hdet0 : ∀ xi, detG F xi ≠ 0 := fun xi h0 => hdet' xi (by rw [h0, abs_zero]; exact htol)
  have hstep := fun xi => step_affine F a A h hd xi ys hres (hdet0 xi)
  have hsn : ∀ xi, stepNorm F xi = ∑ j ∈ range (F.dim.tdim - 1), (xi j - ys j) * (xi j - ys j) :=
    fun xi => sum_congr rfl (fun j hj => by rw [hstep xi j (mem_range.mp hj)])
  have h1 : ∀ j < F.dim.tdim - 1, iterate F 1 j = ys j := by
    intro j hj
    show xi0 F j - step F (xi0 F) j = ys j
    rw [hstep _ j hj]; ring
  have hstop1 : Stops F tol (iterate F 1) := by
    right
    rw [hsn, sum_eq_zero (fun j hj => by rw [h1 j (mem_range.mp hj), sub_self, mul_zero])]
    exact mul_pos htol htol
  rcases raytracing_status F maxIter tol st with ⟨hno, _⟩ | ⟨_, s, hs, hcase⟩
  · exfalso
    apply hno
    rcases hF : F.dim <;> rw [hF] at hc <;> simp only [CellOf] at hc <;>
      rcases hc with h | h <;> rw [h] <;> simp
  refine ⟨s, hs, ?_⟩
  rcases hcase with ⟨m, hm, hbefore, hstop, hxi, _, _, hst⟩ | ⟨hnever, _⟩
  · rw [if_neg (hdet' _)] at hst
    have hm1 : m ≤ 1 := by
      by_contra hcon
      exact hbefore 1 (by omega) hstop1
    obtain rfl | rfl : m = 0 ∨ m = 1 := by omega
    · have hsm : stepNorm F (xi0 F) < tol * tol := hstop.resolve_left (hdet' _)
      rw [hsn] at hsm
      have hx : s.xi = xi0 F := hxi
      have hin : InFacet F.cell tol (iterate F 0) := inFacet_mid F hc tol htol.le
      rw [hst, if_neg (not_not.mpr hin), if_pos (inFacet_near F hc tol htol.le htol' ys hsm), hx]
      exact ⟨rfl, by simpa only [sq] using hsm⟩
    · have hiff := inFacet_congr F.dim F.cell hc tol (iterate F 1) ys h1
      constructor
      · rw [hst]
        by_cases hi : InFacet F.cell tol ys
        · rw [if_pos hi, if_neg (not_not.mpr (hiff.mpr hi))]
        · rw [if_neg hi, if_pos (fun h => hi (hiff.mp h))]
      · rw [hxi, sum_eq_zero (fun j hj => by rw [h1 j (mem_range.mp hj), sub_self]; norm_num)]
        positivity
  · exact absurd hstop1 (hnever 1 (by omega))

open Classical in
/-- C80: on an affine facet that is not parallel to the ray, tracing is exact.  Let the line through
`p` with direction `n` meet the plane of the facet in the point with parameters `ys`.  Then with two or
more iterations the status is 1 if that point is in the facet enlarged by the tolerance and -3
otherwise, and the parameters found differ from `ys` by less than the tolerance. -/
theorem C80_exact (F : Facet) (a : ℕ → ℝ) (A : ℕ → ℕ → ℝ) 
    (hpoint : ∀ X i, i < F.dim.gdim → cellImage F X i = a i + ∑ m ∈ range F.dim.tdim, A i m * X m)
    (hjac : ∀ X i m, i < F.dim.gdim → m < F.dim.tdim → cellJacobian F X i m = A i m)
    (hdxi : ∀ m j, m < F.dim.tdim → j < F.dim.tdim - 1 → F.dxi m j = F.vertex (j + 1) m - F.vertex 0 m)
    (hd : F.dim ≠ .d23)
    (hc : CellOf F.dim F.cell) (n : ℕ → ℝ) (hn : ∃ i < F.dim.gdim, n i ≠ 0)
    (ht : F.tangents = computeTangents F.dim.gdim n) (maxIter : ℕ) (hmax : 2 ≤ maxIter)
    (tol : ℝ) (htol : 0 < tol) (htol' : tol ≤ 1 / 4) (hdet : tol ≤ |rayDet F (rayIterate F 0)|)
    (ys : ℕ → ℝ) (c : ℝ) (hy : ∀ i < F.dim.gdim, cellImage F (facetRef F ys) i = F.point i + c * n i)
    (st : State) :
    ∃ s, raytracingCell F maxIter tol st = .ok s ∧
      s.status = (if InFacet F.cell tol ys then 1 else -3) ∧
      ∑ j ∈ range (F.dim.tdim - 1), (s.xi j - ys j) ^ 2 < tol ^ 2 :=
  raytracing_exact F a A (.of hpoint hjac hdxi) hd hc n hn ht maxIter hmax tol htol htol'
    (by rw [detG_eq, show xi0 F = iterate F 0 from rfl, iterate_eq]; exact hdet) ys c hy st

/-- The hypotheses are met by the edge of the unit triangle and the ray from `(1/4, 3)` along
`(0, 1)`. -/
example : ∀ F, F = exFacet .d22 (fun i => if i = 0 then 1 / 4 else 3)
      (computeTangents 2 (fun i => if i = 1 then 1 else 0)) →
    AffineFacet F (fun _ => 0) (fun i m => if i = m then 1 else 0) ∧ CellOf F.dim F.cell
    ∧ (1e-8 : ℝ) ≤ |detG F (xi0 F)|
    ∧ (∀ i < F.dim.gdim, push F (refMap F (fun _ => 1 / 4)) i
      = F.point i + (-3) * (fun i => if i = 1 then (1 : ℝ) else 0) i) := by
  rintro F rfl
  have hT : computeTangents 2 (fun i => if i = 1 then 1 else 0) 0 0 = 1 := by
    have hm : maxPos (fun i => if i = 1 then (1 : ℝ) else 0) 1 = 1 := by simp [maxPos]
    have hf : (range 2).filter (fun i => ¬ i = 1) = {0} := by decide
    simp [computeTangents, normalize, tangent0, sum_range_succ, hm, hf]
  refine ⟨⟨?_, ?_, ?_⟩, Or.inl rfl, ?_, ?_⟩
  · intro X i hi
    have hi : i < 2 := hi
    interval_cases i <;> simp [push, exFacet, Dim.tdim, sum_range_succ]
  · intro X i m hi hm
    have hi : i < 2 := hi
    have hm : m < 2 := hm
    interval_cases i <;> interval_cases m <;> simp [jac, exFacet, sum_range_succ]
  · intro m j hm hj
    have hj : j < 1 := hj
    have hm : m < 2 := hm
    interval_cases j; interval_cases m <;> simp [exFacet]
  · have : ∀ x, detG (exFacet .d22 (fun i => if i = 0 then 1 / 4 else 3)
        (computeTangents 2 (fun i => if i = 1 then 1 else 0))) x = 1 := by
      intro x
      simp [detG, dResid, jac, exFacet, Dim.gdim, Dim.tdim, sum_range_succ, hT]
    rw [this]; norm_num
  · intro i hi
    have hi : i < 2 := hi
    interval_cases i <;> simp [push, refMap, exFacet, Dim.tdim, sum_range_succ]

/-! ### C23 -/

theorem pointLoop_spec (gdim : ℕ) (radius : ℝ) (point normal : ℕ → ℝ) (trace : ℕ → Trace)
    (patch : List ℕ) :
    match pointLoop gdim radius point normal trace patch with
    | none => ∀ c ∈ patch, ¬ filtered gdim radius point normal (trace c) > 0
    | some (c, X) => X = (trace c).X ∧ filtered gdim radius point normal (trace c) > 0 ∧
        ∃ pre post, patch = pre ++ c :: post ∧
          ∀ d ∈ pre, ¬ filtered gdim radius point normal (trace d) > 0 := by
  induction patch with
  | nil => simp [pointLoop]
  | cons c cs ih =>
    rw [pointLoop]
    by_cases h : filtered gdim radius point normal (trace c) > 0
    · rw [if_pos h]; exact ⟨rfl, h, [], cs, rfl, by simp⟩
    · rw [if_neg h]
      revert ih
      cases pointLoop gdim radius point normal trace cs with
      | none =>
        intro ih d hd
        rcases List.mem_cons.mp hd with rfl | hd
        · exact h
        · exact ih d hd
      | some r =>
        obtain ⟨d, X⟩ := r
        rintro ⟨h1, h2, pre, post, h3, h4⟩
        refine ⟨h1, h2, c :: pre, post, by rw [h3]; rfl, fun e he => ?_⟩
        rcases List.mem_cons.mp he with rfl | he
        · exact h
        · exact h4 e he

theorem filtered_pos (gdim : ℕ) (radius : ℝ) (point normal : ℕ → ℝ) (t : Trace) :
    filtered gdim radius point normal t > 0 ↔ 0 < t.status ∧
      ∑ l ∈ range gdim, normal l * t.normal l ≤ 0 ∧
      (0 < radius → ∑ l ∈ range gdim, (t.x l - point l) * (t.x l - point l) ≤ radius) := by
  unfold filtered
  dsimp only
  split
  · rename_i h
    constructor
    · intro h'; omega
    · rintro ⟨h1, h2, h3⟩
      rcases h with h | ⟨h, h'⟩
      · exact absurd h (not_lt.mpr h2)
      · exact absurd h' (not_lt.mpr (h3 h))
  · rename_i h
    rw [not_or, not_and] at h
    exact ⟨fun h' => ⟨h', not_lt.mp h.1, fun hr => not_lt.mp (h.2 hr)⟩, fun h' => h'.1⟩

/-- Data of one quadrature facet: sizes, radius, points and normals at the quadrature points, the
candidate facets near it (`patch`, positions in the candidate list), the traced candidates and the
library's closest point search. -/
structure RowData where
  gdim : ℕ
  nq : ℕ
  radius : ℝ
  point : ℕ → ℕ → ℝ
  normal : ℕ → ℕ → ℝ
  cFacets : ℕ → ℤ
  patch : List ℕ
  trace : ℕ → ℕ → Trace
  closest : ℕ → ℕ × (ℕ → ℝ)

/-- The row computed by `compute_raytracing_map`. -/
def RowData.row (R : RowData) (q : ℕ) : ℤ × (ℕ → ℝ) :=
  facetRow R.gdim R.nq R.radius R.point R.normal R.cFacets R.patch R.trace R.closest q

/-- The ray from point `q` hits candidate `c` and the pair is acceptable: positive status, normals not
in the same direction, distance at most the radius (if positive). -/
def RowData.Valid (R : RowData) (q c : ℕ) : Prop :=
  0 < (R.trace q c).status ∧ ∑ l ∈ range R.gdim, R.normal q l * (R.trace q c).normal l ≤ 0 ∧
    (0 < R.radius →
      Real.sqrt (∑ l ∈ range R.gdim, ((R.trace q c).x l - R.point q l) ^ 2) ≤ R.radius)

/-- The test the code applies: like `Valid`, but the *squared* distance is compared with the
radius. -/
def RowData.Accepted (R : RowData) (q c : ℕ) : Prop :=
  0 < (R.trace q c).status ∧ ∑ l ∈ range R.gdim, R.normal q l * (R.trace q c).normal l ≤ 0 ∧
    (0 < R.radius → ∑ l ∈ range R.gdim, ((R.trace q c).x l - R.point q l) ^ 2 ≤ R.radius)

/-- C23, what the code does: a point with an accepted candidate is linked to the first one in the
order of the patch (nearest midpoint first). -/
theorem C23_exact (R : RowData) (q : ℕ) (h : ∃ c ∈ R.patch, R.Accepted q c) :
    ∃ pre c post, R.patch = pre ++ c :: post ∧ R.Accepted q c ∧ (∀ d ∈ pre, ¬ R.Accepted q d) ∧
      R.row q = (R.cFacets c, (R.trace q c).X) := by
  have hacc : ∀ c, filtered R.gdim R.radius (R.point q) (R.normal q) (R.trace q c) > 0 ↔
      R.Accepted q c := fun c => by
    rw [filtered_pos, RowData.Accepted]; simp only [sq]
  have hs := pointLoop_spec R.gdim R.radius (R.point q) (R.normal q) (R.trace q) R.patch
  simp only [hacc] at hs
  rw [RowData.row, facetRow]
  dsimp only
  revert hs
  generalize hP : pointLoop R.gdim R.radius (R.point q) (R.normal q) (R.trace q) R.patch = r
  intro hs
  cases r with
  | none =>
    obtain ⟨c, hc, hc'⟩ := h
    exact absurd hc' (hs c hc)
  | some r =>
    obtain ⟨c, X⟩ := r
    obtain ⟨h1, h2, pre, post, h3, h4⟩ := hs
    exact ⟨pre, c, post, h3, h2, h4, by rw [h1]⟩

/-- C23 for radii at least one (or unlimited): a point that some ray links is linked to a valid facet,
i.e. one hit by the ray, with a normal that does not point the same way, within the radius.  Missing:
radii below one (`C23_radius_violated`) and points linked by the closest point fallback
(`C23_fallback_violated`). -/
theorem C23_filter_partial (R : RowData) (hr : R.radius ≤ 0 ∨ 1 ≤ R.radius) (q : ℕ)
    (h : ∃ c ∈ R.patch, R.Accepted q c) :
    ∃ c ∈ R.patch, R.Valid q c ∧ R.row q = (R.cFacets c, (R.trace q c).X) := by
  obtain ⟨pre, c, post, h1, ⟨f1, f2, f3⟩, _, h4⟩ := C23_exact R q h
  refine ⟨c, by rw [h1]; simp, ⟨f1, f2, fun hpos => ?_⟩, h4⟩
  have hge : 1 ≤ R.radius := hr.resolve_left (not_le.mpr hpos)
  rw [Real.sqrt_le_left hpos.le]
  have := f3 hpos
  nlinarith

/-- C23: for radii at most one (or unlimited) no valid facet is overlooked: a point with a valid
candidate is linked by a ray. -/
theorem C23_complete (R : RowData) (hr : R.radius ≤ 1) (q : ℕ) (h : ∃ c ∈ R.patch, R.Valid q c) :
    ∃ pre c post, R.patch = pre ++ c :: post ∧ R.Accepted q c ∧ (∀ d ∈ pre, ¬ R.Valid q d) ∧
      R.row q = (R.cFacets c, (R.trace q c).X) := by
  have hva : ∀ c, R.Valid q c → R.Accepted q c := by
    rintro c ⟨v1, v2, v3⟩
    refine ⟨v1, v2, fun hp => ?_⟩
    have h5 := v3 hp
    rw [Real.sqrt_le_left hp.le] at h5
    nlinarith
  obtain ⟨c, hc, hv⟩ := h
  obtain ⟨pre, c, post, h1, h2, h3, h4⟩ := C23_exact R q ⟨c, hc, hva c hv⟩
  exact ⟨pre, c, post, h1, h2, fun d hd hv => h3 d hd (hva d hv), h4⟩

/-- C23 fails: for every search radius between 0 and 1 some point is linked to a facet farther away
than the radius, because the squared distance is compared with the radius itself. -/
theorem C23_radius_violated (r : ℝ) (h0 : 0 < r) (h1 : r < 1) :
    ∃ R : RowData, R.radius = r ∧ R.nq = 1 ∧ R.patch = [0] ∧ (R.row 0).1 = R.cFacets 0 ∧
      0 ≤ R.cFacets 0 ∧
      r < Real.sqrt (∑ l ∈ range R.gdim, ((R.trace 0 0).x l - R.point 0 l) ^ 2) := by
  have hsum : ∑ l ∈ range 2, ((if l = 0 then Real.sqrt r else 0) - (0 : ℝ)) ^ 2 = r := by
    simp [sum_range_succ, Real.sq_sqrt h0.le]
  refine ⟨⟨2, 1, r, fun _ _ => 0, fun _ i => if i = 0 then 1 else 0, fun _ => 7, [0],
    fun _ _ => ⟨1, fun i => if i = 0 then Real.sqrt r else 0, fun _ => 0, fun i => if i = 0 then -1 else 0⟩,
    fun _ => (0, fun _ => 0)⟩, rfl, rfl, rfl, ?_, by norm_num, ?_⟩
  · set R : RowData := ⟨2, 1, r, fun _ _ => 0, fun _ i => if i = 0 then 1 else 0, fun _ => 7, [0],
      fun _ _ => ⟨1, fun i => if i = 0 then Real.sqrt r else 0, fun _ => 0,
        fun i => if i = 0 then -1 else 0⟩, fun _ => (0, fun _ => 0)⟩ with hR
    have hA : R.Accepted 0 0 := by
      refine ⟨show (0 : ℤ) < 1 by norm_num, ?_, fun _ => hsum.le⟩
      simp [hR, sum_range_succ]
    obtain ⟨_, c, _, _, _, _, h4⟩ := C23_exact R 0 ⟨0, List.mem_singleton.mpr rfl, hA⟩
    rw [h4]
  · show r < Real.sqrt (∑ l ∈ range 2, ((if l = 0 then Real.sqrt r else 0) - (0 : ℝ)) ^ 2)
    rw [hsum]
    exact Real.lt_sqrt_of_sq_lt (by nlinarith)

/-- C23 fails for points linked by the fallback: the second point is linked to the only candidate
although its ray does not hit and the facet normal points the same way. -/
theorem C23_fallback_violated : ∃ R : RowData, R.nq = 2 ∧ R.patch = [0] ∧ R.radius = 1 ∧
    (R.row 1).1 = R.cFacets 0 ∧ 0 ≤ R.cFacets 0 ∧ (R.trace 1 0).status = -3 ∧
    0 < ∑ l ∈ range R.gdim, R.normal 1 l * (R.trace 1 0).normal l := by
  let tr : ℕ → ℕ → Trace := fun q _ => ⟨if q = 0 then 1 else -3, fun _ => 0, fun _ => 0,
    fun i => if i = 0 then -1 else 0⟩
  let no : ℕ → ℕ → ℝ := fun q i => if i = 0 then (if q = 0 then 1 else -1) else 0
  refine ⟨⟨2, 2, 1, fun _ _ => 0, no, fun _ => 7, [0], tr, fun _ => (0, fun _ => 0)⟩,
    rfl, rfl, rfl, ?_, by norm_num, rfl, ?_⟩
  · have p0 : pointLoop 2 1 (fun _ => 0) (no 0) (tr 0) [0] = some (0, fun _ => 0) := by
      rw [pointLoop, if_pos]
      rw [filtered_pos]
      refine ⟨by simp [tr], by simp [sum_range_succ, no, tr], fun _ => by simp [tr]⟩
    have p1 : pointLoop 2 1 (fun _ => 0) (no 1) (tr 1) [0] = none := by
      rw [pointLoop, if_neg, pointLoop]
      rw [filtered_pos]
      rintro ⟨h, _⟩
      simp [tr] at h
    rw [RowData.row, facetRow]
    dsimp only
    have hm : ((List.range 2).filter (fun q =>
        (pointLoop 2 1 (fun _ => (0 : ℝ)) (no q) (tr q) [0]).isNone)).length = 1 := by
      have : List.range 2 = [0, 1] := rfl
      rw [this, List.filter_cons_of_neg (by rw [p0]; simp), List.filter_cons_of_pos (by rw [p1]; rfl)]
      rfl
    rw [hm, p1]
    dsimp only
    rw [if_pos (by omega), projectionMap, if_neg (by simp)]
  · show 0 < ∑ l ∈ range 2, no 1 l * (tr 1 0).normal l
    simp [sum_range_succ, no, tr]

/-- A point with one candidate at distance 1/2 in front of it and radius 1. -/
example : ∃ R : RowData, (R.radius ≤ 0 ∨ 1 ≤ R.radius) ∧ R.radius ≤ 1 ∧
    (∃ c ∈ R.patch, R.Accepted 0 c ∧ R.Valid 0 c) := by
  have hsum : ∑ l ∈ range 2, ((if l = 0 then (1 / 2) else 0) - (0 : ℝ)) ^ 2 = (1 / 2) ^ 2 := by
    simp [sum_range_succ]
  refine ⟨⟨2, 1, 1, fun _ _ => 0, fun _ i => if i = 0 then 1 else 0, fun _ => 7, [3],
    fun _ _ => ⟨1, fun i => if i = 0 then 1 / 2 else 0, fun _ => 0, fun i => if i = 0 then -1 else 0⟩,
    fun _ => (0, fun _ => 0)⟩, Or.inr (le_refl _), le_refl _, 3, List.mem_singleton.mpr rfl,
    ⟨show (0 : ℤ) < 1 by norm_num, show _ ≤ (0 : ℝ) by simp [sum_range_succ], fun _ => ?_⟩,
    ⟨show (0 : ℤ) < 1 by norm_num, show _ ≤ (0 : ℝ) by simp [sum_range_succ], fun _ => ?_⟩⟩
  · exact hsum.le.trans (by norm_num)
  · refine (le_of_eq (congrArg Real.sqrt hsum)).trans ?_
    rw [Real.sqrt_sq (by norm_num)]
    norm_num

/-! ### C24 -/

/-- C24: after ray tracing, either all quadrature points of a facet are linked or none is (facet
numbers are non-negative and the library search returns a facet of the patch). -/
theorem C24_all_or_none (R : RowData) (hf : ∀ c, 0 ≤ R.cFacets c) :
    (∀ q < R.nq, 0 ≤ (R.row q).1) ∨ (∀ q < R.nq, (R.row q).1 = -1) := by
  set hit := fun q => pointLoop R.gdim R.radius (R.point q) (R.normal q) (R.trace q) R.patch with hh
  by_cases hall : ∀ q < R.nq, (hit q).isNone
  · right
    intro q hq
    have hl : ((List.range R.nq).filter (fun q => (hit q).isNone)).length = R.nq := by
      rw [List.filter_eq_self.mpr (fun a ha => hall a (List.mem_range.mp ha)), List.length_range]
    have hq' := hall q hq
    rw [Option.isNone_iff_eq_none] at hq'
    rw [RowData.row, facetRow]
    dsimp only
    rw [show pointLoop R.gdim R.radius (R.point q) (R.normal q) (R.trace q) R.patch = none from hq']
    dsimp only
    rw [if_neg (by intro h; exact absurd h.2 (by
      show ¬ ((List.range R.nq).filter (fun q => (hit q).isNone)).length < R.nq
      omega))]
  · left
    push Not at hall
    obtain ⟨q0, hq0, hne⟩ := hall
    have hpatch : R.patch ≠ [] := by
      intro h
      apply hne
      show (pointLoop R.gdim R.radius (R.point q0) (R.normal q0) (R.trace q0) R.patch).isNone
      rw [h]; rfl
    intro q hq
    rw [RowData.row, facetRow]
    dsimp only
    cases hc : pointLoop R.gdim R.radius (R.point q) (R.normal q) (R.trace q) R.patch with
    | some r => exact hf _
    | none =>
      dsimp only
      have hlt : ((List.range R.nq).filter (fun q => (hit q).isNone)).length < R.nq := by
        have := List.length_filter_lt_length_iff_exists (p := fun q => (hit q).isNone)
          (l := List.range R.nq)
        rw [List.length_range] at this
        exact this.mpr ⟨q0, List.mem_range.mpr hq0, by simpa using hne⟩
      have hpos : 0 < ((List.range R.nq).filter (fun q => (hit q).isNone)).length :=
        List.length_pos_of_mem (List.mem_filter.mpr ⟨List.mem_range.mpr hq, by
          show (hit q).isNone = true
          rw [hh]; dsimp only; rw [hc]; rfl⟩)
      rw [if_pos ⟨hpos, hlt⟩, projectionMap, if_neg hpatch]
      exact hf _

/-- C24: without candidate facets in reach nothing is linked. -/
theorem C24_no_candidates (R : RowData) (h : R.patch = []) (q : ℕ) :
    (R.row q).1 = -1 := by
  rw [RowData.row, facetRow]
  dsimp only
  rw [h, pointLoop]
  dsimp only
  split
  · rfl
  · rfl

/-- C24: with search radius zero nothing is linked, because the patch is searched with twice the
radius and no midpoint is at negative distance. -/
theorem C24_radius_zero (R : RowData) (mid : Fin 3 → ℝ) (cand : List (Fin 3 → ℝ)) (perm : List ℕ)
    (hr : R.radius = 0) (hp : R.patch = Search.findCandidateFacets mid cand (2 * R.radius) perm) (q : ℕ) :
    (R.row q).1 = -1 := by
  refine C24_no_candidates R ?_ q
  rw [hp, hr, Search.findCandidateFacets]
  have : Search.candPatch mid cand (2 * 0) = [] := by
    rw [Search.candPatch_eq]
    simp only [List.map_eq_nil_iff, List.filter_eq_nil_iff]
    intro i _
    simp only [mul_zero, lt_self_iff_false, false_or, decide_eq_true_eq, not_lt]
    simp only [Search.midDist]
    positivity
  rw [this]; rfl

example : ∃ R : RowData, (∀ c, 0 ≤ R.cFacets c) ∧ R.radius = 0 ∧
    R.patch = Search.findCandidateFacets (fun _ => 0) [fun _ => 0] (2 * R.radius) [0] :=
  ⟨⟨2, 3, 0, fun _ _ => 0, fun _ _ => 0, fun c => c,
    Search.findCandidateFacets (fun _ => 0) [fun _ => 0] (2 * (0 : ℝ)) [0], fun _ _ => ⟨1, fun _ => 0, fun _ => 0, fun _ => 0⟩,
    fun _ => (0, fun _ => 0)⟩, fun c => Int.natCast_nonneg c, rfl, rfl⟩

/-! ### C25 -/

/-- The slots of a view: start, and size given by the product of its shape. -/
def Uses (v : ℕ × List ℕ) (m : ℕ) : Prop := v.1 ≤ m ∧ m < v.1 + v.2.prod

/-- Views inside a buffer of the given size and pairwise disjoint. -/
def GoodViews (size : ℕ) (views : List (ℕ × List ℕ)) : Prop :=
  (∀ v ∈ views, v.1 + v.2.prod ≤ size) ∧ views.Pairwise (fun v w => ∀ m, ¬ (Uses v m ∧ Uses w m))

/-- Views stacked one behind the other are good. -/
theorem goodViews_of_stacked (views : List (ℕ × List ℕ)) (size start : ℕ)
    (h : ∀ i (hi : i < views.length), start ≤ (views[i]).1 ∧ (views[i]).1 + (views[i]).2.prod ≤ size
      ∧ ∀ (hj : i + 1 < views.length), (views[i]).1 + (views[i]).2.prod ≤ (views[i + 1]).1) :
    GoodViews size views := by
  refine ⟨fun v hv => ?_, ?_⟩
  · obtain ⟨i, hi, rfl⟩ := List.getElem_of_mem hv
    exact (h i hi).2.1
  · rw [List.pairwise_iff_getElem]
    intro i j hi hj hij m hm
    have key : ∀ d (hd : i + d + 1 < views.length), (views[i]).1 + (views[i]).2.prod ≤ (views[i + d + 1]).1 := by
      intro d
      induction d with
      | zero => intro hd; exact (h i hi).2.2 hd
      | succ d ih =>
        intro hd
        have h1 := ih (by omega)
        have h2 := (h (i + d + 1) (by omega)).2.2 (by omega)
        have : (views[i + d + 1]).1 ≤ (views[i + (d + 1) + 1]).1 := by
          have e : i + (d + 1) + 1 = i + d + 1 + 1 := by omega
          simp only [e]; omega
        omega
    obtain ⟨d, rfl⟩ : ∃ d, j = i + d + 1 := ⟨j - i - 1, by omega⟩
    have := key d hj
    have h1 := hm.1.2
    have h2 := hm.2.1
    omega

/-- C25: the views of the Newton workspace lie in the buffer and do not overlap, for all dimensions. -/
theorem C25_storage (tdim gdim : ℕ) :
    GoodViews (storageOffset tdim gdim 12) (storageViews tdim gdim) := by
  refine goodViews_of_stacked _ _ 0 (fun i hi => ?_)
  have hi' : i < 12 := hi
  simp only [storageViews]
  interval_cases i <;>
    (refine ⟨Nat.zero_le _, ?_, fun _ => ?_⟩ <;>
      simp only [List.getElem_cons_zero, List.getElem_cons_succ, storageOffset, storageSizes,
        List.take_succ_cons, List.take_zero, List.sum_cons, List.sum_nil, List.prod_cons, List.prod_nil] <;>
      simp only [Nat.mul_one] <;> first | omega | exact absurd ‹_ + 1 < _› (by simp [storageViews]))

/-- C25: the same for the non-affine pull-back, for every element. -/
theorem C25_pull_back (tdim gdim ndofs : ℕ) :
    GoodViews (pullBackSize tdim gdim ndofs) (pullBackViews tdim gdim ndofs) := by
  refine goodViews_of_stacked _ _ 0 (fun i hi => ?_)
  have hi' : i < 6 := hi
  simp only [pullBackViews, pullBackSize]
  have e : tdim * gdim = gdim * tdim := Nat.mul_comm _ _
  interval_cases i <;>
    (refine ⟨Nat.zero_le _, ?_, fun _ => ?_⟩ <;>
      simp only [List.getElem_cons_zero, List.getElem_cons_succ, List.prod_cons, List.prod_nil] <;>
      simp only [Nat.mul_one, e, Nat.mul_assoc] <;>
      first | omega | exact absurd ‹_ + 1 < _› (by simp [pullBackViews, normalViews]))

/-- C25: and for the push forward of facet normals, which uses the buffer of the pull-back. -/
theorem C25_normal (tdim gdim ndofs : ℕ) :
    GoodViews (pullBackSize tdim gdim ndofs) (normalViews tdim gdim ndofs) := by
  refine goodViews_of_stacked _ _ 0 (fun i hi => ?_)
  have hi' : i < 4 := hi
  simp only [normalViews, pullBackSize]
  have e : tdim * gdim = gdim * tdim := Nat.mul_comm _ _
  interval_cases i <;>
    (refine ⟨Nat.zero_le _, ?_, fun _ => ?_⟩ <;>
      simp only [List.getElem_cons_zero, List.getElem_cons_succ, List.prod_cons, List.prod_nil] <;>
      simp only [Nat.mul_one, e, Nat.mul_assoc] <;>
      first | omega | exact absurd ‹_ + 1 < _› (by simp [pullBackViews, normalViews]))

/-- For tetrahedra in space the workspace has 12 views in 50 slots. -/
example : storageOffset 3 3 12 = 50 ∧ (storageViews 3 3).length = 12 := by decide

end

end Verif.Ray
