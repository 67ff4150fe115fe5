import Verif.Model.Helpers
import Verif.Props.Scalars

/-!
Properties C127–C129: Python helpers.
-/

namespace Verif.Helpers

open Verif.Scalars Finset

noncomputable section

/-! ### C127 -/

/-- Derivative of the length of a vector that is not zero. -/
theorem hasDerivAt_len (dim : ℕ) (x : ℝ → ℕ → ℝ) (x' : ℕ → ℝ) (t : ℝ) (hx : ∀ i < dim, HasDerivAt (fun s => x s i) (x' i) t)
    (hp : 0 < ∑ i ∈ range dim, x t i ^ 2) :
    HasDerivAt (fun s => Real.sqrt (∑ i ∈ range dim, x s i ^ 2))
      ((∑ i ∈ range dim, x t i * x' i) / Real.sqrt (∑ i ∈ range dim, x t i ^ 2)) t := by
  have h : HasDerivAt (fun s => ∑ i ∈ range dim, x s i ^ 2) (∑ i ∈ range dim, 2 * (x t i * x' i)) t := by
    refine HasDerivAt.fun_sum (fun i hi => ?_)
    exact ((hx i (mem_range.mp hi)).fun_pow 2).congr_deriv (by norm_num; ring)
  refine (h.sqrt hp.ne').congr_deriv ?_
  rw [← mul_sum]
  rw [mul_div_mul_left _ _ (by norm_num : (2 : ℝ) ≠ 0)]

/-- C127: away from the sphere, the Python derivatives of the projection onto a ball are the derivatives of
`ball_projection`, in every dimension, for vector and radius depending on a parameter, and every radius. -/
theorem C127_derivative (dim : ℕ) (x : ℝ → ℕ → ℝ) (x' : ℕ → ℝ) (a : ℝ → ℝ) (a' t : ℝ)
    (hx : ∀ i < dim, HasDerivAt (fun s => x s i) (x' i) t) (ha : HasDerivAt a a' t) (h0 : 0 ≤ a t)
    (hne : Real.sqrt (∑ i ∈ range dim, x t i ^ 2) ≠ a t) (i : ℕ) (hi : i < dim) :
    HasDerivAt (fun s => pyBallProjection dim (x s) (a s) i)
      ((∑ j ∈ range dim, pyDBallProjection dim (x t) (a t) i j * x' j)
        + pyDAlphaBallProjection dim (x t) (a t) a' i) t := by
  have hcont : ContinuousAt (fun s => Real.sqrt (∑ i ∈ range dim, x s i ^ 2)) t := by
    apply Real.continuous_sqrt.continuousAt.comp
    exact tendsto_finsetSum _ (fun i hi => ((hx i (mem_range.mp hi)).continuousAt.pow 2))
  rcases lt_or_gt_of_ne hne with h | h
  · have he : (fun s => pyBallProjection dim (x s) (a s) i) =ᶠ[nhds t] fun s => x s i := by
      filter_upwards [hcont.eventually_lt ha.continuousAt h] with s hs
      simp only [pyBallProjection]
      rw [if_pos hs.le]
    have hd : (∑ j ∈ range dim, pyDBallProjection dim (x t) (a t) i j * x' j)
        + pyDAlphaBallProjection dim (x t) (a t) a' i = x' i := by
      simp only [pyDBallProjection, pyDAlphaBallProjection, if_pos h.le, ite_mul, one_mul, zero_mul, add_zero]
      rw [sum_ite_eq, if_pos (mem_range.mpr hi)]
    rw [hd]
    exact (hx i hi).congr_of_eventuallyEq he
  · set N := Real.sqrt (∑ i ∈ range dim, x t i ^ 2) with hN
    have hNpos : 0 < N := lt_of_le_of_lt h0 h
    have hp : 0 < ∑ i ∈ range dim, x t i ^ 2 := Real.sqrt_pos.mp hNpos
    have he : (fun s => pyBallProjection dim (x s) (a s) i)
        =ᶠ[nhds t] fun s => a s * x s i / Real.sqrt (∑ i ∈ range dim, x s i ^ 2) := by
      filter_upwards [ha.continuousAt.eventually_lt hcont h] with s hs
      simp only [pyBallProjection]
      rw [if_neg (not_le.mpr hs)]
    have hder := (ha.fun_mul (hx i hi)).fun_div (hasDerivAt_len dim x x' t hx hp) hNpos.ne'
    refine (hder.congr_deriv ?_).congr_of_eventuallyEq he
    rw [← hN]
    have h' : ¬N ≤ a t := not_le.mpr h
    simp only [pyDBallProjection, pyDAlphaBallProjection, ← hN, if_neg h']
    have e : ∑ j ∈ range dim, a t / N * ((if i = j then 1 else 0) - x t i / N * (x t j / N)) * x' j
        = a t / N * x' i - a t * x t i / N ^ 3 * ∑ j ∈ range dim, x t j * x' j := by
      have e1 : ∀ j, a t / N * ((if i = j then 1 else 0) - x t i / N * (x t j / N)) * x' j
          = (if i = j then a t / N * x' j else 0) - a t * x t i / N ^ 3 * (x t j * x' j) := by
        intro j
        by_cases hij : i = j
        · simp [hij]; ring
        · simp [hij]; ring
      simp only [e1, sum_sub_distrib, ← mul_sum]
      rw [sum_ite_eq, if_pos (mem_range.mpr hi)]
    rw [e]
    field_simp
    ring

/-- C128: they agree with the C++ functions of the kernels for every radius of at least `1e-14`, in two and three
dimensions, away from the sphere. -/
theorem C128_partial (dim : ℕ) (hd : dim = 2 ∨ dim = 3) (x : ℕ → ℝ) (hx : dim = 2 → x 2 = 0) (s ds : ℝ)
    (hs : 1e-14 ≤ s) (hne : Real.sqrt (∑ i ∈ range dim, x i ^ 2) ≠ s) (i j : ℕ) (hi : i < dim) (hj : j < dim) :
    pyDBallProjection dim x s i j = dBallProjection (fun k => x k) s dim (i * dim + j)
    ∧ pyDAlphaBallProjection dim x s ds i = dAlphaBallProjection (fun k => x k) s ds ⟨i, by omega⟩ := by
  have hn : ∑ k ∈ range dim, x k ^ 2 = normSquared (fun k => x k) := by
    rcases hd with rfl | rfl
    · simp [sum_range_succ, normSquared, hx rfl]
    · simp [sum_range_succ, normSquared]
  have hi3 : i < 3 := by omega
  have hj3 : j < 3 := by omega
  rw [hn] at hne
  have ei : at3 (fun k => x k) i = x i := by simp [at3, hi3]
  have ej : at3 (fun k => x k) j = x j := by simp [at3, hj3]
  rcases lt_or_gt_of_ne hne with h | h
  · rw [dBallProjection_inside (not_lt.mpr hs) h hi hj]
    simp only [pyDBallProjection, pyDAlphaBallProjection, dAlphaBallProjection, hn, if_pos h.le]
    refine ⟨trivial, ?_⟩
    rw [if_neg (not_lt.mpr h.le)]
  · rw [dBallProjection_outside (not_lt.mpr hs) (not_lt.mpr h.le) hi hj, ei, ej]
    have h' : Real.sqrt (normSquared (fun k : Fin 3 => x k)) > s := h
    simp only [pyDBallProjection, pyDAlphaBallProjection, dAlphaBallProjection, hn, if_neg (not_le.mpr h)]
    rw [if_pos h']
    have hpos : 0 < Real.sqrt (normSquared (fun k : Fin 3 => x k)) := lt_trans (lt_of_lt_of_le (by norm_num) hs) h
    have h2 : normSquared (fun k : Fin 3 => x k) = Real.sqrt (normSquared (fun k : Fin 3 => x k)) ^ 2 :=
      (Real.sq_sqrt (Real.sqrt_pos.mp hpos).le).symm
    refine ⟨?_, rfl⟩
    set N := Real.sqrt (normSquared (fun k : Fin 3 => x k))
    rw [h2]
    by_cases hij : i = j
    · simp only [hij, if_true]; field_simp
    · simp only [hij, if_false]; field_simp; ring

/-- C128 fails for smaller radii: the Python function returns the identity matrix inside the
ball, the C++ function zero. -/
theorem C128_violated (dim : ℕ) (hd : 0 < dim) (s : ℝ) (h0 : 0 ≤ s) (hs : s < 1e-14) :
    pyDBallProjection dim (fun _ => 0) s 0 0 = 1 ∧ dBallProjection (fun _ => 0) s dim (0 * dim + 0) = 0 := by
  constructor
  · simp [pyDBallProjection, h0]
  · simp only [dBallProjection, hs, if_true]

/-- The hypotheses of C127 and C128 hold outside and inside the ball. -/
example : Real.sqrt (∑ i ∈ range 2, (fun i => if i = 0 then (3 : ℝ) else if i = 1 then 4 else 0) i ^ 2) ≠ 2
    ∧ (1e-14 : ℝ) ≤ 2 := by
  refine ⟨?_, by norm_num⟩
  have : ∑ i ∈ range 2, (fun i => if i = 0 then (3 : ℝ) else if i = 1 then 4 else 0) i ^ 2 = 5 ^ 2 := by
    norm_num [sum_range_succ]
  rw [this, Real.sqrt_sq (by norm_num)]; norm_num

/-! ### C129 -/

theorem foldl_max_le (l : List ℝ) : ∀ a c : ℝ, l.foldl max a ≤ c ↔ a ≤ c ∧ ∀ x ∈ l, x ≤ c := by
  induction l with
  | nil => intro a c; simp
  | cons y l ih =>
    intro a c
    rw [List.foldl_cons, ih, max_le_iff]
    simp [and_assoc]

/-- C129: on one process (all rows owned), for matrices of the same size with at least one entry, the check passes
if and only if no entry differs by more than the tolerance, and fails with an assertion error otherwise. -/
theorem C129_partial (a b : PetscMat) (atol : ℝ) (ha : a.rows.length = a.size.1) (hb : b.rows.length = b.size.1)
    (hs : a.size = b.size) (h0 : 0 < a.size.1 ∧ 0 < a.size.2) :
    (compareMatrices a b atol = .passes ↔ ∀ i < a.size.1, ∀ j < a.size.2, |a.entry i j - b.entry i j| ≤ atol)
    ∧ (compareMatrices a b atol ≠ .passes → compareMatrices a b atol = .assertionError) := by
  have hne : a.size.1 * a.size.2 ≠ 0 := (Nat.mul_pos h0.1 h0.2).ne'
  have hbs : b.size.1 * b.size.2 ≠ 0 := hs ▸ hne
  have hm : maxDiff a b ≤ atol ↔ ∀ i < a.size.1, ∀ j < a.size.2, |a.entry i j - b.entry i j| ≤ atol := by
    rw [maxDiff, foldl_max_le]
    constructor
    · rintro ⟨-, h⟩ i hi j hj
      exact h _ (List.mem_flatMap.mpr ⟨i, List.mem_range.mpr hi, List.mem_map.mpr ⟨j, List.mem_range.mpr hj, rfl⟩⟩)
    · intro h
      refine ⟨(abs_nonneg _).trans (h 0 h0.1 0 h0.2), fun x hx => ?_⟩
      obtain ⟨i, hi, hx⟩ := List.mem_flatMap.mp hx
      obtain ⟨j, hj, rfl⟩ := List.mem_map.mp hx
      exact h i (List.mem_range.mp hi) j (List.mem_range.mp hj)
  unfold compareMatrices
  simp only [PetscMat.toCsrRaises, ha, hb, hs, hbs, ne_eq, not_true, decide_false, Bool.false_eq_true, if_false]
  by_cases h : maxDiff a b ≤ atol
  · have h' := hm.mp h
    rw [hs] at h'
    simp only [h, if_true, true_iff, ne_eq, not_true, false_implies, and_true]
    exact h'
  · have h' : ¬∀ i < b.size.1, ∀ j < b.size.2, |a.entry i j - b.entry i j| ≤ atol := by
      rw [← hs]; exact fun h'' => h (hm.mpr h'')
    simp [h, h']

/-- C129 is violated on more than one process: comparing any matrix with itself raises `ValueError` on every process
that does not own all rows. -/
theorem C129_violated (a : PetscMat) (atol : ℝ) (h : a.rows.length < a.size.1) :
    compareMatrices a a atol = .valueError := by
  simp [compareMatrices, PetscMat.toCsrRaises, h.ne]

/-- A matrix with two rows on one process and on two processes. -/
example : ([[(0, (1 : ℝ))], [(1, 2)]] : List (List (ℕ × ℝ))).length = (2, 2).1
    ∧ ([[(0, (1 : ℝ))]] : List (List (ℕ × ℝ))).length < ((2, 2) : ℕ × ℕ).1 := by simp

end

end Verif.Helpers
