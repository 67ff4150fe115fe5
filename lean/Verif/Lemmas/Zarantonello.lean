import Mathlib.Analysis.InnerProductSpace.PiL2
import Mathlib.Topology.MetricSpace.Contracting

/-!
Strongly monotone Lipschitz maps of a finite-dimensional space are onto.
-/

namespace Verif.Lemmas

open Finset

noncomputable section

/-- A strongly monotone Lipschitz map of a Hilbert space takes every value. -/
theorem zarantonello {E : Type*} [NormedAddCommGroup E] [InnerProductSpace ℝ E] [CompleteSpace E]
    (A : E → E) {m L : ℝ} (hm : 0 < m) (hmono : ∀ x y, m * ‖x - y‖ ^ 2 ≤ inner ℝ (A x - A y) (x - y))
    (hL : ∀ x y, ‖A x - A y‖ ≤ L * ‖x - y‖) (f : E) : ∃ x, A x = f := by
  set M := max L m with hM
  have hMm : m ≤ M := le_max_right _ _
  have hM0 : 0 < M := lt_of_lt_of_le hm hMm
  have hLM : ∀ x y, ‖A x - A y‖ ≤ M * ‖x - y‖ := fun x y =>
    (hL x y).trans (mul_le_mul_of_nonneg_right (le_max_left _ _) (norm_nonneg _))
  set r := m / M ^ 2 with hr
  have hr0 : 0 < r := by positivity
  set k := 1 - m ^ 2 / M ^ 2 with hk
  have hk0 : 0 ≤ k := by
    rw [hk, sub_nonneg, div_le_one (by positivity)]
    exact pow_le_pow_left₀ hm.le hMm 2
  have hk1 : k < 1 := by
    have : 0 < m ^ 2 / M ^ 2 := by positivity
    linarith
  let T : E → E := fun x => x - r • (A x - f)
  have hT : ∀ x y, ‖T x - T y‖ ^ 2 ≤ k * ‖x - y‖ ^ 2 := by
    intro x y
    have e : T x - T y = (x - y) - r • (A x - A y) := by
      simp only [T, smul_sub]; abel
    rw [e, norm_sub_sq_real, inner_smul_right, norm_smul, Real.norm_of_nonneg hr0.le, mul_pow, real_inner_comm]
    have h1 := hmono x y
    have h2 : ‖A x - A y‖ ^ 2 ≤ M ^ 2 * ‖x - y‖ ^ 2 := by
      rw [← mul_pow]; exact pow_le_pow_left₀ (norm_nonneg _) (hLM x y) 2
    have h3 := mul_le_mul_of_nonneg_left h1 hr0.le
    have h4 := mul_le_mul_of_nonneg_left h2 (sq_nonneg r)
    have e1 : r * m = m ^ 2 / M ^ 2 := by rw [hr]; ring
    have e2 : r ^ 2 * M ^ 2 = m ^ 2 / M ^ 2 := by rw [hr]; field_simp
    have e3 : r * (m * ‖x - y‖ ^ 2) = m ^ 2 / M ^ 2 * ‖x - y‖ ^ 2 := by rw [← mul_assoc, e1]
    have e4 : r ^ 2 * (M ^ 2 * ‖x - y‖ ^ 2) = m ^ 2 / M ^ 2 * ‖x - y‖ ^ 2 := by rw [← mul_assoc, e2]
    rw [hk]
    rw [e3] at h3
    rw [e4] at h4
    linarith
  have hc : ContractingWith (Real.sqrt k).toNNReal T := by
    refine ⟨?_, LipschitzWith.of_dist_le_mul (fun x y => ?_)⟩
    · rw [Real.toNNReal_lt_one, Real.sqrt_lt' one_pos]; simpa using hk1
    · rw [dist_eq_norm, dist_eq_norm, Real.coe_toNNReal _ (Real.sqrt_nonneg _)]
      have := Real.sqrt_le_sqrt (hT x y)
      rwa [Real.sqrt_sq (norm_nonneg _), Real.sqrt_mul hk0, Real.sqrt_sq (norm_nonneg _)] at this
  refine ⟨hc.fixedPoint T, ?_⟩
  have h := hc.fixedPoint_isFixedPt
  have h2 : r • (A (hc.fixedPoint T) - f) = 0 := sub_eq_self.mp (show T _ = _ from h)
  exact sub_eq_zero.mp ((smul_eq_zero.mp h2).resolve_left hr0.ne')

/-- A continuous function, homogeneous of degree two and positive except at zero, is bounded below by a multiple
of the square of the norm. -/
theorem coercive_const {E : Type*} [NormedAddCommGroup E] [NormedSpace ℝ E] [FiniteDimensional ℝ E] (Q : E → ℝ)
    (hc : Continuous Q) (hh : ∀ (r : ℝ) x, Q (r • x) = r ^ 2 * Q x) (hp : ∀ x, x ≠ 0 → 0 < Q x) :
    ∃ m, 0 < m ∧ ∀ x, m * ‖x‖ ^ 2 ≤ Q x := by
  have : ProperSpace E := FiniteDimensional.proper ℝ E
  rcases (Metric.sphere (0 : E) 1).eq_empty_or_nonempty with he | hn
  · refine ⟨1, one_pos, fun x => ?_⟩
    have hx : x = 0 := by
      by_contra hx
      have : ‖x‖⁻¹ • x ∈ Metric.sphere (0 : E) 1 := by
        rw [mem_sphere_zero_iff_norm, norm_smul, norm_inv, norm_norm, inv_mul_cancel₀ (norm_ne_zero_iff.mpr hx)]
      rw [he] at this
      exact this
    have := hh 0 0
    rw [hx]
    simp at this
    simp [this]
  · obtain ⟨x0, hx0, hmin⟩ := (isCompact_sphere (0 : E) 1).exists_isMinOn hn hc.continuousOn
    have h1 : ‖x0‖ = 1 := mem_sphere_zero_iff_norm.mp hx0
    refine ⟨Q x0, hp x0 (by intro h; rw [h, norm_zero] at h1; exact zero_ne_one h1), fun x => ?_⟩
    by_cases hx : x = 0
    · have := hh 0 0
      rw [hx]
      simp at this
      simp [this]
    · have hx' : ‖x‖ ≠ 0 := norm_ne_zero_iff.mpr hx
      have hs : ‖x‖⁻¹ • x ∈ Metric.sphere (0 : E) 1 := by
        rw [mem_sphere_zero_iff_norm, norm_smul, norm_inv, norm_norm, inv_mul_cancel₀ hx']
      have h2 : Q x0 ≤ Q (‖x‖⁻¹ • x) := hmin hs
      rw [hh] at h2
      have h3 := mul_le_mul_of_nonneg_right h2 (sq_nonneg ‖x‖)
      have e : ‖x‖⁻¹ ^ 2 * Q x * ‖x‖ ^ 2 = Q x := by field_simp
      rwa [e] at h3

/-- Lipschitz continuity of a real function, with some constant. -/
def Lip {X : Type*} [PseudoMetricSpace X] (f : X → ℝ) : Prop := ∃ C, ∀ x y, |f x - f y| ≤ C * dist x y

variable {X : Type*} [PseudoMetricSpace X] {f g : X → ℝ}

theorem Lip.const (c : ℝ) : Lip (fun _ : X => c) := ⟨0, fun x y => by simp⟩

theorem Lip.add (hf : Lip f) (hg : Lip g) : Lip (fun x => f x + g x) := by
  obtain ⟨C, hC⟩ := hf
  obtain ⟨C', hC'⟩ := hg
  refine ⟨C + C', fun x y => ?_⟩
  have e : f x + g x - (f y + g y) = (f x - f y) + (g x - g y) := by ring
  rw [e, add_mul]
  exact (abs_add_le _ _).trans (add_le_add (hC x y) (hC' x y))

theorem Lip.const_mul (hf : Lip f) (c : ℝ) : Lip (fun x => c * f x) := by
  obtain ⟨C, hC⟩ := hf
  refine ⟨|c| * C, fun x y => ?_⟩
  rw [← mul_sub, abs_mul, mul_assoc]
  exact mul_le_mul_of_nonneg_left (hC x y) (abs_nonneg _)

theorem Lip.mul_const (hf : Lip f) (c : ℝ) : Lip (fun x => f x * c) := by
  simpa only [mul_comm] using hf.const_mul c

theorem Lip.sub (hf : Lip f) (hg : Lip g) : Lip (fun x => f x - g x) := by
  have := hf.add (hg.const_mul (-1))
  simpa only [neg_one_mul, ← sub_eq_add_neg] using this

theorem Lip.sum {ι : Type*} (s : Finset ι) {F : ι → X → ℝ} (h : ∀ i ∈ s, Lip (F i)) : Lip (fun x => ∑ i ∈ s, F i x) := by
  classical
  induction s using Finset.induction_on with
  | empty => simpa using Lip.const 0
  | insert a s ha ih =>
    simp only [sum_insert ha]
    exact (h a (mem_insert_self _ _)).add (ih (fun i hi => h i (mem_insert_of_mem hi)))

theorem Lip.posPart (hf : Lip f) : Lip (fun x => max 0 (f x)) := by
  obtain ⟨C, hC⟩ := hf
  refine ⟨C, fun x y => (?_ : _ ≤ |f x - f y|).trans (hC x y)⟩
  have := abs_max_sub_max_le_abs (f x) (f y) 0
  simpa only [max_comm] using this

theorem Lip.continuous (hf : Lip f) : Continuous f := by
  obtain ⟨C, hC⟩ := hf
  have h : LipschitzWith (Real.toNNReal C) f := by
    refine LipschitzWith.of_dist_le_mul (fun x y => ?_)
    rw [Real.dist_eq]
    exact (hC x y).trans (mul_le_mul_of_nonneg_right (Real.le_coe_toNNReal C) dist_nonneg)
  exact h.continuous

/-- A map into a Euclidean space with Lipschitz components is Lipschitz. -/
theorem Lip.vector {ι : Type*} [Fintype ι] {A : X → EuclideanSpace ℝ ι} (h : ∀ i, Lip (fun x => A x i)) :
    ∃ L, ∀ x y, ‖A x - A y‖ ≤ L * dist x y := by
  choose C hC using h
  refine ⟨∑ i, C i, fun x y => ?_⟩
  rw [sum_mul]
  refine le_trans ?_ (sum_le_sum (fun i _ => hC i x y))
  rw [EuclideanSpace.norm_eq]
  have h2 : ∑ i, ‖(A x - A y) i‖ ^ 2 ≤ (∑ i, |A x i - A y i|) ^ 2 := by
    have := sum_sq_le_sq_sum_of_nonneg (s := (Finset.univ : Finset ι)) (f := fun i => |A x i - A y i|) (fun i _ => abs_nonneg _)
    simpa [Real.norm_eq_abs] using this
  exact (Real.sqrt_le_sqrt h2).trans_eq (Real.sqrt_sq (sum_nonneg (fun _ _ => abs_nonneg _)))

/-! ### the space of the free dofs -/

section Space

variable {F : Finset ℕ} (u0 : ℕ → ℝ)

/-- The displacement with given values of the free dofs, and `u0` elsewhere. -/
def extend (x : EuclideanSpace ℝ F) (d : ℕ) : ℝ := if h : d ∈ F then x ⟨d, h⟩ else u0 d

theorem extend_lip (d : ℕ) : Lip (fun x : EuclideanSpace ℝ F => extend u0 x d) := by
  refine ⟨1, fun x y => ?_⟩
  unfold extend
  split
  · rename_i h
    rw [one_mul, dist_eq_norm]
    exact PiLp.norm_apply_le (x - y) ⟨d, h⟩
  · simp

theorem extend_sub (x y : EuclideanSpace ℝ F) : (fun d => extend u0 x d - extend u0 y d) = extend 0 (x - y) := by
  funext d
  unfold extend
  split <;> simp

theorem extend_smul (r : ℝ) (x : EuclideanSpace ℝ F) : extend 0 (r • x) = fun d => r * extend 0 x d := by
  funext d
  unfold extend
  split <;> simp

theorem extend_off (x : EuclideanSpace ℝ F) {d : ℕ} (h : d ∉ F) : extend u0 x d = u0 d := dif_neg h

theorem extend_of (u : ℕ → ℝ) (h : ∀ d, d ∉ F → u d = u0 d) : ∃ x : EuclideanSpace ℝ F, extend u0 x = u := by
  refine ⟨WithLp.toLp 2 (fun d => u d), ?_⟩
  funext d
  unfold extend
  split
  · rfl
  · rename_i hd; exact (h d hd).symm

theorem extend_ne {x : EuclideanSpace ℝ F} (hx : x ≠ 0) : ∃ d, extend 0 x d ≠ 0 := by
  by_contra h
  push Not at h
  refine hx ?_
  ext ⟨d, hd⟩
  have := h d
  unfold extend at this
  rwa [dif_pos hd] at this

theorem inner_extend {N : ℕ} (hF : ∀ d ∈ F, d < N) (a : ℕ → ℝ) (x : EuclideanSpace ℝ F) :
    inner ℝ (WithLp.toLp 2 (fun d : F => a d)) x = ∑ d ∈ range N, a d * extend 0 x d := by
  have e : inner ℝ (WithLp.toLp 2 (fun d : F => a d)) x = ∑ d : F, a d * extend 0 x d := by
    rw [PiLp.inner_apply]
    refine sum_congr rfl (fun d _ => ?_)
    simp [extend, mul_comm]
  rw [e, sum_coe_sort F (fun d => a d * extend 0 x d)]
  refine sum_subset (fun d hd => mem_range.mpr (hF d hd)) (fun d _ hd => ?_)
  rw [extend_off _ _ hd]; simp

end Space

/-- A linear system with a matrix which is positive definite on the free dofs has exactly one solution with given
values of the other dofs. -/
theorem posdef_solvable {N : ℕ} {F : Finset ℕ} (hF : ∀ d ∈ F, d < N) (B : ℕ → ℕ → ℝ)
    (hB : ∀ v : ℕ → ℝ, (∀ d, d ∉ F → v d = 0) → (∃ d, v d ≠ 0) → 0 < ∑ d ∈ range N, ∑ c ∈ range N, v d * B d c * v c)
    (r u0 : ℕ → ℝ) :
    ∃! u : ℕ → ℝ, (∀ d, d ∉ F → u d = u0 d) ∧ ∀ d ∈ F, ∑ c ∈ range N, B d c * u c = r d := by
  obtain ⟨m, hm, hmb⟩ : ∃ m, 0 < m ∧ ∀ x : EuclideanSpace ℝ F, m * ‖x‖ ^ 2
      ≤ ∑ d ∈ range N, ∑ c ∈ range N, extend 0 x d * B d c * extend 0 x c := by
    refine coercive_const _ ?_ ?_ ?_
    · have hc : ∀ d, Continuous (fun x : EuclideanSpace ℝ F => extend 0 x d) := fun d => (extend_lip 0 d).continuous
      exact continuous_finsetSum _ (fun d _ => continuous_finsetSum _ (fun c _ => ((hc d).mul_const _).mul (hc c)))
    · intro r x
      rw [extend_smul, mul_sum]
      refine sum_congr rfl (fun d _ => ?_)
      rw [mul_sum]
      exact sum_congr rfl (fun c _ => by ring)
    · intro x hx
      exact hB (extend 0 x) (fun d hd => extend_off _ _ hd) (extend_ne hx)
  let A : EuclideanSpace ℝ F → EuclideanSpace ℝ F :=
    fun x => WithLp.toLp 2 (fun d : F => ∑ c ∈ range N, B d c * extend u0 x c)
  have hsub : ∀ x y, A x - A y = WithLp.toLp 2 (fun d : F => ∑ c ∈ range N, B d c * extend 0 (x - y) c) := by
    intro x y
    ext d
    show ∑ c ∈ range N, B d c * extend u0 x c - ∑ c ∈ range N, B d c * extend u0 y c
      = ∑ c ∈ range N, B d c * extend 0 (x - y) c
    rw [← sum_sub_distrib, ← extend_sub u0 x y]
    exact sum_congr rfl (fun c _ => by ring)
  have hmono : ∀ x y, m * ‖x - y‖ ^ 2 ≤ inner ℝ (A x - A y) (x - y) := by
    intro x y
    refine (hmb (x - y)).trans_eq ?_
    rw [hsub, inner_extend hF (fun d => ∑ c ∈ range N, B d c * extend 0 (x - y) c)]
    refine sum_congr rfl (fun d _ => ?_)
    rw [sum_mul]
    exact sum_congr rfl (fun c _ => by ring)
  have hcomp : ∀ d : F, Lip (fun x => A x d) := by
    intro d
    show Lip (fun x : EuclideanSpace ℝ F => ∑ c ∈ range N, B d c * extend u0 x c)
    exact Lip.sum _ (fun c _ => (extend_lip u0 c).const_mul _)
  obtain ⟨L, hL⟩ := Lip.vector hcomp
  obtain ⟨x, hx⟩ := zarantonello A hm hmono (fun x y => by rw [← dist_eq_norm x y]; exact hL x y)
    (WithLp.toLp 2 (fun d : F => r d))
  have hsol : ∀ d : F, ∑ c ∈ range N, B d c * extend u0 x c = r d :=
    fun d => congrFun (congrArg (WithLp.ofLp) hx) d
  refine ⟨extend u0 x, ⟨fun d hd => extend_off u0 x hd, fun d hd => hsol ⟨d, hd⟩⟩, ?_⟩
  rintro w ⟨hw0, hw⟩
  obtain ⟨y, rfl⟩ := extend_of u0 w hw0
  have hAy : A y = A x := by
    ext d
    show ∑ c ∈ range N, B d c * extend u0 y c = ∑ c ∈ range N, B d c * extend u0 x c
    rw [hsol d, hw d d.2]
  have h6 := hmono y x
  rw [hAy, sub_self, inner_zero_left] at h6
  have h7 : ‖y - x‖ ^ 2 ≤ 0 := by
    by_contra h
    push Not at h
    have := mul_pos hm h
    linarith
  have h8 : y - x = 0 := norm_eq_zero.mp (pow_eq_zero_iff two_ne_zero |>.mp (le_antisymm h7 (sq_nonneg _)))
  rw [sub_eq_zero.mp h8]

end

end Verif.Lemmas
