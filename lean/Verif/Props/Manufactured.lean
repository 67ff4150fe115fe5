import Verif.Model.Manufactured
import Verif.Spec.Manufactured
import Mathlib.Analysis.SpecialFunctions.Trigonometric.Deriv
import Mathlib.Tactic.IntervalCases

/-!
C196: the manufactured solutions of the convergence tests solve the equations.
-/

namespace Verif.Manufactured

open Verif.Spec Finset Real

noncomputable section

/-- A product of functions of one coordinate each. -/
def sep (c : ℝ) (p : ℕ → ℝ → ℝ) (x : ℕ → ℝ) : ℝ := c * p 0 (x 0) * p 1 (x 1) * p 2 (x 2)

theorem sep_partial (c : ℝ) (p : ℕ → ℝ → ℝ) {j : ℕ} (hj : j < 3) (p' : ℝ → ℝ) (h : ∀ t, HasDerivAt (p j) (p' t) t) :
    IsPartial (sep c p) j (sep c (Function.update p j p')) := by
  intro x
  unfold sep
  interval_cases j
  · have := (((h (x 0)).const_mul c).mul_const (p 1 (x 1))).mul_const (p 2 (x 2))
    simpa using this
  · have := ((h (x 1)).const_mul (c * p 0 (x 0))).mul_const (p 2 (x 2))
    simpa using this
  · have := (h (x 2)).const_mul (c * p 0 (x 0) * p 1 (x 1))
    simpa using this

theorem IsPartial.zero (j : ℕ) : IsPartial (fun _ => 0) j (fun _ => 0) := fun x => hasDerivAt_const (x j) (0 : ℝ)

theorem sin_deriv (a t : ℝ) : HasDerivAt (fun t => sin (a * t)) (a * cos (a * t)) t := by
  have := ((hasDerivAt_id t).const_mul a).sin
  simpa [mul_comm] using this

theorem cos_deriv (a t : ℝ) : HasDerivAt (fun t => a * cos (a * t)) (-a ^ 2 * sin (a * t)) t := by
  have := (((hasDerivAt_id t).const_mul a).cos).const_mul a
  refine this.congr_deriv ?_
  simp only [id_eq]
  ring

/-- The second derivatives give those of the stress. -/
theorem stress_partial {g : ℕ} {mu lam : ℝ} {G : ℕ → ℕ → (ℕ → ℝ) → ℝ} {GG : ℕ → ℕ → ℕ → (ℕ → ℝ) → ℝ}
    (h : ∀ i < g, ∀ j < g, ∀ k < g, IsPartial (G i j) k (GG i j k)) {i j : ℕ} (hi : i < g) (hj : j < g) :
    IsPartial (stressOf g mu lam G i j) j (stressOf g mu lam (fun i' j' => GG i' j' j) i j) := by
  intro x
  unfold stressOf
  refine ((((h i hi j hj j hj x).add (h j hj i hi j hj x)).div_const 2).const_mul (2 * mu)).add ?_
  refine HasDerivAt.mul_const (HasDerivAt.const_mul lam ?_) _
  exact HasDerivAt.fun_sum (fun k hk => h k (mem_range.mp hk) k (mem_range.mp hk) j hj x)

/-- Factors of the manufactured solutions and their derivatives. -/
def fac (e : ℕ → ℝ) (k : ℕ) (t : ℝ) : ℝ := sin (e k * t)
def fac1 (e : ℕ → ℝ) (k : ℕ) (t : ℝ) : ℝ := e k * cos (e k * t)
def fac2 (e : ℕ → ℝ) (k : ℕ) (t : ℝ) : ℝ := -e k ^ 2 * sin (e k * t)

/-- First derivatives of the product. -/
def grad1 (c : ℝ) (e : ℕ → ℝ) (q : ℕ → ℝ → ℝ) (g j : ℕ) : (ℕ → ℝ) → ℝ :=
  sep c (Function.update (fun k => if k < g then fac e k else q k) j (fac1 e j))

/-- Second derivatives. -/
def grad2 (c : ℝ) (e : ℕ → ℝ) (q : ℕ → ℝ → ℝ) (g j k : ℕ) : (ℕ → ℝ) → ℝ :=
  sep c (Function.update (Function.update (fun k => if k < g then fac e k else q k) j (fac1 e j)) k
    (if k = j then fac2 e j else fac1 e k))

theorem grad1_partial (c : ℝ) (e : ℕ → ℝ) (q : ℕ → ℝ → ℝ) {g j : ℕ} (hg : g ≤ 3) (hj : j < g) :
    IsPartial (sep c (fun k => if k < g then fac e k else q k)) j (grad1 c e q g j) := by
  refine sep_partial c _ (by omega) _ (fun t => ?_)
  rw [if_pos hj]
  exact sin_deriv (e j) t

theorem grad2_partial (c : ℝ) (e : ℕ → ℝ) (q : ℕ → ℝ → ℝ) {g j k : ℕ} (hg : g ≤ 3) (hk : k < g) :
    IsPartial (grad1 c e q g j) k (grad2 c e q g j k) := by
  refine sep_partial c _ (by omega) _ (fun t => ?_)
  by_cases h : k = j
  · subst h
    rw [Function.update_self, if_pos rfl]
    exact cos_deriv (e k) t
  · rw [Function.update_of_ne h, if_neg h, if_pos hk]
    exact sin_deriv (e k) t

/-- A displacement with the second component only. -/
theorem elastic_of {g : ℕ} (hg : g ≤ 3) (c : ℝ) (e : ℕ → ℝ) (q : ℕ → ℝ → ℝ) (mu lam : ℝ) (u f : ℕ → (ℕ → ℝ) → ℝ)
    (hu : ∀ i, u i = if i = 1 then sep c (fun k => if k < g then fac e k else q k) else fun _ => 0)
    (hf : ∀ i < g, ∀ x, -∑ j ∈ range g,
      stressOf g mu lam (fun i' j' => if i' = 1 then grad2 c e q g j' j else fun _ => 0) i j x = f i x) :
    ElasticEquation g mu lam u f := by
  refine ⟨fun i j => if i = 1 then grad1 c e q g j else fun _ => 0,
    fun i j => stressOf g mu lam (fun i' j' => if i' = 1 then grad2 c e q g j' j else fun _ => 0) i j, fun i _ j hj => ?_,
    fun i hi j hj => ?_, hf⟩
  · rw [hu]
    dsimp only
    split_ifs
    · exact grad1_partial c e q hg hj
    · exact IsPartial.zero j
  · refine stress_partial (GG := fun i' j' k => if i' = 1 then grad2 c e q g j' k else fun _ => 0) (fun i _ j hj k hk => ?_) hi hj
    split_ifs
    · exact grad2_partial c e q hg hk
    · exact IsPartial.zero k

/-- Frequencies. -/
def freq (k : ℕ) : ℝ := if k = 0 then 2 * π / 5 else 2 * π

theorem freq_zero (x : ℝ) : 2 * π * x / 5 = freq 0 * x := by
  unfold freq
  rw [if_pos rfl]
  ring

/-- C196: `fun_2d` of the convergence test for elasticity is the body force of `u_fun_2d`. -/
theorem C196_elastic2d (d mu lam : ℝ) : ElasticEquation 2 mu lam (uFun2d d) (fun2d d mu lam) := by
  refine elastic_of (by omega) d freq (fun _ _ => 1) mu lam _ _ (fun i => ?_) (fun i hi x => ?_)
  · funext x
    unfold uFun2d
    dsimp only
    rw [freq_zero]
    split_ifs
    · simp [sep, fac, freq]
    · rfl
  · interval_cases i
    all_goals
      simp [sum_range_succ, stressOf, grad2, sep, fac, fac1, fac2, Function.update, fun2d, freq]
      ring

/-- C196: the same in 3D. -/
theorem C196_elastic3d (d mu lam : ℝ) : ElasticEquation 3 mu lam (uFun3d d) (fun3d d mu lam) := by
  refine elastic_of (by omega) d freq (fun _ _ => 1) mu lam _ _ (fun i => ?_) (fun i hi x => ?_)
  · funext x
    unfold uFun3d
    dsimp only
    rw [freq_zero]
    split_ifs
    · simp [sep, fac, freq]
    · rfl
  · interval_cases i
    all_goals
      simp [sum_range_succ, stressOf, grad2, sep, fac, fac1, fac2, Function.update, fun3d, freq]
      ring

/-- C196: `fun_2d` of the convergence test for heat conduction is the source of `u_fun_2d`. -/
theorem C196_heat2d (d : ℝ) : HeatEquation 2 (heatFun2d d) (heatSource2d d) := by
  have hu : heatFun2d d = sep d (fun k => if k < 2 then fac freq k else fun _ => 1) := by
    funext x
    unfold heatFun2d
    rw [freq_zero]
    simp [sep, fac, freq]
  refine ⟨grad1 d freq (fun _ _ => 1) 2, fun j => grad2 d freq (fun _ _ => 1) 2 j j, fun j hj => ?_,
    fun j hj => grad2_partial d freq _ (by omega) hj, fun x => ?_⟩
  · rw [hu]
    exact grad1_partial d freq _ (by omega) hj
  · unfold heatSource2d
    dsimp only
    rw [freq_zero]
    simp [sum_range_succ, grad2, sep, fac, fac2, Function.update, freq]
    ring

/-- C196: the same in 3D. -/
theorem C196_heat3d (d : ℝ) : HeatEquation 3 (heatFun3d d) (heatSource3d d) := by
  have hu : heatFun3d d = sep d (fun k => if k < 3 then fac freq k else fun _ => 1) := by
    funext x
    unfold heatFun3d
    rw [freq_zero]
    simp [sep, fac, freq]
  refine ⟨grad1 d freq (fun _ _ => 1) 3, fun j => grad2 d freq (fun _ _ => 1) 3 j j, fun j hj => ?_,
    fun j hj => grad2_partial d freq _ (by omega) hj, fun x => ?_⟩
  · rw [hu]
    exact grad1_partial d freq _ (by omega) hj
  · simp [heatSource3d, sum_range_succ, grad2, sep, fac, fac2, Function.update, freq]
    ring

/-- C196: the manufactured solutions are zero on the boundary of the box, where the tests prescribe zero. -/
theorem C196_boundary (d : ℝ) (x : ℕ → ℝ) :
    (OnBoxBoundary 2 x → heatFun2d d x = 0 ∧ ∀ i, uFun2d d i x = 0)
    ∧ (OnBoxBoundary 3 x → heatFun3d d x = 0 ∧ ∀ i, uFun3d d i x = 0) := by
  have h5 : sin (2 * π * 5 / 5) = 0 := by rw [show 2 * π * 5 / 5 = 2 * π by ring]; exact sin_two_pi
  have h1 : sin (2 * π * 1) = 0 := by rw [mul_one]; exact sin_two_pi
  constructor
  · intro h
    have key : heatFun2d d x = 0 := by
      unfold heatFun2d
      rcases h with h | h | ⟨j, hj, h0, h⟩
      · rw [h]; simp
      · rw [h, h5]; simp
      · obtain rfl : j = 1 := by omega
        rcases h with h | h
        · rw [h]; simp
        · rw [h, h1]; simp
    refine ⟨key, fun i => ?_⟩
    unfold uFun2d
    dsimp only
    split_ifs
    · exact key
    · rfl
  · intro h
    have key : heatFun3d d x = 0 := by
      unfold heatFun3d
      rcases h with h | h | ⟨j, hj, h0, h⟩
      · rw [h]; simp
      · rw [h, h5]; simp
      · obtain rfl | rfl : j = 1 ∨ j = 2 := by omega
        all_goals
          rcases h with h | h
          · rw [h]; simp
          · rw [h, h1]; simp
    refine ⟨key, fun i => ?_⟩
    unfold uFun3d
    dsimp only
    split_ifs
    · exact key
    · rfl

/-- The solutions are not zero everywhere, and there are points on the boundary. -/
example (d : ℝ) (hd : d ≠ 0) : (∃ x, uFun2d d 1 x ≠ 0) ∧ (∃ x, heatFun3d d x ≠ 0) ∧ OnBoxBoundary 3 (fun _ => 1) := by
  have q : sin (2 * π * (1 / 4)) = 1 := by rw [show 2 * π * (1 / 4) = π / 2 by ring]; exact sin_pi_div_two
  have q' : sin (2 * π * (5 / 4) / 5) = 1 := by rw [show 2 * π * (5 / 4) / 5 = π / 2 by ring]; exact sin_pi_div_two
  refine ⟨⟨fun k => if k = 0 then 5 / 4 else 1 / 4, ?_⟩, ⟨fun k => if k = 0 then 5 / 4 else 1 / 4, ?_⟩,
    Or.inr (Or.inr ⟨1, by omega, by omega, Or.inr rfl⟩)⟩
  · simp only [uFun2d, if_true, one_ne_zero, if_false]
    rw [q, q']
    simpa using hd
  · simp only [heatFun3d, if_true, one_ne_zero, if_false, OfNat.ofNat_ne_zero]
    rw [q, q']
    simpa using hd

end

end Verif.Manufactured
