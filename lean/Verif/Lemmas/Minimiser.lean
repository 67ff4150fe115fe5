import Mathlib.Analysis.Calculus.Deriv.MeanValue
import Verif.Spec.ObstacleEnergy
import Verif.Props.ContactEnergy

/-!
Equations that are the gradient of an energy: their solutions are its minimisers if the energy grows along lines.
-/

namespace Verif.Lemmas

open Verif.ContactProblem Verif.Spec Finset

theorem strict_min {φ φ' : ℝ → ℝ} (h : ∀ t, HasDerivAt φ (φ' t) t) (hpos : ∀ t, 0 < t → 0 < φ' t) : φ 0 < φ 1 := by
  refine strictMonoOn_of_deriv_pos (convex_Icc (0 : ℝ) 1) (fun t _ => (h t).continuousAt.continuousWithinAt) (fun t ht => ?_)
    (by simp) (by simp) one_pos
  rw [interior_Icc] at ht
  rw [(h t).deriv]
  exact hpos t ht.1

variable {N : ℕ} {K : ℕ → ℕ → ℝ} {l : ℕ → ℝ} {Φ : (ℕ → ℝ) → ℝ} {b : (ℕ → ℝ) → ℕ → ℝ} {F : Finset ℕ}

theorem energy_line (hK : ∀ d < N, ∀ c < N, K d c = K c d)
    (hder : ∀ u w : ℕ → ℝ, HasDerivAt (fun s : ℝ => Φ (fun d => u d + s * w d)) (∑ d ∈ range N, b u d * w d) 0) (u w : ℕ → ℝ)
    (t : ℝ) : HasDerivAt (fun s : ℝ => bulkEnergy N K l (fun d => u d + s * w d) + Φ (fun d => u d + s * w d))
      (∑ d ∈ range N, (∑ c ∈ range N, K d c * (u c + t * w c) - l d + b (fun d => u d + t * w d) d) * w d) t := by
  have h0 : HasDerivAt (fun s : ℝ => bulkEnergy N K l (fun d => (u d + t * w d) + s * w d) + Φ (fun d => (u d + t * w d) + s * w d))
      (∑ d ∈ range N, (∑ c ∈ range N, K d c * (u c + t * w c) - l d + b (fun d => u d + t * w d) d) * w d) 0 := by
    refine ((quadratic_deriv N K hK l (fun d => u d + t * w d) w).fun_add (hder (fun d => u d + t * w d) w)).congr_deriv ?_
    rw [← sum_add_distrib]
    exact sum_congr rfl (fun d _ => by ring)
  have h1 : HasDerivAt (fun s : ℝ => s - t) 1 t := (hasDerivAt_id t).sub_const t
  have h2 := HasDerivAt.comp t (h₂ := fun s : ℝ => bulkEnergy N K l (fun d => (u d + t * w d) + s * w d) + Φ (fun d => (u d + t * w d) + s * w d))
    (by rw [sub_self]; exact h0) h1
  rw [mul_one] at h2
  refine h2.congr_of_eventuallyEq (Filter.Eventually.of_forall (fun s => ?_))
  have e : (fun d => u d + s * w d) = fun d => (u d + t * w d) + (s - t) * w d := by funext d; ring
  simp only [Function.comp]
  rw [e]

/-- A solution of the equations of the free dofs is the strict minimiser. -/
theorem solution_min (hK : ∀ d < N, ∀ c < N, K d c = K c d)
    (hder : ∀ u w : ℕ → ℝ, HasDerivAt (fun s : ℝ => Φ (fun d => u d + s * w d)) (∑ d ∈ range N, b u d * w d) 0)
    (hmono : ∀ u z : ℕ → ℝ, (∀ d, d ∉ F → z d = 0) → (∃ d, z d ≠ 0) →
      0 < ∑ d ∈ range N, ∑ c ∈ range N, z d * K d c * z c
        + (∑ d ∈ range N, b (fun d => u d + z d) d * z d - ∑ d ∈ range N, b u d * z d))
    (u : ℕ → ℝ) (hsol : ∀ d ∈ F, ∑ c ∈ range N, K d c * u c - l d + b u d = 0)
    (v : ℕ → ℝ) (hv : ∀ d, d ∉ F → v d = u d) (hne : ∃ d, v d ≠ u d) :
    bulkEnergy N K l u + Φ u < bulkEnergy N K l v + Φ v := by
  obtain ⟨w, hw⟩ : ∃ w : ℕ → ℝ, w = fun d => v d - u d := ⟨_, rfl⟩
  have hw0 : ∀ d, d ∉ F → w d = 0 := fun d hd => by rw [hw]; simp only [hv d hd, sub_self]
  have h := strict_min (energy_line (l := l) hK hder u w) (fun t ht => ?_)
  · have e0 : (fun d => u d + 0 * w d) = u := by funext d; ring
    have e1 : (fun d => u d + 1 * w d) = v := by funext d; rw [hw]; ring
    simpa only [e0, e1] using h
  · have h1 := hmono u (fun d => t * w d) (fun d hd => by rw [hw0 d hd, mul_zero]) (by
      obtain ⟨d, hd⟩ := hne
      exact ⟨d, mul_ne_zero ht.ne' (by rw [hw]; exact sub_ne_zero.mpr hd)⟩)
    have h2 : ∑ d ∈ range N, (∑ c ∈ range N, K d c * u c - l d + b u d) * w d = 0 := by
      refine sum_eq_zero (fun d _ => ?_)
      by_cases hd : d ∈ F
      · rw [hsol d hd, zero_mul]
      · rw [hw0 d hd, mul_zero]
    refine pos_of_mul_pos_right (lt_of_lt_of_eq h1 ?_) ht.le
    have e : ∑ d ∈ range N, (∑ c ∈ range N, K d c * (u c + t * w c) - l d + b (fun d => u d + t * w d) d) * w d
        = ∑ d ∈ range N, (∑ c ∈ range N, K d c * (u c + t * w c) - l d + b (fun d => u d + t * w d) d) * w d
          - ∑ d ∈ range N, (∑ c ∈ range N, K d c * u c - l d + b u d) * w d := by rw [h2, sub_zero]
    rw [e, ← sum_sub_distrib, ← sum_sub_distrib, ← sum_add_distrib, mul_sum]
    refine sum_congr rfl (fun d _ => ?_)
    have e2 : ∑ c ∈ range N, K d c * (u c + t * w c) = ∑ c ∈ range N, K d c * u c + ∑ c ∈ range N, K d c * (t * w c) := by
      rw [← sum_add_distrib]
      exact sum_congr rfl (fun c _ => by ring)
    have e3 : ∑ c ∈ range N, t * w d * K d c * (t * w c) = t * w d * ∑ c ∈ range N, K d c * (t * w c) := by
      rw [mul_sum]
      exact sum_congr rfl (fun c _ => by ring)
    rw [e2, e3]
    ring

/-- A minimiser solves the equations of the free dofs. -/
theorem min_solution (hK : ∀ d < N, ∀ c < N, K d c = K c d) (hF : ∀ d ∈ F, d < N)
    (hder : ∀ u w : ℕ → ℝ, HasDerivAt (fun s : ℝ => Φ (fun d => u d + s * w d)) (∑ d ∈ range N, b u d * w d) 0)
    (u : ℕ → ℝ) (hmin : ∀ v : ℕ → ℝ, (∀ d, d ∉ F → v d = u d) → bulkEnergy N K l u + Φ u ≤ bulkEnergy N K l v + Φ v) :
    ∀ d ∈ F, ∑ c ∈ range N, K d c * u c - l d + b u d = 0 := by
  intro d hd
  obtain ⟨w, hw⟩ : ∃ w : ℕ → ℝ, w = fun c => if c = d then 1 else 0 := ⟨_, rfl⟩
  have hline := energy_line (l := l) hK hder u w 0
  have hloc : IsLocalMin (fun s : ℝ => bulkEnergy N K l (fun d => u d + s * w d) + Φ (fun d => u d + s * w d)) 0 := by
    refine Filter.Eventually.of_forall (fun x => ?_)
    have e0 : (fun d => u d + 0 * w d) = u := by funext d; ring
    simp only [e0]
    refine hmin _ (fun c hc => ?_)
    rw [hw]
    have : c ≠ d := fun h => hc (h ▸ hd)
    simp [this]
  have hz := hloc.hasDerivAt_eq_zero hline
  have e0 : (fun d => u d + 0 * w d) = u := by funext d; ring
  have e1 : ∀ c, u c + 0 * w c = u c := fun c => by ring
  simp only [e1] at hz
  rw [hw] at hz
  simpa [mul_ite, sum_ite_eq', hF d hd] using hz

end Verif.Lemmas
