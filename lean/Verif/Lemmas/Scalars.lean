import Verif.Model.Scalars
import Verif.Lib.Radix
import Mathlib.Analysis.Calculus.Deriv.Add
import Mathlib.Analysis.Calculus.Deriv.Pow
import Mathlib.Analysis.Calculus.Deriv.Inv
import Mathlib.Tactic.Linarith
import Mathlib.Tactic.FieldSimp
import Mathlib.Tactic.FinCases
import Mathlib.Tactic.NormNum

namespace Verif.Scalars

open Finset

theorem rPlus_of_nonneg {x : ℝ} (h : 0 ≤ x) : rPlus x = x := by
  unfold rPlus; rw [abs_of_nonneg h]; ring

theorem rPlus_of_nonpos {x : ℝ} (h : x ≤ 0) : rPlus x = 0 := by
  unfold rPlus; rw [abs_of_nonpos h]; ring

theorem rMinus_of_nonneg {x : ℝ} (h : 0 ≤ x) : rMinus x = 0 := by
  unfold rMinus; rw [abs_of_nonneg h]; ring

theorem rMinus_of_nonpos {x : ℝ} (h : x ≤ 0) : rMinus x = x := by
  unfold rMinus; rw [abs_of_nonpos h]; ring

/-- Chain rule form used by the kernel proofs. -/
theorem hasDerivAt_rPlus_comp {f : ℝ → ℝ} {f' t : ℝ} (hf : HasDerivAt f f' t) (h : f t ≠ 0) :
    HasDerivAt (fun s => rPlus (f s)) (dRPlus (f t) * f') t := by
  rcases lt_or_gt_of_ne h with h | h
  · have he : (fun s => rPlus (f s)) =ᶠ[nhds t] fun _ => 0 := by
      filter_upwards [hf.continuousAt.eventually_lt continuousAt_const h] with s hs
      exact rPlus_of_nonpos hs.le
    have : dRPlus (f t) * f' = 0 := by simp [dRPlus, not_lt.mpr h.le]
    rw [this]
    exact (hasDerivAt_const t (0 : ℝ)).congr_of_eventuallyEq he
  · have he : (fun s => rPlus (f s)) =ᶠ[nhds t] f := by
      filter_upwards [continuousAt_const.eventually_lt hf.continuousAt h] with s hs
      exact rPlus_of_nonneg hs.le
    have : dRPlus (f t) * f' = f' := by simp [dRPlus, h]
    rw [this]
    exact hf.congr_of_eventuallyEq he

theorem hasDerivAt_rMinus_comp {f : ℝ → ℝ} {f' t : ℝ} (hf : HasDerivAt f f' t) (h : f t ≠ 0) :
    HasDerivAt (fun s => rMinus (f s)) (dRMinus (f t) * f') t := by
  rcases lt_or_gt_of_ne h with h | h
  · have he : (fun s => rMinus (f s)) =ᶠ[nhds t] f := by
      filter_upwards [hf.continuousAt.eventually_lt continuousAt_const h] with s hs
      exact rMinus_of_nonpos hs.le
    have : dRMinus (f t) * f' = f' := by simp [dRMinus, h]
    rw [this]
    exact hf.congr_of_eventuallyEq he
  · have he : (fun s => rMinus (f s)) =ᶠ[nhds t] fun _ => 0 := by
      filter_upwards [continuousAt_const.eventually_lt hf.continuousAt h] with s hs
      exact rMinus_of_nonneg hs.le
    have : dRMinus (f t) * f' = 0 := by simp [dRMinus, not_lt.mpr h.le]
    rw [this]
    exact (hasDerivAt_const t (0 : ℝ)).congr_of_eventuallyEq he

theorem normSquared_eq (x : Vec3) : normSquared x = ∑ i, x i ^ 2 := by
  simp [normSquared, Fin.sum_univ_three]

theorem normSquared_nonneg (x : Vec3) : 0 ≤ normSquared x := by
  unfold normSquared; positivity

theorem normSquared_scale (x : Vec3) (c : ℝ) :
    normSquared (fun i => c * x i) = c ^ 2 * normSquared x := by
  simp only [normSquared]; ring

/-- Cauchy-Schwarz for three components. -/
theorem dot_sq_le (x y : Vec3) : (∑ i, x i * y i) ^ 2 ≤ normSquared x * normSquared y := by
  simp only [normSquared, Fin.sum_univ_three]
  nlinarith [sq_nonneg (x 0 * y 1 - x 1 * y 0), sq_nonneg (x 0 * y 2 - x 2 * y 0),
    sq_nonneg (x 1 * y 2 - x 2 * y 1)]

theorem dot_le (x y : Vec3) :
    ∑ i, x i * y i ≤ Real.sqrt (normSquared x) * Real.sqrt (normSquared y) := by
  rw [← Real.sqrt_mul (normSquared_nonneg x)]
  exact Real.le_sqrt_of_sq_le (dot_sq_le x y)

theorem ballProjection_inside {x : Vec3} {a : ℝ} (h : Real.sqrt (normSquared x) ≤ a) :
    ballProjection x a = x := by simp [ballProjection, h]

theorem ballProjection_outside {x : Vec3} {a : ℝ} (h : a < Real.sqrt (normSquared x)) :
    ballProjection x a = fun i => a * x i / Real.sqrt (normSquared x) := by
  simp [ballProjection, not_le.mpr h]

theorem normSquared_ballProjection_le {x : Vec3} {a : ℝ} (ha : 0 ≤ a) :
    normSquared (ballProjection x a) ≤ a ^ 2 := by
  by_cases h : Real.sqrt (normSquared x) ≤ a
  · rw [ballProjection_inside h]
    exact (Real.sqrt_le_left ha).mp h
  · have h' := not_le.mp h
    have hN : 0 < Real.sqrt (normSquared x) := lt_of_le_of_lt ha h'
    have : ballProjection x a = fun i => (a / Real.sqrt (normSquared x)) * x i := by
      rw [ballProjection_outside h']; funext i; ring
    rw [this, normSquared_scale, div_pow, Real.sq_sqrt (normSquared_nonneg x)]
    have hp : 0 < normSquared x := Real.sqrt_pos.mp hN
    rw [div_mul_cancel₀ _ hp.ne']

/-- Variational inequality characterising the projection. -/
theorem ballProjection_variational {x y : Vec3} {a : ℝ} (ha : 0 ≤ a) (hy : normSquared y ≤ a ^ 2) :
    ∑ i, (x i - ballProjection x a i) * (y i - ballProjection x a i) ≤ 0 := by
  by_cases h : Real.sqrt (normSquared x) ≤ a
  · rw [ballProjection_inside h]; simp
  · have h' := not_le.mp h
    set N := Real.sqrt (normSquared x) with hNdef
    have hN : 0 < N := lt_of_le_of_lt ha h'
    have hN2 : N ^ 2 = normSquared x := Real.sq_sqrt (normSquared_nonneg x)
    rw [ballProjection_outside h']
    have hd := dot_le x y
    have hya : Real.sqrt (normSquared y) ≤ a := (Real.sqrt_le_left ha).mpr hy
    have hxy : ∑ i, x i * y i ≤ N * a := hd.trans (mul_le_mul_of_nonneg_left hya hN.le)
    have key : ∑ i, (x i - a * x i / N) * (y i - a * x i / N)
        = (1 - a / N) * (∑ i, x i * y i - a * N) := by
      have h3 : x 0 ^ 2 + x 1 ^ 2 + x 2 ^ 2 = N ^ 2 := by rw [hN2]; simp [normSquared]
      simp only [Fin.sum_univ_three]
      have : N ≠ 0 := hN.ne'
      field_simp
      linear_combination (-a) * h3
    show ∑ i, (x i - a * x i / N) * (y i - a * x i / N) ≤ 0
    rw [key]
    have h1 : 0 ≤ 1 - a / N := by
      rw [sub_nonneg, div_le_one hN]; exact h'.le
    nlinarith

theorem dBallProjection_inside {x : Vec3} {a : ℝ} {bs : ℕ} (ha : ¬ a < 1e-14)
    (h : Real.sqrt (normSquared x) < a) {i j : ℕ} (hi : i < bs) (hj : j < bs) :
    dBallProjection x a bs (i * bs + j) = if i = j then 1 else 0 := by
  simp only [dBallProjection, ha, h, if_true, if_false]
  have := loop_induct
    (fun k (d : Arr ℕ) => ∀ i j, i < bs → j < bs →
      d (i * bs + j) = if i = j ∧ i < k then 1 else 0) bs
    (fun j d => d.put (j * bs + j) 1) (fun _ => 0) (by simp) (by
      intro k s hk ih i j hi hj
      simp only [Arr.put]
      by_cases h : i * bs + j = k * bs + k
      · rw [if_pos h]
        obtain ⟨rfl, rfl⟩ := (radix_inj hj hk).mp h
        simp
      · rw [if_neg h, ih i j hi hj]
        have h' : ¬ (i = k ∧ j = k) := fun hc => h ((radix_inj hj hk).mpr hc)
        congr 1
        simp only [eq_iff_iff]
        constructor
        · rintro ⟨rfl, h2⟩; exact ⟨rfl, by omega⟩
        · rintro ⟨rfl, h2⟩
          refine ⟨rfl, ?_⟩
          have : i ≠ k := fun h => h' ⟨h, h⟩
          omega)
  rw [this i j hi hj]
  simp [hi]

theorem dBallProjection_outside {x : Vec3} {a : ℝ} {bs : ℕ} (ha : ¬ a < 1e-14)
    (h : ¬ Real.sqrt (normSquared x) < a) {i j : ℕ} (hi : i < bs) (hj : j < bs) :
    dBallProjection x a bs (i * bs + j)
      = (if i = j then a / Real.sqrt (normSquared x) else 0)
        - a * at3 x i * at3 x j / (Real.sqrt (normSquared x) * normSquared x) := by
  simp only [dBallProjection, ha, h, if_false]
  set N := Real.sqrt (normSquared x)
  have hAdds := Adds.loop (ι := ℕ) bs
    (body := fun i d => loop bs (fun j d => d.acc (i * bs + j)
      (-(a * at3 x i * at3 x j / (N * normSquared x)))) (d.acc (i * bs + i) (a / N)))
    (fun i _ => Adds.comp (Adds.acc (i * bs + i) (a / N))
      (Adds.loop bs (fun j _ => Adds.acc (i * bs + j)
        (-(a * at3 x i * at3 x j / (N * normSquared x))))))
  rw [hAdds]
  simp only [sum_add_distrib, zero_add]
  rw [sum_radix hi hj (fun i j => -(a * at3 x i * at3 x j / (N * normSquared x)))]
  have : ∑ k ∈ range bs, (if i * bs + j = k * bs + k then a / N else 0)
      = if i = j then a / N else 0 := by
    by_cases hij : i = j
    · subst hij
      rw [if_pos rfl]
      refine Eq.trans (sum_congr rfl (fun k hk => ?_)) (sum_pick hi (fun _ => a / N))
      simp only [radix_inj hi (mem_range.mp hk), and_self]
    · rw [if_neg hij]
      refine sum_eq_zero (fun k hk => ?_)
      rw [if_neg]
      rw [radix_inj hj (mem_range.mp hk)]
      rintro ⟨rfl, rfl⟩; exact hij rfl
  rw [this]; ring

theorem hasDerivAt_norm {x : ℝ → Vec3} {x' : Vec3} {t : ℝ}
    (hx : ∀ i, HasDerivAt (fun s => x s i) (x' i) t) (hN : 0 < normSquared (x t)) :
    HasDerivAt (fun s => Real.sqrt (normSquared (x s)))
      ((∑ i, x t i * x' i) / Real.sqrt (normSquared (x t))) t := by
  have h1 : HasDerivAt (fun s => normSquared (x s)) (2 * ∑ i, x t i * x' i) t := by
    have := (((hasDerivAt_const t (0:ℝ)).add ((hx 0).pow 2)).add ((hx 1).pow 2)).add ((hx 2).pow 2)
    refine (this.congr_deriv ?_).congr_of_eventuallyEq (Filter.Eventually.of_forall ?_)
    · simp [Fin.sum_univ_three]; ring
    · intro s; simp [normSquared]
  have h2 := h1.sqrt hN.ne'
  refine h2.congr_deriv ?_
  rw [mul_div_mul_left _ _ (two_ne_zero)]

end Verif.Scalars
