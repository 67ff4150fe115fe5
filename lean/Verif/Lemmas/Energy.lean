import Verif.Lemmas.FrictionDerivative
import Verif.Spec.Energy

/-! Quadratic forms of the element matrices. -/

namespace Verif.Kernels

open Verif.Scalars Finset

noncomputable section

theorem comb_mul (D : KD) (links : ℕ) (F G : ℕ → ℕ → ℕ → ℝ) (v : ℕ → ℕ → ℝ) :
    comb D links (fun B i b => comb D links (fun B' j l => F B' j l * G B i b) v) v =
      comb D links F v * comb D links G v := by
  have h : ∀ x : ℝ, comb D links (fun B' j l => F B' j l * x) v = x * comb D links F v := fun x => by
    rw [← comb_smul]; exact comb_congr D links v (fun B i n _ _ _ => by ring)
  simp only [h]
  rw [← comb_smul]
  exact comb_congr D links v (fun B i n _ _ _ => by ring)

/-- The quadratic form as a sum over quadrature points. -/
theorem energy_eq (D : KD) (links : ℕ) (qs : List ℕ) (A : Arr (ℕ × ℕ))
    (J : ℕ → ℕ → ℕ → ℕ → ℕ → ℕ → ℕ → ℝ) (hA : BlockValues D links qs A J) (v : ℕ → ℕ → ℝ)
    (hcross : ∀ q ∈ qs, ∀ k k' i b j l, k < links → k' < links → k ≠ k' → i < D.nd → b < D.bs →
      j < D.nd → l < D.bs → J q (k + 1) i b (k' + 1) j l = 0) :
    Spec.energy (D.nd * D.bs) links A v =
      (qs.map (fun q => comb D links (fun B i b => comb D links (fun B' j l => J q B i b B' j l) v) v)).sum := by
  unfold Spec.energy
  have h : ∀ B ∈ range (links + 1), ∑ r ∈ range (D.nd * D.bs), v B r * Spec.blockApply (D.nd * D.bs) links A v B r =
      (qs.map (fun q => ∑ i ∈ range D.nd, ∑ n ∈ range D.bs,
        comb D links (fun B' j l => J q B i n B' j l) v * v B (i * D.bs + n))).sum := by
    intro B hB
    rw [← Coefficients.sum_mul_range D.nd D.bs
      (fun r => v B r * Spec.blockApply (D.nd * D.bs) links A v B r), ← list_sum_comm]
    refine sum_congr rfl (fun i hi => ?_)
    rw [← list_sum_comm]
    refine sum_congr rfl (fun b hb => ?_)
    rw [blockApply_eq D links qs A J hA v B i b (mem_range.mp hB) (mem_range.mp hi) (mem_range.mp hb)
      (fun q hq k k' j l hk hk' hne hj hl => hcross q hq k k' i b j l hk hk' hne (mem_range.mp hi)
        (mem_range.mp hb) hj hl), mul_comm, list_sum_mul]
  rw [sum_congr rfl h, list_sum_comm]
  rfl

/-- Quadratic form of one point, frictionless. -/
theorem unbJ_energy (D : KD) (links : ℕ) (c w : ℕ → ℝ) (q : ℕ) (v : ℕ → ℕ → ℝ) :
    comb D links (fun B i b => comb D links (fun B' j l => unbJ D c w q B i b B' j l) v) v =
      D.w0 q * (0.5 * gamInv c w * dRPlus ((jumpN D c q - gap D c q) - gam c w * signU D c q)
          * (comb D links (NF D c q) v - gam c w * comb D links (SF D c q) v)
          * (comb D links (NF D c q) v - gam c w * w 1 * comb D links (SF D c q) v)
        - 0.5 * w 1 * gam c w * comb D links (SF D c q) v * comb D links (SF D c q) v) := by
  set d := dRPlus ((jumpN D c q - gap D c q) - gam c w * signU D c q) with hd
  have e : ∀ B i b B' j l, unbJ D c w q B i b B' j l =
      (D.w0 q * 0.5 * gamInv c w * d) * (NF D c q B' j l * NF D c q B i b)
      + ((-(D.w0 q * 0.5 * gamInv c w * d * gam c w * w 1)) * (NF D c q B' j l * SF D c q B i b)
      + ((-(D.w0 q * 0.5 * gamInv c w * d * gam c w)) * (SF D c q B' j l * NF D c q B i b)
      + (D.w0 q * 0.5 * gamInv c w * d * gam c w * gam c w * w 1 - D.w0 q * 0.5 * w 1 * gam c w)
        * (SF D c q B' j l * SF D c q B i b))) := by
    intro B i b B' j l
    simp only [unbJ, ← hd]; ring
  simp only [e, comb_add, comb_smul, comb_mul]
  ring

/-- Quadratic form of one point, rigid surface. -/
theorem rank_two_energy (D : KD) (links : ℕ) (F G : ℕ → ℕ → ℕ → ℝ) (a b c d : ℝ) (v : ℕ → ℕ → ℝ)
    {J : ℕ → ℕ → ℕ → ℕ → ℕ → ℕ → ℝ}
    (hJ : ∀ B i n B' j l, J B i n B' j l = a * (F B' j l * F B i n) + (b * (F B' j l * G B i n)
      + (c * (G B' j l * F B i n) + d * (G B' j l * G B i n)))) :
    comb D links (fun B i n => comb D links (fun B' j l => J B i n B' j l) v) v =
      a * comb D links F v ^ 2 + (b + c) * (comb D links F v * comb D links G v) + d * comb D links G v ^ 2 := by
  simp only [hJ, comb_add, comb_smul, comb_mul]
  ring

/-- Quadratic form of one point, Tresca friction. -/
theorem friJ_energy (D : KD) (links : ℕ) (c w : ℕ → ℝ) (q : ℕ) (v : ℕ → ℕ → ℝ) :
    comb D links (fun B i b => comb D links (fun B' j l => friJ D c w q (yT D c w q B' j l) B i b B' j l) v) v =
      D.w0 q * (0.5 * gamInv c w * ∑ m ∈ range D.bs, ∑ n ∈ range D.bs,
          dBallProjection (vec3 D.bs (ptU D c w q)) (gam c w * c 2) D.bs (n * D.bs + m)
          * ((comb D links (fun B i b => TF D c q B i b n) v
              - gam c w * comb D links (fun B i b => ST D c q B i b n) v)
            * (comb D links (fun B i b => TF D c q B i b m) v
              - w 1 * gam c w * comb D links (fun B i b => ST D c q B i b m) v))
        - 0.5 * gam c w * w 1 * ∑ m ∈ range D.bs, comb D links (fun B i b => ST D c q B i b m) v ^ 2) := by
  set P := dBallProjection (vec3 D.bs (ptU D c w q)) (gam c w * c 2) D.bs with hP
  have e : ∀ B i b B' j l, friJ D c w q (yT D c w q B' j l) B i b B' j l =
      (D.w0 q * 0.5 * gamInv c w) * ∑ m ∈ range D.bs, ∑ n ∈ range D.bs, P (n * D.bs + m)
        * ((TF D c q B' j l n - gam c w * ST D c q B' j l n)
          * (TF D c q B i b m - w 1 * gam c w * ST D c q B i b m))
      + (-(D.w0 q * 0.5 * gam c w * w 1)) * ∑ m ∈ range D.bs, ST D c q B' j l m * ST D c q B i b m := by
    intro B i b B' j l
    simp only [friJ, yT, ← hP, xT, sum_mul]
    have : ∀ m ∈ range D.bs, ∀ n ∈ range D.bs, P (n * D.bs + m) * (TF D c q B' j l n - gam c w * ST D c q B' j l n)
        * (TF D c q B i b m - w 1 * gam c w * ST D c q B i b m) = P (n * D.bs + m)
        * ((TF D c q B' j l n - gam c w * ST D c q B' j l n)
          * (TF D c q B i b m - w 1 * gam c w * ST D c q B i b m)) := fun _ _ _ _ => by ring
    rw [sum_congr rfl (fun m hm => sum_congr rfl (this m hm))]
    ring
  have sub : ∀ (F G : ℕ → ℕ → ℕ → ℝ) (a : ℝ), comb D links (fun B i b => F B i b - a * G B i b) v =
      comb D links F v - a * comb D links G v := by
    intro F G a
    have : comb D links (fun B i b => F B i b - a * G B i b) v = comb D links (fun B i b => F B i b + (-a) * G B i b) v :=
      comb_congr D links v (fun _ _ _ _ _ _ => by ring)
    rw [this, comb_add, comb_smul]; ring
  simp only [e, comb_add, comb_smul, comb_sum]
  have m2 : ∀ m n, comb D links (fun B i b => comb D links (fun B' j l =>
      (TF D c q B' j l n - gam c w * ST D c q B' j l n) * (TF D c q B i b m - w 1 * gam c w * ST D c q B i b m)) v) v =
      (comb D links (fun B i b => TF D c q B i b n) v
              - gam c w * comb D links (fun B i b => ST D c q B i b n) v)
            * (comb D links (fun B i b => TF D c q B i b m) v
              - w 1 * gam c w * comb D links (fun B i b => ST D c q B i b m) v) := by
    intro m n
    rw [comb_mul D links (fun B' j l => TF D c q B' j l n - gam c w * ST D c q B' j l n)
      (fun B i b => TF D c q B i b m - w 1 * gam c w * ST D c q B i b m), sub, sub]
  have m3 : ∀ m, comb D links (fun B i b => comb D links (fun B' j l => ST D c q B' j l m * ST D c q B i b m) v) v =
      comb D links (fun B i b => ST D c q B i b m) v ^ 2 := by
    intro m
    rw [comb_mul D links (fun B' j l => ST D c q B' j l m) (fun B i b => ST D c q B i b m)]; ring
  simp only [m2, m3]
  ring

/-- The derivative of the projection lies between zero and the identity. -/
theorem dBall_form {bs : ℕ} (h23 : bs = 2 ∨ bs = 3) (x : ℕ → ℝ) (a : ℝ) (y : ℕ → ℝ) :
    0 ≤ ∑ m ∈ range bs, ∑ n ∈ range bs, dBallProjection (vec3 bs x) a bs (n * bs + m) * (y n * y m)
    ∧ ∑ m ∈ range bs, ∑ n ∈ range bs, dBallProjection (vec3 bs x) a bs (n * bs + m) * (y n * y m)
      ≤ ∑ m ∈ range bs, y m ^ 2 := by
  have hy : 0 ≤ ∑ m ∈ range bs, y m ^ 2 := sum_nonneg (fun _ _ => sq_nonneg _)
  by_cases ha : a < 1e-14
  · have z : ∀ k, dBallProjection (vec3 bs x) a bs k = 0 := fun k => by simp [dBallProjection, ha]
    simp only [z, zero_mul, sum_const_zero]
    exact ⟨le_refl _, hy⟩
  · by_cases h : Real.sqrt (normSquared (vec3 bs x)) < a
    · have e : ∑ m ∈ range bs, ∑ n ∈ range bs, dBallProjection (vec3 bs x) a bs (n * bs + m) * (y n * y m) =
          ∑ m ∈ range bs, y m ^ 2 := by
        refine sum_congr rfl (fun m hm => ?_)
        rw [sum_congr rfl (fun n hn => by
          rw [dBallProjection_inside ha h (mem_range.mp hn) (mem_range.mp hm)])]
        simp only [ite_mul, one_mul, zero_mul, sum_ite_eq', hm, if_true]
        ring
      rw [e]; exact ⟨hy, le_refl _⟩
    · set N := Real.sqrt (normSquared (vec3 bs x)) with hN
      have ha0 : 0 < a := lt_of_lt_of_le (by norm_num) (not_lt.mp ha)
      have hNa : a ≤ N := not_lt.mp h
      have hN0 : 0 < N := lt_of_lt_of_le ha0 hNa
      have hsq : normSquared (vec3 bs x) = N ^ 2 := by
        rw [hN, Real.sq_sqrt (by rw [normSquared_vec3 h23]; exact sum_nonneg (fun _ _ => sq_nonneg _))]
      have hx2 : ∑ j ∈ range bs, x j ^ 2 = N ^ 2 := by rw [← hsq, normSquared_vec3 h23]
      have hb3 : bs ≤ 3 := by omega
      have e : ∑ m ∈ range bs, ∑ n ∈ range bs, dBallProjection (vec3 bs x) a bs (n * bs + m) * (y n * y m) =
          a / N * (∑ m ∈ range bs, y m ^ 2 - (∑ m ∈ range bs, x m * y m) ^ 2 / N ^ 2) := by
        have e1 : ∀ m ∈ range bs, ∑ n ∈ range bs, dBallProjection (vec3 bs x) a bs (n * bs + m) * (y n * y m) =
            a / N * y m ^ 2 - a / N ^ 3 * (x m * y m) * ∑ n ∈ range bs, x n * y n := by
          intro m hm
          have : ∀ n ∈ range bs, dBallProjection (vec3 bs x) a bs (n * bs + m) * (y n * y m) =
              (if n = m then a / N * y m ^ 2 else 0) - a / N ^ 3 * (x m * y m) * (x n * y n) := by
            intro n hn
            rw [dBallProjection_outside ha h (mem_range.mp hn) (mem_range.mp hm), ← hN, hsq,
              at3_vec3 hb3 (mem_range.mp hn), at3_vec3 hb3 (mem_range.mp hm)]
            have : N ≠ 0 := hN0.ne'
            by_cases hnm : n = m
            · subst hnm; simp only [if_true]; field_simp
            · simp only [if_neg hnm]; field_simp; ring
          rw [sum_congr rfl this, sum_sub_distrib, sum_ite_eq', if_pos hm, mul_sum]
        rw [sum_congr rfl e1, sum_sub_distrib, ← mul_sum, ← sum_mul, ← mul_sum]
        have : N ≠ 0 := hN0.ne'
        field_simp
      have cs : (∑ m ∈ range bs, x m * y m) ^ 2 ≤ N ^ 2 * ∑ m ∈ range bs, y m ^ 2 := by
        rw [← hx2]; exact sum_mul_sq_le_sq_mul_sq _ _ _
      have h1 : (∑ m ∈ range bs, x m * y m) ^ 2 / N ^ 2 ≤ ∑ m ∈ range bs, y m ^ 2 := by
        rw [div_le_iff₀ (by positivity)]; linarith
      have h2 : 0 ≤ (∑ m ∈ range bs, x m * y m) ^ 2 / N ^ 2 := by positivity
      have h3 : a / N ≤ 1 := (div_le_one hN0).mpr hNa
      have h4 : 0 ≤ a / N := by positivity
      rw [e]
      constructor
      · exact mul_nonneg h4 (by linarith)
      · calc _ ≤ 1 * (∑ m ∈ range bs, y m ^ 2 - (∑ m ∈ range bs, x m * y m) ^ 2 / N ^ 2) :=
              mul_le_mul_of_nonneg_right h3 (by linarith)
          _ ≤ _ := by linarith

/-- Skew-symmetric choice: `(y - s)ᵀ P (y + s) + sᵀ s ≥ 0`. -/
theorem skew_form {bs : ℕ} (h23 : bs = 2 ∨ bs = 3) (x : ℕ → ℝ) (a : ℝ) (y s : ℕ → ℝ) :
    0 ≤ ∑ m ∈ range bs, ∑ n ∈ range bs, dBallProjection (vec3 bs x) a bs (n * bs + m)
        * ((y n - s n) * (y m + s m)) + ∑ m ∈ range bs, s m ^ 2 := by
  obtain ⟨h1, -⟩ := dBall_form h23 x a y
  obtain ⟨-, h2⟩ := dBall_form h23 x a s
  have hsym : ∑ m ∈ range bs, ∑ n ∈ range bs, dBallProjection (vec3 bs x) a bs (n * bs + m) * (y n * s m) =
      ∑ m ∈ range bs, ∑ n ∈ range bs, dBallProjection (vec3 bs x) a bs (n * bs + m) * (s n * y m) := by
    rw [sum_comm]
    refine sum_congr rfl (fun m hm => sum_congr rfl (fun n hn => ?_))
    rw [dBall_symm _ _ (mem_range.mp hm) (mem_range.mp hn)]; ring
  have e : ∑ m ∈ range bs, ∑ n ∈ range bs, dBallProjection (vec3 bs x) a bs (n * bs + m)
        * ((y n - s n) * (y m + s m)) =
      ∑ m ∈ range bs, ∑ n ∈ range bs, dBallProjection (vec3 bs x) a bs (n * bs + m) * (y n * y m)
      + ∑ m ∈ range bs, ∑ n ∈ range bs, dBallProjection (vec3 bs x) a bs (n * bs + m) * (y n * s m)
      - ∑ m ∈ range bs, ∑ n ∈ range bs, dBallProjection (vec3 bs x) a bs (n * bs + m) * (s n * y m)
      - ∑ m ∈ range bs, ∑ n ∈ range bs, dBallProjection (vec3 bs x) a bs (n * bs + m) * (s n * s m) := by
    simp only [← sum_add_distrib, ← sum_sub_distrib]
    exact sum_congr rfl (fun m _ => sum_congr rfl (fun n _ => by ring))
  rw [e, hsym]
  linarith

end

end Verif.Kernels
