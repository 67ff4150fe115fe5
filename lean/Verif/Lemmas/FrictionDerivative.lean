import Verif.Lemmas.KernelDerivative
import Verif.Props.Scalars
import Mathlib.Tactic.IntervalCases

namespace Verif.Kernels

open Verif.Elasticity Verif.Scalars Finset

noncomputable section

/-! ### the projection with block sizes 2 and 3 -/

theorem at3_vec3 {bs j : ℕ} (hbs : bs ≤ 3) (hj : j < bs) (x : ℕ → ℝ) : at3 (vec3 bs x) j = x j := by
  have : j < 3 := by omega
  simp [at3, vec3, this, hj]

theorem normSquared_vec3 {bs : ℕ} (hbs : bs = 2 ∨ bs = 3) (x : ℕ → ℝ) :
    normSquared (vec3 bs x) = ∑ j ∈ range bs, x j ^ 2 := by
  rcases hbs with rfl | rfl <;> simp [normSquared, vec3, sum_range_succ]

theorem dBall_symm (x : Vec3) (a : ℝ) {bs n m : ℕ} (hn : n < bs) (hm : m < bs) :
    dBallProjection x a bs (n * bs + m) = dBallProjection x a bs (m * bs + n) := by
  by_cases ha : a < 1e-14
  · simp [dBallProjection, ha]
  · by_cases h : Real.sqrt (normSquared x) < a
    · rw [dBallProjection_inside ha h hn hm, dBallProjection_inside ha h hm hn]
      simp [eq_comm]
    · rw [dBallProjection_outside ha h hn hm, dBallProjection_outside ha h hm hn]
      by_cases hnm : n = m
      · rw [hnm]
      · rw [if_neg hnm, if_neg (Ne.symm hnm)]; ring

/-- C03 for both block sizes, in the form used by the kernels. -/
theorem proj_deriv {bs : ℕ} (hbs : bs = 2 ∨ bs = 3) (x : ℝ → ℕ → ℝ) (x' : ℕ → ℝ) (a : ℝ → ℝ) (a' t : ℝ)
    (hx : ∀ j, j < bs → HasDerivAt (fun s => x s j) (x' j) t) (ha : HasDerivAt a a' t)
    (hr : a t = 0 ∨ 1e-14 ≤ a t) (hne : Real.sqrt (∑ j ∈ range bs, x t j ^ 2) ≠ a t)
    {m : ℕ} (hm : m < bs) :
    HasDerivAt (fun s => at3 (ballProjection (vec3 bs (x s)) (a s)) m)
      (∑ n ∈ range bs, dBallProjection (vec3 bs (x t)) (a t) bs (n * bs + m) * x' n
        + at3 (dAlphaBallProjection (vec3 bs (x t)) (a t) a') m) t := by
  have hne' : Spec.len (vec3 bs (x t)) ≠ a t := by
    rw [len_eq, normSquared_vec3 hbs]; exact hne
  have hx3 : ∀ i : Fin 3, HasDerivAt (fun s => vec3 bs (x s) i) (vec3 bs x' i) t := by
    intro i
    by_cases h : (i : ℕ) < bs
    · simp only [vec3, h, if_true]; exact hx i h
    · simp only [vec3, h, if_false]; exact hasDerivAt_const t (0 : ℝ)
  have hs : ∑ n ∈ range bs, dBallProjection (vec3 bs (x t)) (a t) bs (n * bs + m) * x' n =
      ∑ n ∈ range bs, dBallProjection (vec3 bs (x t)) (a t) bs (m * bs + n) * x' n :=
    sum_congr rfl (fun n hn => by rw [dBall_symm _ _ (mem_range.mp hn) hm])
  rw [hs]
  rcases hbs with rfl | rfl
  · have := C03_derivative_2d_partial (fun s => vec3 2 (x s)) (vec3 2 x') a a' t hx3
      (fun s => by simp [vec3]) ha hr hne' ⟨m, hm⟩
    have hm3 : m < 3 := by omega
    simp only [at3, hm3, dif_pos]
    refine this.congr_deriv ?_
    congr 1
  · have := C03_derivative_partial (fun s => vec3 3 (x s)) (vec3 3 x') a a' t hx3
      ha hr hne' ⟨m, hm⟩
    simp only [at3, hm, dif_pos]
    refine this.congr_deriv ?_
    congr 1

/-- The derivative of the projection maps tangential directions to tangential vectors. -/
theorem dBall_orth {bs : ℕ} (hbs : bs ≤ 3) (x X n : ℕ → ℝ) (a : ℝ)
    (hx : ∑ m ∈ range bs, x m * n m = 0) (hX : ∑ m ∈ range bs, X m * n m = 0) :
    ∑ m ∈ range bs, (∑ p ∈ range bs, dBallProjection (vec3 bs x) a bs (p * bs + m) * X p) * n m = 0 := by
  by_cases ha : a < 1e-14
  · simp [dBallProjection, ha]
  · by_cases h : Real.sqrt (normSquared (vec3 bs x)) < a
    · rw [← hX]
      refine sum_congr rfl (fun m hm => ?_)
      congr 1
      rw [sum_congr rfl (fun p hp => by
        rw [dBallProjection_inside ha h (mem_range.mp hp) (mem_range.mp hm)])]
      simp [mem_range.mp hm]
    · set N := Real.sqrt (normSquared (vec3 bs x)) with hN
      set S := normSquared (vec3 bs x) with hS
      have e : ∀ m ∈ range bs, (∑ p ∈ range bs,
          dBallProjection (vec3 bs x) a bs (p * bs + m) * X p) * n m =
          (a / N) * (X m * n m) - a / (N * S) * (∑ p ∈ range bs, x p * X p) * (x m * n m) := by
        intro m hm
        have e1 : ∀ p ∈ range bs, dBallProjection (vec3 bs x) a bs (p * bs + m) * X p =
            (if p = m then a / N * X m else 0) - (a / (N * S) * x m) * (x p * X p) := by
          intro p hp
          rw [dBallProjection_outside ha h (mem_range.mp hp) (mem_range.mp hm),
            at3_vec3 hbs (mem_range.mp hp), at3_vec3 hbs (mem_range.mp hm)]
          by_cases hpm : p = m
          · simp only [hpm, if_true]; ring
          · simp only [hpm, if_false]; ring
        rw [sum_congr rfl e1, sum_sub_distrib, sum_ite_eq', if_pos hm, ← mul_sum]
        ring
      rw [sum_congr rfl e, sum_sub_distrib, ← mul_sum, ← mul_sum, hX, hx]; ring

theorem dAlpha_orth {bs : ℕ} (hbs : bs ≤ 3) (x n : ℕ → ℝ) (a a' : ℝ)
    (hx : ∑ m ∈ range bs, x m * n m = 0) :
    ∑ m ∈ range bs, at3 (dAlphaBallProjection (vec3 bs x) a a') m * n m = 0 := by
  by_cases h : Real.sqrt (normSquared (vec3 bs x)) > a
  · have e : ∀ m ∈ range bs, at3 (dAlphaBallProjection (vec3 bs x) a a') m * n m =
        a' / Real.sqrt (normSquared (vec3 bs x)) * (x m * n m) := by
      intro m hm
      have hm' := mem_range.mp hm
      have h3 : m < 3 := by omega
      simp only [dAlphaBallProjection, h, if_true, at3, h3, dif_pos]
      simp only [vec3, hm', if_true]; ring
    rw [sum_congr rfl e, ← mul_sum, hx, mul_zero]
  · simp [dAlphaBallProjection, h, at3]

/-! ### tangential vectors -/

section Tang

variable {D : KD} {c : ℕ → ℝ} {q : ℕ}

/-- The contact normal has length one, in model terms. -/
theorem unit_sum (hbs : D.bs = D.gdim) (hu : D.dims.UnitNormal c q) :
    ∑ m ∈ range D.bs, nSurf D c q m * nSurf D c q m = 1 := by
  rw [hbs]
  refine Eq.trans (sum_congr rfl (fun m _ => ?_)) hu
  rw [nSurf_eq]; ring

theorem tang_orth (hbs : D.bs = D.gdim) (hu : D.dims.UnitNormal c q) (x : ℕ → ℝ) :
    ∑ m ∈ range D.bs, (x m - (∑ p ∈ range D.bs, x p * nSurf D c q p) * nSurf D c q m)
      * nSurf D c q m = 0 := by
  have e : ∀ m ∈ range D.bs, (x m - (∑ p ∈ range D.bs, x p * nSurf D c q p) * nSurf D c q m)
      * nSurf D c q m = x m * nSurf D c q m
        - (∑ p ∈ range D.bs, x p * nSurf D c q p) * (nSurf D c q m * nSurf D c q m) :=
    fun m _ => by ring
  rw [sum_congr rfl e, sum_sub_distrib, ← mul_sum, unit_sum hbs hu]; ring

theorem TF_orth (hbs : D.bs = D.gdim) (hu : D.dims.UnitNormal c q) (B i n : ℕ) (hn : n < D.bs) :
    ∑ m ∈ range D.bs, TF D c q B i n m * nSurf D c q m = 0 := by
  have hn' := mem_range.mpr hn
  cases B with
  | zero =>
    refine Eq.trans (sum_congr rfl (fun m _ => ?_))
      (tang_orth hbs hu (fun m => if m = n then D.ph q i else 0))
    simp only [ite_mul, zero_mul, sum_ite_eq', hn', if_true, TF]; ring
  | succ k =>
    refine Eq.trans (sum_congr rfl (fun m _ => ?_))
      (tang_orth hbs hu (fun m => -(if m = n then c (tIdx D q k i n) else 0)))
    simp only [ite_mul, zero_mul, neg_mul, sum_neg_distrib, sum_ite_eq', hn', if_true, TF]; ring

theorem ST_orth (hbs : D.bs = D.gdim) (hu : D.dims.UnitNormal c q) (B i n : ℕ) (hn : n < D.bs) :
    ∑ m ∈ range D.bs, ST D c q B i n m * nSurf D c q m = 0 := by
  cases B with
  | zero =>
    refine Eq.trans (sum_congr rfl (fun m _ => ?_))
      (tang_orth hbs hu (fun m => sigB D c q i n m))
    simp only [ST, signV_eq hbs q i n hn, hbs]
  | succ k => simp [ST]

theorem old_orth (hbs : D.bs = D.gdim) (hu : D.dims.UnitNormal c q) :
    ∑ m ∈ range D.bs, (nOld D c q m - nDotN D c q * nSurf D c q m) * nSurf D c q m = 0 := by
  refine Eq.trans (sum_congr rfl (fun m _ => ?_)) (tang_orth hbs hu (nOld D c q))
  rw [nDotN, hbs]
  congr 2
  congr 1
  exact sum_congr rfl (fun _ _ => by ring)

theorem ptU_orth (hbs : D.bs = D.gdim) (hu : D.dims.UnitNormal c q) (w : ℕ → ℝ) :
    ∑ m ∈ range D.bs, ptU D c w q m * nSurf D c q m = 0 := by
  have h1 := tang_orth hbs hu (fun j => c (D.off 4 + D.gdim * q + j) - c (D.off 6 + q * D.bs + j))
  have h2 := tang_orth hbs hu (fun j => sigU D c q j)
  have e1 : ∑ p ∈ range D.bs, (c (D.off 4 + D.gdim * q + p) - c (D.off 6 + q * D.bs + p))
      * nSurf D c q p = jumpN D c q := by
    rw [jumpN, hbs, ← sum_add_distrib]; exact sum_congr rfl (fun _ _ => by ring)
  have e2 : ∑ p ∈ range D.bs, sigU D c q p * nSurf D c q p = signU D c q := by rw [signU, hbs]
  rw [e1] at h1; rw [e2] at h2
  have : ∀ m ∈ range D.bs, ptU D c w q m * nSurf D c q m =
      (c (D.off 4 + D.gdim * q + m) - c (D.off 6 + q * D.bs + m) - jumpN D c q * nSurf D c q m)
        * nSurf D c q m
      - gam c w * ((sigU D c q m - signU D c q * nSurf D c q m) * nSurf D c q m) := by
    intro m _; rw [ptU]; ring
  rw [sum_congr rfl this, sum_sub_distrib, ← mul_sum, h1, h2]; ring

theorem ptUc_orth (hbs : D.bs = D.gdim) (hu : D.dims.UnitNormal c q) (w : ℕ → ℝ) :
    ∑ m ∈ range D.bs, ptUc D c w q m * nSurf D c q m = 0 := by
  have : ∀ m ∈ range D.bs, ptUc D c w q m * nSurf D c q m =
      ptU D c w q m * nSurf D c q m - (gap D c q - jumpN D c q)
        * ((nOld D c q m - nDotN D c q * nSurf D c q m) * nSurf D c q m) := by
    intro m _; rw [ptUc, vRel, ptU]; ring
  rw [sum_congr rfl this, sum_sub_distrib, ← mul_sum, ptU_orth hbs hu, old_orth hbs hu]; ring

theorem yT_orth (hbs : D.bs = D.gdim) (h3 : D.bs ≤ 3) (hu : D.dims.UnitNormal c q) (w : ℕ → ℝ)
    (B j l : ℕ) (hl : l < D.bs) :
    ∑ m ∈ range D.bs, yT D c w q B j l m * nSurf D c q m = 0 := by
  refine dBall_orth h3 (ptU D c w q) (xT D c w q B j l) (nSurf D c q) _ (ptU_orth hbs hu w) ?_
  simp only [xT, sub_mul, sum_sub_distrib, mul_assoc, ← mul_sum]
  rw [TF_orth hbs hu B j l hl, ST_orth hbs hu B j l hl]; ring

theorem yC_orth (hbs : D.bs = D.gdim) (h3 : D.bs ≤ 3) (hu : D.dims.UnitNormal c q) (w : ℕ → ℝ)
    (B j l : ℕ) (hl : l < D.bs) :
    ∑ m ∈ range D.bs, yC D c w q B j l m * nSurf D c q m = 0 := by
  have e1 : ∑ m ∈ range D.bs, zC D c w q B j l m * nSurf D c q m = 0 := by
    refine dBall_orth h3 (ptUc D c w q) (xC D c w q B j l) (nSurf D c q) _ (ptUc_orth hbs hu w) ?_
    have : ∀ m ∈ range D.bs, xC D c w q B j l m * nSurf D c q m =
        TF D c q B j l m * nSurf D c q m + NF D c q B j l
          * ((nOld D c q m - nDotN D c q * nSurf D c q m) * nSurf D c q m)
        - gam c w * (ST D c q B j l m * nSurf D c q m) := by
      intro m _; rw [xC]; ring
    rw [sum_congr rfl this, sum_sub_distrib, sum_add_distrib, ← mul_sum, ← mul_sum,
      TF_orth hbs hu B j l hl, ST_orth hbs hu B j l hl, old_orth hbs hu]; ring
  have e2 := dAlpha_orth h3 (ptUc D c w q) (nSurf D c q)
    (c 2 * rPlus ((jumpN D c q - gap D c q) - gam c w * signU D c q))
    (dRPlus ((jumpN D c q - gap D c q) - gam c w * signU D c q) * c 2) (ptUc_orth hbs hu w)
  have : ∀ m ∈ range D.bs, yC D c w q B j l m * nSurf D c q m =
      zC D c w q B j l m * nSurf D c q m + (NF D c q B j l - gam c w * SF D c q B j l)
        * (aC D c w q m * nSurf D c q m) := by
    intro m _; rw [yC]; ring
  rw [sum_congr rfl this, sum_add_distrib, ← mul_sum, e1]
  simp only [aC] at *
  rw [e2]; ring

end Tang

/-! ### values of the friction kernels -/

theorem trescaRhs_at (D : KD) (c w : ℕ → ℝ) (links : ℕ) (qs : List ℕ) (B i n : ℕ) (hi : i < D.nd)
    (hn : n < D.bs) (hB : B < links + 1) (a : Arr (ℕ × ℕ)) :
    trescaRhs D c w links qs a (B, i * D.bs + n) =
      a (B, i * D.bs + n) + (qs.map (fun q => friR D c w q
        (at3 (ballProjection (vec3 D.bs (ptU D c w q)) (gam c w * c 2))) B i n)).sum := by
  rw [Nat.add_comm (i * D.bs), trescaRhs]
  refine forEach_at qs _ _ _ (fun q _ a => ?_) a
  rw [trescaRhsPoint]
  exact frictionRhsFill_at D c w links q _ B i n hi hn hB a

theorem coulombRhs_at (D : KD) (c w : ℕ → ℝ) (links : ℕ) (qs : List ℕ) (B i n : ℕ) (hi : i < D.nd)
    (hn : n < D.bs) (hB : B < links + 1) (a : Arr (ℕ × ℕ)) :
    coulombRhs D c w links qs a (B, i * D.bs + n) =
      a (B, i * D.bs + n) + (qs.map (fun q => friR D c w q
        (at3 (ballProjection (vec3 D.bs (ptUc D c w q)) (c 2 * rPlus ((jumpN D c q - gap D c q)
          - gam c w * signU D c q)))) B i n)).sum := by
  rw [Nat.add_comm (i * D.bs), coulombRhs]
  refine forEach_at qs _ _ _ (fun q _ a => ?_) a
  rw [coulombRhsPoint]
  exact frictionRhsFill_at D c w links q _ B i n hi hn hB a

theorem trescaJac_blocks (D : KD) (c w : ℕ → ℝ) (links : ℕ) (qs : List ℕ) (hbs : D.bs = D.gdim)
    (h3 : D.bs ≤ 3) (hu : ∀ q ∈ qs, D.dims.UnitNormal c q) :
    BlockValues D links qs (trescaJac D c w links qs 0)
      (fun q B i b B' j l => friJ D c w q (yT D c w q B' j l) B i b B' j l) := by
  intro i b j l hi hb hj hl
  have z : ∀ (m : ℕ × ℕ) (x : ℝ), (0 : Arr (ℕ × ℕ)) m + x = x := fun m x => zero_add x
  have P := fun q (hq : q ∈ qs) a => trescaJacPoint_at D c w links q i b j l hi hb hj hl
    (fun k _ => yT_orth hbs h3 (hu q hq) w (k + 1) j l hl) a
  exact ⟨(forEach_at qs _ _ _ (fun q hq a => (P q hq a).1) 0).trans (z _ _),
    fun k hk => ⟨(forEach_at qs _ _ _ (fun q hq a => ((P q hq a).2 k hk).1) 0).trans (z _ _),
    (forEach_at qs _ _ _ (fun q hq a => ((P q hq a).2 k hk).2.1) 0).trans (z _ _),
    (forEach_at qs _ _ _ (fun q hq a => ((P q hq a).2 k hk).2.2) 0).trans (z _ _)⟩⟩

theorem coulombJac_blocks (D : KD) (c w : ℕ → ℝ) (links : ℕ) (qs : List ℕ) (hbs : D.bs = D.gdim)
    (h3 : D.bs ≤ 3) (hu : ∀ q ∈ qs, D.dims.UnitNormal c q) :
    BlockValues D links qs (coulombJac D c w links qs 0)
      (fun q B i b B' j l => friJ D c w q (yC D c w q B' j l) B i b B' j l) := by
  intro i b j l hi hb hj hl
  have z : ∀ (m : ℕ × ℕ) (x : ℝ), (0 : Arr (ℕ × ℕ)) m + x = x := fun m x => zero_add x
  have P := fun q (hq : q ∈ qs) a => coulombJacPoint_at D c w links q i b j l hi hb hj hl
    (fun k _ => yC_orth hbs h3 (hu q hq) w (k + 1) j l hl) a
  exact ⟨(forEach_at qs _ _ _ (fun q hq a => (P q hq a).1) 0).trans (z _ _),
    fun k hk => ⟨(forEach_at qs _ _ _ (fun q hq a => ((P q hq a).2 k hk).1) 0).trans (z _ _),
    (forEach_at qs _ _ _ (fun q hq a => ((P q hq a).2 k hk).2.1) 0).trans (z _ _),
    (forEach_at qs _ _ _ (fun q hq a => ((P q hq a).2 k hk).2.2) 0).trans (z _ _)⟩⟩

/-! ### cross terms -/

section Cross

variable {D : KD} {links : ℕ} {c w : ℕ → ℝ} {q : ℕ}

theorem TF_zero {k i b : ℕ} (h : c (tIdx D q k i b) = 0) (m : ℕ) : TF D c q (k + 1) i b m = 0 := by
  simp [TF, h]

theorem friJ_cross (hbs : D.bs = D.gdim) (h : Spec.OneLink D.dims links c q) (Y : ℕ → ℝ)
    {k k' i b j l : ℕ} (hk : k < links) (hk' : k' < links)
    (hne : k ≠ k') (hi : i < D.nd) (hb : b < D.bs) (hj : j < D.nd) (hl : l < D.bs)
    (hY : c (tIdx D q k' j l) = 0 → ∀ m, Y m = 0) :
    friJ D c w q Y (k + 1) i b (k' + 1) j l = 0 := by
  rcases oneLink_zero hbs h hk hk' hne hi hb hj hl with h | h
  · simp [friJ, TF_zero h, ST]
  · simp [friJ, hY h, ST]

theorem yT_zero {k j l : ℕ} (h : c (tIdx D q k j l) = 0) (m : ℕ) : yT D c w q (k + 1) j l m = 0 := by
  simp [yT, xT, TF_zero h, ST]

theorem yC_zero {k j l : ℕ} (h : c (tIdx D q k j l) = 0) (m : ℕ) : yC D c w q (k + 1) j l m = 0 := by
  simp [yC, zC, xC, TF_zero h, ST, NF, SF, h]

end Cross

/-! ### derivative of the point contributions -/

section Deriv

variable {D : KD} {links : ℕ} {c : ℝ → ℕ → ℝ} {w : ℕ → ℝ} {W : ℝ → ℕ → ℕ → ℝ} {δ : ℕ → ℕ → ℝ} {t : ℝ}
  {q : ℕ} {G : ℕ → ℕ → ℕ → ℝ}

theorem jumpN_deriv (hbs : D.bs = D.gdim) (hl : links ≤ D.maxLinks)
    (hc : ∀ s, KCarries D links G (c s) (W s)) (hs : ∀ s, Spec.SameData D.dims (c s) (c t))
    (hW : ∀ B m, HasDerivAt (fun s => W s B m) (δ B m) t) (hq : q < D.nq) :
    HasDerivAt (fun s => jumpN D (c s) q) (comb D links (NF D (c t) q) δ) t := by
  have : ∀ s, jumpN D (c s) q = comb D links (NF D (c t) q) (W s) := fun s => by
    rw [jumpN_comb hbs (hc s) hq]
    exact comb_congr D links _ (fun B i n hB hi hn => same_NF hbs (hs s) hl hq hB hi hn)
  simp only [this]
  exact comb_deriv D links _ W δ t hW

theorem signU_deriv (hbs : D.bs = D.gdim)
    (hc : ∀ s, KCarries D links G (c s) (W s)) (hs : ∀ s, Spec.SameData D.dims (c s) (c t))
    (hW : ∀ B m, HasDerivAt (fun s => W s B m) (δ B m) t) (hq : q < D.nq) :
    HasDerivAt (fun s => signU D (c s) q) (comb D links (SF D (c t) q) δ) t := by
  have : ∀ s, signU D (c s) q = comb D links (SF D (c t) q) (W s) + sign0 D G (c t) q := fun s => by
    rw [signU_comb hbs (hc s) hq, same_sign0 (hs s) hq]
    congr 1
    exact comb_congr D links _ (fun B i n hB hi hn => same_SF hbs (hs s) hq hn)
  simp only [this]
  exact (comb_deriv D links _ W δ t hW).add_const _

theorem tangSig_deriv (hbs : D.bs = D.gdim)
    (hc : ∀ s, KCarries D links G (c s) (W s)) (hs : ∀ s, Spec.SameData D.dims (c s) (c t))
    (hW : ∀ B m, HasDerivAt (fun s => W s B m) (δ B m) t) (hq : q < D.nq) {j : ℕ} (hj : j < D.bs) :
    HasDerivAt (fun s => sigU D (c s) q j - signU D (c s) q * nSurf D (c s) q j)
      (comb D links (fun B i n => ST D (c t) q B i n j) δ) t := by
  have : ∀ s, sigU D (c s) q j - signU D (c s) q * nSurf D (c s) q j
      = comb D links (fun B i n => ST D (c t) q B i n j) (W s)
        + (sig0 D G (c t) q j - sign0 D G (c t) q * nSurf D (c t) q j) := fun s => by
    rw [tangSig_comb hbs (hc s) hq hj, same_sig0 (hs s), same_sign0 (hs s) hq,
      same_nSurf (hs s) hq (hbs ▸ hj)]
    congr 1
    exact comb_congr D links _ (fun B i n hB hi hn => same_ST hbs (hs s) hq hn hj)
  simp only [this]
  exact (comb_deriv D links _ W δ t hW).add_const _

theorem pressure_deriv (hbs : D.bs = D.gdim) (hl : links ≤ D.maxLinks)
    (hc : ∀ s, KCarries D links G (c s) (W s)) (hs : ∀ s, Spec.SameData D.dims (c s) (c t))
    (hW : ∀ B m, HasDerivAt (fun s => W s B m) (δ B m) t) (hq : q < D.nq) :
    HasDerivAt (fun s => (jumpN D (c s) q - gap D (c s) q) - gam (c s) w * signU D (c s) q)
      (comb D links (NF D (c t) q) δ - gam (c t) w * comb D links (SF D (c t) q) δ) t := by
  have e : (fun s => (jumpN D (c s) q - gap D (c s) q) - gam (c s) w * signU D (c s) q) =
      fun s => (jumpN D (c s) q - gap D (c t) q) - gam (c t) w * signU D (c s) q := by
    funext s; rw [same_gap (hs s) hq, same_gam (hs s)]
  rw [e]
  exact ((jumpN_deriv hbs hl hc hs hW hq).sub_const _).fun_sub
    ((signU_deriv hbs hc hs hW hq).const_mul _)

theorem ptU_deriv (hbs : D.bs = D.gdim) (hl : links ≤ D.maxLinks)
    (hc : ∀ s, KCarries D links G (c s) (W s)) (hs : ∀ s, Spec.SameData D.dims (c s) (c t))
    (hW : ∀ B m, HasDerivAt (fun s => W s B m) (δ B m) t) (hq : q < D.nq) {j : ℕ} (hj : j < D.bs) :
    HasDerivAt (fun s => ptU D (c s) w q j)
      (comb D links (fun B i n => xT D (c t) w q B i n j) δ) t := by
  have e : ∀ s, ptU D (c s) w q j = comb D links (fun B i n => xT D (c t) w q B i n j) (W s)
      + -(gam (c t) w * (sig0 D G (c t) q j - sign0 D G (c t) q * nSurf D (c t) q j)) := by
    intro s
    have h1 : ptU D (c s) w q j = D.dims.tang (c s) q (D.dims.jump (c s) q) j
        - gam (c s) w * (sigU D (c s) q j - signU D (c s) q * nSurf D (c s) q j) := by
      rw [ptU, jump_eq D hbs, jumpN_eq D hbs, nSurf_eq]; rfl
    rw [h1, tangJump_comb hbs (hc s) hq hj, tangSig_comb hbs (hc s) hq hj, sub_eq_add_neg, mul_add, neg_add,
      ← neg_mul, ← comb_smul, ← add_assoc, ← comb_add, same_sig0 (hs s), same_sign0 (hs s) hq,
      same_nSurf (hs s) hq (hbs ▸ hj), same_gam (hs s)]
    congr 1
    refine comb_congr D links _ (fun B i n hB hi hn => ?_)
    rw [same_TF hbs (hs s) hl hq hB hi hn hj, same_ST hbs (hs s) hq hn hj, xT]
    ring
  simp only [e]
  exact (comb_deriv D links _ W δ t hW).add_const _

theorem ptUc_deriv (hbs : D.bs = D.gdim) (hl : links ≤ D.maxLinks)
    (hc : ∀ s, KCarries D links G (c s) (W s)) (hs : ∀ s, Spec.SameData D.dims (c s) (c t))
    (hW : ∀ B m, HasDerivAt (fun s => W s B m) (δ B m) t) (hq : q < D.nq) {j : ℕ} (hj : j < D.bs) :
    HasDerivAt (fun s => ptUc D (c s) w q j)
      (comb D links (fun B i n => xC D (c t) w q B i n j) δ) t := by
  have hT := ptU_deriv (w := w) hbs hl hc hs hW hq hj
  have hJ := jumpN_deriv hbs hl hc hs hW hq
  have e : (fun s => ptUc D (c s) w q j) = fun s => ptU D (c s) w q j
      - (gap D (c t) q - jumpN D (c s) q) * (nOld D (c t) q j - nDotN D (c t) q * nSurf D (c t) q j) := by
    funext s
    rw [ptUc, vRel, ptU, same_gap (hs s) hq, same_nOld hbs (hs s), same_nDotN hbs (hs s) hq,
      same_nSurf (hs s) hq (hbs ▸ hj)]; ring
  rw [e]
  refine (hT.fun_sub ((hJ.const_sub _).mul_const _)).congr_deriv ?_
  have e2 : (fun B i n => xC D (c t) w q B i n j) = fun B i n => xT D (c t) w q B i n j
      + (nOld D (c t) q j - nDotN D (c t) q * nSurf D (c t) q j) * NF D (c t) q B i n := by
    funext B i n; simp only [xC, xT]; ring
  rw [e2, comb_add, comb_smul]; ring

/-- Derivative of a friction residual contribution, given the derivative of the projected slip. -/
theorem friR_deriv (hbs : D.bs = D.gdim) (hl : links ≤ D.maxLinks)
    (hc : ∀ s, KCarries D links G (c s) (W s)) (hs : ∀ s, Spec.SameData D.dims (c s) (c t))
    (hW : ∀ B m, HasDerivAt (fun s => W s B m) (δ B m) t) (hq : q < D.nq)
    (proj : ℝ → ℕ → ℝ) (Y : ℕ → ℕ → ℕ → ℕ → ℝ)
    (hproj : ∀ m, m < D.bs → HasDerivAt (fun s => proj s m) (comb D links (fun B j l => Y B j l m) δ) t)
    {B i n : ℕ} (hB : B < links + 1) (hi : i < D.nd) (hn : n < D.bs) :
    HasDerivAt (fun s => friR D (c s) w q (proj s) B i n)
      (comb D links (fun B' j l => friJ D (c t) w q (Y B' j l) B i n B' j l) δ) t := by
  have e : (fun s => friR D (c s) w q (proj s) B i n) = fun s =>
      D.w0 q * (0.5 * gamInv (c t) w * ∑ j ∈ range D.bs,
      proj s j * (TF D (c t) q B i n j - w 1 * gam (c t) w * ST D (c t) q B i n j)
    - 0.5 * gam (c t) w * w 1 * ∑ j ∈ range D.bs,
      (sigU D (c s) q j - signU D (c s) q * nSurf D (c s) q j) * ST D (c t) q B i n j) := by
    funext s
    rw [friR, same_gamInv (hs s), same_gam (hs s)]
    congr 2
    · congr 1
      refine sum_congr rfl (fun j hj => ?_)
      rw [same_TF hbs (hs s) hl hq hB hi hn (mem_range.mp hj),
        same_ST hbs (hs s) hq hn (mem_range.mp hj)]
    · congr 1
      refine sum_congr rfl (fun j hj => ?_)
      rw [same_ST hbs (hs s) hq hn (mem_range.mp hj)]
  rw [e]
  refine ((((HasDerivAt.fun_sum (fun j hj => (hproj j (mem_range.mp hj)).mul_const _)).const_mul
    (0.5 * gamInv (c t) w)).fun_sub ((HasDerivAt.fun_sum (fun j hj =>
      (tangSig_deriv hbs hc hs hW hq (mem_range.mp hj)).mul_const _)).const_mul
      (0.5 * gam (c t) w * w 1))).const_mul (D.w0 q)).congr_deriv ?_
  have e2 : (fun B' j l => friJ D (c t) w q (Y B' j l) B i n B' j l) = fun B' j l =>
      D.w0 q * (0.5 * gamInv (c t) w) * (∑ m ∈ range D.bs,
        (TF D (c t) q B i n m - w 1 * gam (c t) w * ST D (c t) q B i n m) * Y B' j l m)
      + (-(D.w0 q * (0.5 * gam (c t) w * w 1))) * (∑ m ∈ range D.bs,
        ST D (c t) q B i n m * ST D (c t) q B' j l m) := by
    funext B' j l
    simp only [friJ, mul_comm (Y B' j l _), mul_comm (ST D (c t) q B' j l _)]
    ring
  rw [e2, comb_add, comb_smul, comb_smul, comb_sum, comb_sum]
  simp only [comb_smul]
  have e3 : ∀ F : ℕ → ℝ, ∑ j ∈ range D.bs, comb D links (fun B j_1 l => Y B j_1 l j) δ * F j =
      ∑ j ∈ range D.bs, F j * comb D links (fun B j_1 l => Y B j_1 l j) δ :=
    fun F => sum_congr rfl (fun _ _ => mul_comm _ _)
  have e4 : ∀ F : ℕ → ℝ, ∑ j ∈ range D.bs, comb D links (fun B i n => ST D (c t) q B i n j) δ * F j =
      ∑ j ∈ range D.bs, F j * comb D links (fun B i n => ST D (c t) q B i n j) δ :=
    fun F => sum_congr rfl (fun _ _ => mul_comm _ _)
  rw [e3, e4]
  ring

theorem projT_deriv (hbs : D.bs = D.gdim) (h3 : D.bs = 2 ∨ D.bs = 3) (hl : links ≤ D.maxLinks)
    (hc : ∀ s, KCarries D links G (c s) (W s)) (hs : ∀ s, Spec.SameData D.dims (c s) (c t))
    (hW : ∀ B m, HasDerivAt (fun s => W s B m) (δ B m) t) (hq : q < D.nq)
    (hr : gam (c t) w * c t 2 = 0 ∨ 1e-14 ≤ gam (c t) w * c t 2)
    (hne : Real.sqrt (∑ j ∈ range D.bs, ptU D (c t) w q j ^ 2) ≠ gam (c t) w * c t 2)
    {m : ℕ} (hm : m < D.bs) :
    HasDerivAt (fun s => at3 (ballProjection (vec3 D.bs (ptU D (c s) w q)) (gam (c s) w * c s 2)) m)
      (comb D links (fun B j l => yT D (c t) w q B j l m) δ) t := by
  have ha : HasDerivAt (fun s => gam (c s) w * c s 2) 0 t := by
    have : ∀ s, gam (c s) w * c s 2 = gam (c t) w * c t 2 := fun s => by
      rw [same_gam (hs s), same_small (hs s) 2 (by omega)]
    simp only [this]
    exact hasDerivAt_const t _
  refine (proj_deriv h3 (fun s => ptU D (c s) w q) _ (fun s => gam (c s) w * c s 2) 0 t
    (fun j hj => ptU_deriv hbs hl hc hs hW hq hj) ha hr hne hm).congr_deriv ?_
  have hz : at3 (dAlphaBallProjection (vec3 D.bs (ptU D (c t) w q)) (gam (c t) w * c t 2) 0) m = 0 := by
    simp only [dAlphaBallProjection, at3]; split <;> simp
  rw [hz, add_zero]
  simp only [yT]
  rw [comb_sum]
  simp only [comb_smul]

theorem projC_deriv (hbs : D.bs = D.gdim) (h3 : D.bs = 2 ∨ D.bs = 3) (hl : links ≤ D.maxLinks)
    (hc : ∀ s, KCarries D links G (c s) (W s)) (hs : ∀ s, Spec.SameData D.dims (c s) (c t))
    (hW : ∀ B m, HasDerivAt (fun s => W s B m) (δ B m) t) (hq : q < D.nq)
    (hp : (jumpN D (c t) q - gap D (c t) q) - gam (c t) w * signU D (c t) q ≠ 0)
    (hr : c t 2 * rPlus ((jumpN D (c t) q - gap D (c t) q) - gam (c t) w * signU D (c t) q) = 0
      ∨ 1e-14 ≤ c t 2 * rPlus ((jumpN D (c t) q - gap D (c t) q) - gam (c t) w * signU D (c t) q))
    (hne : Real.sqrt (∑ j ∈ range D.bs, ptUc D (c t) w q j ^ 2)
      ≠ c t 2 * rPlus ((jumpN D (c t) q - gap D (c t) q) - gam (c t) w * signU D (c t) q))
    {m : ℕ} (hm : m < D.bs) :
    HasDerivAt (fun s => at3 (ballProjection (vec3 D.bs (ptUc D (c s) w q))
        (c s 2 * rPlus ((jumpN D (c s) q - gap D (c s) q) - gam (c s) w * signU D (c s) q))) m)
      (comb D links (fun B j l => yC D (c t) w q B j l m) δ) t := by
  have ha : HasDerivAt
      (fun s => c s 2 * rPlus ((jumpN D (c s) q - gap D (c s) q) - gam (c s) w * signU D (c s) q))
      (c t 2 * (dRPlus ((jumpN D (c t) q - gap D (c t) q) - gam (c t) w * signU D (c t) q)
        * (comb D links (NF D (c t) q) δ - gam (c t) w * comb D links (SF D (c t) q) δ))) t := by
    have : ∀ s, c s 2 = c t 2 := fun s => same_small (hs s) 2 (by omega)
    simp only [this]
    exact (hasDerivAt_rPlus_comp (pressure_deriv hbs hl hc hs hW hq) hp).const_mul _
  refine (proj_deriv h3 (fun s => ptUc D (c s) w q) _ _ _ t
    (fun j hj => ptUc_deriv hbs hl hc hs hW hq hj) ha hr hne hm).congr_deriv ?_
  have hlin : ∀ (x : Vec3) (a u v : ℝ), at3 (dAlphaBallProjection x a (u * v)) m
      = at3 (dAlphaBallProjection x a u) m * v := by
    intro x a u v
    simp only [dAlphaBallProjection, at3]
    split
    · split <;> ring
    · simp
  have e : (fun B j l => yC D (c t) w q B j l m) = fun B j l =>
      (∑ n ∈ range D.bs, pC D (c t) w q (n * D.bs + m) * xC D (c t) w q B j l n)
      + (aC D (c t) w q m * NF D (c t) q B j l
        + (-(aC D (c t) w q m * gam (c t) w)) * SF D (c t) q B j l) := by
    funext B j l; simp only [yC, zC]; ring
  rw [e, comb_add, comb_add, comb_sum, comb_smul, comb_smul]
  simp only [comb_smul]
  congr 1
  rw [← mul_assoc, mul_comm (c t 2), hlin]
  simp only [aC]
  ring_nf

end Deriv

/-! ### dof functionals in the vocabulary of the specification -/

section SpecForms

variable {D : KD} {c : ℕ → ℝ} {q : ℕ}

/-- Physical derivatives of the basis functions at the quadrature points. -/
abbrev KD.grad (D : KD) (q i b : ℕ) : ℝ := gradV D.tdim (D.K q) (D.dph q) i b

theorem NF_spec (hbs : D.bs = D.gdim) (B i n : ℕ) (hn : n < D.bs) :
    NF D c q B i n = D.dims.dotN c q (D.dims.vJump D.ph c q B i n) := by
  have hn' : n ∈ range D.dims.g := mem_range.mpr (by rw [hbs] at hn; exact hn)
  simp only [Spec.Dims.dotN, Spec.Dims.vJump, ite_mul, zero_mul, sum_ite_eq', hn', if_true]
  cases B with
  | zero => simp only [NF, nSurf_eq]; ring
  | succ k => simp only [NF, nSurf_eq, tIdx_eq D hbs c]; ring

theorem vTrac_spec (hbs : D.bs = D.gdim) (B i n a : ℕ) (hn : n < D.bs) (ha : a < D.gdim) :
    D.dims.vTrac D.grad c (D.nPhys q) q B i n a =
      match B with | 0 => sigB D c q i n a | _ + 1 => 0 := by
  cases B with
  | zero =>
    simp only [Spec.Dims.vTrac]
    rw [hbs] at hn
    exact (sigmaNBasis_traction D.tdim D.gdim (D.K q) (D.dph q) (D.nPhys q) (c 0) (c 1) i n a hn ha).symm
  | succ k => rfl

theorem SF_spec (hbs : D.bs = D.gdim) (B i n : ℕ) (hn : n < D.bs) :
    SF D c q B i n = D.dims.dotN c q (D.dims.vTrac D.grad c (D.nPhys q) q B i n) := by
  rw [Spec.Dims.dotN]
  cases B with
  | zero =>
    rw [SF, signV_eq hbs q i n hn]
    refine sum_congr rfl (fun a ha => ?_)
    rw [vTrac_spec hbs 0 i n a hn (mem_range.mp ha), nSurf_eq]
  | succ k => simp [SF, Spec.Dims.vTrac]

theorem TF_spec (hbs : D.bs = D.gdim) (B i n a : ℕ) (hn : n < D.bs) :
    TF D c q B i n a = D.dims.tang c q (D.dims.vJump D.ph c q B i n) a := by
  rw [Spec.Dims.tang, ← NF_spec hbs B i n hn, Spec.Dims.vJump.eq_def]
  cases B with
  | zero => simp only [TF, NF, nSurf_eq]
  | succ k =>
    simp only [TF, NF, nSurf_eq, tIdx_eq D hbs c]
    split <;> ring

theorem ST_spec (hbs : D.bs = D.gdim) (B i n a : ℕ) (hn : n < D.bs) (ha : a < D.gdim) :
    ST D c q B i n a = D.dims.tang c q (D.dims.vTrac D.grad c (D.nPhys q) q B i n) a := by
  rw [Spec.Dims.tang, ← SF_spec hbs B i n hn, vTrac_spec hbs B i n a hn ha]
  cases B with
  | zero => simp only [ST, SF, nSurf_eq]
  | succ k => simp [ST, SF]

theorem rPlus_max (x : ℝ) : rPlus x = max 0 x := by
  rcases le_total 0 x with h | h
  · rw [rPlus_of_nonneg h, max_eq_right h]
  · rw [rPlus_of_nonpos h, max_eq_left h]

theorem unbR_spec (hbs : D.bs = D.gdim) (w : ℕ → ℝ) (B i n : ℕ) (hn : n < D.bs) :
    unbR D c w q B i n = D.w0 q * D.dims.normalForm D.ph D.grad c w (D.nPhys q) q B i n := by
  rw [unbR, pressure_eq D hbs, rPlus_max, NF_spec hbs B i n hn, SF_spec hbs B i n hn, signU_eq D hbs,
    Spec.Dims.normalForm, gam, gamInv]
  ring

theorem friR_spec (hbs : D.bs = D.gdim) (w : ℕ → ℝ) (p : ℕ → ℝ) (B i n : ℕ) (hn : n < D.bs) :
    friR D c w q p B i n = D.w0 q * D.dims.frictionForm D.ph D.grad c w (D.nPhys q) p q B i n := by
  rw [friR, Spec.Dims.frictionForm, gam, gamInv, hbs]
  have e1 : ∀ a ∈ range D.gdim, p a * (TF D c q B i n a - w 1 * (c 3 / w 0) * ST D c q B i n a) =
      p a * (D.dims.tang c q (D.dims.vJump D.ph c q B i n) a
        - w 1 * (c 3 / w 0) * D.dims.tang c q (D.dims.vTrac D.grad c (D.nPhys q) q B i n) a) := by
    intro a ha
    rw [TF_spec hbs B i n a hn, ST_spec hbs B i n a hn (mem_range.mp ha)]
  have e2 : ∀ a ∈ range D.gdim, (sigU D c q a - signU D c q * nSurf D c q a) * ST D c q B i n a =
      D.dims.tang c q (D.dims.trac c (D.nPhys q) q) a
        * D.dims.tang c q (D.dims.vTrac D.grad c (D.nPhys q) q B i n) a := by
    intro a ha
    rw [tang_sig D hbs c q a (mem_range.mp ha), ST_spec hbs B i n a hn (mem_range.mp ha)]
  rw [sum_congr rfl e1, sum_congr rfl e2]
  show _ = D.w0 q * (1 / 2 * (w 0 / c 3) * ∑ a ∈ range D.gdim, _
    - 1 / 2 * w 1 * (c 3 / w 0) * ∑ a ∈ range D.gdim, _)
  ring

theorem ball_spec {bs : ℕ} (hbs : bs = 2 ∨ bs = 3) (x : ℕ → ℝ) (α : ℝ) {a : ℕ} (ha : a < bs) :
    at3 (ballProjection (vec3 bs x) α) a = Spec.ball bs x α a := by
  have h3 : a < 3 := by omega
  simp only [ballProjection, Spec.ball, at3, h3, dif_pos, normSquared_vec3 hbs]
  split <;> simp [vec3, ha]

theorem friR_congr {w p p' : ℕ → ℝ} {B i n : ℕ} (h : ∀ a, a < D.bs → p a = p' a) :
    friR D c w q p B i n = friR D c w q p' B i n := by
  rw [friR, friR]
  congr 3
  exact sum_congr rfl (fun a ha => by rw [h a (mem_range.mp ha)])

theorem ball_congr {g : ℕ} {x y : ℕ → ℝ} {α : ℝ} (h : ∀ a, a < g → x a = y a) {a : ℕ} (ha : a < g) :
    Spec.ball g x α a = Spec.ball g y α a := by
  have e : ∑ b ∈ range g, x b ^ 2 = ∑ b ∈ range g, y b ^ 2 :=
    sum_congr rfl (fun b hb => by rw [h b (mem_range.mp hb)])
  simp only [Spec.ball, e, h a ha]

theorem trescaR_spec (hbs : D.bs = D.gdim) (h23 : D.gdim = 2 ∨ D.gdim = 3) (w : ℕ → ℝ) (B i n : ℕ)
    (hn : n < D.bs) :
    friR D c w q (at3 (ballProjection (vec3 D.bs (ptU D c w q)) (gam c w * c 2))) B i n =
      D.w0 q * D.dims.frictionForm D.ph D.grad c w (D.nPhys q)
        (Spec.ball D.gdim (D.dims.slip c w (D.nPhys q) q) (c 3 / w 0 * c 2)) q B i n := by
  rw [← friR_spec hbs w _ B i n hn]
  refine friR_congr (fun a ha => ?_)
  rw [ball_spec (by rw [hbs]; exact h23) _ _ ha, hbs]
  rw [hbs] at ha
  exact ball_congr (fun a ha => ptU_eq D hbs c w q a ha) ha

theorem coulombR_spec (hbs : D.bs = D.gdim) (h23 : D.gdim = 2 ∨ D.gdim = 3) (w : ℕ → ℝ) (B i n : ℕ)
    (hn : n < D.bs) :
    friR D c w q (at3 (ballProjection (vec3 D.bs (ptUc D c w q)) (c 2 * rPlus
        ((jumpN D c q - gap D c q) - gam c w * signU D c q)))) B i n =
      D.w0 q * D.dims.frictionForm D.ph D.grad c w (D.nPhys q)
        (Spec.ball D.gdim (D.dims.slipC c w (D.nPhys q) q)
          (c 2 * max 0 (D.dims.pressure c w (D.nPhys q) q))) q B i n := by
  rw [← friR_spec hbs w _ B i n hn]
  refine friR_congr (fun a ha => ?_)
  rw [ball_spec (by rw [hbs]; exact h23) _ _ ha, hbs, rPlus_max, pressure_eq D hbs]
  rw [hbs] at ha
  exact ball_congr (fun a ha => ptUc_eq D hbs c w q a ha) ha

end SpecForms

/-! ### rigid translations -/

section Translation

variable {D : KD} {c : ℕ → ℝ} {q links : ℕ}

theorem sum_NF (hbs : D.bs = D.gdim) (hu : Spec.PartitionOfUnity D.dims D.ph D.grad q)
    (hl : Spec.FullyLinked D.dims links c q) (n : ℕ) (hn : n < D.bs) :
    ∑ B ∈ range (links + 1), ∑ i ∈ range D.nd, NF D c q B i n = 0 := by
  rw [sum_range_succ']
  simp only [NF, sum_neg_distrib, ← mul_sum, ← sum_mul, tIdx_eq D hbs c]
  have h1 : ∑ i ∈ range D.nd, D.ph q i = 1 := hu.1
  have h2 := hl n (by rw [hbs] at hn; exact hn)
  have h2' : ∑ k ∈ range links, ∑ i ∈ range D.nd, D.dims.test c q k i n = 1 := h2
  rw [h1, h2']; ring

theorem sum_sigB (hu : Spec.PartitionOfUnity D.dims D.ph D.grad q) (n j : ℕ) (hn : n < D.gdim)
    (hj : j < D.gdim) : ∑ i ∈ range D.nd, sigB D c q i n j = 0 := by
  have h := hu.2
  have h' : ∀ b, b < D.gdim → ∑ i ∈ range D.nd, gradV D.tdim (D.K q) (D.dph q) i b = 0 := h
  simp only [sigB, sigmaNBasis_eq, sum_add_distrib]
  have e1 : ∑ i ∈ range D.nd, (if j = n then c 0 * ∑ s ∈ range D.gdim,
      gradV D.tdim (D.K q) (D.dph q) i s * D.nPhys q s else 0) = 0 := by
    by_cases hjn : j = n
    · simp only [hjn, if_true, ← mul_sum]
      rw [sum_comm]
      simp only [← sum_mul]
      rw [sum_congr rfl (fun s hs => by rw [h' s (mem_range.mp hs)])]
      simp
    · simp [hjn]
  rw [e1]
  simp only [← mul_sum, ← sum_mul, h' n hn, h' j hj]
  ring

theorem sum_SF (hbs : D.bs = D.gdim) (hu : Spec.PartitionOfUnity D.dims D.ph D.grad q)
    (n : ℕ) (hn : n < D.bs) :
    ∑ B ∈ range (links + 1), ∑ i ∈ range D.nd, SF D c q B i n = 0 := by
  rw [sum_range_succ']
  simp only [SF, sum_const_zero, zero_add]
  simp only [signV_eq hbs q _ n hn]
  rw [sum_comm]
  refine sum_eq_zero (fun j hj => ?_)
  rw [← sum_mul, sum_sigB hu n j (hbs ▸ hn) (mem_range.mp hj), zero_mul]

theorem sum_TF (hbs : D.bs = D.gdim) (hu : Spec.PartitionOfUnity D.dims D.ph D.grad q)
    (hl : Spec.FullyLinked D.dims links c q) (n j : ℕ) (hn : n < D.bs) :
    ∑ B ∈ range (links + 1), ∑ i ∈ range D.nd, TF D c q B i n j = 0 := by
  have e : ∀ B i, TF D c q B i n j = (if j = n then (match B with
      | 0 => D.ph q i | k + 1 => -D.dims.test c q k i n) else 0) - NF D c q B i n * nSurf D c q j := by
    intro B i
    rw [TF_spec hbs B i n j hn, Spec.Dims.tang, ← NF_spec hbs B i n hn, Spec.Dims.vJump.eq_def, nSurf_eq]
    cases B <;> rfl
  simp only [e, sum_sub_distrib, ← sum_mul, sum_NF hbs hu hl n hn, zero_mul, sub_zero]
  by_cases hjn : j = n
  · simp only [hjn, if_true]
    rw [sum_range_succ']
    have h1 : ∑ i ∈ range D.nd, D.ph q i = 1 := hu.1
    have h2 : ∑ k ∈ range links, ∑ i ∈ range D.nd, D.dims.test c q k i n = 1 :=
      hl n (by rw [hbs] at hn; exact hn)
    simp only [sum_neg_distrib, h1, h2]; ring
  · simp [hjn]

theorem sum_ST (hbs : D.bs = D.gdim) (hu : Spec.PartitionOfUnity D.dims D.ph D.grad q)
    (n j : ℕ) (hn : n < D.bs) (hj : j < D.bs) :
    ∑ B ∈ range (links + 1), ∑ i ∈ range D.nd, ST D c q B i n j = 0 := by
  rw [sum_range_succ']
  simp only [ST, sum_const_zero, zero_add, sum_sub_distrib, ← sum_mul]
  rw [sum_sigB hu n j (hbs ▸ hn) (hbs ▸ hj)]
  have := sum_SF (c := c) (links := links) hbs hu n hn
  rw [sum_range_succ'] at this
  simp only [SF, sum_const_zero, zero_add] at this
  rw [this]; ring

theorem sum_unbR (hbs : D.bs = D.gdim) (hu : Spec.PartitionOfUnity D.dims D.ph D.grad q)
    (hl : Spec.FullyLinked D.dims links c q) (w : ℕ → ℝ) (n : ℕ) (hn : n < D.bs) :
    ∑ B ∈ range (links + 1), ∑ i ∈ range D.nd, unbR D c w q B i n = 0 := by
  simp only [unbR, ← mul_sum, sum_sub_distrib]
  rw [sum_NF hbs hu hl n hn, sum_SF hbs hu n hn]; ring

theorem sum_friR (hbs : D.bs = D.gdim) (hu : Spec.PartitionOfUnity D.dims D.ph D.grad q)
    (hl : Spec.FullyLinked D.dims links c q) (w p : ℕ → ℝ) (n : ℕ) (hn : n < D.bs) :
    ∑ B ∈ range (links + 1), ∑ i ∈ range D.nd, friR D c w q p B i n = 0 := by
  simp only [friR, ← mul_sum, sum_sub_distrib]
  have h1 : ∑ B ∈ range (links + 1), ∑ i ∈ range D.nd, ∑ j ∈ range D.bs,
      p j * (TF D c q B i n j - w 1 * gam c w * ST D c q B i n j) = 0 := by
    rw [sum_congr rfl (fun B _ => sum_comm), sum_comm]
    refine sum_eq_zero (fun j hj => ?_)
    simp only [← mul_sum, sum_sub_distrib]
    rw [sum_TF hbs hu hl n j hn, sum_ST hbs hu n j hn (mem_range.mp hj)]; ring
  have h2 : ∑ B ∈ range (links + 1), ∑ i ∈ range D.nd, ∑ j ∈ range D.bs,
      (sigU D c q j - signU D c q * nSurf D c q j) * ST D c q B i n j = 0 := by
    rw [sum_congr rfl (fun B _ => sum_comm), sum_comm]
    refine sum_eq_zero (fun j hj => ?_)
    simp only [← mul_sum]
    rw [sum_ST hbs hu n j hn (mem_range.mp hj)]; ring
  rw [h1, h2]; ring

/-- Virtual work from the point contributions. -/
theorem translationWork_eq (hbs : D.bs = D.gdim) (qs : List ℕ) (b : Arr (ℕ × ℕ))
    (R : ℕ → ℕ → ℕ → ℕ → ℝ)
    (hb : ∀ B i n, B < links + 1 → i < D.nd → n < D.bs →
      b (B, i * D.bs + n) = (qs.map (fun q => R q B i n)).sum)
    (hR : ∀ q ∈ qs, ∀ n, n < D.bs → ∑ B ∈ range (links + 1), ∑ i ∈ range D.nd, R q B i n = 0)
    (v : ℕ → ℝ) : Spec.translationWork D.dims links b v = 0 := by
  have e : Spec.translationWork D.dims links b v =
      ∑ B ∈ range (links + 1), ∑ i ∈ range D.nd, ∑ n ∈ range D.bs,
        (qs.map (fun q => R q B i n * v n)).sum := by
    unfold Spec.translationWork
    refine sum_congr rfl (fun B hB => sum_congr rfl (fun i hi => ?_))
    have : D.dims.g = D.bs := hbs.symm
    rw [this]
    refine sum_congr rfl (fun n hn => ?_)
    rw [hb B i n (mem_range.mp hB) (mem_range.mp hi) (mem_range.mp hn), list_sum_mul]
  rw [e]
  simp only [list_sum_comm]
  refine (list_sum_congr _ _ (fun _ => 0) (fun q hq => ?_)).trans (by simp)
  rw [sum_congr rfl (fun B _ => sum_comm), sum_comm]
  refine sum_eq_zero (fun n hn => ?_)
  simp only [← sum_mul]
  rw [hR q hq n (mem_range.mp hn), zero_mul]

end Translation

/-! ### single points -/

theorem sumOfPoints {body : ℕ → Arr (ℕ × ℕ) → Arr (ℕ × ℕ)} (h : ∀ q, IsAdd (body q)) :
    Spec.SumOfPoints (fun qs => forEach qs body) where
  sum qs a m := forEach_isAdd h qs a m
  perm qs qs' hp := by
    funext a m
    rw [forEach_isAdd h qs a m, forEach_isAdd h qs' a m]
    rw [(hp.map _).sum_eq]
  split qs qs' a := by simp [forEach]

theorem unbiasedRhsPoint_isAdd (D : KD) (c w : ℕ → ℝ) (links q : ℕ) :
    IsAdd (unbiasedRhsPoint D c w links q) := by unfold unbiasedRhsPoint; dsimp only; is_add

theorem unbiasedJacPoint_isAdd (D : KD) (c w : ℕ → ℝ) (links q : ℕ) :
    IsAdd (unbiasedJacPoint D c w links q) := by unfold unbiasedJacPoint; dsimp only; is_add

theorem trescaRhsPoint_isAdd (D : KD) (c w : ℕ → ℝ) (links q : ℕ) :
    IsAdd (trescaRhsPoint D c w links q) := by
  unfold trescaRhsPoint frictionRhsFill; dsimp only; is_add

theorem coulombRhsPoint_isAdd (D : KD) (c w : ℕ → ℝ) (links q : ℕ) :
    IsAdd (coulombRhsPoint D c w links q) := by
  unfold coulombRhsPoint frictionRhsFill; dsimp only; is_add

theorem trescaJacPoint_isAdd (D : KD) (c w : ℕ → ℝ) (links q : ℕ) :
    IsAdd (trescaJacPoint D c w links q) := by unfold trescaJacPoint; dsimp only; is_add

theorem coulombJacPoint_isAdd (D : KD) (c w : ℕ → ℝ) (links q : ℕ) :
    IsAdd (coulombJacPoint D c w links q) := by unfold coulombJacPoint; dsimp only; is_add

/-! ### no contact -/

theorem rPlus_nonpos {x : ℝ} (h : x ≤ 0) : rPlus x = 0 := by rw [rPlus_max, max_eq_left h]

theorem dRPlus_nonpos {x : ℝ} (h : x ≤ 0) : dRPlus x = 0 := by
  rw [dRPlus, if_neg (by linarith)]

theorem ballProjection_zero (x : Vec3) (i : ℕ) : at3 (ballProjection x 0) i = 0 := by
  rw [at3]
  split
  · next h =>
    rw [ballProjection]
    split
    · next hn =>
      have h0 : normSquared x ≤ 0 := Real.sqrt_eq_zero'.mp (le_antisymm hn (Real.sqrt_nonneg _))
      rw [normSquared] at h0
      have hx : ∀ j : Fin 3, x j = 0 := by
        intro j
        have h1 := sq_nonneg (x 0)
        have h2 := sq_nonneg (x 1)
        have h3 := sq_nonneg (x 2)
        have : x j ^ 2 = 0 := by fin_cases j <;> simp <;> nlinarith
        exact pow_eq_zero_iff (two_ne_zero) |>.mp this
      exact hx _
    · simp
  · rfl

theorem dAlpha_zero (x : Vec3) (α : ℝ) (i : ℕ) : at3 (dAlphaBallProjection x α 0) i = 0 := by
  rw [at3]
  split
  · rw [dAlphaBallProjection]
    split <;> simp
  · rfl

theorem dBall_zero (x : Vec3) (bs m : ℕ) : dBallProjection x 0 bs m = 0 := by
  rw [dBallProjection]
  simp only
  rw [if_pos (by norm_num)]

theorem unbiasedRhsPoint_open (D : KD) (c w : ℕ → ℝ) (links q : ℕ) (hbs : D.bs = D.gdim)
    (hw : w 1 = 0) (hp : D.dims.pressure c w (D.nPhys q) q ≤ 0) (a : Arr (ℕ × ℕ)) :
    unbiasedRhsPoint D c w links q a = a := by
  unfold unbiasedRhsPoint
  dsimp only
  rw [pressure_eq D hbs, rPlus_nonpos hp, hw]
  simp only [mul_zero, zero_mul, neg_zero, acc_zero, loop_id, implies_true]

theorem unbiasedJacPoint_open (D : KD) (c w : ℕ → ℝ) (links q : ℕ) (hbs : D.bs = D.gdim)
    (hw : w 1 = 0) (hp : D.dims.pressure c w (D.nPhys q) q ≤ 0) (a : Arr (ℕ × ℕ)) :
    unbiasedJacPoint D c w links q a = a := by
  unfold unbiasedJacPoint
  dsimp only
  rw [pressure_eq D hbs, dRPlus_nonpos hp, hw]
  simp only [mul_zero, zero_mul, neg_zero, sub_zero, acc_zero, loop_id, implies_true]
  exact loop_id (fun _ _ => loop_id (fun _ _ => loop_id (fun _ _ => loop_id (fun _ _ => rfl) _) _) _) _

theorem coulombRhsPoint_open (D : KD) (c w : ℕ → ℝ) (links q : ℕ) (hbs : D.bs = D.gdim)
    (hw : w 1 = 0) (hp : D.dims.pressure c w (D.nPhys q) q ≤ 0) (a : Arr (ℕ × ℕ)) :
    coulombRhsPoint D c w links q a = a := by
  unfold coulombRhsPoint frictionRhsFill
  dsimp only
  rw [pressure_eq D hbs, rPlus_nonpos hp, hw]
  simp only [mul_zero, ballProjection_zero, zero_mul, neg_zero, sub_zero, acc_zero, loop_id,
    implies_true]

theorem coulombJacPoint_open (D : KD) (c w : ℕ → ℝ) (links q : ℕ) (hbs : D.bs = D.gdim)
    (hw : w 1 = 0) (hp : D.dims.pressure c w (D.nPhys q) q ≤ 0) (a : Arr (ℕ × ℕ)) :
    coulombJacPoint D c w links q a = a := by
  unfold coulombJacPoint
  dsimp only
  rw [pressure_eq D hbs, rPlus_nonpos hp, dRPlus_nonpos hp, hw]
  simp only [mul_zero, dBall_zero, dAlpha_zero, zero_mul, neg_zero, sub_zero, acc_zero, loop_id,
    implies_true, sum_const_zero]
  exact loop_id (fun _ _ => loop_id (fun _ _ => loop_id (fun _ _ => loop_id (fun _ _ => rfl) _) _) _) _

end

end Verif.Kernels
