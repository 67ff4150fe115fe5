import Mathlib.Algebra.BigOperators.Field
import Verif.Lemmas.SystemForm
import Verif.Lemmas.Energy
import Verif.Lemmas.TieEnergy
import Verif.Spec.SystemTangent

/-! Lemmas for C131: bilinear forms of the element matrices. -/

namespace Verif.Kernels

open Verif.Scalars Verif.Spec Finset

noncomputable section

theorem comb_mul2 (D : KD) (links : ℕ) (F G : ℕ → ℕ → ℕ → ℝ) (w v : ℕ → ℕ → ℝ) :
    comb D links (fun B i b => comb D links (fun B' j l => F B' j l * G B i b) w) v =
      comb D links F w * comb D links G v := by
  have h : ∀ x : ℝ, comb D links (fun B' j l => F B' j l * x) w = x * comb D links F w := fun x => by
    rw [← comb_smul]; exact comb_congr D links w (fun B i n _ _ _ => by ring)
  simp only [h]
  rw [← comb_smul]
  exact comb_congr D links v (fun B i n _ _ _ => by ring)

theorem comb_sub (D : KD) (links : ℕ) (F G : ℕ → ℕ → ℕ → ℝ) (a : ℝ) (v : ℕ → ℕ → ℝ) :
    comb D links (fun B i b => F B i b - a * G B i b) v = comb D links F v - a * comb D links G v := by
  have : comb D links (fun B i b => F B i b - a * G B i b) v = comb D links (fun B i b => F B i b + (-a) * G B i b) v :=
    comb_congr D links v (fun _ _ _ _ _ _ => by ring)
  rw [this, comb_add, comb_smul]; ring

/-- The bilinear form as a sum over quadrature points. -/
theorem bilin_eq (D : KD) (links : ℕ) (qs : List ℕ) (A : Arr (ℕ × ℕ))
    (J : ℕ → ℕ → ℕ → ℕ → ℕ → ℕ → ℕ → ℝ) (hA : BlockValues D links qs A J) (w v : ℕ → ℕ → ℝ)
    (hcross : ∀ q ∈ qs, ∀ k k' i b j l, k < links → k' < links → k ≠ k' → i < D.nd → b < D.bs →
      j < D.nd → l < D.bs → J q (k + 1) i b (k' + 1) j l = 0) :
    ∑ B ∈ range (links + 1), ∑ i ∈ range D.nd, ∑ n ∈ range D.bs,
        Spec.blockApply (D.nd * D.bs) links A w B (i * D.bs + n) * v B (i * D.bs + n) =
      (qs.map (fun q => comb D links (fun B i b => comb D links (fun B' j l => J q B i b B' j l) w) v)).sum := by
  have h : ∀ B ∈ range (links + 1), ∑ i ∈ range D.nd, ∑ n ∈ range D.bs,
        Spec.blockApply (D.nd * D.bs) links A w B (i * D.bs + n) * v B (i * D.bs + n) =
      (qs.map (fun q => ∑ i ∈ range D.nd, ∑ n ∈ range D.bs,
        comb D links (fun B' j l => J q B i n B' j l) w * v B (i * D.bs + n))).sum := by
    intro B hB
    rw [← list_sum_comm]
    refine sum_congr rfl (fun i hi => ?_)
    rw [← list_sum_comm]
    refine sum_congr rfl (fun b hb => ?_)
    rw [blockApply_eq D links qs A J hA w B i b (mem_range.mp hB) (mem_range.mp hi) (mem_range.mp hb)
      (fun q hq k k' j l hk hk' hne hj hl => hcross q hq k k' i b j l hk hk' hne (mem_range.mp hi)
        (mem_range.mp hb) hj hl), list_sum_mul]
  rw [sum_congr rfl h, list_sum_comm]
  rfl

/-- Bilinear form of one point, frictionless. -/
theorem unbJ_bilin (D : KD) (links : ℕ) (c w : ℕ → ℝ) (q : ℕ) (x v : ℕ → ℕ → ℝ) :
    comb D links (fun B i b => comb D links (fun B' j l => unbJ D c w q B i b B' j l) x) v =
      D.w0 q * (0.5 * gamInv c w * dRPlus ((jumpN D c q - gap D c q) - gam c w * signU D c q)
          * (comb D links (NF D c q) x - gam c w * comb D links (SF D c q) x)
          * (comb D links (NF D c q) v - gam c w * w 1 * comb D links (SF D c q) v)
        - 0.5 * w 1 * gam c w * comb D links (SF D c q) x * comb D links (SF D c q) v) := by
  set d := dRPlus ((jumpN D c q - gap D c q) - gam c w * signU D c q) with hd
  have e : ∀ B i b B' j l, unbJ D c w q B i b B' j l =
      (D.w0 q * 0.5 * gamInv c w * d) * (NF D c q B' j l * NF D c q B i b)
      + ((-(D.w0 q * 0.5 * gamInv c w * d * gam c w * w 1)) * (NF D c q B' j l * SF D c q B i b)
      + ((-(D.w0 q * 0.5 * gamInv c w * d * gam c w)) * (SF D c q B' j l * NF D c q B i b)
      + (D.w0 q * 0.5 * gamInv c w * d * gam c w * gam c w * w 1 - D.w0 q * 0.5 * w 1 * gam c w)
        * (SF D c q B' j l * SF D c q B i b))) := by
    intro B i b B' j l
    simp only [unbJ, ← hd]; ring
  simp only [e, comb_add, comb_smul, comb_mul2]
  ring

/-- Bilinear form of one point, friction. -/
theorem friJ_bilin (D : KD) (links : ℕ) (c w : ℕ → ℝ) (q : ℕ) (y : ℕ → ℕ → ℕ → ℕ → ℝ) (x v : ℕ → ℕ → ℝ) :
    comb D links (fun B i b => comb D links (fun B' j l => friJ D c w q (y B' j l) B i b B' j l) x) v =
      D.w0 q * (0.5 * gamInv c w * ∑ m ∈ range D.bs, comb D links (fun B j l => y B j l m) x
          * (comb D links (fun B i b => TF D c q B i b m) v
              - w 1 * gam c w * comb D links (fun B i b => ST D c q B i b m) v)
        - 0.5 * gam c w * w 1 * ∑ m ∈ range D.bs, comb D links (fun B i b => ST D c q B i b m) x
          * comb D links (fun B i b => ST D c q B i b m) v) := by
  have e : ∀ B i b B' j l, friJ D c w q (y B' j l) B i b B' j l =
      (D.w0 q * 0.5 * gamInv c w) * ∑ m ∈ range D.bs, y B' j l m
          * (TF D c q B i b m - w 1 * gam c w * ST D c q B i b m)
      + (-(D.w0 q * 0.5 * gam c w * w 1)) * ∑ m ∈ range D.bs, ST D c q B' j l m * ST D c q B i b m := by
    intro B i b B' j l
    simp only [friJ]; ring
  simp only [e, comb_add, comb_smul, comb_sum]
  have m2 : ∀ m, comb D links (fun B i b => comb D links (fun B' j l =>
      y B' j l m * (TF D c q B i b m - w 1 * gam c w * ST D c q B i b m)) x) v =
      comb D links (fun B j l => y B j l m) x
            * (comb D links (fun B i b => TF D c q B i b m) v
              - w 1 * gam c w * comb D links (fun B i b => ST D c q B i b m) v) := by
    intro m
    rw [comb_mul2 D links (fun B' j l => y B' j l m)
      (fun B i b => TF D c q B i b m - w 1 * gam c w * ST D c q B i b m), comb_sub]
  have m3 : ∀ m, comb D links (fun B i b => comb D links (fun B' j l => ST D c q B' j l m * ST D c q B i b m) x) v =
      comb D links (fun B i b => ST D c q B i b m) x * comb D links (fun B i b => ST D c q B i b m) v :=
    fun m => comb_mul2 D links (fun B' j l => ST D c q B' j l m) (fun B i b => ST D c q B i b m) x v
  simp only [m2, m3]
  ring

/-- The matrix `d_ball_projection` returns, applied to a vector. -/
theorem dBall_apply {bs : ℕ} (hbs : bs = 2 ∨ bs = 3) (x : ℕ → ℝ) (r : ℝ) (y : ℕ → ℝ) {m : ℕ} (hm : m < bs) :
    ∑ n ∈ range bs, dBallProjection (vec3 bs x) r bs (n * bs + m) * y n = cutSlope bs x r y m := by
  have h3 : bs ≤ 3 := by omega
  unfold cutSlope
  by_cases hr : r < 1e-14
  · rw [if_pos hr]
    refine sum_eq_zero (fun n _ => ?_)
    simp [dBallProjection, hr]
  rw [if_neg hr]
  have hN := normSquared_vec3 hbs x
  unfold ballSlope
  rw [← hN]
  by_cases hin : Real.sqrt (normSquared (vec3 bs x)) < r
  · rw [if_pos hin]
    have : ∀ n ∈ range bs, dBallProjection (vec3 bs x) r bs (n * bs + m) * y n = if n = m then y n else 0 := by
      intro n hn
      rw [dBallProjection_inside hr hin (mem_range.mp hn) hm]
      split <;> simp
    rw [sum_congr rfl this, sum_ite_eq', if_pos (mem_range.mpr hm)]
  · rw [if_neg hin]
    obtain ⟨N, hNd⟩ : ∃ N, N = Real.sqrt (normSquared (vec3 bs x)) := ⟨_, rfl⟩
    have hsq : normSquared (vec3 bs x) = N ^ 2 := by
      rw [hNd, Real.sq_sqrt]; rw [hN]; exact sum_nonneg (fun _ _ => sq_nonneg _)
    have : ∀ n ∈ range bs, dBallProjection (vec3 bs x) r bs (n * bs + m) * y n
        = (if n = m then r / N * y n else 0) - r * (x n * y n) * x m / N ^ 3 := by
      intro n hn
      rw [dBallProjection_outside hr hin (mem_range.mp hn) hm, at3_vec3 h3 (mem_range.mp hn), at3_vec3 h3 hm, ← hNd, hsq,
        show N * N ^ 2 = N ^ 3 by ring]
      split <;> ring
    rw [sum_congr rfl this, sum_sub_distrib, sum_ite_eq', if_pos (mem_range.mpr hm), ← hNd, mul_sum, sum_mul, sum_div]

theorem dAlpha_eq {bs : ℕ} (hbs : bs = 2 ∨ bs = 3) (x : ℕ → ℝ) (r a : ℝ) {m : ℕ} (hm : m < bs) :
    at3 (dAlphaBallProjection (vec3 bs x) r a) m = ballRadiusSlope bs x r m * a := by
  have h3 : m < 3 := by omega
  unfold ballRadiusSlope
  rw [← normSquared_vec3 hbs x]
  by_cases h : r < Real.sqrt (normSquared (vec3 bs x))
  · simp only [dAlphaBallProjection, h, if_true, at3, h3, dif_pos]
    simp only [vec3, hm, if_true]; ring
  · simp [dAlphaBallProjection, h, at3]

theorem comb_yT (D : KD) (links : ℕ) (c w : ℕ → ℝ) (q : ℕ) (hbs : D.bs = 2 ∨ D.bs = 3) (x : ℕ → ℕ → ℝ) {m : ℕ}
    (hm : m < D.bs) :
    comb D links (fun B j l => yT D c w q B j l m) x
      = cutSlope D.bs (ptU D c w q) (gam c w * c 2)
        (fun n => comb D links (fun B j l => TF D c q B j l n) x
          - gam c w * comb D links (fun B j l => ST D c q B j l n) x) m := by
  rw [← dBall_apply hbs _ _ _ hm]
  simp only [yT, comb_sum, comb_smul]
  refine sum_congr rfl (fun n _ => ?_)
  congr 1
  exact comb_sub D links (fun B j l => TF D c q B j l n) (fun B j l => ST D c q B j l n) (gam c w) x

theorem comb_yC (D : KD) (links : ℕ) (c w : ℕ → ℝ) (q : ℕ) (hbs : D.bs = 2 ∨ D.bs = 3) (x : ℕ → ℕ → ℝ) {m : ℕ}
    (hm : m < D.bs) :
    comb D links (fun B j l => yC D c w q B j l m) x
      = cutSlope D.bs (ptUc D c w q) (c 2 * rPlus ((jumpN D c q - gap D c q) - gam c w * signU D c q))
        (fun n => comb D links (fun B j l => TF D c q B j l n) x
          + comb D links (NF D c q) x * (nOld D c q n - nDotN D c q * nSurf D c q n)
          - gam c w * comb D links (fun B j l => ST D c q B j l n) x) m
        + ballRadiusSlope D.bs (ptUc D c w q) (c 2 * rPlus ((jumpN D c q - gap D c q) - gam c w * signU D c q)) m
          * (dRPlus ((jumpN D c q - gap D c q) - gam c w * signU D c q) * c 2)
          * (comb D links (NF D c q) x - gam c w * comb D links (SF D c q) x) := by
  rw [← dBall_apply hbs _ _ _ hm, ← dAlpha_eq hbs _ _ _ hm]
  simp only [yC]
  rw [comb_add, comb_smul, comb_sub]
  congr 1
  simp only [zC, comb_sum, comb_smul]
  refine sum_congr rfl (fun n _ => ?_)
  congr 1
  have e : ∀ B j l, xC D c w q B j l n = (TF D c q B j l n + (nOld D c q n - nDotN D c q * nSurf D c q n) * NF D c q B j l)
      - gam c w * ST D c q B j l n := by intro B j l; rw [xC]; ring
  simp only [e]
  rw [comb_sub, comb_add, comb_smul]
  ring

end

end Verif.Kernels

namespace Verif.ContactProblem

open Verif.Spec Verif.Packing Verif.Assembly Verif.Entities Verif.Kernels Finset

noncomputable section

variable {G : Type} {Y : System G}

theorem cutSlope_congr {g : ℕ} {x x' y y' : ℕ → ℝ} {r r' : ℝ} (hx : ∀ a < g, x a = x' a) (hr : r = r')
    (hy : ∀ a < g, y a = y' a) {a : ℕ} (ha : a < g) : cutSlope g x r y a = cutSlope g x' r' y' a := by
  subst hr
  have e : ∑ b ∈ range g, x b ^ 2 = ∑ b ∈ range g, x' b ^ 2 :=
    sum_congr rfl (fun b hb => by rw [hx b (mem_range.mp hb)])
  have e' : ∑ b ∈ range g, x b * y b = ∑ b ∈ range g, x' b * y' b :=
    sum_congr rfl (fun b hb => by rw [hx b (mem_range.mp hb), hy b (mem_range.mp hb)])
  unfold cutSlope ballSlope
  rw [e, e', hx a ha, hy a ha]

theorem ballRadiusSlope_congr {g : ℕ} {x x' : ℕ → ℝ} {r r' : ℝ} (hx : ∀ a < g, x a = x' a) (hr : r = r')
    {a : ℕ} (ha : a < g) : ballRadiusSlope g x r a = ballRadiusSlope g x' r' a := by
  subst hr
  have e : ∑ b ∈ range g, x b ^ 2 = ∑ b ∈ range g, x' b ^ 2 :=
    sum_congr rfl (fun b hb => by rw [hx b (mem_range.mp hb)])
  unfold ballRadiusSlope
  rw [e, hx a ha]

section
variable {K : KD} {links : ℕ} {c : ℕ → ℝ} {q : ℕ} {p : ContactPoint} {J : ℕ → ℝ} {D : ℕ → ℕ → ℝ}
  {V : ℕ → ℕ → ℝ} {J' : ℕ → ℝ} {D' : ℕ → ℕ → ℝ}

/-- Jump and traction of the function with dofs `V`. -/
structure DofsAt (K : KD) (links : ℕ) (c : ℕ → ℝ) (q : ℕ) (p : ContactPoint) (V : ℕ → ℕ → ℝ) (J' : ℕ → ℝ)
    (D' : ℕ → ℕ → ℝ) : Prop where
  jump : ∀ a < K.gdim, ∑ k ∈ dofSet links K.nd K.bs, K.dims.vJump K.ph c q k.1 k.2.1 k.2.2 a
    * V k.1 (k.2.1 * K.bs + k.2.2) = J' a
  trac : ∀ a < K.gdim, ∑ k ∈ dofSet links K.nd K.bs, K.dims.vTrac K.grad c (K.nPhys q) q k.1 k.2.1 k.2.2 a
    * V k.1 (k.2.1 * K.bs + k.2.2) = p.trac D' a

theorem mem_dofSet {links nd g : ℕ} {k : ℕ × ℕ × ℕ} (h : k ∈ dofSet links nd g) :
    k.1 ≤ links ∧ k.2.1 < nd ∧ k.2.2 < g := by
  unfold dofSet at h
  simp only [mem_product, mem_range] at h
  omega

theorem DofsAt.NF (R : RowAt K.dims c q p J D) (hbs : K.bs = K.gdim) (H : DofsAt K links c q p V J' D') :
    comb K links (NF K c q) V = p.dot J' := by
  rw [← R.dot H.jump, dotN_sum, comb_dofSet]
  refine sum_congr rfl (fun k hk => ?_)
  rw [NF_spec hbs _ _ _ (mem_dofSet hk).2.2]

theorem DofsAt.SF (R : RowAt K.dims c q p J D) (hbs : K.bs = K.gdim) (H : DofsAt K links c q p V J' D') :
    comb K links (SF K c q) V = p.dot (p.trac D') := by
  rw [← R.dot H.trac, dotN_sum, comb_dofSet]
  refine sum_congr rfl (fun k hk => ?_)
  rw [SF_spec hbs _ _ _ (mem_dofSet hk).2.2]

theorem DofsAt.TF (R : RowAt K.dims c q p J D) (hbs : K.bs = K.gdim) (H : DofsAt K links c q p V J' D') {a : ℕ}
    (ha : a < K.gdim) : comb K links (fun B i n => TF K c q B i n a) V = p.tang J' a := by
  rw [← R.tang H.jump ha, tang_sum, comb_dofSet]
  refine sum_congr rfl (fun k hk => ?_)
  rw [TF_spec hbs _ _ _ _ (mem_dofSet hk).2.2]

theorem DofsAt.ST (R : RowAt K.dims c q p J D) (hbs : K.bs = K.gdim) (H : DofsAt K links c q p V J' D') {a : ℕ}
    (ha : a < K.gdim) : comb K links (fun B i n => ST K c q B i n a) V = p.tang (p.trac D') a := by
  rw [← R.tang H.trac ha, tang_sum, comb_dofSet]
  refine sum_congr rfl (fun k hk => ?_)
  rw [ST_spec hbs _ _ _ _ (mem_dofSet hk).2.2 ha]

theorem dRPlus_step (x : ℝ) : Scalars.dRPlus x = step x := by
  unfold Scalars.dRPlus step; rfl

variable {W : ℕ → ℕ → ℝ} {L : ℕ → ℝ} {E : ℕ → ℕ → ℝ}

theorem pressure_row (R : RowAt K.dims c q p J D) (hbs : K.bs = K.gdim) (hn : p.nPhys = K.nPhys q) (w : ℕ → ℝ) :
    (jumpN K c q - gap K c q) - gam c w * signU K c q = p.pressure (w 0) J D := by
  rw [pressure_eq K hbs, ← hn, R.pressure]

theorem unbJ_point (R : RowAt K.dims c q p J D) (hbs : K.bs = K.gdim) (hn : p.nPhys = K.nPhys q) (w : ℕ → ℝ)
    (HW : DofsAt K links c q p W L E) (HV : DofsAt K links c q p V J' D') :
    comb K links (fun B i b => comb K links (fun B' j l => unbJ K c w q B i b B' j l) W) V
      = K.w0 q * p.dNormalPart (w 0) (w 1) J D L E J' D' := by
  rw [unbJ_bilin, pressure_row R hbs hn, HW.NF R hbs, HW.SF R hbs, HV.NF R hbs, HV.SF R hbs, dRPlus_step]
  unfold ContactPoint.dNormalPart ContactPoint.dPressure gam gamInv
  rw [R.h]
  ring

theorem friJ_point (R : RowAt K.dims c q p J D) (hbs : K.bs = K.gdim) (w : ℕ → ℝ)
    (HW : DofsAt K links c q p W L E) (HV : DofsAt K links c q p V J' D') (law : Law) (y : ℕ → ℕ → ℕ → ℕ → ℝ)
    (hy : ∀ m < K.gdim, comb K links (fun B j l => y B j l m) W = p.dProjected cutSlope law (w 0) J D L E m) :
    comb K links (fun B i b => comb K links (fun B' j l => friJ K c w q (y B' j l) B i b B' j l) W) V
      = K.w0 q * p.dFrictionPart cutSlope law (w 0) (w 1) J D L E J' D' := by
  rw [friJ_bilin]
  unfold ContactPoint.dFrictionPart gam gamInv
  rw [R.h, R.g, show K.dims.g = K.gdim from rfl, hbs]
  congr 2
  · congr 1
    · ring
    · refine sum_congr rfl (fun m hm => ?_)
      have hm' := mem_range.mp hm
      rw [hy m hm', HV.TF R hbs hm', HV.ST R hbs hm']
  · congr 1
    · ring
    · refine sum_congr rfl (fun m hm => ?_)
      have hm' := mem_range.mp hm
      rw [HW.ST R hbs hm', HV.ST R hbs hm']

theorem yT_point (R : RowAt K.dims c q p J D) (hbs : K.bs = K.gdim) (hn : p.nPhys = K.nPhys q) (w : ℕ → ℝ)
    (h23 : K.gdim = 2 ∨ K.gdim = 3) (HW : DofsAt K links c q p W L E) {m : ℕ} (hm : m < K.gdim) :
    comb K links (fun B j l => yT K c w q B j l m) W = p.dProjected cutSlope .tresca (w 0) J D L E m := by
  rw [comb_yT K links c w q (by rw [hbs]; exact h23) W (by rw [hbs]; exact hm)]
  unfold ContactPoint.dProjected
  dsimp only
  rw [R.g, hbs]
  refine cutSlope_congr (fun a ha => ?_) (by unfold gam; rw [R.h, R.fric]) (fun a ha => ?_) hm
  · rw [ptU_eq K hbs c w q a ha, ← hn, R.slip w ha]
  · rw [HW.TF R hbs ha, HW.ST R hbs ha, gam, R.h]
    rfl

theorem yC_point (R : RowAt K.dims c q p J D) (hbs : K.bs = K.gdim) (hn : p.nPhys = K.nPhys q) (w : ℕ → ℝ)
    (h23 : K.gdim = 2 ∨ K.gdim = 3) (HW : DofsAt K links c q p W L E) {m : ℕ} (hm : m < K.gdim) :
    comb K links (fun B j l => yC K c w q B j l m) W = p.dProjected cutSlope .coulomb (w 0) J D L E m := by
  rw [comb_yC K links c w q (by rw [hbs]; exact h23) W (by rw [hbs]; exact hm)]
  have hold : ∀ a < K.gdim, nOld K c q a - nDotN K c q * nSurf K c q a = p.tang p.oldNormal a := by
    intro a ha
    rw [← R.tang R.old ha, nOld_eq K hbs, nSurf_eq]
    unfold Dims.tang
    congr 2
    rw [nDotN, Dims.dotN]
    refine sum_congr rfl (fun b _ => ?_)
    rw [nSurf_eq, nOld_eq K hbs]; ring
  have hx : ∀ a < K.gdim, ptUc K c w q a = p.slip (w 0) J D a - (p.dot p.gap - p.dot J) * p.tang p.oldNormal a := by
    intro a ha
    rw [ptUc_eq K hbs c w q a ha, ← hn, R.slipC w ha]
  have hr : c 2 * Scalars.rPlus ((jumpN K c q - gap K c q) - gam c w * signU K c q)
      = p.fric * max 0 (p.pressure (w 0) J D) := by
    rw [pressure_row R hbs hn, rPlus_max, R.fric]
  unfold ContactPoint.dProjected
  dsimp only
  rw [R.g, hbs, show K.dims.g = K.gdim from rfl]
  congr 1
  · refine cutSlope_congr hx hr (fun a ha => ?_) hm
    rw [HW.TF R hbs ha, HW.ST R hbs ha, HW.NF R hbs, hold a ha, gam, R.h]
    unfold ContactPoint.slip
    ring
  · rw [ballRadiusSlope_congr hx hr hm, pressure_row R hbs hn, dRPlus_step, HW.NF R hbs, HW.SF R hbs, gam, R.h, R.fric]
    unfold ContactPoint.dPressure
    ring

end

/-- The derivative of what a kernel tests, at one point. -/
def dFormAt (p : KPair) (law : Law) (P : ContactPoint) (gamma theta : ℝ) (J : ℕ → ℝ) (D : ℕ → ℕ → ℝ) (L : ℕ → ℝ)
    (E : ℕ → ℕ → ℝ) (J' : ℕ → ℝ) (D' : ℕ → ℕ → ℝ) : ℝ :=
  match p with
  | .normal => P.dNormalPart gamma theta J D L E J' D'
  | _ => P.dFrictionPart cutSlope law gamma theta J D L E J' D'

theorem dFormAt_law (law : Law) (P : ContactPoint) (gamma theta : ℝ) (J : ℕ → ℝ) (D : ℕ → ℕ → ℝ) (L : ℕ → ℝ)
    (E : ℕ → ℕ → ℝ) (J' : ℕ → ℝ) (D' : ℕ → ℕ → ℝ) :
    ((lawPairs law).map (fun p => dFormAt p law P gamma theta J D L E J' D')).sum
      = P.dForm cutSlope law gamma theta J D L E J' D' := by
  unfold ContactPoint.dForm
  cases law <;> simp [lawPairs, dFormAt]

/-- The dofs of a function on the coupled cells, at a linked point. -/
theorem dofs_at (hY : System.Valid Y) {t : Tracked G} {u : ℕ → ℝ} {i e : ℕ} {c : ℕ → ℝ}
    (R : RowHolds Y.static (t.setDu (Y.du u)) i e c) (he : e < Y.localFacets i) (hel : e < (Y.facets i).length)
    {L : List ℕ} (hL : Packing.Spec.IsLinkList (Y.pair t.cur i) e L)
    (hfirst : Packing.Spec.LinkedFirst (Y.pair t.cur i) e)
    (haff : AffineConst (Y.kd Y.nq (Y.facets i)[e].1 (Y.facets i)[e].2)) {q : ℕ} (hq : q < Y.nq)
    (hlink : 0 ≤ Y.map t.cur i (e * Y.nq + q)) (v : ℕ → ℝ) :
    DofsAt (Y.kd Y.nq (Y.facets i)[e].1 (Y.facets i)[e].2) L.length c q
      (pointAt Y t i e (Y.facets i)[e].1 (Y.facets i)[e].2 q)
      (coupledDofs Y.gdim Y.space.parent (Y.facets i)[e].1 L v)
      (jumpAt Y t.cur i e (Y.facets i)[e].1 (Y.facets i)[e].2 v q)
      (gradAt Y (Y.facets i)[e].1 (Y.facets i)[e].2 v q) := by
  generalize (Y.facets i)[e].1 = cell at *
  generalize (Y.facets i)[e].2 = f at *
  obtain ⟨V, hV⟩ : ∃ V : ℕ → ℕ → ℕ → ℝ, ∀ B k n, V B k n = v (Y.gdim * Y.space.parent (coupledCell cell L B) k + n) :=
    ⟨_, fun _ _ _ => rfl⟩
  have hVc : ∀ k ∈ dofSet L.length Y.nd Y.gdim,
      coupledDofs Y.gdim Y.space.parent cell L v k.1 (k.2.1 * Y.gdim + k.2.2) = V k.1 k.2.1 k.2.2 := by
    intro k hk
    rw [hV, coupledDofs_eq _ _ _ _ _ _ (mem_dofSet hk).2.2]
  constructor
  · intro a ha
    refine Eq.trans (sum_congr rfl (fun k hk => ?_))
      ((vJump_total (dims Y.static) L.length (Y.kd Y.nq cell f).ph c q V ha).trans ?_)
    · exact congrArg (fun z => (dims Y.static).vJump (Y.kd Y.nq cell f).ph c q k.1 k.2.1 k.2.2 a * z) (hVc k hk)
    · unfold jumpAt
      rw [← opp_direct Y t.cur i e q a L he hq ha hL hfirst hlink v]
      congr 1
      · simp only [hV]; rfl
      · refine sum_congr rfl (fun k hk => sum_congr rfl (fun m hm => ?_))
        rw [hV]
        congr 1
        unfold Dims.test
        rw [Nat.add_assoc]
        refine R.test _ ?_
        have hk' : k < Y.nq := lt_of_lt_of_le (mem_range.mp hk) (links_le hL)
        have hm' : m < Y.nd := mem_range.mp hm
        have ha' : a < Y.gdim := ha
        show ((k * Y.nd + m) * Y.nq + q) * Y.gdim + a < Y.nq * Y.nd * Y.nq * Y.gdim
        have a1 : k * Y.nd + m < Y.nq * Y.nd := by nlinarith
        have a2 : (k * Y.nd + m) * Y.nq + q < Y.nq * Y.nd * Y.nq := by nlinarith
        nlinarith
  · intro a ha
    have hg := facetGrad_eq haff
    have hn := facetNormal_eq haff
    refine Eq.trans (sum_congr rfl (fun k hk => ?_))
      ((vTrac_total (dims Y.static) L.length (Y.kd Y.nq cell f).grad c ((Y.kd Y.nq cell f).nPhys q) q V ha).trans ?_)
    · exact congrArg (fun z => (dims Y.static).vTrac (Y.kd Y.nq cell f).grad c ((Y.kd Y.nq cell f).nPhys q) q
        k.1 k.2.1 k.2.2 a * z) (hVc k hk)
    · rw [show c 0 = t.mu i e 0 from R.mu, show c 1 = t.lam i e 0 from R.lam, ← hn]
      rw [show (Y.kd Y.nq cell f).grad = _ from hg.symm]
      unfold ContactPoint.trac
      simp only [hV]
      rfl

/-- The element matrix of a kernel applied to `w`, tested with `v`. -/
theorem kernel_tangent (hY : System.Valid Y) (law : Law) (p : KPair) (hp : p ∈ lawPairs law) {t : Tracked G}
    (h23 : law ≠ .frictionless → (Y.gdim = 2 ∨ Y.gdim = 3) ∧ UnitNormals Y t) {u : ℕ → ℝ} {i e : ℕ} {c : ℕ → ℝ}
    (consts : ℝ × ℝ)
    (R : RowHolds Y.static (t.setDu (Y.du u)) i e c) (hi : i < Y.numPairs) (he : e < Y.localFacets i)
    (hel : e < (Y.facets i).length)
    {L : List ℕ} (hL : Packing.Spec.IsLinkList (Y.pair t.cur i) e L)
    (hfirst : Packing.Spec.LinkedFirst (Y.pair t.cur i) e)
    (hone : ∀ q < Y.nq, OneLink (dims Y.static) L.length c q) (x v : ℕ → ℝ) :
    ∑ B ∈ range (L.length + 1), ∑ k ∈ range Y.nd, ∑ n ∈ range Y.gdim,
      blockApply (Y.gdim * Y.nd) L.length
        (p.matFn (Y.kd Y.nq (Y.facets i)[e].1 (Y.facets i)[e].2) c (constants consts) L.length
          (linkedPoints ((Y.pair t.cur i).row e)) 0)
        (coupledDofs Y.gdim Y.space.parent (Y.facets i)[e].1 L x) B (k * Y.gdim + n)
        * v (Y.gdim * Y.space.parent (coupledCell (Y.facets i)[e].1 L B) k + n)
      = ∑ q ∈ range Y.nq, if 0 ≤ Y.map t.cur i (e * Y.nq + q) then
        weightAt Y (Y.facets i)[e].1 (Y.facets i)[e].2 q
          * dFormAt p law (pointAt Y t i e (Y.facets i)[e].1 (Y.facets i)[e].2 q) consts.1 consts.2
          (jumpAt Y t.cur i e (Y.facets i)[e].1 (Y.facets i)[e].2 u q)
          (fun a b => gradAt Y (Y.facets i)[e].1 (Y.facets i)[e].2 u q a b
            + (pointAt Y t i e (Y.facets i)[e].1 (Y.facets i)[e].2 q).grad0 a b)
          (jumpAt Y t.cur i e (Y.facets i)[e].1 (Y.facets i)[e].2 x q)
          (gradAt Y (Y.facets i)[e].1 (Y.facets i)[e].2 x q)
          (jumpAt Y t.cur i e (Y.facets i)[e].1 (Y.facets i)[e].2 v q)
          (gradAt Y (Y.facets i)[e].1 (Y.facets i)[e].2 v q)
      else 0 := by
  have haff : AffineConst (Y.kd Y.nq (Y.facets i)[e].1 (Y.facets i)[e].2) := by
    intro ha q
    have := hY.affine ha (Y.facets i)[e].2 q
    show Y.inv (Y.geo.jac _ (Y.cphi (Y.off (Y.facets i)[e].2 + q))) = Y.inv (Y.geo.jac _ (Y.cphi (Y.off (Y.facets i)[e].2)))
      ∧ Y.det _ (Y.geo.jac _ (Y.cphi (Y.off (Y.facets i)[e].2 + q))) = Y.det _ (Y.geo.jac _ (Y.cphi (Y.off (Y.facets i)[e].2)))
    rw [this]
    exact ⟨rfl, rfl⟩
  have hat := fun q hq hl => row_at hY R he hel hL hfirst (q := q) hq hl
  have hdof := fun q hq hl v => dofs_at hY R he hel hL hfirst haff (q := q) hq hl v
  generalize hcell : (Y.facets i)[e].1 = cell at *
  generalize hf : (Y.facets i)[e].2 = f at *
  clear hcell hf
  obtain ⟨w, hw⟩ : ∃ w : ℕ → ℝ, w = constants consts := ⟨_, rfl⟩
  have hw0 : w 0 = consts.1 := by rw [hw]; rfl
  have hw1 : w 1 = consts.2 := by rw [hw]; rfl
  have hpts : linkedPoints ((Y.pair t.cur i).row e)
      = (List.range Y.nq).filter (fun q => decide (0 ≤ Y.map t.cur i (e * Y.nq + q))) := by
    unfold linkedPoints
    rw [row_length]
    refine List.filter_congr (fun q hq => ?_)
    rw [row_getD _ _ (List.mem_range.mp hq)]
    rfl
  have hpt : ∀ q ∈ linkedPoints ((Y.pair t.cur i).row e), q < Y.nq ∧ 0 ≤ Y.map t.cur i (e * Y.nq + q) := by
    intro q hq
    rw [hpts, List.mem_filter] at hq
    exact ⟨List.mem_range.mp hq.1, of_decide_eq_true hq.2⟩
  have hnp : ∀ q, (pointAt Y t i e cell f q).nPhys = (Y.kd Y.nq cell f).nPhys q := by
    intro q
    rw [← facetNormal_eq haff]; rfl
  rw [← hw]
  have key : ∀ J : ℕ → ℕ → ℕ → ℕ → ℕ → ℕ → ℕ → ℝ,
      BlockValues (Y.kd Y.nq cell f) L.length (linkedPoints ((Y.pair t.cur i).row e))
        (p.matFn (Y.kd Y.nq cell f) c w L.length (linkedPoints ((Y.pair t.cur i).row e)) 0) J →
      (∀ q < Y.nq, ∀ k k' i b j l, k < L.length → k' < L.length → k ≠ k' → i < Y.nd → b < Y.gdim →
        j < Y.nd → l < Y.gdim → J q (k + 1) i b (k' + 1) j l = 0) →
      (∀ q < Y.nq, 0 ≤ Y.map t.cur i (e * Y.nq + q) →
        comb (Y.kd Y.nq cell f) L.length (fun B i b => comb (Y.kd Y.nq cell f) L.length
          (fun B' j l => J q B i b B' j l) (coupledDofs Y.gdim Y.space.parent cell L x))
          (coupledDofs Y.gdim Y.space.parent cell L v)
        = (Y.kd Y.nq cell f).w0 q * dFormAt p law (pointAt Y t i e cell f q) (w 0) (w 1)
          (jumpAt Y t.cur i e cell f u q)
          (fun a b => gradAt Y cell f u q a b + (pointAt Y t i e cell f q).grad0 a b)
          (jumpAt Y t.cur i e cell f x q) (gradAt Y cell f x q)
          (jumpAt Y t.cur i e cell f v q) (gradAt Y cell f v q)) →
      ∑ B ∈ range (L.length + 1), ∑ k ∈ range Y.nd, ∑ n ∈ range Y.gdim,
        blockApply (Y.gdim * Y.nd) L.length
          (p.matFn (Y.kd Y.nq cell f) c w L.length (linkedPoints ((Y.pair t.cur i).row e)) 0)
          (coupledDofs Y.gdim Y.space.parent cell L x) B (k * Y.gdim + n)
          * v (Y.gdim * Y.space.parent (coupledCell cell L B) k + n)
        = ∑ q ∈ range Y.nq, if 0 ≤ Y.map t.cur i (e * Y.nq + q) then
          facetWeight (Y.kd Y.nq cell f) q * dFormAt p law (pointAt Y t i e cell f q) (w 0) (w 1)
          (jumpAt Y t.cur i e cell f u q)
          (fun a b => gradAt Y cell f u q a b + (pointAt Y t i e cell f q).grad0 a b)
          (jumpAt Y t.cur i e cell f x q) (gradAt Y cell f x q)
          (jumpAt Y t.cur i e cell f v q) (gradAt Y cell f v q) else 0 := by
    intro J hB hcr hJ
    have h1 := bilin_eq (Y.kd Y.nq cell f) L.length _ _ J hB (coupledDofs Y.gdim Y.space.parent cell L x)
      (coupledDofs Y.gdim Y.space.parent cell L v)
      (fun q hq k k' i b j l h1 h2 h3 h4 h5 h6 h7 => hcr q (hpt q hq).1 k k' i b j l h1 h2 h3 h4 h5 h6 h7)
    have h2 : ∀ q ∈ linkedPoints ((Y.pair t.cur i).row e), _ = _ := fun q hq => hJ q (hpt q hq).1 (hpt q hq).2
    rw [List.map_congr_left h2] at h1
    rw [← facetWeight_eq haff, hpts, list_filter_sum Y.nq (fun q => 0 ≤ Y.map t.cur i (e * Y.nq + q)), ← hpts] at h1
    rw [← h1]
    refine sum_congr rfl (fun B _ => sum_congr rfl (fun k _ => sum_congr rfl (fun n hn => ?_)))
    rw [Nat.mul_comm Y.gdim Y.nd]
    exact congrArg (fun z => blockApply (Y.nd * Y.gdim) L.length
      (p.matFn (Y.kd Y.nq cell f) c w L.length (linkedPoints ((Y.pair t.cur i).row e)) 0)
      (coupledDofs Y.gdim Y.space.parent cell L x) B (k * Y.gdim + n) * z)
      (coupledDofs_eq Y.space.parent cell L v B k (mem_range.mp hn)).symm
  rw [← hw0, ← hw1]
  have hun : law ≠ .frictionless → ∀ q ∈ linkedPoints ((Y.pair t.cur i).row e),
      (Y.kd Y.nq cell f).dims.UnitNormal c q := by
    intro hl q hq
    obtain ⟨hq1, hq2⟩ := hpt q hq
    have h := (h23 hl).2 i hi e he q hq1 hq2
    unfold Dims.UnitNormal
    refine Eq.trans (sum_congr rfl (fun a ha => ?_)) h
    show (-c ((dims Y.static).oNormal + q * Y.gdim + a)) ^ 2 = _
    rw [Nat.add_assoc, R.normal (q * Y.gdim + a) (sA_le Y.static hq1 (mem_range.mp ha))]
    rw [contactNormalAt_eq]
    rfl
  cases p with
  | normal =>
    refine key (unbJ (Y.kd Y.nq cell f) c w) (unbiasedJac_blocks _ _ _ _ _) ?_ ?_
    · intro q hq k k' i b j l h1 h2 h3 h4 h5 h6 h7
      exact unbJ_cross (D := Y.kd Y.nq cell f) rfl (hone q hq) h1 h2 h3 h4 h5 h6 h7
    · intro q hq hl
      exact unbJ_point (K := Y.kd Y.nq cell f) (hat q hq hl) rfl (hnp q) w (hdof q hq hl x) (hdof q hq hl v)
  | tresca =>
    have hlaw : law = .tresca := by cases law <;> simp [lawPairs] at hp ⊢
    subst hlaw
    have hg := (h23 (by simp)).1
    refine key (fun q B i b B' j l => friJ (Y.kd Y.nq cell f) c w q (yT (Y.kd Y.nq cell f) c w q B' j l) B i b B' j l)
      (trescaJac_blocks (Y.kd Y.nq cell f) _ _ _ _ rfl (by show Y.gdim ≤ 3; omega) (hun (by simp))) ?_ ?_
    · intro q hq k k' i b j l h1 h2 h3 h4 h5 h6 h7
      exact friJ_cross (D := Y.kd Y.nq cell f) rfl (hone q hq) _ h1 h2 h3 h4 h5 h6 h7 (fun h => yT_zero h)
    · intro q hq hl
      exact friJ_point (K := Y.kd Y.nq cell f) (hat q hq hl) rfl w (hdof q hq hl x) (hdof q hq hl v) .tresca _
        (fun m hm => yT_point (K := Y.kd Y.nq cell f) (hat q hq hl) rfl (hnp q) w hg (hdof q hq hl x) hm)
  | coulomb =>
    have hlaw : law = .coulomb := by cases law <;> simp [lawPairs] at hp ⊢
    subst hlaw
    have hg := (h23 (by simp)).1
    refine key (fun q B i b B' j l => friJ (Y.kd Y.nq cell f) c w q (yC (Y.kd Y.nq cell f) c w q B' j l) B i b B' j l)
      (coulombJac_blocks (Y.kd Y.nq cell f) _ _ _ _ rfl (by show Y.gdim ≤ 3; omega) (hun (by simp))) ?_ ?_
    · intro q hq k k' i b j l h1 h2 h3 h4 h5 h6 h7
      exact friJ_cross (D := Y.kd Y.nq cell f) rfl (hone q hq) _ h1 h2 h3 h4 h5 h6 h7 (fun h => yC_zero h)
    · intro q hq hl
      exact friJ_point (K := Y.kd Y.nq cell f) (hat q hq hl) rfl w (hdof q hq hl x) (hdof q hq hl v) .coulomb _
        (fun m hm => yC_point (K := Y.kd Y.nq cell f) (hat q hq hl) rfl (hnp q) w hg (hdof q hq hl x) hm)

end

end Verif.ContactProblem
