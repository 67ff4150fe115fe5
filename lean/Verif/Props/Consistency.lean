import Verif.Spec.ContactLaw
import Verif.Props.ContactKernels
import Verif.Props.RigidKernels
import Verif.Props.Scalars

/-! Properties C97 and C98: the Nitsche terms express the physical contact and friction laws. -/

namespace Verif.Kernels

open Finset Verif.Spec

noncomputable section

/-! ### the projections against the laws -/

/-- C97: with `R_plus` and any positive ratio `r = h/γ`, the equation the contact kernels enforce weakly,
`-r σ_n = R_plus(u_n - g - r σ_n)`, is Signorini's law. -/
theorem C97_signorini (r un g sn : ℝ) (hr : 0 < r) :
    Scalars.rPlus (un - g - r * sn) = -(r * sn) ↔ Signorini un g sn := by
  unfold Scalars.rPlus Signorini
  constructor
  · intro h
    rcases le_or_gt 0 (un - g - r * sn) with hp | hp
    · rw [abs_of_nonneg hp] at h
      have e : un = g := by linarith
      subst e
      have : r * sn ≤ 0 := by linarith
      refine ⟨le_refl _, ?_, by ring⟩
      by_contra hs
      have := mul_pos hr (not_le.mp hs)
      linarith
    · rw [abs_of_neg hp] at h
      have : r * sn = 0 := by linarith
      have hs : sn = 0 := by
        rcases mul_eq_zero.mp this with h | h
        · exact absurd h hr.ne'
        · exact h
      subst hs
      refine ⟨by linarith, le_refl _, by ring⟩
  · rintro ⟨h1, h2, h3⟩
    rcases mul_eq_zero.mp h3 with h | h
    · have e : un - g - r * sn = -(r * sn) := by linarith
      have : 0 ≤ -(r * sn) := by
        have := mul_nonneg hr.le (neg_nonneg.mpr h2)
        linarith
      rw [e, abs_of_nonneg this]; ring
    · subst h
      rw [mul_zero, sub_zero, abs_of_nonpos (by linarith)]; ring

/-- C97: the same for `R_minus`, as used for rigid surfaces: `r σ_n = R_minus(r σ_n + g - u_n)`. -/
theorem C97_signorini_minus (r un g sn : ℝ) (hr : 0 < r) :
    Scalars.rMinus (r * sn + (g - un)) = r * sn ↔ Signorini un g sn := by
  rw [← C97_signorini r un g sn hr]
  unfold Scalars.rPlus Scalars.rMinus
  rw [show r * sn + (g - un) = -(un - g - r * sn) by ring, abs_neg]
  constructor <;> intro h <;> linarith

theorem size_nonneg (d : ℕ) (x : ℕ → ℝ) : 0 ≤ size d x := Real.sqrt_nonneg _

theorem size_congr {d : ℕ} {x y : ℕ → ℝ} (h : ∀ a < d, x a = y a) : size d x = size d y := by
  unfold Spec.size
  rw [sum_congr rfl (fun a ha => by rw [h a (mem_range.mp ha)])]

theorem size_smul (d : ℕ) (c : ℝ) (x : ℕ → ℝ) : size d (fun a => c * x a) = |c| * size d x := by
  unfold Spec.size
  rw [sum_congr rfl (fun a _ => mul_pow c (x a) 2), ← mul_sum, Real.sqrt_mul (sq_nonneg c), Real.sqrt_sq_eq_abs]

theorem size_pos {d : ℕ} {x : ℕ → ℝ} (h : ∃ a < d, x a ≠ 0) : 0 < size d x := by
  obtain ⟨a, ha, hx⟩ := h
  refine Real.sqrt_pos.mpr (lt_of_lt_of_le (pow_pos (abs_pos.mpr hx) 2) ?_)
  rw [sq_abs]
  exact single_le_sum (f := fun a => x a ^ 2) (fun _ _ => sq_nonneg _) (mem_range.mpr ha)

/-- C98: for any positive ratio `r = h/γ` and non-negative bound `α`, the equation the friction kernels
enforce weakly, `-r σ_t = projection of (x - r σ_t) onto the ball of radius r α` for the slip `x`, is the
friction law. -/
theorem C98_friction_law (d : ℕ) (r α : ℝ) (hr : 0 < r) (hα : 0 ≤ α) (s x : ℕ → ℝ) :
    (∀ a < d, ball d (fun a => x a - r * s a) (r * α) a = -(r * s a)) ↔ FrictionLaw d α s x := by
  set y : ℕ → ℝ := fun a => x a - r * s a with hy
  have hball : ∀ a, ball d y (r * α) a = if size d y ≤ r * α then y a else r * α * y a / size d y := fun _ => rfl
  constructor
  · intro h
    simp only [hball] at h
    by_cases hle : size d y ≤ r * α
    · simp only [if_pos hle] at h
      have hx : ∀ a < d, x a = 0 := fun a ha => by
        have := h a ha; simp only [hy] at this; linarith
      refine ⟨?_, fun ⟨a, ha, hne⟩ => absurd (hx a ha) hne⟩
      have e : size d y = r * size d s := by
        rw [size_congr (y := fun a => -r * s a) (fun a ha => by simp only [hy]; rw [hx a ha]; ring), size_smul,
          abs_neg, abs_of_pos hr]
      rw [e] at hle
      exact le_of_mul_le_mul_left hle hr
    · simp only [if_neg hle] at h
      have hL : 0 < size d y := lt_of_le_of_lt (mul_nonneg hr.le hα) (not_le.mp hle)
      have hs : ∀ a < d, s a = -α / size d y * y a := fun a ha => by
        have := h a ha
        have h2 : r * s a = r * (-α / size d y * y a) := by
          rw [show r * (-α / size d y * y a) = -(r * α * y a / size d y) by ring, this]; ring
        exact mul_left_cancel₀ hr.ne' h2
      have hx : ∀ a < d, x a = (1 - r * α / size d y) * y a := fun a ha => by
        have : x a = y a + r * s a := by simp only [hy]; ring
        rw [this, hs a ha]; ring
      have h1 : r * α / size d y < 1 := (div_lt_one hL).mpr (not_le.mp hle)
      have hlx : size d x = (1 - r * α / size d y) * size d y := by
        rw [size_congr hx, size_smul, abs_of_pos (by linarith)]
      constructor
      · rw [size_congr hs, size_smul, abs_div, abs_neg, abs_of_nonneg hα, abs_of_pos hL,
          div_mul_cancel₀ _ hL.ne']
      · intro _ a ha
        rw [hs a ha, hx a ha, hlx]
        have : (1 - r * α / size d y) ≠ 0 := by linarith
        rw [mul_div_mul_left _ _ this]; ring
  · rintro ⟨h1, h2⟩ a ha
    rw [hball]
    by_cases hx : ∃ a < d, x a ≠ 0
    · have hs := h2 hx
      have hL := size_pos hx
      have hy' : ∀ a < d, y a = (1 + r * α / size d x) * x a := fun a ha => by
        simp only [hy]; rw [hs a ha]; ring
      have hk : 0 ≤ r * α / size d x := div_nonneg (mul_nonneg hr.le hα) hL.le
      have hly : size d y = size d x + r * α := by
        rw [size_congr hy', size_smul, abs_of_pos (by linarith), add_mul, one_mul, div_mul_cancel₀ _ hL.ne']
      rw [if_neg (by rw [hly]; linarith), hy' a ha, hs a ha, hly]
      have : size d x + r * α ≠ 0 := by
        have := mul_nonneg hr.le hα
        linarith
      field_simp
    · push Not at hx
      have hy' : ∀ a < d, y a = -r * s a := fun a ha => by simp only [hy]; rw [hx a ha]; ring
      rw [if_pos, hy' a ha]
      · ring
      · rw [size_congr hy', size_smul, abs_neg, abs_of_pos hr]
        exact mul_le_mul_of_nonneg_left h1 hr.le

/-- Both laws are met by non-trivial data: a closed gap under pressure, and sliding with friction. -/
example : Signorini 2 2 (-3) ∧ FrictionLaw 2 5 (fun a => if a = 0 then -3 else -4)
    (fun a => if a = 0 then 6 else 8) := by
  have h5 : Real.sqrt 25 = 5 := by rw [show (25 : ℝ) = 5 ^ 2 by norm_num]; exact Real.sqrt_sq (by norm_num)
  have h10 : Real.sqrt 100 = 10 := by
    rw [show (100 : ℝ) = 10 ^ 2 by norm_num]; exact Real.sqrt_sq (by norm_num)
  refine ⟨⟨by norm_num, by norm_num, by norm_num⟩, ?_, fun _ a ha => ?_⟩
  · norm_num [Spec.size, sum_range_succ, h5]
  · interval_cases a <;> norm_num [Spec.size, sum_range_succ, h10]

/-! ### the kernels at a solution -/

theorem max_signorini {r un g sn : ℝ} (hr : 0 < r) (h : Signorini un g sn) :
    max 0 (un - g - r * sn) = -(r * sn) := by
  have := (C97_signorini r un g sn hr).mpr h
  unfold Scalars.rPlus at this
  rw [← this]
  rcases le_or_gt 0 (un - g - r * sn) with hp | hp
  · rw [abs_of_nonneg hp, max_eq_right hp]; ring
  · rw [abs_of_neg hp, max_eq_left hp.le]; ring

theorem min_signorini {r un g sn : ℝ} (hr : 0 < r) (h : Signorini un g sn) :
    min 0 (r * sn + (g - un)) = r * sn := by
  have := max_signorini hr h
  rw [show r * sn + (g - un) = -(un - g - r * sn) by ring]
  have e : min 0 (-(un - g - r * sn)) = -max 0 (un - g - r * sn) := by
    rcases le_total 0 (un - g - r * sn) with hp | hp
    · rw [max_eq_right hp, min_eq_right (by linarith)]
    · rw [max_eq_left hp, min_eq_left (by linarith)]; ring
  rw [e, this]; ring

/-- C97: where the displacement meets Signorini's conditions at every quadrature point, the frictionless
kernel adds half the virtual work of the normal traction on the jump of the test function,
`-1/2 ∫ σ_n(u) v_n`, whatever theta and the penalty gamma are. -/
theorem C97_consistent (D : KD) (haff : AffineConst D) (links : ℕ) (qs : List ℕ) (w c : ℕ → ℝ)
    (hbs : D.bs = D.gdim) (hγ : 0 < w 0) (hh : 0 < c 3)
    (hlaw : ∀ q ∈ qs, Signorini (D.dims.dotN c q (D.dims.jump c q)) (D.dims.gapN c q)
      (D.dims.dotN c q (D.dims.trac c (facetNormal D q) q)))
    (b : Arr (ℕ × ℕ)) (B i n : ℕ) (hB : B ≤ links) (hi : i < D.nd) (hn : n < D.bs) :
    unbiasedRhs D c w links qs b (B, i * D.bs + n) = b (B, i * D.bs + n)
      + (qs.map (fun q => facetWeight D q *
        (-(1 / 2) * (D.dims.dotN c q (D.dims.trac c (facetNormal D q) q)
          * D.dims.dotN c q (D.dims.vJump (facetPhi D) c q B i n))))).sum := by
  rw [C78_frictionless D haff links qs w c hbs b B i n hB hi hn]
  refine congrArg (_ + ·) (list_sum_congr _ _ _ (fun q hq => congrArg _ ?_))
  have hr : 0 < c 3 / w 0 := div_pos hh hγ
  rw [Dims.normalForm, Dims.pressure, max_signorini hr (hlaw q hq)]
  have h1 := hγ.ne'
  have h2 := hh.ne'
  field_simp
  ring

/-- C97 for rigid surfaces: the kernel adds `-∫ σ_n(u) v_n`. -/
theorem C97_rigid (D : KD) (haff : AffineConst D) (const : Bool) (junk c w : ℕ → ℝ)
    (hbs : D.bs = D.gdim) (hconst : const = false ∨ D.affine = true) (hγ : 0 < w 0) (hh : 0 < c 2)
    (hlaw : ∀ q < D.nq, Signorini (D.rdims.dotN const c w q (fun a => c (D.rdims.oU + q * D.rdims.g + a)))
      (D.rdims.dotN const c w q (fun a => c (D.rdims.oGap + q * D.rdims.g + a)))
      (D.rdims.dotN const c w q (D.rdims.trac c (facetNormal D q) q)))
    (b : Arr (ℕ × ℕ)) (i n : ℕ) (hi : i < D.nd) (hn : n < D.bs) :
    rigidRhs D const junk c w b (0, i * D.bs + n) = b (0, i * D.bs + n)
      + ∑ q ∈ range D.nq, |D.det (D.qStart + q)| * D.weights q *
        (-(D.rdims.dotN const c w q (D.rdims.trac c (facetNormal D q) q)
          * D.rdims.dotN const c w q (fun a => if a = n then facetPhi D q i else 0))) := by
  rw [C78_rigid_partial D haff const junk c w hbs hconst b i n hi hn]
  refine congrArg (_ + ·) (sum_congr rfl (fun q hq => congrArg _ ?_))
  have hr : 0 < c 2 / w 0 := div_pos hh hγ
  have := min_signorini hr (hlaw q (mem_range.mp hq))
  simp only [RigidDims.form, RigidDims.pressure, this]
  have h1 := hγ.ne'
  have h2 := hh.ne'
  field_simp
  ring

theorem friction_point (D : KD) (phi : ℕ → ℕ → ℝ) (dphi : ℕ → ℕ → ℕ → ℝ) (w c np p : ℕ → ℝ) (q B i n : ℕ)
    (hγ : 0 < w 0) (hh : 0 < c 3)
    (hp : ∀ a < D.dims.g, p a = -(c 3 / w 0 * D.dims.tang c q (D.dims.trac c np q) a)) :
    D.dims.frictionForm phi dphi c w np p q B i n =
      -(1 / 2) * ∑ a ∈ range D.dims.g, D.dims.tang c q (D.dims.trac c np q) a
        * D.dims.tang c q (D.dims.vJump phi c q B i n) a := by
  have h1 := hγ.ne'
  have h2 := hh.ne'
  rw [Dims.frictionForm]
  simp only [mul_sum, ← sum_sub_distrib]
  refine sum_congr rfl (fun a ha => ?_)
  rw [hp a (mem_range.mp ha)]
  field_simp
  ring

/-- C98: where the Tresca friction law with the packed bound holds at every quadrature point, the Tresca
kernel adds half the virtual work of the tangential traction, `-1/2 ∫ σ_t(u) · v_t`. -/
theorem C98_tresca (D : KD) (haff : AffineConst D) (links : ℕ) (qs : List ℕ) (w c : ℕ → ℝ)
    (hbs : D.bs = D.gdim) (h23 : D.gdim = 2 ∨ D.gdim = 3) (hγ : 0 < w 0) (hh : 0 < c 3) (hs : 0 ≤ c 2)
    (hlaw : ∀ q ∈ qs, FrictionLaw D.gdim (c 2) (D.dims.tang c q (D.dims.trac c (facetNormal D q) q))
      (D.dims.tang c q (D.dims.jump c q)))
    (b : Arr (ℕ × ℕ)) (B i n : ℕ) (hB : B ≤ links) (hi : i < D.nd) (hn : n < D.bs) :
    trescaRhs D c w links qs b (B, i * D.bs + n) = b (B, i * D.bs + n)
      + (qs.map (fun q => facetWeight D q *
        (-(1 / 2) * ∑ a ∈ range D.gdim, D.dims.tang c q (D.dims.trac c (facetNormal D q) q) a
          * D.dims.tang c q (D.dims.vJump (facetPhi D) c q B i n) a))).sum := by
  rw [C78_tresca D haff links qs w c hbs h23 b B i n hB hi hn]
  refine congrArg (_ + ·) (list_sum_congr _ _ _ (fun q hq => congrArg _ ?_))
  have hr : 0 < c 3 / w 0 := div_pos hh hγ
  exact friction_point D _ _ w c _ _ q B i n hγ hh
    ((C98_friction_law D.gdim (c 3 / w 0) (c 2) hr hs _ _).mpr (hlaw q hq))

/-- C98: where Signorini's conditions and the Coulomb law with bound `μ |σ_n|` hold at every quadrature
point, the Coulomb kernel adds half the virtual work of the tangential traction.  The slip is the change of
the relative tangential position: the tangential jump, corrected by the remaining gap along the normal of
the previous step. -/
theorem C98_coulomb (D : KD) (haff : AffineConst D) (links : ℕ) (qs : List ℕ) (w c : ℕ → ℝ)
    (hbs : D.bs = D.gdim) (h23 : D.gdim = 2 ∨ D.gdim = 3) (hγ : 0 < w 0) (hh : 0 < c 3) (hs : 0 ≤ c 2)
    (hsig : ∀ q ∈ qs, Signorini (D.dims.dotN c q (D.dims.jump c q)) (D.dims.gapN c q)
      (D.dims.dotN c q (D.dims.trac c (facetNormal D q) q)))
    (hlaw : ∀ q ∈ qs, FrictionLaw D.gdim (c 2 * |D.dims.dotN c q (D.dims.trac c (facetNormal D q) q)|)
      (D.dims.tang c q (D.dims.trac c (facetNormal D q) q))
      (fun a => D.dims.tang c q (D.dims.jump c q) a
        - (D.dims.gapN c q - D.dims.dotN c q (D.dims.jump c q)) * D.dims.tang c q (D.dims.oldNormal c q) a))
    (b : Arr (ℕ × ℕ)) (B i n : ℕ) (hB : B ≤ links) (hi : i < D.nd) (hn : n < D.bs) :
    coulombRhs D c w links qs b (B, i * D.bs + n) = b (B, i * D.bs + n)
      + (qs.map (fun q => facetWeight D q *
        (-(1 / 2) * ∑ a ∈ range D.gdim, D.dims.tang c q (D.dims.trac c (facetNormal D q) q) a
          * D.dims.tang c q (D.dims.vJump (facetPhi D) c q B i n) a))).sum := by
  rw [C78_coulomb D haff links qs w c hbs h23 b B i n hB hi hn]
  refine congrArg (_ + ·) (list_sum_congr _ _ _ (fun q hq => congrArg _ ?_))
  have hr : 0 < c 3 / w 0 := div_pos hh hγ
  refine friction_point D _ _ w c _ _ q B i n hγ hh (fun a ha => ?_)
  have h := (C98_friction_law D.gdim (c 3 / w 0) _ hr (mul_nonneg hs (abs_nonneg _)) _ _).mpr (hlaw q hq) a ha
  rw [← h, Dims.pressure, max_signorini hr (hsig q hq), abs_of_nonpos (hsig q hq).2.1]
  congr 1
  · funext a
    simp only [Dims.slipC, Dims.slip]; ring
  · ring

theorem split_tang (D : KD) (c : ℕ → ℝ) (q : ℕ) (hu : D.dims.UnitNormal c q) (x y : ℕ → ℝ) :
    D.dims.dotN c q x * D.dims.dotN c q y
      + ∑ a ∈ range D.dims.g, D.dims.tang c q x a * D.dims.tang c q y a = ∑ a ∈ range D.dims.g, x a * y a := by
  have e : ∀ a, D.dims.tang c q x a * D.dims.tang c q y a = x a * y a
      - D.dims.dotN c q x * (y a * D.dims.normal c q a) - D.dims.dotN c q y * (x a * D.dims.normal c q a)
      + D.dims.dotN c q x * D.dims.dotN c q y * D.dims.normal c q a ^ 2 := fun a => by
    simp only [Dims.tang]; ring
  simp only [e, sum_add_distrib, sum_sub_distrib, ← mul_sum]
  rw [show ∑ a ∈ range D.dims.g, D.dims.normal c q a ^ 2 = 1 from hu,
    show ∑ a ∈ range D.dims.g, y a * D.dims.normal c q a = D.dims.dotN c q y from rfl,
    show ∑ a ∈ range D.dims.g, x a * D.dims.normal c q a = D.dims.dotN c q x from rfl]
  ring

/-- C98: the frictionless kernel followed by the Coulomb kernel, as a contact problem with Coulomb friction
runs them: at a displacement that meets both laws, with unit contact normals, they add half the virtual
work of the whole traction on the jump, `-1/2 ∫ σ(u)n · [v]`. -/
theorem C98_coulomb_total (D : KD) (haff : AffineConst D) (links : ℕ) (qs : List ℕ) (w c : ℕ → ℝ)
    (hbs : D.bs = D.gdim) (h23 : D.gdim = 2 ∨ D.gdim = 3) (hγ : 0 < w 0) (hh : 0 < c 3) (hs : 0 ≤ c 2)
    (hun : ∀ q ∈ qs, D.dims.UnitNormal c q)
    (hsig : ∀ q ∈ qs, Signorini (D.dims.dotN c q (D.dims.jump c q)) (D.dims.gapN c q)
      (D.dims.dotN c q (D.dims.trac c (facetNormal D q) q)))
    (hlaw : ∀ q ∈ qs, FrictionLaw D.gdim (c 2 * |D.dims.dotN c q (D.dims.trac c (facetNormal D q) q)|)
      (D.dims.tang c q (D.dims.trac c (facetNormal D q) q))
      (fun a => D.dims.tang c q (D.dims.jump c q) a
        - (D.dims.gapN c q - D.dims.dotN c q (D.dims.jump c q)) * D.dims.tang c q (D.dims.oldNormal c q) a))
    (b : Arr (ℕ × ℕ)) (B i n : ℕ) (hB : B ≤ links) (hi : i < D.nd) (hn : n < D.bs) :
    coulombRhs D c w links qs (unbiasedRhs D c w links qs b) (B, i * D.bs + n) = b (B, i * D.bs + n)
      + (qs.map (fun q => facetWeight D q *
        (-(1 / 2) * ∑ a ∈ range D.gdim, D.dims.trac c (facetNormal D q) q a
          * D.dims.vJump (facetPhi D) c q B i n a))).sum := by
  rw [C98_coulomb D haff links qs w c hbs h23 hγ hh hs hsig hlaw _ B i n hB hi hn,
    C97_consistent D haff links qs w c hbs hγ hh hsig b B i n hB hi hn, add_assoc, ← List.sum_map_add]
  refine congrArg (_ + ·) (list_sum_congr _ _ _ (fun q hq => ?_))
  rw [← mul_add, ← mul_add]
  exact congrArg (fun x => facetWeight D q * (-(1 / 2) * x)) (split_tang D c q (hun q hq) _ _)

/-- C98: the same for Tresca friction. -/
theorem C98_tresca_total (D : KD) (haff : AffineConst D) (links : ℕ) (qs : List ℕ) (w c : ℕ → ℝ)
    (hbs : D.bs = D.gdim) (h23 : D.gdim = 2 ∨ D.gdim = 3) (hγ : 0 < w 0) (hh : 0 < c 3) (hs : 0 ≤ c 2)
    (hun : ∀ q ∈ qs, D.dims.UnitNormal c q)
    (hsig : ∀ q ∈ qs, Signorini (D.dims.dotN c q (D.dims.jump c q)) (D.dims.gapN c q)
      (D.dims.dotN c q (D.dims.trac c (facetNormal D q) q)))
    (hlaw : ∀ q ∈ qs, FrictionLaw D.gdim (c 2) (D.dims.tang c q (D.dims.trac c (facetNormal D q) q))
      (D.dims.tang c q (D.dims.jump c q)))
    (b : Arr (ℕ × ℕ)) (B i n : ℕ) (hB : B ≤ links) (hi : i < D.nd) (hn : n < D.bs) :
    trescaRhs D c w links qs (unbiasedRhs D c w links qs b) (B, i * D.bs + n) = b (B, i * D.bs + n)
      + (qs.map (fun q => facetWeight D q *
        (-(1 / 2) * ∑ a ∈ range D.gdim, D.dims.trac c (facetNormal D q) q a
          * D.dims.vJump (facetPhi D) c q B i n a))).sum := by
  rw [C98_tresca D haff links qs w c hbs h23 hγ hh hs hlaw _ B i n hB hi hn,
    C97_consistent D haff links qs w c hbs hγ hh hsig b B i n hB hi hn, add_assoc, ← List.sum_map_add]
  refine congrArg (_ + ·) (list_sum_congr _ _ _ (fun q hq => ?_))
  rw [← mul_add, ← mul_add]
  exact congrArg (fun x => facetWeight D q * (-(1 / 2) * x)) (split_tang D c q (hun q hq) _ _)

/-! ### the laws hold for a concrete facet under pressure, sliding -/

/-- The example facet pressed with `σ_n = -3` and sliding by 2 against the tangential traction `τ`; laid out
as `exRow`. -/
def exLaw (τ : ℝ) (m : ℕ) : ℝ :=
  [1, 1, 1, 1, 0, 0, 0, -1, 1, 1, -τ, -1, 0, -τ, 0, -1, -τ - 2, -1, 0, -1].getD m 0

theorem exLaw_normal (τ : ℝ) (a : ℕ) (ha : a < 2) :
    exD.dims.normal (exLaw τ) 0 a = if a = 1 then 1 else 0 := by
  interval_cases a <;> simp [Dims.normal, KD.dims, exD, Dims.oNormal, exLaw]

theorem exLaw_dotN (τ : ℝ) (x : ℕ → ℝ) : exD.dims.dotN (exLaw τ) 0 x = x 1 := by
  have hg : exD.dims.g = 2 := rfl
  simp only [Dims.dotN, hg, sum_range_succ, sum_range_zero, exLaw_normal τ 0 (by omega),
    exLaw_normal τ 1 (by omega)]
  simp

theorem exLaw_trac (τ : ℝ) (a : ℕ) (ha : a < 2) :
    exD.dims.trac (exLaw τ) (facetNormal exD 0) 0 a = if a = 1 then -3 else -τ := by
  rw [facetNormal_eq exD_aff, Dims.trac, Elasticity.traction_eq _ _ _ _ _ _ (show a < exD.dims.g from ha)]
  have hg : exD.dims.g = 2 := rfl
  have ho : exD.dims.oGrad = 12 := rfl
  simp only [hg, ho, sum_range_succ, sum_range_zero, ex_nPhys 0 (by omega), ex_nPhys 1 (by omega)]
  interval_cases a <;> simp [exLaw, ex_nPhys] <;> norm_num

theorem exLaw_jump (τ : ℝ) (a : ℕ) (ha : a < 2) : exD.dims.jump (exLaw τ) 0 a = if a = 1 then 0 else 2 := by
  have hg : exD.dims.g = 2 := rfl
  have h1 : exD.dims.oU = 10 := rfl
  have h2 : exD.dims.oOpp = 16 := rfl
  simp only [Dims.jump, hg, h1, h2]
  interval_cases a <;> simp [exLaw]

theorem exLaw_gap (τ : ℝ) : exD.dims.gapN (exLaw τ) 0 = 0 := by
  rw [Dims.gapN, exLaw_dotN]; simp [Dims.oGap, KD.dims, exD, exLaw]

theorem exLaw_signorini (τ : ℝ) : Signorini (exD.dims.dotN (exLaw τ) 0 (exD.dims.jump (exLaw τ) 0))
    (exD.dims.gapN (exLaw τ) 0) (exD.dims.dotN (exLaw τ) 0 (exD.dims.trac (exLaw τ) (facetNormal exD 0) 0)) := by
  rw [exLaw_dotN, exLaw_dotN, exLaw_gap, exLaw_jump τ 1 (by omega), exLaw_trac τ 1 (by omega)]
  norm_num [Signorini]

theorem exLaw_friction (τ : ℝ) (hτ : 0 ≤ τ) (x : ℕ → ℝ) (h0 : x 0 = 2) (h1 : x 1 = 0) :
    FrictionLaw 2 τ (exD.dims.tang (exLaw τ) 0 (exD.dims.trac (exLaw τ) (facetNormal exD 0) 0)) x := by
  have t0 : exD.dims.tang (exLaw τ) 0 (exD.dims.trac (exLaw τ) (facetNormal exD 0) 0) 0 = -τ := by
    rw [Dims.tang, exLaw_trac τ 0 (by omega), exLaw_normal τ 0 (by omega)]; simp
  have t1 : exD.dims.tang (exLaw τ) 0 (exD.dims.trac (exLaw τ) (facetNormal exD 0) 0) 1 = 0 := by
    rw [Dims.tang, exLaw_dotN, exLaw_trac τ 1 (by omega), exLaw_normal τ 1 (by omega)]; simp
  have e2 : Real.sqrt (2 ^ 2) = 2 := Real.sqrt_sq (by norm_num)
  constructor
  · simp only [Spec.size, sum_range_succ, sum_range_zero, t0, t1]
    rw [show (0 : ℝ) + (-τ) ^ 2 + 0 ^ 2 = τ ^ 2 by ring, Real.sqrt_sq hτ]
  · intro _ a ha
    simp only [Spec.size, sum_range_succ, sum_range_zero, h0, h1]
    rw [show (0 : ℝ) + 2 ^ 2 + 0 ^ 2 = 2 ^ 2 by ring, e2]
    interval_cases a
    · rw [t0, h0]; ring
    · rw [t1, h1]; ring

/-- The hypotheses of `C97_consistent`, `C98_tresca`, `C98_tresca_total` hold for the pressed, sliding facet
with the packed bound 1. -/
example : (0 : ℝ) < exw 0 ∧ 0 < exLaw 1 3 ∧ 0 ≤ exLaw 1 2 ∧ exD.dims.UnitNormal (exLaw 1) 0
    ∧ Signorini (exD.dims.dotN (exLaw 1) 0 (exD.dims.jump (exLaw 1) 0)) (exD.dims.gapN (exLaw 1) 0)
      (exD.dims.dotN (exLaw 1) 0 (exD.dims.trac (exLaw 1) (facetNormal exD 0) 0))
    ∧ FrictionLaw exD.gdim (exLaw 1 2)
      (exD.dims.tang (exLaw 1) 0 (exD.dims.trac (exLaw 1) (facetNormal exD 0) 0))
      (exD.dims.tang (exLaw 1) 0 (exD.dims.jump (exLaw 1) 0)) := by
  have hg : exD.dims.g = 2 := rfl
  refine ⟨by simp [exw], by simp [exLaw], by simp [exLaw], ?_, exLaw_signorini 1, ?_⟩
  · simp only [Dims.UnitNormal, hg, sum_range_succ, sum_range_zero, exLaw_normal 1 0 (by omega),
      exLaw_normal 1 1 (by omega)]
    norm_num
  · rw [show exLaw 1 2 = 1 by simp [exLaw]]
    refine exLaw_friction 1 (by norm_num) _ ?_ ?_ <;>
      simp [Dims.tang, exLaw_dotN, exLaw_jump, exLaw_normal]

/-- The hypotheses of `C98_coulomb` and `C98_coulomb_total` hold for the facet with friction coefficient 1
and tangential traction 3. -/
example : FrictionLaw exD.gdim
    (exLaw 3 2 * |exD.dims.dotN (exLaw 3) 0 (exD.dims.trac (exLaw 3) (facetNormal exD 0) 0)|)
    (exD.dims.tang (exLaw 3) 0 (exD.dims.trac (exLaw 3) (facetNormal exD 0) 0))
    (fun a => exD.dims.tang (exLaw 3) 0 (exD.dims.jump (exLaw 3) 0) a
      - (exD.dims.gapN (exLaw 3) 0 - exD.dims.dotN (exLaw 3) 0 (exD.dims.jump (exLaw 3) 0))
        * exD.dims.tang (exLaw 3) 0 (exD.dims.oldNormal (exLaw 3) 0) a) := by
  rw [show exLaw 3 2 * |exD.dims.dotN (exLaw 3) 0 (exD.dims.trac (exLaw 3) (facetNormal exD 0) 0)| = 3 by
    rw [exLaw_dotN, exLaw_trac 3 1 (by omega)]; simp [exLaw]]
  refine exLaw_friction 3 (by norm_num) _ ?_ ?_ <;>
    simp [Dims.tang, exLaw_dotN, exLaw_jump, exLaw_normal, exLaw_gap]

/-- The example facet pressed against a rigid surface; laid out as `exRig`. -/
def exRigLaw (m : ℕ) : ℝ := ([1, 1, 1, 0, -1, 0, -1, 0, 0, 0, -1, 0, -1] : List ℝ).getD m 0

/-- The hypotheses of `C97_rigid` hold for it. -/
example : Signorini
    (exD.rdims.dotN false exRigLaw exw 0 (fun a => exRigLaw (exD.rdims.oU + 0 * exD.rdims.g + a)))
    (exD.rdims.dotN false exRigLaw exw 0 (fun a => exRigLaw (exD.rdims.oGap + 0 * exD.rdims.g + a)))
    (exD.rdims.dotN false exRigLaw exw 0 (exD.rdims.trac exRigLaw (facetNormal exD 0) 0))
    ∧ exD.rdims.dotN false exRigLaw exw 0 (exD.rdims.trac exRigLaw (facetNormal exD 0) 0) = -3 := by
  have hg : exD.rdims.g = 2 := rfl
  have ho : exD.rdims.oGap = 3 := rfl
  have hu : exD.rdims.oU = 5 := rfl
  have hd : exD.rdims.oGrad = 7 := rfl
  have hn : ∀ a < 2, exD.rdims.normal false exRigLaw exw 0 a = if a = 1 then 1 else 0 := by
    intro a ha
    interval_cases a <;>
      simp [RigidDims.normal, KD.rdims, exD, RigidDims.oNormal, RigidDims.oGrad, RigidDims.oU,
        RigidDims.oGap, exRigLaw]
  have hdot : ∀ x, exD.rdims.dotN false exRigLaw exw 0 x = x 1 := by
    intro x
    simp only [RigidDims.dotN, hg, sum_range_succ, sum_range_zero, hn 0 (by omega), hn 1 (by omega)]
    simp
  have ht : exD.rdims.trac exRigLaw (facetNormal exD 0) 0 1 = -3 := by
    rw [facetNormal_eq exD_aff, RigidDims.trac,
      Elasticity.traction_eq _ _ _ _ _ _ (show 1 < exD.rdims.g from by rw [hg]; omega)]
    simp only [hg, hd, sum_range_succ, sum_range_zero, ex_nPhys 0 (by omega), ex_nPhys 1 (by omega)]
    simp [exRigLaw]; norm_num
  simp only [hdot, ht, ho, hu, hg]
  refine ⟨?_, trivial⟩
  norm_num [Signorini, exRigLaw]

end

end Verif.Kernels
