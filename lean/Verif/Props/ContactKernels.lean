import Verif.Lemmas.FrictionDerivative
import Verif.Lemmas.FacetGeometry

/-!
Properties of the contact kernels: C46, C47, C48 (matrices are derivatives of the residuals), C52
(action and reaction), C53 (no contact, no force), C54 (independence of the order of points), C78
(the residual kernels are the documented weak forms).
-/

namespace Verif.Kernels

open Verif.Elasticity Verif.Scalars Verif.Spec Finset

noncomputable section

/-! ### A concrete facet used for the examples -/

/-- Two dimensional cell with one scalar basis function, one quadrature point and room for one
link. -/
def exD : KD where
  gdim := 2
  tdim := 2
  nd := 1
  bs := 2
  maxLinks := 1
  nq := 1
  affine := true
  qStart := 0
  inv := fun _ i j => if i = j then 1 else 0
  det := fun _ => 1
  nref := fun j => if j = 1 then 1 else 0
  phi := fun _ _ => 1
  dphi := fun k _ _ => if k = 1 then 1 else 0
  weights := fun _ => 1

theorem exD_aff : AffineConst exD := fun _ _ => ⟨rfl, rfl⟩

/-- Displacements: `1 + t` in the cell, `2 t` in the linked cell. -/
def exW (t : ℝ) (B _ : ℕ) : ℝ := if B = 0 then 1 + t else 2 * t

/-- mu, lambda, friction, h; gap; normal; test functions; u; grad u; u of the linked cell; previous
normal. -/
def exRow (t : ℝ) (m : ℕ) : ℝ :=
  [1, 1, 1, 1, 0, 0, 0, -1, 1, 1, 1 + t, 1 + t, 0, 1 + t, 0, 1 + t, 2 * t, 2 * t, 0, -1].getD m 0

/-- gamma, theta. -/
def exw (m : ℕ) : ℝ := if m = 0 then 10 else 1

theorem ex_grad (q i b : ℕ) : gradV exD.tdim (exD.K q) (exD.dph q) i b = if b = 1 then 1 else 0 := by
  rw [gradV_eq]
  simp only [exD, KD.K, KD.dph, sum_range_succ, sum_range_zero]
  by_cases h : b = 1
  · simp [h]
  · simp [h, Ne.symm h]

theorem ex_carries (t : ℝ) :
    Carries exD.dims 1 exD.ph (fun q i b => gradV exD.tdim (exD.K q) (exD.dph q) i b) (fun _ _ _ => 0)
      (exRow t) (exW t) := by
  constructor
  · intro q a hq ha
    simp only [KD.dims, exD] at hq ha
    interval_cases q <;> interval_cases a <;>
      simp [KD.dims, Dims.oU, Dims.oTest, exRow, exW, exD, KD.ph]
  · intro q a b hq ha hb
    simp only [ex_grad]
    simp only [KD.dims, exD] at hq ha hb
    interval_cases q <;> interval_cases a <;> interval_cases b <;>
      simp [KD.dims, Dims.oU, Dims.oTest, Dims.oGrad, exRow, exW, exD]
  · intro q a hq ha
    simp only [KD.dims, exD] at hq ha
    interval_cases q <;> interval_cases a <;>
      simp [KD.dims, Dims.oU, Dims.oTest, Dims.oGrad, Dims.oOpp, Dims.test, exRow, exW, exD]

theorem ex_same (t : ℝ) : SameData exD.dims (exRow t) (exRow 0) := by
  intro m hm
  simp only [KD.dims, Dims.oU, Dims.oTest, Dims.oGrad, Dims.oOpp, Dims.oOld, exD] at hm
  rcases hm with hm | hm
  · interval_cases m <;> simp [exRow]
  · obtain ⟨k, rfl⟩ : ∃ k, m = k + 18 := ⟨m - 18, by omega⟩
    simp [exRow]

theorem ex_path (B m : ℕ) : HasDerivAt (fun t => exW t B m) (if B = 0 then 1 else 2) 0 := by
  by_cases h : B = 0
  · simp only [exW, h, if_true]
    simpa using (hasDerivAt_id (0 : ℝ)).const_add 1
  · simp only [exW, h, if_false]
    simpa using (hasDerivAt_id (0 : ℝ)).const_mul 2

theorem ex_one (c : ℕ → ℝ) (q : ℕ) : OneLink exD.dims 1 c q :=
  ⟨0, fun k _ _ hk hne => absurd (by omega : k = 0) hne⟩

theorem ex_normal (a : ℕ) (ha : a < 2) : exD.dims.normal (exRow 0) 0 a = if a = 1 then 1 else 0 := by
  interval_cases a <;> simp [Dims.normal, KD.dims, exD, Dims.oNormal, exRow]

theorem ex_nPhys (a : ℕ) (ha : a < 2) : exD.nPhys 0 a = if a = 1 then 1 else 0 := by
  have h0 : covariantNormal 2 (exD.K 0) exD.nref 0 = 0 := by
    rw [covariantNormal_eq]; simp [exD, KD.K]
  have h1 : covariantNormal 2 (exD.K 0) exD.nref 1 = 1 := by
    rw [covariantNormal_eq]; simp [exD, KD.K]
  have hg : exD.gdim = 2 := rfl
  have ht : exD.tdim = 2 := rfl
  simp only [KD.nPhys, physicalFacetNormal, loop_acc, hg, ht, sum_range_succ, sum_range_zero, h0, h1]
  interval_cases a
  · simp [h0]
  · simp [h1]

theorem ex_trac (a : ℕ) (ha : a < 2) :
    exD.dims.trac (exRow 0) (exD.nPhys 0) 0 a = if a = 1 then 3 else 1 := by
  rw [Dims.trac, traction_eq _ _ _ _ _ _ (show a < exD.dims.g from ha)]
  have hg : exD.dims.g = 2 := rfl
  have ho : exD.dims.oGrad = 12 := rfl
  simp only [hg, ho, sum_range_succ, sum_range_zero, ex_nPhys 0 (by omega), ex_nPhys 1 (by omega)]
  interval_cases a <;> simp [exRow, ex_nPhys] <;> norm_num

theorem ex_jump (a : ℕ) (ha : a < 2) : exD.dims.jump (exRow 0) 0 a = 1 := by
  have hg : exD.dims.g = 2 := rfl
  have h1 : exD.dims.oU = 10 := rfl
  have h2 : exD.dims.oOpp = 16 := rfl
  simp only [Dims.jump, hg, h1, h2]
  interval_cases a <;> simp [exRow]

theorem ex_dotN (x : ℕ → ℝ) : exD.dims.dotN (exRow 0) 0 x = x 1 := by
  have hg : exD.dims.g = 2 := rfl
  simp only [Dims.dotN, hg, sum_range_succ, sum_range_zero, ex_normal 0 (by omega),
    ex_normal 1 (by omega)]
  simp

theorem ex_gap : exD.dims.gapN (exRow 0) 0 = 0 := by
  rw [Dims.gapN, ex_dotN]; simp [Dims.oGap, KD.dims, exD, exRow]

theorem ex_pressure : exD.dims.pressure (exRow 0) exw (exD.nPhys 0) 0 = 0.7 := by
  rw [Dims.pressure, ex_dotN, ex_dotN, ex_gap, ex_jump 1 (by omega), ex_trac 1 (by omega)]
  simp [exRow, exw]; norm_num

theorem ex_slip (a : ℕ) (ha : a < 2) :
    exD.dims.slip (exRow 0) exw (exD.nPhys 0) 0 a = if a = 1 then 0 else 0.9 := by
  simp only [Dims.slip, Dims.tang, ex_dotN, ex_jump 1 (by omega), ex_jump a ha,
    ex_trac 1 (by omega), ex_trac a ha, ex_normal a ha]
  interval_cases a <;> simp [exRow, exw] <;> norm_num

theorem ex_slipC (a : ℕ) (ha : a < 2) :
    exD.dims.slipC (exRow 0) exw (exD.nPhys 0) 0 a = if a = 1 then 0 else 0.9 := by
  have ho : ∀ a, a < 2 → exD.dims.oldNormal (exRow 0) 0 a = if a = 1 then 1 else 0 := by
    intro a ha
    interval_cases a <;> simp [Dims.oldNormal, KD.dims, exD, Dims.oOld, Dims.oOpp, Dims.oGrad,
      Dims.oU, Dims.oTest, exRow]
  rw [Dims.slipC, ex_slip a ha]
  simp only [Dims.tang, ex_dotN, ho 1 (by omega), ho a ha, ex_normal a ha]
  interval_cases a <;> simp

theorem ex_len (x : ℕ → ℝ) (h : ∀ a, a < 2 → x a = if a = 1 then 0 else 0.9) :
    Real.sqrt (∑ a ∈ range exD.gdim, x a ^ 2) = 0.9 := by
  have hg : exD.gdim = 2 := rfl
  rw [hg, sum_range_succ, sum_range_one, h 0 (by omega), h 1 (by omega),
    Real.sqrt_eq_iff_mul_self_eq] <;> norm_num

theorem ex_unit : exD.dims.UnitNormal (exRow 0) 0 := by
  have hg : exD.dims.g = 2 := rfl
  simp only [Dims.UnitNormal, hg, sum_range_succ, sum_range_zero, ex_normal 0 (by omega),
    ex_normal 1 (by omega)]
  simp

/-! ### C46 -/

/-- C46: move the displacement of the cell and of all linked cells along any differentiable path
`W` with velocity `δ`, leaving all other packed data unchanged.  If no quadrature point sits on the
contact switch and every point has at most one linked cell with non-zero test functions, every entry
of the `Rhs` kernel is differentiable and its derivative is the `Jac` kernel applied to `δ`. -/
theorem C46_jacobian (D : KD) (haff : AffineConst D) (links : ℕ) (qs : List ℕ) (w : ℕ → ℝ) (c : ℝ → ℕ → ℝ)
    (G : ℕ → ℕ → ℕ → ℝ) (W : ℝ → ℕ → ℕ → ℝ) (δ : ℕ → ℕ → ℝ) (t : ℝ)
    (hbs : D.bs = D.gdim) (hl : links ≤ D.maxLinks) (hqs : ∀ q ∈ qs, q < D.nq)
    (hc : ∀ s, Carries D.dims links (facetPhi D) (facetGrad D) G
      (c s) (W s))
    (hs : ∀ s, SameData D.dims (c s) (c t))
    (hW : ∀ B m, HasDerivAt (fun s => W s B m) (δ B m) t)
    (hone : ∀ q ∈ qs, OneLink D.dims links (c t) q)
    (hp : ∀ q ∈ qs, D.dims.pressure (c t) w (facetNormal D q) q ≠ 0)
    (b0 : Arr (ℕ × ℕ)) (B r : ℕ) (hB : B ≤ links) (hr : r < D.nd * D.bs) :
    HasDerivAt (fun s => unbiasedRhs D (c s) w links qs b0 (B, r))
      (blockApply (D.nd * D.bs) links (unbiasedJac D (c t) w links qs 0) δ B r) t := by
  simp only [facetNormal_eq haff, facetGrad_eq haff, facetPhi_eq, facetWeight_eq haff] at *
  obtain ⟨hi, hb, hr'⟩ := split_index hr
  rw [hr']
  rw [blockApply_eq D links qs _ _ (unbiasedJac_blocks D (c t) w links qs) δ B _ _
    (by omega) hi hb (fun q hq k k' j l hk hk' hne hj hl =>
      unbJ_cross hbs (hone q hq) hk hk' hne hi hb hj hl)]
  simp only [unbiasedRhs_at D _ w links qs B _ _ hi hb (by omega : B < links + 1)]
  exact (hasDerivAt_list_sum qs _ _ t (fun q hq => unbR_deriv hbs hl hc hs hW (hqs q hq) (hp q hq)
    (by omega) hi hb)).const_add _

/-- The hypotheses of C46 hold for a facet in contact. -/
example : exD.bs = exD.gdim ∧ 1 ≤ exD.maxLinks ∧ (∀ q ∈ [0], q < exD.nq)
    ∧ (∀ s, Carries exD.dims 1 (facetPhi exD) (facetGrad exD) (fun _ _ _ => 0)
      (exRow s) (exW s))
    ∧ (∀ s, SameData exD.dims (exRow s) (exRow 0))
    ∧ (∀ B m, HasDerivAt (fun s => exW s B m) (if B = 0 then 1 else 2) 0)
    ∧ (∀ q ∈ [0], OneLink exD.dims 1 (exRow 0) q)
    ∧ ∀ q ∈ [0], exD.dims.pressure (exRow 0) exw (facetNormal exD q) q ≠ 0 := by
  simp only [facetNormal_eq exD_aff, facetGrad_eq exD_aff, facetPhi_eq]
  refine ⟨rfl, le_refl _, by simp [exD], ex_carries, ex_same, ex_path, fun q _ => ex_one _ q, ?_⟩
  intro q hq
  obtain rfl : q = 0 := by simpa using hq
  rw [ex_pressure]; norm_num

/-! ### C47 -/

/-- C47: as C46 for the Tresca kernels, in two and three dimensions, for unit contact normals, away
from the stick/slip switch.  Partial: the friction bound must be 0 or at least `1e-14`
(see `C03_small_radius_violated`). -/
theorem C47_jacobian_partial (D : KD) (haff : AffineConst D) (links : ℕ) (qs : List ℕ) (w : ℕ → ℝ) (c : ℝ → ℕ → ℝ)
    (G : ℕ → ℕ → ℕ → ℝ) (W : ℝ → ℕ → ℕ → ℝ) (δ : ℕ → ℕ → ℝ) (t : ℝ)
    (hbs : D.bs = D.gdim) (h23 : D.gdim = 2 ∨ D.gdim = 3) (hl : links ≤ D.maxLinks)
    (hqs : ∀ q ∈ qs, q < D.nq)
    (hc : ∀ s, Carries D.dims links (facetPhi D) (facetGrad D) G
      (c s) (W s))
    (hs : ∀ s, SameData D.dims (c s) (c t))
    (hW : ∀ B m, HasDerivAt (fun s => W s B m) (δ B m) t)
    (hone : ∀ q ∈ qs, OneLink D.dims links (c t) q)
    (hu : ∀ q ∈ qs, D.dims.UnitNormal (c t) q)
    (hbound : c t 3 / w 0 * c t 2 = 0 ∨ 1e-14 ≤ c t 3 / w 0 * c t 2)
    (hne : ∀ q ∈ qs, Real.sqrt (∑ a ∈ range D.gdim, D.dims.slip (c t) w (facetNormal D q) q a ^ 2)
      ≠ c t 3 / w 0 * c t 2)
    (b0 : Arr (ℕ × ℕ)) (B r : ℕ) (hB : B ≤ links) (hr : r < D.nd * D.bs) :
    HasDerivAt (fun s => trescaRhs D (c s) w links qs b0 (B, r))
      (blockApply (D.nd * D.bs) links (trescaJac D (c t) w links qs 0) δ B r) t := by
  simp only [facetNormal_eq haff, facetGrad_eq haff, facetPhi_eq, facetWeight_eq haff] at *
  obtain ⟨hi, hb, hr'⟩ := split_index hr
  rw [hr']
  have h23' : D.bs = 2 ∨ D.bs = 3 := by rw [hbs]; exact h23
  rw [blockApply_eq D links qs _ _ (trescaJac_blocks D (c t) w links qs hbs (by omega) hu) δ B _ _
    (by omega) hi hb (fun q hq k k' j l hk hk' hne hj hl =>
      friJ_cross hbs (hone q hq) _ hk hk' hne hi hb hj hl (fun h m => yT_zero h m))]
  simp only [trescaRhs_at D _ w links qs B _ _ hi hb (by omega : B < links + 1)]
  refine (hasDerivAt_list_sum qs _ _ t (fun q hq => ?_)).const_add _
  refine friR_deriv hbs hl hc hs hW (hqs q hq) _ (yT D (c t) w q) (fun m hm => ?_) (by omega) hi hb
  refine projT_deriv hbs h23' hl hc hs hW (hqs q hq) hbound ?_ hm
  rw [hbs, sum_congr rfl (fun j hj => by rw [ptU_eq D hbs (c t) w q j (mem_range.mp hj)])]
  exact hne q hq

/-- The hypotheses of C47 hold for a sliding facet. -/
example : exD.bs = exD.gdim ∧ (exD.gdim = 2 ∨ exD.gdim = 3) ∧ 1 ≤ exD.maxLinks
    ∧ (∀ q ∈ [0], q < exD.nq)
    ∧ (∀ s, Carries exD.dims 1 (facetPhi exD) (facetGrad exD) (fun _ _ _ => 0)
      (exRow s) (exW s))
    ∧ (∀ s, SameData exD.dims (exRow s) (exRow 0))
    ∧ (∀ B m, HasDerivAt (fun s => exW s B m) (if B = 0 then 1 else 2) 0)
    ∧ (∀ q ∈ [0], OneLink exD.dims 1 (exRow 0) q)
    ∧ (∀ q ∈ [0], exD.dims.UnitNormal (exRow 0) q)
    ∧ (exRow 0 3 / exw 0 * exRow 0 2 = 0 ∨ 1e-14 ≤ exRow 0 3 / exw 0 * exRow 0 2)
    ∧ ∀ q ∈ [0], Real.sqrt (∑ a ∈ range exD.gdim,
        exD.dims.slip (exRow 0) exw (facetNormal exD q) q a ^ 2) ≠ exRow 0 3 / exw 0 * exRow 0 2 := by
  simp only [facetNormal_eq exD_aff, facetGrad_eq exD_aff, facetPhi_eq]
  refine ⟨rfl, Or.inl rfl, le_refl _, by simp [exD], ex_carries, ex_same, ex_path,
    fun q _ => ex_one _ q, ?_, ?_, ?_⟩
  · intro q hq
    obtain rfl : q = 0 := by simpa using hq
    exact ex_unit
  · right; simp [exRow, exw]; norm_num
  · intro q hq
    obtain rfl : q = 0 := by simpa using hq
    have this := ex_len _ ex_slip
    rw [this]; simp [exRow, exw]; norm_num

/-! ### C48 -/

/-- C48: as C46 for the Coulomb kernels, in two and three dimensions, for unit contact normals, away
from the contact and the stick/slip switch.  Partial: the friction bound must be 0 or at least
`1e-14` (see `C03_small_radius_violated`). -/
theorem C48_jacobian_partial (D : KD) (haff : AffineConst D) (links : ℕ) (qs : List ℕ) (w : ℕ → ℝ) (c : ℝ → ℕ → ℝ)
    (G : ℕ → ℕ → ℕ → ℝ) (W : ℝ → ℕ → ℕ → ℝ) (δ : ℕ → ℕ → ℝ) (t : ℝ)
    (hbs : D.bs = D.gdim) (h23 : D.gdim = 2 ∨ D.gdim = 3) (hl : links ≤ D.maxLinks)
    (hqs : ∀ q ∈ qs, q < D.nq)
    (hc : ∀ s, Carries D.dims links (facetPhi D) (facetGrad D) G
      (c s) (W s))
    (hs : ∀ s, SameData D.dims (c s) (c t))
    (hW : ∀ B m, HasDerivAt (fun s => W s B m) (δ B m) t)
    (hone : ∀ q ∈ qs, OneLink D.dims links (c t) q)
    (hu : ∀ q ∈ qs, D.dims.UnitNormal (c t) q)
    (hp : ∀ q ∈ qs, D.dims.pressure (c t) w (facetNormal D q) q ≠ 0)
    (hbound : ∀ q ∈ qs, c t 2 * max 0 (D.dims.pressure (c t) w (facetNormal D q) q) = 0
      ∨ 1e-14 ≤ c t 2 * max 0 (D.dims.pressure (c t) w (facetNormal D q) q))
    (hne : ∀ q ∈ qs, Real.sqrt (∑ a ∈ range D.gdim, D.dims.slipC (c t) w (facetNormal D q) q a ^ 2)
      ≠ c t 2 * max 0 (D.dims.pressure (c t) w (facetNormal D q) q))
    (b0 : Arr (ℕ × ℕ)) (B r : ℕ) (hB : B ≤ links) (hr : r < D.nd * D.bs) :
    HasDerivAt (fun s => coulombRhs D (c s) w links qs b0 (B, r))
      (blockApply (D.nd * D.bs) links (coulombJac D (c t) w links qs 0) δ B r) t := by
  simp only [facetNormal_eq haff, facetGrad_eq haff, facetPhi_eq, facetWeight_eq haff] at *
  obtain ⟨hi, hb, hr'⟩ := split_index hr
  rw [hr']
  have h23' : D.bs = 2 ∨ D.bs = 3 := by rw [hbs]; exact h23
  rw [blockApply_eq D links qs _ _ (coulombJac_blocks D (c t) w links qs hbs (by omega) hu) δ B _ _
    (by omega) hi hb (fun q hq k k' j l hk hk' hne hj hl =>
      friJ_cross hbs (hone q hq) _ hk hk' hne hi hb hj hl (fun h m => yC_zero h m))]
  simp only [coulombRhs_at D _ w links qs B _ _ hi hb (by omega : B < links + 1)]
  refine (hasDerivAt_list_sum qs _ _ t (fun q hq => ?_)).const_add _
  refine friR_deriv hbs hl hc hs hW (hqs q hq) _ (yC D (c t) w q) (fun m hm => ?_) (by omega) hi hb
  have hmax : ∀ x, rPlus x = max 0 x := by
    intro x
    rcases le_total 0 x with h | h
    · rw [rPlus_of_nonneg h, max_eq_right h]
    · rw [rPlus_of_nonpos h, max_eq_left h]
  refine projC_deriv hbs h23' hl hc hs hW (hqs q hq) ?_ ?_ ?_ hm
  · rw [pressure_eq D hbs]; exact hp q hq
  · rw [pressure_eq D hbs, hmax]; exact hbound q hq
  · rw [pressure_eq D hbs, hmax, hbs,
      sum_congr rfl (fun j hj => by rw [ptUc_eq D hbs (c t) w q j (mem_range.mp hj)])]
    exact hne q hq

/-- The hypotheses of C48 that are not already part of the example for C47 hold for a sliding facet
in contact. -/
example : (∀ q ∈ [0], exD.dims.pressure (exRow 0) exw (facetNormal exD q) q ≠ 0)
    ∧ (∀ q ∈ [0], exRow 0 2 * max 0 (exD.dims.pressure (exRow 0) exw (facetNormal exD q) q) = 0
      ∨ 1e-14 ≤ exRow 0 2 * max 0 (exD.dims.pressure (exRow 0) exw (facetNormal exD q) q))
    ∧ ∀ q ∈ [0], Real.sqrt (∑ a ∈ range exD.gdim,
        exD.dims.slipC (exRow 0) exw (facetNormal exD q) q a ^ 2)
        ≠ exRow 0 2 * max 0 (exD.dims.pressure (exRow 0) exw (facetNormal exD q) q) := by
  simp only [facetNormal_eq exD_aff, facetGrad_eq exD_aff, facetPhi_eq]
  have hm : max (0 : ℝ) 0.7 = 0.7 := by norm_num
  have h2 : exRow 0 2 = 1 := by simp [exRow]
  refine ⟨?_, ?_, ?_⟩ <;> intro q hq <;> obtain rfl : q = 0 := by simpa using hq
  · rw [ex_pressure]; norm_num
  · right; rw [ex_pressure, hm, h2]; norm_num
  · have this := ex_len _ ex_slipC
    rw [this, ex_pressure, hm, h2]; norm_num

/-! ### C52 -/

/-- C52: at fully linked points the three contact residual kernels do no work on a translation of
the cell and all linked cells. -/
theorem C52_translation (D : KD) (haff : AffineConst D) (links : ℕ) (qs : List ℕ) (w c : ℕ → ℝ)
    (hbs : D.bs = D.gdim)
    (hu : ∀ q ∈ qs, PartitionOfUnity D.dims (facetPhi D)
      (facetGrad D) q)
    (hl : ∀ q ∈ qs, FullyLinked D.dims links c q) (v : ℕ → ℝ) :
    translationWork D.dims links (unbiasedRhs D c w links qs 0) v = 0
    ∧ translationWork D.dims links (trescaRhs D c w links qs 0) v = 0
    ∧ translationWork D.dims links (coulombRhs D c w links qs 0) v = 0 := by
  simp only [facetNormal_eq haff, facetGrad_eq haff, facetPhi_eq, facetWeight_eq haff] at *
  refine ⟨?_, ?_, ?_⟩
  · refine translationWork_eq hbs qs _ (fun q => unbR D c w q) (fun B i n hB hi hn => ?_)
      (fun q hq n hn => sum_unbR hbs (hu q hq) (hl q hq) w n hn) v
    rw [unbiasedRhs_at D c w links qs B i n hi hn hB]; simp
  · refine translationWork_eq hbs qs _ (fun q => friR D c w q
      (at3 (ballProjection (vec3 D.bs (ptU D c w q)) (gam c w * c 2)))) (fun B i n hB hi hn => ?_)
      (fun q hq n hn => sum_friR hbs (hu q hq) (hl q hq) w _ n hn) v
    rw [trescaRhs_at D c w links qs B i n hi hn hB]; simp
  · refine translationWork_eq hbs qs _ (fun q => friR D c w q
      (at3 (ballProjection (vec3 D.bs (ptUc D c w q)) (c 2 * rPlus
        ((jumpN D c q - gap D c q) - gam c w * signU D c q))))) (fun B i n hB hi hn => ?_)
      (fun q hq n hn => sum_friR hbs (hu q hq) (hl q hq) w _ n hn) v
    rw [coulombRhs_at D c w links qs B i n hi hn hB]; simp

/-- The hypotheses of C52 hold for a linear triangle linked to one other. -/
def exD3 : KD :=
  { exD with
    nd := 3
    phi := fun _ i => if i = 2 then 1 / 2 else 1 / 4
    dphi := fun k _ i => if k = 0 then ([-1, 1, 0] : List ℝ).getD i 0 else ([-1, 0, 1] : List ℝ).getD i 0 }

theorem exD3_aff : AffineConst exD3 := fun _ _ => ⟨rfl, rfl⟩

def exRow3 (m : ℕ) : ℝ :=
  ([1, 1, 1, 1, 0, 0, 0, -1, 1/2, 1/2, 1/4, 1/4, 1/4, 1/4] : List ℝ).getD m 0

example : exD3.bs = exD3.gdim
    ∧ (∀ q ∈ [0], PartitionOfUnity exD3.dims (facetPhi exD3)
      (facetGrad exD3) q)
    ∧ ∀ q ∈ [0], FullyLinked exD3.dims 1 exRow3 q := by
  simp only [facetNormal_eq exD3_aff, facetGrad_eq exD3_aff, facetPhi_eq]
  refine ⟨rfl, ?_, ?_⟩ <;> intro q hq <;> obtain rfl : q = 0 := by simpa using hq
  · constructor
    · simp [KD.dims, exD3, KD.ph, sum_range_succ]; norm_num
    · intro b hb
      have : b < 2 := hb
      simp only [gradV_eq, KD.dims, exD3, exD, KD.K, KD.dph, sum_range_succ, sum_range_zero]
      interval_cases b <;> simp
  · intro n hn
    have : n < 2 := hn
    simp only [KD.dims, exD3, exD, Dims.test, Dims.oTest, sum_range_succ, sum_range_zero]
    interval_cases n <;> simp [exRow3] <;> norm_num

/-! ### C53 -/

/-- C53: with theta = 0, points whose contact pressure argument is not positive add nothing, neither
to residual nor matrix, with or without Coulomb friction. -/
theorem C53_open (D : KD) (haff : AffineConst D) (links : ℕ) (qs : List ℕ) (w c : ℕ → ℝ) (hbs : D.bs = D.gdim)
    (hw : w 1 = 0) (hp : ∀ q ∈ qs, D.dims.pressure c w (facetNormal D q) q ≤ 0) (a : Arr (ℕ × ℕ)) :
    unbiasedRhs D c w links qs a = a ∧ unbiasedJac D c w links qs a = a
    ∧ coulombRhs D c w links qs a = a ∧ coulombJac D c w links qs a = a := by
  simp only [facetNormal_eq haff, facetGrad_eq haff, facetPhi_eq, facetWeight_eq haff] at *
  exact
  ⟨forEach_id (fun q hq => unbiasedRhsPoint_open D c w links q hbs hw (hp q hq)) a,
    forEach_id (fun q hq => unbiasedJacPoint_open D c w links q hbs hw (hp q hq)) a,
    forEach_id (fun q hq => coulombRhsPoint_open D c w links q hbs hw (hp q hq)) a,
    forEach_id (fun q hq => coulombJacPoint_open D c w links q hbs hw (hp q hq)) a⟩

/-- C53, the case named in the property: every point is separated (its normal jump does not exceed
its normal gap) and has no traction. -/
theorem C53_separated (D : KD) (haff : AffineConst D) (links : ℕ) (qs : List ℕ) (w c : ℕ → ℝ) (hbs : D.bs = D.gdim)
    (hw : w 1 = 0)
    (hsep : ∀ q ∈ qs, D.dims.dotN c q (D.dims.jump c q) ≤ D.dims.gapN c q)
    (hstress : ∀ q ∈ qs, ∀ a, D.dims.trac c (facetNormal D q) q a = 0) (a : Arr (ℕ × ℕ)) :
    unbiasedRhs D c w links qs a = a ∧ unbiasedJac D c w links qs a = a
    ∧ coulombRhs D c w links qs a = a ∧ coulombJac D c w links qs a = a := by
  simp only [facetNormal_eq haff, facetGrad_eq haff, facetPhi_eq, facetWeight_eq haff] at *
  refine C53_open D haff links qs w c hbs hw (fun q hq => ?_) a
  simp only [facetNormal_eq haff]
  have h1 := hsep q hq
  have h2 : D.dims.dotN c q (D.dims.trac c (D.nPhys q) q) = 0 := by
    simp [Dims.dotN, hstress q hq]
  rw [Dims.pressure, h2]
  linarith

/-- A separated, unstressed facet. -/
example : let c : ℕ → ℝ := fun m => ([1, 1, 1, 1, 0, 2, 0, -1] : List ℝ).getD m 0
    exD.bs = exD.gdim ∧ (∀ q ∈ [0], exD.dims.dotN c q (exD.dims.jump c q) ≤ exD.dims.gapN c q)
    ∧ (∀ q ∈ [0], ∀ a, exD.dims.trac c (facetNormal exD q) q a = 0) := by
  intro c
  simp only [facetNormal_eq exD_aff]
  have hc : ∀ m, 8 ≤ m → c m = 0 := by
    intro m hm
    obtain ⟨k, rfl⟩ : ∃ k, m = k + 8 := ⟨m - 8, by omega⟩
    simp [c]
  refine ⟨rfl, ?_, ?_⟩ <;> intro q hq <;> obtain rfl : q = 0 := by simpa using hq
  · have hj : ∀ a, exD.dims.jump c 0 a = 0 := by
      intro a
      have h1 : exD.dims.oU = 10 := rfl
      have h2 : exD.dims.oOpp = 16 := rfl
      rw [Dims.jump, h1, h2, hc _ (by omega), hc _ (by omega), sub_zero]
    have hd : exD.dims.dotN c 0 (exD.dims.jump c 0) = 0 := by simp [Dims.dotN, hj]
    rw [hd]
    simp only [Dims.dotN, Dims.gapN, Dims.normal, Dims.oNormal, Dims.oGap, KD.dims, exD, c,
      sum_range_succ, sum_range_zero]
    norm_num
  · intro a
    have ho : exD.dims.oGrad = 12 := rfl
    have : ∀ a b, c (12 + (0 * exD.dims.g + a) * exD.dims.g + b) = 0 := fun a b => hc _ (by omega)
    simp only [Dims.trac, ho, traction, stress, strain, this]
    simp

/-! ### C54 -/

/-- C54: for all six contact kernels, all coefficients and any number of links, the result is the
sum of single point contributions; order and grouping of the points do not matter. -/
theorem C54_points (D : KD) (c w : ℕ → ℝ) (links : ℕ) :
    SumOfPoints (unbiasedRhs D c w links) ∧ SumOfPoints (unbiasedJac D c w links)
    ∧ SumOfPoints (trescaRhs D c w links) ∧ SumOfPoints (trescaJac D c w links)
    ∧ SumOfPoints (coulombRhs D c w links) ∧ SumOfPoints (coulombJac D c w links) :=
  ⟨sumOfPoints (unbiasedRhsPoint_isAdd D c w links), sumOfPoints (unbiasedJacPoint_isAdd D c w links),
    sumOfPoints (trescaRhsPoint_isAdd D c w links), sumOfPoints (trescaJacPoint_isAdd D c w links),
    sumOfPoints (coulombRhsPoint_isAdd D c w links), sumOfPoints (coulombJacPoint_isAdd D c w links)⟩

/-- C54 is not about kernels that do nothing: the facet above has a non-zero residual. -/
example : unbiasedRhs exD (exRow 0) exw 1 [0] 0 (0, 1) ≠ 0 := by
  have h := unbiasedRhs_at exD (exRow 0) exw 1 [0] 0 0 1 (by simp [exD]) (by simp [exD])
    (by omega : 0 < 2) 0
  have e : ((0, 0 * exD.bs + 1) : ℕ × ℕ) = (0, 1) := by simp
  rw [e] at h
  rw [h]
  simp only [List.map_cons, List.map_nil, List.sum_cons, List.sum_nil,
    unbR_spec (D := exD) rfl exw 0 0 1 (show 1 < exD.bs by decide), Dims.normalForm, ex_pressure, ex_dotN, ex_trac 1 (by omega)]
  have h1 : exD.dims.vTrac exD.grad (exRow 0) (exD.nPhys 0) 0 0 0 1 1 = 3 := by
    rw [Dims.vTrac, traction_eq _ _ _ _ _ _ (show 1 < exD.dims.g from by decide)]
    have hg : exD.dims.g = 2 := rfl
    simp only [hg, sum_range_succ, sum_range_zero, ex_nPhys 0 (by omega), ex_nPhys 1 (by omega),
      KD.grad, ex_grad]
    simp [exRow]; norm_num
  rw [h1]
  simp [Dims.vJump, exD, KD.ph, KD.w0, exRow, exw]
  norm_num

/-! ### C78 -/

/-- C78, frictionless: entry `(B, i, n)` of the residual grows by the sum over the points of weight
times surface determinant times the integrand of the Nitsche form. -/
theorem C78_frictionless (D : KD) (haff : AffineConst D) (links : ℕ) (qs : List ℕ) (w c : ℕ → ℝ) (hbs : D.bs = D.gdim)
    (b : Arr (ℕ × ℕ)) (B i n : ℕ) (hB : B ≤ links) (hi : i < D.nd) (hn : n < D.bs) :
    unbiasedRhs D c w links qs b (B, i * D.bs + n) = b (B, i * D.bs + n)
      + (qs.map (fun q => facetWeight D q * D.dims.normalForm (facetPhi D)
        (facetGrad D) c w (facetNormal D q) q B i n)).sum := by
  simp only [facetNormal_eq haff, facetGrad_eq haff, facetPhi_eq, facetWeight_eq haff] at *
  rw [unbiasedRhs_at D c w links qs B i n hi hn (by omega)]
  simp only [unbR_spec hbs w B i n hn]

/-- C78, Tresca friction in two and three dimensions: the projection is onto the ball of radius
`h/γ s` with `s` the packed friction coefficient. -/
theorem C78_tresca (D : KD) (haff : AffineConst D) (links : ℕ) (qs : List ℕ) (w c : ℕ → ℝ) (hbs : D.bs = D.gdim)
    (h23 : D.gdim = 2 ∨ D.gdim = 3)
    (b : Arr (ℕ × ℕ)) (B i n : ℕ) (hB : B ≤ links) (hi : i < D.nd) (hn : n < D.bs) :
    trescaRhs D c w links qs b (B, i * D.bs + n) = b (B, i * D.bs + n)
      + (qs.map (fun q => facetWeight D q * D.dims.frictionForm (facetPhi D)
        (facetGrad D) c w (facetNormal D q)
        (ball D.gdim (D.dims.slip c w (facetNormal D q) q) (c 3 / w 0 * c 2)) q B i n)).sum := by
  simp only [facetNormal_eq haff, facetGrad_eq haff, facetPhi_eq, facetWeight_eq haff] at *
  rw [trescaRhs_at D c w links qs B i n hi hn (by omega)]
  simp only [trescaR_spec hbs h23 w B i n hn]

/-- C78, Coulomb friction in two and three dimensions: the radius is the friction coefficient times
the positive part of the contact pressure. -/
theorem C78_coulomb (D : KD) (haff : AffineConst D) (links : ℕ) (qs : List ℕ) (w c : ℕ → ℝ) (hbs : D.bs = D.gdim)
    (h23 : D.gdim = 2 ∨ D.gdim = 3)
    (b : Arr (ℕ × ℕ)) (B i n : ℕ) (hB : B ≤ links) (hi : i < D.nd) (hn : n < D.bs) :
    coulombRhs D c w links qs b (B, i * D.bs + n) = b (B, i * D.bs + n)
      + (qs.map (fun q => facetWeight D q * D.dims.frictionForm (facetPhi D)
        (facetGrad D) c w (facetNormal D q)
        (ball D.gdim (D.dims.slipC c w (facetNormal D q) q)
          (c 2 * max 0 (D.dims.pressure c w (facetNormal D q) q))) q B i n)).sum := by
  simp only [facetNormal_eq haff, facetGrad_eq haff, facetPhi_eq, facetWeight_eq haff] at *
  rw [coulombRhs_at D c w links qs B i n hi hn (by omega)]
  simp only [coulombR_spec hbs h23 w B i n hn]

/-- The hypotheses of C78 hold for the example facet. -/
example : exD.bs = exD.gdim ∧ (exD.gdim = 2 ∨ exD.gdim = 3) ∧ 0 < exD.nd ∧ 1 < exD.bs :=
  ⟨rfl, Or.inl rfl, by simp [exD], by simp [exD]⟩

end

end Verif.Kernels
