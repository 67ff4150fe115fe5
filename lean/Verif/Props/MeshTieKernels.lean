import Verif.Lemmas.MeshTiePoisson
import Verif.Props.ContactKernels

/-!
Properties of the mesh tie kernels: C50 and C51 (residual is the matrix times the dofs, symmetry),
C52 (rigid translations), C54 (order of points), C79 (documented weak forms).  Rows are laid out as
`MeshTie` packs them: `offsets (tieStrides D thermo)` and `offsets (poissonStrides D)`.
-/

namespace Verif.Kernels

open Verif.Elasticity Verif.Spec Finset

noncomputable section

/-! ### examples -/

/-- mu, lambda, h; test; grad test; u; grad u; opposite u; opposite grad u, for dofs `exW t`. -/
def exTie (t : ℝ) (m : ℕ) : ℝ :=
  ([1, 2, 1, 1, 1, 2, 3, 1 + t, 1 + t, 0, 1 + t, 0, 1 + t, 2 * t, 2 * t, 4 * t, 6 * t, 4 * t, 6 * t]
    : List ℝ).getD m 0

theorem exTie_carries (t : ℝ) :
    TieCarries (exD.tdims false) 1 exD.ph (fun q i b => gradV exD.tdim (exD.K q) (exD.dph q) i b)
      (exTie t) (exW t) := by
  constructor
  · intro q a hq ha
    simp only [KD.tdims, exD] at hq ha
    interval_cases q <;> interval_cases a <;>
      simp [KD.tdims, TieDims.oU, TieDims.oGTest, TieDims.oTest, exTie, exW, exD, KD.ph]
  · intro q a b hq ha hb
    simp only [ex_grad]
    simp only [KD.tdims, exD] at hq ha hb
    interval_cases q <;> interval_cases a <;> interval_cases b <;>
      simp [KD.tdims, TieDims.oU, TieDims.oGTest, TieDims.oTest, TieDims.oGrad, exTie, exW, exD]
  · intro q a hq ha
    simp only [KD.tdims, exD] at hq ha
    interval_cases q <;> interval_cases a <;>
      simp [KD.tdims, TieDims.oU, TieDims.oGTest, TieDims.oTest, TieDims.oGrad, TieDims.oOpp,
        TieDims.test, exTie, exW, exD]
  · intro q a b hq ha hb
    simp only [KD.tdims, exD] at hq ha hb
    interval_cases q <;> interval_cases a <;> interval_cases b <;>
      simp [KD.tdims, TieDims.oU, TieDims.oGTest, TieDims.oTest, TieDims.oGrad, TieDims.oOpp,
        TieDims.oGOpp, TieDims.gtest, exTie, exW, exD] <;> ring

theorem exTie_same (s t : ℝ) : TieSame (exD.tdims false) (exTie s) (exTie t) := by
  intro m hm
  simp [KD.tdims, TieDims.oU, TieDims.oGTest, TieDims.oTest, exD] at hm
  interval_cases m <;> simp [exTie]

/-- Scalar version of `exD`. -/
def exP : KD := { exD with bs := 1 }

theorem exP_aff : AffineConst exP := fun _ _ => ⟨rfl, rfl⟩

/-- h, kappa; test; grad test; T; grad T; opposite T; opposite grad T, for dofs `exW t`. -/
def exPois (t : ℝ) (m : ℕ) : ℝ :=
  ([1, 2, 1, 2, 3, 1 + t, 0, 1 + t, 2 * t, 4 * t, 6 * t] : List ℝ).getD m 0

theorem exPois_carries (t : ℝ) :
    TieCarries exP.pdims 1 exP.ph (fun q i b => gradV exP.tdim (exP.K q) (exP.dph q) i b)
      (exPois t) (exW t) := by
  have ex_grad : ∀ q i b, gradV exP.tdim (exP.K q) (exP.dph q) i b = if b = 1 then 1 else 0 :=
    fun q i b => ex_grad q i b
  constructor
  · intro q a hq ha
    simp only [KD.pdims, exP, exD] at hq ha
    interval_cases q; interval_cases a
    simp [KD.pdims, TieDims.oU, TieDims.oGTest, TieDims.oTest, exPois, exW, exP, exD, KD.ph]
  · intro q a b hq ha hb
    simp only [ex_grad]
    simp only [KD.pdims, exP, exD] at hq ha hb
    interval_cases q; interval_cases a; interval_cases b <;>
      simp [KD.pdims, TieDims.oU, TieDims.oGTest, TieDims.oTest, TieDims.oGrad, exPois, exW, exP, exD]
  · intro q a hq ha
    simp only [KD.pdims, exP, exD] at hq ha
    interval_cases q; interval_cases a
    simp [KD.pdims, TieDims.oU, TieDims.oGTest, TieDims.oTest, TieDims.oGrad, TieDims.oOpp,
        TieDims.test, exPois, exW, exP, exD]
  · intro q a b hq ha hb
    simp only [KD.pdims, exP, exD] at hq ha hb
    interval_cases q; interval_cases a; interval_cases b <;>
      simp [KD.pdims, TieDims.oU, TieDims.oGTest, TieDims.oTest, TieDims.oGrad, TieDims.oOpp,
        TieDims.oGOpp, TieDims.gtest, exPois, exW, exP, exD] <;> ring

theorem exPois_same (s t : ℝ) : TieSame exP.pdims (exPois s) (exPois t) := by
  intro m hm
  simp [KD.pdims, TieDims.oU, TieDims.oGTest, TieDims.oTest, exP, exD] at hm
  interval_cases m <;> simp [exPois]

/-! ### C50 -/

/-- C50: for every dof vector `W` of the cell and the linked cells, the elasticity residual kernel
adds exactly the matrix kernel's blocks times `W`.  The matrix may be computed from any row `c'` that
agrees in the data independent of the solution, so the residual is linear in the solution and the
matrix is its derivative at every state.  Every point may have only one linked cell with non-zero
test functions. -/
theorem C50_matrix (D : KD) (haff : AffineConst D) (th : Bool) (links : ℕ) (qs : List ℕ) (w c c' : ℕ → ℝ)
    (W : ℕ → ℕ → ℝ) (hbs : D.bs = D.gdim) (hl : links ≤ D.maxLinks) (hqs : ∀ q ∈ qs, q < D.nq)
    (hc : TieCarries (D.tdims th) links (facetPhi D) (facetGrad D) c W)
    (hs : TieSame (D.tdims th) c c') (hone : ∀ q ∈ qs, TieOneLink (D.tdims th) links c' q)
    (b0 : Arr (ℕ × ℕ)) (B r : ℕ) (hB : B ≤ links) (hr : r < D.nd * D.bs) :
    tieRhs D (offsets (tieStrides D th)) c w links qs b0 (B, r) =
      b0 (B, r) + blockApply (D.nd * D.bs) links
        (tieJac D (offsets (tieStrides D th)) c' w links qs 0) W B r := by
  simp only [facetNormal_eq haff, facetGrad_eq haff, facetPhi_eq, facetWeight_eq haff] at *
  obtain ⟨hi, hb, hr'⟩ := split_index hr
  rw [hr', blockApply_eq D links qs _ _ (tieJac_blocks D _ c' w links qs) W B _ _
    (by omega) hi hb (fun q hq k k' j l hk hk' hne hj hl =>
      tieM_cross hbs (hone q hq) w hk hk' hne hi hb hj hl),
    tieRhs_at D hbs _ c w links qs B _ _ hi hb (by omega)]
  congr 1
  refine list_sum_congr _ _ _ (fun q hq => ?_)
  refine (absR_comb D links _ _ _ _ _ _ _ W (fun a ha => tieSigU_comb hbs hc (hqs q hq) a ha)
    (fun a ha => tieJump_comb hbs hc (hqs q hq) a ha) B _ _ hb).trans ?_
  exact comb_congr D links W (fun B' j l hB' hj hl' =>
    tieSame_M hbs hs hl (hqs q hq) w (by omega) hi hb hB' hj hl')

/-- C50: with theta = 1 the matrix is symmetric. -/
theorem C50_symmetric (D : KD) (o : ℕ → ℕ) (links : ℕ) (qs : List ℕ) (w c : ℕ → ℝ) (hw : w 1 = 1) :
    BlockSymmetric (D.nd * D.bs) links (tieJac D o c w links qs 0) :=
  blockSymmetric_of (tieJac_blocks D o c w links qs)
    (fun q B i b B' j l => by rw [tieM, tieM, hw]; exact absM_symm _ _ _ _ _ _ _ _ _ _)

example : exD.bs = exD.gdim ∧ 1 ≤ exD.maxLinks ∧ (∀ q ∈ [0], q < exD.nq)
    ∧ TieCarries (exD.tdims false) 1 (facetPhi exD)
      (facetGrad exD) (exTie 3) (exW 3)
    ∧ TieSame (exD.tdims false) (exTie 3) (exTie 0)
    ∧ (∀ q ∈ [0], TieOneLink (exD.tdims false) 1 (exTie 0) q) ∧ exw 1 = 1 := by
  simp only [facetNormal_eq exD_aff, facetGrad_eq exD_aff, facetPhi_eq]
  exact
  ⟨rfl, le_refl _, by simp [exD], exTie_carries 3, exTie_same 3 0,
    fun q _ => ⟨0, fun k i hk hne => absurd (by omega : k = 0) hne⟩, by simp [exw]⟩

/-! ### C51 -/

/-- C51: the same for heat conduction. -/
theorem C51_matrix (D : KD) (haff : AffineConst D) (links : ℕ) (qs : List ℕ) (w c c' : ℕ → ℝ)
    (W : ℕ → ℕ → ℝ) (h1 : D.bs = 1) (hl : links ≤ D.maxLinks) (hqs : ∀ q ∈ qs, q < D.nq)
    (hc : TieCarries D.pdims links (facetPhi D) (facetGrad D) c W)
    (hs : TieSame D.pdims c c') (hone : ∀ q ∈ qs, TieOneLink D.pdims links c' q)
    (b0 : Arr (ℕ × ℕ)) (B r : ℕ) (hB : B ≤ links) (hr : r < D.nd) :
    poisRhs D (offsets (poissonStrides D)) c w links qs b0 (B, r) =
      b0 (B, r) + blockApply D.nd links
        (poisJac D (offsets (poissonStrides D)) c' w links qs 0) W B r := by
  simp only [facetNormal_eq haff, facetGrad_eq haff, facetPhi_eq, facetWeight_eq haff] at *
  have hN : D.nd = D.nd * D.bs := by rw [h1, mul_one]
  have key := blockApply_eq D links qs _ _ (poisJac_blocks D h1 (pOff D) c' w links qs) W B r 0
    (by omega) hr (by omega) (fun q hq k k' j l hk hk' hne hj hl =>
      poisM_cross (hone q hq) w hk hk' hne hr hj)
  rw [← hN] at key
  have e : r * D.bs + 0 = r := by rw [h1]; omega
  rw [e] at key
  rw [key, poisRhs_at D _ c w links qs B r hr (by omega)]
  congr 1
  refine list_sum_congr _ _ _ (fun q hq => ?_)
  have := absR_comb D links (poisW0 D c q) (w 0 / c 0) (w 1) (fun _ => 2 * avgGradN D (pOff D) c q)
    (fun _ => jumpT (pOff D) c q) (poisJ D (pOff D) c q) (poisS D (pOff D) c q) W
    (fun a _ => avgGradN_comb h1 hc (hqs q hq) a)
    (fun a ha => jumpT_comb h1 hc (hqs q hq) a ha) B r 0 (by omega)
  rw [h1] at this
  refine this.trans ?_
  exact comb_congr D links W (fun B' j l hB' hj _ =>
    pSame_M hs hl (hqs q hq) w (by omega) hr hB' hj)

/-- C51: with theta = 1 the matrix is symmetric. -/
theorem C51_symmetric (D : KD) (h1 : D.bs = 1) (o : ℕ → ℕ) (links : ℕ) (qs : List ℕ) (w c : ℕ → ℝ)
    (hw : w 1 = 1) : BlockSymmetric D.nd links (poisJac D o c w links qs 0) := by
  have := blockSymmetric_of (poisJac_blocks D h1 o c w links qs)
    (fun q B i b B' j l => by rw [poisM, poisM, hw]; exact absM_symm _ _ _ _ _ _ _ _ _ _)
  rwa [h1, mul_one] at this

example : exP.bs = 1 ∧ 1 ≤ exP.maxLinks ∧ (∀ q ∈ [0], q < exP.nq)
    ∧ TieCarries exP.pdims 1 (facetPhi exP)
      (facetGrad exP) (exPois 3) (exW 3)
    ∧ TieSame exP.pdims (exPois 3) (exPois 0)
    ∧ (∀ q ∈ [0], TieOneLink exP.pdims 1 (exPois 0) q) ∧ exw 1 = 1 := by
  simp only [facetNormal_eq exP_aff, facetGrad_eq exP_aff, facetPhi_eq]
  exact
  ⟨rfl, le_refl _, by simp [exP, exD], exPois_carries 3, exPois_same 3 0,
    fun q _ => ⟨0, fun k i hk hne => absurd (by omega : k = 0) hne⟩, by simp [exw]⟩

/-! ### C52 -/

/-- C52 for the mesh tie residuals: at linked points (test functions of the cell and of the linked
cells sum to one) a translation of all cells does no work. -/
theorem C52_translation_tie (D : KD) (haff : AffineConst D) (links : ℕ) (qs : List ℕ) (w c : ℕ → ℝ)
    (hbs : D.bs = D.gdim) (th : Bool)
    (hl : ∀ q ∈ qs, TieLinked (D.tdims th) links (facetPhi D)
      (facetGrad D) c q) (v : ℕ → ℝ) :
    tieTranslationWork (D.tdims th) links (tieRhs D (offsets (tieStrides D th)) c w links qs 0) v = 0
    ∧ (th = true → tieTranslationWork (D.tdims th) links
        (thermoRhs D (offsets (tieStrides D th)) c links qs 0) v = 0) := by
  simp only [facetNormal_eq haff, facetGrad_eq haff, facetPhi_eq, facetWeight_eq haff] at *
  refine ⟨?_, ?_⟩
  · refine tieWork_eq _ links qs _ (fun q => tieR D (tOff D th) c w q) (fun B i n hB hi hn => ?_)
      (fun q hq n hn => ?_) v
    · have e : (D.tdims th).bs = D.bs := hbs.symm
      rw [e, tieRhs_at D hbs _ c w links qs B i n hi (hbs ▸ hn) hB]; simp
    · have hn' : n < D.bs := hbs ▸ hn
      exact absR_sum _ _ _ _ _ _ _ _ (sum_tieJ D hbs th (hl q hq) n hn')
        (fun a ha => sum_tieS D hbs th (hl q hq) n a hn' ha)
  · rintro rfl
    refine tieWork_eq _ links qs _ (fun q B i n =>
      D.w0 q * (D.tdims true).thermalForm D.ph c (D.nPhys q) q B i n) (fun B i n hB hi hn => ?_)
      (fun q hq n hn => ?_) v
    · have e : (D.tdims true).bs = D.bs := hbs.symm
      rw [e, thermoRhs_at D hbs c links qs B i n hi (hbs ▸ hn) hB]; simp
    · have hn' : n < D.bs := hbs ▸ hn
      rw [sum_congr rfl (fun B _ => sum_congr rfl (fun i _ =>
        thermal_tieJ D hbs c q B i n hn'))]
      simp only [← mul_sum]
      have := sum_tieJ D hbs true (hl q hq) n hn'
      have e : (D.tdims true).nd = D.nd := rfl
      rw [e, this, mul_zero]

/-- C52 for heat conduction: heat leaving one body enters the other. -/
theorem C52_translation_heat (D : KD) (haff : AffineConst D) (links : ℕ) (qs : List ℕ) (w c : ℕ → ℝ)
    (hl : ∀ q ∈ qs, TieLinked D.pdims links (facetPhi D)
      (facetGrad D) c q) (v : ℕ → ℝ) :
    tieTranslationWork D.pdims links (poisRhs D (offsets (poissonStrides D)) c w links qs 0) v
      = 0 := by
  simp only [facetNormal_eq haff, facetGrad_eq haff, facetPhi_eq, facetWeight_eq haff] at *
  refine tieWork_eq _ links qs _ (fun q B i _ => poisR D (pOff D) c w q B i 0)
    (fun B i n hB hi hn => ?_) (fun q hq n hn => ?_) v
  · have hn : n < 1 := hn
    have e : D.pdims.bs = 1 := rfl
    obtain rfl : n = 0 := by omega
    rw [e, mul_one, add_zero, poisRhs_at D _ c w links qs B i hi hB]; simp
  · exact absR_sum _ _ _ _ _ _ _ _ (sum_poisJ D (hl q hq) 0)
      (fun a _ => sum_poisS D (hl q hq) 0 a)

/-- The hypotheses hold for a linear triangle linked to another one. -/
example : exD3.bs = exD3.gdim ∧ ∀ q ∈ [0], TieLinked (exD3.tdims false) 1 (facetPhi exD3)
      (facetGrad exD3)
      (fun m => ([1, 1, 1, 1/2, 1/2, 1/4, 1/4, 1/4, 1/4, -1, -1, 1, 0, 0, 1] : List ℝ).getD m 0)
      q := by
  simp only [facetNormal_eq exD3_aff, facetGrad_eq exD3_aff, facetPhi_eq]
  refine ⟨rfl, ?_⟩; intro q hq; obtain rfl : q = 0 := by simpa using hq
  refine ⟨?_, ?_, ?_, ?_⟩
  · simp [KD.tdims, exD3, KD.ph, sum_range_succ]; norm_num
  · intro b hb
    have : b < 2 := hb
    simp only [gradV_eq, KD.tdims, exD3, exD, KD.K, KD.dph, sum_range_succ, sum_range_zero]
    interval_cases b <;> simp
  · intro n hn
    have : n < 2 := hn
    simp only [KD.tdims, exD3, exD, TieDims.test, TieDims.oTest, sum_range_succ, sum_range_zero]
    interval_cases n <;> simp <;> norm_num
  · intro n hn
    have : n < 2 := hn
    simp only [KD.tdims, exD3, exD, TieDims.gtest, TieDims.oTest, TieDims.oGTest, sum_range_succ,
      sum_range_zero]
    interval_cases n <;> simp

example : ∀ q ∈ [0], TieLinked exD3.pdims 1 (facetPhi exD3)
      (facetGrad exD3)
      (fun m => ([1, 1, 1/2, 1/4, 1/4, -1, -1, 1, 0, 0, 1] : List ℝ).getD m 0) q := by
  simp only [facetNormal_eq exD3_aff, facetGrad_eq exD3_aff, facetPhi_eq]
  intro q hq; obtain rfl : q = 0 := by simpa using hq
  refine ⟨?_, ?_, ?_, ?_⟩
  · simp [KD.pdims, exD3, KD.ph, sum_range_succ]; norm_num
  · intro b hb
    have : b < 2 := hb
    simp only [gradV_eq, KD.pdims, exD3, exD, KD.K, KD.dph, sum_range_succ, sum_range_zero]
    interval_cases b <;> simp
  · intro n hn
    have : n < 1 := hn
    simp only [KD.pdims, exD3, exD, TieDims.test, TieDims.oTest, sum_range_succ, sum_range_zero]
    interval_cases n; simp; norm_num
  · intro n hn
    have : n < 2 := hn
    simp only [KD.pdims, exD3, exD, TieDims.gtest, TieDims.oTest, TieDims.oGTest, sum_range_succ,
      sum_range_zero]
    interval_cases n <;> simp

/-! ### C54 -/

/-- C54 for the mesh tie kernels. -/
theorem C54_points_tie (D : KD) (o : ℕ → ℕ) (c w : ℕ → ℝ) (links : ℕ) :
    SumOfPoints (tieRhs D o c w links) ∧ SumOfPoints (tieJac D o c w links)
    ∧ SumOfPoints (thermoRhs D o c links) ∧ SumOfPoints (poisRhs D o c w links)
    ∧ SumOfPoints (poisJac D o c w links) :=
  ⟨sumOfPoints (tieRhsPoint_isAdd D o c w links), sumOfPoints (tieJacPoint_isAdd D o c w links),
    sumOfPoints (thermoRhsPoint_isAdd D o c links), sumOfPoints (poisRhsPoint_isAdd D o c w links),
    sumOfPoints (poisJacPoint_isAdd D o c w links)⟩

/-! ### C79 -/

/-- C79: the elasticity residual kernel adds, to every dof, the quadrature sum of the Nitsche
coupling form. -/
theorem C79_elasticity (D : KD) (haff : AffineConst D) (th : Bool) (links : ℕ) (qs : List ℕ) (w c : ℕ → ℝ)
    (hbs : D.bs = D.gdim) (b0 : Arr (ℕ × ℕ)) (B i n : ℕ) (hB : B ≤ links) (hi : i < D.nd)
    (hn : n < D.bs) :
    tieRhs D (offsets (tieStrides D th)) c w links qs b0 (B, i * D.bs + n) =
      b0 (B, i * D.bs + n) + (qs.map (fun q => facetWeight D q *
        (D.tdims th).elasticForm (facetPhi D) (facetGrad D) c w
          (facetNormal D q) q B i n)).sum := by
  simp only [facetNormal_eq haff, facetGrad_eq haff, facetPhi_eq, facetWeight_eq haff] at *
  rw [tieRhs_at D hbs _ c w links qs B i n hi hn (by omega)]
  congr 1
  exact list_sum_congr _ _ _ (fun q _ => tieR_spec D hbs th c w q B i n hn)

/-- C79: the thermo-elastic kernel adds the thermal stress. -/
theorem C79_thermal (D : KD) (haff : AffineConst D) (links : ℕ) (qs : List ℕ) (c : ℕ → ℝ)
    (hbs : D.bs = D.gdim) (b0 : Arr (ℕ × ℕ)) (B i n : ℕ) (hB : B ≤ links) (hi : i < D.nd)
    (hn : n < D.bs) :
    thermoRhs D (offsets (tieStrides D true)) c links qs b0 (B, i * D.bs + n) =
      b0 (B, i * D.bs + n) + (qs.map (fun q => facetWeight D q *
        (D.tdims true).thermalForm (facetPhi D) c (facetNormal D q) q B i n)).sum := by
  simp only [facetNormal_eq haff, facetGrad_eq haff, facetPhi_eq, facetWeight_eq haff] at *
  exact
  thermoRhs_at D hbs c links qs B i n hi hn (by omega) b0

/-- C79: the Poisson residual kernel adds the Nitsche form of heat conduction. -/
theorem C79_heat (D : KD) (haff : AffineConst D) (links : ℕ) (qs : List ℕ) (w c : ℕ → ℝ) (b0 : Arr (ℕ × ℕ)) (B i : ℕ)
    (hB : B ≤ links) (hi : i < D.nd) :
    poisRhs D (offsets (poissonStrides D)) c w links qs b0 (B, i) =
      b0 (B, i) + (qs.map (fun q => facetWeight D q *
        D.pdims.heatForm (facetPhi D) (facetGrad D) c w (facetNormal D q)
          q B i)).sum := by
  simp only [facetNormal_eq haff, facetGrad_eq haff, facetPhi_eq, facetWeight_eq haff] at *
  rw [poisRhs_at D _ c w links qs B i hi (by omega)]
  congr 1
  exact list_sum_congr _ _ _ (fun q _ => poisR_spec D c w q B i)

example : exD.bs = exD.gdim ∧ 1 ≤ 1 ∧ 0 < exD.nd ∧ 1 < exD.bs :=
  ⟨rfl, le_refl _, by simp [exD], by simp [exD]⟩

end

end Verif.Kernels
