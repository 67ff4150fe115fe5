import Verif.Props.ContactKernels

/-!
C47 and C48 fail for friction bounds between zero and `1e-14`: the residual kernels are differentiable at a
point that sticks, but `d_ball_projection` returns zero there, and the matrix kernels miss the friction
stiffness.
-/

namespace Verif.Kernels

open Finset Spec Elasticity

noncomputable section

/-- The facet of `exD` with a constant basis function: no stress. -/
def stickD : KD := { exD with dphi := fun _ _ _ => 0 }

theorem stickD_aff : AffineConst stickD := fun _ _ => ⟨rfl, rfl⟩

/-- The cell moves by `s` along the surface, the linked cell stays. -/
def stickW (s : ℝ) (B m : ℕ) : ℝ := if B = 0 ∧ m = 0 then s else 0

/-- mu, lambda, friction `r`, h; gap; normal; test functions; u; grad u; u of the linked cell; previous
normal. -/
def stickRow (r s : ℝ) (m : ℕ) : ℝ :=
  [1, 1, r, 1, 0, -1, 0, -1, 1, 1, s, 0, 0, 0, 0, 0, 0, 0, 0, -1].getD m 0

/-- gamma, theta. -/
def stickw (m : ℕ) : ℝ := if m = 0 then 1 else 0

theorem stick_grad (q i b : ℕ) : facetGrad stickD q i b = 0 := by
  rw [facetGrad_eq stickD_aff]
  show gradV stickD.tdim (stickD.K q) (stickD.dph q) i b = 0
  rw [gradV_eq]
  refine sum_eq_zero (fun a _ => ?_)
  simp [KD.dph, stickD]

theorem stick_carries (r s : ℝ) :
    Carries stickD.dims 1 (facetPhi stickD) (facetGrad stickD) (fun _ _ _ => 0) (stickRow r s) (stickW s) := by
  simp only [facetPhi_eq]
  constructor
  · intro q a hq ha
    simp only [KD.dims, stickD, exD] at hq ha
    interval_cases q; interval_cases a <;>
      simp [KD.dims, Dims.oU, Dims.oTest, stickRow, stickW, stickD, exD, KD.ph]
  · intro q a b hq ha hb
    simp only [stick_grad]
    simp only [KD.dims, stickD, exD] at hq ha hb
    interval_cases q; interval_cases a <;> interval_cases b <;>
      simp [KD.dims, Dims.oU, Dims.oTest, Dims.oGrad, stickRow, stickD, exD]
  · intro q a hq ha
    simp only [KD.dims, stickD, exD] at hq ha
    interval_cases q; interval_cases a <;>
      simp [KD.dims, Dims.oU, Dims.oTest, Dims.oGrad, Dims.oOpp, Dims.test, stickRow, stickW, stickD, exD]

theorem stick_same (r s : ℝ) : SameData stickD.dims (stickRow r s) (stickRow r 0) := by
  intro m hm
  simp only [KD.dims, Dims.oU, Dims.oTest, Dims.oGrad, Dims.oOpp, Dims.oOld, stickD, exD] at hm
  rcases hm with hm | hm
  · interval_cases m <;> simp [stickRow]
  · obtain ⟨k, rfl⟩ : ∃ k, m = k + 18 := ⟨m - 18, by omega⟩
    simp [stickRow]

theorem stick_path (B m : ℕ) :
    HasDerivAt (fun s => stickW s B m) (if B = 0 ∧ m = 0 then 1 else 0) 0 := by
  by_cases h : B = 0 ∧ m = 0
  · simp only [stickW, h, and_self, if_true]; exact hasDerivAt_id 0
  · simp only [stickW, h, if_false]; exact hasDerivAt_const 0 0

theorem stick_one (c : ℕ → ℝ) (q : ℕ) : OneLink stickD.dims 1 c q :=
  ⟨0, fun k _ _ hk hne => absurd (by omega : k = 0) hne⟩

theorem stick_normal (r s : ℝ) (a : ℕ) (ha : a < 2) :
    stickD.dims.normal (stickRow r s) 0 a = if a = 1 then 1 else 0 := by
  interval_cases a <;> simp [Dims.normal, KD.dims, stickD, exD, Dims.oNormal, stickRow]

theorem stick_old (r s : ℝ) (a : ℕ) (ha : a < 2) :
    stickD.dims.oldNormal (stickRow r s) 0 a = if a = 1 then 1 else 0 := by
  interval_cases a <;> simp [Dims.oldNormal, KD.dims, stickD, exD, Dims.oOld, Dims.oOpp, Dims.oGrad, Dims.oU,
    Dims.oTest, stickRow]

theorem stick_dotN (r s : ℝ) (x : ℕ → ℝ) : stickD.dims.dotN (stickRow r s) 0 x = x 1 := by
  have hg : stickD.dims.g = 2 := rfl
  simp only [Dims.dotN, hg, sum_range_succ, sum_range_zero, stick_normal r s 0 (by omega),
    stick_normal r s 1 (by omega)]
  simp

theorem stick_unit (r s : ℝ) : stickD.dims.UnitNormal (stickRow r s) 0 := by
  have hg : stickD.dims.g = 2 := rfl
  simp only [Dims.UnitNormal, hg, sum_range_succ, sum_range_zero, stick_normal r s 0 (by omega),
    stick_normal r s 1 (by omega)]
  simp

theorem stick_jump (r s : ℝ) (a : ℕ) (ha : a < 2) :
    stickD.dims.jump (stickRow r s) 0 a = if a = 0 then s else 0 := by
  interval_cases a <;> simp [Dims.jump, KD.dims, stickD, exD, Dims.oOpp, Dims.oGrad, Dims.oU, Dims.oTest, stickRow]

theorem stick_trac (r s : ℝ) (np : ℕ → ℝ) (a : ℕ) (ha : a < 2) :
    stickD.dims.trac (stickRow r s) np 0 a = 0 := by
  rw [Dims.trac, traction_eq _ _ _ _ _ _ (show a < stickD.dims.g from ha)]
  have hg : stickD.dims.g = 2 := rfl
  have ho : stickD.dims.oGrad = 12 := rfl
  simp only [hg, ho, sum_range_succ, sum_range_zero]
  interval_cases a <;> simp [stickRow]

theorem stick_gap (r s : ℝ) : stickD.dims.gapN (stickRow r s) 0 = -1 := by
  rw [Dims.gapN, stick_dotN]; simp [Dims.oGap, KD.dims, stickD, exD, stickRow]

theorem stick_pressure (r s : ℝ) (np : ℕ → ℝ) : stickD.dims.pressure (stickRow r s) stickw np 0 = 1 := by
  rw [Dims.pressure, stick_dotN, stick_dotN, stick_gap, stick_jump r s 1 (by omega),
    stick_trac r s np 1 (by omega)]
  norm_num

theorem stick_slip (r s : ℝ) (np : ℕ → ℝ) (a : ℕ) (ha : a < 2) :
    stickD.dims.slip (stickRow r s) stickw np 0 a = if a = 0 then s else 0 := by
  simp only [Dims.slip, Dims.tang, stick_dotN, stick_jump r s 1 (by omega), stick_jump r s a ha,
    stick_trac r s np 1 (by omega), stick_trac r s np a ha, stick_normal r s a ha]
  interval_cases a <;> norm_num

theorem stick_slipC (r s : ℝ) (np : ℕ → ℝ) (a : ℕ) (ha : a < 2) :
    stickD.dims.slipC (stickRow r s) stickw np 0 a = if a = 0 then s else 0 := by
  rw [Dims.slipC, stick_slip r s np a ha]
  simp only [Dims.tang, stick_dotN, stick_old r s 1 (by omega), stick_old r s a ha, stick_normal r s a ha]
  interval_cases a <;> simp

theorem stick_len (x : ℕ → ℝ) (s : ℝ) (h : ∀ a, a < 2 → x a = if a = 0 then s else 0) :
    Real.sqrt (∑ a ∈ range stickD.gdim, x a ^ 2) = |s| := by
  have hg : stickD.gdim = 2 := rfl
  rw [hg, sum_range_succ, sum_range_one, h 0 (by omega), h 1 (by omega)]
  simp [Real.sqrt_sq_eq_abs]

theorem stick_form (r s : ℝ) (p : ℕ → ℝ) :
    facetWeight stickD 0 * stickD.dims.frictionForm (facetPhi stickD) (facetGrad stickD) (stickRow r s) stickw
      (facetNormal stickD 0) p 0 0 0 0 = facetWeight stickD 0 * (1 / 2 * p 0) := by
  have hg : stickD.dims.g = 2 := rfl
  have h3 : stickRow r s 3 = 1 := by simp [stickRow]
  simp only [Dims.frictionForm, hg, sum_range_succ, sum_range_zero, h3, Dims.tang, stick_dotN,
    stick_normal r s 0 (by omega), stick_normal r s 1 (by omega), Dims.vJump, facetPhi_eq]
  simp [stickw, KD.ph, stickD, exD]

theorem stick_weight : facetWeight stickD 0 ≠ 0 := by
  rw [facetWeight_eq stickD_aff]
  simp [KD.w0, stickD, exD]

/-- Nothing is added to the row of the first component by a friction matrix without projection part. -/
theorem stick_jac (c : ℕ → ℝ) (A : Arr (ℕ × ℕ)) (Y : ℕ → ℕ → ℕ → ℕ → ℕ → ℝ) (hY : ∀ B j l m, Y 0 B j l m = 0)
    (hA : BlockValues stickD 1 [0] A (fun q B i b B' j l => friJ stickD c stickw q (Y q B' j l) B i b B' j l))
    (δ : ℕ → ℕ → ℝ) : blockApply (stickD.nd * stickD.bs) 1 A δ 0 0 = 0 := by
  have h0 : ∀ B i b B' j l, friJ stickD c stickw 0 (Y 0 B' j l) B i b B' j l = 0 := by
    intro B i b B' j l
    rw [friJ]
    simp [hY, stickw]
  have h := blockApply_eq stickD 1 [0] A _ hA δ 0 0 0 (by omega) (by decide) (by decide)
    (fun q hq k k' j l _ _ _ _ _ => by
      obtain rfl : q = 0 := by simpa using hq
      exact h0 _ _ _ _ _ _)
  simp only [List.map_cons, List.map_nil, List.sum_cons, List.sum_nil, comb, h0, zero_mul,
    sum_const_zero, add_zero] at h
  exact h

/-- C47 fails for friction bounds between zero and `1e-14`: on a facet that sticks, away from the stick/slip
switch, the Tresca residual is differentiable, and the matrix kernel is not its derivative. -/
theorem C47_violated (r : ℝ) (h0 : 0 < r) (h1 : r < 1e-14) :
    ∃ (D : KD) (w : ℕ → ℝ) (c : ℝ → ℕ → ℝ) (G : ℕ → ℕ → ℕ → ℝ) (W : ℝ → ℕ → ℕ → ℝ) (δ : ℕ → ℕ → ℝ),
      AffineConst D ∧ D.bs = D.gdim ∧ D.gdim = 2 ∧ 1 ≤ D.maxLinks ∧ 0 < D.nq
      ∧ (∀ s, Carries D.dims 1 (facetPhi D) (facetGrad D) G (c s) (W s))
      ∧ (∀ s, SameData D.dims (c s) (c 0))
      ∧ (∀ B m, HasDerivAt (fun s => W s B m) (δ B m) 0)
      ∧ OneLink D.dims 1 (c 0) 0 ∧ D.dims.UnitNormal (c 0) 0
      ∧ c 0 3 / w 0 * c 0 2 = r
      ∧ Real.sqrt (∑ a ∈ range D.gdim, D.dims.slip (c 0) w (facetNormal D 0) 0 a ^ 2) ≠ r
      ∧ ∃ b', HasDerivAt (fun s => trescaRhs D (c s) w 1 [0] 0 (0, 0)) b' 0
        ∧ blockApply (D.nd * D.bs) 1 (trescaJac D (c 0) w 1 [0] 0) δ 0 0 ≠ b' := by
  refine ⟨stickD, stickw, stickRow r, fun _ _ _ => 0, stickW, fun B m => if B = 0 ∧ m = 0 then 1 else 0,
    stickD_aff, rfl, rfl, le_refl _, by decide, stick_carries r, stick_same r, stick_path, stick_one _ _,
    stick_unit r 0, by simp [stickRow, stickw], ?_, facetWeight stickD 0 * (1 / 2 * 1), ?_, ?_⟩
  · rw [stick_len _ 0 (stick_slip r 0 _), abs_zero]; exact h0.ne
  · have hr : ∀ s, trescaRhs stickD (stickRow r s) stickw 1 [0] 0 (0, 0)
        = facetWeight stickD 0 * (1 / 2 * ball 2 (stickD.dims.slip (stickRow r s) stickw (facetNormal stickD 0) 0)
          (stickRow r s 3 / stickw 0 * stickRow r s 2) 0) := by
      intro s
      have h := C78_tresca stickD stickD_aff 1 [0] stickw (stickRow r s) rfl (Or.inl rfl) 0 0 0 0 (by omega)
        (by decide) (by decide)
      simp only [List.map_cons, List.map_nil, List.sum_cons, List.sum_nil, add_zero, Nat.zero_mul,
        stick_form] at h
      rw [h]
      exact zero_add _
    simp only [hr]
    refine ((hasDerivAt_id (0 : ℝ)).const_mul (1 / 2)).const_mul _ |>.congr_of_eventuallyEq ?_
    filter_upwards [eventually_abs_sub_lt 0 h0] with s hs
    rw [sub_zero] at hs
    have hb : stickRow r s 3 / stickw 0 * stickRow r s 2 = r := by simp [stickRow, stickw]
    rw [ball, hb, if_pos, stick_slip r s _ 0 (by omega)]
    · rfl
    · exact (stick_len _ s (stick_slip r s _)).trans_le hs.le
  · rw [stick_jac (stickRow r 0) _ (yT stickD (stickRow r 0) stickw) ?_
      (trescaJac_blocks stickD (stickRow r 0) stickw 1 [0] rfl (by decide) ?_)]
    · have := stick_weight
      intro h
      apply this
      linarith
    · intro B j l m
      refine sum_eq_zero (fun n _ => ?_)
      have hb : gam (stickRow r 0) stickw * stickRow r 0 2 < 1e-14 := by
        simpa [gam, stickRow, stickw] using h1
      rw [Scalars.dBallProjection, if_pos hb, zero_mul]
    · intro q hq
      obtain rfl : q = 0 := by simpa using hq
      exact stick_unit r 0

theorem stick_pC (r : ℝ) :
    stickRow r 0 2 * Scalars.rPlus ((jumpN stickD (stickRow r 0) 0 - gap stickD (stickRow r 0) 0)
      - gam (stickRow r 0) stickw * signU stickD (stickRow r 0) 0) = r := by
  rw [pressure_eq stickD rfl, stick_pressure, Scalars.rPlus_of_nonneg (by norm_num)]
  simp [stickRow]

/-- C48 fails in the same way: on a facet in contact that sticks, away from the contact and the stick/slip
switch, the Coulomb residual is differentiable, and the matrix kernel is not its derivative. -/
theorem C48_violated (r : ℝ) (h0 : 0 < r) (h1 : r < 1e-14) :
    ∃ (D : KD) (w : ℕ → ℝ) (c : ℝ → ℕ → ℝ) (G : ℕ → ℕ → ℕ → ℝ) (W : ℝ → ℕ → ℕ → ℝ) (δ : ℕ → ℕ → ℝ),
      AffineConst D ∧ D.bs = D.gdim ∧ D.gdim = 2 ∧ 1 ≤ D.maxLinks ∧ 0 < D.nq
      ∧ (∀ s, Carries D.dims 1 (facetPhi D) (facetGrad D) G (c s) (W s))
      ∧ (∀ s, SameData D.dims (c s) (c 0))
      ∧ (∀ B m, HasDerivAt (fun s => W s B m) (δ B m) 0)
      ∧ OneLink D.dims 1 (c 0) 0 ∧ D.dims.UnitNormal (c 0) 0
      ∧ 0 < D.dims.pressure (c 0) w (facetNormal D 0) 0
      ∧ c 0 2 * max 0 (D.dims.pressure (c 0) w (facetNormal D 0) 0) = r
      ∧ Real.sqrt (∑ a ∈ range D.gdim, D.dims.slipC (c 0) w (facetNormal D 0) 0 a ^ 2) ≠ r
      ∧ ∃ b', HasDerivAt (fun s => coulombRhs D (c s) w 1 [0] 0 (0, 0)) b' 0
        ∧ blockApply (D.nd * D.bs) 1 (coulombJac D (c 0) w 1 [0] 0) δ 0 0 ≠ b' := by
  have hm : max (0 : ℝ) 1 = 1 := by norm_num
  have h2 : ∀ s, stickRow r s 2 = r := fun s => by simp [stickRow]
  refine ⟨stickD, stickw, stickRow r, fun _ _ _ => 0, stickW, fun B m => if B = 0 ∧ m = 0 then 1 else 0,
    stickD_aff, rfl, rfl, le_refl _, by decide, stick_carries r, stick_same r, stick_path, stick_one _ _,
    stick_unit r 0, ?_, ?_, ?_, facetWeight stickD 0 * (1 / 2 * 1), ?_, ?_⟩
  · rw [stick_pressure]; norm_num
  · rw [stick_pressure, hm, h2, mul_one]
  · rw [stick_len _ 0 (stick_slipC r 0 _), abs_zero]; exact h0.ne
  · have hr : ∀ s, coulombRhs stickD (stickRow r s) stickw 1 [0] 0 (0, 0)
        = facetWeight stickD 0 * (1 / 2 * ball 2 (stickD.dims.slipC (stickRow r s) stickw (facetNormal stickD 0) 0)
          (stickRow r s 2 * max 0 (stickD.dims.pressure (stickRow r s) stickw (facetNormal stickD 0) 0)) 0) := by
      intro s
      have h := C78_coulomb stickD stickD_aff 1 [0] stickw (stickRow r s) rfl (Or.inl rfl) 0 0 0 0 (by omega)
        (by decide) (by decide)
      simp only [List.map_cons, List.map_nil, List.sum_cons, List.sum_nil, add_zero, Nat.zero_mul,
        stick_form] at h
      rw [h]
      exact zero_add _
    simp only [hr, stick_pressure, hm, h2, mul_one]
    refine ((hasDerivAt_id (0 : ℝ)).const_mul (1 / 2)).const_mul _ |>.congr_deriv (by ring) |>.congr_of_eventuallyEq ?_
    filter_upwards [eventually_abs_sub_lt 0 h0] with s hs
    rw [sub_zero] at hs
    rw [ball, if_pos, stick_slipC r s _ 0 (by omega)]
    · rfl
    · exact (stick_len _ s (stick_slipC r s _)).trans_le hs.le
  · rw [stick_jac (stickRow r 0) _ (yC stickD (stickRow r 0) stickw) ?_
      (coulombJac_blocks stickD (stickRow r 0) stickw 1 [0] rfl (by decide) ?_)]
    · have := stick_weight
      intro h
      apply this
      linarith
    · intro B j l m
      have hz : ∀ j, j < 2 → ptUc stickD (stickRow r 0) stickw 0 j = 0 := fun j hj => by
        rw [ptUc_eq stickD rfl _ _ _ _ hj, stick_slipC r 0 _ j hj]; simp
      have hv : vec3 stickD.bs (ptUc stickD (stickRow r 0) stickw 0) = fun _ => 0 := by
        funext j
        show (if (j : ℕ) < 2 then _ else _) = _
        split
        · rename_i hj; exact hz _ hj
        · rfl
      have ha : aC stickD (stickRow r 0) stickw 0 m = 0 := by
        rw [aC, stick_pC, hv, Scalars.dAlphaBallProjection]
        simp [Scalars.normSquared, Scalars.at3, not_lt.mpr h0.le]
      have hp : zC stickD (stickRow r 0) stickw 0 B j l m = 0 := by
        refine sum_eq_zero (fun n _ => ?_)
        rw [pC, stick_pC, Scalars.dBallProjection, if_pos h1, zero_mul]
      rw [yC, ha, hp]; ring
    · intro q hq
      obtain rfl : q = 0 := by simpa using hq
      exact stick_unit r 0

end

end Verif.Kernels
