import Verif.Lemmas.RigidKernels
import Verif.Props.ContactKernels

/-!
Properties of the rigid surface kernels: C49 (the matrix is the derivative of the residual) and the
rigid surface part of C78 (documented weak form).
-/

namespace Verif.Kernels

open Verif.Elasticity Verif.Scalars Verif.Spec Finset

noncomputable section

/-! ### examples -/

/-- mu, lambda, h; gap; u; grad u; normal of the surface. -/
def exRig (t : ℝ) (m : ℕ) : ℝ :=
  ([1, 1, 1, 0, 0, 1 + t, 1 + t, 0, 1 + t, 0, 1 + t, 0, -1] : List ℝ).getD m 0

theorem exRig_carries (t : ℝ) : RCarries exD (exRig t) (exW t 0) := by
  constructor
  · intro q a hq ha
    simp only [KD.rdims, exD] at hq ha
    interval_cases q <;> interval_cases a <;>
      simp [KD.rdims, RigidDims.oU, RigidDims.oGap, exRig, exW, exD, KD.ph]
  · intro q a b hq ha hb
    simp only [ex_grad]
    simp only [KD.rdims, exD] at hq ha hb
    interval_cases q <;> interval_cases a <;> interval_cases b <;>
      simp [KD.rdims, RigidDims.oU, RigidDims.oGap, RigidDims.oGrad, exRig, exW, exD]

theorem exRig_same (s t : ℝ) : RigidSame exD.rdims (exRig s) (exRig t) := by
  intro m hm
  simp only [KD.rdims, RigidDims.oU, RigidDims.oGap, RigidDims.oGrad, RigidDims.oNormal, exD] at hm
  rcases hm with hm | hm
  · interval_cases m <;> simp [exRig]
  · obtain ⟨k, rfl⟩ : ∃ k, m = k + 11 := ⟨m - 11, by omega⟩
    simp [exRig]

theorem exRig_normal (a : ℕ) (ha : a < 2) :
    exD.rdims.normal false (exRig 0) exw 0 a = if a = 1 then 1 else 0 := by
  interval_cases a <;>
    simp [RigidDims.normal, KD.rdims, exD, RigidDims.oNormal, RigidDims.oGrad, RigidDims.oU,
      RigidDims.oGap, exRig]

theorem exRig_trac (a : ℕ) (ha : a < 2) :
    exD.rdims.trac (exRig 0) (exD.nPhys 0) 0 a = if a = 1 then 3 else 1 := by
  rw [RigidDims.trac, traction_eq _ _ _ _ _ _ (show a < exD.rdims.g from ha)]
  have hg : exD.rdims.g = 2 := rfl
  have ho : exD.rdims.oGrad = 7 := rfl
  simp only [hg, ho, sum_range_succ, sum_range_zero, ex_nPhys 0 (by omega), ex_nPhys 1 (by omega)]
  interval_cases a <;> simp [exRig, ex_nPhys] <;> norm_num

theorem exRig_pressure : exD.rdims.pressure false (exRig 0) exw (exD.nPhys 0) 0 = -(7 / 10) := by
  have hg : exD.rdims.g = 2 := rfl
  have ho : exD.rdims.oGap = 3 := rfl
  have hu : exD.rdims.oU = 5 := rfl
  simp only [RigidDims.pressure, RigidDims.dotN, hg, ho, hu, sum_range_succ, sum_range_zero,
    exRig_normal 0 (by omega), exRig_normal 1 (by omega), exRig_trac 0 (by omega),
    exRig_trac 1 (by omega)]
  simp [exRig, exw]
  norm_num

/-! ### C49 -/

/-- C49: along every differentiable path of dofs with velocity `δ`, the derivative of every entry of
the rigid surface residual is the matrix kernel times `δ`, when gamma/h is positive and no point sits
at the switch of the contact condition.  What is missing from the full property: a constant surface
normal on a non-affine cell, where the kernels read uninitialised memory (`junk`), see
`C49_uninitialised_violated`. -/
theorem C49_jacobian_partial (D : KD) (haff : AffineConst D) (const : Bool) (junk : ℕ → ℝ) (c : ℝ → ℕ → ℝ) (w : ℕ → ℝ)
    (W : ℝ → ℕ → ℝ) (δ : ℕ → ℝ) (t : ℝ) (hbs : D.bs = D.gdim)
    (hconst : const = false ∨ D.affine = true)
    (hc : ∀ s, RigidCarries D.rdims (facetPhi D) (facetGrad D)
      (c s) (W s))
    (hs : ∀ s, RigidSame D.rdims (c s) (c t))
    (hW : ∀ m, HasDerivAt (fun s => W s m) (δ m) t) (hg : 0 < w 0 / c t 2)
    (hp : ∀ q < D.nq, D.rdims.pressure const (c t) w (facetNormal D q) q ≠ 0)
    (b0 : Arr (ℕ × ℕ)) (r : ℕ) (hr : r < D.nd * D.bs) :
    HasDerivAt (fun s => rigidRhs D const junk (c s) w b0 (0, r))
      (∑ s ∈ range (D.nd * D.bs),
        rigidJac D const junk (c t) w 0 (0, r * (D.nd * D.bs) + s) * δ s) t := by
  simp only [facetNormal_eq haff, facetGrad_eq haff, facetPhi_eq, facetWeight_eq haff] at *
  obtain ⟨hi, hb, hr'⟩ := split_index hr
  rw [hr']
  have key := blockApply_eq D 0 (List.range D.nq) _ _ (rigidJac_blocks D const junk (c t) w)
    (fun _ => δ) 0 _ _ (by omega) hi hb (fun q _ k k' j l hk _ _ _ _ => absurd hk (by omega))
  rw [Spec.blockApply] at key
  simp only [range_zero, sum_empty, add_zero, if_true] at key
  have e : (fun s => rigidRhs D const junk (c s) w b0 (0, r / D.bs * D.bs + r % D.bs)) = fun s =>
      b0 (0, r / D.bs * D.bs + r % D.bs) + ((List.range D.nq).map
        (fun q => rigR D const junk (c s) w q (r / D.bs) (r % D.bs))).sum := by
    funext s; exact rigidRhs_at D const junk (c s) w _ _ hi hb b0
  rw [e]
  refine HasDerivAt.congr_deriv (HasDerivAt.const_add _ (hasDerivAt_list_sum _ _ _ t
    (fun q hq => rigR_deriv hbs const junk hconst hc hs hW (List.mem_range.mp hq) hg
      (hp q (List.mem_range.mp hq))))) ?_
  exact key.symm

example : exD.bs = exD.gdim ∧ (false = false ∨ exD.affine = true)
    ∧ (∀ s, RCarries exD (exRig s) (exW s 0)) ∧ (∀ s, RigidSame exD.rdims (exRig s) (exRig 0))
    ∧ (∀ m, HasDerivAt (fun s => exW s 0 m) 1 0) ∧ 0 < exw 0 / exRig 0 2
    ∧ (∀ q < exD.nq, exD.rdims.pressure false (exRig 0) exw (facetNormal exD q) q ≠ 0)
    ∧ 1 < exD.nd * exD.bs := by
  simp only [facetNormal_eq exD_aff, facetGrad_eq exD_aff, facetPhi_eq]
  refine ⟨rfl, Or.inl trivial, exRig_carries, fun s => exRig_same s 0, fun m => ?_, ?_, ?_, ?_⟩
  · exact ex_path 0 m
  · simp [exw, exRig]
  · intro q hq
    simp only [exD] at hq
    obtain rfl : q = 0 := by omega
    rw [exRig_pressure]; norm_num
  · simp [exD]

/-- The example facet as a non-affine cell. -/
def exDn : KD := { exD with affine := false }

/-- gamma, theta and the constant surface normal `(0, -1)`. -/
def exwn (m : ℕ) : ℝ := ([10, 1, 0, -1] : List ℝ).getD m 0

/-- C49 fails for a constant surface normal on a non-affine cell: the residual of the same facet,
state and parameters depends on the uninitialised array `n_phys`. -/
theorem C49_uninitialised_violated :
    ∃ (D : KD) (c w junk junk' : ℕ → ℝ), D.affine = false ∧ D.bs = D.gdim ∧
      rigidRhs D true junk c w 0 (0, 1) ≠ rigidRhs D true junk' c w 0 (0, 1) := by
  refine ⟨exDn, exRig 0, exwn, fun _ => 0, fun _ => 1, rfl, rfl, ?_⟩
  have z : ∀ (m : ℕ × ℕ) (x : ℝ), (0 : Arr (ℕ × ℕ)) m + x = x := fun m x => zero_add x
  have hK : exDn.nPhys 0 = exD.nPhys 0 := rfl
  have hk : exDn.K 0 = exD.K 0 := rfl
  have hN : ∀ a, a < 2 → rN exDn true (exRig 0) exwn 0 a = if a = 1 then 1 else 0 := by
    intro a ha; interval_cases a <;> simp [rN, exwn]
  have hp : rGamInv (exRig 0) exwn * rSignU exDn true (exRig 0) exwn 0
      + (rGap exDn true (exRig 0) exwn 0 - rUn exDn true (exRig 0) exwn 0) = -(7 / 10) := by
    have hs : rSignU exDn true (exRig 0) exwn 0 = 3 := by
      have hg : exDn.gdim = 2 := rfl
      rw [rSignU, hg]
      simp only [sum_range_succ, sum_range_zero, hN 0 (by omega), hN 1 (by omega)]
      rw [rSigU_eq exDn (exRig 0) 0 1 (by rw [hg]; omega)]
      have := exRig_trac 1 (by omega)
      simp only [if_true] at this
      simp only [zero_ne_one, if_false, if_true, mul_zero, mul_one, zero_add]
      exact this
    have hgp : rGap exDn true (exRig 0) exwn 0 = 0 := by
      have hg : exDn.gdim = 2 := rfl
      rw [rGap, hg, rOff3]
      have ho : exDn.rdims.oGap = 3 := rfl
      simp [sum_range_succ, ho, exRig]
    have hu : rUn exDn true (exRig 0) exwn 0 = 1 := by
      have hg : exDn.gdim = 2 := rfl
      rw [rUn, hg, rOff4]
      have ho : exDn.rdims.oU = 5 := rfl
      simp [sum_range_succ, ho, exRig, hN 0 (by omega), hN 1 (by omega)]
    rw [hs, hgp, hu]
    simp [rGamInv, exRig, exwn]; norm_num
  have hs : rSignU exDn true (exRig 0) exwn 0 = 3 := by
    have hg : exDn.gdim = 2 := rfl
    rw [rSignU, hg]
    simp only [sum_range_succ, sum_range_zero, hN 0 (by omega), hN 1 (by omega)]
    rw [rSigU_eq exDn (exRig 0) 0 1 (by rw [hg]; omega)]
    have := exRig_trac 1 (by omega)
    simp only [if_true] at this
    simp only [zero_ne_one, if_false, if_true, mul_zero, mul_one, zero_add]
    exact this
  have hV : ∀ j : ℝ, rSignV exDn true (fun _ => j) (exRig 0) exwn 0 0 1 =
      j + normalStrain 2 2 (exDn.K 0) (exDn.dph 0) (rN exDn true (exRig 0) exwn 0) (exDn.nPhys 0) 0 1 := by
    intro j
    have hd : rNDot exDn true (fun _ => j) (exRig 0) exwn 0 = j := by
      have hg : exDn.gdim = 2 := rfl
      have hj : rNPhys0 exDn (fun _ => j) = fun _ => j := rfl
      rw [rNDot, if_pos rfl, hg, hj]
      simp [sum_range_succ, hN 0 (by omega), hN 1 (by omega)]
    have ht : strainTrace exDn.tdim (exDn.K 0) (exDn.dph 0) 0 1 = 1 := by
      rw [strainTrace_eq]
      have := ex_grad 0 0 1
      simp only [if_true] at this
      exact this
    rw [rSignV, hd, ht]
    simp only [exRig]
    simp [exDn, exD]
  have key : ∀ j : ℝ, rigidRhs exDn true (fun _ => j) (exRig 0) exwn 0 (0, 1) =
      -(3 / 10) * rSignV exDn true (fun _ => j) (exRig 0) exwn 0 0 1
        - 7 / 10 * (rSignV exDn true (fun _ => j) (exRig 0) exwn 0 0 1 - 10) := by
    intro j
    have := rigidRhs_at exDn true (fun _ => j) (exRig 0) exwn 0 1 (by simp [exDn, exD])
      (by simp [exDn, exD]) 0
    have e : (0, 0 * exDn.bs + 1) = ((0, 1) : ℕ × ℕ) := rfl
    rw [e, z] at this
    rw [this]
    have hq : exDn.nq = 1 := rfl
    rw [hq]
    simp only [List.range_succ, List.range_zero, List.nil_append, List.map_cons, List.map_nil,
      List.sum_cons, List.sum_nil, add_zero]
    rw [rigR, hp, hs, hN 1 (by omega), rMinus_of_nonpos (by norm_num)]
    have hw : rW0 exDn 0 = 1 := by simp [rW0, exDn, exD]
    have hph : exDn.ph 0 0 = 1 := rfl
    rw [hw, hph]
    simp only [rGamInv, rGam, exRig, exwn]
    norm_num
    ring
  rw [key, key, hV, hV]
  intro h
  linarith

/-! ### C78 -/

/-- C78 for rigid surfaces: every entry of the residual is the quadrature sum of the documented
Nitsche form tested with that entry's basis function.  Missing: a constant surface normal on a
non-affine cell. -/
theorem C78_rigid_partial (D : KD) (haff : AffineConst D) (const : Bool) (junk c w : ℕ → ℝ) (hbs : D.bs = D.gdim)
    (hconst : const = false ∨ D.affine = true) (b0 : Arr (ℕ × ℕ)) (i n : ℕ) (hi : i < D.nd)
    (hn : n < D.bs) :
    rigidRhs D const junk c w b0 (0, i * D.bs + n) = b0 (0, i * D.bs + n)
      + ∑ q ∈ range D.nq, |D.det (D.qStart + q)| * D.weights q * D.rdims.form const (facetPhi D)
          (facetGrad D) c w (facetNormal D q) q i n := by
  simp only [facetNormal_eq haff, facetGrad_eq haff, facetPhi_eq, ← det_eq haff] at *
  rw [rigidRhs_at D const junk c w i n hi hn b0]
  refine congrArg (_ + ·) (Eq.trans ?_ (list_sum_range _ _))
  exact list_sum_congr _ _ _ (fun q _ => rigR_spec D hbs const junk c w q i n hconst hn)

example : exD.bs = exD.gdim ∧ (true = false ∨ exD.affine = true) ∧ 0 < exD.nd ∧ 1 < exD.bs :=
  ⟨rfl, Or.inr rfl, by simp [exD], by simp [exD]⟩

end

end Verif.Kernels
