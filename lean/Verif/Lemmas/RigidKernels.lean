import Verif.Model.RigidKernels
import Verif.Spec.Rigid
import Verif.Lemmas.FrictionDerivative

namespace Verif.Kernels

open Verif.Elasticity Verif.Scalars Finset

noncomputable section

theorem list_sum_range (n : ℕ) (f : ℕ → ℝ) : ((List.range n).map f).sum = ∑ q ∈ range n, f q := by
  induction n with
  | zero => simp
  | succ n ih => rw [List.range_succ, List.map_append, List.sum_append, ih, sum_range_succ]; simp

theorem rOff3 (D : KD) : rOff D 3 = D.rdims.oGap := by
  simp [rOff, offsets, rigidStrides, Spec.RigidDims.oGap]

theorem rOff4 (D : KD) : rOff D 4 = D.rdims.oU := by
  simp [rOff, offsets, rigidStrides, Spec.RigidDims.oGap, Spec.RigidDims.oU, KD.rdims]; ring

theorem rOff5 (D : KD) : rOff D 5 = D.rdims.oGrad := by
  simp [rOff, offsets, rigidStrides, Spec.RigidDims.oGap, Spec.RigidDims.oU, Spec.RigidDims.oGrad,
    KD.rdims]; ring

theorem rOff6 (D : KD) : rOff D 6 = D.rdims.oNormal := by
  simp [rOff, offsets, rigidStrides, Spec.RigidDims.oGap, Spec.RigidDims.oU, Spec.RigidDims.oGrad,
    Spec.RigidDims.oNormal, KD.rdims]; ring

theorem rN_eq (D : KD) (cn : Bool) (c w : ℕ → ℝ) (q i : ℕ) :
    rN D cn c w q i = D.rdims.normal cn c w q i := by
  rw [rN, rOff6]; rfl

theorem rGap_eq (D : KD) (cn : Bool) (c w : ℕ → ℝ) (q : ℕ) :
    rGap D cn c w q = D.rdims.dotN cn c w q (fun a => c (D.rdims.oGap + q * D.rdims.g + a)) := by
  rw [rGap, rOff3, Spec.RigidDims.dotN]
  exact sum_congr rfl (fun a _ => by rw [rN_eq]; rfl)

theorem rUn_eq (D : KD) (cn : Bool) (c w : ℕ → ℝ) (q : ℕ) :
    rUn D cn c w q = D.rdims.dotN cn c w q (fun a => c (D.rdims.oU + q * D.rdims.g + a)) := by
  rw [rUn, rOff4, Spec.RigidDims.dotN]
  exact sum_congr rfl (fun a _ => by rw [rN_eq, mul_comm D.gdim q]; rfl)

theorem rSigU_eq (D : KD) (c : ℕ → ℝ) (q j : ℕ) (hj : j < D.gdim) :
    rSigU D c q j = D.rdims.trac c (D.nPhys q) q j := by
  rw [rSigU, sigmaNU_traction _ _ _ _ _ _ hj, rOff5, Spec.RigidDims.trac]
  congr 1
  funext a b
  congr 1
  show D.rdims.oGrad + q * D.gdim * D.gdim + (a * D.gdim + b) =
    D.rdims.oGrad + (q * D.gdim + a) * D.gdim + b
  ring

theorem rSignU_eq (D : KD) (cn : Bool) (c w : ℕ → ℝ) (q : ℕ) :
    rSignU D cn c w q = D.rdims.dotN cn c w q (D.rdims.trac c (D.nPhys q) q) := by
  rw [rSignU, Spec.RigidDims.dotN]
  exact sum_congr rfl (fun a ha => by rw [rN_eq, rSigU_eq D c q a (mem_range.mp ha)])

theorem rPressure_eq (D : KD) (cn : Bool) (c w : ℕ → ℝ) (q : ℕ) :
    rGamInv c w * rSignU D cn c w q + (rGap D cn c w q - rUn D cn c w q) =
      D.rdims.pressure cn c w (D.nPhys q) q := by
  rw [rSignU_eq, rGap_eq, rUn_eq, rGamInv, Spec.RigidDims.pressure]

/-- With an affine cell or a packed normal, `n_dot` is the product of the two normals. -/
theorem rNDot_eq (D : KD) (cn : Bool) (junk c w : ℕ → ℝ) (q : ℕ)
    (h : cn = false ∨ D.affine = true) :
    rNDot D cn junk c w q = ∑ i ∈ range D.gdim, D.nPhys q i * rN D cn c w q i := by
  rw [rNDot]
  rcases h with h | h
  · simp [h]
  · have e : D.nPhys 0 = D.nPhys q := by simp [KD.nPhys, KD.K, KD.at, h]
    rw [rNPhys0, if_pos h, e]
    split <;> rfl

theorem rSignV_eq (D : KD) (hbs : D.bs = D.gdim) (cn : Bool) (junk c w : ℕ → ℝ) (q i n : ℕ)
    (h : cn = false ∨ D.affine = true) (hn : n < D.bs) :
    rSignV D cn junk c w q i n = ∑ j ∈ range D.gdim, sigB D c q i n j * rN D cn c w q j := by
  rw [rSignV, rNDot_eq D cn junk c w q h]
  rw [hbs] at hn
  exact normal_component D.tdim D.gdim (D.K q) (D.dph q) (rN D cn c w q) (D.nPhys q) (c 0) (c 1) i n hn

/-- Residual contribution of one point. -/
def rigR (D : KD) (cn : Bool) (junk c w : ℕ → ℝ) (q i n : ℕ) : ℝ :=
  rW0 D q * (-w 1 * rGamInv c w * rSignV D cn junk c w q i n * rSignU D cn c w q
    + rMinus (rGamInv c w * rSignU D cn c w q + (rGap D cn c w q - rUn D cn c w q))
      * (w 1 * rSignV D cn junk c w q i n - rGam c w * (rN D cn c w q n * D.ph q i)))

/-- Matrix contribution of one point. -/
def rigJ (D : KD) (cn : Bool) (junk c w : ℕ → ℝ) (q _B i b _B' j l : ℕ) : ℝ :=
  rW0 D q * (-w 1 * rGamInv c w * rSignV D cn junk c w q j l * rSignV D cn junk c w q i b
    + dRMinus (rSignU D cn c w q + rGam c w * (rGap D cn c w q - rUn D cn c w q))
      * (rGamInv c w * rSignV D cn junk c w q j l - rN D cn c w q l * D.ph q j)
      * (w 1 * rSignV D cn junk c w q i b - rGam c w * (rN D cn c w q b * D.ph q i)))

theorem rigidRhs_at (D : KD) (cn : Bool) (junk c w : ℕ → ℝ) (i n : ℕ) (hi : i < D.nd) (hn : n < D.bs)
    (a : Arr (ℕ × ℕ)) :
    rigidRhs D cn junk c w a (0, i * D.bs + n) =
      a (0, i * D.bs + n) + ((List.range D.nq).map (fun q => rigR D cn junk c w q i n)).sum := by
  rw [Nat.add_comm (i * D.bs), rigidRhs]
  refine forEach_at _ _ _ _ (fun q _ a => ?_) a
  unfold rigidRhsPoint
  dsimp only
  refine (vec_value (fun i n => (AddsAt.id _).then_acc) hi hn 0 a).trans ?_
  simp only [if_true, zero_add, rigR]
  ring

theorem rigidJac_blocks (D : KD) (cn : Bool) (junk c w : ℕ → ℝ) :
    BlockValues D 0 (List.range D.nq) (rigidJac D cn junk c w 0) (rigJ D cn junk c w) := by
  intro i b j l hi hb hj hl
  have z : ∀ (m : ℕ × ℕ) (x : ℝ), (0 : Arr (ℕ × ℕ)) m + x = x := fun m x => zero_add x
  refine ⟨?_, fun k hk => absurd hk (by omega)⟩
  rw [rigidJac]
  refine (forEach_at _ _ _ _ (fun q _ a => ?_) 0).trans (z _ _)
  unfold rigidJacPoint
  dsimp only
  refine (mat_value (P := mIdx D) (fun _ _ _ _ => rfl) (fun j l i b => (AddsAt.id _).then_acc)
    hi hb hj hl 0 a).trans ?_
  simp only [if_true, zero_add, rigJ]
  ring

section RCarry

variable {D : KD} {cn : Bool} {c c' : ℕ → ℝ} {w : ℕ → ℝ} {W : ℕ → ℝ} {q : ℕ}

abbrev RCarries (D : KD) (c : ℕ → ℝ) (W : ℕ → ℝ) : Prop :=
  Spec.RigidCarries D.rdims D.ph (fun q i b => gradV D.tdim (D.K q) (D.dph q) i b) c W

theorem rUn_comb (hbs : D.bs = D.gdim) (h : RCarries D c W) (hq : q < D.nq) :
    rUn D cn c w q = comb D 0 (fun _ i n => rN D cn c w q n * D.ph q i) (fun _ => W) := by
  rw [rUn_eq, Spec.RigidDims.dotN, comb_split]
  simp only [range_zero, sum_empty, add_zero]
  rw [sum_congr rfl (fun a ha => by rw [h.u q a hq (mem_range.mp ha), sum_mul]), sum_comm]
  refine sum_congr rfl (fun i _ => ?_)
  rw [hbs]
  refine sum_congr rfl (fun n _ => ?_)
  rw [rN_eq]
  show D.ph q i * W (i * D.gdim + n) * _ = _
  ring

theorem rSigU_comb (hbs : D.bs = D.gdim) (h : RCarries D c W) (hq : q < D.nq) {j : ℕ}
    (hj : j < D.gdim) :
    rSigU D c q j = comb D 0 (fun _ i n => sigB D c q i n j) (fun _ => W) := by
  rw [rSigU, sigmaNU_interp D.gdim D.tdim D.nd (D.K q) (D.dph q) (D.nPhys q) (c 0) (c 1)
    (fun i m => W (i * D.gdim + m)) _ ?_ j hj]
  · rw [comb_split]
    simp only [range_zero, sum_empty, add_zero, hbs]
    rfl
  · intro a b ha hb
    have := h.grad q a b hq ha hb
    rw [rOff5 D]
    refine Eq.trans ?_ this
    congr 1
    show D.rdims.oGrad + q * D.gdim * D.gdim + (a * D.gdim + b)
      = D.rdims.oGrad + (q * D.gdim + a) * D.gdim + b
    ring

theorem rSignU_comb (hbs : D.bs = D.gdim) (h : RCarries D c W) (hq : q < D.nq) (junk : ℕ → ℝ)
    (ha : cn = false ∨ D.affine = true) :
    rSignU D cn c w q = comb D 0 (fun _ i n => rSignV D cn junk c w q i n) (fun _ => W) := by
  rw [rSignU, sum_congr rfl (fun j hj => by
    rw [rSigU_comb hbs h hq (mem_range.mp hj), mul_comm, ← comb_smul]), ← comb_sum]
  refine comb_congr D 0 _ (fun _ i n _ _ hn => ?_)
  rw [rSignV_eq D hbs cn junk c w q i n ha hn]
  exact sum_congr rfl (fun _ _ => by ring)

theorem rSame_small (h : Spec.RigidSame D.rdims c c') (m : ℕ) (hm : m < 3) : c m = c' m :=
  h m (Or.inl (by simp only [Spec.RigidDims.oU, Spec.RigidDims.oGap]; omega))

theorem rSame_N (h : Spec.RigidSame D.rdims c c') (q i : ℕ) : rN D cn c w q i = rN D cn c' w q i := by
  rw [rN, rN, rOff6, h _ (Or.inr (by omega))]

theorem rSame_gap (h : Spec.RigidSame D.rdims c c') (hq : q < D.nq) :
    rGap D cn c w q = rGap D cn c' w q := by
  unfold rGap
  refine sum_congr rfl (fun i hi => ?_)
  rw [rSame_N h, rOff3, h]
  left
  have := row_lt hq (mem_range.mp hi)
  simp only [Spec.RigidDims.oU]
  show _ < D.rdims.oGap + D.nq * D.gdim
  omega

theorem rSame_signV (h : Spec.RigidSame D.rdims c c') (junk : ℕ → ℝ) (q i n : ℕ) :
    rSignV D cn junk c w q i n = rSignV D cn junk c' w q i n := by
  have e : rN D cn c w q = rN D cn c' w q := by funext i; exact rSame_N h q i
  simp only [rSignV, rNDot, e, rSame_small h 0 (by omega), rSame_small h 1 (by omega)]

end RCarry

theorem rigR_deriv {D : KD} (hbs : D.bs = D.gdim) (cn : Bool) (junk : ℕ → ℝ)
    {c : ℝ → ℕ → ℝ} {w : ℕ → ℝ} {W : ℝ → ℕ → ℝ} {δ : ℕ → ℝ} {t : ℝ}
    (ha : cn = false ∨ D.affine = true)
    (hc : ∀ s, RCarries D (c s) (W s)) (hs : ∀ s, Spec.RigidSame D.rdims (c s) (c t))
    (hW : ∀ m, HasDerivAt (fun s => W s m) (δ m) t) {q : ℕ} (hq : q < D.nq)
    (hg : 0 < w 0 / c t 2)
    (hp : D.rdims.pressure cn (c t) w (D.nPhys q) q ≠ 0) {i n : ℕ} :
    HasDerivAt (fun s => rigR D cn junk (c s) w q i n)
      (comb D 0 (fun B' j l => rigJ D cn junk (c t) w q 0 i n B' j l) (fun _ => δ)) t := by
  have hU : HasDerivAt (fun s => rUn D cn (c s) w q)
      (comb D 0 (fun _ i n => rN D cn (c t) w q n * D.ph q i) (fun _ => δ)) t := by
    have : ∀ s, rUn D cn (c s) w q =
        comb D 0 (fun _ i n => rN D cn (c t) w q n * D.ph q i) (fun _ => W s) := fun s => by
      rw [rUn_comb hbs (hc s) hq]
      exact comb_congr D 0 _ (fun _ i n _ _ _ => by rw [rSame_N (hs s)])
    simp only [this]
    exact comb_deriv D 0 _ (fun s _ => W s) (fun _ => δ) t (fun _ m => hW m)
  have hS : HasDerivAt (fun s => rSignU D cn (c s) w q)
      (comb D 0 (fun _ i n => rSignV D cn junk (c t) w q i n) (fun _ => δ)) t := by
    have : ∀ s, rSignU D cn (c s) w q =
        comb D 0 (fun _ i n => rSignV D cn junk (c t) w q i n) (fun _ => W s) := fun s => by
      rw [rSignU_comb hbs (hc s) hq junk ha]
      exact comb_congr D 0 _ (fun _ i n _ _ _ => by rw [rSame_signV (hs s)])
    simp only [this]
    exact comb_deriv D 0 _ (fun s _ => W s) (fun _ => δ) t (fun _ m => hW m)
  have eg : ∀ s, rGamInv (c s) w = rGamInv (c t) w := fun s => by
    rw [rGamInv, rGamInv, rSame_small (hs s) 2 (by omega)]
  have eg' : ∀ s, rGam (c s) w = rGam (c t) w := fun s => by
    rw [rGam, rGam, rSame_small (hs s) 2 (by omega)]
  have hP : HasDerivAt (fun s => rGamInv (c s) w * rSignU D cn (c s) w q
        + (rGap D cn (c s) w q - rUn D cn (c s) w q))
      (rGamInv (c t) w * comb D 0 (fun _ i n => rSignV D cn junk (c t) w q i n) (fun _ => δ)
        + -(comb D 0 (fun _ i n => rN D cn (c t) w q n * D.ph q i) (fun _ => δ))) t := by
    simp only [eg, rSame_gap (hs _) hq]
    exact (hS.const_mul _).fun_add (hU.const_sub _)
  have hR := hasDerivAt_rMinus_comp hP (by rw [rPressure_eq D]; exact hp)
  have ed : dRMinus (rGamInv (c t) w * rSignU D cn (c t) w q
        + (rGap D cn (c t) w q - rUn D cn (c t) w q)) =
      dRMinus (rSignU D cn (c t) w q + rGam (c t) w * (rGap D cn (c t) w q - rUn D cn (c t) w q)) := by
    have h1 : rGam (c t) w * rGamInv (c t) w = 1 := by
      have hw : w 0 ≠ 0 := by rintro h; rw [h, zero_div] at hg; exact lt_irrefl _ hg
      have hh : c t 2 ≠ 0 := by rintro h; rw [h, div_zero] at hg; exact lt_irrefl _ hg
      rw [rGam, rGamInv]; field_simp
    have hg' : 0 < rGam (c t) w := hg
    have h2 : rSignU D cn (c t) w q + rGam (c t) w * (rGap D cn (c t) w q - rUn D cn (c t) w q) =
        rGam (c t) w * (rGamInv (c t) w * rSignU D cn (c t) w q
          + (rGap D cn (c t) w q - rUn D cn (c t) w q)) := by
      rw [mul_add, ← mul_assoc, h1, one_mul]
    rw [h2]
    simp only [dRMinus]
    congr 1
    rw [eq_iff_iff]
    constructor
    · intro h; exact mul_neg_of_pos_of_neg hg' h
    · intro h; by_contra h'; exact absurd h (not_lt.mpr (mul_nonneg hg'.le (not_lt.mp h')))
  have e : (fun s => rigR D cn junk (c s) w q i n) = fun s => rW0 D q *
      (-w 1 * rGamInv (c t) w * rSignV D cn junk (c t) w q i n * rSignU D cn (c s) w q
      + rMinus (rGamInv (c s) w * rSignU D cn (c s) w q + (rGap D cn (c s) w q - rUn D cn (c s) w q))
        * (w 1 * rSignV D cn junk (c t) w q i n - rGam (c t) w * (rN D cn (c t) w q n * D.ph q i))) := by
    funext s
    rw [rigR, rSame_signV (hs s), rSame_N (hs s), eg' s, eg s]
  rw [e]
  refine (((hS.const_mul (-w 1 * rGamInv (c t) w * rSignV D cn junk (c t) w q i n)).fun_add
    (hR.mul_const _)).const_mul (rW0 D q)).congr_deriv ?_
  rw [ed]
  have e2 : (fun B' j l => rigJ D cn junk (c t) w q 0 i n B' j l) = fun B' j l =>
      (rW0 D q * (-w 1 * rGamInv (c t) w * rSignV D cn junk (c t) w q i n
        + dRMinus (rSignU D cn (c t) w q + rGam (c t) w * (rGap D cn (c t) w q - rUn D cn (c t) w q))
          * rGamInv (c t) w * (w 1 * rSignV D cn junk (c t) w q i n
            - rGam (c t) w * (rN D cn (c t) w q n * D.ph q i)))) * rSignV D cn junk (c t) w q j l
      + (-(rW0 D q * (dRMinus (rSignU D cn (c t) w q
          + rGam (c t) w * (rGap D cn (c t) w q - rUn D cn (c t) w q))
          * (w 1 * rSignV D cn junk (c t) w q i n
            - rGam (c t) w * (rN D cn (c t) w q n * D.ph q i))))) * (rN D cn (c t) w q l * D.ph q j) := by
    funext B' j l; simp only [rigJ]; ring
  rw [e2, comb_add, comb_smul, comb_smul]
  ring

theorem rigR_spec (D : KD) (hbs : D.bs = D.gdim) (cn : Bool) (junk c w : ℕ → ℝ) (q i n : ℕ)
    (ha : cn = false ∨ D.affine = true) (hn : n < D.bs) :
    rigR D cn junk c w q i n = |D.det (D.at q)| * D.weights q *
      D.rdims.form cn D.ph D.grad c w (D.nPhys q) q i n := by
  have hn' : n < D.gdim := hbs ▸ hn
  have e1 : rSignV D cn junk c w q i n = D.rdims.dotN cn c w q
      (Spec.traction D.rdims.g (c 0) (c 1) (fun a b => if a = n then D.grad q i b else 0)
        (D.nPhys q)) := by
    rw [rSignV_eq D hbs cn junk c w q i n ha hn, Spec.RigidDims.dotN]
    refine sum_congr rfl (fun a ha => ?_)
    rw [rN_eq, sigB, sigmaNBasis_traction _ _ _ _ _ _ _ _ _ _ hn' (mem_range.mp ha)]
    rfl
  have e2 : rN D cn c w q n * D.ph q i =
      D.rdims.dotN cn c w q (fun a => if a = n then D.ph q i else 0) := by
    have : D.rdims.g = D.gdim := rfl
    simp only [Spec.RigidDims.dotN, this, ite_mul, zero_mul, sum_ite_eq', mem_range.mpr hn', if_true]
    rw [rN_eq]; ring
  have e3 : ∀ x, rMinus x = min 0 x := by
    intro x
    rcases le_total 0 x with h | h
    · rw [rMinus_of_nonneg h, min_eq_left h]
    · rw [rMinus_of_nonpos h, min_eq_right h]
  rw [rigR, rPressure_eq, e1, e2, e3, rSignU_eq]
  rfl

end

end Verif.Kernels
