import Verif.Model.ContactKernels
import Verif.Spec.FacetGeometry
import Verif.Lib.AddsAt
import Verif.Lemmas.Elasticity
import Verif.Lemmas.Scalars
import Mathlib.Tactic.NormNum

namespace Verif.Kernels

open Verif.Elasticity Verif.Scalars Finset

noncomputable section

/-! ### layout -/

theorem off1 (D : KD) : D.off 1 = D.dims.oGap := by
  simp [KD.off, offsets, KD.cstrides, Spec.Dims.oGap]
theorem off2 (D : KD) : D.off 2 = D.dims.oNormal := by
  simp [KD.off, offsets, KD.cstrides, Spec.Dims.oNormal, KD.dims]
theorem off3 (D : KD) : D.off 3 = D.dims.oTest := by
  simp [KD.off, offsets, KD.cstrides, Spec.Dims.oTest, KD.dims]; ring
theorem off4 (D : KD) (h : D.bs = D.gdim) : D.off 4 = D.dims.oU := by
  simp [KD.off, offsets, KD.cstrides, Spec.Dims.oU, Spec.Dims.oTest, KD.dims, h]; ring
theorem off5 (D : KD) (h : D.bs = D.gdim) : D.off 5 = D.dims.oGrad := by
  simp [KD.off, offsets, KD.cstrides, Spec.Dims.oGrad, Spec.Dims.oU, Spec.Dims.oTest, KD.dims, h]
  ring
theorem off6 (D : KD) (h : D.bs = D.gdim) : D.off 6 = D.dims.oOpp := by
  simp [KD.off, offsets, KD.cstrides, Spec.Dims.oOpp, Spec.Dims.oGrad, Spec.Dims.oU,
    Spec.Dims.oTest, KD.dims, h]; ring
theorem off7 (D : KD) (h : D.bs = D.gdim) : D.off 7 = D.dims.oOld := by
  simp [KD.off, offsets, KD.cstrides, Spec.Dims.oOld, Spec.Dims.oOpp, Spec.Dims.oGrad, Spec.Dims.oU,
    Spec.Dims.oTest, KD.dims, h]; ring

theorem tIdx_eq (D : KD) (h : D.bs = D.gdim) (c : ℕ → ℝ) (q k i n : ℕ) :
    c (tIdx D q k i n) = D.dims.test c q k i n := by
  rw [tIdx, off3, Spec.Dims.test, h]
  congr 1
  simp only [KD.dims]; ring

theorem nSurf_eq (D : KD) (c : ℕ → ℝ) (q i : ℕ) : nSurf D c q i = D.dims.normal c q i := by
  rw [nSurf, off2]; rfl

theorem nOld_eq (D : KD) (h : D.bs = D.gdim) (c : ℕ → ℝ) (q i : ℕ) :
    nOld D c q i = D.dims.oldNormal c q i := by
  rw [nOld, off7 D h]; rfl

theorem gap_eq (D : KD) (c : ℕ → ℝ) (q : ℕ) : gap D c q = D.dims.gapN c q := by
  simp only [gap, off1, nSurf_eq]; rfl

theorem sigU_eq (D : KD) (h : D.bs = D.gdim) (c : ℕ → ℝ) (q i : ℕ) (hi : i < D.gdim) :
    sigU D c q i = D.dims.trac c (D.nPhys q) q i := by
  rw [sigU, sigmaNU_traction _ _ _ _ _ _ hi, Spec.Dims.trac, off5 D h]
  have : ∀ a b, D.dims.oGrad + q * D.gdim * D.gdim + (a * D.gdim + b) =
      D.dims.oGrad + (q * D.dims.g + a) * D.dims.g + b := by
    intro a b; simp only [KD.dims]; ring
  simp only [this]; rfl

theorem signU_eq (D : KD) (h : D.bs = D.gdim) (c : ℕ → ℝ) (q : ℕ) :
    signU D c q = D.dims.dotN c q (D.dims.trac c (D.nPhys q) q) := by
  simp only [signU, Spec.Dims.dotN]
  refine sum_congr rfl (fun i hi => ?_)
  rw [sigU_eq D h c q i (mem_range.mp hi), nSurf_eq]

theorem jump_eq (D : KD) (h : D.bs = D.gdim) (c : ℕ → ℝ) (q j : ℕ) :
    c (D.off 4 + D.gdim * q + j) - c (D.off 6 + q * D.bs + j) = D.dims.jump c q j := by
  rw [off4 D h, off6 D h, h, Nat.mul_comm]; rfl

theorem jumpN_eq (D : KD) (h : D.bs = D.gdim) (c : ℕ → ℝ) (q : ℕ) :
    jumpN D c q = D.dims.dotN c q (D.dims.jump c q) := by
  rw [jumpN, h, ← sum_add_distrib, Spec.Dims.dotN]
  refine sum_congr rfl (fun j _ => ?_)
  rw [← jump_eq D h, nSurf_eq, h]; ring

theorem pressure_eq (D : KD) (h : D.bs = D.gdim) (c w : ℕ → ℝ) (q : ℕ) :
    (jumpN D c q - gap D c q) - gam c w * signU D c q = D.dims.pressure c w (D.nPhys q) q := by
  rw [jumpN_eq D h, gap_eq, signU_eq D h, gam]; rfl

theorem tang_sig (D : KD) (h : D.bs = D.gdim) (c : ℕ → ℝ) (q j : ℕ) (hj : j < D.gdim) :
    sigU D c q j - signU D c q * nSurf D c q j =
      D.dims.tang c q (D.dims.trac c (D.nPhys q) q) j := by
  rw [signU_eq D h, sigU_eq D h c q j hj, nSurf_eq]; rfl

theorem ptU_eq (D : KD) (h : D.bs = D.gdim) (c w : ℕ → ℝ) (q j : ℕ) (hj : j < D.gdim) :
    ptU D c w q j = D.dims.slip c w (D.nPhys q) q j := by
  rw [ptU, jump_eq D h, jumpN_eq D h, tang_sig D h c q j hj, nSurf_eq]; rfl

theorem ptUc_eq (D : KD) (h : D.bs = D.gdim) (c w : ℕ → ℝ) (q j : ℕ) (hj : j < D.gdim) :
    ptUc D c w q j = D.dims.slipC c w (D.nPhys q) q j := by
  rw [ptUc, vRel, jump_eq D h, tang_sig D h c q j hj, Spec.Dims.slipC, ← ptU_eq D h c w q j hj, ptU,
    jump_eq D h, tang_sig D h c q j hj, gap_eq, jumpN_eq D h, nOld_eq D h]
  have : nDotN D c q = D.dims.dotN c q (D.dims.oldNormal c q) := by
    rw [nDotN, Spec.Dims.dotN]
    refine sum_congr rfl (fun j _ => ?_)
    rw [nSurf_eq, nOld_eq D h]; ring
  rw [this, nSurf_eq]; simp only [Spec.Dims.tang]; ring

/-! ### dof functionals -/

/-- Normal displacement jump of the dof `(B, i, n)`. -/
def NF (D : KD) (c : ℕ → ℝ) (q : ℕ) : ℕ → ℕ → ℕ → ℝ
  | 0, i, n => nSurf D c q n * D.ph q i
  | k + 1, i, n => -(c (tIdx D q k i n) * nSurf D c q n)

/-- Normal traction of the dof `(B, i, n)`. -/
def SF (D : KD) (c : ℕ → ℝ) (q : ℕ) : ℕ → ℕ → ℕ → ℝ
  | 0, i, n => signV D c q i n
  | _ + 1, _, _ => 0

/-- Tangential displacement jump of the dof `(B, i, n)`, component `j`. -/
def TF (D : KD) (c : ℕ → ℝ) (q : ℕ) : ℕ → ℕ → ℕ → ℕ → ℝ
  | 0, i, n, j => (if j = n then D.ph q i else 0) - nSurf D c q n * D.ph q i * nSurf D c q j
  | k + 1, i, n, j => -((if j = n then c (tIdx D q k i n) else 0)
      - c (tIdx D q k i n) * nSurf D c q n * nSurf D c q j)

/-- Tangential traction of the dof `(B, i, n)`, component `j`. -/
def ST (D : KD) (c : ℕ → ℝ) (q : ℕ) : ℕ → ℕ → ℕ → ℕ → ℝ
  | 0, i, n, j => sigB D c q i n j - signV D c q i n * nSurf D c q j
  | _ + 1, _, _, _ => 0

/-! ### frictionless kernels: closed form -/

/-- Contribution of point `q` to the residual entry of the dof `(B, i, n)`. -/
def unbR (D : KD) (c w : ℕ → ℝ) (q B i n : ℕ) : ℝ :=
  D.w0 q * (0.5 * gamInv c w * rPlus ((jumpN D c q - gap D c q) - gam c w * signU D c q)
      * (NF D c q B i n - gam c w * w 1 * SF D c q B i n)
    - 0.5 * w 1 * gam c w * signU D c q * SF D c q B i n)

theorem unbiasedRhsPoint_at (D : KD) (c w : ℕ → ℝ) (links q B i n : ℕ) (hi : i < D.nd)
    (hn : n < D.bs) (hB : B < links + 1) (a : Arr (ℕ × ℕ)) :
    unbiasedRhsPoint D c w links q a (B, n + i * D.bs) =
      a (B, n + i * D.bs) + unbR D c w q B i n := by
  unfold unbiasedRhsPoint
  dsimp only
  refine (vec_value (fun i n =>
    ((AddsAt.id _).then_acc.then_acc.then_loop (fun k => (AddsAt.id _).then_acc)))
    hi hn B a).trans ?_
  congr 1
  cases B with
  | zero => simp only [v01, if_true, if_false, sum_const_zero, add_zero, unbR, NF, SF]; ring
  | succ k =>
    have hk : k ∈ range links := mem_range.mpr (by omega)
    simp only [v10, v11, if_false, zero_add, add_zero, sum_ite_eq, hk, if_true, unbR, NF, SF]
    ring

/-- Contribution of point `q` to the matrix entry of the dofs `(B, i, b)` (row) and `(B', j, l)`. -/
def unbJ (D : KD) (c w : ℕ → ℝ) (q B i b B' j l : ℕ) : ℝ :=
  D.w0 q * (0.5 * gamInv c w * dRPlus ((jumpN D c q - gap D c q) - gam c w * signU D c q)
      * (NF D c q B' j l - gam c w * SF D c q B' j l)
      * (NF D c q B i b - gam c w * w 1 * SF D c q B i b)
    - 0.5 * w 1 * gam c w * SF D c q B' j l * SF D c q B i b)

theorem unbiasedJacPoint_at (D : KD) (c w : ℕ → ℝ) (links q i b j l : ℕ) (hi : i < D.nd)
    (hb : b < D.bs) (hj : j < D.nd) (hl : l < D.bs) (a : Arr (ℕ × ℕ)) :
    unbiasedJacPoint D c w links q a (0, mIdx D i b j l) =
        a (0, mIdx D i b j l) + unbJ D c w q 0 i b 0 j l
    ∧ ∀ k, k < links →
      unbiasedJacPoint D c w links q a (3 * k + 1, mIdx D i b j l) =
        a (3 * k + 1, mIdx D i b j l) + unbJ D c w q 0 i b (k + 1) j l
      ∧ unbiasedJacPoint D c w links q a (3 * k + 2, mIdx D i b j l) =
        a (3 * k + 2, mIdx D i b j l) + unbJ D c w q (k + 1) i b 0 j l
      ∧ unbiasedJacPoint D c w links q a (3 * k + 3, mIdx D i b j l) =
        a (3 * k + 3, mIdx D i b j l) + unbJ D c w q (k + 1) i b (k + 1) j l := by
  unfold unbiasedJacPoint
  dsimp only
  refine ⟨(mat_value (P := mIdx D) (fun _ _ _ _ => rfl) (fun j l i b =>
      ((AddsAt.id _).then_acc.then_loop (fun k => (AddsAt.id _).then_acc.then_acc.then_acc)))
      hi hb hj hl _ a).trans ?_, fun k hk =>
    ⟨(mat_value (P := mIdx D) (fun _ _ _ _ => rfl) (fun j l i b =>
      ((AddsAt.id _).then_acc.then_loop (fun k => (AddsAt.id _).then_acc.then_acc.then_acc)))
      hi hb hj hl _ a).trans ?_,
     (mat_value (P := mIdx D) (fun _ _ _ _ => rfl) (fun j l i b =>
      ((AddsAt.id _).then_acc.then_loop (fun k => (AddsAt.id _).then_acc.then_acc.then_acc)))
      hi hb hj hl _ a).trans ?_,
     (mat_value (P := mIdx D) (fun _ _ _ _ => rfl) (fun j l i b =>
      ((AddsAt.id _).then_acc.then_loop (fun k => (AddsAt.id _).then_acc.then_acc.then_acc)))
      hi hb hj hl _ a).trans ?_⟩⟩
  · simp only [b01, b02, b03, if_true, if_false, sum_const_zero, add_zero, unbJ, NF, SF]
    ring
  all_goals
    have hk := mem_range.mpr hk
    simp only [b10, b11, b12, b13, b20, b21, b22, b23, b30, b31, b32, b33, if_false, zero_add,
      add_zero, sum_ite_eq, hk, if_true, unbJ, NF, SF]
    ring

/-! ### friction kernels: closed form -/

theorem sum_delta (bs n : ℕ) (hn : n < bs) (p y : ℕ → ℝ) (x : ℝ) :
    ∑ j ∈ range bs, p j * ((if j = n then x else 0) + y j) = p n * x + ∑ j ∈ range bs, p j * y j := by
  simp only [mul_add, sum_add_distrib, mul_ite, mul_zero, sum_ite_eq', mem_range.mpr hn, if_true]

theorem sum_comb {bs : ℕ} {f g h : ℕ → ℝ} {k1 k2 : ℝ} (e : ∀ n, f n = k1 * g n - k2 * h n) :
    ∑ n ∈ range bs, f n = k1 * ∑ n ∈ range bs, g n - k2 * ∑ n ∈ range bs, h n := by
  rw [mul_sum, mul_sum, ← sum_sub_distrib]; exact sum_congr rfl (fun n _ => e n)

/-- Contribution of point `q` to the friction residual of the dof `(B, i, n)`; `proj` is the
projected slip. -/
def friR (D : KD) (c w : ℕ → ℝ) (q : ℕ) (proj : ℕ → ℝ) (B i n : ℕ) : ℝ :=
  D.w0 q * (0.5 * gamInv c w * ∑ j ∈ range D.bs,
      proj j * (TF D c q B i n j - w 1 * gam c w * ST D c q B i n j)
    - 0.5 * gam c w * w 1 * ∑ j ∈ range D.bs,
      (sigU D c q j - signU D c q * nSurf D c q j) * ST D c q B i n j)

theorem frictionRhsFill_at (D : KD) (c w : ℕ → ℝ) (links q : ℕ) (proj : ℕ → ℝ) (B i n : ℕ)
    (hi : i < D.nd) (hn : n < D.bs) (hB : B < links + 1) (a : Arr (ℕ × ℕ)) :
    frictionRhsFill D c w links q proj a (B, n + i * D.bs) =
      a (B, n + i * D.bs) + friR D c w q proj B i n := by
  unfold frictionRhsFill
  dsimp only
  refine (vec_value (fun i n =>
    (((AddsAt.id _).then_acc.then_loop (fun j => (AddsAt.id _).then_acc)).then_loop (fun k =>
      ((AddsAt.id _).then_acc.then_loop (fun j => (AddsAt.id _).then_acc)))))
    hi hn B a).trans ?_
  congr 1
  cases B with
  | zero =>
    simp only [v01, if_true, if_false, sum_const_zero, add_zero, zero_add, friR]
    have e : ∑ j ∈ range D.bs, proj j * (TF D c q 0 i n j - w 1 * gam c w * ST D c q 0 i n j) =
        ∑ j ∈ range D.bs, proj j * ((if j = n then D.ph q i else 0)
          + (-(nSurf D c q n * D.ph q i) * nSurf D c q j - w 1 * gam c w
            * (sigB D c q i n j - signV D c q i n * nSurf D c q j))) :=
      sum_congr rfl (fun j _ => by simp only [TF, ST]; ring)
    rw [e, sum_delta _ _ hn, sum_sub_distrib]
    simp only [ST, mul_sum, mul_add, mul_sub]
    simp only [← add_sub_assoc]
    congr 1
    · congr 1
      · ring
      · exact sum_congr rfl (fun j _ => by ring)
    · exact sum_congr rfl (fun j _ => by ring)
  | succ k =>
    have hk : k ∈ range links := mem_range.mpr (by omega)
    simp only [v10, v11, if_false, zero_add, add_zero, sum_add_distrib, sum_if, sum_ite_eq, hk,
      if_true, friR, sum_const_zero]
    have e : ∑ j ∈ range D.bs, proj j * (TF D c q (k + 1) i n j - w 1 * gam c w
          * ST D c q (k + 1) i n j) =
        ∑ j ∈ range D.bs, proj j * ((if j = n then -c (tIdx D q k i n) else 0)
          + c (tIdx D q k i n) * nSurf D c q n * nSurf D c q j) :=
      sum_congr rfl (fun j _ => by simp only [TF, ST]; split <;> ring)
    rw [e, sum_delta _ _ hn]
    simp only [ST, mul_zero, sum_const_zero, sub_zero, mul_sum, mul_add]
    congr 1
    · ring
    · exact sum_congr rfl (fun j _ => by ring)

/-- Direction of the slip produced by the dof `(B, j, l)`, Tresca. -/
def xT (D : KD) (c w : ℕ → ℝ) (q B j l n : ℕ) : ℝ :=
  TF D c q B j l n - gam c w * ST D c q B j l n

/-- Direction of the slip produced by the dof `(B, j, l)`, Coulomb. -/
def xC (D : KD) (c w : ℕ → ℝ) (q B j l n : ℕ) : ℝ :=
  TF D c q B j l n + NF D c q B j l * (nOld D c q n - nDotN D c q * nSurf D c q n)
    - gam c w * ST D c q B j l n

/-- Contribution of point `q` to the friction matrix entry of the dofs `(B, i, b)` (row) and
`(B', j, l)`; `Y` is the derivative of the projected slip along the column dof. -/
def friJ (D : KD) (c w : ℕ → ℝ) (q : ℕ) (Y : ℕ → ℝ) (B i b B' j l : ℕ) : ℝ :=
  D.w0 q * (0.5 * gamInv c w * ∑ m ∈ range D.bs,
      Y m * (TF D c q B i b m - w 1 * gam c w * ST D c q B i b m)
    - 0.5 * gam c w * w 1 * ∑ m ∈ range D.bs, ST D c q B' j l m * ST D c q B i b m)

/-- Derivative of the projected slip, Tresca. -/
def yT (D : KD) (c w : ℕ → ℝ) (q B j l m : ℕ) : ℝ :=
  ∑ n ∈ range D.bs, dBallProjection (vec3 D.bs (ptU D c w q)) (gam c w * c 2) D.bs (n * D.bs + m)
    * xT D c w q B j l n

/-- Matrix of the derivative of the projection, Coulomb. -/
def pC (D : KD) (c w : ℕ → ℝ) (q : ℕ) : ℕ → ℝ :=
  dBallProjection (vec3 D.bs (ptUc D c w q))
    (c 2 * rPlus ((jumpN D c q - gap D c q) - gam c w * signU D c q)) D.bs

/-- Derivative of the projection with respect to the normal pressure, Coulomb. -/
def aC (D : KD) (c w : ℕ → ℝ) (q : ℕ) : ℕ → ℝ :=
  at3 (dAlphaBallProjection (vec3 D.bs (ptUc D c w q))
    (c 2 * rPlus ((jumpN D c q - gap D c q) - gam c w * signU D c q))
    (dRPlus ((jumpN D c q - gap D c q) - gam c w * signU D c q) * c 2))

/-- Part of the derivative of the projected slip at fixed radius. -/
def zC (D : KD) (c w : ℕ → ℝ) (q B j l m : ℕ) : ℝ :=
  ∑ n ∈ range D.bs, pC D c w q (n * D.bs + m) * xC D c w q B j l n

/-- Derivative of the projected slip, Coulomb. -/
def yC (D : KD) (c w : ℕ → ℝ) (q B j l m : ℕ) : ℝ :=
  zC D c w q B j l m + aC D c w q m * (NF D c q B j l - gam c w * SF D c q B j l)

theorem cell_expand (D : KD) (c w : ℕ → ℝ) (q i b : ℕ) (hb : b < D.bs) (Y : ℕ → ℝ) :
    ∑ m ∈ range D.bs, Y m * (TF D c q 0 i b m - w 1 * gam c w * ST D c q 0 i b m) =
      Y b * D.ph q i + ∑ m ∈ range D.bs, Y m * (-(nSurf D c q b * D.ph q i) * nSurf D c q m
        - w 1 * gam c w * (sigB D c q i b m - signV D c q i b * nSurf D c q m)) := by
  rw [← sum_delta _ _ hb]
  exact sum_congr rfl (fun j _ => by simp only [TF, ST]; ring)

theorem link_expand (D : KD) (c w : ℕ → ℝ) (q k i b : ℕ) (hb : b < D.bs) (Y : ℕ → ℝ) :
    ∑ m ∈ range D.bs, Y m * (TF D c q (k + 1) i b m - w 1 * gam c w * ST D c q (k + 1) i b m) =
      Y b * -c (tIdx D q k i b) + ∑ m ∈ range D.bs, Y m * (c (tIdx D q k i b) * nSurf D c q b
        * nSurf D c q m) := by
  rw [← sum_delta _ _ hb]
  exact sum_congr rfl (fun j _ => by simp only [TF, ST]; split <;> ring)

theorem yT_cell (D : KD) (c w : ℕ → ℝ) (q j l m : ℕ) (hl : l < D.bs) :
    dBallProjection (vec3 D.bs (ptU D c w q)) (gam c w * c 2) D.bs (l * D.bs + m) * D.ph q j
      - ∑ n ∈ range D.bs, dBallProjection (vec3 D.bs (ptU D c w q)) (gam c w * c 2) D.bs
          (n * D.bs + m) * (nSurf D c q l * D.ph q j * nSurf D c q n + gam c w
            * (sigB D c q j l n - signV D c q j l * nSurf D c q n)) = yT D c w q 0 j l m := by
  set P := dBallProjection (vec3 D.bs (ptU D c w q)) (gam c w * c 2) D.bs with hP
  have e : yT D c w q 0 j l m = ∑ n ∈ range D.bs, P (n * D.bs + m) * ((if n = l then D.ph q j else 0)
      + -(nSurf D c q l * D.ph q j * nSurf D c q n + gam c w
            * (sigB D c q j l n - signV D c q j l * nSurf D c q n))) := by
    simp only [yT, ← hP]
    exact sum_congr rfl (fun j _ => by simp only [xT, TF, ST]; ring)
  rw [e, sum_delta _ _ hl (fun n => P (n * D.bs + m))]
  simp only [mul_neg, sum_neg_distrib]; ring

theorem yT_link (D : KD) (c w : ℕ → ℝ) (q k j l m : ℕ) (hl : l < D.bs) :
    dBallProjection (vec3 D.bs (ptU D c w q)) (gam c w * c 2) D.bs (l * D.bs + m)
        * c (tIdx D q k j l)
      - ∑ n ∈ range D.bs, dBallProjection (vec3 D.bs (ptU D c w q)) (gam c w * c 2) D.bs
          (n * D.bs + m) * (c (tIdx D q k j l) * nSurf D c q l) * nSurf D c q n
      = -yT D c w q (k + 1) j l m := by
  set P := dBallProjection (vec3 D.bs (ptU D c w q)) (gam c w * c 2) D.bs with hP
  have e : yT D c w q (k + 1) j l m = ∑ n ∈ range D.bs, P (n * D.bs + m)
      * ((if n = l then -c (tIdx D q k j l) else 0)
      + c (tIdx D q k j l) * nSurf D c q l * nSurf D c q n) := by
    simp only [yT, ← hP]
    exact sum_congr rfl (fun j _ => by simp only [xT, TF, ST]; split <;> ring)
  rw [e, sum_delta _ _ hl (fun n => P (n * D.bs + m))]
  simp only [← mul_assoc]; ring

theorem trescaJacPoint_at (D : KD) (c w : ℕ → ℝ) (links q i b j l : ℕ) (hi : i < D.nd)
    (hb : b < D.bs) (hj : j < D.nd) (hl : l < D.bs)
    (horth : ∀ k, k < links → ∑ m ∈ range D.bs, yT D c w q (k + 1) j l m * nSurf D c q m = 0)
    (a : Arr (ℕ × ℕ)) :
    trescaJacPoint D c w links q a (0, mIdx D i b j l) =
        a (0, mIdx D i b j l) + friJ D c w q (yT D c w q 0 j l) 0 i b 0 j l
    ∧ ∀ k, k < links →
      trescaJacPoint D c w links q a (3 * k + 1, mIdx D i b j l) =
        a (3 * k + 1, mIdx D i b j l) + friJ D c w q (yT D c w q (k + 1) j l) 0 i b (k + 1) j l
      ∧ trescaJacPoint D c w links q a (3 * k + 2, mIdx D i b j l) =
        a (3 * k + 2, mIdx D i b j l) + friJ D c w q (yT D c w q 0 j l) (k + 1) i b 0 j l
      ∧ trescaJacPoint D c w links q a (3 * k + 3, mIdx D i b j l) =
        a (3 * k + 3, mIdx D i b j l)
          + friJ D c w q (yT D c w q (k + 1) j l) (k + 1) i b (k + 1) j l := by
  unfold trescaJacPoint
  dsimp only
  refine ⟨(mat_value (P := mIdx D) (fun _ _ _ _ => rfl) (fun j l i b =>
      (((AddsAt.id _).then_acc.then_loop (fun n => (AddsAt.id _).then_acc)).then_loop (fun k =>
        ((AddsAt.id _).then_acc.then_acc.then_acc.then_loop (fun n =>
          (AddsAt.id _).then_acc.then_acc.then_acc))))) hi hb hj hl _ a).trans ?_, fun k hk =>
    ⟨(mat_value (P := mIdx D) (fun _ _ _ _ => rfl) (fun j l i b =>
      (((AddsAt.id _).then_acc.then_loop (fun n => (AddsAt.id _).then_acc)).then_loop (fun k =>
        ((AddsAt.id _).then_acc.then_acc.then_acc.then_loop (fun n =>
          (AddsAt.id _).then_acc.then_acc.then_acc))))) hi hb hj hl _ a).trans ?_,
     (mat_value (P := mIdx D) (fun _ _ _ _ => rfl) (fun j l i b =>
      (((AddsAt.id _).then_acc.then_loop (fun n => (AddsAt.id _).then_acc)).then_loop (fun k =>
        ((AddsAt.id _).then_acc.then_acc.then_acc.then_loop (fun n =>
          (AddsAt.id _).then_acc.then_acc.then_acc))))) hi hb hj hl _ a).trans ?_,
     (mat_value (P := mIdx D) (fun _ _ _ _ => rfl) (fun j l i b =>
      (((AddsAt.id _).then_acc.then_loop (fun n => (AddsAt.id _).then_acc)).then_loop (fun k =>
        ((AddsAt.id _).then_acc.then_acc.then_acc.then_loop (fun n =>
          (AddsAt.id _).then_acc.then_acc.then_acc))))) hi hb hj hl _ a).trans ?_⟩⟩
  · simp only [b01, b02, b03, if_true, if_false, sum_const_zero, add_zero, zero_add,
      yT_cell D c w q j l _ hl, friJ, cell_expand D c w q i b hb]
    rw [sum_sub_distrib]
    simp only [ST, mul_sum, mul_add, mul_sub]
    simp only [← add_sub_assoc]
    congr 1
    congr 1
    · congr 1
      · ring
      · exact sum_congr rfl (fun j _ => by ring)
    · exact sum_congr rfl (fun j _ => by ring)
  all_goals
    have hkr := mem_range.mpr hk
    simp only [b10, b11, b12, b13, b20, b21, b22, b23, b30, b31, b32, b33, if_false, zero_add,
      add_zero, sum_ite_eq, sum_add_distrib, sum_if, sum_const_zero, hkr, if_true,
      yT_cell D c w q j l _ hl, yT_link D c w q k j l _ hl, friJ, cell_expand D c w q i b hb,
      link_expand D c w q k i b hb]
  · simp only [ST, zero_mul, sum_const_zero, mul_zero, sub_zero, mul_sum, mul_add]
    congr 1
    congr 1
    · ring
    · exact sum_congr rfl (fun j _ => by ring)
  · simp only [ST, sum_const_zero, mul_zero, sub_zero, mul_sum, mul_add]
    congr 1
    congr 1
    · ring
    · exact sum_congr rfl (fun j _ => by ring)
  · have h0 := horth k hk
    have e1 : ∑ m ∈ range D.bs, -(0.5 * gamInv c w * -yT D c w q (k + 1) j l m * nSurf D c q m
        * (c (tIdx D q k i b) * nSurf D c q b)) =
        0.5 * gamInv c w * (c (tIdx D q k i b) * nSurf D c q b)
          * ∑ m ∈ range D.bs, yT D c w q (k + 1) j l m * nSurf D c q m := by
      rw [mul_sum]; exact sum_congr rfl (fun j _ => by ring)
    have e2 : ∑ m ∈ range D.bs, yT D c w q (k + 1) j l m * (c (tIdx D q k i b) * nSurf D c q b
        * nSurf D c q m) = (c (tIdx D q k i b) * nSurf D c q b)
          * ∑ m ∈ range D.bs, yT D c w q (k + 1) j l m * nSurf D c q m := by
      rw [mul_sum]; exact sum_congr rfl (fun j _ => by ring)
    rw [e1, e2, h0]
    simp only [ST, sum_const_zero, mul_zero, sub_zero]
    ring

/-- The factor multiplying the projection derivative in the Coulomb matrix, column in the cell. -/
theorem yC_cell (D : KD) (c w : ℕ → ℝ) (q j l m : ℕ) (hl : l < D.bs) :
    pC D c w q (l * D.bs + m) * D.ph q j
      - ∑ n ∈ range D.bs, pC D c w q (n * D.bs + m) * (nSurf D c q l * D.ph q j
          * (nSurf D c q n - nOld D c q n + nDotN D c q * nSurf D c q n) + gam c w
            * (sigB D c q j l n - signV D c q j l * nSurf D c q n))
      = zC D c w q 0 j l m := by
  have e : zC D c w q 0 j l m =
      ∑ n ∈ range D.bs, pC D c w q (n * D.bs + m) * ((if n = l then D.ph q j else 0)
      + -(nSurf D c q l * D.ph q j
          * (nSurf D c q n - nOld D c q n + nDotN D c q * nSurf D c q n) + gam c w
            * (sigB D c q j l n - signV D c q j l * nSurf D c q n))) :=
    sum_congr rfl (fun j _ => by simp only [xC, TF, ST, NF]; ring)
  rw [e, sum_delta _ _ hl (fun n => pC D c w q (n * D.bs + m))]
  simp only [mul_neg, sum_neg_distrib]; ring

theorem yC_link (D : KD) (c w : ℕ → ℝ) (q k j l m : ℕ) (hl : l < D.bs) :
    pC D c w q (l * D.bs + m) * c (tIdx D q k j l)
      - ∑ n ∈ range D.bs, pC D c w q (n * D.bs + m)
          * (nSurf D c q n - nOld D c q n + nDotN D c q * nSurf D c q n)
          * (c (tIdx D q k j l) * nSurf D c q l)
      = -zC D c w q (k + 1) j l m := by
  have e : zC D c w q (k + 1) j l m =
      ∑ n ∈ range D.bs, pC D c w q (n * D.bs + m) * ((if n = l then -c (tIdx D q k j l) else 0)
      + (nSurf D c q n - nOld D c q n + nDotN D c q * nSurf D c q n)
          * (c (tIdx D q k j l) * nSurf D c q l)) :=
    sum_congr rfl (fun j _ => by simp only [xC, TF, ST, NF]; split <;> ring)
  rw [e, sum_delta _ _ hl (fun n => pC D c w q (n * D.bs + m))]
  simp only [← mul_assoc]; ring

theorem coulombJacPoint_at (D : KD) (c w : ℕ → ℝ) (links q i b j l : ℕ) (hi : i < D.nd)
    (hb : b < D.bs) (hj : j < D.nd) (hl : l < D.bs)
    (horth : ∀ k, k < links → ∑ m ∈ range D.bs, yC D c w q (k + 1) j l m * nSurf D c q m = 0)
    (a : Arr (ℕ × ℕ)) :
    coulombJacPoint D c w links q a (0, mIdx D i b j l) =
        a (0, mIdx D i b j l) + friJ D c w q (yC D c w q 0 j l) 0 i b 0 j l
    ∧ ∀ k, k < links →
      coulombJacPoint D c w links q a (3 * k + 1, mIdx D i b j l) =
        a (3 * k + 1, mIdx D i b j l) + friJ D c w q (yC D c w q (k + 1) j l) 0 i b (k + 1) j l
      ∧ coulombJacPoint D c w links q a (3 * k + 2, mIdx D i b j l) =
        a (3 * k + 2, mIdx D i b j l) + friJ D c w q (yC D c w q 0 j l) (k + 1) i b 0 j l
      ∧ coulombJacPoint D c w links q a (3 * k + 3, mIdx D i b j l) =
        a (3 * k + 3, mIdx D i b j l)
          + friJ D c w q (yC D c w q (k + 1) j l) (k + 1) i b (k + 1) j l := by
  unfold coulombJacPoint
  dsimp only
  simp only [← pC.eq_1 D c w q, ← aC.eq_1 D c w q]
  have hy0 : yC D c w q 0 j l b = zC D c w q 0 j l b
      + aC D c w q b * (D.ph q j * nSurf D c q l - gam c w * signV D c q j l) := by
    simp only [yC, NF, SF]; ring
  refine ⟨(mat_value (P := mIdx D) (fun _ _ _ _ => rfl) (fun j l i b =>
      (((AddsAt.id _).then_acc.then_acc.then_loop (fun n =>
          (AddsAt.id _).then_acc.then_acc)).then_loop (fun k =>
        ((AddsAt.id _).then_acc.then_acc.then_acc.then_acc.then_acc.then_acc.then_loop (fun n =>
          (AddsAt.id _).then_acc.then_acc.then_acc.then_acc.then_acc.then_acc))))) hi hb hj hl _ a).trans ?_, fun k hk =>
    ⟨(mat_value (P := mIdx D) (fun _ _ _ _ => rfl) (fun j l i b =>
      (((AddsAt.id _).then_acc.then_acc.then_loop (fun n =>
          (AddsAt.id _).then_acc.then_acc)).then_loop (fun k =>
        ((AddsAt.id _).then_acc.then_acc.then_acc.then_acc.then_acc.then_acc.then_loop (fun n =>
          (AddsAt.id _).then_acc.then_acc.then_acc.then_acc.then_acc.then_acc))))) hi hb hj hl _ a).trans ?_,
     (mat_value (P := mIdx D) (fun _ _ _ _ => rfl) (fun j l i b =>
      (((AddsAt.id _).then_acc.then_acc.then_loop (fun n =>
          (AddsAt.id _).then_acc.then_acc)).then_loop (fun k =>
        ((AddsAt.id _).then_acc.then_acc.then_acc.then_acc.then_acc.then_acc.then_loop (fun n =>
          (AddsAt.id _).then_acc.then_acc.then_acc.then_acc.then_acc.then_acc))))) hi hb hj hl _ a).trans ?_,
     (mat_value (P := mIdx D) (fun _ _ _ _ => rfl) (fun j l i b =>
      (((AddsAt.id _).then_acc.then_acc.then_loop (fun n =>
          (AddsAt.id _).then_acc.then_acc)).then_loop (fun k =>
        ((AddsAt.id _).then_acc.then_acc.then_acc.then_acc.then_acc.then_acc.then_loop (fun n =>
          (AddsAt.id _).then_acc.then_acc.then_acc.then_acc.then_acc.then_acc))))) hi hb hj hl _ a).trans ?_⟩⟩
  · simp only [b01, b02, b03, if_true, if_false, sum_const_zero, add_zero, zero_add,
      yC_cell D c w q j l _ hl, friJ, cell_expand D c w q i b hb]
    simp only [ST]
    rw [sum_comb (k1 := D.w0 q * (0.5 * gamInv c w)) (k2 := D.w0 q * (0.5 * gam c w * w 1))
      (g := fun m => yC D c w q 0 j l m * (-(nSurf D c q b * D.ph q i) * nSurf D c q m
        - w 1 * gam c w * (sigB D c q i b m - signV D c q i b * nSurf D c q m)))
      (h := fun m => (sigB D c q j l m - signV D c q j l * nSurf D c q m)
        * (sigB D c q i b m - signV D c q i b * nSurf D c q m))
      (fun n => by simp only [yC, NF, SF]; ring), hy0]
    ring
  all_goals
    have hkr := mem_range.mpr hk
    have hy1 : yC D c w q (k + 1) j l b = zC D c w q (k + 1) j l b
        - aC D c w q b * (c (tIdx D q k j l) * nSurf D c q l) := by
      simp only [yC, NF, SF]; ring
    simp only [b10, b11, b12, b13, b20, b21, b22, b23, b30, b31, b32, b33, if_false, zero_add,
      add_zero, sum_ite_eq, sum_add_distrib, sum_if, sum_const_zero, hkr, if_true,
      yC_cell D c w q j l _ hl, yC_link D c w q k j l _ hl, friJ, cell_expand D c w q i b hb,
      link_expand D c w q k i b hb]
    simp only [ST, zero_mul, mul_zero, sum_const_zero, sub_zero]
    try simp only [← sum_add_distrib]
  · rw [sum_comb (k1 := D.w0 q * (0.5 * gamInv c w)) (k2 := 0)
      (g := fun m => yC D c w q (k + 1) j l m * (-(nSurf D c q b * D.ph q i) * nSurf D c q m
        - w 1 * gam c w * (sigB D c q i b m - signV D c q i b * nSurf D c q m)))
      (h := fun _ => 0) (fun n => by simp only [yC, NF, SF]; ring), hy1]
    ring
  · rw [sum_comb (k1 := D.w0 q * (0.5 * gamInv c w)) (k2 := 0)
      (g := fun m => yC D c w q 0 j l m * (c (tIdx D q k i b) * nSurf D c q b * nSurf D c q m))
      (h := fun _ => 0) (fun n => by simp only [yC, NF, SF]; ring), hy0]
    ring
  · have h0 := horth k hk
    rw [sum_comb (k1 := 0.5 * gamInv c w * (c (tIdx D q k i b) * nSurf D c q b)) (k2 := 0)
      (g := fun m => yC D c w q (k + 1) j l m * nSurf D c q m)
      (h := fun _ => 0) (fun n => by simp only [yC, NF, SF]; ring), h0, hy1]
    have e2 : ∑ m ∈ range D.bs, yC D c w q (k + 1) j l m * (c (tIdx D q k i b) * nSurf D c q b
        * nSurf D c q m) = (c (tIdx D q k i b) * nSurf D c q b)
          * ∑ m ∈ range D.bs, yC D c w q (k + 1) j l m * nSurf D c q m := by
      rw [mul_sum]; exact sum_congr rfl (fun j _ => by ring)
    rw [e2, h0]
    ring

end

end Verif.Kernels
