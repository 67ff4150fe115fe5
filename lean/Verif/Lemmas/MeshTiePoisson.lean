import Verif.Lemmas.MeshTieKernels
import Verif.Lemmas.FrictionDerivative

namespace Verif.Kernels

open Verif.Elasticity Finset

noncomputable section

/-! ### Poisson -/

section PLayout

variable (D : KD)

theorem pOff1 : pOff D 1 = D.pdims.oTest := by
  simp [pOff, offsets, poissonStrides, KD.pdims, Spec.TieDims.oTest]

theorem pOff2 : pOff D 2 = D.pdims.oGTest := by
  simp [pOff, offsets, poissonStrides, KD.pdims, Spec.TieDims.oTest, Spec.TieDims.oGTest]
  ring

theorem pOff3 : pOff D 3 = D.pdims.oU := by
  simp [pOff, offsets, poissonStrides, KD.pdims, Spec.TieDims.oTest, Spec.TieDims.oGTest,
    Spec.TieDims.oU]
  ring

theorem pOff4 : pOff D 4 = D.pdims.oGrad := by
  simp [pOff, offsets, poissonStrides, KD.pdims, Spec.TieDims.oTest, Spec.TieDims.oGTest,
    Spec.TieDims.oU, Spec.TieDims.oGrad]
  ring

theorem pOff5 : pOff D 5 = D.pdims.oOpp := by
  simp [pOff, offsets, poissonStrides, KD.pdims, Spec.TieDims.oTest, Spec.TieDims.oGTest,
    Spec.TieDims.oU, Spec.TieDims.oGrad, Spec.TieDims.oOpp]
  ring

theorem pOff6 : pOff D 6 = D.pdims.oGOpp := by
  simp [pOff, offsets, poissonStrides, KD.pdims, Spec.TieDims.oTest, Spec.TieDims.oGTest,
    Spec.TieDims.oU, Spec.TieDims.oGrad, Spec.TieDims.oOpp, Spec.TieDims.oGOpp]
  ring

theorem poisIdx_eq (c : ℕ → ℝ) (q k i : ℕ) :
    c (poisIdx D (pOff D) q k i) = D.pdims.test c q k i 0 := by
  rw [poisIdx, pOff1, Spec.TieDims.test]
  congr 1
  simp only [KD.pdims]; ring

theorem poisGIdx_eq (c : ℕ → ℝ) (q k i b : ℕ) :
    c (poisGIdx D (pOff D) q k i + b) = D.pdims.gtest c q k i b := by
  rw [poisGIdx, pOff2, Spec.TieDims.gtest]
  congr 1
  simp only [KD.pdims]; ring

theorem jumpT_eq (c : ℕ → ℝ) (q : ℕ) : jumpT (pOff D) c q = D.pdims.jump c q 0 := by
  rw [jumpT, pOff3, pOff5, Spec.TieDims.jump]
  have e : D.pdims.bs = 1 := rfl
  rw [e, mul_one]; rfl

theorem avgGradN_eq (c : ℕ → ℝ) (q : ℕ) :
    avgGradN D (pOff D) c q = ∑ b ∈ range D.gdim, D.pdims.meanGrad c q 0 b * D.nPhys q b := by
  rw [avgGradN, pOff4, pOff6]
  refine sum_congr rfl (fun b _ => ?_)
  rw [Spec.TieDims.meanGrad]
  have e : D.pdims.bs = 1 := rfl
  have e' : D.pdims.g = D.gdim := rfl
  rw [e, e', mul_one, Nat.add_zero]; ring

theorem gradN_eq (q i : ℕ) :
    gradN D q i = ∑ b ∈ range D.gdim, gradV D.tdim (D.K q) (D.dph q) i b * D.nPhys q b := by
  rw [gradN]
  refine sum_congr rfl (fun b _ => ?_)
  rw [gradV_eq, sum_mul]

end PLayout

/-- Jump of a dof's basis function. -/
def poisJ (D : KD) (o : ℕ → ℕ) (c : ℕ → ℝ) (q B i _n : ℕ) : ℝ :=
  match B with
  | 0 => D.ph q i
  | k + 1 => -c (poisIdx D o q k i)

/-- Flux of a dof's basis function. -/
def poisS (D : KD) (o : ℕ → ℕ) (c : ℕ → ℝ) (q B i _n _a : ℕ) : ℝ :=
  match B with
  | 0 => gradN D q i
  | k + 1 => ∑ g ∈ range D.gdim, c (poisGIdx D o q k i + g) * D.nPhys q g

abbrev poisR (D : KD) (o : ℕ → ℕ) (c w : ℕ → ℝ) (q B i n : ℕ) : ℝ :=
  absR 1 (poisW0 D c q) (w 0 / c 0) (w 1) (fun _ => 2 * avgGradN D o c q) (fun _ => jumpT o c q)
    (poisJ D o c q) (poisS D o c q) B i n

abbrev poisM (D : KD) (o : ℕ → ℕ) (c w : ℕ → ℝ) (q B i b B' j l : ℕ) : ℝ :=
  absM (poisW0 D c q) (w 0 / c 0) (w 1) (poisJ D o c q) (poisS D o c q) B i b B' j l

theorem poisRhsPoint_at (D : KD) (o : ℕ → ℕ) (c w : ℕ → ℝ) (links q B i : ℕ)
    (hi : i < D.nd) (hB : B < links + 1) (a : Arr (ℕ × ℕ)) :
    poisRhsPoint D o c w links q a (B, i) = a (B, i) + poisR D o c w q B i 0 := by
  unfold poisRhsPoint
  dsimp only
  refine (vec_value_scalar (fun i => ((AddsAt.id _).then_acc).then_loop (fun k =>
      ((AddsAt.id _).then_acc).then_loop (fun g => (AddsAt.id _).then_acc))) hi B a).trans ?_
  congr 1
  cases B with
  | zero =>
    simp only [v01, if_true, if_false, sum_const_zero, add_zero, zero_add]
    simp only [poisR, absR, poisJ, poisS, sum_range_one]
    ring
  | succ k =>
    have hk : k ∈ range links := mem_range.mpr (by omega)
    simp only [v10, v11, if_false, zero_add, sum_const_zero, sum_if]
    rw [sum_add_distrib]
    simp only [sum_ite_eq, hk, if_true]
    rw [sum_mul_right' (g := fun a => c (poisGIdx D o q k i + a) * D.nPhys q a)
      (x := -(0.5 * w 1) * jumpT o c q * poisW0 D c q) (fun a => by ring)]
    simp only [poisR, absR, poisJ, poisS, sum_range_one]
    ring

theorem poisJacPoint_at (D : KD) (o : ℕ → ℕ) (c w : ℕ → ℝ) (links q i j : ℕ) (hi : i < D.nd)
    (hj : j < D.nd) (a : Arr (ℕ × ℕ)) :
    poisJacPoint D o c w links q a (0, i * D.nd + j) =
        a (0, i * D.nd + j) + poisM D o c w q 0 i 0 0 j 0
    ∧ ∀ k, k < links →
      poisJacPoint D o c w links q a (3 * k + 1, i * D.nd + j) =
        a (3 * k + 1, i * D.nd + j) + poisM D o c w q 0 i 0 (k + 1) j 0
      ∧ poisJacPoint D o c w links q a (3 * k + 2, i * D.nd + j) =
        a (3 * k + 2, i * D.nd + j) + poisM D o c w q (k + 1) i 0 0 j 0
      ∧ poisJacPoint D o c w links q a (3 * k + 3, i * D.nd + j) =
        a (3 * k + 3, i * D.nd + j) + poisM D o c w q (k + 1) i 0 (k + 1) j 0 := by
  unfold poisJacPoint
  dsimp only
  refine ⟨(mat_value_scalar (fun j i => ((AddsAt.id _).then_acc).then_loop (fun k =>
      ((AddsAt.id _).then_acc.then_acc.then_acc).then_loop (fun g =>
      (AddsAt.id _).then_acc.then_acc.then_acc))) hi hj _ a).trans ?_, fun k hk =>
    ⟨(mat_value_scalar (fun j i => ((AddsAt.id _).then_acc).then_loop (fun k =>
      ((AddsAt.id _).then_acc.then_acc.then_acc).then_loop (fun g =>
      (AddsAt.id _).then_acc.then_acc.then_acc))) hi hj _ a).trans ?_,
    (mat_value_scalar (fun j i => ((AddsAt.id _).then_acc).then_loop (fun k =>
      ((AddsAt.id _).then_acc.then_acc.then_acc).then_loop (fun g =>
      (AddsAt.id _).then_acc.then_acc.then_acc))) hi hj _ a).trans ?_,
    (mat_value_scalar (fun j i => ((AddsAt.id _).then_acc).then_loop (fun k =>
      ((AddsAt.id _).then_acc.then_acc.then_acc).then_loop (fun g =>
      (AddsAt.id _).then_acc.then_acc.then_acc))) hi hj _ a).trans ?_⟩⟩
  all_goals congr 1
  · simp only [b01, b02, b03, if_true, if_false, sum_const_zero, add_zero, zero_add, poisM, absM,
      poisJ, poisS]
    ring
  all_goals
    have hk := mem_range.mpr hk
    simp only [b10, b11, b12, b13, b20, b21, b22, b23, b30, b31, b32, b33, if_false, zero_add,
      add_zero, sum_if, sum_add_distrib, sum_ite_eq, hk, if_true, poisM, absM, poisJ, poisS]
  · rw [sum_mul_right' (g := fun a => c (poisGIdx D o q k j + a) * D.nPhys q a)
      (x := -0.5 * D.ph q i * poisW0 D c q) (fun a => by ring)]
    ring
  · rw [sum_mul_right' (g := fun a => c (poisGIdx D o q k i + a) * D.nPhys q a)
      (x := -w 1 * 0.5 * D.ph q j * poisW0 D c q) (fun a => by ring)]
    ring
  · rw [sum_mul_right' (f := fun a => 0.5 * c (poisGIdx D o q k j + a) * D.nPhys q a
        * c (poisIdx D o q k i) * poisW0 D c q) (g := fun a => c (poisGIdx D o q k j + a) * D.nPhys q a)
      (x := 0.5 * c (poisIdx D o q k i) * poisW0 D c q) (fun a => by ring),
      sum_mul_right' (f := fun a => w 1 * 0.5 * c (poisGIdx D o q k i + a) * D.nPhys q a
        * c (poisIdx D o q k j) * poisW0 D c q) (g := fun a => c (poisGIdx D o q k i + a) * D.nPhys q a)
      (x := w 1 * 0.5 * c (poisIdx D o q k j) * poisW0 D c q) (fun a => by ring)]
    ring

theorem poisRhs_at (D : KD) (o : ℕ → ℕ) (c w : ℕ → ℝ) (links : ℕ) (qs : List ℕ)
    (B i : ℕ) (hi : i < D.nd) (hB : B < links + 1) (a : Arr (ℕ × ℕ)) :
    poisRhs D o c w links qs a (B, i) =
      a (B, i) + (qs.map (fun q => poisR D o c w q B i 0)).sum := by
  rw [poisRhs]
  exact forEach_at qs _ _ _ (fun q _ a => poisRhsPoint_at D o c w links q B i hi hB a) a

theorem poisJac_blocks (D : KD) (h1 : D.bs = 1) (o : ℕ → ℕ) (c w : ℕ → ℝ) (links : ℕ)
    (qs : List ℕ) :
    BlockValues D links qs (poisJac D o c w links qs 0) (poisM D o c w) := by
  intro i b j l hi hb hj hl
  have z : ∀ (m : ℕ × ℕ) (x : ℝ), (0 : Arr (ℕ × ℕ)) m + x = x := fun m x => zero_add x
  obtain rfl : b = 0 := by omega
  obtain rfl : l = 0 := by omega
  have e : mIdx D i 0 j 0 = i * D.nd + j := by simp only [mIdx, h1]; ring
  rw [e, poisJac]
  refine ⟨(forEach_at qs _ _ _ (fun q _ a =>
      (poisJacPoint_at D o c w links q i j hi hj a).1) 0).trans (z _ _),
    fun k hk => ⟨(forEach_at qs _ _ _ (fun q _ a =>
      ((poisJacPoint_at D o c w links q i j hi hj a).2 k hk).1) 0).trans (z _ _),
    (forEach_at qs _ _ _ (fun q _ a =>
      ((poisJacPoint_at D o c w links q i j hi hj a).2 k hk).2.1) 0).trans (z _ _),
    (forEach_at qs _ _ _ (fun q _ a =>
      ((poisJacPoint_at D o c w links q i j hi hj a).2 k hk).2.2) 0).trans (z _ _)⟩⟩

section PCarry

variable {D : KD} {links : ℕ} {c c' : ℕ → ℝ} {W : ℕ → ℕ → ℝ} {q : ℕ}

abbrev PCarries (D : KD) (links : ℕ) (c : ℕ → ℝ) (W : ℕ → ℕ → ℝ) : Prop :=
  Spec.TieCarries D.pdims links D.ph (fun q i b => gradV D.tdim (D.K q) (D.dph q) i b) c W

theorem jumpT_comb (h1 : D.bs = 1) (h : PCarries D links c W) (hq : q < D.nq) (a : ℕ) (ha : a < D.bs) :
    jumpT (pOff D) c q =
      comb D links (fun B i n => if a = n then poisJ D (pOff D) c q B i n else 0) W := by
  obtain rfl : a = 0 := by omega
  rw [jumpT_eq, Spec.TieDims.jump, h.u q 0 hq (by exact Nat.one_pos), h.opp q 0 hq (by exact Nat.one_pos),
    comb_split]
  have e : D.pdims.bs = 1 := rfl
  have e' : D.pdims.nd = D.nd := rfl
  simp only [poisJ, h1, sum_range_one, if_true, e, e', neg_mul, sum_neg_distrib, sub_eq_add_neg,
    poisIdx_eq]

theorem avgGradN_comb (h1 : D.bs = 1) (h : PCarries D links c W) (hq : q < D.nq) (a : ℕ) :
    2 * avgGradN D (pOff D) c q = comb D links (fun B i n => poisS D (pOff D) c q B i n a) W := by
  rw [avgGradN_eq, comb_split]
  have e : D.pdims.bs = 1 := rfl
  have e' : D.pdims.nd = D.nd := rfl
  have e2 : 2 * ∑ b ∈ range D.gdim, D.pdims.meanGrad c q 0 b * D.nPhys q b =
      ∑ b ∈ range D.gdim, (∑ i ∈ range D.nd, gradV D.tdim (D.K q) (D.dph q) i b * W 0 i) * D.nPhys q b
      + ∑ b ∈ range D.gdim, (∑ k ∈ range links, ∑ i ∈ range D.nd,
          D.pdims.gtest c q k i b * W (k + 1) i) * D.nPhys q b := by
    rw [mul_sum, ← sum_add_distrib]
    refine sum_congr rfl (fun b hb => ?_)
    rw [Spec.TieDims.meanGrad, h.grad q 0 b hq (by exact Nat.one_pos) (mem_range.mp hb),
      h.gopp q 0 b hq (by exact Nat.one_pos) (mem_range.mp hb)]
    simp only [e, e', mul_one, Nat.add_zero]; ring
  rw [e2]
  simp only [h1, sum_range_one, mul_one, Nat.add_zero, poisS, gradN_eq, poisGIdx_eq, sum_mul]
  congr 1
  · rw [sum_comm]
    exact sum_congr rfl (fun i _ => sum_congr rfl (fun b _ => by ring))
  · rw [sum_comm]
    refine sum_congr rfl (fun k _ => ?_)
    rw [sum_comm]
    exact sum_congr rfl (fun i _ => sum_congr rfl (fun b _ => by ring))

theorem pTest_lt {k i : ℕ} (hk : k < D.maxLinks) (hi : i < D.nd) (hq : q < D.nq) :
    D.pdims.oTest + ((k * D.nd + i) * D.nq + q) * 1 + 0 < D.pdims.oU := by
  have h3 := row_lt (row_lt hk hi) hq
  simp only [Spec.TieDims.oU, Spec.TieDims.oGTest]
  show D.pdims.oTest + ((k * D.nd + i) * D.nq + q) * 1 + 0
    < D.pdims.oTest + D.maxLinks * D.nd * D.nq * 1 + D.maxLinks * D.nd * D.nq * D.gdim
  omega

theorem pGTest_lt {k i n : ℕ} (hk : k < D.maxLinks) (hi : i < D.nd) (hq : q < D.nq)
    (hn : n < D.gdim) :
    D.pdims.oGTest + ((k * D.nd + i) * D.nq + q) * D.gdim + n < D.pdims.oU := by
  have h3 := row_lt (row_lt (row_lt hk hi) hq) hn
  simp only [Spec.TieDims.oU]
  show D.pdims.oGTest + ((k * D.nd + i) * D.nq + q) * D.gdim + n
    < D.pdims.oGTest + D.maxLinks * D.nd * D.nq * D.gdim
  omega

theorem pSame_small (h : Spec.TieSame D.pdims c c') (m : ℕ) (hm : m < 2) : c m = c' m := by
  refine h m ?_
  simp only [Spec.TieDims.oU, Spec.TieDims.oGTest, Spec.TieDims.oTest, KD.pdims]
  omega

theorem pSame_M (h : Spec.TieSame D.pdims c c') (hl : links ≤ D.maxLinks)
    (hq : q < D.nq) (w : ℕ → ℝ) {B i b B' j l : ℕ} (hB : B < links + 1) (hi : i < D.nd)
    (hB' : B' < links + 1) (hj : j < D.nd) :
    poisM D (pOff D) c w q B i b B' j l = poisM D (pOff D) c' w q B i b B' j l := by
  have hJ : ∀ B i n, B < links + 1 → i < D.nd →
      poisJ D (pOff D) c q B i n = poisJ D (pOff D) c' q B i n := by
    intro B i n hB hi
    cases B with
    | zero => rfl
    | succ k =>
      simp only [poisJ, poisIdx_eq]
      rw [Spec.TieDims.test, Spec.TieDims.test, h]
      exact pTest_lt (by omega) hi hq
  have hS : ∀ B i n a, B < links + 1 → i < D.nd →
      poisS D (pOff D) c q B i n a = poisS D (pOff D) c' q B i n a := by
    intro B i n a hB hi
    cases B with
    | zero => rfl
    | succ k =>
      simp only [poisS, poisGIdx_eq]
      refine sum_congr rfl (fun b hb => ?_)
      rw [Spec.TieDims.gtest, Spec.TieDims.gtest, h]
      exact pGTest_lt (by omega) hi hq (mem_range.mp hb)
  simp only [poisM, absM]
  rw [hJ B i b hB hi, hJ B' j l hB' hj, hS B i b l hB hi, hS B' j l b hB' hj, poisW0, poisW0,
    pSame_small h 0 (by omega), pSame_small h 1 (by omega)]

theorem poisM_cross (h : Spec.TieOneLink D.pdims links c q) (w : ℕ → ℝ)
    {k k' i b j l : ℕ} (hk : k < links) (hk' : k' < links) (hne : k ≠ k') (hi : i < D.nd)
    (hj : j < D.nd) :
    poisM D (pOff D) c w q (k + 1) i b (k' + 1) j l = 0 := by
  obtain ⟨k0, h0⟩ := h
  have z : ∀ k i n a, k < links → k ≠ k0 → i < D.nd →
      poisJ D (pOff D) c q (k + 1) i n = 0 ∧ poisS D (pOff D) c q (k + 1) i n a = 0 := by
    intro k i n a hk hne hi
    obtain ⟨h1, h2⟩ := h0 k i hk hne hi
    constructor
    · simp only [poisJ, poisIdx_eq]
      rw [h1 0 (by exact Nat.one_pos), neg_zero]
    · simp only [poisS, poisGIdx_eq]
      exact sum_eq_zero (fun b hb => by rw [h2 b (mem_range.mp hb), zero_mul])
  refine absM_zero _ _ _ _ _ _ _ _ _ _ _ ?_
  by_cases h1 : k = k0
  · exact Or.inr (z k' j l b hk' (by omega) hj)
  · exact Or.inl (z k i b l hk h1 hi)

end PCarry

/-! ### weak forms -/

theorem tieR_spec (D : KD) (hbs : D.bs = D.gdim) (th : Bool) (c w : ℕ → ℝ) (q B i n : ℕ)
    (hn : n < D.bs) :
    tieR D (tOff D th) c w q B i n = D.w0 q * (D.tdims th).elasticForm D.ph D.grad c w (D.nPhys q)
      q B i n := by
  have hn' : n < D.gdim := hbs ▸ hn
  have eg : (D.tdims th).g = D.gdim := rfl
  have e1 : ∀ a, a < D.gdim → Spec.traction D.gdim (c 0) (c 1) ((D.tdims th).meanGrad c q) (D.nPhys q) a
      = 1 / 2 * tieSigU D (tOff D th) c q a := by
    intro a ha
    rw [tieSigU_eq D th hbs c q a ha, ← traction_add _ _ _ _ _ _ _ ha, mul_comm,
      ← traction_smul _ _ _ _ _ _ _ ha]
    congr 1
    funext a b
    rw [Spec.TieDims.meanGrad]
    show (c ((D.tdims th).oGrad + (q * D.gdim + a) * D.gdim + b)
      + c ((D.tdims th).oGOpp + (q * D.gdim + a) * D.gdim + b)) / 2 = _
    ring
  have e2 : ∀ a, a < D.gdim → Spec.traction D.gdim (c 0) (c 1)
      ((D.tdims th).vMeanGrad D.grad c q B i n) (D.nPhys q) a
      = 1 / 2 * tieS D (tOff D th) c q B i n a := by
    intro a ha
    cases B with
    | zero =>
      rw [tieS, sigB, sigmaNBasis_traction _ _ _ _ _ _ _ _ _ _ hn' ha, mul_comm,
        ← traction_smul _ _ _ _ _ _ _ ha]
      congr 1
      funext a b
      simp only [Spec.TieDims.vMeanGrad]
      split
      · rw [KD.grad]; ring
      · ring
    | succ k =>
      rw [tieS, tieSigOpp_eq D th hbs c q k i n a hn' ha, mul_comm, ← traction_smul _ _ _ _ _ _ _ ha]
      congr 1
      funext a b
      simp only [Spec.TieDims.vMeanGrad]
      split <;> ring
  have e3 : ∀ a, (D.tdims th).vJump D.ph c q B i n a =
      if a = n then tieJ D (tOff D th) c q B i n else 0 := by
    intro a
    cases B with
    | zero => rfl
    | succ k => rw [tieJ, tieIdx_eq D th hbs c]; rfl
  rw [Spec.TieDims.elasticForm, eg]
  rw [sum_congr rfl (fun a ha => by rw [e3 a, e1 a (mem_range.mp ha)]),
    sum_congr (f := fun a => Spec.traction D.gdim (c 0) (c 1)
      ((D.tdims th).vMeanGrad D.grad c q B i n) (D.nPhys q) a * (D.tdims th).jump c q a) rfl
      (fun a ha => by rw [e2 a (mem_range.mp ha), ← tieJump_eq D th hbs])]
  simp only [mul_ite, mul_zero, sum_ite_eq', mem_range.mpr hn', if_true]
  rw [sum_mul_right' (g := fun a => tieS D (tOff D th) c q B i n a * tieJump D (tOff D th) c q a)
    (x := 1 / 2) (fun a => by ring), ← tieJump_eq D th hbs, tieR, absR, hbs, tieW0, KD.w0, tieGam]
  norm_num
  ring

theorem poisR_spec (D : KD) (c w : ℕ → ℝ) (q B i : ℕ) :
    poisR D (pOff D) c w q B i 0 = D.w0 q * D.pdims.heatForm D.ph D.grad c w (D.nPhys q) q B i := by
  have eg : D.pdims.g = D.gdim := rfl
  rw [Spec.TieDims.heatForm, eg, ← avgGradN_eq, ← jumpT_eq, poisR, absR, sum_range_one, poisW0, KD.w0]
  cases B with
  | zero =>
    simp only [poisS, poisJ, gradN_eq, Spec.TieDims.vJump, Spec.TieDims.vMeanGrad, if_true]
    rw [sum_mul_right' (f := fun b => D.grad q i b / 2 * D.nPhys q b)
      (g := fun b => gradV D.tdim (D.K q) (D.dph q) i b * D.nPhys q b) (x := 1 / 2)
      (fun b => by rw [KD.grad]; ring)]
    norm_num
    ring
  | succ k =>
    simp only [poisS, poisJ, poisIdx_eq, poisGIdx_eq, Spec.TieDims.vJump, Spec.TieDims.vMeanGrad,
      if_true]
    rw [sum_mul_right' (f := fun b => D.pdims.gtest c q k i b / 2 * D.nPhys q b)
      (g := fun b => D.pdims.gtest c q k i b * D.nPhys q b) (x := 1 / 2) (fun b => by ring)]
    norm_num
    ring

theorem thermoRhsPoint_at (D : KD) (hbs : D.bs = D.gdim) (c : ℕ → ℝ) (links q B i n : ℕ)
    (hi : i < D.nd) (hn : n < D.bs) (hB : B < links + 1) (a : Arr (ℕ × ℕ)) :
    thermoRhsPoint D (tOff D true) c links q a (B, n + i * D.bs) =
      a (B, n + i * D.bs)
        + D.w0 q * (D.tdims true).thermalForm D.ph c (D.nPhys q) q B i n := by
  have hn' : n < D.gdim := hbs ▸ hn
  have eg : (D.tdims true).g = D.gdim := rfl
  unfold thermoRhsPoint
  dsimp only
  refine (vec_value (fun i n => ((AddsAt.id _).then_acc).then_loop (fun k =>
      (AddsAt.id _).then_acc)) hi hn B a).trans ?_
  congr 1
  rw [Spec.TieDims.thermalForm, eg, ← tOff7 D hbs, ← tOff8 D hbs, tieW0, KD.w0]
  cases B with
  | zero =>
    simp only [v01, if_true, if_false, sum_const_zero, add_zero, zero_add, Spec.TieDims.vJump,
      mul_ite, mul_zero, sum_ite_eq', mem_range.mpr hn']
    norm_num
    ring
  | succ k =>
    have hk : k ∈ range links := mem_range.mpr (by omega)
    simp only [v10, v11, if_false, zero_add, sum_ite_eq, hk, if_true, Spec.TieDims.vJump,
      mul_ite, mul_zero, sum_ite_eq', mem_range.mpr hn', tieIdx_eq D true hbs]
    norm_num
    ring

theorem thermoRhs_at (D : KD) (hbs : D.bs = D.gdim) (c : ℕ → ℝ) (links : ℕ) (qs : List ℕ)
    (B i n : ℕ) (hi : i < D.nd) (hn : n < D.bs) (hB : B < links + 1) (a : Arr (ℕ × ℕ)) :
    thermoRhs D (tOff D true) c links qs a (B, i * D.bs + n) =
      a (B, i * D.bs + n) + (qs.map (fun q =>
        D.w0 q * (D.tdims true).thermalForm D.ph c (D.nPhys q) q B i n)).sum := by
  rw [Nat.add_comm (i * D.bs), thermoRhs]
  exact forEach_at qs _ _ _ (fun q _ a => thermoRhsPoint_at D hbs c links q B i n hi hn hB a) a

/-! ### rigid translations -/

theorem sum_tieJ (D : KD) (hbs : D.bs = D.gdim) (th : Bool) {links : ℕ} {c : ℕ → ℝ} {q : ℕ}
    (h : Spec.TieLinked (D.tdims th) links D.ph D.grad c q) (n : ℕ) (hn : n < D.bs) :
    ∑ B ∈ range (links + 1), ∑ i ∈ range D.nd, tieJ D (tOff D th) c q B i n = 0 := by
  rw [sum_range_succ']
  have h3 := h.2.2.1 n (show n < D.gdim from hbs ▸ hn)
  have h1 := h.1
  simp only [tieJ, tieIdx_eq D th hbs, sum_neg_distrib]
  have e : (D.tdims th).nd = D.nd := rfl
  rw [e] at h1 h3
  rw [h1, h3]; ring

theorem sum_tieS (D : KD) (hbs : D.bs = D.gdim) (th : Bool) {links : ℕ} {c : ℕ → ℝ} {q : ℕ}
    (h : Spec.TieLinked (D.tdims th) links D.ph D.grad c q) (n a : ℕ) (hn : n < D.bs) (ha : a < D.bs) :
    ∑ B ∈ range (links + 1), ∑ i ∈ range D.nd, tieS D (tOff D th) c q B i n a = 0 := by
  have hn' : n < D.gdim := hbs ▸ hn
  have ha' : a < D.gdim := hbs ▸ ha
  have z : ∀ {ι : Type} (s : Finset ι) (g : ι → ℕ → ℝ), (∀ b, b < D.gdim → ∑ t ∈ s, g t b = 0) →
      ∑ t ∈ s, Spec.traction D.gdim (c 0) (c 1) (fun a b => if a = n then g t b else 0) (D.nPhys q) a
        = 0 := by
    intro ι s g hg
    have := traction_sum s D.gdim (c 0) (c 1) (fun t a b => if a = n then g t b else 0) (fun _ => 1)
      (D.nPhys q) a ha'
    simp only [mul_one] at this
    rw [← this, traction_eq _ _ _ _ _ _ ha']
    have e : ∀ x b, b < D.gdim → ∑ t ∈ s, (if x = n then g t b else 0) = 0 := by
      intro x b hb
      split
      · exact hg b hb
      · exact sum_const_zero
    rw [sum_eq_zero (fun b hb => by rw [e b a ha', e a b (mem_range.mp hb)]; ring),
      sum_eq_zero (fun b hb => e b b (mem_range.mp hb))]
    ring
  rw [sum_range_succ']
  have e1 : ∑ k ∈ range links, ∑ i ∈ range D.nd, tieS D (tOff D th) c q (k + 1) i n a = 0 := by
    rw [← z (range links ×ˢ range D.nd) (fun t b => (D.tdims th).gtest c q t.1 t.2 b)
      (fun b hb => by rw [sum_product]; exact h.2.2.2 b hb), sum_product]
    exact sum_congr rfl (fun k _ => sum_congr rfl (fun i _ => by
      rw [tieS, tieSigOpp_eq D th hbs c q k i n a hn' ha']))
  have e2 : ∑ i ∈ range D.nd, tieS D (tOff D th) c q 0 i n a = 0 := by
    rw [← z (range D.nd) (fun i b => D.grad q i b) (fun b hb => h.2.1 b hb)]
    exact sum_congr rfl (fun i _ => by
      rw [tieS, sigB, sigmaNBasis_traction _ _ _ _ _ _ _ _ _ _ hn' ha'])
  rw [e1, e2, add_zero]

theorem sum_poisJ (D : KD) {links : ℕ} {c : ℕ → ℝ} {q : ℕ}
    (h : Spec.TieLinked D.pdims links D.ph D.grad c q) (n : ℕ) :
    ∑ B ∈ range (links + 1), ∑ i ∈ range D.nd, poisJ D (pOff D) c q B i n = 0 := by
  rw [sum_range_succ']
  have h3 := h.2.2.1 0 (by exact Nat.one_pos)
  have h1 := h.1
  simp only [poisJ, poisIdx_eq, sum_neg_distrib]
  have e : D.pdims.nd = D.nd := rfl
  rw [e] at h1 h3
  rw [h1, h3]; ring

theorem sum_poisS (D : KD) {links : ℕ} {c : ℕ → ℝ} {q : ℕ}
    (h : Spec.TieLinked D.pdims links D.ph D.grad c q) (n a : ℕ) :
    ∑ B ∈ range (links + 1), ∑ i ∈ range D.nd, poisS D (pOff D) c q B i n a = 0 := by
  have h4 := h.2.2.2
  have h2 := h.2.1
  have e : D.pdims.nd = D.nd := rfl
  have e' : D.pdims.g = D.gdim := rfl
  rw [e, e'] at h4 h2
  rw [sum_range_succ']
  simp only [poisS, poisGIdx_eq, gradN_eq]
  have e1 : ∑ k ∈ range links, ∑ i ∈ range D.nd, ∑ b ∈ range D.gdim,
      D.pdims.gtest c q k i b * D.nPhys q b = 0 := by
    rw [sum_congr rfl (fun k _ => sum_comm), sum_comm]
    exact sum_eq_zero (fun b hb => by
      simp only [← sum_mul]
      rw [h4 b (mem_range.mp hb), zero_mul])
  have e2 : ∑ i ∈ range D.nd, ∑ b ∈ range D.gdim,
      gradV D.tdim (D.K q) (D.dph q) i b * D.nPhys q b = 0 := by
    rw [sum_comm]
    exact sum_eq_zero (fun b hb => by
      simp only [← sum_mul]
      have := h2 b (mem_range.mp hb)
      rw [this, zero_mul])
  rw [e1, e2, add_zero]

theorem tieWork_eq (s : Spec.TieDims) (links : ℕ) (qs : List ℕ) (b : Arr (ℕ × ℕ))
    (R : ℕ → ℕ → ℕ → ℕ → ℝ)
    (hb : ∀ B i n, B < links + 1 → i < s.nd → n < s.bs →
      b (B, i * s.bs + n) = (qs.map (fun q => R q B i n)).sum)
    (hR : ∀ q ∈ qs, ∀ n, n < s.bs → ∑ B ∈ range (links + 1), ∑ i ∈ range s.nd, R q B i n = 0)
    (v : ℕ → ℝ) : Spec.tieTranslationWork s links b v = 0 := by
  have e : Spec.tieTranslationWork s links b v =
      ∑ B ∈ range (links + 1), ∑ i ∈ range s.nd, ∑ n ∈ range s.bs,
        (qs.map (fun q => R q B i n * v n)).sum := by
    unfold Spec.tieTranslationWork
    refine sum_congr rfl (fun B hB => sum_congr rfl (fun i hi => sum_congr rfl (fun n hn => ?_)))
    rw [hb B i n (mem_range.mp hB) (mem_range.mp hi) (mem_range.mp hn), list_sum_mul]
  rw [e]
  simp only [list_sum_comm]
  refine (list_sum_congr _ _ (fun _ => 0) (fun q hq => ?_)).trans (by simp)
  rw [sum_congr rfl (fun B _ => sum_comm), sum_comm]
  refine sum_eq_zero (fun n hn => ?_)
  simp only [← sum_mul]
  rw [hR q hq n (mem_range.mp hn), zero_mul]

theorem thermal_tieJ (D : KD) (hbs : D.bs = D.gdim) (c : ℕ → ℝ) (q B i n : ℕ) (hn : n < D.bs) :
    D.w0 q * (D.tdims true).thermalForm D.ph c (D.nPhys q) q B i n =
      (D.w0 q * (1 / 2 * (c 3 * (3 * c 1 + 2 * c 0)) *
        ((c ((D.tdims true).oTemp + q) + c ((D.tdims true).oTempOpp + q)) / 2) * D.nPhys q n))
        * tieJ D (tOff D true) c q B i n := by
  have hn' : n < D.gdim := hbs ▸ hn
  have eg : (D.tdims true).g = D.gdim := rfl
  rw [Spec.TieDims.thermalForm, eg]
  have e3 : ∀ a, (D.tdims true).vJump D.ph c q B i n a =
      if a = n then tieJ D (tOff D true) c q B i n else 0 := by
    intro a
    cases B with
    | zero => rfl
    | succ k => rw [tieJ, tieIdx_eq D true hbs c]; rfl
  simp only [e3, mul_ite, mul_zero, sum_ite_eq', mem_range.mpr hn', if_true]
  ring

theorem tieRhsPoint_isAdd (D : KD) (o : ℕ → ℕ) (c w : ℕ → ℝ) (links q : ℕ) :
    IsAdd (tieRhsPoint D o c w links q) := by unfold tieRhsPoint; dsimp only; is_add

theorem tieJacPoint_isAdd (D : KD) (o : ℕ → ℕ) (c w : ℕ → ℝ) (links q : ℕ) :
    IsAdd (tieJacPoint D o c w links q) := by unfold tieJacPoint; dsimp only; is_add

theorem thermoRhsPoint_isAdd (D : KD) (o : ℕ → ℕ) (c : ℕ → ℝ) (links q : ℕ) :
    IsAdd (thermoRhsPoint D o c links q) := by unfold thermoRhsPoint; dsimp only; is_add

theorem poisRhsPoint_isAdd (D : KD) (o : ℕ → ℕ) (c w : ℕ → ℝ) (links q : ℕ) :
    IsAdd (poisRhsPoint D o c w links q) := by unfold poisRhsPoint; dsimp only; is_add

theorem poisJacPoint_isAdd (D : KD) (o : ℕ → ℕ) (c w : ℕ → ℝ) (links q : ℕ) :
    IsAdd (poisJacPoint D o c w links q) := by unfold poisJacPoint; dsimp only; is_add

end

end Verif.Kernels
