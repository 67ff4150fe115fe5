import Verif.Model.MeshTieKernels
import Verif.Spec.MeshTie
import Verif.Lemmas.KernelDerivative

namespace Verif.Kernels

open Verif.Elasticity Finset

noncomputable section

/-! ### layout -/

abbrev tOff (D : KD) (th : Bool) (i : ℕ) : ℕ := offsets (tieStrides D th) i

abbrev pOff (D : KD) (i : ℕ) : ℕ := offsets (poissonStrides D) i

section Layout

variable (D : KD) (th : Bool) (hbs : D.bs = D.gdim)
include hbs

theorem tOff1 : tOff D th 1 = (D.tdims th).oTest := by
  cases th <;> simp [tOff, offsets, tieStrides, KD.tdims, Spec.TieDims.oTest]

theorem tOff2 : tOff D th 2 = (D.tdims th).oGTest := by
  cases th <;> simp [tOff, offsets, tieStrides, KD.tdims, Spec.TieDims.oTest, Spec.TieDims.oGTest,
    hbs] <;> ring

theorem tOff3 : tOff D th 3 = (D.tdims th).oU := by
  cases th <;> simp [tOff, offsets, tieStrides, KD.tdims, Spec.TieDims.oTest, Spec.TieDims.oGTest,
    Spec.TieDims.oU, hbs] <;> ring

theorem tOff4 : tOff D th 4 = (D.tdims th).oGrad := by
  cases th <;> simp [tOff, offsets, tieStrides, KD.tdims, Spec.TieDims.oTest, Spec.TieDims.oGTest,
    Spec.TieDims.oU, Spec.TieDims.oGrad, hbs] <;> ring

theorem tOff5 : tOff D th 5 = (D.tdims th).oOpp := by
  cases th <;> simp [tOff, offsets, tieStrides, KD.tdims, Spec.TieDims.oTest, Spec.TieDims.oGTest,
    Spec.TieDims.oU, Spec.TieDims.oGrad, Spec.TieDims.oOpp, hbs] <;> ring

theorem tOff6 : tOff D th 6 = (D.tdims th).oGOpp := by
  cases th <;> simp [tOff, offsets, tieStrides, KD.tdims, Spec.TieDims.oTest, Spec.TieDims.oGTest,
    Spec.TieDims.oU, Spec.TieDims.oGrad, Spec.TieDims.oOpp, Spec.TieDims.oGOpp, hbs] <;> ring

theorem tOff7 : tOff D true 7 = (D.tdims true).oTemp := by
  simp [tOff, offsets, tieStrides, KD.tdims, Spec.TieDims.oTest, Spec.TieDims.oGTest,
    Spec.TieDims.oU, Spec.TieDims.oGrad, Spec.TieDims.oOpp, Spec.TieDims.oGOpp,
    Spec.TieDims.oTemp, hbs]
  ring

theorem tOff8 : tOff D true 8 = (D.tdims true).oTempOpp := by
  simp [tOff, offsets, tieStrides, KD.tdims, Spec.TieDims.oTest, Spec.TieDims.oGTest,
    Spec.TieDims.oU, Spec.TieDims.oGrad, Spec.TieDims.oOpp, Spec.TieDims.oGOpp,
    Spec.TieDims.oTemp, Spec.TieDims.oTempOpp, hbs]
  ring

theorem tieIdx_eq (c : ℕ → ℝ) (q k i n : ℕ) :
    c (tieIdx D (tOff D th) q k i n) = (D.tdims th).test c q k i n := by
  rw [tieIdx, tOff1 D th hbs, Spec.TieDims.test]
  congr 1
  simp only [KD.tdims, hbs]; ring

theorem tieJump_eq (c : ℕ → ℝ) (q j : ℕ) :
    tieJump D (tOff D th) c q j = (D.tdims th).jump c q j := by
  rw [tieJump, tOff3 D th hbs, tOff5 D th hbs, Spec.TieDims.jump, hbs]; rfl

theorem tieSigU_eq (c : ℕ → ℝ) (q a : ℕ) (ha : a < D.gdim) :
    tieSigU D (tOff D th) c q a =
      Spec.traction D.gdim (c 0) (c 1)
        (fun a b => c ((D.tdims th).oGrad + (q * D.gdim + a) * D.gdim + b)) (D.nPhys q) a
      + Spec.traction D.gdim (c 0) (c 1)
        (fun a b => c ((D.tdims th).oGOpp + (q * D.gdim + a) * D.gdim + b)) (D.nPhys q) a := by
  rw [tieSigU, sigmaNU_traction _ _ _ _ _ _ ha, sigmaNU_traction _ _ _ _ _ _ ha,
    tOff4 D th hbs, tOff6 D th hbs]
  have e : ∀ x a b : ℕ, x + q * D.gdim * D.gdim + (a * D.gdim + b) =
      x + (q * D.gdim + a) * D.gdim + b := by intros; ring
  simp only [e]

theorem tieSigOpp_eq (c : ℕ → ℝ) (q k i n a : ℕ) (hn : n < D.gdim) (ha : a < D.gdim) :
    tieSigOpp D (tOff D th) c q k i n a =
      Spec.traction D.gdim (c 0) (c 1)
        (fun a b => if a = n then (D.tdims th).gtest c q k i b else 0) (D.nPhys q) a := by
  rw [tieSigOpp, sigmaNOpp_traction _ _ _ _ _ _ _ _ _ _ _ _ hn ha, tOff2 D th hbs]
  congr 1
  funext a b
  have e : (D.tdims th).oGTest + (k * D.nq * D.nd * D.gdim + i * D.nq * D.gdim + q * D.gdim + b) =
    (D.tdims th).oGTest + ((k * (D.tdims th).nd + i) * (D.tdims th).nq + q) * (D.tdims th).g + b := by
      show _ = (D.tdims th).oGTest + ((k * D.nd + i) * D.nq + q) * D.gdim + b
      ring
  rw [e]; rfl

end Layout

/-! ### the common algebraic form -/

/-- Residual entry: `J` is the jump of the dof's basis function, `S` its traction. -/
def absR (bs : ℕ) (w0 gam th : ℝ) (su ju : ℕ → ℝ) (J : ℕ → ℕ → ℕ → ℝ) (S : ℕ → ℕ → ℕ → ℕ → ℝ)
    (B i n : ℕ) : ℝ :=
  w0 * ((-0.5 * su n + gam * ju n) * J B i n - 0.5 * th * ∑ a ∈ range bs, S B i n a * ju a)

/-- Matrix entry. -/
def absM (w0 gam th : ℝ) (J : ℕ → ℕ → ℕ → ℝ) (S : ℕ → ℕ → ℕ → ℕ → ℝ)
    (B i b B' j l : ℕ) : ℝ :=
  w0 * ((if b = l then gam * J B' j l * J B i b else 0)
    - 0.5 * S B' j l b * J B i b - 0.5 * th * S B i b l * J B' j l)

theorem absM_symm (w0 gam : ℝ) (J : ℕ → ℕ → ℕ → ℝ) (S : ℕ → ℕ → ℕ → ℕ → ℝ) (B i b B' j l : ℕ) :
    absM w0 gam 1 J S B i b B' j l = absM w0 gam 1 J S B' j l B i b := by
  by_cases h : b = l
  · subst h; simp only [absM, if_true]; ring
  · simp only [absM, h, Ne.symm h, if_false]; ring

theorem absR_comb (D : KD) (links : ℕ) (w0 gam th : ℝ) (su ju : ℕ → ℝ) (J : ℕ → ℕ → ℕ → ℝ)
    (S : ℕ → ℕ → ℕ → ℕ → ℝ) (W : ℕ → ℕ → ℝ)
    (hsu : ∀ a, a < D.bs → su a = comb D links (fun B i n => S B i n a) W)
    (hju : ∀ a, a < D.bs → ju a = comb D links (fun B i n => if a = n then J B i n else 0) W)
    (B i n : ℕ) (hn : n < D.bs) :
    absR D.bs w0 gam th su ju J S B i n =
      comb D links (fun B' j l => absM w0 gam th J S B i n B' j l) W := by
  have e : comb D links (fun B' j l => absM w0 gam th J S B i n B' j l) W =
      comb D links (fun B' j l => (w0 * gam * J B i n) * (if n = l then J B' j l else 0)
        + ((-(w0 * 0.5 * J B i n)) * S B' j l n
          + (-(w0 * 0.5 * th)) * ∑ a ∈ range D.bs, S B i n a * (if a = l then J B' j l else 0))) W := by
    refine comb_congr D links W (fun B' j l _ _ hl => ?_)
    simp only [mul_ite, mul_zero, sum_ite_eq', mem_range.mpr hl, if_true]
    rw [absM]
    split <;> ring
  have e2 : comb D links (fun B' j l => ∑ a ∈ range D.bs, S B i n a * (if a = l then J B' j l else 0)) W
      = ∑ a ∈ range D.bs, S B i n a * ju a := by
    rw [comb_sum]
    refine sum_congr rfl (fun a ha => ?_)
    rw [comb_smul, hju a (mem_range.mp ha)]
  rw [e, comb_add, comb_smul, ← hju n hn, comb_add, comb_smul, ← hsu n hn, comb_smul, e2, absR]
  ring

/-- A dof without jump and traction has no matrix entries. -/
theorem absM_zero (w0 gam th : ℝ) (J : ℕ → ℕ → ℕ → ℝ) (S : ℕ → ℕ → ℕ → ℕ → ℝ) (B i b B' j l : ℕ)
    (h : (J B i b = 0 ∧ S B i b l = 0) ∨ (J B' j l = 0 ∧ S B' j l b = 0)) :
    absM w0 gam th J S B i b B' j l = 0 := by
  rw [absM]
  rcases h with ⟨h1, h2⟩ | ⟨h1, h2⟩ <;> rw [h1, h2] <;> simp

theorem absR_sum {links nd bs : ℕ} (w0 gam th : ℝ) (su ju : ℕ → ℝ) (J : ℕ → ℕ → ℕ → ℝ)
    (S : ℕ → ℕ → ℕ → ℕ → ℝ) (n : ℕ)
    (hJ : ∑ B ∈ range (links + 1), ∑ i ∈ range nd, J B i n = 0)
    (hS : ∀ a, a < bs → ∑ B ∈ range (links + 1), ∑ i ∈ range nd, S B i n a = 0) :
    ∑ B ∈ range (links + 1), ∑ i ∈ range nd, absR bs w0 gam th su ju J S B i n = 0 := by
  simp only [absR, ← mul_sum, sum_sub_distrib]
  rw [hJ]
  have h2 : ∑ B ∈ range (links + 1), ∑ i ∈ range nd, ∑ a ∈ range bs, S B i n a * ju a = 0 := by
    rw [sum_congr rfl (fun B _ => sum_comm), sum_comm]
    refine sum_eq_zero (fun a ha => ?_)
    simp only [← sum_mul]
    rw [hS a (mem_range.mp ha), zero_mul]
  rw [h2]; ring

theorem blockSymmetric_of {D : KD} {links : ℕ} {qs : List ℕ} {A : Arr (ℕ × ℕ)}
    {J : ℕ → ℕ → ℕ → ℕ → ℕ → ℕ → ℕ → ℝ} (hA : BlockValues D links qs A J)
    (hJ : ∀ q B i b B' j l, J q B i b B' j l = J q B' j l B i b) :
    Spec.BlockSymmetric (D.nd * D.bs) links A := by
  intro r s hr hs
  obtain ⟨hi, hb, hr'⟩ := split_index hr
  obtain ⟨hj, hl, hs'⟩ := split_index hs
  have h1 := hA _ _ _ _ hi hb hj hl
  have h2 := hA _ _ _ _ hj hl hi hb
  rw [← mIdx_row, ← hr', ← hs'] at h1 h2
  refine ⟨?_, fun k hk => ⟨?_, ?_⟩⟩
  · rw [h1.1, h2.1]
    exact list_sum_congr _ _ _ (fun q _ => hJ q _ _ _ _ _ _)
  · rw [(h1.2 k hk).1, (h2.2 k hk).2.1]
    exact list_sum_congr _ _ _ (fun q _ => hJ q _ _ _ _ _ _)
  · rw [(h1.2 k hk).2.2, (h2.2 k hk).2.2]
    exact list_sum_congr _ _ _ (fun q _ => hJ q _ _ _ _ _ _)

/-! ### tied elasticity -/

/-- Jump of a dof's basis function. -/
def tieJ (D : KD) (o : ℕ → ℕ) (c : ℕ → ℝ) (q B i n : ℕ) : ℝ :=
  match B with
  | 0 => D.ph q i
  | k + 1 => -c (tieIdx D o q k i n)

/-- Traction of a dof's basis function. -/
def tieS (D : KD) (o : ℕ → ℕ) (c : ℕ → ℝ) (q B i n a : ℕ) : ℝ :=
  match B with
  | 0 => sigB D c q i n a
  | k + 1 => tieSigOpp D o c q k i n a

abbrev tieR (D : KD) (o : ℕ → ℕ) (c w : ℕ → ℝ) (q B i n : ℕ) : ℝ :=
  absR D.bs (tieW0 D q) (tieGam c w) (w 1) (tieSigU D o c q) (tieJump D o c q) (tieJ D o c q)
    (tieS D o c q) B i n

abbrev tieM (D : KD) (o : ℕ → ℕ) (c w : ℕ → ℝ) (q B i b B' j l : ℕ) : ℝ :=
  absM (tieW0 D q) (tieGam c w) (w 1) (tieJ D o c q) (tieS D o c q) B i b B' j l

theorem sum_mul_right' {n : ℕ} {f g : ℕ → ℝ} {x : ℝ} (h : ∀ a, f a = x * g a) :
    ∑ a ∈ range n, f a = x * ∑ a ∈ range n, g a := by
  rw [mul_sum]; exact sum_congr rfl (fun a _ => h a)

theorem tieRhsPoint_at (D : KD) (hbs : D.bs = D.gdim) (o : ℕ → ℕ) (c w : ℕ → ℝ) (links q B i n : ℕ)
    (hi : i < D.nd) (hn : n < D.bs) (hB : B < links + 1) (a : Arr (ℕ × ℕ)) :
    tieRhsPoint D o c w links q a (B, n + i * D.bs) =
      a (B, n + i * D.bs) + tieR D o c w q B i n := by
  unfold tieRhsPoint
  dsimp only
  refine (vec_value (fun i n => (((AddsAt.id _).then_acc).then_loop (fun g =>
      (AddsAt.id _).then_acc)).then_loop (fun k => ((AddsAt.id _).then_acc).then_loop (fun g =>
      (AddsAt.id _).then_acc))) hi hn B a).trans ?_
  congr 1
  cases B with
  | zero =>
    simp only [v01, if_true, if_false, sum_const_zero, add_zero, zero_add]
    rw [sum_mul_right' (g := fun a => sigB D c q i n a * tieJump D o c q a)
      (x := -(tieW0 D q * (0.5 * w 1))) (fun a => by ring)]
    simp only [tieR, absR, tieJ, tieS, hbs]
    ring
  | succ k =>
    have hk : k ∈ range links := mem_range.mpr (by omega)
    simp only [v10, v11, if_false, zero_add, sum_const_zero, sum_if]
    rw [sum_add_distrib]
    simp only [sum_ite_eq, hk, if_true]
    rw [sum_mul_right' (g := fun a => tieSigOpp D o c q k i n a * tieJump D o c q a)
      (x := -(tieW0 D q * (0.5 * w 1))) (fun a => by ring)]
    simp only [tieR, absR, tieJ, tieS, hbs]
    ring

theorem tieJacPoint_at (D : KD) (o : ℕ → ℕ) (c w : ℕ → ℝ) (links q i b j l : ℕ) (hi : i < D.nd)
    (hb : b < D.bs) (hj : j < D.nd) (hl : l < D.bs) (a : Arr (ℕ × ℕ)) :
    tieJacPoint D o c w links q a (0, mIdx D i b j l) =
        a (0, mIdx D i b j l) + tieM D o c w q 0 i b 0 j l
    ∧ ∀ k, k < links →
      tieJacPoint D o c w links q a (3 * k + 1, mIdx D i b j l) =
        a (3 * k + 1, mIdx D i b j l) + tieM D o c w q 0 i b (k + 1) j l
      ∧ tieJacPoint D o c w links q a (3 * k + 2, mIdx D i b j l) =
        a (3 * k + 2, mIdx D i b j l) + tieM D o c w q (k + 1) i b 0 j l
      ∧ tieJacPoint D o c w links q a (3 * k + 3, mIdx D i b j l) =
        a (3 * k + 3, mIdx D i b j l) + tieM D o c w q (k + 1) i b (k + 1) j l := by
  unfold tieJacPoint
  dsimp only
  refine ⟨(mat_value' (P := mIdx D) (fun _ _ _ _ => rfl)
    (fun j l i => (AddsAt.id _).then_acc.then_loop (fun k =>
      (AddsAt.id _).then_acc.then_acc.then_acc))
    (fun j l i b => (AddsAt.id _).then_acc.then_loop (fun k =>
      (AddsAt.id _).then_acc.then_acc.then_acc)) hi hb hj hl _ a).trans ?_, fun k hk => ⟨(mat_value' (P := mIdx D) (fun _ _ _ _ => rfl)
    (fun j l i => (AddsAt.id _).then_acc.then_loop (fun k =>
      (AddsAt.id _).then_acc.then_acc.then_acc))
    (fun j l i b => (AddsAt.id _).then_acc.then_loop (fun k =>
      (AddsAt.id _).then_acc.then_acc.then_acc)) hi hb hj hl _ a).trans ?_,
    (mat_value' (P := mIdx D) (fun _ _ _ _ => rfl)
    (fun j l i => (AddsAt.id _).then_acc.then_loop (fun k =>
      (AddsAt.id _).then_acc.then_acc.then_acc))
    (fun j l i b => (AddsAt.id _).then_acc.then_loop (fun k =>
      (AddsAt.id _).then_acc.then_acc.then_acc)) hi hb hj hl _ a).trans ?_,
    (mat_value' (P := mIdx D) (fun _ _ _ _ => rfl)
    (fun j l i => (AddsAt.id _).then_acc.then_loop (fun k =>
      (AddsAt.id _).then_acc.then_acc.then_acc))
    (fun j l i b => (AddsAt.id _).then_acc.then_loop (fun k =>
      (AddsAt.id _).then_acc.then_acc.then_acc)) hi hb hj hl _ a).trans ?_⟩⟩
  all_goals congr 1
  · simp only [b01, b02, b03, if_true, if_false, sum_const_zero, add_zero, zero_add, tieM, absM, tieJ,
      tieS]
    split
    · next h => subst h; ring
    · ring
  all_goals
    have hk := mem_range.mpr hk
    simp only [b10, b11, b12, b13, b20, b21, b22, b23, b30, b31, b32, b33, if_false, zero_add,
      add_zero, sum_ite_eq, hk, if_true, tieM, absM, tieJ, tieS]
    split
    · next h => subst h; ring
    · ring

theorem tieRhs_at (D : KD) (hbs : D.bs = D.gdim) (o : ℕ → ℕ) (c w : ℕ → ℝ) (links : ℕ) (qs : List ℕ)
    (B i n : ℕ) (hi : i < D.nd) (hn : n < D.bs) (hB : B < links + 1) (a : Arr (ℕ × ℕ)) :
    tieRhs D o c w links qs a (B, i * D.bs + n) =
      a (B, i * D.bs + n) + (qs.map (fun q => tieR D o c w q B i n)).sum := by
  rw [Nat.add_comm (i * D.bs), tieRhs]
  exact forEach_at qs _ _ _ (fun q _ a => tieRhsPoint_at D hbs o c w links q B i n hi hn hB a) a

theorem tieJac_blocks (D : KD) (o : ℕ → ℕ) (c w : ℕ → ℝ) (links : ℕ) (qs : List ℕ) :
    BlockValues D links qs (tieJac D o c w links qs 0) (tieM D o c w) := by
  intro i b j l hi hb hj hl
  have z : ∀ (m : ℕ × ℕ) (x : ℝ), (0 : Arr (ℕ × ℕ)) m + x = x := fun m x => zero_add x
  rw [tieJac]
  refine ⟨(forEach_at qs _ _ _ (fun q _ a =>
      (tieJacPoint_at D o c w links q i b j l hi hb hj hl a).1) 0).trans (z _ _),
    fun k hk => ⟨(forEach_at qs _ _ _ (fun q _ a =>
      ((tieJacPoint_at D o c w links q i b j l hi hb hj hl a).2 k hk).1) 0).trans (z _ _),
    (forEach_at qs _ _ _ (fun q _ a =>
      ((tieJacPoint_at D o c w links q i b j l hi hb hj hl a).2 k hk).2.1) 0).trans (z _ _),
    (forEach_at qs _ _ _ (fun q _ a =>
      ((tieJacPoint_at D o c w links q i b j l hi hb hj hl a).2 k hk).2.2) 0).trans (z _ _)⟩⟩

section TieCarry

variable {D : KD} {th : Bool} {links : ℕ} {c c' : ℕ → ℝ} {W : ℕ → ℕ → ℝ} {q : ℕ}

abbrev TCarries (D : KD) (th : Bool) (links : ℕ) (c : ℕ → ℝ) (W : ℕ → ℕ → ℝ) : Prop :=
  Spec.TieCarries (D.tdims th) links D.ph (fun q i b => gradV D.tdim (D.K q) (D.dph q) i b) c W

theorem tieJump_comb (hbs : D.bs = D.gdim) (h : TCarries D th links c W) (hq : q < D.nq) (a : ℕ)
    (ha : a < D.bs) :
    tieJump D (tOff D th) c q a =
      comb D links (fun B i n => if a = n then tieJ D (tOff D th) c q B i n else 0) W := by
  have ha' : a < D.gdim := hbs ▸ ha
  rw [tieJump_eq D th hbs, Spec.TieDims.jump, h.u q a hq ha', h.opp q a hq ha', comb_split]
  simp only [tieJ, ite_mul, zero_mul, sum_ite_eq, mem_range.mpr ha, if_true, neg_mul,
    sum_neg_distrib, tieIdx_eq D th hbs, sub_eq_add_neg]
  rw [hbs]; rfl

theorem tieSigU_comb (hbs : D.bs = D.gdim) (h : TCarries D th links c W) (hq : q < D.nq) (a : ℕ)
    (ha : a < D.bs) :
    tieSigU D (tOff D th) c q a =
      comb D links (fun B i n => tieS D (tOff D th) c q B i n a) W := by
  have ha' : a < D.gdim := hbs ▸ ha
  rw [tieSigU_eq D th hbs c q a ha', comb_split]
  congr 1
  · rw [traction_interp (range D.nd) D.gdim (c 0) (c 1)
      (fun i b => gradV D.tdim (D.K q) (D.dph q) i b) (fun i m => W 0 (i * D.gdim + m))
      (fun a b => c ((D.tdims th).oGrad + (q * D.gdim + a) * D.gdim + b)) _ a ha'
      (fun a b ha hb => h.grad q a b hq ha hb), hbs]
    refine sum_congr rfl (fun i _ => sum_congr rfl (fun m hm => ?_))
    rw [tieS, sigB, sigmaNBasis_traction _ _ _ _ _ _ _ _ _ _ (mem_range.mp hm) ha']
  · rw [traction_interp (range links ×ˢ range D.nd) D.gdim (c 0) (c 1)
      (fun t b => (D.tdims th).gtest c q t.1 t.2 b) (fun t m => W (t.1 + 1) (t.2 * D.gdim + m))
      (fun a b => c ((D.tdims th).oGOpp + (q * D.gdim + a) * D.gdim + b)) _ a ha' (fun a b ha hb => by rw [sum_product]; exact h.gopp q a b hq ha hb), sum_product, hbs]
    refine sum_congr rfl (fun k _ => sum_congr rfl (fun i _ => sum_congr rfl (fun m hm => ?_)))
    rw [tieS, tieSigOpp_eq D th hbs c q k i m a (mem_range.mp hm) ha']

theorem tieTest_lt {k i n : ℕ} (hk : k < D.maxLinks) (hi : i < D.nd) (hq : q < D.nq)
    (hn : n < D.gdim) :
    (D.tdims th).oTest + ((k * D.nd + i) * D.nq + q) * D.gdim + n < (D.tdims th).oU := by
  have h3 := row_lt (row_lt (row_lt hk hi) hq) hn
  simp only [Spec.TieDims.oU, Spec.TieDims.oGTest]
  show (D.tdims th).oTest + ((k * D.nd + i) * D.nq + q) * D.gdim + n
    < (D.tdims th).oTest + D.maxLinks * D.nd * D.nq * D.gdim + D.maxLinks * D.nd * D.nq * D.gdim
  omega

theorem tieGTest_lt {k i n : ℕ} (hk : k < D.maxLinks) (hi : i < D.nd) (hq : q < D.nq)
    (hn : n < D.gdim) :
    (D.tdims th).oGTest + ((k * D.nd + i) * D.nq + q) * D.gdim + n < (D.tdims th).oU := by
  have h3 := row_lt (row_lt (row_lt hk hi) hq) hn
  simp only [Spec.TieDims.oU]
  show (D.tdims th).oGTest + ((k * D.nd + i) * D.nq + q) * D.gdim + n
    < (D.tdims th).oGTest + D.maxLinks * D.nd * D.nq * D.gdim
  omega

theorem tieSame_small (h : Spec.TieSame (D.tdims th) c c') (m : ℕ) (hm : m < 3) : c m = c' m := by
  refine h m ?_
  simp only [Spec.TieDims.oU, Spec.TieDims.oGTest, Spec.TieDims.oTest, KD.tdims]
  split <;> omega

theorem tieSame_J (hbs : D.bs = D.gdim) (h : Spec.TieSame (D.tdims th) c c') (hl : links ≤ D.maxLinks)
    (hq : q < D.nq) {B i n : ℕ} (hB : B < links + 1) (hi : i < D.nd) (hn : n < D.bs) :
    tieJ D (tOff D th) c q B i n = tieJ D (tOff D th) c' q B i n := by
  cases B with
  | zero => rfl
  | succ k =>
    simp only [tieJ, tieIdx_eq D th hbs]
    rw [Spec.TieDims.test, Spec.TieDims.test, h]
    exact tieTest_lt (by omega) hi hq (hbs ▸ hn)

theorem tieSame_S (hbs : D.bs = D.gdim) (h : Spec.TieSame (D.tdims th) c c') (hl : links ≤ D.maxLinks)
    (hq : q < D.nq) {B i n a : ℕ} (hB : B < links + 1) (hi : i < D.nd) (hn : n < D.bs)
    (ha : a < D.bs) :
    tieS D (tOff D th) c q B i n a = tieS D (tOff D th) c' q B i n a := by
  have ha' : a < D.gdim := hbs ▸ ha
  have hn' : n < D.gdim := hbs ▸ hn
  cases B with
  | zero =>
    simp only [tieS]
    rw [sigB, sigB, tieSame_small h 0 (by omega), tieSame_small h 1 (by omega)]
  | succ k =>
    simp only [tieS, tieSigOpp_eq D th hbs _ q k i n a hn' ha']
    rw [tieSame_small h 0 (by omega), tieSame_small h 1 (by omega), traction_eq _ _ _ _ _ _ ha',
      traction_eq _ _ _ _ _ _ ha']
    have e : ∀ b, b < D.gdim → (D.tdims th).gtest c q k i b = (D.tdims th).gtest c' q k i b := by
      intro b hb
      exact h _ (tieGTest_lt (by omega) hi hq hb)
    congr 1
    · refine sum_congr rfl (fun b hb => ?_)
      rw [e b (mem_range.mp hb), e a ha']
    · congr 2
      exact sum_congr rfl (fun b hb => by rw [e b (mem_range.mp hb)])

theorem tieSame_M (hbs : D.bs = D.gdim) (h : Spec.TieSame (D.tdims th) c c') (hl : links ≤ D.maxLinks)
    (hq : q < D.nq) (w : ℕ → ℝ) {B i b B' j l : ℕ} (hB : B < links + 1) (hi : i < D.nd)
    (hb : b < D.bs) (hB' : B' < links + 1) (hj : j < D.nd) (hl' : l < D.bs) :
    tieM D (tOff D th) c w q B i b B' j l = tieM D (tOff D th) c' w q B i b B' j l := by
  simp only [tieM, absM]
  rw [tieSame_J hbs h hl hq hB hi hb, tieSame_J hbs h hl hq hB' hj hl',
    tieSame_S hbs h hl hq hB hi hb hl', tieSame_S hbs h hl hq hB' hj hl' hb, tieGam, tieGam,
    tieSame_small h 2 (by omega)]

theorem tieM_cross (hbs : D.bs = D.gdim) (h : Spec.TieOneLink (D.tdims th) links c q) (w : ℕ → ℝ)
    {k k' i b j l : ℕ} (hk : k < links) (hk' : k' < links) (hne : k ≠ k') (hi : i < D.nd)
    (hb : b < D.bs) (hj : j < D.nd) (hl : l < D.bs) :
    tieM D (tOff D th) c w q (k + 1) i b (k' + 1) j l = 0 := by
  obtain ⟨k0, h0⟩ := h
  have z : ∀ k i n a, k < links → k ≠ k0 → i < D.nd → n < D.bs → a < D.bs →
      tieJ D (tOff D th) c q (k + 1) i n = 0 ∧ tieS D (tOff D th) c q (k + 1) i n a = 0 := by
    intro k i n a hk hne hi hn ha
    obtain ⟨h1, h2⟩ := h0 k i hk hne hi
    have h2' : ∀ b, b < D.gdim → (D.tdims th).gtest c q k i b = 0 := h2
    constructor
    · simp only [tieJ, tieIdx_eq D th hbs]
      rw [h1 n (show n < D.gdim from hbs ▸ hn), neg_zero]
    · have ha' : a < D.gdim := hbs ▸ ha
      simp only [tieS]
      rw [tieSigOpp_eq D th hbs c q k i n a (hbs ▸ hn) ha', traction_eq _ _ _ _ _ _ ha']
      have e1 : ∀ b ∈ range D.gdim, c 0 * ((if b = n then (D.tdims th).gtest c q k i a else 0)
          + if a = n then (D.tdims th).gtest c q k i b else 0) * D.nPhys q b = 0 := by
        intro b hb
        rw [h2' a ha', h2' b (mem_range.mp hb)]; simp
      have e2 : ∀ b ∈ range D.gdim, (if b = n then (D.tdims th).gtest c q k i b else 0) = 0 := by
        intro b hb
        rw [h2' b (mem_range.mp hb)]; simp
      rw [sum_eq_zero e1, sum_eq_zero e2]; simp
  refine absM_zero _ _ _ _ _ _ _ _ _ _ _ ?_
  by_cases h1 : k = k0
  · exact Or.inr (z k' j l b hk' (by omega) hj hl hb)
  · exact Or.inl (z k i b l hk h1 hi hb hl)

end TieCarry

end

end Verif.Kernels
