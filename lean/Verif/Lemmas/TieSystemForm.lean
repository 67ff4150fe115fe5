import Verif.Lemmas.TieSystem
import Verif.Props.MeshTieKernels
import Mathlib.Algebra.BigOperators.Field

/-! Lemmas for C117–C120: the element vectors and matrices of one facet. -/

namespace Verif.TieData

open Verif.Spec Verif.Packing Verif.Assembly Verif.Entities Verif.Kernels Verif.ContactProblem Finset

noncomputable section

variable {M : TieMesh} {E : TieElement}

/-! ### linearity -/

theorem elasticPart_sum {ι : Type} (S : Finset ι) (g : ℕ) (mu lam gamma theta h : ℝ) (n J : ℕ → ℝ) (D : ℕ → ℕ → ℝ)
    (x : ι → ℕ → ℝ) (y : ι → ℕ → ℕ → ℝ) (t : ι → ℝ) :
    elasticPart g mu lam gamma theta h n J D (fun a => ∑ k ∈ S, x k a * t k) (fun a b => ∑ k ∈ S, y k a b * t k)
      = ∑ k ∈ S, elasticPart g mu lam gamma theta h n J D (x k) (y k) * t k := by
  unfold elasticPart
  have e1 : ∑ a ∈ range g, (-traction g mu lam D n a + gamma / h * J a) * ∑ k ∈ S, x k a * t k
      = ∑ k ∈ S, (∑ a ∈ range g, (-traction g mu lam D n a + gamma / h * J a) * x k a) * t k := by
    simp only [mul_sum, sum_mul]
    rw [sum_comm]
    exact sum_congr rfl (fun k _ => sum_congr rfl (fun a _ => by ring))
  have e2 : ∑ a ∈ range g, traction g mu lam (fun a b => ∑ k ∈ S, y k a b * t k) n a * J a
      = ∑ k ∈ S, (∑ a ∈ range g, traction g mu lam (y k) n a * J a) * t k := by
    have : ∀ a ∈ range g, traction g mu lam (fun a b => ∑ k ∈ S, y k a b * t k) n a * J a
        = ∑ k ∈ S, traction g mu lam (y k) n a * J a * t k := by
      intro a ha
      rw [traction_sum S g mu lam y n t (mem_range.mp ha), sum_mul]
      exact sum_congr rfl (fun k _ => by ring)
    rw [sum_congr rfl this, sum_comm]
    exact sum_congr rfl (fun k _ => by rw [sum_mul])
  rw [e1, e2, mul_sum S _ theta, ← sum_sub_distrib, mul_sum]
  exact sum_congr rfl (fun k _ => by ring)

theorem elasticPart_congr {g : ℕ} (mu lam gamma theta h : ℝ) (n : ℕ → ℝ) {J J1 K K1 : ℕ → ℝ} {D D1 F F1 : ℕ → ℕ → ℝ}
    (hJ : ∀ a < g, J a = J1 a) (hK : ∀ a < g, K a = K1 a) (hD : ∀ a < g, ∀ b < g, D a b = D1 a b)
    (hF : ∀ a < g, ∀ b < g, F a b = F1 a b) :
    elasticPart g mu lam gamma theta h n J D K F = elasticPart g mu lam gamma theta h n J1 D1 K1 F1 := by
  unfold elasticPart
  congr 2
  · refine sum_congr rfl (fun a ha => ?_)
    have ha' := mem_range.mp ha
    rw [traction_congr mu lam n ha' hD, hJ a ha', hK a ha']
  · congr 1
    refine sum_congr rfl (fun a ha => ?_)
    have ha' := mem_range.mp ha
    rw [traction_congr mu lam n ha' hF, hJ a ha']

theorem heatPart_sum {ι : Type} (S : Finset ι) (g : ℕ) (kappa gamma theta h : ℝ) (n : ℕ → ℝ) (J : ℝ) (D : ℕ → ℝ)
    (x : ι → ℝ) (y : ι → ℕ → ℝ) (t : ι → ℝ) :
    heatPart g kappa gamma theta h n J D (∑ k ∈ S, x k * t k) (fun b => ∑ k ∈ S, y k b * t k)
      = ∑ k ∈ S, heatPart g kappa gamma theta h n J D (x k) (y k) * t k := by
  unfold heatPart
  have e2 : ∑ b ∈ range g, (∑ k ∈ S, y k b * t k) * n b = ∑ k ∈ S, (∑ b ∈ range g, y k b * n b) * t k := by
    simp only [sum_mul]
    rw [sum_comm]
    exact sum_congr rfl (fun k _ => sum_congr rfl (fun b _ => by ring))
  rw [e2, mul_sum S (fun k => x k * t k), mul_sum S _ theta, sum_mul, ← sum_sub_distrib, mul_sum]
  exact sum_congr rfl (fun k _ => by ring)

theorem heatPart_congr {g : ℕ} (kappa gamma theta h : ℝ) (n : ℕ → ℝ) {J J1 K K1 : ℝ} {D D1 F F1 : ℕ → ℝ}
    (hJ : J = J1) (hK : K = K1) (hD : ∀ b < g, D b = D1 b) (hF : ∀ b < g, F b = F1 b) :
    heatPart g kappa gamma theta h n J D K F = heatPart g kappa gamma theta h n J1 D1 K1 F1 := by
  unfold heatPart
  rw [hJ, hK, sum_congr rfl (fun b hb => by rw [hD b (mem_range.mp hb)] :
      ∀ b ∈ range g, D b * n b = D1 b * n b),
    sum_congr rfl (fun b hb => by rw [hF b (mem_range.mp hb)] : ∀ b ∈ range g, F b * n b = F1 b * n b)]

theorem thermalPart_sum {ι : Type} (S : Finset ι) (g : ℕ) (mu lam alpha : ℝ) (n : ℕ → ℝ) (T : ℝ) (x : ι → ℕ → ℝ)
    (t : ι → ℝ) :
    thermalPart g mu lam alpha n T (fun a => ∑ k ∈ S, x k a * t k)
      = ∑ k ∈ S, thermalPart g mu lam alpha n T (x k) * t k := by
  unfold thermalPart
  simp only [mul_sum, sum_mul]
  rw [sum_comm]
  exact sum_congr rfl (fun k _ => sum_congr rfl (fun b _ => by ring))

theorem thermalPart_congr {g : ℕ} (mu lam alpha : ℝ) (n : ℕ → ℝ) {T T1 : ℝ} {K K1 : ℕ → ℝ} (hT : T = T1)
    (hK : ∀ a < g, K a = K1 a) : thermalPart g mu lam alpha n T K = thermalPart g mu lam alpha n T1 K1 := by
  unfold thermalPart
  rw [hT]
  congr 1
  exact sum_congr rfl (fun a ha => by rw [hK a (mem_range.mp ha)])

/-! ### virtual jump and mean gradient -/

theorem tie_vJump_total (s : TieDims) (links : ℕ) (phi : ℕ → ℕ → ℝ) (c : ℕ → ℝ) (q : ℕ) (V : ℕ → ℕ → ℕ → ℝ) {a : ℕ}
    (ha : a < s.bs) :
    ∑ k ∈ dofSet links s.nd s.bs, s.vJump phi c q k.1 k.2.1 k.2.2 a * V k.1 k.2.1 k.2.2
      = ∑ i ∈ range s.nd, phi q i * V 0 i a
        - ∑ k ∈ range links, ∑ i ∈ range s.nd, s.test c q k i a * V (k + 1) i a := by
  rw [sum_dofSet links s.nd s.bs (fun B i n => s.vJump phi c q B i n a * V B i n), sum_range_succ']
  have e : ∀ B i, ∑ n ∈ range s.bs, s.vJump phi c q B i n a * V B i n
      = (match B with | 0 => phi q i | k + 1 => -s.test c q k i a) * V B i a := by
    intro B i
    rw [sum_eq_single_of_mem a (mem_range.mpr ha)]
    · unfold TieDims.vJump; rw [if_pos rfl]; cases B <;> rfl
    · intro n _ hn
      unfold TieDims.vJump
      rw [if_neg (fun h => hn h.symm), zero_mul]
  simp only [e]
  rw [add_comm, sub_eq_add_neg, ← sum_neg_distrib]
  congr 1
  refine sum_congr rfl (fun k _ => ?_)
  rw [← sum_neg_distrib]
  exact sum_congr rfl (fun i _ => by ring)

theorem tie_vMean_total (s : TieDims) (links : ℕ) (dphi : ℕ → ℕ → ℕ → ℝ) (c : ℕ → ℝ) (q : ℕ) (V : ℕ → ℕ → ℕ → ℝ)
    {a : ℕ} (ha : a < s.bs) (b : ℕ) :
    ∑ k ∈ dofSet links s.nd s.bs, s.vMeanGrad dphi c q k.1 k.2.1 k.2.2 a b * V k.1 k.2.1 k.2.2
      = (∑ i ∈ range s.nd, dphi q i b * V 0 i a
        + ∑ k ∈ range links, ∑ i ∈ range s.nd, s.gtest c q k i b * V (k + 1) i a) / 2 := by
  rw [sum_dofSet links s.nd s.bs (fun B i n => s.vMeanGrad dphi c q B i n a b * V B i n), sum_range_succ']
  have e : ∀ B i, ∑ n ∈ range s.bs, s.vMeanGrad dphi c q B i n a b * V B i n
      = (match B with | 0 => dphi q i b / 2 | k + 1 => s.gtest c q k i b / 2) * V B i a := by
    intro B i
    rw [sum_eq_single_of_mem a (mem_range.mpr ha)]
    · unfold TieDims.vMeanGrad; rw [if_pos rfl]; cases B <;> rfl
    · intro n _ hn
      unfold TieDims.vMeanGrad
      rw [if_neg (fun h => hn h.symm), zero_mul]
  simp only [e]
  rw [add_div, sum_div, sum_div, add_comm]
  congr 1
  · exact sum_congr rfl (fun i _ => by ring)
  · refine sum_congr rfl (fun k _ => ?_)
    rw [sum_div]
    exact sum_congr rfl (fun i _ => by ring)

theorem affineConst (hM : TieMesh.Valid M) (E : TieElement) (cell f : ℕ) : AffineConst (M.kd E cell f) := by
  intro ha q
  have := hM.affine ha f q
  show M.inv (M.geo.jac cell (M.cphi (M.off f + q))) = M.inv (M.geo.jac cell (M.cphi (M.off f)))
    ∧ M.det f (M.geo.jac cell (M.cphi (M.off f + q))) = M.det f (M.geo.jac cell (M.cphi (M.off f)))
  rw [this]
  exact ⟨rfl, rfl⟩

theorem tdims_eq (M : TieMesh) {E : TieElement} (hbs : E.bs = M.gdim) (cell f : ℕ) (th : Bool) :
    (M.kd E cell f).tdims th = tdim M E (if th then 4 else 3) := by
  show (⟨M.nq, E.nd, M.gdim, M.gdim, M.nq, if th then 4 else 3⟩ : TieDims) = ⟨M.nq, E.nd, E.bs, M.gdim, M.nq, _⟩
  rw [hbs]

theorem pdims_eq (M : TieMesh) {E : TieElement} (hbs : E.bs = 1) (cell f : ℕ) :
    (M.kd E cell f).pdims = tdim M E 2 := by
  show (⟨M.nq, E.nd, 1, M.gdim, M.nq, 2⟩ : TieDims) = ⟨M.nq, E.nd, E.bs, M.gdim, M.nq, _⟩
  rw [hbs]

open Classical in
theorem points_eq (M : TieMesh) (E : TieElement) {i e : ℕ} (he : e < M.localFacets i) :
    linkedPoints ((M.pair E i).row e) = (List.range M.nq).filter (fun q => decide (Tied M i e q)) := by
  unfold linkedPoints
  rw [Packing.row_length]
  refine List.filter_congr (fun q hq => ?_)
  rw [Packing.row_getD _ _ _ (List.mem_range.mp hq)]
  exact decide_eq_decide.mpr (tied_iff M he (List.mem_range.mp hq))

theorem points_lt {i e q : ℕ} (hq : q ∈ linkedPoints ((M.pair E i).row e)) : q < M.nq := by
  have := (linkedPoints_lt hq).1
  rw [Packing.row_length] at this
  exact this

open Classical in
/-- A kernel which adds weighted forms, tested with `V`. -/
theorem form_sum (M : TieMesh) (E : TieElement) {i e links : ℕ} (he : e < M.localFacets i) (A : ℕ × ℕ → ℝ)
    (W : ℕ → ℝ) (F : ℕ → ℕ → ℕ → ℕ → ℝ) (V : ℕ → ℕ → ℕ → ℝ) (T : ℕ → ℝ)
    (h1 : ∀ B ≤ links, ∀ k < E.nd, ∀ n < E.bs,
      A (B, k * E.bs + n) = ((linkedPoints ((M.pair E i).row e)).map (fun q => W q * F q B k n)).sum)
    (h2 : ∀ q < M.nq, Tied M i e q →
      ∑ k ∈ dofSet links E.nd E.bs, F q k.1 k.2.1 k.2.2 * V k.1 k.2.1 k.2.2 = T q) :
    ∑ B ∈ range (links + 1), ∑ k ∈ range E.nd, ∑ n ∈ range E.bs, A (B, k * E.bs + n) * V B k n
      = ∑ q ∈ range M.nq, if Tied M i e q then W q * T q else 0 := by
  have e1 : ∀ B ∈ range (links + 1), ∑ k ∈ range E.nd, ∑ n ∈ range E.bs, A (B, k * E.bs + n) * V B k n
      = ∑ k ∈ range E.nd, ∑ n ∈ range E.bs, ∑ q ∈ range M.nq,
        if Tied M i e q then W q * (F q B k n * V B k n) else 0 := by
    intro B hB
    refine sum_congr rfl (fun k hk => sum_congr rfl (fun n hn => ?_))
    rw [h1 B (by have := mem_range.mp hB; omega) k (mem_range.mp hk) n (mem_range.mp hn), points_eq M E he,
      list_filter_sum M.nq (fun q => Tied M i e q), sum_mul]
    refine sum_congr rfl (fun q _ => ?_)
    split <;> ring
  rw [sum_congr rfl e1, ← sum_dofSet links E.nd E.bs (fun B k n => ∑ q ∈ range M.nq,
    if Tied M i e q then W q * (F q B k n * V B k n) else 0), sum_comm]
  refine sum_congr rfl (fun q hq => ?_)
  split
  · rename_i hl
    rw [← h2 q (mem_range.mp hq) hl, mul_sum]
  · exact sum_const_zero

section
variable {n0 i e cell f : ℕ} {c : ℕ → ℝ}

theorem test_pos_lt {q k m a : ℕ} (hk : k < M.nq) (hm : m < E.nd) (hq : q < M.nq) (ha : a < E.bs) :
    (tdim M E n0).oTest + ((k * E.nd + m) * M.nq + q) * E.bs + a < (tdim M E n0).oU := by
  have h1 := pos_lt (pos_lt (pos_lt hk hm) hq) ha
  have o : (tdim M E n0).oU = (tdim M E n0).oTest + M.nq * E.nd * M.nq * E.bs + M.nq * E.nd * M.nq * M.gdim := rfl
  omega

theorem gtest_pos_lt {q k m a : ℕ} (hk : k < M.nq) (hm : m < E.nd) (hq : q < M.nq) (ha : a < M.gdim) :
    (tdim M E n0).oGTest + ((k * E.nd + m) * M.nq + q) * M.gdim + a < (tdim M E n0).oU := by
  have h1 := pos_lt (pos_lt (pos_lt hk hm) hq) ha
  have o : (tdim M E n0).oU = (tdim M E n0).oGTest + M.nq * E.nd * M.nq * M.gdim := rfl
  omega

/-- Jump and mean gradient of a test function, from the packed test functions. -/
theorem TestRow.virtual (R : TestRow M E n0 i e c) (hM : TieMesh.Valid M) (hE : TieElement.Valid M E) (h0 : 0 < E.bs)
    (he : e < M.localFacets i) (hf : (M.facets i)[e]? = some (cell, f))
    (hfirst : Packing.Spec.LinkedFirst (M.pair E i) e) {L : List ℕ} (hL : Packing.Spec.IsLinkList (M.pair E i) e L)
    (v : ℕ → ℝ) {q : ℕ} (hq : q < M.nq) (ht : Tied M i e q) :
    (∀ a < E.bs, ∑ k ∈ dofSet L.length E.nd E.bs,
      (tdim M E n0).vJump (facetPhi (M.kd E cell f)) c q k.1 k.2.1 k.2.2 a
        * v (E.bs * E.dofs (coupledCell cell L k.1) k.2.1 + k.2.2) = tieJumpAt M E i e cell f v q a)
    ∧ ∀ a < E.bs, ∀ b < M.gdim, ∑ k ∈ dofSet L.length E.nd E.bs,
      (tdim M E n0).vMeanGrad (facetGrad (M.kd E cell f)) c q k.1 k.2.1 k.2.2 a b
        * v (E.bs * E.dofs (coupledCell cell L k.1) k.2.1 + k.2.2) = tieMeanGrad M E i e cell f v q a b := by
  have S := withSol_at hM hE h0 (n0 := n0) v c he hf
  have C := S.carries (R.withSol v) hM he hfirst hL
  have hLn : L.length ≤ M.nq := by
    exact links_le hL
  have e1 : ∀ k < L.length, ∀ m < E.nd, ∀ a < E.bs,
      (tdim M E n0).test (TieData.withSol M E n0 i e v c) q k m a = (tdim M E n0).test c q k m a := by
    intro k hk m hm a ha
    unfold TieDims.test
    exact withSol_same M E n0 i e v c _ (test_pos_lt (lt_of_lt_of_le hk hLn) hm hq ha)
  have e2 : ∀ k < L.length, ∀ m < E.nd, ∀ b < M.gdim,
      (tdim M E n0).gtest (TieData.withSol M E n0 i e v c) q k m b = (tdim M E n0).gtest c q k m b := by
    intro k hk m hm a ha
    unfold TieDims.gtest
    exact withSol_same M E n0 i e v c _ (gtest_pos_lt (lt_of_lt_of_le hk hLn) hm hq ha)
  have cd := fun B k a (ha : a < E.bs) => ContactProblem.coupledDofs_eq E.dofs cell L v B k ha
  constructor
  · intro a ha
    refine (tie_vJump_total (tdim M E n0) L.length _ c q
      (fun B k n => v (E.bs * E.dofs (coupledCell cell L B) k + n)) ha).trans ?_
    unfold tieJumpAt
    congr 1
    refine Eq.trans ?_ ((C.opp q a hq ha).symm.trans (S.opp q hq a ha ht))
    refine sum_congr rfl (fun k hk => sum_congr rfl (fun m hm => ?_))
    rw [e1 k (mem_range.mp hk) m (mem_range.mp hm) a ha]
    congr 1
    exact (cd (k + 1) m a ha).symm
  · intro a ha b hb
    refine (tie_vMean_total (tdim M E n0) L.length _ c q
      (fun B k n => v (E.bs * E.dofs (coupledCell cell L B) k + n)) ha b).trans ?_
    unfold tieMeanGrad
    congr 2
    refine Eq.trans ?_ ((C.gopp q a b hq ha hb).symm.trans (S.gopp q hq a ha b hb ht))
    refine sum_congr rfl (fun k hk => sum_congr rfl (fun m hm => ?_))
    rw [e2 k (mem_range.mp hk) m (mem_range.mp hm) b hb]
    congr 1
    exact (cd (k + 1) m a ha).symm

theorem SolAt.jump {u : ℕ → ℝ} (S : SolAt M E n0 i e cell f u c) {q a : ℕ} (hq : q < M.nq) (ha : a < E.bs)
    (ht : Tied M i e q) : (tdim M E n0).jump c q a = tieJumpAt M E i e cell f u q a := by
  unfold TieDims.jump tieJumpAt
  rw [← S.val q hq a ha, ← S.opp q hq a ha ht]
  rfl

theorem SolAt.mean {u : ℕ → ℝ} (S : SolAt M E n0 i e cell f u c) {q a b : ℕ} (hq : q < M.nq) (ha : a < E.bs)
    (hb : b < M.gdim) (ht : Tied M i e q) : (tdim M E n0).meanGrad c q a b = tieMeanGrad M E i e cell f u q a b := by
  unfold TieDims.meanGrad tieMeanGrad
  rw [← S.grad q hq a ha b hb, ← S.gopp q hq a ha b hb ht]
  rfl

theorem elasticForm_eq (s : TieDims) (phi : ℕ → ℕ → ℝ) (dphi : ℕ → ℕ → ℕ → ℝ) (c w np : ℕ → ℝ) (q B i n : ℕ) :
    s.elasticForm phi dphi c w np q B i n
      = elasticPart s.g (c 0) (c 1) (w 0) (w 1) (c 2) np (s.jump c q) (s.meanGrad c q) (s.vJump phi c q B i n)
        (s.vMeanGrad dphi c q B i n) := rfl

theorem heatForm_eq (s : TieDims) (phi : ℕ → ℕ → ℝ) (dphi : ℕ → ℕ → ℕ → ℝ) (c w np : ℕ → ℝ) (q B i : ℕ) :
    s.heatForm phi dphi c w np q B i
      = heatPart s.g (c 1) (w 0) (w 1) (c 0) np (s.jump c q 0) (s.meanGrad c q 0) (s.vJump phi c q B i 0 0)
        (s.vMeanGrad dphi c q B i 0 0) := rfl

theorem thermalForm_eq (s : TieDims) (phi : ℕ → ℕ → ℝ) (c np : ℕ → ℝ) (q B i n : ℕ) :
    s.thermalForm phi c np q B i n
      = thermalPart s.g (c 0) (c 1) (c 3) np ((c (s.oTemp + q) + c (s.oTempOpp + q)) / 2) (s.vJump phi c q B i n) := rfl

open Classical in
/-- The element vector of the elasticity kernel tested with `v`. -/
theorem elastic_vector (hM : TieMesh.Valid M) (hE : TieElement.Valid M E) (hbs : E.bs = M.gdim) (th : Bool)
    (hn0 : n0 = if th then 4 else 3) {u : ℕ → ℝ} (R : TestRow M E n0 i e c) (S : SolAt M E n0 i e cell f u c)
    (he : e < M.localFacets i) (hf : (M.facets i)[e]? = some (cell, f))
    (hfirst : Packing.Spec.LinkedFirst (M.pair E i) e) {L : List ℕ} (hL : Packing.Spec.IsLinkList (M.pair E i) e L)
    (w v : ℕ → ℝ) :
    ∑ B ∈ range (L.length + 1), ∑ k ∈ range E.nd, ∑ n ∈ range E.bs,
      tieRhs (M.kd E cell f) (offsets (tieStrides (M.kd E cell f) th)) c w L.length
        (linkedPoints ((M.pair E i).row e)) 0 (B, k * E.bs + n) * v (E.bs * E.dofs (coupledCell cell L B) k + n)
      = ∑ q ∈ range M.nq, if Tied M i e q then tieWeight M cell f q
          * elasticPart M.gdim (c 0) (c 1) (w 0) (w 1) (c 2) (tieOutward M cell f q)
            (tieJumpAt M E i e cell f u q) (tieMeanGrad M E i e cell f u q)
            (tieJumpAt M E i e cell f v q) (tieMeanGrad M E i e cell f v q) else 0 := by
  have h0 : 0 < E.bs := by rw [hbs]; exact hM.dim
  have hd := tdims_eq M hbs cell f th
  rw [← hn0] at hd
  refine form_sum M E he _ (facetWeight (M.kd E cell f))
    (fun q => (tdim M E n0).elasticForm (facetPhi (M.kd E cell f)) (facetGrad (M.kd E cell f)) c w
      (facetNormal (M.kd E cell f) q) q)
    (fun B k n => v (E.bs * E.dofs (coupledCell cell L B) k + n)) _ (fun B hB k hk n hn => ?_) (fun q hq ht => ?_)
  · refine (C79_elasticity (M.kd E cell f) (affineConst hM E cell f) th L.length _ w c hbs 0 B k n hB hk hn).trans ?_
    rw [Pi.zero_apply, zero_add, hd]
  · obtain ⟨v1, v2⟩ := R.virtual hM hE h0 he hf hfirst hL v hq ht
    simp only [elasticForm_eq]
    refine (elasticPart_sum (dofSet L.length E.nd E.bs) (tdim M E n0).g (c 0) (c 1) (w 0) (w 1) (c 2)
      (facetNormal (M.kd E cell f) q) _ _
      (fun k => (tdim M E n0).vJump (facetPhi (M.kd E cell f)) c q k.1 k.2.1 k.2.2)
      (fun k => (tdim M E n0).vMeanGrad (facetGrad (M.kd E cell f)) c q k.1 k.2.1 k.2.2)
      (fun k => v (E.bs * E.dofs (coupledCell cell L k.1) k.2.1 + k.2.2))).symm.trans ?_
    refine elasticPart_congr (g := M.gdim) _ _ _ _ _ _ (fun a ha => ?_) (fun a ha => ?_) (fun a ha b hb => ?_)
      (fun a ha b hb => ?_)
    · exact S.jump hq (hbs ▸ ha) ht
    · exact v1 a (hbs ▸ ha)
    · exact S.mean hq (hbs ▸ ha) hb ht
    · exact v2 a (hbs ▸ ha) b hb

open Classical in
/-- The element vector of the thermal stress tested with `v`. -/
theorem thermal_vector (hM : TieMesh.Valid M) (hE : TieElement.Valid M E) (hbs : E.bs = M.gdim) {T : ℕ → ℝ}
    (R : TestRow M E 4 i e c) (he : e < M.localFacets i) (hf : (M.facets i)[e]? = some (cell, f))
    (hT : ∀ q < M.nq, Tied M i e q → (c ((tdim M E 4).oTemp + q) + c ((tdim M E 4).oTempOpp + q)) / 2 = T q)
    (hfirst : Packing.Spec.LinkedFirst (M.pair E i) e) {L : List ℕ} (hL : Packing.Spec.IsLinkList (M.pair E i) e L)
    (v : ℕ → ℝ) :
    ∑ B ∈ range (L.length + 1), ∑ k ∈ range E.nd, ∑ n ∈ range E.bs,
      thermoRhs (M.kd E cell f) (offsets (tieStrides (M.kd E cell f) true)) c L.length
        (linkedPoints ((M.pair E i).row e)) 0 (B, k * E.bs + n) * v (E.bs * E.dofs (coupledCell cell L B) k + n)
      = ∑ q ∈ range M.nq, if Tied M i e q then tieWeight M cell f q
          * thermalPart M.gdim (c 0) (c 1) (c 3) (tieOutward M cell f q) (T q)
            (tieJumpAt M E i e cell f v q) else 0 := by
  have h0 : 0 < E.bs := by rw [hbs]; exact hM.dim
  have hd : (M.kd E cell f).tdims true = tdim M E 4 := tdims_eq M hbs cell f true
  refine form_sum M E he _ (facetWeight (M.kd E cell f))
    (fun q => (tdim M E 4).thermalForm (facetPhi (M.kd E cell f)) c (facetNormal (M.kd E cell f) q) q)
    (fun B k n => v (E.bs * E.dofs (coupledCell cell L B) k + n)) _ (fun B hB k hk n hn => ?_) (fun q hq ht => ?_)
  · refine (C79_thermal (M.kd E cell f) (affineConst hM E cell f) L.length _ c hbs 0 B k n hB hk hn).trans ?_
    rw [Pi.zero_apply, zero_add, hd]
  · obtain ⟨v1, v2⟩ := R.virtual hM hE h0 he hf hfirst hL v hq ht
    simp only [thermalForm_eq]
    refine (thermalPart_sum (dofSet L.length E.nd E.bs) (tdim M E 4).g (c 0) (c 1) (c 3)
      (facetNormal (M.kd E cell f) q) _
      (fun k => (tdim M E 4).vJump (facetPhi (M.kd E cell f)) c q k.1 k.2.1 k.2.2)
      (fun k => v (E.bs * E.dofs (coupledCell cell L k.1) k.2.1 + k.2.2))).symm.trans ?_
    exact thermalPart_congr (g := M.gdim) _ _ _ _ (hT q hq ht) (fun a ha => v1 a (hbs ▸ ha))

open Classical in
/-- The element vector of the heat kernel tested with `v`. -/
theorem heat_vector (hM : TieMesh.Valid M) (hE : TieElement.Valid M E) (hbs : E.bs = 1)
    {u : ℕ → ℝ} (R : TestRow M E 2 i e c) (S : SolAt M E 2 i e cell f u c)
    (he : e < M.localFacets i) (hf : (M.facets i)[e]? = some (cell, f))
    (hfirst : Packing.Spec.LinkedFirst (M.pair E i) e) {L : List ℕ} (hL : Packing.Spec.IsLinkList (M.pair E i) e L)
    (w v : ℕ → ℝ) :
    ∑ B ∈ range (L.length + 1), ∑ k ∈ range E.nd, ∑ n ∈ range E.bs,
      poisRhs (M.kd E cell f) (offsets (poissonStrides (M.kd E cell f))) c w L.length
        (linkedPoints ((M.pair E i).row e)) 0 (B, k * E.bs + n) * v (E.bs * E.dofs (coupledCell cell L B) k + n)
      = ∑ q ∈ range M.nq, if Tied M i e q then tieWeight M cell f q
          * heatPart M.gdim (c 1) (w 0) (w 1) (c 0) (tieOutward M cell f q)
            (tieJumpAt M E i e cell f u q 0) (tieMeanGrad M E i e cell f u q 0)
            (tieJumpAt M E i e cell f v q 0) (tieMeanGrad M E i e cell f v q 0) else 0 := by
  have h0 : 0 < E.bs := by omega
  have hd := pdims_eq M hbs cell f
  refine form_sum M E he _ (facetWeight (M.kd E cell f))
    (fun q B k _ => (tdim M E 2).heatForm (facetPhi (M.kd E cell f)) (facetGrad (M.kd E cell f)) c w
      (facetNormal (M.kd E cell f) q) q B k)
    (fun B k n => v (E.bs * E.dofs (coupledCell cell L B) k + n)) _ (fun B hB k hk n hn => ?_) (fun q hq ht => ?_)
  · have hkn : k * E.bs + n = k := by rw [hbs]; omega
    rw [hkn]
    refine (C79_heat (M.kd E cell f) (affineConst hM E cell f) L.length _ w c 0 B k hB hk).trans ?_
    rw [Pi.zero_apply, zero_add, hd]
  · obtain ⟨v1, v2⟩ := R.virtual hM hE h0 he hf hfirst hL v hq ht
    have hz : ∀ k ∈ dofSet L.length E.nd E.bs, (tdim M E 2).heatForm (facetPhi (M.kd E cell f))
        (facetGrad (M.kd E cell f)) c w (facetNormal (M.kd E cell f) q) q k.1 k.2.1
        * v (E.bs * E.dofs (coupledCell cell L k.1) k.2.1 + k.2.2)
        = heatPart (tdim M E 2).g (c 1) (w 0) (w 1) (c 0) (facetNormal (M.kd E cell f) q) ((tdim M E 2).jump c q 0)
          ((tdim M E 2).meanGrad c q 0) ((tdim M E 2).vJump (facetPhi (M.kd E cell f)) c q k.1 k.2.1 k.2.2 0)
          ((tdim M E 2).vMeanGrad (facetGrad (M.kd E cell f)) c q k.1 k.2.1 k.2.2 0)
          * v (E.bs * E.dofs (coupledCell cell L k.1) k.2.1 + k.2.2) := by
      intro k hk
      have : k.2.2 = 0 := by
        unfold dofSet at hk
        simp only [mem_product, mem_range] at hk
        omega
      rw [heatForm_eq, this]
    rw [sum_congr rfl hz]
    refine (heatPart_sum (dofSet L.length E.nd E.bs) (tdim M E 2).g (c 1) (w 0) (w 1) (c 0)
      (facetNormal (M.kd E cell f) q) _ _
      (fun k => (tdim M E 2).vJump (facetPhi (M.kd E cell f)) c q k.1 k.2.1 k.2.2 0)
      (fun k => (tdim M E 2).vMeanGrad (facetGrad (M.kd E cell f)) c q k.1 k.2.1 k.2.2 0)
      (fun k => v (E.bs * E.dofs (coupledCell cell L k.1) k.2.1 + k.2.2))).symm.trans ?_
    exact heatPart_congr (g := M.gdim) _ _ _ _ _ (S.jump hq h0 ht) (v1 0 h0) (fun b hb => S.mean hq h0 hb ht)
      (fun b hb => v2 0 h0 b hb)

open Classical in
/-- The element matrix of the elasticity kernel, applied to `u` and tested with `v`. -/
theorem elastic_matrix (hM : TieMesh.Valid M) (hE : TieElement.Valid M E) (hbs : E.bs = M.gdim) (th : Bool)
    (hn0 : n0 = if th then 4 else 3) (R : TestRow M E n0 i e c)
    (he : e < M.localFacets i) (hf : (M.facets i)[e]? = some (cell, f))
    (hfirst : Packing.Spec.LinkedFirst (M.pair E i) e) {L : List ℕ} (hL : Packing.Spec.IsLinkList (M.pair E i) e L)
    (w u v : ℕ → ℝ) :
    ∑ B ∈ range (L.length + 1), ∑ k ∈ range E.nd, ∑ n ∈ range E.bs,
      blockApply (E.bs * E.nd) L.length (tieJac (M.kd E cell f) (offsets (tieStrides (M.kd E cell f) th)) c w L.length
        (linkedPoints ((M.pair E i).row e)) 0) (coupledDofs E.bs E.dofs cell L u) B (k * E.bs + n)
        * v (E.bs * E.dofs (coupledCell cell L B) k + n)
      = ∑ q ∈ range M.nq, if Tied M i e q then tieWeight M cell f q
          * elasticPart M.gdim (c 0) (c 1) (w 0) (w 1) (c 2) (tieOutward M cell f q)
            (tieJumpAt M E i e cell f u q) (tieMeanGrad M E i e cell f u q)
            (tieJumpAt M E i e cell f v q) (tieMeanGrad M E i e cell f v q) else 0 := by
  have h0 : 0 < E.bs := by rw [hbs]; exact hM.dim
  have hd := tdims_eq M hbs cell f th
  rw [← hn0] at hd
  have S := withSol_at hM hE h0 (n0 := n0) u c he hf
  have hsame := withSol_same M E n0 i e u c
  have h3 : 3 ≤ (tdim M E n0).oU := by
    have : 3 ≤ n0 := by rw [hn0]; split <;> omega
    have o : (tdim M E n0).oU = n0 + M.nq * E.nd * M.nq * E.bs + M.nq * E.nd * M.nq * M.gdim := rfl
    omega
  have h := elastic_vector hM hE hbs th hn0 (R.withSol u) S he hf hfirst hL w v
  rw [hsame 0 (by omega), hsame 1 (by omega), hsame 2 (by omega)] at h
  rw [← h]
  refine sum_congr rfl (fun B hB => sum_congr rfl (fun k hk => sum_congr rfl (fun n hn => ?_)))
  congr 1
  have h50 := C50_matrix (M.kd E cell f) (affineConst hM E cell f) th L.length (linkedPoints ((M.pair E i).row e)) w
    (withSol M E n0 i e u c) c (coupledDofs E.bs E.dofs cell L u) hbs (links_le hL)
    (fun q hq => points_lt hq)
    (by rw [hd]; exact S.carries (R.withSol u) hM he hfirst hL) (by rw [hd]; exact hsame)
    (fun q hq => by
      rw [hd]
      exact R.oneLink hM he hfirst hL (points_lt hq))
    0 B (k * E.bs + n) (by have := mem_range.mp hB; omega) (pos_lt (mem_range.mp hk) (mem_range.mp hn))
  rw [Pi.zero_apply, zero_add] at h50
  rw [Nat.mul_comm E.bs E.nd]
  exact h50.symm

open Classical in
/-- The element matrix of the heat kernel, applied to `u` and tested with `v`. -/
theorem heat_matrix (hM : TieMesh.Valid M) (hE : TieElement.Valid M E) (hbs : E.bs = 1) (R : TestRow M E 2 i e c)
    (he : e < M.localFacets i) (hf : (M.facets i)[e]? = some (cell, f))
    (hfirst : Packing.Spec.LinkedFirst (M.pair E i) e) {L : List ℕ} (hL : Packing.Spec.IsLinkList (M.pair E i) e L)
    (w u v : ℕ → ℝ) :
    ∑ B ∈ range (L.length + 1), ∑ k ∈ range E.nd, ∑ n ∈ range E.bs,
      blockApply (E.bs * E.nd) L.length (poisJac (M.kd E cell f) (offsets (poissonStrides (M.kd E cell f))) c w L.length
        (linkedPoints ((M.pair E i).row e)) 0) (coupledDofs E.bs E.dofs cell L u) B (k * E.bs + n)
        * v (E.bs * E.dofs (coupledCell cell L B) k + n)
      = ∑ q ∈ range M.nq, if Tied M i e q then tieWeight M cell f q
          * heatPart M.gdim (c 1) (w 0) (w 1) (c 0) (tieOutward M cell f q)
            (tieJumpAt M E i e cell f u q 0) (tieMeanGrad M E i e cell f u q 0)
            (tieJumpAt M E i e cell f v q 0) (tieMeanGrad M E i e cell f v q 0) else 0 := by
  have h0 : 0 < E.bs := by omega
  have hd := pdims_eq M hbs cell f
  have S := withSol_at hM hE h0 (n0 := 2) u c he hf
  have hsame := withSol_same M E 2 i e u c
  have h3 : 2 ≤ (tdim M E 2).oU := by
    have o : (tdim M E 2).oU = 2 + M.nq * E.nd * M.nq * E.bs + M.nq * E.nd * M.nq * M.gdim := rfl
    omega
  have h := heat_vector hM hE hbs (R.withSol u) S he hf hfirst hL w v
  rw [hsame 0 (by omega), hsame 1 (by omega)] at h
  rw [← h]
  refine sum_congr rfl (fun B hB => sum_congr rfl (fun k hk => sum_congr rfl (fun n hn => ?_)))
  congr 1
  have h51 := C51_matrix (M.kd E cell f) (affineConst hM E cell f) L.length (linkedPoints ((M.pair E i).row e)) w
    (withSol M E 2 i e u c) c (coupledDofs E.bs E.dofs cell L u) hbs (links_le hL)
    (fun q hq => points_lt hq)
    (by rw [hd]; exact S.carries (R.withSol u) hM he hfirst hL) (by rw [hd]; exact hsame)
    (fun q hq => by
      rw [hd]
      exact R.oneLink hM he hfirst hL (points_lt hq))
    0 B (k * E.bs + n) (by have := mem_range.mp hB; omega)
    (by have := mem_range.mp hk; have := mem_range.mp hn; rw [hbs]; show _ < E.nd; omega)
  rw [Pi.zero_apply, zero_add] at h51
  rw [show E.bs * E.nd = E.nd by rw [hbs, Nat.one_mul]]
  exact h51.symm

end

end

end Verif.TieData
