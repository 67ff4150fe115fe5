import Verif.Lemmas.ContactKernels
import Verif.Lemmas.Coefficients
import Mathlib.Analysis.Calculus.Deriv.Add
import Mathlib.Analysis.Calculus.Deriv.Mul

namespace Verif.Kernels

open Verif.Elasticity Verif.Scalars Finset

noncomputable section

/-! ### list sums -/

theorem list_sum_comm {α ι : Type} (l : List α) (s : Finset ι) (f : α → ι → ℝ) :
    ∑ i ∈ s, (l.map (fun x => f x i)).sum = (l.map (fun x => ∑ i ∈ s, f x i)).sum := by
  induction l with
  | nil => simp
  | cons x xs ih => simp [sum_add_distrib, ih]

theorem list_sum_mul {α : Type} (l : List α) (f : α → ℝ) (a : ℝ) :
    (l.map f).sum * a = (l.map (fun x => f x * a)).sum := by
  induction l with
  | nil => simp
  | cons x xs ih => simp [add_mul, ih]

theorem list_sum_add {α : Type} (l : List α) (f g : α → ℝ) :
    (l.map f).sum + (l.map g).sum = (l.map (fun x => f x + g x)).sum := by
  induction l with
  | nil => simp
  | cons x xs ih => simp only [List.map_cons, List.sum_cons, ← ih]; ring

theorem list_sum_congr {α : Type} (l : List α) (f g : α → ℝ) (h : ∀ x ∈ l, f x = g x) :
    (l.map f).sum = (l.map g).sum := by
  rw [List.map_congr_left h]

theorem hasDerivAt_list_sum {α : Type} (l : List α) (f : α → ℝ → ℝ) (f' : α → ℝ) (t : ℝ)
    (h : ∀ x ∈ l, HasDerivAt (f x) (f' x) t) :
    HasDerivAt (fun s => (l.map (fun x => f x s)).sum) (l.map f').sum t := by
  induction l with
  | nil => simpa using hasDerivAt_const t (0 : ℝ)
  | cons x xs ih =>
    have := (h x (by simp)).fun_add (ih (fun y hy => h y (by simp [hy])))
    simpa only [List.map_cons, List.sum_cons] using this

theorem split_index {nd bs r : ℕ} (hr : r < nd * bs) :
    r / bs < nd ∧ r % bs < bs ∧ r = r / bs * bs + r % bs := by
  have hb : 0 < bs := Nat.pos_of_ne_zero (by rintro rfl; simp at hr)
  exact ⟨Nat.div_lt_of_lt_mul (by rwa [Nat.mul_comm] at hr), Nat.mod_lt _ hb,
    (Nat.div_add_mod' r bs).symm⟩

/-! ### linear combinations of dof functionals -/

/-- `∑ F(B, i, n) W(B, i * bs + n)` over all dofs of the facet. -/
def comb (D : KD) (links : ℕ) (F : ℕ → ℕ → ℕ → ℝ) (W : ℕ → ℕ → ℝ) : ℝ :=
  ∑ B ∈ range (links + 1), ∑ i ∈ range D.nd, ∑ n ∈ range D.bs, F B i n * W B (i * D.bs + n)

theorem comb_deriv (D : KD) (links : ℕ) (F : ℕ → ℕ → ℕ → ℝ) (W : ℝ → ℕ → ℕ → ℝ) (δ : ℕ → ℕ → ℝ)
    (t : ℝ) (h : ∀ B m, HasDerivAt (fun s => W s B m) (δ B m) t) :
    HasDerivAt (fun s => comb D links F (W s)) (comb D links F δ) t := by
  unfold comb
  exact HasDerivAt.fun_sum (fun B _ => HasDerivAt.fun_sum (fun i _ => HasDerivAt.fun_sum (fun n _ =>
    (h B _).const_mul _)))

theorem comb_congr (D : KD) (links : ℕ) {F G : ℕ → ℕ → ℕ → ℝ} (W : ℕ → ℕ → ℝ)
    (h : ∀ B i n, B < links + 1 → i < D.nd → n < D.bs → F B i n = G B i n) :
    comb D links F W = comb D links G W :=
  sum_congr rfl (fun B hB => sum_congr rfl (fun i hi => sum_congr rfl (fun n hn => by
    rw [h B i n (mem_range.mp hB) (mem_range.mp hi) (mem_range.mp hn)])))

theorem comb_add (D : KD) (links : ℕ) (F G : ℕ → ℕ → ℕ → ℝ) (W : ℕ → ℕ → ℝ) :
    comb D links (fun B i n => F B i n + G B i n) W = comb D links F W + comb D links G W := by
  simp only [comb, add_mul, sum_add_distrib]

theorem comb_smul (D : KD) (links : ℕ) (a : ℝ) (F : ℕ → ℕ → ℕ → ℝ) (W : ℕ → ℕ → ℝ) :
    comb D links (fun B i n => a * F B i n) W = a * comb D links F W := by
  simp only [comb, mul_assoc, mul_sum]

theorem comb_sum {ι : Type} (D : KD) (links : ℕ) (s : Finset ι) (F : ι → ℕ → ℕ → ℕ → ℝ)
    (W : ℕ → ℕ → ℝ) :
    comb D links (fun B i n => ∑ j ∈ s, F j B i n) W = ∑ j ∈ s, comb D links (F j) W := by
  classical
  induction s using Finset.induction_on with
  | empty => simp [comb]
  | insert a s ha ih =>
    simp only [sum_insert ha]
    rw [← ih, ← comb_add]

/-- Splitting off the cell block. -/
theorem comb_split (D : KD) (links : ℕ) (F : ℕ → ℕ → ℕ → ℝ) (W : ℕ → ℕ → ℝ) :
    comb D links F W = ∑ i ∈ range D.nd, ∑ n ∈ range D.bs, F 0 i n * W 0 (i * D.bs + n)
      + ∑ k ∈ range links, ∑ i ∈ range D.nd, ∑ n ∈ range D.bs,
          F (k + 1) i n * W (k + 1) (i * D.bs + n) := by
  rw [comb, sum_range_succ']; ring

/-! ### the packed quantities as combinations -/

section Carries

variable {D : KD} {links : ℕ} {G : ℕ → ℕ → ℕ → ℝ} {c : ℕ → ℝ} {W : ℕ → ℕ → ℝ}

/-- The displacement slots of the row hold the displacement `W`. -/
abbrev KCarries (D : KD) (links : ℕ) (G : ℕ → ℕ → ℕ → ℝ) (c : ℕ → ℝ) (W : ℕ → ℕ → ℝ) : Prop :=
  Spec.Carries D.dims links D.ph (fun q i b => gradV D.tdim (D.K q) (D.dph q) i b) G c W

/-- Traction of the earlier displacement. -/
def sig0 (D : KD) (G : ℕ → ℕ → ℕ → ℝ) (c : ℕ → ℝ) (q j : ℕ) : ℝ :=
  sigmaNU D.gdim (fun m => G q (m / D.gdim) (m % D.gdim)) (D.nPhys q) (c 0) (c 1) j

/-- Its normal component. -/
def sign0 (D : KD) (G : ℕ → ℕ → ℕ → ℝ) (c : ℕ → ℝ) (q : ℕ) : ℝ :=
  ∑ j ∈ range D.gdim, sig0 D G c q j * nSurf D c q j

theorem sigmaNU_split (gdim : ℕ) (f g h : ℕ → ℝ) (n : ℕ → ℝ) (mu lam : ℝ) (j : ℕ) (hj : j < gdim)
    (e : ∀ a b, a < gdim → b < gdim → f (a * gdim + b) = g (a * gdim + b) + h (a * gdim + b)) :
    sigmaNU gdim f n mu lam j = sigmaNU gdim g n mu lam j + sigmaNU gdim h n mu lam j := by
  rw [sigmaNU_eq, sigmaNU_eq, sigmaNU_eq, ← sum_add_distrib]
  refine sum_congr rfl (fun k hk => ?_)
  have hk := mem_range.mp hk
  rw [e k j hk hj, e j k hj hk, e k k hk hk]
  ring

theorem jump_comb (hbs : D.bs = D.gdim) (h : KCarries D links G c W) {q : ℕ} (hq : q < D.nq) {j : ℕ}
    (hj : j < D.bs) :
    D.dims.jump c q j = comb D links
      (fun B i n => match B with
        | 0 => if j = n then D.ph q i else 0
        | k + 1 => -(if j = n then c (tIdx D q k i n) else 0)) W := by
  have hj' : j < D.gdim := hbs ▸ hj
  rw [comb_split, Spec.Dims.jump, h.u q j hq hj', h.opp q j hq hj', sub_eq_add_neg]
  simp only [neg_mul, sum_neg_distrib, ite_mul, zero_mul, sum_ite_eq, mem_range.mpr hj, if_true,
    tIdx_eq D hbs]
  congr 1
  · refine sum_congr rfl (fun i _ => ?_)
    rw [hbs]; rfl
  · congr 1
    refine sum_congr rfl (fun k _ => sum_congr rfl (fun i _ => ?_))
    rw [hbs]; rfl

theorem jumpN_comb (hbs : D.bs = D.gdim) (h : KCarries D links G c W) {q : ℕ} (hq : q < D.nq) :
    jumpN D c q = comb D links (NF D c q) W := by
  rw [jumpN_eq D hbs, Spec.Dims.dotN]
  have : ∀ j ∈ range D.dims.g, D.dims.jump c q j * D.dims.normal c q j
      = comb D links (fun B i n => D.dims.normal c q j * (match B with
        | 0 => if j = n then D.ph q i else 0
        | k + 1 => -(if j = n then c (tIdx D q k i n) else 0))) W := by
    intro j hj
    rw [comb_smul, jump_comb hbs h hq (by rw [hbs]; exact mem_range.mp hj), mul_comm]
  rw [sum_congr rfl this, ← comb_sum]
  refine comb_congr D links W (fun B i n _ _ hn => ?_)
  have hn' : n ∈ range D.dims.g := mem_range.mpr (by rw [hbs] at hn; exact hn)
  cases B with
  | zero =>
    simp only [mul_ite, mul_zero, sum_ite_eq', hn', if_true, NF, nSurf_eq]
  | succ k =>
    simp only [mul_neg, mul_ite, mul_zero, sum_neg_distrib, sum_ite_eq', hn', if_true, NF, nSurf_eq]
    ring

theorem tangJump_comb (hbs : D.bs = D.gdim) (h : KCarries D links G c W) {q : ℕ} (hq : q < D.nq)
    {j : ℕ} (hj : j < D.bs) :
    D.dims.tang c q (D.dims.jump c q) j = comb D links (fun B i n => TF D c q B i n j) W := by
  rw [Spec.Dims.tang, jump_comb hbs h hq hj, ← jumpN_eq D hbs, jumpN_comb hbs h hq]
  have e : comb D links (NF D c q) W * D.dims.normal c q j =
    comb D links (fun B i n => D.dims.normal c q j * NF D c q B i n) W := by rw [comb_smul, mul_comm]
  have e2 : ∀ x y : ℝ, x - y = x + (-1) * y := fun x y => by ring
  rw [e, e2, ← comb_smul, ← comb_add]
  refine comb_congr D links W (fun B i n _ _ hn => ?_)
  cases B with
  | zero => simp only [TF, NF, nSurf_eq]; ring
  | succ k => simp only [TF, NF, nSurf_eq]; ring

theorem sigU_comb (hbs : D.bs = D.gdim) (h : KCarries D links G c W) {q : ℕ} (hq : q < D.nq)
    {j : ℕ} (hj : j < D.bs) :
    sigU D c q j = comb D links (fun B i n => match B with
      | 0 => sigB D c q i n j | _ + 1 => 0) W + sig0 D G c q j := by
  have hj' : j < D.gdim := hbs ▸ hj
  rw [sigU, sigmaNU_split D.gdim _ (fun m => c (D.off 5 + q * D.gdim * D.gdim + m)
      - G q (m / D.gdim) (m % D.gdim)) (fun m => G q (m / D.gdim) (m % D.gdim)) _ _ _ j hj'
      (fun _ _ _ _ => by ring),
    sigmaNU_interp D.gdim D.tdim D.nd (D.K q) (D.dph q) (D.nPhys q) (c 0) (c 1)
    (fun i m => W 0 (i * D.gdim + m)) _ ?_ j hj']
  · rw [comb_split]
    simp only [zero_mul, sum_const_zero, add_zero, hbs]
    rfl
  · intro a b ha hb
    have := h.grad q a b hq ha hb
    have hpos : 0 < D.gdim := by omega
    rw [off5 D hbs, show (a * D.gdim + b) / D.gdim = a by
        rw [mul_comm, Nat.mul_add_div hpos, Nat.div_eq_of_lt hb, add_zero],
      show (a * D.gdim + b) % D.gdim = b by rw [mul_comm, Nat.mul_add_mod, Nat.mod_eq_of_lt hb]]
    refine Eq.trans ?_ (sub_eq_iff_eq_add.mpr this)
    congr 2
    show D.dims.oGrad + q * D.gdim * D.gdim + (a * D.gdim + b) = D.dims.oGrad + (q * D.gdim + a) * D.gdim + b
    ring

theorem signV_eq (hbs : D.bs = D.gdim) (q i n : ℕ) (hn : n < D.bs) :
    signV D c q i n = ∑ j ∈ range D.gdim, sigB D c q i n j * nSurf D c q j := by
  rw [hbs] at hn
  exact normal_component D.tdim D.gdim (D.K q) (D.dph q) (nSurf D c q) (D.nPhys q) (c 0) (c 1) i n hn

theorem signU_comb (hbs : D.bs = D.gdim) (h : KCarries D links G c W) {q : ℕ} (hq : q < D.nq) :
    signU D c q = comb D links (SF D c q) W + sign0 D G c q := by
  rw [signU]
  have : ∀ j ∈ range D.gdim, sigU D c q j * nSurf D c q j
      = comb D links (fun B i n => nSurf D c q j * (match B with
        | 0 => sigB D c q i n j | _ + 1 => 0)) W + sig0 D G c q j * nSurf D c q j := by
    intro j hj
    rw [comb_smul, sigU_comb hbs h hq (by rw [hbs]; exact mem_range.mp hj)]
    ring
  rw [sum_congr rfl this, sum_add_distrib, ← comb_sum, sign0]
  congr 1
  refine comb_congr D links W (fun B i n _ _ hn => ?_)
  cases B with
  | zero =>
    simp only [SF, signV_eq hbs q i n hn]
    exact sum_congr rfl (fun _ _ => by ring)
  | succ k => simp [SF]

theorem tangSig_comb (hbs : D.bs = D.gdim) (h : KCarries D links G c W) {q : ℕ} (hq : q < D.nq)
    {j : ℕ} (hj : j < D.bs) :
    sigU D c q j - signU D c q * nSurf D c q j =
      comb D links (fun B i n => ST D c q B i n j) W + (sig0 D G c q j - sign0 D G c q * nSurf D c q j) := by
  rw [sigU_comb hbs h hq hj, signU_comb hbs h hq]
  have e2 : ∀ x y s t : ℝ, (x + s) - (y + t) * nSurf D c q j =
      (x + (-nSurf D c q j) * y) + (s - t * nSurf D c q j) := fun x y s t => by ring
  rw [e2, ← comb_smul, ← comb_add]
  congr 1
  refine comb_congr D links W (fun B i n _ _ _ => ?_)
  cases B with
  | zero => simp only [ST, SF]; ring
  | succ k => simp [ST, SF]

end Carries

/-! ### rows with the same data -/

section Same

variable {D : KD} {c c' : ℕ → ℝ}

theorem same_small (h : Spec.SameData D.dims c c') (m : ℕ) (hm : m < 4) : c m = c' m :=
  h m (Or.inl (by simp only [Spec.Dims.oU, Spec.Dims.oTest]; omega))

theorem same_gam (h : Spec.SameData D.dims c c') (w : ℕ → ℝ) : gam c w = gam c' w := by
  rw [gam, gam, same_small h 3 (by omega)]

theorem same_gamInv (h : Spec.SameData D.dims c c') (w : ℕ → ℝ) : gamInv c w = gamInv c' w := by
  rw [gamInv, gamInv, same_small h 3 (by omega)]

theorem row_lt {q nq i g : ℕ} (hq : q < nq) (hi : i < g) : q * g + i < nq * g := by
  calc q * g + i < q * g + g := by omega
    _ = (q + 1) * g := by ring
    _ ≤ nq * g := Nat.mul_le_mul_right _ hq

theorem same_nSurf (h : Spec.SameData D.dims c c') {q i : ℕ} (hq : q < D.nq) (hi : i < D.gdim) :
    nSurf D c q i = nSurf D c' q i := by
  rw [nSurf, nSurf, off2, h]
  left
  have := row_lt hq hi
  simp only [Spec.Dims.oU, Spec.Dims.oTest, Spec.Dims.oNormal]
  show 4 + D.nq * D.gdim + q * D.gdim + i < _
  have : D.dims.nq * D.dims.g = D.nq * D.gdim := rfl
  rw [this]; omega

theorem same_nOld (hbs : D.bs = D.gdim) (h : Spec.SameData D.dims c c') {q i : ℕ} :
    nOld D c q i = nOld D c' q i := by
  rw [nOld, nOld, off7 D hbs, h]
  right; omega

theorem same_gap (h : Spec.SameData D.dims c c') {q : ℕ} (hq : q < D.nq) :
    gap D c q = gap D c' q := by
  unfold gap
  refine sum_congr rfl (fun i hi => ?_)
  have hi := mem_range.mp hi
  rw [same_nSurf h hq hi, off1, h]
  left
  have := row_lt hq hi
  simp only [Spec.Dims.oU, Spec.Dims.oTest, Spec.Dims.oGap]
  have : D.dims.nq * D.dims.g = D.nq * D.gdim := rfl
  rw [this]; omega

theorem test_lt {D : KD} {q k i n : ℕ} (hk : k < D.maxLinks) (hi : i < D.nd) (hq : q < D.nq)
    (hn : n < D.gdim) :
    D.dims.oTest + ((k * D.nd + i) * D.nq + q) * D.gdim + n < D.dims.oU := by
  have h1 := row_lt hk hi
  have h2 := row_lt h1 hq
  have h3 := row_lt h2 hn
  simp only [Spec.Dims.oU]
  show D.dims.oTest + ((k * D.nd + i) * D.nq + q) * D.gdim + n
    < D.dims.oTest + D.maxLinks * D.nd * D.nq * D.gdim
  omega

theorem same_test (hbs : D.bs = D.gdim) (h : Spec.SameData D.dims c c') {q k i n : ℕ} (hq : q < D.nq)
    (hk : k < D.maxLinks) (hi : i < D.nd) (hn : n < D.bs) :
    c (tIdx D q k i n) = c' (tIdx D q k i n) := by
  rw [tIdx_eq D hbs c, tIdx_eq D hbs c', Spec.Dims.test, Spec.Dims.test, h]
  left
  exact test_lt hk hi hq (hbs ▸ hn)

theorem same_nDot (h : Spec.SameData D.dims c c') {q : ℕ} (hq : q < D.nq) :
    nDot D c q = nDot D c' q :=
  sum_congr rfl (fun i hi => by rw [same_nSurf h hq (mem_range.mp hi)])

theorem same_nDotN (hbs : D.bs = D.gdim) (h : Spec.SameData D.dims c c') {q : ℕ} (hq : q < D.nq) :
    nDotN D c q = nDotN D c' q :=
  sum_congr rfl (fun i hi => by rw [same_nSurf h hq (mem_range.mp hi), same_nOld hbs h])

theorem same_sigB (h : Spec.SameData D.dims c c') (q i n j : ℕ) :
    sigB D c q i n j = sigB D c' q i n j := by
  rw [sigB, sigB, same_small h 0 (by omega), same_small h 1 (by omega)]

theorem same_signV (hbs : D.bs = D.gdim) (h : Spec.SameData D.dims c c') {q i n : ℕ} (hq : q < D.nq)
    (hn : n < D.bs) : signV D c q i n = signV D c' q i n := by
  rw [signV_eq hbs q i n hn, signV_eq hbs q i n hn]
  exact sum_congr rfl (fun j hj => by rw [same_sigB h, same_nSurf h hq (mem_range.mp hj)])

variable {links : ℕ}

theorem same_NF (hbs : D.bs = D.gdim) (h : Spec.SameData D.dims c c') (hl : links ≤ D.maxLinks)
    {q B i n : ℕ} (hq : q < D.nq) (hB : B < links + 1) (hi : i < D.nd) (hn : n < D.bs) :
    NF D c q B i n = NF D c' q B i n := by
  cases B with
  | zero => simp only [NF, same_nSurf h hq (hbs ▸ hn)]
  | succ k =>
    simp only [NF, same_nSurf h hq (hbs ▸ hn), same_test hbs h hq (by omega : k < D.maxLinks) hi hn]

theorem same_SF (hbs : D.bs = D.gdim) (h : Spec.SameData D.dims c c')
    {q B i n : ℕ} (hq : q < D.nq) (hn : n < D.bs) :
    SF D c q B i n = SF D c' q B i n := by
  cases B with
  | zero => simp only [SF, same_signV hbs h hq hn]
  | succ k => rfl

theorem same_TF (hbs : D.bs = D.gdim) (h : Spec.SameData D.dims c c') (hl : links ≤ D.maxLinks)
    {q B i n j : ℕ} (hq : q < D.nq) (hB : B < links + 1) (hi : i < D.nd) (hn : n < D.bs)
    (hj : j < D.bs) :
    TF D c q B i n j = TF D c' q B i n j := by
  cases B with
  | zero => simp only [TF, same_nSurf h hq (hbs ▸ hn), same_nSurf h hq (hbs ▸ hj)]
  | succ k =>
    simp only [TF, same_nSurf h hq (hbs ▸ hn), same_nSurf h hq (hbs ▸ hj),
      same_test hbs h hq (by omega : k < D.maxLinks) hi hn]

theorem same_ST (hbs : D.bs = D.gdim) (h : Spec.SameData D.dims c c')
    {q B i n j : ℕ} (hq : q < D.nq) (hn : n < D.bs) (hj : j < D.bs) :
    ST D c q B i n j = ST D c' q B i n j := by
  cases B with
  | zero => simp only [ST, same_signV hbs h hq hn, same_sigB h, same_nSurf h hq (hbs ▸ hj)]
  | succ k => rfl

end Same

/-! ### applying the block matrices -/

/-- Values of the block matrices at one index tuple, summed over the points: block row `B`, block
column `B'` (cell is 0, link `k` is `k + 1`). -/
def BlockValues (D : KD) (links : ℕ) (qs : List ℕ) (A : Arr (ℕ × ℕ))
    (J : ℕ → ℕ → ℕ → ℕ → ℕ → ℕ → ℕ → ℝ) : Prop :=
  ∀ i b j l, i < D.nd → b < D.bs → j < D.nd → l < D.bs →
    A (0, mIdx D i b j l) = (qs.map (fun q => J q 0 i b 0 j l)).sum
    ∧ ∀ k, k < links →
      A (3 * k + 1, mIdx D i b j l) = (qs.map (fun q => J q 0 i b (k + 1) j l)).sum
      ∧ A (3 * k + 2, mIdx D i b j l) = (qs.map (fun q => J q (k + 1) i b 0 j l)).sum
      ∧ A (3 * k + 3, mIdx D i b j l) = (qs.map (fun q => J q (k + 1) i b (k + 1) j l)).sum

theorem mIdx_row (D : KD) (i b j l : ℕ) :
    (i * D.bs + b) * (D.nd * D.bs) + (j * D.bs + l) = mIdx D i b j l := by
  simp only [mIdx]; ring

theorem blockApply_eq (D : KD) (links : ℕ) (qs : List ℕ) (A : Arr (ℕ × ℕ))
    (J : ℕ → ℕ → ℕ → ℕ → ℕ → ℕ → ℕ → ℝ) (hA : BlockValues D links qs A J) (δ : ℕ → ℕ → ℝ)
    (B i b : ℕ) (hB : B < links + 1) (hi : i < D.nd) (hb : b < D.bs)
    (hcross : ∀ q ∈ qs, ∀ k k' j l, k < links → k' < links → k ≠ k' → j < D.nd → l < D.bs →
      J q (k + 1) i b (k' + 1) j l = 0) :
    Spec.blockApply (D.nd * D.bs) links A δ B (i * D.bs + b) =
      (qs.map (fun q => comb D links (fun B' j l => J q B i b B' j l) δ)).sum := by
  have key : ∀ (blk B1 B2 : ℕ),
      (∀ j l, j < D.nd → l < D.bs →
        A (blk, mIdx D i b j l) = (qs.map (fun q => J q B1 i b B2 j l)).sum) →
      ∑ s ∈ range (D.nd * D.bs), A (blk, (i * D.bs + b) * (D.nd * D.bs) + s) * δ B2 s =
        (qs.map (fun q => ∑ j ∈ range D.nd, ∑ l ∈ range D.bs,
          J q B1 i b B2 j l * δ B2 (j * D.bs + l))).sum := by
    intro blk B1 B2 h
    rw [← Coefficients.sum_mul_range D.nd D.bs
      (fun s => A (blk, (i * D.bs + b) * (D.nd * D.bs) + s) * δ B2 s)]
    have : ∀ j ∈ range D.nd, ∀ l ∈ range D.bs,
        A (blk, (i * D.bs + b) * (D.nd * D.bs) + (j * D.bs + l)) * δ B2 (j * D.bs + l) =
        (qs.map (fun q => J q B1 i b B2 j l * δ B2 (j * D.bs + l))).sum := by
      intro j hj l hl
      rw [mIdx_row, h j l (mem_range.mp hj) (mem_range.mp hl), list_sum_mul]
    rw [sum_congr rfl (fun j hj => sum_congr rfl (fun l hl => this j hj l hl))]
    simp only [list_sum_comm]
  cases B with
  | zero =>
    simp only [Spec.blockApply]
    rw [key 0 0 0 (fun j l hj hl => (hA i b j l hi hb hj hl).1)]
    have : ∀ k ∈ range links, ∑ s ∈ range (D.nd * D.bs),
        A (3 * k + 1, (i * D.bs + b) * (D.nd * D.bs) + s) * δ (k + 1) s =
        (qs.map (fun q => ∑ j ∈ range D.nd, ∑ l ∈ range D.bs,
          J q 0 i b (k + 1) j l * δ (k + 1) (j * D.bs + l))).sum :=
      fun k hk => key (3 * k + 1) 0 (k + 1)
        (fun j l hj hl => ((hA i b j l hi hb hj hl).2 k (mem_range.mp hk)).1)
    rw [sum_congr rfl this, list_sum_comm, list_sum_add]
    exact list_sum_congr _ _ _ (fun q _ => (comb_split D links (fun B' j l => J q 0 i b B' j l) δ).symm)
  | succ k =>
    have hk : k < links := by omega
    simp only [Spec.blockApply]
    rw [key (3 * k + 2) (k + 1) 0 (fun j l hj hl => ((hA i b j l hi hb hj hl).2 k hk).2.1),
      key (3 * k + 3) (k + 1) (k + 1) (fun j l hj hl => ((hA i b j l hi hb hj hl).2 k hk).2.2),
      list_sum_add]
    refine list_sum_congr _ _ _ (fun q hq => ?_)
    rw [comb_split]
    congr 1
    symm
    refine sum_eq_single_of_mem k (mem_range.mpr hk) (fun k' hk' hne => ?_)
    refine sum_eq_zero (fun j hj => sum_eq_zero (fun l hl => ?_))
    rw [hcross q hq k k' j l hk (mem_range.mp hk') hne.symm (mem_range.mp hj) (mem_range.mp hl),
      zero_mul]

/-- Products of functionals of different links vanish when only one link is active. -/
theorem oneLink_zero {D : KD} {links : ℕ} {c : ℕ → ℝ} {q : ℕ} (hbs : D.bs = D.gdim)
    (h : Spec.OneLink D.dims links c q) {k k' i b j l : ℕ} (hk : k < links) (hk' : k' < links)
    (hne : k ≠ k') (hi : i < D.nd) (hb : b < D.bs) (hj : j < D.nd) (hl : l < D.bs) :
    c (tIdx D q k i b) = 0 ∨ c (tIdx D q k' j l) = 0 := by
  obtain ⟨k0, h0⟩ := h
  by_cases h1 : k = k0
  · right
    rw [tIdx_eq D hbs c]
    exact h0 k' j l hk' (by omega) hj (show l < D.gdim from hbs ▸ hl)
  · left
    rw [tIdx_eq D hbs c]
    exact h0 k i b hk h1 hi (show b < D.gdim from hbs ▸ hb)

/-! ### frictionless kernels -/

theorem unbiasedRhs_at (D : KD) (c w : ℕ → ℝ) (links : ℕ) (qs : List ℕ) (B i n : ℕ) (hi : i < D.nd)
    (hn : n < D.bs) (hB : B < links + 1) (a : Arr (ℕ × ℕ)) :
    unbiasedRhs D c w links qs a (B, i * D.bs + n) =
      a (B, i * D.bs + n) + (qs.map (fun q => unbR D c w q B i n)).sum := by
  rw [Nat.add_comm (i * D.bs)]
  exact forEach_at qs _ _ _ (fun q _ a => unbiasedRhsPoint_at D c w links q B i n hi hn hB a) a

theorem unbiasedJac_blocks (D : KD) (c w : ℕ → ℝ) (links : ℕ) (qs : List ℕ) :
    BlockValues D links qs (unbiasedJac D c w links qs 0) (unbJ D c w) := by
  intro i b j l hi hb hj hl
  have z : ∀ (m : ℕ × ℕ) (x : ℝ), (0 : Arr (ℕ × ℕ)) m + x = x := fun m x => zero_add x
  refine ⟨(forEach_at qs _ _ _ (fun q _ a =>
      (unbiasedJacPoint_at D c w links q i b j l hi hb hj hl a).1) 0).trans (z _ _),
    fun k hk => ⟨(forEach_at qs _ _ _ (fun q _ a =>
      ((unbiasedJacPoint_at D c w links q i b j l hi hb hj hl a).2 k hk).1) 0).trans (z _ _),
    (forEach_at qs _ _ _ (fun q _ a =>
      ((unbiasedJacPoint_at D c w links q i b j l hi hb hj hl a).2 k hk).2.1) 0).trans (z _ _),
    (forEach_at qs _ _ _ (fun q _ a =>
      ((unbiasedJacPoint_at D c w links q i b j l hi hb hj hl a).2 k hk).2.2) 0).trans (z _ _)⟩⟩

theorem unbJ_cross {D : KD} {links : ℕ} {c w : ℕ → ℝ} {q : ℕ} (hbs : D.bs = D.gdim)
    (h : Spec.OneLink D.dims links c q) {k k' i b j l : ℕ} (hk : k < links) (hk' : k' < links)
    (hne : k ≠ k') (hi : i < D.nd) (hb : b < D.bs) (hj : j < D.nd) (hl : l < D.bs) :
    unbJ D c w q (k + 1) i b (k' + 1) j l = 0 := by
  simp only [unbJ, NF, SF]
  rcases oneLink_zero hbs h hk hk' hne hi hb hj hl with h | h <;> rw [h] <;> ring

theorem same_sig0 {D : KD} {G : ℕ → ℕ → ℕ → ℝ} {c c' : ℕ → ℝ} (h : Spec.SameData D.dims c c') (q j : ℕ) :
    sig0 D G c q j = sig0 D G c' q j := by
  rw [sig0, sig0, same_small h 0 (by omega), same_small h 1 (by omega)]

theorem same_sign0 {D : KD} {G : ℕ → ℕ → ℕ → ℝ} {c c' : ℕ → ℝ} (h : Spec.SameData D.dims c c') {q : ℕ}
    (hq : q < D.nq) : sign0 D G c q = sign0 D G c' q :=
  sum_congr rfl (fun j hj => by rw [same_sig0 h, same_nSurf h hq (mem_range.mp hj)])

/-- Derivative of the residual contribution of one point. -/
theorem unbR_deriv {D : KD} {links : ℕ} (hbs : D.bs = D.gdim) (hl : links ≤ D.maxLinks)
    {c : ℝ → ℕ → ℝ} {w : ℕ → ℝ} {W : ℝ → ℕ → ℕ → ℝ} {δ : ℕ → ℕ → ℝ} {t : ℝ}
    {G : ℕ → ℕ → ℕ → ℝ} (hc : ∀ s, KCarries D links G (c s) (W s)) (hs : ∀ s, Spec.SameData D.dims (c s) (c t))
    (hW : ∀ B m, HasDerivAt (fun s => W s B m) (δ B m) t) {q : ℕ} (hq : q < D.nq)
    (hp : D.dims.pressure (c t) w (D.nPhys q) q ≠ 0) {B i n : ℕ} (hB : B < links + 1) (hi : i < D.nd)
    (hn : n < D.bs) :
    HasDerivAt (fun s => unbR D (c s) w q B i n)
      (comb D links (fun B' j l => unbJ D (c t) w q B i n B' j l) δ) t := by
  have hJ : HasDerivAt (fun s => jumpN D (c s) q) (comb D links (NF D (c t) q) δ) t := by
    have : ∀ s, jumpN D (c s) q = comb D links (NF D (c t) q) (W s) := fun s => by
      rw [jumpN_comb hbs (hc s) hq]
      exact comb_congr D links _ (fun B i n hB hi hn => same_NF hbs (hs s) hl hq hB hi hn)
    simp only [this]
    exact comb_deriv D links _ W δ t hW
  have hS : HasDerivAt (fun s => signU D (c s) q) (comb D links (SF D (c t) q) δ) t := by
    have : ∀ s, signU D (c s) q = comb D links (SF D (c t) q) (W s) + sign0 D G (c t) q := fun s => by
      rw [signU_comb hbs (hc s) hq, same_sign0 (hs s) hq]
      congr 1
      exact comb_congr D links _ (fun B i n hB hi hn => same_SF hbs (hs s) hq hn)
    simp only [this]
    exact (comb_deriv D links _ W δ t hW).add_const _
  have hP : HasDerivAt (fun s => (jumpN D (c s) q - gap D (c s) q) - gam (c s) w * signU D (c s) q)
      (comb D links (NF D (c t) q) δ - gam (c t) w * comb D links (SF D (c t) q) δ) t := by
    have e : (fun s => (jumpN D (c s) q - gap D (c s) q) - gam (c s) w * signU D (c s) q) =
        fun s => (jumpN D (c s) q - gap D (c t) q) - gam (c t) w * signU D (c s) q := by
      funext s; rw [same_gap (hs s) hq, same_gam (hs s)]
    rw [e]
    exact (hJ.sub_const _).fun_sub (hS.const_mul _)
  have hR := hasDerivAt_rPlus_comp hP (by rw [pressure_eq D hbs]; exact hp)
  have e : (fun s => unbR D (c s) w q B i n) = fun s => D.w0 q * (0.5 * gamInv (c t) w
      * rPlus ((jumpN D (c s) q - gap D (c s) q) - gam (c s) w * signU D (c s) q)
        * (NF D (c t) q B i n - gam (c t) w * w 1 * SF D (c t) q B i n)
      - 0.5 * w 1 * gam (c t) w * signU D (c s) q * SF D (c t) q B i n) := by
    funext s
    rw [unbR, same_NF hbs (hs s) hl hq hB hi hn, same_SF hbs (hs s) hq hn, same_gamInv (hs s),
      same_gam (hs s)]
  rw [e]
  refine ((((hR.const_mul (0.5 * gamInv (c t) w)).mul_const _).fun_sub
    ((hS.const_mul (0.5 * w 1 * gam (c t) w)).mul_const _)).const_mul (D.w0 q)).congr_deriv ?_
  have e2 : (fun B' j l => unbJ D (c t) w q B i n B' j l) = fun B' j l =>
      (D.w0 q * (0.5 * gamInv (c t) w
        * dRPlus ((jumpN D (c t) q - gap D (c t) q) - gam (c t) w * signU D (c t) q)
        * (NF D (c t) q B i n - gam (c t) w * w 1 * SF D (c t) q B i n))) * NF D (c t) q B' j l
      + (-(D.w0 q * (gam (c t) w * (0.5 * gamInv (c t) w
        * dRPlus ((jumpN D (c t) q - gap D (c t) q) - gam (c t) w * signU D (c t) q)
        * (NF D (c t) q B i n - gam (c t) w * w 1 * SF D (c t) q B i n))
        + 0.5 * w 1 * gam (c t) w * SF D (c t) q B i n))) * SF D (c t) q B' j l := by
    funext B' j l; simp only [unbJ]; ring
  rw [e2, comb_add, comb_smul, comb_smul]
  ring

end

end Verif.Kernels
