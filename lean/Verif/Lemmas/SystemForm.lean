import Verif.Lemmas.SystemJacobian

/-! Lemmas for C114: the assembled vector is the weak form of the displacement. -/

namespace Verif.ContactProblem

open Verif.Spec Verif.Packing Verif.Assembly Verif.Entities Verif.Kernels Finset

noncomputable section

variable {G : Type} {Y : System G}

/-! ### global vector times vector -/

theorem scatter_dot (nd bs N : ℕ) (dofs : ℕ → ℕ → ℕ) (cell : ℕ) (e v : ℕ → ℝ)
    (hN : ∀ j < nd, bs * dofs cell j + bs ≤ N) :
    ∑ d ∈ range N, scatter nd bs dofs cell e d * v d
      = ∑ i ∈ range nd, ∑ n ∈ range bs, e (i * bs + n) * v (bs * dofs cell i + n) := by
  unfold scatter
  simp only [sum_mul]
  rw [sum_comm]
  refine sum_congr rfl (fun i hi => ?_)
  rw [sum_comm]
  refine sum_congr rfl (fun n hn => ?_)
  have hlt : bs * dofs cell i + n < N := by
    have := hN i (mem_range.mp hi); have := mem_range.mp hn; omega
  simp only [ite_mul, zero_mul]
  rw [sum_ite_eq' (range N) (bs * dofs cell i + n), if_pos (mem_range.mpr hlt), Nat.mul_comm bs i]

theorem facetVector_dot (nd bs N : ℕ) (dofs : ℕ → ℕ → ℕ) (cell : ℕ) (L : List ℕ) (e : ℕ × ℕ → ℝ) (v : ℕ → ℝ)
    (hc : ∀ j < nd, bs * dofs cell j + bs ≤ N) (hL : ∀ c ∈ L, ∀ j < nd, bs * dofs c j + bs ≤ N) :
    ∑ d ∈ range N, facetVector nd bs dofs cell L e d * v d
      = ∑ B ∈ range (L.length + 1), ∑ i ∈ range nd, ∑ n ∈ range bs,
          e (B, i * bs + n) * v (bs * dofs (coupledCell cell L B) i + n) := by
  have hg : ∀ k, k ∈ range L.length → ∀ j < nd, bs * dofs (L.getD k 0) j + bs ≤ N := by
    intro k hk
    have hk' := mem_range.mp hk
    rw [List.getD_eq_getElem _ _ hk']
    exact hL _ (List.getElem_mem hk')
  have e1 := scatter_dot nd bs N dofs cell (fun p => e (0, p)) v hc
  have e2 := fun k hk => scatter_dot nd bs N dofs (L.getD k 0) (fun p => e (k + 1, p)) v (hg k hk)
  have e3 : ∑ d ∈ range N, facetVector nd bs dofs cell L e d * v d
      = ∑ d ∈ range N, scatter nd bs dofs cell (fun p => e (0, p)) d * v d
        + ∑ k ∈ range L.length, ∑ d ∈ range N, scatter nd bs dofs (L.getD k 0) (fun p => e (k + 1, p)) d * v d := by
    rw [sum_comm, ← sum_add_distrib]
    refine sum_congr rfl (fun d _ => ?_)
    rw [facetVector, add_mul, sum_mul]
  rw [e3, e1, sum_congr rfl e2, sum_range_succ', add_comm]
  rfl

/-! ### linearity of the forms in the test function -/

section
variable {ι : Type} (S : Finset ι) (s : Dims) (c w np : ℕ → ℝ) (q : ℕ) (t : ι → ℝ)

theorem dotN_sum (x : ι → ℕ → ℝ) :
    s.dotN c q (fun a => ∑ k ∈ S, x k a * t k) = ∑ k ∈ S, s.dotN c q (x k) * t k := by
  unfold Dims.dotN
  simp only [sum_mul]
  rw [sum_comm]
  exact sum_congr rfl (fun k _ => sum_congr rfl (fun a _ => by ring))

theorem tang_sum (x : ι → ℕ → ℝ) (a : ℕ) :
    s.tang c q (fun a => ∑ k ∈ S, x k a * t k) a = ∑ k ∈ S, s.tang c q (x k) a * t k := by
  unfold Dims.tang
  rw [dotN_sum, sum_mul, ← sum_sub_distrib]
  exact sum_congr rfl (fun k _ => by ring)

end

/-- The forms with jump `x` and traction `y` of the test function. -/
def normalAt (s : Dims) (c w np : ℕ → ℝ) (q : ℕ) (x y : ℕ → ℝ) : ℝ :=
  1 / 2 * (w 0 / c 3) * max 0 (s.pressure c w np q) * (s.dotN c q x - w 1 * (c 3 / w 0) * s.dotN c q y)
    - 1 / 2 * w 1 * (c 3 / w 0) * s.dotN c q (s.trac c np q) * s.dotN c q y

def frictionAt (s : Dims) (c w np : ℕ → ℝ) (p : ℕ → ℝ) (q : ℕ) (x y : ℕ → ℝ) : ℝ :=
  1 / 2 * (w 0 / c 3) * ∑ a ∈ range s.g, p a * (s.tang c q x a - w 1 * (c 3 / w 0) * s.tang c q y a)
    - 1 / 2 * w 1 * (c 3 / w 0) * ∑ a ∈ range s.g, s.tang c q (s.trac c np q) a * s.tang c q y a

theorem normalAt_sum {ι : Type} (S : Finset ι) (s : Dims) (c w np : ℕ → ℝ) (q : ℕ) (x y : ι → ℕ → ℝ) (t : ι → ℝ) :
    normalAt s c w np q (fun a => ∑ k ∈ S, x k a * t k) (fun a => ∑ k ∈ S, y k a * t k)
      = ∑ k ∈ S, normalAt s c w np q (x k) (y k) * t k := by
  unfold normalAt
  rw [dotN_sum, dotN_sum, mul_sub, mul_sum, mul_sum, mul_sum, mul_sum, ← sum_sub_distrib, ← sum_sub_distrib]
  exact sum_congr rfl (fun k _ => by ring)

theorem frictionAt_sum {ι : Type} (S : Finset ι) (s : Dims) (c w np : ℕ → ℝ) (p : ℕ → ℝ) (q : ℕ) (x y : ι → ℕ → ℝ)
    (t : ι → ℝ) :
    frictionAt s c w np p q (fun a => ∑ k ∈ S, x k a * t k) (fun a => ∑ k ∈ S, y k a * t k)
      = ∑ k ∈ S, frictionAt s c w np p q (x k) (y k) * t k := by
  unfold frictionAt
  simp only [tang_sum]
  have e1 : ∀ a, p a * (∑ k ∈ S, s.tang c q (x k) a * t k - w 1 * (c 3 / w 0) * ∑ k ∈ S, s.tang c q (y k) a * t k)
      = ∑ k ∈ S, p a * (s.tang c q (x k) a - w 1 * (c 3 / w 0) * s.tang c q (y k) a) * t k := by
    intro a
    rw [mul_sum, ← sum_sub_distrib, mul_sum]
    exact sum_congr rfl (fun k _ => by ring)
  have e2 : ∀ a, s.tang c q (s.trac c np q) a * ∑ k ∈ S, s.tang c q (y k) a * t k
      = ∑ k ∈ S, s.tang c q (s.trac c np q) a * s.tang c q (y k) a * t k := by
    intro a
    rw [mul_sum]
    exact sum_congr rfl (fun k _ => by ring)
  simp only [e1, e2]
  rw [sum_comm, sum_comm (s := range s.g) (t := S), mul_sum, mul_sum, ← sum_sub_distrib]
  refine sum_congr rfl (fun k _ => ?_)
  rw [← sum_mul, ← sum_mul]
  ring

theorem normalForm_eq (s : Dims) (phi : ℕ → ℕ → ℝ) (dphi : ℕ → ℕ → ℕ → ℝ) (c w np : ℕ → ℝ) (q B i n : ℕ) :
    s.normalForm phi dphi c w np q B i n
      = normalAt s c w np q (s.vJump phi c q B i n) (s.vTrac dphi c np q B i n) := rfl

theorem frictionForm_eq (s : Dims) (phi : ℕ → ℕ → ℝ) (dphi : ℕ → ℕ → ℕ → ℝ) (c w np p : ℕ → ℝ) (q B i n : ℕ) :
    s.frictionForm phi dphi c w np p q B i n
      = frictionAt s c w np p q (s.vJump phi c q B i n) (s.vTrac dphi c np q B i n) := rfl

/-- Traction is linear in the gradient. -/
theorem traction_sum {ι : Type} (S : Finset ι) (g : ℕ) (mu lam : ℝ) (D : ι → ℕ → ℕ → ℝ) (n : ℕ → ℝ) (t : ι → ℝ) {a : ℕ}
    (ha : a < g) :
    traction g mu lam (fun a b => ∑ k ∈ S, D k a b * t k) n a = ∑ k ∈ S, traction g mu lam (D k) n a * t k := by
  simp only [Elasticity.traction_eq _ _ _ _ _ _ ha]
  have e1 : ∑ j ∈ range g, mu * (∑ k ∈ S, D k j a * t k + ∑ k ∈ S, D k a j * t k) * n j
      = ∑ k ∈ S, (∑ j ∈ range g, mu * (D k j a + D k a j) * n j) * t k := by
    simp only [← sum_add_distrib, mul_sum, sum_mul]
    rw [sum_comm]
    exact sum_congr rfl (fun k _ => sum_congr rfl (fun j _ => by ring))
  have e2 : lam * (∑ j ∈ range g, ∑ k ∈ S, D k j j * t k) * n a
      = ∑ k ∈ S, (lam * (∑ j ∈ range g, D k j j) * n a) * t k := by
    rw [sum_comm]
    simp only [mul_sum, sum_mul]
    exact sum_congr rfl (fun k _ => sum_congr rfl (fun j _ => by ring))
  rw [e1, e2, ← sum_add_distrib]
  exact sum_congr rfl (fun k _ => by ring)

theorem traction_congr {g : ℕ} (mu lam : ℝ) {D D' : ℕ → ℕ → ℝ} (n : ℕ → ℝ) {a : ℕ} (ha : a < g)
    (h : ∀ a < g, ∀ b < g, D a b = D' a b) : traction g mu lam D n a = traction g mu lam D' n a := by
  simp only [Elasticity.traction_eq _ _ _ _ _ _ ha]
  congr 1
  · refine sum_congr rfl (fun j hj => ?_)
    rw [h _ (mem_range.mp hj) _ ha, h _ ha _ (mem_range.mp hj)]
  · congr 2
    exact sum_congr rfl (fun j hj => h _ (mem_range.mp hj) _ (mem_range.mp hj))

/-! ### virtual jump and traction -/

/-- All dofs of the coupled cells. -/
def dofSet (links nd g : ℕ) : Finset (ℕ × ℕ × ℕ) := range (links + 1) ×ˢ range nd ×ˢ range g

theorem sum_dofSet (links nd g : ℕ) (f : ℕ → ℕ → ℕ → ℝ) :
    ∑ k ∈ dofSet links nd g, f k.1 k.2.1 k.2.2
      = ∑ B ∈ range (links + 1), ∑ i ∈ range nd, ∑ n ∈ range g, f B i n := by
  unfold dofSet
  rw [sum_product]
  refine sum_congr rfl (fun B _ => ?_)
  rw [sum_product]

theorem vJump_total (s : Dims) (links : ℕ) (phi : ℕ → ℕ → ℝ) (c : ℕ → ℝ) (q : ℕ) (V : ℕ → ℕ → ℕ → ℝ) {a : ℕ} (ha : a < s.g) :
    ∑ k ∈ dofSet links s.nd s.g, s.vJump phi c q k.1 k.2.1 k.2.2 a * V k.1 k.2.1 k.2.2
      = ∑ i ∈ range s.nd, phi q i * V 0 i a
        - ∑ k ∈ range links, ∑ i ∈ range s.nd, s.test c q k i a * V (k + 1) i a := by
  rw [sum_dofSet links s.nd s.g (fun B i n => s.vJump phi c q B i n a * V B i n), sum_range_succ']
  have e : ∀ B i, ∑ n ∈ range s.g, s.vJump phi c q B i n a * V B i n
      = (match B with | 0 => phi q i | k + 1 => -s.test c q k i a) * V B i a := by
    intro B i
    rw [sum_eq_single_of_mem a (mem_range.mpr ha)]
    · unfold Dims.vJump; rw [if_pos rfl]; cases B <;> rfl
    · intro n _ hn
      unfold Dims.vJump
      rw [if_neg (fun h => hn h.symm), zero_mul]
  simp only [e]
  rw [add_comm, sub_eq_add_neg, ← sum_neg_distrib]
  congr 1
  refine sum_congr rfl (fun k _ => ?_)
  rw [← sum_neg_distrib]
  exact sum_congr rfl (fun i _ => by ring)

theorem vTrac_total (s : Dims) (links : ℕ) (dphi : ℕ → ℕ → ℕ → ℝ) (c np : ℕ → ℝ) (q : ℕ) (V : ℕ → ℕ → ℕ → ℝ) {a : ℕ}
    (ha : a < s.g) :
    ∑ k ∈ dofSet links s.nd s.g, s.vTrac dphi c np q k.1 k.2.1 k.2.2 a * V k.1 k.2.1 k.2.2
      = traction s.g (c 0) (c 1) (fun a b => ∑ i ∈ range s.nd, dphi q i b * V 0 i a) np a := by
  rw [sum_dofSet links s.nd s.g (fun B i n => s.vTrac dphi c np q B i n a * V B i n), sum_range_succ']
  have z : ∑ k ∈ range links, ∑ i ∈ range s.nd, ∑ n ∈ range s.g, s.vTrac dphi c np q (k + 1) i n a * V (k + 1) i n = 0 :=
    sum_eq_zero (fun k _ => sum_eq_zero (fun i _ => sum_eq_zero (fun n _ => by simp [Dims.vTrac])))
  rw [z, zero_add]
  have h := traction_sum (range s.nd ×ˢ range s.g) s.g (c 0) (c 1)
    (fun k a b => if a = k.2 then dphi q k.1 b else 0) np (fun k => V 0 k.1 k.2) ha
  rw [sum_product] at h
  refine h.symm.trans (traction_congr _ _ _ ha (fun a ha b _ => ?_))
  rw [sum_product]
  refine sum_congr rfl (fun i _ => ?_)
  rw [sum_eq_single_of_mem a (mem_range.mpr ha)]
  · simp
  · intro n _ hn
    simp only [if_neg (fun h : a = n => hn h.symm), zero_mul]

/-! ### the row of a facet against the data of the point -/

/-- The row `c` holds the data of point `p` at quadrature point `q`, jump `J` and gradient `D`. -/
structure RowAt (s : Dims) (c : ℕ → ℝ) (q : ℕ) (p : ContactPoint) (J : ℕ → ℝ) (D : ℕ → ℕ → ℝ) : Prop where
  g : p.g = s.g
  mu : c 0 = p.mu
  lam : c 1 = p.lam
  fric : c 2 = p.fric
  h : c 3 = p.h
  normal : ∀ a < s.g, s.normal c q a = p.normal a
  old : ∀ a < s.g, s.oldNormal c q a = p.oldNormal a
  gap : ∀ a < s.g, c (s.oGap + q * s.g + a) = p.gap a
  jump : ∀ a < s.g, s.jump c q a = J a
  grad : ∀ a < s.g, ∀ b < s.g, c (s.oGrad + (q * s.g + a) * s.g + b) = D a b

section
variable {s : Dims} {c : ℕ → ℝ} {q : ℕ} {p : ContactPoint} {J : ℕ → ℝ} {D : ℕ → ℕ → ℝ}

theorem RowAt.dot (R : RowAt s c q p J D) {x y : ℕ → ℝ} (h : ∀ a < s.g, x a = y a) : s.dotN c q x = p.dot y := by
  unfold Dims.dotN ContactPoint.dot
  rw [R.g]
  refine sum_congr rfl (fun a ha => ?_)
  rw [h a (mem_range.mp ha), R.normal a (mem_range.mp ha)]

theorem RowAt.tang (R : RowAt s c q p J D) {x y : ℕ → ℝ} (h : ∀ a < s.g, x a = y a) {a : ℕ} (ha : a < s.g) :
    s.tang c q x a = p.tang y a := by
  unfold Dims.tang ContactPoint.tang
  rw [R.dot h, h a ha, R.normal a ha]

theorem RowAt.trac (R : RowAt s c q p J D) {a : ℕ} (ha : a < s.g) : s.trac c p.nPhys q a = p.trac D a := by
  unfold Dims.trac ContactPoint.trac
  rw [R.g, R.mu, R.lam]
  exact traction_congr _ _ _ ha R.grad

theorem RowAt.pressure (R : RowAt s c q p J D) (w : ℕ → ℝ) :
    s.pressure c w p.nPhys q = p.pressure (w 0) J D := by
  unfold Dims.pressure ContactPoint.pressure Dims.gapN
  rw [R.dot R.jump, R.dot R.gap, R.dot (fun a ha => R.trac ha), R.h]

theorem RowAt.slip (R : RowAt s c q p J D) (w : ℕ → ℝ) {a : ℕ} (ha : a < s.g) :
    s.slip c w p.nPhys q a = p.slip (w 0) J D a := by
  unfold Dims.slip ContactPoint.slip
  rw [R.tang R.jump ha, R.tang (fun a ha => R.trac ha) ha, R.h]

theorem RowAt.slipC (R : RowAt s c q p J D) (w : ℕ → ℝ) {a : ℕ} (ha : a < s.g) :
    s.slipC c w p.nPhys q a = p.slip (w 0) J D a - (p.dot p.gap - p.dot J) * p.tang p.oldNormal a := by
  unfold Dims.slipC Dims.gapN
  rw [R.slip w ha, R.dot R.gap, R.dot R.jump, R.tang R.old ha]

theorem ball_congr {g : ℕ} {x y : ℕ → ℝ} (α : ℝ) (h : ∀ a < g, x a = y a) {a : ℕ} (ha : a < g) :
    ball g x α a = ball g y α a := by
  have e : ∑ b ∈ range g, x b ^ 2 = ∑ b ∈ range g, y b ^ 2 :=
    sum_congr rfl (fun b hb => by rw [h b (mem_range.mp hb)])
  unfold ball
  rw [e, h a ha]

theorem RowAt.normalAt (R : RowAt s c q p J D) (w : ℕ → ℝ) {x y J' : ℕ → ℝ} {D' : ℕ → ℕ → ℝ}
    (hx : ∀ a < s.g, x a = J' a) (hy : ∀ a < s.g, y a = p.trac D' a) :
    normalAt s c w p.nPhys q x y = p.normalPart (w 0) (w 1) J D J' D' := by
  unfold ContactProblem.normalAt ContactPoint.normalPart
  rw [R.pressure, R.dot hx, R.dot hy, R.dot (fun a ha => R.trac ha), R.h]

theorem RowAt.frictionAt (R : RowAt s c q p J D) (law : Law) (w : ℕ → ℝ) {x y J' P : ℕ → ℝ} {D' : ℕ → ℕ → ℝ}
    (hx : ∀ a < s.g, x a = J' a) (hy : ∀ a < s.g, y a = p.trac D' a)
    (hP : ∀ a < s.g, P a = p.projected law (w 0) J D a) :
    frictionAt s c w p.nPhys P q x y = p.frictionPart law (w 0) (w 1) J D J' D' := by
  unfold ContactProblem.frictionAt ContactPoint.frictionPart
  rw [R.h, R.g]
  congr 1
  · congr 1
    refine sum_congr rfl (fun a ha => ?_)
    have ha' := mem_range.mp ha
    rw [hP a ha', R.tang hx ha', R.tang hy ha']
  · congr 1
    refine sum_congr rfl (fun a ha => ?_)
    have ha' := mem_range.mp ha
    rw [R.tang hy ha', R.tang (fun a ha => R.trac ha) ha']

end

/-! ### the rows of a system -/

theorem list_range_sum (n : ℕ) (f : ℕ → ℝ) : ((List.range n).map f).sum = ∑ i ∈ range n, f i := by
  induction n with
  | zero => rfl
  | succ n ih => rw [List.range_succ, List.map_append, List.sum_append, ih, sum_range_succ]; simp

theorem list_filter_sum (n : ℕ) (p : ℕ → Prop) [DecidablePred p] (f : ℕ → ℝ) :
    (((List.range n).filter (fun q => decide (p q))).map f).sum = ∑ q ∈ range n, if p q then f q else 0 := by
  induction n with
  | zero => rfl
  | succ n ih =>
    rw [List.range_succ, List.filter_append, List.map_append, List.sum_append, ih, sum_range_succ]
    by_cases h : p n <;> simp [h]

/-- The test functions of the linked cells evaluate a function at the contact point. -/
theorem opp_direct (Y : System G) (g : G) (i e q a : ℕ) (L : List ℕ) (he : e < Y.localFacets i) (hq : q < Y.nq)
    (ha : a < Y.gdim) (hL : Packing.Spec.IsLinkList (Y.pair g i) e L)
    (hfirst : Packing.Spec.LinkedFirst (Y.pair g i) e) (hlink : 0 ≤ Y.map g i (e * Y.nq + q)) (u : ℕ → ℝ) :
    ∑ k ∈ range L.length, ∑ m ∈ range Y.nd, (Y.test g i).v e (((k * Y.nd + m) * Y.nq + q) * Y.gdim + a)
        * u (Y.gdim * Y.space.parent (L.getD k 0) m + a) = oppositeAt Y g i e u q a := by
  obtain ⟨c, hc, ht⟩ := test_eq Y g i
  obtain ⟨c', hc', hv⟩ := C31_test_functions_partial (Y.pair g i) (Y.basis g i) (pair_fits Y g i)
  have : c' = c := by rw [hc'] at hc; exact Except.ok.inj hc
  subst this
  obtain ⟨f, hf⟩ : ∃ f : ℕ, Y.map g i (e * Y.nq + q) = f := ⟨_, (Int.toNat_of_nonneg hlink).symm⟩
  have hto : Packing.Spec.LinkedTo (Y.pair g i) e q (Y.space.parentCell (Y.subCell f)) := ⟨f, hf, rfl⟩
  have hmem : Y.space.parentCell (Y.subCell f) ∈ L := (hL.2 _).mpr ⟨q, hq, hto⟩
  obtain ⟨k0, hk0, hk0'⟩ := List.getElem_of_mem hmem
  rw [sum_eq_single_of_mem k0 (mem_range.mpr hk0)]
  · unfold oppositeAt
    rw [hf, Int.toNat_natCast, List.getD_eq_getElem _ _ hk0, hk0']
    refine sum_congr rfl (fun m hm => ?_)
    rw [test_entry Y g i e k0 m q a c' ht]
    congr 1
    exact (hv e L he hL hfirst k0 m q a (lt_of_lt_of_le hk0 (links_le hL)) (mem_range.mp hm) hq ha).1 hk0
      (by rw [hk0']; exact hto)
  · intro k hk hne
    have hk' := mem_range.mp hk
    refine sum_eq_zero (fun m hm => ?_)
    have h0 : c' (Packing.Spec.entry (Y.pair g i) Y.gdim e k m q a) = 0 :=
      (hv e L he hL hfirst k m q a (lt_of_lt_of_le hk' (links_le hL)) (mem_range.mp hm) hq ha).2 ?_
    · rw [test_entry Y g i e k m q a c' ht, h0, zero_mul]
    rintro h ⟨f', hf', hc⟩
    apply hne
    have hff : f' = f := by
      have h1 : Y.map g i (e * Y.nq + q) = f' := hf'
      rw [hf] at h1
      exact_mod_cast h1.symm
    subst hff
    have hnd : L.Nodup := hL.1.imp (fun h => ne_of_lt h)
    have hc' : L[k] = L[k0] := by rw [hk0', ← hc]; rfl
    exact (List.Nodup.getElem_inj_iff hnd).mp hc'

theorem grad_lt {nq g q a b : ℕ} (hq : q < nq) (ha : a < g) (hb : b < g) : (q * g + a) * g + b < nq * g * g := by
  have a1 : q * g + a < nq * g := by nlinarith
  nlinarith

theorem contactNormalAt_eq (Y : System G) (g : G) (i e q a : ℕ) :
    contactNormalAt Y g i e q a = -normals Y.static g i e (q * Y.gdim + a) := by
  show (if Y.raytracing i then _ else _) = -(if Y.raytracing i then _ else _)
  split
  · exact (neg_neg _).symm
  · rfl

/-- The row of a facet at a linked point, after `update_contact_data`. -/
theorem row_at (hY : System.Valid Y) {t : Tracked G} {u : ℕ → ℝ} {i e : ℕ} {c : ℕ → ℝ}
    (R : RowHolds Y.static (t.setDu (Y.du u)) i e c) (he : e < Y.localFacets i) (hel : e < (Y.facets i).length)
    {L : List ℕ} (hL : Packing.Spec.IsLinkList (Y.pair t.cur i) e L)
    (hfirst : Packing.Spec.LinkedFirst (Y.pair t.cur i) e) {q : ℕ} (hq : q < Y.nq)
    (hlink : 0 ≤ Y.map t.cur i (e * Y.nq + q)) :
    RowAt (dims Y.static) c q (pointAt Y t i e (Y.facets i)[e].1 (Y.facets i)[e].2 q)
      (jumpAt Y t.cur i e (Y.facets i)[e].1 (Y.facets i)[e].2 u q)
      (fun a b => gradAt Y (Y.facets i)[e].1 (Y.facets i)[e].2 u q a b
        + (pointAt Y t i e (Y.facets i)[e].1 (Y.facets i)[e].2 q).grad0 a b) where
  g := rfl
  mu := R.mu
  lam := R.lam
  fric := R.fric
  h := R.h
  normal := fun a ha => by
    show -c ((dims Y.static).oNormal + q * Y.gdim + a) = _
    rw [Nat.add_assoc, R.normal (q * Y.gdim + a) (sA_le Y.static hq ha)]
    exact (contactNormalAt_eq Y t.cur i e q a).symm
  old := fun a ha => by
    show -c ((dims Y.static).oOld + q * Y.gdim + a) = _
    rw [Nat.add_assoc, R.old (q * Y.gdim + a) (sA_le Y.static hq ha)]
    exact (contactNormalAt_eq Y t.prev i e q a).symm
  gap := fun a ha => by
    show c ((dims Y.static).oGap + q * Y.gdim + a) = _
    rw [Nat.add_assoc, R.gap (q * Y.gdim + a) (sA_le Y.static hq ha)]
    rfl
  jump := fun a ha => by
    show c ((dims Y.static).oU + q * Y.gdim + a) - c ((dims Y.static).oOpp + q * Y.gdim + a) = _
    rw [Nat.add_assoc, Nat.add_assoc, R.u (q * Y.gdim + a) (sA_le Y.static hq ha), R.opp (q * Y.gdim + a) (sA_le Y.static hq ha)]
    show (Y.packVal u i).v e (q * Y.gdim + a) - (Y.packOpp u t.cur i).v e (q * Y.gdim + a) = _
    rw [(packVal_eq hY u i).2.2 e hel q hq a ha, packOpp_eq hY u t.cur i e q a L he hq ha hL hfirst,
      opp_direct Y t.cur i e q a L he hq ha hL hfirst hlink u]
    rfl
  grad := fun a ha b hb => by
    show c ((dims Y.static).oGrad + (q * Y.gdim + a) * Y.gdim + b) = _
    rw [Nat.add_assoc, R.grad ((q * Y.gdim + a) * Y.gdim + b) (grad_lt hq ha hb)]
    show (Y.packGrad u i).v e ((q * Y.gdim + a) * Y.gdim + b) + t.gradU i e _ = _
    rw [(packGrad_eq hY u i).2.2 e hel q hq a ha b hb]
    rfl

/-- What a kernel tests, at one point. -/
def formAt (p : KPair) (law : Law) (P : ContactPoint) (gamma theta : ℝ) (J : ℕ → ℝ) (D : ℕ → ℕ → ℝ) (J' : ℕ → ℝ)
    (D' : ℕ → ℕ → ℝ) : ℝ :=
  match p with
  | .normal => P.normalPart gamma theta J D J' D'
  | _ => P.frictionPart law gamma theta J D J' D'

theorem formAt_law (law : Law) (P : ContactPoint) (gamma theta : ℝ) (J : ℕ → ℝ) (D : ℕ → ℕ → ℝ) (J' : ℕ → ℝ)
    (D' : ℕ → ℕ → ℝ) :
    ((lawPairs law).map (fun p => formAt p law P gamma theta J D J' D')).sum = P.form law gamma theta J D J' D' := by
  unfold ContactPoint.form
  cases law <;> simp [lawPairs, formAt]

/-- The element vector of a kernel tested with `v`. -/
theorem kernel_form (hY : System.Valid Y) (law : Law) (p : KPair) (hp : p ∈ lawPairs law) {t : Tracked G}
    (h23 : law ≠ .frictionless → Y.gdim = 2 ∨ Y.gdim = 3) {u : ℕ → ℝ} {i e : ℕ} {c : ℕ → ℝ} (consts : ℝ × ℝ)
    (R : RowHolds Y.static (t.setDu (Y.du u)) i e c) (he : e < Y.localFacets i) (hel : e < (Y.facets i).length)
    {L : List ℕ} (hL : Packing.Spec.IsLinkList (Y.pair t.cur i) e L)
    (hfirst : Packing.Spec.LinkedFirst (Y.pair t.cur i) e) (v : ℕ → ℝ) :
    ∑ B ∈ range (L.length + 1), ∑ k ∈ range Y.nd, ∑ n ∈ range Y.gdim,
      p.vecFn (Y.kd Y.nq (Y.facets i)[e].1 (Y.facets i)[e].2) c (constants consts) L.length
        (linkedPoints ((Y.pair t.cur i).row e)) 0 (B, k * Y.gdim + n)
        * v (Y.gdim * Y.space.parent (coupledCell (Y.facets i)[e].1 L B) k + n)
      = ∑ q ∈ range Y.nq, if 0 ≤ Y.map t.cur i (e * Y.nq + q) then
        weightAt Y (Y.facets i)[e].1 (Y.facets i)[e].2 q
          * formAt p law (pointAt Y t i e (Y.facets i)[e].1 (Y.facets i)[e].2 q) consts.1 consts.2
          (jumpAt Y t.cur i e (Y.facets i)[e].1 (Y.facets i)[e].2 u q)
          (fun a b => gradAt Y (Y.facets i)[e].1 (Y.facets i)[e].2 u q a b
            + (pointAt Y t i e (Y.facets i)[e].1 (Y.facets i)[e].2 q).grad0 a b)
          (jumpAt Y t.cur i e (Y.facets i)[e].1 (Y.facets i)[e].2 v q)
          (gradAt Y (Y.facets i)[e].1 (Y.facets i)[e].2 v q)
      else 0 := by
  have hat := fun q hq hl => row_at hY R he hel hL hfirst (q := q) hq hl
  have htest : ∀ q < Y.nq, ∀ a < Y.gdim, ∀ k < L.length, ∀ m < Y.nd,
      (dims Y.static).test c q k m a = (Y.test t.cur i).v e (((k * Y.nd + m) * Y.nq + q) * Y.gdim + a) := by
    intro q hq a ha k hk m hm
    unfold Dims.test
    rw [Nat.add_assoc]
    refine R.test _ ?_
    have hk' : k < Y.nq := lt_of_lt_of_le hk (links_le hL)
    show ((k * Y.nd + m) * Y.nq + q) * Y.gdim + a < Y.nq * Y.nd * Y.nq * Y.gdim
    have a1 : k * Y.nd + m < Y.nq * Y.nd := by nlinarith
    have a2 : (k * Y.nd + m) * Y.nq + q < Y.nq * Y.nd * Y.nq := by nlinarith
    nlinarith
  have hopp : ∀ q < Y.nq, ∀ a < Y.gdim, 0 ≤ Y.map t.cur i (e * Y.nq + q) →
      ∑ k ∈ range L.length, ∑ m ∈ range Y.nd, (dims Y.static).test c q k m a
        * v (Y.gdim * Y.space.parent (L.getD k 0) m + a) = oppositeAt Y t.cur i e v q a := by
    intro q hq a ha hl
    rw [← opp_direct Y t.cur i e q a L he hq ha hL hfirst hl v]
    refine sum_congr rfl (fun k hk => sum_congr rfl (fun m hm => ?_))
    rw [htest q hq a ha k (mem_range.mp hk) m (mem_range.mp hm)]
  generalize hcell : (Y.facets i)[e].1 = cell at *
  generalize hf : (Y.facets i)[e].2 = f at *
  clear hcell hf
  have haff : AffineConst (Y.kd Y.nq cell f) := by
    intro ha q
    have := hY.affine ha f q
    show Y.inv (Y.geo.jac cell (Y.cphi (Y.off f + q))) = Y.inv (Y.geo.jac cell (Y.cphi (Y.off f)))
      ∧ Y.det f (Y.geo.jac cell (Y.cphi (Y.off f + q))) = Y.det f (Y.geo.jac cell (Y.cphi (Y.off f)))
    rw [this]
    exact ⟨rfl, rfl⟩
  obtain ⟨V, hV⟩ : ∃ V : ℕ → ℕ → ℕ → ℝ, ∀ B k n, V B k n = v (Y.gdim * Y.space.parent (coupledCell cell L B) k + n) :=
    ⟨_, fun _ _ _ => rfl⟩
  obtain ⟨w, hw⟩ : ∃ w : ℕ → ℝ, w = constants consts := ⟨_, rfl⟩
  have hw0 : w 0 = consts.1 := by rw [hw]; rfl
  have hw1 : w 1 = consts.2 := by rw [hw]; rfl
  have hpts : linkedPoints ((Y.pair t.cur i).row e)
      = (List.range Y.nq).filter (fun q => decide (0 ≤ Y.map t.cur i (e * Y.nq + q))) := by
    unfold linkedPoints
    rw [row_length]
    refine List.filter_congr (fun q hq => ?_)
    rw [row_getD _ _ (List.mem_range.mp hq)]
    rfl
  -- jump and traction of the test function
  have hx : ∀ q < Y.nq, 0 ≤ Y.map t.cur i (e * Y.nq + q) → ∀ a < Y.gdim,
      ∑ k ∈ dofSet L.length Y.nd Y.gdim, (dims Y.static).vJump (facetPhi (Y.kd Y.nq cell f)) c q k.1 k.2.1 k.2.2 a
        * V k.1 k.2.1 k.2.2 = jumpAt Y t.cur i e cell f v q a := by
    intro q hq hl a ha
    refine (vJump_total (dims Y.static) L.length (facetPhi (Y.kd Y.nq cell f)) c q V ha).trans ?_
    unfold jumpAt
    rw [← hopp q hq a ha hl]
    simp only [hV]
    rfl
  have hy : ∀ q, ∀ a < Y.gdim,
      ∑ k ∈ dofSet L.length Y.nd Y.gdim, (dims Y.static).vTrac (facetGrad (Y.kd Y.nq cell f)) c
        (facetNormal (Y.kd Y.nq cell f) q) q k.1 k.2.1 k.2.2 a * V k.1 k.2.1 k.2.2
        = (pointAt Y t i e cell f q).trac (gradAt Y cell f v q) a := by
    intro q a ha
    refine (vTrac_total (dims Y.static) L.length (facetGrad (Y.kd Y.nq cell f)) c _ q V ha).trans ?_
    rw [show c 0 = t.mu i e 0 from R.mu, show c 1 = t.lam i e 0 from R.lam]
    unfold ContactPoint.trac
    simp only [hV]
    rfl
  -- one kernel
  obtain ⟨F, hF1, hF2⟩ : ∃ F : ℕ → ℕ → ℕ → ℕ → ℝ,
      (∀ B ≤ L.length, ∀ k < Y.nd, ∀ n < Y.gdim, p.vecFn (Y.kd Y.nq cell f) c w L.length
        (linkedPoints ((Y.pair t.cur i).row e)) 0 (B, k * Y.gdim + n)
        = ((linkedPoints ((Y.pair t.cur i).row e)).map (fun q => facetWeight (Y.kd Y.nq cell f) q * F q B k n)).sum)
      ∧ ∀ q < Y.nq, 0 ≤ Y.map t.cur i (e * Y.nq + q) →
        ∑ k ∈ dofSet L.length Y.nd Y.gdim, F q k.1 k.2.1 k.2.2 * V k.1 k.2.1 k.2.2
        = formAt p law (pointAt Y t i e cell f q) consts.1 consts.2 (jumpAt Y t.cur i e cell f u q)
          (fun a b => gradAt Y cell f u q a b + (pointAt Y t i e cell f q).grad0 a b)
          (jumpAt Y t.cur i e cell f v q) (gradAt Y cell f v q) := by
    have hfr : ∀ (P : ℕ → ℕ → ℝ), (∀ q < Y.nq, 0 ≤ Y.map t.cur i (e * Y.nq + q) → ∀ a < Y.gdim,
        P q a = (pointAt Y t i e cell f q).projected law (w 0) (jumpAt Y t.cur i e cell f u q)
          (fun a b => gradAt Y cell f u q a b + (pointAt Y t i e cell f q).grad0 a b) a) →
        ∀ q < Y.nq, 0 ≤ Y.map t.cur i (e * Y.nq + q) →
        ∑ k ∈ dofSet L.length Y.nd Y.gdim, (dims Y.static).frictionForm (facetPhi (Y.kd Y.nq cell f))
          (facetGrad (Y.kd Y.nq cell f)) c w (facetNormal (Y.kd Y.nq cell f) q) (P q) q k.1 k.2.1 k.2.2
          * V k.1 k.2.1 k.2.2
        = (pointAt Y t i e cell f q).frictionPart law consts.1 consts.2 (jumpAt Y t.cur i e cell f u q)
          (fun a b => gradAt Y cell f u q a b + (pointAt Y t i e cell f q).grad0 a b)
          (jumpAt Y t.cur i e cell f v q) (gradAt Y cell f v q) := by
      intro P hP q hq hl
      have h1 := (hat q hq hl).frictionAt law w (hx q hq hl) (hy q) (hP q hq hl)
      rw [hw0, hw1] at h1
      refine Eq.trans ?_ h1
      simp only [frictionForm_eq]
      exact (frictionAt_sum (dofSet L.length Y.nd Y.gdim) (dims Y.static) c w (facetNormal (Y.kd Y.nq cell f) q) (P q) q
        (fun k => (dims Y.static).vJump (facetPhi (Y.kd Y.nq cell f)) c q k.1 k.2.1 k.2.2)
        (fun k => (dims Y.static).vTrac (facetGrad (Y.kd Y.nq cell f)) c (facetNormal (Y.kd Y.nq cell f) q) q
          k.1 k.2.1 k.2.2) (fun k => V k.1 k.2.1 k.2.2)).symm
    cases p with
    | normal =>
      refine ⟨fun q => (dims Y.static).normalForm (facetPhi (Y.kd Y.nq cell f)) (facetGrad (Y.kd Y.nq cell f)) c w
        (facetNormal (Y.kd Y.nq cell f) q) q, fun B hB k hk n hn => ?_, fun q hq hl => ?_⟩
      · refine (C78_frictionless (Y.kd Y.nq cell f) haff L.length _ w c rfl 0 B k n hB hk hn).trans ?_
        rw [Pi.zero_apply, zero_add]
        rfl
      · show _ = (pointAt Y t i e cell f q).normalPart ..
        have h1 := (hat q hq hl).normalAt w (hx q hq hl) (hy q)
        rw [hw0, hw1] at h1
        refine Eq.trans ?_ h1
        simp only [normalForm_eq]
        exact (normalAt_sum (dofSet L.length Y.nd Y.gdim) (dims Y.static) c w (facetNormal (Y.kd Y.nq cell f) q) q
          (fun k => (dims Y.static).vJump (facetPhi (Y.kd Y.nq cell f)) c q k.1 k.2.1 k.2.2)
          (fun k => (dims Y.static).vTrac (facetGrad (Y.kd Y.nq cell f)) c (facetNormal (Y.kd Y.nq cell f) q) q
            k.1 k.2.1 k.2.2) (fun k => V k.1 k.2.1 k.2.2)).symm
    | tresca =>
      have hlaw : law = .tresca := by cases law <;> simp [lawPairs] at hp ⊢
      subst hlaw
      refine ⟨fun q => (dims Y.static).frictionForm (facetPhi (Y.kd Y.nq cell f)) (facetGrad (Y.kd Y.nq cell f)) c w
        (facetNormal (Y.kd Y.nq cell f) q) (ball Y.gdim ((dims Y.static).slip c w (facetNormal (Y.kd Y.nq cell f) q) q)
          (c 3 / w 0 * c 2)) q, fun B hB k hk n hn => ?_, fun q hq hl => ?_⟩
      · refine (C78_tresca (Y.kd Y.nq cell f) haff L.length _ w c rfl (h23 (by simp)) 0 B k n hB hk hn).trans ?_
        rw [Pi.zero_apply, zero_add]
        rfl
      · refine hfr (fun q => ball Y.gdim ((dims Y.static).slip c w (facetNormal (Y.kd Y.nq cell f) q) q)
          (c 3 / w 0 * c 2)) (fun q hq hl a ha => ?_) q hq hl
        have H := hat q hq hl
        refine (ball_congr _ (fun a ha => H.slip w ha) ha).trans ?_
        rw [H.h, H.fric]
        rfl
    | coulomb =>
      have hlaw : law = .coulomb := by cases law <;> simp [lawPairs] at hp ⊢
      subst hlaw
      refine ⟨fun q => (dims Y.static).frictionForm (facetPhi (Y.kd Y.nq cell f)) (facetGrad (Y.kd Y.nq cell f)) c w
        (facetNormal (Y.kd Y.nq cell f) q) (ball Y.gdim ((dims Y.static).slipC c w (facetNormal (Y.kd Y.nq cell f) q) q)
          (c 2 * max 0 ((dims Y.static).pressure c w (facetNormal (Y.kd Y.nq cell f) q) q))) q,
          fun B hB k hk n hn => ?_, fun q hq hl => ?_⟩
      · refine (C78_coulomb (Y.kd Y.nq cell f) haff L.length _ w c rfl (h23 (by simp)) 0 B k n hB hk hn).trans ?_
        rw [Pi.zero_apply, zero_add]
        rfl
      · refine hfr (fun q => ball Y.gdim ((dims Y.static).slipC c w (facetNormal (Y.kd Y.nq cell f) q) q)
          (c 2 * max 0 ((dims Y.static).pressure c w (facetNormal (Y.kd Y.nq cell f) q) q)))
          (fun q hq hl a ha => ?_) q hq hl
        have H := hat q hq hl
        refine (ball_congr _ (fun a ha => H.slipC w ha) ha).trans ?_
        have hpr : (dims Y.static).pressure c w (facetNormal (Y.kd Y.nq cell f) q) q = _ := H.pressure w
        rw [hpr, H.fric]
        rfl
  rw [← hw]
  have e1 : ∀ B ∈ range (L.length + 1), ∑ k ∈ range Y.nd, ∑ n ∈ range Y.gdim,
      p.vecFn (Y.kd Y.nq cell f) c w L.length (linkedPoints ((Y.pair t.cur i).row e)) 0 (B, k * Y.gdim + n)
        * v (Y.gdim * Y.space.parent (coupledCell cell L B) k + n)
      = ∑ k ∈ range Y.nd, ∑ n ∈ range Y.gdim, ∑ q ∈ range Y.nq, if 0 ≤ Y.map t.cur i (e * Y.nq + q) then
        facetWeight (Y.kd Y.nq cell f) q * (F q B k n * V B k n) else 0 := by
    intro B hB
    refine sum_congr rfl (fun k hk => sum_congr rfl (fun n hn => ?_))
    rw [hF1 B (by have := mem_range.mp hB; omega) k (mem_range.mp hk) n (mem_range.mp hn), hpts,
      list_filter_sum Y.nq (fun q => 0 ≤ Y.map t.cur i (e * Y.nq + q)), ← hV, sum_mul]
    refine sum_congr rfl (fun q _ => ?_)
    split <;> ring
  rw [sum_congr rfl e1, ← sum_dofSet L.length Y.nd Y.gdim (fun B k n => ∑ q ∈ range Y.nq,
    if 0 ≤ Y.map t.cur i (e * Y.nq + q) then facetWeight (Y.kd Y.nq cell f) q * (F q B k n * V B k n) else 0), sum_comm]
  refine sum_congr rfl (fun q hq => ?_)
  split
  · rename_i hl
    rw [← hF2 q (mem_range.mp hq) hl, mul_sum]
    rfl
  · exact sum_const_zero

end

end Verif.ContactProblem
