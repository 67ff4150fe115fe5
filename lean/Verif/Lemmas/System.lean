import Verif.Spec.System
import Verif.Lemmas.ContactProblemKernels
import Verif.Props.Packing
import Verif.Props.Coefficients

/-! Lemmas for C112: the rows of an assembled contact problem. -/

namespace Verif.ContactProblem

open Verif.Spec Verif.Packing Verif.Coefficients Verif.Entities Verif.SubMesh Finset

noncomputable section

variable {G : Type} {Y : System G}

/-- A facet is linked to at most as many cells as it has quadrature points. -/
theorem links_le {P : PairData} {i : ℕ} {L : List ℕ} (hL : Packing.Spec.IsLinkList P i L) : L.length ≤ P.nq := by
  have hnd : L.Nodup := hL.1.imp (fun h => ne_of_lt h)
  have hsub : L.toFinset ⊆ (range P.nq).image (fun q => P.parentCells (P.subCell (P.facets (i * P.nq + q)).toNat)) := by
    intro c hc
    rw [List.mem_toFinset, hL.2] at hc
    obtain ⟨q, hq, f, hf, rfl⟩ := hc
    refine mem_image.mpr ⟨q, mem_range.mpr hq, ?_⟩
    rw [hf]; simp
  rw [← List.toFinset_card_of_nodup hnd]
  exact (card_le_card hsub).trans (card_image_le.trans (by simp))

theorem pair_fits (Y : System G) (g : G) (i : ℕ) : Packing.Spec.Fits (Y.pair g i) :=
  fun _ _ _ hL => links_le hL

theorem entities_flatten (Y : System G) (i : ℕ) : Y.entities i = flatten (Y.facets i) := by
  unfold System.entities
  generalize Y.facets i = l
  induction l with
  | nil => rfl
  | cons p l ih => rw [List.flatMap_cons, ih]; rfl

theorem test_eq (Y : System G) (g : G) (i : ℕ) : ∃ c, packTest (Y.pair g i) (Y.basis g i) = .ok c
    ∧ Y.test g i = toMat (Y.localFacets i) (Y.nq * Y.nq * Y.nd * Y.gdim) c := by
  obtain ⟨c, hc, -⟩ := test_functions_aux (Y.pair g i) (Y.basis g i) (pair_fits Y g i)
  exact ⟨c, hc, by unfold System.test; rw [hc]⟩

theorem func_consistent (hY : System.Valid Y) (u : ℕ → ℝ) : Coefficients.Spec.Consistent (Y.func u) Y.nd :=
  ⟨hY.dim, hY.dim, rfl, Or.inr rfl⟩

theorem entityList (Y : System G) (i : ℕ) :
    Coefficients.Spec.EntityList .exteriorFacet (Y.entities i) (Y.facets i) :=
  Or.inr ⟨rfl, entities_flatten Y i⟩

theorem value_eq (hY : System.Valid Y) (u : ℕ → ℝ) (cell : ℕ) (phi : ℕ → ℕ → ℝ) {a : ℕ} (ha : a < Y.gdim) :
    Coefficients.Spec.value (Y.func u) Y.nd cell phi a
      = ∑ k ∈ range Y.nd, phi k 0 * u (Y.gdim * Y.space.parent cell k + a) := by
  unfold Coefficients.Spec.value
  refine sum_congr rfl (fun k _ => ?_)
  have e1 : (Y.func u).bs = Y.gdim := rfl
  rw [e1, Nat.div_eq_of_lt ha, Nat.mod_eq_of_lt ha]
  congr 1
  exact dof_eq (Y.func u) cell k a ha

theorem packVal_eq (hY : System.Valid Y) (u : ℕ → ℝ) (i : ℕ) :
    (Y.packVal u i).rows = (Y.facets i).length ∧ (Y.packVal u i).cols = Y.nq * Y.gdim
    ∧ ∀ e, (he : e < (Y.facets i).length) → ∀ q < Y.nq, ∀ a < Y.gdim, (Y.packVal u i).v e (q * Y.gdim + a)
      = ∑ k ∈ range Y.nd, Y.phi (Y.off (Y.facets i)[e].2 + q) k
        * u (Y.gdim * Y.space.parent (Y.facets i)[e].1 k + a) := by
  obtain ⟨c, hc, hv⟩ := C35_values (Y.func u) Y.nd (func_consistent hY u) .exteriorFacet (Y.entities i) (Y.facets i)
    (entityList Y i) Y.nq Y.off (fun r a _ => Y.phi r a) false Y.affine (fun _ _ U => U) (by simp) (by simp)
  have e : Y.packVal u i = toMat (Y.facets i).length ((Y.func u).bs * (Y.func u).vs * Y.nq) c := by
    unfold System.packVal; rw [hc]
  have e0 : (Y.func u).bs * (Y.func u).vs = Y.gdim := Nat.mul_one _
  rw [e, e0]
  refine ⟨rfl, Nat.mul_comm .., fun k hk q hq a ha => ?_⟩
  have h := hv k hk q hq a (by rw [e0]; exact ha)
  rw [e0] at h
  show c (k * (Y.gdim * Y.nq) + (q * Y.gdim + a)) = _
  rw [show k * (Y.gdim * Y.nq) + (q * Y.gdim + a) = Y.gdim * Y.nq * k + Y.gdim * q + a by ring, h]
  simp only [Bool.false_eq_true, if_false]
  exact value_eq hY u _ _ ha

theorem packGrad_eq (hY : System.Valid Y) (u : ℕ → ℝ) (i : ℕ) :
    (Y.packGrad u i).rows = (Y.facets i).length ∧ (Y.packGrad u i).cols = Y.nq * Y.gdim * Y.gdim
    ∧ ∀ e, (he : e < (Y.facets i).length) → ∀ q < Y.nq, ∀ a < Y.gdim, ∀ b < Y.gdim,
      (Y.packGrad u i).v e ((q * Y.gdim + a) * Y.gdim + b)
      = ∑ k ∈ range Y.nd, (∑ j ∈ range Y.tdim,
          Y.inv (Y.geo.jac (Y.facets i)[e].1 (Y.cphi (Y.off (Y.facets i)[e].2 + q))) j b
            * Y.dphi j (Y.off (Y.facets i)[e].2 + q) k)
        * u (Y.gdim * Y.space.parent (Y.facets i)[e].1 k + a) := by
  obtain ⟨c, hc, hv⟩ := packGradient_spec (Y.func u) Y.nd (func_consistent hY u) .exteriorFacet (Y.entities i)
    (Y.facets i) (entityList Y i) Y.nq Y.tdim Y.gdim Y.off (fun k r a _ => Y.dphi (k - 1) r a) Y.affine Y.geo Y.cphi
    Y.inv hY.affine
  have e : Y.packGrad u i = toMat (Y.facets i).length ((Y.func u).bs * (Y.func u).vs * Y.nq * Y.gdim) c := by
    unfold System.packGrad; rw [hc]
  have e0 : (Y.func u).bs * (Y.func u).vs = Y.gdim := Nat.mul_one _
  rw [e, e0]
  refine ⟨rfl, by show Y.gdim * Y.nq * Y.gdim = _; ring, fun k hk q hq a ha b hb => ?_⟩
  have h := hv k hk q hq a (by rw [e0]; exact ha) b hb
  rw [e0] at h
  show c (k * (Y.gdim * Y.nq * Y.gdim) + ((q * Y.gdim + a) * Y.gdim + b)) = _
  rw [show k * (Y.gdim * Y.nq * Y.gdim) + ((q * Y.gdim + a) * Y.gdim + b)
    = ((k * Y.nq + q) * Y.gdim + a) * Y.gdim + b by ring, h]
  simp only [value_eq hY u _ _ ha, Nat.add_sub_cancel, mul_sum, sum_mul]
  rw [sum_comm]
  exact sum_congr rfl (fun m _ => sum_congr rfl (fun j _ => by ring))

theorem static_shaped (hY : System.Valid Y) : Static.Shaped Y.static where
  pairs := hY.pairs
  dim := hY.dim
  points := hY.points
  block := rfl
  loc := hY.loc
  gap := hY.gap
  nx := hY.nx
  ny := hY.ny
  test := fun g i _ => by
    obtain ⟨c, -, e⟩ := test_eq Y g i
    show (Y.test g i).rows = _ ∧ (Y.test g i).cols = _
    rw [e]
    exact ⟨rfl, rfl⟩

theorem du_shaped (hY : System.Valid Y) (u : ℕ → ℝ) : DuShaped Y.static (Y.du u) where
  val := fun i _ => ⟨(packVal_eq hY u i).1, (packVal_eq hY u i).2.1⟩
  grad := fun i _ => ⟨(packGrad_eq hY u i).1, (packGrad_eq hY u i).2.1⟩
  opp := fun _ _ _ => ⟨rfl, rfl⟩

/-- The packed test functions of a facet. -/
theorem test_entry (Y : System G) (g : G) (i e link k q l : ℕ) (c : Arr ℕ)
    (h : Y.test g i = toMat (Y.localFacets i) (Y.nq * Y.nq * Y.nd * Y.gdim) c) :
    (Y.test g i).v e (((link * Y.nd + k) * Y.nq + q) * Y.gdim + l)
      = c (Packing.Spec.entry (Y.pair g i) Y.gdim e link k q l) := by
  rw [h]
  show c _ = c _
  congr 1
  show e * (Y.nq * Y.nq * Y.nd * Y.gdim) + (((link * Y.nd + k) * Y.nq + q) * Y.gdim + l)
    = (((e * Y.nq + link) * Y.nd + k) * Y.nq + q) * Y.gdim + l
  ring

theorem packOpp_eq (hY : System.Valid Y) (u : ℕ → ℝ) (g : G) (i e q a : ℕ) (L : List ℕ) (he : e < Y.localFacets i)
    (hq : q < Y.nq) (ha : a < Y.gdim) (hL : Packing.Spec.IsLinkList (Y.pair g i) e L)
    (hfirst : Packing.Spec.LinkedFirst (Y.pair g i) e) :
    (Y.packOpp u g i).v e (q * Y.gdim + a)
      = ∑ k ∈ range L.length, ∑ m ∈ range Y.nd,
        (Y.test g i).v e (((k * Y.nd + m) * Y.nq + q) * Y.gdim + a)
          * u (Y.gdim * Y.space.parent (L.getD k 0) m + a) := by
  obtain ⟨c, hc, ht⟩ := test_eq Y g i
  have h := C37_opposite_displacement (Y.pair g i) Y.subCell Y.space (Y.basis g i) u c (pair_fits Y g i) hc
    (fun _ _ _ => rfl) ⟨hY.space.1, hY.space.2, rfl⟩ (fun r f hf => hY.cells g i r f hf)
    (by intro c i c' i' h1 h2 h3 h4; rw [hY.space.1] at h2 h4; exact hY.shared c i c' i' h1 h2 h3 h4)
    e q a L he hq ha hL hfirst
  obtain ⟨c', hc', hv⟩ := C31_test_functions_partial (Y.pair g i) (Y.basis g i) (pair_fits Y g i)
  have : c' = c := by rw [hc'] at hc; exact Except.ok.inj hc
  subst this
  have e1 : (Y.packOpp u g i).v e (q * Y.gdim + a)
      = packU (Y.pair g i) Y.subCell Y.space.sub (Y.basis g i) (copyFunction Y.space u (fun _ => 0))
        ((Y.pair g i).nq * (Y.pair g i).bs * e + q * (Y.pair g i).bs + a) := by
    show packU _ _ _ _ _ (e * (Y.nq * Y.gdim) + (q * Y.gdim + a)) = packU _ _ _ _ _ (Y.nq * Y.gdim * e + q * Y.gdim + a)
    congr 1; ring
  rw [e1, h]
  split
  · refine sum_congr rfl (fun k _ => sum_congr rfl (fun m _ => ?_))
    rw [test_entry Y g i e k m q a c' ht]
    rfl
  · rename_i hneg
    symm
    refine sum_eq_zero (fun k hk => sum_eq_zero (fun m hm => ?_))
    have hk' := mem_range.mp hk
    have h0 : c' (Packing.Spec.entry (Y.pair g i) Y.gdim e k m q a) = 0 := by
      refine (hv e L he hL hfirst k m q a (lt_of_lt_of_le hk' (links_le hL)) (mem_range.mp hm) hq ha).2 ?_
      rintro _ ⟨f, hf, -⟩
      apply hneg
      rw [hf]; exact Int.natCast_nonneg _
    rw [test_entry Y g i e k m q a c' ht, h0, zero_mul]

/-- At every point of a facet at most one linked cell has test functions. -/
theorem test_one (Y : System G) (g : G) (i e q : ℕ) (L : List ℕ) (he : e < Y.localFacets i)
    (hq : q < Y.nq) (hL : Packing.Spec.IsLinkList (Y.pair g i) e L)
    (hfirst : Packing.Spec.LinkedFirst (Y.pair g i) e) :
    ∃ k0, ∀ k m n, k < L.length → k ≠ k0 → m < Y.nd → n < Y.gdim →
      (Y.test g i).v e (((k * Y.nd + m) * Y.nq + q) * Y.gdim + n) = 0 := by
  obtain ⟨c, hc, ht⟩ := test_eq Y g i
  obtain ⟨c', hc', hv⟩ := C31_test_functions_partial (Y.pair g i) (Y.basis g i) (pair_fits Y g i)
  have : c' = c := by rw [hc'] at hc; exact Except.ok.inj hc
  subst this
  refine ⟨L.idxOf ((Y.pair g i).parentCells ((Y.pair g i).subCell
    ((Y.pair g i).facets (e * (Y.pair g i).nq + q)).toNat)), fun k m n hk hne hm hn => ?_⟩
  rw [test_entry Y g i e k m q n c' ht]
  refine (hv e L he hL hfirst k m q n (lt_of_lt_of_le hk (links_le hL)) hm hq hn).2 ?_
  rintro h ⟨f, hf, hc⟩
  apply hne
  rw [hf, Int.toNat_natCast, hc]
  exact (List.Nodup.idxOf_getElem (hL.1.imp (fun h => ne_of_lt h)) k hk).symm

theorem sA_le (S : Static G) {q a : ℕ} (hq : q < S.nq) (ha : a < S.gdim) : q * S.gdim + a < S.nq * S.gdim := by
  calc q * S.gdim + a < q * S.gdim + S.gdim := by omega
    _ = (q + 1) * S.gdim := by ring
    _ ≤ S.nq * S.gdim := Nat.mul_le_mul_right _ hq

/-- Dofs of the coupled cells, by component. -/
theorem coupledDofs_eq {g : ℕ} (dofs : ℕ → ℕ → ℕ) (cell : ℕ) (L : List ℕ) (u : ℕ → ℝ) (B k : ℕ) {a : ℕ}
    (ha : a < g) :
    coupledDofs g dofs cell L u B (k * g + a) = u (g * dofs (coupledCell cell L B) k + a) := by
  unfold coupledDofs
  have h0 : 0 < g := by omega
  rw [Nat.mul_comm k, Nat.mul_add_div h0, Nat.div_eq_of_lt ha, Nat.add_zero, Nat.mul_add_mod, Nat.mod_eq_of_lt ha]

/-- `update_contact_data` stores the displacement. -/
theorem carries_row (hY : System.Valid Y) {t : Tracked G} {s : State G} (H : Good Y.static t s)
    (hc : t.created = true) (u : ℕ → ℝ) :
    ∃ cs cs', s.coeffs = some cs ∧ updateContactData Y.static (Y.du u) s = .ok { s with coeffs := some cs' }
      ∧ ∀ i < Y.numPairs, (cs' i).rows = (cs i).rows ∧ (cs' i).cols = (cs i).cols
        ∧ (cs i).cols = coefficientsSize false Y.nq Y.gdim Y.nd Y.gdim Y.nq
        ∧ ∀ e, (he : e < Y.localFacets i) → SameData (dims Y.static) ((cs' i).v e) ((cs i).v e)
        ∧ ∀ L, Packing.Spec.IsLinkList (Y.pair s.geom i) e L → Packing.Spec.LinkedFirst (Y.pair s.geom i) e →
          (∀ q < Y.nq, OneLink (dims Y.static) L.length ((cs' i).v e) q) ∧
          ∀ (he' : e < (Y.facets i).length),
          Carries (dims Y.static) L.length
            (Kernels.facetPhi (Y.kd Y.nq (Y.facets i)[e].1 (Y.facets i)[e].2))
            (Kernels.facetGrad (Y.kd Y.nq (Y.facets i)[e].1 (Y.facets i)[e].2))
            (fun q a b => (s.gradU i).v e ((q * Y.gdim + a) * Y.gdim + b)) ((cs' i).v e)
            (coupledDofs Y.gdim Y.space.parent (Y.facets i)[e].1 L u) := by
  have hS := static_shaped hY
  have hdu := du_shaped hY u
  obtain ⟨cs, nQ, hs, hn, hp⟩ := H.full hc
  obtain ⟨s', hu, H'⟩ := good_updateData hS hdu H hc
  have hu' := updateData_eq hS hdu hs hn H.ml (fun i hi => (hp i hi).nq) (fun i hi => (hp i hi).gradShape)
    (fun i hi => (hp i hi).shape)
  refine ⟨cs, _, hs, hu', fun i hi => ?_⟩
  have hi' : i < Y.static.numPairs := hi
  simp only [if_pos hi']
  have P := hp i hi
  refine ⟨rfl, rfl, by rw [P.shape.2]; exact (size_eq hS).symm, fun e he => ?_⟩
  have hl := hY.loc i hi
  have o4 : (dims Y.static).oU = 4 + 2 * sA Y.static + sT Y.static := by
    simp only [dims, Dims.oU, Dims.oTest, sA, sT]
  have o7 : (dims Y.static).oOld = 4 + 4 * sA Y.static + sT Y.static + sB Y.static := by
    simp only [dims, Dims.oOld, Dims.oOpp, Dims.oGrad, Dims.oU, Dims.oTest, sA, sT, sB]
    ring
  have same : SameData (dims Y.static) ((duF Y.static (Y.du u) s i (cs i)).v e) ((cs i).v e) := by
    intro m hm
    rw [o4, o7] at hm
    unfold duF
    rw [put_out (by omega), put_out (by omega), put_out (by omega)]
  have R' : RowHolds Y.static (t.setDu (Y.du u)) i e ((duF Y.static (Y.du u) s i (cs i)).v e) := by
    obtain ⟨cs2, nQ2, h2, -, p2⟩ := H'.full hc
    have e1 := hu.symm.trans hu'
    have e2 : s' = _ := Except.ok.inj e1
    rw [e2] at h2
    have e3 : _ = cs2 := Option.some.inj h2
    have := ((p2 i hi).row e he).holds
    rw [← e3] at this
    simpa only [if_pos hi'] using this
  refine ⟨same, fun L hL hfirst => ⟨fun q hq => ?_, fun he' => ?_⟩⟩
  · obtain ⟨k0, h0⟩ := test_one Y s.geom i e q L he hq hL hfirst
    refine ⟨k0, fun k m n hk hne (hm : m < Y.nd) (hn : n < Y.gdim) => ?_⟩
    have := h0 k m n hk hne hm hn
    rw [← this]
    unfold Dims.test
    rw [Nat.add_assoc, H.geom]
    refine R'.test _ ?_
    have hk' : k < Y.nq := lt_of_lt_of_le hk (links_le hL)
    show ((k * Y.nd + m) * Y.nq + q) * Y.gdim + n < Y.nq * Y.nd * Y.nq * Y.gdim
    have a1 : k * Y.nd + m < Y.nq * Y.nd := by nlinarith
    have a2 : (k * Y.nd + m) * Y.nq + q < Y.nq * Y.nd * Y.nq := by nlinarith
    nlinarith
  · obtain ⟨-, -, v⟩ := packVal_eq hY u i
    obtain ⟨-, -, g⟩ := packGrad_eq hY u i
    constructor
    · intro q a (hq : q < Y.nq) (ha : a < Y.gdim)
      rw [Nat.add_assoc, show (dims Y.static).g = Y.gdim from rfl, show (dims Y.static).nd = Y.nd from rfl,
        R'.u (q * Y.gdim + a) (sA_le Y.static hq ha)]
      show (Y.packVal u i).v e (q * Y.gdim + a) = _
      rw [v e he' q hq a ha]
      exact sum_congr rfl (fun k _ => by rw [coupledDofs_eq _ _ _ _ _ _ ha]; rfl)
    · intro q a b (hq : q < Y.nq) (ha : a < Y.gdim) (hb : b < Y.gdim)
      have hlt : (q * Y.gdim + a) * Y.gdim + b < Y.nq * Y.gdim * Y.gdim := by
        have a1 : q * Y.gdim + a < Y.nq * Y.gdim := sA_le Y.static hq ha
        have hb' : b < Y.gdim := hb
        nlinarith
      rw [Nat.add_assoc, show (dims Y.static).g = Y.gdim from rfl, R'.grad _ hlt]
      show (Y.packGrad u i).v e ((q * Y.gdim + a) * Y.gdim + b) + t.gradU i e _ = _
      rw [g e he' q hq a ha b hb, P.grad e (show e < (Y.facets i).length from he') _ hlt]
      congr 1
      exact sum_congr rfl (fun k _ => by rw [coupledDofs_eq _ _ _ _ _ _ ha]; rfl)
    · intro q a (hq : q < Y.nq) (ha : a < Y.gdim)
      rw [Nat.add_assoc, show (dims Y.static).g = Y.gdim from rfl, show (dims Y.static).nd = Y.nd from rfl,
        R'.opp (q * Y.gdim + a) (sA_le Y.static hq ha)]
      show (Y.packOpp u t.cur i).v e (q * Y.gdim + a) = _
      rw [H.geom] at hL hfirst
      rw [packOpp_eq hY u t.cur i e q a L he hq ha hL hfirst]
      refine sum_congr rfl (fun k hk => sum_congr rfl (fun m hm => ?_))
      have hk' : k < Y.nq := lt_of_lt_of_le (mem_range.mp hk) (links_le hL)
      have hm' : m < Y.nd := mem_range.mp hm
      rw [coupledDofs_eq _ _ _ _ _ _ ha]
      congr 1
      unfold Dims.test
      rw [Nat.add_assoc]
      refine (R'.test _ ?_).symm
      have ha' : a < Y.gdim := ha
      have hq' : q < Y.nq := hq
      show ((k * Y.nd + m) * Y.nq + q) * Y.gdim + a < Y.nq * Y.nd * Y.nq * Y.gdim
      have a1 : k * Y.nd + m < Y.nq * Y.nd := by nlinarith
      have a2 : (k * Y.nd + m) * Y.nq + q < Y.nq * Y.nd * Y.nq := by nlinarith
      nlinarith

/-- Every stored kernel has room for one link per quadrature point. -/
theorem kernels_ml {S : Static G} (hS : Static.Shaped S) (ops : List (Op G)) (hops : ∀ op ∈ ops, OpShaped S op)
    {t : Tracked G} {s : State G} (H : Good S t s) (h : ∀ k ∈ s.matKernels, k.2 = S.nq) :
    ∀ k ∈ (history S ops s).matKernels, k.2 = S.nq := by
  induction ops generalizing t s with
  | nil => exact h
  | cons op ops ih =>
    refine ih (fun o ho => hops o (List.mem_cons_of_mem _ ho)) (good_call hS (hops op (List.mem_cons_self ..)) H) ?_
    cases op with
    | generate a =>
      have hk := kc_generate S a s
      simp only [kc, Prod.mk.injEq] at hk
      show ∀ k ∈ (after (generate S a s)).matKernels, _
      rw [hk.2.1, maxLinks_eq hS.pairs H.ml]
      intro k hk
      unfold kernels at hk
      cases ha : a.law <;> rw [ha] at hk <;> simp at hk
      · rw [hk]
      · rcases hk with hk | hk <;> rw [hk]
      · rcases hk with hk | hk <;> rw [hk]
    | updateData du =>
      have hk := kc_updateData S du s
      simp only [kc, Prod.mk.injEq] at hk
      show ∀ k ∈ (after (updateContactData S du s)).matKernels, _
      rw [hk.2.1]; exact h
    | updateDetection move gu =>
      have hk := kc_updateDetection S move gu s
      simp only [kc, Prod.mk.injEq] at hk
      show ∀ k ∈ (after (updateDetection S move gu s)).matKernels, _
      rw [hk.2.1]; exact h
    | updateNitsche gamma theta =>
      show ∀ k ∈ (after (updateNitsche gamma theta s)).matKernels, _
      unfold updateNitsche
      split <;> exact h

end

end Verif.ContactProblem
