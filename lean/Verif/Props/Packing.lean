import Verif.Lemmas.Packing
import Verif.Props.SubMesh
import Mathlib.Tactic.NormNum

/-! Properties C30, C31, C32, C33, C34, C37, C77. -/

namespace Verif.Packing

open Verif.Entities Verif.SubMesh Finset

/-! ### C30 -/

/-- Physical coordinates of quadrature points: `Σ_j φ_j x_j` of the facet's cell, with the
quadrature points of the facet's local index. -/
theorem C30_quadrature_points (G : GeomData) (nq gdim : ℕ) (off : ℕ → ℕ) (phi : ℕ → ℕ → ℝ)
    (facets : List (ℕ × ℕ)) (qp : Arr ℕ) (i q k : ℕ) (hi : i < facets.length) (hq : q < nq)
    (hk : k < gdim) :
    physicalPoints G nq gdim off phi facets qp ((i * nq + q) * gdim + k) =
      ∑ j ∈ range G.nx, phi (off facets[i].2 + q) j * G.x (3 * G.xdof facets[i].1 j + k) := by
  have hp : Puts (physicalPoints G nq gdim off phi facets) (fun m v =>
      ∃ i, i < facets.length ∧ ∃ q, q < nq ∧ ∃ k, k < gdim ∧ m = (i * nq + q) * gdim + k ∧
        v = G.push (facets.getD i (0, 0)).1 (phi (off (facets.getD i (0, 0)).2 + q)) k) :=
    Puts.loop _ (fun i _ => Puts.loop _ (fun q _ => Puts.loop _ (fun k _ => Puts.put _ _)))
  have e : facets.getD i (0, 0) = facets[i] := List.getD_eq_getElem _ _ hi
  rw [hp.value ⟨i, hi, q, hq, k, hk, rfl, rfl⟩, e]
  · rfl
  · rintro w ⟨i', -, q', hq', k', hk', hm, rfl⟩
    rw [radix3_inj hq hk hq' hk'] at hm
    obtain ⟨rfl, rfl, rfl⟩ := hm
    rfl

/-- C30: the packed gap of point `q` of facet `i` is the position of the contact point (in the
deformed candidate cell) minus the position of the quadrature point; zero for points without
link. -/
theorem C30_gap (P : PairData) (G : GeomData) (f2c : ℕ → ℕ) (phi : ℕ → ℕ → ℝ)
    (off : ℕ → ℕ) (phiQ : ℕ → ℕ → ℝ) (facets : List (ℕ × ℕ)) (qp0 : Arr ℕ)
    (hloc : P.numFacets ≤ facets.length) (i q k : ℕ) (hi : i < P.numFacets) (hq : q < P.nq)
    (hk : k < P.gdim) :
    packGap P G f2c phi (physicalPoints G P.nq P.gdim off phiQ facets qp0)
        (i * (P.nq * P.gdim) + q * P.gdim + k) =
      if 0 ≤ P.facets (i * P.nq + q) then
        (∑ j ∈ range G.nx, phi (i * P.nq + q) j *
            G.x (3 * G.xdof (f2c (P.facets (i * P.nq + q)).toNat) j + k)) -
        ∑ j ∈ range G.nx, phiQ (off (facets[i]'(by omega)).2 + q) j *
            G.x (3 * G.xdof (facets[i]'(by omega)).1 j + k)
      else 0 := by
  have hp : ∀ qp : ℕ → ℝ, ∃ f : Arr ℕ → Arr ℕ, packGap P G f2c phi qp = f (fun _ => 0) ∧
      Puts f (fun m v => ∃ i, i < P.numFacets ∧ ∃ q, q < P.nq ∧ ¬ P.facets (i * P.nq + q) < 0 ∧
        ∃ k, k < P.gdim ∧ m = i * (P.nq * P.gdim) + q * P.gdim + k ∧
          v = G.push (f2c (P.facets (i * P.nq + q)).toNat) (phi (i * P.nq + q)) k -
            qp ((i * P.nq + q) * P.gdim + k)) := by
    intro qp
    refine ⟨_, rfl, (Puts.loop _ (fun i _ => Puts.loop _ (fun q _ => Puts.ite _ Puts.id
      (Puts.loop _ (fun k _ => Puts.put _ _))))).congr ?_⟩
    intro m v
    simp
  obtain ⟨f, hf, hput⟩ := hp (physicalPoints G P.nq P.gdim off phiQ facets qp0)
  have hidx : ∀ i q k, i * (P.nq * P.gdim) + q * P.gdim + k = (i * P.nq + q) * P.gdim + k := by
    intro i q k; ring
  rw [hf]
  by_cases h : 0 ≤ P.facets (i * P.nq + q)
  · rw [if_pos h, hput.value ⟨i, hi, q, hq, not_lt.mpr h, k, hk, rfl, rfl⟩,
      C30_quadrature_points G P.nq P.gdim off phiQ facets qp0 i q k (by omega) hq hk]
    · rfl
    · rintro w ⟨i', -, q', hq', -, k', hk', hm, rfl⟩
      rw [hidx, hidx, radix3_inj hq hk hq' hk'] at hm
      obtain ⟨rfl, rfl, rfl⟩ := hm
      rfl
  · rw [if_neg h, hput.frame (a := fun _ => 0)]
    rintro w ⟨i', -, q', hq', hf', k', hk', hm, rfl⟩
    rw [hidx, hidx, radix3_inj hq hk hq' hk'] at hm
    obtain ⟨rfl, rfl, rfl⟩ := hm
    exact hf' (not_le.mp h)

/-- C30: the gap to a plane is in the last component, plane position minus last coordinate; the
other components are zero. -/
theorem C30_gap_plane (nF nq gdim : ℕ) (qp : ℕ → ℝ) (g : ℝ) (i q k : ℕ) (hi : i < nF) (hq : q < nq)
    (hk : k < gdim) :
    packGapPlane nF nq gdim qp g (i * (nq * gdim) + q * gdim + k) =
      if k + 1 = gdim then g - qp ((i * nq + q) * gdim + k) else 0 := by
  have hidx : ∀ i q, i * (nq * gdim) + (q + 1) * gdim - 1 = (i * nq + q) * gdim + (gdim - 1) := by
    intro i q
    have h1 : i * (nq * gdim) + (q + 1) * gdim = (i * nq + q) * gdim + gdim := by ring
    omega
  have hidx' : i * (nq * gdim) + q * gdim + k = (i * nq + q) * gdim + k := by ring
  have hput : Puts (loop nF (fun i => loop nq (fun k (c : Arr ℕ) =>
      c.put (i * (nq * gdim) + (k + 1) * gdim - 1) (g - qp ((i * nq + k) * gdim + (gdim - 1))))))
      (fun m v => ∃ i, i < nF ∧ ∃ q, q < nq ∧ m = i * (nq * gdim) + (q + 1) * gdim - 1 ∧
        v = g - qp ((i * nq + q) * gdim + (gdim - 1))) :=
    Puts.loop _ (fun i _ => Puts.loop _ (fun k _ => Puts.put _ _))
  show loop nF _ (fun _ => 0) _ = _
  by_cases h : k + 1 = gdim
  · rw [if_pos h]
    have hk' : gdim - 1 = k := by omega
    rw [hput.value ⟨i, hi, q, hq, by rw [hidx, hidx', hk'], rfl⟩, hk']
    rintro w ⟨i', -, q', hq', hm, rfl⟩
    rw [hidx, hidx', radix3_inj hq hk hq' (by omega)] at hm
    obtain ⟨rfl, rfl, _⟩ := hm
    rfl
  · rw [if_neg h, hput.frame (a := fun _ => 0)]
    rintro w ⟨i', -, q', hq', hm, rfl⟩
    rw [hidx, hidx', radix3_inj hq hk hq' (by omega)] at hm
    omega

example : packGapPlane 1 2 2 (fun m => m) 5 3 = 2 := by
  have := C30_gap_plane 1 2 2 (fun m => (m : ℝ)) 5 0 1 1 (by decide) (by decide) (by decide)
  norm_num at this
  exact this

/-! ### C31, C32, C33 -/

theorem test_functions_aux (P : PairData) (basis : ℕ → ℕ → ℝ) (hfit : Spec.Fits P) :
    ∃ c, packTest P basis = .ok c ∧
      ∀ i L, i < P.numFacets → Spec.IsLinkList P i L → Spec.LinkedFirst P i →
      ∀ link k q l, link < P.ml → k < P.nd → q < P.nq → l < P.bs →
        (∀ h : link < L.length, Spec.LinkedTo P i q L[link] →
          c (P.testIndex i link k q l) = basis (i * P.nq + q) k) ∧
        ((∀ h : link < L.length, ¬ Spec.LinkedTo P i q L[link]) →
          c (P.testIndex i link k q l) = 0) := by
  obtain ⟨c, hc, hv⟩ := packTest_value P basis hfit
  refine ⟨c, hc, ?_⟩
  intro i L hi hL hfirst link k q l hlink hk hq hl
  obtain ⟨h1, h2⟩ := hv i L hi hL link k l hlink hk hl
  refine ⟨?_, h2 q hq⟩
  intro h hto
  obtain ⟨f, hf, -⟩ := id hto
  obtain ⟨ind, hind, he⟩ := old_of_linked P i q hq (by omega)
  rw [old_prefix P i hfirst ind hind] at he
  subst he
  have := h1 ind hind h (by rw [old_prefix P i hfirst ind hind]; exact hto)
  rwa [old_prefix P i hfirst ind hind] at this

/-- C31 (facets whose linked points come first, e.g. fully linked facets): entry (facet, link, dof,
point) holds the dof's basis function at the contact point of that point if the point is linked to
the `link`-th cell, zero otherwise; the same for every component of the block. What is missing:
facets with an unlinked point before a linked one, see `C31_unlinked_violated`. -/
theorem C31_test_functions_partial (P : PairData) (basis : ℕ → ℕ → ℝ) (hfit : Spec.Fits P) :
    ∃ c, packTest P basis = .ok c ∧
      ∀ i L, i < P.numFacets → Spec.IsLinkList P i L → Spec.LinkedFirst P i →
      ∀ link k q l, link < P.ml → k < P.nd → q < P.nq → l < P.bs →
        (∀ h : link < L.length, Spec.LinkedTo P i q L[link] →
          c (Spec.entry P P.bs i link k q l) = basis (i * P.nq + q) k) ∧
        ((∀ h : link < L.length, ¬ Spec.LinkedTo P i q L[link]) →
          c (Spec.entry P P.bs i link k q l) = 0) :=
  test_functions_aux P basis hfit

theorem test_functions_unlinked (P : PairData) (hfit : Spec.Fits P) (i q0 q link k l : ℕ)
    (L : List ℕ) (hL : Spec.IsLinkList P i L) (hi : i < P.numFacets) (hk : k < P.nd) (hl : l < P.bs)
    (h0 : q0 < q) (hq : q < P.nq) (hun : P.facets (i * P.nq + q0) < 0)
    (h : link < L.length) (hto : Spec.LinkedTo P i q L[link]) :
    ∃ basis c, packTest P basis = .ok c ∧
      c (P.testIndex i link k q l) ≠ basis (i * P.nq + q) k := by
  refine ⟨fun r _ => r, ?_⟩
  obtain ⟨c, hc, hv⟩ := packTest_value P (fun r _ => (r : ℝ)) hfit
  refine ⟨c, hc, ?_⟩
  obtain ⟨f, hf, -⟩ := id hto
  obtain ⟨ind, hind, he⟩ := old_of_linked P i q hq (by omega)
  have hlink : link < P.ml := lt_of_lt_of_le h (hfit i hi L hL)
  have := (hv i L hi hL link k l hlink hk hl).1 ind hind h (by rw [he]; exact hto)
  rw [he] at this
  rw [this]
  intro hcon
  have hcon : i * P.nq + ind = i * P.nq + q := by
    simp only at hcon
    exact_mod_cast hcon
  have hiq : ind = q := by omega
  -- then the filtered list starts with 0, ..., q, so q0 would be linked
  subst hiq
  have hs := positiveToOld_strict (testCells P i)
  have hq0 : q0 < (old P i).length := by omega
  rw [List.getD_eq_getElem _ _ hind] at he
  have hval : (old P i)[q0] = q0 := strict_fixed hs ind hind he (ind - q0) q0 (by omega)
  have hmem : q0 ∈ old P i := hval ▸ List.getElem_mem hq0
  have := ((mem_positiveToOld _ _).mp hmem).2
  rw [testCells_nonneg_iff P i q0 (by omega)] at this
  omega

/-- C31 fails on every facet with an unlinked point before a linked one: for a suitable element the
packed value at the linked point is not the basis function at its contact point. -/
theorem C31_unlinked_violated (P : PairData) (hfit : Spec.Fits P) (i q0 q link k l : ℕ)
    (L : List ℕ) (hL : Spec.IsLinkList P i L) (hi : i < P.numFacets) (hk : k < P.nd) (hl : l < P.bs)
    (h0 : q0 < q) (hq : q < P.nq) (hun : P.facets (i * P.nq + q0) < 0)
    (h : link < L.length) (hto : Spec.LinkedTo P i q L[link]) :
    ∃ basis c, packTest P basis = .ok c ∧
      c (Spec.entry P P.bs i link k q l) ≠ basis (i * P.nq + q) k :=
  test_functions_unlinked P hfit i q0 q link k l L hL hi hk hl h0 hq hun h hto

theorem grad_test_functions_aux (P : PairData) (grad : ℕ → ℕ → ℕ → ℕ → ℝ)
    (hfit : Spec.Fits P) (hinc : Spec.ParentsIncreasing P) :
    ∃ c, packGradTest P grad = .ok c ∧
      ∀ i L, i < P.numFacets → Spec.IsLinkList P i L → Spec.LinkedFirst P i →
      ∀ link k q l, link < P.ml → k < P.nd → q < P.nq → l < P.gdim →
        (∀ h : link < L.length, Spec.LinkedTo P i q L[link] →
          c (P.gradIndex i link k q l) = grad L[link] (i * P.nq + q) k l) ∧
        ((∀ h : link < L.length, ¬ Spec.LinkedTo P i q L[link]) →
          c (P.gradIndex i link k q l) = 0) := by
  obtain ⟨c, hc, hv⟩ := packGradTest_value P grad hfit hinc
  refine ⟨c, hc, ?_⟩
  intro i L hi hL hfirst link k q l hlink hk hq hl
  obtain ⟨h1, h2⟩ := hv i L hi hL link k l hlink hk hl
  constructor
  · intro h hto
    obtain ⟨f, hf, -⟩ := id hto
    obtain ⟨ind, hind, he⟩ := old_of_linked P i q hq (by omega)
    rw [old_prefix P i hfirst ind hind] at he
    subst he
    have := h1 ind hind h (by rw [old_prefix P i hfirst ind hind]; exact hto)
    rwa [old_prefix P i hfirst ind hind, Nat.mul_comm] at this
  · intro hno
    apply h2 q hq
    intro hq' h
    rw [old_prefix P i hfirst q hq']
    exact hno h

theorem gradIndex_entry (P : PairData) (i link k q l : ℕ) :
    P.gradIndex i link k q l = Spec.entry P P.gdim i link k q l := by
  unfold PairData.gradIndex Spec.entry; ring

/-- C32 (facets whose linked points come first): the same for gradients, evaluated in the linked
cell. Missing: facets with an unlinked point before a linked one, see `C32_unlinked_violated`. -/
theorem C32_grad_test_functions_partial (P : PairData) (grad : ℕ → ℕ → ℕ → ℕ → ℝ)
    (hfit : Spec.Fits P) (hinc : Spec.ParentsIncreasing P) :
    ∃ c, packGradTest P grad = .ok c ∧
      ∀ i L, i < P.numFacets → Spec.IsLinkList P i L → Spec.LinkedFirst P i →
      ∀ link k q l, link < P.ml → k < P.nd → q < P.nq → l < P.gdim →
        (∀ h : link < L.length, Spec.LinkedTo P i q L[link] →
          c (Spec.entry P P.gdim i link k q l) = grad L[link] (i * P.nq + q) k l) ∧
        ((∀ h : link < L.length, ¬ Spec.LinkedTo P i q L[link]) →
          c (Spec.entry P P.gdim i link k q l) = 0) :=
  by simp only [← gradIndex_entry]; exact grad_test_functions_aux P grad hfit hinc

theorem grad_test_functions_unlinked (P : PairData) (hfit : Spec.Fits P) (hinc : Spec.ParentsIncreasing P)
    (i q0 q link k l : ℕ)
    (L : List ℕ) (hL : Spec.IsLinkList P i L) (hi : i < P.numFacets) (hk : k < P.nd)
    (hl : l < P.gdim) (h0 : q0 < q) (hq : q < P.nq) (hun : P.facets (i * P.nq + q0) < 0)
    (h : link < L.length) (hto : Spec.LinkedTo P i q L[link]) :
    ∃ grad c, packGradTest P grad = .ok c ∧
      c (P.gradIndex i link k q l) ≠ grad L[link] (i * P.nq + q) k l := by
  refine ⟨fun _ r _ _ => r + 1, ?_⟩
  obtain ⟨c, hc, hv⟩ := packGradTest_value P (fun _ r _ _ => (r : ℝ) + 1) hfit hinc
  refine ⟨c, hc, ?_⟩
  have hlink : link < P.ml := lt_of_lt_of_le h (hfit i hi L hL)
  obtain ⟨h1, h2⟩ := hv i L hi hL link k l hlink hk hl
  have hs := positiveToOld_strict (testCells P i)
  intro hcon
  by_cases hcase : q < (old P i).length ∧ Spec.LinkedTo P i ((old P i).getD q 0) L[link]
  · have e := h1 q hcase.1 h hcase.2
    rw [e] at hcon
    have hcon : P.nq * i + (old P i).getD q 0 = i * P.nq + q := by
      have := add_right_cancel hcon
      exact_mod_cast this
    have he : (old P i).getD q 0 = q := by rw [Nat.mul_comm] at hcon; omega
    rw [List.getD_eq_getElem _ _ hcase.1] at he
    have hq0 : q0 < (old P i).length := by omega
    have hval : (old P i)[q0] = q0 := strict_fixed hs q hcase.1 he (q - q0) q0 (by omega)
    have hmem : q0 ∈ old P i := hval ▸ List.getElem_mem hq0
    have := ((mem_positiveToOld _ _).mp hmem).2
    rw [testCells_nonneg_iff P i q0 (by omega)] at this
    omega
  · have e := h2 q hq (fun a _ b => hcase ⟨a, b⟩)
    rw [e] at hcon
    have : (0 : ℝ) < ((i * P.nq + q : ℕ) : ℝ) + 1 := by positivity
    linarith

/-- C32 fails on every facet with an unlinked point before a linked one: for a suitable element the
packed gradient at the linked point is not the gradient at its contact point. -/
theorem C32_unlinked_violated (P : PairData) (hfit : Spec.Fits P) (hinc : Spec.ParentsIncreasing P)
    (i q0 q link k l : ℕ)
    (L : List ℕ) (hL : Spec.IsLinkList P i L) (hi : i < P.numFacets) (hk : k < P.nd)
    (hl : l < P.gdim) (h0 : q0 < q) (hq : q < P.nq) (hun : P.facets (i * P.nq + q0) < 0)
    (h : link < L.length) (hto : Spec.LinkedTo P i q L[link]) :
    ∃ grad c, packGradTest P grad = .ok c ∧
      c (Spec.entry P P.gdim i link k q l) ≠ grad L[link] (i * P.nq + q) k l :=
  by
  simp only [← gradIndex_entry]
  exact grad_test_functions_unlinked P hfit hinc i q0 q link k l L hL hi hk hl h0 hq hun h hto

theorem link_numbering_aux (P : PairData) (hinc : Spec.ParentsIncreasing P) (i : ℕ) (L : List ℕ)
    (hL : Spec.IsLinkList P i L) :
    linkedCells P.subCell P.parentCells (P.row i) = L ∧
    (∃ s, testSort P i = .ok s ∧ s.unique = L.map (fun c : ℕ => (c : ℤ))) ∧
    (∃ s, gradSort P i = .ok s ∧ (∀ u ∈ s.unique, 0 ≤ u) ∧
      s.unique.map (fun u => P.parentCells u.toNat) = L) := by
  refine ⟨linkList_unique P i (linkList_exists P i) hL, ?_, ?_⟩
  · obtain ⟨s, h1, h2, -⟩ := testSort_spec P i L hL
    exact ⟨s, h1, h2⟩
  · obtain ⟨s, h1, h2, h3, -⟩ := gradSort_spec P i L hL
      (fun q q' f f' hq hq' hf hf' h => hinc i q q' f f' hq hq' hf hf' h)
    exact ⟨s, h1, h2, h3⟩

/-- C33: on every facet, linked or not, link number `k` is the same parent cell for the assemblers
(`compute_linked_cells`), `pack_test_functions` and `pack_grad_test_functions`: the `k`-th entry of
the increasing list of linked parent cells. -/
theorem C33_link_numbering (P : PairData) (hinc : Spec.ParentsIncreasing P) (i : ℕ) (L : List ℕ)
    (hL : Spec.IsLinkList P i L) :
    linkedCells P.subCell P.parentCells ((List.range P.nq).map (fun q => P.facets (i * P.nq + q))) = L ∧
    (∃ s, testSort P i = .ok s ∧ s.unique = L.map (fun c : ℕ => (c : ℤ))) ∧
    (∃ s, gradSort P i = .ok s ∧ (∀ u ∈ s.unique, 0 ≤ u) ∧
      s.unique.map (fun u => P.parentCells u.toNat) = L) :=
  link_numbering_aux P hinc i L hL

/-- Every facet has a link list. -/
theorem C33_link_list_exists (P : PairData) (i : ℕ) : ∃ L, Spec.IsLinkList P i L :=
  ⟨_, linkList_exists P i⟩

/-- One facet, three points: linked to facet 7 (submesh cell 3, parent 30), facet 4 (submesh cell 2,
parent 20), facet 6 (cell 3 again). -/
def exPair : PairData where
  numFacets := 1
  nq := 3
  nd := 2
  bs := 2
  ml := 2
  gdim := 2
  facets := fun r => if r = 0 then 7 else if r = 1 then 4 else 6
  subCell := fun f => f / 2
  parentCells := fun c => 10 * c

theorem exPair_list : Spec.IsLinkList exPair 0 [20, 30] := by
  refine ⟨by decide, ?_⟩
  intro c
  simp only [Spec.LinkedTo, exPair, List.mem_cons, List.not_mem_nil, or_false]
  constructor
  · rintro (rfl | rfl)
    · exact ⟨1, by decide, 4, by decide, by decide⟩
    · exact ⟨0, by decide, 7, by decide, by decide⟩
  · rintro ⟨q, hq, f, hf, rfl⟩
    have : q = 0 ∨ q = 1 ∨ q = 2 := by omega
    rcases this with rfl | rfl | rfl
    · have : f = 7 := by simp at hf; omega
      subst this; decide
    · have : f = 4 := by simp at hf; omega
      subst this; decide
    · have : f = 6 := by simp at hf; omega
      subst this; decide

/-- The hypotheses of C31, C32, C33 hold for `exPair`. -/
example : Spec.Fits exPair ∧ Spec.ParentsIncreasing exPair ∧ Spec.LinkedFirst exPair 0 ∧
    Spec.IsLinkList exPair 0 [20, 30] ∧ Spec.LinkedTo exPair 0 1 20 := by
  refine ⟨?_, ?_, ?_, exPair_list, ⟨4, by decide, by decide⟩⟩
  · intro i hi L hL
    have : i = 0 := by simp only [exPair] at hi; omega
    subst this
    rw [linkList_unique exPair 0 hL exPair_list]
    decide
  · intro i q q' f f' _ _ _ _ h
    simp only [exPair] at *
    omega
  · intro q q' h1 h2 h3
    simp only [exPair]
    split_ifs <;> decide

/-- A facet with an unlinked first point meets the hypotheses of the violation theorems. -/
example : ∃ P : PairData, Spec.Fits P ∧ Spec.ParentsIncreasing P ∧ Spec.IsLinkList P 0 [0] ∧
    P.facets (0 * P.nq + 0) < 0 ∧ Spec.LinkedTo P 0 1 0 ∧ 1 < P.nq ∧ 0 < P.nd ∧ 0 < P.bs ∧
    0 < P.gdim ∧ 0 < P.numFacets := by
  let P : PairData := ⟨1, 2, 1, 1, 1, 1, fun r => if r = 0 then -1 else 0, fun f => f, fun c => c⟩
  have hL : Spec.IsLinkList P 0 [0] := by
    refine ⟨by decide, ?_⟩
    intro c
    simp only [Spec.LinkedTo, P, List.mem_singleton]
    constructor
    · rintro rfl; exact ⟨1, by decide, 0, by decide, rfl⟩
    · rintro ⟨q, hq, f, hf, rfl⟩
      have : q = 0 ∨ q = 1 := by omega
      rcases this with rfl | rfl
      · simp at hf
      · simp at hf; omega
  refine ⟨P, ?_, ?_, hL, by decide, ⟨0, by decide, rfl⟩, by decide, by decide, by decide, by decide,
    by decide⟩
  · intro i hi L hL'
    have : i = 0 := by simp only [P] at hi; omega
    subst this
    rw [linkList_unique P 0 hL' hL]
    decide
  · intro i q q' f f' _ _ _ _ h; exact h

/-! ### C34 -/

theorem loop_sum (n : ℕ) (f : ℕ → ℝ) (a : ℝ) : loop n (fun i s => s + f i) a = a + ∑ i ∈ range n, f i := by
  induction n with
  | zero => simp
  | succ n ih => rw [loop_succ, ih, sum_range_succ, add_assoc]

/-- Euclidean length of the packed gap of point `q` of facet `f`. -/
noncomputable def Spec.gapLength (P : PairData) (gap : ℕ → ℝ) (f q : ℕ) : ℝ :=
  Real.sqrt (∑ i ∈ range P.gdim, gap ((f * P.nq + q) * P.gdim + i) ^ 2)

/-- Absolute cosine of the angle between gap and candidate normal (times the normal's length). -/
noncomputable def Spec.gapCos (P : PairData) (gap ny : ℕ → ℝ) (f q : ℕ) : ℝ :=
  |∑ i ∈ range P.gdim, gap ((f * P.nq + q) * P.gdim + i) * ny ((f * P.nq + q) * P.gdim + i)|
    / Spec.gapLength P gap f q

/-- A link that cropping keeps. -/
def Spec.Keep (P : PairData) (gap ny : ℕ → ℝ) (tol : ℝ) (f q : ℕ) : Prop :=
  Spec.gapLength P gap f q ≤ tol ∧
    (Spec.gapLength P gap f q ≤ 1 / 10 ^ 7 ∨ 7 / 10 ≤ Spec.gapCos P gap ny f q)

open Classical in
theorem crop_value (P : PairData) (gap ny : ℕ → ℝ) (tol : ℝ) (f q : ℕ) (hf : f < P.numFacets)
    (hq : q < P.nq) :
    (Spec.Keep P gap ny tol f q → crop P gap ny tol (f * P.nq + q) = P.facets (f * P.nq + q)) ∧
    (¬ Spec.Keep P gap ny tol f q → crop P gap ny tol (f * P.nq + q) = -1) := by
  have hbody : ∀ f q (data : ℕ → ℤ),
      (let dot := loop P.gdim (fun i s =>
          s + gap (f * P.nq * P.gdim + q * P.gdim + i) * ny (f * P.nq * P.gdim + q * P.gdim + i)) (0 : ℝ)
       let norm := Real.sqrt (loop P.gdim (fun i s =>
          s + gap (f * P.nq * P.gdim + q * P.gdim + i) * gap (f * P.nq * P.gdim + q * P.gdim + i)) 0)
       if norm > tol then Function.update data (f * P.nq + q) (-1)
       else if norm > 1 / 10 ^ 7 then
          if |dot| / norm < 7 / 10 then Function.update data (f * P.nq + q) (-1) else data
        else data) =
      (if ¬ Spec.Keep P gap ny tol f q then Function.update data (f * P.nq + q) (-1) else data) := by
    intro f q data
    have e1 : ∀ i, f * P.nq * P.gdim + q * P.gdim + i = (f * P.nq + q) * P.gdim + i := by
      intro i; ring
    simp only [loop_sum, zero_add, e1]
    have e2 : Real.sqrt (∑ i ∈ range P.gdim, gap ((f * P.nq + q) * P.gdim + i) *
        gap ((f * P.nq + q) * P.gdim + i)) = Spec.gapLength P gap f q := by
      simp only [Spec.gapLength, sq]
    rw [e2]
    have e3 : |∑ i ∈ range P.gdim, gap ((f * P.nq + q) * P.gdim + i) * ny ((f * P.nq + q) * P.gdim + i)|
        / Spec.gapLength P gap f q = Spec.gapCos P gap ny f q := rfl
    rw [e3]
    unfold Spec.Keep
    by_cases h1 : Spec.gapLength P gap f q > tol
    · rw [if_pos h1, if_pos]
      intro h; exact absurd h.1 (not_le.mpr h1)
    · rw [if_neg h1]
      by_cases h2 : Spec.gapLength P gap f q > 1 / 10 ^ 7
      · rw [if_pos h2]
        by_cases h3 : Spec.gapCos P gap ny f q < 7 / 10
        · rw [if_pos h3, if_pos]
          rintro ⟨-, h | h⟩
          · exact absurd h (not_le.mpr h2)
          · exact absurd h (not_le.mpr h3)
        · rw [if_neg h3, if_neg]
          exact fun h => h ⟨not_lt.mp h1, Or.inr (not_lt.mp h3)⟩
      · rw [if_neg h2, if_neg]
        exact fun h => h ⟨not_lt.mp h1, Or.inl (not_lt.mp h2)⟩
  have hput : ∃ F : (ℕ → ℤ) → (ℕ → ℤ), crop P gap ny tol = F P.facets ∧
      Puts F (fun m v => ∃ f, f < P.numFacets ∧ ∃ q, q < P.nq ∧ ¬ Spec.Keep P gap ny tol f q ∧
        m = f * P.nq + q ∧ v = -1) := by
    classical
    refine ⟨loop P.numFacets (fun f => loop P.nq (fun q data =>
      if ¬ Spec.Keep P gap ny tol f q then Function.update data (f * P.nq + q) (-1) else data)), ?_, ?_⟩
    · have e : (fun f q (data : ℕ → ℤ) => if ¬ Spec.Keep P gap ny tol f q then
          Function.update data (f * P.nq + q) (-1) else data) = _ :=
        funext (fun f => funext (fun q => funext (fun data => (hbody f q data).symm)))
      have e2 : crop P gap ny tol = loop P.numFacets (fun f => loop P.nq
          ((fun f q (data : ℕ → ℤ) => if ¬ Spec.Keep P gap ny tol f q then
          Function.update data (f * P.nq + q) (-1) else data) f)) P.facets := by
        rw [e]; rfl
      exact e2
    · refine (Puts.loop _ (fun f _ => Puts.loop _ (fun q _ =>
        Puts.ite _ (Puts.update _ _) Puts.id))).congr ?_
      intro m v
      simp
  obtain ⟨F, hF, hp⟩ := hput
  rw [hF]
  constructor
  · intro hk
    apply hp.frame
    rintro v ⟨f', hf', q', hq', hnk, hm, -⟩
    rw [radix_inj hq hq'] at hm
    obtain ⟨rfl, rfl⟩ := hm
    exact hnk hk
  · intro hk
    apply hp.value ⟨f, hf, q, hq, hk, rfl, rfl⟩
    rintro w ⟨-, -, -, -, -, -, rfl⟩
    rfl

/-- C34: after cropping a point is linked iff it was linked, its gap is not longer than `tol`, and
the gap is either at most 1e-7 long or within the angle limit; surviving links keep their facet. -/
theorem C34_crop (P : PairData) (gap ny : ℕ → ℝ) (tol : ℝ) (f q : ℕ) (hf : f < P.numFacets)
    (hq : q < P.nq) :
    (0 ≤ crop P gap ny tol (f * P.nq + q) ↔
      0 ≤ P.facets (f * P.nq + q) ∧ Spec.gapLength P gap f q ≤ tol ∧
        (Spec.gapLength P gap f q ≤ 1 / 10 ^ 7 ∨ 7 / 10 ≤ Spec.gapCos P gap ny f q)) ∧
    (0 ≤ crop P gap ny tol (f * P.nq + q) →
      crop P gap ny tol (f * P.nq + q) = P.facets (f * P.nq + q)) := by
  obtain ⟨h1, h2⟩ := crop_value P gap ny tol f q hf hq
  by_cases hk : Spec.Keep P gap ny tol f q
  · rw [h1 hk]
    exact ⟨⟨fun h => ⟨h, hk⟩, fun h => h.1⟩, fun _ => rfl⟩
  · rw [h2 hk]
    refine ⟨⟨fun h => absurd h (by decide), fun h => absurd h.2 hk⟩, fun h => absurd h (by decide)⟩

/-- C34: cropping twice is cropping once, on the points of the surface. -/
theorem C34_idempotent (P : PairData) (gap ny : ℕ → ℝ) (tol : ℝ) (f q : ℕ) (hf : f < P.numFacets)
    (hq : q < P.nq) :
    crop { P with facets := crop P gap ny tol } gap ny tol (f * P.nq + q) =
      crop P gap ny tol (f * P.nq + q) := by
  obtain ⟨h1, h2⟩ := crop_value P gap ny tol f q hf hq
  obtain ⟨h3, h4⟩ := crop_value { P with facets := crop P gap ny tol } gap ny tol f q hf hq
  by_cases hk : Spec.Keep P gap ny tol f q
  · rw [h3 hk]
  · rw [h4 hk, h2 hk]

/-- C34: a larger tolerance never removes more. -/
theorem C34_monotone (P : PairData) (gap ny : ℕ → ℝ) (tol tol' : ℝ) (ht : tol ≤ tol') (f q : ℕ)
    (hf : f < P.numFacets) (hq : q < P.nq) (h : 0 ≤ crop P gap ny tol (f * P.nq + q)) :
    0 ≤ crop P gap ny tol' (f * P.nq + q) := by
  rw [(C34_crop P gap ny tol f q hf hq).1] at h
  rw [(C34_crop P gap ny tol' f q hf hq).1]
  exact ⟨h.1, h.2.1.trans ht, h.2.2⟩

/-- A point at distance 5 is cropped with tolerance 1 and kept with tolerance 10. -/
example : crop exPair (fun r => if r = 0 then 3 else if r = 1 then 4 else 0)
      (fun r => if r = 0 then 3 / 5 else if r = 1 then 4 / 5 else 0) 1 (0 * exPair.nq + 0) = -1 ∧
    0 ≤ crop exPair (fun r => if r = 0 then 3 else if r = 1 then 4 else 0)
      (fun r => if r = 0 then 3 / 5 else if r = 1 then 4 / 5 else 0) 10 (0 * exPair.nq + 0) := by
  have hl : Spec.gapLength exPair (fun r => if r = 0 then 3 else if r = 1 then 4 else 0) 0 0 = 5 := by
    simp only [Spec.gapLength, exPair, sum_range_succ, range_zero, sum_empty]
    rw [Real.sqrt_eq_iff_mul_self_eq] <;> norm_num
  have hc : Spec.gapCos exPair (fun r => if r = 0 then 3 else if r = 1 then 4 else 0)
      (fun r => if r = 0 then 3 / 5 else if r = 1 then 4 / 5 else 0) 0 0 = 1 := by
    rw [Spec.gapCos, hl]
    simp only [exPair, sum_range_succ, range_zero, sum_empty]
    norm_num
  constructor
  · apply (crop_value exPair _ _ 1 0 0 (by decide) (by decide)).2
    intro h
    have := h.1
    rw [hl] at this
    norm_num at this
  · rw [(C34_crop exPair _ _ 10 0 0 (by decide) (by decide)).1, hl, hc]
    refine ⟨by decide, by norm_num, Or.inr (by norm_num)⟩

/-! ### C37, C77 -/

theorem packU_value (P : PairData) (f2c : ℕ → ℕ) (dofs : ℕ → ℕ → ℕ) (basis : ℕ → ℕ → ℝ)
    (uSub : ℕ → ℝ) (i q k : ℕ) (hi : i < P.numFacets) (hq : q < P.nq) (hk : k < P.bs) :
    packU P f2c dofs basis uSub (P.nq * P.bs * i + q * P.bs + k) =
      if P.facets (i * P.nq + q) < 0 then 0 else ∑ l ∈ range P.nd,
        uSub (P.bs * dofs (f2c (P.facets (i * P.nq + q)).toNat) l + k) * basis (P.nq * i + q) l := by
  have had := Adds.loop P.numFacets (fun i _ => Adds.loop P.nq (fun q _ =>
    Adds.ite (P.facets (i * P.nq + q) < 0) (Adds.id (ι := ℕ))
      (Adds.loop P.bs (fun k _ => Adds.loop P.nd (fun l _ =>
        Adds.acc (P.nq * P.bs * i + q * P.bs + k)
          (uSub (P.bs * dofs (f2c (P.facets (i * P.nq + q)).toNat) l + k) *
            basis (P.nq * i + q) l))))))
  have e : packU P f2c dofs basis uSub = _ := rfl
  rw [e]
  unfold packU
  dsimp only
  rw [had (fun _ => 0)]
  rw [zero_add]
  have hidx : ∀ i q k, P.nq * P.bs * i + q * P.bs + k = (i * P.nq + q) * P.bs + k := by
    intro i q k; ring
  have := sum3 hi hq hk (fun i q k => if P.facets (i * P.nq + q) < 0 then (0 : ℝ) else
    ∑ l ∈ range P.nd, uSub (P.bs * dofs (f2c (P.facets (i * P.nq + q)).toNat) l + k) *
      basis (P.nq * i + q) l)
  rw [← this]
  refine sum_congr rfl (fun i' _ => sum_congr rfl (fun q' _ => ?_))
  by_cases hf : P.facets (i' * P.nq + q') < 0
  · simp [hf]
  · simp only [if_neg hf, hidx]
    refine sum_congr rfl (fun k' _ => ?_)
    by_cases hm : (i * P.nq + q) * P.bs + k = (i' * P.nq + q') * P.bs + k'
    · simp [hm]
    · simp [hm]

theorem opposite_displacement_aux (P : PairData) (f2c : ℕ → ℕ) (S : Spaces) (basis : ℕ → ℕ → ℝ)
    (u : ℕ → ℝ) (c : Arr ℕ) (hfit : Spec.Fits P) (hc : packTest P basis = .ok c)
    (hf2c : ∀ r (f : ℕ), P.facets r = f → f2c f = P.subCell f)
    (hS : S.nd = P.nd ∧ S.bs = P.bs ∧ S.parentCell = P.parentCells)
    (hcells : ∀ r (f : ℕ), P.facets r = f → P.subCell f < S.numCells)
    (hsh : ∀ c i c' i', c < S.numCells → i < S.nd → c' < S.numCells → i' < S.nd →
      S.sub c i = S.sub c' i' → S.parent (S.parentCell c) i = S.parent (S.parentCell c') i')
    (i q k : ℕ) (L : List ℕ) (hi : i < P.numFacets) (hq : q < P.nq) (hk : k < P.bs)
    (hL : Spec.IsLinkList P i L) (hfirst : Spec.LinkedFirst P i) :
    packU P f2c S.sub basis (copyFunction S u (fun _ => 0)) (P.nq * P.bs * i + q * P.bs + k) =
      if 0 ≤ P.facets (i * P.nq + q) then
        ∑ link ∈ range L.length, ∑ l ∈ range P.nd,
          c (P.testIndex i link l q k) * u (P.bs * S.parent (L.getD link 0) l + k)
      else 0 := by
  obtain ⟨c', hc', hv⟩ := test_functions_aux P basis hfit
  have : c' = c := by rw [hc'] at hc; exact Except.ok.inj hc
  subst this
  rw [packU_value P f2c S.sub basis _ i q k hi hq hk]
  by_cases hf : P.facets (i * P.nq + q) < 0
  · rw [if_pos hf, if_neg (not_le.mpr hf)]
  · rw [if_neg hf, if_pos (not_lt.mp hf)]
    obtain ⟨f, hff⟩ := Int.eq_ofNat_of_zero_le (not_lt.mp hf)
    have hto : Spec.LinkedTo P i q (P.parentCells (P.subCell f)) := ⟨f, hff, rfl⟩
    obtain ⟨link, hlink, hle⟩ := List.getElem_of_mem ((hL.2 _).mpr ⟨q, hq, hto⟩)
    rw [sum_eq_single_of_mem link (mem_range.mpr hlink)]
    · refine sum_congr rfl (fun l hl => ?_)
      have hl' := mem_range.mp hl
      rw [((hv i L hi hL hfirst link l q k (lt_of_lt_of_le hlink (hfit i hi L hL)) hl' hq hk).1
        hlink (by rw [hle]; exact hto)), List.getD_eq_getElem _ _ hlink, hle, hff]
      have h28 := C28_shared_dofs S u (fun _ => 0) hsh (P.subCell f) l k (hcells _ f hff)
        (by rw [hS.1]; exact hl') (by rw [hS.2.1]; exact hk)
      rw [hS.2.1, hS.2.2] at h28
      simp only [Int.ofNat_eq_natCast, Int.toNat_natCast]
      rw [hf2c _ f hff, h28, mul_comm, Nat.mul_comm P.nq i]
    · intro link' hlink' hne
      have hl2 := mem_range.mp hlink'
      refine sum_eq_zero (fun l hl => ?_)
      rw [((hv i L hi hL hfirst link' l q k (lt_of_lt_of_le hl2 (hfit i hi L hL)) (mem_range.mp hl) hq
        hk).2 ?_), zero_mul]
      intro h hto'
      obtain ⟨f', hf', e'⟩ := hto'
      have : f' = f := by rw [hff] at hf'; simpa using hf'.symm
      subst this
      rw [← hle] at e'
      exact hne ((List.Nodup.getElem_inj_iff (List.Pairwise.imp (fun h => Nat.ne_of_lt h) hL.1)).mp
        e'.symm)

/-- C37: on every facet whose linked points come first, the packed displacement of the opposite
surface at a linked point is the sum over links and dofs of the packed test functions times the
dofs of `u` in the linked parent cells; at points without link it is zero.  `S` describes the
displacement space and its copy on the submesh; submesh facets on the surface have one cell. -/
theorem C37_opposite_displacement (P : PairData) (f2c : ℕ → ℕ) (S : Spaces) (basis : ℕ → ℕ → ℝ)
    (u : ℕ → ℝ) (c : Arr ℕ) (hfit : Spec.Fits P) (hc : packTest P basis = .ok c)
    (hf2c : ∀ r (f : ℕ), P.facets r = f → f2c f = P.subCell f)
    (hS : S.nd = P.nd ∧ S.bs = P.bs ∧ S.parentCell = P.parentCells)
    (hcells : ∀ r (f : ℕ), P.facets r = f → P.subCell f < S.numCells)
    (hsh : ∀ c i c' i', c < S.numCells → i < S.nd → c' < S.numCells → i' < S.nd →
      S.sub c i = S.sub c' i' → S.parent (S.parentCell c) i = S.parent (S.parentCell c') i')
    (i q k : ℕ) (L : List ℕ) (hi : i < P.numFacets) (hq : q < P.nq) (hk : k < P.bs)
    (hL : Spec.IsLinkList P i L) (hfirst : Spec.LinkedFirst P i) :
    packU P f2c S.sub basis (copyFunction S u (fun _ => 0)) (P.nq * P.bs * i + q * P.bs + k) =
      if 0 ≤ P.facets (i * P.nq + q) then
        ∑ link ∈ range L.length, ∑ l ∈ range P.nd,
          c (Spec.entry P P.bs i link l q k) * u (P.bs * S.parent (L.getD link 0) l + k)
      else 0 :=
  opposite_displacement_aux P f2c S basis u c hfit hc hf2c hS hcells hsh i q k L hi hq hk hL hfirst

/-- A displacement space on `exPair` meeting the hypotheses of C37. -/
example : ∃ (S : Spaces), (S.nd = exPair.nd ∧ S.bs = exPair.bs ∧ S.parentCell = exPair.parentCells) ∧
    (∀ r (f : ℕ), exPair.facets r = f → exPair.subCell f < S.numCells) ∧
    (∀ c i c' i', c < S.numCells → i < S.nd → c' < S.numCells → i' < S.nd →
      S.sub c i = S.sub c' i' → S.parent (S.parentCell c) i = S.parent (S.parentCell c') i') := by
  refine ⟨⟨4, 2, 2, fun c i => c + i, fun c i => c + 10 * i, exPair.parentCells⟩, ⟨rfl, rfl, rfl⟩, ?_, ?_⟩
  · intro r f h
    simp only [exPair] at h ⊢
    split_ifs at h <;> omega
  · intro c i c' i' _ _ _ _ h
    simp only [exPair] at *
    omega

/-- C77: the packed gradient of the opposite surface at a linked point is, for every component and
direction, the sum over dofs of `u` in the linked parent cell times the gradient of the basis
function at the contact point; zero without link. -/
theorem C77_opposite_gradient (P : PairData) (dofs : ℕ → ℕ → ℕ) (grad : ℕ → ℕ → ℕ → ℕ → ℝ)
    (u : ℕ → ℝ) (i q k j : ℕ) (hi : i < P.numFacets) (hq : q < P.nq) (hk : k < P.bs)
    (hj : j < P.gdim) :
    (∀ c, Spec.LinkedTo P i q c →
      packGradU P dofs grad u (((i * P.nq + q) * P.bs + k) * P.gdim + j) =
        ∑ l ∈ range P.nd, u (P.bs * dofs c l + k) * grad c (i * P.nq + q) l j) ∧
    (P.facets (i * P.nq + q) < 0 →
      packGradU P dofs grad u (((i * P.nq + q) * P.bs + k) * P.gdim + j) = 0) := by
  have had := Adds.loop P.numFacets (fun i _ => Adds.loop P.nq (fun q _ =>
    Adds.ite (P.facets (i * P.nq + q) < 0) (Adds.id (ι := ℕ))
      (Adds.loop P.bs (fun k _ => Adds.loop P.gdim (fun j _ => Adds.loop P.nd (fun l _ =>
        Adds.acc (P.nq * P.bs * P.gdim * i + q * P.bs * P.gdim + k * P.gdim + j)
          (u (P.bs * dofs (P.parentCells (P.subCell (P.facets (i * P.nq + q)).toNat)) l + k) *
            grad (P.parentCells (P.subCell (P.facets (i * P.nq + q)).toNat)) (P.nq * i + q) l j)))))))
  have hval : packGradU P dofs grad u (((i * P.nq + q) * P.bs + k) * P.gdim + j) =
      if P.facets (i * P.nq + q) < 0 then 0 else ∑ l ∈ range P.nd,
        u (P.bs * dofs (P.parentCells (P.subCell (P.facets (i * P.nq + q)).toNat)) l + k) *
          grad (P.parentCells (P.subCell (P.facets (i * P.nq + q)).toNat)) (P.nq * i + q) l j := by
    unfold packGradU
    dsimp only
    rw [had (fun _ => 0)]
    simp only [zero_add]
    have hidx : ∀ i q k j, P.nq * P.bs * P.gdim * i + q * P.bs * P.gdim + k * P.gdim + j =
        ((i * P.nq + q) * P.bs + k) * P.gdim + j := by
      intro i q k j; ring
    rw [sum_eq_single_of_mem i (mem_range.mpr hi), sum_eq_single_of_mem q (mem_range.mpr hq)]
    · by_cases hf : P.facets (i * P.nq + q) < 0
      · simp [hf]
      · simp only [if_neg hf, hidx]
        rw [sum_eq_single_of_mem k (mem_range.mpr hk), sum_eq_single_of_mem j (mem_range.mpr hj)]
        · simp
        · intro j' hj' hne
          refine sum_eq_zero (fun l _ => ?_)
          rw [if_neg]
          rw [radix_inj hj (mem_range.mp hj')]
          intro h; exact hne h.2.symm
        · intro k' hk' hne
          refine sum_eq_zero (fun j' hj' => sum_eq_zero (fun l _ => ?_))
          rw [if_neg]
          rw [radix_inj hj (mem_range.mp hj'), radix3_inj hq hk hq (mem_range.mp hk')]
          intro h; exact hne h.1.2.2.symm
    · intro q' hq' hne
      by_cases hf : P.facets (i * P.nq + q') < 0
      · simp [hf]
      · simp only [if_neg hf, hidx]
        refine sum_eq_zero (fun k' hk' => sum_eq_zero (fun j' hj' => sum_eq_zero (fun l _ => ?_)))
        rw [if_neg]
        rw [radix_inj hj (mem_range.mp hj'), radix3_inj hq hk (mem_range.mp hq') (mem_range.mp hk')]
        intro h; exact hne h.1.2.1.symm
    · intro i' hi' hne
      refine sum_eq_zero (fun q' hq' => ?_)
      by_cases hf : P.facets (i' * P.nq + q') < 0
      · simp [hf]
      · simp only [if_neg hf, hidx]
        refine sum_eq_zero (fun k' hk' => sum_eq_zero (fun j' hj' => sum_eq_zero (fun l _ => ?_)))
        rw [if_neg]
        rw [radix_inj hj (mem_range.mp hj'), radix3_inj hq hk (mem_range.mp hq') (mem_range.mp hk')]
        intro h; exact hne h.1.1.symm
  rw [hval]
  constructor
  · rintro c ⟨f, hf, rfl⟩
    rw [hf, if_neg (by omega), Nat.mul_comm P.nq i]
    simp
  · intro h; rw [if_pos h]

example : Spec.LinkedTo exPair 0 1 20 ∧ 0 < exPair.numFacets ∧ 1 < exPair.nq :=
  ⟨⟨4, by decide, by decide⟩, by decide, by decide⟩

end Verif.Packing
