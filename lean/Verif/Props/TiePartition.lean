import Verif.Spec.TiePartition
import Verif.Props.TieSystem
import Verif.Props.Partition

/-!
Property C148: the vector and the matrix for tied bodies, distributed over several processes.
-/

namespace Verif.TieData

open Verif.Spec Verif.Packing Verif.Assembly Verif.Entities Verif.Kernels Finset
open Verif.ContactProblem (globalDof_dof)

noncomputable section

/-! ### which points are tied -/

section

variable {M Z : TieMesh} {facet : ℕ → ℕ → ℕ} {cell dof : ℕ → ℕ}

theorem part_gap (H : TiePartOf M Z facet cell) {i e q : ℕ} (hi : i < Z.numPairs) (he : e < M.localFacets i) (hq : q < Z.nq) :
    gapNorm M i e q = gapNorm Z i (facet i e) q := by
  obtain ⟨h1, h2, h3, h4⟩ := H.sizes
  unfold gapNorm
  rw [h2, h3]
  congr 1
  exact sum_congr rfl (fun a ha => by rw [(H.gap i hi e he q hq a (mem_range.mp ha)).1])

/-- On its own facets a process ties the points a single process ties, if their gaps are not longer than the largest of
its own cells. -/
theorem part_tied_iff (H : TiePartOf M Z facet cell) {i e q : ℕ} (hi : i < Z.numPairs) (he : e < M.localFacets i) (hq : q < Z.nq)
    (hf : ∀ e < M.localFacets i, facet i e < Z.localFacets i) :
    Tied M i e q ↔ Tied Z i (facet i e) q ∧ ∃ e' < M.localFacets i, gapNorm M i e q ≤ M.h i e' := by
  obtain ⟨h1, h2, h3, h4⟩ := H.sizes
  have hang : ∑ a ∈ range M.gdim, M.gap i ((e * M.nq + q) * M.gdim + a) * M.ny i ((e * M.nq + q) * M.gdim + a)
      = ∑ a ∈ range Z.gdim, Z.gap i ((facet i e * Z.nq + q) * Z.gdim + a) * Z.ny i ((facet i e * Z.nq + q) * Z.gdim + a) := by
    rw [h2, h3]
    refine sum_congr rfl (fun a ha => ?_)
    rw [(H.gap i hi e he q hq a (mem_range.mp ha)).1, (H.gap i hi e he q hq a (mem_range.mp ha)).2]
  unfold Tied
  rw [hang, part_gap H hi he hq]
  constructor
  · rintro ⟨⟨e', he', h⟩, h'⟩
    exact ⟨⟨⟨facet i e', hf e' he', by rw [← H.size i hi e' he']; exact h⟩, h'⟩, e', he', h⟩
  · rintro ⟨⟨-, h'⟩, h⟩
    exact ⟨h, h'⟩

end

/-- C148: distributing the mesh never ties more points, and a process ties the same points of its facets as a single
process if no gap is longer than the largest of the cells at its own facets. -/
theorem C148_tied {M Z : TieMesh} {facet : ℕ → ℕ → ℕ} {cell : ℕ → ℕ} (H : TiePartOf M Z facet cell)
    (hf : ∀ i < Z.numPairs, ∀ e < M.localFacets i, facet i e < Z.localFacets i) :
    (∀ i < Z.numPairs, ∀ e < M.localFacets i, ∀ q < Z.nq, Tied M i e q → Tied Z i (facet i e) q)
    ∧ ((∀ i < Z.numPairs, ∀ e < M.localFacets i, ∀ q < Z.nq, ∃ e' < M.localFacets i, gapNorm M i e q ≤ M.h i e') →
      SameTies M Z facet) := by
  refine ⟨fun i hi e he q hq h => ((part_tied_iff H hi he hq (hf i hi)).mp h).1, fun hg i hi e he q hq => ?_⟩
  rw [part_tied_iff H hi he hq (hf i hi)]
  exact and_iff_left (hg i hi e he q hq)

/-! ### functions on a part -/

section

variable {M Z : TieMesh} {E F : TieElement} {facet : ℕ → ℕ → ℕ} {cell dof : ℕ → ℕ}

theorem part_weight (H : TiePartOf M Z facet cell) {c : ℕ} (hc : TieCell M c) (f q : ℕ) :
    tieWeight M c f q = tieWeight Z (cell c) f q := by
  obtain ⟨e1, e2, e3, e4, e5⟩ := H.library
  simp only [tieWeight, H.geometry c hc, e1, e2, e5]

theorem part_outward (H : TiePartOf M Z facet cell) {c : ℕ} (hc : TieCell M c) (f q a : ℕ) :
    tieOutward M c f q a = tieOutward Z (cell c) f q a := by
  obtain ⟨h1, h2, h3, h4⟩ := H.sizes
  obtain ⟨e1, e2, e3, e4, e5⟩ := H.library
  simp only [tieOutward, H.geometry c hc, h3, h4, e1, e3, e4]

theorem part_value (H : TiePartOf M Z facet cell) (HE : ElementPartOf M Z E F facet cell dof) {c : ℕ} (hc : TieCell M c)
    (f : ℕ) (u : ℕ → ℝ) (q : ℕ) {a : ℕ} (ha : a < F.bs) :
    tieValue M E c f (fun d => u (globalDof F.bs dof d)) q a = tieValue Z F (cell c) f u q a := by
  obtain ⟨e1, e2, e3, e4, e5⟩ := H.library
  obtain ⟨d1, d2, d3, d4, d5⟩ := HE.element
  unfold tieValue
  rw [d1, d2, d3, e1]
  refine sum_congr rfl (fun k hk => ?_)
  dsimp only
  rw [globalDof_dof dof _ ha, HE.dofs c hc k (mem_range.mp hk)]

theorem part_grad (H : TiePartOf M Z facet cell) (HE : ElementPartOf M Z E F facet cell dof) {c : ℕ} (hc : TieCell M c)
    (f : ℕ) (u : ℕ → ℝ) (q : ℕ) {a : ℕ} (ha : a < F.bs) (b : ℕ) :
    tieGrad M E c f (fun d => u (globalDof F.bs dof d)) q a b = tieGrad Z F (cell c) f u q a b := by
  obtain ⟨h1, h2, h3, h4⟩ := H.sizes
  obtain ⟨e1, e2, e3, e4, e5⟩ := H.library
  obtain ⟨d1, d2, d3, d4, d5⟩ := HE.element
  unfold tieGrad
  rw [d1, d2, d4, e1, e4, h4, H.geometry c hc]
  refine sum_congr rfl (fun k hk => ?_)
  dsimp only
  rw [globalDof_dof dof _ ha, HE.dofs c hc k (mem_range.mp hk)]

theorem part_opposite (H : TiePartOf M Z facet cell) (HE : ElementPartOf M Z E F facet cell dof) {i e q : ℕ}
    (hi : i < Z.numPairs) (he : e < M.localFacets i) (hq : q < Z.nq) (u : ℕ → ℝ) {a : ℕ} (ha : a < F.bs) :
    tieOpposite M E i e (fun d => u (globalDof F.bs dof d)) q a = tieOpposite Z F i (facet i e) u q a := by
  obtain ⟨h1, h2, h3, h4⟩ := H.sizes
  obtain ⟨d1, d2, d3, d4, d5⟩ := HE.element
  have hc : TieCell M (oppositeCell M i e q) := ⟨i, by omega, e, he, Or.inr ⟨q, by omega, rfl⟩⟩
  unfold tieOpposite
  rw [d1, d2, h2]
  refine sum_congr rfl (fun k hk => ?_)
  dsimp only
  rw [globalDof_dof dof _ ha, HE.dofs _ hc k (mem_range.mp hk), H.opposite i hi e he q hq,
    (HE.basis i hi e he q hq k (mem_range.mp hk)).1]

theorem part_oppositeGrad (H : TiePartOf M Z facet cell) (HE : ElementPartOf M Z E F facet cell dof) {i e q : ℕ}
    (hi : i < Z.numPairs) (he : e < M.localFacets i) (hq : q < Z.nq) (u : ℕ → ℝ) {a b : ℕ} (ha : a < F.bs) (hb : b < Z.gdim) :
    tieOppositeGrad M E i e (fun d => u (globalDof F.bs dof d)) q a b = tieOppositeGrad Z F i (facet i e) u q a b := by
  obtain ⟨h1, h2, h3, h4⟩ := H.sizes
  obtain ⟨d1, d2, d3, d4, d5⟩ := HE.element
  have hc : TieCell M (oppositeCell M i e q) := ⟨i, by omega, e, he, Or.inr ⟨q, by omega, rfl⟩⟩
  unfold tieOppositeGrad
  rw [d1, d2, h2]
  refine sum_congr rfl (fun k hk => ?_)
  dsimp only
  rw [globalDof_dof dof _ ha, HE.dofs _ hc k (mem_range.mp hk), H.opposite i hi e he q hq,
    (HE.basis i hi e he q hq k (mem_range.mp hk)).2 b hb]

theorem part_jump (H : TiePartOf M Z facet cell) (HE : ElementPartOf M Z E F facet cell dof) {i e q : ℕ}
    (hi : i < Z.numPairs) (he : e < M.localFacets i) (hq : q < Z.nq) {c : ℕ} (hc : TieCell M c) (f : ℕ) (u : ℕ → ℝ)
    {a : ℕ} (ha : a < F.bs) :
    tieJumpAt M E i e c f (fun d => u (globalDof F.bs dof d)) q a = tieJumpAt Z F i (facet i e) (cell c) f u q a := by
  rw [tieJumpAt, tieJumpAt, part_value H HE hc f u q ha, part_opposite H HE hi he hq u ha]

theorem part_mean (H : TiePartOf M Z facet cell) (HE : ElementPartOf M Z E F facet cell dof) {i e q : ℕ}
    (hi : i < Z.numPairs) (he : e < M.localFacets i) (hq : q < Z.nq) {c : ℕ} (hc : TieCell M c) (f : ℕ) (u : ℕ → ℝ)
    {a b : ℕ} (ha : a < F.bs) (hb : b < Z.gdim) :
    tieMeanGrad M E i e c f (fun d => u (globalDof F.bs dof d)) q a b = tieMeanGrad Z F i (facet i e) (cell c) f u q a b := by
  rw [tieMeanGrad, tieMeanGrad, part_grad H HE hc f u q ha b, part_oppositeGrad H HE hi he hq u ha hb]

end

/-! ### sums over the processes -/

section

variable {P : ℕ} {M : ℕ → TieMesh} {Z : TieMesh} {facet : ℕ → ℕ → ℕ → ℕ} {cell : ℕ → ℕ → ℕ}

theorem sum_tieOwned (hO : TieOwnedOnce P M Z facet) {i : ℕ} (hi : i < Z.numPairs) (f : ℕ → ℝ) :
    ∑ E ∈ range (Z.localFacets i), f E = ∑ p ∈ range P, ∑ e ∈ range ((M p).localFacets i), f (facet p i e) := by
  rw [Finset.sum_sigma']
  symm
  obtain ⟨h1, h2⟩ := hO i hi
  refine sum_bij (fun x _ => facet x.1 i x.2) ?_ ?_ ?_ (fun _ _ => rfl)
  · intro x hx
    obtain ⟨hp, he⟩ := mem_sigma.mp hx
    exact mem_range.mpr (h1 _ (mem_range.mp hp) _ (mem_range.mp he))
  · rintro ⟨p, e⟩ hx ⟨p', e'⟩ hx' hE
    obtain ⟨hp, he⟩ := mem_sigma.mp hx
    obtain ⟨hp', he'⟩ := mem_sigma.mp hx'
    obtain ⟨p0, -, e0, -, -, hu⟩ := h2 _ (h1 _ (mem_range.mp hp) _ (mem_range.mp he))
    obtain ⟨rfl, rfl⟩ := hu p (mem_range.mp hp) e (mem_range.mp he) rfl
    obtain ⟨rfl, rfl⟩ := hu p' (mem_range.mp hp') e' (mem_range.mp he') hE.symm
    rfl
  · intro E hE
    obtain ⟨p, hp, e, he, h, -⟩ := h2 E (mem_range.mp hE)
    exact ⟨⟨p, e⟩, mem_sigma.mpr ⟨mem_range.mpr hp, mem_range.mpr he⟩, h⟩

open Classical in
/-- A sum over the tied points of the whole mesh is the sum over the processes. -/
theorem tieSum_parts (hpart : ∀ p < P, TiePartOf (M p) Z (facet p) (cell p)) (hO : TieOwnedOnce P M Z facet)
    (hT : ∀ p < P, SameTies (M p) Z (facet p)) (f : ℕ → ℕ → ℕ → ℕ → ℕ → ℕ → ℝ) (f' : ℕ → ℕ → ℕ → ℕ → ℕ → ℝ)
    (hf : ∀ p < P, ∀ i < Z.numPairs, ∀ e < (M p).localFacets i, ∀ c k, ((M p).facets i)[e]? = some (c, k) →
      (Z.facets i)[facet p i e]? = some (cell p c, k) → TieCell (M p) c → ∀ q < Z.nq,
      f p i e c k q = f' i (facet p i e) (cell p c) k q) :
    ∑ p ∈ range P, tieSum (M p) (f p) = tieSum Z f' := by
  unfold tieSum
  rw [sum_congr rfl (fun p hp => by rw [(hpart p (mem_range.mp hp)).sizes.1]), sum_comm]
  refine sum_congr rfl (fun i hi => ?_)
  rw [sum_tieOwned hO (mem_range.mp hi)]
  refine sum_congr rfl (fun p hp => sum_congr rfl (fun e he => ?_))
  rw [mem_range] at hi hp he
  obtain ⟨c, k, h1, h2⟩ := (hpart p hp).own i hi e he
  have hc : TieCell (M p) c := ⟨i, by rw [(hpart p hp).sizes.1]; exact hi, e, he, Or.inl ⟨k, h1⟩⟩
  rw [h1, h2, Option.elim_some, Option.elim_some, (hpart p hp).sizes.2.1]
  refine sum_congr rfl (fun q hq => ?_)
  rw [mem_range] at hq
  have ht := hT p hp i hi e he q hq
  by_cases h : Tied (M p) i e q
  · rw [if_pos h, if_pos (ht.mp h)]
    show tieWeight (M p) c k q * f p i e c k q = _
    rw [part_weight (hpart p hp) hc, hf p hp i hi e he c k h1 h2 hc q hq]
  · rw [if_neg h, if_neg (fun h' => h (ht.mpr h'))]

theorem part_traction_congr {g : ℕ} (mu lam : ℝ) {D D' : ℕ → ℕ → ℝ} {n n' : ℕ → ℝ} (hD : ∀ a < g, ∀ b < g, D a b = D' a b)
    (hn : ∀ a < g, n a = n' a) : ∀ a < g, traction g mu lam D n a = traction g mu lam D' n' a := by
  intro a ha
  rw [Elasticity.traction_eq _ _ _ _ _ _ ha, Elasticity.traction_eq _ _ _ _ _ _ ha]
  have e1 : ∑ j ∈ range g, D j j = ∑ j ∈ range g, D' j j :=
    sum_congr rfl (fun j hj => hD j (mem_range.mp hj) j (mem_range.mp hj))
  rw [e1, hn a ha]
  congr 1
  refine sum_congr rfl (fun j hj => ?_)
  rw [hD _ (mem_range.mp hj) _ ha, hD _ ha _ (mem_range.mp hj), hn j (mem_range.mp hj)]

theorem part_elastic_congr {g : ℕ} (mu lam gamma theta h : ℝ) {n n' J J1 J' J1' : ℕ → ℝ} {D D1 D' D1' : ℕ → ℕ → ℝ}
    (hn : ∀ a < g, n a = n' a) (hJ : ∀ a < g, J a = J1 a) (hD : ∀ a < g, ∀ b < g, D a b = D1 a b)
    (hJ' : ∀ a < g, J' a = J1' a) (hD' : ∀ a < g, ∀ b < g, D' a b = D1' a b) :
    elasticPart g mu lam gamma theta h n J D J' D' = elasticPart g mu lam gamma theta h n' J1 D1 J1' D1' := by
  unfold elasticPart
  congr 2
  · refine sum_congr rfl (fun a ha => ?_)
    rw [mem_range] at ha
    rw [part_traction_congr mu lam hD hn a ha, hJ a ha, hJ' a ha]
  · refine congrArg _ (sum_congr rfl (fun a ha => ?_))
    rw [mem_range] at ha
    rw [part_traction_congr mu lam hD' hn a ha, hJ a ha]

variable {E EQ : ℕ → TieElement} {F FQ : TieElement} {dof : ℕ → ℕ → ℕ} {mat : ℕ → Key → ℕ → ℝ} {mat' : Key → ℕ → ℝ}

theorem elasticTie_parts (hpart : ∀ p < P, TiePartOf (M p) Z (facet p) (cell p)) (hO : TieOwnedOnce P M Z facet)
    (hT : ∀ p < P, SameTies (M p) Z (facet p)) (hE : ∀ p < P, ElementPartOf (M p) Z (E p) F (facet p) (cell p) (dof p))
    (hmat : ∀ p < P, SameMaterial (M p) Z (EQ p) FQ (mat p) mat' (facet p)) (hb : F.bs = Z.gdim) (gamma theta : ℝ)
    (u v : ℕ → ℝ) :
    ∑ p ∈ range P, elasticTie (M p) (E p) (EQ p) (mat p) gamma theta (fun d => u (globalDof F.bs (dof p) d))
      (fun d => v (globalDof F.bs (dof p) d)) = elasticTie Z F FQ mat' gamma theta u v := by
  refine tieSum_parts hpart hO hT _ _ (fun p hp i hi e he c k h1 h2 hc q hq => ?_)
  have H := hpart p hp
  have HE := hE p hp
  rw [hmat p hp i hi e he c (cell p c) k h1 h2, hmat p hp i hi e he c (cell p c) k h1 h2, H.sizes.2.2.1, H.size i hi e he]
  refine part_elastic_congr _ _ _ _ _ (fun a _ => part_outward H hc k q a) ?_ ?_ ?_ ?_
  · exact fun a ha => part_jump H HE hi he hq hc k u (by omega)
  · exact fun a ha b hb' => part_mean H HE hi he hq hc k u (by omega) hb'
  · exact fun a ha => part_jump H HE hi he hq hc k v (by omega)
  · exact fun a ha b hb' => part_mean H HE hi he hq hc k v (by omega) hb'

theorem heatTie_parts (hpart : ∀ p < P, TiePartOf (M p) Z (facet p) (cell p)) (hO : TieOwnedOnce P M Z facet)
    (hT : ∀ p < P, SameTies (M p) Z (facet p)) (hE : ∀ p < P, ElementPartOf (M p) Z (E p) F (facet p) (cell p) (dof p))
    (hmat : ∀ p < P, SameMaterial (M p) Z (EQ p) FQ (mat p) mat' (facet p)) (hb : F.bs = 1) (gamma theta : ℝ)
    (u v : ℕ → ℝ) :
    ∑ p ∈ range P, heatTie (M p) (E p) (EQ p) (mat p) gamma theta (fun d => u (globalDof F.bs (dof p) d))
      (fun d => v (globalDof F.bs (dof p) d)) = heatTie Z F FQ mat' gamma theta u v := by
  refine tieSum_parts hpart hO hT _ _ (fun p hp i hi e he c k h1 h2 hc q hq => ?_)
  have H := hpart p hp
  have HE := hE p hp
  rw [hmat p hp i hi e he c (cell p c) k h1 h2, H.sizes.2.2.1, H.size i hi e he]
  unfold heatPart
  rw [part_jump H HE hi he hq hc k u (by omega : 0 < F.bs), part_jump H HE hi he hq hc k v (by omega : 0 < F.bs)]
  have key : ∀ w : ℕ → ℝ, ∑ b ∈ range Z.gdim, tieMeanGrad (M p) (E p) i e c k (fun d => w (globalDof F.bs (dof p) d)) q 0 b
      * tieOutward (M p) c k q b = ∑ b ∈ range Z.gdim, tieMeanGrad Z F i (facet p i e) (cell p c) k w q 0 b
      * tieOutward Z (cell p c) k q b := by
    intro w
    refine sum_congr rfl (fun b hb' => ?_)
    rw [part_mean H HE hi he hq hc k w (by omega : 0 < F.bs) (mem_range.mp hb'), part_outward H hc]
  rw [key u, key v]

theorem thermalTie_parts {ET : ℕ → TieElement} {FT : TieElement} {dofT : ℕ → ℕ → ℕ}
    (hpart : ∀ p < P, TiePartOf (M p) Z (facet p) (cell p)) (hO : TieOwnedOnce P M Z facet)
    (hT : ∀ p < P, SameTies (M p) Z (facet p)) (hE : ∀ p < P, ElementPartOf (M p) Z (E p) F (facet p) (cell p) (dof p))
    (hET : ∀ p < P, ElementPartOf (M p) Z (ET p) FT (facet p) (cell p) (dofT p)) (hbT : FT.bs = 1)
    (hmat : ∀ p < P, SameMaterial (M p) Z (EQ p) FQ (mat p) mat' (facet p)) (hb : F.bs = Z.gdim) (T v : ℕ → ℝ) :
    ∑ p ∈ range P, thermalTie (M p) (E p) (EQ p) (ET p) (mat p) (fun d => T (globalDof FT.bs (dofT p) d))
      (fun d => v (globalDof F.bs (dof p) d)) = thermalTie Z F FQ FT mat' T v := by
  refine tieSum_parts hpart hO hT _ _ (fun p hp i hi e he c k h1 h2 hc q hq => ?_)
  have H := hpart p hp
  have HE := hE p hp
  have HT := hET p hp
  rw [hmat p hp i hi e he c (cell p c) k h1 h2, hmat p hp i hi e he c (cell p c) k h1 h2,
    hmat p hp i hi e he c (cell p c) k h1 h2, H.sizes.2.2.1, part_value H HT hc k T q (by omega : 0 < FT.bs),
    part_opposite H HT hi he hq T (by omega : 0 < FT.bs)]
  unfold thermalPart
  refine congrArg _ (sum_congr rfl (fun a ha => ?_))
  rw [part_outward H hc, part_jump H HE hi he hq hc k v (by rw [mem_range] at ha; omega)]

theorem tiedFirst_part (hpart : ∀ p < P, TiePartOf (M p) Z (facet p) (cell p)) (hO : TieOwnedOnce P M Z facet)
    (hT : ∀ p < P, SameTies (M p) Z (facet p)) (hZ : TiedFirst Z) : ∀ p < P, TiedFirst (M p) := by
  intro p hp i hi e he q q' hqq hq ht
  have hi' : i < Z.numPairs := by rw [← (hpart p hp).sizes.1]; exact hi
  have hq' : q < Z.nq := by rw [← (hpart p hp).sizes.2.1]; exact hq
  rw [hT p hp i hi' e he q' (by omega)]
  exact hZ i hi' _ ((hO i hi').1 p hp e he) q q' hqq hq' ((hT p hp i hi' e he q hq').mp ht)

/-- From forms to vectors. -/
theorem vector_parts {bs : ℕ} {N : ℕ → ℕ} {N' : ℕ} {b : ℕ → Arr ℕ} {b' : Arr ℕ} {L : ℕ → (ℕ → ℝ) → ℝ} {L' : (ℕ → ℝ) → ℝ}
    (hb : ∀ p < P, ∀ v, ∑ d ∈ range (N p), b p d * v d = L p v) (hb' : ∀ v, ∑ d ∈ range N', b' d * v d = L' v)
    (h : ∀ v : ℕ → ℝ, ∑ p ∈ range P, L p (fun d => v (globalDof bs (dof p) d)) = L' v) {D : ℕ} (hD : D < N') :
    b' D = ∑ p ∈ range P, ∑ d ∈ range (N p) with globalDof bs (dof p) d = D, b p d := by
  have h1 := (hb' (fun k => if k = D then 1 else 0)).trans (h _).symm
  have e' : ∑ d ∈ range N', b' d * (if d = D then (1 : ℝ) else 0) = b' D := by simp [hD]
  rw [← e', h1]
  refine sum_congr rfl (fun p hp => ?_)
  rw [← hb p (mem_range.mp hp), sum_filter]
  exact sum_congr rfl (fun d _ => by split <;> simp [*])

theorem matrix_parts {bs : ℕ} {N : ℕ → ℕ} {N' : ℕ} {A : ℕ → Arr (ℕ × ℕ)} {A' : Arr (ℕ × ℕ)} {L : ℕ → (ℕ → ℝ) → (ℕ → ℝ) → ℝ}
    {L' : (ℕ → ℝ) → (ℕ → ℝ) → ℝ}
    (hA : ∀ p < P, ∀ u v : ℕ → ℝ, ∑ d ∈ range (N p), ∑ c ∈ range (N p), v d * A p (d, c) * u c = L p u v)
    (hA' : ∀ u v : ℕ → ℝ, ∑ d ∈ range N', ∑ c ∈ range N', v d * A' (d, c) * u c = L' u v)
    (h : ∀ u v : ℕ → ℝ, ∑ p ∈ range P, L p (fun d => u (globalDof bs (dof p) d)) (fun d => v (globalDof bs (dof p) d)) = L' u v)
    {D C : ℕ} (hD : D < N') (hC : C < N') :
    A' (D, C) = ∑ p ∈ range P, ∑ d ∈ range (N p) with globalDof bs (dof p) d = D,
      ∑ c ∈ range (N p) with globalDof bs (dof p) c = C, A p (d, c) := by
  have h1 := (hA' (fun k => if k = C then 1 else 0) (fun k => if k = D then 1 else 0)).trans (h _ _).symm
  have e' : ∑ d ∈ range N', ∑ c ∈ range N', (if d = D then (1 : ℝ) else 0) * A' (d, c) * (if c = C then (1 : ℝ) else 0)
      = A' (D, C) := by simp [hD, hC]
  rw [← e', h1]
  refine sum_congr rfl (fun p hp => ?_)
  rw [← hA p (mem_range.mp hp), sum_filter]
  refine sum_congr rfl (fun d _ => ?_)
  split
  · rw [sum_filter]
    exact sum_congr rfl (fun c _ => by split <;> simp)
  · exact sum_eq_zero (fun c _ => by simp)

end

section

variable (P : ℕ) (M : ℕ → TieMesh) (Z : TieMesh) (E EQ : ℕ → TieElement) (F FQ : TieElement) (facet : ℕ → ℕ → ℕ → ℕ)
  (cell dof : ℕ → ℕ → ℕ) (hM : ∀ p < P, TieMesh.Valid (M p)) (hZ : TieMesh.Valid Z)
  (hE : ∀ p < P, TieElement.Valid (M p) (E p)) (hF : TieElement.Valid Z F)
  (hpart : ∀ p < P, TiePartOf (M p) Z (facet p) (cell p)) (hO : TieOwnedOnce P M Z facet)
  (hEF : ∀ p < P, ElementPartOf (M p) Z (E p) F (facet p) (cell p) (dof p))
  (hties : ∀ p < P, SameTies (M p) Z (facet p)) (hfirst : TiedFirst Z)
  (mat : ℕ → Key → ℕ → ℝ) (mat' : Key → ℕ → ℝ) (hmat : ∀ p < P, SameMaterial (M p) Z (EQ p) FQ (mat p) mat' (facet p))
  (gamma theta : ℝ) (ops : ℕ → List (Op ℝ)) (ops' : List (Op ℝ)) (g : ℕ → Gen ℝ) (g' : Gen ℝ)
  (hops : ∀ p < P, ProperHistory (M p).static Tracked.new (ops p)) (hops' : ProperHistory Z.static Tracked.new ops')
  (N : ℕ → ℕ) (hN : ∀ p < P, TieDofsBelow (M p) (E p) (N p)) (N' : ℕ) (hN' : TieDofsBelow Z F N')

include hM hZ hE hF hpart hO hEF hties hfirst hmat hops hops' hN hN'

/-- C148: the vector and the matrix for tied elastic bodies do not depend on how the mesh is distributed, as long as
every process ties the points of its facets a single process ties: adding up what the processes assemble gives what a
single process assembles.  The tied points come first on every facet (C117). -/
theorem C148_elasticity_partial
    (hg : ∀ p < P, ((ops p).foldl Tracked.step Tracked.new).get .elasticity = some (g p))
    (G : ∀ p < P, GeneratedFor (M p) (E p) (EQ p) .elasticity (mat p) gamma theta (g p))
    (hg' : (ops'.foldl Tracked.step Tracked.new).get .elasticity = some g')
    (G' : GeneratedFor Z F FQ .elasticity mat' gamma theta g')
    (u : ℕ → ℝ) (hu : ∀ p < P, SolutionIs (M p) (E p) (fun d => u (globalDof F.bs (dof p) d)) (g p)) (hu' : SolutionIs Z F u g') :
    ∃ (b : ℕ → Arr ℕ) (A : ℕ → Arr (ℕ × ℕ)) (b' : Arr ℕ) (A' : Arr (ℕ × ℕ)),
      (∀ p < P, ∃ s, run (M p).static State.init (ops p) = some s ∧ (M p).assembleVector (E p) .elasticity s 0 = .ok (b p)
        ∧ (M p).assembleMatrix (E p) .elasticity s 0 = .ok (A p))
      ∧ (∃ s, run Z.static State.init ops' = some s ∧ Z.assembleVector F .elasticity s 0 = .ok b'
        ∧ Z.assembleMatrix F .elasticity s 0 = .ok A')
      ∧ (∀ D < N', b' D = ∑ p ∈ range P, ∑ d ∈ range (N p) with globalDof F.bs (dof p) d = D, b p d)
      ∧ ∀ D < N', ∀ C < N', A' (D, C) = ∑ p ∈ range P, ∑ d ∈ range (N p) with globalDof F.bs (dof p) d = D,
        ∑ c ∈ range (N p) with globalDof F.bs (dof p) c = C, A p (d, c) := by
  have hTp := tiedFirst_part hpart hO hties hfirst
  have hex : ∀ p, ∃ (b : Arr ℕ) (A : Arr (ℕ × ℕ)), p < P →
      (∃ s, run (M p).static State.init (ops p) = some s ∧ (M p).assembleVector (E p) .elasticity s 0 = .ok b
        ∧ (M p).assembleMatrix (E p) .elasticity s 0 = .ok A)
      ∧ (∀ v : ℕ → ℝ, ∑ d ∈ range (N p), b d * v d
        = elasticTie (M p) (E p) (EQ p) (mat p) gamma theta (fun d => u (globalDof F.bs (dof p) d)) v)
      ∧ ∀ u v : ℕ → ℝ, ∑ d ∈ range (N p), ∑ c ∈ range (N p), v d * A (d, c) * u c
        = elasticTie (M p) (E p) (EQ p) (mat p) gamma theta u v := by
    intro p
    by_cases hp : p < P
    · obtain ⟨s, h1, ⟨A, h2, h3⟩, b, h4, h5⟩ :=
        C117_elasticity_partial (hM p hp) (hE p hp) (N p) (hN p hp) (hTp p hp) (ops p) (hops p hp) (hg p hp) (G p hp)
      exact ⟨b, A, fun _ => ⟨⟨s, h1, h4, h2⟩, h5 _ (hu p hp), h3⟩⟩
    · exact ⟨0, 0, fun h => absurd h hp⟩
  choose b A hbA using hex
  obtain ⟨s', h1, ⟨A', h2, h3⟩, b', h4, h5⟩ := C117_elasticity_partial hZ hF N' hN' hfirst ops' hops' hg' G'
  have hb : F.bs = Z.gdim := (assembled' hZ ops' hops' hg' G').1
  have hsum := elasticTie_parts hpart hO hties hEF hmat hb gamma theta
  exact ⟨b, A, b', A', fun p hp => (hbA p hp).1, ⟨s', h1, h4, h2⟩,
    fun D hD => vector_parts (fun p hp => (hbA p hp).2.1) (h5 u hu') (hsum u) hD,
    fun D hD C hC => matrix_parts (fun p hp => (hbA p hp).2.2) h3 hsum hD hC⟩

/-- C148 for heat conduction. -/
theorem C148_heat_partial
    (hg : ∀ p < P, ((ops p).foldl Tracked.step Tracked.new).get .poisson = some (g p))
    (G : ∀ p < P, GeneratedFor (M p) (E p) (EQ p) .poisson (mat p) gamma theta (g p))
    (hg' : (ops'.foldl Tracked.step Tracked.new).get .poisson = some g')
    (G' : GeneratedFor Z F FQ .poisson mat' gamma theta g')
    (u : ℕ → ℝ) (hu : ∀ p < P, SolutionIs (M p) (E p) (fun d => u (globalDof F.bs (dof p) d)) (g p)) (hu' : SolutionIs Z F u g') :
    ∃ (b : ℕ → Arr ℕ) (A : ℕ → Arr (ℕ × ℕ)) (b' : Arr ℕ) (A' : Arr (ℕ × ℕ)),
      (∀ p < P, ∃ s, run (M p).static State.init (ops p) = some s ∧ (M p).assembleVector (E p) .poisson s 0 = .ok (b p)
        ∧ (M p).assembleMatrix (E p) .poisson s 0 = .ok (A p))
      ∧ (∃ s, run Z.static State.init ops' = some s ∧ Z.assembleVector F .poisson s 0 = .ok b'
        ∧ Z.assembleMatrix F .poisson s 0 = .ok A')
      ∧ (∀ D < N', b' D = ∑ p ∈ range P, ∑ d ∈ range (N p) with globalDof F.bs (dof p) d = D, b p d)
      ∧ ∀ D < N', ∀ C < N', A' (D, C) = ∑ p ∈ range P, ∑ d ∈ range (N p) with globalDof F.bs (dof p) d = D,
        ∑ c ∈ range (N p) with globalDof F.bs (dof p) c = C, A p (d, c) := by
  have hTp := tiedFirst_part hpart hO hties hfirst
  have hex : ∀ p, ∃ (b : Arr ℕ) (A : Arr (ℕ × ℕ)), p < P →
      (∃ s, run (M p).static State.init (ops p) = some s ∧ (M p).assembleVector (E p) .poisson s 0 = .ok b
        ∧ (M p).assembleMatrix (E p) .poisson s 0 = .ok A)
      ∧ (∀ v : ℕ → ℝ, ∑ d ∈ range (N p), b d * v d
        = heatTie (M p) (E p) (EQ p) (mat p) gamma theta (fun d => u (globalDof F.bs (dof p) d)) v)
      ∧ ∀ u v : ℕ → ℝ, ∑ d ∈ range (N p), ∑ c ∈ range (N p), v d * A (d, c) * u c
        = heatTie (M p) (E p) (EQ p) (mat p) gamma theta u v := by
    intro p
    by_cases hp : p < P
    · obtain ⟨s, h1, ⟨A, h2, h3⟩, b, h4, h5⟩ :=
        C117_heat_partial (hM p hp) (hE p hp) (N p) (hN p hp) (hTp p hp) (ops p) (hops p hp) (hg p hp) (G p hp)
      exact ⟨b, A, fun _ => ⟨⟨s, h1, h4, h2⟩, h5 _ (hu p hp), h3⟩⟩
    · exact ⟨0, 0, fun h => absurd h hp⟩
  choose b A hbA using hex
  obtain ⟨s', h1, ⟨A', h2, h3⟩, b', h4, h5⟩ := C117_heat_partial hZ hF N' hN' hfirst ops' hops' hg' G'
  have hb : F.bs = 1 := (assembled' hZ ops' hops' hg' G').1
  have hsum := heatTie_parts hpart hO hties hEF hmat hb gamma theta
  exact ⟨b, A, b', A', fun p hp => (hbA p hp).1, ⟨s', h1, h4, h2⟩,
    fun D hD => vector_parts (fun p hp => (hbA p hp).2.1) (h5 u hu') (hsum u) hD,
    fun D hD C hC => matrix_parts (fun p hp => (hbA p hp).2.2) h3 hsum hD hC⟩

/-- C148 for thermo-elasticity, with temperatures `T` in spaces distributed like the mesh. -/
theorem C148_thermo_partial
    (hg : ∀ p < P, ((ops p).foldl Tracked.step Tracked.new).get .thermo = some (g p))
    (G : ∀ p < P, GeneratedFor (M p) (E p) (EQ p) .thermo (mat p) gamma theta (g p))
    (hg' : (ops'.foldl Tracked.step Tracked.new).get .thermo = some g')
    (G' : GeneratedFor Z F FQ .thermo mat' gamma theta g')
    (u : ℕ → ℝ) (hu : ∀ p < P, SolutionIs (M p) (E p) (fun d => u (globalDof F.bs (dof p) d)) (g p)) (hu' : SolutionIs Z F u g')
    (ET : ℕ → TieElement) (FT : TieElement) (dofT : ℕ → ℕ → ℕ) (T : ℕ → ℝ) (hET : ∀ p < P, TieElement.Valid (M p) (ET p))
    (hFT : TieElement.Valid Z FT) (hETF : ∀ p < P, ElementPartOf (M p) Z (ET p) FT (facet p) (cell p) (dofT p))
    (hTm : ∀ p < P, TemperatureIs (M p) (ET p) (fun d => T (globalDof FT.bs (dofT p) d)) (g p)) (hTm' : TemperatureIs Z FT T g') :
    ∃ (b : ℕ → Arr ℕ) (A : ℕ → Arr (ℕ × ℕ)) (b' : Arr ℕ) (A' : Arr (ℕ × ℕ)),
      (∀ p < P, ∃ s, run (M p).static State.init (ops p) = some s ∧ (M p).assembleVector (E p) .thermo s 0 = .ok (b p)
        ∧ (M p).assembleMatrix (E p) .thermo s 0 = .ok (A p))
      ∧ (∃ s, run Z.static State.init ops' = some s ∧ Z.assembleVector F .thermo s 0 = .ok b'
        ∧ Z.assembleMatrix F .thermo s 0 = .ok A')
      ∧ (∀ D < N', b' D = ∑ p ∈ range P, ∑ d ∈ range (N p) with globalDof F.bs (dof p) d = D, b p d)
      ∧ ∀ D < N', ∀ C < N', A' (D, C) = ∑ p ∈ range P, ∑ d ∈ range (N p) with globalDof F.bs (dof p) d = D,
        ∑ c ∈ range (N p) with globalDof F.bs (dof p) c = C, A p (d, c) := by
  have hTp := tiedFirst_part hpart hO hties hfirst
  have hex : ∀ p, ∃ (b : Arr ℕ) (A : Arr (ℕ × ℕ)), p < P →
      (∃ s, run (M p).static State.init (ops p) = some s ∧ (M p).assembleVector (E p) .thermo s 0 = .ok b
        ∧ (M p).assembleMatrix (E p) .thermo s 0 = .ok A)
      ∧ (∀ v : ℕ → ℝ, ∑ d ∈ range (N p), b d * v d
        = elasticTie (M p) (E p) (EQ p) (mat p) gamma theta (fun d => u (globalDof F.bs (dof p) d)) v
          + thermalTie (M p) (E p) (EQ p) (ET p) (mat p) (fun d => T (globalDof FT.bs (dofT p) d)) v)
      ∧ ∀ u v : ℕ → ℝ, ∑ d ∈ range (N p), ∑ c ∈ range (N p), v d * A (d, c) * u c
        = elasticTie (M p) (E p) (EQ p) (mat p) gamma theta u v := by
    intro p
    by_cases hp : p < P
    · obtain ⟨s, h1, ⟨A, h2, h3⟩, b, h4, h5⟩ :=
        C117_thermo_partial (hM p hp) (hE p hp) (N p) (hN p hp) (hTp p hp) (ops p) (hops p hp) (hg p hp) (G p hp)
      exact ⟨b, A, fun _ => ⟨⟨s, h1, h4, h2⟩, h5 _ (hu p hp) _ _ (hET p hp) (hTm p hp), h3⟩⟩
    · exact ⟨0, 0, fun h => absurd h hp⟩
  choose b A hbA using hex
  obtain ⟨s', h1, ⟨A', h2, h3⟩, b', h4, h5⟩ := C117_thermo_partial hZ hF N' hN' hfirst ops' hops' hg' G'
  have hb : F.bs = Z.gdim := (assembled' hZ ops' hops' hg' G').1
  have hsum := elasticTie_parts hpart hO hties hEF hmat hb gamma theta
  have hsumT := thermalTie_parts hpart hO hties hEF hETF hTm'.1 hmat hb T
  refine ⟨b, A, b', A', fun p hp => (hbA p hp).1, ⟨s', h1, h4, h2⟩,
    fun D hD => vector_parts (fun p hp => (hbA p hp).2.1) (h5 u hu' FT T hFT hTm') (fun v => ?_) hD,
    fun D hD C hC => matrix_parts (fun p hp => (hbA p hp).2.2) h3 hsum hD hC⟩
  rw [sum_add_distrib, hsum u v, hsumT v]

end

/-! ### two processes -/

/-- Two facets, of cells 0 and 1 with sizes 1 and 10, tied to cell 2; the gap of the first one is `g` times its normal. -/
def exWhole (g : ℝ) : TieMesh where
  numPairs := 1
  nq := 1
  gdim := 2
  tdim := 2
  cell := .triangle
  affine := true
  off := fun _ => 0
  weights := fun _ _ => 1
  nref := fun _ a => if a = 0 then 1 else 0
  geo := ⟨1, fun _ => 0, fun _ _ => 0⟩
  cphi := fun _ _ _ => 0
  inv := fun _ j b => if j = b then 1 else 0
  det := fun _ _ => 1
  facets := fun _ => [(0, 0), (1, 0)]
  localFacets := fun _ => 2
  closest := fun _ _ => 0
  subCell := fun _ => 0
  parentCell := fun c => c + 2
  numCells := 1
  gap := fun _ r => if r = 0 then g else 0
  ny := fun _ r => if r = 0 then 1 else 0
  h := fun _ e => if e = 0 then 1 else 10

/-- Process `p` owns facet `p`: its cell 0 is cell `p`, its cell 1 the opposite cell 2. -/
def exPart (g : ℝ) (p : ℕ) : TieMesh :=
  { exWhole g with
    facets := fun _ => [(0, 0)]
    localFacets := fun _ => 1
    parentCell := fun c => c + 1
    gap := fun i r => (exWhole g).gap i (2 * p + r)
    ny := fun i r => (exWhole g).ny i (2 * p + r)
    h := fun i e => (exWhole g).h i (p + e) }

/-- Cells and dofs of process `p`. -/
def exCell (p c : ℕ) : ℕ := if c = 0 then p else 2

theorem exWhole_valid (g : ℝ) : TieMesh.Valid (exWhole g) where
  dim := by simp [exWhole]
  cell := by simp [exWhole]
  loc := by simp [exWhole]
  cells := by simp [exWhole]
  order := by intro c c' h h'; simp [exWhole] at h' ⊢; omega
  affine := by simp [exWhole]

theorem exPart_valid (g : ℝ) (p : ℕ) : TieMesh.Valid (exPart g p) where
  dim := by simp [exPart, exWhole]
  cell := by simp [exPart, exWhole]
  loc := by simp [exPart, exWhole]
  cells := by simp [exPart, exWhole]
  order := by intro c c' h h'; simp [exPart, exWhole] at h' ⊢; omega
  affine := by simp [exPart, exWhole]

theorem exWhole_element (g : ℝ) (bs : ℕ) : TieElement.Valid (exWhole g) (exE bs fun _ => 1)
    ∧ TieDofsBelow (exWhole g) (exE bs fun _ => 1) (3 * bs) := by
  refine ⟨fun c i c' i' hc _ hc' _ _ => ?_, ?_, fun c hc a _ => ?_⟩
  · have : c < 1 := hc
    have : c' < 1 := hc'
    have : c = c' := by omega
    rw [this]; rfl
  · simp [exWhole, exE]; omega
  · have : c < 1 := hc
    obtain rfl : c = 0 := by omega
    show bs * (0 + 2) + bs ≤ 3 * bs
    omega

theorem exPart_element (g : ℝ) (p bs : ℕ) : TieElement.Valid (exPart g p) (exE bs fun _ => 1)
    ∧ TieDofsBelow (exPart g p) (exE bs fun _ => 1) (2 * bs) := by
  refine ⟨fun c i c' i' hc _ hc' _ _ => ?_, ?_, fun c hc a _ => ?_⟩
  · have : c < 1 := hc
    have : c' < 1 := hc'
    have : c = c' := by omega
    rw [this]; rfl
  · simp [exPart, exWhole, exE]; omega
  · have : c < 1 := hc
    obtain rfl : c = 0 := by omega
    show bs * (0 + 1) + bs ≤ 2 * bs
    omega

theorem exPart_part (g : ℝ) {p : ℕ} (hp : p < 2) : TiePartOf (exPart g p) (exWhole g) (fun _ _ => p) (exCell p) where
  sizes := ⟨rfl, rfl, rfl, rfl⟩
  library := ⟨rfl, rfl, rfl, rfl, rfl⟩
  own := by
    intro i _ e he
    have : e < 1 := he
    obtain rfl : e = 0 := by omega
    refine ⟨0, 0, rfl, ?_⟩
    interval_cases p <;> rfl
  geometry := fun _ _ _ => rfl
  opposite := fun _ _ _ _ _ _ => rfl
  gap := by
    intro i _ e he q hq a _
    have : e < 1 := he
    obtain rfl : e = 0 := by omega
    have : q < 1 := hq
    obtain rfl : q = 0 := by omega
    have h : (p * (exWhole g).nq + 0) * (exWhole g).gdim + a = 2 * p + ((0 * (exWhole g).nq + 0) * (exWhole g).gdim + a) := by
      show (p * 1 + 0) * 2 + a = 2 * p + ((0 * 1 + 0) * 2 + a)
      omega
    rw [h]
    exact ⟨rfl, rfl⟩
  size := by
    intro i _ e he
    have : e < 1 := he
    obtain rfl : e = 0 := by omega
    rfl

theorem exPart_elementPart (g : ℝ) (bs : ℕ) (p : ℕ) : ElementPartOf (exPart g p) (exWhole g) (exE bs fun _ => 1)
    (exE bs fun _ => 1) (fun _ _ => p) (exCell p) (exCell p) where
  element := ⟨rfl, rfl, rfl, rfl, rfl⟩
  dofs := fun _ _ _ _ => rfl
  basis := fun _ _ _ _ _ _ _ _ => ⟨rfl, fun _ _ => rfl⟩

theorem exPart_once (g : ℝ) : TieOwnedOnce 2 (exPart g) (exWhole g) (fun p _ _ => p) := by
  refine fun i _ => ⟨fun p hp _ _ => hp, fun E hE => ⟨E, hE, 0, Nat.one_pos, rfl, fun p' _ e' he' h => ⟨h, ?_⟩⟩⟩
  have : e' < 1 := he'
  omega

theorem exWhole_gapNorm (g : ℝ) (hg : 0 ≤ g) (e : ℕ) : gapNorm (exWhole g) 0 e 0 = if e = 0 then g else 0 := by
  have h : gapNorm (exWhole g) 0 e 0 = Real.sqrt (∑ a ∈ range 2, (if (e * 1 + 0) * 2 + a = 0 then g else 0) ^ 2) := rfl
  rw [h]
  by_cases he : e = 0
  · subst he
    simp [sum_range_succ, Real.sqrt_sq hg]
  · have h1 : ∀ a, ¬((e * 1 + 0) * 2 + a = 0) := by intro a; omega
    simp [he]

/-- Both points are tied on one process if `g ≤ 10`. -/
theorem exWhole_tied (g : ℝ) (hg : 0 ≤ g) (hg' : g ≤ 10) {e : ℕ} : Tied (exWhole g) 0 e 0 := by
  refine ⟨⟨1, by simp [exWhole], ?_⟩, ?_⟩
  · rw [exWhole_gapNorm g hg]
    have : (exWhole g).h 0 1 = 10 := rfl
    rw [this]
    split <;> linarith
  · rw [exWhole_gapNorm g hg]
    by_cases he : e = 0
    · right
      subst he
      have : ∑ a ∈ range (exWhole g).gdim, (exWhole g).gap 0 ((0 * (exWhole g).nq + 0) * (exWhole g).gdim + a)
          * (exWhole g).ny 0 ((0 * (exWhole g).nq + 0) * (exWhole g).gdim + a) = g := by
        simp [exWhole, sum_range_succ]
      rw [this, if_pos rfl, abs_of_nonneg hg]
      linarith
    · left
      rw [if_neg he]
      norm_num

theorem exPart_tied (g : ℝ) (hg : 0 ≤ g) (hg' : g ≤ 10) {p : ℕ} (hp : p < 2) :
    Tied (exPart g p) 0 0 0 ↔ (p = 0 → g ≤ 1) := by
  rw [part_tied_iff (exPart_part g hp) (by simp [exWhole]) (by simp [exPart]) (by simp [exWhole])
    (fun e _ => by simpa [exWhole] using hp), and_iff_right (exWhole_tied g hg hg'),
    part_gap (exPart_part g hp) (by simp [exWhole]) (by simp [exPart]) (by simp [exWhole]), exWhole_gapNorm g hg]
  have h1 : ∀ e', (exPart g p).h 0 e' = if p + e' = 0 then 1 else 10 := fun _ => rfl
  simp only [h1]
  constructor
  · rintro ⟨e', he', h⟩ rfl
    have : e' < 1 := he'
    obtain rfl : e' = 0 := by omega
    simpa using h
  · intro h
    refine ⟨0, Nat.one_pos, ?_⟩
    by_cases h0 : p = 0
    · simpa [h0] using h h0
    · simp [h0]

theorem exWhole_first (g : ℝ) (p : ℕ) : TiedFirst (exWhole g) ∧ TiedFirst (exPart g p) := by
  constructor <;>
  · intro i _ e _ q q' h1 h2
    have : q < 1 := h2
    omega

/-- The hypotheses of C148 hold for the example on two processes if the gap is not larger than the smaller cell, for
every problem, parameters and functions. -/
example (k : Problem) (g : ℝ) (h0 : 0 ≤ g) (h1 : g ≤ 1) (u T : ℕ → ℝ) (gamma theta : ℝ) :
    (∀ p < 2, TieMesh.Valid (exPart g p)) ∧ TieMesh.Valid (exWhole g)
    ∧ (∀ p < 2, TiePartOf (exPart g p) (exWhole g) (fun _ _ => p) (exCell p))
    ∧ TieOwnedOnce 2 (exPart g) (exWhole g) (fun p _ _ => p)
    ∧ (∀ p < 2, ∀ bs, ElementPartOf (exPart g p) (exWhole g) (exE bs fun _ => 1) (exE bs fun _ => 1) (fun _ _ => p) (exCell p) (exCell p))
    ∧ (∀ p < 2, SameTies (exPart g p) (exWhole g) (fun _ _ => p)) ∧ TiedFirst (exWhole g)
    ∧ (∀ p < 2, ∀ i < (exWhole g).numPairs, ∀ e < (exPart g p).localFacets i, ∀ q < (exWhole g).nq,
      ∃ e' < (exPart g p).localFacets i, gapNorm (exPart g p) i e q ≤ (exPart g p).h i e')
    ∧ (∀ p < 2, SameMaterial (exPart g p) (exWhole g) (exE 1 fun _ => 1) (exE 1 fun _ => 1) (fun _ d => exCell p d)
      (fun _ d => d) (fun _ _ => p))
    ∧ ∃ bs, (∀ p < 2, ∃ ops gen, ProperHistory (exPart g p).static Tracked.new ops
        ∧ (ops.foldl Tracked.step Tracked.new).get k = some gen
        ∧ GeneratedFor (exPart g p) (exE bs fun _ => 1) (exE 1 fun _ => 1) k (fun _ d => exCell p d) gamma theta gen
        ∧ SolutionIs (exPart g p) (exE bs fun _ => 1) (fun d => u (globalDof bs (exCell p) d)) gen
        ∧ (k = .thermo → TemperatureIs (exPart g p) (exE 1 fun _ => 1) (fun d => T (globalDof 1 (exCell p) d)) gen))
      ∧ ∃ ops gen, ProperHistory (exWhole g).static Tracked.new ops
        ∧ (ops.foldl Tracked.step Tracked.new).get k = some gen
        ∧ GeneratedFor (exWhole g) (exE bs fun _ => 1) (exE 1 fun _ => 1) k (fun _ d => d) gamma theta gen
        ∧ SolutionIs (exWhole g) (exE bs fun _ => 1) u gen
        ∧ (k = .thermo → TemperatureIs (exWhole g) (exE 1 fun _ => 1) T gen) := by
  have hgap : ∀ p < 2, ∀ i < (exWhole g).numPairs, ∀ e < (exPart g p).localFacets i, ∀ q < (exWhole g).nq,
      ∃ e' < (exPart g p).localFacets i, gapNorm (exPart g p) i e q ≤ (exPart g p).h i e' := by
    intro p hp i hi e he q hq
    have hi' : i < 1 := hi
    have he' : e < 1 := he
    have hq' : q < 1 := hq
    obtain rfl : i = 0 := by omega
    obtain rfl : e = 0 := by omega
    obtain rfl : q = 0 := by omega
    exact ((exPart_tied g h0 (by linarith) hp).mpr (fun _ => h1)).1
  refine ⟨fun p _ => exPart_valid g p, exWhole_valid g, fun p hp => exPart_part g hp, exPart_once g,
    fun p _ bs => exPart_elementPart g bs p,
    fun p hp => (C148_tied (exPart_part g hp) (fun i _ e _ => by simpa [exWhole] using hp)).2 (hgap p hp),
    (exWhole_first g 0).1, hgap, ?_, comps (exWhole g).static k, fun p _ => ?_, ?_⟩
  · intro p hp i _ e he c c' f hc hc' m
    have he' : e < 1 := he
    obtain rfl : e = 0 := by omega
    have e1 : some ((0 : ℕ), (0 : ℕ)) = some (c, f) := hc
    have e2 : ([(0, 0), (1, 0)] : List (ℕ × ℕ))[p]? = some (c', f) := hc'
    interval_cases p <;> simp at e1 e2 <;> simp [midValue, exE, exCell, ← e1.1, ← e2.1]
  · obtain ⟨g1, g2, g3, g4, g5⟩ := generate_once (exPart_valid g p) (exE (comps (exWhole g).static k) fun _ => 1) (exE 1 fun _ => 1)
      (exE 1 fun _ => 1) k rfl rfl rfl (fun _ d => exCell p d) (fun d => u (globalDof _ (exCell p) d))
      (fun d => T (globalDof 1 (exCell p) d)) gamma theta
    exact ⟨_, _, g1, g2, g3, g4, g5⟩
  · obtain ⟨g1, g2, g3, g4, g5⟩ := generate_once (exWhole_valid g) (exE (comps (exWhole g).static k) fun _ => 1) (exE 1 fun _ => 1)
      (exE 1 fun _ => 1) k rfl rfl rfl (fun _ d => d) u T gamma theta
    exact ⟨_, _, g1, g2, g3, g4, g5⟩

/-- C148 fails in general: which points are tied is decided with the largest cell at the facets of the same process, so a
point can be tied on one process and not on two.  Here the temperature jumps at a point with a gap of 5 between cells of
sizes 1 and 10: one process assembles a heat flux, two processes none. -/
theorem C148_violated :
    ∃ (M : ℕ → TieMesh) (Z : TieMesh) (E EQ : ℕ → TieElement) (F FQ : TieElement) (facet : ℕ → ℕ → ℕ → ℕ)
      (cell dof : ℕ → ℕ → ℕ) (ops : ℕ → List (Op ℝ)) (ops' : List (Op ℝ)) (g : ℕ → Gen ℝ) (g' : Gen ℝ) (mat : ℕ → Key → ℕ → ℝ)
      (mat' : Key → ℕ → ℝ) (u : ℕ → ℝ) (N : ℕ → ℕ) (N' : ℕ),
      (∀ p < 2, TieMesh.Valid (M p)) ∧ TieMesh.Valid Z ∧ (∀ p < 2, TieElement.Valid (M p) (E p)) ∧ TieElement.Valid Z F
      ∧ (∀ p < 2, TiePartOf (M p) Z (facet p) (cell p)) ∧ TieOwnedOnce 2 M Z facet
      ∧ (∀ p < 2, ElementPartOf (M p) Z (E p) F (facet p) (cell p) (dof p)) ∧ (∀ p < 2, TiedFirst (M p)) ∧ TiedFirst Z
      ∧ (∀ p < 2, SameMaterial (M p) Z (EQ p) FQ (mat p) mat' (facet p))
      ∧ (∀ p < 2, ProperHistory (M p).static Tracked.new (ops p)) ∧ ProperHistory Z.static Tracked.new ops'
      ∧ (∀ p < 2, TieDofsBelow (M p) (E p) (N p)) ∧ TieDofsBelow Z F N'
      ∧ (∀ p < 2, ((ops p).foldl Tracked.step Tracked.new).get .poisson = some (g p))
      ∧ (∀ p < 2, GeneratedFor (M p) (E p) (EQ p) .poisson (mat p) 1 0 (g p))
      ∧ (ops'.foldl Tracked.step Tracked.new).get .poisson = some g' ∧ GeneratedFor Z F FQ .poisson mat' 1 0 g'
      ∧ (∀ p < 2, SolutionIs (M p) (E p) (fun d => u (globalDof F.bs (dof p) d)) (g p)) ∧ SolutionIs Z F u g'
      ∧ ∃ (b : ℕ → Arr ℕ) (b' : Arr ℕ),
        (∀ p < 2, ∃ s, run (M p).static State.init (ops p) = some s ∧ (M p).assembleVector (E p) .poisson s 0 = .ok (b p))
        ∧ (∃ s, run Z.static State.init ops' = some s ∧ Z.assembleVector F .poisson s 0 = .ok b')
        ∧ ∃ D < N', b' D ≠ ∑ p ∈ range 2, ∑ d ∈ range (N p) with globalDof F.bs (dof p) d = D, b p d := by
  classical
  let u : ℕ → ℝ := fun d => if d = 0 then 1 else 0
  have gen : ∀ p, _ := fun p => generate_once (exPart_valid 5 p) (exE 1 fun _ => 1) (exE 1 fun _ => 1) (exE 1 fun _ => 1)
    .poisson rfl rfl rfl (fun _ _ => 1) (fun d => u (globalDof 1 (exCell p) d)) 0 1 0
  obtain ⟨z1, z2, z3, z4, -⟩ := generate_once (exWhole_valid 5) (exE 1 fun _ => 1) (exE 1 fun _ => 1) (exE 1 fun _ => 1)
    .poisson rfl rfl rfl (fun _ _ => 1) u 0 1 0
  have hex := fun p => C117_heat_partial (exPart_valid 5 p) (exPart_element 5 p 1).1 2 (exPart_element 5 p 1).2 (exWhole_first 5 p).2
    _ (gen p).1 (gen p).2.1 (gen p).2.2.1
  choose s hs using hex
  choose b hb using fun p => (hs p).2.2
  obtain ⟨s', h1, -, b', h4, h5⟩ := C117_heat_partial (exWhole_valid 5) (exWhole_element 5 1).1 3 (exWhole_element 5 1).2
    (exWhole_first 5 0).1 _ z1 z2 z3
  refine ⟨exPart 5, exWhole 5, fun _ => exE 1 fun _ => 1, fun _ => exE 1 fun _ => 1, exE 1 fun _ => 1, exE 1 fun _ => 1,
    fun p _ _ => p, exCell, exCell, _, _, _, _, fun _ _ _ => 1, fun _ _ => 1, u, fun _ => 2, 3,
    fun p _ => exPart_valid 5 p, exWhole_valid 5, fun p _ => (exPart_element 5 p 1).1, (exWhole_element 5 1).1,
    fun p hp => exPart_part 5 hp, exPart_once 5, fun p _ => exPart_elementPart 5 1 p, fun p _ => (exWhole_first 5 p).2,
    (exWhole_first 5 0).1, fun p _ i _ e _ c c' f _ _ m => by simp [midValue, exE], fun p _ => (gen p).1, z1,
    fun p _ => (exPart_element 5 p 1).2, (exWhole_element 5 1).2, fun p _ => (gen p).2.1, fun p _ => (gen p).2.2.1, z2, z3,
    fun p _ => (gen p).2.2.2.1, z4, b, b', fun p _ => ⟨s p, (hs p).1, (hb p).1⟩, ⟨s', h1, h4⟩, 0, by norm_num, ?_⟩
  have hp0 : ∀ v, heatTie (exPart 5 0) (exE 1 fun _ => 1) (exE 1 fun _ => 1) (fun _ _ => 1) 1 0
      (fun d => u (globalDof 1 (exCell 0) d)) v = 0 := by
    intro v
    have h : ∀ F : ℕ → ℕ → ℕ → ℕ → ℕ → ℝ, tieSum (exPart 5 0) F
        = if Tied (exPart 5 0) 0 0 0 then tieWeight (exPart 5 0) 0 0 0 * F 0 0 0 0 0 else 0 := by
      intro F
      simp [tieSum, exPart, exWhole]
    unfold heatTie
    rw [h, if_neg]
    rw [exPart_tied 5 (by norm_num) (by norm_num) (by norm_num)]
    norm_num
  have hb0 : ∀ d < 2, b 0 d = 0 := by
    intro d hd
    have := (hb 0).2 _ (gen 0).2.2.2.1 (fun k => if k = d then 1 else 0)
    rw [hp0] at this
    simpa [hd] using this
  have hb' : b' 0 = 1 / 2 := by
    have h := h5 u z4 u
    have e1 : ∑ d ∈ range 3, b' d * u d = b' 0 := by simp [u, sum_range_succ]
    have e2 : ∀ F : ℕ → ℕ → ℕ → ℕ → ℕ → ℝ, tieSum (exWhole 5) F = F 0 0 0 0 0 + F 0 1 1 0 0 := by
      intro F
      have : tieSum (exWhole 5) F = ∑ e ∈ range 2, (if Tied (exWhole 5) 0 e 0 then tieWeight (exWhole 5) e 0 0 * F 0 e e 0 0 else 0) := by
        simp [tieSum, exWhole, sum_range_succ]
      have hw : ∀ e, tieWeight (exWhole 5) e 0 0 = 1 := fun e => by simp [tieWeight, exWhole]
      rw [this, sum_range_succ, sum_range_one, if_pos (exWhole_tied 5 (by norm_num) (by norm_num)),
        if_pos (exWhole_tied 5 (by norm_num) (by norm_num)), hw, hw]
      ring
    have hJ : ∀ e, tieJumpAt (exWhole 5) (exE 1 fun _ => 1) 0 e e 0 u 0 0 = u e := by
      intro e
      simp [tieJumpAt, tieValue, tieOpposite, oppositeCell, exE, exWhole, u]
    have hG : ∀ e b, tieMeanGrad (exWhole 5) (exE 1 fun _ => 1) 0 e e 0 u 0 0 b = 0 := by
      intro e b
      simp [tieMeanGrad, tieGrad, tieOppositeGrad, exE, exWhole]
    have hm : ∀ e, midValue (exE 1 fun _ => 1) e 0 (fun _ => 1) = 1 := fun e => by simp [midValue, exE]
    rw [← e1, h]
    unfold heatTie
    rw [e2]
    simp only [heatPart, hJ, hG, hm]
    norm_num [u, exWhole]
  rw [hb', sum_range_succ, sum_range_one]
  have e1 : ∑ d ∈ range 2 with globalDof 1 (exCell 0) d = 0, b 0 d = 0 :=
    sum_eq_zero (fun d hd => hb0 d (mem_range.mp (mem_filter.mp hd).1))
  have e2 : ∑ d ∈ range 2 with globalDof 1 (exCell 1) d = 0, b 1 d = 0 := by
    refine sum_eq_zero (fun d hd => ?_)
    have h := (mem_filter.mp hd).2
    have hd' := mem_range.mp (mem_filter.mp hd).1
    interval_cases d <;> simp [globalDof, exCell] at h
  show (1 / 2 : ℝ) ≠ ∑ d ∈ range 2 with globalDof 1 (exCell 0) d = 0, b 0 d
    + ∑ d ∈ range 2 with globalDof 1 (exCell 1) d = 0, b 1 d
  rw [e1, e2]
  norm_num

end

end Verif.TieData
