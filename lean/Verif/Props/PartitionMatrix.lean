import Verif.Props.Partition
import Verif.Props.SystemTangent

/-!
Property C132: the contact matrix does not depend on how the problem is distributed.
-/

namespace Verif.ContactProblem

open Verif.Spec Verif.Packing Verif.Assembly Verif.Kernels Finset

noncomputable section

variable {G : Type}

theorem SamePoint.dForm {p p' : ContactPoint} (S : SamePoint p p') (law : Law) (gamma theta : ℝ)
    {J K J1 K1 J2 K2 : ℕ → ℝ} {D E D1 E1 D2 E2 : ℕ → ℕ → ℝ}
    (hJ : ∀ a < p'.g, J a = K a) (hD : ∀ a < p'.g, ∀ b < p'.g, D a b = E a b)
    (hJ1 : ∀ a < p'.g, J1 a = K1 a) (hD1 : ∀ a < p'.g, ∀ b < p'.g, D1 a b = E1 a b)
    (hJ2 : ∀ a < p'.g, J2 a = K2 a) (hD2 : ∀ a < p'.g, ∀ b < p'.g, D2 a b = E2 a b) :
    p.dForm cutSlope law gamma theta J D J1 D1 J2 D2 = p'.dForm cutSlope law gamma theta K E K1 E1 K2 E2 := by
  have hT := S.trac hD
  have hT1 := S.trac hD1
  have hT2 := S.trac hD2
  have hP : p.pressure gamma J D = p'.pressure gamma K E := by
    rw [ContactPoint.pressure, ContactPoint.pressure, S.dot hJ, S.dot S.gap, S.dot hT, S.h]
  have hdP : p.dPressure gamma J1 D1 = p'.dPressure gamma K1 E1 := by
    rw [ContactPoint.dPressure, ContactPoint.dPressure, S.dot hJ1, S.dot hT1, S.h]
  have hs : ∀ a < p'.g, p.slip gamma J D a = p'.slip gamma K E a := by
    intro a ha
    rw [ContactPoint.slip, ContactPoint.slip, S.tang hJ a ha, S.tang hT a ha, S.h]
  have hs1 : ∀ a < p'.g, p.slip gamma J1 D1 a = p'.slip gamma K1 E1 a := by
    intro a ha
    rw [ContactPoint.slip, ContactPoint.slip, S.tang hJ1 a ha, S.tang hT1 a ha, S.h]
  have hp : ∀ a < p'.g, p.dProjected cutSlope law gamma J D J1 D1 a = p'.dProjected cutSlope law gamma K E K1 E1 a := by
    intro a ha
    cases law with
    | frictionless => rfl
    | tresca =>
      simp only [ContactPoint.dProjected]
      rw [S.g, S.h, S.fric]
      exact cutSlope_congr hs rfl hs1 ha
    | coulomb =>
      simp only [ContactPoint.dProjected]
      rw [S.g, hP, hdP, S.fric, S.dot S.gap, S.dot hJ, S.dot hJ1]
      have hx : ∀ b < p'.g, p.slip gamma J D b - (p'.dot p'.gap - p'.dot K) * p.tang p.oldNormal b
          = p'.slip gamma K E b - (p'.dot p'.gap - p'.dot K) * p'.tang p'.oldNormal b :=
        fun b hb => by rw [hs b hb, S.tang S.oldNormal b hb]
      rw [cutSlope_congr hx rfl (fun b hb => by rw [hs1 b hb, S.tang S.oldNormal b hb]) ha,
        ballRadiusSlope_congr hx rfl ha]
  have n : p.dNormalPart gamma theta J D J1 D1 J2 D2 = p'.dNormalPart gamma theta K E K1 E1 K2 E2 := by
    rw [ContactPoint.dNormalPart, ContactPoint.dNormalPart, hP, hdP, S.dot hJ2, S.dot hT2, S.dot hT1, S.h]
  have f : p.dFrictionPart cutSlope law gamma theta J D J1 D1 J2 D2
      = p'.dFrictionPart cutSlope law gamma theta K E K1 E1 K2 E2 := by
    rw [ContactPoint.dFrictionPart, ContactPoint.dFrictionPart, S.h, S.g]
    congr 1
    · refine congrArg _ (sum_congr rfl (fun a ha => ?_))
      rw [hp a (mem_range.mp ha), S.tang hJ2 a (mem_range.mp ha), S.tang hT2 a (mem_range.mp ha)]
    · refine congrArg _ (sum_congr rfl (fun a ha => ?_))
      rw [S.tang hT1 a (mem_range.mp ha), S.tang hT2 a (mem_range.mp ha)]
  rw [ContactPoint.dForm, ContactPoint.dForm, n, f]

variable {Y Z : System G} {facet : ℕ → ℕ → ℕ} {dof : ℕ → ℕ}

/-- What an owned facet contributes to the linearised form. -/
def facetTangent (Y : System G) (t : Tracked G) (law : Law) (gamma theta : ℝ) (u w v : ℕ → ℝ) (i e : ℕ) : ℝ :=
  ((Y.facets i)[e]?).elim 0 (fun p => ∑ q ∈ range Y.nq,
      if 0 ≤ Y.map t.cur i (e * Y.nq + q) then
        weightAt Y p.1 p.2 q * (pointAt Y t i e p.1 p.2 q).dForm cutSlope law gamma theta
          (jumpAt Y t.cur i e p.1 p.2 u q)
          (fun a b => gradAt Y p.1 p.2 u q a b + (pointAt Y t i e p.1 p.2 q).grad0 a b)
          (jumpAt Y t.cur i e p.1 p.2 w q) (gradAt Y p.1 p.2 w q)
          (jumpAt Y t.cur i e p.1 p.2 v q) (gradAt Y p.1 p.2 v q)
      else 0)

theorem contactTangent_facets (Y : System G) (t : Tracked G) (law : Law) (gamma theta : ℝ) (u w v : ℕ → ℝ) :
    contactTangent Y t cutSlope law gamma theta u w v
      = ∑ i ∈ range Y.numPairs, ∑ e ∈ range (Y.localFacets i), facetTangent Y t law gamma theta u w v i e := rfl

theorem facetTangent_part (hY : System.Valid Y) (H : PartOf Y Z facet dof) {t t' : Tracked G}
    (T : SameTracked Y.numPairs Y.localFacets facet (Y.nq * Y.gdim * Y.gdim) t t') (law : Law) (gamma theta : ℝ)
    (u w v : ℕ → ℝ) {i e : ℕ} (hi : i < Z.numPairs) (he : e < Y.localFacets i) :
    facetTangent Y t law gamma theta (fun d => u (globalDof Y.gdim dof d)) (fun d => w (globalDof Y.gdim dof d))
        (fun d => v (globalDof Y.gdim dof d)) i e
      = facetTangent Z t' law gamma theta u w v i (facet i e) := by
  obtain ⟨h1, h2, h3, h4, h5⟩ := H.sizes
  obtain ⟨cell, cell', f, hf, hf', hj, hd⟩ := H.own i hi e he
  unfold facetTangent
  rw [hf, hf', Option.elim_some, Option.elim_some, h2]
  refine sum_congr rfl (fun q hq => ?_)
  have hq' := mem_range.mp hq
  obtain ⟨l1, -⟩ := H.linked t.cur i hi e he q hq'
  obtain ⟨-, P, hg, h0, hjump⟩ := part_point (f := f) hY H T hi he hj hd hq'
  rw [h2] at hjump
  rw [← T.cur] at hjump ⊢
  by_cases hl : 0 ≤ Y.map t.cur i (e * Z.nq + q)
  · rw [if_pos hl, if_pos (l1.mp hl), part_weight H hj]
    congr 1
    exact P.dForm law gamma theta (hjump hl u) (fun a ha b hb => by rw [hg u a ha b hb, h0 a ha b hb])
      (hjump hl w) (hg w) (hjump hl v) (hg v)
  · rw [if_neg hl, if_neg (fun h => hl (l1.mpr h))]

theorem unitNormals_part (hY : System.Valid Y) (H : PartOf Y Z facet dof) {t t' : Tracked G}
    (T : SameTracked Y.numPairs Y.localFacets facet (Y.nq * Y.gdim * Y.gdim) t t')
    (hfacet : ∀ i < Z.numPairs, ∀ e < Y.localFacets i, facet i e < Z.localFacets i)
    (hn : UnitNormals Z t') : UnitNormals Y t := by
  obtain ⟨h1, h2, h3, h4, h5⟩ := H.sizes
  intro i hi e he q hq hl
  rw [h1] at hi
  rw [h2] at hq hl
  obtain ⟨cell, cell', f, hf, hf', hj, hd⟩ := H.own i hi e he
  obtain ⟨e1, -⟩ := part_point (f := f) hY H T hi he hj hd hq
  obtain ⟨l1, -⟩ := H.linked t.cur i hi e he q hq
  have := hn i hi (facet i e) (hfacet i hi e he) q hq (by rw [← T.cur]; exact l1.mp hl)
  rw [← this, h4]
  refine sum_congr rfl (fun a ha => ?_)
  rw [← e1 a (mem_range.mp ha)]

/-- C132: the contact matrix does not depend on how the problem is distributed.  If every facet of the
contact surfaces is owned by exactly one process, and every process holds the data of its facets and makes
the same calls, then adding up the matrices assembled by the processes (entries which several processes
know get the sum, as `Mat.assemble` does) gives the matrix assembled by a single process. -/
theorem C132_matrix (P : ℕ) (Y : ℕ → System G) (Z : System G) (facet : ℕ → ℕ → ℕ → ℕ) (dof : ℕ → ℕ → ℕ)
    (hY : ∀ p < P, System.Valid (Y p)) (hZ : System.Valid Z) (hpart : ∀ p < P, PartOf (Y p) Z (facet p) (dof p))
    (hO : OwnedOnce P Y Z facet) (g : G)
    (ops : ℕ → List (Op G)) (ops' : List (Op G)) (hops : ∀ p < P, ∀ op ∈ ops p, OpShaped (Y p).static op)
    (hops' : ∀ op ∈ ops', OpShaped Z.static op)
    (hcalls : ∀ p < P, List.Forall₂ (SameCall Z.numPairs (Y p).localFacets (facet p)) (ops p) ops')
    (law : Law) (hlaw : lastLaw ops' none = some law)
    (h23 : law ≠ .frictionless → (Z.gdim = 2 ∨ Z.gdim = 3) ∧ UnitNormals Z ((Tracked.new g).history ops'))
    (hc : (history Z.static ops' (init Z.static g)).coeffs ≠ none)
    (N : ℕ → ℕ) (hN : ∀ p < P, DofsBelow (Y p) (N p)) (N' : ℕ) (hN' : DofsBelow Z N') (u : ℕ → ℝ) :
    ∃ (A : ℕ → Arr (ℕ × ℕ)) (A' : Arr (ℕ × ℕ)),
      (∀ p < P, ∃ s', updateContactData (Y p).static ((Y p).du (fun d => u (globalDof Z.gdim (dof p) d)))
          (history (Y p).static (ops p) (init (Y p).static g)) = .ok s' ∧ (Y p).assembleMatrix s' 0 = .ok (A p))
      ∧ (∃ s', updateContactData Z.static (Z.du u) (history Z.static ops' (init Z.static g)) = .ok s'
          ∧ Z.assembleMatrix s' 0 = .ok A')
      ∧ ∀ D < N', ∀ C < N', A' (D, C) = ∑ p ∈ range P, ∑ d ∈ range (N p) with globalDof Z.gdim (dof p) d = D,
          ∑ c ∈ range (N p) with globalDof Z.gdim (dof p) c = C, A p (d, c) := by
  obtain ⟨gamma, theta, hconsts⟩ := consts_of_law ops' hlaw
  have H' := good_history (static_shaped hZ) ops' hops' (good_init Z.static g)
  have hcr : ((Tracked.new g).history ops').created = true := by
    cases h : ((Tracked.new g).history ops').created with
    | false => exact absurd (H'.fresh h).1 hc
    | true => rfl
  have hT : ∀ p < P, SameTracked (Y p).numPairs (Y p).localFacets (facet p) ((Y p).nq * (Y p).gdim * (Y p).gdim)
      ((Tracked.new g).history (ops p)) ((Tracked.new g).history ops') := by
    intro p hp
    have hcp := hcalls p hp
    rw [← (hpart p hp).sizes.1] at hcp
    exact SameTracked.history hcp (hops p hp)
      ⟨rfl, rfl, rfl, fun _ _ _ _ => rfl, fun _ _ _ _ => rfl, fun _ _ _ _ => rfl, fun _ _ _ _ => rfl, fun _ _ _ _ _ _ => rfl⟩
  have hcp : ∀ p < P, (history (Y p).static (ops p) (init (Y p).static g)).coeffs ≠ none := by
    intro p hp
    have H := good_history (static_shaped (hY p hp)) (ops p) (hops p hp) (good_init (Y p).static g)
    obtain ⟨cs, nQ, h, -⟩ := H.full ((hT p hp).created.trans hcr)
    rw [h]
    simp
  have form := fun (p : ℕ) (hp : p < P) => C131_matrix (hY p hp) (ops p) (hops p hp) g law
    ((same_law (hcalls p hp) none).trans hlaw)
    (fun h => ⟨by rw [(hpart p hp).sizes.2.2.2.1]; exact (h23 h).1,
      unitNormals_part (hY p hp) (hpart p hp) (hT p hp) (fun i hi e he => (hO i hi).1 p hp e he) (h23 h).2⟩) gamma theta
    ((same_consts (hcalls p hp) none).trans hconsts) _ rfl (hcp p hp) (N p) (hN p hp)
    (fun d => u (globalDof Z.gdim (dof p) d))
  obtain ⟨s', A', h1', h2', h3'⟩ := C131_matrix hZ ops' hops' g law hlaw h23 gamma theta hconsts _ rfl hc N' hN' u
  have hex : ∀ p, ∃ Ap : Arr (ℕ × ℕ), p < P → (∃ s',
      updateContactData (Y p).static ((Y p).du (fun d => u (globalDof Z.gdim (dof p) d)))
          (history (Y p).static (ops p) (init (Y p).static g)) = .ok s' ∧ (Y p).assembleMatrix s' 0 = .ok Ap)
      ∧ ∀ w v : ℕ → ℝ, ∑ d ∈ range (N p), ∑ c ∈ range (N p), v d * Ap (d, c) * w c
        = contactTangent (Y p) ((Tracked.new g).history (ops p)) cutSlope law gamma theta
          (fun d => u (globalDof Z.gdim (dof p) d)) w v := by
    intro p
    by_cases hp : p < P
    · obtain ⟨s2, A2, h1, h2, h3⟩ := form p hp
      exact ⟨A2, fun _ => ⟨⟨s2, h1, h2⟩, h3⟩⟩
    · exact ⟨0, fun h => absurd h hp⟩
  choose A hA using hex
  refine ⟨A, A', fun p hp => (hA p hp).1, ⟨s', h1', h2'⟩, fun D hD C hC => ?_⟩
  obtain ⟨δ, hδ⟩ : ∃ δ : ℕ → ℕ → ℝ, δ = fun k d => if d = k then 1 else 0 := ⟨_, rfl⟩
  have e' : ∑ d ∈ range N', ∑ c ∈ range N', δ D d * A' (d, c) * δ C c = A' (D, C) := by
    rw [hδ]
    simp [hD, hC]
  rw [← e', h3', contactTangent_facets]
  have e : ∀ p ∈ range P, ∑ d ∈ range (N p) with globalDof Z.gdim (dof p) d = D,
      ∑ c ∈ range (N p) with globalDof Z.gdim (dof p) c = C, A p (d, c)
      = ∑ i ∈ range Z.numPairs, ∑ e ∈ range ((Y p).localFacets i),
        facetTangent Z ((Tracked.new g).history ops') law gamma theta u (δ C) (δ D) i (facet p i e) := by
    intro p hp
    have hp' := mem_range.mp hp
    have h8 := (hA p hp').2 (fun d => δ C (globalDof Z.gdim (dof p) d)) (fun d => δ D (globalDof Z.gdim (dof p) d))
    have hsum : ∑ d ∈ range (N p), ∑ c ∈ range (N p),
          δ D (globalDof Z.gdim (dof p) d) * A p (d, c) * δ C (globalDof Z.gdim (dof p) c)
        = ∑ d ∈ range (N p) with globalDof Z.gdim (dof p) d = D,
            ∑ c ∈ range (N p) with globalDof Z.gdim (dof p) c = C, A p (d, c) := by
      rw [sum_filter, hδ]
      refine sum_congr rfl (fun d _ => ?_)
      split
      · rw [sum_filter]
        exact sum_congr rfl (fun c _ => by split <;> simp [*])
      · exact sum_eq_zero (fun c _ => by simp [*])
    rw [← hsum, h8, contactTangent_facets, (hpart p hp').sizes.1]
    refine sum_congr rfl (fun i hi => sum_congr rfl (fun e he => ?_))
    have := facetTangent_part (hY p hp') (hpart p hp') (hT p hp') law gamma theta u (δ C) (δ D) (mem_range.mp hi) (mem_range.mp he)
    rw [(hpart p hp').sizes.2.2.2.1] at this
    exact this
  rw [sum_congr rfl e, sum_comm]
  exact sum_congr rfl (fun i hi => sum_owned hO (mem_range.mp hi) _)

/-- The hypotheses of C132 hold for two processes, each with one facet, and Coulomb friction. -/
example : System.Valid exY ∧ System.Valid exZ
    ∧ (∀ p < 2, PartOf exY exZ (fun _ _ => p) (fun d => if d = 0 then p else 2))
    ∧ OwnedOnce 2 (fun _ => exY) exZ (fun p _ _ => p)
    ∧ (∀ op ∈ exSysOps, OpShaped exY.static op) ∧ (∀ op ∈ exOpsZ, OpShaped exZ.static op)
    ∧ (∀ p < 2, List.Forall₂ (SameCall exZ.numPairs exY.localFacets (fun _ _ => p)) exSysOps exOpsZ)
    ∧ lastLaw exOpsZ none = some .coulomb ∧ exZ.gdim = 2 ∧ UnitNormals exZ ((Tracked.new ()).history exOpsZ)
    ∧ (history exZ.static exOpsZ (init exZ.static ())).coeffs ≠ none ∧ DofsBelow exY 4 ∧ DofsBelow exZ 6 := by
  obtain ⟨h1, h2, h3, h4, h5, h6, h7, h8, h9, h10, h11, h12⟩ := exZ_parts
  refine ⟨h1, h2, h3, h4, h5, h6, h7, h8, h9, ?_, h10, h11, h12⟩
  intro i _ e _ q hq _
  have hq0 : q = 0 := Nat.lt_one_iff.mp hq
  subst hq0
  simp [exZ, exY, contactNormalAt, sum_range_succ]

end

end Verif.ContactProblem
