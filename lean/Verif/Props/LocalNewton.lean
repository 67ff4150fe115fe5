import Verif.Props.WellPosed

/-!
Property C145: without friction, a Newton step from near the solution gives the solution.
-/

namespace Verif.ContactProblem

open Verif.Spec Verif.Packing Verif.Assembly Verif.Kernels Verif.Lemmas Finset

noncomputable section

variable {G : Type} {Y : System G}

/-- The pressure at a quadrature point as a function of the displacement. -/
def pressureAt (Y : System G) (t : Tracked G) (gamma : ℝ) (i e cell f q : ℕ) (u : ℕ → ℝ) : ℝ :=
  (pointAt Y t i e cell f q).pressure gamma (jumpAt Y t.cur i e cell f u q)
    (fun a b => gradAt Y cell f u q a b + (pointAt Y t i e cell f q).grad0 a b)

/-- Open points stay open and closed points stay closed from `u'` to `u`; points at the switch may do either. -/
def NearStatus (Y : System G) (t : Tracked G) (gamma : ℝ) (u u' : ℕ → ℝ) : Prop :=
  ∀ i < Y.numPairs, ∀ e < Y.localFacets i, ∀ cell f, (Y.facets i)[e]? = some (cell, f) → ∀ q < Y.nq,
    pressureAt Y t gamma i e cell f q u' ≠ 0 →
      (0 < pressureAt Y t gamma i e cell f q u ↔ 0 < pressureAt Y t gamma i e cell f q u')

theorem pressureAt_lip {X : Type} [PseudoMetricSpace X] {U : X → ℕ → ℝ} (hU : ∀ d, Lip (fun x => U x d))
    (t : Tracked G) (gamma : ℝ) (i e cell f q : ℕ) : Lip (fun x => pressureAt Y t gamma i e cell f q (U x)) := by
  unfold pressureAt ContactPoint.pressure
  refine Lip.sub (Lip.sub (dot_lip (fun a _ => jumpAt_lip hU _ _ _ _ _ _ a)) (Lip.const _)) (Lip.const_mul ?_ _)
  exact dot_lip (fun a ha => trac_lip (fun a b => (gradAt_lip hU _ _ _ a b).add (Lip.const _)) ha)

theorem nearStatus_eventually {X : Type} [PseudoMetricSpace X] {U : X → ℕ → ℝ} (hU : ∀ d, Lip (fun x => U x d))
    (t : Tracked G) (gamma : ℝ) (x0 : X) : ∀ᶠ x in nhds x0, NearStatus Y t gamma (U x) (U x0) := by
  have h : ∀ i ∈ range Y.numPairs, ∀ᶠ x in nhds x0, ∀ e ∈ range (Y.localFacets i), ∀ cell f,
      (Y.facets i)[e]? = some (cell, f) → ∀ q ∈ range Y.nq, pressureAt Y t gamma i e cell f q (U x0) ≠ 0 →
        (0 < pressureAt Y t gamma i e cell f q (U x) ↔ 0 < pressureAt Y t gamma i e cell f q (U x0)) := by
    intro i _
    rw [Filter.eventually_all_finset]
    intro e _
    cases hf : (Y.facets i)[e]? with
    | none => exact Filter.Eventually.of_forall (fun x cell f h => nomatch h)
    | some c =>
      have hq : ∀ᶠ x in nhds x0, ∀ q ∈ range Y.nq, pressureAt Y t gamma i e c.1 c.2 q (U x0) ≠ 0 →
          (0 < pressureAt Y t gamma i e c.1 c.2 q (U x) ↔ 0 < pressureAt Y t gamma i e c.1 c.2 q (U x0)) := by
        rw [Filter.eventually_all_finset]
        intro q _
        have hcont := (pressureAt_lip (Y := Y) hU t gamma i e c.1 c.2 q).continuous.continuousAt (x := x0)
        rcases lt_trichotomy (pressureAt Y t gamma i e c.1 c.2 q (U x0)) 0 with h0 | h0 | h0
        · filter_upwards [hcont.eventually_lt continuousAt_const h0] with x hx _
          exact ⟨fun h => absurd h (not_lt.mpr hx.le), fun h => absurd h (not_lt.mpr h0.le)⟩
        · exact Filter.Eventually.of_forall (fun x h => absurd h0 h)
        · filter_upwards [continuousAt_const.eventually_lt hcont h0] with x hx _
          exact ⟨fun _ => h0, fun _ => hx⟩
      filter_upwards [hq] with x hx cell f hcf q hqm
      obtain rfl : c = (cell, f) := Option.some.inj hcf
      exact hx q hqm
  rw [← Filter.eventually_all_finset] at h
  filter_upwards [h] with x hx i hi e he cell f hf q hq
  exact hx i (mem_range.mpr hi) e (mem_range.mpr he) cell f hf q (mem_range.mpr hq)

/-- Without friction the form is affine from `u` to `u + w` if points closed or open at `u + w` have the same status
at `u`. -/
theorem contactForm_affine_near (t : Tracked G) (gamma theta : ℝ) (u w v : ℕ → ℝ)
    (hst : NearStatus Y t gamma u (fun d => u d + w d)) :
    contactForm Y t .frictionless gamma theta (fun d => u d + w d) v
      = contactForm Y t .frictionless gamma theta u v + contactTangent Y t cutSlope .frictionless gamma theta u w v := by
  unfold contactForm contactTangent
  rw [← sum_add_distrib]
  refine sum_congr rfl (fun i hi => ?_)
  rw [← sum_add_distrib]
  refine sum_congr rfl (fun e he => ?_)
  cases hf : (Y.facets i)[e]? with
  | none => simp only [Option.elim_none, add_zero]
  | some c =>
    obtain ⟨cell, f⟩ := c
    simp only [Option.elim_some]
    rw [← sum_add_distrib]
    refine sum_congr rfl (fun q hq => ?_)
    by_cases hl : 0 ≤ Y.map t.cur i (e * Y.nq + q)
    · simp only [if_pos hl]
      have h := hst i (mem_range.mp hi) e (mem_range.mp he) cell f hf q (mem_range.mp hq)
      unfold pressureAt at h
      rw [← mul_add]
      congr 1
      have hJ : ∀ a < (pointAt Y t i e cell f q).g, jumpAt Y t.cur i e cell f (fun d => u d + w d) q a
          = jumpAt Y t.cur i e cell f u q a + jumpAt Y t.cur i e cell f w q a := by
        intro a _
        have := jumpAt_line (Y := Y) t.cur i e cell f u w q a 1
        simpa using this
      have hD : ∀ a < (pointAt Y t i e cell f q).g, ∀ b < (pointAt Y t i e cell f q).g,
          gradAt Y cell f (fun d => u d + w d) q a b + (pointAt Y t i e cell f q).grad0 a b
          = (gradAt Y cell f u q a b + (pointAt Y t i e cell f q).grad0 a b) + gradAt Y cell f w q a b := by
        intro a _ b _
        have := gradAt_line (Y := Y) cell f u w q a b 1
        simp only [one_mul] at this
        rw [this]
        ring
      unfold ContactPoint.form ContactPoint.dForm
      simp only [if_true, add_zero]
      unfold ContactPoint.normalPart ContactPoint.dNormalPart
      have hp := pressure_sum hJ hD gamma
      have hm : max 0 ((pointAt Y t i e cell f q).pressure gamma (jumpAt Y t.cur i e cell f (fun d => u d + w d) q)
            (fun a b => gradAt Y cell f (fun d => u d + w d) q a b + (pointAt Y t i e cell f q).grad0 a b))
          = max 0 ((pointAt Y t i e cell f q).pressure gamma (jumpAt Y t.cur i e cell f u q)
            (fun a b => gradAt Y cell f u q a b + (pointAt Y t i e cell f q).grad0 a b))
          + step ((pointAt Y t i e cell f q).pressure gamma (jumpAt Y t.cur i e cell f u q)
            (fun a b => gradAt Y cell f u q a b + (pointAt Y t i e cell f q).grad0 a b))
            * (pointAt Y t i e cell f q).dPressure gamma (jumpAt Y t.cur i e cell f w q) (gradAt Y cell f w q) := by
        by_cases h0 : (pointAt Y t i e cell f q).pressure gamma (jumpAt Y t.cur i e cell f (fun d => u d + w d) q)
            (fun a b => gradAt Y cell f (fun d => u d + w d) q a b + (pointAt Y t i e cell f q).grad0 a b) = 0
        · rw [h0, max_self]
          rw [h0] at hp
          unfold step
          split
          · rename_i h1
            rw [max_eq_right h1.le]; linarith
          · rename_i h1
            rw [max_eq_left (not_lt.mp h1)]; ring
        · exact step_sum hJ hD (h h0)
      have ht := dot_plus (trac_plus hD)
      rw [hm]
      linear_combination (-(1 / 2 * theta * ((pointAt Y t i e cell f q).h / gamma))
        * (pointAt Y t i e cell f q).dot ((pointAt Y t i e cell f q).trac (gradAt Y cell f v q))) * ht
    · simp only [if_neg hl, add_zero]

/-- C145: without friction Newton's method converges in one step from near the solution, also if the solution has
points at the switch between open and closed.  There is a neighbourhood of the solution `us` such that for every
`u` in it, with the same values of the constrained dofs, `u` plus the solution `w` of the linear system assembled
at `u` is `us`. -/
theorem C145_one_step (hY : System.Valid Y) (ops : List (Op G)) (hops : ∀ op ∈ ops, OpShaped Y.static op)
    (g : G) (hlaw : lastLaw ops none = some .frictionless)
    (gamma theta : ℝ) (hγ : 0 < gamma) (hconsts : lastConsts ops none = some (gamma, theta))
    (s : State G) (hs : s = history Y.static ops (init Y.static g)) (hc : s.coeffs ≠ none)
    (hh : ∀ i < Y.numPairs, ∀ e < Y.localFacets i, 0 < ((Tracked.new g).history ops).h i e 0)
    (hwt : ∀ i < Y.numPairs, ∀ p ∈ Y.facets i, ∀ q < Y.nq, 0 ≤ weightAt Y p.1 p.2 q)
    (N : ℕ) (hN : DofsBelow Y N) (F : Finset ℕ) (hF : ∀ d ∈ F, d < N) (K : ℕ → ℕ → ℝ)
    (hK : Coercive Y ((Tracked.new g).history ops) .frictionless gamma theta N F K)
    (l us : ℕ → ℝ) (ss : State G) (bs : Arr ℕ)
    (h1 : updateContactData Y.static (Y.du us) s = .ok ss) (h2 : Y.assembleVector ss 0 = .ok bs)
    (hsol : ∀ d ∈ F, ∑ c ∈ range N, K d c * us c - l d + bs d = 0) :
    ∃ ε > 0, ∀ u : ℕ → ℝ, (∀ d, d ∉ F → u d = us d) → (∀ d ∈ F, |u d - us d| < ε) →
      ∃ (s' : State G) (b : Arr ℕ) (A : Arr (ℕ × ℕ)), updateContactData Y.static (Y.du u) s = .ok s'
        ∧ Y.assembleVector s' 0 = .ok b ∧ Y.assembleMatrix s' 0 = .ok A
        ∧ ∀ w : ℕ → ℝ, (∀ d, d ∉ F → w d = 0) →
          (∀ d ∈ F, ∑ c ∈ range N, (K d c + A (d, c)) * w c = -(∑ c ∈ range N, K d c * u c - l d + b d)) →
          ∀ d, u d + w d = us d := by
  have hl : Law.frictionless ≠ .coulomb := by simp
  obtain ⟨b, hb1, hb⟩ := vector_of hY ops hops g .frictionless hlaw (fun h => absurd rfl h) gamma theta hconsts s hs hc N hN
  obtain ⟨x0, hx0⟩ := extend_of (F := F) us us (fun _ _ => rfl)
  obtain ⟨δ, hδ, hball⟩ := Metric.eventually_nhds_iff.mp
    (nearStatus_eventually (Y := Y) (extend_lip (F := F) us) ((Tracked.new g).history ops) gamma x0)
  refine ⟨δ / (F.card + 1), by positivity, fun u hu hclose => ?_⟩
  obtain ⟨x, hx⟩ := extend_of (F := F) us u hu
  have hdist : dist x x0 < δ := by
    rw [dist_eq_norm, EuclideanSpace.norm_eq]
    have hd : ∀ d : F, |(x - x0) d| ≤ δ / (F.card + 1) := by
      intro d
      have e1 : x d = u d := by
        rw [← hx]; unfold extend; rw [dif_pos d.2]
      have e2 : x0 d = us d := by
        have := congrFun hx0 d
        unfold extend at this
        rwa [dif_pos d.2] at this
      show |x d - x0 d| ≤ _
      rw [e1, e2]
      exact (hclose d d.2).le
    have h3 : ∑ d : F, ‖(x - x0) d‖ ^ 2 ≤ (∑ d : F, |(x - x0) d|) ^ 2 := by
      have := sum_sq_le_sq_sum_of_nonneg (s := (Finset.univ : Finset F)) (f := fun d => |(x - x0) d|) (fun d _ => abs_nonneg _)
      simpa only [Real.norm_eq_abs] using this
    refine lt_of_le_of_lt ((Real.sqrt_le_sqrt h3).trans_eq (Real.sqrt_sq (sum_nonneg (fun _ _ => abs_nonneg _)))) ?_
    refine lt_of_le_of_lt (sum_le_sum (fun d _ => hd d)) ?_
    rw [sum_const, nsmul_eq_mul, card_univ, Fintype.card_coe, mul_div_assoc', div_lt_iff₀ (by positivity)]
    nlinarith
  have hnear := hball hdist
  rw [hx, hx0] at hnear
  obtain ⟨s', A, k1, k2, w0, -, hw0⟩ := C144_solvable hY ops hops g .frictionless hlaw hl gamma theta hγ hconsts s hs hc hh hwt N hN F hF K
    hK (fun h => nomatch h) u (fun d => -(∑ c ∈ range N, K d c * u c - l d + b u d))
  obtain ⟨s'', m1, m2⟩ := hb1 u
  obtain rfl : s'' = s' := Except.ok.inj (m1.symm.trans k1)
  obtain ⟨ss', n1, n2⟩ := hb1 us
  obtain rfl : ss' = ss := Except.ok.inj (n1.symm.trans h1)
  obtain rfl : bs = b us := Except.ok.inj (h2.symm.trans n2)
  refine ⟨s'', b u, A, k1, m2, k2, fun w hw0' hw d => ?_⟩
  have eus : (fun d => u d + (us d - u d)) = us := by funext d; ring
  have hform : ∀ v, contactForm Y ((Tracked.new g).history ops) .frictionless gamma theta us v
      = contactForm Y ((Tracked.new g).history ops) .frictionless gamma theta u v
        + contactTangent Y ((Tracked.new g).history ops) cutSlope .frictionless gamma theta u (fun d => us d - u d) v := by
    intro v
    have := contactForm_affine_near (Y := Y) ((Tracked.new g).history ops) gamma theta u (fun d => us d - u d) v (by rw [eus]; exact hnear)
    rwa [eus] at this
  have hA : ∀ w v : ℕ → ℝ, ∑ d ∈ range N, ∑ c ∈ range N, v d * A (d, c) * w c
      = contactTangent Y ((Tracked.new g).history ops) cutSlope .frictionless gamma theta u w v := by
    obtain ⟨s3, A3, p1, p2, p3⟩ := C131_matrix hY ops hops g .frictionless hlaw (fun h => absurd rfl h) gamma theta hconsts s hs hc N hN u
    obtain rfl : s3 = s'' := Except.ok.inj (p1.symm.trans k1)
    obtain rfl : A3 = A := Except.ok.inj (p2.symm.trans k2)
    exact p3
  have hbus : ∀ d < N, b us d = b u d + ∑ c ∈ range N, A (d, c) * (us c - u c) := by
    intro d hd
    have h5 := hform (fun c => if c = d then 1 else 0)
    rw [← hb, ← hb, ← hA] at h5
    simpa [hd] using h5
  have hz := hw0 (fun d => us d - u d) ⟨fun d hd => sub_eq_zero.mpr (hu d hd).symm, fun d hd => by
    have e1 := hbus d (hF d hd)
    have e2 := hsol d hd
    rw [e1] at e2
    have e3 : ∑ c ∈ range N, (K d c + A (d, c)) * (us c - u c)
        = ∑ c ∈ range N, K d c * us c - ∑ c ∈ range N, K d c * u c + ∑ c ∈ range N, A (d, c) * (us c - u c) := by
      rw [← sum_sub_distrib, ← sum_add_distrib]
      exact sum_congr rfl (fun c _ => by ring)
    rw [e3]
    linarith⟩
  have hw' := hw0 w ⟨hw0', hw⟩
  have := congrFun (hw'.trans hz.symm) d
  rw [this]; ring

/-- Generate the data for contact without friction. -/
def exOpsFree (theta : ℝ) : List (Op Unit) :=
  [.generate ⟨.frictionless, some (fun _ => ⟨1, 1, fun _ _ => 3⟩), some (fun _ => ⟨1, 1, fun _ _ => 5⟩),
    none, none, none, fun _ => ⟨1, 1, fun _ _ => 1⟩, 10, theta⟩]

/-- The hypotheses of C145 hold for the example, with `theta = 1` and any displacement `us`, which is the solution
for the load `l`: also for the `us` which is `-5 / 3` at dof 1 and zero
elsewhere, at which the point is at the switch. -/
example : System.Valid exY ∧ (∀ op ∈ exOpsFree 1, OpShaped exY.static op)
    ∧ lastLaw (exOpsFree 1) none = some .frictionless ∧ lastConsts (exOpsFree 1) none = some (10, 1)
    ∧ (∀ i < exY.numPairs, ∀ e < exY.localFacets i, 0 < ((Tracked.new ()).history (exOpsFree 1)).h i e 0)
    ∧ Coercive exY ((Tracked.new ()).history (exOpsFree 1)) .frictionless 10 1 4 {1, 2, 3} (fun d c => if d = c then 100 else 0)
    ∧ (∀ us : ℕ → ℝ, ∃ (ss : State Unit) (bs : Arr ℕ) (l : ℕ → ℝ),
      updateContactData exY.static (exY.du us) (history exY.static (exOpsFree 1) (init exY.static ())) = .ok ss
      ∧ exY.assembleVector ss 0 = .ok bs
      ∧ ∀ d ∈ ({1, 2, 3} : Finset ℕ), ∑ c ∈ range 4, (if d = c then 100 else 0) * us c - l d + bs d = 0)
    ∧ pressureAt exY ((Tracked.new ()).history (exOpsFree 1)) 10 0 0 0 2 0
      (fun d => if d = 1 then -(5 / 3) else 0) = 0 := by
  have hsh : ∀ op ∈ exOpsFree 1, OpShaped exY.static op := by
    simp [exOpsFree, OpShaped, ScalarShaped, System.static, exY]
  refine ⟨exY_valid, hsh, rfl, rfl, ?_, ?_, ?_, ?_⟩
  · intro i hi e he
    simp [exOpsFree, Tracked.history, Tracked.call, vals]
  · rintro v hv ⟨d, hd⟩
    have h0 : v 0 = 0 := hv 0 (by decide)
    have hpos : 0 < v 1 ^ 2 + v 2 ^ 2 + v 3 ^ 2 := by
      have hmem : d ∈ ({1, 2, 3} : Finset ℕ) := by
        by_contra h
        exact hd (hv d h)
      simp only [Finset.mem_insert, Finset.mem_singleton] at hmem
      rcases hmem with rfl | rfl | rfl <;> positivity
    have e : tractionSquare exY ((Tracked.new ()).history (exOpsFree 1)) .frictionless v = (22 * v 1) ^ 2 := by
      simp [tractionSquare, ContactPoint.tractionSquare, ContactPoint.dot, ContactPoint.trac, pointAt,
        contactNormalAt, outwardAt, gradAt, weightAt, exY, exOpsFree, Tracked.history, Tracked.call, vals, sum_range_succ,
        Elasticity.traction_eq, h0]
      ring
    rw [e]
    simp [sum_range_succ, h0]
    norm_num
    nlinarith [sq_nonneg (v 1), sq_nonneg (v 2), sq_nonneg (v 3)]
  · intro us
    have hc : (history exY.static (exOpsFree 1) (init exY.static ())).coeffs ≠ none := by
      rcases C38_size (static_shaped exY_valid) _ hsh () with ⟨h, -⟩ | ⟨-, cs, h, -⟩
      · simp [exOpsFree, Tracked.history, Tracked.call] at h
      · rw [h]; simp
    obtain ⟨ss, bs, h1, h2, -⟩ := C114_form exY_valid (exOpsFree 1) hsh () .frictionless rfl (fun h => absurd rfl h) 10 1 rfl
      _ rfl hc 4 (by refine ⟨?_, ?_⟩ <;> simp [exY]) us 0
    exact ⟨ss, bs, fun d => ∑ c ∈ range 4, (if d = c then 100 else 0) * us c + bs d, h1, h2, fun d _ => by ring⟩
  · simp [pressureAt, ContactPoint.pressure, ContactPoint.dot, ContactPoint.trac, pointAt, jumpAt, valueAt, oppositeAt,
      contactNormalAt, outwardAt, gradAt, exY, exOpsFree, Tracked.history, Tracked.call, vals,
      Elasticity.traction_eq]
    norm_num

end

end Verif.ContactProblem
