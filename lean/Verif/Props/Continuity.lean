import Verif.Props.ContactEnergy

/-!
C136: the contact vector depends continuously on the displacement.
-/

namespace Verif.ContactProblem

open Verif.Spec Verif.Packing Verif.Assembly Verif.Entities Verif.Kernels Finset

noncomputable section

variable {G : Type} {Y : System G}

section Point

variable {X : Type} [TopologicalSpace X] {p : ContactPoint} {J : X → ℕ → ℝ} {D : X → ℕ → ℕ → ℝ}

theorem dot_cont (hJ : ∀ a, Continuous (fun s => J s a)) : Continuous (fun s => p.dot (J s)) :=
  continuous_finsetSum _ (fun a _ => (hJ a).mul_const _)

theorem tang_cont (hJ : ∀ a, Continuous (fun s => J s a)) (a : ℕ) : Continuous (fun s => p.tang (J s) a) :=
  (hJ a).sub ((dot_cont hJ).mul_const _)

theorem trac_cont (hD : ∀ a b, Continuous (fun s => D s a b)) {a : ℕ} (ha : a < p.g) :
    Continuous (fun s => p.trac (D s) a) := by
  unfold ContactPoint.trac
  simp only [Elasticity.traction_eq _ _ _ _ _ _ ha]
  refine Continuous.add ?_ ?_
  · exact continuous_finsetSum _ (fun j _ => (((hD j a).add (hD a j)).const_mul _).mul_const _)
  · exact (Continuous.const_mul (continuous_finsetSum _ (fun j _ => hD j j)) _).mul_const _

theorem dot_trac_cont (hD : ∀ a b, Continuous (fun s => D s a b)) : Continuous (fun s => p.dot (p.trac (D s))) :=
  continuous_finsetSum _ (fun a ha => (trac_cont hD (mem_range.mp ha)).mul_const _)

theorem tang_trac_cont (hD : ∀ a b, Continuous (fun s => D s a b)) {a : ℕ} (ha : a < p.g) :
    Continuous (fun s => p.tang (p.trac (D s)) a) :=
  (trac_cont hD ha).sub ((dot_trac_cont hD).mul_const _)

theorem pressure_cont (gamma : ℝ) (hJ : ∀ a, Continuous (fun s => J s a)) (hD : ∀ a b, Continuous (fun s => D s a b)) :
    Continuous (fun s => p.pressure gamma (J s) (D s)) :=
  ((dot_cont hJ).sub continuous_const).sub ((dot_trac_cont hD).const_mul _)

theorem slip_cont (gamma : ℝ) (hJ : ∀ a, Continuous (fun s => J s a)) (hD : ∀ a b, Continuous (fun s => D s a b))
    {a : ℕ} (ha : a < p.g) : Continuous (fun s => p.slip gamma (J s) (D s) a) :=
  (tang_cont hJ a).sub ((tang_trac_cont hD ha).const_mul _)

/-- The projection onto a ball depends continuously on the vector and on the radius. -/
theorem ball_cont {g : ℕ} {x : X → ℕ → ℝ} {r : X → ℝ} (hx : ∀ a < g, Continuous (fun s => x s a))
    (hr : Continuous r) (h0 : ∀ s, 0 ≤ r s) {a : ℕ} (ha : a < g) : Continuous (fun s => ball g (x s) (r s) a) := by
  have hS : Continuous (fun s => Real.sqrt (∑ b ∈ range g, x s b ^ 2)) :=
    (continuous_finsetSum _ (fun b hb => (hx b (mem_range.mp hb)).pow 2)).sqrt
  rw [continuous_iff_continuousAt]
  intro s
  by_cases hz : Real.sqrt (∑ b ∈ range g, x s b ^ 2) = 0
  · -- bounded by the vector, which vanishes here
    have hxa : x s a = 0 := by
      have : ∑ b ∈ range g, x s b ^ 2 = 0 := (Real.sqrt_eq_zero (sum_nonneg (fun _ _ => sq_nonneg _))).mp hz
      exact pow_eq_zero_iff two_ne_zero |>.mp
        ((sum_eq_zero_iff_of_nonneg (fun _ _ => sq_nonneg _)).mp this a (mem_range.mpr ha))
    have hb : ∀ s', |ball g (x s') (r s') a| ≤ |x s' a| := by
      intro s'
      unfold ball
      split
      · exact le_rfl
      · rename_i h
        have hN : 0 < Real.sqrt (∑ b ∈ range g, x s' b ^ 2) := lt_of_le_of_lt (h0 s') (not_le.mp h)
        have e : r s' * x s' a / Real.sqrt (∑ b ∈ range g, x s' b ^ 2)
            = r s' / Real.sqrt (∑ b ∈ range g, x s' b ^ 2) * x s' a := by ring
        first
          | rw [e, abs_mul]
          | rw [abs_mul]
        rw [abs_of_nonneg (div_nonneg (h0 s') hN.le)]
        exact mul_le_of_le_one_left (abs_nonneg _) ((div_le_one hN).mpr (not_le.mp h).le)
    have hb0 : ball g (x s) (r s) a = 0 := by
      have := hb s
      rw [hxa, abs_zero] at this
      exact abs_eq_zero.mp (le_antisymm this (abs_nonneg _))
    show Filter.Tendsto (fun s' => ball g (x s') (r s') a) (nhds s) (nhds (ball g (x s) (r s) a))
    rw [hb0]
    refine squeeze_zero_norm (a := fun s' => |x s' a|) hb ?_
    have := ((hx a ha).abs).tendsto s
    rwa [hxa, abs_zero] at this
  · have hpos : 0 < Real.sqrt (∑ b ∈ range g, x s b ^ 2) := lt_of_le_of_ne (Real.sqrt_nonneg _) (Ne.symm hz)
    have hc : ContinuousAt (fun s' => min 1 (r s' / Real.sqrt (∑ b ∈ range g, x s' b ^ 2)) * x s' a) s :=
      (continuousAt_const.min (hr.continuousAt.div hS.continuousAt hz)).mul (hx a ha).continuousAt
    refine hc.congr ?_
    filter_upwards [continuousAt_const.eventually_lt hS.continuousAt hpos] with s' hs'
    unfold ball
    split
    · rename_i h
      rw [min_eq_left ((one_le_div hs').mpr h), one_mul]
    · rename_i h
      rw [min_eq_right ((div_le_one hs').mpr (not_le.mp h).le)]
      try ring

theorem form_cont (law : Law) (gamma theta : ℝ) (hJ : ∀ a, Continuous (fun s => J s a))
    (hD : ∀ a b, Continuous (fun s => D s a b)) (ht : law = .tresca → 0 ≤ p.h / gamma * p.fric)
    (hcl : law = .coulomb → 0 ≤ p.fric) (J' : ℕ → ℝ) (D' : ℕ → ℕ → ℝ) :
    Continuous (fun s => p.form law gamma theta (J s) (D s) J' D') := by
  have hP := pressure_cont (p := p) gamma hJ hD
  unfold ContactPoint.form
  refine Continuous.add ?_ ?_
  · unfold ContactPoint.normalPart
    exact ((((continuous_const.max hP).const_mul _).mul_const _)).sub (((dot_trac_cont hD).const_mul _).mul_const _)
  · by_cases hl : law = .frictionless
    · simp only [hl, if_true]; exact continuous_const
    · simp only [hl, if_false]
      unfold ContactPoint.frictionPart
      refine Continuous.sub ?_ ?_
      · refine Continuous.const_mul (continuous_finsetSum _ (fun a ha => Continuous.mul_const ?_ _)) _
        have ha' := mem_range.mp ha
        unfold ContactPoint.projected
        cases law with
        | frictionless => exact absurd rfl hl
        | tresca => exact ball_cont (fun a ha => slip_cont gamma hJ hD ha) continuous_const (fun _ => ht rfl) ha'
        | coulomb =>
          refine ball_cont (fun a ha => ?_) ((continuous_const.max hP).const_mul _)
            (fun _ => mul_nonneg (hcl rfl) (le_max_left _ _)) ha'
          exact (slip_cont gamma hJ hD ha).sub ((continuous_const.sub (dot_cont hJ)).mul_const _)
      · exact Continuous.const_mul (continuous_finsetSum _ (fun a ha => (tang_trac_cont hD (mem_range.mp ha)).mul_const _)) _

end Point

theorem jumpAt_cont (g : G) (i e cell f q a : ℕ) : Continuous (fun u : ℕ → ℝ => jumpAt Y g i e cell f u q a) := by
  unfold jumpAt valueAt oppositeAt
  refine Continuous.sub ?_ ?_
  · exact continuous_finsetSum _ (fun k _ => Continuous.const_mul (continuous_apply _) _)
  · exact continuous_finsetSum _ (fun k _ => Continuous.const_mul (continuous_apply _) _)

theorem gradAt_cont (cell f q a b : ℕ) : Continuous (fun u : ℕ → ℝ => gradAt Y cell f u q a b) := by
  unfold gradAt
  exact continuous_finsetSum _ (fun k _ => (continuous_apply _).const_mul _)

/-- Nitsche's form is continuous in the displacement. -/
theorem contactForm_cont (Y : System G) (t : Tracked G) (law : Law) (gamma theta : ℝ)
    (hr : NonnegativeFriction Y t law gamma) (v : ℕ → ℝ) :
    Continuous (fun u => contactForm Y t law gamma theta u v) := by
  unfold contactForm
  refine continuous_finsetSum _ (fun i hi => continuous_finsetSum _ (fun e he => ?_))
  cases hf : (Y.facets i)[e]? with
  | none => exact continuous_const
  | some c =>
    simp only [Option.elim_some]
    refine continuous_finsetSum _ (fun q _ => ?_)
    by_cases hl : 0 ≤ Y.map t.cur i (e * Y.nq + q)
    · simp only [if_pos hl]
      have hri := hr i (mem_range.mp hi) e (mem_range.mp he)
      refine Continuous.const_mul (form_cont law gamma theta (fun a => jumpAt_cont _ _ _ _ _ _ a)
        (fun a b => (gradAt_cont _ _ _ a b).add continuous_const) (fun h => ?_) (fun h => ?_) _ _) _
      · rw [h] at hri; exact hri
      · rw [h] at hri; exact hri
    · simp only [if_neg hl]; exact continuous_const

/-- C136: the vector `update_contact_data` and `assemble_vector` compute is a continuous function of the
displacement, for every friction law, also where the contact status switches. -/
theorem C136_continuous (hY : System.Valid Y) (ops : List (Op G)) (hops : ∀ op ∈ ops, OpShaped Y.static op)
    (g : G) (law : Law) (hlaw : lastLaw ops none = some law)
    (h23 : law ≠ .frictionless → Y.gdim = 2 ∨ Y.gdim = 3)
    (gamma theta : ℝ) (hconsts : lastConsts ops none = some (gamma, theta))
    (hr : NonnegativeFriction Y ((Tracked.new g).history ops) law gamma)
    (s : State G) (hs : s = history Y.static ops (init Y.static g)) (hc : s.coeffs ≠ none)
    (N : ℕ) (hN : DofsBelow Y N) :
    ∃ b : (ℕ → ℝ) → Arr ℕ,
      (∀ u, ∃ s', updateContactData Y.static (Y.du u) s = .ok s' ∧ Y.assembleVector s' 0 = .ok (b u))
      ∧ ∀ d < N, Continuous (fun u => b u d) := by
  have hv := fun u v : ℕ → ℝ => C114_form hY ops hops g law hlaw h23 gamma theta hconsts s hs hc N hN u v
  choose s' b h using hv
  have hb : ∀ u v, b u v = b u 0 := by
    intro u v
    have e : s' u v = s' u 0 := Except.ok.inj ((h u v).1.symm.trans (h u 0).1)
    have h2 := (h u v).2.1
    rw [e] at h2
    exact Except.ok.inj (h2.symm.trans (h u 0).2.1)
  refine ⟨fun u => b u 0, fun u => ⟨s' u 0, (h u 0).1, (h u 0).2.1⟩, fun d hd => ?_⟩
  obtain ⟨δ, hδ⟩ : ∃ δ : ℕ → ℝ, δ = fun c => if c = d then 1 else 0 := ⟨_, rfl⟩
  refine (contactForm_cont Y ((Tracked.new g).history ops) law gamma theta hr δ).congr (fun u => ?_)
  have h3 := (h u δ).2.2
  rw [hb] at h3
  rw [← h3, hδ]
  simp [hd]

/-- The friction bounds of the example of C131 are not negative. -/
example : NonnegativeFriction exY ((Tracked.new ()).history (exOpsBound 0.5)) .tresca 1 := by
  intro i hi e he
  obtain rfl : i = 0 := by have : i < 1 := hi; omega
  obtain rfl : e = 0 := by have : e < 1 := he; omega
  simp [exOpsBound, Tracked.history, Tracked.call, vals]
  norm_num

end

end Verif.ContactProblem
