import Verif.Props.Consistency
import Verif.Props.WellPosed
import Verif.Spec.ContactConsistency

/-!
Property C147: at a displacement that meets the contact conditions the assembled contact vector is the virtual work
of the tractions, whatever the parameters of Nitsche's method are.
-/

namespace Verif.ContactProblem

open Verif.Spec Verif.Lemmas Verif.Packing Verif.Assembly Verif.Entities Verif.Kernels Finset

noncomputable section

variable {G : Type} {Y : System G}

/-- Normal and tangential work. -/
theorem point_split (p : ContactPoint) (hn : ∑ a ∈ range p.g, p.normal a ^ 2 = 1) (x y : ℕ → ℝ) :
    ∑ a ∈ range p.g, x a * y a = p.dot x * p.dot y + ∑ a ∈ range p.g, p.tang x a * p.tang y a := by
  have e : ∀ a, p.tang x a * p.tang y a
      = x a * y a - p.dot y * (x a * p.normal a) - p.dot x * (y a * p.normal a) + p.dot x * p.dot y * p.normal a ^ 2 := by
    intro a; unfold ContactPoint.tang; ring
  simp only [e, sum_add_distrib, sum_sub_distrib, ← mul_sum, hn]
  show _ = p.dot x * p.dot y + (_ - p.dot y * p.dot x - p.dot x * p.dot y + _)
  ring

/-- Where the contact conditions hold the form is the work of half the traction. -/
theorem form_consistent (p : ContactPoint) {law : Law} {gamma : ℝ} (hγ : 0 < gamma) (hh : 0 < p.h) (theta : ℝ)
    (hn : ∑ a ∈ range p.g, p.normal a ^ 2 = 1) (hf : law ≠ .frictionless → 0 ≤ p.fric) {J : ℕ → ℝ} {D : ℕ → ℕ → ℝ}
    (h : p.Contact law J D) (J' : ℕ → ℝ) (D' : ℕ → ℕ → ℝ) :
    p.form law gamma theta J D J' D' = -(1 / 2) * ∑ a ∈ range p.g, p.trac D a * J' a := by
  have hr : 0 < p.h / gamma := div_pos hh hγ
  obtain ⟨h1, h2⟩ := h
  have hmax : max 0 (p.pressure gamma J D) = -(p.h / gamma * p.dot (p.trac D)) := max_signorini hr h1
  have e1 : p.normalPart gamma theta J D J' D' = -(1 / 2) * (p.dot (p.trac D) * p.dot J') := by
    unfold ContactPoint.normalPart
    rw [hmax]
    field_simp
    ring
  have fric : (∀ a < p.g, p.projected law gamma J D a = -(p.h / gamma * p.tang (p.trac D) a)) →
      p.frictionPart law gamma theta J D J' D'
        = -(1 / 2) * ∑ a ∈ range p.g, p.tang (p.trac D) a * p.tang J' a := by
    intro hp
    unfold ContactPoint.frictionPart
    simp only [mul_sum, ← sum_sub_distrib]
    refine sum_congr rfl (fun a ha => ?_)
    rw [hp a (mem_range.mp ha)]
    field_simp
    ring
  unfold ContactPoint.form
  rw [e1, point_split p hn, mul_add]
  cases law with
  | frictionless =>
    rw [if_pos rfl, sum_eq_zero (fun a ha => by rw [h2 a (mem_range.mp ha), zero_mul])]
    ring
  | tresca =>
    rw [if_neg (by simp), fric]
    exact (C98_friction_law p.g (p.h / gamma) p.fric hr (hf (by simp)) _ _).mpr h2
  | coulomb =>
    rw [if_neg (by simp), fric]
    intro a ha
    have h3 := (C98_friction_law p.g (p.h / gamma) _ hr (mul_nonneg (hf (by simp)) (abs_nonneg _)) _ _).mpr h2 a ha
    rw [← h3]
    show ball p.g _ _ a = _
    rw [hmax, abs_of_nonpos h1.2.1]
    congr 1
    · funext a
      unfold ContactPoint.slip
      ring
    · ring

/-- The form at a displacement that meets the contact conditions. -/
theorem contactForm_consistent {t : Tracked G} {law : Law} {gamma : ℝ} (hγ : 0 < gamma) (theta : ℝ)
    (hh : ∀ i < Y.numPairs, ∀ e < Y.localFacets i, 0 < t.h i e 0)
    (hf : law ≠ .frictionless → ∀ i < Y.numPairs, ∀ e < Y.localFacets i, 0 ≤ t.fric i e 0)
    (hn : UnitNormals Y t) {u : ℕ → ℝ} (hu : InContact Y t law u) (v : ℕ → ℝ) :
    contactForm Y t law gamma theta u v = -(1 / 2) * tractionWork Y t u v := by
  unfold contactForm tractionWork
  rw [mul_sum]
  refine sum_congr rfl (fun i hi => ?_)
  rw [mul_sum]
  refine sum_congr rfl (fun e he => ?_)
  rw [mem_range] at hi he
  rcases hfac : (Y.facets i)[e]? with _ | ⟨cell, f⟩
  · simp
  · simp only [Option.elim_some]
    rw [mul_sum]
    refine sum_congr rfl (fun q hq => ?_)
    rw [mem_range] at hq
    by_cases hm : 0 ≤ Y.map t.cur i (e * Y.nq + q)
    · rw [if_pos hm, if_pos hm, form_consistent (pointAt Y t i e cell f q) hγ (hh i hi e he) theta (hn i hi e he q hq hm)
        (fun h => hf h i hi e he) (hu i hi e he cell f hfac q hq hm)]
      show weightAt Y cell f q * (-(1 / 2) * _) = -(1 / 2) * (weightAt Y cell f q * _)
      rw [mul_left_comm]
      rfl
    · rw [if_neg hm, if_neg hm, mul_zero]

section

variable (hY : System.Valid Y) (ops : List (Op G)) (hops : ∀ op ∈ ops, OpShaped Y.static op)
  (g : G) (law : Law) (hlaw : lastLaw ops none = some law) (h23 : law ≠ .frictionless → Y.gdim = 2 ∨ Y.gdim = 3)
  (gamma theta : ℝ) (hγ : 0 < gamma) (hconsts : lastConsts ops none = some (gamma, theta))
  (s : State G) (hs : s = history Y.static ops (init Y.static g)) (hc : s.coeffs ≠ none)
  (hh : ∀ i < Y.numPairs, ∀ e < Y.localFacets i, 0 < ((Tracked.new g).history ops).h i e 0)
  (hf : law ≠ .frictionless → ∀ i < Y.numPairs, ∀ e < Y.localFacets i, 0 ≤ ((Tracked.new g).history ops).fric i e 0)
  (hn : UnitNormals Y ((Tracked.new g).history ops)) (N : ℕ) (hN : DofsBelow Y N)

include hY hops hlaw h23 hγ hconsts hs hc hh hf hn hN

/-- C147: at a displacement that meets the contact conditions at every linked quadrature point, the vector
`assemble_vector` builds is minus half the virtual work of the tractions on the jump, for every friction law, every
gamma > 0, every theta and every mesh size: Nitsche's terms do not disturb an exact solution. -/
theorem C147_contact (u : ℕ → ℝ) (hu : InContact Y ((Tracked.new g).history ops) law u) :
    ∃ (s' : State G) (b : Arr ℕ), updateContactData Y.static (Y.du u) s = .ok s' ∧ Y.assembleVector s' 0 = .ok b
      ∧ ∀ v : ℕ → ℝ, ∑ d ∈ range N, b d * v d = -(1 / 2) * tractionWork Y ((Tracked.new g).history ops) u v := by
  obtain ⟨b, hb, hform⟩ := vector_of hY ops hops g law hlaw h23 gamma theta hconsts s hs hc N hN
  obtain ⟨s', h1, h2⟩ := hb u
  exact ⟨s', b u, h1, h2, fun v => by rw [hform, contactForm_consistent hγ theta hh hf hn hu]⟩

/-- C147: a displacement that meets the contact conditions and is in equilibrium with the load and its own
contact tractions is the one solution of the assembled problem (without friction and with Tresca friction, C143),
whatever gamma and theta are. -/
theorem C147_exact (hl : law ≠ .coulomb) (hwt : ∀ i < Y.numPairs, ∀ p ∈ Y.facets i, ∀ q < Y.nq, 0 ≤ weightAt Y p.1 p.2 q)
    (F : Finset ℕ) (hF : ∀ d ∈ F, d < N) (K : ℕ → ℕ → ℝ)
    (hK : Coercive Y ((Tracked.new g).history ops) law gamma theta N F K) (l u : ℕ → ℝ)
    (hu : InContact Y ((Tracked.new g).history ops) law u)
    (heq : ∀ v : ℕ → ℝ, (∀ d, d ∉ F → v d = 0) →
      ∑ d ∈ range N, (∑ c ∈ range N, K d c * u c - l d) * v d
        = 1 / 2 * tractionWork Y ((Tracked.new g).history ops) u v) (w : ℕ → ℝ) :
    ((∀ d, d ∉ F → w d = u d) ∧ ∃ (s' : State G) (b : Arr ℕ),
      updateContactData Y.static (Y.du w) s = .ok s' ∧ Y.assembleVector s' 0 = .ok b
      ∧ ∀ d ∈ F, ∑ c ∈ range N, K d c * w c - l d + b d = 0) ↔ w = u := by
  obtain ⟨s', b, h1, h2, h3⟩ := C147_contact hY ops hops g law hlaw h23 gamma theta hγ hconsts s hs hc hh hf hn N hN u hu
  have hsol : ∀ d ∈ F, ∑ c ∈ range N, K d c * u c - l d + b d = 0 := by
    intro d hd
    have h4 := heq (fun k => if k = d then 1 else 0) (fun k hk => if_neg (fun h : k = d => hk (by rw [h]; exact hd)))
    have h5 := h3 (fun k => if k = d then 1 else 0)
    rw [sum_eq_single_of_mem d (mem_range.mpr (hF d hd)) (fun k _ hk => by simp [hk])] at h4 h5
    simp only [if_true, mul_one] at h4 h5
    linarith
  have hT : law = .tresca → (Y.gdim = 2 ∨ Y.gdim = 3)
      ∧ ∀ i < Y.numPairs, ∀ e < Y.localFacets i, 0 ≤ ((Tracked.new g).history ops).fric i e 0 := by
    intro h
    subst h
    exact ⟨h23 (by simp), hf (by simp)⟩
  have huniq := C143_wellposed hY ops hops g law hlaw hl gamma theta hγ hconsts s hs hc hh hwt N hN F hF K hK hT l u
  constructor
  · intro h
    exact huniq.unique h ⟨fun _ _ => rfl, s', b, h1, h2, hsol⟩
  · rintro rfl
    exact ⟨fun _ _ => rfl, s', b, h1, h2, hsol⟩

end

/-- A displacement of the example: the bodies touch with normal traction -56/3 and slide. -/
def exTouch (d : ℕ) : ℝ := if d = 0 then -2 / 3 else if d = 1 then 1 else if d = 2 then -2 else if d = 3 then -1 else 0

/-- The hypotheses of C147 hold for the example with Tresca friction under pressure and sliding, for every theta. -/
example (theta : ℝ) :
    InContact exY ((Tracked.new ()).history (exSysOpsT theta)) .tresca exTouch
    ∧ UnitNormals exY ((Tracked.new ()).history (exSysOpsT theta))
    ∧ (∀ v : ℕ → ℝ, tractionWork exY ((Tracked.new ()).history (exSysOpsT theta)) exTouch v
      = -(v 0 - v 2) + 56 / 3 * (v 1 - v 3))
    ∧ ∃ l : ℕ → ℝ, ∀ v : ℕ → ℝ, (∀ d, d ∉ ({1, 2, 3} : Finset ℕ) → v d = 0) →
      ∑ d ∈ range 4, (∑ c ∈ range 4, (if d = c then 100 else 0) * exTouch c - l d) * v d
        = 1 / 2 * tractionWork exY ((Tracked.new ()).history (exSysOpsT theta)) exTouch v := by
  have hw : ∀ v : ℕ → ℝ, tractionWork exY ((Tracked.new ()).history (exSysOpsT theta)) exTouch v
      = -(v 0 - v 2) + 56 / 3 * (v 1 - v 3) := by
    intro v
    simp [tractionWork, outwardAt, gradAt, weightAt, jumpAt, valueAt, oppositeAt, exY, exSysOpsT, Tracked.history, Tracked.call,
      vals, sum_range_succ, Elasticity.traction_eq, exTouch]
    ring
  refine ⟨?_, ?_, hw, fun d => 100 * exTouch d - 1 / 2 * (if d = 1 then 56 / 3 else if d = 2 then 1 else if d = 3 then -(56 / 3) else 0),
    fun v hv => ?_⟩
  · intro i hi e he cell f hf q hq hm
    have hi' : i < 1 := hi
    have he' : e < 1 := he
    have hq' : q < 1 := hq
    obtain rfl : i = 0 := by omega
    obtain rfl : e = 0 := by omega
    obtain rfl : q = 0 := by omega
    obtain ⟨rfl, rfl⟩ : 0 = cell ∧ 2 = f := by
      have : some ((0 : ℕ), (2 : ℕ)) = some (cell, f) := hf
      simpa using this
    have hJ : ∀ a < 2, jumpAt exY ((Tracked.new ()).history (exSysOpsT theta)).cur 0 0 0 2 exTouch 0 a = if a = 0 then 4 / 3 else 2 := by
      intro a ha
      interval_cases a <;> norm_num [jumpAt, valueAt, oppositeAt, exY, exTouch]
    have hD : ∀ a < 2, (pointAt exY ((Tracked.new ()).history (exSysOpsT theta)) 0 0 0 2 0).trac
        (fun a b => gradAt exY 0 2 exTouch 0 a b + (pointAt exY ((Tracked.new ()).history (exSysOpsT theta)) 0 0 0 2 0).grad0 a b) a
        = if a = 0 then -1 else 56 / 3 := by
      intro a ha
      interval_cases a <;> norm_num [ContactPoint.trac, pointAt, outwardAt, gradAt, exY, exSysOpsT, Tracked.history, Tracked.call, vals,
        sum_range_succ, Elasticity.traction_eq, exTouch]
    have hdot : ∀ x : ℕ → ℝ, (pointAt exY ((Tracked.new ()).history (exSysOpsT theta)) 0 0 0 2 0).dot x = -x 1 := by
      intro x
      simp [ContactPoint.dot, pointAt, contactNormalAt, exY, sum_range_succ]
    have htang : ∀ (x : ℕ → ℝ), ∀ a < 2, (pointAt exY ((Tracked.new ()).history (exSysOpsT theta)) 0 0 0 2 0).tang x a
        = if a = 0 then x 0 else 0 := by
      intro x a ha
      unfold ContactPoint.tang
      rw [hdot]
      interval_cases a <;> simp [pointAt, contactNormalAt, exY]
    refine ⟨?_, ?_⟩
    · rw [hdot, hdot, hdot, hJ 1 (by norm_num), hD 1 (by norm_num)]
      have : (pointAt exY ((Tracked.new ()).history (exSysOpsT theta)) 0 0 0 2 0).gap 1 = 2 := by simp [pointAt, exY]
      rw [this]
      unfold Signorini
      norm_num
    · have hfr : (pointAt exY ((Tracked.new ()).history (exSysOpsT theta)) 0 0 0 2 0).fric = 1 := by
        simp [pointAt, exSysOpsT, Tracked.history, Tracked.call, vals]
      show FrictionLaw 2 _ _ _
      rw [hfr]
      have hs : ∀ x : ℕ → ℝ, Spec.size 2 ((pointAt exY ((Tracked.new ()).history (exSysOpsT theta)) 0 0 0 2 0).tang x) = |x 0| := by
        intro x
        unfold Spec.size
        rw [sum_range_succ, sum_range_one, htang _ 0 (by norm_num), htang _ 1 (by norm_num)]
        simp [Real.sqrt_sq_eq_abs]
      refine ⟨?_, fun _ a ha => ?_⟩
      · rw [hs, hD 0 (by norm_num)]
        norm_num
      · rw [hs, htang _ a ha, htang _ a ha, hD 0 (by norm_num), hJ 0 (by norm_num)]
        interval_cases a <;> norm_num
  · intro i hi e he q hq hm
    have hi' : i < 1 := hi
    have he' : e < 1 := he
    have hq' : q < 1 := hq
    obtain rfl : i = 0 := by omega
    obtain rfl : e = 0 := by omega
    obtain rfl : q = 0 := by omega
    simp [contactNormalAt, exY, sum_range_succ]
  · rw [hw, show v 0 = 0 from hv 0 (by decide)]
    simp [sum_range_succ, hv 0 (by decide)]
    ring

end

end Verif.ContactProblem
