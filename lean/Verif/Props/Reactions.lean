import Verif.Props.Driver
import Verif.Props.PairOrder
import Verif.Props.LastStep
import Verif.Props.DriverLocal
import Verif.Spec.Reactions

/-!
Property C198: forces at the supports balance the loads, and each body is in balance with what contact does to it.
-/

namespace Verif.ContactProblem

open Verif.Spec Verif.Packing Verif.Assembly Verif.Kernels Finset

noncomputable section

variable {G : Type} {Y : System G}

theorem form_test_add (p : ContactPoint) (law : Law) (gamma theta : ℝ) (J : ℕ → ℝ) (D : ℕ → ℕ → ℝ) {J1 J2 J3 : ℕ → ℝ}
    {D1 D2 D3 : ℕ → ℕ → ℝ} (hJ : ∀ a < p.g, J3 a = J1 a + J2 a) (hD : ∀ a < p.g, ∀ b < p.g, D3 a b = D1 a b + D2 a b) :
    p.form law gamma theta J D J3 D3 = p.form law gamma theta J D J1 D1 + p.form law gamma theta J D J2 D2 := by
  have ht : ∀ a < p.g, p.trac D3 a = p.trac D1 a + p.trac D2 a := trac_plus hD
  have hn : p.dot J3 = p.dot J1 + p.dot J2 := dot_plus hJ
  have hm : p.dot (p.trac D3) = p.dot (p.trac D1) + p.dot (p.trac D2) := dot_plus ht
  have e1 : p.normalPart gamma theta J D J3 D3 = p.normalPart gamma theta J D J1 D1 + p.normalPart gamma theta J D J2 D2 := by
    simp only [ContactPoint.normalPart, hn, hm]; ring
  have e2 : p.frictionPart law gamma theta J D J3 D3
      = p.frictionPart law gamma theta J D J1 D1 + p.frictionPart law gamma theta J D J2 D2 := by
    have s1 : ∑ a ∈ range p.g, p.projected law gamma J D a * (p.tang J3 a - theta * (p.h / gamma) * p.tang (p.trac D3) a)
        = ∑ a ∈ range p.g, p.projected law gamma J D a * (p.tang J1 a - theta * (p.h / gamma) * p.tang (p.trac D1) a)
        + ∑ a ∈ range p.g, p.projected law gamma J D a * (p.tang J2 a - theta * (p.h / gamma) * p.tang (p.trac D2) a) := by
      rw [← sum_add_distrib]
      exact sum_congr rfl (fun a ha => by rw [tang_plus hJ a (mem_range.mp ha), tang_plus ht a (mem_range.mp ha)]; ring)
    have s2 : ∑ a ∈ range p.g, p.tang (p.trac D) a * p.tang (p.trac D3) a
        = ∑ a ∈ range p.g, p.tang (p.trac D) a * p.tang (p.trac D1) a
        + ∑ a ∈ range p.g, p.tang (p.trac D) a * p.tang (p.trac D2) a := by
      rw [← sum_add_distrib]
      exact sum_congr rfl (fun a ha => by rw [tang_plus ht a (mem_range.mp ha)]; ring)
    simp only [ContactPoint.frictionPart, s1, s2]; ring
  simp only [ContactPoint.form, e1, e2]
  split <;> ring

theorem contactForm_test_add (t : Tracked G) (law : Law) (gamma theta : ℝ) (u v w : ℕ → ℝ) :
    contactForm Y t law gamma theta u (fun d => v d + w d)
      = contactForm Y t law gamma theta u v + contactForm Y t law gamma theta u w := by
  unfold contactForm
  rw [← sum_add_distrib]
  refine sum_congr rfl (fun i _ => ?_)
  rw [← sum_add_distrib]
  refine sum_congr rfl (fun e _ => ?_)
  cases (Y.facets i)[e]? with
  | none => simp
  | some p =>
    simp only [Option.elim_some]
    rw [← sum_add_distrib]
    refine sum_congr rfl (fun q _ => ?_)
    split
    · rw [form_test_add _ _ _ _ _ _ (fun a _ => jumpAt_plus _ _ _ _ _ v w q a) (fun a _ b _ => gradAt_plus _ _ v w q a b)]
      ring
    · ring

/-- Moving all dofs together does no work on contact. -/
theorem contactForm_shift {t : Tracked G} (hY : System.Valid Y) (hunit : SumsToOne Y t.cur) {N : ℕ} (hN : DofsBelow Y N)
    (law : Law) (gamma theta : ℝ) (x : ℕ → ℝ) (n : ℕ) :
    contactForm Y t law gamma theta x (shiftOf Y.gdim n (range N)) = 0 := by
  have hv : ∀ d < N, shiftOf Y.gdim n (range N) d = (fun d => if d % Y.gdim = n then (1 : ℝ) else 0) d := fun d hd => by
    simp [shiftOf, hd]
  unfold contactForm
  refine sum_eq_zero (fun i hi => sum_eq_zero (fun e he => ?_))
  have hi' := mem_range.mp hi
  have hel : e < (Y.facets i).length := lt_of_lt_of_le (mem_range.mp he) (hY.loc i hi')
  rw [List.getElem?_eq_getElem hel, Option.elim_some]
  refine sum_eq_zero (fun q hq => ?_)
  split
  · rename_i hl
    obtain ⟨hu1, hu2, hu3⟩ := hunit i hi' e (mem_range.mp he) (Y.facets i)[e].1 (Y.facets i)[e].2
      (List.getElem?_eq_getElem hel) q (mem_range.mp hq)
    rw [form_zero, mul_zero]
    · intro a ha
      have ha' : a < Y.gdim := ha
      rw [jump_below (cell := (Y.facets i)[e].1) (f := (Y.facets i)[e].2) hY hN hv t.cur hi' (List.getElem?_eq_getElem hel) hl ha']
      unfold jumpAt valueAt oppositeAt
      simp only [dof_mod _ ha']
      rw [← sum_mul, ← sum_mul, hu1, hu3 hl, sub_self]
    · intro a ha b hb
      have ha' : a < Y.gdim := ha
      rw [grad_below (cell := (Y.facets i)[e].1) (f := (Y.facets i)[e].2) hN hv hi' (List.getElem?_eq_getElem hel) q ha' b]
      unfold gradAt
      simp only [dof_mod _ ha']
      rw [← sum_mul, sum_comm]
      rw [sum_eq_zero (fun j hj => by rw [← mul_sum, hu2 j (mem_range.mp hj), mul_zero]), zero_mul]
  · rfl

theorem shift_split (L : LoadCase) (g n : ℕ) (B : Finset ℕ) :
    shiftOf g n B = fun d => shiftOf g n (unsupported L B) d + shiftOf g n (supported L B) d := by
  funext d
  unfold shiftOf supported unsupported
  simp only [mem_filter]
  by_cases h : L.bc d = none <;> simp [h]

theorem shift_sum (g n N : ℕ) {B : Finset ℕ} (hB : B ⊆ range N) (f : ℕ → ℝ) :
    ∑ d ∈ range N, f d * shiftOf g n B d = ∑ d ∈ B with d % g = n, f d := by
  unfold shiftOf
  simp only [mul_ite, mul_one, mul_zero]
  rw [← sum_filter]
  refine sum_congr ?_ (fun _ _ => rfl)
  ext d
  simp only [mem_filter]
  exact ⟨fun h => h.2, fun h => ⟨hB h.1, h⟩⟩

/-- A body for which the equations hold up to a tolerance is in balance. -/
theorem body_balance {t : Tracked G} {law : Law} {gamma theta : ℝ} {L : LoadCase} {N : ℕ} {U x : ℕ → ℝ} {tol : ℝ}
    (h : Balanced Y t law gamma theta L N U x tol) {B : Finset ℕ} (hB : B ⊆ range N) {n : ℕ} {P : ℝ}
    (hP : BodyWithLoad Y.gdim L B n P) :
    |supportPush Y t law gamma theta L U x B n + contactPush Y t law gamma theta x B n + P|
      ≤ tol * balanceFactor Y.gdim L N (fun c => U c + x c) B n := by
  obtain ⟨h1, h2⟩ := h
  have hF : unsupported L B ⊆ range N := (filter_subset _ _).trans hB
  have hS : supported L B ⊆ range N := (filter_subset _ _).trans hB
  have h3 := h2 (shiftOf Y.gdim n (unsupported L B)) (fun d _ hd => by
    unfold shiftOf unsupported
    simp [hd])
  rw [shift_sum _ _ _ hF, sum_add_distrib] at h3
  have hm : magnitude N (shiftOf Y.gdim n (unsupported L B)) = Real.sqrt #{d ∈ unsupported L B | d % Y.gdim = n} := by
    unfold magnitude
    have e : ∀ d, shiftOf Y.gdim n (unsupported L B) d ^ 2 = 1 * shiftOf Y.gdim n (unsupported L B) d := by
      intro d; unfold shiftOf; split <;> norm_num
    rw [sum_congr rfl (fun d _ => e d), shift_sum _ _ _ hF, sum_const, nsmul_eq_mul, mul_one]
  rw [hm] at h3
  have hc : |∑ d ∈ unsupported L B with d % Y.gdim = n, ∑ c ∈ range N,
      (L.bc c).elim 0 (fun g => L.stiff (fun c => U c + x c) d c * (g - x c))|
      ≤ tol * ∑ d ∈ unsupported L B with d % Y.gdim = n, ∑ c ∈ range N with L.bc c ≠ none,
        |L.stiff (fun c => U c + x c) d c| := by
    refine (abs_sum_le_sum_abs _ _).trans ?_
    rw [mul_sum]
    refine sum_le_sum (fun d _ => ?_)
    refine (abs_sum_le_sum_abs _ _).trans ?_
    rw [mul_sum, sum_filter]
    refine sum_le_sum (fun c hc => ?_)
    cases hb : L.bc c with
    | none => simp
    | some g =>
      have := h1 c (mem_range.mp hc) g hb
      simp only [Option.elim_some, ne_eq, reduceCtorEq, not_false_eq_true, if_true]
      rw [abs_mul, mul_comm, abs_sub_comm]
      exact mul_le_mul_of_nonneg_right this.le (abs_nonneg _)
  have hsplit : ∑ d ∈ B with d % Y.gdim = n, L.bulk (fun c => U c + x c) d
      = ∑ d ∈ unsupported L B with d % Y.gdim = n, L.bulk (fun c => U c + x c) d
        + ∑ d ∈ supported L B with d % Y.gdim = n, L.bulk (fun c => U c + x c) d := by
    rw [← shift_sum _ _ N hB, ← shift_sum _ _ N hF, ← shift_sum _ _ N hS, ← sum_add_distrib]
    refine sum_congr rfl (fun d _ => ?_)
    rw [shift_split L]; ring
  have hform : contactForm Y t law gamma theta x (shiftOf Y.gdim n B)
      = contactForm Y t law gamma theta x (shiftOf Y.gdim n (unsupported L B))
        + contactForm Y t law gamma theta x (shiftOf Y.gdim n (supported L B)) := by
    rw [shift_split L, contactForm_test_add]
  have hbulk := hP (fun c => U c + x c)
  unfold balanceFactor
  rw [mul_add]
  refine le_trans ?_ (add_le_add h3 hc)
  refine le_trans ?_ (abs_sub _ _)
  apply le_of_eq
  rw [← abs_neg]
  congr 1
  unfold supportPush contactPush
  rw [hform]
  linarith

variable (hY : System.Valid Y) (Z : Setting G) (hN : DofsBelow Y Z.numDofs)
  (law : Law) (h23 : law ≠ .frictionless → Y.gdim = 2 ∨ Y.gdim = 3) (gamma theta : ℝ)
  (mu lam fric h : ℕ → Mat) (du : Option (Du G))
  (hshape : OpShaped Y.static (.generate ⟨law, some mu, some lam, some fric, some (Y.packGrad fun _ => 0), du, h, gamma, theta⟩))
  (opts : Newton.Opts) (hcrit : opts.crit = .residual) (rank0 : Bool) (Ls : List LoadCase)
  (out : List Report × Option DriverErr)
  (hout : out = loadSteps Y Z rank0 Ls (startRun Y Z
    ⟨law, some mu, some lam, some fric, some (Y.packGrad fun _ => 0), du, h, gamma, theta⟩ opts))
  (i : ℕ) (R : Report) (L : LoadCase) (hR : out.1[i]? = some R) (hL : Ls[i]? = some L) (hconv : R.converged = true)

include hY hN h23 hshape hcrit hout hR hL hconv

/-- C198: after every converged load step, for every body the forces of its supports, of contact and of the load add up
to zero along every axis, up to the tolerance. -/
theorem C198_body (B : Finset ℕ) (hB : B ⊆ range Z.numDofs) (n : ℕ) (P : ℝ) (hP : BodyWithLoad Y.gdim L B n P) :
    |supportPush Y (stepData Y Z.place (vals mu) (vals lam) (vals fric) (vals h) R.before (totalAfter out.1 (i - 1)))
        law gamma theta L R.before R.du B n
      + contactPush Y (stepData Y Z.place (vals mu) (vals lam) (vals fric) (vals h) R.before (totalAfter out.1 (i - 1)))
        law gamma theta R.du B n + P|
      ≤ opts.atol * balanceFactor Y.gdim L Z.numDofs (fun c => R.before c + R.du c) B n :=
  body_balance (((C140_load_steps hY Z hN law h23 gamma theta mu lam fric h du hshape opts hcrit rank0 Ls out hout).2 i R L hR hL).2
    hconv) hB hP

/-- C198: for all bodies together, the forces of the supports balance the load. -/
theorem C198_total (hunit : SumsToOne Y (Z.place R.before)) (n : ℕ) (P : ℝ)
    (hP : BodyWithLoad Y.gdim L (range Z.numDofs) n P) :
    |supportPush Y (stepData Y Z.place (vals mu) (vals lam) (vals fric) (vals h) R.before (totalAfter out.1 (i - 1)))
        law gamma theta L R.before R.du (range Z.numDofs) n + P|
      ≤ opts.atol * balanceFactor Y.gdim L Z.numDofs (fun c => R.before c + R.du c) (range Z.numDofs) n := by
  have h1 := C198_body hY Z hN law h23 gamma theta mu lam fric h du hshape opts hcrit rank0 Ls out hout i R L hR hL hconv
    (range Z.numDofs) (Subset.refl _) n P hP
  unfold contactPush at h1
  rw [contactForm_shift hY hunit hN, neg_zero, add_zero] at h1
  exact h1

omit h23 hshape hcrit hout hR hL hconv in
/-- C198: contact pushes two bodies, which together have all dofs, with opposite forces, at every displacement. -/
theorem C198_opposite (t : Tracked G) (hunit : SumsToOne Y t.cur) (x : ℕ → ℝ) (n : ℕ) (A B : Finset ℕ)
    (hAB : Disjoint A B) (hall : A ∪ B = range Z.numDofs) :
    contactPush Y t law gamma theta x A n = -contactPush Y t law gamma theta x B n := by
  have e : shiftOf Y.gdim n (range Z.numDofs) = fun d => shiftOf Y.gdim n A d + shiftOf Y.gdim n B d := by
    funext d
    rw [← hall]
    unfold shiftOf
    by_cases h1 : d ∈ A
    · have h2 : d ∉ B := disjoint_left.mp hAB h1
      simp [h1, h2]
    · simp [h1]
  have h0 := contactForm_shift hY hunit hN law gamma theta x n
  rw [e, contactForm_test_add] at h0
  unfold contactPush
  linarith

omit hY hN h23 hshape hcrit hout hR hL hconv

/-! ### a computation -/

/-- The solution of the first linear system of a linear bulk, by choice of the loads. -/
theorem solved_of (Y : System G) {Z : Setting G} {L : LoadCase} {K : ℕ → ℕ → ℝ} {l step : ℕ → ℝ} {s : State G}
    (hL : LinearBulk L Z.numDofs K l)
    (hrow : ∀ d < Z.numDofs, L.bc d ≠ none → ∀ c < Z.numDofs, contactMatrix Y s (d, c) = 0)
    (hg : ∀ d g, L.bc d = some g → g = -step d)
    (hl : ∀ d < Z.numDofs, L.bc d = none → l d = contactVector Y s d
      - ∑ c ∈ range Z.numDofs, contactMatrix Y s (d, c) * step c - ∑ c ∈ range Z.numDofs, K d c * step c) :
    ∀ d < Z.numDofs, ∑ c ∈ range Z.numDofs, driverJacobian Y L (fun _ => 0) (fun _ => 0) s (d, c) * step c
      = driverResidual Y Z L (fun _ => 0) (fun _ => 0) s d := by
  intro d hd
  cases hb : L.bc d with
  | some g =>
    rw [driverResidual_bc Y hb, sum_eq_single_of_mem d (mem_range.mpr hd) (fun k hk hkd => ?_)]
    · simp [driverJacobian, hb, hg d g hb]
    · unfold driverJacobian
      simp [hb, Ne.symm hkd, hrow d hd (by simp [hb]) k (mem_range.mp hk)]
  | none =>
    rw [driverResidual_free Y hb, hL.1 _ d hd, hl d hd hb]
    have e : ∀ c ∈ range Z.numDofs, driverJacobian Y L (fun _ => 0) (fun _ => 0) s (d, c) * step c
        = contactMatrix Y s (d, c) * step c + K d c * step c
          + (L.bc c).elim 0 (fun g => L.stiff (fun c => 0 + 0) d c * (g - 0)) := by
      intro c hc
      have hK := hL.2 (fun c => 0 + 0) d hd c (mem_range.mp hc)
      unfold driverJacobian
      simp only [hb]
      cases hbc : L.bc c with
      | none => simp only [hK, Option.elim_none]; simp; ring
      | some g => rw [hg c g hbc]; simp only [hK, Option.elim_some]; simp
    rw [sum_congr rfl e, sum_add_distrib, sum_add_distrib]
    simp
    ring

/-- Both supports move by one along the first axis, and the bodies with them. -/
def exShift (d : ℕ) : ℝ := if d % 2 = 0 then -1 else 0

/-- Two bodies of two nodes each, a spring along each axis between contact node (`0`, `1`) and support (`2`, `3`). -/
def exSprings (d c : ℕ) : ℝ := if d = c then 1 else if d + 4 = c ∨ c + 4 = d then -1 else 0

def exPairArgs : GenArgs Unit :=
  ⟨.frictionless, some (fun _ => ⟨1, 1, fun _ _ => 3⟩), some (fun _ => ⟨1, 1, fun _ _ => 5⟩),
    some (fun _ => ⟨1, 1, fun _ _ => 0⟩), some (exYc.packGrad fun _ => 0), none, fun _ => ⟨1, 1, fun _ _ => 1⟩, 1, 1⟩

def exPairFirst : State Unit :=
  driverCoefficients exYc (fun _ => 0) (history exYc.static [.generate exPairArgs] (init exYc.static ()))

def exPairForce (d : ℕ) : ℝ := contactVector exYc exPairFirst d
  - ∑ c ∈ range 8, contactMatrix exYc exPairFirst (d, c) * exShift c - ∑ c ∈ range 8, exSprings d c * exShift c

/-- The springs are stretched so that they balance contact; no load. -/
def exPairLoad : LoadCase where
  bulk := fun u d => ∑ c ∈ range 8, exSprings d c * u c - if d < 4 then exPairForce d else -exPairForce (d - 4)
  stiff := fun _ d c => exSprings d c
  bc := fun d => if d < 4 then none else some (-exShift d)

def exPairSetting : Setting Unit := ⟨8, fun _ _ _ => (exShift, 1, 1), fun _ => ()⟩

theorem exPair_shaped : ∀ op ∈ [Op.generate exPairArgs], OpShaped exYc.static op := by
  intro op hop
  obtain rfl := List.mem_singleton.mp hop
  have h := packGrad_eq exYc_valid (fun _ => 0)
  refine ⟨?_, ?_, ?_, ?_, fun m hm => ?_, ?_⟩
  · simp [exPairArgs, ScalarShaped, System.static, exYc, exY]
  · simp [exPairArgs, ScalarShaped, System.static, exYc, exY]
  · simp [exPairArgs, ScalarShaped, System.static, exYc, exY]
  · simp [exPairArgs, ScalarShaped, System.static, exYc, exY]
  · obtain rfl := Option.some.inj hm
    exact fun i _ => ⟨(h i).1, (h i).2.1⟩
  · simp [exPairArgs]

theorem exYc_below8 : DofsBelow exYc 8 := by refine ⟨?_, ?_⟩ <;> simp [exYc, exY]

theorem exPair_away {d : ℕ} (hd : 4 ≤ d) : AwayFromContact exYc ((Tracked.new ()).history [.generate exPairArgs]) d := by
  intro i hi e he cell f hf
  have hf' : some ((0 : ℕ), (2 : ℕ)) = some (cell, f) := by
    have : e < 1 := he
    obtain rfl : e = 0 := by omega
    exact hf
  obtain ⟨rfl, rfl⟩ := Prod.mk.inj (Option.some.inj hf')
  refine ⟨fun k _ a ha => ?_, fun q _ _ k _ a ha => ?_⟩
  · have : a < 2 := ha
    show 2 * 0 + a ≠ d
    omega
  · have : a < 2 := ha
    show 2 * 1 + a ≠ d
    omega

theorem exPair_bc {d : ℕ} (h : exPairLoad.bc d ≠ none) : 4 ≤ d := by
  by_contra hd
  exact h (if_pos (by omega))

theorem exPair_linear : LinearBulk exPairLoad 8 exSprings (fun d => if d < 4 then exPairForce d else -exPairForce (d - 4)) :=
  ⟨fun _ _ _ => rfl, fun _ _ _ _ _ => rfl⟩

theorem exPair_solved : SolvesExactly exPairSetting (driverJacobian exYc exPairLoad (fun _ => 0) (fun _ => 0) exPairFirst)
    (driverResidual exYc exPairSetting exPairLoad (fun _ => 0) (fun _ => 0) exPairFirst) 0 := by
  refine ⟨by simp [exPairSetting], solved_of exYc exPair_linear (fun d hd hb c hc => ?_) (fun d g hg => ?_) (fun d hd hb => ?_)⟩
  · have hd : d < 8 := hd
    have hc : c < 8 := hc
    have := driver_row exYc_valid exPair_shaped (g := ()) (N := 8) rfl (fun h => absurd rfl h) rfl rfl exYc_below8
      ⟨[], by simp [updates]; rfl⟩ (fun _ => 0) (unit c) hd
    rw [contactTangent_away (exPair_away (exPair_bc hb))] at this
    unfold exPairFirst
    simpa [unit, hc] using this
  · unfold exPairLoad at hg
    dsimp only at hg
    split at hg
    · cases hg
    · exact (Option.some.inj hg).symm
  · have h4 : d < 4 := by
      by_contra h
      unfold exPairLoad at hb
      dsimp only at hb
      rw [if_neg h] at hb
      cases hb
    show (if d < 4 then _ else _) = _
    rw [if_pos h4]
    rfl

theorem exPair_status : SameStatus exYc ((Tracked.new ()).history [.generate exPairArgs]) .frictionless 1 (fun _ => 0)
    (fun d => 0 + -exShift d) := by
  intro i hi e he cell f hf q hq hl
  have hJ : ∀ a < 2, jumpAt exYc () i e cell f (fun d => 0 + -exShift d) q a = jumpAt exYc () i e cell f (fun _ => 0) q a := by
    intro a ha
    have e1 : ∀ m, exShift (2 * m + a) = exShift a := fun m => by
      unfold exShift; rw [Nat.mul_add_mod]
    unfold jumpAt valueAt oppositeAt
    simp [exYc, exY, e1]
    have := e1 1
    rw [mul_one] at this
    rw [this]
    ring
  have hD : ∀ (u : ℕ → ℝ) (a b : ℕ), gradAt exYc cell f u q a b = 0 := by
    intro u a b
    simp [gradAt, exYc]
  refine ⟨?_, fun h => absurd rfl h⟩
  unfold ContactPoint.pressure
  simp only [hD]
  have e2 : (pointAt exYc ((Tracked.new ()).history [.generate exPairArgs]) i e cell f q).dot
        (jumpAt exYc ((Tracked.new ()).history [.generate exPairArgs]).cur i e cell f (fun d => 0 + -exShift d) q)
      = (pointAt exYc ((Tracked.new ()).history [.generate exPairArgs]) i e cell f q).dot
        (jumpAt exYc ((Tracked.new ()).history [.generate exPairArgs]).cur i e cell f (fun _ => 0) q) :=
    sum_congr rfl (fun a ha => by rw [hJ a (mem_range.mp ha)])
  rw [e2]

theorem exPair_newton : ∃ s', Newton.solve (driverProblem exYc exPairSetting exPairLoad (fun _ => 0)) true .function
    (startRun exYc exPairSetting exPairArgs exOpts).solver = (s', .ok (1, true)) := by
  obtain ⟨s', n, h1, h2, h0, h3⟩ := C141_one_step exYc_valid [.generate exPairArgs] exPair_shaped () .frictionless rfl
    (fun h => absurd rfl h) 1 1 rfl rfl exPairSetting exYc_below8 exPairLoad (fun _ => 0) _ _ exPair_linear
    (fun d _ hb => exPair_away (exPair_bc hb)) true (startRun exYc exPairSetting exPairArgs exOpts).solver rfl exPairFirst rfl
    _ rfl _ rfl exShift rfl exPair_solved exPair_status (Or.inr (Or.inl (by simp [startRun])))
    rfl (by norm_num [startRun, exOpts]) (by norm_num [startRun, exOpts]) (by norm_num [startRun, exOpts])
    (by
      simp only [norm2, exPairSetting, ne_eq, Real.sqrt_eq_zero', not_le]
      exact sum_pos' (fun d _ => sq_nonneg _) ⟨0, by simp, by norm_num [exShift]⟩)
  have hn : n ≠ 0 := by
    intro hn
    exact (h0 hn).2.1 rfl
  obtain rfl : n = 1 := by omega
  exact ⟨s', h1⟩

theorem exPair_step : ∃ R r, loadStep exYc exPairSetting true exPairLoad (startRun exYc exPairSetting exPairArgs exOpts) = .ok (R, r)
    ∧ R.converged = true := by
  obtain ⟨s', h⟩ := exPair_newton
  have h' : Newton.solve (driverProblem exYc exPairSetting exPairLoad (startRun exYc exPairSetting exPairArgs exOpts).u) true .function
      (startRun exYc exPairSetting exPairArgs exOpts).solver = (s', .ok (1, true)) := h
  have H : BeforeStep exYc exPairSetting (vals fun _ => ⟨1, 1, fun _ _ => 3⟩) (vals fun _ => ⟨1, 1, fun _ _ => 5⟩)
      (vals fun _ => ⟨1, 1, fun _ _ => 0⟩) (vals fun _ => ⟨1, 1, fun _ _ => 1⟩) .frictionless 1 1 true exOpts (fun _ => 0)
      (startRun exYc exPairSetting exPairArgs exOpts) :=
    ⟨Or.inr (Or.inl (by simp [startRun])), rfl, [.generate exPairArgs], exPair_shaped, rfl, rfl, rfl,
      rfl, rfl, rfl, rfl, rfl, rfl, rfl, rfl⟩
  rcases loadStep_ok exYc_valid (fun h => absurd rfl h) exYc_below8 rfl (L := exPairLoad) H with ⟨e, he⟩ | ⟨R, r, hR, -⟩
  · unfold loadStep at he
    rw [h'] at he
    dsimp only at he
    split at he
    · cases he
    · split at he <;> cases he
  · refine ⟨R, r, hR, ?_⟩
    unfold loadStep at hR
    rw [h'] at hR
    dsimp only at hR
    split at hR
    · cases hR
    · split at hR
      · cases hR
      · obtain ⟨rfl, -⟩ := Prod.mk.inj (Except.ok.inj hR)
        rfl

theorem exPair_body (j n : ℕ) (hj : j < 2) (hn : n < 2) :
    BodyWithLoad 2 exPairLoad {2 * j, 2 * j + 1, 2 * j + 4, 2 * j + 5} n 0 := by
  intro u
  interval_cases j <;> interval_cases n <;>
    · simp [exPairLoad, exSprings, sum_filter, sum_range_succ]
      try ring

/-- Hypotheses of C198: the run converges in its load step, the two bodies have no load, and together they have all
dofs. -/
example : (∃ R, (loadSteps exYc exPairSetting true [exPairLoad] (startRun exYc exPairSetting exPairArgs exOpts)).1[0]? = some R
      ∧ R.converged = true ∧ SumsToOne exYc (exPairSetting.place R.before))
    ∧ BodyWithLoad exYc.gdim exPairLoad {0, 1, 4, 5} 1 0 ∧ BodyWithLoad exYc.gdim exPairLoad {2, 3, 6, 7} 1 0
    ∧ ({0, 1, 4, 5} : Finset ℕ) ∪ {2, 3, 6, 7} = range exPairSetting.numDofs
    ∧ supported exPairLoad {0, 1, 4, 5} = {4, 5} := by
  obtain ⟨R, r, h1, h2⟩ := exPair_step
  refine ⟨⟨R, ?_, h2, ?_⟩, exPair_body 0 1 (by norm_num) (by norm_num), exPair_body 1 1 (by norm_num) (by norm_num), ?_, ?_⟩
  · unfold loadSteps
    rw [h1]
    rfl
  · intro i hi e he cell f hf q hq
    simp [exYc, exY]
  · show _ = range 8
    decide
  · unfold supported exPairLoad
    decide

end

end Verif.ContactProblem
