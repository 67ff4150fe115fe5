import Verif.Props.SystemTangent
import Verif.Spec.NewtonStep

/-!
Property C134: while the contact status does not change, a Newton step is exact.
-/

namespace Verif.ContactProblem

open Verif.Spec Verif.Packing Verif.Assembly Verif.Kernels Finset

noncomputable section

variable {G : Type} {Y : System G}

section

variable {p : ContactPoint} {J K J' : ℕ → ℝ} {D E D' : ℕ → ℕ → ℝ}
  (hJ : ∀ a < p.g, J' a = J a + K a) (hD : ∀ a < p.g, ∀ b < p.g, D' a b = D a b + E a b)

include hJ in
theorem dot_plus : p.dot J' = p.dot J + p.dot K := by
  unfold ContactPoint.dot
  rw [← sum_add_distrib]
  exact sum_congr rfl (fun a ha => by rw [hJ a (mem_range.mp ha)]; ring)

include hJ in
theorem tang_plus : ∀ a < p.g, p.tang J' a = p.tang J a + p.tang K a := by
  intro a ha
  rw [ContactPoint.tang, ContactPoint.tang, ContactPoint.tang, dot_plus hJ, hJ a ha]
  ring

include hD in
theorem trac_plus : ∀ a < p.g, p.trac D' a = p.trac D a + p.trac E a := by
  intro a ha
  rw [ContactPoint.trac, ContactPoint.trac, ContactPoint.trac, Elasticity.traction_eq _ _ _ _ _ _ ha,
    Elasticity.traction_eq _ _ _ _ _ _ ha, Elasticity.traction_eq _ _ _ _ _ _ ha]
  have e : ∑ j ∈ range p.g, D' j j = ∑ j ∈ range p.g, D j j + ∑ j ∈ range p.g, E j j := by
    rw [← sum_add_distrib]
    exact sum_congr rfl (fun j hj => hD j (mem_range.mp hj) j (mem_range.mp hj))
  have e2 : ∑ j ∈ range p.g, p.mu * (D' j a + D' a j) * p.nPhys j
      = ∑ j ∈ range p.g, p.mu * (D j a + D a j) * p.nPhys j + ∑ j ∈ range p.g, p.mu * (E j a + E a j) * p.nPhys j := by
    rw [← sum_add_distrib]
    exact sum_congr rfl (fun j hj => by rw [hD j (mem_range.mp hj) a ha, hD a ha j (mem_range.mp hj)]; ring)
  rw [e, e2]
  ring

include hJ hD

theorem pressure_sum (gamma : ℝ) : p.pressure gamma J' D' = p.pressure gamma J D + p.dPressure gamma K E := by
  rw [ContactPoint.pressure, ContactPoint.pressure, ContactPoint.dPressure, dot_plus hJ, dot_plus (trac_plus hD)]
  ring

theorem slip_sum (gamma : ℝ) : ∀ a < p.g, p.slip gamma J' D' a = p.slip gamma J D a + p.slip gamma K E a := by
  intro a ha
  rw [ContactPoint.slip, ContactPoint.slip, ContactPoint.slip, tang_plus hJ a ha, tang_plus (trac_plus hD) a ha]
  ring

theorem step_sum {gamma : ℝ} (h : 0 < p.pressure gamma J D ↔ 0 < p.pressure gamma J' D') :
    max 0 (p.pressure gamma J' D') = max 0 (p.pressure gamma J D) + step (p.pressure gamma J D) * p.dPressure gamma K E := by
  unfold step
  by_cases h0 : 0 < p.pressure gamma J D
  · rw [max_eq_right (h.mp h0).le, max_eq_right h0.le, if_pos h0, one_mul, pressure_sum hJ hD]
  · rw [max_eq_left (not_lt.mp (fun h1 => h0 (h.mpr h1))), max_eq_left (not_lt.mp h0), if_neg h0]
    ring

omit hJ hD in
theorem ball_zero (g : ℕ) (x : ℕ → ℝ) {a : ℕ} (ha : a < g) : ball g x 0 a = 0 := by
  unfold ball
  split
  · rename_i h
    have h0 := le_antisymm h (Real.sqrt_nonneg _)
    rw [Real.sqrt_eq_zero (sum_nonneg (fun b _ => sq_nonneg _))] at h0
    have := (sum_eq_zero_iff_of_nonneg (fun b _ => sq_nonneg (x b))).mp h0 a (mem_range.mpr ha)
    exact pow_eq_zero_iff (two_ne_zero) |>.mp this
  · simp

theorem projected_sum {law : Law} {gamma : ℝ} (h : p.SameStatus law gamma J D J' D') (hl : law ≠ .frictionless) :
    ∀ a < p.g, p.projected law gamma J' D' a
      = p.projected law gamma J D a + p.dProjected cutSlope law gamma J D K E a := by
  intro a ha
  obtain ⟨h1, h2⟩ := h
  cases law with
  | frictionless => exact absurd rfl hl
  | tresca =>
    simp only [ContactPoint.projected, ContactPoint.dProjected]
    rcases h2 hl with ⟨b1, b2⟩ | ⟨b1, b2, b3⟩
    · simp only [ContactPoint.bound] at b1
      rw [b1, ball_zero _ _ ha, ball_zero _ _ ha, cutSlope, if_pos (by norm_num)]
      ring
    · simp only [ContactPoint.bound, ContactPoint.trial, magnitude] at b1 b2 b3
      rw [ball, if_pos b3, ball, if_pos b2.le, cutSlope, if_neg (not_lt.mpr b1), ballSlope, if_pos b2, slip_sum hJ hD _ a ha]
  | coulomb =>
    simp only [ContactPoint.projected, ContactPoint.dProjected]
    rcases h2 hl with ⟨b1, b2⟩ | ⟨b1, b2, b3⟩
    · simp only [ContactPoint.bound] at b1 b2
      have hz : p.fric * (step (p.pressure gamma J D) * p.dPressure gamma K E) = 0 := by
        have := step_sum hJ hD h1
        rw [this, mul_add, b1, zero_add] at b2
        exact b2
      rw [hz, b1, b2, ball_zero _ _ ha, ball_zero _ _ ha, cutSlope, if_pos (by norm_num)]
      ring
    · simp only [ContactPoint.bound, ContactPoint.trial, magnitude] at b1 b2 b3
      rw [ball, if_pos b3, ball, if_pos b2.le, cutSlope, if_neg (not_lt.mpr b1), ballSlope, if_pos b2, ballRadiusSlope,
        if_neg (not_lt.mpr b2.le), slip_sum hJ hD _ a ha, dot_plus hJ]
      ring

theorem form_sum {law : Law} {gamma : ℝ} (theta : ℝ) (h : p.SameStatus law gamma J D J' D') (T : ℕ → ℝ) (S : ℕ → ℕ → ℝ) :
    p.form law gamma theta J' D' T S
      = p.form law gamma theta J D T S + p.dForm cutSlope law gamma theta J D K E T S := by
  have n : p.normalPart gamma theta J' D' T S
      = p.normalPart gamma theta J D T S + p.dNormalPart gamma theta J D K E T S := by
    rw [ContactPoint.normalPart, ContactPoint.normalPart, ContactPoint.dNormalPart, step_sum hJ hD h.1,
      dot_plus (trac_plus hD)]
    ring
  have f : law ≠ .frictionless → p.frictionPart law gamma theta J' D' T S
      = p.frictionPart law gamma theta J D T S + p.dFrictionPart cutSlope law gamma theta J D K E T S := by
    intro hl
    rw [ContactPoint.frictionPart, ContactPoint.frictionPart, ContactPoint.dFrictionPart]
    have e1 : ∑ a ∈ range p.g, p.projected law gamma J' D' a * (p.tang T a - theta * (p.h / gamma) * p.tang (p.trac S) a)
        = ∑ a ∈ range p.g, p.projected law gamma J D a * (p.tang T a - theta * (p.h / gamma) * p.tang (p.trac S) a)
          + ∑ a ∈ range p.g, p.dProjected cutSlope law gamma J D K E a
            * (p.tang T a - theta * (p.h / gamma) * p.tang (p.trac S) a) := by
      rw [← sum_add_distrib]
      exact sum_congr rfl (fun a ha => by rw [projected_sum hJ hD h hl a (mem_range.mp ha), add_mul])
    have e2 : ∑ a ∈ range p.g, p.tang (p.trac D') a * p.tang (p.trac S) a
        = ∑ a ∈ range p.g, p.tang (p.trac D) a * p.tang (p.trac S) a
          + ∑ a ∈ range p.g, p.tang (p.trac E) a * p.tang (p.trac S) a := by
      rw [← sum_add_distrib]
      exact sum_congr rfl (fun a ha => by rw [tang_plus (trac_plus hD) a (mem_range.mp ha), add_mul])
    rw [e1, e2]
    ring
  rw [ContactPoint.form, ContactPoint.form, ContactPoint.dForm, n]
  split
  · ring
  · rename_i hl
    rw [f hl]
    ring

end

/-- The form is affine along a direction in which no point changes its status. -/
theorem contactForm_affine (t : Tracked G) (law : Law) (gamma theta : ℝ) (u w v : ℕ → ℝ)
    (hst : SameStatus Y t law gamma u (fun d => u d + w d)) :
    contactForm Y t law gamma theta (fun d => u d + w d) v
      = contactForm Y t law gamma theta u v + contactTangent Y t cutSlope law gamma theta u w v := by
  unfold contactForm contactTangent
  rw [← sum_add_distrib]
  refine sum_congr rfl (fun i hi => ?_)
  rw [← sum_add_distrib]
  refine sum_congr rfl (fun e he => ?_)
  cases hf : (Y.facets i)[e]? with
  | none => simp only [Option.elim_none, add_zero]
  | some c =>
    obtain ⟨cell, f⟩ := c
    simp only [Option.elim_some]
    rw [← sum_add_distrib]
    refine sum_congr rfl (fun q hq => ?_)
    by_cases hl : 0 ≤ Y.map t.cur i (e * Y.nq + q)
    · simp only [if_pos hl]
      have h := hst i (mem_range.mp hi) e (mem_range.mp he) cell f hf q (mem_range.mp hq) hl
      rw [← mul_add]
      congr 1
      refine form_sum (fun a _ => ?_) (fun a _ b _ => ?_) theta h _ _
      · have := jumpAt_line (Y := Y) t.cur i e cell f u w q a 1
        simpa using this
      · have := gradAt_line (Y := Y) cell f u w q a b 1
        simp only [one_mul] at this
        rw [this]
        ring
    · simp only [if_neg hl, add_zero]

/-- C134: the contact vector is affine as long as the status of no point changes: if all linked points have
the same status at `u` and at `u + w`, then the vector assembled at `u + w` is the vector at `u` plus the
matrix assembled at `u` times `w`. -/
theorem C134_affine (hY : System.Valid Y) (ops : List (Op G)) (hops : ∀ op ∈ ops, OpShaped Y.static op)
    (g : G) (law : Law) (hlaw : lastLaw ops none = some law)
    (h23 : law ≠ .frictionless → (Y.gdim = 2 ∨ Y.gdim = 3) ∧ UnitNormals Y ((Tracked.new g).history ops))
    (gamma theta : ℝ) (hconsts : lastConsts ops none = some (gamma, theta))
    (s : State G) (hs : s = history Y.static ops (init Y.static g)) (hc : s.coeffs ≠ none)
    (N : ℕ) (hN : DofsBelow Y N) (u w : ℕ → ℝ)
    (hst : SameStatus Y ((Tracked.new g).history ops) law gamma u (fun d => u d + w d)) :
    ∃ (upd upd' : State G) (b b' : Arr ℕ) (A : Arr (ℕ × ℕ)),
      updateContactData Y.static (Y.du u) s = .ok upd
      ∧ Y.assembleVector upd 0 = .ok b ∧ Y.assembleMatrix upd 0 = .ok A
      ∧ updateContactData Y.static (Y.du (fun d => u d + w d)) s = .ok upd' ∧ Y.assembleVector upd' 0 = .ok b'
      ∧ ∀ d < N, b' d = b d + ∑ c ∈ range N, A (d, c) * w c := by
  have hv := fun (u v : ℕ → ℝ) => C114_form hY ops hops g law hlaw (fun h => (h23 h).1) gamma theta hconsts s hs hc N hN u v
  obtain ⟨upd, A, h1, h2, h3⟩ := C131_matrix hY ops hops g law hlaw h23 gamma theta hconsts s hs hc N hN u
  obtain ⟨upd2, b, k1, k2, -⟩ := hv u 0
  obtain rfl : upd2 = upd := Except.ok.inj (k1.symm.trans h1)
  obtain ⟨upd', b', k1', k2', -⟩ := hv (fun d => u d + w d) 0
  refine ⟨upd2, upd', b, b', A, h1, k2, h2, k1', k2', fun d hd => ?_⟩
  obtain ⟨δ, hδ⟩ : ∃ δ : ℕ → ℝ, δ = fun c => if c = d then 1 else 0 := ⟨_, rfl⟩
  have eb : b d = contactForm Y ((Tracked.new g).history ops) law gamma theta u δ := by
    obtain ⟨s2, b2, m1, m2, m3⟩ := hv u δ
    obtain rfl : s2 = upd2 := Except.ok.inj (m1.symm.trans h1)
    obtain rfl : b2 = b := Except.ok.inj (m2.symm.trans k2)
    rw [← m3, hδ]
    simp [hd]
  have eb' : b' d = contactForm Y ((Tracked.new g).history ops) law gamma theta (fun d => u d + w d) δ := by
    obtain ⟨s2, b2, m1, m2, m3⟩ := hv (fun d => u d + w d) δ
    obtain rfl : s2 = upd' := Except.ok.inj (m1.symm.trans k1')
    obtain rfl : b2 = b' := Except.ok.inj (m2.symm.trans k2')
    rw [← m3, hδ]
    simp [hd]
  have eA : ∑ c ∈ range N, A (d, c) * w c
      = contactTangent Y ((Tracked.new g).history ops) cutSlope law gamma theta u w δ := by
    rw [← h3 w δ, hδ]
    simp [hd]
  rw [eb, eb', eA]
  exact contactForm_affine _ law gamma theta u w δ hst

/-- C134: a Newton step is exact: if the residual is a linear elastic part `K u - l` plus the contact
vector, `w` solves the assembled linear system, and no point changes its status from `u` to `u + w`, then
the residual at `u + w` is zero. -/
theorem C134_newton_step (hY : System.Valid Y) (ops : List (Op G)) (hops : ∀ op ∈ ops, OpShaped Y.static op)
    (g : G) (law : Law) (hlaw : lastLaw ops none = some law)
    (h23 : law ≠ .frictionless → (Y.gdim = 2 ∨ Y.gdim = 3) ∧ UnitNormals Y ((Tracked.new g).history ops))
    (gamma theta : ℝ) (hconsts : lastConsts ops none = some (gamma, theta))
    (s : State G) (hs : s = history Y.static ops (init Y.static g)) (hc : s.coeffs ≠ none)
    (N : ℕ) (hN : DofsBelow Y N) (K : ℕ → ℕ → ℝ) (l u w : ℕ → ℝ)
    (hst : SameStatus Y ((Tracked.new g).history ops) law gamma u (fun d => u d + w d)) :
    ∃ (upd upd' : State G) (b b' : Arr ℕ) (A : Arr (ℕ × ℕ)),
      updateContactData Y.static (Y.du u) s = .ok upd
      ∧ Y.assembleVector upd 0 = .ok b ∧ Y.assembleMatrix upd 0 = .ok A
      ∧ updateContactData Y.static (Y.du (fun d => u d + w d)) s = .ok upd' ∧ Y.assembleVector upd' 0 = .ok b'
      ∧ ((∀ d < N, ∑ c ∈ range N, (K d c + A (d, c)) * w c = -(∑ c ∈ range N, K d c * u c - l d + b d)) →
        ∀ d < N, ∑ c ∈ range N, K d c * (u c + w c) - l d + b' d = 0) := by
  obtain ⟨upd, upd', b, b', A, h1, h2, h3, h4, h5, h6⟩ :=
    C134_affine hY ops hops g law hlaw h23 gamma theta hconsts s hs hc N hN u w hst
  refine ⟨upd, upd', b, b', A, h1, h2, h3, h4, h5, fun hw d hd => ?_⟩
  have := hw d hd
  rw [h6 d hd]
  simp only [add_mul, sum_add_distrib, mul_add] at this ⊢
  linarith

/-- A displacement of the opposite cell by less than the friction bound, along the surface. -/
theorem ex_sameStatus (t : Tracked Unit) (n1 : ℝ) (hp : ∀ p, p = pointAt exY t 0 0 0 2 0 →
      p.g = 2 ∧ p.h = 1 ∧ p.fric = 2 ∧ p.normal 0 = 0 ∧ p.normal 1 = n1 ∧ p.gap 0 = 0 ∧ p.gap 1 = 2
      ∧ ∀ a < 2, ∀ b < 2, p.grad0 a b = 0) (u w : ℕ → ℝ) (hu : (u 0 = 0 ∧ u 1 = 0) ∧ u 2 = 0 ∧ u 3 = 0)
    (hw : (w 0 = 0 ∧ w 1 = 0) ∧ w 2 = 1 ∧ w 3 = 0) :
    SameStatus exY t .tresca 1 u w := by
  intro i hi e he cell f hf q hq _
  obtain rfl : i = 0 := by have : i < 1 := hi; omega
  obtain rfl : e = 0 := by have : e < 1 := he; omega
  obtain rfl : q = 0 := by have : q < 1 := hq; omega
  have hf' : some ((0 : ℕ), (2 : ℕ)) = some (cell, f) := hf
  obtain ⟨rfl, rfl⟩ := Prod.mk.inj (Option.some.inj hf')
  obtain ⟨p, hpd⟩ : ∃ p, p = pointAt exY t 0 0 0 2 0 := ⟨_, rfl⟩
  obtain ⟨hg, hh, hfr, hn0, hnn, hg0, hg1, hgr⟩ := hp p hpd
  rw [← hpd]
  have z : ∀ w : ℕ → ℝ, w 0 = 0 ∧ w 1 = 0 → w 3 = 0 → (p.pressure 1 (jumpAt exY () 0 0 0 2 w 0)
      (fun a b => gradAt exY 0 2 w 0 a b + p.grad0 a b) = -(2 * n1))
      ∧ p.slip 1 (jumpAt exY () 0 0 0 2 w 0) (fun a b => gradAt exY 0 2 w 0 a b + p.grad0 a b) 0 = -w 2
      ∧ p.slip 1 (jumpAt exY () 0 0 0 2 w 0) (fun a b => gradAt exY 0 2 w 0 a b + p.grad0 a b) 1 = 0 := by
    intro w h01 h3
    have z2 : ∀ a < p.g, ∀ b < p.g, gradAt exY 0 2 w 0 a b + p.grad0 a b = 0 := fun a ha b _ => by
      rw [hgr a (by omega) b (by omega), exBound_grad w h01 0 a b (by omega), add_zero]
    have t0 := trac_zero p z2 (a := 0) (by omega)
    have t1 := trac_zero p z2 (a := 1) (by omega)
    refine ⟨?_, ?_, ?_⟩
    · simp only [ContactPoint.pressure, ContactPoint.dot, hg, sum_range_succ, sum_range_zero, hn0, hnn, hg0, hg1, t0, t1,
        exBound_jump, h3, h01]
      ring
    · simp only [ContactPoint.slip, ContactPoint.tang, ContactPoint.dot, hg, sum_range_succ, sum_range_zero, hn0, hnn, t0, t1,
        exBound_jump, h3, h01]
      ring
    · simp only [ContactPoint.slip, ContactPoint.tang, ContactPoint.dot, hg, sum_range_succ, sum_range_zero, hn0, hnn, t0, t1,
        exBound_jump, h3, h01]
      ring
  obtain ⟨a1, a2, a3⟩ := z u hu.1 hu.2.2
  obtain ⟨b1, b2, b3⟩ := z w hw.1 hw.2.2
  have hbound : ∀ J D, p.bound .tresca 1 J D = 2 := fun J D => by
    show p.h / 1 * p.fric = 2
    rw [hh, hfr]
    norm_num
  refine ⟨?_, fun _ => Or.inr ⟨?_, ?_, ?_⟩⟩
  · exact iff_of_eq (by rw [a1]; exact congrArg (0 < ·) b1.symm)
  · rw [hbound]; norm_num
  · rw [hbound]
    show Real.sqrt (∑ a ∈ range p.g, p.slip 1 _ _ a ^ 2) < 2
    rw [hg, sum_range_succ, sum_range_one, a2, a3, hu.2.1]
    simp
  · rw [hbound]
    show Real.sqrt (∑ a ∈ range p.g, p.slip 1 (jumpAt exY () 0 0 0 2 w 0) _ a ^ 2) ≤ 2
    rw [hg, sum_range_succ, sum_range_one, b2, b3, hw.2.1, Real.sqrt_le_left (by norm_num)]
    norm_num

theorem exBound_sameStatus : SameStatus exY ((Tracked.new ()).history (exOpsBound 2)) .tresca 1 0 (fun d => 0 + exDir d) := by
  obtain ⟨n1, -, hp⟩ := exBound_point 2
  refine ex_sameStatus _ n1 (fun p h => ?_) 0 _ ⟨⟨rfl, rfl⟩, rfl, rfl⟩ (by simp [exDir])
  obtain ⟨h1, h2, h3, h4, h5, h6, h7, h8⟩ := hp p h
  exact ⟨h1, h2, h3, h4, h5, h6, h7, fun a _ b _ => h8 a b⟩

/-- The hypotheses of C134 hold for a stick point with friction bound 2 moved by 1. -/
example : System.Valid exY ∧ (∀ op ∈ exOpsBound 2, OpShaped exY.static op)
    ∧ lastLaw (exOpsBound 2) none = some .tresca ∧ lastConsts (exOpsBound 2) none = some (1, 0)
    ∧ (history exY.static (exOpsBound 2) (init exY.static ())).coeffs ≠ none
    ∧ exY.gdim = 2 ∧ UnitNormals exY ((Tracked.new ()).history (exOpsBound 2)) ∧ DofsBelow exY 4
    ∧ SameStatus exY ((Tracked.new ()).history (exOpsBound 2)) .tresca 1 0 (fun d => 0 + exDir d) :=
  ⟨exY_valid, exOpsBound_shaped _, rfl, rfl, exOpsBound_created _, rfl, exOpsBound_unit _, exY_below, exBound_sameStatus⟩

end

end Verif.ContactProblem
