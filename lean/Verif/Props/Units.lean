import Verif.Props.Rotation
import Verif.Spec.Units

/-!
Property C153: the contact vector and matrix do not depend on the units of length and stress.
-/

namespace Verif.ContactProblem

open Verif.Spec Verif.Geometry Verif.Packing Verif.Assembly Verif.Kernels Finset

noncomputable section

variable {G : Type}

/-! ### the form of a point -/

/-- The same point in other units. -/
structure UnitPoint (law : Law) (a k : ℝ) (p p' : ContactPoint) : Prop where
  g : p'.g = p.g
  mu : p'.mu = k * p.mu
  lam : p'.lam = k * p.lam
  fric : p'.fric = frictionUnit law k * p.fric
  h : p'.h = a * p.h
  normal : p'.normal = p.normal
  oldNormal : p'.oldNormal = p.oldNormal
  gap : p'.gap = fun c => a * p.gap c
  nPhys : ∀ c < p.g, p'.nPhys c = p.nPhys c

theorem norm_times {g : ℕ} {a : ℝ} (ha : 0 < a) {x x' : ℕ → ℝ} (h : ∀ b < g, x' b = a * x b) :
    Real.sqrt (∑ b ∈ range g, x' b ^ 2) = a * Real.sqrt (∑ b ∈ range g, x b ^ 2) := by
  have : ∑ b ∈ range g, x' b ^ 2 = a ^ 2 * ∑ b ∈ range g, x b ^ 2 := by
    rw [mul_sum]
    exact sum_congr rfl (fun b hb => by rw [h b (mem_range.mp hb)]; ring)
  rw [this, Real.sqrt_mul (sq_nonneg a), Real.sqrt_sq ha.le]

theorem ball_times {g : ℕ} {a : ℝ} (ha : 0 < a) {x x' : ℕ → ℝ} (h : ∀ b < g, x' b = a * x b) (r : ℝ) :
    ∀ b < g, ball g x' (a * r) b = a * ball g x r b := by
  intro b hb
  unfold ball
  rw [norm_times ha h]
  simp only [mul_le_mul_iff_right₀ ha]
  split
  · exact h b hb
  · rw [h b hb]
    rcases eq_or_ne (Real.sqrt (∑ b ∈ range g, x b ^ 2)) 0 with hz | hz
    · rw [hz]; simp
    · field_simp

theorem ballSlope_times {g : ℕ} {a : ℝ} (ha : 0 < a) {x x' y y' : ℕ → ℝ} (h : ∀ b < g, x' b = a * x b)
    (hy : ∀ b < g, y' b = y b) (r : ℝ) :
    ∀ b < g, ballSlope g x' (a * r) y' b = ballSlope g x r y b := by
  intro b hb
  have e : ∑ b ∈ range g, x' b * y' b = a * ∑ b ∈ range g, x b * y b := by
    rw [mul_sum]
    exact sum_congr rfl (fun b hb => by rw [h b (mem_range.mp hb), hy b (mem_range.mp hb)]; ring)
  unfold ballSlope
  rw [norm_times ha h, e]
  simp only [mul_lt_mul_iff_right₀ ha]
  split
  · exact hy b hb
  · rw [h b hb, hy b hb]
    rcases eq_or_ne (Real.sqrt (∑ b ∈ range g, x b ^ 2)) 0 with hz | hz
    · rw [hz]; simp
    · field_simp

theorem ballRadiusSlope_times {g : ℕ} {a : ℝ} (ha : 0 < a) {x x' : ℕ → ℝ} (h : ∀ b < g, x' b = a * x b) (r : ℝ) :
    ∀ b < g, ballRadiusSlope g x' (a * r) b = ballRadiusSlope g x r b := by
  intro b hb
  unfold ballRadiusSlope
  rw [norm_times ha h, h b hb]
  simp only [mul_lt_mul_iff_right₀ ha]
  split
  · rcases eq_or_ne (Real.sqrt (∑ b ∈ range g, x b ^ 2)) 0 with hz | hz
    · rw [hz]; simp
    · field_simp
  · rfl

section

variable {law : Law} {a k : ℝ} {p p' : ContactPoint} (S : UnitPoint law a k p p')

include S

theorem UnitPoint.dot {c : ℝ} {x x' : ℕ → ℝ} (h : ∀ b < p.g, x' b = c * x b) : p'.dot x' = c * p.dot x := by
  rw [ContactPoint.dot, ContactPoint.dot, S.g, S.normal, mul_sum]
  exact sum_congr rfl (fun b hb => by rw [h b (mem_range.mp hb)]; ring)

theorem UnitPoint.tang {c : ℝ} {x x' : ℕ → ℝ} (h : ∀ b < p.g, x' b = c * x b) :
    ∀ b < p.g, p'.tang x' b = c * p.tang x b := by
  intro b hb
  rw [ContactPoint.tang, ContactPoint.tang, S.dot h, h b hb, S.normal]
  ring

theorem UnitPoint.trac {c : ℝ} {D D' : ℕ → ℕ → ℝ} (h : ∀ a < p.g, ∀ b < p.g, D' a b = c * D a b) :
    ∀ b < p.g, p'.trac D' b = (k * c) * p.trac D b := by
  intro b hb
  rw [ContactPoint.trac, ContactPoint.trac, S.g, S.mu, S.lam, Elasticity.traction_eq _ _ _ _ _ _ hb,
    Elasticity.traction_eq _ _ _ _ _ _ hb, mul_add, S.nPhys b hb]
  congr 1
  · rw [mul_sum]
    refine sum_congr rfl (fun j hj => ?_)
    have hj' := mem_range.mp hj
    rw [h _ hj' _ hb, h _ hb _ hj', S.nPhys j hj']
    ring
  · have : ∑ j ∈ range p.g, D' j j = c * ∑ j ∈ range p.g, D j j := by
      rw [mul_sum]
      exact sum_congr rfl (fun j hj => h j (mem_range.mp hj) j (mem_range.mp hj))
    rw [this]
    ring

end

section

variable {law : Law} {a k : ℝ} {p p' : ContactPoint} (S : UnitPoint law a k p p') (ha : 0 < a) (hk : 0 < k)
  (gamma theta : ℝ)
  {J J' J1 J1' J2 J2' : ℕ → ℝ} {D D' D1 D1' D2 D2' : ℕ → ℕ → ℝ}
  (hJ : ∀ b < p.g, J' b = a * J b) (hD : ∀ b < p.g, ∀ c < p.g, D' b c = D b c)
  (hJ1 : ∀ b < p.g, J1' b = J1 b) (hD1 : ∀ b < p.g, ∀ c < p.g, D1' b c = 1 / a * D1 b c)
  (hJ2 : ∀ b < p.g, J2' b = J2 b) (hD2 : ∀ b < p.g, ∀ c < p.g, D2' b c = 1 / a * D2 b c)

include ha hk in
theorem unit_ratio (h gamma x : ℝ) : a * h / (k * gamma) * (k * x) = a * (h / gamma * x) := by
  rcases eq_or_ne gamma 0 with hz | hz
  · simp [hz]
  · field_simp

include ha hk in
theorem unit_ratio' (h gamma x : ℝ) : a * h / (k * gamma) * (k * (1 / a) * x) = h / gamma * x := by
  rcases eq_or_ne gamma 0 with hz | hz
  · simp [hz]
  · field_simp

include ha in
theorem unit_ratio_inv (h gamma : ℝ) : k * gamma / (a * h) = k / a * (gamma / h) := by
  rw [mul_div_mul_comm]

include S ha hk hJ hD

theorem UnitPoint.trac0 : ∀ b < p.g, p'.trac D' b = k * p.trac D b := by
  have := S.trac (c := 1) (D := D) (D' := D') (fun b hb c hc => by rw [hD b hb c hc, one_mul])
  simpa using this

theorem UnitPoint.pressure : p'.pressure (k * gamma) J' D' = a * p.pressure gamma J D := by
  rw [ContactPoint.pressure, ContactPoint.pressure, S.dot hJ, S.dot (c := a) (x := p.gap) (fun b _ => by rw [S.gap]),
    S.dot (S.trac0 ha hk hJ hD), S.h, unit_ratio ha hk]
  ring

theorem UnitPoint.slip : ∀ b < p.g, p'.slip (k * gamma) J' D' b = a * p.slip gamma J D b := by
  intro b hb
  rw [ContactPoint.slip, ContactPoint.slip, S.tang hJ b hb, S.tang (S.trac0 ha hk hJ hD) b hb, S.h, unit_ratio ha hk]
  ring

theorem UnitPoint.trialSlip : ∀ b < p.g,
    p'.slip (k * gamma) J' D' b - (p'.dot p'.gap - p'.dot J') * p'.tang p'.oldNormal b
    = a * (p.slip gamma J D b - (p.dot p.gap - p.dot J) * p.tang p.oldNormal b) := by
  intro b hb
  rw [S.slip ha hk gamma hJ hD b hb, S.dot hJ, S.dot (c := a) (x := p.gap) (fun b _ => by rw [S.gap]),
    S.tang (c := 1) (x := p.oldNormal) (fun b _ => by rw [S.oldNormal, one_mul]) b hb]
  ring

theorem UnitPoint.maxPressure : max 0 (p'.pressure (k * gamma) J' D') = a * max 0 (p.pressure gamma J D) := by
  rw [S.pressure ha hk gamma hJ hD, mul_max_of_nonneg _ _ ha.le, mul_zero]

theorem UnitPoint.projected : ∀ b < p.g, p'.projected law (k * gamma) J' D' b = a * p.projected law gamma J D b := by
  intro b hb
  cases law with
  | frictionless => simp [ContactPoint.projected]
  | tresca =>
    simp only [ContactPoint.projected]
    have hf : p'.fric = k * p.fric := by rw [S.fric]; simp [frictionUnit]
    rw [S.g, S.h, hf, unit_ratio ha hk]
    exact ball_times ha (S.slip ha hk gamma hJ hD) _ b hb
  | coulomb =>
    simp only [ContactPoint.projected]
    have hf : p'.fric = p.fric := by rw [S.fric]; simp [frictionUnit]
    rw [S.g, S.maxPressure ha hk gamma hJ hD, hf, mul_left_comm]
    exact ball_times ha (S.trialSlip ha hk gamma hJ hD) _ b hb

include hJ1 hD1

omit hJ hD in
theorem UnitPoint.testDot : p'.dot J1' - theta * (p'.h / (k * gamma)) * p'.dot (p'.trac D1')
    = p.dot J1 - theta * (p.h / gamma) * p.dot (p.trac D1) := by
  rw [S.dot (c := 1) (x := J1) (fun b hb => by rw [hJ1 b hb, one_mul]), S.dot (S.trac hD1), S.h, mul_assoc theta,
    unit_ratio' ha hk]
  ring

omit hJ hD in
theorem UnitPoint.test : ∀ b < p.g, p'.tang J1' b - theta * (p'.h / (k * gamma)) * p'.tang (p'.trac D1') b
    = p.tang J1 b - theta * (p.h / gamma) * p.tang (p.trac D1) b := by
  intro b hb
  rw [S.tang (c := 1) (x := J1) (fun b hb => by rw [hJ1 b hb, one_mul]) b hb, S.tang (S.trac hD1) b hb, S.h,
    mul_assoc theta, unit_ratio' ha hk]
  ring

theorem UnitPoint.form :
    p'.form law (k * gamma) theta J' D' J1' D1' = k * p.form law gamma theta J D J1 D1 := by
  have n : p'.normalPart (k * gamma) theta J' D' J1' D1' = k * p.normalPart gamma theta J D J1 D1 := by
    rw [ContactPoint.normalPart, ContactPoint.normalPart, S.maxPressure ha hk gamma hJ hD,
      S.testDot ha hk gamma theta hJ1 hD1, S.dot (S.trac0 ha hk hJ hD), S.dot (S.trac hD1), S.h, unit_ratio_inv ha]
    have := unit_ratio' ha hk p.h gamma (p.dot (p.trac D1))
    have e : 1 / 2 * theta * (a * p.h / (k * gamma)) * (k * p.dot (p.trac D)) * (k * (1 / a) * p.dot (p.trac D1))
        = 1 / 2 * theta * (k * p.dot (p.trac D)) * (a * p.h / (k * gamma) * (k * (1 / a) * p.dot (p.trac D1))) := by ring
    rw [e, this]
    field_simp
  have f : p'.frictionPart law (k * gamma) theta J' D' J1' D1' = k * p.frictionPart law gamma theta J D J1 D1 := by
    rw [ContactPoint.frictionPart, ContactPoint.frictionPart, S.g]
    have e1 : ∑ b ∈ range p.g, p'.projected law (k * gamma) J' D' b
        * (p'.tang J1' b - theta * (p'.h / (k * gamma)) * p'.tang (p'.trac D1') b)
        = a * ∑ b ∈ range p.g, p.projected law gamma J D b
          * (p.tang J1 b - theta * (p.h / gamma) * p.tang (p.trac D1) b) := by
      rw [mul_sum]
      refine sum_congr rfl (fun b hb => ?_)
      rw [S.projected ha hk gamma hJ hD b (mem_range.mp hb), S.test ha hk gamma theta hJ1 hD1 b (mem_range.mp hb)]
      ring
    have e2 : ∑ b ∈ range p.g, p'.tang (p'.trac D') b * p'.tang (p'.trac D1') b
        = k * (k * (1 / a) * ∑ b ∈ range p.g, p.tang (p.trac D) b * p.tang (p.trac D1) b) := by
      rw [mul_sum, mul_sum]
      refine sum_congr rfl (fun b hb => ?_)
      rw [S.tang (S.trac0 ha hk hJ hD) b (mem_range.mp hb), S.tang (S.trac hD1) b (mem_range.mp hb)]
      ring
    rw [e1, e2, S.h, unit_ratio_inv ha]
    have := unit_ratio' ha hk p.h gamma (∑ b ∈ range p.g, p.tang (p.trac D) b * p.tang (p.trac D1) b)
    have e : ∀ s : ℝ, 1 / 2 * theta * (a * p.h / (k * gamma)) * (k * (k * (1 / a) * s))
        = 1 / 2 * theta * k * (a * p.h / (k * gamma) * (k * (1 / a) * s)) := fun s => by ring
    rw [e, this]
    field_simp
  rw [ContactPoint.form, ContactPoint.form, n, f]
  split <;> ring

omit hJ hD in
theorem UnitPoint.dPressure : p'.dPressure (k * gamma) J1' D1' = p.dPressure gamma J1 D1 := by
  have := S.testDot ha hk gamma 1 hJ1 hD1
  simpa [ContactPoint.dPressure] using this

theorem UnitPoint.stepPressure : step (p'.pressure (k * gamma) J' D') = step (p.pressure gamma J D) := by
  rw [S.pressure ha hk gamma hJ hD]
  unfold step
  simp only [mul_pos_iff_of_pos_left ha]

omit hJ hD in
theorem UnitPoint.dSlip : ∀ b < p.g, p'.slip (k * gamma) J1' D1' b = p.slip gamma J1 D1 b := by
  intro b hb
  have := S.test ha hk gamma 1 hJ1 hD1 b hb
  simpa [ContactPoint.slip] using this

theorem UnitPoint.dProjected : ∀ b < p.g, p'.dProjected ballSlope law (k * gamma) J' D' J1' D1' b
    = p.dProjected ballSlope law gamma J D J1 D1 b := by
  intro b hb
  cases law with
  | frictionless => rfl
  | tresca =>
    simp only [ContactPoint.dProjected]
    have hf : p'.fric = k * p.fric := by rw [S.fric]; simp [frictionUnit]
    rw [S.g, S.h, hf, unit_ratio ha hk]
    exact ballSlope_times ha (S.slip ha hk gamma hJ hD) (S.dSlip ha hk gamma hJ1 hD1) _ b hb
  | coulomb =>
    simp only [ContactPoint.dProjected]
    have hf : p'.fric = p.fric := by rw [S.fric]; simp [frictionUnit]
    rw [S.g, S.maxPressure ha hk gamma hJ hD, hf, mul_left_comm, S.stepPressure ha hk gamma hJ hD hJ1 hD1,
      S.dPressure ha hk gamma hJ1 hD1]
    rw [ballSlope_times ha (S.trialSlip ha hk gamma hJ hD)
      (y := fun b => p.slip gamma J1 D1 b + p.dot J1 * p.tang p.oldNormal b) ?_ _ b hb,
      ballRadiusSlope_times ha (S.trialSlip ha hk gamma hJ hD) _ b hb]
    intro b hb
    rw [S.dSlip ha hk gamma hJ1 hD1 b hb, S.dot (c := 1) (x := J1) (fun b hb => by rw [hJ1 b hb, one_mul]),
      S.tang (c := 1) (x := p.oldNormal) (fun b _ => by rw [S.oldNormal, one_mul]) b hb]
    ring

include hJ2 hD2

theorem UnitPoint.dForm : p'.dForm ballSlope law (k * gamma) theta J' D' J1' D1' J2' D2'
    = k / a * p.dForm ballSlope law gamma theta J D J1 D1 J2 D2 := by
  have r := unit_ratio' ha hk p.h gamma
  have e : ∀ s : ℝ, 1 / 2 * theta * (a * p.h / (k * gamma)) * (k * (1 / a) * (k * (1 / a) * s))
      = k / a * (1 / 2 * theta * (p.h / gamma * s)) := fun s => by
    rw [← r s]; ring
  have n : p'.dNormalPart (k * gamma) theta J' D' J1' D1' J2' D2'
      = k / a * p.dNormalPart gamma theta J D J1 D1 J2 D2 := by
    rw [ContactPoint.dNormalPart, ContactPoint.dNormalPart, S.stepPressure ha hk gamma hJ hD hJ1 hD1,
      S.dPressure ha hk gamma hJ1 hD1, S.testDot ha hk gamma theta hJ2 hD2, S.dot (S.trac hD1), S.dot (S.trac hD2),
      S.h, unit_ratio_inv ha]
    have e' := e (p.dot (p.trac D1) * p.dot (p.trac D2))
    have e2 : 1 / 2 * theta * (a * p.h / (k * gamma)) * (k * (1 / a) * p.dot (p.trac D1)) * (k * (1 / a) * p.dot (p.trac D2))
        = 1 / 2 * theta * (a * p.h / (k * gamma)) * (k * (1 / a) * (k * (1 / a) * (p.dot (p.trac D1) * p.dot (p.trac D2)))) := by
      ring
    rw [e2, e']
    ring
  have f : p'.dFrictionPart ballSlope law (k * gamma) theta J' D' J1' D1' J2' D2'
      = k / a * p.dFrictionPart ballSlope law gamma theta J D J1 D1 J2 D2 := by
    rw [ContactPoint.dFrictionPart, ContactPoint.dFrictionPart, S.g]
    have e1 : ∑ b ∈ range p.g, p'.dProjected ballSlope law (k * gamma) J' D' J1' D1' b
        * (p'.tang J2' b - theta * (p'.h / (k * gamma)) * p'.tang (p'.trac D2') b)
        = ∑ b ∈ range p.g, p.dProjected ballSlope law gamma J D J1 D1 b
          * (p.tang J2 b - theta * (p.h / gamma) * p.tang (p.trac D2) b) := by
      refine sum_congr rfl (fun b hb => ?_)
      rw [S.dProjected ha hk gamma hJ hD hJ1 hD1 b (mem_range.mp hb), S.test ha hk gamma theta hJ2 hD2 b (mem_range.mp hb)]
    have e2 : ∑ b ∈ range p.g, p'.tang (p'.trac D1') b * p'.tang (p'.trac D2') b
        = k * (1 / a) * (k * (1 / a) * ∑ b ∈ range p.g, p.tang (p.trac D1) b * p.tang (p.trac D2) b) := by
      rw [mul_sum, mul_sum]
      refine sum_congr rfl (fun b hb => ?_)
      rw [S.tang (S.trac hD1) b (mem_range.mp hb), S.tang (S.trac hD2) b (mem_range.mp hb)]
      ring
    rw [e1, e2, S.h, unit_ratio_inv ha, e]
    ring
  rw [ContactPoint.dForm, ContactPoint.dForm, n, f]
  split <;> ring

end

/-! ### the tracked data of the calls in other units -/

/-- What the form reads of the tracked data, in other units. -/
structure UnitTracked (law : Law) (a k : ℝ) (t t' : Tracked G) : Prop where
  created : t'.created = t.created
  cur : t'.cur = t.cur
  prev : t'.prev = t.prev
  mu : ∀ i e c, t'.mu i e c = k * t.mu i e c
  lam : ∀ i e c, t'.lam i e c = k * t.lam i e c
  fric : ∀ i e c, t'.fric i e c = frictionUnit law k * t.fric i e c
  h : ∀ i e c, t'.h i e c = a * t.h i e c
  gradU : t'.gradU = t.gradU

variable {law : Law} {a k : ℝ}

theorem UnitTracked.drop {t t' : Tracked G} (T : UnitTracked law a k t t') (du du' : Option (Du G)) :
    UnitTracked law a k (match du with | some du => t.setDu du | none => t)
      (match du' with | some du => t'.setDu du | none => t') := by
  cases du <;> cases du' <;> exact ⟨T.created, T.cur, T.prev, T.mu, T.lam, T.fric, T.h, T.gradU⟩

theorem UnitTracked.call {t t' : Tracked G} (T : UnitTracked law a k t t') (op : Op G) :
    UnitTracked law a k (t.call op) (t'.call (callInUnits law a k op)) := by
  cases op with
  | updateData du =>
    simp only [Tracked.call, callInUnits]
    rw [T.created]
    split
    · exact ⟨T.created, T.cur, T.prev, T.mu, T.lam, T.fric, T.h, T.gradU⟩
    · exact T
  | updateNitsche => exact T
  | updateDetection move m =>
    simp only [Tracked.call, callInUnits]
    rw [T.created]
    split
    · exact ⟨rfl, congrArg move T.cur, T.cur, T.mu, T.lam, T.fric, T.h, rfl⟩
    · exact ⟨rfl, congrArg move T.cur, T.prev, T.mu, T.lam, T.fric, T.h, T.gradU⟩
  | generate c =>
    simp only [Tracked.call, callInUnits]
    cases c.mu with
    | none => exact T
    | some m =>
      cases c.lam with
      | none => exact T
      | some l =>
        simp only [Option.map_some]
        refine UnitTracked.drop ?_ _ _
        refine ⟨rfl, T.cur, ?_, fun _ _ _ => rfl, fun _ _ _ => rfl, ?_, fun _ _ _ => rfl, rfl⟩
        · show (if t'.created then _ else _) = (if t.created then _ else _)
          rw [T.created, T.prev, T.cur]
        · cases c.fric with
          | none => exact T.fric
          | some f => exact fun _ _ _ => rfl

theorem UnitTracked.history (ops : List (Op G)) : ∀ {t t' : Tracked G}, UnitTracked law a k t t' →
    UnitTracked law a k (t.history ops) (t'.history (ops.map (callInUnits law a k))) := by
  induction ops with
  | nil => exact fun T => T
  | cons op ops ih => exact fun T => ih (T.call op)

theorem UnitTracked.new (x : G) : UnitTracked law a k (Tracked.new x) (Tracked.new x) :=
  ⟨rfl, rfl, rfl, fun _ _ _ => (mul_zero k).symm, fun _ _ _ => (mul_zero k).symm, fun _ _ _ => (mul_zero _).symm,
    fun _ _ _ => (mul_zero a).symm, rfl⟩

theorem unit_law (ops : List (Op G)) : ∀ l, lastLaw (ops.map (callInUnits law a k)) l = lastLaw ops l := by
  induction ops with
  | nil => exact fun _ => rfl
  | cons op ops ih => intro l; cases op <;> exact ih _

theorem unit_consts (ops : List (Op G)) : ∀ l, lastConsts (ops.map (callInUnits law a k)) (l.map fun c => (k * c.1, c.2))
    = (lastConsts ops l).map fun c => (k * c.1, c.2) := by
  induction ops with
  | nil => exact fun _ => rfl
  | cons op ops ih =>
    intro l
    cases op with
    | generate c => exact ih (some (c.gamma, c.theta))
    | updateNitsche gamma theta =>
      cases l with
      | none => exact ih none
      | some => exact ih (some (gamma, theta))
    | updateData => exact ih l
    | updateDetection => exact ih l

variable {Y : System G}

theorem unit_shaped {op : Op G} (h : OpShaped Y.static op) : OpShaped (inUnits a Y).static (callInUnits law a k op) := by
  have hd : ∀ du : Du G, DuShaped Y.static du → DuShaped (inUnits a Y).static (duInUnits a du) :=
    fun du hd => ⟨hd.val, hd.grad, hd.opp⟩
  cases op with
  | generate c =>
    obtain ⟨h1, h2, h3, h4, h5, h6⟩ := h
    refine ⟨?_, ?_, ?_, ?_, h5, ?_⟩
    · intro m hm
      obtain ⟨u, hu, rfl⟩ := Option.map_eq_some_iff.mp hm
      exact h1 u hu
    · intro m hm
      obtain ⟨u, hu, rfl⟩ := Option.map_eq_some_iff.mp hm
      exact h2 u hu
    · intro m hm
      obtain ⟨u, hu, rfl⟩ := Option.map_eq_some_iff.mp hm
      exact h3 u hu
    · exact h4
    · intro d hm
      obtain ⟨du, hu, rfl⟩ := Option.map_eq_some_iff.mp hm
      exact hd du (h6 du hu)
  | updateData du => exact hd du h
  | updateDetection move m => exact h
  | updateNitsche => exact h

theorem unit_valid (hY : System.Valid Y) : System.Valid (inUnits a Y) where
  pairs := hY.pairs
  dim := hY.dim
  points := hY.points
  cell := hY.cell
  loc := hY.loc
  gap := hY.gap
  nx := hY.nx
  ny := hY.ny
  space := hY.space
  search := hY.search
  cells := hY.cells
  shared := hY.shared
  affine := hY.affine

/-! ### the geometry in other units -/

theorem unit_jacobian (cell r i j : ℕ) : jacobianAt (inUnits a Y) cell r i j = a * jacobianAt Y cell r i j := by
  show ∑ n ∈ range Y.geo.nx, a * Y.geo.x (3 * Y.geo.xdof cell n + i) * Y.cphi r (j + 1) n = _
  rw [jacobianAt, mul_sum]
  exact sum_congr rfl (fun n _ => by ring)

theorem unit_inv (ha : 0 < a) (hG : GeometryContract Y) {cell r : ℕ}
    (hK : ∃ K, LeftInverse Y.gdim Y.tdim K (jacobianAt Y cell r)) {j b : ℕ} (hj : j < Y.tdim) (hb : b < Y.gdim) :
    Y.inv (jacobianAt (inUnits a Y) cell r) j b = 1 / a * Y.inv (jacobianAt Y cell r) j b := by
  obtain ⟨K, hK⟩ := hK
  have lift : ∀ X, LeftInverse Y.gdim Y.tdim X (jacobianAt Y cell r) →
      LeftInverse Y.gdim Y.tdim (fun c d => 1 / a * X c d) (jacobianAt (inUnits a Y) cell r) := by
    intro X hX c hc d hd
    rw [← hX c hc d hd]
    refine sum_congr rfl (fun i _ => ?_)
    rw [unit_jacobian]
    field_simp
  have hP := hG.inv _ K hK
  refine pseudo_unique (hG.inv _ _ (lift K hK)) (L := fun c d => 1 / a * Y.inv (jacobianAt Y cell r) c d) ⟨lift _ hP.1, ?_⟩ hj hb
  intro x hx y hy
  have := hP.2 x hx y hy
  have e : ∀ x y, ∑ c ∈ range Y.tdim, jacobianAt (inUnits a Y) cell r x c * (1 / a * Y.inv (jacobianAt Y cell r) c y)
      = ∑ c ∈ range Y.tdim, jacobianAt Y cell r x c * Y.inv (jacobianAt Y cell r) c y := by
    intro x y
    refine sum_congr rfl (fun c _ => ?_)
    rw [unit_jacobian]
    field_simp
  rw [e, e]
  exact this

theorem unit_weight (ha : 0 < a) (hD : SurfaceFactorIsArea Y) (cell f q : ℕ) :
    weightAt (inUnits a Y) cell f q = a ^ (Y.tdim - 1) * weightAt Y cell f q := by
  show Y.weights f q * Y.det f (jacobianAt (inUnits a Y) cell (Y.off f + q)) = _
  rw [hD f a (jacobianAt Y cell (Y.off f + q)) _ ha (fun i _ j _ => unit_jacobian cell _ i j), weightAt]
  ring

theorem unit_grad (ha : 0 < a) (hG : GeometryContract Y) {cell f q : ℕ}
    (hK : ∃ K, LeftInverse Y.gdim Y.tdim K (jacobianAt Y cell (Y.off f + q))) (u : ℕ → ℝ) (b : ℕ) {c : ℕ}
    (hc : c < Y.gdim) : gradAt (inUnits a Y) cell f u q b c = 1 / a * gradAt Y cell f u q b c := by
  show ∑ m ∈ range Y.nd, (∑ j ∈ range Y.tdim, Y.inv (jacobianAt (inUnits a Y) cell (Y.off f + q)) j c
    * Y.dphi j (Y.off f + q) m) * u (Y.gdim * Y.space.parent cell m + b) = _
  rw [gradAt, mul_sum]
  refine sum_congr rfl (fun m _ => ?_)
  rw [← mul_assoc, mul_sum]
  congr 1
  refine sum_congr rfl (fun j hj => ?_)
  rw [unit_inv ha hG hK (mem_range.mp hj) hc, mul_assoc]

theorem unit_gradTimes (ha : 0 < a) (hG : GeometryContract Y) {cell f q : ℕ}
    (hK : ∃ K, LeftInverse Y.gdim Y.tdim K (jacobianAt Y cell (Y.off f + q))) (u : ℕ → ℝ) (b : ℕ) {c : ℕ}
    (hc : c < Y.gdim) : gradAt (inUnits a Y) cell f (fun d => a * u d) q b c = gradAt Y cell f u q b c := by
  rw [unit_grad ha hG hK _ b hc, gradAt, gradAt, mul_sum]
  refine sum_congr rfl (fun m _ => ?_)
  field_simp

theorem unit_outward (ha : 0 < a) (hG : GeometryContract Y) {cell f q : ℕ}
    (hK : ∃ K, LeftInverse Y.gdim Y.tdim K (jacobianAt Y cell (Y.off f + q))) {c : ℕ} (hc : c < Y.gdim) :
    outwardAt (inUnits a Y) cell f q c = outwardAt Y cell f q c := by
  have e : ∀ b < Y.gdim, ∑ j ∈ range Y.tdim, Y.inv (jacobianAt (inUnits a Y) cell (Y.off f + q)) j b * Y.nref f j
      = 1 / a * ∑ j ∈ range Y.tdim, Y.inv (jacobianAt Y cell (Y.off f + q)) j b * Y.nref f j := by
    intro b hb
    rw [mul_sum]
    refine sum_congr rfl (fun j hj => ?_)
    rw [unit_inv ha hG hK (mem_range.mp hj) hb, mul_assoc]
  show (∑ j ∈ range Y.tdim, Y.inv (jacobianAt (inUnits a Y) cell (Y.off f + q)) j c * Y.nref f j)
    / Real.sqrt (∑ b ∈ range Y.gdim, (∑ j ∈ range Y.tdim, Y.inv (jacobianAt (inUnits a Y) cell (Y.off f + q)) j b * Y.nref f j) ^ 2)
    = _
  rw [norm_times (g := Y.gdim) (one_div_pos.mpr ha) (x' := fun b => ∑ j ∈ range Y.tdim, Y.inv (jacobianAt (inUnits a Y) cell (Y.off f + q)) j b * Y.nref f j) e, e c hc, mul_div_mul_left _ _ (one_div_pos.mpr ha).ne']
  rfl

theorem unit_jump (g : G) (i e cell f : ℕ) (u : ℕ → ℝ) (q b : ℕ) :
    jumpAt (inUnits a Y) g i e cell f (fun d => a * u d) q b = a * jumpAt Y g i e cell f u q b := by
  show ∑ m ∈ range Y.nd, Y.phi (Y.off f + q) m * (a * u (Y.gdim * Y.space.parent cell m + b))
    - ∑ m ∈ range Y.nd, Y.basis g i (e * Y.nq + q) m * (a * u
      (Y.gdim * Y.space.parent (Y.space.parentCell (Y.subCell (Y.map g i (e * Y.nq + q)).toNat)) m + b)) = _
  rw [jumpAt, valueAt, oppositeAt, mul_sub, mul_sum, mul_sum]
  exact congrArg₂ _ (sum_congr rfl (fun m _ => by ring)) (sum_congr rfl (fun m _ => by ring))

theorem unit_point (ha : 0 < a) (hG : GeometryContract Y) {cell f q : ℕ}
    (hK : ∃ K, LeftInverse Y.gdim Y.tdim K (jacobianAt Y cell (Y.off f + q))) {t t' : Tracked G}
    (T : UnitTracked law a k t t') (i e : ℕ) :
    UnitPoint law a k (pointAt Y t i e cell f q) (pointAt (inUnits a Y) t' i e cell f q) where
  g := rfl
  mu := T.mu i e 0
  lam := T.lam i e 0
  fric := T.fric i e 0
  h := T.h i e 0
  normal := by
    show contactNormalAt (inUnits a Y) t'.cur i e q = _
    rw [T.cur]; rfl
  oldNormal := by
    show contactNormalAt (inUnits a Y) t'.prev i e q = _
    rw [T.prev]; rfl
  gap := by
    show (fun b => a * (Y.gap t'.cur i).v e (q * Y.gdim + b)) = _
    rw [T.cur]; rfl
  nPhys := fun c hc => unit_outward ha hG hK hc

theorem unit_total (ha : 0 < a) (hG : GeometryContract Y) {cell f q : ℕ}
    (hK : ∃ K, LeftInverse Y.gdim Y.tdim K (jacobianAt Y cell (Y.off f + q))) {t t' : Tracked G}
    (T : UnitTracked law a k t t') (i e : ℕ) (u : ℕ → ℝ) (b : ℕ) {c : ℕ} (hc : c < Y.gdim) :
    gradAt (inUnits a Y) cell f (fun d => a * u d) q b c + (pointAt (inUnits a Y) t' i e cell f q).grad0 b c
      = gradAt Y cell f u q b c + (pointAt Y t i e cell f q).grad0 b c := by
  rw [unit_gradTimes ha hG hK u b hc]
  show _ + t'.gradU i e _ = _
  rw [T.gradU]
  rfl

theorem unit_form (ha : 0 < a) (hk : 0 < k) (hG : GeometryContract Y) (hD : SurfaceFactorIsArea Y) (hK : CellsInvertible Y)
    {t t' : Tracked G} (T : UnitTracked law a k t t') (gamma theta : ℝ) (u v : ℕ → ℝ) :
    contactForm (inUnits a Y) t' law (k * gamma) theta (fun d => a * u d) v
      = k * a ^ (Y.tdim - 1) * contactForm Y t law gamma theta u v := by
  unfold contactForm
  have f1 : (inUnits a Y).facets = Y.facets := rfl
  have f2 : (inUnits a Y).nq = Y.nq := rfl
  have f3 : (inUnits a Y).map = Y.map := rfl
  have f4 : (inUnits a Y).numPairs = Y.numPairs := rfl
  have f5 : (inUnits a Y).localFacets = Y.localFacets := rfl
  rw [f1, f2, f3, f4, f5, T.cur, mul_sum]
  refine sum_congr rfl (fun i hi => ?_)
  rw [mul_sum]
  refine sum_congr rfl (fun e he => ?_)
  cases hf : (Y.facets i)[e]? with
  | none => rw [Option.elim_none, Option.elim_none, mul_zero]
  | some p =>
    obtain ⟨cell, f⟩ := p
    rw [Option.elim_some, Option.elim_some, mul_sum]
    refine sum_congr rfl (fun q hq => ?_)
    have hl := hK i (mem_range.mp hi) e (mem_range.mp he) cell f hf q (mem_range.mp hq)
    dsimp only
    split
    · rw [unit_weight ha hD, (unit_point ha hG hl T i e).form (J := jumpAt Y t.cur i e cell f u q) (J' := jumpAt (inUnits a Y) t.cur i e cell f (fun d => a * u d) q)
        (J1 := jumpAt Y t.cur i e cell f v q) (J1' := jumpAt (inUnits a Y) t.cur i e cell f v q)
        (D1 := gradAt Y cell f v q) (D1' := gradAt (inUnits a Y) cell f v q) ha hk gamma theta
        (fun b _ => unit_jump t.cur i e cell f u q b) (fun b _ c hc => unit_total ha hG hl T i e u b hc)
        (fun b _ => rfl) (fun b _ c hc => unit_grad ha hG hl v b hc)]
      ring
    · rw [mul_zero]

theorem unit_tangent (ha : 0 < a) (hk : 0 < k) (hG : GeometryContract Y) (hD : SurfaceFactorIsArea Y) (hK : CellsInvertible Y)
    {t t' : Tracked G} (T : UnitTracked law a k t t') (gamma theta : ℝ) (u w v : ℕ → ℝ) :
    contactTangent (inUnits a Y) t' ballSlope law (k * gamma) theta (fun d => a * u d) w v
      = k * a ^ (Y.tdim - 1) / a * contactTangent Y t ballSlope law gamma theta u w v := by
  unfold contactTangent
  have f1 : (inUnits a Y).facets = Y.facets := rfl
  have f2 : (inUnits a Y).nq = Y.nq := rfl
  have f3 : (inUnits a Y).map = Y.map := rfl
  have f4 : (inUnits a Y).numPairs = Y.numPairs := rfl
  have f5 : (inUnits a Y).localFacets = Y.localFacets := rfl
  rw [f1, f2, f3, f4, f5, T.cur, mul_sum]
  refine sum_congr rfl (fun i hi => ?_)
  rw [mul_sum]
  refine sum_congr rfl (fun e he => ?_)
  cases hf : (Y.facets i)[e]? with
  | none => rw [Option.elim_none, Option.elim_none, mul_zero]
  | some p =>
    obtain ⟨cell, f⟩ := p
    rw [Option.elim_some, Option.elim_some, mul_sum]
    refine sum_congr rfl (fun q hq => ?_)
    have hl := hK i (mem_range.mp hi) e (mem_range.mp he) cell f hf q (mem_range.mp hq)
    dsimp only
    split
    · rw [unit_weight ha hD, (unit_point ha hG hl T i e).dForm (J := jumpAt Y t.cur i e cell f u q) (J' := jumpAt (inUnits a Y) t.cur i e cell f (fun d => a * u d) q)
        (J1 := jumpAt Y t.cur i e cell f w q) (J1' := jumpAt (inUnits a Y) t.cur i e cell f w q)
        (J2 := jumpAt Y t.cur i e cell f v q) (J2' := jumpAt (inUnits a Y) t.cur i e cell f v q)
        (D1 := gradAt Y cell f w q) (D1' := gradAt (inUnits a Y) cell f w q)
        (D2 := gradAt Y cell f v q) (D2' := gradAt (inUnits a Y) cell f v q) ha hk gamma theta
        (fun b _ => unit_jump t.cur i e cell f u q b) (fun b _ c hc => unit_total ha hG hl T i e u b hc)
        (fun b _ => rfl) (fun b _ c hc => unit_grad ha hG hl w b hc)
        (fun b _ => rfl) (fun b _ c hc => unit_grad ha hG hl v b hc)]
      ring
    · rw [mul_zero]

theorem unit_unitNormals {t t' : Tracked G} (T : UnitTracked law a k t t')
    (h : UnitNormals Y t) : UnitNormals (inUnits a Y) t' := by
  intro i hi e he q hq hl
  rw [T.cur] at hl ⊢
  exact h i hi e he q hq hl

theorem unit_created (hY : System.Valid Y) (ops : List (Op G)) (hops : ∀ op ∈ ops, OpShaped Y.static op) (g : G)
    (hc : (history Y.static ops (init Y.static g)).coeffs ≠ none) :
    (history (inUnits a Y).static (ops.map (callInUnits law a k)) (init (inUnits a Y).static g)).coeffs ≠ none := by
  have H := good_history (static_shaped hY) ops hops (good_init Y.static g)
  have T := UnitTracked.history (law := law) (a := a) (k := k) ops (UnitTracked.new g)
  have hops' : ∀ op ∈ ops.map (callInUnits law a k), OpShaped (inUnits a Y).static op := by
    intro op hop
    obtain ⟨o, ho, rfl⟩ := List.mem_map.mp hop
    exact unit_shaped (hops o ho)
  have H' := good_history (static_shaped (unit_valid (a := a) hY)) _ hops' (good_init (inUnits a Y).static g)
  have hcr : ((Tracked.new g).history ops).created = true := by
    cases h : ((Tracked.new g).history ops).created with
    | false => exact absurd (H.fresh h).1 hc
    | true => rfl
  obtain ⟨cs, nQ, h, -⟩ := H'.full (T.created.trans hcr)
  rw [h]
  simp

/-- C153: the contact vector does not depend on the units.  If lengths are `a` times and stresses `k` times as
large, the vector `assemble_vector` builds, a force, is `k a ^ (tdim - 1)` times as large. -/
theorem C153_vector (hY : System.Valid Y) (hG : GeometryContract Y) (hD : SurfaceFactorIsArea Y) (hK : CellsInvertible Y)
    (a k : ℝ) (ha : 0 < a) (hk : 0 < k) (ops : List (Op G)) (hops : ∀ op ∈ ops, OpShaped Y.static op) (g : G)
    (law : Law) (hlaw : lastLaw ops none = some law) (h23 : law ≠ .frictionless → Y.gdim = 2 ∨ Y.gdim = 3)
    (hc : (history Y.static ops (init Y.static g)).coeffs ≠ none) (N : ℕ) (hN : DofsBelow Y N) (u : ℕ → ℝ) :
    ∃ (upd upd' : State G) (b b' : Arr ℕ),
      updateContactData Y.static (Y.du u) (history Y.static ops (init Y.static g)) = .ok upd
      ∧ Y.assembleVector upd 0 = .ok b
      ∧ updateContactData (inUnits a Y).static ((inUnits a Y).du (fun d => a * u d))
          (history (inUnits a Y).static (ops.map (callInUnits law a k)) (init (inUnits a Y).static g)) = .ok upd'
      ∧ (inUnits a Y).assembleVector upd' 0 = .ok b'
      ∧ ∀ d < N, b' d = k * a ^ (Y.tdim - 1) * b d := by
  obtain ⟨gamma, theta, hconsts⟩ := consts_of_law ops hlaw
  have T := UnitTracked.history (law := law) (a := a) (k := k) ops (UnitTracked.new g)
  have hops' : ∀ op ∈ ops.map (callInUnits law a k), OpShaped (inUnits a Y).static op := by
    intro op hop
    obtain ⟨o, ho, rfl⟩ := List.mem_map.mp hop
    exact unit_shaped (hops o ho)
  have hconsts' : lastConsts (ops.map (callInUnits law a k)) none = some (k * gamma, theta) := by
    have := unit_consts (law := law) (a := a) (k := k) ops none
    rw [hconsts] at this
    exact this
  have hc' := unit_created (law := law) (a := a) (k := k) hY ops hops g hc
  have form := fun v => C114_form hY ops hops g law hlaw h23 gamma theta hconsts _ rfl hc _ hN u v
  have form' := fun v => C114_form (unit_valid (a := a) hY) _ hops' g law ((unit_law ops none).trans hlaw) h23
    (k * gamma) theta hconsts' _ rfl hc' N hN (fun d => a * u d) v
  obtain ⟨upd, b, h1, h2, -⟩ := form 0
  obtain ⟨upd', b', h1', h2', -⟩ := form' 0
  refine ⟨upd, upd', b, b', h1, h2, h1', h2', fun d hd => ?_⟩
  obtain ⟨p, c, k1, k2, k3⟩ := form (fun m => if m = d then 1 else 0)
  obtain rfl : p = upd := Except.ok.inj (k1.symm.trans h1)
  obtain rfl : c = b := Except.ok.inj (k2.symm.trans h2)
  obtain ⟨p', c', k1', k2', k3'⟩ := form' (fun m => if m = d then 1 else 0)
  obtain rfl : p' = upd' := Except.ok.inj (k1'.symm.trans h1')
  obtain rfl : c' = b' := Except.ok.inj (k2'.symm.trans h2')
  rw [unit_form ha hk hG hD hK T, ← k3] at k3'
  simpa [hd] using k3'

/-- C153 (partial: friction bounds are zero or at least `1e-14` in both systems of units;
`C153_matrix_violated`): nor does the matrix, a force per length. -/
theorem C153_matrix_partial (hY : System.Valid Y) (hG : GeometryContract Y) (hD : SurfaceFactorIsArea Y)
    (hK : CellsInvertible Y)
    (a k : ℝ) (ha : 0 < a) (hk : 0 < k) (ops : List (Op G)) (hops : ∀ op ∈ ops, OpShaped Y.static op) (g : G)
    (law : Law) (hlaw : lastLaw ops none = some law)
    (h23 : law ≠ .frictionless → (Y.gdim = 2 ∨ Y.gdim = 3) ∧ UnitNormals Y ((Tracked.new g).history ops))
    (gamma theta : ℝ) (hconsts : lastConsts ops none = some (gamma, theta))
    (hc : (history Y.static ops (init Y.static g)).coeffs ≠ none) (N : ℕ) (hN : DofsBelow Y N) (u : ℕ → ℝ)
    (hb : BoundsResolved Y ((Tracked.new g).history ops) law gamma u)
    (hb' : BoundsResolved (inUnits a Y) ((Tracked.new g).history (ops.map (callInUnits law a k))) law (k * gamma)
      (fun d => a * u d)) :
    ∃ (upd upd' : State G) (A A' : Arr (ℕ × ℕ)),
      updateContactData Y.static (Y.du u) (history Y.static ops (init Y.static g)) = .ok upd
      ∧ Y.assembleMatrix upd 0 = .ok A
      ∧ updateContactData (inUnits a Y).static ((inUnits a Y).du (fun d => a * u d))
          (history (inUnits a Y).static (ops.map (callInUnits law a k)) (init (inUnits a Y).static g)) = .ok upd'
      ∧ (inUnits a Y).assembleMatrix upd' 0 = .ok A'
      ∧ ∀ d < N, ∀ c < N, A' (d, c) = k * a ^ (Y.tdim - 1) / a * A (d, c) := by
  have T := UnitTracked.history (law := law) (a := a) (k := k) ops (UnitTracked.new g)
  have hops' : ∀ op ∈ ops.map (callInUnits law a k), OpShaped (inUnits a Y).static op := by
    intro op hop
    obtain ⟨o, ho, rfl⟩ := List.mem_map.mp hop
    exact unit_shaped (hops o ho)
  have hconsts' : lastConsts (ops.map (callInUnits law a k)) none = some (k * gamma, theta) := by
    have := unit_consts (law := law) (a := a) (k := k) ops none
    rw [hconsts] at this
    exact this
  have hc' := unit_created (law := law) (a := a) (k := k) hY ops hops g hc
  obtain ⟨upd, A, h1, h2, f⟩ := C131_derivative_partial hY ops hops g law hlaw h23 gamma theta hconsts _ rfl hc N hN u hb
  obtain ⟨upd', A', h1', h2', f'⟩ := C131_derivative_partial (unit_valid (a := a) hY) _ hops' g law
    ((unit_law ops none).trans hlaw) (fun h => ⟨(h23 h).1, unit_unitNormals T (h23 h).2⟩)
    (k * gamma) theta hconsts' _ rfl hc' N hN (fun d => a * u d) hb'
  refine ⟨upd, upd', A, A', h1, h2, h1', h2', fun d hd c hcol => ?_⟩
  have e' := f' (fun m => if m = c then 1 else 0) (fun m => if m = d then 1 else 0)
  rw [unit_tangent ha hk hG hD hK T, ← f] at e'
  simpa [hd, hcol] using e'

/-! ### an example -/

theorem exTriangles_area : SurfaceFactorIsArea exTriangles := by
  intro f a J J' ha h
  have h' : ∀ i < 2, ∀ j < 2, J' i j = a * J i j := h
  show Real.sqrt _ = a ^ 1 * Real.sqrt _
  have e : ∑ x ∈ range 2, ∑ y ∈ range 2, exDirection f x * exDirection f y * ∑ c ∈ range 2, J' c x * J' c y
      = a ^ 2 * ∑ x ∈ range 2, ∑ y ∈ range 2, exDirection f x * exDirection f y * ∑ c ∈ range 2, J c x * J c y := by
    simp only [sum_range_succ, sum_range_zero, zero_add, h' 0 (by norm_num) 0 (by norm_num),
      h' 0 (by norm_num) 1 (by norm_num), h' 1 (by norm_num) 0 (by norm_num), h' 1 (by norm_num) 1 (by norm_num)]
    ring
  rw [e, Real.sqrt_mul (sq_nonneg a), Real.sqrt_sq ha.le, pow_one]

/-- Tresca friction with coefficient `r`; mesh size and Nitsche's parameter are one, theta is zero. -/
def exUnitOps (r : ℝ) : List (Op Unit) :=
  [.generate ⟨.tresca, some (fun _ => ⟨1, 1, fun _ _ => 3⟩), some (fun _ => ⟨1, 1, fun _ _ => 5⟩),
    some (fun _ => ⟨1, 1, fun _ _ => r⟩), none, none, fun _ => ⟨1, 1, fun _ _ => 1⟩, 1, 0⟩]

/-- The opposite triangle slides along the contact surface. -/
def exSliding (d : ℕ) : ℝ := if 6 ≤ d ∧ d % 2 = 0 then 1 else 0

theorem exUnit_shaped (r : ℝ) : ∀ op ∈ exUnitOps r, OpShaped exTriangles.static op := by
  simp [exUnitOps, OpShaped, ScalarShaped, System.static, exTriangles]

theorem exUnit_normals (r : ℝ) : UnitNormals exTriangles ((Tracked.new ()).history (exUnitOps r)) := by
  intro i _ e _ q hq _
  have hq0 : q = 0 := Nat.lt_one_iff.mp hq
  subst hq0
  simp [exTriangles, contactNormalAt, sum_range_succ]

theorem exUnit_created (r : ℝ) :
    (history exTriangles.static (exUnitOps r) (init exTriangles.static ())).coeffs ≠ none := by
  rcases C38_size (static_shaped exTriangles_valid) (exUnitOps r) (exUnit_shaped r) () with ⟨h, -⟩ | ⟨-, cs, h, -⟩
  · simp [exUnitOps, Tracked.history, Tracked.call] at h
  · rw [h]; simp

theorem exTriangles_below : DofsBelow exTriangles 12 := by
  refine ⟨?_, ?_⟩ <;> simp [exTriangles] <;> intros <;> omega

/-- The bound of the single contact point. -/
theorem exUnit_resolved (r a : ℝ) (h : r = 0 ∨ 1e-14 ≤ a * r) :
    BoundsResolved (inUnits a exTriangles) ((Tracked.new ()).history ((exUnitOps r).map (callInUnits .tresca a 1))) .tresca 1
      (fun _ => 0) := by
  intro i _ e _ cell f _ q _ _
  have : (pointAt (inUnits a exTriangles) ((Tracked.new ()).history ((exUnitOps r).map (callInUnits .tresca a 1))) i e cell f q).bound
      .tresca 1 (jumpAt (inUnits a exTriangles) () i e cell f (fun _ => 0) q)
      (fun b c => gradAt (inUnits a exTriangles) cell f (fun _ => 0) q b c
        + (pointAt (inUnits a exTriangles) ((Tracked.new ()).history ((exUnitOps r).map (callInUnits .tresca a 1))) i e cell f q).grad0 b c)
      = a * r := by
    simp [ContactPoint.bound, pointAt, exUnitOps, callInUnits, Tracked.history, Tracked.call, Tracked.new, vals, Mat.times,
      frictionUnit]
  rcases h with h | h
  · left
    exact this.trans (by rw [h, mul_zero])
  · right
    exact h.trans_eq this.symm

theorem exUnit_resolved0 (r : ℝ) (h : 1e-14 ≤ r) :
    BoundsResolved exTriangles ((Tracked.new ()).history (exUnitOps r)) .tresca 1 (fun _ => 0) := by
  intro i _ e _ cell f _ q _ _
  have : (pointAt exTriangles ((Tracked.new ()).history (exUnitOps r)) i e cell f q).bound
      .tresca 1 (jumpAt exTriangles () i e cell f (fun _ => 0) q)
      (fun b c => gradAt exTriangles cell f (fun _ => 0) q b c
        + (pointAt exTriangles ((Tracked.new ()).history (exUnitOps r)) i e cell f q).grad0 b c)
      = r := by
    simp [ContactPoint.bound, pointAt, exUnitOps, Tracked.history, Tracked.call, Tracked.new, vals]
  right
  exact h.trans_eq this.symm

/-- Displacement and its gradient at the contact point of the two triangles. -/
theorem exSliding_jump (b : ℕ) (hb : b < 2) : jumpAt exTriangles () 0 0 0 2 exSliding 0 b = if b = 0 then -1 else 0 := by
  interval_cases b <;> norm_num [jumpAt, valueAt, oppositeAt, exTriangles, exSliding, sum_range_succ]

theorem exSliding_grad (b c : ℕ) (hb : b < 2) : gradAt exTriangles 0 2 exSliding 0 b c = 0 := by
  interval_cases b <;> norm_num [gradAt, exTriangles, exSliding, sum_range_succ]

theorem exZero_jump (b : ℕ) : jumpAt exTriangles () 0 0 0 2 (fun _ => 0) 0 b = 0 := by
  simp [jumpAt, valueAt, oppositeAt]

theorem exZero_grad (b c : ℕ) : gradAt exTriangles 0 2 (fun _ => 0) 0 b c = 0 := by
  simp [gradAt]

/-- Work of the matrix on the sliding triangle. -/
theorem exUnit_work (r : ℝ) (S : Slope) (hS : ∀ x x' y y' : ℕ → ℝ, (∀ b < 2, x b = x' b) → (∀ b < 2, y b = y' b) →
      ∀ b < 2, S 2 x r y b = S 2 x' r y' b) :
    contactTangent exTriangles ((Tracked.new ()).history (exUnitOps r)) S .tresca 1 0 (fun _ => 0) exSliding exSliding
      = 1 / 2 * -S 2 (fun _ => 0) r (fun b => if b = 0 then -1 else 0) 0 := by
  have one : ∀ F : ℕ → ℕ → ℕ → ℕ → ℕ → ℝ, (∑ i ∈ range exTriangles.numPairs, ∑ e ∈ range (exTriangles.localFacets i),
      ((exTriangles.facets i)[e]?).elim 0 (fun p => ∑ q ∈ range exTriangles.nq,
        if 0 ≤ exTriangles.map () i (e * exTriangles.nq + q) then F i e p.1 p.2 q else 0)) = F 0 0 0 2 0 := by
    intro F
    simp [exTriangles]
  have hcur : ((Tracked.new ()).history (exUnitOps r)).cur = () := rfl
  unfold contactTangent
  rw [hcur]
  have hs := one (fun i e cell f q => weightAt exTriangles cell f q
    * (pointAt exTriangles ((Tracked.new ()).history (exUnitOps r)) i e cell f q).dForm S .tresca 1 0
          (jumpAt exTriangles () i e cell f (fun _ => 0) q)
          (fun a b => gradAt exTriangles cell f (fun _ => 0) q a b
            + (pointAt exTriangles ((Tracked.new ()).history (exUnitOps r)) i e cell f q).grad0 a b)
          (jumpAt exTriangles () i e cell f exSliding q) (gradAt exTriangles cell f exSliding q)
          (jumpAt exTriangles () i e cell f exSliding q) (gradAt exTriangles cell f exSliding q))
  rw [hs]
  obtain ⟨p, hp⟩ : ∃ p, p = pointAt exTriangles ((Tracked.new ()).history (exUnitOps r)) 0 0 0 2 0 := ⟨_, rfl⟩
  have pg : p.g = 2 := by rw [hp]; rfl
  have pn : p.normal 0 = 0 := by rw [hp]; simp [pointAt, contactNormalAt, exTriangles]
  have ph : p.h = 1 := by rw [hp]; rfl
  have pf : p.fric = r := by rw [hp]; rfl
  have p0 : ∀ b c, p.grad0 b c = 0 := by intro b c; rw [hp]; rfl
  have hw : weightAt exTriangles 0 2 0 = 1 := by
    simp [weightAt, exTriangles, exDirection, jacobianAt, sum_range_succ]
  rw [← hp, hw, one_mul]
  have t0 : ∀ b < p.g, p.trac (fun b c => gradAt exTriangles 0 2 (fun _ => 0) 0 b c + p.grad0 b c) b = 0 :=
    fun b hb => trac_zero p (fun b _ c _ => by rw [exZero_grad, p0, add_zero]) hb
  have t1 : ∀ b < p.g, p.trac (gradAt exTriangles 0 2 exSliding 0) b = 0 :=
    fun b hb => trac_zero p (fun b hb c _ => exSliding_grad b c (by omega)) hb
  have dz : ∀ x : ℕ → ℝ, (∀ a < p.g, x a = 0) → p.dot x = 0 := fun x hx =>
    sum_eq_zero (fun a ha => by rw [hx a (mem_range.mp ha), zero_mul])
  have tz : ∀ x : ℕ → ℝ, (∀ a < p.g, x a = 0) → ∀ a < p.g, p.tang x a = 0 := fun x hx a ha => by
    unfold ContactPoint.tang; rw [dz x hx, hx a ha]; ring
  have kd : p.dot (jumpAt exTriangles () 0 0 0 2 exSliding 0) = 0 := by
    unfold ContactPoint.dot
    rw [pg, sum_range_succ, sum_range_one, exSliding_jump 0 (by norm_num), exSliding_jump 1 (by norm_num), pn]
    norm_num
  have kt : ∀ b < 2, p.tang (jumpAt exTriangles () 0 0 0 2 exSliding 0) b = if b = 0 then -1 else 0 := by
    intro b hb
    unfold ContactPoint.tang
    rw [kd, exSliding_jump b hb]
    ring
  have e1 : ∀ b < 2, p.dProjected S .tresca 1 (jumpAt exTriangles () 0 0 0 2 (fun _ => 0) 0)
      (fun b c => gradAt exTriangles 0 2 (fun _ => 0) 0 b c + p.grad0 b c)
      (jumpAt exTriangles () 0 0 0 2 exSliding 0) (gradAt exTriangles 0 2 exSliding 0) b
      = S 2 (fun _ => 0) r (fun b => if b = 0 then -1 else 0) b := by
    intro b hb
    simp only [ContactPoint.dProjected]
    rw [pg, ph, pf, div_one, one_mul]
    refine hS _ _ _ _ (fun b hb => ?_) (fun b hb => ?_) b hb
    · unfold ContactPoint.slip
      rw [tz _ (fun a _ => exZero_jump a) b (by omega), tz _ t0 b (by omega)]
      ring
    · unfold ContactPoint.slip
      rw [kt b hb, tz _ t1 b (by omega)]
      ring
  rw [ContactPoint.dForm, if_neg (by simp), ContactPoint.dNormalPart, ContactPoint.dFrictionPart, pg, sum_range_succ,
    sum_range_one, e1 0 (by norm_num), e1 1 (by norm_num), kt 0 (by norm_num), kt 1 (by norm_num), kd, ph]
  norm_num

theorem exUnit_ball (r : ℝ) (h0 : 0 < r) :
    contactTangent exTriangles ((Tracked.new ()).history (exUnitOps r)) ballSlope .tresca 1 0 (fun _ => 0) exSliding exSliding
      = 1 / 2 := by
  have hS : ∀ x x' y y' : ℕ → ℝ, (∀ b < 2, x b = x' b) → (∀ b < 2, y b = y' b) →
      ∀ b < 2, ballSlope 2 x r y b = ballSlope 2 x' r y' b := by
    intro x x' y y' hx hy b hb
    unfold ballSlope
    simp only [sum_range_succ, sum_range_zero, hx 0 (by norm_num), hx 1 (by norm_num), hy 0 (by norm_num), hy 1 (by norm_num),
      hx b hb, hy b hb]
  rw [exUnit_work r _ hS]
  simp [ballSlope, h0]

theorem exUnit_cut (r : ℝ) (h1 : r < 1e-14) :
    contactTangent exTriangles ((Tracked.new ()).history (exUnitOps r)) cutSlope .tresca 1 0 (fun _ => 0) exSliding exSliding = 0 := by
  have hS : ∀ x x' y y' : ℕ → ℝ, (∀ b < 2, x b = x' b) → (∀ b < 2, y b = y' b) →
      ∀ b < 2, cutSlope 2 x r y b = cutSlope 2 x' r y' b := by
    intro x x' y y' hx hy b hb
    unfold cutSlope
    rw [if_pos h1, if_pos h1]
  rw [exUnit_work r _ hS]
  unfold cutSlope
  rw [if_pos h1]
  norm_num

/-- C153 fails for the matrix without the restriction: two triangles with a Tresca friction bound less than
`1e-14`.  If the unit of length is changed such that the bound is at least `1e-14`, the matrix, a force per
length, has to be the same in two dimensions.  It is not: with the old unit a point which sticks gets no
friction stiffness. -/
theorem C153_matrix_violated (r a : ℝ) (h0 : 0 < r) (h1 : r < 1e-14) (ha : 1e-14 ≤ a * r) :
    0 < a ∧ System.Valid exTriangles ∧ GeometryContract exTriangles ∧ SurfaceFactorIsArea exTriangles
    ∧ CellsInvertible exTriangles ∧ UnitNormals exTriangles ((Tracked.new ()).history (exUnitOps r)) ∧
    ∃ (upd upd' : State Unit) (A A' : Arr (ℕ × ℕ)),
      updateContactData exTriangles.static (exTriangles.du (fun _ => 0))
          (history exTriangles.static (exUnitOps r) (init exTriangles.static ())) = .ok upd
      ∧ exTriangles.assembleMatrix upd 0 = .ok A
      ∧ updateContactData (inUnits a exTriangles).static ((inUnits a exTriangles).du (fun _ => a * 0))
          (history (inUnits a exTriangles).static ((exUnitOps r).map (callInUnits .tresca a 1))
            (init (inUnits a exTriangles).static ())) = .ok upd'
      ∧ (inUnits a exTriangles).assembleMatrix upd' 0 = .ok A'
      ∧ ¬ ∀ d < 12, ∀ c < 12, A' (d, c) = 1 * a ^ (exTriangles.tdim - 1) / a * A (d, c) := by
  have hap : 0 < a := by
    by_contra h
    have := mul_nonpos_of_nonpos_of_nonneg (not_lt.mp h) h0.le
    norm_num at ha
    linarith
  refine ⟨hap, exTriangles_valid, exTriangles_contract, exTriangles_area, exTriangles_invertible, exUnit_normals r, ?_⟩
  have T := UnitTracked.history (law := .tresca) (a := a) (k := 1) (exUnitOps r) (UnitTracked.new ())
  have hops' : ∀ op ∈ (exUnitOps r).map (callInUnits .tresca a 1), OpShaped (inUnits a exTriangles).static op := by
    intro op hop
    obtain ⟨o, ho, rfl⟩ := List.mem_map.mp hop
    exact unit_shaped (exUnit_shaped r o ho)
  obtain ⟨upd, A, h2, h3, f⟩ := C131_matrix exTriangles_valid (exUnitOps r) (exUnit_shaped r) () .tresca rfl
    (fun _ => ⟨Or.inl rfl, exUnit_normals r⟩) 1 0 rfl _ rfl (exUnit_created r) 12 exTriangles_below (fun _ => 0)
  have z : (fun _ : ℕ => a * (0 : ℝ)) = fun _ => 0 := funext fun _ => mul_zero a
  obtain ⟨upd', A', h2', h3', f'⟩ := C131_derivative_partial (unit_valid (a := a) exTriangles_valid) _ hops' () .tresca
    ((unit_law (exUnitOps r) none).trans rfl) (fun _ => ⟨Or.inl rfl, unit_unitNormals T (exUnit_normals r)⟩)
    (1 * 1) 0 rfl _ rfl
    (unit_created (law := .tresca) (a := a) (k := 1) exTriangles_valid _ (exUnit_shaped r) () (exUnit_created r)) 12
    exTriangles_below (fun _ => a * 0) (by rw [z, one_mul]; exact exUnit_resolved r a (Or.inr ha))
  refine ⟨upd, upd', A, A', h2, h3, h2', h3', fun h => ?_⟩
  have e' := f' exSliding exSliding
  have e := f exSliding exSliding
  rw [unit_tangent hap one_pos exTriangles_contract exTriangles_area exTriangles_invertible T, exUnit_ball r h0] at e'
  rw [exUnit_cut r h1] at e
  have t : (1 : ℝ) * a ^ (exTriangles.tdim - 1) / a = 1 := by
    show (1 : ℝ) * a ^ 1 / a = 1
    field_simp
  have : ∑ d ∈ range 12, ∑ c ∈ range 12, exSliding d * A' (d, c) * exSliding c
      = ∑ d ∈ range 12, ∑ c ∈ range 12, exSliding d * A (d, c) * exSliding c :=
    sum_congr rfl (fun d hd => sum_congr rfl (fun c hc => by
      rw [h d (mem_range.mp hd) c (mem_range.mp hc), t, one_mul]))
  rw [e', e, t] at this
  norm_num at this

/-- The hypotheses of C153 hold for two triangles with Tresca friction, with lengths in millimetres instead of
metres and stresses in the same unit. -/
example : System.Valid exTriangles ∧ GeometryContract exTriangles ∧ SurfaceFactorIsArea exTriangles
    ∧ CellsInvertible exTriangles ∧ (∀ op ∈ exUnitOps 1, OpShaped exTriangles.static op)
    ∧ lastLaw (exUnitOps 1) none = some .tresca ∧ lastConsts (exUnitOps 1) none = some (1, 0) ∧ exTriangles.gdim = 2
    ∧ UnitNormals exTriangles ((Tracked.new ()).history (exUnitOps 1))
    ∧ (history exTriangles.static (exUnitOps 1) (init exTriangles.static ())).coeffs ≠ none
    ∧ DofsBelow exTriangles 12
    ∧ BoundsResolved exTriangles ((Tracked.new ()).history (exUnitOps 1)) .tresca 1 (fun _ => 0)
    ∧ BoundsResolved (inUnits 1000 exTriangles) ((Tracked.new ()).history ((exUnitOps 1).map (callInUnits .tresca 1000 1)))
      .tresca (1 * 1) (fun _ => 1000 * 0) :=
  ⟨exTriangles_valid, exTriangles_contract, exTriangles_area, exTriangles_invertible, exUnit_shaped 1, rfl, rfl, rfl,
    exUnit_normals 1, exUnit_created 1, exTriangles_below, exUnit_resolved0 1 (by norm_num),
    by rw [mul_zero, one_mul]; exact exUnit_resolved 1 1000 (Or.inr (by norm_num))⟩

end

end Verif.ContactProblem
