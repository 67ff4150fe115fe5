import Verif.Props.PartitionMatrix
import Verif.Spec.Rotation
import Mathlib.LinearAlgebra.Matrix.NonsingularInverse
import Mathlib.LinearAlgebra.Matrix.Symmetric

/-!
Property C133: the contact vector and matrix do not depend on the coordinate system.
-/

namespace Verif.ContactProblem

open Verif.Spec Verif.Geometry Verif.Packing Verif.Assembly Verif.Kernels Finset

noncomputable section

variable {G : Type}

/-! ### rotations of vectors and gradients -/

section

variable {g : ℕ} {Q : ℕ → ℕ → ℝ}

theorem rotVec_congr {x y : ℕ → ℝ} (h : ∀ c < g, x c = y c) (a : ℕ) : rotVec g Q x a = rotVec g Q y a :=
  sum_congr rfl (fun c hc => by rw [h c (mem_range.mp hc)])

theorem rotVec_inner (O : Orthogonal g Q) (x y : ℕ → ℝ) :
    ∑ a ∈ range g, rotVec g Q x a * rotVec g Q y a = ∑ a ∈ range g, x a * y a := by
  have e : ∀ a, rotVec g Q x a * rotVec g Q y a = ∑ c ∈ range g, ∑ d ∈ range g, Q a c * Q a d * (x c * y d) := by
    intro a
    unfold rotVec
    rw [sum_mul_sum]
    exact sum_congr rfl (fun c _ => sum_congr rfl (fun d _ => by ring))
  rw [sum_congr rfl (fun a _ => e a), sum_comm]
  refine sum_congr rfl (fun c hc => ?_)
  rw [sum_comm]
  have : ∀ d ∈ range g, ∑ a ∈ range g, Q a c * Q a d * (x c * y d) = if c = d then x c * y d else 0 := by
    intro d hd
    rw [← sum_mul, O c (mem_range.mp hc) d (mem_range.mp hd)]
    split <;> simp
  rw [sum_congr rfl this, sum_ite_eq, if_pos hc]

theorem rotVec_sub (x y : ℕ → ℝ) (a : ℕ) : rotVec g Q (fun c => x c - y c) a = rotVec g Q x a - rotVec g Q y a := by
  unfold rotVec
  rw [← sum_sub_distrib]
  exact sum_congr rfl (fun c _ => by ring)

theorem rotVec_smul (k : ℝ) (x : ℕ → ℝ) (a : ℕ) : rotVec g Q (fun c => k * x c) a = k * rotVec g Q x a := by
  unfold rotVec
  rw [mul_sum]
  exact sum_congr rfl (fun c _ => by ring)

theorem rotVec_add (x y : ℕ → ℝ) (a : ℕ) : rotVec g Q (fun c => x c + y c) a = rotVec g Q x a + rotVec g Q y a := by
  unfold rotVec
  rw [← sum_add_distrib]
  exact sum_congr rfl (fun c _ => by ring)

theorem rotGrad_trace (O : Orthogonal g Q) (D : ℕ → ℕ → ℝ) :
    ∑ a ∈ range g, rotGrad g Q D a a = ∑ a ∈ range g, D a a := by
  unfold rotGrad
  rw [sum_comm]
  refine sum_congr rfl (fun c hc => ?_)
  rw [sum_comm]
  have : ∀ d ∈ range g, ∑ a ∈ range g, Q a c * Q a d * D c d = if c = d then D c d else 0 := by
    intro d hd
    rw [← sum_mul, O c (mem_range.mp hc) d (mem_range.mp hd)]
    split <;> simp
  rw [sum_congr rfl this, sum_ite_eq, if_pos hc]

theorem rotGrad_apply (O : Orthogonal g Q) (D : ℕ → ℕ → ℝ) (n : ℕ → ℝ) (a : ℕ) :
    ∑ j ∈ range g, rotGrad g Q D a j * rotVec g Q n j = rotVec g Q (fun c => ∑ d ∈ range g, D c d * n d) a := by
  have e : ∀ j, rotGrad g Q D a j = ∑ c ∈ range g, Q a c * rotVec g Q (D c) j := by
    intro j
    unfold rotGrad rotVec
    refine sum_congr rfl (fun c _ => ?_)
    rw [mul_sum]
    exact sum_congr rfl (fun d _ => by ring)
  simp only [e, sum_mul]
  rw [sum_comm]
  refine sum_congr rfl (fun c _ => ?_)
  show _ = Q a c * ∑ d ∈ range g, D c d * n d
  rw [← rotVec_inner O (D c) n, mul_sum]
  exact sum_congr rfl (fun j _ => by ring)

theorem rotGrad_apply' (O : Orthogonal g Q) (D : ℕ → ℕ → ℝ) (n : ℕ → ℝ) (a : ℕ) :
    ∑ j ∈ range g, rotGrad g Q D j a * rotVec g Q n j = rotVec g Q (fun c => ∑ d ∈ range g, D d c * n d) a := by
  rw [← rotGrad_apply O (fun c d => D d c) n a]
  refine sum_congr rfl (fun j _ => ?_)
  congr 1
  unfold rotGrad
  rw [sum_comm]
  exact sum_congr rfl (fun c _ => sum_congr rfl (fun d _ => by ring))

/-! ### the form of a rotated point -/

/-- The data of a point is rotated. -/
structure RotPoint (Q : ℕ → ℕ → ℝ) (p p' : ContactPoint) : Prop where
  g : p'.g = p.g
  mu : p'.mu = p.mu
  lam : p'.lam = p.lam
  fric : p'.fric = p.fric
  h : p'.h = p.h
  normal : ∀ a < p.g, p'.normal a = rotVec p.g Q p.normal a
  oldNormal : ∀ a < p.g, p'.oldNormal a = rotVec p.g Q p.oldNormal a
  gap : ∀ a < p.g, p'.gap a = rotVec p.g Q p.gap a
  nPhys : ∀ a < p.g, p'.nPhys a = rotVec p.g Q p.nPhys a

variable {p p' : ContactPoint}

theorem RotPoint.dot (S : RotPoint Q p p') (O : Orthogonal p.g Q) {x x' : ℕ → ℝ}
    (h : ∀ a < p.g, x' a = rotVec p.g Q x a) : p'.dot x' = p.dot x := by
  unfold ContactPoint.dot
  rw [S.g, ← rotVec_inner O x p.normal]
  exact sum_congr rfl (fun a ha => by rw [h a (mem_range.mp ha), S.normal a (mem_range.mp ha)])

theorem RotPoint.tang (S : RotPoint Q p p') (O : Orthogonal p.g Q) {x x' : ℕ → ℝ}
    (h : ∀ a < p.g, x' a = rotVec p.g Q x a) : ∀ a < p.g, p'.tang x' a = rotVec p.g Q (p.tang x) a := by
  intro a ha
  have : p.tang x = fun c => x c - p.dot x * p.normal c := rfl
  rw [this, rotVec_sub, rotVec_smul, ContactPoint.tang, S.dot O h, h a ha, S.normal a ha]

theorem RotPoint.trac (S : RotPoint Q p p') (O : Orthogonal p.g Q) {D D' : ℕ → ℕ → ℝ}
    (h : ∀ a < p.g, ∀ b < p.g, D' a b = rotGrad p.g Q D a b) :
    ∀ a < p.g, p'.trac D' a = rotVec p.g Q (p.trac D) a := by
  intro a ha
  have e : ∀ c < p.g, p.trac D c = p.mu * ∑ j ∈ range p.g, D j c * p.nPhys j + (p.mu * ∑ j ∈ range p.g, D c j * p.nPhys j
      + (p.lam * ∑ k ∈ range p.g, D k k) * p.nPhys c) := by
    intro c hc
    rw [ContactPoint.trac, Elasticity.traction_eq _ _ _ _ _ _ hc, ← add_assoc, ← mul_add, ← sum_add_distrib,
      mul_sum (range p.g) (fun j => D j c * p.nPhys j + D c j * p.nPhys j)]
    congr 1
    exact sum_congr rfl (fun j _ => by ring)
  have e' : p'.trac D' a = p.mu * ∑ j ∈ range p.g, rotGrad p.g Q D j a * rotVec p.g Q p.nPhys j
      + (p.mu * ∑ j ∈ range p.g, rotGrad p.g Q D a j * rotVec p.g Q p.nPhys j
      + (p.lam * ∑ k ∈ range p.g, rotGrad p.g Q D k k) * rotVec p.g Q p.nPhys a) := by
    rw [ContactPoint.trac, S.g, S.mu, S.lam, Elasticity.traction_eq _ _ _ _ _ _ ha, ← add_assoc, ← mul_add,
      ← sum_add_distrib, mul_sum (range p.g) (fun j => rotGrad p.g Q D j a * _ + rotGrad p.g Q D a j * _), S.nPhys a ha,
      mul_sum]
    congr 1
    · refine sum_congr rfl (fun j hj => ?_)
      have hj' := mem_range.mp hj
      rw [h _ hj' _ ha, h _ ha _ hj', S.nPhys j hj']
      ring
    · rw [sum_congr rfl (fun k hk => by rw [h k (mem_range.mp hk) k (mem_range.mp hk)])]
      try rw [mul_sum]
  rw [rotVec_congr e, rotVec_add, rotVec_smul, rotVec_add, rotVec_smul, rotVec_smul, e', rotGrad_apply O, rotGrad_apply' O,
    rotGrad_trace O]

theorem rot_norm (O : Orthogonal g Q) {x x' : ℕ → ℝ} (h : ∀ a < g, x' a = rotVec g Q x a) :
    ∑ b ∈ range g, x' b ^ 2 = ∑ b ∈ range g, x b ^ 2 := by
  have := rotVec_inner O x x
  rw [sum_congr rfl (fun b hb => by rw [h b (mem_range.mp hb), sq]), this]
  exact sum_congr rfl (fun b _ => (sq _).symm)

theorem ball_rot (O : Orthogonal g Q) {x x' : ℕ → ℝ} (h : ∀ a < g, x' a = rotVec g Q x a) (r : ℝ) :
    ∀ a < g, ball g x' r a = rotVec g Q (ball g x r) a := by
  intro a ha
  unfold ball
  rw [rot_norm O h]
  split
  · rw [h a ha]
    try rfl
  · have : (fun c => r * x c / Real.sqrt (∑ b ∈ range g, x b ^ 2))
        = fun c => r / Real.sqrt (∑ b ∈ range g, x b ^ 2) * x c := by funext c; ring
    show _ = rotVec g Q (fun c => r * x c / Real.sqrt (∑ b ∈ range g, x b ^ 2)) a
    rw [this, rotVec_smul, h a ha]
    ring

theorem cutSlope_rot (O : Orthogonal g Q) {x x' y y' : ℕ → ℝ} (h : ∀ a < g, x' a = rotVec g Q x a)
    (hy : ∀ a < g, y' a = rotVec g Q y a) (r : ℝ) :
    ∀ a < g, cutSlope g x' r y' a = rotVec g Q (cutSlope g x r y) a := by
  intro a ha
  have hxy : ∑ b ∈ range g, x' b * y' b = ∑ b ∈ range g, x b * y b := by
    rw [← rotVec_inner O x y]
    exact sum_congr rfl (fun b hb => by rw [h b (mem_range.mp hb), hy b (mem_range.mp hb)])
  unfold cutSlope ballSlope
  rw [rot_norm O h, hxy]
  split
  · simp [rotVec]
  · split
    · rw [hy a ha]
      try rfl
    · obtain ⟨n, hn⟩ : ∃ n, n = Real.sqrt (∑ b ∈ range g, x b ^ 2) := ⟨_, rfl⟩
      rw [← hn]
      have : (fun c => r / n * y c - r * (∑ b ∈ range g, x b * y b) * x c / n ^ 3)
          = fun c => r / n * y c - r * (∑ b ∈ range g, x b * y b) / n ^ 3 * x c := by funext c; ring
      show _ = rotVec g Q (fun c => r / n * y c - r * (∑ b ∈ range g, x b * y b) * x c / n ^ 3) a
      rw [this, rotVec_sub, rotVec_smul, rotVec_smul, h a ha, hy a ha]
      ring

theorem ballRadiusSlope_rot (O : Orthogonal g Q) {x x' : ℕ → ℝ} (h : ∀ a < g, x' a = rotVec g Q x a) (r : ℝ) :
    ∀ a < g, ballRadiusSlope g x' r a = rotVec g Q (ballRadiusSlope g x r) a := by
  intro a ha
  unfold ballRadiusSlope
  rw [rot_norm O h]
  split
  · obtain ⟨n, hn⟩ : ∃ n, n = Real.sqrt (∑ b ∈ range g, x b ^ 2) := ⟨_, rfl⟩
    rw [← hn]
    have : (fun c => x c / n) = fun c => 1 / n * x c := by funext c; ring
    show _ = rotVec g Q (fun c => x c / n) a
    rw [this, rotVec_smul, h a ha]
    ring
  · simp [rotVec]

theorem rot_inner (O : Orthogonal g Q) {x x' y y' : ℕ → ℝ} (h : ∀ a < g, x' a = rotVec g Q x a)
    (hy : ∀ a < g, y' a = rotVec g Q y a) : ∑ a ∈ range g, x' a * y' a = ∑ a ∈ range g, x a * y a := by
  rw [← rotVec_inner O x y]
  exact sum_congr rfl (fun b hb => by rw [h b (mem_range.mp hb), hy b (mem_range.mp hb)])

section

variable (S : RotPoint Q p p') (O : Orthogonal p.g Q) (law : Law) (gamma theta : ℝ)
  {J J' J1 J1' J2 J2' : ℕ → ℝ} {D D' D1 D1' D2 D2' : ℕ → ℕ → ℝ}
  (hJ : ∀ a < p.g, J' a = rotVec p.g Q J a) (hD : ∀ a < p.g, ∀ b < p.g, D' a b = rotGrad p.g Q D a b)
  (hJ1 : ∀ a < p.g, J1' a = rotVec p.g Q J1 a) (hD1 : ∀ a < p.g, ∀ b < p.g, D1' a b = rotGrad p.g Q D1 a b)
  (hJ2 : ∀ a < p.g, J2' a = rotVec p.g Q J2 a) (hD2 : ∀ a < p.g, ∀ b < p.g, D2' a b = rotGrad p.g Q D2 a b)

include S O hJ hD

theorem RotPoint.pressure : p'.pressure gamma J' D' = p.pressure gamma J D := by
  rw [ContactPoint.pressure, ContactPoint.pressure, S.dot O hJ, S.dot O S.gap, S.dot O (S.trac O hD), S.h]

theorem RotPoint.slip : ∀ a < p.g, p'.slip gamma J' D' a = rotVec p.g Q (p.slip gamma J D) a := by
  intro a ha
  have : p.slip gamma J D = fun c => p.tang J c - p.h / gamma * p.tang (p.trac D) c := rfl
  rw [this, rotVec_sub, rotVec_smul, ContactPoint.slip, S.tang O hJ a ha, S.tang O (S.trac O hD) a ha, S.h]

theorem RotPoint.trialSlip : ∀ a < p.g, p'.slip gamma J' D' a - (p'.dot p'.gap - p'.dot J') * p'.tang p'.oldNormal a
    = rotVec p.g Q (fun a => p.slip gamma J D a - (p.dot p.gap - p.dot J) * p.tang p.oldNormal a) a := by
  intro a ha
  rw [rotVec_sub, rotVec_smul, S.slip O gamma hJ hD a ha, S.dot O S.gap, S.dot O hJ, S.tang O S.oldNormal a ha]

theorem RotPoint.projected : ∀ a < p.g, p'.projected law gamma J' D' a = rotVec p.g Q (p.projected law gamma J D) a := by
  intro a ha
  cases law with
  | frictionless => simp [ContactPoint.projected, rotVec]
  | tresca =>
    simp only [ContactPoint.projected]
    rw [S.g, S.h, S.fric]
    exact ball_rot O (S.slip O gamma hJ hD) _ a ha
  | coulomb =>
    simp only [ContactPoint.projected]
    rw [S.g, S.pressure O gamma hJ hD, S.fric]
    exact ball_rot O (S.trialSlip O gamma hJ hD) _ a ha

include hJ1 hD1

theorem RotPoint.test : ∀ a < p.g, p'.tang J1' a - theta * (p'.h / gamma) * p'.tang (p'.trac D1') a
    = rotVec p.g Q (fun a => p.tang J1 a - theta * (p.h / gamma) * p.tang (p.trac D1) a) a := by
  intro a ha
  rw [rotVec_sub, rotVec_smul, S.tang O hJ1 a ha, S.tang O (S.trac O hD1) a ha, S.h]

theorem RotPoint.form :
    p'.form law gamma theta J' D' J1' D1' = p.form law gamma theta J D J1 D1 := by
  have n : p'.normalPart gamma theta J' D' J1' D1' = p.normalPart gamma theta J D J1 D1 := by
    rw [ContactPoint.normalPart, ContactPoint.normalPart, S.pressure O gamma hJ hD, S.dot O hJ1, S.dot O (S.trac O hD),
      S.dot O (S.trac O hD1), S.h]
  have f : p'.frictionPart law gamma theta J' D' J1' D1' = p.frictionPart law gamma theta J D J1 D1 := by
    rw [ContactPoint.frictionPart, ContactPoint.frictionPart, S.g,
      rot_inner O (S.projected O law gamma hJ hD) (S.test O gamma theta hJ hD hJ1 hD1),
      rot_inner O (S.tang O (S.trac O hD)) (S.tang O (S.trac O hD1)), S.h]
  rw [ContactPoint.form, ContactPoint.form, n, f]

theorem RotPoint.dProjected : ∀ a < p.g, p'.dProjected cutSlope law gamma J' D' J1' D1' a
    = rotVec p.g Q (p.dProjected cutSlope law gamma J D J1 D1) a := by
  intro a ha
  cases law with
  | frictionless => simp [ContactPoint.dProjected, rotVec]
  | tresca =>
    simp only [ContactPoint.dProjected]
    rw [S.g, S.h, S.fric]
    exact cutSlope_rot O (S.slip O gamma hJ hD) (S.slip O gamma hJ1 hD1) _ a ha
  | coulomb =>
    simp only [ContactPoint.dProjected]
    have hk : ∀ (k : ℝ) (x : ℕ → ℝ), (fun c => x c * k) = fun c => k * x c := fun k x => by funext c; ring
    rw [S.g, S.pressure O gamma hJ hD, S.fric, rotVec_add, hk, rotVec_smul]
    have hdP : p'.dPressure gamma J1' D1' = p.dPressure gamma J1 D1 := by
      rw [ContactPoint.dPressure, ContactPoint.dPressure, S.dot O hJ1, S.dot O (S.trac O hD1), S.h]
    rw [hdP, cutSlope_rot O (S.trialSlip O gamma hJ hD) (y := fun a => p.slip gamma J1 D1 a + p.dot J1 * p.tang p.oldNormal a)
      (fun b hb => by rw [rotVec_add, rotVec_smul, S.slip O gamma hJ1 hD1 b hb, S.dot O hJ1, S.tang O S.oldNormal b hb]) _ a ha,
      ballRadiusSlope_rot O (S.trialSlip O gamma hJ hD) _ a ha]
    ring

include hJ2 hD2

theorem RotPoint.dForm : p'.dForm cutSlope law gamma theta J' D' J1' D1' J2' D2'
    = p.dForm cutSlope law gamma theta J D J1 D1 J2 D2 := by
  have hdP : p'.dPressure gamma J1' D1' = p.dPressure gamma J1 D1 := by
    rw [ContactPoint.dPressure, ContactPoint.dPressure, S.dot O hJ1, S.dot O (S.trac O hD1), S.h]
  have n : p'.dNormalPart gamma theta J' D' J1' D1' J2' D2' = p.dNormalPart gamma theta J D J1 D1 J2 D2 := by
    rw [ContactPoint.dNormalPart, ContactPoint.dNormalPart, S.pressure O gamma hJ hD, hdP, S.dot O hJ2,
      S.dot O (S.trac O hD1), S.dot O (S.trac O hD2), S.h]
  have f : p'.dFrictionPart cutSlope law gamma theta J' D' J1' D1' J2' D2'
      = p.dFrictionPart cutSlope law gamma theta J D J1 D1 J2 D2 := by
    rw [ContactPoint.dFrictionPart, ContactPoint.dFrictionPart, S.g,
      rot_inner O (S.dProjected O law gamma hJ hD hJ1 hD1) (S.test O gamma theta hJ hD hJ2 hD2),
      rot_inner O (S.tang O (S.trac O hD1)) (S.tang O (S.trac O hD2)), S.h]
  rw [ContactPoint.dForm, ContactPoint.dForm, n, f]

end

end

/-! ### the tracked data of the rotated calls -/

/-- What the form reads of the tracked data agrees, up to the rotation. -/
structure RotTracked (g : ℕ) (Q : ℕ → ℕ → ℝ) (t t' : Tracked G) : Prop where
  created : t'.created = t.created
  cur : t'.cur = t.cur
  prev : t'.prev = t.prev
  mu : t'.mu = t.mu
  lam : t'.lam = t.lam
  fric : t'.fric = t.fric
  h : t'.h = t.h
  gradU : ∀ i e q, ∀ a < g, ∀ b < g, t'.gradU i e ((q * g + a) * g + b)
    = rotGrad g Q (fun c d => t.gradU i e ((q * g + c) * g + d)) a b

theorem rotGradRows_at {g : ℕ} (Q : ℕ → ℕ → ℝ) (m : Mat) (e q : ℕ) {a b : ℕ} (ha : a < g) (hb : b < g) :
    (rotGradRows g Q m).v e ((q * g + a) * g + b) = rotGrad g Q (fun c d => m.v e ((q * g + c) * g + d)) a b := by
  have hg : 0 < g := by omega
  show rotGrad g Q (fun c d => m.v e ((((q * g + a) * g + b) / g / g * g + c) * g + d)) (((q * g + a) * g + b) / g % g)
    (((q * g + a) * g + b) % g) = _
  have e1 : ((q * g + a) * g + b) / g = q * g + a := by
    rw [mul_comm (q * g + a) g, Nat.mul_add_div hg, Nat.div_eq_of_lt hb, add_zero]
  have e2 : (q * g + a) / g = q := by rw [mul_comm q g, Nat.mul_add_div hg, Nat.div_eq_of_lt ha, add_zero]
  have e3 : (q * g + a) % g = a := by rw [mul_comm q g, Nat.mul_add_mod, Nat.mod_eq_of_lt ha]
  have e4 : ((q * g + a) * g + b) % g = b := by rw [mul_comm _ g, Nat.mul_add_mod, Nat.mod_eq_of_lt hb]
  rw [e1, e2, e3, e4]

theorem rotRows_at {g : ℕ} (Q : ℕ → ℕ → ℝ) (m : Mat) (e q : ℕ) {a : ℕ} (ha : a < g) :
    (rotRows g Q m).v e (q * g + a) = rotVec g Q (fun c => m.v e (q * g + c)) a := by
  have hg : 0 < g := by omega
  show rotVec g Q (fun c => m.v e ((q * g + a) / g * g + c)) ((q * g + a) % g) = _
  have e2 : (q * g + a) / g = q := by rw [mul_comm q g, Nat.mul_add_div hg, Nat.div_eq_of_lt ha, add_zero]
  have e3 : (q * g + a) % g = a := by rw [mul_comm q g, Nat.mul_add_mod, Nat.mod_eq_of_lt ha]
  rw [e2, e3]

theorem RotTracked.drop {g : ℕ} {Q : ℕ → ℕ → ℝ} {t t' : Tracked G} (T : RotTracked g Q t t') (du du' : Option (Du G)) :
    RotTracked g Q (match du with | some du => t.setDu du | none => t) (match du' with | some du => t'.setDu du | none => t') := by
  cases du <;> cases du' <;> exact ⟨T.created, T.cur, T.prev, T.mu, T.lam, T.fric, T.h, T.gradU⟩

theorem RotTracked.call {g : ℕ} {Q : ℕ → ℕ → ℝ} {t t' : Tracked G} (T : RotTracked g Q t t') (op : Op G) :
    RotTracked g Q (t.call op) (t'.call (rotCall g Q op)) := by
  cases op with
  | updateData du =>
    simp only [Tracked.call, rotCall]
    rw [T.created]
    split
    · exact ⟨T.created, T.cur, T.prev, T.mu, T.lam, T.fric, T.h, T.gradU⟩
    · exact T
  | updateNitsche => exact T
  | updateDetection move m =>
    simp only [Tracked.call, rotCall]
    rw [T.created]
    split
    · exact ⟨rfl, congrArg move T.cur, T.cur, T.mu, T.lam, T.fric, T.h,
        fun i e q a ha b hb => rotGradRows_at Q (m i) e q ha hb⟩
    · exact ⟨rfl, congrArg move T.cur, T.prev, T.mu, T.lam, T.fric, T.h, T.gradU⟩
  | generate a =>
    simp only [Tracked.call, rotCall]
    cases a.mu with
    | none => exact T
    | some m =>
      cases a.lam with
      | none => exact T
      | some l =>
        refine RotTracked.drop ?_ _ _
        refine ⟨rfl, T.cur, ?_, rfl, rfl, ?_, rfl, ?_⟩
        · show (if t'.created then _ else _) = (if t.created then _ else _)
          rw [T.created, T.prev, T.cur]
        · show (match a.fric with | some f => vals f | none => t'.fric) = (match a.fric with | some f => vals f | none => t.fric)
          rw [T.fric]
        · cases a.u with
          | none => intro i e q a ha b hb; simp [rotGrad]
          | some u => exact fun i e q a ha b hb => rotGradRows_at Q (u i) e q ha hb

theorem RotTracked.history {g : ℕ} {Q : ℕ → ℕ → ℝ} (ops : List (Op G)) : ∀ {t t' : Tracked G}, RotTracked g Q t t' →
    RotTracked g Q (t.history ops) (t'.history (ops.map (rotCall g Q))) := by
  induction ops with
  | nil => exact fun T => T
  | cons op ops ih => exact fun T => ih (T.call op)

theorem RotTracked.new (g : ℕ) (Q : ℕ → ℕ → ℝ) (x : G) : RotTracked g Q (Tracked.new x) (Tracked.new x) :=
  ⟨rfl, rfl, rfl, rfl, rfl, rfl, rfl, fun i e q a ha b hb => by simp [rotGrad, Tracked.new]⟩

theorem rot_law (g : ℕ) (Q : ℕ → ℕ → ℝ) (ops : List (Op G)) : ∀ l, lastLaw (ops.map (rotCall g Q)) l = lastLaw ops l := by
  induction ops with
  | nil => exact fun _ => rfl
  | cons op ops ih => intro l; cases op <;> exact ih _

theorem rot_consts (g : ℕ) (Q : ℕ → ℕ → ℝ) (ops : List (Op G)) :
    ∀ l, lastConsts (ops.map (rotCall g Q)) l = lastConsts ops l := by
  induction ops with
  | nil => exact fun _ => rfl
  | cons op ops ih => intro l; cases op <;> exact ih _

variable {Y : System G} {Q : ℕ → ℕ → ℝ} {s : ℕ → ℝ}

theorem rot_shaped {op : Op G} (h : OpShaped Y.static op) : OpShaped (rotated Q s Y).static (rotCall Y.gdim Q op) := by
  have hd : ∀ du : Du G, DuShaped Y.static du → DuShaped (rotated Q s Y).static (rotDu Y.gdim Q du) :=
    fun du hd => ⟨hd.val, hd.grad, hd.opp⟩
  cases op with
  | generate a =>
    obtain ⟨h1, h2, h3, h4, h5, h6⟩ := h
    refine ⟨h1, h2, h3, h4, ?_, ?_⟩
    · intro m hm
      obtain ⟨u, hu, rfl⟩ := Option.map_eq_some_iff.mp hm
      exact h5 u hu
    · intro d hm
      obtain ⟨du, hu, rfl⟩ := Option.map_eq_some_iff.mp hm
      exact hd du (h6 du hu)
  | updateData du => exact hd du h
  | updateDetection move m => exact h
  | updateNitsche => exact h

theorem rot_valid (hY : System.Valid Y) : System.Valid (rotated Q s Y) where
  pairs := hY.pairs
  dim := hY.dim
  points := hY.points
  cell := hY.cell
  loc := hY.loc
  gap := hY.gap
  nx := hY.nx
  ny := hY.ny
  space := hY.space
  search := hY.search
  cells := hY.cells
  shared := hY.shared
  affine := hY.affine

/-! ### the geometry of the rotated problem -/

theorem orthogonal_rows {g : ℕ} (O : Orthogonal g Q) {a b : ℕ} (ha : a < g) (hb : b < g) :
    ∑ c ∈ range g, Q a c * Q b c = if a = b then 1 else 0 := by
  obtain ⟨M, hM⟩ : ∃ M : Matrix (Fin g) (Fin g) ℝ, M = Matrix.of fun (i j : Fin g) => Q i j := ⟨_, rfl⟩
  have h1 : M.transpose * M = 1 := by
    ext i j
    rw [Matrix.mul_apply, Matrix.one_apply, hM]
    have := O i i.isLt j j.isLt
    rw [← Fin.sum_univ_eq_sum_range (fun c => Q c i * Q c j)] at this
    simpa [Fin.ext_iff] using this
  have h3 : M * M.transpose = 1 := mul_eq_one_comm.mp h1
  have h2 := congrFun (congrFun h3 ⟨a, ha⟩) ⟨b, hb⟩
  rw [Matrix.mul_apply, Matrix.one_apply, hM] at h2
  rw [← Fin.sum_univ_eq_sum_range (fun c => Q a c * Q b c)]
  simpa [Fin.ext_iff] using h2

theorem pseudo_unique {g t : ℕ} {K L J : ℕ → ℕ → ℝ} (hK : PseudoInverse g t K J) (hL : PseudoInverse g t L J)
    {j b : ℕ} (hj : j < t) (hb : b < g) : K j b = L j b := by
  have mul1 : ∀ X : ℕ → ℕ → ℝ, PseudoInverse g t X J → ∃ A : Matrix (Fin t) (Fin g) ℝ, (∀ i k, A i k = X i k)
      ∧ A * (Matrix.of fun (i : Fin g) (k : Fin t) => J i k) = 1
      ∧ ((Matrix.of fun (i : Fin g) (k : Fin t) => J i k) * A).transpose
        = (Matrix.of fun (i : Fin g) (k : Fin t) => J i k) * A := by
    intro X hX
    refine ⟨Matrix.of fun i k => X i k, fun _ _ => rfl, ?_, ?_⟩
    · ext i k
      rw [Matrix.mul_apply, Matrix.one_apply]
      have := hX.1 i i.isLt k k.isLt
      rw [← Fin.sum_univ_eq_sum_range (fun c => X i c * J c k)] at this
      simpa [Fin.ext_iff] using this
    · ext i k
      rw [Matrix.transpose_apply, Matrix.mul_apply, Matrix.mul_apply]
      have := hX.2 i i.isLt k k.isLt
      rw [← Fin.sum_univ_eq_sum_range (fun c => J i c * X c k), ← Fin.sum_univ_eq_sum_range (fun c => J k c * X c i)] at this
      simpa using this.symm
  obtain ⟨A, hA, a1, a2⟩ := mul1 K hK
  obtain ⟨B, hB, b1, b2⟩ := mul1 L hL
  generalize (Matrix.of fun (i : Fin g) (k : Fin t) => J i k) = M at a1 a2 b1 b2
  have e1 : M * A = M * B := by
    have h : (M * A) * (M * B) = M * B := by
      rw [Matrix.mul_assoc, ← Matrix.mul_assoc A, a1, Matrix.one_mul]
    have h' : (M * B) * (M * A) = M * A := by
      rw [Matrix.mul_assoc, ← Matrix.mul_assoc B, b1, Matrix.one_mul]
    rw [← h', ← a2, ← b2, ← Matrix.transpose_mul, h, b2]
  have e2 : A = B := by
    rw [← Matrix.one_mul A, ← a1, Matrix.mul_assoc, e1, ← Matrix.mul_assoc, a1, Matrix.one_mul]
  have := congrFun (congrFun e2 ⟨j, hj⟩) ⟨b, hb⟩
  rw [hA, hB] at this
  exact this

theorem rot_outer {g n : ℕ} (x y : ℕ → ℕ → ℝ) (a b : ℕ) :
    ∑ k ∈ range n, rotVec g Q (x k) a * rotVec g Q (y k) b = rotGrad g Q (fun c d => ∑ k ∈ range n, x k c * y k d) a b := by
  unfold rotVec rotGrad
  rw [sum_congr rfl (fun k _ => sum_mul_sum _ _ _ _), sum_comm]
  refine sum_congr rfl (fun c _ => ?_)
  rw [sum_comm]
  refine sum_congr rfl (fun d _ => ?_)
  rw [mul_sum]
  exact sum_congr rfl (fun k _ => by ring)

theorem rot_jacobian (hG : GeometryContract Y) (h3 : Y.gdim ≤ 3) (cell r : ℕ) {i j : ℕ} (hi : i < Y.gdim) (hj : j < Y.tdim) :
    jacobianAt (rotated Q s Y) cell r i j = rotVec Y.gdim Q (fun c => jacobianAt Y cell r c j) i := by
  have e : ∀ n, (rotated Q s Y).geo.x (3 * Y.geo.xdof cell n + i)
      = s i + rotVec Y.gdim Q (fun c => Y.geo.x (3 * Y.geo.xdof cell n + c)) i := by
    intro n
    show (if (3 * Y.geo.xdof cell n + i) % 3 < Y.gdim then _ else _) = _
    have m1 : (3 * Y.geo.xdof cell n + i) % 3 = i := by omega
    have m2 : (3 * Y.geo.xdof cell n + i) / 3 = Y.geo.xdof cell n := by omega
    rw [m1, m2, if_pos hi]
  show ∑ n ∈ range Y.geo.nx, (rotated Q s Y).geo.x (3 * Y.geo.xdof cell n + i) * Y.cphi r (j + 1) n = _
  simp only [e, add_mul, sum_add_distrib]
  rw [← mul_sum, hG.sums r j hj, mul_zero, zero_add]
  unfold rotVec jacobianAt
  simp only [sum_mul, mul_sum]
  rw [sum_comm]
  exact sum_congr rfl (fun c _ => sum_congr rfl (fun n _ => by ring))

theorem rot_inv (O : Orthogonal Y.gdim Q) (hG : GeometryContract Y) (h3 : Y.gdim ≤ 3) {cell r : ℕ}
    (hK : ∃ K, LeftInverse Y.gdim Y.tdim K (jacobianAt Y cell r)) {j b : ℕ} (hj : j < Y.tdim) (hb : b < Y.gdim) :
    Y.inv (jacobianAt (rotated Q s Y) cell r) j b = rotVec Y.gdim Q (Y.inv (jacobianAt Y cell r) j) b := by
  obtain ⟨K, hK⟩ := hK
  obtain ⟨J, hJ⟩ : ∃ J, J = jacobianAt Y cell r := ⟨_, rfl⟩
  obtain ⟨J', hJ'⟩ : ∃ J', J' = jacobianAt (rotated Q s Y) cell r := ⟨_, rfl⟩
  have hJQ : ∀ i < Y.gdim, ∀ k < Y.tdim, J' i k = rotVec Y.gdim Q (fun c => J c k) i := by
    intro i hi k hk
    rw [hJ', hJ]
    exact rot_jacobian hG h3 cell r hi hk
  rw [← hJ] at hK ⊢
  rw [← hJ']
  have lift : ∀ X, LeftInverse Y.gdim Y.tdim X J → LeftInverse Y.gdim Y.tdim (fun a => rotVec Y.gdim Q (X a)) J' := by
    intro X hX a ha b hb
    rw [← hX a ha b hb, ← rotVec_inner O (X a) (fun c => J c b)]
    exact sum_congr rfl (fun i hi => by rw [hJQ i (mem_range.mp hi) b hb])
  have hP := hG.inv J K hK
  refine pseudo_unique (hG.inv J' _ (lift K hK)) ⟨lift _ hP.1, ?_⟩ hj hb
  have e : ∀ x < Y.gdim, ∀ y < Y.gdim, ∑ c ∈ range Y.tdim, J' x c * rotVec Y.gdim Q (Y.inv J c) y
      = rotGrad Y.gdim Q (fun k l => ∑ c ∈ range Y.tdim, J k c * Y.inv J c l) x y := by
    intro x hx y hy
    rw [sum_congr rfl (fun c hc => by rw [hJQ x hx c (mem_range.mp hc)])]
    exact rot_outer (fun c k => J k c) (fun c => Y.inv J c) x y
  intro x hx y hy
  rw [e x hx y hy, e y hy x hx]
  unfold rotGrad
  rw [sum_comm]
  refine sum_congr rfl (fun k hk => sum_congr rfl (fun l hl => ?_))
  have := hP.2 l (mem_range.mp hl) k (mem_range.mp hk)
  dsimp only
  rw [this]
  ring

theorem rot_weight (O : Orthogonal Y.gdim Q) (hG : GeometryContract Y) (h3 : Y.gdim ≤ 3) (cell f q : ℕ) :
    weightAt (rotated Q s Y) cell f q = weightAt Y cell f q := by
  show Y.weights f q * Y.det f (jacobianAt (rotated Q s Y) cell (Y.off f + q)) = _
  unfold weightAt
  congr 1
  refine hG.det f _ _ (fun a ha b hb => ?_)
  rw [← rotVec_inner O (fun c => jacobianAt Y cell (Y.off f + q) c a)]
  refine sum_congr rfl (fun c hc => ?_)
  rw [rot_jacobian hG h3 cell _ (mem_range.mp hc) ha, rot_jacobian hG h3 cell _ (mem_range.mp hc) hb]

theorem rotDofs_at {g : ℕ} (u : ℕ → ℝ) (m : ℕ) {a : ℕ} (ha : a < g) :
    rotDofs g Q u (g * m + a) = rotVec g Q (fun c => u (g * m + c)) a := by
  unfold rotDofs
  rw [Nat.mul_add_mod, Nat.mod_eq_of_lt ha, Nat.mul_add_div (by omega), Nat.div_eq_of_lt ha, add_zero]

theorem rot_combination {g : ℕ} (n : ℕ) (w : ℕ → ℝ) (x : ℕ → ℕ → ℝ) (a : ℕ) :
    ∑ k ∈ range n, w k * rotVec g Q (x k) a = rotVec g Q (fun c => ∑ k ∈ range n, w k * x k c) a := by
  unfold rotVec
  simp only [mul_sum]
  rw [sum_comm]
  exact sum_congr rfl (fun c _ => sum_congr rfl (fun k _ => by ring))

theorem rot_grad (O : Orthogonal Y.gdim Q) (hG : GeometryContract Y) (h3 : Y.gdim ≤ 3) {cell f q : ℕ}
    (hK : ∃ K, LeftInverse Y.gdim Y.tdim K (jacobianAt Y cell (Y.off f + q))) (u : ℕ → ℝ) {a b : ℕ}
    (ha : a < Y.gdim) (hb : b < Y.gdim) :
    gradAt (rotated Q s Y) cell f (rotDofs Y.gdim Q u) q a b = rotGrad Y.gdim Q (gradAt Y cell f u q) a b := by
  show ∑ k ∈ range Y.nd, (∑ j ∈ range Y.tdim, Y.inv (jacobianAt (rotated Q s Y) cell (Y.off f + q)) j b
    * Y.dphi j (Y.off f + q) k) * rotDofs Y.gdim Q u (Y.gdim * Y.space.parent cell k + a) = _
  have e : ∀ k, ∑ j ∈ range Y.tdim, Y.inv (jacobianAt (rotated Q s Y) cell (Y.off f + q)) j b * Y.dphi j (Y.off f + q) k
      = rotVec Y.gdim Q (fun d => ∑ j ∈ range Y.tdim, Y.inv (jacobianAt Y cell (Y.off f + q)) j d * Y.dphi j (Y.off f + q) k) b := by
    intro k
    have := rot_combination (Q := Q) (g := Y.gdim) Y.tdim (fun j => Y.dphi j (Y.off f + q) k)
      (fun j => Y.inv (jacobianAt Y cell (Y.off f + q)) j) b
    rw [show (fun d => ∑ j ∈ range Y.tdim, Y.inv (jacobianAt Y cell (Y.off f + q)) j d * Y.dphi j (Y.off f + q) k)
      = fun d => ∑ j ∈ range Y.tdim, Y.dphi j (Y.off f + q) k * Y.inv (jacobianAt Y cell (Y.off f + q)) j d from
      funext fun d => sum_congr rfl (fun j _ => mul_comm _ _), ← this]
    refine sum_congr rfl (fun j hj => ?_)
    rw [rot_inv O hG h3 hK (mem_range.mp hj) hb, mul_comm]
  simp only [e, rotDofs_at u _ ha]
  have h := rot_outer (Q := Q) (g := Y.gdim) (n := Y.nd) (fun k c => u (Y.gdim * Y.space.parent cell k + c))
    (fun k d => ∑ j ∈ range Y.tdim, Y.inv (jacobianAt Y cell (Y.off f + q)) j d * Y.dphi j (Y.off f + q) k) a b
  rw [sum_congr rfl (fun k _ => mul_comm _ _), h]
  unfold rotGrad gradAt
  exact sum_congr rfl (fun c _ => sum_congr rfl (fun d _ => congrArg (_ * ·) (sum_congr rfl (fun k _ => mul_comm _ _))))

theorem rot_outward (O : Orthogonal Y.gdim Q) (hG : GeometryContract Y) (h3 : Y.gdim ≤ 3) {cell f q : ℕ}
    (hK : ∃ K, LeftInverse Y.gdim Y.tdim K (jacobianAt Y cell (Y.off f + q))) {a : ℕ} (ha : a < Y.gdim) :
    outwardAt (rotated Q s Y) cell f q a = rotVec Y.gdim Q (outwardAt Y cell f q) a := by
  obtain ⟨x, hx⟩ : ∃ x : ℕ → ℝ, x = fun a => ∑ j ∈ range Y.tdim, Y.nref f j * Y.inv (jacobianAt Y cell (Y.off f + q)) j a := ⟨_, rfl⟩
  have e : ∀ b < Y.gdim, ∑ j ∈ range Y.tdim, Y.inv (jacobianAt (rotated Q s Y) cell (Y.off f + q)) j b * Y.nref f j
      = rotVec Y.gdim Q x b := by
    intro b hb
    rw [hx, ← rot_combination]
    refine sum_congr rfl (fun j hj => ?_)
    rw [rot_inv O hG h3 hK (mem_range.mp hj) hb, mul_comm]
  have e' : outwardAt Y cell f q = fun a => 1 / Real.sqrt (∑ b ∈ range Y.gdim, x b ^ 2) * x a := by
    funext a
    have : ∀ b, ∑ j ∈ range Y.tdim, Y.inv (jacobianAt Y cell (Y.off f + q)) j b * Y.nref f j = x b := by
      intro b
      rw [hx]
      exact sum_congr rfl (fun j _ => mul_comm _ _)
    rw [outwardAt]
    simp only [this]
    ring
  show (∑ j ∈ range Y.tdim, Y.inv (jacobianAt (rotated Q s Y) cell (Y.off f + q)) j a * Y.nref f j)
    / Real.sqrt (∑ b ∈ range Y.gdim, (∑ j ∈ range Y.tdim, Y.inv (jacobianAt (rotated Q s Y) cell (Y.off f + q)) j b * Y.nref f j) ^ 2)
    = _
  rw [rot_norm O e, e a ha, e', rotVec_smul]
  ring

theorem rot_normal (g : G) (i e q : ℕ) {a : ℕ} (ha : a < Y.gdim) :
    contactNormalAt (rotated Q s Y) g i e q a = rotVec Y.gdim Q (contactNormalAt Y g i e q) a := by
  show (if Y.raytracing i then (rotRows Y.gdim Q (Y.nx g i)).v e (q * Y.gdim + a)
    else -(rotRows Y.gdim Q (Y.ny g i)).v e (q * Y.gdim + a)) = _
  rw [rotRows_at _ _ _ _ ha, rotRows_at _ _ _ _ ha]
  have : contactNormalAt Y g i e q = fun a => if Y.raytracing i then (Y.nx g i).v e (q * Y.gdim + a)
    else -(Y.ny g i).v e (q * Y.gdim + a) := rfl
  rw [this]
  split
  · rfl
  · unfold rotVec
    rw [← sum_neg_distrib]
    exact sum_congr rfl (fun c _ => by ring)

theorem rot_point (O : Orthogonal Y.gdim Q) (hG : GeometryContract Y) (h3 : Y.gdim ≤ 3) {cell f q : ℕ}
    (hK : ∃ K, LeftInverse Y.gdim Y.tdim K (jacobianAt Y cell (Y.off f + q))) {t t' : Tracked G}
    (T : RotTracked Y.gdim Q t t') (i e : ℕ) :
    RotPoint Q (pointAt Y t i e cell f q) (pointAt (rotated Q s Y) t' i e cell f q) where
  g := rfl
  mu := by show t'.mu i e 0 = _; rw [T.mu]; rfl
  lam := by show t'.lam i e 0 = _; rw [T.lam]; rfl
  fric := by show t'.fric i e 0 = _; rw [T.fric]; rfl
  h := by show t'.h i e 0 = _; rw [T.h]; rfl
  normal := fun a ha => by
    show contactNormalAt (rotated Q s Y) t'.cur i e q a = _
    rw [T.cur]
    exact rot_normal t.cur i e q ha
  oldNormal := fun a ha => by
    show contactNormalAt (rotated Q s Y) t'.prev i e q a = _
    rw [T.prev]
    exact rot_normal t.prev i e q ha
  gap := fun a ha => by
    show (rotRows Y.gdim Q (Y.gap t'.cur i)).v e (q * Y.gdim + a) = _
    rw [T.cur]
    exact rotRows_at Q (Y.gap t.cur i) e q ha
  nPhys := fun a ha => rot_outward O hG h3 hK ha

theorem rot_jump (g : G) (i e cell f : ℕ) (u : ℕ → ℝ) (q : ℕ) {a : ℕ} (ha : a < Y.gdim) :
    jumpAt (rotated Q s Y) g i e cell f (rotDofs Y.gdim Q u) q a = rotVec Y.gdim Q (jumpAt Y g i e cell f u q) a := by
  have e1 : jumpAt Y g i e cell f u q = fun a => valueAt Y cell f u q a - oppositeAt Y g i e u q a := rfl
  rw [e1, rotVec_sub]
  show ∑ k ∈ range Y.nd, Y.phi (Y.off f + q) k * rotDofs Y.gdim Q u (Y.gdim * Y.space.parent cell k + a)
    - ∑ k ∈ range Y.nd, Y.basis g i (e * Y.nq + q) k * rotDofs Y.gdim Q u
      (Y.gdim * Y.space.parent (Y.space.parentCell (Y.subCell (Y.map g i (e * Y.nq + q)).toNat)) k + a) = _
  simp only [rotDofs_at u _ ha]
  rw [rot_combination, rot_combination]
  rfl

theorem rotGrad_add {g : ℕ} (D E : ℕ → ℕ → ℝ) (a b : ℕ) :
    rotGrad g Q (fun c d => D c d + E c d) a b = rotGrad g Q D a b + rotGrad g Q E a b := by
  unfold rotGrad
  rw [← sum_add_distrib]
  refine sum_congr rfl (fun c _ => ?_)
  rw [← sum_add_distrib]
  exact sum_congr rfl (fun d _ => by ring)

theorem rot_total (O : Orthogonal Y.gdim Q) (hG : GeometryContract Y) (h3 : Y.gdim ≤ 3) {cell f q : ℕ}
    (hK : ∃ K, LeftInverse Y.gdim Y.tdim K (jacobianAt Y cell (Y.off f + q))) {t t' : Tracked G}
    (T : RotTracked Y.gdim Q t t') (i e : ℕ) (u : ℕ → ℝ) {a b : ℕ} (ha : a < Y.gdim) (hb : b < Y.gdim) :
    gradAt (rotated Q s Y) cell f (rotDofs Y.gdim Q u) q a b + (pointAt (rotated Q s Y) t' i e cell f q).grad0 a b
      = rotGrad Y.gdim Q (fun c d => gradAt Y cell f u q c d + (pointAt Y t i e cell f q).grad0 c d) a b := by
  rw [rotGrad_add, rot_grad O hG h3 hK u ha hb]
  exact congrArg (_ + ·) (T.gradU i e q a ha b hb)

theorem rot_facetForm (O : Orthogonal Y.gdim Q) (hG : GeometryContract Y) (h3 : Y.gdim ≤ 3) (hK : CellsInvertible Y)
    {t t' : Tracked G} (T : RotTracked Y.gdim Q t t') (law : Law) (gamma theta : ℝ) (u v : ℕ → ℝ) {i e : ℕ}
    (hi : i < Y.numPairs) (he : e < Y.localFacets i) :
    facetForm (rotated Q s Y) t' law gamma theta (rotDofs Y.gdim Q u) (rotDofs Y.gdim Q v) i e = facetForm Y t law gamma theta u v i e := by
  have f1 : (rotated Q s Y).facets = Y.facets := rfl
  have f2 : (rotated Q s Y).nq = Y.nq := rfl
  have f3 : (rotated Q s Y).map = Y.map := rfl
  unfold facetForm
  rw [f1, f2, f3, T.cur]
  cases hf : (Y.facets i)[e]? with
  | none => rw [Option.elim_none, Option.elim_none]
  | some p =>
    obtain ⟨cell, f⟩ := p
    rw [Option.elim_some, Option.elim_some]
    refine sum_congr rfl (fun q hq => ?_)
    have hk := hK i hi e he cell f hf q (mem_range.mp hq)
    dsimp only
    by_cases hl : 0 ≤ Y.map t.cur i (e * Y.nq + q)
    · rw [if_pos hl, if_pos hl, rot_weight O hG h3]
      refine congrArg (weightAt Y cell f q * ·) ?_
      have R := rot_point (s := s) O hG h3 hk T i e
      exact R.form O law gamma theta (fun a ha => rot_jump t.cur i e cell f u q ha)
        (fun a ha b hb => rot_total O hG h3 hk T i e u ha hb)
        (fun a ha => rot_jump t.cur i e cell f v q ha) (fun a ha b hb => rot_grad O hG h3 hk v ha hb)
    · rw [if_neg hl, if_neg hl]

theorem rot_form (O : Orthogonal Y.gdim Q) (hG : GeometryContract Y) (h3 : Y.gdim ≤ 3) (hK : CellsInvertible Y)
    {t t' : Tracked G} (T : RotTracked Y.gdim Q t t') (law : Law) (gamma theta : ℝ) (u v : ℕ → ℝ) :
    contactForm (rotated Q s Y) t' law gamma theta (rotDofs Y.gdim Q u) (rotDofs Y.gdim Q v) = contactForm Y t law gamma theta u v := by
  rw [contactForm_facets, contactForm_facets]
  have f1 : (rotated Q s Y).numPairs = Y.numPairs := rfl
  have f2 : (rotated Q s Y).localFacets = Y.localFacets := rfl
  rw [f1, f2]
  exact sum_congr rfl (fun i hi => sum_congr rfl (fun e he =>
    rot_facetForm O hG h3 hK T law gamma theta u v (mem_range.mp hi) (mem_range.mp he)))

theorem rot_facetTangent (O : Orthogonal Y.gdim Q) (hG : GeometryContract Y) (h3 : Y.gdim ≤ 3) (hK : CellsInvertible Y)
    {t t' : Tracked G} (T : RotTracked Y.gdim Q t t') (law : Law) (gamma theta : ℝ) (u w v : ℕ → ℝ) {i e : ℕ}
    (hi : i < Y.numPairs) (he : e < Y.localFacets i) :
    facetTangent (rotated Q s Y) t' law gamma theta (rotDofs Y.gdim Q u) (rotDofs Y.gdim Q w) (rotDofs Y.gdim Q v) i e = facetTangent Y t law gamma theta u w v i e := by
  have f1 : (rotated Q s Y).facets = Y.facets := rfl
  have f2 : (rotated Q s Y).nq = Y.nq := rfl
  have f3 : (rotated Q s Y).map = Y.map := rfl
  unfold facetTangent
  rw [f1, f2, f3, T.cur]
  cases hf : (Y.facets i)[e]? with
  | none => rw [Option.elim_none, Option.elim_none]
  | some p =>
    obtain ⟨cell, f⟩ := p
    rw [Option.elim_some, Option.elim_some]
    refine sum_congr rfl (fun q hq => ?_)
    have hk := hK i hi e he cell f hf q (mem_range.mp hq)
    dsimp only
    by_cases hl : 0 ≤ Y.map t.cur i (e * Y.nq + q)
    · rw [if_pos hl, if_pos hl, rot_weight O hG h3]
      refine congrArg (weightAt Y cell f q * ·) ?_
      have R := rot_point (s := s) O hG h3 hk T i e
      exact R.dForm O law gamma theta (fun a ha => rot_jump t.cur i e cell f u q ha)
        (fun a ha b hb => rot_total O hG h3 hk T i e u ha hb)
        (fun a ha => rot_jump t.cur i e cell f w q ha) (fun a ha b hb => rot_grad O hG h3 hk w ha hb)
        (fun a ha => rot_jump t.cur i e cell f v q ha) (fun a ha b hb => rot_grad O hG h3 hk v ha hb)
    · rw [if_neg hl, if_neg hl]

theorem rot_tangent (O : Orthogonal Y.gdim Q) (hG : GeometryContract Y) (h3 : Y.gdim ≤ 3) (hK : CellsInvertible Y)
    {t t' : Tracked G} (T : RotTracked Y.gdim Q t t') (law : Law) (gamma theta : ℝ) (u w v : ℕ → ℝ) :
    contactTangent (rotated Q s Y) t' cutSlope law gamma theta (rotDofs Y.gdim Q u) (rotDofs Y.gdim Q w) (rotDofs Y.gdim Q v) = contactTangent Y t cutSlope law gamma theta u w v := by
  rw [contactTangent_facets, contactTangent_facets]
  have f1 : (rotated Q s Y).numPairs = Y.numPairs := rfl
  have f2 : (rotated Q s Y).localFacets = Y.localFacets := rfl
  rw [f1, f2]
  exact sum_congr rfl (fun i hi => sum_congr rfl (fun e he =>
    rot_facetTangent O hG h3 hK T law gamma theta u w v (mem_range.mp hi) (mem_range.mp he)))

/-- The dofs which the rotation maps to the unit vector of dof `d`. -/
def unitBack (g : ℕ) (Q : ℕ → ℕ → ℝ) (d k : ℕ) : ℝ := if k / g = d / g then Q (d % g) (k % g) else 0

theorem rot_unitBack {g : ℕ} (hg : 0 < g) (O : Orthogonal g Q) (d k : ℕ) :
    rotDofs g Q (unitBack g Q d) k = if k = d then 1 else 0 := by
  unfold rotDofs rotVec unitBack
  by_cases h : k / g = d / g
  · have e : ∀ c ∈ range g, Q (k % g) c * (if (g * (k / g) + c) / g = d / g then Q (d % g) ((g * (k / g) + c) % g) else 0)
        = Q (k % g) c * Q (d % g) c := by
      intro c hc
      have hc' := mem_range.mp hc
      rw [Nat.mul_add_div hg, Nat.div_eq_of_lt hc', add_zero, if_pos h, Nat.mul_add_mod, Nat.mod_eq_of_lt hc']
    rw [sum_congr rfl e, orthogonal_rows O (Nat.mod_lt _ hg) (Nat.mod_lt _ hg)]
    congr 1
    refine propext ⟨fun h2 => ?_, fun h2 => by rw [h2]⟩
    rw [← Nat.div_add_mod k g, ← Nat.div_add_mod d g, h, h2]
  · rw [if_neg (fun h2 => h (by rw [h2]))]
    refine sum_eq_zero (fun c hc => ?_)
    have hc' := mem_range.mp hc
    dsimp only
    rw [Nat.mul_add_div hg, Nat.div_eq_of_lt hc', add_zero, if_neg h, mul_zero]

theorem sum_unitBack {g M : ℕ} (hg : 0 < g) (f : ℕ → ℝ) {d : ℕ} (hd : d < g * M) :
    ∑ k ∈ range (g * M), f k * unitBack g Q d k = ∑ c ∈ range g, Q (d % g) c * f (g * (d / g) + c) := by
  rw [mul_comm g M, ← Coefficients.sum_mul_range M g (fun k => f k * unitBack g Q d k),
    sum_eq_single_of_mem (d / g) (mem_range.mpr (Nat.div_lt_of_lt_mul hd))]
  · refine sum_congr rfl (fun c hc => ?_)
    have hc' := mem_range.mp hc
    rw [unitBack, mul_comm (d / g) g, Nat.mul_add_div hg, Nat.div_eq_of_lt hc', add_zero, if_pos rfl, Nat.mul_add_mod,
      Nat.mod_eq_of_lt hc', mul_comm]
  · intro n _ hn
    refine sum_eq_zero (fun c hc => ?_)
    rw [unitBack, mul_comm n g, Nat.mul_add_div hg, Nat.div_eq_of_lt (mem_range.mp hc), add_zero, if_neg hn, mul_zero]

theorem rot_created (hY : System.Valid Y) (ops : List (Op G)) (hops : ∀ op ∈ ops, OpShaped Y.static op) (g : G)
    (hc : (history Y.static ops (init Y.static g)).coeffs ≠ none) :
    (history (rotated Q s Y).static (ops.map (rotCall Y.gdim Q)) (init (rotated Q s Y).static g)).coeffs ≠ none := by
  have H := good_history (static_shaped hY) ops hops (good_init Y.static g)
  have T := RotTracked.history (Q := Q) (g := Y.gdim) ops (RotTracked.new Y.gdim Q g)
  have hops' : ∀ op ∈ ops.map (rotCall Y.gdim Q), OpShaped (rotated Q s Y).static op := by
    intro op hop
    obtain ⟨o, ho, rfl⟩ := List.mem_map.mp hop
    exact rot_shaped (hops o ho)
  have H' := good_history (static_shaped (rot_valid (Q := Q) (s := s) hY)) _ hops' (good_init (rotated Q s Y).static g)
  have hcr : ((Tracked.new g).history ops).created = true := by
    cases h : ((Tracked.new g).history ops).created with
    | false => exact absurd (H.fresh h).1 hc
    | true => rfl
  obtain ⟨cs, nQ, h, -⟩ := H'.full (T.created.trans hcr)
  rw [h]
  simp

theorem rot_unitNormals (O : Orthogonal Y.gdim Q) {t t' : Tracked G} (T : RotTracked Y.gdim Q t t')
    (h : UnitNormals Y t) : UnitNormals (rotated Q s Y) t' := by
  intro i hi e he q hq hl
  rw [T.cur] at hl ⊢
  rw [← h i hi e he q hq hl]
  exact rot_norm O (fun a ha => rot_normal t.cur i e q ha)

/-- C133: the contact vector does not depend on the coordinate system.  If the mesh, the gap vectors, the
normals and all displacements are rotated (or reflected) by `Q` and the mesh is shifted by `s`, then the
vector `assemble_vector` builds is rotated by `Q`. -/
theorem C133_vector (hY : System.Valid Y) (h3 : Y.gdim ≤ 3) (hG : GeometryContract Y) (hK : CellsInvertible Y)
    (Q : ℕ → ℕ → ℝ) (O : Orthogonal Y.gdim Q) (s : ℕ → ℝ) (ops : List (Op G)) (hops : ∀ op ∈ ops, OpShaped Y.static op) (g : G)
    (law : Law) (hlaw : lastLaw ops none = some law) (h23 : law ≠ .frictionless → Y.gdim = 2 ∨ Y.gdim = 3)
    (hc : (history Y.static ops (init Y.static g)).coeffs ≠ none) (M : ℕ) (hM : DofsBelow Y (Y.gdim * M)) (u : ℕ → ℝ) :
    ∃ (upd upd' : State G) (b b' : Arr ℕ),
      updateContactData Y.static (Y.du u) (history Y.static ops (init Y.static g)) = .ok upd
      ∧ Y.assembleVector upd 0 = .ok b
      ∧ updateContactData (rotated Q s Y).static ((rotated Q s Y).du (rotDofs Y.gdim Q u))
          (history (rotated Q s Y).static (ops.map (rotCall Y.gdim Q)) (init (rotated Q s Y).static g)) = .ok upd'
      ∧ (rotated Q s Y).assembleVector upd' 0 = .ok b'
      ∧ ∀ d < Y.gdim * M, b' d = rotDofs Y.gdim Q b d := by
  obtain ⟨gamma, theta, hconsts⟩ := consts_of_law ops hlaw
  have T := RotTracked.history (Q := Q) (g := Y.gdim) ops (RotTracked.new Y.gdim Q g)
  have hops' : ∀ op ∈ ops.map (rotCall Y.gdim Q), OpShaped (rotated Q s Y).static op := by
    intro op hop
    obtain ⟨o, ho, rfl⟩ := List.mem_map.mp hop
    exact rot_shaped (hops o ho)
  have hc' := rot_created (Q := Q) (s := s) hY ops hops g hc
  have form := fun v => C114_form hY ops hops g law hlaw h23 gamma theta hconsts _ rfl hc _ hM u v
  have form' := fun v => C114_form (rot_valid (Q := Q) (s := s) hY) _ hops' g law ((rot_law Y.gdim Q ops none).trans hlaw) h23
    gamma theta ((rot_consts Y.gdim Q ops none).trans hconsts) _ rfl hc' (Y.gdim * M) hM (rotDofs Y.gdim Q u) v
  obtain ⟨upd, b, h1, h2, -⟩ := form 0
  obtain ⟨upd', b', h1', h2', -⟩ := form' 0
  refine ⟨upd, upd', b, b', h1, h2, h1', h2', fun d hd => ?_⟩
  obtain ⟨p, c, k1, k2, k3⟩ := form (unitBack Y.gdim Q d)
  obtain rfl : p = upd := Except.ok.inj (k1.symm.trans h1)
  obtain rfl : c = b := Except.ok.inj (k2.symm.trans h2)
  obtain ⟨p', c', k1', k2', k3'⟩ := form' (rotDofs Y.gdim Q (unitBack Y.gdim Q d))
  obtain rfl : p' = upd' := Except.ok.inj (k1'.symm.trans h1')
  obtain rfl : c' = b' := Except.ok.inj (k2'.symm.trans h2')
  rw [rot_form O hG h3 hK T, ← k3, sum_unitBack hY.dim c hd] at k3'
  simp only [rot_unitBack hY.dim O] at k3'
  simp only [mul_ite, mul_one, mul_zero, sum_ite_eq', mem_range, hd, if_true] at k3'
  rw [k3']
  rfl

/-- C133: nor does the matrix: in the rotated coordinate system it is `Q A Qᵀ`. -/
theorem C133_matrix (hY : System.Valid Y) (h3 : Y.gdim ≤ 3) (hG : GeometryContract Y) (hK : CellsInvertible Y)
    (Q : ℕ → ℕ → ℝ) (O : Orthogonal Y.gdim Q) (s : ℕ → ℝ) (ops : List (Op G)) (hops : ∀ op ∈ ops, OpShaped Y.static op) (g : G)
    (law : Law) (hlaw : lastLaw ops none = some law)
    (h23 : law ≠ .frictionless → (Y.gdim = 2 ∨ Y.gdim = 3) ∧ UnitNormals Y ((Tracked.new g).history ops))
    (hc : (history Y.static ops (init Y.static g)).coeffs ≠ none) (M : ℕ) (hM : DofsBelow Y (Y.gdim * M)) (u : ℕ → ℝ) :
    ∃ (upd upd' : State G) (A A' : Arr (ℕ × ℕ)),
      updateContactData Y.static (Y.du u) (history Y.static ops (init Y.static g)) = .ok upd
      ∧ Y.assembleMatrix upd 0 = .ok A
      ∧ updateContactData (rotated Q s Y).static ((rotated Q s Y).du (rotDofs Y.gdim Q u))
          (history (rotated Q s Y).static (ops.map (rotCall Y.gdim Q)) (init (rotated Q s Y).static g)) = .ok upd'
      ∧ (rotated Q s Y).assembleMatrix upd' 0 = .ok A'
      ∧ ∀ d < Y.gdim * M, ∀ c < Y.gdim * M,
          A' (d, c) = rotDofs Y.gdim Q (fun k => rotDofs Y.gdim Q (fun l => A (k, l)) c) d := by
  obtain ⟨gamma, theta, hconsts⟩ := consts_of_law ops hlaw
  have T := RotTracked.history (Q := Q) (g := Y.gdim) ops (RotTracked.new Y.gdim Q g)
  have hops' : ∀ op ∈ ops.map (rotCall Y.gdim Q), OpShaped (rotated Q s Y).static op := by
    intro op hop
    obtain ⟨o, ho, rfl⟩ := List.mem_map.mp hop
    exact rot_shaped (hops o ho)
  have hc' := rot_created (Q := Q) (s := s) hY ops hops g hc
  obtain ⟨upd, A, h1, h2, f⟩ := C131_matrix hY ops hops g law hlaw h23 gamma theta hconsts _ rfl hc _ hM u
  obtain ⟨upd', A', h1', h2', f'⟩ := C131_matrix (rot_valid (Q := Q) (s := s) hY) _ hops' g law
    ((rot_law Y.gdim Q ops none).trans hlaw) (fun h => ⟨(h23 h).1, rot_unitNormals O T (h23 h).2⟩)
    gamma theta ((rot_consts Y.gdim Q ops none).trans hconsts) _ rfl hc' (Y.gdim * M) hM (rotDofs Y.gdim Q u)
  refine ⟨upd, upd', A, A', h1, h2, h1', h2', fun d hd c hcol => ?_⟩
  have k := f' (rotDofs Y.gdim Q (unitBack Y.gdim Q c)) (rotDofs Y.gdim Q (unitBack Y.gdim Q d))
  rw [rot_tangent O hG h3 hK T, ← f] at k
  have e1 : ∑ x ∈ range (Y.gdim * M), ∑ y ∈ range (Y.gdim * M), rotDofs Y.gdim Q (unitBack Y.gdim Q d) x * A' (x, y)
      * rotDofs Y.gdim Q (unitBack Y.gdim Q c) y = A' (d, c) := by
    simp only [rot_unitBack hY.dim O]
    simp [hd, hcol]
  have e2 : ∀ x, ∑ y ∈ range (Y.gdim * M), unitBack Y.gdim Q d x * A (x, y) * unitBack Y.gdim Q c y
      = rotDofs Y.gdim Q (fun l => A (x, l)) c * unitBack Y.gdim Q d x := by
    intro x
    have := sum_unitBack (Q := Q) hY.dim (fun y => A (x, y)) hcol
    rw [show rotDofs Y.gdim Q (fun l => A (x, l)) c = _ from this.symm, sum_mul]
    exact sum_congr rfl (fun y _ => by ring)
  rw [e1, sum_congr rfl (fun x _ => e2 x), sum_unitBack hY.dim _ hd] at k
  exact k

/-! ### an example -/

/-- Direction of local facet `f` of the reference triangle. -/
def exDirection (f a : ℕ) : ℝ :=
  if f = 0 then (if a = 0 then -1 else 1) else if f = 1 then (if a = 0 then 0 else 1) else if a = 0 then 1 else 0

/-- Two linear triangles which touch along their edge on the `x` axis: one quadrature point in the middle of
the edge, the inverse and the length of the edge as the library computes them. -/
def exTriangles : System Unit where
  numPairs := 1
  nq := 1
  nd := 3
  gdim := 2
  tdim := 2
  cell := .triangle
  affine := true
  off := fun _ => 0
  phi := fun _ k => if k = 2 then 0 else 1 / 2
  dphi := fun j _ k => if k = 0 then -1 else if k = j + 1 then 1 else 0
  weights := fun _ _ => 1
  nref := fun _ j => if j = 1 then -1 else 0
  geo := ⟨3, fun k => if k = 3 ∨ k = 7 ∨ k = 12 then 1 else if k = 16 then -1 else 0, fun c n => 3 * c + n⟩
  cphi := fun _ j n => if n = 0 then -1 else if n = j then 1 else 0
  inv := fun J a b => (if a = 0 then (if b = 0 then J 1 1 else -J 0 1) else if b = 0 then -J 1 0 else J 0 0)
    / (J 0 0 * J 1 1 - J 0 1 * J 1 0)
  det := fun f J => Real.sqrt (∑ a ∈ range 2, ∑ b ∈ range 2, exDirection f a * exDirection f b * ∑ c ∈ range 2, J c a * J c b)
  facets := fun _ => [(0, 2)]
  localFacets := fun _ => 1
  map := fun _ _ _ => 0
  subCell := fun _ => 0
  space := ⟨1, 3, 2, fun c k => 3 * c + k, fun c k => 3 * c + k, fun _ => 1⟩
  basis := fun _ _ _ k => if k = 2 then 0 else 1 / 2
  raytracing := fun _ => false
  gap := fun _ _ => ⟨1, 2, fun _ m => if m = 1 then 2 else 0⟩
  nx := fun _ _ => ⟨1, 2, fun _ m => if m = 1 then -1 else 0⟩
  ny := fun _ _ => ⟨1, 2, fun _ m => if m = 1 then 1 else 0⟩

theorem exTriangles_valid : System.Valid exTriangles where
  pairs := by decide
  dim := by decide
  points := by decide
  cell := by simp [exTriangles]
  loc := by simp [exTriangles]
  gap := by simp [exTriangles]
  nx := by simp [exTriangles]
  ny := by simp [exTriangles]
  space := ⟨rfl, rfl⟩
  search := by simp [exTriangles]
  cells := by simp [exTriangles]
  shared := by
    intro c i c' i' hc hi hc' hi' h
    simp [exTriangles] at *
    omega
  affine := by simp [exTriangles]

theorem exTriangles_contract : GeometryContract exTriangles where
  inv := by
    intro J K h
    have e : ∀ a < 2, ∀ b < 2, K a 0 * J 0 b + K a 1 * J 1 b = if a = b then 1 else 0 := by
      intro a ha b hb
      rw [← h a ha b hb]
      simp [exTriangles, sum_range_succ]
    have h00 := e 0 (by norm_num) 0 (by norm_num)
    have h01 := e 0 (by norm_num) 1 (by norm_num)
    have h10 := e 1 (by norm_num) 0 (by norm_num)
    have h11 := e 1 (by norm_num) 1 (by norm_num)
    norm_num at h00 h01 h10 h11
    have hd : J 0 0 * J 1 1 - J 0 1 * J 1 0 ≠ 0 := by
      intro h0
      have : (K 0 0 * K 1 1 - K 0 1 * K 1 0) * (J 0 0 * J 1 1 - J 0 1 * J 1 0) = 1 := by
        have e1 : (K 0 0 * K 1 1 - K 0 1 * K 1 0) * (J 0 0 * J 1 1 - J 0 1 * J 1 0)
          = (K 0 0 * J 0 0 + K 0 1 * J 1 0) * (K 1 0 * J 0 1 + K 1 1 * J 1 1)
            - (K 0 0 * J 0 1 + K 0 1 * J 1 1) * (K 1 0 * J 0 0 + K 1 1 * J 1 0) := by ring
        rw [e1, h00, h01, h10, h11]
        norm_num
      rw [h0, mul_zero] at this
      exact zero_ne_one this
    refine ⟨?_, ?_⟩
    · intro a ha b hb
      have ha' : a < 2 := ha
      have hb' : b < 2 := hb
      interval_cases a <;> interval_cases b <;> simp only [exTriangles, sum_range_succ, sum_range_zero, zero_add] <;>
        norm_num <;> rw [div_mul_eq_mul_div, div_mul_eq_mul_div, ← add_div] <;> first
        | (rw [div_eq_one_iff_eq hd]; ring)
        | (rw [div_eq_zero_iff]; left; ring)
    · intro a ha b hb
      have ha' : a < 2 := ha
      have hb' : b < 2 := hb
      interval_cases a <;> interval_cases b <;> simp [exTriangles, sum_range_succ] <;> field_simp <;> ring
  det := by
    intro f J J' h
    have : ∀ a ∈ range 2, ∀ b ∈ range 2, ∑ c ∈ range 2, J c a * J c b = ∑ c ∈ range 2, J' c a * J' c b :=
      fun a ha b hb => h a (mem_range.mp ha) b (mem_range.mp hb)
    refine congrArg Real.sqrt (sum_congr rfl (fun a ha => sum_congr rfl (fun b hb => ?_)))
    rw [this a ha b hb]
  sums := by
    intro r j hj
    have hj' : j < 2 := hj
    interval_cases j <;> simp [exTriangles, sum_range_succ]

theorem exTriangles_invertible : CellsInvertible exTriangles := by
  intro i hi e he cell f hf q hq
  have he' : e = 0 := Nat.lt_one_iff.mp he
  subst he'
  have : (0, 2) = (cell, f) := Option.some.inj hf
  obtain ⟨rfl, rfl⟩ := Prod.mk.inj this
  refine ⟨fun a b => if a = b then 1 else 0, ?_⟩
  intro a ha b hb
  have ha' : a < 2 := ha
  have hb' : b < 2 := hb
  interval_cases a <;> interval_cases b <;> simp [exTriangles, jacobianAt, sum_range_succ]

/-- Rotation by 90 degrees. -/
def exQ (a b : ℕ) : ℝ := if a = 0 ∧ b = 1 then -1 else if a = 1 ∧ b = 0 then 1 else 0

/-- The hypotheses of C133 hold for two triangles and Coulomb friction, with the system rotated by 90
degrees. -/
example : System.Valid exTriangles ∧ exTriangles.gdim ≤ 3 ∧ GeometryContract exTriangles ∧ CellsInvertible exTriangles
    ∧ Orthogonal exTriangles.gdim exQ ∧ (∀ op ∈ exSysOps, OpShaped exTriangles.static op)
    ∧ lastLaw exSysOps none = some .coulomb ∧ exTriangles.gdim = 2
    ∧ UnitNormals exTriangles ((Tracked.new ()).history exSysOps)
    ∧ (history exTriangles.static exSysOps (init exTriangles.static ())).coeffs ≠ none
    ∧ DofsBelow exTriangles (exTriangles.gdim * 6) := by
  have hsh : ∀ op ∈ exSysOps, OpShaped exTriangles.static op := by
    simp [exSysOps, OpShaped, ScalarShaped, System.static, exTriangles]
  refine ⟨exTriangles_valid, by decide, exTriangles_contract, exTriangles_invertible, ?_, hsh, rfl, rfl, ?_, ?_, ?_⟩
  · intro a ha b hb
    have ha' : a < 2 := ha
    have hb' : b < 2 := hb
    interval_cases a <;> interval_cases b <;> simp [exTriangles, exQ, sum_range_succ]
  · intro i _ e _ q hq _
    have hq0 : q = 0 := Nat.lt_one_iff.mp hq
    subst hq0
    simp [exTriangles, contactNormalAt, sum_range_succ]
  · rcases C38_size (static_shaped exTriangles_valid) exSysOps hsh () with ⟨h, -⟩ | ⟨-, cs, h, -⟩
    · simp [exSysOps, Tracked.history, Tracked.call] at h
    · rw [h]; simp
  · refine ⟨?_, ?_⟩ <;> simp [exTriangles] <;> intros <;> omega

end

end Verif.ContactProblem
