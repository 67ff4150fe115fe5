import Verif.Spec.ZeroFriction
import Verif.Props.SystemTangent

/-!
C137: friction laws with friction coefficient zero.
-/

namespace Verif.ContactProblem

open Verif.Spec Verif.Packing Verif.Assembly Verif.Entities Verif.Kernels Finset

noncomputable section

variable {G : Type} {Y : System G}

theorem tracked_withLaw (law : Law) (ops : List (Op G)) (t : Tracked G) :
    t.history (ops.map (withLaw law)) = t.history ops := by
  unfold Tracked.history
  rw [List.foldl_map]
  congr 1
  funext t op
  cases op <;> rfl

theorem shaped_withLaw (law : Law) {S : Static G} {ops : List (Op G)} (h : ∀ op ∈ ops, OpShaped S op) :
    ∀ op ∈ ops.map (withLaw law), OpShaped S op := by
  intro op hop
  obtain ⟨o, ho, rfl⟩ := List.mem_map.mp hop
  have := h o ho
  cases o <;> exact this

theorem lastConsts_withLaw (law : Law) (ops : List (Op G)) (c : Option (ℝ × ℝ)) :
    lastConsts (ops.map (withLaw law)) c = lastConsts ops c := by
  induction ops generalizing c with
  | nil => rfl
  | cons o ops ih => cases o <;> exact ih _

theorem lastLaw_withLaw (law : Law) (ops : List (Op G)) (l : Option Law) :
    lastLaw (ops.map (withLaw law)) l = some law ∨ (lastLaw (ops.map (withLaw law)) l = l ∧ lastLaw ops l = l) := by
  induction ops generalizing l with
  | nil => exact Or.inr ⟨rfl, rfl⟩
  | cons o ops ih =>
    cases o with
    | generate a =>
      rcases ih (some law) with h | h
      · exact Or.inl h
      · exact Or.inl h.1
    | _ => exact ih l

theorem lastLaw_withLaw_some {law l : Law} {ops : List (Op G)} (h : lastLaw ops none = some l) :
    lastLaw (ops.map (withLaw law)) none = some law := by
  rcases lastLaw_withLaw law ops none with h' | h'
  · exact h'
  · rw [h'.2] at h; cases h

/-- Rows exist after the same calls with another law. -/
theorem created_withLaw (hY : System.Valid Y) (law : Law) {ops : List (Op G)}
    (hops : ∀ op ∈ ops, OpShaped Y.static op) (g : G)
    (hc : (history Y.static ops (init Y.static g)).coeffs ≠ none) :
    (history Y.static (ops.map (withLaw law)) (init Y.static g)).coeffs ≠ none := by
  rcases C38_size (static_shaped hY) ops hops g with ⟨-, h⟩ | ⟨h, -⟩
  · exact absurd h hc
  · rcases C38_size (static_shaped hY) _ (shaped_withLaw law hops) g with ⟨h', -⟩ | ⟨-, cs, h', -⟩
    · rw [tracked_withLaw, h] at h'; cases h'
    · rw [h']; simp

theorem ball_radius_zero (g : ℕ) (x : ℕ → ℝ) {a : ℕ} (ha : a < g) : ball g x 0 a = 0 := by
  unfold ball
  split
  · rename_i h
    have : ∑ b ∈ range g, x b ^ 2 = 0 :=
      (Real.sqrt_eq_zero (sum_nonneg (fun _ _ => sq_nonneg _))).mp (le_antisymm h (Real.sqrt_nonneg _))
    exact pow_eq_zero_iff two_ne_zero |>.mp
      ((sum_eq_zero_iff_of_nonneg (fun _ _ => sq_nonneg _)).mp this a (mem_range.mpr ha))
  · simp

/-- The form of a point with friction coefficient zero. -/
theorem form_noFriction (p : ContactPoint) (hp : p.fric = 0) (law : Law) (hl : law ≠ .frictionless) (gamma theta : ℝ)
    (J : ℕ → ℝ) (D : ℕ → ℕ → ℝ) (J' : ℕ → ℝ) (D' : ℕ → ℕ → ℝ) :
    p.form law gamma theta J D J' D' = p.form .frictionless gamma theta J D J' D'
      - 1 / 2 * theta * (p.h / gamma) * ∑ a ∈ range p.g, p.tang (p.trac D) a * p.tang (p.trac D') a := by
  have hz : ∀ a ∈ range p.g, p.projected law gamma J D a
      * (p.tang J' a - theta * (p.h / gamma) * p.tang (p.trac D') a) = 0 := by
    intro a ha
    have ha' := mem_range.mp ha
    unfold ContactPoint.projected
    cases law with
    | frictionless => exact absurd rfl hl
    | tresca => dsimp only; rw [hp, mul_zero, ball_radius_zero _ _ ha', zero_mul]
    | coulomb => dsimp only; rw [hp, zero_mul, ball_radius_zero _ _ ha', zero_mul]
  unfold ContactPoint.form
  rw [if_neg hl, if_pos rfl]
  unfold ContactPoint.frictionPart
  rw [sum_eq_zero hz]
  ring

theorem contactForm_zero (Y : System G) (t : Tracked G) (h : ZeroFriction Y t) (law : Law) (hl : law ≠ .frictionless)
    (gamma theta : ℝ) (u v : ℕ → ℝ) :
    contactForm Y t law gamma theta u v
      = contactForm Y t .frictionless gamma theta u v - tangentialTerm Y t gamma theta u v := by
  unfold contactForm tangentialTerm
  rw [← sum_sub_distrib]
  refine sum_congr rfl (fun i hi => ?_)
  rw [← sum_sub_distrib]
  refine sum_congr rfl (fun e he => ?_)
  cases hf : (Y.facets i)[e]? with
  | none => rw [Option.elim_none, Option.elim_none, Option.elim_none, sub_zero]
  | some c =>
    rw [Option.elim_some, Option.elim_some, Option.elim_some, ← sum_sub_distrib]
    refine sum_congr rfl (fun q _ => ?_)
    split
    · rw [← mul_sub]
      congr 1
      exact form_noFriction _ (h i (mem_range.mp hi) e (mem_range.mp he)) law hl gamma theta _ _ _ _
    · simp

/-- The vector of a friction law with friction coefficient zero, tested with any displacement. -/
theorem vector_zero (hY : System.Valid Y) (ops : List (Op G)) (hops : ∀ op ∈ ops, OpShaped Y.static op)
    (g : G) (l : Law) (hl : lastLaw ops none = some l) (h23 : Y.gdim = 2 ∨ Y.gdim = 3)
    (gamma theta : ℝ) (hconsts : lastConsts ops none = some (gamma, theta))
    (hc : (history Y.static ops (init Y.static g)).coeffs ≠ none) (N : ℕ) (hN : DofsBelow Y N)
    (law : Law) (u : ℕ → ℝ) :
    ∃ (s' : State G) (b : Arr ℕ),
      updateContactData Y.static (Y.du u) (history Y.static (ops.map (withLaw law)) (init Y.static g)) = .ok s'
      ∧ Y.assembleVector s' 0 = .ok b
      ∧ ∀ v : ℕ → ℝ, ∑ d ∈ range N, b d * v d = contactForm Y ((Tracked.new g).history ops) law gamma theta u v := by
  have hv := fun v : ℕ → ℝ => C114_form hY (ops.map (withLaw law)) (shaped_withLaw law hops) g law
    (lastLaw_withLaw_some hl) (fun _ => h23) gamma theta ((lastConsts_withLaw law ops none).trans hconsts) _ rfl
    (created_withLaw hY law hops g hc) N hN u v
  simp only [tracked_withLaw] at hv
  obtain ⟨s', b, h1, h2, -⟩ := hv 0
  refine ⟨s', b, h1, h2, fun v => ?_⟩
  obtain ⟨s2, b2, k1, k2, k3⟩ := hv v
  obtain rfl : s2 = s' := Except.ok.inj (k1.symm.trans h1)
  obtain rfl : b2 = b := Except.ok.inj (k2.symm.trans h2)
  exact k3

/-- C137: with friction coefficient zero, Tresca and Coulomb friction give the same vector; it is the vector
of frictionless contact minus the term `θ h / (2 γ) σ_t(u) · σ_t(v)`. -/
theorem C137_vector (hY : System.Valid Y) (ops : List (Op G)) (hops : ∀ op ∈ ops, OpShaped Y.static op)
    (g : G) (l : Law) (hl : lastLaw ops none = some l) (h23 : Y.gdim = 2 ∨ Y.gdim = 3)
    (gamma theta : ℝ) (hconsts : lastConsts ops none = some (gamma, theta))
    (hc : (history Y.static ops (init Y.static g)).coeffs ≠ none) (N : ℕ) (hN : DofsBelow Y N)
    (hz : ZeroFriction Y ((Tracked.new g).history ops)) (u : ℕ → ℝ) :
    ∃ (s : Law → State G) (b : Law → Arr ℕ),
      (∀ law, updateContactData Y.static (Y.du u) (history Y.static (ops.map (withLaw law)) (init Y.static g))
          = .ok (s law) ∧ Y.assembleVector (s law) 0 = .ok (b law))
      ∧ (∀ d < N, b .tresca d = b .coulomb d)
      ∧ ∀ v : ℕ → ℝ, ∑ d ∈ range N, b .tresca d * v d = ∑ d ∈ range N, b .frictionless d * v d
          - tangentialTerm Y ((Tracked.new g).history ops) gamma theta u v := by
  have hv := fun law : Law => vector_zero hY ops hops g l hl h23 gamma theta hconsts hc N hN law u
  choose s b h1 h2 h3 using hv
  refine ⟨s, b, fun law => ⟨h1 law, h2 law⟩, fun d hd => ?_, fun v => ?_⟩
  · have e : ∀ law, b law d = contactForm Y ((Tracked.new g).history ops) law gamma theta u
        (fun c => if c = d then 1 else 0) := fun law => by
      rw [← h3 law]; simp [hd]
    rw [e, e, contactForm_zero Y _ hz .tresca (by simp), contactForm_zero Y _ hz .coulomb (by simp)]
  · rw [h3, h3, contactForm_zero Y _ hz .tresca (by simp)]

theorem tangentialTerm_zero (Y : System G) (t : Tracked G) (gamma : ℝ) (u v : ℕ → ℝ) :
    tangentialTerm Y t gamma 0 u v = 0 := by
  unfold tangentialTerm
  refine sum_eq_zero (fun i _ => sum_eq_zero (fun e _ => ?_))
  cases (Y.facets i)[e]? with
  | none => rw [Option.elim_none]
  | some c =>
    rw [Option.elim_some]
    refine sum_eq_zero (fun q _ => ?_)
    split
    · ring
    · rfl

/-- C137: with friction coefficient zero and `theta = 0` all laws give the same vector. -/
theorem C137_frictionless (hY : System.Valid Y) (ops : List (Op G)) (hops : ∀ op ∈ ops, OpShaped Y.static op)
    (g : G) (l : Law) (hl : lastLaw ops none = some l) (h23 : Y.gdim = 2 ∨ Y.gdim = 3)
    (gamma : ℝ) (hconsts : lastConsts ops none = some (gamma, 0))
    (hc : (history Y.static ops (init Y.static g)).coeffs ≠ none) (N : ℕ) (hN : DofsBelow Y N)
    (hz : ZeroFriction Y ((Tracked.new g).history ops)) (u : ℕ → ℝ) :
    ∃ (s : Law → State G) (b : Law → Arr ℕ),
      (∀ law, updateContactData Y.static (Y.du u) (history Y.static (ops.map (withLaw law)) (init Y.static g))
          = .ok (s law) ∧ Y.assembleVector (s law) 0 = .ok (b law))
      ∧ ∀ law, ∀ d < N, b law d = b .frictionless d := by
  obtain ⟨s, b, h1, h2, h3⟩ := C137_vector hY ops hops g l hl h23 gamma 0 hconsts hc N hN hz u
  have ht : ∀ d < N, b .tresca d = b .frictionless d := by
    intro d hd
    have := h3 (fun c => if c = d then 1 else 0)
    rw [tangentialTerm_zero, sub_zero] at this
    simpa [hd] using this
  refine ⟨s, b, h1, fun law d hd => ?_⟩
  cases law with
  | frictionless => rfl
  | tresca => exact ht d hd
  | coulomb => rw [← h2 d hd]; exact ht d hd

/-- The linearised form of a point with friction coefficient zero. -/
theorem dForm_zero (p : ContactPoint) (hp : p.fric = 0) (law : Law) (hl : law ≠ .frictionless) (gamma theta : ℝ)
    (J : ℕ → ℝ) (D : ℕ → ℕ → ℝ) (K : ℕ → ℝ) (E : ℕ → ℕ → ℝ) (J' : ℕ → ℝ) (D' : ℕ → ℕ → ℝ) :
    p.dForm cutSlope law gamma theta J D K E J' D' = p.dForm cutSlope .frictionless gamma theta J D K E J' D'
      - 1 / 2 * theta * (p.h / gamma) * ∑ a ∈ range p.g, p.tang (p.trac E) a * p.tang (p.trac D') a := by
  have hcut : ∀ x y a, cutSlope p.g x 0 y a = 0 := fun x y a => by
    unfold cutSlope; rw [if_pos (by norm_num)]
  have hz : ∀ a ∈ range p.g, p.dProjected cutSlope law gamma J D K E a
      * (p.tang J' a - theta * (p.h / gamma) * p.tang (p.trac D') a) = 0 := by
    intro a _
    unfold ContactPoint.dProjected
    cases law with
    | frictionless => exact absurd rfl hl
    | tresca => dsimp only; rw [hp, mul_zero, hcut, zero_mul]
    | coulomb => dsimp only; rw [hp, zero_mul, zero_mul, hcut, mul_zero, zero_add, zero_mul]
  unfold ContactPoint.dForm
  rw [if_neg hl, if_pos rfl]
  unfold ContactPoint.dFrictionPart
  rw [sum_eq_zero hz]
  ring

/-- The linearised form with friction coefficient zero is the same for Tresca and Coulomb, and for
`theta = 0` that of frictionless contact. -/
theorem contactTangent_zero (Y : System G) (t : Tracked G) (h : ZeroFriction Y t) (law law' : Law)
    (gamma theta : ℝ) (hl : theta = 0 ∨ (law ≠ .frictionless ∧ law' ≠ .frictionless)) (u w v : ℕ → ℝ) :
    contactTangent Y t cutSlope law gamma theta u w v = contactTangent Y t cutSlope law' gamma theta u w v := by
  unfold contactTangent
  refine sum_congr rfl (fun i hi => sum_congr rfl (fun e he => ?_))
  cases hf : (Y.facets i)[e]? with
  | none => rw [Option.elim_none, Option.elim_none]
  | some c =>
    rw [Option.elim_some, Option.elim_some]
    refine sum_congr rfl (fun q _ => ?_)
    split
    · congr 1
      have hp : (pointAt Y t i e c.1 c.2 q).fric = 0 := h i (mem_range.mp hi) e (mem_range.mp he)
      rcases hl with rfl | ⟨h1, h2⟩
      · have e0 : ∀ l : Law, ∀ J D K E J' D', (pointAt Y t i e c.1 c.2 q).dForm cutSlope l gamma 0 J D K E J' D'
            = (pointAt Y t i e c.1 c.2 q).dForm cutSlope .frictionless gamma 0 J D K E J' D' := by
          intro l J D K E J' D'
          by_cases hl : l = .frictionless
          · rw [hl]
          · rw [dForm_zero _ hp l hl]; ring
        rw [e0 law, e0 law']
      · rw [dForm_zero _ hp law h1, dForm_zero _ hp law' h2]
    · rfl

/-- C137: with friction coefficient zero, Tresca and Coulomb friction give the same matrix, and for
`theta = 0` all laws do. -/
theorem C137_matrix (hY : System.Valid Y) (ops : List (Op G)) (hops : ∀ op ∈ ops, OpShaped Y.static op)
    (g : G) (l : Law) (hl : lastLaw ops none = some l) (h23 : Y.gdim = 2 ∨ Y.gdim = 3)
    (hu : UnitNormals Y ((Tracked.new g).history ops))
    (gamma theta : ℝ) (hconsts : lastConsts ops none = some (gamma, theta))
    (hc : (history Y.static ops (init Y.static g)).coeffs ≠ none) (N : ℕ) (hN : DofsBelow Y N)
    (hz : ZeroFriction Y ((Tracked.new g).history ops)) (u : ℕ → ℝ) :
    ∃ (s : Law → State G) (A : Law → Arr (ℕ × ℕ)),
      (∀ law, updateContactData Y.static (Y.du u) (history Y.static (ops.map (withLaw law)) (init Y.static g))
          = .ok (s law) ∧ Y.assembleMatrix (s law) 0 = .ok (A law))
      ∧ (∀ d < N, ∀ c < N, A .tresca (d, c) = A .coulomb (d, c))
      ∧ (theta = 0 → ∀ law, ∀ d < N, ∀ c < N, A law (d, c) = A .frictionless (d, c)) := by
  have hv := fun law : Law => C131_matrix hY (ops.map (withLaw law)) (shaped_withLaw law hops) g law
    (lastLaw_withLaw_some hl) (fun _ => ⟨h23, by rw [tracked_withLaw]; exact hu⟩) gamma theta
    ((lastConsts_withLaw law ops none).trans hconsts) _ rfl (created_withLaw hY law hops g hc) N hN u
  simp only [tracked_withLaw] at hv
  choose s A h1 h2 h3 using hv
  have key : ∀ law law', (theta = 0 ∨ (law ≠ .frictionless ∧ law' ≠ .frictionless)) →
      ∀ d < N, ∀ c < N, A law (d, c) = A law' (d, c) := by
    intro law law' h d hd c hc'
    have e : ∀ k, A k (d, c) = contactTangent Y ((Tracked.new g).history ops) cutSlope k gamma theta u
        (fun c' => if c' = c then 1 else 0) (fun d' => if d' = d then 1 else 0) := fun k => by
      rw [← h3 k]; simp [hd, hc']
    rw [e, e, contactTangent_zero Y _ hz law law' gamma theta h]
  exact ⟨s, A, fun law => ⟨h1 law, h2 law⟩, key _ _ (Or.inr ⟨by simp, by simp⟩), fun h0 law => key _ _ (Or.inl h0)⟩

/-- The hypotheses of C137 hold for a Tresca problem with yield stress zero. -/
example : System.Valid exY ∧ (∀ op ∈ exOpsBound 0, OpShaped exY.static op) ∧ lastLaw (exOpsBound 0) none = some .tresca
    ∧ exY.gdim = 2 ∧ UnitNormals exY ((Tracked.new ()).history (exOpsBound 0))
    ∧ lastConsts (exOpsBound 0) none = some (1, 0)
    ∧ (history exY.static (exOpsBound 0) (init exY.static ())).coeffs ≠ none ∧ DofsBelow exY 4
    ∧ ZeroFriction exY ((Tracked.new ()).history (exOpsBound 0)) :=
  ⟨exY_valid, exOpsBound_shaped _, rfl, rfl, exOpsBound_unit _, rfl, exOpsBound_created _, exY_below,
    fun _ _ _ _ => rfl⟩

end

end Verif.ContactProblem
