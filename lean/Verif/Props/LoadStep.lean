import Verif.Spec.LoadStep
import Verif.Props.PartitionMatrix

/-!
C138: from one load step to the next.
-/

namespace Verif.ContactProblem

open Verif.Spec Verif.Packing Verif.Assembly Verif.Entities Verif.Kernels Finset

noncomputable section

variable {G : Type} {Y : System G}

section Point

variable {p p' : ContactPoint} {J J0 J1 : ℕ → ℝ}

theorem dot_step (h : ∀ a < p.g, J1 a = J0 a + J a) : p.dot J1 = p.dot J0 + p.dot J := by
  unfold ContactPoint.dot
  rw [← sum_add_distrib]
  exact sum_congr rfl (fun a ha => by rw [h a (mem_range.mp ha)]; ring)

/-- The point after a step, with the gap of the new configuration. -/
def stepped (p : ContactPoint) (J0 old : ℕ → ℝ) : ContactPoint :=
  { p with gap := fun a => p.gap a - J0 a, oldNormal := old }

theorem stepped_gap (p : ContactPoint) (J0 old : ℕ → ℝ) :
    (stepped p J0 old).dot (stepped p J0 old).gap = p.dot p.gap - p.dot J0 := by
  show ∑ a ∈ range p.g, (p.gap a - J0 a) * p.normal a = _
  unfold ContactPoint.dot
  rw [← sum_sub_distrib]
  exact sum_congr rfl (fun a _ => by ring)

theorem stepped_pressure (gamma : ℝ) (D : ℕ → ℕ → ℝ) (old : ℕ → ℝ) (h : ∀ a < p.g, J1 a = J0 a + J a) :
    (stepped p J0 old).pressure gamma J D = p.pressure gamma J1 D := by
  unfold ContactPoint.pressure
  rw [stepped_gap, dot_step h]
  show p.dot J - (p.dot p.gap - p.dot J0) - p.h / gamma * p.dot (p.trac D) = _
  ring

theorem tang_step (h : ∀ a < p.g, J1 a = J0 a + J a) (h0 : ∀ a < p.g, p.tang J0 a = 0) {a : ℕ} (ha : a < p.g) :
    p.tang J a = p.tang J1 a := by
  have := h0 a ha
  unfold ContactPoint.tang at this ⊢
  rw [dot_step h, h a ha]
  linarith

theorem stepped_trial (law : Law) (gamma : ℝ) (D : ℕ → ℕ → ℝ) (old : ℕ → ℝ) (h : ∀ a < p.g, J1 a = J0 a + J a)
    (h0 : law ≠ .frictionless → ∀ a < p.g, p.tang J0 a = 0)
    (hold : law = .coulomb → ∀ a < p.g, p.tang old a = p.tang p.oldNormal a) {a : ℕ} (ha : a < p.g) :
    (stepped p J0 old).trial law gamma J D a = p.trial law gamma J1 D a := by
  have hs : law ≠ .frictionless → (stepped p J0 old).slip gamma J D a = p.slip gamma J1 D a := by
    intro hl
    show p.tang J a - p.h / gamma * p.tang (p.trac D) a = p.tang J1 a - p.h / gamma * p.tang (p.trac D) a
    rw [tang_step h (h0 hl) ha]
  unfold ContactPoint.trial
  cases law with
  | frictionless => rfl
  | tresca => exact hs (by simp)
  | coulomb =>
    dsimp only
    rw [hs (by simp), stepped_gap]
    show _ - (p.dot p.gap - p.dot J0 - p.dot J) * p.tang old a = _
    rw [dot_step h, hold rfl a ha]
    ring

theorem projected_trial (p : ContactPoint) (law : Law) (gamma : ℝ) (J : ℕ → ℝ) (D : ℕ → ℕ → ℝ) (hl : law ≠ .frictionless) :
    p.projected law gamma J D = ball p.g (p.trial law gamma J D) (p.bound law gamma J D) := by
  cases law with
  | frictionless => exact absurd rfl hl
  | tresca => rfl
  | coulomb => rfl

theorem stepped_bound (law : Law) (gamma : ℝ) (D : ℕ → ℕ → ℝ) (old : ℕ → ℝ) (h : ∀ a < p.g, J1 a = J0 a + J a) :
    (stepped p J0 old).bound law gamma J D = p.bound law gamma J1 D := by
  cases law with
  | frictionless => rfl
  | tresca => rfl
  | coulomb =>
    show p.fric * max 0 ((stepped p J0 old).pressure gamma J D) = p.fric * max 0 (p.pressure gamma J1 D)
    rw [stepped_pressure gamma D old h]

theorem stepped_form (law : Law) (gamma theta : ℝ) (D : ℕ → ℕ → ℝ) (old : ℕ → ℝ) (h : ∀ a < p.g, J1 a = J0 a + J a)
    (h0 : law ≠ .frictionless → ∀ a < p.g, p.tang J0 a = 0)
    (hold : law = .coulomb → ∀ a < p.g, p.tang old a = p.tang p.oldNormal a) (J' : ℕ → ℝ) (D' : ℕ → ℕ → ℝ) :
    (stepped p J0 old).form law gamma theta J D J' D' = p.form law gamma theta J1 D J' D' := by
  unfold ContactPoint.form
  congr 1
  · unfold ContactPoint.normalPart
    rw [stepped_pressure gamma D old h]
    rfl
  · by_cases hl : law = .frictionless
    · rw [if_pos hl, if_pos hl]
    · rw [if_neg hl, if_neg hl]
      unfold ContactPoint.frictionPart
      rw [projected_trial _ law gamma J D hl, projected_trial _ law gamma J1 D hl, stepped_bound law gamma D old h]
      congr 1
      show 1 / 2 * (gamma / p.h) * ∑ a ∈ range p.g, ball p.g ((stepped p J0 old).trial law gamma J D)
        (p.bound law gamma J1 D) a * (p.tang J' a - theta * (p.h / gamma) * p.tang (p.trac D') a) = _
      congr 1
      refine sum_congr rfl (fun a ha => ?_)
      rw [ball_congr _ (fun a ha => stepped_trial law gamma D old h h0 hold ha) (mem_range.mp ha)]

theorem stepped_dForm (law : Law) (gamma theta : ℝ) (D : ℕ → ℕ → ℝ) (old : ℕ → ℝ) (h : ∀ a < p.g, J1 a = J0 a + J a)
    (h0 : law ≠ .frictionless → ∀ a < p.g, p.tang J0 a = 0)
    (hold : law = .coulomb → ∀ a < p.g, p.tang old a = p.tang p.oldNormal a) (K : ℕ → ℝ) (E : ℕ → ℕ → ℝ)
    (J' : ℕ → ℝ) (D' : ℕ → ℕ → ℝ) :
    (stepped p J0 old).dForm cutSlope law gamma theta J D K E J' D'
      = p.dForm cutSlope law gamma theta J1 D K E J' D' := by
  have hP := stepped_pressure (p := p) gamma D old h
  unfold ContactPoint.dForm
  congr 1
  · unfold ContactPoint.dNormalPart
    rw [hP]
    rfl
  · by_cases hl : law = .frictionless
    · rw [if_pos hl, if_pos hl]
    · rw [if_neg hl, if_neg hl]
      unfold ContactPoint.dFrictionPart
      congr 1
      show 1 / 2 * (gamma / p.h) * ∑ a ∈ range p.g, (stepped p J0 old).dProjected cutSlope law gamma J D K E a
        * (p.tang J' a - theta * (p.h / gamma) * p.tang (p.trac D') a) = _
      congr 1
      refine sum_congr rfl (fun a ha => ?_)
      have ha' := mem_range.mp ha
      have ht := fun a (ha : a < p.g) => stepped_trial law gamma D old h h0 hold ha
      congr 1
      cases law with
      | frictionless => exact absurd rfl hl
      | tresca => exact cutSlope_congr ht rfl (fun _ _ => rfl) ha'
      | coulomb =>
        unfold ContactPoint.dProjected
        dsimp only
        rw [hP]
        congr 1
        · refine cutSlope_congr ht rfl (fun b hb => ?_) ha'
          show p.slip gamma K E b + p.dot K * p.tang old b = _
          rw [hold rfl b hb]
        · have e : ballRadiusSlope p.g ((stepped p J0 old).trial .coulomb gamma J D)
              (p.fric * max 0 (p.pressure gamma J1 D)) a
              = ballRadiusSlope p.g (p.trial .coulomb gamma J1 D) (p.fric * max 0 (p.pressure gamma J1 D)) a :=
            ballRadiusSlope_congr ht rfl ha'
          exact congrArg (fun x => x * (p.fric * (step (p.pressure gamma J1 D) * p.dPressure gamma K E))) e

end Point

theorem jumpAt_plus (g : G) (i e cell f : ℕ) (u w : ℕ → ℝ) (q a : ℕ) :
    jumpAt Y g i e cell f (fun d => u d + w d) q a = jumpAt Y g i e cell f u q a + jumpAt Y g i e cell f w q a := by
  have := jumpAt_line (Y := Y) g i e cell f u w q a 1
  simpa only [one_mul] using this

theorem gradAt_plus (cell f : ℕ) (u w : ℕ → ℝ) (q a b : ℕ) :
    gradAt Y cell f (fun d => u d + w d) q a b = gradAt Y cell f u q a b + gradAt Y cell f w q a b := by
  have := gradAt_line (Y := Y) cell f u w q a b 1
  simpa only [one_mul] using this

/-- The packed gradient of `U`. -/
theorem packGrad_gradAt (hY : System.Valid Y) (U : ℕ → ℝ) {i e cell f : ℕ} (hf : (Y.facets i)[e]? = some (cell, f))
    {q a b : ℕ} (hq : q < Y.nq) (ha : a < Y.gdim) (hb : b < Y.gdim) :
    (Y.packGrad U i).v e ((q * Y.gdim + a) * Y.gdim + b) = gradAt Y cell f U q a b := by
  obtain ⟨he, hfe⟩ := List.getElem?_eq_some_iff.mp hf
  rw [(packGrad_eq hY U i).2.2 e he q hq a ha b hb, hfe]
  rfl

/-- The calls of a load step do not change law and parameters. -/
theorem lastLaw_detection (ops : List (Op G)) (move : G → G) (m : ℕ → Mat) (l : Option Law) :
    lastLaw (ops ++ [.updateDetection move m]) l = lastLaw ops l := by
  induction ops generalizing l with
  | nil => rfl
  | cons o ops ih => cases o <;> exact ih _

theorem lastConsts_detection (ops : List (Op G)) (move : G → G) (m : ℕ → Mat) (l : Option (ℝ × ℝ)) :
    lastConsts (ops ++ [.updateDetection move m]) l = lastConsts ops l := by
  induction ops generalizing l with
  | nil => rfl
  | cons o ops ih => cases o <;> exact ih _

theorem tracked_detection (ops : List (Op G)) (move : G → G) (m : ℕ → Mat) (t : Tracked G)
    (hc : (t.history ops).created = true) :
    t.history (ops ++ [.updateDetection move m])
      = { t.history ops with cur := move (t.history ops).cur, prev := (t.history ops).cur, gradU := vals m } := by
  unfold Tracked.history at hc ⊢
  rw [List.foldl_append]
  show (ops.foldl Tracked.call t).call (.updateDetection move m) = _
  exact if_pos hc

section Step

variable {t t' : Tracked G} {U w : ℕ → ℝ}

/-- What has changed at a linked point. -/
theorem step_point (hY : System.Valid Y) (hS : SameContact Y t.cur t'.cur w) (hR : Remembers Y t U)
    (ht' : t' = { t with cur := t'.cur, prev := t.cur, gradU := vals (Y.packGrad (fun d => U d + w d)) })
    {i e cell f q : ℕ} (hi : i < Y.numPairs) (he : e < Y.localFacets i) (hf : (Y.facets i)[e]? = some (cell, f))
    (hq : q < Y.nq) (hl : 0 ≤ Y.map t.cur i (e * Y.nq + q)) :
    SamePoint (pointAt Y t' i e cell f q)
      (stepped (pointAt Y t i e cell f q) (jumpAt Y t.cur i e cell f w q) (contactNormalAt Y t.cur i e q))
    ∧ (∀ (v : ℕ → ℝ) (a : ℕ), jumpAt Y t'.cur i e cell f v q a = jumpAt Y t.cur i e cell f v q a)
    ∧ ∀ v : ℕ → ℝ, ∀ a < Y.gdim, ∀ b < Y.gdim,
      gradAt Y cell f v q a b + (pointAt Y t' i e cell f q).grad0 a b
      = gradAt Y cell f (fun d => w d + v d) q a b + (pointAt Y t i e cell f q).grad0 a b := by
  have e1 : t'.mu = t.mu := by rw [ht']
  have e2 : t'.lam = t.lam := by rw [ht']
  have e3 : t'.fric = t.fric := by rw [ht']
  have e4 : t'.h = t.h := by rw [ht']
  have e5 : t'.prev = t.cur := by rw [ht']
  have e6 : t'.gradU = vals (Y.packGrad (fun d => U d + w d)) := by rw [ht']
  refine ⟨⟨rfl, ?_, ?_, ?_, ?_, ?_, ?_, ?_, ?_⟩, ?_, ?_⟩
  · show t'.mu i e 0 = t.mu i e 0
    rw [e1]
  · show t'.lam i e 0 = t.lam i e 0
    rw [e2]
  · show t'.fric i e 0 = t.fric i e 0
    rw [e3]
  · show t'.h i e 0 = t.h i e 0
    rw [e4]
  · intro a ha
    exact hS.normal i hi e he q hq hl a ha
  · intro a _
    show contactNormalAt Y t'.prev i e q a = contactNormalAt Y t.cur i e q a
    rw [e5]
  · intro a ha
    exact hS.gap i hi e he cell f hf q hq hl a ha
  · intro a _
    rfl
  · intro v a
    unfold jumpAt oppositeAt
    congr 1
    refine sum_congr rfl (fun k hk => ?_)
    rw [hS.map i hi e he q hq, hS.basis i hi e he q hq hl k (mem_range.mp hk)]
  · intro v a ha b hb
    show gradAt Y cell f v q a b + t'.gradU i e ((q * Y.gdim + a) * Y.gdim + b)
      = gradAt Y cell f (fun d => w d + v d) q a b + t.gradU i e ((q * Y.gdim + a) * Y.gdim + b)
    rw [hR i hi e he cell f hf q hq a ha b hb, e6]
    show gradAt Y cell f v q a b + (Y.packGrad _ i).v e _ = _
    rw [packGrad_gradAt hY _ hf hq ha hb, gradAt_plus, gradAt_plus]
    ring

/-- The old normals after the step have no tangential part. -/
theorem step_old (hu : UnitNormals Y t) (ho : SameOldNormals Y t) {i e cell f q : ℕ} (hi : i < Y.numPairs)
    (he : e < Y.localFacets i) (hq : q < Y.nq) (hl : 0 ≤ Y.map t.cur i (e * Y.nq + q)) {a : ℕ} (ha : a < Y.gdim) :
    (pointAt Y t i e cell f q).tang (contactNormalAt Y t.cur i e q) a
      = (pointAt Y t i e cell f q).tang (pointAt Y t i e cell f q).oldNormal a := by
  have h : ∀ a < Y.gdim, contactNormalAt Y t.prev i e q a = contactNormalAt Y t.cur i e q a :=
    ho i hi e he q hq hl
  unfold ContactPoint.tang ContactPoint.dot
  show _ = contactNormalAt Y t.prev i e q a - (∑ a ∈ range Y.gdim, contactNormalAt Y t.prev i e q a * _) * _
  rw [h a ha]
  congr 2
  exact sum_congr rfl (fun b hb => by rw [h b (mem_range.mp hb)])

/-- The form at increment `v` after the step is the form at `w + v` before. -/
theorem contactForm_step (hY : System.Valid Y) (hS : SameContact Y t.cur t'.cur w) (hR : Remembers Y t U)
    (ht' : t' = { t with cur := t'.cur, prev := t.cur, gradU := vals (Y.packGrad (fun d => U d + w d)) })
    (law : Law) (hns : law ≠ .frictionless → NoSliding Y t w)
    (hold : law = .coulomb → UnitNormals Y t ∧ SameOldNormals Y t) (gamma theta : ℝ) (v x : ℕ → ℝ) :
    contactForm Y t' law gamma theta v x = contactForm Y t law gamma theta (fun d => w d + v d) x := by
  unfold contactForm
  refine sum_congr rfl (fun i hi => sum_congr rfl (fun e he => ?_))
  have hi' := mem_range.mp hi
  have he' := mem_range.mp he
  cases hf : (Y.facets i)[e]? with
  | none => rw [Option.elim_none, Option.elim_none]
  | some c =>
    obtain ⟨cell, f⟩ := c
    rw [Option.elim_some, Option.elim_some]
    refine sum_congr rfl (fun q hq => ?_)
    have hq' := mem_range.mp hq
    rw [hS.map i hi' e he' q hq']
    split
    · rename_i hl
      obtain ⟨P, h1, h2⟩ := step_point hY hS hR ht' hi' he' hf hq' hl
      dsimp only
      congr 1
      rw [P.form law gamma theta (K := jumpAt Y t.cur i e cell f v q)
        (E := fun a b => gradAt Y cell f (fun d => w d + v d) q a b + (pointAt Y t i e cell f q).grad0 a b)
        (K' := jumpAt Y t.cur i e cell f x q) (E' := gradAt Y cell f x q)
        (fun a _ => h1 v a) (fun a ha b hb => h2 v a ha b hb) (fun a _ => h1 x a) (fun _ _ _ _ => rfl)]
      exact stepped_form law gamma theta _ _ (fun a _ => jumpAt_plus _ _ _ _ _ _ _ _ _)
        (fun h a ha => hns h i hi' e he' cell f hf q hq' hl a ha)
        (fun h a ha => step_old (hold h).1 (hold h).2 hi' he' hq' hl ha) _ _
    · rfl

theorem contactTangent_step (hY : System.Valid Y) (hS : SameContact Y t.cur t'.cur w) (hR : Remembers Y t U)
    (ht' : t' = { t with cur := t'.cur, prev := t.cur, gradU := vals (Y.packGrad (fun d => U d + w d)) })
    (law : Law) (hns : law ≠ .frictionless → NoSliding Y t w)
    (hold : law = .coulomb → UnitNormals Y t ∧ SameOldNormals Y t) (gamma theta : ℝ) (v z x : ℕ → ℝ) :
    contactTangent Y t' cutSlope law gamma theta v z x
      = contactTangent Y t cutSlope law gamma theta (fun d => w d + v d) z x := by
  unfold contactTangent
  refine sum_congr rfl (fun i hi => sum_congr rfl (fun e he => ?_))
  have hi' := mem_range.mp hi
  have he' := mem_range.mp he
  cases hf : (Y.facets i)[e]? with
  | none => rw [Option.elim_none, Option.elim_none]
  | some c =>
    obtain ⟨cell, f⟩ := c
    rw [Option.elim_some, Option.elim_some]
    refine sum_congr rfl (fun q hq => ?_)
    have hq' := mem_range.mp hq
    rw [hS.map i hi' e he' q hq']
    split
    · rename_i hl
      obtain ⟨P, h1, h2⟩ := step_point hY hS hR ht' hi' he' hf hq' hl
      dsimp only
      congr 1
      rw [P.dForm law gamma theta (K := jumpAt Y t.cur i e cell f v q)
        (E := fun a b => gradAt Y cell f (fun d => w d + v d) q a b + (pointAt Y t i e cell f q).grad0 a b)
        (K1 := jumpAt Y t.cur i e cell f z q) (E1 := gradAt Y cell f z q)
        (K2 := jumpAt Y t.cur i e cell f x q) (E2 := gradAt Y cell f x q)
        (fun a _ => h1 v a) (fun a ha b hb => h2 v a ha b hb) (fun a _ => h1 z a) (fun _ _ _ _ => rfl)
        (fun a _ => h1 x a) (fun _ _ _ _ => rfl)]
      exact stepped_dForm law gamma theta _ _ (fun a _ => jumpAt_plus _ _ _ _ _ _ _ _ _)
        (fun h a ha => hns h i hi' e he' cell f hf q hq' hl a ha)
        (fun h a ha => step_old (hold h).1 (hold h).2 hi' he' hq' hl ha) _ _ _ _
    · rfl

end Step

/-- C138: the next load step goes on where the last one ended. After any history of calls, with total
displacement `U` up to the last detection and an increment `w` since, `update_contact_detection(U + w)`
changes the meaning of the displacement from "increment to `U`" to "increment to `U + w`" and nothing else:
for every further increment `v` the contact vector and the contact matrix at `v` after the call are those
at `w + v` before it, if the search finds the same contact points and normals. With friction, if no linked
point slid in the step (friction counts the slip from the last detection). -/
theorem C138_step (hY : System.Valid Y) (ops : List (Op G)) (hops : ∀ op ∈ ops, OpShaped Y.static op)
    (g : G) (law : Law) (hlaw : lastLaw ops none = some law)
    (h23 : law ≠ .frictionless → (Y.gdim = 2 ∨ Y.gdim = 3) ∧ UnitNormals Y ((Tracked.new g).history ops))
    (gamma theta : ℝ) (hconsts : lastConsts ops none = some (gamma, theta))
    (hc : (history Y.static ops (init Y.static g)).coeffs ≠ none)
    (N : ℕ) (hN : DofsBelow Y N) (U w : ℕ → ℝ) (move : G → G)
    (hS : SameContact Y ((Tracked.new g).history ops).cur (move ((Tracked.new g).history ops).cur) w)
    (hR : Remembers Y ((Tracked.new g).history ops) U)
    (hns : law ≠ .frictionless → NoSliding Y ((Tracked.new g).history ops) w)
    (hold : law = .coulomb → SameOldNormals Y ((Tracked.new g).history ops)) (v : ℕ → ℝ) :
    ∃ (s s' : State G) (b b' : Arr ℕ) (A A' : Arr (ℕ × ℕ)),
      updateContactData Y.static (Y.du (fun d => w d + v d)) (history Y.static ops (init Y.static g)) = .ok s
      ∧ Y.assembleVector s 0 = .ok b ∧ Y.assembleMatrix s 0 = .ok A
      ∧ updateContactData Y.static (Y.du v) (history Y.static
          (ops ++ [.updateDetection move (Y.packGrad (fun d => U d + w d))]) (init Y.static g)) = .ok s'
      ∧ Y.assembleVector s' 0 = .ok b' ∧ Y.assembleMatrix s' 0 = .ok A'
      ∧ (∀ d < N, b' d = b d) ∧ ∀ d < N, ∀ c < N, A' (d, c) = A (d, c) := by
  obtain ⟨ops', hops'⟩ : ∃ o, o = ops ++ [.updateDetection move (Y.packGrad (fun d => U d + w d))] := ⟨_, rfl⟩
  have hcr : ((Tracked.new g).history ops).created = true := by
    rcases C38_size (static_shaped hY) ops hops g with ⟨-, h⟩ | ⟨h, -⟩
    · exact absurd h hc
    · exact h
  have ht := tracked_detection ops move (Y.packGrad (fun d => U d + w d)) (Tracked.new g) hcr
  rw [← hops'] at ht ⊢
  have hsh : ∀ op ∈ ops', OpShaped Y.static op := by
    intro op hop
    rw [hops', List.mem_append] at hop
    rcases hop with h | h
    · exact hops op h
    · rw [List.mem_singleton.mp h]
      exact fun i hi => (du_shaped hY (fun d => U d + w d)).grad i hi
  have hc' : (history Y.static ops' (init Y.static g)).coeffs ≠ none := by
    rcases C38_size (static_shaped hY) ops' hsh g with ⟨h, -⟩ | ⟨-, cs, h, -⟩
    · rw [ht] at h; rw [hcr] at h; cases h
    · rw [h]; simp
  obtain ⟨t, htd⟩ : ∃ t, t = (Tracked.new g).history ops := ⟨_, rfl⟩
  obtain ⟨t', htd'⟩ : ∃ t', t' = (Tracked.new g).history ops' := ⟨_, rfl⟩
  rw [← htd, ← htd'] at ht
  rw [← htd] at h23 hS hR hns hold
  have hcur : t'.cur = move t.cur := by rw [ht]
  rw [← hcur] at hS
  have ht2 : t' = { t with cur := t'.cur, prev := t.cur, gradU := vals (Y.packGrad (fun d => U d + w d)) } := by
    rw [hcur]; exact ht
  have hu' : law ≠ .frictionless → UnitNormals Y t' := by
    intro hl i hi e he q hq hlink
    rw [hS.map i hi e he q hq] at hlink
    rw [← (h23 hl).2 i hi e he q hq hlink]
    exact sum_congr rfl (fun a ha => by rw [hS.normal i hi e he q hq hlink a (mem_range.mp ha)])
  have hv := fun x : ℕ → ℝ => C114_form hY ops hops g law hlaw (fun h => (h23 h).1) gamma theta hconsts _ rfl hc N hN
    (fun d => w d + v d) x
  have hv' := fun x : ℕ → ℝ => C114_form hY ops' hsh g law
    (by rw [hops', lastLaw_detection]; exact hlaw) (fun h => (h23 h).1) gamma theta
    (by rw [hops', lastConsts_detection]; exact hconsts) _ rfl hc' N hN v x
  obtain ⟨s, A, a1, a2, a3⟩ := C131_matrix hY ops hops g law hlaw (fun h => ⟨(h23 h).1, by rw [← htd]; exact (h23 h).2⟩)
    gamma theta hconsts _ rfl hc N hN (fun d => w d + v d)
  obtain ⟨s', A', a1', a2', a3'⟩ := C131_matrix hY ops' hsh g law
    (by rw [hops', lastLaw_detection]; exact hlaw) (fun h => ⟨(h23 h).1, by rw [← htd']; exact hu' h⟩) gamma theta
    (by rw [hops', lastConsts_detection]; exact hconsts) _ rfl hc' N hN v
  obtain ⟨s2, b, b1, b2, -⟩ := hv 0
  obtain rfl : s2 = s := Except.ok.inj (b1.symm.trans a1)
  obtain ⟨s2', b', b1', b2', -⟩ := hv' 0
  obtain rfl : s2' = s' := Except.ok.inj (b1'.symm.trans a1')
  refine ⟨s2, s2', b, b', A, A', a1, b2, a2, a1', b2', a2', fun d hd => ?_, fun d hd c hc'' => ?_⟩
  · obtain ⟨δ, hδ⟩ : ∃ δ : ℕ → ℝ, δ = fun c => if c = d then 1 else 0 := ⟨_, rfl⟩
    obtain ⟨s3, b3, c1, c2, c3⟩ := hv δ
    obtain rfl : s3 = s2 := Except.ok.inj (c1.symm.trans a1)
    obtain rfl : b3 = b := Except.ok.inj (c2.symm.trans b2)
    obtain ⟨s3', b3', c1', c2', c3'⟩ := hv' δ
    obtain rfl : s3' = s2' := Except.ok.inj (c1'.symm.trans a1')
    obtain rfl : b3' = b' := Except.ok.inj (c2'.symm.trans b2')
    rw [← htd] at c3
    rw [← htd', contactForm_step hY hS hR ht2 law hns (fun h => ⟨(h23 (by rw [h]; simp)).2, hold h⟩), ← c3] at c3'
    rw [hδ] at c3'
    simpa [hd] using c3'
  · have e1 := a3 (fun c' => if c' = c then 1 else 0) (fun d' => if d' = d then 1 else 0)
    have e2 := a3' (fun c' => if c' = c then 1 else 0) (fun d' => if d' = d then 1 else 0)
    rw [← htd] at e1
    rw [← htd', contactTangent_step hY hS hR ht2 law hns (fun h => ⟨(h23 (by rw [h]; simp)).2, hold h⟩), ← e1] at e2
    simpa [hd, hc''] using e2

/-- Two cells in contact; geometry `h` is the opposite cell lifted by `h`. -/
def exMoving : System ℝ where
  numPairs := 1
  nq := 1
  nd := 1
  gdim := 2
  tdim := 2
  cell := .triangle
  affine := true
  off := fun _ => 0
  phi := fun _ _ => 1
  dphi := fun k _ _ => k + 1
  weights := fun _ _ => 1
  nref := fun _ j => if j = 1 then 1 else 0
  geo := ⟨1, fun _ => 1, fun _ _ => 0⟩
  cphi := fun _ _ _ => 1
  inv := fun _ k b => if k = b then 1 else 0
  det := fun _ _ => 1
  facets := fun _ => [(0, 2)]
  localFacets := fun _ => 1
  map := fun _ _ _ => 0
  subCell := fun _ => 0
  space := ⟨1, 1, 2, fun c _ => c, fun c _ => c, fun _ => 1⟩
  basis := fun _ _ _ _ => 1
  raytracing := fun _ => false
  gap := fun h _ => ⟨1, 2, fun _ m => if m = 1 then 2 + h else 0⟩
  nx := fun _ _ => ⟨1, 2, fun _ m => if m = 1 then -1 else 0⟩
  ny := fun _ _ => ⟨1, 2, fun _ m => if m = 1 then 1 else 0⟩

/-- Coulomb friction. -/
def exMovingOps : List (Op ℝ) :=
  [.generate ⟨.coulomb, some (fun _ => ⟨1, 1, fun _ _ => 3⟩), some (fun _ => ⟨1, 1, fun _ _ => 5⟩),
    some (fun _ => ⟨1, 1, fun _ _ => 1⟩), none, none, fun _ => ⟨1, 1, fun _ _ => 1⟩, 1, 1⟩]

/-- Lift the opposite cell by one. -/
def exLift (d : ℕ) : ℝ := if d = 3 then 1 else 0

theorem exMoving_valid : System.Valid exMoving where
  pairs := by decide
  dim := by decide
  points := by decide
  cell := by simp [exMoving]
  loc := by simp [exMoving]
  gap := by simp [exMoving]
  nx := by simp [exMoving]
  ny := by simp [exMoving]
  space := ⟨rfl, rfl⟩
  search := by simp [exMoving]
  cells := by simp [exMoving]
  shared := by simp [exMoving]
  affine := by simp [exMoving]

theorem exMoving_jump (g : ℝ) (i e f q a : ℕ) (ha : a < 2) :
    jumpAt exMoving g i e 0 f exLift q a = if a = 1 then -1 else 0 := by
  rcases (show a = 0 ∨ a = 1 by omega) with rfl | rfl <;> simp [jumpAt, valueAt, oppositeAt, exMoving, exLift]

/-- The hypotheses of C138 hold: Coulomb friction, the opposite cell is lifted by one. -/
example : System.Valid exMoving ∧ (∀ op ∈ exMovingOps, OpShaped exMoving.static op)
    ∧ lastLaw exMovingOps none = some .coulomb ∧ exMoving.gdim = 2
    ∧ UnitNormals exMoving ((Tracked.new 0).history exMovingOps) ∧ lastConsts exMovingOps none = some (1, 1)
    ∧ (history exMoving.static exMovingOps (init exMoving.static 0)).coeffs ≠ none ∧ DofsBelow exMoving 4
    ∧ SameContact exMoving ((Tracked.new 0).history exMovingOps).cur (((Tracked.new 0).history exMovingOps).cur + 1) exLift
    ∧ Remembers exMoving ((Tracked.new 0).history exMovingOps) 0
    ∧ NoSliding exMoving ((Tracked.new 0).history exMovingOps) exLift
    ∧ SameOldNormals exMoving ((Tracked.new 0).history exMovingOps) := by
  have hsh : ∀ op ∈ exMovingOps, OpShaped exMoving.static op := by
    simp [exMovingOps, OpShaped, ScalarShaped, System.static, exMoving]
  have hfac : ∀ {i e cell f : ℕ}, (exMoving.facets i)[e]? = some (cell, f) → cell = 0 ∧ f = 2 := by
    intro i e cell f h
    have h' : ([(0, 2)] : List (ℕ × ℕ))[e]? = some (cell, f) := h
    obtain ⟨h1, h2⟩ := List.getElem?_eq_some_iff.mp h'
    have : e = 0 := by simpa using h1
    subst this
    simpa [eq_comm] using h2
  refine ⟨exMoving_valid, hsh, rfl, rfl, ?_, rfl, ?_, ?_, ?_, ?_, ?_, ?_⟩
  · intro i hi e he q hq _
    have h3 : q < 1 := hq
    obtain rfl : q = 0 := by omega
    simp [exMoving, contactNormalAt, sum_range_succ]
  · rcases C38_size (static_shaped exMoving_valid) _ hsh 0 with ⟨h, -⟩ | ⟨-, cs, h, -⟩
    · simp [exMovingOps, Tracked.history, Tracked.call] at h
    · rw [h]; simp
  · refine ⟨?_, ?_⟩ <;> simp [exMoving]
  · refine ⟨fun _ _ _ _ _ _ => rfl, fun _ _ _ _ _ _ _ _ _ => rfl, fun _ _ _ _ _ _ _ _ _ => rfl, ?_⟩
    intro i _ e _ cell f hf q hq _ a ha
    obtain ⟨rfl, rfl⟩ := hfac hf
    have h3 : q < 1 := hq
    obtain rfl : q = 0 := by omega
    rw [exMoving_jump _ _ _ _ _ _ ha]
    rcases (show a = 0 ∨ a = 1 by have : a < 2 := ha; omega) with rfl | rfl
    · simp [exMoving]
    · simp [exMoving]; ring
  · intro i _ e _ cell f hf q _ a _ b _
    simp [exMovingOps, Tracked.history, Tracked.call, gradAt]
  · intro i _ e _ cell f hf q hq _ a ha
    obtain ⟨rfl, rfl⟩ := hfac hf
    have h3 : q < 1 := hq
    obtain rfl : q = 0 := by omega
    unfold ContactPoint.tang ContactPoint.dot
    show jumpAt exMoving _ i e 0 2 exLift 0 a - (∑ b ∈ range 2, jumpAt exMoving _ i e 0 2 exLift 0 b * _) * _ = 0
    rw [sum_range_succ, sum_range_one, exMoving_jump _ _ _ _ _ _ ha, exMoving_jump _ _ _ _ _ _ (by norm_num),
      exMoving_jump _ _ _ _ _ _ (by norm_num)]
    rcases (show a = 0 ∨ a = 1 by have : a < 2 := ha; omega) with rfl | rfl <;>
      simp [pointAt, contactNormalAt, exMoving]
  · intro i _ e _ q _ _ a _
    rfl

end

end Verif.ContactProblem
