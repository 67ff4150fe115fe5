import Verif.Props.System
import Verif.Spec.Partition

/-!
Property C130: the contact vector does not depend on how the problem is distributed.
-/

namespace Verif.ContactProblem

open Verif.Spec Verif.Packing Verif.Assembly Verif.Kernels Finset

noncomputable section

variable {G : Type}

/-! ### the form depends on the components of its arguments only -/

/-- The data of two points agree. -/
structure SamePoint (p p' : ContactPoint) : Prop where
  g : p.g = p'.g
  mu : p.mu = p'.mu
  lam : p.lam = p'.lam
  fric : p.fric = p'.fric
  h : p.h = p'.h
  normal : ∀ a < p'.g, p.normal a = p'.normal a
  oldNormal : ∀ a < p'.g, p.oldNormal a = p'.oldNormal a
  gap : ∀ a < p'.g, p.gap a = p'.gap a
  nPhys : ∀ a < p'.g, p.nPhys a = p'.nPhys a

theorem SamePoint.dot {p p' : ContactPoint} (S : SamePoint p p') {x x' : ℕ → ℝ} (h : ∀ a < p'.g, x a = x' a) :
    p.dot x = p'.dot x' := by
  unfold ContactPoint.dot
  rw [S.g]
  exact sum_congr rfl (fun a ha => by rw [h a (mem_range.mp ha), S.normal a (mem_range.mp ha)])

theorem SamePoint.tang {p p' : ContactPoint} (S : SamePoint p p') {x x' : ℕ → ℝ} (h : ∀ a < p'.g, x a = x' a) :
    ∀ a < p'.g, p.tang x a = p'.tang x' a := by
  intro a ha
  rw [ContactPoint.tang, ContactPoint.tang, S.dot h, h a ha, S.normal a ha]

theorem SamePoint.trac {p p' : ContactPoint} (S : SamePoint p p') {D D' : ℕ → ℕ → ℝ}
    (h : ∀ a < p'.g, ∀ b < p'.g, D a b = D' a b) : ∀ a < p'.g, p.trac D a = p'.trac D' a := by
  intro a ha
  unfold ContactPoint.trac
  rw [S.g, S.mu, S.lam, Elasticity.traction_eq _ _ _ _ _ _ ha, Elasticity.traction_eq _ _ _ _ _ _ ha]
  have e1 : ∑ j ∈ range p'.g, D j j = ∑ j ∈ range p'.g, D' j j :=
    sum_congr rfl (fun j hj => h j (mem_range.mp hj) j (mem_range.mp hj))
  rw [e1, S.nPhys a ha]
  congr 1
  refine sum_congr rfl (fun j hj => ?_)
  rw [h _ (mem_range.mp hj) _ ha, h _ ha _ (mem_range.mp hj), S.nPhys j (mem_range.mp hj)]

theorem SamePoint.form {p p' : ContactPoint} (S : SamePoint p p') (law : Law) (gamma theta : ℝ) {J K J' K' : ℕ → ℝ}
    {D E D' E' : ℕ → ℕ → ℝ} (hJ : ∀ a < p'.g, J a = K a) (hD : ∀ a < p'.g, ∀ b < p'.g, D a b = E a b)
    (hJ' : ∀ a < p'.g, J' a = K' a) (hD' : ∀ a < p'.g, ∀ b < p'.g, D' a b = E' a b) :
    p.form law gamma theta J D J' D' = p'.form law gamma theta K E K' E' := by
  have hT := S.trac hD
  have hT' := S.trac hD'
  have hP : p.pressure gamma J D = p'.pressure gamma K E := by
    rw [ContactPoint.pressure, ContactPoint.pressure, S.dot hJ, S.dot S.gap, S.dot hT, S.h]
  have hs : ∀ a < p'.g, p.slip gamma J D a = p'.slip gamma K E a := by
    intro a ha
    rw [ContactPoint.slip, ContactPoint.slip, S.tang hJ a ha, S.tang hT a ha, S.h]
  have hp : ∀ a < p'.g, p.projected law gamma J D a = p'.projected law gamma K E a := by
    intro a ha
    cases law with
    | frictionless => rfl
    | tresca =>
      simp only [ContactPoint.projected]
      rw [S.g, S.h, S.fric]
      exact ball_congr _ hs ha
    | coulomb =>
      simp only [ContactPoint.projected]
      rw [S.g, hP, S.fric, S.dot S.gap, S.dot hJ]
      exact ball_congr _ (fun b hb => by rw [hs b hb, S.tang S.oldNormal b hb]) ha
  have n : p.normalPart gamma theta J D J' D' = p'.normalPart gamma theta K E K' E' := by
    rw [ContactPoint.normalPart, ContactPoint.normalPart, hP, S.dot hJ', S.dot hT', S.dot hT, S.h]
  have f : p.frictionPart law gamma theta J D J' D' = p'.frictionPart law gamma theta K E K' E' := by
    rw [ContactPoint.frictionPart, ContactPoint.frictionPart, S.h, S.g]
    congr 1
    · refine congrArg _ (sum_congr rfl (fun a ha => ?_))
      rw [hp a (mem_range.mp ha), S.tang hJ' a (mem_range.mp ha), S.tang hT' a (mem_range.mp ha)]
    · refine congrArg _ (sum_congr rfl (fun a ha => ?_))
      rw [S.tang hT a (mem_range.mp ha), S.tang hT' a (mem_range.mp ha)]
  rw [ContactPoint.form, ContactPoint.form, n, f]

/-! ### the tracked data -/

/-- What the form reads of the tracked data agrees. -/
structure SameTracked (np : ℕ) (loc : ℕ → ℕ) (facet : ℕ → ℕ → ℕ) (n : ℕ) (t t' : Tracked G) : Prop where
  created : t.created = t'.created
  cur : t.cur = t'.cur
  prev : t.prev = t'.prev
  mu : ∀ i < np, ∀ e < loc i, t.mu i e 0 = t'.mu i (facet i e) 0
  lam : ∀ i < np, ∀ e < loc i, t.lam i e 0 = t'.lam i (facet i e) 0
  fric : ∀ i < np, ∀ e < loc i, t.fric i e 0 = t'.fric i (facet i e) 0
  h : ∀ i < np, ∀ e < loc i, t.h i e 0 = t'.h i (facet i e) 0
  gradU : ∀ i < np, ∀ e < loc i, ∀ m < n, t.gradU i e m = t'.gradU i (facet i e) m

theorem SameTracked.setDu {np : ℕ} {loc : ℕ → ℕ} {facet : ℕ → ℕ → ℕ} {n : ℕ} {t t' : Tracked G} (T : SameTracked np loc facet n t t')
    (du du' : Du G) : SameTracked np loc facet n (t.setDu du) (t'.setDu du') :=
  ⟨T.created, T.cur, T.prev, T.mu, T.lam, T.fric, T.h, T.gradU⟩

theorem SameTracked.dropLeft {np : ℕ} {loc : ℕ → ℕ} {facet : ℕ → ℕ → ℕ} {n : ℕ} {t t' : Tracked G} (T : SameTracked np loc facet n t t')
    (du : Option (Du G)) : SameTracked np loc facet n (match du with | some du => t.setDu du | none => t) t' := by
  cases du
  · exact T
  · exact ⟨T.created, T.cur, T.prev, T.mu, T.lam, T.fric, T.h, T.gradU⟩

theorem SameTracked.dropRight {np : ℕ} {loc : ℕ → ℕ} {facet : ℕ → ℕ → ℕ} {n : ℕ} {t t' : Tracked G} (T : SameTracked np loc facet n t t')
    (du : Option (Du G)) : SameTracked np loc facet n t (match du with | some du => t'.setDu du | none => t') := by
  cases du
  · exact T
  · exact ⟨T.created, T.cur, T.prev, T.mu, T.lam, T.fric, T.h, T.gradU⟩

theorem SameTracked.call {Y : System G} {facet : ℕ → ℕ → ℕ} {op op' : Op G}
    (hs : OpShaped Y.static op) (hc : SameCall Y.numPairs Y.localFacets facet op op') {t t' : Tracked G}
    (T : SameTracked Y.numPairs Y.localFacets facet (Y.nq * Y.gdim * Y.gdim) t t') :
    SameTracked Y.numPairs Y.localFacets facet (Y.nq * Y.gdim * Y.gdim) (t.call op) (t'.call op') := by
  cases hc with
  | updateData du du' =>
    simp only [Tracked.call]
    rw [T.created]
    split
    · exact T.setDu _ _
    · exact T
  | updateNitsche => exact T
  | updateDetection move m m' h =>
    simp only [Tracked.call]
    rw [T.created]
    split
    · refine ⟨rfl, ?_, ?_, T.mu, T.lam, T.fric, T.h, ?_⟩
      · exact congrArg move T.cur
      · exact T.cur
      · intro i hi e he c hcol
        refine h i hi e he c ?_
        rw [(hs i hi).2]
        exact hcol
    · exact ⟨rfl, congrArg move T.cur, T.prev, T.mu, T.lam, T.fric, T.h, T.gradU⟩
  | generate a b hlaw hgamma htheta hmu hlam hfric hu hh =>
    obtain ⟨smu, slam, sfric, sh, su, -⟩ := hs
    simp only [Tracked.call]
    cases hmu' : a.mu with
    | none =>
      rw [hmu'] at hmu
      generalize b.mu = bm at hmu
      cases hmu
      exact T
    | some m =>
      rw [hmu'] at hmu
      generalize b.mu = bm at hmu
      cases hmu with
      | some hm =>
        cases hlam' : a.lam with
        | none =>
          rw [hlam'] at hlam
          generalize b.lam = bl at hlam
          cases hlam
          exact T
        | some l =>
          rw [hlam'] at hlam
          generalize b.lam = bl at hlam
          cases hlam with
          | some hl =>
            refine SameTracked.dropLeft (SameTracked.dropRight ?_ _) _
            refine ⟨rfl, T.cur, ?_, ?_, ?_, ?_, ?_, ?_⟩
            · show (if t.created then _ else _) = (if t'.created then _ else _)
              rw [T.created, T.prev, T.cur]
            · exact fun i hi e he => hm i hi e he 0 (smu _ hmu' i hi).2
            · exact fun i hi e he => hl i hi e he 0 (slam _ hlam' i hi).2
            · cases hf' : a.fric with
              | none =>
                rw [hf'] at hfric
                generalize b.fric = bf at hfric
                cases hfric
                exact T.fric
              | some f =>
                rw [hf'] at hfric
                generalize b.fric = bf at hfric
                cases hfric with
                | some hf => exact fun i hi e he => hf i hi e he 0 (sfric _ hf' i hi).2
            · exact fun i hi e he => hh i hi e he 0 (sh i hi).2
            · cases hu' : a.u with
              | none =>
                rw [hu'] at hu
                generalize b.u = bu at hu
                cases hu
                intros; rfl
              | some u =>
                rw [hu'] at hu
                generalize b.u = bu at hu
                cases hu with
                | some hu2 =>
                  intro i hi e he c hcol
                  refine hu2 i hi e he c ?_
                  rw [(su _ hu' i hi).2]
                  exact hcol

theorem SameTracked.history {Y : System G} {facet : ℕ → ℕ → ℕ} {ops ops' : List (Op G)}
    (hc : List.Forall₂ (SameCall Y.numPairs Y.localFacets facet) ops ops') :
    ∀ {t t' : Tracked G}, (∀ op ∈ ops, OpShaped Y.static op) →
    SameTracked Y.numPairs Y.localFacets facet (Y.nq * Y.gdim * Y.gdim) t t' →
    SameTracked Y.numPairs Y.localFacets facet (Y.nq * Y.gdim * Y.gdim) (t.history ops) (t'.history ops') := by
  induction hc with
  | nil => exact fun _ T => T
  | cons h _ ih =>
    intro t t' hs T
    exact ih (fun o ho => hs o (List.mem_cons_of_mem _ ho)) (T.call (hs _ List.mem_cons_self) h)

theorem same_law {np : ℕ} {loc : ℕ → ℕ} {facet : ℕ → ℕ → ℕ} {ops ops' : List (Op G)}
    (hc : List.Forall₂ (SameCall np loc facet) ops ops') : ∀ l, lastLaw ops l = lastLaw ops' l := by
  induction hc with
  | nil => exact fun _ => rfl
  | cons h _ ih =>
    intro l
    cases h with
    | generate a b hlaw => simp only [lastLaw, ih, hlaw]
    | _ => simp only [lastLaw, ih]

theorem same_consts {np : ℕ} {loc : ℕ → ℕ} {facet : ℕ → ℕ → ℕ} {ops ops' : List (Op G)}
    (hc : List.Forall₂ (SameCall np loc facet) ops ops') : ∀ l, lastConsts ops l = lastConsts ops' l := by
  induction hc with
  | nil => exact fun _ => rfl
  | cons h _ ih =>
    intro l
    cases h with
    | generate a b hlaw hg ht => simp only [lastConsts, ih, hg, ht]
    | _ => simp only [lastConsts, ih]

theorem consts_of_law (ops : List (Op G)) {law : Law} (hlaw : lastLaw ops none = some law) :
    ∃ gamma theta, lastConsts ops none = some (gamma, theta) := by
  have key : ∀ (ops : List (Op G)) (l : Option Law) (c : Option (ℝ × ℝ)), (l ≠ none → c ≠ none) →
      lastLaw ops l ≠ none → lastConsts ops c ≠ none := by
    intro ops
    induction ops with
    | nil => intro l c h h'; exact h h'
    | cons op ops ih =>
      intro l c h h'
      cases op with
      | generate a => exact ih (some a.law) (some (a.gamma, a.theta)) (by simp) h'
      | updateData du => exact ih l c h h'
      | updateDetection m gu => exact ih l c h h'
      | updateNitsche ga th => exact ih l _ (by simpa using h) h'
  have := key ops none none (by simp) (by rw [hlaw]; simp)
  cases hcs : lastConsts ops none with
  | none => exact absurd hcs this
  | some c => exact ⟨c.1, c.2, rfl⟩

/-! ### the form of a part -/

theorem globalDof_dof {g : ℕ} (dof : ℕ → ℕ) (m : ℕ) {a : ℕ} (ha : a < g) :
    globalDof g dof (g * m + a) = g * dof m + a := by
  unfold globalDof
  rw [Nat.mul_add_mod, Nat.mod_eq_of_lt ha, Nat.mul_add_div (by omega), Nat.div_eq_of_lt ha, add_zero]

variable {Y Z : System G} {facet : ℕ → ℕ → ℕ} {dof : ℕ → ℕ}

theorem part_weight (H : PartOf Y Z facet dof) {cell cell' : ℕ} (h : ∀ r, jacobianAt Y cell r = jacobianAt Z cell' r)
    (f q : ℕ) : weightAt Y cell f q = weightAt Z cell' f q := by
  obtain ⟨e1, e2, e3, e4, e5, e6, e7, e8, e9⟩ := H.element
  simp only [weightAt, h, e2, e5, e9]

theorem part_outward (H : PartOf Y Z facet dof) {cell cell' : ℕ} (h : ∀ r, jacobianAt Y cell r = jacobianAt Z cell' r)
    (f q a : ℕ) : outwardAt Y cell f q a = outwardAt Z cell' f q a := by
  obtain ⟨h1, h2, h3, h4, h5⟩ := H.sizes
  obtain ⟨e1, e2, e3, e4, e5, e6, e7, e8, e9⟩ := H.element
  simp only [outwardAt, h, h4, h5, e2, e6, e8]

/-- At a quadrature point of an owned facet the process knows what a single process knows. -/
theorem part_point (hY : System.Valid Y) (H : PartOf Y Z facet dof) {t t' : Tracked G}
    (T : SameTracked Y.numPairs Y.localFacets facet (Y.nq * Y.gdim * Y.gdim) t t')
    {i e : ℕ} (hi : i < Z.numPairs) (he : e < Y.localFacets i) {cell cell' f : ℕ}
    (hj : ∀ r, jacobianAt Y cell r = jacobianAt Z cell' r) (hd : ∀ a < Z.nd, dof (Y.space.parent cell a) = Z.space.parent cell' a)
    {q : ℕ} (hq' : q < Z.nq) :
    (∀ a < Z.gdim, contactNormalAt Y t.cur i e q a = contactNormalAt Z t'.cur i (facet i e) q a)
    ∧ SamePoint (pointAt Y t i e cell f q) (pointAt Z t' i (facet i e) cell' f q)
    ∧ (∀ (w : ℕ → ℝ), ∀ a < Z.gdim, ∀ b < Z.gdim,
      gradAt Y cell f (fun d => w (globalDof Y.gdim dof d)) q a b = gradAt Z cell' f w q a b)
    ∧ (∀ a < Z.gdim, ∀ b < Z.gdim,
      (pointAt Y t i e cell f q).grad0 a b = (pointAt Z t' i (facet i e) cell' f q).grad0 a b)
    ∧ (0 ≤ Y.map t.cur i (e * Y.nq + q) → ∀ (w : ℕ → ℝ), ∀ a < Z.gdim,
      jumpAt Y t.cur i e cell f (fun d => w (globalDof Y.gdim dof d)) q a = jumpAt Z t'.cur i (facet i e) cell' f w q a) := by
  obtain ⟨h1, h2, h3, h4, h5⟩ := H.sizes
  obtain ⟨e1, e2, e3, e4, e5, e6, e7, e8, e9⟩ := H.element
  have hi' : i < Y.numPairs := by omega
  obtain ⟨l1, l2⟩ := H.linked t.cur i hi e he q hq'
  have hv : ∀ (w : ℕ → ℝ), ∀ a < Z.gdim, valueAt Y cell f (fun d => w (globalDof Y.gdim dof d)) q a = valueAt Z cell' f w q a := by
    intro w a ha
    unfold valueAt
    rw [h3, e2, e3]
    refine sum_congr rfl (fun k hk => ?_)
    dsimp only
    rw [globalDof_dof dof _ (by omega), hd k (mem_range.mp hk), h4]
  have hg : ∀ (w : ℕ → ℝ), ∀ a < Z.gdim, ∀ b < Z.gdim,
      gradAt Y cell f (fun d => w (globalDof Y.gdim dof d)) q a b = gradAt Z cell' f w q a b := by
    intro w a ha b hb
    unfold gradAt
    rw [h3, e2, e4, h5, e8, hj]
    refine sum_congr rfl (fun k hk => ?_)
    dsimp only
    rw [globalDof_dof dof _ (by omega), hd k (mem_range.mp hk), h4]
  have hrow : ∀ a < Z.gdim, q * Y.gdim + a < Z.nq * Y.gdim := by
    intro a ha
    rw [h4]
    nlinarith
  have hn : ∀ (g : G), ∀ a < Z.gdim, contactNormalAt Y g i e q a = contactNormalAt Z g i (facet i e) q a := by
    intro g a ha
    unfold contactNormalAt
    rw [H.search]
    split
    · rw [(H.data g).2.1 i hi e he _ (by rw [(hY.nx g i hi').2, h2]; exact hrow a ha), h4]
    · rw [(H.data g).2.2 i hi e he _ (by rw [(hY.ny g i hi').2, h2]; exact hrow a ha), h4]
  have P : SamePoint (pointAt Y t i e cell f q) (pointAt Z t' i (facet i e) cell' f q) := by
    refine ⟨h4, T.mu i hi' e he, T.lam i hi' e he, T.fric i hi' e he, T.h i hi' e he, ?_, ?_, ?_, ?_⟩
    · intro a ha
      show contactNormalAt Y t.cur i e q a = contactNormalAt Z t'.cur i (facet i e) q a
      rw [T.cur, hn _ a ha]
    · intro a ha
      show contactNormalAt Y t.prev i e q a = contactNormalAt Z t'.prev i (facet i e) q a
      rw [T.prev, hn _ a ha]
    · intro a ha
      have ha' : a < Z.gdim := ha
      show (Y.gap t.cur i).v e (q * Y.gdim + a) = (Z.gap t'.cur i).v (facet i e) (q * Z.gdim + a)
      rw [T.cur, (H.data _).1 i hi e he _ (by rw [(hY.gap _ i hi').2, h2]; exact hrow a ha'), h4]
    · intro a _
      exact part_outward H hj f q a
  refine ⟨fun a ha => by rw [T.cur]; exact hn _ a ha, P, hg, ?_, ?_⟩
  · intro a ha b hb
    show t.gradU i e ((q * Y.gdim + a) * Y.gdim + b) = t'.gradU i (facet i e) ((q * Z.gdim + a) * Z.gdim + b)
    rw [T.gradU i hi' e he _ (by
      rw [h2, h4]
      have : q * Z.gdim + a < Z.nq * Z.gdim := by nlinarith
      nlinarith), h4]
  · intro hl w a ha
    rw [← T.cur, jumpAt, jumpAt, hv w a ha]
    congr 1
    unfold oppositeAt
    rw [h2] at hl ⊢
    rw [h3]
    refine sum_congr rfl (fun k hk => ?_)
    dsimp only
    rw [globalDof_dof dof _ (by omega), (l2 hl k (mem_range.mp hk)).1, (l2 hl k (mem_range.mp hk)).2, h4]

/-- What an owned facet contributes to the form. -/
def facetForm (Y : System G) (t : Tracked G) (law : Law) (gamma theta : ℝ) (u v : ℕ → ℝ) (i e : ℕ) : ℝ :=
  ((Y.facets i)[e]?).elim 0 (fun p => ∑ q ∈ range Y.nq,
      if 0 ≤ Y.map t.cur i (e * Y.nq + q) then
        weightAt Y p.1 p.2 q * (pointAt Y t i e p.1 p.2 q).form law gamma theta
          (jumpAt Y t.cur i e p.1 p.2 u q)
          (fun a b => gradAt Y p.1 p.2 u q a b + (pointAt Y t i e p.1 p.2 q).grad0 a b)
          (jumpAt Y t.cur i e p.1 p.2 v q) (gradAt Y p.1 p.2 v q)
      else 0)

theorem facetForm_part (hY : System.Valid Y) (H : PartOf Y Z facet dof) {t t' : Tracked G}
    (T : SameTracked Y.numPairs Y.localFacets facet (Y.nq * Y.gdim * Y.gdim) t t') (law : Law) (gamma theta : ℝ)
    (u v : ℕ → ℝ) {i e : ℕ} (hi : i < Z.numPairs) (he : e < Y.localFacets i) :
    facetForm Y t law gamma theta (fun d => u (globalDof Y.gdim dof d)) (fun d => v (globalDof Y.gdim dof d)) i e
      = facetForm Z t' law gamma theta u v i (facet i e) := by
  obtain ⟨h1, h2, h3, h4, h5⟩ := H.sizes
  obtain ⟨cell, cell', f, hf, hf', hj, hd⟩ := H.own i hi e he
  unfold facetForm
  rw [hf, hf', Option.elim_some, Option.elim_some, h2]
  refine sum_congr rfl (fun q hq => ?_)
  have hq' := mem_range.mp hq
  obtain ⟨l1, -⟩ := H.linked t.cur i hi e he q hq'
  obtain ⟨-, P, hg, h0, hjump⟩ := part_point (f := f) hY H T hi he hj hd hq'
  rw [h2] at hjump
  rw [← T.cur] at hjump ⊢
  by_cases hl : 0 ≤ Y.map t.cur i (e * Z.nq + q)
  · rw [if_pos hl, if_pos (l1.mp hl), part_weight H hj]
    congr 1
    exact P.form law gamma theta (hjump hl u) (fun a ha b hb => by rw [hg u a ha b hb, h0 a ha b hb]) (hjump hl v) (hg v)
  · rw [if_neg hl, if_neg (fun h => hl (l1.mpr h))]

theorem contactForm_facets (Y : System G) (t : Tracked G) (law : Law) (gamma theta : ℝ) (u v : ℕ → ℝ) :
    contactForm Y t law gamma theta u v
      = ∑ i ∈ range Y.numPairs, ∑ e ∈ range (Y.localFacets i), facetForm Y t law gamma theta u v i e := rfl

/-- A sum over the facets of the whole problem is the sum over the processes and the facets they own. -/
theorem sum_owned {P : ℕ} {Y : ℕ → System G} {Z : System G} {facet : ℕ → ℕ → ℕ → ℕ} (hO : OwnedOnce P Y Z facet)
    {i : ℕ} (hi : i < Z.numPairs) (f : ℕ → ℝ) :
    ∑ E ∈ range (Z.localFacets i), f E = ∑ p ∈ range P, ∑ e ∈ range ((Y p).localFacets i), f (facet p i e) := by
  rw [Finset.sum_sigma']
  symm
  obtain ⟨h1, h2⟩ := hO i hi
  refine sum_bij (fun x _ => facet x.1 i x.2) ?_ ?_ ?_ (fun _ _ => rfl)
  · intro x hx
    obtain ⟨hp, he⟩ := mem_sigma.mp hx
    exact mem_range.mpr (h1 _ (mem_range.mp hp) _ (mem_range.mp he))
  · rintro ⟨p, e⟩ hx ⟨p', e'⟩ hx' hE
    obtain ⟨hp, he⟩ := mem_sigma.mp hx
    obtain ⟨hp', he'⟩ := mem_sigma.mp hx'
    obtain ⟨p0, -, e0, -, -, hu⟩ := h2 _ (h1 _ (mem_range.mp hp) _ (mem_range.mp he))
    obtain ⟨rfl, rfl⟩ := hu p (mem_range.mp hp) e (mem_range.mp he) rfl
    obtain ⟨rfl, rfl⟩ := hu p' (mem_range.mp hp') e' (mem_range.mp he') hE.symm
    rfl
  · intro E hE
    obtain ⟨p, hp, e, he, h, -⟩ := h2 E (mem_range.mp hE)
    exact ⟨⟨p, e⟩, mem_sigma.mpr ⟨mem_range.mpr hp, mem_range.mpr he⟩, h⟩

/-- C130: the contact vector does not depend on how the problem is distributed.  If every facet of the
contact surfaces is owned by exactly one process, and every process holds the data of its facets and makes
the same calls, then adding up the vectors assembled by the processes (dofs which several processes know
get the sum, as `ghostUpdate(ADD, REVERSE)` does) gives the vector assembled by a single process. -/
theorem C130_vector (P : ℕ) (Y : ℕ → System G) (Z : System G) (facet : ℕ → ℕ → ℕ → ℕ) (dof : ℕ → ℕ → ℕ)
    (hY : ∀ p < P, System.Valid (Y p)) (hZ : System.Valid Z) (hpart : ∀ p < P, PartOf (Y p) Z (facet p) (dof p))
    (hO : OwnedOnce P Y Z facet) (g : G)
    (ops : ℕ → List (Op G)) (ops' : List (Op G)) (hops : ∀ p < P, ∀ op ∈ ops p, OpShaped (Y p).static op)
    (hops' : ∀ op ∈ ops', OpShaped Z.static op)
    (hcalls : ∀ p < P, List.Forall₂ (SameCall Z.numPairs (Y p).localFacets (facet p)) (ops p) ops')
    (law : Law) (hlaw : lastLaw ops' none = some law) (h23 : law ≠ .frictionless → Z.gdim = 2 ∨ Z.gdim = 3)
    (hc : (history Z.static ops' (init Z.static g)).coeffs ≠ none)
    (N : ℕ → ℕ) (hN : ∀ p < P, DofsBelow (Y p) (N p)) (N' : ℕ) (hN' : DofsBelow Z N') (u : ℕ → ℝ) :
    ∃ (b : ℕ → Arr ℕ) (b' : Arr ℕ),
      (∀ p < P, ∃ s', updateContactData (Y p).static ((Y p).du (fun d => u (globalDof Z.gdim (dof p) d)))
          (history (Y p).static (ops p) (init (Y p).static g)) = .ok s' ∧ (Y p).assembleVector s' 0 = .ok (b p))
      ∧ (∃ s', updateContactData Z.static (Z.du u) (history Z.static ops' (init Z.static g)) = .ok s'
          ∧ Z.assembleVector s' 0 = .ok b')
      ∧ ∀ D < N', b' D = ∑ p ∈ range P, ∑ d ∈ range (N p) with globalDof Z.gdim (dof p) d = D, b p d := by
  obtain ⟨gamma, theta, hconsts⟩ := consts_of_law ops' hlaw
  have H' := good_history (static_shaped hZ) ops' hops' (good_init Z.static g)
  have hcr : ((Tracked.new g).history ops').created = true := by
    cases h : ((Tracked.new g).history ops').created with
    | false => exact absurd (H'.fresh h).1 hc
    | true => rfl
  have hT : ∀ p < P, SameTracked (Y p).numPairs (Y p).localFacets (facet p) ((Y p).nq * (Y p).gdim * (Y p).gdim)
      ((Tracked.new g).history (ops p)) ((Tracked.new g).history ops') := by
    intro p hp
    have hcp := hcalls p hp
    rw [← (hpart p hp).sizes.1] at hcp
    exact SameTracked.history hcp (hops p hp)
      ⟨rfl, rfl, rfl, fun _ _ _ _ => rfl, fun _ _ _ _ => rfl, fun _ _ _ _ => rfl, fun _ _ _ _ => rfl, fun _ _ _ _ _ _ => rfl⟩
  have hcp : ∀ p < P, (history (Y p).static (ops p) (init (Y p).static g)).coeffs ≠ none := by
    intro p hp
    have H := good_history (static_shaped (hY p hp)) (ops p) (hops p hp) (good_init (Y p).static g)
    obtain ⟨cs, nQ, h, -⟩ := H.full ((hT p hp).created.trans hcr)
    rw [h]
    simp
  have form := fun (v : ℕ → ℝ) (p : ℕ) (hp : p < P) => C114_form (hY p hp) (ops p) (hops p hp) g law
    ((same_law (hcalls p hp) none).trans hlaw) (fun h => by rw [(hpart p hp).sizes.2.2.2.1]; exact h23 h) gamma theta
    ((same_consts (hcalls p hp) none).trans hconsts) _ rfl (hcp p hp) (N p) (hN p hp)
    (fun d => u (globalDof Z.gdim (dof p) d)) (fun d => v (globalDof Z.gdim (dof p) d))
  have form' := fun v => C114_form hZ ops' hops' g law hlaw h23 gamma theta hconsts _ rfl hc N' hN' u v
  obtain ⟨s', b', h1', h2', -⟩ := form' 0
  have hex : ∀ p, ∃ bp : Arr ℕ, p < P → ∃ s',
      updateContactData (Y p).static ((Y p).du (fun d => u (globalDof Z.gdim (dof p) d)))
          (history (Y p).static (ops p) (init (Y p).static g)) = .ok s' ∧ (Y p).assembleVector s' 0 = .ok bp := by
    intro p
    by_cases hp : p < P
    · obtain ⟨s2, b2, h1, h2, -⟩ := form 0 p hp
      exact ⟨b2, fun _ => ⟨s2, h1, h2⟩⟩
    · exact ⟨0, fun h => absurd h hp⟩
  choose b hb using hex
  refine ⟨b, b', fun p hp => hb p hp, ⟨s', h1', h2'⟩, fun D hD => ?_⟩
  obtain ⟨v, hv⟩ : ∃ v : ℕ → ℝ, v = fun d => if d = D then 1 else 0 := ⟨_, rfl⟩
  obtain ⟨s2, b2, h3, h4, h5⟩ := form' v
  obtain rfl : s2 = s' := Except.ok.inj (h3.symm.trans h1')
  obtain rfl : b2 = b' := Except.ok.inj (h4.symm.trans h2')
  have e' : ∑ d ∈ range N', b2 d * v d = b2 D := by
    rw [hv]
    simp [hD]
  rw [← e', h5, contactForm_facets]
  have e : ∀ p ∈ range P, ∑ d ∈ range (N p) with globalDof Z.gdim (dof p) d = D, b p d
      = ∑ i ∈ range Z.numPairs, ∑ e ∈ range ((Y p).localFacets i),
        facetForm Z ((Tracked.new g).history ops') law gamma theta u v i (facet p i e) := by
    intro p hp
    have hp' := mem_range.mp hp
    obtain ⟨s3, b3, h6, h7, h8⟩ := form v p hp'
    obtain ⟨s4, h9, h10⟩ := hb p hp'
    obtain rfl : s3 = s4 := Except.ok.inj (h6.symm.trans h9)
    obtain e3 : b3 = b p := Except.ok.inj (h7.symm.trans h10)
    rw [e3] at h8
    have hsum : ∑ d ∈ range (N p), b p d * v (globalDof Z.gdim (dof p) d)
        = ∑ d ∈ range (N p) with globalDof Z.gdim (dof p) d = D, b p d := by
      rw [sum_filter, hv]
      exact sum_congr rfl (fun d _ => by split <;> simp [*])
    rw [← hsum, h8, contactForm_facets, (hpart p hp').sizes.1]
    refine sum_congr rfl (fun i hi => sum_congr rfl (fun e he => ?_))
    have := facetForm_part (hY p hp') (hpart p hp') (hT p hp') law gamma theta u v (mem_range.mp hi) (mem_range.mp he)
    rw [(hpart p hp').sizes.2.2.2.1] at this
    exact this
  rw [sum_congr rfl e, sum_comm]
  exact sum_congr rfl (fun i hi => sum_owned hO (mem_range.mp hi) _)

/-! ### an example -/

/-- Two facets in contact with the same cell. -/
def exZ : System Unit := { exY with
  facets := fun _ => [(0, 2), (1, 2)]
  localFacets := fun _ => 2
  space := ⟨1, 1, 2, fun c _ => c, fun c _ => c, fun _ => 2⟩
  gap := fun _ _ => ⟨2, 2, fun _ m => if m = 1 then 2 else 0⟩
  nx := fun _ _ => ⟨2, 2, fun _ m => if m = 1 then -1 else 0⟩
  ny := fun _ _ => ⟨2, 2, fun _ m => if m = 1 then 1 else 0⟩ }

theorem exZ_valid : System.Valid exZ where
  pairs := by decide
  dim := by decide
  points := by decide
  cell := by simp [exZ, exY]
  loc := by simp [exZ, exY]
  gap := by simp [exZ, exY]
  nx := by simp [exZ, exY]
  ny := by simp [exZ, exY]
  space := ⟨rfl, rfl⟩
  search := by simp [exZ, exY]
  cells := by simp [exZ, exY]
  shared := by simp [exZ, exY]
  affine := by simp [exZ, exY]

/-- Generate the data for Coulomb friction. -/
def exOpsZ : List (Op Unit) :=
  [.generate ⟨.coulomb, some (fun _ => ⟨2, 1, fun _ _ => 3⟩), some (fun _ => ⟨2, 1, fun _ _ => 5⟩),
    some (fun _ => ⟨2, 1, fun _ _ => 1⟩), none, none, fun _ => ⟨2, 1, fun _ _ => 1⟩, 1, 1⟩]

/-- The hypotheses of C130 hold for two processes, each with one facet; the opposite cell is a ghost on one
of them. -/
theorem exZ_parts : System.Valid exY ∧ System.Valid exZ
    ∧ (∀ p < 2, PartOf exY exZ (fun _ _ => p) (fun d => if d = 0 then p else 2))
    ∧ OwnedOnce 2 (fun _ => exY) exZ (fun p _ _ => p)
    ∧ (∀ op ∈ exSysOps, OpShaped exY.static op) ∧ (∀ op ∈ exOpsZ, OpShaped exZ.static op)
    ∧ (∀ p < 2, List.Forall₂ (SameCall exZ.numPairs exY.localFacets (fun _ _ => p)) exSysOps exOpsZ)
    ∧ lastLaw exOpsZ none = some .coulomb ∧ exZ.gdim = 2
    ∧ (history exZ.static exOpsZ (init exZ.static ())).coeffs ≠ none ∧ DofsBelow exY 4 ∧ DofsBelow exZ 6 := by
  have hsh : ∀ op ∈ exOpsZ, OpShaped exZ.static op := by
    simp [exOpsZ, OpShaped, ScalarShaped, System.static, exZ, exY]
  refine ⟨exY_valid, exZ_valid, ?_, ?_, exSysOps_shaped, hsh, ?_, rfl, rfl, ?_, ?_, ?_⟩
  · intro p hp
    refine ⟨⟨rfl, rfl, rfl, rfl, rfl⟩, ⟨rfl, rfl, rfl, rfl, rfl, rfl, rfl, rfl, rfl⟩, rfl, ?_, ?_, ?_⟩
    · intro i hi e he
      have : e = 0 := Nat.lt_one_iff.mp he
      subst this
      refine ⟨0, p, 2, rfl, ?_, fun _ => rfl, fun a _ => rfl⟩
      interval_cases p <;> rfl
    · intro g
      refine ⟨?_, ?_, ?_⟩ <;> intro i hi e he c hc <;> rfl
    · intro g i hi e he q hq
      exact ⟨Iff.rfl, fun _ a _ => ⟨rfl, rfl⟩⟩
  · intro i hi
    refine ⟨fun p hp e he => hp, fun E hE => ⟨E, hE, 0, Nat.one_pos, rfl, fun p' hp' e' he' h => ⟨h, Nat.lt_one_iff.mp he'⟩⟩⟩
  · intro p hp
    refine .cons (.generate _ _ rfl rfl rfl (.some ?_) (.some ?_) (.some ?_) .none ?_) .nil <;>
      intro i hi e he c hc <;> rfl
  · rcases C38_size (static_shaped exZ_valid) exOpsZ hsh () with ⟨h, -⟩ | ⟨-, cs, h, -⟩
    · simp [exOpsZ, Tracked.history, Tracked.call] at h
    · rw [h]; simp
  · refine ⟨?_, ?_⟩ <;> simp [exY]
  · refine ⟨?_, ?_⟩ <;> simp [exZ, exY]

end

end Verif.ContactProblem
