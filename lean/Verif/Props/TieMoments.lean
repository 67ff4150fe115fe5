import Verif.Spec.TieMoments
import Verif.Props.TieSystem
import Verif.Props.Moments

/-!
Property C171: the moments of the forces assembled for tied bodies, and rigid motions of tied bodies.
-/

namespace Verif.TieData

open Verif.Spec Verif.Kernels Verif.Assembly Verif.Packing Finset
open Verif.ContactProblem (combine rigid_dof planeRotation planeRotation_skew planeRotation_sum moment_work)

noncomputable section

variable {M : TieMesh} {E EQ : TieElement} {mat : Key → ℕ → ℝ} {gamma theta : ℝ} {g : Gen ℝ}

theorem traction_skew {g : ℕ} (mu lam : ℝ) (n : ℕ → ℝ) {D : ℕ → ℕ → ℝ} (hD : Skew g D) {a : ℕ} (ha : a < g) :
    traction g mu lam D n a = 0 := by
  rw [Elasticity.traction_eq _ _ _ _ _ _ ha]
  rw [sum_eq_zero (fun j hj => by rw [hD j (mem_range.mp hj) a ha]; ring),
    sum_eq_zero (fun j hj => by have := hD j (mem_range.mp hj) j (mem_range.mp hj); linarith)]
  ring

/-- The jump and the mean gradient of a rigid motion at a tied point. -/
theorem rigid_tied (hE : E.bs = M.gdim) (hunit : TieSumsToOne M E) {x : ℕ → ℝ} (hx : TieNodesAt M E x)
    (hxm : TieNodesOfMesh M E x) (W : ℕ → ℕ → ℝ) (c : ℕ → ℝ) {i e cell f q : ℕ}
    (hi : i < M.numPairs) (he : e < M.localFacets i) (hf : (M.facets i)[e]? = some (cell, f)) (hq : q < M.nq)
    (ht : Tied M i e q) {a : ℕ} (ha : a < M.gdim) :
    tieJumpAt M E i e cell f (rigidMotion M.gdim W c x) q a
      = -∑ b ∈ range M.gdim, W a b * M.gap i ((e * M.nq + q) * M.gdim + b)
    ∧ ∀ d < M.gdim, tieMeanGrad M E i e cell f (rigidMotion M.gdim W c x) q a d = W a d := by
  obtain ⟨h1, h2, h3, h4⟩ := hunit i hi e he cell f hf q hq
  refine ⟨?_, fun d hd => ?_⟩
  · have e1 : tieValue M E cell f (rigidMotion M.gdim W c x) q a
        = (∑ k ∈ range E.nd, E.phi (M.off f + q) k) * c a + ∑ b ∈ range M.gdim, W a b * tieValue M E cell f x q b := by
      unfold tieValue
      simp only [hE, rigid_dof _ _ _ _ _ ha]
      exact combine _ _ _ _ _ _
    have e2 : tieOpposite M E i e (rigidMotion M.gdim W c x) q a
        = (∑ k ∈ range E.nd, E.basis i (e * M.nq + q) k) * c a + ∑ b ∈ range M.gdim, W a b * tieOpposite M E i e x q b := by
      unfold tieOpposite
      simp only [hE, rigid_dof _ _ _ _ _ ha]
      exact combine _ _ _ _ _ _
    unfold tieJumpAt
    rw [e1, e2, h1, h3, add_sub_add_left_eq_sub, ← sum_sub_distrib, ← sum_neg_distrib]
    refine sum_congr rfl (fun b hb => ?_)
    rw [hx i hi e he cell f hf q hq ht b (mem_range.mp hb)]
    ring
  · have e1 : tieGrad M E cell f (rigidMotion M.gdim W c x) q a d
        = (∑ k ∈ range E.nd, ∑ j ∈ range M.tdim, M.inv (tieJacobian M cell (M.off f + q)) j d * E.dphi j (M.off f + q) k) * c a
          + ∑ b ∈ range M.gdim, W a b * tieGrad M E cell f x q b d := by
      unfold tieGrad
      simp only [hE, rigid_dof _ _ _ _ _ ha]
      exact combine _ _ _ _ _ _
    have e2 : tieOppositeGrad M E i e (rigidMotion M.gdim W c x) q a d
        = (∑ k ∈ range E.nd, E.grad i (oppositeCell M i e q) (e * M.nq + q) k d) * c a
          + ∑ b ∈ range M.gdim, W a b * tieOppositeGrad M E i e x q b d := by
      unfold tieOppositeGrad
      simp only [hE, rigid_dof _ _ _ _ _ ha]
      exact combine _ _ _ _ _ _
    have z : ∑ k ∈ range E.nd, ∑ j ∈ range M.tdim, M.inv (tieJacobian M cell (M.off f + q)) j d * E.dphi j (M.off f + q) k
        = 0 := by
      rw [sum_comm]
      exact sum_eq_zero (fun j hj => by rw [← mul_sum, h2 j (mem_range.mp hj), mul_zero])
    have k1 : ∑ b ∈ range M.gdim, W a b * tieGrad M E cell f x q b d = W a d := by
      rw [sum_eq_single_of_mem d (mem_range.mpr hd)]
      · rw [(hxm i hi e he cell f hf q hq ht d hd d hd).1, if_pos rfl, mul_one]
      · intro b hb hne
        rw [(hxm i hi e he cell f hf q hq ht b (mem_range.mp hb) d hd).1, if_neg hne, mul_zero]
    have k2 : ∑ b ∈ range M.gdim, W a b * tieOppositeGrad M E i e x q b d = W a d := by
      rw [sum_eq_single_of_mem d (mem_range.mpr hd)]
      · rw [(hxm i hi e he cell f hf q hq ht d hd d hd).2, if_pos rfl, mul_one]
      · intro b hb hne
        rw [(hxm i hi e he cell f hf q hq ht b (mem_range.mp hb) d hd).2, if_neg hne, mul_zero]
    unfold tieMeanGrad
    rw [e1, e2, z, h4 d hd, k1, k2]
    ring

/-- Sums over tied points agree if the summands do. -/
theorem tieSum_at {F F' : ℕ → ℕ → ℕ → ℕ → ℕ → ℝ} (h : AtTied M (fun i e cell f q => F i e cell f q = F' i e cell f q)) :
    tieSum M F = tieSum M F' := by
  unfold tieSum
  refine sum_congr rfl (fun i hi => sum_congr rfl (fun e he => ?_))
  rcases hf : (M.facets i)[e]? with _ | ⟨cell, f⟩
  · rw [Option.elim_none, Option.elim_none]
  · rw [Option.elim_some, Option.elim_some]
    refine sum_congr rfl (fun q hq => ?_)
    by_cases ht : Tied M i e q
    · rw [if_pos ht, if_pos ht, h i (mem_range.mp hi) e (mem_range.mp he) cell f hf q (mem_range.mp hq) ht]
    · rw [if_neg ht, if_neg ht]

theorem tieSum_neg (F : ℕ → ℕ → ℕ → ℕ → ℕ → ℝ) : tieSum M (fun i e cell f q => -F i e cell f q) = -tieSum M F := by
  unfold tieSum
  rw [← sum_neg_distrib]
  refine sum_congr rfl (fun i _ => ?_)
  rw [← sum_neg_distrib]
  refine sum_congr rfl (fun e _ => ?_)
  rcases (M.facets i)[e]? with _ | ⟨cell, f⟩
  · rw [Option.elim_none, Option.elim_none, neg_zero]
  · rw [Option.elim_some, Option.elim_some, ← sum_neg_distrib]
    refine sum_congr rfl (fun q _ => ?_)
    split
    · ring
    · rw [neg_zero]

theorem tieSum_none {F : ℕ → ℕ → ℕ → ℕ → ℕ → ℝ} (h : AtTied M (fun i e cell f q => F i e cell f q = 0)) : tieSum M F = 0 := by
  rw [tieSum_at (F' := fun _ _ _ _ _ => 0) h]
  unfold tieSum
  refine sum_eq_zero (fun i _ => sum_eq_zero (fun e _ => ?_))
  rcases (M.facets i)[e]? with _ | ⟨cell, f⟩
  · rw [Option.elim_none]
  · rw [Option.elim_some]
    exact sum_eq_zero (fun q _ => by rw [mul_zero, ite_self])

/-- The work of the tying forces in a rotation. -/
theorem elasticTie_rotation (hE : E.bs = M.gdim) (hunit : TieSumsToOne M E) {x : ℕ → ℝ} (hx : TieNodesAt M E x)
    (hxm : TieNodesOfMesh M E x) {k l : ℕ} (hk : k < M.gdim) (hl : l < M.gdim) (u : ℕ → ℝ) :
    elasticTie M E EQ mat gamma theta u (rigidMotion M.gdim (planeRotation k l) 0 x)
      = -tieGapMoment M (tieForce M E EQ mat gamma u) k l := by
  unfold elasticTie tieGapMoment
  rw [← tieSum_neg]
  refine tieSum_at (fun i hi e he cell f hf q hq ht => ?_)
  have h := fun a (ha : a < M.gdim) => rigid_tied hE hunit hx hxm (planeRotation k l) 0 hi he hf hq ht ha
  have hs : Skew M.gdim (tieMeanGrad M E i e cell f (rigidMotion M.gdim (planeRotation k l) 0 x) q) := by
    intro a ha b hb
    rw [(h a ha).2 b hb, (h b hb).2 a ha]
    exact planeRotation_skew M.gdim k l a ha b hb
  dsimp only
  unfold elasticPart
  rw [sum_eq_zero (s := range M.gdim) (f := fun a => traction M.gdim (midValue EQ cell f (mat .mu)) (midValue EQ cell f (mat .lam))
    (tieMeanGrad M E i e cell f (rigidMotion M.gdim (planeRotation k l) 0 x) q) (tieOutward M cell f q) a
      * tieJumpAt M E i e cell f u q a)
    (fun a ha => by rw [traction_skew _ _ _ hs (mem_range.mp ha), zero_mul])]
  have e1 : ∀ F : ℕ → ℝ, ∑ a ∈ range M.gdim, F a * tieJumpAt M E i e cell f (rigidMotion M.gdim (planeRotation k l) 0 x) q a
      = -(F l * M.gap i ((e * M.nq + q) * M.gdim + k) - F k * M.gap i ((e * M.nq + q) * M.gdim + l)) := by
    intro F
    rw [← planeRotation_sum hk hl F (fun b => M.gap i ((e * M.nq + q) * M.gdim + b)), ← sum_neg_distrib]
    refine sum_congr rfl (fun a ha => ?_)
    rw [(h a (mem_range.mp ha)).1]
    ring
  rw [e1]
  unfold tieForce
  ring

theorem thermalTie_rotation {ET : TieElement} (hE : E.bs = M.gdim) (hunit : TieSumsToOne M E) {x : ℕ → ℝ}
    (hx : TieNodesAt M E x) (hxm : TieNodesOfMesh M E x) {k l : ℕ} (hk : k < M.gdim) (hl : l < M.gdim) (T : ℕ → ℝ) :
    thermalTie M E EQ ET mat T (rigidMotion M.gdim (planeRotation k l) 0 x)
      = -tieGapMoment M (tieThermalForce M EQ ET mat T) k l := by
  unfold thermalTie tieGapMoment
  rw [← tieSum_neg]
  refine tieSum_at (fun i hi e he cell f hf q hq ht => ?_)
  dsimp only
  unfold thermalPart
  have e1 : ∑ a ∈ range M.gdim, tieOutward M cell f q a
        * tieJumpAt M E i e cell f (rigidMotion M.gdim (planeRotation k l) 0 x) q a
      = -(tieOutward M cell f q l * M.gap i ((e * M.nq + q) * M.gdim + k)
        - tieOutward M cell f q k * M.gap i ((e * M.nq + q) * M.gdim + l)) := by
    rw [← planeRotation_sum hk hl (tieOutward M cell f q) (fun b => M.gap i ((e * M.nq + q) * M.gdim + b)), ← sum_neg_distrib]
    refine sum_congr rfl (fun a ha => ?_)
    rw [(rigid_tied hE hunit hx hxm (planeRotation k l) 0 hi he hf hq ht (mem_range.mp ha)).1]
    ring
  rw [e1]
  unfold tieThermalForce
  ring

/-- Tied bodies do not feel a rigid motion if there is no gap between them. -/
theorem elasticTie_rigid (hE : E.bs = M.gdim) (hunit : TieSumsToOne M E) {x : ℕ → ℝ} (hx : TieNodesAt M E x)
    (hxm : TieNodesOfMesh M E x) (hgap : TieNoGap M) {W : ℕ → ℕ → ℝ} (hW : Skew M.gdim W) (c v : ℕ → ℝ) :
    elasticTie M E EQ mat gamma theta (rigidMotion M.gdim W c x) v = 0 := by
  unfold elasticTie
  refine tieSum_none (fun i hi e he cell f hf q hq ht => ?_)
  have h := fun a (ha : a < M.gdim) => rigid_tied hE hunit hx hxm W c hi he hf hq ht ha
  have hs : Skew M.gdim (tieMeanGrad M E i e cell f (rigidMotion M.gdim W c x) q) := by
    intro a ha b hb
    rw [(h a ha).2 b hb, (h b hb).2 a ha]
    exact hW a ha b hb
  have hj : ∀ a < M.gdim, tieJumpAt M E i e cell f (rigidMotion M.gdim W c x) q a = 0 := by
    intro a ha
    rw [(h a ha).1, sum_eq_zero, neg_zero]
    intro b hb
    rw [hgap i hi e he cell f hf q hq ht b (mem_range.mp hb), mul_zero]
  dsimp only
  unfold elasticPart
  rw [sum_eq_zero (fun a ha => by
      rw [traction_skew _ _ _ hs (mem_range.mp ha), hj a (mem_range.mp ha), mul_zero, neg_zero, add_zero, zero_mul]),
    sum_eq_zero (fun a ha => by rw [hj a (mem_range.mp ha), mul_zero])]
  ring

/-- A row of a matrix with a form that does not feel `w`. -/
theorem row_zero {N : ℕ} {A : Arr (ℕ × ℕ)} {F : (ℕ → ℝ) → (ℕ → ℝ) → ℝ} {w : ℕ → ℝ}
    (hA : ∀ u v : ℕ → ℝ, ∑ d ∈ range N, ∑ c ∈ range N, v d * A (d, c) * u c = F u v) (hw : ∀ v, F w v = 0)
    {d : ℕ} (hd : d < N) : ∑ c ∈ range N, A (d, c) * w c = 0 := by
  have := row_of_form (b := fun _ => 0) (u := w) hA (fun v => by rw [hw]; simp) hd
  exact this

section

variable (hM : TieMesh.Valid M) (hE : TieElement.Valid M E) (K : ℕ) (hN : TieDofsBelow M E (M.gdim * K)) (hT : TiedFirst M)
  (hunit : TieSumsToOne M E) (ops : List (Op ℝ)) (hops : ProperHistory M.static Tracked.new ops)
  (x : ℕ → ℝ) (hx : TieNodesAt M E x) (hxm : TieNodesOfMesh M E x) (hbs : E.bs = M.gdim)

include hM hE hN hT hunit hops hx hxm hbs

/-- C171: the moment of the forces assembled for tied elastic bodies is, in every plane, minus the sum over the tied points of
the moments of the tying force at the end of the gap vector; when on every facet the tied points come first. -/
theorem C171_elasticity_partial (hg : (ops.foldl Tracked.step Tracked.new).get .elasticity = some g)
    (G : GeneratedFor M E EQ .elasticity mat gamma theta g) (u : ℕ → ℝ) (hu : SolutionIs M E u g) :
    ∃ s b, run M.static State.init ops = some s ∧ M.assembleVector E .elasticity s 0 = .ok b
      ∧ ∀ k < M.gdim, ∀ l < M.gdim, moment M.gdim K x b k l = -tieGapMoment M (tieForce M E EQ mat gamma u) k l := by
  obtain ⟨s, h1, -, b, h2, h3⟩ := C117_elasticity_partial hM hE _ hN hT ops hops hg G
  refine ⟨s, b, h1, h2, fun k hk l hl => ?_⟩
  rw [← moment_work K x b hk hl, h3 u hu, elasticTie_rotation hbs hunit hx hxm hk hl]

/-- C171 for thermo-elasticity. -/
theorem C171_thermo_partial (hg : (ops.foldl Tracked.step Tracked.new).get .thermo = some g)
    (G : GeneratedFor M E EQ .thermo mat gamma theta g) (u : ℕ → ℝ) (hu : SolutionIs M E u g)
    (ET : TieElement) (T : ℕ → ℝ) (hET : TieElement.Valid M ET) (hTm : TemperatureIs M ET T g) :
    ∃ s b, run M.static State.init ops = some s ∧ M.assembleVector E .thermo s 0 = .ok b
      ∧ ∀ k < M.gdim, ∀ l < M.gdim, moment M.gdim K x b k l
        = -tieGapMoment M (tieForce M E EQ mat gamma u) k l - tieGapMoment M (tieThermalForce M EQ ET mat T) k l := by
  obtain ⟨s, h1, -, b, h2, h3⟩ := C117_thermo_partial hM hE _ hN hT ops hops hg G
  refine ⟨s, b, h1, h2, fun k hk l hl => ?_⟩
  rw [← moment_work K x b hk hl, h3 u hu ET T hET hTm, elasticTie_rotation hbs hunit hx hxm hk hl,
    thermalTie_rotation hbs hunit hx hxm hk hl]
  ring

/-- C171: if the tied surfaces have no gap, the moments sum to zero, and the matrix times a rigid motion of all tied bodies
together is zero. -/
theorem C171_closed_partial (hgap : TieNoGap M) (hg : (ops.foldl Tracked.step Tracked.new).get .elasticity = some g)
    (G : GeneratedFor M E EQ .elasticity mat gamma theta g) :
    ∃ s, run M.static State.init ops = some s
      ∧ (∃ b, M.assembleVector E .elasticity s 0 = .ok b ∧ ((∃ u, SolutionIs M E u g) →
          ∀ k < M.gdim, ∀ l < M.gdim, moment M.gdim K x b k l = 0))
      ∧ ∃ A, M.assembleMatrix E .elasticity s 0 = .ok A ∧ ∀ (W : ℕ → ℕ → ℝ) (c : ℕ → ℝ), Skew M.gdim W →
          ∀ d < M.gdim * K, ∑ m ∈ range (M.gdim * K), A (d, m) * rigidMotion M.gdim W c x m = 0 := by
  obtain ⟨s, h1, ⟨A, h4, h5⟩, b, h2, h3⟩ := C117_elasticity_partial hM hE _ hN hT ops hops hg G
  refine ⟨s, h1, ⟨b, h2, ?_⟩, A, h4, fun W c hW d hd => row_zero h5 (fun v => elasticTie_rigid hbs hunit hx hxm hgap hW c v) hd⟩
  rintro ⟨u, hu⟩ k hk l hl
  rw [← moment_work K x b hk hl, h3 u hu, elasticTie_rotation hbs hunit hx hxm hk hl, neg_eq_zero]
  unfold tieGapMoment
  refine tieSum_none (fun i hi e he cell f hf q hq ht => ?_)
  dsimp only
  rw [hgap i hi e he cell f hf q hq ht k hk, hgap i hi e he cell f hf q hq ht l hl]
  ring

end

/-! ### example -/

/-- Two triangles, the lower side of the upper one tied to the upper side of the lower one, which is `gap` lower. -/
def exTM (gap : ℝ) : TieMesh where
  numPairs := 1
  nq := 1
  gdim := 2
  tdim := 2
  cell := .triangle
  affine := true
  off := fun _ => 0
  weights := fun _ _ => 1
  nref := fun _ a => if a = 1 then -1 else 0
  geo := ⟨1, fun _ => 0, fun _ _ => 0⟩
  cphi := fun _ _ _ => 0
  inv := fun _ j b => if j = b then 1 else 0
  det := fun _ _ => 1
  facets := fun _ => [(0, 2)]
  localFacets := fun _ => 1
  closest := fun _ _ => 0
  subCell := fun _ => 0
  parentCell := fun c => c + 1
  numCells := 1
  gap := fun _ r => if r = 1 then -gap else 0
  ny := fun _ r => if r = 1 then 1 else 0
  h := fun _ _ => 2

/-- Linear elements on them. -/
def exTE (bs : ℕ) : TieElement where
  nd := 3
  bs := bs
  phi := fun _ k => if k = 2 then 0 else 1 / 2
  dphi := fun j _ k => if k = 0 then -1 else if k = j + 1 then 1 else 0
  phi0 := fun _ k => if k = 2 then 0 else 1 / 2
  dofs := fun c k => 3 * c + k
  sub := fun c k => 3 * c + k
  basis := fun _ _ k => if k = 2 then 0 else 1 / 2
  grad := fun _ _ _ k l => if k = 0 then (if l = 0 then -1 else 1) else if k = l + 1 then (if l = 0 then 1 else -1) else 0

theorem exTM_valid (gap : ℝ) : TieMesh.Valid (exTM gap) where
  dim := by simp [exTM]
  cell := by simp [exTM]
  loc := by simp [exTM]
  cells := by simp [exTM]
  order := by intro c c' h h'; simp [exTM] at h' ⊢; omega
  affine := by simp [exTM]

theorem exTE_valid (gap : ℝ) (bs : ℕ) : TieElement.Valid (exTM gap) (exTE bs) := by
  intro c i c' i' hc hi hc' hi' h
  have h1 : c < 1 := hc
  have h2 : c' < 1 := hc'
  have h3 : 3 * c + i = 3 * c' + i' := h
  show 3 * (c + 1) + i = 3 * (c' + 1) + i'
  omega

theorem exTE_below (gap : ℝ) : TieDofsBelow (exTM gap) (exTE 2) ((exTM gap).gdim * 6) := by
  refine ⟨?_, ?_⟩
  · intro i _ p hp a ha
    have hp' : p ∈ [((0 : ℕ), (2 : ℕ))] := hp
    rw [List.mem_singleton.mp hp']
    show 2 * (3 * 0 + a) + 2 ≤ 2 * 6
    have : a < 3 := ha
    omega
  · intro c hc a ha
    show 2 * (3 * (c + 1) + a) + 2 ≤ 2 * 6
    have : a < 3 := ha
    have : c < 1 := hc
    omega

theorem exTM_first (gap : ℝ) : TiedFirst (exTM gap) := by
  intro i _ e _ q q' h1 h2 _
  have : q < 1 := h2
  omega

theorem exTM_only {P : ℕ → ℕ → ℕ → ℕ → ℕ → Prop} {gap : ℝ} (h : P 0 0 0 2 0) : AtTied (exTM gap) P := by
  intro i hi e he cell f hf q hq _
  obtain rfl : i = 0 := by have : i < 1 := hi; omega
  obtain rfl : e = 0 := by have : e < 1 := he; omega
  obtain rfl : q = 0 := by have : q < 1 := hq; omega
  have hf' : some ((0 : ℕ), (2 : ℕ)) = some (cell, f) := hf
  obtain ⟨rfl, rfl⟩ := Prod.mk.inj (Option.some.inj hf')
  exact h

theorem exTM_nodes (gap : ℝ) : TieNodesAt (exTM gap) (exTE 2) (ContactProblem.exRx gap 0)
    ∧ TieNodesOfMesh (exTM gap) (exTE 2) (ContactProblem.exRx gap 0)
    ∧ (gap = 0 → TieNoGap (exTM gap)) ∧ TieSumsToOne (exTM gap) (exTE 2) := by
  refine ⟨exTM_only ?_, exTM_only ?_, fun h => exTM_only ?_, ?_⟩
  · intro a ha
    have : a = 0 ∨ a = 1 := by have : a < 2 := ha; omega
    rcases this with rfl | rfl
    · simp [tieOpposite, tieValue, oppositeCell, exTM, exTE, sum_range_succ, ContactProblem.exRx]
    · simp [tieOpposite, tieValue, oppositeCell, exTM, exTE, sum_range_succ, ContactProblem.exRx]
      ring
  · intro a ha b hb
    have h1 : a = 0 ∨ a = 1 := by have : a < 2 := ha; omega
    have h2 : b = 0 ∨ b = 1 := by have : b < 2 := hb; omega
    rcases h1 with rfl | rfl <;> rcases h2 with rfl | rfl <;>
      simp [tieGrad, tieOppositeGrad, oppositeCell, exTM, exTE, sum_range_succ, ContactProblem.exRx] <;> ring
  · intro a ha
    simp [exTM, h]
  · intro i _ e _ cell f _ q _
    refine ⟨?_, fun j hj => ?_, ?_, fun j hj => ?_⟩
    · simp [exTE, sum_range_succ]
      norm_num
    · have : j = 0 ∨ j = 1 := by have : j < 2 := hj; omega
      rcases this with rfl | rfl <;> simp [exTE, sum_range_succ]
    · simp [exTE, sum_range_succ]
      norm_num
    · have : j = 0 ∨ j = 1 := by have : j < 2 := hj; omega
      rcases this with rfl | rfl <;> simp [exTE, sum_range_succ]

/-- The midpoint is tied if the gap is not more than the size of the cells. -/
theorem exTM_tied {gap : ℝ} (h0 : 0 ≤ gap) (h2 : gap ≤ 2) : Tied (exTM gap) 0 0 0 := by
  have hn : gapNorm (exTM gap) 0 0 0 = gap := by
    have : gapNorm (exTM gap) 0 0 0 = Real.sqrt (gap ^ 2) := by
      unfold gapNorm
      simp [exTM, sum_range_succ]
    rw [this, Real.sqrt_sq h0]
  refine ⟨⟨0, Nat.one_pos, ?_⟩, Or.inr ?_⟩
  · rw [hn]; exact h2
  · rw [hn]
    have : ∑ a ∈ range (exTM gap).gdim, (exTM gap).gap 0 ((0 * (exTM gap).nq + 0) * (exTM gap).gdim + a)
        * (exTM gap).ny 0 ((0 * (exTM gap).nq + 0) * (exTM gap).gdim + a) = -gap := by
      simp [exTM, sum_range_succ]
    rw [this, abs_neg, abs_of_nonneg h0]
    linarith

/-- The hypotheses of the C171 theorems hold for the triangles, with and without gap, for elasticity and thermo-elasticity. -/
example (p : Problem) (hp : p = .elasticity ∨ p = .thermo) (gap : ℝ) (mat : Key → ℕ → ℝ) (u T : ℕ → ℝ) (gamma theta : ℝ) :
    ∃ ops g, TieMesh.Valid (exTM gap) ∧ TieElement.Valid (exTM gap) (exTE 2)
      ∧ TieDofsBelow (exTM gap) (exTE 2) ((exTM gap).gdim * 6) ∧ TiedFirst (exTM gap) ∧ TieSumsToOne (exTM gap) (exTE 2)
      ∧ TieNodesAt (exTM gap) (exTE 2) (ContactProblem.exRx gap 0) ∧ TieNodesOfMesh (exTM gap) (exTE 2) (ContactProblem.exRx gap 0)
      ∧ (gap = 0 → TieNoGap (exTM gap)) ∧ (0 ≤ gap → gap ≤ 2 → Tied (exTM gap) 0 0 0) ∧ (exTE 2).bs = (exTM gap).gdim
      ∧ ProperHistory (exTM gap).static Tracked.new ops
      ∧ (ops.foldl Tracked.step Tracked.new).get p = some g
      ∧ GeneratedFor (exTM gap) (exTE 2) (exTE 1) p mat gamma theta g
      ∧ SolutionIs (exTM gap) (exTE 2) u g
      ∧ (p = .thermo → TemperatureIs (exTM gap) (exTE 1) T g ∧ TieElement.Valid (exTM gap) (exTE 1)) := by
  have hc : (exTE 2).bs = comps (exTM gap).static p := by rcases hp with rfl | rfl <;> rfl
  obtain ⟨h1, h2, h3, h4, h5⟩ := generate_once (exTM_valid gap) (exTE 2) (exTE 1) (exTE 1) p hc rfl rfl mat u T gamma theta
  obtain ⟨k1, k2, k3, k4⟩ := exTM_nodes gap
  exact ⟨_, _, exTM_valid _, exTE_valid _ _, exTE_below _, exTM_first _, k4, k1, k2, k3, exTM_tied, rfl, h1, h2, h3, h4,
    fun h => ⟨h5 h, exTE_valid _ _⟩⟩

/-- The form at the only point. -/
theorem exTM_sum {gap : ℝ} (h0 : 0 ≤ gap) (h2 : gap ≤ 2) (F : ℕ → ℕ → ℕ → ℕ → ℕ → ℝ) :
    tieSum (exTM gap) F = F 0 0 0 2 0 := by
  have ht := exTM_tied h0 h2
  have hw : tieWeight (exTM gap) 0 2 0 = 1 := by simp [tieWeight, exTM]
  unfold tieSum
  show ∑ i ∈ range 1, ∑ e ∈ range 1, _ = _
  rw [sum_range_one, sum_range_one]
  show Option.elim (some ((0 : ℕ), (2 : ℕ))) _ _ = _
  rw [Option.elim_some]
  show ∑ q ∈ range 1, _ = _
  rw [sum_range_one, if_pos ht, hw, one_mul]

/-- C171: with a gap between the tied surfaces, which the library accepts up to the size of a cell, the moments of the tying
forces do not sum to zero: moving the lower triangle to the right gives a couple. And a rotation of both bodies together
is not free: the matrix times a rotation is not zero. -/
theorem C171_gap_violated (mat : Key → ℕ → ℝ) (gamma theta : ℝ) (hgam : 0 < gamma) :
    ∃ ops g, TieMesh.Valid (exTM 1) ∧ TieElement.Valid (exTM 1) (exTE 2) ∧ TiedFirst (exTM 1) ∧ Tied (exTM 1) 0 0 0
      ∧ TieSumsToOne (exTM 1) (exTE 2)
      ∧ TieNodesAt (exTM 1) (exTE 2) (ContactProblem.exRx 1 0) ∧ TieNodesOfMesh (exTM 1) (exTE 2) (ContactProblem.exRx 1 0)
      ∧ ProperHistory (exTM 1).static Tracked.new ops
      ∧ (ops.foldl Tracked.step Tracked.new).get .elasticity = some g
      ∧ GeneratedFor (exTM 1) (exTE 2) (exTE 1) .elasticity mat gamma theta g
      ∧ SolutionIs (exTM 1) (exTE 2) ContactProblem.exRu g
      ∧ ∃ s b A, run (exTM 1).static State.init ops = some s ∧ (exTM 1).assembleVector (exTE 2) .elasticity s 0 = .ok b
        ∧ (exTM 1).assembleMatrix (exTE 2) .elasticity s 0 = .ok A
        ∧ moment 2 6 (ContactProblem.exRx 1 0) b 0 1 ≠ 0
        ∧ ¬∀ d < 12, ∑ m ∈ range 12, A (d, m) * rigidMotion 2 (planeRotation 0 1) 0 (ContactProblem.exRx 1 0) m = 0 := by
  obtain ⟨h1, h2, h3, h4, -⟩ := generate_once (exTM_valid 1) (exTE 2) (exTE 1) (exTE 1) .elasticity rfl rfl rfl mat
    ContactProblem.exRu 0 gamma theta
  obtain ⟨k1, k2, -, k4⟩ := exTM_nodes 1
  have ht := exTM_tied (gap := 1) zero_le_one one_le_two
  refine ⟨_, _, exTM_valid _, exTE_valid _ _, exTM_first _, ht, k4, k1, k2, h1, h2, h3, h4, ?_⟩
  obtain ⟨s, e1, ⟨A, e4, e5⟩, b, e2, e3⟩ := C117_elasticity_partial (exTM_valid 1) (exTE_valid 1 2) _ (exTE_below 1) (exTM_first 1)
    _ h1 h2 h3
  have hJ : tieJumpAt (exTM 1) (exTE 2) 0 0 0 2 ContactProblem.exRu 0 0 = -1
      ∧ tieJumpAt (exTM 1) (exTE 2) 0 0 0 2 ContactProblem.exRu 0 1 = 0 := by
    constructor
    · simp [tieJumpAt, tieValue, tieOpposite, oppositeCell, exTM, exTE, sum_range_succ, ContactProblem.exRu]
      norm_num
    · simp [tieJumpAt, tieValue, tieOpposite, oppositeCell, exTM, exTE, sum_range_succ, ContactProblem.exRu]
  have hD : ∀ a < 2, ∀ c < 2, tieMeanGrad (exTM 1) (exTE 2) 0 0 0 2 ContactProblem.exRu 0 a c = 0 := by
    intro a ha c hc
    have h1 : a = 0 ∨ a = 1 := by omega
    have h2 : c = 0 ∨ c = 1 := by omega
    rcases h1 with rfl | rfl <;> rcases h2 with rfl | rfl <;>
      simp [tieMeanGrad, tieGrad, tieOppositeGrad, oppositeCell, exTM, exTE, sum_range_succ, ContactProblem.exRu]
  have hS : Skew 2 (tieMeanGrad (exTM 1) (exTE 2) 0 0 0 2 ContactProblem.exRu 0) := by
    intro a ha c hc
    rw [hD a ha c hc, hD c hc a ha, neg_zero]
  have hF : ∀ a < 2, tieForce (exTM 1) (exTE 2) (exTE 1) mat gamma ContactProblem.exRu 0 0 0 2 0 a
      = gamma / 4 * tieJumpAt (exTM 1) (exTE 2) 0 0 0 2 ContactProblem.exRu 0 a := by
    intro a ha
    unfold tieForce
    rw [traction_skew (g := (exTM 1).gdim) _ _ _ hS ha]
    show 1 / 2 * (-0 + gamma / 2 * _) = _
    ring
  have hmom : tieGapMoment (exTM 1) (tieForce (exTM 1) (exTE 2) (exTE 1) mat gamma ContactProblem.exRu) 0 1 = -gamma / 4 := by
    unfold tieGapMoment
    rw [exTM_sum zero_le_one one_le_two, hF 0 (by norm_num), hF 1 (by norm_num), hJ.1, hJ.2]
    have g0 : (exTM 1).gap 0 ((0 * (exTM 1).nq + 0) * (exTM 1).gdim + 0) = 0 := by simp [exTM]
    have g1 : (exTM 1).gap 0 ((0 * (exTM 1).nq + 0) * (exTM 1).gdim + 1) = -1 := by simp [exTM]
    rw [g0, g1]
    ring
  refine ⟨s, b, A, e1, e2, e4, ?_, fun hz => ?_⟩
  · have := moment_work 6 (ContactProblem.exRx 1 0) b (g := 2) (i := 0) (j := 1) (by norm_num) (by norm_num)
    rw [← this]
    rw [show ∑ d ∈ range (2 * 6), b d * rigidMotion 2 (planeRotation 0 1) 0 (ContactProblem.exRx 1 0) d = _ from
      e3 ContactProblem.exRu h4 _]
    rw [show elasticTie (exTM 1) (exTE 2) (exTE 1) mat gamma theta ContactProblem.exRu
      (rigidMotion 2 (planeRotation 0 1) 0 (ContactProblem.exRx 1 0)) = _ from
        elasticTie_rotation (M := exTM 1) rfl k4 k1 k2 (by decide) (by decide) _, hmom]
    intro h
    linarith
  · -- tested with the motion of the lower body
    have h := e5 (rigidMotion 2 (planeRotation 0 1) 0 (ContactProblem.exRx 1 0)) ContactProblem.exRu
    have hl : ∑ d ∈ range ((exTM 1).gdim * 6), ∑ c ∈ range ((exTM 1).gdim * 6), ContactProblem.exRu d * A (d, c)
        * rigidMotion 2 (planeRotation 0 1) 0 (ContactProblem.exRx 1 0) c = 0 := by
      refine sum_eq_zero (fun d hd => ?_)
      simp only [mul_assoc]
      rw [← mul_sum]
      rw [show ∑ c ∈ range ((exTM 1).gdim * 6), A (d, c) * rigidMotion 2 (planeRotation 0 1) 0 (ContactProblem.exRx 1 0) c = 0 from
        hz d (mem_range.mp hd), mul_zero]
    rw [hl] at h
    unfold elasticTie at h
    rw [exTM_sum zero_le_one one_le_two] at h
    have hr := fun a (ha : a < 2) => rigid_tied (M := exTM 1) rfl k4 k1 k2 (planeRotation 0 1) 0 (i := 0) (e := 0) (cell := 0) (f := 2)
      (q := 0) Nat.one_pos Nat.one_pos rfl Nat.one_pos ht (a := a) ha
    have hs : Skew (exTM 1).gdim (tieMeanGrad (exTM 1) (exTE 2) 0 0 0 2 (rigidMotion 2 (planeRotation 0 1) 0 (ContactProblem.exRx 1 0)) 0) := by
      intro a ha c hc
      refine ((hr a ha).2 c hc).trans (Eq.trans ?_ (congrArg Neg.neg ((hr c hc).2 a ha)).symm)
      exact planeRotation_skew 2 0 1 a ha c hc
    have hj0 : tieJumpAt (exTM 1) (exTE 2) 0 0 0 2 (rigidMotion 2 (planeRotation 0 1) 0 (ContactProblem.exRx 1 0)) 0 0 = -1 := by
      refine (hr 0 (by norm_num)).1.trans ?_
      show -∑ b ∈ range 2, planeRotation 0 1 0 b * (exTM 1).gap 0 ((0 * 1 + 0) * 2 + b) = -1
      simp [sum_range_succ, planeRotation, exTM]
    unfold elasticPart at h
    rw [sum_eq_zero (s := range (exTM 1).gdim) (f := fun a => traction (exTM 1).gdim _ _
        (tieMeanGrad (exTM 1) (exTE 2) 0 0 0 2 ContactProblem.exRu 0) _ a * _)
      (fun a ha => by rw [traction_skew (g := (exTM 1).gdim) _ _ _ hS (mem_range.mp ha), zero_mul])] at h
    rw [sum_congr rfl (fun a ha => by rw [traction_skew (g := (exTM 1).gdim) _ _ _ hs (mem_range.mp ha)])] at h
    have e0 : (exTM 1).gdim = 2 := rfl
    have eh : (exTM 1).h 0 0 = 2 := rfl
    rw [e0, sum_range_succ, sum_range_one, hJ.1, hJ.2, hj0, eh] at h
    linarith

end

end Verif.TieData
