import Verif.Props.SystemTangent
import Verif.Props.PartitionMatrix
import Verif.Props.SystemBalance
import Verif.Spec.PairOrder

/-!
Properties C159 and C160: the order of the contact pairs does not matter; contact couples only the dofs at the contact
zone.
-/

namespace Verif.ContactProblem

open Verif.Spec Verif.Packing Verif.Assembly Verif.Kernels Finset

noncomputable section

variable {G : Type} {Y : System G}

theorem relisted_valid {p : ℕ → ℕ} (hp : Lists Y.numPairs p) (hY : System.Valid Y) : System.Valid (relisted Y p) where
  pairs := hY.pairs
  dim := hY.dim
  points := hY.points
  cell := hY.cell
  loc := fun i hi => hY.loc _ (hp.1 i hi)
  gap := fun g i hi => hY.gap g _ (hp.1 i hi)
  nx := fun g i hi => hY.nx g _ (hp.1 i hi)
  ny := fun g i hi => hY.ny g _ (hp.1 i hi)
  space := hY.space
  search := fun g i hi => hY.search g _ (hp.1 i hi)
  cells := fun g i => hY.cells g (p i)
  shared := hY.shared
  affine := hY.affine

theorem relisted_below {p : ℕ → ℕ} (hp : Lists Y.numPairs p) {N : ℕ} (h : DofsBelow Y N) : DofsBelow (relisted Y p) N :=
  ⟨fun i hi => h.1 _ (hp.1 i hi), h.2⟩

theorem relisted_scalar {p : ℕ → ℕ} (hp : Lists Y.numPairs p) {m : ℕ → Mat} (h : ScalarShaped Y.static m) :
    ScalarShaped (relisted Y p).static (fun i => m (p i)) := fun i hi => h _ (hp.1 i hi)

theorem relisted_grad {p : ℕ → ℕ} (hp : Lists Y.numPairs p) {m : ℕ → Mat} (h : GradShaped Y.static m) :
    GradShaped (relisted Y p).static (fun i => m (p i)) := fun i hi => h _ (hp.1 i hi)

theorem relisted_du {p : ℕ → ℕ} (hp : Lists Y.numPairs p) {d : Du G} (h : DuShaped Y.static d) :
    DuShaped (relisted Y p).static (relistedDu p d) :=
  ⟨fun i hi => h.val _ (hp.1 i hi), relisted_grad hp h.grad, fun g i hi => h.opp g _ (hp.1 i hi)⟩

theorem relisted_shaped {p : ℕ → ℕ} (hp : Lists Y.numPairs p) {op : Op G} (h : OpShaped Y.static op) :
    OpShaped (relisted Y p).static (relistedCall p op) := by
  cases op with
  | generate a =>
    obtain ⟨h1, h2, h3, h4, h5, h6⟩ := h
    refine ⟨?_, ?_, ?_, relisted_scalar hp h4, ?_, ?_⟩ <;> intro m hm <;>
      obtain ⟨m', hm', rfl⟩ := Option.map_eq_some_iff.mp hm
    · exact relisted_scalar hp (h1 _ hm')
    · exact relisted_scalar hp (h2 _ hm')
    · exact relisted_scalar hp (h3 _ hm')
    · exact relisted_grad hp (h5 _ hm')
    · exact relisted_du hp (h6 _ hm')
  | updateData d => exact relisted_du hp h
  | updateDetection move m => exact relisted_grad hp h
  | updateNitsche gamma theta => trivial

/-- The tracked data of the pairs in the other order. -/
def relistedTracked (p : ℕ → ℕ) (t : Tracked G) : Tracked G :=
  { t with
    mu := fun i => t.mu (p i)
    lam := fun i => t.lam (p i)
    fric := fun i => t.fric (p i)
    h := fun i => t.h (p i)
    gradU := fun i => t.gradU (p i)
    disp := fun i => t.disp (p i)
    dispGrad := fun i => t.dispGrad (p i)
    dispOpp := fun i => t.dispOpp (p i) }

theorem relisted_call (p : ℕ → ℕ) (t : Tracked G) (op : Op G) :
    (relistedTracked p t).call (relistedCall p op) = relistedTracked p (t.call op) := by
  cases op with
  | generate a =>
    cases h1 : a.mu <;> cases h2 : a.lam <;> cases h3 : a.du <;> cases h4 : a.fric <;> cases h5 : a.u <;>
      simp [relistedCall, Tracked.call, h1, h2, h3, h4, h5] <;> rfl
  | updateData d =>
    simp only [relistedCall, Tracked.call]
    show (if t.created = true then _ else _) = _
    split <;> rfl
  | updateDetection move m =>
    simp only [relistedCall, Tracked.call]
    show (if t.created = true then _ else _) = _
    split <;> rfl
  | updateNitsche gamma theta => rfl

theorem relisted_history (p : ℕ → ℕ) (ops : List (Op G)) (t : Tracked G) :
    (relistedTracked p t).history (ops.map (relistedCall p)) = relistedTracked p (t.history ops) := by
  induction ops generalizing t with
  | nil => rfl
  | cons op ops ih =>
    show ((relistedTracked p t).call (relistedCall p op)).history (ops.map (relistedCall p)) = _
    rw [relisted_call, ih]
    rfl

theorem relisted_law (p : ℕ → ℕ) (ops : List (Op G)) (l : Option Law) :
    lastLaw (ops.map (relistedCall p)) l = lastLaw ops l := by
  induction ops generalizing l with
  | nil => rfl
  | cons op ops ih => cases op <;> simp only [List.map_cons, relistedCall, lastLaw, ih]

theorem relisted_consts (p : ℕ → ℕ) (ops : List (Op G)) (l : Option (ℝ × ℝ)) :
    lastConsts (ops.map (relistedCall p)) l = lastConsts ops l := by
  induction ops generalizing l with
  | nil => rfl
  | cons op ops ih => cases op <;> simp only [List.map_cons, relistedCall, lastConsts, ih]

theorem sum_listed {n : ℕ} {p : ℕ → ℕ} (hp : Lists n p) (F : ℕ → ℝ) : ∑ i ∈ range n, F (p i) = ∑ i ∈ range n, F i := by
  have hinj : Set.InjOn p (range n : Set ℕ) := by
    intro i hi j hj h
    exact hp.2 i (by simpa using hi) j (by simpa using hj) h
  have himg : (range n).image p = range n := by
    refine eq_of_subset_of_card_le ?_ ?_
    · intro x hx
      obtain ⟨i, hi, rfl⟩ := mem_image.mp hx
      exact mem_range.mpr (hp.1 i (mem_range.mp hi))
    · rw [card_image_of_injOn hinj]
  rw [← sum_image (f := F) hinj, himg]

theorem relisted_form {p : ℕ → ℕ} (hp : Lists Y.numPairs p) (t : Tracked G) (law : Law) (gamma theta : ℝ) (u v : ℕ → ℝ) :
    contactForm (relisted Y p) (relistedTracked p t) law gamma theta u v = contactForm Y t law gamma theta u v :=
  sum_listed hp (fun i => ∑ e ∈ range (Y.localFacets i),
    ((Y.facets i)[e]?).elim 0 (fun p => ∑ q ∈ range Y.nq,
      if 0 ≤ Y.map t.cur i (e * Y.nq + q) then
        weightAt Y p.1 p.2 q * (pointAt Y t i e p.1 p.2 q).form law gamma theta
          (jumpAt Y t.cur i e p.1 p.2 u q)
          (fun a b => gradAt Y p.1 p.2 u q a b + (pointAt Y t i e p.1 p.2 q).grad0 a b)
          (jumpAt Y t.cur i e p.1 p.2 v q) (gradAt Y p.1 p.2 v q)
      else 0))

theorem relisted_tangent {p : ℕ → ℕ} (hp : Lists Y.numPairs p) (t : Tracked G) (S : Slope) (law : Law) (gamma theta : ℝ)
    (u w v : ℕ → ℝ) :
    contactTangent (relisted Y p) (relistedTracked p t) S law gamma theta u w v = contactTangent Y t S law gamma theta u w v :=
  sum_listed hp (fun i => ∑ e ∈ range (Y.localFacets i),
    ((Y.facets i)[e]?).elim 0 (fun p => ∑ q ∈ range Y.nq,
      if 0 ≤ Y.map t.cur i (e * Y.nq + q) then
        weightAt Y p.1 p.2 q * (pointAt Y t i e p.1 p.2 q).dForm S law gamma theta
          (jumpAt Y t.cur i e p.1 p.2 u q)
          (fun a b => gradAt Y p.1 p.2 u q a b + (pointAt Y t i e p.1 p.2 q).grad0 a b)
          (jumpAt Y t.cur i e p.1 p.2 w q) (gradAt Y p.1 p.2 w q)
          (jumpAt Y t.cur i e p.1 p.2 v q) (gradAt Y p.1 p.2 v q)
      else 0))

theorem below_mono {N M : ℕ} (h : DofsBelow Y N) (hNM : N ≤ M) : DofsBelow Y M :=
  ⟨fun i hi p hp a ha => (h.1 i hi p hp a ha).trans hNM, fun c hc a ha => (h.2 c hc a ha).trans hNM⟩

/-- The unit vector of a dof. -/
def dofUnit (d : ℕ) (c : ℕ) : ℝ := if c = d then 1 else 0

section

variable (hY : System.Valid Y) (ops : List (Op G)) (hops : ∀ op ∈ ops, OpShaped Y.static op)
  (g : G) (law : Law) (hlaw : lastLaw ops none = some law)
  (gamma theta : ℝ) (hconsts : lastConsts ops none = some (gamma, theta))
  (s : State G) (hs : s = history Y.static ops (init Y.static g)) (hc : s.coeffs ≠ none)
  (N : ℕ) (hN : DofsBelow Y N)

include hY hops hlaw hconsts hs hc hN

/-- All entries of the assembled vector. -/
theorem vector_entries (h23 : law ≠ .frictionless → Y.gdim = 2 ∨ Y.gdim = 3) (u : ℕ → ℝ) :
    ∃ (s' : State G) (b : Arr ℕ), updateContactData Y.static (Y.du u) s = .ok s' ∧ Y.assembleVector s' 0 = .ok b
      ∧ ∀ d, b d = contactForm Y ((Tracked.new g).history ops) law gamma theta u (dofUnit d) := by
  obtain ⟨s0, b0, h1, h2, -⟩ := C114_form hY ops hops g law hlaw h23 gamma theta hconsts s hs hc N hN u 0
  refine ⟨s0, b0, h1, h2, fun d => ?_⟩
  obtain ⟨s', b, h3, h4, h5⟩ := C114_form hY ops hops g law hlaw h23 gamma theta hconsts s hs hc (max N (d + 1))
    (below_mono hN (le_max_left _ _)) u (dofUnit d)
  obtain rfl : s0 = s' := Except.ok.inj (h1.symm.trans h3)
  obtain rfl : b0 = b := Except.ok.inj (h2.symm.trans h4)
  rw [← h5]
  have hd : d < max N (d + 1) := by omega
  simp [dofUnit, hd]

/-- All entries of the assembled matrix. -/
theorem matrix_entries
    (h23 : law ≠ .frictionless → (Y.gdim = 2 ∨ Y.gdim = 3) ∧ UnitNormals Y ((Tracked.new g).history ops)) (u : ℕ → ℝ) :
    ∃ (s' : State G) (A : Arr (ℕ × ℕ)), updateContactData Y.static (Y.du u) s = .ok s' ∧ Y.assembleMatrix s' 0 = .ok A
      ∧ ∀ d c, A (d, c) = contactTangent Y ((Tracked.new g).history ops) cutSlope law gamma theta u (dofUnit c) (dofUnit d) := by
  obtain ⟨s0, A0, h1, h2, -⟩ := C131_matrix hY ops hops g law hlaw h23 gamma theta hconsts s hs hc N hN u
  refine ⟨s0, A0, h1, h2, fun d c => ?_⟩
  obtain ⟨s', A, h3, h4, h5⟩ := C131_matrix hY ops hops g law hlaw h23 gamma theta hconsts s hs hc (max N (max d c + 1))
    (below_mono hN (le_max_left _ _)) u
  obtain rfl : s0 = s' := Except.ok.inj (h1.symm.trans h3)
  obtain rfl : A0 = A := Except.ok.inj (h2.symm.trans h4)
  rw [← h5]
  have hd : d < max N (max d c + 1) := by omega
  have hc' : c < max N (max d c + 1) := by omega
  simp [dofUnit, hd, hc']

theorem relisted_coeffs {p : ℕ → ℕ} (hp : Lists Y.numPairs p) :
    (history (relisted Y p).static (ops.map (relistedCall p)) (init (relisted Y p).static g)).coeffs ≠ none := by
  have H := good_history (static_shaped hY) ops hops (good_init Y.static g)
  have hcr : ((Tracked.new g).history ops).created = true := by
    cases h : ((Tracked.new g).history ops).created with
    | false => exact absurd (H.fresh h).1 (hs ▸ hc)
    | true => rfl
  have H' := good_history (static_shaped (relisted_valid hp hY)) (ops.map (relistedCall p))
    (fun op hop => by
      obtain ⟨op', hop', rfl⟩ := List.mem_map.mp hop
      exact relisted_shaped hp (hops op' hop')) (good_init (relisted Y p).static g)
  have hcr' : ((Tracked.new g).history (ops.map (relistedCall p))).created = true := by
    have := relisted_history p ops (Tracked.new g)
    rw [show relistedTracked p (Tracked.new g) = Tracked.new g from rfl] at this
    rw [this]
    exact hcr
  obtain ⟨cs, nQ, hcs, -⟩ := H'.full hcr'
  rw [hcs]
  simp

/-- C159: the order of the contact pairs does not matter for the vector.  If the pairs are listed in another order and
every call gets its data in that order, `assemble_vector` builds the same vector. -/
theorem C159_vector {p : ℕ → ℕ} (hp : Lists Y.numPairs p) (h23 : law ≠ .frictionless → Y.gdim = 2 ∨ Y.gdim = 3)
    (u : ℕ → ℝ) :
    ∃ (s1 s2 : State G) (b : Arr ℕ), updateContactData Y.static (Y.du u) s = .ok s1 ∧ Y.assembleVector s1 0 = .ok b
      ∧ updateContactData (relisted Y p).static ((relisted Y p).du u)
          (history (relisted Y p).static (ops.map (relistedCall p)) (init (relisted Y p).static g)) = .ok s2
      ∧ (relisted Y p).assembleVector s2 0 = .ok b := by
  obtain ⟨s1, b, h1, h2, h3⟩ := vector_entries hY ops hops g law hlaw gamma theta hconsts s hs hc N hN h23 u
  obtain ⟨s2, b', h4, h5, h6⟩ := vector_entries (relisted_valid hp hY) (ops.map (relistedCall p))
    (fun op hop => by
      obtain ⟨op', hop', rfl⟩ := List.mem_map.mp hop
      exact relisted_shaped hp (hops op' hop')) g law ((relisted_law p ops none).trans hlaw) gamma theta
    ((relisted_consts p ops none).trans hconsts) _ rfl
    (relisted_coeffs hY ops hops g law hlaw gamma theta hconsts s hs hc N hN hp) N (relisted_below hp hN) h23 u
  have e : b' = b := by
    funext d
    rw [h6, h3]
    have := relisted_history p ops (Tracked.new g)
    rw [show relistedTracked p (Tracked.new g) = Tracked.new g from rfl] at this
    rw [this, relisted_form hp]
  exact ⟨s1, s2, b, h1, h2, h4, e ▸ h5⟩

/-- C159: nor for the matrix. -/
theorem C159_matrix {p : ℕ → ℕ} (hp : Lists Y.numPairs p)
    (h23 : law ≠ .frictionless → (Y.gdim = 2 ∨ Y.gdim = 3) ∧ UnitNormals Y ((Tracked.new g).history ops)) (u : ℕ → ℝ) :
    ∃ (s1 s2 : State G) (A : Arr (ℕ × ℕ)), updateContactData Y.static (Y.du u) s = .ok s1
      ∧ Y.assembleMatrix s1 0 = .ok A
      ∧ updateContactData (relisted Y p).static ((relisted Y p).du u)
          (history (relisted Y p).static (ops.map (relistedCall p)) (init (relisted Y p).static g)) = .ok s2
      ∧ (relisted Y p).assembleMatrix s2 0 = .ok A := by
  obtain ⟨s1, A, h1, h2, h3⟩ := matrix_entries hY ops hops g law hlaw gamma theta hconsts s hs hc N hN h23 u
  have ht := relisted_history p ops (Tracked.new g)
  rw [show relistedTracked p (Tracked.new g) = Tracked.new g from rfl] at ht
  obtain ⟨s2, A', h4, h5, h6⟩ := matrix_entries (relisted_valid hp hY) (ops.map (relistedCall p))
    (fun op hop => by
      obtain ⟨op', hop', rfl⟩ := List.mem_map.mp hop
      exact relisted_shaped hp (hops op' hop')) g law ((relisted_law p ops none).trans hlaw) gamma theta
    ((relisted_consts p ops none).trans hconsts) _ rfl
    (relisted_coeffs hY ops hops g law hlaw gamma theta hconsts s hs hc N hN hp) N (relisted_below hp hN)
    (fun h => ⟨(h23 h).1, by
      rw [ht]
      exact fun i hi => (h23 h).2 _ (hp.1 i hi)⟩) u
  have e : A' = A := by
    funext ⟨d, c⟩
    rw [h6, h3, ht, relisted_tangent hp]
  exact ⟨s1, s2, A, h1, h2, h4, e ▸ h5⟩

end

/-! ### C160 -/

theorem samePoint_refl (p : ContactPoint) : SamePoint p p :=
  ⟨rfl, rfl, rfl, rfl, rfl, fun _ _ => rfl, fun _ _ => rfl, fun _ _ => rfl, fun _ _ => rfl⟩

/-- Displacements with the same dofs in a cell. -/
theorem valueAt_same {cell : ℕ} {u u' : ℕ → ℝ} (h : ∀ d, DofOf Y cell d → u d = u' d) (f q : ℕ) {a : ℕ} (ha : a < Y.gdim) :
    valueAt Y cell f u q a = valueAt Y cell f u' q a :=
  sum_congr rfl (fun k hk => by rw [h _ ⟨k, mem_range.mp hk, a, ha, rfl⟩])

theorem gradAt_same {cell : ℕ} {u u' : ℕ → ℝ} (h : ∀ d, DofOf Y cell d → u d = u' d) (f q : ℕ) {a : ℕ} (ha : a < Y.gdim)
    (b : ℕ) : gradAt Y cell f u q a b = gradAt Y cell f u' q a b :=
  sum_congr rfl (fun k hk => by rw [h _ ⟨k, mem_range.mp hk, a, ha, rfl⟩])

theorem jumpAt_same {g : G} {i e cell q : ℕ} {u u' : ℕ → ℝ} (h : ∀ d, DofAt Y g i e cell q d → u d = u' d) (f : ℕ) {a : ℕ}
    (ha : a < Y.gdim) : jumpAt Y g i e cell f u q a = jumpAt Y g i e cell f u' q a := by
  have h1 := valueAt_same (fun d hd => h d (Or.inl hd)) f q ha
  have h2 : oppositeAt Y g i e u q a = oppositeAt Y g i e u' q a :=
    sum_congr rfl (fun k hk => by rw [h _ (Or.inr ⟨k, mem_range.mp hk, a, ha, rfl⟩)])
  rw [jumpAt, jumpAt, h1, h2]

theorem dot_zero (p : ContactPoint) {x : ℕ → ℝ} (hx : ∀ a < p.g, x a = 0) : p.dot x = 0 :=
  sum_eq_zero (fun a ha => by rw [hx a (mem_range.mp ha), zero_mul])

theorem tang_zero (p : ContactPoint) {x : ℕ → ℝ} (hx : ∀ a < p.g, x a = 0) {a : ℕ} (ha : a < p.g) : p.tang x a = 0 := by
  rw [ContactPoint.tang, dot_zero p hx, hx a ha, zero_mul, sub_zero]

theorem cutSlope_zero {g : ℕ} (x : ℕ → ℝ) (r : ℝ) {y : ℕ → ℝ} (hy : ∀ a < g, y a = 0) {a : ℕ} (ha : a < g) :
    cutSlope g x r y a = 0 := by
  unfold cutSlope ballSlope
  have e : ∑ b ∈ range g, x b * y b = 0 := sum_eq_zero (fun b hb => by rw [hy b (mem_range.mp hb), mul_zero])
  rw [hy a ha, e]
  simp

/-- Linearised in a direction without jump and gradient, or tested with such a function, the form vanishes. -/
theorem dForm_none (p : ContactPoint) (law : Law) (gamma theta : ℝ) (J : ℕ → ℝ) (D : ℕ → ℕ → ℝ) {K J' : ℕ → ℝ}
    {E D' : ℕ → ℕ → ℝ}
    (h : ((∀ a < p.g, K a = 0) ∧ ∀ a < p.g, ∀ b < p.g, E a b = 0)
      ∨ ((∀ a < p.g, J' a = 0) ∧ ∀ a < p.g, ∀ b < p.g, D' a b = 0)) :
    p.dForm cutSlope law gamma theta J D K E J' D' = 0 := by
  rcases h with ⟨hJ, hD⟩ | ⟨hJ, hD⟩
  · have ht : ∀ a < p.g, p.trac E a = 0 := fun a ha => traction_zero _ _ _ hD ha
    have hP : p.dPressure gamma K E = 0 := by
      rw [ContactPoint.dPressure, dot_zero p hJ, dot_zero p ht]; ring
    have hs : ∀ a < p.g, p.slip gamma K E a = 0 := by
      intro a ha
      rw [ContactPoint.slip, tang_zero p hJ ha, tang_zero p ht ha]; ring
    have hp : ∀ a < p.g, p.dProjected cutSlope law gamma J D K E a = 0 := by
      intro a ha
      cases law with
      | frictionless => rfl
      | tresca =>
        simp only [ContactPoint.dProjected]
        exact cutSlope_zero _ _ hs ha
      | coulomb =>
        simp only [ContactPoint.dProjected]
        rw [cutSlope_zero _ _ (fun b hb => by rw [hs b hb, dot_zero p hJ]; ring) ha, hP]
        ring
    have e1 : p.dNormalPart gamma theta J D K E J' D' = 0 := by
      rw [ContactPoint.dNormalPart, hP, dot_zero p ht]; ring
    have e2 : p.dFrictionPart cutSlope law gamma theta J D K E J' D' = 0 := by
      rw [ContactPoint.dFrictionPart,
        sum_eq_zero (fun a ha => by rw [hp a (mem_range.mp ha), zero_mul]),
        sum_eq_zero (fun a ha => by rw [tang_zero p ht (mem_range.mp ha), zero_mul])]
      ring
    rw [ContactPoint.dForm, e1, e2]
    simp
  · have ht : ∀ a < p.g, p.trac D' a = 0 := fun a ha => traction_zero _ _ _ hD ha
    have e1 : p.dNormalPart gamma theta J D K E J' D' = 0 := by
      rw [ContactPoint.dNormalPart, dot_zero p hJ, dot_zero p ht]; ring
    have e2 : p.dFrictionPart cutSlope law gamma theta J D K E J' D' = 0 := by
      rw [ContactPoint.dFrictionPart,
        sum_eq_zero (fun a ha => by rw [tang_zero p hJ (mem_range.mp ha), tang_zero p ht (mem_range.mp ha)]; ring),
        sum_eq_zero (fun a ha => by rw [tang_zero p ht (mem_range.mp ha), mul_zero])]
      ring
    rw [ContactPoint.dForm, e1, e2]
    simp

theorem value_zero (Y : System G) (cell f q a : ℕ) : valueAt Y cell f 0 q a = 0 := by simp [valueAt]

theorem grad_zero (Y : System G) (cell f q a b : ℕ) : gradAt Y cell f 0 q a b = 0 := by simp [gradAt]

theorem jump_zero (Y : System G) (g : G) (i e cell f q a : ℕ) : jumpAt Y g i e cell f 0 q a = 0 := by
  simp [jumpAt, valueAt, oppositeAt]

/-- The form depends only on the dofs at the contact zone. -/
theorem contactForm_same {t : Tracked G} {law : Law} {gamma theta : ℝ} {u u' v v' : ℕ → ℝ}
    (hu : ∀ d, ContactDof Y t.cur d → u d = u' d) (hv : ∀ d, ContactDof Y t.cur d → v d = v' d) :
    contactForm Y t law gamma theta u v = contactForm Y t law gamma theta u' v' := by
  unfold contactForm
  refine sum_congr rfl (fun i hi => sum_congr rfl (fun e he => ?_))
  cases hp : (Y.facets i)[e]? with
  | none => rw [Option.elim_none, Option.elim_none]
  | some p =>
    simp only [Option.elim_some]
    refine sum_congr rfl (fun q hq => ?_)
    split
    · rename_i h0
      have hI : PointInContact Y t.cur i e p.1 q := ⟨mem_range.mp hi, mem_range.mp he, ⟨p.2, hp⟩, mem_range.mp hq, h0⟩
      have hu' : ∀ d, DofAt Y t.cur i e p.1 q d → u d = u' d := fun d hd => hu d ⟨i, e, p.1, q, hI, hd⟩
      have hv' : ∀ d, DofAt Y t.cur i e p.1 q d → v d = v' d := fun d hd => hv d ⟨i, e, p.1, q, hI, hd⟩
      have hg : (pointAt Y t i e p.1 p.2 q).g = Y.gdim := rfl
      generalize pointAt Y t i e p.1 p.2 q = P at hg ⊢
      rw [SamePoint.form (samePoint_refl P) law gamma theta (fun a ha => jumpAt_same hu' p.2 (hg ▸ ha))
        (E := fun a b => gradAt Y p.1 p.2 u' q a b + P.grad0 a b)
        (fun a ha b _ => by rw [gradAt_same (fun d hd => hu' d (Or.inl hd)) p.2 q (hg ▸ ha) b])
        (fun a ha => jumpAt_same hv' p.2 (hg ▸ ha))
        (fun a ha b _ => gradAt_same (fun d hd => hv' d (Or.inl hd)) p.2 q (hg ▸ ha) b)]
    · rfl

theorem contactForm_untested (t : Tracked G) (law : Law) (gamma theta : ℝ) (u : ℕ → ℝ) :
    contactForm Y t law gamma theta u 0 = 0 := by
  unfold contactForm
  refine sum_eq_zero (fun i _ => sum_eq_zero (fun e _ => ?_))
  cases (Y.facets i)[e]? with
  | none => rfl
  | some p =>
    simp only [Option.elim_some]
    refine sum_eq_zero (fun q _ => ?_)
    split
    · rw [form_zero _ _ _ _ _ _ (fun a _ => jump_zero Y _ _ _ _ _ _ _) (fun a _ b _ => grad_zero Y _ _ _ _ _), mul_zero]
    · rfl

theorem unit_off {P : ℕ → Prop} {d : ℕ} (h : ¬P d) : ∀ c, P c → dofUnit d c = (0 : ℕ → ℝ) c := by
  intro c hc
  have : c ≠ d := fun e => h (e ▸ hc)
  simp [dofUnit, this]

/-- Entries of dofs no point has in common vanish. -/
theorem contactTangent_uncoupled {t : Tracked G} {law : Law} {gamma theta : ℝ} {u : ℕ → ℝ} {d c : ℕ}
    (h : ¬Coupled Y t.cur d c) : contactTangent Y t cutSlope law gamma theta u (dofUnit c) (dofUnit d) = 0 := by
  unfold contactTangent
  refine sum_eq_zero (fun i hi => sum_eq_zero (fun e he => ?_))
  cases hp : (Y.facets i)[e]? with
  | none => rfl
  | some p =>
    simp only [Option.elim_some]
    refine sum_eq_zero (fun q hq => ?_)
    split
    · rename_i h0
      have hI : PointInContact Y t.cur i e p.1 q := ⟨mem_range.mp hi, mem_range.mp he, ⟨p.2, hp⟩, mem_range.mp hq, h0⟩
      have key : ∀ x, ¬DofAt Y t.cur i e p.1 q x →
          (∀ a < Y.gdim, jumpAt Y t.cur i e p.1 p.2 (dofUnit x) q a = 0)
          ∧ ∀ a < Y.gdim, ∀ b < Y.gdim, gradAt Y p.1 p.2 (dofUnit x) q a b = 0 := by
        intro x hx
        refine ⟨fun a ha => ?_, fun a ha b _ => ?_⟩
        · rw [jumpAt_same (unit_off (P := DofAt Y t.cur i e p.1 q) hx) _ ha]
          exact jump_zero Y _ _ _ _ _ _ _
        · rw [gradAt_same (fun d hd => unit_off (P := DofAt Y t.cur i e p.1 q) hx d (Or.inl hd)) _ _ ha]
          exact grad_zero Y _ _ _ _ _
      rw [dForm_none, mul_zero]
      by_cases hd : DofAt Y t.cur i e p.1 q d
      · left
        exact key c (fun hc => h ⟨i, e, p.1, q, hI, hd, hc⟩)
      · right
        exact key d hd
    · rfl

section

variable (hY : System.Valid Y) (ops : List (Op G)) (hops : ∀ op ∈ ops, OpShaped Y.static op)
  (g : G) (law : Law) (hlaw : lastLaw ops none = some law)
  (gamma theta : ℝ) (hconsts : lastConsts ops none = some (gamma, theta))
  (s : State G) (hs : s = history Y.static ops (init Y.static g)) (hc : s.coeffs ≠ none)
  (N : ℕ) (hN : DofsBelow Y N)

include hY hops hlaw hconsts hs hc hN

/-- C160: contact acts only at the contact zone.  For every displacement `u` the vector is zero at all dofs that are
not dofs of a cell at the contact zone, on either side, as found by the last contact detection; and it does not change
if the displacement changes only at other dofs. -/
theorem C160_vector (h23 : law ≠ .frictionless → Y.gdim = 2 ∨ Y.gdim = 3) (u : ℕ → ℝ) :
    ∃ (s' : State G) (b : Arr ℕ), updateContactData Y.static (Y.du u) s = .ok s' ∧ Y.assembleVector s' 0 = .ok b
      ∧ (∀ d, ¬ContactDof Y ((Tracked.new g).history ops).cur d → b d = 0)
      ∧ ∀ u' : ℕ → ℝ, (∀ d, ContactDof Y ((Tracked.new g).history ops).cur d → u' d = u d) →
        ∃ s'', updateContactData Y.static (Y.du u') s = .ok s'' ∧ Y.assembleVector s'' 0 = .ok b := by
  obtain ⟨s', b, h1, h2, h3⟩ := vector_entries hY ops hops g law hlaw gamma theta hconsts s hs hc N hN h23 u
  refine ⟨s', b, h1, h2, fun d hd => ?_, fun u' hu => ?_⟩
  · rw [h3, contactForm_same (u' := u) (v' := 0) (fun _ _ => rfl) (unit_off hd), contactForm_untested]
  · obtain ⟨s'', b', h4, h5, h6⟩ := vector_entries hY ops hops g law hlaw gamma theta hconsts s hs hc N hN h23 u'
    have e : b' = b := by
      funext d
      rw [h6, h3, contactForm_same hu (fun _ _ => rfl)]
    exact ⟨s'', h4, e ▸ h5⟩

/-- C160: the matrix couples two dofs only if some point in contact has both: one of its two cells has the one, one of
them the other. -/
theorem C160_matrix
    (h23 : law ≠ .frictionless → (Y.gdim = 2 ∨ Y.gdim = 3) ∧ UnitNormals Y ((Tracked.new g).history ops)) (u : ℕ → ℝ) :
    ∃ (s' : State G) (A : Arr (ℕ × ℕ)), updateContactData Y.static (Y.du u) s = .ok s' ∧ Y.assembleMatrix s' 0 = .ok A
      ∧ ∀ d c, ¬Coupled Y ((Tracked.new g).history ops).cur d c → A (d, c) = 0 := by
  obtain ⟨s', A, h1, h2, h3⟩ := matrix_entries hY ops hops g law hlaw gamma theta hconsts s hs hc N hN h23 u
  exact ⟨s', A, h1, h2, fun d c h => by rw [h3, contactTangent_uncoupled h]⟩

end

/-! ### an example -/

/-- Two pairs: cell 0 touches cell 2, cell 1 touches cell 3 and has a larger gap. Cell 4 touches nothing. -/
def exPairs : System Unit := { exY with
  numPairs := 2
  facets := fun i => [(i, 2)]
  map := fun _ i _ => if i = 0 then 0 else 1
  subCell := fun f => f
  space := ⟨2, 1, 2, fun c _ => c, fun c _ => c, fun c => c + 2⟩
  gap := fun _ i => ⟨1, 2, fun _ m => if m = 1 then i + 2 else 0⟩ }

/-- Generate the data for Tresca friction, with different bounds. -/
def exPairsOps : List (Op Unit) :=
  [.generate ⟨.tresca, some (fun _ => ⟨1, 1, fun _ _ => 3⟩), some (fun _ => ⟨1, 1, fun _ _ => 5⟩),
    some (fun i => ⟨1, 1, fun _ _ => i + 1⟩), none, none, fun _ => ⟨1, 1, fun _ _ => 1⟩, 1, 1⟩]

theorem exPairs_linked (i r : ℕ) : 0 ≤ exPairs.map () i r := by
  show (0 : ℤ) ≤ if i = 0 then 0 else 1
  split <;> omega

theorem exPairs_valid : System.Valid exPairs where
  pairs := by decide
  dim := by decide
  points := by decide
  cell := by simp [exPairs, exY]
  loc := by simp [exPairs, exY]
  gap := by simp [exPairs, exY]
  nx := by simp [exPairs, exY]
  ny := by simp [exPairs, exY]
  space := ⟨rfl, rfl⟩
  search := fun _ i _ e _ => Or.inl (fun q _ => exPairs_linked i _)
  cells := by
    intro g i r f h
    have h' : (if i = 0 then (0 : ℤ) else 1) = f := h
    show f < 2
    split at h' <;> omega
  shared := by simp [exPairs, exY]
  affine := by simp [exPairs, exY]

theorem exPairs_shaped : ∀ op ∈ exPairsOps, OpShaped exPairs.static op := by
  simp [exPairsOps, OpShaped, ScalarShaped, System.static, exPairs, exY]

/-- The hypotheses of C159 and C160 hold for the example with two pairs, listed the other way round, and the dofs 0, 4
are coupled, the dofs 0, 2 are not, though both are contact dofs, and dof 8 is no contact dof. -/
example : System.Valid exPairs ∧ (∀ op ∈ exPairsOps, OpShaped exPairs.static op) ∧ Lists exPairs.numPairs (fun i => 1 - i)
    ∧ lastLaw exPairsOps none = some .tresca ∧ lastConsts exPairsOps none = some (1, 1) ∧ exPairs.gdim = 2
    ∧ (history exPairs.static exPairsOps (init exPairs.static ())).coeffs ≠ none ∧ DofsBelow exPairs 8
    ∧ UnitNormals exPairs ((Tracked.new ()).history exPairsOps)
    ∧ Coupled exPairs () 0 4 ∧ ¬Coupled exPairs () 0 2 ∧ ContactDof exPairs () 2 ∧ ¬ContactDof exPairs () 8 := by
  have hmap : ∀ i r, exPairs.map () i r = if i = 0 then 0 else 1 := fun _ _ => rfl
  have hdof : ∀ c d, DofOf exPairs c d ↔ d = 2 * c ∨ d = 2 * c + 1 := by
    intro c d
    constructor
    · rintro ⟨k, hk, a, ha, h⟩
      have ha' : a < 2 := ha
      have h' : d = 2 * c + a := h
      omega
    · rintro (h | h)
      · exact ⟨0, Nat.one_pos, 0, Nat.two_pos, h⟩
      · exact ⟨0, Nat.one_pos, 1, Nat.one_lt_two, h⟩
  have hat : ∀ i e q d, i < 2 → (DofAt exPairs () i e i q d ↔ d / 2 = i ∨ d / 2 = i + 2) := by
    intro i e q d hi
    unfold DofAt
    rw [hdof, hdof, hmap]
    show (d = 2 * i ∨ d = 2 * i + 1) ∨ (d = 2 * ((if i = 0 then (0 : ℤ) else 1).toNat + 2)
      ∨ d = 2 * ((if i = 0 then (0 : ℤ) else 1).toNat + 2) + 1) ↔ _
    interval_cases i <;> simp <;> omega
  have hin : ∀ i < 2, PointInContact exPairs () i 0 i 0 := fun i hi =>
    ⟨hi, Nat.one_pos, ⟨2, rfl⟩, Nat.one_pos, exPairs_linked _ _⟩
  have hin' : ∀ i e cell q, PointInContact exPairs () i e cell q → i < 2 ∧ cell = i := by
    rintro i e cell q ⟨hi, he, ⟨f, hf⟩, -, -⟩
    refine ⟨hi, ?_⟩
    have he' : e < 1 := he
    obtain rfl : e = 0 := by omega
    have : (i, 2) = (cell, f) := Option.some.inj hf
    exact (Prod.ext_iff.mp this).1.symm
  refine ⟨exPairs_valid, exPairs_shaped, ⟨?_, ?_⟩, rfl, rfl, rfl, ?_, ?_, ?_, ?_, ?_, ?_, ?_⟩
  · intro i hi
    show 1 - i < 2
    omega
  · intro i hi j hj h
    have h1 : i < 2 := hi
    have h2 : j < 2 := hj
    have h3 : 1 - i = 1 - j := h
    omega
  · rcases C38_size (static_shaped exPairs_valid) exPairsOps exPairs_shaped () with ⟨h, -⟩ | ⟨-, cs, h, -⟩
    · simp [exPairsOps, Tracked.history, Tracked.call] at h
    · rw [h]; simp
  · refine ⟨?_, ?_⟩
    · intro i hi p hp a _
      have h1 : i < 2 := hi
      have h2 : p = (i, 2) := by simpa [exPairs] using hp
      subst h2
      show 2 * i + 2 ≤ 8
      omega
    · intro c hc a _
      have h1 : c < 2 := hc
      show 2 * (c + 2) + 2 ≤ 8
      omega
  · intro i hi e he q hq _
    have h3 : q < 1 := hq
    obtain rfl : q = 0 := by omega
    simp [exPairs, exY, contactNormalAt]
  · exact ⟨0, 0, 0, 0, hin 0 (by omega), (hat 0 0 0 0 (by omega)).mpr (by omega), (hat 0 0 0 4 (by omega)).mpr (by omega)⟩
  · rintro ⟨i, e, cell, q, h, h1, h2⟩
    obtain ⟨hi, rfl⟩ := hin' _ _ _ _ h
    rw [hat _ _ _ _ hi] at h1 h2
    omega
  · exact ⟨1, 0, 1, 0, hin 1 (by omega), (hat 1 0 0 2 (by omega)).mpr (by omega)⟩
  · rintro ⟨i, e, cell, q, h, h1⟩
    obtain ⟨hi, rfl⟩ := hin' _ _ _ _ h
    rw [hat _ _ _ _ hi] at h1
    omega

end

end Verif.ContactProblem
