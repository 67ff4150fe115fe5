import Verif.Spec.Moments
import Verif.Spec.Projection
import Verif.Props.WellPosed
import Verif.Props.PairOrder
import Verif.Props.LoadStep

/-!
Properties C169 and C170: the moments of the assembled contact forces, and rigid motions of all bodies together.
-/

namespace Verif.ContactProblem

open Verif.Spec Verif.Packing Verif.Assembly Verif.Kernels Verif.Lemmas Finset

noncomputable section

variable {G : Type} {Y : System G}

/-! ### one point -/

theorem trac_skew (p : ContactPoint) {D : ℕ → ℕ → ℝ} (hD : Skew p.g D) {a : ℕ} (ha : a < p.g) : p.trac D a = 0 := by
  unfold ContactPoint.trac
  rw [Elasticity.traction_eq _ _ _ _ _ _ ha]
  rw [sum_eq_zero (fun j hj => by rw [hD j (mem_range.mp hj) a ha]; ring),
    sum_eq_zero (fun j hj => by have := hD j (mem_range.mp hj) j (mem_range.mp hj); linarith)]
  ring

theorem tang_adjoint (p : ContactPoint) (x y : ℕ → ℝ) :
    ∑ a ∈ range p.g, x a * p.tang y a = ∑ a ∈ range p.g, p.tang x a * y a := by
  have e1 : ∀ a, x a * p.tang y a = x a * y a - p.dot y * (x a * p.normal a) := by
    intro a; unfold ContactPoint.tang; ring
  have e2 : ∀ a, p.tang x a * y a = x a * y a - p.dot x * (y a * p.normal a) := by
    intro a; unfold ContactPoint.tang; ring
  simp only [e1, e2, sum_sub_distrib, ← mul_sum]
  show _ - p.dot y * p.dot x = _ - p.dot x * p.dot y
  ring

/-- Tested with a motion without strain, the form is the work of the contact force. -/
theorem form_force (p : ContactPoint) (law : Law) (gamma theta : ℝ) (J : ℕ → ℝ) (D : ℕ → ℕ → ℝ) (J' : ℕ → ℝ)
    (D' : ℕ → ℕ → ℝ) (h : theta = 0 ∨ Skew p.g D') :
    p.form law gamma theta J D J' D' = ∑ a ∈ range p.g, p.force law gamma J D a * J' a := by
  have hn : theta * p.dot (p.trac D') = 0 := by
    rcases h with h | h
    · rw [h, zero_mul]
    · rw [dot_zero p (fun a ha => trac_skew p h ha), mul_zero]
  have ht : ∀ a < p.g, theta * p.tang (p.trac D') a = 0 := by
    intro a ha
    rcases h with h | h
    · rw [h, zero_mul]
    · rw [tang_zero p (fun a ha => trac_skew p h ha) ha, mul_zero]
  have e1 : p.normalPart gamma theta J D J' D'
      = ∑ a ∈ range p.g, 1 / 2 * (gamma / p.h) * (max 0 (p.pressure gamma J D) * p.normal a) * J' a := by
    have : p.normalPart gamma theta J D J' D' = 1 / 2 * (gamma / p.h) * max 0 (p.pressure gamma J D) * p.dot J' := by
      unfold ContactPoint.normalPart
      linear_combination (-(1 / 2 * (gamma / p.h) * max 0 (p.pressure gamma J D) * (p.h / gamma))
        - 1 / 2 * (p.h / gamma) * p.dot (p.trac D)) * hn
    rw [this, ContactPoint.dot, mul_sum]
    exact sum_congr rfl (fun a _ => by ring)
  have e2 : p.frictionPart law gamma theta J D J' D'
      = ∑ a ∈ range p.g, 1 / 2 * (gamma / p.h) * p.tang (p.projected law gamma J D) a * J' a := by
    unfold ContactPoint.frictionPart
    have s1 : ∑ a ∈ range p.g, p.projected law gamma J D a * (p.tang J' a - theta * (p.h / gamma) * p.tang (p.trac D') a)
        = ∑ a ∈ range p.g, p.projected law gamma J D a * p.tang J' a := by
      refine sum_congr rfl (fun a ha => ?_)
      linear_combination (-(p.projected law gamma J D a) * (p.h / gamma)) * ht a (mem_range.mp ha)
    have s2 : theta * ∑ a ∈ range p.g, p.tang (p.trac D) a * p.tang (p.trac D') a = 0 := by
      rw [mul_sum]
      exact sum_eq_zero (fun a ha => by linear_combination (p.tang (p.trac D) a) * ht a (mem_range.mp ha))
    rw [s1, tang_adjoint, mul_sum]
    have : ∀ z : ℝ, z - 1 / 2 * theta * (p.h / gamma) * ∑ a ∈ range p.g, p.tang (p.trac D) a * p.tang (p.trac D') a = z := by
      intro z; linear_combination (-(1 / 2) * (p.h / gamma)) * s2
    rw [this]
    exact sum_congr rfl (fun a _ => by ring)
  unfold ContactPoint.form ContactPoint.force
  rw [e1]
  by_cases hl : law = .frictionless
  · simp [hl]
  · simp only [if_neg hl]
    rw [e2, ← sum_add_distrib]
    exact sum_congr rfl (fun a _ => by ring)

/-! ### rigid motions -/

theorem dof_div {g k : ℕ} (m : ℕ) (hk : k < g) : (g * m + k) / g = m := by
  rw [Nat.mul_add_div (by omega), Nat.div_eq_of_lt hk, add_zero]

theorem rigid_dof (g : ℕ) (W : ℕ → ℕ → ℝ) (c x : ℕ → ℝ) (m : ℕ) {a : ℕ} (ha : a < g) :
    rigidMotion g W c x (g * m + a) = c a + ∑ b ∈ range g, W a b * x (g * m + b) := by
  unfold rigidMotion
  rw [dof_mod _ ha, dof_div _ ha]

theorem combine (n g : ℕ) (f : ℕ → ℝ) (w : ℕ → ℝ) (x : ℕ → ℕ → ℝ) (c : ℝ) :
    ∑ k ∈ range n, f k * (c + ∑ b ∈ range g, w b * x k b)
      = (∑ k ∈ range n, f k) * c + ∑ b ∈ range g, w b * ∑ k ∈ range n, f k * x k b := by
  have : ∀ k, f k * (c + ∑ b ∈ range g, w b * x k b) = f k * c + ∑ b ∈ range g, w b * (f k * x k b) := by
    intro k
    rw [mul_add, mul_sum]
    congr 1
    exact sum_congr rfl (fun b _ => by ring)
  simp only [this, sum_add_distrib, sum_mul]
  rw [sum_comm]
  simp only [mul_sum]

/-- Values, contact point values and gradients of a rigid motion. -/
theorem rigid_at (W : ℕ → ℕ → ℝ) (c x : ℕ → ℝ) (g : G) (i e cell f q : ℕ) {a : ℕ} (ha : a < Y.gdim) :
    valueAt Y cell f (rigidMotion Y.gdim W c x) q a
      = (∑ k ∈ range Y.nd, Y.phi (Y.off f + q) k) * c a + ∑ b ∈ range Y.gdim, W a b * valueAt Y cell f x q b
    ∧ oppositeAt Y g i e (rigidMotion Y.gdim W c x) q a
      = (∑ k ∈ range Y.nd, Y.basis g i (e * Y.nq + q) k) * c a + ∑ b ∈ range Y.gdim, W a b * oppositeAt Y g i e x q b
    ∧ ∀ d, gradAt Y cell f (rigidMotion Y.gdim W c x) q a d
      = (∑ k ∈ range Y.nd, ∑ j ∈ range Y.tdim, Y.inv (jacobianAt Y cell (Y.off f + q)) j d * Y.dphi j (Y.off f + q) k) * c a
        + ∑ b ∈ range Y.gdim, W a b * gradAt Y cell f x q b d := by
  refine ⟨?_, ?_, fun d => ?_⟩
  · unfold valueAt
    simp only [rigid_dof _ _ _ _ _ ha]
    exact combine _ _ _ _ _ _
  · unfold oppositeAt
    simp only [rigid_dof _ _ _ _ _ ha]
    exact combine _ _ _ _ _ _
  · unfold gradAt
    simp only [rigid_dof _ _ _ _ _ ha]
    exact combine _ _ _ _ _ _

/-- The jump of a rotation. -/
theorem rotation_jump {t : Tracked G} {x : ℕ → ℝ} (hx : NodesAt Y t x) (W : ℕ → ℕ → ℝ) {i e cell f q : ℕ}
    (hi : i < Y.numPairs) (he : e < Y.localFacets i) (hf : (Y.facets i)[e]? = some (cell, f)) (hq : q < Y.nq)
    (hm : 0 ≤ Y.map t.cur i (e * Y.nq + q)) {a : ℕ} (ha : a < Y.gdim) :
    jumpAt Y t.cur i e cell f (rigidMotion Y.gdim W 0 x) q a
      = -∑ b ∈ range Y.gdim, W a b * (pointAt Y t i e cell f q).gap b := by
  obtain ⟨h1, h2, -⟩ := rigid_at (Y := Y) W 0 x t.cur i e cell f q ha
  unfold jumpAt
  rw [h1, h2, ← sum_neg_distrib]
  simp only [Pi.zero_apply, mul_zero, zero_add]
  rw [← sum_sub_distrib]
  refine sum_congr rfl (fun b hb => ?_)
  rw [hx i hi e he cell f hf q hq hm b (mem_range.mp hb)]
  ring

/-- The gradient of a rotation of the nodes of the mesh. -/
theorem rotation_grad {t : Tracked G} {x : ℕ → ℝ} (hx : NodesOfMesh Y t x) (W : ℕ → ℕ → ℝ) {i e cell f q : ℕ}
    (hi : i < Y.numPairs) (he : e < Y.localFacets i) (hf : (Y.facets i)[e]? = some (cell, f)) (hq : q < Y.nq)
    (hm : 0 ≤ Y.map t.cur i (e * Y.nq + q)) {a d : ℕ} (ha : a < Y.gdim) (hd : d < Y.gdim) :
    gradAt Y cell f (rigidMotion Y.gdim W 0 x) q a d = W a d := by
  obtain ⟨-, -, h3⟩ := rigid_at (Y := Y) W 0 x t.cur i e cell f q ha
  rw [h3]
  simp only [Pi.zero_apply, mul_zero, zero_add]
  rw [sum_eq_single_of_mem d (mem_range.mpr hd)]
  · rw [hx i hi e he cell f hf q hq hm d hd d hd, if_pos rfl, mul_one]
  · intro b hb hne
    rw [hx i hi e he cell f hf q hq hm b (mem_range.mp hb) d hd, if_neg hne, mul_zero]

/-- The rotation in the plane of axes `i`, `j`. -/
def planeRotation (i j a b : ℕ) : ℝ := (if a = j ∧ b = i then 1 else 0) - (if a = i ∧ b = j then 1 else 0)

theorem planeRotation_skew (g i j : ℕ) : Skew g (planeRotation i j) := by
  intro a _ b _
  unfold planeRotation
  have h1 : (b = j ∧ a = i) = (a = i ∧ b = j) := propext and_comm
  have h2 : (b = i ∧ a = j) = (a = j ∧ b = i) := propext and_comm
  simp only [h1, h2]
  ring

theorem planeRotation_sum {g i j : ℕ} (hi : i < g) (hj : j < g) (F x : ℕ → ℝ) :
    ∑ a ∈ range g, F a * ∑ b ∈ range g, planeRotation i j a b * x b = F j * x i - F i * x j := by
  have e : ∀ a, ∑ b ∈ range g, planeRotation i j a b * x b = (if a = j then x i else 0) - (if a = i then x j else 0) := by
    intro a
    unfold planeRotation
    simp only [sub_mul, sum_sub_distrib, ite_and, ite_mul, one_mul, zero_mul]
    congr 1
    · by_cases h : a = j <;> simp [h, hi]
    · by_cases h : a = i <;> simp [h, hj]
  simp only [e, mul_sub, sum_sub_distrib, mul_ite, mul_zero]
  simp [hi, hj]

theorem moment_work {g : ℕ} (K : ℕ) (x b : ℕ → ℝ) {i j : ℕ} (hi : i < g) (hj : j < g) :
    ∑ d ∈ range (g * K), b d * rigidMotion g (planeRotation i j) 0 x d = moment g K x b i j := by
  rw [mul_comm g K, ← Coefficients.sum_mul_range K g]
  unfold moment
  refine sum_congr rfl (fun k _ => ?_)
  have : ∀ a ∈ range g, b (k * g + a) * rigidMotion g (planeRotation i j) 0 x (k * g + a)
      = b (g * k + a) * ∑ c ∈ range g, planeRotation i j a c * x (g * k + c) := by
    intro a ha
    rw [mul_comm k g, rigid_dof _ _ _ _ _ (mem_range.mp ha)]
    simp
  rw [sum_congr rfl this, planeRotation_sum hi hj (fun a => b (g * k + a)) (fun c => x (g * k + c))]
  ring

/-! ### C169 -/

section

variable (hY : System.Valid Y) (ops : List (Op G)) (hops : ∀ op ∈ ops, OpShaped Y.static op)
  (g : G) (law : Law) (hlaw : lastLaw ops none = some law) (h23 : law ≠ .frictionless → Y.gdim = 2 ∨ Y.gdim = 3)
  (gamma theta : ℝ) (hconsts : lastConsts ops none = some (gamma, theta))
  (s : State G) (hs : s = history Y.static ops (init Y.static g)) (hc : s.coeffs ≠ none)
  (K : ℕ) (hN : DofsBelow Y (Y.gdim * K)) (x : ℕ → ℝ) (hx : NodesAt Y ((Tracked.new g).history ops) x)
  (hθ : theta = 0 ∨ NodesOfMesh Y ((Tracked.new g).history ops) x)

include hY hops hlaw h23 hconsts hs hc hN hx hθ

/-- C169: the moment of the contact forces assembled after `update_contact_data(u)` is, in every plane, minus the sum
over the linked points of the moments of the contact force at the end of the gap vector. For every friction law, if the nodes are
those of the mesh (first load step) or theta is zero. -/
theorem C169_moment (u : ℕ → ℝ) :
    ∃ (s' : State G) (b : Arr ℕ), updateContactData Y.static (Y.du u) s = .ok s' ∧ Y.assembleVector s' 0 = .ok b
      ∧ ∀ i < Y.gdim, ∀ j < Y.gdim,
        moment Y.gdim K x b i j = -gapMoment Y ((Tracked.new g).history ops) law gamma u i j := by
  obtain ⟨b, hb, hform⟩ := vector_of hY ops hops g law hlaw h23 gamma theta hconsts s hs hc _ hN
  obtain ⟨s', h1, h2⟩ := hb u
  refine ⟨s', b u, h1, h2, fun i hi j hj => ?_⟩
  rw [← moment_work K x (b u) hi hj, hform]
  unfold contactForm gapMoment
  rw [← sum_neg_distrib]
  refine sum_congr rfl (fun n hn => ?_)
  rw [← sum_neg_distrib]
  refine sum_congr rfl (fun e he => ?_)
  rcases hfac : (Y.facets n)[e]? with _ | ⟨cell, f⟩
  · simp
  · simp only [Option.elim_some]
    rw [← sum_neg_distrib]
    refine sum_congr rfl (fun q hq => ?_)
    rw [mem_range] at hn he hq
    by_cases hm : 0 ≤ Y.map ((Tracked.new g).history ops).cur n (e * Y.nq + q)
    · rw [if_pos hm, if_pos hm, form_force]
      · have e1 : ∀ F : ℕ → ℝ, ∑ a ∈ range Y.gdim, F a * jumpAt Y ((Tracked.new g).history ops).cur n e cell f
            (rigidMotion Y.gdim (planeRotation i j) 0 x) q a
            = -(F j * (pointAt Y ((Tracked.new g).history ops) n e cell f q).gap i
              - F i * (pointAt Y ((Tracked.new g).history ops) n e cell f q).gap j) := by
          intro F
          rw [← planeRotation_sum hi hj, ← sum_neg_distrib]
          refine sum_congr rfl (fun a ha => ?_)
          rw [rotation_jump hx _ hn he hfac hq hm (mem_range.mp ha)]
          ring
        refine (congrArg (weightAt Y cell f q * ·) (e1 _)).trans ?_
        ring
      · refine hθ.imp id (fun h a ha d hd => ?_)
        rw [rotation_grad h _ hn he hfac hq hm ha hd, rotation_grad h _ hn he hfac hq hm hd ha]
        exact planeRotation_skew Y.gdim i j a ha d hd
    · rw [if_neg hm, if_neg hm, neg_zero]

/-- C169: without friction the moments of the contact forces sum to zero if the gap vectors are along the contact
normals (contact points found by ray tracing, and closest points inside a facet: `C169_closest`). -/
theorem C169_frictionless_partial (hfr : law = .frictionless) (hgap : GapAlongNormal Y ((Tracked.new g).history ops))
    (u : ℕ → ℝ) :
    ∃ (s' : State G) (b : Arr ℕ), updateContactData Y.static (Y.du u) s = .ok s' ∧ Y.assembleVector s' 0 = .ok b
      ∧ ∀ i < Y.gdim, ∀ j < Y.gdim, moment Y.gdim K x b i j = 0 := by
  obtain ⟨s', b, h1, h2, h3⟩ := C169_moment hY ops hops g law hlaw h23 gamma theta hconsts s hs hc K hN x hx hθ u
  refine ⟨s', b, h1, h2, fun i hi j hj => ?_⟩
  rw [h3 i hi j hj, neg_eq_zero]
  unfold gapMoment
  refine sum_eq_zero (fun n hn => sum_eq_zero (fun e he => ?_))
  rcases hfac : (Y.facets n)[e]? with _ | ⟨cell, f⟩
  · simp
  · simp only [Option.elim_some]
    refine sum_eq_zero (fun q hq => ?_)
    rw [mem_range] at hn he hq
    split
    · rename_i hm
      obtain ⟨k, hk⟩ := hgap n hn e he cell f hfac q hq hm
      rw [hk i hi, hk j hj]
      simp only [ContactPoint.force, hfr, if_true]
      ring
    · rfl

/-- C169: with any friction law the moments of the contact forces sum to zero if there is no gap. -/
theorem C169_closed_partial (hgap : NoGap Y ((Tracked.new g).history ops)) (u : ℕ → ℝ) :
    ∃ (s' : State G) (b : Arr ℕ), updateContactData Y.static (Y.du u) s = .ok s' ∧ Y.assembleVector s' 0 = .ok b
      ∧ ∀ i < Y.gdim, ∀ j < Y.gdim, moment Y.gdim K x b i j = 0 := by
  obtain ⟨s', b, h1, h2, h3⟩ := C169_moment hY ops hops g law hlaw h23 gamma theta hconsts s hs hc K hN x hx hθ u
  refine ⟨s', b, h1, h2, fun i hi j hj => ?_⟩
  rw [h3 i hi j hj, neg_eq_zero]
  unfold gapMoment
  refine sum_eq_zero (fun n hn => sum_eq_zero (fun e he => ?_))
  rcases hfac : (Y.facets n)[e]? with _ | ⟨cell, f⟩
  · simp
  · simp only [Option.elim_some]
    refine sum_eq_zero (fun q hq => ?_)
    rw [mem_range] at hn he hq
    split
    · rename_i hm
      rw [hgap n hn e he cell f hfac q hq hm i hi, hgap n hn e he cell f hfac q hq hm j hj]
      ring
    · rfl

end

/-! ### gap vectors along the normal -/

theorem small_zero {c L e : ℝ} (he : 0 < e) (hL : 0 ≤ L) (h : ∀ t, |t| ≤ e → 0 ≤ 2 * t * c + t ^ 2 * L) : c = 0 := by
  by_contra hc
  have hc' : 0 < |c| := abs_pos.mpr hc
  set m := min (e / |c|) (1 / (L + 1)) with hm
  have hm0 : 0 < m := lt_min (div_pos he hc') (by positivity)
  have h1 : m * |c| ≤ e := by
    calc m * |c| ≤ e / |c| * |c| := mul_le_mul_of_nonneg_right (min_le_left _ _) hc'.le
      _ = e := by field_simp
  have h2 : m * L < 2 := by
    have : m * (L + 1) ≤ 1 := by
      calc m * (L + 1) ≤ 1 / (L + 1) * (L + 1) := mul_le_mul_of_nonneg_right (min_le_right _ _) (by linarith)
        _ = 1 := by field_simp
    nlinarith
  have h3 := h (-(m * c)) (by rw [abs_neg, abs_mul, abs_of_pos hm0]; exact h1)
  have h4 : 2 * -(m * c) * c + (-(m * c)) ^ 2 * L = m * c ^ 2 * (m * L - 2) := by ring
  rw [h4] at h3
  have : 0 < m * c ^ 2 := by positivity
  nlinarith

/-- C169: the vector to the closest point of a facet is along the normal of the facet, if the closest point is in the
interior of the facet (all barycentric coordinates are positive). `normal` spans the vectors orthogonal to the facet. -/
theorem C169_closest {dim n : ℕ} {nodes : ℕ → ℕ → ℝ} {p d : ℕ → ℝ} (hd : Projection.IsShortest dim n nodes p d)
    (w : ℕ → ℝ) (hw : ∀ j < n, 0 < w j) (hw1 : ∑ j ∈ range n, w j = 1)
    (hfoot : ∀ k < dim, p k + d k = ∑ j ∈ range n, w j * nodes j k)
    (normal : ℕ → ℝ)
    (hspan : ∀ v : ℕ → ℝ, (∀ i < n, ∀ j < n, ∑ k ∈ range dim, v k * (nodes i k - nodes j k) = 0) →
      ∃ s, ∀ k < dim, v k = s * normal k) :
    ∃ s, ∀ k < dim, d k = s * normal k := by
  refine hspan d (fun i hi j hj => ?_)
  by_cases hij : i = j
  · subst hij; simp
  refine small_zero (e := min (w i) (w j)) (L := ∑ k ∈ range dim, (nodes i k - nodes j k) ^ 2) (lt_min (hw i hi) (hw j hj))
    (sum_nonneg (fun k _ => sq_nonneg _)) (fun t ht => ?_)
  have hin : Projection.InHull dim n nodes (fun k => p k + d k + t * (nodes i k - nodes j k)) := by
    refine ⟨fun m => w m + t * ((if m = i then 1 else 0) - if m = j then 1 else 0), fun m hm => ?_, ?_, fun k hk => ?_⟩
    · have := hw m hm
      have h1 := le_min_iff.mp ht
      have h2 := abs_le.mp h1.1
      have h3 := abs_le.mp h1.2
      by_cases h4 : m = i
      · subst h4
        simp only [if_pos, if_neg hij]
        linarith
      · by_cases h5 : m = j
        · subst h5
          simp only [if_pos, if_neg h4]
          linarith
        · simp only [if_neg h4, if_neg h5]
          linarith
    · rw [sum_add_distrib, ← mul_sum, sum_sub_distrib, hw1]
      simp [hi, hj]
    · dsimp only
      rw [hfoot k hk]
      simp only [add_mul, sum_add_distrib, mul_assoc, ← mul_sum, sub_mul, ite_mul, one_mul, zero_mul, sum_sub_distrib]
      simp [hi, hj]
  have hle := hd.2 _ hin
  have e1 : ∀ k, p k + d k + t * (nodes i k - nodes j k) - p k = d k + t * (nodes i k - nodes j k) := fun k => by ring
  unfold Projection.sqLen at hle
  simp only [e1] at hle
  have e2 : ∑ k ∈ range dim, (d k + t * (nodes i k - nodes j k)) ^ 2 = ∑ k ∈ range dim, d k ^ 2
      + 2 * t * ∑ k ∈ range dim, d k * (nodes i k - nodes j k) + t ^ 2 * ∑ k ∈ range dim, (nodes i k - nodes j k) ^ 2 := by
    rw [mul_sum, mul_sum, ← sum_add_distrib, ← sum_add_distrib]
    exact sum_congr rfl (fun k _ => by ring)
  rw [e2] at hle
  linarith

/-! ### C170 -/

/-- The form does not change if neither the tractions nor the jump change (without friction: nor the normal jump). -/
theorem form_shift (p : ContactPoint) (law : Law) (gamma theta : ℝ) {J J1 : ℕ → ℝ} {D D1 : ℕ → ℕ → ℝ}
    (hd : p.dot J1 = p.dot J) (hT : ∀ a < p.g, p.trac D1 a = p.trac D a)
    (hf : law ≠ .frictionless → ∀ a < p.g, J1 a = J a) (J' : ℕ → ℝ) (D' : ℕ → ℕ → ℝ) :
    p.form law gamma theta J1 D1 J' D' = p.form law gamma theta J D J' D' := by
  have S := samePoint_refl p
  have hP : p.pressure gamma J1 D1 = p.pressure gamma J D := by
    rw [ContactPoint.pressure, ContactPoint.pressure, hd, S.dot hT]
  have n : p.normalPart gamma theta J1 D1 J' D' = p.normalPart gamma theta J D J' D' := by
    rw [ContactPoint.normalPart, ContactPoint.normalPart, hP, S.dot hT]
  rw [ContactPoint.form, ContactPoint.form, n]
  by_cases hl : law = .frictionless
  · rw [if_pos hl, if_pos hl]
  rw [if_neg hl, if_neg hl]
  have hJ := hf hl
  have hs : ∀ a < p.g, p.slip gamma J1 D1 a = p.slip gamma J D a := by
    intro a ha
    rw [ContactPoint.slip, ContactPoint.slip, S.tang hJ a ha, S.tang hT a ha]
  have hp : ∀ a < p.g, p.projected law gamma J1 D1 a = p.projected law gamma J D a := by
    intro a ha
    cases law with
    | frictionless => rfl
    | tresca =>
      simp only [ContactPoint.projected]
      exact ball_congr _ hs ha
    | coulomb =>
      simp only [ContactPoint.projected]
      rw [hP, hd]
      exact ball_congr _ (fun b hb => by rw [hs b hb]) ha
  have e1 : ∑ a ∈ range p.g, p.projected law gamma J1 D1 a * (p.tang J' a - theta * (p.h / gamma) * p.tang (p.trac D') a)
      = ∑ a ∈ range p.g, p.projected law gamma J D a * (p.tang J' a - theta * (p.h / gamma) * p.tang (p.trac D') a) :=
    sum_congr rfl (fun a ha => by rw [hp a (mem_range.mp ha)])
  have e2 : ∑ a ∈ range p.g, p.tang (p.trac D1) a * p.tang (p.trac D') a
      = ∑ a ∈ range p.g, p.tang (p.trac D) a * p.tang (p.trac D') a :=
    sum_congr rfl (fun a ha => by rw [S.tang hT a (mem_range.mp ha)])
  rw [ContactPoint.frictionPart, ContactPoint.frictionPart, e1, e2]

/-- The form linearised in such a direction is zero. -/
theorem dForm_shift (p : ContactPoint) (law : Law) (gamma theta : ℝ) (J : ℕ → ℝ) (D : ℕ → ℕ → ℝ) {K : ℕ → ℝ} {E : ℕ → ℕ → ℝ}
    (hd : p.dot K = 0) (ht : ∀ a < p.g, p.trac E a = 0)
    (hf : law ≠ .frictionless → ∀ a < p.g, K a = 0) (J' : ℕ → ℝ) (D' : ℕ → ℕ → ℝ) :
    p.dForm cutSlope law gamma theta J D K E J' D' = 0 := by
  have hP : p.dPressure gamma K E = 0 := by
    rw [ContactPoint.dPressure, hd, dot_zero p ht]; ring
  have e1 : p.dNormalPart gamma theta J D K E J' D' = 0 := by
    rw [ContactPoint.dNormalPart, hP, dot_zero p ht]; ring
  rw [ContactPoint.dForm, e1, zero_add]
  by_cases hl : law = .frictionless
  · rw [if_pos hl]
  rw [if_neg hl]
  have hJ := hf hl
  have hs : ∀ a < p.g, p.slip gamma K E a = 0 := by
    intro a ha
    rw [ContactPoint.slip, tang_zero p hJ ha, tang_zero p ht ha]; ring
  have hp : ∀ a < p.g, p.dProjected cutSlope law gamma J D K E a = 0 := by
    intro a ha
    cases law with
    | frictionless => rfl
    | tresca =>
      simp only [ContactPoint.dProjected]
      exact cutSlope_zero _ _ hs ha
    | coulomb =>
      simp only [ContactPoint.dProjected]
      rw [cutSlope_zero _ _ (fun b hb => by rw [hs b hb, hd]; ring) ha, hP]
      ring
  rw [ContactPoint.dFrictionPart,
    sum_eq_zero (fun a ha => by rw [hp a (mem_range.mp ha), zero_mul]),
    sum_eq_zero (fun a ha => by rw [tang_zero p ht (mem_range.mp ha), zero_mul])]
  ring

theorem trac_shift (p : ContactPoint) {D D1 E : ℕ → ℕ → ℝ} (h : ∀ a b, D1 a b = D a b + E a b) (hE : Skew p.g E)
    {a : ℕ} (ha : a < p.g) : p.trac D1 a = p.trac D a := by
  have e : p.trac D1 a = p.trac D a + p.trac E a := by
    unfold ContactPoint.trac
    rw [Elasticity.traction_eq _ _ _ _ _ _ ha, Elasticity.traction_eq _ _ _ _ _ _ ha, Elasticity.traction_eq _ _ _ _ _ _ ha]
    simp only [h, sum_add_distrib]
    have : ∑ j ∈ range p.g, p.mu * (D j a + E j a + (D a j + E a j)) * p.nPhys j
        = ∑ j ∈ range p.g, p.mu * (D j a + D a j) * p.nPhys j + ∑ j ∈ range p.g, p.mu * (E j a + E a j) * p.nPhys j := by
      rw [← sum_add_distrib]
      exact sum_congr rfl (fun j _ => by ring)
    rw [this]
    ring
  rw [e, trac_skew p hE ha, add_zero]

/-- A displacement that contact does not feel: at every linked point its gradient is skew and its jump is zero (without
friction: orthogonal to the normal). -/
def Unfelt (Y : System G) (t : Tracked G) (law : Law) (w : ℕ → ℝ) : Prop :=
  AtLinked Y t (fun i e cell f q =>
    Skew Y.gdim (gradAt Y cell f w q)
    ∧ (pointAt Y t i e cell f q).dot (jumpAt Y t.cur i e cell f w q) = 0
    ∧ (law ≠ .frictionless → ∀ a < Y.gdim, jumpAt Y t.cur i e cell f w q a = 0))

theorem form_unfelt (p : ContactPoint) (law : Law) (gamma theta : ℝ) (J K : ℕ → ℝ) (D E : ℕ → ℕ → ℝ) (hE : Skew p.g E)
    (hd : p.dot K = 0) (hf : law ≠ .frictionless → ∀ a < p.g, K a = 0) (J' : ℕ → ℝ) (D' : ℕ → ℕ → ℝ) :
    p.form law gamma theta (fun a => J a + K a) (fun a b => D a b + E a b) J' D' = p.form law gamma theta J D J' D' := by
  refine form_shift p law gamma theta ?_ (fun a ha => trac_shift p (fun _ _ => rfl) hE ha) (fun hl a ha => ?_) _ _
  · have : p.dot (fun a => J a + K a) = p.dot J + p.dot K := by
      unfold ContactPoint.dot
      rw [← sum_add_distrib]
      exact sum_congr rfl (fun a _ => by ring)
    rw [this, hd, add_zero]
  · rw [hf hl a ha, add_zero]

theorem unfelt_form {t : Tracked G} {law : Law} {w : ℕ → ℝ} (hw : Unfelt Y t law w) (gamma theta : ℝ) (u v : ℕ → ℝ) :
    contactForm Y t law gamma theta (fun d => u d + w d) v = contactForm Y t law gamma theta u v := by
  unfold contactForm
  refine sum_congr rfl (fun i hi => sum_congr rfl (fun e he => ?_))
  rcases hfac : (Y.facets i)[e]? with _ | ⟨cell, f⟩
  · rw [Option.elim_none, Option.elim_none]
  · rw [Option.elim_some, Option.elim_some]
    refine sum_congr rfl (fun q hq => ?_)
    rw [mem_range] at hi he hq
    by_cases hm : 0 ≤ Y.map t.cur i (e * Y.nq + q)
    · rw [if_pos hm, if_pos hm]
      obtain ⟨k1, k2, k3⟩ := hw i hi e he cell f hfac q hq hm
      have e1 : jumpAt Y t.cur i e cell f (fun d => u d + w d) q
          = fun a => jumpAt Y t.cur i e cell f u q a + jumpAt Y t.cur i e cell f w q a :=
        funext (fun a => jumpAt_plus _ _ _ _ _ _ _ _ _)
      have e2 : (fun a b => gradAt Y cell f (fun d => u d + w d) q a b + (pointAt Y t i e cell f q).grad0 a b)
          = fun a b => (gradAt Y cell f u q a b + (pointAt Y t i e cell f q).grad0 a b) + gradAt Y cell f w q a b := by
        funext a b
        rw [gradAt_plus, add_right_comm]
      dsimp only
      rw [e1, e2, form_unfelt _ law gamma theta _ _ (fun a b => gradAt Y cell f u q a b + (pointAt Y t i e cell f q).grad0 a b)
        (gradAt Y cell f w q) k1 k2 k3]
    · rw [if_neg hm, if_neg hm]

theorem unfelt_tangent {t : Tracked G} {law : Law} {w : ℕ → ℝ} (hw : Unfelt Y t law w) (gamma theta : ℝ) (u v : ℕ → ℝ) :
    contactTangent Y t cutSlope law gamma theta u w v = 0 := by
  unfold contactTangent
  refine sum_eq_zero (fun i hi => sum_eq_zero (fun e he => ?_))
  rcases hfac : (Y.facets i)[e]? with _ | ⟨cell, f⟩
  · rfl
  · simp only [Option.elim_some]
    refine sum_eq_zero (fun q hq => ?_)
    rw [mem_range] at hi he hq
    by_cases hm : 0 ≤ Y.map t.cur i (e * Y.nq + q)
    · rw [if_pos hm]
      obtain ⟨k1, k2, k3⟩ := hw i hi e he cell f hfac q hq hm
      rw [dForm_shift _ law gamma theta _ _ k2 (fun a ha => trac_skew _ k1 ha) (fun hl a ha => k3 hl a ha), mul_zero]
    · rw [if_neg hm]

/-- The jump and the gradient of a rigid motion. -/
theorem rigid_split {t : Tracked G} (hone : SumsToOne Y t.cur) (W : ℕ → ℕ → ℝ) (c x : ℕ → ℝ) {i e cell f q : ℕ}
    (hi : i < Y.numPairs) (he : e < Y.localFacets i) (hf : (Y.facets i)[e]? = some (cell, f)) (hq : q < Y.nq)
    (hm : 0 ≤ Y.map t.cur i (e * Y.nq + q)) {a : ℕ} (ha : a < Y.gdim) :
    jumpAt Y t.cur i e cell f (rigidMotion Y.gdim W c x) q a
      = jumpAt Y t.cur i e cell f (rigidMotion Y.gdim W 0 x) q a
    ∧ ∀ d, gradAt Y cell f (rigidMotion Y.gdim W c x) q a d = gradAt Y cell f (rigidMotion Y.gdim W 0 x) q a d := by
  obtain ⟨o1, o2, o3⟩ := hone i hi e he cell f hf q hq
  obtain ⟨h1, h2, h3⟩ := rigid_at (Y := Y) W c x t.cur i e cell f q ha
  obtain ⟨k1, k2, k3⟩ := rigid_at (Y := Y) W 0 x t.cur i e cell f q ha
  refine ⟨?_, fun d => ?_⟩
  · unfold jumpAt
    rw [h1, h2, k1, k2, o1, o3 hm]
    simp
  · rw [h3, k3]
    have : ∑ k ∈ range Y.nd, ∑ j ∈ range Y.tdim, Y.inv (jacobianAt Y cell (Y.off f + q)) j d * Y.dphi j (Y.off f + q) k
        = 0 := by
      rw [sum_comm]
      refine sum_eq_zero (fun j hj => ?_)
      rw [← mul_sum, o2 j (mem_range.mp hj), mul_zero]
    rw [this]
    simp

theorem translation_unfelt {t : Tracked G} (hone : SumsToOne Y t.cur) (law : Law) (c : ℕ → ℝ) :
    Unfelt Y t law (fun d => c (d % Y.gdim)) := by
  have hw : (fun d => c (d % Y.gdim)) = rigidMotion Y.gdim 0 c 0 := by
    funext d
    simp [rigidMotion]
  have z : rigidMotion Y.gdim 0 0 0 = 0 := by
    funext d
    simp [rigidMotion]
  rw [hw]
  intro i hi e he cell f hf q hq hm
  have h := fun a (ha : a < Y.gdim) => rigid_split hone 0 c 0 hi he hf hq hm ha
  simp only [z] at h
  have hj : ∀ a < Y.gdim, jumpAt Y t.cur i e cell f (rigidMotion Y.gdim 0 c 0) q a = 0 := by
    intro a ha
    rw [(h a ha).1, jumpAt, value_zero]
    simp [oppositeAt]
  refine ⟨fun a ha b hb => ?_, dot_zero _ hj, fun _ => hj⟩
  rw [(h a ha).2, (h b hb).2, grad_zero, grad_zero, neg_zero]

theorem skew_quad {g : ℕ} {W : ℕ → ℕ → ℝ} (hW : Skew g W) (n : ℕ → ℝ) :
    ∑ a ∈ range g, (∑ b ∈ range g, W a b * n b) * n a = 0 := by
  have h : ∑ a ∈ range g, (∑ b ∈ range g, W a b * n b) * n a = -∑ a ∈ range g, (∑ b ∈ range g, W a b * n b) * n a := by
    conv_lhs => simp only [sum_mul]
    rw [sum_comm, ← sum_neg_distrib]
    refine sum_congr rfl (fun b hb => ?_)
    rw [sum_mul, ← sum_neg_distrib]
    refine sum_congr rfl (fun a ha => ?_)
    rw [hW a (mem_range.mp ha) b (mem_range.mp hb)]
    ring
  linarith

theorem rigid_unfelt {t : Tracked G} (hone : SumsToOne Y t.cur) {law : Law} {x : ℕ → ℝ} (hx : NodesAt Y t x)
    (hxm : NodesOfMesh Y t x) (hgap : NoGap Y t ∨ (law = .frictionless ∧ GapAlongNormal Y t))
    {W : ℕ → ℕ → ℝ} (hW : Skew Y.gdim W) (c : ℕ → ℝ) : Unfelt Y t law (rigidMotion Y.gdim W c x) := by
  intro i hi e he cell f hf q hq hm
  have h := fun a (ha : a < Y.gdim) => rigid_split hone W c x hi he hf hq hm ha
  have hj : ∀ a < Y.gdim, jumpAt Y t.cur i e cell f (rigidMotion Y.gdim W c x) q a
      = -∑ b ∈ range Y.gdim, W a b * (pointAt Y t i e cell f q).gap b := fun a ha => by
    rw [(h a ha).1, rotation_jump hx W hi he hf hq hm ha]
  refine ⟨fun a ha b hb => ?_, ?_⟩
  · rw [(h a ha).2, (h b hb).2, rotation_grad hxm W hi he hf hq hm ha hb, rotation_grad hxm W hi he hf hq hm hb ha]
    exact hW a ha b hb
  · rcases hgap with hg | ⟨hl, hg⟩
    · have hz : ∀ a < Y.gdim, jumpAt Y t.cur i e cell f (rigidMotion Y.gdim W c x) q a = 0 := by
        intro a ha
        rw [hj a ha, sum_eq_zero, neg_zero]
        intro b hb
        rw [hg i hi e he cell f hf q hq hm b (mem_range.mp hb), mul_zero]
      exact ⟨dot_zero _ hz, fun _ => hz⟩
    · refine ⟨?_, fun h => absurd hl h⟩
      obtain ⟨k, hk⟩ := hg i hi e he cell f hf q hq hm
      have e1 : (pointAt Y t i e cell f q).dot (jumpAt Y t.cur i e cell f (rigidMotion Y.gdim W c x) q)
          = -k * ∑ a ∈ range Y.gdim, (∑ b ∈ range Y.gdim, W a b * (pointAt Y t i e cell f q).normal b)
            * (pointAt Y t i e cell f q).normal a := by
        rw [mul_sum]
        refine sum_congr rfl (fun a ha => ?_)
        rw [hj a (mem_range.mp ha)]
        have : ∑ b ∈ range Y.gdim, W a b * (pointAt Y t i e cell f q).gap b
            = k * ∑ b ∈ range Y.gdim, W a b * (pointAt Y t i e cell f q).normal b := by
          rw [mul_sum]
          refine sum_congr rfl (fun b hb => ?_)
          rw [hk b (mem_range.mp hb)]
          ring
        rw [this]
        ring
      rw [e1, skew_quad hW, mul_zero]

section

variable (hY : System.Valid Y) (ops : List (Op G)) (hops : ∀ op ∈ ops, OpShaped Y.static op)
  (g : G) (law : Law) (hlaw : lastLaw ops none = some law)
  (h23 : law ≠ .frictionless → (Y.gdim = 2 ∨ Y.gdim = 3) ∧ UnitNormals Y ((Tracked.new g).history ops))
  (gamma theta : ℝ) (hconsts : lastConsts ops none = some (gamma, theta))
  (s : State G) (hs : s = history Y.static ops (init Y.static g)) (hc : s.coeffs ≠ none)
  (N : ℕ) (hN : DofsBelow Y N)

include hY hops hlaw h23 hconsts hs hc hN

theorem unfelt_same {w : ℕ → ℝ} (hw : Unfelt Y ((Tracked.new g).history ops) law w) (u : ℕ → ℝ) :
    ∃ (s1 s2 : State G) (b : Arr ℕ) (A : Arr (ℕ × ℕ)),
      updateContactData Y.static (Y.du u) s = .ok s1 ∧ Y.assembleVector s1 0 = .ok b ∧ Y.assembleMatrix s1 0 = .ok A
      ∧ updateContactData Y.static (Y.du (fun d => u d + w d)) s = .ok s2 ∧ Y.assembleVector s2 0 = .ok b
      ∧ ∀ d < N, ∑ c ∈ range N, A (d, c) * w c = 0 := by
  obtain ⟨s1, b1, h1, h2, h3⟩ := vector_entries hY ops hops g law hlaw gamma theta hconsts s hs hc N hN (fun h => (h23 h).1) u
  obtain ⟨s2, b2, h4, h5, h6⟩ := vector_entries hY ops hops g law hlaw gamma theta hconsts s hs hc N hN (fun h => (h23 h).1)
    (fun d => u d + w d)
  obtain ⟨s1', A, h7, h8, h9⟩ := C131_matrix hY ops hops g law hlaw h23 gamma theta hconsts s hs hc N hN u
  obtain rfl : s1 = s1' := Except.ok.inj (h1.symm.trans h7)
  have hb : b2 = b1 := by
    funext d
    rw [h6, h3]
    exact unfelt_form hw gamma theta u _
  subst hb
  refine ⟨s1, s2, b2, A, h1, h2, h8, h4, h5, fun d hd => ?_⟩
  have := h9 w (dofUnit d)
  rw [unfelt_tangent hw, sum_eq_single_of_mem d (mem_range.mpr hd)] at this
  · simpa [dofUnit] using this
  · intro b _ hb
    simp [dofUnit, hb]

/-- C170: contact does not feel a translation of all bodies together: after `update_contact_data(u + c)` the assembled
vector is the one of `u`, and the assembled matrix times the translation is zero. -/
theorem C170_translation (hone : SumsToOne Y ((Tracked.new g).history ops).cur) (c u : ℕ → ℝ) :
    ∃ (s1 s2 : State G) (b : Arr ℕ) (A : Arr (ℕ × ℕ)),
      updateContactData Y.static (Y.du u) s = .ok s1 ∧ Y.assembleVector s1 0 = .ok b ∧ Y.assembleMatrix s1 0 = .ok A
      ∧ updateContactData Y.static (Y.du (fun d => u d + c (d % Y.gdim))) s = .ok s2 ∧ Y.assembleVector s2 0 = .ok b
      ∧ ∀ d < N, ∑ k ∈ range N, A (d, k) * c (k % Y.gdim) = 0 :=
  unfelt_same hY ops hops g law hlaw h23 gamma theta hconsts s hs hc N hN (translation_unfelt hone law c) u

/-- C170: nor a small rotation of all bodies together, if the bodies touch without gap, or if there is no friction and the
gap vectors are along the contact normals. -/
theorem C170_rigid_partial (hone : SumsToOne Y ((Tracked.new g).history ops).cur) (x : ℕ → ℝ)
    (hx : NodesAt Y ((Tracked.new g).history ops) x) (hxm : NodesOfMesh Y ((Tracked.new g).history ops) x)
    (hgap : NoGap Y ((Tracked.new g).history ops) ∨ (law = .frictionless ∧ GapAlongNormal Y ((Tracked.new g).history ops)))
    (W : ℕ → ℕ → ℝ) (hW : Skew Y.gdim W) (c u : ℕ → ℝ) :
    ∃ (s1 s2 : State G) (b : Arr ℕ) (A : Arr (ℕ × ℕ)),
      updateContactData Y.static (Y.du u) s = .ok s1 ∧ Y.assembleVector s1 0 = .ok b ∧ Y.assembleMatrix s1 0 = .ok A
      ∧ updateContactData Y.static (Y.du (fun d => u d + rigidMotion Y.gdim W c x d)) s = .ok s2 ∧ Y.assembleVector s2 0 = .ok b
      ∧ ∀ d < N, ∑ k ∈ range N, A (d, k) * rigidMotion Y.gdim W c x k = 0 :=
  unfelt_same hY ops hops g law hlaw h23 gamma theta hconsts s hs hc N hN (rigid_unfelt hone hx hxm hgap hW c) u

end

/-! ### examples -/

/-- Two triangles, the upper one with contact conditions on its lower side; the contact point of the midpoint of this side is the
midpoint of the upper side of the lower triangle, which is `gap` lower and shifted by `shift`. -/
def exR (gap shift : ℝ) : System Unit where
  numPairs := 1
  nq := 1
  nd := 3
  gdim := 2
  tdim := 2
  cell := .triangle
  affine := true
  off := fun _ => 0
  phi := fun _ k => if k = 2 then 0 else 1 / 2
  dphi := fun j _ k => if k = 0 then -1 else if k = j + 1 then 1 else 0
  weights := fun _ _ => 1
  nref := fun _ j => if j = 1 then -1 else 0
  geo := ⟨1, fun _ => 1, fun _ _ => 0⟩
  cphi := fun _ _ _ => 1
  inv := fun _ k b => if k = b then 1 else 0
  det := fun _ _ => 1
  facets := fun _ => [(0, 2)]
  localFacets := fun _ => 1
  map := fun _ _ _ => 0
  subCell := fun _ => 1
  space := ⟨2, 3, 2, fun c k => 3 * c + k, fun c k => 3 * c + k, fun c => c⟩
  basis := fun _ _ _ k => if k = 2 then 0 else 1 / 2
  raytracing := fun _ => false
  gap := fun _ _ => ⟨1, 2, fun _ m => if m = 1 then -gap else if m = 0 then shift else 0⟩
  nx := fun _ _ => ⟨1, 2, fun _ m => if m = 1 then -1 else 0⟩
  ny := fun _ _ => ⟨1, 2, fun _ m => if m = 1 then 1 else 0⟩

/-- Coordinates of its nodes: (0, 0), (1, 0), (0, 1) and (shift, -gap), (1 + shift, -gap), (shift, -gap - 1). -/
def exRx (gap shift : ℝ) (d : ℕ) : ℝ :=
  match d with
  | 2 => 1 | 5 => 1 | 6 => shift | 7 => -gap | 8 => 1 + shift | 9 => -gap | 10 => shift | 11 => -gap - 1 | _ => 0

theorem exR_valid (gap shift : ℝ) : System.Valid (exR gap shift) where
  pairs := Nat.one_pos
  dim := Nat.two_pos
  points := Nat.one_pos
  cell := by simp [exR]
  loc := by simp [exR]
  gap := by simp [exR]
  nx := by simp [exR]
  ny := by simp [exR]
  space := ⟨rfl, rfl⟩
  search := by simp [exR]
  cells := by simp [exR]
  shared := by
    intro c i c' i' _ _ _ _ h
    exact h
  affine := by simp [exR]

theorem exR_below (gap shift : ℝ) : DofsBelow (exR gap shift) ((exR gap shift).gdim * 6) := by
  refine ⟨?_, ?_⟩
  · intro i _ p hp a ha
    have hp' : p ∈ [((0 : ℕ), (2 : ℕ))] := hp
    rw [List.mem_singleton.mp hp']
    show 2 * (3 * 0 + a) + 2 ≤ 2 * 6
    have : a < 3 := ha
    omega
  · intro c hc a ha
    show 2 * (3 * c + a) + 2 ≤ 2 * 6
    have : a < 3 := ha
    have : c < 2 := hc
    omega

theorem exR_only {P : ℕ → ℕ → ℕ → ℕ → ℕ → Prop} {gap shift : ℝ} {t : Tracked Unit} (h : P 0 0 0 2 0) :
    AtLinked (exR gap shift) t P := by
  intro i hi e he cell f hf q hq _
  obtain rfl : i = 0 := by have : i < 1 := hi; omega
  obtain rfl : e = 0 := by have : e < 1 := he; omega
  obtain rfl : q = 0 := by have : q < 1 := hq; omega
  have hf' : some ((0 : ℕ), (2 : ℕ)) = some (cell, f) := hf
  obtain ⟨rfl, rfl⟩ := Prod.mk.inj (Option.some.inj hf')
  exact h

theorem exR_nodes (gap shift : ℝ) (t : Tracked Unit) : NodesAt (exR gap shift) t (exRx gap shift)
    ∧ NodesOfMesh (exR gap shift) t (exRx gap shift)
    ∧ (shift = 0 → GapAlongNormal (exR gap shift) t) ∧ (gap = 0 → shift = 0 → NoGap (exR gap shift) t)
    ∧ SumsToOne (exR gap shift) t.cur ∧ UnitNormals (exR gap shift) t := by
  refine ⟨exR_only ?_, exR_only ?_, fun h => exR_only ?_, fun h h' => exR_only ?_, ?_, ?_⟩
  · intro a ha
    have : a = 0 ∨ a = 1 := by have : a < 2 := ha; omega
    rcases this with rfl | rfl
    · simp [pointAt, oppositeAt, valueAt, exR, sum_range_succ, exRx]
      ring
    · simp [pointAt, oppositeAt, valueAt, exR, sum_range_succ, exRx]
      ring
  · intro a ha b hb
    have h1 : a = 0 ∨ a = 1 := by have : a < 2 := ha; omega
    have h2 : b = 0 ∨ b = 1 := by have : b < 2 := hb; omega
    rcases h1 with rfl | rfl <;> rcases h2 with rfl | rfl <;> simp [gradAt, exR, sum_range_succ, exRx]
  · refine ⟨gap, fun a ha => ?_⟩
    have : a = 0 ∨ a = 1 := by have : a < 2 := ha; omega
    rcases this with rfl | rfl <;> simp [pointAt, exR, contactNormalAt, h]
  · intro a ha
    simp [pointAt, exR, h, h']
  · intro i _ e _ cell f _ q _
    refine ⟨?_, fun j hj => ?_, fun _ => ?_⟩
    · simp [exR, sum_range_succ]
      norm_num
    · have : j = 0 ∨ j = 1 := by have : j < 2 := hj; omega
      rcases this with rfl | rfl <;> simp [exR, sum_range_succ]
    · simp [exR, sum_range_succ]
      norm_num
  · intro i _ e _ q hq _
    obtain rfl : q = 0 := by have : q < 1 := hq; omega
    simp [exR, contactNormalAt]

/-- Generate the data, γ = h = θ = 1, friction bound `r`. -/
def exOpsR (law : Law) (r : ℝ) : List (Op Unit) :=
  [.generate ⟨law, some (fun _ => ⟨1, 1, fun _ _ => 3⟩), some (fun _ => ⟨1, 1, fun _ _ => 5⟩),
    some (fun _ => ⟨1, 1, fun _ _ => r⟩), none, none, fun _ => ⟨1, 1, fun _ _ => 1⟩, 1, 1⟩]

theorem exOpsR_shaped (gap shift : ℝ) (law : Law) (r : ℝ) : ∀ op ∈ exOpsR law r, OpShaped (exR gap shift).static op := by
  simp [exOpsR, OpShaped, ScalarShaped, System.static, exR]

theorem exOpsR_created (gap shift : ℝ) (law : Law) (r : ℝ) :
    (history (exR gap shift).static (exOpsR law r) (init (exR gap shift).static ())).coeffs ≠ none := by
  rcases C38_size (static_shaped (exR_valid gap shift)) _ (exOpsR_shaped gap shift law r) () with ⟨h, -⟩ | ⟨-, cs, h, -⟩
  · simp [exOpsR, Tracked.history, Tracked.call] at h
  · rw [h]; simp

/-- The hypotheses of `C169_moment`, `C169_frictionless_partial`, `C169_closed_partial`, `C170_translation` and `C170_rigid_partial`
hold for the two triangles. -/
example : System.Valid (exR 2 0) ∧ (∀ op ∈ exOpsR .frictionless 0, OpShaped (exR 2 0).static op)
    ∧ lastLaw (exOpsR .frictionless 0) none = some .frictionless ∧ lastConsts (exOpsR .frictionless 0) none = some (1, 1)
    ∧ (history (exR 2 0).static (exOpsR .frictionless 0) (init (exR 2 0).static ())).coeffs ≠ none
    ∧ DofsBelow (exR 2 0) ((exR 2 0).gdim * 6)
    ∧ NodesAt (exR 2 0) ((Tracked.new ()).history (exOpsR .frictionless 0)) (exRx 2 0)
    ∧ NodesOfMesh (exR 2 0) ((Tracked.new ()).history (exOpsR .frictionless 0)) (exRx 2 0)
    ∧ GapAlongNormal (exR 2 0) ((Tracked.new ()).history (exOpsR .frictionless 0))
    ∧ SumsToOne (exR 2 0) ((Tracked.new ()).history (exOpsR .frictionless 0)).cur := by
  obtain ⟨h1, h2, h3, -, h5, -⟩ := exR_nodes 2 0 ((Tracked.new ()).history (exOpsR .frictionless 0))
  exact ⟨exR_valid _ _, exOpsR_shaped _ _ _ _, rfl, rfl, exOpsR_created _ _ _ _, exR_below _ _, h1, h2, h3 rfl, h5⟩

/-- With Coulomb friction and no gap. -/
example : System.Valid (exR 0 0) ∧ (∀ op ∈ exOpsR .coulomb 1, OpShaped (exR 0 0).static op)
    ∧ lastLaw (exOpsR .coulomb 1) none = some .coulomb ∧ lastConsts (exOpsR .coulomb 1) none = some (1, 1)
    ∧ (history (exR 0 0).static (exOpsR .coulomb 1) (init (exR 0 0).static ())).coeffs ≠ none
    ∧ DofsBelow (exR 0 0) ((exR 0 0).gdim * 6) ∧ (exR 0 0).gdim = 2
    ∧ NodesAt (exR 0 0) ((Tracked.new ()).history (exOpsR .coulomb 1)) (exRx 0 0)
    ∧ NodesOfMesh (exR 0 0) ((Tracked.new ()).history (exOpsR .coulomb 1)) (exRx 0 0)
    ∧ NoGap (exR 0 0) ((Tracked.new ()).history (exOpsR .coulomb 1))
    ∧ UnitNormals (exR 0 0) ((Tracked.new ()).history (exOpsR .coulomb 1))
    ∧ SumsToOne (exR 0 0) ((Tracked.new ()).history (exOpsR .coulomb 1)).cur := by
  obtain ⟨h1, h2, -, h4, h5, h6⟩ := exR_nodes 0 0 ((Tracked.new ()).history (exOpsR .coulomb 1))
  exact ⟨exR_valid _ _, exOpsR_shaped _ _ _ _, rfl, rfl, exOpsR_created _ _ _ _, exR_below _ _, rfl, h1, h2, h4 rfl rfl, h6, h5⟩

/-- `C169_closest`: the vector from (1/2, 1) to the segment from (0, 0) to (1, 0). -/
example : ∃ s : ℝ, ∀ k < 2, (![0, -1] : Fin 2 → ℝ) (Fin.ofNat 2 k) = s * (![0, 1] : Fin 2 → ℝ) (Fin.ofNat 2 k) := by
  refine C169_closest (dim := 2) (n := 2) (nodes := fun j k => if j = 1 ∧ k = 0 then 1 else 0)
    (p := fun k => if k = 0 then 1 / 2 else 1) (d := fun k => (![0, -1] : Fin 2 → ℝ) (Fin.ofNat 2 k)) ⟨?_, ?_⟩
    (fun _ => 1 / 2) (fun _ _ => by norm_num) (by simp) ?_ (fun k => (![0, 1] : Fin 2 → ℝ) (Fin.ofNat 2 k)) ?_
  · refine ⟨fun _ => 1 / 2, fun _ _ => by norm_num, by simp, fun k hk => ?_⟩
    have : k = 0 ∨ k = 1 := by omega
    rcases this with rfl | rfl <;> simp [sum_range_succ, Fin.ofNat]
  · rintro z ⟨w, -, -, hz⟩
    have := hz 1 (by norm_num)
    simp [sum_range_succ] at this
    simp [Projection.sqLen, sum_range_succ, this, Fin.ofNat]
    exact sq_nonneg _
  · intro k hk
    have : k = 0 ∨ k = 1 := by omega
    rcases this with rfl | rfl <;> simp [sum_range_succ, Fin.ofNat]
  · intro v hv
    have := hv 1 (by norm_num) 0 (by norm_num)
    simp [sum_range_succ] at this
    refine ⟨v 1, fun k hk => ?_⟩
    have : k = 0 ∨ k = 1 := by omega
    rcases this with rfl | rfl <;> simp [Fin.ofNat, *]

/-! ### where they fail -/

theorem exR_sum (gap shift : ℝ) (F : ℕ → ℕ → ℕ → ℕ → ℕ → ℝ) :
    (∑ i ∈ range (exR gap shift).numPairs, ∑ e ∈ range ((exR gap shift).localFacets i),
      (((exR gap shift).facets i)[e]?).elim 0 (fun p => ∑ q ∈ range (exR gap shift).nq,
        if 0 ≤ (exR gap shift).map () i (e * (exR gap shift).nq + q) then F i e p.1 p.2 q else 0)) = F 0 0 0 2 0 := by
  simp [exR]

theorem exR_point (gap shift : ℝ) (law : Law) (r : ℝ) {p : ContactPoint}
    (hp : p = pointAt (exR gap shift) ((Tracked.new ()).history (exOpsR law r)) 0 0 0 2 0) :
    p.g = 2 ∧ p.h = 1 ∧ p.fric = r ∧ p.normal 0 = 0 ∧ p.normal 1 = -1 ∧ p.gap 0 = shift ∧ p.gap 1 = -gap
      ∧ ∀ a b, p.grad0 a b = 0 := by
  subst hp
  refine ⟨rfl, ?_, ?_, ?_, ?_, ?_, ?_, ?_⟩
  all_goals simp [pointAt, exOpsR, Tracked.history, Tracked.call, vals, contactNormalAt, exR]

/-- The lower triangle moved to the right. -/
def exRu (d : ℕ) : ℝ := if 6 ≤ d ∧ d % 2 = 0 then 1 else 0

theorem exRu_jump (gap shift : ℝ) : jumpAt (exR gap shift) () 0 0 0 2 exRu 0 0 = -1
    ∧ jumpAt (exR gap shift) () 0 0 0 2 exRu 0 1 = 0 := by
  constructor
  · simp [jumpAt, valueAt, oppositeAt, exR, sum_range_succ, exRu]
    norm_num
  · simp [jumpAt, valueAt, oppositeAt, exR, sum_range_succ, exRu]

theorem exRu_grad (gap shift : ℝ) {a : ℕ} (ha : a < 2) (b : ℕ) : gradAt (exR gap shift) 0 2 exRu 0 a b = 0 := by
  have : a = 0 ∨ a = 1 := by omega
  rcases this with rfl | rfl <;> simp [gradAt, exR, sum_range_succ, exRu]

/-- The contact force at an open point that slips to the left by `k`. -/
theorem open_force {p : ContactPoint} {r k gap : ℝ} (hg : p.g = 2) (hh : p.h = 1) (hf : p.fric = r) (hn0 : p.normal 0 = 0)
    (hn1 : p.normal 1 = -1) (hgap : p.gap 1 = -gap) (h0 : 0 < gap) (hr : 0 < r) (hk : 0 ≤ k) {J : ℕ → ℝ} {D : ℕ → ℕ → ℝ}
    (hJ0 : J 0 = -k) (hJ1 : J 1 = 0) (hD : Skew p.g D) :
    p.force .tresca 1 J D 0 = -(min k r) / 2 ∧ p.force .tresca 1 J D 1 = 0 := by
  have dot : ∀ x : ℕ → ℝ, p.dot x = -x 1 := by
    intro x
    unfold ContactPoint.dot
    rw [hg, sum_range_succ, sum_range_one, hn0, hn1]
    ring
  have tang : ∀ x : ℕ → ℝ, p.tang x 0 = x 0 ∧ p.tang x 1 = 0 := by
    intro x
    unfold ContactPoint.tang
    rw [dot, hn0, hn1]
    constructor <;> ring
  have ht : ∀ a < p.g, p.trac D a = 0 := fun a ha => trac_skew p hD ha
  have hP : p.pressure 1 J D = -gap := by
    unfold ContactPoint.pressure
    rw [dot_zero p ht, dot, dot, hJ1, hgap]
    ring
  have hs0 : p.slip 1 J D 0 = -k := by
    unfold ContactPoint.slip
    rw [(tang J).1, (tang _).1, ht 0 (by omega), hJ0]
    ring
  have hs1 : p.slip 1 J D 1 = 0 := by
    unfold ContactPoint.slip
    rw [(tang J).2, (tang _).2]
    ring
  have hsq : Real.sqrt (∑ b ∈ range p.g, p.slip 1 J D b ^ 2) = k := by
    rw [hg, sum_range_succ, sum_range_one, hs0, hs1]
    rw [show (-k) ^ 2 + (0 : ℝ) ^ 2 = k ^ 2 by ring, Real.sqrt_sq hk]
  have hp0 : p.projected .tresca 1 J D 0 = -min k r := by
    simp only [ContactPoint.projected, ball]
    rw [hsq, hh, hf, hs0, div_one, one_mul]
    split
    · rename_i h
      rw [min_eq_left h]
    · rename_i h
      rw [min_eq_right (not_le.mp h).le]
      have : k ≠ 0 := by linarith [not_le.mp h]
      field_simp
  unfold ContactPoint.force
  rw [hP, max_eq_left (by linarith), hh, if_neg (by decide), if_neg (by decide), (tang _).1, (tang _).2, hp0]
  constructor <;> ring

/-- C169: with friction the moments of the contact forces do not sum to zero if there is a gap, even along the normal: the
friction forces of the two bodies act on different lines. The lower triangle slips under the upper one. -/
theorem C169_friction_violated (r : ℝ) (hr : 0 < r) :
    System.Valid (exR 2 0) ∧ NodesAt (exR 2 0) ((Tracked.new ()).history (exOpsR .tresca r)) (exRx 2 0)
    ∧ NodesOfMesh (exR 2 0) ((Tracked.new ()).history (exOpsR .tresca r)) (exRx 2 0)
    ∧ GapAlongNormal (exR 2 0) ((Tracked.new ()).history (exOpsR .tresca r))
    ∧ SumsToOne (exR 2 0) ((Tracked.new ()).history (exOpsR .tresca r)).cur
    ∧ ∃ (s' : State Unit) (b : Arr ℕ),
      updateContactData (exR 2 0).static ((exR 2 0).du exRu)
        (history (exR 2 0).static (exOpsR .tresca r) (init (exR 2 0).static ())) = .ok s'
      ∧ (exR 2 0).assembleVector s' 0 = .ok b ∧ moment 2 6 (exRx 2 0) b 0 1 ≠ 0 := by
  obtain ⟨h1, h2, h3, -, h5, -⟩ := exR_nodes 2 0 ((Tracked.new ()).history (exOpsR .tresca r))
  refine ⟨exR_valid _ _, h1, h2, h3 rfl, h5, ?_⟩
  obtain ⟨s', b, k1, k2, k3⟩ := C169_moment (exR_valid 2 0) (exOpsR .tresca r) (exOpsR_shaped _ _ _ _) () .tresca rfl
    (fun _ => Or.inl rfl) 1 1 rfl _ rfl (exOpsR_created _ _ _ _) 6 (exR_below _ _) (exRx 2 0) h1 (Or.inr h2) exRu
  refine ⟨s', b, k1, k2, ?_⟩
  rw [show moment 2 6 (exRx 2 0) b 0 1 = _ from k3 0 Nat.two_pos 1 Nat.one_lt_two]
  obtain ⟨p, hp⟩ : ∃ p, p = pointAt (exR 2 0) ((Tracked.new ()).history (exOpsR .tresca r)) 0 0 0 2 0 := ⟨_, rfl⟩
  obtain ⟨hg, hh, hf, hn0, hn1, hg0, hg1, hgr⟩ := exR_point 2 0 .tresca r hp
  have hsum : gapMoment (exR 2 0) ((Tracked.new ()).history (exOpsR .tresca r)) .tresca 1 exRu 0 1
      = weightAt (exR 2 0) 0 2 0 * (p.gap 0 * p.force .tresca 1 (jumpAt (exR 2 0) () 0 0 0 2 exRu 0)
          (fun a b => gradAt (exR 2 0) 0 2 exRu 0 a b + p.grad0 a b) 1
        - p.gap 1 * p.force .tresca 1 (jumpAt (exR 2 0) () 0 0 0 2 exRu 0)
          (fun a b => gradAt (exR 2 0) 0 2 exRu 0 a b + p.grad0 a b) 0) := by
    rw [hp]
    exact exR_sum 2 0 (fun i e cell f q => weightAt (exR 2 0) cell f q
      * ((pointAt (exR 2 0) ((Tracked.new ()).history (exOpsR .tresca r)) i e cell f q).gap 0
        * (pointAt (exR 2 0) ((Tracked.new ()).history (exOpsR .tresca r)) i e cell f q).force .tresca 1
          (jumpAt (exR 2 0) () i e cell f exRu q) (fun a b => gradAt (exR 2 0) cell f exRu q a b
            + (pointAt (exR 2 0) ((Tracked.new ()).history (exOpsR .tresca r)) i e cell f q).grad0 a b) 1
        - (pointAt (exR 2 0) ((Tracked.new ()).history (exOpsR .tresca r)) i e cell f q).gap 1
        * (pointAt (exR 2 0) ((Tracked.new ()).history (exOpsR .tresca r)) i e cell f q).force .tresca 1
          (jumpAt (exR 2 0) () i e cell f exRu q) (fun a b => gradAt (exR 2 0) cell f exRu q a b
            + (pointAt (exR 2 0) ((Tracked.new ()).history (exOpsR .tresca r)) i e cell f q).grad0 a b) 0))
  have hF := open_force (r := r) hg hh hf hn0 hn1 hg1 (by norm_num) hr zero_le_one (exRu_jump 2 0).1 (exRu_jump 2 0).2
    (D := fun a b => gradAt (exR 2 0) 0 2 exRu 0 a b + p.grad0 a b) (by
      intro a ha b hb
      rw [hg] at ha hb
      simp only [exRu_grad 2 0 ha b, exRu_grad 2 0 hb a, hgr]
      norm_num)
  have hw : weightAt (exR 2 0) 0 2 0 = 1 := by simp [exR, weightAt]
  rw [hsum, hF.1, hF.2, hg0, hg1, hw]
  have : 0 < min 1 r := lt_min one_pos hr
  intro h
  linarith

/-- C169: without friction the moments do not sum to zero if the gap vector is not along the contact normal (the closest point
is an edge or a corner of the opposite surface). The triangles overlap. -/
theorem C169_normal_violated :
    System.Valid (exR (-2) 1) ∧ NodesAt (exR (-2) 1) ((Tracked.new ()).history (exOpsR .frictionless 0)) (exRx (-2) 1)
    ∧ NodesOfMesh (exR (-2) 1) ((Tracked.new ()).history (exOpsR .frictionless 0)) (exRx (-2) 1)
    ∧ SumsToOne (exR (-2) 1) ((Tracked.new ()).history (exOpsR .frictionless 0)).cur
    ∧ ∃ (s' : State Unit) (b : Arr ℕ),
      updateContactData (exR (-2) 1).static ((exR (-2) 1).du 0)
        (history (exR (-2) 1).static (exOpsR .frictionless 0) (init (exR (-2) 1).static ())) = .ok s'
      ∧ (exR (-2) 1).assembleVector s' 0 = .ok b ∧ moment 2 6 (exRx (-2) 1) b 0 1 ≠ 0 := by
  obtain ⟨h1, h2, -, -, h5, -⟩ := exR_nodes (-2) 1 ((Tracked.new ()).history (exOpsR .frictionless 0))
  refine ⟨exR_valid _ _, h1, h2, h5, ?_⟩
  obtain ⟨s', b, k1, k2, k3⟩ := C169_moment (exR_valid (-2) 1) (exOpsR .frictionless 0) (exOpsR_shaped _ _ _ _) () .frictionless rfl
    (fun h => absurd rfl h) 1 1 rfl _ rfl (exOpsR_created _ _ _ _) 6 (exR_below _ _) (exRx (-2) 1) h1 (Or.inr h2) 0
  refine ⟨s', b, k1, k2, ?_⟩
  rw [show moment 2 6 (exRx (-2) 1) b 0 1 = _ from k3 0 Nat.two_pos 1 Nat.one_lt_two]
  obtain ⟨p, hp⟩ : ∃ p, p = pointAt (exR (-2) 1) ((Tracked.new ()).history (exOpsR .frictionless 0)) 0 0 0 2 0 := ⟨_, rfl⟩
  obtain ⟨hg, hh, hf, hn0, hn1, hg0, hg1, hgr⟩ := exR_point (-2) 1 .frictionless 0 hp
  have hsum : gapMoment (exR (-2) 1) ((Tracked.new ()).history (exOpsR .frictionless 0)) .frictionless 1 0 0 1
      = weightAt (exR (-2) 1) 0 2 0 * (p.gap 0 * p.force .frictionless 1 (jumpAt (exR (-2) 1) () 0 0 0 2 0 0)
          (fun a b => gradAt (exR (-2) 1) 0 2 0 0 a b + p.grad0 a b) 1
        - p.gap 1 * p.force .frictionless 1 (jumpAt (exR (-2) 1) () 0 0 0 2 0 0)
          (fun a b => gradAt (exR (-2) 1) 0 2 0 0 a b + p.grad0 a b) 0) := by
    rw [hp]
    exact exR_sum (-2) 1 (fun i e cell f q => weightAt (exR (-2) 1) cell f q
      * ((pointAt (exR (-2) 1) ((Tracked.new ()).history (exOpsR .frictionless 0)) i e cell f q).gap 0
        * (pointAt (exR (-2) 1) ((Tracked.new ()).history (exOpsR .frictionless 0)) i e cell f q).force .frictionless 1
          (jumpAt (exR (-2) 1) () i e cell f 0 q) (fun a b => gradAt (exR (-2) 1) cell f 0 q a b
            + (pointAt (exR (-2) 1) ((Tracked.new ()).history (exOpsR .frictionless 0)) i e cell f q).grad0 a b) 1
        - (pointAt (exR (-2) 1) ((Tracked.new ()).history (exOpsR .frictionless 0)) i e cell f q).gap 1
        * (pointAt (exR (-2) 1) ((Tracked.new ()).history (exOpsR .frictionless 0)) i e cell f q).force .frictionless 1
          (jumpAt (exR (-2) 1) () i e cell f 0 q) (fun a b => gradAt (exR (-2) 1) cell f 0 q a b
            + (pointAt (exR (-2) 1) ((Tracked.new ()).history (exOpsR .frictionless 0)) i e cell f q).grad0 a b) 0))
  have hD : ∀ a < p.g, ∀ b < p.g, gradAt (exR (-2) 1) 0 2 0 0 a b + p.grad0 a b = 0 := fun a _ b _ => by
    rw [grad_zero, hgr, add_zero]
  have hJ : ∀ a < p.g, jumpAt (exR (-2) 1) () 0 0 0 2 0 0 a = 0 := fun a _ => by
    simp [jumpAt, valueAt, oppositeAt]
  have hP : p.pressure 1 (jumpAt (exR (-2) 1) () 0 0 0 2 0 0) (fun a b => gradAt (exR (-2) 1) 0 2 0 0 a b + p.grad0 a b) = 2 := by
    unfold ContactPoint.pressure
    rw [dot_zero p hJ, dot_zero p (fun a ha => trac_zero p hD ha)]
    unfold ContactPoint.dot
    rw [hg, sum_range_succ, sum_range_one, hn0, hn1, hg0, hg1]
    norm_num
  have hw : weightAt (exR (-2) 1) 0 2 0 = 1 := by simp [exR, weightAt]
  rw [hsum, hw, hg0, hg1]
  unfold ContactPoint.force
  rw [hP, hh, hn0, hn1, if_pos rfl]
  norm_num

/-- The rotation by a right angle, linearised. -/
def exRot (a b : ℕ) : ℝ := if a = 0 ∧ b = 1 then -1 else if a = 1 ∧ b = 0 then 1 else 0

/-- C170: with friction, a rotation of both bodies together changes the contact forces if there is a gap: the linearised
rotation is seen as a slip. -/
theorem C170_rotation_violated (r : ℝ) (hr : 0 < r) :
    System.Valid (exR 2 0) ∧ NodesAt (exR 2 0) ((Tracked.new ()).history (exOpsR .tresca r)) (exRx 2 0)
    ∧ NodesOfMesh (exR 2 0) ((Tracked.new ()).history (exOpsR .tresca r)) (exRx 2 0)
    ∧ GapAlongNormal (exR 2 0) ((Tracked.new ()).history (exOpsR .tresca r))
    ∧ SumsToOne (exR 2 0) ((Tracked.new ()).history (exOpsR .tresca r)).cur
    ∧ Skew 2 exRot
    ∧ ∃ (s1 s2 : State Unit) (b1 b2 : Arr ℕ),
      updateContactData (exR 2 0).static ((exR 2 0).du 0)
        (history (exR 2 0).static (exOpsR .tresca r) (init (exR 2 0).static ())) = .ok s1
      ∧ (exR 2 0).assembleVector s1 0 = .ok b1
      ∧ updateContactData (exR 2 0).static ((exR 2 0).du (rigidMotion 2 exRot 0 (exRx 2 0)))
        (history (exR 2 0).static (exOpsR .tresca r) (init (exR 2 0).static ())) = .ok s2
      ∧ (exR 2 0).assembleVector s2 0 = .ok b2 ∧ b1 ≠ b2 := by
  obtain ⟨h1, h2, h3, -, h5, -⟩ := exR_nodes 2 0 ((Tracked.new ()).history (exOpsR .tresca r))
  have hrot : Skew 2 exRot := by
    intro a ha b hb
    have h1 : a = 0 ∨ a = 1 := by omega
    have h2 : b = 0 ∨ b = 1 := by omega
    rcases h1 with rfl | rfl <;> rcases h2 with rfl | rfl <;> simp [exRot]
  refine ⟨exR_valid _ _, h1, h2, h3 rfl, h5, hrot, ?_⟩
  obtain ⟨b, hb, hform⟩ := vector_of (exR_valid 2 0) (exOpsR .tresca r) (exOpsR_shaped _ _ _ _) () .tresca rfl
    (fun _ => Or.inl rfl) 1 1 rfl _ rfl (exOpsR_created _ _ _ _) _ (exR_below _ _)
  obtain ⟨s1, k1, k2⟩ := hb 0
  obtain ⟨s2, k3, k4⟩ := hb (rigidMotion 2 exRot 0 (exRx 2 0))
  refine ⟨s1, s2, _, _, k1, k2, k3, k4, fun heq => ?_⟩
  obtain ⟨p, hp⟩ : ∃ p, p = pointAt (exR 2 0) ((Tracked.new ()).history (exOpsR .tresca r)) 0 0 0 2 0 := ⟨_, rfl⟩
  obtain ⟨hg, hh, hf, hn0, hn1, hg0, hg1, hgr⟩ := exR_point 2 0 .tresca r hp
  have hw : weightAt (exR 2 0) 0 2 0 = 1 := by simp [exR, weightAt]
  have hskew : Skew p.g (gradAt (exR 2 0) 0 2 exRu 0) := by
    intro a ha b hb
    rw [hg] at ha hb
    rw [exRu_grad 2 0 ha b, exRu_grad 2 0 hb a, neg_zero]
  have hval : ∀ (u : ℕ → ℝ) (k : ℝ), 0 ≤ k → jumpAt (exR 2 0) () 0 0 0 2 u 0 0 = -k → jumpAt (exR 2 0) () 0 0 0 2 u 0 1 = 0 →
      Skew 2 (gradAt (exR 2 0) 0 2 u 0) →
      ∑ d ∈ range ((exR 2 0).gdim * 6), b u d * exRu d = min k r / 2 := by
    intro u k hk hJ0 hJ1 hD
    rw [hform]
    have hsum : contactForm (exR 2 0) ((Tracked.new ()).history (exOpsR .tresca r)) .tresca 1 1 u exRu
        = weightAt (exR 2 0) 0 2 0 * p.form .tresca 1 1 (jumpAt (exR 2 0) () 0 0 0 2 u 0)
          (fun a b => gradAt (exR 2 0) 0 2 u 0 a b + p.grad0 a b) (jumpAt (exR 2 0) () 0 0 0 2 exRu 0)
          (gradAt (exR 2 0) 0 2 exRu 0) := by
      rw [hp]
      exact exR_sum 2 0 (fun i e cell f q => weightAt (exR 2 0) cell f q
        * (pointAt (exR 2 0) ((Tracked.new ()).history (exOpsR .tresca r)) i e cell f q).form .tresca 1 1
          (jumpAt (exR 2 0) () i e cell f u q) (fun a b => gradAt (exR 2 0) cell f u q a b
            + (pointAt (exR 2 0) ((Tracked.new ()).history (exOpsR .tresca r)) i e cell f q).grad0 a b)
          (jumpAt (exR 2 0) () i e cell f exRu q) (gradAt (exR 2 0) cell f exRu q))
    rw [hsum, hw, one_mul, form_force p .tresca 1 1 _ _ _ _ (Or.inr hskew), hg, sum_range_succ, sum_range_one,
      (exRu_jump 2 0).1, (exRu_jump 2 0).2]
    have hF := open_force (r := r) hg hh hf hn0 hn1 hg1 (by norm_num) hr hk hJ0 hJ1
      (D := fun a b => gradAt (exR 2 0) 0 2 u 0 a b + p.grad0 a b) (by
        intro a ha b hb
        rw [hg] at ha hb
        simp only [hgr, add_zero]
        exact hD a ha b hb)
    rw [hF.1, hF.2]
    ring
  have v1 := hval 0 0 le_rfl (by simp [jumpAt, valueAt, oppositeAt]) (by simp [jumpAt, valueAt, oppositeAt])
    (fun a _ b _ => by rw [grad_zero, grad_zero, neg_zero])
  have hj := fun a (ha : a < 2) => rotation_jump h1 exRot (i := 0) (e := 0) (cell := 0) (f := 2) (q := 0) Nat.one_pos Nat.one_pos rfl
    Nat.one_pos le_rfl (a := a) ha
  rw [← hp] at hj
  have j0 : jumpAt (exR 2 0) () 0 0 0 2 (rigidMotion 2 exRot 0 (exRx 2 0)) 0 0 = -2 := by
    refine (hj 0 (by norm_num)).trans ?_
    show -∑ b ∈ range 2, exRot 0 b * p.gap b = -2
    rw [sum_range_succ, sum_range_one, hg0, hg1]
    simp [exRot]
  have j1 : jumpAt (exR 2 0) () 0 0 0 2 (rigidMotion 2 exRot 0 (exRx 2 0)) 0 1 = 0 := by
    refine (hj 1 (by norm_num)).trans ?_
    show -∑ b ∈ range 2, exRot 1 b * p.gap b = 0
    rw [sum_range_succ, sum_range_one, hg0, hg1]
    simp [exRot]
  have v2 := hval (rigidMotion 2 exRot 0 (exRx 2 0)) 2 (by norm_num) j0 j1 (fun a ha b hb => by
    have g1 := rotation_grad h2 exRot (i := 0) (e := 0) (cell := 0) (f := 2) (q := 0) Nat.one_pos Nat.one_pos rfl Nat.one_pos
      le_rfl ha hb
    have g2 := rotation_grad h2 exRot (i := 0) (e := 0) (cell := 0) (f := 2) (q := 0) Nat.one_pos Nat.one_pos rfl Nat.one_pos
      le_rfl hb ha
    rw [show gradAt (exR 2 0) 0 2 (rigidMotion 2 exRot 0 (exRx 2 0)) 0 a b = _ from g1,
      show gradAt (exR 2 0) 0 2 (rigidMotion 2 exRot 0 (exRx 2 0)) 0 b a = _ from g2]
    exact hrot a ha b hb)
  rw [heq, v2] at v1
  have : 0 < min 2 r := lt_min two_pos hr
  rw [min_eq_left hr.le] at v1
  linarith

end

end Verif.ContactProblem
