import Verif.Lemmas.Minimiser
import Verif.Props.WellPosed

/-!
Property C184: for `theta = 1` the solution of the contact problem is the displacement of least energy.
-/

namespace Verif.ContactProblem

open Verif.Spec Verif.Packing Verif.Assembly Verif.Kernels Verif.Lemmas Finset

noncomputable section

variable {G : Type} {Y : System G}

/-- C184: without friction or with Tresca friction and `theta = 1`, and for a symmetric stiffness matrix as in C143, the
displacement satisfies the assembled equations of the free dofs exactly if no displacement with the same values at the
constrained dofs has less energy, and then every other one has more. -/
theorem C184_least_energy (hY : System.Valid Y) (ops : List (Op G)) (hops : ∀ op ∈ ops, OpShaped Y.static op)
    (g : G) (law : Law) (hlaw : lastLaw ops none = some law) (hl : law ≠ .coulomb)
    (gamma : ℝ) (hγ : 0 < gamma) (hconsts : lastConsts ops none = some (gamma, 1))
    (s : State G) (hs : s = history Y.static ops (init Y.static g)) (hc : s.coeffs ≠ none)
    (hh : ∀ i < Y.numPairs, ∀ e < Y.localFacets i, 0 < ((Tracked.new g).history ops).h i e 0)
    (hwt : ∀ i < Y.numPairs, ∀ p ∈ Y.facets i, ∀ q < Y.nq, 0 ≤ weightAt Y p.1 p.2 q)
    (N : ℕ) (hN : DofsBelow Y N) (F : Finset ℕ) (hF : ∀ d ∈ F, d < N) (K : ℕ → ℕ → ℝ)
    (hsym : ∀ d < N, ∀ c < N, K d c = K c d)
    (hK : Coercive Y ((Tracked.new g).history ops) law gamma 1 N F K)
    (hT : law = .tresca → (Y.gdim = 2 ∨ Y.gdim = 3)
      ∧ ∀ i < Y.numPairs, ∀ e < Y.localFacets i, 0 ≤ ((Tracked.new g).history ops).fric i e 0)
    (l u : ℕ → ℝ) (s' : State G) (b : Arr ℕ) (h1 : updateContactData Y.static (Y.du u) s = .ok s')
    (h2 : Y.assembleVector s' 0 = .ok b) :
    ((∀ d ∈ F, ∑ c ∈ range N, K d c * u c - l d + b d = 0) ↔ ∀ v : ℕ → ℝ, (∀ d, d ∉ F → v d = u d) →
      bulkEnergy N K l u + contactEnergy Y ((Tracked.new g).history ops) law gamma u
      ≤ bulkEnergy N K l v + contactEnergy Y ((Tracked.new g).history ops) law gamma v)
    ∧ ((∀ d ∈ F, ∑ c ∈ range N, K d c * u c - l d + b d = 0) → ∀ v : ℕ → ℝ, (∀ d, d ∉ F → v d = u d) → (∃ d, v d ≠ u d) →
      bulkEnergy N K l u + contactEnergy Y ((Tracked.new g).history ops) law gamma u
      < bulkEnergy N K l v + contactEnergy Y ((Tracked.new g).history ops) law gamma v) := by
  obtain ⟨B, hb1, hb⟩ := vector_of hY ops hops g law hlaw (friction_dim hl (fun h => (hT h).1)) gamma 1 hconsts s hs hc N hN
  have hB : Bounded Y ((Tracked.new g).history ops) law := ⟨hY.loc, fun h => (hT h).2, hh, hwt⟩
  have hr : NonnegativeFriction Y ((Tracked.new g).history ops) law gamma := by
    intro i hi e he
    cases law with
    | frictionless => trivial
    | coulomb => exact absurd rfl hl
    | tresca => exact mul_nonneg (div_pos (hh i hi e he) hγ).le ((hT rfl).2 i hi e he)
  obtain ⟨s2, k1, k2⟩ := hb1 u
  obtain rfl : s2 = s' := Except.ok.inj (k1.symm.trans h1)
  obtain rfl : b = B u := Except.ok.inj (h2.symm.trans k2)
  have hder : ∀ u w : ℕ → ℝ, HasDerivAt (fun s : ℝ => contactEnergy Y ((Tracked.new g).history ops) law gamma (fun d => u d + s * w d))
      (∑ d ∈ range N, B u d * w d) 0 := by
    intro u w
    rw [hb]
    exact contactEnergy_deriv Y _ law hl gamma hr u w
  have hmono : ∀ u z : ℕ → ℝ, (∀ d, d ∉ F → z d = 0) → (∃ d, z d ≠ 0) →
      0 < ∑ d ∈ range N, ∑ c ∈ range N, z d * K d c * z c
        + (∑ d ∈ range N, B (fun d => u d + z d) d * z d - ∑ d ∈ range N, B u d * z d) := by
    intro u z hz hne
    have h1 := hK z hz hne
    have h2 := contactForm_lower hB hl hγ 1 (fun d => u d + z d) u
    have e : (fun d => u d + z d - u d) = z := by funext d; ring
    rw [e] at h2
    rw [hb, hb]
    linarith
  have hstrict := fun h => solution_min (l := l) hsym hder hmono u h
  refine ⟨⟨fun h v hv => ?_, fun h => min_solution hsym hF hder u h⟩, hstrict⟩
  by_cases hne : ∃ d, v d ≠ u d
  · exact (hstrict h v hv hne).le
  · push Not at hne
    rw [show v = u from funext hne]

/-- C184: among the displacements with given values at the constrained dofs there is exactly one of least energy. -/
theorem C184_exists (hY : System.Valid Y) (ops : List (Op G)) (hops : ∀ op ∈ ops, OpShaped Y.static op)
    (g : G) (law : Law) (hlaw : lastLaw ops none = some law) (hl : law ≠ .coulomb)
    (gamma : ℝ) (hγ : 0 < gamma) (hconsts : lastConsts ops none = some (gamma, 1))
    (s : State G) (hs : s = history Y.static ops (init Y.static g)) (hc : s.coeffs ≠ none)
    (hh : ∀ i < Y.numPairs, ∀ e < Y.localFacets i, 0 < ((Tracked.new g).history ops).h i e 0)
    (hwt : ∀ i < Y.numPairs, ∀ p ∈ Y.facets i, ∀ q < Y.nq, 0 ≤ weightAt Y p.1 p.2 q)
    (N : ℕ) (hN : DofsBelow Y N) (F : Finset ℕ) (hF : ∀ d ∈ F, d < N) (K : ℕ → ℕ → ℝ)
    (hsym : ∀ d < N, ∀ c < N, K d c = K c d)
    (hK : Coercive Y ((Tracked.new g).history ops) law gamma 1 N F K)
    (hT : law = .tresca → (Y.gdim = 2 ∨ Y.gdim = 3)
      ∧ ∀ i < Y.numPairs, ∀ e < Y.localFacets i, 0 ≤ ((Tracked.new g).history ops).fric i e 0)
    (l u0 : ℕ → ℝ) :
    ∃! u : ℕ → ℝ, (∀ d, d ∉ F → u d = u0 d) ∧ ∀ v : ℕ → ℝ, (∀ d, d ∉ F → v d = u0 d) →
      bulkEnergy N K l u + contactEnergy Y ((Tracked.new g).history ops) law gamma u
      ≤ bulkEnergy N K l v + contactEnergy Y ((Tracked.new g).history ops) law gamma v := by
  obtain ⟨u, ⟨hu0, s', b, h1, h2, h3⟩, -⟩ := C143_wellposed hY ops hops g law hlaw hl gamma 1 hγ hconsts s hs hc hh hwt N hN F hF K
    hK hT l u0
  have h := C184_least_energy hY ops hops g law hlaw hl gamma hγ hconsts s hs hc hh hwt N hN F hF K hsym hK hT l u s' b h1 h2
  refine ⟨u, ⟨hu0, fun v hv => h.1.mp h3 v (fun d hd => (hv d hd).trans (hu0 d hd).symm)⟩, fun y ⟨hy0, hy⟩ => ?_⟩
  by_contra hne
  have hex : ∃ d, y d ≠ u d := by
    by_contra h'
    push Not at h'
    exact hne (funext h')
  have := h.2 h3 y (fun d hd => (hy0 d hd).trans (hu0 d hd).symm) hex
  exact absurd (hy u hu0) (not_le.mpr this)

/-- The hypotheses of C184 hold for the example with Tresca friction, dof 0 constrained, and bodies with stiffness
matrix `100`. -/
example : (∀ d < 4, ∀ c < 4, (if d = c then (100 : ℝ) else 0) = if c = d then 100 else 0)
    ∧ lastConsts (exSysOpsT 1) none = some (10, 1) ∧ lastLaw (exSysOpsT 1) none = some .tresca
    ∧ Coercive exY ((Tracked.new ()).history (exSysOpsT 1)) .tresca 10 1 4 {1, 2, 3} (fun d c => if d = c then 100 else 0) := by
  refine ⟨fun d _ c _ => by simp only [eq_comm], rfl, rfl, ?_⟩
  rintro v hv ⟨d, hd⟩
  have h0 : v 0 = 0 := hv 0 (by decide)
  have hpos : 0 < v 1 ^ 2 + v 2 ^ 2 + v 3 ^ 2 := by
    have hmem : d ∈ ({1, 2, 3} : Finset ℕ) := by
      by_contra h
      exact hd (hv d h)
    simp only [Finset.mem_insert, Finset.mem_singleton] at hmem
    rcases hmem with rfl | rfl | rfl <;> positivity
  rw [exY_traction, h0]
  simp [sum_range_succ, h0]
  norm_num
  nlinarith [sq_nonneg (v 1), sq_nonneg (v 2), sq_nonneg (v 3)]

end

end Verif.ContactProblem
