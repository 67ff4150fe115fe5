import Verif.Lemmas.NearStep
import Verif.Props.LastStep
import Verif.Props.LocalNewton
import Verif.Props.Moments
import Verif.Props.OneSidedLocal

/-!
Property C189: without friction, the Newton solver of the load steps converges in one iteration from near the solution.
-/

namespace Verif.ContactProblem

open Verif.Spec Verif.Packing Verif.Assembly Verif.Kernels Verif.Lemmas Finset

noncomputable section

variable {G : Type} {Y : System G}

/-! ### displacements which agree at the dofs of the contact surfaces -/

theorem jump_below (hY : System.Valid Y) {N : ℕ} (hN : DofsBelow Y N) {u u' : ℕ → ℝ} (h : ∀ d < N, u d = u' d) (g : G) {i e : ℕ}
    (hi : i < Y.numPairs) {cell f : ℕ} (hp : (Y.facets i)[e]? = some (cell, f)) {q : ℕ}
    (hl : 0 ≤ Y.map g i (e * Y.nq + q)) {a : ℕ} (ha : a < Y.gdim) :
    jumpAt Y g i e cell f u q a = jumpAt Y g i e cell f u' q a := by
  unfold jumpAt valueAt oppositeAt
  congr 1
  · refine sum_congr rfl (fun k hk => ?_)
    have := hN.1 i hi _ (List.mem_of_getElem? hp) k (mem_range.mp hk)
    rw [h _ (by simp only at this; omega)]
  · refine sum_congr rfl (fun k hk => ?_)
    have := hN.2 _ (hY.cells g i (e * Y.nq + q) (Y.map g i (e * Y.nq + q)).toNat (Int.toNat_of_nonneg hl).symm) k (mem_range.mp hk)
    rw [h _ (by omega)]

theorem grad_below {N : ℕ} (hN : DofsBelow Y N) {u u' : ℕ → ℝ} (h : ∀ d < N, u d = u' d) {i e : ℕ}
    (hi : i < Y.numPairs) {cell f : ℕ} (hp : (Y.facets i)[e]? = some (cell, f)) (q : ℕ) {a : ℕ} (ha : a < Y.gdim) (b : ℕ) :
    gradAt Y cell f u q a b = gradAt Y cell f u' q a b := by
  unfold gradAt
  refine sum_congr rfl (fun k hk => ?_)
  have := hN.1 i hi _ (List.mem_of_getElem? hp) k (mem_range.mp hk)
  rw [h _ (by simp only at this; omega)]

theorem trac_below {N : ℕ} (hN : DofsBelow Y N) {u u' : ℕ → ℝ} (h : ∀ d < N, u d = u' d) (t : Tracked G) {i e : ℕ}
    (hi : i < Y.numPairs) {cell f : ℕ} (hp : (Y.facets i)[e]? = some (cell, f)) (q : ℕ) {a : ℕ} (ha : a < Y.gdim) :
    (pointAt Y t i e cell f q).trac (fun a b => gradAt Y cell f u q a b + (pointAt Y t i e cell f q).grad0 a b) a
      = (pointAt Y t i e cell f q).trac (fun a b => gradAt Y cell f u' q a b + (pointAt Y t i e cell f q).grad0 a b) a :=
  traction_congr _ _ _ ha (fun a ha b _ => by rw [grad_below hN h hi hp q ha b])

theorem dotJump_below (hY : System.Valid Y) {N : ℕ} (hN : DofsBelow Y N) {u u' : ℕ → ℝ} (h : ∀ d < N, u d = u' d) (t : Tracked G)
    {i e : ℕ} (hi : i < Y.numPairs) {cell f : ℕ} (hp : (Y.facets i)[e]? = some (cell, f)) {q : ℕ}
    (hl : 0 ≤ Y.map t.cur i (e * Y.nq + q)) {p : ContactPoint} (hg : p.g = Y.gdim) :
    p.dot (jumpAt Y t.cur i e cell f u q) = p.dot (jumpAt Y t.cur i e cell f u' q) := by
  unfold ContactPoint.dot
  rw [hg]
  exact sum_congr rfl (fun a ha => by rw [jump_below hY hN h t.cur hi hp hl (mem_range.mp ha)])

theorem form_below (hY : System.Valid Y) {N : ℕ} (hN : DofsBelow Y N) {u u' : ℕ → ℝ} (h : ∀ d < N, u d = u' d) (t : Tracked G)
    (law : Law) (gamma theta : ℝ) (v : ℕ → ℝ) :
    contactForm Y t law gamma theta u v = contactForm Y t law gamma theta u' v := by
  unfold contactForm
  refine sum_congr rfl (fun i hi => sum_congr rfl (fun e _ => ?_))
  cases hf : (Y.facets i)[e]? with
  | none => simp only [Option.elim_none]
  | some c =>
    obtain ⟨cell, f⟩ := c
    simp only [Option.elim_some]
    refine sum_congr rfl (fun q _ => ?_)
    split
    · rename_i hl
      have h1 := dotJump_below hY hN h t (mem_range.mp hi) hf hl (p := pointAt Y t i e cell f q) rfl
      have h2 : ∀ a < (pointAt Y t i e cell f q).g, _ := fun a ha => trac_below hN h t (mem_range.mp hi) hf q ha
      have h3 : ∀ a < (pointAt Y t i e cell f q).g, _ := fun a ha => jump_below hY hN h t.cur (mem_range.mp hi) hf hl ha
      generalize pointAt Y t i e cell f q = p at *
      congr 1
      exact form_shift p law gamma theta h1 h2 (fun _ => h3) _ _
    · rfl

theorem tangent_below (hY : System.Valid Y) {N : ℕ} (hN : DofsBelow Y N) {u u' : ℕ → ℝ} (h : ∀ d < N, u d = u' d) (t : Tracked G)
    (gamma theta : ℝ) (w v : ℕ → ℝ) :
    contactTangent Y t cutSlope .frictionless gamma theta u w v = contactTangent Y t cutSlope .frictionless gamma theta u' w v := by
  unfold contactTangent
  refine sum_congr rfl (fun i hi => sum_congr rfl (fun e _ => ?_))
  cases hf : (Y.facets i)[e]? with
  | none => simp only [Option.elim_none]
  | some c =>
    obtain ⟨cell, f⟩ := c
    simp only [Option.elim_some]
    refine sum_congr rfl (fun q _ => ?_)
    split
    · rename_i hl
      have h1 := dotJump_below hY hN h t (mem_range.mp hi) hf hl (p := pointAt Y t i e cell f q) rfl
      have h2 : ∀ a < (pointAt Y t i e cell f q).g, _ := fun a ha => trac_below hN h t (mem_range.mp hi) hf q ha
      generalize pointAt Y t i e cell f q = p at *
      have h3 := (samePoint_refl p).dot h2
      unfold ContactPoint.dForm
      simp only [if_true]
      unfold ContactPoint.dNormalPart ContactPoint.pressure
      rw [h1, h3]
    · rfl

/-! ### the solver -/

section

variable {ops : List (Op G)} {g : G} {gamma theta : ℝ} {N : ℕ}

/-- The contact matrix, applied to `w` and tested with `v`. -/
theorem driver_pairing (hY : System.Valid Y) (hops : ∀ op ∈ ops, OpShaped Y.static op)
    (hlaw : lastLaw ops none = some .frictionless) (hconsts : lastConsts ops none = some (gamma, theta))
    (hc : ((Tracked.new g).history ops).created = true) (hN : DofsBelow Y N)
    {c : State G} (h : Reached Y ops g c) (x w v : ℕ → ℝ) :
    ∑ d ∈ range N, ∑ k ∈ range N, v d * contactMatrix Y (driverCoefficients Y x c) (d, k) * w k
      = contactTangent Y ((Tracked.new g).history ops) cutSlope .frictionless gamma theta x w v := by
  obtain ⟨us, rfl⟩ := h
  have hs := SameData.updates (Y := Y) ops us (Tracked.new g)
  have hcs : (history Y.static (ops ++ updates Y us) (init Y.static g)).coeffs ≠ none := by
    rcases C38_size (static_shaped hY) _ (updates_shaped hY hops us) g with ⟨h1, -⟩ | ⟨-, cs, h1, -⟩
    · rw [hs.created, hc] at h1; cases h1
    · rw [h1]; simp
  obtain ⟨s', A, h1, h2, h3⟩ := C131_matrix hY _ (updates_shaped hY hops us) g .frictionless ((updates_law ops us none).trans hlaw)
    (fun h => absurd rfl h) gamma theta ((updates_consts ops us none).trans hconsts) _ rfl hcs N hN x
  have e1 : driverCoefficients Y x (history Y.static (ops ++ updates Y us) (init Y.static g)) = s' := by
    unfold driverCoefficients
    rw [h1]
    rfl
  have e2 : contactMatrix Y s' = A := by
    unfold contactMatrix
    rw [h2]
  rw [e1, e2, ← hs.tangent, ← h3 w v]

/-- The free dofs of a load step. -/
def freeDofs (L : LoadCase) (N : ℕ) : Finset ℕ := (range N).filter (fun d => L.bc d = none)

theorem free_iff {L : LoadCase} {N d : ℕ} : d ∈ freeDofs L N ↔ d < N ∧ L.bc d = none := by
  unfold freeDofs
  rw [mem_filter, mem_range]

/-- What an increment satisfies which satisfies the equations of the load step up to any tolerance. -/
theorem balanced_eq {L : LoadCase} {K : ℕ → ℕ → ℝ} {l : ℕ → ℝ} (hL : LinearBulk L N K l) {t : Tracked G} {law : Law}
    {u us : ℕ → ℝ} (h : ∀ tol > 0, Balanced Y t law gamma theta L N u us tol) :
    (∀ d < N, ∀ g, L.bc d = some g → us d = g) ∧ ∀ d < N, L.bc d = none →
      ∑ c ∈ range N, K d c * (u c + us c) - l d + contactForm Y t law gamma theta us (unit d) = 0 := by
  have hb : ∀ d < N, ∀ g, L.bc d = some g → us d = g := by
    intro d hd g hg
    by_contra hne
    have := (h |us d - g| (abs_pos.mpr (sub_ne_zero.mpr hne))).1 d hd g hg
    exact lt_irrefl _ this
  refine ⟨hb, fun d hd hf => ?_⟩
  by_contra hne
  obtain ⟨X, hX⟩ : ∃ X, X = ∑ c ∈ range N, K d c * (u c + us c) - l d + contactForm Y t law gamma theta us (unit d) := ⟨_, rfl⟩
  rw [← hX] at hne
  have hm : 0 ≤ magnitude N (unit d) := Real.sqrt_nonneg _
  have h1 := (h (|X| / (2 * (magnitude N (unit d) + 1))) (by positivity)).2 (unit d) (fun e he hbe => by
    unfold unit
    rw [if_neg]
    rintro rfl
    exact hbe hf)
  have e : ∑ e ∈ range N, (L.bulk (fun c => u c + us c) e
        + ∑ c ∈ range N, (L.bc c).elim 0 (fun g => L.stiff (fun c => u c + us c) e c * (g - us c))) * unit d e
      + contactForm Y t law gamma theta us (unit d) = X := by
    rw [hX]
    congr 1
    have e0 : ∑ c ∈ range N, (L.bc c).elim 0 (fun g => L.stiff (fun c => u c + us c) d c * (g - us c)) = 0 := by
      refine sum_eq_zero (fun c hc => ?_)
      cases hbc : L.bc c with
      | none => rfl
      | some g' => rw [Option.elim_some, hb c (mem_range.mp hc) g' hbc, sub_self, mul_zero]
    rw [sum_eq_single_of_mem d (mem_range.mpr hd) (fun k _ hk => by rw [unit, if_neg hk, mul_zero]), e0, unit, if_pos rfl, mul_one,
      hL.1 _ d hd, add_zero]
  rw [e, div_mul_eq_mul_div, le_div_iff₀ (by positivity)] at h1
  have : 0 < |X| := abs_pos.mpr hne
  nlinarith

end

/-- C189: without friction, the Newton solver of a load step converges from near the solution in one iteration. The
bulk is linearly elastic with a stiffness matrix as in C143, the prescribed dofs are not at the contact surface, and
`us` satisfies the equations of the load step. Then there is a distance `ε`, such that for every solver whose initial
guess differs from `us` by less than `ε` at each dof, at prescribed dofs too, the first linear system has exactly one
solution, the initial guess minus `us`, and if the linear solver finds it then `solve` converges, with one iteration, and returns `us` — or with none, if the solver was used before and the
residual of the initial guess is less than the tolerance. Quadrature points may be just at the switch between open
and closed. -/
theorem C189_local (hY : System.Valid Y) (ops : List (Op G)) (hops : ∀ op ∈ ops, OpShaped Y.static op)
    (g : G) (hlaw : lastLaw ops none = some .frictionless)
    (gamma theta : ℝ) (hγ : 0 < gamma) (hconsts : lastConsts ops none = some (gamma, theta))
    (hc : ((Tracked.new g).history ops).created = true)
    (hh : ∀ i < Y.numPairs, ∀ e < Y.localFacets i, 0 < ((Tracked.new g).history ops).h i e 0)
    (hwt : ∀ i < Y.numPairs, ∀ p ∈ Y.facets i, ∀ q < Y.nq, 0 ≤ weightAt Y p.1 p.2 q)
    (Z : Setting G) (hN : DofsBelow Y Z.numDofs) (L : LoadCase) (u : ℕ → ℝ)
    (K : ℕ → ℕ → ℝ) (l : ℕ → ℝ) (hL : LinearBulk L Z.numDofs K l)
    (hbc : ∀ d < Z.numDofs, L.bc d ≠ none → AwayFromContact Y ((Tracked.new g).history ops) d)
    (hK : Coercive Y ((Tracked.new g).history ops) .frictionless gamma theta Z.numDofs
      ((range Z.numDofs).filter (fun d => L.bc d = none)) K)
    (us : ℕ → ℝ) (hus : ∀ tol > 0, Balanced Y ((Tracked.new g).history ops) .frictionless gamma theta L Z.numDofs u us tol) :
    ∃ ε > 0, ∀ (rank0 : Bool) (s : Newton.St (ℕ → ℝ) (ℕ → ℝ) (State G)), s.coeffs = history Y.static ops (init Y.static g) →
      s.relax ≠ none → s.opts.crit = .residual → 1 ≤ s.opts.maxIt → 0 < s.opts.atol → 0 < s.opts.rtol →
      (∀ d < Z.numDofs, |s.x d - us d| < ε) → (∃ d < Z.numDofs, s.x d ≠ us d) →
      ∀ c, c = history Y.static (ops ++ [.updateData (Y.du s.x)]) (init Y.static g) →
      (∀ dx : ℕ → ℝ, (∀ d < Z.numDofs, ∑ k ∈ range Z.numDofs, driverJacobian Y L u s.x c (d, k) * dx k
          = driverResidual Y Z L u s.x c d) ↔ ∀ d < Z.numDofs, dx d = s.x d - us d)
      ∧ (SolvesExactly Z (driverJacobian Y L u s.x c) (driverResidual Y Z L u s.x c) (s.dx.getD 0) →
      (∃ s', Newton.solve (driverProblem Y Z L u) rank0 .function s = (s', .ok (1, true)) ∧ ∀ d < Z.numDofs, s'.x d = us d)
      ∨ ∃ s', Newton.solve (driverProblem Y Z L u) rank0 .function s = (s', .ok (0, true)) ∧ s'.x = s.x
        ∧ s.initialResidual ≠ 0 ∧ norm2 Z.numDofs (driverResidual Y Z L u s.x c) < s.opts.atol) := by
  obtain ⟨t, ht⟩ : ∃ t, t = (Tracked.new g).history ops := ⟨_, rfl⟩
  obtain ⟨N, hNe⟩ : ∃ N, N = Z.numDofs := ⟨_, rfl⟩
  have hF : (range N).filter (fun d => L.bc d = none) = freeDofs L N := rfl
  rw [← ht, ← hNe, hF] at hK
  rw [← ht, ← hNe] at hus hbc
  rw [← hNe] at hL hN
  obtain ⟨hub, huf⟩ := balanced_eq hL hus
  obtain ⟨x0, hx0⟩ := extend_of (F := range N) us us (fun _ _ => rfl)
  obtain ⟨ε, hε, hball⟩ := OneSidedDriver.ball_of_eventually hx0 (P := fun w => NearStatus Y t gamma w us) (by
    have := nearStatus_eventually (Y := Y) (extend_lip (F := range N) us) t gamma x0
    rwa [hx0] at this)
  refine ⟨ε, hε, fun rank0 s hs hrelax hcrit hmax hatol hrtol hclose hdiff c hcc => ?_⟩
  rw [← hNe] at hclose hdiff
  obtain ⟨x, hx⟩ : ∃ x, x = s.x := ⟨_, rfl⟩
  obtain ⟨y, hy⟩ : ∃ y : ℕ → ℝ, y = fun d => if d < N then x d else us d := ⟨_, rfl⟩
  have hyx : ∀ d < N, y d = x d := fun d hd => by rw [hy]; exact if_pos hd
  have hnear : NearStatus Y t gamma y us := hball y (fun d hd => by rw [hy]; exact if_neg (not_lt.mpr hd))
    (fun d hd => by rw [hyx d hd, hx]; exact hclose d hd)
  have hR : Reached Y ops g s.coeffs := ⟨[], by rw [hs]; simp [updates]⟩
  have hc1 : driverCoefficients Y x s.coeffs = c := by
    rw [hcc, history_snoc, hs, hx]
    rfl
  have hRc : Reached Y ops g c := by rw [← hc1]; exact reached_coefficients x _ hR
  have hpair := fun w v => driver_pairing (g := g) hY hops hlaw hconsts hc hN hR x w v
  rw [hc1, ← ht] at hpair
  have hrow := fun (w : ℕ → ℝ) {d : ℕ} (hd : d < N) =>
    driver_row (g := g) hY hops hlaw (fun h => absurd rfl h) hconsts hc hN hR x w hd
  rw [hc1, ← ht] at hrow
  have hent := fun {d : ℕ} (hd : d < N) => driver_entry (g := g) hY hops hlaw (fun h => absurd rfl h) hconsts hc hN hR x hd
  rw [hc1, ← ht] at hent
  obtain ⟨A, hA⟩ : ∃ A, A = contactMatrix Y c := ⟨_, rfl⟩
  rw [← hA] at hpair hrow
  -- the form at the solution
  have hform : ∀ d < N, contactForm Y t .frictionless gamma theta us (unit d)
      = contactVector Y c d + ∑ k ∈ range N, A (d, k) * (us k - x k) := by
    intro d hd
    have e : (fun d => y d + (us d - y d)) = us := by funext d; ring
    have h1 := contactForm_affine_near (Y := Y) t gamma theta y (fun d => us d - y d) (unit d) (by rw [e]; exact hnear)
    rw [e, form_below hY hN hyx, tangent_below hY hN hyx, ← hrow _ hd, ← hent hd] at h1
    rw [h1]
    congr 1
    exact sum_congr rfl (fun k hk => by rw [hyx k (mem_range.mp hk)])
  have hAb : ∀ d < N, L.bc d ≠ none → ∀ k < N, A (d, k) = 0 := by
    intro d hd hb k hk
    have := hrow (unit k) hd
    rw [contactTangent_away (hbc d hd hb)] at this
    simpa [unit, hk] using this
  have hbcrow : ∀ (dx : ℕ → ℝ), ∀ d < N, L.bc d ≠ none → ∑ k ∈ range N, driverJacobian Y L u x c (d, k) * dx k = dx d := by
    intro dx d hd hb
    rw [sum_eq_single_of_mem d (mem_range.mpr hd) (fun k hk hkd => ?_)]
    · unfold driverJacobian
      simp [hb]
    · have := hAb d hd hb k (mem_range.mp hk)
      rw [hA] at this
      unfold driverJacobian
      simp only [hb, false_and, if_false, Ne.symm hkd, this, zero_mul]
  have hfree : ∀ dx w : ℕ → ℝ, (∀ d < N, ∀ g', L.bc d = some g' → dx d = x d - us d) →
      (∀ d < N, w d = dx d - (x d - us d)) → ∀ d ∈ freeDofs L N,
      ∑ k ∈ range N, driverJacobian Y L u x c (d, k) * dx k - driverResidual Y Z L u x c d
        = ∑ k ∈ range N, (K d k + A (d, k)) * w k := by
    intro dx w hpre hwd d hd
    obtain ⟨hdN, hb⟩ := free_iff.mp hd
    rw [driverResidual_free Y hb, hL.1 _ d hdN, ← hNe]
    have h2 := huf d hdN hb
    rw [hform d hdN] at h2
    have e1 : ∑ k ∈ range N, driverJacobian Y L u x c (d, k) * dx k
        - ∑ k ∈ range N, (L.bc k).elim 0 (fun g => L.stiff (fun c => u c + x c) d k * (g - x k))
        = ∑ k ∈ range N, (K d k + A (d, k)) * dx k := by
      rw [← sum_sub_distrib]
      refine sum_congr rfl (fun k hk => ?_)
      have hkN := mem_range.mp hk
      unfold driverJacobian
      rw [← hA]
      cases hk' : L.bc k with
      | none =>
        simp only [hb, hk', ne_eq, not_true_eq_false, and_false, and_self, if_true, if_false, Option.elim_none,
          hL.2 _ d hdN k hkN]
        ring
      | some g' =>
        simp only [hb, hk', ne_eq, not_true_eq_false, and_false, reduceCtorEq, if_false, Option.elim_some,
          hL.2 _ d hdN k hkN, hpre k hkN g' hk', hub k hkN g' hk']
        ring
    have e2 : ∑ k ∈ range N, (K d k + A (d, k)) * w k = ∑ k ∈ range N, (K d k + A (d, k)) * dx k
        + ∑ k ∈ range N, K d k * (u k + us k) - ∑ k ∈ range N, K d k * (u k + x k) + ∑ k ∈ range N, A (d, k) * (us k - x k) := by
      rw [← sum_add_distrib, ← sum_sub_distrib, ← sum_add_distrib]
      exact sum_congr rfl (fun k hk => by rw [hwd k (mem_range.mp hk)]; ring)
    rw [e2]
    linarith
  have hiff : ∀ dx : ℕ → ℝ, (∀ d < N, ∑ k ∈ range N, driverJacobian Y L u x c (d, k) * dx k = driverResidual Y Z L u x c d)
      ↔ ∀ d < N, dx d = x d - us d := by
    intro dx
    constructor
    · intro hdx
      have hpre : ∀ d < N, ∀ g', L.bc d = some g' → dx d = x d - us d := by
        intro d hd g' hg
        have h1 := hdx d hd
        rw [driverResidual_bc Y hg, hbcrow dx d hd (by rw [hg]; simp)] at h1
        rw [h1, hub d hd g' hg]
      obtain ⟨w, hw⟩ : ∃ w : ℕ → ℝ, w = fun d => if d < N then dx d - (x d - us d) else 0 := ⟨_, rfl⟩
      have hwd : ∀ d < N, w d = dx d - (x d - us d) := fun d hd => by rw [hw]; exact if_pos hd
      have hw0 : ∀ d, d ∉ freeDofs L N → w d = 0 := by
        intro d hd
        by_cases hdN : d < N
        · cases hb : L.bc d with
          | none => exact absurd (free_iff.mpr ⟨hdN, hb⟩) hd
          | some g' => rw [hwd d hdN, hpre d hdN g' hb, sub_self]
        · rw [hw]; exact if_neg hdN
      have hzero : ∀ d ∈ freeDofs L N, ∑ k ∈ range N, (K d k + A (d, k)) * w k = 0 := by
        intro d hd
        rw [← hfree dx w hpre hwd d hd, hdx d (free_iff.mp hd).1, sub_self]
      have hw00 : ∀ d, w d = 0 := by
        by_contra hne
        push Not at hne
        have h1 := hK w hw0 hne
        have hB : Bounded Y t .frictionless := ⟨hY.loc, (fun h => nomatch h), by rw [ht]; exact hh, hwt⟩
        have h2 := contactTangent_lower hB (law := .frictionless) (by simp) hγ theta x w
        rw [← hpair] at h2
        have h3 : ∑ d ∈ range N, ∑ k ∈ range N, w d * K d k * w k + ∑ d ∈ range N, ∑ k ∈ range N, w d * A (d, k) * w k = 0 := by
          rw [← sum_add_distrib]
          refine sum_eq_zero (fun d _ => ?_)
          rw [← sum_add_distrib]
          by_cases hd : d ∈ freeDofs L N
          · have : ∑ k ∈ range N, (w d * K d k * w k + w d * A (d, k) * w k) = w d * ∑ k ∈ range N, (K d k + A (d, k)) * w k := by
              rw [mul_sum]
              exact sum_congr rfl (fun k _ => by ring)
            rw [this, hzero d hd, mul_zero]
          · exact sum_eq_zero (fun k _ => by rw [hw0 d hd]; ring)
        linarith
      intro d hd
      have := hw00 d
      rw [hwd d hd] at this
      linarith
    · intro hdx d hd
      cases hb : L.bc d with
      | some g' => rw [driverResidual_bc Y hb, hbcrow dx d hd (by rw [hb]; simp), hdx d hd, hub d hd g' hb]
      | none =>
        have := hfree dx (fun _ => 0) (fun d hd _ _ => hdx d hd) (fun d hd => by rw [hdx d hd, sub_self]) d (free_iff.mpr ⟨hd, hb⟩)
        simp only [mul_zero, sum_const_zero] at this
        linarith
  refine ⟨by rw [← hNe, ← hx]; exact hiff, fun hsol => ?_⟩
  obtain ⟨dx, its, reason, hlin⟩ : ∃ dx its reason,
      Z.linSolve (driverJacobian Y L u s.x c) (driverResidual Y Z L u s.x c) (s.dx.getD 0) = (dx, its, reason) := ⟨_, _, _, rfl⟩
  unfold SolvesExactly at hsol
  rw [hlin, ← hx, ← hNe] at hsol
  obtain ⟨hreason, hdx⟩ := hsol
  dsimp only at hreason hdx
  have hdxe := (hiff dx).mp hdx
  obtain ⟨x1, hx1⟩ : ∃ x1 : ℕ → ℝ, x1 = s.x + (-1 : ℝ) • dx := ⟨_, rfl⟩
  have hx1d : ∀ d < N, x1 d = us d := by
    intro d hd
    rw [hx1, ← hx]
    show x d + -1 * dx d = us d
    rw [hdxe d hd]
    ring
  have hres : ∀ d < N, driverResidual Y Z L u x1 (driverCoefficients Y x1 c) d = 0 := by
    intro d hd
    cases hb : L.bc d with
    | some g' => rw [driverResidual_bc Y hb, hx1d d hd, hub d hd g' hb, sub_self]
    | none =>
      rw [driverResidual_free Y hb, hL.1 _ d hd, ← hNe,
        driver_entry (g := g) hY hops hlaw (fun h => absurd rfl h) hconsts hc hN hRc x1 hd, ← ht, form_below hY hN hx1d]
      have h2 := huf d hd hb
      have e1 : ∑ k ∈ range N, (L.bc k).elim 0 (fun g => L.stiff (fun c => u c + x1 c) d k * (g - x1 k)) = 0 := by
        refine sum_eq_zero (fun k hk => ?_)
        cases hk' : L.bc k with
        | none => rfl
        | some g' => rw [Option.elim_some, hx1d k (mem_range.mp hk), hub k (mem_range.mp hk) g' hk', sub_self, mul_zero]
      have e2 : ∑ k ∈ range N, K d k * (u k + x1 k) = ∑ k ∈ range N, K d k * (u k + us k) :=
        sum_congr rfl (fun k hk => by rw [hx1d k (mem_range.mp hk)])
      rw [e1, e2]
      linarith
  have hnorm : norm2 Z.numDofs dx ≠ 0 := by
    intro h0
    unfold norm2 at h0
    rw [Real.sqrt_eq_zero (sum_nonneg (fun _ _ => sq_nonneg _)), sum_eq_zero_iff_of_nonneg (fun _ _ => sq_nonneg _)] at h0
    obtain ⟨d, hd, hne⟩ := hdiff
    have := h0 d (mem_range.mpr (hNe ▸ hd))
    rw [sq_eq_zero_iff, hdxe d hd, hx] at this
    exact hne (by linarith)
  rcases Newton.solve_near_step (driverProblem Y Z L u) rank0 s (fun _ => rfl) (fun _ => rfl) hrelax hcrit hmax hatol hrtol c
      (by rw [← hx]; exact hc1.symm) dx its reason hlin hreason x1 hx1 (by
        show norm2 Z.numDofs (driverResidual Y Z L u x1 (driverCoefficients Y x1 c)) = 0
        rw [← hNe, norm2, sum_eq_zero (fun d hd => by rw [hres d (mem_range.mp hd)]; norm_num), Real.sqrt_zero])
      (Real.sqrt_nonneg _) hnorm with ⟨s', h1, h2⟩ | ⟨s', h1, h2, h3, h4⟩
  · left
    refine ⟨s', h1, fun d hd => ?_⟩
    rw [h2]
    exact hx1d d (hNe ▸ hd)
  · exact Or.inr ⟨s', h1, h2, h3, h4⟩

/-! ### an example -/

/-- A linear solver which finds a solution if there is one. -/
def exFree : Setting Unit :=
  ⟨6, fun A b _ => (open Classical in if h : ∃ dx : ℕ → ℝ, ∀ d < 6, ∑ k ∈ range 6, A (d, k) * dx k = b d then h.choose else 0, 1, 1),
    fun _ => ()⟩

theorem exFree_solves {A : ℕ × ℕ → ℝ} {b x0 : ℕ → ℝ} (h : ∃ dx : ℕ → ℝ, ∀ d < 6, ∑ k ∈ range 6, A (d, k) * dx k = b d) :
    SolvesExactly exFree A b x0 := by
  refine ⟨by simp [exFree], ?_⟩
  have e : (exFree.linSolve A b x0).1 = h.choose := by
    unfold exFree
    dsimp only
    rw [dif_pos h]
  rw [e]
  exact h.choose_spec

/-- The increment in the example: the point is just at the switch. -/
def exSwitch (d : ℕ) : ℝ := if d = 1 then -(5 / 3) else if d = 4 then 1 else 0

/-- Springs at all dofs, dof 4 prescribed, and the loads for which `exSwitch` is the solution. -/
def exFreeLoad : LoadCase where
  bulk := fun u d => ∑ c ∈ range 6, (if d = c then 100 else 0) * u c - (100 * exSwitch d
    + contactVector exY (driverCoefficients exY exSwitch (history exY.static (exOpsFree 1) (init exY.static ()))) d)
  stiff := fun _ d c => if d = c then 100 else 0
  bc := fun d => if d = 4 then some 1 else none

theorem exOpsFree_shaped : ∀ op ∈ exOpsFree 1, OpShaped exY.static op := by
  simp [exOpsFree, OpShaped, ScalarShaped, System.static, exY]

theorem exFree_away : AwayFromContact exY ((Tracked.new ()).history (exOpsFree 1)) 4 := by
  intro i hi e he cell f hf
  have hf' : some ((0 : ℕ), (2 : ℕ)) = some (cell, f) := by
    have : e < 1 := he
    obtain rfl : e = 0 := by omega
    exact hf
  obtain ⟨rfl, rfl⟩ := Prod.mk.inj (Option.some.inj hf')
  refine ⟨fun k _ a ha => ?_, fun q _ _ k _ a ha => ?_⟩
  · have : a < 2 := ha
    show 2 * 0 + a ≠ 4
    omega
  · have : a < 2 := ha
    show 2 * 1 + a ≠ 4
    omega

theorem exFree_coercive : Coercive exY ((Tracked.new ()).history (exOpsFree 1)) .frictionless 10 1 6
    ((range 6).filter (fun d => exFreeLoad.bc d = none)) (fun d c => if d = c then 100 else 0) := by
  rintro v hv ⟨d, hd⟩
  have h4 : v 4 = 0 := hv 4 (by simp [exFreeLoad])
  have hpos : 0 < v 0 ^ 2 + v 1 ^ 2 + v 2 ^ 2 + v 3 ^ 2 + v 5 ^ 2 := by
    have hmem : d < 6 ∧ d ≠ 4 := by
      by_contra h
      refine hd (hv d (fun h1 => ?_))
      obtain ⟨h1, h2⟩ := mem_filter.mp h1
      refine h ⟨mem_range.mp h1, ?_⟩
      rintro rfl
      simp [exFreeLoad] at h2
    obtain ⟨h6, hd4⟩ := hmem
    have : d = 0 ∨ d = 1 ∨ d = 2 ∨ d = 3 ∨ d = 5 := by omega
    rcases this with rfl | rfl | rfl | rfl | rfl <;> positivity
  have e : tractionSquare exY ((Tracked.new ()).history (exOpsFree 1)) .frictionless v = (5 * v 0 + 22 * v 1) ^ 2 := by
    simp [tractionSquare, ContactPoint.tractionSquare, ContactPoint.dot, ContactPoint.trac, pointAt,
      contactNormalAt, outwardAt, gradAt, weightAt, exY, exOpsFree, Tracked.history, Tracked.call, vals, sum_range_succ,
      Elasticity.traction_eq]
    ring
  rw [e]
  simp [sum_range_succ, h4]
  norm_num
  nlinarith [sq_nonneg (v 0), sq_nonneg (v 1), sq_nonneg (v 2), sq_nonneg (v 3), sq_nonneg (v 5), sq_nonneg (5 * v 0 - 22 * v 1)]

theorem exFree_balanced : ∀ tol > 0,
    Balanced exY ((Tracked.new ()).history (exOpsFree 1)) .frictionless 10 1 exFreeLoad 6 (fun _ => 0) exSwitch tol := by
  intro tol htol
  have hv := (driver_vector exY_valid exOpsFree_shaped (g := ()) (N := 6) (gamma := 10) (theta := 1) (law := .frictionless) rfl
    (fun h => absurd rfl h) rfl rfl exY_below6 ⟨[], by simp [updates]; rfl⟩ exSwitch).2.2
  refine ⟨fun d _ g hg => ?_, fun v _ => ?_⟩
  · simp only [exFreeLoad] at hg
    split at hg
    · rename_i h
      subst h
      obtain rfl := Option.some.inj hg
      simpa [exSwitch] using htol
    · cases hg
  · rw [← hv v, ← sum_add_distrib, sum_eq_zero (fun d hd => ?_), abs_zero]
    · exact mul_nonneg htol.le (Real.sqrt_nonneg _)
    · have e1 : ∑ c ∈ range 6, (exFreeLoad.bc c).elim 0
          (fun g => exFreeLoad.stiff (fun c => 0 + exSwitch c) d c * (g - exSwitch c)) = 0 := by
        refine sum_eq_zero (fun c _ => ?_)
        by_cases hc : c = 4
        · subst hc
          simp [exFreeLoad, exSwitch]
        · simp [exFreeLoad, hc]
      have e2 : exFreeLoad.bulk (fun c => 0 + exSwitch c) d
          = -contactVector exY (driverCoefficients exY exSwitch (history exY.static (exOpsFree 1) (init exY.static ()))) d := by
        have : ∑ c ∈ range 6, (if d = c then 100 else 0) * (0 + exSwitch c) = 100 * exSwitch d := by
          simp [mem_range.mp hd]
        show ∑ c ∈ range 6, (if d = c then 100 else 0) * (0 + exSwitch c) - _ = _
        rw [this]
        ring
      rw [e1, e2]
      ring

/-- With these data, for which the quadrature point of the contact surface is at the switch, a new solver converges in one
iteration from every initial guess near the solution. -/
example : pressureAt exY ((Tracked.new ()).history (exOpsFree 1)) 10 0 0 0 2 0 exSwitch = 0
    ∧ ∃ ε > 0, ∀ s : Newton.St (ℕ → ℝ) (ℕ → ℝ) (State Unit),
      s.coeffs = history exY.static (exOpsFree 1) (init exY.static ()) → s.relax ≠ none → s.opts = exOpts → s.initialResidual = 0 →
      (∀ d < 6, |s.x d - exSwitch d| < ε) → (∃ d < 6, s.x d ≠ exSwitch d) →
      ∃ s', Newton.solve (driverProblem exY exFree exFreeLoad (fun _ => 0)) true .function s = (s', .ok (1, true))
        ∧ ∀ d < 6, s'.x d = exSwitch d := by
  refine ⟨?_, ?_⟩
  · simp [pressureAt, ContactPoint.pressure, ContactPoint.dot, ContactPoint.trac, pointAt, jumpAt, valueAt, oppositeAt,
      contactNormalAt, outwardAt, gradAt, exY, exOpsFree, exSwitch, Tracked.history, Tracked.call, vals,
      Elasticity.traction_eq, sum_range_succ]
    norm_num
  · obtain ⟨ε, hε, h⟩ := C189_local exY_valid (exOpsFree 1) exOpsFree_shaped () rfl 10 1 (by norm_num) rfl rfl
      (by intro i hi e he; simp [exOpsFree, Tracked.history, Tracked.call, vals])
      (by intro i _ p _ q _; simp [weightAt, exY]) exFree exY_below6 exFreeLoad (fun _ => 0)
      (fun d c => if d = c then 100 else 0) _ ⟨fun _ _ _ => rfl, fun _ _ _ _ _ => rfl⟩
      (fun d _ hb => by
        by_cases h4 : d = 4
        · subst h4; exact exFree_away
        · exact absurd (if_neg h4) hb) exFree_coercive exSwitch exFree_balanced
    refine ⟨ε, hε, fun s h1 h2 h3 h4 h5 h6 => ?_⟩
    obtain ⟨k1, k2⟩ := h true s h1 h2 (by rw [h3]; rfl) (by rw [h3]; norm_num [exOpts]) (by rw [h3]; norm_num [exOpts])
      (by rw [h3]; norm_num [exOpts]) h5 h6 _ rfl
    rcases k2 (exFree_solves ⟨fun d => s.x d - exSwitch d, (k1 (fun d => s.x d - exSwitch d)).mpr (fun _ _ => rfl)⟩) with k | ⟨s', k3, k4, k5, k6⟩
    · exact k
    · exact absurd h4 k5

end

end Verif.ContactProblem
