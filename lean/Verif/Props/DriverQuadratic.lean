import Verif.Lemmas.DriverQuadratic
import Verif.Props.Quadratic
import Verif.Spec.DriverQuadratic

/-!
Property C206: the Newton solver of the load steps converges quadratically from near the solution, also with friction.
-/

namespace Verif.ContactProblem

open Verif.Spec Verif.Packing Verif.Assembly Verif.Kernels Verif.Lemmas Finset

noncomputable section

variable {G : Type} {Y : System G}

theorem norm2_lt_of {N : ℕ} {z : ℕ → ℝ} {ε : ℝ} (hε : 0 < ε) (h : ∀ d < N, |z d| < ε / (N + 1)) : norm2 N z < ε := by
  have h1 := norm2_le_of (N := N) (z := z) (b := fun _ => 1) (r := ε / (N + 1)) (by positivity)
    (fun d hd => by rw [one_mul]; exact (h d hd).le)
  refine h1.trans_lt ?_
  simp only [abs_one, sum_const, card_range, nsmul_eq_mul, mul_one]
  rw [mul_div_assoc', div_lt_iff₀ (by positivity)]
  nlinarith

theorem converges_of_near {ops : List (Op G)} {g : G} {Z : Setting G} {L : LoadCase} {u us : ℕ → ℝ} {δ a Lc Cq : ℝ}
    (hδ : 0 < δ) (ha : 0 < a) (hL : 0 ≤ Lc) (hC : 0 ≤ Cq)
    (H : Newton.Near (driverProblem Y Z L u) (Reached Y ops g) (fun x => norm2 Z.numDofs (fun d => x d - us d)) δ a Lc Cq) :
    SolverConvergesNear Y ops g Z L u us := by
  obtain ⟨ε, hε, Q, hQ, B, hB, h⟩ := Newton.solve_near H hδ ha hL hC
  refine ⟨ε / (Z.numDofs + 1), by positivity, Q, hQ, B, hB, ?_⟩
  intro rank0 s hs hrelax hcrit hclose hdiff n hn hmax hrt hat
  have hR : Reached Y ops g s.coeffs := ⟨[], by rw [hs]; simp [updates]⟩
  have hpos : 0 < norm2 Z.numDofs (fun d => s.x d - us d) := by
    obtain ⟨d, hd, hne⟩ := hdiff
    exact (abs_pos.mpr (sub_ne_zero.mpr hne)).trans_le (abs_le_norm2 (fun d => s.x d - us d) hd)
  obtain ⟨s', k, h1, h2, h3, h4, h5⟩ := h rank0 s hR hrelax hcrit (norm2_lt_of hε hclose) hpos n hn hmax hrt hat
  refine ⟨s', k, h1, h2, h3, h4, fun d hd => le_trans ?_ h5⟩
  exact mul_le_mul_of_nonneg_left (abs_le_norm2 (fun d => s'.x d - us d) hd) hB.le

/-- C206: without friction or with Tresca friction, the Newton solver of a load step converges quadratically from near the
solution. The bulk is linearly elastic with a stiffness matrix as in C143, the prescribed dofs are not at the contact
surface (their initial values need not be the prescribed ones), `us` satisfies the equations of the load step, and the
linear solver is exact. Points may be at the switches between open and closed, and between stick and slip. -/
theorem C206_tresca (hY : System.Valid Y) (ops : List (Op G)) (hops : ∀ op ∈ ops, OpShaped Y.static op)
    (g : G) (law : Law) (hlaw : lastLaw ops none = some law) (hl : law ≠ .coulomb)
    (gamma theta : ℝ) (hγ : 0 < gamma) (hconsts : lastConsts ops none = some (gamma, theta))
    (hc : ((Tracked.new g).history ops).created = true)
    (hf : law = .tresca → ∀ i < Y.numPairs, ∀ e < Y.localFacets i, 0 ≤ ((Tracked.new g).history ops).fric i e 0)
    (hh : ∀ i < Y.numPairs, ∀ e < Y.localFacets i, 0 < ((Tracked.new g).history ops).h i e 0)
    (hwt : ∀ i < Y.numPairs, ∀ p ∈ Y.facets i, ∀ q < Y.nq, 0 ≤ weightAt Y p.1 p.2 q)
    (hT : law = .tresca → (Y.gdim = 2 ∨ Y.gdim = 3) ∧ UnitNormals Y ((Tracked.new g).history ops))
    (Z : Setting G) (hN : DofsBelow Y Z.numDofs) (hlin : SolvesSolvable Z) (L : LoadCase) (u : ℕ → ℝ)
    (K : ℕ → ℕ → ℝ) (l : ℕ → ℝ) (hL : LinearBulk L Z.numDofs K l)
    (hbc : ∀ d < Z.numDofs, L.bc d ≠ none → AwayFromContact Y ((Tracked.new g).history ops) d)
    (hK : Coercive Y ((Tracked.new g).history ops) law gamma theta Z.numDofs
      ((range Z.numDofs).filter (fun d => L.bc d = none)) K)
    (us : ℕ → ℝ) (hus : ∀ tol > 0, Balanced Y ((Tracked.new g).history ops) law gamma theta L Z.numDofs u us tol)
    (hreg : RegularContact Y ((Tracked.new g).history ops) law gamma us) :
    SolverConvergesNear Y ops g Z L u us := by
  obtain ⟨m, hm, hmb⟩ := coercive_bound hK
  have hB : Bounded Y ((Tracked.new g).history ops) .frictionless := ⟨hY.loc, (fun h => nomatch h), hh, hwt⟩
  have hB' : Bounded Y ((Tracked.new g).history ops) law := ⟨hY.loc, hf, hh, hwt⟩
  obtain ⟨δ, a, Lc, Cq, h1, h2, h3, h4, H⟩ := driver_near (g := g) hY hops hlaw (friction_dim hl hT) hconsts hc hN hL hbc hm
    (fun u x => by
      have h5 := contactTangent_lower hB hl hγ theta u (extend 0 x)
      have := hmb x
      show _ ≤ _
      linarith!)
    (fun us v => contactForm_lip hB' hl hγ theta (extend_lip us) v) hus hreg hlin
  exact converges_of_near h1 h2 h3 h4 H

/-- C206: so does the solver with small Coulomb friction (the condition of C204), if no point of the solution is at
the switch from stick to slip. -/
theorem C206_coulomb (hY : System.Valid Y) (ops : List (Op G)) (hops : ∀ op ∈ ops, OpShaped Y.static op)
    (g : G) (hlaw : lastLaw ops none = some .coulomb) (h23 : Y.gdim = 2 ∨ Y.gdim = 3)
    (gamma theta : ℝ) (hγ : 0 < gamma) (hconsts : lastConsts ops none = some (gamma, theta))
    (hc : ((Tracked.new g).history ops).created = true)
    (hf : ∀ i < Y.numPairs, ∀ e < Y.localFacets i, 0 ≤ ((Tracked.new g).history ops).fric i e 0)
    (hh : ∀ i < Y.numPairs, ∀ e < Y.localFacets i, 0 < ((Tracked.new g).history ops).h i e 0)
    (hwt : ∀ i < Y.numPairs, ∀ p ∈ Y.facets i, ∀ q < Y.nq, 0 ≤ weightAt Y p.1 p.2 q)
    (hU : UnitNormals Y ((Tracked.new g).history ops))
    (Z : Setting G) (hN : DofsBelow Y Z.numDofs) (hlin : SolvesSolvable Z) (L : LoadCase) (u : ℕ → ℝ)
    (K : ℕ → ℕ → ℝ) (l : ℕ → ℝ) (hL : LinearBulk L Z.numDofs K l)
    (hbc : ∀ d < Z.numDofs, L.bc d ≠ none → AwayFromContact Y ((Tracked.new g).history ops) d)
    (hK : CoulombCoercive Y ((Tracked.new g).history ops) gamma theta Z.numDofs
      ((range Z.numDofs).filter (fun d => L.bc d = none)) K)
    (us : ℕ → ℝ) (hus : ∀ tol > 0, Balanced Y ((Tracked.new g).history ops) .coulomb gamma theta L Z.numDofs u us tol)
    (hreg : RegularContact Y ((Tracked.new g).history ops) .coulomb gamma us) :
    SolverConvergesNear Y ops g Z L u us := by
  obtain ⟨m, hm, hmb⟩ := coulomb_bound hK
  have hB : CoulombBounded Y ((Tracked.new g).history ops) := ⟨hY.loc, hf, hh, hwt⟩
  obtain ⟨δ, a, Lc, Cq, h1, h2, h3, h4, H⟩ := driver_near (g := g) hY hops hlaw (fun _ => ⟨h23, hU⟩) hconsts hc hN hL hbc hm
    (fun u x => by
      have h5 := coulombTangent_lower hB hγ theta u (extend 0 x)
      have := hmb x
      show _ ≤ _
      linarith!)
    (fun us v => coulombForm_lip hB gamma theta (extend_lip us) v) hus hreg hlin
  exact converges_of_near h1 h2 h3 h4 H

/-! ### examples -/

/-- For all tolerances there is a number of iterations as in `SolverConvergesNear`. -/
theorem iterations_exist {Q tol : ℝ} (hQ : 0 < Q) (ht : 0 < tol) : ∃ n, 0 < n ∧ Q * (1 / 2) ^ 2 ^ n < tol := by
  obtain ⟨n, hn⟩ := exists_pow_lt_of_lt_one (div_pos ht hQ) (by norm_num : (1 / 2 : ℝ) < 1)
  refine ⟨n + 1, by omega, ?_⟩
  have h1 : (1 / 2 : ℝ) ^ 2 ^ (n + 1) ≤ (1 / 2) ^ n :=
    pow_le_pow_of_le_one (by norm_num) (by norm_num) (by have := (n + 1).lt_two_pow_self; omega)
  rw [lt_div_iff₀ hQ] at hn
  nlinarith

/-- Springs at all dofs, dof 4 prescribed, and the loads for which `us` is the solution. -/
def exPull (ops : List (Op Unit)) (us : ℕ → ℝ) : LoadCase where
  bulk := fun u d => ∑ c ∈ range 6, (if d = c then 1000 else 0) * u c - (1000 * us d
    + contactVector exY (driverCoefficients exY us (history exY.static ops (init exY.static ()))) d)
  stiff := fun _ d c => if d = c then 1000 else 0
  bc := fun d => if d = 4 then some 1 else none

theorem exPull_balanced {ops : List (Op Unit)} (hops : ∀ op ∈ ops, OpShaped exY.static op) {law : Law}
    (hlaw : lastLaw ops none = some law) {gamma theta : ℝ} (hconsts : lastConsts ops none = some (gamma, theta))
    (hc : ((Tracked.new ()).history ops).created = true) {us : ℕ → ℝ} (h4 : us 4 = 1) : ∀ tol > 0,
    Balanced exY ((Tracked.new ()).history ops) law gamma theta (exPull ops us) 6 (fun _ => 0) us tol := by
  intro tol htol
  have hv := (driver_vector exY_valid hops (g := ()) (N := 6) hlaw (fun _ => Or.inl rfl) hconsts hc exY_below6
    ⟨[], by simp [updates]; rfl⟩ us).2.2
  refine ⟨fun d _ g hg => ?_, fun v _ => ?_⟩
  · simp only [exPull] at hg
    split at hg
    · rename_i h
      subst h
      obtain rfl := Option.some.inj hg
      simpa [h4] using htol
    · cases hg
  · rw [← hv v, ← sum_add_distrib, sum_eq_zero (fun d hd => ?_), abs_zero]
    · exact mul_nonneg htol.le (Real.sqrt_nonneg _)
    · have e1 : ∑ c ∈ range 6, ((exPull ops us).bc c).elim 0
          (fun g => (exPull ops us).stiff (fun c => 0 + us c) d c * (g - us c)) = 0 := by
        refine sum_eq_zero (fun c _ => ?_)
        by_cases hc : c = 4
        · subst hc
          simp [exPull, h4]
        · simp [exPull, hc]
      have e2 : (exPull ops us).bulk (fun c => 0 + us c) d
          = -contactVector exY (driverCoefficients exY us (history exY.static ops (init exY.static ()))) d := by
        have : ∑ c ∈ range 6, (if d = c then 1000 else 0) * (0 + us c) = 1000 * us d := by
          simp [mem_range.mp hd]
        show ∑ c ∈ range 6, (if d = c then 1000 else 0) * (0 + us c) - _ = _
        rw [this]
        ring
      rw [e1, e2]
      ring

theorem exPull_pos {ops : List (Op Unit)} {us v : ℕ → ℝ}
    (hv : ∀ d, d ∉ (range 6).filter (fun d => (exPull ops us).bc d = none) → v d = 0) (hd : ∃ d, v d ≠ 0) :
    v 4 = 0 ∧ 0 < v 0 ^ 2 + v 1 ^ 2 + v 2 ^ 2 + v 3 ^ 2 + v 5 ^ 2 := by
  obtain ⟨d, hd⟩ := hd
  refine ⟨hv 4 (by simp [exPull]), ?_⟩
  have hmem : d < 6 ∧ d ≠ 4 := by
    by_contra h
    refine hd (hv d (fun h1 => ?_))
    obtain ⟨h1, h2⟩ := mem_filter.mp h1
    refine h ⟨mem_range.mp h1, ?_⟩
    rintro rfl
    simp [exPull] at h2
  obtain ⟨h6, hd4⟩ := hmem
  have : d = 0 ∨ d = 1 ∨ d = 2 ∨ d = 3 ∨ d = 5 := by omega
  rcases this with rfl | rfl | rfl | rfl | rfl <;> positivity

theorem exPull_away (ops : List (Op Unit)) (us : ℕ → ℝ) :
    ∀ d < 6, (exPull ops us).bc d ≠ none → AwayFromContact exY ((Tracked.new ()).history ops) d := by
  intro d _ hb
  have h4 : d = 4 := by
    by_contra h
    exact hb (if_neg h)
  subst h4
  intro i hi e he cell f hf
  have hf' : some ((0 : ℕ), (2 : ℕ)) = some (cell, f) := by
    have : e < 1 := he
    obtain rfl : e = 0 := by omega
    exact hf
  obtain ⟨rfl, rfl⟩ := Prod.mk.inj (Option.some.inj hf')
  refine ⟨fun k _ a ha => ?_, fun q _ _ k _ a ha => ?_⟩
  · have : a < 2 := ha
    show 2 * 0 + a ≠ 4
    omega
  · have : a < 2 := ha
    show 2 * 1 + a ≠ 4
    omega

theorem exFree_direct : SolvesSolvable exFree := fun _ _ _ h => exFree_solves h

/-- The displacement of the example with Tresca friction: the point is at the switch from stick to slip (see C205). -/
def exSlipQ (d : ℕ) : ℝ := if d = 2 then 1 / 10 else if d = 4 then 1 else 0

/-- With Tresca friction. -/
example : SolverConvergesNear exY (exSysOpsT (-1)) () exFree (exPull (exSysOpsT (-1)) exSlipQ) (fun _ => 0) exSlipQ := by
  have hsh : ∀ op ∈ exSysOpsT (-1), OpShaped exY.static op := by
    simp [exSysOpsT, OpShaped, ScalarShaped, System.static, exY]
  refine C206_tresca exY_valid _ hsh () .tresca rfl (by simp) 10 (-1) (by norm_num) rfl rfl
    (by intro _ i hi e he; simp [exSysOpsT, Tracked.history, Tracked.call, vals])
    (by intro i hi e he; simp [exSysOpsT, Tracked.history, Tracked.call, vals])
    (by intro i _ p _ q _; simp [weightAt, exY])
    (fun _ => ⟨Or.inl rfl, ?_⟩) exFree exY_below6 exFree_direct _ _ (fun d c => if d = c then 1000 else 0) _
    ⟨fun _ _ _ => rfl, fun _ _ _ _ _ => rfl⟩ (exPull_away _ _) ?_ _
    (exPull_balanced hsh rfl rfl rfl (by simp [exSlipQ])) ?_
  · intro i hi e he q hq hk
    obtain rfl : q = 0 := Nat.lt_one_iff.mp hq
    simp [contactNormalAt, exY]
  · rintro v hv hd
    obtain ⟨h4, hpos⟩ := exPull_pos hv hd
    show _ < ∑ d ∈ range 6, ∑ c ∈ range 6, v d * _ * v c
    simp [sum_range_succ, h4]
    nlinarith
  · intro i hi e he cell f hf q hq hk
    simp [ContactPoint.Regular, pointAt, exSysOpsT, Tracked.history, Tracked.call, vals]
    norm_num

/-- The displacement of the example with Coulomb friction: the point slips. -/
def exSlidQ (d : ℕ) : ℝ := if d = 2 then 1 else if d = 4 then 1 else 0

/-- With Coulomb friction. -/
example : SolverConvergesNear exY (exCoulombOps (1 / 10) (-1)) () exFree (exPull (exCoulombOps (1 / 10) (-1)) exSlidQ) (fun _ => 0)
    exSlidQ := by
  have hsh : ∀ op ∈ exCoulombOps (1 / 10) (-1), OpShaped exY.static op := by
    simp [exCoulombOps, OpShaped, ScalarShaped, System.static, exY]
  refine C206_coulomb exY_valid _ hsh () rfl (Or.inl rfl) 10 (-1) (by norm_num) rfl rfl
    (by intro i hi e he; simp [exCoulombOps, Tracked.history, Tracked.call, vals])
    (by intro i hi e he; simp [exCoulombOps, Tracked.history, Tracked.call, vals])
    (by intro i _ p _ q _; simp [weightAt, exY])
    ?_ exFree exY_below6 exFree_direct _ _ (fun d c => if d = c then 1000 else 0) _
    ⟨fun _ _ _ => rfl, fun _ _ _ _ _ => rfl⟩ (exPull_away _ _) ?_ _
    (exPull_balanced hsh rfl rfl rfl (by simp [exSlidQ])) ?_
  · intro i hi e he q hq hk
    obtain rfl : q = 0 := Nat.lt_one_iff.mp hq
    simp [contactNormalAt, exY]
  · rintro v hv hd
    obtain ⟨h4, hpos⟩ := exPull_pos hv hd
    have e : frictionCoupling exY ((Tracked.new ()).history (exCoulombOps (1 / 10) (-1))) 10 (-1) v
        = 1 / 2 * (|v 3 + 12 / 10 * v 1 + 5 / 10 * v 0| * |v 0 - v 2 + 3 / 10 * v 1 + 6 / 10 * v 0|) := by
      simp [frictionCoupling, ContactPoint.coupling, vecLength, ContactPoint.dot, ContactPoint.tang, ContactPoint.trac, pointAt,
        contactNormalAt, outwardAt, gradAt, weightAt, exY, exCoulombOps, Tracked.history, Tracked.call, vals,
        sum_range_succ, Elasticity.traction_eq, jumpAt, valueAt, oppositeAt, Real.sqrt_sq_eq_abs]
      rw [show v 3 - v 1 + 10⁻¹ * (3 * ((1 + 1) * v 1 + (1 + 1) * v 1) + 5 * (v 0 + (1 + 1) * v 1))
          = v 3 + 12 / 10 * v 1 + 5 / 10 * v 0 by ring, show v 0 - v 2 + 10⁻¹ * (3 * (v 1 + (1 + 1) * v 0))
          = v 0 - v 2 + 3 / 10 * v 1 + 6 / 10 * v 0 by ring]
      ring
    obtain ⟨A, hA⟩ : ∃ A, A = v 3 + 12 / 10 * v 1 + 5 / 10 * v 0 := ⟨_, rfl⟩
    obtain ⟨B, hB⟩ : ∃ B, B = v 0 - v 2 + 3 / 10 * v 1 + 6 / 10 * v 0 := ⟨_, rfl⟩
    rw [e, ← hA, ← hB]
    show _ < ∑ d ∈ range 6, ∑ c ∈ range 6, v d * _ * v c
    simp [sum_range_succ, h4]
    have h1 : |A| * |B| ≤ A ^ 2 + B ^ 2 := by
      nlinarith [sq_nonneg (|A| - |B|), sq_abs A, sq_abs B, sq_nonneg (|A| + |B|)]
    have h2 : A ^ 2 ≤ 3 * (v 3 ^ 2 + (12 / 10 * v 1) ^ 2 + (5 / 10 * v 0) ^ 2) := by
      rw [hA]
      nlinarith [sq_nonneg (v 3 - 12 / 10 * v 1), sq_nonneg (v 3 - 5 / 10 * v 0), sq_nonneg (12 / 10 * v 1 - 5 / 10 * v 0)]
    have h3 : B ^ 2 ≤ 3 * ((16 / 10 * v 0) ^ 2 + v 2 ^ 2 + (3 / 10 * v 1) ^ 2) := by
      rw [hB]
      nlinarith [sq_nonneg (16 / 10 * v 0 + v 2), sq_nonneg (16 / 10 * v 0 - 3 / 10 * v 1), sq_nonneg (v 2 + 3 / 10 * v 1)]
    nlinarith [sq_nonneg (v 0), sq_nonneg (v 1), sq_nonneg (v 2), sq_nonneg (v 3), sq_nonneg (v 5)]
  · intro i hi e he cell f hf q hq hk
    obtain rfl : q = 0 := Nat.lt_one_iff.mp hq
    obtain rfl : i = 0 := Nat.lt_one_iff.mp hi
    obtain rfl : e = 0 := Nat.lt_one_iff.mp he
    obtain ⟨rfl, rfl⟩ : 0 = cell ∧ 2 = f := by simpa [exY] using hf
    right; right
    norm_num [vecLength, ContactPoint.pressure, ContactPoint.trial, ContactPoint.slip, ContactPoint.dot, ContactPoint.tang,
        ContactPoint.trac, pointAt, contactNormalAt, outwardAt, gradAt, exY, exCoulombOps, Tracked.history, Tracked.call, vals,
        sum_range_succ, Elasticity.traction_eq, jumpAt, valueAt, oppositeAt, exSlidQ]

end

end Verif.ContactProblem
