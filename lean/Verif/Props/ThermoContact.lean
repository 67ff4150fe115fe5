import Verif.Spec.ThermoContact
import Verif.Lemmas.ThermoDemo
import Verif.Props.Driver
import Verif.Props.Moments
import Verif.Props.WellPosed
import Verif.Props.OneSided
import Verif.Props.LastStep
import Verif.Props.ThermoDemo

/-!
C172–C175: the demos with thermal expansion and contact.
-/

namespace Verif.ThermoContact

open Verif.Spec Verif.ContactProblem Verif.OneSided Verif.Packing Verif.Kernels Verif.Lemmas Finset
open Verif.TieData (bcMatrix bcVector bc_solution bc_invertible tested formOf_sub formOf_eq)

noncomputable section

variable {G : Type} {Y : System G} {Z : Setting G} {H : Thermal} {M : Mechanical}

/-! ### C172 -/

theorem formOf_comb (N n : ℕ) (K : ℕ → ℕ → ℝ) (x y : ℝ) (u w v : ℕ → ℝ) :
    formOf N n K (fun d => x * u d + y * w d) v = x * formOf N n K u v + y * formOf N n K w v := by
  unfold formOf
  rw [mul_sum, mul_sum, ← sum_add_distrib]
  refine sum_congr rfl (fun d _ => ?_)
  rw [mul_sum, mul_sum, ← sum_add_distrib]
  exact sum_congr rfl (fun c _ => by ring)

theorem formOf_lhs (H : Thermal) (u v : ℕ → ℝ) : formOf H.numDofs H.numDofs H.lhs u v
    = formOf H.numDofs H.numDofs H.mass u v + H.kdt * H.tau * formOf H.numDofs H.numDofs H.grad u v := by
  unfold formOf Thermal.lhs
  rw [mul_sum, ← sum_add_distrib]
  refine sum_congr rfl (fun d _ => ?_)
  rw [mul_sum, ← sum_add_distrib]
  exact sum_congr rfl (fun c _ => by ring)

theorem rhs_tested (H : Thermal) (T v : ℕ → ℝ) : ∑ d ∈ range H.numDofs, H.rhs T d * v d
    = formOf H.numDofs H.numDofs H.mass T v - H.kdt * (1 - H.tau) * formOf H.numDofs H.numDofs H.grad T v := by
  rw [formOf_eq, formOf_eq, mul_sum, ← sum_sub_distrib]
  exact sum_congr rfl (fun d _ => by unfold Thermal.rhs; ring)

/-- C172: every time step for the temperature solves the heat equation, with implicit Euler for `tau = 1`, and has the prescribed
temperatures. -/
theorem C172_temperature (hpos : StepPositive H) (hsol : SolvesAll H) (T : ℕ → ℝ) : HeatStep H T (H.step T) := by
  have hA : ∀ d < H.numDofs, H.bc d ≠ none → ∀ c, (0 : ℕ × ℕ → ℝ) (d, c) = 0
      ∧ (0 : ℕ × ℕ → ℝ) (c, d) = 0 := fun _ _ _ _ => ⟨rfl, rfl⟩
  have hinv : ∀ b, ∃ x, Solves H.numDofs (bcMatrix H.bc 0 H.lhs) x b := bc_invertible hA (by
    intro v hv hne
    have h := hpos v hv hne
    dsimp only at h ⊢
    rw [← formOf_lhs] at h
    refine lt_of_lt_of_eq h ?_
    exact sum_congr rfl (fun d _ => sum_congr rfl (fun c _ => by show _ = v d * (H.lhs d c + 0) * v c; ring)))
  obtain ⟨h1, h2⟩ := bc_solution hA (hsol T _ hinv (bcVector H.numDofs H.bc H.lhs (fun _ => 0) 1.0 (H.rhs T)))
  refine ⟨fun d hd g hg => ?_, fun r hr => ?_⟩
  · refine (h1 d hd g hg).trans ?_
    norm_num
  · have := tested h2 hr
    rw [formOf_lhs, rhs_tested] at this
    have z : ∑ d ∈ range H.numDofs, ∑ c ∈ range H.numDofs, r d * (0 : ℕ × ℕ → ℝ) (d, c)
        * H.solve (bcMatrix H.bc 0 H.lhs) (bcVector H.numDofs H.bc H.lhs (fun _ => 0) 1.0 (H.rhs T)) T c = 0 :=
      sum_eq_zero (fun d _ => sum_eq_zero (fun c _ => by show r d * 0 * _ = 0; ring))
    rw [z, add_zero] at this
    rw [formOf_sub, formOf_comb]
    unfold Thermal.step
    linarith

/-- The load cases of `n` time steps from temperature `T`. -/
def cases (Z : Setting G) (H : Thermal) (M : Mechanical) : ℕ → (ℕ → ℝ) → List LoadCase
  | 0, _ => []
  | n + 1, T => heated Z H M (H.step T) :: cases Z H M n (H.step T)

theorem cases_get (n : ℕ) (T : ℕ → ℝ) {i : ℕ} (hi : i < n) : (cases Z H M n T)[i]? = some (heated Z H M (H.step^[i + 1] T)) := by
  induction n generalizing T i with
  | zero => omega
  | succ n ih =>
    cases i with
    | zero => rfl
    | succ i =>
      rw [cases, List.getElem?_cons_succ, ih _ (by omega)]
      rfl

theorem timeSteps_loadSteps (rank0 : Bool) (n : ℕ) (T : ℕ → ℝ) (r : Run G) :
    (timeSteps Y Z H M rank0 n T r).1.map StepReport.mech = (loadSteps Y Z rank0 (cases Z H M n T) r).1
    ∧ (timeSteps Y Z H M rank0 n T r).2 = (loadSteps Y Z rank0 (cases Z H M n T) r).2
    ∧ ∀ i R, (timeSteps Y Z H M rank0 n T r).1[i]? = some R → R.before = H.step^[i] T ∧ R.temp = H.step R.before ∧ i < n := by
  induction n generalizing T r with
  | zero => exact ⟨rfl, rfl, fun i R h => by simp [timeSteps] at h⟩
  | succ n ih =>
    unfold timeSteps ThermoContact.cases loadSteps
    dsimp only
    cases h : loadStep Y Z rank0 (heated Z H M (H.step T)) r with
    | error e => exact ⟨rfl, rfl, fun i R h => by simp at h⟩
    | ok p =>
      obtain ⟨R0, r'⟩ := p
      obtain ⟨i1, i2, i3⟩ := ih (H.step T) r'
      refine ⟨by simp [i1], i2, fun i R hR => ?_⟩
      cases i with
      | zero =>
        simp only [List.getElem?_cons_zero, Option.some.injEq] at hR
        subst hR
        exact ⟨rfl, rfl, by omega⟩
      | succ i =>
        rw [List.getElem?_cons_succ] at hR
        obtain ⟨k1, k2, k3⟩ := i3 i R hR
        exact ⟨k1, k2, by omega⟩

/-- C172: the temperatures of a simulation are zero at the start, each one is one time step after the one before, whatever the
displacements and the Newton solver do; the contact problem raises no exception; every time step starts from the sum of the increments of those
before; and if the solver reports convergence by the residual criterion, the increment satisfies, up to `atol`, the equations with the
thermal stress of the new temperature, with the contact detected on the geometry moved by that sum. -/
theorem C172_equations (hY : System.Valid Y) (hN : DofsBelow Y Z.numDofs) (mu lam h : ℕ → Mat) (gamma theta : ℝ)
    (hshape : OpShaped Y.static (.generate ⟨.frictionless, some mu, some lam, none, some (Y.packGrad fun _ => 0),
      some (Y.du fun _ => 0), h, gamma, theta⟩))
    (opts : Newton.Opts) (hcrit : opts.crit = .residual) (rank0 : Bool) (n : ℕ) (hpos : StepPositive H) (hsol : SolvesAll H)
    (out : List StepReport × Option DriverErr) (hout : out = simulate Y Z H M rank0 mu lam h gamma theta opts n) :
    (∀ e, out.2 ≠ some (.contact e))
    ∧ ∀ (i : ℕ) (R : StepReport), out.1[i]? = some R →
      (i = 0 → R.before = fun _ => 0) ∧ (∀ j R', i = j + 1 → out.1[j]? = some R' → R.before = R'.temp)
      ∧ HeatStep H R.before R.temp
      ∧ R.mech.before = movedAfter out.1 i
      ∧ (R.mech.converged = true → ThermoBalanced Y
          (stepData Y Z.place (vals mu) (vals lam) (fun _ _ _ => 0) (vals h) R.mech.before (movedAfter out.1 (i - 1)))
          gamma theta M Z.numDofs H.numDofs R.temp R.mech.before R.mech.du opts.atol) := by
  obtain ⟨a, ha⟩ : ∃ a : GenArgs G, a = ⟨.frictionless, some mu, some lam, none, some (Y.packGrad fun _ => 0),
      some (Y.du fun _ => 0), h, gamma, theta⟩ := ⟨_, rfl⟩
  have hout' : out = timeSteps Y Z H M rank0 n (fun _ => 0) (startRun Y Z a opts) := by rw [hout, ha]; rfl
  rw [← ha] at hshape
  have hB : BeforeStep Y Z (vals mu) (vals lam) (fun _ _ _ => 0) (vals h) .frictionless gamma theta rank0 opts (fun _ => 0)
      (startRun Y Z a opts) := by
    refine ⟨Or.inr (Or.inl (by simp [startRun])), rfl, [.generate a], by simpa using hshape, by rw [ha]; rfl,
      by rw [ha]; rfl, rfl, ?_⟩
    show SameData _ ((Tracked.new (Z.place fun _ => 0)).call (.generate a))
    rw [ha]
    unfold Tracked.call
    dsimp only
    exact ⟨rfl, rfl, rfl, rfl, rfl, rfl, rfl, rfl⟩
  obtain ⟨h1, h2⟩ := loadSteps_ok hY (fun h => absurd rfl h) hN hcrit (ThermoContact.cases Z H M n fun _ => 0) _ _ hB
  obtain ⟨e1, e2, e3⟩ := timeSteps_loadSteps (Y := Y) (Z := Z) (H := H) (M := M) rank0 n (fun _ => 0) (startRun Y Z a opts)
  rw [← e2, ← hout'] at h1
  rw [← e1, ← hout'] at h2
  rw [← hout'] at e3
  refine ⟨h1, fun i R hR => ?_⟩
  obtain ⟨k1, k2, k3⟩ := e3 i R hR
  obtain ⟨j1, j2⟩ := h2 i R.mech _ (by rw [List.getElem?_map, hR]; rfl) (cases_get n _ k3)
  have z : ∀ m, (fun d => (startRun Y Z a opts).u d + totalAfter (out.1.map StepReport.mech) m d) = movedAfter out.1 m := by
    intro m
    funext d
    simp [startRun, totalAfter, movedAfter, ← List.map_take, List.map_map, Function.comp_def]
  rw [z] at j1 j2
  refine ⟨fun h0 => by rw [k1, h0]; rfl, fun j R' hj hR' => ?_, ?_, j1, fun hc => ?_⟩
  · obtain ⟨l1, l2, -⟩ := e3 j R' hR'
    rw [l2, l1, k1, hj, Function.iterate_succ_apply']
  · rw [k2]
    exact C172_temperature hpos hsol _
  · have hb := (j2 hc).2
    have hT : H.step^[i + 1] (fun _ => 0) = R.temp := by rw [k2, k1, Function.iterate_succ_apply']
    rw [hT] at hb
    have hd : (if i = 0 then fun _ => 0 else movedAfter out.1 (i - 1)) = movedAfter out.1 (i - 1) := by
      cases i with
      | zero => funext d; simp [movedAfter]
      | succ i => rfl
    rw [hd] at hb
    intro v
    refine le_of_eq_of_le (congrArg abs ?_) (hb v (fun d _ h => absurd rfl h))
    refine congrArg (· + _) ?_
    rw [formOf_eq, formOf_eq, ← sum_sub_distrib]
    refine sum_congr rfl (fun d _ => ?_)
    simp only [heated, Option.elim_none, sum_const_zero, add_zero]
    ring

/-! ### C173 -/

theorem inBody_in {B : ℕ → Prop} {u : ℕ → ℝ} {d : ℕ} (h : B d) : inBody B u d = u d := if_pos h

theorem inBody_out {B : ℕ → Prop} {u : ℕ → ℝ} {d : ℕ} (h : ¬B d) : inBody B u d = 0 := if_neg h

/-- A form which does not couple bodies, tested with a function in a body. -/
theorem formOf_body {N : ℕ} {K K' : ℕ → ℕ → ℝ} {B : ℕ → Prop} (hK : ∀ d < N, ∀ c < N, ¬(B d ↔ B c) → K d c = 0)
    (hsame : ∀ d c, B d → B c → K d c = K' d c) (u v : ℕ → ℝ) :
    formOf N N K u (inBody B v) = formOf N N K' (inBody B u) (inBody B v) := by
  unfold formOf
  refine sum_congr rfl (fun d hd => sum_congr rfl (fun c hc => ?_))
  rw [mem_range] at hd hc
  by_cases hB : B d
  · by_cases hC : B c
    · rw [inBody_in hC, hsame d c hB hC]
    · rw [hK d hd c hc (fun h => hC (h.mp hB)), inBody_out (u := u) hC]
      ring
  · rw [inBody_out (u := v) hB]
    ring

/-- One step of two problems which are the same in a body. -/
theorem body_step {H' : Thermal} {B : ℕ → Prop} (hpos : StepPositive H) (hsep : Separate H B) (hsep' : Separate H' B)
    (hsame : SameBody H H' B) {T0 T1 T0' T1' : ℕ → ℝ} (h : HeatStep H T0 T1) (h' : HeatStep H' T0' T1')
    (h0 : ∀ d < H.numDofs, B d → T0 d = T0' d) : ∀ d < H.numDofs, B d → T1 d = T1' d := by
  obtain ⟨eN, ek, et, ebc, eK⟩ := hsame
  obtain ⟨w, hw⟩ : ∃ w : ℕ → ℝ, w = inBody B (fun d => T1 d - T1' d) := ⟨_, rfl⟩
  have hw0 : ∀ d < H.numDofs, H.bc d ≠ none → w d = 0 := by
    intro d hd hb
    rw [hw]
    by_cases hB : B d
    · obtain ⟨g, hg⟩ := Option.ne_none_iff_exists'.mp hb
      rw [inBody_in hB, h.1 d hd g hg, h'.1 d (eN ▸ hd) g (ebc d hB ▸ hg), sub_self]
    · exact inBody_out hB
  have hw0' : ∀ d < H'.numDofs, H'.bc d ≠ none → w d = 0 := by
    intro d hd hb
    by_cases hB : B d
    · exact hw0 d (eN ▸ hd) (ebc d hB ▸ hb)
    · rw [hw]; exact inBody_out hB
  have m1 : ∀ u, formOf H.numDofs H.numDofs H.mass u w = formOf H.numDofs H.numDofs H.mass (inBody B u) w := by
    intro u; rw [hw]; exact formOf_body (fun d hd c hc hn => (hsep d hd c hc hn).1) (fun _ _ _ _ => rfl) _ _
  have g1 : ∀ u, formOf H.numDofs H.numDofs H.grad u w = formOf H.numDofs H.numDofs H.grad (inBody B u) w := by
    intro u; rw [hw]; exact formOf_body (fun d hd c hc hn => (hsep d hd c hc hn).2) (fun _ _ _ _ => rfl) _ _
  have m2 : ∀ u, formOf H'.numDofs H'.numDofs H'.mass u w = formOf H.numDofs H.numDofs H.mass (inBody B u) w := by
    intro u; rw [hw, eN]
    exact formOf_body (fun d hd c hc hn => (hsep' d hd c hc hn).1) (fun d c hd hc => ((eK d c hd hc).1).symm) _ _
  have g2 : ∀ u, formOf H'.numDofs H'.numDofs H'.grad u w = formOf H.numDofs H.numDofs H.grad (inBody B u) w := by
    intro u; rw [hw, eN]
    exact formOf_body (fun d hd c hc hn => (hsep' d hd c hc hn).2) (fun d c hd hc => ((eK d c hd hc).2).symm) _ _
  have k := h.2 w hw0
  have k' := h'.2 w hw0'
  have c0 : ∀ K : ℕ → ℕ → ℝ, formOf H.numDofs H.numDofs K (inBody B T0) w = formOf H.numDofs H.numDofs K (inBody B T0') w := by
    intro K
    unfold formOf
    refine sum_congr rfl (fun d _ => sum_congr rfl (fun c hc => ?_))
    by_cases hB : B c
    · rw [inBody_in hB, inBody_in hB, h0 c (mem_range.mp hc) hB]
    · rw [inBody_out hB, inBody_out hB]
  have cw : ∀ K : ℕ → ℕ → ℝ, formOf H.numDofs H.numDofs K (inBody B T1) w - formOf H.numDofs H.numDofs K (inBody B T1') w
      = formOf H.numDofs H.numDofs K w w := by
    intro K
    rw [← formOf_sub]
    congr 1
    funext d
    rw [hw]
    by_cases hB : B d
    · rw [inBody_in hB, inBody_in hB, inBody_in hB]
    · rw [inBody_out hB, inBody_out hB, inBody_out hB, sub_zero]
  rw [formOf_sub, formOf_comb, m1 T1, m1 T0, g1 T1, g1 T0, c0 H.mass, c0 H.grad] at k
  rw [formOf_sub, formOf_comb, m2 T1', m2 T0', g2 T1', g2 T0', ← ek, ← et] at k'
  have e : formOf H.numDofs H.numDofs H.mass w w + H.kdt * H.tau * formOf H.numDofs H.numDofs H.grad w w = 0 := by
    rw [← cw, ← cw]
    linear_combination k - k'
  intro d hd hB
  by_contra hne
  have := hpos w hw0 ⟨d, hd, by rw [hw, inBody_in hB]; exact sub_ne_zero.mpr hne⟩
  dsimp only at this
  linarith

/-- The temperatures of a run. -/
theorem timeSteps_temp (rank0 : Bool) (n : ℕ) (T : ℕ → ℝ) (r : Run G) {i : ℕ} {R : StepReport}
    (h : (timeSteps Y Z H M rank0 n T r).1[i]? = some R) : R.temp = H.step^[i + 1] T := by
  obtain ⟨h1, h2, -⟩ := (timeSteps_loadSteps (Y := Y) (Z := Z) (H := H) (M := M) rank0 n T r).2.2 i R h
  rw [h2, h1, Function.iterate_succ_apply']

/-- C173: bodies in contact exchange no heat: the temperatures of a body are the same in every simulation with the same thermal data for
this body and the same initial temperatures in it, whatever the temperatures of the other bodies, the contact surfaces, the displacements, the
materials and the results of the Newton solver are. -/
theorem C173_independent {G' : Type} {Y' : System G'} {Z' : Setting G'} {H' : Thermal} {M' : Mechanical} {B : ℕ → Prop}
    (hpos : StepPositive H) (hsol : SolvesAll H) (hpos' : StepPositive H') (hsol' : SolvesAll H')
    (hsep : Separate H B) (hsep' : Separate H' B) (hsame : SameBody H H' B) (rank0 rank0' : Bool) (n n' : ℕ) (T T' : ℕ → ℝ)
    (h0 : ∀ d < H.numDofs, B d → T d = T' d) (r : Run G) (r' : Run G') (i : ℕ) (R R' : StepReport)
    (h : (timeSteps Y Z H M rank0 n T r).1[i]? = some R) (h' : (timeSteps Y' Z' H' M' rank0' n' T' r').1[i]? = some R') :
    ∀ d < H.numDofs, B d → R.temp d = R'.temp d := by
  rw [timeSteps_temp rank0 n T r h, timeSteps_temp rank0' n' T' r' h']
  have key : ∀ k, ∀ d < H.numDofs, B d → H.step^[k] T d = H'.step^[k] T' d := by
    intro k
    induction k with
    | zero => exact h0
    | succ k ih =>
      rw [Function.iterate_succ_apply', Function.iterate_succ_apply']
      exact body_step hpos hsep hsep' hsame (C172_temperature hpos hsol _) (C172_temperature hpos' hsol' _) ih
  exact key (i + 1)

/-- C173: the heat of a body without prescribed temperatures does not change, also while it is in contact with other bodies. -/
theorem C173_conserved {B : ℕ → Prop} (hpos : StepPositive H) (hsol : SolvesAll H)
    (hfree : ∀ d < H.numDofs, B d → H.bc d = none)
    (hconst : ∀ u, formOf H.numDofs H.numDofs H.grad u (inBody B fun _ => 1) = 0)
    (rank0 : Bool) (n : ℕ) (T : ℕ → ℝ) (r : Run G) (i : ℕ) (R : StepReport)
    (h : (timeSteps Y Z H M rank0 n T r).1[i]? = some R) : heatOf H B R.temp = heatOf H B T := by
  have hr : ∀ d < H.numDofs, H.bc d ≠ none → inBody B (fun _ => (1 : ℝ)) d = 0 :=
    fun d hd hb => inBody_out (fun hB => hb (hfree d hd hB))
  have hheat : ∀ u, heatOf H B u = formOf H.numDofs H.numDofs H.mass u (inBody B fun _ => 1) := by
    intro u
    rw [formOf_eq, heatOf, sum_filter]
    refine sum_congr rfl (fun d _ => ?_)
    by_cases hB : B d
    · rw [if_pos hB, inBody_in hB, mul_one]
    · rw [if_neg hB, inBody_out hB, mul_zero]
  rw [timeSteps_temp rank0 n T r h]
  have key : ∀ k, heatOf H B (H.step^[k] T) = heatOf H B T := by
    intro k
    induction k with
    | zero => rfl
    | succ k ih =>
      rw [Function.iterate_succ_apply', ← ih, hheat, hheat]
      have := (C172_temperature hpos hsol (H.step^[k] T)).2 _ hr
      rw [hconst, formOf_sub, mul_zero, add_zero] at this
      linarith
  exact key (i + 1)

/-! ### C174 -/

/-- C174, part: where the surfaces do not touch and the bodies expand freely, the contact problem adds nothing to the vector: at points
at temperature zero for every theta, at heated points if theta is zero. Missing: see `C174_heated_violated` and `C174_cooled_violated`. -/
theorem C174_free_partial (hY : System.Valid Y) (ops : List (Op G)) (hops : ∀ op ∈ ops, OpShaped Y.static op) (g : G)
    (hlaw : lastLaw ops none = some .frictionless) (gamma theta : ℝ) (hconsts : lastConsts ops none = some (gamma, theta))
    (s : State G) (hs : s = history Y.static ops (init Y.static g)) (hc : s.coeffs ≠ none) (N : ℕ) (hN : DofsBelow Y N)
    (alpha : ℝ) (T : ℕ → ℕ → ℕ → ℝ) (u : ℕ → ℝ) (hfree : FreeExpansion Y ((Tracked.new g).history ops) alpha T u)
    (hopen : Apart Y ((Tracked.new g).history ops) u) (hout : NormalsOutward Y ((Tracked.new g).history ops))
    (hheat : AtLinked Y ((Tracked.new g).history ops) (fun i e _ _ q => T i e q = 0 ∨ theta = 0 ∧ 0 < gamma
      ∧ 0 ≤ ((Tracked.new g).history ops).h i e 0
      ∧ 0 ≤ thermalStress alpha (((Tracked.new g).history ops).mu i e 0) (((Tracked.new g).history ops).lam i e 0) (T i e q))) :
    ∃ (s' : State G) (b : Arr ℕ), updateContactData Y.static (Y.du u) s = .ok s' ∧ Y.assembleVector s' 0 = .ok b
      ∧ ∀ d < N, b d = 0 := by
  obtain ⟨b, hb, hform⟩ := vector_of hY ops hops g .frictionless hlaw (fun h => absurd rfl h) gamma theta hconsts s hs hc N hN
  obtain ⟨s', h1, h2⟩ := hb u
  refine ⟨s', b u, h1, h2, fun d hd => ?_⟩
  have hd' := hform u (unit d)
  have e1 : ∑ c ∈ range N, b u c * unit d c = b u d := by
    rw [sum_eq_single_of_mem d (mem_range.mpr hd)]
    · simp [unit]
    · intro c _ hc
      simp [unit, hc]
  rw [e1] at hd'
  rw [hd']
  generalize (Tracked.new g).history ops = t at *
  unfold contactForm
  refine sum_eq_zero (fun i hi => sum_eq_zero (fun e he => ?_))
  rw [mem_range] at hi he
  rcases hfac : (Y.facets i)[e]? with _ | ⟨cell, f⟩
  · rw [Option.elim_none]
  · rw [Option.elim_some]
    refine sum_eq_zero (fun q hq => ?_)
    rw [mem_range] at hq
    by_cases hm : 0 ≤ Y.map t.cur i (e * Y.nq + q)
    · rw [if_pos hm]
      have f1 := hfree i hi e he cell f hfac q hq hm
      have f2 := hopen i hi e he cell f hfac q hq hm
      have f3 := hout i hi e he cell f hfac q hq hm
      have f4 := hheat i hi e he cell f hfac q hq hm
      dsimp only at f1 f2 f3 f4 ⊢
      have hh : (pointAt Y t i e cell f q).h = t.h i e 0 := rfl
      have hg : (pointAt Y t i e cell f q).g = Y.gdim := rfl
      generalize pointAt Y t i e cell f q = p at *
      have ht : p.dot (p.trac fun a b => gradAt Y cell f u q a b + p.grad0 a b)
          = thermalStress alpha (t.mu i e 0) (t.lam i e 0) (T i e q) * p.dot p.nPhys := by
        unfold ContactPoint.dot
        rw [mul_sum]
        refine sum_congr rfl (fun a ha => ?_)
        rw [sub_eq_zero.mp (f1 a (hg ▸ mem_range.mp ha))]
        ring
      have hp : p.pressure gamma (jumpAt Y t.cur i e cell f u q) (fun a b => gradAt Y cell f u q a b + p.grad0 a b) ≤ 0 := by
        unfold ContactPoint.pressure
        rw [ht]
        rcases f4 with h0 | ⟨-, hg0, hh0, hs0⟩
        · rw [h0, thermalStress, mul_zero, zero_mul, mul_zero]
          linarith
        · have : 0 ≤ p.h / gamma * (thermalStress alpha (t.mu i e 0) (t.lam i e 0) (T i e q) * p.dot p.nPhys) :=
            mul_nonneg (div_nonneg (hh ▸ hh0) hg0.le) (mul_nonneg hs0 f3)
          linarith
      rw [ContactPoint.form, if_pos rfl, ContactPoint.normalPart, max_eq_left hp, ht]
      rcases f4 with h0 | ⟨h0, -⟩
      · rw [h0, thermalStress]
        ring
      · rw [h0]
        ring
    · rw [if_neg hm]

/-- Generate the data of the two triangles: μ = 3, λ = 5, γ = h = 1, no friction coefficient. -/
def exGen (theta : ℝ) : GenArgs Unit :=
  ⟨.frictionless, some (fun _ => ⟨1, 1, fun _ _ => 3⟩), some (fun _ => ⟨1, 1, fun _ _ => 5⟩), none,
    some ((exR 2 0).packGrad fun _ => 0), some ((exR 2 0).du fun _ => 0), fun _ => ⟨1, 1, fun _ _ => 1⟩, 1, theta⟩

theorem exGen_shaped (theta : ℝ) : ∀ op ∈ [Op.generate (exGen theta)], OpShaped (exR 2 0).static op := by
  intro op hop
  rw [List.mem_singleton.mp hop]
  have h := du_shaped (exR_valid 2 0) (fun _ => 0)
  refine ⟨?_, ?_, ?_, ?_, ?_, ?_⟩
  · intro m hm
    obtain rfl := Option.some.inj hm
    simp [ScalarShaped, System.static, exR]
  · intro m hm
    obtain rfl := Option.some.inj hm
    simp [ScalarShaped, System.static, exR]
  · intro m hm
    cases hm
  · simp [ScalarShaped, System.static, exR, exGen]
  · intro m hm
    obtain rfl := Option.some.inj hm
    exact h.grad
  · intro m hm
    obtain rfl := Option.some.inj hm
    exact h

/-- Expansion by `k` of both triangles, which are two apart. -/
def exK (k : ℝ) (d : ℕ) : ℝ := match d with
  | 2 => k | 5 => k | 8 => k | 11 => -k | _ => 0

theorem exK_grad (k : ℝ) {a b : ℕ} (ha : a < 2) (hb : b < 2) :
    gradAt (exR 2 0) 0 2 (exK k) 0 a b = if a = b then k else 0 := by
  have h1 : a = 0 ∨ a = 1 := by omega
  have h2 : b = 0 ∨ b = 1 := by omega
  rcases h1 with rfl | rfl <;> rcases h2 with rfl | rfl <;> simp [gradAt, exR, sum_range_succ, exK]

theorem exK_jump (k : ℝ) {a : ℕ} (ha : a < 2) : jumpAt (exR 2 0) () 0 0 0 2 (exK k) 0 a = 0 := by
  have h1 : a = 0 ∨ a = 1 := by omega
  rcases h1 with rfl | rfl <;> simp [jumpAt, valueAt, oppositeAt, exR, sum_range_succ, exK]

theorem exGen_point (theta : ℝ) {p : ContactPoint}
    (hp : p = pointAt (exR 2 0) ((Tracked.new ()).history [.generate (exGen theta)]) 0 0 0 2 0) :
    p.g = 2 ∧ p.h = 1 ∧ p.mu = 3 ∧ p.lam = 5 ∧ p.normal 0 = 0 ∧ p.normal 1 = -1 ∧ p.gap 0 = 0 ∧ p.gap 1 = -2
      ∧ p.nPhys 0 = 0 ∧ p.nPhys 1 = -1 ∧ ∀ a < 2, ∀ b < 2, p.grad0 a b = 0 := by
  subst hp
  refine ⟨rfl, ?_, ?_, ?_, ?_, ?_, ?_, ?_, ?_, ?_, ?_⟩
  iterate 9 simp [pointAt, exGen, Tracked.history, Tracked.call, Tracked.setDu, vals, contactNormalAt, outwardAt, exR, sum_range_succ]
  intro a ha b hb
  have := packGrad_gradAt (exR_valid 2 0) (fun _ => 0) (i := 0) (e := 0) (cell := 0) (f := 2) rfl (q := 0) (a := a) (b := b)
    (by decide) ha hb
  have z : gradAt (exR 2 0) 0 2 (fun _ => 0) 0 a b = 0 := sum_eq_zero (fun k _ => by rw [mul_zero])
  rw [z] at this
  exact this

theorem exK_trac {p : ContactPoint} (hg : p.g = 2) (hmu : p.mu = 3) (hlam : p.lam = 5) (hn0 : p.nPhys 0 = 0)
    (hn1 : p.nPhys 1 = -1) {k : ℝ} {D : ℕ → ℕ → ℝ} (hD : ∀ a < 2, ∀ b < 2, D a b = if a = b then k else 0) :
    p.trac D 0 = 0 ∧ p.trac D 1 = -(16 * k) := by
  constructor <;>
    simp only [ContactPoint.trac, traction, stress, strain, hg, hmu, hlam, sum_range_succ, sum_range_zero, hn0, hn1] <;>
    rw [hD 0 (by omega) 0 (by omega), hD 0 (by omega) 1 (by omega), hD 1 (by omega) 0 (by omega), hD 1 (by omega) 1 (by omega)] <;>
    simp <;> ring

theorem exGen_free (theta k : ℝ) : FreeExpansion (exR 2 0) ((Tracked.new ()).history [.generate (exGen theta)]) (16 / 21)
      (fun _ _ _ => k) (exK k)
    ∧ Apart (exR 2 0) ((Tracked.new ()).history [.generate (exGen theta)]) (exK k)
    ∧ NormalsOutward (exR 2 0) ((Tracked.new ()).history [.generate (exGen theta)]) := by
  obtain ⟨p, hp⟩ : ∃ p, p = pointAt (exR 2 0) ((Tracked.new ()).history [.generate (exGen theta)]) 0 0 0 2 0 := ⟨_, rfl⟩
  obtain ⟨hg, -, hmu, hlam, hn0, hn1, hg0, hg1, ho0, ho1, hgr⟩ := exGen_point theta hp
  have hmu' : ((Tracked.new ()).history [.generate (exGen theta)]).mu 0 0 0 = 3 := by rw [← hmu, hp]; rfl
  have hlam' : ((Tracked.new ()).history [.generate (exGen theta)]).lam 0 0 0 = 5 := by rw [← hlam, hp]; rfl
  refine ⟨exR_only ?_, exR_only ?_, exR_only ?_⟩
  · intro a ha
    rw [← hp, hmu', hlam']
    obtain ⟨t0, t1⟩ := exK_trac hg hmu hlam ho0 ho1 (k := k)
      (D := fun a b => gradAt (exR 2 0) 0 2 (exK k) 0 a b + p.grad0 a b)
      (fun a ha b hb => by rw [exK_grad k ha hb, hgr a ha b hb, add_zero])
    have : a = 0 ∨ a = 1 := by have : a < 2 := ha; omega
    rcases this with rfl | rfl
    · rw [t0, ho0]; ring
    · rw [t1, ho1, thermalStress]; ring
  · rw [← hp]
    unfold ContactPoint.dot
    rw [hg, sum_range_succ, sum_range_one, sum_range_succ, sum_range_one, hn0, hn1, hg1]
    have := exK_jump k (a := 1) (by omega)
    have e : jumpAt (exR 2 0) ((Tracked.new ()).history [.generate (exGen theta)]).cur 0 0 0 2 (exK k) 0 1 = 0 := this
    rw [e]
    norm_num
  · rw [← hp]
    unfold ContactPoint.dot
    rw [hg, sum_range_succ, sum_range_one, hn0, hn1, ho1]
    norm_num

theorem exGen_created (theta : ℝ) :
    (history (exR 2 0).static [.generate (exGen theta)] (init (exR 2 0).static ())).coeffs ≠ none := by
  rcases C38_size (static_shaped (exR_valid 2 0)) _ (exGen_shaped theta) () with ⟨h, -⟩ | ⟨-, cs, h, -⟩
  · simp [exGen, Tracked.history, Tracked.call, Tracked.setDu] at h
  · rw [h]; simp

/-- The contact form of the two triangles while they expand. -/
theorem exGen_form (theta k : ℝ) (v : ℕ → ℝ) {p : ContactPoint}
    (hp : p = pointAt (exR 2 0) ((Tracked.new ()).history [.generate (exGen theta)]) 0 0 0 2 0) :
    contactForm (exR 2 0) ((Tracked.new ()).history [.generate (exGen theta)]) .frictionless 1 theta (exK k) v
      = 1 / 2 * max 0 (-2 - 16 * k) * (-jumpAt (exR 2 0) () 0 0 0 2 v 0 1 - theta * p.dot (p.trac (gradAt (exR 2 0) 0 2 v 0)))
        - 1 / 2 * theta * (16 * k) * p.dot (p.trac (gradAt (exR 2 0) 0 2 v 0)) := by
  obtain ⟨hg, hh, hmu, hlam, hn0, hn1, hg0, hg1, ho0, ho1, hgr⟩ := exGen_point theta hp
  have hsum : contactForm (exR 2 0) ((Tracked.new ()).history [.generate (exGen theta)]) .frictionless 1 theta (exK k) v
      = weightAt (exR 2 0) 0 2 0 * p.form .frictionless 1 theta (jumpAt (exR 2 0) () 0 0 0 2 (exK k) 0)
          (fun a b => gradAt (exR 2 0) 0 2 (exK k) 0 a b + p.grad0 a b) (jumpAt (exR 2 0) () 0 0 0 2 v 0)
          (gradAt (exR 2 0) 0 2 v 0) := by
    rw [hp]
    exact exR_sum 2 0 (fun i e cell f q => weightAt (exR 2 0) cell f q
        * (pointAt (exR 2 0) ((Tracked.new ()).history [.generate (exGen theta)]) i e cell f q).form .frictionless 1 theta
          (jumpAt (exR 2 0) () i e cell f (exK k) q) (fun a b => gradAt (exR 2 0) cell f (exK k) q a b
            + (pointAt (exR 2 0) ((Tracked.new ()).history [.generate (exGen theta)]) i e cell f q).grad0 a b)
          (jumpAt (exR 2 0) () i e cell f v q) (gradAt (exR 2 0) cell f v q))
  obtain ⟨t0, t1⟩ := exK_trac hg hmu hlam ho0 ho1 (k := k)
    (D := fun a b => gradAt (exR 2 0) 0 2 (exK k) 0 a b + p.grad0 a b)
    (fun a ha b hb => by rw [exK_grad k ha hb, hgr a ha b hb, add_zero])
  have hw : weightAt (exR 2 0) 0 2 0 = 1 := by simp [exR, weightAt]
  have dot : ∀ x : ℕ → ℝ, p.dot x = -x 1 := by
    intro x
    unfold ContactPoint.dot
    rw [hg, sum_range_succ, sum_range_one, hn0, hn1]
    ring
  rw [hsum, hw, ContactPoint.form, if_pos rfl, ContactPoint.normalPart, ContactPoint.pressure, hh]
  simp only [dot, t1, hg1, exK_jump k (a := 1) (by omega)]
  rw [show (-0 - - -2 - 1 / 1 * - -(16 * k) : ℝ) = -2 - 16 * k by ring]
  ring

theorem exGen_nonzero {theta k : ℝ} {v : ℕ → ℝ}
    (h : contactForm (exR 2 0) ((Tracked.new ()).history [.generate (exGen theta)]) .frictionless 1 theta (exK k) v ≠ 0) :
    ∃ (s' : State Unit) (b : Arr ℕ), updateContactData (exR 2 0).static ((exR 2 0).du (exK k))
        (history (exR 2 0).static [.generate (exGen theta)] (init (exR 2 0).static ())) = .ok s'
      ∧ (exR 2 0).assembleVector s' 0 = .ok b ∧ ∃ d < 12, b d ≠ 0 := by
  obtain ⟨b, hb, hform⟩ := vector_of (exR_valid 2 0) [.generate (exGen theta)] (exGen_shaped theta) () .frictionless rfl
    (fun h => absurd rfl h) 1 theta rfl _ rfl (exGen_created theta) _ (exR_below 2 0)
  obtain ⟨s', h1, h2⟩ := hb (exK k)
  refine ⟨s', b (exK k), h1, h2, ?_⟩
  by_contra hn
  push Not at hn
  refine h ?_
  rw [← hform]
  exact sum_eq_zero (fun d hd => by rw [hn d (mem_range.mp hd), zero_mul])

/-- C174 fails for theta = 1, the value in the demos: two heated bodies, two apart, expand freely (no stress at all), and the contact
problem adds forces. -/
theorem C174_heated_violated :
    System.Valid (exR 2 0) ∧ FreeExpansion (exR 2 0) ((Tracked.new ()).history [.generate (exGen 1)]) (16 / 21) (fun _ _ _ => 1) (exK 1)
    ∧ Apart (exR 2 0) ((Tracked.new ()).history [.generate (exGen 1)]) (exK 1)
    ∧ NormalsOutward (exR 2 0) ((Tracked.new ()).history [.generate (exGen 1)])
    ∧ ∃ (s' : State Unit) (b : Arr ℕ), updateContactData (exR 2 0).static ((exR 2 0).du (exK 1))
        (history (exR 2 0).static [.generate (exGen 1)] (init (exR 2 0).static ())) = .ok s'
      ∧ (exR 2 0).assembleVector s' 0 = .ok b ∧ ∃ d < 12, b d ≠ 0 := by
  obtain ⟨h1, h2, h3⟩ := exGen_free 1 1
  refine ⟨exR_valid 2 0, h1, h2, h3, exGen_nonzero (v := exK 1) ?_⟩
  obtain ⟨p, hp⟩ : ∃ p, p = pointAt (exR 2 0) ((Tracked.new ()).history [.generate (exGen 1)]) 0 0 0 2 0 := ⟨_, rfl⟩
  obtain ⟨hg, -, hmu, hlam, hn0, hn1, -, -, ho0, ho1, -⟩ := exGen_point 1 hp
  rw [exGen_form 1 1 _ hp]
  obtain ⟨t0, t1⟩ := exK_trac hg hmu hlam ho0 ho1 (k := 1) (D := gradAt (exR 2 0) 0 2 (exK 1) 0)
    (fun a ha b hb => exK_grad 1 ha hb)
  have : p.dot (p.trac (gradAt (exR 2 0) 0 2 (exK 1) 0)) = 16 := by
    unfold ContactPoint.dot
    rw [hg, sum_range_succ, sum_range_one, hn0, hn1, t1]
    norm_num
  rw [this]
  norm_num

/-- C174 fails for cooled bodies also for theta = 0: they contract freely, two apart, and the contact problem adds a contact force. -/
theorem C174_cooled_violated :
    System.Valid (exR 2 0) ∧ FreeExpansion (exR 2 0) ((Tracked.new ()).history [.generate (exGen 0)]) (16 / 21) (fun _ _ _ => -1) (exK (-1))
    ∧ Apart (exR 2 0) ((Tracked.new ()).history [.generate (exGen 0)]) (exK (-1))
    ∧ NormalsOutward (exR 2 0) ((Tracked.new ()).history [.generate (exGen 0)])
    ∧ ∃ (s' : State Unit) (b : Arr ℕ), updateContactData (exR 2 0).static ((exR 2 0).du (exK (-1)))
        (history (exR 2 0).static [.generate (exGen 0)] (init (exR 2 0).static ())) = .ok s'
      ∧ (exR 2 0).assembleVector s' 0 = .ok b ∧ ∃ d < 12, b d ≠ 0 := by
  obtain ⟨h1, h2, h3⟩ := exGen_free 0 (-1)
  refine ⟨exR_valid 2 0, h1, h2, h3, exGen_nonzero (v := fun d => if d < 6 then 1 else 0) ?_⟩
  rw [exGen_form 0 (-1) _ rfl]
  have : jumpAt (exR 2 0) () 0 0 0 2 (fun d => if d < 6 then 1 else 0) 0 1 = 1 := by
    simp [jumpAt, valueAt, oppositeAt, exR, sum_range_succ]
    norm_num
  rw [this]
  norm_num

/-- The hypotheses of `C174_free_partial` hold for the heated triangles with theta = 0. -/
example : System.Valid (exR 2 0) ∧ (∀ op ∈ [Op.generate (exGen 0)], OpShaped (exR 2 0).static op)
    ∧ lastLaw [Op.generate (exGen 0)] none = some .frictionless ∧ lastConsts [Op.generate (exGen 0)] none = some (1, 0)
    ∧ (history (exR 2 0).static [.generate (exGen 0)] (init (exR 2 0).static ())).coeffs ≠ none ∧ DofsBelow (exR 2 0) 12
    ∧ FreeExpansion (exR 2 0) ((Tracked.new ()).history [.generate (exGen 0)]) (16 / 21) (fun _ _ _ => 1) (exK 1)
    ∧ Apart (exR 2 0) ((Tracked.new ()).history [.generate (exGen 0)]) (exK 1)
    ∧ NormalsOutward (exR 2 0) ((Tracked.new ()).history [.generate (exGen 0)])
    ∧ AtLinked (exR 2 0) ((Tracked.new ()).history [.generate (exGen 0)]) (fun i e _ _ _ => (1 : ℝ) = 0 ∨ (0 : ℝ) = 0 ∧ (0 : ℝ) < 1
      ∧ 0 ≤ ((Tracked.new ()).history [.generate (exGen 0)]).h i e 0
      ∧ 0 ≤ thermalStress (16 / 21) (((Tracked.new ()).history [.generate (exGen 0)]).mu i e 0)
        (((Tracked.new ()).history [.generate (exGen 0)]).lam i e 0) 1) := by
  obtain ⟨h1, h2, h3⟩ := exGen_free 0 1
  refine ⟨exR_valid 2 0, exGen_shaped 0, rfl, rfl, exGen_created 0, exR_below 2 0, h1, h2, h3, exR_only (Or.inr ⟨rfl, one_pos, ?_, ?_⟩)⟩
  · simp [exGen, Tracked.history, Tracked.call, Tracked.setDu, vals]
  · simp [exGen, Tracked.history, Tracked.call, Tracked.setDu, vals, thermalStress]
    norm_num

/-! ### C175 -/

theorem sigmaT_work (P : Params) (alpha : ℝ) (D : ℕ → ℕ → ℝ) (T : ℝ) (E : ℕ → ℕ → ℝ) :
    innerM P.dim (sigmaT P alpha D T) (eps E)
      = thermoWork P.dim (shearModulus P.E P.nu) (lameFirst P.planeStrain P.E P.nu) alpha D T E := by
  have h1 : ∀ i ∈ range P.dim, ∑ j ∈ range P.dim, sigmaT P alpha D T i j * eps E i j
      = ∑ j ∈ range P.dim, stress P.dim (shearModulus P.E P.nu) (lameFirst P.planeStrain P.E P.nu) D i j * strain E i j
        - thermalStress alpha (shearModulus P.E P.nu) (lameFirst P.planeStrain P.E P.nu) T * E i i := by
    intro i hi
    have h2 : ∑ j ∈ range P.dim, thermalStress alpha (shearModulus P.E P.nu) (lameFirst P.planeStrain P.E P.nu) T
        * ((if i = j then 1 else 0) * E i j)
        = thermalStress alpha (shearModulus P.E P.nu) (lameFirst P.planeStrain P.E P.nu) T * E i i := by
      rw [← mul_sum]
      simp only [ite_mul, one_mul, zero_mul, sum_ite_eq, hi, if_true]
    rw [← h2, ← sum_sub_distrib]
    refine sum_congr rfl (fun j _ => ?_)
    have e1 : ∀ D : ℕ → ℕ → ℝ, ∀ i j, eps D i j = strain D i j := fun D i j => by rw [eps_strain]
    have e0 : (2.0 : ℝ) = 2 := by norm_num
    have e2 : P.mu = shearModulus P.E P.nu := rfl
    have e3 : P.lmbda = lameFirst P.planeStrain P.E P.nu := rfl
    unfold sigmaT stress thermalStress
    rw [e0, e2, e3]
    simp only [e1]
    by_cases hij : i = j
    · subst hij
      simp only [if_true, strain]
      ring
    · simp only [hij, if_false]
      norm_num
  unfold innerM thermoWork stressWork
  rw [sum_congr rfl h1, sum_sub_distrib, mul_sum]

/-- C175, what `F` is: for a displacement that is zero on the Dirichlet facets, the virtual work of elastic and thermal stress minus the
work of the reaction, minus a pressure that is the thermal stress, on the Dirichlet facets. -/
theorem C175_form (P : Params) (Q : Quad) (h : ℕ → ℝ) (cold hot : List ℕ) (alpha : ℝ) (T : ℕ → ℝ) (u v : Field)
    (hD : ∀ k ∈ cold ++ hot, ∀ i < P.dim, (u k).val i = 0) :
    thermoF P Q h cold hot alpha T u v =
      quadSum Q.cells Q.wt (fun k => thermoWork P.dim (shearModulus P.E P.nu) (lameFirst P.planeStrain P.E P.nu) alpha (u k).grad
        (T k) (v k).grad)
      - quadSum (cold ++ hot) Q.wt (fun k => ∑ i ∈ range P.dim, thermoTraction P.dim (shearModulus P.E P.nu)
        (lameFirst P.planeStrain P.E P.nu) alpha (u k).grad (T k) (Q.n k) i * (v k).val i)
      - quadSum (cold ++ hot) Q.wt (fun k => thermalStress alpha (shearModulus P.E P.nu) (lameFirst P.planeStrain P.E P.nu) (T k)
        * ∑ i ∈ range P.dim, Q.n k i * (v k).val i) := by
  unfold thermoF
  dsimp only
  rw [C102_weak_dirichlet P Q h hot _ _ u v (fun k hk => hD k (List.mem_append_right _ hk)),
    C102_weak_dirichlet P Q h cold _ _ u v (fun k hk => hD k (List.mem_append_left _ hk))]
  have e1 : integral Q Q.cells (fun k => innerM P.dim (sigmaT P alpha (u k).grad (T k)) (eps (v k).grad))
      = quadSum Q.cells Q.wt (fun k => thermoWork P.dim (shearModulus P.E P.nu) (lameFirst P.planeStrain P.E P.nu) alpha (u k).grad
        (T k) (v k).grad) := by
    rw [integral_congr Q (fun k _ => sigmaT_work P alpha (u k).grad (T k) (v k).grad), integral_quadSum]
  have e2 : ∀ ks : List ℕ, quadSum ks Q.wt (fun k => ∑ i ∈ range P.dim, traction P.dim (shearModulus P.E P.nu)
        (lameFirst P.planeStrain P.E P.nu) (u k).grad (Q.n k) i * (v k).val i)
      = quadSum ks Q.wt (fun k => ∑ i ∈ range P.dim, thermoTraction P.dim (shearModulus P.E P.nu)
        (lameFirst P.planeStrain P.E P.nu) alpha (u k).grad (T k) (Q.n k) i * (v k).val i)
        + quadSum ks Q.wt (fun k => thermalStress alpha (shearModulus P.E P.nu) (lameFirst P.planeStrain P.E P.nu) (T k)
        * ∑ i ∈ range P.dim, Q.n k i * (v k).val i) := by
    intro ks
    unfold quadSum
    rw [← List.sum_map_add]
    congr 1
    refine List.map_congr_left (fun k _ => ?_)
    dsimp only
    rw [← mul_add]
    congr 1
    rw [mul_sum, ← sum_add_distrib]
    refine sum_congr rfl (fun i _ => ?_)
    unfold thermoTraction
    ring
  have e3 : ∀ f : ℕ → ℝ, quadSum (cold ++ hot) Q.wt f = quadSum cold Q.wt f + quadSum hot Q.wt f := by
    intro f
    unfold quadSum
    rw [List.map_append, List.sum_append]
  rw [e1, e2, e2, e3, e3]
  ring

/-- C175, part: if the temperature is zero on the Dirichlet facets, the form is the balance of virtual work for a displacement that meets
the condition. Missing: see `C175_violated`. -/
theorem C175_cold_partial (P : Params) (Q : Quad) (h : ℕ → ℝ) (cold hot : List ℕ) (alpha : ℝ) (T : ℕ → ℝ) (u v : Field)
    (hD : ∀ k ∈ cold ++ hot, ∀ i < P.dim, (u k).val i = 0) (hT : ∀ k ∈ cold ++ hot, T k = 0) :
    thermoF P Q h cold hot alpha T u v =
      quadSum Q.cells Q.wt (fun k => thermoWork P.dim (shearModulus P.E P.nu) (lameFirst P.planeStrain P.E P.nu) alpha (u k).grad
        (T k) (v k).grad)
      - quadSum (cold ++ hot) Q.wt (fun k => ∑ i ∈ range P.dim, thermoTraction P.dim (shearModulus P.E P.nu)
        (lameFirst P.planeStrain P.E P.nu) alpha (u k).grad (T k) (Q.n k) i * (v k).val i) := by
  rw [C175_form P Q h cold hot alpha T u v hD]
  have : quadSum (cold ++ hot) Q.wt (fun k => thermalStress alpha (shearModulus P.E P.nu) (lameFirst P.planeStrain P.E P.nu) (T k)
      * ∑ i ∈ range P.dim, Q.n k i * (v k).val i) = 0 := by
    unfold quadSum
    refine List.sum_eq_zero (fun x hx => ?_)
    obtain ⟨k, hk, rfl⟩ := List.mem_map.mp hx
    dsimp only
    rw [hT k hk, thermalStress]
    ring
  rw [this, sub_zero]

/-- The unit square with one quadrature point in the middle (0) and one on each side (1 to 4, normals up, down, right, left). -/
def exSquare : Quad where
  cells := [0]
  contact := []
  dirichlet := [1, 2, 3, 4]
  rigid := []
  wt := fun _ => 1
  diam := fun _ => 1
  circ := fun _ => 1
  n := fun k i => if i = 1 then (if k = 1 then 1 else if k = 2 then -1 else 0) else (if k = 3 then 1 else if k = 4 then -1 else 0)
  x := fun k i => if i = 1 then (if k = 1 then 1 else if k = 2 then 0 else 1 / 2) else (if k = 3 then 1 else if k = 4 then 0 else 1 / 2)
  gap := fun _ _ => 0

/-- An affine field. -/
def exAffine (c : ℕ → ℝ) (D : ℕ → ℕ → ℝ) : Field :=
  fun k => ⟨fun i => c i + ∑ j ∈ range 2, D i j * exSquare.x k j, D⟩

/-- C175 fails: the unit square, held on all sides and heated, is in equilibrium with displacement zero (for all affine virtual
displacements, for which the quadrature is exact, the work of its stress is that of the reactions), and the form of the demos is not zero. -/
theorem C175_violated : ∃ (P : Params) (alpha : ℝ) (T : ℕ → ℝ), P.dim = 2 ∧ 0 < P.E ∧ 0 < P.gamma
    ∧ (∀ c D, quadSum exSquare.cells exSquare.wt (fun k => thermoWork P.dim (shearModulus P.E P.nu) (lameFirst P.planeStrain P.E P.nu)
        alpha (exAffine 0 0 k).grad (T k) (exAffine c D k).grad)
      = quadSum ([1, 2] ++ [3, 4]) exSquare.wt (fun k => ∑ i ∈ range P.dim, thermoTraction P.dim (shearModulus P.E P.nu)
        (lameFirst P.planeStrain P.E P.nu) alpha (exAffine 0 0 k).grad (T k) (exSquare.n k) i * (exAffine c D k).val i))
    ∧ (∀ k ∈ [1, 2] ++ [3, 4], ∀ i < P.dim, (exAffine 0 0 k).val i = 0)
    ∧ ∃ c D, thermoF P exSquare (fun _ => 1) [1, 2] [3, 4] alpha T (exAffine 0 0) (exAffine c D) ≠ 0 := by
  have hz : ∀ k ∈ [1, 2] ++ [3, 4], ∀ i < 2, (exAffine 0 0 k).val i = 0 := by
    intro k _ i _
    simp [exAffine]
  have hb : ∀ c D, quadSum exSquare.cells exSquare.wt (fun k => thermoWork 2 (shearModulus 2 0) (lameFirst true 2 0)
        1 (exAffine 0 0 k).grad ((fun _ => 1 : ℕ → ℝ) k) (exAffine c D k).grad)
      = quadSum ([1, 2] ++ [3, 4]) exSquare.wt (fun k => ∑ i ∈ range 2, thermoTraction 2 (shearModulus 2 0)
        (lameFirst true 2 0) 1 (exAffine 0 0 k).grad ((fun _ => 1 : ℕ → ℝ) k) (exSquare.n k) i * (exAffine c D k).val i) := by
    intro c D
    simp [quadSum, exSquare, exAffine, thermoWork, stressWork, thermoTraction, traction, stress, strain, thermalStress, sum_range_succ,
      shearModulus, lameFirst]
    ring
  refine ⟨⟨2, true, 2, 0, 1, 10, 0, 0, true⟩, 1, fun _ => 1, rfl, by norm_num, by norm_num, hb, hz,
    0, fun i j => if i = j then 1 else 0, ?_⟩
  rw [C175_form _ _ _ _ _ _ _ _ _ hz]
  dsimp only
  rw [hb, sub_self, zero_sub]
  simp [quadSum, exSquare, exAffine, thermalStress, sum_range_succ, shearModulus, lameFirst]

/-- The hypotheses of `C175_cold_partial` hold for the square heated in the middle. -/
example : (∀ k ∈ [1, 2] ++ [3, 4], ∀ i < 2, (exAffine 0 0 k).val i = 0)
    ∧ (∀ k ∈ [1, 2] ++ [3, 4], (if k = 0 then 1 else 0 : ℝ) = 0) ∧ (if (0 : ℕ) = 0 then 1 else 0 : ℝ) = 1 := by
  refine ⟨fun k _ i _ => by simp [exAffine], fun k hk => ?_, if_pos rfl⟩
  rw [if_neg]
  rintro rfl
  simp at hk

/-! ### Examples for C172 and C173 -/

/-- Two bodies with dofs 0, 1 and 2, 3; temperature `g` is prescribed at dof 0. -/
def exH (g : ℝ) : Thermal where
  numDofs := 4
  mass := fun d c => if d = c then 1 else 0
  grad := fun d c => if d = c then 1 else if d + c = 1 ∨ d + c = 5 then -1 else 0
  kdt := 1 / 10
  tau := 1
  bc := fun d => if d = 0 then some g else none
  solve := fun A b _ => TieData.exSolve 4 A b

theorem exH_positive (g : ℝ) : StepPositive (exH g) := by
  rintro v - ⟨d, hd, hv⟩
  have e : formOf (exH g).numDofs (exH g).numDofs (exH g).mass v v
      + (exH g).kdt * (exH g).tau * formOf (exH g).numDofs (exH g).numDofs (exH g).grad v v
      = v 0 ^ 2 + v 1 ^ 2 + v 2 ^ 2 + v 3 ^ 2 + 1 / 10 * ((v 0 - v 1) ^ 2 + (v 2 - v 3) ^ 2) := by
    simp [formOf, exH, sum_range_succ]
    ring
  dsimp only
  rw [e]
  have h4 : d < 4 := hd
  have hp : 0 < v d ^ 2 := by positivity
  have : d = 0 ∨ d = 1 ∨ d = 2 ∨ d = 3 := by omega
  rcases this with rfl | rfl | rfl | rfl <;> positivity

theorem exH_solves (g : ℝ) : SolvesAll (exH g) := fun _ => TieData.exSolve_solver 4

theorem exH_separate (g : ℝ) : Separate (exH g) (fun d => 2 ≤ d) := by
  intro d hd c hc h
  have h1 : d ≠ c := by rintro rfl; exact h Iff.rfl
  have h2 : ¬(d + c = 1 ∨ d + c = 5) := by
    have : d < 4 := hd
    have : c < 4 := hc
    omega
  exact ⟨if_neg h1, by show (if d = c then (1 : ℝ) else if d + c = 1 ∨ d + c = 5 then -1 else 0) = 0; rw [if_neg h1, if_neg h2]⟩

/-- The solution of the linear system of the first time step: free expansion. -/
def exStepT (d : ℕ) : ℝ := -exK 1 d

def exSettingT : Setting Unit := ⟨12, fun _ _ _ => (exStepT, 1, 1), fun _ => ()⟩

def exFirstT : State Unit :=
  driverCoefficients (exR 2 0) (fun _ => 0) (history (exR 2 0).static [.generate (exGen 0)] (init (exR 2 0).static ()))

/-- Springs at all dofs, and forces for the temperature at dof 0. -/
def exForceT (d : ℕ) : ℝ :=
  contactVector (exR 2 0) exFirstT d - ∑ c ∈ range 12, contactMatrix (exR 2 0) exFirstT (d, c) * exStepT c - exStepT d

def exMech : Mechanical := ⟨fun d c => if d = c then 1 else 0, fun d c => if c = 0 then exForceT d else 0⟩

/-- The load case of the first time step. -/
def exHeated : LoadCase := heated exSettingT (exH 1) exMech ((exH 1).step fun _ => 0)

theorem exHeated_linear : LinearBulk exHeated 12 (fun d c => if d = c then 1 else 0) exForceT := by
  refine ⟨fun w d hd => ?_, fun _ _ _ _ _ => rfl⟩
  have h1 : (exH 1).step (fun _ => 0) 0 = 1 :=
    (C172_temperature (exH_positive 1) (exH_solves 1) (fun _ => 0)).1 0 (by show 0 < 4; omega) 1 rfl
  show ∑ c ∈ range 12, (if d = c then 1 else 0) * w c - ∑ c ∈ range 4, (if c = 0 then exForceT d else 0) * (exH 1).step (fun _ => 0) c = _
  congr 1
  rw [sum_eq_single_of_mem 0 (by simp) (fun c _ hc => by rw [if_neg hc, zero_mul]), if_pos rfl, h1, mul_one]

theorem exHeated_solved : SolvesExactly exSettingT (driverJacobian (exR 2 0) exHeated (fun _ => 0) (fun _ => 0) exFirstT)
    (driverResidual (exR 2 0) exSettingT exHeated (fun _ => 0) (fun _ => 0) exFirstT) 0 := by
  refine ⟨by simp [exSettingT], fun d hd => ?_⟩
  have hd : d < 12 := hd
  show ∑ c ∈ range 12, driverJacobian (exR 2 0) exHeated (fun _ => 0) (fun _ => 0) exFirstT (d, c) * exStepT c = _
  rw [driverResidual_free (exR 2 0) (show exHeated.bc d = none from rfl)]
  have e1 : ∑ c ∈ range exSettingT.numDofs, (exHeated.bc c).elim 0 (fun g => exHeated.stiff (fun c => 0 + 0) d c * (g - 0)) = 0 :=
    sum_eq_zero (fun c _ => rfl)
  have e2 : ∑ c ∈ range 12, driverJacobian (exR 2 0) exHeated (fun _ => 0) (fun _ => 0) exFirstT (d, c) * exStepT c
      = ∑ c ∈ range 12, contactMatrix (exR 2 0) exFirstT (d, c) * exStepT c + ∑ c ∈ range 12, (if c = d then exStepT c else 0) := by
    rw [← sum_add_distrib]
    refine sum_congr rfl (fun c _ => ?_)
    unfold driverJacobian
    by_cases hdc : c = d
    · subst hdc; simp [exHeated, heated, exMech]; ring
    · simp [exHeated, heated, exMech, hdc, Ne.symm hdc]
  have e3 := exHeated_linear.1 (fun c => 0 + 0) d hd
  rw [e1, e2, sum_ite_eq' (range 12) d, if_pos (mem_range.mpr hd), e3]
  unfold exForceT
  simp
  ring

theorem exHeated_status : SameStatus (exR 2 0) ((Tracked.new ()).history [.generate (exGen 0)]) .frictionless 1 (fun _ => 0)
    (fun d => 0 + -exStepT d) := by
  obtain ⟨p, hp⟩ : ∃ p, p = pointAt (exR 2 0) ((Tracked.new ()).history [.generate (exGen 0)]) 0 0 0 2 0 := ⟨_, rfl⟩
  obtain ⟨hg, hh, hmu, hlam, hn0, hn1, hg0, hg1, ho0, ho1, hgr⟩ := exGen_point 0 hp
  have hx : (fun d => 0 + -exStepT d) = exK 1 := by funext d; simp [exStepT]
  rw [hx]
  have dot : ∀ x : ℕ → ℝ, p.dot x = -x 1 := by
    intro x
    unfold ContactPoint.dot
    rw [hg, sum_range_succ, sum_range_one, hn0, hn1]
    ring
  have key : ∀ k, p.pressure 1 (jumpAt (exR 2 0) () 0 0 0 2 (exK k) 0) (fun a b => gradAt (exR 2 0) 0 2 (exK k) 0 a b + p.grad0 a b)
      = -2 - 16 * k := by
    intro k
    obtain ⟨-, t1⟩ := exK_trac hg hmu hlam ho0 ho1 (k := k)
      (D := fun a b => gradAt (exR 2 0) 0 2 (exK k) 0 a b + p.grad0 a b)
      (fun a ha b hb => by rw [exK_grad k ha hb, hgr a ha b hb, add_zero])
    rw [ContactPoint.pressure, hh]
    simp only [dot, t1, hg1, exK_jump k (a := 1) (by omega)]
    ring
  have h0 : (fun _ => 0 : ℕ → ℝ) = exK 0 := by
    funext d
    unfold exK
    split <;> simp
  rw [h0]
  have : AtLinked (exR 2 0) ((Tracked.new ()).history [.generate (exGen 0)]) (fun i e cell f q =>
    (pointAt (exR 2 0) ((Tracked.new ()).history [.generate (exGen 0)]) i e cell f q).SameStatus .frictionless 1
      (jumpAt (exR 2 0) () i e cell f (exK 0) q) (fun a b => gradAt (exR 2 0) cell f (exK 0) q a b
        + (pointAt (exR 2 0) ((Tracked.new ()).history [.generate (exGen 0)]) i e cell f q).grad0 a b)
      (jumpAt (exR 2 0) () i e cell f (exK 1) q) (fun a b => gradAt (exR 2 0) cell f (exK 1) q a b
        + (pointAt (exR 2 0) ((Tracked.new ()).history [.generate (exGen 0)]) i e cell f q).grad0 a b)) := by
    refine exR_only ?_
    rw [← hp]
    refine ⟨?_, fun h => absurd rfl h⟩
    rw [key, key]
    norm_num
  exact this

theorem startRun_coeffs (Y : System G) (Z : Setting G) (a : GenArgs G) (opts : Newton.Opts) :
    (startRun Y Z a opts).solver.coeffs = history Y.static [.generate a] (init Y.static (Z.place fun _ => 0)) := rfl

theorem coefficients_history (Y : System G) (x : ℕ → ℝ) (ops : List (Op G)) (s : State G) :
    driverCoefficients Y x (history Y.static ops s) = history Y.static (ops ++ [.updateData (Y.du x)]) s := by
  rw [history_snoc]
  rfl

theorem exHeated_run : ∃ s', Newton.solve (driverProblem (exR 2 0) exSettingT exHeated (fun _ => 0)) true .function
    (startRun (exR 2 0) exSettingT (exGen 0) exOpts).solver = (s', .ok (1, true)) ∧ s'.x = fun d => 0 + -exStepT d := by
  have hs : (startRun (exR 2 0) exSettingT (exGen 0) exOpts).solver.coeffs
      = history (exR 2 0).static [.generate (exGen 0)] (init (exR 2 0).static ()) :=
    startRun_coeffs _ _ _ _
  have hc : exFirstT = history (exR 2 0).static ([.generate (exGen 0)] ++ [.updateData ((exR 2 0).du fun _ => 0)])
      (init (exR 2 0).static ()) := coefficients_history _ _ _ _
  obtain ⟨s', n, h1, h2, h0, h3⟩ := C141_one_step (exR_valid 2 0) [.generate (exGen 0)] (exGen_shaped 0) () .frictionless rfl
    (fun h => absurd rfl h) 1 0 rfl rfl exSettingT (exR_below 2 0) exHeated (fun _ => 0) _ _ exHeated_linear
    (fun d _ hb => absurd rfl hb) true (startRun (exR 2 0) exSettingT (exGen 0) exOpts).solver hs exFirstT hc _ rfl _ rfl exStepT rfl
    exHeated_solved exHeated_status (Or.inr (Or.inl (by simp [startRun])))
    rfl (by norm_num [startRun, exOpts]) (by norm_num [startRun, exOpts]) (by norm_num [startRun, exOpts])
    (by
      simp only [norm2, exSettingT, exStepT, ne_eq, Real.sqrt_eq_zero', not_le]
      refine lt_of_lt_of_le (b := (-exK 1 2) ^ 2) (by norm_num [exK]) ?_
      exact single_le_sum (f := fun d => (-exK 1 d) ^ 2) (fun i _ => by positivity) (by simp))
  have hn : n ≠ 0 := by
    intro hn
    exact (h0 hn).2.1 rfl
  obtain rfl : n = 1 := by omega
  exact ⟨s', h1, (h3 rfl).1⟩

/-- The first time step of the simulation: the triangles expand freely. -/
theorem exSimulate (n : ℕ) : ∃ R, (simulate (exR 2 0) exSettingT (exH 1) exMech true (fun _ => ⟨1, 1, fun _ _ => 3⟩)
      (fun _ => ⟨1, 1, fun _ _ => 5⟩) (fun _ => ⟨1, 1, fun _ _ => 1⟩) 1 0 exOpts (n + 1)).1[0]? = some R
    ∧ R.mech.converged = true ∧ R.temp 0 = 1 ∧ R.mech.du = exK 1 := by
  obtain ⟨s', h, hx⟩ := exHeated_run
  have H : BeforeStep (exR 2 0) exSettingT (vals fun _ => ⟨1, 1, fun _ _ => 3⟩) (vals fun _ => ⟨1, 1, fun _ _ => 5⟩)
      (fun _ _ _ => 0) (vals fun _ => ⟨1, 1, fun _ _ => 1⟩) .frictionless 1 0 true exOpts (fun _ => 0)
      (startRun (exR 2 0) exSettingT (exGen 0) exOpts) :=
    ⟨Or.inr (Or.inl (by simp [startRun])), rfl, [.generate (exGen 0)], exGen_shaped 0, rfl, rfl, rfl,
      rfl, rfl, rfl, rfl, rfl, rfl, rfl, rfl⟩
  have key : ∃ R r, loadStep (exR 2 0) exSettingT true exHeated (startRun (exR 2 0) exSettingT (exGen 0) exOpts) = .ok (R, r)
      ∧ R.converged = true ∧ R.du = exK 1 := by
    have h' : Newton.solve (driverProblem (exR 2 0) exSettingT exHeated (startRun (exR 2 0) exSettingT (exGen 0) exOpts).u) true
      .function (startRun (exR 2 0) exSettingT (exGen 0) exOpts).solver = (s', .ok (1, true)) := h
    rcases loadStep_ok (exR_valid 2 0) (fun h => absurd rfl h) (exR_below 2 0) rfl (L := exHeated) H with ⟨e, he⟩ | ⟨R, r, hR, -⟩
    · unfold loadStep at he
      rw [h'] at he
      dsimp only at he
      split at he
      · cases he
      · split at he <;> cases he
    · refine ⟨R, r, hR, ?_⟩
      unfold loadStep at hR
      rw [h'] at hR
      dsimp only at hR
      split at hR
      · cases hR
      · split at hR
        · cases hR
        · obtain ⟨rfl, -⟩ := Prod.mk.inj (Except.ok.inj hR)
          refine ⟨rfl, ?_⟩
          show s'.x = _
          rw [hx]
          funext d
          simp [exStepT]
  obtain ⟨R, r, hR, h1, h2⟩ := key
  refine ⟨⟨fun _ => 0, (exH 1).step fun _ => 0, R⟩, ?_, h1, ?_, h2⟩
  · have hR' : loadStep (exR 2 0) exSettingT true (heated exSettingT (exH 1) exMech ((exH 1).step fun _ => 0))
        (startRun (exR 2 0) exSettingT ⟨.frictionless, some fun _ => ⟨1, 1, fun _ _ => 3⟩, some fun _ => ⟨1, 1, fun _ _ => 5⟩, none,
          some ((exR 2 0).packGrad fun _ => 0), some ((exR 2 0).du fun _ => 0), fun _ => ⟨1, 1, fun _ _ => 1⟩, 1, 0⟩ exOpts)
        = .ok (R, r) := hR
    unfold simulate timeSteps
    dsimp only
    rw [hR']
    rfl
  · exact (C172_temperature (exH_positive 1) (exH_solves 1) (fun _ => 0)).1 0 (by show 0 < 4; omega) 1 rfl

/-- The hypotheses of C172 hold for a simulation of two bodies one of which is heated, and the first time step converges. -/
example (n : ℕ) : System.Valid (exR 2 0) ∧ DofsBelow (exR 2 0) exSettingT.numDofs
    ∧ OpShaped (exR 2 0).static (.generate (exGen 0)) ∧ exOpts.crit = .residual ∧ StepPositive (exH 1) ∧ SolvesAll (exH 1)
    ∧ ∃ R, (simulate (exR 2 0) exSettingT (exH 1) exMech true (fun _ => ⟨1, 1, fun _ _ => 3⟩)
      (fun _ => ⟨1, 1, fun _ _ => 5⟩) (fun _ => ⟨1, 1, fun _ _ => 1⟩) 1 0 exOpts (n + 1)).1[0]? = some R
    ∧ R.mech.converged = true ∧ R.temp 0 = 1 ∧ R.mech.du = exK 1 :=
  ⟨exR_valid 2 0, exR_below 2 0, exGen_shaped 0 _ (by simp), rfl, exH_positive 1, exH_solves 1, exSimulate n⟩

/-- Those of `C173_independent`: the same second body beside a first body with another prescribed temperature. -/
example : StepPositive (exH 1) ∧ SolvesAll (exH 1) ∧ StepPositive (exH 7) ∧ SolvesAll (exH 7) ∧ Separate (exH 1) (fun d => 2 ≤ d)
    ∧ Separate (exH 7) (fun d => 2 ≤ d) ∧ SameBody (exH 1) (exH 7) (fun d => 2 ≤ d) := by
  refine ⟨exH_positive 1, exH_solves 1, exH_positive 7, exH_solves 7, exH_separate 1, exH_separate 7, rfl, rfl, rfl, fun d hd => ?_,
    fun _ _ _ _ => ⟨rfl, rfl⟩⟩
  show (if d = 0 then some 1 else none : Option ℝ) = if d = 0 then some 7 else none
  rw [if_neg (by omega), if_neg (by omega)]

/-- Those of `C173_conserved`. -/
example : StepPositive (exH 1) ∧ SolvesAll (exH 1) ∧ (∀ d < (exH 1).numDofs, 2 ≤ d → (exH 1).bc d = none)
    ∧ ∀ u, formOf (exH 1).numDofs (exH 1).numDofs (exH 1).grad u (inBody (fun d => 2 ≤ d) fun _ => 1) = 0 := by
  refine ⟨exH_positive 1, exH_solves 1, fun d _ hd => if_neg (by omega), fun u => ?_⟩
  simp [formOf, exH, sum_range_succ, inBody]
  ring

end

end Verif.ThermoContact
