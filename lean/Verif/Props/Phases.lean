import Verif.Props.LastStep
import Verif.Spec.Phases

/-!
C219: a contact computation in phases.
-/

namespace Verif.ContactProblem

open Verif.Spec Finset Verif.Packing Verif.Assembly

variable {G : Type} {Y : System G} {Z : Setting G} {rank0 : Bool} {opts : Newton.Opts}

theorem lastLaw_snoc (ops : List (Op G)) (a : GenArgs G) (l : Option Law) :
    lastLaw (ops ++ [.generate a]) l = some a.law := by
  induction ops generalizing l with
  | nil => rfl
  | cons o ops ih => cases o <;> exact ih _

/-- One load step of a phase. -/
theorem phaseStep_ok {mu lam fric h : Packed} {law : Law} {gamma theta : ℝ}
    (hY : System.Valid Y) (h23 : law ≠ .frictionless → Y.gdim = 2 ∨ Y.gdim = 3)
    (hN : DofsBelow Y Z.numDofs) (hcrit : opts.crit = .residual) {S : PhaseStep} {uold : ℕ → ℝ} {r : Run G}
    (H : BeforeStep Y Z mu lam fric h law gamma theta rank0 opts uold r) :
    (∃ e, phaseStep Y Z rank0 S r = .error (.newton e))
    ∨ ∃ R r', phaseStep Y Z rank0 S r = .ok (R, r') ∧ R.before = r.u ∧ r'.u = (fun d => r.u d + R.du d)
      ∧ BeforeStep Y Z mu lam fric h law gamma theta rank0 opts r.u r'
      ∧ (R.converged = true → Balanced Y (stepData Y Z.place mu lam fric h r.u uold) law gamma theta S.load Z.numDofs
        r.u R.du opts.atol) := by
  obtain ⟨hready, hopts, ops, hops, hlaw, hconsts, hco, hsame⟩ := H
  have hcr : ((Tracked.new (Z.place fun _ => 0)).history ops).created = true := hsame.created
  obtain ⟨Z', hZ'⟩ : ∃ Z' : Setting G, Z' = { Z with linSolve := S.linSolve } := ⟨_, rfl⟩
  obtain ⟨r0, hr0⟩ : ∃ r0, r0 = { r.solver with x := presetBc S.preset r.solver.x } := ⟨_, rfl⟩
  have hco0 : r0.coeffs = history Y.static ops (init Y.static (Z.place fun _ => 0)) := by rw [hr0]; exact hco
  have hopts0 : r0.opts = opts := by rw [hr0]; exact hopts
  have hready0 : Newton.Ready rank0 r0 := by rw [hr0]; exact hready
  have hN' : DofsBelow Y Z'.numDofs := by rw [hZ']; exact hN
  have hn : Z'.numDofs = Z.numDofs := by rw [hZ']
  have hfresh := Newton.solve_fresh (P := driverProblem Y Z' S.load r.u) (I := Reached Y ops (Z.place fun _ => 0)) (fun _ => rfl)
    (fun x c hc => reached_coefficients x c hc) (fun _ => rfl) rank0 r0 ⟨[], by rw [hco0]; simp [updates]⟩
  have hbal := fun n hn => (C139_converged hY ops hops _ law hlaw h23 gamma theta hconsts hcr Z' hN' S.load r.u rank0 r0 hco0
    hready0 (by rw [hopts0]; exact hcrit) n hn).1
  have hre := fun n c hn => Newton.solve_ready (driverProblem Y Z' S.load r.u) rank0 r0 n c hready0 hn
  unfold phaseStep
  rw [← hZ', ← hr0]
  generalize Newton.solve (driverProblem Y Z' S.load r.u) rank0 .function r0 = out at *
  obtain ⟨s, res⟩ := out
  cases res with
  | error e => exact Or.inl ⟨e, rfl⟩
  | ok p =>
    obtain ⟨n, conv⟩ := p
    right
    dsimp only at hfresh hbal hre ⊢
    obtain ⟨us, hus⟩ := hfresh.inv (fun x c hc => reached_coefficients x c hc)
    obtain ⟨x, hx⟩ : ∃ x, x = s.x := ⟨_, rfl⟩
    rw [← hx] at hbal ⊢
    obtain ⟨u', hu'⟩ : ∃ u' : ℕ → ℝ, u' = fun d => r.u d + x d := ⟨_, rfl⟩
    rw [← hu']
    obtain ⟨ops1, hops1⟩ : ∃ ops1, ops1 = ops ++ updates Y us := ⟨_, rfl⟩
    rw [← hops1] at hus
    have sh1 : ∀ op ∈ ops1, OpShaped Y.static op := by rw [hops1]; exact updates_shaped hY hops us
    have sd1 : SameData (stepData Y Z.place mu lam fric h r.u uold) ((Tracked.new (Z.place fun _ => 0)).history ops1) := by
      rw [hops1]; exact hsame.trans (SameData.updates ops us _)
    have G1 := good_history (static_shaped hY) ops1 sh1 (good_init Y.static (Z.place fun _ => 0))
    have hgu : GradShaped Y.static (Y.packGrad u') := (du_shaped hY u').grad
    obtain ⟨c2, k2, G2⟩ := good_updateDetection (static_shaped hY) (fun _ => Z.place u') hgu G1 sd1.created
    obtain ⟨c3, k3, -⟩ := good_updateData (static_shaped hY) (du_shaped hY (fun d => S.factor * x d)) G2 sd1.created
    rw [hus, k2]
    dsimp only
    rw [k3]
    dsimp only
    refine ⟨_, _, rfl, rfl, ?_, ⟨?_, ?_, ops1 ++ [.updateDetection (fun _ => Z.place u') (Y.packGrad u')]
      ++ [.updateData (Y.du (fun d => S.factor * x d))], ?_, ?_, ?_, ?_, ?_⟩, ?_⟩
    · exact hu'
    · have := (hre n conv rfl).1
      rcases this with h | h | h
      · exact Or.inl h
      · exact Or.inr (Or.inl h)
      · exact Or.inr (Or.inr h)
    · exact ((hre n conv rfl).2).trans hopts0
    · intro op hop
      simp only [List.mem_append, List.mem_singleton] at hop
      rcases hop with (hop | rfl) | rfl
      · exact sh1 op hop
      · exact hgu
      · exact du_shaped hY _
    · have e1 : lastLaw ops1 none = some law := by rw [hops1, updates_law, hlaw]
      exact (updates_law (Y := Y) _ [fun d => S.factor * x d] none).trans ((lastLaw_detection ops1 _ _ none).trans e1)
    · have e1 : lastConsts ops1 none = some (gamma, theta) := by rw [hops1, updates_consts, hconsts]
      exact (updates_consts (Y := Y) _ [fun d => S.factor * x d] none).trans ((lastConsts_detection ops1 _ _ none).trans e1)
    · have e2 : call Y.static (.updateDetection (fun _ => Z.place u') (Y.packGrad u'))
          (history Y.static ops1 (init Y.static (Z.place fun _ => 0))) = .ok c2 := k2
      have e3 : call Y.static (.updateData (Y.du (fun d => S.factor * x d))) c2 = .ok c3 := k3
      rw [history_snoc, history_snoc, e2]
      unfold after
      dsimp only
      rw [e3]
    · rw [tracked_snoc, tracked_detection ops1 _ _ _ sd1.created]
      refine SameData.trans ?_ (SameData.update _ _)
      exact ⟨sd1.created, rfl, sd1.cur, sd1.mu, sd1.lam, sd1.fric, sd1.h, rfl⟩
    · intro hconv
      dsimp only at hconv
      subst hconv
      have hb := hbal n rfl
      rw [hn] at hb
      refine ⟨hopts0 ▸ hb.1, fun v hv => ?_⟩
      have := hb.2 v hv
      rw [hsame.form, hopts0] at this
      exact this

/-- The arguments of `generate_contact_data`. -/
theorem phase_shaped (hY : System.Valid Y) {P : Phase} (hP : PhaseShaped Y.static P) (u x : ℕ → ℝ) :
    OpShaped Y.static (.generate ⟨P.law, some P.mu, some P.lam, P.fric, some (Y.packGrad u), some (Y.du x), P.h,
      P.gamma, P.theta⟩) := by
  obtain ⟨h1, h2, h3, h4⟩ := hP
  refine ⟨?_, ?_, h3, h4, ?_, ?_⟩
  · rintro m ⟨⟩; exact h1
  · rintro m ⟨⟩; exact h2
  · rintro m ⟨⟩; exact (du_shaped hY u).grad
  · rintro m ⟨⟩; exact du_shaped hY x

/-- A new phase begins. -/
theorem beginPhase_ok {mu lam fric h : Packed} {law : Law} {gamma theta : ℝ} (hY : System.Valid Y) {P : Phase}
    (hP : PhaseShaped Y.static P) {uold : ℕ → ℝ} {r : Run G}
    (H : BeforeStep Y Z mu lam fric h law gamma theta rank0 opts uold r) :
    BeforeStep Y Z (vals P.mu) (vals P.lam) (P.fric.elim fric vals) (vals P.h) P.law P.gamma P.theta rank0 opts uold
      (beginPhase Y P r) := by
  obtain ⟨hready, hopts, ops, hops, hlaw, hconsts, hco, hsame⟩ := H
  obtain ⟨a, ha⟩ : ∃ a : GenArgs G, a = ⟨P.law, some P.mu, some P.lam, P.fric, some (Y.packGrad r.u),
    some (Y.du r.solver.x), P.h, P.gamma, P.theta⟩ := ⟨_, rfl⟩
  refine ⟨hready, hopts, ops ++ [.generate a], ?_, ?_, ?_, ?_, ?_⟩
  · intro op hop
    rcases List.mem_append.mp hop with hop | hop
    · exact hops op hop
    · rw [List.mem_singleton.mp hop, ha]; exact phase_shaped hY hP _ _
  · rw [lastLaw_snoc, ha]
  · have : ∀ (ops : List (Op G)) (l : Option (ℝ × ℝ)), lastConsts (ops ++ [.generate a]) l = some (a.gamma, a.theta) := by
      intro ops
      induction ops with
      | nil => intro l; rfl
      | cons o ops ih => intro l; cases o <;> exact ih _
    rw [this, ha]
  · rw [history_snoc, ← hco, ha]
    rfl
  · rw [tracked_snoc, ha]
    unfold Tracked.call
    dsimp only
    refine ⟨rfl, hsame.cur, ?_, rfl, rfl, ?_, rfl, rfl⟩
    · show (if ((Tracked.new (Z.place fun _ => 0)).history ops).created then _ else _) = _
      rw [if_pos (show ((Tracked.new (Z.place fun _ => 0)).history ops).created = true from hsame.created)]
      exact hsame.prev
    · cases hf : P.fric with
      | none => simp only [Tracked.setDu, Option.elim_none]; exact hsame.fric
      | some f => simp only [Tracked.setDu, Option.elim_some]; rfl

/-- The first phase. -/
theorem firstPhase_ok (hY : System.Valid Y) {P : Phase} (hP : PhaseShaped Y.static P) :
    BeforeStep Y Z (vals P.mu) (vals P.lam) (P.fric.elim (fun _ _ _ => 0) vals) (vals P.h) P.law P.gamma P.theta rank0
      opts (fun _ => 0) (beginPhase Y P (newRun Y Z opts)) := by
  refine ⟨Or.inr (Or.inl (by simp [newRun, beginPhase])), rfl, [.generate ⟨P.law, some P.mu, some P.lam, P.fric,
    some (Y.packGrad (fun _ => 0)), some (Y.du (fun _ => 0)), P.h, P.gamma, P.theta⟩], ?_, rfl, rfl, rfl, ?_⟩
  · intro op hop
    rw [List.mem_singleton.mp hop]
    exact phase_shaped hY hP _ _
  · simp only [Tracked.history, List.foldl_cons, List.foldl_nil]
    unfold Tracked.call
    dsimp only
    refine ⟨rfl, rfl, rfl, rfl, rfl, ?_, rfl, rfl⟩
    cases hf : P.fric with
    | none => rfl
    | some f => rfl

/-- Reports of the program. -/
theorem actions_ok (hY : System.Valid Y) (hN : DofsBelow Y Z.numDofs) (hcrit : opts.crit = .residual)
    (as : List Action) (has : ∀ Q, .begin Q ∈ as → PhaseShaped Y.static Q ∧ (Q.law ≠ .frictionless → Y.gdim = 2 ∨ Y.gdim = 3))
    (P : Phase) (hP : P.law ≠ .frictionless → Y.gdim = 2 ∨ Y.gdim = 3) (f : Packed) (uold : ℕ → ℝ) (r : Run G)
    (H : BeforeStep Y Z (vals P.mu) (vals P.lam) f (vals P.h) P.law P.gamma P.theta rank0 opts uold r) :
    (∀ e, (actions Y Z rank0 as r).2 ≠ some (.contact e))
    ∧ (actions Y Z rank0 as r).1.length ≤ (inEffect P f as).length
    ∧ ∀ (i : ℕ) (R : Report) (Q : Phase) (φ : Packed) (S : PhaseStep), (actions Y Z rank0 as r).1[i]? = some R →
      (inEffect P f as)[i]? = some (Q, φ, S) →
      R.before = (fun d => r.u d + totalAfter (actions Y Z rank0 as r).1 i d)
      ∧ (R.converged = true → Balanced Y (stepData Y Z.place (vals Q.mu) (vals Q.lam) φ (vals Q.h) R.before
          (if i = 0 then uold else fun d => r.u d + totalAfter (actions Y Z rank0 as r).1 (i - 1) d))
          Q.law Q.gamma Q.theta S.load Z.numDofs R.before R.du opts.atol) := by
  induction as generalizing P f uold r with
  | nil => exact ⟨fun e h => by simp [actions] at h, Nat.le_refl _, fun i R Q φ S h => by simp [actions] at h⟩
  | cons a as ih =>
    have has' : ∀ Q, .begin Q ∈ as → PhaseShaped Y.static Q ∧ (Q.law ≠ .frictionless → Y.gdim = 2 ∨ Y.gdim = 3) :=
      fun Q hQ => has Q (List.mem_cons_of_mem _ hQ)
    cases a with
    | «begin» Q0 =>
      have hQ := has Q0 (List.mem_cons_self)
      exact ih has' Q0 hQ.2 _ uold (beginPhase Y Q0 r) (beginPhase_ok hY hQ.1 H)
    | step S0 =>
      rcases phaseStep_ok hY hP hN hcrit (S := S0) H with ⟨e, he⟩ | ⟨R0, r', he, hbf, hru, H', hbal⟩
      · unfold actions
        rw [he]
        exact ⟨fun e' h => by simp at h, by simp, fun i R Q φ S h => by simp at h⟩
      · obtain ⟨i1, i0, i2⟩ := ih has' P hP f r.u r' H'
        have e1 : actions Y Z rank0 (.step S0 :: as) r
            = (R0 :: (actions Y Z rank0 as r').1, (actions Y Z rank0 as r').2) := by
          rw [actions, he]
        have e2 : inEffect P f (.step S0 :: as) = (P, f, S0) :: inEffect P f as := rfl
        rw [e1, e2]
        refine ⟨i1, by simpa using i0, fun i R Q φ S hR hL => ?_⟩
        have tot : ∀ k d, r.u d + totalAfter (R0 :: (actions Y Z rank0 as r').1) (k + 1) d
            = r'.u d + totalAfter (actions Y Z rank0 as r').1 k d := by
          intro k d
          rw [hru]
          simp only [totalAfter, List.take_succ_cons, List.map_cons, List.sum_cons]
          ring
        cases i with
        | zero =>
          simp only [List.getElem?_cons_zero, Option.some.injEq, Prod.mk.injEq] at hR hL
          obtain ⟨rfl, rfl, rfl⟩ := hL
          subst hR
          rw [hbf]
          refine ⟨by simp [totalAfter], fun hc => ?_⟩
          rw [if_pos rfl]
          exact hbal hc
        | succ k =>
          rw [List.getElem?_cons_succ] at hR hL
          obtain ⟨j1, j2⟩ := i2 k R Q φ S hR hL
          refine ⟨by rw [j1]; funext d; rw [tot], fun hc => ?_⟩
          have := j2 hc
          rw [if_neg (by omega), Nat.add_sub_cancel]
          cases k with
          | zero =>
            rw [if_pos rfl] at this
            have z : (fun d => r.u d + totalAfter (R0 :: (actions Y Z rank0 as r').1) 0 d) = r.u := by
              funext d; simp [totalAfter]
            rw [z]
            exact this
          | succ m =>
            rw [if_neg (by omega), Nat.add_sub_cancel] at this
            have z : (fun d => r.u d + totalAfter (R0 :: (actions Y Z rank0 as r').1) (m + 1) d)
                = fun d => r'.u d + totalAfter (actions Y Z rank0 as r').1 m d := by
              funext d; rw [tot]
            rw [z]
            exact this

/-- C219: a computation in phases (`demo_friction_cylinders.py`: first without friction, then with Coulomb
friction): the contact problem raises no exception, every load step starts from the sum of all increments so
far, also those of earlier phases, and in every load step reported as converged the increment satisfies the
equations of the step up to `atol` with the friction law, Nitsche parameters and material of its phase and the
friction coefficient given last, for the contact detected on the geometry moved by the sum. For all phases,
loads, initial guesses, linear solvers, numbers of steps. -/
theorem C219_phases (hY : System.Valid Y) (Z : Setting G) (hN : DofsBelow Y Z.numDofs) (opts : Newton.Opts)
    (hcrit : opts.crit = .residual) (rank0 : Bool) (P0 : Phase) (as : List Action)
    (hphases : ∀ Q, .begin Q ∈ .begin P0 :: as →
      PhaseShaped Y.static Q ∧ (Q.law ≠ .frictionless → Y.gdim = 2 ∨ Y.gdim = 3))
    (out : List Report × Option DriverErr) (hout : out = actions Y Z rank0 (.begin P0 :: as) (newRun Y Z opts)) :
    (∀ e, out.2 ≠ some (.contact e))
    ∧ ∀ (i : ℕ) (R : Report), out.1[i]? = some R → ∃ Q φ S,
      (inEffect P0 (P0.fric.elim (fun _ _ _ => 0) vals) as)[i]? = some (Q, φ, S)
      ∧ R.before = totalAfter out.1 i
      ∧ (R.converged = true → Balanced Y
          (stepData Y Z.place (vals Q.mu) (vals Q.lam) φ (vals Q.h) R.before (totalAfter out.1 (i - 1)))
          Q.law Q.gamma Q.theta S.load Z.numDofs R.before R.du opts.atol) := by
  have hout' : out = actions Y Z rank0 as (beginPhase Y P0 (newRun Y Z opts)) := hout
  obtain ⟨h1, h0, h2⟩ := actions_ok (rank0 := rank0) (opts := opts) hY hN hcrit as
    (fun Q hQ => hphases Q (List.mem_cons_of_mem _ hQ)) P0 (hphases P0 (List.mem_cons_self)).2 _ _ _
    (firstPhase_ok (Z := Z) hY (hphases P0 (List.mem_cons_self)).1)
  rw [← hout'] at h1 h0 h2
  refine ⟨h1, fun i R hR => ?_⟩
  have hi : i < (inEffect P0 (P0.fric.elim (fun _ _ _ => 0) vals) as).length := by
    have := (List.getElem?_eq_some_iff.mp hR).1
    omega
  obtain ⟨⟨Q, φ, S⟩, hS⟩ : ∃ t, (inEffect P0 (P0.fric.elim (fun _ _ _ => 0) vals) as)[i]? = some t :=
    ⟨_, List.getElem?_eq_getElem hi⟩
  refine ⟨Q, φ, S, hS, ?_⟩
  obtain ⟨k1, k2⟩ := h2 i R Q φ S hR hS
  have z : ∀ n, (fun d => (beginPhase Y P0 (newRun Y Z opts)).u d + totalAfter out.1 n d) = totalAfter out.1 n := by
    intro n
    funext d
    simp [beginPhase, newRun]
  rw [z] at k1 k2
  refine ⟨k1, fun hc => ?_⟩
  have := k2 hc
  cases i with
  | zero =>
    have z0 : totalAfter out.1 (0 - 1) = fun _ => 0 := by funext d; simp [totalAfter]
    rw [z0]
    exact this
  | succ k => exact this

/-- C219: prescribed displacements add up over the load steps of all phases: if dof `d` has a prescribed
increment `g i` in each of the first `n` load steps and all of them are reported as converged, the
displacement after them differs from the sum of the `g i` by at most `n` times `atol`. -/
theorem C219_prescribed (hY : System.Valid Y) (Z : Setting G) (hN : DofsBelow Y Z.numDofs) (opts : Newton.Opts)
    (hcrit : opts.crit = .residual) (rank0 : Bool) (P0 : Phase) (as : List Action)
    (hphases : ∀ Q, .begin Q ∈ .begin P0 :: as →
      PhaseShaped Y.static Q ∧ (Q.law ≠ .frictionless → Y.gdim = 2 ∨ Y.gdim = 3))
    (out : List Report × Option DriverErr) (hout : out = actions Y Z rank0 (.begin P0 :: as) (newRun Y Z opts))
    (n : ℕ) (hn : n ≤ out.1.length) (hconv : ∀ i < n, ∀ R, out.1[i]? = some R → R.converged = true)
    (d : ℕ) (hd : d < Z.numDofs) (g : ℕ → ℝ)
    (hg : ∀ i < n, ∀ Q φ S, (inEffect P0 (P0.fric.elim (fun _ _ _ => 0) vals) as)[i]? = some (Q, φ, S) →
      S.load.bc d = some (g i)) :
    |totalAfter out.1 n d - ∑ i ∈ range n, g i| ≤ n * opts.atol := by
  obtain ⟨-, h2⟩ := C219_phases hY Z hN opts hcrit rank0 P0 as hphases out hout
  induction n with
  | zero => simp [totalAfter]
  | succ n ih =>
    have ih := ih (by omega) (fun i hi => hconv i (by omega)) (fun i hi => hg i (by omega))
    obtain ⟨R, hR⟩ : ∃ R, out.1[n]? = some R := ⟨_, List.getElem?_eq_getElem (by omega)⟩
    obtain ⟨Q, φ, S, hS, -, hb⟩ := h2 n R hR
    have hlt := (hb (hconv n (by omega) R hR)).1 d hd (g n) (hg n (by omega) Q φ S hS)
    have e : totalAfter out.1 (n + 1) d = totalAfter out.1 n d + R.du d := by
      simp only [totalAfter, List.take_add_one, hR, Option.toList_some, List.map_append, List.sum_append, List.map_cons,
        List.map_nil, List.sum_cons, List.sum_nil, add_zero]
    rw [e, sum_range_succ, show totalAfter out.1 n d + R.du d - (∑ i ∈ range n, g i + g n)
      = (totalAfter out.1 n d - ∑ i ∈ range n, g i) + (R.du d - g n) by ring]
    refine (abs_add_le _ _).trans ?_
    push_cast
    linarith [hlt.le]

/-- With `error_on_nonconvergence` a step which does not converge raises. -/
theorem phaseStep_converged (herr : opts.errorOnNonconvergence = true) {S : PhaseStep} {r : Run G}
    (hready : Newton.Ready rank0 r.solver) (hopts : r.solver.opts = opts) {R : Report} {r' : Run G}
    (h : phaseStep Y Z rank0 S r = .ok (R, r')) : R.converged = true := by
  obtain ⟨r0, hr0⟩ : ∃ r0, r0 = { r.solver with x := presetBc S.preset r.solver.x } := ⟨_, rfl⟩
  have hready0 : Newton.Ready rank0 r0 := by rw [hr0]; exact hready
  have hopts0 : r0.opts = opts := by rw [hr0]; exact hopts
  have h65 := (Newton.C65_reporting (driverProblem Y { Z with linSolve := S.linSolve } S.load r.u) rank0 r0 hready0).2.1
  unfold phaseStep at h
  rw [← hr0] at h
  generalize Newton.solve (driverProblem Y { Z with linSolve := S.linSolve } S.load r.u) rank0 .function r0 = out at *
  obtain ⟨s, res⟩ := out
  cases res with
  | error e => cases h
  | ok p =>
    obtain ⟨n, conv⟩ := p
    dsimp only at h
    split at h
    · cases h
    · split at h
      · cases h
      · obtain ⟨rfl, -⟩ := Prod.mk.inj (Except.ok.inj h)
        cases conv with
        | true => rfl
        | false =>
          have := ((h65 n false rfl).2 rfl).1
          rw [hopts0, herr] at this
          cases this

theorem actions_ended (hY : System.Valid Y) (hN : DofsBelow Y Z.numDofs) (hcrit : opts.crit = .residual)
    (herr : opts.errorOnNonconvergence = true)
    (as : List Action) (has : ∀ Q, .begin Q ∈ as → PhaseShaped Y.static Q ∧ (Q.law ≠ .frictionless → Y.gdim = 2 ∨ Y.gdim = 3))
    (P : Phase) (hP : P.law ≠ .frictionless → Y.gdim = 2 ∨ Y.gdim = 3) (f : Packed) (uold : ℕ → ℝ) (r : Run G)
    (H : BeforeStep Y Z (vals P.mu) (vals P.lam) f (vals P.h) P.law P.gamma P.theta rank0 opts uold r) :
    (∀ R ∈ (actions Y Z rank0 as r).1, R.converged = true)
    ∧ ((actions Y Z rank0 as r).2 = none → (actions Y Z rank0 as r).1.length = (inEffect P f as).length) := by
  induction as generalizing P f uold r with
  | nil => exact ⟨fun R hR => by simp [actions] at hR, fun _ => rfl⟩
  | cons a as ih =>
    have has' : ∀ Q, .begin Q ∈ as → PhaseShaped Y.static Q ∧ (Q.law ≠ .frictionless → Y.gdim = 2 ∨ Y.gdim = 3) :=
      fun Q hQ => has Q (List.mem_cons_of_mem _ hQ)
    cases a with
    | «begin» Q0 =>
      have hQ := has Q0 (List.mem_cons_self)
      exact ih has' Q0 hQ.2 _ uold (beginPhase Y Q0 r) (beginPhase_ok hY hQ.1 H)
    | step S0 =>
      rcases phaseStep_ok hY hP hN hcrit (S := S0) H with ⟨e, he⟩ | ⟨R0, r', he, hbf, hru, H', hbal⟩
      · unfold actions
        rw [he]
        exact ⟨fun R hR => by simp at hR, fun h => by simp at h⟩
      · obtain ⟨i1, i2⟩ := ih has' P hP f r.u r' H'
        have e1 : actions Y Z rank0 (.step S0 :: as) r
            = (R0 :: (actions Y Z rank0 as r').1, (actions Y Z rank0 as r').2) := by
          rw [actions, he]
        rw [e1]
        refine ⟨fun R hR => ?_, fun h => ?_⟩
        · rcases List.mem_cons.mp hR with rfl | hR
          · exact phaseStep_converged herr H.ready H.opts he
          · exact i1 R hR
        · rw [List.length_cons, i2 h]
          rfl

/-- C219: with `error_on_nonconvergence` every load step that is reported has converged, and if no exception ends
the program all load steps are. -/
theorem C219_ended (hY : System.Valid Y) (Z : Setting G) (hN : DofsBelow Y Z.numDofs) (opts : Newton.Opts)
    (hcrit : opts.crit = .residual) (herr : opts.errorOnNonconvergence = true) (rank0 : Bool) (P0 : Phase) (as : List Action)
    (hphases : ∀ Q, .begin Q ∈ .begin P0 :: as →
      PhaseShaped Y.static Q ∧ (Q.law ≠ .frictionless → Y.gdim = 2 ∨ Y.gdim = 3))
    (out : List Report × Option DriverErr) (hout : out = actions Y Z rank0 (.begin P0 :: as) (newRun Y Z opts)) :
    (∀ R ∈ out.1, R.converged = true)
    ∧ (out.2 = none → out.1.length = (inEffect P0 (P0.fric.elim (fun _ _ _ => 0) vals) as).length) := by
  have hout' : out = actions Y Z rank0 as (beginPhase Y P0 (newRun Y Z opts)) := hout
  rw [hout']
  exact actions_ended hY hN hcrit herr as (fun Q hQ => hphases Q (List.mem_cons_of_mem _ hQ)) P0
    (hphases P0 (List.mem_cons_self)).2 _ _ _ (firstPhase_ok (Z := Z) hY (hphases P0 (List.mem_cons_self)).1)

/-! ### the two cylinders -/

theorem inEffect_steps (P : Phase) (f : Packed) (l : List ℕ) (S : ℕ → PhaseStep) (as : List Action) :
    inEffect P f (l.map (fun i => .step (S i)) ++ as) = l.map (fun i => (P, f, S i)) ++ inEffect P f as := by
  induction l with
  | nil => rfl
  | cons i l ih => rw [List.map_cons, List.cons_append, inEffect, ih]; rfl

/-- The boundary conditions of the load steps of the two cylinders. -/
theorem cylinders_bc {D : CylinderDofs} {bulk : (ℕ → ℝ) → ℕ → ℝ} {stiff : (ℕ → ℝ) → ℕ → ℕ → ℝ}
    {lin1 lin2 : (ℕ × ℕ → ℝ) → (ℕ → ℝ) → (ℕ → ℝ) → (ℕ → ℝ) × ℕ × ℤ} {h : ℝ} {P1 P2 : Phase} {as : List Action}
    (has : .begin P1 :: as = cylinders D bulk stiff lin1 lin2 h P1 P2) (f : Packed) (i : ℕ) (Q : Phase) (φ : Packed)
    (S : PhaseStep) (hS : (inEffect P1 f as)[i]? = some (Q, φ, S)) :
    (i < 4 ∧ Q = P1 ∧ φ = f ∧ S.load = ⟨bulk, stiff, cylinderBc1 D (pair 0 (-0.2 / 4))⟩)
    ∨ (4 ≤ i ∧ i < 100 ∧ Q = P2 ∧ φ = P2.fric.elim f vals
      ∧ S.load = ⟨bulk, stiff, cylinderBc2 D (pair (6 * 0.05 / 96) 0)⟩) := by
  simp only [cylinders, List.singleton_append, List.cons_append, List.nil_append, List.append_assoc, List.cons.injEq,
    true_and] at has
  rw [has, inEffect_steps, inEffect, ← List.append_nil (List.map _ (List.range (6 * 16))), inEffect_steps] at hS
  by_cases h4 : i < 4
  · left
    rw [List.getElem?_append_left (by simpa using h4), List.getElem?_map, List.getElem?_range h4] at hS
    simp only [Option.map_some, Option.some.injEq, Prod.mk.injEq] at hS
    obtain ⟨rfl, rfl, rfl⟩ := hS
    refine ⟨h4, rfl, rfl, ?_⟩
    norm_num
  · right
    rw [List.getElem?_append_right (by simpa using h4), inEffect, List.append_nil, List.length_map, List.length_range,
      List.getElem?_map] at hS
    by_cases h100 : i - 4 < 6 * 16
    · rw [List.getElem?_range h100] at hS
      simp only [Option.map_some, Option.some.injEq, Prod.mk.injEq] at hS
      obtain ⟨rfl, rfl, rfl⟩ := hS
      refine ⟨by omega, by omega, rfl, rfl, ?_⟩
      norm_num
    · rw [List.getElem?_eq_none (by simpa using h100)] at hS
      simp at hS

theorem cylinders_length {D : CylinderDofs} {bulk : (ℕ → ℝ) → ℕ → ℝ} {stiff : (ℕ → ℝ) → ℕ → ℕ → ℝ}
    {lin1 lin2 : (ℕ × ℕ → ℝ) → (ℕ → ℝ) → (ℕ → ℝ) → (ℕ → ℝ) × ℕ × ℤ} {h : ℝ} {P1 P2 : Phase} {as : List Action}
    (has : .begin P1 :: as = cylinders D bulk stiff lin1 lin2 h P1 P2) (f : Packed) : (inEffect P1 f as).length = 100 := by
  simp only [cylinders, List.singleton_append, List.cons_append, List.nil_append, List.append_assoc, List.cons.injEq,
    true_and] at has
  rw [has, inEffect_steps, inEffect, ← List.append_nil (List.map _ (List.range (6 * 16))), inEffect_steps, inEffect]
  simp

/-- C219: `demo_friction_cylinders.py`: if the program ends without an exception, then all 100 load steps were done and
have converged, the top of the upper cylinder has been moved down by 0.2 and sideways by 0.3, and the bottom of the
lower one not at all, up to 100 times `atol`, and all load steps satisfy the equations of their phase. -/
theorem C219_cylinders (hY : System.Valid Y) (Z : Setting G) (hN : DofsBelow Y Z.numDofs) (opts : Newton.Opts)
    (hcrit : opts.crit = .residual) (herr : opts.errorOnNonconvergence = true) (rank0 : Bool) (D : CylinderDofs) (bulk : (ℕ → ℝ) → ℕ → ℝ)
    (stiff : (ℕ → ℝ) → ℕ → ℕ → ℝ) (lin1 lin2 : (ℕ × ℕ → ℝ) → (ℕ → ℝ) → (ℕ → ℝ) → (ℕ → ℝ) × ℕ × ℤ) (h : ℝ)
    (P1 P2 : Phase) (hP1 : PhaseShaped Y.static P1) (hP2 : PhaseShaped Y.static P2) (hdim : Y.gdim = 2)
    (out : List Report × Option DriverErr)
    (hout : out = actions Y Z rank0 (cylinders D bulk stiff lin1 lin2 h P1 P2) (newRun Y Z opts))
    (hend : out.2 = none) :
    out.1.length = 100
    ∧ (∀ d < Z.numDofs, D.top d = true → D.comp d = 0 → |totalAfter out.1 100 d - 0.3| ≤ 100 * opts.atol)
    ∧ (∀ d < Z.numDofs, D.top d = true → D.comp d ≠ 0 → |totalAfter out.1 100 d + 0.2| ≤ 100 * opts.atol)
    ∧ (∀ d < Z.numDofs, D.bottom d = true → D.top d = false → |totalAfter out.1 100 d| ≤ 100 * opts.atol)
    ∧ ∀ (i : ℕ) (R : Report), out.1[i]? = some R →
      (i < 4 → Balanced Y
          (stepData Y Z.place (vals P1.mu) (vals P1.lam) (P1.fric.elim (fun _ _ _ => 0) vals) (vals P1.h) R.before
            (totalAfter out.1 (i - 1)))
          P1.law P1.gamma P1.theta ⟨bulk, stiff, cylinderBc1 D (pair 0 (-0.2 / 4))⟩ Z.numDofs R.before R.du opts.atol)
      ∧ (4 ≤ i → ∀ f, P2.fric = some f → Balanced Y
          (stepData Y Z.place (vals P2.mu) (vals P2.lam) (vals f) (vals P2.h) R.before (totalAfter out.1 (i - 1)))
          P2.law P2.gamma P2.theta ⟨bulk, stiff, cylinderBc2 D (pair (6 * 0.05 / 96) 0)⟩ Z.numDofs R.before R.du
          opts.atol) := by
  obtain ⟨as, has⟩ : ∃ as, .begin P1 :: as = cylinders D bulk stiff lin1 lin2 h P1 P2 := ⟨_, rfl⟩
  have hph : ∀ Q, .begin Q ∈ .begin P1 :: as →
      PhaseShaped Y.static Q ∧ (Q.law ≠ .frictionless → Y.gdim = 2 ∨ Y.gdim = 3) := by
    intro Q hQ
    refine ⟨?_, fun _ => Or.inl hdim⟩
    rw [has] at hQ
    simp only [cylinders, List.mem_append, List.mem_map, List.mem_singleton, Action.begin.injEq, reduceCtorEq, and_false,
      exists_false, or_false] at hQ
    rcases hQ with rfl | rfl
    · exact hP1
    · exact hP2
  rw [← has] at hout
  obtain ⟨hconv, hlen⟩ := C219_ended hY Z hN opts hcrit herr rank0 P1 as hph out hout
  have hlen := (hlen hend).trans (cylinders_length has _)
  have hcv : ∀ i < 100, ∀ R, out.1[i]? = some R → R.converged = true := fun i _ R hR => hconv R (List.mem_of_getElem? hR)
  have key : ∀ d < Z.numDofs, ∀ a b : ℝ, cylinderBc1 D (pair 0 (-0.2 / 4)) d = some a →
      cylinderBc2 D (pair (6 * 0.05 / 96) 0) d = some b → |totalAfter out.1 100 d - (4 * a + 96 * b)| ≤ 100 * opts.atol := by
    intro d hd a b ha hb
    have := C219_prescribed hY Z hN opts hcrit rank0 P1 as hph out hout 100 (by omega) hcv d hd
      (fun i => if i < 4 then a else b) (fun i hi Q φ S hS => by
        rcases cylinders_bc has _ i Q φ S hS with ⟨h4, -, -, hbc⟩ | ⟨h4, -, -, -, hbc⟩
        · rw [hbc, if_pos h4]; exact ha
        · rw [hbc, if_neg (by omega)]; exact hb)
    have e : ∑ i ∈ range 100, (if i < 4 then a else b) = 4 * a + 96 * b := by
      rw [show (100 : ℕ) = 4 + 96 from rfl, sum_range_add, sum_congr rfl (fun i hi => if_pos (mem_range.mp hi)),
        sum_congr rfl (fun i _ => if_neg (show ¬ 4 + i < 4 by omega))]
      simp
    rw [e] at this
    exact_mod_cast this
  refine ⟨hlen, fun d hd ht hc => ?_, fun d hd ht hc => ?_, fun d hd hb ht => ?_, fun i R hR => ?_⟩
  · have := key d hd _ _ (by rw [cylinderBc1, if_pos ht]) (by rw [cylinderBc2, if_pos ht])
    rw [hc] at this
    norm_num [pair] at this ⊢
    exact this
  · have := key d hd _ _ (by rw [cylinderBc1, if_pos ht]) (by rw [cylinderBc2, if_pos ht])
    norm_num [pair, hc] at this ⊢
    exact this
  · have ht' : ¬ D.top d = true := by rw [ht]; simp
    have := key d hd 0 0 (by rw [cylinderBc1, if_neg ht', if_pos hb])
      (by rw [cylinderBc2, if_neg ht', if_pos hb, ite_self])
    simpa using this
  · obtain ⟨Q, φ, S, hS, -, hb⟩ := (C219_phases hY Z hN opts hcrit rank0 P1 as hph out hout).2 i R hR
    have hb := hb (hconv R (List.mem_of_getElem? hR))
    rcases cylinders_bc has _ i Q φ S hS with ⟨h4, rfl, rfl, hbc⟩ | ⟨h4, h100, rfl, rfl, hbc⟩
    · rw [hbc] at hb
      exact ⟨fun _ => hb, fun h => absurd h (by omega)⟩
    · rw [hbc] at hb
      refine ⟨fun h => absurd h (by omega), fun _ f hf => ?_⟩
      rw [hf] at hb
      exact hb

/-! ### a computation which meets the hypotheses -/

/-- A residual `x - g` and the linear solver `dx = b`: the solver converges; it is enough if this
holds in a set of displacements which contains the first one and `g`. -/
theorem solve_shift_in {M C : Type} (P : Newton.Problem (ℕ → ℝ) (ℕ → ℝ) M C) (N : ℕ) (g : ℕ → ℝ) (I : C → Prop) (W : (ℕ → ℝ) → Prop)
    (hI : ∀ x c, I c → I (P.coefficients x c))
    (hres : ∀ x c, W x → I c → ∀ d < N, P.residual x (P.coefficients x c) d = x d - g d)
    (hlin : ∀ A b d, P.linSolve A b d = (b, 1, 1)) (hpre : ∀ x, P.pre x = x) (hpost : ∀ x, P.post x = x)
    (hnB : ∀ b, P.normB b = norm2 N b) (hnV : ∀ b, P.normV b = norm2 N b) (rank0 : Bool)
    (s : Newton.St (ℕ → ℝ) (ℕ → ℝ) C) (hready : Newton.Ready rank0 s) (hs : I s.coeffs)
    (hcrit : s.opts.crit = .residual) (hatol : 0 < s.opts.atol) (hrtol : 0 < s.opts.rtol) (hmax : 1 ≤ s.opts.maxIt)
    (hW : W s.x) (hWg : ∀ y, (∀ d < N, y d = g d) → W y)
    (hne : s.initialResidual ≠ 0 ∨ ∃ d < N, s.x d ≠ g d) :
    ∃ s' n, Newton.solve P rank0 .function s = (s', .ok (n, true)) ∧ s'.initialResidual ≠ 0 ∧ W s'.x := by
  rw [Newton.solve_function _ _ _ hready]
  obtain ⟨c, hc⟩ : ∃ c, c = P.coefficients s.x s.coeffs := ⟨_, rfl⟩
  obtain ⟨b, hb⟩ : ∃ b, b = P.residual s.x c := ⟨_, rfl⟩
  have hbd : ∀ d < N, b d = s.x d - g d := by rw [hb, hc]; exact hres s.x s.coeffs hW hs
  obtain ⟨s1, hs1⟩ : ∃ s1 : Newton.St (ℕ → ℝ) (ℕ → ℝ) C, s1 = ⟨s.opts, 0, 0,
    s.initialResidual, -1, s.relax, s.dx, s.x, c, b, s.nRes + 1, s.nLin⟩ := ⟨_, rfl⟩
  have hr : rank0 = false ∨ s1.relax ≠ none := by
    rw [hs1]
    rcases hready with h | h | h
    · exact Or.inl h
    · exact Or.inr h
    · rw [hcrit] at h; cases h
  obtain ⟨conv, k1, k0⟩ := Newton.checkConvergence_ok rank0 s1 (norm2 N b) hr
  obtain ⟨s2, hs2⟩ : ∃ s2 : Newton.St (ℕ → ℝ) (ℕ → ℝ) C, s2 = { s1 with lastResidual := norm2 N b } := ⟨_, rfl⟩
  have hin : Newton.solveInner P rank0 s = match Newton.newtonLoop P rank0 (s2.opts.maxIt + 1) conv (norm2 N b) s2 with
    | (s, .error e) => (s, .error e)
    | (s, .ok conv) =>
      if conv = false ∧ s.opts.errorOnNonconvergence = true then (s, .error .runtimeError)
      else (s, .ok (s.iteration, conv)) := by
    unfold Newton.solveInner
    simp only [← hc, hpre, ← hb, hcrit, hnB]
    have k2 := k1
    rw [hs1] at k2
    rw [k2, hs2, hs1]
    dsimp only
    generalize Newton.newtonLoop P rank0 _ conv _ _ = o
    obtain ⟨o1, o2⟩ := o
    cases o2 <;> rfl
  rw [hin]
  cases conv with
  | true =>
    have hl : Newton.newtonLoop P rank0 (s2.opts.maxIt + 1) true (norm2 N b) s2 = (s2, .ok true) := by
      unfold Newton.newtonLoop
      rw [if_neg (by simp)]
    rw [hl]
    have hk := (k0.mp rfl).1
    refine ⟨s2, s2.iteration, by simp, ?_⟩
    rw [hs2]
    refine ⟨hk, ?_⟩
    rw [hs1]
    exact hW
  | false =>
    have hnb : norm2 N b ≠ 0 := by
      intro h0
      have hall : ∀ d < N, b d = 0 := by
        intro d hd
        rw [norm2, Real.sqrt_eq_zero (sum_nonneg (fun _ _ => sq_nonneg _)),
          sum_eq_zero_iff_of_nonneg (fun _ _ => sq_nonneg _)] at h0
        exact pow_eq_zero_iff (two_ne_zero) |>.mp (h0 d (mem_range.mpr hd))
      rcases hne with h | ⟨d, hd, h⟩
      · have : false = true := k0.mpr (by
          rw [h0, hs1]
          exact ⟨h, by rw [zero_div]; exact hrtol, hatol⟩)
        cases this
      · have := hall d hd
        rw [hbd d hd] at this
        exact h (by linarith)
    obtain ⟨y, hy⟩ : ∃ y, y = Newton.updateSolution 1.0 b s.x := ⟨_, rfl⟩
    have hyd : ∀ d < N, y d = g d := by
      intro d hd
      rw [hy]
      show s.x d + (-1.0) * b d = g d
      rw [hbd d hd]
      norm_num
    obtain ⟨s3, hs3⟩ : ∃ s3 : Newton.St (ℕ → ℝ) (ℕ → ℝ) C, s3 = ⟨s.opts, 1, 1, s.initialResidual, norm2 N b, some 1.0,
      some b, y, P.coefficients y c, P.residual y (P.coefficients y c), s.nRes + 2, s.nLin + 1⟩ := ⟨_, rfl⟩
    have hz : norm2 N s3.b = 0 := by
      unfold norm2
      rw [sum_eq_zero (fun d hd => ?_), Real.sqrt_zero]
      rw [hs3]
      show P.residual y (P.coefficients y c) d ^ 2 = 0
      rw [hres y c (hWg y hyd) (by rw [hc]; exact hI _ _ hs) d (mem_range.mp hd), hyd d (mem_range.mp hd), sub_self]
      norm_num
    have hls : Newton.lineSearch P s.x b (norm2 N b) 8 1.0 s3 = some (1.0, s3) := by
      unfold Newton.lineSearch
      rw [if_neg]
      rw [hnB, hz]
      exact not_lt.mpr (Real.sqrt_nonneg _)
    obtain ⟨s5, hs5⟩ : ∃ s5 : Newton.St (ℕ → ℝ) (ℕ → ℝ) C, s5 = { s3 with initialResidual := norm2 N b } := ⟨_, rfl⟩
    have ht : Newton.testConvergence P rank0 s5 = .ok (0, true) := by
      have hcr : s5.opts.crit = .residual := by rw [hs5, hs3]; exact hcrit
      unfold Newton.testConvergence
      rw [hcr]
      dsimp only
      have hb5 : P.normB s5.b = 0 := by rw [hnB, hs5]; exact hz
      rw [hb5]
      obtain ⟨conv, k1, k2⟩ := Newton.checkConvergence_ok rank0 s5 0 (Or.inr (by rw [hs5, hs3]; simp))
      rw [k1]
      have : conv = true := k2.mpr ⟨by rw [hs5]; exact hnb, by rw [zero_div, hs5, hs3]; exact hrtol,
        by rw [hs5, hs3]; exact hatol⟩
      rw [this]
    have hbody : Newton.body P rank0 (norm2 N b) s2 = ({ s5 with lastResidual := 0 }, .ok (true, 0)) := by
      have hev : Newton.evaluate P ⟨s.opts, 1, 1, s.initialResidual, norm2 N b, some 1.0, some b, s.x, c, b,
          s.nRes + 1, s.nLin + 1⟩ y = s3 := by
        rw [hs3]
        unfold Newton.evaluate
        simp only [hpost]
      rw [hs2, hs1]
      unfold Newton.body
      simp only [hlin, zero_add, ← hy]
      rw [if_neg (by norm_num), hev, hls]
      dsimp only
      rw [hnB, hz, if_pos (by rw [hs3]), hnV]
      have e : ({ s3 with relax := some 1.0, initialResidual := norm2 N b } : Newton.St (ℕ → ℝ) (ℕ → ℝ) C) = s5 := by
        rw [hs5, hs3]
      rw [e, ht]
    have hl : Newton.newtonLoop P rank0 (s2.opts.maxIt + 1) false (norm2 N b) s2
        = ({ s5 with lastResidual := 0 }, .ok true) := by
      unfold Newton.newtonLoop
      rw [if_pos ⟨rfl, by rw [hs2, hs1]; exact hmax⟩, hbody]
      dsimp only
      obtain ⟨m, hm⟩ : ∃ m, s2.opts.maxIt = m + 1 := ⟨s2.opts.maxIt - 1, by
        have : 1 ≤ s2.opts.maxIt := by rw [hs2, hs1]; exact hmax
        omega⟩
      rw [hm]
      unfold Newton.newtonLoop
      rw [if_neg (by simp)]
    rw [hl]
    refine ⟨{ s5 with lastResidual := 0 }, s5.iteration, by simp, ?_⟩
    rw [hs5]
    refine ⟨hnb, ?_⟩
    rw [hs3]
    exact hWg y hyd

/-- A residual `x - g` and the linear solver `dx = b`: the solver converges. -/
theorem solve_shift {M C : Type} (P : Newton.Problem (ℕ → ℝ) (ℕ → ℝ) M C) (N : ℕ) (g : ℕ → ℝ) (I : C → Prop)
    (hI : ∀ x c, I c → I (P.coefficients x c))
    (hres : ∀ x c, I c → ∀ d < N, P.residual x (P.coefficients x c) d = x d - g d)
    (hlin : ∀ A b d, P.linSolve A b d = (b, 1, 1)) (hpre : ∀ x, P.pre x = x) (hpost : ∀ x, P.post x = x)
    (hnB : ∀ b, P.normB b = norm2 N b) (hnV : ∀ b, P.normV b = norm2 N b) (rank0 : Bool)
    (s : Newton.St (ℕ → ℝ) (ℕ → ℝ) C) (hready : Newton.Ready rank0 s) (hs : I s.coeffs)
    (hcrit : s.opts.crit = .residual) (hatol : 0 < s.opts.atol) (hrtol : 0 < s.opts.rtol) (hmax : 1 ≤ s.opts.maxIt)
    (hne : s.initialResidual ≠ 0 ∨ ∃ d < N, s.x d ≠ g d) :
    ∃ s' n, Newton.solve P rank0 .function s = (s', .ok (n, true)) ∧ s'.initialResidual ≠ 0 := by
  obtain ⟨s', n, h1, h2, -⟩ := solve_shift_in P N g I (fun _ => True) hI (fun x c _ hc => hres x c hc) hlin hpre hpost hnB hnV
    rank0 s hready hs hcrit hatol hrtol hmax trivial (fun _ _ => trivial) hne
  exact ⟨s', n, h1, h2⟩

theorem form_away {p : ContactPoint} {T : ℕ → ℝ} {S : ℕ → ℕ → ℝ} (hT : ∀ a < p.g, T a = 0)
    (hS : ∀ a < p.g, ∀ b < p.g, S a b = 0) (law : Law) (gamma theta : ℝ) (J : ℕ → ℝ) (D : ℕ → ℕ → ℝ) :
    p.form law gamma theta J D T S = 0 := by
  have d1 : p.dot T = 0 := sum_eq_zero (fun a ha => by rw [hT a (mem_range.mp ha), zero_mul])
  have tr : ∀ a < p.g, p.trac S a = 0 := fun a ha => trac_zero p hS ha
  have d2 : p.dot (p.trac S) = 0 := sum_eq_zero (fun a ha => by rw [tr a (mem_range.mp ha), zero_mul])
  have t1 : ∀ a < p.g, p.tang T a = 0 := fun a ha => by rw [ContactPoint.tang, d1, hT a ha]; ring
  have t2 : ∀ a < p.g, p.tang (p.trac S) a = 0 := fun a ha => by rw [ContactPoint.tang, d2, tr a ha]; ring
  rw [ContactPoint.form, ContactPoint.normalPart, ContactPoint.frictionPart, d1, d2,
    sum_eq_zero (fun a ha => by rw [t1 a (mem_range.mp ha), t2 a (mem_range.mp ha)]; ring),
    sum_eq_zero (fun a ha => by rw [t2 a (mem_range.mp ha)]; ring)]
  simp

theorem contactForm_away {t : Tracked G} {d : ℕ} (h : AwayFromContact Y t d) (law : Law) (gamma theta : ℝ) (u : ℕ → ℝ) :
    contactForm Y t law gamma theta u (unit d) = 0 := by
  unfold contactForm
  refine sum_eq_zero (fun i hi => sum_eq_zero (fun e he => ?_))
  cases hf : (Y.facets i)[e]? with
  | none => rw [Option.elim_none]
  | some c =>
    obtain ⟨cell, f⟩ := c
    rw [Option.elim_some]
    refine sum_eq_zero (fun q hq => ?_)
    obtain ⟨h1, h2⟩ := h i (mem_range.mp hi) e (mem_range.mp he) cell f hf
    split
    · rename_i hl
      dsimp only
      rw [form_away (fun a ha => ?_) (fun a ha b _ => ?_), mul_zero]
      · have e1 : valueAt Y cell f (unit d) q a = 0 := sum_eq_zero (fun k hk => by
          rw [unit, if_neg (h1 k (mem_range.mp hk) a ha), mul_zero])
        have e2 : oppositeAt Y t.cur i e (unit d) q a = 0 := sum_eq_zero (fun k hk => by
          rw [unit, if_neg (h2 q (mem_range.mp hq) hl k (mem_range.mp hk) a ha), mul_zero])
        rw [jumpAt, e1, e2, sub_zero]
      · exact sum_eq_zero (fun k hk => by rw [unit, if_neg (h1 k (mem_range.mp hk) a ha), mul_zero])
    · rfl

/-! A load for the example system: all dofs but 4 are prescribed, at dof 4 a spring is pulled. -/

/-- Bulk of the example. -/
def exSpring (u : ℕ → ℝ) (d : ℕ) : ℝ := if d = 4 then u 4 - 1 else 0

/-- Its matrix. -/
def exSpringK (_ : ℕ → ℝ) (d c : ℕ) : ℝ := if d = 4 ∧ c = 4 then 1 else 0

/-- A linear solver. -/
def exSame (_ : ℕ × ℕ → ℝ) (b : ℕ → ℝ) (_ : ℕ → ℝ) : (ℕ → ℝ) × ℕ × ℤ := (b, 1, 1)

/-- A load step of this kind. -/
structure ExStep (S : PhaseStep) : Prop where
  lin : S.linSolve = exSame
  bulk : S.load.bulk = exSpring
  stiff : S.load.stiff = exSpringK
  free : S.load.bc 4 = none
  fixed : ∀ d < 6, d ≠ 4 → S.load.bc d ≠ none
  preset : S.preset 4 = none

theorem exY_away (t : Tracked Unit) : AwayFromContact exY t 4 := by
  intro i hi e he cell f hf
  have hf' : some ((0 : ℕ), (2 : ℕ)) = some (cell, f) := by
    have : e < 1 := he
    obtain rfl : e = 0 := by omega
    exact hf
  obtain ⟨rfl, rfl⟩ := Prod.mk.inj (Option.some.inj hf')
  refine ⟨fun k _ a ha => ?_, fun q _ _ k _ a ha => ?_⟩
  · have : a < 2 := ha
    show 2 * 0 + a ≠ 4
    omega
  · have : a < 2 := ha
    show 2 * 1 + a ≠ 4
    omega

/-- Such a load step converges. -/
theorem exStep_converges {mu lam fric h : Packed} {law : Law} {gamma theta : ℝ} {S : PhaseStep} (hS : ExStep S)
    {opts : Newton.Opts} (ho : opts.crit = .residual ∧ 0 < opts.atol ∧ 0 < opts.rtol ∧ 1 ≤ opts.maxIt)
    {uold : ℕ → ℝ} {r : Run Unit} (H : BeforeStep exY exSetting mu lam fric h law gamma theta true opts uold r)
    (hne : r.solver.initialResidual ≠ 0 ∨ r.solver.x 4 ≠ 1 - r.u 4) :
    ∃ R r', phaseStep exY exSetting true S r = .ok (R, r') ∧ R.converged = true
      ∧ BeforeStep exY exSetting mu lam fric h law gamma theta true opts r.u r' ∧ r'.solver.initialResidual ≠ 0 := by
  obtain ⟨hready, hopts, ops, hops, hlaw, hconsts, hco, hsame⟩ := id H
  obtain ⟨Z', hZ'⟩ : ∃ Z' : Setting Unit, Z' = { exSetting with linSolve := S.linSolve } := ⟨_, rfl⟩
  obtain ⟨r0, hr0⟩ : ∃ r0, r0 = { r.solver with x := presetBc S.preset r.solver.x } := ⟨_, rfl⟩
  have hn : Z'.numDofs = 6 := by rw [hZ']; rfl
  obtain ⟨g, hg⟩ : ∃ g : ℕ → ℝ, g = fun d => if d = 4 then 1 - r.u 4 else (S.load.bc d).getD 0 := ⟨_, rfl⟩
  have hres : ∀ x c, Reached exY ops (exSetting.place fun _ => 0) c → ∀ d < 6,
      (driverProblem exY Z' S.load r.u).residual x ((driverProblem exY Z' S.load r.u).coefficients x c) d = x d - g d := by
    intro x c hc d hd
    show driverResidual exY Z' S.load r.u x (driverCoefficients exY x c) d = _
    unfold driverResidual
    dsimp only
    by_cases h4 : d = 4
    · subst h4
      rw [hS.free, Option.elim_none, driver_entry exY_valid hops hlaw (fun _ => Or.inl rfl) hconsts hsame.created exY_below6
        hc x (by norm_num), contactForm_away (exY_away _), hS.bulk, hg, sum_eq_zero]
      · simp [exSpring]
        ring
      · intro c _
        cases hb : S.load.bc c with
        | none => rw [Option.elim_none]
        | some v =>
          have hc4 : c ≠ 4 := by rintro rfl; rw [hS.free] at hb; cases hb
          rw [Option.elim_some, hS.stiff]
          simp [exSpringK, hc4]
    · obtain ⟨v, hv⟩ := Option.ne_none_iff_exists'.mp (hS.fixed d hd h4)
      rw [hv, Option.elim_some, hg]
      simp only [h4, if_false, hv, Option.getD_some]
      norm_num
  obtain ⟨s', n, hsolve, hir⟩ := solve_shift (driverProblem exY Z' S.load r.u) 6 g (Reached exY ops (exSetting.place fun _ => 0))
    (fun x c hc => reached_coefficients x c hc) hres
    (fun A b d => by show Z'.linSolve A b d = _; rw [hZ', hS.lin]; rfl) (fun _ => rfl) (fun _ => rfl)
    (fun b => by rw [← hn]; rfl) (fun b => by rw [← hn]; rfl) true r0 (by rw [hr0]; exact hready)
    (by rw [hr0]; exact ⟨[], by simp [updates, hco]⟩) (by rw [hr0]; show r.solver.opts.crit = _; rw [hopts]; exact ho.1)
    (by rw [hr0]; show 0 < r.solver.opts.atol; rw [hopts]; exact ho.2.1)
    (by rw [hr0]; show 0 < r.solver.opts.rtol; rw [hopts]; exact ho.2.2.1)
    (by rw [hr0]; show 1 ≤ r.solver.opts.maxIt; rw [hopts]; exact ho.2.2.2)
    (by
      rcases hne with h | h
      · left; rw [hr0]; exact h
      · refine Or.inr ⟨4, by norm_num, ?_⟩
        rw [hr0, hg]
        show presetBc S.preset r.solver.x 4 ≠ _
        rw [presetBc, hS.preset]
        exact h)
  have hok := phaseStep_ok exY_valid (fun _ => Or.inl rfl) exY_below6 ho.1 (S := S) H
  rcases hok with ⟨e, he⟩ | ⟨R, r', hR, -, -, hB, -⟩
  · unfold phaseStep at he
    rw [← hZ', ← hr0, hsolve] at he
    dsimp only at he
    split at he
    · cases he
    · split at he <;> cases he
  · refine ⟨R, r', hR, ?_, hB, ?_⟩
    all_goals
      unfold phaseStep at hR
      rw [← hZ', ← hr0, hsolve] at hR
      dsimp only at hR
      split at hR
      · cases hR
      · split at hR
        · cases hR
        · obtain ⟨rfl, rfl⟩ := Prod.mk.inj (Except.ok.inj hR)
          first
          | rfl
          | exact hir

/-- A program of such steps converges. -/
theorem exActions_converge {opts : Newton.Opts} (ho : opts.crit = .residual ∧ 0 < opts.atol ∧ 0 < opts.rtol ∧ 1 ≤ opts.maxIt)
    (as : List Action) (hb : ∀ Q, .begin Q ∈ as → PhaseShaped exY.static Q)
    (hs : ∀ S, .step S ∈ as → ExStep S) (P : Phase) (f : Packed) (uold : ℕ → ℝ) (r : Run Unit)
    (H : BeforeStep exY exSetting (vals P.mu) (vals P.lam) f (vals P.h) P.law P.gamma P.theta true opts uold r)
    (hne : r.solver.initialResidual ≠ 0) :
    (actions exY exSetting true as r).2 = none := by
  induction as generalizing P f uold r with
  | nil => rfl
  | cons a as ih =>
    have hb' := fun Q hQ => hb Q (List.mem_cons_of_mem _ hQ)
    have hs' := fun S hS => hs S (List.mem_cons_of_mem _ hS)
    cases a with
    | «begin» Q =>
      exact ih hb' hs' Q _ uold (beginPhase exY Q r) (beginPhase_ok exY_valid (hb Q List.mem_cons_self) H) hne
    | step S =>
      obtain ⟨R, r', hR, hc, H', hne'⟩ := exStep_converges (hs S List.mem_cons_self) ho H (Or.inl hne)
      have e1 : actions exY exSetting true (.step S :: as) r
          = (R :: (actions exY exSetting true as r').1, (actions exY exSetting true as r').2) := by
        rw [actions, hR]
      rw [e1]
      exact ih hb' hs' P f r.u r' H' hne'

/-- Phases of the example: without friction, then Coulomb friction with coefficient 0.3. -/
noncomputable def exPhase (law : Law) (fric : Option (ℕ → Mat)) : Phase :=
  ⟨law, fun _ => ⟨1, 1, fun _ _ => 3⟩, fun _ => ⟨1, 1, fun _ _ => 5⟩, fric, fun _ => ⟨1, 1, fun _ _ => 1⟩, 10, 1, id⟩

theorem exPhase_shaped (law : Law) : PhaseShaped exY.static (exPhase law none)
    ∧ PhaseShaped exY.static (exPhase law (some fun _ => ⟨1, 1, fun _ _ => 0.3⟩)) := by
  refine ⟨⟨?_, ?_, ?_, ?_⟩, ⟨?_, ?_, ?_, ?_⟩⟩ <;> simp [exPhase, ScalarShaped, System.static, exY]

/-- The top is moved down at dofs 1 and 3; the others but 4 belong to the bottom. -/
def exCylinder : CylinderDofs where
  symmetry := fun _ => false
  bottom := fun d => d ≠ 4
  top := fun d => d = 1 ∨ d = 3
  constraint := fun _ => false
  comp := fun d => d % 2

theorem exBc1 (g : ℕ → ℝ) : cylinderBc1 exCylinder g 4 = none ∧ ∀ d < 6, d ≠ 4 → cylinderBc1 exCylinder g d ≠ none := by
  refine ⟨by simp [cylinderBc1, exCylinder], fun d _ h4 => ?_⟩
  unfold cylinderBc1
  split
  · simp
  · simp [exCylinder, h4]

theorem exBc2 (g : ℕ → ℝ) : cylinderBc2 exCylinder g 4 = none ∧ ∀ d < 6, d ≠ 4 → cylinderBc2 exCylinder g d ≠ none := by
  refine ⟨by simp [cylinderBc2, exCylinder], fun d _ h4 => ?_⟩
  unfold cylinderBc2
  split
  · simp
  · simp [exCylinder, h4]

/-- The hypotheses of C219 hold for a computation of 100 load steps in two phases; it ends without an exception,
and the top has moved. -/
example : ∃ out, out = actions exY exSetting true (cylinders exCylinder exSpring exSpringK exSame exSame 2
      (exPhase .frictionless none) (exPhase .coulomb (some fun _ => ⟨1, 1, fun _ _ => 0.3⟩))) (newRun exY exSetting exOpts)
    ∧ out.2 = none ∧ |totalAfter out.1 100 1 + 0.2| ≤ 100 * 1e-8 := by
  obtain ⟨P1, hP1⟩ : ∃ P1, P1 = exPhase .frictionless none := ⟨_, rfl⟩
  obtain ⟨P2, hP2⟩ : ∃ P2, P2 = exPhase .coulomb (some fun _ => ⟨1, 1, fun _ _ => 0.3⟩) := ⟨_, rfl⟩
  have sh1 : PhaseShaped exY.static P1 := by rw [hP1]; exact (exPhase_shaped _).1
  have sh2 : PhaseShaped exY.static P2 := by rw [hP2]; exact (exPhase_shaped _).2
  have hid : P1.guess = id := by rw [hP1]; rfl
  rw [← hP1, ← hP2]
  obtain ⟨as, has⟩ : ∃ as, as = cylinders exCylinder exSpring exSpringK exSame exSame 2 P1 P2 := ⟨_, rfl⟩
  have hb : ∀ Q, .begin Q ∈ as → PhaseShaped exY.static Q := by
    intro Q hQ
    rw [has] at hQ
    simp only [cylinders, List.mem_append, List.mem_map, List.mem_singleton, Action.begin.injEq, reduceCtorEq, and_false,
      exists_false, or_false] at hQ
    rcases hQ with rfl | rfl
    · exact sh1
    · exact sh2
  have hs : ∀ S, .step S ∈ as → ExStep S := by
    intro S hS
    rw [has] at hS
    simp only [cylinders, List.mem_append, List.mem_map, List.mem_singleton, reduceCtorEq, Action.step.injEq,
      false_or, or_false] at hS
    rcases hS with ⟨i, -, rfl⟩ | ⟨i, -, rfl⟩
    · have h := exBc1 (pair 0 (-0.2 / ((4 : ℕ) : ℝ)))
      exact ⟨rfl, rfl, rfl, h.1, h.2, h.1⟩
    · have h := exBc2 (pair (6 * 0.05 / ((6 * 16 : ℕ) : ℝ)) 0)
      refine ⟨rfl, rfl, rfl, h.1, h.2, ?_⟩
      dsimp only
      split
      · exact (exBc2 (pair 0 0)).1
      · exact h.1
  obtain ⟨S, bs, hbs⟩ : ∃ S bs, as = .begin P1 :: .step S :: bs := ⟨_, _, has⟩
  have H := firstPhase_ok (rank0 := true) (opts := exOpts) (Z := exSetting) exY_valid sh1
  have ho : exOpts.crit = .residual ∧ 0 < exOpts.atol ∧ 0 < exOpts.rtol ∧ 1 ≤ exOpts.maxIt :=
    ⟨rfl, by norm_num [exOpts], by norm_num [exOpts], by norm_num [exOpts]⟩
  obtain ⟨R, r', hR, hc, H', hne'⟩ := exStep_converges (hs S (by rw [hbs]; simp)) ho H (Or.inr (by
    show P1.guess (fun _ => 0) 4 ≠ 1 - 0
    rw [hid]
    norm_num))
  have h1 := exActions_converge ho bs (fun Q hQ => hb Q (by rw [hbs]; simp [hQ])) (fun S hS => hs S (by rw [hbs]; simp [hS]))
    P1 _ _ r' H' hne'
  have e1 : actions exY exSetting true as (newRun exY exSetting exOpts)
      = (R :: (actions exY exSetting true bs r').1, (actions exY exSetting true bs r').2) := by
    rw [hbs, actions, actions, hR]
  rw [← has]
  obtain ⟨out, hout⟩ : ∃ out, out = actions exY exSetting true as (newRun exY exSetting exOpts) := ⟨_, rfl⟩
  have k1 : out.2 = none := by rw [hout, e1]; exact h1
  refine ⟨out, hout, k1, ?_⟩
  exact (C219_cylinders exY_valid exSetting exY_below6 exOpts rfl rfl true exCylinder exSpring exSpringK exSame exSame 2 P1 P2
    sh1 sh2 rfl out (by rw [hout, has]) k1).2.2.1 1 (by norm_num [exSetting]) (by simp [exCylinder]) (by simp [exCylinder])

end Verif.ContactProblem
