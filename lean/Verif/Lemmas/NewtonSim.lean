import Verif.Props.Newton

/-!
Two Newton solvers whose callbacks agree do the same: lemma for C199.
-/

namespace Verif.Newton

variable {V B M C C' : Type} [AddCommGroup V] [Module ℝ V]

noncomputable section

/-- The callbacks agree on related coefficients. -/
structure Agree (P : Problem V B M C) (P' : Problem V B M C') (R : C → C' → Prop) : Prop where
  pre : P.pre = id ∧ P'.pre = id
  post : P.post = id ∧ P'.post = id
  lin : P.linSolve = P'.linSolve
  norms : P.normB = P'.normB ∧ P.normV = P'.normV
  coef : ∀ x c c', R c c' → R (P.coefficients x c) (P'.coefficients x c')
  res : ∀ x c c', R c c' → P.residual x (P.coefficients x c) = P'.residual x (P'.coefficients x c')
  jac : ∀ x c c', R c c' → P.jacobian x (P.coefficients x c) = P'.jacobian x (P'.coefficients x c')

/-- The states agree up to the coefficients. -/
structure SameBut (s : St V B C) (s' : St V B C') : Prop where
  opts : s.opts = s'.opts
  iteration : s.iteration = s'.iteration
  krylov : s.krylov = s'.krylov
  initialResidual : s.initialResidual = s'.initialResidual
  lastResidual : s.lastResidual = s'.lastResidual
  relax : s.relax = s'.relax
  dx : s.dx = s'.dx
  x : s.x = s'.x
  b : s.b = s'.b
  set : s.relax ≠ none

/-- The states agree, and the coefficients have been computed for the iterate. -/
structure Sim (P : Problem V B M C) (P' : Problem V B M C') (R : C → C' → Prop) (s : St V B C) (s' : St V B C') : Prop where
  same : SameBut s s'
  fresh : ∃ b b', R b b' ∧ s.coeffs = P.coefficients s.x b ∧ s'.coeffs = P'.coefficients s'.x b'

variable {P : Problem V B M C} {P' : Problem V B M C'} {R : C → C' → Prop}

theorem Sim.rel (A : Agree P P' R) {s : St V B C} {s' : St V B C'} (h : Sim P P' R s s') : R s.coeffs s'.coeffs := by
  obtain ⟨b, b', hb, h1, h2⟩ := h.fresh
  rw [h1, h2, h.same.x]
  exact A.coef _ _ _ hb

theorem SameBut.check {s : St V B C} {s' : St V B C'} (h : SameBut s s') (rank0 rank0' : Bool) (r : ℝ) :
    checkConvergence rank0 s r = checkConvergence rank0' s' r := by
  unfold checkConvergence
  have h1 : ¬ (rank0 = true ∧ s.relax = none) := fun k => h.set k.2
  have h2 : ¬ (rank0' = true ∧ s'.relax = none) := fun k => h.set (h.relax.trans k.2)
  simp only [if_neg h1, if_neg h2, h.initialResidual, h.opts]

theorem SameBut.evaluate (A : Agree P P' R) {s : St V B C} {s' : St V B C'} (h : SameBut s s') (hc : R s.coeffs s'.coeffs) (x : V) :
    Sim P P' R (evaluate P s x) (evaluate P' s' x) := by
  have e1 : P.post x = x := by rw [A.post.1]; rfl
  have e2 : P'.post x = x := by rw [A.post.2]; rfl
  refine ⟨⟨h.opts, h.iteration, h.krylov, h.initialResidual, h.lastResidual, h.relax, h.dx, ?_, ?_, h.set⟩, ?_⟩
  · show P.post x = P'.post x
    rw [e1, e2]
  · show P.residual (P.post x) _ = P'.residual (P'.post x) _
    rw [e1, e2]
    exact A.res _ _ _ hc
  · refine ⟨s.coeffs, s'.coeffs, hc, ?_, ?_⟩
    · show P.coefficients x s.coeffs = P.coefficients (P.post x) s.coeffs
      rw [e1]
    · show P'.coefficients x s'.coeffs = P'.coefficients (P'.post x) s'.coeffs
      rw [e2]

theorem Sim.line (A : Agree P P' R) (xCopy dx : V) (resOld : ℝ) :
    ∀ (fuel : ℕ) (relax : ℝ) {s : St V B C} {s' : St V B C'}, Sim P P' R s s' →
      (lineSearch P xCopy dx resOld fuel relax s = none ∧ lineSearch P' xCopy dx resOld fuel relax s' = none)
      ∨ ∃ r t t', lineSearch P xCopy dx resOld fuel relax s = some (r, t)
        ∧ lineSearch P' xCopy dx resOld fuel relax s' = some (r, t') ∧ Sim P P' R t t' := by
  intro fuel
  induction fuel with
  | zero => intro relax s s' _; exact Or.inl ⟨rfl, rfl⟩
  | succ n ih =>
    intro relax s s' h
    simp only [lineSearch]
    rw [← h.same.b, ← A.norms.1]
    by_cases h1 : resOld < P.normB s.b
    · rw [if_pos h1, if_pos h1]
      by_cases h2 : 0.5 * relax < 1e-2
      · rw [if_pos h2, if_pos h2]
        exact Or.inr ⟨_, s, s', rfl, rfl, h⟩
      · rw [if_neg h2, if_neg h2]
        exact ih _ (SameBut.evaluate A h.same (h.rel A) _)
    · rw [if_neg h1, if_neg h1]
      exact Or.inr ⟨_, s, s', rfl, rfl, h⟩

theorem SameBut.test (A : Agree P P' R) {s : St V B C} {s' : St V B C'} (h : SameBut s s') (rank0 rank0' : Bool) :
    testConvergence P rank0 s = testConvergence P' rank0' s' := by
  unfold testConvergence
  rw [h.opts, h.iteration, h.b, h.dx, A.norms.1, A.norms.2, h.check rank0 rank0', h.check rank0 rank0']

/-- An iteration, given the result of the linear solve. -/
def bodyOf (P : Problem V B M C) (rank0 : Bool) (resOld : ℝ) (s : St V B C) (out : V × ℕ × ℤ) :
    St V B C × Except Err (Bool × ℝ) :=
  let s' := { s with
    relax := some 1.0, dx := some out.1, krylov := s.krylov + out.2.1, nLin := s.nLin + 1, iteration := s.iteration + 1 }
  if ¬ out.2.2 > 0 then
    ({ s with relax := some 1.0, dx := some out.1, krylov := s.krylov + out.2.1, nLin := s.nLin + 1 }, .error .assertionError)
  else
    match lineSearch P s.x out.1 resOld 8 1.0 (evaluate P s' (updateSolution 1.0 out.1 s.x)) with
    | none => (evaluate P s' (updateSolution 1.0 out.1 s.x), .error .fuel)
    | some (relax, t) =>
      let s := if t.iteration = 1 then { t with relax := some relax, initialResidual := P.normV out.1 }
        else { t with relax := some relax }
      match testConvergence P rank0 s with
      | .error e => (s, .error e)
      | .ok (r, conv) => ({ s with lastResidual := r }, .ok (conv, P.normB t.b))

theorem body_eq (P : Problem V B M C) (rank0 : Bool) (resOld : ℝ) (s : St V B C) :
    body P rank0 resOld s = bodyOf P rank0 resOld s (P.linSolve (P.jacobian s.x s.coeffs) s.b (s.dx.getD 0)) := by
  unfold body bodyOf
  rfl

/-- An iteration. -/
theorem Sim.body (A : Agree P P' R) (rank0 rank0' : Bool) (resOld : ℝ) {s : St V B C} {s' : St V B C'} (h : Sim P P' R s s') :
    (body P rank0 resOld s).2 = (body P' rank0' resOld s').2
    ∧ ((∃ y, (body P rank0 resOld s).2 = .ok y) → Sim P P' R (body P rank0 resOld s).1 (body P' rank0' resOld s').1) := by
  have hjac : P.jacobian s.x s.coeffs = P'.jacobian s'.x s'.coeffs := by
    obtain ⟨b, b', hb, h1, h2⟩ := h.fresh
    rw [h1, h2, h.same.x]
    exact A.jac _ _ _ hb
  have hc := h.rel A
  have hlin : P.linSolve (P.jacobian s.x s.coeffs) s.b (s.dx.getD 0)
      = P'.linSolve (P'.jacobian s'.x s'.coeffs) s'.b (s'.dx.getD 0) := by
    rw [A.lin, hjac, h.same.b, h.same.dx]
  rw [body_eq, body_eq, hlin]
  generalize P'.linSolve (P'.jacobian s'.x s'.coeffs) s'.b (s'.dx.getD 0) = out
  obtain ⟨dx, its, reason⟩ := out
  unfold bodyOf
  dsimp only
  by_cases h1 : ¬ reason > 0
  · rw [if_pos h1, if_pos h1]
    exact ⟨rfl, fun ⟨y, hy⟩ => by cases hy⟩
  · rw [if_neg h1, if_neg h1]
    have hs : SameBut (V := V) (B := B)
        { s with relax := some 1.0, dx := some dx, krylov := s.krylov + its, nLin := s.nLin + 1, iteration := s.iteration + 1 }
        { s' with relax := some 1.0, dx := some dx, krylov := s'.krylov + its, nLin := s'.nLin + 1, iteration := s'.iteration + 1 } :=
      ⟨h.same.opts, congrArg (· + 1) h.same.iteration, congrArg (· + its) h.same.krylov, h.same.initialResidual, h.same.lastResidual,
        rfl, rfl, h.same.x, h.same.b, by simp⟩
    have h2 := SameBut.evaluate A hs hc (updateSolution 1.0 dx s.x)
    rcases Sim.line A s.x dx resOld 8 1.0 h2 with ⟨e1, e2⟩ | ⟨r, t, t', e1, e2, ht⟩
    · rw [h.same.x] at e2
      rw [e1, e2]
      exact ⟨rfl, fun ⟨y, hy⟩ => by cases hy⟩
    · rw [h.same.x] at e2
      rw [e1, e2]
      dsimp only
      obtain ⟨b, b', hb, f1, f2⟩ := ht.fresh
      obtain ⟨w, hw⟩ : ∃ w : St V B C, w = (if t.iteration = 1 then { t with relax := some r, initialResidual := P.normV dx }
        else { t with relax := some r }) := ⟨_, rfl⟩
      obtain ⟨w', hw'⟩ : ∃ w' : St V B C', w' = (if t'.iteration = 1 then { t' with relax := some r, initialResidual := P'.normV dx }
        else { t' with relax := some r }) := ⟨_, rfl⟩
      have hww : Sim P P' R w w' := by
        rw [hw, hw']
        by_cases h1 : t.iteration = 1
        · rw [if_pos h1, if_pos (ht.same.iteration ▸ h1)]
          refine ⟨⟨ht.same.opts, ht.same.iteration, ht.same.krylov, ?_, ht.same.lastResidual, rfl, ht.same.dx, ht.same.x, ht.same.b, by simp⟩,
            b, b', hb, f1, f2⟩
          show P.normV dx = P'.normV dx
          rw [A.norms.2]
        · rw [if_neg h1, if_neg (ht.same.iteration ▸ h1)]
          exact ⟨⟨ht.same.opts, ht.same.iteration, ht.same.krylov, ht.same.initialResidual, ht.same.lastResidual, rfl, ht.same.dx,
            ht.same.x, ht.same.b, by simp⟩, b, b', hb, f1, f2⟩
      rw [← hw, ← hw', hww.same.test A rank0 rank0', A.norms.1]
      have hwb : P'.normB t'.b = P'.normB t.b := by rw [ht.same.b]
      rw [hwb]
      cases testConvergence P' rank0' w' with
      | error e => exact ⟨rfl, fun ⟨y, hy⟩ => by cases hy⟩
      | ok y =>
        refine ⟨rfl, fun _ => ?_⟩
        obtain ⟨b, b', hb, f1, f2⟩ := hww.fresh
        exact ⟨⟨hww.same.opts, hww.same.iteration, hww.same.krylov, hww.same.initialResidual, rfl, hww.same.relax, hww.same.dx,
          hww.same.x, hww.same.b, hww.same.set⟩, b, b', hb, f1, f2⟩

theorem Sim.loop (A : Agree P P' R) (rank0 rank0' : Bool) :
    ∀ (fuel : ℕ) (conv : Bool) (resOld : ℝ) {s : St V B C} {s' : St V B C'}, Sim P P' R s s' →
      (newtonLoop P rank0 fuel conv resOld s).2 = (newtonLoop P' rank0' fuel conv resOld s').2
      ∧ ((∃ y, (newtonLoop P rank0 fuel conv resOld s).2 = .ok y) →
        Sim P P' R (newtonLoop P rank0 fuel conv resOld s).1 (newtonLoop P' rank0' fuel conv resOld s').1) := by
  intro fuel
  induction fuel with
  | zero => intro conv resOld s s' _; exact ⟨rfl, fun ⟨y, hy⟩ => by cases hy⟩
  | succ n ih =>
    intro conv resOld s s' h
    simp only [newtonLoop]
    rw [← h.same.iteration, ← h.same.opts]
    by_cases h1 : conv = false ∧ s.iteration < s.opts.maxIt
    · rw [if_pos h1, if_pos h1]
      obtain ⟨e, hk⟩ := h.body A rank0 rank0' resOld
      generalize Newton.body P rank0 resOld s = o at e hk ⊢
      generalize Newton.body P' rank0' resOld s' = o' at e hk ⊢
      obtain ⟨t, res⟩ := o
      obtain ⟨t', res'⟩ := o'
      dsimp only at e hk
      subst e
      cases res with
      | error e => exact ⟨rfl, fun ⟨y, hy⟩ => by cases hy⟩
      | ok y => exact ih _ _ (hk ⟨y, rfl⟩)
    · rw [if_neg h1, if_neg h1]
      exact ⟨rfl, fun _ => h⟩

/-- The end of `solveInner`, after the loop. -/
def finish (o : St V B C × Except Err Bool) : St V B C × Except Err (ℕ × Bool) :=
  match o with
  | (s, .error e) => (s, .error e)
  | (s, .ok conv) =>
    if conv = false ∧ s.opts.errorOnNonconvergence = true then (s, .error .runtimeError)
    else (s, .ok (s.iteration, conv))

/-- Sets the residual norm. -/
def withResidual (s : St V B C) (r : ℝ) : St V B C := { s with lastResidual := r }

/-- `solveInner` after the first residual. -/
def inner (P : Problem V B M C) (rank0 : Bool) (s : St V B C) : St V B C × Except Err (ℕ × Bool) :=
  match s.opts.crit with
  | .residual =>
    match checkConvergence rank0 s (P.normB s.b) with
    | .error e => (s, .error e)
    | .ok (r, conv) => finish (newtonLoop P rank0 (s.opts.maxIt + 1) conv (P.normB s.b) (withResidual s r))
  | .incremental => finish (newtonLoop P rank0 (s.opts.maxIt + 1) false (P.normB s.b) s)

/-- The state after the first residual. -/
def begun (P : Problem V B M C) (s : St V B C) : St V B C :=
  { s with
    iteration := 0, krylov := 0, lastResidual := -1, coeffs := P.coefficients s.x s.coeffs, x := P.pre s.x,
    b := P.residual (P.pre s.x) (P.coefficients s.x s.coeffs), nRes := s.nRes + 1 }

theorem solveInner_eq (P : Problem V B M C) (rank0 : Bool) (s : St V B C) :
    solveInner P rank0 s = inner P rank0 (begun P s) := by
  unfold solveInner inner
  have e : (begun P s).opts = s.opts := rfl
  rw [e]
  dsimp only
  cases s.opts.crit with
  | incremental => rfl
  | residual =>
    dsimp only
    have : checkConvergence rank0 (begun P s) (P.normB (begun P s).b)
      = checkConvergence rank0 { s with
        iteration := 0, krylov := 0, lastResidual := -1, coeffs := P.coefficients s.x s.coeffs, x := P.pre s.x,
        b := P.residual (P.pre s.x) (P.coefficients s.x s.coeffs), nRes := s.nRes + 1 }
        (P.normB (P.residual (P.pre s.x) (P.coefficients s.x s.coeffs))) := rfl
    rw [← this]
    cases checkConvergence rank0 (begun P s) (P.normB (begun P s).b) with
    | error e => rfl
    | ok y => rfl

theorem Sim.finish (A : Agree P P' R) (rank0 rank0' : Bool) (n : ℕ) (conv : Bool) (r : ℝ) {t : St V B C} {t' : St V B C'}
    (ht : Sim P P' R t t') :
    (finish (newtonLoop P rank0 n conv r t)).2 = (finish (newtonLoop P' rank0' n conv r t')).2
    ∧ ((∃ y, (finish (newtonLoop P rank0 n conv r t)).2 = .ok y) →
      Sim P P' R (finish (newtonLoop P rank0 n conv r t)).1 (finish (newtonLoop P' rank0' n conv r t')).1) := by
  obtain ⟨e, hk⟩ := ht.loop A rank0 rank0' n conv r
  generalize newtonLoop P rank0 n conv r t = o at e hk ⊢
  generalize newtonLoop P' rank0' n conv r t' = o' at e hk ⊢
  obtain ⟨v, res⟩ := o
  obtain ⟨v', res'⟩ := o'
  dsimp only at e hk
  subst e
  cases res with
  | error e => exact ⟨rfl, fun ⟨y, hy⟩ => by cases hy⟩
  | ok c =>
    have hv := hk ⟨c, rfl⟩
    simp only [Newton.finish]
    rw [← hv.same.opts, ← hv.same.iteration]
    by_cases h1 : c = false ∧ v.opts.errorOnNonconvergence = true
    · rw [if_pos h1, if_pos h1]
      exact ⟨rfl, fun ⟨y, hy⟩ => by cases hy⟩
    · rw [if_neg h1, if_neg h1]
      exact ⟨rfl, fun _ => hv⟩

theorem Sim.inner (A : Agree P P' R) (rank0 rank0' : Bool) {w : St V B C} {w' : St V B C'} (h : Sim P P' R w w') :
    (inner P rank0 w).2 = (inner P' rank0' w').2
    ∧ ((∃ y, (inner P rank0 w).2 = .ok y) → Sim P P' R (inner P rank0 w).1 (inner P' rank0' w').1) := by
  unfold Newton.inner
  rw [← h.same.check rank0 rank0', ← A.norms.1, ← h.same.b]
  have hm : w'.opts.maxIt = w.opts.maxIt := by rw [h.same.opts]
  have hcr : w'.opts.crit = w.opts.crit := by rw [h.same.opts]
  rw [hm, hcr]
  cases w.opts.crit with
  | incremental => exact h.finish A rank0 rank0' _ _ _
  | residual =>
    dsimp only
    cases checkConvergence rank0 w (P.normB w.b) with
    | error e => exact ⟨rfl, fun ⟨y, hy⟩ => by cases hy⟩
    | ok y =>
      obtain ⟨r, conv⟩ := y
      dsimp only
      obtain ⟨b, b', hb, g1, g2⟩ := h.fresh
      exact Sim.finish A rank0 rank0' _ _ _ (t := withResidual w r) (t' := withResidual w' r)
        ⟨⟨h.same.opts, h.same.iteration, h.same.krylov, h.same.initialResidual, rfl, h.same.relax, h.same.dx, h.same.x,
          h.same.b, h.same.set⟩, b, b', hb, g1, g2⟩

theorem Sim.begun (A : Agree P P' R) {s : St V B C} {s' : St V B C'} (h : SameBut s s') (hc : R s.coeffs s'.coeffs) :
    Sim P P' R (begun P s) (begun P' s') := by
  have e1 : P.pre s.x = s.x := by rw [A.pre.1]; rfl
  have e2 : P'.pre s'.x = s'.x := by rw [A.pre.2]; rfl
  refine ⟨⟨h.opts, rfl, rfl, h.initialResidual, rfl, h.relax, h.dx, ?_, ?_, h.set⟩, s.coeffs, s'.coeffs, hc, ?_, ?_⟩
  · show P.pre s.x = P'.pre s'.x
    rw [e1, e2, h.x]
  · show P.residual (P.pre s.x) _ = P'.residual (P'.pre s'.x) _
    rw [e1, e2, ← h.x]
    exact A.res _ _ _ hc
  · show P.coefficients s.x s.coeffs = P.coefficients (P.pre s.x) s.coeffs
    rw [e1]
  · show P'.coefficients s'.x s'.coeffs = P'.coefficients (P'.pre s'.x) s'.coeffs
    rw [e2]

/-- Two solvers whose callbacks agree return the same, and end in states which agree. -/
theorem sim_solve (A : Agree P P' R) (rank0 rank0' : Bool) {s : St V B C} {s' : St V B C'} (h : SameBut s s')
    (hc : R s.coeffs s'.coeffs) :
    (solve P rank0 .function s).2 = (solve P' rank0' .function s').2
    ∧ ((∃ y, (solve P rank0 .function s).2 = .ok y) →
      Sim P P' R (solve P rank0 .function s).1 (solve P' rank0' .function s').1) := by
  have hb := Sim.begun A h hc
  rw [solve_function P rank0 s (Or.inr (Or.inl h.set)), solve_function P' rank0' s' (Or.inr (Or.inl (h.relax ▸ h.set))),
    solveInner_eq, solveInner_eq]
  exact hb.inner A rank0 rank0'

end

end Verif.Newton
