import Verif.Lemmas.Newton

/-!
C59–C65, C73: the Newton solver (`python/dolfinx_contact/newton_solver.py`).
`Chain`, `NewtonStep`, `Accepts`, `Started` are the specification (`Verif/Spec/Newton.lean`).
-/

namespace Verif.Newton

open Spec

variable {V B M C : Type} [AddCommGroup V] [Module ℝ V]

/-- Scalar example problem `x - 1 = 0` with an exact linear solver. -/
noncomputable def exProblem : Problem ℝ ℝ Unit Unit where
  coefficients _ _ := ()
  residual x _ := x - 1
  jacobian _ _ := ()
  linSolve _ b _ := (b, 1, 2)
  normB b := |b|
  normV b := |b|
  pre x := x
  post x := x

/-- A fresh solver for the example after `set_newton_options({})`, initial guess 0. -/
noncomputable def exState : St ℝ ℝ Unit :=
  ⟨Opts.default, 0, 0, 0, 0, some 1, none, 0, (), 0, 0, 0⟩

/-- State after the first solve of the example. -/
noncomputable def exState' : St ℝ ℝ Unit :=
  ⟨Opts.default, 1, 1, 1, 0, some 1, some (-1), 1, (), 0, 2, 1⟩

theorem exSolve : solveInner exProblem true exState = (exState', .ok (1, true)) := by
  have h5 : (1.0 : ℝ) = 1 := by norm_num
  have p1 : ∀ A b d, exProblem.linSolve A b d = (b, 1, 2) := fun _ _ _ => rfl
  have p2 : ∀ x c, exProblem.residual x c = x - 1 := fun _ _ => rfl
  have p3 : ∀ b, exProblem.normB b = |b| := fun _ => rfl
  have p4 : ∀ b, exProblem.normV b = |b| := fun _ => rfl
  have p5 : ∀ x, exProblem.pre x = x := fun _ => rfl
  have p6 : ∀ x, exProblem.post x = x := fun _ => rfl
  have hl : ∀ (r : ℝ) (s : St ℝ ℝ Unit), s.b = 0 →
      lineSearch exProblem 0 (-1) 1 8 r s = some (r, s) := by
    intro r s hs
    unfold lineSearch
    rw [if_neg]
    rw [p3, hs]
    norm_num
  have hb : body exProblem true 1 ⟨Opts.default, 0, 0, 0, 1, some 1, none, 0, (), -1, 1, 0⟩ =
      (exState', .ok (true, 0)) := by
    have he : evaluate exProblem ⟨Opts.default, 1, 1, 0, 1, some 1, some (-1), 0, (), -1, 1, 1⟩
        (updateSolution 1 (-1) 0) = ⟨Opts.default, 1, 1, 0, 1, some 1, some (-1), 1, (), 0, 2, 1⟩ := by
      simp [evaluate, updateSolution, p2, p6]
    simp only [body, h5, p1]
    rw [if_neg (by norm_num)]
    simp only [zero_add, he, hl]
    simp [testConvergence, checkConvergence, exState', Opts.default, p3, p4]
    norm_num
  have hloop : newtonLoop exProblem true 51 false 1
      ⟨Opts.default, 0, 0, 0, 1, some 1, none, 0, (), -1, 1, 0⟩ = (exState', .ok true) := by
    unfold newtonLoop
    rw [if_pos ⟨rfl, by simp [Opts.default]⟩, hb]
    unfold newtonLoop
    simp
  simp only [solveInner, exState, p2, p3, p5]
  have hd : Opts.default.crit = .residual := rfl
  have hm : Opts.default.maxIt = 50 := rfl
  simp only [hd, checkConvergence]
  norm_num
  rw [if_neg (by simp)]
  dsimp only
  rw [hm]
  rw [show (exProblem.coefficients 0 () : Unit) = () from rfl, hloop]
  simp [exState']

/-- The solver can be started: the relaxation attribute exists (it does after
`set_newton_options`), or this process does not print. -/
def Ready (rank0 : Bool) (s : St V B C) : Prop :=
  rank0 = false ∨ s.relax ≠ none ∨ s.opts.crit = .incremental

theorem solve_function (P : Problem V B M C) (rank0 : Bool) (s : St V B C) (h : Ready rank0 s) :
    solve P rank0 .function s = solveInner P rank0 s := by
  obtain ⟨s0, h0, h1 | ⟨h1, h2⟩⟩ := solveInner_spec P rank0 s
  · rcases h with h | h | h
    · simp [h] at h1
    · exact absurd h1.2.1 h
    · rw [h1.2.2.1] at h; cases h
  · rcases h2 with ⟨s', n, conv, -, -, -, -, e⟩ | ⟨s', s'', n, -, -, -, -, -, -, -, e⟩
    · unfold solve; rw [e]
      by_cases hc : conv = false ∧ s.opts.errorOnNonconvergence = true
      · simp only [if_pos hc]
      · simp only [if_neg hc]
    · unfold solve; rw [e]

/-- **C59.** Whatever the callbacks do, a solve ends: the loops of the model never run out of fuel,
there are at most `max_it` linear solves and at most `7·max_it + 2` residual evaluations; when it
returns, the returned count is the number of linear solves done, it is at most `max_it`, and every
iteration used between 1 and 7 residual evaluations. -/
theorem C59_budget (P : Problem V B M C) (rank0 : Bool) (s : St V B C) :
    (solve P rank0 .function s).2 ≠ .error .fuel ∧
    (solve P rank0 .function s).1.nLin ≤ s.nLin + s.opts.maxIt ∧
    (solve P rank0 .function s).1.nRes ≤ s.nRes + 2 + 7 * s.opts.maxIt ∧
    ∀ n conv, (solve P rank0 .function s).2 = .ok (n, conv) →
      n ≤ s.opts.maxIt ∧ (solve P rank0 .function s).1.nLin = s.nLin + n ∧
      s.nRes + 1 + n ≤ (solve P rank0 .function s).1.nRes ∧
      (solve P rank0 .function s).1.nRes ≤ s.nRes + 1 + 7 * n := by
  by_cases hready : Ready rank0 s
  · rw [solve_function P rank0 s hready]
    obtain ⟨s0, h0, h1 | ⟨h1, h2⟩⟩ := solveInner_spec P rank0 s
    · exfalso
      rcases hready with h | h | h
      · simp [h] at h1
      · exact absurd h1.2.1 h
      · rw [h1.2.2.1] at h; cases h
    · obtain ⟨-, -, -, -, -, -, -, -, -, hr, hl⟩ := h0
      rcases h2 with ⟨s', n, conv, hch, hn, -, -, e⟩ | ⟨s', s'', n, hch, hn, -, hl', hr', -, -, e⟩
      · have e1 := hch.nLin
        have e2 := hch.nRes
        rw [e]
        refine ⟨?_, by dsimp only; omega, by dsimp only; omega, ?_⟩
        · dsimp only; split_ifs <;> simp
        · intro n' conv' h
          dsimp only at h ⊢
          split_ifs at h
          injection h with h
          injection h with h _
          subst h
          exact ⟨hn, by omega, by omega, by omega⟩
      · have e1 := hch.nLin
        have e2 := hch.nRes
        rw [e]
        refine ⟨by simp, by dsimp only; omega, by dsimp only; omega, ?_⟩
        intro n' conv' h
        simp at h
  · have hbad : rank0 = true ∧ s.relax = none ∧ s.opts.crit = .residual := by
      unfold Ready at hready
      push Not at hready
      obtain ⟨h1, h2, h3⟩ := hready
      refine ⟨by simpa using h1, h2, ?_⟩
      cases h : s.opts.crit
      · rfl
      · exact absurd h h3
    have one : ∀ t : St V B C, t.relax = none → t.opts.crit = .residual →
        ∃ t', solveInner P rank0 t = (t', .error .attributeError) ∧ t'.relax = none ∧
          t'.opts = t.opts ∧ t'.nLin = t.nLin ∧ t'.nRes = t.nRes + 1 := by
      intro t ht1 ht2
      obtain ⟨s0, h0, h1 | ⟨h1, h2⟩⟩ := solveInner_spec P rank0 t
      · obtain ⟨-, -, -, -, -, ho, -, -, hx, hr, hl⟩ := h0
        exact ⟨s0, h1.2.2.2, by rw [hx]; exact ht1, ho, hl, hr⟩
      · exact absurd ⟨hbad.1, ht1, ht2⟩ h1
    obtain ⟨t, ht, h1, h2, h3, h4⟩ := one s hbad.2.1 hbad.2.2
    obtain ⟨t', ht', h1', h2', h3', h4'⟩ := one t h1 (by rw [h2]; exact hbad.2.2)
    have : solve P rank0 .function s = (t', .error .attributeError) := by
      unfold solve; rw [ht]; exact ht'
    rw [this]
    refine ⟨by simp, by dsimp only; omega, by dsimp only; omega, ?_⟩
    intro n conv h
    simp at h

/-- The example solve meets the conclusion with one iteration. -/
example : (solve exProblem true .function exState).2 = .ok (1, true) ∧
    (solve exProblem true .function exState).1.nLin = 1 := by
  rw [solve_function _ _ _ (Or.inr (Or.inl (by simp [exState]))), exSolve]
  exact ⟨rfl, rfl⟩

/-- **C61.** A solve that returns `n` iterations is a chain of `n` damped Newton steps from the
initial guess: each replaces `x` by `x - 2^-k dx` (then `post_solve`), `k ≤ 6`, `dx` being the
result of the Krylov solve with the Jacobian and residual at `x`, and the residual norm does not
increase unless `k = 6`.  The stored residual is the one of the final iterate, and the coefficients
were computed at the last update. -/
theorem C61_newton_line (P : Problem V B M C) (rank0 : Bool) (s : St V B C) (n : ℕ) (conv : Bool)
    (h : (solve P rank0 .function s).2 = .ok (n, conv)) :
    ∃ s0, Started P s s0 ∧ Chain P n s0 (solve P rank0 .function s).1 ∧
      InSync P (solve P rank0 .function s).1 := by
  by_cases hready : Ready rank0 s
  · rw [solve_function P rank0 s hready] at h ⊢
    obtain ⟨s0, h0, h1 | ⟨h1, h2⟩⟩ := solveInner_spec P rank0 s
    · rw [h1.2.2.2] at h; simp at h
    · rcases h2 with ⟨s', n', conv', hch, hn, -, -, e⟩ | ⟨s', s'', n, hch, hn, -, hl', hr', -, -, e⟩
      · rw [e] at h ⊢
        dsimp only at h ⊢
        split_ifs at h
        injection h with h
        injection h with h _
        subst h
        exact ⟨s0, h0, hch, hch.inSync h0.2.2.1⟩
      · rw [e] at h; simp at h
  · -- an unready solver raises on both attempts
    exfalso
    unfold Ready at hready
    push Not at hready
    obtain ⟨h1, h2, h3⟩ := hready
    have hcr : s.opts.crit = .residual := by
      cases hh : s.opts.crit
      · rfl
      · exact absurd hh h3
    have one : ∀ t : St V B C, t.relax = none → t.opts.crit = .residual →
        ∃ t', solveInner P rank0 t = (t', .error .attributeError) ∧ t'.relax = none ∧
          t'.opts = t.opts := by
      intro t ht1 ht2
      obtain ⟨s0, h0, h1' | ⟨h1', h2⟩⟩ := solveInner_spec P rank0 t
      · obtain ⟨-, -, -, -, -, ho, -, -, hx, hr, hl⟩ := h0
        exact ⟨s0, h1'.2.2.2, by rw [hx]; exact ht1, ho⟩
      · exact absurd ⟨by simpa using h1, ht1, ht2⟩ h1'
    obtain ⟨t, ht, e1, e2⟩ := one s h2 hcr
    obtain ⟨t', ht', -⟩ := one t e1 (by rw [e2]; exact hcr)
    unfold solve at h
    rw [ht] at h
    dsimp only at h
    rw [ht'] at h
    simp at h

example : ∃ s0, Started exProblem exState s0 ∧
    Chain exProblem 1 s0 (solve exProblem true .function exState).1 := by
  have hs : (solve exProblem true .function exState).2 = .ok (1, true) := by
    rw [solve_function _ _ _ (Or.inr (Or.inl (by simp [exState]))), exSolve]
  obtain ⟨s0, h1, h2, -⟩ := C61_newton_line _ _ _ _ _ hs
  exact ⟨s0, h1, h2⟩

/-- Result of a chain: after at least one step, `initialResidual` is the norm of the first
increment. -/
theorem Spec.Chain.initialResidual {P : Problem V B M C} {n : ℕ} {s s' : St V B C}
    (h : Chain P n s s') : s'.initialResidual =
      if n = 0 ∨ s.iteration ≠ 0 then s.initialResidual
      else P.normV (P.linSolve (P.jacobian s.x s.coeffs) s.b (s.dx.getD 0)).1 := by
  induction h with
  | nil => simp
  | @cons n s s' s'' _ hs hc ih =>
    obtain ⟨dx, its, reason, k, c, h1, _, _, _, _, _, _, _, _, _, _, hit, _, _, hir⟩ := hs
    rw [ih, if_pos (Or.inr (by omega)), hir, h1]
    by_cases h0 : s.iteration = 0 <;> simp [h0]

theorem C60_aux (P : Problem V B M C) (rank0 : Bool) (s : St V B C) (n : ℕ) (conv : Bool)
    (h : (solve P rank0 .function s).2 = .ok (n, conv)) (hready : Ready rank0 s) :
    ∃ s0, Started P s s0 ∧ Chain P n s0 (solve P rank0 .function s).1 ∧
      (conv = true ↔ Accepts P (solve P rank0 .function s).1) ∧
      (conv = false → n = s.opts.maxIt ∧ s.opts.errorOnNonconvergence = false) := by
  rw [solve_function P rank0 s hready] at h ⊢
  obtain ⟨s0, h0, h1 | ⟨h1, h2⟩⟩ := solveInner_spec P rank0 s
  · rw [h1.2.2.2] at h; simp at h
  · rcases h2 with ⟨s', n', conv', hch, hn, hacc, hmax, e⟩ | ⟨s', s'', n, hch, hn, -, hl', hr', -, -, e⟩
    · rw [e] at h ⊢
      dsimp only at h ⊢
      split_ifs at h with hif
      injection h with h
      injection h with h h'
      subst h h'
      refine ⟨s0, h0, hch, hacc, fun hc => ⟨hmax hc, ?_⟩⟩
      by_contra hne
      exact hif ⟨hc, by simpa using hne⟩
    · rw [e] at h; simp at h

/-- **C60** (partial). If `solve` reports convergence, then the norm of the final residual
(criterion "residual") or of the last increment (criterion "incremental") is below `atol`, and its
ratio to `initialResidual ≠ 0` is below `rtol`; if at least one iteration was made,
`initialResidual` is the norm of this solve's first increment.
Missing: convergence reported after 0 iterations is relative to whatever an earlier solve left in
`initialResidual` (see `C60_history_violated`). -/
theorem C60_converged_partial (P : Problem V B M C) (rank0 : Bool) (s : St V B C) (n : ℕ)
    (hready : Ready rank0 s) (h : (solve P rank0 .function s).2 = .ok (n, true)) :
    let t := (solve P rank0 .function s).1
    let x0 := P.pre s.x
    let c0 := P.coefficients s.x s.coeffs
    let dx1 := (P.linSolve (P.jacobian x0 c0) (P.residual x0 c0) (s.dx.getD 0)).1
    let ref := if n = 0 then s.initialResidual else P.normV dx1
    ref ≠ 0 ∧
    (s.opts.crit = .residual → P.normB t.b / ref < s.opts.rtol ∧ P.normB t.b < s.opts.atol ∧
      t.b = P.residual t.x t.coeffs) ∧
    (s.opts.crit = .incremental → 2 ≤ n ∧ ∃ dx, t.dx = some dx ∧
      P.normV dx / ref < s.opts.rtol ∧ P.normV dx < s.opts.atol) := by
  obtain ⟨s0, h0, hch, hacc, -⟩ := C60_aux P rank0 s n true h hready
  have hsync := hch.inSync h0.2.2.1
  have hir := hch.initialResidual
  have hit := hch.iteration
  have hop := hch.opts
  have hA := hacc.mp rfl
  obtain ⟨e1, e2, e3, e4, e5, e6, e7, e8, e9, e10, e11⟩ := h0
  have hdx : n ≠ 0 → ∃ dx, (solve P rank0 .function s).1.dx = some dx := by
    have : ∀ {m : ℕ} {a b : St V B C}, Chain P m a b → (m ≠ 0 → ∃ dx, b.dx = some dx) := by
      intro m a b hc
      induction hc with
      | nil => simp
      | @cons m a a' b _ hs hc ih =>
        intro _
        by_cases hm : m = 0
        · subst hm
          cases hc
          obtain ⟨dx, _, _, _, _, h⟩ := hs
          exact ⟨dx, h.2.2.2.2.2.2.2.2.1⟩
        · exact ih hm
    exact this hch
  generalize (solve P rank0 .function s).1 = t at *
  have hirt : t.initialResidual = if n = 0 then s.initialResidual else
      P.normV (P.linSolve (P.jacobian (P.pre s.x) (P.coefficients s.x s.coeffs))
        (P.residual (P.pre s.x) (P.coefficients s.x s.coeffs)) (s.dx.getD 0)).1 := by
    rw [hir, e3, e1, e2, e8, e7]
    by_cases hn : n = 0 <;> simp [hn, e4]
  dsimp only
  rw [← hirt]
  unfold Accepts at hA
  rw [hop, e6] at hA
  refine ⟨?_, ?_, ?_⟩
  · cases hc : s.opts.crit <;> rw [hc] at hA
    · exact hA.1
    · exact hA.2.1
  · intro hc
    rw [hc] at hA
    exact ⟨hA.2.1, hA.2.2, hsync⟩
  · intro hc
    rw [hc] at hA
    have h2 : 2 ≤ n := by have := hA.1; omega
    obtain ⟨dx, hd⟩ := hdx (by omega)
    have h3 := hA.2.2
    rw [hd] at h3
    exact ⟨h2, dx, hd, h3⟩

example : ∃ n, (solve exProblem true .function exState).2 = .ok (n, true) ∧
    Ready true exState := by
  refine ⟨1, ?_, Or.inr (Or.inl (by simp [exState]))⟩
  rw [solve_function _ _ _ (Or.inr (Or.inl (by simp [exState]))), exSolve]

/-- **C62, violated for a fresh solver.** If the initial guess is an exact root (residual norm 0
for all coefficients, and the Krylov solver returns a zero increment there) and no earlier solve
set `initial_residual`, then `solve` runs all `max_it` iterations and reports *no* convergence, for
both criteria and all tolerances. -/
theorem C62_fresh_violated (P : Problem V B M C) (rank0 : Bool) (s : St V B C) (its : ℕ)
    (hready : Ready rank0 s) (hfresh : s.initialResidual = 0)
    (herr : s.opts.errorOnNonconvergence = false)
    (hpre : P.pre s.x = s.x) (hpost : P.post s.x = s.x)
    (_hroot : ∀ c, P.normB (P.residual s.x c) = 0)
    (hlin : ∀ A c d, P.linSolve A (P.residual s.x c) d = (0, its, 2))
    (hnorm : P.normV 0 = 0) :
    (solve P rank0 .function s).2 = .ok (s.opts.maxIt, false) := by
  rw [solve_function P rank0 s hready]
  have stay : ∀ {m : ℕ} {a b : St V B C}, Chain P m a b → a.x = s.x → InSync P a →
      a.initialResidual = 0 → b.initialResidual = 0 := by
    intro m a b hc
    induction hc with
    | nil => intro _ _ h; exact h
    | cons _ hs _ ih =>
      intro hx hb h0
      obtain ⟨dx, its', reason, k, c, h1, _, _, h4, _, h6, _, _, _, _, _, _, _, _, h15⟩ := hs
      rw [hb, hx, hlin] at h1
      injection h1 with h1 _
      subst h1
      apply ih
      · rw [h4, hx]; simpa using hpost
      · exact h6
      · rw [h15, h0, hnorm]; simp
  obtain ⟨s0, h0, h1 | ⟨h1, h2⟩⟩ := solveInner_spec P rank0 s
  · exfalso
    rcases hready with h | h | h
    · simp [h] at h1
    · exact absurd h1.2.1 h
    · rw [h1.2.2.1] at h; cases h
  · obtain ⟨e1, e2, e3, e4, e5, e6, e7, -⟩ := h0
    rcases h2 with ⟨s', n, conv, hch, hn, hacc, hmax, e⟩ | ⟨s', s'', n, hch, hn, -, -, -, -, hbad, e⟩
    · have hz := stay hch (by rw [e1, hpre]) e3 (by rw [e7, hfresh])
      have hc : conv = false := by
        by_contra hne
        have hA := hacc.mp (by simpa using hne)
        unfold Accepts at hA
        cases hcr : s'.opts.crit <;> rw [hcr] at hA
        · exact hA.1 hz
        · exact hA.2.1 hz
      rw [e, herr, hc, hmax hc]
      simp
    · exfalso
      have : ∀ {m : ℕ} {a b : St V B C}, Chain P m a b → a.x = s.x → InSync P a →
          b.x = s.x ∧ InSync P b := by
        intro m a b hc
        induction hc with
        | nil => intro h1 h2; exact ⟨h1, h2⟩
        | cons _ hs _ ih =>
          intro hx hb
          obtain ⟨dx, its', reason, k, c, h1, _, _, h4, _, h6, _⟩ := hs
          rw [hb, hx, hlin] at h1
          injection h1 with h1 _
          subst h1
          exact ih (by rw [h4, hx]; simpa using hpost) h6
      obtain ⟨hx, hb⟩ := this hch (by rw [e1, hpre]) e3
      rw [hb, hx, hlin] at hbad
      exact hbad (by norm_num)

/-- The hypotheses are met by `x - 1 = 0` started at `x = 1`: 50 iterations, not converged. -/
example : (solve exProblem true .function { exState with x := 1 }).2 = .ok (50, false) :=
  C62_fresh_violated exProblem true { exState with x := 1 } 1
    (Or.inr (Or.inl (by simp [exState]))) rfl rfl rfl rfl (by simp [exProblem])
    (by simp [exProblem]) (by simp [exProblem])

/-- **C62** (partial). With the residual criterion, positive tolerances and an `initial_residual`
left nonzero by an earlier solve, solving from an exact root returns at once with convergence. -/
theorem C62_used_partial (P : Problem V B M C) (rank0 : Bool) (s : St V B C)
    (hready : Ready rank0 s) (hused : s.initialResidual ≠ 0) (hcrit : s.opts.crit = .residual)
    (ha : 0 < s.opts.atol) (hr : 0 < s.opts.rtol)
    (hroot : P.normB (P.residual (P.pre s.x) (P.coefficients s.x s.coeffs)) = 0) :
    (solve P rank0 .function s).2 = .ok (0, true) ∧
      (solve P rank0 .function s).1.x = P.pre s.x := by
  rw [solve_function P rank0 s hready]
  obtain ⟨s0, h0, h1 | ⟨h1, h2⟩⟩ := solveInner_spec P rank0 s
  · exfalso
    rcases hready with h | h | h
    · simp [h] at h1
    · exact absurd h1.2.1 h
    · rw [h1.2.2.1] at h; cases h
  · obtain ⟨e1, e2, e3, e4, e5, e6, e7, -⟩ := h0
    have hA : Accepts P s0 := by
      unfold Accepts
      rw [e6, hcrit, e7]
      dsimp only
      rw [e3, e1, e2, hroot]
      exact ⟨hused, by simpa using hr, ha⟩
    rcases h2 with ⟨s', n, conv, hch, hn, hacc, hmax, e⟩ | ⟨s', s'', n, hch, hn, hx, -, -, -, hbad, e⟩
    · cases hch with
      | nil =>
        have hc := hacc.mpr hA
        rw [e, hc]
        simp [e1]
      | cons hna => exact absurd hA hna
    · exfalso
      cases hch with
      | nil =>
        obtain ⟨s1, h1', h2' | ⟨h2', h3⟩⟩ := solveInner_spec P rank0 s
        · rw [h2'.2.2.2] at e; simp at e
        · have : (solveInner P rank0 s).2 = .error .assertionError := by rw [e]
          -- an accepted start never enters the loop
          obtain ⟨conv, hc1, hc2⟩ := checkConvergence_ok rank0
            { s with iteration := 0, krylov := 0, lastResidual := -1, coeffs := P.coefficients s.x s.coeffs, x := P.pre s.x, b := P.residual (P.pre s.x) (P.coefficients s.x s.coeffs), nRes := s.nRes + 1 }
            0 (by
              rcases hready with h | h | h
              · exact Or.inl h
              · exact Or.inr h
              · rw [hcrit] at h; cases h)
          have hct : conv = true := hc2.mpr ⟨hused, by simpa using hr, ha⟩
          rw [hct] at hc1
          unfold solveInner at this
          simp only [hcrit, hroot, hc1] at this
          unfold newtonLoop at this
          simp at this
      | cons hna => exact absurd hA hna

/-- The state left by the first solve of the example meets the hypotheses. -/
example : (solve exProblem true .function exState').2 = .ok (0, true) :=
  (C62_used_partial exProblem true exState' (Or.inr (Or.inl (by simp [exState'])))
    (by simp [exState']) rfl (by norm_num [exState', Opts.default])
    (by norm_num [exState', Opts.default]) (by simp [exProblem, exState'])).1

/-- **C60/C62, history dependence.** The same problem with the same options and the same
initial guess is reported converged or not depending on the earlier use of the solver object. -/
theorem C60_history_violated : ∃ (P : Problem ℝ ℝ Unit Unit) (s s' : St ℝ ℝ Unit),
    (∃ t, (solve P true .function t) = (s, .ok (1, true)) ∧ t.opts = s'.opts) ∧
    s.x = s'.x ∧ s.coeffs = s'.coeffs ∧
    (solve P true .function s).2 = .ok (0, true) ∧
    (solve P true .function s').2 = .ok (50, false) := by
  refine ⟨exProblem, exState', { exState with x := 1 }, ⟨exState, ?_, rfl⟩, rfl, rfl, ?_, ?_⟩
  · rw [solve_function _ _ _ (Or.inr (Or.inl (by simp [exState]))), exSolve]
  · exact (C62_used_partial exProblem true exState' (Or.inr (Or.inl (by simp [exState'])))
      (by simp [exState']) rfl (by norm_num [exState', Opts.default])
      (by norm_num [exState', Opts.default]) (by simp [exProblem, exState'])).1
  · exact C62_fresh_violated exProblem true { exState with x := 1 } 1
      (Or.inr (Or.inl (by simp [exState]))) rfl rfl rfl rfl (by simp [exProblem])
      (by simp [exProblem]) (by simp [exProblem])

/-- **C63** (partial). For a `Function` argument and a solver that can be started, one call of
`solve` performs exactly one Newton iteration sequence: the number of linear solves done by the
call is the returned count (or the call raises the non-convergence error or a Krylov failure). -/
theorem C63_once_partial (P : Problem V B M C) (rank0 : Bool) (s : St V B C)
    (hready : Ready rank0 s) :
    solve P rank0 .function s = solveInner P rank0 s ∧
    ∀ n conv, (solve P rank0 .function s).2 = .ok (n, conv) →
      (solve P rank0 .function s).1.nLin = s.nLin + n ∧
      ∃ s0, Started P s s0 ∧ Chain P n s0 (solve P rank0 .function s).1 := by
  refine ⟨solve_function P rank0 s hready, fun n conv h => ⟨?_, ?_⟩⟩
  · exact ((C59_budget P rank0 s).2.2.2 n conv h).2.1
  · obtain ⟨s0, h1, h2, -⟩ := C61_newton_line P rank0 s n conv h
    exact ⟨s0, h1, h2⟩

example : Ready true exState := Or.inr (Or.inl (by simp [exState]))

/-- **C63, violated for `PETSc.Vec` arguments.** Whenever the Newton solve returns normally, a call
with a `PETSc.Vec` solves a second time from the result of the first, and returns the outcome of
the second run. -/
theorem C63_vec_violated (P : Problem V B M C) (rank0 : Bool) (s t : St V B C) (r : ℕ × Bool)
    (h : solveInner P rank0 s = (t, .ok r)) :
    solve P rank0 .petscVec s = solveInner P rank0 t := by
  unfold solve; rw [h]

/-- In the example the call with a vector returns 0 iterations although one linear solve was made;
with a `Function` it returns 1. -/
example : (solve exProblem true .petscVec exState).2 = .ok (0, true) ∧
    (solve exProblem true .function exState).2 = .ok (1, true) := by
  constructor
  · rw [C63_vec_violated _ _ _ _ _ exSolve]
    have := (C62_used_partial exProblem true exState' (Or.inr (Or.inl (by simp [exState'])))
      (by simp [exState']) rfl (by norm_num [exState', Opts.default])
      (by norm_num [exState', Opts.default]) (by simp [exProblem, exState'])).1
    rw [solve_function _ _ _ (Or.inr (Or.inl (by simp [exState'])))] at this
    exact this
  · rw [solve_function _ _ _ (Or.inr (Or.inl (by simp [exState]))), exSolve]

omit [AddCommGroup V] [Module ℝ V] in
/-- **C64** (partial: storing of options). Every given option is stored, the others are unchanged;
an unknown criterion raises. Missing: the stored relaxation parameter is not used, see
`C64_relaxation_violated`; not giving it resets it to 1. -/
theorem C64_options_partial (s : St V B C) (d : OptDict) :
    (d.crit = some none → (setNewtonOptions s d).2 = some .runtimeError) ∧
    (d.crit ≠ some none →
      setNewtonOptions s d =
        ({ s with
            opts :=
              { maxIt := d.maxIt.getD s.opts.maxIt
                rtol := d.rtol.getD s.opts.rtol
                atol := d.atol.getD s.opts.atol
                crit := (d.crit.getD (some s.opts.crit)).getD s.opts.crit
                errorOnNonconvergence := d.errorOn.getD s.opts.errorOnNonconvergence }
            relax := some (d.relax.getD 1) }, none)) := by
  rcases d with ⟨_ | a, _ | r, _ | (_ | c), _ | m, _ | e, _ | x⟩ <;>
    constructor <;> intro h <;> simp_all [setNewtonOptions] <;> norm_num

example : (setNewtonOptions exState { maxIt := some 7, crit := some (some .incremental) }).1.opts =
    { Opts.default with maxIt := 7, crit := .incremental } := rfl

/-- **C64, violated: the user's relaxation parameter has no effect.** Two solvers that differ only
in a (set) relaxation parameter produce the same result and the same solution, whatever the
argument kind, problem and state. -/
theorem C64_relaxation_violated (P : Problem V B M C) (rank0 : Bool) (s : St V B C) (r r' : ℝ) :
    (solveInner P rank0 { s with relax := some r }).2 =
      (solveInner P rank0 { s with relax := some r' }).2 ∧
    (solveInner P rank0 { s with relax := some r }).1.x =
      (solveInner P rank0 { s with relax := some r' }).1.x := by
  have hbody : ∀ (s : St V B C) (resOld r r' : ℝ),
      body P rank0 resOld { s with relax := some r } =
        body P rank0 resOld { s with relax := some r' } := by
    intros; rfl
  have hloop : ∀ (fuel : ℕ) (conv : Bool) (resOld : ℝ) (s : St V B C),
      (newtonLoop P rank0 fuel conv resOld { s with relax := some r } =
        newtonLoop P rank0 fuel conv resOld { s with relax := some r' }) ∨
      ∃ o, newtonLoop P rank0 fuel conv resOld { s with relax := some r } =
          ({ s with relax := some r }, o) ∧
        newtonLoop P rank0 fuel conv resOld { s with relax := some r' } =
          ({ s with relax := some r' }, o) := by
    intro fuel
    cases fuel with
    | zero => intro conv resOld s; right; exact ⟨_, rfl, rfl⟩
    | succ fuel =>
      intro conv resOld s
      unfold newtonLoop
      by_cases hc : conv = false ∧ s.iteration < s.opts.maxIt
      · left
        simp only [if_pos hc]
        rw [hbody s resOld r r']
      · right
        simp only [if_neg hc]
        exact ⟨_, rfl, rfl⟩
  have hcheck : ∀ (s : St V B C) (v : ℝ),
      checkConvergence rank0 { s with relax := some r } v =
        checkConvergence rank0 { s with relax := some r' } v := by
    intro s v; simp [checkConvergence]
  let sA : St V B C := { s with iteration := 0, krylov := 0, lastResidual := -1, coeffs := P.coefficients s.x s.coeffs, x := P.pre s.x, b := P.residual (P.pre s.x) (P.coefficients s.x s.coeffs), nRes := s.nRes + 1 }
  have fin : ∀ (lr : ℝ) (conv : Bool),
      let f := fun q : ℝ => (match newtonLoop P rank0 (s.opts.maxIt + 1) conv (P.normB sA.b)
          { sA with relax := some q, lastResidual := lr } with
        | (s, .error e) => (s, Except.error e)
        | (s, .ok conv) =>
          if conv = false ∧ s.opts.errorOnNonconvergence = true then (s, .error .runtimeError)
          else (s, .ok (s.iteration, conv)))
      (f r).2 = (f r').2 ∧ (f r).1.x = (f r').1.x := by
    intro lr conv
    dsimp only
    rcases hloop (s.opts.maxIt + 1) conv (P.normB sA.b) { sA with lastResidual := lr } with h | ⟨o, h1, h2⟩
    · dsimp only at h
      rw [h]; exact ⟨rfl, rfl⟩
    · dsimp only at h1 h2
      rw [h1, h2]
      cases o with
      | error e => exact ⟨rfl, rfl⟩
      | ok c => dsimp only; split_ifs <;> exact ⟨rfl, rfl⟩
  unfold solveInner
  dsimp only
  cases hcr : s.opts.crit with
  | incremental => exact fin (-1) false
  | residual =>
    dsimp only
    have := hcheck sA (P.normB sA.b)
    simp only [sA, hcr] at this
    rw [this]
    cases hck : checkConvergence rank0 { s with iteration := 0, krylov := 0, lastResidual := -1, coeffs := P.coefficients s.x s.coeffs, x := P.pre s.x, b := P.residual (P.pre s.x) (P.coefficients s.x s.coeffs), nRes := s.nRes + 1, relax := some r' } (P.normB (P.residual (P.pre s.x) (P.coefficients s.x s.coeffs))) with
    | error e => exact ⟨rfl, rfl⟩
    | ok p =>
      obtain ⟨lr, conv⟩ := p
      exact fin lr conv

/-- With a user relaxation of 1/2 the example still makes the full step from 0 to 1. -/
example : (solve exProblem true .function (setNewtonOptions exState { relax := some (1 / 2) }).1).1.x
    = 1 := by
  have e : (setNewtonOptions exState { relax := some (1 / 2) }).1 =
      { exState with relax := some (1 / 2) } := rfl
  rw [e, solve_function _ _ _ (Or.inr (Or.inl (by simp)))]
  rw [(C64_relaxation_violated exProblem true exState (1 / 2) 1).2]
  have : ({ exState with relax := some 1 } : St ℝ ℝ Unit) = exState := rfl
  rw [this, exSolve]
  rfl

/-- **C65.** For a `Function` argument and a startable solver: the non-convergence error is raised
only if it was requested, all `max_it` iterations were made and the tolerances do not hold; a
normal return reports convergence exactly if the tolerances hold, and reports non-convergence only
if no error was requested; and if all Krylov solves succeed these are the only outcomes. -/
theorem C65_reporting (P : Problem V B M C) (rank0 : Bool) (s : St V B C)
    (hready : Ready rank0 s) :
    ((solve P rank0 .function s).2 = .error .runtimeError →
      s.opts.errorOnNonconvergence = true ∧ ¬ Accepts P (solve P rank0 .function s).1 ∧
      (solve P rank0 .function s).1.iteration = s.opts.maxIt) ∧
    (∀ n conv, (solve P rank0 .function s).2 = .ok (n, conv) →
      (conv = true ↔ Accepts P (solve P rank0 .function s).1) ∧
      (conv = false → s.opts.errorOnNonconvergence = false ∧ n = s.opts.maxIt)) ∧
    (LinearSolverOk P → (solve P rank0 .function s).2 = .error .runtimeError ∨
      ∃ n conv, (solve P rank0 .function s).2 = .ok (n, conv)) := by
  refine ⟨?_, ?_, ?_⟩
  · rw [solve_function P rank0 s hready]
    intro h
    obtain ⟨s0, h0, h1 | ⟨h1, h2⟩⟩ := solveInner_spec P rank0 s
    · rw [h1.2.2.2] at h; simp at h
    · rcases h2 with ⟨s', n, conv, hch, hn, hacc, hmax, e⟩ | ⟨s', s'', n, hch, hn, -, hl', hr', -, -, e⟩
      · rw [e] at h ⊢
        dsimp only at h ⊢
        split_ifs at h with hif
        refine ⟨hif.2, fun hA => ?_, ?_⟩
        · have := hacc.mpr hA; rw [hif.1] at this; cases this
        · have := hch.iteration
          have := hmax hif.1
          have := h0.2.2.2.1
          omega
      · rw [e] at h; simp at h
  · intro n conv h
    obtain ⟨s0, h0, hch, hacc, hf⟩ := C60_aux P rank0 s n conv h hready
    exact ⟨hacc, fun hc => ⟨(hf hc).2, (hf hc).1⟩⟩
  · intro hlin
    rw [solve_function P rank0 s hready]
    obtain ⟨s0, h0, h1 | ⟨h1, h2⟩⟩ := solveInner_spec P rank0 s
    · exfalso
      rcases hready with h | h | h
      · simp [h] at h1
      · exact absurd h1.2.1 h
      · rw [h1.2.2.1] at h; cases h
    · rcases h2 with ⟨s', n, conv, hch, hn, hacc, hmax, e⟩ | ⟨s', s'', n, hch, hn, -, hl', hr', -, hbad, e⟩
      · rw [e]
        dsimp only
        split_ifs
        · exact Or.inl rfl
        · exact Or.inr ⟨n, conv, rfl⟩
      · exact absurd (hlin _ _ _) hbad

example : Ready true exState ∧ LinearSolverOk exProblem :=
  ⟨Or.inr (Or.inl (by simp [exState])), fun _ _ _ => by norm_num [exProblem]⟩

/-- **C73, violated.** A solver on which `set_newton_options` was never called raises an
`AttributeError` on rank 0 for every problem, and on no other rank: the processes part ways. -/
theorem C73_default_options_violated (P : Problem V B M C) (arg : Arg) (x : V) (c : C) (b : B) :
    (solve P true arg (St.init x c b)).2 = .error .attributeError ∧
    (solve P false .function (St.init x c b)).2 ≠ .error .attributeError := by
  constructor
  · have one : ∀ t : St V B C, t.relax = none → t.opts.crit = .residual →
        ∃ t', solveInner P true t = (t', .error .attributeError) ∧ t'.relax = none ∧
          t'.opts = t.opts := by
      intro t ht1 ht2
      obtain ⟨s0, h0, h1' | ⟨h1', h2⟩⟩ := solveInner_spec P true t
      · obtain ⟨-, -, -, -, -, ho, -, -, hx, hr, hl⟩ := h0
        exact ⟨s0, h1'.2.2.2, by rw [hx]; exact ht1, ho⟩
      · exact absurd ⟨rfl, ht1, ht2⟩ h1'
    obtain ⟨t, ht, e1, e2⟩ := one (St.init x c b) rfl rfl
    obtain ⟨t', ht', -⟩ := one t e1 (by rw [e2]; rfl)
    unfold solve
    rw [ht]
    dsimp only
    rw [ht']
  · rw [solve_function P false _ (Or.inl rfl)]
    obtain ⟨s0, h0, h1 | ⟨h1, h2⟩⟩ := solveInner_spec P false (St.init x c b)
    · simp at h1
    · rcases h2 with ⟨s', n, conv, hch, hn, hacc, hmax, e⟩ | ⟨s', s'', n, hch, hn, -, hl', hr', -, hbad, e⟩
      · rw [e]; dsimp only; split_ifs <;> simp
      · rw [e]; simp

/-- **C73** (partial): after `set_newton_options` (with a valid criterion) the solver never raises
`AttributeError` for a `Function` argument. -/
theorem C73_after_options_partial (P : Problem V B M C) (rank0 : Bool) (s : St V B C) (d : OptDict)
    (hd : d.crit ≠ some none) :
    (solve P rank0 .function (setNewtonOptions s d).1).2 ≠ .error .attributeError := by
  have hr : (setNewtonOptions s d).1.relax ≠ none := by
    rw [(C64_options_partial s d).2 hd]; simp
  rw [solve_function P rank0 _ (Or.inr (Or.inl hr))]
  obtain ⟨s0, h0, h1 | ⟨h1, h2⟩⟩ := solveInner_spec P rank0 (setNewtonOptions s d).1
  · exact absurd h1.2.1 hr
  · rcases h2 with ⟨s', n, conv, hch, hn, hacc, hmax, e⟩ | ⟨s', s'', n, hch, hn, -, hl', hr', -, hbad, e⟩
    · rw [e]; dsimp only; split_ifs <;> simp
    · rw [e]; simp

example : ({ rtol := some 1e-9 } : OptDict).crit ≠ some none := by simp

end Verif.Newton
