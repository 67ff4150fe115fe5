import Verif.Lemmas.NewtonCallbacks

/-! Newton's method with a smaller number of iterations; `solve` with callbacks that do not raise. -/

namespace Verif.NewtonCallbacks

variable {V B M C : Type} [AddCommGroup V] [Module ℝ V] (Q : Newton.Problem V B (M × Option M) C)

/-- Limits the number of iterations. -/
def lim (k : ℕ) (s : Newton.St V B C) : Newton.St V B C :=
  { s with opts := { s.opts with maxIt := k, errorOnNonconvergence := false } }

theorem lim_line (k : ℕ) (xCopy dx : V) (resOld : ℝ) : ∀ (fuel : ℕ) (relax : ℝ) (s : Newton.St V B C),
    Newton.lineSearch Q xCopy dx resOld fuel relax (lim k s)
      = (Newton.lineSearch Q xCopy dx resOld fuel relax s).map (fun r => (r.1, lim k r.2)) := by
  intro fuel
  induction fuel with
  | zero => intro relax s; rfl
  | succ fuel ih =>
    intro relax s
    unfold Newton.lineSearch
    have e : (lim k s).b = s.b := rfl
    rw [e]
    by_cases h1 : resOld < Q.normB s.b
    · rw [if_pos h1, if_pos h1]
      dsimp only
      by_cases h2 : 0.5 * relax < 1e-2
      · rw [if_pos h2, if_pos h2]; rfl
      · rw [if_neg h2, if_neg h2]
        exact ih _ (Newton.evaluate Q s (Newton.updateSolution (0.5 * relax) dx xCopy))
    · rw [if_neg h1, if_neg h1]; rfl

theorem line_opts (xCopy dx : V) (resOld : ℝ) : ∀ (fuel : ℕ) (relax : ℝ) (s : Newton.St V B C) (r : ℝ) (t : Newton.St V B C),
    Newton.lineSearch Q xCopy dx resOld fuel relax s = some (r, t) → t.opts = s.opts ∧ t.iteration = s.iteration := by
  intro fuel
  induction fuel with
  | zero => intro relax s r t h; cases h
  | succ fuel ih =>
    intro relax s r t h
    unfold Newton.lineSearch at h
    by_cases h1 : resOld < Q.normB s.b
    · rw [if_pos h1] at h
      dsimp only at h
      by_cases h2 : 0.5 * relax < 1e-2
      · simp only [if_pos h2, Option.some.injEq, Prod.mk.injEq] at h
        obtain ⟨rfl, rfl⟩ := h
        exact ⟨rfl, rfl⟩
      · rw [if_neg h2] at h
        exact ih _ (Newton.evaluate Q s (Newton.updateSolution (0.5 * relax) dx xCopy)) _ _ h
    · simp only [if_neg h1, Option.some.injEq, Prod.mk.injEq] at h
      obtain ⟨rfl, rfl⟩ := h
      exact ⟨rfl, rfl⟩

/-- The state tested for convergence. -/
noncomputable def tested (out : V) (r : ℝ) (t : Newton.St V B C) : Newton.St V B C :=
  if t.iteration = 1 then { t with relax := some r, initialResidual := Q.normV out } else { t with relax := some r }

theorem tested_fields (out : V) (r : ℝ) (t : Newton.St V B C) :
    (tested Q out r t).relax = some r ∧ (tested Q out r t).opts = t.opts ∧ (tested Q out r t).iteration = t.iteration
    ∧ (tested Q out r t).x = t.x := by
  unfold tested
  split <;> exact ⟨rfl, rfl, rfl, rfl⟩

theorem lim_tested (k : ℕ) (out : V) (r : ℝ) (t : Newton.St V B C) : tested Q out r (lim k t) = lim k (tested Q out r t) := by
  unfold tested
  have e : (lim k t).iteration = t.iteration := rfl
  rw [e]
  split <;> rfl

theorem lim_test (k : ℕ) (rank0 : Bool) (s : Newton.St V B C) :
    Newton.testConvergence Q rank0 (lim k s) = Newton.testConvergence Q rank0 s := rfl

omit [AddCommGroup V] [Module ℝ V] in
theorem check_ok (rank0 : Bool) (s : Newton.St V B C) (r : ℝ) (h : s.relax ≠ none) :
    ∃ c, Newton.checkConvergence rank0 s r = .ok c := by
  unfold Newton.checkConvergence
  dsimp only
  rw [if_neg (fun k => h k.2)]
  exact ⟨_, rfl⟩

omit [AddCommGroup V] [Module ℝ V] in
theorem check_error (rank0 : Bool) (s : Newton.St V B C) (r : ℝ) (e : Newton.Err)
    (h : Newton.checkConvergence rank0 s r = .error e) : rank0 = true ∧ s.relax = none := by
  by_contra hn
  unfold Newton.checkConvergence at h
  dsimp only at h
  rw [if_neg hn] at h
  cases h

theorem test_ok (rank0 : Bool) (s : Newton.St V B C) (h : s.relax ≠ none) : ∃ c, Newton.testConvergence Q rank0 s = .ok c := by
  unfold Newton.testConvergence
  cases s.opts.crit with
  | residual => exact check_ok rank0 s _ h
  | incremental =>
    dsimp only
    split
    · exact ⟨_, rfl⟩
    · exact check_ok rank0 s _ h

/-- An iteration either fails in the linear solver, or succeeds; a limit on the number of iterations does not matter. -/
theorem body_shape (rank0 : Bool) (resOld : ℝ) (s : Newton.St V B C) :
    (∃ t, Newton.body Q rank0 resOld s = (t, .error .assertionError))
    ∨ ∃ t c, Newton.body Q rank0 resOld s = (t, .ok c) ∧ t.iteration = s.iteration + 1 ∧ t.opts = s.opts
      ∧ ∀ k, Newton.body Q rank0 resOld (lim k s) = (lim k t, .ok c) := by
  have e : ∀ k, Newton.body Q rank0 resOld (lim k s) = Newton.bodyOf Q rank0 resOld (lim k s)
      (Q.linSolve (Q.jacobian s.x s.coeffs) s.b (s.dx.getD 0)) := fun k => Newton.body_eq _ _ _ _
  simp only [e]
  rw [Newton.body_eq]
  generalize Q.linSolve (Q.jacobian s.x s.coeffs) s.b (s.dx.getD 0) = out
  by_cases h1 : ¬ out.2.2 > 0
  · left
    unfold Newton.bodyOf
    dsimp only
    rw [if_pos h1]
    exact ⟨_, rfl⟩
  right
  obtain ⟨s1, hs1⟩ : ∃ s1 : Newton.St V B C, s1 = { s with
    relax := some 1.0, dx := some out.1, krylov := s.krylov + out.2.1, nLin := s.nLin + 1, iteration := s.iteration + 1 } :=
    ⟨_, rfl⟩
  obtain ⟨r, t, ht⟩ := line_some Q s.x out.1 resOld s1
  have hto := line_opts Q _ _ _ _ _ _ _ _ ht
  obtain ⟨c, hc⟩ := test_ok Q rank0 (tested Q out.1 r t) (by rw [(tested_fields Q out.1 r t).1]; simp)
  refine ⟨{ tested Q out.1 r t with lastResidual := c.1 }, (c.2, Q.normB t.b), ?_, ?_, ?_, ?_⟩
  · unfold Newton.bodyOf
    dsimp only
    rw [if_neg h1, ← hs1, ht]
    dsimp only
    show ((match Newton.testConvergence Q rank0 (tested Q out.1 r t) with
      | .error e => (tested Q out.1 r t, .error e)
      | .ok (r', conv) => ({ tested Q out.1 r t with lastResidual := r' }, .ok (conv, Q.normB t.b))) :
        Newton.St V B C × Except Newton.Err (Bool × ℝ)) = _
    rw [hc]
  · show (tested Q out.1 r t).iteration = _
    rw [(tested_fields Q out.1 r t).2.2.1, hto.2, hs1]
    rfl
  · show (tested Q out.1 r t).opts = _
    rw [(tested_fields Q out.1 r t).2.1, hto.1, hs1]
    rfl
  · intro k
    unfold Newton.bodyOf
    dsimp only
    rw [if_neg h1]
    have hk := lim_line Q k s.x out.1 resOld 8 1.0 (Newton.evaluate Q s1 (Newton.updateSolution 1.0 out.1 s.x))
    rw [ht] at hk
    have hk' : Newton.lineSearch Q (lim k s).x out.1 resOld 8 1.0 (Newton.evaluate Q { lim k s with
        relax := some 1.0, dx := some out.1, krylov := (lim k s).krylov + out.2.1, nLin := (lim k s).nLin + 1,
        iteration := (lim k s).iteration + 1 } (Newton.updateSolution 1.0 out.1 (lim k s).x)) = some (r, lim k t) := by
      rw [hs1] at hk
      exact hk
    rw [hk']
    dsimp only
    show ((match Newton.testConvergence Q rank0 (tested Q out.1 r (lim k t)) with
      | .error e => (tested Q out.1 r (lim k t), .error e)
      | .ok (r', conv) => ({ tested Q out.1 r (lim k t) with lastResidual := r' }, .ok (conv, Q.normB (lim k t).b))) :
        Newton.St V B C × Except Newton.Err (Bool × ℝ)) = _
    rw [lim_tested, lim_test, hc]
    rfl

/-- The loop: the displacements visited are those left by loops with fewer iterations. -/
theorem loop_visits (rank0 : Bool) : ∀ (fuel : ℕ) (conv : Bool) (resOld : ℝ) (s t : Newton.St V B C) (c : Bool),
    Newton.newtonLoop Q rank0 fuel conv resOld s = (t, .ok c) →
    t.iteration = s.iteration + (visits Q rank0 fuel conv resOld s).length
    ∧ ((visits Q rank0 fuel conv resOld s) ≠ [] → (visits Q rank0 fuel conv resOld s).getLast? = some t.x)
    ∧ ∀ i x, (visits Q rank0 fuel conv resOld s)[i]? = some x → ∀ fuel', i + 1 < fuel' →
      ∃ u c', Newton.newtonLoop Q rank0 fuel' conv resOld (lim (s.iteration + i + 1) s) = (u, .ok c') ∧ u.x = x
        ∧ u.opts.errorOnNonconvergence = false := by
  intro fuel
  induction fuel with
  | zero => intro conv resOld s t c h; cases h
  | succ fuel ih =>
    intro conv resOld s t c h
    unfold Newton.newtonLoop at h
    unfold visits
    by_cases hg : conv = false ∧ s.iteration < s.opts.maxIt
    · simp only [if_pos hg] at h ⊢
      rcases body_shape Q rank0 resOld s with ⟨t1, hb⟩ | ⟨t1, ⟨c1, r1⟩, hb, hi, ho, hl⟩
      · rw [hb] at h; cases h
      · rw [hb] at h ⊢
        dsimp only at h ⊢
        obtain ⟨i1, i2, i3⟩ := ih c1 r1 t1 t c h
        refine ⟨by rw [i1, hi, List.length_cons]; omega, ?_, ?_⟩
        · rintro -
          cases hv : visits Q rank0 fuel c1 r1 t1 with
          | nil =>
            have : t = t1 := by
              cases fuel with
              | zero => cases h
              | succ f =>
                unfold Newton.newtonLoop at h
                unfold visits at hv
                by_cases hg1 : c1 = false ∧ t1.iteration < t1.opts.maxIt
                · simp only [if_pos hg1] at h hv
                  rcases body_shape Q rank0 r1 t1 with ⟨t2, hb2⟩ | ⟨t2, ⟨c2, r2⟩, hb2, -⟩
                  · rw [hb2] at h; cases h
                  · rw [hb2] at hv; cases hv
                · simp only [if_neg hg1, Prod.mk.injEq] at h
                  exact h.1.symm
            rw [this]; rfl
          | cons y ys =>
            rw [hv] at i2
            rw [List.getLast?_cons_cons]
            exact i2 (by simp)
        · intro i x hx fuel' hf
          obtain ⟨f, rfl⟩ : ∃ f, fuel' = f + 1 := ⟨fuel' - 1, by omega⟩
          have hlim : Newton.newtonLoop Q rank0 (f + 1) conv resOld (lim (s.iteration + i + 1) s)
              = Newton.newtonLoop Q rank0 f c1 r1 (lim (s.iteration + i + 1) t1) := by
            show (if conv = false ∧ s.iteration < s.iteration + i + 1 then _ else _) = _
            rw [if_pos ⟨hg.1, by omega⟩, hl]
          rw [hlim]
          cases i with
          | zero =>
            obtain ⟨f', rfl⟩ : ∃ f', f = f' + 1 := ⟨f - 1, by omega⟩
            refine ⟨lim (s.iteration + 0 + 1) t1, c1, ?_, ?_, rfl⟩
            · show (if c1 = false ∧ t1.iteration < s.iteration + 0 + 1 then _ else _) = _
              rw [if_neg (by rintro ⟨-, hh⟩; omega)]
            · have hx' : t1.x = x := by simpa using hx
              exact hx'
          | succ i =>
            obtain ⟨u, c', h1, h2⟩ := i3 i x (by simpa using hx) f (by omega)
            refine ⟨u, c', ?_, h2⟩
            rw [← h1, hi]
            congr 2
            omega
    · simp only [if_neg hg, Prod.mk.injEq] at h ⊢
      obtain ⟨rfl, -⟩ := h
      refine ⟨by simp, by simp, by simp⟩

theorem loop_no_attr (rank0 : Bool) : ∀ (fuel : ℕ) (conv : Bool) (resOld : ℝ) (s : Newton.St V B C),
    (Newton.newtonLoop Q rank0 fuel conv resOld s).2 ≠ .error .attributeError := by
  intro fuel
  induction fuel with
  | zero => intro conv resOld s h; cases h
  | succ fuel ih =>
    intro conv resOld s h
    unfold Newton.newtonLoop at h
    by_cases hg : conv = false ∧ s.iteration < s.opts.maxIt
    · simp only [if_pos hg] at h
      rcases body_shape Q rank0 resOld s with ⟨t1, hb⟩ | ⟨t1, c, hb, -⟩
      · rw [hb] at h; cases h
      · rw [hb] at h; exact ih _ _ _ h
    · simp only [if_neg hg] at h
      cases h

theorem finish_attr (o : Newton.St V B C × Except Newton.Err Bool) (h : (Newton.finish o).2 = .error .attributeError) :
    o.2 = .error .attributeError := by
  rcases o with ⟨t, e | c⟩
  · cases h; rfl
  · unfold Newton.finish at h
    dsimp only at h
    split at h <;> cases h

theorem finish_ok (o : Newton.St V B C × Except Newton.Err Bool) (y : ℕ × Bool) (h : (Newton.finish o).2 = .ok y) :
    ∃ t, o = (t, .ok y.2) ∧ y.1 = t.iteration ∧ (Newton.finish o).1 = t := by
  rcases o with ⟨t, e | c⟩
  · cases h
  · unfold Newton.finish at h ⊢
    dsimp only at h ⊢
    split at h
    · cases h
    · rename_i hn
      cases h
      refine ⟨t, rfl, rfl, ?_⟩
      rw [if_neg hn]

/-- A second attempt after an `AttributeError` also raises it. -/
theorem inner_attr (rank0 : Bool) (s : Newton.St V B C) (h : (Newton.solveInner Q rank0 s).2 = .error .attributeError) :
    (Newton.solveInner Q rank0 (Newton.solveInner Q rank0 s).1).2 = .error .attributeError := by
  have es := Newton.solveInner_eq Q rank0 s
  rw [es] at h ⊢
  unfold Newton.inner at h
  cases hcrit : (Newton.begun Q s).opts.crit with
  | incremental =>
    rw [hcrit] at h
    exact absurd (finish_attr _ h) (loop_no_attr Q _ _ _ _ _)
  | residual =>
    rw [hcrit] at h
    dsimp only at h
    cases hck : Newton.checkConvergence rank0 (Newton.begun Q s) (Q.normB (Newton.begun Q s).b) with
    | ok c =>
      rw [hck] at h
      exact absurd (finish_attr _ h) (loop_no_attr Q _ _ _ _ _)
    | error e =>
      have hr := check_error _ _ _ _ hck
      have h1 : (Newton.inner Q rank0 (Newton.begun Q s)).1 = Newton.begun Q s := by
        unfold Newton.inner
        rw [hcrit]
        dsimp only
        rw [hck]
      rw [h1, Newton.solveInner_eq]
      unfold Newton.inner
      have hc2 : (Newton.begun Q (Newton.begun Q s)).opts.crit = .residual := hcrit
      rw [hc2]
      dsimp only
      have : Newton.checkConvergence rank0 (Newton.begun Q (Newton.begun Q s)) (Q.normB (Newton.begun Q (Newton.begun Q s)).b)
          = .error .attributeError := by
        unfold Newton.checkConvergence
        dsimp only
        rw [if_pos (show rank0 = true ∧ (Newton.begun Q (Newton.begun Q s)).relax = none from hr)]
      rw [this]

/-- The iterates of a solve that succeeds. -/
theorem inner_visits (rank0 : Bool) (s : Newton.St V B C) (y : ℕ × Bool) (h : (Newton.solveInner Q rank0 s).2 = .ok y) :
    (mainLoop Q rank0 (Newton.begun Q s)).length = y.1
    ∧ (0 < y.1 → (mainLoop Q rank0 (Newton.begun Q s)).getLast? = some (Newton.solveInner Q rank0 s).1.x)
    ∧ ∀ i x, (mainLoop Q rank0 (Newton.begun Q s))[i]? = some x →
      ∃ y', (Newton.solveInner Q rank0 (lim (i + 1) s)).2 = .ok y' ∧ (Newton.solveInner Q rank0 (lim (i + 1) s)).1.x = x := by
  have eL : ∀ k, Newton.solveInner Q rank0 (lim k s) = Newton.inner Q rank0 (lim k (Newton.begun Q s)) := fun k =>
    Newton.solveInner_eq _ _ _
  simp only [eL]
  rw [Newton.solveInner_eq] at h ⊢
  obtain ⟨s0, hs0⟩ : ∃ s0, s0 = Newton.begun Q s := ⟨_, rfl⟩
  have hit : s0.iteration = 0 := by rw [hs0]; rfl
  rw [← hs0] at h ⊢
  have key : ∀ (conv : Bool) (s1 : Newton.St V B C), s1.iteration = 0 →
      (Newton.finish (Newton.newtonLoop Q rank0 (s0.opts.maxIt + 1) conv (Q.normB s0.b) s1)).2 = .ok y →
      (visits Q rank0 (s0.opts.maxIt + 1) conv (Q.normB s0.b) s1).length = y.1
      ∧ (0 < y.1 → (visits Q rank0 (s0.opts.maxIt + 1) conv (Q.normB s0.b) s1).getLast?
        = some (Newton.finish (Newton.newtonLoop Q rank0 (s0.opts.maxIt + 1) conv (Q.normB s0.b) s1)).1.x)
      ∧ ∀ i x, (visits Q rank0 (s0.opts.maxIt + 1) conv (Q.normB s0.b) s1)[i]? = some x →
        ∃ y', (Newton.finish (Newton.newtonLoop Q rank0 (i + 1 + 1) conv (Q.normB s0.b) (lim (i + 1) s1))).2 = .ok y'
        ∧ (Newton.finish (Newton.newtonLoop Q rank0 (i + 1 + 1) conv (Q.normB s0.b) (lim (i + 1) s1))).1.x = x := by
    intro conv s1 h1 hy
    obtain ⟨t, ht, hyt, hft⟩ := finish_ok _ _ hy
    obtain ⟨v1, v2, v3⟩ := loop_visits Q rank0 _ _ _ _ _ _ ht
    rw [h1] at v1
    refine ⟨by omega, ?_, ?_⟩
    · intro hpos
      rw [hft]
      refine v2 ?_
      intro hnil
      rw [hnil] at v1
      simp at v1
      omega
    · intro i x hx
      obtain ⟨u, c', hu, hux, hue⟩ := v3 i x hx (i + 1 + 1) (by omega)
      rw [h1, Nat.zero_add] at hu
      rw [hu]
      unfold Newton.finish
      dsimp only
      rw [if_neg (by rw [hue]; simp)]
      exact ⟨_, rfl, hux⟩
  unfold Newton.inner at h ⊢
  unfold mainLoop
  have eC : ∀ k, (lim k s0).opts.crit = s0.opts.crit := fun _ => rfl
  have eK : ∀ k, Newton.checkConvergence rank0 (lim k s0) (Q.normB (lim k s0).b) = Newton.checkConvergence rank0 s0 (Q.normB s0.b) :=
    fun _ => rfl
  simp only [eC, eK]
  cases hcrit : s0.opts.crit with
  | incremental =>
    rw [hcrit] at h
    exact key false s0 hit h
  | residual =>
    rw [hcrit] at h
    dsimp only at h ⊢
    cases hck : Newton.checkConvergence rank0 s0 (Q.normB s0.b) with
    | error e => rw [hck] at h; cases h
    | ok c =>
      rw [hck] at h
      exact key c.2 (Newton.withResidual s0 c.1) hit h

variable (K : Cbs V B M C) (L : Lib V B M)

/-- `solve`. -/
theorem Cbs.solve (rank0 : Bool) (arg : Newton.Arg) (write : Bool) (offset : Option V) (s : Newton.St V B C) (A : M)
    (P : Option M) (F : List V) (hP : K.Fits P) :
    ∃ A' P', K.Fits P' ∧ ∃ F', (arg = .petscVec ∨ write = false → F' = F)
      ∧ (arg = .function → write = true → ∀ y, (Newton.solve (K.problem L) rank0 arg s).2 = .ok y →
        F' = (s.x :: mainLoop (K.problem L) rank0 (Newton.begun (K.problem L) s)).map (fun x => x + offset.getD 0)
        ∧ Newton.solve (K.problem L) rank0 arg s = Newton.solveInner (K.problem L) rank0 s)
      ∧ NewtonCallbacks.solve L rank0 arg write offset (K.obj s A P F)
        = (K.obj (Newton.solve (K.problem L) rank0 arg s).1 A' P' F',
          match (Newton.solve (K.problem L) rank0 arg s).2 with
          | .ok y => .ok y
          | .error e => .error (exn e)) := by
  obtain ⟨A1, P1, hP1, F1, hF1, hw1, h1⟩ := K.inner L rank0 (write && decide (arg = .function)) offset s A P F hP
  have hattr := inner_attr (K.problem L) rank0 s
  unfold NewtonCallbacks.solve Newton.solve
  have hF : arg = .petscVec ∨ write = false → F1 = F := by
    intro h
    refine hw1 ?_
    rcases h with h | h <;> rw [h]
    · cases write <;> rfl
    · rfl
  have hF2 : arg = .function → write = true → ∀ y, (Newton.solveInner (K.problem L) rank0 s).2 = .ok y →
      F1 = (s.x :: mainLoop (K.problem L) rank0 (Newton.begun (K.problem L) s)).map (fun x => x + offset.getD 0) := by
    intro ha hw y hy
    rw [hF1 ⟨y, hy⟩, ha, hw]
    rfl
  revert h1 hF2 hattr
  rcases Newton.solveInner (K.problem L) rank0 s with ⟨t, err | y⟩
  · intro h1 hattr hF2
    cases err with
    | attributeError =>
      obtain ⟨A2, P2, hP2, F2, -, hw2, h2⟩ := K.inner L rank0 false none t A1 P1 F1 hP1
      have := hattr rfl
      dsimp only at this
      rw [this] at h2
      refine ⟨A2, P2, hP2, F2, fun h => (hw2 rfl).trans (hF h), ?_, ?_⟩
      · intro ha hw y hy
        dsimp only at hy
        rw [this] at hy
        cases hy
      · refine (except_attr (bind_error h1)).trans ((bind_error h2).trans ?_)
        dsimp only
        rw [this]
    | runtimeError =>
      exact ⟨A1, P1, hP1, F1, hF, fun _ _ y hy => (by cases hy), except_other (bind_error h1) (by simp [exn])⟩
    | assertionError =>
      exact ⟨A1, P1, hP1, F1, hF, fun _ _ y hy => (by cases hy), except_other (bind_error h1) (by simp [exn])⟩
    | fuel =>
      exact ⟨A1, P1, hP1, F1, hF, fun _ _ y hy => (by cases hy), except_other (bind_error h1) (by simp [exn])⟩
  · intro h1 _ hF2
    cases arg with
    | function =>
      exact ⟨A1, P1, hP1, F1, hF, fun ha hw y hy => ⟨hF2 ha hw y hy, rfl⟩, except_ok (bind_ok h1)⟩
    | petscVec =>
      obtain ⟨A2, P2, hP2, F2, -, hw2, h2⟩ := K.inner L rank0 false none t A1 P1 F1 hP1
      refine ⟨A2, P2, hP2, F2, fun h => (hw2 rfl).trans (hF h), fun ha => (by cases ha),
        (except_attr (bind_ok h1)).trans ?_⟩
      dsimp only
      revert h2
      rcases Newton.solveInner (K.problem L) rank0 t with ⟨t', e | y'⟩
      · exact fun h2 => (bind_error h2).trans rfl
      · exact fun h2 => (bind_ok h2).trans rfl

end Verif.NewtonCallbacks
