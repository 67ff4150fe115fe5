import Verif.Spec.NewtonCallbacks
import Verif.Lemmas.NewtonSim
import Verif.Lemmas.Newton

/-! Newton's method with callbacks that do not raise is Newton's method of `Model/Newton.lean`. -/

namespace Verif.NewtonCallbacks

variable {V B M C α β : Type}

theorem bind_ok {a : Act V B M C α} {f : α → Act V B M C β} {o o' : Obj V B M C} {r : α} (h : a o = (o', .ok r)) :
    (a >>= f) o = f r o' := by
  show (match a o with | (o, .ok r) => f r o | (o, .error e) => (o, .error e)) = _
  rw [h]

theorem bind_error {a : Act V B M C α} {f : α → Act V B M C β} {o o' : Obj V B M C} {e : Exn} (h : a o = (o', .error e)) :
    (a >>= f) o = (o', .error e) := by
  show (match a o with | (o, .ok r) => f r o | (o, .error e) => (o, .error e)) = _
  rw [h]

theorem except_ok {a h : Act V B M C α} {o o' : Obj V B M C} {r : α} (e : a o = (o', .ok r)) :
    exceptAttribute a h o = (o', .ok r) := by
  unfold exceptAttribute
  rw [e]

theorem except_attr {a h : Act V B M C α} {o o' : Obj V B M C} (e : a o = (o', .error .attributeError)) :
    exceptAttribute a h o = h o' := by
  unfold exceptAttribute
  rw [e]

theorem except_other {a h : Act V B M C α} {o o' : Obj V B M C} {x : Exn} (e : a o = (o', .error x)) (hx : x ≠ .attributeError) :
    exceptAttribute a h o = (o', .error x) := by
  unfold exceptAttribute
  rw [e]
  cases x <;> simp_all

/-- Callbacks that compute given functions. -/
structure Cbs (V B M C : Type) where
  coef : V → C → C
  res : V → C → B
  jac : V → C → M
  pc : Option (V → C → M)
  fc : Callback V B M C
  fr : Callback V B M C
  fj : Callback V B M C
  fp : Option (Callback V B M C)
  hc : ComputesCoefficients fc coef
  hr : ComputesResidual fr res
  hj : ComputesJacobian fj jac
  hp : (pc = none ∧ fp = none) ∨ (∃ q f, pc = some q ∧ fp = some f ∧ ComputesPreconditioner f q)
    ∨ ∃ P0 f, pc = some (fun _ _ => P0) ∧ fp = some f ∧ ∀ m, f m = (some .attributeError, m)

/-- The solver object with given callbacks and state. -/
def Cbs.obj (K : Cbs V B M C) (s : Newton.St V B C) (A : M) (P : Option M) (F : List V) : Obj V B M C :=
  ⟨s.opts, s.iteration, s.krylov, s.initialResidual, s.lastResidual, s.relax, s.dx, some K.fc, some K.fr, some K.fj, K.fp,
    ⟨s.x, s.coeffs, s.b, A, P⟩, F⟩

variable (K : Cbs V B M C) (L : Lib V B M)

/-- Its problem. -/
def Cbs.problem : Newton.Problem V B (M × Option M) C := NewtonCallbacks.problem L K.coef K.res K.jac K.pc

theorem Cbs.callC (s : Newton.St V B C) (A : M) (P : Option M) (F : List V) :
    callCoefficients (K.obj s A P F) = (K.obj { s with coeffs := K.coef s.x s.coeffs } A P F, .ok ()) := by
  show (match K.fc _ with | (none, m) => _ | (some e, m) => _) = _
  rw [K.hc]
  rfl

theorem Cbs.callR (s : Newton.St V B C) (A : M) (P : Option M) (F : List V) :
    callResidual (K.obj s A P F) = (K.obj { s with b := K.res s.x s.coeffs } A P F, .ok ()) := by
  show (match K.fr _ with | (none, m) => _ | (some e, m) => _) = _
  rw [K.hr]
  rfl

theorem Cbs.callJ (s : Newton.St V B C) (A : M) (P : Option M) (F : List V) :
    callJacobian (K.obj s A P F) = (K.obj s (K.jac s.x s.coeffs) P F, .ok ()) := by
  show (match K.fj _ with | (none, m) => _ | (some e, m) => _) = _
  rw [K.hj]
  rfl

/-- The preconditioner matrix: absent if no preconditioner was set, never changed if the callback only raises. -/
def Cbs.Fits (P : Option M) : Prop :=
  (K.fp = none → P = none)
    ∧ ∀ f, K.fp = some f → (∀ m, f m = (some .attributeError, m)) → ∀ x c, K.pc.map (fun q => q x c) = P

theorem Cbs.callP (s : Newton.St V B C) (A : M) (P : Option M) (F : List V) (hP : K.Fits P) :
    exceptAttribute callPreconditioner (pure ()) (K.obj s A P F)
      = (K.obj s A (K.pc.map (fun q => q s.x s.coeffs)) F, .ok ()) := by
  rcases K.hp with ⟨h1, h2⟩ | ⟨q, f, h1, h2, h3⟩ | ⟨P0, f, h1, h2, h3⟩
  · rw [except_attr (o' := K.obj s A P F), h1, hP.1 h2]
    · rfl
    · show call K.fp _ = _
      rw [h2]
      rfl
  · rw [h1]
    refine except_ok ?_
    show call K.fp _ = _
    rw [h2]
    show (match f _ with | (none, m) => _ | (some e, m) => _) = _
    rw [h3]
    rfl
  · rw [hP.2 f h2 h3 s.x s.coeffs, except_attr (o' := K.obj s A P F)]
    · rfl
    · show call K.fp _ = _
      rw [h2]
      show (match f _ with | (none, m) => _ | (some e, m) => _) = _
      rw [h3]

theorem Cbs.fits_map (s : Newton.St V B C) (A : M) : K.Fits (K.pc.map (fun q => q s.x s.coeffs)) := by
  rcases K.hp with ⟨h1, h2⟩ | ⟨q, f, h1, h2, h3⟩ | ⟨P0, f, h1, h2, h3⟩
  · refine ⟨fun _ => by rw [h1]; rfl, fun f hf => ?_⟩
    rw [h2] at hf
    cases hf
  · refine ⟨fun h => ?_, fun g hg hr => ?_⟩
    · rw [h2] at h
      cases h
    · rw [h2] at hg
      cases hg
      have := h3 ⟨s.x, s.coeffs, s.b, A, none⟩
      rw [hr] at this
      cases this
  · refine ⟨fun h => ?_, fun g hg hr x c => by rw [h1]; rfl⟩
    rw [h2] at h
    cases h

variable [AddCommGroup V] [Module ℝ V]

theorem Cbs.evaluate (bump : ℕ) (x : V) (s : Newton.St V B C) (A : M) (P : Option M) (F : List V) :
    NewtonCallbacks.evaluate L bump x (K.obj s A P F)
      = (K.obj { Newton.evaluate (K.problem L) s x with iteration := s.iteration + bump } A P F, .ok ()) := by
  unfold NewtonCallbacks.evaluate
  rw [bind_ok (r := ()) (o' := K.obj { s with x := x } A P F) rfl, bind_ok (K.callC _ A P F),
    bind_ok (r := ()) (o' := K.obj { s with
      iteration := s.iteration + bump, x := L.post x, coeffs := K.coef x s.coeffs } A P F) rfl, K.callR]
  rfl

theorem Cbs.line (xCopy dx : V) (resOld : ℝ) (A : M) (P : Option M) (F : List V) :
    ∀ (fuel : ℕ) (relax : ℝ) (s : Newton.St V B C) (r0 : Option ℝ) (r : ℝ) (t : Newton.St V B C),
      Newton.lineSearch (K.problem L) xCopy dx resOld fuel relax s = some (r, t) →
      lineSearch L xCopy dx resOld fuel relax (K.obj { s with relax := r0 } A P F)
        = (K.obj { t with relax := some r } A P F, .ok ()) := by
  intro fuel
  induction fuel with
  | zero => intro relax s r0 r t h; cases h
  | succ fuel ih =>
    intro relax s r0 r t h
    unfold Newton.lineSearch at h
    unfold lineSearch
    rw [bind_ok (r := L.normB s.b) (o' := K.obj { s with relax := r0 } A P F) rfl]
    by_cases h1 : resOld < L.normB s.b
    · rw [if_pos (show resOld < (K.problem L).normB s.b from h1)] at h
      rw [if_pos h1]
      by_cases h2 : 0.5 * relax < 1e-2
      · simp only [if_pos h2, Option.some.injEq, Prod.mk.injEq] at h ⊢
        obtain ⟨rfl, rfl⟩ := h
        rfl
      · simp only [if_neg h2] at h ⊢
        rw [bind_ok (r := ()) (o' := K.obj { s with relax := some (0.5 * relax) } A P F) rfl,
          bind_ok (K.evaluate L 0 _ _ A P F)]
        exact ih _ (Newton.evaluate (K.problem L) s (Newton.updateSolution (0.5 * relax) dx xCopy)) (some (0.5 * relax)) r t h
    · rw [if_neg (show ¬ resOld < (K.problem L).normB s.b from h1)] at h
      rw [if_neg h1]
      simp only [Option.some.injEq, Prod.mk.injEq] at h
      obtain ⟨rfl, rfl⟩ := h
      rfl

omit [AddCommGroup V] [Module ℝ V] in
/-- The convergence test. -/
theorem Cbs.check (rank0 : Bool) (r : ℝ) (s : Newton.St V B C) (A : M) (P : Option M) (F : List V) :
    checkConvergence rank0 r (K.obj s A P F) = match Newton.checkConvergence rank0 s r with
      | .error e => (K.obj s A P F, .error (exn e))
      | .ok (q, conv) => (K.obj { s with lastResidual := q } A P F, .ok conv) := by
  unfold checkConvergence Newton.checkConvergence
  have e1 : (K.obj s A P F).relax = s.relax := rfl
  have e2 : (K.obj s A P F).initialResidual = s.initialResidual := rfl
  have e3 : (K.obj s A P F).opts = s.opts := rfl
  rw [e1, e2, e3]
  dsimp only
  by_cases h : rank0 = true ∧ s.relax = none
  · rw [if_pos h, if_pos h]; rfl
  · rw [if_neg h, if_neg h]
    by_cases h0 : s.initialResidual = 0
    · rw [if_pos h0, if_pos h0]; rfl
    · rw [if_neg h0, if_neg h0]; rfl

theorem Cbs.test (rank0 : Bool) (s : Newton.St V B C) (A : M) (P : Option M) (F : List V) :
    testConvergence L rank0 (K.obj s A P F) = match Newton.testConvergence (K.problem L) rank0 s with
      | .error e => (K.obj s A P F, .error (exn e))
      | .ok (q, conv) => (K.obj { s with lastResidual := q } A P F, .ok conv) := by
  unfold testConvergence Newton.testConvergence
  have e3 : (K.obj s A P F).opts = s.opts := rfl
  rw [e3]
  cases s.opts.crit with
  | residual => exact K.check rank0 _ s A P F
  | incremental =>
    dsimp only
    by_cases h : s.iteration = 1
    · rw [if_pos (show (K.obj s A P F).iteration = 1 from h), if_pos h]; rfl
    · rw [if_neg (show ¬ (K.obj s A P F).iteration = 1 from h), if_neg h]; exact K.check rank0 _ s A P F

/-- The frames after an iteration. -/
def addFrame (write : Bool) (offset : Option V) (F : List V) (x : V) : List V :=
  if write then F ++ [x + offset.getD 0] else F

theorem line_some (Q : Newton.Problem V B (M × Option M) C) (xCopy dx : V) (resOld : ℝ) (s : Newton.St V B C) :
    ∃ r t, Newton.lineSearch Q xCopy dx resOld 8 1.0 (Newton.evaluate Q s (Newton.updateSolution 1.0 dx xCopy)) = some (r, t) := by
  obtain ⟨k, t, -, -, h, -⟩ := Newton.lineSearch_spec Q xCopy dx resOld 8 0
    (Newton.evaluate Q s (Newton.updateSolution 1.0 dx xCopy)) (by omega) (by omega)
    ⟨s.coeffs, by rw [Newton.updateSolution_eq]; norm_num [Newton.evaluate]⟩
    (by rw [Newton.updateSolution_eq]; norm_num [Newton.evaluate]) rfl
  have e : ((1 / 2) ^ 0 : ℝ) = 1.0 := by norm_num
  rw [e] at h
  exact ⟨_, t, h⟩

/-- An iteration. -/
theorem Cbs.body (rank0 write : Bool) (offset : Option V) (resOld : ℝ) (s : Newton.St V B C) (A : M) (P : Option M)
    (F : List V) (hP : K.Fits P) :
    ∃ A' P', K.Fits P' ∧ ∃ F', ((∃ y, (Newton.body (K.problem L) rank0 resOld s).2 = .ok y) →
        F' = addFrame write offset F (Newton.body (K.problem L) rank0 resOld s).1.x)
      ∧ (write = false → F' = F)
      ∧ NewtonCallbacks.body L rank0 write offset resOld (K.obj s A P F)
        = (K.obj (Newton.body (K.problem L) rank0 resOld s).1 A' P' F',
          match (Newton.body (K.problem L) rank0 resOld s).2 with
          | .ok y => .ok y
          | .error e => .error (exn e)) := by
  rw [Newton.body_eq]
  obtain ⟨out, hout⟩ : ∃ out, out = (K.problem L).linSolve ((K.problem L).jacobian s.x s.coeffs) s.b (s.dx.getD 0) := ⟨_, rfl⟩
  rw [← hout]
  unfold NewtonCallbacks.body Newton.bodyOf
  refine ⟨K.jac s.x s.coeffs, K.pc.map (fun q => q s.x s.coeffs), K.fits_map s A, ?_⟩
  obtain ⟨A', hA⟩ : ∃ A', A' = K.jac s.x s.coeffs := ⟨_, rfl⟩
  obtain ⟨P', hP'⟩ : ∃ P', P' = K.pc.map (fun q => q s.x s.coeffs) := ⟨_, rfl⟩
  rw [bind_ok (r := s.x) (o' := K.obj s A P F) rfl,
    bind_ok (r := ()) (o' := K.obj { s with relax := some 1.0 } A P F) rfl,
    bind_ok (except_ok (K.callJ _ A P F)), bind_ok (K.callP _ _ P F hP),
    bind_ok (r := out) (o' := K.obj { s with relax := some 1.0 } (K.jac s.x s.coeffs) (K.pc.map (fun q => q s.x s.coeffs)) F)
      (by rw [hout]; rfl),
    bind_ok (r := ()) (o' := K.obj { s with relax := some 1.0, dx := some out.1, krylov := s.krylov + out.2.1, nLin := s.nLin + 1 }
      (K.jac s.x s.coeffs) (K.pc.map (fun q => q s.x s.coeffs)) F) rfl, ← hA, ← hP']
  dsimp only
  by_cases h1 : ¬ out.2.2 > 0
  · rw [if_pos h1, if_pos h1]
    refine ⟨F, ?_, fun _ => rfl, rfl⟩
    rintro ⟨y, hy⟩
    cases hy
  rw [if_neg h1, if_neg h1]
  obtain ⟨s1, hs1⟩ : ∃ s1 : Newton.St V B C, s1 = { s with
    relax := some 1.0, dx := some out.1, krylov := s.krylov + out.2.1, nLin := s.nLin + 1, iteration := s.iteration + 1 } :=
    ⟨_, rfl⟩
  rw [← hs1]
  obtain ⟨r, t, ht⟩ := line_some (K.problem L) s.x out.1 resOld s1
  rw [ht, bind_ok (r := s.x) (o' := K.obj { s with
      relax := some 1.0, dx := some out.1, krylov := s.krylov + out.2.1, nLin := s.nLin + 1 } A' P' F) rfl,
    bind_ok (K.evaluate L 1 _ _ A' P' F)]
  have hev : ({ Newton.evaluate (K.problem L) { s with
      relax := some 1.0, dx := some out.1, krylov := s.krylov + out.2.1, nLin := s.nLin + 1 }
      (Newton.updateSolution 1.0 out.1 s.x) with iteration := s.iteration + 1 } : Newton.St V B C)
      = { Newton.evaluate (K.problem L) s1 (Newton.updateSolution 1.0 out.1 s.x) with relax := some 1.0 } := by
    rw [hs1]; rfl
  rw [hev, bind_ok (K.line L s.x out.1 resOld A' P' F 8 1.0 _ (some 1.0) r t ht),
    bind_ok (r := L.normB t.b) (o' := K.obj { t with relax := some r } A' P' F) rfl]
  have hw : writeFrame write offset (K.obj { t with relax := some r } A' P' F)
      = (K.obj { t with relax := some r } A' P' (addFrame write offset F t.x), .ok ()) := by
    unfold writeFrame addFrame
    cases write <;> rfl
  rw [bind_ok hw]
  obtain ⟨s2, hs2⟩ : ∃ s2 : Newton.St V B C, s2 = if t.iteration = 1 then { t with relax := some r, initialResidual := (K.problem L).normV out.1 }
      else { t with relax := some r } := ⟨_, rfl⟩
  have hm : modify (fun o : Obj V B M C => if o.iteration = 1 then { o with initialResidual := L.normV out.1 } else o)
      (K.obj { t with relax := some r } A' P' (addFrame write offset F t.x))
      = (K.obj s2 A' P' (addFrame write offset F t.x), .ok ()) := by
    rw [hs2]
    unfold modify
    dsimp only
    have e : (K.obj { t with relax := some r } A' P' (addFrame write offset F t.x)).iteration = t.iteration := rfl
    rw [e]
    by_cases h : t.iteration = 1
    · rw [if_pos h, if_pos h]; rfl
    · rw [if_neg h, if_neg h]
  have hx : s2.x = t.x := by rw [hs2]; split <;> rfl
  rw [bind_ok hm]
  dsimp only
  rw [← hs2]
  have hT := K.test L rank0 s2 A' P' (addFrame write offset F t.x)
  refine ⟨addFrame write offset F t.x, ?_, fun hw => by rw [hw]; rfl, ?_⟩
  · cases h : Newton.testConvergence (K.problem L) rank0 s2 with
    | error e => rintro ⟨y, hy⟩; cases hy
    | ok q => rintro -; show _ = addFrame write offset F s2.x; rw [hx]
  · cases h : Newton.testConvergence (K.problem L) rank0 s2 with
    | error e =>
      rw [h] at hT
      rw [bind_error hT]
    | ok q =>
      rw [h] at hT
      rw [bind_ok hT]
      rfl

/-- The displacements after each iteration of the loop. -/
noncomputable def visits (Q : Newton.Problem V B (M × Option M) C) (rank0 : Bool) : ℕ → Bool → ℝ → Newton.St V B C → List V
  | 0, _, _, _ => []
  | fuel + 1, conv, resOld, s =>
    if conv = false ∧ s.iteration < s.opts.maxIt then
      match Newton.body Q rank0 resOld s with
      | (_, .error _) => []
      | (s, .ok (conv, resOld)) => s.x :: visits Q rank0 fuel conv resOld s
    else []

/-- The frames after several iterations. -/
def addFrames (write : Bool) (offset : Option V) (F : List V) (xs : List V) : List V :=
  if write then F ++ xs.map (fun x => x + offset.getD 0) else F

theorem Cbs.loop (rank0 write : Bool) (offset : Option V) : ∀ (fuel : ℕ) (conv : Bool) (resOld : ℝ) (s : Newton.St V B C)
    (A : M) (P : Option M) (F : List V), K.Fits P →
    ∃ A' P', K.Fits P' ∧ ∃ F', ((∃ y, (Newton.newtonLoop (K.problem L) rank0 fuel conv resOld s).2 = .ok y) →
        F' = addFrames write offset F (visits (K.problem L) rank0 fuel conv resOld s))
      ∧ (write = false → F' = F)
      ∧ newtonLoop L rank0 write offset fuel conv resOld (K.obj s A P F)
        = (K.obj (Newton.newtonLoop (K.problem L) rank0 fuel conv resOld s).1 A' P' F',
          match (Newton.newtonLoop (K.problem L) rank0 fuel conv resOld s).2 with
          | .ok y => .ok y
          | .error e => .error (exn e)) := by
  intro fuel
  induction fuel with
  | zero =>
    intro conv resOld s A P F hP
    refine ⟨A, P, hP, F, ?_, fun _ => rfl, rfl⟩
    rintro ⟨y, hy⟩
    cases hy
  | succ fuel ih =>
    intro conv resOld s A P F hP
    unfold newtonLoop Newton.newtonLoop visits
    have e : (K.obj s A P F).iteration = s.iteration ∧ (K.obj s A P F).opts = s.opts := ⟨rfl, rfl⟩
    rw [e.1, e.2]
    by_cases h : conv = false ∧ s.iteration < s.opts.maxIt
    · simp only [if_pos h]
      obtain ⟨A1, P1, hP1, F1, hF1, hw1, hb⟩ := K.body L rank0 write offset resOld s A P F hP
      revert hF1 hb
      rcases Newton.body (K.problem L) rank0 resOld s with ⟨t, err | ⟨c, r⟩⟩
      · intro hF1 hb
        refine ⟨A1, P1, hP1, F1, ?_, hw1, bind_error hb⟩
        rintro ⟨y, hy⟩
        cases hy
      · intro hF1 hb
        obtain ⟨A2, P2, hP2, F2, hF2, hw2, h2⟩ := ih c r t A1 P1 F1 hP1
        refine ⟨A2, P2, hP2, F2, ?_, fun hw => (hw2 hw).trans (hw1 hw), ?_⟩
        · intro hy
          rw [hF2 hy, hF1 ⟨_, rfl⟩]
          unfold addFrames addFrame
          cases write <;> simp
        · rw [bind_ok hb]
          exact h2
    · simp only [if_neg h]
      refine ⟨A, P, hP, F, ?_, fun _ => rfl, rfl⟩
      rintro -
      unfold addFrames
      cases write <;> simp

/-- The loop of `_solve` after the first residual. -/
noncomputable def mainLoop (Q : Newton.Problem V B (M × Option M) C) (rank0 : Bool) (s : Newton.St V B C) : List V :=
  match s.opts.crit with
  | .residual =>
    match Newton.checkConvergence rank0 s (Q.normB s.b) with
    | .error _ => []
    | .ok (r, conv) => visits Q rank0 (s.opts.maxIt + 1) conv (Q.normB s.b) (Newton.withResidual s r)
  | .incremental => visits Q rank0 (s.opts.maxIt + 1) false (Q.normB s.b) s

theorem Cbs.inner (rank0 write : Bool) (offset : Option V) (s : Newton.St V B C) (A : M) (P : Option M) (F : List V)
    (hP : K.Fits P) :
    ∃ A' P', K.Fits P' ∧ ∃ F', ((∃ y, (Newton.solveInner (K.problem L) rank0 s).2 = .ok y) →
        F' = if write then (s.x :: mainLoop (K.problem L) rank0 (Newton.begun (K.problem L) s)).map (fun x => x + offset.getD 0)
          else F)
      ∧ (write = false → F' = F)
      ∧ solveInner L rank0 write offset (K.obj s A P F)
        = (K.obj (Newton.solveInner (K.problem L) rank0 s).1 A' P' F',
          match (Newton.solveInner (K.problem L) rank0 s).2 with
          | .ok y => .ok y
          | .error e => .error (exn e)) := by
  rw [Newton.solveInner_eq]
  obtain ⟨F0, hF0⟩ : ∃ F0, F0 = if write then [s.x + offset.getD 0] else F := ⟨_, rfl⟩
  obtain ⟨s0, hs0⟩ : ∃ s0, s0 = Newton.begun (K.problem L) s := ⟨_, rfl⟩
  have hstart : ∀ (G : Act V B M C (ℕ × Bool)),
      (modify (fun o => if write then { o with frames := [o.mem.x + offset.getD 0] } else o) >>= fun _ =>
        modify (fun o => { o with iteration := 0, krylov := 0, lastResidual := -1 }) >>= fun _ =>
        exceptAttribute callCoefficients (raise .runtimeError) >>= fun _ =>
        modify (fun o => { o with mem := { o.mem with x := L.pre o.mem.x } }) >>= fun _ =>
        exceptAttribute callResidual (raise .runtimeError) >>= fun _ => G) (K.obj s A P F) = G (K.obj s0 A P F0) := by
    intro G
    rw [bind_ok (r := ()) (o' := K.obj s A P F0) (by rw [hF0]; cases write <;> rfl),
      bind_ok (r := ()) (o' := K.obj { s with iteration := 0, krylov := 0, lastResidual := -1 } A P F0) rfl,
      bind_ok (except_ok (K.callC _ A P F0)),
      bind_ok (r := ()) (o' := K.obj { s with
        iteration := 0, krylov := 0, lastResidual := -1, coeffs := K.coef s.x s.coeffs, x := L.pre s.x } A P F0) rfl,
      bind_ok (except_ok (K.callR _ A P F0)), hs0]
    rfl
  have hrun : ∀ (conv : Bool) (s1 : Newton.St V B C), s1.opts = s0.opts → ∃ A' P', K.Fits P' ∧ ∃ F',
      ((∃ y, (Newton.finish (Newton.newtonLoop (K.problem L) rank0 (s0.opts.maxIt + 1) conv (L.normB s0.b) s1)).2 = .ok y) →
        F' = addFrames write offset F0 (visits (K.problem L) rank0 (s0.opts.maxIt + 1) conv (L.normB s0.b) s1))
      ∧ (write = false → F' = F0)
      ∧ (do
          let maxIt ← read (fun o => o.opts.maxIt)
          let conv ← newtonLoop L rank0 write offset (maxIt + 1) conv (L.normB s0.b)
          let raises ← read (fun o => o.opts.errorOnNonconvergence)
          if conv = false ∧ raises = true then raise .runtimeError
          else
            let n ← read (fun o => o.iteration)
            pure (n, conv) : Act V B M C (ℕ × Bool)) (K.obj s1 A P F0)
        = (K.obj (Newton.finish (Newton.newtonLoop (K.problem L) rank0 (s0.opts.maxIt + 1) conv (L.normB s0.b) s1)).1 A' P' F',
          match (Newton.finish (Newton.newtonLoop (K.problem L) rank0 (s0.opts.maxIt + 1) conv (L.normB s0.b) s1)).2 with
          | .ok y => .ok y
          | .error e => .error (exn e)) := by
    intro conv s1 ho
    obtain ⟨A', P', hP', F', hF', hw', hl⟩ := K.loop L rank0 write offset (s0.opts.maxIt + 1) conv (L.normB s0.b) s1 A P F0 hP
    refine ⟨A', P', hP', F', ?_, hw', ?_⟩
    · intro hy
      refine hF' ?_
      revert hy
      rcases Newton.newtonLoop (K.problem L) rank0 (s0.opts.maxIt + 1) conv (L.normB s0.b) s1 with ⟨t, err | c⟩
      · rintro ⟨y, hy⟩; cases hy
      · rintro -; exact ⟨c, rfl⟩
    · rw [bind_ok (r := s0.opts.maxIt) (o' := K.obj s1 A P F0) (by rw [← ho]; rfl)]
      revert hl
      rcases Newton.newtonLoop (K.problem L) rank0 (s0.opts.maxIt + 1) conv (L.normB s0.b) s1 with ⟨t, err | c⟩
      · intro hl
        rw [bind_error hl]
        rfl
      · intro hl
        rw [bind_ok hl, bind_ok (r := t.opts.errorOnNonconvergence) (o' := K.obj t A' P' F') rfl]
        unfold Newton.finish
        dsimp only
        by_cases h : c = false ∧ t.opts.errorOnNonconvergence = true
        · rw [if_pos h, if_pos h]; rfl
        · rw [if_neg h, if_neg h]; rfl
  have hFF : ∀ xs, addFrames write offset F0 xs = if write then (s.x :: xs).map (fun x => x + offset.getD 0) else F := by
    intro xs
    rw [hF0]
    unfold addFrames
    cases write <;> simp
  have hF0' : write = false → F0 = F := by
    intro h; rw [hF0, h]; rfl
  rw [← hs0]
  have hgo := hstart (read (fun o => L.normB o.mem.b) >>= fun resOld => firstTest L rank0 >>= fun conv => do
          let maxIt ← read (fun o => o.opts.maxIt)
          let conv ← newtonLoop L rank0 write offset (maxIt + 1) conv resOld
          let raises ← read (fun o => o.opts.errorOnNonconvergence)
          if conv = false ∧ raises = true then raise .runtimeError
          else
            let n ← read (fun o => o.iteration)
            pure (n, conv))
  have hgo' : solveInner L rank0 write offset (K.obj s A P F) = _ := hgo
  rw [hgo', bind_ok (r := L.normB s0.b) (o' := K.obj s0 A P F0) rfl]
  have hft : firstTest L rank0 (K.obj s0 A P F0) = match s0.opts.crit with
      | .residual => checkConvergence rank0 (L.normB s0.b) (K.obj s0 A P F0)
      | .incremental => (K.obj s0 A P F0, .ok false) := rfl
  unfold Newton.inner mainLoop
  revert hft
  cases s0.opts.crit with
  | incremental =>
    intro hft
    obtain ⟨A', P', hP', F', hF', hw', hl⟩ := hrun false s0 rfl
    refine ⟨A', P', hP', F', fun hy => (hF' hy).trans (hFF _), fun hw => (hw' hw).trans (hF0' hw), ?_⟩
    rw [bind_ok hft]
    exact hl
  | residual =>
    intro hft
    dsimp only at hft ⊢
    rw [K.check] at hft
    have en : (K.problem L).normB s0.b = L.normB s0.b := rfl
    rw [en]
    revert hft
    rcases Newton.checkConvergence rank0 s0 (L.normB s0.b) with err | ⟨q, conv⟩
    · intro hft
      refine ⟨A, P, hP, F0, ?_, hF0', bind_error hft⟩
      rintro ⟨y, hy⟩
      cases hy
    · intro hft
      obtain ⟨A', P', hP', F', hF', hw', hl⟩ := hrun conv (Newton.withResidual s0 q) rfl
      refine ⟨A', P', hP', F', fun hy => (hF' hy).trans (hFF _), fun hw => (hw' hw).trans (hF0' hw), ?_⟩
      rw [bind_ok hft]
      exact hl

end Verif.NewtonCallbacks
