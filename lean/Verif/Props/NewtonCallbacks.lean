import Verif.Lemmas.NewtonFrames

/-!
# C201–C203: callbacks of the Newton solver

C201: the solver works with the callbacks given last; callbacks that do not raise make it Newton's method of
`Model/Newton.lean` (C11–C17 and others); missing callbacks are reported.
C202: exceptions of callbacks reach the caller — not `AttributeError`s.
C203: what `write_solution` writes.
-/

namespace Verif.NewtonCallbacks

variable {V B M C : Type}

theorem set_state (o : Obj V B M C) (s : Setter V B M C) : (o.set s).state = o.state := by
  cases s <;> rfl

theorem sets_state (calls : List (Setter V B M C)) (o : Obj V B M C) : (calls.foldl Obj.set o).state = o.state := by
  induction calls generalizing o with
  | nil => rfl
  | cons s calls ih => rw [List.foldl_cons, ih, set_state]

theorem sets_last {α : Type} (k : Setter V B M C → Option α) (g : Obj V B M C → Option α)
    (h1 : ∀ (o : Obj V B M C) s a, k s = some a → g (o.set s) = some a) (h2 : ∀ (o : Obj V B M C) s, k s = none → g (o.set s) = g o)
    (calls : List (Setter V B M C)) (o : Obj V B M C) (a : α) (h : LastSet k calls a) : g (calls.foldl Obj.set o) = some a := by
  obtain ⟨before, s, after, rfl, hs, ha⟩ := h
  rw [List.foldl_append, List.foldl_cons]
  have : ∀ (l : List (Setter V B M C)) (o : Obj V B M C), (∀ s' ∈ l, k s' = none) → g (l.foldl Obj.set o) = g o := by
    intro l
    induction l with
    | nil => intros; rfl
    | cons x l ih =>
      intro o hl
      rw [List.foldl_cons, ih _ (fun s' hs' => hl s' (by simp [hs'])), h2 _ _ (hl x (by simp))]
  rw [this _ _ ha]
  exact h1 _ _ _ hs

theorem sets_none (calls : List (Setter V B M C)) (o : Obj V B M C) (h : ∀ s ∈ calls, s.preconditioner? = none) :
    (calls.foldl Obj.set o).preconditioner = o.preconditioner ∧ (calls.foldl Obj.set o).mem.P = o.mem.P := by
  induction calls generalizing o with
  | nil => exact ⟨rfl, rfl⟩
  | cons s calls ih =>
    rw [List.foldl_cons]
    obtain ⟨h1, h2⟩ := ih (o.set s) (fun s' hs' => h s' (by simp [hs']))
    rw [h1, h2]
    have := h s (by simp)
    cases s with
    | preconditioner f P => cases this
    | _ => exact ⟨rfl, rfl⟩

/-- **C201** (setters).  After any sequence of setter calls on a solver without preconditioner the solver works with the
callbacks and matrices given last; nothing else changes. -/
theorem C201_setters (o : Obj V B M C) (ho : o.preconditioner = none ∧ o.mem.P = none) (calls : List (Setter V B M C))
    {coef : V → C → C} {res : V → C → B} {jac : V → C → M} {pc : Option (V → C → M)} {fc fr fj : Callback V B M C}
    (hc : LastSet Setter.coefficients? calls fc) (hcf : ComputesCoefficients fc coef)
    (hr : LastSet Setter.residual? calls fr) (hrf : ComputesResidual fr res)
    (hj : LastSet Setter.jacobian? calls fj) (hjf : ComputesJacobian fj jac)
    (hp : PreconditionerSet calls pc) :
    Ready (calls.foldl Obj.set o) coef res jac pc ∧ (calls.foldl Obj.set o).state = o.state
    ∧ (∀ P, LastSet Setter.preconditionerMatrix? calls P → (calls.foldl Obj.set o).mem.P = some P)
    ∧ (∀ A, LastSet Setter.matrix? calls A → (calls.foldl Obj.set o).mem.A = A) := by
  refine ⟨⟨⟨fc, ?_, hcf⟩, ⟨fr, ?_, hrf⟩, ⟨fj, ?_, hjf⟩, ?_⟩, sets_state calls o, fun P hP => ?_, fun A hA => ?_⟩
  · refine sets_last Setter.coefficients? Obj.coefficients ?_ ?_ calls o fc hc
    · intro o s a hs; cases s <;> simp_all [Setter.coefficients?, Obj.set]
    · intro o s hs; cases s <;> simp_all [Setter.coefficients?, Obj.set]
  · refine sets_last Setter.residual? Obj.residual ?_ ?_ calls o fr hr
    · intro o s a hs; cases s <;> simp_all [Setter.residual?, Obj.set]
    · intro o s hs; cases s <;> simp_all [Setter.residual?, Obj.set]
  · refine sets_last Setter.jacobian? Obj.jacobian ?_ ?_ calls o fj hj
    · intro o s a hs; cases s <;> simp_all [Setter.jacobian?, Obj.set]
    · intro o s hs; cases s <;> simp_all [Setter.jacobian?, Obj.set]
  · cases pc with
    | none =>
      obtain ⟨h1, h2⟩ := sets_none calls o hp
      exact .inl ⟨rfl, h1.trans ho.1, h2.trans ho.2⟩
    | some q =>
      obtain ⟨f, hf, hq⟩ := hp
      refine .inr ⟨q, f, rfl, ?_, hq⟩
      refine sets_last Setter.preconditioner? Obj.preconditioner ?_ ?_ calls o f hf
      · intro o s a hs; cases s <;> simp_all [Setter.preconditioner?, Obj.set]
      · intro o s hs; cases s <;> simp_all [Setter.preconditioner?, Obj.set]
  · refine sets_last Setter.preconditionerMatrix? (fun o => o.mem.P) ?_ ?_ calls o P hP
    · intro o s a hs; cases s <;> simp_all [Setter.preconditionerMatrix?, Obj.set]
    · intro o s hs; cases s <;> simp_all [Setter.preconditionerMatrix?, Obj.set]
  · refine Option.some.inj (sets_last Setter.matrix? (fun o => some o.mem.A) ?_ ?_ calls o A hA)
    · intro o s a hs; cases s <;> simp_all [Setter.matrix?, Obj.set]
    · intro o s hs; cases s <;> simp_all [Setter.matrix?, Obj.set]

/-- The preconditioner callback, if any, does not raise. -/
def Cbs.Sets (K : Cbs V B M C) : Prop :=
  (K.pc = none ∧ K.fp = none) ∨ ∃ q f, K.pc = some q ∧ K.fp = some f ∧ ComputesPreconditioner f q

/-- A ready object. -/
theorem Ready.cbs {o : Obj V B M C} {coef : V → C → C} {res : V → C → B} {jac : V → C → M} {pc : Option (V → C → M)}
    (h : Ready o coef res jac pc) : ∃ K : Cbs V B M C, K.coef = coef ∧ K.res = res ∧ K.jac = jac ∧ K.pc = pc
      ∧ K.Fits o.mem.P ∧ K.Sets ∧ o = K.obj o.state o.mem.A o.mem.P o.frames := by
  obtain ⟨⟨fc, h1, h1'⟩, ⟨fr, h2, h2'⟩, ⟨fj, h3, h3'⟩, h4⟩ := h
  rcases h4 with ⟨rfl, h5, h6⟩ | ⟨q, f, rfl, h5, h6⟩
  · refine ⟨⟨coef, res, jac, none, fc, fr, fj, none, h1', h2', h3', .inl ⟨rfl, rfl⟩⟩, rfl, rfl, rfl, rfl,
      ⟨fun _ => h6, fun f hf => (by cases hf)⟩, .inl ⟨rfl, rfl⟩, ?_⟩
    rcases o with ⟨_, _, _, _, _, _, _, _, _, _, _, ⟨_, _, _, _, _⟩, _⟩
    simp only at h1 h2 h3 h5 h6
    subst h1 h2 h3 h5 h6
    rfl
  · refine ⟨⟨coef, res, jac, some q, fc, fr, fj, some f, h1', h2', h3', .inr (.inl ⟨q, f, rfl, rfl, h6⟩)⟩, rfl, rfl, rfl, rfl,
      ⟨fun h => (by cases h), fun g hg hr => ?_⟩, .inr ⟨q, f, rfl, rfl, h6⟩, ?_⟩
    · cases hg
      have := h6 o.mem
      rw [hr] at this
      cases this
    rcases o with ⟨_, _, _, _, _, _, _, _, _, _, _, ⟨_, _, _, _, _⟩, _⟩
    simp only at h1 h2 h3 h5
    subst h1 h2 h3 h5
    rfl

theorem Cbs.ready (K : Cbs V B M C) (s : Newton.St V B C) (A : M) (P : Option M) (F : List V) (hP : K.Fits P)
    (hS : K.Sets) : Ready (K.obj s A P F) K.coef K.res K.jac K.pc := by
  refine ⟨⟨K.fc, rfl, K.hc⟩, ⟨K.fr, rfl, K.hr⟩, ⟨K.fj, rfl, K.hj⟩, ?_⟩
  rcases hS with ⟨h1, h2⟩ | ⟨q, f, h1, h2, h3⟩
  · exact .inl ⟨h1, h2, hP.1 h2⟩
  · exact .inr ⟨q, f, h1, h2, h3⟩

variable [AddCommGroup V] [Module ℝ V]

/-- **C201** (Newton's method).  With callbacks that compute coefficients, residual, Jacobian and, if one was given, a
preconditioner without raising, `solve` is Newton's method for them: it returns or raises the same, and leaves the same
displacement, coefficients, residual, increment and counters, for a `Function` and for a `PETSc.Vec`, with and without
output.  The solver is ready for further calls. -/
theorem C201_newton (L : Lib V B M) {o : Obj V B M C} {coef : V → C → C} {res : V → C → B} {jac : V → C → M}
    {pc : Option (V → C → M)} (h : Ready o coef res jac pc) (rank0 : Bool) (arg : Newton.Arg) (write : Bool) (offset : Option V) :
    (solve L rank0 arg write offset o).2 = ((Newton.solve (problem L coef res jac pc) rank0 arg o.state).2).mapError exn
    ∧ (solve L rank0 arg write offset o).1.state
      = { (Newton.solve (problem L coef res jac pc) rank0 arg o.state).1 with nRes := 0, nLin := 0 }
    ∧ Ready (solve L rank0 arg write offset o).1 coef res jac pc := by
  obtain ⟨K, rfl, rfl, rfl, rfl, hP, hS, hK⟩ := h.cbs
  obtain ⟨A', P', hP', F', -, -, hs⟩ := K.solve L rank0 arg write offset o.state o.mem.A o.mem.P o.frames hP
  rw [← hK] at hs
  rw [hs]
  refine ⟨?_, rfl, K.ready _ _ _ _ hP' hS⟩
  show _ = ((Newton.solve (K.problem L) rank0 arg o.state).2).mapError exn
  cases (Newton.solve (K.problem L) rank0 arg o.state).2 <;> rfl

/-- **C201** (missing callbacks).  Without coefficients `solve` raises a `RuntimeError` and changes neither displacement nor
data; without residual it raises it after computing the coefficients. -/
theorem C201_missing (L : Lib V B M) (o : Obj V B M C) (rank0 : Bool) (arg : Newton.Arg) (write : Bool) (offset : Option V) :
    (o.coefficients = none → (solve L rank0 arg write offset o).2 = .error .runtimeError
      ∧ (solve L rank0 arg write offset o).1.mem = o.mem)
    ∧ (∀ f coef, o.coefficients = some f → ComputesCoefficients f coef → o.residual = none →
      (solve L rank0 arg write offset o).2 = .error .runtimeError
      ∧ (solve L rank0 arg write offset o).1.mem = { o.mem with x := L.pre o.mem.x, coeffs := coef o.mem.x o.mem.coeffs }) := by
  obtain ⟨w, hw⟩ : ∃ w, w = (write && decide (arg = .function)) := ⟨_, rfl⟩
  obtain ⟨F0, hF0⟩ : ∃ F0, F0 = if w then [o.mem.x + offset.getD 0] else o.frames := ⟨_, rfl⟩
  obtain ⟨o1, ho1⟩ : ∃ o1 : Obj V B M C, o1 = { o with frames := F0, iteration := 0, krylov := 0, lastResidual := -1 } := ⟨_, rfl⟩
  have start : ∀ (G : Act V B M C (ℕ × Bool)),
      (modify (fun o => if w then { o with frames := [o.mem.x + offset.getD 0] } else o) >>= fun _ =>
        modify (fun o => { o with iteration := 0, krylov := 0, lastResidual := -1 }) >>= fun _ => G) o = G o1 := by
    intro G
    rw [bind_ok (r := ()) (o' := { o with frames := F0 }) (by rw [hF0]; cases w <;> rfl), bind_ok (r := ()) (o' := o1) (by rw [ho1]; rfl)]
  constructor
  · intro hc
    have hi : solveInner L rank0 w offset o = (o1, .error .runtimeError) := by
      refine (start _).trans ?_
      refine bind_error ?_
      rw [except_attr (o' := o1)]
      · rfl
      · show call o1.coefficients o1 = _
        rw [ho1]
        show call o.coefficients _ = _
        rw [hc]
        rfl
    have hs : solve L rank0 arg write offset o = (o1, .error .runtimeError) := by
      unfold solve
      rw [hw] at hi
      exact except_other (bind_error hi) (by simp)
    rw [hs, ho1]
    exact ⟨rfl, rfl⟩
  · intro f coef hc hf hr
    obtain ⟨o2, ho2⟩ : ∃ o2 : Obj V B M C, o2 = { o1 with mem := { o1.mem with coeffs := coef o.mem.x o.mem.coeffs } } := ⟨_, rfl⟩
    obtain ⟨o3, ho3⟩ : ∃ o3 : Obj V B M C, o3 = { o2 with mem := { o2.mem with x := L.pre o.mem.x } } := ⟨_, rfl⟩
    have hi : solveInner L rank0 w offset o = (o3, .error .runtimeError) := by
      refine (start _).trans ?_
      rw [bind_ok (r := ()) (o' := o2)]
      · rw [bind_ok (r := ()) (o' := o3) (by rw [ho3, ho2, ho1]; rfl)]
        refine bind_error ?_
        rw [except_attr (o' := o3)]
        · rfl
        · show call o3.residual o3 = _
          have : o3.residual = none := by rw [ho3, ho2, ho1]; exact hr
          rw [this]
          rfl
      · refine except_ok ?_
        show call o1.coefficients o1 = _
        have : o1.coefficients = some f := by rw [ho1]; exact hc
        rw [this]
        show (match f o1.mem with | (none, m) => _ | (some e, m) => _) = _
        rw [hf, ho2, ho1]
    have hs : solve L rank0 arg write offset o = (o3, .error .runtimeError) := by
      unfold solve
      rw [hw] at hi
      exact except_other (bind_error hi) (by simp)
    rw [hs, ho3, ho2, ho1]
    exact ⟨rfl, rfl⟩

/-! ## C202 -/

/-- Statements that report exceptions of callbacks. -/
def Tracks {α : Type} (ok : Obj V B M C → Prop) (raised : C → Option Exn) (a : Act V B M C α) : Prop :=
  ∀ o, ok o → raised o.mem.coeffs = none →
    ok (a o).1 ∧ (∀ e, raised (a o).1.mem.coeffs = some e → (a o).2 = .error e ∧ e ≠ .attributeError)
    ∧ ∀ n, (a o).2 = .error (.other n) → raised (a o).1.mem.coeffs = some (.other n)

section
variable {ok : Obj V B M C → Prop} {raised : C → Option Exn} {α β : Type}

omit [AddCommGroup V] [Module ℝ V] in
theorem Tracks.bind {a : Act V B M C α} {f : α → Act V B M C β} (ha : Tracks ok raised a) (hf : ∀ r, Tracks ok raised (f r)) :
    Tracks ok raised (a >>= f) := by
  intro o ho h0
  obtain ⟨h1, h2, h3⟩ := ha o ho h0
  rcases hao : a o with ⟨o', e | r⟩
  · rw [bind_error hao]
    rw [hao] at h1 h2 h3
    refine ⟨h1, fun e' he' => ?_, fun n hn => h3 n ?_⟩
    · obtain ⟨h4, h5⟩ := h2 e' he'
      cases h4
      exact ⟨rfl, h5⟩
    · cases hn; rfl
  · rw [bind_ok hao]
    rw [hao] at h1 h2
    refine hf r o' h1 ?_
    cases h : raised o'.mem.coeffs with
    | none => rfl
    | some e => cases (h2 e h).1

omit [AddCommGroup V] [Module ℝ V] in
theorem Tracks.except {a h : Act V B M C α} (ha : Tracks ok raised a) (hh : Tracks ok raised h) :
    Tracks ok raised (exceptAttribute a h) := by
  intro o ho h0
  obtain ⟨h1, h2, h3⟩ := ha o ho h0
  rcases hao : a o with ⟨o', e | r⟩
  · rw [hao] at h1 h2 h3
    by_cases he : e = .attributeError
    · subst he
      rw [except_attr hao]
      refine hh o' h1 ?_
      cases h : raised o'.mem.coeffs with
      | none => rfl
      | some e =>
        obtain ⟨h4, h5⟩ := h2 e h
        cases h4
        exact absurd rfl h5
    · rw [except_other hao he]
      exact ⟨h1, h2, h3⟩
  · rw [except_ok hao]
    rw [hao] at h1 h2 h3
    exact ⟨h1, h2, h3⟩

omit [AddCommGroup V] [Module ℝ V] in
theorem Tracks.pure (r : α) : Tracks ok raised (Pure.pure r : Act V B M C α) := by
  intro o ho h0
  refine ⟨ho, fun e he => ?_, fun n hn => (by cases hn)⟩
  rw [show ((Pure.pure r : Act V B M C α) o).1 = o from rfl, h0] at he
  cases he

omit [AddCommGroup V] [Module ℝ V] in
theorem Tracks.read (f : Obj V B M C → α) : Tracks ok raised (NewtonCallbacks.read f) := by
  intro o ho h0
  refine ⟨ho, fun e he => ?_, fun n hn => (by cases hn)⟩
  rw [show (NewtonCallbacks.read f o).1 = o from rfl, h0] at he
  cases he

omit [AddCommGroup V] [Module ℝ V] in
theorem Tracks.raise (x : Exn) (hx : ∀ n, x ≠ .other n) : Tracks ok raised (NewtonCallbacks.raise x : Act V B M C α) := by
  intro o ho h0
  refine ⟨ho, fun e he => ?_, fun n hn => ?_⟩
  · rw [show ((NewtonCallbacks.raise x : Act V B M C α) o).1 = o from rfl, h0] at he
    cases he
  · cases hn
    exact absurd rfl (hx n)
end

/-- The callbacks of the solver note their exceptions. -/
def Noted (raised : C → Option Exn) (o : Obj V B M C) : Prop :=
  ∀ f, o.coefficients = some f ∨ o.residual = some f ∨ o.jacobian = some f ∨ o.preconditioner = some f → Notes raised f

section
variable {raised : C → Option Exn} {α : Type}

omit [AddCommGroup V] [Module ℝ V] in
/-- Statements of the solver itself. -/
theorem Tracks.own {a : Act V B M C α} (h : ∀ o, (a o).1.mem.coeffs = o.mem.coeffs ∧ (a o).1.coefficients = o.coefficients
    ∧ (a o).1.residual = o.residual ∧ (a o).1.jacobian = o.jacobian ∧ (a o).1.preconditioner = o.preconditioner
    ∧ ∀ n, (a o).2 ≠ .error (.other n)) : Tracks (Noted raised) raised a := by
  intro o ho h0
  obtain ⟨h1, h2, h3, h4, h5, h6⟩ := h o
  refine ⟨?_, fun e he => ?_, fun n hn => absurd hn (h6 n)⟩
  · unfold Noted
    rw [h2, h3, h4, h5]
    exact ho
  · rw [h1, h0] at he
    cases he

omit [AddCommGroup V] [Module ℝ V] in
theorem Tracks.call (g : Obj V B M C → Option (Callback V B M C))
    (hg : ∀ o f, g o = some f → o.coefficients = some f ∨ o.residual = some f ∨ o.jacobian = some f ∨ o.preconditioner = some f) :
    Tracks (Noted raised) raised (fun o => NewtonCallbacks.call (g o) o) := by
  intro o ho h0
  dsimp only
  cases hgo : g o with
  | none =>
    refine ⟨ho, fun e he => ?_, fun n hn => (by cases hn)⟩
    rw [show (NewtonCallbacks.call (none : Option (Callback V B M C)) o).1 = o from rfl, h0] at he
    cases he
  | some f =>
    obtain ⟨h1, h2⟩ := ho f (hg o f hgo) o.mem
    unfold NewtonCallbacks.call
    dsimp only
    rcases hf : f o.mem with ⟨_ | e, m⟩
    · rw [hf] at h2
      dsimp only
      refine ⟨ho, fun e he => ?_, fun n hn => (by cases hn)⟩
      have := h2 rfl
      dsimp only at this he
      rw [this, h0] at he
      cases he
    · rw [hf] at h1
      obtain ⟨h3, h4⟩ := h1 e rfl
      dsimp only at h4 ⊢
      refine ⟨ho, fun e' he' => ?_, fun n hn => ?_⟩
      · rw [h4] at he'
        cases he'
        exact ⟨rfl, h3⟩
      · cases hn
        exact h4

omit [AddCommGroup V] [Module ℝ V] in
theorem Tracks.check (rank0 : Bool) (r : ℝ) : Tracks (Noted raised) raised (checkConvergence rank0 r : Act V B M C Bool) := by
  refine Tracks.own fun o => ?_
  unfold checkConvergence
  dsimp only
  split <;> exact ⟨rfl, rfl, rfl, rfl, rfl, by simp⟩

theorem Tracks.evaluate (L : Lib V B M) (bump : ℕ) (x : V) :
    Tracks (Noted raised) raised (NewtonCallbacks.evaluate L bump x : Act V B M C Unit) := by
  unfold NewtonCallbacks.evaluate
  refine Tracks.bind (Tracks.own fun o => ⟨rfl, rfl, rfl, rfl, rfl, by simp [modify]⟩) fun _ => ?_
  refine Tracks.bind (Tracks.call Obj.coefficients fun o f h => .inl h) fun _ => ?_
  refine Tracks.bind (Tracks.own fun o => ⟨rfl, rfl, rfl, rfl, rfl, by simp [modify]⟩) fun _ => ?_
  exact Tracks.call Obj.residual fun o f h => .inr (.inl h)

theorem Tracks.line (L : Lib V B M) (xCopy dx : V) (resOld : ℝ) : ∀ (fuel : ℕ) (relax : ℝ),
    Tracks (Noted raised) raised (lineSearch L xCopy dx resOld fuel relax : Act V B M C Unit) := by
  intro fuel
  induction fuel with
  | zero => intro relax; exact Tracks.raise _ (by simp)
  | succ fuel ih =>
    intro relax
    unfold lineSearch
    refine Tracks.bind (Tracks.read _) fun resNew => ?_
    split
    · dsimp only
      split
      · exact Tracks.own fun o => ⟨rfl, rfl, rfl, rfl, rfl, by simp [modify]⟩
      · refine Tracks.bind (Tracks.own fun o => ⟨rfl, rfl, rfl, rfl, rfl, by simp [modify]⟩) fun _ => ?_
        exact Tracks.bind (Tracks.evaluate L 0 _) fun _ => ih _
    · exact Tracks.own fun o => ⟨rfl, rfl, rfl, rfl, rfl, by simp [modify]⟩

theorem Tracks.test (L : Lib V B M) (rank0 : Bool) : Tracks (Noted raised) raised (testConvergence L rank0 : Act V B M C Bool) := by
  refine Tracks.own fun o => ?_
  unfold testConvergence checkConvergence
  dsimp only
  split
  · split <;> exact ⟨rfl, rfl, rfl, rfl, rfl, by simp⟩
  · split
    · exact ⟨rfl, rfl, rfl, rfl, rfl, by simp⟩
    · split <;> exact ⟨rfl, rfl, rfl, rfl, rfl, by simp⟩

theorem Tracks.body (L : Lib V B M) (rank0 write : Bool) (offset : Option V) (resOld : ℝ) :
    Tracks (Noted raised) raised (NewtonCallbacks.body L rank0 write offset resOld : Act V B M C (Bool × ℝ)) := by
  unfold NewtonCallbacks.body
  refine Tracks.bind (Tracks.read _) fun xCopy => ?_
  refine Tracks.bind (Tracks.own fun o => ⟨rfl, rfl, rfl, rfl, rfl, by simp [modify]⟩) fun _ => ?_
  refine Tracks.bind (Tracks.except (Tracks.call Obj.jacobian fun o f h => .inr (.inr (.inl h))) (Tracks.raise _ (by simp))) fun _ => ?_
  refine Tracks.bind (Tracks.except (Tracks.call Obj.preconditioner fun o f h => .inr (.inr (.inr h))) (Tracks.pure _)) fun _ => ?_
  refine Tracks.bind (Tracks.read _) fun r => ?_
  refine Tracks.bind (Tracks.own fun o => ⟨rfl, rfl, rfl, rfl, rfl, by simp [modify]⟩) fun _ => ?_
  split
  · exact Tracks.raise _ (by simp)
  · refine Tracks.bind (Tracks.read _) fun x => ?_
    refine Tracks.bind (Tracks.evaluate L 1 _) fun _ => ?_
    refine Tracks.bind (Tracks.line L _ _ _ _ _) fun _ => ?_
    refine Tracks.bind (Tracks.read _) fun _ => ?_
    refine Tracks.bind (a := writeFrame write offset) ?_ fun _ => ?_
    · unfold writeFrame
      split
      · exact Tracks.own fun o => ⟨rfl, rfl, rfl, rfl, rfl, by simp [modify]⟩
      · exact Tracks.pure _
    refine Tracks.bind (Tracks.own fun o => ?_) fun _ => ?_
    · unfold modify
      dsimp only
      split <;> exact ⟨rfl, rfl, rfl, rfl, rfl, by simp⟩
    exact Tracks.bind (Tracks.test L rank0) fun _ => Tracks.pure _

theorem Tracks.loop (L : Lib V B M) (rank0 write : Bool) (offset : Option V) : ∀ (fuel : ℕ) (conv : Bool) (resOld : ℝ),
    Tracks (Noted raised) raised (newtonLoop L rank0 write offset fuel conv resOld : Act V B M C Bool) := by
  intro fuel
  induction fuel with
  | zero => intro conv resOld; exact Tracks.raise _ (by simp)
  | succ fuel ih =>
    intro conv resOld o ho h0
    unfold newtonLoop
    split
    · exact Tracks.bind (Tracks.body L rank0 write offset resOld) (fun r => ih r.1 r.2) o ho h0
    · exact Tracks.pure conv o ho h0

theorem Tracks.inner (L : Lib V B M) (rank0 write : Bool) (offset : Option V) :
    Tracks (Noted raised) raised (solveInner L rank0 write offset : Act V B M C (ℕ × Bool)) := by
  unfold solveInner
  refine Tracks.bind (Tracks.own fun o => ?_) fun _ => ?_
  · unfold modify
    dsimp only
    split <;> exact ⟨rfl, rfl, rfl, rfl, rfl, by simp⟩
  refine Tracks.bind (Tracks.own fun o => ⟨rfl, rfl, rfl, rfl, rfl, by simp [modify]⟩) fun _ => ?_
  refine Tracks.bind (Tracks.except (Tracks.call Obj.coefficients fun o f h => .inl h) (Tracks.raise _ (by simp))) fun _ => ?_
  refine Tracks.bind (Tracks.own fun o => ⟨rfl, rfl, rfl, rfl, rfl, by simp [modify]⟩) fun _ => ?_
  refine Tracks.bind (Tracks.except (Tracks.call Obj.residual fun o f h => .inr (.inl h)) (Tracks.raise _ (by simp))) fun _ => ?_
  refine Tracks.bind (Tracks.read _) fun resOld => ?_
  refine Tracks.bind (a := firstTest L rank0) ?_ fun conv => ?_
  · refine Tracks.own fun o => ?_
    unfold firstTest checkConvergence
    dsimp only
    split
    · split <;> exact ⟨rfl, rfl, rfl, rfl, rfl, by simp⟩
    · exact ⟨rfl, rfl, rfl, rfl, rfl, by simp⟩
  refine Tracks.bind (Tracks.read _) fun maxIt => ?_
  refine Tracks.bind (Tracks.loop L rank0 write offset _ _ _) fun conv => ?_
  refine Tracks.bind (Tracks.read _) fun raises => ?_
  split
  · exact Tracks.raise _ (by simp)
  · exact Tracks.bind (Tracks.read _) fun n => Tracks.pure _
end

/-- **C202** (partial: for exceptions other than `AttributeError`).  An exception raised by a callback — coefficients,
residual, Jacobian, preconditioner, in any iteration and line search step — reaches the caller of `solve`; and a foreign
exception the caller sees was raised by a callback. -/
theorem C202_partial (L : Lib V B M) (raised : C → Option Exn) (o : Obj V B M C)
    (ho : ∀ f, o.coefficients = some f ∨ o.residual = some f ∨ o.jacobian = some f ∨ o.preconditioner = some f → Notes raised f)
    (h0 : raised o.mem.coeffs = none) (rank0 : Bool) (arg : Newton.Arg) (write : Bool) (offset : Option V) :
    (∀ e, raised (solve L rank0 arg write offset o).1.mem.coeffs = some e → (solve L rank0 arg write offset o).2 = .error e)
    ∧ ∀ n, (solve L rank0 arg write offset o).2 = .error (.other n) →
      raised (solve L rank0 arg write offset o).1.mem.coeffs = some (.other n) := by
  have h : Tracks (Noted raised) raised (solve L rank0 arg write offset : Act V B M C (ℕ × Bool)) := by
    unfold solve
    refine Tracks.except (Tracks.bind (Tracks.inner L rank0 _ _) fun r => ?_)
      (Tracks.bind (Tracks.inner L rank0 _ _) fun r => ?_)
    · cases arg with
      | function => exact Tracks.pure _
      | petscVec => exact Tracks.raise _ (by simp)
    · cases arg with
      | function => exact Tracks.raise _ (by simp)
      | petscVec => exact Tracks.pure _
  obtain ⟨-, h1, h2⟩ := h o ho h0
  exact ⟨fun e he => (h1 e he).1, h2⟩

/-- Statements that fail if a callback raised. -/
def Fails {α : Type} (ok : Obj V B M C → Prop) (raised : C → Bool) (a : Act V B M C α) : Prop :=
  ∀ o, ok o → raised o.mem.coeffs = false →
    ok (a o).1 ∧ (raised (a o).1.mem.coeffs = true → ∃ e, (a o).2 = .error e)

section
variable {ok : Obj V B M C → Prop} {raised : C → Bool} {α β : Type}

omit [AddCommGroup V] [Module ℝ V] in
theorem Fails.bind {a : Act V B M C α} {f : α → Act V B M C β} (ha : Fails ok raised a) (hf : ∀ r, Fails ok raised (f r)) :
    Fails ok raised (a >>= f) := by
  intro o ho h0
  obtain ⟨h1, h2⟩ := ha o ho h0
  rcases hao : a o with ⟨o', e | r⟩
  · rw [bind_error hao]
    rw [hao] at h1
    exact ⟨h1, fun _ => ⟨e, rfl⟩⟩
  · rw [bind_ok hao]
    rw [hao] at h1 h2
    refine hf r o' h1 ?_
    cases h : raised o'.mem.coeffs with
    | false => rfl
    | true => obtain ⟨e, he⟩ := h2 h; cases he

omit [AddCommGroup V] [Module ℝ V] in
theorem Fails.exceptRaise {a : Act V B M C α} (ha : Fails ok raised a) (x : Exn) :
    Fails ok raised (exceptAttribute a (NewtonCallbacks.raise x)) := by
  intro o ho h0
  obtain ⟨h1, h2⟩ := ha o ho h0
  rcases hao : a o with ⟨o', e | r⟩
  · rw [hao] at h1
    by_cases he : e = .attributeError
    · subst he
      rw [except_attr hao]
      exact ⟨h1, fun _ => ⟨x, rfl⟩⟩
    · rw [except_other hao he]
      exact ⟨h1, fun _ => ⟨e, rfl⟩⟩
  · rw [except_ok hao]
    rw [hao] at h1 h2
    exact ⟨h1, h2⟩
end

/-- The callbacks of the solver note their exceptions, and the preconditioner does not raise `AttributeError`s. -/
def NotedAny (raised : C → Bool) (o : Obj V B M C) : Prop :=
  (∀ f, o.coefficients = some f ∨ o.residual = some f ∨ o.jacobian = some f ∨ o.preconditioner = some f → NotesAny raised f)
  ∧ ∀ f, o.preconditioner = some f → ∀ m, (f m).1 ≠ some .attributeError

section
variable {raised : C → Bool} {α : Type}

omit [AddCommGroup V] [Module ℝ V] in
theorem Fails.own {a : Act V B M C α} (h : ∀ o, (a o).1.mem.coeffs = o.mem.coeffs ∧ (a o).1.coefficients = o.coefficients
    ∧ (a o).1.residual = o.residual ∧ (a o).1.jacobian = o.jacobian ∧ (a o).1.preconditioner = o.preconditioner) :
    Fails (NotedAny raised) raised a := by
  intro o ho h0
  obtain ⟨h1, h2, h3, h4, h5⟩ := h o
  refine ⟨?_, fun he => ?_⟩
  · unfold NotedAny
    rw [h2, h3, h4, h5]
    exact ho
  · rw [h1, h0] at he
    cases he

omit [AddCommGroup V] [Module ℝ V] in
theorem Fails.call (g : Obj V B M C → Option (Callback V B M C))
    (hg : ∀ o f, g o = some f → o.coefficients = some f ∨ o.residual = some f ∨ o.jacobian = some f ∨ o.preconditioner = some f) :
    Fails (NotedAny raised) raised (fun o => NewtonCallbacks.call (g o) o) := by
  intro o ho h0
  dsimp only
  cases hgo : g o with
  | none => exact ⟨ho, fun _ => ⟨_, rfl⟩⟩
  | some f =>
    obtain ⟨h1, h2⟩ := ho.1 f (hg o f hgo) o.mem
    unfold NewtonCallbacks.call
    dsimp only
    rcases hf : f o.mem with ⟨_ | e, m⟩
    · rw [hf] at h2
      dsimp only
      refine ⟨ho, fun he => ?_⟩
      have := h2 rfl
      dsimp only at this he
      rw [this, h0] at he
      cases he
    · exact ⟨ho, fun _ => ⟨e, rfl⟩⟩

omit [AddCommGroup V] [Module ℝ V] in
theorem Fails.precond : Fails (NotedAny raised) raised (exceptAttribute callPreconditioner (Pure.pure ()) : Act V B M C Unit) := by
  intro o ho h0
  obtain ⟨h1, h2⟩ := Fails.call (raised := raised) Obj.preconditioner (fun o f h => .inr (.inr (.inr h))) o ho h0
  dsimp only at h1 h2
  cases hp : o.preconditioner with
  | none =>
    rw [except_attr (o' := o) (by show NewtonCallbacks.call o.preconditioner o = _; rw [hp]; rfl)]
    refine ⟨ho, fun he => ?_⟩
    rw [show ((Pure.pure () : Act V B M C Unit) o).1 = o from rfl, h0] at he
    cases he
  | some f =>
    have hne := ho.2 f hp o.mem
    have hcall : callPreconditioner o = NewtonCallbacks.call (some f) o := by
      show NewtonCallbacks.call o.preconditioner o = _
      rw [hp]
    rw [hp] at h1 h2
    unfold NewtonCallbacks.call at h1 h2 hcall
    dsimp only at h1 h2 hcall
    rcases hf : f o.mem with ⟨_ | e, m⟩
    · rw [hf] at h1 h2 hcall
      rw [except_ok hcall]
      exact ⟨h1, h2⟩
    · rw [hf] at h1 h2 hcall hne
      rw [except_other hcall (by rintro rfl; exact hne rfl)]
      exact ⟨h1, h2⟩

theorem Fails.evaluate (L : Lib V B M) (bump : ℕ) (x : V) :
    Fails (NotedAny raised) raised (NewtonCallbacks.evaluate L bump x : Act V B M C Unit) := by
  unfold NewtonCallbacks.evaluate
  refine Fails.bind (Fails.own fun o => ⟨rfl, rfl, rfl, rfl, rfl⟩) fun _ => ?_
  refine Fails.bind (Fails.call Obj.coefficients fun o f h => .inl h) fun _ => ?_
  refine Fails.bind (Fails.own fun o => ⟨rfl, rfl, rfl, rfl, rfl⟩) fun _ => ?_
  exact Fails.call Obj.residual fun o f h => .inr (.inl h)

theorem Fails.line (L : Lib V B M) (xCopy dx : V) (resOld : ℝ) : ∀ (fuel : ℕ) (relax : ℝ),
    Fails (NotedAny raised) raised (lineSearch L xCopy dx resOld fuel relax : Act V B M C Unit) := by
  intro fuel
  induction fuel with
  | zero => intro relax; exact Fails.own fun o => ⟨rfl, rfl, rfl, rfl, rfl⟩
  | succ fuel ih =>
    intro relax
    unfold lineSearch
    refine Fails.bind (Fails.own fun o => ⟨rfl, rfl, rfl, rfl, rfl⟩) fun resNew => ?_
    split
    · dsimp only
      split
      · exact Fails.own fun o => ⟨rfl, rfl, rfl, rfl, rfl⟩
      · refine Fails.bind (Fails.own fun o => ⟨rfl, rfl, rfl, rfl, rfl⟩) fun _ => ?_
        exact Fails.bind (Fails.evaluate L 0 _) fun _ => ih _
    · exact Fails.own fun o => ⟨rfl, rfl, rfl, rfl, rfl⟩

theorem Fails.test (L : Lib V B M) (rank0 : Bool) : Fails (NotedAny raised) raised (testConvergence L rank0 : Act V B M C Bool) := by
  refine Fails.own fun o => ?_
  unfold testConvergence checkConvergence
  dsimp only
  split
  · split <;> exact ⟨rfl, rfl, rfl, rfl, rfl⟩
  · split
    · exact ⟨rfl, rfl, rfl, rfl, rfl⟩
    · split <;> exact ⟨rfl, rfl, rfl, rfl, rfl⟩

theorem Fails.body (L : Lib V B M) (rank0 write : Bool) (offset : Option V) (resOld : ℝ) :
    Fails (NotedAny raised) raised (NewtonCallbacks.body L rank0 write offset resOld : Act V B M C (Bool × ℝ)) := by
  unfold NewtonCallbacks.body
  refine Fails.bind (Fails.own fun o => ⟨rfl, rfl, rfl, rfl, rfl⟩) fun xCopy => ?_
  refine Fails.bind (Fails.own fun o => ⟨rfl, rfl, rfl, rfl, rfl⟩) fun _ => ?_
  refine Fails.bind (Fails.exceptRaise (Fails.call Obj.jacobian fun o f h => .inr (.inr (.inl h))) _) fun _ => ?_
  refine Fails.bind Fails.precond fun _ => ?_
  refine Fails.bind (Fails.own fun o => ⟨rfl, rfl, rfl, rfl, rfl⟩) fun r => ?_
  refine Fails.bind (Fails.own fun o => ⟨rfl, rfl, rfl, rfl, rfl⟩) fun _ => ?_
  split
  · exact Fails.own fun o => ⟨rfl, rfl, rfl, rfl, rfl⟩
  · refine Fails.bind (Fails.own fun o => ⟨rfl, rfl, rfl, rfl, rfl⟩) fun x => ?_
    refine Fails.bind (Fails.evaluate L 1 _) fun _ => ?_
    refine Fails.bind (Fails.line L _ _ _ _ _) fun _ => ?_
    refine Fails.bind (Fails.own fun o => ⟨rfl, rfl, rfl, rfl, rfl⟩) fun _ => ?_
    refine Fails.bind (a := writeFrame write offset) ?_ fun _ => ?_
    · unfold writeFrame
      split <;> exact Fails.own fun o => ⟨rfl, rfl, rfl, rfl, rfl⟩
    refine Fails.bind (Fails.own fun o => ?_) fun _ => ?_
    · unfold modify
      dsimp only
      split <;> exact ⟨rfl, rfl, rfl, rfl, rfl⟩
    exact Fails.bind (Fails.test L rank0) fun _ => Fails.own fun o => ⟨rfl, rfl, rfl, rfl, rfl⟩

theorem Fails.loop (L : Lib V B M) (rank0 write : Bool) (offset : Option V) : ∀ (fuel : ℕ) (conv : Bool) (resOld : ℝ),
    Fails (NotedAny raised) raised (newtonLoop L rank0 write offset fuel conv resOld : Act V B M C Bool) := by
  intro fuel
  induction fuel with
  | zero => intro conv resOld; exact Fails.own fun o => ⟨rfl, rfl, rfl, rfl, rfl⟩
  | succ fuel ih =>
    intro conv resOld o ho h0
    unfold newtonLoop
    split
    · exact Fails.bind (Fails.body L rank0 write offset resOld) (fun r => ih r.1 r.2) o ho h0
    · refine ⟨ho, fun he => ?_⟩
      rw [h0] at he
      cases he

theorem Fails.inner (L : Lib V B M) (rank0 write : Bool) (offset : Option V) :
    Fails (NotedAny raised) raised (solveInner L rank0 write offset : Act V B M C (ℕ × Bool)) := by
  unfold solveInner
  refine Fails.bind (Fails.own fun o => ?_) fun _ => ?_
  · unfold modify
    dsimp only
    split <;> exact ⟨rfl, rfl, rfl, rfl, rfl⟩
  refine Fails.bind (Fails.own fun o => ⟨rfl, rfl, rfl, rfl, rfl⟩) fun _ => ?_
  refine Fails.bind (Fails.exceptRaise (Fails.call Obj.coefficients fun o f h => .inl h) _) fun _ => ?_
  refine Fails.bind (Fails.own fun o => ⟨rfl, rfl, rfl, rfl, rfl⟩) fun _ => ?_
  refine Fails.bind (Fails.exceptRaise (Fails.call Obj.residual fun o f h => .inr (.inl h)) _) fun _ => ?_
  refine Fails.bind (Fails.own fun o => ⟨rfl, rfl, rfl, rfl, rfl⟩) fun resOld => ?_
  refine Fails.bind (a := firstTest L rank0) ?_ fun conv => ?_
  · refine Fails.own fun o => ?_
    unfold firstTest checkConvergence
    dsimp only
    split
    · split <;> exact ⟨rfl, rfl, rfl, rfl, rfl⟩
    · exact ⟨rfl, rfl, rfl, rfl, rfl⟩
  refine Fails.bind (Fails.own fun o => ⟨rfl, rfl, rfl, rfl, rfl⟩) fun maxIt => ?_
  refine Fails.bind (Fails.loop L rank0 write offset _ _ _) fun conv => ?_
  refine Fails.bind (Fails.own fun o => ⟨rfl, rfl, rfl, rfl, rfl⟩) fun raises => ?_
  split
  · exact Fails.own fun o => ⟨rfl, rfl, rfl, rfl, rfl⟩
  · exact Fails.bind (Fails.own fun o => ⟨rfl, rfl, rfl, rfl, rfl⟩) fun n => Fails.own fun o => ⟨rfl, rfl, rfl, rfl, rfl⟩
end

/-- **C202** (partial: for a `Function`).  If a callback raises any exception — also an `AttributeError`, unless it is the
preconditioner — then `solve(u)` with a `Function` raises an exception (though perhaps another one). -/
theorem C202_function_partial (L : Lib V B M) (raised : C → Bool) (o : Obj V B M C)
    (ho : ∀ f, o.coefficients = some f ∨ o.residual = some f ∨ o.jacobian = some f ∨ o.preconditioner = some f → NotesAny raised f)
    (hp : ∀ f, o.preconditioner = some f → ∀ m, (f m).1 ≠ some .attributeError)
    (h0 : raised o.mem.coeffs = false) (rank0 write : Bool) (offset : Option V)
    (hr : raised (solve L rank0 .function write offset o).1.mem.coeffs = true) :
    ∃ e, (solve L rank0 .function write offset o).2 = .error e := by
  revert hr
  unfold solve
  obtain ⟨-, h1⟩ := Fails.inner (raised := raised) L rank0 (write && decide (Newton.Arg.function = .function)) offset o ⟨ho, hp⟩ h0
  rcases hi : solveInner L rank0 (write && decide (Newton.Arg.function = .function)) offset o with ⟨o', e | y⟩
  · by_cases he : e = .attributeError
    · subst he
      rcases hj : solveInner L rank0 false none o' with ⟨o2, e2 | y2⟩
      · rw [(except_attr (bind_error hi)).trans (bind_error hj)]
        exact fun _ => ⟨_, rfl⟩
      · rw [(except_attr (bind_error hi)).trans (bind_ok hj)]
        exact fun _ => ⟨_, rfl⟩
    · rw [except_other (bind_error hi) he]
      exact fun _ => ⟨_, rfl⟩
  · rw [hi] at h1
    rw [except_ok (bind_ok hi)]
    exact h1

/-! ## C203 -/

/-- **C203**.  What `solve(u, write_solution=True, offset_fun=…)` writes, when it returns: the file is started anew and
contains, for `n` iterations, `n + 1` states — the displacement on entry, and for `k = 1 … n` the displacement a solve limited
to `k` iterations from the same start returns — each plus the offset; the last one is the displacement returned.  For a
`PETSc.Vec` nothing is written. -/
theorem C203_frames (L : Lib V B M) {o : Obj V B M C} {coef : V → C → C} {res : V → C → B} {jac : V → C → M}
    {pc : Option (V → C → M)} (h : Ready o coef res jac pc) (rank0 : Bool) (offset : Option V) :
    (∀ y, (solve L rank0 .function true offset o).2 = .ok y →
      (solve L rank0 .function true offset o).1.frames.length = y.1 + 1
      ∧ (solve L rank0 .function true offset o).1.frames[0]? = some (o.mem.x + offset.getD 0)
      ∧ (∀ k, 1 ≤ k → k ≤ y.1 → ∀ write' offset',
        (∃ y', (solve L rank0 .function write' offset' (o.limited k)).2 = .ok y')
        ∧ (solve L rank0 .function true offset o).1.frames[k]?
          = some ((solve L rank0 .function write' offset' (o.limited k)).1.mem.x + offset.getD 0))
      ∧ (0 < y.1 → (solve L rank0 .function true offset o).1.frames[y.1]?
        = some ((solve L rank0 .function true offset o).1.mem.x + offset.getD 0)))
    ∧ ∀ write, (solve L rank0 .petscVec write offset o).1.frames = o.frames := by
  obtain ⟨K, rfl, rfl, rfl, rfl, hP, hS, hK⟩ := h.cbs
  constructor
  · intro y hy
    obtain ⟨A', P', -, F', -, hF, hs⟩ := K.solve L rank0 .function true offset o.state o.mem.A o.mem.P o.frames hP
    rw [← hK] at hs
    rw [hs] at hy ⊢
    have hyN : (Newton.solve (K.problem L) rank0 .function o.state).2 = .ok y := by
      revert hy
      dsimp only
      cases (Newton.solve (K.problem L) rank0 .function o.state).2 with
      | ok z => intro hy; cases hy; rfl
      | error e => intro hy; cases hy
    obtain ⟨hF1, hin⟩ := hF rfl rfl y hyN
    have hyI := hyN
    rw [hin] at hyI
    obtain ⟨v1, v2, v3⟩ := inner_visits (K.problem L) rank0 o.state y hyI
    obtain ⟨xs, hxs⟩ : ∃ xs, xs = mainLoop (K.problem L) rank0 (Newton.begun (K.problem L) o.state) := ⟨_, rfl⟩
    rw [← hxs] at v1 v2 v3 hF1
    have hfr : (K.obj (Newton.solve (K.problem L) rank0 .function o.state).1 A' P' F').frames = F' := rfl
    have hx0 : (K.obj (Newton.solve (K.problem L) rank0 .function o.state).1 A' P' F').mem.x
      = (Newton.solve (K.problem L) rank0 .function o.state).1.x := rfl
    dsimp only
    rw [hfr, hx0, hF1]
    refine ⟨by simp [v1], rfl, ?_, ?_⟩
    · intro k hk1 hk2 write' offset'
      obtain ⟨i, rfl⟩ : ∃ i, k = i + 1 := ⟨k - 1, by omega⟩
      have hget : xs[i]? = some (xs[i]'(by omega)) := List.getElem?_eq_getElem (by omega)
      obtain ⟨y', hy', hx'⟩ := v3 i _ hget
      obtain ⟨A2, P2, -, F2, -, -, hs2⟩ := K.solve L rank0 .function write' offset' (lim (i + 1) o.state) o.mem.A o.mem.P o.frames hP
      have hKl : K.obj (lim (i + 1) o.state) o.mem.A o.mem.P o.frames = o.limited (i + 1) := by
        rw [show o.limited (i + 1) = (K.obj o.state o.mem.A o.mem.P o.frames).limited (i + 1) by rw [← hK]]
        rfl
      rw [hKl] at hs2
      have hsl : Newton.solve (K.problem L) rank0 .function (lim (i + 1) o.state)
          = Newton.solveInner (K.problem L) rank0 (lim (i + 1) o.state) := by
        unfold Newton.solve
        revert hy'
        rcases Newton.solveInner (K.problem L) rank0 (lim (i + 1) o.state) with ⟨t, e | z⟩
        · intro hy'; cases hy'
        · intro _; rfl
      rw [hs2, hsl]
      refine ⟨⟨y', by dsimp only; rw [hy']⟩, ?_⟩
      show _ = some ((Newton.solveInner (K.problem L) rank0 (lim (i + 1) o.state)).1.x + offset.getD 0)
      rw [hx', List.map_cons, List.getElem?_cons_succ, List.getElem?_map, hget]
      rfl
    · intro hpos
      have hl := v2 hpos
      rw [List.getLast?_eq_getElem?, v1] at hl
      obtain ⟨i, hi⟩ : ∃ i, y.1 = i + 1 := ⟨y.1 - 1, by omega⟩
      rw [hi] at hl ⊢
      rw [List.map_cons, List.getElem?_cons_succ, List.getElem?_map, show i = i + 1 - 1 by omega, hl, hin]
      rfl
  · intro write
    obtain ⟨A', P', -, F', hF, -, hs⟩ := K.solve L rank0 .petscVec write offset o.state o.mem.A o.mem.P o.frames hP
    rw [← hK] at hs
    rw [hs]
    exact hF (.inl rfl)

/-! ## Examples -/

/-- The equation `x = 1` on the real line. -/
noncomputable def exLib : Lib ℝ ℝ ℝ := ⟨fun A _ b _ => (b / A, 1, 1), fun b => |b|, fun x => |x|, id, id⟩
def exRes : Callback ℝ ℝ ℝ ℕ := fun m => (none, { m with b := m.x - 1 })
def exJac : Callback ℝ ℝ ℝ ℕ := fun m => (none, { m with A := 1 })
def exCoef : Callback ℝ ℝ ℝ ℕ := fun m => (none, { m with coeffs := m.coeffs + 1 })
/-- Options: one iteration. -/
noncomputable def exOpts : Newton.Opts := ⟨1, 1e-7, 1e-7, .incremental, false⟩
noncomputable def exFresh : Obj ℝ ℝ ℝ ℕ := { Obj.init 0 0 0 0 with opts := exOpts }
/-- Setter calls, the residual given twice. -/
def exCalls : List (Setter ℝ ℝ ℝ ℕ) := [.residual exJac, .coefficients exCoef, .jacobian exJac, .matrix 3, .residual exRes]

theorem exReady : Ready (exCalls.foldl Obj.set exFresh) (fun _ c => c + 1) (fun x _ => x - 1) (fun _ _ => 1) none :=
  (C201_setters exFresh ⟨rfl, rfl⟩ exCalls (fc := exCoef) (fr := exRes) (fj := exJac) (pc := none)
    ⟨[.residual exJac], .coefficients exCoef, [.jacobian exJac, .matrix 3, .residual exRes], rfl, rfl, by
      simp [Setter.coefficients?]⟩ (fun _ => rfl)
    ⟨[.residual exJac, .coefficients exCoef, .jacobian exJac, .matrix 3], .residual exRes, [], rfl, rfl, by simp⟩ (fun _ => rfl)
    ⟨[.residual exJac, .coefficients exCoef], .jacobian exJac, [.matrix 3, .residual exRes], rfl, rfl, by
      simp [Setter.jacobian?]⟩ (fun _ => rfl)
    (by intro s hs; simp only [exCalls, List.mem_cons, List.not_mem_nil, or_false] at hs
        rcases hs with rfl | rfl | rfl | rfl | rfl <;> rfl)).1

/-- **C202** is violated by the preconditioner.  If the preconditioner callback raises an `AttributeError` whenever it is called,
`solve` does not report it: it is Newton's method with the matrix `P0` handed to `set_preconditioner` as preconditioner. -/
theorem C202_preconditioner_violated (L : Lib V B M) {o : Obj V B M C} {coef : V → C → C} {res : V → C → B} {jac : V → C → M}
    {fc fr fj fp : Callback V B M C} (hc : o.coefficients = some fc) (hcf : ComputesCoefficients fc coef)
    (hr : o.residual = some fr) (hrf : ComputesResidual fr res) (hj : o.jacobian = some fj) (hjf : ComputesJacobian fj jac)
    (hp : o.preconditioner = some fp) (hpf : ∀ m, fp m = (some .attributeError, m)) (P0 : M) (hP0 : o.mem.P = some P0)
    (rank0 : Bool) (arg : Newton.Arg) (write : Bool) (offset : Option V) :
    (solve L rank0 arg write offset o).2
      = ((Newton.solve (problem L coef res jac (some fun _ _ => P0)) rank0 arg o.state).2).mapError exn := by
  let K : Cbs V B M C := ⟨coef, res, jac, some fun _ _ => P0, fc, fr, fj, some fp, hcf, hrf, hjf,
    .inr (.inr ⟨P0, fp, rfl, rfl, hpf⟩)⟩
  have hP : K.Fits o.mem.P := ⟨fun h => (by cases h), fun _ _ _ _ _ => hP0.symm⟩
  have hK : o = K.obj o.state o.mem.A o.mem.P o.frames := by
    rcases o with ⟨_, _, _, _, _, _, _, _, _, _, _, ⟨_, _, _, _, _⟩, _⟩
    simp only at hc hr hj hp
    subst hc hr hj hp
    rfl
  obtain ⟨A', P', hP', F', -, -, hs⟩ := K.solve L rank0 arg write offset o.state o.mem.A o.mem.P o.frames hP
  rw [← hK] at hs
  rw [hs]
  show _ = ((Newton.solve (K.problem L) rank0 arg o.state).2).mapError exn
  cases (Newton.solve (K.problem L) rank0 arg o.state).2 <;> rfl

/-- One iteration for the equation `x = 1` succeeds (C201, C203). -/
example : ∃ c, (solve exLib true .function true none (exCalls.foldl Obj.set exFresh)).2 = .ok (1, c) := by
  rw [(C201_newton exLib exReady true .function true none).1]
  set Q := problem exLib (fun (_ : ℝ) (c : ℕ) => c + 1) (fun x _ => x - 1) (fun _ _ => 1) none with hQ
  obtain ⟨s, hs⟩ : ∃ s, s = (exCalls.foldl Obj.set exFresh).state := ⟨_, rfl⟩
  have ho : s.opts = exOpts := by rw [hs]; rfl
  obtain ⟨s0, hs0⟩ : ∃ s0, s0 = Newton.begun Q s := ⟨_, rfl⟩
  have ho0 : s0.opts = exOpts := by rw [hs0]; exact ho
  have hi0 : s0.iteration = 0 := by rw [hs0]; rfl
  have hin : ∃ t c, Newton.solveInner Q true s = (t, .ok (1, c)) := by
    rw [Newton.solveInner_eq, ← hs0]
    unfold Newton.inner
    rw [ho0]
    show ∃ t c, Newton.finish (Newton.newtonLoop Q true 2 false (Q.normB s0.b) s0) = _
    unfold Newton.newtonLoop
    rw [if_pos ⟨rfl, by rw [hi0, ho0]; exact Nat.one_pos⟩]
    rcases body_shape Q true (Q.normB s0.b) s0 with ⟨t, hb⟩ | ⟨t, c, hb, hit, hto, -⟩
    · rcases Newton.body_spec Q true s0 with ⟨s1, -, h1, -⟩ | ⟨s', conv, h1, -, -⟩
      · exact absurd (show (0 : ℤ) < 1 by norm_num) h1
      · rw [h1] at hb; cases hb
    · rw [hb]
      refine ⟨t, c.1, ?_⟩
      show Newton.finish (if c.1 = false ∧ t.iteration < t.opts.maxIt then _ else _) = _
      rw [if_neg (by rw [hit, hto, hi0, ho0]; rintro ⟨-, h⟩; exact absurd h (by show ¬ 0 + 1 < 1; norm_num))]
      unfold Newton.finish
      dsimp only
      rw [if_neg (by rw [hto, ho0]; rintro ⟨-, h⟩; cases h), hit, hi0]
  obtain ⟨t, c, h⟩ := hin
  rw [← hs]
  unfold Newton.solve
  rw [h]
  exact ⟨c, rfl⟩

/-- A missing residual (C201). -/
example : (solve exLib true .function true none (exFresh.set (.coefficients exCoef))).2 = .error .runtimeError :=
  ((C201_missing exLib _ true .function true none).2 exCoef (fun _ c => c + 1) rfl (fun _ => rfl) rfl).1

/-- Callbacks of which the Jacobian raises at the third call of the coefficients (C202). -/
example : ∀ f : Callback ℝ ℝ ℝ (ℕ × Option Exn),
    f = (fun m => if m.coeffs.1 = 3 then (some (.other 5), { m with coeffs := (3, some (.other 5)) }) else (none, { m with A := 1 })) →
    Notes (fun c : ℕ × Option Exn => c.2) f := by
  rintro f rfl m
  dsimp only
  split
  · exact ⟨fun e he => (by cases he; exact ⟨by simp, rfl⟩), fun h => (by cases h)⟩
  · exact ⟨fun e he => (by cases he), fun _ => rfl⟩

/-- A preconditioner callback that raises (C202). -/
example : ((exCalls ++ [Setter.preconditioner (fun m => (some .attributeError, m)) 7]).foldl Obj.set exFresh).mem.P = some 7 := rfl

/-- Coefficients that raise an `AttributeError` in the first iteration. -/
def exOnce : Callback ℝ ℝ ℝ ℕ := fun m =>
  if m.coeffs = 1 then (some .attributeError, { m with coeffs := 2 }) else (none, { m with coeffs := m.coeffs + 1 })

/-- Options. -/
noncomputable def exOpts' : Newton.Opts := ⟨50, 1e-7, 1e-7, .residual, true⟩

/-- A solver for `x = 1` at `x = 0`, after an earlier solve with first increment of norm 1. -/
noncomputable def exOnceSolver : Obj ℝ ℝ ℝ ℕ :=
  ⟨exOpts', 0, 0, 1, 0, some 1, some 0, some exOnce, some exRes, some exJac, none, ⟨0, 0, 0, 0, none⟩, []⟩

/-- **C202** is violated by the coefficients and the residual.  An `AttributeError` raised by the coefficients in the first
iteration makes `solve(u)` with a `PETSc.Vec` start over from the displacement reached; it returns success and reports that no
iteration was needed. -/
theorem C202_restart_violated :
    (∀ m : Mem ℝ ℝ ℝ ℕ, m.coeffs = 1 → (exOnce m).1 = some .attributeError)
    ∧ (solve exLib true .petscVec true none exOnceSolver).2 = .ok (0, true)
    ∧ (solve exLib true .petscVec true none exOnceSolver).1.mem.x = 1 := by
  refine ⟨fun m hm => by simp [exOnce, hm], ?_⟩
  let ob (it kr : ℕ) (last : ℝ) (relax : ℝ) (dx : ℝ) (m : Mem ℝ ℝ ℝ ℕ) (F : List ℝ) : Obj ℝ ℝ ℝ ℕ :=
    ⟨exOpts', it, kr, 1, last, some relax, some dx, some exOnce, some exRes, some exJac, none, m, F⟩
  have hn : ¬ ((1 : ℝ) / 1 < 1e-7) := by norm_num
  have h1 : solveInner exLib true false none exOnceSolver
      = (ob 0 1 1 1.0 (-1) ⟨1, 2, -1, 1, none⟩ [], .error .attributeError) := by
    unfold solveInner
    rw [bind_ok (r := ()) (o' := ob 0 0 0 1 0 ⟨0, 0, 0, 0, none⟩ [])
        rfl,
      bind_ok (r := ()) (o' := ob 0 0 (-1) 1 0 ⟨0, 0, 0, 0, none⟩ []) rfl,
      bind_ok (r := ()) (o' := ob 0 0 (-1) 1 0 ⟨0, 1, 0, 0, none⟩ []) (except_ok rfl),
      bind_ok (r := ()) (o' := ob 0 0 (-1) 1 0 ⟨0, 1, 0, 0, none⟩ []) rfl,
      bind_ok (r := ()) (o' := ob 0 0 (-1) 1 0 ⟨0, 1, -1, 0, none⟩ [])
        (except_ok (by show (ob 0 0 (-1) 1 0 ⟨0, 1, (0 : ℝ) - 1, 0, none⟩ [], _) = _; rw [zero_sub])),
      bind_ok (r := 1) (o' := ob 0 0 (-1) 1 0 ⟨0, 1, -1, 0, none⟩ [])
        (by show (_, Except.ok |(-1 : ℝ)|) = _; rw [abs_neg, abs_one]),
      bind_ok (r := false) (o' := ob 0 0 1 1 0 ⟨0, 1, -1, 0, none⟩ [])
        (by
          show checkConvergence true |(-1 : ℝ)| (ob 0 0 (-1) 1 0 ⟨0, 1, -1, 0, none⟩ []) = _
          rw [abs_neg, abs_one]
          unfold checkConvergence
          rw [if_neg (show ¬ (true = true ∧ (some (1 : ℝ)) = none) by simp), if_neg (show ¬ (1 : ℝ) = 0 by norm_num)]
          show (ob 0 0 1 1 0 ⟨0, 1, -1, 0, none⟩ [], Except.ok (decide ((1 : ℝ) / 1 < 1e-7) && _)) = _
          rw [decide_eq_false hn]
          rfl),
      bind_ok (r := 50) (o' := ob 0 0 1 1 0 ⟨0, 1, -1, 0, none⟩ []) rfl]
    refine bind_error ?_
    unfold newtonLoop
    rw [if_pos (show false = false ∧ (ob 0 0 1 1 0 ⟨0, 1, -1, 0, none⟩ []).iteration
      < (ob 0 0 1 1 0 ⟨0, 1, -1, 0, none⟩ []).opts.maxIt from ⟨rfl, show 0 < 50 by norm_num⟩)]
    refine bind_error ?_
    unfold body
    rw [bind_ok (r := 0) (o' := ob 0 0 1 1 0 ⟨0, 1, -1, 0, none⟩ []) rfl,
      bind_ok (r := ()) (o' := ob 0 0 1 1.0 0 ⟨0, 1, -1, 0, none⟩ []) rfl,
      bind_ok (r := ()) (o' := ob 0 0 1 1.0 0 ⟨0, 1, -1, 1, none⟩ []) (except_ok rfl),
      bind_ok (r := ()) (o' := ob 0 0 1 1.0 0 ⟨0, 1, -1, 1, none⟩ []) (except_attr rfl),
      bind_ok (r := (-1, 1, 1)) (o' := ob 0 0 1 1.0 0 ⟨0, 1, -1, 1, none⟩ [])
        (by show (_, Except.ok (((-1 : ℝ) / 1, 1, 1) : ℝ × ℕ × ℤ)) = _; rw [div_one]),
      bind_ok (r := ()) (o' := ob 0 1 1 1.0 (-1) ⟨0, 1, -1, 1, none⟩ []) rfl, if_neg (by norm_num),
      bind_ok (r := 0) (o' := ob 0 1 1 1.0 (-1) ⟨0, 1, -1, 1, none⟩ []) rfl]
    refine bind_error ?_
    have hu : Newton.updateSolution (1.0 : ℝ) (-1 : ℝ) 0 = 1 := by norm_num [Newton.updateSolution]
    unfold evaluate
    rw [hu, bind_ok (r := ()) (o' := ob 0 1 1 1.0 (-1) ⟨1, 1, -1, 1, none⟩ []) rfl]
    exact bind_error rfl
  have h2 : solveInner exLib true false none (ob 0 1 1 1.0 (-1) ⟨1, 2, -1, 1, none⟩ [])
      = (ob 0 0 0 1.0 (-1) ⟨1, 3, 0, 1, none⟩ [], .ok (0, true)) := by
    unfold solveInner
    rw [bind_ok (r := ()) (o' := ob 0 1 1 1.0 (-1) ⟨1, 2, -1, 1, none⟩ []) rfl,
      bind_ok (r := ()) (o' := ob 0 0 (-1) 1.0 (-1) ⟨1, 2, -1, 1, none⟩ []) rfl,
      bind_ok (r := ()) (o' := ob 0 0 (-1) 1.0 (-1) ⟨1, 3, -1, 1, none⟩ []) (except_ok rfl),
      bind_ok (r := ()) (o' := ob 0 0 (-1) 1.0 (-1) ⟨1, 3, -1, 1, none⟩ []) rfl,
      bind_ok (r := ()) (o' := ob 0 0 (-1) 1.0 (-1) ⟨1, 3, 0, 1, none⟩ [])
        (except_ok (by show (ob 0 0 (-1) 1.0 (-1) ⟨1, 3, (1 : ℝ) - 1, 1, none⟩ [], _) = _; rw [sub_self])),
      bind_ok (r := 0) (o' := ob 0 0 (-1) 1.0 (-1) ⟨1, 3, 0, 1, none⟩ [])
        (by show (_, Except.ok |(0 : ℝ)|) = _; rw [abs_zero]),
      bind_ok (r := true) (o' := ob 0 0 0 1.0 (-1) ⟨1, 3, 0, 1, none⟩ [])
        (by
          show checkConvergence true |(0 : ℝ)| (ob 0 0 (-1) 1.0 (-1) ⟨1, 3, 0, 1, none⟩ []) = _
          rw [abs_zero]
          unfold checkConvergence
          rw [if_neg (show ¬ (true = true ∧ (some (1.0 : ℝ)) = none) by simp), if_neg (show ¬ (1 : ℝ) = 0 by norm_num)]
          show (ob 0 0 0 1.0 (-1) ⟨1, 3, 0, 1, none⟩ [], Except.ok (decide ((0 : ℝ) / 1 < 1e-7) && decide ((0 : ℝ) < 1e-7))) = _
          rw [decide_eq_true (by norm_num), decide_eq_true (by norm_num)]
          rfl),
      bind_ok (r := 50) (o' := ob 0 0 0 1.0 (-1) ⟨1, 3, 0, 1, none⟩ []) rfl,
      bind_ok (r := true) (o' := ob 0 0 0 1.0 (-1) ⟨1, 3, 0, 1, none⟩ []) rfl,
      bind_ok (r := true) (o' := ob 0 0 0 1.0 (-1) ⟨1, 3, 0, 1, none⟩ []) rfl]
    rfl
  have : solve exLib true .petscVec true none exOnceSolver = (ob 0 0 0 1.0 (-1) ⟨1, 3, 0, 1, none⟩ [], .ok (0, true)) := by
    unfold solve
    exact (except_attr (bind_error h1)).trans (bind_ok h2)
  rw [this]
  exact ⟨rfl, rfl⟩

end Verif.NewtonCallbacks
