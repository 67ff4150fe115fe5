import Verif.Model.NewtonCallbacks

/-! Specification for C201–C203: callbacks of the Newton solver. -/

namespace Verif.NewtonCallbacks

variable {V B M C α : Type}

/-- A callback that computes coefficients, a residual, a Jacobian, a preconditioner from the current displacement and
coefficients, without raising. -/
def ComputesCoefficients (f : Callback V B M C) (g : V → C → C) : Prop :=
  ∀ m, f m = (none, { m with coeffs := g m.x m.coeffs })
def ComputesResidual (f : Callback V B M C) (g : V → C → B) : Prop := ∀ m, f m = (none, { m with b := g m.x m.coeffs })
def ComputesJacobian (f : Callback V B M C) (g : V → C → M) : Prop := ∀ m, f m = (none, { m with A := g m.x m.coeffs })
def ComputesPreconditioner (f : Callback V B M C) (g : V → C → M) : Prop :=
  ∀ m, f m = (none, { m with P := some (g m.x m.coeffs) })

/-- The argument of a setter call, by kind. -/
def Setter.coefficients? : Setter V B M C → Option (Callback V B M C)
  | .coefficients f => some f
  | _ => none
def Setter.residual? : Setter V B M C → Option (Callback V B M C)
  | .residual f => some f
  | _ => none
def Setter.jacobian? : Setter V B M C → Option (Callback V B M C)
  | .jacobian f => some f
  | _ => none
def Setter.preconditioner? : Setter V B M C → Option (Callback V B M C)
  | .preconditioner f _ => some f
  | _ => none

/-- The matrix a setter call gives, for the preconditioner and for the Jacobian. -/
def Setter.preconditionerMatrix? : Setter V B M C → Option M
  | .preconditioner _ P => some P
  | _ => none
def Setter.matrix? : Setter V B M C → Option M
  | .matrix A => some A
  | _ => none

/-- Of the calls of the kind `k`, the last one was with `a`. -/
def LastSet (k : Setter V B M C → Option α) (calls : List (Setter V B M C)) (a : α) : Prop :=
  ∃ before s after, calls = before ++ s :: after ∧ k s = some a ∧ ∀ s' ∈ after, k s' = none

/-- The preconditioner set last computes `pc`; `none`: none was set. -/
def PreconditionerSet (calls : List (Setter V B M C)) : Option (V → C → M) → Prop
  | none => ∀ s ∈ calls, s.preconditioner? = none
  | some q => ∃ f, LastSet Setter.preconditioner? calls f ∧ ComputesPreconditioner f q

/-- Newton's method (`Model/Newton.lean`) for given residual, Jacobian, coefficients and preconditioner. -/
def problem (L : Lib V B M) (coef : V → C → C) (res : V → C → B) (jac : V → C → M) (pc : Option (V → C → M)) :
    Newton.Problem V B (M × Option M) C where
  coefficients := coef
  residual := res
  jacobian x c := (jac x c, pc.map (fun q => q x c))
  linSolve A b dx := L.linSolve A.1 A.2 b dx
  normB := L.normB
  normV := L.normV
  pre := L.pre
  post := L.post

/-- The part of a solver object Newton's method works on. -/
def Obj.state (o : Obj V B M C) : Newton.St V B C :=
  ⟨o.opts, o.iteration, o.krylov, o.initialResidual, o.lastResidual, o.relax, o.dx, o.mem.x, o.mem.coeffs, o.mem.b, 0, 0⟩

/-- The exceptions of `Model/Newton.lean`. -/
def exn : Newton.Err → Exn
  | .attributeError => .attributeError
  | .runtimeError => .runtimeError
  | .assertionError => .assertionError
  | .fuel => .fuel

/-- A solver object whose callbacks compute given functions; without preconditioner if `pc` is `none`. -/
structure Ready (o : Obj V B M C) (coef : V → C → C) (res : V → C → B) (jac : V → C → M) (pc : Option (V → C → M)) : Prop where
  coefficients : ∃ f, o.coefficients = some f ∧ ComputesCoefficients f coef
  residual : ∃ f, o.residual = some f ∧ ComputesResidual f res
  jacobian : ∃ f, o.jacobian = some f ∧ ComputesJacobian f jac
  preconditioner : (pc = none ∧ o.preconditioner = none ∧ o.mem.P = none)
    ∨ ∃ q f, pc = some q ∧ o.preconditioner = some f ∧ ComputesPreconditioner f q

/-- A callback that notes the exceptions it raises in its data (`raised`), and raises no `AttributeError`. -/
def Notes (raised : C → Option Exn) (f : Callback V B M C) : Prop :=
  ∀ m, (∀ e, (f m).1 = some e → e ≠ .attributeError ∧ raised (f m).2.coeffs = some e)
    ∧ ((f m).1 = none → raised (f m).2.coeffs = raised m.coeffs)

/-- A callback that notes that it raised an exception of whatever kind. -/
def NotesAny (raised : C → Bool) (f : Callback V B M C) : Prop :=
  ∀ m, ((f m).1 ≠ none → raised (f m).2.coeffs = true) ∧ ((f m).1 = none → raised (f m).2.coeffs = raised m.coeffs)

/-- The solver with the number of iterations limited to `k`, and no error if they do not suffice. -/
def Obj.limited (k : ℕ) (o : Obj V B M C) : Obj V B M C :=
  { o with opts := { o.opts with maxIt := k, errorOnNonconvergence := false } }

end Verif.NewtonCallbacks
