import Verif.Model.Krylov

/-!
Specification for the options of the linear solver (C123–C126).
-/

namespace Verif.Krylov

/-- A Python dict has every key once. -/
def IsDict (d : Dict) : Prop := (d.map Prod.fst).Nodup

/-- The options that go to the solver object. -/
def Ordinary (k : String) : Prop := k ≠ "matptap_via" ∧ k ≠ "pc_mg_levels" ∧ k ≠ "pc_mg_cycles"

/-- `v` is the value which the last call of `cs` that names option `k` gives it. -/
def LastGiven (cs : List Call) (k : String) (v : Val) : Prop :=
  ∃ before c after, cs = before ++ c :: after ∧ (k, v) ∈ c.options ∧ ∀ c' ∈ after, ∀ p ∈ c'.options, p.1 ≠ k

/-- No call names option `k`. -/
def NeverGiven (cs : List Call) (k : String) : Prop := ∀ c ∈ cs, ∀ p ∈ c.options, p.1 ≠ k

end Verif.Krylov
