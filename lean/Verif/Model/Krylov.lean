/-!
Options of the linear solver of `NewtonSolver` (`newton_solver.py:50-124`).

PETSc by contract: there is one table of options per program; `opts[k] = v` stores `v` under the pushed
prefixes followed by `k`; `setFromOptions` of an object takes over every entry stored under the prefix of the
object and leaves its other options alone; a new object has no options set.  An option of a KSP object
stands for its effect on the solver and its preconditioner.
-/

namespace Verif.Krylov

/-- Python value of an option: `none` is `None`. -/
abbrev Val := Option String

/-- `dict[str, Any]`: items in insertion order. -/
abbrev Dict := List (String × Val)

/-- Contents of the table, or of an object: value of every option that is set. -/
abbrev Table := String → Option Val

/-- Store one entry. -/
def put (t : Table) (k : String) (v : Val) : Table := fun x => if x = k then some v else t x

/-- The table of the program and the pushed prefixes. -/
structure Opts where
  db : Table
  prefixes : List String

/-- `opts[k] = v`. -/
def Opts.set (o : Opts) (k : String) (v : Val) : Opts := { o with db := put o.db (o.prefixes.foldr (· ++ ·) k) v }

/-- `opts.prefixPush(p)`, `opts.prefixPop()`. -/
def Opts.push (o : Opts) (p : String) : Opts := { o with prefixes := o.prefixes ++ [p] }
def Opts.pop (o : Opts) : Opts := { o with prefixes := o.prefixes.dropLast }

/-- An object with `prefix` and its options (`ksp`, `mat` and `vec` in `Solver`). -/
def fromOptions (db : Table) (pre : String) (t : Table) : Table := fun k => (db (pre ++ k)).or (t k)

/-- The parts of `NewtonSolver` concerned.  `levels` and `cycles` are what `pc.setMGLevels` and
`pc.setMGCycleType` were called with. -/
structure Solver where
  ksp : Table
  mat : Table
  vec : Table
  levels : Option Val
  cycles : Option Val

/-- `newton_solver.py:79-81`, `121-123`: prefix of every solver. -/
def kspPrefix : String := "Newton_solver_"

/-- `newton_solver.py:89`. -/
def globalKeys : List String := ["matptap_via"]

/-- `newton_solver.py:91`. -/
def pcKeys : List String := ["pc_mg_levels", "pc_mg_cycles"]

/-- `dict.get(k)`: `None` if missing. -/
def Dict.get (d : Dict) (k : String) : Val := ((d.find? (fun p => p.1 = k)).map Prod.snd).join

/-- `newton_solver.py:95-101`: the loop over the options; state: table, `g_opts`, `pc_opts`. -/
def sortOptions (o : Opts) : Dict → Opts × Dict × Dict
  | [] => (o, [], [])
  | (k, v) :: rest =>
    if k ∈ globalKeys then
      let r := sortOptions o rest
      (r.1, (k, v) :: r.2.1, r.2.2)
    else if k ∈ pcKeys then
      let r := sortOptions o rest
      (r.1, r.2.1, (k, v) :: r.2.2)
    else sortOptions (o.set k v) rest

/-- `newton_solver.py:84-115` `set_krylov_options`. -/
def setKrylovOptions (options : Dict) (o : Opts) (s : Solver) : Opts × Solver :=
  let r := sortOptions (o.push kspPrefix) options
  let o := r.2.1.foldl (fun o p => o.set p.1 p.2) r.1.pop
  let ksp := fromOptions o.db kspPrefix s.ksp
  let levels := r.2.2.get "pc_mg_levels"
  let cycles := r.2.2.get "pc_mg_cycles"
  let s' : Solver :=
    { ksp := ksp
      mat := fromOptions o.db kspPrefix s.mat
      vec := fromOptions o.db kspPrefix s.vec
      levels := if levels ≠ none ∧ ksp "pc_type" ≠ some (some "gamg") then some levels else s.levels
      cycles := if levels ≠ none ∧ cycles ≠ none then some cycles else s.cycles }
  (o, s')

/-- `newton_solver.py:79-81`: a new KSP object.  The matrix and the vector are given by the user. -/
def newSolver : Solver := ⟨fun _ => none, fun _ => none, fun _ => none, none, none⟩

/-- `newton_solver.py:117-124` `update_krylov_solver`. -/
def updateKrylovSolver (options : Dict) (o : Opts) (s : Solver) : Opts × Solver :=
  setKrylovOptions options o { s with ksp := fun _ => none, levels := none, cycles := none }

/-- A call on one of the solvers of a program. -/
inductive Call where
  | set (id : Nat) (options : Dict)
  | update (id : Nat) (options : Dict)

/-- The table and all solvers. -/
structure Program where
  opts : Opts
  solvers : Nat → Solver

/-- Before the first call. -/
def Program.start : Program := ⟨⟨fun _ => none, []⟩, fun _ => newSolver⟩

def Call.id : Call → Nat
  | .set i _ => i
  | .update i _ => i

def Call.options : Call → Dict
  | .set _ d => d
  | .update _ d => d

def Program.step (p : Program) (c : Call) : Program :=
  let r := match c with
    | .set i d => setKrylovOptions d p.opts (p.solvers i)
    | .update i d => updateKrylovSolver d p.opts (p.solvers i)
  ⟨r.1, fun j => if j = c.id then r.2 else p.solvers j⟩

def Program.run (p : Program) (cs : List Call) : Program := cs.foldl Program.step p

end Verif.Krylov
