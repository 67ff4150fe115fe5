import Mathlib.Analysis.SpecialFunctions.Pow.Real
import Mathlib.Data.List.Range

/-!
The convergence studies `unsplit_domain` and `test_meshtie` of `python/demos/meshtie_demos/poisson_convergence.py` and
`python/demos/meshtie_convergence.py`: refinement levels and convergence rates.  Real numbers instead of doubles; infinities
and NaN as in NumPy, without the sign of zero.
-/

namespace Verif.Rates

noncomputable section

/-- A `np.float64`. -/
inductive Num where
  | val (x : ℝ) | pinf | ninf | nan

/-- `np.log`. -/
def Num.log : Num → Num
  | .val x => if 0 < x then .val (Real.log x) else if x = 0 then .ninf else .nan
  | .pinf => .pinf
  | .ninf => .nan
  | .nan => .nan

/-- `a - b`. -/
def Num.sub : Num → Num → Num
  | .val x, .val y => .val (x - y)
  | .nan, _ => .nan
  | _, .nan => .nan
  | .pinf, .pinf => .nan
  | .ninf, .ninf => .nan
  | .pinf, _ => .pinf
  | .ninf, _ => .ninf
  | .val _, .pinf => .ninf
  | .val _, .ninf => .pinf

/-- `a / b`. -/
def Num.div : Num → Num → Num
  | .val x, .val y => if y = 0 then (if x = 0 then .nan else if 0 < x then .pinf else .ninf) else .val (x / y)
  | .nan, _ => .nan
  | _, .nan => .nan
  | .val _, _ => .val 0
  | .pinf, .val y => if 0 ≤ y then .pinf else .ninf
  | .ninf, .val y => if 0 ≤ y then .ninf else .pinf
  | _, _ => .nan

/-- What a level is computed with: the number in the file name, the resolution and the number of segments of the
interface. -/
structure Input (S : Type) where
  i : ℕ
  res : ℝ
  segments : S

/-- What a level contributes: the global number of dofs and the error in L² (its computation is that of C216). -/
structure Level where
  dofs : ℕ
  error : ℝ

/-- `poisson_convergence.py:94-198`, `256-438`, `meshtie_convergence.py:125-234`, `288-468`: `for i in range(1, runs + 1)`, with
`res = 0.5 * res` and twice as many segments (`double`) at its end.  The inputs of the levels are recorded. -/
def loop {S : Type} (double : S → S) (solve : Input S → Level) : List ℕ → ℝ → S → List (Input S × Level)
  | [], _, _ => []
  | i :: is, res, seg => (⟨i, res, seg⟩, solve ⟨i, res, seg⟩) :: loop double solve is (0.5 * res) (double seg)

/-- `poisson_convergence.py:198`. -/
def double1 (n : ℕ) : ℕ := 2 * n

/-- `poisson_convergence.py:435`. -/
def double2 (n : ℕ × ℕ) : ℕ × ℕ := (2 * n.1, 2 * n.2)

/-- `poisson_convergence.py:208,450`: an entry of `h = 1.0 / (np.array(ndofs) ** (1 / tdim))`. -/
def size (tdim n : ℕ) : Num := (Num.val 1).div (.val ((n : ℝ) ^ ((1 : ℝ) / tdim)))

/-- `poisson_convergence.py:209,451`: `[(np.log(h[i - 1]) - np.log(h[i])) for i in range(1, runs)]`; the same for the errors
(`210,452`). -/
def logDiff (runs : ℕ) (x : ℕ → Num) : List Num := (List.range' 1 (runs - 1)).map (fun i => (x (i - 1)).log.sub (x i).log)

/-- What is printed. -/
structure Report where
  errors : List ℝ
  dofs : List ℕ
  rates : List Num

/-- `UnboundLocalError`. -/
inductive Err where
  | unbound
  deriving DecidableEq

/-- `poisson_convergence.py:76-215`, `218-457`: the levels and the report.  Without a level the variable `mesh` of the output of the
partitioning (`199`, `441`) is unbound.  Times, iteration counts and output are left out. -/
def study {S : Type} (double : S → S) (tdim : ℕ) (solve : Input S → Level) (res : ℝ) (seg : S) (runs : ℤ) :
    Except Err (List (Input S) × Report) :=
  let levels := loop double solve (List.range' 1 runs.toNat) res seg
  if levels.isEmpty then .error .unbound else
    let errors := levels.map (fun l => l.2.error)
    let dofs := levels.map (fun l => l.2.dofs)
    let hDiff := logDiff runs.toNat (fun i => size tdim (dofs.getD i 0))
    let errDiff := logDiff runs.toNat (fun i => .val (errors.getD i 0))
    .ok (levels.map (fun l => l.1), ⟨errors, dofs,
      (List.range (runs.toNat - 1)).map (fun i => (errDiff.getD i .nan).div (hDiff.getD i .nan))⟩)

/-- `unsplit_domain` (`poisson_convergence.py:76-215`): the initial resolution and number of segments `2 * ceil(5.0 / (1.2 * 0.7))`. -/
def unsplitDomain (threed : Bool) (solve : Input ℕ → Level) (runs : ℤ) : Except Err (List (Input ℕ) × Report) :=
  study double1 (if threed then 3 else 2) solve 0.6 (2 * ⌈(5 : ℝ) / (1.2 * 0.7)⌉₊) runs

/-- `test_meshtie` (`poisson_convergence.py:218-457`): the initial resolution depends on the cells, the two bodies have different
numbers of segments. -/
def testMeshtie (threed simplex : Bool) (solve : Input (ℕ × ℕ) → Level) (runs : ℤ) :
    Except Err (List (Input (ℕ × ℕ)) × Report) :=
  study double2 (if threed then 3 else 2) solve (if simplex then 0.8 else 1.2)
    (2 * ⌈(5 : ℝ) / 1.2⌉₊, 2 * ⌈(5 : ℝ) / (1.2 * 0.7)⌉₊) runs

end

end Verif.Rates
