import Verif.Model.SingleRun
import Verif.Model.SonicRoot

/-!
# The method `sonic_root`

`sonic_root.solver` (`src/disc_solver/solve/sonic_root.py:55-92`), as `solve` calls it
(`solve/__init__.py:66-75`): with a new run which belongs to an open file.  The solver is the
one of `Model/SonicRoot`.

The root search (`scipy.optimize.root`) is outside the model: which guesses it tries after the
first one, and its verdict, can be any function of the input and of whether internal data are
stored, which determine all it sees.  It can also raise.  Numbers are exact reals.
-/

namespace DiscSolver.SonicRootRun

open Runners SingleRun

/-- What the search does after the first guess: the guesses it tries, and its verdict. -/
abbrev Search := SolutionInput ℝ → Bool → List SonicRoot.Guess × Except PyErr Bool

/-- `COORDS` (`solution.py:41,776`). -/
def coords : String := "spherical midplane 0"

/-- `ERR_FLOAT` (`sonic_root.py:28`) for the largest float `M`. -/
noncomputable def ERR_FLOAT (M : ℝ) : ℝ := -Real.sqrt M / 10

/-- What the solver takes from the input. -/
noncomputable def args (I : Tolerances → Integrator) (str : ℝ → String)
    (interp : List ℝ → List ℝ → Option (ℝ → ℝ)) (M : ℝ) (store_internal : Bool)
    (s : SolutionInput ℝ) : Except PyErr SonicRoot.Args := do
  let inp ← numInput s
  let tol ← tolerances s
  let opts ← solveOpts s
  let target_velocity ← real (s .target_velocity)
  pure { I := I tol, str, interp, inp, opts, target_velocity, store_internal, coords
         err := ERR_FLOAT M }

/-- What the file holds for a stored solution: the initial conditions as they were when it
was stored. -/
def inFile (s : SolutionInput ℝ) (c : Conditions) (x : SonicRoot.Soln) : Made :=
  { solution_input := s
    initial_conditions := { c with init_con := SonicRoot.rowSt x.init_con }
    out := x.out }

/-- The final solution in the file. -/
def finalInFile (s : SolutionInput ℝ) (c : Conditions) :
    Final SonicRoot.Soln → Final Made
  | .delayed => .delayed
  | .value x => .value (x.map (inFile s c))

/-- `sonic_root.solver` (`sonic_root.py:55-92`) with a new run, of whose other attributes it
reads nothing. -/
noncomputable def sonic_root_solver (scipy : Search) (I : Tolerances → Integrator)
    (str : ℝ → String) (interp : List ℝ → List ℝ → Option (ℝ → ℝ)) (M : ℝ)
    (store_internal : Bool) : Solver ℝ Made := fun s run =>
  match args I str interp M store_internal s with
  | .error x => (.error x, run)
  | .ok a =>
    match define_conditions a.inp with
    | none => (.error .SolverError, run)
    | some c =>
      match SonicRoot.solver a ({ info := () } : Run Unit _) (scipy s store_internal).1
        (scipy s store_internal).2 with
      | (r, b) =>
        (b, { run with
          solutions := r.solutions.map fun p => (p.1, inFile s c p.2)
          final := finalInFile s c r.final })

/-- `SONIC_METHOD_MAP` (`solve/__init__.py:32-40`) with the other methods as arguments. -/
noncomputable def methods (scipy : Search) (I : Tolerances → Integrator) (str : ℝ → String)
    (interp : List ℝ → List ℝ → Option (ℝ → ℝ)) (M : ℝ)
    (others : Bool → String → Solver ℝ Made) (store_internal : Bool) (name : String) :
    Solver ℝ Made :=
  if name = "sonic_root" then sonic_root_solver scipy I str interp M store_internal
  else others store_internal name

end DiscSolver.SonicRootRun
