import Verif.Model.SingleRun
import Verif.Model.Stepper

/-!
# The method `step`

`stepper.solver` (`src/disc_solver/solve/stepper.py:306-334`), as `solve` and `resolve`
call it (`solve/__init__.py:66-75`, `solve/resolve.py:58-66`): with a new run which belongs
to an open file, and with the default limits.  The search is the one of `Model/Stepper`,
and what it solves is the `solution` of `Model/SingleRun`.

Numbers are real, but the arithmetic on `γ` is any (`Stepper.Ops`), so that rounding is
covered.  A search which never ends is shown as a `RuntimeError`.
-/

namespace DiscSolver.StepRun

open Runners SingleRun

/-- `DEFAULT_NUM_ATTEMPTS` (`stepper.py:20`). -/
def DEFAULT_NUM_ATTEMPTS : ℕ := 100

/-- `DEFAULT_MAX_SEARCH_STEPS` (`stepper.py:21`). -/
def DEFAULT_MAX_SEARCH_STEPS : ℕ := 20

/-- A row of an array, in the order of `ODEIndex` (`utils.py:57-72`). -/
def row (s : St) : Stepper.Row :=
  ![some s.B_r, some s.B_φ, some s.B_θ, some s.v_r, some s.v_φ, some s.v_θ, some s.ρ,
    some s.X, some s.η_O, some s.η_A, some s.η_H]

/-- What the search reads of a solution. -/
def view (o : SolutionOut) : Stepper.SolnData :=
  { flag := some o.flag
    rows := o.solution.map row
    internal := o.internal_data.map fun d => ⟨d.problems, d.derivs.map row⟩ }

/-- The `SolutionInput` with this `γ` (`stepper.py:278-301`). -/
def fields (i : Stepper.Input ℝ (SolutionInput ℝ)) : SolutionInput ℝ :=
  Function.update i.rest .γ (.float i.γ)

/-- The search as `solve` and `resolve` make it. -/
noncomputable def setup (ops : Stepper.Ops ℝ) (I : Tolerances → Integrator) (str : ℝ → String)
    (interp : List ℝ → List ℝ → Option (ℝ → ℝ)) (store_internal : Bool) :
    Stepper.Setup ℝ (SolutionInput ℝ) where
  ops := ops
  solve i := (single_solution I str interp store_internal (fields i)).map fun m => view m.out
  on_file := true
  no_final_solution := false
  max_search_steps := DEFAULT_MAX_SEARCH_STEPS

/-- What the file holds for a stored solution: the arrays come from the input it was
computed with, which is the input saved (`Stepper.recorded_input_on_file_partial`). -/
noncomputable def inFile (I : Tolerances → Integrator) (str : ℝ → String)
    (interp : List ℝ → List ℝ → Option (ℝ → ℝ)) (store_internal : Bool)
    (s : Stepper.Stored ℝ (SolutionInput ℝ)) : Option Made :=
  match s.saved with
  | some i => (single_solution I str interp store_internal (fields i)).toOption
  | none => none

/-- The final solution in the file. -/
noncomputable def finalInFile (I : Tolerances → Integrator) (str : ℝ → String)
    (interp : List ℝ → List ℝ → Option (ℝ → ℝ)) (store_internal : Bool) :
    Final (Stepper.Stored ℝ (SolutionInput ℝ)) → Final Made
  | .delayed => .delayed
  | .value none => .value none
  | .value (some s) => .value (inFile I str interp store_internal s)

/-- What the caller of the search sees. -/
def answer : Except Stepper.Stop Bool → Except PyErr Bool
  | .ok b => .ok b
  | .error (.py e) => .error e
  | .error .hangs => .error .RuntimeError
  | .error _ => .error .SolverError

/-- `stepper.solver` (`stepper.py:306-334`) with a new run, of whose other attributes it
reads nothing.  `0.1 * soln_input.γ` and the
call of the splitter are `TypeError`s if the input holds something else there. -/
noncomputable def step_solver (ops : Stepper.Ops ℝ)
    (human : List Stepper.SolnData → Stepper.SplitterStatus) (I : Tolerances → Integrator)
    (str : ℝ → String) (interp : List ℝ → List ℝ → Option (ℝ → ℝ)) (store_internal : Bool) :
    Solver ℝ Made := fun inp run =>
  match inp .γ, inp .split_method with
  | .float γ, .str m =>
    match Stepper.solver (setup ops I str interp store_internal) human (String.ofList m)
        ⟨γ, inp⟩ ({ info := () } : Run Unit _) DEFAULT_NUM_ATTEMPTS with
    | (a, r, _) =>
      (answer a,
        { run with
          solutions := r.solutions.filterMap fun p =>
            (inFile I str interp store_internal p.2).map fun m => (p.1, m)
          final := finalInFile I str interp store_internal r.final })
  | _, _ => (.error .TypeError, run)

/-- `SONIC_METHOD_MAP` (`solve/__init__.py:32-40`) with `single` and `step`, the other
methods as arguments. -/
noncomputable def methods (ops : Stepper.Ops ℝ)
    (human : List Stepper.SolnData → Stepper.SplitterStatus) (I : Tolerances → Integrator)
    (str : ℝ → String) (interp : List ℝ → List ℝ → Option (ℝ → ℝ))
    (others : Bool → String → Solver ℝ Made) : Bool → String → Solver ℝ Made :=
  SingleRun.methods I str interp fun store_internal name =>
    if name = "step" then step_solver ops human I str interp store_internal
    else others store_internal name

end DiscSolver.StepRun
