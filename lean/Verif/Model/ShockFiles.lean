import Verif.Model.ShockRun
import Verif.Model.SingleRun

/-!
# ds-shock on the files of the other commands

`Model/ShockRun` has the search for shocks on solutions of which only the fields it reads are
kept.  Here the solutions are those the other commands store, with their whole input, so that
what `ds-shock` writes can be given to the other commands.
-/

namespace DiscSolver.ShockFiles

open Runners SingleRun

/-- The solution behind a shock at `p` (`solve/shock.py:112-130,176`): solved from the state
behind the shock, stored with the input which does not ask for a jump across the sonic point,
and with the initial conditions of the solution before the shock. -/
noncomputable def continuation (I : Tolerances → Integrator) (str : ℝ → String)
    (interp : List ℝ → List ℝ → Option (ℝ → ℝ)) (m : Made) (p : ℝ × St) :
    Except PyErr Made := do
  let s := m.solution_input.new_without_sonic_taylor
  let tol ← tolerances s
  let o ← solveOpts s
  let out ← (solution (I tol) str interp o m.initial_conditions
    { store_internal := true
      modified_initial_conditions := some (get_shock_modified_initial_conditions
        m.initial_conditions m.out.angles p.1 p.2)
      with_taylor := false
      is_post_shock_only := true }).result
  pure { solution_input := s, initial_conditions := m.initial_conditions, out }

/-- `self.run.solutions.add_solution(shock_soln)` as a sonic method. -/
def addSolver (m : Made) : Solver ℝ Made := fun _ run =>
  match run.addSolution m with
  | .error x => (.error x, run)
  | .ok (_, run) => (.ok true, run)

/-- The file written for the `i`th candidate (`shock.py:132-144`): nothing if it could
not be solved, is too short, or has no name.  `stamp i` is the time and the name of the
worker. -/
noncomputable def job (e : Runners.Env ℝ) (stamp : ℕ → String) (I : Tolerances → Integrator)
    (str : ℝ → String) (interp : List ℝ → List ℝ → Option (ℝ → ℝ)) (m : Made)
    (run : TheRun ℝ Made) (values : List (ℝ × St)) (i : ℕ) : Option (Job ℝ Made) :=
  match values[i]? with
  | none => none
  | some p =>
    match continuation I str interp m p with
    | .error _ => none
    | .ok made =>
      if made.out.angles.length < 5 then none
      else
        match default_name (run.info.config_input .label) (stamp i ++ ".hdf5") with
        | .error _ => none
        | .ok name => some
            { path := e.path "shock_tests" name, run := run, solver := addSolver made
              input := fun _ => .none }

/-- A step of the worker that has candidate `i`. -/
noncomputable def step (writable : String → Bool) (jobs : ℕ → Option (Job ℝ Made))
    (p : Pool ℝ Made) (i : ℕ) : Pool ℝ Made :=
  match jobs i with
  | none => p
  | some j => p.step writable (fun _ => j) i

/-- `ds-shock` (`shock.py:167-190,220-241`, `analyse/utils.py:461-472`) for one order of the
workers' steps.  The command line, the plots and what is printed are left out. -/
noncomputable def ds_shock (e : Runners.Env ℝ) (stamp : ℕ → String)
    (I : Tolerances → Integrator) (str : ℝ → String)
    (interp : List ℝ → List ℝ → Option (ℝ → ℝ)) (filename soln_range : String)
    (fs : FS ℝ Made) (schedule : List ℕ) : Except PyErr (Pool ℝ Made) :=
  match load_run fs filename with
  | .error x => .error x
  | .ok run =>
    match run.getSolutions (some soln_range) with
    | .error x => .error x
    | .ok (.soln m) =>
      match find_shock_test_values (m.out.angles.zip m.out.solution) (min_v_θ_pre := 1)
          (max_v_θ_pre := 10) (min_angle := 40) with
      | .error x => .error x
      | .ok values => .ok (schedule.foldl (step e.writable (job e stamp I str interp m
          (run.createShockRun filename soln_range) values)) { fs := fs })
    | .ok _ => .error .AttributeError

end DiscSolver.ShockFiles
