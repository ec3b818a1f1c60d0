import Verif.Model.Runners
import Verif.Model.Shock
import Verif.Model.Solution

/-!
# The command ds-shock

`src/disc_solver/solve/shock.py:94-241`: which continuations are tried for a stored
solution, how they are solved, and what becomes of them.  The candidates are handled by
worker processes.  `Pool.imap` sends the function with every candidate, so each candidate
works on its own copy of the run.  Messages are not modelled, nor that solutions always
slower than sound are announced (`shock.py:160-161`).
-/

namespace DiscSolver.ShockRun

open Runners

/-- A stored solution: of its input the fields `solution` reads, its initial conditions,
and what was computed. -/
structure Stored where
  opts : SolveOpts
  conditions : Conditions
  out : SolutionOut

/-- The rows of a stored solution with their angles. -/
def Stored.rows (s : Stored) : List (ℝ × St) := s.out.angles.zip s.out.solution

/-- `SolutionInput.new_without_sonic_taylor` (`file_format/_containers.py:335-345`) on the
fields `solution` reads.  The slice becomes `None`; it is only read with
`sonic_interp_size`, so it is left alone here. -/
def withoutSonicTaylor (o : SolveOpts) : SolveOpts :=
  { o with use_taylor_jump := false, jump_before_sonic := none, v_θ_sonic_crit := none,
           after_sonic := none, sonic_interp_size := none }

/-- What comes from outside: the integrator, how numbers are printed, the interpolation,
the path made from a directory and a name, whether a file can be made at a path, the
current time and the name of the worker for the `i`th candidate, and whether its plot
succeeds. -/
structure Env (F : Type) where
  I : Integrator
  str : ℝ → String
  interp : List ℝ → List ℝ → Option (ℝ → ℝ)
  path : String → String → String
  writable : String → Bool
  stamp : ℕ → String
  plots : ℕ → TheRun F Stored → Bool

/-- The attributes of `ShockFinder` (`shock.py:99-108`) and the candidates
(`shock.py:177-184`). -/
structure Search (F : Type) where
  new_solution_input : SolveOpts
  initial_conditions : Conditions
  angles : List ℝ
  output_dir : String := "shock_tests"
  store_internal : Bool := true
  run : TheRun F Stored
  values : List (ℝ × St)

/-- `compute_shock` (`shock.py:167-190`) up to the pool. -/
noncomputable def compute_shock {F : Type} (soln : Stored) (run : TheRun F Stored) :
    Except PyErr (Search F) :=
  match find_shock_test_values soln.rows (min_v_θ_pre := 1) (max_v_θ_pre := 10)
      (min_angle := 40) with
  | .error x => .error x
  | .ok values => .ok
      { new_solution_input := withoutSonicTaylor soln.opts
        initial_conditions := soln.conditions
        angles := soln.out.angles
        run := run
        values := values }

/-- The attributes of what `get_solutions` returned: only a solution has them. -/
def foundSolution : Run.Found Stored → Except PyErr Stored
  | .soln s => .ok s
  | .none => .error .AttributeError
  | .placeholder => .error .AttributeError

/-- `shock_main` and `shock_from_file` (`shock.py:215-241`,
`analyse/utils.py:461-472`) up to the pool. -/
noncomputable def shock_from_file {F : Type} (fs : FS F Stored)
    (filename soln_range : String) : Except PyErr (Search F) :=
  match load_run fs filename with
  | .error x => .error x
  | .ok run =>
    match run.getSolutions (some soln_range) with
    | .error x => .error x
    | .ok found =>
      match foundSolution found with
      | .error x => .error x
      | .ok soln => compute_shock soln (run.createShockRun filename soln_range)

/-- The solve of one candidate (`shock.py:112-130`): the requests to the integrator and
the solution. -/
noncomputable def Search.solve {F : Type} (e : Env F) (q : Search F) (p : ℝ × St) :
    Logged SolutionOut :=
  solution e.I e.str e.interp q.new_solution_input q.initial_conditions
    { store_internal := q.store_internal
      modified_initial_conditions := some (get_shock_modified_initial_conditions
        q.initial_conditions q.angles p.1 p.2)
      with_taylor := false
      is_post_shock_only := true }

/-- `self.run.solutions.add_solution(shock_soln)` as a sonic method. -/
def addSolver {F : Type} (s : Stored) : Solver F Stored := fun _ run =>
  match run.addSolution s with
  | .error x => (.error x, run)
  | .ok (_, run) => (.ok true, run)

/-- The file written for the `i`th candidate (`shock.py:132-148`): nothing if it could
not be solved, is too short, or has no name. -/
noncomputable def Search.job {F : Type} (e : Env F) (q : Search F) (i : ℕ) :
    Option (Job F Stored) :=
  match q.values[i]? with
  | none => none
  | some p =>
    match (q.solve e p).result with
    | .error _ => none
    | .ok out =>
      if out.angles.length < 5 then none
      else
        match default_name (q.run.info.config_input .label) (e.stamp i ++ ".hdf5") with
        | .error _ => none
        | .ok name => some
            { path := e.path q.output_dir name
              run := q.run
              solver := addSolver ⟨q.new_solution_input, q.initial_conditions, out⟩
              input := fun _ => .none }

/-- A job for every number. -/
noncomputable def Search.jobs {F : Type} (e : Env F) (q : Search F) (i : ℕ) :
    Job F Stored :=
  (q.job e i).getD ⟨"", q.run, fun _ run => (.ok true, run), fun _ => .none⟩

/-- A step of the worker that has candidate `i`: opening the file, which is atomic, or
filling it. -/
noncomputable def Search.step {F : Type} (e : Env F) (q : Search F)
    (p : Pool F Stored) (i : ℕ) : Pool F Stored :=
  if (q.job e i).isSome then Pool.step e.writable (q.jobs e) p i else p

/-- The files after the workers took steps in some order. -/
noncomputable def Search.after {F : Type} (e : Env F) (q : Search F) (fs : FS F Stored)
    (schedule : List ℕ) : Pool F Stored :=
  schedule.foldl (q.step e) { fs := fs }

/-- `output_hdf5_filename.with_suffix(".png")`, for a name ending in `.hdf5`. -/
def withPng (path : String) : String :=
  String.ofList (path.toList.take (path.length - 5)) ++ ".png"

/-- What the worker returns for candidate `i` (`shock.py:145-163`) once it has ended. -/
noncomputable def Search.result {F : Type} (e : Env F) (q : Search F)
    (p : Pool F Stored) (i : ℕ) : Option (String × String) :=
  match q.job e i, p.state i with
  | some j, .ended (.ok _) =>
    if e.plots i j.finish.1 then some (j.path, withPng j.path) else none
  | _, _ => none

end DiscSolver.ShockRun
