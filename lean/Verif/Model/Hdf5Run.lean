import Verif.Model.CliSolve
import Verif.Model.SonicRootRun
import Verif.Model.McmcRun
import Verif.Model.HydroMethods

/-!
# `ds-hdf5runner` as a whole

`src/disc_solver/solve/hdf5runner.py:97-136`: the table is read, every row is a job of some
worker, and the workers' steps interleave in any order.  The pool is closed and joined also if
the loop over the results raises (`utils.py:383-394`), so every row is worked on to its end.
What the jobs print is left out.
-/

namespace DiscSolver.Hdf5Run

open Runners CliSolve

variable {F σ : Type}

/-- One step of the worker which has row `i`; a row of which no job can be made ends with what
was raised, before a file is opened (`hdf5runner.py:41-82`). -/
def step (writable : String → Bool) (jobs : List (Except PyErr (Job F σ))) (p : Pool F σ)
    (i : ℕ) : Pool F σ :=
  match jobs[i]? with
  | none => p
  | some (.error x) =>
    match p.state i with
    | .ended _ => p
    | _ => { p with state := Function.update p.state i (.ended (.error x)) }
  | some (.ok j) => p.step writable (fun _ => j) i

/-- `ds-hdf5runner` (`hdf5runner.py:97-136`) for one order of the workers' steps: the rows of
the table are numbered, and `name i` is the time and the name of the process when row `i` is
worked on. -/
noncomputable def ds_hdf5runner (e : Env F) (impl : Bool → String → Solver F σ)
    (sniff : Text → Except PyErr (List Text)) (lines : String → List Text)
    (name : ℕ → String) (input_file : String) (given : List Cli.Occ) (fs : FS F σ)
    (schedule : List ℕ) : Except PyErr (Pool F σ) :=
  match CliSolve.ds_hdf5runner input_file given with
  | .error x => .error x
  | .ok c =>
    match hdf5runner_jobs e impl sniff lines name c with
    | .error x => .error x
    | .ok jobs => .ok (schedule.foldl (step e.writable jobs) { fs := fs })

/-- The loop over the results (`hdf5runner.py:107-114`): what is printed, and what is
raised. -/
def report : List (Except PyErr (Option Bool)) → List String × Except PyErr Unit
  | [] => ([], .ok ())
  | .error x :: _ => ([], .error x)
  | .ok (some true) :: l => report l
  | .ok _ :: l => ("Solver failed for input" :: (report l).1, (report l).2)

/-- `SONIC_METHOD_MAP` (`solve/__init__.py:32-40`) with all its methods; `others` stands for the
`KeyError` of any other name. -/
noncomputable def methods (randn : ℕ → ℕ → List (List ℝ))
    (emcee : List (List ℝ) → List Mcmc.LogProb → Except PyErr (List ℝ)) (ops : Stepper.Ops ℝ)
    (human : List Stepper.SolnData → Stepper.SplitterStatus)
    (I : SingleRun.Tolerances → Integrator) (str : ℝ → String)
    (interp : List ℝ → List ℝ → Option (ℝ → ℝ))
    (H : SingleRun.Tolerances → HydroRequest Hydro.Args → Integration)
    (J : SingleRun.Tolerances → HydroRequest ModHydro.SystemArgs → Integration)
    (double : Bool) (T : ModHydro.Tracker) (scipy : SonicRootRun.Search) (big : ℝ)
    (others : Bool → String → Solver ℝ SingleRun.Made) :
    Bool → String → Solver ℝ SingleRun.Made :=
  McmcRun.methods randn emcee ops human I str interp
    (HydroMethods.methods H J str double T (SonicRootRun.methods scipy I str interp big others))

end DiscSolver.Hdf5Run
