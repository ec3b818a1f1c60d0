import Verif.Spec.EndToEnd
import Verif.Model.Hdf5Run
import Verif.Model.ShockFiles

/-!
# Specification: the files left by any number of commands
-/

namespace DiscSolver.Sessions

open Cli CliSolve Runners SingleRun

/-- The methods of the commands.  The integrator of the main equations, the way numbers are
printed and the interpolation are the same for all commands; the random numbers, the sampler,
the person asked and the rest may be others each time. -/
inductive Program (I : Tolerances → Integrator) (str : ℝ → String)
    (interp : List ℝ → List ℝ → Option (ℝ → ℝ)) : (Bool → String → Solver ℝ Made) → Prop
  | mk (randn : ℕ → ℕ → List (List ℝ))
      (emcee : List (List ℝ) → List Mcmc.LogProb → Except PyErr (List ℝ)) (ops : Stepper.Ops ℝ)
      (human : List Stepper.SolnData → Stepper.SplitterStatus)
      (H : Tolerances → HydroRequest Hydro.Args → Integration)
      (J : Tolerances → HydroRequest ModHydro.SystemArgs → Integration)
      (double : Bool) (T : ModHydro.Tracker) (scipy : SonicRootRun.Search) (big : ℝ)
      (others : Bool → String → Solver ℝ Made) :
      Program I str interp
        (Hdf5Run.methods randn emcee ops human I str interp H J double T scipy big others)

/-- The files `fs` were left by any number of `ds-soln`, `ds-resoln`, `ds-hdf5runner` and
`ds-shock`, in any order, with any options, whether they returned, gave up, raised or, as to the
workers of `ds-hdf5runner` and `ds-shock`, were stopped, in a place where no runs were before.  In between files may be
copied, moved, deleted, or be given another content which is no run. -/
inductive Session (C : Conv ℝ) (I : Tolerances → Integrator) (str : ℝ → String)
    (interp : List ℝ → List ℝ → Option (ℝ → ℝ)) : FS ℝ Made → Prop
  | start (fs : FS ℝ Made) : (∀ p r, fs.get? p ≠ some (.run r)) → Session C I str interp fs
  | soln (e : Env ℝ) (M : Bool → String → Solver ℝ Made) (read : String → Option Text)
      (config_file : String) (given : List Occ) (fs : FS ℝ Made) :
      e.conv = C → Program I str interp M → CliSolve.Typed given → Session C I str interp fs →
      Session C I str interp (ds_soln e M read config_file given fs).fs
  | resoln (e : Env ℝ) (M : Bool → String → Solver ℝ Made) (file range : String)
      (given : List Occ) (fs : FS ℝ Made) :
      e.conv = C → Program I str interp M → CliSolve.Typed given → Session C I str interp fs →
      Session C I str interp (ds_resoln e Made.solution_input M file range given fs).fs
  | hdf5runner (e : Env ℝ) (M : Bool → String → Solver ℝ Made)
      (sniff : Text → Except PyErr (List Text)) (lines : String → List Text) (name : ℕ → String)
      (input_file : String) (given : List Occ) (fs : FS ℝ Made) (schedule : List ℕ)
      (pool : Pool ℝ Made) :
      e.conv = C → Program I str interp M → Session C I str interp fs →
      Hdf5Run.ds_hdf5runner e M sniff lines name input_file given fs schedule = .ok pool →
      Session C I str interp pool.fs
  | shock (e : Env ℝ) (stamp : ℕ → String) (file range : String) (fs : FS ℝ Made)
      (schedule : List ℕ) (pool : Pool ℝ Made) : Session C I str interp fs →
      ShockFiles.ds_shock e stamp I str interp file range fs schedule = .ok pool →
      Session C I str interp pool.fs
  | elsewhere (fs fs' : FS ℝ Made) : Session C I str interp fs →
      (∀ p r, fs'.get? p = some (.run r) → ∃ q, fs.get? q = some (.run r)) →
      Session C I str interp fs'

/-- The methods whose solutions start at the midplane with the numbers of their input, and are
found by the main integrator. -/
def ordinary : List String := ["single", "step", "fast_crosser", "mcmc"]

/-- The solution is in the run. -/
def Has (r : TheRun ℝ Made) (m : Made) : Prop :=
  m ∈ r.solutions.map (·.2) ∨ r.final = .value (some m)

end DiscSolver.Sessions
