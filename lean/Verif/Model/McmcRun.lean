import Verif.Model.CrosserRun
import Verif.Model.Mcmc

/-!
# The method `mcmc`

`mcmc.solver` (`src/disc_solver/solve/mcmc.py:77-97`), as `solve` calls it
(`solve/__init__.py:66-75`): with a new run which belongs to an open file.  The solver is the
one of `Model/Mcmc`, and what it solves is the `solution` of `Model/SingleRun`.

The sampler (emcee 3) is outside the model.  It evaluates the initial positions in order and
then, in each iteration, one new position per walker; it chooses these freely, from what it
knows so far, and can raise at any time, as it does if the walkers are too few or too close
together.  It raises before it tries a position with a NaN or an infinity, so positions are
real.  Numbers are exact reals.
-/

namespace DiscSolver.McmcRun

open Runners SingleRun

/-- An attribute as `Model/Mcmc` shows it. -/
def liftVal : SVal ℝ → SVal Flt
  | .float x => .float (some x)
  | .int n => .int n
  | .bool b => .bool b
  | .str t => .str t
  | .slice s => .slice s
  | .mcmc m => .mcmc m
  | .none => .none

/-- And back; NaN does not occur. -/
def lowerVal : SVal Flt → SVal ℝ
  | .float (some x) => .float x
  | .float none => .none
  | .int n => .int n
  | .bool b => .bool b
  | .str t => .str t
  | .slice s => .slice s
  | .mcmc m => .mcmc m
  | .none => .none

/-- `v_θ` of every row (`mcmc.py:157,168`). -/
def v_θ (m : Made) : List ℝ := m.out.solution.map (·.v_θ)

/-- `solution(new_soln_input, cons, store_internal=…)` (`mcmc.py:128-130`).  `max` of no rows
raises a `ValueError` right after it (`mcmc.py:134,157`), which is shown here. -/
noncomputable def solve_at (I : Tolerances → Integrator) (str : ℝ → String)
    (interp : List ℝ → List ℝ → Option (ℝ → ℝ)) (store_internal : Bool)
    (s : SolutionInput ℝ) (c : Conditions) : Except PyErr Made := do
  let tol ← tolerances s
  let o ← solveOpts s
  let out ← (solution (I tol) str interp o c { store_internal }).result
  let m : Made := { solution_input := s, initial_conditions := c, out }
  match Mcmc.get_logprob_of_soln (v_θ m) with
  | .error x => .error x
  | .ok _ => .ok m

/-- What `LogProbGenerator` calls (`mcmc.py:120-134`). -/
noncomputable def env (I : Tolerances → Integrator) (str : ℝ → String)
    (interp : List ℝ → List ℝ → Option (ℝ → ℝ)) (store_internal : Bool) :
    Mcmc.Env Conditions Made where
  define_conditions inp := conditions fun f => lowerVal (inp f)
  solution inp := solve_at I str interp store_internal fun f => lowerVal (inp f)
  logprob m :=
    match Mcmc.get_logprob_of_soln (v_θ m) with
    | .ok x => .finite x
    | .error _ => .nan

/-- `INITIAL_SPREAD` (`mcmc.py:24`). -/
noncomputable def INITIAL_SPREAD : ℝ := 0.1

/-- The numbers of a list of attributes; arithmetic with something else is a
`TypeError`. -/
def reals : List (SVal ℝ) → Except PyErr (List ℝ)
  | [] => .ok []
  | v :: vs => do
    let x ← real v
    let xs ← reals vs
    pure (x :: xs)

/-- `generate_initial_positions` (`mcmc.py:172-179`), one list per walker; `randn n k` are
the random numbers, `n` lists of `k` each. -/
noncomputable def generate_initial_positions (randn : ℕ → ℕ → List (List ℝ))
    (soln_input : SolutionInput ℝ) (sys_vars_enum : List SField) (nwalkers : ℕ) :
    Except PyErr (List (List ℝ)) := do
  let sys_vars ← reals (Mcmc.solution_input_to_sys_vars soln_input sys_vars_enum)
  pure ((randn nwalkers sys_vars_enum.length).map fun row =>
    sys_vars.zipWith (fun v r => v * (INITIAL_SPREAD * r + 1)) row)

/-- `nsteps` of `run_mcmc`: the sampler refuses `None` and negative numbers
(`ValueError`). -/
def steps : SVal ℝ → Except PyErr ℕ
  | .int n => if n < 0 then .error .ValueError else .ok n.toNat
  | .none => .error .ValueError
  | _ => .error .TypeError

/-- The position tried after the values `seen`: an initial one as long as there are any, and
then one which the sampler chooses. -/
def next_position (emcee : List (List ℝ) → List Mcmc.LogProb → Except PyErr (List ℝ))
    (initial : List (List ℝ)) (seen : List Mcmc.LogProb) : Except PyErr (List ℝ) :=
  match emcee initial seen with
  | .error x => .error x
  | .ok p =>
    match initial[seen.length]? with
    | some q => .ok q
    | none => .ok p

/-- `mcmc.solver` (`mcmc.py:77-97`). -/
noncomputable def mcmc_solver (randn : ℕ → ℕ → List (List ℝ))
    (emcee : List (List ℝ) → List Mcmc.LogProb → Except PyErr (List ℝ))
    (I : Tolerances → Integrator) (str : ℝ → String)
    (interp : List ℝ → List ℝ → Option (ℝ → ℝ)) (store_internal : Bool) :
    Solver ℝ Made := fun inp run =>
  match count (inp .nwalkers) with
  | .error x => (.error x, run)
  | .ok nwalkers =>
    match generate_initial_positions randn inp (Mcmc.generate_sysvars_enum inp) nwalkers with
    | .error x => (.error x, run)
    | .ok initial =>
      match steps (inp .iterations) with
      | .error x => (.error x, run)
      | .ok iterations =>
        Mcmc.solver (env I str interp store_internal) (fun f => liftVal (inp f))
          (fun seen => (next_position emcee initial seen).map fun p =>
            p.map fun x => .float (some x))
          (nwalkers * (iterations + 1)) run

/-- `SONIC_METHOD_MAP` (`solve/__init__.py:32-40`) with `mcmc` and the methods before, the
other methods as arguments. -/
noncomputable def methods (randn : ℕ → ℕ → List (List ℝ))
    (emcee : List (List ℝ) → List Mcmc.LogProb → Except PyErr (List ℝ)) (ops : Stepper.Ops ℝ)
    (human : List Stepper.SolnData → Stepper.SplitterStatus) (I : Tolerances → Integrator)
    (str : ℝ → String) (interp : List ℝ → List ℝ → Option (ℝ → ℝ))
    (others : Bool → String → Solver ℝ Made) : Bool → String → Solver ℝ Made :=
  CrosserRun.methods ops human I str interp fun store_internal name =>
    if name = "mcmc" then mcmc_solver randn emcee I str interp store_internal
    else others store_internal name

end DiscSolver.McmcRun
