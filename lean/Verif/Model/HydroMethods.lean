import Verif.Model.SingleRun
import Verif.Model.HydroRun

/-!
# The methods `hydrostatic` and `mod_hydro`

`hydrostatic.solver` (`src/disc_solver/solve/hydrostatic.py:675-685`) and `mod_hydro.solver`
(`solve/mod_hydro.py:719-729`), as `solve` calls them (`solve/__init__.py:66-75`), with what
they take from the input (`hydrostatic.py:632-641`, `mod_hydro.py:689-696`).  The solvers are
those of `Model/HydroRun`; here the integrator is told the tolerances.  Numbers are exact
reals.
-/

namespace DiscSolver.HydroMethods

open Runners SingleRun

/-- `Solution(solution_input=soln_input, …)` (`hydrostatic.py:663-672`,
`mod_hydro.py:707-716`). -/
def made (soln_input : SolutionInput ℝ) (s : HydroSolution) : Made :=
  { solution_input := soln_input, initial_conditions := s.initial_conditions, out := s.out }

/-- The attributes both methods read: those of the midplane, the tolerances and
`η_derivs`. -/
def reads (s : SolutionInput ℝ) : Except PyErr (NumInput × Tolerances × Bool) := do
  let inp ← numInput s
  let tol ← tolerances s
  let η_derivs ← SingleRun.bool (s .η_derivs)
  pure (inp, tol, η_derivs)

/-- `hydrostatic.solver` (`hydrostatic.py:675-685`).  `double` says whether numbers are of a
type the root solver works with. -/
noncomputable def hydrostatic_solver
    (I : Tolerances → HydroRequest Hydro.Args → Integration) (str : ℝ → String)
    (double store_internal : Bool) : Solver ℝ Made := fun s run =>
  match reads s with
  | .error x => (.error x, run)
  | .ok (inp, tol, η_derivs) =>
    (Hydro.solver (fun c => (Hydro.solution (I tol) str double η_derivs inp.use_E_r false c
      { store_internal := store_internal }).1.result.map (made s)) inp run).swap

/-- `mod_hydro.solver` (`mod_hydro.py:719-729`). -/
noncomputable def mod_hydro_solver
    (I : Tolerances → HydroRequest ModHydro.SystemArgs → Integration) (str : ℝ → String)
    (T : ModHydro.Tracker) (store_internal : Bool) : Solver ℝ Made := fun s run =>
  match reads s with
  | .error x => (.error x, run)
  | .ok (inp, tol, η_derivs) =>
    (ModHydro.solver (fun c => (ModHydro.solution (I tol) str T η_derivs inp.use_E_r c
      { store_internal := store_internal }).result.map (made s)) inp run).swap

/-- `SONIC_METHOD_MAP` (`solve/__init__.py:32-40`) with the other methods as arguments. -/
noncomputable def methods (I : Tolerances → HydroRequest Hydro.Args → Integration)
    (J : Tolerances → HydroRequest ModHydro.SystemArgs → Integration) (str : ℝ → String)
    (double : Bool) (T : ModHydro.Tracker) (others : Bool → String → Solver ℝ Made)
    (store_internal : Bool) (name : String) : Solver ℝ Made :=
  if name = "hydrostatic" then hydrostatic_solver I str double store_internal
  else if name = "mod_hydro" then mod_hydro_solver J str T store_internal
  else others store_internal name

end DiscSolver.HydroMethods
