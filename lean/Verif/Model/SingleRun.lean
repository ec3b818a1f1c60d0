import Verif.Model.CliSolve
import Verif.Model.Solution

/-!
# The single run

`src/disc_solver/solve/single.py:10-22`, and how `define_conditions`
(`solve/config.py:50-108`) and `solution` (`solve/solution.py:603-784`) take their
arguments from the input (`solution.py:612-633`).  Numbers are exact reals.
-/

namespace DiscSolver.SingleRun

open Runners

/-- What the integrator is told about accuracy (`solution.py:617-619`); `max_steps` is
`None` if the text was no integer. -/
structure Tolerances where
  relative : ℝ
  absolute : ℝ
  max_steps : Option Int

/-- `Solution` as `solution` makes it (`solution.py:774-784`), with the input and the
initial conditions it was made from. -/
structure Made where
  solution_input : SolutionInput ℝ
  initial_conditions : Conditions
  out : SolutionOut

/-- An attribute which holds a number; `TypeError` stands for the failed arithmetic. -/
def real : SVal ℝ → Except PyErr ℝ
  | .float x => .ok x
  | _ => .error .TypeError

/-- An attribute which holds a number or `None`. -/
def optReal : SVal ℝ → Except PyErr (Option ℝ)
  | .float x => .ok (some x)
  | .none => .ok none
  | _ => .error .TypeError

/-- An attribute which holds a truth value. -/
def bool : SVal ℝ → Except PyErr Bool
  | .bool b => .ok b
  | _ => .error .TypeError

/-- An attribute which holds an integer or `None`. -/
def optInt : SVal ℝ → Option Int
  | .int n => some n
  | _ => none

/-- `num` of `np.linspace` (`config.py:98`): `None` is a `TypeError`, a negative number a
`ValueError`. -/
def count : SVal ℝ → Except PyErr ℕ
  | .int n => if n < 0 then .error .ValueError else .ok n.toNat
  | _ => .error .TypeError

/-- The attributes `define_conditions` reads (`config.py:60-67,89,98`). -/
def numInput (s : SolutionInput ℝ) : Except PyErr NumInput := do
  let v_rin_on_c_s ← real (s .v_rin_on_c_s)
  let v_a_on_c_s ← real (s .v_a_on_c_s)
  let c_s_on_v_k ← real (s .c_s_on_v_k)
  let γ ← real (s .γ)
  let η_O ← real (s .η_O)
  let η_A ← real (s .η_A)
  let η_H ← real (s .η_H)
  let use_E_r ← bool (s .use_E_r)
  let start ← real (s .start)
  let stop ← real (s .stop)
  let num_angles ← count (s .num_angles)
  pure { start, stop, num_angles, γ, v_rin_on_c_s, v_a_on_c_s, c_s_on_v_k, η_O, η_A, η_H,
         use_E_r }

/-- The slice of the interpolation; a missing one is only looked at if there is something
to interpolate, and then indexing with `None` makes arrays which cannot be interpolated
(`ValueError`). -/
def interpSlice (sonic_interp_size : Option ℝ) : SVal ℝ → Except PyErr PySlice
  | .slice s => .ok s
  | _ => match sonic_interp_size with
    | none => .ok ⟨none, none, none⟩
    | some _ => .error .ValueError

/-- The attributes `solution` reads (`solution.py:620-631`). -/
def solveOpts (s : SolutionInput ℝ) : Except PyErr SolveOpts := do
  let η_derivs ← bool (s .η_derivs)
  let use_taylor_jump ← bool (s .use_taylor_jump)
  let jump_before_sonic ← optReal (s .jump_before_sonic)
  let v_θ_sonic_crit ← optReal (s .v_θ_sonic_crit)
  let after_sonic ← optReal (s .after_sonic)
  let sonic_interp_size ← optReal (s .sonic_interp_size)
  let interp_slice ← interpSlice sonic_interp_size (s .interp_slice)
  let use_E_r ← bool (s .use_E_r)
  let taylor_stop_angle ← real (s .taylor_stop_angle)
  pure { taylor_stop_angle, η_derivs, use_taylor_jump, jump_before_sonic, v_θ_sonic_crit,
         after_sonic, interp_slice, sonic_interp_size, use_E_r }

/-- The accuracy asked for (`solution.py:617-619`). -/
def tolerances (s : SolutionInput ℝ) : Except PyErr Tolerances := do
  let absolute ← real (s .absolute_tolerance)
  let relative ← real (s .relative_tolerance)
  pure { relative, absolute, max_steps := optInt (s .max_steps) }

/-- `define_conditions(inp)` (`config.py:50-108`). -/
noncomputable def conditions (s : SolutionInput ℝ) : Except PyErr Conditions := do
  let inp ← numInput s
  match define_conditions inp with
  | none => .error .SolverError
  | some c => .ok c

/-- `solution(inp, define_conditions(inp), store_internal=store_internal)`
(`single.py:14-16`). -/
noncomputable def single_solution (I : Tolerances → Integrator) (str : ℝ → String)
    (interp : List ℝ → List ℝ → Option (ℝ → ℝ)) (store_internal : Bool)
    (s : SolutionInput ℝ) : Except PyErr Made := do
  let c ← conditions s
  let tol ← tolerances s
  let o ← solveOpts s
  let out ← (solution (I tol) str interp o c { store_internal }).result
  pure { solution_input := s, initial_conditions := c, out }

/-- `SONIC_METHOD_MAP` (`solve/__init__.py:32-40`) with the methods other than `single`
as arguments. -/
noncomputable def methods (I : Tolerances → Integrator) (str : ℝ → String)
    (interp : List ℝ → List ℝ → Option (ℝ → ℝ))
    (others : Bool → String → Solver ℝ Made) (store_internal : Bool) (name : String) :
    Solver ℝ Made :=
  if name = "single" then single_solver (single_solution I str interp store_internal) false
  else others store_internal name

end DiscSolver.SingleRun
