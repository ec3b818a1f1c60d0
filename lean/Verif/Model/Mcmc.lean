import Mathlib.Analysis.SpecialFunctions.Exp
import Verif.Model.Containers
import Verif.Model.Inputs
import Verif.Model.Arrays

/-!
# The MCMC solver

`src/disc_solver/solve/mcmc.py`.  The sampler (emcee) is outside the model: it is any
sequence of evaluations of the log probability.
-/

namespace DiscSolver

namespace Mcmc

variable {F : Type}

/-- `generate_sysvars_enum` (`mcmc.py:29-55`): the variables in the order of their
values, which are `0, 1, …`.  `None` for `mcmc_vars` selects all. -/
def generate_sysvars_enum (soln_input : SolutionInput F) : List SField :=
  match soln_input .mcmc_vars with
  | .mcmc m =>
    [.γ] ++ (if m.with_v_r then [.v_rin_on_c_s] else []) ++
      (if m.with_v_a then [.v_a_on_c_s] else []) ++
      (if m.with_v_k then [.c_s_on_v_k] else [])
  | _ => [.γ, .v_rin_on_c_s, .v_a_on_c_s, .c_s_on_v_k]

/-- `solution_input_to_sys_vars` (`mcmc.py:58-64`). -/
def solution_input_to_sys_vars (soln_input : SolutionInput F)
    (sys_vars_enum : List SField) : List (SVal F) := sys_vars_enum.map soln_input

/-- `setattr(soln_input, name, x)`. -/
def setField (soln_input : SolutionInput F) (f : SField) (x : SVal F) :
    SolutionInput F := fun g => if g = f then x else soln_input g

/-- The loop of `sys_vars_to_solution_input` from the variable of value `i`. -/
def set_vars (sys_vars : List (SVal F)) :
    List SField → ℕ → SolutionInput F → Except PyErr (SolutionInput F)
  | [], _, inp => .ok inp
  | f :: fs, i, inp =>
    match sys_vars[i]? with
    | none => .error .IndexError
    | some x => set_vars sys_vars fs (i + 1) (setField inp f x)

/-- `sys_vars_to_solution_input` (`mcmc.py:67-74`). -/
def sys_vars_to_solution_input (sys_vars : List (SVal F))
    (old_soln_input : SolutionInput F) (sys_vars_enum : List SField) :
    Except PyErr (SolutionInput F) :=
  set_vars sys_vars sys_vars_enum 0 old_soln_input

/-- `x <= 0` for the float `x`; `TypeError` for `None` and other objects.  Comparing
with NaN is false. -/
noncomputable def le_zero : SVal Flt → Except PyErr Bool
  | .float (some x) => open Classical in .ok (decide (x ≤ 0))
  | .float none => .ok false
  | .int n => .ok (decide (n ≤ 0))
  | .bool b => .ok (!b)
  | _ => .error .TypeError

/-- `solution_input_valid` (`mcmc.py:182-194`). -/
noncomputable def solution_input_valid (soln_input : SolutionInput Flt) :
    Except PyErr Bool := do
  if ← le_zero (soln_input .v_rin_on_c_s) then return false
  if ← le_zero (soln_input .γ) then return false
  if ← le_zero (soln_input .v_a_on_c_s) then return false
  if ← le_zero (soln_input .c_s_on_v_k) then return false
  return true

/-- A float including the infinities. -/
inductive LogProb where
  | negInf
  | posInf
  | nan
  | finite (x : ℝ)

/-- `a > b`. -/
noncomputable def LogProb.gt : LogProb → LogProb → Bool
  | .nan, _ => false
  | _, .nan => false
  | .negInf, _ => false
  | .finite _, .negInf => true
  | .finite x, .finite y => open Classical in decide (x > y)
  | .finite _, .posInf => false
  | .posInf, .posInf => false
  | .posInf, _ => true

/-- `isfinite`. -/
def LogProb.isfinite : LogProb → Bool
  | .finite _ => true
  | _ => false

/-- `define_conditions`, `solution` and `get_logprob_of_soln`. -/
structure Env (κ σ : Type) where
  define_conditions : SolutionInput Flt → Except PyErr κ
  solution : SolutionInput Flt → κ → Except PyErr σ
  logprob : σ → LogProb

/-- `LogProbGenerator` (`mcmc.py:100-111`): the run and the best so far. -/
structure Generator (μ σ : Type) where
  run : Run μ σ
  best_logprob : LogProb := .negInf
  best_logprob_index : Option String := none

variable {κ σ μ : Type}

/-- `LogProbGenerator.__call__` (`mcmc.py:113-141`) after the input has been built. -/
noncomputable def evaluate (e : Env κ σ) (inp : SolutionInput Flt)
    (g : Generator μ σ) : Except PyErr LogProb × Generator μ σ :=
  match solution_input_valid inp with
  | .error p => (.error p, g)
  | .ok false => (.ok .negInf, g)
  | .ok true =>
    match e.define_conditions inp with
    | .error .SolverError => (.ok .negInf, g)
    | .error p => (.error p, g)
    | .ok cons =>
      match e.solution inp cons with
      | .error .SolverError => (.ok .negInf, g)
      | .error p => (.error p, g)
      | .ok soln =>
        if (e.logprob soln).isfinite then
          match g.run.addSolution soln with
          | .error p => (.error p, g)
          | .ok (soln_index, r) =>
            if (e.logprob soln).gt g.best_logprob then
              (.ok (e.logprob soln), { run := r, best_logprob := e.logprob soln,
                                       best_logprob_index := some soln_index })
            else (.ok (e.logprob soln), { g with run := r })
        else (.ok (e.logprob soln), g)

/-- `LogProbGenerator.__call__` (`mcmc.py:113-141`). -/
noncomputable def call (e : Env κ σ) (soln_input : SolutionInput Flt)
    (sys_vars_enum : List SField) (sys_vars : List (SVal Flt)) (g : Generator μ σ) :
    Except PyErr LogProb × Generator μ σ :=
  match sys_vars_to_solution_input sys_vars soln_input sys_vars_enum with
  | .error p => (.error p, g)
  | .ok inp => evaluate e inp g

/-- `best_solution` (`mcmc.py:143-150`). -/
def Generator.best_solution (g : Generator μ σ) : Except PyErr (Option σ) :=
  match g.best_logprob_index with
  | none => .ok none
  | some k => (Dict.getItem g.run.solutions k).map some

/-- The sampler: it chooses each point from the values so far, up to `n` of them, and
may raise. -/
noncomputable def sample (e : Env κ σ) (soln_input : SolutionInput Flt)
    (sys_vars_enum : List SField)
    (choose : List LogProb → Except PyErr (List (SVal Flt))) :
    ℕ → List LogProb → Generator μ σ → Except PyErr Unit × Generator μ σ
  | 0, _, g => (.ok (), g)
  | n + 1, seen, g =>
    match choose seen with
    | .error p => (.error p, g)
    | .ok point =>
      match call e soln_input sys_vars_enum point g with
      | (.error p, g) => (.error p, g)
      | (.ok v, g) => sample e soln_input sys_vars_enum choose n (seen ++ [v]) g

/-- `solver` (`mcmc.py:77-97`). -/
noncomputable def solver (e : Env κ σ) (soln_input : SolutionInput Flt)
    (choose : List LogProb → Except PyErr (List (SVal Flt))) (evaluations : ℕ)
    (r : Run μ σ) : Except PyErr Bool × Run μ σ :=
  match sample e soln_input (generate_sysvars_enum soln_input) choose evaluations []
      { run := r } with
  | (.error p, g) => (.error p, g.run)
  | (.ok (), g) =>
    match g.best_solution with
    | .error p => (.error p, g.run)
    | .ok best =>
      match g.run.final with
      | .delayed => (.ok true, { g.run with final := .value best })
      | .value _ => (.error .RuntimeError, g.run)

/-! ## The probability -/

/-- `diff(a)`. -/
def diff (a : List ℝ) : List ℝ := a.zipWith (fun x y => y - x) a.tail

/-- `get_outflow_rate_probability` (`mcmc.py:164-169`) of the column `v_θ`. -/
noncomputable def get_outflow_rate_probability (v_θ : List ℝ) : ℝ :=
  - (((diff ((diff v_θ).map (· ^ 2))).map (· ^ 2)).sum)

/-- `get_logprob_of_soln` (`mcmc.py:153-161`) of the column `v_θ` without NaN; `max`
of an empty array raises `ValueError`. -/
noncomputable def get_logprob_of_soln (v_θ : List ℝ) : Except PyErr ℝ :=
  match v_θ.max? with
  | none => .error .ValueError
  | some m => .ok (- Real.exp (-m) * 10 + get_outflow_rate_probability v_θ * 1)

end Mcmc

end DiscSolver
