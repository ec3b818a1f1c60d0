import Verif.Model.StepRun
import Verif.Model.FastCrosser

/-!
# The method `fast_crosser`

`fast_crosser.solver` (`src/disc_solver/solve/fast_crosser.py:202-236`), as `solve` and
`resolve` call it (`solve/__init__.py:66-75`, `solve/resolve.py:58-66`): with a new run which
belongs to an open file, and with the default limits.  The search is the one of
`Model/FastCrosser`, its inner searches are those of `Model/Stepper`, and what both solve is
the `solution` of `Model/SingleRun`.

Velocities are exact reals; the arithmetic on `γ` is any.  The `human` splitter answers alike
in inner searches which look alike.
-/

namespace DiscSolver.CrosserRun

open Runners SingleRun StepRun

/-- `DEFAULT_NUM_ATTEMPTS` (`fast_crosser.py:23`). -/
def DEFAULT_NUM_ATTEMPTS : ℕ := 1000

/-- `DEFAULT_FINAL_STOP` (`fast_crosser.py:25`): an integer, shown as the number it is used
as. -/
noncomputable def DEFAULT_FINAL_STOP : ℝ := 90

/-- `DEFAULT_FINAL_STEPS` (`fast_crosser.py:26`). -/
def DEFAULT_FINAL_STEPS : ℤ := 900000

/-- A `Solution` as the search sees it: its input, and what was computed; nothing for the
placeholder of `get_known_broken_solution` (`solution.py:787-805`), whose flag is `None`. -/
structure Soln where
  input : SolutionInput ℝ
  made : Option Made

/-- A solution which was computed. -/
def Soln.of (m : Made) : Soln := ⟨m.solution_input, some m⟩

/-- `compute_quality` (`fast_crosser.py:40-44`).  The only angle of the placeholder is zero
(`solution.py:795`).  Simplification: `nanmax` of no angles, a `ValueError`, is shown as NaN. -/
noncomputable def quality (s : Soln) : Flt :=
  match s.made with
  | none => some 0
  | some m => m.out.angles.max?

/-- The stepping search inside one attempt (`fast_crosser.py:181-188`): what it stored, and
the exception which left it.  With `no_final_solution` it only adds to the run
(`stepper.py:142-181,328`), so it is shown with a new one. -/
noncomputable def inner_search (ops : Stepper.Ops ℝ)
    (human : List Stepper.SolnData → Stepper.SplitterStatus) (I : Tolerances → Integrator)
    (str : ℝ → String) (interp : List ℝ → List ℝ → Option (ℝ → ℝ)) (store_internal : Bool)
    (inp : SolutionInput ℝ) : List Soln × Option PyErr :=
  match inp .γ, inp .split_method with
  | .float γ, .str m =>
    match Stepper.solver { setup ops I str interp store_internal with no_final_solution := true }
        human (String.ofList m) ⟨γ, inp⟩ ({ info := () } : Run Unit _)
        StepRun.DEFAULT_NUM_ATTEMPTS with
    | (a, r, _) =>
      (r.solutions.filterMap fun p => (inFile I str interp store_internal p.2).map Soln.of,
        match answer a with
        | .ok _ => none
        | .error e => some e)
  | _, _ => ([], some .TypeError)

/-- The input of the last solve of an attempt (`fast_crosser.py:189-192`). -/
noncomputable def final_input (s : Soln) : SolutionInput ℝ :=
  Function.update (Function.update s.input .stop (.float DEFAULT_FINAL_STOP)) .num_angles
    (.int DEFAULT_FINAL_STEPS)

/-- `get_next_input` (`fast_crosser.py:51-56`).  The update also changes the input of the
solution in memory; in the file it was saved before (`fast_crosser.py:73`). -/
def next_input (solution_input : SolutionInput ℝ) (s : Soln) (v : ℝ) : SolutionInput ℝ :=
  Function.update (Function.update (Function.update s.input .stop (solution_input .stop))
    .num_angles (solution_input .num_angles)) .v_rin_on_c_s (.float v)

/-- `inp_dict["v_rin_on_c_s"]` (`fast_crosser.py:75`), which is a number whenever the search
has started. -/
def v_rin (s : Soln) : ℝ :=
  match s.input .v_rin_on_c_s with
  | .float v => v
  | _ => 0

/-- The functions `solver` puts together (`fast_crosser.py:211-226`). -/
noncomputable def env (ops : Stepper.Ops ℝ)
    (human : List Stepper.SolnData → Stepper.SplitterStatus) (I : Tolerances → Integrator)
    (str : ℝ → String) (interp : List ℝ → List ℝ → Option (ℝ → ℝ)) (store_internal : Bool)
    (solution_input : SolutionInput ℝ) : FastCrosser.Env Soln (SolutionInput ℝ) where
  step_solver := inner_search ops human I str interp store_internal
  single i := (single_solution I str interp store_internal i).map Soln.of
  final_input := final_input
  broken i := ⟨i, none⟩
  flagged s := s.made.isSome
  quality := quality
  v_r := v_rin
  next_input := next_input solution_input

/-- The final solution in the file. -/
def finalMade : Final Soln → Final Made
  | .delayed => .delayed
  | .value none => .value none
  | .value (some s) => .value s.made

/-- `fast_crosser.solver` (`fast_crosser.py:202-236`) with a new run.
`0.01 * soln_input.v_rin_on_c_s` is a `TypeError` if the input holds something else. -/
noncomputable def crosser_solver (ops : Stepper.Ops ℝ)
    (human : List Stepper.SolnData → Stepper.SplitterStatus) (I : Tolerances → Integrator)
    (str : ℝ → String) (interp : List ℝ → List ℝ → Option (ℝ → ℝ)) (store_internal : Bool) :
    Solver ℝ Made := fun inp run =>
  match inp .v_rin_on_c_s with
  | .float v =>
    match FastCrosser.solver (env ops human I str interp store_internal inp) inp v
        ({ info := () } : Run Unit Soln) DEFAULT_NUM_ATTEMPTS with
    | (a, r) =>
      (answer a,
        { run with
          solutions := r.solutions.filterMap fun p => p.2.made.map fun m => (p.1, m)
          final := finalMade r.final })
  | _ => (.error .TypeError, run)

/-- `SONIC_METHOD_MAP` (`solve/__init__.py:32-40`) with `single`, `step` and `fast_crosser`,
the other methods as arguments. -/
noncomputable def methods (ops : Stepper.Ops ℝ)
    (human : List Stepper.SolnData → Stepper.SplitterStatus) (I : Tolerances → Integrator)
    (str : ℝ → String) (interp : List ℝ → List ℝ → Option (ℝ → ℝ))
    (others : Bool → String → Solver ℝ Made) : Bool → String → Solver ℝ Made :=
  StepRun.methods ops human I str interp fun store_internal name =>
    if name = "fast_crosser" then crosser_solver ops human I str interp store_internal
    else others store_internal name

end DiscSolver.CrosserRun
