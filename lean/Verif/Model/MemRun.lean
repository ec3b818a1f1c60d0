import Verif.Model.CrosserRun

/-!
# The methods of `ds-csvrunner`

`csvrunner` calls `single.solver`, `stepper.solver` and `fast_crosser.solver` with a run which
belongs to no file (`src/disc_solver/solve/csvrunner.py:57-79`), so what the run stores are the
solutions themselves, and a change of the input of a solution afterwards shows.  Of a stored
solution only its input is looked at (`csvrunner.py:88`), so it is shown as that.

The searches are those of `Model/Stepper` and `Model/FastCrosser`, and what they solve is the
`solution` of `Model/SingleRun`.
-/

namespace DiscSolver.MemRun

open Runners SingleRun StepRun CrosserRun

variable (ops : Stepper.Ops ℝ) (human : List Stepper.SolnData → Stepper.SplitterStatus)
  (I : Tolerances → Integrator) (str : ℝ → String) (interp : List ℝ → List ℝ → Option (ℝ → ℝ))

/-- `single.solver` (`single.py:10-21`) with a new run. -/
noncomputable def single_solver (store_internal : Bool) : Solver ℝ (SolutionInput ℝ) :=
  fun inp run =>
  match single_solution I str interp store_internal inp with
  | .error e => (.error e, run)
  | .ok m =>
    (.ok true, { run with
      solutions := [("0", m.solution_input)], final := .value (some m.solution_input) })

/-- The input a stored solution shows after the search. -/
def shown (heap : ℕ → Stepper.Input ℝ (SolutionInput ℝ))
    (s : Stepper.Stored ℝ (SolutionInput ℝ)) : SolutionInput ℝ := fields (heap s.soln.input)

/-- The final solution of a run in memory. -/
def finalShown (heap : ℕ → Stepper.Input ℝ (SolutionInput ℝ)) :
    Final (Stepper.Stored ℝ (SolutionInput ℝ)) → Final (SolutionInput ℝ)
  | .delayed => .delayed
  | .value none => .value none
  | .value (some s) => .value (some (shown heap s))

/-- `stepper.solver` (`stepper.py:306-334`) with a new run in memory. -/
noncomputable def step_solver (store_internal : Bool) : Solver ℝ (SolutionInput ℝ) :=
  fun inp run =>
  match inp .γ, inp .split_method with
  | .float γ, .str m =>
    match Stepper.solver { setup ops I str interp store_internal with on_file := false } human
        (String.ofList m) ⟨γ, inp⟩ { info := run.info } StepRun.DEFAULT_NUM_ATTEMPTS with
    | (a, r, heap) =>
      (answer a,
        { run with
          solutions := r.solutions.map fun p => (p.1, shown heap p.2)
          final := finalShown heap r.final })
  | _, _ => (.error .TypeError, run)

/-! ## The fast crosser -/

/-- What the run of a crosser holds: for every entry of `run.solutions` which solution it is,
and for every solution its input. -/
structure Memory where
  stored : List ℕ := []
  inputs : List (SolutionInput ℝ) := []

/-- A new solution with this input is stored. -/
def Memory.add (w : Memory) (s : SolutionInput ℝ) : Memory :=
  { stored := w.stored ++ [w.inputs.length], inputs := w.inputs ++ [s] }

/-- `get_last_solution` (`_containers.py:503-510`), its input. -/
def Memory.last (w : Memory) : Except PyErr (SolutionInput ℝ) :=
  match w.stored.getLast? with
  | none => .error .IndexError
  | some k =>
    match w.inputs[k]? with
    | some s => .ok s
    | none => .error .IndexError

/-- What `solution_func` returns: which solution it is, nothing for the placeholder, its
input and its quality. -/
structure Found where
  which : Option ℕ
  input : SolutionInput ℝ
  quality : Flt

/-- `solution_func` (`fast_crosser.py:177-197`) with a run in memory. -/
noncomputable def solution_func (store_internal : Bool) (inp : SolutionInput ℝ) (w : Memory) :
    Except PyErr Found × Memory :=
  match inp .γ, inp .split_method with
  | .float γ, .str m =>
    match Stepper.solver
        { setup ops I str interp store_internal with on_file := false, no_final_solution := true }
        human (String.ofList m) ⟨γ, inp⟩ ({ info := () } : Run Unit _)
        StepRun.DEFAULT_NUM_ATTEMPTS with
    | (a, r, heap) =>
      let w := (r.solutions.map fun p => shown heap p.2).foldl Memory.add w
      match answer a with
      | .error .SolverError => (.ok ⟨none, inp, some 0⟩, w)
      | .error e => (.error e, w)
      | .ok _ =>
        match w.last with
        | .error e => (.error e, w)
        | .ok s =>
          match single_solution I str interp store_internal (final_input ⟨s, none⟩) with
          | .error e => (.error e, w)
          | .ok x => (.ok ⟨some w.inputs.length, x.solution_input, x.out.angles.max?⟩,
              w.add x.solution_input)
  | _, _ => (.error .TypeError, w)

/-- The loop of `binary_searcher` (`stepper.py:68-91`) with the functions of the crosser
(`fast_crosser.py:68-161`): every attempt is stored again, unless it is the placeholder, and
`get_next_input` (`fast_crosser.py:51-56`) changes the input of the solution itself. -/
noncomputable def search (store_internal : Bool) (solution_input : SolutionInput ℝ)
    (step_size : ℝ) : (left : ℕ) → FastCrosser.Vars → SolutionInput ℝ → Memory →
      Except PyErr Unit × Memory
  | 0, _, _, w => (.ok (), w)
  | left + 1, vars, inp, w =>
    match solution_func ops human I str interp store_internal inp w with
    | (.error e, w) => (.error e, w)
    | (.ok f, w) =>
      let w := match f.which with
        | some k => { w with stored := w.stored ++ [k] }
        | none => w
      match FastCrosser.step step_size (v_rin ⟨f.input, none⟩) f.quality vars with
      | (.error (.py e), _) => (.error e, w)
      | (.error _, _) => (.ok (), w)
      | (.ok v, vars) =>
        let next := next_input solution_input ⟨f.input, none⟩ v
        let w := match f.which with
          | some k => { w with inputs := w.inputs.set k next }
          | none => w
        search store_internal solution_input step_size left vars next w

/-- The entries of the run, with their names. -/
def Memory.entries (w : Memory) : Solutions (SolutionInput ℝ) :=
  (w.stored.filterMap (w.inputs[·]?)).zipIdx.map fun p => (p.2.repr, p.1)

/-- `fast_crosser.solver` (`fast_crosser.py:202-236`) with a new run in memory. -/
noncomputable def crosser_solver (store_internal : Bool) : Solver ℝ (SolutionInput ℝ) :=
  fun inp run =>
  match inp .v_rin_on_c_s with
  | .float v =>
    match search ops human I str interp store_internal inp (0.01 * v)
        CrosserRun.DEFAULT_NUM_ATTEMPTS {} inp {} with
    | (.error e, w) => (.error e, { run with solutions := w.entries })
    | (.ok _, w) =>
      match w.last with
      | .error e => (.error e, { run with solutions := w.entries })
      | .ok s =>
        (.ok true, { run with solutions := w.entries, final := .value (some s) })
  | _ => (.error .TypeError, run)

/-- `SONIC_METHOD_MAP` (`solve/__init__.py:32-40`) with `single`, `step` and `fast_crosser`,
the other methods as arguments. -/
noncomputable def methods (others : Bool → String → Solver ℝ (SolutionInput ℝ)) :
    Bool → String → Solver ℝ (SolutionInput ℝ) := fun store_internal name =>
  if name = "single" then single_solver I str interp store_internal
  else if name = "step" then step_solver ops human I str interp store_internal
  else if name = "fast_crosser" then crosser_solver ops human I str interp store_internal
  else others store_internal name

/-- `ds-csvrunner` (`csvrunner.py:95-138`) for one order of events: `before` is what the output
holds already, `sniff` the dialect of the table (`csv.Sniffer`), `words` the text of the number
of workers. -/
noncomputable def ds_csvrunner (C : Conv ℝ)
    (others : Bool → String → Solver ℝ (SolutionInput ℝ))
    (sniff : Text → Except PyErr (List Text)) (lines : String → List Text)
    (words : Cli.Val → Text) (input_file : String) (given : List Cli.Occ) (before : Text)
    (events : List Event) :
    Except PyErr (Main (Except PyErr (Option (SolutionInput ℝ)))) :=
  match CliSolve.ds_csvrunner input_file given with
  | .error x => .error x
  | .ok c =>
    match Csv.get_csv_inputs sniff (lines c.input_file) [] with
    | .error x => .error x
    | .ok rows =>
      .ok (csvrunner C id
        (fun _ => methods ops human I str interp others c.store_internal) c.sonic_method
        (some c.overrides) rows before
        (csv_preamble (words c.nworkers)
          (if c.store_internal then "True".toList else "False".toList) c.sonic_method.toList)
        events)

end DiscSolver.MemRun
