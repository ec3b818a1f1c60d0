import Verif.Model.ConfigFile
import Verif.Model.Containers
import Verif.Model.Csv

/-!
# Entry points

`solve/__init__.py`, `solve/resolve.py`, `solve/single.py`, `solve/hdf5runner.py`,
`solve/csvrunner.py`.

The sonic methods are arguments; the ones in `Model/Stepper.lean`, `FastCrosser.lean`
and `Mcmc.lean` have this shape.  `h5preserve` is taken to leave in the file the run as
it is when the block ends.  Printed messages and log records are left out.
-/

namespace DiscSolver

namespace Runners

/-- What a run records besides its solutions (`_containers.py:586-600`); the version and
the floating-point type are constants. -/
structure RunInfo (F : Type) where
  config_input : ConfigInput
  config_filename : Option String
  sonic_method : String
  use_E_r : SVal F

/-- A run whose solutions are of type `σ`. -/
abbrev TheRun (F σ : Type) := Run (RunInfo F) σ

/-- A sonic method: whether it succeeded or what it raised, and the run it leaves. -/
abbrev Solver (F σ : Type) := SolutionInput F → TheRun F σ → Except PyErr Bool × TheRun F σ

/-- The keys of `SONIC_METHOD_MAP` (`solve/__init__.py:32-40`). -/
def methodNames : List String :=
  ["step", "single", "mcmc", "sonic_root", "hydrostatic", "mod_hydro", "fast_crosser"]

/-- `SONIC_METHOD_MAP.get(name)`. -/
def getMethod {F σ : Type} (impl : String → Solver F σ) (name : String) :
    Option (Solver F σ) :=
  if name ∈ methodNames then some (impl name) else none

/-- `single.solver` (`solve/single.py:10-21`); `solution` is the computed solution or
what was raised. -/
def single_solver {F σ : Type} (solution : SolutionInput F → Except PyErr σ)
    (no_final_solution : Bool) : Solver F σ := fun inp run =>
  match solution inp with
  | .error e => (.error e, run)
  | .ok s =>
    match run.addSolution s with
    | .error e => (.error e, run)
    | .ok (_, run) =>
      if no_final_solution then (.ok true, run)
      else
        match run.solutions.getLast with
        | .error e => (.error e, run)
        | .ok s =>
          match run.setFinal s with
          | .error e => (.error e, run)
          | .ok run => (.ok true, run)

/-! ## Files -/

/-- What a file holds. -/
inductive File (F σ : Type) where
  | other (bytes : Text)
  | run (r : TheRun F σ)

/-- A file system: absolute paths and what is there. -/
abbrev FS (F σ : Type) := Dict String (File F σ)

/-- What comes from outside: conversions, the current time as text, the path made from a
directory and a name (`expanded_path(output_dir / output_file)`), and whether the
directory of a path can be written to. -/
structure Env (F : Type) where
  conv : Conv F
  now : String
  path : String → String → String
  writable : String → Bool

/-- The body of the `with h5open(output_file, registries, mode='x')` block, with the
check for the method inside (`solve/__init__.py:66-75`, `resolve.py:58-66`). -/
def write_run {F σ : Type} (e : Env F) (solver : Option (Solver F σ))
    (inp : SolutionInput F) (run : TheRun F σ) (path : String) (fs : FS F σ) :
    Except PyErr Bool × FS F σ :=
  match fs.get? path with
  | some _ => (.error .FileExistsError, fs)
  | none =>
    if e.writable path then
      match solver with
      | none => (.error .SolverError, fs.set path (.run run))
      | some solver =>
        match solver inp run with
        | (.error x, run) => (.error x, fs.set path (.run run))
        | (.ok succeeded, run) =>
          match run.finalise with
          | .error x => (.error x, fs.set path (.run run))
          | .ok run => (.ok succeeded, fs.set path (.run run))
    else (.error .OSError, fs)

/-- The default name of the output (`solve/__init__.py:62-64`, `resolve.py:53-57`). -/
def default_name (label : Option Text) (suffix : String) : Except PyErr String :=
  match label with
  | none => .error .TypeError
  | some l => .ok (String.ofList l ++ suffix)

/-- The chosen output name, or the default one. -/
def output_name (output_file : Option String) (label : Option Text) (suffix : String) :
    Except PyErr String :=
  match output_file with
  | some f => .ok f
  | none => default_name label suffix

/-- The result of `solve` and `resolve`: the path and whether the solver succeeded. -/
def with_path {F σ : Type} (path : String) :
    Except PyErr Bool × FS F σ → Except PyErr (String × Bool) × FS F σ
  | (.ok b, fs) => (.ok (path, b), fs)
  | (.error x, fs) => (.error x, fs)

/-- The arguments of `solve` other than the solver's. -/
structure SolveArgs where
  output_file : Option String
  sonic_method : String
  config_file : String
  output_dir : String
  overrides : Option Overrides

/-- `solve` (`solve/__init__.py:42-77`); `config` is the text of the configuration
file. -/
def solve {F σ : Type} (e : Env F) (impl : String → Solver F σ) (a : SolveArgs)
    (config : Option Text) (fs : FS F σ) :
    Except PyErr (String × Bool) × FS F σ :=
  match get_input_from_conffile config a.overrides with
  | .error x => (.error x, fs)
  | .ok config_input =>
    match config_input.to_soln_input e.conv with
    | .error x => (.error x, fs)
    | .ok soln_input =>
      match output_name a.output_file (config_input .label) (e.now ++ ".hdf5") with
      | .error x => (.error x, fs)
      | .ok name =>
        with_path (e.path a.output_dir name)
          (write_run e (getMethod impl a.sonic_method) soln_input
            { info := ⟨config_input, some a.config_file, a.sonic_method,
                soln_input .use_E_r⟩ }
            (e.path a.output_dir name) fs)

/-- The arguments of `resolve` other than the solver's. -/
structure ResolveArgs where
  output_file : Option String
  sonic_method : String
  soln_filename : String
  soln_range : Option String
  output_dir : String
  overrides : Option Overrides

/-- The run stored in a file (`resolve.py:36-38`).  The loader reads
`group["final_solution"]` (`_loaders.py:1268`), which is not there in the file of a run that
ended before a final solution was set. -/
def load_run {F σ : Type} (fs : FS F σ) (path : String) : Except PyErr (TheRun F σ) :=
  match fs.get? path with
  | none => .error .OSError
  | some (.other _) => .error .OSError
  | some (.run r) =>
    match r.final with
    | .delayed => .error .KeyError
    | .value _ => .ok r

/-- `old_solution.solution_input`. -/
def found_input {F σ : Type} (input : σ → SolutionInput F) :
    Run.Found σ → Except PyErr (SolutionInput F)
  | .soln s => .ok (input s)
  | .none => .error .AttributeError
  | .placeholder => .error .AttributeError

/-- `resolve` (`resolve.py:28-68`). -/
def resolve {F σ : Type} (e : Env F) (input : σ → SolutionInput F)
    (impl : String → Solver F σ) (a : ResolveArgs) (fs : FS F σ) :
    Except PyErr (String × Bool) × FS F σ :=
  match load_run fs a.soln_filename with
  | .error x => (.error x, fs)
  | .ok old_run =>
    match (old_run.getSolutions a.soln_range).bind (found_input input) with
    | .error x => (.error x, fs)
    | .ok old_input =>
      match new_inputs_with_overrides e.conv old_run.info.config_input old_input
          a.overrides with
      | .error x => (.error x, fs)
      | .ok (new_config, new_input) =>
        match output_name a.output_file (old_run.info.config_input .label)
            (e.now ++ ".hdf5") with
        | .error x => (.error x, fs)
        | .ok name =>
          with_path (e.path a.output_dir name)
            (write_run e (getMethod impl a.sonic_method) new_input
              { info := ⟨new_config, old_run.info.config_filename, a.sonic_method,
                  new_input .use_E_r⟩
                based_on_filename := some a.soln_filename
                based_on_solution := a.soln_range }
              (e.path a.output_dir name) fs)

/-! ## Inputs from rows -/

/-- Fields of `ConfigInput` without a default (`_containers.py:97-116`). -/
def CField.required : CField → Bool
  | .s .η_derivs | .s .jump_before_sonic | .s .use_taylor_jump | .s .mcmc_vars
  | .s .v_θ_sonic_crit | .s .after_sonic | .s .sonic_interp_size | .s .interp_range
  | .s .interp_slice | .s .use_E_r => false
  | _ => true

/-- The defaults (`_containers.py:117-127`). -/
def CField.default : CField → Option Text
  | .s .η_derivs => some "True".toList
  | .s .use_taylor_jump => some "True".toList
  | .s .interp_range => some "10".toList
  | .s .interp_slice => some "-1000,-100".toList
  | .s .use_E_r => some "False".toList
  | _ => none

/-- `ConfigInput(**d)`: `TypeError` for an unknown or a missing name. -/
def ConfigInput.ofDict (d : Dict Text (Option Text)) : Except PyErr ConfigInput :=
  if d.keys.all (fun k => decide (k ∈ CField.all.map fun f => f.name.toList)) &&
      CField.all.all (fun f => !CField.required f || decide (f.name.toList ∈ d.keys)) then
    .ok (ConfigInput.mk fun f => (d.get? f.name.toList).getD (CField.default f))
  else .error .TypeError

/-- The input dictionary without the two columns that name a solution. -/
def withoutIds (d : Dict Text (Option Text)) : Dict Text (Option Text) :=
  (d.erase "filename".toList).erase "solution_name".toList

/-- `input_dict.pop(k, None)`: the value. -/
def popped (d : Dict Text (Option Text)) (k : Text) : Option String :=
  match d.get? k with
  | some (some t) => some (String.ofList t)
  | _ => none

/-- The inputs and the run made from a row (`csvrunner.py:49-72`,
`hdf5runner.py:49-68`). -/
def row_inputs {F σ : Type} (C : Conv F) (method : String) (overrides : Option Overrides)
    (d : Dict Text (Option Text)) : Except PyErr (SolutionInput F × TheRun F σ) :=
  match ConfigInput.ofDict (withoutIds d) with
  | .error x => .error x
  | .ok c =>
    match add_overrides overrides c with
    | .error x => .error x
    | .ok c =>
      match c.to_soln_input C with
      | .error x => .error x
      | .ok s =>
        .ok (s, { info := ⟨c, none, method, s .use_E_r⟩
                  based_on_filename := popped d "filename".toList
                  based_on_solution := popped d "solution_name".toList })

/-! ## csvrunner -/

/-- What is returned for a run that ended (`csvrunner.py:76-91`). -/
def csv_result {F σ : Type} (input : σ → SolutionInput F) :
    Except PyErr Bool × TheRun F σ → Except PyErr (Option (SolutionInput F))
  | (.error .SolverError, _) => .ok none
  | (.error x, _) => .error x
  | (.ok false, _) => .ok none
  | (.ok true, run) =>
    match run.final with
    | .delayed => .error .AttributeError
    | .value none => .ok none
    | .value (some s) => .ok (some (input s))

/-- `csvrunner.SolutionFinder.__call__` (`csvrunner.py:35-83`). -/
def csv_find {F σ : Type} (C : Conv F) (input : σ → SolutionInput F)
    (impl : String → Solver F σ) (method : String) (overrides : Option Overrides)
    (d : Dict Text (Option Text)) : Except PyErr (Option (SolutionInput F)) :=
  match getMethod impl method with
  | none => .error .SolverError
  | some solver =>
    match row_inputs C method overrides d with
    | .error x => .error x
    | .ok (s, run) => csv_result input (solver s run)

/-- `repr` of a part of a slice. -/
def sliceItem : Option Int → Text
  | some n => Text.ofInt n
  | none => Text.none

/-- `repr(s)` of a slice. -/
def sliceRepr (s : PySlice) : Text :=
  "slice(".toList ++ (sliceItem s.start ++ (", ".toList ++ (sliceItem s.stop ++
    (", ".toList ++ (sliceItem s.step ++ ")".toList)))))

/-- What `csv.writer` writes for a value: nothing for `None`, else `str`. -/
def csvStr {F : Type} (C : Conv F) : SVal F → Text
  | .none => []
  | .slice s => sliceRepr s
  | v => v.pyStr C

/-- A row of the output (`csvrunner.py:106-108, 123`). -/
def csvRow {F : Type} (C : Conv F) (s : SolutionInput F) : List Text :=
  SField.all.map fun f => csvStr C (s f)

/-- The names of the columns (`csvrunner.py:113`). -/
def headerRow : List Text := SField.all.map fun f => f.name.toList

/-! ### `Pool.imap` -/

/-- `multiprocessing.pool.IMapIterator`: results in order ready to be taken, and results
that came too early. -/
structure Imap (α : Type) where
  index : ℕ := 0
  items : List α := []
  unsorted : Dict ℕ α := []

/-- The loop of `IMapIterator._set`, at most as long as there are early results. -/
def Imap.flush {α : Type} : ℕ → Imap α → Imap α
  | 0, m => m
  | n + 1, m =>
    match m.unsorted.get? m.index with
    | none => m
    | some x => Imap.flush n ⟨m.index + 1, m.items ++ [x], m.unsorted.erase m.index⟩

/-- `IMapIterator._set(i, obj)`. -/
def Imap.set {α : Type} (m : Imap α) (i : ℕ) (x : α) : Imap α :=
  if m.index = i then
    Imap.flush m.unsorted.length { m with index := m.index + 1, items := m.items ++ [x] }
  else { m with unsorted := m.unsorted.set i x }

/-- What can happen while the pool is running: a worker finishes an input, or the main
process takes the next result. -/
inductive Event where
  | finish (i : ℕ)
  | take
deriving DecidableEq

/-- The main process: the iterator, the text of the output file, the number of results
taken, and what was raised. -/
structure Main (α : Type) where
  imap : Imap α := {}
  out : Text
  taken : ℕ := 0
  raised : Option PyErr := none

/-- The loop body (`csvrunner.py:115-124`) on the next result. -/
def Main.handle {F : Type} (C : Conv F)
    (m : Main (Except PyErr (Option (SolutionInput F)))) :
    Except PyErr (Option (SolutionInput F)) →
      Main (Except PyErr (Option (SolutionInput F)))
  | .error e => { m with raised := some e }
  | .ok none => m
  | .ok (some s) => { m with out := m.out ++ Csv.writeRow (csvRow C s) }

/-- One event; `res i` is what the worker returns or raises for input `i`. -/
def Main.step {F : Type} (C : Conv F) (res : ℕ → Except PyErr (Option (SolutionInput F)))
    (m : Main (Except PyErr (Option (SolutionInput F)))) :
    Event → Main (Except PyErr (Option (SolutionInput F)))
  | .finish i => { m with imap := m.imap.set i (res i) }
  | .take =>
    match m.raised, m.imap.items with
    | some _, _ => m
    | none, [] => m
    | none, x :: l =>
      Main.handle C { m with imap := { m.imap with items := l }, taken := m.taken + 1 } x

/-- What is written before the first row (`csvrunner.py:109-114`). -/
def csv_preamble (nworkers store_internal sonic_method : Text) : Text :=
  (Csv.metadataLines [("nworkers".toList, nworkers),
    ("store_internal".toList, store_internal),
    ("sonic_method".toList, sonic_method)]).flatten ++ Csv.writeRow headerRow

/-- `csvrunner` (`csvrunner.py:87-116`) for one order of events: `before` is the text
already in the output file, which is opened for appending. -/
def csvrunner {F σ : Type} (C : Conv F) (input : σ → SolutionInput F)
    (impl : ℕ → String → Solver F σ) (method : String) (overrides : Option Overrides)
    (inputs : List (Dict Text (Option Text))) (before preamble : Text)
    (events : List Event) : Main (Except PyErr (Option (SolutionInput F))) :=
  events.foldl
    (Main.step C fun i => csv_find C input (impl i) method overrides (inputs.getD i []))
    { out := before ++ preamble }

/-! ## hdf5runner -/

/-- A job of `hdf5runner`: the path of its file, the run it stores there at first, and
what its solver leads to. -/
structure Job (F σ : Type) where
  path : String
  run : TheRun F σ
  solver : SolutionInput F → TheRun F σ → Except PyErr Bool × TheRun F σ
  input : SolutionInput F

/-- Where a job stands. -/
inductive JobState where
  | waiting
  | working
  | ended (result : Except PyErr (Option Bool))

/-- `except SolverError` (`hdf5runner.py:93-95`). -/
def hdf5_result : Except PyErr Bool → Except PyErr (Option Bool)
  | .ok b => .ok (some b)
  | .error .SolverError => .ok none
  | .error x => .error x

/-- The end of the block (`hdf5runner.py:86-95`): the run left in the file and the
result. -/
def Job.finish {F σ : Type} (j : Job F σ) : TheRun F σ × Except PyErr (Option Bool) :=
  match j.solver j.input j.run with
  | (.error x, run) => (run, hdf5_result (.error x))
  | (.ok b, run) =>
    match run.finalise with
    | .error x => (run, hdf5_result (.error x))
    | .ok run => (run, .ok (some b))

/-- The file system and the state of every job. -/
structure Pool (F σ : Type) where
  fs : FS F σ
  state : ℕ → JobState := fun _ => .waiting

/-- One step of a job: opening the file, which is atomic, or finishing. -/
def Pool.step {F σ : Type} (writable : String → Bool) (jobs : ℕ → Job F σ)
    (p : Pool F σ) (i : ℕ) : Pool F σ :=
  match p.state i with
  | .ended _ => p
  | .waiting =>
    match p.fs.get? (jobs i).path with
    | some _ => { p with
        state := Function.update p.state i (.ended (.error .FileExistsError)) }
    | none =>
      if writable (jobs i).path then
        { fs := p.fs.set (jobs i).path (.run (jobs i).run)
          state := Function.update p.state i .working }
      else { p with state := Function.update p.state i (.ended (.error .OSError)) }
  | .working =>
    { fs := p.fs.set (jobs i).path (.run (jobs i).finish.1)
      state := Function.update p.state i (.ended (jobs i).finish.2) }

/-- The job of a row (`hdf5runner.py:41-82`): `name` is the time and the name of the
worker process. -/
def hdf5_job {F σ : Type} (e : Env F) (impl : String → Solver F σ) (method : String)
    (overrides : Option Overrides) (output_file : Option String) (output_dir name : String)
    (d : Dict Text (Option Text)) : Except PyErr (Job F σ) :=
  match getMethod impl method with
  | none => .error .SolverError
  | some solver =>
    match row_inputs e.conv method overrides d with
    | .error x => .error x
    | .ok (s, run) =>
      match output_name output_file (run.info.config_input .label) (name ++ ".hdf5") with
      | .error x => .error x
      | .ok f => .ok ⟨e.path output_dir f, run, solver, s⟩

end Runners

end DiscSolver
