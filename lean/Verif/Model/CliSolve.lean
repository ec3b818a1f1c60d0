import Verif.Model.Cli
import Verif.Model.Runners
import Verif.Model.Logging

/-!
# The commands which solve

`add_solver_arguments` and `add_worker_arguments` (`src/disc_solver/solve/utils.py:86-113`)
and the entry points of `ds-soln` (`solve/__init__.py:80-99`), `ds-resoln`
(`solve/resolve.py:73-94`), `ds-csvrunner` (`solve/csvrunner.py:119-138`) and
`ds-hdf5runner` (`solve/hdf5runner.py:117-136`).  Command lines are as in
`Model/Cli.lean`; `expanded_path` of arguments is part of `Runners.Env.path`.
-/

namespace DiscSolver.CliSolve

open Cli Runners

/-- A value which is a string. -/
def string : Val → String
  | .str s => s
  | _ => ""

/-- A value which is a string or `None`. -/
def optString : Val → Option String
  | .str s => some s
  | _ => none

/-- A value which is a list of two strings each. -/
def pairs : Val → List (String × String)
  | .pairs l => l
  | _ => []

/-- `None` or a string, as the default of an option. -/
def optVal : Option String → Val
  | none => .none
  | some s => .str s

/-- `add_solver_arguments` (`solve/utils.py:86-106`). -/
def add_solver_arguments (store_internal : Bool := true) (sonic_method : String := "single")
    (output_file : Option String := none) : List Opt :=
  [{ name := "--sonic-method", dest := "sonic_method",
     choices := some ["step", "single", "mcmc", "sonic_root", "hydrostatic", "mod_hydro",
       "fast_crosser"],
     default := some (.str sonic_method) },
   { name := "--output-file", dest := "output_file", default := some (optVal output_file) },
   { name := "--output-dir", dest := "output_dir", default := some (.str ".") },
   { name := "--store-internal", dest := "store_internal", action := .storeTrue,
     default := some (.bool store_internal), group := some "internal_store_group" },
   { name := "--no-store-internal", dest := "store_internal", action := .storeFalse,
     group := some "internal_store_group" },
   { name := "--override", dest := "override", action := .append,
     default := some (.pairs []) }]

/-- `add_worker_arguments` (`solve/utils.py:109-113`). -/
def add_worker_arguments : List Opt :=
  [{ name := "--nworkers", dest := "nworkers", default := some .none }]

/-- `args.name`. -/
def attr (ns : Dict String Val) (name : String) : Except PyErr Val :=
  match Dict.get? ns name with
  | none => .error .AttributeError
  | some v => .ok v

/-- The attributes the entry points look at. -/
structure Args where
  sonic_method : String
  output_file : Option String
  output_dir : String
  store_internal : Bool
  override : List (String × String)

/-- `args.sonic_method` and so on. -/
noncomputable def readArgs (ns : Dict String Val) : Except PyErr Args :=
  match attr ns "override", attr ns "output_file", attr ns "sonic_method",
      attr ns "output_dir", attr ns "store_internal" with
  | .ok o, .ok f, .ok m, .ok d, .ok s =>
    .ok ⟨string m, optString f, string d, s.truthy, pairs o⟩
  | _, _, _, _, _ => .error .AttributeError

/-- The pairs of `--override` as `validate_overrides` gets them. -/
def texts (l : List (String × String)) : List (String × Text) :=
  l.map fun p => (p.1, p.2.toList)

/-- The level with a name (`logging.py:21`). -/
def level : String → Option Logging.Level
  | "critical" => some .critical
  | "error" => some .error
  | "warning" => some .warning
  | "notice" => some .notice
  | "info" => some .info
  | "debug" => some .debug
  | _ => none

/-- The arguments as `log_handler` sees them (`logging.py:42-56`). -/
noncomputable def logArgs (ns : Dict String Val) : Logging.Args where
  quiet := (getD ns "quiet" .none).truthy
  verbose := (getD ns "verbose" .none).truthy
  stderr_level := (Dict.get? ns "stderr_level").bind fun v => level (string v)
  log_file := (Dict.get? ns "log_file").bind optString
  log_file_level := (Dict.get? ns "log_file_level").bind fun v => level (string v)

/-- What a command leaves behind: its exit status or what it raised, the lines it
printed, the log handlers it worked with (`none` if it set up none) and the files. -/
structure Outcome (F σ : Type) where
  status : Except PyErr ℕ
  printed : List String
  handlers : Option (List Logging.Handler)
  fs : FS F σ

/-- `print(filename); return int(not succeeded)`. -/
def report {F σ : Type} (handlers : List Logging.Handler) :
    Except PyErr (String × Bool) × FS F σ → Outcome F σ
  | (.error x, fs) => ⟨.error x, [], some handlers, fs⟩
  | (.ok (filename, succeeded), fs) =>
    ⟨.ok (if succeeded then 0 else 1), [filename], some handlers, fs⟩

/-- A command which raised before it did anything. -/
def stopped {F σ : Type} (x : PyErr) (fs : FS F σ) : Outcome F σ := ⟨.error x, [], none, fs⟩

/-- The options of `ds-soln` and `ds-resoln`. -/
def soln_options : List Opt := logging_options ++ add_solver_arguments

/-- `ds-soln` (`solve/__init__.py:80-99`).  `read` is the text of a configuration file,
`impl store_internal` the methods. -/
noncomputable def ds_soln {F σ : Type} (e : Env F) (impl : Bool → String → Solver F σ)
    (read : String → Option Text) (config_file : String) (given : List Occ) (fs : FS F σ) :
    Outcome F σ :=
  match parse_args false soln_options given with
  | .error x => stopped x fs
  | .ok ns =>
    match readArgs ns with
    | .error x => stopped x fs
    | .ok args =>
      match validate_overrides (texts args.override) with
      | .error x => stopped x fs
      | .ok overrides =>
        report (Logging.log_handler (logArgs ns))
          (solve e (impl args.store_internal)
            { output_file := args.output_file, sonic_method := args.sonic_method
              config_file := config_file, output_dir := args.output_dir
              overrides := some overrides }
            (read config_file) fs)

/-- `ds-resoln` (`solve/resolve.py:73-94`). -/
noncomputable def ds_resoln {F σ : Type} (e : Env F) (input : σ → SolutionInput F)
    (impl : Bool → String → Solver F σ) (soln_filename soln_range : String)
    (given : List Occ) (fs : FS F σ) : Outcome F σ :=
  match parse_args false soln_options given with
  | .error x => stopped x fs
  | .ok ns =>
    match readArgs ns with
    | .error x => stopped x fs
    | .ok args =>
      match validate_overrides (texts args.override) with
      | .error x => stopped x fs
      | .ok overrides =>
        report (Logging.log_handler (logArgs ns))
          (resolve e input (impl args.store_internal)
            { soln_filename := soln_filename, soln_range := some soln_range
              output_file := args.output_file, sonic_method := args.sonic_method
              output_dir := args.output_dir, overrides := some overrides } fs)

/-- How a runner is called: its keywords, those left out being at their defaults. -/
structure RunnerCall where
  input_file : String
  nworkers : Val
  sonic_method : String
  store_internal : Bool
  overrides : Overrides
  output_file : Option String := none
  output_dir : Option String := none
  label : String := ""

/-- The options of `ds-csvrunner`. -/
def csvrunner_options : List Opt :=
  logging_options ++ add_solver_arguments false "step" (some "-") ++ add_worker_arguments

/-- `ds-csvrunner` up to the call of `csvrunner` (`solve/csvrunner.py:119-138`). -/
noncomputable def ds_csvrunner (input_file : String) (given : List Occ) :
    Except PyErr RunnerCall :=
  match parse_args false csvrunner_options given with
  | .error x => .error x
  | .ok ns =>
    match readArgs ns, attr ns "nworkers" with
    | .ok args, .ok nworkers =>
      match validate_overrides (texts args.override) with
      | .error x => .error x
      | .ok overrides =>
        .ok { input_file := input_file, nworkers := nworkers
              sonic_method := args.sonic_method, store_internal := args.store_internal
              overrides := overrides, output_file := args.output_file }
    | _, _ => .error .AttributeError

/-- The options of `ds-hdf5runner`. -/
def hdf5runner_options : List Opt :=
  logging_options ++ add_solver_arguments ++ add_worker_arguments ++
    [{ name := "--label", dest := "label", default := some (.str "") }]

/-- `ds-hdf5runner` up to the call of `hdf5runner` (`solve/hdf5runner.py:117-136`). -/
noncomputable def ds_hdf5runner (input_file : String) (given : List Occ) :
    Except PyErr RunnerCall :=
  match parse_args false hdf5runner_options given with
  | .error x => .error x
  | .ok ns =>
    match readArgs ns, attr ns "nworkers", attr ns "label" with
    | .ok args, .ok nworkers, .ok label =>
      match validate_overrides (texts args.override) with
      | .error x => .error x
      | .ok overrides =>
        .ok { input_file := input_file, nworkers := nworkers
              sonic_method := args.sonic_method, store_internal := args.store_internal
              overrides := overrides, output_dir := some args.output_dir
              label := string label }
    | _, _, _ => .error .AttributeError

/-- The jobs `hdf5runner` gives to its workers (`solve/hdf5runner.py:97-111`); `name i`
is the time and the name of the process which gets row `i`. -/
def hdf5runner_jobs {F σ : Type} (e : Env F) (impl : Bool → String → Solver F σ)
    (sniff : Text → Except PyErr (List Text)) (lines : String → List Text)
    (name : ℕ → String) (c : RunnerCall) : Except PyErr (List (Except PyErr (Job F σ))) :=
  match Csv.get_csv_inputs sniff (lines c.input_file) c.label.toList with
  | .error x => .error x
  | .ok rows =>
    .ok (rows.mapIdx fun i d => hdf5_job e (impl c.store_internal) c.sonic_method
      (some c.overrides) c.output_file (c.output_dir.getD "") (name i) d)

end DiscSolver.CliSolve
