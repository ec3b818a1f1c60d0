import Verif.Model.CliSolve
import Verif.Model.Stats
import Verif.Model.Info

/-!
# The commands which write tables and text

`ds-tocsv` (`src/disc_solver/analyse/dump_csv.py:12-61`), `ds-tocfg`
(`src/disc_solver/analyse/dump_config.py:9-51`), `ds-info`
(`src/disc_solver/analyse/info.py:20-182`), `ds-stats` and `ds-dumpcsv`
(`src/disc_solver/analyse/stats.py:312-358`), from the command line to the files.
Command lines are as in `Model/Cli.lean`.

The contents of a file are the pieces written to it one after the other: rows of a table
or texts.  Simplification: what was written before an exception ends up in the file,
although the file is then not closed by `open_or_stream` but when it is collected.
-/

namespace DiscSolver.CliDump

open Cli CliSolve

/-- The files of the disk, and what was printed. -/
structure Disk (C : Type) where
  files : String → Option (List C)
  stdout : List C

/-- `mode` of `open`: `'a'` or `'w'`. -/
inductive Mode where
  | append | write
deriving DecidableEq

/-- What is in a file right after it was opened. -/
def Mode.start {C : Type} (before : Option (List C)) : Mode → List C
  | .append => before.getD []
  | .write => []

/-- `with open_or_stream(filename, mode=…) as out:` (`utils.py:329-348`), where the body
writes some pieces and returns or raises.  `canOpen` is the exception `open` raises, if
any. -/
def output {C : Type} (canOpen : String → Option PyErr) (mode : Mode) (filename : String)
    (body : List C × Option PyErr) (d : Disk C) : Disk C × Option PyErr :=
  if filename = "-" then ({ d with stdout := d.stdout ++ body.1 }, body.2)
  else
    match canOpen filename with
    | some e => (d, some e)
    | none =>
      ({ d with files := fun f =>
          if f = filename then some (mode.start (d.files filename) ++ body.1)
          else d.files f }, body.2)

/-- What a command leaves behind: the disk, the log handlers it worked with (`none` if it
set up none) and what it raised. -/
structure Result (C : Type) where
  disk : Disk C
  handlers : Option (List Logging.Handler)
  error : Option PyErr

/-- A command about one solution which draws nothing: `main_entry_point_wrapper`
(`utils.py:352-379`), `analyse_main_wrapper` (`analyse/utils.py:330-370`), an entry point
with parameters `main` which passes on the dictionaries `passes`, `analysis_func_wrapper`
(`analyse/utils.py:461-472`) and a function with parameters `func`.  `load` is opening the
file and reading the run. -/
noncomputable def analyse_main {R C : Type} (options : List Opt)
    (splitters : List (String × Splitter)) (main passes : List String) (func : Sig)
    (load : String → Except PyErr R) (body : R → Dict String Val → Disk C → Disk C × Option PyErr)
    (soln_file soln_range : String) (given : List Occ) (d : Disk C) : Result C :=
  match parse_args true (logging_options ++ options) given with
  | .error e => ⟨d, none, some e⟩
  | .ok args =>
    match split args splitters with
    | .error e => ⟨d, none, some e⟩
    | .ok cmd_args =>
      let handlers := some (Logging.log_handler (logArgs args))
      if ¬ callMain main ("soln_range" :: Dict.keys cmd_args) then
        ⟨d, handlers, some .TypeError⟩
      else
        match load soln_file with
        | .error e => ⟨d, handlers, some e⟩
        | .ok run =>
          match bind func (("filename", .str soln_file) ::
              ("soln_range", .str soln_range) :: passed cmd_args passes) with
          | .error e => ⟨d, handlers, some e⟩
          | .ok (params, _) =>
            ⟨(body run params d).1, handlers, (body run params d).2⟩

/-- `soln_instance.solution_input`: `None` and the placeholder of a run in progress have
none. -/
def attributeOf {σ : Type} : Run.Found σ → Except PyErr σ
  | .soln s => .ok s
  | _ => .error .AttributeError

/-! ## `ds-tocsv` -/

/-- `dump_parser` (`dump_csv.py:12-18`). -/
def csv_parser : List Opt :=
  [{ name := "--file", dest := "file", default := some (.str "-") },
   { name := "--with-header", dest := "with_header", action := .storeTrue,
     default := some (.bool false) }]

/-- `get_dump_args` (`dump_csv.py:21-28`). -/
def get_csv_args : Splitter := fun args =>
  .ok [("output_file", getD args "file" (.str "-")),
    ("with_header", getD args "with_header" (.bool false))]

/-- The parameters of `dump_csv` (`dump_csv.py:49`). -/
def csv_sig : Sig where
  required := ["soln_range", "output_file", "with_header"]
  kwargs := true

/-- `dump_csv` (`dump_csv.py:48-61`). -/
noncomputable def dump_csv {μ σ V : Type} (e : Stats.Env σ V)
    (canOpen : String → Option PyErr) (run : Run μ σ) (params : Dict String Val)
    (d : Disk (List V)) : Disk (List V) × Option PyErr :=
  match run.getSolutions (optString (getD params "soln_range" .none)) with
  | .error x => (d, some x)
  | .ok found =>
    match attributeOf found with
    | .error x => (d, some x)
    | .ok s =>
      output canOpen .append (string (getD params "output_file" .none))
        (Stats.dump_csv e (getD params "with_header" .none).truthy s) d

/-- `ds-tocsv` (`dump_csv.py:31-45`). -/
noncomputable def ds_tocsv {μ σ V : Type} (e : Stats.Env σ V)
    (canOpen : String → Option PyErr) (load : String → Except PyErr (Run μ σ))
    (soln_file soln_range : String) (given : List Occ) (d : Disk (List V)) :
    Result (List V) :=
  analyse_main csv_parser [("dump_args", get_csv_args)] ["soln_range", "dump_args"]
    ["dump_args"] csv_sig load (dump_csv e canOpen) soln_file soln_range given d

/-! ## `ds-tocfg` -/

/-- `dump_parser` (`dump_config.py:9-14`). -/
def cfg_parser : List Opt :=
  [{ name := "--file", dest := "file", default := some (.str "-") }]

/-- `get_dump_args` (`dump_config.py:17-23`). -/
def get_cfg_args : Splitter := fun args =>
  .ok [("output_file", getD args "file" (.str "-"))]

/-- The parameters of `dump_cfg` (`dump_config.py:43`). -/
def cfg_sig : Sig where
  required := ["soln_range", "output_file"]
  kwargs := true

/-- `inp.to_config_input(label).to_conf_file(out)` (`dump_config.py:51`): the text, which
is written at once after everything was converted, or the exception. -/
def cfgBody {F : Type} (C : Conv F) (label : Text) (s : SolutionInput F) :
    List Text × Option PyErr :=
  match s.to_config_input C label with
  | .error x => ([], some x)
  | .ok c =>
    match c.to_conf_file with
    | .error x => ([], some x)
    | .ok t => ([t], none)

/-- `dump_cfg` (`dump_config.py:43-52`); `label` is the label in the run's configuration,
`input` the input of a solution. -/
noncomputable def dump_cfg {μ σ F : Type} (C : Conv F) (label : Run μ σ → Text)
    (input : σ → SolutionInput F) (canOpen : String → Option PyErr) (run : Run μ σ)
    (params : Dict String Val) (d : Disk Text) : Disk Text × Option PyErr :=
  match run.getSolutions (optString (getD params "soln_range" .none)) with
  | .error x => (d, some x)
  | .ok found =>
    match attributeOf found with
    | .error x => (d, some x)
    | .ok s =>
      output canOpen .write (string (getD params "output_file" .none))
        (cfgBody C (label run) (input s)) d

/-- `ds-tocfg` (`dump_config.py:26-40`). -/
noncomputable def ds_tocfg {μ σ F : Type} (C : Conv F) (label : Run μ σ → Text)
    (input : σ → SolutionInput F) (canOpen : String → Option PyErr)
    (load : String → Except PyErr (Run μ σ)) (soln_file soln_range : String)
    (given : List Occ) (d : Disk Text) : Result Text :=
  analyse_main cfg_parser [("dump_args", get_cfg_args)] ["soln_range", "dump_args"]
    ["dump_args"] cfg_sig load (dump_cfg C label input canOpen) soln_file soln_range given d

/-! ## `ds-info` -/

/-- `info_parser` (`info.py:20-28`); the positional argument counts as an option given
once. -/
def info_parser : List Opt :=
  [{ name := "group", dest := "group", choices := some
      ["run", "status", "input", "initial-conditions", "sonic-points", "crosses-points",
        "sonic-on-scale", "solutions"] }]

/-- `ds-info` (`info.py:31-45`, `analyse/utils.py:330-370`): the splitter gives the group
itself.  Everything goes to the standard output. -/
noncomputable def ds_info {μ V : Type} (O : Info.Objects V)
    (load : String → Except PyErr (Info.RunInfo V × Run μ (Info.Soln V)))
    (soln_file soln_range group : String) (given : List Occ) (d : Disk (Info.Item V)) :
    Result (Info.Item V) :=
  match parse_args true (logging_options ++ info_parser) (("group", .str group) :: given) with
  | .error e => ⟨d, none, some e⟩
  | .ok args =>
    match Dict.getItem args "group" with
    | .error e => ⟨d, none, some e⟩
    | .ok g =>
      let handlers := some (Logging.log_handler (logArgs args))
      match load soln_file with
      | .error e => ⟨d, handlers, some e⟩
      | .ok (info, run) =>
        let out := Info.info O info run (some soln_range) (string g)
        ⟨{ d with stdout := d.stdout ++ out.file ++ out.stdout }, handlers, out.error⟩

/-! ## `ds-stats` and `ds-dumpcsv` -/

/-- The options of `many_file_wrapper` (`stats.py:326-330`). -/
def many_parser : List Opt :=
  [{ name := "--file", dest := "file", default := some (.str "-") },
   { name := "--with-stdin", dest := "with_stdin", action := .storeTrue,
     default := some (.bool false) }]

/-- `many_file_wrapper` (`stats.py:312-338`) around `write(get_all_solutions(
get_all_files(args)), output_file=args.file)`.  Files are read while the output is
written, so after the output was opened. -/
noncomputable def many_files {σ V : Type}
    (write : List (String × String × Option σ) → List (List V) × Option PyErr)
    (canOpen : String → Option PyErr) (read : String → Except PyErr (Stats.StoredRun σ))
    (strip : String → String) (stdin : List String) (solution_files : List String)
    (given : List Occ) (d : Disk (List V)) : Result (List V) :=
  match parse_args false (logging_options ++ many_parser) given with
  | .error e => ⟨d, none, some e⟩
  | .ok ns =>
    let handlers := some (Logging.log_handler (logArgs ns))
    match attr ns "file", attr ns "with_stdin" with
    | .ok file, .ok with_stdin =>
      let r := output canOpen .append (string file)
        (write (Stats.get_all_solutions read
          (Stats.get_all_files strip solution_files with_stdin.truthy stdin))) d
      ⟨r.1, handlers, r.2⟩
    | _, _ => ⟨d, handlers, some .AttributeError⟩

/-- `ds-stats` (`stats.py:341-348`). -/
noncomputable def ds_stats {σ V : Type} (e : Stats.Env σ V) (canOpen : String → Option PyErr)
    (read : String → Except PyErr (Stats.StoredRun σ)) (strip : String → String)
    (stdin : List String) (solution_files : List String) (given : List Occ)
    (d : Disk (List V)) : Result (List V) :=
  many_files (Stats.write_stats e) canOpen read strip stdin solution_files given d

/-- `ds-dumpcsv` (`stats.py:351-358`). -/
noncomputable def ds_dumpcsv {σ V : Type} (e : Stats.Env σ V)
    (canOpen : String → Option PyErr) (read : String → Except PyErr (Stats.StoredRun σ))
    (strip : String → String) (stdin : List String) (solution_files : List String)
    (given : List Occ) (d : Disk (List V)) : Result (List V) :=
  many_files (Stats.write_inputs e) canOpen read strip stdin solution_files given d

end DiscSolver.CliDump
