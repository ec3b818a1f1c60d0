import Verif.Model.Py
import Mathlib.Data.Real.Basic

/-!
# Command lines

From the words on the command line to the call of the function which draws:
`src/disc_solver/analyse/utils.py:143-472,512-526` and the parsers, entry points and
function signatures of the plotting commands (parameters common to several functions are
listed in one order), `src/disc_solver/utils.py:352-379`,
`src/disc_solver/logging.py:19-35`.

`argparse` is trusted to split the words into options with their values, converted to
their types (`Occ`); modelled are defaults, `argument_default=SUPPRESS`, choices,
mutually exclusive groups, options given several times and options with the same
destination.  Opening a file and drawing are parameters.
-/

namespace DiscSolver.Cli

/-- The Python values that options, keyword arguments and their defaults have. -/
inductive Val where
  | none
  | bool (b : Bool)
  | num (x : ℝ)
  | str (s : String)
  /-- two numbers, as `--figsize 8 6` -/
  | two (x y : ℝ)
  /-- `{}` or `{"figsize": …}` -/
  | figargs (figsize : Option Val)
  /-- lists of two strings, as `--runs a.hdf5 0 --runs b.hdf5 1` -/
  | pairs (l : List (String × String))
  /-- a list of strings -/
  | names (l : List String)

/-- Python's truth value. -/
noncomputable def Val.truthy : Val → Bool
  | .none => false
  | .bool b => b
  | .num x => open Classical in decide (x ≠ 0)
  | .str s => s ≠ ""
  | .two _ _ => true
  | .figargs f => f.isSome
  | .pairs l => !l.isEmpty
  | .names l => !l.isEmpty

/-- `action` of `add_argument`. -/
inductive Action where
  | store | storeTrue | storeFalse | append
deriving DecidableEq

/-- `parser.add_argument(name, dest=…, action=…, default=…, choices=…)`; `group` names
the mutually exclusive group.  `default = none` means that no default is written. -/
structure Opt where
  name : String
  dest : String
  action : Action := .store
  default : Option Val := none
  choices : Option (List String) := none
  group : Option String := none

/-- An option on the command line, with its value (ignored for flags). -/
abbrev Occ := String × Val

/-- The default of an option in the namespace; `none` if it is left out.  `suppress` is
`argument_default=argparse.SUPPRESS`. -/
def Opt.initial (suppress : Bool) (o : Opt) : Option Val :=
  match o.default with
  | some v => some v
  | none =>
    if suppress then none
    else
      match o.action with
      | .storeTrue => some (.bool false)
      | .storeFalse => some (.bool true)
      | _ => some .none

/-- The namespace before any option is looked at: the first option with a destination
gives its default. -/
def initial (suppress : Bool) : List Opt → Dict String Val → Dict String Val
  | [], ns => ns
  | o :: l, ns =>
    match o.initial suppress with
    | none => initial suppress l ns
    | some v =>
      initial suppress l (if (Dict.get? ns o.dest).isSome then ns else Dict.set ns o.dest v)

/-- What an action makes of the value before and the value given. -/
def Action.apply (before : Option Val) (given : Val) : Action → Val
  | .store => given
  | .storeTrue => .bool true
  | .storeFalse => .bool false
  | .append =>
    match before, given with
    | some (.pairs l), .pairs m => .pairs (l ++ m)
    | _, v => v

/-- One option of the command line. -/
def step (opts : List Opt) (ns : Dict String Val) (occ : Occ) : Dict String Val :=
  match opts.find? (·.name = occ.1) with
  | none => ns
  | some o => Dict.set ns o.dest (o.action.apply (Dict.get? ns o.dest) occ.2)

/-- Whether the value is one of the choices. -/
def Opt.accepts (o : Opt) (v : Val) : Bool :=
  match o.choices, v with
  | none, _ => true
  | some l, .str s => s ∈ l
  | some _, _ => false

/-- The option is known and its value allowed. -/
def known (opts : List Opt) (occ : Occ) : Bool :=
  match opts.find? (·.name = occ.1) with
  | none => false
  | some o => o.accepts occ.2

/-- Two different options of the same mutually exclusive group. -/
def conflict (opts : List Opt) (a b : Occ) : Bool :=
  match opts.find? (·.name = a.1), opts.find? (·.name = b.1) with
  | some o, some p => o.group.isSome && (o.group == p.group) && (o.name ≠ p.name)
  | _, _ => false

/-- The command line is one the parser takes. -/
def accepted (opts : List Opt) (given : List Occ) : Bool :=
  given.all (known opts) && given.all fun a => given.all fun b => !conflict opts a b

/-- `vars(parser.parse_args(argv))`; on a usage error `argparse` exits. -/
def parse_args (suppress : Bool) (opts : List Opt) (given : List Occ) :
    Except PyErr (Dict String Val) :=
  if accepted opts given then .ok (given.foldl (step opts) (initial suppress opts []))
  else .error .SystemExit

/-- `args.get(key, default)`. -/
def getD (args : Dict String Val) (key : String) (default : Val) : Val :=
  (Dict.get? args key).getD default

/-! ## Calls -/

/-- The keyword-only parameters of a function: those without default, those with, and
whether there is `**kwargs`. -/
structure Sig where
  required : List String := []
  optional : Dict String Val := []
  kwargs : Bool := false

/-- Python binds keywords to parameters: unknown, repeated and missing ones raise
`TypeError`.  The second part of the result is `kwargs`. -/
def bind (s : Sig) (kw : Dict String Val) : Except PyErr (Dict String Val × Dict String Val) :=
  let names := s.required ++ Dict.keys s.optional
  if ¬ (Dict.keys kw).Nodup then .error .TypeError
  else if ¬ s.kwargs ∧ ¬ (Dict.keys kw).all (· ∈ names) then .error .TypeError
  else if ¬ s.required.all (· ∈ Dict.keys kw) then .error .TypeError
  else .ok
    (s.required.map (fun k => (k, getD kw k .none)) ++
      s.optional.map (fun p => (p.1, getD kw p.1 p.2)),
     kw.filter fun p => !decide (p.1 ∈ names))

/-- `f(keyword=parameter, …)` in the body of a function whose parameters are bound. -/
def pick (params : Dict String Val) (l : List (String × String)) : Dict String Val :=
  l.map fun p => (p.1, getD params p.2 .none)

/-- `x=x` for each name. -/
def same (l : List String) : List (String × String) := l.map fun x => (x, x)

/-! ## Options shared by the commands -/

/-- `logging_options` (`logging.py:19-35`). -/
def logging_options : List Opt :=
  let LOG_LEVELS := ["critical", "error", "warning", "notice", "info", "debug"]
  [{ name := "--log-file", dest := "log_file" },
   { name := "--log-file-level", dest := "log_file_level", default := some (.str "debug"),
     choices := some LOG_LEVELS },
   { name := "--stderr-level", dest := "stderr_level", default := some (.str "notice"),
     choices := some LOG_LEVELS, group := some "stderr" },
   { name := "--quiet", dest := "quiet", action := .storeTrue,
     default := some (.bool false), group := some "stderr" },
   { name := "--verbose", dest := "verbose", action := .storeTrue,
     default := some (.bool false), group := some "stderr" }]

/-- `common_output_plot_options` (`analyse/utils.py:253-262`). -/
def common_output_plot_options : List Opt :=
  [{ name := "--show", dest := "show", action := .storeTrue,
     default := some (.bool false) },
   { name := "--filename", dest := "filename", default := some .none },
   { name := "--figsize", dest := "figsize", default := some .none }]

/-- `DEFAULT_MPL_STYLE` (`analyse/utils.py:34`). -/
def DEFAULT_MPL_STYLE : Val := .str "bmh"

/-- `common_plot_appearence_options` (`analyse/utils.py:265-275`). -/
def common_plot_appearence_options : List Opt :=
  [{ name := "--title", dest := "title", default := some .none },
   { name := "--style", dest := "style", default := some DEFAULT_MPL_STYLE },
   { name := "--no-show-version", dest := "with_version", action := .storeFalse,
     default := some (.bool true) }]

/-- `common_plotting_options` (`analyse/utils.py:278-287`); the defaults of `--start` and
`--stop` are strings, which `argparse` converts like values given. -/
def common_plotting_options : List Opt :=
  common_output_plot_options ++ common_plot_appearence_options ++
  [{ name := "--start", dest := "start", default := some (.num 0) },
   { name := "--stop", dest := "stop", default := some (.num 90) },
   { name := "--linestyle", dest := "linestyle", default := some (.str "-") }]

/-- A function from the parsed options to keyword arguments. -/
abbrev Splitter := Dict String Val → Except PyErr (Dict String Val)

/-- `{"key": args["item"], …}`. -/
def items (args : Dict String Val) : List (String × String) → Except PyErr (Dict String Val)
  | [] => .ok []
  | p :: l =>
    match Dict.getItem args p.2 with
    | .error e => .error e
    | .ok v =>
      match items args l with
      | .error e => .error e
      | .ok r => .ok ((p.1, v) :: r)

/-- `get_common_plot_appearence_args` (`analyse/utils.py:290-298`). -/
def get_common_plot_appearence_args : Splitter := fun args =>
  items args [("title", "title"), ("mpl_style", "style"), ("with_version", "with_version")]

/-- `get_common_plot_output_args` (`analyse/utils.py:301-313`). -/
def get_common_plot_output_args : Splitter := fun args =>
  match items args [("show", "show"), ("plot_filename", "filename")] with
  | .error e => .error e
  | .ok r =>
    .ok (r ++ [("figargs", .figargs (match Dict.get? args "figsize" with
      | none => none
      | some .none => none
      | some v => some v))])

/-- `get_common_plot_args` (`analyse/utils.py:316-327`). -/
def get_common_plot_args : Splitter := fun args =>
  match get_common_plot_appearence_args args with
  | .error e => .error e
  | .ok appearence =>
    match get_common_plot_output_args args with
    | .error e => .error e
    | .ok output =>
      match items args [("start", "start"), ("stop", "stop"), ("linestyle", "linestyle")] with
      | .error e => .error e
      | .ok other => .ok (appearence ++ output ++ other)

/-- `{"key": args.get("item", default), …}`. -/
def gets (l : List (String × String × Val)) : Splitter := fun args =>
  .ok (l.map fun p => (p.1, getD args p.2.1 p.2.2))

/-! ## Figures -/

/-- What is known of a run besides its solutions. -/
structure RunHead where
  config_filename : String
  label : String
  use_E_r : Bool

/-- A figure as the user gets it: what was drawn, the title, the style sheet, the
arguments of the figure, whether the version is written on it, the file it was saved to
(`none` if it was not), whether it was shown and whether it was closed. -/
structure Figure (α : Type) where
  contents : α
  title : Val
  style : Val
  figargs : Val
  version : Bool
  saved : Val
  shown : Bool
  closed : Bool

/-- `plot_output_wrapper` (`analyse/utils.py:512-526`). -/
noncomputable def plot_output_wrapper {α : Type} (fig : Figure α) (params : Dict String Val) :
    Figure α :=
  { fig with
    saved := getD params "plot_filename" .none
    shown := (getD params "show" .none).truthy
    closed := (getD params "close" .none).truthy }

/-- `value if value is not None else default`. -/
def Val.orElse (v default : Val) : Val :=
  match v with
  | .none => default
  | v => v

/-- `"{}:{}".format(filename, solution)` for strings and `None`. -/
def Val.text : Val → String
  | .none => "None"
  | .str s => s
  | _ => ""

/-- The keyword parameters of `plot_wrapper` (`analyse/utils.py:148-151`). -/
def single_sig : Sig where
  optional := [("title", .none), ("filename", .none), ("figargs", .none),
    ("mpl_style", DEFAULT_MPL_STYLE), ("with_version", .bool true)]
  kwargs := true

/-- Calls a function wrapped in functions which keep some keywords for themselves and
pass the others on. -/
def bindAll : List Sig → Dict String Val → Except PyErr (Dict String Val)
  | [], kw => .ok kw
  | s :: l, kw =>
    match bind s kw with
    | .error e => .error e
    | .ok r =>
      match bindAll l r.2 with
      | .error e => .error e
      | .ok rest => .ok (r.1 ++ rest)

/-- `single_solution_plotter` (`analyse/utils.py:143-178`).  `draw solution keywords` is
finding the solution and drawing it, `sigs` the parameters of the function drawing. -/
noncomputable def single_solution_plotter {α : Type} (sigs : List Sig)
    (draw : Val → Dict String Val → Except PyErr α) (run : RunHead) (solution : Val)
    (kw : Dict String Val) : Except PyErr (Figure α) :=
  match bind single_sig kw with
  | .error e => .error e
  | .ok (own, kwargs) =>
    let solution := solution.orElse (.str "0")
    let filename := (getD own "filename" .none).orElse
      (.str (run.config_filename ++ ":" ++ run.label))
    match bindAll sigs (("use_E_r", .bool run.use_E_r) :: kwargs) with
    | .error e => .error e
    | .ok params =>
      match draw solution params with
      | .error e => .error e
      | .ok contents => .ok
        { contents := contents
          title := (getD own "title" .none).orElse
            (.str (filename.text ++ ":" ++ solution.text))
          style := getD own "mpl_style" .none
          figargs := (getD own "figargs" .none).orElse (.figargs none)
          version := (getD own "with_version" .none).truthy
          saved := .none, shown := false, closed := false }

/-! ## Commands about one solution -/

/-- A command about one solution: its options, what the entry point passes on, the
parameters of its main function, what that function passes to the wrapped drawing
function, and the parameters of the latter. -/
structure Command where
  name : String
  options : List Opt
  /-- `cmd_parser_splitters` -/
  splitters : List (String × Splitter)
  /-- the keyword parameters of the entry point -/
  main : List String
  /-- the dictionaries the entry point passes on with `**` -/
  passes : List String
  func : Sig
  /-- the keywords of the call of the drawing function -/
  call : List (String × String)
  sigs : List Sig

/-- Applies the splitters. -/
def split (args : Dict String Val) : List (String × Splitter) →
    Except PyErr (Dict String (Dict String Val))
  | [] => .ok []
  | s :: l =>
    match s.2 args with
    | .error e => .error e
    | .ok r =>
      match split args l with
      | .error e => .error e
      | .ok rest => .ok ((s.1, r) :: rest)

/-- The keyword arguments made of the dictionaries passed on. -/
def passed (cmd_args : Dict String (Dict String Val)) (l : List String) : Dict String Val :=
  l.flatMap fun k => (Dict.get? cmd_args k).getD []

/-- The call of the entry point: its parameters are exactly what it is called with. -/
def callMain (params given : List String) : Bool :=
  given.all (· ∈ params) && params.all (· ∈ given)

/-- A command about one solution: `main_entry_point_wrapper` (`utils.py:352-379`),
`analyse_main_wrapper` (`analyse/utils.py:330-370`), the entry point,
`analysis_func_wrapper` (`analyse/utils.py:461-472`) and the main function.  `load` is
opening the file and reading the run, `draw` finding the solution and drawing it. -/
noncomputable def Command.run {α : Type} (c : Command)
    (load : String → Except PyErr RunHead)
    (draw : RunHead → Val → Dict String Val → Except PyErr α)
    (soln_file soln_range : String) (given : List Occ) : Except PyErr (Figure α) :=
  match parse_args true (logging_options ++ c.options) given with
  | .error e => .error e
  | .ok args =>
    match split args c.splitters with
    | .error e => .error e
    | .ok cmd_args =>
      if ¬ callMain c.main ("soln_range" :: Dict.keys cmd_args) then .error .TypeError
      else
        match load soln_file with
        | .error e => .error e
        | .ok run =>
          match bind c.func (("filename", .str soln_file) ::
              ("soln_range", .str soln_range) :: passed cmd_args c.passes) with
          | .error e => .error e
          | .ok (params, _) =>
            match single_solution_plotter c.sigs (draw run) run
                (getD params "soln_range" .none) (pick params c.call) with
            | .error e => .error e
            | .ok fig => .ok (plot_output_wrapper fig params)

/-- The parameters with a default which all main functions have; `linestyle` differs. -/
def fileSig (linestyle : Val) (more : Dict String Val) (required : List String := []) : Sig where
  required := "filename" :: required
  optional := [("plot_filename", .none), ("show", .bool false),
    ("linestyle", linestyle), ("start", .num 0), ("stop", .num 90), ("figargs", .none),
    ("title", .none), ("close", .bool true), ("mpl_style", DEFAULT_MPL_STYLE),
    ("with_version", .bool true)] ++ more

/-- Those of the main functions about one solution. -/
def plotSig (linestyle : Val) (more : Dict String Val) (required : List String := []) : Sig :=
  fileSig linestyle (("soln_range", .none) :: more) required

/-- The keywords all main functions pass on. -/
def plotCall (more : List String) : List (String × String) :=
  same (["figargs", "title", "filename", "mpl_style", "with_version", "linestyle", "start",
    "stop"] ++ more)

/-- The parameters all drawing functions have. -/
def drawSig (linestyle : Val) (more : Dict String Val) : Sig where
  optional := [("linestyle", linestyle), ("start", .num 0), ("stop", .num 90)] ++ more ++
    [("use_E_r", .bool false)]

/-- A command with the common options only. -/
def commonCommand (name : String) (linestyle : Val) : Command where
  name := name
  options := common_plotting_options
  splitters := [("common_plot_args", get_common_plot_args)]
  main := ["soln_range", "common_plot_args"]
  passes := ["common_plot_args"]
  func := plotSig linestyle []
  call := plotCall []
  sigs := [drawSig linestyle []]

/-- `add_argument(name, action="store_true", default=False)`. -/
def flag (name dest : String) : Opt :=
  { name := name, dest := dest, action := .storeTrue, default := some (.bool false) }

/-- The option `--v_θ` of several commands. -/
def v_θ_option : Opt :=
  { name := "--v_θ", dest := "v_θ", choices := some ["log", "linear"],
    default := some (.str "linear") }

/-- A command with options of its own. -/
def ownCommand (name : String) (options : List Opt) (linestyle : Val)
    (getPlotArgs : List (String × String × Val)) (func draw : Dict String Val)
    (call : List String) : Command where
  name := name
  options := common_plotting_options ++ options
  splitters := [("common_plot_args", get_common_plot_args), ("plot_args", gets getPlotArgs)]
  main := ["soln_range", "common_plot_args", "plot_args"]
  passes := ["common_plot_args", "plot_args"]
  func := plotSig linestyle func
  call := plotCall call
  sigs := [drawSig linestyle draw]

/-- `ds-plot` (`analyse/plot.py:19-98`). -/
def ds_plot : Command :=
  ownCommand "ds-plot"
    [v_θ_option, flag "--with-slow" "with_slow", flag "--with-alfven" "with_alfven",
      flag "--with-fast" "with_fast", flag "--with-sonic" "with_sonic",
      flag "--portrait" "portrait", flag "--hide-roots" "hide_roots",
      flag "--hide-sonic-angle" "hide_sonic_angle"]
    (.str "-")
    [("v_θ_scale", "v_θ", .str "linear"), ("with_slow", "with_slow", .bool false),
      ("with_alfven", "with_alfven", .bool false), ("with_fast", "with_fast", .bool false),
      ("with_sonic", "with_sonic", .bool false), ("portrait", "portrait", .bool false),
      ("hide_roots", "hide_roots", .bool false),
      ("hide_sonic_angle", "hide_sonic_angle", .bool false)]
    [("with_slow", .bool false), ("with_alfven", .bool false), ("with_fast", .bool false),
      ("with_sonic", .bool false), ("v_θ_scale", .str "linear"), ("portrait", .bool false),
      ("hide_roots", .bool false), ("hide_sonic_angle", .bool false)]
    [("with_slow", .bool false), ("with_alfven", .bool false), ("with_fast", .bool false),
      ("with_sonic", .bool false), ("v_θ_scale", .str "linear"), ("portrait", .bool false),
      ("hide_roots", .bool false), ("hide_sonic_angle", .bool false)]
    ["with_slow", "with_alfven", "with_fast", "with_sonic", "v_θ_scale", "portrait",
      "hide_roots", "hide_sonic_angle"]

/-- `ds-vert-plot` (`analyse/vert_plot.py:19-79`). -/
def ds_vert_plot : Command :=
  ownCommand "ds-vert-plot" [v_θ_option, flag "--with-sonic" "with_sonic"] (.str "-")
    [("with_sonic", "with_sonic", .bool false)] [("with_sonic", .bool false)]
    [("with_sonic", .bool false)] ["with_sonic"]

/-- `ds-params-plot` (`analyse/params_plot.py:15-61`). -/
def ds_params_plot : Command := commonCommand "ds-params-plot" (.str ".")

/-- `ds-derivs-plot` (`analyse/derivs_plot.py:15-74`). -/
def ds_derivs_plot : Command :=
  ownCommand "ds-derivs-plot" [flag "--nolog" "nolog"] (.str ".")
    [("nolog", "nolog", .bool false)] [("nolog", .bool false)] [("nolog", .bool false)]
    ["nolog"]

/-- `ds-component-plot` (`analyse/component_plot.py:17-74`). -/
def ds_component_plot : Command :=
  ownCommand "ds-component-plot" [{ name := "--only", dest := "only", default := some .none }]
    (.str "-") [("only", "only", .none)] [("only", .none)] [("only", .none)] ["only"]

/-- `ds-taylor-plot` (`analyse/taylor_plot.py:15-78`). -/
def ds_taylor_plot : Command :=
  ownCommand "ds-taylor-plot" [flag "--show-values" "show_values"] (.str ".")
    [("show_values", "show_values", .bool false)] [("show_values", .bool false)]
    [("show_values", .bool false)] ["show_values"]

/-- `ds-combine-plot` (`analyse/combine_plot.py:23-95`). -/
def ds_combine_plot : Command :=
  ownCommand "ds-combine-plot"
    [flag "--with-slow" "with_slow", flag "--with-alfven" "with_alfven",
      flag "--with-fast" "with_fast", flag "--with-sonic" "with_sonic"]
    (.str "-")
    [("with_slow", "with_slow", .bool false), ("with_alfven", "with_alfven", .bool false),
      ("with_fast", "with_fast", .bool false), ("with_sonic", "with_sonic", .bool false)]
    [("with_slow", .bool false), ("with_alfven", .bool false), ("with_fast", .bool false),
      ("with_sonic", .bool false)]
    [("with_slow", .bool false), ("with_alfven", .bool false), ("with_fast", .bool false),
      ("with_sonic", .bool false)]
    ["with_slow", "with_alfven", "with_fast", "with_sonic"]

/-- `ds-acc-plot` (`analyse/acc_plot.py:23-69`). -/
def ds_acc_plot : Command := commonCommand "ds-acc-plot" (.str ".")

/-- `ds-j-e-plot` (`analyse/j_e_plot.py:57-105`). -/
def ds_j_e_plot : Command := commonCommand "ds-j-e-plot" (.str "-")

/-- `ds-surface-density-plot` (`analyse/surface_density_plot.py:15-63`). -/
def ds_surface_density_plot : Command := commonCommand "ds-surface-density-plot" (.str ".")

/-- `ds-hydro-check-plot` (`analyse/hydro_check_plot.py:17-63`). -/
def ds_hydro_check_plot : Command := commonCommand "ds-hydro-check-plot" (.str ".")

/-- `ds-validate-plot` (`analyse/validate_plot.py:24-70`). -/
def ds_validate_plot : Command := commonCommand "ds-validate-plot" (.str ".")

/-- The option `--eps` of the Jacobian plots. -/
noncomputable def eps_option : Opt :=
  { name := "--eps", dest := "eps", default := some (.num (1 / 10 ^ 10)) }

/-- `ds-jacobian-eigenvalue-plot`, `-eigenvector-plot` and `-eigennorm-plot`
(`analyse/compute_jacobian.py:37-92,147-163,229-289,316-335,393-397,421-425,475-479`):
`jacobian_wrapper` keeps `eps`, `use_E_r` and `θ_scale`. -/
noncomputable def jacobianCommand (name : String) : Command where
  name := name
  options := common_plotting_options ++ [eps_option]
  splitters := [("common_plot_args", get_common_plot_args),
    ("plot_args", gets [("eps", "eps", .num (1 / 10 ^ 10))])]
  main := ["soln_range", "common_plot_args", "plot_args"]
  passes := ["common_plot_args", "plot_args"]
  func := plotSig (.str ".") [] ["eps"]
  call := plotCall ["eps"]
  sigs := [{ required := ["eps", "use_E_r"], optional := [("θ_scale", .num 1)], kwargs := true },
    { optional := [("start", .num 0), ("stop", .num 90), ("linestyle", .str ",")] }]

/-- The parameters of `plot_eigenvector_coef_around_sonic_point`
(`analyse/compute_jacobian.py:589-592`); it passes `kwargs` on to matplotlib. -/
def coef_sig : Sig where
  required := ["eps", "use_E_r"]
  optional := [("start", .num 0), ("stop", .num 90), ("linestyle", .str "."),
    ("local_eigvecs", .bool true), ("critical_point", .str "sonic")]
  kwargs := true

/-- `ds-eigenvector-coef-plot` (`analyse/compute_jacobian.py:95-144,292-313,588-592`). -/
noncomputable def ds_eigenvector_coef_plot : Command where
  name := "ds-eigenvector-coef-plot"
  options := common_plotting_options ++
    [eps_option,
     { name := "--critical-point", dest := "critical_point", default := some (.str "sonic"),
       choices := some ["slow", "sonic", "alfven", "fast"] },
     { name := "--local-eigvecs", dest := "local_eigvecs", action := .storeTrue,
       group := some "local" },
     { name := "--global-eigvecs", dest := "local_eigvecs", action := .storeFalse,
       group := some "local" }]
  splitters := [("common_plot_args", get_common_plot_args),
    ("plot_args", gets [("eps", "eps", .num (1 / 10 ^ 10)),
      ("critical_point", "critical_point", .str "sonic"),
      ("local_eigvecs", "local_eigvecs", .bool true)])]
  main := ["soln_range", "common_plot_args", "plot_args"]
  passes := ["common_plot_args", "plot_args"]
  func := plotSig (.str ".")
    [("local_eigvecs", .bool true), ("critical_point", .str "sonic")] ["eps"]
  call := plotCall ["eps", "local_eigvecs", "critical_point"]
  sigs := [coef_sig, {}]

/-- `get_args` (`analyse/trajectory.py:164-198`). -/
noncomputable def get_trajectory_args : Splitter := fun args =>
  .ok
    [("v_start_position", (getD args "v_start_position" .none).orElse (.two 2 (1 / 10))),
     ("v_max_steps", getD args "v_max_steps" (.num 100000)),
     ("v_step_scaling", getD args "v_step_scaling" (.num (1 / 10 ^ 6))),
     ("B_start_position", (getD args "B_start_position" .none).orElse (.two 1 0)),
     ("B_max_steps", getD args "B_max_steps" (.num 1000000)),
     ("B_step_scaling", getD args "B_step_scaling" (.num (1 / 10 ^ 3))),
     ("with_max_v_angle", getD args "with_max_v_angle" .none)]

/-- `trajectory_parser` (`analyse/trajectory.py:122-140`). -/
noncomputable def trajectory_options : List Opt :=
  [{ name := "--v-start-position", dest := "v_start_position" },
   { name := "--v-max-steps", dest := "v_max_steps", default := some (.num 100000) },
   { name := "--v-step-scaling", dest := "v_step_scaling",
     default := some (.num (1 / 10 ^ 6)) },
   { name := "--B-start-position", dest := "B_start_position" },
   { name := "--B-max-steps", dest := "B_max_steps", default := some (.num 1000000) },
   { name := "--B-step-scaling", dest := "B_step_scaling",
     default := some (.num (1 / 10 ^ 3)) },
   { name := "--no-max-v-angle", dest := "with_max_v_angle", action := .storeFalse,
     default := some (.bool true) }]

/-- The parameters of the trajectories with their defaults (`trajectory.py:340-344`). -/
noncomputable def trajectory_defaults : Dict String Val :=
  [("v_start_position", .two 2 (1 / 10)), ("B_start_position", .two 1 0),
   ("v_max_steps", .num 100000), ("B_max_steps", .num 1000000),
   ("v_step_scaling", .num (1 / 10 ^ 6)), ("B_step_scaling", .num (1 / 10 ^ 3))]

/-- `ds-flow-plot` (`analyse/trajectory.py:143-150,314-376`). -/
noncomputable def ds_flow_plot : Command where
  name := "ds-flow-plot"
  options := trajectory_options ++ common_plot_appearence_options ++ common_output_plot_options
  splitters := [("common_plot_output_args", get_common_plot_output_args),
    ("common_plot_appearence_args", get_common_plot_appearence_args),
    ("plot_args", get_trajectory_args)]
  main := ["soln_range", "common_plot_output_args", "common_plot_appearence_args", "plot_args"]
  passes := ["common_plot_appearence_args", "common_plot_output_args", "plot_args"]
  func :=
    { required := ["filename"]
      optional := [("soln_range", .none), ("plot_filename", .none), ("show", .bool false),
        ("figargs", .none), ("title", .none), ("close", .bool true),
        ("mpl_style", DEFAULT_MPL_STYLE), ("with_version", .bool true)] ++
        trajectory_defaults ++ [("with_max_v_angle", .bool true)] }
  call := same ["figargs", "title", "filename", "mpl_style", "with_version",
    "v_start_position", "v_max_steps", "v_step_scaling", "B_start_position", "B_max_steps",
    "B_step_scaling", "with_max_v_angle"]
  sigs :=
    [{ optional := trajectory_defaults ++ [("use_E_r", .bool false), ("with_slow", .bool false),
        ("with_sonic", .bool true), ("with_alfven", .bool false), ("with_fast", .bool false),
        ("with_45_line", .bool false), ("with_max_soln_angle", .bool false),
        ("with_max_v_angle", .bool true)] }]

/-! ## Commands about several solutions -/

/-- The keyword parameters of `plot_wrapper` (`analyse/utils.py:186-190`). -/
def multiple_sig : Sig where
  optional := [("title", .none), ("figargs", .none), ("mpl_style", DEFAULT_MPL_STYLE),
    ("with_version", .bool true), ("num_solutions", .none)]
  kwargs := true

/-- `multiple_solution_plotter` (`analyse/utils.py:181-226`); `draw keywords` is loading
the solutions one after the other and drawing them (`solutionLoader` in
`Model/Plots.lean`), `count` their number. -/
noncomputable def multiple_solution_plotter {α : Type} (sigs : List Sig) (count : ℕ)
    (draw : Dict String Val → Except PyErr α) (kw : Dict String Val) :
    Except PyErr (Figure α) :=
  match bind multiple_sig kw with
  | .error e => .error e
  | .ok (own, kwargs) =>
    match bindAll sigs (("num_solutions",
        (getD own "num_solutions" .none).orElse (.num count)) :: kwargs) with
    | .error e => .error e
    | .ok params =>
      match draw params with
      | .error e => .error e
      | .ok contents => .ok
        { contents := contents
          title := getD own "title" .none
          style := getD own "mpl_style" .none
          figargs := (getD own "figargs" .none).orElse (.figargs none)
          version := (getD own "with_version" .none).truthy
          saved := .none, shown := false, closed := false }

/-- The option `--runs` (`analyse/utils.py:396-399`). -/
def runs_option : Opt := { name := "--runs", dest := "soln_pairs", action := .append }

/-- The main function of a command about several solutions and what it calls. -/
noncomputable def Command.plotMany {α : Type} (c : Command) (count : ℕ)
    (draw : Dict String Val → Except PyErr α) (kw : Dict String Val) :
    Except PyErr (Figure α) :=
  match bind c.func kw with
  | .error e => .error e
  | .ok (params, _) =>
    match multiple_solution_plotter c.sigs count draw (pick params c.call) with
    | .error e => .error e
    | .ok fig => .ok (plot_output_wrapper fig params)

/-- A command about several solutions: `analyse_main_wrapper_multisolution`
(`analyse/utils.py:373-411`), the entry point, `analysis_func_wrapper_multisolution`
(`analyse/utils.py:229-250`) and the main function.  The fields of `Command` have the
same meaning. -/
noncomputable def Command.runMany {α : Type} (c : Command)
    (draw : List (String × String) → Dict String Val → Except PyErr α)
    (given : List Occ) : Except PyErr (Figure α) :=
  match parse_args true (logging_options ++ runs_option :: c.options) given with
  | .error e => .error e
  | .ok args =>
    match split args c.splitters with
    | .error e => .error e
    | .ok cmd_args =>
      match Dict.getItem args "soln_pairs" with
      | .error e => .error e
      | .ok soln_pairs =>
        if ¬ callMain c.main (Dict.keys cmd_args) then .error .TypeError
        else
          let pairs := match soln_pairs with
            | .pairs l => l
            | _ => []
          c.plotMany pairs.length (draw pairs)
            (("num_solutions", .num pairs.length) :: passed cmd_args c.passes)

/-- The parameters of the main functions about several solutions. -/
def manySig (more : Dict String Val) : Sig where
  optional := [("plot_filename", .none), ("show", .bool false), ("linestyle", .str "-"),
    ("start", .num 0), ("stop", .num 90), ("figargs", .none), ("title", .none),
    ("close", .bool true), ("mpl_style", DEFAULT_MPL_STYLE), ("with_version", .bool true),
    ("num_solutions", .none)] ++ more

/-- What they pass on. -/
def manyCall (more : List String) : List (String × String) :=
  same (["figargs", "title", "mpl_style", "with_version", "num_solutions", "linestyle",
    "start", "stop"] ++ more)

/-- The parameters of their drawing functions. -/
def manyDraw (more : Dict String Val) : Sig where
  required := ["num_solutions"]
  optional := [("linestyle", .str "-"), ("start", .num 0), ("stop", .num 90)] ++ more

/-- `ds-compare-plot` (`analyse/compare_plot.py:16-75`). -/
def ds_compare_plot : Command where
  name := "ds-compare-plot"
  options := common_plotting_options ++ [v_θ_option]
  splitters := [("common_plot_args", get_common_plot_args),
    ("plot_args", gets [("v_θ_scale", "v_θ", .str "linear")])]
  main := ["common_plot_args", "plot_args"]
  passes := ["common_plot_args", "plot_args"]
  func := manySig [("v_θ_scale", .str "linear")]
  call := manyCall ["v_θ_scale"]
  sigs := [manyDraw [("v_θ_scale", .str "linear"), ("use_E_r", .bool false)]]

/-- `ds-sonic-ratio-plot` (`analyse/sonic_ratio_plot.py:16-63`), `ds-v-deriv-plot`
(`analyse/v_deriv_cmp.py:17-64`) and `ds-phys-ratio-plot`
(`analyse/phys_ratio_plot.py:36-83`). -/
def manyCommand (name : String) : Command where
  name := name
  options := common_plotting_options
  splitters := [("common_plot_args", get_common_plot_args)]
  main := ["common_plot_args"]
  passes := ["common_plot_args"]
  func := manySig []
  call := manyCall []
  sigs := [manyDraw []]

/-! ## Commands about all solutions of a file -/

/-- `sorted(solutions.items(), key=lambda x: int(x[0]))` (`analyse/utils.py:446-449`). -/
def sortedSolutions {σ : Type} (int : String → Except PyErr ℤ) (l : List (String × σ)) :
    Except PyErr (List (String × σ)) :=
  match l.mapM fun p => (int p.1).map fun i => (i, p) with
  | .error e => .error e
  | .ok keyed => .ok ((keyed.mergeSort fun a b => decide (a.1 ≤ b.1)).map (·.2))

/-- The main function of `ds-conserve-plot` and `ds-diverge-plot`
(`conserve_plot.py:81-105`, `diverge_plot.py:152-182`).  `title` is the title if none is
given (an empty title is the same as none written); `select` is the option
`--solutions`. -/
noncomputable def Command.plotFile {α σ : Type} (c : Command) (title : String)
    (select : Val → List (String × σ) → Except PyErr (List (String × σ)))
    (draw : List (String × σ) → Dict String Val → Except PyErr α)
    (solutions : List (String × σ)) (kw : Dict String Val) : Except PyErr (Figure α) :=
  match bind c.func kw with
  | .error e => .error e
  | .ok (params, _) =>
    match select (getD params "solution_filter" .none) solutions with
    | .error e => .error e
    | .ok chosen =>
      match bindAll c.sigs (pick params c.call) with
      | .error e => .error e
      | .ok kw =>
        match draw chosen kw with
        | .error e => .error e
        | .ok contents => .ok (plot_output_wrapper
          { contents := contents
            title := (getD params "title" .none).orElse (.str title)
            style := getD params "mpl_style" .none
            figargs := (getD kw "figargs" .none).orElse (.figargs none)
            version := (getD params "with_version" .none).truthy
            saved := .none, shown := false, closed := false } params)

/-- `ds-conserve-plot` and `ds-diverge-plot`: `analyse_multisolution_wrapper`
(`analyse/utils.py:414-458`) and the entry point. -/
noncomputable def Command.runFile {α σ : Type} (c : Command) (defaultTitle : String → String)
    (int : String → Except PyErr ℤ) (load : String → Except PyErr (List (String × σ)))
    (select : Val → List (String × σ) → Except PyErr (List (String × σ)))
    (draw : List (String × σ) → Dict String Val → Except PyErr α)
    (soln_file : String) (given : List Occ) : Except PyErr (Figure α) :=
  match parse_args true (logging_options ++ c.options) given with
  | .error e => .error e
  | .ok args =>
    match split args c.splitters with
    | .error e => .error e
    | .ok cmd_args =>
      match load soln_file with
      | .error e => .error e
      | .ok stored =>
        match sortedSolutions int stored with
        | .error e => .error e
        | .ok solutions =>
          if ¬ callMain c.main (["solutions", "filename"] ++ Dict.keys cmd_args) then
            .error .TypeError
          else
            c.plotFile (defaultTitle soln_file) select draw solutions
              (("filename", .str soln_file) :: passed cmd_args c.passes)

/-- `ds-conserve-plot` (`analyse/conserve_plot.py:20-105`). -/
def ds_conserve_plot : Command where
  name := "ds-conserve-plot"
  options := common_plotting_options
  splitters := [("common_plot_args", get_common_plot_args), ("plot_args", gets [])]
  main := ["solutions", "common_plot_args", "plot_args", "filename"]
  passes := ["plot_args", "common_plot_args"]
  func := fileSig (.str "-") [("use_E_r", .bool false)]
  call := same ["start", "stop", "figargs", "linestyle"]
  sigs := [{ optional := [("figargs", .none), ("start", .num 0), ("stop", .num 90),
    ("linestyle", .str "-")] }]

/-- `ds-diverge-plot` (`analyse/diverge_plot.py:29-182`); `--solutions` is kept as given,
reading it is `parse_solution_filter` in `Model/Info.lean`. -/
def ds_diverge_plot : Command where
  name := "ds-diverge-plot"
  options := common_plotting_options ++
    [flag "--with-slow" "with_slow", flag "--with-alfven" "with_alfven",
     flag "--with-fast" "with_fast",
     { name := "--solutions", dest := "solutions", default := some .none },
     { name := "--hide-legend", dest := "show_legend", action := .storeFalse,
       default := some (.bool true) }]
  splitters := [("common_plot_args", get_common_plot_args),
    ("plot_args", gets [("with_slow", "with_slow", .bool false),
      ("with_alfven", "with_alfven", .bool false), ("with_fast", "with_fast", .bool false),
      ("show_legend", "show_legend", .bool true), ("solution_filter", "solutions", .none)])]
  main := ["solutions", "common_plot_args", "plot_args", "filename"]
  passes := ["plot_args", "common_plot_args"]
  func := fileSig (.str "-") [("with_slow", .bool false), ("with_alfven", .bool false),
    ("with_fast", .bool false), ("show_legend", .bool true), ("solution_filter", .none)]
  call := same ["start", "stop", "figargs", "linestyle", "with_slow", "with_alfven",
    "with_fast", "show_legend"]
  sigs := [{ optional := [("figargs", .none), ("start", .num 0), ("stop", .num 90),
    ("linestyle", .str "-"), ("with_slow", .bool false), ("with_alfven", .bool false),
    ("with_fast", .bool false), ("show_legend", .bool true)] }]

end DiscSolver.Cli
