import Verif.Model.Containers
import Verif.Model.Arrays
import Verif.Model.Mcmc
import Verif.Model.Text

/-!
# `ds-info`, `ds-dumpcfg` and the choice of solutions

`src/disc_solver/analyse/info.py`, `dump_config.py` and `parse_solution_filter` of
`diverge_plot.py`.
-/

namespace DiscSolver.Info

open Text hiding none

/-! ## Choice of solutions -/

/-- `entry.split('-', 2)` (`diverge_plot.py:52`): at most two splits. -/
def splitDash2 (s : Text) : List Text :=
  match s.splitOn '-' with
  | a :: b :: c :: l => [a, b, ['-'].intercalate (c :: l)]
  | l => l

/-- `str(i)` for `i` in `range(a, b)` (`diverge_plot.py:53-54`). -/
def rangeStr (a b : Int) : List Text :=
  (List.range (b - a).toNat).map fun k : ℕ => ofInt (a + k)

/-- One entry of the filter (`diverge_plot.py:50-57`).  Unpacking three values into two is
`ValueError`. -/
def filterEntry (entry : Text) : Except PyErr (List Text) :=
  let entry := strip entry
  if '-' ∈ entry then
    match splitDash2 entry with
    | [start, stop] =>
      match toInt start with
      | .error e => .error e
      | .ok a =>
        match toInt stop with
        | .error e => .error e
        | .ok b => .ok (rangeStr a b ++ [stop])
    | _ => .error .ValueError
  else .ok [entry]

/-- The loop of `parse_solution_filter`. -/
def filterEntries : List Text → Except PyErr (List Text)
  | [] => .ok []
  | e :: l =>
    match filterEntry e with
    | .error err => .error err
    | .ok ids =>
      match filterEntries l with
      | .error err => .error err
      | .ok rest => .ok (ids ++ rest)

/-- `list(parse_solution_filter(filter_string))` (`diverge_plot.py:45-57, 66`). -/
def parse_solution_filter (filter_string : Text) : Except PyErr (List Text) :=
  filterEntries (splitComma (strip filter_string))

/-! ## Information -/

/-- What is printed: a line of text, or a name with a value. -/
inductive Item (V : Type) where
  | line (text : String)
  | field (name : String) (value : V)

/-- The result of `get_all_sonic_points`. -/
structure Sonics where
  slow : Option ℝ
  sonic : Option ℝ
  alfven : Option ℝ
  fast : Option ℝ

/-- The columns of Mach numbers, without NaN. -/
structure MachColumns where
  slow : List ℝ
  sonic : List ℝ
  alfven : List ℝ
  fast : List ℝ

/-- `get_all_sonic_points` (`critical_points.py:80-102`) for Mach numbers without NaN. -/
noncomputable def get_all_sonic_points (angles : List ℝ) (m : MachColumns) :
    Except PyErr Sonics :=
  match sonic_angle angles m.slow with
  | .error e => .error e
  | .ok slow =>
    match sonic_angle angles m.sonic with
    | .error e => .error e
    | .ok sonic =>
      match sonic_angle angles m.alfven with
      | .error e => .error e
      | .ok alfven =>
        match sonic_angle angles m.fast with
        | .error e => .error e
        | .ok fast => .ok ⟨slow, sonic, alfven, fast⟩

/-- The attributes of the run which are printed, as objects `V`. -/
structure RunInfo (V : Type) where
  filename : V
  label : V
  config_filename : V
  sonic_method : V
  version : V
  use_E_r : V
  config : List (String × V)

/-- A solution as far as it is printed.  `points` is the result of `get_all_sonic_points`
or its exception, `v_θ` the column of the solution. -/
structure Soln (V : Type) where
  flag : V
  coordinate_system : V
  has_internal_data : Bool
  has_derivatives : Bool
  has_t_roots : Bool
  has_y_roots : Bool
  input : List (String × V)
  initial_conditions : List (String × V)
  c_s_on_v_k : ℝ
  points : Except PyErr Sonics
  v_θ : List ℝ

/-- How Python objects are printed. -/
structure Objects (V : Type) where
  nat : ℕ → V
  bool : Bool → V
  float : ℝ → V
  /-- `None` or a number -/
  opt : Option ℝ → V

/-- The output: what was printed to `output_file`, what to standard output, and the
exception. -/
structure Output (V : Type) where
  file : List (Item V) := []
  stdout : List (Item V) := []
  error : Option PyErr := none

/-- The names with their probabilities (`info.py:190-193`). -/
noncomputable def logprobs {V : Type} :
    Dict String (Soln V) → Except PyErr (List (String × ℝ))
  | [] => .ok []
  | (name, s) :: l =>
    match Mcmc.get_logprob_of_soln s.v_θ with
    | .error e => .error e
    | .ok p =>
      match logprobs l with
      | .error e => .error e
      | .ok r => .ok ((name, p) :: r)

/-- `sort_solutions` (`info.py:185-194`); Python's `sorted` is stable and ascending. -/
noncomputable def sort_solutions {V : Type} (solutions : Dict String (Soln V)) :
    Except PyErr (List (String × ℝ)) :=
  open Classical in
  match logprobs solutions with
  | .error e => .error e
  | .ok l => .ok (l.mergeSort fun a b => decide (a.2 ≤ b.2))

/-- The word printed for `crosses-points` (`info.py:142-167`). -/
def crosses (p : Sonics) : String :=
  if p.fast ≠ none then "fast"
  else if p.alfven ≠ none then "alfven"
  else if p.sonic ≠ none then "sonic"
  else if p.slow ≠ none then "slow"
  else "none"

/-- `info` after `get_solutions` (`info.py:54-182`). -/
noncomputable def infoGroup {V : Type} (O : Objects V) (run : RunInfo V)
    (solutions : Dict String (Soln V)) (s : Soln V) (group : String) : Output V :=
  if group = "run" then
    { file := [.line "run properties:", .field "filename" run.filename,
        .field "label" run.label, .field "config filename" run.config_filename,
        .field "sonic method" run.sonic_method,
        .field "DiscSolver version" run.version, .field "using E_r" run.use_E_r,
        .field "number of solutions" (O.nat solutions.length), .line "config:"] ++
        run.config.map fun p => .field p.1 p.2 }
  else if group = "status" then
    { file := [.field "ODE return flag" s.flag,
        .field "Coordinate System" s.coordinate_system,
        .field "Has internal data" (O.bool s.has_internal_data),
        .field "Has derivatives" (O.bool s.has_derivatives),
        .field "Has t_roots" (O.bool s.has_t_roots),
        .field "Has y_roots" (O.bool s.has_y_roots)] }
  else if group = "sonic-on-scale" then
    match s.points with
    | .error e => { error := some e }
    | .ok p =>
      match p.sonic with
      | none => { error := some .TypeError }
      | some θ => { stdout := [.field "sonic-on-scale" (O.float (θ / s.c_s_on_v_k))] }
  else if group = "solutions" then
    match sort_solutions solutions with
    | .error e => { error := some e }
    | .ok l => { file := l.map fun p => .line p.1 }
  else if group = "input" then
    { file := .line "input settings:" :: s.input.map fun p => .field p.1 p.2 }
  else if group = "initial-conditions" then
    { file := .line "initial conditions:" ::
        s.initial_conditions.map fun p => .field p.1 p.2 }
  else
    match s.points with
    | .error e => { error := some e }
    | .ok p =>
      if group = "crosses-points" then { file := [.line (crosses p)] }
      else if group = "sonic-points" then
        { file := [.field "slow sonic point" (O.opt p.slow),
            .field "sonic point" (O.opt p.sonic),
            .field "alfven sonic point" (O.opt p.alfven),
            .field "fast sonic point" (O.opt p.fast)] }
      else { error := some .AnalysisError }

/-- `info` (`info.py:48-182`).  Simplifications: the label in front of the results of
`sonic-on-scale` and `crosses-points` is left out; using `None` or the placeholder of a run
in progress as a solution is `AttributeError`, except for the groups which do not use
it. -/
noncomputable def info {V μ : Type} (O : Objects V) (run : RunInfo V)
    (r : Run μ (Soln V)) (soln_range : Option String) (group : String) : Output V :=
  match r.getSolutions soln_range with
  | .error e => { error := some e }
  | .ok (.soln s) => infoGroup O run r.solutions s group
  | .ok _ =>
    if group = "run" ∨ group = "solutions" then
      infoGroup O run r.solutions
        ⟨run.filename, run.filename, false, false, false, false, [], [], 0,
          .error .AttributeError, []⟩ group
    else { error := some .AttributeError }

/-- The choices of the parser (`info.py:24-27`). -/
def GROUPS : List String :=
  ["run", "status", "input", "initial-conditions", "sonic-points", "crosses-points",
   "sonic-on-scale", "solutions"]

end DiscSolver.Info
