import Mathlib.Analysis.SpecialFunctions.Pow.Real
import Verif.Model.Arrays
import Verif.Model.Inputs
import Verif.Model.ValidatePlot

/-!
# Statistics of many files

`src/disc_solver/analyse/stats.py`, `src/disc_solver/analyse/dump_csv.py:48-61` and
`src/disc_solver/analyse/phys_ratio_plot.py:140-193`.  The logged messages are left out.
-/

namespace DiscSolver.Stats

/-! ## Reading -/

/-- The run in a file as `get_all_solutions` meets it: every item is loaded when it is
reached, and loading may raise. -/
structure StoredRun (σ : Type) where
  solutions : List (String × Except PyErr σ)
  final : Except PyErr (Option σ)

/-- The items of the file's `solutions` up to the first which cannot be loaded, and
whether the end was reached. -/
def loadItems {σ : Type} : List (String × Except PyErr σ) → List (String × Option σ) × Bool
  | [] => ([], true)
  | (_, .error _) :: _ => ([], false)
  | (n, .ok s) :: l => ((n, some s) :: (loadItems l).1, (loadItems l).2)

/-- The body of the loop of `get_all_solutions` (`stats.py:284-298`) for one file.
`KeyError` is caught in the loop, everything else by `catch_exceptions`; both only write
to the log. -/
def fileItems {σ : Type} (file : String) : Except PyErr (StoredRun σ) →
    List (String × String × Option σ)
  | .error _ => []
  | .ok r =>
    let l := (loadItems r.solutions).1.map fun p => (file, p.1, p.2)
    if (loadItems r.solutions).2 then
      match r.final with
      | .error _ => l
      | .ok s => l ++ [(file, "final", s)]
    else l

/-- `get_all_solutions` (`stats.py:279-298`).  `read` is opening the file and getting
its run. -/
def get_all_solutions {σ : Type} (read : String → Except PyErr (StoredRun σ))
    (files : List String) : List (String × String × Option σ) :=
  files.flatMap fun f => fileItems f (read f)

/-- `get_all_files` (`stats.py:301-309`): the arguments, then the lines of the standard
input, stripped (`strip` is `str.strip`). -/
def get_all_files (strip : String → String) (solution_files : List String)
    (with_stdin : Bool) (stdin : List String) : List String :=
  solution_files ++ if with_stdin then stdin.map strip else []

/-! ## Writing -/

/-- `FIELD_NAMES` after the inputs (`stats.py:34-62`). -/
def statNames : List String := [
  "max_slow_mach", "max_slow_mach_angle_degrees", "max_sonic_mach",
  "max_sonic_mach_angle_degrees", "max_alfven_mach", "max_alfven_mach_angle_degrees",
  "max_fast_mach", "max_fast_mach_angle_degrees", "slow_sonic_point",
  "sonic_sonic_point", "alfven_sonic_point", "fast_sonic_point",
  "M_dot_out_on_M_dot_in", "Σ", "max_B_p_on_B_t", "max_jet_v_z", "max_jet_v_z_height",
  "max_diff_continuity", "max_diff_solenoid", "max_diff_radial_momentum",
  "max_diff_azimuthal_momentum", "max_diff_polar_momentum", "max_diff_polar_induction",
  "max_diff_E_φ", "filename", "solution_name", "max_angle_reached_degrees",
  "v_θ_starts_monotonic", "v_θ_ends_low"]

/-- `SOLUTION_INPUT_FIELDS`. -/
def inputNames : List String := SField.all.map SField.name

/-- `FIELD_NAMES` (`stats.py:33-63`). -/
def FIELD_NAMES : List String := inputNames ++ statNames

/-- The keys of the dictionary returned by `get_max_mach_numbers` (`stats.py:134-143`). -/
def machKeys : List String := [
  "max_slow_mach", "max_slow_mach_angle_degrees", "max_sonic_mach",
  "max_sonic_mach_angle_degrees", "max_alfven_mach", "max_alfven_mach_angle_degrees",
  "max_fast_mach", "max_fast_mach_angle_degrees"]

/-- The keys of `labelled_get_all_sonic_points` (`stats.py:161-166`). -/
def sonicKeys : List String := [
  "slow_sonic_point", "sonic_sonic_point", "alfven_sonic_point", "fast_sonic_point"]

/-- The keys of `singluar_stats` (`stats.py:196-203`). -/
def singularKeys : List String := [
  "M_dot_out_on_M_dot_in", "Σ", "max_B_p_on_B_t", "max_angle_reached_degrees",
  "v_θ_starts_monotonic", "v_θ_ends_low"]

/-- The keys of `compute_max_vert_jet_velocity` (`stats.py:110-113`). -/
def jetKeys : List String := ["max_jet_v_z", "max_jet_v_z_height"]

/-- The keys of `compute_max_difference_in_equations` (`stats.py:71-93`). -/
def diffKeys : List String := [
  "max_diff_continuity", "max_diff_solenoid", "max_diff_radial_momentum",
  "max_diff_azimuthal_momentum", "max_diff_polar_momentum", "max_diff_polar_induction",
  "max_diff_E_φ"]

/-- The keys of the functions of `STATS_FUNCS` in order (`stats.py:206-209`). -/
def statsKeys : List (List String) := [machKeys, sonicKeys, singularKeys, jetKeys, diffKeys]

/-- What the rows are made of.  `V` are the objects put into the row, `str` a string as
one.  `input` is an attribute of `solution.solution_input`, `values` the value a function
of `STATS_FUNCS`, found by its keys, gives for one of its keys, or the exception it
raises. -/
structure Env (σ V : Type) where
  str : String → V
  input : σ → SField → V
  values : List String → σ → Except PyErr (String → V)

/-- `solution_input.asdict()`. -/
def asdict {σ V : Type} (e : Env σ V) (s : σ) : Dict String V :=
  SField.all.map fun f => (f.name, e.input s f)

/-- The loop of `compute_solution_stats` (`stats.py:220-221`). -/
def statsLoop {σ V : Type} (e : Env σ V) (s : σ) :
    List (List String) → Dict String V → Except PyErr (Dict String V)
  | [], stats => .ok stats
  | keys :: l, stats =>
    match e.values keys s with
    | .error err => .error err
    | .ok f => statsLoop e s l (stats.update (keys.map fun k => (k, f k)))

/-- `compute_solution_stats` (`stats.py:212-222`), with `metadata`. -/
def compute_solution_stats {σ V : Type} (e : Env σ V) (s : σ) (metadata : Dict String V) :
    Except PyErr (Dict String V) :=
  statsLoop e s statsKeys (Dict.update [] metadata)

/-- `DictWriter.writerow`: `ValueError` for an unknown key, otherwise the values in the
order of the field names, an empty string where there is none. -/
def dictRow {V : Type} (str : String → V) (fieldnames : List String) (d : Dict String V) :
    Except PyErr (List V) :=
  if d.keys.all (· ∈ fieldnames) then
    .ok (fieldnames.map fun k => (d.get? k).getD (str ""))
  else .error .ValueError

/-- The metadata of a solution (`stats.py:236-241`). -/
def soln_info {σ V : Type} (e : Env σ V) (filename soln_name : String) (s : σ) :
    Dict String V :=
  Dict.update [("filename", e.str filename), ("solution_name", e.str soln_name)]
    (asdict e s)

/-- The row of a solution (`stats.py:241-245`). -/
def statsRow {σ V : Type} (e : Env σ V) (filename soln_name : String) (s : σ) :
    Except PyErr (List V) :=
  match compute_solution_stats e s (soln_info e filename soln_name s) with
  | .error err => .error err
  | .ok d => dictRow e.str FIELD_NAMES d

/-- The loop of `write_stats` and `write_inputs` (`stats.py:234-252, 264-276`): the rows
written and the exception which ends it.  Only `ValueError` is caught. -/
def writeLoop {σ V : Type} (row : String → String → σ → Except PyErr (List V)) :
    List (String × String × Option σ) → List (List V) × Option PyErr
  | [] => ([], none)
  | (_, _, none) :: l => writeLoop row l
  | (f, n, some s) :: l =>
    match row f n s with
    | .ok r => (r :: (writeLoop row l).1, (writeLoop row l).2)
    | .error .ValueError => writeLoop row l
    | .error err => ([], some err)

/-- `write_stats` (`stats.py:225-252`): the rows appended to the output file. -/
def write_stats {σ V : Type} (e : Env σ V) (items : List (String × String × Option σ)) :
    List (List V) × Option PyErr :=
  (FIELD_NAMES.map e.str :: (writeLoop (statsRow e) items).1,
   (writeLoop (statsRow e) items).2)

/-- The row written by `write_inputs` and `dump_csv` (`stats.py:269`,
`dump_csv.py:61`). -/
def inputRow {σ V : Type} (e : Env σ V) (s : σ) : Except PyErr (List V) :=
  dictRow e.str inputNames (asdict e s)

/-- `write_inputs` (`stats.py:255-276`). -/
def write_inputs {σ V : Type} (e : Env σ V) (items : List (String × String × Option σ)) :
    List (List V) × Option PyErr :=
  (inputNames.map e.str :: (writeLoop (fun _ _ s => inputRow e s) items).1,
   (writeLoop (fun _ _ s => inputRow e s) items).2)

/-- `dump_csv` after the solution was found (`dump_csv.py:55-61`). -/
def dump_csv {σ V : Type} (e : Env σ V) (with_header : Bool) (s : σ) :
    List (List V) × Option PyErr :=
  match inputRow e s with
  | .ok r => ((if with_header then [inputNames.map e.str] else []) ++ [r], none)
  | .error err => (if with_header then [inputNames.map e.str] else [], some err)

/-- `stats_main` (`stats.py:341-348`): the rows appended to the output file. -/
def stats_main {σ V : Type} (e : Env σ V) (read : String → Except PyErr (StoredRun σ))
    (files : List String) : List (List V) × Option PyErr :=
  write_stats e (get_all_solutions read files)

/-! ## Single statistics -/

/-- Python's `max` over an array. -/
noncomputable def maxOf : List ℝ → Except PyErr ℝ
  | [] => .error .ValueError
  | x :: l => .ok (l.foldl max x)

/-- One of the entries of `compute_max_difference_in_equations` (`stats.py:66-93`): the
maximum of the residual over the recorded rows, not of its size. -/
noncomputable def max_diff (check : ValidatePlot.Cons → ValidatePlot.Row → ℝ)
    (c : ValidatePlot.Cons) (rows : List ValidatePlot.Row) : Except PyErr ℝ :=
  maxOf (rows.map (check c))

/-- `is_v_θ_monotonic` (`stats.py:169-176`). -/
noncomputable def is_v_θ_monotonic (upto_degrees : ℝ) (rows : List (ℝ × St)) : Bool :=
  open Classical in
  is_monotonically_increasing
    ((rows.filter fun p => decide (ValidatePlot.degrees p.1 ≤ upto_degrees)).map
      fun p => p.2.v_θ)

/-- `does_v_θ_end_low` (`stats.py:179-183`). -/
noncomputable def does_v_θ_end_low (cutoff : ℝ) (rows : List (ℝ × St)) :
    Except PyErr Bool :=
  open Classical in
  match rows.getLast? with
  | none => .error .IndexError
  | some p => .ok (decide (p.2.v_θ ≤ cutoff))

/-- `compute_Σ` (`phys_ratio_plot.py:189-193`). -/
noncomputable def compute_Sigma (rows : List (ℝ × St)) : ℝ := (rows.map fun p => p.2.ρ).sum

/-- `compute_M_dot_out` (`phys_ratio_plot.py:154-169`). -/
noncomputable def compute_M_dot_out (γ r_in r_out : ℝ) (rows : List (ℝ × St)) :
    Except PyErr ℝ :=
  match rows.getLast? with
  | none => .error .IndexError
  | some p => .ok (4 * Real.pi * ((r_out ^ (2 * γ) - r_in ^ (2 * γ)) / (2 * γ)) *
      (p.2.ρ * p.2.v_θ))

/-- `compute_M_dot_in` (`phys_ratio_plot.py:172-186`); `simps` is `scipy`'s Simpson
rule. -/
noncomputable def compute_M_dot_in (simps : List (ℝ × ℝ) → ℝ) (γ r_in r_out : ℝ)
    (rows : List (ℝ × St)) : ℝ :=
  -4 * Real.pi * simps (rows.map fun p => (p.1, p.2.ρ * p.2.v_r)) *
    (r_in ^ (2 * γ - 1) - r_out ^ (2 * γ - 1))

/-- `compute_M_dot_out_on_M_dot_in` (`phys_ratio_plot.py:140-151`).  Simplification: a
zero inflow, which gives `inf` or NaN, is a division by zero in `ℝ`. -/
noncomputable def compute_M_dot_out_on_M_dot_in (simps : List (ℝ × ℝ) → ℝ)
    (γ r_in r_out : ℝ) (rows : List (ℝ × St)) : Except PyErr ℝ :=
  match compute_M_dot_out γ r_in r_out rows with
  | .error e => .error e
  | .ok out => .ok (out / compute_M_dot_in simps γ r_in r_out rows)

end DiscSolver.Stats
