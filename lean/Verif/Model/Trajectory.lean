import Mathlib.Analysis.SpecialFunctions.Complex.Arg
import Mathlib.Analysis.SpecialFunctions.Pow.Real
import Verif.Model.Arrays

/-!
# Field lines and streamlines

`src/disc_solver/analyse/trajectory.py`.  Printing and plotting are left out.
-/

namespace DiscSolver.Trajectory

/-- A position or a direction in the poloidal plane, `array([x, y])`. -/
abbrev Vec := ℝ × ℝ

/-- `numpy.arctan2(y, x)` over exact reals (no signed zeros). -/
noncomputable def arctan2 (y x : ℝ) : ℝ := Complex.arg ⟨x, y⟩

/-- `compute_values` (`trajectory.py:29-49`).  Only the `IndexError` of the lookup can
be raised. -/
noncomputable def compute_values (angles r_vals θ_vals : List ℝ) (radial_power : ℝ)
    (p : Vec) : Except PyErr Vec :=
  let r_pos := p.1 ^ 2 + p.2 ^ 2
  let θ_pos := arctan2 p.2 p.1
  let rad_coef := r_pos ^ radial_power
  match get_closest_value_sorted angles r_vals θ_pos with
  | .error e => .error e
  | .ok r =>
    match get_closest_value_sorted angles θ_vals θ_pos with
    | .error e => .error e
    | .ok θ =>
      let r_val := rad_coef * r
      let θ_val := rad_coef * θ
      let Θ_magnitude := arctan2 θ_val r_val + θ_pos
      .ok (Real.cos Θ_magnitude, Real.sin Θ_magnitude)

/-- `p + c * v` on arrays. -/
noncomputable def move (p : Vec) (c : ℝ) (v : Vec) : Vec :=
  (p.1 + c * v.1, p.2 + c * v.2)

/-- The local variables of `follow_trajectory` at the top of the loop
(`trajectory.py:66-71`).  `prev` is `none` while `prev_vals` and `prev_pos` are the
number `0`, otherwise position and values. -/
structure State where
  pos : Vec
  prev : Option (Vec × Vec)
  step_scaling : ℝ

/-- The loop of `follow_trajectory` (`trajectory.py:69-100`) with `n` iterations left:
the pairs yielded and the exception which ends the generator, if any.  `values` is
`compute_values` at a position.  With `prev = none` the new position is the float
`0 + step_scaling * 0`, and indexing it raises `TypeError`. -/
noncomputable def loop (values : Vec → Except PyErr Vec) :
    ℕ → State → List (Vec × Vec) × Option PyErr
  | 0, _ => ([], none)
  | n + 1, st =>
    match values st.pos with
    | .ok vals =>
      let rest := loop values n
        ⟨move st.pos st.step_scaling vals, some (st.pos, vals), st.step_scaling⟩
      ((vals, st.pos) :: rest.1, rest.2)
    | .error .IndexError =>
      match st.prev with
      | none => ([], some .TypeError)
      | some (prev_pos, prev_vals) =>
        let step_scaling := st.step_scaling * (1 / 100)
        let pos := move prev_pos step_scaling prev_vals
        match values pos with
        | .ok vals =>
          let rest := loop values n ⟨pos, some (pos, vals), step_scaling⟩
          ((vals, pos) :: rest.1, rest.2)
        | .error .IndexError => ([], none)
        | .error e => ([], some e)
    | .error e => ([], some e)

/-- `follow_trajectory` (`trajectory.py:52-100`): all it yields. -/
noncomputable def follow_trajectory (values : Vec → Except PyErr Vec) (start : Vec)
    (max_steps : ℕ) (step_scaling : ℝ) : List (Vec × Vec) × Option PyErr :=
  loop values max_steps ⟨start, none, step_scaling⟩

/-- `get_trajectory` (`trajectory.py:103-119`): values and positions. -/
noncomputable def get_trajectory (values : Vec → Except PyErr Vec) (start : Vec)
    (max_steps : ℕ) (step_scaling : ℝ) : Except PyErr (List Vec × List Vec) :=
  match follow_trajectory values start max_steps step_scaling with
  | (l, none) => .ok (l.map (·.1), l.map (·.2))
  | (_, some e) => .error e

/-- Calling a Python function which takes the keyword arguments `params` and no others:
an unknown keyword raises `TypeError` before the body runs. -/
def callKw {α : Type} (params given : List String) (body : Except PyErr α) :
    Except PyErr α :=
  if given.all (· ∈ params) then body else .error .TypeError

/-- The keywords of `get_args(args)` (`trajectory.py:190-198`). -/
def trajArgs : List String :=
  ["v_start_position", "v_max_steps", "v_step_scaling", "B_start_position",
   "B_max_steps", "B_step_scaling", "with_max_v_angle"]

/-- The keywords of `get_trajectory_out_args(args)` (`trajectory.py:201-209`). -/
def outArgs : List String := ["stats_output_file", "B_output_file", "v_output_file"]

/-- The keyword arguments of `save_trajectory` (`trajectory.py:231-237`). -/
def saveParams : List String :=
  ["soln_range", "stats_output_file", "B_output_file", "v_output_file",
   "v_start_position", "B_start_position", "v_max_steps", "B_max_steps",
   "v_step_scaling", "B_step_scaling", "filename"]

/-- The keyword arguments of `plot` (`trajectory.py:337-345`). -/
def plotParams : List String :=
  ["soln_range", "plot_filename", "show", "figargs", "title", "close", "filename",
   "mpl_style", "with_version", "v_start_position", "B_start_position", "v_max_steps",
   "B_max_steps", "v_step_scaling", "B_step_scaling", "with_max_v_angle"]

/-- The keywords of `get_common_plot_appearence_args` and `get_common_plot_output_args`
(`analyse/utils.py:290-313`). -/
def commonPlotArgs : List String :=
  ["title", "mpl_style", "with_version", "show", "plot_filename", "figargs"]

/-- The keywords passed to `save_trajectory` (`trajectory.py:224-227`,
`analyse/utils.py:461-472`). -/
def trajKeywords : List String := ["soln_range"] ++ outArgs ++ trajArgs ++ ["filename"]

/-- The keywords passed to `plot` (`trajectory.py:327-331`, `analyse/utils.py:461-472`). -/
def plotKeywords : List String := ["soln_range"] ++ commonPlotArgs ++ trajArgs ++ ["filename"]

/-- `traj_main` (`trajectory.py:212-226`) through `analysis_func_wrapper`
(`analyse/utils.py:461-472`): the file is opened and its run read (`run`), then
`save_trajectory` is called with the keywords the entry point passes on and
`filename`. -/
def traj_main {α ρ : Type} (run : Except PyErr ρ) (save_trajectory : ρ → Except PyErr α) :
    Except PyErr α :=
  match run with
  | .error e => .error e
  | .ok r => callKw saveParams trajKeywords (save_trajectory r)

/-- `plot_main` (`trajectory.py:314-331`), the same way. -/
def plot_main {α ρ : Type} (run : Except PyErr ρ) (plot : ρ → Except PyErr α) :
    Except PyErr α :=
  match run with
  | .error e => .error e
  | .ok r => callKw plotParams plotKeywords (plot r)

end DiscSolver.Trajectory
