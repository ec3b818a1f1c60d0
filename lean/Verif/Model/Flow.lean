import Mathlib.Analysis.SpecialFunctions.Trigonometric.Basic
import Verif.Model.Csv
import Verif.Model.Info
import Verif.Model.Plots
import Verif.Model.Stats
import Verif.Model.Trajectory

/-!
# Figures and files of field lines and streamlines

`src/disc_solver/analyse/trajectory.py:230-474`: what the figure of ds-plot-flow shows, and
the files `save_trajectory` writes.  Legend position, limits and aspect of the axes and what
is printed are left out.
-/

namespace DiscSolver.Flow

open Trajectory

/-- A solution as far as it is read here: its rows with their angles, `γ`, and the result of
`get_all_sonic_points`. -/
structure Soln where
  rows : List (ℝ × St)
  γ : ℝ
  points : Except PyErr Info.Sonics

/-- `solution[:, ODEIndex.…]` and `angles`. -/
def Soln.angles (s : Soln) : List ℝ := s.rows.map (·.1)

/-- Where to start and how far to go (`trajectory.py:22-27, 379-384`).  The starts are pairs
of floats already. -/
structure Path where
  v_start_position : Vec := (2, 1 / 10)
  B_start_position : Vec := (1, 0)
  v_max_steps : ℤ := 100000
  B_max_steps : ℤ := 1000000
  v_step_scaling : ℝ := 1e-6
  B_step_scaling : ℝ := 1e-3

/-- `range(max_steps)` is empty for a negative number.  The arguments of both calls of
`follow_trajectory` for the velocity (`trajectory.py:268-276, 403-410`). -/
noncomputable def vFollow (s : Soln) (p : Path) : List (Vec × Vec) × Option PyErr :=
  follow_trajectory
    (compute_values s.angles (s.rows.map (·.2.v_r)) (s.rows.map (·.2.v_θ)) (-1 / 2))
    p.v_start_position p.v_max_steps.toNat p.v_step_scaling

/-- The arguments of both calls for the field (`trajectory.py:290-298, 411-418`). -/
noncomputable def BFollow (s : Soln) (p : Path) : List (Vec × Vec) × Option PyErr :=
  follow_trajectory
    (compute_values s.angles (s.rows.map (·.2.B_r)) (s.rows.map (·.2.B_θ)) (s.γ - 5 / 4))
    p.B_start_position p.B_max_steps.toNat p.B_step_scaling

/-! ## The figure -/

/-- `ax.axline((0, 0), slope=…, label=…, color=…)`: the line through the origin with that
slope. -/
structure AxLine where
  slope : ℝ
  label : String
  color : String

/-- What is drawn: the lines through the origin, then the curves. -/
structure Figure where
  lines : List AxLine
  curves : List Plots.Curve
  xlabel : String
  ylabel : String

/-- The options of `generate_plot` which choose lines (`trajectory.py:385-387`). -/
structure Lines where
  with_slow : Bool := false
  with_sonic : Bool := true
  with_alfven : Bool := false
  with_fast : Bool := false
  with_45_line : Bool := false
  with_max_soln_angle : Bool := false
  with_max_v_angle : Bool := true

/-- The line for a point (`trajectory.py:422-448`): `tan` over exact reals. -/
noncomputable def pointLine (str : ℝ → String) (shown : Bool) (angle : Option ℝ)
    (name color : String) : List AxLine :=
  match shown, angle with
  | true, some a =>
    [⟨Real.tan a, name ++ " point angle (" ++ str (ValidatePlot.degrees a) ++ "°)", color⟩]
  | _, _ => []

/-- The line for a largest angle (`trajectory.py:457-470`). -/
noncomputable def maxLine (str : ℝ → String) (shown : Bool) (angles : List ℝ)
    (name color : String) : Except PyErr (List AxLine) :=
  if shown then
    match Stats.maxOf angles with
    | .error e => .error e
    | .ok a =>
      .ok [⟨Real.tan a, "Max angle in " ++ name ++ " " ++ str (ValidatePlot.degrees a) ++ "°",
        color⟩]
  else .ok []

/-- `get_trajectory` and, later, `positions[:, 0]`, which raises `IndexError` for the
one-dimensional array of no positions at all. -/
def positions (l : List (Vec × Vec) × Option PyErr) : Except PyErr (List Vec) :=
  match l with
  | (_, some e) => .error e
  | (l, none) => .ok (l.map (·.2))

/-- `generate_plot` (`trajectory.py:376-474`).  `str` prints numbers. -/
noncomputable def generate_plot (str : ℝ → String) (s : Soln) (p : Path) (o : Lines) :
    Except PyErr Figure :=
  match s.points with
  | .error e => .error e
  | .ok points =>
    match positions (vFollow s p) with
    | .error e => .error e
    | .ok v =>
      match positions (BFollow s p) with
      | .error e => .error e
      | .ok B =>
        let fixed :=
          pointLine str o.with_slow points.slow "Slow" "C2" ++
          pointLine str o.with_sonic points.sonic "Sonic" "C3" ++
          pointLine str o.with_alfven points.alfven "alfven" "C4" ++
          pointLine str o.with_fast points.fast "fast" "C5" ++
          (if o.with_45_line then [⟨1, "45°", "C6"⟩] else [])
        match maxLine str o.with_max_soln_angle s.angles "solution" "C7" with
        | .error e => .error e
        | .ok solnLine =>
          if v = [] ∧ o.with_max_v_angle = true then .error .IndexError
          else
            match maxLine str o.with_max_v_angle (v.map fun q => arctan2 q.2 q.1)
                "v streamline" "C8" with
            | .error e => .error e
            | .ok vLine =>
              if B = [] ∨ v = [] then .error .IndexError
              else .ok
                { lines := fixed ++ solnLine ++ vLine
                  curves := [
                    { points := B, label := some "$B$ field line", color := some "C1" },
                    { points := v, label := some "$v$ streamline", color := some "C0" }]
                  xlabel := "Cylindrical radius (distance from origin, arb. units)"
                  ylabel := "Cylindrical height (distance from origin, arb. units)" }

/-- `plot` (`trajectory.py:335-360`): of the options which choose lines it passes one on. -/
noncomputable def plot (str : ℝ → String) (s : Soln) (p : Path) (with_max_v_angle : Bool) :
    Except PyErr Figure :=
  generate_plot str s p { with_max_v_angle := with_max_v_angle }

/-! ## The files -/

/-- Files that were closed, with their text. -/
abbrev Files := Dict String Text

/-- `with open(path, 'x') as f:` and a body which writes lines and may end with an exception.
`creatable` says at which paths a file can be made. -/
def writeNew (creatable : String → Bool) (fs : Files) (path : String)
    (body : List Text × Option PyErr) : Except PyErr Unit × Files :=
  match fs.get? path with
  | some _ => (.error .FileExistsError, fs)
  | none =>
    if creatable path then
      (match body.2 with
        | none => .ok ()
        | some e => .error e, Dict.set fs path body.1.flatten)
    else (.error .OSError, fs)

/-- The arguments of `save_trajectory` besides the solution and the path; the metadata as
they are printed. -/
structure Out where
  stats_output_file : String
  B_output_file : String
  v_output_file : String
  filename : Text
  soln_range : Text

/-- `helper.add_metadata(…)` and `writer.writeheader()` (`trajectory.py:252-255, 262-265,
283-286`). -/
def startOf (o : Out) (header : List Text) : List Text :=
  Csv.metadataLines [("filename".toList, o.filename), ("soln_range".toList, o.soln_range)] ++
    [Csv.writeRow header]

/-- The rows of a trajectory (`trajectory.py:277-279, 299-301`): the columns of the writer
are the two components and the position. -/
def trajRow (str : ℝ → Text) (q : Vec × Vec) : Text :=
  Csv.writeRow [str q.1.1, str q.1.2, str q.2.1, str q.2.2]

/-- `None` is written as an empty field. -/
def optField (str : ℝ → Text) : Option ℝ → Text
  | none => []
  | some x => str x

/-- `save_trajectory` (`trajectory.py:230-310`). -/
noncomputable def save_trajectory (str : ℝ → Text) (creatable : String → Bool) (s : Soln)
    (p : Path) (o : Out) (fs : Files) : Except PyErr Unit × Files :=
  match s.points with
  | .error e => (.error e, fs)
  | .ok points =>
    match Stats.maxOf s.angles with
    | .error e => (.error e, fs)
    | .ok max_soln_angle =>
      match writeNew creatable fs o.stats_output_file
          (startOf o ["slow_angle".toList, "sonic_angle".toList, "alfven_angle".toList,
              "fast_angle".toList, "max_soln_angle".toList] ++
            [Csv.writeRow [optField str points.slow, optField str points.sonic,
              optField str points.alfven, optField str points.fast, str max_soln_angle]],
            none) with
      | (.error e, fs) => (.error e, fs)
      | (.ok _, fs) =>
        match writeNew creatable fs o.v_output_file
            (startOf o ["v_x".toList, "v_y".toList, "x".toList, "y".toList] ++
              (vFollow s p).1.map (trajRow str), (vFollow s p).2) with
        | (.error e, fs) => (.error e, fs)
        | (.ok _, fs) =>
          writeNew creatable fs o.B_output_file
            (startOf o ["B_x".toList, "B_y".toList, "x".toList, "y".toList] ++
              (BFollow s p).1.map (trajRow str), (BFollow s p).2)

end DiscSolver.Flow
