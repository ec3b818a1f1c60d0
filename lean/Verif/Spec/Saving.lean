import Verif.Spec.FileFormat
import Verif.Spec.Sessions

/-!
# A run of a session as the objects which are saved

The runs of `Spec/Sessions` hold what the methods computed as real numbers, lists and rows; the
files of `Model/FileFormat` hold text, numbers and arrays.  Here the former are written as the
latter, attribute by attribute, in the order of the classes in `file_format/_containers.py`.
-/

namespace DiscSolver.Saving

open FileFormat Runners SingleRun

/-- A `numpy` number. -/
def number (x : ℝ) : Obj := .arr ⟨[], [.val x]⟩

/-- A list of numbers as an array. -/
def vector (l : List ℝ) : Obj := .arr ⟨[l.length], l.map .val⟩

/-- The numbers of a state, in the order of `ODEIndex` (`utils.py:57-72`). -/
def numbers (s : St) : List ℝ :=
  [s.B_r, s.B_φ, s.B_θ, s.v_r, s.v_φ, s.v_θ, s.ρ, s.X, s.η_O, s.η_A, s.η_H]

/-- A list of states as an array, one row each. -/
def table (l : List St) : Obj :=
  .arr ⟨[l.length, 11], l.flatMap fun s => (numbers s).map .val⟩

/-- The state with the numbers given by their position. -/
def stateOf (x : ℕ → ℝ) : St := ⟨x 0, x 1, x 2, x 3, x 4, x 5, x 6, x 7, x 8, x 9, x 10⟩

/-- The matrix of a linear map, row by row. -/
noncomputable def matrix (f : St → St) : List ℝ :=
  (List.range 11).flatMap fun i => (List.range 11).map fun j =>
    (numbers (f (stateOf fun k => if k = j then 1 else 0))).getD i 0

/-- A whole number. -/
def whole (n : Int) : Obj := .num (.val n)

/-- A whole number or `None`. -/
def optWhole : Option Int → Obj
  | some n => whole n
  | none => .none

/-- An attribute of a `SolutionInput`. -/
def value : SVal ℝ → Obj
  | .float x => number x
  | .int n => whole n
  | .bool b => .bool b
  | .str t => .text (String.ofList t)
  | .slice s => .obj .slice
      [("start", optWhole s.start), ("stop", optWhole s.stop), ("step", optWhole s.step)]
  | .mcmc m => .obj .MCMCVars
      [("with_v_r", .bool m.with_v_r), ("with_v_a", .bool m.with_v_a),
       ("with_v_k", .bool m.with_v_k)]
  | .none => .none

/-- A `SolutionInput` (`_containers.py:245-281`). -/
def input (s : SolutionInput ℝ) : Obj :=
  .obj .SolutionInput (SField.all.map fun f => (f.name, value (s f)))

/-- Text or `None`. -/
def optText : Option String → Obj
  | some t => .text t
  | none => .none

/-- A `ConfigInput` (`_containers.py:91-130`). -/
def config (c : ConfigInput) : Obj :=
  .obj .ConfigInput (CField.all.map fun f => (f.name, optText ((c f).map String.ofList)))

/-- The number of a flag. -/
def flagNumber : StatusFlag → Int
  | .SUCCESS => 0
  | .TSTOP_RETURN => 1
  | .ROOT_RETURN => 2
  | .TOO_CLOSE => -27
  | .OTHER n => n

/-- `JacobianData` (`_containers.py:382-407`). -/
noncomputable def jacobians (d : JacobianData) : Obj :=
  .obj .JacobianData
    [("jacobians", .arr ⟨[d.jacobians.length, 11, 11],
        d.jacobians.flatMap fun f => (matrix f).map .val⟩),
     ("derivs", table d.derivs), ("params", table d.params), ("angles", vector d.angles)]

/-- `InternalData` (`_containers.py:432-449`). -/
noncomputable def internal (d : InternalData) : Obj :=
  .obj .InternalData
    [("derivs", table d.derivs), ("params", table d.params), ("angles", vector d.angles),
     ("jacobian_data", jacobians d.jacobian_data), ("v_r_normal", vector d.v_r_normal),
     ("v_φ_normal", vector d.v_φ_normal), ("ρ_normal", vector d.ρ_normal),
     ("v_r_taylor", vector d.v_r_taylor), ("v_φ_taylor", vector d.v_φ_taylor),
     ("ρ_taylor", vector d.ρ_taylor), ("problems", .problems d.problems)]

/-- `InitialConditions` (`_containers.py:24-68`); the diffusivities are those of the initial
state. -/
def initial (c : Conditions) : Obj :=
  .obj .InitialConditions
    [("norm_kepler_sq", number c.norm_kepler_sq), ("η_O", number c.init_con.η_O),
     ("η_A", number c.init_con.η_A), ("η_H", number c.init_con.η_H), ("γ", number c.γ),
     ("init_con", .arr ⟨[11], (numbers c.init_con).map .val⟩), ("angles", vector c.angles),
     ("a_0", number c.a_0)]

/-- An optional attribute. -/
def opt {α : Type} (f : α → Obj) : Option α → Obj
  | some x => f x
  | none => .none

/-- A `Solution` (`_containers.py:71-88`). -/
noncomputable def soln (m : Made) : Obj :=
  .obj .Solution
    [("solution_input", input m.solution_input), ("angles", vector m.out.angles),
     ("solution", table m.out.solution), ("flag", whole (flagNumber m.out.flag)),
     ("coordinate_system", .text "spherical midplane 0"),
     ("internal_data", opt internal m.out.internal_data),
     ("initial_conditions", initial m.initial_conditions),
     ("t_roots", opt vector m.out.t_roots), ("y_roots", opt table m.out.y_roots),
     ("sonic_point", .none), ("sonic_point_values", .none), ("derivatives", .none),
     ("is_post_shock_only", .bool m.out.is_post_shock_only)]

/-- `Run.final_solution`. -/
noncomputable def final : Final Made → Obj
  | .delayed => .delayed
  | .value m => opt soln m

/-- What a run also remembers: the version of the program, the floating point type, and the
time. -/
structure Extras where
  version : String
  float_type : String
  time : String

/-- A `Run` (`_containers.py:601-620`). -/
noncomputable def run (x : Extras) (r : TheRun ℝ Made) : Obj :=
  .obj .Run
    [("config_input", config r.info.config_input),
     ("config_filename", optText r.info.config_filename),
     ("disc_solver_version", .text x.version), ("float_type", .text x.float_type),
     ("sonic_method", .text r.info.sonic_method), ("time", .text x.time),
     ("use_E_r", value r.info.use_E_r), ("final_solution", final r.final),
     ("solutions", .solutions (r.solutions.map fun p => (p.1, soln p.2))),
     ("is_post_shock_only", .bool r.is_post_shock_only),
     ("based_on_solution_filename", optText r.based_on_filename),
     ("based_on_solution_solution_name", optText r.based_on_solution)]

/-- The fields of an input which hold whole numbers that must be there. -/
def wholeNumbers : List SField := [.max_steps, .num_angles, .nwalkers, .iterations, .threads]

/-- The attributes of a `ConfigInput` which may be `None`. -/
def optional : List CField :=
  [.s .jump_before_sonic, .s .mcmc_vars, .s .v_θ_sonic_crit, .s .after_sonic,
   .s .sonic_interp_size, .s .interp_range, .s .interp_slice]

/-- Every other attribute holds text. -/
def Complete (c : ConfigInput) : Prop := ∀ f, f ∉ optional → c f ≠ none

end DiscSolver.Saving
